import Verif.Model.DemoOmpl
import Verif.Props.OmplSession
import Verif.Props.OmplPlan
import Verif.Props.DemoProbWitness

/-!
# C100 – the demonstration programs with the sampling-based baseline
-/

namespace Hrm

/-- What the program asks the library, from the configuration files: RRT-Connect with the uniform sampler and the validity
check, in a box around the origin of the semi-axes of the first arena surface, less 1.2 times the first semi-axis of the
robot's base, which is not empty; from and to the end points of their file, moved into the box. -/
theorem C100_problem {OL : OmplLib} (hOL : OL.Ok) {k : OmplKind} (hk : k.posDim = 3) {stof : List Char → Scan} {num : ℕ}
    {D : Dirs} {fs : Files} {first last : Vec} {p : OmplProblem}
    (h : setupOmpl3 OL k stof num D fs = .ok (first, last, p)) :
    ∃ arena A obs ends robot quats, loadQuadrics stof num (fs (arenaCfg D "3D".toList)) = .ok arena ∧ arena[0]? = some A ∧
      loadQuadrics stof num (fs (obsCfg D "3D".toList)) = .ok obs ∧
      loadRobot3 stof num (fs (robotCfg D "3D".toList)) none = .ok (robot, quats) ∧
      parseCsv stof (fs (endsCfg D "3D".toList)) = .ok ends ∧ ends[0]? = some first ∧ ends[1]? = some last ∧
      p.space.planner = some .rrtConnect ∧ p.space.sampler = some .uniform ∧ p.space.checker = true ∧
      p.space.high = [A.a - 6 / 5 * robot.base.a, A.b - 6 / 5 * robot.base.a, A.c - 6 / 5 * robot.base.a] ∧
      p.space.low = p.space.high.map (fun x => -x) ∧ (∀ x ∈ p.space.high, 0 ≤ x) ∧
      StateFrom k p.space.low p.space.high first p.start ∧ StateFrom k p.space.low p.space.high last p.goal := by
  unfold setupOmpl3 loadEnvironment3 at h
  obtain ⟨S, hS, h⟩ := Res.bind_eq_ok.1 h
  obtain ⟨arena, hla, hS⟩ := Res.bind_eq_ok.1 hS
  obtain ⟨obs, hlo, hS⟩ := Res.bind_eq_ok.1 hS
  obtain ⟨ends, hle, hS⟩ := Res.bind_eq_ok.1 hS
  obtain rfl := (Res.ok.injEq _ _).mp hS
  obtain ⟨⟨robot, quats⟩, hR, h⟩ := Res.bind_eq_ok.1 h
  obtain ⟨b, hb, h⟩ := Res.bind_eq_ok.1 h
  unfold omplBounds at hb
  obtain ⟨A, hA, hb⟩ := Res.bind_eq_ok.1 hb
  obtain ⟨s0, hnew, h⟩ := Res.bind_eq_ok.1 h
  obtain ⟨⟨s1, o⟩, hset, h⟩ := Res.bind_eq_ok.1 h
  obtain ⟨n1, n2, n3, n4, n5⟩ := new_spec hnew
  have hb' := (Res.ok.injEq _ _).mp hb
  dsimp only at hb' h
  have m0 : (omplStore b).read s0.lowRef = .ok b.1 := by rw [n2]; rfl
  have m1 : (omplStore b).read s0.highRef = .ok b.2 := by rw [n3]; rfl
  unfold OmplSession.setup at hset
  rw [m0, m1, Res.bind_ok', Res.bind_ok', n1] at hset
  have l1 : b.1.length = 3 := by rw [← hb']; rfl
  have l2 : b.2.length = 3 := by rw [← hb']; rfl
  cases hsp : OL.setStateSpace k b.1 b.2 with
  | throw =>
    rw [hsp] at hset
    obtain ⟨rfl, rfl⟩ := Prod.mk.inj ((Res.ok.injEq _ _).mp hset)
    exact nomatch h
  | ub => rw [hsp] at hset; exact nomatch hset
  | ok S =>
    rw [hsp] at hset
    obtain ⟨rfl, rfl⟩ := Prod.mk.inj ((Res.ok.injEq _ _).mp hset)
    dsimp only at h
    obtain ⟨st, hs, h⟩ := Res.bind_eq_ok.1 h
    obtain ⟨go, hg, h⟩ := Res.bind_eq_ok.1 h
    obtain ⟨o, ho, h⟩ := Res.bind_eq_ok.1 h
    obtain ⟨-, -, rfl, hrej⟩ := setStateSpace_ok hsp
    rw [hk, List.take_of_length_le (by omega), List.take_of_length_le (by omega)] at hrej ho
    have hord : Ordered b.1 b.2 := ordered_of_accepted hOL hrej
    unfold OmplSession.plan at ho
    dsimp only at ho
    set Q : OmplSpace := ⟨b.1, b.2, plannerOf 3, samplerOf 0, true⟩ with hQ
    rcases stateOf_spec hOL (k := k) (S := Q) hord (l1.trans hk.symm) (l2.trans hk.symm) st with ⟨-, u, e1, f1⟩ | ⟨-, e1⟩
    · rcases stateOf_spec hOL (k := k) (S := Q) hord (l1.trans hk.symm) (l2.trans hk.symm) go with ⟨-, w, e2, f2⟩ | ⟨-, e2⟩
      · rw [e1, e2] at ho
        simp only [Res.bind_ok'] at ho
        obtain rfl := (Res.ok.injEq _ _).mp ho
        obtain ⟨rfl, rfl, rfl⟩ : st = first ∧ go = last ∧ (⟨Q, u, w⟩ : OmplProblem) = p := by
          simpa using (Res.ok.injEq _ _).mp h
        have hlow : b.1 = b.2.map fun x => -x := by rw [← hb']; simp
        have hhigh : b.2 = [A.a - 6 / 5 * robot.base.a, A.b - 6 / 5 * robot.base.a, A.c - 6 / 5 * robot.base.a] := by
          rw [← hb']; simp; refine ⟨?_, ?_, ?_⟩ <;> ring
        refine ⟨arena, A, obs, ends, robot, quats, hla, Res.at'_eq_ok.1 hA, hlo, hR, hle, Res.at'_eq_ok.1 hs, Res.at'_eq_ok.1 hg,
          rfl, rfl, rfl, hhigh, hlow, fun x hx => ?_, f1, f2⟩
        obtain ⟨i, hi⟩ := List.mem_iff_getElem?.1 hx
        have h1 : b.1[i]? = some (-x) := by rw [hlow, List.getElem?_map]; change Option.map _ b.2[i]? = _; rw [show b.2[i]? = some x from hi]; rfl
        have := hord i _ _ h1 hi
        linarith
      · rw [e1, e2] at ho
        obtain rfl := (Res.ok.injEq _ _).mp ho
        exact nomatch h
    · rw [e1] at ho
      obtain rfl := (Res.ok.injEq _ _).mp ho
      exact nomatch h

/-- The files a run leaves: the configuration files, and the library's answer `c` to the problem `p` above: the planner data,
the simplified path and its interpolation, the latter two only if the library reported a path in time. -/
theorem C100_stored_answer {OL : OmplLib} {answer : OmplProblem → OmplCall} {maxTime : ℝ} {k : Files → OmplKind}
    {stof : List Char → Scan} {pr : ℝ → List Char} {D : Dirs} {T : Task} {num : ℕ} {suffix : List Char} {fs fs' : Files}
    (h : demoOmpl3D OL answer maxTime k stof pr D T num suffix fs = .ok fs') :
    ∃ (fs1 : Files) (first last : Vec) (p : OmplProblem) (c : OmplCall), parsePlanningConfig stof pr D T fs = .ok fs1 ∧
      setupOmpl3 OL (k fs1) stof num D fs1 = .ok (first, last, p) ∧
      c = { answer p with start := first, goal := last, maxTime := maxTime } ∧
      (∀ n, n ∉ outFiles D suffix → fs' n = fs1 n) ∧
      fs' (outFile D "vertex".toList suffix) = some (writeRows pr c.verts) ∧
      fs' (outFile D "edge".toList suffix) =
        some (writeEdges ((List.range c.verts.length).flatMap fun i => (c.adj i).map fun j => (i, j))) ∧
      fs' (outFile D "path_id".toList suffix) = some [] ∧
      (c.Found → ∃ a, c.solve = some a ∧ fs' (outFile D "solution_path".toList suffix) = some (writeRows pr a.simplified) ∧
        fs' (outFile D "interpolated_path".toList suffix) = some (writeRows pr a.interp)) ∧
      (¬ c.Found → fs' (outFile D "solution_path".toList suffix) = some [] ∧
        fs' (outFile D "interpolated_path".toList suffix) = some []) := by
  unfold demoOmpl3D at h
  obtain ⟨fs1, h1, h⟩ := Res.bind_eq_ok.1 h
  obtain ⟨⟨first, last, p⟩, h2, h⟩ := Res.bind_eq_ok.1 h
  obtain ⟨⟨rep, bb⟩, h3, h⟩ := Res.bind_eq_ok.1 h
  have h' := (Res.ok.injEq _ _).mp h
  dsimp only at h3 h'
  obtain ⟨-, -, -, g1, g2, g3, g4, -⟩ := omplPlanS_spec (s := .init true) rfl h3
  set c : OmplCall := { answer p with start := first, goal := last, maxTime := maxTime } with hc
  have e1 : rep.path = c.simplePath := g1
  have e2 : rep.pathInterp = c.interpPath := g2
  have hnd := outFiles_nodup D suffix
  simp only [outFiles, List.map_cons, List.map_nil, List.nodup_cons, List.mem_cons, List.not_mem_nil, or_false, not_or,
    List.nodup_nil, and_true, not_false_eq_true] at hnd
  obtain ⟨⟨n1, n2, n3, n4⟩, ⟨n5, n6, n7⟩, ⟨n8, n9⟩, n10⟩ := hnd
  have hs : fs' (outFile D "solution_path".toList suffix) = some (writeRows pr rep.path) := by
    rw [← h', Files.put_ne _ _ n10, Files.put_same]
  have hi : fs' (outFile D "interpolated_path".toList suffix) = some (writeRows pr rep.pathInterp) := by
    rw [← h', Files.put_same]
  refine ⟨fs1, first, last, p, c, h1, h2, rfl, ?_, ?_, ?_, ?_, ?_, ?_⟩
  · intro n hn
    simp only [outFiles, List.map_cons, List.map_nil, List.mem_cons, List.not_mem_nil, or_false, not_or] at hn
    rw [← h', Files.put_ne _ _ hn.2.2.2.2, Files.put_ne _ _ hn.2.2.2.1, Files.put_ne _ _ hn.2.2.1, Files.put_ne _ _ hn.2.1,
      Files.put_ne _ _ hn.1]
  · rw [← h', Files.put_ne _ _ n4, Files.put_ne _ _ n3, Files.put_ne _ _ n2, Files.put_ne _ _ n1, Files.put_same, g3]
  · rw [← h', Files.put_ne _ _ n7, Files.put_ne _ _ n6, Files.put_ne _ _ n5, Files.put_same, g4]
  · rw [← h', Files.put_ne _ _ n9, Files.put_ne _ _ n8, Files.put_same]; rfl
  · intro hf
    obtain ⟨a, ha, hr⟩ := hf
    have hf : c.Found := ⟨a, ha, hr⟩
    refine ⟨a, ha, ?_, ?_⟩
    · rw [hs, e1]; unfold OmplCall.simplePath; rw [if_pos hf, ha]
    · rw [hi, e2]; unfold OmplCall.interpPath; rw [if_pos hf, ha]
  · intro hf
    refine ⟨?_, ?_⟩
    · rw [hs, e1]; unfold OmplCall.simplePath; rw [if_neg hf]; rfl
    · rw [hi, e2]; unfold OmplCall.interpPath; rw [if_neg hf]; rfl

/-- **C100 (partial).** The whole program, from the resource files to the result files: whenever it ends normally, it has
changed no file but the four configuration files and the five result files; it has asked the library for a path with
RRT-Connect, uniform sampling and the validity check, in a box around the *origin* of the size of the arena of the arena file
less 1.2 times the first semi-axis of the robot's base, from and to the converted end points *moved into this box*; and the
result files hold the library's answer. Missing: that the box lies about the arena and the end points are those of the file,
which is wrong (`C100_refuted`). -/
theorem C100_demo_end_to_end_partial {OL : OmplLib} (hOL : OL.Ok) {answer : OmplProblem → OmplCall} {maxTime : ℝ}
    {k : Files → OmplKind} (hk : ∀ fs, (k fs).posDim = 3) {stof : List Char → Scan} {pr : ℝ → List Char} {D : Dirs} {T : Task}
    (hT : T.Plain) (hD : D.cfg ≠ D.resDim T) (hdim : T.dim = "3D".toList) {num : ℕ} {suffix : List Char} {fs fs' : Files}
    (h : demoOmpl3D OL answer maxTime k stof pr D T num suffix fs = .ok fs') :
    (∀ n, n ∉ cfgFiles D T.dim → n ∉ outFiles D suffix → fs' n = fs n) ∧
    ∃ (fs1 : Files) (ta tb tr te : List Char) (arena obs : List SuperQuadrics) (A : SuperQuadrics) (ends : List (List ℝ))
      (first last : Vec) (robot : Tree3) (quats : List Quat) (p : OmplProblem) (c : OmplCall),
      parsePlanningConfig stof pr D T fs = .ok fs1 ∧
      parseGeometricModel stof pr (fs (arenaRes D T)) = .ok ta ∧ loadQuadrics stof num (some ta) = .ok arena ∧
      arena[0]? = some A ∧
      parseGeometricModel stof pr (fs (obsRes D T)) = .ok tb ∧ loadQuadrics stof num (some tb) = .ok obs ∧
      parseGeometricModel stof pr (fs (robotRes D T)) = .ok tr ∧ loadRobot3 stof num (some tr) none = .ok (robot, quats) ∧
      parseStartGoalConfig stof pr (kindOf T.robot) .space (fs (endsRes D T)) = .ok te ∧
      parseCsv stof (some te) = .ok ends ∧ ends[0]? = some first ∧ ends[1]? = some last ∧
      p.space.planner = some .rrtConnect ∧ p.space.sampler = some .uniform ∧ p.space.checker = true ∧
      p.space.high = [A.a - 6 / 5 * robot.base.a, A.b - 6 / 5 * robot.base.a, A.c - 6 / 5 * robot.base.a] ∧
      p.space.low = p.space.high.map (fun x => -x) ∧ (∀ x ∈ p.space.high, 0 ≤ x) ∧
      StateFrom (k fs1) p.space.low p.space.high first p.start ∧ StateFrom (k fs1) p.space.low p.space.high last p.goal ∧
      c = { answer p with start := first, goal := last, maxTime := maxTime } ∧
      fs' (outFile D "vertex".toList suffix) = some (writeRows pr c.verts) ∧
      fs' (outFile D "edge".toList suffix) =
        some (writeEdges ((List.range c.verts.length).flatMap fun i => (c.adj i).map fun j => (i, j))) ∧
      fs' (outFile D "path_id".toList suffix) = some [] ∧
      (c.Found → ∃ a, c.solve = some a ∧ fs' (outFile D "solution_path".toList suffix) = some (writeRows pr a.simplified) ∧
        fs' (outFile D "interpolated_path".toList suffix) = some (writeRows pr a.interp)) ∧
      (¬ c.Found → fs' (outFile D "solution_path".toList suffix) = some [] ∧
        fs' (outFile D "interpolated_path".toList suffix) = some []) := by
  obtain ⟨fs1, first, last, p, c, h1, h2, hc, h3, h4, h5, h6, h7, h8⟩ := C100_stored_answer h
  obtain ⟨ta, tb, tr, te, ha, hb, hr, he, f1, f2, f3, f4, hfr⟩ := (C96_config_files hT hD).1 h1
  rw [hdim] at f1 f2 f3 f4
  have hd : dimOf T.dim = .space := by rw [hdim]; decide
  rw [hd] at he
  obtain ⟨arena, A, obs, ends, robot, quats, g1, g2, g3, g4, g5, g6, g7, g8⟩ := C100_problem hOL (hk fs1) h2
  rw [f1] at g1
  rw [f2] at g3
  rw [f3] at g4
  rw [f4] at g5
  obtain ⟨q1, q2, q3, q4, q5, q6, q7, q8⟩ := g8
  exact ⟨fun n hn hn' => (h3 n hn').trans (hfr n hn), fs1, ta, tb, tr, te, arena, obs, A, ends, first, last, robot, quats, p, c, h1,
    ha, g1, g2, hb, g3, hr, g4, he, g5, g6, g7, q1, q2, q3, q4, q5, q6, q7, q8, hc, h4, h5, h6, h7, h8⟩

/-! ## When the programs end normally -/

theorem omplPlanS_ends {dim : ℕ} {s : OmplRep} {c : OmplCall} (hr : s.ready = true) (h1 : dim ≤ c.start.length)
    (h2 : dim ≤ c.goal.length) : ∃ r, omplPlan dim getSolution3 s c = .ok r := by
  unfold omplPlan
  dsimp only
  rw [if_neg (by simp [hr]), readState_eq, readState_eq, if_pos h1, if_pos h2, Res.bind_ok', Res.bind_ok']
  unfold getSolution3
  dsimp only
  obtain ⟨t', h⟩ := omplGraph_all c { omplPath3 c (omplSolve c { s with isSolved := false }) with
    numGraphVertex := c.verts.length, numGraphEdges := c.numEdges }
  rw [h]
  exact ⟨_, rfl⟩

/-- **C100, normal end.** Once the configuration files are written, the program ends normally exactly if it gets to ask the
library, whatever the library answers. -/
theorem C100_ends_iff {OL : OmplLib} (hOL : OL.Ok) (answer : OmplProblem → OmplCall) (maxTime : ℝ) {k : Files → OmplKind}
    (hk : ∀ fs, (k fs).posDim = 3) {stof : List Char → Scan} {pr : ℝ → List Char} {D : Dirs} {T : Task} (num : ℕ)
    (suffix : List Char) {fs fs1 : Files} (h1 : parsePlanningConfig stof pr D T fs = .ok fs1) :
    (∃ fs', demoOmpl3D OL answer maxTime k stof pr D T num suffix fs = .ok fs') ↔
      ∃ first last p, setupOmpl3 OL (k fs1) stof num D fs1 = .ok (first, last, p) := by
  constructor
  · rintro ⟨fs', h⟩
    obtain ⟨fs2, first, last, p, _, h2, h3, -⟩ := C100_stored_answer h
    rw [h1] at h2
    obtain rfl := (Res.ok.injEq _ _).mp h2
    exact ⟨first, last, p, h3⟩
  · rintro ⟨first, last, p, h⟩
    obtain ⟨arena, A, obs, ends, robot, quats, -, -, -, -, -, -, -, -, -, -, -, -, -, f1, f2⟩ := C100_problem hOL (hk fs1) h
    obtain ⟨r, hr⟩ := omplPlanS_ends (s := .init true) (c := { answer p with start := first, goal := last, maxTime := maxTime }) rfl
      f1.long f2.long
    unfold demoOmpl3D
    rw [h1, Res.bind_ok', h, Res.bind_ok', hr]
    exact ⟨_, rfl⟩

theorem setStateSpace_bad {OL : OmplLib} (hOL : OL.Ok) {k : OmplKind} (hk : k.posDim = 3) {x1 x2 x3 y1 y2 y3 : ℝ}
    (h : y1 < x1 ∨ y2 < x2 ∨ y3 < x3) : OL.setStateSpace k [x1, x2, x3] [y1, y2, y3] = .throw := by
  unfold OmplLib.setStateSpace
  rw [foldlM_range_idx, foldlM_range_idx, hk, if_pos (by simp), if_pos (by simp)]
  simp only [Res.bind_ok']
  rw [if_pos]
  rcases h with h | h | h
  · exact ⟨(x1, y1), by simp, hOL.rejects _ _ h⟩
  · exact ⟨(x2, y2), by simp, hOL.rejects _ _ h⟩
  · exact ⟨(x3, y3), by simp, hOL.rejects _ _ h⟩

/-- **C100, normal end.** With files that can be read: the library is asked if each semi-axis of the first arena surface is more
than 1.2 times the first semi-axis of the robot's base and there are two end points with enough numbers; an exception leaves
`main` if a semi-axis is less than that, or if there is no second end point or one of the two has too few numbers. -/
theorem C100_setup_outcome {OL : OmplLib} (hOL : OL.Ok) {k : OmplKind} (hk : k.posDim = 3) {stof : List Char → Scan} {num : ℕ}
    {D : Dirs} {fs : Files} {arena obs : List SuperQuadrics} {A : SuperQuadrics} {robot : Tree3} {quats : List Quat}
    {ends : List (List ℝ)} (hla : loadQuadrics stof num (fs (arenaCfg D "3D".toList)) = .ok arena) (hA : arena[0]? = some A)
    (hlo : loadQuadrics stof num (fs (obsCfg D "3D".toList)) = .ok obs)
    (hR : loadRobot3 stof num (fs (robotCfg D "3D".toList)) none = .ok (robot, quats))
    (hle : parseCsv stof (fs (endsCfg D "3D".toList)) = .ok ends) :
    (6 / 5 * robot.base.a < A.a → 6 / 5 * robot.base.a < A.b → 6 / 5 * robot.base.a < A.c →
      ∀ first last, ends[0]? = some first → ends[1]? = some last → k.dim ≤ first.length → k.dim ≤ last.length →
        ∃ p, setupOmpl3 OL k stof num D fs = .ok (first, last, p)) ∧
    (A.a < 6 / 5 * robot.base.a ∨ A.b < 6 / 5 * robot.base.a ∨ A.c < 6 / 5 * robot.base.a →
      setupOmpl3 OL k stof num D fs = .throw) ∧
    (ends.length < 2 ∨ (∃ v, (ends[0]? = some v ∨ ends[1]? = some v) ∧ v.length < k.dim) →
      ∀ x, setupOmpl3 OL k stof num D fs ≠ .ok x) := by
  set r := 6 / 5 * robot.base.a with hr
  set b : Vec × Vec := ([-A.a + r, -A.b + r, -A.c + r], [-(-A.a + r), -(-A.b + r), -(-A.c + r)]) with hbd
  have hb : omplBounds arena robot = .ok b := by
    unfold omplBounds
    rw [Res.at'_eq_ok.2 hA, Res.bind_ok']
    rfl
  have hpre : setupOmpl3 OL k stof num D fs =
      (OmplSession.new OL k (omplStore b) 0 1).bind fun s =>
        (s.setup OL (omplStore b) 3 0).bind fun r =>
        match r.2 with
        | .threw => .throw
        | _ =>
          (Res.at' ends 0).bind fun st => (Res.at' ends 1).bind fun go =>
          (r.1.plan OL st go).bind fun o =>
          match o with
          | .handed p => .ok (st, go, p)
          | _ => .throw := by
    unfold setupOmpl3 loadEnvironment3
    rw [hla, Res.bind_ok', hlo, Res.bind_ok', hle, Res.bind_ok', Res.bind_ok', hR, Res.bind_ok']
    dsimp only
    rw [hb, Res.bind_ok']
    rfl
  have m0 : (omplStore b).read 0 = .ok b.1 := rfl
  have m1 : (omplStore b).read 1 = .ok b.2 := rfl
  refine ⟨fun q1 q2 q3 first last e0 e1 l0 l1 => ?_, fun hbad => ?_, fun hbad x hx => ?_⟩
  · have hsp : OL.setStateSpace k b.1 b.2 = .ok ⟨b.1, b.2, none, none, false⟩ := by
      rw [setStateSpace_good hOL (by rw [hk, hbd]; rfl) (by rw [hk, hbd]; rfl) (by
        intro x hx
        simp only [hbd, hk, List.take_succ_cons, List.take_zero, List.zip_cons_cons, List.zip_nil_left, List.mem_cons,
          List.not_mem_nil, or_false] at hx
        rcases hx with rfl | rfl | rfl <;> dsimp only <;> linarith)]
      simp [hbd, hk]
    have hord : Ordered b.1 b.2 := by
      obtain ⟨-, -, -, hrej⟩ := setStateSpace_ok hsp
      rw [hk] at hrej
      exact ordered_of_accepted hOL hrej
    obtain ⟨s0, hnew⟩ : ∃ s0, OmplSession.new OL k (omplStore b) 0 1 = .ok s0 := by
      unfold OmplSession.new
      cases k with
      | plane => exact ⟨_, rfl⟩
      | space => exact ⟨_, rfl⟩
      | articulated n => dsimp only; rw [m0, m1, Res.bind_ok', Res.bind_ok', hsp]; exact ⟨_, rfl⟩
    obtain ⟨n1, n2, n3, -, -⟩ := new_spec hnew
    have hset : s0.setup OL (omplStore b) 3 0 =
        .ok ({ s0 with ss := some ⟨b.1, b.2, plannerOf 3, samplerOf 0, true⟩ }, .done) := by
      unfold OmplSession.setup
      rw [n1, n2, n3, m0, m1, Res.bind_ok', Res.bind_ok', hsp]
    rw [hpre, hnew, Res.bind_ok', hset, Res.bind_ok']
    dsimp only
    rw [Res.at'_eq_ok.2 e0, Res.bind_ok', Res.at'_eq_ok.2 e1, Res.bind_ok']
    unfold OmplSession.plan
    dsimp only
    rw [n1]
    set Q : OmplSpace := ⟨b.1, b.2, plannerOf 3, samplerOf 0, true⟩ with hQ
    rcases stateOf_spec hOL (k := k) (S := Q) hord hk.symm hk.symm first with ⟨-, u, g1, -⟩ | ⟨g1, -⟩
    · rcases stateOf_spec hOL (k := k) (S := Q) hord hk.symm hk.symm last with ⟨-, w, g2, -⟩ | ⟨g2, -⟩
      · rw [g1, g2]; exact ⟨_, rfl⟩
      · omega
    · omega
  · have hsp : OL.setStateSpace k b.1 b.2 = .throw := setStateSpace_bad hOL hk (by
      rcases hbad with h | h | h
      · left; linarith
      · right; left; linarith
      · right; right; linarith)
    rw [hpre]
    unfold OmplSession.new
    cases k with
    | plane =>
      rw [Res.bind_ok']
      unfold OmplSession.setup
      dsimp only
      rw [m0, m1, Res.bind_ok', Res.bind_ok', hsp]
      rfl
    | space =>
      rw [Res.bind_ok']
      unfold OmplSession.setup
      dsimp only
      rw [m0, m1, Res.bind_ok', Res.bind_ok', hsp]
      rfl
    | articulated n => dsimp only; rw [m0, m1, Res.bind_ok', Res.bind_ok', hsp]; rfl
  · obtain ⟨first, last, p⟩ := x
    obtain ⟨_, _, _, ends', _, _, -, -, -, -, k4, k5, k6, -, -, -, -, -, -, f1, f2⟩ := C100_problem hOL hk hx
    rw [hle] at k4
    obtain rfl := (Res.ok.injEq _ _).mp k4
    rcases hbad with h | ⟨v, h | h, hv⟩
    · have := (List.getElem?_eq_some_iff.1 k6).1; omega
    · rw [k5] at h
      obtain rfl := Option.some.inj h
      have := f1.long; omega
    · rw [k6] at h
      obtain rfl := Option.some.inj h
      have := f2.long; omega

/-- **C100, the program for articulated robots.** With a well-formed robot description in this robot's file: the program ends
normally only if the conversion delivers a joint value for every movable joint of the description, and then the library gets
states of the position, the orientation and one number per movable joint, all of them between -π/2 and π/2. -/
theorem C100_articulated_states {OL : OmplLib} (hOL : OL.Ok) {answer : OmplProblem → OmplCall} {maxTime : ℝ}
    {urdf : Option (List Char) → Option UrdfModel} {gq : Matrix (Fin 3) (Fin 3) ℝ → Quat}
    {stof : List Char → Scan} {pr : ℝ → List Char} (hpr : PrintOk pr)
    (hnum : ∀ x, stof (pr x) ≠ .invalid) {D : Dirs} {T : Task} (hT : T.Plain) (hD : D.cfg ≠ D.resDim T)
    (hdim : T.dim = "3D".toList) (hu : urdfFile D T.robot ∉ cfgFiles D T.dim) {M : UrdfModel} {fs fs' : Files}
    (hM : urdf (fs (urdfFile D T.robot)) = some M) (hok : M.Ok) {num : ℕ} {suffix : List Char}
    (h : demoOmpl3D OL answer maxTime (articulatedKind urdf gq D T.robot) stof pr D T num suffix fs = .ok fs') :
    6 + (movableNames (linkJoints M.children)).length ≤ (kindOf T.robot).numDOF ∧
    ∃ (fs1 : Files) (rows : List (List ℝ)) (row0 row1 cs cg : List ℝ) (p : OmplProblem),
      parsePlanningConfig stof pr D T fs = .ok fs1 ∧ parseCsv stof (fs (endsRes D T)) = .ok rows ∧
      rows[0]? = some row0 ∧ rows[1]? = some row1 ∧ convertConfig (kindOf T.robot) .space row0 = .ok (some cs) ∧
      convertConfig (kindOf T.robot) .space row1 = .ok (some cg) ∧
      setupOmpl3 OL (articulatedKind urdf gq D T.robot fs1) stof num D fs1 =
        .ok (cs.map (readBack stof pr), cg.map (readBack stof pr), p) ∧
      ∀ u ∈ [p.start, p.goal], u.length = 7 + (movableNames (linkJoints M.children)).length ∧
        ∀ x ∈ u.drop 7, -hrmHalfPi ≤ x ∧ x ≤ hrmHalfPi := by
  obtain ⟨fs1, first, last, p, c, hpc, hset, -⟩ := C100_stored_answer h
  obtain ⟨_, _, _, te, -, -, -, hte, -, -, -, f4, hfr⟩ := (C96_config_files hT hD).1 hpc
  have hd : dimOf T.dim = .space := by rw [hdim]; decide
  rw [hd] at hte
  rw [hdim] at f4
  obtain ⟨rows, crows, hrows, rfl, hlen, hconv⟩ := startGoal_inv hte
  have hkind : articulatedKind urdf gq D T.robot fs1 = .articulated (movableNames (linkJoints M.children)).length := by
    unfold articulatedKind
    rw [hfr _ hu, hM]
    exact congrArg _ (C84_joint_number hok)
  obtain ⟨_, _, _, ends, _, _, -, -, -, -, hends, hs0, hg0, -, -, -, -, -, -, g1, g2⟩ :=
    C100_problem hOL (k := articulatedKind urdf gq D T.robot fs1) rfl hset
  rw [f4] at hends
  obtain ⟨hval, rfl⟩ := writeRow_read hpr hnum hends
  rw [List.getElem?_map] at hs0 hg0
  obtain ⟨cs, hcs, rfl⟩ := Option.map_eq_some_iff.1 hs0
  obtain ⟨cg, hcg, rfl⟩ := Option.map_eq_some_iff.1 hg0
  have l0 := (List.getElem?_eq_some_iff.1 hcs).1
  have l1 := (List.getElem?_eq_some_iff.1 hcg).1
  rw [hlen] at l0 l1
  have c0 := hconv 0 _ cs (List.getElem?_eq_getElem l0) hcs
  have c1 := hconv 1 _ cg (List.getElem?_eq_getElem l1) hcg
  have hl := g1.long
  rw [hkind, List.length_map, convertConfig_length c0] at hl
  have hdm : (OmplKind.articulated (movableNames (linkJoints M.children)).length).dim =
      7 + (movableNames (linkJoints M.children)).length := rfl
  rw [hdm] at hl
  have key : ∀ {low high v u : Vec}, StateFrom (articulatedKind urdf gq D T.robot fs1) low high v u →
      u.length = 7 + (movableNames (linkJoints M.children)).length ∧ ∀ x ∈ u.drop 7, -hrmHalfPi ≤ x ∧ x ≤ hrmHalfPi := by
    intro low high v u hs
    rw [hkind] at hs
    exact ⟨hs.admissible.length, hs.admissible.joints⟩
  refine ⟨by omega, fs1, rows, _, _, cs, cg, p, hpc, hrows, List.getElem?_eq_getElem l0, List.getElem?_eq_getElem l1, c0, c1,
    hset, fun u hu => ?_⟩
  simp only [List.mem_cons, List.not_mem_nil, or_false] at hu
  rcases hu with rfl | rfl
  · exact key g1
  · exact key g2

/-! ## What does not hold -/

/-- The claim of C100: the library is asked for a path from and to the configured end points, at least if both are at the
centre of the arena, with unit orientations. -/
def C100_claim (OL : OmplLib) : Prop :=
  ∀ (stof : List Char → Scan) (num : ℕ) (D : Dirs) (fs : Files) (first last : Vec) (p : OmplProblem)
    (arena : List SuperQuadrics) (A : SuperQuadrics), setupOmpl3 OL .space stof num D fs = .ok (first, last, p) →
    loadQuadrics stof num (fs (arenaCfg D "3D".toList)) = .ok arena → arena[0]? = some A →
    (∀ v ∈ [first, last], ∃ q : Quat, q.Unit ∧ v = [A.pos 0, A.pos 1, A.pos 2, q.1, q.2.1, q.2.2.1, q.2.2.2]) →
    p.start = first ∧ p.goal = last

/-- On the files of the example (arena of radius 10 about (10, 10, 10), robot of radius 5, both end points at the centre of the
arena) the program does ask the library: in the box of 4 about the origin. -/
theorem C100_witness {OL : OmplLib} (hOL : OL.Ok) : ∃ p, setupOmpl3 OL .space exStof 1 exDirs exAfter = .ok (exRowE, exRowE, p) ∧
    p.space.high = [4, 4, 4] := by
  obtain ⟨a1, a2, a3, a4, a5⟩ := exAfter_cfg
  change exAfter (arenaCfg exDirs "3D".toList) = _ at a1
  change exAfter (obsCfg exDirs "3D".toList) = _ at a2
  change exAfter (robotCfg exDirs "3D".toList) = _ at a3
  change exAfter (endsCfg exDirs "3D".toList) = _ at a4
  have hA : loadQuadrics exStof 1 (some ([exRowA].flatMap (writeRow exPr96))) = .ok [exArena96] :=
    exLoad 10 10 10 1 1 10 10 10 (by intro t ht; simp only [List.mem_cons, List.not_mem_nil, or_false] at ht ⊢; tauto)
  have hO : loadQuadrics exStof 1 (some ([exRowO].flatMap (writeRow exPr96))) = .ok [exObs96] :=
    exLoad 2 2 2 1 1 10 10 10 (by intro t ht; simp only [List.mem_cons, List.not_mem_nil, or_false] at ht ⊢; tauto)
  have hR : loadQuadrics exStof 1 (some ([exRowR].flatMap (writeRow exPr96))) = .ok [exBody96] :=
    exLoad 5 5 5 1 1 0 0 0 (by intro t ht; simp only [List.mem_cons, List.not_mem_nil, or_false] at ht ⊢; tauto)
  have hE : parseCsv exStof (some ([exRowE, exRowE].flatMap (writeRow exPr96))) = .ok [exRowE, exRowE] := by
    refine exRows_read _ fun r hr t ht => ?_
    simp only [List.mem_cons, List.not_mem_nil, or_false] at hr
    rcases hr with rfl | rfl <;> simp only [exRowE, List.mem_cons, List.not_mem_nil, or_false] at ht ⊢ <;> tauto
  have hb : omplBounds [exArena96] (Tree3.new exBody96) = .ok ([-4, -4, -4], [4, 4, 4]) := by
    unfold omplBounds
    simp only [Res.at', List.getElem?_cons_zero, Res.bind_ok']
    norm_num [exArena96, exBody96, Tree3.new]
  set b : Vec × Vec := ([-4, -4, -4], [4, 4, 4]) with hbd
  have hsp : OL.setStateSpace .space b.1 b.2 = .ok ⟨b.1, b.2, none, none, false⟩ :=
    setStateSpace_good hOL (by simp [OmplKind.posDim, hbd]) (by simp [OmplKind.posDim, hbd]) (by
      intro x hx
      simp only [hbd, OmplKind.posDim, List.take_succ_cons, List.take_zero, List.zip_cons_cons, List.zip_nil_left, List.mem_cons,
        List.not_mem_nil, or_false, or_self] at hx
      subst hx; norm_num)
  have hord : Ordered b.1 b.2 := by
    obtain ⟨-, -, -, hrej⟩ := setStateSpace_ok hsp
    exact ordered_of_accepted hOL hrej
  set Q : OmplSpace := ⟨b.1, b.2, plannerOf 3, samplerOf 0, true⟩ with hQ
  rcases stateOf_spec hOL (k := .space) (S := Q) hord rfl rfl exRowE with ⟨-, u, e1, -⟩ | ⟨hl, -⟩
  · refine ⟨⟨Q, u, u⟩, ?_, rfl⟩
    unfold setupOmpl3 loadEnvironment3
    rw [a1, a2, a4, hA, Res.bind_ok', hO, Res.bind_ok', hE, Res.bind_ok', Res.bind_ok', a3]
    unfold loadRobot3
    rw [hR, Res.bind_ok']
    have hq : loadQuats exStof none = .ok [] := rfl
    rw [hq]
    simp only [Res.idx, List.getElem?_cons_zero, Res.bind_ok', List.drop_one, List.tail_cons, List.foldl_nil]
    rw [hb, Res.bind_ok']
    unfold OmplSession.new
    rw [Res.bind_ok']
    unfold OmplSession.setup
    have m0 : (omplStore b).read 0 = .ok b.1 := rfl
    have m1 : (omplStore b).read 1 = .ok b.2 := rfl
    dsimp only
    rw [m0, m1, Res.bind_ok', Res.bind_ok', hsp]
    dsimp only
    rw [Res.bind_ok']
    dsimp only
    unfold OmplSession.plan
    simp only [Res.at', List.getElem?_cons_zero, List.getElem?_cons_succ, Res.bind_ok']
    rw [e1]
    rfl
  · simp [exRowE, OmplKind.dim, OmplKind.posDim, OmplKind.rotDim, OmplKind.joints] at hl

/-- **C100 is refuted**: on these files the library is asked for a path from somewhere else. -/
theorem C100_refuted {OL : OmplLib} (hOL : OL.Ok) : ¬ C100_claim OL := by
  intro hc
  obtain ⟨p, h, hhigh⟩ := C100_witness hOL
  obtain ⟨a1, -⟩ := exAfter_cfg
  change exAfter (arenaCfg exDirs "3D".toList) = _ at a1
  have hA : loadQuadrics exStof 1 (exAfter (arenaCfg exDirs "3D".toList)) = .ok [exArena96] := by
    rw [a1]
    exact exLoad 10 10 10 1 1 10 10 10 (by intro t ht; simp only [List.mem_cons, List.not_mem_nil, or_false] at ht ⊢; tauto)
  obtain ⟨hp, -⟩ := hc exStof 1 exDirs exAfter exRowE exRowE p [exArena96] exArena96 h hA rfl (by
    intro v hv
    obtain rfl : v = exRowE := by simpa using hv
    exact ⟨(1, 0, 0, 0), by norm_num [Quat.Unit], by simp [exRowE, exArena96]⟩)
  obtain ⟨-, -, -, -, -, -, -, -, -, -, -, -, -, -, -, -, -, hlow, -, hst, -⟩ := C100_problem hOL rfl h
  have := hst.admissible.pos.2.2 0 (-4) 4 10 (by rw [hlow, hhigh]; rfl) (by rw [hhigh]; rfl) (by rw [hp]; rfl)
  norm_num at this

/-- `C100_demo_end_to_end_partial` applies: the program ends normally on the files of the example, whatever the library
answers. -/
example {OL : OmplLib} (hOL : OL.Ok) (answer : OmplProblem → OmplCall) (maxTime : ℝ) (suffix : List Char) :
    ∃ fs', demoOmpl3D OL answer maxTime rigidKind exStof exPr96 exDirs demoTask 1 suffix exFiles = .ok fs' ∧
      fs' (outFile exDirs "path_id".toList suffix) = some [] := by
  obtain ⟨p, h, -⟩ := C100_witness hOL
  obtain ⟨⟨r, hr⟩⟩ : Nonempty { r // omplPlan3 (.init true) { answer p with start := exRowE, goal := exRowE, maxTime := maxTime } = .ok r } := by
    obtain ⟨r, hr⟩ := ((C56_outcome (.init true) { answer p with start := exRowE, goal := exRowE, maxTime := maxTime } rfl).2.2).2
      ⟨by simp [exRowE], by simp [exRowE]⟩
    exact ⟨⟨r, hr⟩⟩
  have hrun : ∃ fs', demoOmpl3D OL answer maxTime rigidKind exStof exPr96 exDirs demoTask 1 suffix exFiles = .ok fs' := by
    unfold demoOmpl3D
    rw [exConfig, Res.bind_ok']
    change ∃ fs', (setupOmpl3 OL .space exStof 1 exDirs exAfter).bind _ = .ok fs'
    rw [h, Res.bind_ok']
    change ∃ fs', (omplPlan3 (.init true) { answer p with start := exRowE, goal := exRowE, maxTime := maxTime }).bind _ = .ok fs'
    rw [hr]
    exact ⟨_, rfl⟩
  obtain ⟨fs', hrun⟩ := hrun
  obtain ⟨-, _, _, _, _, _, _, _, _, _, _, _, _, _, _, _, -, -, -, -, -, -, -, -, -, -, -, -, -, -, -, -, -, -, -, -, -, -, -, h6, -⟩ :=
    C100_demo_end_to_end_partial hOL (k := rigidKind) (fun _ => rfl) demoTask_plain exDirs_ne rfl hrun
  exact ⟨fs', hrun, h6⟩

/-- `C100_setup_outcome`, `C100_ends_iff` and `C100_articulated_states` apply: the program for articulated robots ends normally on
the files of the example of C97 (a chain of three joints), whatever the library answers, and the library is asked about states
of ten numbers. -/
theorem C100_articulated_witness {OL : OmplLib} (hOL : OL.Ok) (answer : OmplProblem → OmplCall) (maxTime : ℝ)
    (gq : Matrix (Fin 3) (Fin 3) ℝ → Quat) (suffix : List Char) :
    ∃ fs' p, demoOmpl3D OL answer maxTime (articulatedKind exUrdf gq exDirs demoTaskProb.robot) exStof exPr96 exDirs demoTaskProb
        1 suffix exFiles97 = .ok fs' ∧
      setupOmpl3 OL (articulatedKind exUrdf gq exDirs demoTaskProb.robot exAfter97) exStof 1 exDirs exAfter97 =
        .ok (exStart97, exGoal97, p) ∧ p.start.length = 10 ∧ p.goal.length = 10 := by
  obtain ⟨a1, a2, a3, a4⟩ := exAfter97_cfg
  change exAfter97 (arenaCfg exDirs "3D".toList) = _ at a1
  change exAfter97 (obsCfg exDirs "3D".toList) = _ at a2
  change exAfter97 (robotCfg exDirs "3D".toList) = _ at a3
  change exAfter97 (endsCfg exDirs "3D".toList) = _ at a4
  have hA : loadQuadrics exStof 1 (some ([exRowA97].flatMap (writeRow exPr96))) = .ok [exArena97] :=
    exLoad 10 10 10 1 1 5 5 5 (by intro t ht; simp only [List.mem_cons, List.not_mem_nil, or_false] at ht ⊢; tauto)
  have hO : loadQuadrics exStof 1 (some ([exRowO97].flatMap (writeRow exPr96))) = .ok [exObs97] :=
    exLoad 2 2 2 1 1 5 5 5 (by intro t ht; simp only [List.mem_cons, List.not_mem_nil, or_false] at ht ⊢; tauto)
  have hR : loadQuadrics exStof 1 (some ([exRowR].flatMap (writeRow exPr96))) = .ok [exBody96] :=
    exLoad 5 5 5 1 1 0 0 0 (by intro t ht; simp only [List.mem_cons, List.not_mem_nil, or_false] at ht ⊢; tauto)
  have hE : parseCsv exStof (some ([exStart97, exGoal97].flatMap (writeRow exPr96))) = .ok [exStart97, exGoal97] := by
    refine exRows_read _ fun r hr t ht => ?_
    simp only [List.mem_cons, List.not_mem_nil, or_false] at hr
    rcases hr with rfl | rfl
    · exact ex97_nums.1 t ht
    · exact ex97_nums.2 t ht
  have hRob : loadRobot3 exStof 1 (exAfter97 (robotCfg exDirs "3D".toList)) none = .ok (Tree3.new exBody96, []) := by
    rw [a3]
    unfold loadRobot3
    rw [hR, Res.bind_ok']
    have hq : loadQuats exStof none = .ok [] := rfl
    rw [hq]
    simp only [Res.idx, List.getElem?_cons_zero, Res.bind_ok', List.drop_one, List.tail_cons, List.foldl_nil]
  have hrd : exUrdf (exAfter97 (urdfFile exDirs demoTaskProb.robot)) = some exSnake := by
    have : exAfter97 (urdfFile exDirs demoTaskProb.robot) = exFiles97 (urdfFile exDirs demoTaskProb.robot) := by
      unfold exAfter97
      rw [if_neg (by decide +kernel), if_neg (by decide +kernel), if_neg (by decide +kernel), if_neg (by decide +kernel)]
    rw [this, exUrdf_read]
  have hkind : articulatedKind exUrdf gq exDirs demoTaskProb.robot exAfter97 = .articulated 3 := by
    unfold articulatedKind
    rw [hrd]
    exact congrArg _ ((C84_joint_number exSnake_ok).trans (by rw [exSnake_movable]; rfl))
  obtain ⟨p, hp⟩ := (C100_setup_outcome hOL (k := articulatedKind exUrdf gq exDirs demoTaskProb.robot exAfter97) rfl (by rw [a1]; exact hA)
    rfl (by rw [a2]; exact hO) hRob (by rw [a4]; exact hE)).1 (by norm_num [exArena97, exBody96, Tree3.new])
    (by norm_num [exArena97, exBody96, Tree3.new]) (by norm_num [exArena97, exBody96, Tree3.new]) exStart97 exGoal97 rfl rfl
    (by rw [hkind]; simp [exStart97, conf7, OmplKind.dim, OmplKind.posDim, OmplKind.rotDim, OmplKind.joints])
    (by rw [hkind]; simp [exGoal97, conf7, OmplKind.dim, OmplKind.posDim, OmplKind.rotDim, OmplKind.joints])
  obtain ⟨fs', hrun⟩ := (C100_ends_iff hOL answer maxTime (k := articulatedKind exUrdf gq exDirs demoTaskProb.robot) (fun _ => rfl) 1
    suffix exConfig97).2 ⟨_, _, _, hp⟩
  obtain ⟨-, fs1, rows, row0, row1, cs, cg, p', h1, -, -, -, -, -, h2, h3⟩ := C100_articulated_states hOL exPr96_ok exPr96_num
    demoTaskProb_plain exDirs_ne97 rfl exUrdf97 exUrdf_read exSnake_ok hrun
  rw [exConfig97] at h1
  obtain rfl := (Res.ok.injEq _ _).mp h1
  rw [hp] at h2
  obtain ⟨-, -, rfl⟩ : exStart97 = _ ∧ exGoal97 = _ ∧ p = p' := by simpa using (Res.ok.injEq _ _).mp h2
  have e := fun u hu => (h3 u hu).1
  rw [exSnake_movable] at e
  exact ⟨fs', p, hrun, hp, e _ (by simp), e _ (by simp)⟩

/-- Both programs have planners in space. -/
example (urdf : Option (List Char) → Option UrdfModel) (gq : Matrix (Fin 3) (Fin 3) ℝ → Quat) (D : Dirs) (robot : List Char)
    (fs : Files) : (rigidKind fs).posDim = 3 ∧ (articulatedKind urdf gq D robot fs).posDim = 3 := ⟨rfl, rfl⟩

end Hrm
