import Verif.Props.Demo
import Verif.Props.InterpReport
import Verif.Props.Kinematics

/-!
# C97 – the demonstration program for articulated robots

The program does not set `isRobotRigid`, so the planner for articulated robots places the robot of a slice with a vector
of seven numbers and reads the joint values behind its end. With the flag of the tests the program works.
-/

namespace Hrm

/-- C97: the planner of the program has the arena, the obstacles, the robot and the end points of this task's resource
files (converted); it has no predefined orientations. -/
theorem C97_planner_of_resources {stof : List Char → Scan} {pr : ℝ → List Char} {D : Dirs} {T : Task} (hT : T.Plain)
    (hD : D.cfg ≠ D.resDim T) (hdim : T.dim = "3D".toList) {rigid : Bool} {num : ℕ} {fs fs' : Files} {P : Planner3}
    (h : setupProb3 stof pr D T rigid num fs = .ok (fs', P)) :
    parsePlanningConfig stof pr D T fs = .ok fs' ∧
    ∃ ta tb tr te ends robot arena obs start goal par, parseGeometricModel stof pr (fs (arenaRes D T)) = .ok ta ∧
      parseGeometricModel stof pr (fs (obsRes D T)) = .ok tb ∧ parseGeometricModel stof pr (fs (robotRes D T)) = .ok tr ∧
      parseStartGoalConfig stof pr (kindOf T.robot) .space (fs (endsRes D T)) = .ok te ∧
      loadQuadrics stof num (some ta) = .ok arena ∧ loadQuadrics stof num (some tb) = .ok obs ∧
      (∃ b ls, loadQuadrics stof num (some tr) = .ok (b :: ls) ∧ Tree3.run (ls.map .add) (.new b) = .ok robot) ∧
      parseCsv stof (some te) = .ok ends ∧ ends[0]? = some start ∧ ends[1]? = some goal ∧
      defineParameters3 robot [] arena obs defaultParam3 = .ok par ∧
      P = .new robot [] arena obs start goal par rigid := by
  unfold setupProb3 at h
  obtain ⟨fs1, h1, h⟩ := Res.bind_eq_ok.1 h
  obtain ⟨ta, tb, tr, te, ha, hb, hr, he, f1, f2, f3, f4, hfr⟩ := (C96_config_files hT hD).1 h1
  rw [hdim] at f1 f2 f3 f4
  obtain ⟨S, hS, h⟩ := Res.bind_eq_ok.1 h
  unfold loadEnvironment3 at hS
  rw [f1, f2, f4] at hS
  obtain ⟨arena, hla, hS⟩ := Res.bind_eq_ok.1 hS
  obtain ⟨obs, hlo, hS⟩ := Res.bind_eq_ok.1 hS
  obtain ⟨ends, hle, hS⟩ := Res.bind_eq_ok.1 hS
  obtain rfl := (Res.ok.injEq _ _).mp hS
  rw [f3] at h
  obtain ⟨⟨robot, quats⟩, hR, h⟩ := Res.bind_eq_ok.1 h
  obtain ⟨start, hs, h⟩ := Res.bind_eq_ok.1 h
  obtain ⟨goal, hg, h⟩ := Res.bind_eq_ok.1 h
  obtain ⟨par, hp, h⟩ := Res.bind_eq_ok.1 h
  obtain ⟨rfl, rfl⟩ := Prod.mk.inj ((Res.ok.injEq _ _).mp h)
  have hat : ∀ {l : List (List ℝ)} {i : ℕ} {x : List ℝ}, Res.at' l i = .ok x → l[i]? = some x := fun e => Res.at'_eq_ok.1 e
  have hd : dimOf T.dim = .space := by rw [hdim]; decide
  rw [hd] at he
  have hq : quats = [] := by
    unfold loadRobot3 at hR
    obtain ⟨_, -, hR⟩ := Res.bind_eq_ok.1 hR
    obtain ⟨_, -, hR⟩ := Res.bind_eq_ok.1 hR
    obtain ⟨q, hq, hR⟩ := Res.bind_eq_ok.1 hR
    obtain ⟨-, rfl⟩ := Prod.mk.inj ((Res.ok.injEq _ _).mp hR)
    exact ((Res.ok.injEq _ _).mp hq).symm
  subst hq
  have hR' : loadRobot3 stof num (some tr) (some (some [])) = .ok (robot, []) := by
    unfold loadRobot3 at hR ⊢
    obtain ⟨parts, e1, hR⟩ := Res.bind_eq_ok.1 hR
    obtain ⟨b, e2, hR⟩ := Res.bind_eq_ok.1 hR
    have e3 : loadQuats stof (some (some [])) = .ok [] := by
      unfold loadQuats
      dsimp only
      rw [parseCsv_some, readAll_nil]; rfl
    rw [e1, Res.bind_ok', e2, Res.bind_ok', e3]
    exact hR
  exact ⟨h1, ta, tb, tr, te, ends, robot, arena, obs, start, goal, par, ha, hb, hr, he, hla, hlo, loadRobot3_run hR', hle,
    hat hs, hat hg, hp, rfl⟩

/-! ## The flag -/

theorem probPlan_ub {σ : Type} {ops : ProbOps σ} {reset : σ → σ} {clock : ℕ → ℝ} {timeLim : ℝ} {fuel : ℕ} {r : PlanRep σ}
    (h : ops.addSlice (reset r.st) = .ub) : probPlan ops reset clock timeLim (fuel + 1) r = some .ub := by
  have hp : probPass ops clock timeLim ({ r with st := reset r.st, tick := r.tick + 1 }, clock r.tick) = .ub := by
    unfold probPass
    dsimp only
    rw [h]
    rfl
  unfold probPlan probLoop
  rw [hp]
  rfl

/-- C97: planning for a robot with joints is undefined when the request leaves `isRobotRigid` at its default: whatever
the robot, the obstacles and the parameters, the first pass reads joint values behind the end of a vector of seven
numbers. -/
theorem C97_rigid_flag_undefined (L : Libs3) (V : Variant) (A : Arm) (hV : V.arm = some A) (hA : 0 < A.nJ) (robot : Tree3)
    (quats : List Quat) (arena obs : List SuperQuadrics) (start goal : Vec) (hs : 7 + A.nJ ≤ start.length) (par : Param3)
    (clock : ℕ → ℝ) (timeLim : ℝ) (fuel : ℕ) :
    Planner3.planProb L V A clock timeLim (fuel + 1) (freshRep3 (.new robot quats arena obs start goal par true)) =
      some .ub := by
  refine probPlan_ub (ops := probOps L V A) ?_
  change Planner3.addSlice L V A _ = _
  unfold Planner3.addSlice Planner3.sampleProb
  have hq : ∃ q, quatAt start = .ok q := by
    unfold quatAt
    have hi : ∀ i < 7, Res.at' start i = .ok (start.getD i 0) := by
      intro i hi
      rw [Res.at'_eq_ok, List.getD_eq_getElem?_getD, List.getElem?_eq_getElem (by omega)]
      rfl
    rw [hi 3 (by omega), Res.bind_ok', hi 4 (by omega), Res.bind_ok', hi 5 (by omega), Res.bind_ok', hi 6 (by omega),
      Res.bind_ok']
    exact ⟨_, rfl⟩
  have hj : ∃ js, jointsAt A.nJ start = .ok js := by
    unfold jointsAt
    have h1 : ∀ i < A.nJ, Res.at' start (7 + i) = .ok (start.getD (7 + i) 0) := by
      intro i hi
      rw [Res.at'_eq_ok, List.getD_eq_getElem?_getD, List.getElem?_eq_getElem (by omega)]; rfl
    exact ⟨_, appendLoop _ _ A.nJ h1 []⟩
  obtain ⟨q, hq⟩ := hq
  obtain ⟨js, hj⟩ := hj
  simp only [freshRep3, Planner3.new, if_true, hq, hj, Res.bind_ok']
  unfold Planner3.constructOneSlice Planner3.placeSlice Planner3.sliceConf
  simp only [if_true, List.nil_append]
  have hat : Res.at' [q] 0 = .ok q := rfl
  rw [hat]
  simp only [Res.bind_ok']
  have hub : setTransform3 V.arm robot [0, 0, 0, q.1, q.2.1, q.2.2.1, q.2.2.2] = .ub := by
    unfold setTransform3
    rw [hV]
    have e1 : quatOf [0, 0, 0, q.1, q.2.1, q.2.2.1, q.2.2.2] = .ok q := rfl
    rw [e1, Res.bind_ok']
    have e2 : Res.idx [(0 : ℝ), 0, 0, q.1, q.2.1, q.2.2.1, q.2.2.2] 0 = .ok 0 := rfl
    have e3 : Res.idx [(0 : ℝ), 0, 0, q.1, q.2.1, q.2.2.1, q.2.2.2] 1 = .ok 0 := rfl
    have e4 : Res.idx [(0 : ℝ), 0, 0, q.1, q.2.1, q.2.2.1, q.2.2.2] 2 = .ok 0 := rfl
    rw [e2, Res.bind_ok', e3, Res.bind_ok', e4, Res.bind_ok']
    dsimp only
    have e5 : readJoints A.nJ [0, 0, 0, q.1, q.2.1, q.2.2.1, q.2.2.2] = .ub := by
      unfold readJoints
      obtain ⟨n, hn⟩ : ∃ n, A.nJ = n + 1 := ⟨A.nJ - 1, by omega⟩
      rw [hn, List.range_succ_eq_map, List.foldlM_cons]
      rfl
    rw [e5]
    rfl
  rw [hub]
  rfl

/-- C97: whenever the demonstration program for articulated robots gets as far as planning, its behaviour is undefined,
whatever the files contain (with a robot description that has joints, and as many as there are joint values). -/
theorem C97_demo_undefined (L : Libs3) {urdf : Option (List Char) → Option UrdfModel}
    {gq : Matrix (Fin 3) (Fin 3) ℝ → Quat} {stof : List Char → Scan} {pr : ℝ → List Char} (hpr : PrintOk pr)
    (hnum : ∀ x, stof (pr x) ≠ .invalid) {prN : Option ℝ → List Char} {D : Dirs} {T : Task} (hT : T.Plain)
    (hD : D.cfg ≠ D.resDim T) (hdim : T.dim = "3D".toList) (hu : urdfFile D T.robot ∉ cfgFiles D T.dim) {M : UrdfModel}
    {fs : Files} (hM : urdf (fs (urdfFile D T.robot)) = some M) (hok : M.Ok)
    (hne : movableNames (linkJoints M.children) ≠ [])
    (hdof : 6 + (movableNames (linkJoints M.children)).length ≤ (kindOf T.robot).numDOF) {num : ℕ} {suffix : List Char}
    {clock : ℕ → ℝ} {timeLim : ℝ} {fuel : ℕ} {fs' : Files} {P : Planner3}
    (hset : setupProb3 stof pr D T true num fs = .ok (fs', P)) :
    demoProb3D L urdf gq stof pr prN D T true num suffix clock timeLim (fuel + 1) fs = some .ub := by
  obtain ⟨hpc, ta, tb, tr, te, ends, robot, arena, obs, start, goal, par, -, -, -, hte, -, -, -, hends, hs0, -, -, rfl⟩ :=
    C97_planner_of_resources hT hD hdim hset
  obtain ⟨_, _, _, _, -, -, -, -, -, -, -, -, hfr⟩ := (C96_config_files hT hD).1 hpc
  obtain ⟨rows, crows, hrows, rfl, hlen, hconv⟩ := startGoal_inv hte
  obtain ⟨hval, rfl⟩ := writeRow_read hpr hnum hends
  rw [List.getElem?_map] at hs0
  obtain ⟨cs, hcs, rfl⟩ := Option.map_eq_some_iff.1 hs0
  have l0 := (List.getElem?_eq_some_iff.1 hcs).1
  rw [hlen] at l0
  have c0 := hconv 0 _ cs (List.getElem?_eq_getElem l0) hcs
  have hnJ : (armOf gq (parseURDF (some M))).nJ = (movableNames (linkJoints M.children)).length := C84_joint_number hok
  unfold demoProb3D
  rw [hset]
  dsimp only
  rw [hfr _ hu, hM, C97_rigid_flag_undefined L ⟨some (armOf gq (parseURDF (some M))), none⟩ (armOf gq (parseURDF (some M)))
    rfl (by rw [hnJ]; exact List.length_pos_iff.2 hne) robot [] arena obs _ _
    (by rw [List.length_map, convertConfig_length c0, hnJ]; omega) par]
  rfl

/-! ## With the flag of the tests -/

/-- What one `plan` of a new planner for articulated robots leaves in the result. -/
theorem planProb_report (L : Libs3) (V : Variant) (A : Arm) (hV : V.arm = some A) (hpick : HeapTop L.pick)
    (base : SuperQuadrics) (ops : List (RobotOp SuperQuadrics 3)) (robot : Tree3)
    (hrun : Tree3.run ops (Tree3.new base) = .ok robot) (quats : List Quat)
    (arena obs : List SuperQuadrics) (hne : arena ≠ [] ∨ obs ≠ []) (start goal : Vec) (hs : start.length = 7 + A.nJ)
    (hg : goal.length = 7 + A.nJ) (par : Param3) (rigid : Bool) (clock : ℕ → ℝ) (timeLim : ℝ) (fuel : ℕ)
    (r' : PlanRep Planner3)
    (h : Planner3.planProb L V A clock timeLim fuel (freshRep3 (.new robot quats arena obs start goal par rigid)) =
      some (.ok r')) :
    (∀ v ∈ r'.st.graph.vertex, v.length = 7 + A.nJ) ∧
    (∀ e ∈ r'.st.graph.edge, e.1 < r'.st.graph.vertex.length ∧ e.2 < r'.st.graph.vertex.length) ∧
    (∀ i ∈ r'.st.res.pathId, i < r'.st.graph.vertex.length) ∧
    ((r'.st.res.solved = false ∧ r'.solvedPath = [] ∧ r'.interpolated = [] ∧ r'.st.res.pathId = []) ∨
      r'.st.res.solved = true ∧
      ∃ mid cost, r'.solvedPath = start :: (mid ++ [goal]) ∧ 2 ≤ mid.length ∧ mid.length = r'.st.res.pathId.length ∧
        (∀ (k i : ℕ), r'.st.res.pathId[k]? = some i → mid[k]? = r'.st.graph.vertex[i]?) ∧
        (∀ (k i j : ℕ), r'.st.res.pathId[k]? = some i → r'.st.res.pathId[k + 1]? = some j →
          (i, j) ∈ r'.st.graph.edge ∨ (j, i) ∈ r'.st.graph.edge) ∧
        0 < cost ∧ interpolatedPath3D r'.solvedPath cost par.numPoint = .ok r'.interpolated) := by
  have hr := run_inv_of3 hrun
  obtain ⟨B, hB, b1, b2, -⟩ := cspaceBoundary3_ok hr arena obs
  obtain ⟨M, hM, -, -⟩ := cspaceMesh_ok b1 b2
  obtain ⟨k, hreach, -, hpath, -⟩ := planProb_fresh hV hr hne h
  have hi := reach_inv hV hr hB hM rfl hreach
  have hok := hi.ok
  have hedge : ∀ e ∈ r'.st.graph.edge, e.1 < r'.st.graph.vertex.length ∧ e.2 < r'.st.graph.vertex.length := by
    intro e he
    obtain ⟨k, hk⟩ := List.mem_iff_getElem?.1 he
    have hkl : k < r'.st.graph.weight.length := by rw [← hok.len]; exact (List.getElem?_eq_some_iff.1 hk).1
    obtain ⟨a, b, ha, hb', -⟩ := hok.edges k e _ hk (List.getElem?_eq_getElem hkl)
    exact ⟨(List.getElem?_eq_some_iff.1 ha).1, (List.getElem?_eq_some_iff.1 hb').1⟩
  by_cases hsol : r'.st.res.solved = true
  · obtain ⟨s, t, ⟨len, -, hpb, -⟩, -⟩ := reach_solved hV hpick hr hreach hsol
    obtain ⟨mid, cost, p1, p2, -, p4, p5, -⟩ := C90_incremental_partial L V A hV hpick base ops robot hrun quats arena obs hne
      start goal hs hg par rigid clock timeLim fuel r' h hsol
    have hids : ∀ i ∈ r'.st.res.pathId, i < r'.st.graph.vertex.length := hpb.1.mem_lt hok
    have hvne : r'.st.graph.vertex ≠ [] := by
      intro e
      have hh := hpb.2.1
      cases hp : r'.st.res.pathId with
      | nil => rw [hp] at hh; exact nomatch hh
      | cons a l =>
        have := hids a (by rw [hp]; simp)
        rw [e] at this; exact absurd this (by simp)
    obtain ⟨path, mid', q1, q2, q3, q4, -⟩ := C30_solution_path hok.dims r'.st.start r'.st.goal _ hids hvne
    rw [hpath hsol] at q1
    obtain rfl := (Res.ok.injEq _ _).mp q1
    have hm : mid' = mid := by
      have e := p1.symm.trans q2
      have e2 := (List.cons.inj e).2
      exact (List.append_inj_left' e2 rfl).symm
    subst hm
    exact ⟨hok.dims, hedge, hids, Or.inr ⟨hsol, mid', cost, p1, p2, q3, q4, hpb.1.edges, p4, p5⟩⟩
  · have hf : r'.st.res.solved = false := by simpa using hsol
    have hrr := reach_fresh hV hr hpick hreach hf
    have e1 := (C32_prob_plan_report _ _ _ _ _ _ _ h).2.2.2 hf
    refine ⟨hok.dims, hedge, by rw [hrr]; simp, Or.inl ⟨hf, e1.1, e1.2, by rw [hrr]⟩⟩

/-- **C97 (partial).** With the flag of the tests (`isRobotRigid = false`, which the program does not set): if the program
ends normally, it has changed no file but the four configuration files and the five result files; the stored paths are
empty, and so is the list of vertex numbers, or the solution path begins with the first and ends with the second row of
this task's file of end points (converted, and as the program reads it back), and in between it visits, for each vertex
number stored, this row of the vertices stored, consecutive ones joined by an edge stored; the stored interpolated path is
the interpolation of the solution path. -/
theorem C97_demo_end_to_end_partial (L : Libs3) (hpick : HeapTop L.pick) {urdf : Option (List Char) → Option UrdfModel}
    {gq : Matrix (Fin 3) (Fin 3) ℝ → Quat} {stof : List Char → Scan} {pr : ℝ → List Char} (hpr : PrintOk pr)
    (hnum : ∀ x, stof (pr x) ≠ .invalid) {prN : Option ℝ → List Char} {D : Dirs} {T : Task} (hT : T.Plain)
    (hD : D.cfg ≠ D.resDim T) (hdim : T.dim = "3D".toList) (hu : urdfFile D T.robot ∉ cfgFiles D T.dim) {M : UrdfModel}
    {fs : Files} (hM : urdf (fs (urdfFile D T.robot)) = some M) (hok : M.Ok)
    (hdof : (kindOf T.robot).numDOF = 6 + (movableNames (linkJoints M.children)).length) {num : ℕ} {suffix : List Char}
    {clock : ℕ → ℝ} {timeLim : ℝ} {fuel : ℕ} {fs' : Files}
    (h : demoProb3D L urdf gq stof pr prN D T false num suffix clock timeLim fuel fs = some (.ok fs')) :
    (∀ n, n ∉ cfgFiles D T.dim → n ∉ outFiles D suffix → fs' n = fs n) ∧
    ∃ rows row0 row1 cs cg vertices edges ids path interp, parseCsv stof (fs (endsRes D T)) = .ok rows ∧
      rows[0]? = some row0 ∧ rows[1]? = some row1 ∧
      convertConfig (kindOf T.robot) .space row0 = .ok (some cs) ∧
      convertConfig (kindOf T.robot) .space row1 = .ok (some cg) ∧
      (∀ x ∈ cs ++ cg, stof (pr x) = .val (readBack stof pr x)) ∧
      fs' (outFile D "vertex".toList suffix) = some (writeRows pr vertices) ∧
      fs' (outFile D "edge".toList suffix) = some (writeEdges edges) ∧
      fs' (outFile D "path_id".toList suffix) = some (writeIds ids) ∧
      fs' (outFile D "solution_path".toList suffix) = some (writeRows pr path) ∧
      fs' (outFile D "interpolated_path".toList suffix) =
        some (interp.flatMap fun row => row.flatMap (fun x => prN x ++ [',']) ++ ['\n']) ∧
      (∀ v ∈ vertices, v.length = 7 + (movableNames (linkJoints M.children)).length) ∧
      (∀ e ∈ edges, e.1 < vertices.length ∧ e.2 < vertices.length) ∧ (∀ i ∈ ids, i < vertices.length) ∧
      ((path = [] ∧ interp = [] ∧ ids = []) ∨
        ∃ mid cost, path = cs.map (readBack stof pr) :: (mid ++ [cg.map (readBack stof pr)]) ∧ 2 ≤ mid.length ∧
          mid.length = ids.length ∧ (∀ (k i : ℕ), ids[k]? = some i → mid[k]? = vertices[i]?) ∧
          (∀ (k i j : ℕ), ids[k]? = some i → ids[k + 1]? = some j → (i, j) ∈ edges ∨ (j, i) ∈ edges) ∧
          0 < cost ∧ interpolatedPath3D path cost 5 = .ok interp) := by
  unfold demoProb3D at h
  cases hset : setupProb3 stof pr D T false num fs with
  | throw => rw [hset] at h; exact nomatch h
  | ub => rw [hset] at h; exact nomatch h
  | ok v =>
    obtain ⟨fs1, P⟩ := v
    rw [hset] at h
    dsimp only at h
    obtain ⟨hpc, ta, tb, tr, te, ends, robot, arena, obs, start, goal, par, -, -, -, hte, -, -, ⟨b, ls, -, hrun⟩, hends, hs0,
      hg0, hpar, rfl⟩ := C97_planner_of_resources hT hD hdim hset
    obtain ⟨_, _, _, _, -, -, -, -, -, -, -, -, hfr⟩ := (C96_config_files hT hD).1 hpc
    obtain ⟨rows, crows, hrows, rfl, hlen, hconv⟩ := startGoal_inv hte
    obtain ⟨hval, rfl⟩ := writeRow_read hpr hnum hends
    rw [List.getElem?_map] at hs0 hg0
    obtain ⟨cs, hcs, rfl⟩ := Option.map_eq_some_iff.1 hs0
    obtain ⟨cg, hcg, rfl⟩ := Option.map_eq_some_iff.1 hg0
    have l0 := (List.getElem?_eq_some_iff.1 hcs).1
    have l1 := (List.getElem?_eq_some_iff.1 hcg).1
    rw [hlen] at l0 l1
    have c0 := hconv 0 _ cs (List.getElem?_eq_getElem l0) hcs
    have c1 := hconv 1 _ cg (List.getElem?_eq_getElem l1) hcg
    have hane : arena ≠ [] := by
      rintro rfl
      exact nomatch hpar
    have hnp : par.numPoint = 5 := by
      unfold defineParameters3 at hpar
      obtain ⟨A, -, hpar⟩ := Res.bind_eq_ok.1 hpar
      dsimp only at hpar
      split at hpar
      · obtain ⟨_, -, hpar⟩ := Res.bind_eq_ok.1 hpar
        obtain ⟨_, -, hpar⟩ := Res.bind_eq_ok.1 hpar
        obtain ⟨_, -, hpar⟩ := Res.bind_eq_ok.1 hpar
        obtain ⟨_, -, hpar⟩ := Res.bind_eq_ok.1 hpar
        obtain ⟨_, -, hpar⟩ := Res.bind_eq_ok.1 hpar
        rw [← (Res.ok.injEq _ _).mp hpar]; rfl
      · rw [← (Res.ok.injEq _ _).mp hpar]; rfl
    rw [hfr _ hu, hM] at h
    have hnJ : (armOf gq (parseURDF (some M))).nJ = (movableNames (linkJoints M.children)).length := C84_joint_number hok
    generalize hAe : armOf gq (parseURDF (some M)) = A at h hnJ
    cases hplan : Planner3.planProb L ⟨some A, none⟩ A clock timeLim fuel (freshRep3 (.new robot [] arena obs
        (cs.map (readBack stof pr)) (cg.map (readBack stof pr)) par false)) with
    | none => rw [hplan] at h; exact nomatch h
    | some x =>
      rw [hplan] at h
      obtain ⟨r', rfl, h'⟩ := Res.bind_eq_ok.1 (Option.some.inj h)
      obtain rfl := (Res.ok.injEq _ _).mp h'
      obtain ⟨i1, i2, i3, i4⟩ := planProb_report L ⟨some A, none⟩ A rfl hpick b _ robot hrun [] arena obs (Or.inl hane) _ _
        (by rw [List.length_map, convertConfig_length c0, hnJ, hdof]; omega)
        (by rw [List.length_map, convertConfig_length c1, hnJ, hdof]; omega) par false clock timeLim fuel r' hplan
      have hnd := outFiles_nodup D suffix
      simp only [outFiles, List.map_cons, List.map_nil, List.nodup_cons, List.mem_cons, List.not_mem_nil, or_false, not_or,
        List.nodup_nil, and_true, not_false_eq_true] at hnd
      obtain ⟨⟨n1, n2, n3, n4⟩, ⟨n5, n6, n7⟩, ⟨n8, n9⟩, n10⟩ := hnd
      refine ⟨?_, rows, _, _, cs, cg, r'.st.graph.vertex, r'.st.graph.edge, r'.st.res.pathId, r'.solvedPath, r'.interpolated,
        hrows, List.getElem?_eq_getElem l0, List.getElem?_eq_getElem l1, c0, c1, ?_, ?_, ?_, ?_, ?_, ?_, ?_, i2, i3, ?_⟩
      · intro n m1 m2
        simp only [outFiles, List.map_cons, List.map_nil, List.mem_cons, List.not_mem_nil, or_false, not_or] at m2
        obtain ⟨a1, a2, a3, a4, a5⟩ := m2
        unfold storePath storeGraph
        rw [Files.put_ne _ _ a5, Files.put_ne _ _ a4, Files.put_ne _ _ a3, Files.put_ne _ _ a2, Files.put_ne _ _ a1]
        exact hfr n m1
      · intro x hx
        rcases List.mem_append.1 hx with hx | hx
        · exact hval cs (List.mem_of_getElem? hcs) x hx
        · exact hval cg (List.mem_of_getElem? hcg) x hx
      · unfold storePath storeGraph
        rw [Files.put_ne _ _ n4, Files.put_ne _ _ n3, Files.put_ne _ _ n2, Files.put_ne _ _ n1, Files.put_same]
      · unfold storePath storeGraph
        rw [Files.put_ne _ _ n7, Files.put_ne _ _ n6, Files.put_ne _ _ n5, Files.put_same]
      · unfold storePath
        rw [Files.put_ne _ _ n9, Files.put_ne _ _ n8, Files.put_same]
      · unfold storePath
        rw [Files.put_ne _ _ n10, Files.put_same]
      · unfold storePath
        rw [Files.put_same]
      · rw [← hnJ]; exact i1
      · rcases i4 with ⟨-, a, b, c⟩ | ⟨-, mid, cost, p1, p2, p3, p4, p5, p6, p7⟩
        · exact Or.inl ⟨a, b, c⟩
        · rw [hnp] at p7
          exact Or.inr ⟨mid, cost, p1, p2, p3, p4, p5, p6, p7⟩

end Hrm
