import Verif.Props.ProbPlanner
import Verif.Props.PathWitness3D
/-!
# A solved run of the incremental spatial planner

The hypotheses of C58, C75, C78 and C90 can be met: in an arena without obstacles the incremental planner solves a task
between two different configurations in its first pass, and interpolates the path.
-/

set_option linter.unusedVariables false

namespace Hrm

open Matrix Classical

/-- Two planes with two lines each and one sample per line, every check positive, on an empty roadmap. -/
theorem slice_all_free {free : Vec → Vec → Res Bool} {mk : ℝ → ℝ → ℝ → Vec} {x0 x1 y0 y1 z l u : ℝ} {w : Vec → Vec → ℝ}
    (hw : ∀ x ∈ [x0, x1], ∀ y ∈ [y0, y1], ∀ x' ∈ [x0, x1], ∀ y' ∈ [y0, y1],
      vectorEuclidean (mk x y z) (mk x' y' z) = .ok (w (mk x y z) (mk x' y' z)))
    (hfree : ∀ x ∈ [x0, x1], ∀ y ∈ [y0, y1], ∀ x' ∈ [x0, x1], ∀ y' ∈ [y0, y1],
      free (mk x y z) (mk x' y' z) = .ok true) :
    constructSlice3D free mk
      [(x0, ⟨[y0, y1], [⟨[l], [u], [z]⟩, ⟨[l], [u], [z]⟩]⟩), (x1, ⟨[y0, y1], [⟨[l], [u], [z]⟩, ⟨[l], [u], [z]⟩]⟩)] .empty =
      .ok (⟨[mk x0 y0 z, mk x0 y1 z, mk x1 y0 z, mk x1 y1 z], [(0, 1), (2, 3), (0, 2), (1, 3)],
        [w (mk x0 y0 z) (mk x0 y1 z), w (mk x1 y0 z) (mk x1 y1 z), w (mk x0 y0 z) (mk x1 y0 z), w (mk x0 y1 z) (mk x1 y1 z)]⟩,
        ⟨0, 4, [[0, 1], [2, 3]]⟩) := by
  have hr2 : List.range 2 = [0, 1] := rfl
  have hr1 : List.range 1 = [0] := rfl
  simp [constructSlice3D, planeStep, crossPlanes, crossLine, generateVertices, genRow, hr2, hr1, Res.idx, Res.at',
      Graph.addVertex, connectOneSlice2D, linkLine, linkSample, linkRow, linkNext, linkPair, hfree, Graph.addEdge, hw,
      Res.bind_ok, Res.bind_ok', Graph.empty]

/-- The interpolated path exists if the cost is positive and no segment asks for more steps than an `int` holds. -/
theorem interpolatedPath3D_total (path : List Vec) (cost : ℝ) (num : ℕ) (hp : SolvedPath path) (hc : 0 < cost)
    (hshort : ∀ (i : ℕ) (v w : Vec), path[i]? = some v → path[i + 1]? = some w →
      euclid v w * (num * ((path.length : ℝ) - 1)) < 2 ^ 31 * cost) : ∃ q, interpolatedPath3D path cost num = .ok q := by
  have h2 : (2 : ℝ) ≤ path.length := by exact_mod_cast hp.two
  set den : ℝ := num * ((path.length : ℝ) - 1) with hden
  have hden0 : 0 ≤ den := by rw [hden]; exact mul_nonneg (Nat.cast_nonneg _) (by linarith)
  have hseg : ∀ i, i < path.length - 1 → ∃ seg : List (List (Option ℝ)), ∃ v w : Vec, path[i]? = some v ∧ path[i + 1]? = some w ∧
      ∃ d n, vectorEuclidean v w = .ok d ∧ stepCount cost den d = .ok n ∧ interpolateCompound v w n = .ok seg := by
    intro i hi
    obtain ⟨v, hv⟩ : ∃ v, path[i]? = some v := ⟨_, List.getElem?_eq_getElem (by omega)⟩
    obtain ⟨w, hw⟩ : ∃ w, path[i + 1]? = some w := ⟨_, List.getElem?_eq_getElem (by omega)⟩
    have mv := List.mem_of_getElem? hv
    have mw := List.mem_of_getElem? hw
    have hlen := hp.dim v mv w mw
    obtain ⟨n, hn⟩ : ∃ n, stepCount cost den (euclid v w) = .ok n := by
      unfold stepCount
      split
      · rw [if_neg hc.ne']; exact ⟨_, rfl⟩
      · rename_i hne
        have hden1 : 0 < den := lt_of_le_of_ne hden0 (Ne.symm hne)
        have hstep : 0 < cost / den := div_pos hc hden1
        have hx : euclid v w / (cost / den) = euclid v w * den / cost := by field_simp
        rw [if_neg hstep.ne']
        simp only
        rw [if_neg]
        · exact ⟨_, rfl⟩
        · rw [not_or, not_lt, not_le]
          refine ⟨div_nonneg (Real.sqrt_nonneg _) hstep.le, ?_⟩
          rw [hx, div_lt_iff₀ hc]; exact hshort i v w hv hw
    rcases Nat.eq_zero_or_pos n with rfl | hpos
    · exact ⟨_, v, w, hv, hw, _, _, vectorEuclidean_eq hlen, hn, C41_step_zero v w (hp.unit v mv).1 hlen⟩
    · obtain ⟨seg, s1, -⟩ := interpolates_of (hp.unit v mv) (hp.unit w mw) hlen hpos
      exact ⟨_, v, w, hv, hw, _, _, vectorEuclidean_eq hlen, hn, s1⟩
  choose! seg hseg using hseg
  unfold interpolatedPath3D
  rw [if_neg (by have := hp.two; omega), appendListLoop _ seg _ ?_]
  · exact ⟨_, rfl⟩
  · intro acc i hi
    obtain ⟨v, w, hv, hw, d, n, e1, e2, e3⟩ := hseg i hi
    rw [Res.at'_eq_ok.2 hv, Res.bind_ok', Res.at'_eq_ok.2 hw, Res.bind_ok', e1, Res.bind_ok', ← hden, e2,
      Res.bind_ok', e3, Res.bind_ok']

/-- Two sweep planes with two lines each, to the right of and above everything within `R` of the origin. -/
noncomputable def exPar75 (R : ℝ) : Param3 := ⟨2, 2, 2, 5, 1, 100, 2 * R + 1, 2 * R + 2, 0, 1, R, R + 2⟩

theorem exPar75_lines (R : ℝ) : (exPar75 R).linesX = [2 * R + 1, 2 * R + 2] ∧ (exPar75 R).linesY = [0, 1] := by
  constructor
  · simp only [Param3.linesX, exPar75, show List.range 2 = [0, 1] from rfl, List.map_cons, List.map_nil]
    norm_num
    ring
  · simp only [Param3.linesY, exPar75, show List.range 2 = [0, 1] from rfl, List.map_cons, List.map_nil]
    norm_num

/-- What the sweep finds on lines that miss everything. -/
theorem farLines_sweep {base added} {robot : Tree3}
    (hr : Tree3.Inv base added robot) {arena obs : List SuperQuadrics} (hne : arena ≠ []) {n : ℕ} (hn : n ≠ 0)
    (hnum : ∀ o ∈ arena ++ obs, o.num = n) :
    ∃ R B M, cspaceBoundary3 robot arena obs = .ok B ∧ cspaceMesh arena obs B = .ok M ∧ 0 ≤ R ∧
      (∀ m ∈ M.obstacle, m.vertices ≠ []) ∧ (∀ m ∈ M.obstacle, ∀ v ∈ m.vertices, v.z ≤ R) ∧
      M.obstacle.length = (1 + added.length) * obs.length ∧
      (∀ L : Libs3, sweep3D L (exPar75 R).zLo (exPar75 R).zHi M (exPar75 R).linesX (exPar75 R).linesY =
        .ok [(2 * R + 1, ⟨[0, 1], [⟨[R], [R + 2], [R + 1]⟩, ⟨[R], [R + 2], [R + 1]⟩]⟩),
          (2 * R + 2, ⟨[0, 1], [⟨[R], [R + 2], [R + 1]⟩, ⟨[R], [R + 2], [R + 1]⟩]⟩)]) ∧
      (∀ x ∈ (exPar75 R).linesX, ∀ y ∈ (exPar75 R).linesY, ∀ s ∈ M.arena ++ M.obstacle, GoodHit isect3 (x, y) s) ∧
      ∀ L : Libs3, L.dmin ≤ R → R + 2 ≤ L.dmax → SweepGeneric3 L (exPar75 R) M := by
  obtain ⟨B, hB, b1, b2, b3, b4⟩ := cspaceBoundary3_ok hr arena obs
  obtain ⟨M, hM, m1, m2⟩ := cspaceMesh_ok b1 b2
  obtain ⟨o, os, rfl⟩ := List.exists_cons_of_ne_nil hne
  have hMa : M.arena = B.arena.map (fun b => gridMesh (b.map toV3) n) ∧
      M.obstacle = B.obstacle.map (fun b => gridMesh (b.map toV3) n) := by
    have hM' := hM
    unfold cspaceMesh at hM'
    obtain ⟨A, h1, hM'⟩ := Res.bind_eq_ok.1 hM'
    obtain ⟨O, h2, hM'⟩ := Res.bind_eq_ok.1 hM'
    obtain rfl := (Res.ok.injEq _ _).mp hM'
    rw [boundMeshes_eq (o := o) rfl, hnum o (by simp)] at h1
    obtain rfl := (Res.ok.injEq _ _).mp h1
    refine ⟨rfl, ?_⟩
    cases obs with
    | nil =>
      have e : B.obstacle = [] := List.length_eq_zero_iff.1 (by rw [b2]; simp)
      rw [e] at h2 ⊢
      exact ((Res.ok.injEq _ _).mp h2).symm
    | cons o' obs =>
      rw [boundMeshes_eq (o := o') rfl, hnum o' (by simp)] at h2
      obtain rfl := (Res.ok.injEq _ _).mp h2
      rfl
  have hMne : M.arena ≠ [] := by
    intro e; rw [e] at m1; rw [b1] at m1; simp [Nat.add_mul] at m1; omega
  have hwf : ∀ m ∈ M.arena ++ M.obstacle, m.WF := by
    intro m hm
    have hlen : ∀ (b : List (Fin 3 → ℝ)) (o' : SuperQuadrics), o'.num = n → b.length = (o'.minkSum3D o' 1).length →
        (gridMesh (b.map toV3) n).WF := by
      rintro b o' rfl hl
      exact gridMesh_wf hn (by rw [List.length_map, hl]; simp [SuperQuadrics.minkSum3D])
    rcases List.mem_append.1 hm with h | h
    · rw [hMa.1] at h
      obtain ⟨b, hb, rfl⟩ := List.mem_map.1 h
      obtain ⟨o', ho, hl⟩ := b3 b hb
      exact hlen b o' (hnum o' (List.mem_append_left _ ho)) hl
    · rw [hMa.2] at h
      obtain ⟨b, hb, rfl⟩ := List.mem_map.1 h
      obtain ⟨o', ho, hl⟩ := b4 b hb
      exact hlen b o' (hnum o' (List.mem_append_right _ ho)) hl
  obtain ⟨R, hR0, hRM⟩ := meshes_boxed (M.arena ++ M.obstacle)
  obtain ⟨hlx, hly⟩ := exPar75_lines R
  have hxs : ∀ x ∈ (exPar75 R).linesX, 2 * R + 1 ≤ x := by
    intro x hx
    rw [hlx] at hx
    simp only [List.mem_cons, List.not_mem_nil, or_false] at hx
    rcases hx with rfl | rfl <;> linarith
  have hnot : ∀ m ∈ M.arena ++ M.obstacle, ∀ x ∈ (exPar75 R).linesX, ∀ (a b c : V3) (p : V3), p.x = x →
      a ∈ m.vertices → b ∈ m.vertices → c ∈ m.vertices → ¬ InTriangle triTol a b c p := by
    intro m hm x hx a b c p hp ha hb hc
    exact not_inTriangle_right hR0 (hRM m hm a ha).1 (hRM m hm b hb).1 (hRM m hm c hc).1 (by rw [hp]; exact hxs x hx)
  have hmiss : ∀ x ∈ (exPar75 R).linesX, ∀ (y : ℝ), ∀ m ∈ M.arena ++ M.obstacle,
      vertLineMesh triTol (vertical x y 0) m = .ok [] := by
    intro x hx y m hm
    unfold vertLineMesh
    rw [if_neg (hwf m hm).1, if_pos]
    exact Or.inl (Or.inl fun v hv => by
      have := (hRM m hm v hv).1.2
      have := hxs x hx
      simp only [vertical]; linarith)
  have hz : (R + (R + 2)) / 2 = R + 1 := by ring
  have hplane : ∀ (L : Libs3), ∀ x ∈ (exPar75 R).linesX, planeSeg L R (R + 2) M [0, 1] x =
      .ok ⟨[0, 1], [⟨[R], [R + 2], [R + 1]⟩, ⟨[R], [R + 2], [R + 1]⟩]⟩ := by
    intro L x hx
    have := planeSeg_missed L R (R + 2) (by linarith) M hMne x 0 1 (fun m hm y _ => hmiss x hx y m hm)
    rwa [hz] at this
  refine ⟨R, B, M, hB, hM, hR0, fun m hm => (hwf m (List.mem_append_right _ hm)).1,
    fun m hm v hv => (hRM m (List.mem_append_right _ hm) v hv).2.2, m2.trans b2, fun L => ?_, ?_, fun L l1 l2 => ?_⟩
  · unfold sweep3D
    rw [hly]
    have h1 := hplane L (2 * R + 1) (by rw [hlx]; simp)
    have h2 := hplane L (2 * R + 2) (by rw [hlx]; simp)
    change List.foldlM (fun acc x => (planeSeg L R (R + 2) M [0, 1] x).bind fun s => .ok (acc ++ [(x, s)])) []
      (exPar75 R).linesX = _
    rw [hlx, List.foldlM_cons, h1]
    simp only [Res.bind_ok', Res.bind_ok, List.foldlM_cons, h2, List.foldlM_nil]
    rfl
  · intro x hx y hy s hs
    refine ⟨[], ?_, by simp⟩
    unfold isect3
    rw [hmiss x hx y s hs]; rfl
  · refine ⟨by simp [exPar75], hMne, l1, l2, ?_, ?_⟩
    · refine fun m hm => ⟨hwf m (List.mem_append_left _ hm), ?_⟩
      rintro x hx y hy a b c z ⟨f, hf, ha, hb, hc⟩ hin
      exact absurd hin (hnot m (List.mem_append_left _ hm) x hx a b c _ rfl (List.mem_of_getElem? ha) (List.mem_of_getElem? hb)
        (List.mem_of_getElem? hc))
    · refine fun m hm => ⟨hwf m (List.mem_append_right _ hm), fun x hx y hy => ⟨?_, ?_⟩⟩
      · rw [List.countP_eq_zero.2]
        · omega
        · rintro f hf hmeet
          simp only [decide_eq_true_eq] at hmeet
          obtain ⟨a, b, c, p, ha, hb, hc, -, ⟨τ, hτ⟩, hin⟩ := hmeet
          refine hnot m (List.mem_append_right _ hm) x hx a b c p ?_ (List.mem_of_getElem? ha) (List.mem_of_getElem? hb)
            (List.mem_of_getElem? hc) hin
          rw [hτ]; simp [vertical]
      · rintro a b c p ⟨f, hf, ha, hb, hc⟩ ⟨τ, hτ⟩ hin
        refine absurd (inTriangle_mono triTol_pos.le hin) (hnot m (List.mem_append_right _ hm) x hx a b c p ?_
          (List.mem_of_getElem? ha) (List.mem_of_getElem? hb) (List.mem_of_getElem? hc))
        rw [hτ]; simp [vertical]

/-- A horizontal step above all meshes is accepted, whatever the joint angles. -/
theorem sameFree3_above_arm {R z : ℝ} (hz : R < z) {ms : List Mesh} (hne : ∀ m ∈ ms, m.vertices ≠ [])
    (hm : ∀ m ∈ ms, ∀ v ∈ m.vertices, v.z ≤ R) (x y x' y' : ℝ) (q q' : Quat) (js js' : Vec) :
    sameFree3 ms (mkVertex q js x y z) (mkVertex q' js' x' y' z) = .ok true :=
  sameFree3_above hz hne hm x y x' y' q q'

theorem prob_solved_once {σ : Type} {ops : ProbOps σ} {reset : σ → σ} (clock : ℕ → ℝ) (timeLim : ℝ) (fuel : ℕ)
    (r : PlanRep σ) {s1 s2 : σ} {p : List Vec} (h1 : ops.addSlice (reset r.st) = .ok s1) (h2 : ops.search s1 = .ok s2)
    (hw : ops.wantsRefine s2 = false) (h3 : ops.solved s2 = true) (h4 : ops.path s2 = .ok p)
    (h5 : ∃ q, ops.interp s2 p = .ok q) :
    ∃ r', probPlan ops reset clock timeLim (fuel + 1) r = some (.ok r') ∧ r'.st = s2 ∧ r'.solvedPath = p := by
  unfold probPlan probLoop probPass
  dsimp only
  rw [h1, Res.bind_ok', h2, Res.bind_ok']
  simp only [hw, Bool.false_eq_true, if_false, h3]
  rw [if_neg (by simp)]
  simp only [Option.map_some, Res.bind_ok']
  unfold finish
  rw [if_pos h3]
  dsimp only
  obtain ⟨q, h5⟩ := h5
  rw [h4, Res.bind_ok', h5, Res.bind_ok']
  exact ⟨_, rfl, rfl, rfl⟩

/-- The distance of two configurations with the same joints. -/
theorem euclid_arm (x y z x' y' : ℝ) (p q : Quat) (js : Vec) : euclid (conf7 x y z p ++ js) (conf7 x' y' z q ++ js) =
    Real.sqrt ((x - x') ^ 2 + (y - y') ^ 2 + ((p.1 - q.1) ^ 2 + (p.2.1 - q.2.1) ^ 2 + (p.2.2.1 - q.2.2.1) ^ 2 +
      (p.2.2.2 - q.2.2.2) ^ 2)) := by
  unfold euclid conf7
  have : (List.zipWith (fun x y => (x - y) ^ 2) js js).sum = 0 := by
    induction js with
    | nil => rfl
    | cons a l ih => simp [ih]
  simp only [List.cons_append, List.nil_append, List.zipWith_cons_cons, List.sum_cons, this]
  congr 1
  ring

/-- The roadmap of the example. -/
noncomputable def exGraph75 (R : ℝ) (s : Quat) (js : Vec) : Graph :=
  ⟨[conf7 (2 * R + 1) 0 (R + 1) s ++ js, conf7 (2 * R + 1) 1 (R + 1) s ++ js, conf7 (2 * R + 2) 0 (R + 1) s ++ js,
    conf7 (2 * R + 2) 1 (R + 1) s ++ js], [(0, 1), (2, 3), (0, 2), (1, 3)], [1, 1, 1, 1]⟩

theorem exGraph75_mem {R : ℝ} {s : Quat} {js v : Vec} (h : v ∈ (exGraph75 R s js).vertex) :
    ∃ x ∈ [2 * R + 1, 2 * R + 2], ∃ y ∈ [(0 : ℝ), 1], v = conf7 x y (R + 1) s ++ js := by
  simp only [exGraph75, List.mem_cons, List.not_mem_nil, or_false] at h
  rcases h with rfl | rfl | rfl | rfl
  · exact ⟨_, by simp, _, by simp, rfl⟩
  · exact ⟨_, by simp, _, by simp, rfl⟩
  · exact ⟨_, by simp, _, by simp, rfl⟩
  · exact ⟨_, by simp, _, by simp, rfl⟩

theorem exGraph75_ok (R : ℝ) (s : Quat) (js : Vec) : (exGraph75 R s js).Ok (7 + js.length) := by
  refine ⟨?_, rfl, ?_⟩
  · intro v hv
    obtain ⟨x, -, y, -, rfl⟩ := exGraph75_mem hv
    simp [conf7]; omega
  · intro k e w he hw
    have e1 : 2 * R + 1 - (2 * R + 2) = -1 := by ring
    match k with
    | 0 =>
      obtain rfl := Option.some.inj he
      obtain rfl := Option.some.inj hw
      refine ⟨_, _, rfl, rfl, ?_⟩
      rw [euclid_arm]; norm_num
    | 1 =>
      obtain rfl := Option.some.inj he
      obtain rfl := Option.some.inj hw
      refine ⟨_, _, rfl, rfl, ?_⟩
      rw [euclid_arm]; norm_num
    | 2 =>
      obtain rfl := Option.some.inj he
      obtain rfl := Option.some.inj hw
      refine ⟨_, _, rfl, rfl, ?_⟩
      rw [euclid_arm, e1]; norm_num
    | 3 =>
      obtain rfl := Option.some.inj he
      obtain rfl := Option.some.inj hw
      refine ⟨_, _, rfl, rfl, ?_⟩
      rw [euclid_arm, e1]; norm_num
    | k + 4 => exact nomatch he

/-- The query at a vertex of the slice returns this vertex. -/
theorem near75 {ang : Quat → Quat → ℝ} {jq q0 s : Quat} {js : Vec} (hrad : ang jq q0 < 100) (hs : ang q0 s < 1 / 10 ^ 6)
    (R : ℝ) (i : ℕ) (hi : i < 2) : nearest3DJ ang (some jq) [q0] (exGraph75 R s js).vertex
      (conf7 (2 * R + 1) (if i = 0 then 0 else 1) (R + 1) q0 ++ js) 1 100 50 50 = .ok [i] := by
  set q := conf7 (2 * R + 1) (if i = 0 then 0 else 1) (R + 1) q0 ++ js with hq
  have hql : q.length = 7 + js.length := by simp [hq, conf7]; omega
  obtain ⟨m, hm, hcase⟩ := closestQuat_spec ang q0 [] (quat q)
  have hm2 : m.2 = none := by
    rcases hcase with ⟨h, -⟩ | ⟨r, hr, -, h2, -⟩
    · exact h
    · obtain rfl := List.mem_singleton.1 hr
      exact absurd h2 (lt_irrefl _)
  obtain ⟨k, w, hw, hcl, hstep⟩ := nearestStep3D_spec ang (verts := (exGraph75 R s js).vertex) (by simp [exGraph75])
    (by omega) (exGraph75_ok R s js).dims hql 50 50 q0
  have hquat : ∀ x y : ℝ, quat (conf7 x y (R + 1) s ++ js) = s := by intro x y; simp [quat, coord, conf7]
  have hvi : ∃ v, (exGraph75 R s js).vertex[i]? = some v ∧ v = conf7 (2 * R + 1) (if i = 0 then 0 else 1) (R + 1) s ++ js := by
    interval_cases i
    · exact ⟨_, rfl, by simp⟩
    · exact ⟨_, rfl, by simp⟩
  obtain ⟨v, hv, ev⟩ := hvi
  have hvm := List.mem_of_getElem? hv
  have hle : euclid q w ≤ euclid q v := by
    rcases hcl with ⟨w', h1, -, h3⟩ | ⟨-, h⟩
    · rw [hw] at h1
      obtain rfl := Option.some.inj h1
      exact h3 v hvm (by rw [ev, hquat]; exact hs)
    · exact absurd (by rw [ev, hquat]; exact hs) (h v hvm)
  have hsame : ∀ x y : ℝ, w = conf7 x y (R + 1) s ++ js → x = 2 * R + 1 ∧ y = if i = 0 then 0 else 1 := by
    rintro x y rfl
    rw [hq, ev, euclid_arm, euclid_arm, Real.sqrt_le_sqrt_iff (by positivity)] at hle
    constructor
    · nlinarith [sq_nonneg (2 * R + 1 - x), sq_nonneg ((if i = 0 then (0 : ℝ) else 1) - y)]
    · nlinarith [sq_nonneg (2 * R + 1 - x), sq_nonneg ((if i = 0 then (0 : ℝ) else 1) - y)]
  have hki : k = i := by
    have hk4 : k < 4 := by simpa [exGraph75] using (List.getElem?_eq_some_iff.1 hw).1
    have hk' : k = 0 ∨ k = 1 ∨ k = 2 ∨ k = 3 := by omega
    rcases hk' with e | e | e | e <;> rw [e] at hw ⊢
    · have := (hsame (2 * R + 1) 0 (Option.some.inj hw).symm).2
      interval_cases i
      · rfl
      · norm_num at this
    · have := (hsame (2 * R + 1) 1 (Option.some.inj hw).symm).2
      interval_cases i
      · norm_num at this
      · rfl
    · have := (hsame (2 * R + 2) 0 (Option.some.inj hw).symm).1
      linarith
    · have := (hsame (2 * R + 2) 1 (Option.some.inj hw).symm).1
      linarith
  subst hki
  rw [hv] at hw
  obtain rfl := Option.some.inj hw
  unfold nearest3DJ
  rw [quatOf_eq (by omega), Res.bind_ok', hm, Res.bind_ok', hm2]
  simp only [Option.none_or]
  rw [collectK_eq _ _ _ (by simp)]
  simp only [hrad, List.nil_append, decide_true, List.filter_cons_of_pos, List.filter_nil]
  change Res.bind (nearestStep3D ang (exGraph75 R s js).vertex q 50 50 [] q0) _ = _
  rw [hstep, if_pos]
  · rfl
  · rw [ev, hq]
    simp [coord, conf7]

/-- C75, a solved run: for every robot (built by public calls) and kinematics, every arena and obstacles of objects sampled
alike, planning between two different configurations of one slice succeeds in one pass on suitable sweep lines,
provided the uninitialised orientation (C52) happens to be near the slice. -/
theorem C75_witness (base : SuperQuadrics) (ops : List (RobotOp SuperQuadrics 3)) (robot : Tree3)
    (hrun : Tree3.run ops (Tree3.new base) = .ok robot) (arena obs : List SuperQuadrics) (hne : arena ≠ []) (n : ℕ) (hn : n ≠ 0)
    (hnum : ∀ o ∈ arena ++ obs, o.num = n) :
    ∃ (R : ℝ) (B : Bound3) (M : BoundMesh), cspaceBoundary3 robot arena obs = .ok B ∧ cspaceMesh arena obs B = .ok M ∧
      M.obstacle.length = (1 + (addedBodies ops).length) * obs.length ∧
      ∀ (L : Libs3) (hpick : HeapTop L.pick) (V : Variant) (A : Arm) (hV : V.arm = some A)
        (q0 jq : Quat) (hu : q0.Unit) (hjunk : L.junk = some jq) (hrad : L.ang jq q0 < 100)
        (hnear : ∀ s, SameRotation s q0 → L.ang q0 s < 1 / 10 ^ 6) (js : Vec)
        (hjs : js.length = A.nJ) (quats : List Quat) (clock : ℕ → ℝ) (timeLim : ℝ),
      (L.dmin ≤ R → R + 2 ≤ L.dmax → SweepGeneric3 L (exPar75 R) M) ∧
      ∃ r', Planner3.planProb L V A clock timeLim 1 (freshRep3 (.new robot quats arena obs (conf7 (2 * R + 1) 0 (R + 1) q0 ++ js)
        (conf7 (2 * R + 1) 1 (R + 1) q0 ++ js) (exPar75 R) false)) = some (.ok r') ∧ r'.st.res.solved = true ∧
      ProbReach L V A (probStart robot quats arena obs (conf7 (2 * R + 1) 0 (R + 1) q0 ++ js) (conf7 (2 * R + 1) 1 (R + 1) q0 ++ js)
        (exPar75 R) false) 1 r'.st ∧ 4 ≤ r'.solvedPath.length := by
  have hr := run_inv_of3 hrun
  obtain ⟨R, B, M, hB, hM, hR0, hMne, hMz, hMl, hsegs, hgood, hgen⟩ := farLines_sweep hr hne hn hnum
  refine ⟨R, B, M, hB, hM, hMl, ?_⟩
  intro L hpick V A hV q0 jq hu hjunk hrad hnear js hjs quats clock timeLim
  refine ⟨hgen L, ?_⟩
  replace hsegs := hsegs L
  set segs : List (ℝ × FreeSeg) := [(2 * R + 1, ⟨[0, 1], [⟨[R], [R + 2], [R + 1]⟩, ⟨[R], [R + 2], [R + 1]⟩]⟩),
    (2 * R + 2, ⟨[0, 1], [⟨[R], [R + 2], [R + 1]⟩, ⟨[R], [R + 2], [R + 1]⟩]⟩)] with hsg
  set par := exPar75 R with hpar
  set cf := conf7 (2 * R + 1) 0 (R + 1) q0 ++ js with hcf
  set gl := conf7 (2 * R + 1) 1 (R + 1) q0 ++ js with hgl
  have hcl : cf.length = 7 + A.nJ := by simp [hcf, conf7, hjs]; omega
  have hdrop : cf.drop 7 = js := by simp [hcf, conf7]
  set P0 := probStart robot quats arena obs cf gl par false with hP0
  have hi0 : ProbInv L V A base (addedBodies ops) robot arena obs cf gl par M segs 0 P0 := probStart_inv hr hB hM segs
  -- the sample
  have hsamp : P0.sampleProb L A = .ok { P0 with q := [q0], drawn := 0, v := [conf7 0 0 0 q0 ++ js] } := by
    have h1 : quatAt cf = .ok q0 := by rw [hcf]; rfl
    have h2 := (joints_total cf A.nJ hcl).2
    rw [hdrop] at h2
    unfold Planner3.sampleProb
    change ((quatAt cf).bind fun q => (jointsAt A.nJ cf).bind fun js => (.ok (q, js, 0) : Res (Quat × Vec × ℕ))).bind _ = _
    rw [h1, Res.bind_ok', h2, Res.bind_ok', Res.bind_ok']
    rfl
  set P1 : Planner3 := { P0 with q := [q0], drawn := 0, v := [conf7 0 0 0 q0 ++ js] } with hP1
  -- the boundaries
  have hc7 : (conf7 0 0 0 q0 ++ js).length = 7 + A.nJ := by simp [conf7, hjs]; omega
  obtain ⟨T, hT, hTq⟩ : ∃ T, setTransform3 V.arm P1.robot (conf7 0 0 0 q0 ++ js) = .ok T ∧
      T.base.quat = matQuat (quatRot q0) := by
    rw [hV]
    exact setTransformArm_total hr q0 hjs
  have hplace : P1.placeSlice V 0 = .ok
      { P1 with robot := T, fs := { P1.fs with mesh := M }, sliceBound := B,
                sliceBoundAll := [B], sliceMesh := M, sliceMeshAll := [M] } := by
    unfold Planner3.placeSlice Planner3.sliceConf
    change (Res.at' [conf7 0 0 0 q0 ++ js] 0).bind _ = _
    rw [Res.at'_eq_ok.2 rfl, Res.bind_ok', hT, Res.bind_ok']
    change (cspaceBoundary3 robot arena obs).bind _ = _
    rw [hB, Res.bind_ok']
    change (cspaceMesh arena obs B).bind _ = _
    rw [hM, Res.bind_ok']
    rfl
  obtain ⟨t, -, hsw⟩ := sweep3_total (L := L) (p := P1.par) (f := { P1.fs with mesh := M }) (segs := segs)
    (by rw [hP1, hP0]; simp [probStart, hpar, exPar75]) (by rw [hP1, hP0]; simp [probStart, hpar, exPar75])
    (by exact hi0.shape) hgood hsegs
  set s := matQuat (quatRot q0) with hs0
  have hsame : SameRotation s q0 := sameRotation_matQuat hu
  have hcs : constructSlice3D (sameFree3 M.obstacle) (mkVertex s js) segs .empty = .ok (exGraph75 R s js, ⟨0, 4, [[0, 1], [2, 3]]⟩) := by
    have hcs := slice_all_free (free := sameFree3 M.obstacle) (mk := mkVertex s js) (x0 := 2 * R + 1) (x1 := 2 * R + 2) (y0 := 0) (y1 := 1)
      (z := R + 1) (l := R) (u := R + 2) (w := euclid)
      (by intro x _ y _ x' _ y' _; exact vectorEuclidean_eq (by simp [mkVertex]))
      (by intro x _ y _ x' _ y' _; exact sameFree3_above_arm (by linarith) hMne hMz ..)
    rw [hsg, hcs]
    have k1 : euclid (mkVertex s js (2 * R + 1) 0 (R + 1)) (mkVertex s js (2 * R + 1) 1 (R + 1)) = 1 := by
      have h := euclid_arm (2 * R + 1) 0 (R + 1) (2 * R + 1) 1 s s js
      norm_num at h; exact h
    have k2 : euclid (mkVertex s js (2 * R + 2) 0 (R + 1)) (mkVertex s js (2 * R + 2) 1 (R + 1)) = 1 := by
      have h := euclid_arm (2 * R + 2) 0 (R + 1) (2 * R + 2) 1 s s js
      norm_num at h; exact h
    have e1 : 2 * R + 1 - (2 * R + 2) = -1 := by ring
    have k3 : euclid (mkVertex s js (2 * R + 1) 0 (R + 1)) (mkVertex s js (2 * R + 2) 0 (R + 1)) = 1 := by
      have h := euclid_arm (2 * R + 1) 0 (R + 1) (2 * R + 2) 0 s s js
      rw [e1] at h; norm_num at h; exact h
    have k4 : euclid (mkVertex s js (2 * R + 1) 1 (R + 1)) (mkVertex s js (2 * R + 2) 1 (R + 1)) = 1 := by
      have h := euclid_arm (2 * R + 1) 1 (R + 1) (2 * R + 2) 1 s s js
      rw [e1] at h; norm_num at h; exact h
    rw [k1, k2, k3, k4]
    rfl
  -- the pass
  have hadd : ∃ P2, P0.addSlice L V A = .ok P2 ∧ P2.graph = exGraph75 R s js ∧ P2.q = [q0] ∧ P2.start = cf ∧ P2.goal = gl ∧
      P2.par = { par with numSlice := 1 } ∧ P2.res = ⟨false, [], some 0⟩ ∧ P2.vertexIdxAll = [] := by
    have hcon : P1.constructOneSlice L V 0 = .ok
        { P1 with robot := T, fs := { P1.fs with mesh := M, table := t }, sliceBound := B,
                  sliceBoundAll := [B], sliceMesh := M, sliceMeshAll := [M], graph := exGraph75 R s js, vertexIdx := [⟨0, 4, [[0, 1], [2, 3]]⟩] } := by
      unfold Planner3.constructOneSlice
      rw [hplace, Res.bind_ok']
      dsimp only
      rw [hsw, Res.bind_ok']
      unfold Planner3.sliceJoints
      rw [hV]
      have hv1 : P1.v.getLast? = some (conf7 0 0 0 q0 ++ js) := rfl
      simp only [hv1]
      rw [Res.bind_ok', hTq, show (conf7 0 0 0 q0 ++ js).drop 7 = js by simp [conf7]]
      change Res.bind (constructSlice3D (sameFree3 M.obstacle) (mkVertex s js) segs .empty) _ = _
      rw [hcs]
      rfl
    unfold Planner3.addSlice
    rw [hsamp, Res.bind_ok']
    change ∃ P2, Res.bind (P1.constructOneSlice L V 0) _ = .ok P2 ∧ _
    rw [hcon, Res.bind_ok']
    exact ⟨_, rfl, rfl, rfl, rfl, rfl, rfl, rfl, rfl⟩
  obtain ⟨P2, hadd, e1, e2, e3, e4, e5, e6, e7⟩ := hadd
  have n0 : nearest3DJ L.ang L.junk P2.q P2.graph.vertex P2.start P2.par.numSearchNeighbor P2.par.searchRadius
      (P2.par.searchRadius * (P2.par.xHi - P2.par.xLo) / P2.par.numLineX)
      (P2.par.searchRadius * (P2.par.yHi - P2.par.yLo) / P2.par.numLineY) = .ok [0] := by
    have g1 : (100 : ℝ) * ((2 * R + 2) - (2 * R + 1)) / (2 : ℕ) = 50 := by push_cast; ring
    have g2 : (100 : ℝ) * (1 - 0) / (2 : ℕ) = 50 := by norm_num
    rw [e2, e5, hjunk, e1, e3]
    change nearest3DJ L.ang (some jq) [q0] _ cf 1 100 (100 * ((2 * R + 2) - (2 * R + 1)) / (2 : ℕ)) (100 * (1 - 0) / (2 : ℕ)) = _
    rw [g1, g2]
    exact near75 hrad (hnear s hsame) R 0 (by norm_num)
  have n1 : nearest3DJ L.ang L.junk P2.q P2.graph.vertex P2.goal P2.par.numSearchNeighbor P2.par.searchRadius
      (P2.par.searchRadius * (P2.par.xHi - P2.par.xLo) / P2.par.numLineX)
      (P2.par.searchRadius * (P2.par.yHi - P2.par.yLo) / P2.par.numLineY) = .ok [1] := by
    have g1 : (100 : ℝ) * ((2 * R + 2) - (2 * R + 1)) / (2 : ℕ) = 50 := by push_cast; ring
    have g2 : (100 : ℝ) * (1 - 0) / (2 : ℕ) = 50 := by norm_num
    rw [e2, e5, hjunk, e1, e4]
    change nearest3DJ L.ang (some jq) [q0] _ gl 1 100 (100 * ((2 * R + 2) - (2 * R + 1)) / (2 : ℕ)) (100 * (1 - 0) / (2 : ℕ)) = _
    rw [g1, g2]
    exact near75 hrad (hnear s hsame) R 1 (by norm_num)
  set g := exGraph75 R s js with hg
  have hok : g.Ok (7 + A.nJ) := by rw [← hjs]; exact exGraph75_ok R s js
  have hvl : g.vertex.length = 4 := rfl
  have hwl : g.weight.length = 4 := rfl
  have hS : ∀ s ∈ [0], s < g.vertex.length := by simp [hvl]
  have hG : ∀ s ∈ [1], s < g.vertex.length := by simp [hvl]
  have hfresh : SearchRes.Fresh ⟨false, [], some 0⟩ := ⟨rfl, rfl⟩
  obtain ⟨sr, hsr⟩ := C28_search_returns hok hpick hS hG hfresh (by rw [hvl, hwl])
  have hconn : g.Connected 0 1 := ⟨[0, 1], 1 + 0, .cons 0 1 [] _ 0 (.single 1 (by omega)) ⟨0, rfl, Or.inl rfl⟩, rfl, rfl⟩
  have hsol : sr.solved = true :=
    (C28_search_complete_optimal hok hpick hS hG hfresh hsr).1.2 ⟨0, by simp, 1, by simp, hconn⟩
  obtain ⟨s', hs', t', ht', len, hpath, -⟩ := C27_search_returns_path hok hpick hS hG hfresh hsr hsol
  obtain rfl := List.mem_singleton.1 hs'
  obtain rfl := List.mem_singleton.1 ht'
  have hids := hpath.1.mem_lt hok
  have hlen2 : 2 ≤ sr.pathId.length := by
    obtain ⟨-, h1, h2⟩ := hpath
    match hp : sr.pathId with
    | [] => rw [hp] at h1; exact nomatch h1
    | [a] =>
      rw [hp] at h1 h2
      simp only [List.head?_cons, Option.some.injEq] at h1
      simp only [List.getLast?_singleton, Option.some.injEq] at h2
      omega
    | a :: b :: l => simp
  have hcost : sr.cost = some ((sr.pathId.length : ℝ) - 1) := by
    obtain ⟨-, hc⟩ := C29_cost_partial hok hpick hS hG hfresh hsr hsol
    rw [hc]
    congr 1
    have : ∀ v ∈ sr.pathId.tail, g.weight.getD v 0 = 1 := by
      intro v hv
      have hv4 : v < 4 := hids v (List.mem_of_mem_tail hv)
      interval_cases v <;> rfl
    rw [List.map_congr_left this]
    simp
    rw [Nat.cast_sub (by omega)]
    simp
  have hPs : P2.search L = .ok { P2 with res := sr } := by
    unfold Planner3.search
    dsimp only
    rw [n0, Res.bind_ok', n1, Res.bind_ok', e6]
    rw [show P2.graph = g from e1, hsr, Res.bind_ok']
  obtain ⟨path, mid, hp1, hp2, hp3, hp4, hp5⟩ := C30_solution_path hok.dims cf gl sr.pathId hids (by simp [hg, exGraph75])
  have hpath' : getSolutionPath P2.graph P2.start P2.goal sr.pathId = .ok path := by
    rw [e1, e3, e4]; exact hp1
  have hgll : gl.length = 7 + A.nJ := by simp [hgl, conf7, hjs]; omega
  rw [show resize cf (7 + A.nJ) = cf by rw [← hcl]; exact C30_endpoints_unchanged cf,
    show resize gl (7 + A.nJ) = gl by rw [← hgll]; exact C30_endpoints_unchanged gl] at hp2
  have hmem : ∀ v ∈ path, ∃ x ∈ [2 * R + 1, 2 * R + 2], ∃ y ∈ [(0 : ℝ), 1], ∃ p, SameRotation p q0 ∧ v = conf7 x y (R + 1) p ++ js := by
    intro v hv
    rw [hp2] at hv
    simp only [List.mem_cons, List.mem_append, List.not_mem_nil, or_false] at hv
    rcases hv with rfl | hv | rfl
    · exact ⟨_, by simp, _, by simp, _, Or.inl rfl, rfl⟩
    · obtain ⟨k, hk⟩ := List.mem_iff_getElem?.1 hv
      have hkl : k < sr.pathId.length := by rw [← hp3]; exact (List.getElem?_eq_some_iff.1 hk).1
      have := hp4 k _ (List.getElem?_eq_getElem hkl)
      rw [hk] at this
      obtain ⟨x, hx, y, hy, e⟩ := exGraph75_mem (List.mem_of_getElem? this.symm)
      exact ⟨x, hx, y, hy, s, hsame, e⟩
    · exact ⟨_, by simp, _, by simp, _, Or.inl rfl, rfl⟩
  have hpl : path.length = sr.pathId.length + 2 := by rw [hp2]; simp [hp3]
  have hsp : SolvedPath path := by
    refine ⟨by omega, ?_, fun v hv w hw => by rw [hp5 v hv, hp5 w hw]⟩
    intro v hv
    refine ⟨by rw [hp5 v hv]; omega, ?_⟩
    obtain ⟨x, -, y, -, p, hp, rfl⟩ := hmem v hv
    have : quatPart (conf7 x y (R + 1) p ++ js) = p := by simp [quatPart, coordOf, conf7]
    rw [this]
    unfold Quat.Unit at hu
    unfold Quat.dot
    rcases hp with rfl | rfl
    · linarith
    · simp only; linarith
  have hcpos : (0 : ℝ) < (sr.pathId.length : ℝ) - 1 := by
    have : (2 : ℝ) ≤ sr.pathId.length := by exact_mod_cast hlen2
    linarith
  have hinterp : ∃ q, (probOps L V A).interp { P2 with res := sr } path = .ok q := by
    change ∃ q, Planner3.interpolated { P2 with res := sr } path = .ok q
    unfold Planner3.interpolated
    simp only [hcost]
    refine interpolatedPath3D_total path _ _ hsp hcpos ?_
    intro i v w hv hw
    obtain ⟨x, hx, y, hy, p, hp, rfl⟩ := hmem v (List.mem_of_getElem? hv)
    obtain ⟨x', hx', y', hy', p', hp', rfl⟩ := hmem w (List.mem_of_getElem? hw)
    have hE : euclid (conf7 x y (R + 1) p ++ js) (conf7 x' y' (R + 1) p' ++ js) ≤ 3 := by
      rw [euclid_arm, Real.sqrt_le_left (by norm_num)]
      have bx : (x - x') ^ 2 ≤ 1 := by
        simp only [List.mem_cons, List.not_mem_nil, or_false] at hx hx'
        rcases hx with rfl | rfl <;> rcases hx' with rfl | rfl <;> ring_nf <;> norm_num
      have bY : (y - y') ^ 2 ≤ 1 := by
        simp only [List.mem_cons, List.not_mem_nil, or_false] at hy hy'
        rcases hy with rfl | rfl <;> rcases hy' with rfl | rfl <;> norm_num
      have bq : (p.1 - p'.1) ^ 2 + (p.2.1 - p'.2.1) ^ 2 + (p.2.2.1 - p'.2.2.1) ^ 2 + (p.2.2.2 - p'.2.2.2) ^ 2 ≤ 4 := by
        unfold Quat.Unit at hu
        rcases hp with rfl | rfl <;> rcases hp' with rfl | rfl <;> (try simp only) <;> nlinarith
      linarith
    have hnp : (({ P2 with res := sr } : Planner3).par.numPoint : ℝ) = 5 := by
      change ((P2.par.numPoint : ℕ) : ℝ) = 5
      rw [e5]; norm_num [hpar, exPar75]
    rw [hnp, hpl]
    push_cast
    have : (2 : ℝ) ≤ sr.pathId.length := by exact_mod_cast hlen2
    have h0 : 0 ≤ euclid (conf7 x y (R + 1) p ++ js) (conf7 x' y' (R + 1) p' ++ js) := Real.sqrt_nonneg _
    nlinarith
  obtain ⟨r', e, er, ep⟩ := prob_solved_once (ops := probOps L V A)
    (reset := fun P => { P with par := { P.par with numSlice := 0 } }) clock timeLim 0
    (freshRep3 (.new robot quats arena obs cf gl par false)) hadd hPs
    (by simp [probOps, e5]) hsol hpath' hinterp
  refine ⟨r', e, by rw [er]; exact hsol, ?_, by rw [ep]; omega⟩
  rw [er]
  exact .pass .start rfl hadd hPs

end Hrm
