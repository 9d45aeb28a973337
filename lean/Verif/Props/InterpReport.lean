import Verif.Props.ProbRun

/-!
# C90 – the interpolated path that a call of `plan` reports
-/

namespace Hrm

open Classical

/-! ## The planar and the spatial planner report a copy -/

/-- C90: what a planar planner reports as the interpolated path is the solved path itself. -/
theorem C90_planar_copy (L : Libs2) (base : SuperEllipse) (ops : List (RobotOp SuperEllipse 2)) (robot : Tree2)
    (hrun : Tree2.run ops (Tree2.new base) = .ok robot) (arena obs : List SuperEllipse) (hne : arena ≠ [] ∨ obs ≠ [])
    (start goal : Vec) (par : Param2) (clock : ℕ → ℝ) (timeLim : ℝ) (fuel : ℕ) (r' : PlanRep Planner2)
    (h : Planner2.plan L clock timeLim fuel (freshRep (.new robot arena obs start goal par)) = some (.ok r')) :
    r'.interpolated = r'.solvedPath.map fun v => v.map some := by
  have hr := run_inv_of hrun
  obtain ⟨B, hB, -⟩ := cspaceBoundary_ok hr arena obs
  obtain ⟨P, -, -, -, -, e1, e2, e3, -, e5⟩ := plan_fresh hr hB hne h
  cases hs : r'.st.res.solved with
  | false => obtain ⟨a, b⟩ := e5.1 hs; rw [a, b]; rfl
  | true => exact e5.2 hs

/-- C90: so is what a spatial planner (`HRM3D`, `HRM3DAblation`) reports: the function that interpolates does not override
the one `plan` calls. -/
theorem C90_spatial_copy (L : Libs3) (V : Variant) (hV : V.arm = none) (base : SuperQuadrics)
    (ops : List (RobotOp SuperQuadrics 3)) (robot : Tree3) (hrun : Tree3.run ops (Tree3.new base) = .ok robot)
    (quats : List Quat) (arena obs : List SuperQuadrics) (hne : arena ≠ [] ∨ obs ≠ []) (start goal : Vec)
    (par : Param3) (clock : ℕ → ℝ) (timeLim : ℝ) (fuel : ℕ) (r' : PlanRep Planner3)
    (h : Planner3.plan L V clock timeLim fuel (freshRep3 (.new robot quats arena obs start goal par true)) =
      some (.ok r')) :
    r'.interpolated = r'.solvedPath.map fun v => v.map some := by
  obtain ⟨P, -, -, -, -, e1, e2, e3, -, e5⟩ := plan_fresh3 hV (run_inv_of3 hrun) hne h
  cases hs : r'.st.res.solved with
  | false => obtain ⟨a, b⟩ := e5.1 hs; rw [a, b]; rfl
  | true => exact e5.2 hs

/-- **C90, claim**: a solved call of the spatial planner reports an interpolated path, in which every step of the solved
path is interpolated. -/
def C90_claim : Prop := ∀ (L : Libs3) (V : Variant), V.arm = none → HeapTop L.pick → SvdOk L.svd →
  ∀ (base : SuperQuadrics)
    (ops : List (RobotOp SuperQuadrics 3)) (robot : Tree3), Tree3.run ops (Tree3.new base) = .ok robot →
  ∀ (quats : List Quat) (arena obs : List SuperQuadrics), (∀ q ∈ quats, q.Unit) → (arena ≠ [] ∨ obs ≠ []) →
  ∀ (start goal : Vec) (par : Param3), start.length = 7 → goal.length = 7 → start ≠ goal → 1 ≤ par.numPoint →
  ∀ (clock : ℕ → ℝ) (timeLim : ℝ) (fuel : ℕ) (r' : PlanRep Planner3),
    Planner3.plan L V clock timeLim fuel (freshRep3 (.new robot quats arena obs start goal par true)) = some (.ok r') →
    r'.st.res.solved = true →
    ∃ segs : List (List Vec), r'.interpolated = segs.flatten.map (fun v => v.map some) ∧
      segs.length + 1 = r'.solvedPath.length ∧ ∀ (i : ℕ) (v w : Vec) (seg : List Vec), r'.solvedPath[i]? = some v →
        r'.solvedPath[i + 1]? = some w → segs[i]? = some seg → Interpolates v w seg

theorem flatten_len_two {β : Type} (l : List (List β)) (h : ∀ s ∈ l, 2 ≤ s.length) : 2 * l.length ≤ l.flatten.length := by
  induction l with
  | nil => simp
  | cons a l ih =>
    have h1 := h a (by simp)
    have h2 := ih fun s hs => h s (by simp [hs])
    simp only [List.length_cons, List.flatten_cons, List.length_append]
    omega

/-- C90 is false of the code: the planner of `C87_witness` reports its path, with 5 points per step asked for, without any
added point. -/
theorem C90_refuted : ¬ C90_claim := by
  intro hc
  obtain ⟨svd, hsvd⟩ := exists_svd 3
  obtain ⟨dmin, dmax, par, start, goal, r', B, M, h, hsol, hs, hg, hsg, hnp, hu, -, -, -, -, hlen⟩ :=
    C87_witness exRobot3 (StdSort.ins ℝ) svd anyTop anyTop_heap none (fun _ => exQ0) (fun _ _ => 0) (fun _ => 0) 1
  obtain ⟨segs, h1, h2, h3⟩ := hc _ ⟨none, none⟩ rfl anyTop_heap hsvd exRobot3 [] (Tree3.new exRobot3) rfl
    [exQ0, exQ1] [exBall3 20] [exObs87] hu (Or.inl (by simp)) start goal par hs hg hsg hnp _ _ _ r' h hsol
  have hcopy := C90_spatial_copy _ ⟨none, none⟩ rfl exRobot3 [] (Tree3.new exRobot3) rfl
    [exQ0, exQ1] [exBall3 20] [exObs87] (Or.inl (by simp)) start goal par _ _ _ r' h
  have hseg : ∀ s ∈ segs, 2 ≤ s.length := by
    intro s hs
    obtain ⟨i, hi⟩ := List.mem_iff_getElem?.1 hs
    have hil := (List.getElem?_eq_some_iff.1 hi).1
    exact (h3 i _ _ s (List.getElem?_eq_getElem (by omega)) (List.getElem?_eq_getElem (by omega)) hi).1
  have h4 := flatten_len_two segs hseg
  have h5 := congrArg List.length (hcopy.symm.trans h1)
  simp only [List.length_map] at h5
  omega

/-! ## The incremental planner interpolates -/

/-- After a pass that reports success: the ids are a path, and the cost is the sum the program computes. -/
theorem reach_solved {L : Libs3} {V : Variant} {A : Arm} (hV : V.arm = some A) (hpick : HeapTop L.pick) {base : SuperQuadrics}
    {added : List SuperQuadrics} {robot : Tree3} (hr : Tree3.Inv base added robot) {quats : List Quat}
    {arena obs : List SuperQuadrics} {start goal : Vec} {par : Param3} {rigid : Bool} {k : ℕ} {P : Planner3}
    (h : ProbReach L V A (probStart robot quats arena obs start goal par rigid) (k + 1) P) (hsol : P.res.solved = true) :
    ∃ s t, PairFound P.graph s t P.res ∧ (start = goal → s = t) := by
  obtain ⟨B, hB, b1, b2, -⟩ := cspaceBoundary3_ok hr arena obs
  obtain ⟨M, hM, -, -⟩ := cspaceMesh_ok b1 b2
  cases h with
  | @pass _ P0 P1 _ hrc h0 h1 h2 =>
    have hip := reach_inv hV hr hB hM rfl hrc
    obtain ⟨hi1, e⟩ := addSlice_inv hV hr hB hM rfl hip h1
    obtain ⟨S, T, res, n1, n2, hse, rfl⟩ := search3_ok h2
    rw [e, reach_fresh hV hr hpick hrc h0] at hse
    rcases (search_core hi1.ok hpick (nearest3DJ_ids n1) (nearest3DJ_ids n2) rfl (tot := False) (by simp)).1 res hse with
      ⟨e', -⟩ | ⟨s, t, S1, S2, G1, G2, e1, e2, f1, f2, hf⟩
    · rw [e'] at hsol; exact nomatch hsol
    · refine ⟨s, t, hf, fun hsg => ?_⟩
      have hST : S = T := by
        rw [hi1.estart] at n1
        rw [hi1.egoal, ← hsg, n1] at n2
        exact (Res.ok.injEq _ _).mp n2
      subst hST
      have self : ∀ x ∈ S, P1.graph.Connected x x := fun x hx =>
        ⟨[x], 0, .single x (nearest3DJ_ids n1 x hx), rfl, rfl⟩
      cases S1 with
      | cons a l =>
        have ha : a ∈ S := by rw [e1]; simp
        exact absurd (self a ha) (f1 a (by simp) a ha)
      | nil =>
        rw [List.nil_append] at e1
        cases G1 with
        | cons a l =>
          rw [e1, List.cons_append] at e2
          obtain ⟨rfl, -⟩ := List.cons.inj e2
          exact absurd (self s (by rw [e1]; simp)) (f2 s (by simp))
        | nil =>
          rw [e1, List.nil_append] at e2
          exact (List.cons.inj e2).1

/-- The vertices of a slice with a unit orientation have unit quaternions. -/
theorem probVertex_unit {L : Libs3} {A : Arm} {start goal : Vec} {ms : List Mesh} {segs : List (ℝ × FreeSeg)} {i : ℕ}
    (hu : (probSample L A start goal i).1.Unit) {v : Vec} (h : ProbVertex L A start goal ms segs i v) : UnitPose v := by
  have hq : (matQuat (quatRot (probSample L A start goal i).1)).Unit := by
    rcases sameRotation_matQuat hu with e | e
    · rw [e]; exact hu
    · rw [e]
      unfold Quat.Unit at hu ⊢
      simp only
      linarith
  have hs : ∀ x y z : ℝ, UnitPose (x :: y :: z :: probTail L A start goal i) := by
    intro x y z
    refine ⟨by simp [probTail], ?_⟩
    unfold Quat.Unit at hq
    simp only [Quat.dot, quatPart, coordOf, probTail, List.cons_append, List.nil_append]
    simp
    linarith
  rcases h with ⟨p, -, j, y, r, z, -, -, -, rfl⟩ | ⟨v1, v2, ⟨p, -, j, y, r, z, -, -, -, rfl⟩, ⟨p', -, j', y', r', z', -, -, -, rfl⟩, -, h, -⟩
  · exact hs _ _ _
  · rcases h with ⟨c, -, rfl⟩ | ⟨c, -, rfl⟩
    · exact hs _ _ _
    · exact hs _ _ _

/-- **C90 (partial).** A call of the incremental planner that returns with success reports the interpolation of its path,
and then the path has at least two roadmap vertices and a positive cost. With unit orientations, at least one point per
step and path steps that are neither shorter than one interpolation step nor too long, every step of the path is
interpolated by numbers. Missing: shorter steps (NaN configurations, C70). -/
theorem C90_incremental_partial (L : Libs3) (V : Variant) (A : Arm) (hV : V.arm = some A) (hpick : HeapTop L.pick)
    (base : SuperQuadrics) (ops : List (RobotOp SuperQuadrics 3)) (robot : Tree3)
    (hrun : Tree3.run ops (Tree3.new base) = .ok robot) (quats : List Quat)
    (arena obs : List SuperQuadrics) (hne : arena ≠ [] ∨ obs ≠ []) (start goal : Vec) (hs : start.length = 7 + A.nJ)
    (hg : goal.length = 7 + A.nJ) (par : Param3) (rigid : Bool) (clock : ℕ → ℝ) (timeLim : ℝ) (fuel : ℕ)
    (r' : PlanRep Planner3)
    (h : Planner3.planProb L V A clock timeLim fuel (freshRep3 (.new robot quats arena obs start goal par rigid)) =
      some (.ok r')) (hsol : r'.st.res.solved = true) :
    ∃ mid cost, r'.solvedPath = start :: (mid ++ [goal]) ∧ 2 ≤ mid.length ∧ r'.st.res.cost = some cost ∧ 0 < cost ∧
      interpolatedPath3D r'.solvedPath cost par.numPoint = .ok r'.interpolated ∧
      ((quatPart start).Unit → (quatPart goal).Unit → (∀ i, (L.rand i).Unit) → 1 ≤ par.numPoint →
        (∀ (i : ℕ) (v w : Vec), r'.solvedPath[i]? = some v → r'.solvedPath[i + 1]? = some w →
          cost ≤ euclid v w * (par.numPoint * ((mid.length : ℝ) + 1)) ∧
          euclid v w * (par.numPoint * ((mid.length : ℝ) + 1)) < 2 ^ 31 * cost) →
        ∃ segs : List (List Vec), r'.interpolated = segs.flatten.map (fun v => v.map some) ∧
          segs.length + 1 = r'.solvedPath.length ∧ ∀ (i : ℕ) (v w : Vec) (seg : List Vec), r'.solvedPath[i]? = some v →
            r'.solvedPath[i + 1]? = some w → segs[i]? = some seg → Interpolates v w seg) := by
  have hr := run_inv_of3 hrun
  obtain ⟨k, hreach, -, hgp, hint⟩ := planProb_fresh hV hr hne h
  obtain ⟨_, -, -, -, h4⟩ := C75_prob_plan_end_to_end L V A hV hpick base ops robot hrun quats arena obs hne start goal hs hg
    par rigid clock timeLim fuel r' h
  obtain ⟨B, M, segs, mid, hB, hM, -, p1, -, p3, -⟩ := h4 hsol
  have hi := reach_inv hV hr hB hM rfl hreach
  have hok := hi.ok
  obtain ⟨s, t, ⟨len, -, hpb, -, -, hw, hcost⟩, -⟩ := reach_solved hV hpick hr hreach hsol
  have hids := hpb.1.mem_lt hok
  have hvne : r'.st.graph.vertex ≠ [] := by
    intro e
    have hh := hpb.2.1
    cases hp : r'.st.res.pathId with
    | nil => rw [hp] at hh; exact nomatch hh
    | cons a l =>
      have := hids a (by rw [hp]; simp)
      rw [e] at this; exact absurd this (by simp)
  obtain ⟨path, mid', q1, q2, q3, -, q5⟩ := C30_solution_path hok.dims r'.st.start r'.st.goal _ hids hvne
  rw [hgp hsol] at q1
  obtain rfl := (Res.ok.injEq _ _).mp q1
  have hml : mid.length = r'.st.res.pathId.length := by
    have := congrArg List.length (p1.symm.trans q2)
    simp only [List.length_cons, List.length_append, List.length_nil] at this
    omega
  set cost := (r'.st.res.pathId.tail.map (fun v => r'.st.graph.weight.getD v 0)).sum with hcd
  have hI := hint hsol
  unfold Planner3.interpolated at hI
  rw [hcost] at hI
  dsimp only at hI
  have hpar : r'.st.par.numPoint = par.numPoint := by rw [hi.epar]
  rw [hpar] at hI
  have hplen : r'.solvedPath.length = mid.length + 2 := by rw [p1]; simp
  have hc0 : cost ≠ 0 := by
    intro e
    rw [e, interpolated_zero_cost _ _ (by omega) (fun v hv w hw => by rw [q5 v hv, q5 w hw])] at hI
    exact nomatch hI
  have hcn : 0 ≤ cost := by
    refine List.sum_nonneg ?_
    intro x hx
    obtain ⟨v, hv, rfl⟩ := List.mem_map.1 hx
    have hvl := hw v hv
    obtain ⟨a, b, -, -, e⟩ := hok.edges v _ _ (List.getElem?_eq_getElem (by rw [hok.len]; exact hvl)) (List.getElem?_eq_getElem hvl)
    rw [List.getD_eq_getElem?_getD, List.getElem?_eq_getElem hvl, Option.getD_some, e]
    exact Real.sqrt_nonneg _
  have hcp := lt_of_le_of_ne hcn (Ne.symm hc0)
  have hm2 : 2 ≤ mid.length := by
    by_contra hlt
    apply hc0
    have : r'.st.res.pathId.tail = [] := List.length_eq_zero_iff.1 (by rw [List.length_tail]; omega)
    rw [hcd, this]; rfl
  refine ⟨mid, cost, p1, hm2, hcost, hcp, hI, fun u1 u2 u3 hn hlong => ?_⟩
  have hunit : ∀ i, (probSample L A start goal i).1.Unit := by
    intro i
    match i with
    | 0 => exact u1
    | 1 => exact u2
    | i + 2 => exact u3 i
  have hsp : SolvedPath r'.solvedPath := by
    refine ⟨by omega, ?_, fun v hv w hw => by rw [q5 v hv, q5 w hw]⟩
    intro v hv
    have hend : ∀ v : Vec, v.length = 7 + A.nJ → (quatPart v).Unit → UnitPose v := by
      intro v hv hu
      refine ⟨by omega, ?_⟩
      unfold Quat.Unit at hu
      unfold Quat.dot
      linarith
    rw [p1] at hv
    simp only [List.mem_cons, List.mem_append, List.not_mem_nil, or_false] at hv
    rcases hv with rfl | hv | rfl
    · exact hend _ hs u1
    · obtain ⟨i, -, hvx⟩ := p3 v hv
      exact probVertex_unit (hunit i) hvx
    · exact hend _ hg u2
  obtain ⟨sg, s1, s2, s3⟩ := C70_interpolated_path_partial r'.solvedPath cost par.numPoint hsp hn hcp (by
    intro i v w d hv hw hd
    rw [vectorEuclidean_eq (hsp.dim v (List.mem_of_getElem? hv) w (List.mem_of_getElem? hw))] at hd
    obtain rfl := (Res.ok.injEq _ _).mp hd
    have := hlong i v w hv hw
    rw [hplen]
    push_cast
    rw [show (mid.length : ℝ) + 2 - 1 = mid.length + 1 by ring]
    exact this)
  rw [s1] at hI
  exact ⟨sg, ((Res.ok.injEq _ _).mp hI).symm, s2, s3⟩

/-- C90: asked to plan from a configuration to itself, the incremental planner never reports success: interpolating the
path (one roadmap vertex, cost 0) divides by zero and converts the result to an integer. -/
theorem C90_goal_at_start (L : Libs3) (V : Variant) (A : Arm) (hV : V.arm = some A) (hpick : HeapTop L.pick)
    (base : SuperQuadrics) (ops : List (RobotOp SuperQuadrics 3)) (robot : Tree3)
    (hrun : Tree3.run ops (Tree3.new base) = .ok robot) (quats : List Quat)
    (arena obs : List SuperQuadrics) (hne : arena ≠ [] ∨ obs ≠ []) (start : Vec) (hs : start.length = 7 + A.nJ)
    (par : Param3) (rigid : Bool) (clock : ℕ → ℝ) (timeLim : ℝ) (fuel : ℕ) (r' : PlanRep Planner3)
    (h : Planner3.planProb L V A clock timeLim fuel (freshRep3 (.new robot quats arena obs start start par rigid)) =
      some (.ok r')) : r'.st.res.solved = false := by
  by_contra hsol
  rw [Bool.not_eq_false] at hsol
  have hr := run_inv_of3 hrun
  obtain ⟨k, hreach, -⟩ := planProb_fresh hV hr hne h
  obtain ⟨s, t, ⟨len, -, hpb, hnd, -, -, hcost⟩, hst⟩ := reach_solved hV hpick hr hreach hsol
  obtain rfl := hst rfl
  obtain ⟨mid, cost, -, -, hc, hpos, -⟩ := C90_incremental_partial L V A hV hpick base ops robot hrun quats arena obs hne start
    start hs hs par rigid clock timeLim fuel r' h hsol
  have htail : r'.st.res.pathId.tail = [] := by
    obtain ⟨-, h1, h2⟩ := hpb
    cases hp : r'.st.res.pathId with
    | nil => rfl
    | cons a l =>
      rw [hp] at h1 h2 hnd
      obtain rfl := Option.some.inj h1
      cases l with
      | nil => rfl
      | cons b m =>
        rw [List.getLast?_cons_cons] at h2
        exact absurd (List.mem_of_getLast? h2) (List.nodup_cons.1 hnd).1
  rw [hcost, htail] at hc
  obtain rfl := Option.some.inj hc
  simp at hpos

/-- `C90_incremental_partial` on the run of `C75_witness`. -/
example (L : Libs3) (hpick : HeapTop L.pick) (jq : Quat) (hjunk : L.junk = some jq) (hrad : L.ang jq exQ0 < 100)
    (hnear : ∀ s, SameRotation s exQ0 → L.ang exQ0 s < 1 / 10 ^ 6) (A : Arm) (hA : A.nJ = 1) (clock : ℕ → ℝ) (timeLim : ℝ) :
    ∃ (R : ℝ) (r' : PlanRep Planner3) (cost : ℝ),
      Planner3.planProb L ⟨some A, none⟩ A clock timeLim 1 (freshRep3 (.new (Tree3.new exRobot3) [] [exBall3 20] []
        (conf7 (2 * R + 1) 0 (R + 1) exQ0 ++ [1]) (conf7 (2 * R + 1) 1 (R + 1) exQ0 ++ [1]) (exPar75 R) false)) = some (.ok r') ∧
      0 < cost ∧ interpolatedPath3D r'.solvedPath cost 5 = .ok r'.interpolated := by
  obtain ⟨R, B0, M0, -, -, -, hR⟩ := C75_witness exRobot3 [] (Tree3.new exRobot3) rfl [exBall3 20] [] (by simp) 10 (by simp)
    (by simp [exBall3])
  obtain ⟨-, r', h, hsol, -⟩ := hR L hpick ⟨some A, none⟩ A rfl exQ0 jq (by norm_num [Quat.Unit, exQ0]) hjunk hrad hnear [1]
    (by simp [hA]) [] clock timeLim
  have hl : ∀ y : ℝ, (conf7 (2 * R + 1) y (R + 1) exQ0 ++ [1] : Vec).length = 7 + A.nJ := by intro y; simp [conf7, hA]
  obtain ⟨mid, cost, -, -, -, hc, hi, -⟩ := C90_incremental_partial L ⟨some A, none⟩ A rfl hpick exRobot3 [] (Tree3.new exRobot3) rfl
    [] [exBall3 20] [] (Or.inl (by simp)) _ _ (hl 0) (hl 1) (exPar75 R) false clock timeLim 1 r' h hsol
  exact ⟨R, r', cost, h, hc, hi⟩

end Hrm
