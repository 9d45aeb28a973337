import Verif.Lemmas.Planner3DPlan
import Verif.Props.Planner2D
import Verif.Props.Interp
import Verif.Spec.Planner3D

/-!
# Properties of the spatial planner objects
-/

namespace Hrm

open Matrix Classical

/-! ## C73 – one call of the spatial `plan`, from the input to the returned path -/

theorem freshQ_q (L : Libs3) (robot : Tree3) (quats : List Quat) (arena obs : List SuperQuadrics) (start goal : Vec)
    (par : Param3) : (freshQ L robot quats arena obs start goal par).q = orientations L quats par := by
  unfold freshQ Planner3.sampleSO3 orientations
  have e1 : (Planner3.new robot quats arena obs start goal par true).quatSamples = quats := rfl
  rw [e1]
  split
  · have e2 : (Planner3.new robot quats arena obs start goal par true).drawn = 0 := rfl
    simp only [e2, Nat.zero_add]; rfl
  · rfl

/-- Both configurations have the orientation `q`. -/
def BothAt (q : Quat) (a b : Vec) : Prop := ∃ x y z x' y' z', a = conf7 x y z q ∧ b = conf7 x' y' z' q

/-- The configuration has the orientation of slice `i` (as the robot's base stores it). -/
def AtSlice (qs : List Quat) (i : ℕ) (a : Vec) : Prop :=
  ∃ q x y z, qs[i]? = some q ∧ a = conf7 x y z (matQuat (quatRot q))

/-- Why the step from `a` to `b` is in the roadmap: both have the orientation of one slice, one of them is a
sample of a sweep line, and the same-slice check against the obstacle meshes accepted it; or they have the orientations of
two slices `j` and `i`, the check made for `i` and `j` accepted the step, and in x and in y they are at most two line distances
(extent by number of lines) apart; or they are neighbouring free intervals of one sweep line. -/
def StepChecked3 (L : Libs3) (V : Variant) (P : Planner3) (M : BoundMesh) (segs : List (ℝ × FreeSeg)) (qs : List Quat)
    (a b : Vec) : Prop :=
  EdgeOrigin (fun i => onlyNear (fun a b => ∃ q, qs[i]? = some q ∧ BothAt (matQuat (quatRot q)) a b ∧
      (LineSample3 segs q a ∨ LineSample3 segs q b)) (sameFree3 M.obstacle))
    (fun i j => onlyNear (fun a b => (AtSlice qs j a ∧ AtSlice qs i b) ∧ CloseIn 0 (2 * (P.par.xHi - P.par.xLo) / P.par.numLineX) a b ∧
      CloseIn 1 (2 * (P.par.yHi - P.par.yLo) / P.par.numLineY) a b) ((P.sampleSO3 L).freeMulti L V i j))
    (fun i a b => ∃ q, qs[i]? = some q ∧ ∃ p ∈ segs,
      RowNeighbours (fun y z => conf7 p.1 y z (matQuat (quatRot q))) p.2 a b) qs.length a b

/-- C73: whatever the robot (built by public calls), the obstacles, the parameters, the random orientations, the clock
and the time limit, for the bridging and the ablated (FCL) variant alike: if `plan` on a new planner for a rigid robot
returns and reports success, then the stored path starts at the start configuration, ends at the goal configuration,
visits in between only samples of the sweep lines and accepted insertions between two of them, and every step between two of these was accepted by a check. (The
first and the last step are not checked: see C31.) -/
theorem C73_spatial_plan_end_to_end (L : Libs3) (V : Variant) (hV : V.arm = none) (hpick : HeapTop L.pick)
    (base : SuperQuadrics) (ops : List (RobotOp SuperQuadrics 3)) (robot : Tree3)
    (hrun : Tree3.run ops (Tree3.new base) = .ok robot) (quats : List Quat)
    (arena obs : List SuperQuadrics) (hne : arena ≠ [] ∨ obs ≠ []) (start goal : Vec) (hs : start.length = 7)
    (hg : goal.length = 7) (par : Param3) (clock : ℕ → ℝ) (timeLim : ℝ) (fuel : ℕ) (r' : PlanRep Planner3)
    (h : Planner3.plan L V clock timeLim fuel (freshRep3 (.new robot quats arena obs start goal par true)) =
      some (.ok r')) (hsol : r'.st.res.solved = true) :
    ∃ B M segs mid, cspaceBoundary3 robot arena obs = .ok B ∧ cspaceMesh arena obs B = .ok M ∧
      sweep3D L par.zLo par.zHi M par.linesX par.linesY = .ok segs ∧
      r'.solvedPath = start :: (mid ++ [goal]) ∧ mid ≠ [] ∧
      (∀ v ∈ mid, Sampled3 M.obstacle segs (orientations L quats par) v) ∧
      ∀ (k : ℕ) (a b : Vec), mid[k]? = some a → mid[k + 1]? = some b →
        StepChecked3 L V (.new robot quats arena obs start goal par true) M segs (orientations L quats par) a b ∨
        StepChecked3 L V (.new robot quats arena obs start goal par true) M segs (orientations L quats par) b a := by
  have hr := run_inv_of3 hrun
  obtain ⟨B, hB, b1, b2, -⟩ := cspaceBoundary3_ok hr arena obs
  obtain ⟨M, hM, -, -⟩ := cspaceMesh_ok b1 b2
  obtain ⟨P, hb, hsr, h0, hpath, -⟩ := plan_fresh3 hV hr hne h
  obtain ⟨segs, r, hsegs, -, hbr, hi⟩ := build3_inv hV hr hB hM rfl h0 hb
  obtain ⟨s, t, res, n1, n2, hse, hQ⟩ := search3_ok hsr
  have hq := freshQ_q L robot quats arena obs start goal par
  have hmk : ∀ i x y z, (mkVertex (sliceQuat (freshQ L robot quats arena obs start goal par).q i) [] x y z).length = 7 :=
    fun _ _ _ _ => rfl
  have hok := C23_build3D _ _ _ _ _ _ _ _ 7 hmk r.1 r.2 hbr
  have hed := C24_edges_near_3D (qDist L.ang (freshQ L robot quats arena obs start goal par).q)
    (fun _ => sameFree3 M.obstacle) ((freshQ L robot quats arena obs start goal par).freeMulti L V) par.gapX par.gapY
    (fun i => [(sliceQuat (freshQ L robot quats arena obs start goal par).q i).1,
      (sliceQuat (freshQ L robot quats arena obs start goal par).q i).2.1,
      (sliceQuat (freshQ L robot quats arena obs start goal par).q i).2.2.1,
      (sliceQuat (freshQ L robot quats arena obs start goal par).q i).2.2.2])
    (fun _ => segs) (freshQ L robot quats arena obs start goal par).q.length 4 (fun _ => rfl) r.1 r.2 hbr
  have hvs := C65_spatial_vertices (qDist L.ang (freshQ L robot quats arena obs start goal par).q)
    (fun _ => sameFree3 M.obstacle) ((freshQ L robot quats arena obs start goal par).freeMulti L V) par.gapX par.gapY
    (fun i => [(sliceQuat (freshQ L robot quats arena obs start goal par).q i).1,
      (sliceQuat (freshQ L robot quats arena obs start goal par).q i).2.1,
      (sliceQuat (freshQ L robot quats arena obs start goal par).q i).2.2.1,
      (sliceQuat (freshQ L robot quats arena obs start goal par).q i).2.2.2])
    (fun _ => segs) (freshQ L robot quats arena obs start goal par).q.length 4 (fun _ => rfl) r.1 r.2 hbr
  have hSO := sampleSO3_same (L := L) (Planner3.new robot quats arena obs start goal par true)
  have est : P.start = start := hi.start.trans hSO.2.2.2.2.1
  have egl : P.goal = goal := hi.goal.trans hSO.2.2.2.2.2.1
  have ers : P.res = ⟨false, [], some 0⟩ := hi.res.trans hSO.2.2.2.2.2.2.2.2.2.2.2.1
  rw [hi.graph, est] at n1
  rw [hi.graph, egl] at n2
  rw [hi.graph, ers] at hse
  have hS := nearest3DJ_ids n1
  have hT := nearest3DJ_ids n2
  have hsol' : res.solved = true := by rw [hQ] at hsol; exact hsol
  have hgp := hpath hsol
  rw [hQ] at hgp
  have hgp' : getSolutionPath r.1 start goal res.pathId = .ok r'.solvedPath := by
    have e1 := hi.graph
    change getSolutionPath P.graph P.start P.goal res.pathId = _ at hgp
    rw [e1, est, egl] at hgp
    exact hgp
  obtain ⟨s0, hs0, t0, ht0, len, hpb, -⟩ := C27_search_returns_path hok hpick hS hT ⟨rfl, rfl⟩ hse hsol'
  have hvne : r.1.vertex ≠ [] := by
    have := hS s0 hs0
    intro e
    rw [e] at this
    simp at this
  have hids : ∀ i ∈ res.pathId, i < r.1.vertex.length := hpb.1.mem_lt hok
  obtain ⟨path, mid, p1, p2, p3, p4, -⟩ := C30_solution_path hok.dims start goal res.pathId hids hvne
  rw [hgp'] at p1
  obtain rfl := (Res.ok.injEq _ _).mp p1
  have hres : ∀ v : Vec, v.length = 7 → resize v 7 = v := by
    intro v hv
    unfold resize
    rw [List.take_of_length_le hv.le]
    simp [hv]
  rw [hres start hs, hres goal hg] at p2
  have hmid : ∀ v ∈ mid, v ∈ r.1.vertex := by
    intro v hv
    obtain ⟨k, hk⟩ := List.mem_iff_getElem?.1 hv
    have hkl : k < res.pathId.length := by rw [← p3]; exact (List.getElem?_eq_some_iff.1 hk).1
    have := p4 k _ (List.getElem?_eq_getElem hkl)
    rw [hk] at this
    exact List.mem_of_getElem? this.symm
  have hsq : ∀ i < (orientations L quats par).length, ∃ q, (orientations L quats par)[i]? = some q ∧
      sliceQuat (orientations L quats par) i = matQuat (quatRot q) := by
    intro i hi'
    refine ⟨_, List.getElem?_eq_getElem hi', ?_⟩
    unfold sliceQuat
    rw [List.getD_eq_getElem?_getD, List.getElem?_eq_getElem hi', Option.getD_some]
  refine ⟨B, M, segs, mid, hB, hM, hsegs, p2, ?_, ?_, ?_⟩
  · intro hm
    rw [hm] at p3
    have := List.length_eq_zero_iff.1 p3.symm
    have hhd := hpb.2.1
    rw [this] at hhd
    exact nomatch hhd
  · intro v hv
    obtain ⟨i, hi', hvi⟩ := hvs v (hmid v hv)
    rw [hq] at hi'
    obtain ⟨q, hq1, hq2⟩ := hsq i hi'
    refine ⟨q, List.mem_of_getElem? hq1, ?_⟩
    simp only [hq, hq2] at hvi
    exact hvi
  · intro k a b ha hb'
    have hk2 : k + 1 < mid.length := (List.getElem?_eq_some_iff.1 hb').1
    have key := C31_inner_steps_checked_partial hok hed start goal hpb r'.solvedPath hgp' (k + 1) (by omega)
      (by rw [p2]; simp; omega) a b
      (by rw [p2, List.getElem?_cons_succ, List.getElem?_append_left (by omega)]; exact ha)
      (by rw [p2, List.getElem?_cons_succ, List.getElem?_append_left hk2]; exact hb')
    have hshape : ∀ v : Vec, v.length = 7 → ∀ q : Quat, v.drop 3 = [q.1, q.2.1, q.2.2.1, q.2.2.2] →
        ∃ x y z, v = conf7 x y z q := by
      rintro v hl q hd
      match v, hl with
      | [x, y, z, a, b, c, d], _ => exact ⟨x, y, z, by unfold conf7; rw [← hd]; rfl⟩
    have conv : ∀ a b : Vec, a.length = 7 → b.length = 7 → EdgeOrigin (fun i => onlyNear (fun a b =>
        AtOrientation [(sliceQuat (freshQ L robot quats arena obs start goal par).q i).1,
          (sliceQuat (freshQ L robot quats arena obs start goal par).q i).2.1,
          (sliceQuat (freshQ L robot quats arena obs start goal par).q i).2.2.1,
          (sliceQuat (freshQ L robot quats arena obs start goal par).q i).2.2.2] a b ∧
        ((∃ p ∈ segs, Sample (mkVertex (sliceQuat (freshQ L robot quats arena obs start goal par).q i) [] p.1) p.2 a) ∨
          ∃ p ∈ segs, Sample (mkVertex (sliceQuat (freshQ L robot quats arena obs start goal par).q i) [] p.1) p.2 b))
        (sameFree3 M.obstacle))
        (fun i j => onlyNear (fun a b => FromToOrientation
            [(sliceQuat (freshQ L robot quats arena obs start goal par).q j).1,
              (sliceQuat (freshQ L robot quats arena obs start goal par).q j).2.1,
              (sliceQuat (freshQ L robot quats arena obs start goal par).q j).2.2.1,
              (sliceQuat (freshQ L robot quats arena obs start goal par).q j).2.2.2]
            [(sliceQuat (freshQ L robot quats arena obs start goal par).q i).1,
              (sliceQuat (freshQ L robot quats arena obs start goal par).q i).2.1,
              (sliceQuat (freshQ L robot quats arena obs start goal par).q i).2.2.1,
              (sliceQuat (freshQ L robot quats arena obs start goal par).q i).2.2.2] a b ∧
            CloseIn 0 par.gapX a b ∧ CloseIn 1 par.gapY a b)
          ((freshQ L robot quats arena obs start goal par).freeMulti L V i j))
        (fun i a b => ∃ p ∈ segs, RowNeighbours
          (mkVertex (sliceQuat (freshQ L robot quats arena obs start goal par).q i) [] p.1) p.2 a b)
        (freshQ L robot quats arena obs start goal par).q.length a b →
        StepChecked3 L V (.new robot quats arena obs start goal par true) M segs (orientations L quats par) a b := by
      intro a b la lb hab
      rw [hq] at hab
      rcases hab with ⟨i, hi', hab⟩ | ⟨i, hi', j, hj', hab⟩ | ⟨i, hi', p, hp, hab⟩
      · obtain ⟨q, hq1, hq2⟩ := hsq i hi'
        obtain ⟨⟨⟨h1, h2⟩, hsm⟩, h3⟩ := onlyNear_true hab
        rw [hq2] at h1 h2 hsm
        obtain ⟨x, y, z, e1⟩ := hshape a la _ h1
        obtain ⟨x', y', z', e2⟩ := hshape b lb _ h2
        refine Or.inl ⟨i, hi', ?_⟩
        refine (if_pos ?_).trans h3
        exact ⟨q, hq1, ⟨x, y, z, x', y', z', e1, e2⟩, hsm⟩
      · obtain ⟨qi, hi1, hi2⟩ := hsq i hi'
        obtain ⟨qj, hj1, hj2⟩ := hsq j hj'
        obtain ⟨⟨⟨h1, h2⟩, hcl⟩, h3⟩ := onlyNear_true hab
        rw [hj2] at h1
        rw [hi2] at h2
        obtain ⟨x, y, z, e1⟩ := hshape a la _ h1
        obtain ⟨x', y', z', e2⟩ := hshape b lb _ h2
        exact Or.inr (Or.inl ⟨i, hi', j, hj', (if_pos ⟨⟨⟨qj, x, y, z, hj1, e1⟩, ⟨qi, x', y', z', hi1, e2⟩⟩, hcl⟩).trans h3⟩)
      · obtain ⟨q, hq1, hq2⟩ := hsq i hi'
        refine Or.inr (Or.inr ⟨i, hi', q, hq1, p, hp, ?_⟩)
        rw [hq2] at hab
        exact hab
    have la := hok.dims a (hmid a (List.mem_of_getElem? ha))
    have lb := hok.dims b (hmid b (List.mem_of_getElem? hb'))
    exact key.imp (conv a b la lb) (conv b a lb la)

/-! ## C72 – planning again with the same spatial planner -/

theorem constructOneSlice3_idx {L : Libs3} {V : Variant} {P Q : Planner3} {i : ℕ}
    (h : P.constructOneSlice L V i = .ok Q) :
    Q.vertexIdx.length = P.vertexIdx.length + 1 ∧ Q.par = P.par ∧ Q.q = P.q ∧ Q.quatSamples = P.quatSamples := by
  unfold Planner3.constructOneSlice at h
  obtain ⟨P1, h1, h⟩ := Res.bind_eq_ok.1 h
  obtain ⟨s, -, h⟩ := Res.bind_eq_ok.1 h
  obtain ⟨js, -, h⟩ := Res.bind_eq_ok.1 h
  obtain ⟨r, -, h⟩ := Res.bind_eq_ok.1 h
  obtain rfl := (Res.ok.injEq _ _).mp h
  unfold Planner3.placeSlice at h1
  obtain ⟨c, -, h1⟩ := Res.bind_eq_ok.1 h1
  obtain ⟨T, -, h1⟩ := Res.bind_eq_ok.1 h1
  split at h1
  · obtain ⟨b, -, h1⟩ := Res.bind_eq_ok.1 h1
    obtain ⟨m, -, h1⟩ := Res.bind_eq_ok.1 h1
    obtain rfl := (Res.ok.injEq _ _).mp h1
    exact ⟨by simp, rfl, rfl, rfl⟩
  · obtain ⟨b, -, h1⟩ := Res.bind_eq_ok.1 h1
    obtain ⟨m, -, h1⟩ := Res.bind_eq_ok.1 h1
    obtain rfl := (Res.ok.injEq _ _).mp h1
    exact ⟨by simp, rfl, rfl, rfl⟩

theorem slices3_idx {L : Libs3} {V : Variant} (l : List ℕ) : ∀ {P Q : Planner3},
    l.foldlM (fun (P : Planner3) i => P.constructOneSlice L V i) P = .ok Q →
    Q.vertexIdx.length = P.vertexIdx.length + l.length ∧ Q.par = P.par ∧ Q.q = P.q ∧ Q.quatSamples = P.quatSamples := by
  induction l with
  | nil => intro P Q h; obtain rfl := (Res.ok.injEq _ _).mp h; exact ⟨rfl, rfl, rfl, rfl⟩
  | cons i l ih =>
    intro P Q h
    rw [List.foldlM_cons] at h
    obtain ⟨P1, hc, h⟩ := Res.bind_eq_ok.1 h
    obtain ⟨a1, a2, a3, a4⟩ := constructOneSlice3_idx hc
    obtain ⟨b1, b2, b3, b4⟩ := ih h
    exact ⟨by rw [b1, a1, List.length_cons]; omega, b2.trans a2, b3.trans a3, b4.trans a4⟩

theorem build3_idx {L : Libs3} {V : Variant} {P Q : Planner3} (h : P.build L V = .ok Q) :
    Q.vertexIdx.length = P.vertexIdx.length + (P.sampleSO3 L).par.numSlice ∧ Q.par = (P.sampleSO3 L).par ∧
      Q.quatSamples = P.quatSamples := by
  unfold Planner3.build at h
  obtain ⟨P1, hf, h⟩ := Res.bind_eq_ok.1 h
  obtain ⟨h1, h2, h3, h4⟩ := slices3_idx _ hf
  have e : (P.sampleSO3 L).vertexIdx = P.vertexIdx ∧ (P.sampleSO3 L).quatSamples = P.quatSamples := by
    unfold Planner3.sampleSO3; split <;> exact ⟨rfl, rfl⟩
  rw [List.length_range, e.1] at h1
  rw [e.2] at h4
  unfold Planner3.connectMultiSlice at h
  split at h
  · obtain rfl := (Res.ok.injEq _ _).mp h
    exact ⟨h1, h2, h4⟩
  · obtain ⟨g, -, h⟩ := Res.bind_eq_ok.1 h
    obtain rfl := (Res.ok.injEq _ _).mp h
    exact ⟨h1, h2, h4⟩

/-- Building on a spatial planner that already has slices never returns: the slices of the first build are still
recorded, but only the new orientations are. -/
theorem C72_spatial_rebuild_fails (L : Libs3) (V : Variant) (P : Planner3) (hidx : P.vertexIdx ≠ [])
    (hn : (P.sampleSO3 L).par.numSlice ≠ 0) (Q : Planner3) : P.build L V ≠ .ok Q := by
  intro h
  unfold Planner3.build at h
  obtain ⟨P1, hf, h⟩ := Res.bind_eq_ok.1 h
  obtain ⟨h1, h2, h3, h4⟩ := slices3_idx _ hf
  have e : (P.sampleSO3 L).vertexIdx = P.vertexIdx := by
    unfold Planner3.sampleSO3; split <;> rfl
  have hpos := List.length_pos_iff.2 hidx
  rw [e, List.length_range] at h1
  have hq : P1.q.length < P1.vertexIdx.length := by rw [h3, sampleSO3_len, h1]; omega
  unfold Planner3.connectMultiSlice at h
  rw [if_neg (by omega)] at h
  obtain ⟨g, h, -⟩ := Res.bind_eq_ok.1 h
  obtain ⟨m, hm⟩ : ∃ m, P1.vertexIdx.length = m + 1 := ⟨P1.vertexIdx.length - 1, by omega⟩
  rw [hm, List.range_succ, List.foldlM_append] at h
  obtain ⟨g1, -, h⟩ := Res.bind_eq_ok.1 h
  rw [List.foldlM_cons, if_neg (by omega)] at h
  exact nomatch h

/-- C72 (spatial): after a first call of `plan` that returned – solved or not – no later call of `plan` on the same
planner returns normally, whatever the libraries, the clock and the limits of the second call. -/
theorem C72_spatial_second_plan_fails (L L' : Libs3) (V : Variant) (hV : V.arm = none) (base : SuperQuadrics)
    (ops : List (RobotOp SuperQuadrics 3)) (robot : Tree3) (hrun : Tree3.run ops (Tree3.new base) = .ok robot)
    (quats : List Quat) (arena obs : List SuperQuadrics) (hne : arena ≠ [] ∨ obs ≠ []) (start goal : Vec) (par : Param3)
    (clock clock' : ℕ → ℝ) (timeLim timeLim' : ℝ) (fuel fuel' : ℕ) (r' r'' : PlanRep Planner3)
    (h : Planner3.plan L V clock timeLim fuel (freshRep3 (.new robot quats arena obs start goal par true)) =
      some (.ok r')) :
    Planner3.plan L' V clock' timeLim' fuel' r' ≠ some (.ok r'') := by
  intro h'
  have hr := run_inv_of3 hrun
  obtain ⟨P, hb, hsr, h0, -⟩ := plan_fresh3 hV hr hne h
  obtain ⟨s, t, res, -, -, -, hQ⟩ := search3_ok hsr
  obtain ⟨i1, i2, i3⟩ := build3_idx hb
  have hlen : (freshQ L robot quats arena obs start goal par).par.numSlice ≠ 0 := by
    rw [← sampleSO3_len]; exact (List.length_pos_iff.2 h0).ne'
  obtain ⟨r1, r2, h1, -, -⟩ := plan_core h'
  unfold timedBuild at h1
  change ((r'.st.build L' V).bind _).bind _ = _ at h1
  obtain ⟨r0, h1, -⟩ := Res.bind_eq_ok.1 h1
  obtain ⟨Q, hb2, -⟩ := Res.bind_eq_ok.1 h1
  refine C72_spatial_rebuild_fails L' V r'.st ?_ ?_ Q hb2
  · rw [hQ]
    change P.vertexIdx ≠ []
    intro e
    rw [e] at i1
    exact hlen (Nat.eq_zero_of_add_eq_zero_left i1.symm)
  · rw [hQ]
    have e : (({ P with res := res } : Planner3).sampleSO3 L').par.numSlice = P.par.numSlice := by
      unfold Planner3.sampleSO3
      change (if P.quatSamples = [] then _ else _ : Planner3).par.numSlice = _
      split
      · rfl
      · rename_i hq
        change P.quatSamples.length = _
        rw [i2, i3]
        rw [i3] at hq
        unfold Planner3.sampleSO3
        rw [if_neg hq]
    rw [e, i2]
    exact hlen

/-! ## C53 – the check between two slices, in space -/

theorem numRow_some (u : Vec) : numRow (u.map some) = .ok u := by
  unfold numRow
  have key : ∀ (u acc : Vec), (u.map some).foldlM (fun (acc : Vec) (x : Option ℝ) => match x with
      | some x => (.ok (acc ++ [x]) : Res Vec)
      | none => .ub) acc = .ok (acc ++ u) := by
    intro u
    induction u with
    | nil => intro acc; simp [Res.pure_eq]
    | cons a u ih =>
      intro acc
      rw [List.map_cons, List.foldlM_cons]
      change List.foldlM _ (acc ++ [a]) (u.map some) = _
      rw [ih]; simp
  have := key u []
  rw [List.nil_append] at this
  exact this

/-- The loop over the steps: accepted iff every step is, rejected only if some step is. -/
theorem multiLoop3_iff {base added} {V : Variant} (hV : V.arm = none) (obs : List SuperQuadrics)
    (bridge : List (List Mesh)) (steps : List Vec) (h7 : ∀ u ∈ steps, 7 ≤ u.length) :
    ∀ {T : Tree3}, Tree3.Inv base added T →
    (multiLoop3 V obs bridge (steps.map (·.map some)) T = .ok true ↔
      ∀ u ∈ steps, stepFree3 V obs bridge (Tree3.posed base added (poseOf u)) = .ok true) ∧
    (multiLoop3 V obs bridge (steps.map (·.map some)) T = .ok false →
      ∃ u ∈ steps, stepFree3 V obs bridge (Tree3.posed base added (poseOf u)) = .ok false) := by
  induction steps with
  | nil => intro T _; exact ⟨by simp [multiLoop3], by simp [multiLoop3]⟩
  | cons u steps ih =>
    intro T hT
    obtain ⟨ih1, ih2⟩ := ih (fun w hw => h7 w (by simp [hw])) (Tree3.posed_inv base added (poseOf u))
    have e : multiLoop3 V obs bridge ((u :: steps).map (·.map some)) T =
        (stepFree3 V obs bridge (Tree3.posed base added (poseOf u))).bind fun ok =>
          if ok then multiLoop3 V obs bridge (steps.map (·.map some)) (Tree3.posed base added (poseOf u)) else .ok false := by
      rw [List.map_cons]
      conv_lhs => unfold multiLoop3
      rw [numRow_some, Res.bind_ok', hV, setTransform3_eq hT (h7 u (by simp)), Res.bind_ok']
    rw [e]
    cases hs : stepFree3 V obs bridge (Tree3.posed base added (poseOf u)) with
    | throw => exact ⟨⟨fun h => (nomatch h), fun h => by have := h u (by simp); rw [hs] at this; exact nomatch this⟩,
        fun h => (nomatch h)⟩
    | ub => exact ⟨⟨fun h => (nomatch h), fun h => by have := h u (by simp); rw [hs] at this; exact nomatch this⟩,
        fun h => (nomatch h)⟩
    | ok b =>
      rw [Res.bind_ok']
      cases b with
      | true =>
        rw [if_pos rfl]
        refine ⟨ih1.trans ⟨fun h w hw => ?_, fun h w hw => h w (by simp [hw])⟩, fun h => ?_⟩
        · rcases List.mem_cons.1 hw with rfl | hw
          · exact hs
          · exact h w hw
        · obtain ⟨w, hw, e⟩ := ih2 h
          exact ⟨w, by simp [hw], e⟩
      | false =>
        refine ⟨⟨fun h => ?_, fun h => ?_⟩, fun _ => ⟨u, by simp, hs⟩⟩
        · simp at h
        · have := h u (by simp); rw [hs] at this; simp at this

/-- The loop over the links. -/
theorem linksFree3_iff (bridge : List (List Mesh)) (T : Tree3) (js : List ℕ) :
    (linksFree3 bridge T js = .ok true ↔ ∀ j ∈ js, ∃ l b, T.link[j]? = some l ∧ bridge[j + 1]? = some b ∧
      isPtInCFree3D triTol (toV3 l.pos) b = .ok true) ∧
    (linksFree3 bridge T js = .ok false → ∃ j ∈ js, ∃ l b, T.link[j]? = some l ∧ bridge[j + 1]? = some b ∧
      isPtInCFree3D triTol (toV3 l.pos) b = .ok false) := by
  induction js with
  | nil => exact ⟨by simp [linksFree3], by simp [linksFree3]⟩
  | cons j js ih =>
    obtain ⟨ih1, ih2⟩ := ih
    constructor
    · constructor
      · intro h
        unfold linksFree3 at h
        obtain ⟨l, h1, h⟩ := Res.bind_eq_ok.1 h
        obtain ⟨b, h2, h⟩ := Res.bind_eq_ok.1 h
        obtain ⟨ok, h3, h⟩ := Res.bind_eq_ok.1 h
        cases ok with
        | false => simp at h
        | true =>
          intro i hi
          rcases List.mem_cons.1 hi with rfl | hi
          · exact ⟨l, b, Res.idx_eq_ok.1 h1, Res.at'_eq_ok.1 h2, h3⟩
          · exact ih1.1 h i hi
      · intro h
        obtain ⟨l, b, h1, h2, h3⟩ := h j (by simp)
        unfold linksFree3
        rw [Res.idx_eq_ok.2 h1, Res.bind_ok', Res.at'_eq_ok.2 h2, Res.bind_ok', h3, Res.bind_ok', if_pos rfl]
        exact ih1.2 fun i hi => h i (by simp [hi])
    · intro h
      unfold linksFree3 at h
      obtain ⟨l, h1, h⟩ := Res.bind_eq_ok.1 h
      obtain ⟨b, h2, h⟩ := Res.bind_eq_ok.1 h
      obtain ⟨ok, h3, h⟩ := Res.bind_eq_ok.1 h
      cases ok with
      | false => exact ⟨j, by simp, l, b, Res.idx_eq_ok.1 h1, Res.at'_eq_ok.1 h2, h3⟩
      | true =>
        obtain ⟨i, hi, r⟩ := ih2 h
        exact ⟨i, by simp [hi], r⟩

/-- One pose, against the bridge slice of the ellipsoids. -/
theorem poseFree3_iff (L : Libs3) (obs : List SuperQuadrics) (base : SuperQuadrics) (added : List SuperQuadrics)
    (np : ℕ) (qa qb : Quat) (u : Vec) :
    (poseFree3 (bridgeSlice3 obs (tfes3 L.svd base added np qa qb)) (Tree3.posed base added (poseOf u)) = .ok true ↔
      StepClear3 L obs base added np qa qb u) ∧
    (poseFree3 (bridgeSlice3 obs (tfes3 L.svd base added np qa qb)) (Tree3.posed base added (poseOf u)) = .ok false →
      StepHit3 L obs base added np qa qb u) := by
  set br := bridgeSlice3 obs (tfes3 L.svd base added np qa qb) with hbr
  have hb0 : br[0]? = some (bridgeBound3 obs (tfe3Of L.svd base qa qb np)) := by
    rw [hbr]; rfl
  have hbl : ∀ j : ℕ, br[j + 1]? = (added[j]?).map fun l => bridgeBound3 obs (tfe3Of L.svd l
      (matQuat (quatRot qa * quatRot l.quat)) (matQuat (quatRot qb * quatRot l.quat)) np) := by
    intro j
    rw [hbr]
    simp [bridgeSlice3, tfes3, List.getElem?_map, Function.comp_def]
  have hl : ∀ j : ℕ, (Tree3.posed base added (poseOf u)).link[j]? = (added[j]?).map fun l =>
      Tree3.place l ((poseOf u).mul ⟨quatRot l.quat, l.pos⟩) := by
    intro j; simp [Tree3.posed]
  have hpos : (Tree3.posed base added (poseOf u)).base.pos = posPart u := rfl
  have hcen : ∀ l : SuperQuadrics, (Tree3.place l ((poseOf u).mul ⟨quatRot l.quat, l.pos⟩)).pos = centreAt3 l u :=
    fun _ => rfl
  obtain ⟨k1, k2⟩ := linksFree3_iff br (Tree3.posed base added (poseOf u))
    (List.range (Tree3.posed base added (poseOf u)).numLinks)
  have hnl : (Tree3.posed base added (poseOf u)).numLinks = added.length := rfl
  have e : poseFree3 br (Tree3.posed base added (poseOf u)) =
      (isPtInCFree3D triTol (toV3 (posPart u)) (bridgeBound3 obs (tfe3Of L.svd base qa qb np))).bind fun ok =>
        if ok then linksFree3 br (Tree3.posed base added (poseOf u))
          (List.range (Tree3.posed base added (poseOf u)).numLinks) else .ok false := by
    unfold poseFree3
    rw [Res.at'_eq_ok.2 hb0, Res.bind_ok', hpos]
  rw [e]
  constructor
  · constructor
    · intro h
      obtain ⟨ok, h1, h⟩ := Res.bind_eq_ok.1 h
      cases ok with
      | false => simp at h
      | true =>
        refine ⟨⟨_, tfe3Of_spec _ _ _ _ _, h1⟩, ?_⟩
        intro l hl'
        obtain ⟨j, hj⟩ := List.mem_iff_getElem?.1 hl'
        obtain ⟨l2, b, e1, e2, e3⟩ := k1.1 h j (by
          rw [List.mem_range, hnl]; exact (List.getElem?_eq_some_iff.1 hj).1)
        rw [hl, hj] at e1
        rw [hbl, hj] at e2
        obtain rfl := Option.some.inj e1
        obtain rfl := Option.some.inj e2
        exact ⟨_, tfe3Of_spec _ _ _ _ _, by rw [hcen] at e3; exact e3⟩
    · rintro ⟨⟨E, hE, h1⟩, h2⟩
      rw [tfe3Of_spec] at hE
      obtain rfl := (Res.ok.injEq _ _).mp hE
      rw [show isPtInCFree3D triTol (toV3 (posPart u)) _ = _ from h1, Res.bind_ok', if_pos rfl]
      refine k1.2 ?_
      intro j hj
      rw [List.mem_range, hnl] at hj
      have hj' := List.getElem?_eq_getElem hj
      obtain ⟨E, hE, h3⟩ := h2 _ (List.mem_of_getElem? hj')
      unfold EnclosesLink at hE
      rw [tfe3Of_spec] at hE
      obtain rfl := (Res.ok.injEq _ _).mp hE
      refine ⟨_, _, by rw [hl, hj']; rfl, by rw [hbl, hj']; rfl, ?_⟩
      rw [hcen]
      exact h3
  · intro h
    obtain ⟨ok, h1, h⟩ := Res.bind_eq_ok.1 h
    cases ok with
    | false => exact Or.inl ⟨_, tfe3Of_spec _ _ _ _ _, h1⟩
    | true =>
      obtain ⟨j, hj, l2, b, e1, e2, e3⟩ := k2 h
      rw [List.mem_range, hnl] at hj
      have hj' := List.getElem?_eq_getElem hj
      rw [hl, hj'] at e1
      rw [hbl, hj'] at e2
      obtain rfl := Option.some.inj e1
      obtain rfl := Option.some.inj e2
      exact Or.inr ⟨_, List.mem_of_getElem? hj', _, tfe3Of_spec _ _ _ _ _, by rw [hcen] at e3; exact e3⟩

theorem freshQ_fields (L : Libs3) (robot : Tree3) (quats : List Quat) (arena obs : List SuperQuadrics) (start goal : Vec)
    (par : Param3) : (freshQ L robot quats arena obs start goal par).robot = robot ∧
      (freshQ L robot quats arena obs start goal par).obs = obs ∧
      (freshQ L robot quats arena obs start goal par).par.numPoint = par.numPoint := by
  obtain ⟨s1, -, -, s4, -, -, -, -, -, -, -, -, -, -, -, n, s16⟩ :=
    sampleSO3_same (L := L) (Planner3.new robot quats arena obs start goal par true)
  exact ⟨s1, s4, by rw [s16]; rfl⟩

/-- C53 (spatial): the check between two slices of a new planner walks `numPoint + 1` interpolated configurations from
the first vertex to the second; it accepts exactly if at each of them the ellipsoids of all bodies are clear, and it
rejects only if at some step some body hits. Missing: the check need not return a verdict at all (a vertical line
that meets a mesh exactly once is read out of bounds, C63), and `numPoint = 0`, which divides by zero. -/
theorem C53_spatial_check_partial (L : Libs3) (base : SuperQuadrics) (ops : List (RobotOp SuperQuadrics 3))
    (robot : Tree3) (hrun : Tree3.run ops (Tree3.new base) = .ok robot) (quats : List Quat)
    (arena obs : List SuperQuadrics) (start goal : Vec) (par : Param3) (hnp : 1 ≤ par.numPoint) (i j : ℕ) (qa qb : Quat)
    (hi : (orientations L quats par)[i]? = some qa) (hj : (orientations L quats par)[j]? = some qb) (v w : Vec)
    (hv : UnitPose v) (hw : UnitPose w) (hlen : v.length = w.length) :
    ∃ steps, interpolateCompound v w par.numPoint = .ok (steps.map (·.map some)) ∧ IsMotion v w par.numPoint steps ∧
      let verdict := ((Planner3.new robot quats arena obs start goal par true).sampleSO3 L).freeMulti L ⟨none, none⟩ i j
        v w
      (verdict = .ok true ↔ ∀ u ∈ steps, StepClear3 L obs base (addedBodies ops) par.numPoint qa qb u) ∧
      (verdict = .ok false → ∃ u ∈ steps, StepHit3 L obs base (addedBodies ops) par.numPoint qa qb u) := by
  have hr := run_inv_of3 hrun
  obtain ⟨steps, e, m1, m2, m3, m4⟩ := C40_interpolateCompound v w hv hw hlen par.numPoint hnp
  refine ⟨steps, e, ⟨m1, m2, m3, m4⟩, ?_⟩
  obtain ⟨f1, f2, f3⟩ := freshQ_fields L robot quats arena obs start goal par
  have fq := freshQ_q L robot quats arena obs start goal par
  have h7 : ∀ u ∈ steps, 7 ≤ u.length := by
    intro u hu
    obtain ⟨k, hk⟩ := List.mem_iff_getElem?.1 hu
    rw [(m2 k u hk).1]; exact hv.1
  have hver : (freshQ L robot quats arena obs start goal par).freeMulti L ⟨none, none⟩ i j v w =
      multiLoop3 ⟨none, none⟩ obs (bridgeSlice3 obs (tfes3 L.svd base (addedBodies ops) par.numPoint qa qb))
        (steps.map (·.map some)) robot := by
    unfold Planner3.freeMulti multiFree3
    rw [fq, Res.at'_eq_ok.2 hi, Res.bind_ok', Res.at'_eq_ok.2 hj, Res.bind_ok', f1, f2, f3]
    simp only [computeTFE3_eq hr, Res.bind_ok', e]
  dsimp only
  rw [hver]
  obtain ⟨k1, k2⟩ := multiLoop3_iff (V := ⟨none, none⟩) rfl obs
    (bridgeSlice3 obs (tfes3 L.svd base (addedBodies ops) par.numPoint qa qb)) steps h7 hr
  refine ⟨k1.trans ?_, fun h => ?_⟩
  · exact forall₂_congr fun u _ => (poseFree3_iff L obs base (addedBodies ops) par.numPoint qa qb u).1
  · obtain ⟨u, hu, e⟩ := k2 h
    exact ⟨u, hu, (poseFree3_iff L obs base (addedBodies ops) par.numPoint qa qb u).2 e⟩

theorem noneOf_total {β : Type*} {p : β → Res Bool} {q : β → Bool} (l : List β) (h : ∀ b ∈ l, p b = .ok (q b)) :
    noneOf p l = .ok (decide (∀ b ∈ l, q b = false)) := by
  induction l with
  | nil => simp [noneOf]
  | cons a l ih =>
    unfold noneOf
    rw [h a (by simp), Res.bind_ok']
    cases hq : q a with
    | true => simp [hq]
    | false =>
      rw [if_neg (by simp), ih fun b hb => h b (by simp [hb])]
      simp [hq]

/-- C53 (ablated spatial planner): the check always returns; it accepts exactly if at every one of the
`numPoint + 1` configurations no body, placed where that configuration puts it, collides with an obstacle according
to the collision library. -/
theorem C53_ablation_check (L : Libs3) (hit : SuperQuadrics → SuperQuadrics → Bool) (base : SuperQuadrics)
    (ops : List (RobotOp SuperQuadrics 3))
    (robot : Tree3) (hrun : Tree3.run ops (Tree3.new base) = .ok robot) (quats : List Quat)
    (arena obs : List SuperQuadrics) (start goal : Vec) (par : Param3) (hnp : 1 ≤ par.numPoint) (i j : ℕ)
    (hi : i < (orientations L quats par).length) (hj : j < (orientations L quats par).length) (v w : Vec)
    (hv : UnitPose v) (hw : UnitPose w) (hlen : v.length = w.length) :
    ∃ steps b, interpolateCompound v w par.numPoint = .ok (steps.map (·.map some)) ∧ IsMotion v w par.numPoint steps ∧
      ((Planner3.new robot quats arena obs start goal par true).sampleSO3 L).freeMulti L ⟨none, some hit⟩ i j v w
        = .ok b ∧
      (b = true ↔ ∀ u ∈ steps, ∀ o ∈ obs,
        hit (bodyAt base (posPart u) (matQuat (quatRot (quatPart u)))) o = false ∧
        ∀ l ∈ addedBodies ops, hit (bodyAt l (centreAt3 l u) (matQuat (quatRot (quatPart u) * quatRot l.quat))) o = false) := by
  have hr := run_inv_of3 hrun
  obtain ⟨steps, e, m1, m2, m3, m4⟩ := C40_interpolateCompound v w hv hw hlen par.numPoint hnp
  obtain ⟨f1, f2, f3⟩ := freshQ_fields L robot quats arena obs start goal par
  have fq := freshQ_q L robot quats arena obs start goal par
  have h7 : ∀ u ∈ steps, 7 ≤ u.length := by
    intro u hu
    obtain ⟨k, hk⟩ := List.mem_iff_getElem?.1 hu
    rw [(m2 k u hk).1]; exact hv.1
  have hver : (freshQ L robot quats arena obs start goal par).freeMulti L ⟨none, some hit⟩ i j v w =
      multiLoop3 ⟨none, some hit⟩ obs [] (steps.map (·.map some)) robot := by
    unfold Planner3.freeMulti multiFree3
    rw [fq, Res.at'_eq_ok.2 (List.getElem?_eq_getElem hi), Res.bind_ok', Res.at'_eq_ok.2 (List.getElem?_eq_getElem hj),
      Res.bind_ok', f1, f2, f3]
    simp only [Res.bind_ok', e]
  have hfcl : ∀ (u : Vec) (o : SuperQuadrics), fclHit hit (Tree3.posed base (addedBodies ops) (poseOf u)) o =
      .ok (!decide (hit (bodyAt base (posPart u) (matQuat (quatRot (quatPart u)))) o = false ∧
        ∀ l ∈ addedBodies ops, hit (bodyAt l (centreAt3 l u) (matQuat (quatRot (quatPart u) * quatRot l.quat))) o = false)) := by
    intro u o
    set T := Tree3.posed base (addedBodies ops) (poseOf u) with hT
    have hb : T.base = (bodyAt base (posPart u) (matQuat (quatRot (quatPart u)))) := rfl
    have hl : T.link = (addedBodies ops).map fun l => (bodyAt l (centreAt3 l u) (matQuat (quatRot (quatPart u) * quatRot l.quat))) := rfl
    have hnl : T.numLinks = T.link.length := by rw [hl, List.length_map]; rfl
    unfold fclHit
    rw [hb]
    cases hh : hit (bodyAt base (posPart u) (matQuat (quatRot (quatPart u)))) o with
    | true => simp
    | false =>
      rw [if_neg (by simp), noneOf_total (q := fun j => match T.link[j]? with
        | some l => hit l o
        | none => false)]
      · rw [Res.bind_ok']
        congr 2
        simp only [true_and, decide_eq_decide]
        rw [hnl]
        constructor
        · intro h l hl'
          obtain ⟨k, hk⟩ := List.mem_iff_getElem?.1 hl'
          have hk2 : T.link[k]? = some (bodyAt l (centreAt3 l u) (matQuat (quatRot (quatPart u) * quatRot l.quat))) := by rw [hl, List.getElem?_map, hk]; rfl
          have := h k (List.mem_range.2 (List.getElem?_eq_some_iff.1 hk2).1)
          rw [hk2] at this
          exact this
        · intro h k hk
          obtain ⟨l2, hk'⟩ : ∃ l2, T.link[k]? = some l2 := ⟨_, List.getElem?_eq_getElem (List.mem_range.1 hk)⟩
          have hm := List.mem_of_getElem? hk'
          rw [hl] at hm
          obtain ⟨l, hl1, rfl⟩ := List.mem_map.1 hm
          rw [hk']
          exact h l hl1
      · intro k hk
        rw [hnl] at hk
        have hk' := List.getElem?_eq_getElem (List.mem_range.1 hk)
        rw [Res.at'_eq_ok.2 hk', Res.bind_ok', hk']
  have hstep : ∀ u, stepFree3 ⟨none, some hit⟩ obs [] (Tree3.posed base (addedBodies ops) (poseOf u)) =
      .ok (decide (∀ o ∈ obs, hit (bodyAt base (posPart u) (matQuat (quatRot (quatPart u)))) o = false ∧
        ∀ l ∈ addedBodies ops, hit (bodyAt l (centreAt3 l u) (matQuat (quatRot (quatPart u) * quatRot l.quat))) o = false)) := by
    intro u
    change noneOf (fclHit hit (Tree3.posed base (addedBodies ops) (poseOf u))) obs = _
    rw [noneOf_total _ fun o _ => hfcl u o]
    congr 1
    simp
  obtain ⟨k1, k2⟩ := multiLoop3_iff (V := ⟨none, some hit⟩) rfl obs [] steps h7 hr
  have htot : ∀ (l : List Vec) (T : Tree3), Tree3.Inv base (addedBodies ops) T → (∀ u ∈ l, 7 ≤ u.length) →
      ∃ b, multiLoop3 ⟨none, some hit⟩ obs [] (l.map (·.map some)) T = .ok b := by
    intro l
    induction l with
    | nil => intro T _ _; exact ⟨true, rfl⟩
    | cons u l ih =>
      intro T hT h7
      rw [List.map_cons]
      unfold multiLoop3
      rw [numRow_some, Res.bind_ok', setTransform3_eq hT (h7 u (by simp)), Res.bind_ok', hstep u, Res.bind_ok']
      split
      · exact ih _ (Tree3.posed_inv _ _ _) fun w hw => h7 w (by simp [hw])
      · exact ⟨false, rfl⟩
  obtain ⟨b, hb⟩ := htot steps robot hr h7
  refine ⟨steps, b, e, ⟨m1, m2, m3, m4⟩, hver.trans hb, ?_⟩
  rw [hb] at k1
  rw [Res.ok.injEq] at k1
  refine k1.trans (forall₂_congr fun u _ => ?_)
  rw [hstep u, Res.ok.injEq, decide_eq_true_iff]

end Hrm
