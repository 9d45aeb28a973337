import Verif.Props.Plan3DWitness

/-!
# Properties C36 and C58 of the spatial planners: the slices
-/

namespace Hrm

open Matrix Classical

/-! ## C36 – every slice with the robot at its own orientation -/

/-- C36 for the spatial planners, as claimed: after `buildRoadmap` on a new planner, the boundaries stored for slice
`i` are those of the robot turned to orientation `i`. -/
def C36_spatial_claim (L : Libs3) (V : Variant) : Prop :=
  ∀ (base : SuperQuadrics) (ops : List (RobotOp SuperQuadrics 3)) (robot : Tree3) (quats : List Quat)
    (arena obs : List SuperQuadrics) (start goal : Vec) (par : Param3) (P : Planner3) (i : ℕ) (q : Quat) (Bi : Bound3),
    Tree3.run ops (Tree3.new base) = .ok robot →
    (Planner3.new robot quats arena obs start goal par true).build L V = .ok P →
    (orientations L quats par)[i]? = some q → P.sliceBoundAll[i]? = some Bi →
    ∃ T, setTransform3 none robot (conf7 0 0 0 q) = .ok T ∧ cspaceBoundary3 T arena obs = .ok Bi

/-- C36 (spatial), what holds instead: the boundaries and the meshes of *every* slice are those of the robot in the
pose it had when the planner was constructed. They are right in every slice for a ball without links. Missing: all
other robots. -/
theorem C36_spatial_constructor_pose_partial (L : Libs3) (V : Variant) (hV : V.arm = none) (base : SuperQuadrics)
    (ops : List (RobotOp SuperQuadrics 3)) (robot : Tree3) (hrun : Tree3.run ops (Tree3.new base) = .ok robot)
    (quats : List Quat) (arena obs : List SuperQuadrics) (start goal : Vec) (par : Param3)
    (hpos : orientations L quats par ≠ []) (P : Planner3)
    (h : (Planner3.new robot quats arena obs start goal par true).build L V = .ok P) :
    ∃ B M, cspaceBoundary3 robot arena obs = .ok B ∧ cspaceMesh arena obs B = .ok M ∧
      P.sliceBoundAll = List.replicate (orientations L quats par).length B ∧
      P.sliceMeshAll = List.replicate (orientations L quats par).length M ∧
      (addedBodies ops = [] → base.a = base.b → base.b = base.c → robot.base.quat.Unit →
        ∀ q ∈ orientations L quats par, q.Unit → ∃ T,
          setTransform3 none robot (conf7 0 0 0 q) = .ok T ∧ cspaceBoundary3 T arena obs = .ok B) := by
  have hr := run_inv_of3 hrun
  obtain ⟨B, hB, b1, b2, -⟩ := cspaceBoundary3_ok hr arena obs
  obtain ⟨M, hM, -, -⟩ := cspaceMesh_ok b1 b2
  have hq := freshQ_q L robot quats arena obs start goal par
  obtain ⟨segs, r, -, -, -, hi⟩ := build3_inv hV hr hB hM rfl (by rw [hq]; exact hpos) h
  refine ⟨B, M, hB, hM, by rw [hi.bounds, hq], by rw [hi.meshes, hq], ?_⟩
  intro hadd hab hbc hu q _ hqu
  refine ⟨_, setTransform3_eq hr (by simp [conf7]), ?_⟩
  rw [← hB]
  have hball : ∀ (U : Tree3), Tree3.Inv base (addedBodies ops) U → Orth (quatRot U.base.quat) →
      U.base.tinv = base.a • (1 : Matrix (Fin 3) (Fin 3) ℝ) := by
    intro U hU ho
    obtain ⟨c1, c2, c3, -⟩ := hU.base
    unfold SuperQuadrics.tinv
    rw [c1, c2, c3, ← hbc, ← hab]
    have : (diagonal ![base.a, base.a, base.a] : Matrix (Fin 3) (Fin 3) ℝ) = base.a • 1 := by
      ext i j; fin_cases i <;> fin_cases j <;> simp
    rw [this, Matrix.mul_smul, Matrix.mul_one, Matrix.smul_mul, ho.right]
  have hmk : ∀ (U : Tree3), Tree3.Inv base (addedBodies ops) U → Orth (quatRot U.base.quat) → ∀ (o : SuperQuadrics) (k : ℤ),
      U.minkSum o k = robot.minkSum o k := by
    intro U hU ho o k
    have h0 : ∀ W : Tree3, Tree3.Inv base (addedBodies ops) W → W.numLinks = 0 := fun W hW => by rw [hW.num, hadd]; rfl
    unfold Tree3.minkSum
    rw [h0 U hU, h0 robot hr]
    simp only [List.range_zero, List.foldlM_nil, Res.pure_eq, Res.ok.injEq, List.cons.injEq, and_true]
    unfold SuperQuadrics.minkSum3D SuperQuadrics.minkPoint
    simp only [hball U hU ho, hball robot hr (quatRot_orth hu)]
  have hcs : ∀ (U : Tree3), Tree3.Inv base (addedBodies ops) U → Orth (quatRot U.base.quat) →
      ∀ (objs : List SuperQuadrics) (k : ℤ), bodyBoundaries3 U objs k = bodyBoundaries3 robot objs k := by
    intro U hU ho objs k
    unfold bodyBoundaries3
    simp only [hmk U hU ho]
  have ho : Orth (quatRot (Tree3.posed base (addedBodies ops) (poseOf (conf7 0 0 0 q))).base.quat) := by
    have e : (Tree3.posed base (addedBodies ops) (poseOf (conf7 0 0 0 q))).base.quat = matQuat (quatRot q) := by
      simp [Tree3.posed, Tree3.place, poseOf, conf7, quat, coord]
    rw [e]
    exact quatRot_orth (quatRot_matQuat hqu).1
  unfold cspaceBoundary3
  rw [hcs _ (Tree3.posed_inv _ _ _) ho, hcs _ (Tree3.posed_inv _ _ _) ho]

/-- The robot of the counterexample: an ellipsoid with semi-axes 1, 1 and 2. -/
noncomputable def exRobot3 : SuperQuadrics := ⟨1, 1, 2, 1, 1, 0, (1, 0, 0, 0), 10⟩

/-- A ball of radius `r`. -/
noncomputable def exBall3 (r : ℝ) : SuperQuadrics := ⟨r, r, r, 1, 1, 0, (1, 0, 0, 0), 10⟩

/-- The orientation that moves the axes x → y → z → x. -/
noncomputable def exTurn : Quat := (1 / 2, 1 / 2, 1 / 2, 1 / 2)

theorem tinv_exRobot3 : exRobot3.tinv = diagonal ![1, 1, 2] := by
  unfold SuperQuadrics.tinv exRobot3
  ext i j; fin_cases i <;> fin_cases j <;> simp [quatRot, Matrix.mul_apply, Fin.sum_univ_three, Matrix.diagonal, vecHead, vecTail]

theorem tinv_turned (E : SuperQuadrics) (ha : E.a = 1) (hb : E.b = 1) (hc : E.c = 2) (hq : quatRot E.quat = quatRot exTurn) :
    E.tinv = diagonal ![2, 1, 1] := by
  unfold SuperQuadrics.tinv
  rw [ha, hb, hc, hq]
  ext i j; fin_cases i <;> fin_cases j <;>
    simp [quatRot, exTurn, Matrix.mul_apply, Fin.sum_univ_three, Matrix.diagonal, vecHead, vecTail] <;> norm_num

theorem cspaceBoundary3_single (T : Tree3) (h : T.numLinks = 0) (a : SuperQuadrics) :
    cspaceBoundary3 T [a] [] = .ok ⟨[a.minkSum3D T.base (-1)], []⟩ := by
  simp [cspaceBoundary3, bodyBoundaries3, Tree3.minkSum, h]

/-- The height of a contracted boundary point of the ball for a robot with `Tinv = diag(d)`. -/
theorem minkPoint_ball {r : ℝ} (B : SuperQuadrics) (d : Fin 3 → ℝ) (hB : B.tinv = diagonal d) (p : ℝ × ℝ) :
    (exBall3 r).minkPoint B (-1) p 2 = (exBall3 r).originPoint p 2 -
      d 2 * (d 2 * (exBall3 r).gradPhi p 2) / Real.sqrt ((d 0 * (exBall3 r).gradPhi p 0) ^ 2 +
        (d 1 * (exBall3 r).gradPhi p 1) ^ 2 + (d 2 * (exBall3 r).gradPhi p 2) ^ 2) := by
  have hR : quatRot (exBall3 r).quat = 1 := by
    ext i j; fin_cases i <;> fin_cases j <;> simp [quatRot, exBall3]
  have hT : ∀ v : Fin 3 → ℝ, ((diagonal d : Matrix (Fin 3) (Fin 3) ℝ) *ᵥ v) = fun i => d i * v i := by
    intro v; ext i; rw [Matrix.mulVec_diagonal]
  unfold SuperQuadrics.minkPoint
  simp only [hB, hR, Matrix.one_mulVec, hT, vnorm, dotProduct, Fin.sum_univ_three]
  simp only [Pi.add_apply, Pi.smul_apply, smul_eq_mul]
  rw [show d 0 * (exBall3 r).gradPhi p 0 * (d 0 * (exBall3 r).gradPhi p 0) +
      d 1 * (exBall3 r).gradPhi p 1 * (d 1 * (exBall3 r).gradPhi p 1) +
      d 2 * (exBall3 r).gradPhi p 2 * (d 2 * (exBall3 r).gradPhi p 2) =
      (d 0 * (exBall3 r).gradPhi p 0) ^ 2 + (d 1 * (exBall3 r).gradPhi p 1) ^ 2 + (d 2 * (exBall3 r).gradPhi p 2) ^ 2 by ring]
  push_cast
  ring

theorem gradPhi_ball_ne {r : ℝ} (hr : r ≠ 0) : (exBall3 r).gradPhi ((exBall3 r).param 0) 2 ≠ 0 := by
  have hs : Real.sin ((exBall3 r).param 0).1 < 0 := by
    have e : ((exBall3 r).param 0).1 = -(hrmHalfPi + epsilon) := by
      simp [SuperQuadrics.param, SuperQuadrics.eta, linSpaced, exBall3]; ring
    rw [e, Real.sin_neg]
    have := Real.sin_pos_of_pos_of_lt_pi (x := hrmHalfPi + epsilon) (by unfold hrmHalfPi hrmPi epsilon; norm_num) (by
      have := Real.pi_gt_three; unfold hrmHalfPi hrmPi epsilon; norm_num; linarith)
    linarith
  have : (exBall3 r).gradPhi ((exBall3 r).param 0) 2 =
      sgn (Real.sin ((exBall3 r).param 0).1) * |Real.sin ((exBall3 r).param 0).1| ^ ((2 : ℝ) - 1) / r := by
    simp [SuperQuadrics.gradPhi, expFun, exBall3]
  rw [this]
  have h1 : sgn (Real.sin ((exBall3 r).param 0).1) ≠ 0 := by
    unfold sgn; split_ifs <;> norm_num
  have h2 : |Real.sin ((exBall3 r).param 0).1| ^ ((2 : ℝ) - 1) ≠ 0 :=
    (Real.rpow_pos_of_pos (abs_pos.2 hs.ne) _).ne'
  exact div_ne_zero (mul_ne_zero h1 h2) hr

/-- C36 is false for the spatial planners (bridging and ablated), whatever the conforming libraries: with the two
predefined orientations identity and `exTurn`, the ellipsoid with semi-axes 1, 1, 2 in a round arena, the boundary stored
for the second slice is not that of the robot at the second orientation. -/
theorem C36_spatial_refuted (L : Libs3) (hpick : HeapTop L.pick) (hlo : L.dmin ≤ 0) (hup : 1 ≤ L.dmax) (V : Variant)
    (hV : V.arm = none) (hang : L.ang exTurn exTurn < L.ang exTurn (1, 0, 0, 0)) (hrad : L.ang exTurn exTurn < 100) :
    ¬ C36_spatial_claim L V := by
  intro H
  have hrun : Tree3.run [] (Tree3.new exRobot3) = .ok (Tree3.new exRobot3) := rfl
  have hr := run_inv_of3 hrun
  obtain ⟨R, r', hp, -⟩ := C73_witness L hpick hlo hup V hV exRobot3 [] _ hrun [exBall3 20] (by simp) (by simp [exBall3])
    (1, 0, 0, 0) exTurn hang hrad (fun _ => 0) 0
  obtain ⟨P, hb, -⟩ := plan_fresh3 hV hr (Or.inl (by simp)) hp
  have hor : orientations L [(1, 0, 0, 0), exTurn] (exPar73 R) = [(1, 0, 0, 0), exTurn] := by simp [orientations]
  obtain ⟨B, M, hB, -, hall, -⟩ := C36_spatial_constructor_pose_partial L V hV exRobot3 [] _ hrun [(1, 0, 0, 0), exTurn]
    [exBall3 20] [] _ _ (exPar73 R) (by rw [hor]; simp) P hb
  obtain ⟨T, t1, t2⟩ := H exRobot3 [] _ [(1, 0, 0, 0), exTurn] [exBall3 20] [] _ _ (exPar73 R) P 1 exTurn B hrun hb
    (by rw [hor]; rfl) (by rw [hall, hor]; rfl)
  rw [setTransform3_eq hr (by simp [conf7])] at t1
  obtain rfl := (Res.ok.injEq _ _).mp t1
  rw [← hB, cspaceBoundary3_single _ rfl, cspaceBoundary3_single _ rfl] at t2
  have t3 := congrArg Bound3.arena ((Res.ok.injEq _ _).mp t2)
  have hn : (exBall3 20).num = 10 := rfl
  have t4 := congrArg (fun l => l[0]?.bind fun b => b[0]?) t3
  simp only [SuperQuadrics.minkSum3D, hn, List.getElem?_cons_zero, Option.bind_some, List.getElem?_map] at t4
  rw [List.getElem?_range (by norm_num)] at t4
  have t5 := congrFun (Option.some.inj t4) 2
  beta_reduce at t5
  have hu : exTurn.Unit := by unfold Quat.Unit exTurn; norm_num
  rw [minkPoint_ball _ _ (tinv_turned _ rfl rfl rfl (by
      have e : (Tree3.posed exRobot3 (addedBodies ([] : List (RobotOp SuperQuadrics 3))) (poseOf (conf7 0 0 0 exTurn))).base.quat = matQuat (quatRot exTurn) := by
        simp [Tree3.posed, Tree3.place, poseOf, conf7, quat, coord]
      rw [e]; exact (quatRot_matQuat hu).2)),
    minkPoint_ball _ _ (show (Tree3.new exRobot3).base.tinv = _ from tinv_exRobot3)] at t5
  have hz := gradPhi_ball_ne (r := 20) (by norm_num)
  generalize (exBall3 20).gradPhi ((exBall3 20).param 0) = g at t5 hz
  have e1 : (![2, 1, 1] : Fin 3 → ℝ) 0 = 2 ∧ (![2, 1, 1] : Fin 3 → ℝ) 1 = 1 ∧ (![2, 1, 1] : Fin 3 → ℝ) 2 = 1 :=
    ⟨rfl, rfl, rfl⟩
  have e2 : (![1, 1, 2] : Fin 3 → ℝ) 0 = 1 ∧ (![1, 1, 2] : Fin 3 → ℝ) 1 = 1 ∧ (![1, 1, 2] : Fin 3 → ℝ) 2 = 2 :=
    ⟨rfl, rfl, rfl⟩
  rw [e1.1, e1.2.1, e1.2.2, e2.1, e2.2.1, e2.2.2] at t5
  have hz2 := sq_pos_of_ne_zero hz
  have hX : 0 < (2 * g 0) ^ 2 + (1 * g 1) ^ 2 + (1 * g 2) ^ 2 := by nlinarith [sq_nonneg (g 0), sq_nonneg (g 1)]
  have hY : 0 < (1 * g 0) ^ 2 + (1 * g 1) ^ 2 + (2 * g 2) ^ 2 := by nlinarith [sq_nonneg (g 0), sq_nonneg (g 1)]
  have hA := Real.sqrt_pos.2 hX
  have hC := Real.sqrt_pos.2 hY
  have sA := Real.sq_sqrt hX.le
  have sC := Real.sq_sqrt hY.le
  set a := Real.sqrt ((2 * g 0) ^ 2 + (1 * g 1) ^ 2 + (1 * g 2) ^ 2)
  set c := Real.sqrt ((1 * g 0) ^ 2 + (1 * g 1) ^ 2 + (2 * g 2) ^ 2)
  have t6 : 1 * (1 * g 2) / a = 2 * (2 * g 2) / c := by linarith
  rw [div_eq_div_iff hA.ne' hC.ne'] at t6
  have t7 : c = 4 * a := mul_left_cancel₀ hz (by linarith)
  rw [t7] at sC
  nlinarith [sq_nonneg (g 0), sq_nonneg (g 1)]

/-! ## C35 – the slices that are joined by a plan -/

/-- C35 for a call of `plan` that returns on a new planner (bridging or ablated): every slice but the first has been
tried against an earlier slice whose orientation is *nearest to its own* among the earlier ones (in the distance
reported by Eigen), and joined to it whenever some near pair of their vertices passes the check of the planner. -/
theorem C35_plan_nearest_partial (L : Libs3) (V : Variant) (hV : V.arm = none) (base : SuperQuadrics)
    (ops : List (RobotOp SuperQuadrics 3)) (robot : Tree3) (hrun : Tree3.run ops (Tree3.new base) = .ok robot)
    (quats : List Quat) (arena obs : List SuperQuadrics) (hne : arena ≠ [] ∨ obs ≠ []) (start goal : Vec) (par : Param3)
    (clock : ℕ → ℝ) (timeLim : ℝ) (fuel : ℕ) (r' : PlanRep Planner3)
    (h : Planner3.plan L V clock timeLim fuel (freshRep3 (.new robot quats arena obs start goal par true)) = some (.ok r')) :
    r'.st.vertexIdx.length = (orientations L quats par).length ∧
    ∀ (i : ℕ) (qi : Quat), (orientations L quats par)[i]? = some qi → i ≠ 0 →
      ∃ (j : ℕ) (qj : Quat), j < i ∧ (orientations L quats par)[j]? = some qj ∧
        (∀ (k : ℕ) (qk : Quat), k < i → (orientations L quats par)[k]? = some qk → L.ang qi qj ≤ L.ang qi qk) ∧
        ∀ s t, r'.st.vertexIdx[i]? = some s → r'.st.vertexIdx[j]? = some t →
          JoinedIfPossible (near3D par.gapX par.gapY) (r'.st.freeMulti L V i j) t s r'.st.graph := by
  have hr := run_inv_of3 hrun
  obtain ⟨P, hb, hs, hq0, -⟩ := plan_fresh3 hV hr hne h
  obtain ⟨B, hB, b1, b2, -⟩ := cspaceBoundary3_ok hr arena obs
  obtain ⟨M, hM, -, -⟩ := cspaceMesh_ok b1 b2
  have hq := freshQ_q L robot quats arena obs start goal par
  have hi0 := fresh_inv3 (L := L) (quats := quats) (start := start) (goal := goal) (par := par) hr hB hM
  obtain ⟨segs, r, -, -, hbr, hi⟩ := build3_inv hV hr hB hM rfl hq0 hb
  obtain ⟨_, _, res, -, -, -, e⟩ := search3_ok hs
  have hfm : r'.st.freeMulti L V = (freshQ L robot quats arena obs start goal par).freeMulti L V := by
    rw [e]
    exact freeMulti3_congr L hV (base := base) (added := addedBodies ops) hi.inv hi0.inv hi.q hi.par hi.obs
  have hgr : r'.st.graph = r.1 := by rw [e]; exact hi.graph
  have hix : r'.st.vertexIdx = r.2 := by rw [e]; exact hi.idx
  have hst := buildRoadmap3D_sat (tot := False) (dist := qDist L.ang (freshQ L robot quats arena obs start goal par).q)
    (freeSame := fun _ => sameFree3 M.obstacle)
    (freeMulti := (freshQ L robot quats arena obs start goal par).freeMulti L V) (gapX := par.gapX) (gapY := par.gapY)
    (mk := fun i => mkVertex (sliceQuat (freshQ L robot quats arena obs start goal par).q i) []) (seg := fun _ => segs)
    (n := (freshQ L robot quats arena obs start goal par).q.length)
    (dim := 7) (fun _ v => v.length = 7) (fun _ _ h => h)
    (fun i p _ => Sample.all (fun _ _ => rfl))
    (fun i v1 v2 v z ⟨p1, _, s1⟩ ⟨p2, _, s2⟩ _ hv _ _ => set_third_length
      (Sample.all (Vp := fun v => v.length = 7) (fun _ _ => rfl) v1 s1)
      (Sample.all (Vp := fun v => v.length = 7) (fun _ _ => rfl) v2 s2) hv) (fun f => f.elim)
  obtain ⟨-, h2, -, -, h5⟩ := hst.1 _ hbr
  rw [hgr, hix, hfm]
  rw [hq] at h2 h5
  refine ⟨h2, fun i qi hqi h0 => ?_⟩
  have hlt := (List.getElem?_eq_some_iff.1 hqi).1
  obtain ⟨h6, h7⟩ := nearestSlice3D_spec (qDist L.ang (orientations L quats par)) hlt h0
  set j := nearestSlice3D (qDist L.ang (orientations L quats par)) i (orientations L quats par).length
  have hj : (orientations L quats par)[j]? = some (orientations L quats par)[j] :=
    List.getElem?_eq_getElem (h6.trans hlt)
  refine ⟨j, _, h6, hj, ?_, fun s t hs ht => h5 (by omega) i s t hs ht⟩
  intro k qk hk hqk
  have := h7 k hk
  unfold qDist at this
  rw [hqi, hj, hqk] at this
  exact this

/-- The hypotheses are met by the plan of `C73_witness`, which has two slices. -/
example (L : Libs3) (hpick : HeapTop L.pick) (hlo : L.dmin ≤ 0) (hup : 1 ≤ L.dmax) (V : Variant) (hV : V.arm = none)
    (q0 q1 : Quat) (hang : L.ang q1 q1 < L.ang q1 q0) (hrad : L.ang q1 q1 < 100) (clock : ℕ → ℝ) (timeLim : ℝ) :
    ∃ R r', Planner3.plan L V clock timeLim 0 (freshRep3 (.new (Tree3.new exRobot3) [q0, q1] [exBall3 20] []
        (conf7 (R + 1) 0 0 q1) (conf7 (R + 1) 0 0 q1) (exPar73 R) true)) = some (.ok r') ∧
      ∃ s t, r'.st.vertexIdx[1]? = some s ∧ r'.st.vertexIdx[0]? = some t ∧
        JoinedIfPossible (near3D (exPar73 R).gapX (exPar73 R).gapY) (r'.st.freeMulti L V 1 0) t s r'.st.graph := by
  obtain ⟨R, r', hp, -⟩ := C73_witness L hpick hlo hup V hV exRobot3 [] _ rfl [exBall3 20] (by simp) (by simp [exBall3])
    q0 q1 hang hrad clock timeLim
  have hor : orientations L [q0, q1] (exPar73 R) = [q0, q1] := by simp [orientations]
  obtain ⟨hl, H⟩ := C35_plan_nearest_partial L V hV exRobot3 [] _ rfl [q0, q1] [exBall3 20] [] (Or.inl (by simp)) _ _ _ _ _ _ _ hp
  rw [hor] at hl H
  obtain ⟨j, qj, h1, h2, -, h4⟩ := H 1 q1 rfl (by norm_num)
  obtain rfl : j = 0 := by omega
  have l1 : 1 < r'.st.vertexIdx.length := by rw [hl]; simp
  exact ⟨R, r', hp, _, _, List.getElem?_eq_getElem l1, List.getElem?_eq_getElem (by omega),
    h4 _ _ (List.getElem?_eq_getElem l1) (List.getElem?_eq_getElem (by omega))⟩

end Hrm
