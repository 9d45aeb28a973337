import Verif.Props.Ball
import Verif.Props.Enclose3D
import Verif.Props.PathWitness3D

/-!
# C91: the links of a robot made of balls, on the steps that change the orientation
-/

namespace Hrm

open Matrix

/-- The ellipsoid fitted to a ball, and the test of its centre against one obstacle. -/
theorem ball_clear {svd : SvdFun 3} (hsvd : SvdOk svd) (hdet : ∀ M, SymPos M → (svd M).u.det = 1) {l o : SuperQuadrics}
    (hl : l.Ball) {obs : List SuperQuadrics} (ho : o ∈ obs) (hob : o.Ball) (h4 : 4 ≤ o.num) (h6 : o.num ≤ 10 ^ 6)
    {qA qB : Quat} (hA : qA.Unit) (hB : qB.Unit) (hfar : |Quat.dot qA qB| < 1 - 1 / 2 ^ 52 ∨ |Quat.dot qA qB| = 1) {np : ℕ}
    {E : SuperQuadrics} (hE : getTFE3D svd ![l.a, l.b, l.c] qA qB np l.num = .ok E) {p : Fin 3 → ℝ}
    (hfree : SweptClear3 obs E p) (hg : GenericLine triTol (vertical (p 0) (p 1) (p 2)) (grownBall l.a o)) :
    overlap3 l.a o (toV3 p) ≤ sag3 l.a o := by
  obtain ⟨bab, bbc⟩ := hl.round
  rw [← bbc, ← bab] at hE
  obtain ⟨ea, eb, ec, eu⟩ := tfe_ball hsvd hdet hl.radius hA hB hfar hE
  have hmm : grownBall l.a o ∈ bridgeBound3 obs E := by
    rw [← mesh_twoBalls (B := { E with pos := 0 }) hob (by omega) hl.radius ea eb ec (quatRot_orth eu)]
    exact List.mem_map.2 ⟨o, ho, rfl⟩
  refine overlap3_le_of_outside hob h4 h6 hl.radius ?_
  by_cases hon : OnMesh (grownBall l.a o) (toV3 p)
  · exact Or.inl hon
  · exact Or.inr (C87_point_test triTol triTol_pos.le triTol_lt _ _ hfree _ hmm (grownBall_wf (by omega)) hg hon)

/-- The ball-shaped bodies of the robot at configuration `u` overlap no ball-shaped obstacle by more than the sag of its mesh,
unless the vertical line through the centre of the body is not in general position for the mesh. -/
def BallsClear (obs : List SuperQuadrics) (base : SuperQuadrics) (added : List SuperQuadrics) (u : Vec) : Prop :=
  ∀ o ∈ obs,
    (GenericLine triTol (vertical (coordOf u 0) (coordOf u 1) (coordOf u 2)) (grownBall base.a o) →
      overlap3 base.a o (toV3 (posPart u)) ≤ sag3 base.a o) ∧
    ∀ l ∈ added, GenericLine triTol (vertical (centreAt3 l u 0) (centreAt3 l u 1) (centreAt3 l u 2)) (grownBall l.a o) →
      overlap3 l.a o (toV3 (centreAt3 l u)) ≤ sag3 l.a o

theorem stepClear3_balls {L : Libs3} (hsvd : SvdOk L.svd) (hdet : ∀ M, SymPos M → (L.svd M).u.det = 1) {base : SuperQuadrics}
    (hb : base.Ball) {added : List SuperQuadrics} (ha : ∀ l ∈ added, l.Ball) {obs : List SuperQuadrics}
    (hobs : ∀ o ∈ obs, o.Ball ∧ 4 ≤ o.num ∧ o.num ≤ 10 ^ 6) {qa qb : Quat} (hqa : qa.Unit) (hqb : qb.Unit)
    (hfar : |Quat.dot qa qb| < 1 - 1 / 2 ^ 52 ∨ |Quat.dot qa qb| = 1) {np : ℕ} {u : Vec}
    (h : StepClear3 L obs base added np qa qb u) : BallsClear obs base added u := by
  intro o ho
  obtain ⟨hob, h4, h6⟩ := hobs o ho
  obtain ⟨⟨E, hE, hfree⟩, hlinks⟩ := h
  refine ⟨fun hg => ball_clear hsvd hdet hb ho hob h4 h6 hqa hqb hfar hE hfree hg, fun l hl hg => ?_⟩
  obtain ⟨E, hE, hfree⟩ := hlinks l hl
  have hlu : l.quat.Unit := (ha l hl).unit
  have hun : ∀ {q : Quat}, q.Unit → (matQuat (quatRot q * quatRot l.quat)).Unit := by
    intro q hq
    rw [quatRot_mul hq hlu]
    exact (quatRot_matQuat (hq.mul hlu)).1
  have hdot : |Quat.dot (matQuat (quatRot qa * quatRot l.quat)) (matQuat (quatRot qb * quatRot l.quat))| =
      |Quat.dot qa qb| := by
    rw [quatRot_mul hqa hlu, quatRot_mul hqb hlu, ← Quat.dot_mul (p := qa) (q := qb) hlu]
    exact abs_dot_same (sameRotation_matQuat (hqa.mul hlu)) (sameRotation_matQuat (hqb.mul hlu))
  exact ball_clear hsvd hdet (ha l hl) ho hob h4 h6 (hun hqa) (hun hqb) (by rw [hdot]; exact hfar) hE hfree hg

/-- C91, the links: a motion between two orientations that the planner for rigid robots accepts. The robot is made of balls,
the obstacles are balls. At each of the `numPoint + 1` interpolated configurations no body of the robot overlaps an obstacle by
more than the sag of the mesh of the obstacle, provided that the vertical line through the centre of the body is in general
position. (Between these configurations: `C91_turn_all_times_partial`.) -/
theorem C91_accepted_turn_partial (L : Libs3) (hsvd : SvdOk L.svd) (hdet : ∀ M, SymPos M → (L.svd M).u.det = 1)
    (base : SuperQuadrics) (hb : base.Ball) (ops : List (RobotOp SuperQuadrics 3)) (ha : ∀ l ∈ addedBodies ops, l.Ball)
    (robot : Tree3) (hrun : Tree3.run ops (Tree3.new base) = .ok robot) (quats : List Quat)
    (arena obs : List SuperQuadrics) (hobs : ∀ o ∈ obs, o.Ball ∧ 4 ≤ o.num ∧ o.num ≤ 10 ^ 6) (start goal : Vec) (par : Param3)
    (hnp : 1 ≤ par.numPoint) (i j : ℕ) (qa qb : Quat)
    (hi : (orientations L quats par)[i]? = some qa) (hj : (orientations L quats par)[j]? = some qb)
    (hqa : qa.Unit) (hqb : qb.Unit) (hfar : |Quat.dot qa qb| < 1 - 1 / 2 ^ 52 ∨ |Quat.dot qa qb| = 1) (v w : Vec)
    (hv : UnitPose v) (hw : UnitPose w) (hlen : v.length = w.length)
    (h : ((Planner3.new robot quats arena obs start goal par true).sampleSO3 L).freeMulti L ⟨none, none⟩ i j v w = .ok true) :
    ∃ steps, IsMotion v w par.numPoint steps ∧ ∀ u ∈ steps, BallsClear obs base (addedBodies ops) u := by
  obtain ⟨steps, -, hm, hiff, -⟩ := C53_spatial_check_partial L base ops robot hrun quats arena obs start goal par hnp i j qa qb
    hi hj v w hv hw hlen
  exact ⟨steps, hm, fun u hu => stepClear3_balls hsvd hdet hb ha hobs hqa hqb hfar (hiff.1 h u hu)⟩

/-- C91, the links, on a returned path: every inner step keeps its orientation, or is a motion at whose interpolated
configurations all ball-shaped bodies are clear (`BallsClear`). Missing: the links on a step that keeps its orientation, for
which the planner uses boundaries of the robot as it was given, not as it is turned in the slice (C36). -/
theorem C91_path_links_partial (L : Libs3) (hpick : HeapTop L.pick) (hsvd : SvdOk L.svd)
    (hdet : ∀ M, SymPos M → (L.svd M).u.det = 1) (base : SuperQuadrics) (hb : base.Ball)
    (ops : List (RobotOp SuperQuadrics 3)) (ha : ∀ l ∈ addedBodies ops, l.Ball) (robot : Tree3)
    (hrun : Tree3.run ops (Tree3.new base) = .ok robot) (quats : List Quat)
    (arena obs : List SuperQuadrics) (hne : arena ≠ [] ∨ obs ≠ [])
    (hobs : ∀ o ∈ obs, o.Ball ∧ 4 ≤ o.num ∧ o.num ≤ 10 ^ 6) (start goal : Vec) (hs : start.length = 7)
    (hg : goal.length = 7) (par : Param3) (hnp : 1 ≤ par.numPoint) (hunit : ∀ q ∈ orientations L quats par, q.Unit)
    (hfar : ∀ p ∈ orientations L quats par, ∀ q ∈ orientations L quats par,
      |Quat.dot p q| < 1 - 1 / 2 ^ 52 ∨ |Quat.dot p q| = 1)
    (clock : ℕ → ℝ) (timeLim : ℝ) (fuel : ℕ) (r' : PlanRep Planner3)
    (h : Planner3.plan L ⟨none, none⟩ clock timeLim fuel (freshRep3 (.new robot quats arena obs start goal par true)) =
      some (.ok r')) (hsol : r'.st.res.solved = true) :
    ∃ B M mid, cspaceBoundary3 robot arena obs = .ok B ∧ cspaceMesh arena obs B = .ok M ∧
      r'.solvedPath = start :: (mid ++ [goal]) ∧ mid ≠ [] ∧
      (SweepGeneric3 L par M → ∀ (k : ℕ) (a b : Vec), mid[k]? = some a → mid[k + 1]? = some b →
        quatPart a = quatPart b ∨
        ∃ steps, (IsMotion a b par.numPoint steps ∨ IsMotion b a par.numPoint steps) ∧
          ∀ u ∈ steps, BallsClear obs base (addedBodies ops) u) := by
  obtain ⟨B, M, segs, mid, hB, hM, -, hpath, hm, hsafe⟩ := C87_spatial_path_safe_partial L ⟨none, none⟩ rfl hpick base ops robot
    hrun quats arena obs hne start goal hs hg par hnp hunit clock timeLim fuel r' h hsol
  refine ⟨B, M, mid, hB, hM, hpath, hm, fun hgen k a b hka hkb => ?_⟩
  rcases (hsafe hgen).2 k a b hka hkb with ⟨hq, -⟩ | ⟨hq, -⟩ | ⟨-, -, i, j, qa, qb, hqa, hqb, steps, hmo, hclear⟩
  · exact Or.inl hq
  · exact Or.inl hq
  · have h1 := List.mem_of_getElem? hqa
    have h2 := List.mem_of_getElem? hqb
    exact Or.inr ⟨steps, hmo.imp (·.2.2.2) (·.2.2.2), fun u hu =>
      stepClear3_balls hsvd hdet hb ha hobs (hunit _ h1) (hunit _ h2) (hfar _ h1 _ h2) (hclear u hu)⟩

/-- The link of the example: a ball of radius 1 attached at `(3, 0, 0)`. -/
noncomputable def exLink91 : SuperQuadrics := ⟨1, 1, 1, 1, 1, ![3, 0, 0], (1, 0, 0, 0), 10⟩

theorem exLink91_ball : exLink91.Ball :=
  ⟨by norm_num [exLink91], ⟨rfl, rfl⟩, ⟨rfl, rfl⟩, by norm_num [exLink91, Quat.Unit]⟩

/-- A robot of two balls turns by a third of a full turn beside an obstacle, and the check accepts the motion. -/
theorem ex91_turn (sort : StdSort ℝ) (pick : ℕ → (ℕ → ℝ) → List ℕ → ℕ) (dmin dmax : ℝ) (ang : Quat → Quat → ℝ)
    (junk : Option Quat) (rand : ℕ → Quat) (randJoint : ℕ → ℕ → ℝ) :
    ∃ (svd : SvdFun 3) (robot : Tree3) (R : ℝ), SvdOk svd ∧ (∀ M, SymPos M → (svd M).u.det = 1) ∧ 0 ≤ R ∧
    (∀ v ∈ (grownBall 1 exObs87).vertices, -R ≤ v.x ∧ v.x ≤ R) ∧
    Tree3.run [.add exLink91] (Tree3.new (exBall3 2)) = .ok robot ∧
    ((Planner3.new robot [exQ0, exQ1] [exBall3 20] [exObs87] [] [] (exPar87 0) true).sampleSO3
      ⟨sort, dmin, dmax, svd, pick, ang, junk, rand, randJoint⟩).freeMulti
      ⟨sort, dmin, dmax, svd, pick, ang, junk, rand, randJoint⟩ ⟨none, none⟩ 0 1 (conf7 (2 * R + 4) 0 0 exQ0)
        (conf7 (2 * R + 4 + 1) 0 0 exQ1) = .ok true := by
  obtain ⟨svd, hsvd, hdet⟩ := exists_svd_proper
  set L : Libs3 := ⟨sort, dmin, dmax, svd, pick, ang, junk, rand, randJoint⟩ with hL
  set link : SuperQuadrics := exLink91 with hlink
  have h0 : exQ0.Unit := by norm_num [Quat.Unit, exQ0]
  have h1 : exQ1.Unit := by norm_num [Quat.Unit, exQ1]
  obtain ⟨robot, hrun⟩ : ∃ robot, Tree3.run [.add link] (Tree3.new (exBall3 2)) = .ok robot := ⟨_, rfl⟩
  have hadd : addedBodies [RobotOp.add (n := 3) link] = [link] := rfl
  obtain ⟨R, hR0, hR⟩ := meshes_boxed
    (bridgeBound3 [exObs87] (tfe3Of svd (exBall3 2) exQ0 exQ1 5) ++
     bridgeBound3 [exObs87] (tfe3Of svd link (matQuat (quatRot exQ0 * quatRot link.quat))
       (matQuat (quatRot exQ1 * quatRot link.quat)) 5) ++ [grownBall 1 exObs87])
  have hne : ∀ E, ∀ m ∈ bridgeBound3 [exObs87] E, m.vertices ≠ [] := by
    intro E m hm
    obtain ⟨o, ho, rfl⟩ := List.mem_map.1 hm
    obtain rfl := List.mem_singleton.1 ho
    exact (gridMesh_wf (by simp [exObs87]) (by simp [SuperQuadrics.minkSum3D])).1
  have hv : UnitPose (conf7 (2 * R + 4) 0 0 exQ0) := ⟨le_rfl, by norm_num [conf7, quatPart, coordOf, Quat.dot, exQ0]⟩
  have hw : UnitPose (conf7 (2 * R + 4 + 1) 0 0 exQ1) := ⟨le_rfl, by norm_num [conf7, quatPart, coordOf, Quat.dot, exQ1]⟩
  have hpar : (exPar87 0).numPoint = 5 := rfl
  obtain ⟨steps, -, hmo, hiff, -⟩ := C53_spatial_check_partial L _ [.add link] _ hrun [exQ0, exQ1] [exBall3 20] [exObs87] [] []
    (exPar87 0) (by rw [hpar]; norm_num) 0 1 exQ0 exQ1 rfl rfl _ _ hv hw rfl
  have hx : ∀ u ∈ steps, 2 * R + 4 ≤ coordOf u 0 ∧ ∀ l : SuperQuadrics, l.pos = ![3, 0, 0] → R < centreAt3 l u 0 := by
    intro u hu
    obtain ⟨k, hk⟩ := List.mem_iff_getElem?.1 hu
    obtain ⟨-, hseg, -, hdot⟩ := hmo.2.1 k u hk
    have hseg := hseg 0 (Or.inl (by norm_num))
    have e1 : coordOf (conf7 (2 * R + 4) 0 0 exQ0) 0 = 2 * R + 4 := rfl
    have e2 : coordOf (conf7 (2 * R + 4 + 1) 0 0 exQ1) 0 = 2 * R + 4 + 1 := rfl
    unfold OnSegment at hseg
    rw [e1, e2] at hseg
    have hk0 : (0 : ℝ) ≤ (k : ℝ) / ((exPar87 0).numPoint : ℝ) := by positivity
    have hge : 2 * R + 4 ≤ coordOf u 0 := by rw [hseg]; nlinarith
    refine ⟨hge, fun l hl => ?_⟩
    have ex : centreAt3 l u 0 = 3 * quatRot (quatPart u) 0 0 + coordOf u 0 := by
      simp [centreAt3, hl, Matrix.mulVec, dotProduct, Fin.sum_univ_three, posPart, mul_comm]
    have er : (-1 : ℝ) ≤ quatRot (quatPart u) 0 0 := by
      generalize quatPart u = q at hdot
      obtain ⟨a, b, c, d⟩ := q
      simp only [Quat.dot] at hdot
      simp only [quatRot, of_apply, cons_val_zero, cons_val', cons_val_fin_one]
      nlinarith [sq_nonneg a, sq_nonneg b]
    rw [ex]
    linarith
  have hacc : ((Planner3.new robot [exQ0, exQ1] [exBall3 20] [exObs87] [] [] (exPar87 0) true).sampleSO3 L).freeMulti L
      ⟨none, none⟩ 0 1 (conf7 (2 * R + 4) 0 0 exQ0) (conf7 (2 * R + 4 + 1) 0 0 exQ1) = .ok true := by
    refine hiff.2 fun u hu => ⟨⟨_, tfe3Of_spec .., ?_⟩, fun l hl => ⟨_, tfe3Of_spec .., ?_⟩⟩
    · refine isPtInCFree3D_right (R := R) (hne _) (fun m hm v hv => (hR m (List.mem_append_left _ (List.mem_append_left _ hm)) v hv).1.2) ?_
      have := (hx u hu).1
      show R < coordOf u 0
      linarith
    · rw [hadd] at hl
      obtain rfl := List.mem_singleton.1 hl
      refine isPtInCFree3D_right (R := R) (hne _) (fun m hm v hv => (hR m (List.mem_append_left _ (List.mem_append_right _ hm)) v hv).1.2) ?_
      exact (hx u hu).2 _ rfl
  exact ⟨svd, robot, R, hsvd, hdet, hR0, fun v hv => (hR _ (by simp) v hv).1, hrun, hacc⟩

/-- The hypotheses of `C91_accepted_turn_partial` are met together: a robot of two balls, one attached at `(3, 0, 0)`, turns by a
third of a full turn beside an obstacle; the check accepts the motion, and the robot is clear at the six interpolated
configurations. -/
example (sort : StdSort ℝ) (pick : ℕ → (ℕ → ℝ) → List ℕ → ℕ) (dmin dmax : ℝ) (ang : Quat → Quat → ℝ) (junk : Option Quat)
    (rand : ℕ → Quat) (randJoint : ℕ → ℕ → ℝ) :
    ∃ (svd : SvdFun 3) (robot : Tree3) (x : ℝ) (steps : List Vec),
    Tree3.run [.add exLink91] (Tree3.new (exBall3 2)) = .ok robot ∧
    ((Planner3.new robot [exQ0, exQ1] [exBall3 20] [exObs87] [] [] (exPar87 0) true).sampleSO3
      ⟨sort, dmin, dmax, svd, pick, ang, junk, rand, randJoint⟩).freeMulti
      ⟨sort, dmin, dmax, svd, pick, ang, junk, rand, randJoint⟩ ⟨none, none⟩ 0 1 (conf7 x 0 0 exQ0) (conf7 (x + 1) 0 0 exQ1)
        = .ok true ∧
    IsMotion (conf7 x 0 0 exQ0) (conf7 (x + 1) 0 0 exQ1) 5 steps ∧ ∀ u ∈ steps, BallsClear [exObs87] (exBall3 2) [exLink91] u := by
  obtain ⟨svd, robot, R, hsvd, hdet, -, -, hrun, hacc⟩ := ex91_turn sort pick dmin dmax ang junk rand randJoint
  have h0 : exQ0.Unit := by norm_num [Quat.Unit, exQ0]
  have h1 : exQ1.Unit := by norm_num [Quat.Unit, exQ1]
  have hadd : addedBodies [RobotOp.add (n := 3) exLink91] = [exLink91] := rfl
  have hv : UnitPose (conf7 (2 * R + 4) 0 0 exQ0) := ⟨le_rfl, by norm_num [conf7, quatPart, coordOf, Quat.dot, exQ0]⟩
  have hw : UnitPose (conf7 (2 * R + 4 + 1) 0 0 exQ1) := ⟨le_rfl, by norm_num [conf7, quatPart, coordOf, Quat.dot, exQ1]⟩
  have hpar : (exPar87 0).numPoint = 5 := rfl
  have hdot : Quat.dot exQ0 exQ1 = 1 / 2 := by norm_num [Quat.dot, exQ0, exQ1]
  obtain ⟨steps', hmo', hclear⟩ := C91_accepted_turn_partial
    ⟨sort, dmin, dmax, svd, pick, ang, junk, rand, randJoint⟩ hsvd hdet (exBall3 2)
    ⟨by norm_num [exBall3], ⟨rfl, rfl⟩, ⟨rfl, rfl⟩, by norm_num [exBall3, Quat.Unit]⟩ [.add exLink91]
    (by intro l hl; rw [hadd] at hl; obtain rfl := List.mem_singleton.1 hl; exact exLink91_ball) robot hrun [exQ0, exQ1] [exBall3 20] [exObs87]
    (by
      intro o ho
      obtain rfl := List.mem_singleton.1 ho
      exact ⟨⟨by norm_num [exObs87], ⟨rfl, rfl⟩, ⟨rfl, rfl⟩, by norm_num [exObs87, Quat.Unit]⟩, by norm_num [exObs87],
        by norm_num [exObs87]⟩) [] [] (exPar87 0) (by rw [hpar]; norm_num) 0 1 exQ0 exQ1 rfl rfl h0 h1
    (Or.inl (by rw [hdot, abs_of_pos (by norm_num)]; norm_num)) _ _ hv hw rfl hacc
  exact ⟨svd, robot, 2 * R + 4, steps', hrun, hacc, hmo', hclear⟩

end Hrm
