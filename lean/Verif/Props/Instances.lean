import Verif.Props.Grid
import Verif.Props.Grown
import Verif.Props.Separation
import Verif.Props.OmplPlan
import Verif.Props.Ompl
import Verif.Props.Slices3D
import Verif.Props.ProbRun
import Verif.Props.ProbCheck
import Verif.Props.Kinematics
import Verif.Props.Convex

/-!
# Concrete cases for theorems whose files have none

Every `example` applies a theorem to concrete data: the hypotheses of the theorem are met.
-/

namespace Hrm

open Matrix

/-! ## C43, C44: balls -/

/-- A unit ball on the x axis. -/
def ballAt (d : ℝ) : SuperQuadrics := ⟨1, 1, 1, 1, 1, ![d, 0, 0], (1, 0, 0, 0), 5⟩

theorem ballAt_ok (d : ℝ) : (ballAt d).IsEllipsoid := ⟨one_pos, one_pos, one_pos, rfl, rfl, by norm_num [ballAt]⟩

theorem ballAt_mem {d s : ℝ} {x : Fin 3 → ℝ} (hs : 0 < s) :
    x ∈ ((ballAt d).scaled s).solid ↔ (x 0 - d) ^ 2 + x 1 ^ 2 + x 2 ^ 2 ≤ s ^ 2 := by
  rw [ellipsoid_solid (Q := (ballAt d).scaled s) rfl rfl]
  have hr : quatRot ((ballAt d).scaled s).quat = 1 := by
    ext i j; fin_cases i <;> fin_cases j <;> simp [quatRot, ballAt, SuperQuadrics.scaled]
  rw [hr]
  simp only [ellSet, Set.mem_ofPred_eq, one_mulVec, Fin.sum_univ_three, SuperQuadrics.scaled, ballAt, mul_one]
  have key : ∀ p : Fin 3 → ℝ, (p 0 / ![s, s, s] 0) ^ 2 + (p 1 / ![s, s, s] 1) ^ 2 + (p 2 / ![s, s, s] 2) ^ 2 ≤ 1 ↔
      p 0 ^ 2 + p 1 ^ 2 + p 2 ^ 2 ≤ s ^ 2 := by
    intro p
    simp only [Matrix.cons_val_zero, Matrix.cons_val_one, Matrix.cons_val]
    rw [div_pow, div_pow, div_pow, ← add_div, ← add_div, div_le_one (by positivity)]
  constructor
  · rintro ⟨p, hp, rfl⟩
    rw [key] at hp
    simpa using hp
  · intro h
    refine ⟨x - ![d, 0, 0], ?_, by rw [sub_add_cancel]⟩
    rw [key]
    simpa using h

theorem ballAt_mem' {d : ℝ} {x : Fin 3 → ℝ} : x ∈ (ballAt d).solid ↔ (x 0 - d) ^ 2 + x 1 ^ 2 + x 2 ^ 2 ≤ 1 := by
  have := ballAt_mem (d := d) (s := 1) (x := x) one_pos
  rwa [show (ballAt d).scaled 1 = ballAt d by simp [SuperQuadrics.scaled, ballAt], one_pow] at this

theorem ballAt_half {s : ℝ} (hs : 1 / 2 ≤ s) (d : ℝ) (hd : d = 0 ∨ d = 1) :
    (![1 / 2, 0, 0] : Fin 3 → ℝ) ∈ ((ballAt d).scaled s).solid := by
  rw [ballAt_mem (by linarith)]
  have : (![1 / 2, 0, 0] : Fin 3 → ℝ) 2 = 0 := rfl
  rw [this]
  rcases hd with rfl | rfl <;> simp <;> nlinarith

theorem ballAt_half' (d : ℝ) (hd : d = 0 ∨ d = 1) : (![1 / 2, 0, 0] : Fin 3 → ℝ) ∈ (ballAt d).solid := by
  have := ballAt_half (s := 1) (by norm_num) d hd
  rwa [show (ballAt d).scaled 1 = ballAt d by simp [SuperQuadrics.scaled, ballAt]] at this

theorem ballAt_gap {d : ℝ} : GapAtLeast (ballAt 0).solid (ballAt d).solid (d - 2) := by
  refine ⟨![1, 0, 0], 1, by simp, ?_, ?_⟩
  · intro x hx
    rw [ballAt_mem'] at hx
    have : x 0 ≤ 1 := by nlinarith [sq_nonneg (x 1), sq_nonneg (x 2), sq_nonneg (x 0 - 1)]
    simpa [dotProduct, Fin.sum_univ_three] using this
  · intro x hx
    rw [ballAt_mem'] at hx
    have : d - 1 ≤ x 0 := by nlinarith [sq_nonneg (x 1), sq_nonneg (x 2), sq_nonneg (x 0 - d + 1)]
    simp [dotProduct, Fin.sum_univ_three]
    linarith

theorem ballAt_disjoint {d : ℝ} (hd : 2 < d) : Disjoint (ballAt 0).solid (ballAt d).solid := by
  rw [Set.disjoint_left]
  intro x h1 h2
  rw [ballAt_mem'] at h1 h2
  nlinarith [sq_nonneg (x 1), sq_nonneg (x 2), sq_nonneg (x 0 - 1), sq_nonneg (x 0 - d + 1)]

/-- `C43_ellipsoid_partial`: overlapping balls. -/
example {eig : EigFun} (he : EigOk eig) : isEllipsoidSeparated eig (ballAt 0) (ballAt 1) = false := by
  refine C43_ellipsoid_partial he (ballAt_ok 0) (ballAt_ok 1) ⟨![1 / 2, 0, 0], ballAt_half' 0 (.inl rfl), ?_⟩
  exact ballAt_half (by norm_num) 1 (.inr rfl)

/-- `C44_ellipsoid_partial`: balls a hundred-thousandth apart. -/
example {eig : EigFun} (he : EigOk eig) : isEllipsoidSeparated eig (ballAt 0) (ballAt (2 + 1 / 10 ^ 5)) = true := by
  refine C44_ellipsoid_partial he (ballAt_ok 0) (ballAt_ok _) ballAt_gap ?_
  simp only [ballAt]
  norm_num

/-- `C44_ellipsoid_criterion`, `C44_ellipsoid_threshold`: two roots for disjoint balls, and none for overlapping ones. -/
example : (∃ r s : ℝ, r < 0 ∧ s < 0 ∧ r ≠ s ∧ (ellipsoidPencil (ballAt 0) (ballAt 3)).eval r = 0 ∧
    (ellipsoidPencil (ballAt 0) (ballAt 3)).eval s = 0) ∧
    ¬ ∃ r s : ℝ, r < 0 ∧ s < 0 ∧ r ≠ s ∧ (ellipsoidPencil (ballAt 0) (ballAt 1)).eval r = 0 ∧
    (ellipsoidPencil (ballAt 0) (ballAt 1)).eval s = 0 := by
  refine ⟨(C44_ellipsoid_criterion (ballAt_ok 0) (ballAt_ok 3)).1 (ballAt_disjoint (by norm_num)), fun h => ?_⟩
  have := (C44_ellipsoid_criterion (ballAt_ok 0) (ballAt_ok 1)).2 h
  exact Set.disjoint_left.1 this (ballAt_half' 0 (.inl rfl)) (ballAt_half' 1 (.inr rfl))

example {eig : EigFun} (he : EigOk eig) : ∃ r s : ℝ, r < s ∧ s < 0 ∧
    (isEllipsoidSeparated eig (ballAt 0) (ballAt 3) = true ↔ 1 / 10 ^ 6 < s - r) := by
  obtain ⟨r, s, h1, h2, -, h4⟩ := C44_ellipsoid_threshold he (ballAt_ok 0) (ballAt_ok 3) (ballAt_disjoint (by norm_num))
  exact ⟨r, s, h1, h2, h4⟩

/-! ## C56: histories of calls -/

/-- `C56_plane_partial`, `C56_first_solution`: a first call without a solution, then one with. -/
example : ∃ s s', omplHistory omplPlan2 [failCall] (OmplRep.init true) = .ok s ∧
    omplPlan2 s (goodCall 5) = .ok (s', true) ∧ s'.isSolved = true ∧ s'.path = [[5]] := by
  have h1 : ∃ s, omplHistory omplPlan2 [failCall] (OmplRep.init true) = .ok s := ⟨_, rfl⟩
  obtain ⟨s, h1⟩ := h1
  obtain ⟨r1, r2, r3⟩ := omplHistory2 h1
  obtain ⟨s', h2⟩ := good_plan2 s r1 (by rw [r3]; rfl) 5
  have hn : ∀ d ∈ [failCall], ¬ d.Found := by
    intro d hd
    obtain rfl := List.mem_singleton.1 hd
    rintro ⟨r, hr, -⟩
    nomatch hr
  refine ⟨s, s', h1, h2, (C56_plane_partial h1 h2).2.1.2 (goodCall_found 5), ?_⟩
  rw [(C56_first_solution hn).1 h1 h2, (good_interp 5).1]

/-- `C56_space_partial`: two calls with a solution; the reported path is that of both. -/
example : ∃ s s', omplHistory omplPlan3 [goodCall 3] (OmplRep.init true) = .ok s ∧
    omplPlan3 s (goodCall 5) = .ok (s', true) ∧ s'.path = [[3], [5]] := by
  obtain ⟨s1, h1⟩ := good_plan3 (OmplRep.init true) rfl 3
  have hh : omplHistory omplPlan3 [goodCall 3] (OmplRep.init true) = .ok s1 := by
    have := omplHistory_snoc omplPlan3 [] (goodCall 3) (OmplRep.init true)
    rw [List.nil_append] at this
    rw [this]
    change (Res.ok (OmplRep.init true)).bind _ = _
    rw [Res.bind_ok', h1]; rfl
  obtain ⟨s2, h2⟩ := good_plan3 s1 (omplHistory3 hh).1 5
  refine ⟨s1, s2, hh, h2, ?_⟩
  rw [(C56_space_partial hh h2).2.2.2.1]
  simp [(good_interp 5).2, (good_interp 3).2]

/-! ## C53, spatial -/

theorem exPose_unit (x y z : ℝ) : UnitPose (conf7 x y z (1, 0, 0, 0)) :=
  ⟨le_of_eq rfl, by
    change (1 : ℝ) * 1 + 0 * 0 + 0 * 0 + 0 * 0 = 1
    norm_num⟩

/-- `C53_spatial_check_partial` and `C53_ablation_check`: a robot of two ellipsoids, two orientations, two poses. -/
example (L : Libs3) (obs : List SuperQuadrics) : ∃ steps, IsMotion (conf7 0 0 0 (1, 0, 0, 0))
    (conf7 3 1 2 (1, 0, 0, 0)) 5 steps := by
  have hrun : ∃ robot, Tree3.run [.add (ballAt 2)] (Tree3.new (ballAt 0)) = .ok robot := ⟨_, rfl⟩
  obtain ⟨robot, hrun⟩ := hrun
  obtain ⟨steps, -, h, -⟩ := C53_spatial_check_partial L (ballAt 0) [.add (ballAt 2)] robot hrun [(1, 0, 0, 0), exTurn]
    [exBall3 20] obs [] [] ⟨2, 2, 2, 5, 1, 100, 1, 2, 0, 1, 0, 1⟩ (by norm_num) 0 1 (1, 0, 0, 0) exTurn rfl rfl
    (conf7 0 0 0 (1, 0, 0, 0)) (conf7 3 1 2 (1, 0, 0, 0)) (exPose_unit 0 0 0) (exPose_unit 3 1 2) rfl
  exact ⟨steps, h⟩

example (L : Libs3) (obs : List SuperQuadrics) (hit : SuperQuadrics → SuperQuadrics → Bool) : ∃ steps b,
    IsMotion (conf7 0 0 0 (1, 0, 0, 0)) (conf7 3 1 2 (1, 0, 0, 0)) 5 steps ∧
    (b = true → ∀ u ∈ steps, ∀ o ∈ obs, hit (bodyAt (ballAt 0) (posPart u) (matQuat (quatRot (quatPart u)))) o = false) := by
  have hrun : ∃ robot, Tree3.run [.add (ballAt 2)] (Tree3.new (ballAt 0)) = .ok robot := ⟨_, rfl⟩
  obtain ⟨robot, hrun⟩ := hrun
  obtain ⟨steps, b, -, h, -, hb⟩ := C53_ablation_check L hit (ballAt 0) [.add (ballAt 2)] robot hrun [(1, 0, 0, 0), exTurn]
    [exBall3 20] obs [] [] ⟨2, 2, 2, 5, 1, 100, 1, 2, 0, 1, 0, 1⟩ (by norm_num) 0 1 (by simp [orientations])
    (by simp [orientations]) (conf7 0 0 0 (1, 0, 0, 0)) (conf7 3 1 2 (1, 0, 0, 0)) (exPose_unit 0 0 0)
    (exPose_unit 3 1 2) rfl
  exact ⟨steps, b, h, fun e u hu o ho => (hb.1 e u hu o ho).1⟩

/-! ## C58, C72, C73, C75, C76, C78: whole calls -/

/-- `C71_planar_plan_end_to_end`, `C72_second_plan_fails`, `C78_planar_vertices_on_lines`: a planar call that ends with a
solution. The second call fails, whatever the libraries, the clock and the time limit. -/
example (sort : StdSort ℝ) (qr : QrSolve ℝ) (svd : SvdFun 2) (pick : ℕ → (ℕ → ℝ) → List ℕ → ℕ)
    (hpick : HeapTop pick) (clock : ℕ → ℝ) (timeLim : ℝ) : ∃ (r' : PlanRep Planner2) (mid : List Vec) (ys : List ℝ),
    r'.solvedPath = [0, 0, 0] :: (mid ++ [[0, 0, 0]]) ∧ mid ≠ [] ∧ EvenlySpaced (-10) 10 2 ys ∧
    (∀ v ∈ r'.st.graph.vertex, ∃ x y th, v = [x, y, th] ∧ y ∈ ys) ∧
    ∀ L' clock' timeLim' fuel' r'', Planner2.plan L' clock' timeLim' fuel' r' ≠ some (.ok r'') := by
  obtain ⟨dmin, dmax, r', h, hsol⟩ := C71_witness sort qr svd pick hpick clock timeLim
  obtain ⟨B, rows, mid, -, -, h3, h4, -⟩ := C71_planar_plan_end_to_end ⟨sort, dmin, dmax, qr, svd, pick⟩ hpick exRobot36 []
    (Tree2.new exRobot36) rfl [exCircle 20] [] (.inl (by simp)) [0, 0, 0] [0, 0, 0] rfl rfl exPar71 clock timeLim 0 r' h hsol
  obtain ⟨-, ys, h5, -, h6⟩ := C78_planar_vertices_on_lines ⟨sort, dmin, dmax, qr, svd, pick⟩ exRobot36 []
    (Tree2.new exRobot36) rfl [exCircle 20] [] (.inl (by simp)) [0, 0, 0] [0, 0, 0] exPar71 clock timeLim 0 r' h
  refine ⟨r', mid, ys, h3, h4, h5, ?_, ?_⟩
  · intro v hv
    obtain ⟨x, y, th, e, hy, -⟩ := h6 v hv
    exact ⟨x, y, th, e, hy⟩
  · intro L' clock' timeLim' fuel' r''
    exact C72_second_plan_fails ⟨sort, dmin, dmax, qr, svd, pick⟩ L' exRobot36 [] (Tree2.new exRobot36) rfl [exCircle 20] []
      (.inl (by simp)) [0, 0, 0] [0, 0, 0] exPar71 clock clock' timeLim timeLim' 0 fuel' r' r'' h

/-- `C73_spatial_plan_end_to_end`, `C72_spatial_second_plan_fails`, `C78_spatial_vertices_on_grid`,
`C36_spatial_constructor_pose_partial`: a spatial call of a two-body robot that ends with a solution. -/
example (L : Libs3) (hpick : HeapTop L.pick) (hlo : L.dmin ≤ 0) (hup : 1 ≤ L.dmax)
    (hang : L.ang exTurn exTurn < L.ang exTurn (1, 0, 0, 0)) (hrad : L.ang exTurn exTurn < 100)
    (clock : ℕ → ℝ) (timeLim : ℝ) : ∃ (R : ℝ) (r' : PlanRep Planner3) (mid : List Vec) (xs : List ℝ),
    r'.solvedPath = conf7 (R + 1) 0 0 exTurn :: (mid ++ [conf7 (R + 1) 0 0 exTurn]) ∧ mid ≠ [] ∧
    EvenlySpaced (R + 1) (R + 2) 2 xs ∧ (∀ v ∈ r'.st.graph.vertex, ∃ x ∈ xs, ∃ y z q, v = conf7 x y z q) ∧
    ∀ L' clock' timeLim' fuel' r'', Planner3.plan L' ⟨none, none⟩ clock' timeLim' fuel' r' ≠ some (.ok r'') := by
  have hrun : ∃ robot, Tree3.run [.add (ballAt 2)] (Tree3.new (ballAt 0)) = .ok robot := ⟨_, rfl⟩
  obtain ⟨robot, hrun⟩ := hrun
  have hne : ([exBall3 20] : List SuperQuadrics) ≠ [] ∨ ([] : List SuperQuadrics) ≠ [] := .inl (by simp)
  obtain ⟨R, r', h, hsol⟩ := C73_witness L hpick hlo hup ⟨none, none⟩ rfl (ballAt 0) [.add (ballAt 2)] robot hrun
    [exBall3 20] (by simp) (by simp [exBall3]) (1, 0, 0, 0) exTurn hang hrad clock timeLim
  obtain ⟨B, M, segs, mid, -, -, -, h4, h5, -⟩ := C73_spatial_plan_end_to_end L ⟨none, none⟩ rfl hpick (ballAt 0)
    [.add (ballAt 2)] robot hrun [(1, 0, 0, 0), exTurn] [exBall3 20] [] hne _ _ rfl rfl (exPar73 R) clock timeLim 0 r' h hsol
  obtain ⟨-, -, xs, ys, h6, -, -, -, h7⟩ := C78_spatial_vertices_on_grid L ⟨none, none⟩ rfl (ballAt 0)
    [.add (ballAt 2)] robot hrun [(1, 0, 0, 0), exTurn] [exBall3 20] [] hne _ _ (exPar73 R) clock timeLim 0 r' h
  refine ⟨R, r', mid, xs, h4, h5, h6, ?_, ?_⟩
  · intro v hv
    obtain ⟨x, hx, y, -, z, q, -, e⟩ := h7 v hv
    exact ⟨x, hx, y, z, _, e⟩
  · intro L' clock' timeLim' fuel' r''
    exact C72_spatial_second_plan_fails L L' ⟨none, none⟩ rfl (ballAt 0) [.add (ballAt 2)] robot hrun
      [(1, 0, 0, 0), exTurn] [exBall3 20] [] hne _ _ (exPar73 R) clock clock' timeLim timeLim' 0 fuel' r' r'' h

/-- `C75_prob_plan_end_to_end`, `C58_prob_slices`, `C78_incremental_vertices_on_grid`: a call of the incremental planner for
an articulated robot and an obstacle that ends with a solution in the first slice. -/
example (L : Libs3) (hpick : HeapTop L.pick) (jq : Quat) (hjunk : L.junk = some jq)
    (hrad : L.ang jq exTurn < 100) (hnear : ∀ s, SameRotation s exTurn → L.ang exTurn s < 1 / 10 ^ 6) (A : Arm) (hA : A.nJ = 1) (clock : ℕ → ℝ) (timeLim : ℝ) :
    ∃ (R : ℝ) (r' : PlanRep Planner3) (mid : List Vec) (xs : List ℝ),
    r'.solvedPath = (conf7 (2 * R + 1) 0 (R + 1) exTurn ++ [1 / 2]) :: (mid ++ [conf7 (2 * R + 1) 1 (R + 1) exTurn ++ [1 / 2]]) ∧ mid ≠ [] ∧
    EvenlySpaced (2 * R + 1) (2 * R + 2) 2 xs ∧ (∀ v ∈ r'.st.graph.vertex, ∃ x ∈ xs, v.head? = some x) ∧
    r'.st.par.numSlice = 1 ∧ r'.st.q = [exTurn] := by
  have hrun : ∃ robot, Tree3.run [.add (ballAt 2)] (Tree3.new (ballAt 0)) = .ok robot := ⟨_, rfl⟩
  obtain ⟨robot, hrun⟩ := hrun
  have hne : ([exBall3 20] : List SuperQuadrics) ≠ [] ∨ ([exBall3 3] : List SuperQuadrics) ≠ [] := .inl (by simp)
  obtain ⟨R, B0, M0, -, -, -, hR⟩ := C75_witness (ballAt 0) [.add (ballAt 2)] robot hrun [exBall3 20] [exBall3 3] (by simp) 10
    (by simp) (by simp [exBall3])
  obtain ⟨-, r', h, hsol, hreach, -⟩ := hR L hpick ⟨some A, none⟩ A rfl exTurn jq (by norm_num [Quat.Unit, exTurn]) hjunk hrad
    hnear [1 / 2] (by simp [hA]) [] clock timeLim
  have hl : ∀ y : ℝ, (conf7 (2 * R + 1) y (R + 1) exTurn ++ [1 / 2] : Vec).length = 7 + A.nJ := by intro y; simp [conf7, hA]
  obtain ⟨k, -, -, -, h4⟩ := C75_prob_plan_end_to_end L ⟨some A, none⟩ A rfl hpick (ballAt 0)
    [.add (ballAt 2)] robot hrun [] [exBall3 20] [exBall3 3] hne _ _ (hl 0) (hl 1) (exPar75 R) false clock timeLim 1 r' h
  obtain ⟨B, M, segs, mid, -, -, -, h5, h6, -⟩ := h4 hsol
  obtain ⟨-, -, xs, ys, h7, -, -, -, h8⟩ := C78_incremental_vertices_on_grid L ⟨some A, none⟩ A rfl (ballAt 0)
    [.add (ballAt 2)] robot hrun [] [exBall3 20] [exBall3 3] hne _ _ (exPar75 R) false clock timeLim 1 r' h
  obtain ⟨s1, -, s3, -, s5, -⟩ := C58_prob_slices L ⟨some A, none⟩ A rfl (ballAt 0) [.add (ballAt 2)] robot hrun [] [exBall3 20]
    [exBall3 3] _ _ (exPar75 R) false 1 r'.st hreach
  refine ⟨R, r', mid, xs, h5, h6, h7, ?_, s1, ?_⟩
  · intro v hv
    obtain ⟨x, hx, y, -, z, i, -, rfl⟩ := h8 v hv
    exact ⟨x, hx, rfl⟩
  · obtain ⟨q, hq⟩ := List.length_eq_one_iff.1 s3
    have := (s5 one_pos).1
    rw [hq] at this ⊢
    obtain rfl := Option.some.inj this
    rfl

/-! ## C57, C81, C84 -/

/-- `C57_space`, with a collision library that answers exactly: a robot of two balls and one obstacle. -/
example : ∃ (fcl : SuperQuadrics → Unit → SuperQuadrics → Unit → Bool) (T : Tree3) (O : Ompl3 Unit),
    Tree3.run [.add (ballAt 2)] (Tree3.new (ballAt 0)) = .ok T ∧
    Ompl3.setups (fun _ => ()) (fun _ => ()) 1 (Ompl3.new T [ballAt 9]) = .ok O ∧
    ∀ p : Fin 3 → ℝ, ∃ b : Bool, O.isStateValid fcl p (1, 0, 0, 0) = .ok b := by
  obtain ⟨fcl, hfcl⟩ := fclExact3_exists
  obtain ⟨T, O, h1, h2, h3⟩ := C57_space (fcl := fcl) (mk := fun _ => ()) (mkO := fun _ => ()) (fun _ _ _ => rfl) (ballAt 0)
    [.add (ballAt 2)] (by simp [RigidOps3, ballAt]) [ballAt 9] (fun ob _ => hfcl _ ob) 0
  refine ⟨fcl, T, O, h1, h2, fun p => ?_⟩
  obtain ⟨b, hb, -⟩ := h3 p (1, 0, 0, 0) (by norm_num [Quat.Unit])
  exact ⟨b, hb⟩

/-- `C81_hits_are_real_2D`: a rejected point, and so a real collision. -/
example : ∃ x ∈ (exDisc 9).solid, x ∈ ({ exDisc 9 with px := 0, py := 1 / 2 } : SuperEllipse).solid := by
  obtain ⟨o, ho, x, h1, h2⟩ := C81_hits_are_real_2D [exDisc 9] (exDisc 9) (exDisc_ok 9) rfl
    (by intro o ho; obtain rfl := List.mem_singleton.1 ho; exact exDisc_ok 9) (0, 1 / 2) C82_rejects_example
  obtain rfl := List.mem_singleton.1 ho
  exact ⟨x, h1, h2⟩

/-- **C79 and C84 together.** The incremental planner for a robot described in a file: for every well-formed description, at
every step of a motion between vertices of two slices each body, where the joints on the way to its link put it, lies in its
ellipsoid. (`armBodies` with this kinematics is what C84 describes.) Missing: as for
`C79_incremental_slices_enclosed_partial`. -/
theorem C79_described_robot_enclosed_partial {gq : Matrix (Fin 3) (Fin 3) ℝ → Quat} (hq : GetQuatOk gq) {M : UrdfModel}
    (hM : M.Ok) (L : Libs3) (hs : SvdOk L.svd) (hdet : ∀ M, SymPos M → (L.svd M).u.det = 1)
    (base : SuperQuadrics) (hb : base.Ok) (b1 : base.e1 = 1) (b2 : base.e2 = 1)
    (ops : List (RobotOp SuperQuadrics 3)) (robot : Tree3) (hrun : Tree3.run ops (Tree3.new base) = .ok robot)
    (ha : ∀ l ∈ addedBodies ops, l.Ok ∧ l.e1 = 1 ∧ l.e2 = 1) (np : ℕ) (hnp : 1 ≤ np) (start goal : Vec) (A : Arm)
    (hA : A = armOf gq (parseURDF (some M)))
    (ls : start.length = 7 + A.nJ) (lg : goal.length = 7 + A.nJ) (i j : ℕ)
    (hi : (probSample L A start goal i).1.Unit) (hj : (probSample L A start goal j).1.Unit)
    (hfar : |Quat.dot (probSample L A start goal i).1 (probSample L A start goal j).1| < 1 - 1 / 2 ^ 52)
    (hd : Quat.dot (probSample L A start goal i).1 (probSample L A start goal j).1 ≠ 0)
    (x y z x' y' z' : ℝ) (steps : List Vec)
    (hsteps : interpolateCompound (x' :: y' :: z' :: probTail L A start goal j) (x :: y :: z :: probTail L A start goal i) np
      = .ok (steps.map (·.map some)))
    (tfe : List SuperQuadrics) (htfe : computeTFEProb L A np robot (probConf L A start goal i)
      (probConf L A start goal j) = .ok tfe) :
    tfe.length = (addedBodies ops).length + 1 ∧
    ∀ u ∈ steps, ∀ (b : ℕ) (body E : SuperQuadrics), (armBodies A base (addedBodies ops) u)[b]? = some body →
      tfe[b]? = some E → body.solid ⊆ (bodyAt E body.pos E.quat).solid :=
  C79_incremental_slices_enclosed_partial L hs hdet A (by subst hA; exact C84_arm_rigid hq hM) base hb b1 b2 ops robot hrun ha np
    hnp start goal ls lg i j hi hj hfar hd x y z x' y' z' steps hsteps tfe htfe

end Hrm
