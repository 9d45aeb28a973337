import Verif.Lemmas.Planner2DPlan
import Verif.Props.Connect

/-!
# Properties C33, C36, C53, C71, C72: the planar planner as a whole
-/

namespace Hrm

open Matrix

/-! ## C33 – the headings -/

/-- C33 as claimed: for every number of slices the headings are numbers, the first is `-π`, the last (if there
are two) is `π` and they are equally spaced (`π` is the code's constant). -/
def C33_claim : Prop :=
  ∀ n : ℕ, 1 ≤ n → ∃ hs : List ℝ, headings2 n = hs.map some ∧ hs.length = n ∧ hs.head? = some (-hrmPi) ∧
    (2 ≤ n → hs.getLast? = some hrmPi) ∧
    ∃ d : ℝ, ∀ (i : ℕ) (a b : ℝ), hs[i]? = some a → hs[i + 1]? = some b → b - a = d

/-- C33 is false: the heading of a single slice is not a number. -/
theorem C33_refuted : ¬ C33_claim := by
  intro h
  obtain ⟨hs, e, hl, -⟩ := h 1 le_rfl
  match hs, hl with
  | [x], _ => simp [headings2] at e

/-- C33, the part that holds: two slices or more. `sampleOrientations` gives exactly the claimed headings on a
fresh planner. Missing: one slice. -/
theorem C33_headings_partial (n : ℕ) (hn : 2 ≤ n) : ∃ hs : List ℝ, headings2 n = hs.map some ∧ hs.length = n ∧
    hs.head? = some (-hrmPi) ∧ hs.getLast? = some hrmPi ∧
    ∀ (i : ℕ) (a b : ℝ), hs[i]? = some a → hs[i + 1]? = some b → b - a = 2 * hrmPi / ((n : ℝ) - 1) := by
  refine ⟨(List.range n).map (heading n), ?_, by simp, ?_, ?_, ?_⟩
  · unfold headings2
    rw [List.map_map]
    apply List.map_congr_left
    intro i _
    rw [if_neg (by omega)]; rfl
  · obtain ⟨m, rfl⟩ : ∃ m, n = m + 1 := ⟨n - 1, by omega⟩
    rw [List.range_succ_eq_map]
    simp [heading]
  · obtain ⟨m, rfl⟩ : ∃ m, n = m + 2 := ⟨n - 2, by omega⟩
    rw [List.range_succ, List.map_append]
    simp only [List.map_cons, List.map_nil, List.getLast?_append, List.getLast?_singleton, Option.some_or,
      Option.some.injEq, heading]
    push_cast
    have h2 : (m : ℝ) + 2 - 1 ≠ 0 := by
      have : (0 : ℝ) ≤ m := Nat.cast_nonneg m
      intro h; linarith
    field_simp
    ring
  · intro i a b ha hb
    have hi : i + 1 < n := by
      have := (List.getElem?_eq_some_iff.1 hb).1
      simpa using this
    rw [List.getElem?_map, List.getElem?_range (by omega)] at ha hb
    simp only [Option.map_some, Option.some.injEq] at ha hb
    rw [← ha, ← hb]
    unfold heading
    push_cast
    ring

/-- C33 at the level of the planner: the slices of a fresh planner get these headings; on a planner that has
been used the new ones come after the old. -/
theorem C33_planner_headings (P : Planner2) :
    P.sampleOrientations.headings = P.headings ++ headings2 P.par.numSlice ∧
    ∀ (robot : Tree2) (arena obs : List SuperEllipse) (start goal : Vec) (par : Param2),
      (Planner2.new robot arena obs start goal par).sampleOrientations.headings = headings2 par.numSlice :=
  ⟨rfl, fun _ _ _ _ _ _ => by simp [Planner2.sampleOrientations, Planner2.new]⟩

/-! ## C36 – every slice with the robot at its own orientation -/

theorem run_inv_of {base : SuperEllipse} {ops : List (RobotOp SuperEllipse 2)} {robot : Tree2}
    (h : Tree2.run ops (Tree2.new base) = .ok robot) : Tree2.Inv base (addedBodies ops) robot := by
  obtain ⟨T, e, hT⟩ := Tree2.run_inv base ops
  rw [h] at e
  obtain rfl := (Res.ok.injEq _ _).mp e
  exact hT

/-- C36 as claimed, for the libraries `L`: after `buildRoadmap` on a new planner, the boundaries stored for slice
`i` are those of the robot turned to heading `i`. -/
def C36_claim (L : Libs2) : Prop :=
  ∀ (base : SuperEllipse) (ops : List (RobotOp SuperEllipse 2)) (robot : Tree2) (arena obs : List SuperEllipse)
    (start goal : Vec) (par : Param2) (P : Planner2) (i : ℕ) (Bi : Bound2),
    Tree2.run ops (Tree2.new base) = .ok robot →
    (Planner2.new robot arena obs start goal par).build L = .ok P → i < par.numSlice →
    P.sliceBoundAll[i]? = some Bi →
    ∃ T, setTransform2 robot [0, 0, heading par.numSlice i] = .ok T ∧ cspaceBoundary T arena obs = .ok Bi

/-- A finite set of polygons is bounded. -/
theorem polys_bounded : ∀ l : List (List (Pt ℝ)), ∃ M : ℝ, 0 ≤ M ∧ ∀ sh ∈ l, ∀ v ∈ sh, -M ≤ v.1 ∧ v.1 ≤ M := by
  have one : ∀ sh : List (Pt ℝ), ∃ M : ℝ, 0 ≤ M ∧ ∀ v ∈ sh, -M ≤ v.1 ∧ v.1 ≤ M := by
    intro sh
    induction sh with
    | nil => exact ⟨0, le_rfl, by simp⟩
    | cons v sh ih =>
      obtain ⟨M, h0, h⟩ := ih
      refine ⟨max M |v.1|, le_max_of_le_left h0, ?_⟩
      intro w hw
      rcases List.mem_cons.1 hw with rfl | hw
      · have := abs_le.1 (le_max_right M |w.1|)
        exact this
      · have := h w hw
        have h1 := le_max_left M |v.1|
        exact ⟨by linarith, by linarith⟩
  intro l
  induction l with
  | nil => exact ⟨0, le_rfl, by simp⟩
  | cons sh l ih =>
    obtain ⟨M, h0, h⟩ := ih
    obtain ⟨N, g0, g⟩ := one sh
    refine ⟨max M N, le_max_of_le_left h0, ?_⟩
    have h1 := le_max_left M N
    have h2 := le_max_right M N
    intro s hs v hv
    rcases List.mem_cons.1 hs with rfl | hs
    · have := g v hv; exact ⟨by linarith, by linarith⟩
    · have := h s hs v hv; exact ⟨by linarith, by linarith⟩

/-- C36, what holds instead: the boundaries of *every* slice are those of the robot in the pose it had when the
planner was constructed. They are right for a slice when turning the robot to its heading changes nothing, in
particular in every slice for a disc without links. Missing: all other robots. -/
theorem C36_constructor_pose_partial (L : Libs2) (base : SuperEllipse) (ops : List (RobotOp SuperEllipse 2))
    (robot : Tree2) (hrun : Tree2.run ops (Tree2.new base) = .ok robot) (arena obs : List SuperEllipse)
    (start goal : Vec) (par : Param2) (P : Planner2)
    (h : (Planner2.new robot arena obs start goal par).build L = .ok P) :
    ∃ B, cspaceBoundary robot arena obs = .ok B ∧ P.sliceBoundAll = List.replicate par.numSlice B ∧
      (addedBodies ops = [] → base.a = base.b → ∀ i < par.numSlice, ∃ T,
        setTransform2 robot [0, 0, heading par.numSlice i] = .ok T ∧ cspaceBoundary T arena obs = .ok B) := by
  have hr := run_inv_of hrun
  obtain ⟨B, hB, -⟩ := cspaceBoundary_ok hr arena obs
  refine ⟨B, hB, ?_, ?_⟩
  · by_cases h0 : par.numSlice = 0
    · have hfold := h
      unfold Planner2.build at hfold
      have hz : (Planner2.new robot arena obs start goal par).par.numSlice = 0 := h0
      rw [hz, List.range_zero, List.foldlM_nil] at hfold
      rw [Res.pure_eq, Res.bind_ok'] at hfold
      unfold Planner2.connectMultiSlice at hfold
      cases hc : connectMultiSlice2D ((Planner2.new robot arena obs start goal par).sampleOrientations.freeMulti L)
        (Planner2.new robot arena obs start goal par).sampleOrientations.par.gapY
        (Planner2.new robot arena obs start goal par).sampleOrientations.par.numSlice
        (Planner2.new robot arena obs start goal par).sampleOrientations.vertexIdx
        (Planner2.new robot arena obs start goal par).sampleOrientations.graph with
      | ok g => rw [hc] at hfold; obtain rfl := (Res.ok.injEq _ _).mp hfold; rw [h0]; rfl
      | throw => rw [hc] at hfold; exact nomatch hfold
      | ub => rw [hc] at hfold; exact nomatch hfold
    · obtain ⟨_, _, _, _, _, _, hi⟩ := build_inv (start := start) (goal := goal) hr hB h0 h
      exact hi.bounds
  · intro hadd hab i hi
    refine ⟨_, setTransform2_eq hr 0 0 _, ?_⟩
    rw [← hB]
    have hdisc : ∀ (E : SuperEllipse), E.a = E.b → ∀ r, E.tinv r = (E.a / r) • (1 : Matrix (Fin 2) (Fin 2) ℝ) := by
      intro E hE r
      unfold SuperEllipse.tinv
      rw [← hE]
      have : (diagonal ![E.a / r, E.a / r] : Matrix (Fin 2) (Fin 2) ℝ) = (E.a / r) • 1 := by
        ext i j; fin_cases i <;> fin_cases j <;> simp
      rw [this, Matrix.mul_smul, Matrix.mul_one, Matrix.smul_mul]
      congr 1
      have hsc := Real.sin_sq_add_cos_sq E.ang
      ext i j
      fin_cases i <;> fin_cases j <;>
        simp [rot2, Matrix.mul_apply, Fin.sum_univ_two] <;> nlinarith
    have hmk : ∀ (U : Tree2), Tree2.Inv base (addedBodies ops) U → ∀ (o : SuperEllipse) (k : ℤ),
        U.minkSum o k = .ok [o.minkSum2D base k] := by
      intro U hU o k
      obtain ⟨b1, b2, b3, b4⟩ := hU.base
      have h0 : U.numLinks = 0 := by rw [hU.num, hadd]; rfl
      unfold Tree2.minkSum
      rw [h0]
      simp only [List.range_zero, List.foldlM_nil, Res.pure_eq, Res.ok.injEq, List.cons.injEq, and_true]
      unfold SuperEllipse.minkSum2D SuperEllipse.minkPoint
      have : ∀ r, U.base.tinv r = base.tinv r := by
        intro r
        rw [hdisc base hab, hdisc U.base (by rw [b1, b2]; exact hab), b1]
      simp only [this]
    have hcs : ∀ (U : Tree2), Tree2.Inv base (addedBodies ops) U → ∀ (objs : List SuperEllipse) (k : ℤ),
        bodyBoundaries U objs k = bodyBoundaries robot objs k := by
      intro U hU objs k
      unfold bodyBoundaries
      simp only [hmk U hU, hmk robot hr]
    unfold cspaceBoundary
    rw [hcs _ (Tree2.posed_inv _ _ _), hcs _ (Tree2.posed_inv _ _ _)]

/-- The robot of the counterexample: an ellipse with semi-axes 2 and 1, given to the planner turned by `π/2`. -/
noncomputable def exRobot36 : SuperEllipse := ⟨2, 1, 1, 0, 0, Real.pi / 2, 4⟩

/-- A circle of radius 1. -/
noncomputable def exCircle (r : ℝ) : SuperEllipse := ⟨r, r, 1, 0, 0, 0, 2⟩

/-- Boundaries of a robot without links, one arena and one obstacle. -/
theorem cspaceBoundary_single (T : Tree2) (h : T.numLinks = 0) (a o : SuperEllipse) :
    cspaceBoundary T [a] [o] = .ok ⟨[toPts (a.minkSum2D T.base (-1))], [toPts (o.minkSum2D T.base 1)]⟩ := by
  simp [cspaceBoundary, bodyBoundaries, Tree2.minkSum, h]

/-- The first point of the C-obstacle of the unit circle, for an ellipse turned by 0 or by a quarter. -/
theorem minkPoint_circle_flat (B : SuperEllipse) (ha : 0 < B.a) (h : B.ang = 0) :
    (exCircle 1).minkPoint B 1 0 0 = 1 + B.a := by
  have hT : B.tinv 1 = diagonal ![B.a, B.b] := by
    unfold SuperEllipse.tinv
    rw [h]
    ext i j; fin_cases i <;> fin_cases j <;> simp [rot2, Matrix.mul_apply, Fin.sum_univ_two, Matrix.vecMul_diagonal]
  unfold SuperEllipse.minkPoint
  simp only [exCircle, min_self, hT]
  have e1 : (diagonal ![B.a, B.b] *ᵥ (rot2 0 *ᵥ (SuperEllipse.gradPhi ⟨1, 1, 1, 0, 0, 0, 2⟩ 0)) : Fin 2 → ℝ) = ![2 * B.a, 0] := by
    ext i; fin_cases i <;> simp [rot2, SuperEllipse.gradPhi, expFun, sgn, Matrix.mulVec, dotProduct, Fin.sum_univ_two,
      Matrix.diagonal] <;> norm_num <;> ring
  rw [e1]
  have e2 : vnorm ![2 * B.a, 0] = 2 * B.a := by
    unfold vnorm
    rw [show (![2 * B.a, 0] : Fin 2 → ℝ) ⬝ᵥ ![2 * B.a, 0] = (2 * B.a) ^ 2 by simp [dotProduct, Fin.sum_univ_two]; ring]
    exact Real.sqrt_sq (by linarith)
  rw [e2]
  simp [SuperEllipse.originPoint, rot2, expFun, sgn, Matrix.mulVec, dotProduct, Fin.sum_univ_two]
  field_simp
  rw [if_neg (by norm_num)]; simp [Matrix.vecHead]

theorem minkPoint_circle_upright (B : SuperEllipse) (hb : 0 < B.b) (h : B.ang = Real.pi / 2) :
    (exCircle 1).minkPoint B 1 0 0 = 1 + B.b := by
  have hT : B.tinv 1 = diagonal ![B.b, B.a] := by
    unfold SuperEllipse.tinv
    rw [h]
    ext i j; fin_cases i <;> fin_cases j <;> simp [rot2, Matrix.mul_apply, Fin.sum_univ_two, Matrix.vecMul_diagonal]
  unfold SuperEllipse.minkPoint
  simp only [exCircle, min_self, hT]
  have e1 : (diagonal ![B.b, B.a] *ᵥ (rot2 0 *ᵥ (SuperEllipse.gradPhi ⟨1, 1, 1, 0, 0, 0, 2⟩ 0)) : Fin 2 → ℝ) = ![2 * B.b, 0] := by
    ext i; fin_cases i <;> simp [rot2, SuperEllipse.gradPhi, expFun, sgn, Matrix.mulVec, dotProduct, Fin.sum_univ_two,
      Matrix.diagonal] <;> norm_num <;> ring
  rw [e1]
  have e2 : vnorm ![2 * B.b, 0] = 2 * B.b := by
    unfold vnorm
    rw [show (![2 * B.b, 0] : Fin 2 → ℝ) ⬝ᵥ ![2 * B.b, 0] = (2 * B.b) ^ 2 by simp [dotProduct, Fin.sum_univ_two]; ring]
    exact Real.sqrt_sq (by linarith)
  rw [e2]
  simp [SuperEllipse.originPoint, rot2, expFun, sgn, Matrix.mulVec, dotProduct, Fin.sum_univ_two]
  field_simp
  rw [if_neg (by norm_num)]; simp [Matrix.vecHead]

noncomputable def exPar36 : Param2 := ⟨3, 2, 5, 10, 1, -10, 10, -10, 10⟩

/-- C36 is false, whatever the (conforming) libraries: with three slices, the robot of semi-axes 2 and 1, in a
round arena with one round obstacle, the boundary stored for the middle slice (heading 0) is not that of the robot
at heading 0. -/
theorem C36_refuted (sort : StdSort ℝ) (qr : QrSolve ℝ) (svd : SvdFun 2) (pick : ℕ → (ℕ → ℝ) → List ℕ → ℕ) :
    ∃ dmin dmax, ¬ C36_claim ⟨sort, dmin, dmax, qr, svd, pick⟩ := by
  have hr := run_inv_of (base := exRobot36) (ops := []) (robot := Tree2.new exRobot36) rfl
  obtain ⟨B, hB, -⟩ := cspaceBoundary_ok hr [exCircle 20] [exCircle 1]
  obtain ⟨M, hM0, hM⟩ := polys_bounded B.arena
  refine ⟨-(max M 10), max M 10, fun H => ?_⟩
  have h1 := le_max_left M 10
  have h2 := le_max_right M 10
  obtain ⟨P, r, e, hi⟩ := build_total (L := ⟨sort, -(max M 10), max M 10, qr, svd, pick⟩) (start := [0, 0, 0])
    (goal := [0, 0, 0]) (par := exPar36) hr hB (by simp [exPar36]) (by simp [exPar36]) (by simp [exPar36])
    (by simp [exPar36]) (by simp [exCircle]) (by simp only [exPar36]; linarith) (by simp only [exPar36]; linarith)
    (fun sh hsh v hv => by have := hM sh hsh v hv; simp only; exact ⟨by linarith, by linarith⟩)
  obtain ⟨T, t1, t2⟩ := H exRobot36 [] _ [exCircle 20] [exCircle 1] [0, 0, 0] [0, 0, 0] exPar36 P 1 B rfl e
    (by simp [exPar36]) (by rw [hi.bounds]; simp [exPar36])
  have h0 : heading exPar36.numSlice 1 = 0 := by simp [heading, exPar36]; ring
  rw [h0, setTransform2_eq hr] at t1
  obtain rfl := (Res.ok.injEq _ _).mp t1
  rw [← hB, cspaceBoundary_single _ rfl, cspaceBoundary_single _ rfl] at t2
  have t3 := congrArg Bound2.obstacle ((Res.ok.injEq _ _).mp t2)
  have hs : ∀ F : SuperEllipse, toPts ((exCircle 1).minkSum2D F 1) =
      [(((exCircle 1).minkPoint F 1 0) 0, ((exCircle 1).minkPoint F 1 0) 1),
       (((exCircle 1).minkPoint F 1 ((exCircle 1).theta 1)) 0, ((exCircle 1).minkPoint F 1 ((exCircle 1).theta 1)) 1)] := by
    intro F
    have h0 : (exCircle 1).theta 0 = 0 := by simp [SuperEllipse.theta]
    have h2 : (exCircle 1).num = 2 := rfl
    unfold toPts SuperEllipse.minkSum2D
    rw [h2]
    simp [List.range_succ, h0]
  simp only [List.cons.injEq, and_true, hs, Prod.mk.injEq] at t3
  have t4 := t3.1.1
  rw [minkPoint_circle_flat _ (by simp [Tree2.posed, Tree2.place, exRobot36])
      (by simp only [Tree2.posed, Tree2.place]; exact matAngle_rot2 (by linarith [Real.pi_pos]) Real.pi_pos.le),
    minkPoint_circle_upright _ (by simp [Tree2.new, exRobot36]) (by simp [Tree2.new, exRobot36])] at t4
  simp [Tree2.posed, Tree2.place, Tree2.new, exRobot36] at t4

/-! ## C53 – the check between two slices -/

/-- The swept ellipse `E` of a body centred at `p` is clear of the obstacles, as far as the point test on the
obstacle boundaries grown by `E` can tell. -/
def SweptClear (obs : List SuperEllipse) (E : SuperEllipse) (p : Pt ℝ) : Prop :=
  isPtInCFree2D p (bridgeBound obs E) = .ok true

/-- At step `k` of `np` from `(x1, y1, t1)` to `(x2, y2, t2)`, between the headings `ha` and `hb`: the ellipse that
encloses the base at all headings in between is clear, and so is that of every link. -/
def StepClear (L : Libs2) (obs : List SuperEllipse) (base : SuperEllipse) (added : List SuperEllipse) (np : ℕ)
    (ha hb x1 y1 t1 x2 y2 t2 : ℝ) (k : ℕ) : Prop :=
  (∃ E, getTFE2D L.svd ![base.a, base.b] ha hb np base.num = some E ∧
    SweptClear obs E (onWay np k x1 x2, onWay np k y1 y2)) ∧
  ∀ l ∈ added, ∃ E, getTFE2D L.svd ![l.a, l.b] (matAngle (rot2 ha * rot2 l.ang)) (matAngle (rot2 hb * rot2 l.ang)) np
      l.num = some E ∧
    SweptClear obs E (centreAt l (onWay np k x1 x2) (onWay np k y1 y2) (onWay np k t1 t2))

/-- C53 as claimed: the check returns a verdict, which is `true` exactly when every one of at least one step is
clear. -/
def C53_claim (L : Libs2) : Prop :=
  ∀ (base : SuperEllipse) (ops : List (RobotOp SuperEllipse 2)) (robot : Tree2) (arena obs : List SuperEllipse)
    (start goal : Vec) (par : Param2) (i j : ℕ) (x1 y1 t1 x2 y2 t2 : ℝ),
    Tree2.run ops (Tree2.new base) = .ok robot → (∀ o ∈ obs, o.num ≠ 0) → par.numSlice ≠ 1 → i < par.numSlice →
    j < par.numSlice →
    ∃ b, (Planner2.new robot arena obs start goal par).sampleOrientations.freeMulti L i j [x1, y1, t1] [x2, y2, t2]
        = .ok b ∧
      (b = true ↔ 0 < par.numPoint ∧ ∀ k < par.numPoint, StepClear L obs base (addedBodies ops) par.numPoint
        (heading par.numSlice i) (heading par.numSlice j) x1 y1 t1 x2 y2 t2 k)

/-- C53 is false: with `numPoint = 0` no step is checked and every transition is accepted. -/
theorem C53_refuted (L : Libs2) : ¬ C53_claim L := by
  intro H
  have hrun : Tree2.run [] (Tree2.new exRobot36) = .ok (Tree2.new exRobot36) := rfl
  have hr := run_inv_of hrun
  have hn : (3 : ℕ) ≠ 1 := by norm_num
  have h0 : (0 : ℕ) < 3 := by norm_num
  have h1 : (1 : ℕ) < 3 := by norm_num
  obtain ⟨b, e, hb⟩ := H exRobot36 [] _ [] [] [] [] ⟨3, 2, 0, 10, 1, -10, 10, -10, 10⟩ 0 1 0 0 0 1 1 1 hrun
    (by simp) hn h0 h1
  obtain ⟨b', e', hb'⟩ := freeMulti_eq (L := L) (arena := []) (obs := []) (start := []) (goal := [])
    (par := ⟨3, 2, 0, 10, 1, -10, 10, -10, 10⟩) hr (by simp) (by simp) hn h0 h1 0 0 0 1 1 1
  rw [e] at e'
  obtain rfl := (Res.ok.injEq _ _).mp e'
  have : b = true := hb'.2 (by intro k hk; exact absurd hk (by simp))
  exact absurd (hb.1 this).1 (by simp)

/-- C53, the part that holds: for two interpolation points or more (or none) the check returns, and its verdict is
`true` exactly when every step is clear, for the base and for every link. Missing: `numPoint = 1` (the step size
is a division by zero; not modelled). -/
theorem C53_planar_check_partial (L : Libs2) (base : SuperEllipse) (ops : List (RobotOp SuperEllipse 2)) (robot : Tree2)
    (hrun : Tree2.run ops (Tree2.new base) = .ok robot) (arena obs : List SuperEllipse) (hobs : ∀ o ∈ obs, o.num ≠ 0)
    (start goal : Vec) (par : Param2) (hnp : par.numPoint ≠ 1) (hn : par.numSlice ≠ 1) (i j : ℕ)
    (hi : i < par.numSlice) (hj : j < par.numSlice) (x1 y1 t1 x2 y2 t2 : ℝ) :
    ∃ b, (Planner2.new robot arena obs start goal par).sampleOrientations.freeMulti L i j [x1, y1, t1] [x2, y2, t2]
        = .ok b ∧
      (b = true ↔ ∀ k < par.numPoint, StepClear L obs base (addedBodies ops) par.numPoint
        (heading par.numSlice i) (heading par.numSlice j) x1 y1 t1 x2 y2 t2 k) := by
  obtain ⟨b, e, hb⟩ := freeMulti_eq (L := L) (arena := arena) (start := start) (goal := goal) (run_inv_of hrun) hobs hnp
    hn hi hj x1 y1 t1 x2 y2 t2
  refine ⟨b, e, hb.trans ?_⟩
  constructor
  · intro h k hk
    obtain ⟨h1, h2⟩ := h k hk
    exact ⟨⟨_, tfeOf_some hnp _ _ _ _, h1⟩, fun l hl => ⟨_, tfeOf_some hnp _ _ _ _, h2 l hl⟩⟩
  · intro h k hk
    obtain ⟨⟨E, e1, h1⟩, h2⟩ := h k hk
    rw [tfeOf_some hnp] at e1
    obtain rfl := Option.some.inj e1
    refine ⟨h1, fun l hl => ?_⟩
    obtain ⟨E, e2, h3⟩ := h2 l hl
    rw [tfeOf_some hnp] at e2
    obtain rfl := Option.some.inj e2
    exact h3

/-- What `SweptClear` means for convex boundaries: at its own height the point is not strictly inside any of
them. -/
theorem C53_swept_clear (obs : List SuperEllipse) (E : SuperEllipse) (p : Pt ℝ)
    (hcv : ∀ sh ∈ bridgeBound obs E, sh ≠ [] ∧ ConvexPolygon sh)
    (hv : ∀ sh ∈ bridgeBound obs E, ∀ w ∈ sh, w.2 ≠ p.2) :
    SweptClear obs E p ↔ ∀ sh ∈ bridgeBound obs E, ¬ InSlice sh p := by
  obtain ⟨b, e, hb⟩ := C60_point_in_cfree p _ hcv hv
  unfold SweptClear
  rw [e, Res.ok.injEq]
  have : b = true ↔ ¬ b = false := by cases b <;> simp
  rw [this, hb]
  unfold InSlice
  push Not
  rfl

/-! ## C71 – one call of `plan`, from the input to the returned path -/

/-- A configuration sampled by the planner: on some sweep line, in the middle of a free interval of that line, at
one of the headings. -/
def Sampled (par : Param2) (rows : List (SegRow ℝ)) (v : Vec) : Prop :=
  ∃ (i : ℕ) (k : ℕ) (y : ℝ) (r : SegRow ℝ) (x : ℝ), i < par.numSlice ∧ par.lines[k]? = some y ∧ rows[k]? = some r ∧
    x ∈ r.M ∧ v = [x, y, heading par.numSlice i]

/-- Why the step from `a` to `b` is in the roadmap: they have one heading and the same-slice check against the obstacle
boundaries accepted the step; or they have the headings of two slices, the check made for these two slices accepted the
step, and they are at most two line distances (extent by number of lines) apart in `y`; or they are neighbouring free intervals of one sweep line. -/
def StepChecked (L : Libs2) (P : Planner2) (B : Bound2) (rows : List (SegRow ℝ)) (a b : Vec) : Prop :=
  EdgeOrigin (fun i => onlyNear (AtHeading (heading P.par.numSlice i)) (sameFree2 L B.obstacle))
    (fun i j => onlyNear (fun a b => FromToHeading (heading P.par.numSlice i) (heading P.par.numSlice j) a b ∧
      CloseIn 1 (2 * |P.par.yHi - P.par.yLo| / P.par.numLineY) a b) (P.sampleOrientations.freeMulti L i j))
    (fun i => RowNeighbours (fun y x => [x, y, heading P.par.numSlice i]) ⟨P.par.lines, rows⟩) P.par.numSlice a b

theorem nearest2D_ids {hs : List ℝ} {verts : List Vec} {q : Vec} {k : ℕ} {radius gap : ℝ} {ids : List ℕ}
    (hdim : ∀ v ∈ verts, v.length = 3) (hq : q.length = 3) (h : nearest2D hs verts q k radius gap = .ok ids) :
    verts ≠ [] ∧ ∀ i ∈ ids, i < verts.length := by
  have hne : verts ≠ [] := by
    rintro rfl
    exact nomatch h
  refine ⟨hne, ?_⟩
  obtain ⟨ids', m, e, -, -, -, h5, -⟩ := C52_nearest2D_partial hs verts q k radius gap hne hdim hq
  rw [h] at e
  obtain rfl := (Res.ok.injEq _ _).mp e
  intro i hi
  obtain ⟨v, -, hv, -⟩ := h5 i hi
  exact (List.getElem?_eq_some_iff.1 hv).1

theorem Graph.IsPath.mem_lt {g : Graph} {dim : ℕ} (hg : g.Ok dim) {l : List ℕ} {len : ℝ} (h : g.IsPath l len) :
    ∀ i ∈ l, i < g.vertex.length := by
  induction h with
  | single a ha => intro i hi; obtain rfl := List.mem_singleton.1 hi; exact ha
  | cons a b l w len _ hj ih =>
    intro i hi
    rcases List.mem_cons.1 hi with rfl | hi
    · obtain ⟨k, hw, he⟩ := hj
      rcases he with he | he
      · obtain ⟨x, y, h1, h2, -⟩ := hg.edges k _ w he hw
        exact (List.getElem?_eq_some_iff.1 h1).1
      · obtain ⟨x, y, h1, h2, -⟩ := hg.edges k _ w he hw
        exact (List.getElem?_eq_some_iff.1 h2).1
    · exact ih i hi

/-- C71: whatever the robot (built by public calls), the obstacles, the parameters, the clock and the time limit:
if `plan` on a new planner returns and reports success, then the stored path starts at the start configuration,
ends at the goal configuration, visits in between only sampled configurations, and every step between two of these
was accepted by a check. (The first and the last step are not checked: see C31.) -/
theorem C71_planar_plan_end_to_end (L : Libs2) (hpick : HeapTop L.pick) (base : SuperEllipse)
    (ops : List (RobotOp SuperEllipse 2)) (robot : Tree2) (hrun : Tree2.run ops (Tree2.new base) = .ok robot)
    (arena obs : List SuperEllipse) (hne : arena ≠ [] ∨ obs ≠ []) (start goal : Vec) (hs : start.length = 3)
    (hg : goal.length = 3) (par : Param2) (clock : ℕ → ℝ) (timeLim : ℝ) (fuel : ℕ) (r' : PlanRep Planner2)
    (h : Planner2.plan L clock timeLim fuel (freshRep (.new robot arena obs start goal par)) = some (.ok r'))
    (hsol : r'.st.res.solved = true) :
    ∃ B rows mid, cspaceBoundary robot arena obs = .ok B ∧
      sweep2D L.sort L.dmin L.dmax par.xLo par.xHi B.arena B.obstacle par.lines = .ok rows ∧
      r'.solvedPath = start :: (mid ++ [goal]) ∧ mid ≠ [] ∧ (∀ v ∈ mid, Sampled par rows v) ∧
      ∀ (k : ℕ) (a b : Vec), mid[k]? = some a → mid[k + 1]? = some b →
        StepChecked L (.new robot arena obs start goal par) B rows a b ∨
        StepChecked L (.new robot arena obs start goal par) B rows b a := by
  have hr := run_inv_of hrun
  obtain ⟨B, hB, -⟩ := cspaceBoundary_ok hr arena obs
  obtain ⟨P, hb, hsr, h0, hpath, -⟩ := plan_fresh hr hB hne h
  obtain ⟨hn1, hl1, rows, r, hrows, hbr, hi⟩ := build_inv hr hB h0 hb
  obtain ⟨hh, s, t, res, -, n1, n2, hse, hQ⟩ := search_ok hsr
  have hok := C23_build2D _ _ _ _ _ _ r.1 r.2 hbr
  have hed := C24_edges_near_2D _ _ _ _ _ _ r.1 r.2 hbr
  have hvs := C65_planar_vertices_are_samples _ _ _ _ _ _ r.1 r.2 hbr
  rw [hi.graph, hi.start] at n1
  rw [hi.graph, hi.goal] at n2
  rw [hi.graph, hi.res] at hse
  obtain ⟨hvne, hS⟩ := nearest2D_ids hok.dims hs n1
  obtain ⟨-, hT⟩ := nearest2D_ids hok.dims hg n2
  have hsol' : res.solved = true := by rw [hQ] at hsol; exact hsol
  have hgp := hpath hsol
  rw [hQ] at hgp
  have hgp' : getSolutionPath r.1 start goal res.pathId = .ok r'.solvedPath := by
    have e1 := hi.graph
    have e2 := hi.start
    have e3 := hi.goal
    change getSolutionPath P.graph P.start P.goal res.pathId = _ at hgp
    rw [e1, e2, e3] at hgp
    exact hgp
  obtain ⟨s0, hs0, t0, ht0, len, hpb, -⟩ := C27_search_returns_path hok hpick hS hT ⟨rfl, rfl⟩ hse hsol'
  have hids : ∀ i ∈ res.pathId, i < r.1.vertex.length := by
    exact hpb.1.mem_lt hok
  obtain ⟨path, mid, p1, p2, p3, p4, -⟩ := C30_solution_path hok.dims start goal res.pathId hids hvne
  rw [hgp'] at p1
  obtain rfl := (Res.ok.injEq _ _).mp p1
  have hres : ∀ v : Vec, v.length = 3 → resize v 3 = v := by
    intro v hv
    obtain ⟨x, y, z, rfl⟩ := vec3 hv
    simp [resize]
  rw [hres start hs, hres goal hg] at p2
  have hmid : ∀ v ∈ mid, v ∈ r.1.vertex := by
    intro v hv
    obtain ⟨k, hk⟩ := List.mem_iff_getElem?.1 hv
    have hkl : k < res.pathId.length := by rw [← p3]; exact (List.getElem?_eq_some_iff.1 hk).1
    have := p4 k _ (List.getElem?_eq_getElem hkl)
    rw [hk] at this
    exact List.mem_of_getElem? this.symm
  refine ⟨B, rows, mid, hB, hrows, p2, ?_, ?_, ?_⟩
  · intro hm
    rw [hm] at p3
    have := List.length_eq_zero_iff.1 p3.symm
    have hhd := hpb.2.1
    rw [this] at hhd
    exact nomatch hhd
  · intro v hv
    have := hmid v hv
    rw [hvs] at this
    obtain ⟨i, hi', hv2⟩ := List.mem_flatMap.1 this
    obtain ⟨row, hrow, hv3⟩ := List.mem_flatten.1 hv2
    obtain ⟨k, hk⟩ := List.mem_iff_getElem?.1 hrow
    rw [List.getElem?_zipWith] at hk
    cases hy : par.lines[k]? with
    | none => simp [hy] at hk
    | some y =>
      cases hrk : rows[k]? with
      | none => simp [hy, hrk] at hk
      | some rw' =>
        simp only [hy, hrk, Option.some.injEq] at hk
        rw [← hk] at hv3
        obtain ⟨x, hx, rfl⟩ := List.mem_map.1 hv3
        exact ⟨i, k, y, rw', x, List.mem_range.1 hi', hy, hrk, hx, rfl⟩
  · intro k a b ha hb'
    have hk2 : k + 1 < mid.length := (List.getElem?_eq_some_iff.1 hb').1
    refine C31_inner_steps_checked_partial hok hed start goal hpb r'.solvedPath hgp' (k + 1) (by omega)
      (by rw [p2]; simp; omega) a b ?_ ?_
    · rw [p2, List.getElem?_cons_succ, List.getElem?_append_left (by omega)]; exact ha
    · rw [p2, List.getElem?_cons_succ, List.getElem?_append_left hk2]; exact hb'

/-- C71, geometry of the sampled configurations: they lie on the sweep lines between `yLo` and `yHi`, and if the
obstacle boundaries are convex polygons without a vertex on a sweep line, then at its height no sampled
configuration is strictly inside one of them. -/
theorem C71_sampled_outside (L : Libs2) (par : Param2) (hl : 2 ≤ par.numLineY) (hy : par.yLo ≤ par.yHi) (B : Bound2)
    (harena : B.arena ≠ []) (hlow : L.dmin ≤ par.xLo) (hup : par.xHi ≤ L.dmax)
    (hb : ∀ sh ∈ B.arena, ∀ v ∈ sh, L.dmin ≤ v.1 ∧ v.1 ≤ L.dmax)
    (hcv : ∀ sh ∈ B.obstacle, sh ≠ [] ∧ ConvexPolygon sh)
    (hv : ∀ sh ∈ B.obstacle, ∀ y ∈ par.lines, ∀ v ∈ sh, v.2 ≠ y) (rows : List (SegRow ℝ))
    (hrows : sweep2D L.sort L.dmin L.dmax par.xLo par.xHi B.arena B.obstacle par.lines = .ok rows) (v : Vec)
    (h : Sampled par rows v) :
    ∃ x y th, v = [x, y, th] ∧ par.yLo ≤ y ∧ y ≤ par.yHi ∧ (∃ i < par.numSlice, th = heading par.numSlice i) ∧
      ∀ sh ∈ B.obstacle, ¬ InSlice sh (x, y) := by
  obtain ⟨i, k, y, r, x, hi, hyk, hrk, hx, rfl⟩ := h
  obtain ⟨rows', e, e1, e2⟩ := C60_sweep2D_exact L.sort L.dmin L.dmax par.xLo par.xHi hlow hup B.arena B.obstacle
    par.lines (lines_ne (by omega)) harena hb hcv hv
  rw [hrows] at e
  obtain rfl := (Res.ok.injEq _ _).mp e
  obtain ⟨rows', e, -, e3⟩ := sweep2D_ok L.sort L.dmin L.dmax par.xLo par.xHi hlow hup B.arena B.obstacle
    par.lines (lines_ne (by omega)) hb
  rw [hrows] at e
  obtain rfl := (Res.ok.injEq _ _).mp e
  obtain ⟨T, t1, t2, t3, t4⟩ := e3 r (List.mem_of_getElem? hrk)
  obtain ⟨hk1, hk2⟩ := List.getElem?_eq_some_iff.1 hyk
  have hkn : k < par.numLineY := by simpa using hk1
  have hyv : y = par.yLo + (k : ℝ) * ((par.yHi - par.yLo) / ((par.numLineY : ℝ) - 1)) := by
    rw [← hk2]; simp [Param2.lines]
  have hn1 : (0 : ℝ) < (par.numLineY : ℝ) - 1 := by
    have : (2 : ℝ) ≤ par.numLineY := by exact_mod_cast hl
    linarith
  have hkle : (k : ℝ) ≤ (par.numLineY : ℝ) - 1 := by
    have : (k : ℝ) + 1 ≤ par.numLineY := by exact_mod_cast hkn
    linarith
  have hq : 0 ≤ (par.yHi - par.yLo) / ((par.numLineY : ℝ) - 1) := div_nonneg (by linarith) hn1.le
  refine ⟨x, y, _, rfl, ?_, ?_, ⟨i, hi, rfl⟩, ?_⟩
  · rw [hyv]
    have : 0 ≤ (k : ℝ) * ((par.yHi - par.yLo) / ((par.numLineY : ℝ) - 1)) := mul_nonneg (Nat.cast_nonneg k) hq
    linarith
  · rw [hyv]
    have h1 := mul_le_mul_of_nonneg_right hkle hq
    have h2 : ((par.numLineY : ℝ) - 1) * ((par.yHi - par.yLo) / ((par.numLineY : ℝ) - 1)) = par.yHi - par.yLo := by
      field_simp
    linarith
  · rw [t2] at hx
    obtain ⟨t, ht, rfl⟩ := List.mem_map.1 hx
    obtain ⟨m, hm⟩ := List.mem_iff_getElem?.1 ht
    exact (e2 k y r hyk hrk).1 m t.1 t.2.2 t.2.1 (by rw [t1, List.getElem?_map, hm]; rfl)
      (by rw [t3, List.getElem?_map, hm]; rfl) (t4 t ht).1 (t4 t ht).2

/-! ## C72 – planning again with the same planner -/

theorem constructOneSlice_idx {L : Libs2} {P Q : Planner2} {i : ℕ} (h : P.constructOneSlice L i = .ok Q) :
    Q.vertexIdx.length = P.vertexIdx.length + 1 ∧ Q.par = P.par := by
  unfold Planner2.constructOneSlice at h
  cases hp : P.placeSlice i with
  | throw => rw [hp] at h; exact nomatch h
  | ub => rw [hp] at h; exact nomatch h
  | ok P1 =>
    have h1 : P1.vertexIdx = P.vertexIdx ∧ P1.par = P.par := by
      unfold Planner2.placeSlice at hp
      cases ha : Res.at' P.headings i with
      | throw => rw [ha] at hp; exact nomatch hp
      | ub => rw [ha] at hp; exact nomatch hp
      | ok hd =>
        rw [ha, Res.bind_ok'] at hp
        cases hd with
        | none => exact nomatch hp
        | some th =>
          dsimp only at hp
          cases ht : setTransform2 P.robot [0, 0, th] with
          | throw => rw [ht] at hp; exact nomatch hp
          | ub => rw [ht] at hp; exact nomatch hp
          | ok T =>
            rw [ht, Res.bind_ok'] at hp
            split at hp
            · cases hb : Res.at' P.sliceBoundAll i with
              | throw => rw [hb] at hp; exact nomatch hp
              | ub => rw [hb] at hp; exact nomatch hp
              | ok b => rw [hb] at hp; obtain rfl := (Res.ok.injEq _ _).mp hp; exact ⟨rfl, rfl⟩
            · cases hb : cspaceBoundary P.fs.robot P.arena P.obs with
              | throw => rw [hb] at hp; exact nomatch hp
              | ub => rw [hb] at hp; exact nomatch hp
              | ok b => rw [hb] at hp; obtain rfl := (Res.ok.injEq _ _).mp hp; exact ⟨rfl, rfl⟩
    rw [hp, Res.bind_ok'] at h
    cases hs : P1.fs.sweep L P1.par with
    | throw => rw [hs] at h; exact nomatch h
    | ub => rw [hs] at h; exact nomatch h
    | ok s =>
      rw [hs, Res.bind_ok'] at h
      cases hc : constructSlice2D (sameFree2 L P1.sliceBound.obstacle) P1.robot.base.ang s.2 P1.graph with
      | throw => rw [hc] at h; exact nomatch h
      | ub => rw [hc] at h; exact nomatch h
      | ok r =>
        rw [hc, Res.bind_ok'] at h
        obtain rfl := (Res.ok.injEq _ _).mp h
        exact ⟨by simp [h1.1], h1.2⟩

theorem slices_idx {L : Libs2} (l : List ℕ) : ∀ {P Q : Planner2},
    l.foldlM (fun (P : Planner2) i => P.constructOneSlice L i) P = .ok Q →
    Q.vertexIdx.length = P.vertexIdx.length + l.length ∧ Q.par = P.par := by
  induction l with
  | nil => intro P Q h; obtain rfl := (Res.ok.injEq _ _).mp h; exact ⟨rfl, rfl⟩
  | cons i l ih =>
    intro P Q h
    rw [List.foldlM_cons] at h
    cases hc : P.constructOneSlice L i with
    | throw => rw [hc] at h; exact nomatch h
    | ub => rw [hc] at h; exact nomatch h
    | ok P1 =>
      rw [hc] at h
      obtain ⟨a1, a2⟩ := constructOneSlice_idx hc
      obtain ⟨b1, b2⟩ := ih h
      exact ⟨by rw [b1, a1, List.length_cons]; omega, b2.trans a2⟩

/-- Building on a planner that already has slices never returns. -/
theorem C72_rebuild_fails (L : Libs2) (P : Planner2) (hidx : P.vertexIdx ≠ []) (hn : 1 ≤ P.par.numSlice) (Q : Planner2) :
    P.build L ≠ .ok Q := by
  intro h
  unfold Planner2.build at h
  cases hf : (List.range P.par.numSlice).foldlM (fun (P : Planner2) i => P.constructOneSlice L i)
      P.sampleOrientations with
  | throw => rw [hf] at h; exact nomatch h
  | ub => rw [hf] at h; exact nomatch h
  | ok P1 =>
    rw [hf, Res.bind_ok'] at h
    obtain ⟨h1, h2⟩ := slices_idx _ hf
    have hpos := List.length_pos_iff.2 hidx
    have hlen : P1.vertexIdx.length = P.vertexIdx.length + P.par.numSlice := by rw [h1]; simp [Planner2.sampleOrientations]
    have hpar : P1.par.numSlice = P.par.numSlice := by rw [h2]; rfl
    unfold Planner2.connectMultiSlice connectMultiSlice2D at h
    rw [if_neg (by omega)] at h
    obtain ⟨m, hm⟩ : ∃ m, P1.vertexIdx.length = m + 1 := ⟨P1.vertexIdx.length - 1, by omega⟩
    rw [hm, List.range_succ, List.foldlM_append] at h
    cases hg : (List.range m).foldlM (multiStep2D (P1.freeMulti L) P1.par.gapY P1.par.numSlice P1.vertexIdx) P1.graph with
    | throw => rw [hg] at h; exact nomatch h
    | ub => rw [hg] at h; exact nomatch h
    | ok g =>
      rw [hg] at h
      change ((List.foldlM (multiStep2D (P1.freeMulti L) P1.par.gapY P1.par.numSlice P1.vertexIdx) g [m]).bind _) = _ at h
      rw [List.foldlM_cons] at h
      have hlast : multiStep2D (P1.freeMulti L) P1.par.gapY P1.par.numSlice P1.vertexIdx g m = .throw := by
        unfold multiStep2D partner2D
        rw [if_neg (by omega), Res.at'_eq_ok.2 (List.getElem?_eq_getElem (by omega : m < P1.vertexIdx.length)), Res.bind_ok']
        have : Res.at' P1.vertexIdx (m + 1) = .throw := by
          unfold Res.at'
          rw [List.getElem?_eq_none (by omega)]
        rw [this]; rfl
      rw [hlast] at h
      exact nomatch h

/-- C72: after a first call of `plan` that returned – solved or not – no later call of `plan` on the same planner
returns normally, whatever the libraries, the clock and the limits of the second call. -/
theorem C72_second_plan_fails (L L' : Libs2) (base : SuperEllipse)
    (ops : List (RobotOp SuperEllipse 2)) (robot : Tree2) (hrun : Tree2.run ops (Tree2.new base) = .ok robot)
    (arena obs : List SuperEllipse) (hne : arena ≠ [] ∨ obs ≠ []) (start goal : Vec) (par : Param2)
    (clock clock' : ℕ → ℝ) (timeLim timeLim' : ℝ) (fuel fuel' : ℕ) (r' r'' : PlanRep Planner2)
    (h : Planner2.plan L clock timeLim fuel (freshRep (.new robot arena obs start goal par)) = some (.ok r')) :
    Planner2.plan L' clock' timeLim' fuel' r' ≠ some (.ok r'') := by
  intro h'
  have hr := run_inv_of hrun
  obtain ⟨B, hB, -⟩ := cspaceBoundary_ok hr arena obs
  obtain ⟨P, hb, hsr, h0, -⟩ := plan_fresh hr hB hne h
  obtain ⟨hn1, hl1, rows, r, hrows, hbr, hi⟩ := build_inv hr hB h0 hb
  obtain ⟨hh, s, t, res, -, n1, n2, hse, hQ⟩ := search_ok hsr
  obtain ⟨r1, r2, h1, -, -⟩ := plan_core h'
  unfold timedBuild at h1
  change ((r'.st.build L').bind _).bind _ = _ at h1
  cases hb2 : r'.st.build L' with
  | throw => rw [hb2] at h1; exact nomatch h1
  | ub => rw [hb2] at h1; exact nomatch h1
  | ok Q =>
    refine C72_rebuild_fails L' r'.st ?_ ?_ Q hb2
    · rw [hQ]
      change P.vertexIdx ≠ []
      obtain ⟨h3, h4⟩ := (show P.vertexIdx.length = par.numSlice ∧ True from by
        unfold Planner2.build at hb
        cases hf : (List.range (Planner2.new robot arena obs start goal par).par.numSlice).foldlM
            (fun (P : Planner2) i => P.constructOneSlice L i)
            (Planner2.new robot arena obs start goal par).sampleOrientations with
        | throw => rw [hf] at hb; exact nomatch hb
        | ub => rw [hf] at hb; exact nomatch hb
        | ok P1 =>
          rw [hf, Res.bind_ok'] at hb
          obtain ⟨a1, -⟩ := slices_idx _ hf
          unfold Planner2.connectMultiSlice at hb
          cases hc : connectMultiSlice2D (P1.freeMulti L) P1.par.gapY P1.par.numSlice P1.vertexIdx P1.graph with
          | throw => rw [hc] at hb; exact nomatch hb
          | ub => rw [hc] at hb; exact nomatch hb
          | ok g =>
            rw [hc] at hb
            obtain rfl := (Res.ok.injEq _ _).mp hb
            refine ⟨?_, trivial⟩
            change P1.vertexIdx.length = _
            rw [a1]; simp [Planner2.sampleOrientations, Planner2.new])
      intro e
      rw [e] at h3
      exact h0 h3.symm
    · rw [hQ]
      change 1 ≤ P.par.numSlice
      rw [hi.par]
      change 1 ≤ par.numSlice
      omega

/-! ## A planner that succeeds (the hypotheses of C71 and C72 can be met) -/

theorem realHeadings_some (l : List ℝ) : realHeadings (l.map some) = .ok l := by
  have : ∀ (l acc : List ℝ), (l.map some).foldlM (fun acc h => match h with
      | some h => Res.ok (acc ++ [h])
      | none => .ub) acc = .ok (acc ++ l) := by
    intro l
    induction l with
    | nil => intro acc; simp
    | cons a l ih => intro acc; rw [List.map_cons, List.foldlM_cons]; change List.foldlM _ (acc ++ [a]) _ = _; rw [ih]; simp
  exact this l []

/-- If everything is within the radii, the query returns at least one vertex. -/
theorem nearest2D_nonempty {hs : List ℝ} {verts : List Vec} {q : Vec} {k : ℕ} {radius gap : ℝ} (hk : 1 ≤ k)
    (hne : verts ≠ []) (hdim : ∀ v ∈ verts, v.length = 3) (hq : q.length = 3) (hh : hs ≠ [])
    (hrad : ∀ h ∈ hs, ∀ v ∈ verts, |coord v 2 - h| < radius) (hgap : ∀ v ∈ verts, |coord q 1 - coord v 1| < gap) :
    ∃ ids, nearest2D hs verts q k radius gap = .ok ids ∧ ids ≠ [] := by
  have hpos : 0 < verts.length := List.length_pos_iff.2 hne
  have h0 : Res.idx verts 0 = .ok verts[0] := Res.idx_eq_ok.2 (List.getElem?_eq_getElem hpos)
  obtain ⟨m, v, hm, hv, hv2, hmin⟩ := closestHeading_spec hne hdim (coord q 2)
  obtain ⟨a, hs', rfl⟩ := List.exists_cons_of_ne_nil hh
  have hcol : ∃ l, collectK (fun h => |m - h| < radius) k [] (a :: hs') = a :: l := by
    rw [collectK_eq _ _ _ (by simp; omega)]
    obtain ⟨k', rfl⟩ : ∃ k', k = k' + 1 := ⟨k - 1, by omega⟩
    have : |m - a| < radius := by
      have hc : coord v 2 = m := by simp [coord, hv2]
      rw [← hc]; exact hrad a (by simp) v hv
    simp [this]
  obtain ⟨l, hl⟩ := hcol
  have hfold : ∀ (l : List ℝ) (idx : List ℕ), ∃ ids, l.foldlM (nearestStep2D verts q gap) idx = .ok ids ∧
      idx.length + l.length = ids.length := by
    intro l
    induction l with
    | nil => intro idx; exact ⟨idx, rfl, by simp⟩
    | cons b l ih =>
      intro idx
      obtain ⟨i, w, hw, -, hstep⟩ := nearestStep2D_spec hne hdim hq gap b
      rw [List.foldlM_cons, hstep, if_pos (hgap w (List.mem_of_getElem? hw))]
      obtain ⟨ids, e, hlen⟩ := ih (idx ++ [i])
      exact ⟨ids, e, by rw [← hlen]; simp; omega⟩
  obtain ⟨ids, e, hlen⟩ := hfold (a :: l) []
  refine ⟨ids, ?_, ?_⟩
  · unfold nearest2D
    rw [h0, Res.bind_ok', idx_coord (by rw [hdim _ (List.getElem_mem hpos)]; norm_num), Res.bind_ok',
      idx_coord (by rw [hq]; norm_num), Res.bind_ok', hm, Res.bind_ok', hl]
    exact e
  · rintro rfl; simp at hlen

/-- Start and goal next to the same vertex: solved. -/
theorem search_same {g : Graph} {pick : ℕ → (ℕ → ℝ) → List ℕ → ℕ} (hp : HeapTop pick) {ids : List ℕ} (hids : ids ≠ [])
    (c : Option ℝ) : ∃ s ∈ ids, search g pick ids ids ⟨false, [], c⟩ = .ok ⟨true, [s], some 0⟩ := by
  obtain ⟨s, l, rfl⟩ := List.exists_cons_of_ne_nil hids
  refine ⟨s, by simp, ?_⟩
  unfold search
  rw [List.flatMap_cons, List.map_cons, List.cons_append]
  unfold searchPairs searchPair
  have hloop : astarLoop g.adj (heuristic g s) pick s (g.vertex.length + 1) (AState.init s) = some (some (AState.init s)) := by
    unfold astarLoop
    have hmem := (hp g.vertex.length ((AState.init s).f (heuristic g s)) [s] (by simp)).1
    rw [if_neg (by simp [AState.init])]
    have : pick g.vertex.length ((AState.init s).f (heuristic g s)) (AState.init s).q = s := by simpa [AState.init] using hmem
    simp only [this, if_true]
  rw [hloop]
  simp only [onFound, List.nil_append]
  unfold backtrack
  simp [Res.idx]

/-- A plan that is solved by the first search. -/
theorem plan_solved_once {σ : Type} {ops : PlanOps σ} (clock : ℕ → ℝ) (timeLim : ℝ) (fuel : ℕ) (r : PlanRep σ)
    {s1 s2 : σ} {p : List Vec} (h1 : ops.build r.st = .ok s1) (h2 : ops.search s1 = .ok s2)
    (h3 : ops.solved s2 = true) (h4 : ops.path s2 = .ok p) (h5 : ∃ q, ops.interp s2 p = .ok q) :
    ∃ r', plan ops clock timeLim fuel r = some (.ok r') ∧ r'.st = s2 ∧ r'.solvedPath = p := by
  have e : (timedBuild clock ops.build r).bind (timedSearch ops clock) = .ok
      { st := s2, tick := r.tick + 2 + 2, buildTime := r.buildTime + (clock (r.tick + 1) - clock r.tick),
        searchTime := r.searchTime + (clock (r.tick + 2 + 1) - clock (r.tick + 2)),
        totalTime := r.buildTime + (clock (r.tick + 1) - clock r.tick) +
          (r.searchTime + (clock (r.tick + 2 + 1) - clock (r.tick + 2))), solvedPath := r.solvedPath,
        interpolated := r.interpolated } := by
    unfold timedBuild
    rw [h1, Res.bind_ok', Res.bind_ok']
    unfold timedSearch
    dsimp only
    rw [h2, Res.bind_ok']
  unfold plan
  rw [e]
  dsimp only
  have hl : ∀ r : PlanRep σ, ops.solved r.st = true → planLoop ops clock timeLim fuel r = some (.ok r) := by
    intro r hr
    cases fuel <;> (unfold planLoop; rw [if_neg (by simp [hr])])
  rw [hl _ h3]
  simp only [Option.map_some, Res.bind_ok']
  unfold finish
  rw [if_pos h3]
  dsimp only
  obtain ⟨q, h5⟩ := h5
  rw [h4, Res.bind_ok', h5, Res.bind_ok']
  exact ⟨_, rfl, rfl, rfl⟩

noncomputable def exPar71 : Param2 := ⟨3, 2, 2, 1, 100, -10, 10, -10, 10⟩

/-- The queries of the example: at least one vertex near the origin. -/
theorem witness_ids {L : Libs2} {B : Bound2} (harena : B.arena ≠ []) (hobs : B.obstacle = [])
    (hlow : L.dmin ≤ exPar71.xLo) (hup : exPar71.xHi ≤ L.dmax)
    (hb : ∀ sh ∈ B.arena, ∀ v ∈ sh, L.dmin ≤ v.1 ∧ v.1 ≤ L.dmax) {rows : List (SegRow ℝ)}
    (hrows : sweep2D L.sort L.dmin L.dmax exPar71.xLo exPar71.xHi B.arena B.obstacle exPar71.lines = .ok rows)
    {vs : List Vec} (hdims : ∀ v ∈ vs, v.length = 3)
    (hvs : vs = (List.range exPar71.numSlice).flatMap (fun i => (List.zipWith
      (fun y r => r.M.map (fun x => [x, y, heading exPar71.numSlice i])) exPar71.lines rows).flatten)) :
    vs ≠ [] ∧ ∃ ids, nearest2D ((List.range 3).map (heading 3)) vs [0, 0, 0] 1 100 (100 * (10 - -10) / (2 : ℕ)) = .ok ids ∧
      ids ≠ [] ∧ ∀ i ∈ ids, i < vs.length := by
  have hvne : vs ≠ [] := by
    obtain ⟨rows', e, e1, e2⟩ := C60_sweep2D_exact L.sort L.dmin L.dmax exPar71.xLo exPar71.xHi hlow hup B.arena
      B.obstacle exPar71.lines (lines_ne (by simp [exPar71])) harena hb (by simp [hobs]) (by simp [hobs])
    rw [hrows] at e
    obtain rfl := (Res.ok.injEq _ _).mp e
    obtain ⟨rows', e, -, e3⟩ := sweep2D_ok L.sort L.dmin L.dmax exPar71.xLo exPar71.xHi hlow hup B.arena B.obstacle
      exPar71.lines (lines_ne (by simp [exPar71])) hb
    rw [hrows] at e
    obtain rfl := (Res.ok.injEq _ _).mp e
    have hlen : exPar71.lines.length = 2 := by simp [exPar71]
    have hy := List.getElem?_eq_getElem (by omega : 0 < exPar71.lines.length)
    have hrow := List.getElem?_eq_getElem (by omega : 0 < rows.length)
    obtain ⟨k, l, u, hk, -⟩ := (e2 0 _ _ hy hrow).2 0 (by simp [exPar71]) (by simp [exPar71]) (by simp [hobs])
    obtain ⟨T, t1, t2, -⟩ := e3 _ (List.mem_of_getElem? hrow)
    have hkT : k < T.length := by
      have := (List.getElem?_eq_some_iff.1 hk).1
      rwa [t1, List.length_map] at this
    intro hnil
    have hmem : [T[k].2.1, exPar71.lines[0], heading exPar71.numSlice 0] ∈ vs := by
      rw [hvs]
      refine List.mem_flatMap.2 ⟨0, by simp [exPar71], List.mem_flatten.2 ⟨_, List.mem_of_getElem? (i := 0) (by
        rw [List.getElem?_zipWith, hy, hrow]), ?_⟩⟩
      rw [t2]
      exact List.mem_map.2 ⟨_, List.mem_map.2 ⟨_, List.getElem_mem hkT, rfl⟩, rfl⟩
    rw [hnil] at hmem
    exact nomatch hmem
  have hform : ∀ v ∈ vs, |coord [0, 0, 0] 1 - coord v 1| ≤ 10 ∧ ∃ i < 3, coord v 2 = heading 3 i := by
    intro v hv
    rw [hvs] at hv
    obtain ⟨i, hi', hv2⟩ := List.mem_flatMap.1 hv
    obtain ⟨row, hrow, hv3⟩ := List.mem_flatten.1 hv2
    obtain ⟨k, hk⟩ := List.mem_iff_getElem?.1 hrow
    rw [List.getElem?_zipWith] at hk
    cases hy : exPar71.lines[k]? with
    | none => simp [hy] at hk
    | some y =>
      cases hrk : rows[k]? with
      | none => simp [hy, hrk] at hk
      | some rw' =>
        simp only [hy, hrk, Option.some.injEq] at hk
        rw [← hk] at hv3
        obtain ⟨x, hx, rfl⟩ := List.mem_map.1 hv3
        refine ⟨?_, i, by simpa [exPar71] using hi', by simp [coord, exPar71]⟩
        have hk2 : k < 2 := by simpa [exPar71] using (List.getElem?_eq_some_iff.1 hy).1
        have hyv : y = -10 + (k : ℝ) * ((10 - -10) / ((2 : ℝ) - 1)) := by
          rw [← (List.getElem?_eq_some_iff.1 hy).2]; simp [Param2.lines, exPar71]
        have hc : coord [0, 0, 0] 1 - coord [x, y, heading exPar71.numSlice i] 1 = -y := by simp [coord]
        rw [hc, hyv]
        interval_cases k <;> norm_num
  obtain ⟨ids, hids, hidne⟩ := nearest2D_nonempty (hs := (List.range 3).map (heading 3)) (verts := vs)
    (q := [0, 0, 0]) (k := 1) (radius := 100) (gap := 100 * (10 - -10) / (2 : ℕ)) le_rfl hvne hdims rfl (by simp)
    (by
      intro h hh v hv
      obtain ⟨j, hj, rfl⟩ := List.mem_map.1 hh
      obtain ⟨-, i, hi3, hc⟩ := hform v hv
      rw [hc]
      obtain ⟨a1, a2⟩ := heading_bounds (n := 3) (by norm_num) hi3
      obtain ⟨c1, c2⟩ := heading_bounds (n := 3) (by norm_num) (List.mem_range.1 hj)
      have hp4 : hrmPi < 4 := by unfold hrmPi; norm_num
      rw [abs_lt]; constructor <;> linarith)
    (by
      intro v hv
      have := (hform v hv).1
      norm_num
      linarith)
  exact ⟨hvne, ids, hids, hidne, (nearest2D_ids (q := [0, 0, 0]) hdims rfl hids).2⟩

theorem headings2_three : headings2 3 = ((List.range 3).map (heading 3)).map some := by
  unfold headings2
  rw [List.map_map]
  apply List.map_congr_left
  intro i _
  rw [if_neg (by norm_num)]; rfl

/-- In an empty round arena, with three slices and two sweep lines, planning from the origin to itself succeeds,
whatever the libraries. -/
theorem C71_witness (sort : StdSort ℝ) (qr : QrSolve ℝ) (svd : SvdFun 2) (pick : ℕ → (ℕ → ℝ) → List ℕ → ℕ)
    (hpick : HeapTop pick) (clock : ℕ → ℝ) (timeLim : ℝ) : ∃ dmin dmax r',
    Planner2.plan ⟨sort, dmin, dmax, qr, svd, pick⟩ clock timeLim 0
      (freshRep (.new (Tree2.new exRobot36) [exCircle 20] [] [0, 0, 0] [0, 0, 0] exPar71)) = some (.ok r') ∧
    r'.st.res.solved = true := by
  have hr := run_inv_of (base := exRobot36) (ops := []) (robot := Tree2.new exRobot36) rfl
  obtain ⟨B, hB, b1, b2, -⟩ := cspaceBoundary_ok hr [exCircle 20] []
  obtain ⟨M, hM0, hM⟩ := polys_bounded B.arena
  have h1 := le_max_left M 10
  have h2 := le_max_right M 10
  have hlow : -(max M 10) ≤ exPar71.xLo := by simp only [exPar71]; linarith
  have hup : exPar71.xHi ≤ max M 10 := by simp only [exPar71]; linarith
  have hb : ∀ sh ∈ B.arena, ∀ v ∈ sh, -(max M 10) ≤ v.1 ∧ v.1 ≤ max M 10 := fun sh hsh v hv => by
    have := hM sh hsh v hv; exact ⟨by linarith, by linarith⟩
  refine ⟨-(max M 10), max M 10, ?_⟩
  set L : Libs2 := ⟨sort, -(max M 10), max M 10, qr, svd, pick⟩ with hL
  obtain ⟨P, -, hbd, -⟩ := build_total (L := L) (start := [0, 0, 0])
    (goal := [0, 0, 0]) (par := exPar71) hr hB (by simp [exPar71]) (by simp [exPar71]) (by simp [exPar71])
    (by simp [exPar71]) (by simp) hlow hup hb
  obtain ⟨hn1, hl1, rows, r, hrows, hbr, hi⟩ := build_inv hr hB (by simp [exPar71]) hbd
  have hok := C23_build2D _ _ _ _ _ _ r.1 r.2 hbr
  have hvs := C65_planar_vertices_are_samples _ _ _ _ _ _ r.1 r.2 hbr
  have hobs : B.obstacle = [] := List.length_eq_zero_iff.1 (by rw [b2]; simp)
  have harena : B.arena ≠ [] := by intro e; rw [e] at b1; simp [addedBodies] at b1
  obtain ⟨hvne, ids, hids, hidne, hidlt⟩ := witness_ids (L := L) harena hobs hlow hup hb hrows hok.dims hvs
  have hhead : P.headings = ((List.range 3).map (heading 3)).map some := by
    rw [hi.headings]
    exact headings2_three
  obtain ⟨s, hs, hsearch⟩ := search_same (g := r.1) hpick hidne (some 0)
  have hPs : P.search L = .ok { P with res := ⟨true, [s], some 0⟩ } := by
    have e1 := hi.start
    have e2 := hi.goal
    have e3 := hi.par
    have e4 := hi.res
    have e5 := hi.graph
    change P.start = [0, 0, 0] at e1
    change P.goal = [0, 0, 0] at e2
    change P.par = exPar71 at e3
    change P.res = ⟨false, [], some 0⟩ at e4
    unfold Planner2.search
    rw [hhead, realHeadings_some, Res.bind_ok']
    simp only [e1, e2, e3, e4, e5]
    change (nearest2D _ _ _ 1 100 (100 * (10 - -10) / (2 : ℕ))).bind _ = _
    rw [hids, Res.bind_ok']
    change (nearest2D _ _ _ 1 100 (100 * (10 - -10) / (2 : ℕ))).bind _ = _
    rw [hids, Res.bind_ok']
    change (search r.1 pick ids ids _).bind _ = _
    rw [hsearch, Res.bind_ok']
  obtain ⟨path, -, hpath, -⟩ := C30_solution_path hok.dims [0, 0, 0] [0, 0, 0] [s] (by
    intro i hi'; obtain rfl := List.mem_singleton.1 hi'; exact hidlt _ hs) hvne
  have hpath' : getSolutionPath P.graph P.start P.goal [s] = .ok path := by
    rw [hi.graph, hi.start, hi.goal]; exact hpath
  obtain ⟨r', e, est, -⟩ := plan_solved_once (ops := planner2Ops L) clock timeLim 0
    (freshRep (.new (Tree2.new exRobot36) [exCircle 20] [] [0, 0, 0] [0, 0, 0] exPar71)) hbd hPs rfl hpath' ⟨_, rfl⟩
  exact ⟨r', e, by rw [est]⟩

end Hrm
