import Verif.Spec.Motion
import Verif.Props.LinkBalls
import Verif.Props.AngleAxis

/-!
# C91: the links of a robot made of balls, at all times of a motion that changes the orientation
-/

namespace Hrm

open Matrix

/-! ### The motion through the interpolated configurations -/

/-- The configuration a fraction `t` of the way from `v` to `w`. -/
noncomputable def wayVec (v w : Vec) (t : ℝ) : Vec :=
  let q := slerp (quatPart v) t (quatPart w)
  [(1 - t) * coordOf v 0 + t * coordOf w 0, (1 - t) * coordOf v 1 + t * coordOf w 1, (1 - t) * coordOf v 2 + t * coordOf w 2,
    q.1, q.2.1, q.2.2.1, q.2.2.2] ++ (List.range (v.length - 7)).map fun j =>
      (1 - t) * coordOf v (j + 7) + t * coordOf w (j + 7)

theorem wayVec_step (v w : Vec) (n i : ℕ) : wayVec v w (i / n) = compVec v w n i := by
  unfold compVec
  rw [mul_one_div]
  rfl

theorem posPart_wayVec (v w : Vec) (t : ℝ) : posPart (wayVec v w t) = posPart v + t • (posPart w - posPart v) := by
  ext i
  fin_cases i <;> simp [posPart, wayVec, coordOf] <;> ring

theorem quatPart_wayVec (v w : Vec) (t : ℝ) : quatPart (wayVec v w t) = slerp (quatPart v) t (quatPart w) := rfl

/-- Interpolating between two quaternions of the same orientation. -/
theorem slerp_same_dir {p q : Quat} (hp : Quat.dot p p = 1) (hq : Quat.dot q q = 1) (h : |Quat.dot p q| = 1) (t : ℝ) :
    slerp p t q = p := by
  obtain ⟨a, b, c, d⟩ := p
  obtain ⟨a', b', c', d'⟩ := q
  simp only [Quat.dot] at hp hq h
  unfold slerp
  simp only [Quat.dot]
  have hc : slerpOne ≤ |a * a' + b * b' + c * c' + d * d'| := by rw [h]; unfold slerpOne; norm_num
  simp only [hc, if_true]
  rcases eq_or_eq_neg_of_abs_eq h with h | h
  · have hz : (a - a') ^ 2 + (b - b') ^ 2 + (c - c') ^ 2 + (d - d') ^ 2 = 0 := by nlinarith
    have h1 : a' = a := by nlinarith [sq_nonneg (a - a'), sq_nonneg (b - b'), sq_nonneg (c - c'), sq_nonneg (d - d')]
    have h2 : b' = b := by nlinarith [sq_nonneg (a - a'), sq_nonneg (b - b'), sq_nonneg (c - c'), sq_nonneg (d - d')]
    have h3 : c' = c := by nlinarith [sq_nonneg (a - a'), sq_nonneg (b - b'), sq_nonneg (c - c'), sq_nonneg (d - d')]
    have h4 : d' = d := by nlinarith [sq_nonneg (a - a'), sq_nonneg (b - b'), sq_nonneg (c - c'), sq_nonneg (d - d')]
    have hn : ¬ a * a' + b * b' + c * c' + d * d' < 0 := by rw [h]; norm_num
    simp only [hn, if_false]
    subst h1 h2 h3 h4
    simp only [Quat.comb, Prod.mk.injEq]
    refine ⟨?_, ?_, ?_, ?_⟩ <;> ring
  · have hz : (a + a') ^ 2 + (b + b') ^ 2 + (c + c') ^ 2 + (d + d') ^ 2 = 0 := by nlinarith
    have h1 : a' = -a := by nlinarith [sq_nonneg (a + a'), sq_nonneg (b + b'), sq_nonneg (c + c'), sq_nonneg (d + d')]
    have h2 : b' = -b := by nlinarith [sq_nonneg (a + a'), sq_nonneg (b + b'), sq_nonneg (c + c'), sq_nonneg (d + d')]
    have h3 : c' = -c := by nlinarith [sq_nonneg (a + a'), sq_nonneg (b + b'), sq_nonneg (c + c'), sq_nonneg (d + d')]
    have h4 : d' = -d := by nlinarith [sq_nonneg (a + a'), sq_nonneg (b + b'), sq_nonneg (c + c'), sq_nonneg (d + d')]
    have hn : a * a' + b * b' + c * c' + d * d' < 0 := by rw [h]; norm_num
    simp only [hn, if_true]
    subst h1 h2 h3 h4
    simp only [Quat.comb, Prod.mk.injEq]
    refine ⟨?_, ?_, ?_, ?_⟩ <;> ring

theorem wayVec_steady {v w : Vec} (hv : UnitPose v) (hw : UnitPose w)
    (hfar : |Quat.dot (quatPart v) (quatPart w)| < 1 - 1 / 2 ^ 52 ∨ |Quat.dot (quatPart v) (quatPart w)| = 1) :
    SteadyMotion v w (wayVec v w) where
  start := ⟨by rw [posPart_wayVec]; simp, by rw [quatPart_wayVec]; exact slerp_zero _ _⟩
  finish := ⟨by rw [posPart_wayVec]; simp, by rw [quatPart_wayVec]; exact slerp_one _ _⟩
  straight := posPart_wayVec v w
  turn s t := by
    rw [quatPart_wayVec, quatPart_wayVec]
    rcases hfar with h | h
    · exact slerp_dot hv.2 hw.2 h s t
    · rw [slerp_same_dir hv.2 hw.2 h, slerp_same_dir hv.2 hw.2 h, hv.2, h, Real.arccos_one, mul_zero, Real.cos_zero]

/-! ### How far a body moves -/

/-- Two rotations move a point at most `2 sin` of the angle of their quaternions apart, times its distance. -/
theorem quatRot_move {p q : Quat} (hp : p.Unit) (hq : q.Unit) (x : Fin 3 → ℝ) :
    (quatRot p *ᵥ x - quatRot q *ᵥ x) ⬝ᵥ (quatRot p *ᵥ x - quatRot q *ᵥ x) ≤ 4 * (1 - Quat.dot p q ^ 2) * (x ⬝ᵥ x) := by
  have hr := hp.conj.mul hq
  have hdot := conj_mul_fst p q
  set r := p.conj.mul q with hrd
  have e : quatRot q = quatRot p * quatRot r := by
    rw [quatRot_mul hp hr, hrd, mul_conj_mul hp]
  have e2 : quatRot p *ᵥ x - quatRot q *ᵥ x = quatRot p *ᵥ (x - quatRot r *ᵥ x) := by
    rw [e, ← Matrix.mulVec_mulVec, Matrix.mulVec_sub]
  have e3 : ∀ y : Fin 3 → ℝ, (quatRot p *ᵥ y) ⬝ᵥ (quatRot p *ᵥ y) = y ⬝ᵥ y := by
    intro y
    rw [Matrix.dotProduct_mulVec, Matrix.vecMul_mulVec, ← Matrix.dotProduct_mulVec, (quatRot_orth hp).1, Matrix.one_mulVec]
  rw [e2, e3, ← hdot]
  clear_value r
  obtain ⟨w, a, b, c⟩ := r
  unfold Quat.Unit at hr
  simp only at hr ⊢
  have e4 : (x - quatRot (w, a, b, c) *ᵥ x) ⬝ᵥ (x - quatRot (w, a, b, c) *ᵥ x) =
      4 * ((b * x 2 - c * x 1) ^ 2 + (c * x 0 - a * x 2) ^ 2 + (a * x 1 - b * x 0) ^ 2) *
        (w ^ 2 + a ^ 2 + b ^ 2 + c ^ 2) := by
    simp [quatRot, dotProduct, Fin.sum_univ_three]
    ring
  rw [e4, hr, mul_one, show 1 - w ^ 2 = a ^ 2 + b ^ 2 + c ^ 2 by linarith]
  simp only [dotProduct, Fin.sum_univ_three]
  nlinarith [sq_nonneg (a * x 0 + b * x 1 + c * x 2)]

theorem unit_of_dot {q : Quat} (h : Quat.dot q q = 1) : q.Unit := by
  unfold Quat.dot at h
  unfold Quat.Unit
  linarith [h]

theorem dist3_toV3 (x y : Fin 3 → ℝ) : dist3 (toV3 x) (toV3 y) = Real.sqrt ((x - y) ⬝ᵥ (x - y)) := by
  unfold dist3 toV3
  congr 1
  simp [dotProduct, Fin.sum_univ_three]
  ring

/-- How far the centre of a body moves between two times of a steady motion. -/
theorem SteadyMotion.centre_move {v w : Vec} {u : ℝ → Vec} (hu : SteadyMotion v w u) (l : SuperQuadrics) (s t : ℝ) :
    dist3 (toV3 (centreAt3 l (u s))) (toV3 (centreAt3 l (u t))) ≤ |s - t| * reach3 l v w := by
  set th := Real.arccos |Quat.dot (quatPart v) (quatPart w)| with hth
  have hth0 : 0 ≤ th := Real.arccos_nonneg _
  have hun : ∀ r, (quatPart (u r)).Unit := fun r => unit_of_dot (by rw [hu.turn, sub_self, zero_mul, Real.cos_zero])
  refine (dist3_triangle _ (toV3 (quatRot (quatPart (u s)) *ᵥ l.pos + posPart (u t))) _).trans ?_
  have h1 : dist3 (toV3 (centreAt3 l (u s))) (toV3 (quatRot (quatPart (u s)) *ᵥ l.pos + posPart (u t))) =
      |s - t| * dist3 (toV3 (posPart v)) (toV3 (posPart w)) := by
    rw [dist3_toV3, dist3_toV3, ← Real.sqrt_sq_eq_abs, ← Real.sqrt_mul (sq_nonneg _)]
    congr 1
    unfold centreAt3
    rw [hu.straight, hu.straight]
    simp [dotProduct, Fin.sum_univ_three]
    ring
  have h2 : dist3 (toV3 (quatRot (quatPart (u s)) *ᵥ l.pos + posPart (u t))) (toV3 (centreAt3 l (u t))) ≤
      |s - t| * (2 * th * Real.sqrt (l.pos 0 ^ 2 + l.pos 1 ^ 2 + l.pos 2 ^ 2)) := by
    rw [dist3_toV3]
    unfold centreAt3
    rw [add_sub_add_right_eq_sub]
    have hm := quatRot_move (hun s) (hun t) l.pos
    rw [hu.turn] at hm
    have hs : 1 - Real.cos ((s - t) * th) ^ 2 ≤ ((s - t) * th) ^ 2 := by
      have := Real.sin_sq_add_cos_sq ((s - t) * th)
      have h3 : Real.sin ((s - t) * th) ^ 2 ≤ ((s - t) * th) ^ 2 := by
        rw [← sq_abs, ← sq_abs ((s - t) * th)]
        exact pow_le_pow_left₀ (abs_nonneg _) (Real.abs_sin_le_abs) 2
      linarith
    have hx : l.pos ⬝ᵥ l.pos = l.pos 0 ^ 2 + l.pos 1 ^ 2 + l.pos 2 ^ 2 := by
      simp [dotProduct, Fin.sum_univ_three]; ring
    rw [hx] at hm
    have hnn : 0 ≤ l.pos 0 ^ 2 + l.pos 1 ^ 2 + l.pos 2 ^ 2 := by positivity
    apply Real.sqrt_le_iff.2
    refine ⟨by positivity, hm.trans ?_⟩
    have e : (|s - t| * (2 * th * Real.sqrt (l.pos 0 ^ 2 + l.pos 1 ^ 2 + l.pos 2 ^ 2))) ^ 2 =
        4 * ((s - t) * th) ^ 2 * (l.pos 0 ^ 2 + l.pos 1 ^ 2 + l.pos 2 ^ 2) := by
      rw [mul_pow, mul_pow, Real.sq_sqrt hnn, sq_abs]
      ring
    rw [e]
    exact mul_le_mul_of_nonneg_right (by linarith) hnn
  rw [h1]
  unfold reach3
  rw [← hth]
  linarith

theorem reach3_nonneg (l : SuperQuadrics) (v w : Vec) : 0 ≤ reach3 l v w :=
  add_nonneg (dist3_nonneg _ _) (mul_nonneg (mul_nonneg (by norm_num) (Real.arccos_nonneg _)) (Real.sqrt_nonneg _))

/-- A body checked at `np + 1` evenly spaced times of a steady motion. -/
theorem link3_between {v w : Vec} {u : ℝ → Vec} (hu : SteadyMotion v w u) {l o : SuperQuadrics} {np : ℕ} (h1 : 1 ≤ np) {c : ℝ}
    (h : ∀ k ≤ np, overlap3 l.a o (toV3 (centreAt3 l (u (k / np)))) ≤ c) (s : ℝ) (s0 : 0 ≤ s) (s1 : s ≤ 1) :
    overlap3 l.a o (toV3 (centreAt3 l (u s))) ≤ c + reach3 l v w / (2 * np) := by
  have hn : (0 : ℝ) < np := by exact_mod_cast h1
  set x := s * np with hx
  have hx0 : 0 ≤ x := by positivity
  have hx1 : x ≤ np := by rw [hx]; nlinarith
  have e1 : (⌊x + 1 / 2⌋₊ : ℝ) ≤ x + 1 / 2 := Nat.floor_le (by linarith)
  have e2 : x + 1 / 2 < (⌊x + 1 / 2⌋₊ : ℝ) + 1 := Nat.lt_floor_add_one _
  set k := ⌊x + 1 / 2⌋₊ with hk
  have hkn : k ≤ np := by
    have : (k : ℝ) < np + 1 := by linarith
    have : k < np + 1 := by exact_mod_cast this
    omega
  have hd : |(k : ℝ) / np - s| ≤ 1 / (2 * np) := by
    have : (k : ℝ) / np - s = (k - x) / np := by rw [hx]; field_simp
    rw [this, abs_div, abs_of_pos hn, div_le_div_iff₀ hn (by linarith)]
    have : |(k : ℝ) - x| ≤ 1 / 2 := by rw [abs_le]; constructor <;> linarith
    nlinarith
  have hmv := overlap3_move l.a o (toV3 (centreAt3 l (u s))) (toV3 (centreAt3 l (u (k / np))))
  have hdist := hu.centre_move l (k / np) s
  have := mul_le_mul_of_nonneg_right hd (reach3_nonneg l v w)
  rw [one_div_mul_eq_div] at this
  have := h k hkn
  linarith

/-- The interpolated configurations are those of a steady motion at evenly spaced times. -/
theorem steps_wayVec {v w : Vec} (hv : UnitPose v) (hlen : v.length = w.length) {n : ℕ} (hn : 1 ≤ n) :
    interpolateCompound v w n = .ok ((List.range (n + 1)).map fun (k : ℕ) => (wayVec v w (k / n)).map some) := by
  rw [interpolateCompound_eq hv.1 hlen, if_neg (by omega), List.nil_append]
  congr 1
  apply List.map_congr_left
  intro i _
  rw [compRow_eq v w hn i, wayVec_step]

/-- At all times of the motion `u` no link overlaps an obstacle by more than the sag of the mesh of the obstacle plus half of
the longest way the link can move between two of the `np + 1` checked configurations, provided that at these configurations
the vertical line through its centre is in general position. -/
def LinksClear (obs : List SuperQuadrics) (added : List SuperQuadrics) (np : ℕ) (v w : Vec) (u : ℝ → Vec) : Prop :=
  ∀ o ∈ obs, ∀ l ∈ added,
    (∀ k ≤ np, GenericLine triTol (vertical (centreAt3 l (u (k / np)) 0) (centreAt3 l (u (k / np)) 1)
      (centreAt3 l (u (k / np)) 2)) (grownBall l.a o)) →
    ∀ s, 0 ≤ s → s ≤ 1 → overlap3 l.a o (toV3 (centreAt3 l (u s))) ≤ sag3 l.a o + reach3 l v w / (2 * np)

theorem links_clear {v w : Vec} (hv : UnitPose v) (hw : UnitPose w) (hlen : v.length = w.length) {n : ℕ} (hn : 1 ≤ n)
    (hfar : |Quat.dot (quatPart v) (quatPart w)| < 1 - 1 / 2 ^ 52 ∨ |Quat.dot (quatPart v) (quatPart w)| = 1)
    {obs : List SuperQuadrics} {base : SuperQuadrics} {added : List SuperQuadrics} {steps : List Vec}
    (e : interpolateCompound v w n = .ok (steps.map (·.map some))) (h : ∀ u ∈ steps, BallsClear obs base added u) :
    ∃ u, SteadyMotion v w u ∧
      interpolateCompound v w n = .ok ((List.range (n + 1)).map fun (k : ℕ) => (u (k / n)).map some) ∧
      LinksClear obs added n v w u := by
  refine ⟨wayVec v w, wayVec_steady hv hw hfar, steps_wayVec hv hlen hn, fun o ho l hl hg => ?_⟩
  refine link3_between (wayVec_steady hv hw hfar) hn fun k hk => ?_
  have e2 := steps_wayVec hv hlen hn
  rw [e] at e2
  have e2 := (Res.ok.injEq _ _).mp e2
  have e3 : steps = (List.range (n + 1)).map fun (k : ℕ) => wayVec v w (k / n) := by
    apply map_some_inj
    rw [e2, List.map_map]
    rfl
  have hmem : wayVec v w (k / n) ∈ steps := by
    rw [e3]
    exact List.mem_map.2 ⟨k, List.mem_range.2 (by omega), rfl⟩
  exact (h _ hmem o ho).2 l hl (hg k hk)

/-- C91, the links at all times: a motion between two orientations that the planner for rigid robots accepts. The robot is made
of balls, the obstacles are balls. There is a steady motion through the interpolated configurations, and at no time of it does a
link overlap an obstacle by more than the bound of `LinksClear`. -/
theorem C91_turn_all_times_partial (L : Libs3) (hsvd : SvdOk L.svd) (hdet : ∀ M, SymPos M → (L.svd M).u.det = 1)
    (base : SuperQuadrics) (hb : base.Ball) (ops : List (RobotOp SuperQuadrics 3)) (ha : ∀ l ∈ addedBodies ops, l.Ball)
    (robot : Tree3) (hrun : Tree3.run ops (Tree3.new base) = .ok robot) (quats : List Quat)
    (arena obs : List SuperQuadrics) (hobs : ∀ o ∈ obs, o.Ball ∧ 4 ≤ o.num ∧ o.num ≤ 10 ^ 6) (start goal : Vec) (par : Param3)
    (hnp : 1 ≤ par.numPoint) (i j : ℕ) (qa qb : Quat)
    (hi : (orientations L quats par)[i]? = some qa) (hj : (orientations L quats par)[j]? = some qb)
    (hqa : qa.Unit) (hqb : qb.Unit) (hfar : |Quat.dot qa qb| < 1 - 1 / 2 ^ 52 ∨ |Quat.dot qa qb| = 1) (v w : Vec)
    (hv : UnitPose v) (hw : UnitPose w) (hlen : v.length = w.length)
    (hfar' : |Quat.dot (quatPart v) (quatPart w)| < 1 - 1 / 2 ^ 52 ∨ |Quat.dot (quatPart v) (quatPart w)| = 1)
    (h : ((Planner3.new robot quats arena obs start goal par true).sampleSO3 L).freeMulti L ⟨none, none⟩ i j v w = .ok true) :
    ∃ u, SteadyMotion v w u ∧
      interpolateCompound v w par.numPoint = .ok ((List.range (par.numPoint + 1)).map fun (k : ℕ) =>
        (u (k / par.numPoint)).map some) ∧
      LinksClear obs (addedBodies ops) par.numPoint v w u := by
  obtain ⟨steps, e, -, hiff, -⟩ := C53_spatial_check_partial L base ops robot hrun quats arena obs start goal par hnp i j qa qb
    hi hj v w hv hw hlen
  exact links_clear (base := base) hv hw hlen hnp hfar' e
    fun u hu => stepClear3_balls hsvd hdet hb ha hobs hqa hqb hfar (hiff.1 h u hu)

/-- C91, the links at all times, on a returned path: every inner step keeps its orientation, or there is a steady motion, in one
of the two directions, at no time of which a link overlaps an obstacle by more than the bound of `LinksClear`. Missing: the
links on a step that keeps its orientation, for which the planner uses boundaries of the robot as it was given, not as it is
turned in the slice (C36). -/
theorem C91_path_all_times_partial (L : Libs3) (hpick : HeapTop L.pick) (hsvd : SvdOk L.svd)
    (hdet : ∀ M, SymPos M → (L.svd M).u.det = 1) (base : SuperQuadrics) (hb : base.Ball)
    (ops : List (RobotOp SuperQuadrics 3)) (ha : ∀ l ∈ addedBodies ops, l.Ball) (robot : Tree3)
    (hrun : Tree3.run ops (Tree3.new base) = .ok robot) (quats : List Quat)
    (arena obs : List SuperQuadrics) (hne : arena ≠ [] ∨ obs ≠ [])
    (hobs : ∀ o ∈ obs, o.Ball ∧ 4 ≤ o.num ∧ o.num ≤ 10 ^ 6) (start goal : Vec) (hs : start.length = 7)
    (hg : goal.length = 7) (par : Param3) (hnp : 1 ≤ par.numPoint) (hunit : ∀ q ∈ orientations L quats par, q.Unit)
    (hfar : ∀ p ∈ orientations L quats par, ∀ q ∈ orientations L quats par,
      |Quat.dot p q| < 1 - 1 / 2 ^ 52 ∨ |Quat.dot p q| = 1)
    (clock : ℕ → ℝ) (timeLim : ℝ) (fuel : ℕ) (r' : PlanRep Planner3)
    (h : Planner3.plan L ⟨none, none⟩ clock timeLim fuel (freshRep3 (.new robot quats arena obs start goal par true)) =
      some (.ok r')) (hsol : r'.st.res.solved = true) :
    ∃ B M mid, cspaceBoundary3 robot arena obs = .ok B ∧ cspaceMesh arena obs B = .ok M ∧
      r'.solvedPath = start :: (mid ++ [goal]) ∧ mid ≠ [] ∧
      (SweepGeneric3 L par M → ∀ (k : ℕ) (a b : Vec), mid[k]? = some a → mid[k + 1]? = some b →
        quatPart a = quatPart b ∨
        ∃ v w u, ((v = a ∧ w = b) ∨ (v = b ∧ w = a)) ∧ SteadyMotion v w u ∧
          interpolateCompound v w par.numPoint = .ok ((List.range (par.numPoint + 1)).map fun (k : ℕ) =>
            (u (k / par.numPoint)).map some) ∧
          LinksClear obs (addedBodies ops) par.numPoint v w u) := by
  obtain ⟨B, M, segs, mid, hB, hM, -, hpath, hm, hsafe⟩ := C87_spatial_path_safe_partial L ⟨none, none⟩ rfl hpick base ops robot
    hrun quats arena obs hne start goal hs hg par hnp hunit clock timeLim fuel r' h hsol
  obtain ⟨B', M', segs', mid', -, -, -, hpath', -, hsamp, -⟩ := C73_spatial_plan_end_to_end L ⟨none, none⟩ rfl hpick base ops
    robot hrun quats arena obs hne start goal hs hg par clock timeLim fuel r' h hsol
  obtain rfl : mid' = mid := by
    rw [hpath] at hpath'
    exact (List.append_cancel_right (List.cons.inj hpath').2).symm
  have hlen : ∀ v ∈ mid', v.length = 7 := by
    intro v hv
    obtain ⟨q, -, hv'⟩ := hsamp v hv
    obtain ⟨x, y, z, rfl⟩ := sampled_conf7 hv'
    rfl
  refine ⟨B, M, mid', hB, hM, hpath, hm, fun hgen k a b hka hkb => ?_⟩
  have la := hlen a (List.mem_of_getElem? hka)
  have lb := hlen b (List.mem_of_getElem? hkb)
  rcases (hsafe hgen).2 k a b hka hkb with ⟨hq, -⟩ | ⟨hq, -⟩ | ⟨-, -, i, j, qa, qb, hqa, hqb, steps, hmo, hclear⟩
  · exact Or.inl hq
  · exact Or.inl hq
  · have h1 := List.mem_of_getElem? hqa
    have h2 := List.mem_of_getElem? hqb
    have hballs : ∀ u ∈ steps, BallsClear obs base (addedBodies ops) u := fun u hu =>
      stepClear3_balls hsvd hdet hb ha hobs (hunit _ h1) (hunit _ h2) (hfar _ h1 _ h2) (hclear u hu)
    have key : ∀ v w : Vec, v.length = 7 → w.length = 7 → SameRotation (quatPart v) qb → SameRotation (quatPart w) qa →
        interpolateCompound v w par.numPoint = .ok (steps.map (·.map some)) →
        ∃ u, SteadyMotion v w u ∧
          interpolateCompound v w par.numPoint = .ok ((List.range (par.numPoint + 1)).map fun (k : ℕ) =>
            (u (k / par.numPoint)).map some) ∧ LinksClear obs (addedBodies ops) par.numPoint v w u := by
      intro v w lv lw sv sw he
      have hdot : |Quat.dot (quatPart v) (quatPart w)| = |Quat.dot qb qa| := abs_dot_same sv sw
      have hu : ∀ (x : Vec) (q : Quat), q.Unit → x.length = 7 → SameRotation (quatPart x) q → UnitPose x := by
        intro x q hq hx hs
        refine ⟨hx.ge, ?_⟩
        unfold Quat.Unit at hq
        rcases hs with hs | hs <;> rw [hs] <;> simp only [Quat.dot] <;> linarith
      exact links_clear (base := base) (hu v qb (hunit _ h2) lv sv) (hu w qa (hunit _ h1) lw sw) (by omega) hnp
        (by rw [hdot]; exact hfar _ h2 _ h1) he hballs
    rcases hmo with ⟨s1, s2, he, -⟩ | ⟨s1, s2, he, -⟩
    · obtain ⟨u, hu⟩ := key a b la lb s1 s2 he
      exact Or.inr ⟨a, b, u, Or.inl ⟨rfl, rfl⟩, hu⟩
    · obtain ⟨u, hu⟩ := key b a lb la s1 s2 he
      exact Or.inr ⟨b, a, u, Or.inr ⟨rfl, rfl⟩, hu⟩

/-- A vertical line far from the mesh is in general position. -/
theorem generic_far {m : Mesh} {R x y z : ℝ} (hR : 0 ≤ R) (h : ∀ v ∈ m.vertices, -R ≤ v.x ∧ v.x ≤ R) (hx : 2 * R < x) :
    GenericLine triTol (vertical x y z) m := by
  have hno : ∀ a b c p, a ∈ m.vertices → b ∈ m.vertices → c ∈ m.vertices → OnLine (vertical x y z) p →
      ∀ tol, 0 ≤ tol → tol ≤ 1 / 10 → ¬ InTriangle tol a b c p := by
    rintro a b c p ha hb hc ⟨τ, rfl⟩ tol t0 t1 ⟨s, t, h1, h2, h3, h4, h5, -, -⟩
    simp only [vertical, mul_zero, add_zero] at h5
    obtain ⟨a1, a2⟩ := h a ha
    obtain ⟨b1, b2⟩ := h b hb
    obtain ⟨c1, c2⟩ := h c hc
    have e : x = (1 - s - t) * a.x + s * b.x + t * c.x := by rw [h5]; ring
    have k1 : (1 - s - t + tol) * a.x ≤ (1 - s - t + tol) * R := mul_le_mul_of_nonneg_left a2 (by linarith)
    have k2 : (s + tol) * b.x ≤ (s + tol) * R := mul_le_mul_of_nonneg_left b2 (by linarith)
    have k3 : (t + tol) * c.x ≤ (t + tol) * R := mul_le_mul_of_nonneg_left c2 (by linarith)
    have k4 : tol * (-R) ≤ tol * a.x := mul_le_mul_of_nonneg_left a1 t0
    have k5 : tol * (-R) ≤ tol * b.x := mul_le_mul_of_nonneg_left b1 t0
    have k6 : tol * (-R) ≤ tol * c.x := mul_le_mul_of_nonneg_left c1 t0
    have k7 : tol * R ≤ 1 / 10 * R := mul_le_mul_of_nonneg_right t1 hR
    nlinarith
  constructor
  · rw [List.countP_eq_zero.2]
    · norm_num
    · rintro f hf hmf
      simp only [decide_eq_true_eq] at hmf
      obtain ⟨a, b, c, p, ha, hb, hc, -, hp, ht⟩ := hmf
      exact hno a b c p (List.mem_of_getElem? ha) (List.mem_of_getElem? hb) (List.mem_of_getElem? hc) hp _ triTol_pos.le
        (by norm_num [triTol]) ht
  · rintro a b c p ⟨f, -, ha, hb, hc⟩ hp ht
    exact absurd ht (hno a b c p (List.mem_of_getElem? ha) (List.mem_of_getElem? hb) (List.mem_of_getElem? hc) hp 0 le_rfl
      (by norm_num))

/-- The hypotheses of `C91_turn_all_times_partial` are met together, and so are those of its conclusion: a robot of two balls, one
of radius 1 attached at `(3, 0, 0)`, moves by 1 and turns by a third of a full turn beside an obstacle; the check, made at six
configurations, accepts the motion; at all times the link is clear up to the sag of the mesh and a tenth of its way. -/
example (sort : StdSort ℝ) (pick : ℕ → (ℕ → ℝ) → List ℕ → ℕ) (dmin dmax : ℝ) (ang : Quat → Quat → ℝ) (junk : Option Quat)
    (rand : ℕ → Quat) (randJoint : ℕ → ℕ → ℝ) :
    ∃ (svd : SvdFun 3) (robot : Tree3) (x : ℝ) (u : ℝ → Vec),
    Tree3.run [.add exLink91] (Tree3.new (exBall3 2)) = .ok robot ∧
    ((Planner3.new robot [exQ0, exQ1] [exBall3 20] [exObs87] [] [] (exPar87 0) true).sampleSO3
      ⟨sort, dmin, dmax, svd, pick, ang, junk, rand, randJoint⟩).freeMulti
      ⟨sort, dmin, dmax, svd, pick, ang, junk, rand, randJoint⟩ ⟨none, none⟩ 0 1 (conf7 x 0 0 exQ0) (conf7 (x + 1) 0 0 exQ1)
        = .ok true ∧
    SteadyMotion (conf7 x 0 0 exQ0) (conf7 (x + 1) 0 0 exQ1) u ∧
    ∀ s, 0 ≤ s → s ≤ 1 → overlap3 1 exObs87 (toV3 (centreAt3 exLink91 (u s))) ≤
      sag3 1 exObs87 + (1 + 2 * (Real.pi / 3) * 3) / 10 := by
  obtain ⟨svd, robot, R, hsvd, hdet, hR0, hR, hrun, hacc⟩ := ex91_turn sort pick dmin dmax ang junk rand randJoint
  have h0 : exQ0.Unit := by norm_num [Quat.Unit, exQ0]
  have h1 : exQ1.Unit := by norm_num [Quat.Unit, exQ1]
  have hadd : addedBodies [RobotOp.add (n := 3) exLink91] = [exLink91] := rfl
  have hv : UnitPose (conf7 (2 * R + 4) 0 0 exQ0) := ⟨le_rfl, by norm_num [conf7, quatPart, coordOf, Quat.dot, exQ0]⟩
  have hw : UnitPose (conf7 (2 * R + 4 + 1) 0 0 exQ1) := ⟨le_rfl, by norm_num [conf7, quatPart, coordOf, Quat.dot, exQ1]⟩
  have hpar : (exPar87 0).numPoint = 5 := rfl
  have hdot : Quat.dot exQ0 exQ1 = 1 / 2 := by norm_num [Quat.dot, exQ0, exQ1]
  have hdot' : |Quat.dot (quatPart (conf7 (2 * R + 4) 0 0 exQ0)) (quatPart (conf7 (2 * R + 4 + 1) 0 0 exQ1))| = 1 / 2 := by
    rw [show Quat.dot (quatPart (conf7 (2 * R + 4) 0 0 exQ0)) (quatPart (conf7 (2 * R + 4 + 1) 0 0 exQ1)) = Quat.dot exQ0 exQ1
      from rfl, hdot, abs_of_pos (by norm_num)]
  obtain ⟨u, hu, -, hclear⟩ := C91_turn_all_times_partial
    ⟨sort, dmin, dmax, svd, pick, ang, junk, rand, randJoint⟩ hsvd hdet (exBall3 2)
    ⟨by norm_num [exBall3], ⟨rfl, rfl⟩, ⟨rfl, rfl⟩, by norm_num [exBall3, Quat.Unit]⟩ [.add exLink91]
    (by intro l hl; rw [hadd] at hl; obtain rfl := List.mem_singleton.1 hl; exact exLink91_ball) robot hrun [exQ0, exQ1]
    [exBall3 20] [exObs87]
    (by
      intro o ho
      obtain rfl := List.mem_singleton.1 ho
      exact ⟨⟨by norm_num [exObs87], ⟨rfl, rfl⟩, ⟨rfl, rfl⟩, by norm_num [exObs87, Quat.Unit]⟩, by norm_num [exObs87],
        by norm_num [exObs87]⟩) [] [] (exPar87 0) (by rw [hpar]; norm_num) 0 1 exQ0 exQ1 rfl rfl h0 h1
    (Or.inl (by rw [hdot, abs_of_pos (by norm_num)]; norm_num)) _ _ hv hw rfl
    (Or.inl (by rw [hdot']; norm_num)) hacc
  refine ⟨svd, robot, 2 * R + 4, u, hrun, hacc, hu, fun s s0 s1 => ?_⟩
  refine (hclear exObs87 (by simp) exLink91 (by rw [hadd]; simp) (fun k _ => ?_) s s0 s1).trans (le_of_eq ?_)
  · refine generic_far hR0 hR ?_
    have hx : posPart (u (k / (exPar87 0).numPoint)) 0 = 2 * R + 4 + (k : ℝ) / (exPar87 0).numPoint * 1 := by
      rw [hu.straight]
      simp [posPart, conf7, coordOf]
    have hk0 : (0 : ℝ) ≤ (k : ℝ) / ((exPar87 0).numPoint : ℝ) := by positivity
    have hun : (quatPart (u (k / (exPar87 0).numPoint))).Unit :=
      unit_of_dot (by rw [hu.turn, sub_self, zero_mul, Real.cos_zero])
    generalize u (k / (exPar87 0).numPoint) = c at hx hun
    have ex : centreAt3 exLink91 c 0 = 3 * quatRot (quatPart c) 0 0 + posPart c 0 := by
      simp [centreAt3, exLink91, Matrix.mulVec, dotProduct, Fin.sum_univ_three, mul_comm]
    have er : (-1 : ℝ) ≤ quatRot (quatPart c) 0 0 := by
      generalize quatPart c = q at hun
      obtain ⟨a, b, c, d⟩ := q
      simp only [Quat.Unit] at hun
      simp only [quatRot, of_apply, cons_val_zero, cons_val', cons_val_fin_one]
      nlinarith [sq_nonneg a, sq_nonneg b]
    rw [ex, hx]
    linarith
  · have e1 : Real.arccos (1 / 2) = Real.pi / 3 := by
      rw [← Real.cos_pi_div_three, Real.arccos_cos (by positivity) (by linarith [Real.pi_pos])]
    have e2 : dist3 (toV3 (posPart (conf7 (2 * R + 4) 0 0 exQ0))) (toV3 (posPart (conf7 (2 * R + 4 + 1) 0 0 exQ1))) = 1 := by
      unfold dist3
      simp [toV3, posPart, conf7, coordOf]
    have e3 : Real.sqrt (exLink91.pos 0 ^ 2 + exLink91.pos 1 ^ 2 + exLink91.pos 2 ^ 2) = 3 := by
      rw [show exLink91.pos 0 ^ 2 + exLink91.pos 1 ^ 2 + exLink91.pos 2 ^ 2 = 3 ^ 2 by simp [exLink91],
        Real.sqrt_sq (by norm_num)]
    have e4 : exLink91.a = 1 := rfl
    rw [e4, hpar]
    unfold reach3
    rw [hdot', e1, e2, e3]
    norm_num

end Hrm
