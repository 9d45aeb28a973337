import Verif.Model.AngleAxis
import Verif.Spec.AngleAxis
import Verif.Lemmas.Rotation
import Verif.Lemmas.Shape

/-!
# C95: interpolation about the axis between two orientations
-/

namespace Hrm

open Matrix

theorem axisMatrix_turn (u : Fin 3 → ℝ) (th : ℝ) (x : Fin 3 → ℝ) : axisMatrix th u *ᵥ x = turnAbout u th x := by
  funext i
  fin_cases i <;>
    simp [axisMatrix, turnAbout, crossProduct, Matrix.mulVec, dotProduct, Fin.sum_univ_three, Matrix.vecHead, Matrix.vecTail] <;> ring

/-- Half of the turn as a quaternion. -/
noncomputable def halfTurn (u : Fin 3 → ℝ) (ph : ℝ) : Quat :=
  (Real.cos ph, Real.sin ph * u 0, Real.sin ph * u 1, Real.sin ph * u 2)

theorem halfTurn_unit {u : Fin 3 → ℝ} (hu : u ⬝ᵥ u = 1) (ph : ℝ) : (halfTurn u ph).Unit := by
  have h : u 0 * u 0 + u 1 * u 1 + u 2 * u 2 = 1 := by rw [← hu]; simp [dotProduct, Fin.sum_univ_three]
  have := Real.sin_sq_add_cos_sq ph
  unfold Quat.Unit halfTurn
  simp only
  nlinarith

theorem axisMatrix_half {u : Fin 3 → ℝ} (hu : u ⬝ᵥ u = 1) (ph : ℝ) : axisMatrix (2 * ph) u = quatRot (halfTurn u ph) := by
  have h : u 0 * u 0 + u 1 * u 1 + u 2 * u 2 = 1 := by rw [← hu]; simp [dotProduct, Fin.sum_univ_three]
  have hs := Real.sin_sq_add_cos_sq ph
  have e0 : u 0 * u 0 = 1 - u 1 * u 1 - u 2 * u 2 := by linarith
  rw [quatRot_eq_hom (halfTurn_unit hu ph)]
  generalize hc : Real.cos ph = c at hs
  generalize hsn : Real.sin ph = s at hs
  have c2 : Real.cos (2 * ph) = c ^ 2 - s ^ 2 := by rw [Real.cos_two_mul, hc]; linarith
  have s2 : Real.sin (2 * ph) = 2 * s * c := by rw [Real.sin_two_mul, hc, hsn]
  have d : 1 - (c ^ 2 - s ^ 2) = 2 * s ^ 2 := by linarith
  ext i j
  fin_cases i <;> fin_cases j <;> simp [axisMatrix, quatHom, halfTurn, c2, s2, d, hc, hsn] <;> try ring1
  · linear_combination s ^ 2 * h
  · linear_combination s ^ 2 * h
  · linear_combination s ^ 2 * h

/-- The inverse rotation. -/
def Quat.conj (q : Quat) : Quat := (q.1, -q.2.1, -q.2.2.1, -q.2.2.2)

theorem Quat.Unit.conj {q : Quat} (h : q.Unit) : q.conj.Unit := by
  unfold Quat.Unit Quat.conj at *; simpa using h

theorem quatRot_conj (q : Quat) : (quatRot q)ᵀ = quatRot q.conj := by
  ext i j
  fin_cases i <;> fin_cases j <;> simp [quatRot, Quat.conj] <;> ring

theorem conj_mul_fst (p q : Quat) : (p.conj.mul q).1 = Quat.dot p q := by
  simp [Quat.conj, Quat.mul, Quat.dot]

theorem mul_conj_mul {p : Quat} (hp : p.Unit) (q : Quat) : p.mul (p.conj.mul q) = q := by
  obtain ⟨a, b, c, d⟩ := p
  obtain ⟨w, x, y, z⟩ := q
  unfold Quat.Unit at hp
  simp only at hp
  unfold Quat.mul Quat.conj
  simp only [Prod.mk.injEq]
  refine ⟨?_, ?_, ?_, ?_⟩
  · linear_combination w * hp
  · linear_combination x * hp
  · linear_combination y * hp
  · linear_combination z * hp

/-- Angle and axis of the rotation of a unit quaternion. -/
theorem angleAxis_spec {r : Quat} (hr : r.Unit) : ∃ (u : Fin 3 → ℝ) (ph : ℝ), u ⬝ᵥ u = 1 ∧ 0 ≤ ph ∧ ph ≤ Real.pi / 2 ∧
    angleAxisOf (quatRot r) = (2 * ph, u) ∧ Real.cos ph = |r.1| ∧
    (∃ s : ℝ, s * s = 1 ∧ halfTurn u ph = r.scale s) ∧
    (r.1 ≠ 0 → halfTurn u ph = if r.1 < 0 then r.neg else r) := by
  obtain ⟨s, hs, e⟩ := matQuat_quatRot hr
  have hq := hr.scale hs
  have habs : |(r.scale s).1| = |r.1| := by
    have : |s| = 1 := by
      rcases mul_self_eq_one_iff.1 hs with rfl | rfl <;> simp
    change |s * r.1| = _
    rw [abs_mul, this, one_mul]
  generalize hqd : r.scale s = q at *
  set v : Fin 3 → ℝ := ![q.2.1, q.2.2.1, q.2.2.2] with hv
  have hvv : v ⬝ᵥ v = q.2.1 ^ 2 + q.2.2.1 ^ 2 + q.2.2.2 ^ 2 := by
    simp [hv, dotProduct, Fin.sum_univ_three]; ring
  have hv0 : 0 ≤ v ⬝ᵥ v := by rw [hvv]; positivity
  have hn2 : vnorm v ^ 2 = v ⬝ᵥ v := Real.sq_sqrt hv0
  have hn0 : 0 ≤ vnorm v := Real.sqrt_nonneg _
  have hsum : |q.1| ^ 2 + vnorm v ^ 2 = 1 := by
    rw [sq_abs, hn2, hvv]; unfold Quat.Unit at hq; linarith
  have key : ∃ (u : Fin 3 → ℝ) (ph : ℝ), u ⬝ᵥ u = 1 ∧ 0 ≤ ph ∧ ph ≤ Real.pi / 2 ∧
      angleAxisOf (quatRot r) = (2 * ph, u) ∧ Real.cos ph = |q.1| ∧
      halfTurn u ph = q.scale (if q.1 < 0 then -1 else 1) := by
    have hab : |q.1| = (if q.1 < 0 then -1 else 1) * q.1 := by
      split
      · rename_i h; rw [abs_of_neg h]; ring
      · rename_i h; rw [abs_of_nonneg (not_lt.1 h)]; ring
    by_cases hn : vnorm v = 0
    · have hz : q.2.1 ^ 2 + q.2.2.1 ^ 2 + q.2.2.2 ^ 2 = 0 := by rw [← hvv, ← hn2, hn]; norm_num
      have z1 : q.2.1 = 0 := by nlinarith [sq_nonneg q.2.1, sq_nonneg q.2.2.1, sq_nonneg q.2.2.2]
      have z2 : q.2.2.1 = 0 := by nlinarith [sq_nonneg q.2.1, sq_nonneg q.2.2.1, sq_nonneg q.2.2.2]
      have z3 : q.2.2.2 = 0 := by nlinarith [sq_nonneg q.2.1, sq_nonneg q.2.2.1, sq_nonneg q.2.2.2]
      have h1 : |q.1| = 1 := by
        rw [hn] at hsum
        nlinarith [abs_nonneg q.1]
      refine ⟨![1, 0, 0], 0, by simp [dotProduct, Fin.sum_univ_three], le_rfl, by positivity, ?_, by rw [h1, Real.cos_zero], ?_⟩
      · unfold angleAxisOf
        simp only [e]
        rw [← hv, if_neg (not_not.2 hn)]
        simp
      · unfold halfTurn Quat.scale
        rw [← hab, h1, z1, z2, z3]
        simp
    · have hnpos : 0 < vnorm v := lt_of_le_of_ne hn0 (Ne.symm hn)
      have hnorm : ‖(⟨|q.1|, vnorm v⟩ : ℂ)‖ = 1 := by
        rw [Complex.norm_def, Complex.normSq_mk, ← sq, ← sq, hsum, Real.sqrt_one]
      have hzne : (⟨|q.1|, vnorm v⟩ : ℂ) ≠ 0 := by
        intro h; rw [h] at hnorm; simp at hnorm
      have hc : Real.cos (Complex.arg ⟨|q.1|, vnorm v⟩) = |q.1| := by
        rw [Complex.cos_arg hzne, hnorm, div_one]
      have hsn : Real.sin (Complex.arg ⟨|q.1|, vnorm v⟩) = vnorm v := by
        rw [Complex.sin_arg, hnorm, div_one]
      have hσ : ∀ i, v i / (if q.1 < 0 then -vnorm v else vnorm v) = (if q.1 < 0 then -1 else 1) * v i / vnorm v := by
        intro i
        split
        · rw [div_neg]; ring
        · ring
      have hσ2 : (if q.1 < 0 then (-1 : ℝ) else 1) * (if q.1 < 0 then -1 else 1) = 1 := by split <;> norm_num
      refine ⟨fun i => v i / (if q.1 < 0 then -vnorm v else vnorm v), Complex.arg ⟨|q.1|, vnorm v⟩, ?_, ?_, ?_, ?_, hc, ?_⟩
      · simp only [hσ]
        generalize (if q.1 < 0 then (-1 : ℝ) else 1) = σ at hσ2
        have : (fun i => σ * v i / vnorm v) ⬝ᵥ (fun i => σ * v i / vnorm v) = (σ * σ) * (v ⬝ᵥ v) / vnorm v ^ 2 := by
          simp only [dotProduct, Fin.sum_univ_three]
          field_simp
        rw [this, hσ2, ← hn2, one_mul, div_self (pow_ne_zero 2 hn)]
      · exact Complex.arg_nonneg_iff.2 hn0
      · exact (Complex.abs_arg_le_pi_div_two_iff.2 (abs_nonneg q.1) |> abs_le.1).2
      · unfold angleAxisOf
        simp only [e]
        rw [← hv, if_pos hn]
      · unfold halfTurn Quat.scale
        simp only [hσ]
        rw [hc, hsn, hab]
        have k : ∀ a b : ℝ, vnorm v * (a * b / vnorm v) = a * b := fun a b => by field_simp
        simp only [k]
        rfl
  obtain ⟨u, ph, h1, h2, h3, h4, h5, h6⟩ := key
  have hσs : q.scale (if q.1 < 0 then -1 else 1) = r.scale ((if q.1 < 0 then -1 else 1) * s) := by
    rw [← hqd]
    simp only [Quat.scale, mul_assoc]
  refine ⟨u, ph, h1, h2, h3, h4, by rw [h5, habs], ⟨(if q.1 < 0 then -1 else 1) * s, ?_, by rw [h6, hσs]⟩, fun h0 => ?_⟩
  · have hσ2 : (if q.1 < 0 then (-1 : ℝ) else 1) * (if q.1 < 0 then -1 else 1) = 1 := by split <;> norm_num
    linear_combination (s * s) * hσ2 + hs
  · rw [h6]
    have hq1 : q.1 = s * r.1 := by rw [← hqd]; rfl
    have hneg : r.neg = r.scale (-1) := by simp [Quat.neg, Quat.scale]
    have hone : r = r.scale 1 := by simp [Quat.scale]
    rw [hσs, hq1]
    rcases mul_self_eq_one_iff.1 hs with rfl | rfl
    · by_cases hl : r.1 < 0
      · rw [if_pos hl, if_pos (by linarith), hneg]; norm_num
      · rw [if_neg hl, if_neg (by linarith)]; norm_num; exact hone.symm
    · rcases lt_or_gt_of_ne h0 with hl | hl
      · rw [if_pos hl, if_neg (by linarith), hneg]; norm_num
      · rw [if_neg hl.le.not_gt, if_pos (by linarith)]; norm_num; exact hone.symm

/-- All that is interpolated, as quaternions. -/
theorem angleAxis_steps {qa qb : Quat} (ha : qa.Unit) (hb : qb.Unit) : ∃ (u : Fin 3 → ℝ) (ph : ℝ), u ⬝ᵥ u = 1 ∧ 0 ≤ ph ∧
    ph ≤ Real.pi / 2 ∧ Real.cos ph = |Quat.dot qa qb| ∧
    quatRot (qa.mul (halfTurn u ph)) = quatRot qb ∧
    (Quat.dot qa qb ≠ 0 → qa.mul (halfTurn u ph) = if Quat.dot qa qb < 0 then qb.neg else qb) ∧
    ∀ n i : ℕ, 1 ≤ n → i ≤ n → (interpolateAngleAxis qa qb n)[i]? =
      some (some (matQuat (quatRot (qa.mul (halfTurn u (i / n * ph)))))) := by
  have hr : (qa.conj.mul qb).Unit := ha.conj.mul hb
  obtain ⟨u, ph, h1, h2, h3, h4, h5, ⟨s, hs, h6⟩, h7⟩ := angleAxis_spec hr
  rw [conj_mul_fst] at h5 h7
  refine ⟨u, ph, h1, h2, h3, h5, ?_, ?_, ?_⟩
  · rw [h6, ← quatRot_mul ha (hr.scale hs), quatRot_scale hs, quatRot_mul ha hr, mul_conj_mul ha]
  · intro h0
    rw [h7 h0]
    split
    · have : ∀ p q : Quat, p.mul q.neg = (p.mul q).neg := by
        intro p q
        simp only [Quat.mul, Quat.neg, Prod.mk.injEq]
        refine ⟨?_, ?_, ?_, ?_⟩ <;> ring
      rw [this, mul_conj_mul ha]
    · rw [mul_conj_mul ha]
  · intro n i hn hi
    unfold interpolateAngleAxis
    simp only
    rw [List.getElem?_map, List.getElem?_range (by omega), Option.map_some, quatRot_conj, quatRot_mul ha.conj hb, h4]
    have hst : stepFrac n i = some ((i : ℝ) / n) := by
      unfold stepFrac
      rw [if_neg (by omega)]
      congr 1
      ring
    rw [hst, Option.map_some]
    have e : (i : ℝ) / n * (2 * ph) = 2 * ((i : ℝ) / n * ph) := by ring
    simp only
    rw [e, axisMatrix_half h1, quatRot_mul ha (halfTurn_unit h1 _)]

/-- C95: interpolating between two orientations about the axis gives `n + 1` unit quaternions; the `i`-th is the first
orientation after a turn by `i / n` of one angle between 0 and π about one axis, and the whole turn leads to the second
orientation. -/
theorem C95_one_axis (qa qb : Quat) (ha : qa.Unit) (hb : qb.Unit) (n : ℕ) (hn : 1 ≤ n) :
    (interpolateAngleAxis qa qb n).length = n + 1 ∧
    ∃ (u : Fin 3 → ℝ) (th : ℝ), u ⬝ᵥ u = 1 ∧ 0 ≤ th ∧ th ≤ Real.pi ∧
      (∀ x, rotated qb x = rotated qa (turnAbout u th x)) ∧
      ∀ i ≤ n, ∃ q, (interpolateAngleAxis qa qb n)[i]? = some (some q) ∧ q.Unit ∧
        ∀ x, rotated q x = rotated qa (turnAbout u (i / n * th) x) := by
  refine ⟨by simp [interpolateAngleAxis], ?_⟩
  obtain ⟨u, ph, h1, h2, h3, -, h5, -, h7⟩ := angleAxis_steps ha hb
  have turn : ∀ t x, rotated qa (turnAbout u (t * (2 * ph)) x) = quatRot (qa.mul (halfTurn u (t * ph))) *ᵥ x := by
    intro t x
    rw [← quatRot_mul ha (halfTurn_unit h1 _), ← axisMatrix_half h1, ← mulVec_mulVec, axisMatrix_turn,
      show 2 * (t * ph) = t * (2 * ph) by ring]
    rfl
  refine ⟨u, 2 * ph, h1, by linarith, by linarith, fun x => ?_, fun i hi => ?_⟩
  · have := turn 1 x
    rw [one_mul, one_mul, h5] at this
    exact this.symm
  · have hu := ha.mul (halfTurn_unit h1 ((i : ℝ) / n * ph))
    obtain ⟨k1, k2⟩ := quatRot_matQuat hu
    refine ⟨_, h7 n i hn hi, k1, fun x => ?_⟩
    rw [turn]
    unfold rotated
    rw [k2]

/-- C95: the first interpolated orientation is the first given one, the last is the second. -/
theorem C95_ends (qa qb : Quat) (ha : qa.Unit) (hb : qb.Unit) (n : ℕ) (hn : 1 ≤ n) :
    (∃ q, (interpolateAngleAxis qa qb n)[0]? = some (some q) ∧ ∀ x, rotated q x = rotated qa x) ∧
    ∃ q, (interpolateAngleAxis qa qb n)[n]? = some (some q) ∧ ∀ x, rotated q x = rotated qb x := by
  obtain ⟨-, u, th, -, -, -, h5, h6⟩ := C95_one_axis qa qb ha hb n hn
  have hn' : (n : ℝ) ≠ 0 := by exact_mod_cast (by omega : n ≠ 0)
  constructor
  · obtain ⟨q, k1, -, k2⟩ := h6 0 (by omega)
    refine ⟨q, k1, fun x => ?_⟩
    rw [k2]
    simp [turnAbout]
  · obtain ⟨q, k1, -, k2⟩ := h6 n le_rfl
    refine ⟨q, k1, fun x => ?_⟩
    rw [k2, h5, div_self hn', one_mul]

/-- C95: without any step the only result has no numbers in it (a division by zero). -/
theorem C95_no_step (qa qb : Quat) : interpolateAngleAxis qa qb 0 = [none] := by
  simp [interpolateAngleAxis, stepFrac]

theorem slerp_halfTurn {qa qb : Quat} (ha : qa.Unit) {u : Fin 3 → ℝ} {ph t : ℝ} (h2 : 0 ≤ ph) (h3 : ph ≤ Real.pi / 2)
    (hc : Real.cos ph = |Quat.dot qa qb|) (hfar : |Quat.dot qa qb| < slerpOne)
    (h : qa.mul (halfTurn u ph) = if Quat.dot qa qb < 0 then qb.neg else qb) :
    slerp qa t qb = qa.mul (halfTurn u (t * ph)) := by
  have hth : Real.arccos |Quat.dot qa qb| = ph := by
    rw [← hc, Real.arccos_cos h2 (by linarith [Real.pi_pos])]
  have hsin : Real.sin ph ≠ 0 := by
    intro h0
    have := Real.sin_sq_add_cos_sq ph
    rw [h0, hc] at this
    unfold slerpOne at hfar
    nlinarith [abs_nonneg (Quat.dot qa qb), show (0 : ℝ) < 1 / 2 ^ 52 by positivity]
  have hs1 : Real.sin ((1 - t) * ph) = Real.sin ph * Real.cos (t * ph) - Real.cos ph * Real.sin (t * ph) := by
    rw [sub_mul, one_mul, Real.sin_sub]
  have hb : qb = if Quat.dot qa qb < 0 then (qa.mul (halfTurn u ph)).neg else qa.mul (halfTurn u ph) := by
    rw [h]
    split
    · simp [Quat.neg]
    · rfl
  have fin : Quat.comb (Real.sin ((1 - t) * ph) / Real.sin ph) qa (Real.sin (t * ph) / Real.sin ph) (qa.mul (halfTurn u ph))
      = qa.mul (halfTurn u (t * ph)) := by
    rw [hs1]
    obtain ⟨w, x, y, z⟩ := qa
    unfold Quat.comb Quat.mul halfTurn
    simp only [Prod.mk.injEq]
    refine ⟨?_, ?_, ?_, ?_⟩ <;> · field_simp; ring
  unfold slerp
  simp only
  rw [if_neg (not_le.2 hfar), hth]
  rw [← fin]
  by_cases hd : Quat.dot qa qb < 0
  · rw [if_pos hd] at hb ⊢
    conv_lhs => rw [hb]
    simp [Quat.comb, Quat.neg]
  · rw [if_neg hd] at hb ⊢
    conv_lhs => rw [hb]

/-- C95: unless the two orientations differ by half a turn (or by less than the threshold of the library, but not at all),
the interpolation about the axis and the spherical interpolation give the same orientations. -/
theorem C95_agrees_with_slerp_partial (qa qb : Quat) (ha : qa.Unit) (hb : qb.Unit) (h0 : Quat.dot qa qb ≠ 0)
    (hfar : |Quat.dot qa qb| < 1 - 1 / 2 ^ 52) (n : ℕ) (hn : 1 ≤ n) (i : ℕ) (hi : i ≤ n) :
    ∃ p q, (interpolateSlerp qa qb n)[i]? = some (some p) ∧ (interpolateAngleAxis qa qb n)[i]? = some (some q) ∧
      ∀ x, rotated p x = rotated q x := by
  obtain ⟨u, ph, h1, h2, h3, h4, -, h6, h7⟩ := angleAxis_steps ha hb
  have hu := ha.mul (halfTurn_unit h1 ((i : ℝ) / n * ph))
  refine ⟨slerp qa (i / n) qb, _, ?_, h7 n i hn hi, fun x => ?_⟩
  · unfold interpolateSlerp
    rw [List.getElem?_map, List.getElem?_range (by omega), Option.map_some]
    have hst : stepFrac n i = some ((i : ℝ) / n) := by
      unfold stepFrac
      rw [if_neg (by omega)]
      congr 1
      ring
    rw [hst, Option.map_some]
  · unfold rotated
    rw [(quatRot_matQuat hu).2, slerp_halfTurn ha h2 h3 h4 hfar (h6 h0)]

/-- The full claim: both interpolations of the library agree for all pairs of orientations that the spherical one tells
apart. -/
def C95_claim : Prop := ∀ qa qb : Quat, qa.Unit → qb.Unit → |Quat.dot qa qb| < 1 - 1 / 2 ^ 52 → ∀ n, 1 ≤ n → ∀ i ≤ n,
  ∃ p q, (interpolateSlerp qa qb n)[i]? = some (some p) ∧ (interpolateAngleAxis qa qb n)[i]? = some (some q) ∧
    ∀ x, rotated p x = rotated q x

theorem half_matQuat : matQuat ((quatRot (1, 0, 0, 0))ᵀ * quatRot (0, -1, 0, 0)) = (0, 1, 0, 0) := by
  have h4 : Real.sqrt 4 = 2 := by
    rw [show (4 : ℝ) = 2 ^ 2 by norm_num]; exact Real.sqrt_sq (by norm_num)
  rw [quatRot_one, transpose_one, one_mul]
  have e : quatRot (0, -1, 0, 0) = !![1, 0, 0; 0, -1, 0; 0, 0, -1] := by
    ext i j
    fin_cases i <;> fin_cases j <;> norm_num [quatRot]
  rw [e]
  generalize hM : (!![1, 0, 0; 0, -1, 0; 0, 0, -1] : Matrix (Fin 3) (Fin 3) ℝ) = M
  have m00 : M 0 0 = 1 := by rw [← hM]; rfl
  have m11 : M 1 1 = -1 := by rw [← hM]; rfl
  have m22 : M 2 2 = -1 := by rw [← hM]; rfl
  have m01 : M 0 1 = 0 := by rw [← hM]; rfl
  have m02 : M 0 2 = 0 := by rw [← hM]; rfl
  have m10 : M 1 0 = 0 := by rw [← hM]; rfl
  have m12 : M 1 2 = 0 := by rw [← hM]; rfl
  have m20 : M 2 0 = 0 := by rw [← hM]; rfl
  have m21 : M 2 1 = 0 := by rw [← hM]; rfl
  unfold matQuat
  simp only [m00, m11, m22]
  rw [if_neg (by norm_num)]
  have f1 : ¬ ((-1 : ℝ) > 1) := by norm_num
  simp only [if_neg f1, m00, zero_add, m11]
  have e2 : (1 : Fin 3) + 1 = 2 := rfl
  have e4 : (1 - -1 - -1 + 1 : ℝ) = 4 := by norm_num
  simp only [e2, m22, m12, m21, m10, m01, m20, m02, e4, h4]
  norm_num
  decide

theorem half_angleAxis : angleAxisOf ((quatRot (1, 0, 0, 0))ᵀ * quatRot (0, -1, 0, 0)) = (Real.pi, ![1, 0, 0]) := by
  unfold angleAxisOf
  simp only
  rw [half_matQuat]
  have hn : vnorm (![1, 0, 0] : Fin 3 → ℝ) = 1 := by simp [vnorm, dotProduct, Fin.sum_univ_three]
  simp only [hn]
  have hI : Complex.arg ⟨|(0 : ℝ)|, 1⟩ = Real.pi / 2 := by
    rw [show (⟨|(0 : ℝ)|, 1⟩ : ℂ) = Complex.I by simp [Complex.ext_iff]]
    exact Complex.arg_I
  rw [hI]
  norm_num
  ring

/-- C95: for half a turn they need not agree: one turns about the x-axis forwards, the other backwards. -/
theorem C95_refuted : ¬ C95_claim := by
  intro h
  obtain ⟨p, q, hp, hq, hx⟩ := h (1, 0, 0, 0) (0, -1, 0, 0) (by norm_num [Quat.Unit]) (by norm_num [Quat.Unit])
    (by norm_num [Quat.dot]) 2 (by norm_num) 1 (by norm_num)
  have hst : stepFrac 2 1 = some (1 / 2) := by
    unfold stepFrac; norm_num
  unfold interpolateSlerp at hp
  rw [List.getElem?_map, List.getElem?_range (by norm_num), Option.map_some, hst, Option.map_some] at hp
  unfold interpolateAngleAxis at hq
  simp only at hq
  rw [List.getElem?_map, List.getElem?_range (by norm_num), Option.map_some, hst, Option.map_some, half_angleAxis] at hq
  obtain rfl := Option.some.inj (Option.some.inj hp)
  obtain rfl := Option.some.inj (Option.some.inj hq)
  have hu1 : (![1, 0, 0] : Fin 3 → ℝ) ⬝ᵥ ![1, 0, 0] = 1 := by simp [dotProduct, Fin.sum_univ_three]
  have h1 := hx ![0, 1, 0]
  unfold rotated at h1
  have hc := Real.cos_pi_div_four
  have e2 : (1 / 2 * Real.pi : ℝ) = 2 * (Real.pi / 4) := by ring
  simp only at h1
  rw [e2, axisMatrix_half hu1, quatRot_mul (by norm_num [Quat.Unit]) (halfTurn_unit hu1 _),
    (quatRot_matQuat (Quat.Unit.mul (by norm_num [Quat.Unit]) (halfTurn_unit hu1 _))).2] at h1
  have h2 := congrFun h1 2
  have e : slerp (1, 0, 0, 0) (1 / 2) (0, -1, 0, 0) = (Real.sqrt 2 / 2, -(Real.sqrt 2 / 2), 0, 0) := by
    have hh : (1 - 1 / 2 : ℝ) * (Real.pi / 2) = Real.pi / 4 := by ring
    have hh' : (1 / 2 : ℝ) * (Real.pi / 2) = Real.pi / 4 := by ring
    have hd : Quat.dot (1, 0, 0, 0) (0, -1, 0, 0) = 0 := by norm_num [Quat.dot]
    unfold slerp
    simp only [hd, abs_zero, Real.arccos_zero, hh, hh', Real.sin_pi_div_two, Real.sin_pi_div_four]
    rw [if_neg (by unfold slerpOne; norm_num)]
    simp [Quat.comb]
  rw [e] at h2
  have s2 : Real.sqrt 2 * Real.sqrt 2 = 2 := Real.mul_self_sqrt (by norm_num)
  simp [quatRot, halfTurn, Quat.mul, Matrix.mulVec, dotProduct, Fin.sum_univ_three] at h2
  nlinarith

/-- `C95_one_axis`, `C95_ends` and `C95_agrees_with_slerp_partial`: a third of a turn in four steps. -/
example : ∃ q, (interpolateAngleAxis (1, 0, 0, 0) (1 / 2, 1 / 2, 1 / 2, 1 / 2) 4)[4]? = some (some q) ∧
    (∀ x, rotated q x = rotated (1 / 2, 1 / 2, 1 / 2, 1 / 2) x) ∧
    ∃ p, (interpolateSlerp (1, 0, 0, 0) (1 / 2, 1 / 2, 1 / 2, 1 / 2) 4)[4]? = some (some p) ∧
      ∀ x, rotated p x = rotated (1 / 2, 1 / 2, 1 / 2, 1 / 2) x := by
  have ha : Quat.Unit (1, 0, 0, 0) := by norm_num [Quat.Unit]
  have hb : Quat.Unit (1 / 2, 1 / 2, 1 / 2, 1 / 2) := by norm_num [Quat.Unit]
  obtain ⟨-, q, h1, h2⟩ := C95_ends _ _ ha hb 4 (by norm_num)
  obtain ⟨p, q', h3, h4, h5⟩ := C95_agrees_with_slerp_partial _ _ ha hb (by norm_num [Quat.dot]) (by norm_num [Quat.dot]) 4
    (by norm_num) 4 le_rfl
  obtain rfl := Option.some.inj (Option.some.inj (h1.symm.trans h4))
  exact ⟨q, h1, h2, p, h3, fun x => (h5 x).trans (h2 x)⟩

end Hrm
