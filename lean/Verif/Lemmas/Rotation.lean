import Verif.Model.MultiBody
import Verif.Lemmas.Shape
import Mathlib.LinearAlgebra.Matrix.Determinant.Basic
import Mathlib.LinearAlgebra.Matrix.NonsingularInverse

/-! # Rotations: angles and quaternions recovered from matrices -/

namespace Hrm

open Matrix

/-! ## 2D -/

theorem rot2_mul (a b : ℝ) : rot2 a * rot2 b = rot2 (a + b) := by
  ext i j
  fin_cases i <;> fin_cases j <;>
    simp [rot2, Matrix.mul_apply, Fin.sum_univ_two, Real.cos_add, Real.sin_add] <;> ring

/-- The recovered angle represents the same rotation. -/
theorem rot2_matAngle (a : ℝ) : rot2 (matAngle (rot2 a)) = rot2 a := by
  have hn : ‖(⟨Real.cos a, Real.sin a⟩ : ℂ)‖ = 1 := by
    rw [Complex.norm_def, Complex.normSq_mk, ← pow_two, ← pow_two, Real.cos_sq_add_sin_sq, Real.sqrt_one]
  have h0 : (⟨Real.cos a, Real.sin a⟩ : ℂ) ≠ 0 := by
    intro h; rw [h, norm_zero] at hn; exact zero_ne_one hn
  have hc : Real.cos (matAngle (rot2 a)) = Real.cos a := by
    have : matAngle (rot2 a) = Complex.arg ⟨Real.cos a, Real.sin a⟩ := by simp [matAngle, rot2]
    rw [this, Complex.cos_arg h0, hn, div_one]
  have hs : Real.sin (matAngle (rot2 a)) = Real.sin a := by
    have : matAngle (rot2 a) = Complex.arg ⟨Real.cos a, Real.sin a⟩ := by simp [matAngle, rot2]
    rw [this, Complex.sin_arg, hn, div_one]
  unfold rot2 at *
  rw [hc, hs]

/-! ## 3D -/

/-- The negative quaternion. -/
def Quat.neg (q : Quat) : Quat := (-q.1, -q.2.1, -q.2.2.1, -q.2.2.2)

/-- The Hamilton product. -/
def Quat.mul (p q : Quat) : Quat :=
  (p.1 * q.1 - p.2.1 * q.2.1 - p.2.2.1 * q.2.2.1 - p.2.2.2 * q.2.2.2,
   p.1 * q.2.1 + p.2.1 * q.1 + p.2.2.1 * q.2.2.2 - p.2.2.2 * q.2.2.1,
   p.1 * q.2.2.1 - p.2.1 * q.2.2.2 + p.2.2.1 * q.1 + p.2.2.2 * q.2.1,
   p.1 * q.2.2.2 + p.2.1 * q.2.2.1 - p.2.2.1 * q.2.1 + p.2.2.2 * q.1)

theorem Quat.Unit.neg {q : Quat} (h : q.Unit) : q.neg.Unit := by
  unfold Quat.Unit Quat.neg at *; simp only; linarith [h]

theorem Quat.Unit.mul {p q : Quat} (hp : p.Unit) (hq : q.Unit) : (p.mul q).Unit := by
  unfold Quat.Unit Quat.mul at *
  simp only
  calc _ = (p.1 ^ 2 + p.2.1 ^ 2 + p.2.2.1 ^ 2 + p.2.2.2 ^ 2) *
      (q.1 ^ 2 + q.2.1 ^ 2 + q.2.2.1 ^ 2 + q.2.2.2 ^ 2) := by ring
    _ = 1 := by rw [hp, hq, one_mul]

theorem quatRot_neg (q : Quat) : quatRot q.neg = quatRot q := by
  ext i j
  fin_cases i <;> fin_cases j <;> simp [quatRot, Quat.neg]

/-- The homogeneous form of the rotation matrix. -/
def quatHom (q : Quat) : Matrix (Fin 3) (Fin 3) ℝ :=
  let w := q.1
  let x := q.2.1
  let y := q.2.2.1
  let z := q.2.2.2
  !![w ^ 2 + x ^ 2 - y ^ 2 - z ^ 2, 2 * (x * y - w * z), 2 * (x * z + w * y);
     2 * (x * y + w * z), w ^ 2 - x ^ 2 + y ^ 2 - z ^ 2, 2 * (y * z - w * x);
     2 * (x * z - w * y), 2 * (y * z + w * x), w ^ 2 - x ^ 2 - y ^ 2 + z ^ 2]

theorem quatRot_eq_hom {q : Quat} (h : q.Unit) : quatRot q = quatHom q := by
  obtain ⟨w, x, y, z⟩ := q
  unfold Quat.Unit at h
  simp only at h
  ext i j
  fin_cases i <;> fin_cases j <;> simp [quatRot, quatHom] <;> first | ring1 | linarith

theorem quatRot_mul {p q : Quat} (hp : p.Unit) (hq : q.Unit) :
    quatRot p * quatRot q = quatRot (p.mul q) := by
  rw [quatRot_eq_hom hp, quatRot_eq_hom hq, quatRot_eq_hom (hp.mul hq)]
  ext i j
  fin_cases i <;> fin_cases j <;>
    simp [quatHom, Quat.mul, Matrix.mul_apply, Fin.sum_univ_three] <;> ring

theorem quatRot_one : quatRot (1, 0, 0, 0) = 1 := by
  ext i j
  fin_cases i <;> fin_cases j <;> simp [quatRot]

/-- One branch of Shoemake's method: dividing by the chosen component. -/
theorem shoemake {a b : ℝ} (ha : a ≠ 0) : (4 * a * b) * ((1 / 2) / Real.sqrt (4 * a ^ 2)) = sgn a * b ∧
    1 / 2 * Real.sqrt (4 * a ^ 2) = sgn a * a := by
  have h2 : Real.sqrt (4 * a ^ 2) = 2 * |a| := by
    rw [show 4 * a ^ 2 = (2 * a) ^ 2 by ring, Real.sqrt_sq_eq_abs, abs_mul]; norm_num
  rw [h2]
  unfold sgn
  rcases lt_or_gt_of_ne ha with h | h
  · rw [if_pos h, abs_of_neg h]
    constructor <;> field_simp <;> ring
  · rw [if_neg (not_lt.2 h.le), if_pos h, abs_of_pos h]
    constructor <;> field_simp <;> ring

/-- Multiplication of a quaternion by a sign. -/
def Quat.scale (s : ℝ) (q : Quat) : Quat := (s * q.1, s * q.2.1, s * q.2.2.1, s * q.2.2.2)

/-- Eigen's conversion applied to the matrix of a unit quaternion returns the quaternion or its
negative. -/
theorem matQuat_quatRot {q : Quat} (h : q.Unit) : ∃ s : ℝ, s * s = 1 ∧ matQuat (quatRot q) = q.scale s := by
  rw [quatRot_eq_hom h]
  obtain ⟨w, x, y, z⟩ := q
  unfold Quat.Unit at h
  simp only at h
  set M := quatHom (w, x, y, z) with hM
  have m00 : M 0 0 = w ^ 2 + x ^ 2 - y ^ 2 - z ^ 2 := rfl
  have m11 : M 1 1 = w ^ 2 - x ^ 2 + y ^ 2 - z ^ 2 := rfl
  have m22 : M 2 2 = w ^ 2 - x ^ 2 - y ^ 2 + z ^ 2 := rfl
  have m01 : M 0 1 = 2 * (x * y - w * z) := rfl
  have m10 : M 1 0 = 2 * (x * y + w * z) := rfl
  have m02 : M 0 2 = 2 * (x * z + w * y) := rfl
  have m20 : M 2 0 = 2 * (x * z - w * y) := rfl
  have m12 : M 1 2 = 2 * (y * z - w * x) := rfl
  have m21 : M 2 1 = 2 * (y * z + w * x) := rfl
  clear_value M
  have f1 : (1 : Fin 3) + 1 = 2 := rfl
  have f2 : (2 : Fin 3) + 1 = 0 := rfl
  unfold matQuat
  by_cases htr : 0 < M 0 0 + M 1 1 + M 2 2
  · have hw : w ≠ 0 := by rintro rfl; rw [m00, m11, m22] at htr; nlinarith
    refine ⟨sgn w, sgn_sq hw, ?_⟩
    have e : M 0 0 + M 1 1 + M 2 2 + 1 = 4 * w ^ 2 := by rw [m00, m11, m22]; linarith
    simp only [if_pos htr, e, Quat.scale]
    rw [(shoemake (b := w) hw).2, ← (shoemake (b := x) hw).1, ← (shoemake (b := y) hw).1,
      ← (shoemake (b := z) hw).1, m21, m12, m02, m20, m10, m01]
    ring_nf
  · have hw4 : 4 * w ^ 2 ≤ 1 := by rw [m00, m11, m22] at htr; linarith
    simp only [if_neg htr]
    by_cases c1 : M 1 1 > M 0 0
    · simp only [if_pos c1]
      by_cases c2 : M 2 2 > M 1 1
      · have hz : z ≠ 0 := by
          rintro rfl; rw [m00, m11] at c1; rw [m11, m22] at c2; nlinarith
        refine ⟨sgn z, sgn_sq hz, ?_⟩
        have e : M 2 2 - M 0 0 - M 1 1 + 1 = 4 * z ^ 2 := by rw [m00, m11, m22]; linarith
        simp only [if_pos c2, f1, f2, zero_add, e, Quat.scale]
        rw [← (shoemake (b := w) hz).1, ← (shoemake (b := x) hz).1, ← (shoemake (b := y) hz).1, ← (shoemake (b := z) hz).2]
        simp [m01, m02, m10, m12, m20, m21]
        ring_nf
        simp
      · have hy : y ≠ 0 := by
          rintro rfl; rw [m00, m11] at c1; rw [m11, m22] at c2; nlinarith
        refine ⟨sgn y, sgn_sq hy, ?_⟩
        have e : M 1 1 - M 2 2 - M 0 0 + 1 = 4 * y ^ 2 := by rw [m00, m11, m22]; linarith
        simp only [if_neg c2, f1, f2, zero_add, e, Quat.scale]
        rw [← (shoemake (b := w) hy).1, ← (shoemake (b := x) hy).1, ← (shoemake (b := y) hy).2, ← (shoemake (b := z) hy).1]
        simp [m01, m02, m10, m12, m20, m21]
        ring_nf
        simp
    · simp only [if_neg c1]
      by_cases c2 : M 2 2 > M 0 0
      · have hz : z ≠ 0 := by
          rintro rfl; rw [m00, m11] at c1; rw [m00, m22] at c2; nlinarith
        refine ⟨sgn z, sgn_sq hz, ?_⟩
        have e : M 2 2 - M 0 0 - M 1 1 + 1 = 4 * z ^ 2 := by rw [m00, m11, m22]; linarith
        simp only [if_pos c2, f1, f2, zero_add, e, Quat.scale]
        rw [← (shoemake (b := w) hz).1, ← (shoemake (b := x) hz).1, ← (shoemake (b := y) hz).1, ← (shoemake (b := z) hz).2]
        simp [m01, m02, m10, m12, m20, m21]
        ring_nf
        simp
      · have hx : x ≠ 0 := by
          rintro rfl; rw [m00, m11] at c1; rw [m00, m22] at c2; nlinarith
        refine ⟨sgn x, sgn_sq hx, ?_⟩
        have e : M 0 0 - M 1 1 - M 2 2 + 1 = 4 * x ^ 2 := by rw [m00, m11, m22]; linarith
        simp only [if_neg c2, f1, f2, zero_add, e, Quat.scale]
        rw [← (shoemake (b := w) hx).1, ← (shoemake (b := x) hx).2, ← (shoemake (b := y) hx).1, ← (shoemake (b := z) hx).1]
        simp [m01, m02, m10, m12, m20, m21]
        ring_nf
        simp

theorem quatRot_scale {q : Quat} {s : ℝ} (h : s * s = 1) : quatRot (q.scale s) = quatRot q := by
  obtain ⟨w, x, y, z⟩ := q
  have k : ∀ a b : ℝ, 2 * (s * a) * (s * b) = 2 * a * b := fun a b => by
    calc 2 * (s * a) * (s * b) = (s * s) * (2 * a * b) := by ring
      _ = _ := by rw [h, one_mul]
  unfold quatRot Quat.scale
  simp only [k]

theorem Quat.Unit.scale {q : Quat} {s : ℝ} (hq : q.Unit) (h : s * s = 1) : (q.scale s).Unit := by
  unfold Quat.Unit Quat.scale at *
  simp only [mul_pow, ← mul_add, hq]
  nlinarith

/-- Eigen's conversion recovers a quaternion of the same rotation. -/
theorem quatRot_matQuat {q : Quat} (h : q.Unit) :
    (matQuat (quatRot q)).Unit ∧ quatRot (matQuat (quatRot q)) = quatRot q := by
  obtain ⟨s, hs, e⟩ := matQuat_quatRot h
  rw [e]
  exact ⟨h.scale hs, quatRot_scale hs⟩

/-- A rotation whose trace exceeds `-1` is the matrix of a unit quaternion. -/
theorem rot3_quat_aux {R : Matrix (Fin 3) (Fin 3) ℝ} (ho : Orth R) (hd : R.det = 1)
    (htr : 0 < 1 + (R 0 0 + R 1 1 + R 2 2)) : ∃ q : Quat, q.Unit ∧ quatRot q = R := by
  have hadj : R.adjugate = Rᵀ := by
    have h1 : R.adjugate * R = 1 := by rw [adjugate_mul, hd, one_smul]
    calc R.adjugate = R.adjugate * (R * Rᵀ) := by rw [ho.right, mul_one]
      _ = Rᵀ := by rw [← mul_assoc, h1, one_mul]
  have col : ∀ i j, (Rᵀ * R) i j = (1 : Matrix (Fin 3) (Fin 3) ℝ) i j := fun i j => by rw [ho.left]
  have row : ∀ i j, (R * Rᵀ) i j = (1 : Matrix (Fin 3) (Fin 3) ℝ) i j := fun i j => by rw [ho.right]
  have cof : ∀ i j, R.adjugate i j = R j i := fun i j => by rw [hadj]; rfl
  simp only [Matrix.mul_apply, Fin.sum_univ_three, transpose_apply] at col row
  rw [adjugate_fin_three] at cof
  have c00 := col 0 0; have c11 := col 1 1; have c22 := col 2 2
  have c01 := col 0 1; have c02 := col 0 2; have c12 := col 1 2
  have r00 := row 0 0; have r11 := row 1 1; have r22 := row 2 2
  have r01 := row 0 1; have r02 := row 0 2; have r12 := row 1 2
  have f00 := cof 0 0; have f01 := cof 0 1; have f02 := cof 0 2
  have f10 := cof 1 0; have f11 := cof 1 1; have f12 := cof 1 2
  have f20 := cof 2 0; have f21 := cof 2 1; have f22 := cof 2 2
  clear col row cof hadj
  simp at c00 c11 c22 c01 c02 c12 r00 r11 r22 r01 r02 r12 f00 f01 f02 f10 f11 f12 f20 f21 f22
  set S := 1 + (R 0 0 + R 1 1 + R 2 2) with hS
  have xx : (R 2 1 - R 1 2) ^ 2 = S * (1 + R 0 0 - R 1 1 - R 2 2) := by
    rw [hS]; linear_combination 2 * f00 + r11 + r22 - c00
  have yy : (R 0 2 - R 2 0) ^ 2 = S * (1 + R 1 1 - R 0 0 - R 2 2) := by
    rw [hS]; linear_combination 2 * f11 + r22 + r00 - c11
  have zz : (R 1 0 - R 0 1) ^ 2 = S * (1 + R 2 2 - R 0 0 - R 1 1) := by
    rw [hS]; linear_combination 2 * f22 + r00 + r11 - c22
  have xy : (R 2 1 - R 1 2) * (R 0 2 - R 2 0) = S * (R 1 0 + R 0 1) := by
    rw [hS]; linear_combination f01 + f10 - c01 - r01
  have yz : (R 0 2 - R 2 0) * (R 1 0 - R 0 1) = S * (R 2 1 + R 1 2) := by
    rw [hS]; linear_combination f12 + f21 - c12 - r12
  have xz : (R 2 1 - R 1 2) * (R 1 0 - R 0 1) = S * (R 0 2 + R 2 0) := by
    rw [hS]; linear_combination f02 + f20 - c02 - r02
  have hq0 : 0 < Real.sqrt S := Real.sqrt_pos.2 htr
  have hq2 : Real.sqrt S * Real.sqrt S = S := Real.mul_self_sqrt htr.le
  set r := Real.sqrt S
  have prod : ∀ a b c : ℝ, a * b = S * c → a / (2 * r) * (b / (2 * r)) = c / 4 := by
    intro a b c h
    rw [div_mul_div_comm, h, show 2 * r * (2 * r) = 4 * (r * r) by ring, hq2]
    field_simp
  have prodw : ∀ a : ℝ, a / (2 * r) * (r / 2) = a / 4 := by
    intro a; field_simp; norm_num
  have X2 := prod _ _ _ ((pow_two _).symm.trans xx)
  have Y2 := prod _ _ _ ((pow_two _).symm.trans yy)
  have Z2 := prod _ _ _ ((pow_two _).symm.trans zz)
  have XY := prod _ _ _ xy
  have YZ := prod _ _ _ yz
  have XZ := prod _ _ _ xz
  have WX := prodw (R 2 1 - R 1 2)
  have WY := prodw (R 0 2 - R 2 0)
  have WZ := prodw (R 1 0 - R 0 1)
  refine ⟨(r / 2, (R 2 1 - R 1 2) / (2 * r), (R 0 2 - R 2 0) / (2 * r), (R 1 0 - R 0 1) / (2 * r)), ?_, ?_⟩
  · unfold Quat.Unit
    simp only [pow_two, X2, Y2, Z2]
    linarith
  · generalize (R 2 1 - R 1 2) / (2 * r) = x at *
    generalize (R 0 2 - R 2 0) / (2 * r) = y at *
    generalize (R 1 0 - R 0 1) / (2 * r) = z at *
    generalize r / 2 = w at *
    clear xx yy zz xy yz xz
    ext i j
    fin_cases i <;> fin_cases j <;> simp [quatRot] <;> linarith

/-- Every rotation matrix is the matrix of a unit quaternion. -/
theorem rot3_quat {R : Matrix (Fin 3) (Fin 3) ℝ} (ho : Orth R) (hd : R.det = 1) :
    ∃ q : Quat, q.Unit ∧ quatRot q = R := by
  -- turn by half a turn about an axis so that the trace exceeds -1
  have turn : ∀ p : Quat, p.Unit → 0 < 1 + ((R * quatRot p) 0 0 + (R * quatRot p) 1 1 + (R * quatRot p) 2 2) →
      (quatRot p).det = 1 → quatRot p * quatRot p = 1 → ∃ q : Quat, q.Unit ∧ quatRot q = R := by
    intro p hp ht hdp hpp
    have hop := quatRot_orth hp
    have ho' : Orth (R * quatRot p) := by
      constructor
      · rw [transpose_mul, mul_assoc, ← mul_assoc Rᵀ, ho.left, one_mul, hop.left]
      · rw [transpose_mul, mul_assoc, ← mul_assoc (quatRot p), hop.right, one_mul, ho.right]
    obtain ⟨q, hq, e⟩ := rot3_quat_aux ho' (by rw [det_mul, hd, hdp, one_mul]) ht
    refine ⟨q.mul p, hq.mul hp, ?_⟩
    rw [← quatRot_mul hq hp, e, mul_assoc, hpp, mul_one]
  by_cases h0 : 0 < 1 + (R 0 0 + R 1 1 + R 2 2)
  · exact rot3_quat_aux ho hd h0
  by_cases h1 : 0 < 1 + (R 0 0 - R 1 1 - R 2 2)
  · refine turn (0, 1, 0, 0) (by simp [Quat.Unit]) ?_ ?_ ?_
    · have e : 1 + ((R * quatRot (0, 1, 0, 0)) 0 0 + (R * quatRot (0, 1, 0, 0)) 1 1 +
        (R * quatRot (0, 1, 0, 0)) 2 2) = 1 + (R 0 0 - R 1 1 - R 2 2) := by
        simp [quatRot, Matrix.mul_apply, Fin.sum_univ_three]; ring
      rw [e]; exact h1
    · simp [quatRot, det_fin_three]; norm_num
    · ext i j; fin_cases i <;> fin_cases j <;> simp [quatRot, Matrix.mul_apply, Fin.sum_univ_three] <;> norm_num
  by_cases h2 : 0 < 1 + (R 1 1 - R 0 0 - R 2 2)
  · refine turn (0, 0, 1, 0) (by simp [Quat.Unit]) ?_ ?_ ?_
    · have e : 1 + ((R * quatRot (0, 0, 1, 0)) 0 0 + (R * quatRot (0, 0, 1, 0)) 1 1 +
        (R * quatRot (0, 0, 1, 0)) 2 2) = 1 + (R 1 1 - R 0 0 - R 2 2) := by
        simp [quatRot, Matrix.mul_apply, Fin.sum_univ_three]; ring
      rw [e]; exact h2
    · simp [quatRot, det_fin_three]; norm_num
    · ext i j; fin_cases i <;> fin_cases j <;> simp [quatRot, Matrix.mul_apply, Fin.sum_univ_three] <;> norm_num
  · refine turn (0, 0, 0, 1) (by simp [Quat.Unit]) ?_ ?_ ?_
    · have e : 1 + ((R * quatRot (0, 0, 0, 1)) 0 0 + (R * quatRot (0, 0, 0, 1)) 1 1 +
        (R * quatRot (0, 0, 0, 1)) 2 2) = 1 + (R 2 2 - R 0 0 - R 1 1) := by
        simp [quatRot, Matrix.mul_apply, Fin.sum_univ_three]; ring
      rw [e]; linarith
    · simp [quatRot, det_fin_three]; norm_num
    · ext i j; fin_cases i <;> fin_cases j <;> simp [quatRot, Matrix.mul_apply, Fin.sum_univ_three] <;> norm_num

/-- Eigen's conversion is right for every rotation matrix. -/
theorem rot3_matQuat {R : Matrix (Fin 3) (Fin 3) ℝ} (ho : Orth R) (hd : R.det = 1) :
    (matQuat R).Unit ∧ quatRot (matQuat R) = R := by
  obtain ⟨q, hq, rfl⟩ := rot3_quat ho hd
  exact quatRot_matQuat hq

end Hrm
