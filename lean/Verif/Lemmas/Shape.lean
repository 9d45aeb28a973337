import Verif.Spec.Shape
import Mathlib.Analysis.MeanInequalities
import Mathlib.Algebra.Order.Chebyshev
import Mathlib.LinearAlgebra.Matrix.DotProduct
import Mathlib.Tactic.LinearCombination
import Mathlib.Tactic.FieldSimp
import Mathlib.Tactic.Positivity
import Mathlib.Tactic.FinCases
import Mathlib.Tactic.Abel
import Mathlib.Analysis.Convex.Basic

/-!
# Lemmas on shapes: Cauchy-Schwarz, Hölder, supports of ellipsoids and superquadrics
-/

namespace Hrm

open Matrix

section linear
variable {n : ℕ}

theorem dot_self_nonneg' (v : Fin n → ℝ) : 0 ≤ v ⬝ᵥ v :=
  Finset.sum_nonneg fun _ _ => mul_self_nonneg _

theorem vnorm_nonneg (v : Fin n → ℝ) : 0 ≤ vnorm v := Real.sqrt_nonneg _

theorem vnorm_sq (v : Fin n → ℝ) : vnorm v * vnorm v = v ⬝ᵥ v := Real.mul_self_sqrt (dot_self_nonneg' v)

theorem vnorm_eq_zero {v : Fin n → ℝ} (h : vnorm v = 0) : v = 0 := by
  have := vnorm_sq v
  rw [h, mul_zero] at this
  exact dotProduct_self_eq_zero.1 this.symm

theorem cauchy (x y : Fin n → ℝ) : x ⬝ᵥ y ≤ vnorm x * vnorm y := by
  rw [vnorm, vnorm, ← Real.sqrt_mul (dot_self_nonneg' x)]
  apply Real.le_sqrt_of_sq_le
  have := Finset.sum_mul_sq_le_sq_mul_sq Finset.univ x y
  simpa [dotProduct, pow_two] using this

/-- A rotation (orthogonal matrix). -/
structure Orth (R : Matrix (Fin n) (Fin n) ℝ) : Prop where
  left : Rᵀ * R = 1
  right : R * Rᵀ = 1

theorem dot_mulVec (A : Matrix (Fin n) (Fin n) ℝ) (x y : Fin n → ℝ) : x ⬝ᵥ (A *ᵥ y) = (Aᵀ *ᵥ x) ⬝ᵥ y := by
  rw [Matrix.dotProduct_mulVec, mulVec_transpose]

theorem Orth.dot {R : Matrix (Fin n) (Fin n) ℝ} (h : Orth R) (x y : Fin n → ℝ) :
    (R *ᵥ x) ⬝ᵥ (R *ᵥ y) = x ⬝ᵥ y := by
  rw [dot_mulVec, mulVec_mulVec, h.left, one_mulVec]

theorem Orth.transpose {R : Matrix (Fin n) (Fin n) ℝ} (h : Orth R) : Orth Rᵀ :=
  ⟨by rw [transpose_transpose]; exact h.right, by rw [transpose_transpose]; exact h.left⟩

theorem Orth.injective {R : Matrix (Fin n) (Fin n) ℝ} (h : Orth R) {x : Fin n → ℝ} (hx : R *ᵥ x = 0) :
    x = 0 := by
  have := h.dot x x
  rw [hx, dotProduct_zero] at this
  exact dotProduct_self_eq_zero.1 this.symm

/-- The symmetric square root matrix of an ellipsoid. -/
noncomputable def ellMat (R : Matrix (Fin n) (Fin n) ℝ) (d : Fin n → ℝ) : Matrix (Fin n) (Fin n) ℝ :=
  R * diagonal d * Rᵀ

theorem ellMat_symm (R : Matrix (Fin n) (Fin n) ℝ) (d : Fin n → ℝ) : (ellMat R d)ᵀ = ellMat R d := by
  simp only [ellMat, transpose_mul, diagonal_transpose, transpose_transpose, Matrix.mul_assoc]

theorem ellMat_mulVec (R : Matrix (Fin n) (Fin n) ℝ) (d : Fin n → ℝ) (x : Fin n → ℝ) :
    ellMat R d *ᵥ x = R *ᵥ (diagonal d *ᵥ (Rᵀ *ᵥ x)) := by
  simp only [ellMat, mulVec_mulVec, Matrix.mul_assoc]

theorem ellMat_injective {R : Matrix (Fin n) (Fin n) ℝ} (h : Orth R) {d : Fin n → ℝ} (hd : ∀ i, 0 < d i)
    {x : Fin n → ℝ} (hx : ellMat R d *ᵥ x = 0) : x = 0 := by
  rw [ellMat_mulVec] at hx
  have h1 := h.injective hx
  have h2 : Rᵀ *ᵥ x = 0 := by
    funext i
    have := congrFun h1 i
    rw [mulVec_diagonal, Pi.zero_apply, mul_eq_zero] at this
    exact this.resolve_left (hd i).ne'
  exact h.transpose.injective h2

/-- Support point of the ellipsoid `T (unit ball)` in the direction `g`. -/
theorem ell_support {T : Matrix (Fin n) (Fin n) ℝ} (hT : Tᵀ = T) {g : Fin n → ℝ} (hg : vnorm (T *ᵥ g) ≠ 0) :
    (∃ w : Fin n → ℝ, w ⬝ᵥ w = 1 ∧ (1 / vnorm (T *ᵥ g)) • (T *ᵥ (T *ᵥ g)) = T *ᵥ w) ∧
    g ⬝ᵥ ((1 / vnorm (T *ᵥ g)) • (T *ᵥ (T *ᵥ g))) = vnorm (T *ᵥ g) ∧
    ∀ u : Fin n → ℝ, u ⬝ᵥ u ≤ 1 → g ⬝ᵥ (T *ᵥ u) ≤ vnorm (T *ᵥ g) := by
  have hs := vnorm_sq (T *ᵥ g)
  refine ⟨⟨(1 / vnorm (T *ᵥ g)) • (T *ᵥ g), ?_, ?_⟩, ?_, ?_⟩
  · rw [dotProduct_smul, smul_dotProduct, ← hs, smul_eq_mul, smul_eq_mul]
    field_simp
  · rw [mulVec_smul]
  · rw [dotProduct_smul, dot_mulVec, hT, ← hs, smul_eq_mul]
    field_simp
  · intro u hu
    rw [dot_mulVec, hT]
    refine (cauchy _ _).trans ?_
    have : vnorm u ≤ 1 := Real.sqrt_le_one.2 hu
    calc _ ≤ vnorm (T *ᵥ g) * 1 := mul_le_mul_of_nonneg_left this (vnorm_nonneg _)
      _ = _ := mul_one _

/-- The ellipsoid `R (diag d (unit ball))` as `T (unit ball)`. -/
theorem ell_mem {R : Matrix (Fin n) (Fin n) ℝ} (h : Orth R) {d : Fin n → ℝ} (hd : ∀ i, 0 < d i) :
    {x | ∃ p : Fin n → ℝ, (∑ i, (p i / d i) ^ 2) ≤ 1 ∧ x = R *ᵥ p} =
      {x | ∃ u : Fin n → ℝ, u ⬝ᵥ u ≤ 1 ∧ x = ellMat R d *ᵥ u} := by
  ext x
  constructor
  · rintro ⟨p, hp, rfl⟩
    refine ⟨R *ᵥ (fun i => p i / d i), ?_, ?_⟩
    · rw [h.dot]; simpa [dotProduct, pow_two] using hp
    · rw [ellMat_mulVec, mulVec_mulVec _ Rᵀ R, h.left, one_mulVec]
      congr 1
      funext i
      rw [mulVec_diagonal, mul_div_cancel₀ _ (hd i).ne']
  · rintro ⟨u, hu, rfl⟩
    refine ⟨diagonal d *ᵥ (Rᵀ *ᵥ u), ?_, ?_⟩
    · have : ∀ i, (diagonal d *ᵥ (Rᵀ *ᵥ u)) i / d i = (Rᵀ *ᵥ u) i := by
        intro i
        rw [mulVec_diagonal, mul_div_cancel_left₀ _ (hd i).ne']
      simp only [this]
      have h2 := h.transpose.dot u u
      rw [← h2] at hu
      simpa [dotProduct, pow_two] using hu
    · rw [ellMat_mulVec]

end linear

/-! ## Rotations -/

theorem rot2_orth (th : ℝ) : Orth (rot2 th) := by
  have h := Real.sin_sq_add_cos_sq th
  constructor <;> ext i j <;> fin_cases i <;> fin_cases j <;>
    simp [rot2, Matrix.mul_apply, Fin.sum_univ_two] <;> linarith

/-- A unit quaternion. -/
def Quat.Unit (q : Quat) : Prop := q.1 ^ 2 + q.2.1 ^ 2 + q.2.2.1 ^ 2 + q.2.2.2 ^ 2 = 1

theorem quatRot_orth {q : Quat} (h : q.Unit) : Orth (quatRot q) := by
  obtain ⟨w, x, y, z⟩ := q
  simp only [Quat.Unit] at h
  have hw : w ^ 2 = 1 - x ^ 2 - y ^ 2 - z ^ 2 := by linarith
  constructor <;> ext i j <;> fin_cases i <;> fin_cases j <;>
    simp [quatRot, Matrix.mul_apply, Fin.sum_univ_three] <;> ring_nf <;> simp only [hw] <;> ring

/-! ## Hölder -/

theorem sgn_mul_abs (v : ℝ) : sgn v * |v| = v := by
  unfold sgn
  split
  · rename_i h; rw [abs_of_neg h]; ring
  · split
    · rename_i _ h; rw [abs_of_pos h]; ring
    · have : v = 0 := le_antisymm (not_lt.1 ‹_›) (not_lt.1 ‹_›)
      rw [this]; simp

theorem sgn_sq {v : ℝ} (h : v ≠ 0) : sgn v * sgn v = 1 := by
  unfold sgn
  split
  · norm_num
  · split
    · norm_num
    · exact absurd (le_antisymm (not_lt.1 ‹_›) (not_lt.1 ‹_›)) h

theorem abs_sgn {v : ℝ} (h : v ≠ 0) : |sgn v| = 1 := by
  unfold sgn
  split
  · norm_num
  · split
    · norm_num
    · exact absurd (le_antisymm (not_lt.1 ‹_›) (not_lt.1 ‹_›)) h

/-- The sine or the cosine. -/
noncomputable def sc (th : ℝ) (isSine : Bool) : ℝ := if isSine then Real.sin th else Real.cos th

theorem expFun_eq (th p : ℝ) (s : Bool) : expFun th p s = sgn (sc th s) * |sc th s| ^ p := by
  unfold expFun sc
  cases s <;> simp

theorem abs_expFun (th : ℝ) {p : ℝ} (hp : 0 < p) (s : Bool) : |expFun th p s| = |sc th s| ^ p := by
  rw [expFun_eq, abs_mul, abs_of_nonneg (Real.rpow_nonneg (abs_nonneg _) _)]
  by_cases h : sc th s = 0
  · rw [h, abs_zero, Real.zero_rpow hp.ne', mul_zero]
  · rw [abs_sgn h, one_mul]

theorem expFun_mul (th : ℝ) {p q : ℝ} (hp : 0 < p) (hq : 0 < q) (h2 : p + q = 2) (s : Bool) :
    expFun th p s * expFun th q s = sc th s ^ 2 := by
  rw [expFun_eq, expFun_eq]
  by_cases h : sc th s = 0
  · rw [h, abs_zero, Real.zero_rpow hp.ne', mul_zero, zero_mul]; norm_num
  · rw [mul_mul_mul_comm, sgn_sq h, one_mul, ← Real.rpow_add (abs_pos.2 h), h2, Real.rpow_two, sq_abs]

theorem sc_sq (th : ℝ) : |sc th false| ^ 2 + |sc th true| ^ 2 = 1 := by
  have := Real.cos_sq_add_sin_sq th
  simpa [sc, sq_abs] using this

/-- Hölder for two terms, with a unit weight vector. -/
theorem holder2 {u v X Y e : ℝ} (hu : 0 ≤ u) (hv : 0 ≤ v) (huv : u ^ 2 + v ^ 2 = 1) (hX : 0 ≤ X)
    (hY : 0 ≤ Y) (he : 0 < e) (he2 : e < 2) :
    u ^ (2 - e) * X + v ^ (2 - e) * Y ≤ (X ^ (2 / e) + Y ^ (2 / e)) ^ (e / 2) := by
  have hc : (2 / (2 - e)).HolderConjugate (2 / e) := by
    rw [Real.holderConjugate_iff]
    constructor
    · rw [lt_div_iff₀ (by linarith)]; linarith
    · have : 2 - e ≠ 0 := by linarith
      field_simp
      ring
  have h := Real.inner_le_Lp_mul_Lq Finset.univ ![u ^ (2 - e), v ^ (2 - e)] ![X, Y] hc
  simp only [Fin.sum_univ_two, cons_val_zero, cons_val_one] at h
  have key : ∀ t : ℝ, 0 ≤ t → |t ^ (2 - e)| ^ (2 / (2 - e)) = t ^ 2 := by
    intro t ht
    rw [abs_of_nonneg (Real.rpow_nonneg ht _), ← Real.rpow_mul ht,
      mul_div_cancel₀ _ (by linarith), Real.rpow_two]
  rw [key u hu, key v hv, huv, Real.one_rpow, one_mul, abs_of_nonneg hX, abs_of_nonneg hY,
    one_div_div] at h
  exact h

theorem div_abs_le {a b c : ℝ} : a / c * b ≤ |a| * |b / c| := by
  calc a / c * b = a * (b / c) := by ring
    _ ≤ |a * (b / c)| := le_abs_self _
    _ = _ := abs_mul _ _

/-! ## Superellipses -/

namespace SuperEllipse

/-- Outward normal of the canonical superellipse at angle `th`. -/
noncomputable def normal (E : SuperEllipse) (th : ℝ) : Fin 2 → ℝ :=
  ![expFun th (2 - E.eps) false / E.a, expFun th (2 - E.eps) true / E.b]

/-- Canonical surface point. -/
noncomputable def canon (E : SuperEllipse) (th : ℝ) : Fin 2 → ℝ :=
  ![E.a * expFun th E.eps false, E.b * expFun th E.eps true]

theorem abs_pow_eps {th e a : ℝ} (ha : 0 < a) (he : 0 < e) (s : Bool) :
    |a * expFun th e s / a| ^ (2 / e) = |sc th s| ^ 2 := by
  rw [mul_div_cancel_left₀ _ ha.ne', abs_expFun th he, ← Real.rpow_mul (abs_nonneg _),
    mul_div_cancel₀ _ he.ne', Real.rpow_two]

theorem implicit_canon {E : SuperEllipse} (h : E.Ok) (th : ℝ) : E.implicit (E.canon th) = 1 := by
  simp only [implicit, canon, cons_val_zero, cons_val_one]
  rw [abs_pow_eps h.a h.lo, abs_pow_eps h.b h.lo, sc_sq]

theorem normal_canon {E : SuperEllipse} (h : E.Ok) (th : ℝ) : E.normal th ⬝ᵥ E.canon th = 1 := by
  have h1 := expFun_mul th h.lo (sub_pos.2 h.hi) (by ring) false
  have h2 := expFun_mul th h.lo (sub_pos.2 h.hi) (by ring) true
  have ha := h.a.ne'
  have hb := h.b.ne'
  simp only [normal, canon, dotProduct, Fin.sum_univ_two, cons_val_zero, cons_val_one]
  have := sc_sq th
  rw [sq_abs, sq_abs, ← h1, ← h2] at this
  field_simp
  linarith

theorem implicit_nonneg (E : SuperEllipse) (p : Fin 2 → ℝ) : 0 ≤ E.implicit p :=
  add_nonneg (Real.rpow_nonneg (abs_nonneg _) _) (Real.rpow_nonneg (abs_nonneg _) _)

theorem normal_le {E : SuperEllipse} (h : E.Ok) (th : ℝ) {p : Fin 2 → ℝ} (hp : E.implicit p ≤ 1) :
    E.normal th ⬝ᵥ p ≤ 1 := by
  have hh := holder2 (abs_nonneg (sc th false)) (abs_nonneg (sc th true)) (sc_sq th)
    (abs_nonneg (p 0 / E.a)) (abs_nonneg (p 1 / E.b)) h.lo h.hi
  have h1 : (E.implicit p) ^ (E.eps / 2) ≤ 1 :=
    Real.rpow_le_one (E.implicit_nonneg p) hp (by linarith [h.lo])
  simp only [normal, dotProduct, Fin.sum_univ_two, cons_val_zero, cons_val_one]
  have e1 := @div_abs_le (expFun th (2 - E.eps) false) (p 0) E.a
  have e2 := @div_abs_le (expFun th (2 - E.eps) true) (p 1) E.b
  rw [abs_expFun th (sub_pos.2 h.hi)] at e1 e2
  unfold implicit at h1
  linarith

end SuperEllipse

/-! ## Superquadrics -/

namespace SuperQuadrics

/-- Canonical surface point. -/
noncomputable def canon (Q : SuperQuadrics) (p : ℝ × ℝ) : Fin 3 → ℝ :=
  ![Q.a * (expFun p.1 Q.e1 false * expFun p.2 Q.e2 false),
    Q.b * (expFun p.1 Q.e1 false * expFun p.2 Q.e2 true), Q.c * (expFun p.1 Q.e1 true * 1)]

theorem implicit_canon {Q : SuperQuadrics} (h : Q.Ok) (p : ℝ × ℝ) : Q.implicit (Q.canon p) = 1 := by
  have key : ∀ s, ∀ a : ℝ, 0 < a → |a * (expFun p.1 Q.e1 false * expFun p.2 Q.e2 s) / a| ^ (2 / Q.e2) =
      (|sc p.1 false| ^ Q.e1) ^ (2 / Q.e2) * |sc p.2 s| ^ 2 := by
    intro s a ha
    rw [mul_div_cancel_left₀ _ ha.ne', abs_mul, abs_expFun _ h.lo1, abs_expFun _ h.lo2,
      Real.mul_rpow (Real.rpow_nonneg (abs_nonneg _) _) (Real.rpow_nonneg (abs_nonneg _) _)]
    congr 1
    rw [← Real.rpow_mul (abs_nonneg _), mul_div_cancel₀ _ h.lo2.ne', Real.rpow_two]
  have hz : |Q.c * (expFun p.1 Q.e1 true * 1) / Q.c| ^ (2 / Q.e1) = |sc p.1 true| ^ 2 := by
    rw [mul_one]; exact SuperEllipse.abs_pow_eps h.c h.lo1 true
  simp only [implicit, canon, cons_val_zero, cons_val_one, cons_val]
  rw [key false _ h.a, key true _ h.b, hz, ← mul_add, sc_sq, mul_one,
    ← Real.rpow_mul (Real.rpow_nonneg (abs_nonneg _) _), ← Real.rpow_mul (abs_nonneg _)]
  have : Q.e1 * (2 / Q.e2 * (Q.e2 / Q.e1)) = 2 := by
    have := h.lo1.ne'
    have := h.lo2.ne'
    field_simp
  rw [this, Real.rpow_two]
  exact sc_sq p.1

theorem normal_canon {Q : SuperQuadrics} (h : Q.Ok) (p : ℝ × ℝ) : Q.gradPhi p ⬝ᵥ Q.canon p = 1 := by
  have h1 := expFun_mul p.1 h.lo1 (sub_pos.2 h.hi1) (by ring) false
  have h2 := expFun_mul p.1 h.lo1 (sub_pos.2 h.hi1) (by ring) true
  have h3 := expFun_mul p.2 h.lo2 (sub_pos.2 h.hi2) (by ring) false
  have h4 := expFun_mul p.2 h.lo2 (sub_pos.2 h.hi2) (by ring) true
  have ha := h.a.ne'
  have hb := h.b.ne'
  have hc := h.c.ne'
  have s1 := sc_sq p.1
  have s2 := sc_sq p.2
  rw [sq_abs, sq_abs, ← h1, ← h2] at s1
  rw [sq_abs, sq_abs, ← h3, ← h4] at s2
  simp only [gradPhi, canon, dotProduct, Fin.sum_univ_three, cons_val_zero, cons_val_one, cons_val]
  field_simp
  linear_combination s1 + expFun p.1 Q.e1 false * expFun p.1 (2 - Q.e1) false * s2

theorem implicit_nonneg (Q : SuperQuadrics) (p : Fin 3 → ℝ) : 0 ≤ Q.implicit p :=
  add_nonneg (Real.rpow_nonneg (add_nonneg (Real.rpow_nonneg (abs_nonneg _) _)
    (Real.rpow_nonneg (abs_nonneg _) _)) _) (Real.rpow_nonneg (abs_nonneg _) _)

theorem normal_le {Q : SuperQuadrics} (h : Q.Ok) (t : ℝ × ℝ) {p : Fin 3 → ℝ} (hp : Q.implicit p ≤ 1) :
    Q.gradPhi t ⬝ᵥ p ≤ 1 := by
  have hh1 := holder2 (abs_nonneg (sc t.2 false)) (abs_nonneg (sc t.2 true)) (sc_sq t.2)
    (abs_nonneg (p 0 / Q.a)) (abs_nonneg (p 1 / Q.b)) h.lo2 h.hi2
  set S := |p 0 / Q.a| ^ (2 / Q.e2) + |p 1 / Q.b| ^ (2 / Q.e2) with hS
  have hS0 : 0 ≤ S := add_nonneg (Real.rpow_nonneg (abs_nonneg _) _) (Real.rpow_nonneg (abs_nonneg _) _)
  have hh2 := holder2 (abs_nonneg (sc t.1 false)) (abs_nonneg (sc t.1 true)) (sc_sq t.1)
    (Real.rpow_nonneg hS0 (Q.e2 / 2)) (abs_nonneg (p 2 / Q.c)) h.lo1 h.hi1
  have hr : (S ^ (Q.e2 / 2)) ^ (2 / Q.e1) = S ^ (Q.e2 / Q.e1) := by
    rw [← Real.rpow_mul hS0]
    congr 1
    have := h.lo1.ne'
    field_simp
  rw [hr] at hh2
  have h1 : (Q.implicit p) ^ (Q.e1 / 2) ≤ 1 :=
    Real.rpow_le_one (Q.implicit_nonneg p) hp (by linarith [h.lo1])
  unfold implicit at h1
  rw [← hS] at h1
  have hu := Real.rpow_nonneg (abs_nonneg (sc t.1 false)) (2 - Q.e1)
  have hm := mul_le_mul_of_nonneg_left hh1 hu
  simp only [gradPhi, dotProduct, Fin.sum_univ_three, cons_val_zero, cons_val_one, cons_val]
  have e1 := @div_abs_le (expFun t.1 (2 - Q.e1) false * expFun t.2 (2 - Q.e2) false) (p 0) Q.a
  have e2 := @div_abs_le (expFun t.1 (2 - Q.e1) false * expFun t.2 (2 - Q.e2) true) (p 1) Q.b
  have e3 := @div_abs_le (expFun t.1 (2 - Q.e1) true * 1) (p 2) Q.c
  rw [abs_mul, abs_expFun _ (sub_pos.2 h.hi1), abs_expFun _ (sub_pos.2 h.hi2)] at e1 e2
  rw [mul_one, abs_expFun _ (sub_pos.2 h.hi1)] at e3
  rw [mul_one]
  linarith

end SuperQuadrics
/-! ## Convexity -/

/-- The `q`-norm of a pair. -/
noncomputable def N2 (q X Y : ℝ) : ℝ := (|X| ^ q + |Y| ^ q) ^ (1 / q)

theorem N2_nonneg (q X Y : ℝ) : 0 ≤ N2 q X Y :=
  Real.rpow_nonneg (add_nonneg (Real.rpow_nonneg (abs_nonneg _) _) (Real.rpow_nonneg (abs_nonneg _) _)) _

theorem N2_add {q : ℝ} (hq : 1 ≤ q) (X Y X' Y' : ℝ) : N2 q (X + X') (Y + Y') ≤ N2 q X Y + N2 q X' Y' := by
  have := Real.Lp_add_le Finset.univ ![X, Y] ![X', Y'] hq
  simpa [Fin.sum_univ_two, N2] using this

theorem N2_mono {q : ℝ} (hq : 0 < q) {X Y X' Y' : ℝ} (h1 : |X| ≤ |X'|) (h2 : |Y| ≤ |Y'|) :
    N2 q X Y ≤ N2 q X' Y' := by
  unfold N2
  apply Real.rpow_le_rpow
  · exact add_nonneg (Real.rpow_nonneg (abs_nonneg _) _) (Real.rpow_nonneg (abs_nonneg _) _)
  · exact add_le_add (Real.rpow_le_rpow (abs_nonneg _) h1 hq.le) (Real.rpow_le_rpow (abs_nonneg _) h2 hq.le)
  · exact (one_div_pos.2 hq).le

theorem N2_smul {q : ℝ} (hq : 0 < q) {t : ℝ} (ht : 0 ≤ t) (X Y : ℝ) : N2 q (t * X) (t * Y) = t * N2 q X Y := by
  unfold N2
  rw [abs_mul, abs_mul, abs_of_nonneg ht, Real.mul_rpow ht (abs_nonneg _), Real.mul_rpow ht (abs_nonneg _),
    ← mul_add, Real.mul_rpow (Real.rpow_nonneg ht _)
      (add_nonneg (Real.rpow_nonneg (abs_nonneg _) _) (Real.rpow_nonneg (abs_nonneg _) _)),
    ← Real.rpow_mul ht, mul_one_div_cancel hq.ne', Real.rpow_one]

theorem N2_comb {q : ℝ} (hq : 1 ≤ q) {s t : ℝ} (hs : 0 ≤ s) (ht : 0 ≤ t) (X Y X' Y' : ℝ) :
    N2 q (s * X + t * X') (s * Y + t * Y') ≤ s * N2 q X Y + t * N2 q X' Y' := by
  have hq0 : 0 < q := by linarith
  rw [← N2_smul hq0 hs, ← N2_smul hq0 ht]
  exact N2_add hq _ _ _ _

theorem rpow_le_one_iff' {I e : ℝ} (hI : 0 ≤ I) (he : 0 < e) : I ^ e ≤ 1 ↔ I ≤ 1 := by
  constructor
  · intro h
    have := Real.rpow_le_one (Real.rpow_nonneg hI e) h (one_div_pos.2 he).le
    rwa [← Real.rpow_mul hI, mul_one_div_cancel he.ne', Real.rpow_one] at this
  · intro h
    exact Real.rpow_le_one hI h he.le

theorem SuperEllipse.implicit_le {E : SuperEllipse} (h : E.Ok) (p : Fin 2 → ℝ) :
    E.implicit p ≤ 1 ↔ N2 (2 / E.eps) (p 0 / E.a) (p 1 / E.b) ≤ 1 := by
  have : 0 < 1 / (2 / E.eps) := by have := h.lo; positivity
  exact (rpow_le_one_iff' (E.implicit_nonneg p) this).symm

theorem SuperQuadrics.implicit_le {Q : SuperQuadrics} (h : Q.Ok) (p : Fin 3 → ℝ) :
    Q.implicit p ≤ 1 ↔
      N2 (2 / Q.e1) (N2 (2 / Q.e2) (p 0 / Q.a) (p 1 / Q.b)) (p 2 / Q.c) ≤ 1 := by
  have h1 : 0 < 1 / (2 / Q.e1) := by have := h.lo1; positivity
  have e : |N2 (2 / Q.e2) (p 0 / Q.a) (p 1 / Q.b)| ^ (2 / Q.e1) =
      (|p 0 / Q.a| ^ (2 / Q.e2) + |p 1 / Q.b| ^ (2 / Q.e2)) ^ (Q.e2 / Q.e1) := by
    rw [abs_of_nonneg (N2_nonneg _ _ _), N2, ← Real.rpow_mul (add_nonneg
      (Real.rpow_nonneg (abs_nonneg _) _) (Real.rpow_nonneg (abs_nonneg _) _))]
    congr 1
    have := h.lo1.ne'
    have := h.lo2.ne'
    field_simp
  rw [N2, e]
  exact (rpow_le_one_iff' (Q.implicit_nonneg p) h1).symm

theorem one_le_two_div {e : ℝ} (h : 0 < e) (h2 : e < 2) : 1 ≤ 2 / e := by
  rw [le_div_iff₀ h]; linarith

theorem SuperEllipse.solid_convex {E : SuperEllipse} (h : E.Ok) : Convex ℝ E.solid := by
  rintro _ ⟨_, ⟨p, hp, rfl⟩, rfl⟩ _ ⟨_, ⟨q, hq, rfl⟩, rfl⟩ s t hs ht hst
  refine ⟨_, ⟨s • p + t • q, ?_, rfl⟩, ?_⟩
  · rw [SuperEllipse.implicit_le h] at hp hq ⊢
    have := N2_comb (one_le_two_div h.lo h.hi) hs ht (p 0 / E.a) (p 1 / E.b) (q 0 / E.a) (q 1 / E.b)
    simp only [Pi.add_apply, Pi.smul_apply, smul_eq_mul, add_div, mul_div_assoc]
    refine this.trans ?_
    nlinarith
  · rw [mulVec_add, mulVec_smul, mulVec_smul, smul_add, smul_add]
    nth_rewrite 3 [show (![E.px, E.py] : Fin 2 → ℝ) = s • ![E.px, E.py] + t • ![E.px, E.py] by
      rw [← add_smul, hst, one_smul]]
    abel

theorem SuperQuadrics.solid_convex {Q : SuperQuadrics} (h : Q.Ok) : Convex ℝ Q.solid := by
  rintro _ ⟨_, ⟨p, hp, rfl⟩, rfl⟩ _ ⟨_, ⟨q, hq, rfl⟩, rfl⟩ s t hs ht hst
  refine ⟨_, ⟨s • p + t • q, ?_, rfl⟩, ?_⟩
  · rw [SuperQuadrics.implicit_le h] at hp hq ⊢
    have i1 := N2_comb (one_le_two_div h.lo2 h.hi2) hs ht (p 0 / Q.a) (p 1 / Q.b) (q 0 / Q.a) (q 1 / Q.b)
    simp only [Pi.add_apply, Pi.smul_apply, smul_eq_mul, add_div, mul_div_assoc]
    have i2 := N2_comb (one_le_two_div h.lo1 h.hi1) hs ht (N2 (2 / Q.e2) (p 0 / Q.a) (p 1 / Q.b)) (p 2 / Q.c)
      (N2 (2 / Q.e2) (q 0 / Q.a) (q 1 / Q.b)) (q 2 / Q.c)
    refine (N2_mono (div_pos two_pos h.lo1) ?_ le_rfl).trans (i2.trans ?_)
    · rw [abs_of_nonneg (N2_nonneg _ _ _)]
      exact i1.trans (le_abs_self _)
    · nlinarith
  · rw [mulVec_add, mulVec_smul, mulVec_smul, smul_add, smul_add]
    nth_rewrite 3 [show Q.pos = s • Q.pos + t • Q.pos by rw [← add_smul, hst, one_smul]]
    abel

end Hrm
