import Verif.Lemmas.Companion
import Mathlib.Analysis.Matrix.PosDef
import Mathlib.LinearAlgebra.Matrix.ToLinearEquiv

/-! # The pencil of two quadratic forms that are positive definite "at infinity" -/

namespace Hrm

open Matrix Polynomial

set_option linter.unusedSectionVars false

section pencil
variable {ι : Type} [Fintype ι] [DecidableEq ι]

/-- `det (X A - B)`. -/
noncomputable def pencil (A B : Matrix ι ι ℝ) : ℝ[X] := ((X : ℝ[X]) • A.map (C : ℝ → ℝ[X]) - B.map (C : ℝ → ℝ[X])).det

theorem pencil_eval (A B : Matrix ι ι ℝ) (x : ℝ) : (pencil A B).eval x = (x • A - B).det := by
  unfold pencil
  rw [← coe_evalRingHom, RingHom.map_det]
  congr 1
  ext i j
  simp
  ring

theorem pencil_aeval (A B : Matrix ι ι ℝ) (z : ℂ) :
    ((pencil A B).map (algebraMap ℝ ℂ)).eval z = (z • A.map (algebraMap ℝ ℂ) - B.map (algebraMap ℝ ℂ)).det := by
  unfold pencil
  rw [← coe_evalRingHom, ← coe_mapRingHom, RingHom.map_det, RingHom.map_det]
  congr 1
  ext i j
  simp
  ring

/-- The quadratic form of a matrix. -/
def qf (A : Matrix ι ι ℝ) (v : ι → ℝ) : ℝ := v ⬝ᵥ A *ᵥ v

/-- The bilinear form of a symmetric matrix. -/
def bf (A : Matrix ι ι ℝ) (v w : ι → ℝ) : ℝ := v ⬝ᵥ A *ᵥ w

theorem bf_add_left (A : Matrix ι ι ℝ) (u v w : ι → ℝ) : bf A (u + v) w = bf A u w + bf A v w := by
  unfold bf; rw [add_dotProduct]
theorem bf_add_right (A : Matrix ι ι ℝ) (u v w : ι → ℝ) : bf A u (v + w) = bf A u v + bf A u w := by
  unfold bf; rw [mulVec_add, dotProduct_add]
theorem bf_smul_left (A : Matrix ι ι ℝ) (t : ℝ) (u v : ι → ℝ) : bf A (t • u) v = t * bf A u v := by
  unfold bf; rw [smul_dotProduct, smul_eq_mul]
theorem bf_smul_right (A : Matrix ι ι ℝ) (t : ℝ) (u v : ι → ℝ) : bf A u (t • v) = t * bf A u v := by
  unfold bf; rw [mulVec_smul, dotProduct_smul, smul_eq_mul]
theorem bf_comm {A : Matrix ι ι ℝ} (h : Aᵀ = A) (u v : ι → ℝ) : bf A u v = bf A v u := by
  unfold bf
  rw [dotProduct_mulVec, ← mulVec_transpose, h, dotProduct_comm]
theorem qf_eq (A : Matrix ι ι ℝ) (u : ι → ℝ) : qf A u = bf A u u := rfl

theorem qf_comb (A B : Matrix ι ι ℝ) (m : ℝ) (v : ι → ℝ) : qf (m • A + B) v = m * qf A v + qf B v := by
  unfold qf
  rw [add_mulVec, smul_mulVec, dotProduct_add, dotProduct_smul, smul_eq_mul]

theorem bf_comb (A B : Matrix ι ι ℝ) (m : ℝ) (v w : ι → ℝ) : bf (m • A + B) v w = m * bf A v w + bf B v w := by
  unfold bf
  rw [add_mulVec, smul_mulVec, dotProduct_add, dotProduct_smul, smul_eq_mul]

/-- A quadric whose form is positive at infinity (coordinate `e` zero) and negative somewhere. -/
structure Quadric (e : ι) (A : Matrix ι ι ℝ) : Prop where
  symm : Aᵀ = A
  inf : ∀ v, v e = 0 → v ≠ 0 → 0 < qf A v
  neg : ∃ v, qf A v < 0

variable {e : ι} {A B : Matrix ι ι ℝ}

theorem Quadric.inf_nonneg (hA : Quadric e A) (v : ι → ℝ) (h : v e = 0) : 0 ≤ qf A v := by
  by_cases hv : v = 0
  · subst hv; simp [qf]
  · exact (hA.inf v h hv).le

theorem comb_inf (hA : Quadric e A) (hB : Quadric e B) {m : ℝ} (hm : 0 < m) (v : ι → ℝ) (h : v e = 0) (hv : v ≠ 0) :
    0 < qf (m • A + B) v := by
  rw [qf_comb]
  have := mul_pos hm (hA.inf v h hv)
  have := hB.inf v h hv
  linarith

theorem comb_symm (hA : Quadric e A) (hB : Quadric e B) (m : ℝ) : (m • A + B)ᵀ = m • A + B := by
  rw [transpose_add, transpose_smul, hA.symm, hB.symm]

/-- A form positive at infinity and with a null vector is positive semidefinite. -/
theorem psd_of_null {M : Matrix ι ι ℝ} (hs : Mᵀ = M) (hi : ∀ v, v e = 0 → v ≠ 0 → 0 < qf M v) {z : ι → ℝ}
    (hz : z ≠ 0) (h0 : M *ᵥ z = 0) (y : ι → ℝ) : 0 ≤ qf M y ∧ (qf M y = 0 → M *ᵥ y = 0) := by
  have hze : z e ≠ 0 := by
    intro h
    have := hi z h hz
    unfold qf at this
    rw [h0, dotProduct_zero] at this
    exact lt_irrefl _ this
  set t : ℝ := -(y e / z e) with ht
  have hv : (y + t • z) e = 0 := by
    simp only [Pi.add_apply, Pi.smul_apply, smul_eq_mul, ht]
    field_simp
    ring
  have hb : ∀ u, bf M u z = 0 := fun u => by unfold bf; rw [h0, dotProduct_zero]
  have hq : qf M (y + t • z) = qf M y := by
    rw [qf_eq, bf_add_left, bf_add_right, bf_add_right, bf_smul_left, bf_smul_right, bf_smul_left, bf_smul_right,
      bf_comm hs z y, hb y, hb z, qf_eq]
    ring
  by_cases hv0 : y + t • z = 0
  · refine ⟨by rw [← hq, hv0]; simp [qf], fun _ => ?_⟩
    have : y = (-t) • z := by rw [neg_smul]; exact eq_neg_of_add_eq_zero_left hv0
    rw [this, mulVec_smul, h0, smul_zero]
  · have := hi _ hv hv0
    rw [hq] at this
    exact ⟨this.le, fun h => absurd h this.ne'⟩

/-- Two bodies with a common point: no two distinct negative roots. -/
theorem no_two_negative_roots (hA : Quadric e A) (hB : Quadric e B) (hdet : A.det ≠ 0) {y : ι → ℝ} (hy : y ≠ 0)
    (h1 : qf A y ≤ 0) (h2 : qf B y ≤ 0) {r s : ℝ} (hr : r < 0) (hs : s < 0) (hr0 : (r • A - B).det = 0)
    (hs0 : (s • A - B).det = 0) : r = s := by
  have key : ∀ t : ℝ, t < 0 → (t • A - B).det = 0 → ((-t) • A + B) *ᵥ y = 0 := by
    intro t ht h0
    have hd : ((-t) • A + B).det = 0 := by
      have : (-t) • A + B = (-1 : ℝ) • (t • A - B) := by
        rw [neg_smul, neg_smul, one_smul]; abel
      rw [this, det_smul, h0, mul_zero]
    obtain ⟨z, hz, hz0⟩ := exists_mulVec_eq_zero_iff.2 hd
    obtain ⟨p1, p2⟩ := psd_of_null (comb_symm hA hB (-t)) (comb_inf hA hB (by linarith)) hz hz0 y
    apply p2
    rw [qf_comb] at p1 ⊢
    nlinarith [mul_nonpos_of_nonneg_of_nonpos (by linarith : (0 : ℝ) ≤ -t) h1]
  have e1 := key r hr hr0
  have e2 := key s hs hs0
  by_contra hne
  have : A *ᵥ y = 0 := by
    have h3 : (s - r) • (A *ᵥ y) = 0 := by
      have := congrArg₂ (· - ·) e1 e2
      simp only [add_mulVec, smul_mulVec, sub_zero] at this
      rw [← this, sub_smul, neg_smul, neg_smul]
      abel
    rcases smul_eq_zero.1 h3 with h | h
    · exact absurd (by linarith) hne
    · exact h
  exact hy (eq_zero_of_mulVec_eq_zero hdet this)

/-! ## Simultaneous diagonalisation -/

theorem symm_diag {M : Matrix ι ι ℝ} (hM : Mᵀ = M) :
    ∃ (V : Matrix ι ι ℝ) (μ : ι → ℝ), Vᵀ * V = 1 ∧ M = V * diagonal μ * Vᵀ := by
  have hC : M.IsHermitian := by rw [IsHermitian, conjTranspose_eq_transpose_of_trivial, hM]
  refine ⟨hC.eigenvectorUnitary.1, hC.eigenvalues, ?_, ?_⟩
  · have := Unitary.coe_star_mul_self hC.eigenvectorUnitary
    rwa [star_eq_conjTranspose, conjTranspose_eq_transpose_of_trivial] at this
  · have := hC.spectral_theorem
    rw [Unitary.conjStarAlgAut_apply] at this
    simpa [star_eq_conjTranspose, conjTranspose_eq_transpose_of_trivial] using this

theorem sim_diag {P : Matrix ι ι ℝ} (hP : P.PosDef) (hA : Aᵀ = A) :
    ∃ (G : Matrix ι ι ℝ) (α : ι → ℝ), G.det ≠ 0 ∧ Gᵀ * P * G = 1 ∧ Gᵀ * A * G = diagonal α := by
  have hH := hP.1
  set U : Matrix ι ι ℝ := hH.eigenvectorUnitary.1 with hU
  have hUU : Uᵀ * U = 1 := by
    have := Unitary.coe_star_mul_self hH.eigenvectorUnitary
    rwa [star_eq_conjTranspose, conjTranspose_eq_transpose_of_trivial] at this
  have hsp : P = U * diagonal hH.eigenvalues * Uᵀ := by
    have := hH.spectral_theorem
    rw [Unitary.conjStarAlgAut_apply] at this
    simpa [star_eq_conjTranspose, conjTranspose_eq_transpose_of_trivial] using this
  set q : ι → ℝ := fun i => (Real.sqrt (hH.eigenvalues i))⁻¹ with hq
  set K : Matrix ι ι ℝ := U * diagonal q with hK
  have hpos : ∀ i, 0 < hH.eigenvalues i := fun i => hP.eigenvalues_pos i
  have hKP : Kᵀ * P * K = 1 := by
    have e : Kᵀ * P * K = diagonal q * (Uᵀ * U) * diagonal hH.eigenvalues * (Uᵀ * U) * diagonal q := by
      conv_lhs => rw [hsp]
      rw [hK, transpose_mul, diagonal_transpose]
      simp only [Matrix.mul_assoc]
    rw [e, hUU, Matrix.mul_one, Matrix.mul_one, diagonal_mul_diagonal, diagonal_mul_diagonal, ← diagonal_one]
    congr 1
    funext i
    have h1 := Real.sqrt_pos.2 (hpos i)
    have h2 := Real.mul_self_sqrt (hpos i).le
    simp only [hq]
    field_simp
    rw [sq, h2]
  obtain ⟨V, μ, hVV, hsp2⟩ := symm_diag (M := Kᵀ * A * K) (by
    rw [transpose_mul, transpose_mul Kᵀ A, transpose_transpose K, hA, Matrix.mul_assoc])
  have h1 : (K * V)ᵀ * P * (K * V) = 1 := by
    have : (K * V)ᵀ * P * (K * V) = Vᵀ * (Kᵀ * P * K) * V := by
      rw [transpose_mul]; simp only [Matrix.mul_assoc]
    rw [this, hKP, Matrix.mul_one, hVV]
  refine ⟨K * V, μ, ?_, h1, ?_⟩
  · intro h0
    have := congrArg Matrix.det h1
    rw [det_mul, h0, mul_zero, det_one] at this
    exact zero_ne_one this
  · have : (K * V)ᵀ * A * (K * V) = Vᵀ * (Kᵀ * A * K) * V := by
      rw [transpose_mul]; simp only [Matrix.mul_assoc]
    rw [this, hsp2]
    have : Vᵀ * (V * diagonal μ * Vᵀ) * V = (Vᵀ * V) * diagonal μ * (Vᵀ * V) := by
      simp only [Matrix.mul_assoc]
    rw [this, hVV, Matrix.one_mul, Matrix.mul_one]

theorem qf_congr (G M : Matrix ι ι ℝ) (x : ι → ℝ) : qf M (G *ᵥ x) = qf (Gᵀ * M * G) x := by
  unfold qf
  rw [Matrix.mul_assoc, ← mulVec_mulVec, ← mulVec_mulVec, dotProduct_mulVec x, vecMul_transpose]

theorem qf_diagonal (α x : ι → ℝ) : qf (diagonal α) x = ∑ i, α i * x i ^ 2 := by
  unfold qf
  simp only [dotProduct, mulVec_diagonal]
  refine Finset.sum_congr rfl fun i _ => by ring

/-- A diagonal form positive on a hyperplane and negative somewhere has exactly one negative entry and no zero
entry. -/
theorem one_negative {G : Matrix ι ι ℝ} (hG : G.det ≠ 0) {M : Matrix ι ι ℝ} {α : ι → ℝ} (h : Gᵀ * M * G = diagonal α)
    (hM : Quadric e M) : ∃ i, α i < 0 ∧ ∀ j, j ≠ i → 0 < α j := by
  have hpos : ∀ x : ι → ℝ, (G *ᵥ x) e = 0 → x ≠ 0 → 0 < ∑ i, α i * x i ^ 2 := by
    intro x h0 hx
    rw [← qf_diagonal, ← h, ← qf_congr]
    exact hM.inf _ h0 fun hz => hx (eq_zero_of_mulVec_eq_zero hG hz)
  have hneg : ∃ i, α i < 0 := by
    by_contra hno
    push Not at hno
    obtain ⟨v, hv⟩ := hM.neg
    obtain ⟨x, rfl⟩ : ∃ x, G *ᵥ x = v := ⟨G⁻¹ *ᵥ v, by
      rw [mulVec_mulVec, mul_nonsing_inv _ (isUnit_iff_ne_zero.2 hG), one_mulVec]⟩
    rw [qf_congr, h, qf_diagonal] at hv
    exact absurd hv (not_lt.2 (Finset.sum_nonneg fun i _ => mul_nonneg (hno i) (sq_nonneg _)))
  obtain ⟨i, hi⟩ := hneg
  refine ⟨i, hi, fun j hj => ?_⟩
  by_contra hle
  push Not at hle
  have hgx : ∀ x : ι → ℝ, (G *ᵥ x) e = ∑ k, G e k * x k := fun x => rfl
  -- a vector in the plane spanned by the two directions that lies in the hyperplane
  have : ∀ a b : ℝ, G e i * a + G e j * b = 0 → (a ≠ 0 ∨ b ≠ 0) → False := by
    intro a b hab hne
    have hx : ∀ k, (Pi.single i a + Pi.single j b : ι → ℝ) k = if k = i then a else if k = j then b else 0 := by
      intro k
      by_cases hk : k = i
      · subst hk; simp [hj.symm]
      · by_cases hk' : k = j
        · subst hk'; simp [hk]
        · simp [hk, hk']
    have h1 := hpos (Pi.single i a + Pi.single j b) (by
      rw [mulVec_add, Pi.add_apply, hgx, hgx]
      simpa [Pi.single_apply] using hab) (by
        intro h0
        have hi0 := congrFun h0 i
        have hj0 := congrFun h0 j
        rw [hx, if_pos rfl] at hi0
        rw [hx, if_neg hj, if_pos rfl] at hj0
        exact hne.elim (fun h => h hi0) (fun h => h hj0))
    refine absurd h1 (not_lt.2 (Finset.sum_nonpos fun k _ => ?_))
    rw [hx]
    by_cases hk : k = i
    · subst hk; rw [if_pos rfl]; exact mul_nonpos_of_nonpos_of_nonneg hi.le (sq_nonneg _)
    · rw [if_neg hk]
      by_cases hk' : k = j
      · subst hk'; rw [if_pos rfl]; exact mul_nonpos_of_nonpos_of_nonneg hle (sq_nonneg _)
      · rw [if_neg hk']; simp
  by_cases hgi : G e i = 0
  · exact this 1 0 (by rw [hgi]; ring) (Or.inl one_ne_zero)
  · exact this (G e j) (-G e i) (by ring) (Or.inr (neg_ne_zero.2 hgi))

/-- If `m A + B` is positive definite: two roots are negative, on either side of `-m`; all others are positive. -/
theorem separated_roots (hA : Quadric e A) (hB : Quadric e B) {m : ℝ} (hm : 0 < m) (hP : (m • A + B).PosDef) :
    ∃ (k : ℝ) (r : ι → ℝ) (i j : ι), k ≠ 0 ∧ i ≠ j ∧ r i < -m ∧ -m < r j ∧ r j < 0 ∧ (∀ l, l ≠ i → l ≠ j → 0 < r l) ∧
      pencil A B = C k * ∏ l, (X - C (r l)) := by
  obtain ⟨G, α, hG, h1, h2⟩ := sim_diag hP hA.symm
  have h3 : Gᵀ * B * G = diagonal fun l => 1 - m * α l := by
    have : Gᵀ * (m • A + B) * G = m • (Gᵀ * A * G) + Gᵀ * B * G := by
      rw [Matrix.mul_add, Matrix.add_mul, Matrix.mul_smul, Matrix.smul_mul]
    rw [h1, h2] at this
    rw [eq_comm, ← eq_sub_iff_add_eq'] at this
    rw [this, ← diagonal_one, ← diagonal_smul, diagonal_sub]
    rfl
  obtain ⟨i, hi, hi'⟩ := one_negative hG h2 hA
  obtain ⟨j, hj, hj'⟩ := one_negative hG h3 hB
  have hαj : 0 < α j := by
    by_contra h
    push Not at h
    nlinarith
  have hij : i ≠ j := by rintro rfl; linarith
  have hα : ∀ l, α l ≠ 0 := fun l => by
    by_cases h : l = i
    · subst h; exact hi.ne
    · exact (hi' l h).ne'
  have hG2 : G.det ^ 2 ≠ 0 := pow_ne_zero _ hG
  refine ⟨(G.det ^ 2)⁻¹ * ∏ l, α l, fun l => (α l)⁻¹ - m, i, j, ?_, hij, ?_, ?_, ?_, ?_, ?_⟩
  · exact mul_ne_zero (inv_ne_zero hG2) (Finset.prod_ne_zero_iff.2 fun l _ => hα l)
  · have := inv_lt_zero.2 hi; simp only; linarith
  · have := inv_pos.2 hαj; simp only; linarith
  · have : (α j)⁻¹ < m := by
      rw [inv_lt_comm₀ hαj hm]
      rw [inv_lt_iff_one_lt_mul₀ hm]
      linarith
    simp only; linarith
  · intro l hl1 hl2
    have a1 := hi' l hl1
    have a2 := hj' l hl2
    have : m < (α l)⁻¹ := by
      rw [lt_inv_comm₀ hm a1, inv_eq_one_div, lt_div_iff₀ hm]; linarith
    simp only; linarith
  · apply Polynomial.funext
    intro x
    rw [pencil_eval, eval_mul, eval_C, eval_prod]
    have e1 : Gᵀ * (x • A - B) * G = diagonal fun l => (x + m) * α l - 1 := by
      have : Gᵀ * (x • A - B) * G = x • (Gᵀ * A * G) - Gᵀ * B * G := by
        rw [Matrix.mul_sub, Matrix.sub_mul, Matrix.mul_smul, Matrix.smul_mul]
      rw [this, h2, h3, ← diagonal_smul, diagonal_sub]
      congr 1
      funext l
      simp only [Pi.smul_apply, smul_eq_mul]
      ring
    have e2 := congrArg Matrix.det e1
    rw [det_mul, det_mul, det_transpose, det_diagonal] at e2
    have e3 : (x • A - B).det = (G.det ^ 2)⁻¹ * ∏ l, ((x + m) * α l - 1) := by
      rw [← e2]; field_simp
    rw [e3, mul_assoc, ← Finset.prod_mul_distrib]
    congr 1
    refine Finset.prod_congr rfl fun l _ => ?_
    have := hα l
    simp only [eval_sub, eval_X, eval_C]
    field_simp
    ring

end pencil
end Hrm
