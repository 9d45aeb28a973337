import Verif.Lemmas.SepCoeffs
import Verif.Lemmas.Shape
import Mathlib.Analysis.InnerProductSpace.Basic

/-! # Ellipsoids as quadrics in homogeneous coordinates -/

namespace Hrm

open Matrix Polynomial

section
variable {n : ℕ}

/-- The solid ellipsoid with rotation `R`, centre `c`, semi-axes `d`. -/
def ellSet (R : Matrix (Fin n) (Fin n) ℝ) (c d : Fin n → ℝ) : Set (Fin n → ℝ) :=
  {x | ∃ p : Fin n → ℝ, ∑ i, (p i / d i) ^ 2 ≤ 1 ∧ x = R *ᵥ p + c}

theorem homT_mulVec (R : Matrix (Fin n) (Fin n) ℝ) (c : Fin n → ℝ) (z : Fin n → ℝ) (t : ℝ) :
    homT R c *ᵥ (Fin.snoc z t : Fin (n + 1) → ℝ) = (Fin.snoc (R *ᵥ z + t • c) t : Fin (n + 1) → ℝ) := by
  funext i
  refine Fin.lastCases ?_ (fun i => ?_) i
  · simp [mulVec, dotProduct, homT, Fin.sum_univ_castSucc]
  · simp [mulVec, dotProduct, homT, Fin.sum_univ_castSucc]
    ring

theorem snoc_surj (v : Fin (n + 1) → ℝ) : ∃ (z : Fin n → ℝ) (t : ℝ), v = (Fin.snoc z t : Fin (n + 1) → ℝ) :=
  ⟨Fin.init v, v (Fin.last n), (Fin.snoc_init_self v).symm⟩

theorem ext_mulVec {m : ℕ} {M N : Matrix (Fin m) (Fin m) ℝ} (h : ∀ v, M *ᵥ v = N *ᵥ v) : M = N := by
  ext i j
  have := congrFun (h (Pi.single j 1)) i
  simpa using this

theorem homT_inv {R : Matrix (Fin n) (Fin n) ℝ} (h : Orth R) (c : Fin n → ℝ) :
    (homT R c)⁻¹ = homT Rᵀ (-(Rᵀ *ᵥ c)) := by
  apply inv_eq_right_inv
  apply ext_mulVec
  intro v
  obtain ⟨z, t, rfl⟩ := snoc_surj v
  rw [← mulVec_mulVec, homT_mulVec, homT_mulVec, one_mulVec]
  congr 1
  rw [mulVec_add, mulVec_smul, mulVec_neg, mulVec_mulVec, mulVec_mulVec, h.2, one_mulVec, one_mulVec]
  simp

/-- The relative transformation. -/
noncomputable def relT (RA : Matrix (Fin n) (Fin n) ℝ) (cA : Fin n → ℝ) (RB : Matrix (Fin n) (Fin n) ℝ)
    (cB : Fin n → ℝ) : Matrix (Fin (n + 1)) (Fin (n + 1)) ℝ := (homT RB cB)⁻¹ * homT RA cA

theorem relT_mulVec {RA : Matrix (Fin n) (Fin n) ℝ} (cA : Fin n → ℝ) {RB : Matrix (Fin n) (Fin n) ℝ} (hB : Orth RB)
    (cB : Fin n → ℝ) (z : Fin n → ℝ) (t : ℝ) :
    relT RA cA RB cB *ᵥ (Fin.snoc z t : Fin (n + 1) → ℝ) =
      (Fin.snoc (RBᵀ *ᵥ (RA *ᵥ z + t • (cA - cB))) t : Fin (n + 1) → ℝ) := by
  unfold relT
  rw [homT_inv hB, ← mulVec_mulVec, homT_mulVec, homT_mulVec]
  congr 1
  rw [smul_sub, ← add_sub_assoc, mulVec_sub, mulVec_smul, smul_neg, ← sub_eq_add_neg]

theorem qf_quadDiag (d z : Fin n → ℝ) (t : ℝ) :
    qf (diagonal (quadDiag d)) (Fin.snoc z t : Fin (n + 1) → ℝ) = ∑ i, (z i / d i) ^ 2 - t ^ 2 := by
  rw [qf_diagonal, Fin.sum_univ_castSucc]
  simp only [quadDiag, Fin.snoc_castSucc, Fin.snoc_last]
  rw [sub_eq_add_neg]
  congr 1
  · refine Finset.sum_congr rfl fun i _ => ?_
    rw [div_pow, div_eq_inv_mul]
  · ring

theorem bf_quadDiag (d z w : Fin n → ℝ) (t s : ℝ) :
    bf (diagonal (quadDiag d)) (Fin.snoc z t : Fin (n + 1) → ℝ) (Fin.snoc w s : Fin (n + 1) → ℝ) =
      ∑ i, (z i / d i) * (w i / d i) - t * s := by
  unfold bf
  simp only [dotProduct, mulVec_diagonal]
  rw [Fin.sum_univ_castSucc]
  simp only [quadDiag, Fin.snoc_castSucc, Fin.snoc_last]
  rw [sub_eq_add_neg]
  congr 1
  · refine Finset.sum_congr rfl fun i _ => ?_
    rw [div_mul_div_comm, div_eq_mul_inv, sq]; ring
  · ring

theorem quadric_diag {d : Fin n → ℝ} (hd : ∀ i, 0 < d i) : Quadric (Fin.last n) (diagonal (quadDiag d)) where
  symm := diagonal_transpose _
  inf v h hv := by
    obtain ⟨z, t, rfl⟩ := snoc_surj v
    simp only [Fin.snoc_last] at h
    subst h
    rw [qf_quadDiag]
    have hz : ∃ i, z i ≠ 0 := by
      by_contra hno
      push Not at hno
      apply hv
      funext i
      refine Fin.lastCases ?_ (fun i => ?_) i
      · simp
      · simp [hno i]
    obtain ⟨i, hi⟩ := hz
    have := Finset.single_le_sum (f := fun i => (z i / d i) ^ 2) (fun _ _ => sq_nonneg _) (Finset.mem_univ i)
    have h2 : 0 < (z i / d i) ^ 2 := by
      have := (hd i).ne'
      positivity
    linarith
  neg := ⟨(Fin.snoc 0 1 : Fin (n + 1) → ℝ), by rw [qf_quadDiag]; simp⟩

theorem quadDiag_det {d : Fin n → ℝ} (hd : ∀ i, 0 < d i) : (diagonal (quadDiag d)).det ≠ 0 := by
  rw [det_diagonal]
  refine Finset.prod_ne_zero_iff.2 fun i _ => ?_
  refine Fin.lastCases ?_ (fun i => ?_) i
  · simp [quadDiag]
  · simp [quadDiag, (hd i).ne']

variable {RA RB : Matrix (Fin n) (Fin n) ℝ} {cA cB dA dB : Fin n → ℝ}

theorem relQuad_eq : relQuad RA cA RB cB dB = (relT RA cA RB cB)ᵀ * diagonal (quadDiag dB) * relT RA cA RB cB := rfl

theorem qf_relQuad (hB : Orth RB) (z : Fin n → ℝ) (t : ℝ) :
    qf (relQuad RA cA RB cB dB) (Fin.snoc z t : Fin (n + 1) → ℝ) =
      ∑ i, ((RBᵀ *ᵥ (RA *ᵥ z + t • (cA - cB))) i / dB i) ^ 2 - t ^ 2 := by
  rw [relQuad_eq, ← qf_congr, relT_mulVec cA hB, qf_quadDiag]

theorem orth_mulVec_eq_zero {R : Matrix (Fin n) (Fin n) ℝ} (h : Orth R) {z : Fin n → ℝ} (h0 : R *ᵥ z = 0) : z = 0 := by
  have := congrArg (Rᵀ *ᵥ ·) h0
  simpa [mulVec_mulVec, h.1] using this

theorem quadric_rel (hA : Orth RA) (hB : Orth RB) (hd : ∀ i, 0 < dB i) :
    Quadric (Fin.last n) (relQuad RA cA RB cB dB) where
  symm := by
    rw [relQuad_eq, transpose_mul, transpose_mul, transpose_transpose, diagonal_transpose, Matrix.mul_assoc]
  inf v h hv := by
    obtain ⟨z, t, rfl⟩ := snoc_surj v
    simp only [Fin.snoc_last] at h
    subst h
    rw [relQuad_eq, ← qf_congr, relT_mulVec cA hB]
    refine (quadric_diag hd).inf _ (by simp) fun h0 => hv ?_
    have hz : RBᵀ *ᵥ (RA *ᵥ z) = 0 := by
      funext i
      have := congrFun h0 (Fin.castSucc i)
      simpa using this
    have hz := orth_mulVec_eq_zero (⟨by rw [transpose_transpose]; exact hB.2, by rw [transpose_transpose]; exact hB.1⟩ : Orth RBᵀ) hz
    have hz := orth_mulVec_eq_zero hA hz
    subst hz
    funext i
    refine Fin.lastCases ?_ (fun i => ?_) i <;> simp
  neg := by
    refine ⟨(Fin.snoc (RAᵀ *ᵥ (cB - cA)) 1 : Fin (n + 1) → ℝ), ?_⟩
    rw [qf_relQuad hB, mulVec_mulVec, hA.2, one_mulVec, one_smul, sub_add_sub_cancel, sub_self]
    simp

/-- Membership in a body, in terms of the quadratic forms. -/
theorem mem_ellSet_qfA (hA : Orth RA) {z : Fin n → ℝ} :
    RA *ᵥ z + cA ∈ ellSet RA cA dA ↔ qf (diagonal (quadDiag dA)) (Fin.snoc z 1 : Fin (n + 1) → ℝ) ≤ 0 := by
  rw [qf_quadDiag]
  constructor
  · rintro ⟨p, hp, e⟩
    have : z = p := by
      have := congrArg (RAᵀ *ᵥ ·) (add_right_cancel e)
      simpa [mulVec_mulVec, hA.1] using this
    subst this
    linarith
  · intro h
    exact ⟨z, by linarith, rfl⟩

theorem mem_ellSet_qfB (hB : Orth RB) {z : Fin n → ℝ} :
    RA *ᵥ z + cA ∈ ellSet RB cB dB ↔
      ∑ i, ((RBᵀ *ᵥ (RA *ᵥ z + (1 : ℝ) • (cA - cB))) i / dB i) ^ 2 ≤ 1 := by
  constructor
  · rintro ⟨p, hp, e⟩
    have : RBᵀ *ᵥ (RA *ᵥ z + (1 : ℝ) • (cA - cB)) = p := by
      rw [one_smul, ← add_sub_assoc, e, add_sub_cancel_right, mulVec_mulVec, hB.1, one_mulVec]
    rw [this]
    exact hp
  · intro h
    refine ⟨_, h, ?_⟩
    rw [mulVec_mulVec, hB.2, one_mulVec, one_smul]
    abel

end
end Hrm
