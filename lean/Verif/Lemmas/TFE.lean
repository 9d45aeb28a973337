import Verif.Spec.TFE
import Verif.Lemmas.Rotation
import Verif.Lemmas.Interp
import Mathlib.Analysis.Matrix.Spectrum
import Mathlib.Data.Fin.Tuple.Sort

/-!
# Lemmas on quadratic forms and singular value decompositions
-/

namespace Hrm

open Matrix

section forms
variable {n : ℕ}

theorem ellMat_form (R : Matrix (Fin n) (Fin n) ℝ) (d : Fin n → ℝ) (x : Fin n → ℝ) :
    x ⬝ᵥ ellMat R d *ᵥ x = ∑ i, d i * (Rᵀ *ᵥ x) i ^ 2 := by
  rw [ellMat_mulVec, dot_mulVec]
  simp only [dotProduct, mulVec_diagonal]
  exact Finset.sum_congr rfl fun i _ => by ring

theorem ellMat_mul {R : Matrix (Fin n) (Fin n) ℝ} (h : Orth R) (d e : Fin n → ℝ) :
    ellMat R d * ellMat R e = ellMat R (fun i => d i * e i) := by
  unfold ellMat
  calc R * diagonal d * Rᵀ * (R * diagonal e * Rᵀ) = R * diagonal d * (Rᵀ * R) * diagonal e * Rᵀ := by
        simp only [Matrix.mul_assoc]
    _ = R * (diagonal d * diagonal e) * Rᵀ := by rw [h.left, Matrix.mul_one, Matrix.mul_assoc R]
    _ = _ := by rw [diagonal_mul_diagonal]

theorem ellMat_one {R : Matrix (Fin n) (Fin n) ℝ} (h : Orth R) (d : Fin n → ℝ) (hd : ∀ i, d i = 1) :
    ellMat R d = 1 := by
  have : d = fun _ => 1 := funext hd
  rw [this, ellMat, diagonal_one, Matrix.mul_one, h.right]

theorem ellMat_inv {R : Matrix (Fin n) (Fin n) ℝ} (h : Orth R) {d : Fin n → ℝ} (hd : ∀ i, 0 < d i) :
    (ellMat R d)⁻¹ = ellMat R (fun i => (d i)⁻¹) := by
  apply inv_eq_right_inv
  rw [ellMat_mul h]
  exact ellMat_one h _ fun i => mul_inv_cancel₀ (hd i).ne'

theorem ellMat_pos {R : Matrix (Fin n) (Fin n) ℝ} (h : Orth R) {d : Fin n → ℝ} (hd : ∀ i, 0 < d i) :
    SymPos (ellMat R d) := by
  refine ⟨ellMat_symm R d, fun x hx => ?_⟩
  rw [ellMat_form]
  have h0 : Rᵀ *ᵥ x ≠ 0 := fun e => hx (h.transpose.injective e)
  obtain ⟨i, hi⟩ := Function.ne_iff.1 h0
  exact Finset.sum_pos' (fun j _ => mul_nonneg (hd j).le (sq_nonneg _))
    ⟨i, Finset.mem_univ _, mul_pos (hd i) (sq_pos_of_ne_zero hi)⟩

theorem symPos_conj {M T : Matrix (Fin n) (Fin n) ℝ} (hM : SymPos M) (hT : Tᵀ = T)
    (hinj : ∀ x : Fin n → ℝ, T *ᵥ x = 0 → x = 0) : SymPos (T * M * T) := by
  refine ⟨by rw [transpose_mul, transpose_mul, hT, hM.1, Matrix.mul_assoc], fun x hx => ?_⟩
  have e : x ⬝ᵥ (T * M * T) *ᵥ x = (T *ᵥ x) ⬝ᵥ M *ᵥ (T *ᵥ x) := by
    rw [← mulVec_mulVec, ← mulVec_mulVec, dot_mulVec, hT]
  rw [e]
  exact hM.2 _ fun h => hx (hinj x h)

/-- The singular value decomposition of a symmetric positive definite matrix is an eigenvalue decomposition. -/
theorem isSvd_symPos {M : Matrix (Fin n) (Fin n) ℝ} (hM : SymPos M) {r : SvdRes n} (h : IsSvd M r) :
    Orth r.u ∧ M = ellMat r.u r.s ∧ ∀ i, 0 < r.s i := by
  obtain ⟨h1, h2, h3, -, V, v1, v2, hMV⟩ := h
  have ho : Orth r.u := ⟨h1, h2⟩
  have hMM : M * M = ellMat r.u (fun i => r.s i * r.s i) := by
    conv_lhs => rw [← hM.1]
    rw [hMV, transpose_mul, transpose_mul, transpose_transpose, diagonal_transpose]
    have : V * (diagonal r.s * r.uᵀ) * (r.u * diagonal r.s * Vᵀ) = ellMat V (fun i => r.s i * r.s i) := by
      rw [ellMat, ← diagonal_mul_diagonal]
      calc _ = V * diagonal r.s * (r.uᵀ * r.u) * diagonal r.s * Vᵀ := by simp only [Matrix.mul_assoc]
        _ = _ := by rw [h1, Matrix.mul_one]; simp only [Matrix.mul_assoc]
    have hT : (V * (diagonal r.s * r.uᵀ)) = r.u * diagonal r.s * Vᵀ := by
      have := hM.1
      rw [hMV, transpose_mul, transpose_mul, transpose_transpose, diagonal_transpose] at this
      exact this
    rw [hT]
    conv_lhs => rw [← hT]
    have hT2 : (r.u * diagonal r.s * Vᵀ) = V * (diagonal r.s * r.uᵀ) := hT.symm
    calc V * (diagonal r.s * r.uᵀ) * (V * (diagonal r.s * r.uᵀ))
        = r.u * diagonal r.s * Vᵀ * (V * (diagonal r.s * r.uᵀ)) := by rw [hT]
      _ = r.u * diagonal r.s * (Vᵀ * V) * diagonal r.s * r.uᵀ := by simp only [Matrix.mul_assoc]
      _ = _ := by rw [v1, Matrix.mul_one, ellMat, ← diagonal_mul_diagonal]; simp only [Matrix.mul_assoc]
  -- each column of `u` is an eigenvector
  have key : ∀ i, M *ᵥ (r.u *ᵥ Pi.single i 1) = r.s i • (r.u *ᵥ Pi.single i 1) ∧ 0 < r.s i := by
    intro i
    generalize hx : r.u *ᵥ Pi.single i 1 = x
    have hx0 : x ≠ 0 := by
      intro e
      rw [e] at hx
      have := congrFun (ho.injective hx) i
      simp at this
    have hMMx : M *ᵥ (M *ᵥ x) = (r.s i * r.s i) • x := by
      rw [mulVec_mulVec, hMM, ellMat_mulVec, ← hx, mulVec_mulVec _ r.uᵀ r.u, h1, one_mulVec, ← mulVec_smul]
      congr 1
      funext j
      rw [mulVec_diagonal, Pi.smul_apply, smul_eq_mul]
      by_cases hj : j = i
      · subst hj; simp
      · simp [hj]
    have hs : 0 < r.s i := by
      rcases (h3 i).lt_or_eq with h | h
      · exact h
      · exfalso
        rw [← h, mul_zero, zero_smul] at hMMx
        have e1 : (M *ᵥ x) ⬝ᵥ (M *ᵥ x) = 0 := by
          have := dot_mulVec M x (M *ᵥ x)
          rw [hMMx, hM.1, dotProduct_zero] at this
          exact this.symm
        have e2 := dotProduct_self_eq_zero.1 e1
        have := hM.2 x hx0
        rw [e2, dotProduct_zero] at this
        exact lt_irrefl _ this
    refine ⟨?_, hs⟩
    by_contra hne
    have hy : M *ᵥ x - r.s i • x ≠ 0 := fun e => hne (sub_eq_zero.1 e)
    generalize hyd : M *ᵥ x - r.s i • x = y at hy
    have e : M *ᵥ y = -(r.s i • y) := by
      rw [← hyd, mulVec_sub, mulVec_smul, hMMx, smul_sub, smul_smul]
      abel
    have p := hM.2 y hy
    rw [e, dotProduct_neg, dotProduct_smul, smul_eq_mul] at p
    have := mul_nonneg hs.le (dot_self_nonneg' y)
    linarith
  refine ⟨ho, ?_, fun i => (key i).2⟩
  have hMU : M * r.u = r.u * diagonal r.s := by
    ext j i
    have := congrFun (key i).1 j
    rw [mulVec_mulVec] at this
    simpa [mul_diagonal, mul_comm] using this
  calc M = M * (r.u * r.uᵀ) := by rw [h2, Matrix.mul_one]
    _ = ellMat r.u r.s := by rw [← Matrix.mul_assoc, hMU, ellMat]

/-- There is a function meeting the contract. -/
theorem exists_svd (n : ℕ) : ∃ svd : SvdFun n, SvdOk svd := by
  have : ∀ M : Matrix (Fin n) (Fin n) ℝ, ∃ r : SvdRes n, SymPos M → IsSvd M r := by
    intro M
    by_cases hM : SymPos M
    · have hH : M.IsHermitian := by rw [IsHermitian, conjTranspose_eq_transpose_of_trivial]; exact hM.1
      obtain ⟨U, hU1, hU2, hUM⟩ : ∃ U : Matrix (Fin n) (Fin n) ℝ, Uᵀ * U = 1 ∧ U * Uᵀ = 1 ∧
          M = U * diagonal hH.eigenvalues * Uᵀ := by
        refine ⟨(hH.eigenvectorUnitary : Matrix (Fin n) (Fin n) ℝ), ?_, ?_, ?_⟩
        · have := Unitary.coe_star_mul_self hH.eigenvectorUnitary
          rwa [star_eq_conjTranspose, conjTranspose_eq_transpose_of_trivial] at this
        · have := Unitary.coe_mul_star_self hH.eigenvectorUnitary
          rwa [Unitary.coe_star, star_eq_conjTranspose, conjTranspose_eq_transpose_of_trivial] at this
        · have := hH.spectral_theorem
          rw [Unitary.conjStarAlgAut_apply] at this
          rw [star_eq_conjTranspose, conjTranspose_eq_transpose_of_trivial] at this
          exact this
      have hU : Orth U := ⟨hU1, hU2⟩
      have hpos : ∀ i, 0 < hH.eigenvalues i := by
        intro i
        have hx : U *ᵥ Pi.single i 1 ≠ 0 := by
          intro e
          have := congrFun (hU.injective e) i
          simp at this
        have := hM.2 _ hx
        have e : M = ellMat U hH.eigenvalues := hUM
        rw [e, ellMat_form, mulVec_mulVec, hU1, one_mulVec] at this
        rw [Finset.sum_eq_single i] at this
        · simpa using this
        · intro j _ hj; simp [hj]
        · simp
      -- sort
      let σ : Equiv.Perm (Fin n) := Tuple.sort (fun i => -hH.eigenvalues i)
      have hσ : Monotone ((fun i => -hH.eigenvalues i) ∘ σ) := Tuple.monotone_sort _
      refine ⟨⟨U.submatrix id σ, fun i => hH.eigenvalues (σ i)⟩, fun _ => ?_⟩
      have o1 : (U.submatrix id σ)ᵀ * U.submatrix id σ = 1 := by
        rw [transpose_submatrix, ← submatrix_mul Uᵀ U σ id σ Function.bijective_id, hU1, submatrix_one_equiv]
      have o2 : U.submatrix id σ * (U.submatrix id σ)ᵀ = 1 := by
        rw [transpose_submatrix, submatrix_mul_equiv U Uᵀ id σ id, hU2, submatrix_id_id]
      refine ⟨o1, o2, fun i => (hpos _).le, ?_, U.submatrix id σ, o1, o2, ?_⟩
      · intro i j hij
        have := hσ hij
        simp only [Function.comp] at this
        dsimp only
        linarith
      · dsimp only
        have e : diagonal (fun i => hH.eigenvalues (σ i)) = (diagonal hH.eigenvalues).submatrix σ σ := by
          rw [submatrix_diagonal_equiv]; rfl
        rw [e, transpose_submatrix, submatrix_mul_equiv U _ id σ σ, submatrix_mul_equiv _ Uᵀ id σ id,
          submatrix_id_id]
        exact hUM
    · exact ⟨⟨1, 0⟩, fun h => absurd h hM⟩
  choose svd hsvd using this
  exact ⟨svd, hsvd⟩

theorem rpow_neg_two {x : ℝ} (hx : 0 < x) : x ^ (-2 : ℝ) = (x ^ 2)⁻¹ := by
  rw [Real.rpow_neg hx.le]
  norm_cast

theorem rpow_neg_half {x : ℝ} (hx : 0 < x) : 0 < x ^ (-(1 / 2) : ℝ) ∧ ((x ^ (-(1 / 2) : ℝ)) ^ 2)⁻¹ = x := by
  refine ⟨Real.rpow_pos_of_pos hx _, ?_⟩
  rw [← Real.rpow_natCast, ← Real.rpow_mul hx.le]
  norm_num [Real.rpow_neg_one]

/-- The matrix decomposed at the end of the covering-ellipsoid computation, and what is known about it. -/
theorem mvceSvd_spec {svd : SvdFun n} (hs : SvdOk svd) {a b : Fin n → ℝ} {Ra Rb : Matrix (Fin n) (Fin n) ℝ}
    {r : ℝ} (ha : ∀ i, 0 < a i) (hb : ∀ i, 0 < b i) (hRa : Orth Ra) (hRb : Orth Rb) (hr : 0 < r) :
    ∃ C, SymPos C ∧ mvceSvd svd a b Ra Rb r = svd C ∧
      (∀ x, x ⬝ᵥ C *ᵥ x ≤ x ⬝ᵥ ellMat Ra (fun i => (a i ^ 2)⁻¹) *ᵥ x) ∧
      (∀ x, x ⬝ᵥ C *ᵥ x ≤ x ⬝ᵥ ellMat Rb (fun i => (b i ^ 2)⁻¹) *ᵥ x) ∧
      (a = b → Ra = Rb → (∀ i, r ≤ b i) → C = ellMat Ra (fun i => (a i ^ 2)⁻¹)) ∧
      (∀ μ ≤ (1 : ℝ), (∀ x, μ * (x ⬝ᵥ ellMat Rb (fun i => (b i ^ 2)⁻¹) *ᵥ x) ≤ x ⬝ᵥ ellMat Ra (fun i => (a i ^ 2)⁻¹) *ᵥ x) →
        ∀ x, μ * (x ⬝ᵥ ellMat Rb (fun i => (b i ^ 2)⁻¹) *ᵥ x) ≤ x ⬝ᵥ C *ᵥ x) ∧
      ∃ W : Matrix (Fin n) (Fin n) ℝ, Wᵀ * C * W = 1 ∧ ∀ i,
        (W *ᵥ Pi.single i 1) ⬝ᵥ ellMat Ra (fun i => (a i ^ 2)⁻¹) *ᵥ (W *ᵥ Pi.single i 1) = 1 ∨
        (W *ᵥ Pi.single i 1) ⬝ᵥ ellMat Rb (fun i => (b i ^ 2)⁻¹) *ᵥ (W *ᵥ Pi.single i 1) = 1 := by
  have hd : ∀ i, 0 < r / b i := fun i => div_pos hr (hb i)
  have ha2 : (fun i => a i ^ (-2 : ℝ)) = fun i => (a i ^ 2)⁻¹ := funext fun i => rpow_neg_two (ha i)
  have ha2p : ∀ i, 0 < (a i ^ 2)⁻¹ := fun i => inv_pos.2 (pow_pos (ha i) 2)
  have hA := ellMat_pos hRa ha2p
  have hTd : Rb * diagonal (fun i => r / b i) * Rbᵀ = ellMat Rb (fun i => r / b i) := rfl
  have hTi := ellMat_inv hRb hd
  have hdi : ∀ i, 0 < (r / b i)⁻¹ := fun i => inv_pos.2 (hd i)
  have hA' : SymPos (ellMat Rb (fun i => (r / b i)⁻¹) * ellMat Ra (fun i => (a i ^ 2)⁻¹) *
      ellMat Rb (fun i => (r / b i)⁻¹)) :=
    symPos_conj hA (ellMat_symm _ _) fun x => ellMat_injective hRb hdi
  obtain ⟨ou, hAd, hsp⟩ := isSvd_symPos hA' (hs _ hA')
  generalize hsv : svd (ellMat Rb (fun i => (r / b i)⁻¹) * ellMat Ra (fun i => (a i ^ 2)⁻¹) *
      ellMat Rb (fun i => (r / b i)⁻¹)) = sv at ou hAd hsp
  have hcp : ∀ i, 0 < max (sv.s i ^ (-(1 / 2) : ℝ)) r := fun i => lt_max_of_lt_right hr
  set c2 : Fin n → ℝ := fun i => (max (sv.s i ^ (-(1 / 2) : ℝ)) r) ^ (-2 : ℝ) with hc2
  have hc2p : ∀ i, 0 < c2 i := fun i => Real.rpow_pos_of_pos (hcp i) _
  have hc2s : ∀ i, c2 i ≤ sv.s i := by
    intro i
    obtain ⟨p1, p2⟩ := rpow_neg_half (hsp i)
    rw [hc2]
    dsimp only
    rw [rpow_neg_two (hcp i)]
    conv_rhs => rw [← p2]
    exact inv_anti₀ (pow_pos p1 2) (pow_le_pow_left₀ p1.le (le_max_left _ _) 2)
  have hc2r : ∀ i, c2 i ≤ (r ^ 2)⁻¹ := by
    intro i
    rw [hc2]
    dsimp only
    rw [rpow_neg_two (hcp i)]
    exact inv_anti₀ (pow_pos hr 2) (pow_le_pow_left₀ hr.le (le_max_right _ _) 2)
  have hT : (ellMat Rb (fun i => r / b i))ᵀ = ellMat Rb (fun i => r / b i) := ellMat_symm _ _
  set T := ellMat Rb (fun i => r / b i) with hTdef
  have hform : ∀ (M : Matrix (Fin n) (Fin n) ℝ) (x : Fin n → ℝ),
      x ⬝ᵥ (T * M * T) *ᵥ x = (T *ᵥ x) ⬝ᵥ M *ᵥ (T *ᵥ x) := by
    intro M x
    rw [← mulVec_mulVec, ← mulVec_mulVec, dot_mulVec, hT]
  have hTTi : T * ellMat Rb (fun i => (r / b i)⁻¹) = 1 := by
    rw [hTdef, ellMat_mul hRb]
    exact ellMat_one hRb _ fun i => mul_inv_cancel₀ (hd i).ne'
  have hTiT : ellMat Rb (fun i => (r / b i)⁻¹) * T = 1 := by
    rw [hTdef, ellMat_mul hRb]
    exact ellMat_one hRb _ fun i => inv_mul_cancel₀ (hd i).ne'
  have hAT : ellMat Ra (fun i => (a i ^ 2)⁻¹) = T * ellMat sv.u sv.s * T := by
    rw [← hAd]
    calc _ = (T * ellMat Rb (fun i => (r / b i)⁻¹)) * ellMat Ra (fun i => (a i ^ 2)⁻¹) *
          (ellMat Rb (fun i => (r / b i)⁻¹) * T) := by rw [hTTi, hTiT, Matrix.one_mul, Matrix.mul_one]
      _ = _ := by simp only [Matrix.mul_assoc]
  have hB : ellMat Rb (fun i => (b i ^ 2)⁻¹) = (r ^ 2)⁻¹ • (T * T) := by
    rw [hTdef, ellMat_mul hRb, ellMat, ellMat, ← Matrix.smul_mul, ← Matrix.mul_smul]
    congr 2
    ext i j
    by_cases hij : i = j
    · subst hij
      have := (hb i).ne'
      have := hr.ne'
      simp only [diagonal_apply_eq, Matrix.smul_apply, smul_eq_mul]
      field_simp
    · simp [hij]
  have hBf : ∀ x, x ⬝ᵥ ellMat Rb (fun i => (b i ^ 2)⁻¹) *ᵥ x = ∑ i, (r ^ 2)⁻¹ * (sv.uᵀ *ᵥ T *ᵥ x) i ^ 2 := by
    intro x
    rw [hB, smul_mulVec, dotProduct_smul, ← mulVec_mulVec, dot_mulVec, hT, smul_eq_mul, ← ou.transpose.dot, dotProduct,
      Finset.mul_sum]
    simp only [pow_two]
  refine ⟨T * ellMat sv.u c2 * T, symPos_conj (ellMat_pos ou hc2p) hT fun x => ellMat_injective hRb hd, ?_, ?_,
    ?_, ?_, ?_, ?_⟩
  · unfold mvceSvd
    rw [ha2]
    have e1 : Ra * diagonal (fun i => (a i ^ 2)⁻¹) * Raᵀ = ellMat Ra (fun i => (a i ^ 2)⁻¹) := rfl
    dsimp only
    rw [e1, hTd, hTi, hsv, ← hc2]
    congr 1
    unfold ellMat
    simp only [Matrix.mul_assoc]
  · intro x
    rw [hAT, hform, hform, ellMat_form, ellMat_form]
    exact Finset.sum_le_sum fun i _ => mul_le_mul_of_nonneg_right (hc2s i) (sq_nonneg _)
  · intro x
    rw [hform, ellMat_form, hBf]
    exact Finset.sum_le_sum fun i _ => mul_le_mul_of_nonneg_right (hc2r i) (sq_nonneg _)
  · intro hab hRR hrb
    -- in the shrunk space the body is the ball of radius `r`
    have hball : ellMat sv.u sv.s = (r ^ 2)⁻¹ • (1 : Matrix (Fin n) (Fin n) ℝ) := by
      rw [← hAd, ← hab, ← hRR, ellMat_mul hRa, ellMat_mul hRa]
      have : (1 : Matrix (Fin n) (Fin n) ℝ) = ellMat Ra (fun _ => 1) := (ellMat_one hRa _ fun _ => rfl).symm
      rw [this, ellMat, ellMat, ← Matrix.smul_mul, ← Matrix.mul_smul]
      congr 2
      ext i j
      by_cases hij : i = j
      · subst hij
        have := (ha i).ne'
        have := hr.ne'
        simp only [diagonal_apply_eq, Matrix.smul_apply, smul_eq_mul]
        field_simp
      · simp [hij]
    have hsr : ∀ i, sv.s i = (r ^ 2)⁻¹ := by
      intro i
      have h1 : sv.uᵀ * ellMat sv.u sv.s * sv.u = diagonal sv.s := by
        unfold ellMat
        calc _ = (sv.uᵀ * sv.u) * diagonal sv.s * (sv.uᵀ * sv.u) := by simp only [Matrix.mul_assoc]
          _ = _ := by rw [ou.left, Matrix.one_mul, Matrix.mul_one]
      rw [hball, Matrix.mul_smul, Matrix.mul_one, Matrix.smul_mul, ou.left] at h1
      have := congrFun (congrFun h1 i) i
      simpa using this.symm
    have hc : c2 = sv.s := by
      funext i
      obtain ⟨p1, p2⟩ := rpow_neg_half (hsp i)
      have e : sv.s i ^ (-(1 / 2) : ℝ) = r := by
        have h1 : (sv.s i ^ (-(1 / 2) : ℝ)) ^ 2 = r ^ 2 := by
          rw [← _root_.inv_inj, p2, hsr i]
        exact (pow_left_inj₀ p1.le hr.le two_ne_zero).1 h1
      rw [hc2]
      dsimp only
      rw [e, max_self, rpow_neg_two hr, hsr i]
    rw [hc, ← hAT]
  · intro μ hμ h x
    have hsμ : ∀ i, μ * (r ^ 2)⁻¹ ≤ sv.s i := by
      intro i
      have := h (ellMat Rb (fun i => (r / b i)⁻¹) *ᵥ sv.u *ᵥ Pi.single i 1)
      rw [hBf, hAT, hform, ellMat_form, mulVec_mulVec _ T, hTTi, one_mulVec, mulVec_mulVec _ sv.uᵀ, ou.left, one_mulVec,
        Finset.sum_eq_single i (by intro j _ hj; simp [hj]) (by simp),
        Finset.sum_eq_single i (by intro j _ hj; simp [hj]) (by simp)] at this
      simpa using this
    have hcμ : ∀ i, μ * (r ^ 2)⁻¹ ≤ c2 i := by
      intro i
      rw [hc2]
      dsimp only
      rcases max_choice (sv.s i ^ (-(1 / 2) : ℝ)) r with e | e <;> rw [e]
      · obtain ⟨p1, p2⟩ := rpow_neg_half (hsp i)
        rw [rpow_neg_two p1, p2]; exact hsμ i
      · rw [rpow_neg_two hr]
        have : 0 < (r ^ 2)⁻¹ := inv_pos.2 (pow_pos hr 2)
        nlinarith
    rw [hBf, hform, ellMat_form, Finset.mul_sum]
    exact Finset.sum_le_sum fun i _ => by
      rw [← mul_assoc]
      exact mul_le_mul_of_nonneg_right (hcμ i) (sq_nonneg _)
  · set Ti := ellMat Rb (fun i => (r / b i)⁻¹) with hTidef
    have hTis : Tiᵀ = Ti := ellMat_symm _ _
    set g : Fin n → ℝ := fun i => (Real.sqrt (c2 i))⁻¹ with hg
    have hgc : ∀ i, g i * c2 i * g i = 1 := by
      intro i
      have h0 : Real.sqrt (c2 i) ≠ 0 := (Real.sqrt_pos.2 (hc2p i)).ne'
      have := Real.mul_self_sqrt (hc2p i).le
      simp only [hg]
      field_simp
      linarith [this]
    refine ⟨Ti * sv.u * diagonal g, ?_, ?_⟩
    · rw [transpose_mul, transpose_mul, diagonal_transpose, hTis]
      calc _ = diagonal g * (sv.uᵀ * (Ti * T) * ellMat sv.u c2 * (T * Ti) * sv.u) * diagonal g := by
            simp only [Matrix.mul_assoc]
        _ = diagonal g * ((sv.uᵀ * sv.u) * diagonal c2 * (sv.uᵀ * sv.u)) * diagonal g := by
            rw [hTiT, hTTi, Matrix.mul_one, Matrix.mul_one]; unfold ellMat; simp only [Matrix.mul_assoc]
        _ = 1 := by
            rw [ou.left, Matrix.one_mul, Matrix.mul_one, diagonal_mul_diagonal, diagonal_mul_diagonal, ← diagonal_one]
            congr 1
            funext i
            exact hgc i
    · intro i
      have hv : T *ᵥ ((Ti * sv.u * diagonal g) *ᵥ Pi.single i 1) = sv.u *ᵥ (g i • Pi.single i 1) := by
        rw [mulVec_mulVec, ← Matrix.mul_assoc, ← Matrix.mul_assoc, hTTi, Matrix.one_mul, ← mulVec_mulVec]
        congr 1
        funext j
        rw [mulVec_diagonal, Pi.smul_apply, smul_eq_mul]
        by_cases hj : j = i
        · subst hj; simp
        · simp [hj]
      rw [hBf, hAT, hform, ellMat_form, hv, mulVec_mulVec _ sv.uᵀ, ou.left, one_mulVec,
        Finset.sum_eq_single i (by intro j _ hj; simp [hj]) (by simp),
        Finset.sum_eq_single i (by intro j _ hj; simp [hj]) (by simp)]
      have hgi := hgc i
      simp only [Pi.smul_apply, Pi.single_eq_same, smul_eq_mul, mul_one]
      rcases max_choice (sv.s i ^ (-(1 / 2) : ℝ)) r with e | e
      · left
        obtain ⟨p1, p2⟩ := rpow_neg_half (hsp i)
        have : c2 i = sv.s i := by rw [hc2]; dsimp only; rw [e, rpow_neg_two p1, p2]
        rw [← this]; linarith [hgi]
      · right
        have : c2 i = (r ^ 2)⁻¹ := by rw [hc2]; dsimp only; rw [e, rpow_neg_two hr]
        rw [← this]; linarith [hgi]

end forms
end Hrm
