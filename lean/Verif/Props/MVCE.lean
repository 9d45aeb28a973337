import Verif.Props.TFE
import Mathlib.MeasureTheory.Measure.Lebesgue.EqHaar
import Mathlib.Analysis.SpecialFunctions.Exp

/-!
# C80 – the covering ellipsoid has minimum volume
-/

namespace Hrm

open Matrix

section
variable {n : ℕ}

/-- The geometric-mean inequality for the eigenvalues. -/
theorem det_le_one {M : Matrix (Fin n) (Fin n) ℝ} (hM : SymPos M) (hd : ∀ i, M i i ≤ 1) : M.det ≤ 1 := by
  obtain ⟨svd, hs⟩ := exists_svd n
  obtain ⟨ou, e, hp⟩ := isSvd_symPos hM (hs M hM)
  have h1 : M.det = ∏ i, (svd M).s i := by
    conv_lhs => rw [e]
    have : ((svd M).u).det * ((svd M).uᵀ).det = 1 := by rw [← det_mul, ou.right, det_one]
    rw [ellMat, det_mul, det_mul, det_diagonal]
    linear_combination (∏ i, (svd M).s i) * this
  have h2 : ∑ i, (svd M).s i = ∑ i, M i i := by
    have : M.trace = (diagonal (svd M).s).trace := by
      conv_lhs => rw [e]
      rw [ellMat, trace_mul_cycle, ou.left, Matrix.one_mul]
    rw [trace_diagonal] at this
    exact this.symm
  have h3 : ∑ i, ((svd M).s i - 1) ≤ 0 := by
    rw [Finset.sum_sub_distrib, h2, ← Finset.sum_sub_distrib]
    exact Finset.sum_nonpos fun i _ => by linarith [hd i]
  calc M.det = ∏ i, (svd M).s i := h1
    _ ≤ ∏ i, Real.exp ((svd M).s i - 1) :=
        Finset.prod_le_prod (fun i _ => (hp i).le) fun i _ => by linarith [Real.add_one_le_exp ((svd M).s i - 1)]
    _ = Real.exp (∑ i, ((svd M).s i - 1)) := (Real.exp_sum _ _).symm
    _ ≤ 1 := by rw [Real.exp_le_one_iff]; exact h3

/-- Any ellipsoid containing the two has a form with at most the same determinant. -/
theorem mvceSvd_min {svd : SvdFun n} (hs : SvdOk svd) {a b : Fin n → ℝ} {Ra Rb : Matrix (Fin n) (Fin n) ℝ}
    {r : ℝ} (ha : ∀ i, 0 < a i) (hb : ∀ i, 0 < b i) (hRa : Orth Ra) (hRb : Orth Rb) (hr : 0 < r) :
    ∃ C, SymPos C ∧ mvceSvd svd a b Ra Rb r = svd C ∧
      (∀ x, x ⬝ᵥ C *ᵥ x ≤ x ⬝ᵥ ellMat Ra (fun i => (a i ^ 2)⁻¹) *ᵥ x) ∧
      (∀ x, x ⬝ᵥ C *ᵥ x ≤ x ⬝ᵥ ellMat Rb (fun i => (b i ^ 2)⁻¹) *ᵥ x) ∧
      ∀ D, SymPos D → (∀ x, x ⬝ᵥ D *ᵥ x ≤ x ⬝ᵥ ellMat Ra (fun i => (a i ^ 2)⁻¹) *ᵥ x) →
        (∀ x, x ⬝ᵥ D *ᵥ x ≤ x ⬝ᵥ ellMat Rb (fun i => (b i ^ 2)⁻¹) *ᵥ x) → D.det ≤ C.det := by
  obtain ⟨C, hC, e, hA, hB, -, -, W, hW, hc⟩ := mvceSvd_spec hs ha hb hRa hRb hr
  refine ⟨C, hC, e, hA, hB, fun D hD dA dB => ?_⟩
  have hdet : W.det ^ 2 * C.det = 1 := by
    have := congrArg det hW
    rw [det_mul, det_mul, det_transpose, det_one] at this
    linarith
  have hW0 : 0 < W.det ^ 2 := by
    rcases (sq_nonneg W.det).lt_or_eq with h | h
    · exact h
    · rw [← h] at hdet; simp at hdet
  have hinj : ∀ x, W *ᵥ x = 0 → x = 0 := by
    intro x hx
    have : (Wᵀ * C * W) *ᵥ x = x := by rw [hW, one_mulVec]
    rw [← mulVec_mulVec, hx, mulVec_zero] at this
    exact this.symm
  have hform : ∀ x, x ⬝ᵥ (Wᵀ * D * W) *ᵥ x = (W *ᵥ x) ⬝ᵥ D *ᵥ (W *ᵥ x) := by
    intro x
    rw [← mulVec_mulVec, ← mulVec_mulVec, dot_mulVec, transpose_transpose]
  have hWD : SymPos (Wᵀ * D * W) := by
    refine ⟨by rw [transpose_mul, transpose_mul, transpose_transpose, hD.1, Matrix.mul_assoc], fun x hx => ?_⟩
    rw [hform]
    exact hD.2 _ fun h => hx (hinj x h)
  have := det_le_one hWD fun i => by
    have e : (Wᵀ * D * W) i i = (Pi.single i 1 : Fin n → ℝ) ⬝ᵥ (Wᵀ * D * W) *ᵥ Pi.single i 1 := by simp
    rw [e, hform]
    rcases hc i with h | h
    · exact (dA _).trans h.le
    · exact (dB _).trans h.le
  rw [det_mul, det_mul, det_transpose] at this
  have h2 : W.det ^ 2 * D.det ≤ W.det ^ 2 * C.det := by rw [hdet]; linarith
  exact le_of_mul_le_mul_left h2 hW0

/-- Containment of ellipsoids, in terms of their forms. -/
theorem form_le_of_subset {A D : Matrix (Fin n) (Fin n) ℝ} (hA : SymPos A)
    (h : ∀ x, x ⬝ᵥ A *ᵥ x ≤ 1 → x ⬝ᵥ D *ᵥ x ≤ 1) (x : Fin n → ℝ) : x ⬝ᵥ D *ᵥ x ≤ x ⬝ᵥ A *ᵥ x := by
  by_cases hx : x = 0
  · subst hx; simp
  have hp := hA.2 x hx
  set t := x ⬝ᵥ A *ᵥ x
  have hs := Real.sqrt_pos.2 hp
  have hss := Real.mul_self_sqrt hp.le
  have := h ((Real.sqrt t)⁻¹ • x) (by
    rw [mulVec_smul, dotProduct_smul, smul_dotProduct, smul_eq_mul, smul_eq_mul]
    change _ * (_ * t) ≤ 1
    rw [← mul_assoc, ← mul_inv, hss, inv_mul_cancel₀ hp.ne'])
  rw [mulVec_smul, dotProduct_smul, smul_dotProduct, smul_eq_mul, smul_eq_mul, ← mul_assoc, ← mul_inv, hss] at this
  rw [inv_mul_le_iff₀ hp, mul_one] at this
  exact this

theorem det_ellMat {R : Matrix (Fin n) (Fin n) ℝ} (hR : Orth R) (d : Fin n → ℝ) : (ellMat R d).det = ∏ i, d i := by
  have : R.det * (Rᵀ).det = 1 := by rw [← det_mul, hR.right, det_one]
  rw [ellMat, det_mul, det_mul, det_diagonal]
  linear_combination (∏ i, d i) * this

end

/-- **C80 (2D, minimality).** Among all ellipses centred at the origin that contain both given ellipses, the covering
ellipse has the least area (`π` times the product of the semi-axes). No condition on the decomposition: a mirrored
result has the same area. -/
theorem C80_mvce2D_minimal (svd : SvdFun 2) (hs : SvdOk svd) (a b : Fin 2 → ℝ) (ha : ∀ i, 0 < a i) (hb : ∀ i, 0 < b i)
    (thA thB : ℝ) (num : ℕ) (c : Fin 2 → ℝ) (hc : ∀ i, 0 < c i) (thC : ℝ)
    (hA : (ellipse2 a thA).solid ⊆ (ellipse2 c thC).solid) (hB : (ellipse2 b thB).solid ⊆ (ellipse2 c thC).solid) :
    (getMVCE2D svd a b thA thB num).a * (getMVCE2D svd a b thA thB num).b ≤ c 0 * c 1 := by
  have hr : 0 < min (b 0) (b 1) := lt_min (hb 0) (hb 1)
  obtain ⟨C, hC, e, -, -, hmin⟩ := mvceSvd_min hs ha hb (rot2_orth thA) (rot2_orth thB) hr
  obtain ⟨ou, hCd, hsp⟩ := isSvd_symPos hC (hs C hC)
  have hab : ∀ c : Fin 2 → ℝ, (fun i => (![c 0, c 1] i ^ 2)⁻¹) = fun i => (c i ^ 2)⁻¹ := by
    intro c
    funext i
    fin_cases i <;> rfl
  have hp : ∀ c : Fin 2 → ℝ, (∀ i, 0 < c i) → ∀ th, SymPos (ellMat (rot2 th) fun i => (c i ^ 2)⁻¹) :=
    fun c hc th => ellMat_pos (rot2_orth th) fun i => inv_pos.2 (pow_pos (hc i) 2)
  have hmem : ∀ (c : Fin 2 → ℝ) (th : ℝ) x, x ∈ (ellipse2 c th).solid ↔
      x ⬝ᵥ ellMat (rot2 th) (fun i => (c i ^ 2)⁻¹) *ᵥ x ≤ 1 := by
    intro c th x
    rw [mem_ellipse rfl rfl rfl, ← hab c]
    rfl
  have hdet := hmin _ (hp c hc thC)
    (form_le_of_subset (hp a ha thA) fun x hx => (hmem c thC x).1 (hA ((hmem a thA x).2 hx)))
    (form_le_of_subset (hp b hb thB) fun x hx => (hmem c thC x).1 (hB ((hmem b thB x).2 hx)))
  conv_rhs at hdet => rw [hCd]
  rw [det_ellMat (rot2_orth thC), det_ellMat ou, Fin.prod_univ_two, Fin.prod_univ_two] at hdet
  have hEa : (getMVCE2D svd a b thA thB num).a = (svd C).s 0 ^ (-(1 / 2) : ℝ) := by simp only [getMVCE2D, e]
  have hEb : (getMVCE2D svd a b thA thB num).b = (svd C).s 1 ^ (-(1 / 2) : ℝ) := by simp only [getMVCE2D, e]
  obtain ⟨p0, q0⟩ := rpow_neg_half (hsp 0)
  obtain ⟨p1, q1⟩ := rpow_neg_half (hsp 1)
  rw [← hEa] at p0 q0
  rw [← hEb] at p1 q1
  rw [← q0, ← q1, ← mul_inv, ← mul_inv, ← mul_pow, ← mul_pow] at hdet
  have hcc := mul_pos (hc 0) (hc 1)
  have hEE := mul_pos p0 p1
  have := (inv_le_inv₀ (pow_pos hcc 2) (pow_pos hEE 2)).1 hdet
  exact le_of_sq_le_sq this hcc.le

/-- **C80 (3D, minimality).** The same for ellipsoids: no ellipsoid centred at the origin that contains both given ones has
a smaller product of semi-axes. -/
theorem C80_mvce3D_minimal (svd : SvdFun 3) (hs : SvdOk svd) (a b : Fin 3 → ℝ) (ha : ∀ i, 0 < a i) (hb : ∀ i, 0 < b i)
    (qA qB : Quat) (hqA : qA.Unit) (hqB : qB.Unit) (num : ℕ) (c : Fin 3 → ℝ) (hc : ∀ i, 0 < c i) (qC : Quat)
    (hqC : qC.Unit) (hA : (ellipsoid3 a qA).solid ⊆ (ellipsoid3 c qC).solid)
    (hB : (ellipsoid3 b qB).solid ⊆ (ellipsoid3 c qC).solid) :
    (getMVCE3D svd a b qA qB num).a * (getMVCE3D svd a b qA qB num).b * (getMVCE3D svd a b qA qB num).c ≤
      c 0 * c 1 * c 2 := by
  have hr : 0 < min (b 0) (min (b 1) (b 2)) := lt_min (hb 0) (lt_min (hb 1) (hb 2))
  obtain ⟨C, hC, e, -, -, hmin⟩ := mvceSvd_min hs ha hb (quatRot_orth hqA) (quatRot_orth hqB) hr
  obtain ⟨ou, hCd, hsp⟩ := isSvd_symPos hC (hs C hC)
  have hab : ∀ c : Fin 3 → ℝ, (fun i => (![c 0, c 1, c 2] i ^ 2)⁻¹) = fun i => (c i ^ 2)⁻¹ := by
    intro c
    funext i
    fin_cases i <;> rfl
  have hp : ∀ c : Fin 3 → ℝ, (∀ i, 0 < c i) → ∀ q : Quat, q.Unit → SymPos (ellMat (quatRot q) fun i => (c i ^ 2)⁻¹) :=
    fun c hc q hq => ellMat_pos (quatRot_orth hq) fun i => inv_pos.2 (pow_pos (hc i) 2)
  have hmem : ∀ (c : Fin 3 → ℝ) (q : Quat), q.Unit → ∀ x, x ∈ (ellipsoid3 c q).solid ↔
      x ⬝ᵥ ellMat (quatRot q) (fun i => (c i ^ 2)⁻¹) *ᵥ x ≤ 1 := by
    intro c q hq x
    rw [mem_ellipsoid rfl rfl rfl (quatRot_orth hq), ← hab c]
    rfl
  have hdet := hmin _ (hp c hc qC hqC)
    (form_le_of_subset (hp a ha qA hqA) fun x hx => (hmem c qC hqC x).1 (hA ((hmem a qA hqA x).2 hx)))
    (form_le_of_subset (hp b hb qB hqB) fun x hx => (hmem c qC hqC x).1 (hB ((hmem b qB hqB x).2 hx)))
  conv_rhs at hdet => rw [hCd]
  rw [det_ellMat (quatRot_orth hqC), det_ellMat ou, Fin.prod_univ_three, Fin.prod_univ_three] at hdet
  have hEa : (getMVCE3D svd a b qA qB num).a = (svd C).s 0 ^ (-(1 / 2) : ℝ) := by simp only [getMVCE3D, e]
  have hEb : (getMVCE3D svd a b qA qB num).b = (svd C).s 1 ^ (-(1 / 2) : ℝ) := by simp only [getMVCE3D, e]
  have hEc : (getMVCE3D svd a b qA qB num).c = (svd C).s 2 ^ (-(1 / 2) : ℝ) := by simp only [getMVCE3D, e]
  obtain ⟨p0, q0⟩ := rpow_neg_half (hsp 0)
  obtain ⟨p1, q1⟩ := rpow_neg_half (hsp 1)
  obtain ⟨p2, q2⟩ := rpow_neg_half (hsp 2)
  rw [← hEa] at p0 q0
  rw [← hEb] at p1 q1
  rw [← hEc] at p2 q2
  rw [← q0, ← q1, ← q2, ← mul_inv, ← mul_inv, ← mul_pow, ← mul_pow, ← mul_inv, ← mul_inv, ← mul_pow, ← mul_pow] at hdet
  have hcc := mul_pos (mul_pos (hc 0) (hc 1)) (hc 2)
  have hEE := mul_pos (mul_pos p0 p1) p2
  have := (inv_le_inv₀ (pow_pos hcc 2) (pow_pos hEE 2)).1 hdet
  exact le_of_sq_le_sq this hcc.le

/-! ## In terms of volume -/

open MeasureTheory

theorem volume_ellipse {E : SuperEllipse} (ha : 0 < E.a) (hb : 0 < E.b) (he : E.eps = 1) (hx : E.px = 0) (hy : E.py = 0) :
    volume E.solid = ENNReal.ofReal (E.a * E.b) * volume {p : Fin 2 → ℝ | p 0 ^ 2 + p 1 ^ 2 ≤ 1} := by
  have : E.solid = Matrix.toLin' (rot2 E.ang * diagonal ![E.a, E.b]) '' {p : Fin 2 → ℝ | p 0 ^ 2 + p 1 ^ 2 ≤ 1} := by
    have hz : (![E.px, E.py] : Fin 2 → ℝ) = 0 := by rw [hx, hy]; ext i; fin_cases i <;> rfl
    have himp : ∀ p, E.implicit p = (p 0 / E.a) ^ 2 + (p 1 / E.b) ^ 2 := by
      intro p
      rw [SuperEllipse.implicit, he, rpow_two_div_one, rpow_two_div_one]
    ext x
    constructor
    · rintro ⟨y, ⟨p, hp, rfl⟩, rfl⟩
      rw [himp] at hp
      refine ⟨![p 0 / E.a, p 1 / E.b], hp, ?_⟩
      rw [toLin'_apply, ← mulVec_mulVec, hz, add_zero]
      congr 1
      funext i
      rw [mulVec_diagonal]
      fin_cases i
      · change E.a * (p 0 / E.a) = p 0; field_simp
      · change E.b * (p 1 / E.b) = p 1; field_simp
    · rintro ⟨p, hp, rfl⟩
      refine ⟨_, ⟨diagonal ![E.a, E.b] *ᵥ p, ?_, rfl⟩, ?_⟩
      · rw [himp]
        simp only [mulVec_diagonal, cons_val_zero, cons_val_one]
        rw [mul_div_cancel_left₀ _ ha.ne', mul_div_cancel_left₀ _ hb.ne']
        exact hp
      · rw [toLin'_apply, ← mulVec_mulVec, hz, add_zero]
  rw [this, Measure.addHaar_image_linearMap, LinearMap.det_toLin', det_mul, det_diagonal, Fin.prod_univ_two]
  have hd : (rot2 E.ang).det = 1 := by
    have := Real.sin_sq_add_cos_sq E.ang
    rw [rot2, det_fin_two_of]; linarith
  rw [hd, one_mul]
  simp only [cons_val_zero, cons_val_one]
  rw [abs_of_pos (mul_pos ha hb)]

theorem volume_ellipsoid {Q : SuperQuadrics} (ha : 0 < Q.a) (hb : 0 < Q.b) (hc : 0 < Q.c) (h1 : Q.e1 = 1) (h2 : Q.e2 = 1)
    (hq : Orth (quatRot Q.quat)) (hp : Q.pos = 0) :
    volume Q.solid = ENNReal.ofReal (Q.a * Q.b * Q.c) * volume {p : Fin 3 → ℝ | p 0 ^ 2 + p 1 ^ 2 + p 2 ^ 2 ≤ 1} := by
  have : Q.solid = Matrix.toLin' (quatRot Q.quat * diagonal ![Q.a, Q.b, Q.c]) ''
      {p : Fin 3 → ℝ | p 0 ^ 2 + p 1 ^ 2 + p 2 ^ 2 ≤ 1} := by
    have himp : ∀ p, Q.implicit p = (p 0 / Q.a) ^ 2 + (p 1 / Q.b) ^ 2 + (p 2 / Q.c) ^ 2 := by
      intro p
      rw [SuperQuadrics.implicit, h1, h2, rpow_two_div_one, rpow_two_div_one, rpow_two_div_one, div_one, Real.rpow_one]
    ext x
    constructor
    · rintro ⟨y, ⟨p, hp', rfl⟩, rfl⟩
      rw [himp] at hp'
      refine ⟨![p 0 / Q.a, p 1 / Q.b, p 2 / Q.c], hp', ?_⟩
      rw [toLin'_apply, ← mulVec_mulVec, hp, add_zero]
      congr 1
      funext i
      rw [mulVec_diagonal]
      fin_cases i
      · change Q.a * (p 0 / Q.a) = p 0; field_simp
      · change Q.b * (p 1 / Q.b) = p 1; field_simp
      · change Q.c * (p 2 / Q.c) = p 2; field_simp
    · rintro ⟨p, hp', rfl⟩
      refine ⟨_, ⟨diagonal ![Q.a, Q.b, Q.c] *ᵥ p, ?_, rfl⟩, ?_⟩
      · rw [himp]
        have e0 : (diagonal ![Q.a, Q.b, Q.c] *ᵥ p) 0 = Q.a * p 0 := by rw [mulVec_diagonal]; rfl
        have e1 : (diagonal ![Q.a, Q.b, Q.c] *ᵥ p) 1 = Q.b * p 1 := by rw [mulVec_diagonal]; rfl
        have e2 : (diagonal ![Q.a, Q.b, Q.c] *ᵥ p) 2 = Q.c * p 2 := by rw [mulVec_diagonal]; rfl
        rw [e0, e1, e2, mul_div_cancel_left₀ _ ha.ne', mul_div_cancel_left₀ _ hb.ne', mul_div_cancel_left₀ _ hc.ne']
        exact hp'
      · rw [toLin'_apply, ← mulVec_mulVec, hp, add_zero]
  rw [this, Measure.addHaar_image_linearMap, LinearMap.det_toLin', det_mul, det_diagonal, Fin.prod_univ_three]
  have hd : |(quatRot Q.quat).det| = 1 := by
    have := congrArg det hq.left
    rw [det_mul, det_transpose, det_one] at this
    rcases mul_self_eq_one_iff.1 this with h | h <;> simp [h]
  rw [abs_mul, hd, one_mul]
  congr 2
  exact abs_of_pos (mul_pos (mul_pos ha hb) hc)

/-- **C80 (2D), least area.** Every ellipse centred at the origin that contains both given ellipses has at least the area
of the covering ellipse. -/
theorem C80_least_area (svd : SvdFun 2) (hs : SvdOk svd) (a b : Fin 2 → ℝ) (ha : ∀ i, 0 < a i) (hb : ∀ i, 0 < b i)
    (thA thB : ℝ) (num : ℕ) (c : Fin 2 → ℝ) (hc : ∀ i, 0 < c i) (thC : ℝ)
    (hA : (ellipse2 a thA).solid ⊆ (ellipse2 c thC).solid) (hB : (ellipse2 b thB).solid ⊆ (ellipse2 c thC).solid) :
    volume (getMVCE2D svd a b thA thB num).solid ≤ volume (ellipse2 c thC).solid := by
  have hr : 0 < min (b 0) (b 1) := lt_min (hb 0) (hb 1)
  obtain ⟨C, hC, e, -, -, -⟩ := mvceSvd_spec hs ha hb (rot2_orth thA) (rot2_orth thB) hr
  obtain ⟨-, -, hsp⟩ := isSvd_symPos hC (hs C hC)
  have p0 : 0 < (getMVCE2D svd a b thA thB num).a := by simp only [getMVCE2D, e]; exact (rpow_neg_half (hsp 0)).1
  have p1 : 0 < (getMVCE2D svd a b thA thB num).b := by simp only [getMVCE2D, e]; exact (rpow_neg_half (hsp 1)).1
  rw [volume_ellipse p0 p1 rfl rfl rfl, volume_ellipse (E := ellipse2 c thC) (hc 0) (hc 1) rfl rfl rfl]
  exact mul_le_mul_left (ENNReal.ofReal_le_ofReal (C80_mvce2D_minimal svd hs a b ha hb thA thB num c hc thC hA hB)) _

/-- **C80 (3D), least volume (partial).** Every ellipsoid centred at the origin that contains both given ellipsoids has at
least the volume of the covering ellipsoid. Missing: decompositions with `det U = -1`, where the quaternion of the result
is not a unit quaternion; the product of its semi-axes is least anyway, see C80_mvce3D_minimal. -/
theorem C80_least_volume_partial (svd : SvdFun 3) (hs : SvdOk svd) (hdet : ∀ M, SymPos M → (svd M).u.det = 1)
    (a b : Fin 3 → ℝ) (ha : ∀ i, 0 < a i) (hb : ∀ i, 0 < b i)
    (qA qB : Quat) (hqA : qA.Unit) (hqB : qB.Unit) (num : ℕ) (c : Fin 3 → ℝ) (hc : ∀ i, 0 < c i) (qC : Quat)
    (hqC : qC.Unit) (hA : (ellipsoid3 a qA).solid ⊆ (ellipsoid3 c qC).solid)
    (hB : (ellipsoid3 b qB).solid ⊆ (ellipsoid3 c qC).solid) :
    volume (getMVCE3D svd a b qA qB num).solid ≤ volume (ellipsoid3 c qC).solid := by
  obtain ⟨p0, p1, p2, hu, -, -⟩ := mvce3D_spec hs hdet ha hb hqA hqB num
  rw [volume_ellipsoid p0 p1 p2 rfl rfl (quatRot_orth hu) rfl,
    volume_ellipsoid (Q := ellipsoid3 c qC) (hc 0) (hc 1) (hc 2) rfl rfl (quatRot_orth hqC) rfl]
  exact mul_le_mul_left (ENNReal.ofReal_le_ofReal
    (C80_mvce3D_minimal svd hs a b ha hb qA qB hqA hqB num c hc qC hqC hA hB)) _

/-- Witness: the disc of radius 2 contains two crossed ellipses. -/
example : ∃ svd : SvdFun 2, SvdOk svd ∧ (ellipse2 ![2, 1] 0).solid ⊆ (ellipse2 ![2, 2] 0).solid ∧
    (ellipse2 ![2, 1] (Real.pi / 2)).solid ⊆ (ellipse2 ![2, 2] 0).solid := by
  obtain ⟨svd, hs⟩ := exists_svd 2
  have key : ∀ th, (ellipse2 ![2, 1] th).solid ⊆ (ellipse2 ![2, 2] 0).solid := by
    intro th x hx
    rw [mem_ellipse rfl rfl rfl, ellMat_form, Fin.sum_univ_two] at hx ⊢
    have e := Real.sin_sq_add_cos_sq th
    simp only [ellipse2, rot2, cons_val_zero, cons_val_one, mulVec, dotProduct, Fin.sum_univ_two, transpose_apply, of_apply,
      cons_val', Real.cos_zero, Real.sin_zero] at hx ⊢
    generalize Real.cos th = c at *
    generalize Real.sin th = s at *
    have : (c * x 0 + s * x 1) ^ 2 + (-s * x 0 + c * x 1) ^ 2 = x 0 ^ 2 + x 1 ^ 2 := by
      linear_combination (x 0 ^ 2 + x 1 ^ 2) * e
    norm_num at hx ⊢
    nlinarith [sq_nonneg (-s * x 0 + c * x 1)]
  exact ⟨svd, hs, key _, key _⟩

end Hrm
