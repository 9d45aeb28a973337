import Verif.Lemmas.TFE

/-!
# C45: covering ellipsoids and tightly-fitted ellipsoids contain what they should
-/

namespace Hrm

open Matrix

/-! ## Ellipsoids as quadratic forms -/

theorem rpow_two_div_one (x : ℝ) : |x| ^ (2 / 1 : ℝ) = x ^ 2 := by
  rw [div_one]
  norm_cast
  exact sq_abs x

theorem mem_ellipse {E : SuperEllipse} (he : E.eps = 1) (hx : E.px = 0) (hy : E.py = 0) (x : Fin 2 → ℝ) :
    x ∈ E.solid ↔ x ⬝ᵥ ellMat (rot2 E.ang) (fun i => (![E.a, E.b] i ^ 2)⁻¹) *ᵥ x ≤ 1 := by
  have hz : (![E.px, E.py] : Fin 2 → ℝ) = 0 := by rw [hx, hy]; ext i; fin_cases i <;> rfl
  have ho := rot2_orth E.ang
  have key : ∀ p, E.implicit p = ∑ i, (![E.a, E.b] i ^ 2)⁻¹ * p i ^ 2 := by
    intro p
    rw [SuperEllipse.implicit, he, rpow_two_div_one, rpow_two_div_one, Fin.sum_univ_two]
    simp only [div_pow, cons_val_zero, cons_val_one]
    ring
  constructor
  · rintro ⟨y, ⟨p, hp, rfl⟩, rfl⟩
    rw [hz, add_zero, ellMat_form, mulVec_mulVec, ho.left, one_mulVec, ← key]
    exact hp
  · intro h
    rw [ellMat_form, ← key] at h
    refine ⟨x, ⟨_, h, ?_⟩, by rw [hz, add_zero]⟩
    rw [mulVec_mulVec, ho.right, one_mulVec]

theorem mem_ellipsoid {Q : SuperQuadrics} (h1 : Q.e1 = 1) (h2 : Q.e2 = 1) (hp : Q.pos = 0)
    (ho : Orth (quatRot Q.quat)) (x : Fin 3 → ℝ) :
    x ∈ Q.solid ↔ x ⬝ᵥ ellMat (quatRot Q.quat) (fun i => (![Q.a, Q.b, Q.c] i ^ 2)⁻¹) *ᵥ x ≤ 1 := by
  have key : ∀ p, Q.implicit p = ∑ i, (![Q.a, Q.b, Q.c] i ^ 2)⁻¹ * p i ^ 2 := by
    intro p
    rw [SuperQuadrics.implicit, h1, h2, rpow_two_div_one, rpow_two_div_one, rpow_two_div_one, div_one,
      Real.rpow_one, Fin.sum_univ_three]
    simp only [div_pow, cons_val_zero, cons_val_one, cons_val]
    ring
  constructor
  · rintro ⟨y, ⟨p, hp', rfl⟩, rfl⟩
    rw [hp, add_zero, ellMat_form, mulVec_mulVec, ho.left, one_mulVec, ← key]
    exact hp'
  · intro h
    rw [ellMat_form, ← key] at h
    refine ⟨x, ⟨_, h, ?_⟩, by rw [hp, add_zero]⟩
    rw [mulVec_mulVec, ho.right, one_mulVec]

/-! ## 2D -/

theorem rot2_arccos_form {U : Matrix (Fin 2) (Fin 2) ℝ} (ho : Orth U) (hs : 0 ≤ U 1 0) (d : Fin 2 → ℝ) :
    ellMat (rot2 (Real.arccos (U 0 0))) d = ellMat U d := by
  have l := ho.left
  have l00 := congrFun (congrFun l 0) 0
  have l01 := congrFun (congrFun l 0) 1
  have l11 := congrFun (congrFun l 1) 1
  simp [Matrix.mul_apply, Fin.sum_univ_two] at l00 l01 l11
  have b1 : -1 ≤ U 0 0 := by nlinarith
  have b2 : U 0 0 ≤ 1 := by nlinarith
  have hc := Real.cos_arccos b1 b2
  have hsn : Real.sin (Real.arccos (U 0 0)) = U 1 0 := by
    rw [Real.sin_arccos, show 1 - U 0 0 ^ 2 = U 1 0 ^ 2 by linarith [l00, sq (U 0 0), sq (U 1 0)]]
    exact Real.sqrt_sq hs
  have hR : rot2 (Real.arccos (U 0 0)) = !![U 0 0, -U 1 0; U 1 0, U 0 0] := by
    unfold rot2
    rw [hc, hsn]
  rw [hR]
  -- the second columns are equal up to sign
  have r := ho.right
  have r00 := congrFun (congrFun r 0) 0
  have r01 := congrFun (congrFun r 0) 1
  simp [Matrix.mul_apply, Fin.sum_univ_two] at r00 r01
  have e0 : U 0 1 * U 0 1 = U 1 0 * U 1 0 := by linarith
  have e1 : U 1 1 * U 1 1 = U 0 0 * U 0 0 := by linarith
  have e2 : U 0 1 * U 1 1 = -(U 1 0 * U 0 0) := by linarith
  ext i j
  fin_cases i <;> fin_cases j <;>
    simp [ellMat, Matrix.mul_apply, Fin.sum_univ_two, vecMul_diagonal]
  · linear_combination -d 1 * e0
  · linear_combination -d 1 * e2
  · linear_combination -d 1 * e2
  · linear_combination -d 1 * e1

/-- What is known about the result of `getMVCE2D` for a decomposition with a non-negative second entry in the
first column of `U`. -/
theorem mvce2D_spec {svd : SvdFun 2} (hs : SvdOk svd) (hsign : ∀ M, SymPos M → 0 ≤ (svd M).u 1 0)
    {a b : Fin 2 → ℝ} (ha : ∀ i, 0 < a i) (hb : ∀ i, 0 < b i) (thA thB : ℝ) (num : ℕ) :
    0 < (getMVCE2D svd a b thA thB num).a ∧ 0 < (getMVCE2D svd a b thA thB num).b ∧
    (ellipse2 a thA).solid ⊆ (getMVCE2D svd a b thA thB num).solid ∧
    (ellipse2 b thB).solid ⊆ (getMVCE2D svd a b thA thB num).solid := by
  have hr : 0 < min (b 0) (b 1) := lt_min (hb 0) (hb 1)
  obtain ⟨C, hC, e, hA, hB, -⟩ := mvceSvd_spec hs ha hb (rot2_orth thA) (rot2_orth thB) hr
  obtain ⟨ou, hCd, hsp⟩ := isSvd_symPos hC (hs C hC)
  have hsg := hsign C hC
  generalize hE : getMVCE2D svd a b thA thB num = E
  have hEa : E.a = (svd C).s 0 ^ (-(1 / 2) : ℝ) := by rw [← hE]; simp only [getMVCE2D, e]
  have hEb : E.b = (svd C).s 1 ^ (-(1 / 2) : ℝ) := by rw [← hE]; simp only [getMVCE2D, e]
  have hEang : E.ang = Real.arccos ((svd C).u 0 0) := by rw [← hE]; simp only [getMVCE2D, e]
  have hEe : E.eps = 1 := by rw [← hE]; rfl
  have hEx : E.px = 0 := by rw [← hE]; rfl
  have hEy : E.py = 0 := by rw [← hE]; rfl
  have hd : (fun i => (![E.a, E.b] i ^ 2)⁻¹) = (svd C).s := by
    funext i
    fin_cases i
    · simpa [hEa] using (rpow_neg_half (hsp 0)).2
    · simpa [hEb] using (rpow_neg_half (hsp 1)).2
  have hmem : ∀ x, x ∈ E.solid ↔ x ⬝ᵥ C *ᵥ x ≤ 1 := by
    intro x
    rw [mem_ellipse hEe hEx hEy, hd, hEang, rot2_arccos_form ou hsg, ← hCd]
  have hab : ∀ c : Fin 2 → ℝ, (fun i => (![c 0, c 1] i ^ 2)⁻¹) = fun i => (c i ^ 2)⁻¹ := by
    intro c
    funext i
    fin_cases i <;> rfl
  refine ⟨by rw [hEa]; exact (rpow_neg_half (hsp 0)).1, by rw [hEb]; exact (rpow_neg_half (hsp 1)).1, ?_, ?_⟩
  · intro x hx
    rw [mem_ellipse rfl rfl rfl] at hx
    rw [hmem]
    refine (hA x).trans ?_
    rw [← hab a]
    exact hx
  · intro x hx
    rw [mem_ellipse rfl rfl rfl] at hx
    rw [hmem]
    refine (hB x).trans ?_
    rw [← hab b]
    exact hx

/-- **C45, claim (2D)**: with every singular value decomposition satisfying the contract, the covering ellipse
contains both given ellipses. -/
def C45_claim_2D : Prop := ∀ svd : SvdFun 2, SvdOk svd → ∀ a b : Fin 2 → ℝ, (∀ i, 0 < a i) → (∀ i, 0 < b i) →
  ∀ (thA thB : ℝ) (num : ℕ),
    (ellipse2 a thA).solid ⊆ (getMVCE2D svd a b thA thB num).solid ∧
    (ellipse2 b thB).solid ⊆ (getMVCE2D svd a b thA thB num).solid

/-- **C45 (2D, covering, partial).** The covering ellipse contains both given ellipses if the decomposition is
returned with `U(1,0) ≥ 0`. Missing: `U(1,0) < 0`, where `acos(U(0,0))` is the angle of the mirrored axis. -/
theorem C45_mvce2D_partial (svd : SvdFun 2) (hs : SvdOk svd) (hsign : ∀ M, SymPos M → 0 ≤ (svd M).u 1 0)
    (a b : Fin 2 → ℝ) (ha : ∀ i, 0 < a i) (hb : ∀ i, 0 < b i) (thA thB : ℝ) (num : ℕ) :
    (ellipse2 a thA).solid ⊆ (getMVCE2D svd a b thA thB num).solid ∧
    (ellipse2 b thB).solid ⊆ (getMVCE2D svd a b thA thB num).solid :=
  (mvce2D_spec hs hsign ha hb thA thB num).2.2

/-- **C45 (2D, tightly fitted, partial).** Under the same condition the tightly-fitted ellipse contains the robot
at both orientations and at all the `numStep` orientations `thA + i/(numStep-1) (thB - thA)`. -/
theorem C45_tfe2D_partial (svd : SvdFun 2) (hs : SvdOk svd) (hsign : ∀ M, SymPos M → 0 ≤ (svd M).u 1 0)
    (a : Fin 2 → ℝ) (ha : ∀ i, 0 < a i) (thA thB : ℝ) (numStep num : ℕ) (hn : numStep ≠ 1) :
    ∃ E, getTFE2D svd a thA thB numStep num = some E ∧
      (ellipse2 a thA).solid ⊆ E.solid ∧ (ellipse2 a thB).solid ⊆ E.solid ∧
      ∀ i < numStep, (ellipse2 a (thA + i / ((numStep : ℝ) - 1) * (thB - thA))).solid ⊆ E.solid := by
  have key : ∀ n, 
      let E := (List.range n).foldl (fun E i =>
        getMVCE2D svd a ![E.a, E.b] (thetaStep thA thB numStep i) E.ang num) (getMVCE2D svd a a thA thB num)
      0 < E.a ∧ 0 < E.b ∧ E.eps = 1 ∧ E.px = 0 ∧ E.py = 0 ∧ (ellipse2 a thA).solid ⊆ E.solid ∧
        (ellipse2 a thB).solid ⊆ E.solid ∧
        ∀ i < n, (ellipse2 a (thA + i / ((numStep : ℝ) - 1) * (thB - thA))).solid ⊆ E.solid := by
    intro n
    induction n with
    | zero =>
      obtain ⟨h1, h2, h3, h4⟩ := mvce2D_spec hs hsign ha ha thA thB num
      exact ⟨h1, h2, rfl, rfl, rfl, h3, h4, fun i hi => absurd hi (Nat.not_lt_zero i)⟩
    | succ n ih =>
      dsimp only at ih ⊢
      rw [List.range_succ, List.foldl_append]
      simp only [List.foldl_cons, List.foldl_nil]
      generalize (List.range n).foldl (fun E i =>
        getMVCE2D svd a ![E.a, E.b] (thetaStep thA thB numStep i) E.ang num) (getMVCE2D svd a a thA thB num) = F at ih ⊢
      obtain ⟨f1, f2, fe, fx, fy, fA, fB, fi⟩ := ih
      have hF : ∀ i, 0 < (![F.a, F.b] : Fin 2 → ℝ) i := by
        intro i
        fin_cases i
        · exact f1
        · exact f2
      obtain ⟨h1, h2, h3, h4⟩ := mvce2D_spec hs hsign ha hF (thetaStep thA thB numStep n) F.ang num
      have hFsub : F.solid ⊆ (getMVCE2D svd a ![F.a, F.b] (thetaStep thA thB numStep n) F.ang num).solid := by
        intro x hx
        apply h4
        rw [mem_ellipse fe fx fy] at hx
        rw [mem_ellipse rfl rfl rfl]
        exact hx
      refine ⟨h1, h2, rfl, rfl, rfl, fA.trans hFsub, fB.trans hFsub, ?_⟩
      intro i hi
      rcases (show i < n ∨ i = n by omega) with h | rfl
      · exact (fi i h).trans hFsub
      · have : thetaStep thA thB numStep i = thA + i / ((numStep : ℝ) - 1) * (thB - thA) := by
          unfold thetaStep
          ring
        rw [← this]
        exact h3
  obtain ⟨-, -, -, -, -, h1, h2, h3⟩ := key numStep
  exact ⟨_, if_neg hn, h1, h2, h3⟩

/-! ### The refutation -/

/-- Changing the decomposition at one matrix. -/
theorem svdOk_override {n : ℕ} {svd : SvdFun n} (hs : SvdOk svd) {C : Matrix (Fin n) (Fin n) ℝ} {r : SvdRes n}
    (h : IsSvd C r) : ∃ svd' : SvdFun n, SvdOk svd' ∧ svd' C = r := by
  classical
  refine ⟨fun M => if M = C then r else svd M, ?_, if_pos rfl⟩
  intro M hM
  dsimp only
  split
  · rename_i e; rw [e]; exact h
  · exact hs M hM

/-- The two decompositions of C45's counterexamples are of the form `U diag(s) Uᵀ`. -/
theorem isSvd_ellMat {n : ℕ} {U : Matrix (Fin n) (Fin n) ℝ} (hU : Orth U) {s : Fin n → ℝ} (h0 : ∀ i, 0 ≤ s i)
    (hs : ∀ i j, i ≤ j → s j ≤ s i) : IsSvd (ellMat U s) ⟨U, s⟩ :=
  ⟨hU.left, hU.right, h0, hs, U, hU.left, hU.right, rfl⟩

theorem rot2_345 : rot2 (Real.arccos (4 / 5)) = !![4 / 5, -(3 / 5); 3 / 5, 4 / 5] := by
  have h : Real.sin (Real.arccos (4 / 5)) = 3 / 5 := by
    rw [Real.sin_arccos, show (1 : ℝ) - (4 / 5) ^ 2 = (3 / 5) ^ 2 by norm_num]
    exact Real.sqrt_sq (by norm_num)
  rw [rot2, Real.cos_arccos (by norm_num) (by norm_num), h]

theorem rot2_345' : rot2 (Real.arccos (3 / 5)) = !![3 / 5, -(4 / 5); 4 / 5, 3 / 5] := by
  have h : Real.sin (Real.arccos (3 / 5)) = 4 / 5 := by
    rw [Real.sin_arccos, show (1 : ℝ) - (3 / 5) ^ 2 = (4 / 5) ^ 2 by norm_num]
    exact Real.sqrt_sq (by norm_num)
  rw [rot2, Real.cos_arccos (by norm_num) (by norm_num), h]

/-- **C45 is refuted in 2D**: both ellipses are the one with semi-axes 2 and 1 turned by `acos(4/5)`; the
decomposition returns the direction of the short axis as `(3/5, -4/5)`, and the result is turned the wrong way. -/
theorem C45_refuted : ¬ C45_claim_2D := by
  intro h
  have hU : Orth (!![3 / 5, 4 / 5; -(4 / 5), 3 / 5] : Matrix (Fin 2) (Fin 2) ℝ) := by
    constructor <;> ext i j <;> fin_cases i <;> fin_cases j <;>
      norm_num [Matrix.mul_apply, Fin.sum_univ_two]
  have ha : ∀ i, 0 < (![2, 1] : Fin 2 → ℝ) i := by intro i; fin_cases i <;> norm_num
  have hC : ellMat (!![3 / 5, 4 / 5; -(4 / 5), 3 / 5] : Matrix (Fin 2) (Fin 2) ℝ) ![1, 1 / 4] =
      ellMat (rot2 (Real.arccos (4 / 5))) (fun i => ((![2, 1] : Fin 2 → ℝ) i ^ 2)⁻¹) := by
    rw [rot2_345]
    ext i j
    fin_cases i <;> fin_cases j <;>
      norm_num [ellMat, Matrix.mul_apply, Fin.sum_univ_two, vecMul_diagonal]
  obtain ⟨svd0, hs0⟩ := exists_svd 2
  have hsvd := isSvd_ellMat hU (s := ![1, 1 / 4]) (by intro i; fin_cases i <;> norm_num)
    (by intro i j hij; fin_cases i <;> fin_cases j <;> first | (exfalso; revert hij; decide) | norm_num)
  rw [hC] at hsvd
  obtain ⟨svd, hs, e⟩ := svdOk_override hs0 hsvd
  obtain ⟨C, -, e2, -, -, e3, -⟩ := mvceSvd_spec hs ha ha (rot2_orth (Real.arccos (4 / 5)))
    (rot2_orth (Real.arccos (4 / 5))) (show (0 : ℝ) < min ((![2, 1] : Fin 2 → ℝ) 0) ((![2, 1] : Fin 2 → ℝ) 1) by norm_num)
  rw [e3 rfl rfl (by intro i; fin_cases i <;> norm_num), e] at e2
  have hE : getMVCE2D svd ![2, 1] ![2, 1] (Real.arccos (4 / 5)) (Real.arccos (4 / 5)) 0 =
      ⟨(1 : ℝ) ^ (-(1 / 2) : ℝ), (1 / 4 : ℝ) ^ (-(1 / 2) : ℝ), 1, 0, 0, Real.arccos (3 / 5), 0⟩ := by
    simp only [getMVCE2D, e2]
    norm_num
  have hsub := (h svd hs ![2, 1] ![2, 1] ha ha (Real.arccos (4 / 5)) (Real.arccos (4 / 5)) 0).1
  have hin : (![8 / 5, 6 / 5] : Fin 2 → ℝ) ∈ (ellipse2 ![2, 1] (Real.arccos (4 / 5))).solid := by
    rw [mem_ellipse rfl rfl rfl, ellMat_form]
    simp only [ellipse2]
    rw [rot2_345]
    norm_num [Fin.sum_univ_two, mulVec, dotProduct]
  have hout := hsub hin
  rw [hE, mem_ellipse rfl rfl rfl, ellMat_form] at hout
  dsimp only at hout
  rw [rot2_345', Fin.sum_univ_two] at hout
  have q := (rpow_neg_half (show (0 : ℝ) < 1 / 4 by norm_num)).2
  simp only [cons_val_zero, cons_val_one, q] at hout
  norm_num [mulVec, dotProduct, Fin.sum_univ_two] at hout

/-! ## 3D -/

/-- What is known about the result of `getMVCE3D` for decompositions by rotations (determinant 1). -/
theorem mvce3D_spec {svd : SvdFun 3} (hs : SvdOk svd) (hdet : ∀ M, SymPos M → (svd M).u.det = 1)
    {a b : Fin 3 → ℝ} (ha : ∀ i, 0 < a i) (hb : ∀ i, 0 < b i) {qA qB : Quat} (hA1 : qA.Unit) (hB1 : qB.Unit)
    (num : ℕ) :
    0 < (getMVCE3D svd a b qA qB num).a ∧ 0 < (getMVCE3D svd a b qA qB num).b ∧
    0 < (getMVCE3D svd a b qA qB num).c ∧ (getMVCE3D svd a b qA qB num).quat.Unit ∧
    (ellipsoid3 a qA).solid ⊆ (getMVCE3D svd a b qA qB num).solid ∧
    (ellipsoid3 b qB).solid ⊆ (getMVCE3D svd a b qA qB num).solid := by
  have hr : 0 < min (b 0) (min (b 1) (b 2)) := lt_min (hb 0) (lt_min (hb 1) (hb 2))
  obtain ⟨C, hC, e, hA, hB, -⟩ := mvceSvd_spec hs ha hb (quatRot_orth hA1) (quatRot_orth hB1) hr
  obtain ⟨ou, hCd, hsp⟩ := isSvd_symPos hC (hs C hC)
  obtain ⟨hq1, hq2⟩ := rot3_matQuat ou (hdet C hC)
  generalize hE : getMVCE3D svd a b qA qB num = E
  have hEa : E.a = (svd C).s 0 ^ (-(1 / 2) : ℝ) := by rw [← hE]; simp only [getMVCE3D, e]
  have hEb : E.b = (svd C).s 1 ^ (-(1 / 2) : ℝ) := by rw [← hE]; simp only [getMVCE3D, e]
  have hEc : E.c = (svd C).s 2 ^ (-(1 / 2) : ℝ) := by rw [← hE]; simp only [getMVCE3D, e]
  have hEq : E.quat = matQuat (svd C).u := by rw [← hE]; simp only [getMVCE3D, e]
  have hE1 : E.e1 = 1 := by rw [← hE]; rfl
  have hE2 : E.e2 = 1 := by rw [← hE]; rfl
  have hEp : E.pos = 0 := by rw [← hE]; rfl
  have hd : (fun i => (![E.a, E.b, E.c] i ^ 2)⁻¹) = (svd C).s := by
    funext i
    fin_cases i
    · simpa [hEa] using (rpow_neg_half (hsp 0)).2
    · simpa [hEb] using (rpow_neg_half (hsp 1)).2
    · simpa [hEc] using (rpow_neg_half (hsp 2)).2
  have hEu : E.quat.Unit := by rw [hEq]; exact hq1
  have hmem : ∀ x, x ∈ E.solid ↔ x ⬝ᵥ C *ᵥ x ≤ 1 := by
    intro x
    rw [mem_ellipsoid hE1 hE2 hEp (quatRot_orth hEu), hd, hEq, hq2, ← hCd]
  have hab : ∀ c : Fin 3 → ℝ, (fun i => (![c 0, c 1, c 2] i ^ 2)⁻¹) = fun i => (c i ^ 2)⁻¹ := by
    intro c
    funext i
    fin_cases i <;> rfl
  refine ⟨by rw [hEa]; exact (rpow_neg_half (hsp 0)).1, by rw [hEb]; exact (rpow_neg_half (hsp 1)).1,
    by rw [hEc]; exact (rpow_neg_half (hsp 2)).1, hEu, ?_, ?_⟩
  · intro x hx
    rw [mem_ellipsoid rfl rfl rfl (quatRot_orth hA1)] at hx
    rw [hmem]
    refine (hA x).trans ?_
    rw [← hab a]
    exact hx
  · intro x hx
    rw [mem_ellipsoid rfl rfl rfl (quatRot_orth hB1)] at hx
    rw [hmem]
    refine (hB x).trans ?_
    rw [← hab b]
    exact hx

/-- **C45, claim (3D)**: with every singular value decomposition satisfying the contract, the covering ellipsoid
contains both given ellipsoids. -/
def C45_claim_3D : Prop := ∀ svd : SvdFun 3, SvdOk svd → ∀ a b : Fin 3 → ℝ, (∀ i, 0 < a i) → (∀ i, 0 < b i) →
  ∀ (qA qB : Quat) (num : ℕ), qA.Unit → qB.Unit →
    (ellipsoid3 a qA).solid ⊆ (getMVCE3D svd a b qA qB num).solid ∧
    (ellipsoid3 b qB).solid ⊆ (getMVCE3D svd a b qA qB num).solid

/-- **C45 (3D, covering, partial).** The covering ellipsoid contains both given ellipsoids if the decomposition is
returned with `det U = 1`. Missing: `det U = -1`, where the conversion of `U` to a quaternion is meaningless. -/
theorem C45_mvce3D_partial (svd : SvdFun 3) (hs : SvdOk svd) (hdet : ∀ M, SymPos M → (svd M).u.det = 1)
    (a b : Fin 3 → ℝ) (ha : ∀ i, 0 < a i) (hb : ∀ i, 0 < b i) (qA qB : Quat) (hA : qA.Unit) (hB : qB.Unit)
    (num : ℕ) :
    (ellipsoid3 a qA).solid ⊆ (getMVCE3D svd a b qA qB num).solid ∧
    (ellipsoid3 b qB).solid ⊆ (getMVCE3D svd a b qA qB num).solid :=
  (mvce3D_spec hs hdet ha hb hA hB num).2.2.2.2

theorem quat_unit_iff (q : Quat) : q.Unit ↔ Quat.dot q q = 1 := by
  unfold Quat.Unit Quat.dot
  constructor <;> intro h <;> linarith [h]

theorem slerp_unit {p q : Quat} (hp : p.Unit) (hq : q.Unit)
    (hfar : |Quat.dot p q| < 1 - 1 / 2 ^ 52 ∨ |Quat.dot p q| = 1) (t : ℝ) : (slerp p t q).Unit := by
  rw [quat_unit_iff] at *
  rcases hfar with h | h
  · rw [slerp_dot hp hq h]
    simp
  · have h1 : slerpOne ≤ |Quat.dot p q| := by rw [h]; exact slerpOne_lt.le
    rw [slerp_near h1, Quat.dot_comb, hp, hq]
    have e1 := slerpSign_mul p q
    rw [h] at e1
    linear_combination 2 * t * (1 - t) * e1 + t * t * slerpSign_sq p q

/-- **C45 (3D, tightly fitted, partial).** Under the same condition the tightly-fitted ellipsoid contains the robot
at both orientations and at all the orientations interpolated between them. (Orientations that differ by less
than about `2e-8` but are not equal are excluded: for them the interpolated quaternions are not exactly unit.) -/
theorem C45_tfe3D_partial (svd : SvdFun 3) (hs : SvdOk svd) (hdet : ∀ M, SymPos M → (svd M).u.det = 1)
    (a : Fin 3 → ℝ) (ha : ∀ i, 0 < a i) (qA qB : Quat) (hA : qA.Unit) (hB : qB.Unit)
    (hfar : |Quat.dot qA qB| < 1 - 1 / 2 ^ 52 ∨ |Quat.dot qA qB| = 1) (numStep num : ℕ) :
    ∃ E, getTFE3D svd a qA qB numStep num = .ok E ∧
      (ellipsoid3 a qA).solid ⊆ E.solid ∧ (ellipsoid3 a qB).solid ⊆ E.solid ∧
      ∀ i, 1 ≤ i → i < numStep → (ellipsoid3 a (slerp qA (i / numStep) qB)).solid ⊆ E.solid := by
  have key : ∀ n, n + 1 ≤ numStep → ∃ E : SuperQuadrics,
      (List.range' 1 n).foldlM (fun (E : SuperQuadrics) i =>
        (Res.at' (interpolateSlerp qA qB numStep) i).bind fun q =>
        match q with
        | some q => .ok (getMVCE3D svd a ![E.a, E.b, E.c] q E.quat num)
        | none => .ub) (getMVCE3D svd a a qA qB num) = (.ok E : Res SuperQuadrics) ∧
      0 < E.a ∧ 0 < E.b ∧ 0 < E.c ∧ E.quat.Unit ∧ E.e1 = 1 ∧ E.e2 = 1 ∧ E.pos = 0 ∧
        (ellipsoid3 a qA).solid ⊆ E.solid ∧ (ellipsoid3 a qB).solid ⊆ E.solid ∧
        ∀ i, 1 ≤ i → i < n + 1 → (ellipsoid3 a (slerp qA (i / numStep) qB)).solid ⊆ E.solid := by
    intro n
    induction n with
    | zero =>
      intro _
      obtain ⟨h1, h2, h3, h4, h5, h6⟩ := mvce3D_spec hs hdet ha ha hA hB num
      exact ⟨_, rfl, h1, h2, h3, h4, rfl, rfl, rfl, h5, h6, by omega⟩
    | succ n ih =>
      intro hn
      obtain ⟨F, eF, f1, f2, f3, f4, fe1, fe2, fp, fA, fB, fi⟩ := ih (by omega)
      rw [List.range'_concat, List.foldlM_append, eF]
      have hat : Res.at' (interpolateSlerp qA qB numStep) (1 + n) = .ok (some (slerp qA ((1 + n : ℕ) / numStep) qB)) := by
        rw [interpolateSlerp, at'_map_range _ (by omega), stepFrac, if_neg (by omega), mul_one_div]
        rfl
      have hF : ∀ i, 0 < (![F.a, F.b, F.c] : Fin 3 → ℝ) i := by
        intro i
        fin_cases i
        · exact f1
        · exact f2
        · exact f3
      obtain ⟨h1, h2, h3, h4, h5, h6⟩ := mvce3D_spec hs hdet ha hF
        (slerp_unit hA hB hfar ((1 + n : ℕ) / numStep)) f4 num
      have hFsub : F.solid ⊆ (getMVCE3D svd a ![F.a, F.b, F.c] (slerp qA ((1 + n : ℕ) / numStep) qB) F.quat num).solid := by
        intro x hx
        apply h6
        rw [mem_ellipsoid fe1 fe2 fp (quatRot_orth f4)] at hx
        exact (mem_ellipsoid (Q := ellipsoid3 ![F.a, F.b, F.c] F.quat) rfl rfl rfl (quatRot_orth f4) x).2 hx
      refine ⟨_, ?_, h1, h2, h3, h4, rfl, rfl, rfl, fA.trans hFsub, fB.trans hFsub, ?_⟩
      · simp only [Res.bind_ok, one_mul, List.foldlM_cons, List.foldlM_nil, hat, Res.bind_ok', Res.pure_eq]
      · intro i hi1 hi2
        rcases (show i < n + 1 ∨ i = 1 + n by omega) with h | rfl
        · exact (fi i hi1 h).trans hFsub
        · exact h5
  rcases Nat.eq_zero_or_pos numStep with rfl | hpos
  · obtain ⟨h1, h2, h3, h4, h5, h6⟩ := mvce3D_spec hs hdet ha ha hA hB num
    exact ⟨_, rfl, h5, h6, by omega⟩
  · obtain ⟨E, e, -, -, -, -, -, -, -, h1, h2, h3⟩ := key (numStep - 1) (by omega)
    exact ⟨E, e, h1, h2, fun i hi1 hi2 => h3 i hi1 (by omega)⟩

set_option maxHeartbeats 1000000 in
/-- **C45 is refuted in 3D**: both ellipsoids are the axis-aligned one with semi-axes 3, 2, 1. The singular vectors,
sorted, are the third, second and first coordinate vector: a reflection, whose "quaternion" is a multiple of the
identity quaternion. The result has the semi-axes 1, 2, 3 in this order. -/
theorem C45_refuted_3D : ¬ C45_claim_3D := by
  intro h
  have hone : Quat.Unit (1, 0, 0, 0) := by norm_num [Quat.Unit]
  have hq1 : quatRot (1, 0, 0, 0) = 1 := by
    ext i j
    fin_cases i <;> fin_cases j <;> norm_num [quatRot]
  have hUt : (!![0, 0, 1; 0, 1, 0; 1, 0, 0] : Matrix (Fin 3) (Fin 3) ℝ)ᵀ = !![0, 0, 1; 0, 1, 0; 1, 0, 0] := by
    ext i j
    fin_cases i <;> fin_cases j <;> rfl
  have hUU : (!![0, 0, 1; 0, 1, 0; 1, 0, 0] : Matrix (Fin 3) (Fin 3) ℝ) * !![0, 0, 1; 0, 1, 0; 1, 0, 0] = 1 := by
    ext i j
    fin_cases i <;> fin_cases j <;> simp [Matrix.mul_apply, Fin.sum_univ_three]
  have hU : Orth (!![0, 0, 1; 0, 1, 0; 1, 0, 0] : Matrix (Fin 3) (Fin 3) ℝ) := by
    constructor <;> rw [hUt] <;> exact hUU
  have ha : ∀ i, 0 < (![3, 2, 1] : Fin 3 → ℝ) i := by intro i; fin_cases i <;> norm_num
  have hC : ellMat (!![0, 0, 1; 0, 1, 0; 1, 0, 0] : Matrix (Fin 3) (Fin 3) ℝ) ![1, 1 / 4, 1 / 9] =
      ellMat (quatRot (1, 0, 0, 0)) (fun i => ((![3, 2, 1] : Fin 3 → ℝ) i ^ 2)⁻¹) := by
    have hent : ∀ (R : Matrix (Fin 3) (Fin 3) ℝ) (d : Fin 3 → ℝ) (i j : Fin 3),
        ellMat R d i j = R i 0 * d 0 * R j 0 + R i 1 * d 1 * R j 1 + R i 2 * d 2 * R j 2 := by
      intro R d i j
      rw [ellMat, Matrix.mul_apply, Fin.sum_univ_three]
      simp only [mul_diagonal, transpose_apply]
    rw [hq1]
    ext i j
    rw [hent, hent]
    fin_cases i <;> fin_cases j <;> simp [Matrix.one_apply] <;> norm_num
  obtain ⟨svd0, hs0⟩ := exists_svd 3
  have hsvd := isSvd_ellMat hU (s := ![1, 1 / 4, 1 / 9]) (by intro i; fin_cases i <;> norm_num)
    (by intro i j hij; fin_cases i <;> fin_cases j <;> first | (exfalso; revert hij; decide) | norm_num)
  rw [hC] at hsvd
  obtain ⟨svd, hs, e⟩ := svdOk_override hs0 hsvd
  obtain ⟨C, -, e2, -, -, e3, -⟩ := mvceSvd_spec hs ha ha (quatRot_orth hone) (quatRot_orth hone)
    (show (0 : ℝ) < min ((![3, 2, 1] : Fin 3 → ℝ) 0) (min ((![3, 2, 1] : Fin 3 → ℝ) 1) ((![3, 2, 1] : Fin 3 → ℝ) 2)) by
      simp)
  rw [e3 rfl rfl (by intro i; fin_cases i <;> simp <;> norm_num), e] at e2
  have hq : ∀ w : ℝ, quatRot (w, 0, 0, 0) = 1 := by
    intro w
    ext i j
    fin_cases i <;> fin_cases j <;> norm_num [quatRot]
  have hmq : ∃ w, matQuat (!![0, 0, 1; 0, 1, 0; 1, 0, 0] : Matrix (Fin 3) (Fin 3) ℝ) = (w, 0, 0, 0) := by
    refine ⟨1 / 2 * Real.sqrt 2, ?_⟩
    simp [matQuat]
    norm_num
  obtain ⟨w, hw⟩ := hmq
  have hE : getMVCE3D svd ![3, 2, 1] ![3, 2, 1] (1, 0, 0, 0) (1, 0, 0, 0) 0 =
      ⟨(1 : ℝ) ^ (-(1 / 2) : ℝ), (1 / 4 : ℝ) ^ (-(1 / 2) : ℝ), (1 / 9 : ℝ) ^ (-(1 / 2) : ℝ), 1, 1, 0, (w, 0, 0, 0), 0⟩ := by
    simp only [getMVCE3D, e2, hw]
    simp
  have hsub := (h svd hs ![3, 2, 1] ![3, 2, 1] ha ha (1, 0, 0, 0) (1, 0, 0, 0) 0 hone hone).1
  have hin : (![3, 0, 0] : Fin 3 → ℝ) ∈ (ellipsoid3 ![3, 2, 1] (1, 0, 0, 0)).solid := by
    rw [mem_ellipsoid rfl rfl rfl (quatRot_orth hone), ellMat_form]
    simp only [ellipsoid3]
    rw [hq1, Fin.sum_univ_three]
    simp
  have hout := hsub hin
  have ho : Orth (quatRot (w, 0, 0, 0)) := by rw [hq]; exact ⟨by simp, by simp⟩
  rw [hE, mem_ellipsoid rfl rfl rfl ho, ellMat_form] at hout
  dsimp only at hout
  rw [hq, Fin.sum_univ_three] at hout
  simp at hout

/-! ## Witnesses -/

/-- Changing signs of columns gives another decomposition. -/
theorem isSvd_flip {n : ℕ} {M : Matrix (Fin n) (Fin n) ℝ} {r : SvdRes n} (h : IsSvd M r) (f : Fin n → ℝ)
    (hf : ∀ i, f i * f i = 1) : IsSvd M ⟨r.u * diagonal f, r.s⟩ := by
  have hff : diagonal f * diagonal f = 1 := by
    rw [diagonal_mul_diagonal, ← diagonal_one]
    congr 1
    funext i
    exact hf i
  obtain ⟨h1, h2, h3, h4, V, v1, v2, e⟩ := h
  have oL : ∀ W : Matrix (Fin n) (Fin n) ℝ, Wᵀ * W = 1 → (W * diagonal f)ᵀ * (W * diagonal f) = 1 := by
    intro W hW
    rw [transpose_mul, diagonal_transpose]
    calc diagonal f * Wᵀ * (W * diagonal f) = diagonal f * (Wᵀ * W) * diagonal f := by simp only [Matrix.mul_assoc]
      _ = 1 := by rw [hW, Matrix.mul_one, hff]
  have oR : ∀ W : Matrix (Fin n) (Fin n) ℝ, W * Wᵀ = 1 → (W * diagonal f) * (W * diagonal f)ᵀ = 1 := by
    intro W hW
    rw [transpose_mul, diagonal_transpose]
    calc W * diagonal f * (diagonal f * Wᵀ) = W * (diagonal f * diagonal f) * Wᵀ := by simp only [Matrix.mul_assoc]
      _ = 1 := by rw [hff, Matrix.mul_one, hW]
  refine ⟨oL _ h1, oR _ h2, h3, h4, V * diagonal f, oL _ v1, oR _ v2, ?_⟩
  dsimp only
  rw [transpose_mul, diagonal_transpose]
  have hc : diagonal f * diagonal r.s * diagonal f = diagonal r.s := by
    rw [diagonal_mul_diagonal, diagonal_mul_diagonal]
    congr 1
    funext i
    linear_combination r.s i * hf i
  calc M = r.u * diagonal r.s * Vᵀ := e
    _ = r.u * (diagonal f * diagonal r.s * diagonal f) * Vᵀ := by rw [hc]
    _ = _ := by simp only [Matrix.mul_assoc]

/-- There are decompositions as the partial theorem in 2D requires. -/
theorem exists_svd_signed : ∃ svd : SvdFun 2, SvdOk svd ∧ ∀ M, SymPos M → 0 ≤ (svd M).u 1 0 := by
  obtain ⟨svd, hs⟩ := exists_svd 2
  classical
  refine ⟨fun M => ⟨(svd M).u * diagonal (fun _ => if 0 ≤ (svd M).u 1 0 then 1 else -1), (svd M).s⟩, ?_, ?_⟩
  · intro M hM
    exact isSvd_flip (hs M hM) _ fun i => by split <;> norm_num
  · intro M _
    simp only [mul_diagonal]
    split
    · rename_i h; simpa using h
    · rename_i h; push Not at h; linarith

/-- There are decompositions as the partial theorem in 3D requires. -/
theorem exists_svd_proper : ∃ svd : SvdFun 3, SvdOk svd ∧ ∀ M, SymPos M → (svd M).u.det = 1 := by
  obtain ⟨svd, hs⟩ := exists_svd 3
  refine ⟨fun M => ⟨(svd M).u * diagonal (fun _ => (svd M).u.det), (svd M).s⟩, ?_, ?_⟩
  · intro M hM
    refine isSvd_flip (hs M hM) _ fun i => ?_
    have := congrArg det (hs M hM).1
    rwa [det_mul, det_transpose, det_one] at this
  · intro M hM
    have := congrArg det (hs M hM).1
    rw [det_mul, det_transpose, det_one] at this
    simp only [det_mul, det_diagonal, Finset.prod_const, Finset.card_univ, Fintype.card_fin]
    have h2 : (svd M).u.det ^ 2 = 1 := by rw [pow_two]; exact this
    calc (svd M).u.det * (svd M).u.det ^ 3 = ((svd M).u.det ^ 2) ^ 2 := by ring
      _ = 1 := by rw [h2]; norm_num

end Hrm
