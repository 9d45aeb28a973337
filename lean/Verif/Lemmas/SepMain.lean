import Verif.Lemmas.SepRoots

/-! # Overlapping and separated bodies -/

namespace Hrm

open Matrix Polynomial

set_option linter.unusedSectionVars false

section complex
variable {ι : Type} [Fintype ι] [DecidableEq ι] {e : ι} {A B : Matrix ι ι ℝ}

theorem re_mulVec (M : Matrix ι ι ℝ) (w : ι → ℂ) (i : ι) :
    ((M.map (algebraMap ℝ ℂ)) *ᵥ w) i = ⟨(M *ᵥ fun k => (w k).re) i, (M *ᵥ fun k => (w k).im) i⟩ := by
  simp only [mulVec, dotProduct, map_apply, Complex.coe_algebraMap]
  apply Complex.ext
  · simp
  · simp

/-- A complex root gives a pair of real vectors. -/
theorem complex_root (hA : Quadric e A) (hB : Quadric e B) {z : ℂ} (hz : z.re < 0)
    (h : (z • A.map (algebraMap ℝ ℂ) - B.map (algebraMap ℝ ℂ)).det = 0) :
    ∃ u v : ι → ℝ, u e = 1 ∧ v e = 0 ∧ ((-z.re) • A + B) *ᵥ u = (-z.im) • (A *ᵥ v) ∧
      ((-z.re) • A + B) *ᵥ v = z.im • (A *ᵥ u) := by
  obtain ⟨w, hw, h0⟩ := exists_mulVec_eq_zero_iff.2 h
  have hsplit : ∀ w : ι → ℂ, (z • A.map (algebraMap ℝ ℂ) - B.map (algebraMap ℝ ℂ)) *ᵥ w = 0 →
      ((-z.re) • A + B) *ᵥ (fun k => (w k).re) = (-z.im) • (A *ᵥ fun k => (w k).im) ∧
      ((-z.re) • A + B) *ᵥ (fun k => (w k).im) = z.im • (A *ᵥ fun k => (w k).re) := by
    intro w h0
    have h1 : ∀ i, z * ((A.map (algebraMap ℝ ℂ)) *ᵥ w) i - ((B.map (algebraMap ℝ ℂ)) *ᵥ w) i = 0 := by
      intro i
      have := congrFun h0 i
      rwa [sub_mulVec, smul_mulVec] at this
    constructor
    · funext i
      have := congrArg Complex.re (h1 i)
      rw [re_mulVec, re_mulVec] at this
      simp at this
      simp only [add_mulVec, smul_mulVec, Pi.add_apply, Pi.smul_apply, smul_eq_mul]
      linarith
    · funext i
      have := congrArg Complex.im (h1 i)
      rw [re_mulVec, re_mulVec] at this
      simp at this
      simp only [add_mulVec, smul_mulVec, Pi.add_apply, Pi.smul_apply, smul_eq_mul]
      linarith
  have hwe : w e ≠ 0 := by
    intro hwe
    obtain ⟨e1, e2⟩ := hsplit w h0
    set u : ι → ℝ := fun k => (w k).re with hu
    set v : ι → ℝ := fun k => (w k).im with hv
    have q1 : qf ((-z.re) • A + B) u = -z.im * bf A u v := by
      unfold qf; rw [e1, dotProduct_smul]; rfl
    have q2 : qf ((-z.re) • A + B) v = z.im * bf A u v := by
      unfold qf; rw [e2, dotProduct_smul, bf_comm hA.symm]; rfl
    have ue : u e = 0 := by simp [hu, hwe]
    have ve : v e = 0 := by simp [hv, hwe]
    have p1 := comb_inf hA hB (m := -z.re) (by linarith) u ue
    have p2 := comb_inf hA hB (m := -z.re) (by linarith) v ve
    have hu0 : u = 0 ∧ v = 0 := by
      by_cases h1 : u = 0
      · refine ⟨h1, ?_⟩
        by_contra h2
        have := p2 h2
        rw [q2, h1] at this
        simp [bf] at this
      · by_cases h2 : v = 0
        · have := p1 h1
          rw [q1, h2] at this
          simp [bf] at this
        · have := p1 h1
          have := p2 h2
          linarith
    apply hw
    funext k
    exact Complex.ext (congrFun hu0.1 k) (congrFun hu0.2 k)
  have h0' : (z • A.map (algebraMap ℝ ℂ) - B.map (algebraMap ℝ ℂ)) *ᵥ ((w e)⁻¹ • w) = 0 := by
    rw [mulVec_smul, h0, smul_zero]
  obtain ⟨e1, e2⟩ := hsplit _ h0'
  refine ⟨_, _, ?_, ?_, e1, e2⟩
  · simp [hwe]
  · simp [hwe]

/-- The key inequality at a complex root. -/
theorem complex_root_bound (hA : Quadric e A) (hB : Quadric e B) {z : ℂ} (hz : z.re < 0) (hi : z.im ≠ 0)
    (h : (z • A.map (algebraMap ℝ ℂ) - B.map (algebraMap ℝ ℂ)).det = 0) :
    ∃ u v : ι → ℝ, u e = 1 ∧ v e = 0 ∧ qf A u + qf A v = 0 ∧ ∀ y : ι → ℝ, y e = 1 →
      -2 * z.im * bf A y v + z.im * bf A u v ≤ -z.re * qf A y + qf B y := by
  obtain ⟨u, v, ue, ve, e1, e2⟩ := complex_root hA hB hz h
  set P := (-z.re) • A + B with hP
  have hs : Pᵀ = P := comb_symm hA hB _
  have b1 : bf P v u = -z.im * qf A v := by unfold bf; rw [e1, dotProduct_smul]; rfl
  have b2 : bf P u v = z.im * qf A u := by unfold bf; rw [e2, dotProduct_smul]; rfl
  refine ⟨u, v, ue, ve, ?_, ?_⟩
  · rw [bf_comm hs, b1] at b2
    have : z.im * (qf A u + qf A v) = 0 := by linarith
    exact (mul_eq_zero.1 this).resolve_left hi
  · intro y ye
    have hnn : 0 ≤ qf P (y + (-1 : ℝ) • u) := by
      by_cases h0 : y + (-1 : ℝ) • u = 0
      · rw [h0]; simp [qf]
      · exact (comb_inf hA hB (m := -z.re) (by linarith) _ (by simp [ye, ue]) h0).le
    rw [qf_eq, bf_add_left, bf_add_right, bf_add_right, bf_smul_left, bf_smul_right, bf_smul_left, bf_smul_right,
      bf_comm hs u y] at hnn
    have c1 : bf P y u = -z.im * bf A y v := by
      unfold bf; rw [e1, dotProduct_smul]; rfl
    have c2 : bf P u u = -z.im * bf A u v := by
      unfold bf; rw [e1, dotProduct_smul]; rfl
    rw [← qf_comb, ← hP, qf_eq]
    rw [c1, c2] at hnn
    linarith

end complex

section main
variable {n : ℕ} {RA RB : Matrix (Fin n) (Fin n) ℝ} {cA cB dA dB : Fin n → ℝ}

theorem sum_mul_sq_le (f g : Fin n → ℝ) : (∑ i, f i * g i) ^ 2 ≤ (∑ i, f i ^ 2) * ∑ i, g i ^ 2 :=
  Finset.sum_mul_sq_le_sq_mul_sq _ _ _

/-- The pencil of two ellipsoids. -/
noncomputable def ellPencil (RA : Matrix (Fin n) (Fin n) ℝ) (cA dA : Fin n → ℝ) (RB : Matrix (Fin n) (Fin n) ℝ)
    (cB dB : Fin n → ℝ) : ℝ[X] := pencil (diagonal (quadDiag dA)) (relQuad RA cA RB cB dB)

theorem sep_sound (hA : Orth RA) (hB : Orth RB) (hdA : ∀ i, 0 < dA i) (hdB : ∀ i, 0 < dB i) {k : ℕ} {l : List ℂ}
    (hl : (l : Multiset ℂ) = ((ellPencil RA cA dA RB cB dB).map (algebraMap ℝ ℂ)).roots) {x : Fin n → ℝ}
    (h1 : x ∈ ellSet RA cA dA) (h2 : x ∈ ellSet RB cB fun i => (1 - 2 / 10 ^ 6) * dB i) :
    sepDecision (List.replicate k 0 ++ l) = false := by
  rw [Bool.eq_false_iff]
  intro hsep
  obtain ⟨y, rfl⟩ : ∃ y, x = RA *ᵥ y + cA := by
    obtain ⟨p, _, e⟩ := h1
    exact ⟨p, e⟩
  have QA := quadric_diag hdA
  have QB := quadric_rel (cA := cA) (cB := cB) hA hB hdB
  rw [mem_ellSet_qfA hA] at h1
  rw [mem_ellSet_qfB hB] at h2
  have h3 : qf (relQuad RA cA RB cB dB) (Fin.snoc y 1 : Fin (n + 1) → ℝ) ≤ (1 - 2 / 10 ^ 6) ^ 2 - 1 := by
    rw [qf_relQuad hB]
    set q := RBᵀ *ᵥ (RA *ᵥ y + (1 : ℝ) • (cA - cB)) with hq
    have : ∑ i, (q i / ((1 - 2 / 10 ^ 6) * dB i)) ^ 2 = ((1 - 2 / 10 ^ 6) ^ 2)⁻¹ * ∑ i, (q i / dB i) ^ 2 := by
      rw [Finset.mul_sum]
      refine Finset.sum_congr rfl fun i _ => ?_
      have := (hdB i).ne'
      have : (1 - 2 / 10 ^ 6 : ℝ) ≠ 0 := by norm_num
      field_simp
    rw [this, inv_mul_le_iff₀ (by norm_num), mul_one] at h2
    linarith
  have hy : (Fin.snoc y 1 : Fin (n + 1) → ℝ) (Fin.last n) = 1 := by simp
  have hy0 : (Fin.snoc y 1 : Fin (n + 1) → ℝ) ≠ 0 := by
    intro h
    have := congrFun h (Fin.last n)
    simp at this
  rcases sep_true_roots hl hsep with ⟨r, s, hr, hs, hrs, er, es⟩ | ⟨z, hz, hz1, hz2, ez⟩
  · unfold ellPencil at er es
    rw [pencil_eval] at er es
    have := no_two_negative_roots QA QB (quadDiag_det hdA) hy0 h1 (by norm_num at h3 ⊢; linarith) hr hs er es
    rw [this, sub_self, abs_zero] at hrs
    norm_num at hrs
  · unfold ellPencil at ez
    rw [pencil_aeval] at ez
    have hi : z.im ≠ 0 := by
      intro h; rw [h, abs_zero] at hz1; norm_num at hz1
    obtain ⟨u, v, ue, ve, huv, hb⟩ := complex_root_bound QA QB hz hi ez
    have hb := hb _ hy
    obtain ⟨u, t, rfl⟩ := snoc_surj u
    obtain ⟨v, t', rfl⟩ := snoc_surj v
    simp only [Fin.snoc_last] at ue ve
    subst ue ve
    rw [qf_quadDiag, qf_quadDiag] at huv
    rw [bf_quadDiag, bf_quadDiag] at hb
    rw [qf_quadDiag] at h1
    have cy := sum_mul_sq_le (fun i => y i / dA i) (fun i => v i / dA i)
    have cu := sum_mul_sq_le (fun i => u i / dA i) (fun i => v i / dA i)
    rw [qf_quadDiag] at hb
    simp only [mul_zero, sub_zero] at hb
    set Y := ∑ i, (y i / dA i) ^ 2
    set U := ∑ i, (u i / dA i) ^ 2
    set V := ∑ i, (v i / dA i) ^ 2
    set α := ∑ i, y i / dA i * (v i / dA i)
    set β := ∑ i, u i / dA i * (v i / dA i)
    have hU : 0 ≤ U := Finset.sum_nonneg fun _ _ => sq_nonneg _
    have hV : 0 ≤ V := Finset.sum_nonneg fun _ _ => sq_nonneg _
    have hY : 0 ≤ Y := Finset.sum_nonneg fun _ _ => sq_nonneg _
    have hα : |α| ≤ 1 := by
      rw [← sq_le_one_iff_abs_le_one]
      nlinarith
    have hβ : |β| ≤ 1 := by
      rw [← sq_le_one_iff_abs_le_one]
      nlinarith
    have t1 : |z.im * α| ≤ 1 / 10 ^ 6 := by
      rw [abs_mul]
      calc _ ≤ 1 / 10 ^ 6 * 1 := mul_le_mul hz2.le hα (abs_nonneg _) (by norm_num)
        _ = _ := mul_one _
    have t2 : |z.im * β| ≤ 1 / 10 ^ 6 := by
      rw [abs_mul]
      calc _ ≤ 1 / 10 ^ 6 * 1 := mul_le_mul hz2.le hβ (abs_nonneg _) (by norm_num)
        _ = _ := mul_one _
    have t1 := abs_le.1 t1
    have t2 := abs_le.1 t2
    have t3 : -z.re * (Y - 1 ^ 2) ≤ 0 := mul_nonpos_of_nonneg_of_nonpos (by linarith) h1
    norm_num at h3 t1 t2 t3
    linarith

end main
end Hrm
