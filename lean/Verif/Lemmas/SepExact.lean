import Verif.Lemmas.SepGap
import Mathlib.Analysis.LocallyConvex.Separation
import Mathlib.Analysis.Convex.Function
import Mathlib.Topology.Algebra.Module.FiniteDimension

/-! # Disjoint bodies have a gap; the exact separation criterion -/

namespace Hrm

open Matrix Polynomial

section
variable {n : ℕ} {RA RB : Matrix (Fin n) (Fin n) ℝ} {cA cB dA dB : Fin n → ℝ}

theorem ellSet_image (R : Matrix (Fin n) (Fin n) ℝ) (c d : Fin n → ℝ) :
    ellSet R c d = (fun p => R *ᵥ p + c) '' {p : Fin n → ℝ | ∑ i, (p i / d i) ^ 2 ≤ 1} := by
  ext x
  constructor
  · rintro ⟨p, hp, rfl⟩
    exact ⟨p, hp, rfl⟩
  · rintro ⟨p, hp, rfl⟩
    exact ⟨p, hp, rfl⟩

theorem ellSet_compact (R : Matrix (Fin n) (Fin n) ℝ) (c : Fin n → ℝ) {d : Fin n → ℝ} (hd : ∀ i, 0 < d i) :
    IsCompact (ellSet R c d) := by
  rw [ellSet_image]
  refine IsCompact.image ?_ ?_
  · refine IsCompact.of_isClosed_subset (isCompact_Icc (a := -d) (b := d)) ?_ ?_
    · exact isClosed_le (by fun_prop) continuous_const
    · intro p hp
      have hp : ∑ i, (p i / d i) ^ 2 ≤ 1 := hp
      have : ∀ i, |p i| ≤ d i := by
        intro i
        have h1 := Finset.single_le_sum (f := fun i => (p i / d i) ^ 2) (fun _ _ => sq_nonneg _) (Finset.mem_univ i)
        have h2 : (p i / d i) ^ 2 ≤ 1 := h1.trans hp
        rw [sq_le_one_iff_abs_le_one, abs_div, abs_of_pos (hd i), div_le_one (hd i)] at h2
        exact h2
      exact ⟨fun i => (abs_le.1 (this i)).1, fun i => (abs_le.1 (this i)).2⟩
  · exact (Continuous.matrix_mulVec continuous_const continuous_id).add continuous_const

theorem ellSet_convex (R : Matrix (Fin n) (Fin n) ℝ) (c d : Fin n → ℝ) : Convex ℝ (ellSet R c d) := by
  rintro _ ⟨p, hp, rfl⟩ _ ⟨q, hq, rfl⟩ a b ha hb hab
  refine ⟨a • p + b • q, ?_, ?_⟩
  · have h1 : ∀ i, ((a • p + b • q) i / d i) ^ 2 ≤ a * (p i / d i) ^ 2 + b * (q i / d i) ^ 2 := by
      intro i
      have e : (a • p + b • q) i / d i = a * (p i / d i) + b * (q i / d i) := by
        simp only [Pi.add_apply, Pi.smul_apply, smul_eq_mul]; ring
      rw [e]
      obtain rfl : b = 1 - a := by linarith
      nlinarith [mul_nonneg (mul_nonneg ha hb) (sq_nonneg (p i / d i - q i / d i))]
    calc _ ≤ ∑ i, (a * (p i / d i) ^ 2 + b * (q i / d i) ^ 2) := Finset.sum_le_sum fun i _ => h1 i
      _ = a * ∑ i, (p i / d i) ^ 2 + b * ∑ i, (q i / d i) ^ 2 := by
        rw [Finset.sum_add_distrib, Finset.mul_sum, Finset.mul_sum]
      _ ≤ a * 1 + b * 1 := by gcongr
      _ = 1 := by linarith
  · rw [mulVec_add, mulVec_smul, mulVec_smul, smul_add, smul_add]
    have : c = a • c + b • c := by rw [← add_smul, hab, one_smul]
    nth_rw 3 [this]
    abel

/-- Disjoint ellipsoids have a gap. -/
theorem gap_of_disjoint (hdA : ∀ i, 0 < dA i) (hdB : ∀ i, 0 < dB i)
    (h : Disjoint (ellSet RA cA dA) (ellSet RB cB dB)) :
    ∃ g > 0, GapAtLeast (ellSet RA cA dA) (ellSet RB cB dB) g := by
  obtain ⟨f, s, t, h1, hst, h2⟩ := geometric_hahn_banach_compact_closed (ellSet_convex RA cA dA)
    (ellSet_compact RA cA hdA) (ellSet_convex RB cB dB) (ellSet_compact RB cB hdB).isClosed h
  set w : Fin n → ℝ := fun i => f (Pi.single i 1) with hw
  have hf : ∀ x : Fin n → ℝ, f x = w ⬝ᵥ x := by
    intro x
    have hx : x = ∑ i, x i • (Pi.single i 1 : Fin n → ℝ) := by
      funext j
      simp [Finset.sum_apply, Pi.single_apply]
    conv_lhs => rw [hx]
    rw [map_sum]
    simp only [map_smul, smul_eq_mul, dotProduct, hw]
    exact Finset.sum_congr rfl fun i _ => mul_comm _ _
  have hmemA : cA ∈ ellSet RA cA dA := ⟨0, by simp, by simp⟩
  have hmemB : cB ∈ ellSet RB cB dB := ⟨0, by simp, by simp⟩
  have hw0 : 0 < w ⬝ᵥ w := by
    rcases (dot_self_nonneg' w).lt_or_eq with h | h
    · exact h
    · exfalso
      have hw' : w = 0 := vnorm_eq_zero (by unfold vnorm; rw [← h, Real.sqrt_zero])
      have a1 := h1 _ hmemA
      have a2 := h2 _ hmemB
      rw [hf, hw', zero_dotProduct] at a1 a2
      linarith
  have hn : 0 < vnorm w := Real.sqrt_pos.2 hw0
  have hn2 := vnorm_sq w
  refine ⟨(t - s) / vnorm w, div_pos (by linarith) hn, (vnorm w)⁻¹ • w, s / vnorm w, ?_, ?_, ?_⟩
  · rw [smul_dotProduct, dotProduct_smul, ← hn2, smul_eq_mul, smul_eq_mul]
    field_simp
  · intro x hx
    rw [smul_dotProduct, smul_eq_mul, ← hf, div_eq_inv_mul]
    exact mul_le_mul_of_nonneg_left (h1 x hx).le (inv_nonneg.2 hn.le)
  · intro x hx
    rw [smul_dotProduct, smul_eq_mul, ← hf, ← add_div, add_sub_cancel, div_eq_inv_mul]
    exact mul_le_mul_of_nonneg_left (h2 x hx).le (inv_nonneg.2 hn.le)

/-- With a gap, `m A + B` is positive definite for some positive `m`. -/
theorem posDef_of_gap (hA : Orth RA) (hB : Orth RB) (hdA : ∀ i, 0 < dA i) (hdB : ∀ i, 0 < dB i) {g : ℝ} (hg : 0 < g)
    (hgap : GapAtLeast (ellSet RA cA dA) (ellSet RB cB dB) g) :
    ∃ m : ℝ, 0 < m ∧ (m • diagonal (quadDiag dA) + relQuad RA cA RB cB dB).PosDef := by
  obtain ⟨u, h, hu, h1, h2⟩ := hgap
  have hD := gap_support hA hB hdA hdB hu h1 h2
  have ha := supp2_pos hA hdA hu
  have hb := supp2_pos hB hdB hu
  have hpd := fun m hm hq => posDef_of_quad (cA := cA) (cB := cB) hA hB hdA hdB hu (m := m) hm hq
  set a2 := supp2 RA dA u
  set b2 := supp2 RB dB u
  set a := Real.sqrt a2
  set b := Real.sqrt b2
  have ha0 : 0 < a := Real.sqrt_pos.2 ha
  have hb0 : 0 < b := Real.sqrt_pos.2 hb
  have haa : a ^ 2 = a2 := Real.sq_sqrt ha.le
  have hbb : b ^ 2 = b2 := Real.sq_sqrt hb.le
  refine ⟨a / b, div_pos ha0 hb0, hpd _ (div_pos ha0 hb0) ?_⟩
  have e : b2 * (a / b) ^ 2 + (a2 + b2 - (u ⬝ᵥ (cB - cA)) ^ 2) * (a / b) + a2 =
      (a / b) * ((a + b) ^ 2 - (u ⬝ᵥ (cB - cA)) ^ 2) := by
    rw [← haa, ← hbb]; field_simp; ring
  rw [e]
  refine mul_neg_of_pos_of_neg (div_pos ha0 hb0) ?_
  nlinarith

/-- The exact criterion. -/
theorem disjoint_iff_roots (hA : Orth RA) (hB : Orth RB) (hdA : ∀ i, 0 < dA i) (hdB : ∀ i, 0 < dB i) :
    Disjoint (ellSet RA cA dA) (ellSet RB cB dB) ↔
      ∃ r s : ℝ, r < 0 ∧ s < 0 ∧ r ≠ s ∧ (ellPencil RA cA dA RB cB dB).eval r = 0 ∧
        (ellPencil RA cA dA RB cB dB).eval s = 0 := by
  have QA := quadric_diag hdA
  have QB := quadric_rel (cA := cA) (cB := cB) hA hB hdB
  constructor
  · intro h
    obtain ⟨g, hg, hgap⟩ := gap_of_disjoint hdA hdB h
    obtain ⟨m, hm, hP⟩ := posDef_of_gap hA hB hdA hdB hg hgap
    obtain ⟨c, r, i, j, hc, hij, ri, rj, rj0, ro, hp⟩ := separated_roots QA QB hm hP
    refine ⟨r i, r j, by linarith, rj0, by linarith, ?_, ?_⟩
    · unfold ellPencil
      rw [hp, eval_mul, eval_prod]
      rw [Finset.prod_eq_zero (Finset.mem_univ i)] <;> simp
    · unfold ellPencil
      rw [hp, eval_mul, eval_prod]
      rw [Finset.prod_eq_zero (Finset.mem_univ j)] <;> simp
  · rintro ⟨r, s, hr, hs, hrs, er, es⟩
    rw [Set.disjoint_left]
    intro x h1 h2
    obtain ⟨y, rfl⟩ : ∃ y, x = RA *ᵥ y + cA := by
      obtain ⟨p, _, e⟩ := h1
      exact ⟨p, e⟩
    rw [mem_ellSet_qfA hA] at h1
    rw [mem_ellSet_qfB hB] at h2
    have hy0 : (Fin.snoc y 1 : Fin (n + 1) → ℝ) ≠ 0 := by
      intro h
      have := congrFun h (Fin.last n)
      simp at this
    unfold ellPencil at er es
    rw [pencil_eval] at er es
    exact hrs (no_two_negative_roots QA QB (quadDiag_det hdA) hy0 h1 (by rw [qf_relQuad hB]; linarith) hr hs er es)

/-- For disjoint bodies the answer is governed by the distance of the two negative roots alone. -/
theorem sep_disjoint (hA : Orth RA) (hB : Orth RB) (hdA : ∀ i, 0 < dA i) (hdB : ∀ i, 0 < dB i)
    (h : Disjoint (ellSet RA cA dA) (ellSet RB cB dB)) {k : ℕ} {l : List ℂ}
    (hl : (l : Multiset ℂ) = ((ellPencil RA cA dA RB cB dB).map (algebraMap ℝ ℂ)).roots) :
    ∃ r s : ℝ, r < s ∧ s < 0 ∧ (∀ x < 0, (ellPencil RA cA dA RB cB dB).eval x = 0 ↔ x = r ∨ x = s) ∧
      (sepDecision (List.replicate k 0 ++ l) = true ↔ 1 / 10 ^ 6 < s - r) := by
  have QA := quadric_diag hdA
  have QB := quadric_rel (cA := cA) (cB := cB) hA hB hdB
  obtain ⟨g, hg, hgap⟩ := gap_of_disjoint hdA hdB h
  obtain ⟨m, hm, hP⟩ := posDef_of_gap hA hB hdA hdB hg hgap
  obtain ⟨c, r, i, j, hc, hij, ri, rj, rj0, ro, hp⟩ := separated_roots QA QB hm hP
  refine ⟨r i, r j, by linarith, rj0, ?_, ?_⟩
  · intro x hx
    unfold ellPencil
    rw [hp, eval_mul, eval_C, eval_prod, mul_eq_zero, Finset.prod_eq_zero_iff]
    constructor
    · rintro (h | ⟨l, _, hl⟩)
      · exact absurd h hc
      · simp only [eval_sub, eval_X, eval_C] at hl
        have hl : x = r l := by linarith
        by_cases h1 : l = i
        · left; rw [hl, h1]
        · by_cases h2 : l = j
          · right; rw [hl, h2]
          · have := ro l h1 h2
            linarith
    · rintro (rfl | rfl)
      · exact Or.inr ⟨i, Finset.mem_univ _, by simp⟩
      · exact Or.inr ⟨j, Finset.mem_univ _, by simp⟩
  · rw [sep_of_real_roots hc hij (by linarith) rj0 (fun l h1 h2 => (ro l h1 h2).le) hp hl, abs_sub_comm,
      abs_of_pos (by linarith)]

end
end Hrm
