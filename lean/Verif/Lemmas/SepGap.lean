import Verif.Lemmas.SepMain

/-! # Separated bodies -/

namespace Hrm

open Matrix Polynomial

section
variable {n : ℕ} {RA RB : Matrix (Fin n) (Fin n) ℝ} {cA cB dA dB : Fin n → ℝ}

/-- The squared support value of a centred ellipsoid. -/
noncomputable def supp2 (R : Matrix (Fin n) (Fin n) ℝ) (d u : Fin n → ℝ) : ℝ := ∑ i, (d i * (Rᵀ *ᵥ u) i) ^ 2

theorem supp2_lower {R : Matrix (Fin n) (Fin n) ℝ} (h : Orth R) {d : Fin n → ℝ} {lo : ℝ} (h0 : 0 < lo)
    (hd : ∀ i, lo ≤ d i) {u : Fin n → ℝ} (hu : u ⬝ᵥ u = 1) : lo ^ 2 ≤ supp2 R d u := by
  have h1 : ∑ i, ((Rᵀ *ᵥ u) i) ^ 2 = 1 := by
    have := h.transpose.dot u u
    rw [hu] at this
    rw [← this]
    simp [dotProduct, pow_two]
  calc lo ^ 2 = ∑ i, lo ^ 2 * ((Rᵀ *ᵥ u) i) ^ 2 := by rw [← Finset.mul_sum, h1, mul_one]
    _ ≤ _ := by
      refine Finset.sum_le_sum fun i _ => ?_
      rw [mul_pow]
      have := hd i
      gcongr

theorem supp2_upper {R : Matrix (Fin n) (Fin n) ℝ} (h : Orth R) {d : Fin n → ℝ} {hi : ℝ} (h0 : ∀ i, 0 < d i)
    (hd : ∀ i, d i ≤ hi) {u : Fin n → ℝ} (hu : u ⬝ᵥ u = 1) : supp2 R d u ≤ hi ^ 2 := by
  have h1 : ∑ i, ((Rᵀ *ᵥ u) i) ^ 2 = 1 := by
    have := h.transpose.dot u u
    rw [hu] at this
    rw [← this]
    simp [dotProduct, pow_two]
  calc _ ≤ ∑ i, hi ^ 2 * ((Rᵀ *ᵥ u) i) ^ 2 := by
        refine Finset.sum_le_sum fun i _ => ?_
        rw [mul_pow]
        have := hd i
        have := h0 i
        gcongr
    _ = _ := by rw [← Finset.mul_sum, h1, mul_one]

theorem supp2_pos {R : Matrix (Fin n) (Fin n) ℝ} (h : Orth R) {d : Fin n → ℝ} (hd : ∀ i, 0 < d i) {u : Fin n → ℝ}
    (hu : u ⬝ᵥ u = 1) : 0 < supp2 R d u := by
  have hne : Rᵀ *ᵥ u ≠ 0 := by
    intro h0
    have := h.transpose.dot u u
    rw [h0, hu] at this
    simp at this
  obtain ⟨i, hi⟩ : ∃ i, (Rᵀ *ᵥ u) i ≠ 0 := by
    by_contra hno
    push Not at hno
    exact hne (funext hno)
  have h1 := Finset.single_le_sum (f := fun i => (d i * (Rᵀ *ᵥ u) i) ^ 2) (fun _ _ => sq_nonneg _) (Finset.mem_univ i)
  have h2 : 0 < (d i * (Rᵀ *ᵥ u) i) ^ 2 := by
    have := (hd i).ne'
    positivity
  unfold supp2
  linarith

theorem dot_mulVec_comm (R : Matrix (Fin n) (Fin n) ℝ) (u p : Fin n → ℝ) : u ⬝ᵥ R *ᵥ p = (Rᵀ *ᵥ u) ⬝ᵥ p := by
  rw [dotProduct_mulVec, mulVec_transpose]

/-- Extreme points of an ellipsoid. -/
theorem ell_extreme {R : Matrix (Fin n) (Fin n) ℝ} (h : Orth R) {c d : Fin n → ℝ} (hd : ∀ i, 0 < d i) {u : Fin n → ℝ}
    (hu : u ⬝ᵥ u = 1) {e : ℝ} (he : e ^ 2 = 1) :
    ∃ x ∈ ellSet R c d, u ⬝ᵥ x = u ⬝ᵥ c + e * Real.sqrt (supp2 R d u) := by
  have hs := supp2_pos h hd hu
  set s := Real.sqrt (supp2 R d u) with hs'
  have hspos : 0 < s := Real.sqrt_pos.2 hs
  have hss : s ^ 2 = supp2 R d u := Real.sq_sqrt hs.le
  refine ⟨_, ⟨fun i => e * (d i ^ 2 * (Rᵀ *ᵥ u) i / s), ?_, rfl⟩, ?_⟩
  · have : ∀ i, (e * (d i ^ 2 * (Rᵀ *ᵥ u) i / s) / d i) ^ 2 = (d i * (Rᵀ *ᵥ u) i) ^ 2 * (s ^ 2)⁻¹ := by
      intro i
      have := (hd i).ne'
      have : e * (d i ^ 2 * (Rᵀ *ᵥ u) i / s) / d i = e * (d i * (Rᵀ *ᵥ u) i * s⁻¹) := by field_simp
      rw [this, mul_pow, he, one_mul, mul_pow, inv_pow]
    simp only [this]
    rw [← Finset.sum_mul]
    change supp2 R d u * _ ≤ 1
    rw [hss, mul_inv_cancel₀ hs.ne']
  · rw [dotProduct_add, dot_mulVec_comm, add_comm]
    congr 1
    have : (Rᵀ *ᵥ u) ⬝ᵥ (fun i => e * (d i ^ 2 * (Rᵀ *ᵥ u) i / s)) = e * (s⁻¹ * supp2 R d u) := by
      unfold supp2
      simp only [dotProduct, Finset.mul_sum]
      refine Finset.sum_congr rfl fun i _ => ?_
      field_simp
    rw [this, ← hss]
    field_simp

/-- A gap between the bodies in terms of centres and support values. -/
theorem gap_support (hA : Orth RA) (hB : Orth RB) (hdA : ∀ i, 0 < dA i) (hdB : ∀ i, 0 < dB i) {g : ℝ} {u : Fin n → ℝ}
    {h : ℝ} (hu : u ⬝ᵥ u = 1) (h1 : ∀ x ∈ ellSet RA cA dA, u ⬝ᵥ x ≤ h) (h2 : ∀ x ∈ ellSet RB cB dB, h + g ≤ u ⬝ᵥ x) :
    Real.sqrt (supp2 RA dA u) + Real.sqrt (supp2 RB dB u) + g ≤ u ⬝ᵥ (cB - cA) := by
  obtain ⟨x, hx, ex⟩ := ell_extreme (c := cA) hA hdA hu (e := 1) (by norm_num)
  obtain ⟨y, hy, ey⟩ := ell_extreme (c := cB) hB hdB hu (e := -1) (by norm_num)
  have := h1 x hx
  have := h2 y hy
  rw [dotProduct_sub]
  linarith

theorem posDef_of_quad (hA : Orth RA) (hB : Orth RB) (hdA : ∀ i, 0 < dA i) (hdB : ∀ i, 0 < dB i) {u : Fin n → ℝ}
    (hu : u ⬝ᵥ u = 1) {m : ℝ} (hm : 0 < m)
    (hq : supp2 RB dB u * m ^ 2 + (supp2 RA dA u + supp2 RB dB u - (u ⬝ᵥ (cB - cA)) ^ 2) * m + supp2 RA dA u < 0) :
    (m • diagonal (quadDiag dA) + relQuad RA cA RB cB dB).PosDef := by
  have QA := quadric_diag hdA
  have QB := quadric_rel (cA := cA) (cB := cB) hA hB hdB
  refine PosDef.of_dotProduct_mulVec_pos ?_ ?_
  · rw [IsHermitian, conjTranspose_eq_transpose_of_trivial]
    exact comb_symm QA QB m
  · intro y hy
    rw [star_trivial]
    change 0 < qf _ y
    obtain ⟨z, t, rfl⟩ := snoc_surj y
    by_cases ht : t = 0
    · exact comb_inf QA QB hm _ (by simp [ht]) hy
    rw [qf_comb, qf_quadDiag, qf_relQuad hB]
    set w := RBᵀ *ᵥ (RA *ᵥ z + t • (cA - cB)) with hw
    have ha := supp2_pos hA hdA hu
    have hb := supp2_pos hB hdB hu
    set a := supp2 RA dA u
    set b := supp2 RB dB u
    set D := u ⬝ᵥ (cB - cA) with hD
    set q := (RAᵀ *ᵥ u) ⬝ᵥ z with hqd
    have f1 : q ^ 2 ≤ a * ∑ i, (z i / dA i) ^ 2 := by
      have := sum_mul_sq_le (fun i => dA i * (RAᵀ *ᵥ u) i) (fun i => z i / dA i)
      have e : ∑ i, dA i * (RAᵀ *ᵥ u) i * (z i / dA i) = q := by
        rw [hqd]; unfold dotProduct
        refine Finset.sum_congr rfl fun i _ => ?_
        have := (hdA i).ne'
        field_simp
      rw [e] at this
      exact this
    have f2 : (q - t * D) ^ 2 ≤ b * ∑ i, (w i / dB i) ^ 2 := by
      have := sum_mul_sq_le (fun i => dB i * (RBᵀ *ᵥ u) i) (fun i => w i / dB i)
      have e : ∑ i, dB i * (RBᵀ *ᵥ u) i * (w i / dB i) = q - t * D := by
        have e1 : ∑ i, dB i * (RBᵀ *ᵥ u) i * (w i / dB i) = (RBᵀ *ᵥ u) ⬝ᵥ w := by
          unfold dotProduct
          refine Finset.sum_congr rfl fun i _ => ?_
          have := (hdB i).ne'
          field_simp
        rw [e1, hw, hB.transpose.dot, dotProduct_add, dot_mulVec_comm, dotProduct_smul, hD, ← hqd, dotProduct_sub,
          dotProduct_sub, smul_eq_mul]
        ring
      rw [e] at this
      exact this
    set S := ∑ i, (z i / dA i) ^ 2
    set T := ∑ i, (w i / dB i) ^ 2
    have ht2 : 0 < t ^ 2 := by positivity
    have hk : 0 < m * b + a := by positivity
    -- multiply by a b (m b + a)
    have key : 0 < (m * b + a) * (a * b * (m * (S - t ^ 2) + (T - t ^ 2))) := by
      have g1 : (m * b + a) * (m * b * q ^ 2 + a * (q - t * D) ^ 2 - (m + 1) * a * b * t ^ 2) =
          ((m * b + a) * q - a * t * D) ^ 2 + a * b * t ^ 2 * -(b * m ^ 2 + (a + b - D ^ 2) * m + a) := by ring
      have g2 : 0 < a * b * t ^ 2 * -(b * m ^ 2 + (a + b - D ^ 2) * m + a) := by
        apply mul_pos (by positivity)
        linarith
      have g3 : m * b * q ^ 2 + a * (q - t * D) ^ 2 - (m + 1) * a * b * t ^ 2 ≤
          a * b * (m * (S - t ^ 2) + (T - t ^ 2)) := by
        have k1 := mul_le_mul_of_nonneg_left f1 (by positivity : 0 ≤ m * b)
        have k2 := mul_le_mul_of_nonneg_left f2 ha.le
        nlinarith
      have g4 := mul_le_mul_of_nonneg_left g3 hk.le
      nlinarith [sq_nonneg ((m * b + a) * q - a * t * D)]
    have := (mul_pos_iff_of_pos_left hk).1 key
    exact (mul_pos_iff_of_pos_left (by positivity)).1 this

theorem sep_complete (hA : Orth RA) (hB : Orth RB) {lo hi : ℝ} (hlo : 0 < lo) (hdA : ∀ i, lo ≤ dA i)
    (hdB : ∀ i, 0 < dB i) (hhi : ∀ i, dB i ≤ hi) {g : ℝ} (hg : hi ^ 2 < 8 * 10 ^ 12 * g * lo)
    (hgap : GapAtLeast (ellSet RA cA dA) (ellSet RB cB dB) g) {k : ℕ} {l : List ℂ}
    (hl : (l : Multiset ℂ) = ((ellPencil RA cA dA RB cB dB).map (algebraMap ℝ ℂ)).roots) :
    sepDecision (List.replicate k 0 ++ l) = true := by
  have hdA0 : ∀ i, 0 < dA i := fun i => hlo.trans_le (hdA i)
  obtain ⟨u, h, hu, h1, h2⟩ := hgap
  have hD := gap_support hA hB hdA0 hdB hu h1 h2
  have ha := supp2_pos hA hdA0 hu
  have hb := supp2_pos hB hdB hu
  have hla := supp2_lower hA hlo hdA hu
  have hbh := supp2_upper hB hdB hhi hu
  have hpd := fun m hm hq => posDef_of_quad (cA := cA) (cB := cB) hA hB hdA0 hdB hu (m := m) hm hq
  set a2 := supp2 RA dA u
  set b2 := supp2 RB dB u
  set a := Real.sqrt a2
  set b := Real.sqrt b2
  have ha0 : 0 < a := Real.sqrt_pos.2 ha
  have hb0 : 0 < b := Real.sqrt_pos.2 hb
  have haa : a ^ 2 = a2 := Real.sq_sqrt ha.le
  have hbb : b ^ 2 = b2 := Real.sq_sqrt hb.le
  set D := u ⬝ᵥ (cB - cA)
  have hloa : lo ≤ a := by rw [← haa] at hla; exact (pow_le_pow_iff_left₀ hlo.le ha0.le (by norm_num)).1 hla
  have hg0 : 0 < g := by
    by_contra hno
    push Not at hno
    nlinarith [mul_nonneg hlo.le (neg_nonneg.2 hno), sq_nonneg hi]
  -- the discriminant
  have hdisc : b2 ^ 2 < 10 ^ 12 * ((D ^ 2 - (a + b) ^ 2) * (D ^ 2 - (a - b) ^ 2)) := by
    have d1 : 2 * g * (a + b) ≤ D ^ 2 - (a + b) ^ 2 := by nlinarith
    have d2 : 4 * (a * b) ≤ D ^ 2 - (a - b) ^ 2 := by nlinarith
    have d3 : 2 * g * (a + b) * (4 * (a * b)) ≤ (D ^ 2 - (a + b) ^ 2) * (D ^ 2 - (a - b) ^ 2) :=
      mul_le_mul d1 d2 (by positivity) (le_trans (by positivity) d1)
    have d4 : 8 * g * lo * b2 ≤ 2 * g * (a + b) * (4 * (a * b)) := by
      rw [← hbb]
      have : 8 * g * lo * b ^ 2 ≤ 8 * g * a * b ^ 2 := by gcongr
      have : 8 * g * a * b ^ 2 ≤ 8 * g * a * b ^ 2 + 8 * g * a ^ 2 * b := by
        have : 0 ≤ 8 * g * a ^ 2 * b := by positivity
        linarith
      nlinarith
    have d5 : b2 ^ 2 ≤ hi ^ 2 * b2 := by nlinarith
    have d6 : hi ^ 2 * b2 < 8 * 10 ^ 12 * g * lo * b2 := mul_lt_mul_of_pos_right hg hb
    linarith
  -- the quadratic at the two points around the vertex
  set m0 := (D ^ 2 - a2 - b2) / (2 * b2) with hm0
  have hm0' : 2 * b2 * m0 = D ^ 2 - a2 - b2 := by rw [hm0]; field_simp
  have hquad : ∀ δ : ℝ, δ ^ 2 = 1 / (4 * 10 ^ 12) →
      b2 * (m0 + δ) ^ 2 + (a2 + b2 - D ^ 2) * (m0 + δ) + a2 < 0 := by
    intro δ hδ
    have e1 : 4 * b2 * (b2 * (m0 + δ) ^ 2 + (a2 + b2 - D ^ 2) * (m0 + δ) + a2) =
        4 * b2 ^ 2 * δ ^ 2 - (D ^ 2 - (a + b) ^ 2) * (D ^ 2 - (a - b) ^ 2) := by
      have e2 : (D ^ 2 - (a + b) ^ 2) * (D ^ 2 - (a - b) ^ 2) = (D ^ 2 - a2 - b2) ^ 2 - 4 * a2 * b2 := by
        rw [← haa, ← hbb]; ring
      rw [e2]
      have e3 : a2 + b2 - D ^ 2 = -(2 * b2 * m0) := by linarith
      rw [e3, ← hm0']
      ring
    have e4 : 4 * b2 * (b2 * (m0 + δ) ^ 2 + (a2 + b2 - D ^ 2) * (m0 + δ) + a2) < 0 := by
      rw [e1, hδ]
      have : (4 : ℝ) * b2 ^ 2 * (1 / (4 * 10 ^ 12)) = b2 ^ 2 / 10 ^ 12 := by ring
      rw [this, sub_neg, div_lt_iff₀ (by norm_num)]
      linarith
    by_contra hno
    push Not at hno
    have : 0 ≤ 4 * b2 * (b2 * (m0 + δ) ^ 2 + (a2 + b2 - D ^ 2) * (m0 + δ) + a2) := by positivity
    linarith
  have hDab : a2 + b2 - D ^ 2 < 0 := by
    rw [← haa, ← hbb]; nlinarith
  have hpos : ∀ m : ℝ, b2 * m ^ 2 + (a2 + b2 - D ^ 2) * m + a2 < 0 → 0 < m := by
    intro m hm
    by_contra hno
    push Not at hno
    nlinarith [mul_nonneg_of_nonpos_of_nonpos hDab.le hno, mul_nonneg hb.le (sq_nonneg m)]
  have q1 := hquad (-(1 / (2 * 10 ^ 6))) (by norm_num)
  have q2 := hquad (1 / (2 * 10 ^ 6)) (by norm_num)
  have p1 := hpos _ q1
  have p2 := hpos _ q2
  have QA := quadric_diag hdA0
  have QB := quadric_rel (cA := cA) (cB := cB) hA hB hdB
  obtain ⟨c, r, i, j, hc, hij, ri, rj, rj0, ro, hp⟩ := separated_roots QA QB p1 (hpd _ p1 q1)
  obtain ⟨c', r', i', j', hc', hij', ri', rj', rj0', ro', hp'⟩ := separated_roots QA QB p2 (hpd _ p2 q2)
  have hri : r' i' = r i := by
    have hev : (pencil (diagonal (quadDiag dA)) (relQuad RA cA RB cB dB)).eval (r' i') = 0 := by
      rw [hp', eval_mul, eval_prod]
      rw [Finset.prod_eq_zero (Finset.mem_univ i')] <;> simp
    rw [hp, eval_mul, eval_C, eval_prod, mul_eq_zero] at hev
    have hev := hev.resolve_left hc
    obtain ⟨l, _, hl⟩ := Finset.prod_eq_zero_iff.1 hev
    simp only [eval_sub, eval_X, eval_C] at hl
    have hl : r' i' = r l := by linarith
    by_cases h1 : l = i
    · rw [hl, h1]
    · by_cases h2 : l = j
      · rw [h2] at hl
        norm_num at rj ri'
        linarith
      · have := ro l h1 h2
        linarith
  rw [sep_of_real_roots hc hij (by linarith) rj0 (fun l h1 h2 => (ro l h1 h2).le) hp hl]
  rw [hri] at ri'
  rw [abs_sub_comm, abs_of_pos (by linarith)]
  norm_num at ri' rj ⊢
  linarith

end
end Hrm
