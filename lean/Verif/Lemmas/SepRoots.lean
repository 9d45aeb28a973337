import Verif.Lemmas.SepGeom

/-! # The decision from the list of roots -/

namespace Hrm

open Matrix Polynomial

/-- `decide` predicate of the filter. -/
noncomputable def negReal (r : ℂ) : Bool := by
  classical exact decide (|r.im| < 1 / 10 ^ 6 ∧ r.re < 0)

theorem negReal_iff (r : ℂ) : negReal r = true ↔ |r.im| < 1 / 10 ^ 6 ∧ r.re < 0 := by
  classical
  unfold negReal
  simp

theorem sepDecision_eq (l : List ℂ) :
    sepDecision l = true ↔ ∃ r s, l.filter negReal = [r, s] ∧ 1 / 10 ^ 6 < ‖r - s‖ := by
  classical
  have hf : (l.filter fun r => decide (|r.im| < 1 / 10 ^ 6 ∧ r.re < 0)) = l.filter negReal := by
    refine List.filter_congr fun r _ => ?_
    rw [Bool.eq_iff_iff, negReal_iff]; simp
  unfold sepDecision
  rw [hf]
  split
  · rename_i r s h
    constructor
    · intro h1
      exact ⟨r, s, h, by simpa using h1⟩
    · rintro ⟨r', s', e, h1⟩
      rw [h] at e
      obtain ⟨rfl, rfl⟩ : r = r' ∧ s = s' := by simpa using e
      simpa using h1
  · rename_i hno
    constructor
    · intro h; exact absurd h (by simp)
    · rintro ⟨r, s, e, _⟩
      exact absurd e (hno r s)

theorem filter_zeros (k : ℕ) (l : List ℂ) : (List.replicate k (0 : ℂ) ++ l).filter negReal = l.filter negReal := by
  rw [List.filter_append]
  have : (List.replicate k (0 : ℂ)).filter negReal = [] := by
    rw [List.filter_eq_nil_iff]
    intro a ha
    rw [List.eq_of_mem_replicate ha, negReal_iff]
    simp
  rw [this, List.nil_append]

theorem root_conj {p : ℝ[X]} {z : ℂ} (h : z ∈ (p.map (algebraMap ℝ ℂ)).roots) :
    (starRingEnd ℂ) z ∈ (p.map (algebraMap ℝ ℂ)).roots := by
  have hp : p.map (algebraMap ℝ ℂ) ≠ 0 := ne_zero_of_mem_roots h
  rw [mem_roots hp, IsRoot.def] at h ⊢
  rw [eval_map, ← aeval_def] at h ⊢
  rw [aeval_conj, h, map_zero]

/-- What the answer "separated" says about the roots. -/
theorem sep_true_roots {p : ℝ[X]} {k : ℕ} {l : List ℂ} (hl : (l : Multiset ℂ) = (p.map (algebraMap ℝ ℂ)).roots)
    (h : sepDecision (List.replicate k 0 ++ l) = true) :
    (∃ r s : ℝ, r < 0 ∧ s < 0 ∧ 1 / 10 ^ 6 < |r - s| ∧ p.eval r = 0 ∧ p.eval s = 0) ∨
      ∃ z : ℂ, z.re < 0 ∧ 1 / (2 * 10 ^ 6) < |z.im| ∧ |z.im| < 1 / 10 ^ 6 ∧ (p.map (algebraMap ℝ ℂ)).eval z = 0 := by
  rw [sepDecision_eq, filter_zeros] at h
  obtain ⟨r, s, hf, hrs⟩ := h
  have hmem : ∀ x : ℂ, x ∈ l.filter negReal ↔ x ∈ (p.map (algebraMap ℝ ℂ)).roots ∧ negReal x = true := by
    intro x
    rw [List.mem_filter, ← hl, Multiset.mem_coe]
  have hr := (hmem r).1 (by rw [hf]; simp)
  have hs := (hmem s).1 (by rw [hf]; simp)
  have hroot : ∀ x : ℂ, x ∈ (p.map (algebraMap ℝ ℂ)).roots → (p.map (algebraMap ℝ ℂ)).eval x = 0 := by
    intro x hx
    exact (mem_roots (ne_zero_of_mem_roots hx)).1 hx
  have hconj : ∀ x : ℂ, x ∈ (p.map (algebraMap ℝ ℂ)).roots → negReal x = true → (starRingEnd ℂ) x = r ∨ (starRingEnd ℂ) x = s := by
    intro x hx hn
    have : (starRingEnd ℂ) x ∈ l.filter negReal := (hmem _).2 ⟨root_conj hx, by
      rw [negReal_iff] at hn ⊢
      simpa using hn⟩
    rw [hf] at this
    simpa using this
  have hpair : ∀ x y : ℂ, (starRingEnd ℂ) x = y → ‖x - y‖ = 2 * |x.im| := by
    rintro x y rfl
    rw [Complex.sub_conj]
    simp
  by_cases h1 : r.im = 0
  · by_cases h2 : s.im = 0
    · left
      obtain ⟨r', rfl⟩ : ∃ x : ℝ, r = x := ⟨r.re, Complex.ext rfl (by simpa using h1)⟩
      obtain ⟨s', rfl⟩ : ∃ x : ℝ, s = x := ⟨s.re, Complex.ext rfl (by simpa using h2)⟩
      have e1 := hroot _ hr.1
      have e2 := hroot _ hs.1
      have n1 := ((negReal_iff _).1 hr.2).2
      have n2 := ((negReal_iff _).1 hs.2).2
      rw [Complex.ofReal_re] at n1 n2
      have ev : ∀ x : ℝ, (p.map (algebraMap ℝ ℂ)).eval (x : ℂ) = ((p.eval x : ℝ) : ℂ) := by
        intro x
        rw [eval_map, ← Complex.coe_algebraMap, eval₂_at_apply]
      rw [ev] at e1 e2
      refine ⟨r', s', n1, n2, ?_, by exact_mod_cast e1, by exact_mod_cast e2⟩
      rw [← Complex.ofReal_sub, Complex.norm_real, Real.norm_eq_abs] at hrs
      exact hrs
    · right
      have := hconj s hs.1 hs.2
      have hsr : (starRingEnd ℂ) s = r := by
        rcases this with h | h
        · exact h
        · exact absurd (Complex.conj_eq_iff_im.1 h) h2
      have hn := (negReal_iff _).1 hs.2
      rw [norm_sub_rev, hpair _ _ hsr] at hrs
      refine ⟨s, hn.2, ?_, hn.1, hroot _ hs.1⟩
      norm_num at hrs ⊢
      linarith
  · right
    have := hconj r hr.1 hr.2
    have hsr : (starRingEnd ℂ) r = s := by
      rcases this with h | h
      · exact absurd (Complex.conj_eq_iff_im.1 h) h1
      · exact h
    have hn := (negReal_iff _).1 hr.2
    rw [hpair _ _ hsr] at hrs
    refine ⟨r, hn.2, ?_, hn.1, hroot _ hr.1⟩
    norm_num at hrs ⊢
    linarith

/-- Exactly two negative roots, all roots real. -/
theorem sep_of_real_roots {ι : Type} [Fintype ι] [DecidableEq ι] {p : ℝ[X]} {c : ℝ} (hc : c ≠ 0) {r : ι → ℝ} {i j : ι}
    (hij : i ≠ j) (hi : r i < 0) (hj : r j < 0) (ho : ∀ l, l ≠ i → l ≠ j → 0 ≤ r l)
    (hp : p = C c * ∏ l, (X - C (r l))) {k : ℕ} {l : List ℂ}
    (hl : (l : Multiset ℂ) = (p.map (algebraMap ℝ ℂ)).roots) :
    sepDecision (List.replicate k 0 ++ l) = true ↔ 1 / 10 ^ 6 < |r i - r j| := by
  have hroots : (p.map (algebraMap ℝ ℂ)).roots = Finset.univ.val.map fun l => (r l : ℂ) := by
    rw [hp, Polynomial.map_mul, map_C, roots_C_mul _ (by simpa using hc), Polynomial.map_prod]
    have : (∏ l, (X - C (r l) : ℝ[X]).map (algebraMap ℝ ℂ)) = ((Finset.univ.val.map fun l => (r l : ℂ)).map fun a => X - C a).prod := by
      rw [Multiset.map_map]
      refine Finset.prod_congr rfl fun l _ => ?_
      simp
    rw [this, roots_multiset_prod_X_sub_C]
  have hneg : ∀ x : ℝ, negReal (x : ℂ) = true ↔ x < 0 := by
    intro x; rw [negReal_iff]; simp
  have hfil : ((l.filter negReal : List ℂ) : Multiset ℂ) = {(r i : ℂ), (r j : ℂ)} := by
    have e0 : ((l.filter negReal : List ℂ) : Multiset ℂ) = Multiset.filter (fun b => negReal b = true) (l : Multiset ℂ) := by
      rw [Multiset.filter_coe]
      congr 1
      refine List.filter_congr fun x _ => ?_
      simp
    rw [e0, hl, hroots, Multiset.filter_map]
    have : Multiset.filter ((fun b => negReal b = true) ∘ fun l => (r l : ℂ)) (Finset.univ : Finset ι).val = ({i, j} : Finset ι).val := by
      rw [← Finset.filter_val]
      congr 1
      ext l
      simp only [Finset.mem_filter, Finset.mem_univ, true_and, Function.comp, hneg, Finset.mem_insert, Finset.mem_singleton]
      constructor
      · intro h
        by_contra hno
        push Not at hno
        exact absurd h (not_lt.2 (ho l hno.1 hno.2))
      · rintro (rfl | rfl) <;> assumption
    rw [this]
    rw [Finset.insert_val_of_notMem (by simpa using hij)]
    simp
  have hn : ‖(r i : ℂ) - (r j : ℂ)‖ = |r i - r j| := by
    rw [← Complex.ofReal_sub, Complex.norm_real, Real.norm_eq_abs]
  rw [sepDecision_eq, filter_zeros]
  have hperm : (l.filter negReal).Perm [(r i : ℂ), (r j : ℂ)] := by
    rw [← Multiset.coe_eq_coe, hfil]; rfl
  constructor
  · rintro ⟨a, b, e, h⟩
    rw [e] at hperm
    rcases List.perm_pair.1 hperm with h1 | h1
    · obtain ⟨rfl, rfl⟩ : a = r i ∧ b = r j := by simpa using h1
      rwa [hn] at h
    · obtain ⟨rfl, rfl⟩ : a = r j ∧ b = r i := by simpa using h1
      rwa [norm_sub_rev, hn] at h
  · intro h
    rcases List.perm_pair.1 hperm with h1 | h1
    · exact ⟨_, _, h1, by rwa [hn]⟩
    · exact ⟨_, _, h1, by rwa [norm_sub_rev, hn]⟩

end Hrm
