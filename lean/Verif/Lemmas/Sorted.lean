import Verif.Lemmas.FreeSpace
import Mathlib.Data.List.Count

set_option linter.unusedSectionVars false

/-! Counting in sorted lists. -/

namespace Hrm
variable {K : Type*} [LinearOrder K]

/-- In a sorted list the elements satisfying a downward closed predicate are a prefix. -/
theorem sorted_countP {l : List K} (hl : l.Pairwise (· ≤ ·)) (p : K → Bool)
    (hp : ∀ a b, a ≤ b → p b = true → p a = true) (k : ℕ) (a : K) (hk : l[k]? = some a) :
    p a = true ↔ k < l.countP p := by
  induction l generalizing k with
  | nil => simp at hk
  | cons b l ih =>
    have hb := List.pairwise_cons.1 hl
    cases k with
    | zero =>
      simp only [List.getElem?_cons_zero, Option.some.injEq] at hk
      subst hk
      cases h : p b with
      | true => simp [List.countP_cons, h]
      | false =>
        have : l.countP p = 0 := by
          rw [List.countP_eq_zero]
          intro c hc hpc
          rw [hp b c (hb.1 c hc) hpc] at h; simp at h
        simp [List.countP_cons, h, this]
    | succ k =>
      simp only [List.getElem?_cons_succ] at hk
      have := ih hb.2 k hk
      cases h : p b with
      | true => rw [List.countP_cons, h]; simpa using this
      | false =>
        have hpa : p a = false := by
          cases ha : p a with
          | false => rfl
          | true => rw [hp b a (hb.1 a (List.mem_of_getElem? hk)) ha] at h; simp at h
        have hc : l.countP p = 0 := by
          rw [List.countP_eq_zero]
          intro c hc hpc
          rw [hp b c (hb.1 c hc) hpc] at h; simp at h
        simp [List.countP_cons, h, hpa, hc]

theorem sorted_le_iff {l : List K} (hl : l.Pairwise (· ≤ ·)) (x : K) (k : ℕ) (a : K)
    (hk : l[k]? = some a) : a ≤ x ↔ k < l.countP (fun b => decide (b ≤ x)) := by
  have := sorted_countP hl (fun b => decide (b ≤ x))
    (fun a b hab h => by simp only [decide_eq_true_eq] at *; exact hab.trans h) k a hk
  simpa using this

theorem sorted_lt_iff {l : List K} (hl : l.Pairwise (· ≤ ·)) (x : K) (k : ℕ) (a : K)
    (hk : l[k]? = some a) : a < x ↔ k < l.countP (fun b => decide (b < x)) := by
  have := sorted_countP hl (fun b => decide (b < x))
    (fun a b hab h => by simp only [decide_eq_true_eq] at *; exact hab.trans_lt h) k a hk
  simpa using this

theorem countP_le_of_imp {β : Type*} (l : List β) (p q : β → Bool)
    (h : ∀ a ∈ l, p a = true → q a = true) : l.countP p ≤ l.countP q :=
  List.countP_mono_left h

/-- A strict version: some element satisfies only `q`. -/
theorem countP_lt_of_imp {β : Type*} (l : List β) (p q : β → Bool)
    (h : ∀ a ∈ l, p a = true → q a = true) (b : β) (hb : b ∈ l) (hq : q b = true) (hp : p b = false) :
    l.countP p < l.countP q := by
  induction l with
  | nil => simp at hb
  | cons a l ih =>
    simp only [List.countP_cons]
    rcases List.mem_cons.1 hb with rfl | hb
    · have := countP_le_of_imp l p q (fun a ha => h a (by simp [ha]))
      simp [hp, hq]; omega
    · have := ih (fun a ha => h a (by simp [ha])) hb
      have h1 := h a (by simp)
      cases hpa : p a <;> cases hqa : q a <;> simp_all; omega

/-- Exactly one element satisfies only `q`. -/
theorem countP_eq_succ {β : Type*} (l : List β) (p q : β → Bool) (R : β → β → Prop)
    (hR : l.Pairwise R)
    (h : ∀ a ∈ l, p a = true → q a = true) (b : β) (hb : b ∈ l) (hq : q b = true) (hp : p b = false)
    (huniq : ∀ a ∈ l, ∀ c ∈ l, R a c → ¬ ((q a = true ∧ p a = false) ∧ (q c = true ∧ p c = false))) :
    l.countP q = l.countP p + 1 := by
  induction l with
  | nil => simp at hb
  | cons a l ih =>
    obtain ⟨ra, rl⟩ := List.pairwise_cons.1 hR
    simp only [List.countP_cons]
    have hrest : (∃ c ∈ l, q c = true ∧ p c = false) ∨ (∀ c ∈ l, p c = q c) := by
      by_cases hc : ∃ c ∈ l, q c = true ∧ p c = false
      · exact Or.inl hc
      · right; intro c hc'
        have h1 := h c (by simp [hc'])
        cases hpc : p c <;> cases hqc : q c <;> simp_all
    rcases List.mem_cons.1 hb with rfl | hb
    · have hall : ∀ c ∈ l, p c = q c := by
        rcases hrest with ⟨c, hc, h1⟩ | h1
        · exact absurd ⟨⟨hq, hp⟩, h1⟩ (huniq b (by simp) c (by simp [hc]) (ra c hc))
        · exact h1
      rw [List.countP_congr (q := p) (fun c hc => by rw [hall c hc])]
      simp [hp, hq]
    · have hpa : p a = q a := by
        have h1 := h a (by simp)
        have h2 := huniq a (by simp) b (by simp [hb]) (ra b hb)
        cases hpa : p a <;> cases hqa : q a <;> simp_all
      rw [ih rl (fun c hc => h c (by simp [hc])) hb
        (fun x hx c hc => huniq x (by simp [hx]) c (by simp [hc])), hpa]
      omega

end Hrm
