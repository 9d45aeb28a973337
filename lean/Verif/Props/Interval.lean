import Verif.Lemmas.Interval
import Mathlib.Tactic.NormNum

/-!
# Properties C01–C05: interval set operations

`S` ranges over every legal behaviour of `std::sort`.
-/

namespace Hrm

open Hrm.Interval

variable {α : Type*} [LinearOrder α]

/-- **C01** The union covers exactly the points of the inputs, lists them in increasing order with a
gap between any two, keeps intervals valid, and is empty for an empty input. (Point-set equality and
separation hold even for lists containing reversed intervals.) -/
theorem C01_unions_exact (S : StdSort α) (ins : List (Interval α)) :
    cover (unions S ins) = cover ins ∧ Separated (unions S ins) ∧
      ((∀ i ∈ ins, i.Valid) → ∀ i ∈ unions S ins, i.Valid) ∧ unions S [] = [] := by
  rw [unions_eq]
  obtain ⟨h1, h2, h3⟩ := mergeSorted_spec _ (byStart_sorted S ins)
  refine ⟨h1.trans (cover_perm (S.byStart.perm ins)), h2, ?_, by simp [unions]⟩
  intro hv
  exact h3 (fun a ha => hv a ((S.byStart.perm ins).mem_iff.1 ha))

example : unions (StdSort.ins ℤ) [⟨4, 7⟩, ⟨0, 2⟩, ⟨1, 3⟩, ⟨3, 3⟩, ⟨5, 6⟩] = [⟨0, 3⟩, ⟨4, 7⟩] := by
  decide +kernel

/-- **C02** (any linear order) Two inputs with the same members, in any order and multiplicity, give
the same result under any two behaviours of `std::sort`. -/
theorem C02_unions_order_independent (S T : StdSort α) (l₁ l₂ : List (Interval α))
    (hv : ∀ i ∈ l₁, i.Valid) (hmem : ∀ i, i ∈ l₁ ↔ i ∈ l₂) : unions S l₁ = unions T l₂ := by
  rw [unions_eq, unions_eq]
  let f : α → α ×ₗ ℚ := fun x => toLex (x, 0)
  have hf : StrictMono f := lexEmb_strictMono
  have key : ∀ l : List (Interval α), l.Pairwise (fun a b => a.s ≤ b.s) → (∀ a ∈ l, a.Valid) →
      cover ((mergeSorted l).map (Interval.map f)) = cover (l.map (Interval.map f)) ∧
      Separated ((mergeSorted l).map (Interval.map f)) ∧
      ∀ a ∈ (mergeSorted l).map (Interval.map f), a.Valid := by
    intro l hs hval
    rw [← mergeSorted_map hf]
    have hs' : (l.map (Interval.map f)).Pairwise (fun a b => a.s ≤ b.s) := by
      rw [List.pairwise_map]; exact hs.imp (fun h => hf.monotone h)
    obtain ⟨h1, h2, h3⟩ := mergeSorted_spec _ hs'
    refine ⟨h1, h2, h3 ?_⟩
    intro a ha
    obtain ⟨b, hb, rfl⟩ := List.mem_map.1 ha
    exact hf.monotone (hval b hb)
  have m1 : ∀ i, i ∈ S.byStart.run l₁ ↔ i ∈ l₁ := fun i => (S.byStart.perm l₁).mem_iff
  have m2 : ∀ i, i ∈ T.byStart.run l₂ ↔ i ∈ l₂ := fun i => (T.byStart.perm l₂).mem_iff
  obtain ⟨a1, a2, a3⟩ := key _ (byStart_sorted S l₁) (fun a ha => hv a ((m1 a).1 ha))
  obtain ⟨b1, b2, b3⟩ := key _ (byStart_sorted T l₂)
    (fun a ha => hv a ((hmem a).2 ((m2 a).1 ha)))
  have := separated_unique _ _ a2 b2 a3 b3 (by
    rw [a1, b1]
    apply cover_congr_mem
    intro i
    simp only [List.mem_map, m1, m2, hmem])
  exact List.map_injective_iff.2 (Interval.map_injective hf.injective) this

example : (∀ i ∈ [(⟨0, 2⟩ : Interval ℤ), ⟨1, 3⟩, ⟨0, 1⟩], i.Valid) ∧
    (∀ i, i ∈ [(⟨0, 2⟩ : Interval ℤ), ⟨1, 3⟩, ⟨0, 1⟩] ↔ i ∈ [(⟨0, 1⟩ : Interval ℤ), ⟨1, 3⟩, ⟨0, 2⟩, ⟨1, 3⟩]) := by
  refine ⟨by simp [Interval.Valid], ?_⟩
  intro i; simp only [List.mem_cons, List.not_mem_nil, or_false]; tauto

/-- **C02** (dense orders) Two inputs covering the same points give the same result. -/
theorem C02_unions_canonical [DenselyOrdered α] (S T : StdSort α) (l₁ l₂ : List (Interval α))
    (hv₁ : ∀ i ∈ l₁, i.Valid) (hv₂ : ∀ i ∈ l₂, i.Valid) (hc : cover l₁ = cover l₂) :
    unions S l₁ = unions T l₂ := by
  obtain ⟨a1, a2, a3, _⟩ := C01_unions_exact S l₁
  obtain ⟨b1, b2, b3, _⟩ := C01_unions_exact T l₂
  exact separated_unique _ _ a2 b2 (a3 hv₁) (b3 hv₂) (by rw [a1, b1, hc])

example : cover [(⟨0, 2⟩ : Interval ℚ), ⟨1, 3⟩] = cover [(⟨0, 3⟩ : Interval ℚ)] := by
  ext x
  simp only [cover, Interval.pts, List.mem_cons, List.not_mem_nil, or_false, exists_eq_or_imp,
    exists_eq_left, Set.mem_ofPred_eq]
  constructor
  · rintro (⟨h1, h2⟩ | ⟨h1, h2⟩)
    · exact ⟨h1, h2.trans (by norm_num)⟩
    · exact ⟨le_trans (by norm_num) h1, h2⟩
  · rintro ⟨h1, h2⟩
    rcases le_total x 2 with h | h
    · exact Or.inl ⟨h1, h⟩
    · exact Or.inr ⟨le_trans (by norm_num) h, h2⟩

/-- **C02** `unions` is idempotent. -/
theorem C02_unions_idempotent (S T : StdSort α) (l : List (Interval α)) (hv : ∀ i ∈ l, i.Valid) :
    unions T (unions S l) = unions S l := by
  obtain ⟨-, a2, a3, -⟩ := C01_unions_exact S l
  rw [unions_eq T]
  generalize unions S l = u at a2 a3
  have hval := a3 hv
  -- a separated valid list is strictly sorted by start, so sorting does not change it
  have hss : u.Pairwise (fun a b => a.s < b.s) :=
    List.Pairwise.imp_of_mem (fun {a b} ha _ h => lt_of_le_of_lt (hval a ha) h) a2
  have hrun : T.byStart.run u = u := T.byStart.run_eq (key := Interval.s) (List.Perm.refl u) hss
  rw [hrun]
  -- merging a separated list does nothing
  have fold : ∀ (r acc : List (Interval α)), Separated (acc.reverse ++ r) → acc ≠ [] →
      r.foldl mergeStep acc = r.reverse ++ acc := by
    intro r
    induction r with
    | nil => intro acc _ _; simp
    | cons x r ih =>
      intro acc hsep hne
      obtain ⟨b, bs, rfl⟩ := List.exists_cons_of_ne_nil hne
      have hb : b.e < x.s := by
        have := (List.pairwise_append.1 hsep).2.2 b (by simp) x (by simp)
        exact this
      rw [List.foldl_cons, mergeStep, if_pos hb, ih]
      · simp
      · simpa using hsep
      · simp
  cases u with
  | nil => rfl
  | cons x xs =>
    have hx : mergeStep [x] x = [x] := by
      have : ¬ x.e < x.s := not_lt.2 (hval x (by simp))
      simp [mergeStep, this]
    simp only [mergeSorted, List.foldl_cons, hx]
    rw [fold xs [x] (by simpa using a2) (by simp)]
    simp

/-- **C03** For a non-empty list, the result of `intersects` has at most one interval, it is valid,
a point is in it iff it is in every input interval, and it is empty iff some input starts after some
input ends. For the empty list it is empty. -/
theorem C03_intersects_exact (S : StdSort α) (ins : List (Interval α)) :
    (intersects S ins).length ≤ 1 ∧ (∀ i ∈ intersects S ins, i.Valid) ∧
    (ins ≠ [] → ∀ x, x ∈ cover (intersects S ins) ↔ ∀ i ∈ ins, x ∈ i.pts) ∧
    (intersects S ins = [] ↔ ins = [] ∨ ∃ i ∈ ins, ∃ j ∈ ins, j.e < i.s) :=
  intersects_spec S ins

example : intersects (StdSort.ins ℤ) [⟨0, 5⟩, ⟨2, 9⟩, ⟨-3, 4⟩] = [⟨2, 4⟩] := by decide +kernel
example : intersects (StdSort.ins ℤ) [⟨0, 5⟩, ⟨6, 9⟩] = [] := by decide +kernel


/-- **C04** For an outer interval within the representable range and inner intervals that are valid
and pairwise separated once listed by start (what `unions` returns, in any order), the result covers
exactly the points of the outer interval that are not strictly inside an inner interval; the pieces
are valid and listed in increasing order. -/
theorem C04_complements_exact (S : StdSort α) (dmin dmax : α) (o : Interval α)
    (os inner merged : List (Interval α)) (hlo : dmin ≤ o.s) (hhi : o.e ≤ dmax)
    (hperm : inner.Perm merged) (hsep : Separated merged) (hv : ∀ i ∈ merged, i.Valid)
    (hne : inner ≠ []) :
    (∀ x, x ∈ cover (complements S dmin dmax (o :: os) inner) ↔
      x ∈ o.pts ∧ ∀ i ∈ inner, ¬ (i.s < x ∧ x < i.e)) ∧
    (∀ i ∈ complements S dmin dmax (o :: os) inner, i.Valid) ∧
    (complements S dmin dmax (o :: os) inner).Pairwise (fun a b => a.e ≤ b.s) := by
  have hss : merged.Pairwise (fun a b => a.s < b.s) :=
    List.Pairwise.imp_of_mem (fun {a b} ha _ h => lt_of_le_of_lt (hv a ha) h) hsep
  have hrun : S.byStart.run inner = merged := S.byStart.run_eq (key := Interval.s) hperm hss
  have hne' : inner.isEmpty = false := by simpa using hne
  have hcompl : complements S dmin dmax (o :: os) inner =
      (compOf dmin dmax merged).filterMap (fun curr => (intersects S [curr, o]).head?) := by
    simp [complements, hne', hrun]
  rw [hcompl]
  obtain ⟨a, as, rfl⟩ : ∃ a as, merged = a :: as := by
    cases merged with
    | nil => exact absurd hperm.eq_nil hne
    | cons a as => exact ⟨a, as, rfl⟩
  exact complements_core S dmin dmax o a as inner hlo hhi hperm hsep hv

example : complements (StdSort.ins ℤ) (-100) 100 [⟨0, 10⟩] [⟨4, 6⟩, ⟨-1, 2⟩] =
    [⟨2, 4⟩, ⟨6, 10⟩] := by decide +kernel

example : ∃ merged : List (Interval ℤ), [(⟨4, 6⟩ : Interval ℤ), ⟨-1, 2⟩].Perm merged ∧
    Separated merged ∧ (∀ i ∈ merged, i.Valid) :=
  ⟨[⟨-1, 2⟩, ⟨4, 6⟩], by decide, by simp [Separated], by simp [Interval.Valid]⟩

/-- **C04** Corner cases: no outer interval gives nothing; no inner interval gives back the *whole*
outer list; otherwise only the first outer interval matters. -/
theorem C04_complements_corner (S : StdSort α) (dmin dmax : α) (o : Interval α)
    (os inner : List (Interval α)) :
    complements S dmin dmax [] inner = [] ∧ complements S dmin dmax (o :: os) [] = o :: os ∧
    (inner ≠ [] → complements S dmin dmax (o :: os) inner = complements S dmin dmax [o] inner) := by
  refine ⟨rfl, by simp [complements], ?_⟩
  intro h
  have : inner.isEmpty = false := by simpa using h
  simp [complements, this]

/-- The claim C05: no returned point is strictly inside a (valid) inner interval. -/
def C05_claim (α : Type*) [LinearOrder α] (S : StdSort α) (dmin dmax : α) : Prop :=
  ∀ (o : Interval α) (inner : List (Interval α)), dmin ≤ o.s → o.e ≤ dmax → o.Valid →
    (∀ i ∈ inner, i.Valid) → ∀ x ∈ cover (complements S dmin dmax [o] inner),
    ∀ i ∈ inner, ¬ (i.s < x ∧ x < i.e)

/-- **C05 is false of the code**: for un-merged (nested) inner intervals and every legal sort, the
result contains points strictly inside an inner interval. -/
theorem C05_refuted (S : StdSort ℤ) : ¬ C05_claim ℤ S (-1000) 1000 := by
  intro h
  have hs : S.byStart.run [⟨0, 10⟩, ⟨1, 2⟩] = [⟨0, 10⟩, ⟨1, 2⟩] :=
    S.byStart.run_eq (key := Interval.s) (List.Perm.refl _) (by simp)
  have hmem : (5 : ℤ) ∈ cover (complements S (-1000) 1000 [⟨0, 40⟩] [⟨0, 10⟩, ⟨1, 2⟩]) := by
    have : complements S (-1000) 1000 [⟨0, 40⟩] [⟨0, 10⟩, ⟨1, 2⟩] =
      (compOf (-1000) 1000 [⟨0, 10⟩, ⟨1, 2⟩]).filterMap
        (fun curr => (intersects S [curr, ⟨0, 40⟩]).head?) := by
      simp [complements, hs]
    rw [this, mem_filterMap_intersects]
    simp [compOf, gaps, cover, Interval.pts]
  exact h ⟨0, 40⟩ [⟨0, 10⟩, ⟨1, 2⟩] (by decide) (by decide) (by simp [Interval.Valid])
    (by simp [Interval.Valid]) 5 hmem ⟨0, 10⟩ (by simp) (by decide)

/-- **C05 (partial)** The claim holds when the inner intervals are pairwise separated (as after
`unions`). Missing: arbitrary inner lists, for which it is false (`C05_refuted`). -/
theorem C05_complements_sound_partial (S : StdSort α) (dmin dmax : α) (o : Interval α)
    (inner merged : List (Interval α)) (hlo : dmin ≤ o.s) (hhi : o.e ≤ dmax)
    (hperm : inner.Perm merged) (hsep : Separated merged) (hv : ∀ i ∈ merged, i.Valid) :
    ∀ x ∈ cover (complements S dmin dmax [o] inner), ∀ i ∈ inner, ¬ (i.s < x ∧ x < i.e) := by
  intro x hx
  by_cases hne : inner = []
  · subst hne; simp
  · exact (((C04_complements_exact S dmin dmax o [] inner merged hlo hhi hperm hsep hv hne).1 x).1
      hx).2

end Hrm
