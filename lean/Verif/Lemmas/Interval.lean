import Verif.Spec.Interval
import Mathlib.Order.Max
import Mathlib.Data.Prod.Lex
import Mathlib.Algebra.Field.Rat
import Mathlib.Algebra.Order.Ring.Rat
import Mathlib.Order.Interval.Set.Basic
import Mathlib.Data.Set.Lattice
import Mathlib.Algebra.Order.Field.Basic

namespace Hrm

open Hrm.Interval

section
variable {α : Type*} [LinearOrder α]

@[simp] theorem cover_nil : cover ([] : List (Interval α)) = ∅ := by
  ext x; simp [cover]

theorem mem_cover_cons {i : Interval α} {l : List (Interval α)} {x : α} :
    x ∈ cover (i :: l) ↔ x ∈ i.pts ∨ x ∈ cover l := by
  simp [cover]

theorem mem_cover_append {l₁ l₂ : List (Interval α)} {x : α} :
    x ∈ cover (l₁ ++ l₂) ↔ x ∈ cover l₁ ∨ x ∈ cover l₂ := by
  simp only [cover, List.mem_append, Set.mem_ofPred_eq]
  constructor
  · rintro ⟨i, h | h, hx⟩
    · exact Or.inl ⟨i, h, hx⟩
    · exact Or.inr ⟨i, h, hx⟩
  · rintro (⟨i, h, hx⟩ | ⟨i, h, hx⟩)
    · exact ⟨i, Or.inl h, hx⟩
    · exact ⟨i, Or.inr h, hx⟩

theorem cover_congr_mem {l₁ l₂ : List (Interval α)} (h : ∀ i, i ∈ l₁ ↔ i ∈ l₂) :
    cover l₁ = cover l₂ := by
  ext x; simp [cover, h]

theorem cover_perm {l₁ l₂ : List (Interval α)} (h : l₁.Perm l₂) : cover l₁ = cover l₂ :=
  cover_congr_mem (fun _ => h.mem_iff)

theorem cover_reverse (l : List (Interval α)) : cover l.reverse = cover l :=
  cover_congr_mem (by simp)

theorem pts_merge {b el : Interval α} (h1 : b.s ≤ el.s) (h2 : ¬ b.e < el.s) (x : α) :
    x ∈ ({ b with e := max b.e el.e } : Interval α).pts ↔ x ∈ b.pts ∨ x ∈ el.pts := by
  simp only [Interval.pts, Set.mem_ofPred_eq, le_max_iff]
  push Not at h2
  constructor
  · rintro ⟨hs, he⟩
    rcases le_total x b.e with h | h
    · exact Or.inl ⟨hs, h⟩
    · rcases he with he | he
      · exact Or.inl ⟨hs, he⟩
      · exact Or.inr ⟨h2.trans h, he⟩
  · rintro (⟨hs, he⟩ | ⟨hs, he⟩)
    · exact ⟨hs, Or.inl he⟩
    · exact ⟨h1.trans hs, Or.inr he⟩

/-- The merge loop, on a non-empty accumulator whose starts do not exceed the remaining starts. -/
theorem foldl_mergeStep_spec (l : List (Interval α)) :
    ∀ acc : List (Interval α), acc ≠ [] →
      l.Pairwise (fun a b => a.s ≤ b.s) →
      (∀ a ∈ acc, ∀ b ∈ l, a.s ≤ b.s) →
      acc.Pairwise (fun a b => b.e < a.s) →
      (∀ x, x ∈ cover (l.foldl mergeStep acc) ↔ x ∈ cover acc ∨ x ∈ cover l) ∧
      (l.foldl mergeStep acc).Pairwise (fun a b => b.e < a.s) ∧
      ((∀ a ∈ acc, a.Valid) → (∀ a ∈ l, a.Valid) → ∀ a ∈ l.foldl mergeStep acc, a.Valid) := by
  induction l with
  | nil => intro acc _ _ _ hp; exact ⟨by simp, by simpa using hp, by intro h _ ; simpa using h⟩
  | cons el l ih =>
    intro acc hne hs hle hp
    obtain ⟨b, bs, rfl⟩ := List.exists_cons_of_ne_nil hne
    rw [List.pairwise_cons] at hs hp
    have hbel : b.s ≤ el.s := hle b (by simp) el (by simp)
    simp only [List.foldl_cons, mergeStep]
    by_cases hc : b.e < el.s
    · rw [if_pos hc]
      obtain ⟨i1, i2, i3⟩ := ih (el :: b :: bs) (by simp) hs.2
        (by
          intro a ha c hcm
          rcases List.mem_cons.1 ha with rfl | ha
          · exact hs.1 c hcm
          · exact hle a ha c (by simp [hcm]))
        (by
          refine List.pairwise_cons.2 ⟨?_, List.pairwise_cons.2 hp⟩
          intro c hcm
          rcases List.mem_cons.1 hcm with rfl | hcm
          · exact hc
          · exact lt_of_lt_of_le (hp.1 c hcm) hbel)
      refine ⟨?_, i2, ?_⟩
      · intro x; rw [i1]; simp only [mem_cover_cons]; tauto
      · intro ha hl
        apply i3
        · intro a h
          rcases List.mem_cons.1 h with rfl | h
          · exact hl _ (by simp)
          · exact ha a h
        · intro a h; exact hl a (by simp [h])
    · rw [if_neg hc]
      obtain ⟨i1, i2, i3⟩ := ih ({ b with e := max b.e el.e } :: bs) (by simp) hs.2
        (by
          intro a ha c hcm
          rcases List.mem_cons.1 ha with rfl | ha
          · exact hle b (by simp) c (by simp [hcm])
          · exact hle a (by simp [ha]) c (by simp [hcm]))
        (by exact List.pairwise_cons.2 ⟨fun c hcm => hp.1 c hcm, hp.2⟩)
      refine ⟨?_, i2, ?_⟩
      · intro x; rw [i1]; simp only [mem_cover_cons, pts_merge hbel hc]; tauto
      · intro ha hl
        apply i3
        · intro a h
          rcases List.mem_cons.1 h with rfl | h
          · exact le_trans (ha b (by simp)) (le_max_left _ _)
          · exact ha a (by simp [h])
        · intro a h; exact hl a (by simp [h])

theorem mergeSorted_spec (l : List (Interval α)) (hs : l.Pairwise (fun a b => a.s ≤ b.s)) :
    cover (mergeSorted l) = cover l ∧ Separated (mergeSorted l) ∧
      ((∀ a ∈ l, a.Valid) → ∀ a ∈ mergeSorted l, a.Valid) := by
  cases l with
  | nil => simp [mergeSorted, Separated]
  | cons x xs =>
    obtain ⟨h1, h2, h3⟩ := foldl_mergeStep_spec (x :: xs) [x] (by simp) hs
      (by
        intro a ha b hb
        obtain rfl := List.mem_singleton.1 ha
        rcases List.mem_cons.1 hb with rfl | hb
        · exact le_rfl
        · exact (List.pairwise_cons.1 hs).1 b hb) (by simp)
    refine ⟨?_, ?_, ?_⟩
    · ext y
      rw [mergeSorted, cover_reverse, h1]; simp only [mem_cover_cons, cover_nil,
        Set.mem_empty_iff_false]; tauto
    · rw [mergeSorted, Separated, List.pairwise_reverse]; exact h2
    · intro hv a ha
      rw [mergeSorted, List.mem_reverse] at ha
      exact h3 (by simpa using hv x (by simp)) hv a ha

theorem byStart_sorted (S : StdSort α) (l : List (Interval α)) :
    (S.byStart.run l).Pairwise (fun a b => a.s ≤ b.s) :=
  (S.byStart.sorted l).imp (fun h => not_lt.1 h)

theorem byEnd_sorted (S : StdSort α) (l : List (Interval α)) :
    (S.byEnd.run l).Pairwise (fun a b => a.e ≤ b.e) :=
  (S.byEnd.sorted l).imp (fun h => not_lt.1 h)

theorem unions_eq (S : StdSort α) (l : List (Interval α)) :
    unions S l = mergeSorted (S.byStart.run l) := by
  unfold unions
  split
  · rename_i h
    have : l = [] := by simpa using h
    subst this
    have : S.byStart.run [] = [] := (S.byStart.perm []).eq_nil
    rw [this]; rfl
  · rfl

/-! ### Uniqueness of separated covers -/

/-- In a dense order a separated list of valid intervals is determined by its point set. -/
theorem separated_unique [DenselyOrdered α] :
    ∀ l₁ l₂ : List (Interval α), Separated l₁ → Separated l₂ →
      (∀ a ∈ l₁, a.Valid) → (∀ a ∈ l₂, a.Valid) → cover l₁ = cover l₂ → l₁ = l₂ := by
  intro l₁
  induction l₁ with
  | nil =>
    intro l₂ _ _ _ v2 h
    cases l₂ with
    | nil => rfl
    | cons b bs =>
      exfalso
      have : b.s ∈ cover (b :: bs) := mem_cover_cons.2 (Or.inl ⟨le_rfl, v2 b (by simp)⟩)
      rw [← h] at this; simp at this
  | cons a as ih =>
    intro l₂ s1 s2 v1 v2 h
    cases l₂ with
    | nil =>
      exfalso
      have : a.s ∈ cover (a :: as) := mem_cover_cons.2 (Or.inl ⟨le_rfl, v1 a (by simp)⟩)
      rw [h] at this; simp at this
    | cons b bs =>
      -- all points of a separated list starting with `c` are ≥ c.s
      have lower : ∀ (c : Interval α) (cs : List (Interval α)), Separated (c :: cs) →
          (∀ d ∈ c :: cs, d.Valid) → ∀ x ∈ cover (c :: cs), c.s ≤ x := by
        intro c cs hsep hv x hx
        rcases mem_cover_cons.1 hx with hx | ⟨d, hd, hx⟩
        · exact hx.1
        · exact ((hv c (by simp)).trans ((List.pairwise_cons.1 hsep).1 d hd).le).trans hx.1
      have tailLower : ∀ (c : Interval α) (cs : List (Interval α)), Separated (c :: cs) →
          ∀ x ∈ cover cs, c.e < x := by
        intro c cs hsep x ⟨d, hd, hx⟩
        exact lt_of_lt_of_le ((List.pairwise_cons.1 hsep).1 d hd) hx.1
      have va := v1 a (by simp)
      have vb := v2 b (by simp)
      have has : a.s ∈ cover (a :: as) := mem_cover_cons.2 (Or.inl ⟨le_rfl, va⟩)
      have hbs : b.s ∈ cover (b :: bs) := mem_cover_cons.2 (Or.inl ⟨le_rfl, vb⟩)
      have hs : a.s = b.s := le_antisymm (lower a as s1 v1 _ (h ▸ hbs)) (lower b bs s2 v2 _ (h ▸ has))
      -- the first component cannot extend beyond the other's first component
      have key : ∀ (c d : Interval α) (cs ds : List (Interval α)),
          Separated (d :: ds) → c.Valid → c.s = d.s →
          (∀ x, x ∈ cover (c :: cs) → x ∈ cover (d :: ds)) →
          (∀ g ∈ d :: ds, g.Valid) → c.e ≤ d.e := by
        intro c d cs ds hsd hvc hcd hsub hvd
        by_contra hlt
        push Not at hlt
        cases ds with
        | nil =>
          have : c.e ∈ cover (c :: cs) := mem_cover_cons.2 (Or.inl ⟨hvc, le_rfl⟩)
          rcases mem_cover_cons.1 (hsub _ this) with h | h
          · exact absurd h.2 (not_le.2 hlt)
          · simp at h
        | cons f fs =>
          have hdf : d.e < f.s := (List.pairwise_cons.1 hsd).1 f (by simp)
          obtain ⟨x, hx1, hx2⟩ := exists_between (lt_min hlt hdf)
          rw [lt_min_iff] at hx2
          have hvd' : d.Valid := hvd d (by simp)
          have : x ∈ cover (c :: cs) :=
            mem_cover_cons.2 (Or.inl ⟨by rw [hcd]; exact hvd'.trans hx1.le, hx2.1.le⟩)
          rcases mem_cover_cons.1 (hsub x this) with h | ⟨g, hg, hx⟩
          · exact absurd h.2 (not_le.2 hx1)
          · rcases List.mem_cons.1 hg with rfl | hg'
            · exact absurd hx.1 (not_le.2 hx2.2)
            · have h4 := (List.pairwise_cons.1 (List.pairwise_cons.1 hsd).2).1 g hg'
              have hvf : f.s ≤ f.e := hvd f (by simp)
              exact absurd (hvf.trans (h4.le.trans hx.1)) (not_le.2 hx2.2)
      have he : a.e = b.e := le_antisymm
        (key a b as bs s2 va hs (fun x hx => h ▸ hx) v2)
        (key b a bs as s1 vb hs.symm (fun x hx => h ▸ hx) v1)
      have hab : a = b := by
        obtain ⟨as', ae⟩ := a; obtain ⟨bs', be⟩ := b
        simp only at hs he; rw [hs, he]
      subst hab
      congr 1
      refine ih bs (List.pairwise_cons.1 s1).2 (List.pairwise_cons.1 s2).2
        (fun c hc => v1 c (by simp [hc])) (fun c hc => v2 c (by simp [hc])) ?_
      ext x
      constructor
      · intro hx
        have h1 : x ∈ cover (a :: bs) := h ▸ mem_cover_cons.2 (Or.inr hx)
        rcases mem_cover_cons.1 h1 with h2 | h2
        · exact absurd h2.2 (not_le.2 (tailLower a as s1 x hx))
        · exact h2
      · intro hx
        have h1 : x ∈ cover (a :: as) := h ▸ mem_cover_cons.2 (Or.inr hx)
        rcases mem_cover_cons.1 h1 with h2 | h2
        · exact absurd h2.2 (not_le.2 (tailLower a bs s2 x hx))
        · exact h2

/-! ### Transport along strictly monotone maps -/

/-- Apply a function to both ends. -/
def Interval.map {β : Type*} (f : α → β) (i : Interval α) : Interval β := ⟨f i.s, f i.e⟩

omit [LinearOrder α] in
theorem Interval.map_injective {β : Type*} {f : α → β} (hf : Function.Injective f) :
    Function.Injective (Interval.map f) := by
  rintro ⟨a, b⟩ ⟨c, d⟩ h
  simp only [Interval.map, Interval.mk.injEq] at h
  rw [hf h.1, hf h.2]

theorem foldl_mergeStep_map {β : Type*} [LinearOrder β] {f : α → β} (hf : StrictMono f)
    (l acc : List (Interval α)) :
    (l.map (Interval.map f)).foldl mergeStep (acc.map (Interval.map f)) =
      (l.foldl mergeStep acc).map (Interval.map f) := by
  induction l generalizing acc with
  | nil => simp
  | cons el l ih =>
    simp only [List.map_cons, List.foldl_cons]
    rw [← ih]
    congr 1
    cases acc with
    | nil => simp [mergeStep]
    | cons b bs =>
      simp only [List.map_cons, mergeStep, Interval.map, hf.lt_iff_lt]
      split
      · simp [Interval.map]
      · simp [Interval.map, hf.monotone.map_max]

theorem mergeSorted_map {β : Type*} [LinearOrder β] {f : α → β} (hf : StrictMono f)
    (l : List (Interval α)) :
    mergeSorted (l.map (Interval.map f)) = (mergeSorted l).map (Interval.map f) := by
  cases l with
  | nil => simp [mergeSorted]
  | cons x xs =>
    have := foldl_mergeStep_map hf (x :: xs) [x]
    simp only [List.map_cons, List.map_nil] at this
    simp [mergeSorted, this]

instance lexDense : DenselyOrdered (α ×ₗ ℚ) := by
  constructor
  intro a b h
  rcases Prod.Lex.lt_iff.1 h with h | ⟨h1, h2⟩
  · refine ⟨toLex ((ofLex a).1, (ofLex a).2 + 1), ?_, ?_⟩
    · rw [Prod.Lex.lt_iff]; right; exact ⟨rfl, lt_add_one _⟩
    · rw [Prod.Lex.lt_iff]; left; exact h
  · obtain ⟨q, hq1, hq2⟩ := exists_between h2
    refine ⟨toLex ((ofLex a).1, q), ?_, ?_⟩
    · rw [Prod.Lex.lt_iff]; right; exact ⟨rfl, hq1⟩
    · rw [Prod.Lex.lt_iff]; right; exact ⟨h1, hq2⟩

theorem lexEmb_strictMono : StrictMono (fun x : α => (toLex (x, (0 : ℚ)) : α ×ₗ ℚ)) := by
  intro a b h
  rw [Prod.Lex.lt_iff]; left; exact h

/-- The latest start / earliest end picked by `intersects`. -/
theorem intersects_shape (S : StdSort α) (ins : List (Interval α)) (hne : ins ≠ []) :
    ∃ l ∈ ins, ∃ f ∈ ins, (∀ i ∈ ins, i.s ≤ l.s) ∧ (∀ i ∈ ins, f.e ≤ i.e) ∧
      intersects S ins = if l.s > f.e then [] else [⟨l.s, f.e⟩] := by
  have p1 := S.byStart.perm ins
  have p2 := (S.byEnd.perm (S.byStart.run ins)).trans p1
  have n1 : S.byStart.run ins ≠ [] := fun h => hne (by rw [h] at p1; exact p1.symm.eq_nil)
  have n2 : S.byEnd.run (S.byStart.run ins) ≠ [] :=
    fun h => hne (by rw [h] at p2; exact p2.symm.eq_nil)
  have hs1 := byStart_sorted S ins
  have hs2 := byEnd_sorted S (S.byStart.run ins)
  refine ⟨_, p1.mem_iff.1 (List.getLast_mem n1), _, p2.mem_iff.1 (List.head_mem n2), ?_, ?_, ?_⟩
  · intro i hi
    have hi' := p1.mem_iff.2 hi
    rw [← List.dropLast_append_getLast n1] at hi' hs1
    rcases List.mem_append.1 hi' with h | h
    · exact (List.pairwise_append.1 hs1).2.2 i h _ (by simp)
    · rw [List.mem_singleton.1 h]
  · intro i hi
    have hi' := p2.mem_iff.2 hi
    rw [← List.cons_head_tail n2] at hi' hs2
    rcases List.mem_cons.1 hi' with h | h
    · rw [h]
    · exact (List.pairwise_cons.1 hs2).1 i h
  · unfold intersects
    have he : ins.isEmpty = false := by simpa using hne
    rw [if_neg (by simp [he])]
    simp [List.getLast?_eq_some_getLast n1, List.head?_eq_some_head n2]

/-- For a non-empty list, the result of `intersects` has at most one interval, it is valid,
a point is in it iff it is in every input interval, and it is empty iff some input starts after some
input ends. For the empty list it is empty. -/
theorem intersects_spec (S : StdSort α) (ins : List (Interval α)) :
    (intersects S ins).length ≤ 1 ∧ (∀ i ∈ intersects S ins, i.Valid) ∧
    (ins ≠ [] → ∀ x, x ∈ cover (intersects S ins) ↔ ∀ i ∈ ins, x ∈ i.pts) ∧
    (intersects S ins = [] ↔ ins = [] ∨ ∃ i ∈ ins, ∃ j ∈ ins, j.e < i.s) := by
  by_cases hne : ins = []
  · subst hne; simp [intersects]
  · obtain ⟨l, hl, f, hf, h1, h2, h3⟩ := intersects_shape S ins hne
    rw [h3]
    by_cases hc : l.s > f.e
    · rw [if_pos hc]
      refine ⟨by simp, by simp, ?_, ?_⟩
      · intro _ x
        simp only [cover_nil, Set.mem_empty_iff_false, false_iff]
        intro h
        exact absurd ((h l hl).1.trans (h f hf).2) (not_le.2 hc)
      · simp only [true_iff]; exact Or.inr ⟨l, hl, f, hf, hc⟩
    · rw [if_neg hc]
      push Not at hc
      refine ⟨by simp, by simpa [Interval.Valid] using hc, ?_, ?_⟩
      · intro _ x
        simp only [cover, Interval.pts, List.mem_singleton, exists_eq_left, Set.mem_ofPred_eq]
        exact ⟨fun h i hi => ⟨(h1 i hi).trans h.1, h.2.trans (h2 i hi)⟩,
          fun h => ⟨(h l hl).1, (h f hf).2⟩⟩
      · simp only [List.cons_ne_self, false_iff, not_or, not_exists, not_and]
        refine ⟨hne, fun i hi j hj => not_lt.2 ((h1 i hi).trans (hc.trans (h2 j hj)))⟩

/-- The pieces of `comp`, without sorting. -/
theorem mem_filterMap_intersects (S : StdSort α) (o : Interval α) (c : List (Interval α)) (x : α) :
    x ∈ cover (c.filterMap (fun curr => (intersects S [curr, o]).head?)) ↔
      x ∈ o.pts ∧ x ∈ cover c := by
  have piece : ∀ curr : Interval α,
      (∃ i, (intersects S [curr, o]).head? = some i ∧ x ∈ i.pts) ↔ x ∈ curr.pts ∧ x ∈ o.pts := by
    intro curr
    obtain ⟨h1, -, h3, -⟩ := intersects_spec S [curr, o]
    have h3' := h3 (by simp) x
    simp only [List.mem_cons, List.not_mem_nil, or_false, forall_eq_or_imp, forall_eq] at h3'
    rw [← h3']
    generalize intersects S [curr, o] = r at h1
    match r, h1 with
    | [], _ => simp [cover]
    | [i], _ => simp [cover]
  simp only [cover, List.mem_filterMap, Set.mem_ofPred_eq]
  constructor
  · rintro ⟨i, ⟨c', hc', hi⟩, hx⟩
    have := (piece c').1 ⟨i, hi, hx⟩
    exact ⟨this.2, c', hc', this.1⟩
  · rintro ⟨ho, c', hc', hx⟩
    obtain ⟨i, hi, hxi⟩ := (piece c').2 ⟨hx, ho⟩
    exact ⟨i, ⟨c', hc', hi⟩, hxi⟩

theorem gaps_cover (dmax : α) (l : List (Interval α)) (hs : Separated l) (hv : ∀ i ∈ l, i.Valid)
    (x : α) (hx : x ≤ dmax) :
    ∀ a as, l = a :: as → a.s < x →
    (x ∈ cover (gaps dmax l) ↔ ∀ i ∈ l, ¬ (i.s < x ∧ x < i.e)) := by
  induction l with
  | nil => intro a as h; simp at h
  | cons b bs ih =>
    intro a as h hax
    obtain ⟨rfl, rfl⟩ := List.cons.inj h
    cases bs with
    | nil =>
      simp only [gaps, cover, Interval.pts, List.mem_singleton, exists_eq_left, Set.mem_ofPred_eq,
        forall_eq, not_and, not_lt]
      exact ⟨fun h _ => h.1, fun h => ⟨h hax, hx⟩⟩
    | cons c cs =>
      have hbc : b.e < c.s := (List.pairwise_cons.1 hs).1 c (by simp)
      have hsc := (List.pairwise_cons.1 hs).2
      have hvc : ∀ i ∈ c :: cs, i.Valid := fun i hi => hv i (by simp [hi])
      rw [gaps, mem_cover_cons]
      by_cases hxc : c.s < x
      · have := ih hsc hvc c cs rfl hxc
        rw [this]
        simp only [Interval.pts, Set.mem_ofPred_eq, List.forall_mem_cons (a := b)]
        have h1 : ¬ (b.e ≤ x ∧ x ≤ c.s) := fun h => absurd h.2 (not_le.2 hxc)
        have h2 : ¬ (b.s < x ∧ x < b.e) := fun h => absurd (hbc.trans hxc) (not_lt.2 h.2.le)
        simp [h1, h2]
      · push Not at hxc
        -- x ≤ c.s : not in any later gap except possibly touching
        have later : ∀ i ∈ c :: cs, ¬ (i.s < x ∧ x < i.e) := by
          intro i hi hp
          rcases List.mem_cons.1 hi with hic | hi
          · rw [hic] at hp; exact absurd hp.1 (not_lt.2 hxc)
          · have h3 := (List.pairwise_cons.1 hsc).1 i hi
            have h4 : c.s ≤ c.e := hvc c (by simp)
            exact absurd (h4.trans_lt (h3.trans hp.1)) (not_lt.2 hxc)
        have gl : ∀ (l : List (Interval α)) (d : Interval α) (ds : List (Interval α)), l = d :: ds →
            Separated l → (∀ i ∈ l, i.Valid) → ∀ y ∈ cover (gaps dmax l), d.s ≤ y := by
          intro l
          induction l with
          | nil => intro d ds h; simp at h
          | cons d' ds' ihl =>
            intro d ds h hsep hval y hy
            obtain ⟨rfl, rfl⟩ := List.cons.inj h
            have vd : d'.s ≤ d'.e := hval d' (by simp)
            cases ds' with
            | nil =>
              simp only [gaps, cover, List.mem_singleton, exists_eq_left, Set.mem_ofPred_eq] at hy
              exact vd.trans hy.1
            | cons g gs =>
              rw [gaps, mem_cover_cons] at hy
              rcases hy with hy | hy
              · exact vd.trans hy.1
              · have h5 := ihl g gs rfl (List.pairwise_cons.1 hsep).2 (fun i hi => hval i (by simp [hi])) y hy
                have h6 := (List.pairwise_cons.1 hsep).1 g (by simp)
                exact vd.trans (h6.le.trans h5)
        have hcov : x ∈ cover (gaps dmax (c :: cs)) → b.e ≤ x := fun h =>
          hbc.le.trans (gl _ c cs rfl hsc hvc x h)
        rw [List.forall_mem_cons]
        simp only [Interval.pts, Set.mem_ofPred_eq]
        constructor
        · rintro (⟨h, -⟩ | h)
          · exact ⟨fun h' => absurd h'.2 (not_lt.2 h), later⟩
          · exact ⟨fun h' => absurd h'.2 (not_lt.2 (hcov h)), later⟩
        · rintro ⟨h, -⟩
          left
          exact ⟨not_lt.1 (fun h' => h ⟨hax, h'⟩), hxc⟩

theorem gaps_lower (dmax : α) : ∀ (l : List (Interval α)) (d : Interval α) (ds : List (Interval α)), l = d :: ds →
    Separated l → (∀ i ∈ l, i.Valid) → ∀ g ∈ gaps dmax l, d.e ≤ g.s := by
  intro l
  induction l with
  | nil => intro d ds h; simp at h
  | cons d' ds' ihl =>
    intro d ds h hsep hval g hg
    obtain ⟨rfl, rfl⟩ := List.cons.inj h
    cases ds' with
    | nil => simp only [gaps, List.mem_singleton] at hg; subst hg; exact le_rfl
    | cons f fs =>
      rw [gaps, List.mem_cons] at hg
      rcases hg with rfl | hg
      · exact le_rfl
      · have h5 := ihl f fs rfl (List.pairwise_cons.1 hsep).2 (fun i hi => hval i (by simp [hi])) g hg
        have h6 := (List.pairwise_cons.1 hsep).1 f (by simp)
        exact h6.le.trans ((show f.s ≤ f.e from hval f (by simp)).trans h5)

theorem gaps_ordered (dmax : α) (l : List (Interval α)) (hs : Separated l) (hv : ∀ i ∈ l, i.Valid) :
    (gaps dmax l).Pairwise (fun a b => a.e ≤ b.s) := by
  induction l with
  | nil => simp [gaps]
  | cons b bs ih =>
    cases bs with
    | nil => simp [gaps]
    | cons c cs =>
      have hs' := (List.pairwise_cons.1 hs).2
      have hv' : ∀ i ∈ c :: cs, i.Valid := fun i hi => hv i (by simp [hi])
      rw [gaps, List.pairwise_cons]
      refine ⟨?_, ih hs' hv'⟩
      intro g hg
      exact (show c.s ≤ c.e from hv' c (by simp)).trans (gaps_lower dmax _ c cs rfl hs' hv' g hg)


/-- The complement against a separated, valid, non-empty list. -/
theorem complements_core (S : StdSort α) (dmin dmax : α) (o a : Interval α)
    (as inner : List (Interval α)) (hlo : dmin ≤ o.s) (hhi : o.e ≤ dmax)
    (hperm : inner.Perm (a :: as)) (hsep : Separated (a :: as)) (hv : ∀ i ∈ a :: as, i.Valid) :
    (∀ x, x ∈ cover ((compOf dmin dmax (a :: as)).filterMap
        (fun curr => (intersects S [curr, o]).head?)) ↔
      x ∈ o.pts ∧ ∀ i ∈ inner, ¬ (i.s < x ∧ x < i.e)) ∧
    (∀ i ∈ (compOf dmin dmax (a :: as)).filterMap
        (fun curr => (intersects S [curr, o]).head?), i.Valid) ∧
    ((compOf dmin dmax (a :: as)).filterMap
        (fun curr => (intersects S [curr, o]).head?)).Pairwise (fun a b => a.e ≤ b.s) := by
  have hva : a.s ≤ a.e := hv a (by simp)
  refine ⟨?_, ?_, ?_⟩
  · intro x
    rw [mem_filterMap_intersects]
    refine and_congr_right fun hxo => ?_
    have hall : (∀ i ∈ inner, ¬ (i.s < x ∧ x < i.e)) ↔ ∀ i ∈ a :: as, ¬ (i.s < x ∧ x < i.e) := by
      simp only [hperm.mem_iff]
    rw [hall, compOf, mem_cover_cons]
    by_cases hax : a.s < x
    · rw [gaps_cover dmax (a :: as) hsep hv x (hxo.2.trans hhi) a as rfl hax]
      constructor
      · rintro (h | h)
        · exact absurd h.2 (not_le.2 hax)
        · exact h
      · exact Or.inr
    · push Not at hax
      constructor
      · intro _ i hi hp
        rcases List.mem_cons.1 hi with hia | hi
        · rw [hia] at hp; exact absurd hp.1 (not_lt.2 hax)
        · have := (List.pairwise_cons.1 hsep).1 i hi
          exact absurd (hva.trans_lt (this.trans hp.1)) (not_lt.2 hax)
      · intro _; left; exact ⟨hlo.trans hxo.1, hax⟩
  · intro i hi
    obtain ⟨c, -, hc⟩ := List.mem_filterMap.1 hi
    exact (intersects_spec S [c, o]).2.1 i (List.mem_of_mem_head? hc)
  · have hc : (compOf dmin dmax (a :: as)).Pairwise (fun a b => a.e ≤ b.s) := by
      rw [compOf, List.pairwise_cons]
      exact ⟨fun g hg => hva.trans (gaps_lower dmax _ a as rfl hsep hv g hg),
        gaps_ordered dmax _ hsep hv⟩
    rw [List.pairwise_filterMap]
    refine hc.imp ?_
    intro c d hcd b hb b' hb'
    have e1 : b.e ≤ c.e := by
      have hbm : b ∈ intersects S [c, o] := List.mem_of_mem_head? hb
      have hbv : b.Valid := (intersects_spec S [c, o]).2.1 b hbm
      have := ((intersects_spec S [c, o]).2.2.1 (by simp) b.e).1 ⟨b, hbm, hbv, le_rfl⟩
      exact (this c (by simp)).2
    have e2 : d.s ≤ b'.s := by
      have hbm : b' ∈ intersects S [d, o] := List.mem_of_mem_head? hb'
      have hbv : b'.Valid := (intersects_spec S [d, o]).2.1 b' hbm
      have := ((intersects_spec S [d, o]).2.2.1 (by simp) b'.s).1 ⟨b', hbm, le_rfl, hbv⟩
      exact (this d (by simp)).1
    exact e1.trans (hcd.trans e2)

end
end Hrm
