import Verif.Lemmas.Table
import Mathlib.Tactic.NormNum
import Mathlib.Algebra.Order.Ring.Rat

/-!
# Properties C06–C12, C59: free segments on sweep lines

`S` ranges over every legal behaviour of `std::sort`; `K` is any linearly ordered field.
-/

namespace Hrm

open Hrm.Interval

/-! ### C06 -/

/-- **C06** The free segments of a sweep line cover exactly the points that lie in every non-NaN arena
interval of the row (there must be at least one) and are not interior points of the union of the
non-NaN obstacle intervals; the segments are valid and increasing. -/
theorem C06_sweep_line_exact {K : Type*} [LinearOrder K] [DenselyOrdered K] (S : StdSort K)
    (dmin dmax : K) (t : Table K) (i : ℕ) (al au ol ou : List (Option K))
    (h : t.RowOk dmin dmax i al au ol ou) :
    ∃ ivs, sweepLineFree S dmin dmax t i = .ok ivs ∧
      (∀ x, x ∈ cover ivs ↔ pairs al au ≠ [] ∧ (∀ iv ∈ pairs al au, x ∈ iv.pts) ∧
        ¬ InteriorPt (pairs ol ou) x) ∧
      (∀ iv ∈ ivs, iv.Valid) ∧ ivs.Pairwise (fun a b => a.e ≤ b.s) :=
  sweepLineFree_spec S dmin dmax t i al au ol ou h

/-- **C06** In particular no free point is strictly inside an obstacle interval of the row. -/
theorem C06_free_avoids_obstacles {K : Type*} [LinearOrder K] [DenselyOrdered K] (S : StdSort K)
    (dmin dmax : K) (t : Table K) (i : ℕ) (al au ol ou : List (Option K))
    (h : t.RowOk dmin dmax i al au ol ou) (ivs : List (Interval K))
    (hok : sweepLineFree S dmin dmax t i = .ok ivs) (x : K) (hx : x ∈ cover ivs)
    (l u : K) (hlu : (some l, some u) ∈ ol.zip ou) : ¬ (l < x ∧ x < u) := by
  obtain ⟨ivs', h1, h2, -⟩ := sweepLineFree_spec S dmin dmax t i al au ol ou h
  rw [hok] at h1
  obtain rfl := (Res.ok.injEq _ _).mp h1
  intro hin
  refine ((h2 x).1 hx).2.2 ⟨l, u, hin.1, hin.2, fun y h3 h4 => ?_⟩
  exact ⟨⟨l, u⟩, mem_pairs.2 hlu, h3, h4⟩

/-- A row with a NaN entry, two arena entries and two overlapping obstacles. -/
def exTable : Table ℚ where
  arenaLow := [[some 0, some (-1)]]
  arenaUpp := [[some 10, some 9]]
  obsLow := [[some 2, none, some 3]]
  obsUpp := [[some 4, none, some 5]]

example : exTable.RowOk (-1000) 1000 0 [some 0, some (-1)] [some 10, some 9]
    [some 2, none, some 3] [some 4, none, some 5] := by
  refine ⟨rfl, rfl, rfl, rfl, rfl, rfl, ?_, ?_⟩
  · intro iv hiv
    simp only [pairs, List.zip_cons_cons, List.zip_nil_right, List.filterMap_cons, List.filterMap_nil,
      List.mem_cons, List.not_mem_nil, or_false] at hiv
    rcases hiv with rfl | rfl <;> norm_num
  · intro iv hiv
    simp only [pairs, List.zip_cons_cons, List.zip_nil_right, List.filterMap_cons, List.filterMap_nil,
      List.mem_cons, List.not_mem_nil, or_false] at hiv
    rcases hiv with rfl | rfl <;> simp [Interval.Valid] <;> norm_num

example : sweepLineFree (StdSort.ins ℚ) (-1000) 1000 exTable 0 = .ok [⟨0, 2⟩, ⟨5, 9⟩] := by
  decide +kernel

/-! ### C07, C08 and C59 -/

variable {K : Type*} [Field K] [LinearOrder K] [IsStrictOrderedRing K]

/-- All `n` lines of the table are usable. -/
def Table.LinesOk (t : Table K) (dmin dmax : K) (n : ℕ) : Prop :=
  ∀ i < n, ∃ al au ol ou, t.RowOk dmin dmax i al au ol ou

/-- **C07/C08** For every list of at least one sweep line, `computeFreeSegment` succeeds and gives one row
per line. In every row the low/middle/upper lists are aligned: equal length, low ≤ middle ≤ upper at
every index, and every triple lies inside one free segment of that very line (the segments of C06).
No original segment is lost: its bounds and its middle are still in the lists. -/
theorem C07_C08_segments_aligned (S : StdSort K) (dmin dmax : K) (t : Table K) (n : ℕ) (hn : 0 < n)
    (h : t.LinesOk dmin dmax n) :
    ∃ rows, computeFreeSegment S dmin dmax t n = .ok rows ∧ rows.length = n ∧
      ∀ i r, rows[i]? = some r → ∃ ivs, sweepLineFree S dmin dmax t i = .ok ivs ∧
        AlignedIn ivs r ∧
        ∀ iv ∈ ivs, iv.s ∈ r.L ∧ (iv.s + iv.e) / 2 ∈ r.M ∧ iv.e ∈ r.U := by
  obtain ⟨ivss, hlen, hfree, hrows⟩ := freeRows_ok S dmin dmax t n (fun i hi => by
    obtain ⟨al, au, ol, ou, hr⟩ := h i hi
    obtain ⟨ivs, h1, -⟩ := sweepLineFree_spec S dmin dmax t i al au ol ou hr
    exact ⟨ivs, h1⟩)
  obtain ⟨xs, rest, rfl⟩ : ∃ xs rest, ivss = xs :: rest := by
    cases ivss with
    | nil => simp at hlen; omega
    | cons xs rest => exact ⟨xs, rest, rfl⟩
  have hprop : ∀ (i : ℕ) (ivs : List (Interval K)), (xs :: rest)[i]? = some ivs →
      (∀ iv ∈ ivs, iv.Valid) ∧ ivs.Pairwise (fun a b => a.e ≤ b.s) := by
    intro i ivs hi
    have hin : i < n := by rw [← hlen]; exact (List.getElem?_eq_some_iff.1 hi).1
    obtain ⟨al, au, ol, ou, hr⟩ := h i hin
    obtain ⟨ivs', h1, -, h3, h4⟩ := sweepLineFree_spec S dmin dmax t i al au ol ou hr
    rw [hfree i ivs hi] at h1
    obtain rfl := (Res.ok.injEq _ _).mp h1
    exact ⟨h3, h4⟩
  have hvalid : ∀ l ∈ xs :: rest, ∀ iv ∈ l, iv.Valid := by
    intro l hl
    obtain ⟨i, hi⟩ := List.mem_iff_getElem?.1 hl
    exact (hprop i l hi).1
  refine ⟨enhancedRows S [] xs rest, ?_, ?_, ?_⟩
  · simp only [computeFreeSegment, hrows, Res.bind_ok]; exact enhance_eq S xs rest
  · rw [enhancedRows_length]; simpa using hlen
  · intro i r hr
    have hi : i < (xs :: rest).length := by
      have := (List.getElem?_eq_some_iff.1 hr).1
      rw [enhancedRows_length] at this; simpa using this
    obtain ⟨Q, q1, -, -, -, q5⟩ := enhancedRows_get S rest [] xs (by simp) hvalid i (xs :: rest)[i]
      (List.getElem?_eq_getElem hi)
    rw [hr, Option.some.injEq] at q5
    obtain ⟨p1, p2⟩ := hprop i _ (List.getElem?_eq_getElem hi)
    refine ⟨_, hfree i _ (List.getElem?_eq_getElem hi), ?_, ?_⟩
    · rw [q5]
      split
      · exact aligned_unsorted mid _ Q (fun iv hiv => mid_mem (p1 iv hiv)) q1
      · exact aligned_sort S.vals mid _ Q (fun iv hiv => mid_mem (p1 iv hiv)) p2 q1
    · intro iv hiv
      have hL : iv.s ∈ (ext (xs :: rest)[i] Q).L := List.mem_append_left _ (List.mem_map_of_mem hiv)
      have hM : (iv.s + iv.e) / 2 ∈ (ext (xs :: rest)[i] Q).M :=
        List.mem_append_left _ (List.mem_map.2 ⟨iv, hiv, rfl⟩)
      have hU : iv.e ∈ (ext (xs :: rest)[i] Q).U := List.mem_append_left _ (List.mem_map_of_mem hiv)
      rw [q5]
      split
      · exact ⟨hL, hM, hU⟩
      · exact ⟨(S.vals.perm _).mem_iff.2 hL, (S.vals.perm _).mem_iff.2 hM,
          (S.vals.perm _).mem_iff.2 hU⟩

/-- **C07** (index form) low ≤ middle ≤ upper at every index, and the three lists have equal length. -/
theorem C07_low_mid_upp (S : StdSort K) (dmin dmax : K) (t : Table K) (n : ℕ)
    (h : t.LinesOk dmin dmax n) (rows : List (SegRow K))
    (hok : computeFreeSegment S dmin dmax t n = .ok rows) (r : SegRow K) (hr : r ∈ rows) :
    r.L.length = r.M.length ∧ r.U.length = r.M.length ∧
    ∀ (k : ℕ) (l m u : K), r.L[k]? = some l → r.M[k]? = some m → r.U[k]? = some u →
      l ≤ m ∧ m ≤ u := by
  have hn : 0 < n := by
    rcases Nat.eq_zero_or_pos n with rfl | h
    · simp [computeFreeSegment, freeRows, enhance] at hok
    · exact h
  obtain ⟨rows', e1, -, e3⟩ := C07_C08_segments_aligned S dmin dmax t n hn h
  rw [hok] at e1
  obtain rfl := (Res.ok.injEq _ _).mp e1
  obtain ⟨i, hi⟩ := List.mem_iff_getElem?.1 hr
  obtain ⟨ivs, -, ⟨T, h1, h2, h3, h4⟩, -⟩ := e3 i r hi
  rw [h1, h2, h3]
  refine ⟨by simp, by simp, ?_⟩
  intro k l m u hl hm hu
  rw [List.getElem?_map] at hl hm hu
  cases hT : T[k]? with
  | none => simp [hT] at hl
  | some tr =>
    rw [hT] at hl hm hu
    simp only [Option.map_some, Option.some.injEq] at hl hm hu
    subst hl hm hu
    have := h4 tr (List.mem_of_getElem? hT)
    exact ⟨this.1, this.2.1⟩

/-- **C08** (point form) Every point between `low_k` and `upper_k` after enhancement is a free point
of that sweep line. -/
theorem C08_enhanced_points_free (S : StdSort K) (dmin dmax : K) (t : Table K) (n : ℕ)
    (h : t.LinesOk dmin dmax n) (rows : List (SegRow K))
    (hok : computeFreeSegment S dmin dmax t n = .ok rows) (i : ℕ) (r : SegRow K)
    (hr : rows[i]? = some r) (al au ol ou : List (Option K))
    (hrow : t.RowOk dmin dmax i al au ol ou)
    (k : ℕ) (l u x : K) (hl : r.L[k]? = some l) (hu : r.U[k]? = some u) (hx : l ≤ x ∧ x ≤ u) :
    (∀ iv ∈ pairs al au, x ∈ iv.pts) ∧ ¬ InteriorPt (pairs ol ou) x := by
  have hn : 0 < n := by
    rcases Nat.eq_zero_or_pos n with rfl | h
    · simp [computeFreeSegment, freeRows, enhance] at hok
    · exact h
  obtain ⟨rows', e1, -, e3⟩ := C07_C08_segments_aligned S dmin dmax t n hn h
  rw [hok] at e1
  obtain rfl := (Res.ok.injEq _ _).mp e1
  obtain ⟨ivs, hf, ⟨T, h1, h2, h3, h4⟩, -⟩ := e3 i r hr
  obtain ⟨ivs', g1, g2, -⟩ := sweepLineFree_spec S dmin dmax t i al au ol ou hrow
  rw [hf] at g1
  obtain rfl := (Res.ok.injEq _ _).mp g1
  rw [h1, List.getElem?_map] at hl
  rw [h3, List.getElem?_map] at hu
  cases hT : T[k]? with
  | none => simp [hT] at hl
  | some tr =>
    rw [hT] at hl hu
    simp only [Option.map_some, Option.some.injEq] at hl hu
    subst hl hu
    obtain ⟨-, -, iv, hiv, a, b⟩ := h4 tr (List.mem_of_getElem? hT)
    exact ((g2 x).1 ⟨iv, hiv, a.trans hx.1, hx.2.trans b⟩).2

/-- **C59** Completeness of the enhancement: if a free segment `x` of line `i` and a free segment `y`
of line `i+1` overlap in their sweep coordinate, then the point of `y` nearest to the middle of `x` is
a vertex coordinate of line `i` and the point of `x` nearest to the middle of `y` is a vertex
coordinate of line `i+1`. -/
theorem C59_enhancement_complete (S : StdSort K) (dmin dmax : K) (t : Table K) (n : ℕ)
    (h : t.LinesOk dmin dmax n) (rows : List (SegRow K))
    (hok : computeFreeSegment S dmin dmax t n = .ok rows) (i : ℕ) (r r' : SegRow K)
    (hr : rows[i]? = some r) (hr' : rows[i + 1]? = some r') (ivs ivs' : List (Interval K))
    (hi : sweepLineFree S dmin dmax t i = .ok ivs)
    (hi' : sweepLineFree S dmin dmax t (i + 1) = .ok ivs')
    (x y : Interval K) (hx : x ∈ ivs) (hy : y ∈ ivs') (hov : x.s ≤ y.e ∧ y.s ≤ x.e) :
    clamp ((x.s + x.e) / 2) y.s y.e ∈ r.M ∧ clamp ((y.s + y.e) / 2) x.s x.e ∈ r'.M := by
  obtain ⟨ivss, hlen, hfree, hrows⟩ := freeRows_ok S dmin dmax t n (fun i hi => by
    obtain ⟨al, au, ol, ou, hr⟩ := h i hi
    obtain ⟨ivs, h1, -⟩ := sweepLineFree_spec S dmin dmax t i al au ol ou hr
    exact ⟨ivs, h1⟩)
  have hn : 0 < n := by
    rcases Nat.eq_zero_or_pos n with rfl | h
    · simp [computeFreeSegment, freeRows, enhance] at hok
    · exact h
  obtain ⟨xs, rest, rfl⟩ : ∃ xs rest, ivss = xs :: rest := by
    cases ivss with
    | nil => simp at hlen; omega
    | cons xs rest => exact ⟨xs, rest, rfl⟩
  have hvalid : ∀ l ∈ xs :: rest, ∀ iv ∈ l, iv.Valid := by
    intro l hl
    obtain ⟨j, hj⟩ := List.mem_iff_getElem?.1 hl
    have hin : j < n := by rw [← hlen]; exact (List.getElem?_eq_some_iff.1 hj).1
    obtain ⟨al, au, ol, ou, hr⟩ := h j hin
    obtain ⟨ivs', h1, -, h3, h4⟩ := sweepLineFree_spec S dmin dmax t j al au ol ou hr
    rw [hfree j l hj] at h1
    obtain rfl := (Res.ok.injEq _ _).mp h1
    exact h3
  have hres : rows = enhancedRows S [] xs rest := by
    have : computeFreeSegment S dmin dmax t n = .ok (enhancedRows S [] xs rest) := by
      simp only [computeFreeSegment, hrows, Res.bind_ok]; exact enhance_eq S xs rest
    rw [hok] at this
    exact (Res.ok.injEq _ _).mp this
  subst hres
  have bound : ∀ j (q : SegRow K), (enhancedRows S [] xs rest)[j]? = some q →
      j < (xs :: rest).length := by
    intro j q hq
    have := (List.getElem?_eq_some_iff.1 hq).1
    rw [enhancedRows_length] at this; simpa using this
  have b1 := bound i r hr
  have b2 := bound (i + 1) r' hr'
  have ei : (xs :: rest)[i]? = some ivs := by
    have := hfree i _ (List.getElem?_eq_getElem b1)
    rw [hi] at this
    rw [List.getElem?_eq_getElem b1, (Res.ok.injEq _ _).mp this]
  have ei' : (xs :: rest)[i + 1]? = some ivs' := by
    have := hfree (i + 1) _ (List.getElem?_eq_getElem b2)
    rw [hi'] at this
    rw [List.getElem?_eq_getElem b2, (Res.ok.injEq _ _).mp this]
  obtain ⟨Q, -, -, q3, -, q5⟩ := enhancedRows_get S rest [] xs (by simp) hvalid i ivs ei
  obtain ⟨Q', -, -, -, q4', q5'⟩ := enhancedRows_get S rest [] xs (by simp) hvalid (i + 1) ivs' ei'
  have hvx : x.Valid := hvalid ivs (List.mem_of_getElem? ei) x hx
  have hvy : y.Valid := hvalid ivs' (List.mem_of_getElem? ei') y hy
  have key : ∀ (a b : Interval K) (zs : List (Interval K)) (R : List K), a.Valid → b.Valid → a ∈ zs →
      a.s ≤ b.e → b.s ≤ a.e → (∀ p ∈ addPt a b, p ∈ R) →
      clamp ((a.s + a.e) / 2) b.s b.e ∈ (ext zs R).M := by
    intro a b zs R hva hvb ha h1 h2 hR
    have hm := mid_mem hva
    change clamp (mid a) b.s b.e ∈ _
    unfold clamp
    unfold addPt at hR
    have hbv : b.s ≤ b.e := hvb
    by_cases c1 : mid a < b.s
    · rw [if_pos ⟨c1, h2⟩] at hR
      rw [min_eq_left (c1.le.trans hbv), max_eq_left c1.le]
      exact List.mem_append_right _ (hR _ (by simp))
    · rw [if_neg (fun h => c1 h.1)] at hR
      push Not at c1
      by_cases c2 : b.e < mid a
      · rw [if_pos ⟨c2, h1⟩] at hR
        rw [min_eq_right c2.le, max_eq_right hbv]
        exact List.mem_append_right _ (hR _ (by simp))
      · push Not at c2
        rw [min_eq_left c2, max_eq_right c1]
        exact List.mem_append_left _ (List.mem_map_of_mem ha)
  have k1 := key x y ivs Q hvx hvy hx hov.1 hov.2 (fun p hp => q3 ivs' ei' x hx y hy p hp)
  have k2 := key y x ivs' Q' hvy hvx hy hov.2 hov.1
    (fun p hp => q4' i ivs rfl ei x hx y hy p hp)
  rw [hr, Option.some.injEq] at q5
  rw [hr', Option.some.injEq] at q5'
  constructor
  · rw [q5]; split
    · exact k1
    · exact (S.vals.perm _).mem_iff.2 k1
  · rw [q5']; split
    · exact k2
    · exact (S.vals.perm _).mem_iff.2 k2

/-- Two lines: `[7,9]` free on the first, `[0,10]` and `[20,30]` on the second. -/
def exTable2 : Table ℚ where
  arenaLow := [[some 7], [some 0]]
  arenaUpp := [[some 9], [some 30]]
  obsLow := [[none], [some 10]]
  obsUpp := [[none], [some 20]]

theorem exTable2_ok : exTable2.LinesOk (-1000) 1000 2 := by
  intro i hi
  have : i = 0 ∨ i = 1 := by omega
  rcases this with rfl | rfl
  · refine ⟨[some 7], [some 9], [none], [none], rfl, rfl, rfl, rfl, rfl, rfl, ?_, ?_⟩
    · intro iv hiv
      simp only [pairs, List.zip_cons_cons, List.zip_nil_right, List.filterMap_cons,
        List.filterMap_nil, List.mem_cons, List.not_mem_nil, or_false] at hiv
      subst hiv; norm_num
    · intro iv hiv; simp [pairs] at hiv
  · refine ⟨[some 0], [some 30], [some 10], [some 20], rfl, rfl, rfl, rfl, rfl, rfl, ?_, ?_⟩
    · intro iv hiv
      simp only [pairs, List.zip_cons_cons, List.zip_nil_right, List.filterMap_cons,
        List.filterMap_nil, List.mem_cons, List.not_mem_nil, or_false] at hiv
      subst hiv; norm_num
    · intro iv hiv
      simp only [pairs, List.zip_cons_cons, List.zip_nil_right, List.filterMap_cons,
        List.filterMap_nil, List.mem_cons, List.not_mem_nil, or_false] at hiv
      subst hiv; simp only [Interval.Valid]; norm_num

example : computeFreeSegment (StdSort.ins ℚ) (-1000) 1000 exTable2 2 =
    .ok [⟨[7], [9], [8]⟩, ⟨[0, 20, 7], [10, 30, 7], [5, 25, 7]⟩] := by decide +kernel

/-! ### C09 -/

/-- The claim C09: all three lists of every row are increasing. -/
def C09_claim (S : StdSort ℚ) : Prop :=
  ∀ (t : Table ℚ) (n : ℕ) (rows : List (SegRow ℚ)), t.LinesOk (-1000) 1000 n →
    computeFreeSegment S (-1000) 1000 t n = .ok rows →
    ∀ r ∈ rows, r.L.Pairwise (· ≤ ·) ∧ r.M.Pairwise (· ≤ ·) ∧ r.U.Pairwise (· ≤ ·)

/-- **C09 is false of the code**: the last row is extended but not sorted. -/
theorem C09_refuted : ¬ C09_claim (StdSort.ins ℚ) := by
  intro h
  have hl := exTable2_ok
  have hc : computeFreeSegment (StdSort.ins ℚ) (-1000) 1000 exTable2 2 =
    .ok [⟨[7], [9], [8]⟩, ⟨[0, 20, 7], [10, 30, 7], [5, 25, 7]⟩] := by decide +kernel
  have := (h exTable2 2 _ hl hc ⟨[0, 20, 7], [10, 30, 7], [5, 25, 7]⟩ (by simp)).1
  norm_num at this

/-- **C09 (partial)** Every row but the last is sorted. Missing: the last row, for which the claim is
false (`C09_refuted`). -/
theorem C09_rows_sorted_partial (S : StdSort K) (dmin dmax : K) (t : Table K) (n : ℕ)
    (h : t.LinesOk dmin dmax n) (rows : List (SegRow K))
    (hok : computeFreeSegment S dmin dmax t n = .ok rows) (i : ℕ) (hi : i + 1 < n) (r : SegRow K)
    (hr : rows[i]? = some r) :
    r.L.Pairwise (· ≤ ·) ∧ r.M.Pairwise (· ≤ ·) ∧ r.U.Pairwise (· ≤ ·) := by
  obtain ⟨ivss, hlen, hfree, hrows⟩ := freeRows_ok S dmin dmax t n (fun i hi => by
    obtain ⟨al, au, ol, ou, hr⟩ := h i hi
    obtain ⟨ivs, h1, -⟩ := sweepLineFree_spec S dmin dmax t i al au ol ou hr
    exact ⟨ivs, h1⟩)
  obtain ⟨xs, rest, rfl⟩ : ∃ xs rest, ivss = xs :: rest := by
    cases ivss with
    | nil => simp at hlen; omega
    | cons xs rest => exact ⟨xs, rest, rfl⟩
  have hvalid : ∀ l ∈ xs :: rest, ∀ iv ∈ l, iv.Valid := by
    intro l hl
    obtain ⟨j, hj⟩ := List.mem_iff_getElem?.1 hl
    have hin : j < n := by rw [← hlen]; exact (List.getElem?_eq_some_iff.1 hj).1
    obtain ⟨al, au, ol, ou, hr⟩ := h j hin
    obtain ⟨ivs', h1, -, h3, h4⟩ := sweepLineFree_spec S dmin dmax t j al au ol ou hr
    rw [hfree j l hj] at h1
    obtain rfl := (Res.ok.injEq _ _).mp h1
    exact h3
  have hres : rows = enhancedRows S [] xs rest := by
    have : computeFreeSegment S dmin dmax t n = .ok (enhancedRows S [] xs rest) := by
      simp only [computeFreeSegment, hrows, Res.bind_ok]; exact enhance_eq S xs rest
    rw [hok] at this
    exact (Res.ok.injEq _ _).mp this
  subst hres
  have hi' : i < (xs :: rest).length := by omega
  obtain ⟨Q, -, -, -, -, q5⟩ := enhancedRows_get S rest [] xs (by simp) hvalid i _
    (List.getElem?_eq_getElem hi')
  rw [hr, Option.some.injEq, if_neg (by simp at hlen; omega)] at q5
  subst q5
  exact ⟨run_sorted _ _, run_sorted _ _, run_sorted _ _⟩

/-! ### C10 -/

/-- **C10** Exact outcome of `computeFreeSegment` in terms of the number `m` of configured rows and
the number `n` of requested lines: undefined behaviour for `n = 0`, `std::out_of_range` for `n > m`,
normal return otherwise. -/
theorem C10_outcome (S : StdSort K) (dmin dmax : K) (t : Table K) (m n : ℕ)
    (hm : t.arenaLow.length = m) (h : t.LinesOk dmin dmax m) :
    (n = 0 → computeFreeSegment S dmin dmax t n = .ub) ∧
    (m < n → computeFreeSegment S dmin dmax t n = .throw) ∧
    (0 < n → n ≤ m → ∃ rows, computeFreeSegment S dmin dmax t n = .ok rows) := by
  refine ⟨?_, ?_, ?_⟩
  · rintro rfl; simp [computeFreeSegment, freeRows, enhance]
  · intro hlt
    unfold computeFreeSegment
    rw [freeRows_throw S dmin dmax t n m hlt (fun i hi => by
      obtain ⟨al, au, ol, ou, hr⟩ := h i hi
      obtain ⟨ivs, h1, -⟩ := sweepLineFree_spec S dmin dmax t i al au ol ou hr
      exact ⟨ivs, h1⟩) hm]
    rfl
  · intro hn hle
    obtain ⟨rows, h1, -⟩ := C07_C08_segments_aligned S dmin dmax t n hn
      (fun i hi => h i (by omega))
    exact ⟨rows, h1⟩

omit [IsStrictOrderedRing K] in
/-- **C10 is false as stated**: the empty list of lines is undefined behaviour, whatever the table. -/
theorem C10_refuted_empty (S : StdSort K) (dmin dmax : K) (t : Table K) :
    computeFreeSegment S dmin dmax t 0 = .ub := by
  simp [computeFreeSegment, freeRows, enhance]

/-! ### C11 -/

/-- The claim C11 for the 2D/3D table filling: on a line whose arena boundary crossings are
`p0, p1`, the recorded arena interval lies between the two crossings. -/
def C11_claim : Prop :=
  ∀ (lowB upB p0 p1 : ℚ) (rest : List ℚ) (l u : ℚ), lowB ≤ upB →
    arenaEntry lowB upB (p0 :: p1 :: rest) = .ok (l, u) → min p0 p1 ≤ l ∧ u ≤ max p0 p1

/-- **C11 is false of the code**: `fmin(lowBound, …)`/`fmax(upBound, …)` widen the interval to the
bounding limits instead of clipping it. -/
theorem C11_refuted : ¬ C11_claim := by
  intro h
  have := h (-10) 10 (-5) 5 [] (-10) 10 (by norm_num) (by decide +kernel)
  norm_num at this

/-- **C11 (partial)** What holds: the recorded arena interval is the hull of the limits and the two
crossings; so free points are confined to the crossings only when the limits lie between them. -/
theorem C11_arena_hull_partial {K : Type*} [LinearOrder K] (lowB upB p0 p1 : K) (rest : List K) :
    ∃ l u, arenaEntry lowB upB (p0 :: p1 :: rest) = .ok (l, u) ∧
      l = min lowB (min p0 p1) ∧ u = max upB (max p0 p1) ∧
      (min p0 p1 ≤ lowB → upB ≤ max p0 p1 → l = min p0 p1 ∧ u = max p0 p1) := by
  refine ⟨_, _, rfl, rfl, rfl, ?_⟩
  intro h1 h2
  exact ⟨min_eq_right h1, max_eq_right h2⟩

/-! ### C12 -/

variable {Line Shape : Type*}

/-- **C12 is false of the code**: after the table is set up for `n ≥ 1` lines and used for them, a
refinement that doubles the number of lines makes `computeIntersectionInterval` throw
`std::out_of_range`, for every environment with at least one arena or obstacle boundary and every
intersection routine (2D or 3D) that does not already run into undefined behaviour. -/
theorem C12_refuted {K : Type*} [LinearOrder K] (isect : Line → Shape → List K) (lowB upB : K)
    (arena obs : List Shape) (n : ℕ) (hn : 0 < n) (hpos : 0 < arena.length + obs.length)
    (ys ys' : List Line) (hys : ys.length = n) (hys' : ys'.length = 2 * n)
    (h1 : ∀ y ∈ ys ++ ys', ∀ sh ∈ arena ++ obs, (isect y sh).length ≠ 1) :
    ∃ t', fillLines isect lowB upB arena obs 0 ys
        (setupTable (emptyTable K) n arena.length obs.length lowB upB) = .ok t' ∧
      fillLines isect lowB upB arena obs 0 ys' t' = .throw := by
  obtain ⟨t', f1, f2, -⟩ := fillLines_ok isect lowB upB arena obs n ys 0 _
    (setup_shape n arena.length obs.length lowB upB) (by omega)
    (fun y hy => h1 y (by simp [hy]))
  exact ⟨t', f1, fillLines_throw isect lowB upB arena obs n ys' 0 t' f2 (by omega) (by omega) hpos
    (fun y hy => h1 y (by simp [hy]))⟩

/-- **C12 (partial)** Up to the configured number of lines filling the table works, any number of
times; each processed row then holds, per boundary, the hull described by C11 (arena) and the
[min,max] of the first two crossings or NaN (obstacles). Missing: more lines than configured. -/
theorem C12_fill_ok_partial {K : Type*} [LinearOrder K] (isect : Line → Shape → List K) (lowB upB : K)
    (arena obs : List Shape) (n : ℕ) (ys : List Line) (t : Table K)
    (ht : t.Shape n arena.length obs.length) (hys : ys.length ≤ n)
    (h1 : ∀ y ∈ ys, ∀ sh ∈ arena ++ obs, (isect y sh).length ≠ 1) :
    ∃ t', fillLines isect lowB upB arena obs 0 ys t = .ok t' ∧
      t'.Shape n arena.length obs.length ∧
      ∀ k y, ys[k]? = some y → FilledRow isect lowB upB arena obs t' k y := by
  obtain ⟨t', f1, f2, f3, -⟩ := fillLines_ok isect lowB upB arena obs n ys 0 t ht (by omega) h1
  exact ⟨t', f1, f2, fun k y hk => by simpa using f3 k y hk⟩

example : (setupTable (emptyTable ℚ) 3 2 4 (-1) 1).Shape 3 2 4 := setup_shape 3 2 4 (-1) 1

end Hrm
