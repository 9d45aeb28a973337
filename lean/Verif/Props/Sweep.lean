import Verif.Props.FreeSpace
import Verif.Props.Polygon
import Verif.Lemmas.Sorted

/-!
# Properties C60–C62: the 2D sweep end to end, coverage and chaining of the enhanced segments
-/

namespace Hrm

open Hrm.Interval

variable {K : Type*} [Field K] [LinearOrder K] [IsStrictOrderedRing K]

/-- The structure of a row after `computeFreeSegment`. -/
theorem row_structure (S : StdSort K) (dmin dmax : K) (t : Table K) (n : ℕ)
    (h : t.LinesOk dmin dmax n) (rows : List (SegRow K))
    (hok : computeFreeSegment S dmin dmax t n = .ok rows) (i : ℕ) (r : SegRow K)
    (hr : rows[i]? = some r) :
    ∃ ivs Q, sweepLineFree S dmin dmax t i = .ok ivs ∧ (∀ iv ∈ ivs, iv.Valid) ∧
      ivs.Pairwise (fun a b => a.e ≤ b.s) ∧ (∀ p ∈ Q, ∃ iv ∈ ivs, iv.s ≤ p ∧ p ≤ iv.e) ∧
      i < n ∧ r = (if i + 1 = n then ext ivs Q else (ext ivs Q).sort S) := by
  have hn : 0 < n := by
    rcases Nat.eq_zero_or_pos n with rfl | h
    · simp [computeFreeSegment, freeRows, enhance] at hok
    · exact h
  obtain ⟨ivss, hlen, hfree, hrows⟩ := freeRows_ok S dmin dmax t n (fun i hi => by
    obtain ⟨al, au, ol, ou, hr⟩ := h i hi
    obtain ⟨ivs, h1, -⟩ := sweepLineFree_spec S dmin dmax t i al au ol ou hr
    exact ⟨ivs, h1⟩)
  obtain ⟨xs, rest, rfl⟩ : ∃ xs rest, ivss = xs :: rest := by
    cases ivss with
    | nil => simp at hlen; omega
    | cons xs rest => exact ⟨xs, rest, rfl⟩
  have hprop : ∀ (i : ℕ) (ivs : List (Interval K)), (xs :: rest)[i]? = some ivs →
      (∀ iv ∈ ivs, iv.Valid) ∧ ivs.Pairwise (fun a b => a.e ≤ b.s) := by
    intro i ivs hi
    have hin : i < n := by rw [← hlen]; exact (List.getElem?_eq_some_iff.1 hi).1
    obtain ⟨al, au, ol, ou, hr⟩ := h i hin
    obtain ⟨ivs', h1, -, h3, h4⟩ := sweepLineFree_spec S dmin dmax t i al au ol ou hr
    rw [hfree i ivs hi] at h1
    obtain rfl := (Res.ok.injEq _ _).mp h1
    exact ⟨h3, h4⟩
  have hres : rows = enhancedRows S [] xs rest := by
    have : computeFreeSegment S dmin dmax t n = .ok (enhancedRows S [] xs rest) := by
      simp only [computeFreeSegment, hrows, Res.bind_ok]; exact enhance_eq S xs rest
    rw [hok] at this
    exact (Res.ok.injEq _ _).mp this
  subst hres
  have hi : i < (xs :: rest).length := by
    have := (List.getElem?_eq_some_iff.1 hr).1
    rw [enhancedRows_length] at this; simpa using this
  obtain ⟨Q, q1, -, -, -, q5⟩ := enhancedRows_get S rest [] xs (by simp)
    (fun l hl => by
      obtain ⟨j, hj⟩ := List.mem_iff_getElem?.1 hl
      exact (hprop j l hj).1) i (xs :: rest)[i] (List.getElem?_eq_getElem hi)
  rw [hr, Option.some.injEq] at q5
  obtain ⟨p1, p2⟩ := hprop i _ (List.getElem?_eq_getElem hi)
  refine ⟨_, Q, hfree i _ (List.getElem?_eq_getElem hi), p1, p2, q1, by omega, ?_⟩
  rw [q5]
  have : (i = rest.length) ↔ (i + 1 = n) := by simp at hlen; omega
  simp only [this]

/-! ### C61 -/

omit [Field K] [IsStrictOrderedRing K] in
theorem cover_sorted (S : SortBy (fun a b : K => a < b)) (ivs : List (Interval K)) (Q : List K)
    (hv : ∀ iv ∈ ivs, iv.Valid) (iv : Interval K) (hiv : iv ∈ ivs) (x : K) (h1 : iv.s ≤ x)
    (h2 : x ≤ iv.e) :
    ∃ (k : ℕ) (l u : K), (S.run (ivs.map (·.s) ++ Q))[k]? = some l ∧
      (S.run (ivs.map (·.e) ++ Q))[k]? = some u ∧ l ≤ x ∧ x ≤ u := by
  set A := S.run (ivs.map (·.s) ++ Q) with hA
  set B := S.run (ivs.map (·.e) ++ Q) with hB
  have lenA : A.length = ivs.length + Q.length := by rw [hA, (S.perm _).length_eq]; simp
  have lenB : B.length = ivs.length + Q.length := by rw [hB, (S.perm _).length_eq]; simp
  have cA : A.countP (fun b => decide (b ≤ x)) =
      ivs.countP (fun iv => decide (iv.s ≤ x)) + Q.countP (fun b => decide (b ≤ x)) := by
    rw [hA, (S.perm _).countP_eq, List.countP_append, List.countP_map]; rfl
  have cB : B.countP (fun b => decide (b < x)) =
      ivs.countP (fun iv => decide (iv.e < x)) + Q.countP (fun b => decide (b < x)) := by
    rw [hB, (S.perm _).countP_eq, List.countP_append, List.countP_map]; rfl
  have hlt : ivs.countP (fun iv => decide (iv.e < x)) < ivs.countP (fun iv => decide (iv.s ≤ x)) := by
    refine countP_lt_of_imp ivs _ _ ?_ iv hiv (by simpa using h1) (by simpa using h2)
    intro a ha h
    simp only [decide_eq_true_eq] at *
    exact (hv a ha).trans h.le
  have hle : Q.countP (fun b => decide (b < x)) ≤ Q.countP (fun b => decide (b ≤ x)) :=
    countP_le_of_imp Q _ _ (fun a _ h => by simp only [decide_eq_true_eq] at *; exact h.le)
  have hcA : A.countP (fun b => decide (b ≤ x)) ≤ A.length := List.countP_le_length
  obtain ⟨k, hk⟩ : ∃ k, A.countP (fun b => decide (b ≤ x)) = k + 1 := by
    cases hc : A.countP (fun b => decide (b ≤ x)) with
    | zero => omega
    | succ k => exact ⟨k, rfl⟩
  have kA : k < A.length := by omega
  have kB : k < B.length := by omega
  refine ⟨k, A[k], B[k], List.getElem?_eq_getElem kA, List.getElem?_eq_getElem kB, ?_, ?_⟩
  · rw [sorted_le_iff (run_sorted S _) x k _ (List.getElem?_eq_getElem kA)]
    rw [← hA]; omega
  · rw [← not_lt, sorted_lt_iff (run_sorted S _) x k _ (List.getElem?_eq_getElem kB)]
    rw [← hB]; omega

/-- **C61** Enhancement loses no free point: every point of every free segment of a sweep line (the
segments of C06) still lies between `low_k` and `upper_k` for some index `k` of that line's row. -/
theorem C61_enhancement_covers (S : StdSort K) (dmin dmax : K) (t : Table K) (n : ℕ)
    (h : t.LinesOk dmin dmax n) (rows : List (SegRow K))
    (hok : computeFreeSegment S dmin dmax t n = .ok rows) (i : ℕ) (r : SegRow K)
    (hr : rows[i]? = some r) (ivs : List (Interval K))
    (hi : sweepLineFree S dmin dmax t i = .ok ivs) (x : K) (hx : x ∈ cover ivs) :
    ∃ (k : ℕ) (l u : K), r.L[k]? = some l ∧ r.U[k]? = some u ∧ l ≤ x ∧ x ≤ u := by
  obtain ⟨ivs', Q, a1, a2, a3, a4, a5, a6⟩ := row_structure S dmin dmax t n h rows hok i r hr
  rw [hi] at a1
  obtain rfl := (Res.ok.injEq _ _).mp a1
  obtain ⟨iv, hiv, h1, h2⟩ := hx
  rw [a6]
  split
  · obtain ⟨k, hk⟩ := List.mem_iff_getElem?.1 hiv
    have hlt := (List.getElem?_eq_some_iff.1 hk).1
    refine ⟨k, iv.s, iv.e, ?_, ?_, h1, h2⟩
    · simp only [ext]
      rw [List.getElem?_append_left (by simpa using hlt), List.getElem?_map, hk]; rfl
    · simp only [ext]
      rw [List.getElem?_append_left (by simpa using hlt), List.getElem?_map, hk]; rfl
  · exact cover_sorted S.vals ivs Q a2 iv hiv x h1 h2

/-! ### C62 -/

/-- **C62** (every line but the last) Two consecutive entries of a row that belong to the same free
segment meet: if `low_{j+1}` is strictly inside a free segment of the line then `upper_j = low_{j+1}`,
so the planner's "connect neighbours on the line" test (gap below 1e-6) links them. -/
theorem C62_consecutive_samples_meet_partial (S : StdSort K) (dmin dmax : K) (t : Table K) (n : ℕ)
    (h : t.LinesOk dmin dmax n) (rows : List (SegRow K))
    (hok : computeFreeSegment S dmin dmax t n = .ok rows) (i : ℕ) (hlast : i + 1 < n)
    (r : SegRow K) (hr : rows[i]? = some r) (ivs : List (Interval K))
    (hi : sweepLineFree S dmin dmax t i = .ok ivs) (j : ℕ) (y : K) (hj : r.L[j + 1]? = some y)
    (iv : Interval K) (hiv : iv ∈ ivs) (h1 : iv.s < y) (h2 : y < iv.e) :
    r.U[j]? = some y := by
  obtain ⟨ivs', Q, a1, a2, a3, a4, a5, a6⟩ := row_structure S dmin dmax t n h rows hok i r hr
  rw [hi] at a1
  obtain rfl := (Res.ok.injEq _ _).mp a1
  rw [if_neg (by omega)] at a6
  subst a6
  simp only [ext, SegRow.sort] at hj ⊢
  set A := S.vals.run (ivs.map (·.s) ++ Q) with hA
  set B := S.vals.run (ivs.map (·.e) ++ Q) with hB
  have lenA : A.length = ivs.length + Q.length := by rw [hA, (S.vals.perm _).length_eq]; simp
  have lenB : B.length = ivs.length + Q.length := by rw [hB, (S.vals.perm _).length_eq]; simp
  have hjlt := (List.getElem?_eq_some_iff.1 hj).1
  have kB : j < B.length := by omega
  have sA := run_sorted S.vals (ivs.map (·.s) ++ Q)
  have sB := run_sorted S.vals (ivs.map (·.e) ++ Q)
  rw [← hA] at sA
  rw [← hB] at sB
  have cA : ∀ p : K → Bool, A.countP p = ivs.countP (fun iv => p iv.s) + Q.countP p := by
    intro p; rw [hA, (S.vals.perm _).countP_eq, List.countP_append, List.countP_map]; rfl
  have cB : ∀ p : K → Bool, B.countP p = ivs.countP (fun iv => p iv.e) + Q.countP p := by
    intro p; rw [hB, (S.vals.perm _).countP_eq, List.countP_append, List.countP_map]; rfl
  have e1 : ivs.countP (fun iv => decide (iv.s < y)) = ivs.countP (fun iv => decide (iv.e < y)) + 1 := by
    refine countP_eq_succ ivs _ _ _ a3 ?_ iv hiv (by simpa using h1) (by simpa using h2.le) ?_
    · intro a ha h; simp only [decide_eq_true_eq] at *; exact (a2 a ha).trans_lt h
    · rintro a ha c hc hac ⟨⟨-, h3⟩, h4, -⟩
      simp only [decide_eq_true_eq, decide_eq_false_iff_not, not_lt] at h3 h4
      exact absurd (h3.trans hac) (not_le.2 h4)
  have e2 : ivs.countP (fun iv => decide (iv.s ≤ y)) = ivs.countP (fun iv => decide (iv.e ≤ y)) + 1 := by
    refine countP_eq_succ ivs _ _ _ a3 ?_ iv hiv (by simpa using h1.le) (by simpa using h2) ?_
    · intro a ha h; simp only [decide_eq_true_eq] at *; exact (a2 a ha).trans h
    · rintro a ha c hc hac ⟨⟨-, h3⟩, h4, -⟩
      simp only [decide_eq_true_eq, decide_eq_false_iff_not, not_le] at h3 h4
      exact absurd (h3.trans_le hac) (not_lt.2 h4)
  have f1 := (sorted_lt_iff sA y (j + 1) y hj).not.1 (lt_irrefl y)
  have f2 := (sorted_le_iff sA y (j + 1) y hj).1 le_rfl
  have g1 := sorted_lt_iff sB y j B[j] (List.getElem?_eq_getElem kB)
  have g2 := sorted_le_iff sB y j B[j] (List.getElem?_eq_getElem kB)
  rw [cA] at f1 f2
  rw [cB] at g1 g2
  have hle : B[j] ≤ y := g2.2 (by omega)
  have hge : y ≤ B[j] := not_lt.1 (fun h => by have := g1.1 h; omega)
  rw [List.getElem?_eq_getElem kB, le_antisymm hle hge]

/-- The claim C62 for all rows. -/
def C62_claim (S : StdSort ℚ) : Prop :=
  ∀ (t : Table ℚ) (n : ℕ) (rows : List (SegRow ℚ)), t.LinesOk (-1000) 1000 n →
    computeFreeSegment S (-1000) 1000 t n = .ok rows →
    ∀ (i : ℕ) (r : SegRow ℚ) (ivs : List (Interval ℚ)), rows[i]? = some r →
      sweepLineFree S (-1000) 1000 t i = .ok ivs →
      ∀ (j : ℕ) (y : ℚ), r.L[j + 1]? = some y → ∀ iv ∈ ivs, iv.s < y → y < iv.e → r.U[j]? = some y

/-- **C62 is false of the last (unsorted) row**: there the added sample of segment [0,10] is stored
after segment [20,30], so the samples of one free segment are not linked along the line. -/
theorem C62_refuted_last_row : ¬ C62_claim (StdSort.ins ℚ) := by
  intro h
  have hc : computeFreeSegment (StdSort.ins ℚ) (-1000) 1000 exTable2 2 =
    .ok [⟨[7], [9], [8]⟩, ⟨[0, 20, 7], [10, 30, 7], [5, 25, 7]⟩] := by decide +kernel
  have := h exTable2 2 _ exTable2_ok hc 1 _ [⟨0, 10⟩, ⟨20, 30⟩] rfl (by decide +kernel) 1 7 rfl
    ⟨0, 10⟩ (by simp) (by norm_num) (by norm_num)
  norm_num at this

/-! ### C60 -/

/-- The whole 2D pipeline for one slice: set up the table, intersect every sweep line with every
boundary (FreeSpace2D.cpp:14-50), compute the free segments (FreeSpace-inl.h:63-97). -/
def sweep2D (S : StdSort K) (dmin dmax lowB upB : K) (arena obs : List (List (Pt K))) (ys : List K) :
    Res (List (SegRow K)) := do
  let t ← fillLines isect2D lowB upB arena obs 0 ys
    (setupTable (emptyTable K) ys.length arena.length obs.length lowB upB)
  computeFreeSegment S dmin dmax t ys.length

theorem isect2D_length_ne_one (y : K) (sh : List (Pt K)) : (isect2D y sh).length ≠ 1 := by
  by_cases hne : sh = []
  · subst hne; simp [isect2D, horizLinePolygon]
  · obtain ⟨l, h1, -, h2, -⟩ := C13_horizontal_line_polygon y sh hne
    unfold isect2D; rw [h1]; exact h2

theorem isect2D_bounds (y : K) (sh : List (Pt K)) (dmin dmax : K)
    (hb : ∀ v ∈ sh, dmin ≤ v.1 ∧ v.1 ≤ dmax) (x : K) (hx : x ∈ isect2D y sh) :
    dmin ≤ x ∧ x ≤ dmax := by
  by_cases hne : sh = []
  · subst hne; simp [isect2D, horizLinePolygon] at hx
  · obtain ⟨l, h1, h2, -⟩ := C13_horizontal_line_polygon y sh hne
    unfold isect2D at hx; rw [h1] at hx
    obtain ⟨e, he, ho⟩ := h2 x hx
    have hm := onEdge_mem_region he ho
    have a := region_le sh 1 0 dmax (fun v hv => by have := (hb v hv).2; linarith) _ hm
    have b := region_le sh (-1) 0 (-dmin) (fun v hv => by have := (hb v hv).1; linarith) _ hm
    simp at a b
    exact ⟨b, a⟩

/-- Rows filled by the 2D routine are usable. -/
theorem filled_rowOk (dmin dmax lowB upB : K) (hlow : dmin ≤ lowB) (hup : upB ≤ dmax)
    (arena obs : List (List (Pt K))) (t : Table K) (i : ℕ) (y : K)
    (hb : ∀ sh ∈ arena, ∀ v ∈ sh, dmin ≤ v.1 ∧ v.1 ≤ dmax)
    (hf : FilledRow isect2D lowB upB arena obs t i y) :
    t.RowOk dmin dmax i (arena.map fun sh => some (arenaVal lowB upB (isect2D y sh)).1)
      (arena.map fun sh => some (arenaVal lowB upB (isect2D y sh)).2)
      (obs.map fun sh => (obsVal (isect2D y sh)).1)
      (obs.map fun sh => (obsVal (isect2D y sh)).2) := by
  obtain ⟨f1, f2, f3, f4⟩ := hf
  refine ⟨f1, f2, f3, f4, by simp, by simp, ?_, ?_⟩
  · intro iv hiv
    rw [mem_pairs, List.zip_map', List.mem_map] at hiv
    obtain ⟨sh, hsh, he⟩ := hiv
    simp only [Prod.mk.injEq, Option.some.injEq] at he
    rw [← he.1, ← he.2]
    have hbd := isect2D_bounds y sh dmin dmax (hb sh hsh)
    match hm : isect2D y sh with
    | [] => exact ⟨hlow, hup⟩
    | [p] => exact ⟨hlow, hup⟩
    | p0 :: p1 :: rest =>
      rw [hm] at hbd
      simp only [arenaVal]
      refine ⟨le_min hlow (le_min (hbd p0 (by simp)).1 (hbd p1 (by simp)).1),
        max_le hup (max_le (hbd p0 (by simp)).2 (hbd p1 (by simp)).2)⟩
  · intro iv hiv
    rw [mem_pairs, List.zip_map', List.mem_map] at hiv
    obtain ⟨sh, hsh, he⟩ := hiv
    match hm : isect2D y sh with
    | [] => simp [hm, obsVal] at he
    | [p] => simp [hm, obsVal] at he
    | p0 :: p1 :: rest =>
      simp only [hm, obsVal, Prod.mk.injEq, Option.some.injEq] at he
      unfold Interval.Valid
      rw [← he.1, ← he.2]
      exact min_le_max

/-- **C60** The 2D sweep end to end, for any number of sweep lines, arenas and convex C-obstacles, when
no sweep line passes exactly through an obstacle vertex: the computation succeeds with one row per
line, and
* *sound*: a point between `low_k` and `upper_k` on line `y` is never strictly inside the slice of an
  obstacle at that height;
* *complete*: a point of the line within the limits that is in no obstacle lies between some `low_k`
  and `upper_k`. -/
theorem C60_sweep2D_exact (S : StdSort K) (dmin dmax lowB upB : K) (hlow : dmin ≤ lowB)
    (hup : upB ≤ dmax) (arena obs : List (List (Pt K))) (ys : List K)
    (hys : ys ≠ []) (harena : arena ≠ [])
    (hb : ∀ sh ∈ arena, ∀ v ∈ sh, dmin ≤ v.1 ∧ v.1 ≤ dmax)
    (hcv : ∀ sh ∈ obs, sh ≠ [] ∧ ConvexPolygon sh)
    (hv : ∀ sh ∈ obs, ∀ y ∈ ys, ∀ v ∈ sh, v.2 ≠ y) :
    ∃ rows, sweep2D S dmin dmax lowB upB arena obs ys = .ok rows ∧ rows.length = ys.length ∧
      ∀ (i : ℕ) (y : K) (r : SegRow K), ys[i]? = some y → rows[i]? = some r →
        (∀ (k : ℕ) (l u x : K), r.L[k]? = some l → r.U[k]? = some u → l ≤ x → x ≤ u →
          ∀ sh ∈ obs, ¬ ∃ x1 x2, x1 < x ∧ x < x2 ∧ (x1, y) ∈ region sh ∧ (x2, y) ∈ region sh) ∧
        (∀ x, lowB ≤ x → x ≤ upB → (∀ sh ∈ obs, (x, y) ∉ region sh) →
          ∃ (k : ℕ) (l u : K), r.L[k]? = some l ∧ r.U[k]? = some u ∧ l ≤ x ∧ x ≤ u) := by
  obtain ⟨t, f1, -, f3, -⟩ := fillLines_ok isect2D lowB upB arena obs ys.length ys 0 _
    (setup_shape ys.length arena.length obs.length lowB upB) (by omega)
    (fun y _ sh _ => isect2D_length_ne_one y sh)
  have f3' : ∀ k y, ys[k]? = some y → FilledRow isect2D lowB upB arena obs t k y :=
    fun k y hk => by simpa using f3 k y hk
  have rowok := fun k y hk => filled_rowOk dmin dmax lowB upB hlow hup arena obs t k y hb (f3' k y hk)
  have hlines : t.LinesOk dmin dmax ys.length := by
    intro i hi
    exact ⟨_, _, _, _, rowok i ys[i] (List.getElem?_eq_getElem hi)⟩
  obtain ⟨rows, r1, r2, -⟩ := C07_C08_segments_aligned S dmin dmax t ys.length
    (List.length_pos_iff.2 hys) hlines
  refine ⟨rows, ?_, r2, ?_⟩
  · simp only [sweep2D, f1, Res.bind_ok]; exact r1
  intro i y r hy hr
  have hym := List.mem_of_getElem? hy
  have hro := rowok i y hy
  constructor
  · intro k l u x hl hu hx1 hx2 sh hsh
    rintro ⟨x1, x2, h1, h2, m1, m2⟩
    obtain ⟨-, hfree⟩ := C08_enhanced_points_free S dmin dmax t ys.length hlines rows r1 i r hr
      _ _ _ _ hro k l u x hl hu ⟨hx1, hx2⟩
    apply hfree
    rcases slice_exact y sh (hcv sh hsh).1 (hcv sh hsh).2 (hv sh hsh y hym) with
      ⟨-, h0⟩ | ⟨p0, p1, rest, hp, hs⟩
    · exact absurd m1 (h0 x1)
    · obtain ⟨a1, -⟩ := (hs x1).1 m1
      obtain ⟨-, b2⟩ := (hs x2).1 m2
      refine ⟨x1, x2, h1, h2, fun z hz1 hz2 => ⟨⟨min p0 p1, max p0 p1⟩, ?_, a1.trans hz1, hz2.trans b2⟩⟩
      rw [mem_pairs, List.zip_map', List.mem_map]
      exact ⟨sh, hsh, by simp [hp, obsVal]⟩
  · intro x hx1 hx2 hout
    obtain ⟨ivs, s1, s2, -⟩ := sweepLineFree_spec S dmin dmax t i _ _ _ _ hro
    refine C61_enhancement_covers S dmin dmax t ys.length hlines rows r1 i r hr ivs s1 x ?_
    rw [s2]
    refine ⟨?_, ?_, ?_⟩
    · cases arena with
      | nil => exact absurd rfl harena
      | cons a as => simp [pairs]
    · intro iv hiv
      rw [mem_pairs, List.zip_map', List.mem_map] at hiv
      obtain ⟨sh, hsh, he⟩ := hiv
      simp only [Prod.mk.injEq, Option.some.injEq] at he
      match hm : isect2D y sh with
      | [] => rw [hm] at he; exact ⟨he.1 ▸ hx1, he.2 ▸ hx2⟩
      | [p] => rw [hm] at he; exact ⟨he.1 ▸ hx1, he.2 ▸ hx2⟩
      | p0 :: p1 :: rest =>
        rw [hm] at he
        simp only [arenaVal] at he
        exact ⟨he.1 ▸ (min_le_left _ _).trans hx1, he.2 ▸ hx2.trans (le_max_left _ _)⟩
    · rintro ⟨a, b, ha, hb', hall⟩
      obtain ⟨iv, hiv, c1, c2⟩ := hall x ha.le hb'.le
      rw [mem_pairs, List.zip_map', List.mem_map] at hiv
      obtain ⟨sh, hsh, he⟩ := hiv
      rcases slice_exact y sh (hcv sh hsh).1 (hcv sh hsh).2 (hv sh hsh y hym) with
        ⟨h0, -⟩ | ⟨p0, p1, rest, hp, hs⟩
      · rw [h0] at he; simp [obsVal] at he
      · rw [hp] at he
        simp only [obsVal, Prod.mk.injEq, Option.some.injEq] at he
        exact hout sh hsh ((hs x).2 ⟨he.1 ▸ c1, he.2 ▸ c2⟩)

/-- A concrete run: a square arena, the pentagon as obstacle, three sweep lines. -/
example : sweep2D (StdSort.ins ℚ) (-1000) 1000 (-10) 10 [[(-10, -10), (10, -10), (10, 10), (-10, 10)]]
    [exPoly] [1, 2, 6] = .ok [
      ⟨[-10, 13 / 3], [-1 / 3, 10], [-31 / 6, 43 / 6]⟩,
      ⟨[-10, 14 / 3], [-2 / 3, 10], [-16 / 3, 22 / 3]⟩,
      ⟨[-10, -2 / 3, 14 / 3], [10, -2 / 3, 14 / 3], [0, -2 / 3, 14 / 3]⟩] := by
  decide +kernel

/-- With the lines in another order the first row is extended and sorted, and its consecutive samples
meet (`U_0 = L_1`, `U_1 = L_2`, as C62 states); in the last row they do not (C62 is only for the other
rows). -/
example : sweep2D (StdSort.ins ℚ) (-1000) 1000 (-10) 10 [[(-10, -10), (10, -10), (10, 10), (-10, 10)]]
    [exPoly] [6, 2] = .ok [
      ⟨[-10, -2 / 3, 14 / 3], [-2 / 3, 14 / 3, 10], [-2 / 3, 0, 14 / 3]⟩,
      ⟨[-10, 14 / 3], [-2 / 3, 10], [-16 / 3, 22 / 3]⟩] := by
  decide +kernel

/-- The hypotheses of C60 hold for these data. -/
example : (∀ sh ∈ [exPoly], sh ≠ [] ∧ ConvexPolygon sh) ∧
    (∀ sh ∈ [exPoly], ∀ y ∈ [(1 : ℚ), 2, 6], ∀ v ∈ sh, v.2 ≠ y) := by decide +kernel

/-! The end-to-end claim for the point test used by the multi-slice check. -/

/-- **C60b** `isPtInCFree` in 2D: for convex boundaries with no vertex at the height of the point, the
test returns normally, and it returns false exactly when the point is strictly inside the slice of some
boundary at that height. -/
theorem C60_point_in_cfree (v : Pt K) (bounds : List (List (Pt K)))
    (hcv : ∀ sh ∈ bounds, sh ≠ [] ∧ ConvexPolygon sh)
    (hv : ∀ sh ∈ bounds, ∀ w ∈ sh, w.2 ≠ v.2) :
    ∃ b, isPtInCFree2D v bounds = .ok b ∧
      (b = false ↔ ∃ sh ∈ bounds, ∃ x1 x2, x1 < v.1 ∧ v.1 < x2 ∧ (x1, v.2) ∈ region sh ∧
        (x2, v.2) ∈ region sh) := by
  induction bounds with
  | nil => exact ⟨true, rfl, by simp⟩
  | cons sh bs ih =>
    obtain ⟨b, e1, e2⟩ := ih (fun s hs => hcv s (by simp [hs])) (fun s hs => hv s (by simp [hs]))
    obtain ⟨hne, hc⟩ := hcv sh (by simp)
    have hpt : ∃ c, ptInObs2D v sh = .ok c ∧ (c = true ↔ ∃ x1 x2, x1 < v.1 ∧ v.1 < x2 ∧
        (x1, v.2) ∈ region sh ∧ (x2, v.2) ∈ region sh) := by
      obtain ⟨l, hl, -⟩ := C13_horizontal_line_polygon v.2 sh hne
      have hl' : isect2D v.2 sh = l := by unfold isect2D; rw [hl]
      rcases slice_exact v.2 sh hne hc (hv sh (by simp)) with ⟨h0, h1⟩ | ⟨p0, p1, rest, h0, h1⟩
      · rw [hl'] at h0; subst h0
        refine ⟨false, by simp [ptInObs2D, hl], by simp; intro x1 _ x2 _ hm; exact absurd hm (h1 x1)⟩
      · rw [hl'] at h0; subst h0
        refine ⟨_, by simp [ptInObs2D, hl, Res.idx]; rfl, ?_⟩
        simp only [Bool.and_eq_true, Bool.or_eq_true, decide_eq_true_eq]
        constructor
        · rintro ⟨a, b⟩
          refine ⟨min p0 p1, max p0 p1, ?_, ?_, (h1 _).2 ⟨le_rfl, min_le_max⟩,
            (h1 _).2 ⟨min_le_max, le_rfl⟩⟩
          · rcases a with a | a
            · exact (min_le_left _ _).trans_lt a
            · exact (min_le_right _ _).trans_lt a
          · rcases b with b | b
            · exact b.trans_le (le_max_left _ _)
            · exact b.trans_le (le_max_right _ _)
        · rintro ⟨x1, x2, a, b, m1, m2⟩
          have c1 := ((h1 x1).1 m1).1.trans_lt a
          have c2 := b.trans_le ((h1 x2).1 m2).2
          exact ⟨min_lt_iff.1 c1, lt_max_iff.1 c2⟩
    obtain ⟨c, c1, c2⟩ := hpt
    cases c with
    | true =>
      refine ⟨false, by simp [isPtInCFree2D, c1], ?_⟩
      simp only [true_iff]
      exact ⟨sh, by simp, c2.1 rfl⟩
    | false =>
      refine ⟨b, by simp [isPtInCFree2D, c1, e1], ?_⟩
      rw [e2]
      constructor
      · rintro ⟨s, hs, h⟩; exact ⟨s, by simp [hs], h⟩
      · rintro ⟨s, hs, h⟩
        rcases List.mem_cons.1 hs with rfl | hs
        · exact absurd (c2.2 h) (by simp)
        · exact ⟨s, hs, h⟩

example : isPtInCFree2D ((2, 1) : Pt ℚ) [diamond.map (fun p => (p.1 + 9, p.2)), exPoly] = .ok false ∧
    isPtInCFree2D ((-2, 1) : Pt ℚ) [exPoly] = .ok true := by decide +kernel

end Hrm
