import Verif.Spec.Csv
import Verif.Lemmas.Planner3D
import Mathlib.Tactic

/-!
# Properties of the CSV reader and writers
-/

namespace Hrm

/-! ## Reading pieces -/

theorem readAll_nil (d : Char) : readAll d [] = [] := by
  rw [readAll]; rfl

theorem readAll_last {d : Char} {s : List Char} (hs : s ≠ []) (h : ∀ c ∈ s, c ≠ d) : readAll d s = [s] := by
  have h1 : s.takeWhile (fun x => decide (x ≠ d)) = s := by
    clear hs
    induction s with
    | nil => rfl
    | cons c s ih =>
      rw [List.takeWhile_cons_of_pos (by simpa using h c (by simp)), ih fun c hc => h c (by simp [hc])]
  have h2 : s.dropWhile (fun x => decide (x ≠ d)) = [] := by
    clear hs h1
    induction s with
    | nil => rfl
    | cons c s ih =>
      rw [List.dropWhile_cons_of_pos (by simpa using h c (by simp)), ih fun c hc => h c (by simp [hc])]
  rw [readAll]
  have : getline d s = some (s, []) := by
    unfold getline
    rw [if_neg hs, h1, h2]; rfl
  split
  · rename_i e; rw [this] at e; exact nomatch e
  · rename_i e
    rw [this] at e
    obtain ⟨rfl, rfl⟩ := Prod.mk.inj (Option.some.inj e)
    rw [readAll_nil]

theorem readAll_cons {d : Char} {s : List Char} (h : ∀ c ∈ s, c ≠ d) (t : List Char) :
    readAll d (s ++ d :: t) = s :: readAll d t := by
  have h1 : (s ++ d :: t).takeWhile (fun x => decide (x ≠ d)) = s := by
    rw [List.takeWhile_append_of_pos (by simpa using h)]
    simp
  have h2 : (s ++ d :: t).dropWhile (fun x => decide (x ≠ d)) = d :: t := by
    rw [List.dropWhile_append_of_pos (by simpa using h)]
    simp
  rw [readAll]
  have : getline d (s ++ d :: t) = some (s, t) := by
    unfold getline
    rw [if_neg (by simp), h1, h2]; rfl
  split
  · rename_i e; rw [this] at e; exact nomatch e
  · rename_i e
    rw [this] at e
    obtain ⟨rfl, rfl⟩ := Prod.mk.inj (Option.some.inj e)
    rfl

theorem readAll_joinLines {lines : List (List Char)} (h : ∀ l ∈ lines, ∀ c ∈ l, c ≠ '\n') :
    readAll '\n' (joinLines lines) = lines := by
  induction lines with
  | nil => exact readAll_nil _
  | cons l ls ih =>
    have e : joinLines (l :: ls) = l ++ '\n' :: joinLines ls := by simp [joinLines]
    rw [e, readAll_cons (h l (by simp)), ih fun l' hl => h l' (by simp [hl])]

/-- Reading the fields of a line; an empty last field is lost. -/
theorem readAll_joinFields {fs : List (List Char)} (h : ∀ f ∈ fs, ∀ c ∈ f, c ≠ ',') :
    readAll ',' (joinFields fs) = fs ∨ fs = readAll ',' (joinFields fs) ++ [[]] := by
  induction fs with
  | nil => exact Or.inl (readAll_nil _)
  | cons f fs ih =>
    cases fs with
    | nil =>
      simp only [joinFields]
      by_cases hf : f = []
      · subst hf
        right; rw [readAll_nil]; rfl
      · exact Or.inl (readAll_last hf (h f (by simp)))
    | cons g l =>
      simp only [joinFields]
      rw [readAll_cons (h f (by simp))]
      rcases ih (fun f' hf => h f' (by simp [hf])) with e | e
      · left; rw [e]
      · right; rw [List.cons_append, ← e]

open Classical in
theorem parseFields_eq {stof : List Char → Scan} (fs : List (List Char)) (acc : List ℝ) :
    fs.foldlM (parseField stof) acc =
      if ∃ f ∈ fs, stof f = .range then Res.throw else Res.ok (acc ++ fs.filterMap fun f => (stof f).toOption) := by
  induction fs generalizing acc with
  | nil => simp
  | cons f fs ih =>
    rw [List.foldlM_cons]
    unfold parseField
    cases hf : stof f with
    | range => simp [hf]
    | val v =>
      change fs.foldlM (parseField stof) (acc ++ [v]) = _
      rw [ih]
      simp [hf, Scan.toOption]
    | invalid =>
      change fs.foldlM (parseField stof) acc = _
      rw [ih]
      simp [hf, Scan.toOption]

theorem parseCsv_some (stof : List Char → Scan) (text : List Char) :
    parseCsv stof (some text) = (readAll '\n' text).foldlM (parseLine stof) [] := rfl

theorem Scan.toOption_val (v : ℝ) : (Scan.val v).toOption = some v := rfl

theorem parseLines_ok {stof : List Char → Scan} {lines : List (List Char)} (acc : List (List ℝ))
    (h : ∀ l ∈ lines, l.head? ≠ some '#' → ∀ f ∈ readAll ',' l, stof f ≠ .range) :
    lines.foldlM (parseLine stof) acc = .ok (acc ++ ((lines.filter fun l => decide (l.head? ≠ some '#')).map fun l =>
      (readAll ',' l).filterMap fun f => (stof f).toOption)) := by
  induction lines generalizing acc with
  | nil => simp
  | cons l ls ih =>
    rw [List.foldlM_cons]
    unfold parseLine
    by_cases hl : l.head? = some '#'
    · rw [if_pos hl]
      change ls.foldlM (parseLine stof) acc = _
      rw [ih _ fun l' h' => h l' (by simp [h'])]
      simp [hl]
    · rw [if_neg hl, parseFields_eq, if_neg]
      · change ls.foldlM (parseLine stof) (acc ++ [_]) = _
        rw [ih _ fun l' h' => h l' (by simp [h'])]
        simp [hl]
      · push Not
        exact h l (by simp) hl

/-! ## C50 – lines and columns -/

/-- C50, as a user would state it: if a file is read without an error then column `k` of row `i` is the number in field
`k` of line `i`. -/
def C50_claim : Prop :=
  ∀ (stof : List Char → Scan) (_ : StofOk stof) (rows : List (List (List Char)))
    (_ : ∀ fs ∈ rows, ∀ f ∈ fs, ∀ c ∈ f, c ≠ ',' ∧ c ≠ '\n' ∧ c ≠ '#') (data : List (List ℝ))
    (_ : parseCsv stof (some (joinLines (rows.map joinFields))) = .ok data)
    (i k : ℕ) (fs : List (List Char)) (f : List Char) (v : ℝ), rows[i]? = some fs → fs[k]? = some f → stof f = .val v →
    ∃ r, data[i]? = some r ∧ r[k]? = some v

theorem joinFields_mem {fs : List (List Char)} {c : Char} (h : c ∈ joinFields fs) : c = ',' ∨ ∃ f ∈ fs, c ∈ f := by
  induction fs with
  | nil => exact absurd h (by simp [joinFields])
  | cons f fs ih =>
    cases fs with
    | nil => exact Or.inr ⟨f, by simp, h⟩
    | cons g l =>
      simp only [joinFields, List.mem_append, List.mem_cons] at h
      rcases h with h | h | h
      · exact Or.inr ⟨f, by simp, h⟩
      · exact Or.inl h
      · rcases ih h with h | ⟨f', h1, h2⟩
        · exact Or.inl h
        · exact Or.inr ⟨f', by simp [h1], h2⟩

theorem readAll_fields_filterMap {stof : List Char → Scan} (hs : StofOk stof) {fs : List (List Char)}
    (h : ∀ f ∈ fs, ∀ c ∈ f, c ≠ ',') :
    ((readAll ',' (joinFields fs)).filterMap fun f => (stof f).toOption) = fs.filterMap fun f => (stof f).toOption := by
  rcases readAll_joinFields h with e | e
  · rw [e]
  · conv_rhs => rw [e]
    simp [hs.empty, Scan.toOption]

/-- C50, the part that holds, and an exact description of the reader: for every file (a list of lines, each a list of
fields) in which no number is out of the range of `float`, the reader returns one row per line that is not a comment,
in order; row `i` consists of the numbers of the fields of its line, in order, *without the fields that are no number*.
So column `k` is field `k` exactly when the fields before it are all numbers. -/
theorem C50_rows_partial (stof : List Char → Scan) (hs : StofOk stof) (rows : List (List (List Char)))
    (hsep : ∀ fs ∈ rows, ∀ f ∈ fs, ∀ c ∈ f, c ≠ ',' ∧ c ≠ '\n') (hr : ∀ fs ∈ rows, ∀ f ∈ fs, stof f ≠ .range) :
    parseCsv stof (some (joinLines (rows.map joinFields))) =
      .ok ((rows.filter fun fs => decide ((joinFields fs).head? ≠ some '#')).map fun fs =>
        fs.filterMap fun f => (stof f).toOption) := by
  have h1 : ∀ l ∈ rows.map joinFields, ∀ c ∈ l, c ≠ '\n' := by
    intro l hl c hc
    obtain ⟨fs, hfs, rfl⟩ := List.mem_map.1 hl
    rcases joinFields_mem hc with rfl | ⟨f, hf, hcf⟩
    · decide
    · exact (hsep fs hfs f hf c hcf).2
  have hc : ∀ fs ∈ rows, ∀ f ∈ fs, ∀ c ∈ f, c ≠ ',' := fun fs h1 f h2 c h3 => (hsep fs h1 f h2 c h3).1
  rw [parseCsv_some, readAll_joinLines h1, parseLines_ok]
  · rw [List.nil_append, List.filter_map, List.map_map]
    congr 1
    apply List.map_congr_left
    intro fs hfs
    have hfs := (List.mem_filter.1 hfs).1
    exact readAll_fields_filterMap hs (hc fs hfs)
  · intro l hl _ f hf
    obtain ⟨fs, hfs, rfl⟩ := List.mem_map.1 hl
    have : f ∈ fs := by
      rcases readAll_joinFields (hc fs hfs) with e | e
      · rw [e] at hf; exact hf
      · rw [e]; simp [hf]
    exact hr fs hfs f this

/-- C50: when all fields of a line are numbers, its columns are its fields. -/
theorem C50_numeric_columns (stof : List Char → Scan) (fs : List (List Char)) (vs : List ℝ) (hl : fs.length = vs.length)
    (h : ∀ (k : ℕ) (f : List Char) (v : ℝ), fs[k]? = some f → vs[k]? = some v → stof f = .val v) :
    (fs.filterMap fun f => (stof f).toOption) = vs := by
  induction fs generalizing vs with
  | nil => simp at hl; simp [List.length_eq_zero_iff.1 hl.symm]
  | cons f fs ih =>
    cases vs with
    | nil => simp at hl
    | cons v vs =>
      rw [List.filterMap_cons, h 0 f v rfl rfl, Scan.toOption_val]
      dsimp only
      rw [ih vs (by simpa using hl) fun k f' v' h1 h2 => h (k + 1) f' v' h1 h2]

/-- C50: one number out of the range of `float` anywhere in a line that is no comment, and nothing at all is returned:
the exception is not caught. -/
theorem C50_out_of_range_throws (stof : List Char → Scan) (hs : StofOk stof) (rows : List (List (List Char)))
    (hsep : ∀ fs ∈ rows, ∀ f ∈ fs, ∀ c ∈ f, c ≠ ',' ∧ c ≠ '\n') (fs : List (List Char)) (hfs : fs ∈ rows)
    (hcom : (joinFields fs).head? ≠ some '#') (f : List Char) (hf : f ∈ fs) (hr : stof f = .range) :
    parseCsv stof (some (joinLines (rows.map joinFields))) = .throw := by
  have h1 : ∀ l ∈ rows.map joinFields, ∀ c ∈ l, c ≠ '\n' := by
    intro l hl c hc
    obtain ⟨fs, hfs, rfl⟩ := List.mem_map.1 hl
    rcases joinFields_mem hc with rfl | ⟨f, hf, hcf⟩
    · decide
    · exact (hsep fs hfs f hf c hcf).2
  rw [parseCsv_some, readAll_joinLines h1]
  have hmem : f ∈ readAll ',' (joinFields fs) := by
    rcases readAll_joinFields (fun f hf c hc => (hsep fs hfs f hf c hc).1) with e | e
    · rw [e]; exact hf
    · rw [e] at hf
      rcases List.mem_append.1 hf with h | h
      · exact h
      · obtain rfl := List.mem_singleton.1 h
        rw [hs.empty] at hr
        exact nomatch hr
  have key : ∀ (ls : List (List Char)) (acc : List (List ℝ)), joinFields fs ∈ ls →
      ls.foldlM (parseLine stof) acc = .throw := by
    intro ls
    induction ls with
    | nil => intro acc h; simp at h
    | cons l ls ih =>
      intro acc h
      rw [List.foldlM_cons]
      by_cases he : l = joinFields fs
      · subst he
        unfold parseLine
        rw [if_neg hcom, parseFields_eq, if_pos ⟨f, hmem, hr⟩]
        rfl
      · have hm : joinFields fs ∈ ls := by
          rcases List.mem_cons.1 h with e | e
          · exact absurd e.symm he
          · exact e
        unfold parseLine
        split
        · exact ih _ hm
        · rw [parseFields_eq]
          split
          · rfl
          · exact ih _ hm
  exact key _ _ (List.mem_map.2 ⟨fs, hfs, rfl⟩)

/-- A file that cannot be opened is reported by an exception. -/
theorem C50_missing_file (stof : List Char → Scan) : parseCsv stof none = .throw := rfl

/-! ## C49 – reading back what was written -/

theorem writeRows_eq (pr : ℝ → List Char) (rows : List (List ℝ)) :
    writeRows pr rows = joinLines (rows.map fun row => row.flatMap fun x => pr x ++ [',']) := by
  simp [writeRows, joinLines, List.flatMap_map]

theorem readAll_commas {B : Type*} (pr : B → List Char) (row : List B) (h : ∀ x ∈ row, ∀ c ∈ pr x, c ≠ ',') :
    readAll ',' (row.flatMap fun x => pr x ++ [',']) = row.map pr := by
  induction row with
  | nil => exact readAll_nil _
  | cons x row ih =>
    rw [List.flatMap_cons, List.append_assoc, List.singleton_append, readAll_cons (h x (by simp)),
      ih fun x' h' => h x' (by simp [h'])]
    rfl

/-- C49, as a user would state it. -/
def C49_claim : Prop :=
  ∀ (stof : List Char → Scan) (_ : StofOk stof) (pr : ℝ → List Char) (_ : PrintOk pr) (rows : List (List ℝ)),
    parseCsv stof (some (writeRows pr rows)) = .ok rows

/-- C49, the part that holds: tables of every shape (also with empty rows, also empty) come back with the same shape,
each number `x` replaced by what `stof` makes of its printed form; so a table is read back unchanged exactly as far as
printing and scanning lose nothing. -/
theorem C49_roundtrip_partial (stof : List Char → Scan) (pr : ℝ → List Char) (hpr : PrintOk pr) (rows : List (List ℝ))
    (f : ℝ → ℝ) (hf : ∀ r ∈ rows, ∀ x ∈ r, stof (pr x) = .val (f x)) :
    parseCsv stof (some (writeRows pr rows)) = .ok (rows.map (·.map f)) := by
  rw [writeRows_eq]
  rw [parseCsv_some]
  have hcom : ∀ row : List ℝ, readAll ',' (row.flatMap fun x => pr x ++ [',']) = row.map pr := fun row =>
    readAll_commas pr row fun x _ c hc => ((hpr x).2 c hc).1
  rw [readAll_joinLines, parseLines_ok]
  · rw [List.nil_append, List.filter_map, List.map_map]
    congr 1
    rw [List.filter_eq_self.2]
    · apply List.map_congr_left
      intro row hrow
      simp only [Function.comp_apply]
      rw [hcom, List.filterMap_map]
      have := hf row hrow
      clear hrow
      induction row with
      | nil => rfl
      | cons x row ih =>
        rw [List.filterMap_cons, Function.comp_apply, this x (by simp), List.map_cons, Scan.toOption_val]
        dsimp only
        rw [ih fun y hy => this y (by simp [hy])]
    · intro row _
      simp only [Function.comp_apply, decide_eq_true_eq]
      cases row with
      | nil => simp
      | cons x row =>
        rw [List.flatMap_cons]
        obtain ⟨h1, h2⟩ := hpr x
        obtain ⟨c, cs, e⟩ := List.exists_cons_of_ne_nil h1
        rw [e]
        simp only [List.cons_append, List.head?_cons, ne_eq, Option.some.injEq]
        exact (h2 c (by rw [e]; simp)).2.2
  · intro l hl _ g hg
    obtain ⟨row, hrow, rfl⟩ := List.mem_map.1 hl
    rw [hcom] at hg
    obtain ⟨x, hx, rfl⟩ := List.mem_map.1 hg
    rw [hf row hrow x hx]
    exact fun h => nomatch h
  · intro l hl c hc
    obtain ⟨row, -, rfl⟩ := List.mem_map.1 hl
    obtain ⟨x, -, hc⟩ := List.mem_flatMap.1 hc
    rcases List.mem_append.1 hc with hc | hc
    · exact ((hpr x).2 c hc).2.1
    · obtain rfl := List.mem_singleton.1 hc
      decide

theorem digit_ne {n : ℕ} {c : Char} (h : c ∈ Nat.toDigits 10 n) : c ≠ ',' ∧ c ≠ '\n' ∧ c ≠ '#' := by
  have := Nat.isDigit_of_mem_toDigits (by norm_num) (by norm_num) h
  refine ⟨?_, ?_, ?_⟩ <;> (rintro rfl; exact absurd this (by decide))

theorem digits_head {n : ℕ} (t : List Char) : (Nat.toDigits 10 n ++ t).head? ≠ some '#' := by
  obtain ⟨c, cs, e⟩ := List.exists_cons_of_ne_nil (Nat.toDigits_ne_nil (n := n) (b := 10))
  rw [e]
  simp only [List.cons_append, List.head?_cons, ne_eq, Option.some.injEq]
  exact (digit_ne (by rw [e]; simp)).2.2

/-- C49 (edges): every list of edges between vertices numbered at most 2^24 is read back exactly. -/
theorem C49_edges (stof : List Char → Scan) (hs : StofOk stof) (edges : List (ℕ × ℕ))
    (h : ∀ e ∈ edges, e.1 ≤ 2 ^ 24 ∧ e.2 ≤ 2 ^ 24) :
    parseCsv stof (some (writeEdges edges)) = .ok (edges.map fun e => [(e.1 : ℝ), (e.2 : ℝ)]) := by
  have e1 : writeEdges edges = joinLines ((edges.map fun e => [Nat.toDigits 10 e.1, Nat.toDigits 10 e.2]).map joinFields) := by
    simp [writeEdges, joinLines, joinFields, List.flatMap_map]
  rw [e1, C50_rows_partial stof hs]
  · congr 1
    rw [List.filter_eq_self.2, List.map_map]
    · apply List.map_congr_left
      intro e he
      simp [hs.nat _ (h e he).1, hs.nat _ (h e he).2, Scan.toOption]
    · intro fs hfs
      obtain ⟨e, -, rfl⟩ := List.mem_map.1 hfs
      refine decide_eq_true ?_
      simp only [joinFields]
      exact digits_head _
  · intro fs hfs f hf c hc
    obtain ⟨e, -, rfl⟩ := List.mem_map.1 hfs
    simp only [List.mem_cons, List.not_mem_nil, or_false] at hf
    rcases hf with rfl | rfl <;> exact ⟨(digit_ne hc).1, (digit_ne hc).2.1⟩
  · intro fs hfs f hf
    obtain ⟨e, he, rfl⟩ := List.mem_map.1 hfs
    simp only [List.mem_cons, List.not_mem_nil, or_false] at hf
    rcases hf with rfl | rfl
    · rw [hs.nat _ (h e he).1]; exact fun h => nomatch h
    · rw [hs.nat _ (h e he).2]; exact fun h => nomatch h

/-- C49 (vertex numbers of the path): read back as one row; an empty list as no row at all. -/
theorem C49_path_ids (stof : List Char → Scan) (hs : StofOk stof) (ids : List ℕ) (h : ∀ i ∈ ids, i ≤ 2 ^ 24) :
    parseCsv stof (some (writeIds ids)) = .ok (if ids = [] then [] else [ids.map fun i : ℕ => (i : ℝ)]) := by
  rw [parseCsv_some]
  unfold writeIds
  cases ids with
  | nil => simp [readAll_nil]
  | cons i ids =>
    rw [if_neg (by simp), readAll_last, parseLines_ok]
    · have hh : ((i :: ids).flatMap fun i => Nat.toDigits 10 i ++ [',']).head? ≠ some '#' := by
        rw [List.flatMap_cons, List.append_assoc]
        exact digits_head _
      rw [List.nil_append, List.filter_cons_of_pos (by simpa using hh), List.filter_nil, List.map_cons, List.map_nil,
        readAll_commas _ _ fun x _ c hc => (digit_ne hc).1, List.filterMap_map]
      congr 2
      generalize i :: ids = l at h ⊢
      induction l with
      | nil => rfl
      | cons i ids ih =>
        rw [List.filterMap_cons, Function.comp_apply, hs.nat i (h i (by simp)), List.map_cons, Scan.toOption_val]
        dsimp only
        rw [ih fun j hj => h j (by simp [hj])]
    · intro l hl _ f hf
      obtain rfl := List.mem_singleton.1 hl
      rw [readAll_commas _ _ fun x _ c hc => (digit_ne hc).1] at hf
      obtain ⟨j, hj, rfl⟩ := List.mem_map.1 hf
      rw [hs.nat j (h j hj)]
      exact fun h => nomatch h
    · rw [List.flatMap_cons]; simp
    · intro c hc
      obtain ⟨j, -, hc⟩ := List.mem_flatMap.1 hc
      rcases List.mem_append.1 hc with hc | hc
      · exact (digit_ne hc).2.1
      · obtain rfl := List.mem_singleton.1 hc
        decide

/-- 2^24 + 1 is no `float`. -/
theorem not_isFloat : ¬ IsFloat 16777217 := by
  rintro ⟨m, e, hm, he⟩
  rcases le_or_gt e 0 with h0 | h0
  · obtain ⟨n, rfl⟩ : ∃ n : ℕ, e = -n := ⟨e.natAbs, by omega⟩
    rw [zpow_neg, zpow_natCast, eq_mul_inv_iff_mul_eq₀ (by positivity)] at he
    have h2 : (16777217 * 2 ^ n : ℤ) = m := by exact_mod_cast he
    have h3 : (1 : ℤ) ≤ 2 ^ n := one_le_pow₀ (by norm_num)
    have h4 := le_abs_self m
    norm_num at hm
    omega
  · obtain ⟨n, rfl⟩ : ∃ n : ℕ, e = (n + 1 : ℕ) := ⟨e.natAbs - 1, by omega⟩
    rw [zpow_natCast, pow_succ] at he
    have h2 : (16777217 : ℤ) = m * (2 ^ n * 2) := by exact_mod_cast he
    have : (16777217 : ℤ) % 2 = 0 := by rw [h2, ← mul_assoc, Int.mul_emod_left]
    norm_num at this

/-- C49: whatever the printing and the scanning, a table with an entry that is no `float` value (e.g. the vertex number
16777217, or 0.1) is not read back. -/
theorem C49_precision_lost (stof : List Char → Scan) (hs : StofOk stof) (text : Option (List Char)) (rows : List (List ℝ))
    (r : List ℝ) (hr : r ∈ rows) (x : ℝ) (hx : x ∈ r) (hnf : ¬ IsFloat x) : parseCsv stof text ≠ .ok rows := by
  intro h
  cases text with
  | none => exact nomatch h
  | some text =>
    rw [parseCsv_some] at h
    have key : ∀ (ls : List (List Char)) (acc data : List (List ℝ)), ls.foldlM (parseLine stof) acc = .ok data →
        (∀ r ∈ acc, ∀ x ∈ r, IsFloat x) → ∀ r ∈ data, ∀ x ∈ r, IsFloat x := by
      intro ls
      induction ls with
      | nil =>
        intro acc data h ha
        obtain rfl := (Res.ok.injEq _ _).mp h
        exact ha
      | cons l ls ih =>
        intro acc data h ha
        rw [List.foldlM_cons] at h
        obtain ⟨acc', h1, h⟩ := Res.bind_eq_ok.1 h
        refine ih acc' data h ?_
        unfold parseLine at h1
        split at h1
        · obtain rfl := (Res.ok.injEq _ _).mp h1
          exact ha
        · obtain ⟨rec, h2, h1⟩ := Res.bind_eq_ok.1 h1
          obtain rfl := (Res.ok.injEq _ _).mp h1
          intro r hr x hx
          rcases List.mem_append.1 hr with hr | hr
          · exact ha r hr x hx
          · obtain rfl := List.mem_singleton.1 hr
            rw [parseFields_eq] at h2
            split at h2
            · exact nomatch h2
            · obtain rfl := (Res.ok.injEq _ _).mp h2
              rw [List.nil_append, List.mem_filterMap] at hx
              obtain ⟨f, -, hf⟩ := hx
              cases hv : stof f with
              | val v =>
                rw [hv] at hf
                obtain rfl := Option.some.inj hf
                exact hs.float f _ hv
              | invalid => rw [hv] at hf; exact nomatch hf
              | range => rw [hv] at hf; exact nomatch hf
    exact hnf (key _ _ _ h (by simp) r hr x hx)

/-! ## A scanner and a printer that meet the assumptions -/

open Classical in
/-- Decimal numerals up to 2^24 are numbers, everything else is not. -/
noncomputable def exStof (s : List Char) : Scan :=
  if h : ∃ n : ℕ, n ≤ 2 ^ 24 ∧ s = Nat.toDigits 10 n then .val (h.choose : ℕ)
  else if s = ['9', 'e', '9', '9'] then .range else .invalid

theorem toDigits_inj {n m : ℕ} (h : Nat.toDigits 10 n = Nat.toDigits 10 m) : n = m := by
  have h1 := Nat.ofDigitChars_toDigits (b := 10) (n := n) (by norm_num) (by norm_num)
  have h2 := Nat.ofDigitChars_toDigits (b := 10) (n := m) (by norm_num) (by norm_num)
  rw [h] at h1
  omega

theorem exStof_ok : StofOk exStof := by
  refine ⟨?_, ?_, ?_, ?_⟩
  · intro s v h
    unfold exStof at h
    split at h
    · rename_i hn
      obtain rfl := (Scan.val.injEq _ _).mp h
      refine ⟨hn.choose, 0, ?_, by simp⟩
      have := hn.choose_spec.1
      rw [Nat.abs_cast]
      exact_mod_cast this
    · split at h <;> exact nomatch h
  · intro n hn
    unfold exStof
    have h : ∃ m : ℕ, m ≤ 2 ^ 24 ∧ Nat.toDigits 10 n = Nat.toDigits 10 m := ⟨n, hn, rfl⟩
    rw [dif_pos h]
    rw [toDigits_inj h.choose_spec.2.symm]
  · unfold exStof
    rw [dif_neg, if_neg (by simp)]
    rintro ⟨n, -, h⟩
    exact Nat.toDigits_ne_nil h.symm
  · intro s
    unfold exStof
    rw [dif_neg, if_neg (by simp)]
    rintro ⟨n, -, h⟩
    have := Nat.isDigit_of_mem_toDigits (b := 10) (n := n) (by norm_num) (by norm_num) (by rw [← h]; simp : 'x' ∈ _)
    exact absurd this (by decide)

/-- Numbers are printed by their integral part. -/
noncomputable def exPr (x : ℝ) : List Char := Nat.toDigits 10 ⌊x⌋₊

theorem exPr_ok : PrintOk exPr := fun _ => ⟨Nat.toDigits_ne_nil, fun _ hc => digit_ne hc⟩

theorem C49_refuted : ¬ C49_claim := fun h =>
  C49_precision_lost exStof exStof_ok _ [[16777217]] _ (List.mem_singleton.2 rfl) _ (List.mem_singleton.2 rfl)
    not_isFloat (h exStof exStof_ok exPr exPr_ok [[16777217]])

theorem stof_one {stof : List Char → Scan} (hs : StofOk stof) : stof ['1'] = .val 1 := by
  have := hs.nat 1 (by norm_num)
  rwa [show Nat.toDigits 10 1 = ['1'] by decide, Nat.cast_one] at this

theorem stof_two {stof : List Char → Scan} (hs : StofOk stof) : stof ['2'] = .val 2 := by
  have := hs.nat 2 (by norm_num)
  rwa [show Nat.toDigits 10 2 = ['2'] by decide, Nat.cast_ofNat] at this

/-- C50: for every scanner, the line `1,x,2` becomes the row `1, 2`: the third field moves to the second column. -/
theorem C50_columns_shift (stof : List Char → Scan) (hs : StofOk stof) :
    parseCsv stof (some (joinLines [joinFields [['1'], ['x'], ['2']]])) = .ok [[1, 2]] := by
  have e := C50_rows_partial stof hs [[['1'], ['x'], ['2']]] (by simp) (by
    intro fs hfs f hf
    obtain rfl := List.mem_singleton.1 hfs
    simp only [List.mem_cons, List.not_mem_nil, or_false] at hf
    rcases hf with rfl | rfl | rfl
    · rw [stof_one hs]; exact fun h => nomatch h
    · rw [hs.word []]; exact fun h => nomatch h
    · rw [stof_two hs]; exact fun h => nomatch h)
  rw [List.filter_cons_of_pos (by decide)] at e
  simpa [stof_one hs, hs.word [], stof_two hs, Scan.toOption] using e

theorem C50_refuted : ¬ C50_claim := by
  intro h
  obtain ⟨r, hr, hv⟩ := h exStof exStof_ok [[['1'], ['x'], ['2']]] (by simp) _ (C50_columns_shift exStof exStof_ok)
    0 2 _ _ 2 rfl rfl (stof_two exStof_ok)
  obtain rfl := Option.some.inj hr
  simp at hv

/-- The hypotheses of the round-trip theorem are met by a table with an empty row. -/
example : parseCsv exStof (some (writeRows exPr [[1, 2], [], [3]])) = .ok [[1, 2], [], [3]] := by
  have hp : ∀ n : ℕ, n ≤ 2 ^ 24 → exStof (exPr n) = .val n := by
    intro n hn
    unfold exPr
    rw [Nat.floor_natCast]
    exact exStof_ok.nat n hn
  rw [C49_roundtrip_partial exStof exPr exPr_ok _ id]
  · simp
  · intro r hr x hx
    have : ∃ n : ℕ, n ≤ 3 ∧ x = n := by
      simp only [List.mem_cons, List.not_mem_nil, or_false] at hr
      rcases hr with rfl | rfl | rfl <;> simp at hx
      · rcases hx with rfl | rfl
        · exact ⟨1, by norm_num, by norm_num⟩
        · exact ⟨2, by norm_num, by norm_num⟩
      · exact ⟨3, by norm_num, by rw [hx]; norm_num⟩
    obtain ⟨n, hn, rfl⟩ := this
    exact hp n (by omega)

end Hrm
