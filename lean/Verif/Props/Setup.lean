import Verif.Props.FreeSpace

/-!
# C85: what `FreeSpaceComputator::setup` leaves behind

`setup` may be called again on an object that has been used (with another number of sweep lines, other limits or,
after `setRobot`, another robot). It resizes the four tables and nothing else.
-/

set_option linter.unusedSectionVars false

namespace Hrm

open Hrm.Interval

section order
variable {K : Type*} [LinearOrder K]

theorem vresize_length {β : Type*} (l : List β) (n : ℕ) (v : β) : (vresize l n v).length = n := by
  simp [vresize]; omega

theorem vresize_old {β : Type*} (l : List β) (n : ℕ) (v : β) (k : ℕ) (h1 : k < l.length) (h2 : k < n) :
    (vresize l n v)[k]? = l[k]? := by
  unfold vresize
  rw [List.getElem?_append_left (by simp; omega), List.getElem?_take, if_pos h2]

theorem vresize_new {β : Type*} (l : List β) (n : ℕ) (v : β) (k : ℕ) (h1 : l.length ≤ k) (h2 : k < n) :
    (vresize l n v)[k]? = some v := by
  unfold vresize
  rw [List.getElem?_append_right (by simp; omega), List.getElem?_replicate, if_pos]
  simp; omega

theorem pairs_replicate (n : ℕ) (a b : K) :
    pairs (List.replicate n (some a)) (List.replicate n (some b)) = List.replicate n ⟨a, b⟩ := by
  induction n with
  | zero => rfl
  | succ n ih => simp only [List.replicate_succ]; simp [pairs]

theorem pairs_none (n : ℕ) : pairs (List.replicate n (none : Option K)) (List.replicate n none) = [] := by
  induction n with
  | zero => rfl
  | succ n ih => simp only [List.replicate_succ]; simp [pairs]

theorem rowIntervals_congr (low upp low' upp' : List (List (Option K))) (i : ℕ)
    (h1 : low[i]? = low'[i]?) (h2 : upp[i]? = upp'[i]?) :
    rowIntervals low upp i = rowIntervals low' upp' i := by
  unfold rowIntervals
  have e1 : Res.at' low i = Res.at' low' i := by unfold Res.at'; rw [h1]
  have e2 : Res.at' upp i = Res.at' upp' i := by unfold Res.at'; rw [h2]
  rw [e1]
  have : ∀ lo, rowStep lo upp i = rowStep lo upp' i := by
    intro lo; unfold rowStep; rw [e2]
  simp only [this]

theorem intersects_same (S : StdSort K) (n : ℕ) (hn : 0 < n) (a b : K) (h : a ≤ b) :
    intersects S (List.replicate n ⟨a, b⟩) = [⟨a, b⟩] := by
  obtain ⟨l, hl, f, hf, -, -, e⟩ := intersects_shape S (List.replicate n (⟨a, b⟩ : Interval K))
    (by simp; omega)
  rw [List.eq_of_mem_replicate hl, List.eq_of_mem_replicate hf] at e
  rw [e, if_neg (by simpa using h)]

/-- **C85 (partial)** `setup` on an object whose tables have `m` rows (of any widths, filled or not) leaves exactly
`n` sweep lines: a line that existed before keeps its old free segments, a line that is new is free from the low to
the high limit, and asking for any further line throws `std::out_of_range`. (`numArena` is the number of arena
boundaries times the number of robot bodies.) The claim that is not proved, `C85_claim`, is that *all* lines are
free after `setup`. -/
theorem C85_setup_lines_partial (S : StdSort K) (dmin dmax : K) (t : Table K) (m n numArena numObs : ℕ)
    (lowB upB : K) (hal : t.arenaLow.length = m) (hau : t.arenaUpp.length = m) (hol : t.obsLow.length = m)
    (hou : t.obsUpp.length = m) (hA : 0 < numArena) (hlu : lowB ≤ upB) :
    let t' := setupTable t n numArena numObs lowB upB
    (∀ i < n, i < m → sweepLineFree S dmin dmax t' i = sweepLineFree S dmin dmax t i) ∧
    (∀ i < n, m ≤ i → sweepLineFree S dmin dmax t' i = .ok [⟨lowB, upB⟩]) ∧
    (∀ i, n ≤ i → sweepLineFree S dmin dmax t' i = .throw) := by
  refine ⟨?_, ?_, ?_⟩
  · intro i hi him
    unfold sweepLineFree
    dsimp only [setupTable]
    rw [rowIntervals_congr _ _ t.arenaLow t.arenaUpp i (vresize_old _ _ _ _ (by omega) hi)
      (vresize_old _ _ _ _ (by omega) hi), rowIntervals_congr _ _ t.obsLow t.obsUpp i
      (vresize_old _ _ _ _ (by omega) hi) (vresize_old _ _ _ _ (by omega) hi)]
  · intro i hi hmi
    unfold sweepLineFree
    dsimp only [setupTable]
    rw [rowIntervals_ok _ _ i _ _ (vresize_new _ _ _ _ (by omega) hi) (vresize_new _ _ _ _ (by omega) hi)
      (by simp), rowIntervals_ok _ _ i _ _ (vresize_new _ _ _ _ (by omega) hi)
      (vresize_new _ _ _ _ (by omega) hi) (by simp)]
    simp only [Res.bind_ok]
    rw [pairs_replicate, pairs_none, intersects_same S numArena hA lowB upB hlu]
    simp [unions, complements]
  · intro i hi
    exact sweepLineFree_throw S dmin dmax _ i (by simp only [setupTable, vresize_length]; exact hi)

/-- **C85** On a new object every one of the `n` lines is free from the low to the high limit until
`computeIntersectionInterval` is called, and there is no further line. -/
theorem C85_fresh_setup_free (S : StdSort K) (dmin dmax : K) (n numArena numObs : ℕ) (lowB upB : K)
    (hA : 0 < numArena) (hlu : lowB ≤ upB) (i : ℕ) :
    sweepLineFree S dmin dmax (setupTable (emptyTable K) n numArena numObs lowB upB) i =
      if i < n then .ok [⟨lowB, upB⟩] else .throw := by
  obtain ⟨-, h2, h3⟩ := C85_setup_lines_partial S dmin dmax (emptyTable K) 0 n numArena numObs lowB upB rfl rfl
    rfl rfl hA hlu
  split
  · exact h2 i ‹_› (Nat.zero_le _)
  · exact h3 i (by omega)

/-- The claim C85: whatever the object was used for before, after `setup(n, lowB, upB)` every line is free from
`lowB` to `upB`. -/
def C85_claim (S : StdSort K) (dmin dmax : K) : Prop :=
  ∀ (m na no n numArena numObs : ℕ) (t : Table K), t.Shape m na no → 0 < numArena →
    ∀ lowB upB : K, lowB ≤ upB → ∀ i < n,
      sweepLineFree S dmin dmax (setupTable t n numArena numObs lowB upB) i = .ok [⟨lowB, upB⟩]

/-- **C85 is false of the code**: after `setup(1, a, b)` a second `setup(1, c, d)` with other limits still answers
`[a, b]`. -/
theorem C85_refuted (S : StdSort K) (dmin dmax a b c d : K) (hab : a ≤ b) (hcd : c ≤ d) (hne : a ≠ c) :
    ¬ C85_claim S dmin dmax := by
  intro h
  have h1 := h 1 1 0 1 1 0 (setupTable (emptyTable K) 1 1 0 a b) (setup_shape 1 1 0 a b) Nat.one_pos c d hcd 0
    Nat.one_pos
  have hs := setup_shape 1 1 0 a b (K := K)
  obtain ⟨h2, -, -⟩ := C85_setup_lines_partial S dmin dmax (setupTable (emptyTable K) 1 1 0 a b) 1 1 1 0 c d
    hs.al hs.au hs.ol hs.ou Nat.one_pos hcd
  rw [h2 0 Nat.one_pos Nat.one_pos, C85_fresh_setup_free S dmin dmax 1 1 0 a b Nat.one_pos hab 0, if_pos Nat.one_pos]
    at h1
  simp at h1
  exact hne h1.1

variable {Line Shape : Type*}

/-- **C85** A second `setup` does not widen the rows that exist already: when the first one was made for `w` arena
boundaries and the second for more (`setRobot` with more links, a larger arena), filling the very first line throws
`std::out_of_range`, whatever the number of lines asked for. -/
theorem C85_wider_setup_throws (isect : Line → Shape → List K) (lowB upB : K) (arena obs : List Shape)
    (m n w numObs numObs' : ℕ) (lowB' upB' : K) (hm : 0 < m) (hn : 0 < n) (hw : w < arena.length)
    (y : Line) (ys : List Line) (h1 : ∀ sh ∈ arena, (isect y sh).length ≠ 1) :
    fillLines isect lowB upB arena obs 0 (y :: ys)
      (setupTable (setupTable (emptyTable K) m w numObs lowB' upB') n arena.length numObs' lowB upB) = .throw := by
  have key : ∀ (shs : List Shape) (j : ℕ) (t : Table K) (rl ru : List (Option K)), j ≤ w → w < j + shs.length →
      t.arenaLow[0]? = some rl → t.arenaUpp[0]? = some ru → rl.length = w → ru.length = w →
      (∀ sh ∈ shs, (isect y sh).length ≠ 1) → fillArena isect lowB upB y 0 j shs t = .throw := by
    intro shs
    induction shs with
    | nil => intro j t rl ru h1 h2; simp at h2; omega
    | cons sh shs ih =>
      intro j t rl ru hj hlt e1 e2 l1 l2 hno
      rw [fillArena, arenaEntry_ok _ _ _ (hno sh (by simp)), Res.bind_ok]
      rcases Nat.lt_or_eq_of_le hj with hj' | hj'
      · rw [setAt2_ok _ _ _ _ _ e1 (by omega), Res.bind_ok, setAt2_ok _ _ _ _ _ e2 (by omega), Res.bind_ok]
        have i1 := (List.getElem?_eq_some_iff.1 e1).1
        have i2 := (List.getElem?_eq_some_iff.1 e2).1
        exact ih (j + 1) _ _ _ (by omega) (by simp at hlt; omega) (by simp [i1]; rfl) (by simp [i2]; rfl)
          (by simp [l1]) (by simp [l2]) (fun s hs => hno s (by simp [hs]))
      · have : setAt2 t.arenaLow 0 j (some (arenaVal lowB upB (isect y sh)).1) = .throw := by
          unfold setAt2
          rw [e1]
          dsimp only
          rw [if_neg (by omega)]
        rw [this]; rfl
  have hrow : ∀ {β : Type _} (k : ℕ) (v : β) (k' : ℕ) (v' : β),
      (vresize (vresize ([] : List (List β)) m (List.replicate k v)) n (List.replicate k' v'))[0]? =
        some (List.replicate k v) := by
    intro β k v k' v'
    rw [vresize_old _ _ _ _ (by rw [vresize_length]; exact hm) hn, vresize_new _ _ _ _ (by simp) hm]
  rw [fillLines, key arena 0 _ _ _ (Nat.zero_le _) (by omega) (hrow _ _ _ _) (hrow _ _ _ _) (by simp) (by simp) h1]
  rfl

end order

/-- The hypotheses are met: two setups of a 1-line object with limits `[0, 1]` and `[2, 3]`. -/
example : ¬ C85_claim (StdSort.ins ℚ) (-1000) 1000 :=
  C85_refuted _ _ _ 0 1 2 3 (by norm_num) (by norm_num) (by norm_num)

/-- A used table with one line whose obstacle entry is set, set up again for three lines. -/
example : (setupTable ⟨[[some (0 : ℚ)]], [[some 9]], [[some 2]], [[some 4]]⟩ 3 1 1 (-5) 5).Shape 3 1 1 ∧
    (∃ ivs, sweepLineFree (StdSort.ins ℚ) (-1000) 1000
      (setupTable ⟨[[some (0 : ℚ)]], [[some 9]], [[some 2]], [[some 4]]⟩ 3 1 1 (-5) 5) 0 = .ok ivs ∧ ivs.length = 2) ∧
    sweepLineFree (StdSort.ins ℚ) (-1000) 1000
      (setupTable ⟨[[some (0 : ℚ)]], [[some 9]], [[some 2]], [[some 4]]⟩ 3 1 1 (-5) 5) 2 = .ok [⟨-5, 5⟩] := by
  refine ⟨?_, ?_, ?_⟩
  · constructor <;> decide +kernel
  · refine ⟨[⟨0, 2⟩, ⟨4, 9⟩], ?_, rfl⟩
    rw [(C85_setup_lines_partial (StdSort.ins ℚ) (-1000) 1000 ⟨[[some (0 : ℚ)]], [[some 9]], [[some 2]], [[some 4]]⟩
      1 3 1 1 (-5) 5 rfl rfl rfl rfl Nat.one_pos (by norm_num)).1 0 (by norm_num) (by norm_num)]
    decide +kernel
  · exact (C85_setup_lines_partial (StdSort.ins ℚ) (-1000) 1000 ⟨[[some (0 : ℚ)]], [[some 9]], [[some 2]], [[some 4]]⟩
      1 3 1 1 (-5) 5 rfl rfl rfl rfl Nat.one_pos (by norm_num)).2.1 2 (by norm_num) (by norm_num)

/-- A robot with one body, then (`setRobot`) one with two bodies in an arena of one part: the boundaries of the second
do not fit the rows of the first. -/
example : fillLines (fun (_ : ℚ) (_ : ℚ) => ([-1, 1] : List ℚ)) (-5) 5 [0, 1] [] 0 [0]
    (setupTable (setupTable (emptyTable ℚ) 2 1 0 (-5) 5) 2 2 0 (-5) 5) = .throw :=
  C85_wider_setup_throws _ _ _ [0, 1] [] 2 2 1 0 0 _ _ (by norm_num) (by norm_num) (by simp) 0 []
    (fun _ _ => by simp)

end Hrm
