import Verif.Lemmas.Nearest

/-!
# C52: nearest-neighbour queries on the roadmap
-/

namespace Hrm

open Classical

/-- Coordinate `i` of a configuration that is long enough. -/
def coord (v : Vec) (i : ℕ) : ℝ := v.getD i 0

theorem idx_coord {v : Vec} {i : ℕ} (h : i < v.length) : Res.idx v i = .ok (coord v i) := by
  rw [Res.idx_eq_ok, coord, List.getD_eq_getElem?_getD, List.getElem?_eq_getElem h]; rfl

theorem getElem?_coord {v : Vec} {i : ℕ} (h : i < v.length) : v[i]? = some (coord v i) := by
  rw [coord, List.getD_eq_getElem?_getD, List.getElem?_eq_getElem h]; rfl

theorem foldlM_flatMap {α β : Type*} {f : List β → α → Res (List β)} {c : α → List β} (l : List α)
    (h : ∀ a ∈ l, ∀ acc, f acc a = .ok (acc ++ c a)) : ∀ acc, l.foldlM f acc = .ok (acc ++ l.flatMap c) := by
  induction l with
  | nil => intro acc; simp
  | cons a l ih =>
    intro acc
    rw [List.foldlM_cons, h a (by simp), Res.bind_ok, ih (fun a ha => h a (by simp [ha]))]
    simp

/-- Vertex number `i` of `verts` is a vertex of the slice with heading `ang` (up to 1e-6), and no vertex of
that slice is closer to `q`. -/
def ClosestOfSlice2D (verts : List Vec) (q : Vec) (ang : ℝ) (i : ℕ) : Prop :=
  ∃ v, verts[i]? = some v ∧ |coord v 2 - ang| < 1 / 10 ^ 6 ∧
    ∀ u ∈ verts, |coord u 2 - ang| < 1 / 10 ^ 6 → euclid q v ≤ euclid q u

/-- Vertex number 0, when no vertex of the slice with heading `ang` is closer to `q` than vertex 0. -/
def Fallback2D (verts : List Vec) (q : Vec) (ang : ℝ) (i : ℕ) : Prop :=
  i = 0 ∧ ∀ v0 : Vec, verts[0]? = some v0 → ∀ u ∈ verts, |coord u 2 - ang| < 1 / 10 ^ 6 → euclid q v0 ≤ euclid q u

theorem nearestStep2D_spec {verts : List Vec} (hne : verts ≠ []) (hdim : ∀ v ∈ verts, v.length = 3) {q : Vec}
    (hq : q.length = 3) (gap ang : ℝ) :
    ∃ (i : ℕ) (v : Vec), verts[i]? = some v ∧ (ClosestOfSlice2D verts q ang i ∨ Fallback2D verts q ang i) ∧
      ∀ idx, nearestStep2D verts q gap idx ang =
        .ok (idx ++ if |coord q 1 - coord v 1| < gap then [i] else []) := by
  have hpos : 0 < verts.length := List.length_pos_iff.2 hne
  have h0 : Res.idx verts 0 = .ok verts[0] := Res.idx_eq_ok.2 (List.getElem?_eq_getElem hpos)
  have hd0 : q.length = verts[0].length := by rw [hq, hdim _ (List.getElem_mem hpos)]
  obtain ⟨s, hs, hcase⟩ := closestInSlice_spec (same := fun v => (Res.idx v 2).bind fun a =>
      .ok (decide (|a - ang| < epsilon))) (inS := fun v => |coord v 2 - ang| < epsilon) (q := q) verts
    (fun v hv => by rw [idx_coord (by rw [hdim v hv]; norm_num)]; rfl)
    (fun v hv => by rw [hq, hdim v hv]) [] verts (some (euclid q verts[0]), 0)
    (some (euclid q verts[0]), 0) rfl (Or.inl ⟨rfl, by simp⟩)
  have hi : s.2 < verts.length := by
    rcases hcase with ⟨rfl, -⟩ | ⟨v, hv, -⟩
    · exact hpos
    · exact (List.getElem?_eq_some_iff.1 hv).1
  have hv : verts[s.2]? = some verts[s.2] := List.getElem?_eq_getElem hi
  refine ⟨s.2, verts[s.2], hv, ?_, ?_⟩
  · rcases hcase with ⟨rfl, h⟩ | ⟨v, h1, h2, -, -, h5⟩
    · refine Or.inr ⟨rfl, ?_⟩
      intro v0 hv0 u hu hin
      have := h u hu hin
      simp only [ltInf, not_lt] at this
      rw [List.getElem?_eq_getElem hpos, Option.some.injEq] at hv0
      rw [← hv0]
      exact this
    · exact Or.inl ⟨v, h1, h2, h5⟩
  · intro idx
    unfold nearestStep2D
    simp only [List.length_nil] at hs
    rw [h0, Res.bind_ok', vectorEuclidean_eq hd0, Res.bind_ok', hs, Res.bind_ok',
      idx_coord (by rw [hq]; norm_num), Res.bind_ok', Res.idx_eq_ok.2 hv, Res.bind_ok',
      idx_coord (by rw [hdim _ (List.getElem_mem hi)]; norm_num), Res.bind_ok']
    split <;> simp

/-- C52 (planar), the part that holds: on a non-empty planar roadmap the query returns normally, with at
most `max k 1` ids of existing vertices, each with a y-distance below `gap` to the query. Each belongs to
a heading `ang` of the planner within `radius` of the roadmap heading `m` closest to the query's, and is
the closest vertex of that slice – or vertex 0, when that is closer than all vertices of the slice.
Conversely each of the first `k` such headings whose closest vertex is within `gap` and closer than
vertex 0 contributes such a vertex. Missing: the claim for an empty roadmap, and that vertex 0 lies in the
slice (both are false, see below). -/
theorem C52_nearest2D_partial (headings : List ℝ) (verts : List Vec) (q : Vec) (k : ℕ) (radius gap : ℝ)
    (hne : verts ≠ []) (hdim : ∀ v ∈ verts, v.length = 3) (hq : q.length = 3) :
    ∃ (ids : List ℕ) (m : ℝ), nearest2D headings verts q k radius gap = .ok ids ∧
      (∃ v ∈ verts, coord v 2 = m) ∧ (∀ u ∈ verts, |coord q 2 - m| ≤ |coord q 2 - coord u 2|) ∧
      ids.length ≤ max k 1 ∧
      (∀ i ∈ ids, ∃ (v : Vec) (ang : ℝ), verts[i]? = some v ∧ |coord q 1 - coord v 1| < gap ∧ ang ∈ headings ∧
        |m - ang| < radius ∧ (ClosestOfSlice2D verts q ang i ∨ Fallback2D verts q ang i)) ∧
      (1 ≤ k → ∀ ang ∈ (headings.filter (fun h => |m - h| < radius)).take k, ∀ (j : ℕ),
        ClosestOfSlice2D verts q ang j → ¬ Fallback2D verts q ang 0 →
        (∀ i v, ClosestOfSlice2D verts q ang i → verts[i]? = some v → |coord q 1 - coord v 1| < gap) →
        ∃ i ∈ ids, ClosestOfSlice2D verts q ang i) := by
  have hpos : 0 < verts.length := List.length_pos_iff.2 hne
  have h0 : Res.idx verts 0 = .ok verts[0] := Res.idx_eq_ok.2 (List.getElem?_eq_getElem hpos)
  obtain ⟨m, v, hm, hv, hv2, hmin⟩ := closestHeading_spec hne hdim (coord q 2)
  choose! f w hf1 hf2 hf3 using fun ang => nearestStep2D_spec hne hdim hq gap ang
  set angs := collectK (fun h => |m - h| < radius) k [] headings with hangs
  obtain ⟨l, hl1, hl2, hl3⟩ := collectK_sublist (fun h => |m - h| < radius) k headings []
  rw [List.nil_append, ← hangs] at hl1
  subst hl1
  have hrun : nearest2D headings verts q k radius gap =
      .ok (angs.flatMap fun a => if |coord q 1 - coord (w a) 1| < gap then [f a] else []) := by
    unfold nearest2D
    rw [h0, Res.bind_ok', idx_coord (by rw [hdim _ (List.getElem_mem hpos)]; norm_num), Res.bind_ok',
      idx_coord (by rw [hq]; norm_num), Res.bind_ok', hm, Res.bind_ok']
    have := foldlM_flatMap (f := nearestStep2D verts q gap)
      (c := fun a => if |coord q 1 - coord (w a) 1| < gap then [f a] else []) angs
      (fun a _ acc => hf3 a acc) []
    simpa using this
  refine ⟨_, m, hrun, ⟨v, hv, ?_⟩, ?_, ?_, ?_, ?_⟩
  · rw [getElem?_coord (by rw [hdim v hv]; norm_num)] at hv2
    simpa using hv2
  · intro u hu
    exact hmin u hu _ (getElem?_coord (by rw [hdim u hu]; norm_num))
  · have h1 : ∀ l : List ℝ, (l.flatMap fun a => if |coord q 1 - coord (w a) 1| < gap then [f a] else []).length
        ≤ l.length := by
      intro l
      induction l with
      | nil => simp
      | cons a l ih =>
        rw [List.flatMap_cons, List.length_append, List.length_cons]
        have : (if |coord q 1 - coord (w a) 1| < gap then [f a] else []).length ≤ 1 := by split <;> simp
        omega
    exact (h1 angs).trans (collectK_length _ k headings)
  · intro i hi
    obtain ⟨a, ha, hi⟩ := List.mem_flatMap.1 hi
    split at hi
    · rename_i hgap
      obtain rfl : i = f a := by simpa using hi
      exact ⟨w a, a, hf1 a, hgap, hl2.subset ha, hl3 a ha, hf2 a⟩
    · simp at hi
  · intro hk ang hang j hj hnf hgap
    have : ang ∈ angs := by
      rw [hangs, collectK_eq _ _ _ (by simp; omega)]
      simpa using hang
    have hc : ClosestOfSlice2D verts q ang (f ang) := by
      rcases hf2 ang with h | h
      · exact h
      · rw [h.1] at h; exact absurd h hnf
    exact ⟨f ang, List.mem_flatMap.2 ⟨ang, this, by rw [if_pos (hgap _ _ hc (hf1 ang))]; simp⟩, hc⟩

/-- C52 as claimed for the planar planner: the query returns normally on every roadmap, and every returned
vertex lies in a slice within the radius of the closest roadmap heading. -/
def C52_claim : Prop :=
  ∀ (headings : List ℝ) (verts : List Vec) (q : Vec) (k : ℕ) (radius gap : ℝ),
    (∀ v ∈ verts, v.length = 3) → q.length = 3 →
    ∃ ids, nearest2D headings verts q k radius gap = .ok ids ∧
      ∀ i ∈ ids, ∃ v, verts[i]? = some v ∧
        ∃ m, (∃ u ∈ verts, coord u 2 = m) ∧ (∀ u ∈ verts, |coord q 2 - m| ≤ |coord q 2 - coord u 2|) ∧
          |m - coord v 2| < radius + 1 / 10 ^ 6

/-- On an empty roadmap the query has undefined behaviour. -/
theorem C52_empty_roadmap (headings : List ℝ) (q : Vec) (k : ℕ) (radius gap : ℝ) :
    nearest2D headings [] q k radius gap = .ub := rfl

theorem C52_refuted : ¬ C52_claim := by
  intro H
  obtain ⟨ids, h, -⟩ := H [] [] [0, 0, 0] 1 1 1 (by simp) rfl
  exact nomatch h

/-- Also on non-empty roadmaps: for a query with heading 2 and radius 1.6, the vertex returned has heading
0 although the closest roadmap heading is 3. -/
theorem C52_refuted_slice : ∃ ids, nearest2D [0, 3] [[0, 0, 0], [10, 0, 3]] [0, 0, 2] 10 (8 / 5) 1 = .ok ids ∧
    (0 : ℕ) ∈ ids ∧ ∀ m, (∃ u ∈ ([[0, 0, 0], [10, 0, 3]] : List Vec), coord u 2 = m) →
      (∀ u ∈ ([[0, 0, 0], [10, 0, 3]] : List Vec), |coord [0, 0, 2] 2 - m| ≤ |coord [0, 0, 2] 2 - coord u 2|) →
      8 / 5 + 1 / 10 ^ 6 < |m - coord [0, 0, 0] 2| := by
  have hdim : ∀ v ∈ ([[0, 0, 0], [10, 0, 3]] : List Vec), v.length = 3 := by simp
  obtain ⟨ids, m, h1, h2, h3, -, h5, -⟩ := C52_nearest2D_partial [0, 3] [[0, 0, 0], [10, 0, 3]] [0, 0, 2] 10
    (8 / 5) 1 (by simp) hdim rfl
  have hm : ∀ m : ℝ, (∃ u ∈ ([[0, 0, 0], [10, 0, 3]] : List Vec), coord u 2 = m) →
      (∀ u ∈ ([[0, 0, 0], [10, 0, 3]] : List Vec), |coord [0, 0, 2] 2 - m| ≤ |coord [0, 0, 2] 2 - coord u 2|) →
      m = 3 := by
    rintro m ⟨u, hu, rfl⟩ hmin
    simp only [List.mem_cons, List.not_mem_nil, or_false] at hu
    rcases hu with rfl | rfl
    · have := hmin [10, 0, 3] (by simp)
      norm_num [coord] at this
    · rfl
  obtain rfl := hm m h2 h3
  have e1 : euclid [0, 0, 2] [0, 0, 0] = 2 := by
    simp only [euclid, List.zipWith_cons_cons, List.zipWith_nil_right, List.sum_cons, List.sum_nil]
    rw [show (0 - 0 : ℝ) ^ 2 + ((0 - 0) ^ 2 + ((2 - 0) ^ 2 + 0)) = 2 ^ 2 by norm_num, Real.sqrt_sq (by norm_num)]
  have e2 : (2 : ℝ) < euclid [0, 0, 2] [10, 0, 3] := by
    simp only [euclid, List.zipWith_cons_cons, List.zipWith_nil_right, List.sum_cons, List.sum_nil]
    refine Real.lt_sqrt_of_sq_lt ?_
    norm_num
  obtain ⟨i, v, hv, hc, hstep⟩ := nearestStep2D_spec (verts := [[0, 0, 0], [10, 0, 3]]) (by simp) hdim
    (q := [0, 0, 2]) rfl 1 3
  have hcl : ∀ u ∈ ([[0, 0, 0], [10, 0, 3]] : List Vec), |coord u 2 - 3| < 1 / 10 ^ 6 → u = [10, 0, 3] := by
    intro u hu hd
    simp only [List.mem_cons, List.not_mem_nil, or_false] at hu
    rcases hu with rfl | rfl
    · norm_num [coord] at hd
    · rfl
  refine ⟨[0], ?_, by simp, ?_⟩
  · have hch : closestHeading ([[0, 0, 0], [10, 0, 3]] : List Vec) 2 = .ok (1, 3) := by
      norm_num [closestHeading, Res.idx]
    have hcol : collectK (fun h => |(3 : ℝ) - h| < 8 / 5) 10 [] [0, 3] = [3] := by
      norm_num [collectK]
    unfold nearest2D
    have hs : nearestStep2D ([[0, 0, 0], [10, 0, 3]] : List Vec) [0, 0, 2] 1 [] 3 = .ok [0] := by
      have e3 : ¬ euclid [0, 0, 2] [10, 0, 3] < 2 := by linarith
      simp [nearestStep2D, Res.idx, closestInSlice, vectorEuclidean_eq, ltInf, e1, e3]
    simp only [Res.idx, List.getElem?_cons_zero, List.getElem?_cons_succ, Res.bind_ok', hch, hcol]
    rw [List.foldlM_cons, hs]
    rfl
  · intro m h1 h2
    rw [hm m h1 h2]
    norm_num [coord]

/-! ## The spatial planner -/

/-- The orientation part of a configuration. -/
def quat (v : Vec) : Quat := (coord v 3, coord v 4, coord v 5, coord v 6)

theorem quatOf_eq {v : Vec} (h : 7 ≤ v.length) : quatOf v = .ok (quat v) := by
  simp [quatOf, quat, idx_coord (show 3 < v.length by omega), idx_coord (show 4 < v.length by omega),
    idx_coord (show 5 < v.length by omega), idx_coord (show 6 < v.length by omega)]

theorem closestQuat_spec (ang : Quat → Quat → ℝ) (q0 : Quat) (qs : List Quat) (qq : Quat) :
    ∃ m, closestQuat ang (q0 :: qs) qq = .ok m ∧
      ((m.2 = none ∧ ∀ r ∈ q0 :: qs, ang qq q0 ≤ ang qq r) ∨
        ∃ r ∈ q0 :: qs, m.2 = some r ∧ ang qq r < ang qq q0 ∧ ∀ r' ∈ q0 :: qs, ang qq r ≤ ang qq r') := by
  have aux : ∀ (l done : List Quat) (s : ℝ × Option Quat),
      ((s = (ang qq q0, none) ∧ ∀ r ∈ done, ang qq q0 ≤ ang qq r) ∨
        ∃ r ∈ done, s = (ang qq r, some r) ∧ ang qq r < ang qq q0 ∧ ∀ r' ∈ done, ang qq r ≤ ang qq r') →
      let m := l.foldl (fun s q => if ang qq q < s.1 then (ang qq q, some q) else s) s
      ((m = (ang qq q0, none) ∧ ∀ r ∈ done ++ l, ang qq q0 ≤ ang qq r) ∨
        ∃ r ∈ done ++ l, m = (ang qq r, some r) ∧ ang qq r < ang qq q0 ∧
          ∀ r' ∈ done ++ l, ang qq r ≤ ang qq r') := by
    intro l
    induction l with
    | nil => intro done s h; simpa using h
    | cons a l ih =>
      intro done s h
      have e : done ++ a :: l = (done ++ [a]) ++ l := by simp
      rw [List.foldl_cons, e]
      refine ih (done ++ [a]) _ ?_
      rcases h with ⟨rfl, h0⟩ | ⟨r, hr, rfl, h1, h2⟩
      · split
        · rename_i hlt
          refine Or.inr ⟨a, by simp, rfl, hlt, ?_⟩
          intro r' hr'
          rcases List.mem_append.1 hr' with hr' | hr'
          · exact hlt.le.trans (h0 r' hr')
          · simp only [List.mem_singleton] at hr'; rw [hr']
        · rename_i hlt
          refine Or.inl ⟨rfl, ?_⟩
          intro r' hr'
          rcases List.mem_append.1 hr' with hr' | hr'
          · exact h0 r' hr'
          · simp only [List.mem_singleton] at hr'; rw [hr']; exact not_lt.1 hlt
      · split
        · rename_i hlt
          refine Or.inr ⟨a, by simp, rfl, hlt.trans h1, ?_⟩
          intro r' hr'
          rcases List.mem_append.1 hr' with hr' | hr'
          · exact hlt.le.trans (h2 r' hr')
          · simp only [List.mem_singleton] at hr'; rw [hr']
        · rename_i hlt
          refine Or.inr ⟨r, by simp [hr], rfl, h1, ?_⟩
          intro r' hr'
          rcases List.mem_append.1 hr' with hr' | hr'
          · exact h2 r' hr'
          · simp only [List.mem_singleton] at hr'; rw [hr']; exact not_lt.1 hlt
  have := aux (q0 :: qs) [] (ang qq q0, none) (Or.inl ⟨rfl, by simp⟩)
  refine ⟨_, rfl, ?_⟩
  simp only [List.nil_append] at this
  rcases this with ⟨h1, h2⟩ | ⟨r, h1, h2, h3, h4⟩
  · exact Or.inl ⟨by rw [h1], h2⟩
  · exact Or.inr ⟨r, h1, by rw [h2], h3, h4⟩

/-- Vertex number `i` is in the slice of orientation `r`, and no vertex of the slice is closer to `q`. -/
def ClosestOfSlice3D (ang : Quat → Quat → ℝ) (verts : List Vec) (q : Vec) (r : Quat) (i : ℕ) : Prop :=
  ∃ v, verts[i]? = some v ∧ ang r (quat v) < 1 / 10 ^ 6 ∧
    ∀ u ∈ verts, ang r (quat u) < 1 / 10 ^ 6 → euclid q v ≤ euclid q u

/-- Vertex number 0, when the slice of orientation `r` has no vertex. -/
def Fallback3D (ang : Quat → Quat → ℝ) (verts : List Vec) (r : Quat) (i : ℕ) : Prop :=
  i = 0 ∧ ∀ u ∈ verts, ¬ ang r (quat u) < 1 / 10 ^ 6

theorem nearestStep3D_spec (ang : Quat → Quat → ℝ) {verts : List Vec} (hne : verts ≠ []) {dim : ℕ}
    (h7 : 7 ≤ dim) (hdim : ∀ v ∈ verts, v.length = dim) {q : Vec} (hq : q.length = dim) (gapX gapY : ℝ)
    (r : Quat) :
    ∃ (i : ℕ) (v : Vec), verts[i]? = some v ∧
      (ClosestOfSlice3D ang verts q r i ∨ Fallback3D ang verts r i) ∧
      ∀ idx, nearestStep3D ang verts q gapX gapY idx r =
        .ok (idx ++ if |coord q 0 - coord v 0| < gapX ∧ |coord q 1 - coord v 1| < gapY then [i] else []) := by
  have hpos : 0 < verts.length := List.length_pos_iff.2 hne
  obtain ⟨s, hs, hcase⟩ := closestInSlice_spec (same := fun v => (quatOf v).bind fun t =>
      .ok (decide (ang r t < epsilon))) (inS := fun v => ang r (quat v) < epsilon) (q := q) verts
    (fun v hv => by rw [quatOf_eq (by rw [hdim v hv]; exact h7)]; rfl)
    (fun v hv => by rw [hq, hdim v hv]) [] verts (none, 0) (none, 0) rfl (Or.inl ⟨rfl, by simp⟩)
  have hi : s.2 < verts.length := by
    rcases hcase with ⟨rfl, -⟩ | ⟨v, hv, -⟩
    · exact hpos
    · exact (List.getElem?_eq_some_iff.1 hv).1
  have hv : verts[s.2]? = some verts[s.2] := List.getElem?_eq_getElem hi
  have hl : verts[s.2].length = dim := hdim _ (List.getElem_mem hi)
  refine ⟨s.2, verts[s.2], hv, ?_, ?_⟩
  · rcases hcase with ⟨rfl, h⟩ | ⟨v, h1, h2, -, -, h5⟩
    · exact Or.inr ⟨rfl, fun u hu hin => h u hu hin trivial⟩
    · exact Or.inl ⟨v, h1, h2, h5⟩
  · intro idx
    unfold nearestStep3D
    simp only [List.length_nil] at hs
    rw [hs, Res.bind_ok', idx_coord (by omega), Res.bind_ok', Res.idx_eq_ok.2 hv, Res.bind_ok',
      idx_coord (by omega), Res.bind_ok', idx_coord (by omega), Res.bind_ok', idx_coord (by omega),
      Res.bind_ok']
    split <;> simp

/-- C52 (spatial), the part that holds: if some sampled orientation is strictly closer to the query's than
the first one, then on a non-empty roadmap the query returns normally with at most `max k 1` existing
vertices within the position gaps; each belongs to a sampled orientation `r` within `radius` of the
closest one `m`, and is the closest vertex of that slice – or vertex 0 when that slice is empty. -/
theorem C52_nearest3D_partial (ang : Quat → Quat → ℝ) (q0 : Quat) (qs : List Quat) (verts : List Vec)
    (q : Vec) (k : ℕ) (radius gapX gapY : ℝ) (dim : ℕ) (h7 : 7 ≤ dim) (hne : verts ≠ [])
    (hdim : ∀ v ∈ verts, v.length = dim) (hq : q.length = dim)
    (hcloser : ∃ r ∈ qs, ang (quat q) r < ang (quat q) q0) :
    ∃ (ids : List ℕ) (m : Quat), nearest3D ang (q0 :: qs) verts q k radius gapX gapY = .ok ids ∧
      m ∈ qs ∧ (∀ r ∈ q0 :: qs, ang (quat q) m ≤ ang (quat q) r) ∧ ids.length ≤ max k 1 ∧
      (∀ i ∈ ids, ∃ v r, verts[i]? = some v ∧ |coord q 0 - coord v 0| < gapX ∧ |coord q 1 - coord v 1| < gapY ∧
        r ∈ q0 :: qs ∧ ang m r < radius ∧
        (ClosestOfSlice3D ang verts q r i ∨ Fallback3D ang verts r i)) := by
  obtain ⟨m, hm, hcase⟩ := closestQuat_spec ang q0 qs (quat q)
  rcases hcase with ⟨-, hno⟩ | ⟨mq, hmq, hm2, hlt, hmin⟩
  · obtain ⟨r, hr, hlt⟩ := hcloser
    exact absurd hlt (not_lt.2 (hno r (by simp [hr])))
  choose! f w hf1 hf2 hf3 using fun r => nearestStep3D_spec ang hne h7 hdim hq gapX gapY r
  obtain ⟨l, hl1, hl2, hl3⟩ := collectK_sublist (fun r => ang mq r < radius) k (q0 :: qs) []
  rw [List.nil_append] at hl1
  have hlen := collectK_length (fun r => ang mq r < radius) k (q0 :: qs)
  rw [hl1] at hlen
  have hrun : nearest3D ang (q0 :: qs) verts q k radius gapX gapY = .ok (l.flatMap fun a =>
      if |coord q 0 - coord (w a) 0| < gapX ∧ |coord q 1 - coord (w a) 1| < gapY then [f a] else []) := by
    unfold nearest3D
    rw [quatOf_eq (by omega), Res.bind_ok', hm, Res.bind_ok', hm2]
    simp only
    rw [hl1]
    have := foldlM_flatMap (f := nearestStep3D ang verts q gapX gapY)
      (c := fun a => if |coord q 0 - coord (w a) 0| < gapX ∧ |coord q 1 - coord (w a) 1| < gapY then [f a]
        else []) l (fun a _ acc => hf3 a acc) []
    simpa using this
  refine ⟨_, mq, hrun, ?_, hmin, ?_, ?_⟩
  · rcases List.mem_cons.1 hmq with rfl | h
    · exact absurd hlt (lt_irrefl _)
    · exact h
  · refine le_trans ?_ hlen
    clear hrun hl3 hl2 hl1 hlen
    induction l with
    | nil => simp
    | cons a l ih =>
      rw [List.flatMap_cons, List.length_append, List.length_cons]
      have : (if |coord q 0 - coord (w a) 0| < gapX ∧ |coord q 1 - coord (w a) 1| < gapY then [f a]
        else []).length ≤ 1 := by split <;> simp
      omega
  · intro i hi
    obtain ⟨a, ha, hi⟩ := List.mem_flatMap.1 hi
    split at hi
    · rename_i hgap
      obtain rfl : i = f a := by simpa using hi
      exact ⟨w a, a, hf1 a, hgap.1, hgap.2, hl2.subset ha, hl3 a ha, hf2 a⟩
    · simp at hi

/-- C52 (spatial): whenever the first sampled orientation is a closest one, the query uses an
uninitialised quaternion: undefined behaviour, for every roadmap. -/
theorem C52_first_closest_ub (ang : Quat → Quat → ℝ) (q0 : Quat) (qs : List Quat) (verts : List Vec)
    (q : Vec) (k : ℕ) (radius gapX gapY : ℝ) (hq : 7 ≤ q.length)
    (hclosest : ∀ r ∈ qs, ang (quat q) q0 ≤ ang (quat q) r) :
    nearest3D ang (q0 :: qs) verts q k radius gapX gapY = .ub := by
  obtain ⟨m, hm, hcase⟩ := closestQuat_spec ang q0 qs (quat q)
  rcases hcase with ⟨hm2, -⟩ | ⟨mq, hmq, -, hlt, -⟩
  · unfold nearest3D
    rw [quatOf_eq hq, Res.bind_ok', hm, Res.bind_ok', hm2]
  · rcases List.mem_cons.1 hmq with rfl | h
    · exact absurd hlt (lt_irrefl _)
    · exact absurd hlt (not_lt.2 (hclosest mq h))

/-- C52 (incremental spatial planner): its first orientation is the start's, so the very query for the
start's neighbours always has undefined behaviour (for every distance for which an orientation is a
closest one to itself). -/
theorem C52_incremental_start_ub (ang : Quat → Quat → ℝ) (hang : ∀ a b, ang a a ≤ ang a b) (start : Vec)
    (hstart : 7 ≤ start.length) (qs : List Quat) (verts : List Vec) (k : ℕ) (radius gapX gapY : ℝ) :
    nearest3D ang (quat start :: qs) verts start k radius gapX gapY = .ub :=
  C52_first_closest_ub ang _ qs verts start k radius gapX gapY hstart fun r _ => hang _ r

/-- The hypotheses of `C52_nearest3D_partial` are met. -/
example : ∃ ids, nearest3D (fun a b => |a.2.1 - b.2.1|) [(1, 0, 0, 0), (0, 1, 0, 0)]
    [[0, 0, 0, 1, 0, 0, 0], [1, 0, 0, 0, 1, 0, 0]] [1, 0, 0, 0, 1, 0, 0] 10 (1 / 2) 1 1 = .ok ids := by
  obtain ⟨ids, -, h, -⟩ := C52_nearest3D_partial (fun a b => |a.2.1 - b.2.1|) (1, 0, 0, 0) [(0, 1, 0, 0)]
    [[0, 0, 0, 1, 0, 0, 0], [1, 0, 0, 0, 1, 0, 0]] [1, 0, 0, 0, 1, 0, 0] 10 (1 / 2) 1 1 7 le_rfl (by simp)
    (by simp) rfl ⟨(0, 1, 0, 0), by simp, by norm_num [quat, coord]⟩
  exact ⟨ids, h⟩

end Hrm
