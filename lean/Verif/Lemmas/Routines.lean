import Verif.Model.Routines
import Verif.Spec.Routines
import Verif.Props.PathClear3D

/-! # Lemmas for C99: the free segments of a plane are aligned, and how they are written -/

namespace Hrm

section align
variable {K : Type*} [LinearOrder K]

/-- The three lists of a row have one length. -/
def SegRow.Al (r : SegRow K) : Prop := r.L.length = r.M.length ∧ r.U.length = r.M.length

omit [LinearOrder K] in
theorem SegRow.Al.push {r : SegRow K} (h : r.Al) (p : K) : (r.push p).Al := by
  unfold SegRow.Al SegRow.push at *
  simp [h.1, h.2]

theorem SegRow.Al.sort {r : SegRow K} (h : r.Al) (S : StdSort K) : (r.sort S).Al := by
  unfold SegRow.Al SegRow.sort at *
  simp only [(S.vals.perm _).length_eq]
  exact h

theorem enhanceOne_al {a b c : SegRow K} {j1 j2 : ℕ} (ha : a.Al) (h : enhanceOne a b j1 j2 = .ok c) : c.Al := by
  unfold enhanceOne at h
  obtain ⟨m, -, h⟩ := Res.bind_eq_ok.1 h
  obtain ⟨bl, -, h⟩ := Res.bind_eq_ok.1 h
  obtain ⟨au, -, h⟩ := Res.bind_eq_ok.1 h
  split at h
  · obtain rfl := (Res.ok.injEq _ _).mp h
    exact ha.push _
  · obtain ⟨bu, -, h⟩ := Res.bind_eq_ok.1 h
    obtain ⟨al, -, h⟩ := Res.bind_eq_ok.1 h
    split at h
    · obtain rfl := (Res.ok.injEq _ _).mp h
      exact ha.push _
    · obtain rfl := (Res.ok.injEq _ _).mp h
      exact ha

theorem enhanceLoop_al {n1 n2 : ℕ} {ab c : SegRow K × SegRow K} (ha : ab.1.Al ∧ ab.2.Al)
    (h : enhanceLoop n1 n2 ab = .ok c) : c.1.Al ∧ c.2.Al := by
  have : Res.Sat False (enhanceLoop n1 n2 ab) (fun c => c.1.Al ∧ c.2.Al) := by
    unfold enhanceLoop
    refine Res.Sat.foldlM _ ?_ ab ha
    intro b1 j1 _ h1
    refine Res.Sat.foldlM _ ?_ b1 h1
    intro b2 j2 _ h2
    refine ⟨fun c hc => ?_, fun e => e.elim⟩
    unfold enhancePair at hc
    obtain ⟨a, e1, hc⟩ := Res.bind_eq_ok.1 hc
    obtain ⟨b, e2, hc⟩ := Res.bind_eq_ok.1 hc
    obtain rfl := (Res.ok.injEq _ _).mp hc
    exact ⟨enhanceOne_al h2.1 e1, enhanceOne_al h2.2 e2⟩
  exact this.1 c h

theorem enhanceRows_al (S : StdSort K) : ∀ (rest : List (SegRow K)) (n1 : ℕ) (a : SegRow K) (out : List (SegRow K)),
    a.Al → (∀ r ∈ rest, r.Al) → enhanceRows S n1 a rest = .ok out →
    out.length = rest.length + 1 ∧ ∀ r ∈ out, r.Al := by
  intro rest
  induction rest with
  | nil =>
    intro n1 a out ha _ h
    obtain rfl := (Res.ok.injEq _ _).mp h
    exact ⟨rfl, by simpa using ha⟩
  | cons b rest ih =>
    intro n1 a out ha hr h
    unfold enhanceRows at h
    obtain ⟨ab, e1, h⟩ := Res.bind_eq_ok.1 h
    obtain ⟨rest', e2, h⟩ := Res.bind_eq_ok.1 h
    obtain rfl := (Res.ok.injEq _ _).mp h
    obtain ⟨a1, a2⟩ := enhanceLoop_al (ab := (a, b)) ⟨ha, hr b (by simp)⟩ e1
    obtain ⟨l, hl⟩ := ih _ _ _ a2 (fun r hr' => hr r (by simp [hr'])) e2
    refine ⟨by simp [l], fun r hr' => ?_⟩
    rcases List.mem_cons.1 hr' with rfl | hr'
    · exact a1.sort S
    · exact hl r hr'

theorem enhance_al {S : StdSort K} {rows out : List (SegRow K)} (hr : ∀ r ∈ rows, r.Al) (h : enhance S rows = .ok out) :
    out.length = rows.length ∧ ∀ r ∈ out, r.Al := by
  cases rows with
  | nil => exact nomatch h
  | cons a rest => exact enhanceRows_al S rest _ a out (hr a (by simp)) (fun r h => hr r (by simp [h])) h

end align

theorem freeRows_al {S : StdSort ℝ} {dmin dmax : ℝ} {t : Table ℝ} {n : ℕ} {rows : List (SegRow ℝ)}
    (h : freeRows S dmin dmax t n = .ok rows) : rows.length = n ∧ ∀ r ∈ rows, r.Al := by
  have : Res.Sat False (freeRows S dmin dmax t n) (fun rows => rows.length = n ∧ ∀ r ∈ rows, r.Al) := by
    unfold freeRows
    refine Res.Sat.foldlM_range (P := fun k (rows : List (SegRow ℝ)) => rows.length = k ∧ ∀ r ∈ rows, r.Al) n ?_ []
      ⟨rfl, by simp⟩
    intro b i _ hb
    refine ⟨fun c hc => ?_, fun e => e.elim⟩
    obtain ⟨ivs, -, hc⟩ := Res.bind_eq_ok.1 hc
    obtain rfl := (Res.ok.injEq _ _).mp hc
    refine ⟨by simp [hb.1], fun r hr => ?_⟩
    rcases List.mem_append.1 hr with hr | hr
    · exact hb.2 r hr
    · obtain rfl := List.mem_singleton.1 hr
      simp [SegRow.Al, rowOf]
  exact this.1 rows h

/-- The free segments of a plane, however they come about. -/
theorem planeSeg_aligned {L : Libs3} {lowB upB : ℝ} {m : BoundMesh} {ys : List ℝ} {x : ℝ} {s : FreeSeg}
    (h : planeSeg L lowB upB m ys x = .ok s) : s.Aligned := by
  unfold planeSeg at h
  obtain ⟨t, -, h⟩ := Res.bind_eq_ok.1 h
  obtain ⟨rows, h1, h⟩ := Res.bind_eq_ok.1 h
  obtain rfl := (Res.ok.injEq _ _).mp h
  unfold computeFreeSegment at h1
  obtain ⟨rows0, h2, h3⟩ := Res.bind_eq_ok.1 h1
  obtain ⟨l0, a0⟩ := freeRows_al h2
  obtain ⟨l1, a1⟩ := enhance_al a0 h3
  exact ⟨l1.trans l0, a1⟩

theorem sweep3D_aligned {L : Libs3} {lowB upB : ℝ} {m : BoundMesh} {xs ys : List ℝ} {segs : List (ℝ × FreeSeg)}
    (h : sweep3D L lowB upB m xs ys = .ok segs) : ∀ p ∈ segs, p.2.Aligned := by
  intro p hp
  rcases sweep3D_planes _ _ _ h p hp with h | ⟨-, h⟩
  · exact nomatch h
  · exact planeSeg_aligned h

/-! ## The text of the segments -/

theorem flatMap_range_zip {α β γ : Type*} (f : α → β → List γ) (l : List α) (m : List β) (h : m.length = l.length)
    (g : ℕ → List γ) (hg : ∀ i a b, l[i]? = some a → m[i]? = some b → g i = f a b) :
    (List.range l.length).flatMap g = (l.zip m).flatMap fun p => f p.1 p.2 := by
  induction l generalizing m g with
  | nil => simp
  | cons a l ih =>
    cases m with
    | nil => simp at h
    | cons b m =>
      rw [List.length_cons, List.range_succ_eq_map, List.flatMap_cons, List.flatMap_map, List.zip_cons_cons,
        List.flatMap_cons, hg 0 a b rfl rfl]
      congr 1
      exact ih m (by simpa using h) (fun i => g (i + 1)) (fun i a' b' h1 h2 => hg (i + 1) a' b' h1 h2)

theorem segLineText_eq (pr : ℝ → List Char) (x : ℝ) {s : FreeSeg} (hs : s.Aligned) {j : ℕ} {y : ℝ} {r : SegRow ℝ}
    (hy : s.ty[j]? = some y) (hr : s.rows[j]? = some r) (acc : List Char) :
    segLineText pr x s acc j = .ok (acc ++
      (((r.L.zip (r.M.zip r.U)).map fun t => [x, y, t.1, t.2.1, t.2.2]).flatMap (writeRow pr))) := by
  obtain ⟨a1, a2⟩ := hs.2 r (List.mem_of_getElem? hr)
  unfold segLineText
  rw [Res.idx_eq_ok.2 hy, Res.bind_ok', Res.idx_eq_ok.2 hr, Res.bind_ok',
    foldlM_flatMap (c := fun k => writeRow pr [x, y, r.L.getD k 0, r.M.getD k 0, r.U.getD k 0]) _ ?_ acc]
  · congr 2
    have hz : (r.M.zip r.U).length = r.M.length := by simp [a2]
    have hl : (List.range r.M.length) = List.range r.L.length := by rw [a1]
    rw [hl, flatMap_range_zip (fun l (t : ℝ × ℝ) => writeRow pr [x, y, l, t.1, t.2]) r.L (r.M.zip r.U) (by rw [hz, a1])
      _ ?_, List.flatMap_map]
    intro i l t h1 h2
    obtain ⟨h3, h4⟩ := List.getElem?_zip_eq_some.1 h2
    simp only [List.getD_eq_getElem?_getD, h1, h3, h4, Option.getD_some]
  · intro k hk acc
    have hk := List.mem_range.1 hk
    have e1 : Res.idx r.L k = .ok (r.L.getD k 0) := by
      rw [Res.idx_eq_ok, List.getD_eq_getElem?_getD, List.getElem?_eq_getElem (by omega)]; rfl
    have e2 : Res.idx r.M k = .ok (r.M.getD k 0) := by
      rw [Res.idx_eq_ok, List.getD_eq_getElem?_getD, List.getElem?_eq_getElem (by omega)]; rfl
    have e3 : Res.idx r.U k = .ok (r.U.getD k 0) := by
      rw [Res.idx_eq_ok, List.getD_eq_getElem?_getD, List.getElem?_eq_getElem (by omega)]; rfl
    unfold segEntry
    rw [e1, Res.bind_ok', e2, Res.bind_ok', e3, Res.bind_ok', Res.bind_ok']

/-- The loops never fail on aligned segments, and the text is that of the table. -/
theorem segText_eq (pr : ℝ → List Char) {segs : List (ℝ × FreeSeg)} (h : ∀ p ∈ segs, p.2.Aligned) :
    segText pr segs = .ok ((segmentRows segs).flatMap (writeRow pr)) := by
  unfold segText segmentRows
  rw [foldlM_flatMap (c := fun p => ((p.2.ty.zip p.2.rows).flatMap fun yr =>
    (yr.2.L.zip (yr.2.M.zip yr.2.U)).map fun t => [p.1, yr.1, t.1, t.2.1, t.2.2]).flatMap (writeRow pr)) _ ?_ [],
    List.nil_append, List.flatMap_assoc]
  intro p hp acc
  have ha := h p hp
  have key : ∀ j ∈ List.range p.2.ty.length, ∀ acc, segLineText pr p.1 p.2 acc j = .ok (acc ++
      ((((p.2.rows.getD j ⟨[], [], []⟩).L.zip ((p.2.rows.getD j ⟨[], [], []⟩).M.zip
        (p.2.rows.getD j ⟨[], [], []⟩).U)).map fun t => [p.1, p.2.ty.getD j 0, t.1, t.2.1, t.2.2]).flatMap
          (writeRow pr))) := by
    intro j hj acc
    have hj := List.mem_range.1 hj
    have h1 : p.2.ty[j]? = some (p.2.ty.getD j 0) := by
      rw [List.getD_eq_getElem?_getD, List.getElem?_eq_getElem hj]; rfl
    have h2 : p.2.rows[j]? = some (p.2.rows.getD j ⟨[], [], []⟩) := by
      rw [List.getD_eq_getElem?_getD, List.getElem?_eq_getElem (by rw [ha.1]; exact hj)]; rfl
    exact segLineText_eq pr p.1 ha h1 h2 acc
  rw [foldlM_flatMap _ key acc]
  congr 2
  rw [flatMap_range_zip (fun y (r : SegRow ℝ) => ((r.L.zip (r.M.zip r.U)).map fun t => [p.1, y, t.1, t.2.1, t.2.2]).flatMap
    (writeRow pr)) p.2.ty p.2.rows ha.1 _ ?_, List.flatMap_assoc]
  intro i y r h1 h2
  simp only [List.getD_eq_getElem?_getD, h1, h2, Option.getD_some]

/-- A row of the table. -/
theorem mem_segmentRows {segs : List (ℝ × FreeSeg)} {row : List ℝ} (h : row ∈ segmentRows segs) :
    ∃ p ∈ segs, ∃ (j k : ℕ) (y : ℝ) (r : SegRow ℝ) (l m u : ℝ), p.2.ty[j]? = some y ∧ p.2.rows[j]? = some r ∧
      r.L[k]? = some l ∧ r.M[k]? = some m ∧ r.U[k]? = some u ∧ row = [p.1, y, l, m, u] := by
  unfold segmentRows at h
  obtain ⟨p, hp, h⟩ := List.mem_flatMap.1 h
  obtain ⟨yr, hyr, h⟩ := List.mem_flatMap.1 h
  obtain ⟨t, ht, rfl⟩ := List.mem_map.1 h
  obtain ⟨j, hj⟩ := List.mem_iff_getElem?.1 hyr
  obtain ⟨k, hk⟩ := List.mem_iff_getElem?.1 ht
  obtain ⟨h1, h2⟩ := List.getElem?_zip_eq_some.1 hj
  obtain ⟨h3, h4⟩ := List.getElem?_zip_eq_some.1 hk
  obtain ⟨h5, h6⟩ := List.getElem?_zip_eq_some.1 h4
  exact ⟨p, hp, j, k, _, _, _, _, _, h1, h2, h3, h5, h6, rfl⟩

/-- Every sample has its row. -/
theorem sample_row {segs : List (ℝ × FreeSeg)} (ha : ∀ p ∈ segs, p.2.Aligned) {ori v : Vec}
    (h : SliceSample ori segs v) : ∃ x y l m u, [x, y, l, m, u] ∈ segmentRows segs ∧ v = x :: y :: m :: ori := by
  obtain ⟨p, hp, j, y, r, z, hy, hr, hz, rfl⟩ := h
  obtain ⟨a1, a2⟩ := (ha p hp).2 r (List.mem_of_getElem? hr)
  obtain ⟨k, hk⟩ := List.mem_iff_getElem?.1 hz
  have hkl := (List.getElem?_eq_some_iff.1 hk).1
  have h1 := List.getElem?_eq_getElem (l := r.L) (i := k) (by omega)
  have h2 := List.getElem?_eq_getElem (l := r.U) (i := k) (by omega)
  refine ⟨p.1, y, r.L[k]'(by omega), z, r.U[k]'(by omega), ?_, rfl⟩
  unfold segmentRows
  refine List.mem_flatMap.2 ⟨p, hp, List.mem_flatMap.2 ⟨(y, r), List.mem_iff_getElem?.2 ⟨j, List.getElem?_zip_eq_some.2 ⟨hy, hr⟩⟩,
    List.mem_map.2 ⟨(r.L[k]'(by omega), z, r.U[k]'(by omega)), List.mem_iff_getElem?.2 ⟨k, List.getElem?_zip_eq_some.2 ⟨h1, List.getElem?_zip_eq_some.2 ⟨hk, h2⟩⟩⟩, rfl⟩⟩⟩

end Hrm
