import Verif.Spec.Rounding
import Verif.Model.Rounded
import Verif.Lemmas.Table
import Verif.Lemmas.Polygon

/-!
# Lemmas about the sweep in rounded arithmetic
-/

set_option linter.unusedSectionVars false

namespace Hrm
open Hrm.Interval

variable {fl : ℝ → ℝ} {u η : ℝ}

/-! ### With exact arithmetic the rounded model is the exact model -/

theorem horizEdgeF_id (ty : ℝ) (e : Pt ℝ × Pt ℝ) : horizEdgeF id ty e = horizEdge ty e := rfl

theorem isect2DF_id (ty : ℝ) (sh : List (Pt ℝ)) : isect2DF id ty sh = isect2D ty sh := by
  unfold isect2DF isect2D horizLinePolygon
  cases sh with
  | nil => rfl
  | cons p ps =>
    dsimp only
    split <;> rfl

theorem computeFreeSegmentF_id (S : StdSort ℝ) (dmin dmax : ℝ) (t : Table ℝ) (n : ℕ) :
    computeFreeSegmentF id S dmin dmax t n = computeFreeSegment S dmin dmax t n := rfl

/-! ### Middles -/

/-- The rounded middle of an interval between machine numbers is in the interval. -/
theorem midF_mem (R : Rounding fl u η) {iv : Interval ℝ} (h : iv.s ≤ iv.e) (hs : fl iv.s = iv.s) (he : fl iv.e = iv.e) :
    iv.s ≤ midF fl iv ∧ midF fl iv ≤ iv.e := by
  have h1 : 2 * iv.s ≤ fl (iv.s + iv.e) := by
    rw [← R.double _ hs]; exact R.mono (by linarith)
  have h2 : fl (iv.s + iv.e) ≤ 2 * iv.e := by
    rw [← R.double _ he]; exact R.mono (by linarith)
  unfold midF
  constructor
  · calc iv.s = fl iv.s := hs.symm
      _ ≤ _ := R.mono (by linarith)
  · calc fl (fl (iv.s + iv.e) / 2) ≤ fl iv.e := R.mono (by linarith)
      _ = iv.e := he

/-! ### The enhancement loops, for any choice of the middles -/

section enhance
variable {K : Type*} [LinearOrder K] (m : Interval K → K)

/-- Low, upper and middle coordinates of the intervals. -/
def rowBy (ivs : List (Interval K)) : SegRow K := ⟨ivs.map (·.s), ivs.map (·.e), ivs.map m⟩

/-- The row with the points `P` pushed to all three lists. -/
def extBy (ivs : List (Interval K)) (P : List K) : SegRow K := ⟨ivs.map (·.s) ++ P, ivs.map (·.e) ++ P, ivs.map m ++ P⟩

/-- The point pushed into segment `x`'s row because of segment `y` of the neighbouring row. -/
def addPtBy (x y : Interval K) : List K :=
  if m x < y.s ∧ y.s ≤ x.e then [y.s] else if y.e < m x ∧ x.s ≤ y.e then [y.e] else []

theorem rowBy_eq (ivs : List (Interval K)) : rowBy m ivs = extBy m ivs [] := by simp [rowBy, extBy]

theorem enhanceOne_extBy (xs ys : List (Interval K)) (P Q : List K) (j1 j2 : ℕ) (h1 : j1 < xs.length) (h2 : j2 < ys.length) :
    enhanceOne (extBy m xs P) (extBy m ys Q) j1 j2 = .ok (extBy m xs (P ++ addPtBy m xs[j1] ys[j2])) := by
  have hg : ∀ (zs : List (Interval K)) (R : List K) (f : Interval K → K) (j : ℕ)
      (h : j < zs.length), Res.idx (zs.map f ++ R) j = .ok (f zs[j]) := by
    intro zs R f j h
    rw [Res.idx_eq_ok, List.getElem?_append_left (by simpa using h)]
    simp [h]
  unfold enhanceOne
  simp only [extBy]
  rw [hg xs P m j1 h1, hg ys Q (·.s) j2 h2, hg xs P (·.e) j1 h1, hg ys Q (·.e) j2 h2, hg xs P (·.s) j1 h1]
  simp only [Res.bind_ok]
  unfold addPtBy
  split
  · simp [SegRow.push]
  · split <;> simp [SegRow.push]

theorem enhanceLoop_extBy (xs ys : List (Interval K)) (P Q : List K) :
    enhanceLoop xs.length ys.length (extBy m xs P, extBy m ys Q) =
      .ok (extBy m xs (P ++ xs.flatMap fun x => ys.flatMap fun y => addPtBy m x y),
           extBy m ys (Q ++ xs.flatMap fun x => ys.flatMap fun y => addPtBy m y x)) := by
  unfold enhanceLoop
  obtain ⟨s, h1, h2⟩ := foldlM_range_inv
    (fun (ab : SegRow K × SegRow K) j1 =>
      (List.range ys.length).foldlM (fun ab j2 => enhancePair ab j1 j2) ab)
    (fun k ab => ab = (extBy m xs (P ++ (xs.take k).flatMap fun x => ys.flatMap fun y => addPtBy m x y),
           extBy m ys (Q ++ (xs.take k).flatMap fun x => ys.flatMap fun y => addPtBy m y x)))
    xs.length (extBy m xs P, extBy m ys Q) (by simp) (by
      intro k hk s hs
      subst hs
      set P' := P ++ (xs.take k).flatMap fun x => ys.flatMap fun y => addPtBy m x y with hP'
      set Q' := Q ++ (xs.take k).flatMap fun x => ys.flatMap fun y => addPtBy m y x with hQ'
      obtain ⟨s, h1, h2⟩ := foldlM_range_inv
        (fun (ab : SegRow K × SegRow K) j2 => enhancePair ab k j2)
        (fun l ab => ab = (extBy m xs (P' ++ (ys.take l).flatMap fun y => addPtBy m xs[k] y),
           extBy m ys (Q' ++ (ys.take l).flatMap fun y => addPtBy m y xs[k])))
        ys.length (extBy m xs P', extBy m ys Q') (by simp) (by
          intro l hl s hs
          subst hs
          refine ⟨_, ?_, rfl⟩
          unfold enhancePair
          simp only
          rw [enhanceOne_extBy m xs ys _ _ k l hk hl]
          simp only [Res.bind_ok]
          rw [enhanceOne_extBy m ys xs _ _ l k hl hk]
          simp only [Res.bind_ok]
          simp only [List.take_succ_eq_append_getElem hl, List.flatMap_append, List.flatMap_cons,
            List.flatMap_nil, List.append_nil, List.append_assoc])
      refine ⟨s, h1, ?_⟩
      rw [h2, List.take_length, List.take_succ_eq_append_getElem hk]
      simp only [List.flatMap_append, List.flatMap_cons, List.flatMap_nil, List.append_nil,
        List.append_assoc, hP', hQ'])
  rw [h1, h2, List.take_length]

/-- Closed form of the rows after enhancement. -/
def enhancedRowsBy (S : StdSort K) : List K → List (Interval K) → List (List (Interval K)) → List (SegRow K)
  | P, xs, [] => [extBy m xs P]
  | P, xs, ys :: rest =>
    (extBy m xs (P ++ xs.flatMap fun x => ys.flatMap fun y => addPtBy m x y)).sort S ::
      enhancedRowsBy S (xs.flatMap fun x => ys.flatMap fun y => addPtBy m y x) ys rest

theorem enhanceRows_extBy (S : StdSort K) (rest : List (List (Interval K))) :
    ∀ (P : List K) (xs : List (Interval K)),
      enhanceRows S xs.length (extBy m xs P) (rest.map (rowBy m)) = .ok (enhancedRowsBy m S P xs rest) := by
  induction rest with
  | nil => intro P xs; simp [enhanceRows, enhancedRowsBy]
  | cons ys rest ih =>
    intro P xs
    simp only [List.map_cons, enhanceRows, enhancedRowsBy]
    have hlen : (rowBy m ys).M.length = ys.length := by simp [rowBy]
    rw [hlen, rowBy_eq, enhanceLoop_extBy]
    simp only [Res.bind_ok, List.nil_append]
    rw [ih]
    simp

theorem enhanceBy_eq (S : StdSort K) (xs : List (Interval K)) (rest : List (List (Interval K))) :
    enhance S ((xs :: rest).map (rowBy m)) = .ok (enhancedRowsBy m S [] xs rest) := by
  have := enhanceRows_extBy m S rest [] xs
  simp only [List.map_cons, enhance]
  rw [← this, rowBy_eq]
  simp [extBy]

theorem enhancedRowsBy_length (S : StdSort K) (rest : List (List (Interval K))) :
    ∀ (P : List K) (xs : List (Interval K)), (enhancedRowsBy m S P xs rest).length = rest.length + 1 := by
  induction rest with
  | nil => intro P xs; simp [enhancedRowsBy]
  | cons ys rest ih => intro P xs; simp [enhancedRowsBy, ih]

variable {m}

theorem addPtBy_mem {x y : Interval K} (hm : x.s ≤ m x ∧ m x ≤ x.e) {p : K} (hp : p ∈ addPtBy m x y) : x.s ≤ p ∧ p ≤ x.e := by
  unfold addPtBy at hp
  split at hp
  · rename_i h
    simp only [List.mem_singleton] at hp; subst hp
    exact ⟨hm.1.trans h.1.le, h.2⟩
  · split at hp
    · rename_i h
      simp only [List.mem_singleton] at hp; subst hp
      exact ⟨h.2, h.1.le.trans hm.2⟩
    · simp at hp

/-- Every row after enhancement: the intervals of the line and points in them, sorted or not. -/
theorem enhancedRowsBy_get (S : StdSort K) (rest : List (List (Interval K))) :
    ∀ (P : List K) (xs : List (Interval K)),
      (∀ p ∈ P, ∃ iv ∈ xs, iv.s ≤ p ∧ p ≤ iv.e) →
      (∀ l ∈ xs :: rest, ∀ iv ∈ l, iv.s ≤ m iv ∧ m iv ≤ iv.e) →
      ∀ (i : ℕ) (ivs : List (Interval K)), (xs :: rest)[i]? = some ivs →
      ∃ Q : List K, (∀ p ∈ Q, ∃ iv ∈ ivs, iv.s ≤ p ∧ p ≤ iv.e) ∧
        (enhancedRowsBy m S P xs rest)[i]? =
          some (if i = rest.length then extBy m ivs Q else (extBy m ivs Q).sort S) := by
  induction rest with
  | nil =>
    intro P xs hP hv i ivs hi
    cases i with
    | zero =>
      simp only [List.getElem?_cons_zero, Option.some.injEq] at hi
      subst hi
      exact ⟨P, hP, by simp [enhancedRowsBy]⟩
    | succ i => simp at hi
  | cons ys rest ih =>
    intro P xs hP hv i ivs hi
    have hvx := hv xs (by simp)
    have hvy := hv ys (by simp)
    cases i with
    | zero =>
      simp only [List.getElem?_cons_zero, Option.some.injEq] at hi
      subst hi
      refine ⟨P ++ xs.flatMap fun x => ys.flatMap fun y => addPtBy m x y, ?_, ?_⟩
      · intro p hp
        rcases List.mem_append.1 hp with hp | hp
        · exact hP p hp
        · simp only [List.mem_flatMap] at hp
          obtain ⟨x, hx, y, hy, hp⟩ := hp
          exact ⟨x, hx, addPtBy_mem (hvx x hx) hp⟩
      · simp [enhancedRowsBy]
    | succ i =>
      obtain ⟨Q, q1, q5⟩ := ih (xs.flatMap fun x => ys.flatMap fun y => addPtBy m y x) ys
        (by
          intro p hp
          simp only [List.mem_flatMap] at hp
          obtain ⟨x, hx, y, hy, hp⟩ := hp
          exact ⟨y, hy, addPtBy_mem (hvy y hy) hp⟩)
        (fun l hl => hv l (by simp [List.mem_cons.1 hl])) i ivs (by simpa using hi)
      refine ⟨Q, q1, ?_⟩
      simp only [enhancedRowsBy, List.getElem?_cons_succ, List.length_cons]
      rw [q5]
      simp

end enhance

/-! ### The ends of the free intervals are ends of the given ones -/

section ends
variable {α : Type*} [LinearOrder α] {P : α → Prop}

/-- Both ends of all intervals have the property. -/
def Ends (P : α → Prop) (l : List (Interval α)) : Prop := ∀ iv ∈ l, P iv.s ∧ P iv.e

theorem foldl_mergeStep_ends (l : List (Interval α)) : ∀ acc : List (Interval α), Ends P acc → Ends P l →
    Ends P (l.foldl mergeStep acc) := by
  induction l with
  | nil => intro acc h _; exact h
  | cons x xs ih =>
    intro acc ha hl
    refine ih _ ?_ (fun iv hiv => hl iv (by simp [hiv]))
    have hx := hl x (by simp)
    unfold mergeStep
    cases acc with
    | nil => intro iv hiv; obtain rfl := List.mem_singleton.1 hiv; exact hx
    | cons b bs =>
      have hb := ha b (by simp)
      dsimp only
      split
      · intro iv hiv
        rcases List.mem_cons.1 hiv with rfl | hiv
        · exact hx
        · exact ha iv hiv
      · intro iv hiv
        rcases List.mem_cons.1 hiv with rfl | hiv
        · refine ⟨hb.1, ?_⟩
          rcases max_choice b.e x.e with h | h <;> simp only [h]
          · exact hb.2
          · exact hx.2
        · exact ha iv (by simp [hiv])

theorem unions_ends (S : StdSort α) {l : List (Interval α)} (h : Ends P l) : Ends P (unions S l) := by
  rw [unions_eq]
  have hs : Ends P (S.byStart.run l) := fun iv hiv => h iv ((S.byStart.perm l).mem_iff.1 hiv)
  unfold mergeSorted
  split
  · intro iv hiv; simp at hiv
  · rename_i x xs e
    rw [e] at hs
    intro iv hiv
    exact foldl_mergeStep_ends _ [x] (fun iv hiv => by obtain rfl := List.mem_singleton.1 hiv; exact hs _ (by simp)) hs iv
      (List.mem_reverse.1 hiv)

theorem intersects_ends (S : StdSort α) {l : List (Interval α)} (h : Ends P l) : Ends P (intersects S l) := by
  unfold intersects
  split
  · intro iv hiv; simp at hiv
  · dsimp only
    split
    · rename_i a b ha hb
      split
      · intro iv hiv; simp at hiv
      · intro iv hiv
        obtain rfl := List.mem_singleton.1 hiv
        have h1 : a ∈ l := (S.byStart.perm l).mem_iff.1 (List.mem_of_getLast? ha)
        have h2 : b ∈ l := (S.byStart.perm l).mem_iff.1 ((S.byEnd.perm _).mem_iff.1 (List.mem_of_mem_head? hb))
        exact ⟨(h a h1).1, (h b h2).2⟩
    · intro iv hiv; simp at hiv

theorem gaps_ends {dmax : α} (hd : P dmax) : ∀ l : List (Interval α), Ends P l → Ends P (gaps dmax l)
  | [], _ => fun iv hiv => by simp [gaps] at hiv
  | [x], h => fun iv hiv => by
    obtain rfl := List.mem_singleton.1 hiv
    exact ⟨(h x (by simp)).2, hd⟩
  | x :: y :: ys, h => fun iv hiv => by
    rcases List.mem_cons.1 hiv with rfl | hiv
    · exact ⟨(h x (by simp)).2, (h y (by simp)).1⟩
    · exact gaps_ends hd (y :: ys) (fun iv hiv => h iv (by simp [List.mem_cons.1 hiv])) iv hiv

theorem complements_ends (S : StdSort α) {dmin dmax : α} (h1 : P dmin) (h2 : P dmax) {outer inner : List (Interval α)}
    (ho : Ends P outer) (hi : Ends P inner) : Ends P (complements S dmin dmax outer inner) := by
  unfold complements
  split
  · intro iv hiv; simp at hiv
  · rename_i o os
    split
    · exact ho
    · intro iv hiv
      obtain ⟨c, hc, hh⟩ := List.mem_filterMap.1 hiv
      have hs : Ends P (S.byStart.run inner) := fun iv hiv => hi iv ((S.byStart.perm inner).mem_iff.1 hiv)
      have hcP : P c.s ∧ P c.e := by
        unfold compOf at hc
        split at hc
        · simp at hc
        · rename_i x xs e
          rw [e] at hs
          rcases List.mem_cons.1 hc with rfl | hc
          · exact ⟨h1, (hs x (by simp)).1⟩
          · exact gaps_ends h2 _ hs c hc
      refine intersects_ends S (l := [c, o]) ?_ iv (List.mem_of_mem_head? hh)
      intro iv hiv
      simp only [List.mem_cons, List.not_mem_nil, or_false] at hiv
      rcases hiv with rfl | rfl
      · exact hcP
      · exact ho _ (by simp)

theorem sweepLineFree_ends (S : StdSort α) {dmin dmax : α} (h1 : P dmin) (h2 : P dmax) {t : Table α} {i : ℕ}
    {al au ol ou : List (Option α)} (h : t.RowOk dmin dmax i al au ol ou) (ha : Ends P (pairs al au)) (ho : Ends P (pairs ol ou))
    {ivs : List (Interval α)} (hs : sweepLineFree S dmin dmax t i = .ok ivs) : Ends P ivs := by
  unfold sweepLineFree at hs
  rw [rowIntervals_ok _ _ i al au h.hal h.hau h.la, rowIntervals_ok _ _ i ol ou h.hol h.hou h.lo] at hs
  simp only [Res.bind_ok] at hs
  obtain rfl := (Res.ok.injEq _ _).mp hs
  exact complements_ends S h1 h2 (intersects_ends S ha) (unions_ends S ho)

end ends

end Hrm
