import Verif.Spec.Polygon
import Mathlib.Tactic.Linarith
import Mathlib.Tactic.Ring
import Mathlib.Tactic.FieldSimp
import Mathlib.Analysis.Convex.Combination

set_option linter.unusedSectionVars false
set_option linter.unusedVariables false

namespace Hrm

section
variable {K : Type*}

/-- Edges along an open path. -/
def pathEdges (p : Pt K) : List (Pt K) → List (Pt K × Pt K)
  | [] => []
  | q :: qs => (p, q) :: pathEdges q qs

theorem zip_pathEdges (p z : Pt K) (ps : List (Pt K)) :
    (p :: ps).zip (ps ++ [z]) = pathEdges p (ps ++ [z]) := by
  induction ps generalizing p with
  | nil => simp [pathEdges]
  | cons q qs ih => simp only [List.cons_append, pathEdges, List.zip_cons_cons, ← ih]

theorem edgesOf_cons (p : Pt K) (ps : List (Pt K)) :
    edgesOf (p :: ps) = pathEdges p (ps ++ [p]) := by
  rw [edgesOf, zip_pathEdges]

theorem mem_edgesOf {shape : List (Pt K)} {e : Pt K × Pt K} (h : e ∈ edgesOf shape) :
    e.1 ∈ shape ∧ e.2 ∈ shape := by
  cases shape with
  | nil => simp [edgesOf] at h
  | cons p ps =>
    rw [edgesOf] at h
    have := List.of_mem_zip (a := e.1) (b := e.2) (by simpa using h)
    refine ⟨this.1, ?_⟩
    rcases List.mem_append.1 this.2 with h | h
    · simp [h]
    · simp at h; simp [h]

/-! ### Changes of a label along a path -/

variable {C : Type*} [DecidableEq C]

theorem change_count (c : Pt K → C) (l : List (Pt K)) (p z : Pt K) :
    (((pathEdges p (l ++ [z])).filter (fun e => decide (c e.1 ≠ c e.2))).length = 0 → c p = c z) ∧
    (((pathEdges p (l ++ [z])).filter (fun e => decide (c e.1 ≠ c e.2))).length = 1 → c p ≠ c z) := by
  induction l generalizing p with
  | nil =>
    simp only [List.nil_append, pathEdges]
    by_cases h : c p = c z <;> simp [h]
  | cons q qs ih =>
    obtain ⟨i0, i1⟩ := ih q
    simp only [List.cons_append, pathEdges]
    by_cases h : c p = c q
    · rw [List.filter_cons_of_neg (by simp [h]), h]
      exact ⟨i0, i1⟩
    · rw [List.filter_cons_of_pos (by simp [h])]
      refine ⟨by simp, ?_⟩
      intro h1
      rw [← i0 (by simpa using h1)]
      exact h

/-- If a label takes the value of the start nowhere... an edge where `c` first becomes true. -/
theorem exists_up_edge (b : Pt K → Bool) (l : List (Pt K)) (p : Pt K) (hp : b p = false)
    (v : Pt K) (hv : v ∈ l) (hb : b v = true) :
    ∃ e ∈ pathEdges p l, b e.1 = false ∧ b e.2 = true := by
  induction l generalizing p with
  | nil => simp at hv
  | cons q qs ih =>
    by_cases hq : b q = true
    · exact ⟨(p, q), by simp [pathEdges], hp, hq⟩
    · have hq' : b q = false := by simpa using hq
      rcases List.mem_cons.1 hv with rfl | hv
      · rw [hb] at hq'; simp at hq'
      · obtain ⟨e, he, h⟩ := ih q hq' hv
        exact ⟨e, by simp [pathEdges, he], h⟩

/-- In a closed polygon with both labels there are edges in both directions. -/
theorem exists_edges_both (b : Pt K → Bool) (shape : List (Pt K)) (u v : Pt K) (hu : u ∈ shape)
    (hv : v ∈ shape) (hbu : b u = false) (hbv : b v = true) :
    (∃ e ∈ edgesOf shape, b e.1 = false ∧ b e.2 = true) ∧
    (∃ e ∈ edgesOf shape, b e.1 = true ∧ b e.2 = false) := by
  cases shape with
  | nil => simp at hu
  | cons p ps =>
    rw [edgesOf_cons]
    -- general: path from p through all vertices back to p
    have gen : ∀ (b : Pt K → Bool) (u v : Pt K), u ∈ p :: ps → v ∈ p :: ps → b u = false →
        b v = true → b p = false →
        (∃ e ∈ pathEdges p (ps ++ [p]), b e.1 = false ∧ b e.2 = true) ∧
        (∃ e ∈ pathEdges p (ps ++ [p]), b e.1 = true ∧ b e.2 = false) := by
      intro b u v hu hv hbu hbv hp
      have hv' : v ∈ ps := by
        rcases List.mem_cons.1 hv with rfl | h
        · rw [hp] at hbv; simp at hbv
        · exact h
      refine ⟨exists_up_edge b _ p hp v (by simp [hv']) hbv, ?_⟩
      -- from v on, the path returns to p
      obtain ⟨l1, l2, rfl⟩ := List.append_of_mem hv'
      have sub : ∀ (l : List (Pt K)) (q : Pt K) (r : List (Pt K)) (e : Pt K × Pt K),
          e ∈ pathEdges v r → e ∈ pathEdges q (l ++ v :: r) := by
        intro l
        induction l with
        | nil => intro q r e he; simp [pathEdges, he]
        | cons a l ih => intro q r e he; simp [pathEdges, ih a r e he]
      obtain ⟨e, he, h1, h2⟩ := exists_up_edge (fun x => !b x) (l2 ++ [p]) v (by simp [hbv]) p
        (by simp) (by simp [hp])
      refine ⟨e, ?_, by simpa using h1, by simpa using h2⟩
      have := sub l1 p (l2 ++ [p]) e he
      simpa using this
    cases hp : b p with
    | false => exact gen b u v hu hv hbu hbv hp
    | true =>
      obtain ⟨h1, h2⟩ := gen (fun x => !b x) v u hv hu (by simp [hbv]) (by simp [hbu]) (by simp [hp])
      constructor
      · obtain ⟨e, he, a, c⟩ := h2
        exact ⟨e, he, by simpa using a, by simpa using c⟩
      · obtain ⟨e, he, a, c⟩ := h1
        exact ⟨e, he, by simpa using a, by simpa using c⟩

/-- The first two label changes of a path go in opposite directions. -/
theorem first_changes (b : Pt K → Bool) (l : List (Pt K)) (p : Pt K) (e1 e2 : Pt K × Pt K)
    (es : List (Pt K × Pt K))
    (h : (pathEdges p l).filter (fun e => decide (b e.1 ≠ b e.2)) = e1 :: e2 :: es) :
    b e1.1 = b p ∧ b e1.2 = !b p ∧ b e2.1 = !b p ∧ b e2.2 = b p := by
  have first : ∀ (l : List (Pt K)) (p : Pt K) (e : Pt K × Pt K) (es : List (Pt K × Pt K)),
      (pathEdges p l).filter (fun e => decide (b e.1 ≠ b e.2)) = e :: es →
      b e.1 = b p ∧ b e.2 = !b p := by
    intro l
    induction l with
    | nil => intro p e es h; simp [pathEdges] at h
    | cons q qs ih =>
      intro p e es h
      simp only [pathEdges] at h
      by_cases hc : b p = b q
      · rw [List.filter_cons_of_neg (by simp [hc])] at h
        have := ih q e es h
        rw [hc]; exact this
      · rw [List.filter_cons_of_pos (by simp [hc])] at h
        obtain ⟨rfl, -⟩ := List.cons.inj h
        refine ⟨rfl, ?_⟩
        simp only
        cases hb : b p <;> cases hq : b q <;> simp_all
  induction l generalizing p with
  | nil => simp [pathEdges] at h
  | cons q qs ih =>
    simp only [pathEdges] at h
    by_cases hc : b p = b q
    · rw [List.filter_cons_of_neg (by simp [hc])] at h
      rw [hc]; exact ih q h
    · rw [List.filter_cons_of_pos (by simp [hc])] at h
      obtain ⟨rfl, h'⟩ := List.cons.inj h
      have := first qs q e2 es h'
      have hq : b q = !b p := by cases hb : b p <;> cases hq : b q <;> simp_all
      refine ⟨rfl, hq, ?_, ?_⟩
      · rw [this.1, hq]
      · rw [this.2, hq]; simp

end

/-! ### Coefficients -/

section
variable {K : Type*} [LinearOrder K]

theorem le_foldl_max (l : List K) (a : K) : a ≤ l.foldl max a ∧ ∀ x ∈ l, x ≤ l.foldl max a := by
  induction l generalizing a with
  | nil => simp
  | cons b l ih =>
    obtain ⟨h1, h2⟩ := ih (max a b)
    simp only [List.foldl_cons]
    refine ⟨(le_max_left a b).trans h1, ?_⟩
    intro x hx
    rcases List.mem_cons.1 hx with rfl | hx
    · exact (le_max_right a x).trans h1
    · exact h2 x hx

theorem foldl_max_mem (l : List K) (a : K) : l.foldl max a = a ∨ l.foldl max a ∈ l := by
  induction l generalizing a with
  | nil => simp
  | cons b l ih =>
    simp only [List.foldl_cons]
    rcases ih (max a b) with h | h
    · rw [h]
      rcases max_choice a b with h' | h' <;> rw [h'] <;> simp
    · right; simp [h]

theorem foldl_min_le (l : List K) (a : K) : l.foldl min a ≤ a ∧ ∀ x ∈ l, l.foldl min a ≤ x := by
  induction l generalizing a with
  | nil => simp
  | cons b l ih =>
    obtain ⟨h1, h2⟩ := ih (min a b)
    simp only [List.foldl_cons]
    refine ⟨h1.trans (min_le_left a b), ?_⟩
    intro x hx
    rcases List.mem_cons.1 hx with rfl | hx
    · exact h1.trans (min_le_right a x)
    · exact h2 x hx

theorem foldl_min_mem (l : List K) (a : K) : l.foldl min a = a ∨ l.foldl min a ∈ l := by
  induction l generalizing a with
  | nil => simp
  | cons b l ih =>
    simp only [List.foldl_cons]
    rcases ih (min a b) with h | h
    · rw [h]
      rcases min_choice a b with h' | h' <;> rw [h'] <;> simp
    · right; simp [h]

end

section
variable {K : Type*} [Field K] [LinearOrder K] [IsStrictOrderedRing K]

/-- Above / on / below the horizontal line. -/
def side (ty : K) (v : Pt K) : Ordering := compare v.2 ty

theorem gt_maxCoeff (p : Pt K) (ps : List (Pt K)) (ty : K) :
    ty > maxCoeff p.2 (ps.map (·.2)) ↔ ∀ v ∈ p :: ps, v.2 < ty := by
  unfold maxCoeff
  obtain ⟨h1, h2⟩ := le_foldl_max (ps.map (·.2)) p.2
  constructor
  · intro h v hv
    rcases List.mem_cons.1 hv with rfl | hv
    · exact lt_of_le_of_lt h1 h
    · exact lt_of_le_of_lt (h2 _ (List.mem_map_of_mem hv)) h
  · intro h
    rcases foldl_max_mem (ps.map (·.2)) p.2 with e | e
    · rw [e]; exact h p (by simp)
    · obtain ⟨v, hv, e'⟩ := List.mem_map.1 e
      rw [← e']; exact h v (by simp [hv])

theorem lt_minCoeff (p : Pt K) (ps : List (Pt K)) (ty : K) :
    ty < minCoeff p.2 (ps.map (·.2)) ↔ ∀ v ∈ p :: ps, ty < v.2 := by
  unfold minCoeff
  obtain ⟨h1, h2⟩ := foldl_min_le (ps.map (·.2)) p.2
  constructor
  · intro h v hv
    rcases List.mem_cons.1 hv with rfl | hv
    · exact lt_of_lt_of_le h h1
    · exact lt_of_lt_of_le h (h2 _ (List.mem_map_of_mem hv))
  · intro h
    rcases foldl_min_mem (ps.map (·.2)) p.2 with e | e
    · rw [e]; exact h p (by simp)
    · obtain ⟨v, hv, e'⟩ := List.mem_map.1 e
      rw [← e']; exact h v (by simp [hv])

/-- Value and condition of the edge test. -/
theorem horizEdge_some {ty : K} {e : Pt K × Pt K} {x : K} (h : horizEdge ty e = some x) :
    e.1.2 ≠ e.2.2 ∧ OnEdge e (x, ty) ∧
      x = (ty - e.2.2) / (e.1.2 - e.2.2) * e.1.1 + (1 - (ty - e.2.2) / (e.1.2 - e.2.2)) * e.2.1 := by
  unfold horizEdge at h
  split at h
  · split at h
    · simp at h
    · rename_i hne
      dsimp only at h
      split at h
      · rename_i ht
        simp only [Option.some.injEq] at h
        refine ⟨fun he => hne (by rw [he]; ring), ⟨_, ht.1, ht.2, h.symm, ?_⟩, h.symm⟩
        simp only
        field_simp
        ring
      · simp at h
  · simp at h

theorem horizEdge_isSome_iff (ty : K) (e : Pt K × Pt K) :
    (horizEdge ty e).isSome = true ↔ side ty e.1 ≠ side ty e.2 := by
  unfold horizEdge side
  rcases lt_trichotomy e.1.2 ty with h1 | h1 | h1 <;> rcases lt_trichotomy e.2.2 ty with h2 | h2 | h2
  · rw [if_neg (by rintro ⟨-, h⟩; exact absurd (max_lt h1 h2) (not_lt.2 h))]
    simp [compare_lt_iff_lt.2 h1, compare_lt_iff_lt.2 h2]
  · rw [if_pos ⟨(min_le_left _ _).trans h1.le, h2 ▸ le_max_right _ _⟩,
      if_neg (by intro h; linarith)]
    simp only [h2, sub_self, zero_div, le_refl, zero_le_one, and_self, if_true, Option.isSome_some]
    simp [compare_lt_iff_lt.2 h1]
  · rw [if_pos ⟨(min_le_left _ _).trans h1.le, h2.le.trans (le_max_right _ _)⟩,
      if_neg (by intro h; linarith)]
    have hneg : e.1.2 - e.2.2 < 0 := by linarith
    rw [if_pos ⟨div_nonneg_of_nonpos (by linarith) hneg.le, by rw [div_le_one_of_neg hneg]; linarith⟩]
    simp [compare_lt_iff_lt.2 h1, compare_gt_iff_gt.2 h2]
  · rw [if_pos ⟨(min_le_right _ _).trans h2.le, h1 ▸ le_max_left _ _⟩,
      if_neg (by intro h; linarith)]
    have hpos : 0 < e.1.2 - e.2.2 := by linarith
    rw [if_pos ⟨div_nonneg (by linarith) hpos.le, by rw [div_le_one hpos]; linarith⟩]
    simp [h1, compare_lt_iff_lt.2 h2]
  · rw [if_pos ⟨(min_le_right _ _).trans h2.le, h1 ▸ le_max_left _ _⟩,
      if_pos (by rw [h1, h2]; ring)]
    simp [h1, h2]
  · rw [if_pos ⟨(min_le_left _ _).trans h1.le, h2.le.trans (le_max_right _ _)⟩,
      if_neg (by intro h; linarith)]
    have hneg : e.1.2 - e.2.2 < 0 := by linarith
    rw [if_pos ⟨div_nonneg_of_nonpos (by linarith) hneg.le, by rw [div_le_one_of_neg hneg]; linarith⟩]
    simp [h1, compare_gt_iff_gt.2 h2]
  · rw [if_pos ⟨(min_le_right _ _).trans h2.le, h1.le.trans (le_max_left _ _)⟩,
      if_neg (by intro h; linarith)]
    have hpos : 0 < e.1.2 - e.2.2 := by linarith
    rw [if_pos ⟨div_nonneg (by linarith) hpos.le, by rw [div_le_one hpos]; linarith⟩]
    simp [compare_gt_iff_gt.2 h1, compare_lt_iff_lt.2 h2]
  · rw [if_pos ⟨h2 ▸ min_le_right _ _, h1.le.trans (le_max_left _ _)⟩,
      if_neg (by intro h; linarith)]
    simp only [h2, sub_self, zero_div, le_refl, zero_le_one, and_self, if_true, Option.isSome_some]
    simp [compare_gt_iff_gt.2 h1]
  · rw [if_neg (by rintro ⟨h, -⟩; exact absurd (lt_min h1 h2) (not_lt.2 h))]
    simp [compare_gt_iff_gt.2 h1, compare_gt_iff_gt.2 h2]

theorem length_filterMap_eq {β γ : Type*} (f : β → Option γ) (l : List β) :
    (l.filterMap f).length = (l.filter (fun b => (f b).isSome)).length := by
  induction l with
  | nil => rfl
  | cons a l ih =>
    cases h : f a <;> simp [h, ih]

end
end Hrm

namespace Hrm
section
variable {K : Type*} [Field K] [LinearOrder K] [IsStrictOrderedRing K]

/-! ### Half planes -/

theorem region_le (shape : List (Pt K)) (a b c : K) (h : ∀ v ∈ shape, a * v.1 + b * v.2 ≤ c)
    (v : Pt K) (hv : v ∈ region shape) : a * v.1 + b * v.2 ≤ c := by
  have hc : Convex K {v : Pt K | a * v.1 + b * v.2 ≤ c} := by
    intro x hx y hy s t hs ht hst
    simp only [Set.mem_ofPred_eq, Prod.fst_add, Prod.snd_add, Prod.smul_fst, Prod.smul_snd,
      smul_eq_mul] at *
    have h1 := mul_le_mul_of_nonneg_left hx hs
    have h2 := mul_le_mul_of_nonneg_left hy ht
    have : s * c + t * c = c := by rw [← add_mul, hst, one_mul]
    linarith
  exact convexHull_min (fun v hv => h v hv) hc hv

theorem region_lt (shape : List (Pt K)) (a b c : K) (h : ∀ v ∈ shape, a * v.1 + b * v.2 < c)
    (v : Pt K) (hv : v ∈ region shape) : a * v.1 + b * v.2 < c := by
  have hc : Convex K {v : Pt K | a * v.1 + b * v.2 < c} := by
    intro x hx y hy s t hs ht hst
    simp only [Set.mem_ofPred_eq, Prod.fst_add, Prod.snd_add, Prod.smul_fst, Prod.smul_snd,
      smul_eq_mul] at *
    have : s * c + t * c = c := by rw [← add_mul, hst, one_mul]
    rcases hs.lt_or_eq with hs | hs
    · have h1 := mul_lt_mul_of_pos_left hx hs
      have h2 := mul_le_mul_of_nonneg_left hy.le ht
      linarith
    · subst hs
      have h2 : t = 1 := by linarith
      subst h2
      linarith
  exact convexHull_min (fun v hv => h v hv) hc hv

theorem vertex_mem_region {shape : List (Pt K)} {v : Pt K} (h : v ∈ shape) : v ∈ region shape :=
  subset_convexHull K _ h

/-- A convex combination, in coordinates. -/
theorem region_comb {shape : List (Pt K)} {u v : Pt K} (hu : u ∈ region shape)
    (hv : v ∈ region shape) (t : K) (h0 : 0 ≤ t) (h1 : t ≤ 1) (w : Pt K)
    (e1 : w.1 = t * u.1 + (1 - t) * v.1) (e2 : w.2 = t * u.2 + (1 - t) * v.2) :
    w ∈ region shape := by
  have := (convex_convexHull K {v | v ∈ shape}) hu hv h0 (sub_nonneg.2 h1) (by ring)
  have hw : w = t • u + (1 - t) • v := Prod.ext (by simpa using e1) (by simpa using e2)
  rw [hw]; exact this

theorem onEdge_mem_region {shape : List (Pt K)} {e : Pt K × Pt K} (he : e ∈ edgesOf shape) {x : Pt K}
    (hx : OnEdge e x) : x ∈ region shape := by
  obtain ⟨t, h0, h1, e1, e2⟩ := hx
  exact region_comb (vertex_mem_region (mem_edgesOf he).1) (vertex_mem_region (mem_edgesOf he).2)
    t h0 h1 x e1 e2

theorem slice_between {shape : List (Pt K)} {y a b x : K} (ha : (a, y) ∈ region shape)
    (hb : (b, y) ∈ region shape) (h1 : a ≤ x) (h2 : x ≤ b) : (x, y) ∈ region shape := by
  rcases (h1.trans h2).lt_or_eq with hab | hab
  · have hpos : 0 < b - a := sub_pos.2 hab
    have hne := hpos.ne'
    refine region_comb ha hb ((b - x) / (b - a)) (div_nonneg (by linarith) hpos.le)
      ((div_le_one hpos).2 (by linarith)) _ ?_ ?_
    · simp only; field_simp; ring
    · simp only; ring
  · have : x = a := le_antisymm (hab ▸ h2) h1
    rw [this]; exact ha

/-- Position of a point of height `ty` relative to an edge that meets the height at `x`. -/
theorem cross_at {e : Pt K × Pt K} {x ty : K} (h : OnEdge e (x, ty)) (x' : K) :
    cross e (x', ty) = (e.2.2 - e.1.2) * (x - x') := by
  obtain ⟨t, -, -, e1, e2⟩ := h
  simp only at e1 e2
  unfold cross
  simp only
  rw [e1, e2]; ring

theorem region_cross_nonneg {shape : List (Pt K)} {e : Pt K × Pt K}
    (h : ∀ v ∈ shape, 0 ≤ cross e v) (v : Pt K) (hv : v ∈ region shape) : 0 ≤ cross e v := by
  have := region_le shape (e.2.2 - e.1.2) (-(e.2.1 - e.1.1))
    ((e.2.2 - e.1.2) * e.1.1 - (e.2.1 - e.1.1) * e.1.2) (fun v hv => by
      have := h v hv; unfold cross at this; linarith) v hv
  unfold cross; linarith

theorem region_cross_nonpos {shape : List (Pt K)} {e : Pt K × Pt K}
    (h : ∀ v ∈ shape, cross e v ≤ 0) (v : Pt K) (hv : v ∈ region shape) : cross e v ≤ 0 := by
  have := region_le shape (-(e.2.2 - e.1.2)) (e.2.1 - e.1.1)
    (-((e.2.2 - e.1.2) * e.1.1 - (e.2.1 - e.1.1) * e.1.2)) (fun v hv => by
      have := h v hv; unfold cross at this; linarith) v hv
  unfold cross; linarith

/-! ### Results of the horizontal line routine -/

theorem no_change (c : Pt K → Ordering) (l : List (Pt K)) (p : Pt K)
    (h : (pathEdges p l).filter (fun e => decide (c e.1 ≠ c e.2)) = []) :
    ∀ v ∈ l, c v = c p := by
  induction l generalizing p with
  | nil => simp
  | cons q qs ih =>
    simp only [pathEdges] at h
    have hc : c p = c q := by
      by_contra hc
      rw [List.filter_cons_of_pos (by simp [hc])] at h; simp at h
    rw [List.filter_cons_of_neg (by simp [hc])] at h
    intro v hv
    rcases List.mem_cons.1 hv with rfl | hv
    · exact hc.symm
    · rw [hc]; exact ih q h v hv

theorem filter_isSome_side (ty : K) (l : List (Pt K × Pt K)) :
    l.filter (fun e => (horizEdge ty e).isSome) =
      l.filter (fun e => decide (side ty e.1 ≠ side ty e.2)) := by
  apply List.filter_congr
  intro e _
  have := horizEdge_isSome_iff ty e
  by_cases h : side ty e.1 ≠ side ty e.2
  · rw [this.2 h]; simp [h]
  · have h' := mt this.1 h
    simp only [Bool.not_eq_true] at h'
    rw [h']; simp at h; simp [h]

theorem filterMap_nil_iff {β γ : Type*} (f : β → Option γ) (l : List β) :
    l.filterMap f = [] ↔ l.filter (fun b => (f b).isSome) = [] := by
  rw [← List.length_eq_zero_iff, length_filterMap_eq, List.length_eq_zero_iff]

theorem filterMap_two {β γ : Type*} (f : β → Option γ) (l : List β) (a b : γ) (r : List γ)
    (h : l.filterMap f = a :: b :: r) :
    ∃ x y es, l.filter (fun b => (f b).isSome) = x :: y :: es ∧ f x = some a ∧ f y = some b := by
  have one : ∀ (l : List β) (a : γ) (r : List γ), l.filterMap f = a :: r →
      ∃ x es, l.filter (fun b => (f b).isSome) = x :: es ∧ f x = some a := by
    intro l
    induction l with
    | nil => intro a r h; simp at h
    | cons z l ih =>
      intro a r h
      cases hz : f z with
      | none =>
        rw [List.filterMap_cons_none hz] at h
        obtain ⟨x, es, h1, h2⟩ := ih a r h
        exact ⟨x, es, by simp [hz, h1], h2⟩
      | some c =>
        rw [List.filterMap_cons_some hz] at h
        obtain ⟨rfl, -⟩ := List.cons.inj h
        exact ⟨z, _, by simp [hz]; rfl, hz⟩
  induction l with
  | nil => simp at h
  | cons z l ih =>
    cases hz : f z with
    | none =>
      rw [List.filterMap_cons_none hz] at h
      obtain ⟨x, y, es, h1, h2⟩ := ih h
      exact ⟨x, y, es, by simp [hz, h1], h2⟩
    | some c =>
      rw [List.filterMap_cons_some hz] at h
      obtain ⟨rfl, h'⟩ := List.cons.inj h
      obtain ⟨y, es, h1, h2⟩ := one l b r h'
      exact ⟨z, y, es, by simp [hz, h1], hz, h2⟩

/-- Shape of the result: the edge filter, whether or not the early return was taken. -/
theorem horizLinePolygon_eq (ty : K) (shape : List (Pt K)) (hne : shape ≠ []) :
    horizLinePolygon ty shape = .ok ((edgesOf shape).filterMap (horizEdge ty)) := by
  cases shape with
  | nil => exact absurd rfl hne
  | cons p ps =>
    unfold horizLinePolygon
    simp only
    split
    · rename_i h
      congr 1
      symm
      rw [List.filterMap_eq_nil_iff]
      intro e he
      obtain ⟨h1, h2⟩ := mem_edgesOf he
      have : ¬ (horizEdge ty e).isSome = true := by
        rw [horizEdge_isSome_iff]
        simp only [ne_eq, not_not, side]
        rcases h with h | h
        · rw [gt_maxCoeff] at h
          rw [compare_lt_iff_lt.2 (h _ h1), compare_lt_iff_lt.2 (h _ h2)]
        · rw [lt_minCoeff] at h
          rw [compare_gt_iff_gt.2 (h _ h1), compare_gt_iff_gt.2 (h _ h2)]
      simpa using this
    · rfl

/-- Every crossing is an end of the slice of a convex polygon. -/
theorem crossing_extreme {ty x : K} {shape : List (Pt K)} (hcv : ConvexPolygon shape)
    {e : Pt K × Pt K} (he : e ∈ edgesOf shape) (hx : horizEdge ty e = some x) :
    (x, ty) ∈ region shape ∧
      ((∀ x', (x', ty) ∈ region shape → x' ≤ x) ∨ (∀ x', (x', ty) ∈ region shape → x ≤ x')) := by
  obtain ⟨hne, hon, -⟩ := horizEdge_some hx
  refine ⟨onEdge_mem_region he hon, ?_⟩
  have key : ∀ (s : K), (0 < s → ∀ x', 0 ≤ s * (x - x') → x' ≤ x) := by
    intro s hs x' h
    have := nonneg_of_mul_nonneg_right h hs; linarith
  have hd : e.2.2 - e.1.2 ≠ 0 := sub_ne_zero.2 (Ne.symm hne)
  rcases hcv with hcv | hcv
  · have hc := fun x' hx' => cross_at hon x' ▸ region_cross_nonneg (hcv e he) (x', ty) hx'
    rcases hd.lt_or_gt with h | h
    · right; intro x' hx'
      have h1 := hc x' hx'
      have := nonpos_of_mul_nonneg_right h1 h; linarith
    · left; intro x' hx'; exact key _ h x' (hc x' hx')
  · have hc := fun x' hx' => cross_at hon x' ▸ region_cross_nonpos (hcv e he) (x', ty) hx'
    rcases hd.lt_or_gt with h | h
    · left; intro x' hx'
      have h1 := hc x' hx'
      have := nonneg_of_mul_nonpos_right h1 h; linarith
    · right; intro x' hx'
      have h1 := hc x' hx'
      have := nonpos_of_mul_nonpos_right h1 h; linarith

/-- Two crossings in opposite directions bound the slice. -/
theorem opposite_slice {ty p0 p1 : K} {shape : List (Pt K)} (hcv : ConvexPolygon shape)
    {e1 e2 : Pt K × Pt K} (h1 : e1 ∈ edgesOf shape) (h2 : e2 ∈ edgesOf shape)
    (hx1 : horizEdge ty e1 = some p0) (hx2 : horizEdge ty e2 = some p1)
    (hdir : (e1.2.2 - e1.1.2) * (e2.2.2 - e2.1.2) < 0) :
    ∀ x, (x, ty) ∈ region shape ↔ min p0 p1 ≤ x ∧ x ≤ max p0 p1 := by
  obtain ⟨hn1, on1, -⟩ := horizEdge_some hx1
  obtain ⟨hn2, on2, -⟩ := horizEdge_some hx2
  have m1 := onEdge_mem_region h1 on1
  have m2 := onEdge_mem_region h2 on2
  intro x
  constructor
  · intro hx
    have c1 := cross_at on1 x
    have c2 := cross_at on2 x
    have : 0 ≤ cross e1 (x, ty) * cross e2 (x, ty) := by
      rcases hcv with hcv | hcv
      · exact mul_nonneg (region_cross_nonneg (hcv e1 h1) _ hx) (region_cross_nonneg (hcv e2 h2) _ hx)
      · exact mul_nonneg_of_nonpos_of_nonpos (region_cross_nonpos (hcv e1 h1) _ hx)
          (region_cross_nonpos (hcv e2 h2) _ hx)
    rw [c1, c2] at this
    have hprod : (p0 - x) * (p1 - x) ≤ 0 := by
      have : 0 ≤ ((e1.2.2 - e1.1.2) * (e2.2.2 - e2.1.2)) * ((p0 - x) * (p1 - x)) := by
        linarith [this]
      exact nonpos_of_mul_nonneg_right this hdir
    rcases mul_nonpos_iff.1 hprod with h | h
    · exact ⟨(min_le_right _ _).trans (by linarith), le_trans (by linarith) (le_max_left _ _)⟩
    · exact ⟨(min_le_left _ _).trans (by linarith), le_trans (by linarith) (le_max_right _ _)⟩
  · rintro ⟨a, b⟩
    rcases le_total p0 p1 with h | h
    · rw [min_eq_left h] at a; rw [max_eq_right h] at b
      exact slice_between m1 m2 a b
    · rw [min_eq_right h] at a; rw [max_eq_left h] at b
      exact slice_between m2 m1 a b

/-- Off vertices the labels above / below determine the crossings. -/
theorem filter_isSome_above (ty : K) (shape : List (Pt K)) (hv : ∀ v ∈ shape, v.2 ≠ ty) :
    (edgesOf shape).filter (fun e => (horizEdge ty e).isSome) =
      (edgesOf shape).filter (fun e => decide ((decide (ty < e.1.2) : Bool) ≠ decide (ty < e.2.2))) := by
  apply List.filter_congr
  intro e he
  obtain ⟨m1, m2⟩ := mem_edgesOf he
  have hiff : (horizEdge ty e).isSome = true ↔ ((decide (ty < e.1.2) : Bool) ≠ decide (ty < e.2.2)) := by
    rw [horizEdge_isSome_iff]
    unfold side
    rcases lt_or_gt_of_ne (hv _ m1) with a | a <;> rcases lt_or_gt_of_ne (hv _ m2) with b | b
    · simp [compare_lt_iff_lt.2 a, compare_lt_iff_lt.2 b, not_lt.2 a.le, not_lt.2 b.le]
    · simp [compare_lt_iff_lt.2 a, compare_gt_iff_gt.2 b, a.le, b]
    · simp [compare_gt_iff_gt.2 a, compare_lt_iff_lt.2 b, a, b.le]
    · simp [compare_gt_iff_gt.2 a, compare_gt_iff_gt.2 b, a, b]
  by_cases h : ((decide (ty < e.1.2) : Bool) ≠ decide (ty < e.2.2))
  · rw [hiff.2 h]; simp [h]
  · have h' := mt hiff.1 h
    simp only [Bool.not_eq_true] at h'
    rw [h']
    symm
    exact decide_eq_false h

end
end Hrm
