import Verif.Lemmas.Polygon
import Verif.Lemmas.Table
import Mathlib.Tactic.NormNum
import Mathlib.Algebra.Order.Ring.Rat

/-!
# Properties C13–C17, C60: horizontal sweep lines and segments against polygons
-/

namespace Hrm

open Hrm.Interval

variable {K : Type*} [Field K] [LinearOrder K] [IsStrictOrderedRing K]

/-! ### C13 -/

/-- **C13** For every non-empty polygon and every height the routine returns normally; every returned
`x` is, at that height, on an edge of the closed polygon; the number of results is never one; and the
result is empty iff all vertices are strictly above, all strictly below or all on the line. -/
theorem C13_horizontal_line_polygon (ty : K) (shape : List (Pt K)) (hne : shape ≠ []) :
    ∃ l, horizLinePolygon ty shape = .ok l ∧
      (∀ x ∈ l, ∃ e ∈ edgesOf shape, OnEdge e (x, ty)) ∧
      l.length ≠ 1 ∧
      (l = [] ↔ (∀ v ∈ shape, v.2 < ty) ∨ (∀ v ∈ shape, ty < v.2) ∨ (∀ v ∈ shape, v.2 = ty)) := by
  refine ⟨_, horizLinePolygon_eq ty shape hne, ?_, ?_, ?_⟩
  · intro x hx
    obtain ⟨e, he, h⟩ := List.mem_filterMap.1 hx
    exact ⟨e, he, (horizEdge_some h).2.1⟩
  · rw [length_filterMap_eq, filter_isSome_side]
    cases shape with
    | nil => exact absurd rfl hne
    | cons p ps =>
      rw [edgesOf_cons]
      intro h
      exact (change_count (side ty) ps p p).2 h rfl
  · rw [filterMap_nil_iff, filter_isSome_side]
    cases shape with
    | nil => exact absurd rfl hne
    | cons p ps =>
      rw [edgesOf_cons]
      constructor
      · intro h
        have hall := no_change (side ty) _ p h
        have hall' : ∀ v ∈ p :: ps, compare v.2 ty = compare p.2 ty := by
          intro v hv
          rcases List.mem_cons.1 hv with rfl | hv
          · rfl
          · exact hall v (by simp [hv])
        rcases lt_trichotomy p.2 ty with hp | hp | hp
        · left; intro v hv
          have := hall' v hv
          rw [compare_lt_iff_lt.2 hp] at this
          exact compare_lt_iff_lt.1 this
        · right; right; intro v hv
          have := hall' v hv
          rw [compare_eq_iff_eq.2 hp] at this
          exact compare_eq_iff_eq.1 this
        · right; left; intro v hv
          have := hall' v hv
          rw [compare_gt_iff_gt.2 hp] at this
          exact compare_gt_iff_gt.1 this
      · intro h
        rw [List.filter_eq_nil_iff]
        intro e he
        rw [← edgesOf_cons] at he
        obtain ⟨m1, m2⟩ := mem_edgesOf he
        have : side ty e.1 = side ty e.2 := ?_
        · simp [this]
        unfold side
        rcases h with h | h | h
        · rw [compare_lt_iff_lt.2 (h _ m1), compare_lt_iff_lt.2 (h _ m2)]
        · rw [compare_gt_iff_gt.2 (h _ m1), compare_gt_iff_gt.2 (h _ m2)]
        · rw [compare_eq_iff_eq.2 (h _ m1), compare_eq_iff_eq.2 (h _ m2)]

/-- A non-convex quadrilateral met four times. -/
example : horizLinePolygon (1 : ℚ) [(0, 0), (4, 3), (4, 0), (2, 0), (1, 3)] = .ok [4 / 3, 4, 5 / 3, 1 / 3] := by
  decide +kernel

/-! ### C14 -/

/-- Decoded C14 for the list of crossings. -/
theorem slice_exact (ty : K) (shape : List (Pt K)) (hne : shape ≠ []) (hcv : ConvexPolygon shape)
    (hv : ∀ v ∈ shape, v.2 ≠ ty) :
    (isect2D ty shape = [] ∧ ∀ x, (x, ty) ∉ region shape) ∨
    (∃ p0 p1 rest, isect2D ty shape = p0 :: p1 :: rest ∧
      ∀ x, (x, ty) ∈ region shape ↔ min p0 p1 ≤ x ∧ x ≤ max p0 p1) := by
  obtain ⟨l, hl, -, h1, h0⟩ := C13_horizontal_line_polygon ty shape hne
  have hl' : isect2D ty shape = l := by unfold isect2D; rw [hl]
  rw [hl']
  match l, h1, h0, hl with
  | [], _, h0, _ =>
    left
    refine ⟨rfl, ?_⟩
    rcases h0.1 rfl with h | h | h
    · intro x hx
      have := region_lt shape 0 1 ty (fun v hv => by have := h v hv; linarith) _ hx
      simp at this
    · intro x hx
      have := region_lt shape 0 (-1) (-ty) (fun v hv => by have := h v hv; linarith) _ hx
      simp at this
    · cases shape with
      | nil => exact absurd rfl hne
      | cons p ps => exact absurd (h p (by simp)) (hv p (by simp))
  | p0 :: p1 :: rest, _, _, hl =>
    right
    refine ⟨p0, p1, rest, rfl, ?_⟩
    rw [horizLinePolygon_eq ty shape hne, Res.ok.injEq] at hl
    obtain ⟨e1, e2, es, hf, hx1, hx2⟩ := filterMap_two _ _ _ _ _ hl
    rw [filter_isSome_above ty shape hv] at hf
    have m1 : e1 ∈ edgesOf shape := List.mem_of_mem_filter (hf ▸ List.mem_cons_self)
    have m2 : e2 ∈ edgesOf shape :=
      List.mem_of_mem_filter (hf ▸ List.mem_cons_of_mem _ List.mem_cons_self)
    refine opposite_slice hcv m1 m2 hx1 hx2 ?_
    cases shape with
    | nil => exact absurd rfl hne
    | cons p ps =>
      rw [edgesOf_cons] at hf
      obtain ⟨a1, a2, a3, a4⟩ := first_changes (fun v => decide (ty < v.2)) _ p e1 e2 es hf
      obtain ⟨b1, b2⟩ := mem_edgesOf m1
      obtain ⟨b3, b4⟩ := mem_edgesOf m2
      have hlt : ∀ v ∈ p :: ps, ¬ ty < v.2 → v.2 < ty := fun v hv' h =>
        lt_of_le_of_ne (not_lt.1 h) (hv v hv')
      cases hp : decide (ty < p.2) with
      | true =>
        rw [hp] at a1 a2 a3 a4
        simp only [Bool.not_true, decide_eq_true_eq, decide_eq_false_iff_not] at a1 a2 a3 a4
        have c2 := hlt _ b2 a2
        have c3 := hlt _ b3 a3
        exact mul_neg_of_neg_of_pos (by linarith) (by linarith)
      | false =>
        rw [hp] at a1 a2 a3 a4
        simp only [Bool.not_false, decide_eq_true_eq, decide_eq_false_iff_not] at a1 a2 a3 a4
        have c1 := hlt _ b1 a1
        have c4 := hlt _ b4 a4
        exact mul_neg_of_pos_of_neg (by linarith) (by linarith)

/-- **C14** For a convex polygon (either orientation) and a height that passes through no vertex, the
obstacle entry recorded for the sweep line is (NaN, NaN) exactly when the line misses the polygon, and
otherwise it is the pair of ends of the slice of the polygon. -/
theorem C14_obstacle_interval_exact (ty : K) (shape : List (Pt K)) (hne : shape ≠ [])
    (hcv : ConvexPolygon shape) (hv : ∀ v ∈ shape, v.2 ≠ ty) :
    (obsEntry (isect2D ty shape) = .ok (none, none) ∧ ∀ x, (x, ty) ∉ region shape) ∨
    (∃ lo up, obsEntry (isect2D ty shape) = .ok (some lo, some up) ∧ lo ≤ up ∧
      ∀ x, (x, ty) ∈ region shape ↔ lo ≤ x ∧ x ≤ up) := by
  rcases slice_exact ty shape hne hcv hv with ⟨h1, h2⟩ | ⟨p0, p1, rest, h1, h2⟩
  · left; rw [h1]; exact ⟨rfl, h2⟩
  · right; rw [h1]
    exact ⟨min p0 p1, max p0 p1, rfl, min_le_max, h2⟩

/-- A convex pentagon with a repeated vertex. -/
def exPoly : List (Pt ℚ) := [(0, 0), (4, 0), (5, 3), (2, 5), (-1, 3), (0, 0)]

instance (shape : List (Pt ℚ)) : Decidable (ConvexPolygon shape) := by
  unfold ConvexPolygon; infer_instance

example : ConvexPolygon exPoly ∧ (∀ v ∈ exPoly, v.2 ≠ 1) ∧ exPoly ≠ [] := by decide +kernel
example : obsEntry (isect2D 1 exPoly) = .ok (some (-1 / 3), some (13 / 3)) := by decide +kernel

/-! ### C15 -/

/-- The claim C15: at every height the recorded interval covers the whole slice. -/
def C15_claim : Prop :=
  ∀ (ty : ℚ) (shape : List (Pt ℚ)), shape ≠ [] → ConvexPolygon shape →
    ∀ x, (x, ty) ∈ region shape →
      ∃ lo up, obsEntry (isect2D ty shape) = .ok (some lo, some up) ∧ lo ≤ x ∧ x ≤ up

def diamond : List (Pt ℚ) := [(0, -1), (1, 0), (0, 1), (-1, 0)]

/-- **C15 is false of the code**: for the diamond and the height of its side vertices the first two
crossings coincide, so the obstacle is recorded as the single point 1 and its slice [-1,1] is lost. -/
theorem C15_refuted : ¬ C15_claim := by
  intro h
  obtain ⟨lo, up, h1, h2, -⟩ := h 0 diamond (by decide) (by decide +kernel) (-1)
    (vertex_mem_region (by decide))
  have h3 : obsEntry (isect2D 0 diamond) = .ok (some 1, some 1) := by decide +kernel
  rw [h3] at h1
  simp only [Res.ok.injEq, Prod.mk.injEq, Option.some.injEq] at h1
  obtain ⟨rfl, -⟩ := h1
  norm_num at h2

/-- **C15 (partial)** At every height, through vertices or not: the recorded interval is contained in
the slice; both its ends are ends of the slice; and it is the whole slice whenever its two ends
differ. Missing (false, see `C15_refuted`): the case where the first two crossings coincide. -/
theorem C15_through_vertices_partial (ty : K) (shape : List (Pt K)) (hne : shape ≠ [])
    (hcv : ConvexPolygon shape) (lo up : K)
    (h : obsEntry (isect2D ty shape) = .ok (some lo, some up)) :
    (∀ x, lo ≤ x → x ≤ up → (x, ty) ∈ region shape) ∧
    (lo < up → ∀ x, (x, ty) ∈ region shape ↔ lo ≤ x ∧ x ≤ up) := by
  have hl : isect2D ty shape = (edgesOf shape).filterMap (horizEdge ty) := by
    unfold isect2D; rw [horizLinePolygon_eq ty shape hne]
  obtain ⟨p0, p1, rest, hp⟩ : ∃ p0 p1 rest, isect2D ty shape = p0 :: p1 :: rest := by
    match hm : isect2D ty shape, h with
    | [], h => simp [obsEntry] at h
    | [p], h => simp [obsEntry, Res.idx] at h
    | p0 :: p1 :: rest, _ => exact ⟨p0, p1, rest, rfl⟩
  rw [hp] at h
  have he : (some (min p0 p1), some (max p0 p1)) = (some lo, some up) := (Res.ok.injEq _ _).mp h
  simp only [Prod.mk.injEq, Option.some.injEq] at he
  obtain ⟨rfl, rfl⟩ := he
  have mem : ∀ q ∈ isect2D ty shape, (q, ty) ∈ region shape ∧
      ((∀ x', (x', ty) ∈ region shape → x' ≤ q) ∨ (∀ x', (x', ty) ∈ region shape → q ≤ x')) := by
    intro q hq
    rw [hl] at hq
    obtain ⟨e, he, hx⟩ := List.mem_filterMap.1 hq
    exact crossing_extreme hcv he hx
  obtain ⟨r0, s0⟩ := mem p0 (by rw [hp]; simp)
  obtain ⟨r1, s1⟩ := mem p1 (by rw [hp]; simp)
  have sub : ∀ x, min p0 p1 ≤ x → x ≤ max p0 p1 → (x, ty) ∈ region shape := by
    intro x a b
    rcases le_total p0 p1 with h | h
    · rw [min_eq_left h] at a; rw [max_eq_right h] at b
      exact slice_between r0 r1 a b
    · rw [min_eq_right h] at a; rw [max_eq_left h] at b
      exact slice_between r1 r0 a b
  refine ⟨sub, ?_⟩
  intro hlt x
  refine ⟨fun hx => ?_, fun hx => sub x hx.1 hx.2⟩
  rcases lt_trichotomy p0 p1 with h | h | h
  · rw [min_eq_left h.le, max_eq_right h.le]
    refine ⟨?_, ?_⟩
    · rcases s0 with s | s
      · exact absurd (s p1 r1) (not_le.2 h)
      · exact s x hx
    · rcases s1 with s | s
      · exact s x hx
      · exact absurd (s p0 r0) (not_le.2 h)
  · rw [h] at hlt; simp at hlt
  · rw [min_eq_right h.le, max_eq_left h.le]
    refine ⟨?_, ?_⟩
    · rcases s1 with s | s
      · exact absurd (s p0 r0) (not_le.2 h)
      · exact s x hx
    · rcases s0 with s | s
      · exact s x hx
      · exact absurd (s p1 r1) (not_le.2 h)

example : obsEntry (isect2D 3 exPoly) = .ok (some 5, some 5) ∧
    obsEntry (isect2D 5 exPoly) = .ok (some 2, some 2) ∧
    obsEntry (isect2D 0 exPoly) = .ok (some 0, some 4) := by decide +kernel

/-! ### C16 -/

/-- Cramer's rule: a solver that satisfies the contract of Eigen's QR solve. -/
def cramer (K : Type*) [Field K] [DecidableEq K] : QrSolve K where
  solve a b c d r0 r1 :=
    if a * d - b * c = 0 then (0, 0)
    else ((r0 * d - b * r1) / (a * d - b * c), (a * r1 - r0 * c) / (a * d - b * c))
  regular a b c d r0 r1 h := by
    simp only [h, if_false]
    have h' : a * d - c * b ≠ 0 := by rwa [mul_comm c b]
    constructor
    · field_simp; ring
    · rw [mul_div_assoc', mul_div_assoc', ← add_div, div_eq_iff h]; ring
  singular a b c d r0 r1 h := by simp [h]

theorem segEdge_iff (Q : QrSolve K) (p1 p2 : Pt K) (e : Pt K × Pt K) :
    segEdge Q p1 p2 e = true ↔ Crosses p1 p2 e := by
  unfold segEdge Crosses
  simp only [decide_eq_true_eq]
  set sol := Q.solve (p2.1 - p1.1) (e.1.1 - e.2.1) (p2.2 - p1.2) (e.1.2 - e.2.2)
    (e.1.1 - p1.1) (e.1.2 - p1.2) with hsol
  constructor
  · rintro ⟨⟨s0, s1⟩, t0, t1⟩
    have hdet : (p2.1 - p1.1) * (e.1.2 - e.2.2) - (e.1.1 - e.2.1) * (p2.2 - p1.2) ≠ 0 := by
      intro h
      rcases Q.singular _ _ _ _ (e.1.1 - p1.1) (e.1.2 - p1.2) h with h | h
      · rw [← hsol] at h; rw [h] at s0; exact lt_irrefl _ s0
      · rw [← hsol] at h; rw [h] at t0; exact lt_irrefl _ t0
    obtain ⟨r1, r2⟩ := Q.regular _ _ _ _ (e.1.1 - p1.1) (e.1.2 - p1.2) hdet
    rw [← hsol] at r1 r2
    refine ⟨fun h => hdet (by linarith), sol.1, sol.2, s0, s1, t0, t1, ?_, ?_⟩
    · linarith
    · linarith
  · rintro ⟨hne, s, t, s0, s1, t0, t1, e1, e2⟩
    have hdet : (p2.1 - p1.1) * (e.1.2 - e.2.2) - (e.1.1 - e.2.1) * (p2.2 - p1.2) ≠ 0 :=
      fun h => hne (by linarith)
    obtain ⟨r1, r2⟩ := Q.regular _ _ _ _ (e.1.1 - p1.1) (e.1.2 - p1.2) hdet
    rw [← hsol] at r1 r2
    -- uniqueness by Cramer
    have u1 : ((p2.1 - p1.1) * (e.1.2 - e.2.2) - (e.1.1 - e.2.1) * (p2.2 - p1.2)) * (sol.1 - s) = 0 := by
      have q1 : (p2.1 - p1.1) * (sol.1 - s) + (e.1.1 - e.2.1) * (sol.2 - t) = 0 := by linarith
      have q2 : (p2.2 - p1.2) * (sol.1 - s) + (e.1.2 - e.2.2) * (sol.2 - t) = 0 := by linarith
      linear_combination (e.1.2 - e.2.2) * q1 - (e.1.1 - e.2.1) * q2
    have u2 : ((p2.1 - p1.1) * (e.1.2 - e.2.2) - (e.1.1 - e.2.1) * (p2.2 - p1.2)) * (sol.2 - t) = 0 := by
      have q1 : (p2.1 - p1.1) * (sol.1 - s) + (e.1.1 - e.2.1) * (sol.2 - t) = 0 := by linarith
      have q2 : (p2.2 - p1.2) * (sol.1 - s) + (e.1.2 - e.2.2) * (sol.2 - t) = 0 := by linarith
      linear_combination (p2.1 - p1.1) * q2 - (p2.2 - p1.2) * q1
    have v1 : sol.1 = s := sub_eq_zero.1 ((mul_eq_zero.1 u1).resolve_left hdet)
    have v2 : sol.2 = t := sub_eq_zero.1 ((mul_eq_zero.1 u2).resolve_left hdet)
    rw [v1, v2]
    exact ⟨⟨s0, s1⟩, t0, t1⟩

/-- **C16** The segment/polygon test is true exactly when some edge of the closed polygon crosses the
segment transversally at a point interior to both; in particular whenever it is true, a point of the
open segment lies on an edge. For every solver satisfying the QR contract. -/
theorem C16_segment_polygon (Q : QrSolve K) (p1 p2 : Pt K) (shape : List (Pt K)) :
    segPolygon Q p1 p2 shape = true ↔ ∃ e ∈ edgesOf shape, Crosses p1 p2 e := by
  unfold segPolygon
  rw [List.any_eq_true]
  constructor
  · rintro ⟨e, he, h⟩; exact ⟨e, he, (segEdge_iff Q p1 p2 e).1 h⟩
  · rintro ⟨e, he, h⟩; exact ⟨e, he, (segEdge_iff Q p1 p2 e).2 h⟩

example : segPolygon (cramer ℚ) (-3, 1) (3, 1) exPoly = true ∧
    segPolygon (cramer ℚ) (-3, -1) (3, -1) exPoly = false := by decide +kernel

/-! ### C17 -/

/-- A point strictly inside the hull: a small diamond around it is contained. -/
def InnerPt (shape : List (Pt K)) (q : Pt K) : Prop :=
  ∃ d > 0, (q.1 + d, q.2) ∈ region shape ∧ (q.1 - d, q.2) ∈ region shape ∧
    (q.1, q.2 + d) ∈ region shape ∧ (q.1, q.2 - d) ∈ region shape

/-- The claim C17: an accepted segment whose ends are outside a convex obstacle has no point strictly
inside it. -/
def C17_claim : Prop :=
  ∀ (Q : QrSolve ℚ) (obstacles : List (List (Pt ℚ))) (v1 v2 : Pt ℚ),
    sameSliceFree2D Q obstacles v1 v2 = true →
    ∀ ob ∈ obstacles, ConvexPolygon ob → v1 ∉ region ob → v2 ∉ region ob →
      ∀ s, 0 ≤ s → s ≤ 1 →
        ¬ InnerPt ob (v1.1 + s * (v2.1 - v1.1), v1.2 + s * (v2.2 - v1.2))

/-- **C17 is false of the code**: the segment (-2,0)–(2,0) passes through two vertices and the centre
of the diamond; both strict edge tests fail and the transition is accepted. -/
theorem C17_refuted : ¬ C17_claim := by
  intro h
  have out : ∀ x : ℚ, 1 < x → (x, 0) ∉ region diamond := by
    intro x hx hm
    have := region_le diamond 1 0 1 (by decide +kernel) _ hm
    simp at this; linarith
  have out' : ∀ x : ℚ, x < -1 → (x, 0) ∉ region diamond := by
    intro x hx hm
    have := region_le diamond (-1) 0 1 (by decide +kernel) _ hm
    simp at this; linarith
  refine h (cramer ℚ) [diamond] (-2, 0) (2, 0) (by decide +kernel) diamond (by simp)
    (by decide +kernel) (out' _ (by norm_num)) (out _ (by norm_num)) (1 / 2) (by norm_num)
    (by norm_num) ?_
  refine ⟨1, by norm_num, ?_, ?_, ?_, ?_⟩ <;> norm_num <;> exact vertex_mem_region (by decide)

/-- **C17 (partial)** If no vertex of the obstacle lies on the segment, acceptance does imply that the
whole closed segment avoids the hull of the obstacle. Missing (false, see `C17_refuted`): segments
through a vertex. -/
theorem C17_transition_free_partial (Q : QrSolve K) (obstacles : List (List (Pt K))) (v1 v2 : Pt K)
    (hacc : sameSliceFree2D Q obstacles v1 v2 = true) (ob : List (Pt K)) (hob : ob ∈ obstacles)
    (h1 : v1 ∉ region ob) (h2 : v2 ∉ region ob)
    (hvert : ∀ v ∈ ob, ∀ s, 0 ≤ s → s ≤ 1 →
      v ≠ (v1.1 + s * (v2.1 - v1.1), v1.2 + s * (v2.2 - v1.2))) :
    ∀ s, 0 ≤ s → s ≤ 1 → (v1.1 + s * (v2.1 - v1.1), v1.2 + s * (v2.2 - v1.2)) ∉ region ob := by
  intro s hs0 hs1 hq
  have hno : ∀ e ∈ edgesOf ob, ¬ Crosses v1 v2 e := by
    intro e he hc
    have := (C16_segment_polygon Q v1 v2 ob).2 ⟨e, he, hc⟩
    simp only [sameSliceFree2D, Bool.not_eq_true', List.any_eq_false] at hacc
    exact hacc ob hob this
  -- a region point on the carrier line outside the open segment pulls an end point into the region
  have pull : ∀ r, (v1.1 + r * (v2.1 - v1.1), v1.2 + r * (v2.2 - v1.2)) ∈ region ob → 0 < r ∧ r < 1 := by
    intro r hr
    constructor
    · by_contra hneg
      have hneg := not_lt.1 hneg
      apply h1
      rcases (hneg.trans hs0).lt_or_eq with hlt | heq
      · have hpos : 0 < s - r := sub_pos.2 hlt
        have := hpos.ne'
        refine region_comb hr hq (s / (s - r)) (div_nonneg hs0 hpos.le)
          ((div_le_one hpos).2 (by linarith)) _ ?_ ?_ <;> simp only <;> field_simp <;> ring
      · have : s = 0 := by linarith
        rw [this] at hq; simpa using hq
    · by_contra hge
      have hge := not_lt.1 hge
      apply h2
      rcases (hs1.trans hge).lt_or_eq with hlt | heq
      · have hpos : 0 < r - s := sub_pos.2 hlt
        have := hpos.ne'
        refine region_comb hr hq ((1 - s) / (r - s)) (div_nonneg (by linarith) hpos.le)
          ((div_le_one hpos).2 (by linarith)) _ ?_ ?_ <;> simp only <;> field_simp <;> ring
      · have : s = 1 := by linarith
        rw [this] at hq; simpa using hq
  -- signed offset from the carrier line
  set g : Pt K → K := fun v => (v2.1 - v1.1) * (v.2 - v1.2) - (v2.2 - v1.2) * (v.1 - v1.1) with hg
  have hd : ¬ (v2.1 - v1.1 = 0 ∧ v2.2 - v1.2 = 0) := by
    rintro ⟨a, b⟩
    apply h1
    rw [a, b] at hq; simpa using hq
  -- points of the carrier line
  have online : ∀ w : Pt K, g w = 0 → ∃ r, w = (v1.1 + r * (v2.1 - v1.1), v1.2 + r * (v2.2 - v1.2)) := by
    intro w hw
    simp only [hg] at hw
    by_cases hx : v2.1 - v1.1 = 0
    · have hy : v2.2 - v1.2 ≠ 0 := fun hy => hd ⟨hx, hy⟩
      refine ⟨(w.2 - v1.2) / (v2.2 - v1.2), Prod.ext ?_ ?_⟩
      · have : w.1 - v1.1 = 0 := by
          rw [hx] at hw
          have : (v2.2 - v1.2) * (w.1 - v1.1) = 0 := by linarith
          exact (mul_eq_zero.1 this).resolve_left hy
        simp only [hx]; linarith
      · simp only; field_simp; ring
    · refine ⟨(w.1 - v1.1) / (v2.1 - v1.1), Prod.ext ?_ ?_⟩
      · simp only; field_simp; ring
      · simp only; field_simp; linarith
  have gne : ∀ v ∈ ob, g v ≠ 0 := by
    intro v hv h0
    obtain ⟨r, hr⟩ := online v h0
    obtain ⟨a, b⟩ := pull r (hr ▸ vertex_mem_region hv)
    exact hvert v hv r a.le b.le hr
  have gq : g (v1.1 + s * (v2.1 - v1.1), v1.2 + s * (v2.2 - v1.2)) = 0 := by
    simp only [hg]; ring
  obtain ⟨u, hu, hu'⟩ : ∃ u ∈ ob, g u < 0 := by
    by_contra hcon
    have hall : ∀ v ∈ ob, 0 < g v := fun v hv =>
      lt_of_le_of_ne (not_lt.1 (fun h => hcon ⟨v, hv, h⟩)) (Ne.symm (gne v hv))
    have := region_lt ob (v2.2 - v1.2) (-(v2.1 - v1.1))
      ((v2.2 - v1.2) * v1.1 - (v2.1 - v1.1) * v1.2) (fun v hv => by
        have := hall v hv; simp only [hg] at this; linarith) _ hq
    simp only [hg] at gq
    linarith
  obtain ⟨w, hw, hw'⟩ : ∃ u ∈ ob, 0 < g u := by
    by_contra hcon
    have hall : ∀ v ∈ ob, g v < 0 := fun v hv =>
      lt_of_le_of_ne (not_lt.1 (fun h => hcon ⟨v, hv, h⟩)) (gne v hv)
    have := region_lt ob (-(v2.2 - v1.2)) (v2.1 - v1.1)
      (-((v2.2 - v1.2) * v1.1 - (v2.1 - v1.1) * v1.2)) (fun v hv => by
        have := hall v hv; simp only [hg] at this; linarith) _ hq
    simp only [hg] at gq
    linarith
  obtain ⟨⟨e, he, a, b⟩, -⟩ := exists_edges_both (fun v => decide (0 < g v)) ob u w hu hw
    (by simp [hu'.le]) (by simp [hw'])
  simp only [decide_eq_true_eq, decide_eq_false_iff_not, not_lt] at a b
  have a : g e.1 < 0 := lt_of_le_of_ne a (gne _ (mem_edgesOf he).1)
  -- the crossing point of that edge with the carrier line
  have hpos : 0 < g e.2 - g e.1 := by linarith
  have hne := hpos.ne'
  set t := (- g e.1) / (g e.2 - g e.1) with ht
  have t0 : 0 < t := div_pos (by linarith) hpos
  have t1 : t < 1 := (div_lt_one hpos).2 (by linarith)
  set w := ((e.1.1 + t * (e.2.1 - e.1.1), e.1.2 + t * (e.2.2 - e.1.2)) : Pt K) with hw
  have gw : g w = 0 := by
    have : g w = g e.1 + t * (g e.2 - g e.1) := by simp only [hg, hw]; ring
    rw [this, ht]; field_simp; ring
  obtain ⟨r, hr⟩ := online w gw
  have wmem : w ∈ region ob :=
    onEdge_mem_region he ⟨1 - t, by linarith, by linarith, by simp only [hw]; ring,
      by simp only [hw]; ring⟩
  obtain ⟨r0, r1⟩ := pull r (hr ▸ wmem)
  refine hno e he ⟨?_, r, t, r0, r1, t0, t1, ?_, ?_⟩
  · have : (v2.1 - v1.1) * (e.2.2 - e.1.2) - (v2.2 - v1.2) * (e.2.1 - e.1.1) = g e.2 - g e.1 := by
      simp only [hg]; ring
    rw [this]; exact hne
  · exact (congrArg Prod.fst hr).symm
  · exact (congrArg Prod.snd hr).symm

/-- A concrete accepted segment satisfying the hypotheses (non-vacuity). -/
example : sameSliceFree2D (cramer ℚ) [exPoly, diamond] (-3, -2) (6, -1) = true := by decide +kernel

end Hrm
