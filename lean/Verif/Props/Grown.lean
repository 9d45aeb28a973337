import Verif.Props.Planner3D
import Verif.Props.Planner2D
import Verif.Props.Shape

/-!
# C81 – what the check between two slices is made against: the obstacles grown by the enclosing ellipsoids
-/

namespace Hrm

open Matrix

/-- C81 (plane), the boundaries: there is one boundary per obstacle, in the same order, with as many points as the
obstacle is sampled with; every point is in the Minkowski sum of the obstacle and the ellipse at the origin, and for
obstacles with equal semi-axes it is a point where a line supports the sum. Missing (see C47): the last part for other
obstacles. -/
theorem C81_grown_obstacles_2D_partial (obs : List SuperEllipse) (E : SuperEllipse) (hE : E.Ok) (h1 : E.eps = 1)
    (hobs : ∀ o ∈ obs, o.Ok) :
    (bridgeBound obs E).length = obs.length ∧
    ∀ (k : ℕ) (o : SuperEllipse) (sh : List (Pt ℝ)), obs[k]? = some o → (bridgeBound obs E)[k]? = some sh →
      sh.length = o.num ∧ (∀ w ∈ sh, ![w.1, w.2] ∈ minkowskiSum o.solid E.solid0) ∧
      (o.a = o.b → ∀ w ∈ sh, IsSupportPoint (minkowskiSum o.solid E.solid0) ![w.1, w.2]) := by
  refine ⟨by simp [bridgeBound], fun k o sh ho hsh => ?_⟩
  have hB : (({ E with px := 0, py := 0 } : SuperEllipse)).Ok := ⟨hE.a, hE.b, hE.lo, hE.hi⟩
  have hs : (({ E with px := 0, py := 0 } : SuperEllipse)).solid0 = E.solid0 := rfl
  obtain ⟨c1, c2, c3⟩ := C47_minkowski_2D_partial o _ (hobs o (List.mem_of_getElem? ho)) hB h1
  rw [hs] at c2 c3
  simp only [bridgeBound, List.getElem?_map, ho, Option.map_some, Option.some.injEq] at hsh
  subst hsh
  have hv : ∀ p : Fin 2 → ℝ, ![p 0, p 1] = p := by
    intro p; funext i; fin_cases i <;> rfl
  refine ⟨by rw [toPts, List.length_map, c1], ?_, ?_⟩
  · intro w hw
    obtain ⟨p, hp, rfl⟩ := List.mem_map.1 hw
    rw [hv]; exact c2 p hp
  · intro hab w hw
    obtain ⟨p, hp, rfl⟩ := List.mem_map.1 hw
    rw [hv]; exact (c3 hab).1 p hp

theorem isPtInCFree2D_false {v : Pt ℝ} {bs : List (List (Pt ℝ))} (h : isPtInCFree2D v bs = .ok false) :
    ∃ b ∈ bs, ptInObs2D v b = .ok true := by
  induction bs with
  | nil => simp [isPtInCFree2D] at h
  | cons b bs ih =>
    unfold isPtInCFree2D at h
    obtain ⟨c, h1, h⟩ := Res.bind_eq_ok.1 h
    cases c with
    | true => exact ⟨b, by simp, h1⟩
    | false =>
      rw [if_neg (by simp)] at h
      obtain ⟨b', hb', e⟩ := ih h
      exact ⟨b', by simp [hb'], e⟩

/-- C81 (plane): a point rejected by the test really is in the Minkowski sum of some obstacle and the ellipse, that is,
the ellipse centred there has a point in common with the obstacle. -/
theorem C81_hits_are_real_2D (obs : List SuperEllipse) (E : SuperEllipse) (hE : E.Ok) (h1 : E.eps = 1)
    (hobs : ∀ o ∈ obs, o.Ok) (p : Pt ℝ) (h : isPtInCFree2D p (bridgeBound obs E) = .ok false) :
    ∃ o ∈ obs, ∃ x ∈ o.solid, x ∈ ({ E with px := p.1, py := p.2 } : SuperEllipse).solid := by
  obtain ⟨sh, hsh, hit⟩ := isPtInCFree2D_false h
  obtain ⟨k, hk⟩ := List.mem_iff_getElem?.1 hsh
  obtain ⟨hlen, hall⟩ := C81_grown_obstacles_2D_partial obs E hE h1 hobs
  have hko : k < obs.length := by rw [← hlen]; exact (List.getElem?_eq_some_iff.1 hk).1
  have ho := List.getElem?_eq_getElem hko
  have hoOk := hobs _ (List.mem_of_getElem? ho)
  obtain ⟨-, hw, -⟩ := hall k _ sh ho hk
  refine ⟨_, List.mem_of_getElem? ho, ?_⟩
  generalize obs[k] = o at hoOk hw
  -- the point is in the region of the boundary
  have hne : sh ≠ [] := by
    rintro rfl
    unfold ptInObs2D at hit
    obtain ⟨pts, e1, -⟩ := Res.bind_eq_ok.1 hit
    simp [horizLinePolygon] at e1
  have hreg : p ∈ region sh := by
    obtain ⟨l, e, hon, -⟩ := C13_horizontal_line_polygon p.2 sh hne
    unfold ptInObs2D at hit
    rw [e, Res.bind_ok'] at hit
    split at hit
    · simp at hit
    · obtain ⟨x0, g0, hit⟩ := Res.bind_eq_ok.1 hit
      obtain ⟨x1, g1, hit⟩ := Res.bind_eq_ok.1 hit
      have hd := (Res.ok.injEq _ _).mp hit
      rw [decide_eq_true_eq] at hd
      obtain ⟨f0, m0, o0⟩ := hon x0 (List.mem_of_getElem? (Res.idx_eq_ok.1 g0))
      obtain ⟨f1, m1, o1⟩ := hon x1 (List.mem_of_getElem? (Res.idx_eq_ok.1 g1))
      have r0 := onEdge_mem_region m0 o0
      have r1 := onEdge_mem_region m1 o1
      have hc : Convex ℝ (region sh) := convex_convexHull ℝ _
      obtain ⟨px, py⟩ := p
      simp only at hd r0 r1 ⊢
      rcases le_total x0 x1 with hle | hle
      · rw [min_eq_left hle, max_eq_right hle] at hd
        have hne : x1 - x0 ≠ 0 := by linarith [hd.1, hd.2]
        have hp : 0 < x1 - x0 := by linarith [hd.1, hd.2]
        have := hc r0 r1 (a := (x1 - px) / (x1 - x0)) (b := (px - x0) / (x1 - x0))
          (div_nonneg (by linarith [hd.2]) hp.le) (div_nonneg (by linarith [hd.1]) hp.le) (by field_simp; ring)
        convert this using 1
        ext
        · simp; field_simp; ring
        · simp; field_simp; ring
      · rw [min_eq_right hle, max_eq_left hle] at hd
        have hne : x0 - x1 ≠ 0 := by linarith [hd.1, hd.2]
        have hp : 0 < x0 - x1 := by linarith [hd.1, hd.2]
        have := hc r1 r0 (a := (x0 - px) / (x0 - x1)) (b := (px - x1) / (x0 - x1))
          (div_nonneg (by linarith [hd.2]) hp.le) (div_nonneg (by linarith [hd.1]) hp.le) (by field_simp; ring)
        convert this using 1
        ext
        · simp; field_simp; ring
        · simp; field_simp; ring
  have hell := SuperEllipse.solid0_ell hE h1
  have hcv : Convex ℝ (minkowskiSum o.solid E.solid0) := by
    refine minkowskiSum_convex (SuperEllipse.solid_convex hoOk) ?_
    rw [hell]; exact ball_convex _
  have hsum : ![p.1, p.2] ∈ minkowskiSum o.solid E.solid0 := by
    have : region sh ⊆ {w : Pt ℝ | ![w.1, w.2] ∈ minkowskiSum o.solid E.solid0} := by
      refine convexHull_min hw ?_
      intro x hx y hy s t hs ht hst
      have := hcv hx hy hs ht hst
      simp only [Set.mem_setOf_eq]
      convert this using 1
      funext i; fin_cases i <;> simp
    exact this hreg
  obtain ⟨a, ha, b, hb, e⟩ := hsum
  refine ⟨a, ha, -b, ?_, ?_⟩
  · change -b ∈ E.solid0
    rw [hell] at hb ⊢
    obtain ⟨w, hw1, rfl⟩ := hb
    exact ⟨-w, by simpa using hw1, by rw [mulVec_neg]⟩
  · change a = -b + ![p.1, p.2]
    rw [e]; abel

/-- C81 (space), the boundaries: there is one mesh per obstacle, in the same order; its vertices are `num * num` points,
each of them a point where a plane supports the Minkowski sum of the obstacle and the ellipsoid at the origin; its faces
are the cells of the grid. -/
theorem C81_grown_obstacles_3D (obs : List SuperQuadrics) (E : SuperQuadrics) (hE : E.Ok) (h1 : E.e1 = 1)
    (h2 : E.e2 = 1) (hobs : ∀ o ∈ obs, o.Ok) :
    (bridgeBound3 obs E).length = obs.length ∧
    ∀ (k : ℕ) (o : SuperQuadrics) (m : Mesh), obs[k]? = some o → (bridgeBound3 obs E)[k]? = some m →
      m.vertices.length = o.num * o.num ∧ m.faces = gridFaces o.num ∧
      ∀ w ∈ m.vertices, IsSupportPoint (minkowskiSum o.solid E.solid0) ![w.x, w.y, w.z] := by
  refine ⟨by simp [bridgeBound3], fun k o m ho hm => ?_⟩
  have hB : (({ E with pos := 0 } : SuperQuadrics)).Ok := ⟨hE.a, hE.b, hE.c, hE.lo1, hE.hi1, hE.lo2, hE.hi2, hE.unit⟩
  have hs : (({ E with pos := 0 } : SuperQuadrics)).solid0 = E.solid0 := rfl
  obtain ⟨c1, c2, -⟩ := C46_minkowski_3D o _ (hobs o (List.mem_of_getElem? ho)) hB h1 h2
  rw [hs] at c2
  simp only [bridgeBound3, List.getElem?_map, ho, Option.map_some, Option.some.injEq] at hm
  subst hm
  refine ⟨by simp only [gridMesh, List.length_map, c1], rfl, fun w hw => ?_⟩
  obtain ⟨q, hq, rfl⟩ := List.mem_map.1 hw
  have hv : ![(toV3 q).x, (toV3 q).y, (toV3 q).z] = q := by
    funext i; fin_cases i <;> rfl
  rw [hv]; exact c2 q hq

end Hrm
