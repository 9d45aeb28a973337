import Verif.Lemmas.Tetra
import Verif.Lemmas.Convex
import Verif.Spec.Collision
import Verif.Props.Shape

/-!
# Lemmas on collision objects
-/

namespace Hrm

open Matrix

theorem foldl_front {α : Type} (L acc : List α) : L.foldl (fun L p => p :: L) acc = L.reverse ++ acc := by
  induction L generalizing acc with
  | nil => rfl
  | cons a L ih => simp [ih]

theorem getMesh_eq (cgal : List (Fin 3 → ℝ) → Cells) (L : List (Fin 3 → ℝ)) :
    getMesh cgal L = ⟨(cgal L.reverse).points, (cgal L.reverse).cells.flatMap cellFaces⟩ := by
  unfold getMesh
  rw [foldl_front, List.append_nil]

/-- Every point of the mesh is in the convex hull of the given points. -/
theorem mesh_in_hull {cgal : List (Fin 3 → ℝ) → Cells} (hc : CgalOk cgal) {L : List (Fin 3 → ℝ)} {x : Fin 3 → ℝ}
    (hx : x ∈ (Geom.mesh (getMesh cgal L)).shape) : x ∈ convexHull ℝ {p | p ∈ L} := by
  obtain ⟨t, -, p, q, r, hp, hq, hr, hx⟩ := hx
  rw [getMesh_eq] at hp hq hr
  have hm : ∀ {i : ℕ} {p : Fin 3 → ℝ}, (cgal L.reverse).points[i]? = some p → p ∈ L := by
    intro i p h
    have := (hc.points L.reverse p).1 (List.mem_of_getElem? h)
    simpa using this
  refine convexHull_mono ?_ hx
  intro y hy
  simp only [Set.mem_insert_iff, Set.mem_singleton_iff] at hy
  rcases hy with rfl | rfl | rfl
  · exact hm hp
  · exact hm hq
  · exact hm hr

/-- A convex set that meets no triangle of the mesh misses the hull of the points or lies in one tetrahedron on them. -/
theorem mesh_missed {cgal : List (Fin 3 → ℝ) → Cells} (hc : CgalOk cgal) {L : List (Fin 3 → ℝ)} (hL : ¬ Coplanar L)
    {B : Set (Fin 3 → ℝ)} (hB : Convex ℝ B) (hm : B ∩ (Geom.mesh (getMesh cgal L)).shape = ∅) :
    B ∩ convexHull ℝ {p | p ∈ L} = ∅ ∨
      ∃ p ∈ L, ∃ q ∈ L, ∃ r ∈ L, ∃ s ∈ L, B ⊆ convexHull ℝ {p, q, r, s} := by
  by_cases h0 : B ∩ convexHull ℝ {p | p ∈ L} = ∅
  · exact .inl h0
  right
  obtain ⟨x, hxB, hxL⟩ := Set.nonempty_iff_ne_empty.2 h0
  have hL' : ¬ Coplanar L.reverse := by
    rintro ⟨g, d, hg, h⟩
    exact hL ⟨g, d, hg, fun p hp => h p (by simpa using hp)⟩
  obtain ⟨c, hcm, p, q, r, s, hp, hq, hr, hs, hx⟩ := hc.fills L.reverse hL' x (by simpa using hxL)
  have hmem : ∀ {i : ℕ} {p : Fin 3 → ℝ}, (cgal L.reverse).points[i]? = some p → p ∈ L := by
    intro i p h
    have := (hc.points L.reverse p).1 (List.mem_of_getElem? h)
    simpa using this
  refine ⟨p, hmem hp, q, hmem hq, r, hmem hr, s, hmem hs, convex_in_tetra hB ⟨x, hxB, hx⟩ ?_⟩
  rw [Set.eq_empty_iff_forall_notMem] at hm ⊢
  rintro y ⟨hyB, hy⟩
  apply hm y
  refine ⟨hyB, ?_⟩
  rw [getMesh_eq]
  have hface : ∀ t ∈ cellFaces c, t ∈ (cgal L.reverse).cells.flatMap cellFaces :=
    fun t ht => List.mem_flatMap.2 ⟨c, hcm, ht⟩
  rcases hy with ((hy | hy) | hy) | hy
  · exact ⟨_, hface (c.1, c.2.1, c.2.2.1) (by simp [cellFaces]), p, q, r, hp, hq, hr, hy⟩
  · exact ⟨_, hface (c.1, c.2.2.1, c.2.2.2) (by simp [cellFaces]), p, r, s, hp, hr, hs, hy⟩
  · exact ⟨_, hface (c.2.1, c.2.2.1, c.2.2.2) (by simp [cellFaces]), q, r, s, hq, hr, hs, hy⟩
  · exact ⟨_, hface (c.1, c.2.1, c.2.2.2) (by simp [cellFaces]), p, q, s, hp, hq, hs, hy⟩

/-- Points in a plane: an empty mesh. -/
theorem mesh_flat {cgal : List (Fin 3 → ℝ) → Cells} (hc : CgalOk cgal) {L : List (Fin 3 → ℝ)} (hL : Coplanar L) :
    (Geom.mesh (getMesh cgal L)).shape = ∅ := by
  have hL' : Coplanar L.reverse := by
    obtain ⟨g, d, hg, h⟩ := hL
    exact ⟨g, d, hg, fun p hp => h p (by simpa using hp)⟩
  rw [getMesh_eq, hc.flat _ hL', Set.eq_empty_iff_forall_notMem]
  rintro x ⟨t, ht, -⟩
  simp at ht

theorem mesh_thin (m : TriMesh) : IsClosed (Geom.mesh m).shape ∧ interior (Geom.mesh m).shape = ∅ := by
  have e : (Geom.mesh m).shape = {x | ∃ t ∈ m.triangles.map m.triangle, x ∈ t} := by
    ext x
    simp only [Geom.shape, Set.mem_ofPred_eq, List.mem_map]
    constructor
    · rintro ⟨t, ht, hx⟩
      exact ⟨_, ⟨t, ht, rfl⟩, hx⟩
    · rintro ⟨_, ⟨t, ht, rfl⟩, hx⟩
      exact ⟨t, ht, hx⟩
  rw [e]
  apply triangles_thin
  intro t ht
  obtain ⟨t, -, rfl⟩ := List.mem_map.1 ht
  rcases h1 : m.vertices[t.1]? with _ | p
  · have : m.triangle t = ∅ := by
      rw [Set.eq_empty_iff_forall_notMem]
      rintro x ⟨p, q, r, hp, -⟩
      rw [h1] at hp; cases hp
    rw [this]; simp
  rcases h2 : m.vertices[t.2.1]? with _ | q
  · have : m.triangle t = ∅ := by
      rw [Set.eq_empty_iff_forall_notMem]
      rintro x ⟨p, q, r, -, hp, -⟩
      rw [h2] at hp; cases hp
    rw [this]; simp
  rcases h3 : m.vertices[t.2.2]? with _ | r
  · have : m.triangle t = ∅ := by
      rw [Set.eq_empty_iff_forall_notMem]
      rintro x ⟨p, q, r, -, -, hp, -⟩
      rw [h3] at hp; cases hp
    rw [this]; simp
  have : m.triangle t = convexHull ℝ {p, q, r} := by
    ext x
    constructor
    · rintro ⟨p', q', r', hp, hq, hr, hx⟩
      rw [h1] at hp; rw [h2] at hq; rw [h3] at hr
      obtain rfl := Option.some.inj hp
      obtain rfl := Option.some.inj hq
      obtain rfl := Option.some.inj hr
      exact hx
    · intro hx
      exact ⟨p, q, r, h1, h2, h3, hx⟩
  rw [this]
  exact ⟨finite_hull_closed (Set.toFinite _), triangle_thin p q r⟩

/-! ## The contract can be met -/

open Classical in
/-- All quadruples of points. -/
noncomputable def allCells (L : List (Fin 3 → ℝ)) : Cells :=
  ⟨L, if Coplanar L then [] else
    (List.range L.length).flatMap fun i => (List.range L.length).flatMap fun j =>
      (List.range L.length).flatMap fun k => (List.range L.length).map fun l => (i, j, k, l)⟩

theorem mem_allCells {L : List (Fin 3 → ℝ)} (h : ¬ Coplanar L) (c : ℕ × ℕ × ℕ × ℕ) :
    c ∈ (allCells L).cells ↔ c.1 < L.length ∧ c.2.1 < L.length ∧ c.2.2.1 < L.length ∧ c.2.2.2 < L.length := by
  obtain ⟨i, j, k, l⟩ := c
  simp only [allCells, if_neg h, List.mem_flatMap, List.mem_map, List.mem_range, Prod.mk.injEq]
  constructor
  · rintro ⟨i', hi, j', hj, k', hk, l', hl, rfl, rfl, rfl, rfl⟩
    exact ⟨hi, hj, hk, hl⟩
  · rintro ⟨hi, hj, hk, hl⟩
    exact ⟨i, hi, j, hj, k, hk, l, hl, rfl, rfl, rfl, rfl⟩

theorem cgalOk_allCells : CgalOk allCells where
  points L p := Iff.rfl
  range L c hcm := by
    by_cases h : Coplanar L
    · simp [allCells, h] at hcm
    · exact (mem_allCells h c).1 hcm
  flat L h := by simp [allCells, h]
  fills L h x hx := by
    obtain ⟨ι, hι, z, w, hz, hind, hw, hw1, hwx⟩ := eq_pos_convex_span_of_mem_convexHull hx
    have hne : Nonempty ι := by
      by_contra h0
      rw [not_nonempty_iff] at h0
      simp at hw1
    have hcard : Fintype.card ι ≤ Fintype.card (Fin 4) := by
      have := hind.card_le_finrank_succ
      simp only [Fintype.card_fin]
      refine this.trans ?_
      have h3 := Submodule.finrank_le (vectorSpan ℝ (Set.range z))
      simp at h3
      omega
    obtain ⟨f⟩ := Function.Embedding.nonempty_of_card_le hcard
    have hs := Function.invFun_surjective f.injective
    set y : Fin 4 → (Fin 3 → ℝ) := fun i => z (Function.invFun f i)
    have hy : ∀ i, y i ∈ L := fun i => hz ⟨_, rfl⟩
    obtain ⟨i0, e0⟩ := List.mem_iff_getElem?.1 (hy 0)
    obtain ⟨i1, e1⟩ := List.mem_iff_getElem?.1 (hy 1)
    obtain ⟨i2, e2⟩ := List.mem_iff_getElem?.1 (hy 2)
    obtain ⟨i3, e3⟩ := List.mem_iff_getElem?.1 (hy 3)
    have lt : ∀ {i : ℕ} {p : Fin 3 → ℝ}, L[i]? = some p → i < L.length :=
      fun h => (List.getElem?_eq_some_iff.1 h).1
    refine ⟨(i0, i1, i2, i3), (mem_allCells h _).2 ⟨lt e0, lt e1, lt e2, lt e3⟩, y 0, y 1, y 2, y 3, e0, e1, e2, e3, ?_⟩
    rw [← hwx]
    refine (convex_convexHull ℝ _).sum_mem (fun i _ => (hw i).le) hw1 (fun i _ => subset_convexHull ℝ _ ?_)
    obtain ⟨j, hj⟩ := hs i
    have : z i = y j := by simp only [y]; rw [hj]
    rw [this]
    fin_cases j <;> simp

/-! ## Ideal FCL -/

open Classical in
/-- An exact collision test. -/
noncomputable def idealCollide (g : Geom) (T : Pose 3) (h : Geom) (U : Pose 3) : Bool :=
  decide (g.at T ∩ h.at U).Nonempty

theorem fclExact_ideal : FclExact idealCollide := by
  intro g T h U
  simp [idealCollide]

/-! ## Placed geometries -/

theorem posVec (Q : SuperQuadrics) : ![Q.pos 0, Q.pos 1, Q.pos 2] = Q.pos := by
  ext i; fin_cases i <;> rfl

/-- The placed ellipsoid object is the solid. -/
theorem ellipsoid_at {Q Q0 : SuperQuadrics} (h1 : Q.e1 = 1) (h2 : Q.e2 = 1) (ha : Q.a = Q0.a) (hb : Q.b = Q0.b)
    (hc : Q.c = Q0.c) :
    (Geom.ellipsoid Q0.a Q0.b Q0.c).at ⟨quatRot Q.quat, ![Q.pos 0, Q.pos 1, Q.pos 2]⟩ = Q.solid := by
  rw [posVec]
  ext x
  simp only [Geom.at, Geom.shape, SuperQuadrics.solid, SuperQuadrics.solid0, SuperQuadrics.implicit, h1, h2,
    Set.mem_ofPred_eq, div_one, Real.rpow_two, sq_abs, Real.rpow_one, ha, hb, hc]
  constructor
  · rintro ⟨p, hp, rfl⟩
    exact ⟨_, ⟨p, hp, rfl⟩, rfl⟩
  · rintro ⟨_, ⟨p, hp, rfl⟩, rfl⟩
    exact ⟨p, hp, rfl⟩

theorem aux_solid {Q : SuperQuadrics} {p : Fin 3 → ℝ} (h : p ∈ Q.aux.solid) : Q.implicit p ≤ 1 := by
  obtain ⟨_, ⟨q, hq, rfl⟩, rfl⟩ := h
  have e : quatRot Q.aux.quat *ᵥ q + Q.aux.pos = q := by
    have h0 : Q.aux.pos = 0 := by ext i; fin_cases i <;> rfl
    have h1 : quatRot Q.aux.quat = 1 := by
      ext i j; fin_cases i <;> fin_cases j <;> simp [quatRot, SuperQuadrics.aux]
    rw [h0, h1, one_mulVec, add_zero]
  rw [e]
  exact hq

theorem aux_ok {Q : SuperQuadrics} (h : Q.Ok) : Q.aux.Ok :=
  ⟨h.a, h.b, h.c, h.lo1, h.hi1, h.lo2, h.hi2, by simp [SuperQuadrics.aux]⟩

theorem hull_in_solid {Q : SuperQuadrics} (h : Q.Ok) {x : Fin 3 → ℝ}
    (hx : x ∈ convexHull ℝ {p | p ∈ Q.originShape}) : x ∈ Q.solid := by
  refine convexHull_min ?_ (SuperQuadrics.solid_convex h) hx
  rintro p hp
  obtain ⟨k, -, rfl⟩ := List.mem_map.1 hp
  exact (SuperQuadrics.support h _).1

/-- The placed mesh is inside the solid. -/
theorem mesh_at {cgal : List (Fin 3 → ℝ) → Cells} (hc : CgalOk cgal) {Q : SuperQuadrics} (h : Q.Ok) :
    (Geom.mesh (getMeshFromSQ cgal Q)).at ⟨quatRot Q.quat, ![Q.pos 0, Q.pos 1, Q.pos 2]⟩ ⊆ Q.solid := by
  rintro x ⟨p, hp, rfl⟩
  have := aux_solid (hull_in_solid (aux_ok h) (mesh_in_hull hc hp))
  rw [posVec]
  exact ⟨_, ⟨p, this, rfl⟩, rfl⟩

end Hrm
