import Verif.Model.Collision
import Verif.Spec.MultiBody
import Mathlib.Analysis.Convex.Hull

/-!
# What is asked of FCL and CGAL

`FclExact`: FCL decides, without any rounding, whether the two placed geometries have a common point, where a mesh is
the union of its triangles (FCL's BVH models are surfaces; they have no inside).

`CgalOk`: the part of the contract of a 3D triangulation that is used. A real triangulation has more (cells do not
overlap, for example), so the theorems hold for it as well.
-/

namespace Hrm

open Matrix

/-- The point set of the triangle with these point numbers. -/
def TriMesh.triangle (m : TriMesh) (t : ℕ × ℕ × ℕ) : Set (Fin 3 → ℝ) :=
  {x | ∃ p q r, m.vertices[t.1]? = some p ∧ m.vertices[t.2.1]? = some q ∧ m.vertices[t.2.2]? = some r ∧
    x ∈ convexHull ℝ {p, q, r}}

/-- The point set of a collision geometry in its own frame. -/
def Geom.shape : Geom → Set (Fin 3 → ℝ)
  | .ellipsoid a b c => {p | (p 0 / a) ^ 2 + (p 1 / b) ^ 2 + (p 2 / c) ^ 2 ≤ 1}
  | .mesh m => {x | ∃ t ∈ m.triangles, x ∈ m.triangle t}

/-- The geometry, turned and moved. -/
def Geom.at (g : Geom) (T : Pose 3) : Set (Fin 3 → ℝ) := {x | ∃ p ∈ g.shape, x = T.rot *ᵥ p + T.pos}

/-- FCL answers exactly. -/
def FclExact (collide : Geom → Pose 3 → Geom → Pose 3 → Bool) : Prop :=
  ∀ g T h U, collide g T h U = true ↔ (g.at T ∩ h.at U).Nonempty

/-- The tetrahedron of a cell. -/
def Cells.tetra (T : Cells) (c : ℕ × ℕ × ℕ × ℕ) : Set (Fin 3 → ℝ) :=
  {x | ∃ p q r s, T.points[c.1]? = some p ∧ T.points[c.2.1]? = some q ∧ T.points[c.2.2.1]? = some r ∧
    T.points[c.2.2.2]? = some s ∧ x ∈ convexHull ℝ {p, q, r, s}}

/-- The points lie in a common plane. -/
def Coplanar (L : List (Fin 3 → ℝ)) : Prop := ∃ (g : Fin 3 → ℝ) (d : ℝ), g ≠ 0 ∧ ∀ p ∈ L, g ⬝ᵥ p = d

/-- CGAL's triangulation: its points are the given ones; points in a common plane have no 3D cells; otherwise the cells
fill the convex hull. -/
structure CgalOk (cgal : List (Fin 3 → ℝ) → Cells) : Prop where
  points : ∀ L p, p ∈ (cgal L).points ↔ p ∈ L
  range : ∀ L, ∀ c ∈ (cgal L).cells, c.1 < (cgal L).points.length ∧ c.2.1 < (cgal L).points.length ∧
    c.2.2.1 < (cgal L).points.length ∧ c.2.2.2 < (cgal L).points.length
  flat : ∀ L, Coplanar L → (cgal L).cells = []
  fills : ∀ L, ¬ Coplanar L → ∀ x ∈ convexHull ℝ {p | p ∈ L}, ∃ c ∈ (cgal L).cells, x ∈ (cgal L).tetra c

end Hrm
