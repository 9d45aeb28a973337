import Verif.Model.Mesh

/-! # Specification vocabulary for lines, triangles and meshes -/

namespace Hrm

/-- `p` is on the (infinite) line. -/
def OnLine (l : Line3) (p : V3) : Prop := ∃ τ, p = ⟨l.o.x + τ * l.d.x, l.o.y + τ * l.d.y, l.o.z + τ * l.d.z⟩

/-- `p` is in the triangle with corners `a, b, c`, barycentric coordinates relaxed by `tol`
(`tol = 0`: in the closed triangle). -/
def InTriangle (tol : ℝ) (a b c p : V3) : Prop :=
  ∃ s t, -tol ≤ s ∧ s ≤ 1 + tol ∧ -tol ≤ t ∧ s + t ≤ 1 + tol ∧
    p.x = a.x + s * (b.x - a.x) + t * (c.x - a.x) ∧
    p.y = a.y + s * (b.y - a.y) + t * (c.y - a.y) ∧
    p.z = a.z + s * (b.z - a.z) + t * (c.z - a.z)

/-- Sine of the angle between the line direction (if a unit vector) and the plane of `a, b, c` exceeds
`tol`: `|N·d| > tol*|N|` for the normal `N = (b-a)×(c-a)`. -/
def Transversal (tol : ℝ) (l : Line3) (a b c : V3) : Prop :=
  |((b.sub a).cross (c.sub a)).dot l.d| > tol * ((b.sub a).cross (c.sub a)).norm

/-- Corner coordinates of a face. -/
def Mesh.HasFace (m : Mesh) (a b c : V3) : Prop :=
  ∃ f ∈ m.faces, m.vertices[f.1]? = some a ∧ m.vertices[f.2.1]? = some b ∧ m.vertices[f.2.2]? = some c

/-- All face indices are valid vertex numbers. -/
def Mesh.WF (m : Mesh) : Prop :=
  m.vertices ≠ [] ∧ ∀ f ∈ m.faces, f.1 < m.vertices.length ∧ f.2.1 < m.vertices.length ∧
    f.2.2 < m.vertices.length

/-- Convex combinations of two points. -/
def V3.comb (t : ℝ) (a b : V3) : V3 :=
  ⟨t * a.x + (1 - t) * b.x, t * a.y + (1 - t) * b.y, t * a.z + (1 - t) * b.z⟩

/-- A convex set of points. -/
def ConvexSet (C : V3 → Prop) : Prop :=
  ∀ a b t, C a → C b → 0 ≤ t → t ≤ 1 → C (V3.comb t a b)

/-- The mesh is part of the boundary of the body `C`: each face (`a,b,c`) is contained in `C` and its
plane supports `C` (all of `C` on one side). -/
def Supports (m : Mesh) (C : V3 → Prop) : Prop :=
  ∀ a b c, m.HasFace a b c →
    (∀ p, InTriangle 0 a b c p → C p) ∧
    ((∀ p, C p → 0 ≤ ((b.sub a).cross (c.sub a)).dot (p.sub a)) ∨
     (∀ p, C p → ((b.sub a).cross (c.sub a)).dot (p.sub a) ≤ 0))

end Hrm
