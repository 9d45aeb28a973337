import Verif.Spec.Mesh

/-!
# Specification vocabulary: what a triangle mesh encloses

No convexity and no closedness is assumed of the mesh: a point is free of the mesh if it can move away to beyond the
bounding box without touching a face.
-/

namespace Hrm

/-- `p` is on a face of the mesh. -/
def OnMesh (m : Mesh) (p : V3) : Prop := ∃ a b c, m.HasFace a b c ∧ InTriangle 0 a b c p

/-- The straight way from `p` to `q` touches no face. -/
def Avoids (m : Mesh) (p q : V3) : Prop := ∀ s, 0 ≤ s → s ≤ 1 → ¬ OnMesh m (V3.comb s p q)

/-- `p` can move away: there is a polygonal way from `p` to a point beyond all vertices of the mesh in some coordinate,
touching no face. -/
inductive Escapes (m : Mesh) : V3 → Prop
  | far (p : V3) : (outOfRange V3.x p.x m.vertices ∨ outOfRange V3.y p.y m.vertices ∨ outOfRange V3.z p.z m.vertices) →
      Escapes m p
  | move (p q : V3) : Avoids m p q → Escapes m q → Escapes m p

/-- The line meets the face `f` (barycentric coordinates relaxed by `tol`), at an angle whose sine exceeds `tol`. -/
def MeetsFace (tol : ℝ) (line : Line3) (m : Mesh) (f : ℕ × ℕ × ℕ) : Prop :=
  ∃ a b c p, m.vertices[f.1]? = some a ∧ m.vertices[f.2.1]? = some b ∧ m.vertices[f.2.2]? = some c ∧
    Transversal tol line a b c ∧ OnLine line p ∧ InTriangle tol a b c p

open Classical in
/-- The line is in general position with respect to the mesh: it meets at most two faces (up to the tolerance), and the
faces it meets exactly it does not graze. -/
def GenericLine (tol : ℝ) (line : Line3) (m : Mesh) : Prop :=
  m.faces.countP (fun f => decide (MeetsFace tol line m f)) ≤ 2 ∧
  ∀ a b c p, m.HasFace a b c → OnLine line p → InTriangle 0 a b c p → Transversal tol line a b c

end Hrm
