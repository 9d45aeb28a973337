import Verif.Model.Polygon
import Mathlib.Analysis.Convex.Hull

/-!
# Specification vocabulary for polygons
-/

namespace Hrm

variable {K : Type*} [Field K] [LinearOrder K]

/-- Twice the signed area of the triangle (first end, second end, `v`). -/
def cross (e : Pt K × Pt K) (v : Pt K) : K :=
  (e.2.1 - e.1.1) * (v.2 - e.1.2) - (e.2.2 - e.1.2) * (v.1 - e.1.1)

/-- A closed polygon whose vertices all lie on one side of each of its edges (counter-clockwise or
clockwise; repeated and collinear vertices are allowed). -/
def ConvexPolygon (shape : List (Pt K)) : Prop :=
  (∀ e ∈ edgesOf shape, ∀ v ∈ shape, 0 ≤ cross e v) ∨
  (∀ e ∈ edgesOf shape, ∀ v ∈ shape, cross e v ≤ 0)

/-- The region bounded by a convex polygon: the convex hull of its vertices. -/
def region (shape : List (Pt K)) : Set (Pt K) := convexHull K {v | v ∈ shape}

/-- `x` is on the closed edge `e`. -/
def OnEdge (e : Pt K × Pt K) (x : Pt K) : Prop :=
  ∃ t, 0 ≤ t ∧ t ≤ 1 ∧ x.1 = t * e.1.1 + (1 - t) * e.2.1 ∧ x.2 = t * e.1.2 + (1 - t) * e.2.2

/-- The open segment `p1 p2` crosses the open edge `e` transversally. -/
def Crosses (p1 p2 : Pt K) (e : Pt K × Pt K) : Prop :=
  (p2.1 - p1.1) * (e.2.2 - e.1.2) - (p2.2 - p1.2) * (e.2.1 - e.1.1) ≠ 0 ∧
  ∃ s t, 0 < s ∧ s < 1 ∧ 0 < t ∧ t < 1 ∧
    p1.1 + s * (p2.1 - p1.1) = e.1.1 + t * (e.2.1 - e.1.1) ∧
    p1.2 + s * (p2.2 - p1.2) = e.1.2 + t * (e.2.2 - e.1.2)

end Hrm
