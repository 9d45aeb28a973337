import Verif.Spec.Shape
import Verif.Spec.Polygon

/-!
# Specification vocabulary: a disc among discs
-/

namespace Hrm

/-- The distance of two points of the plane. -/
noncomputable def dist2 (p q : Pt ℝ) : ℝ := Real.sqrt ((p.1 - q.1) ^ 2 + (p.2 - q.2) ^ 2)

/-- The shape is a disc. -/
structure SuperEllipse.Disc (E : SuperEllipse) : Prop where
  radius : 0 < E.a
  round : E.a = E.b
  ell : E.eps = 1

/-- How deep the disc of radius `r` around `p` reaches into the disc `o`: the sum of the radii minus the distance of the
centres (zero: they touch; negative: there is a gap). -/
noncomputable def overlap (r : ℝ) (o : SuperEllipse) (p : Pt ℝ) : ℝ := r + o.a - dist2 p (o.px, o.py)

/-- The sag of a circle of radius `r + o.a` below the sides of the polygon with `o.num - 1` corners inscribed in it. -/
noncomputable def sag (r : ℝ) (o : SuperEllipse) : ℝ := (r + o.a) * (1 - Real.cos (Real.pi / ((o.num : ℝ) - 1)))

/-- The points of the circle of radius `r + o.a` around the centre of `o` at the angles sampled by the program. -/
noncomputable def grownCircle (r : ℝ) (o : SuperEllipse) : List (Pt ℝ) :=
  (List.range o.num).map fun i : ℕ => (o.px + (r + o.a) * Real.cos (o.ang + 2 * i * hrmPi / ((o.num : ℝ) - 1)),
    o.py + (r + o.a) * Real.sin (o.ang + 2 * i * hrmPi / ((o.num : ℝ) - 1)))

end Hrm
