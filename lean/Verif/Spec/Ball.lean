import Verif.Lemmas.Shape
import Verif.Spec.Escape
import Verif.Spec.Planner3D

/-!
# Specification vocabulary: a ball among balls
-/

namespace Hrm

open Matrix

/-- The shape is a ball. -/
structure SuperQuadrics.Ball (E : SuperQuadrics) : Prop where
  radius : 0 < E.a
  round : E.a = E.b ∧ E.b = E.c
  ell : E.e1 = 1 ∧ E.e2 = 1
  unit : E.quat.Unit

/-- The distance of two points of space. -/
noncomputable def dist3 (p q : V3) : ℝ := Real.sqrt ((p.x - q.x) ^ 2 + (p.y - q.y) ^ 2 + (p.z - q.z) ^ 2)

/-- The mesh of the ball `o` grown by a ball of radius `r`: `o.num` by `o.num` points of the sphere of radius `r + o.a` in the
frame of `o`, at evenly spaced latitudes from -(3.1415926 / 2 + 1e-6) to 3.1415926 / 2 + 1e-6 and longitudes from
-(3.1415926 + 1e-6) to 3.1415926 + 1e-6, neighbouring points joined by two triangles. -/
noncomputable def grownBall (r : ℝ) (o : SuperQuadrics) : Mesh :=
  gridMesh ((List.range (o.num * o.num)).map fun k =>
    let lat := (2 * ((k / o.num : ℕ) : ℝ) / ((o.num : ℝ) - 1) - 1) * (hrmHalfPi + epsilon)
    let lon := (2 * ((k % o.num : ℕ) : ℝ) / ((o.num : ℝ) - 1) - 1) * (hrmPi + epsilon)
    toV3 (quatRot o.quat *ᵥ ![(r + o.a) * (Real.cos lat * Real.cos lon), (r + o.a) * (Real.cos lat * Real.sin lon),
      (r + o.a) * Real.sin lat] + o.pos)) o.num

/-- How deep the ball of radius `r` around `p` reaches into the ball `o`: the sum of the radii minus the distance of the
centres (zero: they touch; negative: there is a gap). -/
noncomputable def overlap3 (r : ℝ) (o : SuperQuadrics) (p : V3) : ℝ :=
  r + o.a - dist3 p ⟨o.pos 0, o.pos 1, o.pos 2⟩

/-- The most by which a face of the latitude-longitude mesh with `o.num` by `o.num` vertices on the sphere of radius
`r + o.a` is nearer to its centre than the sphere: half a step of longitude is (3.1415926 + 1e-6) / (num - 1), half a step
of latitude (3.1415926 / 2 + 1e-6) / (num - 1). -/
noncomputable def sag3 (r : ℝ) (o : SuperQuadrics) : ℝ :=
  (r + o.a) * (1 - Real.cos ((hrmPi + epsilon) / ((o.num : ℝ) - 1)) * Real.cos ((hrmHalfPi + epsilon) / ((o.num : ℝ) - 1)))

end Hrm
