import Verif.Model.Interp

/-!
# Specification vocabulary for interpolated poses
-/

namespace Hrm

/-- A computed configuration whose coordinates are all numbers, and are those of `v`. -/
def IsRow (row : List (Option ℝ)) (v : Vec) : Prop := row = v.map some

/-- Coordinate `j` of configuration `v` (0 if there is none). -/
def coordOf (v : Vec) (j : ℕ) : ℝ := v.getD j 0

/-- The quaternion part of a configuration. -/
def quatPart (v : Vec) : Quat := (coordOf v 3, coordOf v 4, coordOf v 5, coordOf v 6)

/-- Opposite quaternions represent the same rotation. -/
def SameRotation (p q : Quat) : Prop := p = q ∨ p = (-q.1, -q.2.1, -q.2.2.1, -q.2.2.2)

/-- Coordinate `j` is the point of parameter `t` on the segment from `v` to `w`. -/
def OnSegment (v w : Vec) (t : ℝ) (u : Vec) (j : ℕ) : Prop :=
  coordOf u j = coordOf v j + t * (coordOf w j - coordOf v j)

/-- A configuration `(x, y, z, qw, qx, qy, qz, joints…)` with a unit quaternion. -/
def UnitPose (v : Vec) : Prop := 7 ≤ v.length ∧ Quat.dot (quatPart v) (quatPart v) = 1

end Hrm
