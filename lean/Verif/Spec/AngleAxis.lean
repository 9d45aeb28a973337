import Verif.Spec.Interp
import Mathlib.LinearAlgebra.CrossProduct

/-!
# Specification vocabulary: turning about an axis
-/

namespace Hrm

open Matrix

/-- The point `x` turned by the angle `th` about the axis through the origin with the unit direction `u` (Rodrigues). -/
noncomputable def turnAbout (u : Fin 3 → ℝ) (th : ℝ) (x : Fin 3 → ℝ) : Fin 3 → ℝ :=
  Real.cos th • x + Real.sin th • (crossProduct u x) + ((1 - Real.cos th) * (u ⬝ᵥ x)) • u

/-- The rotation of a quaternion, applied to a point. -/
noncomputable def rotated (q : Quat) (x : Fin 3 → ℝ) : Fin 3 → ℝ := quatRot q *ᵥ x

end Hrm
