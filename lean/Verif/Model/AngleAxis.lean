import Verif.Model.Interp
import Verif.Model.MultiBody
import Mathlib.Analysis.SpecialFunctions.Complex.Arg

/-!
# Model of `interpolateAngleAxis` (src/util/InterpolateSE3.cpp:67-87)

With the conversions of Eigen (Eigen/src/Geometry/AngleAxis.h) it calls. Real arithmetic; NaN is `none`.
-/

namespace Hrm

open Matrix

/-- `Eigen::AngleAxisd(matrix)`, as called at InterpolateSE3.cpp:76: the matrix is converted to a quaternion, the angle is
`2 * atan2(|vec|, |w|)` and the axis `vec / ±|vec|`; for a zero vector part it is angle 0 about the x-axis. (Eigen repeats the
computation of a tiny norm with scaling; the same in real arithmetic.) -/
noncomputable def angleAxisOf (M : Matrix (Fin 3) (Fin 3) ℝ) : ℝ × (Fin 3 → ℝ) :=
  let q := matQuat M
  let v : Fin 3 → ℝ := ![q.2.1, q.2.2.1, q.2.2.2]
  let n := vnorm v
  if n ≠ 0 then (2 * Complex.arg ⟨|q.1|, n⟩, fun i => v i / (if q.1 < 0 then -n else n))
  else (0, ![1, 0, 0])

/-- `AngleAxisd::toRotationMatrix`, as called at InterpolateSE3.cpp:83. -/
noncomputable def axisMatrix (th : ℝ) (u : Fin 3 → ℝ) : Matrix (Fin 3) (Fin 3) ℝ :=
  let s : Fin 3 → ℝ := fun i => Real.sin th * u i
  let c := Real.cos th
  let d : Fin 3 → ℝ := fun i => (1 - c) * u i
  !![d 0 * u 0 + c, d 0 * u 1 - s 2, d 0 * u 2 + s 1;
     d 0 * u 1 + s 2, d 1 * u 1 + c, d 1 * u 2 - s 0;
     d 0 * u 2 - s 1, d 1 * u 2 + s 0, d 2 * u 2 + c]

/-- `interpolateAngleAxis`, InterpolateSE3.cpp:67-87. For `numStep = 0` the only angle is NaN and so are all coefficients of
the only quaternion. -/
noncomputable def interpolateAngleAxis (qa qb : Quat) (numStep : ℕ) : List (Option Quat) :=
  let Ra := quatRot qa
  let ax := angleAxisOf (Raᵀ * quatRot qb)
  (List.range (numStep + 1)).map fun i =>
    (stepFrac numStep i).map fun t => matQuat (Ra * axisMatrix (t * ax.1) ax.2)

end Hrm
