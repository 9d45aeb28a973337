import Verif.Model.Nearest
import Mathlib.Analysis.SpecialFunctions.Trigonometric.Basic
import Mathlib.Analysis.SpecialFunctions.Pow.Real
import Mathlib.LinearAlgebra.Matrix.Notation
import Mathlib.Data.Matrix.Mul

/-!
# Model of the superellipse / superquadric shapes and of the closed-form Minkowski sums
(src/geometry/SuperEllipse.cpp, src/geometry/SuperQuadrics.cpp, src/util/ExponentialFunction.cpp)

Real arithmetic. A boundary (`Eigen::MatrixXd`, one column per point) is the list of its columns.
-/

namespace Hrm

open Matrix

/-- `static const double PI`, DataType.h:30. -/
noncomputable def hrmPi : ℝ := 31415926 / 10 ^ 7
/-- `HALF_PI`, DataType.h:31. -/
noncomputable def hrmHalfPi : ℝ := hrmPi / 2

/-- The macro `sgn`, ExponentialFunction.h:11 (and Eigen's `sign()`). -/
noncomputable def sgn (v : ℝ) : ℝ := if v < 0 then -1 else if 0 < v then 1 else 0

/-- `exponentialFunction`, ExponentialFunction.cpp:5-10; `exponentialFunctionMatrixForm` (12-25) is the
same function applied to every entry. For a negative exponent and a zero base C++ gives `0 * inf` =
NaN; all theorems use exponents `> 0`. -/
noncomputable def expFun (theta power : ℝ) (isSine : Bool) : ℝ :=
  if isSine then sgn (Real.sin theta) * |Real.sin theta| ^ power
  else sgn (Real.cos theta) * |Real.cos theta| ^ power

/-- Eigen's norm of a column. -/
noncomputable def vnorm {n : ℕ} (v : Fin n → ℝ) : ℝ := Real.sqrt (v ⬝ᵥ v)

/-- `Eigen::Rotation2Dd(th).matrix()`. -/
noncomputable def rot2 (th : ℝ) : Matrix (Fin 2) (Fin 2) ℝ :=
  !![Real.cos th, -Real.sin th; Real.sin th, Real.cos th]

/-- The members of `SuperEllipse`, SuperEllipse.h. Simplification: the two-element vectors
`semiAxis_` and `position_` are separate fields. -/
structure SuperEllipse where
  a : ℝ
  b : ℝ
  eps : ℝ
  px : ℝ
  py : ℝ
  ang : ℝ
  num : ℕ

namespace SuperEllipse

/-- The angle of sample `i`, SuperEllipse.cpp:40 and 89. For `num = 1` C++ computes `0/0` = NaN; the
theorems assume `2 ≤ num`. -/
noncomputable def theta (E : SuperEllipse) (i : ℕ) : ℝ := 2 * i * hrmPi / ((E.num : ℝ) - 1)

/-- One column of `getOriginShape`, SuperEllipse.cpp:42-52, at angle `th`. -/
noncomputable def originPoint (E : SuperEllipse) (th : ℝ) : Fin 2 → ℝ :=
  rot2 E.ang *ᵥ ![E.a * expFun th E.eps false, E.b * expFun th E.eps true] + ![E.px, E.py]

/-- `getOriginShape`, SuperEllipse.cpp:32-55. -/
noncomputable def originShape (E : SuperEllipse) : List (Fin 2 → ℝ) :=
  (List.range E.num).map fun i => E.originPoint (E.theta i)

/-- `gradPhi` of one sample, SuperEllipse.cpp:90-93. -/
noncomputable def gradPhi (E : SuperEllipse) (th : ℝ) : Fin 2 → ℝ :=
  ![2 / E.eps * expFun th (2 - E.eps) false, 2 / E.eps * expFun th (2 - E.eps) true]

/-- `Tinv`, SuperEllipse.cpp:79-86, for the ellipse `B` and the scale `r`. -/
noncomputable def tinv (B : SuperEllipse) (r : ℝ) : Matrix (Fin 2) (Fin 2) ℝ :=
  rot2 B.ang * diagonal ![B.a / r, B.b / r] * (rot2 B.ang)ᵀ

/-- One column of `getMinkSum2D`, SuperEllipse.cpp:95-98. -/
noncomputable def minkPoint (E B : SuperEllipse) (k : ℤ) (th : ℝ) : Fin 2 → ℝ :=
  let r := min E.a E.b
  let T := B.tinv r
  let g := rot2 E.ang *ᵥ E.gradPhi th
  E.originPoint th + (1 / vnorm (T *ᵥ g)) • (((k : ℝ) * r) • (T *ᵥ (T *ᵥ g)))

/-- `SuperEllipse::getMinkSum2D`, SuperEllipse.cpp:58-101 (a second shape that is not an ellipse only
prints a warning). -/
noncomputable def minkSum2D (E B : SuperEllipse) (k : ℤ) : List (Fin 2 → ℝ) :=
  (List.range E.num).map fun i => E.minkPoint B k (E.theta i)

end SuperEllipse

/-- `Eigen::Quaterniond::toRotationMatrix()` of `(w, x, y, z)`. -/
noncomputable def quatRot (q : Quat) : Matrix (Fin 3) (Fin 3) ℝ :=
  let w := q.1
  let x := q.2.1
  let y := q.2.2.1
  let z := q.2.2.2
  !![1 - (2 * y * y + 2 * z * z), 2 * y * x - 2 * z * w, 2 * z * x + 2 * y * w;
     2 * y * x + 2 * z * w, 1 - (2 * x * x + 2 * z * z), 2 * z * y - 2 * x * w;
     2 * z * x - 2 * y * w, 2 * z * y + 2 * x * w, 1 - (2 * x * x + 2 * y * y)]

/-- The members of `SuperQuadrics`, SuperQuadrics.h (`eta_`, `omega_`, `Num_` are functions of `num_`,
fixed by the constructor; `qSample_` is a field of the planner in `Model/Planner3D.lean`). -/
structure SuperQuadrics where
  a : ℝ
  b : ℝ
  c : ℝ
  e1 : ℝ
  e2 : ℝ
  pos : Fin 3 → ℝ
  quat : Quat
  num : ℕ

/-- Eigen's `LinSpaced(n, lo, hi)` at index `i`; a single sample is `hi`. -/
noncomputable def linSpaced (n : ℕ) (lo hi : ℝ) (i : ℕ) : ℝ :=
  if n = 1 then hi else lo + i * ((hi - lo) / ((n : ℝ) - 1))

namespace SuperQuadrics

/-- `eta_` in column `j`, SuperQuadrics.cpp:20-22. -/
noncomputable def eta (Q : SuperQuadrics) (j : ℕ) : ℝ :=
  linSpaced Q.num (-hrmHalfPi - epsilon) (hrmHalfPi + epsilon) j

/-- `omega_` in row `i`, SuperQuadrics.cpp:23-24. -/
noncomputable def omega (Q : SuperQuadrics) (i : ℕ) : ℝ :=
  linSpaced Q.num (-hrmPi - epsilon) (hrmPi + epsilon) i

/-- The parameters of surface vertex `k`: `resize(1, Num)` of a column-major `num x num` matrix puts
entry `(i, j)` at `j * num + i` (SuperQuadrics.cpp:63, 68, 72 and 122, 127, 132). -/
noncomputable def param (Q : SuperQuadrics) (k : ℕ) : ℝ × ℝ := (Q.eta (k / Q.num), Q.omega (k % Q.num))

/-- One column of `getOriginShape`, SuperQuadrics.cpp:59-78. -/
noncomputable def originPoint (Q : SuperQuadrics) (p : ℝ × ℝ) : Fin 3 → ℝ :=
  quatRot Q.quat *ᵥ ![Q.a * (expFun p.1 Q.e1 false * expFun p.2 Q.e2 false),
    Q.b * (expFun p.1 Q.e1 false * expFun p.2 Q.e2 true), Q.c * (expFun p.1 Q.e1 true * 1)] + Q.pos

/-- `getOriginShape`, SuperQuadrics.cpp:46-81. -/
noncomputable def originShape (Q : SuperQuadrics) : List (Fin 3 → ℝ) :=
  (List.range (Q.num * Q.num)).map fun k => Q.originPoint (Q.param k)

/-- `gradPhi` of one sample, SuperQuadrics.cpp:118-135. -/
noncomputable def gradPhi (Q : SuperQuadrics) (p : ℝ × ℝ) : Fin 3 → ℝ :=
  ![expFun p.1 (2 - Q.e1) false * expFun p.2 (2 - Q.e2) false / Q.a,
    expFun p.1 (2 - Q.e1) false * expFun p.2 (2 - Q.e2) true / Q.b,
    expFun p.1 (2 - Q.e1) true * 1 / Q.c]

/-- `Tinv`, SuperQuadrics.cpp:110-115. -/
noncomputable def tinv (B : SuperQuadrics) : Matrix (Fin 3) (Fin 3) ℝ :=
  quatRot B.quat * diagonal ![B.a, B.b, B.c] * (quatRot B.quat)ᵀ

/-- One column of `getMinkSum3D`, SuperQuadrics.cpp:137-140. -/
noncomputable def minkPoint (Q B : SuperQuadrics) (k : ℤ) (p : ℝ × ℝ) : Fin 3 → ℝ :=
  let T := B.tinv
  let g := quatRot Q.quat *ᵥ Q.gradPhi p
  Q.originPoint p + (1 / vnorm (T *ᵥ g)) • ((k : ℝ) • (T *ᵥ (T *ᵥ g)))

/-- `SuperQuadrics::getMinkSum3D`, SuperQuadrics.cpp:84-143 (a second shape that is not an ellipsoid
only prints a warning). -/
noncomputable def minkSum3D (Q B : SuperQuadrics) (k : ℤ) : List (Fin 3 → ℝ) :=
  (List.range (Q.num * Q.num)).map fun i => Q.minkPoint B k (Q.param i)

end SuperQuadrics
end Hrm
