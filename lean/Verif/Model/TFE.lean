import Verif.Model.MultiBody
import Verif.Model.Interp
import Mathlib.LinearAlgebra.Matrix.NonsingularInverse

/-!
# Model of the covering and tightly-fitted ellipsoids (src/geometry/TightFitEllipsoid.cpp)

The singular value decomposition (`Eigen::JacobiSVD`) is a parameter: a function from matrices to the matrix
`U` and the singular values. Its contract is in `Spec/TFE.lean`. Real arithmetic.
-/

namespace Hrm

open Matrix

/-- `svd.matrixU()` and `svd.singularValues()`. -/
structure SvdRes (n : ℕ) where
  u : Matrix (Fin n) (Fin n) ℝ
  s : Fin n → ℝ

/-- `Eigen::JacobiSVD::compute`. -/
abbrev SvdFun (n : ℕ) := Matrix (Fin n) (Fin n) ℝ → SvdRes n

/-- The common part of `getMVCE2D` (TightFitEllipsoid.cpp:9-36) and `getMVCE3D` (45-75): `T`, `aPrimeMatrix`,
`cPrime`, `C` and the decomposition of `C`. `r` is the smallest entry of `b`. -/
noncomputable def mvceSvd {n : ℕ} (svd : SvdFun n) (a b : Fin n → ℝ) (Ra Rb : Matrix (Fin n) (Fin n) ℝ)
    (r : ℝ) : SvdRes n :=
  let T := Rb * diagonal (fun i => r / b i) * Rbᵀ
  let aPrimeMatrix := T⁻¹ * (Ra * diagonal (fun i => a i ^ (-2 : ℝ)) * Raᵀ) * T⁻¹
  let sv := svd aPrimeMatrix
  let cPrime := fun i => max (sv.s i ^ (-(1 / 2) : ℝ)) r
  svd (T * sv.u * diagonal (fun i => cPrime i ^ (-2 : ℝ)) * sv.uᵀ * T)

/-- `getMVCE2D`, TightFitEllipsoid.cpp:6-42. -/
noncomputable def getMVCE2D (svd : SvdFun 2) (a b : Fin 2 → ℝ) (thetaA thetaB : ℝ) (num : ℕ) : SuperEllipse :=
  let sv := mvceSvd svd a b (rot2 thetaA) (rot2 thetaB) (min (b 0) (b 1))
  let c := fun i => sv.s i ^ (-(1 / 2) : ℝ)
  { a := c 0, b := c 1, eps := 1, px := 0, py := 0, ang := Real.arccos (sv.u 0 0), num := num }

/-- `getMVCE3D`, TightFitEllipsoid.cpp:44-81. -/
noncomputable def getMVCE3D (svd : SvdFun 3) (a b : Fin 3 → ℝ) (quatA quatB : Quat) (num : ℕ) : SuperQuadrics :=
  let sv := mvceSvd svd a b (quatRot quatA) (quatRot quatB) (min (b 0) (min (b 1) (b 2)))
  let c := fun i => sv.s i ^ (-(1 / 2) : ℝ)
  { a := c 0, b := c 1, c := c 2, e1 := 1, e2 := 1, pos := 0, quat := matQuat sv.u, num := num }

/-- `thetaStep`, TightFitEllipsoid.cpp:87-90. -/
noncomputable def thetaStep (thetaA thetaB : ℝ) (numStep i : ℕ) : ℝ :=
  let dt : ℝ := 1 / ((numStep : ℝ) - 1)
  (1 - i * dt) * thetaA + i * dt * thetaB

/-- `getTFE2D`, TightFitEllipsoid.cpp:83-96. For `numStep = 1` the step is `0 * (1/0)` = NaN, and so is
everything computed from it: written `none`. -/
noncomputable def getTFE2D (svd : SvdFun 2) (a : Fin 2 → ℝ) (thetaA thetaB : ℝ) (numStep num : ℕ) :
    Option SuperEllipse :=
  if numStep = 1 then none
  else some ((List.range numStep).foldl (fun E i =>
    getMVCE2D svd a ![E.a, E.b] (thetaStep thetaA thetaB numStep i) E.ang num)
    (getMVCE2D svd a a thetaA thetaB num))

/-- `getTFE3D`, TightFitEllipsoid.cpp:98-114. For `numStep = 0` the loop does not run; otherwise all the
interpolated quaternions are numbers. -/
noncomputable def getTFE3D (svd : SvdFun 3) (a : Fin 3 → ℝ) (quatA quatB : Quat) (numStep num : ℕ) :
    Res SuperQuadrics :=
  (List.range' 1 (numStep - 1)).foldlM (fun (E : SuperQuadrics) i =>
    (Res.at' (interpolateSlerp quatA quatB numStep) i).bind fun q =>
    match q with
    | some q => .ok (getMVCE3D svd a ![E.a, E.b, E.c] q E.quat num)
    | none => .ub) (getMVCE3D svd a a quatA quatB num)

end Hrm
