import Verif.Model.Shape
import Mathlib.LinearAlgebra.Matrix.NonsingularInverse
import Mathlib.LinearAlgebra.Matrix.Notation
import Mathlib.Analysis.Complex.Basic

/-!
# Model of the separation test for ellipses and ellipsoids (src/util/EllipsoidSeparation.cpp:7-219)

Exact arithmetic. Eigen's `eigenvalues()` is a parameter; the contract is in `Spec/Separation.lean`.
-/

namespace Hrm

open Matrix Classical

/-- Eigen's `MatrixXd::eigenvalues()`: the eigenvalues of a square matrix, in some order. -/
abbrev EigFun := ∀ m : ℕ, Matrix (Fin m) (Fin m) ℝ → List ℂ

/-- `companionMatrix`, EllipsoidSeparation.cpp:194-203: the identity in the bottom left corner, then the first
row. `coeffs` = `coeffs[0], coeffs[1], ...`; entries past the end are never read (`i + 1 ≤ matsz`). -/
noncomputable def companionMat (coeffs : List ℝ) (m : ℕ) : Matrix (Fin m) (Fin m) ℝ := fun i j =>
  if i.val = 0 then -coeffs.getD (j.val + 1) 0 / coeffs.getD 0 0 else if i.val = j.val + 1 then 1 else 0

/-- `getRootsPolynomial`, EllipsoidSeparation.cpp:190-219: the vector starts with `matsz` zeros (193) and the
eigenvalues are *appended* (209). -/
noncomputable def getRoots (eig : EigFun) (coeffs : List ℝ) : List ℂ :=
  List.replicate (coeffs.length - 1) 0 ++ eig (coeffs.length - 1) (companionMat coeffs (coeffs.length - 1))

/-- Lines 103-120 and 168-185: the roots that are real (up to `1e-6`) and negative; separated iff there are exactly
two and they differ by more than `1e-6`. Simplification: the values instead of their indices. -/
noncomputable def sepDecision (roots : List ℂ) : Bool :=
  match roots.filter fun r => decide (|r.im| < 1 / 10 ^ 6 ∧ r.re < 0) with
  | [r, s] => decide (1 / 10 ^ 6 < ‖r - s‖)
  | _ => false

/-- A homogeneous transformation: rotation in the top left corner, position in the last column, `(0, .., 0, 1)` in
the last row. Lines 20-31 and 138-148. -/
def homT {n : ℕ} (R : Matrix (Fin n) (Fin n) ℝ) (c : Fin n → ℝ) : Matrix (Fin (n + 1)) (Fin (n + 1)) ℝ :=
  Matrix.of (Fin.snoc (fun i => Fin.snoc (R i) (c i) : Fin n → Fin (n + 1) → ℝ) (Fin.snoc (fun _ => 0) 1) :
    Fin (n + 1) → Fin (n + 1) → ℝ)

/-- The diagonal matrix of an ellipsoid: `pow(axis, -2)` and `-1`. Lines 10-17 and 129-134. -/
noncomputable def quadDiag {n : ℕ} (d : Fin n → ℝ) : Fin (n + 1) → ℝ := Fin.snoc (fun i => (d i ^ 2)⁻¹) (-1)

/-- `(Tb.inverse() * Ta).transpose() * B * (Tb.inverse() * Ta)`, lines 52-53 and 154-155. -/
noncomputable def relQuad {n : ℕ} (RA : Matrix (Fin n) (Fin n) ℝ) (cA : Fin n → ℝ) (RB : Matrix (Fin n) (Fin n) ℝ)
    (cB : Fin n → ℝ) (dB : Fin n → ℝ) : Matrix (Fin (n + 1)) (Fin (n + 1)) ℝ :=
  ((homT RB cB)⁻¹ * homT RA cA)ᵀ * diagonal (quadDiag dB) * ((homT RB cB)⁻¹ * homT RA cA)

/-- The coefficients `T3, T2, T1, T0`, lines 158-166; `a` = diagonal of `a`. -/
def coeffs2 (a : Fin 3 → ℝ) (b : Matrix (Fin 3) (Fin 3) ℝ) : List ℝ :=
  [-a 0 * a 1 * a 2,
   (a 0 * a 1 * b 2 2) + (a 0 * a 2 * b 1 1) + (a 1 * a 2 * b 0 0),
   (a 0 * b 1 2 * b 2 1) - (a 0 * b 1 1 * b 2 2) - (a 1 * b 0 0 * b 2 2) + (a 1 * b 0 2 * b 2 0) -
     (a 2 * b 0 0 * b 1 1) + (a 2 * b 0 1 * b 1 0),
   (b 0 0 * b 1 1 * b 2 2) - (b 0 0 * b 1 2 * b 2 1) - (b 0 1 * b 1 0 * b 2 2) + (b 0 1 * b 1 2 * b 2 0) +
     (b 0 2 * b 1 0 * b 2 1) - (b 0 2 * b 1 1 * b 2 0)]

/-- The coefficients `T4, ..., T0`, lines 71-97 (`a44 = -1` is built in). -/
def coeffs3 (a : Fin 4 → ℝ) (b : Matrix (Fin 4) (Fin 4) ℝ) : List ℝ :=
  let a11 := a 0
  let a22 := a 1
  let a33 := a 2
  let b11 := b 0 0
  let b12 := b 0 1
  let b13 := b 0 2
  let b14 := b 0 3
  let b21 := b 1 0
  let b22 := b 1 1
  let b23 := b 1 2
  let b24 := b 1 3
  let b31 := b 2 0
  let b32 := b 2 1
  let b33 := b 2 2
  let b34 := b 2 3
  let b41 := b 3 0
  let b42 := b 3 1
  let b43 := b 3 2
  let b44 := b 3 3
  [-a11 * a22 * a33,
   a11 * a22 * b33 + a11 * a33 * b22 + a22 * a33 * b11 - a11 * a22 * a33 * b44,
   a11 * b23 * b32 - a11 * b22 * b33 - a22 * b11 * b33 + a22 * b13 * b31 - a33 * b11 * b22 + a33 * b12 * b21 +
     a11 * a22 * b33 * b44 - a11 * a22 * b34 * b43 + a11 * a33 * b22 * b44 - a11 * a33 * b24 * b42 +
     a22 * a33 * b11 * b44 - a22 * a33 * b14 * b41,
   b11 * b22 * b33 - b11 * b23 * b32 - b12 * b21 * b33 + b12 * b23 * b31 + b13 * b21 * b32 - b13 * b22 * b31 -
     a11 * b22 * b33 * b44 + a11 * b22 * b34 * b43 + a11 * b23 * b32 * b44 - a11 * b23 * b34 * b42 -
     a11 * b24 * b32 * b43 + a11 * b24 * b33 * b42 - a22 * b11 * b33 * b44 + a22 * b11 * b34 * b43 +
     a22 * b13 * b31 * b44 - a22 * b13 * b34 * b41 - a22 * b14 * b31 * b43 + a22 * b14 * b33 * b41 -
     a33 * b11 * b22 * b44 + a33 * b11 * b24 * b42 + a33 * b12 * b21 * b44 - a33 * b12 * b24 * b41 -
     a33 * b14 * b21 * b42 + a33 * b14 * b22 * b41,
   b11 * b22 * b33 * b44 - b11 * b22 * b34 * b43 - b11 * b23 * b32 * b44 + b11 * b23 * b34 * b42 +
     b11 * b24 * b32 * b43 - b11 * b24 * b33 * b42 - b12 * b21 * b33 * b44 + b12 * b21 * b34 * b43 +
     b12 * b23 * b31 * b44 - b12 * b23 * b34 * b41 - b12 * b24 * b31 * b43 + b12 * b24 * b33 * b41 +
     b13 * b21 * b32 * b44 - b13 * b21 * b34 * b42 - b13 * b22 * b31 * b44 + b13 * b22 * b34 * b41 +
     b13 * b24 * b31 * b42 - b13 * b24 * b32 * b41 - b14 * b21 * b32 * b43 + b14 * b21 * b33 * b42 +
     b14 * b22 * b31 * b43 - b14 * b22 * b33 * b41 - b14 * b23 * b31 * b42 + b14 * b23 * b32 * b41]

/-- `isEllipseSeparated`, EllipsoidSeparation.cpp:123-188 (a shape that is not an ellipse only prints a
message). -/
noncomputable def isEllipseSeparated (eig : EigFun) (A B : SuperEllipse) : Bool :=
  sepDecision (getRoots eig (coeffs2 (quadDiag ![A.a, A.b])
    (relQuad (rot2 A.ang) ![A.px, A.py] (rot2 B.ang) ![B.px, B.py] ![B.a, B.b])))

/-- `isEllipsoidSeparated`, EllipsoidSeparation.cpp:7-121. -/
noncomputable def isEllipsoidSeparated (eig : EigFun) (A B : SuperQuadrics) : Bool :=
  sepDecision (getRoots eig (coeffs3 (quadDiag ![A.a, A.b, A.c])
    (relQuad (quatRot A.quat) A.pos (quatRot B.quat) B.pos ![B.a, B.b, B.c])))

end Hrm
