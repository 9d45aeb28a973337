import Verif.Model.Separation
import Verif.Spec.TFE
import Mathlib.LinearAlgebra.Matrix.Charpoly.Basic
import Mathlib.Analysis.Complex.Polynomial.Basic

/-! # Specification vocabulary for the separation test -/

namespace Hrm

open Matrix Polynomial

/-- The contract of `eigenvalues()`: the roots of the characteristic polynomial, with multiplicities. -/
def EigOk (eig : EigFun) : Prop := ∀ (m : ℕ) (M : Matrix (Fin m) (Fin m) ℝ),
  (eig m M : Multiset ℂ) = (M.charpoly.map (algebraMap ℝ ℂ)).roots

/-- The polynomial with the given coefficients, highest degree first. -/
noncomputable def polyOf : List ℝ → ℝ[X]
  | [] => 0
  | c :: cs => C c * X ^ cs.length + polyOf cs

/-- An ellipse: positive semi-axes, exponent one. -/
structure SuperEllipse.IsEllipse (E : SuperEllipse) : Prop where
  a : 0 < E.a
  b : 0 < E.b
  eps : E.eps = 1

/-- An ellipsoid: positive semi-axes, exponents one, unit quaternion. -/
structure SuperQuadrics.IsEllipsoid (Q : SuperQuadrics) : Prop where
  a : 0 < Q.a
  b : 0 < Q.b
  c : 0 < Q.c
  e1 : Q.e1 = 1
  e2 : Q.e2 = 1
  unit : Q.quat.1 ^ 2 + Q.quat.2.1 ^ 2 + Q.quat.2.2.1 ^ 2 + Q.quat.2.2.2 ^ 2 = 1

/-- The same body, scaled about its own centre. -/
def SuperEllipse.scaled (E : SuperEllipse) (s : ℝ) : SuperEllipse := { E with a := s * E.a, b := s * E.b }

/-- The same body, scaled about its own centre. -/
def SuperQuadrics.scaled (Q : SuperQuadrics) (s : ℝ) : SuperQuadrics :=
  { Q with a := s * Q.a, b := s * Q.b, c := s * Q.c }

/-- Two bodies with a slab of width `g` between them: a unit normal and two parallel planes. -/
def GapAtLeast {n : ℕ} (S T : Set (Fin n → ℝ)) (g : ℝ) : Prop :=
  ∃ (u : Fin n → ℝ) (h : ℝ), u ⬝ᵥ u = 1 ∧ (∀ x ∈ S, u ⬝ᵥ x ≤ h) ∧ ∀ x ∈ T, h + g ≤ u ⬝ᵥ x

end Hrm
