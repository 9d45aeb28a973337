import Verif.Model.TFE
import Verif.Spec.Shape
import Mathlib.LinearAlgebra.Matrix.Determinant.Basic

/-!
# Specification vocabulary for covering ellipsoids
-/

namespace Hrm

open Matrix

/-- Symmetric positive definite. -/
def SymPos {n : ℕ} (M : Matrix (Fin n) (Fin n) ℝ) : Prop := Mᵀ = M ∧ ∀ x : Fin n → ℝ, x ≠ 0 → 0 < x ⬝ᵥ M *ᵥ x

/-- `r` is (the left half of) a singular value decomposition `M = U diag(s) Vᵀ` with singular values in
decreasing order. -/
def IsSvd {n : ℕ} (M : Matrix (Fin n) (Fin n) ℝ) (r : SvdRes n) : Prop :=
  r.uᵀ * r.u = 1 ∧ r.u * r.uᵀ = 1 ∧ (∀ i, 0 ≤ r.s i) ∧ (∀ i j, i ≤ j → r.s j ≤ r.s i) ∧
  ∃ V : Matrix (Fin n) (Fin n) ℝ, Vᵀ * V = 1 ∧ V * Vᵀ = 1 ∧ M = r.u * diagonal r.s * Vᵀ

/-- The contract of the library: a decomposition of every symmetric positive definite matrix (the only ones the
program decomposes). -/
def SvdOk {n : ℕ} (svd : SvdFun n) : Prop := ∀ M, SymPos M → IsSvd M (svd M)

/-- An ellipse at the origin with the given semi-axes and angle. -/
noncomputable def ellipse2 (a : Fin 2 → ℝ) (th : ℝ) : SuperEllipse := ⟨a 0, a 1, 1, 0, 0, th, 0⟩

/-- An ellipsoid at the origin with the given semi-axes and orientation. -/
noncomputable def ellipsoid3 (a : Fin 3 → ℝ) (q : Quat) : SuperQuadrics := ⟨a 0, a 1, a 2, 1, 1, 0, q, 0⟩

end Hrm
