import Verif.Model.Shape

/-!
# Specification vocabulary for shapes: solid bodies, Minkowski sums, supporting planes

Nothing here depends on how the program samples a shape.
-/

namespace Hrm

open Matrix

/-- The implicit function of a superellipse in its own frame. -/
noncomputable def SuperEllipse.implicit (E : SuperEllipse) (p : Fin 2 → ℝ) : ℝ :=
  |p 0 / E.a| ^ (2 / E.eps) + |p 1 / E.b| ^ (2 / E.eps)

/-- The solid superellipse centred at the origin. -/
def SuperEllipse.solid0 (E : SuperEllipse) : Set (Fin 2 → ℝ) :=
  {x | ∃ p, E.implicit p ≤ 1 ∧ x = rot2 E.ang *ᵥ p}

/-- The solid superellipse at its position. -/
def SuperEllipse.solid (E : SuperEllipse) : Set (Fin 2 → ℝ) :=
  {x | ∃ p ∈ E.solid0, x = p + ![E.px, E.py]}

/-- Admissible superellipse: positive semi-axes, exponent in (0,2) (convex). -/
structure SuperEllipse.Ok (E : SuperEllipse) : Prop where
  a : 0 < E.a
  b : 0 < E.b
  lo : 0 < E.eps
  hi : E.eps < 2

/-- The implicit function of a superquadric in its own frame. -/
noncomputable def SuperQuadrics.implicit (Q : SuperQuadrics) (p : Fin 3 → ℝ) : ℝ :=
  (|p 0 / Q.a| ^ (2 / Q.e2) + |p 1 / Q.b| ^ (2 / Q.e2)) ^ (Q.e2 / Q.e1) + |p 2 / Q.c| ^ (2 / Q.e1)

/-- The solid superquadric centred at the origin. -/
def SuperQuadrics.solid0 (Q : SuperQuadrics) : Set (Fin 3 → ℝ) :=
  {x | ∃ p, Q.implicit p ≤ 1 ∧ x = quatRot Q.quat *ᵥ p}

/-- The solid superquadric at its position. -/
def SuperQuadrics.solid (Q : SuperQuadrics) : Set (Fin 3 → ℝ) :=
  {x | ∃ p ∈ Q.solid0, x = p + Q.pos}

/-- Admissible superquadric: positive semi-axes, exponents in (0,2) (convex), unit quaternion. -/
structure SuperQuadrics.Ok (Q : SuperQuadrics) : Prop where
  a : 0 < Q.a
  b : 0 < Q.b
  c : 0 < Q.c
  lo1 : 0 < Q.e1
  hi1 : Q.e1 < 2
  lo2 : 0 < Q.e2
  hi2 : Q.e2 < 2
  unit : Q.quat.1 ^ 2 + Q.quat.2.1 ^ 2 + Q.quat.2.2.1 ^ 2 + Q.quat.2.2.2 ^ 2 = 1

/-- The Minkowski sum of two sets. -/
def minkowskiSum {n : ℕ} (A B : Set (Fin n → ℝ)) : Set (Fin n → ℝ) :=
  {x | ∃ a ∈ A, ∃ b ∈ B, x = a + b}

/-- The Minkowski difference (erosion): where `B` may be placed inside `A`. -/
def minkowskiDiff {n : ℕ} (A B : Set (Fin n → ℝ)) : Set (Fin n → ℝ) :=
  {x | ∀ b ∈ B, x + b ∈ A}

/-- `m` belongs to `S` and some plane through `m` has all of `S` on one side. -/
def IsSupportPoint {n : ℕ} (S : Set (Fin n → ℝ)) (m : Fin n → ℝ) : Prop :=
  m ∈ S ∧ ∃ g : Fin n → ℝ, g ≠ 0 ∧ ∀ p ∈ S, g ⬝ᵥ p ≤ g ⬝ᵥ m

end Hrm
