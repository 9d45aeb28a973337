import Verif.Model.KC
import Verif.Spec.Roadmap
import Mathlib.LinearAlgebra.Matrix.ToLinearEquiv
import Mathlib.LinearAlgebra.Matrix.NonsingularInverse

/-! # Specification vocabulary for the "kinematics of containment" planner -/

namespace Hrm

open Matrix

/-- The four vertices of a tetrahedron in configuration space. -/
abbrev Tet := Fin 4 → Fin 3 → ℝ

/-- The matrix with columns `(vertex, 1)`. -/
def homog (t : Tet) : Matrix (Fin 4) (Fin 4) ℝ := Matrix.of ![fun j => t j 0, fun j => t j 1, fun j => t j 2, fun _ => 1]

/-- The sixteen entries of a matrix, column by column: Eigen's storage order. -/
def colMajor (M : Matrix (Fin 4) (Fin 4) ℝ) : List ℝ :=
  [M 0 0, M 1 0, M 2 0, M 3 0, M 0 1, M 1 1, M 2 1, M 3 1, M 0 2, M 1 2, M 2 2, M 3 2, M 0 3, M 1 3, M 2 3, M 3 3]

/-- The precomputed data for a list of tetrahedra: the inverses of the matrices `homog`. -/
noncomputable def polyData (ts : List Tet) : List (List ℝ) := ts.map fun t => colMajor (homog t)⁻¹

/-- Two configurations with the same heading. -/
def SameHeading (a b : Vec) : Prop := a[2]? = b[2]?

/-- `mid` lies, coordinate by coordinate, between `v1` and `v2`. -/
def BoxBetween (v1 v2 mid : Vec) : Prop :=
  mid.length = v1.length ∧ ∀ (i : ℕ) (a b p : ℝ), v1[i]? = some a → v2[i]? = some b → mid[i]? = some p →
    min a b ≤ p ∧ p ≤ max a b

/-- `mid - v`. -/
def diffVec (mid v : Vec) : Vec := List.zipWith (· - ·) mid v

end Hrm

namespace Hrm

/-- The precomputed data are complete: sixteen numbers per simplex. -/
def PolyOk (mats : List (List ℝ)) : Prop := ∀ m ∈ mats, 16 ≤ m.length

/-- The point tried with the random numbers `k`, `k+1`, `k+2`. -/
noncomputable def tryPoint (rnd : ℕ → ℝ) (k : ℕ) (v1 v2 : Vec) : Vec :=
  List.zipWith (fun (p : ℝ × ℕ) b => rnd (k + p.2) * (p.1 - b) + b) v1.zipIdx v2

/-- The two motions from `v1` and `v2` to `mid` stay in the polyhedron. -/
def Contained (mats : List (List ℝ)) (v1 v2 mid : Vec) : Prop :=
  isPtInPoly mats (diffVec mid v1) = .ok true ∧ isPtInPoly mats (diffVec mid v2) = .ok true

/-- `m` is a vertex of slice `i` and `m2` one of the next slice (cyclically). -/
def AdjacentSlices (idx : List VertexIdx) (numSlice i m m2 : ℕ) : Prop :=
  i < numSlice ∧ ∃ cur, idx[i]? = some cur ∧ m < cur.slice ∧
    (∀ j prev, i = j + 1 → idx[j]? = some prev → prev.slice ≤ m) ∧
    ((i + 1 < numSlice ∧ cur.slice ≤ m2 ∧ ∃ nxt, idx[i + 1]? = some nxt ∧ m2 < nxt.slice) ∨
     (i + 1 = numSlice ∧ ∃ fst, idx[0]? = some fst ∧ m2 < fst.slice))

/-- The edges added for the triples `(m, m2, mid)` when there were `n` vertices before. -/
def kcEdges (n : ℕ) (ps : List (ℕ × ℕ × Vec)) : List (ℕ × ℕ) :=
  (ps.zipIdx n).flatMap fun p => [(p.1.1, p.2), (p.1.2.1, p.2)]

end Hrm
