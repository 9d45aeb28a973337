import Verif.Spec.Shape
import Verif.Model.Settings
import Mathlib.LinearAlgebra.CrossProduct

/-!
# Specification vocabulary for planning settings
-/

namespace Hrm

open Matrix

/-- `m` is the least of the numbers in `ls`. -/
def IsLeastSize (ls : List (List ℝ)) (m : ℝ) : Prop := (∃ l ∈ ls, m ∈ l) ∧ ∀ l ∈ ls, ∀ x ∈ l, m ≤ x

/-- Wherever the planar body `B` is placed with its centre within the limits, in every orientation, it stays in the box
of the arena `A`. -/
def StaysInside2 (B A : SuperEllipse) (p : Param2) : Prop :=
  ∀ x y th : ℝ, p.xLo ≤ x → x ≤ p.xHi → p.yLo ≤ y → y ≤ p.yHi →
    ∀ s ∈ ({ B with px := x, py := y, ang := th } : SuperEllipse).solid, |s 0 - A.px| ≤ A.a ∧ |s 1 - A.py| ≤ A.b

/-- The same in space. -/
def StaysInside3 (B A : SuperQuadrics) (p : Param3) : Prop :=
  ∀ (t : Fin 3 → ℝ) (q : Quat), q.1 ^ 2 + q.2.1 ^ 2 + q.2.2.1 ^ 2 + q.2.2.2 ^ 2 = 1 →
    p.xLo ≤ t 0 → t 0 ≤ p.xHi → p.yLo ≤ t 1 → t 1 ≤ p.yHi → p.zLo ≤ t 2 → t 2 ≤ p.zHi →
    ∀ s ∈ ({ B with pos := t, quat := q } : SuperQuadrics).solid,
      |s 0 - A.pos 0| ≤ A.a ∧ |s 1 - A.pos 1| ≤ A.b ∧ |s 2 - A.pos 2| ≤ A.c

/-- The rotation by the angle `th` about the unit vector `u` (Rodrigues' formula), applied to `v`. -/
noncomputable def rotateAbout (u : Fin 3 → ℝ) (th : ℝ) (v : Fin 3 → ℝ) : Fin 3 → ℝ :=
  Real.cos th • v + Real.sin th • crossProduct u v + ((1 - Real.cos th) * (u ⬝ᵥ v)) • u

/-- `(ux, uy, uz)` scaled to unit length. -/
noncomputable def unitAxis (ux uy uz : ℝ) : Fin 3 → ℝ :=
  (Real.sqrt (ux ^ 2 + uy ^ 2 + uz ^ 2))⁻¹ • ![ux, uy, uz]

/-- The numbers of one spatial object in a resource file: semi-axes, exponents, position, axis and angle. -/
structure ObjRow where
  a : ℝ
  b : ℝ
  c : ℝ
  e1 : ℝ
  e2 : ℝ
  x : ℝ
  y : ℝ
  z : ℝ
  ux : ℝ
  uy : ℝ
  uz : ℝ
  th : ℝ

/-- Its columns. -/
def ObjRow.row (o : ObjRow) : List ℝ := [o.a, o.b, o.c, o.e1, o.e2, o.x, o.y, o.z, o.ux, o.uy, o.uz, o.th]

/-- The quaternion of an object. -/
noncomputable def ObjRow.quat (o : ObjRow) : Quat := axisAngleQuat o.th (normalize3 (o.ux, o.uy, o.uz))

/-- The numbers of joint values the program keeps in a configuration. (The snake-like robot has three joints, a rigid one
none; the tree-like robot has nine, see C84.) -/
def RobotKind.joints : RobotKind → ℕ
  | .snake => 3
  | .tree => 6
  | .other => 0

/-- The columns of the configuration file. -/
noncomputable def ObjRow.conv (o : ObjRow) : List ℝ :=
  [o.a, o.b, o.c, o.e1, o.e2, o.x, o.y, o.z, o.quat.1, o.quat.2.1, o.quat.2.2.1, o.quat.2.2.2]

end Hrm
