import Verif.Spec.Shape
import Verif.Model.MultiBody
import Mathlib.LinearAlgebra.Matrix.Determinant.Basic

/-!
# Specification vocabulary for multi-body robots
-/

namespace Hrm

open Matrix

/-- The solid of shape `E` turned by `R` and moved to `p` (its own angle and position are ignored). -/
def SuperEllipse.placed (E : SuperEllipse) (R : Matrix (Fin 2) (Fin 2) ℝ) (p : Fin 2 → ℝ) : Set (Fin 2 → ℝ) :=
  {x | ∃ q, E.implicit q ≤ 1 ∧ x = R *ᵥ q + p}

/-- The solid of shape `E` turned by `R` and moved to `p` (its own orientation and position are ignored). -/
def SuperQuadrics.placed (E : SuperQuadrics) (R : Matrix (Fin 3) (Fin 3) ℝ) (p : Fin 3 → ℝ) :
    Set (Fin 3 → ℝ) :=
  {x | ∃ q, E.implicit q ≤ 1 ∧ x = R *ᵥ q + p}

/-- The calls a user makes on a robot: add a body, or move the robot. -/
inductive RobotOp (S : Type) (n : ℕ) where
  | add (l : S)
  | move (g : Pose n)

/-- The bodies added, in order. -/
def addedBodies {S : Type} {n : ℕ} (ops : List (RobotOp S n)) : List S :=
  ops.filterMap fun | .add l => some l | .move _ => none

/-- `g` is a rigid motion of the plane. -/
def Pose.Rigid2 (g : Pose 2) : Prop := ∃ th, g.rot = rot2 th

/-- `g` is a rigid motion of space. -/
def Pose.Rigid3 (g : Pose 3) : Prop := g.rotᵀ * g.rot = 1 ∧ g.rot * g.rotᵀ = 1 ∧ g.rot.det = 1

/-- Histories of calls on a planar robot. -/
noncomputable def Tree2.run (ops : List (RobotOp SuperEllipse 2)) (T : Tree2) : Res Tree2 :=
  ops.foldlM (fun T op => match op with
    | .add l => .ok (T.addBody l)
    | .move g => T.robotTF g) T

/-- Histories of calls on a spatial robot. -/
noncomputable def Tree3.run (ops : List (RobotOp SuperQuadrics 3)) (T : Tree3) : Res Tree3 :=
  ops.foldlM (fun T op => match op with
    | .add l => .ok (T.addBody l)
    | .move g => T.robotTF g) T

/-- All motions of the history are rigid. -/
def RigidOps2 (ops : List (RobotOp SuperEllipse 2)) : Prop := ∀ g, RobotOp.move g ∈ ops → g.Rigid2

/-- All motions of the history are rigid, all added bodies have unit quaternions. -/
def RigidOps3 (ops : List (RobotOp SuperQuadrics 3)) : Prop :=
  (∀ g, RobotOp.move g ∈ ops → g.Rigid3) ∧
  ∀ l : SuperQuadrics, RobotOp.add l ∈ ops →
    l.quat.1 ^ 2 + l.quat.2.1 ^ 2 + l.quat.2.2.1 ^ 2 + l.quat.2.2.2 ^ 2 = 1

/-- Where a body `l` of a planar robot is when the base frame is `g`. -/
noncomputable def SuperEllipse.carried (l : SuperEllipse) (g : Pose 2) : Set (Fin 2 → ℝ) :=
  l.placed (g.rot * rot2 l.ang) (g.rot *ᵥ ![l.px, l.py] + g.pos)

/-- Where a body `l` of a spatial robot is when the base frame is `g`. -/
noncomputable def SuperQuadrics.carried (l : SuperQuadrics) (g : Pose 3) : Set (Fin 3 → ℝ) :=
  l.placed (g.rot * quatRot l.quat) (g.rot *ᵥ l.pos + g.pos)

end Hrm
