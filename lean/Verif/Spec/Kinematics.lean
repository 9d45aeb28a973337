import Verif.Model.Kinematics
import Verif.Spec.Settings
import Verif.Spec.MultiBody
import Verif.Lemmas.Shape

/-!
# Specification vocabulary for articulated robots

The meaning of a robot description: a link's frame is the frame of its parent, moved to the joint's origin and then by
the joint: turned about the axis (revolute, continuous joints), shifted along it (prismatic joints), or not at all.
-/

namespace Hrm

open Matrix

/-- The joint has a value. -/
def JointType.movable : JointType → Bool
  | .revolute => true
  | .continuous => true
  | .prismatic => true
  | _ => false

/-- The axis of a joint, scaled to unit length. -/
noncomputable def UrdfJoint.unit (j : UrdfJoint) : Fin 3 → ℝ := unitAxis (j.axis 0) (j.axis 1) (j.axis 2)

/-- Where the point `p` of the child link is in the frame of the parent link, for the joint value `x`. -/
noncomputable def UrdfJoint.carry (j : UrdfJoint) (x : ℝ) (p : Fin 3 → ℝ) : Fin 3 → ℝ :=
  match j.type with
  | .revolute => quatRot j.quat *ᵥ rotateAbout j.unit x p + j.pos
  | .continuous => quatRot j.quat *ᵥ rotateAbout j.unit x p + j.pos
  | .prismatic => quatRot j.quat *ᵥ (p + x • j.unit) + j.pos
  | _ => quatRot j.quat *ᵥ p + j.pos

/-- The same along several joints, the one nearest to the root first; `θ` gives the values by the names of the joints. -/
noncomputable def carryAll (θ : String → ℝ) : List UrdfJoint → (Fin 3 → ℝ) → Fin 3 → ℝ
  | [], p => p
  | j :: js, p => j.carry (θ j.name) (carryAll θ js p)

/-- `js` are the joints on the way from (the parent of) the links `ls` to the link called `n`. -/
inductive Chain : List UrdfLink → List UrdfJoint → String → Prop
  | here {ls n j cs} : UrdfLink.mk n j cs ∈ ls → Chain ls [j] n
  | deeper {ls m j cs js n} : UrdfLink.mk m j cs ∈ ls → Chain cs js n → Chain ls (j :: js) n

mutual
/-- The names of a link and of all links below it. -/
def UrdfLink.names : UrdfLink → List String
  | .mk name _ cs => name :: linkNames cs
/-- The names of several links and of all links below them. -/
def linkNames : List UrdfLink → List String
  | [] => []
  | c :: cs => c.names ++ linkNames cs
end

mutual
/-- The joints of a link and of all links below it, parents before children. -/
def UrdfLink.joints : UrdfLink → List UrdfJoint
  | .mk _ j cs => j :: linkJoints cs
/-- The joints of several links and of all links below them. -/
def linkJoints : List UrdfLink → List UrdfJoint
  | [] => []
  | c :: cs => c.joints ++ linkJoints cs
end

/-- The names of the movable joints, in the order in which the joint values are given. -/
def movableNames (js : List UrdfJoint) : List String := (js.filter (·.type.movable)).map (·.name)

/-- A well-formed description: no two links of one name, no two joints of one name, unit quaternions, axes that are not zero. -/
structure UrdfModel.Ok (M : UrdfModel) : Prop where
  names : (M.root :: linkNames M.children).Nodup
  joints : ((linkJoints M.children).map (·.name)).Nodup
  unit : ∀ j ∈ linkJoints M.children, j.quat.Unit
  axis : ∀ j ∈ linkJoints M.children, j.axis ≠ 0

/-- What is asked of `KDL::Rotation::GetQuaternion`: a unit quaternion of the rotation. -/
def GetQuatOk (getQuat : Matrix (Fin 3) (Fin 3) ℝ → Quat) : Prop :=
  ∀ R : Matrix (Fin 3) (Fin 3) ℝ, Rᵀ * R = 1 → R * Rᵀ = 1 → R.det = 1 → (getQuat R).Unit ∧ quatRot (getQuat R) = R

end Hrm
