import Verif.Model.Planner3D

/-!
# Model of the kinematics of articulated robots

src/util/external/kdl_parser/src/kdl_parser/kdl_parser.cpp (from the parsed robot description to the kinematic tree) and
src/util/ParseURDF.cpp (placement of a body for given joint values).

Libraries: the XML/URDF parser delivers an `Option UrdfModel` (`none`: it failed); the classes of KDL (`Joint`,
`Segment`, `Tree`, `TreeFkSolverPos_recursive`) are written out as KDL documents them; `getQuat` is
`KDL::Rotation::GetQuaternion`, a parameter.
-/

namespace Hrm

open Matrix

/-- `urdf::Joint::type`; `other` stands for `FLOATING`, `PLANAR` and `UNKNOWN`. -/
inductive JointType where
  | fixed | revolute | continuous | prismatic | other
  deriving DecidableEq

/-- `urdf::Joint`: name, type, `parent_to_joint_origin_transform` (rotation and position) and axis. -/
structure UrdfJoint where
  name : String
  type : JointType
  quat : Quat
  pos : Fin 3 → ℝ
  axis : Fin 3 → ℝ

/-- `urdf::Link` with its `parent_joint` and its `child_links`. Simplification: `parent_joint->parent_link_name` is the
name of the link whose child the link is. -/
inductive UrdfLink where
  | mk (name : String) (joint : UrdfJoint) (children : List UrdfLink)

/-- `urdf::ModelInterface` with its root link. -/
structure UrdfModel where
  root : String
  children : List UrdfLink

/-- `toKdl(urdf::Pose)`, kdl_parser.cpp:56-64. Simplification: `KDL::Rotation::Quaternion` is Eigen's `toRotationMatrix`
(they agree for unit quaternions, and the URDF parser delivers unit quaternions). -/
noncomputable def UrdfJoint.origin (j : UrdfJoint) : Pose 3 := ⟨quatRot j.quat, j.pos⟩

/-- `KDL::Joint` of the types `None`, `RotAxis`, `TransAxis`, with origin and axis. -/
inductive KJoint where
  | none
  | rot (origin axis : Fin 3 → ℝ)
  | trans (origin axis : Fin 3 → ℝ)

/-- `toKdl(urdf::JointSharedPtr)`, kdl_parser.cpp:67-99. -/
noncomputable def UrdfJoint.toKdl (j : UrdfJoint) : KJoint :=
  match j.type with
  | .fixed => .none
  | .revolute => .rot j.origin.pos (j.origin.rot *ᵥ j.axis)
  | .continuous => .rot j.origin.pos (j.origin.rot *ᵥ j.axis)
  | .prismatic => .trans j.origin.pos (j.origin.rot *ᵥ j.axis)
  | .other => .none

/-- The axis as `KDL::Joint` stores it: divided by its norm. -/
noncomputable def kdlAxis (a : Fin 3 → ℝ) : Fin 3 → ℝ := (Real.sqrt (a 0 ^ 2 + a 1 ^ 2 + a 2 ^ 2))⁻¹ • a

/-- `KDL::Rotation::Rot2`: the rotation about a normalized axis. -/
noncomputable def kdlRot2 (u : Fin 3 → ℝ) (th : ℝ) : Matrix (Fin 3) (Fin 3) ℝ :=
  let c := Real.cos th
  let s := Real.sin th
  let v := 1 - c
  !![c + v * u 0 * u 0, -(s * u 2) + v * u 0 * u 1, s * u 1 + v * u 0 * u 2;
     s * u 2 + v * u 1 * u 0, c + v * u 1 * u 1, -(s * u 0) + v * u 1 * u 2;
     -(s * u 1) + v * u 2 * u 0, s * u 0 + v * u 2 * u 1, c + v * u 2 * u 2]

/-- The identity transformation. -/
def Pose.one3 : Pose 3 := ⟨1, 0⟩

/-- `KDL::Frame::Inverse`. -/
def Pose.inv3 (g : Pose 3) : Pose 3 := ⟨g.rotᵀ, -(g.rotᵀ *ᵥ g.pos)⟩

/-- `KDL::Joint::pose` (scale 1, offset 0). -/
noncomputable def KJoint.pose (k : KJoint) (q : ℝ) : Pose 3 :=
  match k with
  | .none => Pose.one3
  | .rot o a => ⟨kdlRot2 (kdlAxis a) q, o⟩
  | .trans o a => ⟨1, o + q • kdlAxis a⟩

/-- The joint takes a value. -/
def KJoint.moves : KJoint → Bool
  | .none => false
  | _ => true

/-- `KDL::TreeElement`: a segment with the name of its parent and the number of its joint value. -/
structure KSeg where
  name : String
  parent : String
  qNr : ℕ
  joint : KJoint
  tip : Pose 3

/-- `KDL::Segment::pose`. -/
noncomputable def KSeg.pose (s : KSeg) (q : ℝ) : Pose 3 := (s.joint.pose q).mul s.tip

/-- `KDL::Tree`: the name of the root, the other segments (the one added last first), and the number of joints. -/
structure KTree where
  root : String
  segs : List KSeg
  nJ : ℕ

/-- There is a segment of this name. -/
def KTree.Has (T : KTree) (n : String) : Prop := n = T.root ∨ ∃ s ∈ T.segs, s.name = n

instance (T : KTree) (n : String) : Decidable (T.Has n) := by unfold KTree.Has; infer_instance

/-- The segment of addChildrenToTree, kdl_parser.cpp:139-146; `KDL::Segment` stores `joint.pose(0)⁻¹ * f_tip`. -/
noncomputable def segOf (name parent : String) (n : ℕ) (j : UrdfJoint) : KSeg :=
  ⟨name, parent, if j.toKdl.moves then n else 0, j.toKdl, ((j.toKdl.pose 0).inv3).mul j.origin⟩

/-- `tree.addSegment`, kdl_parser.cpp:149: nothing is added if the parent is unknown or the name is taken (the result is
not looked at). -/
noncomputable def KTree.add (T : KTree) (name parent : String) (j : UrdfJoint) : KTree :=
  if ¬ T.Has parent ∨ T.Has name then T
  else { T with segs := segOf name parent T.nJ j :: T.segs, nJ := if j.toKdl.moves then T.nJ + 1 else T.nJ }

mutual
/-- `addChildrenToTree`, kdl_parser.cpp:131-158. (The inertia has no influence.) -/
noncomputable def addLink (parent : String) : UrdfLink → KTree → KTree
  | .mk name j cs, T => addLinks name cs (T.add name parent j)
/-- Its loop over the children, kdl_parser.cpp:152-156. -/
noncomputable def addLinks (parent : String) : List UrdfLink → KTree → KTree
  | [], T => T
  | c :: cs, T => addLinks parent cs (addLink parent c T)
end

/-- `treeFromUrdfModel`, kdl_parser.cpp:181-205. -/
noncomputable def treeOf (M : UrdfModel) : KTree := addLinks M.root M.children ⟨M.root, [], 0⟩

/-- The constructor `ParseURDF(urdfFile)`, ParseURDF.cpp:10-14: if the description cannot be read, a message is printed
and the default tree of KDL kept. -/
noncomputable def parseURDF (description : Option UrdfModel) : KTree :=
  match description with
  | some M => treeOf M
  | none => ⟨"root", [], 0⟩

/-- `KDL::TreeFkSolverPos_recursive::recursiveFk`: the poses of the segments on the way to the root, multiplied. The
parent of a segment was added before it, so it is looked for among the earlier segments. -/
noncomputable def fkFrom (qs : List ℝ) : List KSeg → String → Pose 3
  | [], _ => Pose.one3
  | s :: rest, n => if s.name = n then (fkFrom qs rest s.parent).mul (s.pose (qs.getD s.qNr 0)) else fkFrom qs rest n

/-- `ParseURDF::getTransform`, ParseURDF.cpp:16-34. `JntToCart` fails if the number of values is not that of the joints or
the body is unknown; then a message is printed and the frame left as it is, the identity. (`recursiveFk` reads value
number 0 for segments without joint and for the root: undefined if there is none.) -/
noncomputable def KTree.getTransform (getQuat : Matrix (Fin 3) (Fin 3) ℝ → Quat) (T : KTree) (qs : List ℝ)
    (body : String) : Res (Pose 3) :=
  let found : Res (Pose 3) :=
    if qs.length ≠ T.nJ then .ok Pose.one3
    else if ¬ T.Has body then .ok Pose.one3
    else if qs = [] then .ub
    else .ok (fkFrom qs T.segs body)
  found.bind fun frame =>
  .ok ⟨quatRot (getQuat frame.rot), frame.pos⟩

/-- The name asked for, MultiBodyTree3D.cpp:80. -/
def bodyName (i : ℕ) : String := "body" ++ toString (i + 1)

/-- `robotTF(kdl, gBase, jointConfig)`, MultiBodyTree3D.cpp:63-89, with the placements of `getTransform`. -/
noncomputable def Tree3.robotTFJoints (getQuat : Matrix (Fin 3) (Fin 3) ℝ → Quat) (R : Tree3) (T : KTree) (g : Pose 3)
    (qs : List ℝ) : Res Tree3 :=
  (List.range R.numLinks).foldlM (fun (R : Tree3) i =>
    (T.getTransform getQuat qs (bodyName i)).bind fun f =>
    (Res.at' R.tf i).bind fun t => (Res.at' R.link i).bind fun l =>
      .ok { R with link := R.link.set i (Tree3.place l ((g.mul f).mul t)) }) { R with base := Tree3.place R.base g }

/-- The kinematics the planners work with: number of joints and placements of the tree (`kdl_`, ProbHRM3D.cpp:13). -/
noncomputable def armOf (getQuat : Matrix (Fin 3) (Fin 3) ℝ → Quat) (T : KTree) : Arm :=
  ⟨T.nJ, fun qs i => match T.getTransform getQuat qs (bodyName i) with
    | .ok f => f
    | _ => Pose.one3⟩

/-- The robot descriptions the tests and demos know. -/
inductive Description where
  | snake | tree | none
  deriving DecidableEq

/-- The choice of the robot description by the length of the start configuration, TestProbHRM3D.cpp:18-27,
TestOMPL3DArticulated.cpp:19-28: without a choice the file name stays empty. (The demos choose by the robot's type.) -/
def chooseDescription (start : List ℝ) : Description :=
  if start.length = 10 then .snake else if start.length = 16 then .tree else .none

end Hrm
