import Verif.Model.Separation
import Verif.Model.MultiBody

/-!
# Model of the OMPL baseline

include/hrm/planners/ompl_interface/OMPLInterface-inl.h, src/planners/ompl_interface/OMPL2D.cpp, OMPL3D.cpp,
src/util/EllipsoidSQCollisionFCL.cpp.

The libraries are parameters: `Obj` is the type of FCL collision objects, `mk` builds one from a shape
(`setCollisionObjectFromSQ`), `fcl` is `isCollision` (which sets both transformations and calls `fcl::collide`);
what OMPL's `solve` and planner data return is an arbitrary value per call.
-/

namespace Hrm

open Matrix Classical

/-- A `for` loop that returns `false` at the first failing check. -/
def allLoop (f : ℕ → Res Bool) : List ℕ → Res Bool
  | [] => .ok true
  | i :: is => (f i).bind fun b => if b then allLoop f is else .ok false

/-! ## State validity in the plane -/

/-- The members of `OMPL2D` used by the validity check. -/
structure Ompl2 (Obj : Type) where
  robot : Tree2
  obstacle : List SuperEllipse
  objRobot : List Obj
  objObs : List Obj

/-- The constructor, OMPLInterface-inl.h:28-36. -/
def Ompl2.new {Obj : Type} (robot : Tree2) (obstacle : List SuperEllipse) : Ompl2 Obj := ⟨robot, obstacle, [], []⟩

/-- `OMPL2D::setCollisionObject`, OMPL2D.cpp:90-101 (called by every `setup`). -/
def Ompl2.setCollisionObject {Obj : Type} (mk : SuperEllipse → Obj) (O : Ompl2 Obj) : Res (Ompl2 Obj) :=
  ((List.range O.robot.numLinks).foldlM (fun acc i => (Res.at' O.robot.link i).bind fun l => .ok (acc ++ [mk l]))
    (O.objRobot ++ [mk O.robot.base])).bind fun objs =>
  .ok { O with objRobot := objs, objObs := O.objObs ++ O.obstacle.map mk }

/-- `OMPL2D::isSeparated`, OMPL2D.cpp:120-153. -/
noncomputable def Ompl2.isSeparated {Obj : Type} (eig : EigFun) (fcl : SuperEllipse → Obj → SuperEllipse → Obj → Bool)
    (O : Ompl2 Obj) (T : Tree2) : Res Bool :=
  allLoop (fun i =>
    (Res.at' O.obstacle i).bind fun ob =>
    if |ob.eps - 1| < 1 / 10 ^ 6 then
      if isEllipseSeparated eig T.base ob then
        allLoop (fun j => (Res.at' T.link j).bind fun l => .ok (isEllipseSeparated eig l ob)) (List.range T.numLinks)
      else .ok false
    else
      (Res.at' O.objRobot 0).bind fun r => (Res.at' O.objObs i).bind fun o =>
      if fcl T.base r ob o then .ok false
      else
        allLoop (fun j => (Res.at' T.link j).bind fun l => (Res.at' O.objRobot (j + 1)).bind fun r =>
          (Res.at' O.objObs i).bind fun o => .ok (!fcl l r ob o)) (List.range T.numLinks))
    (List.range O.obstacle.length)

/-- `isStateValid` with `transformRobot`, OMPLInterface-inl.h:167-171 and OMPL2D.cpp:103-118: a *copy* of the robot
is moved. -/
noncomputable def Ompl2.isStateValid {Obj : Type} (eig : EigFun)
    (fcl : SuperEllipse → Obj → SuperEllipse → Obj → Bool) (O : Ompl2 Obj) (x y th : ℝ) : Res Bool :=
  (O.robot.robotTF ⟨rot2 th, ![x, y]⟩).bind fun T => O.isSeparated eig fcl T

/-! ## State validity in space -/

/-- The members of `OMPL3D` used by the validity check. -/
structure Ompl3 (Obj : Type) where
  robot : Tree3
  obstacle : List SuperQuadrics
  objRobot : List Obj
  objObs : List Obj

def Ompl3.new {Obj : Type} (robot : Tree3) (obstacle : List SuperQuadrics) : Ompl3 Obj := ⟨robot, obstacle, [], []⟩

/-- `OMPL3D::setCollisionObject`, OMPL3D.cpp:91-118. Simplification: one function `mk` for the objects of robot
bodies (ellipsoids) and one, `mkO`, for those of obstacles. -/
def Ompl3.setCollisionObject {Obj : Type} (mk mkO : SuperQuadrics → Obj) (O : Ompl3 Obj) : Res (Ompl3 Obj) :=
  ((List.range O.robot.numLinks).foldlM (fun acc i => (Res.at' O.robot.link i).bind fun l => .ok (acc ++ [mk l]))
    (O.objRobot ++ [mk O.robot.base])).bind fun objs =>
  .ok { O with objRobot := objs, objObs := O.objObs ++ O.obstacle.map mkO }

/-- `OMPL3D::isSeparated`, OMPL3D.cpp:140-158. -/
def Ompl3.isSeparated {Obj : Type} (fcl : SuperQuadrics → Obj → SuperQuadrics → Obj → Bool) (O : Ompl3 Obj)
    (T : Tree3) : Res Bool :=
  allLoop (fun i =>
    (Res.at' O.objRobot 0).bind fun r => (Res.at' O.obstacle i).bind fun ob => (Res.at' O.objObs i).bind fun o =>
    if fcl T.base r ob o then .ok false
    else
      allLoop (fun j => (Res.at' T.link j).bind fun l => (Res.at' O.objRobot (j + 1)).bind fun r =>
        (Res.at' O.obstacle i).bind fun ob => (Res.at' O.objObs i).bind fun o => .ok (!fcl l r ob o))
        (List.range T.numLinks))
    (List.range O.obstacle.length)

/-- `isStateValid` with `transformRobot`, OMPLInterface-inl.h:167-171 and OMPL3D.cpp:120-137. -/
noncomputable def Ompl3.isStateValid {Obj : Type} (fcl : SuperQuadrics → Obj → SuperQuadrics → Obj → Bool)
    (O : Ompl3 Obj) (p : Fin 3 → ℝ) (q : Quat) : Res Bool :=
  (O.robot.robotTF ⟨quatRot q, p⟩).bind fun T => O.isSeparated fcl T

/-- `OMPL3DArticulated::transformRobot`, OMPL3DArticulated.cpp:57-80, and `isStateValid`; `fk` = the joint
transformations of the kinematics library for the joint values of the state. -/
noncomputable def Ompl3.isStateValidArt {Obj : Type} (fcl : SuperQuadrics → Obj → SuperQuadrics → Obj → Bool)
    (O : Ompl3 Obj) (p : Fin 3 → ℝ) (q : Quat) (fk : ℕ → Pose 3) : Res Bool :=
  (O.robot.robotTFWith ⟨quatRot q, p⟩ fk).bind fun T => O.isSeparated fcl T

/-! ## Planning calls -/

/-- `ompl::base::PlannerStatus`. -/
inductive OmplStatus where
  | unknown | invalidStart | invalidGoal | unrecognizedGoal | timeout | approximate | exact | crash | abort

/-- `PlannerStatus::operator bool`: approximate solutions count. -/
def OmplStatus.toBool : OmplStatus → Bool
  | .approximate => true
  | .exact => true
  | _ => false

/-- What `solve` returned: status, the raw path, the simplified path and its interpolation. -/
structure OmplSolve where
  status : OmplStatus
  raw : List Vec
  simplified : List Vec
  interp : List Vec

/-- One call of `plan` and everything the library answers during it. `solve = none`: an `ompl::Exception`.
`time` = `getLastPlanComputationTime()`; `verts`, `adj` = the planner data; `checked`, `valid` = the motion
counters; `prob` = `probabilityOfValidState`. -/
structure OmplCall where
  start : Vec
  goal : Vec
  maxTime : ℝ
  solve : Option OmplSolve
  time : ℝ
  verts : List Vec
  adj : ℕ → List ℕ
  numEdges : ℕ
  checked : ℕ
  valid : ℕ
  prob : ℝ

/-- The members reporting results, OMPLInterface.h:137, 176-210. -/
structure OmplRep where
  ready : Bool
  isSolved : Bool
  totalTime : ℝ
  numCollisionChecks : ℕ
  numValidStates : ℕ
  validSpace : ℝ
  numGraphVertex : ℕ
  numGraphEdges : ℕ
  lengthPath : ℕ
  vertex : List Vec
  edge : List (ℕ × ℕ)
  path : List Vec
  pathInterp : List Vec

/-- The initial values; `ready` = "`ss_` is set". -/
def OmplRep.init (ready : Bool) : OmplRep := ⟨ready, false, 0, 0, 0, 0, 0, 0, 0, [], [], [], []⟩

/-- `setStateFromVector` for both end points: reads `dim` entries with `.at`, OMPL2D.cpp:155-166, OMPL3D.cpp:160-174. -/
def readState (dim : ℕ) (v : Vec) : Res Unit :=
  (List.range dim).foldlM (fun _ i => (Res.at' v i).bind fun _ => .ok ()) ()

/-- The `try` block of `plan`, OMPLInterface-inl.h:75-91. -/
noncomputable def omplSolve (c : OmplCall) (s : OmplRep) : OmplRep :=
  match c.solve with
  | none => s
  | some r =>
    let s := { s with totalTime := c.time }
    if r.status.toBool = true ∧ c.time < c.maxTime then { s with lengthPath := r.raw.length, isSolved := true } else s

/-- The path part of `getSolution` in the plane, OMPL2D.cpp:17-33: *appends* to `path_`. (That the
library throws in this part, and `plan` with it, is not modelled.) -/
def omplPath2 (c : OmplCall) (s : OmplRep) : OmplRep :=
  match s.isSolved, c.solve with
  | true, some r => { s with lengthPath := r.simplified.length, path := s.path ++ r.interp }
  | _, _ => s

/-- The path part of `getSolution` in space, OMPL3D.cpp:19-37. An exception of the library in this part is swallowed
(OMPL3D.cpp:35-36): then `simplified` and `interp`, or only `interp`, are what was stored before it, possibly nothing. -/
def omplPath3 (c : OmplCall) (s : OmplRep) : OmplRep :=
  match s.isSolved, c.solve with
  | true, some r => { s with path := s.path ++ r.simplified, pathInterp := s.pathInterp ++ r.interp }
  | _, _ => s

/-- The loops over the planner data, OMPL2D.cpp:45-63 and OMPL3D.cpp:47-62, for `n` vertices. A vertex past the
end is `NO_VERTEX`, whose state is a null pointer that is then dereferenced. -/
def omplGraph (c : OmplCall) (n : ℕ) (s : OmplRep) : Res OmplRep :=
  ((List.range n).foldlM (fun acc i => (Res.idx c.verts i).bind fun v => .ok (acc ++ [v])) []).bind fun vs =>
  .ok { s with vertex := vs, edge := (List.range n).flatMap fun i => (c.adj i).map fun j => (i, j) }

/-- The counters at the end of `getSolution`, OMPL2D.cpp:65-71 and OMPL3D.cpp:64-70. -/
def omplCounts (c : OmplCall) (s : OmplRep) : OmplRep :=
  { s with numCollisionChecks := c.checked, numValidStates := c.valid, validSpace := c.prob }

/-- `OMPL2D::getSolution`, OMPL2D.cpp:16-72: the loops run over `numValidStates_` of the *previous* call. -/
def getSolution2 (c : OmplCall) (s : OmplRep) : Res OmplRep :=
  let s := { omplPath2 c s with totalTime := c.time, numGraphVertex := c.verts.length, numGraphEdges := c.numEdges }
  (omplGraph c s.numValidStates s).bind fun s => .ok (omplCounts c s)

/-- `OMPL3D::getSolution`, OMPL3D.cpp:18-71. -/
def getSolution3 (c : OmplCall) (s : OmplRep) : Res OmplRep :=
  let s := { omplPath3 c s with numGraphVertex := c.verts.length, numGraphEdges := c.numEdges }
  (omplGraph c s.numGraphVertex s).bind fun s => .ok (omplCounts c s)

/-- `OMPLInterface::plan`, OMPLInterface-inl.h:60-97; returns the members and the return value. -/
noncomputable def omplPlan (dim : ℕ) (getSolution : OmplCall → OmplRep → Res OmplRep) (s : OmplRep) (c : OmplCall) :
    Res (OmplRep × Bool) :=
  let s := { s with isSolved := false }
  if s.ready = false then .ok (s, s.isSolved)
  else
    (readState dim c.start).bind fun _ => (readState dim c.goal).bind fun _ =>
    (getSolution c (omplSolve c s)).bind fun s => .ok (s, true)

/-- `OMPL2D::plan`. -/
noncomputable def omplPlan2 : OmplRep → OmplCall → Res (OmplRep × Bool) := omplPlan 3 getSolution2

/-- `OMPL3D::plan`. -/
noncomputable def omplPlan3 : OmplRep → OmplCall → Res (OmplRep × Bool) := omplPlan 7 getSolution3

end Hrm
