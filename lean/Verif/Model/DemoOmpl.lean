import Verif.Model.Demo
import Verif.Model.Ompl
import Verif.Model.OmplSession

/-!
# Model of the demonstration programs with the OMPL baseline

demo/DemoOMPLRigidBodyPlanning3D.cpp and demo/DemoOMPLArticulatedBodyPlanning3D.cpp, on top of the models of the files
(Model/Demo), of the sessions (Model/OmplSession) and of the reporting members (Model/Ompl).

The vector of obstacle meshes that the programs compute (rigid: lines 22-26, articulated: 23-27) has no effect: no member
function reads `obsMesh_`. Standard output is not modelled.
-/

namespace Hrm

/-- The vectors `b1`, `b2` of the program, DemoOMPLRigidBodyPlanning3D.cpp:32-41, DemoOMPLArticulatedBodyPlanning3D.cpp:35-44:
from the semi-axes of the first arena surface and the *first* semi-axis of the robot's base. -/
noncomputable def omplBounds (arena : List SuperQuadrics) (robot : Tree3) : Res (Vec × Vec) :=
  (Res.at' arena 0).bind fun A =>
  let r := 6 / 5 * robot.base.a
  let b1 := [-A.a + r, -A.b + r, -A.c + r]
  .ok (b1, b1.map fun x => -x)

/-- The vectors of the program that the planner refers to: `b1` and `b2`. -/
def omplStore (b : Vec × Vec) : Store := fun r => if r = 0 then some b.1 else if r = 1 then some b.2 else none

/-- From the files to the problem that the library gets, DemoOMPLRigidBodyPlanning3D.cpp:11-53,
DemoOMPLArticulatedBodyPlanning3D.cpp:11-57, for a planner of kind `k`; `setup(3, 0)`: RRT-Connect and the uniform sampler.
An exception of `setup` or `plan` leaves `main`. -/
noncomputable def setupOmpl3 (OL : OmplLib) (k : OmplKind) (stof : List Char → Scan) (num : ℕ) (D : Dirs) (fs : Files) :
    Res (Vec × Vec × OmplProblem) :=
  (loadEnvironment3 stof num D fs).bind fun S =>
  (loadRobot3 stof num (fs (robotCfg D "3D".toList)) none).bind fun R =>
  (omplBounds S.arena R.1).bind fun b =>
  (OmplSession.new OL k (omplStore b) 0 1).bind fun s =>
  (s.setup OL (omplStore b) 3 0).bind fun r =>
  match r.2 with
  | .threw => .throw
  | _ =>
    (Res.at' S.ends 0).bind fun st => (Res.at' S.ends 1).bind fun go =>
    (r.1.plan OL st go).bind fun o =>
    match o with
    | .handed p => .ok (st, go, p)
    | _ => .throw

/-- The whole program: `answer` is what the library answers to a problem, `maxTime` = `MAX_PLAN_TIME`; the result is taken from
the members and stored, DemoOMPLRigidBodyPlanning3D.cpp:52-73, DemoOMPLArticulatedBodyPlanning3D.cpp:56-77 (`res` has no list
of vertex numbers, and `solvedPath`, `interpolatedPath` are copies of the members). -/
noncomputable def demoOmpl3D (OL : OmplLib) (answer : OmplProblem → OmplCall) (maxTime : ℝ) (k : Files → OmplKind)
    (stof : List Char → Scan) (pr : ℝ → List Char) (D : Dirs) (T : Task) (num : ℕ) (suffix : List Char) (fs : Files) :
    Res Files :=
  (parsePlanningConfig stof pr D T fs).bind fun fs =>
  (setupOmpl3 OL (k fs) stof num D fs).bind fun x =>
  (omplPlan (k fs).dim getSolution3 (.init true)
    { answer x.2.2 with start := x.1, goal := x.2.1, maxTime := maxTime }).bind fun r =>
  .ok (((((fs.put (outFile D "vertex".toList suffix) (writeRows pr r.1.vertex)).put (outFile D "edge".toList suffix)
    (writeEdges r.1.edge)).put (outFile D "path_id".toList suffix) (writeIds [])).put
    (outFile D "solution_path".toList suffix) (writeRows pr r.1.path)).put
    (outFile D "interpolated_path".toList suffix) (writeRows pr r.1.pathInterp))

/-- The planner of the program for rigid bodies. -/
def rigidKind : Files → OmplKind := fun _ => .space

/-- The planner of the program for articulated robots: as many joints as the robot description has,
OMPL3DArticulated.cpp:14-15. -/
noncomputable def articulatedKind (urdf : Option (List Char) → Option UrdfModel)
    (getQuat : Matrix (Fin 3) (Fin 3) ℝ → Quat) (D : Dirs) (robot : List Char) : Files → OmplKind := fun fs =>
  .articulated (armOf getQuat (parseURDF (urdf (fs (urdfFile D robot))))).nJ

end Hrm
