import Verif.Model.Settings
import Verif.Model.Kinematics

/-!
# Model of the demonstration programs, from files to files

`parsePlanningConfig` with its file names, `PlannerSetting::loadEnvironment`, `storeGraphInfo`, `storePathInfo`
(src/test/util/ParsePlanningSettings.cpp, include/hrm/test/util/ParsePlanningSettings.h,
src/test/util/DisplayPlanningData.cpp) and the programs demo/DemoHRMRigidBodyPlanning3D.cpp and
demo/DemoProbHRMArticulatedBodyPlanning3D.cpp.

A file system gives each name the text of the file, `none` for a file that cannot be opened. Simplifications: names are
compared as texts (no links, no `..`); every output file can be opened and written. Standard output is not modelled. An
exception or undefined behaviour ends the program; the files written before are not described.
-/

namespace Hrm

/-- The files. -/
abbrev Files := List Char → Option (List Char)

/-- `std::ofstream f; f.open(name); f << text; f.close();` -/
def Files.put (fs : Files) (name text : List Char) : Files := fun n => if n = name then some text else fs n

/-- `RESOURCES_PATH`, `CONFIG_PATH` and `SOLUTION_DETAILS_PATH`, CMakeLists.txt:27-34. -/
structure Dirs where
  res : List Char
  cfg : List Char
  sol : List Char

/-- `dim == "2D"`, `dim == "3D"`, ParsePlanningSettings.cpp:226, 231. -/
def dimOf (dim : List Char) : Dim :=
  if dim = "2D".toList then .plane else if dim = "3D".toList then .space else .other

/-- `robotType == "snake"`, `"tree"`, ParsePlanningSettings.cpp:249-253. -/
def kindOf (robot : List Char) : RobotKind :=
  if robot = "snake".toList then .snake else if robot = "tree".toList then .tree else .other

/-- What `parsePlanningConfig` is asked for. -/
structure Task where
  obj : List Char
  env : List Char
  robot : List Char
  dim : List Char

/-- The directory of the resource files, ParsePlanningSettings.cpp:165, 168, 172, 173. -/
def Dirs.resDim (D : Dirs) (T : Task) : List Char := D.res ++ '/' :: T.dim

/-- `arenaFilename`, ParsePlanningSettings.cpp:165-167. -/
def arenaRes (D : Dirs) (T : Task) : List Char :=
  D.resDim T ++ '/' :: ("env_".toList ++ T.obj ++ '_' :: T.env ++ '_' :: T.dim ++ "_arena.csv".toList)
/-- `obstacleFilename`, ParsePlanningSettings.cpp:168-170. -/
def obsRes (D : Dirs) (T : Task) : List Char :=
  D.resDim T ++ '/' :: ("env_".toList ++ T.obj ++ '_' :: T.env ++ '_' :: T.dim ++ "_obstacle.csv".toList)
/-- `robotFilename`, ParsePlanningSettings.cpp:171-172. -/
def robotRes (D : Dirs) (T : Task) : List Char :=
  D.resDim T ++ '/' :: ("robot_".toList ++ T.robot ++ '_' :: T.dim ++ ".csv".toList)
/-- `endPointsFilename`, ParsePlanningSettings.cpp:173-175. -/
def endsRes (D : Dirs) (T : Task) : List Char :=
  D.resDim T ++ '/' :: ("setting_".toList ++ T.obj ++ '_' :: T.env ++ '_' :: T.dim ++ ".csv".toList)

/-- `CONFIG_PATH "/arena_config_" + dim + ".csv"`, ParsePlanningSettings.cpp:178, ParsePlanningSettings.h:145-146. -/
def arenaCfg (D : Dirs) (dim : List Char) : List Char := D.cfg ++ '/' :: ("arena_config_".toList ++ dim ++ ".csv".toList)
/-- `CONFIG_PATH "/obstacle_config_" + dim + ".csv"`, ParsePlanningSettings.cpp:180, ParsePlanningSettings.h:147-148. -/
def obsCfg (D : Dirs) (dim : List Char) : List Char := D.cfg ++ '/' :: ("obstacle_config_".toList ++ dim ++ ".csv".toList)
/-- `CONFIG_PATH "/robot_config_" + dim + ".csv"`, ParsePlanningSettings.cpp:182; read at 54 and 71. -/
def robotCfg (D : Dirs) (dim : List Char) : List Char := D.cfg ++ '/' :: ("robot_config_".toList ++ dim ++ ".csv".toList)
/-- `CONFIG_PATH "/end_points_" + dim + ".csv"`, ParsePlanningSettings.cpp:184, ParsePlanningSettings.h:154. -/
def endsCfg (D : Dirs) (dim : List Char) : List Char := D.cfg ++ '/' :: ("end_points_".toList ++ dim ++ ".csv".toList)

/-- `parsePlanningConfig`, ParsePlanningSettings.cpp:162-185. -/
noncomputable def parsePlanningConfig (stof : List Char → Scan) (pr : ℝ → List Char) (D : Dirs) (T : Task) (fs : Files) :
    Res Files :=
  (parseGeometricModel stof pr (fs (arenaRes D T))).bind fun t =>
  let fs := fs.put (arenaCfg D T.dim) t
  (parseGeometricModel stof pr (fs (obsRes D T))).bind fun t =>
  let fs := fs.put (obsCfg D T.dim) t
  (parseGeometricModel stof pr (fs (robotRes D T))).bind fun t =>
  let fs := fs.put (robotCfg D T.dim) t
  (parseStartGoalConfig stof pr (kindOf T.robot) (dimOf T.dim) (fs (endsRes D T))).bind fun t =>
  .ok (fs.put (endsCfg D T.dim) t)

/-- The members of `PlannerSetting3D`, ParsePlanningSettings.h:157-171. -/
structure Setting3 where
  arena : List SuperQuadrics
  obs : List SuperQuadrics
  ends : List (List ℝ)

/-- `PlannerSetting3D::loadEnvironment(CONFIG_PATH "/")`, ParsePlanningSettings.h:142-155, with `dim_ = "3D"` (101-102). -/
noncomputable def loadEnvironment3 (stof : List Char → Scan) (num : ℕ) (D : Dirs) (fs : Files) : Res Setting3 :=
  (loadQuadrics stof num (fs (arenaCfg D "3D".toList))).bind fun a =>
  (loadQuadrics stof num (fs (obsCfg D "3D".toList))).bind fun o =>
  (parseCsv stof (fs (endsCfg D "3D".toList))).bind fun e => .ok ⟨a, o, e⟩

/-- `PlannerParameter` as constructed, PlanningRequest.h:13-34 (`boundaryLimits` is empty until `defineParameters`). -/
noncomputable def defaultParam3 : Param3 := ⟨0, 0, 0, 5, 10, hrmPi / 2, 0, 0, 0, 0, 0, 0⟩

/-- The planner as the program constructs it, DemoHRMRigidBodyPlanning3D.cpp:11-46: files to a new `HRM3D`; `quatFile` is
the name of the file of orientations. -/
noncomputable def setupDemo3 (stof : List Char → Scan) (pr : ℝ → List Char) (D : Dirs) (T : Task) (quatFile : List Char)
    (num : ℕ) (fs : Files) : Res (Files × Planner3) :=
  (parsePlanningConfig stof pr D T fs).bind fun fs =>
  (loadEnvironment3 stof num D fs).bind fun S =>
  (loadRobot3 stof num (fs (robotCfg D "3D".toList)) (if quatFile = "0".toList then none else some (fs quatFile))).bind
  fun R => (Res.at' S.ends 0).bind fun s => (Res.at' S.ends 1).bind fun g =>
  (defineParameters3 R.1 R.2 S.arena S.obs defaultParam3).bind fun p =>
  .ok (fs, .new R.1 R.2 S.arena S.obs s g p true)

/-- `SOLUTION_DETAILS_PATH "/<kind>_" + suffix + ".csv"`, DisplayPlanningData.cpp:30, 41, 57, 67, 77-78. -/
def outFile (D : Dirs) (kind suffix : List Char) : List Char := D.sol ++ '/' :: (kind ++ '_' :: suffix ++ ".csv".toList)

/-- `storeGraphInfo`, DisplayPlanningData.cpp:27-46. -/
def storeGraph (pr : ℝ → List Char) (D : Dirs) (suffix : List Char) (g : Graph) (fs : Files) : Files :=
  (fs.put (outFile D "vertex".toList suffix) (writeRows pr g.vertex)).put (outFile D "edge".toList suffix)
    (writeEdges g.edge)

/-- `storePathInfo`, DisplayPlanningData.cpp:53-87; `prN` prints coordinates that may be NaN. -/
def storePath (pr : ℝ → List Char) (prN : Option ℝ → List Char) (D : Dirs) (suffix : List Char) (ids : List ℕ)
    (path : List Vec) (interp : List (List (Option ℝ))) (fs : Files) : Files :=
  ((fs.put (outFile D "path_id".toList suffix) (writeIds ids)).put (outFile D "solution_path".toList suffix)
    (writeRows pr path)).put (outFile D "interpolated_path".toList suffix)
      (interp.flatMap fun row => row.flatMap (fun x => prN x ++ [',']) ++ ['\n'])

/-- The program, DemoHRMRigidBodyPlanning3D.cpp:9-61, up to `storePathInfo` (line 61, `storeRoutines`, is in
Model/Routines.lean); `none` if the fuel of the planning loop does not suffice. -/
noncomputable def demoHRM3D (L : Libs3) (V : Variant) (stof : List Char → Scan) (pr : ℝ → List Char)
    (prN : Option ℝ → List Char) (D : Dirs) (T : Task) (quatFile : List Char) (num : ℕ) (suffix : List Char)
    (clock : ℕ → ℝ) (timeLim : ℝ) (fuel : ℕ) (fs : Files) : Option (Res Files) :=
  match setupDemo3 stof pr D T quatFile num fs with
  | .ok (fs, P) => (Planner3.plan L V clock timeLim fuel (freshRep3 P)).map fun x => x.bind fun r =>
    .ok (storePath pr prN D suffix r.st.res.pathId r.solvedPath r.interpolated (storeGraph pr D suffix r.st.graph fs))
  | .throw => some .throw
  | .ub => some .ub

/-- The demonstration, DemoHRMRigidBodyPlanning3D.cpp:11-13, 19-20, 59-60. -/
def demoTask : Task := ⟨"superquadrics".toList, "cluttered".toList, "rabbit".toList, "3D".toList⟩

/-! ## Articulated robots -/

/-- `urdfFile`, DemoProbHRMArticulatedBodyPlanning3D.cpp:22-23. -/
def urdfFile (D : Dirs) (robot : List Char) : List Char := D.res ++ ("/3D/urdf/".toList ++ robot ++ ".urdf".toList)

/-- The planner as the program constructs it, DemoProbHRMArticulatedBodyPlanning3D.cpp:10-46 (no file of orientations:
`"0"`). `rigid` is the value of `req.isRobotRigid`: the program leaves the value `true` of PlanningRequest.h:40; the tests
and benchmarks set `false` (TestProbHRM3D.cpp:34, BenchProbHRM3D.cpp:60). -/
noncomputable def setupProb3 (stof : List Char → Scan) (pr : ℝ → List Char) (D : Dirs) (T : Task) (rigid : Bool)
    (num : ℕ) (fs : Files) : Res (Files × Planner3) :=
  (parsePlanningConfig stof pr D T fs).bind fun fs =>
  (loadEnvironment3 stof num D fs).bind fun S =>
  (loadRobot3 stof num (fs (robotCfg D "3D".toList)) none).bind fun R =>
  (Res.at' S.ends 0).bind fun s => (Res.at' S.ends 1).bind fun g =>
  (defineParameters3 R.1 R.2 S.arena S.obs defaultParam3).bind fun p =>
  .ok (fs, .new R.1 R.2 S.arena S.obs s g p rigid)

/-- The program, DemoProbHRMArticulatedBodyPlanning3D.cpp:9-63, up to `storePathInfo`; `urdf` reads a robot description
(`none`: it cannot be read). -/
noncomputable def demoProb3D (L : Libs3) (urdf : Option (List Char) → Option UrdfModel)
    (getQuat : Matrix (Fin 3) (Fin 3) ℝ → Quat) (stof : List Char → Scan) (pr : ℝ → List Char)
    (prN : Option ℝ → List Char) (D : Dirs) (T : Task) (rigid : Bool) (num : ℕ) (suffix : List Char)
    (clock : ℕ → ℝ) (timeLim : ℝ) (fuel : ℕ) (fs : Files) : Option (Res Files) :=
  match setupProb3 stof pr D T rigid num fs with
  | .ok (fs, P) =>
    let A := armOf getQuat (parseURDF (urdf (fs (urdfFile D T.robot))))
    (Planner3.planProb L ⟨some A, none⟩ A clock timeLim fuel (freshRep3 P)).map fun x => x.bind fun r =>
    .ok (storePath pr prN D suffix r.st.res.pathId r.solvedPath r.interpolated (storeGraph pr D suffix r.st.graph fs))
  | .throw => some .throw
  | .ub => some .ub

/-- The task of the demonstration, DemoProbHRMArticulatedBodyPlanning3D.cpp:11-12. -/
def demoTaskProb : Task := ⟨"superquadrics".toList, "cluttered".toList, "snake".toList, "3D".toList⟩

end Hrm
