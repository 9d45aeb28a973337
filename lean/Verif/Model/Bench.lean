import Verif.Model.DemoOmpl
import Verif.Spec.Csv

/-!
# Model of the benchmark programs

test/benchmark/BenchHRM2D.cpp, BenchHRM3D.cpp, BenchHRM3DAblation.cpp, BenchProbHRM3D.cpp, BenchProbHRM3DAblation.cpp,
BenchOMPL3D.cpp, BenchOMPL3DArticulated.cpp: the command lines of all of them, the trials and the statistics of the ones for
the highway roadmap planners. (BenchOMPL3DEllipsoid.cpp is not built.) Standard
output is not modelled.
-/

namespace Hrm

/-- A use of `argv[i]` as a string (`atoi(argv[i])`, `std::string s = argv[i]`): `argv[argc]` is a null pointer and later entries
do not exist, so both are undefined. `args` includes the name of the program. -/
def argAt (args : List (List Char)) (i : ℕ) : Res (List Char) := Res.idx args i

/-- `size_t(z)` for an `int`. -/
def sizeT (z : ℤ) : ℕ := (z % 2 ^ 64).toNat

/-- What `main` does with its command line: prints the usage text and returns 1, or starts with these settings. -/
inductive Launch (β : Type) where
  | usage
  | start (b : β)

/-- The settings of the benchmarks in space: map and robot type, trials, time limit, slices, file of orientations, lines. -/
structure BenchArgs where
  map : List Char
  robot : List Char
  trials : ℕ
  maxTime : ℤ
  slices : ℤ
  method : List Char
  lineX : ℕ
  lineY : ℕ

/-- `argc > k ? atoi(argv[i]) : 0`. -/
def optArg (atoi : List Char → ℤ) (args : List (List Char)) (k i : ℕ) : Res ℤ :=
  if k < args.length then (argAt args i).bind fun x => .ok (atoi x) else .ok 0

/-- BenchHRM3D.cpp:12-35, 53-54, BenchHRM3DAblation.cpp:12-36, 54-55. `atoi` is the library function (texts outside of the
range of `int` are not modelled). -/
def argsHRM3D (atoi : List Char → ℤ) (args : List (List Char)) : Res (Launch BenchArgs) :=
  if 7 ≤ args.length then
    (argAt args 1).bind fun m => (argAt args 2).bind fun r => (argAt args 3).bind fun n => (argAt args 4).bind fun t =>
    (argAt args 5).bind fun s => (argAt args 6).bind fun q =>
    (optArg atoi args 7 7).bind fun x => (optArg atoi args 7 8).bind fun y =>
    .ok (.start ⟨m, r, sizeT (atoi n), atoi t, atoi s, q, sizeT x, sizeT y⟩)
  else .ok .usage

/-- BenchProbHRM3D.cpp:12-33, 45, 51-53, BenchProbHRM3DAblation.cpp:12-33, 43, 49-51. -/
def argsProb3D (atoi : List Char → ℤ) (args : List (List Char)) : Res (Launch BenchArgs) :=
  if 5 ≤ args.length then
    (argAt args 1).bind fun m => (argAt args 2).bind fun r => (argAt args 3).bind fun n => (argAt args 4).bind fun t =>
    (optArg atoi args 5 5).bind fun x => (optArg atoi args 5 6).bind fun y =>
    .ok (.start ⟨m, r, sizeT (atoi n), atoi t, 0, "0".toList, sizeT x, sizeT y⟩)
  else .ok .usage

/-- The settings of BenchHRM2D: map and robot type, trials, slices, lines. -/
structure BenchArgs2 where
  map : List Char
  robot : List Char
  trials : ℤ
  slices : ℕ
  lineY : ℕ

/-- BenchHRM2D.cpp:17-34, 49-50. -/
def argsHRM2D (atoi : List Char → ℤ) (args : List (List Char)) : Res (Launch BenchArgs2) :=
  if 5 ≤ args.length then
    (argAt args 1).bind fun m => (argAt args 2).bind fun r => (argAt args 3).bind fun n => (argAt args 4).bind fun s =>
    (optArg atoi args 5 5).bind fun y =>
    .ok (.start ⟨m, r, atoi n, sizeT (atoi s), sizeT y⟩)
  else .ok .usage

/-- The settings of the OMPL benchmarks: map and robot type, trials, first and last planner, first and last sampler, time. -/
structure BenchArgsOmpl where
  map : List Char
  robot : List Char
  trials : ℤ
  planner : ℤ × ℤ
  sampler : ℤ × ℤ
  maxTime : ℤ

/-- BenchOMPL3D.cpp:10-35, BenchOMPL3DArticulated.cpp:10-37. -/
def argsOMPL3D (atoi : List Char → ℤ) (args : List (List Char)) : Res (Launch BenchArgsOmpl) :=
  if args.length = 8 then
    (argAt args 1).bind fun m => (argAt args 2).bind fun r => (argAt args 3).bind fun n =>
    (argAt args 4).bind fun p => (argAt args 5).bind fun p' => (argAt args 6).bind fun s => (argAt args 7).bind fun s' =>
    (argAt args 8).bind fun t =>
    .ok (.start ⟨m, r, atoi n, (atoi p, atoi p'), (atoi s, atoi s'), atoi t⟩)
  else .ok .usage

/-- The loop over the trials, which stops at the first that does not end normally, and collects what they leave. -/
def benchTrials {β : Type} (run : ℕ → Option (Res (List β))) : ℕ → Option (Res (List β))
  | 0 => some (.ok [])
  | n + 1 =>
    match benchTrials run n with
    | some (.ok t) => (run n).map fun x => x.bind fun row => .ok (t ++ row)
    | x => x

/-! ## The planar benchmark -/

/-- The second loop of BenchHRM2D.cpp:112-119, which counts with a `size_t` and reads the table unchecked. -/
def bench2DPrint (rows : List (List (List Char))) (trials : ℤ) : Res (List Char) :=
  (List.range (sizeT trials)).foldlM (fun acc i => (Res.idx rows i).bind fun row => .ok (acc ++ (joinFields row ++ ['\n']))) []

/-- The two loops of BenchHRM2D.cpp:69-119 (`trial i`: the statistics pushed in trial `i`; the first loop counts with an `int`). -/
def bench2DTable (trial : ℕ → Option (Res (List (List Char)))) (trials : ℤ) : Option (Res (List Char)) :=
  (benchTrials (fun i => (trial i).map fun x => x.bind fun row => .ok [row]) trials.toNat).map fun x => x.bind fun rows =>
    bench2DPrint rows trials

/-- The members of `PlannerSetting2D`, ParsePlanningSettings.h:157-171. -/
structure Setting2 where
  arena : List SuperEllipse
  obs : List SuperEllipse
  ends : List (List ℝ)

/-- `PlannerSetting2D::loadEnvironment(CONFIG_PATH "/")`, ParsePlanningSettings.h:142-155, with `dim_ = "2D"` (99-100). -/
noncomputable def loadEnvironment2 (stof : List Char → Scan) (num : ℕ) (D : Dirs) (fs : Files) : Res Setting2 :=
  (loadEllipses stof num (fs (arenaCfg D "2D".toList))).bind fun a =>
  (loadEllipses stof num (fs (obsCfg D "2D".toList))).bind fun o =>
  (parseCsv stof (fs (endsCfg D "2D".toList))).bind fun e => .ok ⟨a, o, e⟩

/-- `PlannerParameter` as constructed, PlanningRequest.h:13-34. -/
noncomputable def defaultParam2 : Param2 := ⟨0, 0, 5, 10, hrmPi / 2, 0, 0, 0, 0⟩

/-- The task of the planar benchmark, BenchHRM2D.cpp:42. -/
def BenchArgs2.task (A : BenchArgs2) : Task := ⟨"superellipse".toList, A.map, A.robot, "2D".toList⟩

/-- From the files to the planner that every trial constructs anew, BenchHRM2D.cpp:42-63, 77-78. -/
noncomputable def setupBench2 (stof : List Char → Scan) (pr : ℝ → List Char) (D : Dirs) (A : BenchArgs2) (num : ℕ) (fs : Files) :
    Res (Files × Planner2) :=
  (parsePlanningConfig stof pr D A.task fs).bind fun fs =>
  (loadRobot2 stof num (fs (robotCfg D "2D".toList))).bind fun R =>
  (loadEnvironment2 stof num D fs).bind fun S =>
  (defineParameters2 R S.arena S.obs { defaultParam2 with numSlice := A.slices, numLineY := A.lineY, numPoint := 5 }).bind fun p =>
  (Res.at' S.ends 0).bind fun s => (Res.at' S.ends 1).bind fun g =>
  .ok (fs, .new R S.arena S.obs s g p)

/-- The statistics of a trial, BenchHRM2D.cpp:84-89, as printed (the numbers are stored as `double`). -/
noncomputable def benchRow2 (pr : ℝ → List Char) (r : PlanRep Planner2) : List (List Char) :=
  [pr r.buildTime, pr r.searchTime, pr r.totalTime, pr r.st.graph.vertex.length, pr r.st.graph.edge.length,
    pr r.st.res.pathId.length]

/-- The first line, BenchHRM2D.cpp:109-111. -/
def benchHead2 : List Char :=
  joinFields ["BUILD_TIME".toList, "SEARCH_TIME".toList, "PLAN_TIME".toList, "GRAPH_NODE".toList, "GRAPH_EDGE".toList,
    "PATH_NODE".toList] ++ ['\n']

/-- BenchHRM2D.cpp:16-123: exit status and files; the time limit is 10 s (line 37). -/
noncomputable def benchHRM2D (L : Libs2) (atoi : List Char → ℤ) (stof : List Char → Scan) (pr : ℝ → List Char) (D : Dirs)
    (stats : List Char) (num : ℕ) (clock : ℕ → ℕ → ℝ) (fuel : ℕ) (args : List (List Char)) (fs : Files) :
    Option (Res (ℕ × Files)) :=
  match argsHRM2D atoi args with
  | .throw => some .throw
  | .ub => some .ub
  | .ok .usage => some (.ok (1, fs))
  | .ok (.start A) =>
    match setupBench2 stof pr D A num fs with
    | .throw => some .throw
    | .ub => some .ub
    | .ok (fs, P) =>
      (bench2DTable (fun i => (Planner2.plan L (clock i) 10 fuel (freshRep P)).map fun x => x.bind fun r =>
        .ok (benchRow2 pr r)) A.trials).map fun x => x.bind fun t => .ok (0, fs.put stats (benchHead2 ++ t))

/-! ## The benchmarks in space -/

/-- `quaternionFilename`, BenchHRM3D.cpp:45-49, BenchHRM3DAblation.cpp:46-50. -/
def benchQuatFile (D : Dirs) (A : BenchArgs) : List Char :=
  D.res ++ ("/SO3_sequence/q_".toList ++ A.method ++ '_' :: ((toString A.slices).toList ++ ".csv".toList))

/-- The task of a benchmark, BenchHRM3D.cpp:40, BenchProbHRM3D.cpp:38. -/
def BenchArgs.task (A : BenchArgs) : Task := ⟨"superquadrics".toList, A.map, A.robot, "3D".toList⟩

/-- From the files to the planner that every trial constructs anew, BenchHRM3D.cpp:39-68, 88-89 (`rigid` = true),
BenchProbHRM3D.cpp:37-63, 82-83 (`rigid` = false, no file of orientations, no slices); the ablated ones are the same. -/
noncomputable def setupBench3 (stof : List Char → Scan) (pr : ℝ → List Char) (D : Dirs) (A : BenchArgs) (rigid : Bool) (num : ℕ)
    (fs : Files) : Res (Files × Planner3) :=
  (parsePlanningConfig stof pr D A.task fs).bind fun fs =>
  (loadEnvironment3 stof num D fs).bind fun S =>
  (loadRobot3 stof num (fs (robotCfg D "3D".toList))
    (if A.method = "0".toList then none else some (fs (benchQuatFile D A)))).bind fun R =>
  (defineParameters3 R.1 R.2 S.arena S.obs { defaultParam3 with
    numSlice := sizeT A.slices, numLineX := A.lineX, numLineY := A.lineY }).bind fun p =>
  (Res.at' S.ends 0).bind fun s => (Res.at' S.ends 1).bind fun g =>
  .ok (fs, .new R.1 R.2 S.arena S.obs s g p rigid)

/-- A number as printed. -/
def natText (n : ℕ) : List Char := Nat.toDigits 10 n

/-- The row of a trial, BenchHRM3D.cpp:107-116, BenchHRM3DAblation.cpp:107-119. -/
noncomputable def benchRow3 (pr : ℝ → List Char) (r : PlanRep Planner3) : List Char :=
  joinFields [natText (if r.st.res.solved then 1 else 0), pr r.buildTime, pr r.searchTime, pr r.totalTime,
    natText r.st.par.numSlice, natText r.st.par.numLineX, natText r.st.par.numLineY, natText r.st.graph.vertex.length,
    natText r.st.graph.edge.length, natText r.st.res.pathId.length] ++ ['\n']

/-- The first line, BenchHRM3D.cpp:73-78, BenchHRM3DAblation.cpp:74-79. -/
def benchHead3 : List Char :=
  joinFields ["SUCCESS".toList, "BUILD_TIME".toList, "SEARCH_TIME".toList, "PLAN_TIME".toList, "N_LAYERS".toList, "N_X".toList,
    "N_Y".toList, "GRAPH_NODE".toList, "GRAPH_EDGE".toList, "PATH_NODE".toList] ++ ['\n']

/-- The row of a trial, BenchProbHRM3D.cpp:102-107, BenchProbHRM3DAblation.cpp:97-110. -/
noncomputable def benchRowProb (pr : ℝ → List Char) (r : PlanRep Planner3) : List Char :=
  joinFields [natText (if r.st.res.solved then 1 else 0), pr r.totalTime,
    natText r.st.par.numSlice, natText r.st.par.numLineX, natText r.st.par.numLineY, natText r.st.graph.vertex.length,
    natText r.st.graph.edge.length, natText r.st.res.pathId.length] ++ ['\n']

/-- The first line, BenchProbHRM3D.cpp:68-71, BenchProbHRM3DAblation.cpp:67-70. -/
def benchHeadProb : List Char :=
  joinFields ["SUCCESS".toList, "PLAN_TIME".toList, "N_LAYERS".toList, "N_X".toList,
    "N_Y".toList, "GRAPH_NODE".toList, "GRAPH_EDGE".toList, "PATH_NODE".toList] ++ ['\n']

/-- BenchHRM3D.cpp:11-121 and, with `V` the ablated class, BenchHRM3DAblation.cpp:11-124: exit status and files. `stats` is the
name of the file of statistics, `clock i` the clock during trial `i`; `none` if the fuel of a planning loop does not suffice. -/
noncomputable def benchHRM3D (L : Libs3) (V : Variant) (atoi : List Char → ℤ) (stof : List Char → Scan) (pr : ℝ → List Char)
    (D : Dirs) (stats : List Char) (num : ℕ) (clock : ℕ → ℕ → ℝ) (fuel : ℕ) (args : List (List Char)) (fs : Files) :
    Option (Res (ℕ × Files)) :=
  match argsHRM3D atoi args with
  | .throw => some .throw
  | .ub => some .ub
  | .ok .usage => some (.ok (1, fs))
  | .ok (.start A) =>
    match setupBench3 stof pr D A true num fs with
    | .throw => some .throw
    | .ub => some .ub
    | .ok (fs, P) =>
      (benchTrials (fun i => (Planner3.plan L V (clock i) A.maxTime fuel (freshRep3 P)).map fun x => x.bind fun r =>
        .ok (benchRow3 pr r)) A.trials).map fun x => x.bind fun t => .ok (0, fs.put stats (benchHead3 ++ t))

/-- BenchProbHRM3D.cpp:11-112 and, with `fcl` the collision test of the ablated class, BenchProbHRM3DAblation.cpp:11-115. -/
noncomputable def benchProb3D (L : Libs3) (fcl : Option (SuperQuadrics → SuperQuadrics → Bool))
    (urdf : Option (List Char) → Option UrdfModel) (getQuat : Matrix (Fin 3) (Fin 3) ℝ → Quat) (atoi : List Char → ℤ)
    (stof : List Char → Scan) (pr : ℝ → List Char) (D : Dirs) (stats : List Char) (num : ℕ) (clock : ℕ → ℕ → ℝ) (fuel : ℕ)
    (args : List (List Char)) (fs : Files) : Option (Res (ℕ × Files)) :=
  match argsProb3D atoi args with
  | .throw => some .throw
  | .ub => some .ub
  | .ok .usage => some (.ok (1, fs))
  | .ok (.start A) =>
    match setupBench3 stof pr D A false num fs with
    | .throw => some .throw
    | .ub => some .ub
    | .ok (fs, P) =>
      let arm := armOf getQuat (parseURDF (urdf (fs (urdfFile D A.robot))))
      (benchTrials (fun i => (Planner3.planProb L ⟨some arm, fcl⟩ arm (clock i) A.maxTime fuel (freshRep3 P)).map fun x =>
        x.bind fun r => .ok (benchRowProb pr r)) A.trials).map fun x => x.bind fun t =>
        .ok (0, fs.put stats (benchHeadProb ++ t))

end Hrm
