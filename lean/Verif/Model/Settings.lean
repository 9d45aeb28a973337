import Verif.Model.Csv
import Verif.Model.Planner3D

/-!
# Model of the planning settings

include/hrm/test/util/ParsePlanningSettings.h, src/test/util/ParsePlanningSettings.cpp: planning parameters derived
from the environment (`defineParameters`), and the way from a resource file over a configuration file to the objects of
the planner (`parsePlanningConfig`, `loadVectorGeometry`, `loadRobotMultiBody2D/3D`, `loadPreDefinedQuaternions`).
-/

namespace Hrm

/-- `getSemiAxis()`. -/
def SuperEllipse.semi (E : SuperEllipse) : List ℝ := [E.a, E.b]
/-- `getSemiAxis()`. -/
def SuperQuadrics.semi (Q : SuperQuadrics) : List ℝ := [Q.a, Q.b, Q.c]

/-- `computeObstacleMinSize`, ParsePlanningSettings.h:76-89, for the list of the obstacles' semi-axes. -/
noncomputable def computeObstacleMinSize (semis : List (List ℝ)) : Res ℝ :=
  (Res.at' semis 0).bind fun s => (Res.at' s 0).bind fun m =>
  .ok (semis.foldl (fun m s => s.foldl (fun m x => if x < m then x else m) m) m)

/-- A quotient that is converted to an integer: `x / 0` is infinite or NaN, and its conversion undefined. -/
noncomputable def quotient (x y : ℝ) : Res ℝ := if y = 0 then .ub else .ok (x / y)

/-- `static_cast<int>(x)`: truncation, undefined if the result is no 32-bit `int`. -/
noncomputable def toInt (x : ℝ) : Res ℤ :=
  let t : ℤ := if 0 ≤ x then ⌊x⌋ else ⌈x⌉
  if -2 ^ 31 ≤ t ∧ t < 2 ^ 31 then .ok t else .ub

/-- Conversion of an `int` to `Index = size_t`, DataType.h:13: modulo 2^64. -/
def toIndex (n : ℤ) : ℕ := (n % 2 ^ 64).toNat

/-- `Index n = floor(x)`: undefined unless the value is an `Index`. -/
noncomputable def floorToIndex (x : ℝ) : Res ℕ := if 0 ≤ ⌊x⌋ ∧ ⌊x⌋ < 2 ^ 64 then .ok ⌊x⌋.toNat else .ub

/-- `defineParameters` in the plane, ParsePlanningSettings.cpp:108-129. -/
noncomputable def defineParameters2 (robot : Tree2) (arena obs : List SuperEllipse) (p : Param2) : Res Param2 :=
  (Res.at' arena 0).bind fun A =>
  let b0 := A.a - 3 / 2 * robot.base.a
  let b1 := A.b - 3 / 2 * robot.base.a
  let p := { p with xLo := A.px - b0, xHi := A.px + b0, yLo := A.py - b1, yHi := A.py + b1 }
  if p.numLineY = 0 then
    (computeObstacleMinSize (obs.map (·.semi))).bind fun m => (quotient b1 m).bind fun r => (toInt r).bind fun n =>
    .ok { p with numLineY := toIndex n }
  else .ok p

/-- `defineParameters` in space, ParsePlanningSettings.cpp:131-160; `quats` = the samples of the robot's base. -/
noncomputable def defineParameters3 (robot : Tree3) (quats : List Quat) (arena obs : List SuperQuadrics) (p : Param3) :
    Res Param3 :=
  (Res.at' arena 0).bind fun A =>
  let b0 := A.a - 6 / 5 * robot.base.a
  let b1 := A.b - 6 / 5 * robot.base.a
  let b2 := A.c - 6 / 5 * robot.base.a
  let p := { p with xLo := A.pos 0 - b0, xHi := A.pos 0 + b0, yLo := A.pos 1 - b1, yHi := A.pos 1 + b1,
                    zLo := A.pos 2 - b2, zHi := A.pos 2 + b2, numSlice := quats.length }
  if p.numLineX = 0 ∨ p.numLineY = 0 then
    (computeObstacleMinSize (obs.map (·.semi))).bind fun m =>
    (quotient b0 m).bind fun r0 => (floorToIndex r0).bind fun n0 =>
    (quotient b1 m).bind fun r1 => (floorToIndex r1).bind fun n1 =>
    .ok { p with numLineX := n0, numLineY := n1 }
  else .ok p

/-! ## From resource files to configuration files -/

/-- `Eigen::Vector3d::normalize()`: the zero vector stays. -/
noncomputable def normalize3 (u : ℝ × ℝ × ℝ) : ℝ × ℝ × ℝ :=
  let s := u.1 * u.1 + u.2.1 * u.2.1 + u.2.2 * u.2.2
  if 0 < s then (u.1 / Real.sqrt s, u.2.1 / Real.sqrt s, u.2.2 / Real.sqrt s) else u

/-- `Eigen::Quaterniond(Eigen::AngleAxisd(th, u))`. -/
noncomputable def axisAngleQuat (th : ℝ) (u : ℝ × ℝ × ℝ) : Quat :=
  (Real.cos (th / 2), Real.sin (th / 2) * u.1, Real.sin (th / 2) * u.2.1, Real.sin (th / 2) * u.2.2)

/-- One object, ParsePlanningSettings.cpp:195-213: a row of twelve numbers ends in axis and angle, which become a
quaternion; any other row is copied. For an empty row `object.size() - 1` wraps around and `object.at(0)` throws. -/
noncomputable def convertObject (o : List ℝ) : Res (List ℝ) :=
  match o with
  | [a, b, c, e1, e2, x, y, z, ux, uy, uz, th] =>
    let q := axisAngleQuat th (normalize3 (ux, uy, uz))
    .ok [a, b, c, e1, e2, x, y, z, q.1, q.2.1, q.2.2.1, q.2.2.2]
  | [] => .throw
  | o => .ok o

/-- `parseGeometricModel`, ParsePlanningSettings.cpp:187-216: the text of the configuration file. (An exception leaves a
file with the objects before.) -/
noncomputable def parseGeometricModel (stof : List Char → Scan) (pr : ℝ → List Char) (input : Option (List Char)) :
    Res (List Char) :=
  (parseCsv stof input).bind fun objects =>
  objects.foldlM (fun acc o => (convertObject o).bind fun r => .ok (acc ++ writeRow pr r)) []

/-- The argument `dim`. -/
inductive Dim where
  | plane | space | other
  deriving DecidableEq

/-- The argument `robotType`. -/
inductive RobotKind where
  | snake | tree | other
  deriving DecidableEq

/-- The last column written, ParsePlanningSettings.cpp:237, 249-254. -/
def RobotKind.numDOF : RobotKind → ℕ
  | .snake => 9
  | .tree => 12
  | .other => 6

/-- The columns `0 .. n - 1`, each checked. -/
noncomputable def columns (n : ℕ) (row : List ℝ) : Res (List ℝ) :=
  (List.range n).foldlM (fun acc i => (Res.at' row i).bind fun x => .ok (acc ++ [x])) []

/-- One configuration, ParsePlanningSettings.cpp:225-260: the row to be written (`none`: nothing). -/
noncomputable def convertConfig (k : RobotKind) (d : Dim) (v : List ℝ) : Res (Option (List ℝ)) :=
  match d with
  | .plane => (columns 3 v).bind fun r => .ok (some r)
  | .space =>
    (Res.at' v 3).bind fun ux => (Res.at' v 4).bind fun uy => (Res.at' v 5).bind fun uz => (Res.at' v 6).bind fun th =>
    let q := axisAngleQuat th (normalize3 (ux, uy, uz))
    (columns (k.numDOF + 1) ((((v.set 3 q.1).set 4 q.2.1).set 5 q.2.2.1).set 6 q.2.2.2)).bind fun r => .ok (some r)
  | .other => .ok none

/-- `parseStartGoalConfig`, ParsePlanningSettings.cpp:218-263. -/
noncomputable def parseStartGoalConfig (stof : List Char → Scan) (pr : ℝ → List Char) (k : RobotKind) (d : Dim)
    (input : Option (List Char)) : Res (List Char) :=
  (parseCsv stof input).bind fun configs =>
  configs.foldlM (fun acc v => (convertConfig k d v).bind fun r =>
    match r with
    | some r => .ok (acc ++ writeRow pr r)
    | none => .ok acc) []

/-! ## From configuration files to objects -/

/-- One superellipse, ParsePlanningSettings.cpp:11-15 (unchecked columns). -/
noncomputable def loadEllipse (num : ℕ) (c : List ℝ) : Res SuperEllipse :=
  (Res.idx c 0).bind fun a => (Res.idx c 1).bind fun b => (Res.idx c 2).bind fun e => (Res.idx c 3).bind fun x =>
  (Res.idx c 4).bind fun y => (Res.idx c 5).bind fun th => .ok ⟨a, b, e, x, y, th, num⟩

/-- One superquadric, ParsePlanningSettings.cpp:32-38 (unchecked columns). -/
noncomputable def loadQuadric (num : ℕ) (c : List ℝ) : Res SuperQuadrics :=
  (Res.idx c 0).bind fun a => (Res.idx c 1).bind fun b => (Res.idx c 2).bind fun c' => (Res.idx c 3).bind fun e1 =>
  (Res.idx c 4).bind fun e2 => (Res.idx c 5).bind fun x => (Res.idx c 6).bind fun y => (Res.idx c 7).bind fun z =>
  (Res.idx c 8).bind fun qw => (Res.idx c 9).bind fun qx => (Res.idx c 10).bind fun qy => (Res.idx c 11).bind fun qz =>
  .ok ⟨a, b, c', e1, e2, ![x, y, z], (qw, qx, qy, qz), num⟩

/-- The loops of `loadVectorGeometry`, ParsePlanningSettings.cpp:10-15 and 31-38. -/
def loadAll {β : Type} (load : List ℝ → Res β) (rows : List (List ℝ)) : Res (List β) :=
  rows.foldlM (fun acc r => (load r).bind fun b => .ok (acc ++ [b])) []

/-- `loadVectorGeometry` from a file, planar, ParsePlanningSettings.cpp:18-25. -/
noncomputable def loadEllipses (stof : List Char → Scan) (num : ℕ) (file : Option (List Char)) : Res (List SuperEllipse) :=
  (parseCsv stof file).bind fun rows => loadAll (loadEllipse num) rows

/-- `loadVectorGeometry` from a file, spatial, ParsePlanningSettings.cpp:41-48. -/
noncomputable def loadQuadrics (stof : List Char → Scan) (num : ℕ) (file : Option (List Char)) : Res (List SuperQuadrics) :=
  (parseCsv stof file).bind fun rows => loadAll (loadQuadric num) rows

/-- `loadRobotMultiBody2D`, ParsePlanningSettings.cpp:50-64: `robotParts[0]` is unchecked. -/
noncomputable def loadRobot2 (stof : List Char → Scan) (num : ℕ) (file : Option (List Char)) : Res Tree2 :=
  (loadEllipses stof num file).bind fun parts => (Res.idx parts 0).bind fun b =>
  .ok ((parts.drop 1).foldl Tree2.addBody (.new b))

/-- One orientation, ParsePlanningSettings.cpp:97-102: the scalar part is the last column. -/
noncomputable def loadQuat (s : List ℝ) : Res Quat :=
  (Res.idx s 3).bind fun w => (Res.idx s 0).bind fun x => (Res.idx s 1).bind fun y => (Res.idx s 2).bind fun z =>
  .ok (w, x, y, z)

/-- `loadPreDefinedQuaternions`, ParsePlanningSettings.cpp:85-106; `none` for the file name `"0"`. -/
noncomputable def loadQuats (stof : List Char → Scan) : Option (Option (List Char)) → Res (List Quat)
  | none => .ok []
  | some file => (parseCsv stof file).bind fun rows => loadAll loadQuat rows

/-- `loadRobotMultiBody3D`, ParsePlanningSettings.cpp:66-83: the robot and the samples of its base. -/
noncomputable def loadRobot3 (stof : List Char → Scan) (num : ℕ) (file : Option (List Char))
    (quatFile : Option (Option (List Char))) : Res (Tree3 × List Quat) :=
  (loadQuadrics stof num file).bind fun parts => (Res.idx parts 0).bind fun b => (loadQuats stof quatFile).bind fun qs =>
  .ok ((parts.drop 1).foldl Tree3.addBody (.new b), qs)

end Hrm
