import Verif.Model.TFE
import Verif.Model.Polygon
import Verif.Model.Search
import Verif.Model.Plan

/-!
# Model of the planar planner object

src/planners/HRM2D.cpp, include/hrm/planners/HighwayRoadMap-inl.h:45-59 (constructor), 91-107 (`buildRoadmap`),
109-175 (`search`), 177-215 (`refineExistRoadmap`), 263-283 (`getSolutionPath`),
include/hrm/datastructure/FreeSpace-inl.h:11-61, src/datastructure/FreeSpace2D.cpp:14-50.

This puts the pieces together: the planner's state with *two* robots (its own `robot_`, and the copy that the
free-space computer made in its constructor), the C-space boundaries, the sweep, the slices, the bridge slices,
the roadmap and the search. Libraries are parameters (`Libs2`).
-/

namespace Hrm

open Matrix Classical

/-- The library routines the planner uses, each with its contract: `std::sort`, the largest double, the QR
solver, the singular value decomposition, the priority queue of boost's A*. -/
structure Libs2 where
  sort : StdSort ℝ
  dmin : ℝ
  dmax : ℝ
  qr : QrSolve ℝ
  svd : SvdFun 2
  pick : ℕ → (ℕ → ℝ) → List ℕ → ℕ

/-- `PlannerParameter`, PlanningRequest.h (members used by the planar planner); `boundaryLimits` =
`{xLo, xHi, yLo, yHi}`. -/
structure Param2 where
  numSlice : ℕ
  numLineY : ℕ
  numPoint : ℕ
  numSearchNeighbor : ℕ
  searchRadius : ℝ
  xLo : ℝ
  xHi : ℝ
  yLo : ℝ
  yHi : ℝ

/-- `BoundaryInfo`: boundary polygons. -/
structure Bound2 where
  arena : List (List (Pt ℝ))
  obstacle : List (List (Pt ℝ))

/-- The columns of a 2xN matrix as points. -/
noncomputable def toPts (l : List (Fin 2 → ℝ)) : List (Pt ℝ) := l.map fun p => (p 0, p 1)

/-- `FreeSpaceComputator`, FreeSpace.h:95-130 (`arena_`, `obstacle_` are references to the planner's lists). -/
structure Fs2 where
  robot : Tree2
  bound : Bound2
  table : Table ℝ
  lowB : ℝ
  upB : ℝ

/-- The boundaries for one list of objects, FreeSpace-inl.h:47-60: per object the robot's `minkSum`, appended. -/
noncomputable def bodyBoundaries (T : Tree2) (objs : List SuperEllipse) (k : ℤ) : Res (List (List (Pt ℝ))) :=
  objs.foldlM (fun acc o => (T.minkSum o k).bind fun bs => .ok (acc ++ bs.map toPts)) []

/-- `computeCSpaceBoundary` for a robot, FreeSpace-inl.h:41-61. -/
noncomputable def cspaceBoundary (T : Tree2) (arena obs : List SuperEllipse) : Res Bound2 :=
  (bodyBoundaries T arena (-1)).bind fun a => (bodyBoundaries T obs 1).bind fun o => .ok ⟨a, o⟩

/-- The members of `HRM2D` and its base class. -/
structure Planner2 where
  robot : Tree2
  arena : List SuperEllipse
  obs : List SuperEllipse
  start : Vec
  goal : Vec
  par : Param2
  fs : Fs2
  headings : List (Option ℝ)
  isRefine : Bool
  sliceBound : Bound2
  sliceBoundAll : List Bound2
  graph : Graph
  vertexIdx : List VertexIdx
  vertexIdxAll : List (List VertexIdx)
  res : SearchRes

/-- `FreeSpaceComputator::setup`, FreeSpace-inl.h:19-39. -/
def Fs2.setup (f : Fs2) (numArena numObs numLine : ℕ) (lowB upB : ℝ) : Fs2 :=
  { f with lowB := lowB, upB := upB,
           table := setupTable f.table numLine ((1 + f.robot.numLinks) * numArena) ((1 + f.robot.numLinks) * numObs)
             lowB upB }

/-- The constructors HRM2D.cpp:6-16 and HighwayRoadMap-inl.h:47-59: the free-space computer gets a *copy* of the
robot (FreeSpace.h:106: `RobotType robot_`). -/
def Planner2.new (robot : Tree2) (arena obs : List SuperEllipse) (start goal : Vec) (par : Param2) : Planner2 :=
  { robot := robot, arena := arena, obs := obs, start := start, goal := goal, par := par,
    fs := Fs2.setup ⟨robot, ⟨[], []⟩, emptyTable ℝ, 0, 0⟩ arena.length obs.length par.numLineY par.xLo par.xHi,
    headings := [], isRefine := false, sliceBound := ⟨[], []⟩, sliceBoundAll := [],
    graph := .empty, vertexIdx := [], vertexIdxAll := [], res := ⟨false, [], some 0⟩ }

/-- `HRM2D::setTransform`, HRM2D.cpp:344-350, on a robot. -/
noncomputable def setTransform2 (T : Tree2) (v : Vec) : Res Tree2 :=
  (Res.idx v 2).bind fun th => (Res.idx v 0).bind fun x => (Res.idx v 1).bind fun y =>
  T.robotTF ⟨rot2 th, ![x, y]⟩

/-- The headings of `HRM2D::sampleOrientations`, HRM2D.cpp:46-51. For one slice the step is `2π/0 = ∞` and the
heading `-π + ∞ * 0` = NaN (`none`). -/
noncomputable def headings2 (numSlice : ℕ) : List (Option ℝ) :=
  (List.range numSlice).map fun (i : ℕ) =>
    if numSlice = 1 then none
    else some (-hrmPi + 2 * hrmPi / ((numSlice : ℝ) - 1) * (i : ℝ))

/-- `sampleOrientations` appends to `headings_`. -/
noncomputable def Planner2.sampleOrientations (P : Planner2) : Planner2 :=
  { P with headings := P.headings ++ headings2 P.par.numSlice }

/-- The y-coordinates of the sweep lines, HRM2D.cpp:55-61. For one line the step is infinite and the coordinate
NaN: not representable, see `sweep`. -/
noncomputable def Param2.lines (p : Param2) : List ℝ :=
  (List.range p.numLineY).map fun (i : ℕ) => p.yLo + (i : ℝ) * ((p.yHi - p.yLo) / ((p.numLineY : ℝ) - 1))

/-- `sweepLineProcess`, HRM2D.cpp:53-70. The boundaries used are those *in the free-space object*. One sweep line
(NaN coordinate) is not modelled: `.ub`. -/
noncomputable def Fs2.sweep (L : Libs2) (p : Param2) (f : Fs2) : Res (Fs2 × FreeSeg) :=
  if p.numLineY = 1 then .ub
  else
    (fillLines isect2D f.lowB f.upB f.bound.arena f.bound.obstacle 0 p.lines f.table).bind fun t =>
    (computeFreeSegment L.sort L.dmin L.dmax t p.numLineY).bind fun rows =>
    .ok ({ f with table := t }, ⟨p.lines, rows⟩)

/-- First two coordinates of a configuration, `v[0]`, `v[1]`. -/
noncomputable def planar (v : Vec) : Res (Pt ℝ) :=
  (Res.idx v 0).bind fun x => (Res.idx v 1).bind fun y => .ok (x, y)

/-- `HRM2D::isSameSliceTransitionFree`, HRM2D.cpp:215-232, for configurations. -/
noncomputable def sameFree2 (L : Libs2) (obstacles : List (List (Pt ℝ))) (v1 v2 : Vec) : Res Bool :=
  (planar v1).bind fun a => (planar v2).bind fun b => .ok (sameSliceFree2D L.qr obstacles a b)

/-- The boundary part of `constructOneSlice`, HRM2D.cpp:22-33. A heading that is not a number is not modelled
(`.ub`). -/
noncomputable def Planner2.placeSlice (P : Planner2) (i : ℕ) : Res Planner2 :=
  (Res.at' P.headings i).bind fun h =>
  match h with
  | none => .ub
  | some h =>
    (setTransform2 P.robot [0, 0, h]).bind fun T =>
    if P.isRefine then
      (Res.at' P.sliceBoundAll i).bind fun b => .ok { P with robot := T, sliceBound := b }
    else
      (cspaceBoundary P.fs.robot P.arena P.obs).bind fun b =>
      .ok { P with robot := T, fs := { P.fs with bound := b }, sliceBound := b,
                   sliceBoundAll := P.sliceBoundAll ++ [b] }

/-- `HRM2D::constructOneSlice`, HRM2D.cpp:20-42, and the bookkeeping HighwayRoadMap-inl.h:100-102. -/
noncomputable def Planner2.constructOneSlice (L : Libs2) (P : Planner2) (i : ℕ) : Res Planner2 :=
  (P.placeSlice i).bind fun P =>
  (P.fs.sweep L P.par).bind fun s =>
  (constructSlice2D (sameFree2 L P.sliceBound.obstacle) P.robot.base.ang s.2 P.graph).bind fun r =>
  .ok { P with fs := s.1, graph := r.1, vertexIdx := P.vertexIdx ++ [r.2] }

/-- `HRM2D::computeTFE`, HRM2D.cpp:352-373: one ellipse per body (`none` = not a number). -/
noncomputable def computeTFE2 (L : Libs2) (numPoint : ℕ) (T : Tree2) (thA thB : ℝ) :
    Res (List (Option SuperEllipse)) :=
  (List.range T.numLinks).foldlM (fun acc i =>
    (Res.at' T.tf i).bind fun t => (Res.at' T.link i).bind fun l =>
    .ok (acc ++ [getTFE2D L.svd ![l.a, l.b] (matAngle (rot2 thA * t.rot)) (matAngle (rot2 thB * t.rot)) numPoint
      l.num]))
    [getTFE2D L.svd ![T.base.a, T.base.b] thA thB numPoint T.base.num]

/-- One entry of `bridgeSliceBound_`, HRM2D.cpp:202-212: the C-obstacles of the ellipse at the origin. -/
noncomputable def bridgeBound (obs : List SuperEllipse) (E : SuperEllipse) : List (List (Pt ℝ)) :=
  obs.map fun o => toPts (o.minkSum2D { E with px := 0, py := 0 } 1)

/-- `HRM2D::bridgeSlice`, HRM2D.cpp:199-213. An ellipse that is not a number is not modelled (`.ub`). -/
noncomputable def bridgeSlice2 (obs : List SuperEllipse) (tfe : List (Option SuperEllipse)) :
    Res (List (List (List (Pt ℝ)))) :=
  tfe.foldlM (fun acc e => match e with
    | some E => .ok (acc ++ [bridgeBound obs E])
    | none => .ub) []

/-- Interpolated configuration, HRM2D.cpp:239-243: `v2[j]` is unchecked. -/
noncomputable def multiStepConf (dt : ℝ) (i : ℕ) (v1 v2 : Vec) : Res Vec :=
  (List.range v1.length).foldlM (fun acc j =>
    (Res.idx v1 j).bind fun a => (Res.idx v2 j).bind fun b => .ok (acc ++ [(1 - i * dt) * a + i * dt * b])) []

/-- The loop over the links, HRM2D.cpp:256-260, for the links `js`. -/
noncomputable def linksFree2 (bridge : List (List (List (Pt ℝ)))) (T : Tree2) : List ℕ → Res Bool
  | [] => .ok true
  | j :: js =>
    (Res.idx T.link j).bind fun l => (Res.at' bridge (j + 1)).bind fun b =>
    (isPtInCFree2D (l.px, l.py) b).bind fun ok => if ok then linksFree2 bridge T js else .ok false

/-- One step of the check, HRM2D.cpp:246-260, for a robot already moved to the step's pose. -/
noncomputable def poseFree2 (bridge : List (List (List (Pt ℝ)))) (T : Tree2) : Res Bool :=
  (Res.at' bridge 0).bind fun b => (isPtInCFree2D (T.base.px, T.base.py) b).bind fun ok =>
  if ok then linksFree2 bridge T (List.range T.numLinks) else .ok false

/-- The loop HRM2D.cpp:237-262 over the steps `is`; returns the verdict and the robot as it was left. -/
noncomputable def multiFreeLoop (bridge : List (List (List (Pt ℝ)))) (dt : ℝ) (v1 v2 : Vec) :
    List ℕ → Tree2 → Res (Bool × Tree2)
  | [], T => .ok (true, T)
  | i :: is, T =>
    (multiStepConf dt i v1 v2).bind fun v => (setTransform2 T v).bind fun T' =>
    (poseFree2 bridge T').bind fun ok =>
    if ok then multiFreeLoop bridge dt v1 v2 is T' else .ok (false, T')

/-- `HRM2D::isMultiSliceTransitionFree`, HRM2D.cpp:235-265. For `numPoint = 1` the only step is `0 * ∞` = NaN
(not modelled: `.ub`). -/
noncomputable def multiFree2 (numPoint : ℕ) (bridge : List (List (List (Pt ℝ)))) (T : Tree2) (v1 v2 : Vec) :
    Res (Bool × Tree2) :=
  if numPoint = 1 then .ub
  else multiFreeLoop bridge (1 / ((numPoint : ℝ) - 1)) v1 v2 (List.range numPoint) T

/-- The check used between the slices `i` and `j`, HRM2D.cpp:124-126 and 142: TFE, bridge slice and
interpolation. Simplification: TFE and bridge slice are recomputed per check, and the check starts from the robot
at the beginning of `connectMultiSlice`; neither changes the result (`multiFree2_pose_irrelevant`). `headings_[i]`
is unchecked. -/
noncomputable def Planner2.freeMulti (L : Libs2) (P : Planner2) (i j : ℕ) (v1 v2 : Vec) : Res Bool :=
  (Res.idx P.headings i).bind fun hi => (Res.idx P.headings j).bind fun hj =>
  match hi, hj with
  | some a, some b =>
    (computeTFE2 L P.par.numPoint P.robot a b).bind fun tfe => (bridgeSlice2 P.obs tfe).bind fun bridge =>
    (multiFree2 P.par.numPoint bridge P.robot v1 v2).bind fun r => .ok r.1
  | _, _ => .ub

/-- `distAdjacency * |limits[3] - limits[2]| / numLineY`, HRM2D.cpp:134-138. -/
noncomputable def Param2.gapY (p : Param2) : ℝ := 2 * |p.yHi - p.yLo| / p.numLineY

/-- `HRM2D::connectMultiSlice`, HRM2D.cpp:91-156. Simplification: the robot is left where it was. -/
noncomputable def Planner2.connectMultiSlice (L : Libs2) (P : Planner2) : Res Planner2 :=
  (connectMultiSlice2D (P.freeMulti L) P.par.gapY P.par.numSlice P.vertexIdx P.graph).bind fun g =>
  .ok { P with graph := g }

/-- `buildRoadmap`, HighwayRoadMap-inl.h:91-107. -/
noncomputable def Planner2.build (L : Libs2) (P : Planner2) : Res Planner2 :=
  ((List.range P.par.numSlice).foldlM (fun (P : Planner2) i => P.constructOneSlice L i) P.sampleOrientations).bind fun P =>
  P.connectMultiSlice L

/-- The headings as numbers; a NaN heading is not modelled (`.ub`). -/
noncomputable def realHeadings (l : List (Option ℝ)) : Res (List ℝ) :=
  l.foldlM (fun acc h => match h with
    | some h => .ok (acc ++ [h])
    | none => .ub) []

/-- `search`, HighwayRoadMap-inl.h:109-175 with HRM2D.cpp:284-342. -/
noncomputable def Planner2.search (L : Libs2) (P : Planner2) : Res Planner2 :=
  (realHeadings P.headings).bind fun hs =>
  let near (q : Vec) := nearest2D hs P.graph.vertex q P.par.numSearchNeighbor P.par.searchRadius
    (P.par.searchRadius * (P.par.xHi - P.par.xLo) / P.par.numLineY)
  (near P.start).bind fun s => (near P.goal).bind fun t =>
  (Hrm.search P.graph L.pick s t P.res).bind fun r => .ok { P with res := r }

/-- HighwayRoadMap-inl.h:180-186. -/
def Planner2.beginRefine (P : Planner2) : Planner2 :=
  { P with isRefine := true, vertexIdxAll := P.vertexIdxAll ++ [P.vertexIdx], vertexIdx := [],
           par := { P.par with numLineY := 2 * P.par.numLineY } }

/-- HighwayRoadMap-inl.h:191-197: refined slice and its connection with the existing one. -/
noncomputable def Planner2.refineSlice (L : Libs2) (i : ℕ) (P : Planner2) : Res Planner2 :=
  (P.constructOneSlice L i).bind fun P =>
  (connectExistSlice (near2D P.par.gapY) (sameFree2 L P.sliceBound.obstacle) P.vertexIdx P.vertexIdxAll i
    P.graph).bind fun g => .ok { P with graph := g }

/-- The steps of `plan` for the planar planner. -/
noncomputable def planner2Ops (L : Libs2) : PlanOps Planner2 where
  build := Planner2.build L
  search := Planner2.search L
  refineSlice := Planner2.refineSlice L
  beginRefine := Planner2.beginRefine
  endRefine P := { P with isRefine := false }
  solved P := P.res.solved
  numSlice P := P.par.numSlice
  path P := getSolutionPath P.graph P.start P.goal P.res.pathId

/-- `HRM2D::plan` on a planner that has made `tick` clock readings so far. -/
noncomputable def Planner2.plan (L : Libs2) (clock : ℕ → ℝ) (timeLim : ℝ) (fuel : ℕ) (r : PlanRep Planner2) :
    Option (Res (PlanRep Planner2)) :=
  Hrm.plan (planner2Ops L) clock timeLim fuel r

/-- A report before the first call. -/
noncomputable def freshRep (P : Planner2) : PlanRep Planner2 := ⟨P, 0, 0, 0, 0, [], []⟩

end Hrm
