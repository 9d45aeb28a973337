import Verif.Model.Planner2D
import Verif.Model.Mesh
import Verif.Model.Nearest

/-!
# Model of the spatial planner objects

src/planners/HRM3D.cpp, src/planners/ProbHRM3D.cpp, include/hrm/planners/HRM3DAblation-inl.h,
include/hrm/planners/HighwayRoadMap-inl.h:45-59, 91-107, 109-215, include/hrm/datastructure/FreeSpace-inl.h:11-61,
src/datastructure/FreeSpace3D.cpp, src/geometry/SuperQuadrics.cpp:40-43 (orientation samples).

One state `Planner3` serves `HRM3D`, `ProbHRM3D` and `HRM3DAblation<...>`; a `Variant` says which class it is. As in
`Model/Planner2D.lean` there are *two* robots: the planner's own and the copy inside the free-space object.
Coordinates are real numbers; where a NaN would arise (one sweep line, no interpolation point) the outcome is written
`.ub` ("not modelled").
-/

namespace Hrm

open Matrix Classical

/-- The library routines and random sources: `std::sort`, the largest double, the singular value decomposition, the
priority queue of boost's A*, Eigen's `angularDistance`, the bits an uninitialised quaternion happens to contain
(`none`: reading it is undefined behaviour), the stream of `Quaterniond::UnitRandom()` and of joint angles
(`ompl::RNG::uniformReal`). -/
structure Libs3 where
  sort : StdSort ℝ
  dmin : ℝ
  dmax : ℝ
  svd : SvdFun 3
  pick : ℕ → (ℕ → ℝ) → List ℕ → ℕ
  ang : Quat → Quat → ℝ
  junk : Option Quat
  rand : ℕ → Quat
  randJoint : ℕ → ℕ → ℝ

/-- The kinematic tree of a URDF file (`ParseURDF`): number of joints and pose of body `i + 1` in the base frame. -/
structure Arm where
  nJ : ℕ
  fk : Vec → ℕ → Pose 3

/-- Which class: `arm = none` is `HRM3D`, `some A` is `ProbHRM3D`; `fcl = some hit` is `HRM3DAblation` of it, with
FCL's collision test `hit` between a robot body and an obstacle. -/
structure Variant where
  arm : Option Arm
  fcl : Option (SuperQuadrics → SuperQuadrics → Bool)

/-- `PlannerParameter`, PlanningRequest.h:10-37; `boundaryLimits` = `{xLo, xHi, yLo, yHi, zLo, zHi}`. -/
structure Param3 where
  numSlice : ℕ
  numLineX : ℕ
  numLineY : ℕ
  numPoint : ℕ
  numSearchNeighbor : ℕ
  searchRadius : ℝ
  xLo : ℝ
  xHi : ℝ
  yLo : ℝ
  yHi : ℝ
  zLo : ℝ
  zHi : ℝ

/-- `BoundaryInfo`: boundary surfaces. -/
structure Bound3 where
  arena : List (List (Fin 3 → ℝ))
  obstacle : List (List (Fin 3 → ℝ))

/-- `BoundaryMesh`. -/
structure BoundMesh where
  arena : List Mesh
  obstacle : List Mesh

/-- A column of a 3xN matrix as a point. -/
def toV3 (p : Fin 3 → ℝ) : V3 := ⟨p 0, p 1, p 2⟩

/-- `FreeSpace3D`: FreeSpace.h:95-130, FreeSpace3D.h. -/
structure Fs3 where
  robot : Tree3
  mesh : BoundMesh
  table : Table ℝ
  lowB : ℝ
  upB : ℝ

/-- The boundaries for one list of objects, FreeSpace-inl.h:47-60. -/
noncomputable def bodyBoundaries3 (T : Tree3) (objs : List SuperQuadrics) (k : ℤ) : Res (List (List (Fin 3 → ℝ))) :=
  objs.foldlM (fun acc o => (T.minkSum o k).bind fun bs => .ok (acc ++ bs)) []

/-- `computeCSpaceBoundary`, FreeSpace-inl.h:41-61. -/
noncomputable def cspaceBoundary3 (T : Tree3) (arena obs : List SuperQuadrics) : Res Bound3 :=
  (bodyBoundaries3 T arena (-1)).bind fun a => (bodyBoundaries3 T obs 1).bind fun o => .ok ⟨a, o⟩

/-- The loops of `computeCSpaceBoundaryMesh`, FreeSpace3D.cpp:19-26: every surface is meshed with the resolution of
the *first* object (`.at(0)`). -/
noncomputable def boundMeshes (objs : List SuperQuadrics) (bd : List (List (Fin 3 → ℝ))) : Res (List Mesh) :=
  bd.foldlM (fun acc b => (Res.at' objs 0).bind fun o => .ok (acc ++ [gridMesh (b.map toV3) o.num])) []

/-- `computeCSpaceBoundaryMesh`, FreeSpace3D.cpp:14-27. -/
noncomputable def cspaceMesh (arena obs : List SuperQuadrics) (b : Bound3) : Res BoundMesh :=
  (boundMeshes arena b.arena).bind fun a => (boundMeshes obs b.obstacle).bind fun o => .ok ⟨a, o⟩

/-- The members of the planner objects. `quatSamples` is `robot_.getBase().getQuatSamples()` (no planner function
changes it). `drawn` counts the random draws. -/
structure Planner3 where
  robot : Tree3
  quatSamples : List Quat
  arena : List SuperQuadrics
  obs : List SuperQuadrics
  start : Vec
  goal : Vec
  par : Param3
  rigid : Bool
  fs : Fs3
  q : List Quat
  v : List Vec
  isRefine : Bool
  sliceBound : Bound3
  sliceBoundAll : List Bound3
  sliceMesh : BoundMesh
  sliceMeshAll : List BoundMesh
  graph : Graph
  vertexIdx : List VertexIdx
  vertexIdxAll : List (List VertexIdx)
  res : SearchRes
  drawn : ℕ

/-- `FreeSpaceComputator::setup`, FreeSpace-inl.h:19-39. -/
def Fs3.setup (f : Fs3) (numArena numObs numLine : ℕ) (lowB upB : ℝ) : Fs3 :=
  { f with lowB := lowB, upB := upB,
           table := setupTable f.table numLine ((1 + f.robot.numLinks) * numArena) ((1 + f.robot.numLinks) * numObs)
             lowB upB }

/-- The constructors HRM3D.cpp:10-20 and HighwayRoadMap-inl.h:49-58: the free-space computer gets a *copy* of the
robot (FreeSpace.h:106) and a table for `numLineY` lines. -/
def Planner3.new (robot : Tree3) (quatSamples : List Quat) (arena obs : List SuperQuadrics) (start goal : Vec)
    (par : Param3) (rigid : Bool) : Planner3 :=
  { robot := robot, quatSamples := quatSamples, arena := arena, obs := obs, start := start, goal := goal, par := par,
    rigid := rigid,
    fs := Fs3.setup ⟨robot, ⟨[], []⟩, emptyTable ℝ, 0, 0⟩ arena.length obs.length par.numLineY par.zLo par.zHi,
    q := [], v := [], isRefine := false, sliceBound := ⟨[], []⟩, sliceBoundAll := [], sliceMesh := ⟨[], []⟩,
    sliceMeshAll := [], graph := .empty, vertexIdx := [], vertexIdxAll := [], res := ⟨false, [], some 0⟩, drawn := 0 }

/-- `jointConfig(i) = V[7 + i]` (unchecked), ProbHRM3D.cpp:207-210. -/
noncomputable def readJoints (n : ℕ) (v : Vec) : Res Vec :=
  (List.range n).foldlM (fun acc i => (Res.idx v (7 + i)).bind fun a => .ok (acc ++ [a])) []

/-- `HRM3D::setTransform`, HRM3D.cpp:510-518, and `ProbHRM3D::setTransform`, ProbHRM3D.cpp:198-213. -/
noncomputable def setTransform3 (arm : Option Arm) (T : Tree3) (v : Vec) : Res Tree3 :=
  (quatOf v).bind fun q => (Res.idx v 0).bind fun x => (Res.idx v 1).bind fun y => (Res.idx v 2).bind fun z =>
  match arm with
  | none => T.robotTF ⟨quatRot q, ![x, y, z]⟩
  | some A => (readJoints A.nJ v).bind fun js => T.robotTFWith ⟨quatRot q, ![x, y, z]⟩ (A.fk js)

/-- `HRM3D::sampleSO3`, HRM3D.cpp:427-441. -/
noncomputable def Planner3.sampleSO3 (L : Libs3) (P : Planner3) : Planner3 :=
  if P.quatSamples = [] then
    { P with q := (List.range P.par.numSlice).map fun i => L.rand (P.drawn + i), drawn := P.drawn + P.par.numSlice }
  else { P with q := P.quatSamples, par := { P.par with numSlice := P.quatSamples.length } }

/-- `start_.at(7 + i)` for all joints, ProbHRM3D.cpp:87-94. -/
noncomputable def jointsAt (n : ℕ) (v : Vec) : Res Vec :=
  (List.range n).foldlM (fun acc i => (Res.at' v (7 + i)).bind fun a => .ok (acc ++ [a])) []

/-- `Quaterniond(v.at(3), ..., v.at(6))`, ProbHRM3D.cpp:73-76. -/
noncomputable def quatAt (v : Vec) : Res Quat :=
  (Res.at' v 3).bind fun w => (Res.at' v 4).bind fun x => (Res.at' v 5).bind fun y => (Res.at' v 6).bind fun z =>
  .ok (w, x, y, z)

/-- `ProbHRM3D::sampleOrientations`, ProbHRM3D.cpp:67-102: one more slice; the first two are start and goal. -/
noncomputable def Planner3.sampleProb (L : Libs3) (A : Arm) (P : Planner3) : Res Planner3 :=
  let s : Res (Quat × Vec × ℕ) :=
    if P.par.numSlice = 0 then
      (quatAt P.start).bind fun q => (jointsAt A.nJ P.start).bind fun js => .ok (q, js, P.drawn)
    else if P.par.numSlice = 1 then
      (quatAt P.goal).bind fun q => (jointsAt A.nJ P.goal).bind fun js => .ok (q, js, P.drawn)
    else .ok (L.rand P.drawn, (List.range A.nJ).map (L.randJoint P.drawn), P.drawn + 1)
  s.bind fun (s : Quat × Vec × ℕ) =>
  .ok { P with q := P.q ++ [s.1], drawn := s.2.2,
               v := P.v ++ [[0, 0, 0, s.1.1, s.1.2.1, s.1.2.2.1, s.1.2.2.2] ++ s.2.1] }

/-- The x- and y-coordinates of the sweep lines, HRM3D.cpp:64-81. For one line the step is infinite and the
coordinate NaN: not representable, see `sweep`. -/
noncomputable def Param3.linesX (p : Param3) : List ℝ :=
  (List.range p.numLineX).map fun (i : ℕ) => p.xLo + (i : ℝ) * ((p.xHi - p.xLo) / ((p.numLineX : ℝ) - 1))

noncomputable def Param3.linesY (p : Param3) : List ℝ :=
  (List.range p.numLineY).map fun (i : ℕ) => p.yLo + (i : ℝ) * ((p.yHi - p.yLo) / ((p.numLineY : ℝ) - 1))

section fill
variable {K : Type*} [LinearOrder K] {Line Shape : Type*}

/-- Inner loop over the arena boundaries, FreeSpace3D.cpp:36-51, with an intersection routine that may fail. -/
def fillArenaR (isect : Line → Shape → Res (List K)) (lowB upB : K) (y : Line) (i : ℕ) :
    ℕ → List Shape → Table K → Res (Table K)
  | _, [], t => .ok t
  | j, sh :: shs, t =>
    (isect y sh).bind fun pts => (arenaEntry lowB upB pts).bind fun v =>
    (setAt2 t.arenaLow i j (some v.1)).bind fun lo => (setAt2 t.arenaUpp i j (some v.2)).bind fun up =>
    fillArenaR isect lowB upB y i (j + 1) shs { t with arenaLow := lo, arenaUpp := up }

/-- Inner loop over the obstacle boundaries, FreeSpace3D.cpp:53-66. -/
def fillObsR (isect : Line → Shape → Res (List K)) (y : Line) (i : ℕ) :
    ℕ → List Shape → Table K → Res (Table K)
  | _, [], t => .ok t
  | j, sh :: shs, t =>
    (isect y sh).bind fun pts => (obsEntry pts).bind fun v =>
    (setAt2 t.obsLow i j v.1).bind fun lo => (setAt2 t.obsUpp i j v.2).bind fun up =>
    fillObsR isect y i (j + 1) shs { t with obsLow := lo, obsUpp := up }

/-- `FreeSpace3D::computeIntersectionInterval`, FreeSpace3D.cpp:29-68. -/
def fillLinesR (isect : Line → Shape → Res (List K)) (lowB upB : K) (arena obs : List Shape) :
    ℕ → List Line → Table K → Res (Table K)
  | _, [], t => .ok t
  | i, y :: ys, t =>
    (fillArenaR isect lowB upB y i 0 arena t).bind fun t => (fillObsR isect y i 0 obs t).bind fun t =>
    fillLinesR isect lowB upB arena obs (i + 1) ys t

end fill

/-- The z-coordinates where the vertical line through `(x, y)` meets a mesh, FreeSpace3D.cpp:33-38. -/
noncomputable def isect3 (l : ℝ × ℝ) (m : Mesh) : Res (List ℝ) :=
  (vertLineMesh triTol (vertical l.1 l.2 0) m).bind fun pts => .ok (pts.map V3.z)

/-- One plane of `sweepLineProcess`, HRM3D.cpp:77-90: `tLine.at(0).back()` is this plane's x. The loop of
`computeIntersectionInterval` runs over the boundaries, of which there are as many as meshes. -/
noncomputable def Fs3.sweepPlane (L : Libs3) (ys : List ℝ) (f : Fs3) (x : ℝ) : Res (Fs3 × FreeSeg) :=
  (fillLinesR isect3 f.lowB f.upB f.mesh.arena f.mesh.obstacle 0 (ys.map fun y => (x, y)) f.table).bind fun t =>
  (computeFreeSegment L.sort L.dmin L.dmax t ys.length).bind fun rows =>
  .ok ({ f with table := t }, ⟨ys, rows⟩)

/-- `sweepLineProcess`, HRM3D.cpp:63-91. One sweep line in x or y (NaN coordinate) is not modelled: `.ub`. -/
noncomputable def Fs3.sweep (L : Libs3) (p : Param3) (f : Fs3) : Res (Fs3 × List (ℝ × FreeSeg)) :=
  if p.numLineX = 1 ∨ p.numLineY = 1 then .ub
  else p.linesX.foldlM (fun (s : Fs3 × List (ℝ × FreeSeg)) x =>
    (s.1.sweepPlane L p.linesY x).bind fun r => .ok (r.1, s.2 ++ [(x, r.2)])) (f, [])

/-- `Point3D t{v[0], v[1], v[2]}`. -/
noncomputable def spatial (v : Vec) : Res V3 :=
  (Res.idx v 0).bind fun x => (Res.idx v 1).bind fun y => (Res.idx v 2).bind fun z => .ok ⟨x, y, z⟩

/-- `HRM3D::isSameSliceTransitionFree`, HRM3D.cpp:319-365, for configurations. -/
noncomputable def sameFree3 (obstacles : List Mesh) (v1 v2 : Vec) : Res Bool :=
  (spatial v1).bind fun a => (spatial v2).bind fun b => sameSliceFree3D triTol axisTol obstacles a b

/-- The configuration of slice `i`, HRM3D.cpp:26-31. -/
noncomputable def Planner3.sliceConf (P : Planner3) (i : ℕ) : Res Vec :=
  if P.rigid then (Res.at' P.q i).bind fun q => .ok [0, 0, 0, q.1, q.2.1, q.2.2.1, q.2.2.2] else Res.at' P.v i

/-- The boundary part of `constructOneSlice`, HRM3D.cpp:24-47. -/
noncomputable def Planner3.placeSlice (V : Variant) (P : Planner3) (i : ℕ) : Res Planner3 :=
  (P.sliceConf i).bind fun c =>
  (setTransform3 V.arm P.robot c).bind fun T =>
  if P.isRefine then
    (Res.at' P.sliceBoundAll i).bind fun b => (Res.at' P.sliceMeshAll i).bind fun m =>
    .ok { P with robot := T, sliceBound := b, sliceMesh := m }
  else
    (cspaceBoundary3 P.fs.robot P.arena P.obs).bind fun b =>
    (cspaceMesh P.arena P.obs b).bind fun m =>
    .ok { P with robot := T, fs := { P.fs with mesh := m }, sliceBound := b,
                 sliceBoundAll := P.sliceBoundAll ++ [b], sliceMesh := m, sliceMeshAll := P.sliceMeshAll ++ [m] }

/-- The joint coordinates of the vertices of a slice: none for `HRM3D` (HRM3D.cpp:102-107), those of `v_.back()` for
`ProbHRM3D` (ProbHRM3D.cpp:168, 183-186). -/
noncomputable def Planner3.sliceJoints (V : Variant) (P : Planner3) : Res Vec :=
  match V.arm with
  | none => .ok []
  | some _ => match P.v.getLast? with
    | none => .ub
    | some w => .ok (w.drop 7)

/-- A vertex, HRM3D.cpp:102-107 and ProbHRM3D.cpp:175-189. -/
noncomputable def mkVertex (q : Quat) (js : Vec) (x y z : ℝ) : Vec := [x, y, z, q.1, q.2.1, q.2.2.1, q.2.2.2] ++ js

/-- `constructOneSlice`, HRM3D.cpp:24-54, and the bookkeeping HighwayRoadMap-inl.h:100-102, ProbHRM3D.cpp:34-35. -/
noncomputable def Planner3.constructOneSlice (L : Libs3) (V : Variant) (P : Planner3) (i : ℕ) : Res Planner3 :=
  (P.placeSlice V i).bind fun P =>
  (P.fs.sweep L P.par).bind fun s =>
  (P.sliceJoints V).bind fun js =>
  (constructSlice3D (sameFree3 P.sliceMesh.obstacle) (mkVertex P.robot.base.quat js) s.2 P.graph).bind fun r =>
  .ok { P with fs := s.1, graph := r.1, vertexIdx := P.vertexIdx ++ [r.2] }

/-- `HRM3D::computeTFE`, HRM3D.cpp:521-539: one ellipsoid per body. -/
noncomputable def computeTFE3 (L : Libs3) (numPoint : ℕ) (T : Tree3) (q1 q2 : Quat) : Res (List SuperQuadrics) :=
  (getTFE3D L.svd ![T.base.a, T.base.b, T.base.c] q1 q2 numPoint T.base.num).bind fun E =>
  (List.range T.numLinks).foldlM (fun acc i =>
    ((Res.at' T.tf i).bind fun t => (Res.at' T.link i).bind fun l =>
      getTFE3D L.svd ![l.a, l.b, l.c] (matQuat (quatRot q1 * t.rot)) (matQuat (quatRot q2 * t.rot)) numPoint l.num).bind
    fun E => .ok (acc ++ [E])) [E]

/-- One entry of `bridgeSliceBound_`, HRM3D.cpp:304-316: the C-obstacles of the ellipsoid at the origin. -/
noncomputable def bridgeBound3 (obs : List SuperQuadrics) (E : SuperQuadrics) : List Mesh :=
  obs.map fun o => gridMesh ((o.minkSum3D { E with pos := 0 } 1).map toV3) o.num

/-- `HRM3D::bridgeSlice`, HRM3D.cpp:301-317. -/
noncomputable def bridgeSlice3 (obs tfe : List SuperQuadrics) : List (List Mesh) := tfe.map (bridgeBound3 obs)

/-- The bodies' boxes of `ProbHRM3D::computeTFE` for one step, ProbHRM3D.cpp:234-240. -/
noncomputable def mvceStep (svd : SvdFun 3) (n : ℕ) (aux mvce : List SuperQuadrics) : Res (List SuperQuadrics) :=
  (List.range n).foldlM (fun (mv : List SuperQuadrics) i =>
    (Res.at' mv i).bind fun m => (Res.at' aux i).bind fun a =>
    .ok (mv.set i (getMVCE3D svd ![m.a, m.b, m.c] ![a.a, a.b, a.c] m.quat a.quat a.num))) mvce

/-- A step of an interpolated motion as numbers; NaN is not modelled (`.ub`). -/
def numRow (row : List (Option ℝ)) : Res Vec :=
  row.foldlM (fun acc x => match x with
    | some x => .ok (acc ++ [x])
    | none => .ub) []

/-- `ProbHRM3D::computeTFE`, ProbHRM3D.cpp:216-246. Simplification: the robot is left where it was. -/
noncomputable def computeTFEProb (L : Libs3) (A : Arm) (numPoint : ℕ) (T : Tree3) (v1 v2 : Vec) :
    Res (List SuperQuadrics) :=
  (interpolateCompound v1 v2 numPoint).bind fun rows =>
  (setTransform3 (some A) T v1).bind fun T0 =>
  rows.foldlM (fun (mv : List SuperQuadrics) row =>
    (numRow row).bind fun v => (setTransform3 (some A) T v).bind fun T' =>
    mvceStep L.svd (T.numLinks + 1) T'.bodyShapes mv) T0.bodyShapes

/-- The loop over the links, HRM3D.cpp:383-388, for the links `js`. -/
noncomputable def linksFree3 (bridge : List (List Mesh)) (T : Tree3) : List ℕ → Res Bool
  | [] => .ok true
  | j :: js =>
    (Res.idx T.link j).bind fun l => (Res.at' bridge (j + 1)).bind fun b =>
    (isPtInCFree3D triTol (toV3 l.pos) b).bind fun ok => if ok then linksFree3 bridge T js else .ok false

/-- One step of the check, HRM3D.cpp:375-388, for a robot already moved to the step's pose. -/
noncomputable def poseFree3 (bridge : List (List Mesh)) (T : Tree3) : Res Bool :=
  (Res.at' bridge 0).bind fun b => (isPtInCFree3D triTol (toV3 T.base.pos) b).bind fun ok =>
  if ok then linksFree3 bridge T (List.range T.numLinks) else .ok false

/-- One obstacle of the ablation check, HRM3DAblation-inl.h:48-60: `.ok true` = some body collides. -/
noncomputable def fclHit (hit : SuperQuadrics → SuperQuadrics → Bool) (T : Tree3) (o : SuperQuadrics) : Res Bool :=
  if hit T.base o then .ok true
  else (noneOf (fun j => (Res.at' T.link j).bind fun l => .ok (hit l o)) (List.range T.numLinks)).bind fun b => .ok (!b)

/-- One step of the check of either class. -/
noncomputable def stepFree3 (V : Variant) (obs : List SuperQuadrics) (bridge : List (List Mesh)) (T : Tree3) :
    Res Bool :=
  match V.fcl with
  | none => poseFree3 bridge T
  | some hit => noneOf (fclHit hit T) obs

/-- The loop HRM3D.cpp:373-389 and HRM3DAblation-inl.h:43-62 over the interpolated steps. -/
noncomputable def multiLoop3 (V : Variant) (obs : List SuperQuadrics) (bridge : List (List Mesh)) :
    List (List (Option ℝ)) → Tree3 → Res Bool
  | [], _ => .ok true
  | row :: rows, T =>
    (numRow row).bind fun v => (setTransform3 V.arm T v).bind fun T' =>
    (stepFree3 V obs bridge T').bind fun ok => if ok then multiLoop3 V obs bridge rows T' else .ok false

/-- `isMultiSliceTransitionFree`, HRM3D.cpp:367-392 and HRM3DAblation-inl.h:36-65. -/
noncomputable def multiFree3 (V : Variant) (obs : List SuperQuadrics) (numPoint : ℕ) (bridge : List (List Mesh))
    (T : Tree3) (v1 v2 : Vec) : Res Bool :=
  (interpolateCompound v1 v2 numPoint).bind fun rows => multiLoop3 V obs bridge rows T

/-- The check used between slice `i` and slice `j`, HRM3D.cpp:185-187 and 208: ellipsoids, bridge slice (both empty
for the ablation, HRM3DAblation-inl.h:67-77) and interpolation. Simplification as in `Planner2.freeMulti`: they are
recomputed per check, from the robot at the beginning of `connectMultiSlice`. -/
noncomputable def Planner3.freeMulti (L : Libs3) (V : Variant) (P : Planner3) (i j : ℕ) (v1 v2 : Vec) : Res Bool :=
  (Res.at' P.q i).bind fun qi => (Res.at' P.q j).bind fun qj =>
  (match V.fcl with
    | none => (computeTFE3 L P.par.numPoint P.robot qi qj).bind fun tfe => .ok (bridgeSlice3 P.obs tfe)
    | some _ => .ok []).bind fun bridge =>
  multiFree3 V P.obs P.par.numPoint bridge P.robot v1 v2

/-- `q_.at(i).angularDistance(q_.at(j))`, HRM3D.cpp:167; missing entries are excluded by the test in
`Planner3.connectMultiSlice`. -/
noncomputable def qDist (ang : Quat → Quat → ℝ) (q : List Quat) (i j : ℕ) : ℝ :=
  match q[i]?, q[j]? with
  | some a, some b => ang a b
  | _, _ => 0

/-- `2 * (limits[1] - limits[0]) / numLineX`, HRM3D.cpp:197-200. -/
noncomputable def Param3.gapX (p : Param3) : ℝ := 2 * (p.xHi - p.xLo) / p.numLineX

/-- `2 * (limits[3] - limits[2]) / numLineY`, HRM3D.cpp:201-205. -/
noncomputable def Param3.gapY (p : Param3) : ℝ := 2 * (p.yHi - p.yLo) / p.numLineY

/-- `HRM3D::connectMultiSlice`, HRM3D.cpp:158-224: `q_.at(i)` throws when there is no orientation `i` (the `j` of
the inner loop are smaller). Simplification: the robot is left where it was. -/
noncomputable def Planner3.connectMultiSlice (L : Libs3) (V : Variant) (P : Planner3) : Res Planner3 :=
  if P.vertexIdx.length = 1 then .ok P
  else
    ((List.range P.vertexIdx.length).foldlM (fun g i =>
      if i < P.q.length then
        multiStep3D (qDist L.ang P.q) (P.freeMulti L V) P.par.gapX P.par.gapY P.par.numSlice P.vertexIdx g i
      else .throw) P.graph).bind fun g => .ok { P with graph := g }

/-- `buildRoadmap` of `HRM3D`, HighwayRoadMap-inl.h:91-107. -/
noncomputable def Planner3.build (L : Libs3) (V : Variant) (P : Planner3) : Res Planner3 :=
  let P := P.sampleSO3 L
  ((List.range P.par.numSlice).foldlM (fun (P : Planner3) i => P.constructOneSlice L V i) P).bind fun P =>
  P.connectMultiSlice L V

/-- `getNearestNeighborsOnGraph`, HRM3D.cpp:443-508, where reading the uninitialised `minQuat` gives `junk` (if
any). -/
noncomputable def nearest3DJ (ang : Quat → Quat → ℝ) (junk : Option Quat) (qs : List Quat) (verts : List Vec) (q : Vec)
    (k : ℕ) (radius gapX gapY : ℝ) : Res (List ℕ) :=
  (quatOf q).bind fun qq => (closestQuat ang qs qq).bind fun m =>
  match m.2.or junk with
  | none => .ub
  | some mq =>
    (collectK (fun r => ang mq r < radius) k [] qs).foldlM (nearestStep3D ang verts q gapX gapY) []

/-- `search`, HighwayRoadMap-inl.h:109-175 with HRM3D.cpp:443-508. -/
noncomputable def Planner3.search (L : Libs3) (P : Planner3) : Res Planner3 :=
  let near (q : Vec) := nearest3DJ L.ang L.junk P.q P.graph.vertex q P.par.numSearchNeighbor P.par.searchRadius
    (P.par.searchRadius * (P.par.xHi - P.par.xLo) / P.par.numLineX)
    (P.par.searchRadius * (P.par.yHi - P.par.yLo) / P.par.numLineY)
  (near P.start).bind fun s => (near P.goal).bind fun t =>
  (Hrm.search P.graph L.pick s t P.res).bind fun r => .ok { P with res := r }

/-- HighwayRoadMap-inl.h:180-186. -/
def Planner3.beginRefine (P : Planner3) : Planner3 :=
  { P with isRefine := true, vertexIdxAll := P.vertexIdxAll ++ [P.vertexIdx], vertexIdx := [],
           par := { P.par with numLineX := 2 * P.par.numLineX, numLineY := 2 * P.par.numLineY } }

/-- HighwayRoadMap-inl.h:191-197 with HRM3D.cpp:226-270: refined slice and its connection with the existing one. -/
noncomputable def Planner3.refineSlice (L : Libs3) (V : Variant) (i : ℕ) (P : Planner3) : Res Planner3 :=
  (P.constructOneSlice L V i).bind fun P =>
  (connectExistSlice (near3D (2 * |P.par.xHi - P.par.xLo| / P.par.numLineX)
      (2 * |P.par.yHi - P.par.yLo| / P.par.numLineY)) (sameFree3 P.sliceMesh.obstacle) P.vertexIdx P.vertexIdxAll i
    P.graph).bind fun g => .ok { P with graph := g }

/-- The steps of `plan` for `HRM3D` and its ablation. -/
noncomputable def planner3Ops (L : Libs3) (V : Variant) : PlanOps Planner3 where
  build := Planner3.build L V
  search := Planner3.search L
  refineSlice := Planner3.refineSlice L V
  beginRefine := Planner3.beginRefine
  endRefine P := { P with isRefine := false }
  solved P := P.res.solved
  numSlice P := P.par.numSlice
  path P := getSolutionPath P.graph P.start P.goal P.res.pathId

/-- `HRM3D::plan` (inherited, HighwayRoadMap-inl.h:64-89). -/
noncomputable def Planner3.plan (L : Libs3) (V : Variant) (clock : ℕ → ℝ) (timeLim : ℝ) (fuel : ℕ)
    (r : PlanRep Planner3) : Option (Res (PlanRep Planner3)) :=
  Hrm.plan (planner3Ops L V) clock timeLim fuel r

/-! ## `ProbHRM3D` -/

/-- The distances of ProbHRM3D.cpp:112-113. -/
noncomputable def probDists (v : List Vec) (back : Vec) (n : ℕ) : Res (List ℝ) :=
  (List.range n).foldlM (fun acc i =>
    ((Res.at' v i).bind fun w => vectorEuclidean back w).bind fun d => .ok (acc ++ [d])) []

/-- The check between the newest slice and slice `j`, ProbHRM3D.cpp:131-133 and 153. -/
noncomputable def Planner3.freeProb (L : Libs3) (V : Variant) (A : Arm) (P : Planner3) (back : Vec) (j : ℕ)
    (v1 v2 : Vec) : Res Bool :=
  (Res.at' P.v j).bind fun w => (computeTFEProb L A P.par.numPoint P.robot back w).bind fun tfe =>
  multiFree3 V P.obs P.par.numPoint (match V.fcl with | none => bridgeSlice3 P.obs tfe | some _ => []) P.robot v1 v2

/-- `ProbHRM3D::connectMultiSlice`, ProbHRM3D.cpp:105-162. -/
noncomputable def Planner3.connectProb (L : Libs3) (V : Variant) (A : Arm) (P : Planner3) : Res Planner3 :=
  match P.v.getLast? with
  | none => .ub
  | some back =>
    (probDists P.v back (P.par.numSlice - 1)).bind fun ds =>
    (probConnect (fun i => ds.getD i 0) (P.freeProb L V A back) P.par.gapX P.par.gapY P.par.numSlice P.vertexIdx
      P.graph).bind fun g => .ok { P with graph := g }

/-- ProbHRM3D.cpp:23-41. -/
noncomputable def Planner3.addSlice (L : Libs3) (V : Variant) (A : Arm) (P : Planner3) : Res Planner3 :=
  (P.sampleProb L A).bind fun P =>
  (P.constructOneSlice L V P.par.numSlice).bind fun P =>
  let P := if P.isRefine then P else { P with par := { P.par with numSlice := P.par.numSlice + 1 } }
  if 2 ≤ P.par.numSlice then P.connectProb L V A else .ok P

/-- `getInterpolatedSolutionPath(param_.numPoint)` in `ProbHRM3D::plan`, ProbHRM3D.cpp:62-63: inside a class derived from
`HRM3D` the name is looked up there, so this call reaches HRM3D.cpp:271-299. The cost of a solved problem is always a
number (`none` = INFINITY is not reached). -/
noncomputable def Planner3.interpolated (P : Planner3) (path : List Vec) : Res (List (List (Option ℝ))) :=
  match P.res.cost with
  | some c => interpolatedPath3D path c P.par.numPoint
  | none => .ub

/-- The steps of `ProbHRM3D::plan`. -/
noncomputable def probOps (L : Libs3) (V : Variant) (A : Arm) : ProbOps Planner3 where
  toPlanOps := { planner3Ops L V with interp := Planner3.interpolated }
  addSlice := Planner3.addSlice L V A
  wantsRefine P := decide (P.par.numSlice % 60 = 0 ∧ P.vertexIdxAll.length < P.par.numPoint)

/-- `ProbHRM3D::plan`, ProbHRM3D.cpp:18-65. -/
noncomputable def Planner3.planProb (L : Libs3) (V : Variant) (A : Arm) (clock : ℕ → ℝ) (timeLim : ℝ) (fuel : ℕ)
    (r : PlanRep Planner3) : Option (Res (PlanRep Planner3)) :=
  Hrm.probPlan (probOps L V A) (fun P => { P with par := { P.par with numSlice := 0 } }) clock timeLim fuel r

/-- A report before the first call. -/
noncomputable def freshRep3 (P : Planner3) : PlanRep Planner3 := ⟨P, 0, 0, 0, 0, [], []⟩

end Hrm
