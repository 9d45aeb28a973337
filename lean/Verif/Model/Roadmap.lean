import Verif.Model.FreeSpace
import Mathlib.Analysis.Real.Sqrt

/-!
# Model of the roadmap construction

include/hrm/planners/HighwayRoadMap-inl.h:91-107, 217-261, 294-326, src/planners/HRM2D.cpp:18-42, 72-197,
src/planners/HRM3D.cpp:22-54, 93-270, src/planners/ProbHRM3D.cpp:104-195, src/util/DistanceMetric.cpp:5-13.

Coordinates are real numbers (exact arithmetic). The collision checks are parameters
`free : Vec → Vec → Res Bool` (instantiated in `Model/Polygon.lean` and `Model/Mesh.lean`); they do not
change the graph.
-/

namespace Hrm

open Classical

/-- `std::vector<Coordinate>`: a configuration. -/
abbrev Vec := List ℝ

/-- Loop of DistanceMetric.cpp:7-10: `v2[i]` is unchecked. -/
noncomputable def vecDiff : Vec → Vec → Res Vec
  | [], _ => .ok []
  | _ :: _, [] => .ub
  | a :: as, b :: bs => (vecDiff as bs).bind fun r => .ok ((a - b) :: r)

/-- `vectorEuclidean`, DistanceMetric.cpp:5-13 (`std::inner_product` starting from 0). -/
noncomputable def vectorEuclidean (v1 v2 : Vec) : Res ℝ :=
  (vecDiff v1 v2).bind fun d => .ok (Real.sqrt (d.foldl (fun acc x => acc + x * x) 0))

/-- `hrm::Graph`, PlanningResult.h:16-25. -/
structure Graph where
  vertex : List Vec
  edge : List (ℕ × ℕ)
  weight : List ℝ

/-- The initial, empty graph. -/
def Graph.empty : Graph := ⟨[], [], []⟩

/-- `edge.push_back({i, j}); weight.push_back(vectorEuclidean(v1, v2))`, e.g.
HighwayRoadMap-inl.h:232-236. -/
noncomputable def Graph.addEdge (g : Graph) (i j : ℕ) (v1 v2 : Vec) : Res Graph :=
  (vectorEuclidean v1 v2).bind fun w => .ok { g with edge := g.edge ++ [(i, j)], weight := g.weight ++ [w] }

/-- `vertex.push_back(v)`. -/
def Graph.addVertex (g : Graph) (v : Vec) : Graph := { g with vertex := g.vertex ++ [v] }

/-- `auto vNew = v; vNew.at(2) = w.at(2);`, HighwayRoadMap-inl.h:301-304. -/
def withThird (v w : Vec) : Res Vec :=
  (Res.at' w 2).bind fun z => if 2 < v.length then .ok (v.set 2 z) else .throw

/-- `a && b` of two checks (short circuit). -/
def andThen (a : Res Bool) (b : Res Bool) : Res Bool := a.bind fun r => if r then b else .ok false

/-- `bridgeVertex`, HighwayRoadMap-inl.h:294-326. -/
noncomputable def bridgeVertex (free : Vec → Vec → Res Bool) (i j : ℕ) (g : Graph) : Res Graph :=
  (Res.at' g.vertex i).bind fun v1 =>
  (Res.at' g.vertex j).bind fun v2 =>
  (withThird v1 v2).bind fun n1 =>
  (withThird v2 v1).bind fun n2 =>
  (andThen (free v1 n1) (free n1 v2)).bind fun ok1 =>
  let add (vNew : Vec) : Res Graph :=
    ((g.addVertex vNew).addEdge i g.vertex.length v1 vNew).bind fun g1 =>
      g1.addEdge g.vertex.length j vNew v2
  if ok1 then add n1
  else (andThen (free v1 n2) (free n2 v2)).bind fun ok2 => if ok2 then add n2 else .ok g

/-- The branch HighwayRoadMap-inl.h:245-256 (and HRM3D.cpp:139-151): direct edge, else bridge vertex. -/
noncomputable def linkPair (free : Vec → Vec → Res Bool) (i j : ℕ) (g : Graph) : Res Graph :=
  (Res.idx g.vertex i).bind fun a =>
  (Res.idx g.vertex j).bind fun b =>
  (free a b).bind fun ok => if ok then g.addEdge i j a b else bridgeVertex free i j g

/-- The constant `1e-6` of HighwayRoadMap-inl.h:230. -/
noncomputable def linkTol : ℝ := 1 / 10 ^ 6

/-- Neighbouring samples of one sweep line, HighwayRoadMap-inl.h:228-238; `n1` = first vertex of the
line, `r` the line's low/upper/middle lists. -/
noncomputable def linkRow (r : SegRow ℝ) (n1 j1 : ℕ) (g : Graph) : Res Graph :=
  if j1 ≠ r.M.length - 1 then
    (Res.idx r.U j1).bind fun u =>
    (Res.idx r.L (j1 + 1)).bind fun l =>
    if |u - l| < linkTol then
      (Res.idx g.vertex (n1 + j1)).bind fun a =>
      (Res.idx g.vertex (n1 + j1 + 1)).bind fun b =>
      g.addEdge (n1 + j1) (n1 + j1 + 1) a b
    else .ok g
  else .ok g

/-- Loop over `j2`, HighwayRoadMap-inl.h:244-257. -/
noncomputable def linkNext (free : Vec → Vec → Res Bool) (i n2 m : ℕ) (g : Graph) : Res Graph :=
  (List.range m).foldlM (fun g j2 => linkPair free i (n2 + j2) g) g

/-- Loop body over `j1`, HighwayRoadMap-inl.h:226-258. -/
noncomputable def linkSample (free : Vec → Vec → Res Bool) (rows : List (SegRow ℝ)) (plane : List ℕ)
    (n i n1 : ℕ) (r : SegRow ℝ) (g : Graph) (j1 : ℕ) : Res Graph :=
  (linkRow r n1 j1 g).bind fun g =>
  if i ≠ n - 1 then
    (Res.at' plane (i + 1)).bind fun n2 =>
    (Res.idx rows (i + 1)).bind fun r2 => linkNext free (n1 + j1) n2 r2.M.length g
  else .ok g

/-- Loop body over the sweep lines, HighwayRoadMap-inl.h:223-259. -/
noncomputable def linkLine (free : Vec → Vec → Res Bool) (rows : List (SegRow ℝ)) (plane : List ℕ)
    (n : ℕ) (g : Graph) (i : ℕ) : Res Graph :=
  (Res.at' plane i).bind fun n1 =>
  (Res.idx rows i).bind fun r =>
  (List.range r.M.length).foldlM (linkSample free rows plane n i n1 r) g

/-- `connectOneSlice2D`, HighwayRoadMap-inl.h:217-261; `n = freeSeg.ty.size()`, `rows` = the lists
`xL, xU, xM` per sweep line, `plane` = `numVertex_.plane`. -/
noncomputable def connectOneSlice2D (free : Vec → Vec → Res Bool) (n : ℕ) (rows : List (SegRow ℝ))
    (plane : List ℕ) (g : Graph) : Res Graph :=
  (List.range n).foldlM (linkLine free rows plane n) g

/-- The state of `generateVertices`: the graph and the `plane` list being filled. -/
abbrev GenState := Graph × List ℕ

/-- The loop of `generateVertices`, HRM2D.cpp:79-88 (`mk y x = {x, y, angle}`), HRM3D.cpp:97-109
(`mk y z = {tx, y, z, quaternion}`) and ProbHRM3D.cpp:170-191: one entry of `plane` per sweep line, one
vertex per middle coordinate. `xM[i]` is unchecked. -/
noncomputable def genRow (mk : ℝ → ℝ → Vec) (ty : List ℝ) (rows : List (SegRow ℝ)) (s : GenState)
    (i : ℕ) : Res GenState :=
  (Res.idx ty i).bind fun y =>
  (Res.idx rows i).bind fun r =>
  .ok (r.M.foldl (fun g x => g.addVertex (mk y x)) s.1, s.2 ++ [s.1.vertex.length])

/-- `generateVertices`: returns the graph and `numVertex_.plane`. -/
noncomputable def generateVertices (mk : ℝ → ℝ → Vec) (ty : List ℝ) (rows : List (SegRow ℝ))
    (g : Graph) : Res GenState :=
  (List.range ty.length).foldlM (genRow mk ty rows) (g, [])

/-- `VertexIdx`, HighwayRoadMap.h:31-43 (the `line` member is `[plane]` in 2D and the list of the planes
in 3D; `slice` is set by the caller, HighwayRoadMap-inl.h:101). -/
structure VertexIdx where
  startId : ℕ
  slice : ℕ
  line : List (List ℕ)

/-- What the sweep-line process delivers for one plane: the y-coordinates and the rows. -/
structure FreeSeg where
  ty : List ℝ
  rows : List (SegRow ℝ)

/-- `HRM2D::constructOneSlice` after the sweep (HRM2D.cpp:37-41) followed by the bookkeeping of
`buildRoadmap` (HighwayRoadMap-inl.h:100-102). -/
noncomputable def constructSlice2D (free : Vec → Vec → Res Bool) (angle : ℝ) (fs : FreeSeg)
    (g : Graph) : Res (Graph × VertexIdx) :=
  (generateVertices (fun y x => [x, y, angle]) fs.ty fs.rows g).bind fun s =>
  (connectOneSlice2D free fs.ty.length fs.rows s.2 s.1).bind fun g' =>
  .ok (g', ⟨g.vertex.length, g'.vertex.length, [s.2]⟩)

/-- Loop HRM3D.cpp:122-129: per plane generate vertices and connect within the plane. -/
noncomputable def planeStep (free : Vec → Vec → Res Bool) (mk : ℝ → ℝ → ℝ → Vec)
    (s : Graph × List (List ℕ)) (p : ℝ × FreeSeg) : Res (Graph × List (List ℕ)) :=
  (generateVertices (mk p.1) p.2.ty p.2.rows s.1).bind fun t =>
  (connectOneSlice2D free p.2.ty.length p.2.rows t.2 t.1).bind fun g' => .ok (g', s.2 ++ [t.2])

/-- Loop over `k1`, `k2` for one `j`, HRM3D.cpp:134-153. `line[i][j]` is unchecked, `xM[j]` too. -/
noncomputable def crossLine (free : Vec → Vec → Res Bool) (line : List (List ℕ)) (a b : FreeSeg)
    (i : ℕ) (g : Graph) (j : ℕ) : Res Graph :=
  (Res.idx line i).bind fun la => (Res.idx la j).bind fun n1 =>
  (Res.idx line (i + 1)).bind fun lb => (Res.idx lb j).bind fun n2 =>
  (Res.idx a.rows j).bind fun ra =>
  (List.range ra.M.length).foldlM (fun g k1 =>
    (Res.idx b.rows j).bind fun rb => linkNext free (n1 + k1) n2 rb.M.length g) g

/-- Loop over `i` (adjacent planes), HRM3D.cpp:132-155. -/
noncomputable def crossPlanes (free : Vec → Vec → Res Bool) (planes : List (ℝ × FreeSeg))
    (line : List (List ℕ)) (g : Graph) (i : ℕ) : Res Graph :=
  (Res.at' planes i).bind fun a =>
  (Res.at' planes (i + 1)).bind fun b =>
  (List.range a.2.ty.length).foldlM (crossLine free line a.2 b.2 i) g

/-- `HRM3D::connectOneSlice3D`, HRM3D.cpp:116-156, plus the bookkeeping of HighwayRoadMap-inl.h:100-102.
For no plane at all `tx.size() - 1` wraps and `.at(0)` throws. -/
noncomputable def constructSlice3D (free : Vec → Vec → Res Bool) (mk : ℝ → ℝ → ℝ → Vec)
    (planes : List (ℝ × FreeSeg)) (g : Graph) : Res (Graph × VertexIdx) :=
  (planes.foldlM (planeStep free mk) (g, [])).bind fun s =>
  if planes = [] then .throw
  else
    ((List.range (planes.length - 1)).foldlM (crossPlanes free planes s.2) s.1).bind fun g' =>
    .ok (g', ⟨g.vertex.length, g'.vertex.length, s.2⟩)

/-- Inner loop over `m1` of the slice-connection routines (HRM2D.cpp:129-153, HRM3D.cpp:190-220,
ProbHRM3D.cpp:138-160, connectExistSlice alike): `near v1 v2 = .ok false` is the `continue`; after the
first accepted transition the loop stops and the next `m0` starts from this `m1`. Returns the graph and
the new start. `get` is how the code reads the second vertex (`[]` or `.at`). -/
noncomputable def matchOne (get : List Vec → ℕ → Res Vec) (near free : Vec → Vec → Res Bool)
    (m0 : ℕ) (v1 : Vec) (hi : ℕ) : ℕ → ℕ → ℕ → Graph → Res (Graph × ℕ)
  | 0, _, start, g => .ok (g, start)
  | k + 1, m1, start, g =>
    if m1 < hi then
      (get g.vertex m1).bind fun v2 =>
      (near v1 v2).bind fun isNear =>
      if ¬ isNear then matchOne get near free m0 v1 hi k (m1 + 1) start g
      else
        (free v1 v2).bind fun ok =>
        if ok then (g.addEdge m0 m1 v1 v2).bind fun g' => .ok (g', m1)
        else matchOne get near free m0 v1 hi k (m1 + 1) start g
    else .ok (g, start)

/-- One `m0`; the inner loop runs at most `hi - start` times. -/
noncomputable def matchStep (get0 get1 : List Vec → ℕ → Res Vec) (near free : Vec → Vec → Res Bool)
    (hi : ℕ) (s : Graph × ℕ) (m0 : ℕ) : Res (Graph × ℕ) :=
  (get0 s.1.vertex m0).bind fun v1 =>
  matchOne get1 near free m0 v1 hi (hi - s.2) s.2 s.2 s.1

/-- The double loop: `m0` over `[lo0, hi0)`, `m1` over `[lo1, hi1)`. -/
noncomputable def matchRanges (get0 get1 : List Vec → ℕ → Res Vec) (near free : Vec → Vec → Res Bool)
    (lo0 hi0 lo1 hi1 : ℕ) (g : Graph) : Res Graph :=
  ((List.range' lo0 (hi0 - lo0)).foldlM (matchStep get0 get1 near free hi1) (g, lo1)).bind
    fun s => .ok s.1

/-- The y-adjacency test of HRM2D.cpp:134-138, 178-184: `.ok false` = skip. `gap` is
`2 * |limits[3] - limits[2]| / numLineY`. -/
noncomputable def near2D (gap : ℝ) (v1 v2 : Vec) : Res Bool :=
  (Res.idx v1 1).bind fun a => (Res.idx v2 1).bind fun b => .ok (decide (¬ |a - b| > gap))

/-- The adjacency test of HRM3D.cpp:196-206, 243-257, ProbHRM3D.cpp:143-151. -/
noncomputable def near3D (gapX gapY : ℝ) (v1 v2 : Vec) : Res Bool :=
  (Res.at' v1 0).bind fun a => (Res.at' v2 0).bind fun b =>
  if |a - b| > gapX then .ok false
  else
    (Res.at' v1 1).bind fun a => (Res.at' v2 1).bind fun b => .ok (decide (¬ |a - b| > gapY))

/-- The partner slice of HRM2D.cpp:115-119. -/
def partner2D (numSlice i : ℕ) : ℕ := if i = numSlice - 1 ∧ numSlice ≠ 2 then 0 else i + 1

/-- Loop body of `HRM2D::connectMultiSlice`, HRM2D.cpp:110-155. `freeMulti i j` is the multi-slice check
with the bridge slice between the headings `i` and `j` (`headings_[j]` is unchecked but
`vertexIdx_.at(j)` throws first). -/
noncomputable def multiStep2D (freeMulti : ℕ → ℕ → Vec → Vec → Res Bool) (gap : ℝ) (numSlice : ℕ)
    (idx : List VertexIdx) (g : Graph) (i : ℕ) : Res Graph :=
  (Res.at' idx i).bind fun cur =>
  (Res.at' idx (partner2D numSlice i)).bind fun adj =>
  matchRanges Res.idx Res.idx (near2D gap) (freeMulti i (partner2D numSlice i))
    cur.startId cur.slice adj.startId adj.slice g

/-- `HRM2D::connectMultiSlice`, HRM2D.cpp:91-156. -/
noncomputable def connectMultiSlice2D (freeMulti : ℕ → ℕ → Vec → Vec → Res Bool) (gap : ℝ)
    (numSlice : ℕ) (idx : List VertexIdx) (g : Graph) : Res Graph :=
  if idx.length = 1 then .ok g
  else (List.range idx.length).foldlM (multiStep2D freeMulti gap numSlice idx) g

/-- The slices constructed one after the other, HighwayRoadMap-inl.h:96-103. `slice i` is
`constructOneSlice(i)`. -/
noncomputable def buildSlices (slice : ℕ → Graph → Res (Graph × VertexIdx)) (numSlice : ℕ) (g : Graph)
    (idx : List VertexIdx) : Res (Graph × List VertexIdx) :=
  (List.range numSlice).foldlM (fun s i => (slice i s.1).bind fun r => .ok (r.1, s.2 ++ [r.2])) (g, idx)

/-- `buildRoadmap` of the 2D planner, HighwayRoadMap-inl.h:91-107, for the slices' free segments
`seg i`, headings and checks. -/
noncomputable def buildRoadmap2D (freeSame : ℕ → Vec → Vec → Res Bool)
    (freeMulti : ℕ → ℕ → Vec → Vec → Res Bool) (gap : ℝ) (headings : ℕ → ℝ) (seg : ℕ → FreeSeg)
    (numSlice : ℕ) : Res (Graph × List VertexIdx) :=
  (buildSlices (fun i => constructSlice2D (freeSame i) (headings i) (seg i)) numSlice .empty []).bind
    fun s => (connectMultiSlice2D freeMulti gap numSlice s.2 s.1).bind fun g => .ok (g, s.2)

/-- `d < minDist` where `minDist` starts as `INFINITY` (`none`), HRM3D.cpp:164, 168. -/
def ltInf (d : ℝ) : Option ℝ → Prop
  | none => True
  | some m => d < m

/-- The search for the nearest other slice in `HRM3D::connectMultiSlice`, HRM3D.cpp:163-174: the loop
condition is `j != i && j < numSlice`, so it *stops* at `j = i`. `dist i j` is the angular distance. -/
noncomputable def nearestLoop (dist : ℕ → ℕ → ℝ) (i numSlice : ℕ) : ℕ → ℕ → Option ℝ → ℕ → ℕ
  | 0, _, _, minIdx => minIdx
  | k + 1, j, minDist, minIdx =>
    if j ≠ i ∧ j < numSlice then
      if ltInf (dist i j) minDist then
        nearestLoop dist i numSlice k (j + 1) (some (dist i j)) j
      else nearestLoop dist i numSlice k (j + 1) minDist minIdx
    else minIdx

/-- `minIdx` after HRM3D.cpp:163-174 (at most `numSlice` iterations). -/
noncomputable def nearestSlice3D (dist : ℕ → ℕ → ℝ) (i numSlice : ℕ) : ℕ :=
  nearestLoop dist i numSlice numSlice 0 none 0

/-- Loop body of `HRM3D::connectMultiSlice`, HRM3D.cpp:162-223: the outer vertex loop runs over the
nearest slice, the inner over slice `i`. -/
noncomputable def multiStep3D (dist : ℕ → ℕ → ℝ) (freeMulti : ℕ → ℕ → Vec → Vec → Res Bool)
    (gapX gapY : ℝ) (numSlice : ℕ) (idx : List VertexIdx) (g : Graph) (i : ℕ) : Res Graph :=
  (Res.at' idx i).bind fun cur =>
  (Res.at' idx (nearestSlice3D dist i numSlice)).bind fun near =>
  matchRanges Res.at' Res.idx (near3D gapX gapY) (freeMulti i (nearestSlice3D dist i numSlice))
    near.startId near.slice cur.startId cur.slice g

/-- `HRM3D::connectMultiSlice`, HRM3D.cpp:158-224. -/
noncomputable def connectMultiSlice3D (dist : ℕ → ℕ → ℝ)
    (freeMulti : ℕ → ℕ → Vec → Vec → Res Bool) (gapX gapY : ℝ)
    (numSlice : ℕ) (idx : List VertexIdx) (g : Graph) : Res Graph :=
  if idx.length = 1 then .ok g
  else (List.range idx.length).foldlM (multiStep3D dist freeMulti gapX gapY numSlice idx) g

/-- `buildRoadmap` of the 3D planner. -/
noncomputable def buildRoadmap3D (dist : ℕ → ℕ → ℝ) (freeSame : ℕ → Vec → Vec → Res Bool)
    (freeMulti : ℕ → ℕ → Vec → Vec → Res Bool) (gapX gapY : ℝ) (mk : ℕ → ℝ → ℝ → ℝ → Vec)
    (seg : ℕ → List (ℝ × FreeSeg)) (numSlice : ℕ) : Res (Graph × List VertexIdx) :=
  (buildSlices (fun i => constructSlice3D (freeSame i) (mk i) (seg i)) numSlice .empty []).bind
    fun s => (connectMultiSlice3D dist freeMulti gapX gapY numSlice s.2 s.1).bind fun g => .ok (g, s.2)

/-- `connectExistSlice`, HRM2D.cpp:158-197 and HRM3D.cpp:226-270: the new slice `sliceId` against the
slice of the same orientation in the previous round (`idxAll.back()`; `back()` of an empty vector is
undefined behaviour). -/
noncomputable def connectExistSlice (near free : Vec → Vec → Res Bool) (idx : List VertexIdx)
    (idxAll : List (List VertexIdx)) (sliceId : ℕ) (g : Graph) : Res Graph :=
  (Res.at' idx sliceId).bind fun cur =>
  match idxAll.getLast? with
  | none => .ub
  | some prev =>
    (Res.at' prev sliceId).bind fun old =>
    matchRanges Res.idx Res.idx near free cur.startId cur.slice old.startId old.slice g

/-- The nearest earlier slice in `ProbHRM3D::connectMultiSlice`, ProbHRM3D.cpp:110-119: `dist i` is the
distance of the newest slice's configuration to that of slice `i` (`none` = INFINITY). -/
noncomputable def probNearest (dist : ℕ → ℝ) (numSlice : ℕ) : ℕ :=
  ((List.range (numSlice - 1)).foldl (fun (s : Option ℝ × ℕ) i =>
    if ltInf (dist i) s.1 then (some (dist i), i) else s) (none, 0)).2

/-- `ProbHRM3D::connectMultiSlice`, ProbHRM3D.cpp:105-162: the newest slice `numSlice - 1` against the
nearest earlier one. -/
noncomputable def probConnect (dist : ℕ → ℝ) (freeMulti : ℕ → Vec → Vec → Res Bool) (gapX gapY : ℝ)
    (numSlice : ℕ) (idx : List VertexIdx) (g : Graph) : Res Graph :=
  if numSlice = 1 then .ok g
  else
    (Res.at' idx (numSlice - 1)).bind fun cur =>
    (Res.at' idx (probNearest dist numSlice)).bind fun near =>
    matchRanges Res.at' Res.at' (near3D gapX gapY) (freeMulti (probNearest dist numSlice))
      near.startId near.slice cur.startId cur.slice g

end Hrm
