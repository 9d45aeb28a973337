import Verif.Model.Planner2D

/-!
# Model of the "kinematics of containment" planner

src/geometry/PointInPoly.cpp:6-28, src/planners/HRM2DKC.cpp:5-105, include/hrm/planners/HRM2DKC.h,
include/hrm/geometry/PointInPoly.h:10-20.

`rand() / RAND_MAX` is a parameter: `rnd k` is the value of the `k`-th call. Exact arithmetic:
`(rand() * d) / RAND_MAX` is `rnd * d`.
-/

namespace Hrm

open Matrix Classical

/-- Row `r` of `matrixInverse * p`, PointInPoly.cpp:16-20: the data are read column by column
(`Eigen::Map<Matrix4d>` is column-major; reading past the end of the vector is undefined behaviour). -/
noncomputable def barycentric (data : List ℝ) (x y z : ℝ) (r : ℕ) : Res ℝ :=
  (Res.idx data r).bind fun a => (Res.idx data (4 + r)).bind fun b => (Res.idx data (8 + r)).bind fun c =>
  (Res.idx data (12 + r)).bind fun d => .ok (a * x + b * y + c * z + d)

/-- One pass of the loop, PointInPoly.cpp:16-23: all coefficients between 0 and 1 (`minCoeff`, `maxCoeff`). -/
noncomputable def inSimplex (data : List ℝ) (x y z : ℝ) : Res Bool :=
  (barycentric data x y z 0).bind fun a => (barycentric data x y z 1).bind fun b =>
  (barycentric data x y z 2).bind fun c => (barycentric data x y z 3).bind fun d =>
  .ok (decide (0 ≤ min (min a b) (min c d) ∧ max (max a b) (max c d) ≤ 1))

/-- The loop, PointInPoly.cpp:15-24. -/
noncomputable def polyLoop (x y z : ℝ) : List (List ℝ) → Res Bool
  | [] => .ok false
  | m :: ms => (inSimplex m x y z).bind fun ok => if ok then .ok true else polyLoop x y z ms

/-- `isPtInPoly`, PointInPoly.cpp:6-28; `pt[0]`, `pt[1]`, `pt[2]` are unchecked. -/
noncomputable def isPtInPoly (mats : List (List ℝ)) (pt : Vec) : Res Bool :=
  (Res.idx pt 0).bind fun x => (Res.idx pt 1).bind fun y => (Res.idx pt 2).bind fun z => polyLoop x y z mats

/-- The inner loop of `addMiddleVertex`, HRM2DKC.cpp:89-93, for the coordinates of `v1`: the sampled point and
its differences to the two vertices (`vtx2[i]` is unchecked). `k` = number of random numbers used so far. -/
noncomputable def samplePoint (rnd : ℕ → ℝ) (k : ℕ) (v1 v2 : Vec) : Res (Vec × Vec × Vec) :=
  (List.range v1.length).foldlM (fun (acc : Vec × Vec × Vec) i =>
    (Res.idx v1 i).bind fun a => (Res.idx v2 i).bind fun b =>
    let p := rnd (k + i) * (a - b) + b
    .ok (acc.1 ++ [p], acc.2.1 ++ [p - a], acc.2.2 ++ [p - b])) ([], [], [])

/-- `addMiddleVertex`, HRM2DKC.cpp:75-105, with `tries` attempts left; `none` = the empty vector. Returns also
the number of random numbers used. -/
noncomputable def addMiddle (mats : List (List ℝ)) (rnd : ℕ → ℝ) (v1 v2 : Vec) : ℕ → ℕ → Res (Option Vec × ℕ)
  | 0, k => .ok (none, k)
  | tries + 1, k =>
    (samplePoint rnd k v1 v2).bind fun p =>
    (isPtInPoly mats p.2.1).bind fun in1 =>
    if in1 then
      (isPtInPoly mats p.2.2).bind fun in2 =>
      if in2 then .ok (some p.1, k + v1.length) else addMiddle mats rnd v1 v2 tries (k + v1.length)
    else addMiddle mats rnd v1 v2 tries (k + v1.length)

/-- The roadmap and the number of random numbers used so far. -/
abbrev KcState := Graph × ℕ

/-- The loop over `m2`, HRM2DKC.cpp:49-67, for the vertices `m2s`: stops after the first middle vertex. The
variable `n` of the code is the number of vertices (`vertex[m2]` is unchecked). -/
noncomputable def kcInner (mats : List (List ℝ)) (rnd : ℕ → ℝ) (tries m : ℕ) (v1 : Vec) :
    List ℕ → KcState → Res KcState
  | [], s => .ok s
  | m2 :: m2s, s =>
    (Res.idx s.1.vertex m2).bind fun v2 =>
    (addMiddle mats rnd v1 v2 tries s.2).bind fun r =>
    match r.1 with
    | none => kcInner mats rnd tries m v1 m2s (s.1, r.2)
    | some mid =>
      ((s.1.addVertex mid).addEdge m s.1.vertex.length v1 mid).bind fun g =>
      (g.addEdge m2 s.1.vertex.length v2 mid).bind fun g => .ok (g, r.2)

/-- The range of partner vertices for slice `i`, HRM2DKC.cpp:38-44: `[n12, n2)`. `numSlice - 1` is computed in
`unsigned`; the loop is not entered for no slices. -/
def kcRange (idx : List VertexIdx) (numSlice i : ℕ) : Res (ℕ × ℕ × ℕ) :=
  (Res.at' idx i).bind fun cur =>
  if i ≠ numSlice - 1 then (Res.at' idx (i + 1)).bind fun nxt => .ok (cur.slice, cur.slice, nxt.slice)
  else (Res.at' idx 0).bind fun fst => .ok (cur.slice, 0, fst.slice)

/-- The body of the loop over the slices, HRM2DKC.cpp:36-72; `start` is the variable of that name. -/
noncomputable def kcSlice (mats : List (List ℝ)) (rnd : ℕ → ℝ) (tries : ℕ) (idx : List VertexIdx) (numSlice : ℕ)
    (s : KcState × ℕ) (i : ℕ) : Res (KcState × ℕ) :=
  (kcRange idx numSlice i).bind fun r =>
  ((List.range' s.2 (r.1 - s.2)).foldlM (fun (t : KcState) m =>
    (Res.idx t.1.vertex m).bind fun v1 =>
    kcInner mats rnd tries m v1 (List.range' r.2.1 (r.2.2 - r.2.1)) t) s.1).bind fun t => .ok (t, r.1)

/-- `HRM2DKC::connectMultiSlice`, HRM2DKC.cpp:25-73. -/
noncomputable def connectMultiSliceKC (mats : List (List ℝ)) (rnd : ℕ → ℝ) (tries : ℕ) (idx : List VertexIdx)
    (numSlice : ℕ) (s : KcState) : Res KcState :=
  ((List.range numSlice).foldlM (kcSlice mats rnd tries idx numSlice) (s, 0)).bind fun t => .ok t.1

/-- The members of `HRM2DKC`: those of `HRM2D` and the private `polyhedronVertex_` (its `matrixInverse`; the
list `vertex` is never read). `draws` counts the calls of `rand()`. -/
structure PlannerKC where
  core : Planner2
  poly : List (List ℝ)
  draws : ℕ

/-- `inflationFactor_`, HRM2DKC.h:41. -/
noncomputable def inflation : ℝ := 1 / 10

/-- The inflated base, HRM2DKC.cpp:11-14. -/
noncomputable def inflate (E : SuperEllipse) : SuperEllipse :=
  { E with a := E.a * (1 + inflation), b := E.b * (1 + inflation) }

/-- The constructor, HRM2DKC.cpp:5-21: the free-space object gets a robot made of the inflated base alone, and
is set up again. `polyhedronVertex_` is default-constructed. -/
noncomputable def PlannerKC.new (robot : Tree2) (arena obs : List SuperEllipse) (start goal : Vec) (par : Param2)
    (draws : ℕ) : PlannerKC :=
  let P := Planner2.new robot arena obs start goal par
  let f : Fs2 := { P.fs with robot := Tree2.new (inflate robot.base) }
  ⟨{ P with fs := f.setup arena.length obs.length par.numLineY par.xLo par.xHi }, [], draws⟩

/-- `buildRoadmap`, HighwayRoadMap-inl.h:91-107, with the overriding `connectMultiSlice`. -/
noncomputable def PlannerKC.build (L : Libs2) (rnd : ℕ → ℝ) (P : PlannerKC) : Res PlannerKC :=
  ((List.range P.core.par.numSlice).foldlM (fun (Q : Planner2) i => Q.constructOneSlice L i)
    P.core.sampleOrientations).bind fun Q =>
  (connectMultiSliceKC P.poly rnd Q.par.numPoint Q.vertexIdx Q.par.numSlice (Q.graph, P.draws)).bind fun s =>
  .ok { P with core := { Q with graph := s.1 }, draws := s.2 }

/-- Lifts a step of the planar planner. -/
def PlannerKC.lift (f : Planner2 → Res Planner2) (P : PlannerKC) : Res PlannerKC :=
  (f P.core).bind fun Q => .ok { P with core := Q }

/-- The steps of `plan` for `HRM2DKC`: everything but `connectMultiSlice` is inherited from `HRM2D`. -/
noncomputable def plannerKcOps (L : Libs2) (rnd : ℕ → ℝ) : PlanOps PlannerKC where
  build := PlannerKC.build L rnd
  search := PlannerKC.lift (Planner2.search L)
  refineSlice i := PlannerKC.lift (Planner2.refineSlice L i)
  beginRefine P := { P with core := P.core.beginRefine }
  endRefine P := { P with core := { P.core with isRefine := false } }
  solved P := P.core.res.solved
  numSlice P := P.core.par.numSlice
  path P := getSolutionPath P.core.graph P.core.start P.core.goal P.core.res.pathId

/-- `HRM2DKC::plan`. -/
noncomputable def PlannerKC.plan (L : Libs2) (rnd : ℕ → ℝ) (clock : ℕ → ℝ) (timeLim : ℝ) (fuel : ℕ)
    (r : PlanRep PlannerKC) : Option (Res (PlanRep PlannerKC)) :=
  Hrm.plan (plannerKcOps L rnd) clock timeLim fuel r

end Hrm
