import Verif.Model.Roadmap

/-!
# Model of the planning loops

include/hrm/planners/HighwayRoadMap-inl.h:64-89 (`plan`), 177-215 (`refineExistRoadmap`),
src/planners/ProbHRM3D.cpp:18-65 (`ProbHRM3D::plan`).

The planner's own state is a parameter `σ`, its steps are arbitrary functions (they are modelled in
`Model/Roadmap.lean`, `Model/Search.lean`, `Model/FreeSpace.lean`). The clock is a parameter: `clock n` is the
`n`-th reading of `Clock::now()`, in seconds.
-/

namespace Hrm

open Classical

/-- The steps a planning loop is made of. -/
structure PlanOps (σ : Type) where
  /-- `buildRoadmap()` -/
  build : σ → Res σ
  /-- `search()` -/
  search : σ → Res σ
  /-- body of the refinement loop for slice `i` before the search, HighwayRoadMap-inl.h:191-197 -/
  refineSlice : ℕ → σ → Res σ
  /-- HighwayRoadMap-inl.h:180-186: `isRefine_ = true`, store and clear `vertexIdx_`, double the lines -/
  beginRefine : σ → σ
  /-- HighwayRoadMap-inl.h:214: `isRefine_ = false` -/
  endRefine : σ → σ
  /-- `res_.solved` -/
  solved : σ → Bool
  /-- `param_.numSlice` -/
  numSlice : σ → ℕ
  /-- `getSolutionPath()` -/
  path : σ → Res (List Vec)
  /-- `getInterpolatedSolutionPath(numPoint)` on the solved path. By default the virtual function of the base class,
  HighwayRoadMap-inl.h:285-292, which copies the path. `HRM3D::getInterpolatedSolutionPath(const Index)`, HRM3D.h:30,
  does not override it: the parameter type is `size_t` instead of `unsigned int` (HighwayRoadMap.h:100), so the call in
  `HighwayRoadMap::plan` always reaches the base version (where the two types differ, as on 64-bit platforms). -/
  interp : σ → List Vec → Res (List (List (Option ℝ))) := fun _ p => .ok (p.map fun v => v.map some)

/-- Planner state, number of clock readings made so far, and the reported values
(`res_.planningTime`, `res_.solutionPath.solvedPath` and `interpolatedPath`, in which `none` is a NaN). -/
structure PlanRep (σ : Type) where
  st : σ
  tick : ℕ
  buildTime : ℝ
  searchTime : ℝ
  totalTime : ℝ
  solvedPath : List Vec
  interpolated : List (List (Option ℝ))

variable {σ : Type}

/-- `start = Clock::now(); <step>; buildTime += Clock::now() - start`. -/
noncomputable def timedBuild (clock : ℕ → ℝ) (f : σ → Res σ) (r : PlanRep σ) : Res (PlanRep σ) :=
  (f r.st).bind fun s => .ok { r with
    st := s, tick := r.tick + 2, buildTime := r.buildTime + (clock (r.tick + 1) - clock r.tick) }

/-- `start = Clock::now(); search(); searchTime += …; totalTime = buildTime + searchTime`. -/
noncomputable def timedSearch (ops : PlanOps σ) (clock : ℕ → ℝ) (r : PlanRep σ) : Res (PlanRep σ) :=
  (ops.search r.st).bind fun s =>
    let t := r.searchTime + (clock (r.tick + 1) - clock r.tick)
    .ok { r with st := s, tick := r.tick + 2, searchTime := t, totalTime := r.buildTime + t }

/-- The loop of `refineExistRoadmap`, HighwayRoadMap-inl.h:188-212, over the remaining slices; the Boolean
says whether the function returned from inside the loop. -/
noncomputable def refineLoop (ops : PlanOps σ) (clock : ℕ → ℝ) (timeLim : ℝ) :
    List ℕ → PlanRep σ → Res (PlanRep σ × Bool)
  | [], r => .ok (r, false)
  | i :: rest, r =>
    (timedBuild clock (ops.refineSlice i) r).bind fun r =>
    (timedSearch ops clock r).bind fun r =>
    if ops.solved r.st ∨ r.totalTime > timeLim then .ok (r, true)
    else refineLoop ops clock timeLim rest r

/-- `refineExistRoadmap`, HighwayRoadMap-inl.h:177-215. -/
noncomputable def refineExist (ops : PlanOps σ) (clock : ℕ → ℝ) (timeLim : ℝ) (r : PlanRep σ) :
    Res (PlanRep σ) :=
  (refineLoop ops clock timeLim (List.range (ops.numSlice r.st)) { r with st := ops.beginRefine r.st }).bind
    fun b => .ok (if b.2 then b.1 else { b.1 with st := ops.endRefine b.1.st })

/-- `while (!solved && totalTime < timeLim) refineExistRoadmap(timeLim);`, HighwayRoadMap-inl.h:77-80, with
at most `fuel` iterations (`none` = still running). -/
noncomputable def planLoop (ops : PlanOps σ) (clock : ℕ → ℝ) (timeLim : ℝ) :
    ℕ → PlanRep σ → Option (Res (PlanRep σ))
  | fuel, r =>
    if ops.solved r.st = false ∧ r.totalTime < timeLim then
      match fuel with
      | 0 => none
      | fuel + 1 =>
        match refineExist ops clock timeLim r with
        | .ok r' => planLoop ops clock timeLim fuel r'
        | .throw => some .throw
        | .ub => some .ub
    else some (.ok r)

/-- `if (solved) { solvedPath = getSolutionPath(); interpolatedPath = getInterpolatedSolutionPath(numPoint); }`,
HighwayRoadMap-inl.h:83-88 and ProbHRM3D.cpp:59-64. -/
noncomputable def finish (ops : PlanOps σ) (r : PlanRep σ) : Res (PlanRep σ) :=
  if ops.solved r.st then
    (ops.path r.st).bind fun p => (ops.interp r.st p).bind fun q => .ok { r with solvedPath := p, interpolated := q }
  else .ok r

/-- `HighwayRoadMap::plan`, HighwayRoadMap-inl.h:64-89. -/
noncomputable def plan (ops : PlanOps σ) (clock : ℕ → ℝ) (timeLim : ℝ) (fuel : ℕ) (r : PlanRep σ) :
    Option (Res (PlanRep σ)) :=
  match (timedBuild clock ops.build r).bind (timedSearch ops clock) with
  | .ok r1 => (planLoop ops clock timeLim fuel r1).map fun x => x.bind (finish ops)
  | .throw => some .throw
  | .ub => some .ub

/-- The additional steps of `ProbHRM3D::plan`. -/
structure ProbOps (σ : Type) extends PlanOps σ where
  /-- `sampleOrientations(); constructOneSlice(numSlice); if (!isRefine_) numSlice++;` push the vertex
  index; `if (numSlice >= 2) connectMultiSlice();`, ProbHRM3D.cpp:23-41 -/
  addSlice : σ → Res σ
  /-- `numSlice % 60 == 0 && vertexIdxAll_.size() < numPoint`, ProbHRM3D.cpp:53-54 -/
  wantsRefine : σ → Bool

/-- One pass of the do-loop, ProbHRM3D.cpp:22-57. `start` is the local variable: set before the loop and at
the beginning of each search, but *not* at the beginning of a pass. -/
noncomputable def probPass (ops : ProbOps σ) (clock : ℕ → ℝ) (timeLim : ℝ) (s : PlanRep σ × ℝ) :
    Res (PlanRep σ × ℝ) :=
  (ops.addSlice s.1.st).bind fun st1 =>
  let b := s.1.buildTime + (clock s.1.tick - s.2)
  let start := clock (s.1.tick + 1)
  (ops.search st1).bind fun st2 =>
  let t := s.1.searchTime + (clock (s.1.tick + 2) - start)
  let r : PlanRep σ := { s.1 with
    st := st2, tick := s.1.tick + 3, buildTime := b, searchTime := t, totalTime := b + t }
  if ops.wantsRefine r.st then (refineExist ops.toPlanOps clock timeLim r).bind fun r' => .ok (r', start)
  else .ok (r, start)

/-- The do-loop, ProbHRM3D.cpp:22-58. -/
noncomputable def probLoop (ops : ProbOps σ) (clock : ℕ → ℝ) (timeLim : ℝ) :
    ℕ → PlanRep σ × ℝ → Option (Res (PlanRep σ))
  | 0, _ => none
  | fuel + 1, s =>
    match probPass ops clock timeLim s with
    | .ok s' =>
      if ops.solved s'.1.st = false ∧ s'.1.totalTime < timeLim then probLoop ops clock timeLim fuel s'
      else some (.ok s'.1)
    | .throw => some .throw
    | .ub => some .ub

/-- `ProbHRM3D::plan`, ProbHRM3D.cpp:18-65 (`reset` = `numSlice = 0`). -/
noncomputable def probPlan (ops : ProbOps σ) (reset : σ → σ) (clock : ℕ → ℝ) (timeLim : ℝ) (fuel : ℕ)
    (r : PlanRep σ) : Option (Res (PlanRep σ)) :=
  (probLoop ops clock timeLim fuel ({ r with st := reset r.st, tick := r.tick + 1 }, clock r.tick)).map
    fun x => x.bind (finish ops.toPlanOps)

end Hrm
