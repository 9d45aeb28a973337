import Verif.Model.Roadmap

/-!
# Model of the roadmap search

include/hrm/planners/HighwayRoadMap-inl.h:19-45 (goal visitor), 109-175 (`search`), 263-292 (solution
path). `boost::astar_search` is modelled from its documentation (the pseudo-code of the Boost Graph
Library reference, "astar_search"): undirected graph, `p[u] = u`, `d[u] = ∞` initially, a vertex of minimal
`f = d + h` is extracted, `examine_vertex` is called (here the goal visitor may stop the search), all
out-edges are relaxed, improved vertices are (re-)inserted. The priority queue is a contract: *any*
element of minimal `f` may be extracted, and the choice may differ from iteration to iteration.
-/

namespace Hrm

open Classical

/-- Out-edges of vertex `u` in the undirected `AdjGraph` built at HighwayRoadMap-inl.h:112-120, in the
order of insertion (a self loop appears twice, as in `adjacency_list<vecS, vecS, undirectedS>`). -/
noncomputable def Graph.adj (g : Graph) (u : ℕ) : List (ℕ × ℝ) :=
  (g.edge.zip g.weight).flatMap fun ew =>
    (if ew.1.1 = u then [(ew.1.2, ew.2)] else []) ++ (if ew.1.2 = u then [(ew.1.1, ew.2)] else [])

/-- Distance map (`none` = infinity), predecessor map, queue (the grey vertices). -/
structure AState where
  d : ℕ → Option ℝ
  p : ℕ → ℕ
  q : List ℕ

/-- Initialisation: `d = ∞`, `p[u] = u`, then the start vertex with distance 0. -/
noncomputable def AState.init (s : ℕ) : AState :=
  ⟨Function.update (fun _ => none) s (some 0), id, [s]⟩

/-- Relaxation of one out-edge `(v, w)` of `u`: if it improves `v`, set `d`, `p` and put `v` in the queue
unless it is there (white and black vertices are inserted, grey ones get a decreased key). -/
noncomputable def relax (u : ℕ) (st : AState) (e : ℕ × ℝ) : AState :=
  match st.d u with
  | none => st
  | some du =>
    if ltInf (du + e.2) (st.d e.1) then
      ⟨Function.update st.d e.1 (some (du + e.2)), Function.update st.p e.1 u,
        if e.1 ∈ st.q then st.q else e.1 :: st.q⟩
    else st

/-- The priority of a queued vertex. -/
noncomputable def AState.f (h : ℕ → ℝ) (st : AState) (v : ℕ) : ℝ := (st.d v).getD 0 + h v

/-- The main loop. `pick k` chooses the vertex extracted in the iteration with `k` iterations left;
`some (some st)` = the goal visitor threw in state `st`, `some none` = the queue ran empty,
`none` = the iteration bound was reached (shown impossible for the bound used). -/
noncomputable def astarLoop (adj : ℕ → List (ℕ × ℝ)) (h : ℕ → ℝ)
    (pick : ℕ → (ℕ → ℝ) → List ℕ → ℕ) (goal : ℕ) : ℕ → AState → Option (Option AState)
  | 0, _ => none
  | k + 1, st =>
    if st.q = [] then some none
    else
      let u := pick k (st.f h) st.q
      if u = goal then some (some st)
      else astarLoop adj h pick goal k ((adj u).foldl (relax u) { st with q := st.q.erase u })

/-- The heuristic passed at HighwayRoadMap-inl.h:137-141 (the ids are in range when the graph is
well-formed; otherwise the code reads out of range, here 0). -/
noncomputable def heuristic (g : Graph) (goal v : ℕ) : ℝ :=
  match g.vertex[v]?, g.vertex[goal]? with
  | some a, some b => (match vectorEuclidean a b with | .ok r => r | _ => 0)
  | _, _ => 0

/-- Back-tracking loop, HighwayRoadMap-inl.h:152-163: `ids` is `PathId` (possibly with old content in
front), `p` the predecessor map; note that the cost adds `weight[PathId[num]]`, i.e. the weight vector is
indexed with a *vertex* number, unchecked. -/
noncomputable def backtrack (p : ℕ → ℕ) (weight : List ℝ) (s n : ℕ) :
    ℕ → List ℕ → ℕ → ℝ → Res (List ℕ × ℕ × ℝ)
  | 0, ids, num, cost => .ok (ids, num, cost)
  | k + 1, ids, num, cost =>
    (Res.idx ids num).bind fun cur =>
    if cur ≠ s ∧ num ≤ n then
      (Res.idx weight cur).bind fun w => backtrack p weight s n k (ids ++ [p cur]) (num + 1) (cost + w)
    else .ok (ids, num, cost)

/-- The part of `PlanningResult` written by `search`. `cost = none` is INFINITY. -/
structure SearchRes where
  solved : Bool
  pathId : List ℕ
  cost : Option ℝ

/-- The `catch` block, HighwayRoadMap-inl.h:148-172. The loop runs at most `num_vtx + 1` times.
The Boolean says whether `search` returns. -/
noncomputable def onFound (g : Graph) (p : ℕ → ℕ) (s goal : ℕ) (r : SearchRes) : Res (SearchRes × Bool) :=
  (backtrack p g.weight s g.vertex.length (g.vertex.length + 2) (r.pathId ++ [goal]) 0 0).bind fun b =>
  if b.2.1 = g.vertex.length + 1 then .ok (⟨r.solved, [], none⟩, false)
  else .ok (⟨true, b.1.reverse, some b.2.2⟩, true)

/-- One pair of start/goal neighbours. -/
noncomputable def searchPair (g : Graph) (pick : ℕ → (ℕ → ℝ) → List ℕ → ℕ) (s goal : ℕ)
    (r : SearchRes) : Res (SearchRes × Bool) :=
  match astarLoop g.adj (heuristic g goal) pick goal (g.vertex.length + 1) (AState.init s) with
  | some (some st) => onFound g st.p s goal r
  | _ => .ok (r, false)

/-- The double loop, HighwayRoadMap-inl.h:130-174, over the pairs in order; stops at the first success. -/
noncomputable def searchPairs (g : Graph) (pick : ℕ → (ℕ → ℝ) → List ℕ → ℕ) :
    List (ℕ × ℕ) → SearchRes → Res SearchRes
  | [], r => .ok r
  | (s, t) :: rest, r =>
    (searchPair g pick s t r).bind fun b => if b.2 then .ok b.1 else searchPairs g pick rest b.1

/-- `search`, HighwayRoadMap-inl.h:109-175, for the neighbour lists found for start and goal. -/
noncomputable def search (g : Graph) (pick : ℕ → (ℕ → ℝ) → List ℕ → ℕ) (idxS idxG : List ℕ)
    (r : SearchRes) : Res SearchRes :=
  searchPairs g pick (idxS.flatMap fun s => idxG.map fun t => (s, t)) r

/-- `v.resize(n)`: truncate or append zeros. -/
noncomputable def resize (v : Vec) (n : ℕ) : Vec := v.take n ++ List.replicate (n - v.length) 0

/-- Loop of `getSolutionPath`, HighwayRoadMap-inl.h:274-276. -/
noncomputable def pathVertices (g : Graph) : List ℕ → Res (List Vec)
  | [] => .ok []
  | i :: rest => (Res.at' g.vertex i).bind fun v => (pathVertices g rest).bind fun l => .ok (v :: l)

/-- `getSolutionPath`, HighwayRoadMap-inl.h:263-283. -/
noncomputable def getSolutionPath (g : Graph) (start goal : Vec) (pathId : List ℕ) : Res (List Vec) :=
  (Res.at' g.vertex 0).bind fun v0 =>
  (pathVertices g pathId).bind fun mid =>
  .ok (resize start v0.length :: mid ++ [resize goal v0.length])

end Hrm
