import Verif.Lemmas.ProbPlanner
import Verif.Props.Planner3D
import Verif.Spec.ProbPlanner

/-!
# Properties of the incremental spatial planner (`ProbHRM3D`)
-/

namespace Hrm

open Matrix

/-! ## C58 – which slices exist and how they are connected -/

/-- C58 (orientations): after `k` passes of a new incremental planner there are exactly `k` slices; slice 0 has the
orientation and the joint angles of the start, slice 1 those of the goal, and slice `i + 2` the `i`-th random draw. A
predefined list of orientations has no effect on it. -/
theorem C58_prob_slices (L : Libs3) (V : Variant) (A : Arm) (hV : V.arm = some A) (base : SuperQuadrics)
    (ops : List (RobotOp SuperQuadrics 3)) (robot : Tree3) (hrun : Tree3.run ops (Tree3.new base) = .ok robot)
    (quats : List Quat) (arena obs : List SuperQuadrics) (start goal : Vec) (par : Param3) (rigid : Bool) (k : ℕ)
    (P : Planner3) (h : ProbReach L V A (probStart robot quats arena obs start goal par rigid) k P) :
    P.par.numSlice = k ∧ P.vertexIdx.length = k ∧ P.q.length = k ∧ P.v.length = k ∧
    (0 < k → P.q[0]? = some (quatPart start) ∧
      P.v[0]? = some (conf7 0 0 0 (quatPart start) ++ (start.drop 7).take A.nJ)) ∧
    (1 < k → P.q[1]? = some (quatPart goal) ∧
      P.v[1]? = some (conf7 0 0 0 (quatPart goal) ++ (goal.drop 7).take A.nJ)) ∧
    ∀ i, i + 2 < k → P.q[i + 2]? = some (L.rand i) ∧
      P.v[i + 2]? = some (conf7 0 0 0 (L.rand i) ++ (List.range A.nJ).map (L.randJoint i)) := by
  have hr := run_inv_of3 hrun
  obtain ⟨B, hB, b1, b2, -⟩ := cspaceBoundary3_ok hr arena obs
  obtain ⟨M, hM, -, -⟩ := cspaceMesh_ok b1 b2
  have hi := reach_inv hV hr hB hM rfl h
  have get : ∀ i < k, P.q[i]? = some (probSample L A start goal i).1 ∧ P.v[i]? = some (probConf L A start goal i) := by
    intro i hik
    rw [hi.q, hi.v]
    simp [hik]
  exact ⟨by rw [hi.epar], hi.len, by rw [hi.q]; simp, by rw [hi.v]; simp, fun h0 => get 0 h0, fun h1 => get 1 h1,
    fun i h2 => get (i + 2) h2⟩

/-- C58 (connection): after `k` passes the vertices are divided among the `k` slices, those of slice `i` are samples of
its sweep lines (or inserted between two of them); every slice but the first is joined with its nearest earlier slice
whenever they have two vertices close enough between which the check accepts; and every edge was accepted by the check
within a slice, by the check between a slice and its nearest earlier slice, or joins neighbours of a sweep line. -/
theorem C58_prob_connected (L : Libs3) (V : Variant) (A : Arm) (hV : V.arm = some A) (base : SuperQuadrics)
    (ops : List (RobotOp SuperQuadrics 3)) (robot : Tree3) (hrun : Tree3.run ops (Tree3.new base) = .ok robot)
    (quats : List Quat) (arena obs : List SuperQuadrics) (start goal : Vec) (par : Param3) (rigid : Bool) (k : ℕ)
    (P : Planner3) (h : ProbReach L V A (probStart robot quats arena obs start goal par rigid) k P) :
    ∃ B M segs, cspaceBoundary3 robot arena obs = .ok B ∧ cspaceMesh arena obs B = .ok M ∧
      (0 < k → sweep3D L par.zLo par.zHi M par.linesX par.linesY = .ok segs) ∧
      Partition P.vertexIdx 0 P.graph.vertex.length ∧
      (∀ (i : ℕ) (x : VertexIdx), P.vertexIdx[i]? = some x → ∀ (m : ℕ) (v : Vec), x.startId ≤ m → m < x.slice →
        P.graph.vertex[m]? = some v → ProbVertex L A start goal M.obstacle segs i v) ∧
      (∀ (i : ℕ) (s : VertexIdx), P.vertexIdx[i]? = some s → 1 ≤ i →
        ∃ (j : ℕ) (t : VertexIdx), NearestEarlier (probConf L A start goal) i j ∧ P.vertexIdx[j]? = some t ∧
          JoinedIfPossible (near3D par.gapX par.gapY) (probCheck L V A robot obs par.numPoint
            (probConf L A start goal i) (probConf L A start goal j)) t s P.graph) ∧
      P.graph.EdgesIn (ProbStep L V A robot obs par start goal M.obstacle segs k) := by
  have hr := run_inv_of3 hrun
  obtain ⟨B, hB, b1, b2, -⟩ := cspaceBoundary3_ok hr arena obs
  obtain ⟨M, hM, -, -⟩ := cspaceMesh_ok b1 b2
  have hi := reach_inv hV hr hB hM rfl h
  exact ⟨B, M, _, hB, hM, hi.swept, hi.part, hi.vert, hi.joined, hi.grow.edgesIn (by simp [Graph.EdgesIn, Graph.empty])⟩

/-- C58 (predefined orientations): a returning build of the non-incremental planner on a new object makes one slice
for each orientation of the predefined list when there is one (whatever the requested number of slices), and for each
of the requested number of random orientations otherwise. -/
theorem C58_predefined (L : Libs3) (V : Variant) (robot : Tree3) (quats : List Quat) (arena obs : List SuperQuadrics)
    (start goal : Vec) (par : Param3) (Q : Planner3)
    (h : (Planner3.new robot quats arena obs start goal par true).build L V = .ok Q) :
    (quats ≠ [] → Q.q = quats ∧ Q.par.numSlice = quats.length ∧ Q.vertexIdx.length = quats.length) ∧
    (quats = [] → Q.q = (List.range par.numSlice).map L.rand ∧ Q.par.numSlice = par.numSlice ∧
      Q.vertexIdx.length = par.numSlice) := by
  obtain ⟨h1, h2, -⟩ := build3_idx h
  have h4 : Q.q = ((Planner3.new robot quats arena obs start goal par true).sampleSO3 L).q := by
    unfold Planner3.build at h
    obtain ⟨P1, hf, h⟩ := Res.bind_eq_ok.1 h
    obtain ⟨-, -, h3, -⟩ := slices3_idx _ hf
    unfold Planner3.connectMultiSlice at h
    split at h
    · obtain rfl := (Res.ok.injEq _ _).mp h
      exact h3
    · obtain ⟨g, -, h⟩ := Res.bind_eq_ok.1 h
      obtain rfl := (Res.ok.injEq _ _).mp h
      exact h3
  have h5 := freshQ_q L robot quats arena obs start goal par
  unfold freshQ at h5
  rw [h5] at h4
  have h6 := sampleSO3_len (L := L) (Planner3.new robot quats arena obs start goal par true)
  rw [h5] at h6
  rw [← h6] at h1
  rw [← h2] at h6
  change _ = 0 + _ at h1
  rw [Nat.zero_add] at h1
  constructor
  · intro hq
    have e : orientations L quats par = quats := by unfold orientations; rw [if_neg hq]
    rw [e] at h1 h4 h6
    exact ⟨h4, h6.symm, h1⟩
  · intro hq
    have e : orientations L quats par = (List.range par.numSlice).map L.rand := by unfold orientations; rw [if_pos hq]
    rw [e] at h1 h4 h6
    simp only [List.length_map, List.length_range] at h1 h6
    exact ⟨h4, h6.symm, h1⟩

/-! ## C75 – one call of the incremental `plan`, from the input to the returned path -/

/-- C75: whatever the robot (built by public calls), its kinematics, the obstacles, the parameters, the random draws,
the clock and the number of passes: if planning with a new incremental planner returns, it has made at least one and
(unless the number of interpolation points is 0) fewer than 60 passes; and if it reports success then the returned path
is the start, at least one roadmap vertex, and the goal, every vertex belongs to one of the slices, and every step
between two of them was accepted by one of the checks (with the robot, obstacles and interpolation of the input). -/
theorem C75_prob_plan_end_to_end (L : Libs3) (V : Variant) (A : Arm) (hV : V.arm = some A) (hpick : HeapTop L.pick)
    (base : SuperQuadrics) (ops : List (RobotOp SuperQuadrics 3)) (robot : Tree3)
    (hrun : Tree3.run ops (Tree3.new base) = .ok robot) (quats : List Quat)
    (arena obs : List SuperQuadrics) (hne : arena ≠ [] ∨ obs ≠ []) (start goal : Vec) (hs : start.length = 7 + A.nJ)
    (hg : goal.length = 7 + A.nJ) (par : Param3) (rigid : Bool) (clock : ℕ → ℝ) (timeLim : ℝ) (fuel : ℕ)
    (r' : PlanRep Planner3)
    (h : Planner3.planProb L V A clock timeLim fuel (freshRep3 (.new robot quats arena obs start goal par rigid)) =
      some (.ok r')) :
    ∃ k, 0 < k ∧ (k < 60 ∨ par.numPoint = 0) ∧ r'.st.par.numSlice = k ∧
      (r'.st.res.solved = true → ∃ B M segs mid, cspaceBoundary3 robot arena obs = .ok B ∧
        cspaceMesh arena obs B = .ok M ∧ sweep3D L par.zLo par.zHi M par.linesX par.linesY = .ok segs ∧
        r'.solvedPath = start :: (mid ++ [goal]) ∧ mid ≠ [] ∧
        (∀ v ∈ mid, ∃ i < k, ProbVertex L A start goal M.obstacle segs i v) ∧
        ∀ (n : ℕ) (a b : Vec), mid[n]? = some a → mid[n + 1]? = some b →
          ProbStep L V A robot obs par start goal M.obstacle segs k a b ∨
          ProbStep L V A robot obs par start goal M.obstacle segs k b a) := by
  have hr := run_inv_of3 hrun
  obtain ⟨B, hB, b1, b2, -⟩ := cspaceBoundary3_ok hr arena obs
  obtain ⟨M, hM, -, -⟩ := cspaceMesh_ok b1 b2
  obtain ⟨k, hreach, hk, hpath, -⟩ := planProb_fresh hV hr hne h
  have hi := reach_inv hV hr hB hM rfl hreach
  refine ⟨k + 1, by omega, hk, by rw [hi.epar], fun hsol => ?_⟩
  have hgp := hpath hsol
  have hed := hi.grow.edgesIn (by simp [Graph.EdgesIn, Graph.empty])
  have hok := hi.ok
  have hpb : ∃ s t len, r'.st.graph.PathBetween s t r'.st.res.pathId len := by
    generalize hP : r'.st = P2 at hreach hsol
    cases hreach with
    | @pass _ P P1 _ hrc h0 h1 h2 =>
      have hip := reach_inv hV hr hB hM rfl hrc
      obtain ⟨hi1, e⟩ := addSlice_inv hV hr hB hM rfl hip h1
      obtain ⟨s, t, res, n1, n2, hse, rfl⟩ := search3_ok h2
      rw [e, reach_fresh hV hr hpick hrc h0] at hse
      obtain ⟨s0, -, t0, -, len, hpb, -⟩ := C27_search_returns_path hi1.ok hpick (nearest3DJ_ids n1)
        (nearest3DJ_ids n2) ⟨rfl, rfl⟩ hse hsol
      exact ⟨s0, t0, len, hpb⟩
  obtain ⟨s0, t0, len, hpb⟩ := hpb
  have hids : ∀ i ∈ r'.st.res.pathId, i < r'.st.graph.vertex.length := hpb.1.mem_lt hok
  have hidne : r'.st.res.pathId ≠ [] := by
    intro e
    have hhd := hpb.2.1
    rw [e] at hhd
    exact nomatch hhd
  have hvne : r'.st.graph.vertex ≠ [] := by
    obtain ⟨x, l, e⟩ := List.exists_cons_of_ne_nil hidne
    have := hids x (by rw [e]; simp)
    intro e
    rw [e] at this
    simp at this
  obtain ⟨path, mid, p1, p2, p3, p4, -⟩ := C30_solution_path hok.dims r'.st.start r'.st.goal _ hids hvne
  rw [hgp] at p1
  obtain rfl := (Res.ok.injEq _ _).mp p1
  have hres : ∀ v : Vec, v.length = 7 + A.nJ → resize v (7 + A.nJ) = v := by
    intro v hv
    unfold resize
    rw [List.take_of_length_le hv.le]
    simp [hv]
  rw [hi.estart, hi.egoal, hres start hs, hres goal hg] at p2
  refine ⟨B, M, _, mid, hB, hM, hi.swept (by omega), p2, ?_, ?_, ?_⟩
  · intro hm
    rw [hm] at p3
    exact hidne (List.length_eq_zero_iff.1 p3.symm)
  · intro v hv
    obtain ⟨n, hn⟩ := List.mem_iff_getElem?.1 hv
    have hkl : n < r'.st.res.pathId.length := by rw [← p3]; exact (List.getElem?_eq_some_iff.1 hn).1
    have h4 := p4 n _ (List.getElem?_eq_getElem hkl)
    rw [hn] at h4
    obtain ⟨i, ⟨x, hx, x1, x2⟩, -⟩ := hi.part.exists_unique r'.st.res.pathId[n] (Nat.zero_le _)
      (hids _ (List.getElem_mem _))
    refine ⟨i, ?_, hi.vert i x hx _ v x1 x2 h4.symm⟩
    have := (List.getElem?_eq_some_iff.1 hx).1
    rwa [hi.len] at this
  · intro n a b ha hb'
    have hk2 : n + 1 < mid.length := (List.getElem?_eq_some_iff.1 hb').1
    exact C31_inner_steps_checked_partial hok hed _ _ hpb r'.solvedPath hgp (n + 1) (by omega)
      (by rw [p2]; simp; omega) a b
      (by rw [p2, List.getElem?_cons_succ, List.getElem?_append_left (by omega)]; exact ha)
      (by rw [p2, List.getElem?_cons_succ, List.getElem?_append_left hk2]; exact hb')

end Hrm
