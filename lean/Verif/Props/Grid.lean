import Verif.Props.ProbPlanner
import Verif.Props.Planner2D

/-!
# C78 – where the roadmap vertices are
-/

namespace Hrm

/-- Numbers of the form `lo + i * step` with the step that reaches `hi` at the end. -/
theorem evenly {lo hi : ℝ} {n : ℕ} (hn : 2 ≤ n) :
    EvenlySpaced lo hi n ((List.range n).map fun (i : ℕ) => lo + (i : ℝ) * ((hi - lo) / ((n : ℝ) - 1))) := by
  have h1 : ((n : ℝ) - 1) ≠ 0 := by
    have : (2 : ℝ) ≤ n := by exact_mod_cast hn
    linarith
  refine ⟨by simp, ?_, ?_, ?_⟩
  · rw [List.getElem?_map, List.getElem?_range (by omega)]; simp
  · rw [List.getElem?_map, List.getElem?_range (by omega)]
    simp only [Option.map_some, Option.some.injEq]
    rw [Nat.cast_sub (by omega), Nat.cast_one]
    field_simp
    ring
  · intro k a b c ha hb hc
    have hk : k + 2 < n := by
      have := (List.getElem?_eq_some_iff.1 hc).1
      simpa using this
    rw [List.getElem?_map, List.getElem?_range (by omega)] at ha hb hc
    obtain rfl := Option.some.inj ha
    obtain rfl := Option.some.inj hb
    obtain rfl := Option.some.inj hc
    push_cast
    ring

/-- Evenly spaced numbers lie between the ends. -/
theorem evenly_between {lo hi : ℝ} (h : lo ≤ hi) {n : ℕ} (hn : 2 ≤ n) {y : ℝ}
    (hy : y ∈ (List.range n).map fun (i : ℕ) => lo + (i : ℝ) * ((hi - lo) / ((n : ℝ) - 1))) : lo ≤ y ∧ y ≤ hi := by
  obtain ⟨i, hi', rfl⟩ := List.mem_map.1 hy
  have hin : i < n := List.mem_range.1 hi'
  have hn1 : (0 : ℝ) < (n : ℝ) - 1 := by
    have : (2 : ℝ) ≤ n := by exact_mod_cast hn
    linarith
  have hkle : (i : ℝ) ≤ (n : ℝ) - 1 := by
    have : (i : ℝ) + 1 ≤ n := by exact_mod_cast hin
    linarith
  have hq : 0 ≤ (hi - lo) / ((n : ℝ) - 1) := div_nonneg (by linarith) hn1.le
  have h1 := mul_le_mul_of_nonneg_right hkle hq
  have h2 : ((n : ℝ) - 1) * ((hi - lo) / ((n : ℝ) - 1)) = hi - lo := by field_simp
  have h3 := mul_nonneg (Nat.cast_nonneg (α := ℝ) i) hq
  exact ⟨by linarith, by linarith⟩

/-- C78 (plane): after a returning call of `plan` on a new planner, whatever the scene and the libraries, there are at
least two sweep lines, evenly spaced from the lower to the upper limit in `y`, and every vertex of the roadmap lies on
one of them. -/
theorem C78_planar_vertices_on_lines (L : Libs2) (base : SuperEllipse)
    (ops : List (RobotOp SuperEllipse 2)) (robot : Tree2) (hrun : Tree2.run ops (Tree2.new base) = .ok robot)
    (arena obs : List SuperEllipse) (hne : arena ≠ [] ∨ obs ≠ []) (start goal : Vec)
    (par : Param2) (clock : ℕ → ℝ) (timeLim : ℝ) (fuel : ℕ) (r' : PlanRep Planner2)
    (h : Planner2.plan L clock timeLim fuel (freshRep (.new robot arena obs start goal par)) = some (.ok r')) :
    2 ≤ par.numLineY ∧ ∃ ys, EvenlySpaced par.yLo par.yHi par.numLineY ys ∧
      (par.yLo ≤ par.yHi → ∀ y ∈ ys, par.yLo ≤ y ∧ y ≤ par.yHi) ∧
      ∀ v ∈ r'.st.graph.vertex, ∃ x y th, v = [x, y, th] ∧ y ∈ ys ∧
        ∃ i < par.numSlice, th = heading par.numSlice i := by
  have hr := run_inv_of hrun
  obtain ⟨B, hB, -⟩ := cspaceBoundary_ok hr arena obs
  obtain ⟨P, hb, hsr, h0, -⟩ := plan_fresh hr hB hne h
  obtain ⟨hn1, hl1, rows, r, hrows, hbr, hi⟩ := build_inv hr hB h0 hb
  obtain ⟨hh, s, t, res, -, n1, n2, hse, hQ⟩ := search_ok hsr
  have hvs := C65_planar_vertices_are_samples _ _ _ _ _ _ r.1 r.2 hbr
  have hl0 : par.numLineY ≠ 0 := by
    intro hz
    have hl : par.lines = [] := List.length_eq_zero_iff.1 (by rw [Param2.lines_length, hz])
    rw [hl] at hrows
    unfold sweep2D at hrows
    obtain ⟨t, -, h3⟩ := Res.bind_eq_ok.1 hrows
    simp [computeFreeSegment, freeRows, enhance] at h3
  refine ⟨by omega, par.lines, evenly (by omega), fun h y hy => evenly_between h (by omega) hy, fun v hv => ?_⟩
  rw [hQ] at hv
  change v ∈ P.graph.vertex at hv
  rw [hi.graph, hvs] at hv
  obtain ⟨i, hi', hv⟩ := List.mem_flatMap.1 hv
  obtain ⟨l, hl, hv⟩ := List.mem_flatten.1 hv
  obtain ⟨k, hk⟩ := List.mem_iff_getElem?.1 hl
  rw [List.getElem?_zipWith] at hk
  split at hk
  · rename_i y rw' hy hrk
    obtain rfl := Option.some.inj hk
    obtain ⟨x, hx, rfl⟩ := List.mem_map.1 hv
    exact ⟨x, y, _, rfl, List.mem_of_getElem? hy, i, List.mem_range.1 hi', rfl⟩
  · exact nomatch hk

/-- Samples of a spatial slice, and configurations inserted between two of them, are on the grid. -/
theorem slice_on_grid {L : Libs3} {lowB upB : ℝ} {m : BoundMesh} {xs ys : List ℝ} {segs : List (ℝ × FreeSeg)}
    (hs : sweep3D L lowB upB m xs ys = .ok segs) {ori v : Vec} {free : Vec → Vec → Res Bool}
    (h : SliceSample ori segs v ∨ BridgeOf free (SliceSample ori segs) v) :
    ∃ x ∈ xs, ∃ y ∈ ys, ∃ z, v = x :: y :: z :: ori := by
  obtain ⟨-, hf⟩ := sweep3D_fst hs
  have key : ∀ v, SliceSample ori segs v → ∃ x ∈ xs, ∃ y ∈ ys, ∃ z, v = x :: y :: z :: ori := by
    rintro v ⟨p, hp, j, y, r, z, hy, -, -, rfl⟩
    obtain ⟨k, hk⟩ := List.mem_iff_getElem?.1 hp
    obtain ⟨h1, h2⟩ := hf k p hk
    unfold planeSeg at h2
    obtain ⟨t, -, h2⟩ := Res.bind_eq_ok.1 h2
    obtain ⟨rows, -, h2⟩ := Res.bind_eq_ok.1 h2
    have h3 := (Res.ok.injEq _ _).mp h2
    rw [← h3] at hy
    exact ⟨p.1, List.mem_of_getElem? h1, y, List.mem_of_getElem? hy, z, rfl⟩
  rcases h with h | ⟨v1, v2, s1, s2, -, hv, -, -⟩
  · exact key v h
  · obtain ⟨x1, hx1, y1, hy1, z1, rfl⟩ := key v1 s1
    obtain ⟨x2, hx2, y2, hy2, z2, rfl⟩ := key v2 s2
    rcases hv with ⟨z, -, rfl⟩ | ⟨z, -, rfl⟩
    · exact ⟨x1, hx1, y1, hy1, z, rfl⟩
    · exact ⟨x2, hx2, y2, hy2, z, rfl⟩

/-- C78 (space): after a returning call of `plan` on a new planner, whatever the scene and the libraries, there are at
least two sweep lines in each direction, evenly spaced from the lower to the upper limits in `x` and in `y`, and every
vertex of the roadmap lies on one of the vertical lines through the grid. -/
theorem C78_spatial_vertices_on_grid (L : Libs3) (V : Variant) (hV : V.arm = none)
    (base : SuperQuadrics) (ops : List (RobotOp SuperQuadrics 3)) (robot : Tree3)
    (hrun : Tree3.run ops (Tree3.new base) = .ok robot) (quats : List Quat)
    (arena obs : List SuperQuadrics) (hne : arena ≠ [] ∨ obs ≠ []) (start goal : Vec)
    (par : Param3) (clock : ℕ → ℝ) (timeLim : ℝ) (fuel : ℕ) (r' : PlanRep Planner3)
    (h : Planner3.plan L V clock timeLim fuel (freshRep3 (.new robot quats arena obs start goal par true)) =
      some (.ok r')) :
    2 ≤ par.numLineX ∧ 2 ≤ par.numLineY ∧ ∃ xs ys, EvenlySpaced par.xLo par.xHi par.numLineX xs ∧
      EvenlySpaced par.yLo par.yHi par.numLineY ys ∧
      (par.xLo ≤ par.xHi → ∀ x ∈ xs, par.xLo ≤ x ∧ x ≤ par.xHi) ∧
      (par.yLo ≤ par.yHi → ∀ y ∈ ys, par.yLo ≤ y ∧ y ≤ par.yHi) ∧
      ∀ v ∈ r'.st.graph.vertex, ∃ x ∈ xs, ∃ y ∈ ys, ∃ z, ∃ q ∈ orientations L quats par,
        v = conf7 x y z (matQuat (quatRot q)) := by
  have hr := run_inv_of3 hrun
  obtain ⟨B, hB, b1, b2, -⟩ := cspaceBoundary3_ok hr arena obs
  obtain ⟨M, hM, -, -⟩ := cspaceMesh_ok b1 b2
  obtain ⟨P, hb, hsr, h0, -⟩ := plan_fresh3 hV hr hne h
  obtain ⟨hx, hy, -⟩ := build3_sweep_ok hV hr hB hM rfl h0 hb
  obtain ⟨segs, r, hsegs, -, hbr, hi⟩ := build3_inv hV hr hB hM rfl h0 hb
  obtain ⟨s, t, res, n1, n2, hse, hQ⟩ := search3_ok hsr
  have hq := freshQ_q L robot quats arena obs start goal par
  obtain ⟨l1, l2⟩ := build3_lines (L := L) (M := M) (par := par) (by
    intro e; exact h0 (List.length_eq_zero_iff.1 e)) hsegs hbr
  have hvs := C65_spatial_vertices (qDist L.ang (freshQ L robot quats arena obs start goal par).q)
    (fun _ => sameFree3 M.obstacle) ((freshQ L robot quats arena obs start goal par).freeMulti L V) par.gapX par.gapY
    (fun i => [(sliceQuat (freshQ L robot quats arena obs start goal par).q i).1,
      (sliceQuat (freshQ L robot quats arena obs start goal par).q i).2.1,
      (sliceQuat (freshQ L robot quats arena obs start goal par).q i).2.2.1,
      (sliceQuat (freshQ L robot quats arena obs start goal par).q i).2.2.2])
    (fun _ => segs) (freshQ L robot quats arena obs start goal par).q.length 4 (fun _ => rfl) r.1 r.2 hbr
  refine ⟨by omega, by omega, par.linesX, par.linesY, evenly (by omega), evenly (by omega),
    fun h x hx => evenly_between h (by omega) hx, fun h y hy => evenly_between h (by omega) hy, fun v hv => ?_⟩
  rw [hQ] at hv
  change v ∈ P.graph.vertex at hv
  rw [hi.graph] at hv
  obtain ⟨i, hi', hv⟩ := hvs v hv
  obtain ⟨x, hx', y, hy', z, rfl⟩ := slice_on_grid hsegs hv
  rw [hq] at hi' ⊢
  refine ⟨x, hx', y, hy', z, (orientations L quats par)[i], List.getElem_mem _, ?_⟩
  unfold sliceQuat
  rw [List.getD_eq_getElem?_getD, List.getElem?_eq_getElem hi']
  rfl

/-- C78 (incremental planner): the same after a returning call of its `plan`, and the rest of each vertex is the
orientation and the joint angles of one of the slices. -/
theorem C78_incremental_vertices_on_grid (L : Libs3) (V : Variant) (A : Arm) (hV : V.arm = some A)
    (base : SuperQuadrics) (ops : List (RobotOp SuperQuadrics 3)) (robot : Tree3)
    (hrun : Tree3.run ops (Tree3.new base) = .ok robot) (quats : List Quat)
    (arena obs : List SuperQuadrics) (hne : arena ≠ [] ∨ obs ≠ []) (start goal : Vec)
    (par : Param3) (rigid : Bool) (clock : ℕ → ℝ) (timeLim : ℝ) (fuel : ℕ) (r' : PlanRep Planner3)
    (h : Planner3.planProb L V A clock timeLim fuel (freshRep3 (.new robot quats arena obs start goal par rigid)) =
      some (.ok r')) :
    2 ≤ par.numLineX ∧ 2 ≤ par.numLineY ∧ ∃ xs ys, EvenlySpaced par.xLo par.xHi par.numLineX xs ∧
      EvenlySpaced par.yLo par.yHi par.numLineY ys ∧
      (par.xLo ≤ par.xHi → ∀ x ∈ xs, par.xLo ≤ x ∧ x ≤ par.xHi) ∧
      (par.yLo ≤ par.yHi → ∀ y ∈ ys, par.yLo ≤ y ∧ y ≤ par.yHi) ∧
      ∀ v ∈ r'.st.graph.vertex, ∃ x ∈ xs, ∃ y ∈ ys, ∃ z, ∃ i < r'.st.par.numSlice,
        v = x :: y :: z :: probTail L A start goal i := by
  have hr := run_inv_of3 hrun
  obtain ⟨B, hB, b1, b2, -⟩ := cspaceBoundary3_ok hr arena obs
  obtain ⟨M, hM, -, -⟩ := cspaceMesh_ok b1 b2
  obtain ⟨k, hreach, -, -⟩ := planProb_fresh hV hr hne h
  have hi := reach_inv hV hr hB hM rfl hreach
  obtain ⟨l1, l2⟩ := hi.lines (by omega)
  refine ⟨l1, l2, par.linesX, par.linesY, evenly l1, evenly l2,
    fun h x hx => evenly_between h l1 hx, fun h y hy => evenly_between h l2 hy, fun v hv => ?_⟩
  obtain ⟨m, hm⟩ := List.mem_iff_getElem?.1 hv
  obtain ⟨i, ⟨s, hs, hs1, hs2⟩, -⟩ := hi.part.exists_unique m (Nat.zero_le m) (List.getElem?_eq_some_iff.1 hm).1
  have hik : i < k + 1 := by rw [← hi.len]; exact (List.getElem?_eq_some_iff.1 hs).1
  obtain ⟨x, hx, y, hy, z, rfl⟩ := slice_on_grid (hi.swept (by omega)) (hi.vert i s hs m v hs1 hs2 hm)
  exact ⟨x, hx, y, hy, z, i, by rw [hi.epar]; exact hik, rfl⟩

end Hrm
