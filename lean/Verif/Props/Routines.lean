import Verif.Lemmas.Routines
import Verif.Props.DemoSafe
import Verif.Props.Grid

/-!
# C99 – the stored details of a run (`storeRoutines`)
-/

namespace Hrm

/-- The third number of a row is that of some row of the table at the same place of the plane, or of another row. -/
theorem vertex_row {segs : List (ℝ × FreeSeg)} (ha : ∀ p ∈ segs, p.2.Aligned) {ori v : Vec}
    {free : Vec → Vec → Res Bool} (h : SliceSample ori segs v ∨ BridgeOf free (SliceSample ori segs) v) :
    ∃ x y l m u x' y' l' z u', [x, y, l, m, u] ∈ segmentRows segs ∧ [x', y', l', z, u'] ∈ segmentRows segs ∧
      v = x :: y :: z :: ori := by
  rcases h with h | ⟨v1, v2, s1, s2, -, hv, -, -⟩
  · obtain ⟨x, y, l, m, u, hm, rfl⟩ := sample_row ha h
    exact ⟨x, y, l, m, u, x, y, l, m, u, hm, hm, rfl⟩
  · obtain ⟨x1, y1, l1, m1, u1, hm1, rfl⟩ := sample_row ha s1
    obtain ⟨x2, y2, l2, m2, u2, hm2, rfl⟩ := sample_row ha s2
    rcases hv with ⟨z, hz, rfl⟩ | ⟨z, hz, rfl⟩
    · obtain rfl : m2 = z := by simpa using hz
      exact ⟨x1, y1, l1, m1, u1, x2, y2, l2, m2, u2, hm1, hm2, rfl⟩
    · obtain rfl : m1 = z := by simpa using hz
      exact ⟨x2, y2, l2, m2, u2, x1, y1, l1, m1, u1, hm2, hm1, rfl⟩

/-- The three files of details. -/
def routineFiles (D : Dirs) (suffix : List Char) : List (List Char) :=
  ["origin_bound", "mink_bound", "segment"].map fun k => outFile D k.toList suffix

/-- What is stored, when the boundary of slice 0 is `B`, meshed as `M`, and the sweep on it returns `segs`. -/
theorem storeRoutines_ok {L : Libs3} {P : Planner3} {B : Bound3} {M : BoundMesh} {segs : List (ℝ × FreeSeg)} {f' : Fs3}
    (hb0 : Res.at' P.sliceBoundAll 0 = .ok B) (hM : cspaceMesh P.arena P.obs B = .ok M)
    (hsw : ({ P.fs with mesh := M } : Fs3).sweep L P.par = .ok (f', segs)) (hal : ∀ p ∈ segs, p.2.Aligned)
    (pr : ℝ → List Char) (prM : List (Fin 3 → ℝ) → List Char) (D : Dirs) (suffix : List Char) (fs : Files) :
    ∃ fs' : Files, storeRoutines L pr prM D suffix P fs = .ok fs' ∧
      (∀ n, n ∉ routineFiles D suffix → fs' n = fs n) ∧
      fs' (outFile D "origin_bound".toList suffix) =
        some ((P.obs ++ P.arena).flatMap fun o => prM o.originShape ++ ['\n']) ∧
      fs' (outFile D "mink_bound".toList suffix) = some ((B.obstacle ++ B.arena).flatMap fun b => prM b ++ ['\n']) ∧
      fs' (outFile D "segment".toList suffix) = some ((segmentRows segs).flatMap (writeRow pr)) := by
  have hnd : (routineFiles D suffix).Nodup := by simp [routineFiles, outFile]
  simp only [routineFiles, List.map_cons, List.map_nil, List.nodup_cons, List.mem_cons, List.not_mem_nil, or_false, not_or,
    List.nodup_nil, and_true, not_false_eq_true] at hnd
  obtain ⟨⟨d1, d2⟩, d3⟩ := hnd
  refine ⟨_, by
    unfold storeRoutines Planner3.freeSegmentOneSlice
    dsimp only
    rw [hb0, Res.bind_ok', hM, Res.bind_ok', hsw, Res.bind_ok', Res.bind_ok', segText_eq pr hal, Res.bind_ok'], ?_, ?_, ?_,
    Files.put_same _ _ _⟩
  · intro n hn
    simp only [routineFiles, List.map_cons, List.map_nil, List.mem_cons, List.not_mem_nil, or_false, not_or] at hn
    rw [Files.put_ne _ _ hn.2.2, Files.put_ne _ _ hn.2.1, Files.put_ne _ _ hn.1]
  · rw [Files.put_ne _ _ d2, Files.put_ne _ _ d1, Files.put_same]
    simp [boundText, List.flatMap_map]
  · rw [Files.put_ne _ _ d3, Files.put_same]
    simp [boundText]

/-- A row stored: it lies on the grid, its middle is a sample, and it is free. -/
theorem routine_row {L : Libs3} {par : Param3} {M : BoundMesh} {segs : List (ℝ × FreeSeg)}
    (hsegs : sweep3D L par.zLo par.zHi M par.linesX par.linesY = .ok segs) {row : List ℝ} (hrow : row ∈ segmentRows segs) :
    ∃ x y l m u, row = [x, y, l, m, u] ∧ x ∈ par.linesX ∧ y ∈ par.linesY ∧
      (∀ ori, SliceSample ori segs (x :: y :: m :: ori)) ∧
      (SweepGeneric3 L par M → l ≤ m ∧ m ≤ u ∧ ∀ z, l ≤ z → z ≤ u → ∀ s ∈ M.obstacle, ¬ Covered s x y z) := by
  obtain ⟨p, hp, j, k, y, rw', l, m, u, hy', hr', hl, hm, hu, rfl⟩ := mem_segmentRows hrow
  obtain ⟨hfst, hpl⟩ := (sweep3D_planes _ _ _ hsegs p hp).resolve_left (by simp)
  have hty : p.2.ty = par.linesY := by
    unfold planeSeg at hpl
    obtain ⟨_, -, hpl⟩ := Res.bind_eq_ok.1 hpl
    obtain ⟨_, -, hpl⟩ := Res.bind_eq_ok.1 hpl
    rw [← (Res.ok.injEq _ _).mp hpl]
  refine ⟨p.1, y, l, m, u, rfl, hfst, by rw [← hty]; exact List.mem_of_getElem? hy',
    fun ori => ⟨p, hp, j, y, rw', m, hy', hr', List.mem_of_getElem? hm, rfl⟩, fun hg => ?_⟩
  obtain ⟨-, -, ⟨T, t1, t2, t3, t4⟩, hcov⟩ := C87_sweep_columns hg hsegs p hp j y rw' hy' hr'
  have ht : ∃ τ ∈ T, τ.1 = l ∧ τ.2.1 = m ∧ τ.2.2 = u := by
    rw [t1, List.getElem?_map] at hl
    rw [t2, List.getElem?_map] at hm
    rw [t3, List.getElem?_map] at hu
    obtain ⟨τ, e, rfl⟩ := Option.map_eq_some_iff.1 hl
    rw [e] at hm hu
    exact ⟨τ, List.mem_of_getElem? e, rfl, Option.some.inj hm, Option.some.inj hu⟩
  obtain ⟨τ, hτ, rfl, rfl, rfl⟩ := ht
  have hl' : rw'.L[k]? = some τ.1 := hl
  have hu' : rw'.U[k]? = some τ.2.2 := hu
  exact ⟨(t4 τ hτ).1, (t4 τ hτ).2, fun z z1 z2 => hcov k _ _ z hl' hu' z1 z2⟩

/-- C99 (after planning): after a returning call of `plan` on a new planner, whatever the scene and the libraries, the
details are always stored, in three files: the surfaces of the obstacles and of the arena; the boundaries of the
configuration space of the robot as given to the constructor; and the free segments. The middle of each segment stored is,
at each orientation, a vertex of the roadmap, and each vertex is above a segment stored, at the height of the middle of one.
No point of a segment stored has a face of an obstacle mesh both above and below it (in general position). -/
theorem C99_stored_details (L : Libs3) (V : Variant) (hV : V.arm = none)
    (base : SuperQuadrics) (ops : List (RobotOp SuperQuadrics 3)) (robot : Tree3)
    (hrun : Tree3.run ops (Tree3.new base) = .ok robot) (quats : List Quat)
    (arena obs : List SuperQuadrics) (hne : arena ≠ [] ∨ obs ≠ []) (start goal : Vec)
    (par : Param3) (clock : ℕ → ℝ) (timeLim : ℝ) (fuel : ℕ) (r' : PlanRep Planner3)
    (h : Planner3.plan L V clock timeLim fuel (freshRep3 (.new robot quats arena obs start goal par true)) =
      some (.ok r'))
    (pr : ℝ → List Char) (prM : List (Fin 3 → ℝ) → List Char) (D : Dirs) (suffix : List Char) (fs : Files) :
    ∃ (fs' : Files) (B : Bound3) (M : BoundMesh) (rows : List (List ℝ)) (xs ys : List ℝ),
      storeRoutines L pr prM D suffix r'.st fs = .ok fs' ∧
      (∀ n, n ∉ routineFiles D suffix → fs' n = fs n) ∧
      cspaceBoundary3 robot arena obs = .ok B ∧ cspaceMesh arena obs B = .ok M ∧
      fs' (outFile D "origin_bound".toList suffix) =
        some ((obs ++ arena).flatMap fun o => prM o.originShape ++ ['\n']) ∧
      fs' (outFile D "mink_bound".toList suffix) = some ((B.obstacle ++ B.arena).flatMap fun b => prM b ++ ['\n']) ∧
      fs' (outFile D "segment".toList suffix) = some (rows.flatMap (writeRow pr)) ∧
      EvenlySpaced par.xLo par.xHi par.numLineX xs ∧ EvenlySpaced par.yLo par.yHi par.numLineY ys ∧
      (∀ row ∈ rows, ∃ x y l m u, row = [x, y, l, m, u] ∧ x ∈ xs ∧ y ∈ ys ∧
        (∀ q ∈ orientations L quats par, conf7 x y m (matQuat (quatRot q)) ∈ r'.st.graph.vertex) ∧
        (SweepGeneric3 L par M → l ≤ m ∧ m ≤ u ∧ ∀ z, l ≤ z → z ≤ u → ∀ s ∈ M.obstacle, ¬ Covered s x y z)) ∧
      ∀ v ∈ r'.st.graph.vertex, ∃ q ∈ orientations L quats par, ∃ x y l m u x' y' l' z u',
        [x, y, l, m, u] ∈ rows ∧ [x', y', l', z, u'] ∈ rows ∧ v = conf7 x y z (matQuat (quatRot q)) := by
  have hr := run_inv_of3 hrun
  obtain ⟨B, hB, b1, b2, -⟩ := cspaceBoundary3_ok hr arena obs
  obtain ⟨M, hM, -, -⟩ := cspaceMesh_ok b1 b2
  obtain ⟨P, hb, hsr, h0, -⟩ := plan_fresh3 hV hr hne h
  obtain ⟨hx, hy, -⟩ := build3_sweep_ok hV hr hB hM rfl h0 hb
  obtain ⟨segs, r, hsegs, hgood, hbr, hi⟩ := build3_inv hV hr hB hM rfl h0 hb
  obtain ⟨s, t, res, n1, n2, hse, hQ⟩ := search3_ok hsr
  have hq := freshQ_q L robot quats arena obs start goal par
  have hal := sweep3D_aligned hsegs
  obtain ⟨s1, s2, s3, s4, s5, s6, s7, s8, s9, s10, s11, s12, s13, s14, s15, n, s16⟩ :=
    sampleSO3_same (L := L) (Planner3.new robot quats arena obs start goal par true)
  have hpar : P.par = { par with numSlice := n } := hi.par.trans s16
  have hvert : r'.st.graph.vertex = r.1.vertex := by
    rw [hQ]; change P.graph.vertex = _; rw [hi.graph]
  have eA : P.arena = arena := hi.arena.trans s3
  have eO : P.obs = obs := hi.obs.trans s4
  have hb0 : Res.at' r'.st.sliceBoundAll 0 = .ok B := by
    rw [hQ]
    change Res.at' P.sliceBoundAll 0 = .ok B
    rw [hi.bounds, Res.at'_eq_ok, List.getElem?_replicate, if_pos (List.length_pos_iff.2 h0)]
  obtain ⟨t', -, hsw⟩ := sweep3_total (L := L) (p := P.par) (f := { P.fs with mesh := M }) (segs := segs)
    (by rw [hpar]; exact hx) (by rw [hpar]; exact hy)
    (by
      have := hi.shape
      rw [s16] at this
      rw [hpar]; exact this)
    (by rw [hpar]; exact hgood)
    (by
      have e1 := hi.low
      have e2 := hi.up
      rw [s16] at e1 e2
      simp only [e1, e2]
      rw [hpar]; exact hsegs)
  obtain ⟨fs', f1, f2, f3, f4, f5⟩ := storeRoutines_ok (L := L) (P := r'.st) (B := B) (M := M) (segs := segs) hb0
    (by rw [hQ]; change cspaceMesh P.arena P.obs B = _; rw [eA, eO]; exact hM) (by rw [hQ]; exact hsw) hal pr prM D suffix fs
  have e3 : r'.st.obs ++ r'.st.arena = obs ++ arena := by
    rw [hQ]; change P.obs ++ P.arena = _; rw [eA, eO]
  rw [e3] at f3
  obtain ⟨l1, l2⟩ := build3_lines (L := L) (M := M) (par := par) (by
    intro e; exact h0 (List.length_eq_zero_iff.1 e)) hsegs hbr
  refine ⟨fs', B, M, segmentRows segs, par.linesX, par.linesY, f1, f2, hB, hM, f3, f4, f5,
    evenly (by omega), evenly (by omega), ?_, ?_⟩
  · intro row hrow
    obtain ⟨x, y, l, m, u, rfl, hx', hy', hsam, hfree⟩ := routine_row hsegs hrow
    refine ⟨x, y, l, m, u, rfl, hx', hy', fun q hqm => ?_, hfree⟩
    rw [hvert]
    obtain ⟨i, hiq⟩ := List.mem_iff_getElem?.1 hqm
    have hil : i < (freshQ L robot quats arena obs start goal par).q.length := by
      rw [hq]; exact (List.getElem?_eq_some_iff.1 hiq).1
    obtain ⟨-, hlen, -, hsl, -⟩ := (buildRoadmap3D_sat (tot := False) (dim := 7) (fun _ v => v.length = 7)
      (fun _ _ h => h)
      (by rintro i p _ v ⟨_, _, _, _, -, -, -, rfl⟩; rfl)
      (by
        rintro i v1 v2 v z ⟨p1, _, _, _, _, _, -, -, -, rfl⟩ ⟨p2, _, _, _, _, _, -, -, -, rfl⟩ _ hv _ _
        rcases hv with ⟨-, rfl⟩ | ⟨-, rfl⟩ <;> simp [mkVertex])
      (fun e => e.elim)).1 r hbr
    obtain ⟨⟨-, hpl'⟩, -⟩ := hsl i _ (List.getElem?_eq_getElem (by rw [hlen]; exact hil))
    have e : sliceQuat (freshQ L robot quats arena obs start goal par).q i = matQuat (quatRot q) := by
      unfold sliceQuat
      rw [hq, List.getD_eq_getElem?_getD, hiq]; rfl
    obtain ⟨p, hp, j, y', rw', m', h1, h2, h3, h4⟩ := hsam (conf7 x y m (matQuat (quatRot q)) |>.drop 3)
    obtain ⟨rfl, rfl, rfl⟩ : x = p.1 ∧ y = y' ∧ m = m' := by simpa using h4
    obtain ⟨kp, hkp⟩ := List.mem_iff_getElem?.1 hp
    obtain ⟨plane, -, hok⟩ := hpl' kp p hkp
    obtain ⟨k, hk⟩ := List.mem_iff_getElem?.1 h3
    obtain ⟨nn, -, hv⟩ := hok.2 j y rw' k m h1 h2 hk
    have := List.mem_of_getElem? hv
    rw [e] at this
    exact this
  · intro v hv
    rw [hvert] at hv
    obtain ⟨i, hil, hv⟩ := C65_spatial_vertices (qDist L.ang (freshQ L robot quats arena obs start goal par).q)
      (fun _ => sameFree3 M.obstacle) ((freshQ L robot quats arena obs start goal par).freeMulti L V) par.gapX par.gapY
      (fun i => [(sliceQuat (freshQ L robot quats arena obs start goal par).q i).1,
        (sliceQuat (freshQ L robot quats arena obs start goal par).q i).2.1,
        (sliceQuat (freshQ L robot quats arena obs start goal par).q i).2.2.1,
        (sliceQuat (freshQ L robot quats arena obs start goal par).q i).2.2.2])
      (fun _ => segs) (freshQ L robot quats arena obs start goal par).q.length 4 (fun _ => rfl) r.1 r.2 hbr v hv
    obtain ⟨x, y, l, m, u, x', y', l', z, u', h1, h2, rfl⟩ := vertex_row hal hv
    rw [hq] at hil ⊢
    refine ⟨(orientations L quats par)[i], List.getElem_mem _, x, y, l, m, u, x', y', l', z, u', h1, h2, ?_⟩
    unfold sliceQuat
    rw [List.getD_eq_getElem?_getD, List.getElem?_eq_getElem hil]
    rfl

/-- C99 (incremental planner): the same after a returning call of the `plan` of the incremental planner, with the joint
angles of each slice. -/
theorem C99_stored_details_incremental (L : Libs3) (V : Variant) (A : Arm) (hV : V.arm = some A)
    (base : SuperQuadrics) (ops : List (RobotOp SuperQuadrics 3)) (robot : Tree3)
    (hrun : Tree3.run ops (Tree3.new base) = .ok robot) (quats : List Quat)
    (arena obs : List SuperQuadrics) (hne : arena ≠ [] ∨ obs ≠ []) (start goal : Vec)
    (par : Param3) (rigid : Bool) (clock : ℕ → ℝ) (timeLim : ℝ) (fuel : ℕ) (r' : PlanRep Planner3)
    (h : Planner3.planProb L V A clock timeLim fuel (freshRep3 (.new robot quats arena obs start goal par rigid)) =
      some (.ok r'))
    (pr : ℝ → List Char) (prM : List (Fin 3 → ℝ) → List Char) (D : Dirs) (suffix : List Char) (fs : Files) :
    ∃ (fs' : Files) (B : Bound3) (M : BoundMesh) (rows : List (List ℝ)) (xs ys : List ℝ),
      storeRoutines L pr prM D suffix r'.st fs = .ok fs' ∧
      (∀ n, n ∉ routineFiles D suffix → fs' n = fs n) ∧
      cspaceBoundary3 robot arena obs = .ok B ∧ cspaceMesh arena obs B = .ok M ∧
      fs' (outFile D "origin_bound".toList suffix) =
        some ((obs ++ arena).flatMap fun o => prM o.originShape ++ ['\n']) ∧
      fs' (outFile D "mink_bound".toList suffix) = some ((B.obstacle ++ B.arena).flatMap fun b => prM b ++ ['\n']) ∧
      fs' (outFile D "segment".toList suffix) = some (rows.flatMap (writeRow pr)) ∧
      EvenlySpaced par.xLo par.xHi par.numLineX xs ∧ EvenlySpaced par.yLo par.yHi par.numLineY ys ∧
      (∀ row ∈ rows, ∃ x y l m u, row = [x, y, l, m, u] ∧ x ∈ xs ∧ y ∈ ys ∧
        (∀ i < r'.st.par.numSlice, x :: y :: m :: probTail L A start goal i ∈ r'.st.graph.vertex) ∧
        (SweepGeneric3 L par M → l ≤ m ∧ m ≤ u ∧ ∀ z, l ≤ z → z ≤ u → ∀ s ∈ M.obstacle, ¬ Covered s x y z)) ∧
      ∀ v ∈ r'.st.graph.vertex, ∃ i < r'.st.par.numSlice, ∃ x y l m u x' y' l' z u',
        [x, y, l, m, u] ∈ rows ∧ [x', y', l', z, u'] ∈ rows ∧ v = x :: y :: z :: probTail L A start goal i := by
  have hr := run_inv_of3 hrun
  obtain ⟨B, hB, b1, b2, -⟩ := cspaceBoundary3_ok hr arena obs
  obtain ⟨M, hM, -, -⟩ := cspaceMesh_ok b1 b2
  obtain ⟨k, hreach, -, -⟩ := planProb_fresh hV hr hne h
  have hi := reach_inv hV hr hB hM rfl hreach
  obtain ⟨l1, l2⟩ := hi.lines (by omega)
  have hsegs := hi.swept (by omega)
  set segs := okList (sweep3D L par.zLo par.zHi M par.linesX par.linesY) with hsd
  have hal := sweep3D_aligned hsegs
  have hns : r'.st.par.numSlice = k + 1 := by rw [hi.epar]
  have hb0 : Res.at' r'.st.sliceBoundAll 0 = .ok B := by
    have hpos : 0 < r'.st.sliceBoundAll.length := by rw [hi.bounds.1]; omega
    have hmem := hi.bounds.2 _ (List.getElem_mem hpos)
    rw [hB] at hmem
    rw [Res.at'_eq_ok, List.getElem?_eq_getElem hpos, ← (Res.ok.injEq _ _).mp hmem]
  obtain ⟨t', -, hsw⟩ := sweep3_total (L := L) (p := r'.st.par) (f := { r'.st.fs with mesh := M }) (segs := segs)
    (by rw [hi.epar]; dsimp only; omega) (by rw [hi.epar]; dsimp only; omega)
    (by rw [hi.epar]; exact hi.shape) (by rw [hi.epar]; exact hi.good (by omega))
    (by simp only [hi.low, hi.up]; rw [hi.epar]; exact hsegs)
  obtain ⟨fs', f1, f2, f3, f4, f5⟩ := storeRoutines_ok (L := L) (P := r'.st) (B := B) (M := M) (segs := segs) hb0
    (by rw [hi.earena, hi.eobs]; exact hM) hsw hal pr prM D suffix fs
  rw [hi.earena, hi.eobs] at f3
  refine ⟨fs', B, M, segmentRows segs, par.linesX, par.linesY, f1, f2, hB, hM, f3, f4, f5,
    evenly l1, evenly l2, ?_, fun v hv => ?_⟩
  · intro row hrow
    obtain ⟨x, y, l, m, u, rfl, hx', hy', hsam, hfree⟩ := routine_row hsegs hrow
    exact ⟨x, y, l, m, u, rfl, hx', hy', fun i hik => hi.placed i (by omega) _ (hsam _), hfree⟩
  · obtain ⟨m, hm⟩ := List.mem_iff_getElem?.1 hv
    obtain ⟨i, ⟨s, hs, hs1, hs2⟩, -⟩ := hi.part.exists_unique m (Nat.zero_le m) (List.getElem?_eq_some_iff.1 hm).1
    have hik : i < k + 1 := by rw [← hi.len]; exact (List.getElem?_eq_some_iff.1 hs).1
    obtain ⟨x, y, l, m', u, x', y', l', z, u', h1, h2, rfl⟩ := vertex_row hal (hi.vert i s hs m v hs1 hs2 hm)
    exact ⟨i, by omega, x, y, l, m', u, x', y', l', z, u', h1, h2, rfl⟩

/-- C99 (program): whenever the part of the program up to the storing of the path ends normally, so does the whole program;
it changes three more files, and they are about the arena, the obstacles and the robot in this task's resource files, and
about the vertices stored. -/
theorem C99_program_details (L : Libs3) (V : Variant) (hV : V.arm = none) {stof : List Char → Scan} {pr : ℝ → List Char}
    {prN : Option ℝ → List Char} (prM : List (Fin 3 → ℝ) → List Char) {D : Dirs} {T : Task} (hT : T.Plain)
    (hD : D.cfg ≠ D.resDim T) (hdim : T.dim = "3D".toList) {quatFile : List Char}
    (hq0 : quatFile ≠ "0".toList) (hq : quatFile ∉ cfgFiles D T.dim) {num : ℕ} {suffix : List Char} {clock : ℕ → ℝ}
    {timeLim : ℝ} {fuel : ℕ} {fs fs' : Files}
    (h : demoHRM3D L V stof pr prN D T quatFile num suffix clock timeLim fuel fs = some (.ok fs')) :
    ∃ (fs'' : Files) (ta tb tr : List Char) (arena obs : List SuperQuadrics) (robot : Tree3) (quats : List Quat)
      (par : Param3) (B : Bound3) (M : BoundMesh) (rows : List (List ℝ)) (vertices : List Vec),
      mainHRM3D L V stof pr prN prM D T quatFile num suffix clock timeLim fuel fs = some (.ok fs'') ∧
      (∀ n, n ∉ routineFiles D suffix → fs'' n = fs' n) ∧
      parseGeometricModel stof pr (fs (arenaRes D T)) = .ok ta ∧ loadQuadrics stof num (some ta) = .ok arena ∧
      parseGeometricModel stof pr (fs (obsRes D T)) = .ok tb ∧ loadQuadrics stof num (some tb) = .ok obs ∧
      parseGeometricModel stof pr (fs (robotRes D T)) = .ok tr ∧
      loadRobot3 stof num (some tr) (some (fs quatFile)) = .ok (robot, quats) ∧
      defineParameters3 robot quats arena obs defaultParam3 = .ok par ∧
      cspaceBoundary3 robot arena obs = .ok B ∧ cspaceMesh arena obs B = .ok M ∧
      fs'' (outFile D "origin_bound".toList suffix) =
        some ((obs ++ arena).flatMap fun o => prM o.originShape ++ ['\n']) ∧
      fs'' (outFile D "mink_bound".toList suffix) = some ((B.obstacle ++ B.arena).flatMap fun b => prM b ++ ['\n']) ∧
      fs'' (outFile D "segment".toList suffix) = some (rows.flatMap (writeRow pr)) ∧
      fs'' (outFile D "vertex".toList suffix) = some (writeRows pr vertices) ∧
      (∀ row ∈ rows, ∃ x y l m u, row = [x, y, l, m, u] ∧
        (∀ q ∈ orientations L quats par, conf7 x y m (matQuat (quatRot q)) ∈ vertices) ∧
        (SweepGeneric3 L par M → l ≤ m ∧ m ≤ u ∧ ∀ z, l ≤ z → z ≤ u → ∀ s ∈ M.obstacle, ¬ Covered s x y z)) ∧
      ∀ v ∈ vertices, ∃ q ∈ orientations L quats par, ∃ x y l m u x' y' l' z u',
        [x, y, l, m, u] ∈ rows ∧ [x', y', l', z, u'] ∈ rows ∧ v = conf7 x y z (matQuat (quatRot q)) := by
  unfold demoHRM3D at h
  unfold mainHRM3D
  cases hset : setupDemo3 stof pr D T quatFile num fs with
  | throw => rw [hset] at h; exact nomatch h
  | ub => rw [hset] at h; exact nomatch h
  | ok v =>
    obtain ⟨fs1, P⟩ := v
    rw [hset] at h
    dsimp only at h ⊢
    obtain ⟨-, ta, tb, tr, te, ends, robot, quats, arena, obs, start, goal, par, hta, htb, htr, -, hla, hlo, hrob, -,
      -, -, hpar, rfl⟩ := C96_planner_of_resources hT hD hdim hq0 hq hset
    obtain ⟨b, ls, hlb, hrun⟩ := loadRobot3_run hrob
    have hane : arena ≠ [] := by
      rintro rfl
      exact nomatch hpar
    cases hplan : Planner3.plan L V clock timeLim fuel (freshRep3 (.new robot quats arena obs start goal par true)) with
    | none => rw [hplan] at h; exact nomatch h
    | some x =>
      rw [hplan] at h
      obtain ⟨r', rfl, h'⟩ := Res.bind_eq_ok.1 (Option.some.inj h)
      obtain ⟨fs'', B, M, rows, xs, ys, e1, e2, e3, e4, e5, e6, e7, -, -, e8, e9⟩ := C99_stored_details L V hV b _ robot hrun
        quats arena obs (Or.inl hane) start goal par clock timeLim fuel r' hplan pr prM D suffix fs'
      have hvf : outFile D "vertex".toList suffix ∉ routineFiles D suffix := by simp [routineFiles, outFile]
      refine ⟨fs'', ta, tb, tr, arena, obs, robot, quats, par, B, M, rows, r'.st.graph.vertex, ?_, e2, hta, hla, htb, hlo,
        htr, hrob, hpar, e3, e4, e5, e6, e7, ?_, ?_, e9⟩
      · rw [Option.map_some, Res.bind_ok', (Res.ok.injEq _ _).mp h', e1]
      · rw [e2 _ hvf, ← (Res.ok.injEq _ _).mp h']
        have hnd := outFiles_nodup D suffix
        simp only [outFiles, List.map_cons, List.map_nil, List.nodup_cons, List.mem_cons, List.not_mem_nil, or_false, not_or,
          List.nodup_nil, and_true, not_false_eq_true] at hnd
        obtain ⟨⟨n1, n2, n3, n4⟩, -⟩ := hnd
        unfold storePath storeGraph
        rw [Files.put_ne _ _ n4, Files.put_ne _ _ n3, Files.put_ne _ _ n2, Files.put_ne _ _ n1, Files.put_same]
      · intro row hrow
        obtain ⟨x, y, l, m, u, f1, -, -, f2, f3⟩ := e8 row hrow
        exact ⟨x, y, l, m, u, f1, f2, f3⟩

/-- C99 (articulated program): the same for the program for articulated robots, whichever the flag of its constructor: about
the arena, the obstacles, the robot and the robot description in this task's resource files, and the vertices stored. -/
theorem C99_articulated_program_details (L : Libs3) {urdf : Option (List Char) → Option UrdfModel}
    {gq : Matrix (Fin 3) (Fin 3) ℝ → Quat} {stof : List Char → Scan} {pr : ℝ → List Char}
    {prN : Option ℝ → List Char} (prM : List (Fin 3 → ℝ) → List Char) {D : Dirs} {T : Task} (hT : T.Plain)
    (hD : D.cfg ≠ D.resDim T) (hdim : T.dim = "3D".toList) (hu : urdfFile D T.robot ∉ cfgFiles D T.dim) {rigid : Bool}
    {num : ℕ} {suffix : List Char} {clock : ℕ → ℝ} {timeLim : ℝ} {fuel : ℕ} {fs fs' : Files}
    (h : demoProb3D L urdf gq stof pr prN D T rigid num suffix clock timeLim fuel fs = some (.ok fs')) :
    ∃ (fs'' : Files) (ta tb tr te : List Char) (ends : List (List ℝ)) (start goal : Vec) (arena obs : List SuperQuadrics)
      (b : SuperQuadrics) (ls : List SuperQuadrics) (robot : Tree3)
      (par : Param3) (B : Bound3) (M : BoundMesh) (rows : List (List ℝ)) (vertices : List Vec) (k : ℕ),
      mainProb3D L urdf gq stof pr prN prM D T rigid num suffix clock timeLim fuel fs = some (.ok fs'') ∧
      (∀ n, n ∉ routineFiles D suffix → fs'' n = fs' n) ∧
      parseGeometricModel stof pr (fs (arenaRes D T)) = .ok ta ∧ loadQuadrics stof num (some ta) = .ok arena ∧
      parseGeometricModel stof pr (fs (obsRes D T)) = .ok tb ∧ loadQuadrics stof num (some tb) = .ok obs ∧
      parseGeometricModel stof pr (fs (robotRes D T)) = .ok tr ∧ loadQuadrics stof num (some tr) = .ok (b :: ls) ∧
      Tree3.run (ls.map .add) (.new b) = .ok robot ∧
      parseStartGoalConfig stof pr (kindOf T.robot) .space (fs (endsRes D T)) = .ok te ∧
      parseCsv stof (some te) = .ok ends ∧ ends[0]? = some start ∧ ends[1]? = some goal ∧
      defineParameters3 robot [] arena obs defaultParam3 = .ok par ∧
      cspaceBoundary3 robot arena obs = .ok B ∧ cspaceMesh arena obs B = .ok M ∧
      fs'' (outFile D "origin_bound".toList suffix) =
        some ((obs ++ arena).flatMap fun o => prM o.originShape ++ ['\n']) ∧
      fs'' (outFile D "mink_bound".toList suffix) = some ((B.obstacle ++ B.arena).flatMap fun b => prM b ++ ['\n']) ∧
      fs'' (outFile D "segment".toList suffix) = some (rows.flatMap (writeRow pr)) ∧
      fs'' (outFile D "vertex".toList suffix) = some (writeRows pr vertices) ∧
      (∀ row ∈ rows, ∃ x y l m u, row = [x, y, l, m, u] ∧
        (∀ i < k, x :: y :: m :: probTail L (armOf gq (parseURDF (urdf (fs (urdfFile D T.robot))))) start goal i ∈ vertices) ∧
        (SweepGeneric3 L par M → l ≤ m ∧ m ≤ u ∧ ∀ z, l ≤ z → z ≤ u → ∀ s ∈ M.obstacle, ¬ Covered s x y z)) ∧
      0 < k ∧ ∀ v ∈ vertices, ∃ i < k, ∃ x y l m u x' y' l' z u',
        [x, y, l, m, u] ∈ rows ∧ [x', y', l', z, u'] ∈ rows ∧
        v = x :: y :: z :: probTail L (armOf gq (parseURDF (urdf (fs (urdfFile D T.robot))))) start goal i := by
  unfold demoProb3D at h
  unfold mainProb3D
  cases hset : setupProb3 stof pr D T rigid num fs with
  | throw => rw [hset] at h; exact nomatch h
  | ub => rw [hset] at h; exact nomatch h
  | ok v =>
    obtain ⟨fs1, P⟩ := v
    rw [hset] at h
    dsimp only at h ⊢
    obtain ⟨hpc, ta, tb, tr, te, ends, robot, arena, obs, start, goal, par, hta, htb, htr, hte, hla, hlo, ⟨b, ls, hlb, hrun⟩, hends,
      hs0, hg0, hpar, rfl⟩ := C97_planner_of_resources hT hD hdim hset
    obtain ⟨_, _, _, _, -, -, -, -, -, -, -, -, hfr⟩ := (C96_config_files hT hD).1 hpc
    have hane : arena ≠ [] := by
      rintro rfl
      exact nomatch hpar
    rw [hfr _ hu] at h ⊢
    generalize armOf gq (parseURDF (urdf (fs (urdfFile D T.robot)))) = A at h ⊢
    cases hplan : Planner3.planProb L ⟨some A, none⟩ A clock timeLim fuel
        (freshRep3 (.new robot [] arena obs start goal par rigid)) with
    | none => rw [hplan] at h; exact nomatch h
    | some x =>
      rw [hplan] at h
      obtain ⟨r', rfl, h'⟩ := Res.bind_eq_ok.1 (Option.some.inj h)
      obtain ⟨fs'', B, M, rows, xs, ys, e1, e2, e3, e4, e5, e6, e7, -, -, e8, e9⟩ := C99_stored_details_incremental L
        ⟨some A, none⟩ A rfl b _ robot hrun
        [] arena obs (Or.inl hane) start goal par rigid clock timeLim fuel r' hplan pr prM D suffix fs'
      have hvf : outFile D "vertex".toList suffix ∉ routineFiles D suffix := by simp [routineFiles, outFile]
      have hk : 0 < r'.st.par.numSlice := by
        have hr := run_inv_of3 hrun
        obtain ⟨kk, hreach, -, -⟩ := planProb_fresh (V := ⟨some A, none⟩) rfl hr (Or.inl hane) hplan
        rw [(reach_inv (V := ⟨some A, none⟩) rfl hr e3 e4 rfl hreach).epar]
        exact Nat.succ_pos _
      refine ⟨fs'', ta, tb, tr, te, ends, start, goal, arena, obs, b, ls, robot, par, B, M, rows, r'.st.graph.vertex,
        r'.st.par.numSlice, ?_, e2, hta, hla, htb, hlo,
        htr, hlb, hrun, hte, hends, hs0, hg0, hpar, e3, e4, e5, e6, e7, ?_, ?_, hk, e9⟩
      · rw [Option.map_some, Res.bind_ok', (Res.ok.injEq _ _).mp h', e1]
      · rw [e2 _ hvf, ← (Res.ok.injEq _ _).mp h']
        have hnd := outFiles_nodup D suffix
        simp only [outFiles, List.map_cons, List.map_nil, List.nodup_cons, List.mem_cons, List.not_mem_nil, or_false, not_or,
          List.nodup_nil, and_true, not_false_eq_true] at hnd
        obtain ⟨⟨n1, n2, n3, n4⟩, -⟩ := hnd
        unfold storePath storeGraph
        rw [Files.put_ne _ _ n4, Files.put_ne _ _ n3, Files.put_ne _ _ n2, Files.put_ne _ _ n1, Files.put_same]
      · intro row hrow
        obtain ⟨x, y, l, m, u, f1, -, -, f2, f3⟩ := e8 row hrow
        exact ⟨x, y, l, m, u, f1, f2, f3⟩

/-- C99 (ending): the whole program ends normally exactly when its part up to the storing of the path does. -/
theorem C99_program_ends (L : Libs3) (V : Variant) (hV : V.arm = none) {stof : List Char → Scan} {pr : ℝ → List Char}
    {prN : Option ℝ → List Char} (prM : List (Fin 3 → ℝ) → List Char) {D : Dirs} {T : Task} (hT : T.Plain)
    (hD : D.cfg ≠ D.resDim T) (hdim : T.dim = "3D".toList) {quatFile : List Char}
    (hq0 : quatFile ≠ "0".toList) (hq : quatFile ∉ cfgFiles D T.dim) {num : ℕ} {suffix : List Char} {clock : ℕ → ℝ}
    {timeLim : ℝ} {fuel : ℕ} {fs : Files} :
    (∃ fs'', mainHRM3D L V stof pr prN prM D T quatFile num suffix clock timeLim fuel fs = some (.ok fs'')) ↔
      ∃ fs', demoHRM3D L V stof pr prN D T quatFile num suffix clock timeLim fuel fs = some (.ok fs') := by
  constructor
  · rintro ⟨fs'', h⟩
    unfold mainHRM3D at h
    unfold demoHRM3D
    cases hset : setupDemo3 stof pr D T quatFile num fs with
    | throw => rw [hset] at h; exact nomatch h
    | ub => rw [hset] at h; exact nomatch h
    | ok v =>
      rw [hset] at h
      dsimp only at h ⊢
      cases hplan : Planner3.plan L V clock timeLim fuel (freshRep3 v.2) with
      | none => rw [hplan] at h; exact nomatch h
      | some x =>
        rw [hplan] at h
        obtain ⟨r', rfl, -⟩ := Res.bind_eq_ok.1 (Option.some.inj h)
        exact ⟨_, rfl⟩
  · rintro ⟨fs', h⟩
    obtain ⟨fs'', _, _, _, _, _, _, _, _, _, _, _, _, e, -⟩ := C99_program_details L V hV prM hT hD hdim hq0 hq h
    exact ⟨fs'', e⟩

/-- C99 (ending, articulated program): the same for the program for articulated robots. -/
theorem C99_articulated_program_ends (L : Libs3) {urdf : Option (List Char) → Option UrdfModel}
    {gq : Matrix (Fin 3) (Fin 3) ℝ → Quat} {stof : List Char → Scan} {pr : ℝ → List Char}
    {prN : Option ℝ → List Char} (prM : List (Fin 3 → ℝ) → List Char) {D : Dirs} {T : Task} (hT : T.Plain)
    (hD : D.cfg ≠ D.resDim T) (hdim : T.dim = "3D".toList) (hu : urdfFile D T.robot ∉ cfgFiles D T.dim) {rigid : Bool}
    {num : ℕ} {suffix : List Char} {clock : ℕ → ℝ} {timeLim : ℝ} {fuel : ℕ} {fs : Files} :
    (∃ fs'', mainProb3D L urdf gq stof pr prN prM D T rigid num suffix clock timeLim fuel fs = some (.ok fs'')) ↔
      ∃ fs', demoProb3D L urdf gq stof pr prN D T rigid num suffix clock timeLim fuel fs = some (.ok fs') := by
  constructor
  · rintro ⟨fs'', h⟩
    unfold mainProb3D at h
    unfold demoProb3D
    cases hset : setupProb3 stof pr D T rigid num fs with
    | throw => rw [hset] at h; exact nomatch h
    | ub => rw [hset] at h; exact nomatch h
    | ok v =>
      rw [hset] at h
      dsimp only at h ⊢
      generalize armOf gq (parseURDF (urdf (v.1 (urdfFile D T.robot)))) = A at h ⊢
      cases hplan : Planner3.planProb L ⟨some A, none⟩ A clock timeLim fuel (freshRep3 v.2) with
      | none => rw [hplan] at h; exact nomatch h
      | some x =>
        rw [hplan] at h
        obtain ⟨r', rfl, -⟩ := Res.bind_eq_ok.1 (Option.some.inj h)
        exact ⟨_, rfl⟩
  · rintro ⟨fs', h⟩
    obtain ⟨fs'', _, _, _, _, _, _, _, _, _, _, _, _, _, _, _, _, _, _, e, -⟩ :=
      C99_articulated_program_details L prM hT hD hdim hu h
    exact ⟨fs'', e⟩

/-- `C99_program_details` applies to the run of `C96_witness`: a segment is stored, in order, and at the orientation `exHalf`
its middle is among the eight vertices stored. -/
example (prM : List (Fin 3 → ℝ) → List Char) (sort : StdSort ℝ) (svd : SvdFun 3) (clock : ℕ → ℝ) (timeLim : ℝ)
    (prN : Option ℝ → List Char) (suffix : List Char) :
    ∃ (fs'' : Files) (rows : List (List ℝ)) (vertices : List Vec) (x y l m u : ℝ), mainHRM3D ⟨sort, -100, 100, svd, anyTop, exAng, none, fun _ => exQ0, fun _ _ => 0⟩
      ⟨none, none⟩ exStof exPr96 prN prM exDirs demoTask exQuatFile 1 suffix clock timeLim 0 exFiles = some (.ok fs'') ∧
      fs'' (outFile exDirs "segment".toList suffix) = some (rows.flatMap (writeRow exPr96)) ∧
      fs'' (outFile exDirs "vertex".toList suffix) = some (writeRows exPr96 vertices) ∧ vertices.length = 8 ∧
      [x, y, l, m, u] ∈ rows ∧ l ≤ m ∧ m ≤ u ∧ conf7 x y m (matQuat (quatRot exHalf)) ∈ vertices := by
  obtain ⟨fs', path, vs, h, -, -, hv, hvl⟩ := C96_witness sort (-100) 100 svd anyTop anyTop_heap none (fun _ => exQ0)
    (fun _ _ => 0) clock timeLim prN suffix
  obtain ⟨t1, t2, t3⟩ := exTask96
  set L : Libs3 := ⟨sort, -100, 100, svd, anyTop, exAng, none, fun _ => exQ0, fun _ _ => 0⟩ with hL
  obtain ⟨-, ta, tb, tr, -, -, robot, quats, arena, obs, start, goal, par, hta, htb, htr, -, hla, hlo, hrob, -, -, -, hpar, hP⟩ :=
    C96_planner_of_resources demoTask_plain exDirs_ne rfl t2 t3 exSetup
  obtain rfl : Tree3.new exBody96 = robot := congrArg Planner3.robot hP
  obtain rfl : [exHalf, exQ0] = quats := congrArg Planner3.quatSamples hP
  obtain rfl : [exArena96] = arena := congrArg Planner3.arena hP
  obtain rfl : [exObs96] = obs := congrArg Planner3.obs hP
  obtain rfl : exPar96 = par := congrArg Planner3.par hP
  obtain ⟨fs'', ta', tb', tr', arena', obs', robot', quats', par', B, M, rows, vertices, e, e2, k1, k2, k3, k4, k5, k6, k7,
    hB, hM, -, -, f3, f4, f5, f6⟩ :=
    C99_program_details L ⟨none, none⟩ rfl prM demoTask_plain exDirs_ne rfl t2 t3 h
  obtain rfl := (Res.ok.injEq _ _).mp (hta.symm.trans k1)
  obtain rfl := (Res.ok.injEq _ _).mp (htb.symm.trans k3)
  obtain rfl := (Res.ok.injEq _ _).mp (htr.symm.trans k5)
  obtain rfl := (Res.ok.injEq _ _).mp (hla.symm.trans k2)
  obtain rfl := (Res.ok.injEq _ _).mp (hlo.symm.trans k4)
  obtain ⟨rfl, rfl⟩ := Prod.mk.inj ((Res.ok.injEq _ _).mp (hrob.symm.trans k6))
  obtain rfl := (Res.ok.injEq _ _).mp (hpar.symm.trans k7)
  have rd : ∀ rows, parseCsv exStof (some (writeRows exPr96 rows)) = .ok (rows.map (·.map (readBack exStof exPr96))) :=
    fun rows => C49_roundtrip_partial exStof exPr96 exPr96_ok rows _ fun _ _ x _ => exPr96_back x
  have hvf : outFile exDirs "vertex".toList suffix ∉ routineFiles exDirs suffix := by simp [routineFiles, outFile]
  have hlen : vertices.length = 8 := by
    have e := Option.some.inj (hv.symm.trans ((e2 _ hvf).symm.trans f4))
    have h1 := rd vs
    rw [e, rd vertices] at h1
    have := congrArg List.length ((Res.ok.injEq _ _).mp h1)
    simpa [hvl] using this
  have hor : orientations L [exHalf, exQ0] exPar96 = [exHalf, exQ0] := if_neg (by simp)
  obtain ⟨v, hv0⟩ : ∃ v, v ∈ vertices := by
    cases vertices with
    | nil => exact nomatch hlen
    | cons v _ => exact ⟨v, by simp⟩
  obtain ⟨-, -, x, y, l, m, u, -, -, -, -, -, hr, -, -⟩ := f6 v hv0
  obtain ⟨x', y', l', m', u', e', g1, g2⟩ := f5 _ hr
  obtain ⟨rfl, rfl, rfl, rfl, rfl⟩ : x = x' ∧ y = y' ∧ l = l' ∧ m = m' ∧ u = u' := by simpa using e'
  obtain ⟨g3, g4, -⟩ := g2 (noface_generic (run_inv_of3 (ops := []) (base := exBody96) rfl) rfl rfl hB hM
    (by simp [exPar96]) (by rw [hL]; simp only [exPar96]; norm_num) (by rw [hL]; simp only [exPar96]; norm_num))
  exact ⟨fs'', rows, vertices, x, y, l, m, u, e, f3, f4, hlen, hr, g3, g4, g1 exHalf (by rw [hor]; simp)⟩

/-- `C99_articulated_program_details` applies to the run of `C97_witness_run`: a segment is stored, in order, and its middle
is, with the joint values of the start, among the vertices stored. -/
example (prM : List (Fin 3 → ℝ) → List Char) (sort : StdSort ℝ) (svd : SvdFun 3) (gq : Matrix (Fin 3) (Fin 3) ℝ → Quat)
    (prN : Option ℝ → List Char) (suffix : List Char) (clock : ℕ → ℝ) (timeLim : ℝ) :
    ∃ fs'' rows vertices x y l m u,
      mainProb3D ⟨sort, -100, 100, svd, anyTop, exAng, some exQ0, fun _ => exQ0, fun _ _ => 0⟩ exUrdf gq exStof
        exPr96 prN prM exDirs demoTaskProb false 1 suffix clock timeLim 1 exFiles97 = some (.ok fs'') ∧
      fs'' (outFile exDirs "segment".toList suffix) = some ((rows : List (List ℝ)).flatMap (writeRow exPr96)) ∧
      fs'' (outFile exDirs "vertex".toList suffix) = some (writeRows exPr96 vertices) ∧
      [x, y, l, m, u] ∈ rows ∧ l ≤ m ∧ m ≤ u ∧
      x :: y :: m :: probTail ⟨sort, -100, 100, svd, anyTop, exAng, some exQ0, fun _ => exQ0, fun _ _ => 0⟩
        (armOf gq (parseURDF (some exSnake))) exStart97 exGoal97 0 ∈ vertices := by
  obtain ⟨fs', mid, vs, ids, h, -, hv, -, h2, h3, h4⟩ := C97_witness_vertices sort (-100) 100 svd gq prN suffix clock timeLim
  set L : Libs3 := ⟨sort, -100, 100, svd, anyTop, exAng, some exQ0, fun _ => exQ0, fun _ _ => 0⟩ with hL
  obtain ⟨-, ta, tb, tr, te, ends, robot, arena, obs, start, goal, par, hta, htb, htr, hte, hla, hlo, ⟨b0, ls0, hlb0, hrun0⟩, hen, h0, h1, hpar, hP⟩ :=
    C97_planner_of_resources demoTaskProb_plain exDirs_ne97 rfl (exSetup97 false)
  obtain rfl : Tree3.new exBody96 = robot := congrArg Planner3.robot hP
  obtain rfl : [exArena97] = arena := congrArg Planner3.arena hP
  obtain rfl : [exObs97] = obs := congrArg Planner3.obs hP
  obtain rfl : exPar97 = par := congrArg Planner3.par hP
  obtain rfl : exStart97 = start := congrArg Planner3.start hP
  obtain rfl : exGoal97 = goal := congrArg Planner3.goal hP
  obtain ⟨fs'', ta', tb', tr', te', ends', first, last, arena', obs', b, ls, robot', par', B, M, rows, vertices, k, e, e2, k1, k2, k3, k4,
      k5, k6, k7, t1, t2, t3, t4, k8, hB, hM, -, -, f3, f4, f5, f6, f7⟩ :=
    C99_articulated_program_details L prM demoTaskProb_plain exDirs_ne97 rfl exUrdf97 h
  obtain rfl := (Res.ok.injEq _ _).mp (hta.symm.trans k1)
  obtain rfl := (Res.ok.injEq _ _).mp (htb.symm.trans k3)
  obtain rfl := (Res.ok.injEq _ _).mp (htr.symm.trans k5)
  obtain rfl := (Res.ok.injEq _ _).mp (hte.symm.trans t1)
  obtain rfl := (Res.ok.injEq _ _).mp (hen.symm.trans t2)
  obtain rfl := Option.some.inj (h0.symm.trans t3)
  obtain rfl := Option.some.inj (h1.symm.trans t4)
  obtain rfl := (Res.ok.injEq _ _).mp (hla.symm.trans k2)
  obtain rfl := (Res.ok.injEq _ _).mp (hlo.symm.trans k4)
  obtain ⟨rfl, rfl⟩ := List.cons.inj ((Res.ok.injEq _ _).mp (hlb0.symm.trans k6))
  obtain rfl := (Res.ok.injEq _ _).mp (hrun0.symm.trans k7)
  obtain rfl := (Res.ok.injEq _ _).mp (hpar.symm.trans k8)
  have hvf : outFile exDirs "vertex".toList suffix ∉ routineFiles exDirs suffix := by simp [routineFiles, outFile]
  have hne : ∃ v, v ∈ vertices := by
    cases vertices with
    | cons v _ => exact ⟨v, by simp⟩
    | nil =>
      have e := Option.some.inj (hv.symm.trans ((e2 _ hvf).symm.trans f4))
      have hvs : vs = [] := by
        cases vs with
        | nil => rfl
        | cons a l => exact absurd e (by simp [writeRows])
      subst hvs
      have hi : ids[0]? = some ids[0] := List.getElem?_eq_getElem _
      have hmm := h4 0 _ hi
      rw [List.getElem?_nil, List.getElem?_eq_none_iff] at hmm
      omega
  obtain ⟨v, hv0⟩ := hne
  obtain ⟨-, -, x, y, l, m, u, -, -, -, -, -, hr, -, -⟩ := f7 v hv0
  obtain ⟨x', y', l', m', u', e', g1, g2⟩ := f5 _ hr
  obtain ⟨rfl, rfl, rfl, rfl, rfl⟩ : x = x' ∧ y = y' ∧ l = l' ∧ m = m' ∧ u = u' := by simpa using e'
  obtain ⟨g3, g4, -⟩ := g2 (noface_generic (run_inv_of3 (ops := []) (base := exBody96) rfl) rfl rfl hB hM
    (by simp [exPar97]) (by rw [hL]; simp only [exPar97]; norm_num) (by rw [hL]; simp only [exPar97]; norm_num))
  refine ⟨fs'', rows, vertices, x, y, l, m, u, e, f3, f4, hr, g3, g4, ?_⟩
  have g := g1 0 f6
  rw [exUrdf_read] at g
  exact g

/-- The text of a table with one segment. -/
example (pr : ℝ → List Char) : segText pr [(1, ⟨[2], [⟨[3], [5], [4]⟩]⟩)] = .ok (writeRow pr [1, 2, 3, 4, 5]) := by
  rw [segText_eq pr (by simp [FreeSeg.Aligned])]
  simp [segmentRows]

end Hrm
