import Verif.Props.Bench

/-!
# C101: a run of the planar benchmark

Files for which the planar benchmark ends normally after three successful trials, so that the second case of
`C101_bench_HRM2D_partial` occurs.
-/

namespace Hrm

/-- As `nearest2D_nonempty`, if every vertex has a heading close to its own. -/
theorem nearest2D_nonempty' {hs : List ℝ} {verts : List Vec} {q : Vec} {k : ℕ} {radius gap : ℝ} (hk : 1 ≤ k)
    (hne : verts ≠ []) (hdim : ∀ v ∈ verts, v.length = 3) (hq : q.length = 3)
    (hrad : ∀ v ∈ verts, ∃ h ∈ hs, |coord v 2 - h| < radius) (hgap : ∀ v ∈ verts, |coord q 1 - coord v 1| < gap) :
    ∃ ids, nearest2D hs verts q k radius gap = .ok ids ∧ ids ≠ [] := by
  have hpos : 0 < verts.length := List.length_pos_iff.2 hne
  have h0 : Res.idx verts 0 = .ok verts[0] := Res.idx_eq_ok.2 (List.getElem?_eq_getElem hpos)
  obtain ⟨m, v, hm, hv, hv2, hmin⟩ := closestHeading_spec hne hdim (coord q 2)
  have hcol : ∃ a l, collectK (fun h => |m - h| < radius) k [] hs = a :: l := by
    rw [collectK_eq _ _ _ (by simp; omega)]
    obtain ⟨k', rfl⟩ : ∃ k', k = k' + 1 := ⟨k - 1, by omega⟩
    obtain ⟨h, hh, hd⟩ := hrad v hv
    have hc : coord v 2 = m := by simp [coord, hv2]
    rw [hc] at hd
    have hmem : h ∈ hs.filter (fun h => decide (|m - h| < radius)) := List.mem_filter.2 ⟨hh, by simpa using hd⟩
    obtain ⟨a, l, e⟩ := List.exists_cons_of_ne_nil (List.ne_nil_of_mem hmem)
    exact ⟨a, l.take k', by simp [e]⟩
  obtain ⟨a, l, hl⟩ := hcol
  have hfold : ∀ (l : List ℝ) (idx : List ℕ), ∃ ids, l.foldlM (nearestStep2D verts q gap) idx = .ok ids ∧
      idx.length + l.length = ids.length := by
    intro l
    induction l with
    | nil => intro idx; exact ⟨idx, rfl, by simp⟩
    | cons b l ih =>
      intro idx
      obtain ⟨i, w, hw, -, hstep⟩ := nearestStep2D_spec hne hdim hq gap b
      rw [List.foldlM_cons, hstep, if_pos (hgap w (List.mem_of_getElem? hw))]
      obtain ⟨ids, e, hlen⟩ := ih (idx ++ [i])
      exact ⟨ids, e, by rw [← hlen]; simp; omega⟩
  obtain ⟨ids, e, hlen⟩ := hfold (a :: l) []
  refine ⟨ids, ?_, ?_⟩
  · unfold nearest2D
    rw [h0, Res.bind_ok', idx_coord (by rw [hdim _ (List.getElem_mem hpos)]; norm_num), Res.bind_ok',
      idx_coord (by rw [hq]; norm_num), Res.bind_ok', hm, Res.bind_ok', hl]
    exact e
  · rintro rfl; simp at hlen

/-- The objects and the parameters of the example. -/
noncomputable def exArena101 : SuperEllipse := ⟨10, 10, 1, 0, 0, 0, 4⟩
noncomputable def exRobot101 : SuperEllipse := ⟨2, 1, 1, 0, 0, 0, 4⟩
noncomputable def exPar101 : Param2 := ⟨3, 2, 5, 10, hrmPi / 2, -7, 7, -7, 7⟩

/-- As `witness_ids`, for these parameters. -/
theorem witness_ids101 {L : Libs2} {B : Bound2} (harena : B.arena ≠ []) (hobs : B.obstacle = [])
    (hlow : L.dmin ≤ exPar101.xLo) (hup : exPar101.xHi ≤ L.dmax)
    (hb : ∀ sh ∈ B.arena, ∀ v ∈ sh, L.dmin ≤ v.1 ∧ v.1 ≤ L.dmax) {rows : List (SegRow ℝ)}
    (hrows : sweep2D L.sort L.dmin L.dmax exPar101.xLo exPar101.xHi B.arena B.obstacle exPar101.lines = .ok rows)
    {vs : List Vec} (hdims : ∀ v ∈ vs, v.length = 3)
    (hvs : vs = (List.range exPar101.numSlice).flatMap (fun i => (List.zipWith
      (fun y r => r.M.map (fun x => [x, y, heading exPar101.numSlice i])) exPar101.lines rows).flatten)) :
    vs ≠ [] ∧ ∃ ids, nearest2D ((List.range 3).map (heading 3)) vs [0, 0, 0] 10 (hrmPi / 2)
      (hrmPi / 2 * (7 - -7) / (2 : ℕ)) = .ok ids ∧ ids ≠ [] ∧ ∀ i ∈ ids, i < vs.length := by
  have hvne : vs ≠ [] := by
    obtain ⟨rows', e, e1, e2⟩ := C60_sweep2D_exact L.sort L.dmin L.dmax exPar101.xLo exPar101.xHi hlow hup B.arena
      B.obstacle exPar101.lines (lines_ne (by simp [exPar101])) harena hb (by simp [hobs]) (by simp [hobs])
    rw [hrows] at e
    obtain rfl := (Res.ok.injEq _ _).mp e
    obtain ⟨rows', e, -, e3⟩ := sweep2D_ok L.sort L.dmin L.dmax exPar101.xLo exPar101.xHi hlow hup B.arena B.obstacle
      exPar101.lines (lines_ne (by simp [exPar101])) hb
    rw [hrows] at e
    obtain rfl := (Res.ok.injEq _ _).mp e
    have hlen : exPar101.lines.length = 2 := by simp [exPar101]
    have hy := List.getElem?_eq_getElem (by omega : 0 < exPar101.lines.length)
    have hrow := List.getElem?_eq_getElem (by omega : 0 < rows.length)
    obtain ⟨k, l, u, hk, -⟩ := (e2 0 _ _ hy hrow).2 0 (by simp [exPar101]) (by simp [exPar101]) (by simp [hobs])
    obtain ⟨T, t1, t2, -⟩ := e3 _ (List.mem_of_getElem? hrow)
    have hkT : k < T.length := by
      have := (List.getElem?_eq_some_iff.1 hk).1
      rwa [t1, List.length_map] at this
    intro hnil
    have hmem : [T[k].2.1, exPar101.lines[0], heading exPar101.numSlice 0] ∈ vs := by
      rw [hvs]
      refine List.mem_flatMap.2 ⟨0, by simp [exPar101], List.mem_flatten.2 ⟨_, List.mem_of_getElem? (i := 0) (by
        rw [List.getElem?_zipWith, hy, hrow]), ?_⟩⟩
      rw [t2]
      exact List.mem_map.2 ⟨_, List.mem_map.2 ⟨_, List.getElem_mem hkT, rfl⟩, rfl⟩
    rw [hnil] at hmem
    exact nomatch hmem
  have hform : ∀ v ∈ vs, |coord [0, 0, 0] 1 - coord v 1| ≤ 7 ∧ ∃ i < 3, coord v 2 = heading 3 i := by
    intro v hv
    rw [hvs] at hv
    obtain ⟨i, hi', hv2⟩ := List.mem_flatMap.1 hv
    obtain ⟨row, hrow, hv3⟩ := List.mem_flatten.1 hv2
    obtain ⟨k, hk⟩ := List.mem_iff_getElem?.1 hrow
    rw [List.getElem?_zipWith] at hk
    cases hy : exPar101.lines[k]? with
    | none => simp [hy] at hk
    | some y =>
      cases hrk : rows[k]? with
      | none => simp [hy, hrk] at hk
      | some rw' =>
        simp only [hy, hrk, Option.some.injEq] at hk
        rw [← hk] at hv3
        obtain ⟨x, hx, rfl⟩ := List.mem_map.1 hv3
        refine ⟨?_, i, by simpa [exPar101] using hi', by simp [coord, exPar101]⟩
        have hk2 : k < 2 := by simpa [exPar101] using (List.getElem?_eq_some_iff.1 hy).1
        have hyv : y = -7 + (k : ℝ) * ((7 - -7) / ((2 : ℝ) - 1)) := by
          rw [← (List.getElem?_eq_some_iff.1 hy).2]; simp [Param2.lines, exPar101]
        have hc : coord [0, 0, 0] 1 - coord [x, y, heading exPar101.numSlice i] 1 = -y := by simp [coord]
        rw [hc, hyv]
        interval_cases k <;> norm_num
  obtain ⟨ids, hids, hidne⟩ := nearest2D_nonempty' (hs := (List.range 3).map (heading 3)) (verts := vs)
    (q := [0, 0, 0]) (k := 10) (radius := hrmPi / 2) (gap := hrmPi / 2 * (7 - -7) / (2 : ℕ)) (by norm_num) hvne hdims rfl
    (by
      intro v hv
      obtain ⟨-, i, hi3, hc⟩ := hform v hv
      refine ⟨heading 3 i, List.mem_map.2 ⟨i, List.mem_range.2 hi3, rfl⟩, ?_⟩
      rw [hc, sub_self, abs_zero]
      unfold hrmPi; norm_num)
    (by
      intro v hv
      have := (hform v hv).1
      refine lt_of_le_of_lt this ?_
      unfold hrmPi; norm_num)
  exact ⟨hvne, ids, hids, hidne, (nearest2D_ids (q := [0, 0, 0]) hdims rfl hids).2⟩

/-- The planner the benchmark constructs in the example solves its task, whatever the clock. -/
theorem plan101 (sort : StdSort ℝ) (qr : QrSolve ℝ) (svd : SvdFun 2) (pick : ℕ → (ℕ → ℝ) → List ℕ → ℕ) (hpick : HeapTop pick) :
    ∃ dmin dmax, ∀ (clock : ℕ → ℝ) (timeLim : ℝ), ∃ r',
      Planner2.plan ⟨sort, dmin, dmax, qr, svd, pick⟩ clock timeLim 0
        (freshRep (.new (Tree2.new exRobot101) [exArena101] [] [0, 0, 0] [0, 0, 0] exPar101)) = some (.ok r') ∧
      r'.st.res.solved = true := by
  have hr := run_inv_of (base := exRobot101) (ops := []) (robot := Tree2.new exRobot101) rfl
  obtain ⟨B, hB, b1, b2, -⟩ := cspaceBoundary_ok hr [exArena101] []
  obtain ⟨M, hM0, hM⟩ := polys_bounded B.arena
  have h1 := le_max_left M 10
  have h2 := le_max_right M 10
  have hlow : -(max M 10) ≤ exPar101.xLo := by simp only [exPar101]; linarith
  have hup : exPar101.xHi ≤ max M 10 := by simp only [exPar101]; linarith
  have hb : ∀ sh ∈ B.arena, ∀ v ∈ sh, -(max M 10) ≤ v.1 ∧ v.1 ≤ max M 10 := fun sh hsh v hv => by
    have := hM sh hsh v hv; exact ⟨by linarith, by linarith⟩
  refine ⟨-(max M 10), max M 10, fun clock timeLim => ?_⟩
  set L : Libs2 := ⟨sort, -(max M 10), max M 10, qr, svd, pick⟩ with hL
  obtain ⟨P, -, hbd, -⟩ := build_total (L := L) (start := [0, 0, 0])
    (goal := [0, 0, 0]) (par := exPar101) hr hB (by simp [exPar101]) (by simp [exPar101]) (by simp [exPar101])
    (by simp [exPar101]) (by simp) hlow hup hb
  obtain ⟨hn1, hl1, rows, r, hrows, hbr, hi⟩ := build_inv hr hB (by simp [exPar101]) hbd
  have hok := C23_build2D _ _ _ _ _ _ r.1 r.2 hbr
  have hvs := C65_planar_vertices_are_samples _ _ _ _ _ _ r.1 r.2 hbr
  have hobs : B.obstacle = [] := List.length_eq_zero_iff.1 (by rw [b2]; simp)
  have harena : B.arena ≠ [] := by intro e; rw [e] at b1; simp [addedBodies] at b1
  obtain ⟨hvne, ids, hids, hidne, hidlt⟩ := witness_ids101 (L := L) harena hobs hlow hup hb hrows hok.dims hvs
  have hhead : P.headings = ((List.range 3).map (heading 3)).map some := by
    rw [hi.headings]
    exact headings2_three
  obtain ⟨s, hs, hsearch⟩ := search_same (g := r.1) hpick hidne (some 0)
  have hPs : P.search L = .ok { P with res := ⟨true, [s], some 0⟩ } := by
    have e1 := hi.start
    have e2 := hi.goal
    have e3 := hi.par
    have e4 := hi.res
    have e5 := hi.graph
    change P.start = [0, 0, 0] at e1
    change P.goal = [0, 0, 0] at e2
    change P.par = exPar101 at e3
    change P.res = ⟨false, [], some 0⟩ at e4
    unfold Planner2.search
    rw [hhead, realHeadings_some, Res.bind_ok']
    simp only [e1, e2, e3, e4, e5]
    change (nearest2D _ _ _ 10 (hrmPi / 2) (hrmPi / 2 * (7 - -7) / (2 : ℕ))).bind _ = _
    rw [hids, Res.bind_ok']
    change (nearest2D _ _ _ 10 (hrmPi / 2) (hrmPi / 2 * (7 - -7) / (2 : ℕ))).bind _ = _
    rw [hids, Res.bind_ok']
    change (search r.1 pick ids ids _).bind _ = _
    rw [hsearch, Res.bind_ok']
  obtain ⟨path, -, hpath, -⟩ := C30_solution_path hok.dims [0, 0, 0] [0, 0, 0] [s] (by
    intro i hi'; obtain rfl := List.mem_singleton.1 hi'; exact hidlt _ hs) hvne
  have hpath' : getSolutionPath P.graph P.start P.goal [s] = .ok path := by
    rw [hi.graph, hi.start, hi.goal]; exact hpath
  obtain ⟨r', e, est, -⟩ := plan_solved_once (ops := planner2Ops L) clock timeLim 0
    (freshRep (.new (Tree2.new exRobot101) [exArena101] [] [0, 0, 0] [0, 0, 0] exPar101)) hbd hPs rfl hpath' ⟨_, rfl⟩
  exact ⟨r', e, by rw [est]⟩

/-! ## The files -/

/-- The settings of the example: three trials with three slices and two lines. -/
def exArgs101 : BenchArgs2 := ⟨"sparse".toList, "rabbit".toList, 3, 3, 2⟩

noncomputable def exRowA101 : List ℝ := [10, 10, 1, 0, 0, 0]
noncomputable def exRowR101 : List ℝ := [2, 1, 1, 0, 0, 0]
noncomputable def exRowE101 : List ℝ := [0, 0, 0]

/-- The resource files of the example: a round arena without obstacles, an elliptic robot, both end points at the origin. -/
noncomputable def exFiles101 : Files := fun n =>
  if n = arenaRes exDirs exArgs101.task then some ([exRowA101].flatMap (writeRow exPr96))
  else if n = obsRes exDirs exArgs101.task then some []
  else if n = robotRes exDirs exArgs101.task then some ([exRowR101].flatMap (writeRow exPr96))
  else if n = endsRes exDirs exArgs101.task then some ([exRowE101, exRowE101].flatMap (writeRow exPr96))
  else none

/-- The files after the conversion. -/
noncomputable def exAfter101 : Files := fun n =>
  if n = arenaCfg exDirs "2D".toList then some ([exRowA101].flatMap (writeRow exPr96))
  else if n = obsCfg exDirs "2D".toList then some []
  else if n = robotCfg exDirs "2D".toList then some ([exRowR101].flatMap (writeRow exPr96))
  else if n = endsCfg exDirs "2D".toList then some ([exRowE101, exRowE101].flatMap (writeRow exPr96))
  else exFiles101 n

theorem exTask101_plain : exArgs101.task.Plain := by
  unfold Task.Plain
  decide +kernel

theorem exDirs_ne101 : exDirs.cfg ≠ exDirs.resDim exArgs101.task := by decide +kernel

theorem exAfter101_cfg : exAfter101 (arenaCfg exDirs "2D".toList) = some ([exRowA101].flatMap (writeRow exPr96)) ∧
    exAfter101 (obsCfg exDirs "2D".toList) = some [] ∧
    exAfter101 (robotCfg exDirs "2D".toList) = some ([exRowR101].flatMap (writeRow exPr96)) ∧
    exAfter101 (endsCfg exDirs "2D".toList) = some ([exRowE101, exRowE101].flatMap (writeRow exPr96)) := by
  unfold exAfter101
  refine ⟨if_pos rfl, ?_, ?_, ?_⟩
  · rw [if_neg (by decide +kernel), if_pos rfl]
  · rw [if_neg (by decide +kernel), if_neg (by decide +kernel), if_pos rfl]
  · rw [if_neg (by decide +kernel), if_neg (by decide +kernel), if_neg (by decide +kernel), if_pos rfl]

theorem exModel101 (a b c x y t : ℝ) (h : ∀ u ∈ [a, b, c, x, y, t], u ∈ [(0 : ℝ), 1, 2, 5, 10]) :
    parseGeometricModel exStof exPr96 (some ([[a, b, c, x, y, t]].flatMap (writeRow exPr96))) =
      .ok ([[a, b, c, x, y, t]].flatMap (writeRow exPr96)) := by
  unfold parseGeometricModel
  rw [exRows_read _ (by intro r hr; obtain rfl := List.mem_singleton.1 hr; exact h), Res.bind_ok', List.foldlM_cons]
  simp [convertObject, Res.bind_ok]

theorem exLoad101 (a b c x y t : ℝ) (h : ∀ u ∈ [a, b, c, x, y, t], u ∈ [(0 : ℝ), 1, 2, 5, 10]) :
    loadEllipses exStof 4 (some ([[a, b, c, x, y, t]].flatMap (writeRow exPr96))) = .ok [⟨a, b, c, x, y, t, 4⟩] := by
  unfold loadEllipses
  rw [exRows_read _ (by intro r hr; obtain rfl := List.mem_singleton.1 hr; exact h)]
  simp [loadAll, loadEllipse, Res.idx, Res.bind_ok]

theorem exRowsE101 : ∀ r ∈ [exRowE101, exRowE101], ∀ t ∈ r, t ∈ [(0 : ℝ), 1, 2, 5, 10] := by
  intro r hr t ht
  simp only [List.mem_cons, List.not_mem_nil, or_false] at hr
  rcases hr with rfl | rfl <;> simp only [exRowE101, List.mem_cons, List.not_mem_nil, or_false] at ht ⊢ <;> tauto

theorem exEnds101 (k : RobotKind) : parseStartGoalConfig exStof exPr96 k .plane
    (some ([exRowE101, exRowE101].flatMap (writeRow exPr96))) = .ok ([exRowE101, exRowE101].flatMap (writeRow exPr96)) := by
  have hc : convertConfig k .plane exRowE101 = .ok (some exRowE101) := by
    simp [convertConfig, exRowE101, Res.at', columns, show List.range 3 = [0, 1, 2] from rfl, Res.bind_ok]
  unfold parseStartGoalConfig
  rw [exRows_read _ exRowsE101, Res.bind_ok']
  simp [hc, Res.bind_ok]

theorem exEmpty101 : parseCsv exStof (some []) = .ok [] := by
  rw [parseCsv_some, readAll_nil]; rfl

theorem exConfig101 : parsePlanningConfig exStof exPr96 exDirs exArgs101.task exFiles101 = .ok exAfter101 := by
  have f1 : exFiles101 (arenaRes exDirs exArgs101.task) = some ([exRowA101].flatMap (writeRow exPr96)) := if_pos rfl
  have f2 : exFiles101 (obsRes exDirs exArgs101.task) = some [] := by
    unfold exFiles101; rw [if_neg (by decide +kernel), if_pos rfl]
  have f3 : exFiles101 (robotRes exDirs exArgs101.task) = some ([exRowR101].flatMap (writeRow exPr96)) := by
    unfold exFiles101; rw [if_neg (by decide +kernel), if_neg (by decide +kernel), if_pos rfl]
  have f4 : exFiles101 (endsRes exDirs exArgs101.task) = some ([exRowE101, exRowE101].flatMap (writeRow exPr96)) := by
    unfold exFiles101; rw [if_neg (by decide +kernel), if_neg (by decide +kernel), if_neg (by decide +kernel), if_pos rfl]
  obtain ⟨a1, a2, a3, a4⟩ := exAfter101_cfg
  refine (C96_config_files exTask101_plain exDirs_ne101).2 ⟨_, _, _, _, ?_, ?_, ?_, ?_, a1, a2, a3, a4, ?_⟩
  · rw [f1]; exact exModel101 10 10 1 0 0 0 (by intro t ht; simp only [List.mem_cons, List.not_mem_nil, or_false] at ht ⊢; tauto)
  · rw [f2]; unfold parseGeometricModel; rw [exEmpty101]; rfl
  · rw [f3]; exact exModel101 2 1 1 0 0 0 (by intro t ht; simp only [List.mem_cons, List.not_mem_nil, or_false] at ht ⊢; tauto)
  · rw [f4]; exact exEnds101 _
  · intro n hn
    simp only [cfgFiles, List.mem_cons, List.not_mem_nil, or_false, not_or] at hn
    obtain ⟨h1, h2, h3, h4⟩ := hn
    change n ≠ arenaCfg exDirs "2D".toList at h1
    change n ≠ obsCfg exDirs "2D".toList at h2
    change n ≠ robotCfg exDirs "2D".toList at h3
    change n ≠ endsCfg exDirs "2D".toList at h4
    unfold exAfter101
    rw [if_neg h1, if_neg h2, if_neg h3, if_neg h4]

theorem exSetup101 : setupBench2 exStof exPr96 exDirs exArgs101 4 exFiles101 = .ok (exAfter101,
    .new (Tree2.new exRobot101) [exArena101] [] [0, 0, 0] [0, 0, 0] exPar101) := by
  obtain ⟨a1, a2, a3, a4⟩ := exAfter101_cfg
  have hA : loadEllipses exStof 4 (some ([exRowA101].flatMap (writeRow exPr96))) = .ok [exArena101] :=
    exLoad101 10 10 1 0 0 0 (by intro t ht; simp only [List.mem_cons, List.not_mem_nil, or_false] at ht ⊢; tauto)
  have hO : loadEllipses exStof 4 (some []) = .ok [] := by
    unfold loadEllipses; rw [exEmpty101]; rfl
  have hR : loadEllipses exStof 4 (some ([exRowR101].flatMap (writeRow exPr96))) = .ok [exRobot101] :=
    exLoad101 2 1 1 0 0 0 (by intro t ht; simp only [List.mem_cons, List.not_mem_nil, or_false] at ht ⊢; tauto)
  have hp : defineParameters2 (Tree2.new exRobot101) [exArena101] []
      { defaultParam2 with numSlice := exArgs101.slices, numLineY := exArgs101.lineY, numPoint := 5 } = .ok exPar101 := by
    unfold defineParameters2
    simp only [Res.at', List.getElem?_cons_zero, Res.bind_ok']
    rw [if_neg (by simp [exArgs101])]
    congr 1
    norm_num [exPar101, defaultParam2, exArgs101, exArena101, exRobot101, Tree2.new]
  unfold setupBench2
  rw [exConfig101, Res.bind_ok', a3]
  unfold loadRobot2
  rw [hR, Res.bind_ok']
  unfold loadEnvironment2
  rw [a1, a2, a4, hA, hO, exRows_read _ exRowsE101]
  simp only [Res.idx, Res.at', List.getElem?_cons_zero, List.getElem?_cons_succ, Res.bind_ok', List.drop_one, List.tail_cons,
    List.foldl_nil]
  rw [hp, Res.bind_ok']
  rfl

/-- `atoi` of the example. -/
def exAtoi101 (t : List Char) : ℤ := if t = "3".toList then 3 else 2

/-- **C101.** A run of the planar benchmark that ends normally, after three successful trials. -/
theorem C101_witness2D (sort : StdSort ℝ) (qr : QrSolve ℝ) (svd : SvdFun 2) (pick : ℕ → (ℕ → ℝ) → List ℕ → ℕ) (hpick : HeapTop pick)
    (stats : List Char) :
    ∃ dmin dmax, ∀ clock : ℕ → ℕ → ℝ, ∃ (fs' : Files) (rep : ℕ → PlanRep Planner2),
      benchHRM2D ⟨sort, dmin, dmax, qr, svd, pick⟩ exAtoi101 exStof exPr96 exDirs stats 4 clock 0
        ["BenchHRM2D".toList, "sparse".toList, "rabbit".toList, "3".toList, "3".toList, "2".toList] exFiles101 = some (.ok (0, fs')) ∧
      fs' stats = some ("BUILD_TIME,SEARCH_TIME,PLAN_TIME,GRAPH_NODE,GRAPH_EDGE,PATH_NODE\n".toList ++
        (StatLine2 exPr96 (rep 0) ++ (StatLine2 exPr96 (rep 1) ++ StatLine2 exPr96 (rep 2)))) ∧
      ∀ i < 3, (rep i).st.res.solved = true := by
  obtain ⟨dmin, dmax, hp⟩ := plan101 sort qr svd pick hpick
  refine ⟨dmin, dmax, fun clock => ?_⟩
  have hp' := fun i => hp (clock i) 10
  choose rep hrep hsol using hp'
  set L : Libs2 := ⟨sort, dmin, dmax, qr, svd, pick⟩ with hL
  have hargs : argsHRM2D exAtoi101 ["BenchHRM2D".toList, "sparse".toList, "rabbit".toList, "3".toList, "3".toList, "2".toList] =
      .ok (.start exArgs101) := by
    rw [(C101_args_HRM2D _ _).2.2 _ _ _ _ _ _ _ rfl]
    have e3 : exAtoi101 "3".toList = 3 := by decide +kernel
    have e2 : exAtoi101 "2".toList = 2 := by decide +kernel
    rw [e3, e2]
    rfl
  have ht := (C101_table2D (fun i => (Planner2.plan L (clock i) 10 0 (freshRep (.new (Tree2.new exRobot101) [exArena101] []
    [0, 0, 0] [0, 0, 0] exPar101))).map fun x => x.bind fun r => .ok (benchRow2 exPr96 r))
    (fun i => benchRow2 exPr96 (rep i)) 3 (by norm_num) (fun i _ => by rw [hrep i]; rfl)).1 (by norm_num)
  refine ⟨exAfter101.put stats _, rep, ?_, Files.put_same _ _ _, fun i _ => hsol i⟩
  unfold benchHRM2D
  rw [hargs]
  dsimp only
  rw [exSetup101]
  dsimp only
  change Option.map _ (bench2DTable _ 3) = _
  rw [ht, Option.map_some, Res.bind_ok', benchHead2_text]
  simp only [show (3 : ℤ).toNat = 3 from rfl, show List.range 3 = [0, 1, 2] from rfl, List.flatMap_cons, List.flatMap_nil,
    List.append_nil]
  rfl

end Hrm
