import Verif.Lemmas.Planner2DMulti
import Verif.Props.Plan
import Verif.Props.Search
import Verif.Props.Nearest
import Verif.Props.Roadmap

/-! # The planar planner object: totality of the build, refinement, plan -/

namespace Hrm

open Matrix

theorem sweep2D_ok (S : StdSort ℝ) (dmin dmax lowB upB : ℝ) (hlow : dmin ≤ lowB) (hup : upB ≤ dmax)
    (arena obs : List (List (Pt ℝ))) (ys : List ℝ) (hys : ys ≠ [])
    (hb : ∀ sh ∈ arena, ∀ v ∈ sh, dmin ≤ v.1 ∧ v.1 ≤ dmax) :
    ∃ rows, sweep2D S dmin dmax lowB upB arena obs ys = .ok rows ∧ rows.length = ys.length ∧
      ∀ r ∈ rows, ∃ T : List (ℝ × ℝ × ℝ), r.L = T.map (·.1) ∧ r.M = T.map (·.2.1) ∧ r.U = T.map (·.2.2) ∧
        ∀ t ∈ T, t.1 ≤ t.2.1 ∧ t.2.1 ≤ t.2.2 := by
  obtain ⟨t, f1, -, f3, -⟩ := fillLines_ok isect2D lowB upB arena obs ys.length ys 0 _
    (setup_shape ys.length arena.length obs.length lowB upB) (by omega)
    (fun y _ sh _ => isect2D_length_ne_one y sh)
  have hlines : t.LinesOk dmin dmax ys.length := by
    intro i hi
    exact ⟨_, _, _, _, filled_rowOk dmin dmax lowB upB hlow hup arena obs t i ys[i] hb
      (by simpa using f3 i ys[i] (List.getElem?_eq_getElem hi))⟩
  obtain ⟨rows, r1, r2, r3⟩ := C07_C08_segments_aligned S dmin dmax t ys.length
    (List.length_pos_iff.2 hys) hlines
  refine ⟨rows, ?_, r2, ?_⟩
  · simp only [sweep2D, f1, Res.bind_ok]; exact r1
  · intro r hr
    obtain ⟨i, hi⟩ := List.mem_iff_getElem?.1 hr
    obtain ⟨ivs, -, ⟨T, t1, t2, t3, t4⟩, -⟩ := r3 i r hi
    exact ⟨T, t1, t2, t3, fun x hx => ⟨(t4 x hx).1, (t4 x hx).2.1⟩⟩

variable {base : SuperEllipse} {added : List SuperEllipse} {robot : Tree2} {arena obs : List SuperEllipse}
  {start goal : Vec} {par : Param2} {B : Bound2} {L : Libs2}

theorem vec3 {v : Vec} (h : v.length = 3) : ∃ x y z, v = [x, y, z] := by
  match v, h with
  | [x, y, z], _ => exact ⟨x, y, z, rfl⟩

theorem sameFree2_eq (L : Libs2) (bounds : List (List (Pt ℝ))) (x y t x' y' t' : ℝ) :
    sameFree2 L bounds [x, y, t] [x', y', t'] = .ok (sameSliceFree2D L.qr bounds (x, y) (x', y')) := by
  simp [sameFree2, planar, Res.idx]

theorem sameFree2_total (L : Libs2) (bounds : List (List (Pt ℝ))) : TotalOn 3 (sameFree2 L bounds) := by
  intro a b ha hb
  obtain ⟨x, y, z, rfl⟩ := vec3 ha
  obtain ⟨x', y', z', rfl⟩ := vec3 hb
  exact ⟨_, sameFree2_eq ..⟩

theorem bridge_ne (hobs : ∀ o ∈ obs, o.num ≠ 0) (Es : List SuperEllipse) :
    ∀ b ∈ Es.map (bridgeBound obs), ∀ sh ∈ b, sh ≠ [] := by
  intro b hb sh hsh
  rw [List.mem_map] at hb
  obtain ⟨E, -, rfl⟩ := hb
  unfold bridgeBound at hsh
  rw [List.mem_map] at hsh
  obtain ⟨o, ho, rfl⟩ := hsh
  intro h
  apply hobs o ho
  have := congrArg List.length h
  simpa [toPts, SuperEllipse.minkSum2D] using this

/-- The check between two slices of a fresh planner. -/
theorem freeMulti_eq (hr : Tree2.Inv base added robot) (hobs : ∀ o ∈ obs, o.num ≠ 0) (hnp : par.numPoint ≠ 1)
    {i j : ℕ} (hn : par.numSlice ≠ 1) (hi : i < par.numSlice) (hj : j < par.numSlice) (x1 y1 t1 x2 y2 t2 : ℝ) :
    ∃ b, (Planner2.new robot arena obs start goal par).sampleOrientations.freeMulti L i j [x1, y1, t1] [x2, y2, t2]
        = .ok b ∧
      (b = true ↔ ∀ k < par.numPoint,
        isPtInCFree2D (onWay par.numPoint k x1 x2, onWay par.numPoint k y1 y2)
          (bridgeBound obs (tfeOf L.svd base (heading par.numSlice i) (heading par.numSlice j) par.numPoint)) = .ok true ∧
        ∀ l ∈ added, isPtInCFree2D (centreAt l (onWay par.numPoint k x1 x2) (onWay par.numPoint k y1 y2)
            (onWay par.numPoint k t1 t2))
          (bridgeBound obs (tfeOf L.svd l (matAngle (rot2 (heading par.numSlice i) * rot2 l.ang))
            (matAngle (rot2 (heading par.numSlice j) * rot2 l.ang)) par.numPoint)) = .ok true) := by
  have hh : (Planner2.new robot arena obs start goal par).sampleOrientations.headings = headings2 par.numSlice := by
    simp [Planner2.sampleOrientations, Planner2.new]
  have h1 := Res.idx_eq_ok.2 (headings2_get hn hi)
  have h2 := Res.idx_eq_ok.2 (headings2_get hn hj)
  have hbr := bridge_eq (T := robot) hr L hnp (heading par.numSlice i) (heading par.numSlice j) obs
  obtain ⟨b, T', e, hb⟩ := multiFreeLoop_eq (bridge := (tfes L.svd base added par.numPoint (heading par.numSlice i)
      (heading par.numSlice j)).map (bridgeBound obs)) (base := base) (added := added) (by simp [tfes]; omega)
    (bridge_ne hobs _) par.numPoint x1 y1 t1 x2 y2 t2 (List.range par.numPoint) robot hr
  refine ⟨b, ?_, hb.trans ?_⟩
  · unfold Planner2.freeMulti
    rw [hh, h1, Res.bind_ok', h2, Res.bind_ok']
    change ((computeTFE2 L par.numPoint robot _ _).bind fun tfe => (bridgeSlice2 obs tfe).bind fun bridge =>
      (multiFree2 par.numPoint bridge robot _ _).bind fun r => .ok r.1) = _
    rw [computeTFE2_eq hr, Res.bind_ok'] at hbr ⊢
    rw [hbr, Res.bind_ok']
    unfold multiFree2
    rw [if_neg hnp, e]
    rfl
  · constructor
    · intro h k hk
      obtain ⟨a, b⟩ := h k (List.mem_range.2 hk)
      refine ⟨a _ (by simp [tfes]), fun l hl => ?_⟩
      obtain ⟨m, hm⟩ := List.mem_iff_getElem?.1 hl
      exact b m l _ hm (by simp [tfes, hm])
    · intro h k hk
      obtain ⟨a, b⟩ := h k (List.mem_range.1 hk)
      refine ⟨fun bd hbd => ?_, fun m l bd hm hbd => ?_⟩
      · simp only [tfes, List.map_cons, List.getElem?_cons_zero, Option.some.injEq] at hbd
        rw [← hbd]; exact a
      · simp only [tfes, List.map_cons, List.getElem?_cons_succ, List.getElem?_map, hm, Option.map_some,
          Option.some.injEq] at hbd
        rw [← hbd]; exact b l (List.mem_of_getElem? hm)

theorem lines_ne (h : par.numLineY ≠ 0) : par.lines ≠ [] := by
  intro e
  have := congrArg List.length e
  simp at this
  exact h this

/-- The build of a fresh planner returns. -/
theorem build_total (hr : Tree2.Inv base added robot) (hB : cspaceBoundary robot arena obs = .ok B)
    (hn1 : par.numSlice ≠ 1) (hn2 : par.numSlice ≠ 2) (hl : 2 ≤ par.numLineY) (hnp : par.numPoint ≠ 1)
    (hobs : ∀ o ∈ obs, o.num ≠ 0) (hlow : L.dmin ≤ par.xLo) (hup : par.xHi ≤ L.dmax)
    (hb : ∀ sh ∈ B.arena, ∀ v ∈ sh, L.dmin ≤ v.1 ∧ v.1 ≤ L.dmax) :
    ∃ P r, (Planner2.new robot arena obs start goal par).build L = .ok P ∧
      SliceInv base added (.new robot arena obs start goal par) B par.numSlice r P := by
  obtain ⟨rows, e, e1, e2⟩ := sweep2D_ok L.sort L.dmin L.dmax par.xLo par.xHi hlow hup B.arena B.obstacle
    par.lines (lines_ne (by omega)) hb
  have hs := build_sim (start := start) (goal := goal) hr hB hn1 (by omega) e
  have htot := (buildRoadmap2D_sat (tot := True) (freeSame := fun _ => sameFree2 L B.obstacle)
    (freeMulti := (Planner2.new robot arena obs start goal par).sampleOrientations.freeMulti L) (gap := par.gapY)
    (headings := heading par.numSlice) (seg := fun _ => ⟨par.lines, rows⟩) (n := par.numSlice)
    (fun _ => ⟨hn2, fun _ _ => ⟨e1, fun r hr => by
        obtain ⟨T, t1, t2, t3, -⟩ := e2 r hr
        rw [t1, t2, t3]; simp⟩, fun _ _ => sameFree2_total L _, fun i hi j hj a b ha hb => by
        obtain ⟨x, y, z, rfl⟩ := vec3 ha
        obtain ⟨x', y', z', rfl⟩ := vec3 hb
        obtain ⟨c, hc, -⟩ := freeMulti_eq (arena := arena) (start := start) (goal := goal) (L := L) hr hobs hnp hn1 hi hj x y z x' y' z'
        exact ⟨c, hc⟩⟩)).2 trivial
  obtain ⟨r, hr'⟩ := htot
  rw [hr'] at hs
  obtain ⟨P, h1, h2⟩ := hs
  exact ⟨P, r, h1, h2⟩

/-- Refining the first slice of a built planner throws. -/
theorem refine_throws {n : ℕ} {P0 : Planner2} {r : Graph × List VertexIdx} {P : Planner2} (h : SliceInv base added P0 B n r P)
    (hr : Tree2.Inv base added P0.fs.robot) (hn : 0 < n) (hn1 : P0.par.numSlice ≠ 1) (hns : P0.par.numSlice = n)
    (hl : 0 < P0.par.numLineY) (hpos : 0 < B.arena.length + B.obstacle.length) (res : SearchRes) :
    Planner2.refineSlice L 0 (Planner2.beginRefine { P with res := res }) = .throw := by
  have hat : Res.at' P.headings 0 = .ok (some (heading P0.par.numSlice 0)) := by
    rw [h.headings]; exact Res.at'_eq_ok.2 (headings2_get hn1 (by omega))
  have hbd : Res.at' P.sliceBoundAll 0 = .ok B := by
    rw [h.bounds, Res.at'_eq_ok, List.getElem?_replicate, if_pos hn]
  unfold Planner2.refineSlice Planner2.constructOneSlice Planner2.placeSlice Planner2.beginRefine
  simp only [hat, Res.bind_ok', setTransform2_eq h.inv, if_true, hbd]
  unfold Fs2.sweep
  simp only
  rw [if_neg (by rw [h.par]; omega), h.bound hn]
  rw [fillLines_throw isect2D _ _ B.arena B.obstacle P0.par.numLineY _ 0 P.fs.table h.shape (by omega)
    (by rw [Param2.lines_length]; simp only; rw [h.par]; omega) hpos
    (fun y _ sh _ => isect2D_length_ne_one y sh)]
  rfl

/-- What a successful build of a fresh planner consists of. -/
theorem build_inv (hr : Tree2.Inv base added robot) (hB : cspaceBoundary robot arena obs = .ok B)
    (h0 : par.numSlice ≠ 0) {P : Planner2} (h : (Planner2.new robot arena obs start goal par).build L = .ok P) :
    par.numSlice ≠ 1 ∧ par.numLineY ≠ 1 ∧ ∃ rows r,
      sweep2D L.sort L.dmin L.dmax par.xLo par.xHi B.arena B.obstacle par.lines = .ok rows ∧
      buildRoadmap2D (fun _ => sameFree2 L B.obstacle)
        ((Planner2.new robot arena obs start goal par).sampleOrientations.freeMulti L) par.gapY
        (heading par.numSlice) (fun _ => ⟨par.lines, rows⟩) par.numSlice = .ok r ∧
      SliceInv base added (.new robot arena obs start goal par) B par.numSlice r P := by
  have h1 : par.numSlice ≠ 1 := by
    intro h1
    unfold Planner2.build at h
    have hz : (Planner2.new robot arena obs start goal par).par.numSlice = 1 := h1
    have hh : (Planner2.new robot arena obs start goal par).sampleOrientations.headings = [none] := by
      simp [Planner2.sampleOrientations, Planner2.new, h1, headings2]
    rw [hz, List.range_succ, List.range_zero, List.nil_append, List.foldlM_cons] at h
    unfold Planner2.constructOneSlice Planner2.placeSlice at h
    rw [hh] at h
    exact nomatch h
  obtain ⟨hl, rows, hrows⟩ := build_sweep_ok hr hB h1 h0 h
  have hs := build_sim (start := start) (goal := goal) hr hB h1 hl hrows
  refine ⟨h1, hl, rows, ?_⟩
  cases hb : buildRoadmap2D (fun _ => sameFree2 L B.obstacle)
    ((Planner2.new robot arena obs start goal par).sampleOrientations.freeMulti L) par.gapY
    (heading par.numSlice) (fun _ => ⟨par.lines, rows⟩) par.numSlice with
  | ok r =>
    rw [hb] at hs
    obtain ⟨P', e, hi⟩ := hs
    rw [h] at e
    obtain rfl := (Res.ok.injEq _ _).mp e
    exact ⟨r, hrows, rfl, hi⟩
  | throw => rw [hb] at hs; change _ = _ at hs; rw [h] at hs; exact nomatch hs
  | ub => rw [hb] at hs; change _ = _ at hs; rw [h] at hs; exact nomatch hs

/-- A search that returns changes nothing but the search result. -/
theorem search_ok {P P' : Planner2} (h : P.search L = .ok P') :
    ∃ hs s t r, realHeadings P.headings = .ok hs ∧
      nearest2D hs P.graph.vertex P.start P.par.numSearchNeighbor P.par.searchRadius
        (P.par.searchRadius * (P.par.xHi - P.par.xLo) / P.par.numLineY) = .ok s ∧
      nearest2D hs P.graph.vertex P.goal P.par.numSearchNeighbor P.par.searchRadius
        (P.par.searchRadius * (P.par.xHi - P.par.xLo) / P.par.numLineY) = .ok t ∧
      Hrm.search P.graph L.pick s t P.res = .ok r ∧ P' = { P with res := r } := by
  unfold Planner2.search at h
  cases h1 : realHeadings P.headings with
  | throw => rw [h1] at h; exact nomatch h
  | ub => rw [h1] at h; exact nomatch h
  | ok hs =>
    rw [h1, Res.bind_ok'] at h
    simp only at h
    cases h2 : nearest2D hs P.graph.vertex P.start P.par.numSearchNeighbor P.par.searchRadius
        (P.par.searchRadius * (P.par.xHi - P.par.xLo) / P.par.numLineY) with
    | throw => rw [h2] at h; exact nomatch h
    | ub => rw [h2] at h; exact nomatch h
    | ok s =>
      rw [h2, Res.bind_ok'] at h
      cases h3 : nearest2D hs P.graph.vertex P.goal P.par.numSearchNeighbor P.par.searchRadius
          (P.par.searchRadius * (P.par.xHi - P.par.xLo) / P.par.numLineY) with
      | throw => rw [h3] at h; exact nomatch h
      | ub => rw [h3] at h; exact nomatch h
      | ok t =>
        rw [h3, Res.bind_ok'] at h
        cases h4 : Hrm.search P.graph L.pick s t P.res with
        | throw => rw [h4] at h; exact nomatch h
        | ub => rw [h4] at h; exact nomatch h
        | ok r =>
          rw [h4, Res.bind_ok'] at h
          exact ⟨hs, s, t, r, rfl, h2, h3, h4, ((Res.ok.injEq _ _).mp h).symm⟩

/-- A planner without slices cannot be searched. -/
theorem no_slices (h0 : par.numSlice = 0) {P : Planner2}
    (h : (Planner2.new robot arena obs start goal par).build L = .ok P) : P.graph.vertex = [] := by
  unfold Planner2.build at h
  have hz : (Planner2.new robot arena obs start goal par).par.numSlice = 0 := h0
  rw [hz, List.range_zero, List.foldlM_nil, Res.pure_eq, Res.bind_ok'] at h
  unfold Planner2.connectMultiSlice connectMultiSlice2D at h
  rw [if_neg (by simp [Planner2.sampleOrientations, Planner2.new])] at h
  obtain rfl := (Res.ok.injEq _ _).mp h
  rfl

/-- `plan` on a fresh planner that returns has built the roadmap once, searched it once, and not refined. -/
theorem plan_fresh (hr : Tree2.Inv base added robot) (hB : cspaceBoundary robot arena obs = .ok B)
    (hne : arena ≠ [] ∨ obs ≠ []) {clock : ℕ → ℝ} {timeLim : ℝ} {fuel : ℕ}
    {r' : PlanRep Planner2}
    (h : Planner2.plan L clock timeLim fuel (freshRep (.new robot arena obs start goal par)) = some (.ok r')) :
    ∃ P, (Planner2.new robot arena obs start goal par).build L = .ok P ∧ P.search L = .ok r'.st ∧
      par.numSlice ≠ 0 ∧
      (r'.st.res.solved = true → getSolutionPath r'.st.graph r'.st.start r'.st.goal r'.st.res.pathId = .ok r'.solvedPath) ∧
      r'.buildTime = clock 1 - clock 0 ∧ r'.searchTime = clock 3 - clock 2 ∧
      r'.totalTime = (clock 1 - clock 0) + (clock 3 - clock 2) ∧ r'.tick = 4 ∧
      (r'.st.res.solved = false → r'.solvedPath = [] ∧ r'.interpolated = []) ∧
      (r'.st.res.solved = true → r'.interpolated = r'.solvedPath.map fun v => v.map some) := by
  obtain ⟨r1, r2, h1, h2, h3⟩ := plan_core h
  unfold timedBuild at h1
  change (((Planner2.new robot arena obs start goal par).build L).bind _).bind _ = _ at h1
  cases hb : (Planner2.new robot arena obs start goal par).build L with
  | throw => rw [hb] at h1; exact nomatch h1
  | ub => rw [hb] at h1; exact nomatch h1
  | ok P =>
    rw [hb] at h1
    change timedSearch (planner2Ops L) clock _ = _ at h1
    unfold timedSearch at h1
    change (P.search L).bind _ = _ at h1
    cases hs : P.search L with
    | throw => rw [hs] at h1; exact nomatch h1
    | ub => rw [hs] at h1; exact nomatch h1
    | ok Q =>
      rw [hs, Res.bind_ok'] at h1
      have hst : r1.st = Q := by rw [← (Res.ok.injEq _ _).mp h1]
      obtain ⟨hh, s, t, res, -, n1, -, -, hQ⟩ := search_ok hs
      have h0 : par.numSlice ≠ 0 := by
        intro h0
        rw [no_slices h0 hb] at n1
        exact nomatch n1
      obtain ⟨hn1, hl1, rows, r, hrows, hbr, hi⟩ := build_inv hr hB h0 hb
      obtain ⟨B', eB, b1, b2, -⟩ := cspaceBoundary_ok hr arena obs
      rw [hB] at eB
      obtain rfl := (Res.ok.injEq _ _).mp eB
      have hpos : 0 < B.arena.length + B.obstacle.length := by
        rw [b1, b2]
        rcases hne with hne | hne
        · have := List.length_pos_iff.2 hne
          positivity
        · have := List.length_pos_iff.2 hne
          positivity
      have hline : 0 < par.numLineY := by
        rcases Nat.eq_zero_or_pos par.numLineY with hz | hz
        · exfalso
          have hv := C65_planar_vertices_are_samples _ _ _ _ _ _ r.1 r.2 hbr
          have hl0 : par.lines = [] := List.length_eq_zero_iff.1 (by rw [Param2.lines_length, hz])
          rw [hi.graph, hv] at n1
          simp only [hl0, List.zipWith_nil_left, List.flatten_nil] at n1
          rw [show ((List.range par.numSlice).flatMap fun _ => ([] : List Vec)) = [] by simp] at n1
          exact nomatch n1
        · exact hz
      have hns : (planner2Ops L).numSlice r1.st = par.numSlice := by
        rw [hst, hQ]
        change P.par.numSlice = _
        rw [hi.par]; rfl
      have hthrow : refineExist (planner2Ops L) clock timeLim r1 = .throw := by
        obtain ⟨m, hm⟩ : ∃ m, par.numSlice = m + 1 := ⟨par.numSlice - 1, by omega⟩
        unfold refineExist
        rw [hns, hm, List.range_succ_eq_map]
        unfold refineLoop timedBuild
        have := refine_throws (L := L) hi hr (by omega) hn1 rfl hline hpos res
        have e : (planner2Ops L).refineSlice 0 ((planner2Ops L).beginRefine r1.st) = .throw := by
          rw [hst, hQ]; exact this
        dsimp only
        rw [e]
        rfl
      have hr2 : r2 = r1 := by
        cases fuel with
        | zero =>
          unfold planLoop at h2
          split at h2
          · exact nomatch h2
          · exact ((Res.ok.injEq _ _).mp (Option.some.inj h2)).symm
        | succ f =>
          unfold planLoop at h2
          split at h2
          · rw [hthrow] at h2
            exact nomatch h2
          · exact ((Res.ok.injEq _ _).mp (Option.some.inj h2)).symm
      subst hr2
      obtain ⟨e1, e2, e3, e4, e5, e6, e7⟩ := finish_spec h3
      have er := (Res.ok.injEq _ _).mp h1
      refine ⟨P, rfl, ?_, h0, ?_, ?_, ?_, ?_, ?_, ?_, ?_⟩
      · rw [hs, e1, hst]
      · intro hsol
        have := (e6 (by rw [← e1]; exact hsol)).1
        rw [← this, e1]
        rfl
      · rw [e3, ← er]; simp [freshRep]
      · rw [e4, ← er]; simp [freshRep]
      · rw [e5, ← er]; simp [freshRep]
      · rw [e2, ← er]; simp [freshRep]
      · intro hsol
        have h7 := Prod.ext_iff.1 (e7 (by rw [← e1]; exact hsol))
        rw [← er] at h7
        exact h7
      · intro hsol
        have h6 := (e6 (by rw [← e1]; exact hsol)).2
        exact ((Res.ok.injEq _ _).mp h6).symm

end Hrm
