import Verif.Lemmas.Planner3DBuild
import Verif.Props.Plan
import Verif.Props.Search
import Verif.Props.Nearest

/-! # The spatial planner object: refinement, search, plan -/

namespace Hrm

open Matrix

variable {base : SuperQuadrics} {added : List SuperQuadrics} {robot : Tree3} {arena obs : List SuperQuadrics}
  {quats : List Quat} {start goal : Vec} {par : Param3} {B : Bound3} {M : BoundMesh} {L : Libs3} {V : Variant}

/-- If refining never returns, the planning loop returns its argument or does not return. -/
theorem planLoop_norefine {σ : Type} {ops : PlanOps σ} {clock : ℕ → ℝ} {timeLim : ℝ} {fuel : ℕ} {r r' : PlanRep σ}
    (hno : ∀ r'', refineExist ops clock timeLim r ≠ .ok r'')
    (h : planLoop ops clock timeLim fuel r = some (.ok r')) : r' = r := by
  cases fuel with
  | zero =>
    unfold planLoop at h
    split at h
    · exact nomatch h
    · exact ((Res.ok.injEq _ _).mp (Option.some.inj h)).symm
  | succ f =>
    unfold planLoop at h
    split at h
    · cases hr : refineExist ops clock timeLim r with
      | ok r'' => exact absurd hr (hno r'')
      | throw => rw [hr] at h; exact nomatch h
      | ub => rw [hr] at h; exact nomatch h
    · exact ((Res.ok.injEq _ _).mp (Option.some.inj h)).symm

/-- A sweep with more lines than the table has rows does not return. -/
theorem sweep3_not_ok {f : Fs3} {p : Param3} {n : ℕ}
    (hsh : f.table.Shape n f.mesh.arena.length f.mesh.obstacle.length) (hx : 0 < p.numLineX) (hn : n < p.numLineY)
    (hpos : 0 < f.mesh.arena.length + f.mesh.obstacle.length) (r : Fs3 × List (ℝ × FreeSeg)) : f.sweep L p ≠ .ok r := by
  intro h
  unfold Fs3.sweep at h
  split at h
  · exact nomatch h
  · have hne : p.linesX ≠ [] := by
      intro e
      have := congrArg List.length e
      rw [Param3.linesX_length] at this
      simp at this
      omega
    obtain ⟨x, xs, hxs⟩ := List.exists_cons_of_ne_nil hne
    rw [hxs, List.foldlM_cons] at h
    obtain ⟨s, h, -⟩ := Res.bind_eq_ok.1 h
    obtain ⟨s', h, -⟩ := Res.bind_eq_ok.1 h
    have hg := sweepPlane_good h
    unfold Fs3.sweepPlane at h
    obtain ⟨t, ht, -⟩ := Res.bind_eq_ok.1 h
    have hg' : ∀ l ∈ p.linesY.map fun y => (x, y), ∀ s ∈ f.mesh.arena ++ f.mesh.obstacle, GoodHit isect3 l s := by
      intro l hl s hs
      obtain ⟨y, hy, rfl⟩ := List.mem_map.1 hl
      exact hg y hy s hs
    rw [fillLinesR_eq _ hg'] at ht
    rw [fillLines_throw (hitsOf isect3) _ _ f.mesh.arena f.mesh.obstacle n _ 0 f.table hsh (by omega)
      (by rw [List.length_map, Param3.linesY_length]; omega) hpos (fun y hy s hs => (hg' y hy s hs).ne)] at ht
    exact nomatch ht

/-- Refining the first slice of a built planner does not return. -/
theorem refine3_not_ok {n : ℕ} {Q0 : Planner3} {r : Graph × List VertexIdx} {P : Planner3}
    (h : SliceInv3 base added Q0 B M n r P) (hn : 0 < n) (hx : 0 < Q0.par.numLineX) (hy : 0 < Q0.par.numLineY)
    (hpos : 0 < M.arena.length + M.obstacle.length) (res : SearchRes) (Q : Planner3) :
    Planner3.refineSlice L V 0 (Planner3.beginRefine { P with res := res }) ≠ .ok Q := by
  intro hq
  unfold Planner3.refineSlice at hq
  obtain ⟨P1, hq, -⟩ := Res.bind_eq_ok.1 hq
  unfold Planner3.constructOneSlice at hq
  obtain ⟨P2, h2, hq⟩ := Res.bind_eq_ok.1 hq
  obtain ⟨s, hs, -⟩ := Res.bind_eq_ok.1 hq
  unfold Planner3.placeSlice at h2
  obtain ⟨c, -, h2⟩ := Res.bind_eq_ok.1 h2
  obtain ⟨T, -, h2⟩ := Res.bind_eq_ok.1 h2
  rw [if_pos (by rfl)] at h2
  obtain ⟨b, -, h2⟩ := Res.bind_eq_ok.1 h2
  obtain ⟨m, -, h2⟩ := Res.bind_eq_ok.1 h2
  obtain rfl := (Res.ok.injEq _ _).mp h2
  have hpar : P.par = Q0.par := h.par
  have hmesh : P.fs.mesh = M := h.mesh hn
  refine sweep3_not_ok (f := P.fs) (p := _) (n := Q0.par.numLineY) (by rw [hmesh]; exact h.shape) ?_ ?_
    (by rw [hmesh]; exact hpos) s hs
  · change 0 < 2 * P.par.numLineX
    rw [hpar]; omega
  · change Q0.par.numLineY < 2 * P.par.numLineY
    rw [hpar]; omega

/-- A build that returned had sweep lines. -/
theorem build3_lines {dist : ℕ → ℕ → ℝ} {freeSame : ℕ → Vec → Vec → Res Bool} {freeMulti : ℕ → ℕ → Vec → Vec → Res Bool}
    {gx gy : ℝ} {mk : ℕ → ℝ → ℝ → ℝ → Vec} {n : ℕ} (hn : n ≠ 0) {segs : List (ℝ × FreeSeg)} {r : Graph × List VertexIdx}
    {lowB upB : ℝ} (hsegs : sweep3D L lowB upB M par.linesX par.linesY = .ok segs)
    (h : buildRoadmap3D dist freeSame freeMulti gx gy mk (fun _ => segs) n = .ok r) :
    0 < par.numLineX ∧ 0 < par.numLineY := by
  obtain ⟨m, rfl⟩ : ∃ m, n = m + 1 := ⟨n - 1, by omega⟩
  have hne : segs ≠ [] := by
    rintro rfl
    unfold buildRoadmap3D at h
    obtain ⟨b, h, -⟩ := Res.bind_eq_ok.1 h
    unfold buildSlices at h
    rw [List.range_succ_eq_map, List.foldlM_cons] at h
    obtain ⟨c, h, -⟩ := Res.bind_eq_ok.1 h
    obtain ⟨d, h, -⟩ := Res.bind_eq_ok.1 h
    exact nomatch h
  obtain ⟨h1, h2⟩ := sweep3D_fst hsegs
  have hpos := List.length_pos_iff.2 hne
  refine ⟨by rw [h1, Param3.linesX_length] at hpos; exact hpos, ?_⟩
  obtain ⟨-, h3⟩ := h2 0 _ (List.getElem?_eq_getElem hpos)
  rcases Nat.eq_zero_or_pos par.numLineY with hz | hz
  · exfalso
    have hl : par.linesY = [] := List.length_eq_zero_iff.1 (by rw [Param3.linesY_length, hz])
    rw [hl] at h3
    unfold planeSeg at h3
    obtain ⟨t, -, h3⟩ := Res.bind_eq_ok.1 h3
    obtain ⟨rows, h3, -⟩ := Res.bind_eq_ok.1 h3
    simp [computeFreeSegment, freeRows, enhance] at h3
  · exact hz

/-- A search that returns changes nothing but the search result. -/
theorem search3_ok {P P' : Planner3} (h : P.search L = .ok P') :
    ∃ s t r, nearest3DJ L.ang L.junk P.q P.graph.vertex P.start P.par.numSearchNeighbor P.par.searchRadius
        (P.par.searchRadius * (P.par.xHi - P.par.xLo) / P.par.numLineX)
        (P.par.searchRadius * (P.par.yHi - P.par.yLo) / P.par.numLineY) = .ok s ∧
      nearest3DJ L.ang L.junk P.q P.graph.vertex P.goal P.par.numSearchNeighbor P.par.searchRadius
        (P.par.searchRadius * (P.par.xHi - P.par.xLo) / P.par.numLineX)
        (P.par.searchRadius * (P.par.yHi - P.par.yLo) / P.par.numLineY) = .ok t ∧
      Hrm.search P.graph L.pick s t P.res = .ok r ∧ P' = { P with res := r } := by
  unfold Planner3.search at h
  dsimp only at h
  obtain ⟨s, h1, h⟩ := Res.bind_eq_ok.1 h
  obtain ⟨t, h2, h⟩ := Res.bind_eq_ok.1 h
  obtain ⟨r, h3, h⟩ := Res.bind_eq_ok.1 h
  exact ⟨s, t, r, h1, h2, h3, ((Res.ok.injEq _ _).mp h).symm⟩

/-- Without orientations there is no query. -/
theorem nearest3DJ_ne {ang : Quat → Quat → ℝ} {junk : Option Quat} {qs : List Quat} {verts : List Vec} {q : Vec} {k : ℕ}
    {radius gx gy : ℝ} {ids : List ℕ} (h : nearest3DJ ang junk qs verts q k radius gx gy = .ok ids) : qs ≠ [] := by
  rintro rfl
  unfold nearest3DJ at h
  obtain ⟨qq, -, h⟩ := Res.bind_eq_ok.1 h
  obtain ⟨m, h, -⟩ := Res.bind_eq_ok.1 h
  exact nomatch h

/-- The answers of a query are vertices. -/
theorem nearest3DJ_ids {ang : Quat → Quat → ℝ} {junk : Option Quat} {qs : List Quat} {verts : List Vec} {q : Vec} {k : ℕ}
    {radius gx gy : ℝ} {ids : List ℕ} (h : nearest3DJ ang junk qs verts q k radius gx gy = .ok ids) :
    ∀ i ∈ ids, i < verts.length := by
  unfold nearest3DJ at h
  obtain ⟨qq, -, h⟩ := Res.bind_eq_ok.1 h
  obtain ⟨m, -, h⟩ := Res.bind_eq_ok.1 h
  have key : ∀ (l : List Quat) (acc ids : List ℕ), l.foldlM (nearestStep3D ang verts q gx gy) acc = .ok ids →
      (∀ i ∈ acc, i < verts.length) → ∀ i ∈ ids, i < verts.length := by
    intro l
    induction l with
    | nil => intro acc ids h ha; obtain rfl := (Res.ok.injEq _ _).mp h; exact ha
    | cons r l ih =>
      intro acc ids h ha
      rw [List.foldlM_cons] at h
      obtain ⟨acc', h1, h2⟩ := Res.bind_eq_ok.1 h
      refine ih acc' ids h2 ?_
      unfold nearestStep3D at h1
      obtain ⟨s, -, h1⟩ := Res.bind_eq_ok.1 h1
      obtain ⟨x, -, h1⟩ := Res.bind_eq_ok.1 h1
      obtain ⟨v, hv, h1⟩ := Res.bind_eq_ok.1 h1
      obtain ⟨vx, -, h1⟩ := Res.bind_eq_ok.1 h1
      obtain ⟨y, -, h1⟩ := Res.bind_eq_ok.1 h1
      obtain ⟨vy, -, h1⟩ := Res.bind_eq_ok.1 h1
      obtain rfl := (Res.ok.injEq _ _).mp h1
      intro i hi
      split at hi
      · rcases List.mem_append.1 hi with hi | hi
        · exact ha i hi
        · obtain rfl := List.mem_singleton.1 hi
          exact (List.getElem?_eq_some_iff.1 (Res.idx_eq_ok.1 hv)).1
      · exact ha i hi
  split at h
  · exact nomatch h
  · exact key _ [] ids h (by simp)

/-- `plan` on a fresh planner that returns has built the roadmap once, searched it once, and not refined. -/
theorem plan_fresh3 (hV : V.arm = none) (hr : Tree3.Inv base added robot)
    (hne : arena ≠ [] ∨ obs ≠ []) {clock : ℕ → ℝ} {timeLim : ℝ} {fuel : ℕ} {r' : PlanRep Planner3}
    (h : Planner3.plan L V clock timeLim fuel (freshRep3 (.new robot quats arena obs start goal par true)) = some (.ok r')) :
    ∃ P, (Planner3.new robot quats arena obs start goal par true).build L V = .ok P ∧ P.search L = .ok r'.st ∧
      (freshQ L robot quats arena obs start goal par).q ≠ [] ∧
      (r'.st.res.solved = true → getSolutionPath r'.st.graph r'.st.start r'.st.goal r'.st.res.pathId = .ok r'.solvedPath) ∧
      r'.buildTime = clock 1 - clock 0 ∧ r'.searchTime = clock 3 - clock 2 ∧
      r'.totalTime = (clock 1 - clock 0) + (clock 3 - clock 2) ∧ r'.tick = 4 ∧
      (r'.st.res.solved = false → r'.solvedPath = [] ∧ r'.interpolated = []) ∧
      (r'.st.res.solved = true → r'.interpolated = r'.solvedPath.map fun v => v.map some) := by
  obtain ⟨B, hB, b1, b2, -⟩ := cspaceBoundary3_ok hr arena obs
  obtain ⟨M, hM, m1, m2⟩ := cspaceMesh_ok b1 b2
  obtain ⟨r1, r2, h1, h2, h3⟩ := plan_core h
  obtain ⟨r0, h0, h1⟩ := Res.bind_eq_ok.1 h1
  unfold timedBuild at h0
  obtain ⟨P, hb, h0⟩ := Res.bind_eq_ok.1 h0
  change (Planner3.new robot quats arena obs start goal par true).build L V = .ok P at hb
  unfold timedSearch at h1
  obtain ⟨Q, hs, h1⟩ := Res.bind_eq_ok.1 h1
  have hst0 : r0.st = P := by rw [← (Res.ok.injEq _ _).mp h0]
  rw [hst0] at hs
  change P.search L = .ok Q at hs
  have hst : r1.st = Q := by rw [← (Res.ok.injEq _ _).mp h1]
  obtain ⟨s, t, res, n1, -, -, hQ⟩ := search3_ok hs
  have hPq : P.q = (freshQ L robot quats arena obs start goal par).q := by
    by_cases hq : (freshQ L robot quats arena obs start goal par).q = []
    · unfold Planner3.build at hb
      have hz : (freshQ L robot quats arena obs start goal par).par.numSlice = 0 := by
        rw [← sampleSO3_len, hq]; rfl
      change Res.bind (List.foldlM _ (freshQ L robot quats arena obs start goal par)
        (List.range (freshQ L robot quats arena obs start goal par).par.numSlice)) _ = _ at hb
      rw [hz, List.range_zero, List.foldlM_nil, Res.pure_eq, Res.bind_ok'] at hb
      unfold Planner3.connectMultiSlice at hb
      split at hb
      · obtain rfl := (Res.ok.injEq _ _).mp hb; rfl
      · obtain ⟨g, -, hb⟩ := Res.bind_eq_ok.1 hb
        obtain rfl := (Res.ok.injEq _ _).mp hb; rfl
    · obtain ⟨_, _, _, _, _, hi⟩ := build3_inv hV hr hB hM rfl hq hb
      exact hi.q
  have hq0 : (freshQ L robot quats arena obs start goal par).q ≠ [] := by
    rw [← hPq]; exact nearest3DJ_ne n1
  obtain ⟨segs, r, hsegs, -, hbr, hi⟩ := build3_inv hV hr hB hM rfl hq0 hb
  have hlen : 0 < (freshQ L robot quats arena obs start goal par).q.length := List.length_pos_iff.2 hq0
  obtain ⟨hx, hy⟩ := build3_lines hlen.ne' hsegs hbr
  obtain ⟨s1, s2, s3, s4, s5, s6, s7, s8, s9, s10, s11, s12, s13, s14, s15, n, s16⟩ :=
    sampleSO3_same (L := L) (Planner3.new robot quats arena obs start goal par true)
  have hpos : 0 < M.arena.length + M.obstacle.length := by
    rw [m1, m2, b1, b2]
    rcases hne with hne | hne
    · have := List.length_pos_iff.2 hne
      positivity
    · have := List.length_pos_iff.2 hne
      positivity
  have hno : ∀ r'', refineExist (planner3Ops L V) clock timeLim r1 ≠ .ok r'' := by
    intro r'' hre
    unfold refineExist at hre
    obtain ⟨b, hre, -⟩ := Res.bind_eq_ok.1 hre
    have hns : (planner3Ops L V).numSlice r1.st = (freshQ L robot quats arena obs start goal par).q.length := by
      rw [hst, hQ]
      change P.par.numSlice = _
      rw [hi.par, sampleSO3_len]
    obtain ⟨m, hm⟩ : ∃ m, (freshQ L robot quats arena obs start goal par).q.length = m + 1 :=
      ⟨(freshQ L robot quats arena obs start goal par).q.length - 1, by omega⟩
    rw [hns, hm, List.range_succ_eq_map] at hre
    unfold refineLoop timedBuild at hre
    obtain ⟨c, hre, -⟩ := Res.bind_eq_ok.1 hre
    obtain ⟨d, hre, -⟩ := Res.bind_eq_ok.1 hre
    dsimp only at hre
    rw [hst, hQ] at hre
    exact refine3_not_ok (L := L) (V := V) hi hlen (by rw [s16]; exact hx) (by rw [s16]; exact hy) hpos res d hre
  have hr2 := planLoop_norefine hno h2
  subst hr2
  obtain ⟨e1, e2, e3, e4, e5, e6, e7⟩ := finish_spec h3
  have er0 := (Res.ok.injEq _ _).mp h0
  have er := (Res.ok.injEq _ _).mp h1
  subst er0
  refine ⟨P, hb, ?_, hq0, ?_, ?_, ?_, ?_, ?_, ?_, ?_⟩
  · rw [hs, e1, hst]
  · intro hsol
    have := (e6 (by rw [← e1]; exact hsol)).1
    rw [← this, e1]
    rfl
  · rw [e3, ← er]; simp [freshRep3]
  · rw [e4, ← er]; simp [freshRep3]
  · rw [e5, ← er]; simp [freshRep3]
  · rw [e2, ← er]; simp [freshRep3]
  · intro hsol
    have h7 := Prod.ext_iff.1 (e7 (by rw [← e1]; exact hsol))
    rw [← er] at h7
    exact h7
  · intro hsol
    have h6 := (e6 (by rw [← e1]; exact hsol)).2
    exact ((Res.ok.injEq _ _).mp h6).symm

end Hrm
