import Verif.Props.KC
import Verif.Props.Disc

/-!
# C92: the paths of the "kinematics of containment" planner

The planner never joins slices (C54), so its paths are translations at one heading, checked against the boundaries of the
base made ten percent larger. For a disc among discs the ten percent pay for the sag of the sampled circles.
-/

set_option linter.unusedVariables false

namespace Hrm

open Matrix

variable {L : Libs2} {robot : Tree2} {base : SuperEllipse} {arena obs : List SuperEllipse} {start goal : Vec} {par : Param2}
  {draws : ℕ} {rnd : ℕ → ℝ} {B : Bound2}

/-- A new planner for a robot that is a single body, before the first slice. -/
theorem kc_fresh_inv (hr : Tree2.Inv base [] robot) (hB : cspaceBoundary (Tree2.new (inflate robot.base)) arena obs = .ok B) :
    SliceInv base [] (PlannerKC.new robot arena obs start goal par draws).core B 0 (.empty, [])
      (PlannerKC.new robot arena obs start goal par draws).core.sampleOrientations := by
  obtain ⟨B', e, b1, b2⟩ := kc_boundary (robot := robot) (arena := arena) (obs := obs)
  rw [hB] at e
  obtain rfl := (Res.ok.injEq _ _).mp e
  refine ⟨hr, rfl, rfl, rfl, rfl, rfl, rfl, rfl, ?_, ?_, rfl, rfl, rfl, rfl, rfl, fun h => absurd h (lt_irrefl _), rfl, rfl⟩
  · simp [Planner2.sampleOrientations, PlannerKC.new, Planner2.new]
  · rw [b1, b2]
    have := setup_shape par.numLineY arena.length obs.length par.xLo par.xHi
    have hn : robot.numLinks = 0 := hr.num
    simpa [Planner2.sampleOrientations, PlannerKC.new, Planner2.new, Fs2.setup, Tree2.new, hn, Tree2.numLinks, setupTable,
      vresize, emptyTable] using this

/-- An edge of the roadmap: one heading, and accepted by the same-slice check or neighbours on a sweep line. -/
def KcStep (L : Libs2) (B : Bound2) (par : Param2) (rows : List (SegRow ℝ)) (a b : Vec) : Prop :=
  ∃ i < par.numSlice, AtHeading (heading par.numSlice i) a b ∧
    (sameFree2 L B.obstacle a b = .ok true ∨
      RowNeighbours (fun y x => [x, y, heading par.numSlice i]) ⟨par.lines, rows⟩ a b)

theorem kc_one_slice (hn : par.numSlice = 1) {Q : PlannerKC} :
    (PlannerKC.new robot arena obs start goal par draws).build L rnd ≠ .ok Q := by
  have e : (PlannerKC.new robot arena obs start goal par draws).core.par.numSlice = 1 := hn
  unfold PlannerKC.build
  rw [e]
  have h0 : (PlannerKC.new robot arena obs start goal par draws).core.sampleOrientations.headings = [none] := by
    simp [Planner2.sampleOrientations, PlannerKC.new, Planner2.new, headings2, hn]
  simp [List.range_one, List.foldlM_cons, Planner2.constructOneSlice, Planner2.placeSlice, h0, Res.at']

/-- The roadmap of a new planner: sampled vertices, edges within the slices. -/
theorem kc_graph (hr : Tree2.Inv base [] robot) (hB : cspaceBoundary (Tree2.new (inflate robot.base)) arena obs = .ok B)
    (hl : par.numLineY ≠ 1) {rows : List (SegRow ℝ)}
    (hrows : sweep2D L.sort L.dmin L.dmax par.xLo par.xHi B.arena B.obstacle par.lines = .ok rows) {Q : PlannerKC}
    (h : (PlannerKC.new robot arena obs start goal par draws).build L rnd = .ok Q) :
    (∀ v ∈ Q.core.graph.vertex, Sampled par rows v) ∧ Q.core.graph.EdgesIn (KcStep L B par rows) := by
  have hn : par.numSlice ≠ 1 := fun e => kc_one_slice e h
  have hpoly : (PlannerKC.new robot arena obs start goal par draws).poly = [] := rfl
  have hsim := slices_sim_of (L := L) (P0 := (PlannerKC.new robot arena obs start goal par draws).core)
    (Q0 := (PlannerKC.new robot arena obs start goal par draws).core.sampleOrientations) hB hn hl hrows
    (kc_fresh_inv hr hB) par.numSlice le_rfl
  unfold PlannerKC.build at h
  change Res.bind (List.foldlM _ _ (List.range par.numSlice)) _ = _ at h
  obtain ⟨P, hP, h⟩ := Res.bind_eq_ok.1 h
  obtain ⟨s, hs, h⟩ := Res.bind_eq_ok.1 h
  obtain rfl := (Res.ok.injEq _ _).mp h
  rw [hpoly] at hs
  have hg : s.1 = P.graph := (connectMultiSliceKC_nil rnd _ _ _ _).1 s hs
  rw [hP] at hsim
  dsimp only
  rw [hg]
  change SimRel _ _ (buildSlices (fun i => constructSlice2D (sameFree2 L B.obstacle) (heading par.numSlice i)
      ⟨par.lines, rows⟩) par.numSlice .empty []) at hsim
  cases hsl : buildSlices (fun i => constructSlice2D (sameFree2 L B.obstacle) (heading par.numSlice i)
      ⟨par.lines, rows⟩) par.numSlice .empty [] with
  | throw => rw [hsl] at hsim; exact nomatch hsim
  | ub => rw [hsl] at hsim; exact nomatch hsim
  | ok r =>
    rw [hsl] at hsim
    obtain ⟨P', e, hi⟩ := hsim
    obtain rfl := (Res.ok.injEq _ _).mp e
    have key := (buildSlices_sat (tot := False) (slice := fun i => constructSlice2D (sameFree2 L B.obstacle)
        (heading par.numSlice i) ⟨par.lines, rows⟩)
      (Vp := fun i v => Sample (fun y x => [x, y, heading par.numSlice i]) ⟨par.lines, rows⟩ v) (numSlice := par.numSlice)
      (Acc := KcStep L B par rows) (Info := fun _ _ _ => True) (fun _ _ _ _ _ _ => trivial)
      (fun i hi g => by
        unfold constructSlice2D
        refine plane_sat (Vp := fun v => Sample (fun y x => [x, y, heading par.numSlice i]) ⟨par.lines, rows⟩ v)
          (Acc := KcStep L B par rows) (dim := 3) ⟨?_, ?_, ?_, fun t => t.elim, fun t => t.elim⟩ (fun v hv => hv) ?_
          (fun t => t.elim) (P := fun r : Graph × VertexIdx => _) ?_
        · rintro a b ⟨k, y, r, x, -, -, -, rfl⟩ ⟨k', y', r', x', -, -, -, rfl⟩ hf
          exact ⟨i, hi, ⟨rfl, rfl⟩, Or.inl hf⟩
        · rintro v ⟨k, y, r, x, -, -, -, rfl⟩; rfl
        · rintro v w z ⟨k, y, r, x, h1, h2, h3, rfl⟩ ⟨k', y', r', x', -, -, -, rfl⟩ hz
          obtain rfl := Option.some.inj hz
          exact ⟨k, y, r, x, h1, h2, h3, rfl⟩
        · intro a b hab
          refine ⟨i, hi, ?_, Or.inr hab⟩
          obtain ⟨k, j, y, r, x, x', u, l, -, -, -, -, -, -, -, rfl, rfl⟩ := hab
          exact ⟨rfl, rfl⟩
        · intro s g' hg hp _
          exact Res.Sat.ok ⟨hg, rfl, rfl, trivial⟩) .empty).1 r hsl
    rw [hi.graph]
    refine ⟨fun v hv => ?_, key.1.edgesIn (by intro k e he; simp [Graph.empty] at he)⟩
    obtain ⟨i, hi', k, y, r', x, h1, h2, h3, rfl⟩ := key.1.allV (by simp [Graph.empty]) v hv
    exact ⟨i, k, y, r', x, hi', h1, h2, h3, rfl⟩

/-- A step of the path at one heading: it passes outside every boundary it does not touch accidentally, or it runs along
a sweep line that is clear but for a stretch shorter than 1e-6. -/
def SliceStepSafe (B : Bound2) (a b : Vec) : Prop :=
  ∃ x1 y1 x2 y2 t, a = [x1, y1, t] ∧ b = [x2, y2, t] ∧
    ((∀ sh ∈ B.obstacle, NoTouch sh (x1, y1) (x2, y2) → WayOutside sh (x1, y1) (x2, y2)) ∨
      RowClear B.obstacle (x1, y1) (x2, y2))

theorem SliceStepSafe.symm {a b : Vec} (h : SliceStepSafe B a b) : SliceStepSafe B b a := by
  obtain ⟨x1, y1, x2, y2, t, e1, e2, h⟩ := h
  refine ⟨x2, y2, x1, y1, t, e2, e1, ?_⟩
  rcases h with h | h
  · exact Or.inl fun sh hsh hn => (h sh hsh hn.symm).symm
  · exact Or.inr h.symm

/-- **C92 (partial)** Whenever `plan` of a new planner for a robot that is a single body reports a solution, the inner
configurations of the path are sampled ones, strictly inside no boundary of the enlarged base, and every step between them
is a translation at one heading that is safe in the sense of `SliceStepSafe`. Missing: the first and the last step (C31),
contacts (C17), and the orientation: the boundaries are those of the base as it was given (C36). -/
theorem C92_kc_path_safe_partial (L : Libs2) (hpick : HeapTop L.pick) (rnd : ℕ → ℝ) (draws : ℕ) (base : SuperEllipse)
    (ops : List (RobotOp SuperEllipse 2)) (robot : Tree2) (hrun : Tree2.run ops (Tree2.new base) = .ok robot)
    (hsingle : addedBodies ops = [])
    (arena obs : List SuperEllipse) (hne : arena ≠ [] ∨ obs ≠ []) (start goal : Vec) (hs : start.length = 3)
    (hg : goal.length = 3) (par : Param2) (clock : ℕ → ℝ) (timeLim : ℝ) (fuel tick : ℕ) (r' : PlanRep PlannerKC)
    (h : PlannerKC.plan L rnd clock timeLim fuel ⟨.new robot arena obs start goal par draws, tick, 0, 0, 0, [], []⟩ =
      some (.ok r'))
    (hsol : r'.st.core.res.solved = true) :
    ∃ B mid, cspaceBoundary (Tree2.new { robot.base with a := 11 / 10 * robot.base.a, b := 11 / 10 * robot.base.b })
        arena obs = .ok B ∧
      r'.solvedPath = start :: (mid ++ [goal]) ∧ mid ≠ [] ∧
      (SweepGeneric L par B →
        (∀ v ∈ mid, ∃ x y t, v = [x, y, t] ∧ ∀ sh ∈ B.obstacle, ¬ InSlice sh (x, y)) ∧
        ∀ (k : ℕ) (a b : Vec), mid[k]? = some a → mid[k + 1]? = some b → SliceStepSafe B a b) := by
  have hr := run_inv_of hrun
  rw [hsingle] at hr
  obtain ⟨B, hB, -⟩ := kc_boundary (robot := robot) (arena := arena) (obs := obs)
  obtain ⟨P, hk, hsr, ⟨Q, hbd, rfl⟩, hpath⟩ := kc_plan hB hne h
  obtain ⟨hh, s, t, res, -, n1, n2, hse, hQ⟩ := search_ok hsr
  have e1 : Q.core.start = start := hk.start
  have e2 : Q.core.goal = goal := hk.goal
  have e3 : Q.core.res = ⟨false, [], some 0⟩ := hk.res
  rw [e1] at n1
  rw [e2] at n2
  rw [e3] at hse
  have hok := hk.ok
  obtain ⟨hvne, hS⟩ := nearest2D_ids hok.dims hs n1
  obtain ⟨-, hT⟩ := nearest2D_ids hok.dims hg n2
  have hsol' : res.solved = true := by rw [hQ] at hsol; exact hsol
  have hgp := hpath hsol
  rw [hQ] at hgp
  change getSolutionPath Q.core.graph Q.core.start Q.core.goal res.pathId = _ at hgp
  rw [e1, e2] at hgp
  obtain ⟨s0, hs0, t0, ht0, len, hpb, -⟩ := C27_search_returns_path hok hpick hS hT ⟨rfl, rfl⟩ hse hsol'
  have hids : ∀ i ∈ res.pathId, i < Q.core.graph.vertex.length := hpb.1.mem_lt hok
  obtain ⟨path, mid, p1, p2, p3, p4, -⟩ := C30_solution_path hok.dims start goal res.pathId hids hvne
  rw [hgp] at p1
  obtain rfl := (Res.ok.injEq _ _).mp p1
  have hres : ∀ v : Vec, v.length = 3 → resize v 3 = v := by
    intro v hv
    obtain ⟨x, y, z, rfl⟩ := vec3 hv
    simp [resize]
  rw [hres start hs, hres goal hg] at p2
  have hmid : ∀ v ∈ mid, v ∈ Q.core.graph.vertex := by
    intro v hv
    obtain ⟨k, hk⟩ := List.mem_iff_getElem?.1 hv
    have hkl : k < res.pathId.length := by rw [← p3]; exact (List.getElem?_eq_some_iff.1 hk).1
    have := p4 k _ (List.getElem?_eq_getElem hkl)
    rw [hk] at this
    exact List.mem_of_getElem? this.symm
  refine ⟨B, mid, by rw [← inflate_eq]; exact hB, p2, ?_, fun hgen => ?_⟩
  · intro hm
    rw [hm] at p3
    have := List.length_eq_zero_iff.1 p3.symm
    have hhd := hpb.2.1
    rw [this] at hhd
    exact nomatch hhd
  obtain ⟨rows, hrows, -⟩ := C60_sweep2D_exact L.sort L.dmin L.dmax par.xLo par.xHi hgen.low hgen.upp B.arena B.obstacle
    par.lines (lines_ne (by have := hgen.lines; omega)) hgen.arena hgen.range hgen.convex hgen.vertex
  obtain ⟨hvert, hedge⟩ := kc_graph hr hB (by have := hgen.lines; omega) hrows hbd
  have hout : ∀ v, Sampled par rows v → ∃ x y t, v = [x, y, t] ∧ y ∈ par.lines ∧ ∀ sh ∈ B.obstacle, ¬ InSlice sh (x, y) := by
    intro v hv
    obtain ⟨x, y, t, e, -, -, -, ho⟩ := C71_sampled_outside L par hgen.lines hgen.order B hgen.arena hgen.low hgen.upp
      hgen.range hgen.convex hgen.vertex rows hrows v hv
    obtain ⟨i, k, y', r, x', -, hy, -, -, rfl⟩ := hv
    injection e with e1 e2
    injection e2 with e2 e3
    subst e1 e2
    injection e3 with e3 _
    subst e3
    exact ⟨_, _, _, rfl, List.mem_of_getElem? hy, ho⟩
  refine ⟨fun v hv => ?_, fun k a b ha hb => ?_⟩
  · obtain ⟨x, y, t, e, -, ho⟩ := hout v (hvert v (hmid v hv))
    exact ⟨x, y, t, e, ho⟩
  have main : ∀ a b, Sampled par rows a → Sampled par rows b → KcStep L B par rows a b → SliceStepSafe B a b := by
    intro a b ha hb hc
    obtain ⟨x1, y1, t1, rfl, hy1, ho1⟩ := hout a ha
    obtain ⟨x2, y2, t2, rfl, hy2, ho2⟩ := hout b hb
    obtain ⟨i, hi, hh, hc⟩ := hc
    have ht1 : t1 = heading par.numSlice i := Option.some.inj hh.1
    have ht2 : t2 = heading par.numSlice i := Option.some.inj hh.2
    subst ht1
    subst ht2
    refine ⟨x1, y1, x2, y2, _, rfl, rfl, ?_⟩
    rcases hc with hc | hc
    · left
      intro sh hsh hnt
      rw [sameFree2_eq, Res.ok.injEq] at hc
      exact C86_slice_step L.qr B.obstacle _ _ hc sh hsh (hgen.convex sh hsh).1 (hgen.convex sh hsh).2
        (hgen.vertex sh hsh y1 hy1) (hgen.vertex sh hsh y2 hy2) (ho1 sh hsh) (ho2 sh hsh) hnt
    · right
      obtain ⟨x1', x2', y, e1, e2, hr⟩ := C86_row_step hgen hrows hc
      injection e1 with e1 e1'
      injection e1' with e1' _
      injection e2 with e2 e2'
      injection e2' with e2' _
      subst e1 e2 e1'
      rw [e2']; exact hr
  have hl : k + 1 < mid.length := (List.getElem?_eq_some_iff.1 hb).1
  have hstep : KcStep L B par rows a b ∨ KcStep L B par rows b a := by
    refine C31_inner_steps_checked_partial hok hedge start goal hpb _ hgp (k + 1) (by omega) ?_ a b ?_ ?_
    · rw [p2]; simp; omega
    · rw [p2, List.getElem?_cons_succ, List.getElem?_append_left (by omega)]; exact ha
    · rw [p2, List.getElem?_cons_succ, List.getElem?_append_left hl]; exact hb
  have hva := hvert a (hmid a (List.mem_of_getElem? ha))
  have hvb := hvert b (hmid b (List.mem_of_getElem? hb))
  rcases hstep with hstep | hstep
  · exact main a b hva hvb hstep
  · exact (main b a hvb hva hstep).symm

/-- The overlap of the disc with the smaller radius. -/
theorem overlap_shrink (r d : ℝ) (o : SuperEllipse) (p : Pt ℝ) : overlap r o p = overlap (r + d) o p - d := by
  unfold overlap; ring

/-- **C92 (partial)** A disc among discs: on every inner step of a returned path the robot overlaps no obstacle by more than
the sag of the sampled circle of the enlarged disc, plus 1e-6, minus a tenth of its radius – a negative number when the
circles are sampled finely enough (`C92_sag_small`). -/
theorem C92_disc_margin_partial (L : Libs2) (hpick : HeapTop L.pick) (rnd : ℕ → ℝ) (draws : ℕ) (base : SuperEllipse)
    (hbase : base.Disc)
    (ops : List (RobotOp SuperEllipse 2)) (robot : Tree2) (hrun : Tree2.run ops (Tree2.new base) = .ok robot)
    (hsingle : addedBodies ops = [])
    (arena obs : List SuperEllipse) (hne : arena ≠ [] ∨ obs ≠ [])
    (hobs : ∀ o ∈ obs, o.Disc ∧ 2 ≤ o.num ∧ o.num ≤ 10 ^ 7) (start goal : Vec) (hs : start.length = 3)
    (hg : goal.length = 3) (par : Param2) (clock : ℕ → ℝ) (timeLim : ℝ) (fuel tick : ℕ) (r' : PlanRep PlannerKC)
    (h : PlannerKC.plan L rnd clock timeLim fuel ⟨.new robot arena obs start goal par draws, tick, 0, 0, 0, [], []⟩ =
      some (.ok r'))
    (hsol : r'.st.core.res.solved = true) :
    ∃ B mid, cspaceBoundary (Tree2.new { robot.base with a := 11 / 10 * base.a, b := 11 / 10 * base.a })
        arena obs = .ok B ∧
      r'.solvedPath = start :: (mid ++ [goal]) ∧ mid ≠ [] ∧
      (SweepGeneric L par B →
        (∀ v ∈ mid, ∃ x y t, v = [x, y, t] ∧
          ∀ o ∈ obs, overlap base.a o (x, y) ≤ sag (11 / 10 * base.a) o - base.a / 10) ∧
        ∀ (k : ℕ) (a b : Vec), mid[k]? = some a → mid[k + 1]? = some b →
          ∃ x1 y1 x2 y2 t, a = [x1, y1, t] ∧ b = [x2, y2, t] ∧
            ∀ o ∈ obs, NoTouch (grownCircle (11 / 10 * base.a) o) (x1, y1) (x2, y2) → ∀ s, 0 ≤ s → s ≤ 1 →
              overlap base.a o (wayPoint (x1, y1) (x2, y2) s) ≤
                sag (11 / 10 * base.a) o + 1 / 10 ^ 6 - base.a / 10) := by
  obtain ⟨B, mid, hB, hpath, hm, hsafe⟩ := C92_kc_path_safe_partial L hpick rnd draws base ops robot hrun hsingle arena obs hne
    start goal hs hg par clock timeLim fuel tick r' h hsol
  have hr : 0 < 11 / 10 * base.a := by have := hbase.radius; linarith
  have hinv := (run_inv_of hrun).base
  have ea : robot.base.a = base.a := hinv.1
  have eb : robot.base.b = base.a := by rw [hinv.2.1]; exact hbase.round.symm
  have ee : robot.base.eps = 1 := by rw [hinv.2.2.1]; exact hbase.ell
  rw [ea, eb] at hB
  refine ⟨B, mid, hB, hpath, hm, fun hgen => ?_⟩
  obtain ⟨hv, hstep⟩ := hsafe hgen
  have hmem : ∀ o ∈ obs, grownCircle (11 / 10 * base.a) o ∈ B.obstacle := by
    intro o ho
    have := base_boundary hB ho
    rwa [toPts_minkSum_disc (hobs o ho).1 ⟨hr, hr, by
      show _ < robot.base.eps
      rw [ee]; norm_num, by
      show robot.base.eps < _
      rw [ee]; norm_num⟩ rfl] at this
  have hin : ∀ v ∈ mid, ∀ x y t, v = [x, y, t] → ∀ o ∈ obs, ¬ InSlice (grownCircle (11 / 10 * base.a) o) (x, y) := by
    intro v hvm x y t e o ho
    obtain ⟨x', y', t', e', hout⟩ := hv v hvm
    rw [e] at e'
    injection e' with e1 e'
    injection e' with e2 e'
    subst e1 e2
    exact hout _ (hmem o ho)
  have hsh : ∀ o p, overlap base.a o p = overlap (11 / 10 * base.a) o p - base.a / 10 := fun o p => by
    rw [overlap_shrink base.a (base.a / 10)]
    congr 2; ring
  refine ⟨fun v hvm => ?_, fun k a b hka hkb => ?_⟩
  · obtain ⟨x, y, t, e, -⟩ := hv v hvm
    refine ⟨x, y, t, e, fun o ho => ?_⟩
    rw [hsh]
    have := overlap_le_of_not_inSlice hr (hobs o ho).1 (hobs o ho).2.1 (hobs o ho).2.2 (hin v hvm x y t e o ho)
    linarith
  · obtain ⟨x1, y1, x2, y2, t, e1, e2, hcase⟩ := hstep k a b hka hkb
    refine ⟨x1, y1, x2, y2, t, e1, e2, fun o ho hnt s s0 s1 => ?_⟩
    rw [hsh]
    obtain ⟨hod, ho2, ho7⟩ := hobs o ho
    rcases hcase with hw | hrow
    · have := overlap_le_of_outside hr hod ho2 ho7 (hw _ (hmem o ho) hnt s s0 s1)
      linarith [show (0 : ℝ) < 1 / 10 ^ 6 by norm_num]
    · have := overlap_row hr hod ho2 ho7 (hmem o ho) hrow (hin a (List.mem_of_getElem? hka) _ _ _ e1 o ho)
        (hin b (List.mem_of_getElem? hkb) _ _ _ e2 o ho) s s0 s1
      linarith

/-- **C92** The sag falls with the square of the number of boundary points. -/
theorem C92_sag_small {r : ℝ} {o : SuperEllipse} (hr : 0 ≤ r + o.a) (h2 : 2 ≤ o.num) :
    sag r o ≤ (r + o.a) * (5 / ((o.num : ℝ) - 1) ^ 2) := by
  unfold sag
  refine mul_le_mul_of_nonneg_left ?_ hr
  have hn : (1 : ℝ) ≤ (o.num : ℝ) - 1 := by
    have : (2 : ℝ) ≤ o.num := by exact_mod_cast h2
    linarith
  have := Real.one_sub_sq_div_two_le_cos (x := Real.pi / ((o.num : ℝ) - 1))
  have hp : Real.pi ^ 2 ≤ 10 := by
    have := Real.pi_lt_d2
    have := Real.pi_pos
    nlinarith
  have e : (Real.pi / ((o.num : ℝ) - 1)) ^ 2 / 2 = Real.pi ^ 2 / 2 / ((o.num : ℝ) - 1) ^ 2 := by
    rw [div_pow]; ring
  have : Real.pi ^ 2 / 2 / ((o.num : ℝ) - 1) ^ 2 ≤ 5 / ((o.num : ℝ) - 1) ^ 2 := by
    gcongr
    linarith
  linarith

/-- **C92 (partial)** When the obstacle circles are sampled finely enough for the ten percent to pay, the returned path is
free of collisions: at every moment of an inner step, a point closer to the robot's centre than its radius is not closer to
an obstacle's centre than the obstacle's radius. -/
theorem C92_collision_free_partial (L : Libs2) (hpick : HeapTop L.pick) (rnd : ℕ → ℝ) (draws : ℕ) (base : SuperEllipse)
    (hbase : base.Disc)
    (ops : List (RobotOp SuperEllipse 2)) (robot : Tree2) (hrun : Tree2.run ops (Tree2.new base) = .ok robot)
    (hsingle : addedBodies ops = [])
    (arena obs : List SuperEllipse) (hne : arena ≠ [] ∨ obs ≠ [])
    (hobs : ∀ o ∈ obs, o.Disc ∧ 2 ≤ o.num ∧ o.num ≤ 10 ^ 7)
    (hfine : ∀ o ∈ obs, (11 / 10 * base.a + o.a) * (5 / ((o.num : ℝ) - 1) ^ 2) + 1 / 10 ^ 6 ≤ base.a / 10)
    (start goal : Vec) (hs : start.length = 3)
    (hg : goal.length = 3) (par : Param2) (clock : ℕ → ℝ) (timeLim : ℝ) (fuel tick : ℕ) (r' : PlanRep PlannerKC)
    (h : PlannerKC.plan L rnd clock timeLim fuel ⟨.new robot arena obs start goal par draws, tick, 0, 0, 0, [], []⟩ =
      some (.ok r'))
    (hsol : r'.st.core.res.solved = true) :
    ∃ B mid, cspaceBoundary (Tree2.new { robot.base with a := 11 / 10 * base.a, b := 11 / 10 * base.a })
        arena obs = .ok B ∧
      r'.solvedPath = start :: (mid ++ [goal]) ∧ mid ≠ [] ∧
      (SweepGeneric L par B →
        ∀ (k : ℕ) (a b : Vec), mid[k]? = some a → mid[k + 1]? = some b →
          ∃ x1 y1 x2 y2 t, a = [x1, y1, t] ∧ b = [x2, y2, t] ∧
            ∀ o ∈ obs, NoTouch (grownCircle (11 / 10 * base.a) o) (x1, y1) (x2, y2) →
              ∀ s, 0 ≤ s → s ≤ 1 → ∀ q : Pt ℝ, dist2 q (wayPoint (x1, y1) (x2, y2) s) < base.a →
                o.a ≤ dist2 q (o.px, o.py)) := by
  obtain ⟨B, mid, hB, hpath, hm, hall⟩ := C92_disc_margin_partial L hpick rnd draws base hbase ops robot hrun hsingle arena obs
    hne hobs start goal hs hg par clock timeLim fuel tick r' h hsol
  refine ⟨B, mid, hB, hpath, hm, fun hgen k a b hka hkb => ?_⟩
  obtain ⟨x1, y1, x2, y2, t, e1, e2, hstep⟩ := (hall hgen).2 k a b hka hkb
  refine ⟨x1, y1, x2, y2, t, e1, e2, fun o ho hnt s s0 s1 q hq => ?_⟩
  have h1 := hstep o ho hnt s s0 s1
  have h2 := C92_sag_small (r := 11 / 10 * base.a) (o := o)
    (by have := hbase.radius; have := (hobs o ho).1.radius; linarith) (hobs o ho).2.1
  have h3 := hfine o ho
  have h4 := overlap_move base.a o q (wayPoint (x1, y1) (x2, y2) s)
  rw [dist2_comm] at h4
  have h5 : overlap base.a o q = base.a + o.a - dist2 q (o.px, o.py) := rfl
  linarith

/-! ### A run that meets the hypotheses -/

/-- Three slices of two samples each, the check positive. -/
theorem kc_slices_free {free : Vec → Vec → Res Bool} {x y0 y1 l u : ℝ} {hd : ℕ → ℝ}
    (hsame : ∀ i < 3, free [x, y0, hd i] [x, y1, hd i] = .ok true) :
    ∃ ws : List ℝ, ws.length = 3 ∧
    buildSlices (fun i => constructSlice2D free (hd i) ⟨[y0, y1], [⟨[l], [u], [x]⟩, ⟨[l], [u], [x]⟩]⟩) 3 .empty [] =
      .ok (⟨[[x, y0, hd 0], [x, y1, hd 0], [x, y0, hd 1], [x, y1, hd 1], [x, y0, hd 2], [x, y1, hd 2]],
        [(0, 1), (2, 3), (4, 5)], ws⟩, [⟨0, 2, [[0, 1]]⟩, ⟨2, 4, [[2, 3]]⟩, ⟨4, 6, [[4, 5]]⟩]) := by
  have hw : ∀ a b c a' b' c' : ℝ, ∃ w, vectorEuclidean [a, b, c] [a', b', c'] = .ok w := fun a b c a' b' c' =>
    ⟨_, rfl⟩
  choose W hW using hw
  have slice : ∀ i < 3, ∀ g : Graph, constructSlice2D free (hd i) ⟨[y0, y1], [⟨[l], [u], [x]⟩, ⟨[l], [u], [x]⟩]⟩ g =
      .ok (⟨g.vertex ++ [[x, y0, hd i], [x, y1, hd i]], g.edge ++ [(g.vertex.length, g.vertex.length + 1)],
        g.weight ++ [W x y0 (hd i) x y1 (hd i)]⟩,
        ⟨g.vertex.length, g.vertex.length + 2, [[g.vertex.length, g.vertex.length + 1]]⟩) := by
    intro i hi g
    have hr2 : List.range 2 = [0, 1] := rfl
    have hr1 : List.range 1 = [0] := rfl
    simp [constructSlice2D, generateVertices, genRow, hr2, hr1, Res.idx, Res.at', Graph.addVertex, connectOneSlice2D, linkLine,
      linkSample, linkRow, linkNext, linkPair, hsame i hi, Graph.addEdge, hW, Res.bind_ok, Res.bind_ok']
  refine ⟨[W x y0 (hd 0) x y1 (hd 0), W x y0 (hd 1) x y1 (hd 1), W x y0 (hd 2) x y1 (hd 2)], rfl, ?_⟩
  have hr3 : List.range 3 = [0, 1, 2] := rfl
  unfold buildSlices
  rw [hr3]
  simp only [List.foldlM_cons, List.foldlM_nil, slice 0 (by omega), slice 1 (by omega), slice 2 (by omega), Res.bind_ok',
    Res.bind_ok, Graph.empty]
  rfl

/-- Searching along the first edge. -/
theorem search_first_edge {vs : List Vec} (hlen : vs.length = 6) {ws : List ℝ} (hw : ws.length = 3)
    {pick : ℕ → (ℕ → ℝ) → List ℕ → ℕ} (hp : HeapTop pick) :
    ∃ c, search ⟨vs, [(0, 1), (2, 3), (4, 5)], ws⟩ pick [0] [1] ⟨false, [], some 0⟩ = .ok ⟨true, [0, 1], c⟩ := by
  match ws, hw with
  | [w0, w1, w2], _ =>
    have top : ∀ k f u, pick k f [u] = u := fun k f u => by
      have := (hp k f [u] (by simp)).1
      simpa using this
    refine ⟨some w1, ?_⟩
    have hadj : (⟨vs, [(0, 1), (2, 3), (4, 5)], [w0, w1, w2]⟩ : Graph).adj 0 = [(1, w0)] := by
      simp [Graph.adj]
    unfold search
    simp only [List.flatMap_cons, List.flatMap_nil, List.map_cons, List.map_nil, List.append_nil]
    unfold searchPairs searchPair
    simp only [hlen]
    unfold astarLoop
    rw [if_neg (by simp [AState.init])]
    simp only [show (AState.init 0).q = [0] from rfl, top]
    rw [if_neg (by omega), hadj]
    simp only [List.foldl_cons, List.foldl_nil]
    have hrel : relax 0 { AState.init 0 with q := [0].erase 0 } (1, w0) =
        ⟨Function.update (AState.init 0).d 1 (some (0 + w0)), Function.update id 1 0, [1]⟩ := by
      simp [relax, AState.init, ltInf]
    rw [hrel]
    unfold astarLoop
    rw [if_neg (by simp)]
    simp only [top, if_true]
    unfold onFound
    simp only [hlen, List.nil_append]
    simp [backtrack, Res.idx]

/-- The obstacle of the example: a disc of radius 1 around (5, 0), fifty boundary points. -/
noncomputable def exObs92 : SuperEllipse := ⟨1, 1, 1, 5, 0, 0, 50⟩

/-- The robot of the example: a disc of radius 2. -/
noncomputable def exBase92 : SuperEllipse := ⟨2, 2, 1, 0, 0, 0, 50⟩

theorem exBase92_disc : exBase92.Disc := by
  constructor <;> norm_num [exBase92]

theorem exObs92_disc : exObs92.Disc := by
  constructor <;> norm_num [exObs92]

/-- A run that meets the hypotheses of the theorems above, solves its task, and returns a path with an inner step. -/
theorem C92_witness (sort : StdSort ℝ) (qr : QrSolve ℝ) (svd : SvdFun 2) (pick : ℕ → (ℕ → ℝ) → List ℕ → ℕ)
    (hpick : HeapTop pick) (rnd : ℕ → ℝ) (clock : ℕ → ℝ) (timeLim : ℝ) : ∃ (dmin dmax : ℝ) (par : Param2) (start goal : Vec)
    (r' : PlanRep PlannerKC) (B : Bound2),
    PlannerKC.plan ⟨sort, dmin, dmax, qr, svd, pick⟩ rnd clock timeLim 0
      ⟨.new (Tree2.new exBase92) [exCircle 20] [exObs92] start goal par 0, 0, 0, 0, 0, [], []⟩ = some (.ok r') ∧
    r'.st.core.res.solved = true ∧ start.length = 3 ∧ goal.length = 3 ∧ start ≠ goal ∧
    cspaceBoundary (Tree2.new { exBase92 with a := 11 / 10 * exBase92.a, b := 11 / 10 * exBase92.a })
      [exCircle 20] [exObs92] = .ok B ∧
    SweepGeneric ⟨sort, dmin, dmax, qr, svd, pick⟩ par B ∧ 4 ≤ r'.solvedPath.length := by
  have hrun : Tree2.run [] (Tree2.new exBase92) = .ok (Tree2.new exBase92) := rfl
  have hr := run_inv_of hrun
  obtain ⟨B, hB, b1, b2⟩ := kc_boundary (robot := Tree2.new exBase92) (arena := [exCircle 20]) (obs := [exObs92])
  have harena : B.arena ≠ [] := by intro e; rw [e] at b1; simp at b1
  obtain ⟨M, hM0, hM⟩ := polys_boxed (B.arena ++ B.obstacle)
  have hMA : ∀ sh ∈ B.arena, ∀ v ∈ sh, (-M ≤ v.1 ∧ v.1 ≤ M) ∧ (-M ≤ v.2 ∧ v.2 ≤ M) := fun sh hsh => hM sh (by simp [hsh])
  have hMO : ∀ sh ∈ B.obstacle, ∀ v ∈ sh, (-M ≤ v.1 ∧ v.1 ≤ M) ∧ (-M ≤ v.2 ∧ v.2 ≤ M) := fun sh hsh => hM sh (by simp [hsh])
  set par := exPar86 M with hpar
  have hlines : par.lines = [-M - 1, M + 1] := exPar86_lines M
  set L : Libs2 := ⟨sort, -M - 3, M + 3, qr, svd, pick⟩ with hL
  have hlow : L.dmin ≤ par.xLo := le_rfl
  have hup : par.xHi ≤ L.dmax := by simp only [hL, hpar, exPar86]; linarith
  have hb : ∀ sh ∈ B.arena, ∀ v ∈ sh, L.dmin ≤ v.1 ∧ v.1 ≤ L.dmax := fun sh hsh v hv => by
    have := (hMA sh hsh v hv).1
    simp only [hL]
    exact ⟨by linarith, by linarith⟩
  have hy0 : M < |(-M - 1 : ℝ)| := by rw [abs_of_nonpos (by linarith)]; linarith
  have hy1 : M < |(M + 1 : ℝ)| := by rw [abs_of_nonneg (by linarith)]; linarith
  have hgen : SweepGeneric L par B := by
    refine ⟨le_rfl, ?_, harena, hlow, hup, hb, ?_, ?_⟩
    · simp only [hpar, exPar86]; linarith
    · refine C82_robot_boundaries_partial (inflate exBase92) [] _ (rfl : Tree2.run [] _ = _) [exCircle 20] [exObs92]
        ?_ (by simp [addedBodies]) ?_ B hB
      · rw [inflate_eq]
        constructor <;> norm_num [exBase92]
      · intro o ho
        obtain rfl := List.mem_singleton.1 ho
        exact ⟨⟨by norm_num [exObs92], by norm_num [exObs92], by norm_num [exObs92], by norm_num [exObs92]⟩, by simp [exObs92],
          Or.inl rfl, by simp [addedBodies]⟩
    · intro sh hsh y hy v hv e
      have := (hMO sh hsh v hv).2
      rw [hlines] at hy
      simp only [List.mem_cons, List.not_mem_nil, or_false] at hy
      rcases hy with rfl | rfl <;> linarith
  set start : Vec := [-M - 2, -M - 1, heading 3 0] with hstart
  set goal : Vec := [-M - 2, M + 1, heading 3 0] with hgoal
  have hrows := sweep2D_missed sort (-M - 3) (M + 3) (-M - 3) (-M - 1) (by linarith) B.arena B.obstacle harena (-M - 1) (M + 1)
    (by
      intro sh hsh
      have : ∀ v ∈ sh, -M ≤ v.2 ∧ v.2 ≤ M := by
        rcases List.mem_append.1 hsh with h | h
        · exact fun v hv => (hMA sh h v hv).2
        · exact fun v hv => (hMO sh h v hv).2
      exact ⟨isect2D_out hy0 this, isect2D_out hy1 this⟩)
  rw [show ((-M - 3 + (-M - 1)) / 2 : ℝ) = -M - 2 by ring] at hrows
  have hrows' : sweep2D L.sort L.dmin L.dmax par.xLo par.xHi B.arena B.obstacle par.lines =
      .ok [⟨[-M - 3], [-M - 1], [-M - 2]⟩, ⟨[-M - 3], [-M - 1], [-M - 2]⟩] := by rw [hlines]; exact hrows
  obtain ⟨ws, hws, hsl⟩ := kc_slices_free (free := sameFree2 L B.obstacle) (x := -M - 2) (y0 := -M - 1) (y1 := M + 1)
    (l := -M - 3) (u := -M - 1) (hd := heading 3) (by
      intro i hi3
      rw [sameFree2_eq]
      rw [sameSlice_left (M := M) (by linarith) L.qr B.obstacle fun sh hsh v hv => (hMO sh hsh v hv).1.1])
  set g : Graph := ⟨exVerts (-M - 2) (-M - 1) (M + 1), [(0, 1), (2, 3), (4, 5)], ws⟩ with hg
  change buildSlices _ 3 _ _ = .ok (g, _) at hsl
  set K := PlannerKC.new (Tree2.new exBase92) [exCircle 20] [exObs92] start goal par 0 with hK
  have hsim := slices_sim_of (L := L) (P0 := K.core) (Q0 := K.core.sampleOrientations) hB
    (show par.numSlice ≠ 1 by simp [hpar, exPar86]) (show par.numLineY ≠ 1 by simp [hpar, exPar86]) hrows'
    (kc_fresh_inv hr hB) par.numSlice le_rfl
  change SimRel _ _ (buildSlices (fun i => constructSlice2D (sameFree2 L B.obstacle) (heading 3 i)
      ⟨par.lines, _⟩) 3 .empty []) at hsim
  rw [hlines, hsl] at hsim
  obtain ⟨P, hP, hi⟩ := hsim
  have hs' := (buildSlices_sat (tot := False) (slice := fun i => constructSlice2D (sameFree2 L B.obstacle) (heading 3 i)
        ⟨[-M - 1, M + 1], [⟨[-M - 3], [-M - 1], [-M - 2]⟩, ⟨[-M - 3], [-M - 1], [-M - 2]⟩]⟩)
      (Vp := fun i v => Slice2DV (heading 3 i) v) (numSlice := 3)
      (Acc := fun _ _ => True) (Info := fun _ _ _ => True) (fun _ _ _ _ _ _ => trivial)
      (fun i hi g => (constructSlice2D_sat (tot := False) (Acc := fun _ _ => True)
        { acc := fun a b _ _ h => trivial
          vdim := fun v h => h.1
          third := fun v w z a b c => slice2DV_third a b c
          total := fun t => t.elim
          three := fun t => t.elim }
        (fun y x => ⟨rfl, rfl⟩) (fun a b h => trivial) (fun t => t.elim)).mono
          fun r hr => ⟨hr.1, hr.2.1, hr.2.2.1, trivial⟩) .empty).1 _ hsl
  have hsok : g.Ok 3 := (hs'.1.mono (Vp' := fun v => v.length = 3) (fun v ⟨i, _, h⟩ => h.1) (fun _ _ h => h)).ok
    (fun _ h => h) ⟨by simp [Graph.empty], rfl, by simp [Graph.empty]⟩
  have hcon := connectMultiSliceKC_sat (tot := True) (mats := []) (rnd := rnd) (tries := par.numPoint)
    (fun _ => by intro m hm; exact nomatch hm) (idx := [⟨0, 2, [[0, 1]]⟩, ⟨2, 4, [[2, 3]]⟩, ⟨4, 6, [[4, 5]]⟩])
    (n := par.numSlice) (g := g) hsok
    (fun _ => by simp [hpar, exPar86]) (fun _ => by simp [hg, exVerts]) 0
  obtain ⟨t, ht⟩ := hcon.2 trivial
  have ht1 : t.1 = g := (connectMultiSliceKC_nil rnd _ _ _ _).1 t ht
  have hbd : K.build L rnd = .ok { K with core := { P with graph := t.1 }, draws := t.2 } := by
    unfold PlannerKC.build
    change Res.bind (List.foldlM _ _ (List.range par.numSlice)) _ = _
    rw [hP, Res.bind_ok']
    have e3 : P.par = par := hi.par
    rw [e3, hi.idx, hi.graph]
    change (connectMultiSliceKC [] rnd par.numPoint _ par.numSlice (g, 0)).bind _ = _
    rw [ht, Res.bind_ok']
  obtain ⟨c, hsearch⟩ := search_first_edge (vs := exVerts (-M - 2) (-M - 1) (M + 1)) rfl hws hpick
  have hPs : Planner2.search L { P with graph := t.1 } = .ok { P with graph := t.1, res := ⟨true, [0, 1], c⟩ } := by
    have e1 : P.start = start := hi.start
    have e2 : P.goal = goal := hi.goal
    have e3 : P.par = par := hi.par
    have e4 : P.res = ⟨false, [], some 0⟩ := hi.res
    have e5 : P.headings = ((List.range 3).map (heading 3)).map some := hi.headings.trans headings2_three
    have hyy : (-M - 1 : ℝ) ≠ M + 1 := by intro h; linarith
    have hgap : (0 : ℝ) < 100 * ((-M - 1) - (-M - 3)) / (2 : ℕ) := by norm_num
    have n0 := near_example (x := -M - 2) hyy hgap 0 (by norm_num)
    have n1 := near_example (x := -M - 2) hyy hgap 1 (by norm_num)
    change nearest2D _ _ start 1 100 _ = _ at n0
    change nearest2D _ _ goal 1 100 _ = _ at n1
    unfold Planner2.search
    dsimp only
    rw [e5, realHeadings_some, Res.bind_ok']
    simp only [e1, e2, e3, e4, ht1]
    change (nearest2D _ (exVerts (-M - 2) (-M - 1) (M + 1)) start 1 100 (100 * ((-M - 1) - (-M - 3)) / (2 : ℕ))).bind _ = _
    rw [n0, Res.bind_ok']
    change (nearest2D _ (exVerts (-M - 2) (-M - 1) (M + 1)) goal 1 100 (100 * ((-M - 1) - (-M - 3)) / (2 : ℕ))).bind _ = _
    rw [n1, Res.bind_ok']
    change (search g pick [0] [1] _).bind _ = _
    rw [hsearch, Res.bind_ok']
  obtain ⟨path, mid, hp1, hp2, hp3, -⟩ := C30_solution_path hsok.dims start goal [0, 1] (by simp [hg, exVerts])
    (by simp [hg, exVerts])
  have hpath' : getSolutionPath t.1 P.start P.goal [0, 1] = .ok path := by
    rw [ht1, hi.start, hi.goal]; exact hp1
  obtain ⟨r', e, est, epath⟩ := plan_solved_once (ops := plannerKcOps L rnd) clock timeLim 0 ⟨K, 0, 0, 0, 0, [], []⟩ hbd
    (s2 := { K with core := { P with graph := t.1, res := ⟨true, [0, 1], c⟩ }, draws := t.2 })
    (by
      change (Planner2.search L { P with graph := t.1 }).bind _ = _
      rw [hPs]; rfl) rfl hpath' ⟨_, rfl⟩
  refine ⟨-M - 3, M + 3, par, start, goal, r', B, e, by rw [est], rfl, rfl, ?_, ?_, hgen, ?_⟩
  · intro h
    simp only [hstart, hgoal, List.cons.injEq, and_true, true_and] at h
    linarith
  · rw [← hB, inflate_eq]; rfl
  · rw [epath, hp2]
    simp only [List.length_cons, List.length_append, List.length_nil]
    simp at hp3
    omega

/-- The theorem applies to that run: between its first two roadmap vertices the disc of radius 2 keeps clear of the disc of
radius 1, at all times. -/
example (sort : StdSort ℝ) (qr : QrSolve ℝ) (svd : SvdFun 2) (pick : ℕ → (ℕ → ℝ) → List ℕ → ℕ)
    (hpick : HeapTop pick) (rnd : ℕ → ℝ) (clock : ℕ → ℝ) (timeLim : ℝ) :
    ∃ (dmin dmax : ℝ) (par : Param2) (start goal : Vec) (r' : PlanRep PlannerKC) (x1 y1 x2 y2 t : ℝ),
    PlannerKC.plan ⟨sort, dmin, dmax, qr, svd, pick⟩ rnd clock timeLim 0
      ⟨.new (Tree2.new exBase92) [exCircle 20] [exObs92] start goal par 0, 0, 0, 0, 0, [], []⟩ = some (.ok r') ∧
    r'.solvedPath[1]? = some [x1, y1, t] ∧ r'.solvedPath[2]? = some [x2, y2, t] ∧
    (NoTouch (grownCircle (11 / 10 * exBase92.a) exObs92) (x1, y1) (x2, y2) →
      ∀ s, 0 ≤ s → s ≤ 1 → ∀ q : Pt ℝ, dist2 q (wayPoint (x1, y1) (x2, y2) s) < 2 → 1 ≤ dist2 q (5, 0)) := by
  obtain ⟨dmin, dmax, par, start, goal, r', B, h, hsol, hs, hg, -, hB, hgen, hlen⟩ :=
    C92_witness sort qr svd pick hpick rnd clock timeLim
  obtain ⟨B', mid, hB', hpath, -, hall⟩ := C92_collision_free_partial ⟨sort, dmin, dmax, qr, svd, pick⟩ hpick rnd 0 exBase92
    exBase92_disc [] (Tree2.new exBase92) rfl rfl [exCircle 20] [exObs92] (by simp)
    (by simp only [List.mem_singleton, forall_eq]; exact ⟨exObs92_disc, by norm_num [exObs92], by norm_num [exObs92]⟩)
    (by simp only [List.mem_singleton, forall_eq]; norm_num [exObs92, exBase92]) start goal hs hg par clock timeLim 0 0 r' h hsol
  have : B' = B := by
    have e : Res.ok B' = Res.ok B := hB'.symm.trans hB
    exact (Res.ok.injEq _ _).mp e
  subst this
  rw [hpath] at hlen
  simp only [List.length_cons, List.length_append, List.length_nil] at hlen
  obtain ⟨x1, y1, x2, y2, t, e1, e2, hfree⟩ := hall hgen 0 _ _ (List.getElem?_eq_getElem (by omega))
    (List.getElem?_eq_getElem (by omega))
  refine ⟨dmin, dmax, par, start, goal, r', x1, y1, x2, y2, t, h, ?_, ?_, hfree exObs92 (by simp)⟩
  · rw [hpath, List.getElem?_cons_succ, List.getElem?_append_left (by omega), ← e1]
    exact List.getElem?_eq_getElem _
  · rw [hpath, List.getElem?_cons_succ, List.getElem?_append_left (by omega), ← e2]
    exact List.getElem?_eq_getElem _

end Hrm
