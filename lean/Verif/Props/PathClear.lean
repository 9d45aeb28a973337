import Verif.Props.Planner2D
import Verif.Props.Convex

/-!
# C86: the returned planar path, step by step, against the obstacle boundaries

Composition of C71 (the returned path and its checks), C60 (the sweep), C16/C17 (the same-slice check) and C53 (the check
between slices).
-/

set_option linter.unusedVariables false

namespace Hrm

/-- The point at fraction `s` of the way from `p` to `q`. -/
def wayPoint (p q : Pt ℝ) (s : ℝ) : Pt ℝ := (p.1 + s * (q.1 - p.1), p.2 + s * (q.2 - p.2))

/-- The step from `p` to `q` has no accidental contact with the polygon: neither end is on an edge, and no vertex is on
the way. -/
def NoTouch (sh : List (Pt ℝ)) (p q : Pt ℝ) : Prop :=
  (∀ e ∈ edgesOf sh, ¬ OnEdge e p ∧ ¬ OnEdge e q) ∧ ∀ v ∈ sh, ∀ s, 0 ≤ s → s ≤ 1 → v ≠ wayPoint p q s

/-- The whole way from `p` to `q` is outside the polygon. -/
def WayOutside (sh : List (Pt ℝ)) (p q : Pt ℝ) : Prop := ∀ s, 0 ≤ s → s ≤ 1 → wayPoint p q s ∉ region sh

/-- Both ends are at one height, and except for a stretch shorter than 1e-6 no point of the way is strictly inside
(at that height) one of the polygons. -/
def RowClear (obstacle : List (List (Pt ℝ))) (p q : Pt ℝ) : Prop :=
  p.2 = q.2 ∧ ∃ c d, c ≤ d ∧ d - c < 1 / 10 ^ 6 ∧
    ∀ x, min p.1 q.1 ≤ x → x ≤ max p.1 q.1 → (c < x ∧ x < d) ∨ ∀ sh ∈ obstacle, ¬ InSlice sh (x, p.2)

theorem RowClear.symm {obstacle : List (List (Pt ℝ))} {p q : Pt ℝ} (h : RowClear obstacle p q) :
    RowClear obstacle q p := by
  obtain ⟨h1, c, d, h2, h3, h4⟩ := h
  refine ⟨h1.symm, c, d, h2, h3, fun x hx hy => ?_⟩
  rw [← h1]
  exact h4 x (by rwa [min_comm]) (by rwa [max_comm])

theorem wayPoint_rev (p q : Pt ℝ) (s : ℝ) : wayPoint q p s = wayPoint p q (1 - s) := by
  unfold wayPoint; apply Prod.ext <;> simp only <;> ring

theorem WayOutside.symm {sh : List (Pt ℝ)} {p q : Pt ℝ} (h : WayOutside sh p q) : WayOutside sh q p := by
  intro s h0 h1
  rw [wayPoint_rev]
  exact h (1 - s) (by linarith) (by linarith)

theorem NoTouch.symm {sh : List (Pt ℝ)} {p q : Pt ℝ} (h : NoTouch sh p q) : NoTouch sh q p := by
  refine ⟨fun e he => ⟨(h.1 e he).2, (h.1 e he).1⟩, fun v hv s h0 h1 => ?_⟩
  rw [wayPoint_rev]
  exact h.2 v hv (1 - s) (by linarith) (by linarith)

/-- A point that is not strictly inside at its height and on no edge is outside. -/
theorem outside_of_not_inSlice {sh : List (Pt ℝ)} (hne : sh ≠ []) (hcv : ConvexPolygon sh) {p : Pt ℝ}
    (hv : ∀ v ∈ sh, v.2 ≠ p.2) (hin : ¬ InSlice sh p) (hedge : ∀ e ∈ edgesOf sh, ¬ OnEdge e p) : p ∉ region sh := by
  intro hp
  obtain ⟨l, hl, hon, -⟩ := C13_horizontal_line_polygon p.2 sh hne
  have hl' : isect2D p.2 sh = l := by unfold isect2D; rw [hl]
  rcases slice_exact p.2 sh hne hcv hv with ⟨-, h0⟩ | ⟨p0, p1, rest, he, hs⟩
  · exact h0 p.1 hp
  · rw [hl'] at he
    subst he
    have hm := (hs p.1).1 hp
    have hcase : min p0 p1 = p.1 ∨ p.1 = max p0 p1 := by
      by_contra hcon
      push Not at hcon
      exact hin ⟨min p0 p1, max p0 p1, lt_of_le_of_ne hm.1 hcon.1, lt_of_le_of_ne hm.2 hcon.2,
        (hs _).2 ⟨le_rfl, min_le_max⟩, (hs _).2 ⟨min_le_max, le_rfl⟩⟩
    have hmem : p.1 ∈ p0 :: p1 :: rest := by
      rcases hcase with h | h
      · rcases min_choice p0 p1 with h' | h' <;> rw [h'] at h <;> simp [← h]
      · rcases max_choice p0 p1 with h' | h' <;> rw [h'] at h <;> simp [h]
    obtain ⟨e, he, ho⟩ := hon p.1 hmem
    exact hedge e he ho

/-- **C86** One step accepted by the same-slice check between two points that are strictly inside no polygon. -/
theorem C86_slice_step (Q : QrSolve ℝ) (obstacle : List (List (Pt ℝ))) (p q : Pt ℝ)
    (hacc : sameSliceFree2D Q obstacle p q = true) (sh : List (Pt ℝ)) (hsh : sh ∈ obstacle) (hne : sh ≠ [])
    (hcv : ConvexPolygon sh) (hvp : ∀ v ∈ sh, v.2 ≠ p.2) (hvq : ∀ v ∈ sh, v.2 ≠ q.2) (hp : ¬ InSlice sh p)
    (hq : ¬ InSlice sh q) (hnt : NoTouch sh p q) : WayOutside sh p q :=
  C17_transition_free_partial Q obstacle p q hacc sh hsh
    (outside_of_not_inSlice hne hcv hvp hp fun e he => (hnt.1 e he).1)
    (outside_of_not_inSlice hne hcv hvq hq fun e he => (hnt.1 e he).2) hnt.2

/-- The polygons and the limits are in general position for the sweep. -/
structure SweepGeneric (L : Libs2) (par : Param2) (B : Bound2) : Prop where
  lines : 2 ≤ par.numLineY
  order : par.yLo ≤ par.yHi
  arena : B.arena ≠ []
  low : L.dmin ≤ par.xLo
  upp : par.xHi ≤ L.dmax
  range : ∀ sh ∈ B.arena, ∀ v ∈ sh, L.dmin ≤ v.1 ∧ v.1 ≤ L.dmax
  convex : ∀ sh ∈ B.obstacle, sh ≠ [] ∧ ConvexPolygon sh
  vertex : ∀ sh ∈ B.obstacle, ∀ y ∈ par.lines, ∀ v ∈ sh, v.2 ≠ y

/-- **C86** Neighbouring samples of one sweep line: apart from a stretch shorter than 1e-6 (the code joins free intervals
that are closer than that) the way between them is free. -/
theorem C86_row_step {L : Libs2} {par : Param2} {B : Bound2} (hg : SweepGeneric L par B) {rows : List (SegRow ℝ)}
    (hrows : sweep2D L.sort L.dmin L.dmax par.xLo par.xHi B.arena B.obstacle par.lines = .ok rows) {th : ℝ} {a b : Vec}
    (h : RowNeighbours (fun y x => [x, y, th]) ⟨par.lines, rows⟩ a b) :
    ∃ x1 x2 y, a = [x1, y, th] ∧ b = [x2, y, th] ∧ RowClear B.obstacle (x1, y) (x2, y) := by
  obtain ⟨i, j, y, r, x, x', u, l, hy, hr, hx, hx', hu, hl, hclose, rfl, rfl⟩ := h
  refine ⟨x, x', y, rfl, rfl, rfl, ?_⟩
  have hne := lines_ne (par := par) (by have := hg.lines; omega)
  obtain ⟨rows', e, -, e2⟩ := C60_sweep2D_exact L.sort L.dmin L.dmax par.xLo par.xHi hg.low hg.upp B.arena B.obstacle
    par.lines hne hg.arena hg.range hg.convex hg.vertex
  rw [hrows] at e
  obtain rfl := (Res.ok.injEq _ _).mp e
  obtain ⟨rows', e, -, e3⟩ := sweep2D_ok L.sort L.dmin L.dmax par.xLo par.xHi hg.low hg.upp B.arena B.obstacle
    par.lines hne hg.range
  rw [hrows] at e
  obtain rfl := (Res.ok.injEq _ _).mp e
  obtain ⟨T, t1, t2, t3, t4⟩ := e3 r (List.mem_of_getElem? hr)
  have hsound := (e2 i y r hy hr).1
  have get : ∀ (k : ℕ) (m : ℝ), r.M[k]? = some m → ∃ lo hi, r.L[k]? = some lo ∧ r.U[k]? = some hi ∧ lo ≤ m ∧ m ≤ hi := by
    intro k m hm
    rw [t2, List.getElem?_map] at hm
    cases hT : T[k]? with
    | none => simp [hT] at hm
    | some t =>
      rw [hT] at hm
      simp only [Option.map_some, Option.some.injEq] at hm
      subst hm
      exact ⟨t.1, t.2.2, by rw [t1, List.getElem?_map, hT]; rfl, by rw [t3, List.getElem?_map, hT]; rfl,
        t4 t (List.mem_of_getElem? hT)⟩
  obtain ⟨l0, u0, a1, a2, a3, a4⟩ := get j x hx
  obtain ⟨l1, u1, b1, b2, b3, b4⟩ := get (j + 1) x' hx'
  rw [hu] at a2
  obtain rfl := Option.some.inj a2
  rw [hl] at b1
  obtain rfl := Option.some.inj b1
  have hc := abs_lt.1 hclose
  -- a sample interval reaches from its sample to the shared end
  rcases le_total x x' with hxx | hxx
  · rcases le_total l u with hlu | hlu
    · refine ⟨l, l, le_rfl, by norm_num, fun z hz1 hz2 => Or.inr ?_⟩
      rw [min_eq_left hxx] at hz1
      rw [max_eq_right hxx] at hz2
      rcases le_total z u with hzu | hzu
      · exact hsound j l0 u z a1 hu (a3.trans hz1) hzu
      · exact hsound (j + 1) l u1 z hl b2 (hlu.trans hzu) (hz2.trans b4)
    · refine ⟨u, l, hlu, by linarith, fun z hz1 hz2 => ?_⟩
      rw [min_eq_left hxx] at hz1
      rw [max_eq_right hxx] at hz2
      rcases le_or_gt z u with hzu | hzu
      · exact Or.inr (hsound j l0 u z a1 hu (a3.trans hz1) hzu)
      · rcases le_or_gt l z with hlz | hlz
        · exact Or.inr (hsound (j + 1) l u1 z hl b2 hlz (hz2.trans b4))
        · exact Or.inl ⟨hzu, hlz⟩
  · -- the samples are listed in the other order: both lie between `l` and `u`
    have hxl : l ≤ x' := b3
    have hxu : x ≤ u := a4
    have hxu1 : x' ≤ u1 := b4
    refine ⟨x', x, hxx, by linarith, fun z hz1 hz2 => ?_⟩
    rw [min_eq_right hxx] at hz1
    rw [max_eq_left hxx] at hz2
    rcases hz1.lt_or_eq with h1 | h1
    · rcases hz2.lt_or_eq with h2 | h2
      · exact Or.inl ⟨h1, h2⟩
      · exact Or.inr (hsound j l0 u z a1 hu (by rw [h2]; exact a3) (by rw [h2]; exact a4))
    · exact Or.inr (hsound (j + 1) l u1 z hl b2 (by rw [← h1]; exact b3) (by rw [← h1]; exact b4))

/-- What is known of a step from `a` to `b` of the path: either it is a translation at one heading that passes outside
every obstacle boundary it does not touch accidentally; or a translation along a sweep line that is clear but for a
stretch shorter than 1e-6; or, in one of the two directions, a motion from the heading of one slice to the heading of
another: the ellipses made for these two headings are clear of the grown obstacles at each of `np` evenly spaced points. -/
def StepSafe (L : Libs2) (obs : List SuperEllipse) (base : SuperEllipse) (added : List SuperEllipse) (par : Param2)
    (B : Bound2) (a b : Vec) : Prop :=
  ∃ x1 y1 t1 x2 y2 t2, a = [x1, y1, t1] ∧ b = [x2, y2, t2] ∧
    ((t1 = t2 ∧ ∀ sh ∈ B.obstacle, NoTouch sh (x1, y1) (x2, y2) → WayOutside sh (x1, y1) (x2, y2)) ∨
     (t1 = t2 ∧ RowClear B.obstacle (x1, y1) (x2, y2)) ∨
     (∃ i < par.numSlice, ∃ j < par.numSlice,
        |y1 - y2| ≤ 2 * |par.yHi - par.yLo| / par.numLineY ∧
        ((t1 = heading par.numSlice i ∧ t2 = heading par.numSlice j ∧
          ∀ k < par.numPoint, StepClear L obs base added par.numPoint t1 t2 x1 y1 t1 x2 y2 t2 k) ∨
         (t2 = heading par.numSlice i ∧ t1 = heading par.numSlice j ∧
          ∀ k < par.numPoint, StepClear L obs base added par.numPoint t2 t1 x2 y2 t2 x1 y1 t1 k))))

theorem StepSafe.symm {L : Libs2} {obs : List SuperEllipse} {base : SuperEllipse} {added : List SuperEllipse}
    {par : Param2} {B : Bound2} {a b : Vec} (h : StepSafe L obs base added par B a b) :
    StepSafe L obs base added par B b a := by
  obtain ⟨x1, y1, t1, x2, y2, t2, e1, e2, h⟩ := h
  refine ⟨x2, y2, t2, x1, y1, t1, e2, e1, ?_⟩
  rcases h with ⟨h1, h2⟩ | ⟨h1, h2⟩ | ⟨i, hi, j, hj, h1, h2⟩
  · exact Or.inl ⟨h1.symm, fun sh hsh hn => (h2 sh hsh hn.symm).symm⟩
  · exact Or.inr (Or.inl ⟨h1.symm, h2.symm⟩)
  · exact Or.inr (Or.inr ⟨i, hi, j, hj, by rwa [abs_sub_comm], h2.symm⟩)

/-- **C86 (partial)** A path returned by a new planar planner: start, goal, and in between sampled configurations that are
strictly inside no obstacle boundary, joined by steps that are safe in the sense of `StepSafe`. The boundaries are those
the planner computes for the robot as it was given; they must be convex polygons with no vertex exactly on a sweep line.
Missing: the first and the last step are not checked (C31); contact cases (C17); between the `numPoint` points of a step
with changing heading nothing is checked; the boundary polygons have their vertices on the true C-obstacle, they do not
contain it (C47). -/
theorem C86_planar_path_safe_partial (L : Libs2) (hpick : HeapTop L.pick) (base : SuperEllipse)
    (ops : List (RobotOp SuperEllipse 2)) (robot : Tree2) (hrun : Tree2.run ops (Tree2.new base) = .ok robot)
    (arena obs : List SuperEllipse) (hne : arena ≠ [] ∨ obs ≠ []) (hobs : ∀ o ∈ obs, o.num ≠ 0)
    (start goal : Vec) (hs : start.length = 3)
    (hg : goal.length = 3) (par : Param2) (hnp : par.numPoint ≠ 1) (hns : par.numSlice ≠ 1)
    (clock : ℕ → ℝ) (timeLim : ℝ) (fuel : ℕ) (r' : PlanRep Planner2)
    (h : Planner2.plan L clock timeLim fuel (freshRep (.new robot arena obs start goal par)) = some (.ok r'))
    (hsol : r'.st.res.solved = true) :
    ∃ B mid, cspaceBoundary robot arena obs = .ok B ∧ r'.solvedPath = start :: (mid ++ [goal]) ∧ mid ≠ [] ∧
      (SweepGeneric L par B →
        (∀ v ∈ mid, ∃ x y t, v = [x, y, t] ∧ ∀ sh ∈ B.obstacle, ¬ InSlice sh (x, y)) ∧
        ∀ (k : ℕ) (a b : Vec), mid[k]? = some a → mid[k + 1]? = some b →
          StepSafe L obs base (addedBodies ops) par B a b) := by
  obtain ⟨B, rows, mid, hB, hrows, hpath, hm, hsamp, hstep⟩ := C71_planar_plan_end_to_end L hpick base ops robot hrun
    arena obs hne start goal hs hg par clock timeLim fuel r' h hsol
  refine ⟨B, mid, hB, hpath, hm, fun hgen => ?_⟩
  have hout : ∀ v, Sampled par rows v → ∃ x y t, v = [x, y, t] ∧ y ∈ par.lines ∧ ∀ sh ∈ B.obstacle, ¬ InSlice sh (x, y) := by
    intro v hv
    obtain ⟨x, y, t, e, -, -, -, ho⟩ := C71_sampled_outside L par hgen.lines hgen.order B hgen.arena hgen.low hgen.upp
      hgen.range hgen.convex hgen.vertex rows hrows v hv
    obtain ⟨i, k, y', r, x', -, hy, -, -, rfl⟩ := hv
    injection e with e1 e2
    injection e2 with e2 e3
    subst e1 e2
    injection e3 with e3 _
    subst e3
    exact ⟨_, _, _, rfl, List.mem_of_getElem? hy, ho⟩
  refine ⟨fun v hv => ?_, ?_⟩
  · obtain ⟨x, y, t, e, -, ho⟩ := hout v (hsamp v hv)
    exact ⟨x, y, t, e, ho⟩
  have main : ∀ a b, Sampled par rows a → Sampled par rows b →
      StepChecked L (.new robot arena obs start goal par) B rows a b →
      StepSafe L obs base (addedBodies ops) par B a b := by
    intro a b ha hb hc
    obtain ⟨x1, y1, t1, rfl, hy1, ho1⟩ := hout a ha
    obtain ⟨x2, y2, t2, rfl, hy2, ho2⟩ := hout b hb
    rcases hc with ⟨i, hi, hc⟩ | ⟨i, hi, j, hj, hc⟩ | ⟨i, hi, hc⟩
    · obtain ⟨hh, hc⟩ := onlyNear_true hc
      refine ⟨x1, y1, t1, x2, y2, t2, rfl, rfl, Or.inl ⟨?_, fun sh hsh hnt => ?_⟩⟩
      · have h1 : some t1 = some _ := hh.1
        have h2 : some t2 = some _ := hh.2
        exact (Option.some.inj h1).trans (Option.some.inj h2).symm
      · rw [sameFree2_eq, Res.ok.injEq] at hc
        exact C86_slice_step L.qr B.obstacle _ _ hc sh hsh (hgen.convex sh hsh).1 (hgen.convex sh hsh).2
          (hgen.vertex sh hsh y1 hy1) (hgen.vertex sh hsh y2 hy2) (ho1 sh hsh) (ho2 sh hsh) hnt
    · obtain ⟨⟨⟨hh1, hh2⟩, hcl⟩, hc⟩ := onlyNear_true hc
      have h1 : some t1 = some _ := hh1
      have h2 : some t2 = some _ := hh2
      have h1 : t1 = heading par.numSlice i := Option.some.inj h1
      have h2 : t2 = heading par.numSlice j := Option.some.inj h2
      refine ⟨x1, y1, t1, x2, y2, t2, rfl, rfl, Or.inr (Or.inr ⟨i, hi, j, hj, ?_, Or.inl ?_⟩)⟩
      · obtain ⟨u, w, hu, hw, hle⟩ := hcl
        obtain rfl : y1 = u := Option.some.inj hu
        obtain rfl : y2 = w := Option.some.inj hw
        exact hle
      · obtain ⟨b, e, hb'⟩ := C53_planar_check_partial L base ops robot hrun arena obs hobs start goal par hnp hns i j
          hi hj x1 y1 t1 x2 y2 t2
        rw [hc] at e
        refine ⟨h1, h2, ?_⟩
        subst h1 h2
        exact hb'.1 ((Res.ok.injEq _ _).mp e).symm
    · obtain ⟨x1', x2', y, e1, e2, hr⟩ := C86_row_step hgen hrows hc
      injection e1 with e1 e1'
      injection e1' with e1' e1''
      injection e1'' with e1'' _
      injection e2 with e2 e2'
      injection e2' with e2' e2''
      injection e2'' with e2'' _
      subst e1 e2 e1'' e1'
      refine ⟨_, _, _, _, _, _, rfl, rfl, Or.inr (Or.inl ⟨e2''.symm, ?_⟩)⟩
      rw [e2']; exact hr
  intro k a b hka hkb
  have ha := hsamp a (List.mem_of_getElem? hka)
  have hb := hsamp b (List.mem_of_getElem? hkb)
  rcases hstep k a b hka hkb with hc | hc
  · exact main a b ha hb hc
  · exact (main b a hb ha hc).symm

end Hrm
