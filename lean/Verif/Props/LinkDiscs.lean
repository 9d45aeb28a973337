import Verif.Props.Disc
import Verif.Props.Convex

/-!
# C88: the links of a robot made of discs, on the steps that change the heading
-/

namespace Hrm

open Matrix

/-- The ellipse fitted to a disc, and the test of its centre against one obstacle. -/
theorem disc_clear {svd : SvdFun 2} (hsvd : SvdOk svd) {l o : SuperEllipse} (hl : l.Disc) {obs : List SuperEllipse} (ho : o ∈ obs)
    (hod : o.Disc) (h2 : 2 ≤ o.num) (h7 : o.num ≤ 10 ^ 7) {ha hb : ℝ} {np : ℕ} {E : SuperEllipse}
    (hE : getTFE2D svd ![l.a, l.b] ha hb np l.num = some E) {p : Pt ℝ} (hfree : SweptClear obs E p)
    (hv : ∀ v ∈ grownCircle l.a o, v.2 ≠ p.2) : overlap l.a o p ≤ sag l.a o := by
  obtain ⟨ea, eb, ee⟩ := tfe_disc hsvd hl hE
  refine overlap_le_of_not_inSlice hl.radius hod h2 h7
    (not_inSlice_of_free hfree (bridge_disc hl.radius ea eb ee ho hod) ?_ ?_ hv)
  · intro h
    have := congrArg List.length h
    simp only [grownCircle, List.length_map, List.length_range, List.length_nil] at this
    omega
  · rw [← toPts_minkSum_disc hod (Disc_ok hl) hl.round]
    exact (C82_cobstacle_convex_partial o l (Disc_ok hod) (Disc_ok hl) (Or.inl hod.round)).convex

/-- The disc-shaped bodies of the robot at `(x, y, th)` overlap no disc-shaped obstacle by more than the sag of its sampled
circle, unless the centre of the body is level with a corner of the polygon. -/
def DiscsClear (obs : List SuperEllipse) (base : SuperEllipse) (added : List SuperEllipse) (x y th : ℝ) : Prop :=
  ∀ o ∈ obs,
    ((∀ v ∈ grownCircle base.a o, v.2 ≠ y) → overlap base.a o (x, y) ≤ sag base.a o) ∧
    ∀ l ∈ added, (∀ v ∈ grownCircle l.a o, v.2 ≠ (centreAt l x y th).2) → overlap l.a o (centreAt l x y th) ≤ sag l.a o

theorem stepClear_discs {L : Libs2} (hsvd : SvdOk L.svd) {base : SuperEllipse} (hb : base.Disc) {added : List SuperEllipse}
    (ha : ∀ l ∈ added, l.Disc) {obs : List SuperEllipse} (hobs : ∀ o ∈ obs, o.Disc ∧ 2 ≤ o.num ∧ o.num ≤ 10 ^ 7) {np : ℕ}
    {h1 h2 x1 y1 t1 x2 y2 t2 : ℝ} {k : ℕ} (h : StepClear L obs base added np h1 h2 x1 y1 t1 x2 y2 t2 k) :
    DiscsClear obs base added (onWay np k x1 x2) (onWay np k y1 y2) (onWay np k t1 t2) := by
  intro o ho
  obtain ⟨hod, ho2, ho7⟩ := hobs o ho
  obtain ⟨⟨E, hE, hfree⟩, hlinks⟩ := h
  refine ⟨fun hv => disc_clear hsvd hb ho hod ho2 ho7 hE hfree hv, fun l hl hv => ?_⟩
  obtain ⟨E, hE, hfree⟩ := hlinks l hl
  exact disc_clear hsvd (ha l hl) ho hod ho2 ho7 hE hfree hv

/-! ### Between the checked configurations -/

/-- A point that turns about the origin moves by no more than the angle times its distance. -/
theorem turn_le (u v s t : ℝ) :
    Real.sqrt (((Real.cos s * u - Real.sin s * v) - (Real.cos t * u - Real.sin t * v)) ^ 2 +
      ((Real.sin s * u + Real.cos s * v) - (Real.sin t * u + Real.cos t * v)) ^ 2) ≤ |s - t| * Real.sqrt (u ^ 2 + v ^ 2) := by
  rw [← Real.sqrt_sq_eq_abs, ← Real.sqrt_mul (sq_nonneg _)]
  apply Real.sqrt_le_sqrt
  have e : ((Real.cos s * u - Real.sin s * v) - (Real.cos t * u - Real.sin t * v)) ^ 2 +
      ((Real.sin s * u + Real.cos s * v) - (Real.sin t * u + Real.cos t * v)) ^ 2 =
      (2 - 2 * Real.cos (s - t)) * (u ^ 2 + v ^ 2) := by
    rw [Real.cos_sub]
    linear_combination (u ^ 2 + v ^ 2) * (Real.sin_sq_add_cos_sq s + Real.sin_sq_add_cos_sq t)
  rw [e]
  have := Real.one_sub_sq_div_two_le_cos (x := s - t)
  exact mul_le_mul_of_nonneg_right (by linarith) (by positivity)

/-- How far the centre of a body attached at `(l.px, l.py)` moves. -/
theorem dist2_centreAt (l : SuperEllipse) (x y t x' y' t' : ℝ) :
    dist2 (centreAt l x y t) (centreAt l x' y' t') ≤ dist2 (x, y) (x', y') + |t - t'| * Real.sqrt (l.px ^ 2 + l.py ^ 2) := by
  refine (dist2_triangle _ (centreAt l x' y' t) _).trans ?_
  refine add_le_add (le_of_eq ?_) ?_
  · unfold dist2 centreAt
    congr 1
    ring
  · refine le_trans (le_of_eq ?_) (turn_le l.px l.py t t')
    unfold dist2 centreAt
    congr 1
    ring

/-- The configuration a fraction `s` of the way from `a` to `b`: where the centre of the body is. -/
noncomputable def centreOnWay (l : SuperEllipse) (x1 y1 t1 x2 y2 t2 s : ℝ) : Pt ℝ :=
  centreAt l (x1 + s * (x2 - x1)) (y1 + s * (y2 - y1)) (t1 + s * (t2 - t1))

/-- A body checked at `np` evenly spaced configurations. -/
theorem link_between {l o : SuperEllipse} {x1 y1 t1 x2 y2 t2 : ℝ} {np : ℕ} (h2 : 2 ≤ np) {c : ℝ}
    (h : ∀ k < np, overlap l.a o (centreAt l (onWay np k x1 x2) (onWay np k y1 y2) (onWay np k t1 t2)) ≤ c) (s : ℝ) (h0 : 0 ≤ s)
    (h1 : s ≤ 1) : overlap l.a o (centreOnWay l x1 y1 t1 x2 y2 t2 s) ≤
      c + (dist2 (x1, y1) (x2, y2) + |t1 - t2| * Real.sqrt (l.px ^ 2 + l.py ^ 2)) / (2 * ((np : ℝ) - 1)) := by
  have hn : (0 : ℝ) < (np : ℝ) - 1 := by
    have : (2 : ℝ) ≤ np := by exact_mod_cast h2
    linarith
  set u := s * ((np : ℝ) - 1) with hu
  have hu0 : 0 ≤ u := by positivity
  have hu1 : u ≤ (np : ℝ) - 1 := by rw [hu]; nlinarith
  have e1 : (⌊u + 1 / 2⌋₊ : ℝ) ≤ u + 1 / 2 := Nat.floor_le (by linarith)
  have e2 : u + 1 / 2 < (⌊u + 1 / 2⌋₊ : ℝ) + 1 := Nat.lt_floor_add_one _
  set k := ⌊u + 1 / 2⌋₊ with hk
  have hkn : k < np := by
    have : (k : ℝ) < np := by linarith
    exact_mod_cast this
  set f : ℝ := k / ((np : ℝ) - 1) with hf
  have hd : |f - s| ≤ 1 / (2 * ((np : ℝ) - 1)) := by
    have : f - s = (k - u) / ((np : ℝ) - 1) := by rw [hu, hf]; field_simp
    rw [this, abs_div, abs_of_pos hn, div_le_div_iff₀ hn (by linarith)]
    have : |(k : ℝ) - u| ≤ 1 / 2 := by rw [abs_le]; constructor <;> linarith
    nlinarith
  have hmv := overlap_move l.a o (centreOnWay l x1 y1 t1 x2 y2 t2 s) (centreOnWay l x1 y1 t1 x2 y2 t2 f)
  have hk' : overlap l.a o (centreOnWay l x1 y1 t1 x2 y2 t2 f) ≤ c := h k hkn
  have hdist : dist2 (centreOnWay l x1 y1 t1 x2 y2 t2 f) (centreOnWay l x1 y1 t1 x2 y2 t2 s) ≤
      |f - s| * (dist2 (x1, y1) (x2, y2) + |t1 - t2| * Real.sqrt (l.px ^ 2 + l.py ^ 2)) := by
    refine (dist2_centreAt l _ _ _ _ _ _).trans (le_of_eq ?_)
    have e3 := dist2_way (x1, y1) (x2, y2) f s
    unfold wayPoint at e3
    rw [e3, show t1 + f * (t2 - t1) - (t1 + s * (t2 - t1)) = -((f - s) * (t1 - t2)) by ring, abs_neg, abs_mul]
    ring
  have hnn : 0 ≤ dist2 (x1, y1) (x2, y2) + |t1 - t2| * Real.sqrt (l.px ^ 2 + l.py ^ 2) :=
    add_nonneg (dist2_nonneg _ _) (mul_nonneg (abs_nonneg _) (Real.sqrt_nonneg _))
  have := mul_le_mul_of_nonneg_right hd hnn
  rw [one_div_mul_eq_div] at this
  linarith

/-- C88, the links: a motion between two headings that the planner accepts, for a robot made of discs among discs. At no time of
the motion does a body of the robot overlap an obstacle by more than the sag of the sampled circle plus half of the longest
way the body can move between two of the checked configurations, provided that at these configurations its centre is level
with no corner of the polygon. -/
theorem C88_accepted_turn_partial (L : Libs2) (hsvd : SvdOk L.svd) (base : SuperEllipse) (hb : base.Disc)
    (ops : List (RobotOp SuperEllipse 2)) (ha : ∀ l ∈ addedBodies ops, l.Disc) (robot : Tree2)
    (hrun : Tree2.run ops (Tree2.new base) = .ok robot) (arena obs : List SuperEllipse)
    (hobs : ∀ o ∈ obs, o.Disc ∧ 2 ≤ o.num ∧ o.num ≤ 10 ^ 7) (start goal : Vec) (par : Param2) (hnp : 2 ≤ par.numPoint)
    (hn : par.numSlice ≠ 1) (i j : ℕ) (hi : i < par.numSlice) (hj : j < par.numSlice) (x1 y1 t1 x2 y2 t2 : ℝ)
    (h : (Planner2.new robot arena obs start goal par).sampleOrientations.freeMulti L i j [x1, y1, t1] [x2, y2, t2] = .ok true) :
    (∀ k < par.numPoint, DiscsClear obs base (addedBodies ops) (onWay par.numPoint k x1 x2) (onWay par.numPoint k y1 y2)
      (onWay par.numPoint k t1 t2)) ∧
    ∀ o ∈ obs, ∀ l ∈ addedBodies ops,
      (∀ k < par.numPoint, ∀ v ∈ grownCircle l.a o,
        v.2 ≠ (centreAt l (onWay par.numPoint k x1 x2) (onWay par.numPoint k y1 y2) (onWay par.numPoint k t1 t2)).2) →
      ∀ s, 0 ≤ s → s ≤ 1 → overlap l.a o (centreOnWay l x1 y1 t1 x2 y2 t2 s) ≤ sag l.a o +
        (dist2 (x1, y1) (x2, y2) + |t1 - t2| * Real.sqrt (l.px ^ 2 + l.py ^ 2)) / (2 * ((par.numPoint : ℝ) - 1)) := by
  obtain ⟨b, e, hiff⟩ := C53_planar_check_partial L base ops robot hrun arena obs
    (fun o ho => by have := (hobs o ho).2.1; omega) start goal par (by omega) hn i j hi hj x1 y1 t1 x2 y2 t2
  rw [e] at h
  obtain rfl := (Res.ok.injEq _ _).mp h
  have hall : ∀ k < par.numPoint, DiscsClear obs base (addedBodies ops) (onWay par.numPoint k x1 x2) (onWay par.numPoint k y1 y2)
      (onWay par.numPoint k t1 t2) := fun k hk => stepClear_discs hsvd hb ha hobs (hiff.1 rfl k hk)
  exact ⟨hall, fun o ho l hl hv => link_between hnp fun k hk => (hall k hk o ho).2 l hl (hv k hk)⟩

/-- C88, the links, on a returned path: every inner step keeps its heading, or no link overlaps an obstacle by more than the
bound of `C88_accepted_turn_partial`. Missing: the links on a step that keeps its heading, for which the planner uses
boundaries of the robot as it was given, not as it is turned in the slice (C36: the claim is false there). -/
theorem C88_path_links_partial (L : Libs2) (hpick : HeapTop L.pick) (hsvd : SvdOk L.svd) (base : SuperEllipse)
    (hbase : base.Disc) (ops : List (RobotOp SuperEllipse 2)) (ha : ∀ l ∈ addedBodies ops, l.Disc) (robot : Tree2)
    (hrun : Tree2.run ops (Tree2.new base) = .ok robot)
    (arena obs : List SuperEllipse) (hne : arena ≠ [] ∨ obs ≠ [])
    (hobs : ∀ o ∈ obs, o.Disc ∧ 2 ≤ o.num ∧ o.num ≤ 10 ^ 7)
    (start goal : Vec) (hs : start.length = 3)
    (hg : goal.length = 3) (par : Param2) (hnp : 2 ≤ par.numPoint) (hns : par.numSlice ≠ 1)
    (clock : ℕ → ℝ) (timeLim : ℝ) (fuel : ℕ) (r' : PlanRep Planner2)
    (h : Planner2.plan L clock timeLim fuel (freshRep (.new robot arena obs start goal par)) = some (.ok r'))
    (hsol : r'.st.res.solved = true) :
    ∃ B mid, cspaceBoundary robot arena obs = .ok B ∧ r'.solvedPath = start :: (mid ++ [goal]) ∧ mid ≠ [] ∧
      (SweepGeneric L par B → ∀ (k : ℕ) (a b : Vec), mid[k]? = some a → mid[k + 1]? = some b →
        ∃ x1 y1 t1 x2 y2 t2, a = [x1, y1, t1] ∧ b = [x2, y2, t2] ∧
          (t1 = t2 ∨ ∀ o ∈ obs, ∀ l ∈ addedBodies ops,
            (∀ k < par.numPoint, ∀ v ∈ grownCircle l.a o,
              v.2 ≠ (centreAt l (onWay par.numPoint k x1 x2) (onWay par.numPoint k y1 y2) (onWay par.numPoint k t1 t2)).2) →
            ∀ s, 0 ≤ s → s ≤ 1 → overlap l.a o (centreOnWay l x1 y1 t1 x2 y2 t2 s) ≤ sag l.a o +
              (dist2 (x1, y1) (x2, y2) + |t1 - t2| * Real.sqrt (l.px ^ 2 + l.py ^ 2)) / (2 * ((par.numPoint : ℝ) - 1)))) := by
  obtain ⟨B, mid, hB, hpath, hm, hsafe⟩ := C86_planar_path_safe_partial L hpick base ops robot hrun arena obs hne
    (fun o ho => by have := (hobs o ho).2.1; omega) start goal hs hg par (by omega) hns clock timeLim fuel r' h hsol
  refine ⟨B, mid, hB, hpath, hm, fun hgen k a b hka hkb => ?_⟩
  obtain ⟨x1, y1, t1, x2, y2, t2, e1, e2, hcase⟩ := (hsafe hgen).2 k a b hka hkb
  refine ⟨x1, y1, t1, x2, y2, t2, e1, e2, ?_⟩
  rcases hcase with ⟨ht, -⟩ | ⟨ht, -⟩ | ⟨i, hi, j, hj, -, hw⟩
  · exact Or.inl ht
  · exact Or.inl ht
  · refine Or.inr fun o ho l hl hv => link_between hnp fun k hk => ?_
    rcases hw with ⟨-, -, hw⟩ | ⟨-, -, hw⟩
    · exact (stepClear_discs hsvd hbase ha hobs (hw k hk) o ho).2 l hl (hv k hk)
    · have := (stepClear_discs hsvd hbase ha hobs (hw (par.numPoint - 1 - k) (by omega)) o ho).2 l hl
      have hrev : ∀ a b : ℝ, onWay par.numPoint (par.numPoint - 1 - k) b a = onWay par.numPoint k a b := by
        intro a b
        rw [onWay_rev (by omega) hnp, show par.numPoint - 1 - (par.numPoint - 1 - k) = k by omega]
      rw [hrev, hrev, hrev] at this
      exact this (hv k hk)

/-- The hypotheses of `C88_accepted_turn_partial` are met together: a robot of two discs, one attached at `(3, 0)`, turns by `π`
above an obstacle, and the check accepts the motion. -/
example (sort : StdSort ℝ) (qr : QrSolve ℝ) (pick : ℕ → (ℕ → ℝ) → List ℕ → ℕ) (dmin dmax : ℝ) :
    ∃ (svd : SvdFun 2) (robot : Tree2) (y : ℝ),
    let link : SuperEllipse := ⟨1, 1, 1, 3, 0, 0, 50⟩
    Tree2.run [.add link] (Tree2.new ⟨2, 2, 1, 0, 0, 0, 50⟩) = .ok robot ∧
    (Planner2.new robot [exCircle 20] [exObs86] [] [] ⟨3, 2, 10, 10, 1, -10, 10, -10, 10⟩).sampleOrientations.freeMulti
      ⟨sort, dmin, dmax, qr, svd, pick⟩ 0 1 [0, y, heading 3 0] [1, y, heading 3 1] = .ok true ∧
    ∀ s, 0 ≤ s → s ≤ 1 → overlap 1 exObs86 (centreOnWay link 0 y (heading 3 0) 1 y (heading 3 1) s) ≤
      2 * (1 - Real.cos (Real.pi / 7)) + (1 + hrmPi * 3) / 18 := by
  obtain ⟨svd, hsvd⟩ := exists_svd 2
  set link : SuperEllipse := ⟨1, 1, 1, 3, 0, 0, 50⟩ with hlink
  have hd : (⟨2, 2, 1, 0, 0, 0, 50⟩ : SuperEllipse).Disc := ⟨by norm_num, rfl, rfl⟩
  have hld : link.Disc := ⟨by norm_num [hlink], rfl, rfl⟩
  have hod : exObs86.Disc := ⟨by norm_num [exObs86], rfl, rfl⟩
  obtain ⟨robot, hrun⟩ : ∃ robot, Tree2.run [.add link] (Tree2.new ⟨2, 2, 1, 0, 0, 0, 50⟩) = .ok robot := ⟨_, rfl⟩
  obtain ⟨M, hM0, hM⟩ := polys_boxed
    (bridgeBound [exObs86] (tfeOf svd ⟨2, 2, 1, 0, 0, 0, 50⟩ (heading 3 0) (heading 3 1) 10) ++
     bridgeBound [exObs86] (tfeOf svd link (matAngle (rot2 (heading 3 0) * rot2 link.ang))
       (matAngle (rot2 (heading 3 1) * rot2 link.ang)) 10) ++ [grownCircle link.a exObs86])
  have hne : ∀ E, ∀ sh ∈ bridgeBound [exObs86] E, sh ≠ [] := by
    intro E sh hsh h0
    obtain ⟨o, ho, rfl⟩ := List.mem_map.1 hsh
    obtain rfl := List.mem_singleton.1 ho
    have := congrArg List.length h0
    simp [toPts, SuperEllipse.minkSum2D, exObs86] at this
  have hoy : ∀ k, onWay 10 k (M + 4) (M + 4) = M + 4 := by intro k; unfold onWay; ring
  have hcy : ∀ x t, M < (centreAt link x (M + 4) t).2 := by
    intro x t
    have := Real.neg_one_le_sin t
    simp only [centreAt, hlink]
    linarith
  obtain ⟨b, e, hiff⟩ := C53_planar_check_partial ⟨sort, dmin, dmax, qr, svd, pick⟩ _ [.add link] robot hrun [exCircle 20] [exObs86]
    (by intro o ho; obtain rfl := List.mem_singleton.1 ho; norm_num [exObs86]) [] [] ⟨3, 2, 10, 10, 1, -10, 10, -10, 10⟩
    (by norm_num) (by norm_num) 0 1 (by norm_num) (by norm_num) 0 (M + 4) (heading 3 0) 1 (M + 4) (heading 3 1)
  have hb : b = true := by
    refine hiff.2 fun k _ => ⟨⟨_, tfeOf_some (by norm_num) _ _ _ _, ?_⟩, fun l hl => ?_⟩
    · refine isPtInCFree2D_out (M := M) ?_ _ fun sh hsh => ⟨hne _ _ hsh, fun v hv => (hM sh (by simp [hsh]) v hv).2⟩
      show M < |onWay 10 k (M + 4) (M + 4)|
      rw [hoy]
      exact lt_abs.2 (Or.inl (by linarith))
    · obtain rfl : l = link := by simpa [addedBodies] using hl
      refine ⟨_, tfeOf_some (by norm_num) _ _ _ _, ?_⟩
      refine isPtInCFree2D_out (M := M) ?_ _ fun sh hsh => ⟨hne _ _ hsh, fun v hv => (hM sh (by simp [hsh]) v hv).2⟩
      show M < |(centreAt link _ (onWay 10 k (M + 4) (M + 4)) _).2|
      rw [hoy]
      exact lt_abs.2 (Or.inl (hcy _ _))
  subst hb
  refine ⟨svd, robot, M + 4, hrun, e, fun s s0 s1 => ?_⟩
  have := (C88_accepted_turn_partial ⟨sort, dmin, dmax, qr, svd, pick⟩ hsvd _ hd [.add link]
    (by intro l hl; obtain rfl : l = link := by simpa [addedBodies] using hl
        exact hld) robot hrun [exCircle 20] [exObs86]
    (by intro o ho; obtain rfl := List.mem_singleton.1 ho; exact ⟨hod, by norm_num [exObs86], by norm_num [exObs86]⟩) [] []
    ⟨3, 2, 10, 10, 1, -10, 10, -10, 10⟩ (by norm_num) (by norm_num) 0 1 (by norm_num) (by norm_num) 0 (M + 4) (heading 3 0) 1 (M + 4)
    (heading 3 1) e).2 exObs86 (by simp) link (by simp [addedBodies]) (by
      intro k _ v hv h0
      have h1 := (hM _ (by simp) v hv).2.2
      have h2 := hcy (onWay 10 k 0 1) (onWay 10 k (heading 3 0) (heading 3 1))
      simp only [hoy] at h0
      linarith) s s0 s1
  refine this.trans (le_of_eq ?_)
  have e1 : sag link.a exObs86 = 2 * (1 - Real.cos (Real.pi / 7)) := by
    unfold sag exObs86
    norm_num [hlink]
  have e2 : dist2 (0, M + 4) (1, M + 4) = 1 := by rw [dist2_horizontal]; norm_num
  have e3 : |heading 3 0 - heading 3 1| = hrmPi := by
    rw [headings_three.1, headings_three.2.1, sub_zero, abs_neg, abs_of_pos (by norm_num [hrmPi])]
  have e4 : Real.sqrt (link.px ^ 2 + link.py ^ 2) = 3 := by
    rw [show link.px ^ 2 + link.py ^ 2 = 3 ^ 2 by norm_num [hlink], Real.sqrt_sq (by norm_num)]
  rw [e1, e2, e3, e4]
  norm_num

end Hrm
