import Verif.Lemmas.KC
import Verif.Props.Planner2D

/-! # The "kinematics of containment" planner: build, plan -/

namespace Hrm

open Matrix

/-! ## The table keeps its number of rows; more lines than rows do not work -/

section fill
variable {K : Type*} [LinearOrder K] {Line Shape : Type*}

theorem setAt2_ok_len {β : Type*} {tab tab' : List (List β)} {i j : ℕ} {v : β} (h : setAt2 tab i j v = .ok tab') :
    i < tab.length ∧ tab'.length = tab.length := by
  unfold setAt2 at h
  cases hi : tab[i]? with
  | none => rw [hi] at h; exact nomatch h
  | some row =>
    rw [hi] at h
    dsimp only at h
    split at h
    · obtain rfl := (Res.ok.injEq _ _).mp h
      exact ⟨(List.getElem?_eq_some_iff.1 hi).1, by simp⟩
    · exact nomatch h

theorem setAt2_sat {β : Type*} {tab : List (List β)} {i j : ℕ} {v : β} :
    Res.Sat False (setAt2 tab i j v) (fun tab' => i < tab.length ∧ tab'.length = tab.length) :=
  ⟨fun _ h => setAt2_ok_len h, fun h => h.elim⟩

theorem Sat.any {β : Type} (x : Res β) : Res.Sat False x (fun b => x = .ok b) := ⟨fun _ h => h, fun h => h.elim⟩

theorem fillArena_len (isect : Line → Shape → List K) (lowB upB : K) (y : Line) (i : ℕ) (shs : List Shape) :
    ∀ (j : ℕ) (t : Table K), Res.Sat False (fillArena isect lowB upB y i j shs t) (fun t' =>
      (shs ≠ [] → i < t.arenaLow.length) ∧ t'.arenaLow.length = t.arenaLow.length ∧
      t'.obsLow.length = t.obsLow.length) := by
  induction shs with
  | nil => intro j t; exact Res.Sat.ok ⟨by simp, rfl, rfl⟩
  | cons sh shs ih =>
    intro j t
    unfold fillArena
    refine Res.Sat.bind (Q := fun _ => True) ⟨fun _ _ => trivial, fun h => h.elim⟩ fun v _ => ?_
    refine Res.Sat.bind setAt2_sat fun lo hlo => ?_
    refine Res.Sat.bind setAt2_sat fun up hup => ?_
    refine (ih (j + 1) _).mono ?_
    rintro t' ⟨-, h2, h3⟩
    exact ⟨fun _ => hlo.1, h2.trans hlo.2, h3⟩

theorem fillObs_len (isect : Line → Shape → List K) (y : Line) (i : ℕ) (shs : List Shape) :
    ∀ (j : ℕ) (t : Table K), Res.Sat False (fillObs isect y i j shs t) (fun t' =>
      (shs ≠ [] → i < t.obsLow.length) ∧ t'.arenaLow.length = t.arenaLow.length ∧
      t'.obsLow.length = t.obsLow.length) := by
  induction shs with
  | nil => intro j t; exact Res.Sat.ok ⟨by simp, rfl, rfl⟩
  | cons sh shs ih =>
    intro j t
    unfold fillObs
    refine Res.Sat.bind (Q := fun _ => True) ⟨fun _ _ => trivial, fun h => h.elim⟩ fun v _ => ?_
    refine Res.Sat.bind setAt2_sat fun lo hlo => ?_
    refine Res.Sat.bind setAt2_sat fun up hup => ?_
    refine (ih (j + 1) _).mono ?_
    rintro t' ⟨-, h2, h3⟩
    exact ⟨fun _ => hlo.1, h2, h3.trans hlo.2⟩

theorem fillLines_len (isect : Line → Shape → List K) (lowB upB : K) (arena obs : List Shape) (ys : List Line) :
    ∀ (i : ℕ) (t : Table K), Res.Sat False (fillLines isect lowB upB arena obs i ys t) (fun t' =>
      (ys ≠ [] → arena ≠ [] → i + ys.length ≤ t.arenaLow.length) ∧
      (ys ≠ [] → obs ≠ [] → i + ys.length ≤ t.obsLow.length) ∧
      t'.arenaLow.length = t.arenaLow.length ∧ t'.obsLow.length = t.obsLow.length) := by
  induction ys with
  | nil => intro i t; exact Res.Sat.ok ⟨by simp, by simp, rfl, rfl⟩
  | cons y ys ih =>
    intro i t
    unfold fillLines
    refine Res.Sat.bind (fillArena_len isect lowB upB y i arena 0 t) ?_
    rintro t1 ⟨a1, a2, a3⟩
    refine Res.Sat.bind (fillObs_len isect y i obs 0 t1) ?_
    rintro t2 ⟨b1, b2, b3⟩
    refine (ih (i + 1) t2).mono ?_
    rintro t3 ⟨c1, c2, c3, c4⟩
    rw [List.length_cons]
    refine ⟨fun _ ha => ?_, fun _ ho => ?_, by omega, by omega⟩
    · have := a1 ha
      by_cases h : ys = []
      · subst h; simp; omega
      · have := c1 h ha; omega
    · have := b1 ho
      by_cases h : ys = []
      · subst h; simp; omega
      · have := c2 h ho; omega

end fill

/-! ## The slices -/

/-- An edge of one slice: same heading, and accepted by the same-slice check or samples of one sweep line. -/
def SlicePair (L : Libs2) (B : Bound2) (a b : Vec) : Prop :=
  SameHeading a b ∧ (sameFree2 L B.obstacle a b = .ok true ∨ a[1]? = b[1]?)

/-- After `k` slices of a planner whose free-space object has a robot with boundaries `B`. -/
structure KcLight (L : Libs2) (P0 : Planner2) (B : Bound2) (k : ℕ) (P : Planner2) : Prop where
  fsr : P.fs.robot = P0.fs.robot
  arena : P.arena = P0.arena
  obs : P.obs = P0.obs
  par : P.par = P0.par
  start : P.start = P0.start
  goal : P.goal = P0.goal
  res : P.res = P0.res
  refine : P.isRefine = false
  rowsA : P.fs.table.arenaLow.length = P0.fs.table.arenaLow.length
  rowsO : P.fs.table.obsLow.length = P0.fs.table.obsLow.length
  bound : 0 < k → P.fs.bound = B
  ok : P.graph.Ok 3
  edges : P.graph.EdgesIn (SlicePair L B)

variable {L : Libs2} {P0 P : Planner2} {B : Bound2} {k : ℕ}

theorem placeSlice_light (hB : cspaceBoundary P0.fs.robot P0.arena P0.obs = .ok B) (h : KcLight L P0 B k P) (i : ℕ) :
    Res.Sat False (P.placeSlice i) (fun Q => KcLight L P0 B (k + 1) Q ∧ Q.sliceBound = B) := by
  unfold Planner2.placeSlice
  refine Res.Sat.bind (Sat.any _) fun hd _ => ?_
  cases hd with
  | none => exact Res.Sat.fail_ub fun h => h
  | some th =>
    dsimp only
    refine Res.Sat.bind (Sat.any _) fun T _ => ?_
    have hB' : cspaceBoundary P.fs.robot P.arena P.obs = .ok B := by rw [h.fsr, h.arena, h.obs]; exact hB
    rw [if_neg (by simp [h.refine]), hB', Res.bind_ok']
    apply Res.Sat.ok
    exact ⟨⟨h.fsr, h.arena, h.obs, h.par, h.start, h.goal, h.res, h.refine, h.rowsA, h.rowsO, fun _ => rfl, h.ok,
      h.edges⟩, rfl⟩

theorem sweep_len (p : Param2) (f : Fs2) : Res.Sat False (f.sweep L p) (fun s =>
    s.1.robot = f.robot ∧ s.1.bound = f.bound ∧
    s.1.table.arenaLow.length = f.table.arenaLow.length ∧ s.1.table.obsLow.length = f.table.obsLow.length ∧
    (p.numLineY ≠ 0 → f.bound.arena ≠ [] → p.numLineY ≤ f.table.arenaLow.length) ∧
    (p.numLineY ≠ 0 → f.bound.obstacle ≠ [] → p.numLineY ≤ f.table.obsLow.length)) := by
  unfold Fs2.sweep
  split
  · exact Res.Sat.fail_ub fun h => h
  · refine Res.Sat.bind (fillLines_len isect2D f.lowB f.upB f.bound.arena f.bound.obstacle p.lines 0 f.table) ?_
    rintro t ⟨h1, h2, h3, h4⟩
    refine Res.Sat.bind (Sat.any _) fun rows _ => ?_
    apply Res.Sat.ok
    have hne : p.numLineY ≠ 0 → p.lines ≠ [] := lines_ne
    refine ⟨rfl, rfl, h3, h4, fun hn ha => ?_, fun hn ho => ?_⟩
    · have := h1 (hne hn) ha; rw [Param2.lines_length] at this; omega
    · have := h2 (hne hn) ho; rw [Param2.lines_length] at this; omega

theorem constructOneSlice_light (hB : cspaceBoundary P0.fs.robot P0.arena P0.obs = .ok B) (h : KcLight L P0 B k P)
    (i : ℕ) : Res.Sat False (P.constructOneSlice L i) (KcLight L P0 B (k + 1)) := by
  unfold Planner2.constructOneSlice
  refine Res.Sat.bind (placeSlice_light hB h i) ?_
  rintro P1 ⟨h1, hsb⟩
  refine Res.Sat.bind (sweep_len P1.par P1.fs) ?_
  rintro s ⟨s1, s2, s3, s4, -⟩
  rw [hsb]
  have hc := constructSlice2D_sat (tot := False) (free := sameFree2 L B.obstacle) (angle := P1.robot.base.ang)
    (fs := s.2) (g := P1.graph) (Vp := fun v => v.length = 3 ∧ v[2]? = some P1.robot.base.ang)
    (Acc := SlicePair L B)
    ⟨fun a b ha hb hf => ⟨ha.2.trans hb.2.symm, Or.inl hf⟩, fun v hv => hv.1, fun v w z hv hw hz =>
      ⟨by simpa using hv.1, by
        rw [hw.2] at hz
        rw [List.getElem?_set_self (by rw [hv.1]; omega), hz]⟩, fun h => h.elim, fun h => h.elim⟩
    (fun y x => ⟨rfl, rfl⟩)
    (by
      rintro a b ⟨i, j, y, r, x, x', u, l, -, -, -, -, -, -, -, rfl, rfl⟩
      exact ⟨rfl, Or.inr rfl⟩)
    (fun h => h.elim)
  refine Res.Sat.bind hc ?_
  rintro r ⟨hg, -⟩
  apply Res.Sat.ok
  exact ⟨s1.trans h1.fsr, h1.arena, h1.obs, h1.par, h1.start, h1.goal, h1.res, h1.refine, s3.trans h1.rowsA,
    s4.trans h1.rowsO, fun hk => s2.trans (h1.bound hk), hg.ok (fun v hv => hv.1) h1.ok, hg.edgesIn h1.edges⟩

theorem slices_light (hB : cspaceBoundary P0.fs.robot P0.arena P0.obs = .ok B) (h : KcLight L P0 B 0 P) (n : ℕ) :
    Res.Sat False ((List.range n).foldlM (fun (Q : Planner2) i => Q.constructOneSlice L i) P) (KcLight L P0 B n) :=
  Res.Sat.foldlM_range (P := fun k Q => KcLight L P0 B k Q) n
    (fun _ i _ hQ => constructOneSlice_light hB hQ i) P h

/-! ## Nothing is ever connected -/

theorem isPtInPoly_nil (pt : Vec) : Res.Sat False (isPtInPoly [] pt) (fun r => r = false) := by
  unfold isPtInPoly
  refine Res.Sat.bind (Sat.any _) fun x _ => ?_
  refine Res.Sat.bind (Sat.any _) fun y _ => ?_
  refine Res.Sat.bind (Sat.any _) fun z _ => ?_
  exact Res.Sat.ok rfl

theorem addMiddle_nil (rnd : ℕ → ℝ) (v1 v2 : Vec) (tries k : ℕ) :
    Res.Sat False (addMiddle [] rnd v1 v2 tries k) (fun r => r.1 = none) := by
  induction tries generalizing k with
  | zero => exact Res.Sat.ok rfl
  | succ n ih =>
    unfold addMiddle
    refine Res.Sat.bind (Sat.any _) fun p _ => ?_
    refine Res.Sat.bind (isPtInPoly_nil _) ?_
    rintro r rfl
    exact ih _

theorem kcInner_nil (rnd : ℕ → ℝ) (tries m : ℕ) (v1 : Vec) (m2s : List ℕ) : ∀ s : KcState,
    Res.Sat False (kcInner [] rnd tries m v1 m2s s) (fun t => t.1 = s.1) := by
  induction m2s with
  | nil => intro s; exact Res.Sat.ok rfl
  | cons m2 m2s ih =>
    intro s
    unfold kcInner
    refine Res.Sat.bind (Sat.any _) fun v2 _ => ?_
    refine Res.Sat.bind (addMiddle_nil _ _ _ _ _) ?_
    rintro ⟨o, k⟩ (rfl : o = none)
    exact ih (s.1, k)

theorem connectMultiSliceKC_nil (rnd : ℕ → ℝ) (tries : ℕ) (idx : List VertexIdx) (n : ℕ) (s : KcState) :
    Res.Sat False (connectMultiSliceKC [] rnd tries idx n s) (fun t => t.1 = s.1) := by
  unfold connectMultiSliceKC
  refine Res.Sat.bind (Q := fun t : KcState × ℕ => t.1.1 = s.1) ?_ fun t ht => Res.Sat.ok ht
  refine Res.Sat.foldlM _ ?_ (s, 0) rfl
  rintro t i - ht
  unfold kcSlice
  refine Res.Sat.bind (Sat.any _) fun r _ => ?_
  refine Res.Sat.bind (Q := fun t : KcState => t.1 = s.1) ?_ fun t ht => Res.Sat.ok ht
  refine Res.Sat.foldlM _ ?_ t.1 ht
  rintro t' m - ht'
  refine Res.Sat.bind (Sat.any _) fun v1 _ => ?_
  exact (kcInner_nil _ _ _ _ _ _).mono fun u hu => hu.trans ht'

/-! ## Build and plan of a new planner -/

variable {robot : Tree2} {arena obs : List SuperEllipse} {start goal : Vec} {par : Param2} {draws : ℕ} {rnd : ℕ → ℝ}

theorem kc_fresh (L : Libs2) (B : Bound2) :
    KcLight L (PlannerKC.new robot arena obs start goal par draws).core B 0
      (PlannerKC.new robot arena obs start goal par draws).core.sampleOrientations :=
  ⟨rfl, rfl, rfl, rfl, rfl, rfl, rfl, rfl, rfl, rfl, fun h => absurd h (lt_irrefl _), ⟨by simp [PlannerKC.new, Planner2.new, Planner2.sampleOrientations, Graph.empty], rfl, by
    intro k e w he; simp [PlannerKC.new, Planner2.new, Planner2.sampleOrientations, Graph.empty] at he⟩, by
    intro k e he; simp [PlannerKC.new, Planner2.new, Planner2.sampleOrientations, Graph.empty] at he⟩

theorem kc_rows : (PlannerKC.new robot arena obs start goal par draws).core.fs.table.arenaLow.length = par.numLineY ∧
    (PlannerKC.new robot arena obs start goal par draws).core.fs.table.obsLow.length = par.numLineY := by
  constructor <;> simp [PlannerKC.new, Planner2.new, Fs2.setup, setupTable, vresize, emptyTable]

/-- The boundaries used by the planner: those of the inflated base alone. -/
theorem kc_boundary : ∃ B, cspaceBoundary (Tree2.new (inflate robot.base)) arena obs = .ok B ∧
    B.arena.length = arena.length ∧ B.obstacle.length = obs.length := by
  have hi : Tree2.Inv (inflate robot.base) [] (Tree2.new (inflate robot.base)) :=
    run_inv_of (ops := []) (base := inflate robot.base) rfl
  obtain ⟨B, h1, h2, h3, -⟩ := cspaceBoundary_ok hi arena obs
  exact ⟨B, h1, by simpa using h2, by simpa using h3⟩

theorem kc_build (hB : cspaceBoundary (Tree2.new (inflate robot.base)) arena obs = .ok B) {Q : PlannerKC}
    (h : (PlannerKC.new robot arena obs start goal par draws).build L rnd = .ok Q) :
    KcLight L (PlannerKC.new robot arena obs start goal par draws).core B par.numSlice Q.core ∧ Q.poly = [] := by
  have hs : Res.Sat False ((PlannerKC.new robot arena obs start goal par draws).build L rnd) (fun Q =>
      KcLight L (PlannerKC.new robot arena obs start goal par draws).core B par.numSlice Q.core ∧ Q.poly = []) := by
    unfold PlannerKC.build
    refine Res.Sat.bind (slices_light hB (kc_fresh L B) _) ?_
    intro P hP
    refine Res.Sat.bind (connectMultiSliceKC_nil rnd _ _ _ _) ?_
    intro s hs
    apply Res.Sat.ok
    refine ⟨?_, rfl⟩
    dsimp only
    rw [hs]
    exact hP
  exact hs.1 Q h

/-- The sweep with no lines fails. -/
theorem sweep_zero {p : Param2} {f : Fs2} (h : p.numLineY = 0) : Res.Sat False (f.sweep L p) (fun _ => False) := by
  unfold Fs2.sweep
  rw [if_neg (by omega)]
  refine Res.Sat.bind (Sat.any _) fun t _ => ?_
  rw [h]
  have : computeFreeSegment L.sort L.dmin L.dmax t 0 = .ub := rfl
  rw [this]
  exact Res.Sat.fail_ub fun h => h

/-- Refining a built planner never returns. -/
theorem kc_refine_fails (hk : KcLight L P0 B k P) (h0 : 0 < k) (hA : P0.fs.table.arenaLow.length = P0.par.numLineY)
    (hO : P0.fs.table.obsLow.length = P0.par.numLineY) (hne : B.arena ≠ [] ∨ B.obstacle ≠ []) (i : ℕ)
    (res : SearchRes) :
    Res.Sat False (Planner2.refineSlice L i (Planner2.beginRefine { P with res := res })) (fun _ => False) := by
  unfold Planner2.refineSlice Planner2.constructOneSlice
  refine Res.Sat.bind (Q := fun _ => False) ?_ fun _ h => h.elim
  refine Res.Sat.bind (Q := fun Q : Planner2 => Q.fs = P.fs ∧ Q.par.numLineY = 2 * P0.par.numLineY) ?_ ?_
  · unfold Planner2.placeSlice
    refine Res.Sat.bind (Sat.any _) fun hd _ => ?_
    cases hd with
    | none => exact Res.Sat.fail_ub fun h => h
    | some th =>
      dsimp only
      refine Res.Sat.bind (Sat.any _) fun T _ => ?_
      rw [if_pos (by rfl)]
      refine Res.Sat.bind (Sat.any _) fun b _ => ?_
      apply Res.Sat.ok
      refine ⟨rfl, ?_⟩
      change 2 * P.par.numLineY = _
      rw [hk.par]
  · rintro Q ⟨q1, q2⟩
    refine Res.Sat.bind (Q := fun _ => False) ?_ fun _ h => h.elim
    rcases Nat.eq_zero_or_pos P0.par.numLineY with hz | hz
    · exact sweep_zero (by rw [q2, hz])
    · refine (sweep_len Q.par Q.fs).mono ?_
      rintro s ⟨-, -, -, -, h5, h6⟩
      rw [q1, hk.bound h0, q2] at h5 h6
      rw [hk.rowsA, hA] at h5
      rw [hk.rowsO, hO] at h6
      rcases hne with hne | hne
      · have := h5 (by omega) hne; omega
      · have := h6 (by omega) hne; omega

/-- What a returned call of `plan` on a new planner has done. -/
theorem kc_plan (hB : cspaceBoundary (Tree2.new (inflate robot.base)) arena obs = .ok B)
    (hne : arena ≠ [] ∨ obs ≠ []) {clock : ℕ → ℝ} {timeLim : ℝ} {fuel : ℕ} {tick : ℕ} {r' : PlanRep PlannerKC}
    (h : PlannerKC.plan L rnd clock timeLim fuel ⟨.new robot arena obs start goal par draws, tick, 0, 0, 0, [], []⟩ =
      some (.ok r')) :
    ∃ P : Planner2, KcLight L (PlannerKC.new robot arena obs start goal par draws).core B par.numSlice P ∧
      P.search L = .ok r'.st.core ∧
      (∃ Q, (PlannerKC.new robot arena obs start goal par draws).build L rnd = .ok Q ∧ Q.core = P) ∧
      (r'.st.core.res.solved = true →
        getSolutionPath r'.st.core.graph r'.st.core.start r'.st.core.goal r'.st.core.res.pathId = .ok r'.solvedPath) := by
  obtain ⟨r1, r2, h1, h2, h3⟩ := plan_core h
  unfold timedBuild at h1
  change (((PlannerKC.new robot arena obs start goal par draws).build L rnd).bind _).bind _ = _ at h1
  cases hb : (PlannerKC.new robot arena obs start goal par draws).build L rnd with
  | throw => rw [hb] at h1; exact nomatch h1
  | ub => rw [hb] at h1; exact nomatch h1
  | ok P =>
    rw [hb] at h1
    change timedSearch (plannerKcOps L rnd) clock _ = _ at h1
    unfold timedSearch at h1
    change ((P.core.search L).bind _).bind _ = _ at h1
    obtain ⟨hk, hpoly⟩ := kc_build hB hb
    cases hs : P.core.search L with
    | throw => rw [hs] at h1; exact nomatch h1
    | ub => rw [hs] at h1; exact nomatch h1
    | ok Q =>
      rw [hs, Res.bind_ok', Res.bind_ok'] at h1
      have hst : r1.st = { P with core := Q } := by rw [← (Res.ok.injEq _ _).mp h1]
      obtain ⟨hh, s, t, res, -, n1, -, -, hQ⟩ := search_ok hs
      obtain ⟨B', eB, b1, b2⟩ := kc_boundary (robot := robot) (arena := arena) (obs := obs)
      rw [hB] at eB
      obtain rfl := (Res.ok.injEq _ _).mp eB
      have hne' : B.arena ≠ [] ∨ B.obstacle ≠ [] := by
        rcases hne with hne | hne
        · left; intro e; rw [e] at b1; exact hne (List.length_eq_zero_iff.1 b1.symm)
        · right; intro e; rw [e] at b2; exact hne (List.length_eq_zero_iff.1 b2.symm)
      have h0 : 0 < par.numSlice := by
        rcases Nat.eq_zero_or_pos par.numSlice with hz | hz
        · exfalso
          have hv : P.core.graph.vertex = [] := by
            have hz' : (PlannerKC.new robot arena obs start goal par draws).core.par.numSlice = 0 := hz
            unfold PlannerKC.build at hb
            rw [hz', List.range_zero, List.foldlM_nil, Res.pure_eq, Res.bind_ok'] at hb
            have hz'' : (PlannerKC.new robot arena obs start goal par draws).core.sampleOrientations.par.numSlice = 0 := hz
            rw [hz''] at hb
            obtain rfl := (Res.ok.injEq _ _).mp hb
            rfl
          rw [hv] at n1
          exact nomatch n1
        · exact hz
      have hns : (plannerKcOps L rnd).numSlice r1.st = par.numSlice := by
        rw [hst, hQ]
        change P.core.par.numSlice = _
        rw [hk.par]; rfl
      have hno : ∀ x, refineExist (plannerKcOps L rnd) clock timeLim r1 ≠ .ok x := by
        intro x hx
        obtain ⟨m, hm⟩ : ∃ m, par.numSlice = m + 1 := ⟨par.numSlice - 1, by omega⟩
        unfold refineExist at hx
        rw [hns, hm, List.range_succ_eq_map] at hx
        unfold refineLoop timedBuild at hx
        have := (kc_refine_fails hk h0 kc_rows.1 kc_rows.2 hne' 0 res).1
        dsimp only at hx
        rw [hst, hQ] at hx
        change ((((((Planner2.refineSlice L 0 (Planner2.beginRefine { P.core with res := res })).bind _).bind _)).bind _).bind _) = _ at hx
        cases hrs : Planner2.refineSlice L 0 (Planner2.beginRefine { P.core with res := res }) with
        | throw => rw [hrs] at hx; exact nomatch hx
        | ub => rw [hrs] at hx; exact nomatch hx
        | ok Q' => exact this Q' hrs
      have hr2 : r2 = r1 := by
        have step : ∀ fuel, planLoop (plannerKcOps L rnd) clock timeLim fuel r1 = some (.ok r2) → r2 = r1 := by
          intro fuel h2
          cases fuel with
          | zero =>
            unfold planLoop at h2
            split at h2
            · exact nomatch h2
            · exact ((Res.ok.injEq _ _).mp (Option.some.inj h2)).symm
          | succ f =>
            unfold planLoop at h2
            split at h2
            · cases hre : refineExist (plannerKcOps L rnd) clock timeLim r1 with
              | ok x => exact absurd hre (hno x)
              | throw => rw [hre] at h2; exact nomatch h2
              | ub => rw [hre] at h2; exact nomatch h2
            · exact ((Res.ok.injEq _ _).mp (Option.some.inj h2)).symm
        exact step fuel h2
      subst hr2
      obtain ⟨e1, -, -, -, -, e6, -⟩ := finish_spec h3
      refine ⟨P.core, hk, ?_, ⟨P, rfl, rfl⟩, ?_⟩
      · rw [hs, e1, hst]
      · intro hsol
        have := (e6 (by rw [← e1]; exact hsol)).1
        rw [← this, e1]
        rfl

end Hrm
