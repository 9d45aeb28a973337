import Verif.Lemmas.Planner2D

/-! # The planar planner object: transitions between slices, the build of a fresh planner -/

namespace Hrm

open Matrix

/-! ## Tightly-fitted ellipses and bridge slices -/

/-- The ellipse `getTFE2D` returns for at least two steps. -/
noncomputable def tfeOf (svd : SvdFun 2) (l : SuperEllipse) (thA thB : ℝ) (numPoint : ℕ) : SuperEllipse :=
  (getTFE2D svd ![l.a, l.b] thA thB numPoint l.num).getD l

theorem tfeOf_some {np : ℕ} (hnp : np ≠ 1) (svd : SvdFun 2) (l : SuperEllipse) (thA thB : ℝ) :
    getTFE2D svd ![l.a, l.b] thA thB np l.num = some (tfeOf svd l thA thB np) := by
  unfold tfeOf getTFE2D
  rw [if_neg hnp]; rfl

theorem tfeOf_none (svd : SvdFun 2) (a : Fin 2 → ℝ) (thA thB : ℝ) (num : ℕ) : getTFE2D svd a thA thB 1 num = none := by
  simp [getTFE2D]

/-- The ellipses per body. -/
theorem computeTFE2_eq {base added T} (h : Tree2.Inv base added T) (L : Libs2) (np : ℕ) (thA thB : ℝ) :
    computeTFE2 L np T thA thB = .ok (getTFE2D L.svd ![base.a, base.b] thA thB np base.num ::
      added.map fun l => getTFE2D L.svd ![l.a, l.b] (matAngle (rot2 thA * rot2 l.ang))
        (matAngle (rot2 thB * rot2 l.ang)) np l.num) := by
  obtain ⟨b1, b2, b3, b4⟩ := h.base
  let v : ℕ → Option SuperEllipse := fun i => match added[i]? with
    | some l => getTFE2D L.svd ![l.a, l.b] (matAngle (rot2 thA * rot2 l.ang))
        (matAngle (rot2 thB * rot2 l.ang)) np l.num
    | none => none
  have hv : ∀ i < T.numLinks, ((Res.at' T.tf i).bind fun t => (Res.at' T.link i).bind fun l =>
      (.ok (getTFE2D L.svd ![l.a, l.b] (matAngle (rot2 thA * t.rot)) (matAngle (rot2 thB * t.rot)) np l.num) :
        Res (Option SuperEllipse))) = .ok (v i) := by
    intro i hi
    have hi' : i < added.length := by rw [← h.num]; exact hi
    have h1 : i < T.link.length := by rw [h.len]; exact hi'
    rw [h.tf, Res.at'_eq_ok.2 (by rw [List.getElem?_map, List.getElem?_eq_getElem hi']; rfl), Res.bind_ok',
      Res.at'_eq_ok.2 (List.getElem?_eq_getElem h1), Res.bind_ok']
    obtain ⟨s1, s2, s3, s4⟩ := h.same i _ _ (List.getElem?_eq_getElem hi') (List.getElem?_eq_getElem h1)
    simp only [v, List.getElem?_eq_getElem hi']
    rw [s1, s2, s4]
  unfold computeTFE2
  have := appendLoop _ v T.numLinks hv
    [getTFE2D L.svd ![T.base.a, T.base.b] thA thB np T.base.num]
  refine Eq.trans ?_ (this.trans ?_)
  · congr 1
    funext acc i
    cases Res.at' T.tf i with
    | ok t => cases Res.at' T.link i <;> rfl
    | throw => rfl
    | ub => rfl
  · rw [b1, b2, b4, h.num]
    congr 1
    rw [List.singleton_append]
    congr 1
    apply List.ext_getElem?
    intro i
    rw [List.getElem?_map, List.getElem?_map]
    rcases Nat.lt_or_ge i added.length with hi | hi
    · rw [List.getElem?_range hi, List.getElem?_eq_getElem hi]
      simp [v, List.getElem?_eq_getElem hi]
    · rw [List.getElem?_eq_none_iff.2 (by simpa using hi), List.getElem?_eq_none_iff.2 hi]; rfl

/-- The bridge slice of a list of numeric ellipses. -/
theorem bridgeSlice2_some (obs : List SuperEllipse) (Es : List SuperEllipse) :
    bridgeSlice2 obs (Es.map some) = .ok (Es.map (bridgeBound obs)) := by
  induction Es using List.reverseRecOn with
  | nil => rfl
  | append_singleton l E ih =>
    unfold bridgeSlice2 at ih ⊢
    rw [List.map_append, List.foldlM_append, ih]
    simp

/-- The ellipses of the bodies as numbers. -/
noncomputable def tfes (svd : SvdFun 2) (base : SuperEllipse) (added : List SuperEllipse) (np : ℕ) (thA thB : ℝ) :
    List SuperEllipse :=
  tfeOf svd base thA thB np :: added.map fun l =>
    tfeOf svd l (matAngle (rot2 thA * rot2 l.ang)) (matAngle (rot2 thB * rot2 l.ang)) np

theorem bridge_eq {base added T} (h : Tree2.Inv base added T) (L : Libs2) {np : ℕ} (hnp : np ≠ 1) (thA thB : ℝ)
    (obs : List SuperEllipse) :
    ((computeTFE2 L np T thA thB).bind fun tfe => bridgeSlice2 obs tfe) =
      .ok ((tfes L.svd base added np thA thB).map (bridgeBound obs)) := by
  rw [computeTFE2_eq h, Res.bind_ok']
  rw [← bridgeSlice2_some]
  congr 1
  unfold tfes
  rw [List.map_cons, List.map_map, tfeOf_some hnp]
  congr 1
  apply List.map_congr_left
  intro l _
  rw [Function.comp, tfeOf_some hnp]

/-! ## The check between two slices -/

theorem setTransform2_any {base added T} (h : Tree2.Inv base added T) (v : Vec) :
    setTransform2 T v = (Res.idx v 2).bind fun th => (Res.idx v 0).bind fun x => (Res.idx v 1).bind fun y =>
      .ok (Tree2.posed base added ⟨rot2 th, ![x, y]⟩) := by
  unfold setTransform2
  cases Res.idx v 2 with
  | throw => rfl
  | ub => rfl
  | ok th => cases Res.idx v 0 with
    | throw => rfl
    | ub => rfl
    | ok x => cases Res.idx v 1 with
      | throw => rfl
      | ub => rfl
      | ok y => exact h.posed_eq _

theorem multiFreeLoop_pose {base added} (bridge : List (List (List (Pt ℝ)))) (dt : ℝ) (v1 v2 : Vec) (is : List ℕ)
    {T U : Tree2} (hT : Tree2.Inv base added T) (hU : Tree2.Inv base added U) :
    ((multiFreeLoop bridge dt v1 v2 is T).bind fun r => (.ok r.1 : Res Bool)) =
      (multiFreeLoop bridge dt v1 v2 is U).bind fun r => .ok r.1 := by
  cases is with
  | nil => rfl
  | cons i is =>
    unfold multiFreeLoop
    have : ∀ v, setTransform2 T v = setTransform2 U v := fun v => by
      rw [setTransform2_any hT, setTransform2_any hU]
    simp only [this]

/-- The verdict does not depend on where the robot is when the check begins. -/
theorem multiFree2_pose_irrelevant {base added} (np : ℕ) (bridge : List (List (List (Pt ℝ)))) (v1 v2 : Vec)
    {T U : Tree2} (hT : Tree2.Inv base added T) (hU : Tree2.Inv base added U) :
    ((multiFree2 np bridge T v1 v2).bind fun r => (.ok r.1 : Res Bool)) =
      (multiFree2 np bridge U v1 v2).bind fun r => .ok r.1 := by
  unfold multiFree2
  split
  · rfl
  · exact multiFreeLoop_pose _ _ _ _ _ hT hU

theorem freeMulti_congr {base added} (L : Libs2) {P Q : Planner2} (hP : Tree2.Inv base added P.robot)
    (hQ : Tree2.Inv base added Q.robot) (hh : P.headings = Q.headings) (hp : P.par = Q.par) (ho : P.obs = Q.obs) :
    P.freeMulti L = Q.freeMulti L := by
  funext i j v1 v2
  unfold Planner2.freeMulti
  rw [hh, hp, ho]
  congr 1; funext hi
  congr 1; funext hj
  cases hi with
  | none => rfl
  | some a => cases hj with
    | none => rfl
    | some b =>
      simp only
      rw [computeTFE2_eq hP, computeTFE2_eq hQ, Res.bind_ok', Res.bind_ok']
      congr 1; funext bridge
      exact multiFree2_pose_irrelevant _ _ _ _ hP hQ

/-! ## The slices of a fresh planner -/

/-- What is true after `k` slices of a fresh planner with boundary `B`, when the roadmap is `r`. -/
structure SliceInv (base : SuperEllipse) (added : List SuperEllipse) (P0 : Planner2) (B : Bound2) (k : ℕ)
    (r : Graph × List VertexIdx) (P : Planner2) : Prop where
  inv : Tree2.Inv base added P.robot
  fsr : P.fs.robot = P0.fs.robot
  arena : P.arena = P0.arena
  obs : P.obs = P0.obs
  par : P.par = P0.par
  start : P.start = P0.start
  goal : P.goal = P0.goal
  refine : P.isRefine = false
  headings : P.headings = headings2 P0.par.numSlice
  shape : P.fs.table.Shape P0.par.numLineY B.arena.length B.obstacle.length
  low : P.fs.lowB = P0.par.xLo
  up : P.fs.upB = P0.par.xHi
  bounds : P.sliceBoundAll = List.replicate k B
  all : P.vertexIdxAll = []
  res : P.res = P0.res
  bound : 0 < k → P.fs.bound = B
  graph : P.graph = r.1
  idx : P.vertexIdx = r.2

/-- A run of the planner and the run of the abstract construction agree. -/
def SimRel {α β : Type} (R : β → α → Prop) (x : Res α) : Res β → Prop
  | .ok r => ∃ P, x = .ok P ∧ R r P
  | .throw => x = .throw
  | .ub => x = .ub

theorem SimRel.bind {α β γ δ : Type} {R : β → α → Prop} {S : δ → γ → Prop} {x : Res α} {y : Res β}
    {f : α → Res γ} {g : β → Res δ} (h : SimRel R x y) (hf : ∀ r P, R r P → SimRel S (f P) (g r)) :
    SimRel S (x.bind f) (y.bind g) := by
  cases y with
  | ok r => obtain ⟨P, rfl, hr⟩ := h; exact hf r P hr
  | throw => cases h; rfl
  | ub => cases h; rfl

theorem SimRel.mono {α β : Type} {R S : β → α → Prop} {x : Res α} {y : Res β} (h : SimRel R x y)
    (hRS : ∀ r P, R r P → S r P) : SimRel S x y := by
  cases y with
  | ok r => obtain ⟨P, e, hr⟩ := h; exact ⟨P, e, hRS _ _ hr⟩
  | throw => exact h
  | ub => exact h

variable {base : SuperEllipse} {added : List SuperEllipse} {robot : Tree2} {arena obs : List SuperEllipse}
  {start goal : Vec} {par : Param2} {B : Bound2} {L : Libs2}

theorem placeSlice_eq {P0 : Planner2} (hB : cspaceBoundary P0.fs.robot P0.arena P0.obs = .ok B)
    (hn : P0.par.numSlice ≠ 1) {k : ℕ} (hk : k < P0.par.numSlice) {r : Graph × List VertexIdx} {P : Planner2}
    (h : SliceInv base added P0 B k r P) :
    P.placeSlice k = .ok { P with
      robot := Tree2.posed base added ⟨rot2 (heading P0.par.numSlice k), ![0, 0]⟩,
      fs := { P.fs with bound := B }, sliceBound := B, sliceBoundAll := P.sliceBoundAll ++ [B] } := by
  have hat : Res.at' P.headings k = .ok (some (heading P0.par.numSlice k)) := by
    rw [h.headings]; exact Res.at'_eq_ok.2 (headings2_get hn hk)
  have hcs : cspaceBoundary P.fs.robot P.arena P.obs = .ok B := by
    rw [h.fsr, h.arena, h.obs]; exact hB
  unfold Planner2.placeSlice
  rw [hat, Res.bind_ok']
  simp only
  rw [setTransform2_eq h.inv, Res.bind_ok', if_neg (by simp [h.refine]), hcs, Res.bind_ok']

/-- One slice. -/
theorem constructOneSlice_sim {P0 : Planner2} (hB : cspaceBoundary P0.fs.robot P0.arena P0.obs = .ok B)
    (hn : P0.par.numSlice ≠ 1) (hl : P0.par.numLineY ≠ 1) {rows : List (SegRow ℝ)}
    (hrows : sweep2D L.sort L.dmin L.dmax P0.par.xLo P0.par.xHi B.arena B.obstacle P0.par.lines = .ok rows)
    {k : ℕ} (hk : k < P0.par.numSlice) {r : Graph × List VertexIdx} {P : Planner2}
    (h : SliceInv base added P0 B k r P) :
    SimRel (SliceInv base added P0 B (k + 1)) (P.constructOneSlice L k)
      ((constructSlice2D (sameFree2 L B.obstacle) (heading P0.par.numSlice k) ⟨P0.par.lines, rows⟩ r.1).bind
        fun s => .ok (s.1, r.2 ++ [s.2])) := by
  unfold Planner2.constructOneSlice
  rw [placeSlice_eq hB hn hk h, Res.bind_ok']
  have hp : P.par = P0.par := h.par
  obtain ⟨t, t1, t2⟩ := sweep_eq L P0.par { P.fs with bound := B } hl h.shape
  simp only [hp]
  rw [t2]
  have hlow : P.fs.lowB = P0.par.xLo := h.low
  have hup : P.fs.upB = P0.par.xHi := h.up
  simp only [hlow, hup, hrows, Res.bind_ok']
  have hang : (Tree2.posed base added ⟨rot2 (heading P0.par.numSlice k), ![0, 0]⟩).base.ang =
      heading P0.par.numSlice k := matAngle_heading hn hk
  rw [hang, h.graph]
  cases constructSlice2D (sameFree2 L B.obstacle) (heading P0.par.numSlice k) ⟨P0.par.lines, rows⟩ r.1 with
  | throw => rfl
  | ub => rfl
  | ok s =>
    refine ⟨_, rfl, ?_⟩
    exact ⟨Tree2.posed_inv _ _ _, h.fsr, h.arena, h.obs, rfl, h.start, h.goal, h.refine, h.headings,
      t1, rfl, rfl, by simp [h.bounds, List.replicate_succ'], h.all, h.res, fun _ => rfl, rfl, by simp [h.idx]⟩

theorem fresh_inv (hr : Tree2.Inv base added robot) (hB : cspaceBoundary robot arena obs = .ok B) :
    SliceInv base added (.new robot arena obs start goal par) B 0 (.empty, [])
      (Planner2.new robot arena obs start goal par).sampleOrientations := by
  obtain ⟨B', e, h1, h2, -⟩ := cspaceBoundary_ok hr arena obs
  rw [hB] at e
  obtain rfl := (Res.ok.injEq _ _).mp e
  refine ⟨hr, rfl, rfl, rfl, rfl, rfl, rfl, rfl, ?_, ?_, rfl, rfl, rfl, rfl, rfl, fun h => absurd h (lt_irrefl _), rfl, rfl⟩
  · simp [Planner2.sampleOrientations, Planner2.new]
  · rw [h1, h2]
    have := setup_shape par.numLineY ((1 + added.length) * arena.length) ((1 + added.length) * obs.length)
      par.xLo par.xHi
    simpa [Planner2.sampleOrientations, Planner2.new, Fs2.setup, hr.num] using this

/-- The slices of a fresh planner. -/
theorem slices_sim_of {P0 Q0 : Planner2} (hB : cspaceBoundary P0.fs.robot P0.arena P0.obs = .ok B)
    (hn : P0.par.numSlice ≠ 1) (hl : P0.par.numLineY ≠ 1) {rows : List (SegRow ℝ)}
    (hrows : sweep2D L.sort L.dmin L.dmax P0.par.xLo P0.par.xHi B.arena B.obstacle P0.par.lines = .ok rows)
    (h0 : SliceInv base added P0 B 0 (.empty, []) Q0) (k : ℕ) (hk : k ≤ P0.par.numSlice) :
    SimRel (SliceInv base added P0 B k)
      ((List.range k).foldlM (fun (P : Planner2) i => P.constructOneSlice L i) Q0)
      (buildSlices (fun i => constructSlice2D (sameFree2 L B.obstacle) (heading P0.par.numSlice i)
        ⟨P0.par.lines, rows⟩) k .empty []) := by
  induction k with
  | zero => exact ⟨_, rfl, h0⟩
  | succ k ih =>
    unfold buildSlices at ih ⊢
    rw [List.range_succ, List.foldlM_append, List.foldlM_append]
    refine SimRel.bind (ih (by omega)) ?_
    intro r P h
    simp only [List.foldlM_cons, List.foldlM_nil]
    have := constructOneSlice_sim (L := L) hB hn hl hrows (by omega) h
    refine SimRel.bind (S := SliceInv base added P0 B (k + 1)) this ?_
    intro r' P' h'
    exact ⟨P', rfl, h'⟩

theorem slices_sim (hr : Tree2.Inv base added robot) (hB : cspaceBoundary robot arena obs = .ok B)
    (hn : par.numSlice ≠ 1) (hl : par.numLineY ≠ 1) {rows : List (SegRow ℝ)}
    (hrows : sweep2D L.sort L.dmin L.dmax par.xLo par.xHi B.arena B.obstacle par.lines = .ok rows) (k : ℕ)
    (hk : k ≤ par.numSlice) :
    SimRel (SliceInv base added (.new robot arena obs start goal par) B k)
      ((List.range k).foldlM (fun (P : Planner2) i => P.constructOneSlice L i)
        (Planner2.new robot arena obs start goal par).sampleOrientations)
      (buildSlices (fun i => constructSlice2D (sameFree2 L B.obstacle) (heading par.numSlice i) ⟨par.lines, rows⟩)
        k .empty []) :=
  slices_sim_of (P0 := .new robot arena obs start goal par) hB hn hl hrows (fresh_inv hr hB) k hk

/-- `buildRoadmap` on a fresh planner is the roadmap construction of `Model/Roadmap.lean` with the boundaries of
the robot *as it was given to the constructor* in every slice. -/
theorem build_sim (hr : Tree2.Inv base added robot) (hB : cspaceBoundary robot arena obs = .ok B)
    (hn : par.numSlice ≠ 1) (hl : par.numLineY ≠ 1) {rows : List (SegRow ℝ)}
    (hrows : sweep2D L.sort L.dmin L.dmax par.xLo par.xHi B.arena B.obstacle par.lines = .ok rows) :
    SimRel (SliceInv base added (.new robot arena obs start goal par) B par.numSlice)
      ((Planner2.new robot arena obs start goal par).build L)
      (buildRoadmap2D (fun _ => sameFree2 L B.obstacle)
        ((Planner2.new robot arena obs start goal par).sampleOrientations.freeMulti L) par.gapY
        (heading par.numSlice) (fun _ => ⟨par.lines, rows⟩) par.numSlice) := by
  unfold Planner2.build buildRoadmap2D
  refine SimRel.bind (slices_sim hr hB hn hl hrows par.numSlice le_rfl) ?_
  intro r P h
  unfold Planner2.connectMultiSlice
  have e : P.freeMulti L = (Planner2.new robot arena obs start goal par).sampleOrientations.freeMulti L := by
    refine freeMulti_congr L h.inv hr ?_ h.par h.obs
    rw [h.headings]; simp [Planner2.sampleOrientations, Planner2.new]
  have hp : P.par = par := h.par
  rw [e, hp, h.idx, h.graph]
  cases connectMultiSlice2D ((Planner2.new robot arena obs start goal par).sampleOrientations.freeMulti L) par.gapY
    par.numSlice r.2 r.1 with
  | throw => rfl
  | ub => rfl
  | ok g =>
    refine ⟨_, rfl, ?_⟩
    exact { h with graph := rfl, par := rfl, idx := rfl }

/-- If the sweep fails, so does the build. -/
theorem build_sweep_ok (hr : Tree2.Inv base added robot) (hB : cspaceBoundary robot arena obs = .ok B)
    (hn : par.numSlice ≠ 1) (h0 : par.numSlice ≠ 0) {P : Planner2}
    (h : (Planner2.new robot arena obs start goal par).build L = .ok P) :
    par.numLineY ≠ 1 ∧
      ∃ rows, sweep2D L.sort L.dmin L.dmax par.xLo par.xHi B.arena B.obstacle par.lines = .ok rows := by
  obtain ⟨n, hn'⟩ : ∃ n, par.numSlice = n + 1 := ⟨par.numSlice - 1, by omega⟩
  have hi := fresh_inv (start := start) (goal := goal) (par := par) hr hB
  have hpl := placeSlice_eq (P0 := .new robot arena obs start goal par) hB hn (show 0 < par.numSlice by omega) hi
  unfold Planner2.build at h
  have hnum : (Planner2.new robot arena obs start goal par).par.numSlice = n + 1 := hn'
  rw [hnum, List.range_succ_eq_map, List.foldlM_cons] at h
  unfold Planner2.constructOneSlice at h
  rw [hpl, Res.bind_ok'] at h
  by_cases hl : par.numLineY = 1
  · exfalso
    revert h
    simp [Planner2.sampleOrientations, Planner2.new, Fs2.sweep, hl]
  · refine ⟨hl, ?_⟩
    obtain ⟨t, t1, t2⟩ := sweep_eq L par { (Planner2.new robot arena obs start goal par).sampleOrientations.fs with bound := B } hl hi.shape
    change ((((Fs2.sweep L par _).bind _)).bind _).bind _ = _ at h
    erw [t2] at h
    change (((((sweep2D L.sort L.dmin L.dmax par.xLo par.xHi B.arena B.obstacle par.lines).bind _).bind _)).bind _).bind _ = _ at h
    cases hs : sweep2D L.sort L.dmin L.dmax par.xLo par.xHi B.arena B.obstacle par.lines with
    | ok rows => exact ⟨rows, rfl⟩
    | throw => rw [hs] at h; exact nomatch h
    | ub => rw [hs] at h; exact nomatch h

end Hrm
