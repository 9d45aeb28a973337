import Verif.Lemmas.Planner3D
import Verif.Lemmas.Planner2DBuild
import Verif.Props.TFE
import Verif.Props.Roadmap

/-! # The spatial planner object: transitions between slices, the build of a fresh planner -/

namespace Hrm

open Matrix

/-! ## Tightly-fitted ellipsoids -/

theorem getTFE3D_ok (svd : SvdFun 3) (a : Fin 3 → ℝ) (qA qB : Quat) (np num : ℕ) :
    ∃ E, getTFE3D svd a qA qB np num = .ok E := by
  unfold getTFE3D
  have key : ∀ (l : List ℕ) (E : SuperQuadrics), (∀ i ∈ l, 1 ≤ i ∧ i < np) → ∃ F,
      l.foldlM (fun (E : SuperQuadrics) i =>
        (Res.at' (interpolateSlerp qA qB np) i).bind fun q =>
        match q with
        | some q => .ok (getMVCE3D svd a ![E.a, E.b, E.c] q E.quat num)
        | none => .ub) E = (.ok F : Res SuperQuadrics) := by
    intro l
    induction l with
    | nil => intro E _; exact ⟨E, rfl⟩
    | cons i l ih =>
      intro E h
      obtain ⟨h1, h2⟩ := h i (by simp)
      have hat : Res.at' (interpolateSlerp qA qB np) i = .ok (some (slerp qA ((i : ℕ) / np) qB)) := by
        rw [interpolateSlerp, at'_map_range _ (by omega), stepFrac, if_neg (by omega), mul_one_div]
        rfl
      rw [List.foldlM_cons, hat]
      exact ih _ fun j hj => h j (by simp [hj])
  apply key
  intro i hi
  rw [List.mem_range'] at hi
  obtain ⟨j, hj, rfl⟩ := hi
  omega

/-- The ellipsoid that encloses a body turned from one orientation to the other. -/
noncomputable def tfe3Of (svd : SvdFun 3) (l : SuperQuadrics) (qA qB : Quat) (np : ℕ) : SuperQuadrics :=
  (getTFE3D_ok svd ![l.a, l.b, l.c] qA qB np l.num).choose

theorem tfe3Of_spec (svd : SvdFun 3) (l : SuperQuadrics) (qA qB : Quat) (np : ℕ) :
    getTFE3D svd ![l.a, l.b, l.c] qA qB np l.num = .ok (tfe3Of svd l qA qB np) :=
  (getTFE3D_ok svd ![l.a, l.b, l.c] qA qB np l.num).choose_spec

/-- The ellipsoids of all the bodies. -/
noncomputable def tfes3 (svd : SvdFun 3) (base : SuperQuadrics) (added : List SuperQuadrics) (np : ℕ) (qA qB : Quat) :
    List SuperQuadrics :=
  tfe3Of svd base qA qB np :: added.map fun l =>
    tfe3Of svd l (matQuat (quatRot qA * quatRot l.quat)) (matQuat (quatRot qB * quatRot l.quat)) np

theorem computeTFE3_eq {base added T} (h : Tree3.Inv base added T) (L : Libs3) (np : ℕ) (qA qB : Quat) :
    computeTFE3 L np T qA qB = .ok (tfes3 L.svd base added np qA qB) := by
  obtain ⟨b1, b2, b3, b4, b5, b6⟩ := h.base
  let v : ℕ → SuperQuadrics := fun i => match added[i]? with
    | some l => tfe3Of L.svd l (matQuat (quatRot qA * quatRot l.quat)) (matQuat (quatRot qB * quatRot l.quat)) np
    | none => base
  have hv : ∀ i < T.numLinks, ((Res.at' T.tf i).bind fun t => (Res.at' T.link i).bind fun l =>
      getTFE3D L.svd ![l.a, l.b, l.c] (matQuat (quatRot qA * t.rot)) (matQuat (quatRot qB * t.rot)) np l.num) =
        .ok (v i) := by
    intro i hi
    have hi' : i < added.length := by rw [← h.num]; exact hi
    have h1 : i < T.link.length := by rw [h.len]; exact hi'
    rw [h.tf, Res.at'_eq_ok.2 (by rw [List.getElem?_map, List.getElem?_eq_getElem hi']; rfl), Res.bind_ok',
      Res.at'_eq_ok.2 (List.getElem?_eq_getElem h1), Res.bind_ok']
    obtain ⟨s1, s2, s3, s4, s5, s6⟩ := h.same i _ _ (List.getElem?_eq_getElem hi') (List.getElem?_eq_getElem h1)
    simp only [v, List.getElem?_eq_getElem hi']
    rw [← tfe3Of_spec, s1, s2, s3, s6]
  have hb : getTFE3D L.svd ![T.base.a, T.base.b, T.base.c] qA qB np T.base.num = .ok (tfe3Of L.svd base qA qB np) := by
    rw [← tfe3Of_spec, b1, b2, b3, b6]
  unfold computeTFE3
  rw [hb, Res.bind_ok']
  refine (appendLoop _ v T.numLinks hv _).trans ?_
  congr 1
  unfold tfes3
  rw [List.singleton_append]
  congr 1
  apply List.ext_getElem?
  intro i
  rw [List.getElem?_map, List.getElem?_map, h.num]
  rcases Nat.lt_or_ge i added.length with hi | hi
  · rw [List.getElem?_range hi, List.getElem?_eq_getElem hi]
    simp [v, List.getElem?_eq_getElem hi]
  · rw [List.getElem?_eq_none_iff.2 (by simpa using hi), List.getElem?_eq_none_iff.2 hi]; rfl

/-! ## The check between two slices -/

theorem multiLoop3_pose {base added} {V : Variant} (hV : V.arm = none) (obs : List SuperQuadrics)
    (bridge : List (List Mesh)) (rows : List (List (Option ℝ))) {T U : Tree3} (hT : Tree3.Inv base added T)
    (hU : Tree3.Inv base added U) : multiLoop3 V obs bridge rows T = multiLoop3 V obs bridge rows U := by
  cases rows with
  | nil => rfl
  | cons row rows =>
    unfold multiLoop3
    rw [hV]
    simp only [setTransform3_congr hT hU]

theorem freeMulti3_congr {base added} (L : Libs3) {V : Variant} (hV : V.arm = none) {P Q : Planner3}
    (hP : Tree3.Inv base added P.robot) (hQ : Tree3.Inv base added Q.robot) (hq : P.q = Q.q) (hp : P.par = Q.par)
    (ho : P.obs = Q.obs) : P.freeMulti L V = Q.freeMulti L V := by
  funext i j v1 v2
  unfold Planner3.freeMulti multiFree3
  simp only [hq, hp, ho, computeTFE3_eq hP, computeTFE3_eq hQ, multiLoop3_pose hV _ _ _ hP hQ]

/-! ## The slices of a fresh planner -/

/-- The orientation of the vertices of slice `i`: that of the sample, after conversion to a matrix and back. -/
noncomputable def sliceQuat (q : List Quat) (i : ℕ) : Quat := matQuat (quatRot (q.getD i (1, 0, 0, 0)))

/-- What is true after `k` slices of a planner that was `Q0` before the first, with boundary `B` and meshes `M`,
when the roadmap is `r`. -/
structure SliceInv3 (base : SuperQuadrics) (added : List SuperQuadrics) (Q0 : Planner3) (B : Bound3) (M : BoundMesh)
    (k : ℕ) (r : Graph × List VertexIdx) (P : Planner3) : Prop where
  inv : Tree3.Inv base added P.robot
  fsr : P.fs.robot = Q0.fs.robot
  arena : P.arena = Q0.arena
  obs : P.obs = Q0.obs
  par : P.par = Q0.par
  start : P.start = Q0.start
  goal : P.goal = Q0.goal
  rigid : P.rigid = true
  q : P.q = Q0.q
  quats : P.quatSamples = Q0.quatSamples
  refine : P.isRefine = false
  shape : P.fs.table.Shape Q0.par.numLineY M.arena.length M.obstacle.length
  low : P.fs.lowB = Q0.par.zLo
  up : P.fs.upB = Q0.par.zHi
  bounds : P.sliceBoundAll = List.replicate k B
  meshes : P.sliceMeshAll = List.replicate k M
  all : P.vertexIdxAll = []
  res : P.res = Q0.res
  mesh : 0 < k → P.fs.mesh = M
  graph : P.graph = r.1
  idx : P.vertexIdx = r.2
  len : r.2.length = k

variable {base : SuperQuadrics} {added : List SuperQuadrics} {robot : Tree3} {arena obs : List SuperQuadrics}
  {quats : List Quat} {start goal : Vec} {par : Param3} {B : Bound3} {M : BoundMesh} {L : Libs3} {V : Variant}

theorem placeSlice3_eq {Q0 : Planner3} (hV : V.arm = none) (hB : cspaceBoundary3 Q0.fs.robot Q0.arena Q0.obs = .ok B)
    (hM : cspaceMesh Q0.arena Q0.obs B = .ok M) {k : ℕ} (hk : k < Q0.q.length) {r : Graph × List VertexIdx}
    {P : Planner3} (h : SliceInv3 base added Q0 B M k r P) :
    P.placeSlice V k = .ok { P with
      robot := Tree3.posed base added ⟨quatRot (Q0.q.getD k (1, 0, 0, 0)), ![0, 0, 0]⟩,
      fs := { P.fs with mesh := M }, sliceBound := B, sliceBoundAll := P.sliceBoundAll ++ [B],
      sliceMesh := M, sliceMeshAll := P.sliceMeshAll ++ [M] } := by
  have hq : Res.at' P.q k = .ok (Q0.q.getD k (1, 0, 0, 0)) := by
    rw [h.q, Res.at'_eq_ok, List.getElem?_eq_getElem hk]
    simp [List.getD_eq_getElem?_getD, List.getElem?_eq_getElem hk]
  have hcs : cspaceBoundary3 P.fs.robot P.arena P.obs = .ok B := by
    rw [h.fsr, h.arena, h.obs]; exact hB
  have hcm : cspaceMesh P.arena P.obs B = .ok M := by rw [h.arena, h.obs]; exact hM
  unfold Planner3.placeSlice Planner3.sliceConf
  rw [if_pos h.rigid, hq, Res.bind_ok', Res.bind_ok', hV, setTransform3_eq h.inv (by simp), Res.bind_ok',
    if_neg (by simp [h.refine]), hcs, Res.bind_ok', hcm, Res.bind_ok']
  simp [poseOf, quat, coord]

/-- One slice. -/
theorem constructOneSlice3_sim {Q0 : Planner3} (hV : V.arm = none)
    (hB : cspaceBoundary3 Q0.fs.robot Q0.arena Q0.obs = .ok B) (hM : cspaceMesh Q0.arena Q0.obs B = .ok M)
    (hx : Q0.par.numLineX ≠ 1) (hy : Q0.par.numLineY ≠ 1)
    (hg : ∀ x ∈ Q0.par.linesX, ∀ y ∈ Q0.par.linesY, ∀ s ∈ M.arena ++ M.obstacle, GoodHit isect3 (x, y) s)
    {segs : List (ℝ × FreeSeg)} (hsegs : sweep3D L Q0.par.zLo Q0.par.zHi M Q0.par.linesX Q0.par.linesY = .ok segs)
    {k : ℕ} (hk : k < Q0.q.length) {r : Graph × List VertexIdx} {P : Planner3}
    (h : SliceInv3 base added Q0 B M k r P) :
    SimRel (SliceInv3 base added Q0 B M (k + 1)) (P.constructOneSlice L V k)
      ((constructSlice3D (sameFree3 M.obstacle) (mkVertex (sliceQuat Q0.q k) []) segs r.1).bind
        fun s => .ok (s.1, r.2 ++ [s.2])) := by
  unfold Planner3.constructOneSlice
  rw [placeSlice3_eq hV hB hM hk h, Res.bind_ok']
  have hp : P.par = Q0.par := h.par
  have hlow : P.fs.lowB = Q0.par.zLo := h.low
  have hup : P.fs.upB = Q0.par.zHi := h.up
  obtain ⟨t, t1, t2⟩ := sweep3_total (L := L) (p := Q0.par) (f := { P.fs with mesh := M }) hx hy h.shape hg
    (segs := segs) (by simp only [hlow, hup]; exact hsegs)
  simp only [hp]
  rw [t2]
  simp only [Res.bind_ok']
  unfold Planner3.sliceJoints
  simp only [hV, Res.bind_ok', h.graph]
  change SimRel _ (Res.bind (constructSlice3D (sameFree3 M.obstacle) (mkVertex (sliceQuat Q0.q k) []) segs r.1) _) _
  cases constructSlice3D (sameFree3 M.obstacle) (mkVertex (sliceQuat Q0.q k) []) segs r.1 with
  | throw => rfl
  | ub => rfl
  | ok s =>
    refine ⟨_, rfl, ?_⟩
    exact ⟨Tree3.posed_inv _ _ _, h.fsr, h.arena, h.obs, rfl, h.start, h.goal, h.rigid, h.q, h.quats, h.refine,
      t1, h.low, h.up, by simp [h.bounds, List.replicate_succ'], by simp [h.meshes, List.replicate_succ'], h.all, h.res,
      fun _ => rfl, rfl, by simp [h.idx], by simp [h.len]⟩

theorem slices3_sim {Q0 : Planner3} (hV : V.arm = none)
    (hB : cspaceBoundary3 Q0.fs.robot Q0.arena Q0.obs = .ok B) (hM : cspaceMesh Q0.arena Q0.obs B = .ok M)
    (hx : Q0.par.numLineX ≠ 1) (hy : Q0.par.numLineY ≠ 1)
    (hg : ∀ x ∈ Q0.par.linesX, ∀ y ∈ Q0.par.linesY, ∀ s ∈ M.arena ++ M.obstacle, GoodHit isect3 (x, y) s)
    {segs : List (ℝ × FreeSeg)} (hsegs : sweep3D L Q0.par.zLo Q0.par.zHi M Q0.par.linesX Q0.par.linesY = .ok segs)
    (h0 : SliceInv3 base added Q0 B M 0 (.empty, []) Q0) (k : ℕ) (hk : k ≤ Q0.q.length) :
    SimRel (SliceInv3 base added Q0 B M k)
      ((List.range k).foldlM (fun (P : Planner3) i => P.constructOneSlice L V i) Q0)
      (buildSlices (fun i => constructSlice3D (sameFree3 M.obstacle) (mkVertex (sliceQuat Q0.q i) []) segs) k .empty []) := by
  induction k with
  | zero => exact ⟨_, rfl, h0⟩
  | succ k ih =>
    unfold buildSlices at ih ⊢
    rw [List.range_succ, List.foldlM_append, List.foldlM_append]
    refine SimRel.bind (ih (by omega)) ?_
    intro r P h
    simp only [List.foldlM_cons, List.foldlM_nil]
    have := constructOneSlice3_sim (L := L) hV hB hM hx hy hg hsegs (by omega) h
    refine SimRel.bind (S := SliceInv3 base added Q0 B M (k + 1)) this ?_
    intro r' P' h'
    exact ⟨P', rfl, h'⟩

/-- A fresh planner with its orientations drawn. -/
noncomputable abbrev freshQ (L : Libs3) (robot : Tree3) (quats : List Quat) (arena obs : List SuperQuadrics)
    (start goal : Vec) (par : Param3) : Planner3 :=
  (Planner3.new robot quats arena obs start goal par true).sampleSO3 L

theorem sampleSO3_len (P : Planner3) : (P.sampleSO3 L).q.length = (P.sampleSO3 L).par.numSlice := by
  unfold Planner3.sampleSO3
  split <;> simp

theorem sampleSO3_same (P : Planner3) : (P.sampleSO3 L).robot = P.robot ∧ (P.sampleSO3 L).fs = P.fs ∧
    (P.sampleSO3 L).arena = P.arena ∧ (P.sampleSO3 L).obs = P.obs ∧ (P.sampleSO3 L).start = P.start ∧
    (P.sampleSO3 L).goal = P.goal ∧ (P.sampleSO3 L).rigid = P.rigid ∧ (P.sampleSO3 L).isRefine = P.isRefine ∧
    (P.sampleSO3 L).sliceBoundAll = P.sliceBoundAll ∧ (P.sampleSO3 L).sliceMeshAll = P.sliceMeshAll ∧
    (P.sampleSO3 L).vertexIdxAll = P.vertexIdxAll ∧ (P.sampleSO3 L).res = P.res ∧ (P.sampleSO3 L).graph = P.graph ∧
    (P.sampleSO3 L).vertexIdx = P.vertexIdx ∧ (P.sampleSO3 L).v = P.v ∧
    ∃ n, (P.sampleSO3 L).par = { P.par with numSlice := n } := by
  unfold Planner3.sampleSO3
  split
  · exact ⟨rfl, rfl, rfl, rfl, rfl, rfl, rfl, rfl, rfl, rfl, rfl, rfl, rfl, rfl, rfl, P.par.numSlice, rfl⟩
  · exact ⟨rfl, rfl, rfl, rfl, rfl, rfl, rfl, rfl, rfl, rfl, rfl, rfl, rfl, rfl, rfl, P.quatSamples.length, rfl⟩

theorem fresh_inv3 (hr : Tree3.Inv base added robot) (hB : cspaceBoundary3 robot arena obs = .ok B)
    (hM : cspaceMesh arena obs B = .ok M) :
    SliceInv3 base added (freshQ L robot quats arena obs start goal par) B M 0 (.empty, [])
      (freshQ L robot quats arena obs start goal par) := by
  obtain ⟨B', e, h1, h2, -⟩ := cspaceBoundary3_ok hr arena obs
  rw [hB] at e
  obtain rfl := (Res.ok.injEq _ _).mp e
  obtain ⟨M', e', h3, h4⟩ := cspaceMesh_ok h1 h2
  rw [hM] at e'
  obtain rfl := (Res.ok.injEq _ _).mp e'
  obtain ⟨s1, s2, s3, s4, s5, s6, s7, s8, s9, s10, s11, s12, s13, s14, s15, n, s16⟩ :=
    sampleSO3_same (L := L) (Planner3.new robot quats arena obs start goal par true)
  refine ⟨by rw [s1]; exact hr, rfl, rfl, rfl, rfl, rfl, rfl, by rw [s7]; rfl, rfl, rfl, by rw [s8]; rfl, ?_, ?_, ?_, by rw [s9]; rfl,
    by rw [s10]; rfl, by rw [s11]; rfl, rfl, fun h => absurd h (lt_irrefl _), by rw [s13]; rfl, by rw [s14]; rfl, rfl⟩
  · rw [s2, s16, h3, h4, h1, h2]
    have := setup_shape par.numLineY ((1 + added.length) * arena.length) ((1 + added.length) * obs.length)
      par.zLo par.zHi
    simpa [Planner3.new, Fs3.setup, hr.num] using this
  · rw [s2, s16]; rfl
  · rw [s2, s16]; rfl

theorem foldlM_congr_mem {α β : Type} {f g : β → α → Res β} (l : List α) (h : ∀ a ∈ l, ∀ b, f b a = g b a) (b : β) :
    l.foldlM f b = l.foldlM g b := by
  induction l generalizing b with
  | nil => rfl
  | cons a l ih =>
    rw [List.foldlM_cons, List.foldlM_cons, h a (by simp) b]
    congr 1
    funext c
    exact ih (fun x hx => h x (by simp [hx])) c

/-- `buildRoadmap` on a fresh planner is the roadmap construction of `Model/Roadmap.lean` with the meshes of
the robot *as it was given to the constructor* in every slice. -/
theorem build3_sim (hV : V.arm = none) (hr : Tree3.Inv base added robot) (hB : cspaceBoundary3 robot arena obs = .ok B)
    (hM : cspaceMesh arena obs B = .ok M) {Q0 : Planner3} (hQ0 : Q0 = freshQ L robot quats arena obs start goal par)
    (hx : par.numLineX ≠ 1) (hy : par.numLineY ≠ 1)
    (hg : ∀ x ∈ par.linesX, ∀ y ∈ par.linesY, ∀ s ∈ M.arena ++ M.obstacle, GoodHit isect3 (x, y) s)
    {segs : List (ℝ × FreeSeg)} (hsegs : sweep3D L par.zLo par.zHi M par.linesX par.linesY = .ok segs) :
    SimRel (SliceInv3 base added Q0 B M Q0.q.length)
      ((Planner3.new robot quats arena obs start goal par true).build L V)
      (buildRoadmap3D (qDist L.ang Q0.q) (fun _ => sameFree3 M.obstacle) (Q0.freeMulti L V) par.gapX par.gapY
        (fun i => mkVertex (sliceQuat Q0.q i) []) (fun _ => segs) Q0.q.length) := by
  obtain ⟨s1, s2, s3, s4, s5, s6, s7, s8, s9, s10, s11, s12, s13, s14, s15, n, s16⟩ :=
    sampleSO3_same (L := L) (Planner3.new robot quats arena obs start goal par true)
  have hn : Q0.q.length = Q0.par.numSlice := by rw [hQ0]; exact sampleSO3_len _
  have hi := fresh_inv3 (L := L) (quats := quats) (start := start) (goal := goal) (par := par) hr hB hM
  rw [← hQ0] at hi
  have hpx : Q0.par.linesX = par.linesX := by rw [hQ0]; unfold freshQ; rw [s16]; rfl
  have hpy : Q0.par.linesY = par.linesY := by rw [hQ0]; unfold freshQ; rw [s16]; rfl
  have hp1 : Q0.par.numLineX = par.numLineX := by rw [hQ0]; unfold freshQ; rw [s16]; rfl
  have hp2 : Q0.par.numLineY = par.numLineY := by rw [hQ0]; unfold freshQ; rw [s16]; rfl
  have hp3 : Q0.par.zLo = par.zLo := by rw [hQ0]; unfold freshQ; rw [s16]; rfl
  have hp4 : Q0.par.zHi = par.zHi := by rw [hQ0]; unfold freshQ; rw [s16]; rfl
  have hp5 : Q0.par.gapX = par.gapX := by rw [hQ0]; unfold freshQ; rw [s16]; rfl
  have hp6 : Q0.par.gapY = par.gapY := by rw [hQ0]; unfold freshQ; rw [s16]; rfl
  have hs := slices3_sim (L := L) (V := V) (Q0 := Q0) hV
    (by rw [hQ0]; unfold freshQ; rw [s2, s3, s4]; exact hB) (by rw [hQ0]; unfold freshQ; rw [s3, s4]; exact hM)
    (by rw [hp1]; exact hx) (by rw [hp2]; exact hy) (by rw [hpx, hpy]; exact hg)
    (by rw [hpx, hpy, hp3, hp4]; exact hsegs) hi Q0.q.length le_rfl
  have hb : (Planner3.new robot quats arena obs start goal par true).build L V =
      ((List.range Q0.q.length).foldlM (fun (P : Planner3) i => P.constructOneSlice L V i) Q0).bind
        fun P => P.connectMultiSlice L V := by
    unfold Planner3.build
    rw [hn, hQ0]
  rw [hb]
  unfold buildRoadmap3D
  refine SimRel.bind hs ?_
  intro r P h
  have hpar : P.par = Q0.par := h.par
  have hfm : P.freeMulti L V = Q0.freeMulti L V := freeMulti3_congr L hV h.inv hi.inv h.q h.par h.obs
  unfold Planner3.connectMultiSlice connectMultiSlice3D
  rw [h.idx]
  split
  · exact ⟨P, rfl, h⟩
  · have hfold : (List.range r.2.length).foldlM (fun g i =>
        if i < P.q.length then
          multiStep3D (qDist L.ang P.q) (P.freeMulti L V) P.par.gapX P.par.gapY P.par.numSlice r.2 g i
        else .throw) P.graph = (List.range r.2.length).foldlM (multiStep3D (qDist L.ang Q0.q) (Q0.freeMulti L V) par.gapX par.gapY
          Q0.q.length r.2) r.1 := by
      rw [h.graph]
      apply foldlM_congr_mem
      intro i hi' g
      rw [h.len] at hi'
      rw [if_pos (by rw [h.q]; exact List.mem_range.1 hi'), hfm, h.q, hpar, hp5, hp6, ← hn]
    rw [hfold]
    cases (List.range r.2.length).foldlM (multiStep3D (qDist L.ang Q0.q) (Q0.freeMulti L V) par.gapX par.gapY
          Q0.q.length r.2) r.1 with
    | throw => rfl
    | ub => rfl
    | ok g =>
      refine ⟨_, rfl, ?_⟩
      exact { h with graph := rfl, idx := rfl }

/-- If the sweep fails, so does the build. -/
theorem build3_sweep_ok (hV : V.arm = none) (hr : Tree3.Inv base added robot) (hB : cspaceBoundary3 robot arena obs = .ok B)
    (hM : cspaceMesh arena obs B = .ok M) {Q0 : Planner3} (hQ0 : Q0 = freshQ L robot quats arena obs start goal par)
    (h0 : Q0.q ≠ []) {P : Planner3} (h : (Planner3.new robot quats arena obs start goal par true).build L V = .ok P) :
    par.numLineX ≠ 1 ∧ par.numLineY ≠ 1 ∧
    (∀ x ∈ par.linesX, ∀ y ∈ par.linesY, ∀ s ∈ M.arena ++ M.obstacle, GoodHit isect3 (x, y) s) ∧
    ∃ segs, sweep3D L par.zLo par.zHi M par.linesX par.linesY = .ok segs := by
  obtain ⟨s1, s2, s3, s4, s5, s6, s7, s8, s9, s10, s11, s12, s13, s14, s15, n, s16⟩ :=
    sampleSO3_same (L := L) (Planner3.new robot quats arena obs start goal par true)
  have hn : Q0.q.length = Q0.par.numSlice := by rw [hQ0]; exact sampleSO3_len _
  have hi := fresh_inv3 (L := L) (quats := quats) (start := start) (goal := goal) (par := par) hr hB hM
  rw [← hQ0] at hi
  have hpos := List.length_pos_iff.2 h0
  obtain ⟨m, hm⟩ : ∃ m, Q0.par.numSlice = m + 1 := ⟨Q0.par.numSlice - 1, by omega⟩
  have hpl := placeSlice3_eq (V := V) (Q0 := Q0) hV
    (by rw [hQ0]; unfold freshQ; rw [s2, s3, s4]; exact hB) (by rw [hQ0]; unfold freshQ; rw [s3, s4]; exact hM)
    hpos hi
  unfold Planner3.build at h
  change Res.bind (List.foldlM _ (freshQ L robot quats arena obs start goal par)
    (List.range (freshQ L robot quats arena obs start goal par).par.numSlice)) _ = _ at h
  rw [← hQ0, hm, List.range_succ_eq_map, List.foldlM_cons] at h
  obtain ⟨P1, h, -⟩ := Res.bind_eq_ok.1 h
  obtain ⟨P2, h, -⟩ := Res.bind_eq_ok.1 h
  unfold Planner3.constructOneSlice at h
  rw [hpl, Res.bind_ok'] at h
  obtain ⟨s, hs, -⟩ := Res.bind_eq_ok.1 h
  have hpar : Q0.par = { par with numSlice := n } := by rw [hQ0]; unfold freshQ; rw [s16]; rfl
  obtain ⟨a1, a2, t, -, -, a3, a4⟩ := sweep3_ok (by exact hi.shape) hs
  have hlow : Q0.fs.lowB = Q0.par.zLo := hi.low
  have hup : Q0.fs.upB = Q0.par.zHi := hi.up
  simp only [hlow, hup] at a3
  simp only at a1 a2 a4
  rw [hpar] at a1 a2 a3 a4
  exact ⟨a1, a2, a4, _, a3⟩

/-- What a successful build of a fresh planner consists of. -/
theorem build3_inv (hV : V.arm = none) (hr : Tree3.Inv base added robot) (hB : cspaceBoundary3 robot arena obs = .ok B)
    (hM : cspaceMesh arena obs B = .ok M) {Q0 : Planner3} (hQ0 : Q0 = freshQ L robot quats arena obs start goal par)
    (h0 : Q0.q ≠ []) {P : Planner3} (h : (Planner3.new robot quats arena obs start goal par true).build L V = .ok P) :
    ∃ segs r, sweep3D L par.zLo par.zHi M par.linesX par.linesY = .ok segs ∧
      (∀ x ∈ par.linesX, ∀ y ∈ par.linesY, ∀ s ∈ M.arena ++ M.obstacle, GoodHit isect3 (x, y) s) ∧
      buildRoadmap3D (qDist L.ang Q0.q) (fun _ => sameFree3 M.obstacle) (Q0.freeMulti L V) par.gapX par.gapY
        (fun i => mkVertex (sliceQuat Q0.q i) []) (fun _ => segs) Q0.q.length = .ok r ∧
      SliceInv3 base added Q0 B M Q0.q.length r P := by
  obtain ⟨hx, hy, hg, segs, hsegs⟩ := build3_sweep_ok hV hr hB hM hQ0 h0 h
  have hs := build3_sim (V := V) hV hr hB hM hQ0 hx hy hg hsegs
  cases hb : buildRoadmap3D (qDist L.ang Q0.q) (fun _ => sameFree3 M.obstacle) (Q0.freeMulti L V) par.gapX par.gapY
        (fun i => mkVertex (sliceQuat Q0.q i) []) (fun _ => segs) Q0.q.length with
  | ok r =>
    rw [hb] at hs
    obtain ⟨P', e, hi⟩ := hs
    rw [h] at e
    obtain rfl := (Res.ok.injEq _ _).mp e
    exact ⟨segs, r, hsegs, hg, hb, hi⟩
  | throw => rw [hb] at hs; change _ = _ at hs; rw [h] at hs; exact nomatch hs
  | ub => rw [hb] at hs; change _ = _ at hs; rw [h] at hs; exact nomatch hs

end Hrm
