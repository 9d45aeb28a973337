import Verif.Lemmas.Planner3DPlan
import Verif.Lemmas.Near
import Verif.Spec.ProbPlanner

/-! # The incremental spatial planner object -/

namespace Hrm

open Matrix Classical

/-! ## Articulated robots -/

/-- The robot with base at `g` and the frames of its links given by `fk`. -/
noncomputable def Tree3.posedArm (base : SuperQuadrics) (added : List SuperQuadrics) (g : Pose 3) (fk : ℕ → Pose 3) :
    Tree3 :=
  ⟨place base g, added.length, added.mapIdx fun i l => place l ((g.mul (fk i)).mul ⟨quatRot l.quat, l.pos⟩),
    added.map fun l => ⟨quatRot l.quat, l.pos⟩⟩

theorem Tree3.Inv.posedArm_eq {base added T} (h : Tree3.Inv base added T) (g : Pose 3) (fk : ℕ → Pose 3) :
    T.robotTFWith g fk = .ok (Tree3.posedArm base added g fk) := by
  obtain ⟨T', e, h1, h2, h3, h4, h5⟩ := Tree3.robotTFWith_spec T g fk (h.len.trans h.num.symm) h.tflen
  rw [e]
  congr 1
  have hlink : T'.link = added.mapIdx fun i l => place l ((g.mul (fk i)).mul ⟨quatRot l.quat, l.pos⟩) := by
    apply List.ext_getElem?
    intro i
    rw [List.getElem?_mapIdx]
    cases ea : added[i]? with
    | none =>
      rw [Option.map_none, List.getElem?_eq_none_iff, h4, h.num]
      exact List.getElem?_eq_none_iff.1 ea
    | some l =>
      have hi : i < T.link.length := by rw [h.len]; exact (List.getElem?_eq_some_iff.1 ea).1
      rw [h5 i _ _ (List.getElem?_eq_getElem hi) (by rw [h.tf, List.getElem?_map, ea]; rfl), Option.map_some,
        Tree3.place_congr (h.same i l _ ea (List.getElem?_eq_getElem hi))]
  cases T' with
  | mk b n l t =>
    simp only at h1 h2 h3 h4 hlink
    unfold Tree3.posedArm
    rw [h1, h2, h3, hlink, Tree3.place_congr h.base, h.tf, h.num]

theorem Tree3.posedArm_inv (base : SuperQuadrics) (added : List SuperQuadrics) (g : Pose 3) (fk : ℕ → Pose 3) :
    Tree3.Inv base added (Tree3.posedArm base added g fk) := by
  refine ⟨⟨rfl, rfl, rfl, rfl, rfl, rfl⟩, rfl, rfl, by simp [posedArm], ?_⟩
  intro i l l' e1 e2
  simp only [posedArm, List.getElem?_mapIdx, e1, Option.map_some, Option.some.injEq] at e2
  rw [← e2]
  exact ⟨rfl, rfl, rfl, rfl, rfl, rfl⟩

theorem setTransformArm_congr {base added T U} (hT : Tree3.Inv base added T) (hU : Tree3.Inv base added U) (A : Arm)
    (v : Vec) : setTransform3 (some A) T v = setTransform3 (some A) U v := by
  unfold setTransform3
  simp only [hT.posedArm_eq, hU.posedArm_eq]

theorem joints_fold (get : Vec → ℕ → Res ℝ) (hget : ∀ v i a, get v i = .ok a → v[i]? = some a) (v : Vec) (n : ℕ)
    (js : Vec) (h : (List.range n).foldlM (fun acc i => (get v (7 + i)).bind fun a => .ok (acc ++ [a])) [] = .ok js) :
    js = (v.drop 7).take n ∧ js.length = n := by
  induction n generalizing js with
  | zero => obtain rfl := (Res.ok.injEq _ _).mp h; simp
  | succ n ih =>
    rw [List.range_succ, List.foldlM_append] at h
    obtain ⟨js', h1, h⟩ := Res.bind_eq_ok.1 h
    rw [List.foldlM_cons] at h
    obtain ⟨x, h2, h⟩ := Res.bind_eq_ok.1 h
    obtain ⟨a, h3, h2⟩ := Res.bind_eq_ok.1 h2
    obtain rfl := (Res.ok.injEq _ _).mp h2
    obtain rfl := (Res.ok.injEq _ _).mp h
    obtain ⟨rfl, e⟩ := ih _ h1
    have := hget _ _ _ h3
    refine ⟨?_, by rw [List.length_append, e]; rfl⟩
    rw [List.take_add_one, List.getElem?_drop, this]
    rfl

theorem jointsAt_ok {n : ℕ} {v js : Vec} (h : jointsAt n v = .ok js) : js = (v.drop 7).take n ∧ js.length = n :=
  joints_fold _ (fun _ _ _ h => Res.at'_eq_ok.1 h) v n js h

theorem readJoints_ok {n : ℕ} {v js : Vec} (h : readJoints n v = .ok js) : js = (v.drop 7).take n ∧ js.length = n :=
  joints_fold _ (fun _ _ _ h => Res.idx_eq_ok.1 h) v n js h

theorem quatAt_ok {v : Vec} {q : Quat} (h : quatAt v = .ok q) : q = quatPart v := by
  unfold quatAt at h
  obtain ⟨w, h1, h⟩ := Res.bind_eq_ok.1 h
  obtain ⟨x, h2, h⟩ := Res.bind_eq_ok.1 h
  obtain ⟨y, h3, h⟩ := Res.bind_eq_ok.1 h
  obtain ⟨z, h4, h⟩ := Res.bind_eq_ok.1 h
  obtain rfl := (Res.ok.injEq _ _).mp h
  simp [quatPart, coordOf, List.getD_eq_getElem?_getD, Res.at'_eq_ok.1 h1, Res.at'_eq_ok.1 h2, Res.at'_eq_ok.1 h3,
    Res.at'_eq_ok.1 h4]

/-- The robot after a `setTransform` that returned. -/
theorem setTransformArm_ok {base added T T'} (h : Tree3.Inv base added T) {A : Arm} {v : Vec}
    (ht : setTransform3 (some A) T v = .ok T') :
    T' = Tree3.posedArm base added (poseOf v) (A.fk ((v.drop 7).take A.nJ)) ∧ 7 ≤ v.length ∧
      ((v.drop 7).take A.nJ).length = A.nJ := by
  unfold setTransform3 at ht
  obtain ⟨q, h1, ht⟩ := Res.bind_eq_ok.1 ht
  obtain ⟨x, h2, ht⟩ := Res.bind_eq_ok.1 ht
  obtain ⟨y, h3, ht⟩ := Res.bind_eq_ok.1 ht
  obtain ⟨z, h4, ht⟩ := Res.bind_eq_ok.1 ht
  obtain ⟨js, h5, ht⟩ := Res.bind_eq_ok.1 ht
  have hv : 7 ≤ v.length := by
    unfold quatOf at h1
    obtain ⟨_, -, h1⟩ := Res.bind_eq_ok.1 h1
    obtain ⟨_, -, h1⟩ := Res.bind_eq_ok.1 h1
    obtain ⟨_, -, h1⟩ := Res.bind_eq_ok.1 h1
    obtain ⟨_, h6, h1⟩ := Res.bind_eq_ok.1 h1
    exact (List.getElem?_eq_some_iff.1 (Res.idx_eq_ok.1 h6)).1
  rw [quatOf_eq hv] at h1
  rw [idx_coord (by omega)] at h2 h3 h4
  obtain rfl := (Res.ok.injEq _ _).mp h1
  obtain rfl := (Res.ok.injEq _ _).mp h2
  obtain rfl := (Res.ok.injEq _ _).mp h3
  obtain rfl := (Res.ok.injEq _ _).mp h4
  obtain ⟨rfl, hl⟩ := readJoints_ok h5
  rw [h.posedArm_eq] at ht
  exact ⟨((Res.ok.injEq _ _).mp ht).symm, hv, hl⟩

theorem multiLoop3_poseArm {base added} {V : Variant} {A : Arm} (hV : V.arm = some A) (obs : List SuperQuadrics)
    (bridge : List (List Mesh)) (rows : List (List (Option ℝ))) {T U : Tree3} (hT : Tree3.Inv base added T)
    (hU : Tree3.Inv base added U) : multiLoop3 V obs bridge rows T = multiLoop3 V obs bridge rows U := by
  cases rows with
  | nil => rfl
  | cons row rows =>
    unfold multiLoop3
    rw [hV]
    simp only [setTransformArm_congr hT hU]

theorem probCheck_congr {base added} {V : Variant} {A : Arm} (hV : V.arm = some A) (L : Libs3)
    (obs : List SuperQuadrics) (np : ℕ) (ci cj v1 v2 : Vec) {T U : Tree3} (hT : Tree3.Inv base added T)
    (hU : Tree3.Inv base added U) : probCheck L V A T obs np ci cj v1 v2 = probCheck L V A U obs np ci cj v1 v2 := by
  unfold probCheck computeTFEProb multiFree3
  simp only [setTransformArm_congr hT hU, hT.num, hU.num, multiLoop3_poseArm hV _ _ _ hT hU]

/-! ## One pass -/

/-- The value of a computation that returned. -/
def okList {α : Type*} : Res (List α) → List α
  | .ok l => l
  | _ => []

theorem okList_ok {α : Type*} {r : Res (List α)} {l : List α} (h : r = .ok l) : r = .ok (okList r) ∧ okList r = l := by
  rw [h]; exact ⟨rfl, rfl⟩

theorem probDists_ok {v : List Vec} {back : Vec} {n d : ℕ} {ds : List ℝ} (h : probDists v back n = .ok ds)
    (hd : ∀ w ∈ v, w.length = d) (hb : back.length = d) :
    ∀ i < n, ∃ w, v[i]? = some w ∧ ds.getD i 0 = euclid back w := by
  have key : ds.length = n ∧ ∀ i < n, ∃ w, v[i]? = some w ∧ ds.getD i 0 = euclid back w := by
    unfold probDists at h
    induction n generalizing ds with
    | zero => obtain rfl := (Res.ok.injEq _ _).mp h; simp
    | succ n ih =>
      rw [List.range_succ, List.foldlM_append] at h
      obtain ⟨ds', h1, h⟩ := Res.bind_eq_ok.1 h
      rw [List.foldlM_cons] at h
      obtain ⟨x, h2, h⟩ := Res.bind_eq_ok.1 h
      obtain ⟨a, h3, h2⟩ := Res.bind_eq_ok.1 h2
      obtain rfl := (Res.ok.injEq _ _).mp h2
      obtain rfl := (Res.ok.injEq _ _).mp h
      obtain ⟨w, hw, h3⟩ := Res.bind_eq_ok.1 h3
      have hw := Res.at'_eq_ok.1 hw
      rw [vectorEuclidean_eq (by rw [hb, hd w (List.mem_of_getElem? hw)])] at h3
      obtain rfl := (Res.ok.injEq _ _).mp h3
      obtain ⟨e, ih⟩ := ih h1
      refine ⟨by rw [List.length_append, e]; rfl, fun i hi => ?_⟩
      rcases Nat.lt_succ_iff_lt_or_eq.1 hi with h | rfl
      · obtain ⟨u, h4, h5⟩ := ih i h
        refine ⟨u, h4, ?_⟩
        rw [← h5, List.getD_eq_getElem?_getD, List.getD_eq_getElem?_getD, List.getElem?_append_left (by omega)]
      · refine ⟨w, hw, ?_⟩
        rw [List.getD_eq_getElem?_getD, List.getElem?_append_right (by omega), e]
        simp
  exact key.2

theorem JoinedIfPossible.grow {near free : Vec → Vec → Res Bool} {s t : VertexIdx} {g g' : Graph}
    (h : JoinedIfPossible near free s t g) (hx : g.Ext g') (hs : s.slice ≤ g.vertex.length)
    (ht : t.slice ≤ g.vertex.length) : JoinedIfPossible near free s t g' := by
  intro m0 m1 v1 v2 a1 a2 a3 a4 a5 a6 a7 a8
  have e0 := hx.get (List.getElem?_eq_getElem (show m0 < g.vertex.length by omega))
  have e1 := hx.get (List.getElem?_eq_getElem (show m1 < g.vertex.length by omega))
  rw [a5] at e0
  rw [a6] at e1
  obtain ⟨e, he, hr⟩ := h m0 m1 v1 v2 a1 a2 a3 a4 (by rw [List.getElem?_eq_getElem (by omega)]; exact e0.symm)
    (by rw [List.getElem?_eq_getElem (by omega)]; exact e1.symm) a7 a8
  exact ⟨e, hx.2.1.subset he, hr⟩

variable {base : SuperQuadrics} {added : List SuperQuadrics} {robot : Tree3} {arena obs : List SuperQuadrics}
  {quats : List Quat} {start goal : Vec} {par : Param3} {B : Bound3} {M : BoundMesh} {L : Libs3} {V : Variant} {A : Arm}

/-- What is true after `k` returning passes. -/
structure ProbInv (L : Libs3) (V : Variant) (A : Arm) (base : SuperQuadrics) (added : List SuperQuadrics)
    (robot : Tree3) (arena obs : List SuperQuadrics) (start goal : Vec) (par : Param3) (M : BoundMesh)
    (segs : List (ℝ × FreeSeg)) (k : ℕ) (P : Planner3) : Prop where
  inv : Tree3.Inv base added P.robot
  fsr : P.fs.robot = robot
  earena : P.arena = arena
  eobs : P.obs = obs
  estart : P.start = start
  egoal : P.goal = goal
  epar : P.par = { par with numSlice := k }
  refine : P.isRefine = false
  shape : P.fs.table.Shape par.numLineY M.arena.length M.obstacle.length
  low : P.fs.lowB = par.zLo
  up : P.fs.upB = par.zHi
  all : P.vertexIdxAll = []
  drawn : P.drawn = k - 2
  joints : ∀ i < k, (probSample L A start goal i).2.length = A.nJ
  q : P.q = (List.range k).map fun i => (probSample L A start goal i).1
  v : P.v = (List.range k).map (probConf L A start goal)
  mesh : 0 < k → P.fs.mesh = M
  swept : 0 < k → sweep3D L par.zLo par.zHi M par.linesX par.linesY = .ok segs
  lines : 0 < k → 2 ≤ par.numLineX ∧ 2 ≤ par.numLineY
  bounds : P.sliceBoundAll.length = k ∧ ∀ b ∈ P.sliceBoundAll, cspaceBoundary3 robot arena obs = .ok b
  good : 0 < k → ∀ x ∈ par.linesX, ∀ y ∈ par.linesY, ∀ s ∈ M.arena ++ M.obstacle, GoodHit isect3 (x, y) s
  placed : ∀ i < k, ∀ u, SliceSample (probTail L A start goal i) segs u → u ∈ P.graph.vertex
  grow : Grow (fun v => v.length = 7 + A.nJ)
    (ProbStep L V A robot obs par start goal M.obstacle segs k) .empty P.graph
  len : P.vertexIdx.length = k
  part : Partition P.vertexIdx 0 P.graph.vertex.length
  vert : ∀ (i : ℕ) (x : VertexIdx), P.vertexIdx[i]? = some x → ∀ (m : ℕ) (v : Vec), x.startId ≤ m → m < x.slice →
    P.graph.vertex[m]? = some v → ProbVertex L A start goal M.obstacle segs i v
  joined : ∀ (i : ℕ) (s : VertexIdx), P.vertexIdx[i]? = some s → 1 ≤ i →
    ∃ (j : ℕ) (t : VertexIdx), NearestEarlier (probConf L A start goal) i j ∧ P.vertexIdx[j]? = some t ∧
      JoinedIfPossible (near3D par.gapX par.gapY) (probCheck L V A robot obs par.numPoint (probConf L A start goal i)
        (probConf L A start goal j)) t s P.graph

theorem ProbStep.mono {par : Param3} {ms : List Mesh} {segs : List (ℝ × FreeSeg)} {k k' : ℕ} (hk : k ≤ k') {a b : Vec}
    (h : ProbStep L V A robot obs par start goal ms segs k a b) :
    ProbStep L V A robot obs par start goal ms segs k' a b := by
  rcases h with ⟨i, h1, h2⟩ | ⟨i, j, h1, h2⟩ | ⟨i, h1, h2⟩
  · exact Or.inl ⟨i, by omega, h2⟩
  · exact Or.inr (Or.inl ⟨i, j, by omega, h2⟩)
  · exact Or.inr (Or.inr ⟨i, by omega, h2⟩)

/-- The sample of one pass. -/
theorem sampleProb_ok {segs : List (ℝ × FreeSeg)} {k : ℕ} {P P1 : Planner3}
    (h : ProbInv L V A base added robot arena obs start goal par M segs k P) (hs : P.sampleProb L A = .ok P1) :
    P1 = { P with q := P.q ++ [(probSample L A start goal k).1], drawn := k + 1 - 2,
                  v := P.v ++ [probConf L A start goal k] } ∧ (probSample L A start goal k).2.length = A.nJ := by
  unfold Planner3.sampleProb at hs
  have hk : P.par.numSlice = k := by rw [h.epar]
  have e1 := h.estart
  have e2 := h.egoal
  subst e1
  subst e2
  rw [hk, h.drawn] at hs
  match k, hs with
  | 0, hs =>
    rw [if_pos rfl] at hs
    obtain ⟨s, h1, hs⟩ := Res.bind_eq_ok.1 hs
    obtain ⟨q, h2, h1⟩ := Res.bind_eq_ok.1 h1
    obtain ⟨js, h3, h1⟩ := Res.bind_eq_ok.1 h1
    obtain rfl := (Res.ok.injEq _ _).mp h1
    obtain rfl := (Res.ok.injEq _ _).mp hs
    obtain ⟨rfl, hl⟩ := jointsAt_ok h3
    obtain rfl := quatAt_ok h2
    exact ⟨rfl, hl⟩
  | 1, hs =>
    rw [if_neg (by omega), if_pos rfl] at hs
    obtain ⟨s, h1, hs⟩ := Res.bind_eq_ok.1 hs
    obtain ⟨q, h2, h1⟩ := Res.bind_eq_ok.1 h1
    obtain ⟨js, h3, h1⟩ := Res.bind_eq_ok.1 h1
    obtain rfl := (Res.ok.injEq _ _).mp h1
    obtain rfl := (Res.ok.injEq _ _).mp hs
    obtain ⟨rfl, hl⟩ := jointsAt_ok h3
    obtain rfl := quatAt_ok h2
    exact ⟨rfl, hl⟩
  | i + 2, hs =>
    rw [if_neg (by omega), if_neg (by omega), Res.bind_ok'] at hs
    obtain rfl := (Res.ok.injEq _ _).mp hs
    exact ⟨rfl, by simp [probSample]⟩

/-- The boundary part of one pass. -/
theorem placeSliceProb_ok (hV : V.arm = some A) {k : ℕ} {P Q : Planner3}
    (hB : cspaceBoundary3 P.fs.robot P.arena P.obs = .ok B) (hM : cspaceMesh P.arena P.obs B = .ok M)
    (hi : Tree3.Inv base added P.robot) (h4 : P.isRefine = false)
    (hq : P.q[k]? = some (probSample L A start goal k).1) (hv : P.v[k]? = some (probConf L A start goal k))
    (hp : P.placeSlice V k = .ok Q) :
    ∃ T ms, Q = { P with robot := T, fs := { P.fs with mesh := M }, sliceBound := B,
                         sliceBoundAll := P.sliceBoundAll ++ [B], sliceMesh := M, sliceMeshAll := ms } ∧
      Tree3.Inv base added T ∧ T.base.quat = matQuat (quatRot (probSample L A start goal k).1) := by
  unfold Planner3.placeSlice at hp
  obtain ⟨c, hc, hp⟩ := Res.bind_eq_ok.1 hp
  obtain ⟨T, hT, hp⟩ := Res.bind_eq_ok.1 hp
  rw [if_neg (by simp [h4]), hB, Res.bind_ok', hM, Res.bind_ok'] at hp
  rw [hV] at hT
  obtain ⟨rfl, -, -⟩ := setTransformArm_ok hi hT
  refine ⟨_, _, ((Res.ok.injEq _ _).mp hp).symm, Tree3.posedArm_inv _ _ _ _, ?_⟩
  have hc' : quat c = (probSample L A start goal k).1 := by
    unfold Planner3.sliceConf at hc
    split at hc
    · rw [Res.at'_eq_ok.2 hq, Res.bind_ok'] at hc
      obtain rfl := (Res.ok.injEq _ _).mp hc
      rfl
    · rw [Res.at'_eq_ok.2 hv] at hc
      obtain rfl := (Res.ok.injEq _ _).mp hc
      rfl
  change matQuat (quatRot (quat c)) = _
  rw [hc']

theorem addSlice_inv (hV : V.arm = some A) (hr : Tree3.Inv base added robot)
    (hB : cspaceBoundary3 robot arena obs = .ok B) (hM : cspaceMesh arena obs B = .ok M)
    {segs : List (ℝ × FreeSeg)} (hsegs : segs = okList (sweep3D L par.zLo par.zHi M par.linesX par.linesY)) {k : ℕ}
    {P Q : Planner3} (h : ProbInv L V A base added robot arena obs start goal par M segs k P)
    (ha : P.addSlice L V A = .ok Q) :
    ProbInv L V A base added robot arena obs start goal par M segs (k + 1) Q ∧ Q.res = P.res := by
  unfold Planner3.addSlice at ha
  obtain ⟨P1, hs, ha⟩ := Res.bind_eq_ok.1 ha
  obtain ⟨P2, hc, ha⟩ := Res.bind_eq_ok.1 ha
  obtain ⟨rfl, hjl⟩ := sampleProb_ok h hs
  have hk : P.par.numSlice = k := by rw [h.epar]
  dsimp only at hc
  rw [hk] at hc
  unfold Planner3.constructOneSlice at hc
  obtain ⟨P3, hp, hc⟩ := Res.bind_eq_ok.1 hc
  obtain ⟨s, hsw, hc⟩ := Res.bind_eq_ok.1 hc
  obtain ⟨js, hj, hc⟩ := Res.bind_eq_ok.1 hc
  obtain ⟨r, hcs, hc⟩ := Res.bind_eq_ok.1 hc
  obtain rfl := (Res.ok.injEq _ _).mp hc
  have hql : P.q.length = k := by rw [h.q]; simp
  have hvl : P.v.length = k := by rw [h.v]; simp
  obtain ⟨T, ms, rfl, hT, hTq⟩ := placeSliceProb_ok (L := L) (start := start) (goal := goal) hV
    (B := B) (M := M) (by simp only [h.fsr, h.earena, h.eobs]; exact hB) (by simp only [h.earena, h.eobs]; exact hM)
    (by exact h.inv) (by exact h.refine)
    (by simp [hql]) (by simp [hvl]) hp
  dsimp only at hsw hj hcs
  obtain ⟨a1, a2, t, t1, t2, a3, a4⟩ := sweep3_ok (f := { P.fs with mesh := M }) (by rw [h.epar]; exact h.shape) hsw
  have e3 : sweep3D L par.zLo par.zHi M par.linesX par.linesY = .ok s.2 := by
    rw [← a3]
    simp only [h.low, h.up, h.epar]
    rfl
  obtain rfl : segs = s.2 := by rw [hsegs]; exact (okList_ok e3).2
  unfold Planner3.sliceJoints at hj
  simp only [hV, List.getLast?_append, List.getLast?_singleton, Option.some_or] at hj
  obtain rfl : js = (probSample L A start goal k).2 := ((Res.ok.injEq _ _).mp hj).symm
  rw [hTq] at hcs
  have hmk : mkVertex (matQuat (quatRot (probSample L A start goal k).1)) (probSample L A start goal k).2 =
      fun x y z => x :: y :: z :: probTail L A start goal k := rfl
  rw [hmk] at hcs
  have htl : (probTail L A start goal k).length = 4 + A.nJ := by
    simp [probTail, hjl]; omega
  have hsat := (constructSlice3D_satB (tot := False) (dim := 7 + A.nJ)
    (Vp := SliceSample (probTail L A start goal k) s.2)
    (Vb := fun v => v.length = 7 + A.nJ ∧ ProbVertex L A start goal M.obstacle s.2 k v)
    (Acc := ProbStep L V A robot obs par start goal M.obstacle s.2 (k + 1))
    (free := sameFree3 M.obstacle)
    { acc := fun a b ha hb hab h => Or.inl ⟨k, by omega, ha.elim Or.inl (·.2), hb.elim Or.inl (·.2), hab, h⟩
      vdim := by
        rintro v ⟨p, -, j, y, r, z, -, -, -, rfl⟩
        simp [htl]; omega
      total := fun h => h.elim
      three := fun h => h.elim
      bridge := by
        rintro v1 v2 v z s1 s2 hrej hv f1 f2
        have hl : ∀ u, SliceSample (probTail L A start goal k) s.2 u → u.length = 7 + A.nJ := by
          rintro v ⟨p, -, j, y, r, z, -, -, -, rfl⟩
          simp [htl]; omega
        refine ⟨set_third_length (hl v1 s1) (hl v2 s2) hv, Or.inr ⟨v1, v2, s1, s2, hrej, ?_, f1, f2⟩⟩
        rcases hv with ⟨hz, rfl⟩ | ⟨hz, rfl⟩
        · exact Or.inl ⟨z, hz, rfl⟩
        · exact Or.inr ⟨z, hz, rfl⟩ }
    (by
      rintro v ⟨p, hp, j, y, r, z, h1, h2, h3, rfl⟩
      refine ⟨by simp [htl]; omega, Or.inl ⟨p, hp, j, y, r, z, h1, h2, h3, rfl⟩⟩)
    (mk := fun x y z => x :: y :: z :: probTail L A start goal k) (planes := s.2)
    (by
      rintro p hp v ⟨j, y, r, z, h1, h2, h3, rfl⟩
      exact ⟨p, hp, j, y, r, z, h1, h2, h3, rfl⟩)
    (fun p hp a b hab => Or.inr (Or.inr ⟨k, by omega, p, hp, hab⟩))
    (fun h => h.elim) P.graph).1 r hcs
  obtain ⟨g1, i1, i2, i3, i4⟩ := hsat
  have hne : s.2 ≠ [] := by
    intro e
    rw [e] at hcs
    exact nomatch hcs
  have hlines : 0 < par.numLineX ∧ 0 < par.numLineY := by
    obtain ⟨h1, h2⟩ := sweep3D_fst e3
    have hpos := List.length_pos_iff.2 hne
    refine ⟨by rw [h1, Param3.linesX_length] at hpos; exact hpos, ?_⟩
    obtain ⟨-, h3⟩ := h2 0 _ (List.getElem?_eq_getElem hpos)
    rcases Nat.eq_zero_or_pos par.numLineY with hz | hz
    · exfalso
      have hl : par.linesY = [] := List.length_eq_zero_iff.1 (by rw [Param3.linesY_length, hz])
      rw [hl] at h3
      unfold planeSeg at h3
      obtain ⟨t, -, h3⟩ := Res.bind_eq_ok.1 h3
      obtain ⟨rows, h3, -⟩ := Res.bind_eq_ok.1 h3
      simp [computeFreeSegment, freeRows, enhance] at h3
    · exact hz
  have hgrow1 : Grow (fun v => v.length = 7 + A.nJ)
      (ProbStep L V A robot obs par start goal M.obstacle s.2 (k + 1)) .empty r.1 :=
    (h.grow.mono (fun _ h => h) fun _ _ h => h.mono (by omega)).trans (g1.mono (fun _ h => h.1) fun _ _ h => h)
  have hdim : ∀ v ∈ r.1.vertex, v.length = 7 + A.nJ := hgrow1.allV (by simp [Graph.empty])
  have hpart : Partition (P.vertexIdx ++ [r.2]) 0 r.1.vertex.length := by
    rw [← i2]
    exact h.part.append r.2 i1 (by rw [i2]; exact g1.ext.1.length_le)
  have hle : ∀ (i : ℕ) (x : VertexIdx), P.vertexIdx[i]? = some x → x.slice ≤ P.graph.vertex.length :=
    fun i x hx => (h.part.bounds.2 x (List.mem_of_getElem? hx)).2.2
  have hvert : ∀ (i : ℕ) (x : VertexIdx), (P.vertexIdx ++ [r.2])[i]? = some x → ∀ (m : ℕ) (v : Vec), x.startId ≤ m →
      m < x.slice → r.1.vertex[m]? = some v → ProbVertex L A start goal M.obstacle s.2 i v := by
    intro i x hx m v h1 h2 hv
    rcases Nat.lt_or_ge i k with hi | hi
    · rw [List.getElem?_append_left (by rw [h.len]; exact hi)] at hx
      have hm : m < P.graph.vertex.length := lt_of_lt_of_le h2 (hle i x hx)
      have := g1.ext.get (List.getElem?_eq_getElem hm)
      rw [hv] at this
      exact h.vert i x hx m v h1 h2 (by rw [List.getElem?_eq_getElem hm]; exact this.symm)
    · rw [List.getElem?_append_right (by rw [h.len]; exact hi), h.len] at hx
      obtain rfl : i = k := by
        have := (List.getElem?_eq_some_iff.1 hx).1
        simp at this; omega
      simp only [Nat.sub_self, List.getElem?_cons_zero, Option.some.injEq] at hx
      subst hx
      exact (g1.newVertex hv (by rw [← i1]; exact h1)).2
  dsimp only at ha
  rw [h.refine] at ha
  simp only [Bool.false_eq_true, if_false, hk] at ha
  -- the connection
  obtain ⟨g2, hQ, hg2, hjoin⟩ : ∃ g2, Q = { P with
        q := P.q ++ [(probSample L A start goal k).1], drawn := k + 1 - 2, v := P.v ++ [probConf L A start goal k],
        robot := T, fs := s.1, isRefine := false, sliceBound := B, sliceBoundAll := P.sliceBoundAll ++ [B], sliceMesh := M,
        sliceMeshAll := ms, graph := g2,
        vertexIdx := P.vertexIdx ++ [r.2], par := { P.par with numSlice := k + 1 } } ∧
      Grow (fun _ => False) (ProbStep L V A robot obs par start goal M.obstacle s.2 (k + 1)) r.1 g2 ∧
      (1 ≤ k → ∃ (j : ℕ) (t : VertexIdx), NearestEarlier (probConf L A start goal) k j ∧
        (P.vertexIdx ++ [r.2])[j]? = some t ∧
        JoinedIfPossible (near3D par.gapX par.gapY) (probCheck L V A robot obs par.numPoint (probConf L A start goal k)
          (probConf L A start goal j)) t r.2 g2) := by
    rcases Nat.eq_zero_or_pos k with rfl | hk1
    · rw [if_neg (by omega)] at ha
      exact ⟨r.1, ((Res.ok.injEq _ _).mp ha).symm, .refl, by omega⟩
    · rw [if_pos (by omega)] at ha
      unfold Planner3.connectProb at ha
      simp only [List.getLast?_append, List.getLast?_singleton, Option.some_or] at ha
      obtain ⟨ds, hds, ha⟩ := Res.bind_eq_ok.1 ha
      obtain ⟨g2, hg, ha⟩ := Res.bind_eq_ok.1 ha
      have hvs : P.v ++ [probConf L A start goal k] = (List.range (k + 1)).map (probConf L A start goal) := by
        rw [h.v, List.range_succ, List.map_append]; rfl
      have hget : ∀ j < k + 1, (P.v ++ [probConf L A start goal k])[j]? = some (probConf L A start goal j) := by
        intro j hj
        rw [hvs, List.getElem?_map, List.getElem?_range hj]; rfl
      have hcl : ∀ j < k + 1, (probConf L A start goal j).length = 7 + A.nJ := by
        intro j hj
        rcases Nat.lt_succ_iff_lt_or_eq.1 hj with hj | rfl
        · simp [probConf, conf7, h.joints j hj]; omega
        · simp [probConf, conf7, hjl]; omega
      have hd := probDists_ok hds (d := 7 + A.nJ) (by
        rw [hvs]
        intro w hw
        obtain ⟨j, hj, rfl⟩ := List.mem_map.1 hw
        exact hcl j (List.mem_range.1 hj)) (hcl k (by omega))
      have hd' : ∀ j < k, ds.getD j 0 = euclid (probConf L A start goal k) (probConf L A start goal j) := by
        intro j hj
        obtain ⟨w, h1, h2⟩ := hd j (by omega)
        rw [hget j (by omega)] at h1
        obtain rfl := Option.some.inj h1
        exact h2
      obtain ⟨n1, n2⟩ := probNearest_spec (fun i => ds.getD i 0) (n := k + 1) (by omega)
      have n3 := probNearest_first (fun i => ds.getD i 0) (k + 1)
      have hnear : NearestEarlier (probConf L A start goal) k (probNearest (fun i => ds.getD i 0) (k + 1)) := by
        refine ⟨by omega, fun t ht => ?_, fun t ht => ?_⟩
        · have := n2 t (by omega)
          rwa [hd' t ht, hd' _ (by omega)] at this
        · have := n3 t ht
          rwa [hd' t (by omega), hd' _ (by omega)] at this
      set j := probNearest (fun i => ds.getD i 0) (k + 1) with hjdef
      have hfree : ∀ (P' : Planner3), P'.v = P.v ++ [probConf L A start goal k] → P'.obs = obs →
          P'.par.numPoint = par.numPoint → P'.robot = T →
          P'.freeProb L V A (probConf L A start goal k) j = probCheck L V A robot obs par.numPoint
            (probConf L A start goal k) (probConf L A start goal j) := by
        intro P' e1 e2 e3 e4
        funext v1 v2
        rw [← probCheck_congr hV L obs par.numPoint (probConf L A start goal k) (probConf L A start goal j) v1 v2 hT hr]
        unfold Planner3.freeProb probCheck
        rw [e1, Res.at'_eq_ok.2 (hget j (by omega)), Res.bind_ok', e2, e3, e4]
        rfl
      have hnp : P.par.numPoint = par.numPoint := by rw [h.epar]
      have hgx : P.par.gapX = par.gapX := by rw [h.epar]; rfl
      have hgy : P.par.gapY = par.gapY := by rw [h.epar]; rfl
      obtain ⟨c1, c2⟩ := probConnect_near (dim := 7 + A.nJ)
        (Acc := ProbStep L V A robot obs par start goal M.obstacle s.2 (k + 1)) hdim (by
          intro s' t m0 m1 a b hs' ht r0 r1 e0 e1 hx hy hab
          have va := hvert _ t ht m0 a r0.1 r0.2 e0
          have vb := hvert k s' hs' m1 b r1.1 r1.2 e1
          rw [← hjdef, hfree _ rfl (by exact h.eobs) (by exact hnp) rfl] at hab
          change CloseIn 0 P.par.gapX a b at hx
          change CloseIn 1 P.par.gapY a b at hy
          rw [hgx] at hx
          rw [hgy] at hy
          exact Or.inr (Or.inl ⟨k, j, by omega, hnear, va, vb, hx, hy, hab⟩)) hg
      refine ⟨g2, ((Res.ok.injEq _ _).mp ha).symm, c1, fun _ => ?_⟩
      have hjl' : j < (P.vertexIdx ++ [r.2]).length := by rw [List.length_append, h.len]; simp; omega
      refine ⟨j, _, hnear, List.getElem?_eq_getElem hjl', ?_⟩
      have := c2 (by omega) r.2 _ (by
          change (P.vertexIdx ++ [r.2])[k]? = _
          rw [List.getElem?_append_right (by rw [h.len]), h.len]; simp)
        (List.getElem?_eq_getElem hjl')
      rw [hfree _ rfl (by exact h.eobs) (by exact hnp) rfl] at this
      change JoinedIfPossible (near3D P.par.gapX P.par.gapY) _ _ _ _ at this
      rw [hgx, hgy] at this
      exact this
  have hv2 := hg2.noVertex
  subst hQ
  refine ⟨?_, rfl⟩
  have hext := g1.ext.trans hg2.ext
  exact
    { inv := hT
      fsr := by rw [t2]; exact h.fsr
      earena := h.earena
      eobs := h.eobs
      estart := h.estart
      egoal := h.egoal
      epar := by simp only [h.epar]
      refine := rfl
      shape := by rw [t2]; rw [h.epar] at t1; exact t1
      low := by rw [t2]; exact h.low
      up := by rw [t2]; exact h.up
      all := h.all
      drawn := rfl
      joints := by
        intro i hi
        rcases Nat.lt_succ_iff_lt_or_eq.1 hi with hi | rfl
        · exact h.joints i hi
        · exact hjl
      q := by simp only [h.q, List.range_succ, List.map_append]; rfl
      v := by simp only [h.v, List.range_succ, List.map_append]; rfl
      mesh := fun _ => by rw [t2]
      swept := fun _ => e3
      lines := fun _ => by rw [h.epar] at a1 a2; dsimp only at a1 a2; omega
      bounds := by
        refine ⟨by simp [h.bounds.1], fun b hb => ?_⟩
        rcases List.mem_append.1 hb with hb | hb
        · exact h.bounds.2 b hb
        · obtain rfl := List.mem_singleton.1 hb
          exact hB
      good := fun _ => by rw [h.epar] at a4; exact a4
      placed := by
        intro i hi u hu
        rcases Nat.lt_succ_iff_lt_or_eq.1 hi with hi | rfl
        · obtain ⟨m, hm⟩ := List.mem_iff_getElem?.1 (h.placed i hi u hu)
          exact List.mem_of_getElem? (hext.get hm)
        · obtain ⟨p, hp, j, y, rw', z, hy, hr', hz, rfl⟩ := hu
          obtain ⟨kp, hkp⟩ := List.mem_iff_getElem?.1 hp
          obtain ⟨plane, -, hok⟩ := i4 kp p hkp
          obtain ⟨kz, hkz⟩ := List.mem_iff_getElem?.1 hz
          obtain ⟨nn, -, hv⟩ := hok.2 j y rw' kz z hy hr' hkz
          exact List.mem_of_getElem? (hg2.ext.get hv)
      grow := hgrow1.trans (hg2.mono (fun _ h => h.elim) fun _ _ h => h)
      len := by simp [h.len]
      part := by rw [hv2]; exact hpart
      vert := by
        intro i x hx m v h1 h2 hv
        rw [hv2] at hv
        exact hvert i x hx m v h1 h2 hv
      joined := by
        intro i x hx h1
        rcases Nat.lt_or_ge i k with hi | hi
        · rw [List.getElem?_append_left (by rw [h.len]; exact hi)] at hx
          obtain ⟨j, t, hn, ht, hj⟩ := h.joined i x hx h1
          refine ⟨j, t, hn, ?_, hj.grow hext (hle j t ht) (hle i x hx)⟩
          rw [List.getElem?_append_left (List.getElem?_eq_some_iff.1 ht).1]
          exact ht
        · rw [List.getElem?_append_right (by rw [h.len]; exact hi), h.len] at hx
          obtain rfl : i = k := by
            have := (List.getElem?_eq_some_iff.1 hx).1
            simp at this; omega
          simp only [Nat.sub_self, List.getElem?_cons_zero, Option.some.injEq] at hx
          subst hx
          exact hjoin h1 }

/-! ## The loop -/

/-- A new planner at the beginning of `plan`. -/
def probStart (robot : Tree3) (quats : List Quat) (arena obs : List SuperQuadrics) (start goal : Vec) (par : Param3)
    (rigid : Bool) : Planner3 :=
  { Planner3.new robot quats arena obs start goal par rigid with par := { par with numSlice := 0 } }

theorem probStart_inv {rigid : Bool} (hr : Tree3.Inv base added robot) (hB : cspaceBoundary3 robot arena obs = .ok B)
    (hM : cspaceMesh arena obs B = .ok M) (segs : List (ℝ × FreeSeg)) :
    ProbInv L V A base added robot arena obs start goal par M segs 0
      (probStart robot quats arena obs start goal par rigid) := by
  obtain ⟨B', e, h1, h2, -⟩ := cspaceBoundary3_ok hr arena obs
  rw [hB] at e
  obtain rfl := (Res.ok.injEq _ _).mp e
  obtain ⟨M', e', h3, h4⟩ := cspaceMesh_ok h1 h2
  rw [hM] at e'
  obtain rfl := (Res.ok.injEq _ _).mp e'
  refine
    { inv := hr, fsr := rfl, earena := rfl, eobs := rfl, estart := rfl, egoal := rfl, epar := rfl, refine := rfl,
      shape := ?_, low := rfl, up := rfl, all := rfl, drawn := rfl, joints := by simp, q := rfl, v := rfl,
      mesh := by simp, swept := by simp, lines := by simp, bounds := ⟨rfl, fun b hb => nomatch hb⟩, good := by simp, placed := by simp, grow := .refl, len := rfl, part := rfl,
      vert := ?_, joined := ?_ }
  · rw [h3, h4, h1, h2]
    have := setup_shape par.numLineY ((1 + added.length) * arena.length) ((1 + added.length) * obs.length)
      par.zLo par.zHi
    simpa [probStart, Planner3.new, Fs3.setup, hr.num] using this
  · intro i x hx
    simp [probStart, Planner3.new] at hx
  · intro i x hx
    simp [probStart, Planner3.new] at hx

theorem ProbInv.setRes {segs : List (ℝ × FreeSeg)} {k : ℕ} {P : Planner3}
    (h : ProbInv L V A base added robot arena obs start goal par M segs k P) (res : SearchRes) :
    ProbInv L V A base added robot arena obs start goal par M segs k { P with res := res } :=
  { h with }

theorem reach_inv {rigid : Bool} (hV : V.arm = some A) (hr : Tree3.Inv base added robot)
    (hB : cspaceBoundary3 robot arena obs = .ok B) (hM : cspaceMesh arena obs B = .ok M)
    {segs : List (ℝ × FreeSeg)} (hsegs : segs = okList (sweep3D L par.zLo par.zHi M par.linesX par.linesY)) {k : ℕ}
    {P : Planner3} (h : ProbReach L V A (probStart robot quats arena obs start goal par rigid) k P) :
    ProbInv L V A base added robot arena obs start goal par M segs k P := by
  induction h with
  | start => exact probStart_inv hr hB hM segs
  | pass h _ h1 h2 ih =>
    obtain ⟨s, t, res, -, -, -, rfl⟩ := search3_ok h2
    exact (addSlice_inv hV hr hB hM hsegs ih h1).1.setRes res

theorem ProbInv.ok {segs : List (ℝ × FreeSeg)} {k : ℕ} {P : Planner3}
    (h : ProbInv L V A base added robot arena obs start goal par M segs k P) : P.graph.Ok (7 + A.nJ) :=
  h.grow.ok (fun _ h => h) ⟨by simp [Graph.empty], rfl, by simp [Graph.empty]⟩

/-- While no path has been found the search result is the initial one. -/
theorem reach_fresh {rigid : Bool} (hV : V.arm = some A) (hr : Tree3.Inv base added robot) (hpick : HeapTop L.pick)
    {k : ℕ} {P : Planner3} (h : ProbReach L V A (probStart robot quats arena obs start goal par rigid) k P)
    (hs : P.res.solved = false) : P.res = ⟨false, [], some 0⟩ := by
  obtain ⟨B, hB, b1, b2, -⟩ := cspaceBoundary3_ok hr arena obs
  obtain ⟨M, hM, -, -⟩ := cspaceMesh_ok b1 b2
  induction h with
  | start => rfl
  | @pass k P P1 P2 h h0 h1 h2 ih =>
    have hi := reach_inv hV hr hB hM rfl h
    obtain ⟨hi1, e⟩ := addSlice_inv hV hr hB hM rfl hi h1
    obtain ⟨s, t, res, n1, n2, hse, rfl⟩ := search3_ok h2
    rw [e, ih h0] at hse
    rcases (search_core hi1.ok hpick (nearest3DJ_ids n1) (nearest3DJ_ids n2) rfl (tot := False) (by simp)).1 res hse with
      ⟨e', -⟩ | ⟨_, _, _, _, _, _, _, _, _, _, L', hf⟩
    · exact e'
    · simp only at hs
      rw [hf.1] at hs
      exact nomatch hs

/-- Refining never returns. -/
theorem refineProb_not_ok {segs : List (ℝ × FreeSeg)} {k : ℕ} {r : PlanRep Planner3}
    (h : ProbInv L V A base added robot arena obs start goal par M segs k r.st) (hk : 0 < k)
    (hpos : 0 < M.arena.length + M.obstacle.length) (clock : ℕ → ℝ) (timeLim : ℝ) (r'' : PlanRep Planner3) :
    refineExist (probOps L V A).toPlanOps clock timeLim r ≠ .ok r'' := by
  intro hre
  unfold refineExist at hre
  obtain ⟨b, hre, -⟩ := Res.bind_eq_ok.1 hre
  have hns : (probOps L V A).toPlanOps.numSlice r.st = k := by
    change r.st.par.numSlice = k
    rw [h.epar]
  obtain ⟨m, rfl⟩ : ∃ m, k = m + 1 := ⟨k - 1, by omega⟩
  rw [hns, List.range_succ_eq_map] at hre
  unfold refineLoop timedBuild at hre
  obtain ⟨c, hre, -⟩ := Res.bind_eq_ok.1 hre
  obtain ⟨d, hre, -⟩ := Res.bind_eq_ok.1 hre
  change Planner3.refineSlice L V 0 (Planner3.beginRefine r.st) = .ok d at hre
  unfold Planner3.refineSlice at hre
  obtain ⟨P1, hq, -⟩ := Res.bind_eq_ok.1 hre
  unfold Planner3.constructOneSlice at hq
  obtain ⟨P2, h2, hq⟩ := Res.bind_eq_ok.1 hq
  obtain ⟨s, hs, -⟩ := Res.bind_eq_ok.1 hq
  unfold Planner3.placeSlice at h2
  obtain ⟨c, -, h2⟩ := Res.bind_eq_ok.1 h2
  obtain ⟨T, -, h2⟩ := Res.bind_eq_ok.1 h2
  rw [if_pos (by rfl)] at h2
  obtain ⟨b, -, h2⟩ := Res.bind_eq_ok.1 h2
  obtain ⟨m, -, h2⟩ := Res.bind_eq_ok.1 h2
  obtain rfl := (Res.ok.injEq _ _).mp h2
  have hmesh : r.st.fs.mesh = M := h.mesh hk
  obtain ⟨l1, l2⟩ := h.lines hk
  refine sweep3_not_ok (f := r.st.fs) (p := _) (n := par.numLineY) (by rw [hmesh]; exact h.shape) ?_ ?_
    (by rw [hmesh]; exact hpos) s hs
  · change 0 < 2 * r.st.par.numLineX
    rw [h.epar]
    change 0 < 2 * par.numLineX
    omega
  · change par.numLineY < 2 * r.st.par.numLineY
    rw [h.epar]
    change par.numLineY < 2 * par.numLineY
    omega

/-- The loop, when it returns, has made passes only, fewer than 60 (or without ever refining). -/
theorem probLoop_reach {rigid : Bool} (hV : V.arm = some A) (hr : Tree3.Inv base added robot)
    (hne : arena ≠ [] ∨ obs ≠ []) (clock : ℕ → ℝ) (timeLim : ℝ) (fuel : ℕ) :
    ∀ {s : PlanRep Planner3 × ℝ} {r' : PlanRep Planner3} {k : ℕ},
      ProbReach L V A (probStart robot quats arena obs start goal par rigid) k s.1.st →
      s.1.st.res.solved = false → (k < 60 ∨ par.numPoint = 0) →
      probLoop (probOps L V A) clock timeLim fuel s = some (.ok r') →
      ∃ k', k < k' ∧ ProbReach L V A (probStart robot quats arena obs start goal par rigid) k' r'.st ∧
        (k' < 60 ∨ par.numPoint = 0) := by
  obtain ⟨B, hB, b1, b2, -⟩ := cspaceBoundary3_ok hr arena obs
  obtain ⟨M, hM, m1, m2⟩ := cspaceMesh_ok b1 b2
  have hpos : 0 < M.arena.length + M.obstacle.length := by
    rw [m1, m2, b1, b2]
    rcases hne with hne | hne
    · have := List.length_pos_iff.2 hne
      positivity
    · have := List.length_pos_iff.2 hne
      positivity
  induction fuel with
  | zero => intro s r' k _ _ _ h; exact nomatch h
  | succ fuel ih =>
    intro s r' k hk hs hb h
    unfold probLoop at h
    cases hp : probPass (probOps L V A) clock timeLim s with
    | throw => rw [hp] at h; exact nomatch h
    | ub => rw [hp] at h; exact nomatch h
    | ok s' =>
      rw [hp] at h
      dsimp only at h
      unfold probPass at hp
      obtain ⟨P1, h1, hp⟩ := Res.bind_eq_ok.1 hp
      obtain ⟨P2, h2, hp⟩ := Res.bind_eq_ok.1 hp
      change s.1.st.addSlice L V A = .ok P1 at h1
      change P1.search L = .ok P2 at h2
      have hreach := ProbReach.pass hk hs h1 h2
      have hi := reach_inv hV hr hB hM rfl hreach
      dsimp only at hp
      split at hp
      · obtain ⟨r'', hre, -⟩ := Res.bind_eq_ok.1 hp
        exact absurd hre (refineProb_not_ok (r := _) (by exact hi) (by omega) hpos clock timeLim r'')
      · rename_i hw
        have hst : s'.1.st = P2 := by rw [← (Res.ok.injEq _ _).mp hp]
        have hb' : k + 1 < 60 ∨ par.numPoint = 0 := by
          simp only [probOps, decide_eq_true_eq, not_and, not_lt] at hw
          rw [hi.epar, hi.all] at hw
          simp only [List.length_nil, nonpos_iff_eq_zero] at hw
          rcases hb with hb | hb
          · rcases Nat.lt_or_ge (k + 1) 60 with h | h
            · exact Or.inl h
            · exact Or.inr (hw (by have : k + 1 = 60 := by omega
                                   rw [this]))
          · exact Or.inr hb
        split at h
        · rename_i hc
          obtain ⟨k', e1, e2, e3⟩ := ih (by rw [hst]; exact hreach) hc.1 hb' h
          exact ⟨k', by omega, e2, e3⟩
        · obtain rfl := (Res.ok.injEq _ _).mp (Option.some.inj h)
          exact ⟨k + 1, by omega, by rw [hst]; exact hreach, hb'⟩

/-- A call of `plan` on a new planner that returns consists of at least one pass. -/
theorem planProb_fresh {rigid : Bool} (hV : V.arm = some A) (hr : Tree3.Inv base added robot)
    (hne : arena ≠ [] ∨ obs ≠ []) {clock : ℕ → ℝ} {timeLim : ℝ} {fuel : ℕ} {r' : PlanRep Planner3}
    (h : Planner3.planProb L V A clock timeLim fuel (freshRep3 (.new robot quats arena obs start goal par rigid)) =
      some (.ok r')) :
    ∃ k, ProbReach L V A (probStart robot quats arena obs start goal par rigid) (k + 1) r'.st ∧
      (k + 1 < 60 ∨ par.numPoint = 0) ∧
      (r'.st.res.solved = true →
        getSolutionPath r'.st.graph r'.st.start r'.st.goal r'.st.res.pathId = .ok r'.solvedPath) ∧
      (r'.st.res.solved = true → r'.st.interpolated r'.solvedPath = .ok r'.interpolated) := by
  unfold Planner3.planProb probPlan at h
  rw [Option.map_eq_some_iff] at h
  obtain ⟨x, hx, h⟩ := h
  obtain ⟨r1, rfl, hf⟩ := Res.bind_eq_ok.1 h
  obtain ⟨e1, -, -, -, -, e6, -⟩ := finish_spec hf
  obtain ⟨k', h1, h2, h3⟩ := probLoop_reach (rigid := rigid) (quats := quats) (start := start) (goal := goal)
    (par := par) hV hr hne clock timeLim fuel (k := 0) (by exact .start) rfl (Or.inl (by norm_num)) hx
  obtain ⟨k, rfl⟩ : ∃ k, k' = k + 1 := ⟨k' - 1, by omega⟩
  refine ⟨k, by rw [e1]; exact h2, h3, fun hsol => ?_, fun hsol => ?_⟩
  · have := (e6 (by rw [← e1]; exact hsol)).1
    rw [e1]
    exact this
  · have := (e6 (by rw [← e1]; exact hsol)).2
    rw [e1]
    exact this

end Hrm
