import Verif.Props.ProbPlanner
import Verif.Props.Plan3DWitness

/-!
# Runs of the incremental spatial planner

The two kinds of calls that never return: with an
uninitialised nearest orientation (C52), and with the flag "rigid robot" set for a robot with joints (C76).
-/

namespace Hrm

open Matrix Classical

theorem joints_total (v : Vec) (n : ℕ) (h : v.length = 7 + n) : readJoints n v = .ok (v.drop 7) ∧
    jointsAt n v = .ok (v.drop 7) := by
  have h1 : ∀ i < n, Res.idx v (7 + i) = .ok (v.getD (7 + i) 0) := by
    intro i hi
    rw [Res.idx_eq_ok, List.getD_eq_getElem?_getD, List.getElem?_eq_getElem (by omega)]; rfl
  have h2 : ∀ i < n, Res.at' v (7 + i) = .ok (v.getD (7 + i) 0) := by
    intro i hi
    rw [Res.at'_eq_ok, List.getD_eq_getElem?_getD, List.getElem?_eq_getElem (by omega)]; rfl
  have h3 := appendLoop _ _ n h1 []
  have h4 := appendLoop _ _ n h2 []
  have h5 := (readJoints_ok h3).1
  have h6 := (jointsAt_ok h4).1
  rw [List.take_of_length_le (by simp; omega)] at h5 h6
  exact ⟨by rw [← h5]; exact h3, by rw [← h6]; exact h4⟩

theorem setTransformArm_total {base added} {T : Tree3} (hr : Tree3.Inv base added T) {A : Arm} (q0 : Quat) {js : Vec}
    (hjs : js.length = A.nJ) : ∃ T', setTransform3 (some A) T (conf7 0 0 0 q0 ++ js) = .ok T' ∧
      T'.base.quat = matQuat (quatRot q0) := by
  have hc7 : (conf7 0 0 0 q0 ++ js).length = 7 + A.nJ := by simp [conf7, hjs]; omega
  have h1 := (joints_total _ A.nJ hc7).1
  refine ⟨Tree3.posedArm base added (poseOf (conf7 0 0 0 q0 ++ js)) (A.fk js), ?_, ?_⟩
  · unfold setTransform3
    rw [quatOf_eq (by omega), Res.bind_ok', idx_coord (by omega), Res.bind_ok', idx_coord (by omega), Res.bind_ok',
      idx_coord (by omega), Res.bind_ok']
    dsimp only
    rw [h1, Res.bind_ok', show (conf7 0 0 0 q0 ++ js).drop 7 = js by simp [conf7]]
    exact hr.posedArm_eq _ _
  · have : quat (conf7 0 0 0 q0 ++ js) = q0 := by simp [quat, coord, conf7]
    change matQuat (quatRot (quat (conf7 0 0 0 q0 ++ js))) = _
    rw [this]

/-- A query with one slice, whatever junk the uninitialised orientation holds as long as it is near the slice. -/
theorem nearest3DJ_single {ang : Quat → Quat → ℝ} {jq q0 : Quat} {verts : List Vec} {q : Vec} {dim : ℕ} (hdim7 : 7 ≤ dim)
    {radius gx gy : ℝ} (hne : verts ≠ []) (hdim : ∀ v ∈ verts, v.length = dim) (hq : q.length = dim)
    (hr : ang jq q0 < radius)
    (hg : ∀ v ∈ verts, |coord q 0 - coord v 0| < gx ∧ |coord q 1 - coord v 1| < gy) :
    ∃ ids, nearest3DJ ang (some jq) [q0] verts q 1 radius gx gy = .ok ids ∧ ids ≠ [] := by
  obtain ⟨m, hm, hcase⟩ := closestQuat_spec ang q0 [] (quat q)
  have hm2 : m.2 = none := by
    rcases hcase with ⟨h, -⟩ | ⟨r, hr, -, h2, -⟩
    · exact h
    · obtain rfl := List.mem_singleton.1 hr
      exact absurd h2 (lt_irrefl _)
  obtain ⟨i, w, hw, -, hstep⟩ := nearestStep3D_spec ang hne hdim7 hdim hq gx gy q0
  refine ⟨[i], ?_, by simp⟩
  unfold nearest3DJ
  rw [quatOf_eq (by omega), Res.bind_ok', hm, Res.bind_ok', hm2]
  simp only [Option.none_or]
  rw [collectK_eq _ _ _ (by simp)]
  simp only [hr, List.nil_append, decide_true, List.filter_cons_of_pos, List.filter_nil]
  change Res.bind (nearestStep3D ang verts q gx gy [] q0) _ = _
  rw [hstep, if_pos (hg w (List.mem_of_getElem? hw))]
  rfl

/-- C52/C75: with the orientation left uninitialised (C52) modelled as undefined, no call on a new incremental planner
ever returns: the first search, with the start's own slice as the only one, reads it. -/
theorem C75_uninitialised_never_returns (L : Libs3) (V : Variant) (A : Arm) (hV : V.arm = some A) (hjunk : L.junk = none)
    (base : SuperQuadrics) (ops : List (RobotOp SuperQuadrics 3)) (robot : Tree3)
    (hrun : Tree3.run ops (Tree3.new base) = .ok robot) (quats : List Quat)
    (arena obs : List SuperQuadrics) (start goal : Vec) (par : Param3) (rigid : Bool) (clock : ℕ → ℝ)
    (timeLim : ℝ) (fuel : ℕ) (r' : PlanRep Planner3) :
    Planner3.planProb L V A clock timeLim fuel (freshRep3 (.new robot quats arena obs start goal par rigid)) ≠
      some (.ok r') := by
  intro h
  have hr := run_inv_of3 hrun
  obtain ⟨B, hB, b1, b2, -⟩ := cspaceBoundary3_ok hr arena obs
  obtain ⟨M, hM, -, -⟩ := cspaceMesh_ok b1 b2
  unfold Planner3.planProb probPlan at h
  rw [Option.map_eq_some_iff] at h
  obtain ⟨x, hx, h⟩ := h
  obtain ⟨r1, rfl, hf⟩ := Res.bind_eq_ok.1 h
  cases fuel with
  | zero => exact nomatch hx
  | succ fuel =>
    unfold probLoop at hx
    cases hp : probPass (probOps L V A) clock timeLim ({ freshRep3 (.new robot quats arena obs start goal par rigid) with
        st := probStart robot quats arena obs start goal par rigid, tick := 0 + 1 }, clock 0) with
    | throw => erw [hp] at hx; exact nomatch hx
    | ub => erw [hp] at hx; exact nomatch hx
    | ok s' =>
      unfold probPass at hp
      obtain ⟨P1, h1, hp⟩ := Res.bind_eq_ok.1 hp
      obtain ⟨P2, h2, hp⟩ := Res.bind_eq_ok.1 hp
      change (probStart robot quats arena obs start goal par rigid).addSlice L V A = .ok P1 at h1
      change P1.search L = .ok P2 at h2
      obtain ⟨hi, -⟩ := addSlice_inv hV hr hB hM rfl (probStart_inv hr hB hM _) h1
      have hq : P1.q = [(probSample L A start goal 0).1] := hi.q
      unfold Planner3.search at h2
      obtain ⟨ids, h2, -⟩ := Res.bind_eq_ok.1 h2
      unfold nearest3DJ at h2
      rw [hq, hjunk] at h2
      obtain ⟨qq, -, h2⟩ := Res.bind_eq_ok.1 h2
      obtain ⟨m, hm, h2⟩ := Res.bind_eq_ok.1 h2
      obtain ⟨m', hm', hcase⟩ := closestQuat_spec L.ang (probSample L A start goal 0).1 [] qq
      rw [hm] at hm'
      obtain rfl := (Res.ok.injEq _ _).mp hm'
      have hm2 : m.2 = none := by
        rcases hcase with ⟨h, -⟩ | ⟨r, hr, -, h2, -⟩
        · exact h
        · obtain rfl := List.mem_singleton.1 hr
          exact absurd h2 (lt_irrefl _)
      rw [hm2] at h2
      exact nomatch h2

/-! ## C76 – the flag "the robot is rigid" and the class of the planner have to agree -/

/-- C76: the incremental planner for a robot with joints, with the flag left at its default "rigid": no call of `plan`
on a new planner ever returns (the joint angles are read beyond the end of the configuration). -/
theorem C76_rigid_flag_with_joints (L : Libs3) (V : Variant) (A : Arm) (hV : V.arm = some A) (hJ : 0 < A.nJ)
    (robot : Tree3) (quats : List Quat) (arena obs : List SuperQuadrics) (start goal : Vec)
    (par : Param3) (clock : ℕ → ℝ) (timeLim : ℝ) (fuel : ℕ) (r' : PlanRep Planner3) :
    Planner3.planProb L V A clock timeLim fuel (freshRep3 (.new robot quats arena obs start goal par true)) ≠
      some (.ok r') := by
  intro h
  unfold Planner3.planProb probPlan at h
  rw [Option.map_eq_some_iff] at h
  obtain ⟨x, hx, h⟩ := h
  obtain ⟨r1, rfl, hf⟩ := Res.bind_eq_ok.1 h
  cases fuel with
  | zero => exact nomatch hx
  | succ fuel =>
    unfold probLoop at hx
    cases hp : probPass (probOps L V A) clock timeLim ({ freshRep3 (.new robot quats arena obs start goal par true) with
        st := probStart robot quats arena obs start goal par true, tick := 0 + 1 }, clock 0) with
    | throw => erw [hp] at hx; exact nomatch hx
    | ub => erw [hp] at hx; exact nomatch hx
    | ok s' =>
      unfold probPass at hp
      obtain ⟨P1, h1, hp⟩ := Res.bind_eq_ok.1 hp
      change (probStart robot quats arena obs start goal par true).addSlice L V A = .ok P1 at h1
      unfold Planner3.addSlice at h1
      obtain ⟨P2, hs, h1⟩ := Res.bind_eq_ok.1 h1
      obtain ⟨P3, hc, h1⟩ := Res.bind_eq_ok.1 h1
      unfold Planner3.sampleProb at hs
      obtain ⟨s, -, hs⟩ := Res.bind_eq_ok.1 hs
      obtain rfl := (Res.ok.injEq _ _).mp hs
      unfold Planner3.constructOneSlice at hc
      obtain ⟨P4, hp, hc⟩ := Res.bind_eq_ok.1 hc
      unfold Planner3.placeSlice at hp
      obtain ⟨c, hcf, hp⟩ := Res.bind_eq_ok.1 hp
      obtain ⟨T, hT, hp⟩ := Res.bind_eq_ok.1 hp
      unfold Planner3.sliceConf at hcf
      rw [if_pos (by rfl)] at hcf
      obtain ⟨q, -, hcf⟩ := Res.bind_eq_ok.1 hcf
      obtain rfl := (Res.ok.injEq _ _).mp hcf
      rw [hV] at hT
      unfold setTransform3 at hT
      obtain ⟨_, -, hT⟩ := Res.bind_eq_ok.1 hT
      obtain ⟨_, -, hT⟩ := Res.bind_eq_ok.1 hT
      obtain ⟨_, -, hT⟩ := Res.bind_eq_ok.1 hT
      obtain ⟨_, -, hT⟩ := Res.bind_eq_ok.1 hT
      obtain ⟨js, hj, hT⟩ := Res.bind_eq_ok.1 hT
      obtain ⟨e, hl⟩ := readJoints_ok hj
      rw [e] at hl
      simp at hl
      omega

/-- C76: the planner for a rigid body with the flag "not rigid" throws `std::out_of_range` as soon as there is one slice
to make. -/
theorem C76_nonrigid_flag_throws (L : Libs3) (V : Variant) (robot : Tree3) (quats : List Quat)
    (arena obs : List SuperQuadrics) (start goal : Vec) (par : Param3) (hn : quats ≠ [] ∨ 0 < par.numSlice)
    (clock : ℕ → ℝ) (timeLim : ℝ) (fuel : ℕ) :
    Planner3.plan L V clock timeLim fuel (freshRep3 (.new robot quats arena obs start goal par false)) =
      some .throw := by
  set P0 := Planner3.new robot quats arena obs start goal par false with hP0
  have hn' : 0 < (P0.sampleSO3 L).par.numSlice := by
    unfold Planner3.sampleSO3
    have e1 : P0.quatSamples = quats := rfl
    rw [e1]
    split
    · rename_i hq
      rcases hn with hn | hn
      · exact absurd hq hn
      · exact hn
    · rename_i hq
      exact List.length_pos_iff.2 hq
  have hb : P0.build L V = .throw := by
    unfold Planner3.build
    obtain ⟨n, hn⟩ : ∃ n, (P0.sampleSO3 L).par.numSlice = n + 1 := ⟨_, (Nat.succ_pred_eq_of_pos hn').symm⟩
    have hv : (P0.sampleSO3 L).v = [] := (sampleSO3_same (L := L) P0).2.2.2.2.2.2.2.2.2.2.2.2.2.2.1
    have hrg : (P0.sampleSO3 L).rigid = false := (sampleSO3_same (L := L) P0).2.2.2.2.2.2.1
    dsimp only
    rw [hn, List.range_succ_eq_map, List.foldlM_cons]
    have : (P0.sampleSO3 L).constructOneSlice L V 0 = .throw := by
      unfold Planner3.constructOneSlice Planner3.placeSlice Planner3.sliceConf
      rw [hrg, hv]
      rfl
    rw [this]
    rfl
  have ht : timedBuild clock (planner3Ops L V).build (freshRep3 P0) = .throw := by
    unfold timedBuild
    change Res.bind (P0.build L V) _ = _
    rw [hb]
    rfl
  unfold Planner3.plan Hrm.plan
  rw [ht]
  rfl

/-! ## C72 – planning again with the same incremental planner -/

/-- C72 (incremental planner): `plan` sets the number of slices back to 0 but keeps the sampled configurations of
earlier calls. So in a later call pass `i` (as long as there are old configurations) draws a new sample, but gives the
vertices of its slice the orientation of the *old* sample `i` together with the joint angles of the *new* one: whenever
the two differ the vertices belong to no sampled configuration. -/
theorem C72_incremental_mixes_samples (L : Libs3) (V : Variant) (A : Arm) (hV : V.arm = some A)
    {base : SuperQuadrics} {added : List SuperQuadrics} (P Q : Planner3) (hr : Tree3.Inv base added P.robot)
    (hdims : ∀ w ∈ P.graph.vertex, w.length = 7 + A.nJ) (hrig : P.rigid = false) (hif : P.isRefine = false) (h2 : 2 ≤ P.par.numSlice) (old : Vec)
    (hold : P.v[P.par.numSlice]? = some old) (h : P.addSlice L V A = .ok Q) (m : ℕ) (v : Vec)
    (hm : P.graph.vertex.length ≤ m) (hv : Q.graph.vertex[m]? = some v) :
    let q := matQuat (quatRot (quatPart old))
    v.drop 3 = [q.1, q.2.1, q.2.2.1, q.2.2.2] ++ (List.range A.nJ).map (L.randJoint P.drawn) := by
  intro q
  unfold Planner3.addSlice at h
  obtain ⟨P1, hs, h⟩ := Res.bind_eq_ok.1 h
  obtain ⟨P2, hc, h⟩ := Res.bind_eq_ok.1 h
  have hlt : P.par.numSlice < P.v.length := (List.getElem?_eq_some_iff.1 hold).1
  set js := (List.range A.nJ).map (L.randJoint P.drawn) with hjs
  unfold Planner3.sampleProb at hs
  rw [if_neg (by omega), if_neg (by omega), Res.bind_ok'] at hs
  obtain rfl := (Res.ok.injEq _ _).mp hs
  dsimp only at hc
  unfold Planner3.constructOneSlice at hc
  obtain ⟨P3, hp, hc⟩ := Res.bind_eq_ok.1 hc
  obtain ⟨s, hsw, hc⟩ := Res.bind_eq_ok.1 hc
  obtain ⟨js', hj, hc⟩ := Res.bind_eq_ok.1 hc
  obtain ⟨r, hcs, hc⟩ := Res.bind_eq_ok.1 hc
  obtain rfl := (Res.ok.injEq _ _).mp hc
  unfold Planner3.placeSlice at hp
  obtain ⟨c, hcf, hp⟩ := Res.bind_eq_ok.1 hp
  obtain ⟨T, hT, hp⟩ := Res.bind_eq_ok.1 hp
  rw [if_neg (by simp [hif])] at hp
  obtain ⟨B, -, hp⟩ := Res.bind_eq_ok.1 hp
  obtain ⟨M, -, hp⟩ := Res.bind_eq_ok.1 hp
  obtain rfl := (Res.ok.injEq _ _).mp hp
  unfold Planner3.sliceConf at hcf
  rw [if_neg (by simp [hrig]), Res.at'_eq_ok, List.getElem?_append_left hlt, hold] at hcf
  obtain rfl := Option.some.inj hcf
  rw [hV] at hT
  obtain ⟨rfl, -, -⟩ := setTransformArm_ok hr hT
  unfold Planner3.sliceJoints at hj
  simp only [hV, List.getLast?_append, List.getLast?_singleton, Option.some_or] at hj
  obtain rfl : js' = js := ((Res.ok.injEq _ _).mp hj).symm
  have hvd : ∀ v : Vec, 3 ≤ v.length ∧ v.drop 3 = [q.1, q.2.1, q.2.2.1, q.2.2.2] ++ js → v.length = 7 + A.nJ := by
    rintro v ⟨l, e⟩
    have := congrArg List.length e
    simp [hjs] at this
    omega
  have hsat := (constructSlice3D_satB (tot := False) (dim := 7 + A.nJ) (free := sameFree3 M.obstacle)
    (Vp := fun v => 3 ≤ v.length ∧ v.drop 3 = [q.1, q.2.1, q.2.2.1, q.2.2.2] ++ js)
    (Vb := fun v => 3 ≤ v.length ∧ v.drop 3 = [q.1, q.2.1, q.2.2.1, q.2.2.2] ++ js)
    (Acc := fun _ _ => True)
    { acc := fun _ _ _ _ _ _ => trivial
      vdim := hvd
      total := fun h => h.elim
      three := fun h => h.elim
      bridge := by
        rintro v1 v2 v z ⟨l1, s1⟩ ⟨l2, s2⟩ - (⟨-, rfl⟩ | ⟨-, rfl⟩) - -
        · exact ⟨by simpa using l1, by rw [List.drop_set_of_lt (by omega)]; exact s1⟩
        · exact ⟨by simpa using l2, by rw [List.drop_set_of_lt (by omega)]; exact s2⟩ }
    (fun _ h => h) (mk := mkVertex q js) (planes := s.2)
    (by
      rintro p hp v ⟨j, y, r, z, h1, h2, h3, rfl⟩
      simp [mkVertex])
    (fun _ _ _ _ _ => trivial) (fun h => h.elim) P.graph).1 r hcs
  have hd : ∀ w ∈ r.1.vertex, w.length = 7 + A.nJ := by
    intro w hw
    obtain ⟨n, hn⟩ := List.mem_iff_getElem?.1 hw
    rcases Nat.lt_or_ge n P.graph.vertex.length with hlt | hge
    · have := hsat.1.ext.get (List.getElem?_eq_getElem hlt)
      rw [this] at hn
      obtain rfl := Option.some.inj hn
      exact hdims _ (List.getElem_mem _)
    · exact hvd _ (hsat.1.newVertex hn hge)
  have hgr : Q.graph.vertex = r.1.vertex := by
    dsimp only at h
    rw [hif] at h
    simp only [Bool.false_eq_true, if_false] at h
    rw [if_pos (by omega)] at h
    unfold Planner3.connectProb at h
    split at h
    · exact nomatch h
    · obtain ⟨ds, -, h⟩ := Res.bind_eq_ok.1 h
      obtain ⟨g', hg', h⟩ := Res.bind_eq_ok.1 h
      obtain rfl := (Res.ok.injEq _ _).mp h
      dsimp only at hg' ⊢
      exact ((probConnect_sat (tot := False) (dim := 7 + A.nJ) (Acc := fun _ _ => True)
        (by exact hd)
        (by intros; trivial) (fun h => h.elim)).1 _ hg').1.noVertex
  rw [hgr] at hv
  exact (hsat.1.newVertex hv hm).2

end Hrm
