import Verif.Props.DemoProb
import Verif.Props.DemoWitness
import Verif.Props.ProbRun

/-!
# C97: runs of the demonstration program for articulated robots

Concrete files for which the program gets as far as planning (so that its behaviour is undefined), and, with the flag of
the tests, plans a path and stores it. As in C96 the surfaces are sampled with one point.
-/

namespace Hrm

open Classical

noncomputable def exArena97 : SuperQuadrics := ⟨10, 10, 10, 1, 1, ![5, 5, 5], (1, 0, 0, 0), 1⟩
noncomputable def exObs97 : SuperQuadrics := ⟨2, 2, 2, 1, 1, ![5, 5, 5], (1, 0, 0, 0), 1⟩
/-- Start and goal of the example. -/
noncomputable def exStart97 : Vec := conf7 1 1 5 exQ0 ++ [0, 0, 0]
noncomputable def exGoal97 : Vec := conf7 1 10 5 exQ0 ++ [0, 0, 0]
/-- The parameters the program derives. -/
noncomputable def exPar97 : Param3 := ⟨0, 2, 2, 5, 10, hrmPi / 2, 1, 9, 1, 9, 1, 9⟩

theorem exPar97_lines : exPar97.linesX = [1, 9] ∧ exPar97.linesY = [1, 9] := by
  constructor
  · simp only [Param3.linesX, exPar97, show List.range 2 = [0, 1] from rfl, List.map_cons, List.map_nil]
    norm_num
  · simp only [Param3.linesY, exPar97, show List.range 2 = [0, 1] from rfl, List.map_cons, List.map_nil]
    norm_num

theorem exPar97_derived : defineParameters3 (Tree3.new exBody96) [] [exArena97] [exObs97] defaultParam3 =
    .ok exPar97 := by
  have hm : computeObstacleMinSize ([exObs97].map (·.semi)) = .ok 2 := by
    simp [computeObstacleMinSize, Res.at', exObs97, SuperQuadrics.semi]
  have hq : quotient (exArena97.a - 6 / 5 * (Tree3.new exBody96).base.a) 2 = .ok 2 := by
    unfold quotient
    rw [if_neg (by norm_num)]
    norm_num [exArena97, exBody96, Tree3.new]
  have hf : floorToIndex 2 = .ok 2 := by
    have h : ⌊(2 : ℝ)⌋ = 2 := by norm_num
    unfold floorToIndex
    rw [h, if_pos (by norm_num)]; rfl
  unfold defineParameters3
  simp only [Res.at', List.getElem?_cons_zero, Res.bind_ok']
  have h0 : defaultParam3.numLineX = 0 ∨ defaultParam3.numLineY = 0 := Or.inl rfl
  rw [if_pos h0, hm, Res.bind_ok']
  change (quotient (exArena97.a - 6 / 5 * (Tree3.new exBody96).base.a) 2).bind _ = _
  rw [hq, Res.bind_ok', hf, Res.bind_ok']
  change (quotient (exArena97.a - 6 / 5 * (Tree3.new exBody96).base.a) 2).bind _ = _
  rw [hq, Res.bind_ok', hf, Res.bind_ok']
  congr 1
  norm_num [exPar97, defaultParam3, exArena97, exBody96, Tree3.new]
  have h2 : (![5, 5, 5] : Fin 3 → ℝ) 2 = 5 := rfl
  rw [h2]; norm_num

/-! ## The search for neighbours with one orientation -/

theorem nearest3DJ_one {ang : Quat → Quat → ℝ} {jq q0 : Quat} {verts : List Vec} {q v : Vec} {n k i : ℕ} {radius gx gy : ℝ}
    (hrad : ang jq q0 < radius) (hn : 7 ≤ n) (hk : 0 < k) (hd : ∀ v ∈ verts, v.length = n) (hq : q.length = n)
    (hv : verts[i]? = some v) (hs : ang q0 (quat v) < 1 / 10 ^ 6)
    (huniq : ∀ (j : ℕ) (w : Vec), verts[j]? = some w → euclid q w ≤ euclid q v → j = i)
    (hx : |coord q 0 - coord v 0| < gx) (hy : |coord q 1 - coord v 1| < gy) :
    nearest3DJ ang (some jq) [q0] verts q k radius gx gy = .ok [i] := by
  obtain ⟨m, hm, hcase⟩ := closestQuat_spec ang q0 [] (quat q)
  have hm2 : m.2 = none := by
    rcases hcase with ⟨h, -⟩ | ⟨r, hr, -, h2, -⟩
    · exact h
    · obtain rfl := List.mem_singleton.1 hr
      exact absurd h2 (lt_irrefl _)
  have hvm := List.mem_of_getElem? hv
  obtain ⟨j, w, hw, hcl, hstep⟩ := nearestStep3D_spec ang (verts := verts) (List.ne_nil_of_mem hvm) hn hd hq gx gy q0
  have hji : j = i := by
    rcases hcl with ⟨w', h1, -, h3⟩ | ⟨-, h⟩
    · rw [hw] at h1
      obtain rfl := Option.some.inj h1
      exact huniq j w hw (h3 v hvm hs)
    · exact absurd hs (h v hvm)
  subst hji
  rw [hv] at hw
  obtain rfl := Option.some.inj hw
  unfold nearest3DJ
  rw [quatOf_eq (by omega), Res.bind_ok', hm, Res.bind_ok', hm2]
  simp only [Option.none_or]
  rw [collectK_eq _ _ _ (by simpa using hk)]
  simp only [hrad, List.nil_append, decide_true, List.filter_cons_of_pos, List.filter_nil, List.length_nil, Nat.sub_zero]
  rw [List.take_of_length_le (show [q0].length ≤ k from hk)]
  change Res.bind (nearestStep3D ang verts q gx gy [] q0) _ = _
  rw [hstep, if_pos ⟨hx, hy⟩]
  rfl

/-! ## The run -/

/-- The roadmap of the example. -/
noncomputable def exGraph97 (s : Quat) (js : Vec) : Graph :=
  ⟨[conf7 1 1 5 s ++ js, conf7 1 9 5 s ++ js, conf7 9 1 5 s ++ js, conf7 9 9 5 s ++ js],
    [(0, 1), (2, 3), (0, 2), (1, 3)], [8, 8, 8, 8]⟩

theorem exGraph97_mem {s : Quat} {js v : Vec} (h : v ∈ (exGraph97 s js).vertex) :
    ∃ x ∈ [(1 : ℝ), 9], ∃ y ∈ [(1 : ℝ), 9], v = conf7 x y 5 s ++ js := by
  simp only [exGraph97, List.mem_cons, List.not_mem_nil, or_false] at h
  rcases h with rfl | rfl | rfl | rfl
  · exact ⟨_, by simp, _, by simp, rfl⟩
  · exact ⟨_, by simp, _, by simp, rfl⟩
  · exact ⟨_, by simp, _, by simp, rfl⟩
  · exact ⟨_, by simp, _, by simp, rfl⟩

theorem sqrt_64 : Real.sqrt 64 = 8 := by
  rw [show (64 : ℝ) = 8 ^ 2 by norm_num]
  exact Real.sqrt_sq (by norm_num)

theorem exGraph97_edges (s : Quat) (js : Vec) : euclid (conf7 1 1 5 s ++ js) (conf7 1 9 5 s ++ js) = 8 ∧
    euclid (conf7 9 1 5 s ++ js) (conf7 9 9 5 s ++ js) = 8 ∧ euclid (conf7 1 1 5 s ++ js) (conf7 9 1 5 s ++ js) = 8 ∧
    euclid (conf7 1 9 5 s ++ js) (conf7 9 9 5 s ++ js) = 8 := by
  refine ⟨?_, ?_, ?_, ?_⟩ <;> rw [euclid_arm] <;> norm_num [sqrt_64]

theorem exGraph97_ok (s : Quat) (js : Vec) : (exGraph97 s js).Ok (7 + js.length) := by
  obtain ⟨k1, k2, k3, k4⟩ := exGraph97_edges s js
  refine ⟨?_, rfl, ?_⟩
  · intro v hv
    obtain ⟨x, -, y, -, rfl⟩ := exGraph97_mem hv
    simp [conf7]; omega
  · intro k e w he hw
    match k with
    | 0 =>
      obtain rfl := Option.some.inj he
      obtain rfl := Option.some.inj hw
      exact ⟨_, _, rfl, rfl, k1.symm⟩
    | 1 =>
      obtain rfl := Option.some.inj he
      obtain rfl := Option.some.inj hw
      exact ⟨_, _, rfl, rfl, k2.symm⟩
    | 2 =>
      obtain rfl := Option.some.inj he
      obtain rfl := Option.some.inj hw
      exact ⟨_, _, rfl, rfl, k3.symm⟩
    | 3 =>
      obtain rfl := Option.some.inj he
      obtain rfl := Option.some.inj hw
      exact ⟨_, _, rfl, rfl, k4.symm⟩
    | k + 4 => exact nomatch he

/-- The query at start or goal returns the vertex next to it. -/
theorem near97 {ang : Quat → Quat → ℝ} {jq s : Quat} (hrad : ang jq exQ0 < hrmPi / 2) (hs : ang exQ0 s < 1 / 10 ^ 6) (y : ℝ) (i : ℕ)
    (hi : i = 0 ∧ y = 1 ∨ i = 1 ∧ y = 10) : nearest3DJ ang (some jq) [exQ0] (exGraph97 s [0, 0, 0]).vertex
      (conf7 1 y 5 exQ0 ++ [0, 0, 0]) 10 (hrmPi / 2) (hrmPi / 2 * (9 - 1) / (2 : ℕ)) (hrmPi / 2 * (9 - 1) / (2 : ℕ)) = .ok [i] := by
  have hquat : ∀ x y : ℝ, quat (conf7 x y 5 s ++ [0, 0, 0]) = s := by intro x y; simp [quat, coord, conf7]
  refine nearest3DJ_one (n := 10) (v := conf7 1 (if i = 0 then 1 else 9) 5 s ++ [0, 0, 0]) hrad (by norm_num) (by norm_num)
    (exGraph97_ok s [0, 0, 0]).dims rfl ?_ (by rw [hquat]; exact hs) ?_ ?_ ?_
  · rcases hi with ⟨rfl, -⟩ | ⟨rfl, -⟩
    · rfl
    · rfl
  · intro j w hw hle
    have hk4 : j < 4 := by simpa [exGraph97] using (List.getElem?_eq_some_iff.1 hw).1
    have hj : j = 0 ∨ j = 1 ∨ j = 2 ∨ j = 3 := by omega
    rcases hj with e | e | e | e <;> subst e <;> obtain rfl := Option.some.inj hw <;>
      rw [euclid_arm, euclid_arm, Real.sqrt_le_sqrt_iff (by positivity)] at hle <;>
      rcases hi with ⟨rfl, rfl⟩ | ⟨rfl, rfl⟩ <;> first | rfl | (exfalso; norm_num at hle)
  · norm_num [coord, conf7, hrmPi]
  · rcases hi with ⟨rfl, rfl⟩ | ⟨rfl, rfl⟩ <;> norm_num [coord, conf7, hrmPi]

/-- The planner the program constructs in the example, with the flag of the tests, solves its task, whatever the
kinematics (with three joints), provided the uninitialised orientation (C52) happens to be near the slice. -/
theorem plan97 (L : Libs3) (hpick : HeapTop L.pick) (A : Arm) (hA : A.nJ = 3) (jq : Quat) (hjunk : L.junk = some jq)
    (hrad : L.ang jq exQ0 < hrmPi / 2) (hnear : ∀ s, SameRotation s exQ0 → L.ang exQ0 s < 1 / 10 ^ 6) (clock : ℕ → ℝ)
    (timeLim : ℝ) :
    ∃ r', Planner3.planProb L ⟨some A, none⟩ A clock timeLim 1 (freshRep3 (.new (Tree3.new exBody96) [] [exArena97] [exObs97]
      exStart97 exGoal97 exPar97 false)) = some (.ok r') ∧ r'.st.res.solved = true ∧ r'.st.graph.vertex.length = 4 ∧
      4 ≤ r'.solvedPath.length := by
  set V : Variant := ⟨some A, none⟩ with hVd
  have hV : V.arm = some A := rfl
  set robot := Tree3.new exBody96 with hrob
  have hrun : Tree3.run [] (Tree3.new exBody96) = .ok robot := rfl
  have hr := run_inv_of3 hrun
  set js : Vec := [0, 0, 0] with hjse
  have hjs : js.length = A.nJ := by rw [hA]; rfl
  have hu : exQ0.Unit := by norm_num [Quat.Unit, exQ0]
  obtain ⟨B, hB, b1, b2, b3, b4⟩ := cspaceBoundary3_ok hr [exArena97] [exObs97]
  obtain ⟨M, hM, m1, m2⟩ := cspaceMesh_ok b1 b2
  have hface : gridFaces 1 = [] := by decide
  have hmesh : ∀ m ∈ M.arena ++ M.obstacle, m.vertices ≠ [] ∧ m.faces = [] := by
    have hM' := hM
    unfold cspaceMesh at hM'
    obtain ⟨A, h1, hM'⟩ := Res.bind_eq_ok.1 hM'
    obtain ⟨O, h2, hM'⟩ := Res.bind_eq_ok.1 hM'
    obtain rfl := (Res.ok.injEq _ _).mp hM'
    rw [boundMeshes_eq (o := exArena97) rfl] at h1
    rw [boundMeshes_eq (o := exObs97) rfl] at h2
    obtain rfl := (Res.ok.injEq _ _).mp h1
    obtain rfl := (Res.ok.injEq _ _).mp h2
    intro m hm
    rcases List.mem_append.1 hm with hm | hm
    · obtain ⟨b, hb, rfl⟩ := List.mem_map.1 hm
      refine ⟨?_, hface⟩
      obtain ⟨o, ho, hl⟩ := b3 b hb
      obtain rfl := List.mem_singleton.1 ho
      intro e
      have e' : b.map toV3 = [] := e
      rw [List.map_eq_nil_iff] at e'
      rw [e'] at hl
      simp [SuperQuadrics.minkSum3D, exArena97] at hl
    · obtain ⟨b, hb, rfl⟩ := List.mem_map.1 hm
      refine ⟨?_, hface⟩
      obtain ⟨o, ho, hl⟩ := b4 b hb
      obtain rfl := List.mem_singleton.1 ho
      intro e
      have e' : b.map toV3 = [] := e
      rw [List.map_eq_nil_iff] at e'
      rw [e'] at hl
      simp [SuperQuadrics.minkSum3D, exObs97] at hl
  have hMne : M.arena ≠ [] := by
    intro e; rw [e] at m1; rw [b1] at m1; simp [addedBodies] at m1
  have hmiss : ∀ (x y : ℝ), ∀ m ∈ M.arena ++ M.obstacle, vertLineMesh triTol (vertical x y 0) m = .ok [] :=
    fun x y m hm => vertLineMesh_noface (hmesh m hm).1 (hmesh m hm).2 _
  have hgood : ∀ x ∈ exPar97.linesX, ∀ y ∈ exPar97.linesY, ∀ s ∈ M.arena ++ M.obstacle, GoodHit isect3 (x, y) s := by
    intro x _ y _ s hs
    refine ⟨[], ?_, by simp⟩
    unfold isect3
    rw [hmiss x y s hs]; rfl
  obtain ⟨hlx, hly⟩ := exPar97_lines
  set par := exPar97 with hpar
  set segs : List (ℝ × FreeSeg) := [(1, ⟨[1, 9], [⟨[1], [9], [5]⟩, ⟨[1], [9], [5]⟩]⟩), (9, ⟨[1, 9], [⟨[1], [9], [5]⟩, ⟨[1], [9], [5]⟩]⟩)]
    with hsg
  have hz : ((1 : ℝ) + 9) / 2 = 5 := by norm_num
  have hplane : ∀ x, planeSeg L par.zLo par.zHi M [1, 9] x =
      .ok ⟨[1, 9], [⟨[1], [9], [5]⟩, ⟨[1], [9], [5]⟩]⟩ := by
    intro x
    have := planeSeg_missed L 1 9 (by norm_num) M hMne x 1 9 (fun m hm y _ => hmiss x y m hm)
    rwa [hz] at this
  have hsegs : sweep3D L par.zLo par.zHi M par.linesX par.linesY = .ok segs := by
    rw [hlx, hly]
    unfold sweep3D
    simp only [List.foldlM_cons, List.foldlM_nil, hplane, Res.bind_ok', Res.bind_ok, List.nil_append, List.cons_append]
    rfl
  have hsamefree : ∀ a b : Vec, 3 ≤ a.length → 3 ≤ b.length → sameFree3 M.obstacle a b = .ok true := by
    intro a b ha hb
    have hs : ∀ v : Vec, 3 ≤ v.length → ∃ p, spatial v = .ok p := by
      intro v hv
      obtain ⟨x, y, z, t, rfl⟩ : ∃ x y z t, v = x :: y :: z :: t := by
        match v, hv with
        | x :: y :: z :: t, _ => exact ⟨x, y, z, t, rfl⟩
      exact ⟨_, rfl⟩
    obtain ⟨p, hp⟩ := hs a ha
    obtain ⟨q, hq⟩ := hs b hb
    unfold sameFree3
    rw [hp, Res.bind_ok', hq, Res.bind_ok']
    have : ∀ m ∈ M.obstacle, segHitsMesh triTol axisTol p q m = .ok false := by
      intro m hm
      unfold segHitsMesh
      rw [lineMesh_noface (hmesh m (List.mem_append_right _ hm)).1 (hmesh m (List.mem_append_right _ hm)).2]
      rfl
    unfold sameSliceFree3D
    rw [noneOf_total (q := fun _ => false) _ this]
    simp
  set cf := exStart97 with hcf
  set gl := exGoal97 with hgl
  have hcl : cf.length = 7 + A.nJ := by rw [hA]; rfl
  have hgll : gl.length = 7 + A.nJ := by rw [hA]; rfl
  have hdrop : cf.drop 7 = js := rfl
  set P0 := probStart robot [] [exArena97] [exObs97] cf gl par false with hP0
  have hi0 : ProbInv L V A exBody96 (addedBodies []) robot [exArena97] [exObs97] cf gl par M segs 0 P0 :=
    probStart_inv hr hB hM segs
  have hsamp : P0.sampleProb L A = .ok { P0 with q := [exQ0], drawn := 0, v := [conf7 0 0 0 exQ0 ++ js] } := by
    have h1 : quatAt cf = .ok exQ0 := rfl
    have h2 := (joints_total cf A.nJ hcl).2
    rw [hdrop] at h2
    unfold Planner3.sampleProb
    change ((quatAt cf).bind fun q => (jointsAt A.nJ cf).bind fun js => (.ok (q, js, 0) : Res (Quat × Vec × ℕ))).bind _ = _
    rw [h1, Res.bind_ok', h2, Res.bind_ok', Res.bind_ok']
    rfl
  set P1 : Planner3 := { P0 with q := [exQ0], drawn := 0, v := [conf7 0 0 0 exQ0 ++ js] } with hP1
  obtain ⟨T, hT, hTq⟩ : ∃ T, setTransform3 V.arm P1.robot (conf7 0 0 0 exQ0 ++ js) = .ok T ∧
      T.base.quat = matQuat (quatRot exQ0) := by
    rw [hV]
    exact setTransformArm_total hr exQ0 hjs
  have hplace : P1.placeSlice V 0 = .ok
      { P1 with robot := T, fs := { P1.fs with mesh := M }, sliceBound := B,
                sliceBoundAll := [B], sliceMesh := M, sliceMeshAll := [M] } := by
    unfold Planner3.placeSlice Planner3.sliceConf
    change (Res.at' [conf7 0 0 0 exQ0 ++ js] 0).bind _ = _
    rw [Res.at'_eq_ok.2 rfl, Res.bind_ok', hT, Res.bind_ok']
    have c1 : P1.isRefine = false := rfl
    have c2 : cspaceBoundary3 P1.fs.robot P1.arena P1.obs = .ok B := hB
    have c3 : cspaceMesh P1.arena P1.obs B = .ok M := hM
    simp only [c1, Bool.false_eq_true, if_false, c2, c3, Res.bind_ok']
    rfl
  obtain ⟨t, -, hsw⟩ := sweep3_total (L := L) (p := P1.par) (f := { P1.fs with mesh := M }) (segs := segs)
    (by rw [hP1, hP0]; simp [probStart, hpar, exPar97]) (by rw [hP1, hP0]; simp [probStart, hpar, exPar97])
    (by exact hi0.shape) hgood hsegs
  set s := matQuat (quatRot exQ0) with hs0
  have hsame : SameRotation s exQ0 := sameRotation_matQuat hu
  have hcs : constructSlice3D (sameFree3 M.obstacle) (mkVertex s js) segs .empty = .ok (exGraph97 s js, ⟨0, 4, [[0, 1], [2, 3]]⟩) := by
    have hcs := slice_all_free (free := sameFree3 M.obstacle) (mk := mkVertex s js) (x0 := 1) (x1 := 9) (y0 := 1) (y1 := 9)
      (z := 5) (l := 1) (u := 9) (w := euclid)
      (by intro x _ y _ x' _ y' _; exact vectorEuclidean_eq (by simp [mkVertex]))
      (by intro x _ y _ x' _ y' _; exact hsamefree _ _ (by simp [mkVertex]) (by simp [mkVertex]))
    rw [hsg, hcs]
    obtain ⟨k1, k2, k3, k4⟩ := exGraph97_edges s js
    have k1' : euclid (mkVertex s js 1 1 5) (mkVertex s js 1 9 5) = 8 := k1
    have k2' : euclid (mkVertex s js 9 1 5) (mkVertex s js 9 9 5) = 8 := k2
    have k3' : euclid (mkVertex s js 1 1 5) (mkVertex s js 9 1 5) = 8 := k3
    have k4' : euclid (mkVertex s js 1 9 5) (mkVertex s js 9 9 5) = 8 := k4
    rw [k1', k2', k3', k4']
    rfl
  have hadd : ∃ P2, P0.addSlice L V A = .ok P2 ∧ P2.graph = exGraph97 s js ∧ P2.q = [exQ0] ∧ P2.start = cf ∧ P2.goal = gl ∧
      P2.par = { par with numSlice := 1 } ∧ P2.res = ⟨false, [], some 0⟩ ∧ P2.vertexIdxAll = [] := by
    have hcon : P1.constructOneSlice L V 0 = .ok
        { P1 with robot := T, fs := { P1.fs with mesh := M, table := t }, sliceBound := B,
                  sliceBoundAll := [B], sliceMesh := M, sliceMeshAll := [M], graph := exGraph97 s js, vertexIdx := [⟨0, 4, [[0, 1], [2, 3]]⟩] } := by
      unfold Planner3.constructOneSlice
      rw [hplace, Res.bind_ok']
      dsimp only
      rw [hsw, Res.bind_ok']
      unfold Planner3.sliceJoints
      rw [hV]
      have hv1 : P1.v.getLast? = some (conf7 0 0 0 exQ0 ++ js) := rfl
      simp only [hv1]
      rw [Res.bind_ok', hTq, show (conf7 0 0 0 exQ0 ++ js).drop 7 = js by simp [conf7]]
      change Res.bind (constructSlice3D (sameFree3 M.obstacle) (mkVertex s js) segs .empty) _ = _
      rw [hcs]
      rfl
    unfold Planner3.addSlice
    rw [hsamp, Res.bind_ok']
    change ∃ P2, Res.bind (P1.constructOneSlice L V 0) _ = .ok P2 ∧ _
    rw [hcon, Res.bind_ok']
    exact ⟨_, rfl, rfl, rfl, rfl, rfl, rfl, rfl, rfl⟩
  obtain ⟨P2, hadd, e1, e2, e3, e4, e5, e6, e7⟩ := hadd
  have n0 : nearest3DJ L.ang L.junk P2.q P2.graph.vertex P2.start P2.par.numSearchNeighbor P2.par.searchRadius
      (P2.par.searchRadius * (P2.par.xHi - P2.par.xLo) / P2.par.numLineX)
      (P2.par.searchRadius * (P2.par.yHi - P2.par.yLo) / P2.par.numLineY) = .ok [0] := by
    rw [e2, e5, hjunk, e1, e3]
    exact near97 hrad (hnear s hsame) 1 0 (Or.inl ⟨rfl, rfl⟩)
  have n1 : nearest3DJ L.ang L.junk P2.q P2.graph.vertex P2.goal P2.par.numSearchNeighbor P2.par.searchRadius
      (P2.par.searchRadius * (P2.par.xHi - P2.par.xLo) / P2.par.numLineX)
      (P2.par.searchRadius * (P2.par.yHi - P2.par.yLo) / P2.par.numLineY) = .ok [1] := by
    rw [e2, e5, hjunk, e1, e4]
    exact near97 hrad (hnear s hsame) 10 1 (Or.inr ⟨rfl, rfl⟩)
  set g := exGraph97 s js with hg
  have hok : g.Ok (7 + A.nJ) := by rw [← hjs]; exact exGraph97_ok s js
  have hvl : g.vertex.length = 4 := rfl
  have hwl : g.weight.length = 4 := rfl
  have hS : ∀ s ∈ [0], s < g.vertex.length := by simp [hvl]
  have hG : ∀ s ∈ [1], s < g.vertex.length := by simp [hvl]
  have hfresh : SearchRes.Fresh ⟨false, [], some 0⟩ := ⟨rfl, rfl⟩
  obtain ⟨sr, hsr⟩ := C28_search_returns hok hpick hS hG hfresh (by rw [hvl, hwl])
  have hconn : g.Connected 0 1 := ⟨[0, 1], 8 + 0, .cons 0 1 [] _ 0 (.single 1 (by omega)) ⟨0, rfl, Or.inl rfl⟩, rfl, rfl⟩
  have hsol : sr.solved = true :=
    (C28_search_complete_optimal hok hpick hS hG hfresh hsr).1.2 ⟨0, by simp, 1, by simp, hconn⟩
  obtain ⟨s', hs', t', ht', len, hpath, -⟩ := C27_search_returns_path hok hpick hS hG hfresh hsr hsol
  obtain rfl := List.mem_singleton.1 hs'
  obtain rfl := List.mem_singleton.1 ht'
  have hids := hpath.1.mem_lt hok
  have hlen2 : 2 ≤ sr.pathId.length := by
    obtain ⟨-, h1, h2⟩ := hpath
    match hp : sr.pathId with
    | [] => rw [hp] at h1; exact nomatch h1
    | [a] =>
      rw [hp] at h1 h2
      simp only [List.head?_cons, Option.some.injEq] at h1
      simp only [List.getLast?_singleton, Option.some.injEq] at h2
      omega
    | a :: b :: l => simp
  have hcost : sr.cost = some (((sr.pathId.length : ℝ) - 1) * 8) := by
    obtain ⟨-, hc⟩ := C29_cost_partial hok hpick hS hG hfresh hsr hsol
    rw [hc]
    congr 1
    have : ∀ v ∈ sr.pathId.tail, g.weight.getD v 0 = 8 := by
      intro v hv
      have hv4 : v < 4 := hids v (List.mem_of_mem_tail hv)
      interval_cases v <;> rfl
    rw [List.map_congr_left this]
    simp
    rw [Nat.cast_sub (by omega)]
    simp
  have hPs : P2.search L = .ok { P2 with res := sr } := by
    unfold Planner3.search
    dsimp only
    rw [n0, Res.bind_ok', n1, Res.bind_ok', e6]
    rw [show P2.graph = g from e1, hsr, Res.bind_ok']
  obtain ⟨path, mid, hp1, hp2, hp3, hp4, hp5⟩ := C30_solution_path hok.dims cf gl sr.pathId hids (by simp [hg, exGraph97])
  have hpath' : getSolutionPath P2.graph P2.start P2.goal sr.pathId = .ok path := by
    rw [e1, e3, e4]; exact hp1
  rw [show resize cf (7 + A.nJ) = cf by rw [← hcl]; exact C30_endpoints_unchanged cf,
    show resize gl (7 + A.nJ) = gl by rw [← hgll]; exact C30_endpoints_unchanged gl] at hp2
  have hmem : ∀ v ∈ path, ∃ x ∈ [(1 : ℝ), 9], ∃ y ∈ [(1 : ℝ), 9, 10], ∃ p, SameRotation p exQ0 ∧ v = conf7 x y 5 p ++ js := by
    intro v hv
    rw [hp2] at hv
    simp only [List.mem_cons, List.mem_append, List.not_mem_nil, or_false] at hv
    rcases hv with rfl | hv | rfl
    · exact ⟨1, by simp, 1, by simp, exQ0, Or.inl rfl, rfl⟩
    · obtain ⟨k, hk⟩ := List.mem_iff_getElem?.1 hv
      have hkl : k < sr.pathId.length := by rw [← hp3]; exact (List.getElem?_eq_some_iff.1 hk).1
      have := hp4 k _ (List.getElem?_eq_getElem hkl)
      rw [hk] at this
      obtain ⟨x, hx, y, hy, e⟩ := exGraph97_mem (List.mem_of_getElem? this.symm)
      refine ⟨x, hx, y, ?_, s, hsame, e⟩
      simp only [List.mem_cons, List.not_mem_nil, or_false] at hy ⊢
      tauto
    · exact ⟨1, by simp, 10, by simp, exQ0, Or.inl rfl, rfl⟩
  have hpl : path.length = sr.pathId.length + 2 := by rw [hp2]; simp [hp3]
  have hsp : SolvedPath path := by
    refine ⟨by omega, ?_, fun v hv w hw => by rw [hp5 v hv, hp5 w hw]⟩
    intro v hv
    refine ⟨by rw [hp5 v hv]; omega, ?_⟩
    obtain ⟨x, -, y, -, p, hp, rfl⟩ := hmem v hv
    have : quatPart (conf7 x y 5 p ++ js) = p := by simp [quatPart, coordOf, conf7]
    rw [this]
    unfold Quat.Unit at hu
    unfold Quat.dot
    rcases hp with rfl | rfl
    · linarith
    · simp only; linarith
  have hcpos : (0 : ℝ) < ((sr.pathId.length : ℝ) - 1) * 8 := by
    have : (2 : ℝ) ≤ sr.pathId.length := by exact_mod_cast hlen2
    linarith
  have hinterp : ∃ q, (probOps L V A).interp { P2 with res := sr } path = .ok q := by
    change ∃ q, Planner3.interpolated { P2 with res := sr } path = .ok q
    unfold Planner3.interpolated
    simp only [hcost]
    refine interpolatedPath3D_total path _ _ hsp hcpos ?_
    intro i v w hv hw
    obtain ⟨x, hx, y, hy, p, hp, rfl⟩ := hmem v (List.mem_of_getElem? hv)
    obtain ⟨x', hx', y', hy', p', hp', rfl⟩ := hmem w (List.mem_of_getElem? hw)
    have hE : euclid (conf7 x y 5 p ++ js) (conf7 x' y' 5 p' ++ js) ≤ 13 := by
      rw [euclid_arm, Real.sqrt_le_left (by norm_num)]
      have bx : (x - x') ^ 2 ≤ 64 := by
        simp only [List.mem_cons, List.not_mem_nil, or_false] at hx hx'
        rcases hx with rfl | rfl <;> rcases hx' with rfl | rfl <;> norm_num
      have bY : (y - y') ^ 2 ≤ 81 := by
        simp only [List.mem_cons, List.not_mem_nil, or_false] at hy hy'
        rcases hy with rfl | rfl | rfl <;> rcases hy' with rfl | rfl | rfl <;> norm_num
      have bq : (p.1 - p'.1) ^ 2 + (p.2.1 - p'.2.1) ^ 2 + (p.2.2.1 - p'.2.2.1) ^ 2 + (p.2.2.2 - p'.2.2.2) ^ 2 ≤ 4 := by
        unfold Quat.Unit at hu
        rcases hp with rfl | rfl <;> rcases hp' with rfl | rfl <;> (try simp only) <;> nlinarith
      linarith
    have hnp : (({ P2 with res := sr } : Planner3).par.numPoint : ℝ) = 5 := by
      change ((P2.par.numPoint : ℕ) : ℝ) = 5
      rw [e5]; norm_num [hpar, exPar97]
    rw [hnp, hpl]
    push_cast
    have : (2 : ℝ) ≤ sr.pathId.length := by exact_mod_cast hlen2
    have h0 : 0 ≤ euclid (conf7 x y 5 p ++ js) (conf7 x' y' 5 p' ++ js) := Real.sqrt_nonneg _
    nlinarith
  obtain ⟨r', e, er, ep⟩ := prob_solved_once (ops := probOps L V A)
    (reset := fun P => { P with par := { P.par with numSlice := 0 } }) clock timeLim 0
    (freshRep3 (.new robot [] [exArena97] [exObs97] cf gl par false)) hadd hPs
    (by simp [probOps, e5]) hsol hpath' hinterp
  refine ⟨r', e, by rw [er]; exact hsol, ?_, by rw [ep]; omega⟩
  rw [er]
  change P2.graph.vertex.length = 4
  rw [e1]; exact hvl

/-! ## The files -/

noncomputable def exRowA97 : List ℝ := [10, 10, 10, 1, 1, 5, 5, 5, 1, 0, 0, 0]
noncomputable def exRowO97 : List ℝ := [2, 2, 2, 1, 1, 5, 5, 5, 1, 0, 0, 0]

theorem ex97_nums : (∀ t ∈ exStart97, t ∈ [(0 : ℝ), 1, 2, 5, 10]) ∧ ∀ t ∈ exGoal97, t ∈ [(0 : ℝ), 1, 2, 5, 10] := by
  constructor <;> intro t ht <;>
    simp only [exStart97, exGoal97, exQ0, conf7, List.cons_append, List.nil_append, List.mem_cons, List.not_mem_nil, or_false] at ht ⊢ <;> tauto

/-- The resource files of the example: the rows of end points are written with the axis `(1, 0, 0)` and the angle 0. -/
noncomputable def exFiles97 : Files := fun n =>
  if n = arenaRes exDirs demoTaskProb then some ([exRowA97].flatMap (writeRow exPr96))
  else if n = obsRes exDirs demoTaskProb then some ([exRowO97].flatMap (writeRow exPr96))
  else if n = robotRes exDirs demoTaskProb then some ([exRowR].flatMap (writeRow exPr96))
  else if n = endsRes exDirs demoTaskProb then some ([exStart97, exGoal97].flatMap (writeRow exPr96))
  else if n = urdfFile exDirs demoTaskProb.robot then some "snake".toList
  else none

/-- The files after the conversion. -/
noncomputable def exAfter97 : Files := fun n =>
  if n = arenaCfg exDirs demoTaskProb.dim then some ([exRowA97].flatMap (writeRow exPr96))
  else if n = obsCfg exDirs demoTaskProb.dim then some ([exRowO97].flatMap (writeRow exPr96))
  else if n = robotCfg exDirs demoTaskProb.dim then some ([exRowR].flatMap (writeRow exPr96))
  else if n = endsCfg exDirs demoTaskProb.dim then some ([exStart97, exGoal97].flatMap (writeRow exPr96))
  else exFiles97 n

theorem demoTaskProb_plain : demoTaskProb.Plain := by
  unfold Task.Plain
  decide +kernel

theorem exDirs_ne97 : exDirs.cfg ≠ exDirs.resDim demoTaskProb := by decide +kernel

theorem exUrdf97 : urdfFile exDirs demoTaskProb.robot ∉ cfgFiles exDirs demoTaskProb.dim := by decide +kernel

theorem exKind97 : kindOf demoTaskProb.robot = .snake ∧ dimOf demoTaskProb.dim = .space := by
  constructor <;> decide +kernel

theorem exConv97 (y : ℝ) : convertConfig .snake .space (conf7 1 y 5 exQ0 ++ [0, 0, 0]) = .ok (some (conf7 1 y 5 exQ0 ++ [0, 0, 0])) := by
  simp [convertConfig, conf7, exQ0, Res.at', axisAngleQuat, columns, RobotKind.numDOF,
    show List.range 10 = [0, 1, 2, 3, 4, 5, 6, 7, 8, 9] from rfl, Res.bind_ok]

theorem exEnds97 : parseStartGoalConfig exStof exPr96 .snake .space (some ([exStart97, exGoal97].flatMap (writeRow exPr96))) =
    .ok ([exStart97, exGoal97].flatMap (writeRow exPr96)) := by
  have hr : ∀ r ∈ [exStart97, exGoal97], ∀ t ∈ r, t ∈ [(0 : ℝ), 1, 2, 5, 10] := by
    intro r hr t ht
    simp only [List.mem_cons, List.not_mem_nil, or_false] at hr
    rcases hr with rfl | rfl
    · exact ex97_nums.1 t ht
    · exact ex97_nums.2 t ht
  unfold parseStartGoalConfig
  rw [exRows_read _ hr, Res.bind_ok']
  unfold exStart97 exGoal97
  simp [exConv97, Res.bind_ok]

theorem exAfter97_cfg : exAfter97 (arenaCfg exDirs demoTaskProb.dim) = some ([exRowA97].flatMap (writeRow exPr96)) ∧
    exAfter97 (obsCfg exDirs demoTaskProb.dim) = some ([exRowO97].flatMap (writeRow exPr96)) ∧
    exAfter97 (robotCfg exDirs demoTaskProb.dim) = some ([exRowR].flatMap (writeRow exPr96)) ∧
    exAfter97 (endsCfg exDirs demoTaskProb.dim) = some ([exStart97, exGoal97].flatMap (writeRow exPr96)) := by
  unfold exAfter97
  refine ⟨if_pos rfl, ?_, ?_, ?_⟩
  · rw [if_neg (by decide +kernel), if_pos rfl]
  · rw [if_neg (by decide +kernel), if_neg (by decide +kernel), if_pos rfl]
  · rw [if_neg (by decide +kernel), if_neg (by decide +kernel), if_neg (by decide +kernel), if_pos rfl]

theorem exConfig97 : parsePlanningConfig exStof exPr96 exDirs demoTaskProb exFiles97 = .ok exAfter97 := by
  have f1 : exFiles97 (arenaRes exDirs demoTaskProb) = some ([exRowA97].flatMap (writeRow exPr96)) := if_pos rfl
  have f2 : exFiles97 (obsRes exDirs demoTaskProb) = some ([exRowO97].flatMap (writeRow exPr96)) := by
    unfold exFiles97; rw [if_neg (by decide +kernel), if_pos rfl]
  have f3 : exFiles97 (robotRes exDirs demoTaskProb) = some ([exRowR].flatMap (writeRow exPr96)) := by
    unfold exFiles97; rw [if_neg (by decide +kernel), if_neg (by decide +kernel), if_pos rfl]
  have f4 : exFiles97 (endsRes exDirs demoTaskProb) = some ([exStart97, exGoal97].flatMap (writeRow exPr96)) := by
    unfold exFiles97; rw [if_neg (by decide +kernel), if_neg (by decide +kernel), if_neg (by decide +kernel), if_pos rfl]
  obtain ⟨a1, a2, a3, a4⟩ := exAfter97_cfg
  refine (C96_config_files demoTaskProb_plain exDirs_ne97).2 ⟨_, _, _, _, ?_, ?_, ?_, ?_, a1, a2, a3, a4, ?_⟩
  · rw [f1]; exact exModel 10 10 10 1 1 5 5 5 (by intro t ht; simp only [List.mem_cons, List.not_mem_nil, or_false] at ht ⊢; tauto)
  · rw [f2]; exact exModel 2 2 2 1 1 5 5 5 (by intro t ht; simp only [List.mem_cons, List.not_mem_nil, or_false] at ht ⊢; tauto)
  · rw [f3]; exact exModel 5 5 5 1 1 0 0 0 (by intro t ht; simp only [List.mem_cons, List.not_mem_nil, or_false] at ht ⊢; tauto)
  · rw [f4, exKind97.1, exKind97.2]; exact exEnds97
  · intro n hn
    simp only [cfgFiles, List.mem_cons, List.not_mem_nil, or_false, not_or] at hn
    obtain ⟨h1, h2, h3, h4⟩ := hn
    unfold exAfter97
    rw [if_neg h1, if_neg h2, if_neg h3, if_neg h4]

/-- `C97_planner_of_resources` applies: the program reads the resource files of the example and constructs its planner. -/
theorem exSetup97 (rigid : Bool) : setupProb3 exStof exPr96 exDirs demoTaskProb rigid 1 exFiles97 = .ok (exAfter97,
    .new (Tree3.new exBody96) [] [exArena97] [exObs97] exStart97 exGoal97 exPar97 rigid) := by
  obtain ⟨a1, a2, a3, a4⟩ := exAfter97_cfg
  change exAfter97 (arenaCfg exDirs "3D".toList) = _ at a1
  change exAfter97 (obsCfg exDirs "3D".toList) = _ at a2
  change exAfter97 (robotCfg exDirs "3D".toList) = _ at a3
  change exAfter97 (endsCfg exDirs "3D".toList) = _ at a4
  have hA : loadQuadrics exStof 1 (some ([exRowA97].flatMap (writeRow exPr96))) = .ok [exArena97] :=
    exLoad 10 10 10 1 1 5 5 5 (by intro t ht; simp only [List.mem_cons, List.not_mem_nil, or_false] at ht ⊢; tauto)
  have hO : loadQuadrics exStof 1 (some ([exRowO97].flatMap (writeRow exPr96))) = .ok [exObs97] :=
    exLoad 2 2 2 1 1 5 5 5 (by intro t ht; simp only [List.mem_cons, List.not_mem_nil, or_false] at ht ⊢; tauto)
  have hR : loadQuadrics exStof 1 (some ([exRowR].flatMap (writeRow exPr96))) = .ok [exBody96] :=
    exLoad 5 5 5 1 1 0 0 0 (by intro t ht; simp only [List.mem_cons, List.not_mem_nil, or_false] at ht ⊢; tauto)
  have hE : parseCsv exStof (some ([exStart97, exGoal97].flatMap (writeRow exPr96))) = .ok [exStart97, exGoal97] := by
    refine exRows_read _ fun r hr t ht => ?_
    simp only [List.mem_cons, List.not_mem_nil, or_false] at hr
    rcases hr with rfl | rfl
    · exact ex97_nums.1 t ht
    · exact ex97_nums.2 t ht
  unfold setupProb3
  rw [exConfig97, Res.bind_ok']
  unfold loadEnvironment3
  rw [a1, a2, a4, hA, Res.bind_ok', hO, Res.bind_ok', hE, Res.bind_ok', Res.bind_ok', a3]
  unfold loadRobot3
  rw [hR, Res.bind_ok']
  have hq : loadQuats exStof none = .ok [] := rfl
  rw [hq]
  simp only [Res.idx, Res.at', List.getElem?_cons_zero, List.getElem?_cons_succ, Res.bind_ok', List.drop_one, List.tail_cons,
    List.foldl_nil]
  rw [exPar97_derived, Res.bind_ok']

/-! ## The robot description -/

/-- A chain of three revolute joints. -/
noncomputable def exSnake : UrdfModel :=
  ⟨"base", [.mk "body1" ⟨"j1", .revolute, (1, 0, 0, 0), ![1, 0, 0], ![0, 0, 1]⟩
    [.mk "body2" ⟨"j2", .revolute, (1, 0, 0, 0), ![2, 0, 0], ![0, 0, 1]⟩
      [.mk "body3" ⟨"j3", .revolute, (1, 0, 0, 0), ![2, 0, 0], ![0, 0, 1]⟩ []]]]⟩

theorem exSnake_joints : linkJoints exSnake.children = [⟨"j1", .revolute, (1, 0, 0, 0), ![1, 0, 0], ![0, 0, 1]⟩,
    ⟨"j2", .revolute, (1, 0, 0, 0), ![2, 0, 0], ![0, 0, 1]⟩, ⟨"j3", .revolute, (1, 0, 0, 0), ![2, 0, 0], ![0, 0, 1]⟩] := by
  simp [exSnake, linkJoints, UrdfLink.joints]

theorem exSnake_ok : exSnake.Ok := by
  refine ⟨?_, ?_, ?_, ?_⟩
  · simp [exSnake, linkNames, UrdfLink.names]
  · rw [exSnake_joints]
    simp
  · rw [exSnake_joints]
    simp [Quat.Unit]
  · rw [exSnake_joints]
    intro j hj
    simp only [List.mem_cons, List.mem_nil_iff, or_false] at hj
    rcases hj with rfl | rfl | rfl <;> intro e <;> have := congrFun e 2 <;> simp at this

theorem exSnake_movable : movableNames (linkJoints exSnake.children) = ["j1", "j2", "j3"] := by
  rw [exSnake_joints]
  rfl

/-- A reader of robot descriptions that knows this one. -/
noncomputable def exUrdf (f : Option (List Char)) : Option UrdfModel := if f = some "snake".toList then some exSnake else none

theorem exUrdf_read : exUrdf (exFiles97 (urdfFile exDirs demoTaskProb.robot)) = some exSnake := by
  have : exFiles97 (urdfFile exDirs demoTaskProb.robot) = some "snake".toList := by
    unfold exFiles97
    rw [if_neg (by decide +kernel), if_neg (by decide +kernel), if_neg (by decide +kernel), if_neg (by decide +kernel), if_pos rfl]
  rw [this]
  exact if_pos rfl

/-! ## The claim -/

/-- The claim of C97: the program, as it is (`isRobotRigid` not set), has no undefined behaviour when it can read its files
and the robot description has as many joints as the program expects joint values. -/
def C97_claim : Prop :=
  ∀ (L : Libs3) (_ : HeapTop L.pick) (gq : Matrix (Fin 3) (Fin 3) ℝ → Quat) (urdf : Option (List Char) → Option UrdfModel)
    (stof : List Char → Scan) (pr : ℝ → List Char) (_ : PrintOk pr) (_ : ∀ x, stof (pr x) ≠ .invalid)
    (prN : Option ℝ → List Char) (D : Dirs) (fs : Files) (M : UrdfModel) (num : ℕ) (suffix : List Char) (clock : ℕ → ℝ)
    (timeLim : ℝ) (fuel : ℕ) (fs' : Files) (P : Planner3), D.cfg ≠ D.resDim demoTaskProb →
    urdf (fs (urdfFile D demoTaskProb.robot)) = some M → M.Ok →
    6 + (movableNames (linkJoints M.children)).length = (kindOf demoTaskProb.robot).numDOF →
    setupProb3 stof pr D demoTaskProb true num fs = .ok (fs', P) →
    demoProb3D L urdf gq stof pr prN D demoTaskProb true num suffix clock timeLim fuel fs ≠ some .ub

/-- The program as it is, on the files of the example. -/
theorem C97_witness_undefined (L : Libs3) (gq : Matrix (Fin 3) (Fin 3) ℝ → Quat) (prN : Option ℝ → List Char) (suffix : List Char)
    (clock : ℕ → ℝ) (timeLim : ℝ) (fuel : ℕ) :
    demoProb3D L exUrdf gq exStof exPr96 prN exDirs demoTaskProb true 1 suffix clock timeLim (fuel + 1) exFiles97 = some .ub :=
  C97_demo_undefined L exPr96_ok exPr96_num demoTaskProb_plain exDirs_ne97 rfl exUrdf97 exUrdf_read exSnake_ok
    (by rw [exSnake_movable]; simp) (by rw [exSnake_movable, exKind97.1]; decide) (exSetup97 true)

/-- **C97 is refuted.** -/
theorem C97_refuted : ¬ C97_claim := by
  intro h
  refine h ⟨StdSort.ins ℝ, 0, 0, fun _ => ⟨0, 0⟩, anyTop, exAng, none, fun _ => exQ0, fun _ _ => 0⟩ anyTop_heap (fun _ => exQ0) exUrdf
    exStof exPr96 exPr96_ok exPr96_num (fun x => exPr96 (x.getD 0)) exDirs exFiles97 exSnake 1 [] (fun _ => 0) 0 1 _ _ exDirs_ne97
    exUrdf_read exSnake_ok (by rw [exSnake_movable, exKind97.1]; decide) (exSetup97 true) ?_
  exact C97_witness_undefined _ _ _ _ _ _ _

/-- With the flag of the tests the program ends normally on the files of the example and stores a path (if the
uninitialised orientation happens to be the right one). -/
theorem C97_witness_run (sort : StdSort ℝ) (dmin dmax : ℝ) (svd : SvdFun 3) (gq : Matrix (Fin 3) (Fin 3) ℝ → Quat)
    (prN : Option ℝ → List Char) (suffix : List Char) (clock : ℕ → ℝ) (timeLim : ℝ) :
    ∃ fs' path, demoProb3D ⟨sort, dmin, dmax, svd, anyTop, exAng, some exQ0, fun _ => exQ0, fun _ _ => 0⟩ exUrdf gq exStof exPr96
        prN exDirs demoTaskProb false 1 suffix clock timeLim 1 exFiles97 = some (.ok fs') ∧
      fs' (outFile exDirs "solution_path".toList suffix) = some (writeRows exPr96 path) ∧ 4 ≤ path.length := by
  set L : Libs3 := ⟨sort, dmin, dmax, svd, anyTop, exAng, some exQ0, fun _ => exQ0, fun _ _ => 0⟩ with hL
  set A := armOf gq (parseURDF (some exSnake)) with hA
  have hnJ : A.nJ = 3 := (C84_joint_number exSnake_ok).trans (by rw [exSnake_movable]; rfl)
  have h0 : exAng exQ0 exQ0 = 0 := by norm_num [exAng, Quat.dot, exQ0]
  obtain ⟨r', h, hsol, hv, hl⟩ := plan97 L anyTop_heap A hnJ exQ0 rfl (by rw [hL]; dsimp only; rw [h0]; norm_num [hrmPi])
    (by
      intro s hs
      rw [hL]; dsimp only
      have : exAng exQ0 s = 0 := by
        rcases hs with rfl | rfl
        · exact h0
        · norm_num [exAng, Quat.dot, exQ0]
      rw [this]; norm_num) clock timeLim
  have hrd : exUrdf (exAfter97 (urdfFile exDirs demoTaskProb.robot)) = some exSnake := by
    have : exAfter97 (urdfFile exDirs demoTaskProb.robot) = exFiles97 (urdfFile exDirs demoTaskProb.robot) := by
      unfold exAfter97
      rw [if_neg (by decide +kernel), if_neg (by decide +kernel), if_neg (by decide +kernel), if_neg (by decide +kernel)]
    rw [this, exUrdf_read]
  have hrunD : ∃ fs', demoProb3D L exUrdf gq exStof exPr96 prN exDirs demoTaskProb false 1 suffix clock timeLim 1 exFiles97 =
      some (.ok fs') ∧ fs' (outFile exDirs "solution_path".toList suffix) = some (writeRows exPr96 r'.solvedPath) := by
    unfold demoProb3D
    rw [exSetup97]
    dsimp only
    rw [hrd, ← hA, h]
    refine ⟨_, rfl, ?_⟩
    unfold storePath
    rw [Files.put_ne, Files.put_same]
    intro e
    have h1 := List.append_cancel_left e
    simp at h1
  obtain ⟨fs', hd, hpf⟩ := hrunD
  exact ⟨fs', _, hd, hpf, hl⟩

/-- `C97_demo_end_to_end_partial` applies: with the flag of the tests the program plans a path on the files of the example
(if the uninitialised orientation happens to be the right one), and the path stored leads over at least two of the four
vertices stored. -/
theorem C97_witness_vertices (sort : StdSort ℝ) (dmin dmax : ℝ) (svd : SvdFun 3) (gq : Matrix (Fin 3) (Fin 3) ℝ → Quat) (prN : Option ℝ → List Char)
    (suffix : List Char) (clock : ℕ → ℝ) (timeLim : ℝ) :
    ∃ fs' mid vertices ids, demoProb3D ⟨sort, dmin, dmax, svd, anyTop, exAng, some exQ0, fun _ => exQ0, fun _ _ => 0⟩ exUrdf gq exStof exPr96
        prN exDirs demoTaskProb false 1 suffix clock timeLim 1 exFiles97 = some (.ok fs') ∧
      fs' (outFile exDirs "solution_path".toList suffix) = some (writeRows exPr96 (exStart97 :: (mid ++ [exGoal97]))) ∧
      fs' (outFile exDirs "vertex".toList suffix) = some (writeRows exPr96 vertices) ∧
      fs' (outFile exDirs "path_id".toList suffix) = some (writeIds ids) ∧ 2 ≤ ids.length ∧ mid.length = ids.length ∧
      ∀ (k i : ℕ), ids[k]? = some i → mid[k]? = vertices[i]? := by
  set L : Libs3 := ⟨sort, dmin, dmax, svd, anyTop, exAng, some exQ0, fun _ => exQ0, fun _ _ => 0⟩ with hL
  obtain ⟨fs', path0, hd, hpf, hl⟩ := C97_witness_run sort dmin dmax svd gq prN suffix clock timeLim
  obtain ⟨-, rows, row0, row1, cs, cg, vertices, edges, ids, path, interp, hrows, hr0, hr1, hc0, hc1, -, f1, -, f3, f4, -, -, -, -, hcase⟩ :=
    C97_demo_end_to_end_partial L anyTop_heap exPr96_ok exPr96_num demoTaskProb_plain exDirs_ne97 rfl exUrdf97 exUrdf_read
      exSnake_ok (by rw [exSnake_movable, exKind97.1]; rfl) hd
  have hback : ∀ x ∈ [(0 : ℝ), 1, 2, 5, 10], readBack exStof exPr96 x = x := by
    intro x hx
    have := (exPr96_back x).symm.trans (exStof_num x hx)
    injection this
  have hid : ∀ l : List ℝ, (∀ t ∈ l, t ∈ [(0 : ℝ), 1, 2, 5, 10]) → l.map (readBack exStof exPr96) = l := by
    intro l hl
    rw [List.map_congr_left (fun x hx => hback x (hl x hx))]
    simp
  rcases hcase with ⟨rfl, -⟩ | ⟨mid, cost, rfl, m2, m3, m4, -⟩
  · rw [hpf] at f4
    cases hp : path0 with
    | nil => rw [hp] at hl; exact absurd hl (by simp)
    | cons a l =>
      rw [hp] at f4
      exact absurd (Option.some.inj f4) (by simp [writeRows])
  · have hE : exFiles97 (endsRes exDirs demoTaskProb) = some ([exStart97, exGoal97].flatMap (writeRow exPr96)) := by
      unfold exFiles97; rw [if_neg (by decide +kernel), if_neg (by decide +kernel), if_neg (by decide +kernel), if_pos rfl]
    have hR : parseCsv exStof (some ([exStart97, exGoal97].flatMap (writeRow exPr96))) = .ok [exStart97, exGoal97] := by
      refine exRows_read _ fun r hr t ht => ?_
      simp only [List.mem_cons, List.not_mem_nil, or_false] at hr
      rcases hr with rfl | rfl
      · exact ex97_nums.1 t ht
      · exact ex97_nums.2 t ht
    rw [hE, hR] at hrows
    obtain rfl := (Res.ok.injEq _ _).mp hrows
    obtain rfl := Option.some.inj hr0
    obtain rfl := Option.some.inj hr1
    rw [exKind97.1] at hc0 hc1
    obtain rfl := Option.some.inj ((Res.ok.injEq _ _).mp ((exConv97 1).symm.trans hc0))
    obtain rfl := Option.some.inj ((Res.ok.injEq _ _).mp ((exConv97 10).symm.trans hc1))
    have g1 := hid _ ex97_nums.1
    have g2 := hid _ ex97_nums.2
    unfold exStart97 at g1
    unfold exGoal97 at g2
    rw [g1, g2] at f4
    exact ⟨fs', mid, vertices, ids, hd, f4, f1, f3, by omega, m3, m4⟩

end Hrm
