import Verif.Props.Demo
import Verif.Props.PathWitness3D

/-!
# C96: a run of the demonstration program

Concrete files for which the program of C96 ends normally and stores a path, so that the hypotheses of C96 are met. The
surfaces are sampled with one point (`num = 1`), so that the meshes have no triangles and no sweep line hits anything.
-/

namespace Hrm

open Classical

theorem vertLineMesh_noface {m : Mesh} (hv : m.vertices ≠ []) (hf : m.faces = []) (l : Line3) :
    vertLineMesh triTol l m = .ok [] := by
  unfold vertLineMesh
  rw [if_neg hv, hf]
  simp [scanFaces]

theorem lineMesh_noface {m : Mesh} (hv : m.vertices ≠ []) (hf : m.faces = []) (l : Line3) :
    lineMesh triTol axisTol l m = .ok [] := by
  unfold lineMesh
  rw [if_neg hv, hf]
  simp [scanFaces]

/-- The objects of the example. -/
noncomputable def exArena96 : SuperQuadrics := ⟨10, 10, 10, 1, 1, ![10, 10, 10], (1, 0, 0, 0), 1⟩
noncomputable def exObs96 : SuperQuadrics := ⟨2, 2, 2, 1, 1, ![10, 10, 10], (1, 0, 0, 0), 1⟩
noncomputable def exBody96 : SuperQuadrics := ⟨5, 5, 5, 1, 1, ![0, 0, 0], (1, 0, 0, 0), 1⟩
/-- The orientations of the example: half a turn about the first axis, and none. -/
noncomputable def exHalf : Quat := (0, 1, 0, 0)
/-- Start and goal of the example. -/
noncomputable def exConf96 : Vec := [10, 10, 10, 1, 0, 0, 0]
/-- The parameters the program derives. -/
noncomputable def exPar96 : Param3 := ⟨2, 2, 2, 5, 10, hrmPi / 2, 6, 14, 6, 14, 6, 14⟩

theorem exPar96_lines : exPar96.linesX = [6, 14] ∧ exPar96.linesY = [6, 14] := by
  constructor
  · simp only [Param3.linesX, exPar96, show List.range 2 = [0, 1] from rfl, List.map_cons, List.map_nil]
    norm_num
  · simp only [Param3.linesY, exPar96, show List.range 2 = [0, 1] from rfl, List.map_cons, List.map_nil]
    norm_num

theorem exPar96_derived : defineParameters3 (Tree3.new exBody96) [exHalf, exQ0] [exArena96] [exObs96] defaultParam3 =
    .ok exPar96 := by
  have hm : computeObstacleMinSize ([exObs96].map (·.semi)) = .ok 2 := by
    simp [computeObstacleMinSize, Res.at', exObs96, SuperQuadrics.semi]
  have hq : quotient (exArena96.a - 6 / 5 * (Tree3.new exBody96).base.a) 2 = .ok 2 := by
    unfold quotient
    rw [if_neg (by norm_num)]
    norm_num [exArena96, exBody96, Tree3.new]
  have hf : floorToIndex 2 = .ok 2 := by
    have h : ⌊(2 : ℝ)⌋ = 2 := by norm_num
    unfold floorToIndex
    rw [h, if_pos (by norm_num)]; rfl
  unfold defineParameters3
  simp only [Res.at', List.getElem?_cons_zero, Res.bind_ok']
  have h0 : defaultParam3.numLineX = 0 ∨ defaultParam3.numLineY = 0 := Or.inl rfl
  rw [if_pos h0, hm, Res.bind_ok']
  change (quotient (exArena96.a - 6 / 5 * (Tree3.new exBody96).base.a) 2).bind _ = _
  rw [hq, Res.bind_ok', hf, Res.bind_ok']
  change (quotient (exArena96.a - 6 / 5 * (Tree3.new exBody96).base.a) 2).bind _ = _
  rw [hq, Res.bind_ok', hf, Res.bind_ok']
  congr 1
  norm_num [exPar96, defaultParam3, exArena96, exBody96, Tree3.new]
  have h2 : (![10, 10, 10] : Fin 3 → ℝ) 2 = 10 := rfl
  rw [h2]; norm_num

/-- A query with the second orientation, for any number of neighbours. -/
theorem nearest3DJ_nonempty' {ang : Quat → Quat → ℝ} {junk : Option Quat} {q0 q1 : Quat} {verts : List Vec} {q : Vec}
    {k : ℕ} (hk : 0 < k) {radius gx gy : ℝ} (hne : verts ≠ []) (hdim : ∀ v ∈ verts, v.length = 7) (hq : q.length = 7)
    (hqq : quat q = q1) (hc : ang q1 q1 < ang q1 q0) (hr : ang q1 q1 < radius)
    (hg : ∀ v ∈ verts, |coord q 0 - coord v 0| < gx ∧ |coord q 1 - coord v 1| < gy) :
    ∃ ids, nearest3DJ ang junk [q0, q1] verts q k radius gx gy = .ok ids ∧ ids ≠ [] := by
  obtain ⟨m, hm, hcase⟩ := closestQuat_spec ang q0 [q1] q1
  have hm2 : m.2 = some q1 := by
    rcases hcase with ⟨-, h⟩ | ⟨r, hr, h1, h2, h3⟩
    · have := h q1 (by simp); linarith
    · rcases List.mem_cons.1 hr with rfl | hr
      · exact absurd h2 (lt_irrefl _)
      · obtain rfl := List.mem_singleton.1 hr
        exact h1
  have hcol : ∃ r l, collectK (fun r => ang q1 r < radius) k [] [q0, q1] = r :: l := by
    rw [collectK_eq _ _ _ (by simpa using hk)]
    obtain ⟨n, rfl⟩ : ∃ n, k = n + 1 := ⟨k - 1, by omega⟩
    by_cases h0 : ang q1 q0 < radius
    · exact ⟨q0, _, by simp [h0]; rfl⟩
    · exact ⟨q1, [], by simp [h0, hr]⟩
  obtain ⟨r, l, hl⟩ := hcol
  have hfold : ∀ (l : List Quat) (idx : List ℕ), ∃ ids, l.foldlM (nearestStep3D ang verts q gx gy) idx = .ok ids ∧
      idx.length + l.length = ids.length := by
    intro l
    induction l with
    | nil => intro idx; exact ⟨idx, rfl, by simp⟩
    | cons b l ih =>
      intro idx
      obtain ⟨i, w, hw, -, hstep⟩ := nearestStep3D_spec ang hne (le_refl 7) hdim hq gx gy b
      rw [List.foldlM_cons, hstep, if_pos (hg w (List.mem_of_getElem? hw))]
      obtain ⟨ids, e, hlen⟩ := ih (idx ++ [i])
      exact ⟨ids, e, by rw [← hlen]; simp; omega⟩
  obtain ⟨ids, e, hlen⟩ := hfold (r :: l) []
  refine ⟨ids, ?_, ?_⟩
  · unfold nearest3DJ
    rw [quatOf_eq (by omega), Res.bind_ok', show quat q = q1 from hqq, hm, Res.bind_ok', hm2]
    simp only [Option.some_or]
    rw [hl]; exact e
  · rintro rfl; simp at hlen

/-- The planner the program constructs in the example solves its task. -/
theorem plan96 (sort : StdSort ℝ) (dmin dmax : ℝ) (svd : SvdFun 3) (pick : ℕ → (ℕ → ℝ) → List ℕ → ℕ)
    (hpick : HeapTop pick) (junk : Option Quat) (rand : ℕ → Quat) (randJoint : ℕ → ℕ → ℝ) (clock : ℕ → ℝ) (timeLim : ℝ) :
    ∃ r', Planner3.plan ⟨sort, dmin, dmax, svd, pick, exAng, junk, rand, randJoint⟩ ⟨none, none⟩ clock timeLim 0
      (freshRep3 (.new (Tree3.new exBody96) [exHalf, exQ0] [exArena96] [exObs96] exConf96 exConf96 exPar96 true)) =
        some (.ok r') ∧ r'.st.res.solved = true ∧ r'.solvedPath.length = 3 ∧ r'.st.graph.vertex.length = 8 := by
  set L : Libs3 := ⟨sort, dmin, dmax, svd, pick, exAng, junk, rand, randJoint⟩ with hL
  have hrun : Tree3.run [] (Tree3.new exBody96) = .ok (Tree3.new exBody96) := rfl
  have hr := run_inv_of3 hrun
  obtain ⟨B, hB, b1, b2, b3, b4⟩ := cspaceBoundary3_ok hr [exArena96] [exObs96]
  obtain ⟨M, hM, m1, m2⟩ := cspaceMesh_ok b1 b2
  have hface : gridFaces 1 = [] := by decide
  have hmesh : ∀ m ∈ M.arena ++ M.obstacle, m.vertices ≠ [] ∧ m.faces = [] := by
    unfold cspaceMesh at hM
    obtain ⟨A, h1, hM⟩ := Res.bind_eq_ok.1 hM
    obtain ⟨O, h2, hM⟩ := Res.bind_eq_ok.1 hM
    obtain rfl := (Res.ok.injEq _ _).mp hM
    rw [boundMeshes_eq (o := exArena96) rfl] at h1
    rw [boundMeshes_eq (o := exObs96) rfl] at h2
    obtain rfl := (Res.ok.injEq _ _).mp h1
    obtain rfl := (Res.ok.injEq _ _).mp h2
    intro m hm
    rcases List.mem_append.1 hm with hm | hm
    · obtain ⟨b, hb, rfl⟩ := List.mem_map.1 hm
      refine ⟨?_, hface⟩
      obtain ⟨o, ho, hl⟩ := b3 b hb
      obtain rfl := List.mem_singleton.1 ho
      intro e
      have e' : b.map toV3 = [] := e
      rw [List.map_eq_nil_iff] at e'
      rw [e'] at hl
      simp [SuperQuadrics.minkSum3D, exArena96] at hl
    · obtain ⟨b, hb, rfl⟩ := List.mem_map.1 hm
      refine ⟨?_, hface⟩
      obtain ⟨o, ho, hl⟩ := b4 b hb
      obtain rfl := List.mem_singleton.1 ho
      intro e
      have e' : b.map toV3 = [] := e
      rw [List.map_eq_nil_iff] at e'
      rw [e'] at hl
      simp [SuperQuadrics.minkSum3D, exObs96] at hl
  have hMne : M.arena ≠ [] := by
    intro e; rw [e] at m1; rw [b1] at m1; simp [addedBodies] at m1
  have hmiss : ∀ (x y : ℝ), ∀ m ∈ M.arena ++ M.obstacle, vertLineMesh triTol (vertical x y 0) m = .ok [] :=
    fun x y m hm => vertLineMesh_noface (hmesh m hm).1 (hmesh m hm).2 _
  obtain ⟨hlx, hly⟩ := exPar96_lines
  set par := exPar96 with hpar
  have hz : ((6 : ℝ) + 14) / 2 = 10 := by norm_num
  have hplane : ∀ x, planeSeg L par.zLo par.zHi M [6, 14] x =
      .ok ⟨[6, 14], [⟨[6], [14], [10]⟩, ⟨[6], [14], [10]⟩]⟩ := by
    intro x
    have := planeSeg_missed L 6 14 (by norm_num) M hMne x 6 14 (fun m hm y _ => hmiss x y m hm)
    rwa [hz] at this
  have hsegs : sweep3D L par.zLo par.zHi M par.linesX par.linesY = .ok
      [(6, ⟨[6, 14], [⟨[6], [14], [10]⟩, ⟨[6], [14], [10]⟩]⟩), (14, ⟨[6, 14], [⟨[6], [14], [10]⟩, ⟨[6], [14], [10]⟩]⟩)] := by
    rw [hlx, hly]
    unfold sweep3D
    simp only [List.foldlM_cons, List.foldlM_nil, hplane, Res.bind_ok', Res.bind_ok, List.nil_append, List.cons_append]
    rfl
  set cf : Vec := exConf96 with hcf
  set Q0 := freshQ L (Tree3.new exBody96) [exHalf, exQ0] [exArena96] [exObs96] cf cf par with hQ0
  have hq : Q0.q = [exHalf, exQ0] := by rw [hQ0, freshQ_q]; rfl
  have hu : ∀ q ∈ [exHalf, exQ0], q.Unit := by
    intro q hq
    simp only [List.mem_cons, List.not_mem_nil, or_false] at hq
    rcases hq with rfl | rfl <;> norm_num [Quat.Unit, exHalf, exQ0]
  have hsim := build3_sim (V := ⟨none, none⟩) rfl hr hB hM hQ0 (by rw [hpar]; simp [exPar96]) (by rw [hpar]; simp [exPar96])
    (by
      intro x hx y hy m hm
      refine ⟨[], ?_, by simp⟩
      unfold isect3
      rw [hmiss x y m hm]; rfl) hsegs
  have hsq : ∀ i < 2, ∃ q ∈ [exHalf, exQ0], sliceQuat Q0.q i = matQuat (quatRot q) ∧ [exHalf, exQ0][i]? = some q := by
    intro i hi
    rw [hq]
    interval_cases i
    · exact ⟨exHalf, by simp, rfl, rfl⟩
    · exact ⟨exQ0, by simp, rfl, rfl⟩
  have hfree : ∀ i < 2, ∀ j < 2, ∀ x y x' y' : ℝ,
      Q0.freeMulti L ⟨none, none⟩ i j (conf7 x y 10 (sliceQuat Q0.q j)) (conf7 x' y' 10 (sliceQuat Q0.q i)) = .ok true := by
    intro i hi j hj x y x' y'
    obtain ⟨qi, hqi, ei, gi⟩ := hsq i hi
    obtain ⟨qj, hqj, ej, gj⟩ := hsq j hj
    rw [ei, ej]
    obtain ⟨steps, -, hmo, hiff, -⟩ := C53_spatial_check_partial L exBody96 [] _ hrun [exHalf, exQ0] [exArena96] [exObs96] cf cf par
      (by rw [hpar]; simp [exPar96]) i j qi qj gi gj _ _ (unitPose_conf7 (hu qj hqj) x y 10)
      (unitPose_conf7 (hu qi hqi) x' y' 10) rfl
    refine hiff.2 fun u hu' => ⟨⟨_, tfe3Of_spec .., ?_⟩, by simp [addedBodies]⟩
    have : ∀ m ∈ bridgeBound3 [exObs96] (tfe3Of L.svd exBody96 qi qj par.numPoint), ∀ p, ptInObs3D triTol p m = .ok false := by
      intro m hm p
      obtain ⟨o, ho, rfl⟩ := List.mem_map.1 hm
      obtain rfl := List.mem_singleton.1 ho
      unfold ptInObs3D
      rw [vertLineMesh_noface (by simp [gridMesh, SuperQuadrics.minkSum3D, exObs96]) hface]
      rfl
    unfold SweptClear3 isPtInCFree3D
    rw [noneOf_total (q := fun _ => false) _ fun m hm => this m hm _]
    simp
  have hsame : ∀ a b : Vec, a.length = 7 → b.length = 7 → sameFree3 M.obstacle a b = .ok true := by
    intro a b ha hb
    have hs : ∀ v : Vec, v.length = 7 → ∃ p, spatial v = .ok p := by
      intro v hv
      obtain ⟨x, y, z, t, rfl⟩ : ∃ x y z t, v = x :: y :: z :: t := by
        match v, hv with
        | x :: y :: z :: t, _ => exact ⟨x, y, z, t, rfl⟩
      exact ⟨_, rfl⟩
    obtain ⟨p, hp⟩ := hs a ha
    obtain ⟨q, hq⟩ := hs b hb
    unfold sameFree3
    rw [hp, Res.bind_ok', hq, Res.bind_ok']
    have : ∀ m ∈ M.obstacle, segHitsMesh triTol axisTol p q m = .ok false := by
      intro m hm
      unfold segHitsMesh
      rw [lineMesh_noface (hmesh m (List.mem_append_right _ hm)).1 (hmesh m (List.mem_append_right _ hm)).2]
      rfl
    unfold sameSliceFree3D
    rw [noneOf_total (q := fun _ => false) _ this]
    simp
  obtain ⟨⟨g, idx⟩, hbr, hv, hw, he⟩ := roadmap3_all_free (dist := qDist L.ang Q0.q) (freeSame := fun _ => sameFree3 M.obstacle)
    (freeMulti := Q0.freeMulti L ⟨none, none⟩) (gx := par.gapX) (gy := par.gapY) (x0 := 6) (x1 := 14) (y0 := 6) (y1 := 14)
    (z := 10) (l := 6) (u := 14) (Q := sliceQuat Q0.q)
    (by simp only [hpar, exPar96, Param3.gapX]; norm_num)
    (by simp only [hpar, exPar96, Param3.gapY]; norm_num)
    (fun i _ x _ y _ x' _ y' _ => hsame _ _ rfl rfl)
    (fun i hi j hj x _ y _ x' _ y' _ => hfree i hi j hj x y x' y')
  have hql : Q0.q.length = 2 := by rw [hq]; rfl
  rw [hql] at hsim
  have hmk : (fun i => mkVertex (sliceQuat Q0.q i) []) = fun i x y z => conf7 x y z (sliceQuat Q0.q i) := rfl
  rw [hmk, hbr] at hsim
  obtain ⟨P, hbd, hi⟩ := hsim
  simp only at hv hw he
  have hok := C23_build3D _ _ _ _ _ _ _ _ 7 (fun _ _ _ _ => rfl) g idx hbr
  have hvne : g.vertex ≠ [] := by rw [hv]; simp
  have hpi : (314 / 200 : ℝ) < hrmPi / 2 := by norm_num [hrmPi]
  obtain ⟨ids, hids, hidne⟩ := nearest3DJ_nonempty' (ang := exAng) (junk := junk) (q0 := exHalf) (q1 := exQ0) (q := cf) (k := 10)
    (by norm_num) (radius := hrmPi / 2) (gx := hrmPi / 2 * (14 - 6) / (2 : ℕ)) (gy := hrmPi / 2 * (14 - 6) / (2 : ℕ)) hvne hok.dims
    rfl rfl
    (by norm_num [exAng, Quat.dot, exQ0, exHalf]; exact Real.pi_pos)
    (by norm_num [exAng, Quat.dot, exQ0, exHalf, hrmPi])
    (by
      intro v hv'
      rw [hv] at hv'
      simp only [List.mem_cons, List.not_mem_nil, or_false] at hv'
      rcases hv' with rfl | rfl | rfl | rfl | rfl | rfl | rfl | rfl <;>
        norm_num [coord, conf7, hcf, exConf96, hrmPi, abs_lt])
  have hidlt := nearest3DJ_ids hids
  obtain ⟨s, hs, hsearch⟩ := search_same (g := g) hpick hidne (some 0)
  have hSO := sampleSO3_same (L := L) (Planner3.new (Tree3.new exBody96) [exHalf, exQ0] [exArena96] [exObs96] cf cf par true)
  have est : P.start = cf := hi.start.trans hSO.2.2.2.2.1
  have egl : P.goal = cf := hi.goal.trans hSO.2.2.2.2.2.1
  have ers : P.res = ⟨false, [], some 0⟩ := hi.res.trans hSO.2.2.2.2.2.2.2.2.2.2.2.1
  have epar : P.par = par := by rw [hi.par, hQ0]; rfl
  have hPs : P.search L = .ok { P with res := ⟨true, [s], some 0⟩ } := by
    have hnid : nearest3DJ L.ang L.junk P.q g.vertex cf P.par.numSearchNeighbor P.par.searchRadius
        (P.par.searchRadius * (P.par.xHi - P.par.xLo) / P.par.numLineX)
        (P.par.searchRadius * (P.par.yHi - P.par.yLo) / P.par.numLineY) = .ok ids := by
      rw [hi.q, hq, epar]
      exact hids
    unfold Planner3.search
    simp only [est, egl, hnid, Res.bind_ok', ers, hi.graph]
    rw [hsearch, Res.bind_ok']
  obtain ⟨path, mid, hpath, hp2, hp3, -⟩ := C30_solution_path hok.dims cf cf [s] (by
    intro i hi'; obtain rfl := List.mem_singleton.1 hi'; exact hidlt _ hs) hvne
  have hpath' : getSolutionPath P.graph P.start P.goal [s] = .ok path := by
    rw [hi.graph, est, egl]; exact hpath
  obtain ⟨r', e, er, ep⟩ := plan_solved_once (ops := planner3Ops L ⟨none, none⟩) clock timeLim 0
    (freshRep3 (.new (Tree3.new exBody96) [exHalf, exQ0] [exArena96] [exObs96] cf cf par true)) hbd hPs rfl hpath' ⟨_, rfl⟩
  refine ⟨r', e, by rw [er], ?_, ?_⟩
  · rw [ep, hp2]
    simp [hp3]
  · rw [er]
    change P.graph.vertex.length = 8
    rw [hi.graph, hv]
    rfl

/-! ## The files -/

/-- Numbers are printed by their integral part, at most 2^24. -/
noncomputable def exPr96 (x : ℝ) : List Char := Nat.toDigits 10 (min ⌊x⌋₊ (2 ^ 24))

theorem exPr96_ok : PrintOk exPr96 := fun _ => ⟨Nat.toDigits_ne_nil, fun _ hc => digit_ne hc⟩

theorem exPr96_num (x : ℝ) : exStof (exPr96 x) ≠ .invalid := by
  unfold exPr96
  rw [exStof_ok.nat _ (min_le_right _ _)]
  exact nofun

theorem exStof_pr96 {x : ℝ} (n : ℕ) (hn : n ≤ 2 ^ 24) (hx : x = n) : exStof (exPr96 x) = .val x := by
  rw [hx]
  unfold exPr96
  rw [Nat.floor_natCast, min_eq_left hn]
  exact exStof_ok.nat n hn

/-- The rows of the example files: arena, obstacle, robot, end point, orientations. -/
noncomputable def exRowA : List ℝ := [10, 10, 10, 1, 1, 10, 10, 10, 1, 0, 0, 0]
noncomputable def exRowO : List ℝ := [2, 2, 2, 1, 1, 10, 10, 10, 1, 0, 0, 0]
noncomputable def exRowR : List ℝ := [5, 5, 5, 1, 1, 0, 0, 0, 1, 0, 0, 0]
noncomputable def exRowE : List ℝ := [10, 10, 10, 1, 0, 0, 0]
noncomputable def exRowQ : List (List ℝ) := [[1, 0, 0, 0], [0, 0, 0, 1]]

/-- The directories of the example. -/
def exDirs : Dirs := ⟨"res".toList, "cfg".toList, "sol".toList⟩
/-- The file of orientations of the example. -/
def exQuatFile : List Char := "res/3D/q.csv".toList

/-- The files of the example. -/
noncomputable def exFiles : Files := fun n =>
  if n = arenaRes exDirs demoTask then some ([exRowA].flatMap (writeRow exPr96))
  else if n = obsRes exDirs demoTask then some ([exRowO].flatMap (writeRow exPr96))
  else if n = robotRes exDirs demoTask then some ([exRowR].flatMap (writeRow exPr96))
  else if n = endsRes exDirs demoTask then some ([exRowE, exRowE].flatMap (writeRow exPr96))
  else if n = exQuatFile then some (exRowQ.flatMap (writeRow exPr96))
  else none

theorem demoTask_plain : demoTask.Plain := by
  unfold Task.Plain
  decide +kernel

theorem exStof_num (x : ℝ) (h : x ∈ [(0 : ℝ), 1, 2, 5, 10]) : exStof (exPr96 x) = .val (id x) := by
  simp only [List.mem_cons, List.not_mem_nil, or_false] at h
  rcases h with h | h | h | h | h
  · exact exStof_pr96 0 (by norm_num) (by rw [h]; norm_num)
  · exact exStof_pr96 1 (by norm_num) (by rw [h]; norm_num)
  · exact exStof_pr96 2 (by norm_num) (by rw [h]; norm_num)
  · exact exStof_pr96 5 (by norm_num) (by rw [h]; norm_num)
  · exact exStof_pr96 10 (by norm_num) (by rw [h]; norm_num)

theorem exRows_read (rows : List (List ℝ)) (h : ∀ r ∈ rows, ∀ x ∈ r, x ∈ [(0 : ℝ), 1, 2, 5, 10]) :
    parseCsv exStof (some (rows.flatMap (writeRow exPr96))) = .ok rows := by
  rw [C77_rows_read_back exStof exPr96 exPr96_ok rows id fun r hr x hx => exStof_num x (h r hr x hx)]
  simp

theorem convertObject_still (a b c e1 e2 x y z : ℝ) : convertObject [a, b, c, e1, e2, x, y, z, 1, 0, 0, 0] =
    .ok [a, b, c, e1, e2, x, y, z, 1, 0, 0, 0] := by
  simp [convertObject, axisAngleQuat]

theorem exModel (a b c e1 e2 x y z : ℝ) (h : ∀ t ∈ [a, b, c, e1, e2, x, y, z], t ∈ [(0 : ℝ), 1, 2, 5, 10]) :
    parseGeometricModel exStof exPr96 (some ([[a, b, c, e1, e2, x, y, z, 1, 0, 0, 0]].flatMap (writeRow exPr96))) =
      .ok ([[a, b, c, e1, e2, x, y, z, 1, 0, 0, 0]].flatMap (writeRow exPr96)) := by
  have hr : ∀ r ∈ [[a, b, c, e1, e2, x, y, z, 1, 0, 0, 0]], ∀ t ∈ r, t ∈ [(0 : ℝ), 1, 2, 5, 10] := by
    intro r hr t ht
    obtain rfl := List.mem_singleton.1 hr
    have : t ∈ [a, b, c, e1, e2, x, y, z] ++ [1, 0, 0, 0] := ht
    rcases List.mem_append.1 this with h' | h'
    · exact h t h'
    · simp only [List.mem_cons, List.not_mem_nil, or_false] at h' ⊢
      tauto
  unfold parseGeometricModel
  rw [exRows_read _ hr, Res.bind_ok', List.foldlM_cons, convertObject_still, Res.bind_ok']
  simp [Res.bind_ok]

theorem exEnds : parseStartGoalConfig exStof exPr96 .other .space (some ([exRowE, exRowE].flatMap (writeRow exPr96))) =
    .ok ([exRowE, exRowE].flatMap (writeRow exPr96)) := by
  have hr : ∀ r ∈ [exRowE, exRowE], ∀ t ∈ r, t ∈ [(0 : ℝ), 1, 2, 5, 10] := by
    intro r hr t ht
    simp only [List.mem_cons, List.not_mem_nil, or_false] at hr
    rcases hr with rfl | rfl <;> simp only [exRowE, List.mem_cons, List.not_mem_nil, or_false] at ht ⊢ <;> tauto
  have hc : convertConfig .other .space exRowE = .ok (some exRowE) := by
    simp [convertConfig, exRowE, Res.at', axisAngleQuat, columns, RobotKind.numDOF, show List.range 7 = [0, 1, 2, 3, 4, 5, 6] from rfl,
      Res.bind_ok]
  unfold parseStartGoalConfig
  rw [exRows_read _ hr, Res.bind_ok']
  simp [hc, Res.bind_ok]

/-- The files after the conversion. -/
noncomputable def exAfter : Files := fun n =>
  if n = arenaCfg exDirs demoTask.dim then some ([exRowA].flatMap (writeRow exPr96))
  else if n = obsCfg exDirs demoTask.dim then some ([exRowO].flatMap (writeRow exPr96))
  else if n = robotCfg exDirs demoTask.dim then some ([exRowR].flatMap (writeRow exPr96))
  else if n = endsCfg exDirs demoTask.dim then some ([exRowE, exRowE].flatMap (writeRow exPr96))
  else exFiles n

theorem exAfter_cfg : exAfter (arenaCfg exDirs demoTask.dim) = some ([exRowA].flatMap (writeRow exPr96)) ∧
    exAfter (obsCfg exDirs demoTask.dim) = some ([exRowO].flatMap (writeRow exPr96)) ∧
    exAfter (robotCfg exDirs demoTask.dim) = some ([exRowR].flatMap (writeRow exPr96)) ∧
    exAfter (endsCfg exDirs demoTask.dim) = some ([exRowE, exRowE].flatMap (writeRow exPr96)) ∧
    exAfter exQuatFile = some (exRowQ.flatMap (writeRow exPr96)) := by
  unfold exAfter
  refine ⟨if_pos rfl, ?_, ?_, ?_, ?_⟩
  · rw [if_neg (by decide +kernel), if_pos rfl]
  · rw [if_neg (by decide +kernel), if_neg (by decide +kernel), if_pos rfl]
  · rw [if_neg (by decide +kernel), if_neg (by decide +kernel), if_neg (by decide +kernel), if_pos rfl]
  · rw [if_neg (by decide +kernel), if_neg (by decide +kernel), if_neg (by decide +kernel), if_neg (by decide +kernel)]
    unfold exFiles
    rw [if_neg (by decide +kernel), if_neg (by decide +kernel), if_neg (by decide +kernel), if_neg (by decide +kernel), if_pos rfl]

theorem exDirs_ne : exDirs.cfg ≠ exDirs.resDim demoTask := by decide +kernel

/-- `C96_config_files` applies: the resource files of the example are converted. -/
theorem exConfig : parsePlanningConfig exStof exPr96 exDirs demoTask exFiles = .ok exAfter := by
  have f1 : exFiles (arenaRes exDirs demoTask) = some ([exRowA].flatMap (writeRow exPr96)) := if_pos rfl
  have f2 : exFiles (obsRes exDirs demoTask) = some ([exRowO].flatMap (writeRow exPr96)) := by
    unfold exFiles; rw [if_neg (by decide +kernel), if_pos rfl]
  have f3 : exFiles (robotRes exDirs demoTask) = some ([exRowR].flatMap (writeRow exPr96)) := by
    unfold exFiles; rw [if_neg (by decide +kernel), if_neg (by decide +kernel), if_pos rfl]
  have f4 : exFiles (endsRes exDirs demoTask) = some ([exRowE, exRowE].flatMap (writeRow exPr96)) := by
    unfold exFiles; rw [if_neg (by decide +kernel), if_neg (by decide +kernel), if_neg (by decide +kernel), if_pos rfl]
  obtain ⟨a1, a2, a3, a4, -⟩ := exAfter_cfg
  refine (C96_config_files demoTask_plain exDirs_ne).2 ⟨_, _, _, _, ?_, ?_, ?_, ?_, a1, a2, a3, a4, ?_⟩
  · rw [f1]; exact exModel 10 10 10 1 1 10 10 10 (by intro t ht; simp only [List.mem_cons, List.not_mem_nil, or_false] at ht ⊢; tauto)
  · rw [f2]; exact exModel 2 2 2 1 1 10 10 10 (by intro t ht; simp only [List.mem_cons, List.not_mem_nil, or_false] at ht ⊢; tauto)
  · rw [f3]; exact exModel 5 5 5 1 1 0 0 0 (by intro t ht; simp only [List.mem_cons, List.not_mem_nil, or_false] at ht ⊢; tauto)
  · rw [f4]; exact exEnds
  · intro n hn
    simp only [cfgFiles, List.mem_cons, List.not_mem_nil, or_false, not_or] at hn
    obtain ⟨h1, h2, h3, h4⟩ := hn
    unfold exAfter
    rw [if_neg h1, if_neg h2, if_neg h3, if_neg h4]

theorem exLoad (a b c e1 e2 x y z : ℝ) (h : ∀ t ∈ [a, b, c, e1, e2, x, y, z], t ∈ [(0 : ℝ), 1, 2, 5, 10]) :
    loadQuadrics exStof 1 (some ([[a, b, c, e1, e2, x, y, z, 1, 0, 0, 0]].flatMap (writeRow exPr96))) =
      .ok [⟨a, b, c, e1, e2, ![x, y, z], (1, 0, 0, 0), 1⟩] := by
  unfold loadQuadrics
  rw [exRows_read]
  · simp [loadAll, loadQuadric, Res.idx, Res.bind_ok]
  · intro r hr t ht
    obtain rfl := List.mem_singleton.1 hr
    have : t ∈ [a, b, c, e1, e2, x, y, z] ++ [1, 0, 0, 0] := ht
    rcases List.mem_append.1 this with h' | h'
    · exact h t h'
    · simp only [List.mem_cons, List.not_mem_nil, or_false] at h' ⊢
      tauto

theorem exSetup : setupDemo3 exStof exPr96 exDirs demoTask exQuatFile 1 exFiles = .ok (exAfter,
    .new (Tree3.new exBody96) [exHalf, exQ0] [exArena96] [exObs96] exConf96 exConf96 exPar96 true) := by
  obtain ⟨a1, a2, a3, a4, a5⟩ := exAfter_cfg
  change exAfter (arenaCfg exDirs "3D".toList) = _ at a1
  change exAfter (obsCfg exDirs "3D".toList) = _ at a2
  change exAfter (robotCfg exDirs "3D".toList) = _ at a3
  change exAfter (endsCfg exDirs "3D".toList) = _ at a4
  have hA : loadQuadrics exStof 1 (some ([exRowA].flatMap (writeRow exPr96))) = .ok [exArena96] :=
    exLoad 10 10 10 1 1 10 10 10 (by intro t ht; simp only [List.mem_cons, List.not_mem_nil, or_false] at ht ⊢; tauto)
  have hO : loadQuadrics exStof 1 (some ([exRowO].flatMap (writeRow exPr96))) = .ok [exObs96] :=
    exLoad 2 2 2 1 1 10 10 10 (by intro t ht; simp only [List.mem_cons, List.not_mem_nil, or_false] at ht ⊢; tauto)
  have hR : loadQuadrics exStof 1 (some ([exRowR].flatMap (writeRow exPr96))) = .ok [exBody96] :=
    exLoad 5 5 5 1 1 0 0 0 (by intro t ht; simp only [List.mem_cons, List.not_mem_nil, or_false] at ht ⊢; tauto)
  have hE : parseCsv exStof (some ([exRowE, exRowE].flatMap (writeRow exPr96))) = .ok [exRowE, exRowE] := by
    refine exRows_read _ fun r hr t ht => ?_
    simp only [List.mem_cons, List.not_mem_nil, or_false] at hr
    rcases hr with rfl | rfl <;> simp only [exRowE, List.mem_cons, List.not_mem_nil, or_false] at ht ⊢ <;> tauto
  have hQ : parseCsv exStof (some (exRowQ.flatMap (writeRow exPr96))) = .ok exRowQ := by
    refine exRows_read _ fun r hr t ht => ?_
    simp only [exRowQ, List.mem_cons, List.not_mem_nil, or_false] at hr
    rcases hr with rfl | rfl <;> simp only [List.mem_cons, List.not_mem_nil, or_false] at ht ⊢ <;> tauto
  have hqs : loadQuats exStof (some (some (exRowQ.flatMap (writeRow exPr96)))) = .ok [exHalf, exQ0] := by
    unfold loadQuats
    dsimp only
    rw [hQ]
    simp [loadAll, loadQuat, exRowQ, Res.idx, exHalf, exQ0, Res.bind_ok]
  unfold setupDemo3
  rw [exConfig, Res.bind_ok']
  unfold loadEnvironment3
  rw [a1, a2, a4, hA, Res.bind_ok', hO, Res.bind_ok', hE, Res.bind_ok', Res.bind_ok', if_neg (by decide +kernel), a3, a5]
  unfold loadRobot3
  rw [hR, Res.bind_ok', hqs]
  simp only [Res.idx, Res.at', List.getElem?_cons_zero, List.getElem?_cons_succ, Res.bind_ok', List.drop_one, List.tail_cons,
    List.foldl_nil]
  rw [exPar96_derived, Res.bind_ok']
  rfl

/-- The program ends normally on the files of the example and stores a path. -/
theorem C96_witness (sort : StdSort ℝ) (dmin dmax : ℝ) (svd : SvdFun 3) (pick : ℕ → (ℕ → ℝ) → List ℕ → ℕ)
    (hpick : HeapTop pick) (junk : Option Quat) (rand : ℕ → Quat) (randJoint : ℕ → ℕ → ℝ) (clock : ℕ → ℝ) (timeLim : ℝ)
    (prN : Option ℝ → List Char) (suffix : List Char) :
    ∃ fs' path vertices, demoHRM3D ⟨sort, dmin, dmax, svd, pick, exAng, junk, rand, randJoint⟩ ⟨none, none⟩ exStof exPr96 prN exDirs
      demoTask exQuatFile 1 suffix clock timeLim 0 exFiles = some (.ok fs') ∧
      fs' (outFile exDirs "solution_path".toList suffix) = some (writeRows exPr96 path) ∧ path.length = 3 ∧
      fs' (outFile exDirs "vertex".toList suffix) = some (writeRows exPr96 vertices) ∧ vertices.length = 8 := by
  obtain ⟨r', h, -, hl, hv⟩ := plan96 sort dmin dmax svd pick hpick junk rand randJoint clock timeLim
  refine ⟨storePath exPr96 prN exDirs suffix r'.st.res.pathId r'.solvedPath r'.interpolated
    (storeGraph exPr96 exDirs suffix r'.st.graph exAfter), r'.solvedPath, r'.st.graph.vertex, ?_, ?_, hl, ?_, hv⟩
  · unfold demoHRM3D
    rw [exSetup]
    dsimp only
    rw [h]
    rfl
  · unfold storePath
    rw [Files.put_ne, Files.put_same]
    intro e
    have h1 := List.append_cancel_left e
    simp at h1
  · have hn := outFiles_nodup exDirs suffix
    simp only [outFiles, List.map_cons, List.map_nil, List.nodup_cons, List.mem_cons, List.not_mem_nil, or_false, not_or] at hn
    obtain ⟨⟨n1, n2, n3, n4⟩, -⟩ := hn
    unfold storePath storeGraph
    rw [Files.put_ne _ _ n4, Files.put_ne _ _ n3, Files.put_ne _ _ n2, Files.put_ne _ _ n1, Files.put_same]

theorem exPr96_back (x : ℝ) : exStof (exPr96 x) = .val (readBack exStof exPr96 x) := by
  refine readBack_val exPr96_num fun h => ?_
  unfold exPr96 at h
  rw [exStof_ok.nat _ (min_le_right _ _)] at h
  exact nomatch h

theorem exTask96 : kindOf demoTask.robot = .other ∧ exQuatFile ≠ "0".toList ∧ exQuatFile ∉ cfgFiles exDirs demoTask.dim := by
  refine ⟨by decide +kernel, by decide +kernel, by decide +kernel⟩

/-- `C96_demo_end_to_end` and `C96_results_agree` apply to this run: the files read back give a path of three rows, the
middle one a stored vertex. -/
example (sort : StdSort ℝ) (dmin dmax : ℝ) (svd : SvdFun 3) (clock : ℕ → ℝ) (timeLim : ℝ) (suffix : List Char) :
    ∃ fs' W E I S, demoHRM3D ⟨sort, dmin, dmax, svd, anyTop, exAng, none, fun _ => exQ0, fun _ _ => 0⟩ ⟨none, none⟩ exStof exPr96
      (fun x => exPr96 (x.getD 0)) exDirs demoTask exQuatFile 1 suffix clock timeLim 0 exFiles = some (.ok fs') ∧
      parseCsv exStof (fs' (outFile exDirs "vertex".toList suffix)) = .ok W ∧
      parseCsv exStof (fs' (outFile exDirs "edge".toList suffix)) = .ok E ∧
      parseCsv exStof (fs' (outFile exDirs "path_id".toList suffix)) = .ok I ∧
      parseCsv exStof (fs' (outFile exDirs "solution_path".toList suffix)) = .ok S ∧
      ∃ (i : ℕ) (first last v : List ℝ), I = [[(i : ℝ)]] ∧ S = [first, v, last] ∧ W[i]? = some v := by
  obtain ⟨fs', path, vs, h, hp, hl, hv, hvl⟩ := C96_witness sort dmin dmax svd anyTop anyTop_heap none (fun _ => exQ0)
    (fun _ _ => 0) clock timeLim (fun x => exPr96 (x.getD 0)) suffix
  obtain ⟨t1, t2, t3⟩ := exTask96
  obtain ⟨-, rows, row0, row1, cs, cg, vertices, edges, ids, path', -, -, -, -, -, -, f1, f2, f3, f4, -, g1, g2, -⟩ :=
    C96_demo_end_to_end _ _ rfl anyTop_heap exPr96_ok exPr96_num (fun _ => rfl) demoTask_plain exDirs_ne rfl t1 t2 t3 h
  have rd : ∀ rows, parseCsv exStof (some (writeRows exPr96 rows)) = .ok (rows.map (·.map (readBack exStof exPr96))) :=
    fun rows => C49_roundtrip_partial exStof exPr96 exPr96_ok rows _ fun _ _ x _ => exPr96_back x
  have hW : parseCsv exStof (fs' (outFile exDirs "vertex".toList suffix)) = _ := (congrArg _ f1).trans (rd _)
  have hW' : parseCsv exStof (fs' (outFile exDirs "vertex".toList suffix)) = _ := (congrArg _ hv).trans (rd _)
  have hS : parseCsv exStof (fs' (outFile exDirs "solution_path".toList suffix)) = _ := (congrArg _ hp).trans (rd _)
  have hvl' : vertices.length = 8 := by
    have := congrArg List.length ((Res.ok.injEq _ _).mp (hW.symm.trans hW'))
    simpa [hvl] using this
  have hE : parseCsv exStof (fs' (outFile exDirs "edge".toList suffix)) = _ :=
    (congrArg _ f2).trans (C49_edges exStof exStof_ok edges fun e he => by have := g1 e he; rw [hvl'] at this; norm_num; omega)
  have hI : parseCsv exStof (fs' (outFile exDirs "path_id".toList suffix)) = _ :=
    (congrArg _ f3).trans (C49_path_ids exStof exStof_ok ids fun i hi => by have := g2 i hi; rw [hvl'] at this; norm_num; omega)
  refine ⟨fs', _, _, _, _, h, hW, hE, hI, hS, ?_⟩
  rcases C96_results_agree _ _ rfl anyTop_heap exStof_ok exPr96_ok exPr96_num (fun _ => rfl) demoTask_plain exDirs_ne rfl t1 t2 t3 h
    hW hE hI hS (by rw [List.length_map, hvl']; norm_num) with ⟨e, -⟩ | ⟨ids', first, last, mid, e1, -, e2, e3, e4, -⟩
  · rw [List.map_eq_nil_iff] at e
    rw [e] at hl
    exact nomatch hl
  · have hm : mid.length = 1 := by
      have := congrArg List.length e2
      simp only [List.length_map, hl, List.length_cons, List.length_append, List.length_nil] at this
      omega
    obtain ⟨v, rfl⟩ := List.length_eq_one_iff.1 hm
    obtain ⟨i, rfl⟩ := List.length_eq_one_iff.1 (e3.symm.trans hm)
    exact ⟨i, first, last, v, e1, e2, ((e4 0 i rfl).2).symm⟩

/-- `C96_planner_of_resources` applies to the files of the example. -/
example : ∃ fs' P, setupDemo3 exStof exPr96 exDirs demoTask exQuatFile 1 exFiles = .ok (fs', P) ∧ P.obs = [exObs96] ∧
    ∃ tb, parseGeometricModel exStof exPr96 (exFiles (obsRes exDirs demoTask)) = .ok tb ∧
      loadQuadrics exStof 1 (some tb) = .ok P.obs := by
  obtain ⟨-, ta, tb, tr, te, ends, robot, quats, arena, obs, start, goal, par, -, hb, -, -, -, hlo, -, -, -, -, -, hP⟩ :=
    C96_planner_of_resources demoTask_plain exDirs_ne rfl exTask96.2.1 exTask96.2.2 exSetup
  have ho : obs = [exObs96] := (congrArg Planner3.obs hP).symm
  exact ⟨_, _, exSetup, rfl, tb, hb, by rw [hlo, ho]; rfl⟩

/-- A planar task. -/
def exTask2 : Task := ⟨"superellipse".toList, "sparse".toList, "rabbit".toList, "2D".toList⟩

/-- The spatial configuration files of the example and, in every other file, one planar object. -/
noncomputable def exFiles2 : Files := fun n =>
  if n ∈ cfgFiles exDirs demoTask.dim then exAfter n else some ([[1, 1, 1, 0, 0, 0]].flatMap (writeRow exPr96))

/-- `C96_other_dimension_stale` applies: after a planar task, a spatial setting still has the arena of the earlier program. -/
example : ∃ fs' S, parsePlanningConfig exStof exPr96 exDirs exTask2 exFiles2 = .ok fs' ∧
    loadEnvironment3 exStof 1 exDirs fs' = .ok S ∧ S.arena = [exArena96] := by
  have hp : exTask2.Plain := by unfold Task.Plain; decide +kernel
  have hne : exDirs.cfg ≠ exDirs.resDim exTask2 := by decide +kernel
  set t := [[(1 : ℝ), 1, 1, 0, 0, 0]].flatMap (writeRow exPr96) with ht
  have f : ∀ n, n ∉ cfgFiles exDirs demoTask.dim → exFiles2 n = some t := fun n hn => if_neg hn
  have g1 : arenaRes exDirs exTask2 ∉ cfgFiles exDirs demoTask.dim := by decide +kernel
  have g2 : obsRes exDirs exTask2 ∉ cfgFiles exDirs demoTask.dim := by decide +kernel
  have g3 : robotRes exDirs exTask2 ∉ cfgFiles exDirs demoTask.dim := by decide +kernel
  have g4 : endsRes exDirs exTask2 ∉ cfgFiles exDirs demoTask.dim := by decide +kernel
  have hk : kindOf exTask2.robot = .other := by decide +kernel
  have hd : dimOf exTask2.dim = .plane := by decide +kernel
  have hread : parseCsv exStof (some t) = .ok [[1, 1, 1, 0, 0, 0]] := by
    refine exRows_read _ fun r hr x hx => ?_
    obtain rfl := List.mem_singleton.1 hr
    simp only [List.mem_cons, List.not_mem_nil, or_false] at hx ⊢
    tauto
  have hm : parseGeometricModel exStof exPr96 (some t) = .ok t := by
    unfold parseGeometricModel
    rw [hread, Res.bind_ok', ht]
    simp [convertObject, Res.bind_ok]
  have hs : ∃ te, parseStartGoalConfig exStof exPr96 .other .plane (some t) = .ok te := by
    unfold parseStartGoalConfig
    rw [hread, Res.bind_ok']
    simp [convertConfig, columns, Res.at', Res.bind_ok, show List.range 3 = [0, 1, 2] from rfl]
  obtain ⟨te, hs⟩ := hs
  have hcfg : ∃ fs', parsePlanningConfig exStof exPr96 exDirs exTask2 exFiles2 = .ok fs' := by
    unfold parsePlanningConfig
    dsimp only
    have hn := res_ne_cfg hp hne
    rw [f _ g1, hm, Res.bind_ok', Files.put_ne _ _ (by decide +kernel), f _ g2, hm, Res.bind_ok', Files.put_ne _ _ (by decide +kernel),
      Files.put_ne _ _ (by decide +kernel), f _ g3, hm, Res.bind_ok', Files.put_ne _ _ (by decide +kernel),
      Files.put_ne _ _ (by decide +kernel), Files.put_ne _ _ (by decide +kernel), f _ g4, hk, hd, hs]
    exact ⟨_, rfl⟩
  obtain ⟨fs', hc⟩ := hcfg
  have hstale := C96_other_dimension_stale hp hne (by decide +kernel) hc 1
  obtain ⟨a1, a2, a3, a4, -⟩ := exAfter_cfg
  have e : ∀ n ∈ cfgFiles exDirs demoTask.dim, exFiles2 n = exAfter n := fun n hn => if_pos hn
  have hA : loadQuadrics exStof 1 (some ([exRowA].flatMap (writeRow exPr96))) = .ok [exArena96] :=
    exLoad 10 10 10 1 1 10 10 10 (by intro t ht; simp only [List.mem_cons, List.not_mem_nil, or_false] at ht ⊢; tauto)
  have hO : loadQuadrics exStof 1 (some ([exRowO].flatMap (writeRow exPr96))) = .ok [exObs96] :=
    exLoad 2 2 2 1 1 10 10 10 (by intro t ht; simp only [List.mem_cons, List.not_mem_nil, or_false] at ht ⊢; tauto)
  have hE : parseCsv exStof (some ([exRowE, exRowE].flatMap (writeRow exPr96))) = .ok [exRowE, exRowE] := by
    refine exRows_read _ fun r hr t ht => ?_
    simp only [List.mem_cons, List.not_mem_nil, or_false] at hr
    rcases hr with rfl | rfl <;> simp only [exRowE, List.mem_cons, List.not_mem_nil, or_false] at ht ⊢ <;> tauto
  refine ⟨fs', ⟨[exArena96], [exObs96], [exRowE, exRowE]⟩, hc, ?_, rfl⟩
  rw [hstale]
  unfold loadEnvironment3
  change exAfter (arenaCfg exDirs "3D".toList) = _ at a1
  have b1 := e (arenaCfg exDirs "3D".toList) (by decide +kernel)
  rw [a1] at b1
  change exAfter (obsCfg exDirs "3D".toList) = _ at a2
  have b2 := e (obsCfg exDirs "3D".toList) (by decide +kernel)
  rw [a2] at b2
  change exAfter (endsCfg exDirs "3D".toList) = _ at a4
  have b4 := e (endsCfg exDirs "3D".toList) (by decide +kernel)
  rw [a4] at b4
  rw [b1, b2, b4, hA, Res.bind_ok', hO, Res.bind_ok', hE, Res.bind_ok']

end Hrm
