import Verif.Props.DemoProbWitness
import Verif.Props.ProbPath

/-!
# C98 – the path stored by the demonstration programs avoids the obstacles of the resource files

C96/C97 (from files to files) composed with C87/C93 (safety of the path returned).
-/

namespace Hrm

theorem addedBodies_adds (ls : List SuperQuadrics) : addedBodies (ls.map .add : List (RobotOp SuperQuadrics 3)) = ls := by
  induction ls with
  | nil => rfl
  | cons a l ih => simp [addedBodies]

/-- The programs do not change the default number of steps of a check. -/
theorem numPoint_default {robot : Tree3} {quats : List Quat} {arena obs : List SuperQuadrics} {par : Param3}
    (hpar : defineParameters3 robot quats arena obs defaultParam3 = .ok par) : par.numPoint = 5 := by
  unfold defineParameters3 at hpar
  obtain ⟨A, -, hpar⟩ := Res.bind_eq_ok.1 hpar
  dsimp only at hpar
  split at hpar
  · obtain ⟨_, -, hpar⟩ := Res.bind_eq_ok.1 hpar
    obtain ⟨_, -, hpar⟩ := Res.bind_eq_ok.1 hpar
    obtain ⟨_, -, hpar⟩ := Res.bind_eq_ok.1 hpar
    obtain ⟨_, -, hpar⟩ := Res.bind_eq_ok.1 hpar
    obtain ⟨_, -, hpar⟩ := Res.bind_eq_ok.1 hpar
    rw [← (Res.ok.injEq _ _).mp hpar]; rfl
  · rw [← (Res.ok.injEq _ _).mp hpar]; rfl

/-- **C98 (partial)** Whenever the demonstration program for rigid bodies ends normally, the path it stores is empty, or
each stored configuration between the first and the last is outside every obstacle mesh (`PlaceSafe3`) and each step between
two of them is safe in the sense of `StepSafe3`, with respect to the obstacles and the robot in this task's resource files
(provided the orientations in their file are unit quaternions and the sweep lines are in general position).
Missing: what is missing in `C87_spatial_path_safe_partial`; in the file, the coordinates are rounded by the printer. -/
theorem C98_stored_path_safe_partial (L : Libs3) (V : Variant) (hV : V.arm = none) (hpick : HeapTop L.pick)
    {stof : List Char → Scan} {pr : ℝ → List Char} (hpr : PrintOk pr) (hnum : ∀ x, stof (pr x) ≠ .invalid)
    {prN : Option ℝ → List Char} {D : Dirs} {T : Task} (hT : T.Plain)
    (hD : D.cfg ≠ D.resDim T) (hdim : T.dim = "3D".toList) (hk : kindOf T.robot = .other) {quatFile : List Char}
    (hq0 : quatFile ≠ "0".toList) (hq : quatFile ∉ cfgFiles D T.dim) {num : ℕ} {suffix : List Char} {clock : ℕ → ℝ}
    {timeLim : ℝ} {fuel : ℕ} {fs fs' : Files}
    (h : demoHRM3D L V stof pr prN D T quatFile num suffix clock timeLim fuel fs = some (.ok fs')) :
    ∃ ta tb tr te ends first last arena obs b ls robot quats par B M path,
      parseGeometricModel stof pr (fs (arenaRes D T)) = .ok ta ∧ loadQuadrics stof num (some ta) = .ok arena ∧
      parseGeometricModel stof pr (fs (obsRes D T)) = .ok tb ∧ loadQuadrics stof num (some tb) = .ok obs ∧
      parseGeometricModel stof pr (fs (robotRes D T)) = .ok tr ∧ loadQuadrics stof num (some tr) = .ok (b :: ls) ∧
      parseStartGoalConfig stof pr (kindOf T.robot) .space (fs (endsRes D T)) = .ok te ∧
      parseCsv stof (some te) = .ok ends ∧ ends[0]? = some first ∧ ends[1]? = some last ∧
      loadRobot3 stof num (some tr) (some (fs quatFile)) = .ok (robot, quats) ∧
      defineParameters3 robot quats arena obs defaultParam3 = .ok par ∧
      cspaceBoundary3 robot arena obs = .ok B ∧ cspaceMesh arena obs B = .ok M ∧
      fs' (outFile D "solution_path".toList suffix) = some (writeRows pr path) ∧
      (path = [] ∨ ∃ mid segs, path = first :: (mid ++ [last]) ∧ mid ≠ [] ∧
        sweep3D L par.zLo par.zHi M par.linesX par.linesY = .ok segs ∧
        ((∀ q ∈ orientations L quats par, q.Unit) → SweepGeneric3 L par M →
          (∀ v ∈ mid, ∃ q ∈ orientations L quats par, SameRotation (quatPart v) q ∧ PlaceSafe3 segs q M v) ∧
          ∀ (k : ℕ) (v w : Vec), mid[k]? = some v → mid[k + 1]? = some w →
            StepSafe3 L V obs b ls par (orientations L quats par) M v w)) := by
  unfold demoHRM3D at h
  cases hset : setupDemo3 stof pr D T quatFile num fs with
  | throw => rw [hset] at h; exact nomatch h
  | ub => rw [hset] at h; exact nomatch h
  | ok v =>
    obtain ⟨fs1, P⟩ := v
    rw [hset] at h
    dsimp only at h
    obtain ⟨hpc, ta, tb, tr, te, ends, robot, quats, arena, obs, start, goal, par, hta, htb, htr, hte, hla, hlo, hrob, hends,
      hs0, hg0, hpar, rfl⟩ := C96_planner_of_resources hT hD hdim hq0 hq hset
    have hte' := hte
    have hends' := hends
    have hs0' := hs0
    have hg0' := hg0
    rw [hk] at hte
    obtain ⟨rows, crows, hrows, rfl, hlen, hconv⟩ := startGoal_inv hte
    obtain ⟨hval, rfl⟩ := writeRow_read hpr hnum hends
    rw [List.getElem?_map] at hs0 hg0
    obtain ⟨cs, hcs, rfl⟩ := Option.map_eq_some_iff.1 hs0
    obtain ⟨cg, hcg, rfl⟩ := Option.map_eq_some_iff.1 hg0
    have l0 := (List.getElem?_eq_some_iff.1 hcs).1
    have l1 := (List.getElem?_eq_some_iff.1 hcg).1
    rw [hlen] at l0 l1
    have c0 := hconv 0 _ cs (List.getElem?_eq_getElem l0) hcs
    have c1 := hconv 1 _ cg (List.getElem?_eq_getElem l1) hcg
    obtain ⟨b, ls, hlb, hrun⟩ := loadRobot3_run hrob
    have hane : arena ≠ [] := by
      rintro rfl
      exact nomatch hpar
    have hnp := numPoint_default hpar
    obtain ⟨B, hB, b1, b2, -⟩ := cspaceBoundary3_ok (run_inv_of3 hrun) arena obs
    obtain ⟨M, hM, -, -⟩ := cspaceMesh_ok b1 b2
    cases hplan : Planner3.plan L V clock timeLim fuel (freshRep3 (.new robot quats arena obs
        (cs.map (readBack stof pr)) (cg.map (readBack stof pr)) par true)) with
    | none => rw [hplan] at h; exact nomatch h
    | some x =>
      rw [hplan] at h
      obtain ⟨r', rfl, h'⟩ := Res.bind_eq_ok.1 (Option.some.inj h)
      obtain rfl := (Res.ok.injEq _ _).mp h'
      have e1 : (cs.map (readBack stof pr)).length = 7 := by rw [List.length_map, convertConfig_length c0]; rfl
      have e2 : (cg.map (readBack stof pr)).length = 7 := by rw [List.length_map, convertConfig_length c1]; rfl
      refine ⟨ta, tb, tr, _, _, _, _, arena, obs, b, ls, robot, quats, par, B, M, r'.solvedPath, hta, hla, htb, hlo, htr, hlb, hte', hends', hs0', hg0',
        hrob, hpar, hB, hM,
        ?_, ?_⟩
      · have hnd := outFiles_nodup D suffix
        simp only [outFiles, List.map_cons, List.map_nil, List.nodup_cons, List.mem_cons, List.not_mem_nil, or_false, not_or,
          List.nodup_nil, and_true, not_false_eq_true] at hnd
        unfold storePath
        rw [Files.put_ne _ _ hnd.2.2.2, Files.put_same]
      · by_cases hsol : r'.st.res.solved = true
        · refine Or.inr ?_
          by_cases hu : ∀ q ∈ orientations L quats par, q.Unit
          · obtain ⟨B', M', segs, mid, hB', hM', hsegs, hp, hm, hsafe⟩ := C87_spatial_path_safe_partial L V hV hpick b _ robot
              hrun quats arena obs (Or.inl hane) _ _ e1 e2 par (by rw [hnp]; norm_num) hu clock timeLim fuel r' hplan hsol
            rw [hB] at hB'
            obtain rfl := (Res.ok.injEq _ _).mp hB'
            rw [hM] at hM'
            obtain rfl := (Res.ok.injEq _ _).mp hM'
            rw [addedBodies_adds] at hsafe
            exact ⟨mid, segs, hp, hm, hsegs, fun _ hg => hsafe hg⟩
          · obtain ⟨B', M', segs, mid, hB', hM', hsegs, hp, hm, -⟩ := C73_spatial_plan_end_to_end L V hV hpick b _ robot
              hrun quats arena obs (Or.inl hane) _ _ e1 e2 par clock timeLim fuel r' hplan hsol
            rw [hB] at hB'
            obtain rfl := (Res.ok.injEq _ _).mp hB'
            rw [hM] at hM'
            obtain rfl := (Res.ok.injEq _ _).mp hM'
            exact ⟨mid, segs, hp, hm, hsegs, fun h => absurd h hu⟩
        · have hf : r'.st.res.solved = false := by simpa using hsol
          exact Or.inl ((C32_plan_report _ _ _ _ _ _ hplan).2.2.2 hf).1

/-- **C98 (partial)**, for articulated robots, with the flag of the tests (C97): the path stored is empty, or each stored
configuration between the first and the last is placed as `PlaceSafeJ` says and each step between two of them is safe in the
sense of `StepSafeJ`, with respect to the obstacles, the robot and the robot description in this task's resource files
(provided the orientations sampled are unit quaternions and the sweep lines are in general position).
Missing: what is missing in `C93_incremental_path_safe_partial`. -/
theorem C98_articulated_path_safe_partial (L : Libs3) (hpick : HeapTop L.pick) {urdf : Option (List Char) → Option UrdfModel}
    {gq : Matrix (Fin 3) (Fin 3) ℝ → Quat} {stof : List Char → Scan} {pr : ℝ → List Char} (hpr : PrintOk pr)
    (hnum : ∀ x, stof (pr x) ≠ .invalid) {prN : Option ℝ → List Char} {D : Dirs} {T : Task} (hT : T.Plain)
    (hD : D.cfg ≠ D.resDim T) (hdim : T.dim = "3D".toList) (hu : urdfFile D T.robot ∉ cfgFiles D T.dim) {M : UrdfModel}
    {fs : Files} (hM : urdf (fs (urdfFile D T.robot)) = some M) (hok : M.Ok)
    (hdof : (kindOf T.robot).numDOF = 6 + (movableNames (linkJoints M.children)).length) {num : ℕ} {suffix : List Char}
    {clock : ℕ → ℝ} {timeLim : ℝ} {fuel : ℕ} {fs' : Files}
    (h : demoProb3D L urdf gq stof pr prN D T false num suffix clock timeLim fuel fs = some (.ok fs')) :
    ∃ ta tb tr te ends first last arena obs b ls robot par B S path,
      parseGeometricModel stof pr (fs (arenaRes D T)) = .ok ta ∧ loadQuadrics stof num (some ta) = .ok arena ∧
      parseGeometricModel stof pr (fs (obsRes D T)) = .ok tb ∧ loadQuadrics stof num (some tb) = .ok obs ∧
      parseGeometricModel stof pr (fs (robotRes D T)) = .ok tr ∧ loadQuadrics stof num (some tr) = .ok (b :: ls) ∧
      parseStartGoalConfig stof pr (kindOf T.robot) .space (fs (endsRes D T)) = .ok te ∧
      parseCsv stof (some te) = .ok ends ∧ ends[0]? = some first ∧ ends[1]? = some last ∧
      Tree3.run (ls.map .add) (.new b) = .ok robot ∧
      defineParameters3 robot [] arena obs defaultParam3 = .ok par ∧
      cspaceBoundary3 robot arena obs = .ok B ∧ cspaceMesh arena obs B = .ok S ∧
      fs' (outFile D "solution_path".toList suffix) = some (writeRows pr path) ∧
      (path = [] ∨ ∃ mid segs k, path = first :: (mid ++ [last]) ∧ mid ≠ [] ∧ 0 < k ∧ k < 60 ∧
        sweep3D L par.zLo par.zHi S par.linesX par.linesY = .ok segs ∧
        ((∀ i, (probSample L (armOf gq (parseURDF (some M))) first last i).1.Unit) → SweepGeneric3 L par S →
          (∀ v ∈ mid, ∃ i < k, SameRotation (quatPart v) (probSample L (armOf gq (parseURDF (some M))) first last i).1 ∧
            v.drop 7 = (probSample L (armOf gq (parseURDF (some M))) first last i).2 ∧
            PlaceSafeJ segs (probTail L (armOf gq (parseURDF (some M))) first last i) S v) ∧
          ∀ (n : ℕ) (v w : Vec), mid[n]? = some v → mid[n + 1]? = some w →
            StepSafeJ L ⟨some (armOf gq (parseURDF (some M))), none⟩ (armOf gq (parseURDF (some M))) obs b ls robot par
              first last k S v w)) := by
  unfold demoProb3D at h
  cases hset : setupProb3 stof pr D T false num fs with
  | throw => rw [hset] at h; exact nomatch h
  | ub => rw [hset] at h; exact nomatch h
  | ok v =>
    obtain ⟨fs1, P⟩ := v
    rw [hset] at h
    dsimp only at h
    obtain ⟨hpc, ta, tb, tr, te, ends, robot, arena, obs, start, goal, par, hta, htb, htr, hte, hla, hlo, ⟨b, ls, hlb, hrun⟩, hends,
      hs0, hg0, hpar, rfl⟩ := C97_planner_of_resources hT hD hdim hset
    obtain ⟨_, _, _, _, -, -, -, -, -, -, -, -, hfr⟩ := (C96_config_files hT hD).1 hpc
    have hte' := hte
    have hends' := hends
    have hs0' := hs0
    have hg0' := hg0
    obtain ⟨rows, crows, hrows, rfl, hlen, hconv⟩ := startGoal_inv hte
    obtain ⟨hval, rfl⟩ := writeRow_read hpr hnum hends
    rw [List.getElem?_map] at hs0 hg0
    obtain ⟨cs, hcs, rfl⟩ := Option.map_eq_some_iff.1 hs0
    obtain ⟨cg, hcg, rfl⟩ := Option.map_eq_some_iff.1 hg0
    have l0 := (List.getElem?_eq_some_iff.1 hcs).1
    have l1 := (List.getElem?_eq_some_iff.1 hcg).1
    rw [hlen] at l0 l1
    have c0 := hconv 0 _ cs (List.getElem?_eq_getElem l0) hcs
    have c1 := hconv 1 _ cg (List.getElem?_eq_getElem l1) hcg
    have hane : arena ≠ [] := by
      rintro rfl
      exact nomatch hpar
    have hnp := numPoint_default hpar
    obtain ⟨B, hB, b1, b2, -⟩ := cspaceBoundary3_ok (run_inv_of3 hrun) arena obs
    obtain ⟨S, hS, -, -⟩ := cspaceMesh_ok b1 b2
    rw [hfr _ hu, hM] at h
    have hnJ : (armOf gq (parseURDF (some M))).nJ = (movableNames (linkJoints M.children)).length := C84_joint_number hok
    generalize armOf gq (parseURDF (some M)) = A at h hnJ ⊢
    cases hplan : Planner3.planProb L ⟨some A, none⟩ A clock timeLim fuel (freshRep3 (.new robot [] arena obs
        (cs.map (readBack stof pr)) (cg.map (readBack stof pr)) par false)) with
    | none => rw [hplan] at h; exact nomatch h
    | some x =>
      rw [hplan] at h
      obtain ⟨r', rfl, h'⟩ := Res.bind_eq_ok.1 (Option.some.inj h)
      obtain rfl := (Res.ok.injEq _ _).mp h'
      have e1 : (cs.map (readBack stof pr)).length = 7 + A.nJ := by rw [List.length_map, convertConfig_length c0, hnJ, hdof]; omega
      have e2 : (cg.map (readBack stof pr)).length = 7 + A.nJ := by rw [List.length_map, convertConfig_length c1, hnJ, hdof]; omega
      refine ⟨ta, tb, tr, _, _, _, _, arena, obs, b, ls, robot, par, B, S, r'.solvedPath, hta, hla, htb, hlo, htr, hlb, hte', hends', hs0', hg0',
        hrun, hpar, hB, hS,
        ?_, ?_⟩
      · have hnd := outFiles_nodup D suffix
        simp only [outFiles, List.map_cons, List.map_nil, List.nodup_cons, List.mem_cons, List.not_mem_nil, or_false, not_or,
          List.nodup_nil, and_true, not_false_eq_true] at hnd
        unfold storePath
        rw [Files.put_ne _ _ hnd.2.2.2, Files.put_same]
      · by_cases hsol : r'.st.res.solved = true
        · refine Or.inr ?_
          by_cases huq : ∀ i, (probSample L A (cs.map (readBack stof pr)) (cg.map (readBack stof pr)) i).1.Unit
          · obtain ⟨k, B', M', segs, mid, hk0, hk, hB', hM', hsegs, hp, hm, hsafe⟩ := C93_incremental_path_safe_partial L ⟨some A, none⟩ A
              rfl hpick b _ robot hrun [] arena obs (Or.inl hane) _ _ e1 e2 par (by rw [hnp]; norm_num) false huq clock timeLim fuel
              r' hplan hsol
            rw [hB] at hB'
            obtain rfl := (Res.ok.injEq _ _).mp hB'
            rw [hS] at hM'
            obtain rfl := (Res.ok.injEq _ _).mp hM'
            rw [addedBodies_adds] at hsafe
            exact ⟨mid, segs, k, hp, hm, hk0, hk, hsegs, fun _ hg => hsafe hg⟩
          · obtain ⟨k, hk0, hk, -, hpath⟩ := C75_prob_plan_end_to_end L ⟨some A, none⟩ A rfl hpick b _ robot hrun [] arena obs
              (Or.inl hane) _ _ e1 e2 par false clock timeLim fuel r' hplan
            obtain ⟨B', M', segs, mid, hB', hM', hsegs, hp, hm, -⟩ := hpath hsol
            rw [hB] at hB'
            obtain rfl := (Res.ok.injEq _ _).mp hB'
            rw [hS] at hM'
            obtain rfl := (Res.ok.injEq _ _).mp hM'
            exact ⟨mid, segs, k, hp, hm, hk0, by omega, hsegs, fun h => absurd h huq⟩
        · have hf : r'.st.res.solved = false := by simpa using hsol
          exact Or.inl ((C32_prob_plan_report _ _ _ _ _ _ _ hplan).2.2.2 hf).1

/-! ## The hypotheses can be met -/

/-- Meshes without triangles are in general position. -/
theorem noface_generic {L : Libs3} {par : Param3} {base : SuperQuadrics} {added : List SuperQuadrics} {robot : Tree3}
    (hr : Tree3.Inv base added robot) {a o : SuperQuadrics} (ha : a.num = 1) (ho : o.num = 1) {B : Bound3} {M : BoundMesh}
    (hB : cspaceBoundary3 robot [a] [o] = .ok B) (hM : cspaceMesh [a] [o] B = .ok M) (hy : par.numLineY ≠ 0)
    (hl : L.dmin ≤ par.zLo) (hu : par.zHi ≤ L.dmax) : SweepGeneric3 L par M := by
  obtain ⟨B', hB', b1, b2, b3, b4⟩ := cspaceBoundary3_ok hr [a] [o]
  rw [hB] at hB'
  obtain rfl := (Res.ok.injEq _ _).mp hB'
  obtain ⟨M', hM', m1, m2⟩ := cspaceMesh_ok b1 b2
  rw [hM] at hM'
  obtain rfl := (Res.ok.injEq _ _).mp hM'
  have hface : gridFaces 1 = [] := by decide
  have hmesh : ∀ m ∈ M.arena ++ M.obstacle, m.vertices ≠ [] ∧ m.faces = [] := by
    unfold cspaceMesh at hM
    obtain ⟨A, h1, hM⟩ := Res.bind_eq_ok.1 hM
    obtain ⟨O, h2, hM⟩ := Res.bind_eq_ok.1 hM
    obtain rfl := (Res.ok.injEq _ _).mp hM
    rw [boundMeshes_eq (o := a) rfl, ha] at h1
    rw [boundMeshes_eq (o := o) rfl, ho] at h2
    obtain rfl := (Res.ok.injEq _ _).mp h1
    obtain rfl := (Res.ok.injEq _ _).mp h2
    intro m hm
    rcases List.mem_append.1 hm with hm | hm
    · obtain ⟨b, hb, rfl⟩ := List.mem_map.1 hm
      refine ⟨?_, hface⟩
      obtain ⟨o', ho', hl⟩ := b3 b hb
      obtain rfl := List.mem_singleton.1 ho'
      intro e
      have e' : b.map toV3 = [] := e
      rw [List.map_eq_nil_iff] at e'
      rw [e'] at hl
      simp [SuperQuadrics.minkSum3D, ha] at hl
    · obtain ⟨b, hb, rfl⟩ := List.mem_map.1 hm
      refine ⟨?_, hface⟩
      obtain ⟨o', ho', hl⟩ := b4 b hb
      obtain rfl := List.mem_singleton.1 ho'
      intro e
      have e' : b.map toV3 = [] := e
      rw [List.map_eq_nil_iff] at e'
      rw [e'] at hl
      simp [SuperQuadrics.minkSum3D, ho] at hl
  have hwf : ∀ m ∈ M.arena ++ M.obstacle, m.WF := fun m hm => ⟨(hmesh m hm).1, by rw [(hmesh m hm).2]; simp⟩
  have hno : ∀ m ∈ M.arena ++ M.obstacle, ∀ a b c, ¬ m.HasFace a b c := by
    rintro m hm a b c ⟨f, hf, -⟩
    rw [(hmesh m hm).2] at hf
    exact nomatch hf
  refine ⟨hy, ?_, hl, hu, fun m hm => ⟨hwf m (List.mem_append_left _ hm), ?_⟩, fun m hm => ⟨hwf m (List.mem_append_right _ hm), ?_⟩⟩
  · intro e; rw [e] at m1; rw [b1] at m1; simp at m1; omega
  · intro x _ y _ a b c z h
    exact absurd h (hno m (List.mem_append_left _ hm) a b c)
  · intro x _ y _
    refine ⟨?_, fun a b c p h => absurd h (hno m (List.mem_append_right _ hm) a b c)⟩
    rw [(hmesh m (List.mem_append_right _ hm)).2]
    simp

/-- `C98_stored_path_safe_partial` applies to the run of `C96_witness`: the one configuration stored between start and goal
is placed as it says, with respect to the obstacle of the file. -/
example (sort : StdSort ℝ) (svd : SvdFun 3) (clock : ℕ → ℝ) (timeLim : ℝ) (prN : Option ℝ → List Char) (suffix : List Char) :
    ∃ fs' first last v q segs B M, demoHRM3D ⟨sort, -100, 100, svd, anyTop, exAng, none, fun _ => exQ0, fun _ _ => 0⟩ ⟨none, none⟩ exStof exPr96
      prN exDirs demoTask exQuatFile 1 suffix clock timeLim 0 exFiles = some (.ok fs') ∧
      fs' (outFile exDirs "solution_path".toList suffix) = some (writeRows exPr96 [first, v, last]) ∧
      cspaceBoundary3 (Tree3.new exBody96) [exArena96] [exObs96] = .ok B ∧ cspaceMesh [exArena96] [exObs96] B = .ok M ∧
      q ∈ [exHalf, exQ0] ∧ SameRotation (quatPart v) q ∧ PlaceSafe3 segs q M v := by
  obtain ⟨fs', path, vs, h, hp, hl, -, -⟩ := C96_witness sort (-100) 100 svd anyTop anyTop_heap none (fun _ => exQ0)
    (fun _ _ => 0) clock timeLim prN suffix
  obtain ⟨t1, t2, t3⟩ := exTask96
  set L : Libs3 := ⟨sort, -100, 100, svd, anyTop, exAng, none, fun _ => exQ0, fun _ _ => 0⟩ with hL
  obtain ⟨-, ta, tb, tr, -, -, robot, quats, arena, obs, start, goal, par, hta, htb, htr, -, hla, hlo, hrob, -, -, -, hpar, hP⟩ :=
    C96_planner_of_resources demoTask_plain exDirs_ne rfl t2 t3 exSetup
  obtain rfl : Tree3.new exBody96 = robot := congrArg Planner3.robot hP
  obtain rfl : [exHalf, exQ0] = quats := congrArg Planner3.quatSamples hP
  obtain rfl : [exArena96] = arena := congrArg Planner3.arena hP
  obtain rfl : [exObs96] = obs := congrArg Planner3.obs hP
  obtain rfl : exPar96 = par := congrArg Planner3.par hP
  obtain ⟨ta', tb', tr', -, -, first, last, arena', obs', b, ls, robot', quats', par', B, M, path', k1, k2, k3, k4, k5, -, -, -, -, -, k7, k8, k9, k10, k11, k12⟩ :=
    C98_stored_path_safe_partial L ⟨none, none⟩ rfl anyTop_heap exPr96_ok exPr96_num demoTask_plain exDirs_ne rfl t1 t2 t3 h
  obtain rfl := (Res.ok.injEq _ _).mp (hta.symm.trans k1)
  obtain rfl := (Res.ok.injEq _ _).mp (htb.symm.trans k3)
  obtain rfl := (Res.ok.injEq _ _).mp (htr.symm.trans k5)
  obtain rfl := (Res.ok.injEq _ _).mp (hla.symm.trans k2)
  obtain rfl := (Res.ok.injEq _ _).mp (hlo.symm.trans k4)
  obtain ⟨rfl, rfl⟩ := Prod.mk.inj ((Res.ok.injEq _ _).mp (hrob.symm.trans k7))
  obtain rfl := (Res.ok.injEq _ _).mp (hpar.symm.trans k8)
  have rd : ∀ rows, parseCsv exStof (some (writeRows exPr96 rows)) = .ok (rows.map (·.map (readBack exStof exPr96))) :=
    fun rows => C49_roundtrip_partial exStof exPr96 exPr96_ok rows _ fun _ _ x _ => exPr96_back x
  have hlen : path'.length = 3 := by
    have e := Option.some.inj (hp.symm.trans k11)
    have h1 := rd path
    rw [e, rd path'] at h1
    have := congrArg List.length ((Res.ok.injEq _ _).mp h1)
    simpa [hl] using this
  rcases k12 with rfl | ⟨mid, segs, rfl, hm, hsegs, hsafe⟩
  · exact nomatch hlen
  have hor : orientations L [exHalf, exQ0] exPar96 = [exHalf, exQ0] := if_neg (by simp)
  obtain ⟨v, rfl⟩ : ∃ v, mid = [v] := List.length_eq_one_iff.1 (by simpa using hlen)
  obtain ⟨s1, -⟩ := hsafe (by
    rw [hor]
    intro q hq
    simp only [List.mem_cons, List.not_mem_nil, or_false] at hq
    rcases hq with rfl | rfl <;> norm_num [Quat.Unit, exHalf, exQ0])
    (noface_generic (run_inv_of3 (ops := []) (base := exBody96) rfl) rfl rfl k9 k10 (by simp [exPar96]) (by rw [hL]; simp only [exPar96]; norm_num)
      (by rw [hL]; simp only [exPar96]; norm_num))
  obtain ⟨q, hq, hs, hpl⟩ := s1 v (by simp)
  rw [hor] at hq
  exact ⟨fs', first, last, v, q, segs, B, M, h, k11, k9, k10, hq, hs, hpl⟩

/-- `C98_articulated_path_safe_partial` applies to the run of `C97_witness_run`: every step between two configurations stored
between start and goal is safe with respect to the obstacle of the file, and there is such a step. -/
example (sort : StdSort ℝ) (svd : SvdFun 3) (gq : Matrix (Fin 3) (Fin 3) ℝ → Quat) (prN : Option ℝ → List Char) (suffix : List Char)
    (clock : ℕ → ℝ) (timeLim : ℝ) :
    ∃ fs' mid k B M v w, demoProb3D ⟨sort, -100, 100, svd, anyTop, exAng, some exQ0, fun _ => exQ0, fun _ _ => 0⟩ exUrdf gq exStof exPr96
        prN exDirs demoTaskProb false 1 suffix clock timeLim 1 exFiles97 = some (.ok fs') ∧
      fs' (outFile exDirs "solution_path".toList suffix) = some (writeRows exPr96 (exStart97 :: (mid ++ [exGoal97]))) ∧
      cspaceBoundary3 (Tree3.new exBody96) [exArena97] [exObs97] = .ok B ∧ cspaceMesh [exArena97] [exObs97] B = .ok M ∧
      mid[0]? = some v ∧ mid[1]? = some w ∧
      StepSafeJ ⟨sort, -100, 100, svd, anyTop, exAng, some exQ0, fun _ => exQ0, fun _ _ => 0⟩ ⟨some (armOf gq (parseURDF (some exSnake))), none⟩
        (armOf gq (parseURDF (some exSnake))) [exObs97] exBody96 [] (Tree3.new exBody96) exPar97 exStart97 exGoal97 k M v w := by
  obtain ⟨fs', path, h, hp, hl⟩ := C97_witness_run sort (-100) 100 svd gq prN suffix clock timeLim
  set L : Libs3 := ⟨sort, -100, 100, svd, anyTop, exAng, some exQ0, fun _ => exQ0, fun _ _ => 0⟩ with hL
  obtain ⟨-, ta, tb, tr, te, ends, robot, arena, obs, start, goal, par, hta, htb, htr, hte, hla, hlo, ⟨b0, ls0, hlb0, hrun0⟩, hen, h0, h1, hpar, hP⟩ :=
    C97_planner_of_resources demoTaskProb_plain exDirs_ne97 rfl (exSetup97 false)
  obtain rfl : Tree3.new exBody96 = robot := congrArg Planner3.robot hP
  obtain rfl : [exArena97] = arena := congrArg Planner3.arena hP
  obtain rfl : [exObs97] = obs := congrArg Planner3.obs hP
  obtain rfl : exPar97 = par := congrArg Planner3.par hP
  obtain rfl : exStart97 = start := congrArg Planner3.start hP
  obtain rfl : exGoal97 = goal := congrArg Planner3.goal hP
  obtain ⟨ta', tb', tr', te', ends', first, last, arena', obs', b, ls, robot', par', B, M, path', k1, k2, k3, k4, k5, k6, t1, t2, t3, t4, k7,
      k8, k9, k10, k11, k12⟩ :=
    C98_articulated_path_safe_partial L anyTop_heap exPr96_ok exPr96_num demoTaskProb_plain exDirs_ne97 rfl exUrdf97 exUrdf_read
      exSnake_ok (by rw [exSnake_movable, exKind97.1]; rfl) h
  obtain rfl := (Res.ok.injEq _ _).mp (hta.symm.trans k1)
  obtain rfl := (Res.ok.injEq _ _).mp (htb.symm.trans k3)
  obtain rfl := (Res.ok.injEq _ _).mp (htr.symm.trans k5)
  obtain rfl := (Res.ok.injEq _ _).mp (hte.symm.trans t1)
  obtain rfl := (Res.ok.injEq _ _).mp (hen.symm.trans t2)
  obtain rfl := Option.some.inj (h0.symm.trans t3)
  obtain rfl := Option.some.inj (h1.symm.trans t4)
  obtain rfl := (Res.ok.injEq _ _).mp (hla.symm.trans k2)
  obtain rfl := (Res.ok.injEq _ _).mp (hlo.symm.trans k4)
  obtain ⟨rfl, rfl⟩ := List.cons.inj ((Res.ok.injEq _ _).mp (hlb0.symm.trans k6))
  obtain rfl := (Res.ok.injEq _ _).mp (hrun0.symm.trans k7)
  obtain rfl := (Res.ok.injEq _ _).mp (hpar.symm.trans k8)
  have hbody : b0 = exBody96 ∧ ls0 = [] := by
    have hf : exFiles97 (robotRes exDirs demoTaskProb) = some ([exRowR].flatMap (writeRow exPr96)) := by
      unfold exFiles97; rw [if_neg (by decide +kernel), if_neg (by decide +kernel), if_pos rfl]
    have e1 : parseGeometricModel exStof exPr96 (some ([exRowR].flatMap (writeRow exPr96))) = .ok ([exRowR].flatMap (writeRow exPr96)) :=
      exModel 5 5 5 1 1 0 0 0 (by intro t ht; simp only [List.mem_cons, List.not_mem_nil, or_false] at ht ⊢; tauto)
    have e2 : loadQuadrics exStof 1 (some ([exRowR].flatMap (writeRow exPr96))) = .ok [exBody96] :=
      exLoad 5 5 5 1 1 0 0 0 (by intro t ht; simp only [List.mem_cons, List.not_mem_nil, or_false] at ht ⊢; tauto)
    rw [hf, e1] at htr
    obtain rfl := (Res.ok.injEq _ _).mp htr
    exact List.cons.inj ((Res.ok.injEq _ _).mp (hlb0.symm.trans e2))
  obtain ⟨rfl, rfl⟩ := hbody
  have rd : ∀ rows, parseCsv exStof (some (writeRows exPr96 rows)) = .ok (rows.map (·.map (readBack exStof exPr96))) :=
    fun rows => C49_roundtrip_partial exStof exPr96 exPr96_ok rows _ fun _ _ x _ => exPr96_back x
  have hlen : 4 ≤ path'.length := by
    have e := Option.some.inj (hp.symm.trans k11)
    have h1 := rd path
    rw [e, rd path'] at h1
    have := congrArg List.length ((Res.ok.injEq _ _).mp h1)
    simp only [List.length_map] at this
    omega
  rcases k12 with rfl | ⟨mid, segs, k, rfl, hm, -, -, hsegs, hsafe⟩
  · exact absurd hlen (by simp)
  obtain ⟨-, s2⟩ := hsafe (by
    intro i
    match i with
    | 0 => norm_num [probSample, exStart97, conf7, exQ0, Quat.Unit, quatPart, coordOf]
    | 1 => norm_num [probSample, exGoal97, conf7, exQ0, Quat.Unit, quatPart, coordOf]
    | i + 2 => norm_num [probSample, hL, exQ0, Quat.Unit])
    (noface_generic (run_inv_of3 (ops := []) (base := exBody96) rfl) rfl rfl k9 k10 (by simp [exPar97])
      (by rw [hL]; simp only [exPar97]; norm_num) (by rw [hL]; simp only [exPar97]; norm_num))
  have hm2 : 2 ≤ mid.length := by simpa using hlen
  obtain ⟨v, w, rest, rfl⟩ : ∃ v w rest, mid = v :: w :: rest := by
    match mid, hm2 with
    | v :: w :: rest, _ => exact ⟨v, w, rest, rfl⟩
  exact ⟨fs', _, k, B, M, v, w, h, k11, k9, k10, rfl, rfl, s2 0 v w rfl rfl⟩

end Hrm
