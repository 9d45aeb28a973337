import Verif.Model.Demo
import Verif.Props.Config
import Verif.Props.Planner3D

/-!
# C96 – the demonstration program, from files to files
-/

namespace Hrm

/-- No text of the task contains a slash. -/
def Task.Plain (T : Task) : Prop := ∀ t ∈ [T.obj, T.env, T.robot, T.dim], '/' ∉ t

/-- The configuration files of a dimension. -/
def cfgFiles (D : Dirs) (dim : List Char) : List (List Char) :=
  [arenaCfg D dim, obsCfg D dim, robotCfg D dim, endsCfg D dim]

/-- The result files. -/
def outFiles (D : Dirs) (suffix : List Char) : List (List Char) :=
  ["vertex", "edge", "path_id", "solution_path", "interpolated_path"].map fun k => outFile D k.toList suffix

theorem slash_split {A B x y : List Char} (hx : '/' ∉ x) (hy : '/' ∉ y) (h : A ++ '/' :: x = B ++ '/' :: y) :
    A = B ∧ x = y := by
  rcases List.append_eq_append_iff.1 h with ⟨c, hc, e⟩ | ⟨c, hc, e⟩
  · cases c with
    | nil => simp at hc e; exact ⟨hc.symm, e⟩
    | cons d c =>
      simp at e
      exact absurd (by rw [e.2]; simp) hx
  · cases c with
    | nil => simp at hc e; exact ⟨hc, e.symm⟩
    | cons d c =>
      simp at e
      exact absurd (by rw [e.2]; simp) hy

theorem Files.put_same (fs : Files) (n t : List Char) : fs.put n t n = some t := by simp [Files.put]

theorem Files.put_ne (fs : Files) {n m : List Char} (t : List Char) (h : m ≠ n) : fs.put n t m = fs m := by
  simp [Files.put, h]

theorem cfgFiles_nodup (D : Dirs) (dim : List Char) : (cfgFiles D dim).Nodup := by
  simp [cfgFiles, arenaCfg, obsCfg, robotCfg, endsCfg]

theorem outFiles_nodup (D : Dirs) (suffix : List Char) : (outFiles D suffix).Nodup := by
  simp [outFiles, outFile]

theorem res_ne_cfg {D : Dirs} {T : Task} (hT : T.Plain) (hD : D.cfg ≠ D.resDim T) :
    ∀ n ∈ [arenaRes D T, obsRes D T, robotRes D T, endsRes D T], n ∉ cfgFiles D T.dim := by
  have h1 := hT T.obj (by simp)
  have h2 := hT T.env (by simp)
  have h3 := hT T.robot (by simp)
  have h4 := hT T.dim (by simp)
  intro n hn hc
  simp only [List.mem_cons, List.not_mem_nil, or_false] at hn
  simp only [cfgFiles, List.mem_cons, List.not_mem_nil, or_false] at hc
  obtain ⟨y, hy, rfl⟩ : ∃ y, '/' ∉ y ∧ n = D.cfg ++ '/' :: y := by
    rcases hc with rfl | rfl | rfl | rfl <;> exact ⟨_, by simp [h4], rfl⟩
  obtain ⟨x, hx, e⟩ : ∃ x, '/' ∉ x ∧ D.cfg ++ '/' :: y = D.resDim T ++ '/' :: x := by
    rcases hn with e | e | e | e <;> exact ⟨_, by simp [h1, h2, h3, h4], e⟩
  exact hD (slash_split hy hx e).1

/-- C96: `parsePlanningConfig` converts this task's resource files, as they are before the call, into the four
configuration files of its dimension, and changes no other file. (The directories of the resource files and of the
configuration files differ, and the names of the task contain no slash.) -/
theorem C96_config_files {stof : List Char → Scan} {pr : ℝ → List Char} {D : Dirs} {T : Task} (hT : T.Plain)
    (hD : D.cfg ≠ D.resDim T) {fs fs' : Files} :
    parsePlanningConfig stof pr D T fs = .ok fs' ↔
      ∃ ta tb tr te, parseGeometricModel stof pr (fs (arenaRes D T)) = .ok ta ∧
        parseGeometricModel stof pr (fs (obsRes D T)) = .ok tb ∧
        parseGeometricModel stof pr (fs (robotRes D T)) = .ok tr ∧
        parseStartGoalConfig stof pr (kindOf T.robot) (dimOf T.dim) (fs (endsRes D T)) = .ok te ∧
        fs' (arenaCfg D T.dim) = some ta ∧ fs' (obsCfg D T.dim) = some tb ∧ fs' (robotCfg D T.dim) = some tr ∧
        fs' (endsCfg D T.dim) = some te ∧ ∀ n, n ∉ cfgFiles D T.dim → fs' n = fs n := by
  have hne := res_ne_cfg hT hD
  have hnd := cfgFiles_nodup D T.dim
  simp only [cfgFiles, List.mem_cons, List.not_mem_nil, or_false, not_or, forall_eq_or_imp, forall_eq, List.nodup_cons,
    List.nodup_nil, and_true, not_false_eq_true] at hne hnd
  obtain ⟨-, ⟨o1, -, -, -⟩, ⟨r1, r2, -, -⟩, e1, e2, e3, -⟩ := hne
  obtain ⟨⟨n1, n2, n3⟩, ⟨n4, n5⟩, n6⟩ := hnd
  unfold parsePlanningConfig
  dsimp only
  constructor
  · intro h
    obtain ⟨ta, ha, h⟩ := Res.bind_eq_ok.1 h
    rw [Files.put_ne _ _ o1] at h
    obtain ⟨tb, ho, h⟩ := Res.bind_eq_ok.1 h
    rw [Files.put_ne _ _ r2, Files.put_ne _ _ r1] at h
    obtain ⟨tr, hr, h⟩ := Res.bind_eq_ok.1 h
    rw [Files.put_ne _ _ e3, Files.put_ne _ _ e2, Files.put_ne _ _ e1] at h
    obtain ⟨te, he, h⟩ := Res.bind_eq_ok.1 h
    obtain rfl := (Res.ok.injEq _ _).mp h
    refine ⟨ta, tb, tr, te, ha, ho, hr, he, ?_, ?_, ?_, Files.put_same _ _ _, ?_⟩
    · rw [Files.put_ne _ _ n3, Files.put_ne _ _ n2, Files.put_ne _ _ n1, Files.put_same]
    · rw [Files.put_ne _ _ n5, Files.put_ne _ _ n4, Files.put_same]
    · rw [Files.put_ne _ _ n6, Files.put_same]
    · intro n hn
      simp only [cfgFiles, List.mem_cons, List.not_mem_nil, or_false, not_or] at hn
      obtain ⟨m1, m2, m3, m4⟩ := hn
      rw [Files.put_ne _ _ m4, Files.put_ne _ _ m3, Files.put_ne _ _ m2, Files.put_ne _ _ m1]
  · rintro ⟨ta, tb, tr, te, ha, ho, hr, he, f1, f2, f3, f4, hfr⟩
    rw [ha, Res.bind_ok', Files.put_ne _ _ o1, ho, Res.bind_ok', Files.put_ne _ _ r2, Files.put_ne _ _ r1, hr, Res.bind_ok',
      Files.put_ne _ _ e3, Files.put_ne _ _ e2, Files.put_ne _ _ e1, he, Res.bind_ok']
    congr 1
    funext n
    unfold Files.put
    split_ifs with h4 h3 h2 h1
    · rw [h4, f4]
    · rw [h3, f3]
    · rw [h2, f2]
    · rw [h1, f1]
    · refine (hfr n ?_).symm
      simp only [cfgFiles, List.mem_cons, List.not_mem_nil, or_false, not_or]
      exact ⟨h1, h2, h3, h4⟩

/-- C96: a task of the other dimension leaves the spatial setting as it was: `loadEnvironment` of a spatial setting after
it loads what an earlier program left in the configuration directory. -/
theorem C96_other_dimension_stale {stof : List Char → Scan} {pr : ℝ → List Char} {D : Dirs} {T : Task} (hT : T.Plain)
    (hD : D.cfg ≠ D.resDim T) {fs fs' : Files} (hdim : T.dim ≠ "3D".toList)
    (h : parsePlanningConfig stof pr D T fs = .ok fs') (num : ℕ) :
    loadEnvironment3 stof num D fs' = loadEnvironment3 stof num D fs := by
  obtain ⟨ta, tb, tr, te, -, -, -, -, -, -, -, -, hfr⟩ := (C96_config_files hT hD).1 h
  have key : ∀ n ∈ cfgFiles D "3D".toList, n ∉ cfgFiles D T.dim := by
    intro n hn
    simp only [cfgFiles, List.mem_cons, List.not_mem_nil, or_false] at hn
    have hd : ¬ ("3D".toList ++ ".csv".toList = T.dim ++ ".csv".toList) := fun e => hdim (List.append_cancel_right e).symm
    simp only [String.reduceToList, List.cons_append, List.nil_append] at hd
    rcases hn with rfl | rfl | rfl | rfl <;>
      simp [cfgFiles, arenaCfg, obsCfg, robotCfg, endsCfg, hd]
  unfold loadEnvironment3
  rw [hfr _ (key _ (by simp [cfgFiles])), hfr _ (key _ (by simp [cfgFiles])), hfr _ (key _ (by simp [cfgFiles]))]

/-- C96: the planner of the program has the arena, the obstacles, the robot and the end points of this task's resource
files (converted), and the orientations of the given file. -/
theorem C96_planner_of_resources {stof : List Char → Scan} {pr : ℝ → List Char} {D : Dirs} {T : Task} (hT : T.Plain)
    (hD : D.cfg ≠ D.resDim T) (hdim : T.dim = "3D".toList) {quatFile : List Char} (hq0 : quatFile ≠ "0".toList)
    (hq : quatFile ∉ cfgFiles D T.dim) {num : ℕ} {fs fs' : Files} {P : Planner3}
    (h : setupDemo3 stof pr D T quatFile num fs = .ok (fs', P)) :
    parsePlanningConfig stof pr D T fs = .ok fs' ∧
    ∃ ta tb tr te ends robot quats arena obs start goal par, parseGeometricModel stof pr (fs (arenaRes D T)) = .ok ta ∧
      parseGeometricModel stof pr (fs (obsRes D T)) = .ok tb ∧ parseGeometricModel stof pr (fs (robotRes D T)) = .ok tr ∧
      parseStartGoalConfig stof pr (kindOf T.robot) .space (fs (endsRes D T)) = .ok te ∧
      loadQuadrics stof num (some ta) = .ok arena ∧ loadQuadrics stof num (some tb) = .ok obs ∧
      loadRobot3 stof num (some tr) (some (fs quatFile)) = .ok (robot, quats) ∧
      parseCsv stof (some te) = .ok ends ∧ ends[0]? = some start ∧ ends[1]? = some goal ∧
      defineParameters3 robot quats arena obs defaultParam3 = .ok par ∧
      P = .new robot quats arena obs start goal par true := by
  unfold setupDemo3 at h
  obtain ⟨fs1, h1, h⟩ := Res.bind_eq_ok.1 h
  obtain ⟨ta, tb, tr, te, ha, hb, hr, he, f1, f2, f3, f4, hfr⟩ := (C96_config_files hT hD).1 h1
  rw [hdim] at f1 f2 f3 f4
  obtain ⟨S, hS, h⟩ := Res.bind_eq_ok.1 h
  unfold loadEnvironment3 at hS
  rw [f1, f2, f4] at hS
  obtain ⟨arena, hla, hS⟩ := Res.bind_eq_ok.1 hS
  obtain ⟨obs, hlo, hS⟩ := Res.bind_eq_ok.1 hS
  obtain ⟨ends, hle, hS⟩ := Res.bind_eq_ok.1 hS
  obtain rfl := (Res.ok.injEq _ _).mp hS
  rw [if_neg hq0, f3, hfr _ hq] at h
  obtain ⟨⟨robot, quats⟩, hR, h⟩ := Res.bind_eq_ok.1 h
  obtain ⟨start, hs, h⟩ := Res.bind_eq_ok.1 h
  obtain ⟨goal, hg, h⟩ := Res.bind_eq_ok.1 h
  obtain ⟨par, hp, h⟩ := Res.bind_eq_ok.1 h
  obtain ⟨rfl, rfl⟩ := Prod.mk.inj ((Res.ok.injEq _ _).mp h)
  have hat : ∀ {l : List (List ℝ)} {i : ℕ} {x : List ℝ}, Res.at' l i = .ok x → l[i]? = some x := by
    intro l i x e
    unfold Res.at' at e
    split at e
    · rename_i b hb; rw [hb]; exact congrArg some ((Res.ok.injEq _ _).mp e)
    · exact nomatch e
  have hd : dimOf T.dim = .space := by rw [hdim]; decide
  rw [hd] at he
  exact ⟨h1, ta, tb, tr, te, ends, robot, quats, arena, obs, start, goal, par, ha, hb, hr, he, hla, hlo, hR, hle, hat hs,
    hat hg, hp, rfl⟩

/-! ## Reading what was written -/

/-- The number read back for `x`. -/
def readBack (stof : List Char → Scan) (pr : ℝ → List Char) (x : ℝ) : ℝ :=
  match stof (pr x) with
  | .val v => v
  | _ => 0

theorem parseLines_range {stof : List Char → Scan} : ∀ (lines : List (List Char)) (acc out : List (List ℝ)),
    lines.foldlM (parseLine stof) acc = .ok out →
    ∀ l ∈ lines, l.head? ≠ some '#' → ∀ f ∈ readAll ',' l, stof f ≠ .range := by
  intro lines
  induction lines with
  | nil => intro acc out _ l hl; simp at hl
  | cons l0 ls ih =>
    intro acc out h l hl hc f hf hr
    rw [List.foldlM_cons] at h
    obtain ⟨acc', h1, h2⟩ := Res.bind_eq_ok.1 h
    rcases List.mem_cons.1 hl with rfl | hl
    · unfold parseLine at h1
      rw [if_neg hc, parseFields_eq, if_pos ⟨f, hf, hr⟩] at h1
      exact nomatch h1
    · exact ih _ _ h2 l hl hc f hf hr

theorem readBack_val {stof : List Char → Scan} {pr : ℝ → List Char} (hnum : ∀ x, stof (pr x) ≠ .invalid) {x : ℝ}
    (h : stof (pr x) ≠ .range) : stof (pr x) = .val (readBack stof pr x) := by
  unfold readBack
  cases e : stof (pr x) with
  | val v => rfl
  | invalid => exact absurd e (hnum x)
  | range => exact absurd e h

theorem joinFields_head {pr : ℝ → List Char} (hpr : PrintOk pr) (r : List ℝ) :
    (joinFields (r.map pr)).head? ≠ some '#' := by
  cases r with
  | nil => simp [joinFields]
  | cons x r =>
    obtain ⟨h1, h2⟩ := hpr x
    obtain ⟨c, cs, e⟩ := List.exists_cons_of_ne_nil h1
    have hc := (h2 c (by rw [e]; simp)).2.2
    cases r with
    | nil => simp [joinFields, e, hc]
    | cons y r => simp [joinFields, e, hc]

theorem writeRow_read {stof : List Char → Scan} {pr : ℝ → List Char} (hpr : PrintOk pr)
    (hnum : ∀ x, stof (pr x) ≠ .invalid) {rows out : List (List ℝ)}
    (h : parseCsv stof (some (rows.flatMap (writeRow pr))) = .ok out) :
    (∀ r ∈ rows, ∀ x ∈ r, stof (pr x) = .val (readBack stof pr x)) ∧ out = rows.map (·.map (readBack stof pr)) := by
  have hv : ∀ r ∈ rows, ∀ x ∈ r, stof (pr x) = .val (readBack stof pr x) := by
    intro r hr x hx
    have e : rows.flatMap (writeRow pr) = joinLines (rows.map fun r => joinFields (r.map pr)) := by
      simp only [joinLines, List.flatMap_map]
      congr 1
      funext r
      exact writeRow_eq pr r
    rw [e, parseCsv_some, readAll_joinLines] at h
    · refine readBack_val hnum (parseLines_range _ _ _ h _ (List.mem_map.2 ⟨r, hr, rfl⟩) (joinFields_head hpr r) _ ?_)
      rw [readAll_printed hpr]
      exact List.mem_map.2 ⟨x, hx, rfl⟩
    · intro l hl c hc
      obtain ⟨row, -, rfl⟩ := List.mem_map.1 hl
      rcases joinFields_mem hc with rfl | ⟨f, hf, hcf⟩
      · decide
      · obtain ⟨y, -, rfl⟩ := List.mem_map.1 hf
        exact ((hpr y).2 c hcf).2.1
  refine ⟨hv, ?_⟩
  rw [C77_rows_read_back stof pr hpr rows _ hv] at h
  exact ((Res.ok.injEq _ _).mp h).symm

theorem writeRows_read {stof : List Char → Scan} {pr : ℝ → List Char} (hpr : PrintOk pr)
    (hnum : ∀ x, stof (pr x) ≠ .invalid) {rows out : List (List ℝ)}
    (h : parseCsv stof (some (writeRows pr rows)) = .ok out) : out = rows.map (·.map (readBack stof pr)) := by
  have hv : ∀ r ∈ rows, ∀ x ∈ r, stof (pr x) = .val (readBack stof pr x) := by
    intro r hr x hx
    rw [writeRows_eq, parseCsv_some, readAll_joinLines] at h
    · refine readBack_val hnum (parseLines_range _ _ _ h _ (List.mem_map.2 ⟨r, hr, rfl⟩) ?_ _ ?_)
      · cases r with
        | nil => simp
        | cons y r =>
          obtain ⟨h1, h2⟩ := hpr y
          obtain ⟨c, cs, e⟩ := List.exists_cons_of_ne_nil h1
          have hc := (h2 c (by rw [e]; simp)).2.2
          simp [e, hc]
      · rw [readAll_commas pr r fun x _ c hc => ((hpr x).2 c hc).1]
        exact List.mem_map.2 ⟨x, hx, rfl⟩
    · intro l hl c hc
      obtain ⟨row, -, rfl⟩ := List.mem_map.1 hl
      obtain ⟨y, -, hc⟩ := List.mem_flatMap.1 hc
      rcases List.mem_append.1 hc with hc | hc
      · exact ((hpr y).2 c hc).2.1
      · obtain rfl := List.mem_singleton.1 hc
        decide
  rw [C49_roundtrip_partial stof pr hpr rows _ hv] at h
  exact ((Res.ok.injEq _ _).mp h).symm

/-- The rows of the file of end points, for a spatial task. -/
theorem startGoal_inv {stof : List Char → Scan} {pr : ℝ → List Char} {k : RobotKind} {input : Option (List Char)}
    {text : List Char} (h : parseStartGoalConfig stof pr k .space input = .ok text) :
    ∃ rows crows : List (List ℝ), parseCsv stof input = .ok rows ∧ text = crows.flatMap (writeRow pr) ∧ crows.length = rows.length ∧
      ∀ (i : ℕ) (r c : List ℝ), rows[i]? = some r → crows[i]? = some c → convertConfig k .space r = .ok (some c) := by
  unfold parseStartGoalConfig at h
  obtain ⟨rows, hr, h⟩ := Res.bind_eq_ok.1 h
  have key : ∀ (rows : List (List ℝ)) (acc text : List Char),
      rows.foldlM (fun acc v => (convertConfig k .space v).bind fun r => match r with
        | some r => (.ok (acc ++ writeRow pr r) : Res (List Char))
        | none => .ok acc) acc = .ok text →
      ∃ crows : List (List ℝ), text = acc ++ crows.flatMap (writeRow pr) ∧ crows.length = rows.length ∧
        ∀ (i : ℕ) (r c : List ℝ), rows[i]? = some r → crows[i]? = some c → convertConfig k .space r = .ok (some c) := by
    intro rows
    induction rows with
    | nil =>
      intro acc text h
      obtain rfl := (Res.ok.injEq _ _).mp h
      exact ⟨[], by simp, rfl, by simp⟩
    | cons r rows ih =>
      intro acc text h
      rw [List.foldlM_cons] at h
      obtain ⟨acc', h1, h2⟩ := Res.bind_eq_ok.1 h
      obtain ⟨c, hc, h1⟩ := Res.bind_eq_ok.1 h1
      cases c with
      | none =>
        exfalso
        unfold convertConfig at hc
        dsimp only at hc
        obtain ⟨_, -, hc⟩ := Res.bind_eq_ok.1 hc
        obtain ⟨_, -, hc⟩ := Res.bind_eq_ok.1 hc
        obtain ⟨_, -, hc⟩ := Res.bind_eq_ok.1 hc
        obtain ⟨_, -, hc⟩ := Res.bind_eq_ok.1 hc
        obtain ⟨_, -, hc⟩ := Res.bind_eq_ok.1 hc
        exact nomatch (Res.ok.injEq _ _).mp hc
      | some c =>
        dsimp only at h1
        obtain rfl := (Res.ok.injEq _ _).mp h1
        obtain ⟨crows, e1, e2, e3⟩ := ih _ _ h2
        refine ⟨c :: crows, by rw [e1]; simp, by simp [e2], ?_⟩
        intro i r' c' hr' hc'
        cases i with
        | zero =>
          simp only [List.getElem?_cons_zero, Option.some.injEq] at hr' hc'
          rw [← hr', ← hc']; exact hc
        | succ i =>
          simp only [List.getElem?_cons_succ] at hr' hc'
          exact e3 i r' c' hr' hc'
  obtain ⟨crows, e1, e2, e3⟩ := key _ _ _ h
  exact ⟨rows, crows, hr, by simpa using e1, e2, e3⟩

theorem convertConfig_length {k : RobotKind} {r c : List ℝ} (h : convertConfig k .space r = .ok (some c)) :
    c.length = k.numDOF + 1 := by
  unfold convertConfig at h
  dsimp only at h
  obtain ⟨_, -, h⟩ := Res.bind_eq_ok.1 h
  obtain ⟨_, -, h⟩ := Res.bind_eq_ok.1 h
  obtain ⟨_, -, h⟩ := Res.bind_eq_ok.1 h
  obtain ⟨_, -, h⟩ := Res.bind_eq_ok.1 h
  obtain ⟨c', h1, h⟩ := Res.bind_eq_ok.1 h
  obtain rfl := Option.some.inj ((Res.ok.injEq _ _).mp h)
  generalize hv : List.set _ _ _ = v at h1
  by_cases hl : v.length < k.numDOF + 1
  · rw [columns_short _ _ hl] at h1; exact nomatch h1
  · rw [columns_eq _ _ (by omega)] at h1
    obtain rfl := (Res.ok.injEq _ _).mp h1
    rw [List.length_take]; omega

theorem loadRobot3_run {stof : List Char → Scan} {num : ℕ} {file : Option (List Char)} {qf : Option (List Char)}
    {R : Tree3} {qs : List Quat} (h : loadRobot3 stof num file (some qf) = .ok (R, qs)) :
    ∃ b ls, loadQuadrics stof num file = .ok (b :: ls) ∧ Tree3.run (ls.map .add) (.new b) = .ok R := by
  unfold loadRobot3 at h
  obtain ⟨parts, h1, h⟩ := Res.bind_eq_ok.1 h
  obtain ⟨b, h2, h⟩ := Res.bind_eq_ok.1 h
  obtain ⟨qs', -, h⟩ := Res.bind_eq_ok.1 h
  obtain ⟨e, -⟩ := Prod.mk.inj ((Res.ok.injEq _ _).mp h)
  cases parts with
  | nil => exact nomatch h2
  | cons b' ls =>
    obtain rfl : b' = b := (Res.ok.injEq _ _).mp h2
    refine ⟨b', ls, h1, ?_⟩
    obtain ⟨T, -, t2, t3⟩ := C77_robot_space stof num file b' ls h1 (some []) [] (by
      rw [parseCsv_some, readAll_nil]; rfl)
    unfold loadRobot3 at t2
    rw [h1] at t2
    have : T = R := by
      have e2 := (Prod.mk.inj ((Res.ok.injEq _ _).mp t2)).1
      rw [← e2, ← e]
    rw [this] at t3
    exact t3

/-! ## The result files -/

theorem Graph.IsPath.edges {g : Graph} {ids : List ℕ} {len : ℝ} (h : g.IsPath ids len) :
    ∀ (k i j : ℕ), ids[k]? = some i → ids[k + 1]? = some j → (i, j) ∈ g.edge ∨ (j, i) ∈ g.edge := by
  induction h with
  | single a _ => intro k i j _ h2; simp at h2
  | cons a b l w len _ hj ih =>
    intro k i j h1 h2
    cases k with
    | zero =>
      simp only [List.getElem?_cons_zero, Option.some.injEq, zero_add, List.getElem?_cons_succ] at h1 h2
      subst h1 h2
      obtain ⟨k, -, e | e⟩ := hj
      · exact Or.inl (List.mem_of_getElem? e)
      · exact Or.inr (List.mem_of_getElem? e)
    | succ k => exact ih k i j (by simpa using h1) (by simpa using h2)

/-- What one `plan` of a new spatial planner leaves in the result. -/
theorem plan3_report (L : Libs3) (V : Variant) (hV : V.arm = none) (hpick : HeapTop L.pick)
    (base : SuperQuadrics) (ops : List (RobotOp SuperQuadrics 3)) (robot : Tree3)
    (hrun : Tree3.run ops (Tree3.new base) = .ok robot) (quats : List Quat)
    (arena obs : List SuperQuadrics) (hne : arena ≠ [] ∨ obs ≠ []) (start goal : Vec) (hs : start.length = 7)
    (hg : goal.length = 7) (par : Param3) (clock : ℕ → ℝ) (timeLim : ℝ) (fuel : ℕ) (r' : PlanRep Planner3)
    (h : Planner3.plan L V clock timeLim fuel (freshRep3 (.new robot quats arena obs start goal par true)) =
      some (.ok r')) :
    r'.interpolated = r'.solvedPath.map (fun v => v.map some) ∧
    (∀ e ∈ r'.st.graph.edge, e.1 < r'.st.graph.vertex.length ∧ e.2 < r'.st.graph.vertex.length) ∧
    (∀ i ∈ r'.st.res.pathId, i < r'.st.graph.vertex.length) ∧
    ((r'.solvedPath = [] ∧ r'.st.res.pathId = []) ∨
      ∃ mid, r'.solvedPath = start :: (mid ++ [goal]) ∧ mid ≠ [] ∧ mid.length = r'.st.res.pathId.length ∧
        (∀ (k i : ℕ), r'.st.res.pathId[k]? = some i → mid[k]? = r'.st.graph.vertex[i]?) ∧
        ∀ (k i j : ℕ), r'.st.res.pathId[k]? = some i → r'.st.res.pathId[k + 1]? = some j →
          (i, j) ∈ r'.st.graph.edge ∨ (j, i) ∈ r'.st.graph.edge) := by
  have hr := run_inv_of3 hrun
  obtain ⟨B, hB, b1, b2, -⟩ := cspaceBoundary3_ok hr arena obs
  obtain ⟨M, hM, -, -⟩ := cspaceMesh_ok b1 b2
  obtain ⟨P, hb, hsr, h0, hpath, -, -, -, -, huns, hint⟩ := plan_fresh3 hV hr hne h
  obtain ⟨segs, r, hsegs, -, hbr, hi⟩ := build3_inv hV hr hB hM rfl h0 hb
  obtain ⟨s, t, res, n1, n2, hse, hQ⟩ := search3_ok hsr
  have hmk : ∀ i x y z, (mkVertex (sliceQuat (freshQ L robot quats arena obs start goal par).q i) [] x y z).length = 7 :=
    fun _ _ _ _ => rfl
  have hok := C23_build3D _ _ _ _ _ _ _ _ 7 hmk r.1 r.2 hbr
  have hSO := sampleSO3_same (L := L) (Planner3.new robot quats arena obs start goal par true)
  have est : P.start = start := hi.start.trans hSO.2.2.2.2.1
  have egl : P.goal = goal := hi.goal.trans hSO.2.2.2.2.2.1
  have ers : P.res = ⟨false, [], some 0⟩ := hi.res.trans hSO.2.2.2.2.2.2.2.2.2.2.2.1
  rw [hi.graph, est] at n1
  rw [hi.graph, egl] at n2
  rw [hi.graph, ers] at hse
  have hS := nearest3DJ_ids n1
  have hT := nearest3DJ_ids n2
  have egr : r'.st.graph = r.1 := by rw [hQ]; exact hi.graph
  have ere : r'.st.res = res := by rw [hQ]
  have hst : r'.st.start = start := by rw [hQ]; exact est
  have hgo : r'.st.goal = goal := by rw [hQ]; exact egl
  rw [egr, ere]
  rw [ere] at huns hint hpath
  have hedge : ∀ e ∈ r.1.edge, e.1 < r.1.vertex.length ∧ e.2 < r.1.vertex.length := by
    intro e he
    obtain ⟨k, hk⟩ := List.mem_iff_getElem?.1 he
    have hkl : k < r.1.weight.length := by rw [← hok.len]; exact (List.getElem?_eq_some_iff.1 hk).1
    obtain ⟨a, b, ha, hb', -⟩ := hok.edges k e _ hk (List.getElem?_eq_getElem hkl)
    exact ⟨(List.getElem?_eq_some_iff.1 ha).1, (List.getElem?_eq_some_iff.1 hb').1⟩
  by_cases hsol : res.solved = true
  · obtain ⟨s0, hs0, t0, ht0, len, hpb, -⟩ := C27_search_returns_path hok hpick hS hT ⟨rfl, rfl⟩ hse hsol
    have hvne : r.1.vertex ≠ [] := by
      have := hS s0 hs0
      intro e
      rw [e] at this
      simp at this
    have hids : ∀ i ∈ res.pathId, i < r.1.vertex.length := hpb.1.mem_lt hok
    obtain ⟨path, mid, p1, p2, p3, p4, -⟩ := C30_solution_path hok.dims start goal res.pathId hids hvne
    have hgp := hpath hsol
    rw [egr, hst, hgo, p1] at hgp
    obtain rfl := (Res.ok.injEq _ _).mp hgp
    have hres : ∀ v : Vec, v.length = 7 → resize v 7 = v := by
      intro v hv
      unfold resize
      rw [List.take_of_length_le hv.le]
      simp [hv]
    rw [hres start hs, hres goal hg] at p2
    refine ⟨hint hsol, hedge, hids, Or.inr ⟨mid, p2, ?_, p3, p4, hpb.1.edges⟩⟩
    intro hm
    rw [hm] at p3
    have hhd := hpb.2.1
    rw [List.length_eq_zero_iff.1 p3.symm] at hhd
    exact nomatch hhd
  · have hf : res.solved = false := by simpa using hsol
    have hrr := (C28_search_complete_optimal hok hpick hS hT ⟨rfl, rfl⟩ hse).2.2 hf
    have e1 := huns hf
    refine ⟨by rw [e1.1, e1.2]; rfl, hedge, by rw [hrr]; simp, Or.inl ⟨e1.1, by rw [hrr]⟩⟩

/-- C96: if the program ends normally, it has changed no file but the four configuration files and the five result files;
the stored solution path is empty, and so is the list of vertex numbers, or the path begins with the first and ends with
the second row of this task's file of end points (converted, and as the program reads it back), and in between it visits,
for each vertex number stored, this row of the vertices stored, consecutive ones joined by an edge stored. -/
theorem C96_demo_end_to_end (L : Libs3) (V : Variant) (hV : V.arm = none) (hpick : HeapTop L.pick)
    {stof : List Char → Scan} {pr : ℝ → List Char} (hpr : PrintOk pr) (hnum : ∀ x, stof (pr x) ≠ .invalid)
    {prN : Option ℝ → List Char} (hprN : ∀ x, prN (some x) = pr x) {D : Dirs} {T : Task} (hT : T.Plain)
    (hD : D.cfg ≠ D.resDim T) (hdim : T.dim = "3D".toList) (hk : kindOf T.robot = .other) {quatFile : List Char}
    (hq0 : quatFile ≠ "0".toList) (hq : quatFile ∉ cfgFiles D T.dim) {num : ℕ} {suffix : List Char} {clock : ℕ → ℝ}
    {timeLim : ℝ} {fuel : ℕ} {fs fs' : Files}
    (h : demoHRM3D L V stof pr prN D T quatFile num suffix clock timeLim fuel fs = some (.ok fs')) :
    (∀ n, n ∉ cfgFiles D T.dim → n ∉ outFiles D suffix → fs' n = fs n) ∧
    ∃ rows row0 row1 cs cg vertices edges ids path, parseCsv stof (fs (endsRes D T)) = .ok rows ∧
      rows[0]? = some row0 ∧ rows[1]? = some row1 ∧
      convertConfig .other .space row0 = .ok (some cs) ∧ convertConfig .other .space row1 = .ok (some cg) ∧
      (∀ x ∈ cs ++ cg, stof (pr x) = .val (readBack stof pr x)) ∧
      fs' (outFile D "vertex".toList suffix) = some (writeRows pr vertices) ∧
      fs' (outFile D "edge".toList suffix) = some (writeEdges edges) ∧
      fs' (outFile D "path_id".toList suffix) = some (writeIds ids) ∧
      fs' (outFile D "solution_path".toList suffix) = some (writeRows pr path) ∧
      fs' (outFile D "interpolated_path".toList suffix) = some (writeRows pr path) ∧
      (∀ e ∈ edges, e.1 < vertices.length ∧ e.2 < vertices.length) ∧ (∀ i ∈ ids, i < vertices.length) ∧
      ((path = [] ∧ ids = []) ∨
        ∃ mid, path = cs.map (readBack stof pr) :: (mid ++ [cg.map (readBack stof pr)]) ∧ mid ≠ [] ∧
          mid.length = ids.length ∧ (∀ (k i : ℕ), ids[k]? = some i → mid[k]? = vertices[i]?) ∧
          ∀ (k i j : ℕ), ids[k]? = some i → ids[k + 1]? = some j → (i, j) ∈ edges ∨ (j, i) ∈ edges) := by
  unfold demoHRM3D at h
  cases hset : setupDemo3 stof pr D T quatFile num fs with
  | throw => rw [hset] at h; exact nomatch h
  | ub => rw [hset] at h; exact nomatch h
  | ok v =>
    obtain ⟨fs1, P⟩ := v
    rw [hset] at h
    dsimp only at h
    obtain ⟨hpc, ta, tb, tr, te, ends, robot, quats, arena, obs, start, goal, par, -, -, -, hte, -, -, hrob, hends, hs0, hg0,
      hpar, rfl⟩ := C96_planner_of_resources hT hD hdim hq0 hq hset
    obtain ⟨_, _, _, _, -, -, -, -, -, -, -, -, hfr⟩ := (C96_config_files hT hD).1 hpc
    rw [hk] at hte
    obtain ⟨rows, crows, hrows, rfl, hlen, hconv⟩ := startGoal_inv hte
    obtain ⟨hval, rfl⟩ := writeRow_read hpr hnum hends
    rw [List.getElem?_map] at hs0 hg0
    obtain ⟨cs, hcs, rfl⟩ := Option.map_eq_some_iff.1 hs0
    obtain ⟨cg, hcg, rfl⟩ := Option.map_eq_some_iff.1 hg0
    have l0 := (List.getElem?_eq_some_iff.1 hcs).1
    have l1 := (List.getElem?_eq_some_iff.1 hcg).1
    rw [hlen] at l0 l1
    have c0 := hconv 0 _ cs (List.getElem?_eq_getElem l0) hcs
    have c1 := hconv 1 _ cg (List.getElem?_eq_getElem l1) hcg
    obtain ⟨b, ls, -, hrun⟩ := loadRobot3_run hrob
    have hane : arena ≠ [] := by
      rintro rfl
      exact nomatch hpar
    cases hplan : Planner3.plan L V clock timeLim fuel (freshRep3 (.new robot quats arena obs
        (cs.map (readBack stof pr)) (cg.map (readBack stof pr)) par true)) with
    | none => rw [hplan] at h; exact nomatch h
    | some x =>
      rw [hplan] at h
      obtain ⟨r', rfl, h'⟩ := Res.bind_eq_ok.1 (Option.some.inj h)
      obtain rfl := (Res.ok.injEq _ _).mp h'
      obtain ⟨i1, i2, i3, i4⟩ := plan3_report L V hV hpick b _ robot hrun quats arena obs (Or.inl hane) _ _
        (by rw [List.length_map, convertConfig_length c0]; rfl) (by rw [List.length_map, convertConfig_length c1]; rfl)
        par clock timeLim fuel r' hplan
      have hnd := outFiles_nodup D suffix
      simp only [outFiles, List.map_cons, List.map_nil, List.nodup_cons, List.mem_cons, List.not_mem_nil, or_false, not_or,
        List.nodup_nil, and_true, not_false_eq_true] at hnd
      obtain ⟨⟨n1, n2, n3, n4⟩, ⟨n5, n6, n7⟩, ⟨n8, n9⟩, n10⟩ := hnd
      refine ⟨?_, rows, _, _, cs, cg, r'.st.graph.vertex, r'.st.graph.edge, r'.st.res.pathId, r'.solvedPath, hrows,
        List.getElem?_eq_getElem l0, List.getElem?_eq_getElem l1, c0, c1, ?_, ?_, ?_, ?_, ?_, ?_, i2, i3, i4⟩
      · intro n m1 m2
        simp only [outFiles, List.map_cons, List.map_nil, List.mem_cons, List.not_mem_nil, or_false, not_or] at m2
        obtain ⟨a1, a2, a3, a4, a5⟩ := m2
        unfold storePath storeGraph
        rw [Files.put_ne _ _ a5, Files.put_ne _ _ a4, Files.put_ne _ _ a3, Files.put_ne _ _ a2, Files.put_ne _ _ a1]
        exact hfr n m1
      · intro x hx
        rcases List.mem_append.1 hx with hx | hx
        · exact hval cs (List.mem_of_getElem? hcs) x hx
        · exact hval cg (List.mem_of_getElem? hcg) x hx
      · unfold storePath storeGraph
        rw [Files.put_ne _ _ n4, Files.put_ne _ _ n3, Files.put_ne _ _ n2, Files.put_ne _ _ n1, Files.put_same]
      · unfold storePath storeGraph
        rw [Files.put_ne _ _ n7, Files.put_ne _ _ n6, Files.put_ne _ _ n5, Files.put_same]
      · unfold storePath
        rw [Files.put_ne _ _ n9, Files.put_ne _ _ n8, Files.put_same]
      · unfold storePath
        rw [Files.put_ne _ _ n10, Files.put_same]
      · unfold storePath
        rw [Files.put_same, i1]
        simp only [writeRows, List.flatMap_map, hprN]

/-- C96: the result files agree with each other when they are read again with the library's own reader (at most 2^24
vertices): either there is no path and there are no vertex numbers, or the rows of the path between the first and the
last are the rows of the vertices with the stored numbers, and consecutive numbers are a row of the edges. -/
theorem C96_results_agree (L : Libs3) (V : Variant) (hV : V.arm = none) (hpick : HeapTop L.pick)
    {stof : List Char → Scan} (hstof : StofOk stof) {pr : ℝ → List Char} (hpr : PrintOk pr)
    (hnum : ∀ x, stof (pr x) ≠ .invalid)
    {prN : Option ℝ → List Char} (hprN : ∀ x, prN (some x) = pr x) {D : Dirs} {T : Task} (hT : T.Plain)
    (hD : D.cfg ≠ D.resDim T) (hdim : T.dim = "3D".toList) (hk : kindOf T.robot = .other) {quatFile : List Char}
    (hq0 : quatFile ≠ "0".toList) (hq : quatFile ∉ cfgFiles D T.dim) {num : ℕ} {suffix : List Char} {clock : ℕ → ℝ}
    {timeLim : ℝ} {fuel : ℕ} {fs fs' : Files}
    (h : demoHRM3D L V stof pr prN D T quatFile num suffix clock timeLim fuel fs = some (.ok fs'))
    {W E I S : List (List ℝ)} (hW : parseCsv stof (fs' (outFile D "vertex".toList suffix)) = .ok W)
    (hE : parseCsv stof (fs' (outFile D "edge".toList suffix)) = .ok E)
    (hI : parseCsv stof (fs' (outFile D "path_id".toList suffix)) = .ok I)
    (hS : parseCsv stof (fs' (outFile D "solution_path".toList suffix)) = .ok S) (hsize : W.length ≤ 2 ^ 24) :
    (S = [] ∧ I = []) ∨
      ∃ (ids : List ℕ) (first last : List ℝ) (mid : List (List ℝ)), I = [ids.map fun i : ℕ => (i : ℝ)] ∧ ids ≠ [] ∧
        S = first :: (mid ++ [last]) ∧ mid.length = ids.length ∧
        (∀ (k i : ℕ), ids[k]? = some i → i < W.length ∧ mid[k]? = W[i]?) ∧
        ∀ (k i j : ℕ), ids[k]? = some i → ids[k + 1]? = some j → [(i : ℝ), (j : ℝ)] ∈ E ∨ [(j : ℝ), (i : ℝ)] ∈ E := by
  obtain ⟨-, rows, row0, row1, cs, cg, vertices, edges, ids, path, -, -, -, -, -, -, f1, f2, f3, f4, -, g1, g2, g3⟩ :=
    C96_demo_end_to_end L V hV hpick hpr hnum hprN hT hD hdim hk hq0 hq h
  rw [f1] at hW
  rw [f2] at hE
  rw [f3] at hI
  rw [f4] at hS
  obtain rfl := writeRows_read hpr hnum hW
  obtain rfl := writeRows_read hpr hnum hS
  rw [List.length_map] at hsize
  rw [C49_edges stof hstof edges fun e he => by have := g1 e he; omega] at hE
  obtain rfl := (Res.ok.injEq _ _).mp hE
  rw [C49_path_ids stof hstof ids fun i hi => by have := g2 i hi; omega] at hI
  obtain rfl := (Res.ok.injEq _ _).mp hI
  rcases g3 with ⟨rfl, rfl⟩ | ⟨mid, rfl, hmid, hl, hv, he⟩
  · exact Or.inl ⟨rfl, rfl⟩
  · have hids : ids ≠ [] := by
      rintro rfl
      exact hmid (List.length_eq_zero_iff.1 (by simpa using hl))
    refine Or.inr ⟨ids, (cs.map (readBack stof pr)).map (readBack stof pr),
      (cg.map (readBack stof pr)).map (readBack stof pr), mid.map (·.map (readBack stof pr)), by rw [if_neg hids], hids, ?_, by simpa using hl, ?_, ?_⟩
    · simp only [List.map_cons, List.map_append, List.map_nil]
    · intro k i hki
      refine ⟨by rw [List.length_map]; exact g2 i (List.mem_of_getElem? hki), ?_⟩
      rw [List.getElem?_map, List.getElem?_map, hv k i hki]
    · intro k i j h1 h2
      rcases he k i j h1 h2 with h' | h'
      · exact Or.inl (List.mem_map.2 ⟨_, h', rfl⟩)
      · exact Or.inr (List.mem_map.2 ⟨_, h', rfl⟩)

end Hrm
