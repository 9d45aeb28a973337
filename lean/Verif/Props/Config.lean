import Verif.Props.Settings

/-!
# C77 – from resource files to the objects of the planner
-/

namespace Hrm

open Matrix

/-! ## Axis and angle -/

theorem normalize3_eq {ux uy uz : ℝ} (h : (ux, uy, uz) ≠ ((0, 0, 0) : ℝ × ℝ × ℝ)) :
    normalize3 (ux, uy, uz) = (unitAxis ux uy uz 0, unitAxis ux uy uz 1, unitAxis ux uy uz 2) ∧
      unitAxis ux uy uz 0 ^ 2 + unitAxis ux uy uz 1 ^ 2 + unitAxis ux uy uz 2 ^ 2 = 1 := by
  have hs : 0 < ux ^ 2 + uy ^ 2 + uz ^ 2 := by
    by_contra hn
    have h0 : ux ^ 2 + uy ^ 2 + uz ^ 2 = 0 := le_antisymm (not_lt.1 hn) (by positivity)
    apply h
    have e1 : ux = 0 := by nlinarith [sq_nonneg ux, sq_nonneg uy, sq_nonneg uz]
    have e2 : uy = 0 := by nlinarith [sq_nonneg ux, sq_nonneg uy, sq_nonneg uz]
    have e3 : uz = 0 := by nlinarith [sq_nonneg ux, sq_nonneg uy, sq_nonneg uz]
    rw [e1, e2, e3]
  have e : ux * ux + uy * uy + uz * uz = ux ^ 2 + uy ^ 2 + uz ^ 2 := by ring
  have hq : Real.sqrt (ux ^ 2 + uy ^ 2 + uz ^ 2) ^ 2 = ux ^ 2 + uy ^ 2 + uz ^ 2 := Real.sq_sqrt hs.le
  have hp : 0 < Real.sqrt (ux ^ 2 + uy ^ 2 + uz ^ 2) := Real.sqrt_pos.2 hs
  refine ⟨?_, ?_⟩
  · unfold normalize3 unitAxis
    simp only [e, if_pos hs]
    simp [div_eq_inv_mul]
  · unfold unitAxis
    simp
    field_simp
    rw [hq]

/-- C77: an axis that is not zero and an angle become a unit quaternion, and its rotation matrix rotates by that angle
about that axis. -/
theorem C77_axis_angle {ux uy uz th : ℝ} (h : (ux, uy, uz) ≠ ((0, 0, 0) : ℝ × ℝ × ℝ)) :
    (axisAngleQuat th (normalize3 (ux, uy, uz))).Unit ∧
      ∀ v, quatRot (axisAngleQuat th (normalize3 (ux, uy, uz))) *ᵥ v = rotateAbout (unitAxis ux uy uz) th v := by
  obtain ⟨e, hu⟩ := normalize3_eq h
  rw [e]
  set u := unitAxis ux uy uz
  have hc : Real.cos th = 2 * Real.cos (th / 2) ^ 2 - 1 := by rw [← Real.cos_two_mul]; congr 1; ring
  have hs : Real.sin th = 2 * Real.sin (th / 2) * Real.cos (th / 2) := by rw [← Real.sin_two_mul]; congr 1; ring
  have hsc := Real.sin_sq_add_cos_sq (th / 2)
  constructor
  · unfold Quat.Unit axisAngleQuat
    dsimp only
    linear_combination hsc + Real.sin (th / 2) ^ 2 * hu
  · intro v
    obtain ⟨a, b, c, rfl⟩ : ∃ a b c, v = ![a, b, c] := ⟨v 0, v 1, v 2, by ext i; fin_cases i <;> rfl⟩
    unfold quatRot rotateAbout axisAngleQuat
    rw [hc, hs]
    ext i
    fin_cases i
    · simp [cross_apply, dotProduct, Fin.sum_univ_three]
      linear_combination -2 * Real.sin (th / 2) ^ 2 * a * hu - (2 * a - 2 * (u 0 * a + u 1 * b + u 2 * c) * u 0) * hsc
    · simp [cross_apply, dotProduct, Fin.sum_univ_three]
      linear_combination -2 * Real.sin (th / 2) ^ 2 * b * hu - (2 * b - 2 * (u 0 * a + u 1 * b + u 2 * c) * u 1) * hsc
    · simp [cross_apply, dotProduct, Fin.sum_univ_three]
      linear_combination -2 * Real.sin (th / 2) ^ 2 * c * hu - (2 * c - 2 * (u 0 * a + u 1 * b + u 2 * c) * u 2) * hsc

/-- C77: with a zero axis the quaternion is not normalised, and is zero for a half turn; the matrix made of it is the
identity. -/
theorem C77_zero_axis (th : ℝ) :
    axisAngleQuat th (normalize3 (0, 0, 0)) = (Real.cos (th / 2), 0, 0, 0) ∧
      quatRot (axisAngleQuat th (normalize3 (0, 0, 0))) = 1 ∧
      ((axisAngleQuat th (normalize3 (0, 0, 0))).Unit ↔ Real.sin (th / 2) = 0) := by
  have e : axisAngleQuat th (normalize3 (0, 0, 0)) = (Real.cos (th / 2), 0, 0, 0) := by
    simp [axisAngleQuat, normalize3]
  rw [e]
  refine ⟨rfl, ?_, ?_⟩
  · unfold quatRot
    ext i j
    fin_cases i <;> fin_cases j <;> simp
  · unfold Quat.Unit
    have := Real.sin_sq_add_cos_sq (th / 2)
    simp only
    constructor
    · intro h; exact pow_eq_zero_iff (two_ne_zero) |>.1 (by linarith)
    · intro h; rw [h] at this; linarith

/-! ## The rows written are the rows read -/

theorem writeRow_eq (pr : ℝ → List Char) (r : List ℝ) : writeRow pr r = joinFields (r.map pr) ++ ['\n'] := by
  induction r with
  | nil => rfl
  | cons x l ih =>
    cases l with
    | nil => rfl
    | cons y l =>
      rw [writeRow, ih]
      simp [joinFields]

theorem readAll_printed {pr : ℝ → List Char} (hpr : PrintOk pr) (r : List ℝ) :
    readAll ',' (joinFields (r.map pr)) = r.map pr := by
  rcases readAll_joinFields (fs := r.map pr) (by
    intro f hf c hc
    obtain ⟨x, -, rfl⟩ := List.mem_map.1 hf
    exact ((hpr x).2 c hc).1) with e | e
  · exact e
  · have : ([] : List Char) ∈ r.map pr := by rw [e]; simp
    obtain ⟨x, -, hx⟩ := List.mem_map.1 this
    exact absurd hx (hpr x).1

/-- C77: a table written with commas between the numbers is read back with the same shape, each number `x` replaced by
what `stof` makes of its printed form. -/
theorem C77_rows_read_back (stof : List Char → Scan) (pr : ℝ → List Char) (hpr : PrintOk pr) (rows : List (List ℝ))
    (f : ℝ → ℝ) (hf : ∀ r ∈ rows, ∀ x ∈ r, stof (pr x) = .val (f x)) :
    parseCsv stof (some (rows.flatMap (writeRow pr))) = .ok (rows.map (·.map f)) := by
  have e : rows.flatMap (writeRow pr) = joinLines (rows.map fun r => joinFields (r.map pr)) := by
    simp only [joinLines, List.flatMap_map]
    congr 1
    funext r
    exact writeRow_eq pr r
  rw [e, parseCsv_some, readAll_joinLines, parseLines_ok]
  · rw [List.nil_append, List.filter_map, List.map_map]
    congr 1
    rw [List.filter_eq_self.2]
    · apply List.map_congr_left
      intro row hrow
      simp only [Function.comp_apply]
      rw [readAll_printed hpr, List.filterMap_map]
      have := hf row hrow
      clear hrow
      induction row with
      | nil => rfl
      | cons x row ih =>
        rw [List.filterMap_cons, Function.comp_apply, this x (by simp), List.map_cons, Scan.toOption_val]
        dsimp only
        rw [ih fun y hy => this y (by simp [hy])]
    · intro row _
      simp only [Function.comp_apply, decide_eq_true_eq]
      intro hh
      have hm : '#' ∈ joinFields (row.map pr) := List.mem_of_mem_head? (by rw [hh]; rfl)
      rcases joinFields_mem hm with h | ⟨g, hg, h⟩
      · exact absurd h (by decide)
      · obtain ⟨x, -, rfl⟩ := List.mem_map.1 hg
        exact ((hpr x).2 _ h).2.2 rfl
  · intro l hl _ g hg
    obtain ⟨row, hrow, rfl⟩ := List.mem_map.1 hl
    rw [readAll_printed hpr] at hg
    obtain ⟨x, hx, rfl⟩ := List.mem_map.1 hg
    rw [hf row hrow x hx]
    exact fun h => nomatch h
  · intro l hl c hc
    obtain ⟨row, -, rfl⟩ := List.mem_map.1 hl
    rcases joinFields_mem hc with h | ⟨g, hg, h⟩
    · rw [h]; decide
    · obtain ⟨x, -, rfl⟩ := List.mem_map.1 hg
      exact ((hpr x).2 _ h).2.1

theorem writeLoop_eq {B : Type} (g : B → Res (List ℝ)) (pr : ℝ → List Char) (os : List B) (v : B → List ℝ)
    (h : ∀ o ∈ os, g o = .ok (v o)) (acc : List Char) :
    os.foldlM (fun acc o => (g o).bind fun r => (.ok (acc ++ writeRow pr r) : Res (List Char))) acc =
      .ok (acc ++ (os.map v).flatMap (writeRow pr)) := by
  induction os generalizing acc with
  | nil => simp
  | cons o os ih =>
    rw [List.foldlM_cons, h o (by simp)]
    change os.foldlM _ (acc ++ writeRow pr (v o)) = _
    rw [ih fun o' h' => h o' (by simp [h'])]
    simp

theorem loadAll_eq' {C B : Type} (load : C → Res B) (rows : List C) (v : C → B) (h : ∀ r ∈ rows, load r = .ok (v r)) :
    rows.foldlM (fun acc r => (load r).bind fun b => (.ok (acc ++ [b]) : Res (List B))) [] = .ok (rows.map v) := by
  have : ∀ acc, rows.foldlM (fun acc r => (load r).bind fun b => (.ok (acc ++ [b]) : Res (List B))) acc =
      .ok (acc ++ rows.map v) := by
    induction rows with
    | nil => simp
    | cons r rows ih =>
      intro acc
      rw [List.foldlM_cons, h r (by simp)]
      change rows.foldlM _ (acc ++ [v r]) = _
      rw [ih fun r' h' => h r' (by simp [h'])]
      simp
  simpa using this []

/-! ## Objects -/

/-- C77 (space): every resource file with one object per line (semi-axes, exponents, position, axis, angle; axis not
zero) is turned into a configuration file from which the same objects are loaded, in the same order: every number is
what `stof` makes of its printed form, and the four numbers of the orientation are those of a unit quaternion that
rotates by the given angle about the given axis. -/
theorem C77_objects_space (stof : List Char → Scan) (pr : ℝ → List Char) (hpr : PrintOk pr) (input : List Char)
    (os : List ObjRow) (hin : parseCsv stof (some input) = .ok (os.map (·.row))) (f : ℝ → ℝ)
    (hf : ∀ o ∈ os, ∀ x ∈ o.conv, stof (pr x) = .val (f x))
    (hax : ∀ o ∈ os, (o.ux, o.uy, o.uz) ≠ ((0, 0, 0) : ℝ × ℝ × ℝ)) (num : ℕ) :
    ∃ config, parseGeometricModel stof pr (some input) = .ok config ∧
      ∃ Qs, loadQuadrics stof num (some config) = .ok Qs ∧ Qs.length = os.length ∧
        ∀ (i : ℕ) (o : ObjRow), os[i]? = some o → ∃ (Q : SuperQuadrics) (q : Quat), Qs[i]? = some Q ∧
          Q = ⟨f o.a, f o.b, f o.c, f o.e1, f o.e2, ![f o.x, f o.y, f o.z], (f q.1, f q.2.1, f q.2.2.1, f q.2.2.2), num⟩ ∧
          q.Unit ∧ ∀ v, quatRot q *ᵥ v = rotateAbout (unitAxis o.ux o.uy o.uz) o.th v := by
  refine ⟨(os.map (·.conv)).flatMap (writeRow pr), ?_, ?_⟩
  · unfold parseGeometricModel
    rw [hin]
    change (os.map (·.row)).foldlM _ [] = _
    rw [List.foldlM_map, writeLoop_eq (fun o : ObjRow => convertObject o.row) pr os (·.conv) fun o _ => rfl, List.nil_append]
  · refine ⟨os.map fun o => ⟨f o.a, f o.b, f o.c, f o.e1, f o.e2, ![f o.x, f o.y, f o.z],
      (f o.quat.1, f o.quat.2.1, f o.quat.2.2.1, f o.quat.2.2.2), num⟩, ?_, by simp, ?_⟩
    · unfold loadQuadrics
      rw [C77_rows_read_back stof pr hpr _ f]
      · change loadAll _ _ = _
        unfold loadAll
        rw [List.foldlM_map, List.foldlM_map]
        have := loadAll_eq' (fun o : ObjRow => loadQuadric num (o.conv.map f)) os (fun o => ⟨f o.a, f o.b, f o.c, f o.e1, f o.e2,
          ![f o.x, f o.y, f o.z], (f o.quat.1, f o.quat.2.1, f o.quat.2.2.1, f o.quat.2.2.2), num⟩) (fun o _ => rfl)
        exact this
      · intro r hr x hx
        obtain ⟨o, ho, rfl⟩ := List.mem_map.1 hr
        exact hf o ho x hx
    · intro i o ho
      obtain ⟨h1, h2⟩ := C77_axis_angle (th := o.th) (hax o (List.mem_of_getElem? ho))
      exact ⟨_, o.quat, by rw [List.getElem?_map, ho]; rfl, rfl, h1, h2⟩

/-- C77 (plane): rows of the planar files (any number of columns but twelve, at least six) are copied and loaded. -/
theorem C77_objects_plane (stof : List Char → Scan) (pr : ℝ → List Char) (hpr : PrintOk pr) (input : List Char)
    (rows : List (List ℝ)) (hin : parseCsv stof (some input) = .ok rows) (f : ℝ → ℝ)
    (hf : ∀ r ∈ rows, ∀ x ∈ r, stof (pr x) = .val (f x)) (hlen : ∀ r ∈ rows, 6 ≤ r.length ∧ r.length ≠ 12) (num : ℕ) :
    ∃ config, parseGeometricModel stof pr (some input) = .ok config ∧
      ∃ Es, loadEllipses stof num (some config) = .ok Es ∧ Es.length = rows.length ∧
        ∀ (i : ℕ) (r : List ℝ), rows[i]? = some r → ∃ a b e x y th, r.take 6 = [a, b, e, x, y, th] ∧
          Es[i]? = some ⟨f a, f b, f e, f x, f y, f th, num⟩ := by
  have hsix : ∀ r ∈ rows, ∃ a b e x y th l, r = a :: b :: e :: x :: y :: th :: l := by
    intro r hr
    have := (hlen r hr).1
    match r with
    | a :: b :: e :: x :: y :: th :: l => exact ⟨a, b, e, x, y, th, l, rfl⟩
    | [] | [_] | [_, _] | [_, _, _] | [_, _, _, _] | [_, _, _, _, _] => simp at this
  have hconv : ∀ r ∈ rows, convertObject r = .ok r := by
    intro r hr
    obtain ⟨h1, h2⟩ := hlen r hr
    unfold convertObject
    split
    · simp at h2
    · simp at h1
    · rfl
  refine ⟨rows.flatMap (writeRow pr), ?_, ?_⟩
  · unfold parseGeometricModel
    rw [hin]
    change rows.foldlM _ [] = _
    rw [writeLoop_eq convertObject pr rows id hconv]
    simp
  · have hload : ∀ r ∈ rows, loadEllipse num (r.map f) = .ok ((fun r : List ℝ => (⟨f (r.getD 0 0), f (r.getD 1 0),
        f (r.getD 2 0), f (r.getD 3 0), f (r.getD 4 0), f (r.getD 5 0), num⟩ : SuperEllipse)) r) := by
      intro r hr
      obtain ⟨a, b, e, x, y, th, l, rfl⟩ := hsix r hr
      rfl
    refine ⟨rows.map fun r : List ℝ => (⟨f (r.getD 0 0), f (r.getD 1 0), f (r.getD 2 0), f (r.getD 3 0), f (r.getD 4 0),
      f (r.getD 5 0), num⟩ : SuperEllipse), ?_, by simp, ?_⟩
    · unfold loadEllipses
      rw [C77_rows_read_back stof pr hpr rows f hf]
      change loadAll _ _ = _
      unfold loadAll
      rw [List.foldlM_map]
      exact loadAll_eq' (fun r : List ℝ => loadEllipse num (r.map f)) rows _ hload
    · intro i r hr
      obtain ⟨a, b, e, x, y, th, l, rfl⟩ := hsix r (List.mem_of_getElem? hr)
      exact ⟨a, b, e, x, y, th, rfl, by rw [List.getElem?_map, hr]; rfl⟩

/-- C77: a blank line in a resource file makes the conversion throw. -/
theorem C77_blank_line_throws (stof : List Char → Scan) (pr : ℝ → List Char) (input : List Char) (rows : List (List ℝ))
    (hin : parseCsv stof (some input) = .ok rows) (hb : [] ∈ rows) : parseGeometricModel stof pr (some input) = .throw := by
  unfold parseGeometricModel
  rw [hin]
  change rows.foldlM _ [] = _
  clear hin
  generalize ([] : List Char) = acc
  induction rows generalizing acc with
  | nil => simp at hb
  | cons r rows ih =>
    rw [List.foldlM_cons]
    by_cases hr : r = []
    · rw [hr]; rfl
    · have hm : [] ∈ rows := by
        rcases List.mem_cons.1 hb with e | e
        · exact absurd e.symm hr
        · exact e
      have : ∃ v, convertObject r = .ok v := by
        unfold convertObject
        split
        · exact ⟨_, rfl⟩
        · exact absurd rfl hr
        · exact ⟨_, rfl⟩
      obtain ⟨v, hv⟩ := this
      rw [hv]
      exact ih hm _

/-! ## Robots -/

/-- C77: a loaded planar robot is what `addBody` makes of the loaded bodies: the first is the base, the others are added
in the order of the file. -/
theorem C77_robot_plane (stof : List Char → Scan) (num : ℕ) (file : Option (List Char)) (b : SuperEllipse)
    (ls : List SuperEllipse) (h : loadEllipses stof num file = .ok (b :: ls)) :
    ∃ T, loadRobot2 stof num file = .ok T ∧ Tree2.run (ls.map .add) (.new b) = .ok T := by
  refine ⟨ls.foldl Tree2.addBody (.new b), ?_, ?_⟩
  · unfold loadRobot2
    rw [h]; rfl
  · unfold Tree2.run
    generalize Tree2.new b = T
    clear h
    induction ls generalizing T with
    | nil => rfl
    | cons l ls ih =>
      rw [List.map_cons, List.foldlM_cons]
      exact ih (T.addBody l)

/-- C77: the same in space; the predefined orientations are read with the scalar part last. -/
theorem C77_robot_space (stof : List Char → Scan) (num : ℕ) (file : Option (List Char)) (b : SuperQuadrics)
    (ls : List SuperQuadrics) (h : loadQuadrics stof num file = .ok (b :: ls)) (qfile : Option (List Char))
    (qs : List Quat) (hq : parseCsv stof qfile = .ok (qs.map fun q => [q.2.1, q.2.2.1, q.2.2.2, q.1])) :
    ∃ T, loadRobot3 stof num file (some qfile) = .ok (T, qs) ∧ loadRobot3 stof num file none = .ok (T, []) ∧
      Tree3.run (ls.map .add) (.new b) = .ok T := by
  have hqs : loadQuats stof (some qfile) = .ok qs := by
    change (parseCsv stof qfile).bind _ = _
    rw [hq]
    change loadAll _ _ = _
    unfold loadAll
    rw [List.foldlM_map]
    have := loadAll_eq' (fun q : Quat => loadQuat [q.2.1, q.2.2.1, q.2.2.2, q.1]) qs id (fun q _ => rfl)
    rw [List.map_id] at this
    exact this
  refine ⟨ls.foldl Tree3.addBody (.new b), ?_, ?_, ?_⟩
  · unfold loadRobot3
    rw [h]
    change (loadQuats stof (some qfile)).bind _ = _
    rw [hqs]; rfl
  · unfold loadRobot3
    rw [h]; rfl
  · unfold Tree3.run
    generalize Tree3.new b = T
    clear h
    induction ls generalizing T with
    | nil => rfl
    | cons l ls ih =>
      rw [List.map_cons, List.foldlM_cons]
      exact ih (T.addBody l)

/-- C77: a robot file without a body is undefined behaviour. -/
theorem C77_empty_robot_ub (stof : List Char → Scan) (num : ℕ) (file : Option (List Char))
    (qf : Option (Option (List Char))) :
    (loadEllipses stof num file = .ok [] → loadRobot2 stof num file = .ub) ∧
      (loadQuadrics stof num file = .ok [] → loadRobot3 stof num file qf = .ub) := by
  constructor
  · intro h; unfold loadRobot2; rw [h]; rfl
  · intro h; unfold loadRobot3; rw [h]; rfl

/-! ## Start and goal -/

theorem columns_eq (n : ℕ) (r : List ℝ) (h : n ≤ r.length) : columns n r = .ok (r.take n) := by
  unfold columns
  have hv : ∀ i < n, Res.at' r i = .ok (r.getD i 0) := by
    intro i hi
    rw [Res.at'_eq_ok, List.getD_eq_getElem?_getD, List.getElem?_eq_getElem (by omega)]
    rfl
  rw [appendLoop _ (fun i => r.getD i 0) n hv, List.nil_append]
  congr 1
  apply List.ext_getElem?
  intro i
  rw [List.getElem?_map, List.getElem?_take]
  by_cases hi : i < n
  · rw [List.getElem?_range hi, if_pos hi, Option.map_some, List.getD_eq_getElem?_getD, List.getElem?_eq_getElem (by omega)]
    rfl
  · rw [if_neg hi, List.getElem?_eq_none (by simpa using hi)]
    rfl

theorem columns_short (n : ℕ) (r : List ℝ) (h : r.length < n) : columns n r = .throw := by
  unfold columns
  have key : ∀ (l : List ℕ) (acc : List ℝ), (∃ i ∈ l, r.length ≤ i) →
      l.foldlM (fun acc i => (Res.at' r i).bind fun x => (.ok (acc ++ [x]) : Res (List ℝ))) acc = .throw := by
    intro l
    induction l with
    | nil => rintro acc ⟨i, hi, -⟩; simp at hi
    | cons j l ih =>
      rintro acc ⟨i, hi, hr⟩
      rw [List.foldlM_cons]
      by_cases hj : r.length ≤ j
      · have : Res.at' r j = .throw := by
          unfold Res.at'
          rw [List.getElem?_eq_none hj]
        rw [this]; rfl
      · have : Res.at' r j = .ok (r[j]'(by omega)) := by
          rw [Res.at'_eq_ok, List.getElem?_eq_getElem]
        rw [this]
        refine ih _ ⟨i, ?_, hr⟩
        rcases List.mem_cons.1 hi with rfl | hi
        · exact absurd hr hj
        · exact hi
  exact key _ _ ⟨r.length, List.mem_range.2 h, le_rfl⟩

/-- C77 (start and goal, space): position and joint values are kept, axis and angle become the quaternion; columns beyond
those of the kind of robot are dropped, missing ones reported by an exception. -/
theorem C77_configuration_space (k : RobotKind) (x y z ux uy uz th : ℝ) (js : List ℝ)
    (hax : (ux, uy, uz) ≠ ((0, 0, 0) : ℝ × ℝ × ℝ)) :
    (k.joints ≤ js.length → ∃ q : Quat,
      convertConfig k .space (x :: y :: z :: ux :: uy :: uz :: th :: js) =
        .ok (some (conf7 x y z q ++ js.take k.joints)) ∧
      q.Unit ∧ ∀ v, quatRot q *ᵥ v = rotateAbout (unitAxis ux uy uz) th v) ∧
    (js.length < k.joints → convertConfig k .space (x :: y :: z :: ux :: uy :: uz :: th :: js) = .throw) := by
  have hj : k.joints = k.numDOF - 6 ∧ 6 ≤ k.numDOF := by cases k <;> exact ⟨rfl, by decide⟩
  rw [hj.1]
  have e : ∀ js, convertConfig k .space (x :: y :: z :: ux :: uy :: uz :: th :: js) =
      (columns (k.numDOF + 1) (conf7 x y z (axisAngleQuat th (normalize3 (ux, uy, uz))) ++ js)).bind fun r =>
        .ok (some r) := fun _ => rfl
  constructor
  · intro h
    refine ⟨axisAngleQuat th (normalize3 (ux, uy, uz)), ?_, C77_axis_angle hax⟩
    rw [e, columns_eq _ _ (by simp [conf7]; omega)]
    have : (conf7 x y z (axisAngleQuat th (normalize3 (ux, uy, uz)))).length ≤ k.numDOF + 1 := by
      cases k <;> simp [conf7, RobotKind.numDOF]
    rw [List.take_append, List.take_of_length_le this]
    have h7 : (conf7 x y z (axisAngleQuat th (normalize3 (ux, uy, uz)))).length = 7 := rfl
    rw [h7, show k.numDOF + 1 - 7 = k.numDOF - 6 by omega]
    rfl
  · intro h
    rw [e, columns_short _ _ (by simp [conf7]; omega)]
    rfl

/-- C77 (start and goal, plane): the first three columns. -/
theorem C77_configuration_plane (k : RobotKind) (v : List ℝ) :
    (3 ≤ v.length → convertConfig k .plane v = .ok (some (v.take 3))) ∧
      (v.length < 3 → convertConfig k .plane v = .throw) := by
  constructor
  · intro h
    unfold convertConfig
    dsimp only
    rw [columns_eq _ _ h]; rfl
  · intro h
    unfold convertConfig
    dsimp only
    rw [columns_short _ _ h]; rfl

/-- C77 (start and goal file): if every row converts, the configuration file is read back row by row. -/
theorem C77_start_goal (stof : List Char → Scan) (pr : ℝ → List Char) (hpr : PrintOk pr) (input : List Char)
    (k : RobotKind) (d : Dim) (rows : List (List ℝ)) (hin : parseCsv stof (some input) = .ok rows)
    (conv : List ℝ → List ℝ) (hc : ∀ r ∈ rows, convertConfig k d r = .ok (some (conv r))) (f : ℝ → ℝ)
    (hf : ∀ r ∈ rows, ∀ x ∈ conv r, stof (pr x) = .val (f x)) :
    ∃ config, parseStartGoalConfig stof pr k d (some input) = .ok config ∧
      parseCsv stof (some config) = .ok (rows.map fun r => (conv r).map f) := by
  refine ⟨(rows.map conv).flatMap (writeRow pr), ?_, ?_⟩
  · unfold parseStartGoalConfig
    rw [hin]
    change rows.foldlM _ [] = _
    have key : ∀ acc, rows.foldlM (fun acc v => (convertConfig k d v).bind fun r => match r with
        | some r => (.ok (acc ++ writeRow pr r) : Res (List Char))
        | none => .ok acc) acc = .ok (acc ++ (rows.map conv).flatMap (writeRow pr)) := by
      clear hin hf
      induction rows with
      | nil => simp
      | cons r rows ih =>
        intro acc
        rw [List.foldlM_cons, hc r (by simp)]
        change rows.foldlM _ (acc ++ writeRow pr (conv r)) = _
        rw [ih fun r' h' => hc r' (by simp [h'])]
        simp
    exact key []
  · rw [C77_rows_read_back stof pr hpr _ f]
    · rw [List.map_map]; rfl
    · intro r hr x hx
      obtain ⟨r', hr', rfl⟩ := List.mem_map.1 hr
      exact hf r' hr' x hx

/-! ## What the text costs -/

theorem IsFloat.rat {v : ℝ} (h : IsFloat v) : ∃ q : ℚ, v = q := by
  obtain ⟨m, e, -, rfl⟩ := h
  exact ⟨(m : ℚ) * (2 : ℚ) ^ e, by push_cast; rfl⟩

/-- C77: for a quarter turn about an axis of the coordinate system, the orientation read back from the configuration file
is never a unit quaternion, however the numbers are printed. -/
theorem C77_unit_lost (stof : List Char → Scan) (hs : StofOk stof) (pr : ℝ → List Char) (f : ℝ → ℝ)
    (hf : ∀ x, x = 0 ∨ x = Real.sqrt 2 / 2 → stof (pr x) = .val (f x)) (hf0 : f 0 = 0) :
    let q := axisAngleQuat (Real.pi / 2) (normalize3 (1, 0, 0))
    q.Unit ∧ ¬ Quat.Unit (f q.1, f q.2.1, f q.2.2.1, f q.2.2.2) := by
  intro q
  refine ⟨(C77_axis_angle (by simp)).1, ?_⟩
  have hn : normalize3 (1, 0, 0) = (1, 0, 0) := by simp [normalize3]
  have e4 : Real.pi / 2 / 2 = Real.pi / 4 := by ring
  have hq : q = (Real.sqrt 2 / 2, Real.sqrt 2 / 2, 0, 0) := by
    change axisAngleQuat (Real.pi / 2) (normalize3 (1, 0, 0)) = _
    rw [hn]
    unfold axisAngleQuat
    rw [e4, Real.cos_pi_div_four, Real.sin_pi_div_four]
    simp
  rw [hq]
  obtain ⟨r, hr⟩ := (hs.float _ _ (hf _ (Or.inr rfl))).rat
  unfold Quat.Unit
  dsimp only
  rw [hr, hf0]
  intro h
  have h2 : (2 : ℝ) * (r : ℝ) ^ 2 = 1 := by linarith
  have h3 : (2 * (r : ℝ)) ^ 2 = 2 := by linear_combination 2 * h2
  have h4 : |2 * (r : ℝ)| = Real.sqrt 2 := by rw [← Real.sqrt_sq_eq_abs, h3]
  apply irrational_sqrt_two
  refine ⟨|2 * r|, ?_⟩
  push_cast
  exact h4

/-! ## An example -/

/-- An ellipsoid at (3, 4, 5), not turned. -/
noncomputable def exObj : ObjRow := ⟨2, 1, 1, 1, 1, 3, 4, 5, 0, 0, 1, 0⟩

theorem exObj_conv : exObj.conv = [2, 1, 1, 1, 1, 3, 4, 5, 1, 0, 0, 0] := by
  have : exObj.quat = (1, 0, 0, 0) := by
    unfold ObjRow.quat exObj axisAngleQuat
    simp
  unfold ObjRow.conv
  rw [this]
  rfl

theorem exStof_pr {x : ℝ} (n : ℕ) (hn : n ≤ 2 ^ 24) (hx : x = n) : exStof (exPr x) = .val x := by
  rw [hx]
  unfold exPr
  rw [Nat.floor_natCast]
  exact exStof_ok.nat n hn

/-- The hypotheses of the theorem on objects are met by a file with this object. -/
example : ∃ input, parseCsv exStof (some input) = .ok ([exObj].map (·.row)) ∧
    (∀ o ∈ [exObj], ∀ x ∈ o.conv, exStof (exPr x) = .val (id x)) ∧
    ∀ o ∈ [exObj], (o.ux, o.uy, o.uz) ≠ ((0, 0, 0) : ℝ × ℝ × ℝ) := by
  have hsmall : ∀ x : ℝ, x = 0 ∨ x = 1 ∨ x = 2 ∨ x = 3 ∨ x = 4 ∨ x = 5 → exStof (exPr x) = .val (id x) := by
    rintro x (h | h | h | h | h | h)
    · exact exStof_pr 0 (by norm_num) (by rw [h]; norm_num)
    · exact exStof_pr 1 (by norm_num) (by rw [h]; norm_num)
    · exact exStof_pr 2 (by norm_num) (by rw [h]; norm_num)
    · exact exStof_pr 3 (by norm_num) (by rw [h]; norm_num)
    · exact exStof_pr 4 (by norm_num) (by rw [h]; norm_num)
    · exact exStof_pr 5 (by norm_num) (by rw [h]; norm_num)
  refine ⟨[exObj.row].flatMap (writeRow exPr), ?_, ?_, ?_⟩
  · rw [C77_rows_read_back exStof exPr exPr_ok [exObj.row] id]
    · simp
    · intro r hr x hx
      obtain rfl := List.mem_singleton.1 hr
      apply hsmall
      simp only [ObjRow.row, exObj, List.mem_cons, List.not_mem_nil, or_false] at hx
      tauto
  · intro o ho x hx
    obtain rfl := List.mem_singleton.1 ho
    rw [exObj_conv] at hx
    apply hsmall
    simp only [List.mem_cons, List.not_mem_nil, or_false] at hx
    tauto
  · intro o ho
    obtain rfl := List.mem_singleton.1 ho
    simp [exObj]

end Hrm
