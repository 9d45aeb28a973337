import Verif.Props.PathClear3D
import Verif.Props.ProbPlanner
import Verif.Props.ProbRun

/-!
# C93: the path returned by the incremental planner, step by step

Composition of C75 (the returned path and its checks), the sweep and the same-slice check (C87), the check between slices
(C53) and the enclosing ellipsoids (C79), for articulated robots.
-/

set_option linter.unusedVariables false

namespace Hrm

open Matrix

/-! ## The check of the ablated incremental planner -/

theorem fclHit_eq (hit : SuperQuadrics → SuperQuadrics → Bool) {T : Tree3} (hT : T.numLinks = T.link.length)
    (o : SuperQuadrics) : fclHit hit T o = .ok (!decide (∀ b ∈ T.bodyShapes, hit b o = false)) := by
  unfold fclHit Tree3.bodyShapes
  cases hh : hit T.base o with
  | true => simp [hh]
  | false =>
    rw [if_neg (by simp), noneOf_total (q := fun j => match T.link[j]? with
      | some l => hit l o
      | none => false)]
    · rw [Res.bind_ok']
      congr 2
      simp only [List.forall_mem_cons, hh, true_and, decide_eq_decide]
      rw [hT]
      constructor
      · intro h l hl
        obtain ⟨k, hk⟩ := List.mem_iff_getElem?.1 hl
        have := h k (List.mem_range.2 (List.getElem?_eq_some_iff.1 hk).1)
        rwa [hk] at this
      · intro h k hk
        have hk' := List.getElem?_eq_getElem (List.mem_range.1 hk)
        rw [hk']
        exact h _ (List.mem_of_getElem? hk')
    · intro k hk
      rw [hT] at hk
      have hk' := List.getElem?_eq_getElem (List.mem_range.1 hk)
      rw [Res.at'_eq_ok.2 hk', Res.bind_ok', hk']

theorem multiLoopArm_fcl {base added} (A : Arm) (hit : SuperQuadrics → SuperQuadrics → Bool) (obs : List SuperQuadrics)
    (bridge : List (List Mesh)) (steps : List Vec) (h7 : ∀ u ∈ steps, 7 + A.nJ ≤ u.length) :
    ∀ {T : Tree3}, Tree3.Inv base added T →
    ∃ b, multiLoop3 ⟨some A, some hit⟩ obs bridge (steps.map (·.map some)) T = .ok b ∧
      (b = true ↔ ∀ u ∈ steps, ∀ o ∈ obs, ∀ body ∈ armBodies A base added u, hit body o = false) := by
  have hstep : ∀ u, stepFree3 ⟨some A, some hit⟩ obs bridge (armTree A base added u) =
      .ok (decide (∀ o ∈ obs, ∀ body ∈ armBodies A base added u, hit body o = false)) := by
    intro u
    change noneOf (fclHit hit (armTree A base added u)) obs = _
    have hn : (armTree A base added u).numLinks = (armTree A base added u).link.length := by
      rw [armTree_link, List.length_mapIdx]; rfl
    rw [noneOf_total _ fun o _ => fclHit_eq hit hn o]
    congr 1
    rw [armTree_bodies]
    simp
  induction steps with
  | nil => intro T _; exact ⟨true, rfl, by simp⟩
  | cons u steps ih =>
    intro T hT
    obtain ⟨b, ih1, ih2⟩ := ih (fun w hw => h7 w (by simp [hw])) (armTree_inv A base added u)
    have e : multiLoop3 ⟨some A, some hit⟩ obs bridge ((u :: steps).map (·.map some)) T =
        (stepFree3 ⟨some A, some hit⟩ obs bridge (armTree A base added u)).bind fun ok =>
          if ok then multiLoop3 ⟨some A, some hit⟩ obs bridge (steps.map (·.map some)) (armTree A base added u)
          else .ok false := by
      rw [List.map_cons]
      conv_lhs => unfold multiLoop3
      rw [numRow_some, Res.bind_ok', setArm_eq hT (h7 u (by simp)), Res.bind_ok']
    rw [e, hstep, Res.bind_ok', ih1]
    by_cases hu : ∀ o ∈ obs, ∀ body ∈ armBodies A base added u, hit body o = false
    · refine ⟨b, by rw [decide_eq_true hu]; rfl, ih2.trans ?_⟩
      simp only [List.forall_mem_cons]
      exact ⟨fun h => ⟨hu, h⟩, fun h => h.2⟩
    · refine ⟨false, by rw [decide_eq_false hu]; rfl, ?_⟩
      simp only [Bool.false_eq_true, List.forall_mem_cons, false_iff]
      exact fun h => hu h.1

/-- C53 (ablated incremental planner): the check always returns; it accepts exactly if at every one of the `numPoint + 1`
configurations on the way no body, placed where that configuration puts it, collides with an obstacle according to the
collision library. -/
theorem C53_incremental_ablation_check (L : Libs3) (A : Arm) (hit : SuperQuadrics → SuperQuadrics → Bool)
    (base : SuperQuadrics) (ops : List (RobotOp SuperQuadrics 3))
    (robot : Tree3) (hrun : Tree3.run ops (Tree3.new base) = .ok robot) (obs : List SuperQuadrics) (np : ℕ) (hnp : 1 ≤ np)
    (ci cj v w : Vec) (hci : UnitPose ci) (hcj : UnitPose cj) (hv : UnitPose v) (hw : UnitPose w)
    (lci : ci.length = 7 + A.nJ) (lcj : cj.length = 7 + A.nJ) (lv : v.length = 7 + A.nJ) (lw : w.length = 7 + A.nJ) :
    ∃ steps b, interpolateCompound v w np = .ok (steps.map (·.map some)) ∧ IsMotion v w np steps ∧
      probCheck L ⟨some A, some hit⟩ A robot obs np ci cj v w = .ok b ∧
      (b = true ↔ ∀ u ∈ steps, ∀ o ∈ obs, ∀ body ∈ armBodies A base (addedBodies ops) u, hit body o = false) := by
  have hr := run_inv_of3 hrun
  obtain ⟨steps, e, m1, m2, m3, m4⟩ := C40_interpolateCompound v w hv hw (by omega) np hnp
  obtain ⟨cs, ce, c1, c2, -, -⟩ := C40_interpolateCompound ci cj hci hcj (by omega) np hnp
  have h7 : ∀ u ∈ steps, 7 + A.nJ ≤ u.length := by
    intro u hu
    obtain ⟨k, hk⟩ := List.mem_iff_getElem?.1 hu
    rw [(m2 k u hk).1]; omega
  have hc7 : ∀ u ∈ cs, 7 + A.nJ ≤ u.length := by
    intro u hu
    obtain ⟨k, hk⟩ := List.mem_iff_getElem?.1 hu
    rw [(c2 k u hk).1]; omega
  have ht := tfeProb_eq hr L A np (by omega) ce hc7
  obtain ⟨b, hb1, hb2⟩ := multiLoopArm_fcl A hit obs [] steps h7 hr
  refine ⟨steps, b, e, ⟨m1, m2, m3, m4⟩, ?_, hb2⟩
  unfold probCheck multiFree3
  rw [ht, Res.bind_ok', e, Res.bind_ok']
  exact hb1

/-! ## Samples and insertions -/

/-- A sample of a sweep line is outside every obstacle mesh, whatever its orientation and joint angles. -/
theorem slice_sample_outside {L : Libs3} {par : Param3} {M : BoundMesh} (hg : SweepGeneric3 L par M)
    {segs : List (ℝ × FreeSeg)} (hsegs : sweep3D L par.zLo par.zHi M par.linesX par.linesY = .ok segs) {tail v : Vec}
    (hv : SliceSample tail segs v) (m : Mesh) (hm : m ∈ M.obstacle) : Outside m (placeOf v) := by
  obtain ⟨p, hp, j, y, r, z, h1, h2, h3, rfl⟩ := hv
  exact C87_sample_outside hg hsegs (1, 0, 0, 0) _ ⟨p, hp, j, y, r, z, h1, h2, h3, rfl⟩ m hm

theorem slice_row_step {L : Libs3} {par : Param3} {M : BoundMesh} (hg : SweepGeneric3 L par M) {segs : List (ℝ × FreeSeg)}
    (hsegs : sweep3D L par.zLo par.zHi M par.linesX par.linesY = .ok segs) {p : ℝ × FreeSeg} (hp : p ∈ segs) {tail a b : Vec}
    (h : RowNeighbours (fun y z => p.1 :: y :: z :: tail) p.2 a b) :
    a.drop 3 = b.drop 3 ∧ RowClear3 M.obstacle (placeOf a) (placeOf b) := by
  obtain ⟨i, j, y, r, z, z', u, l, hy, hr, hz, hz', hu, hl, hclose, rfl, rfl⟩ := h
  exact ⟨rfl, (C87_row_step hg hsegs p hp (1, 0, 0, 0)
    ⟨i, j, y, r, z, z', u, l, hy, hr, hz, hz', hu, hl, hclose, rfl, rfl⟩).2⟩

theorem probVertex_shape {L : Libs3} {A : Arm} {start goal : Vec} {ms : List Mesh} {segs : List (ℝ × FreeSeg)} {i : ℕ}
    {v : Vec} (h : ProbVertex L A start goal ms segs i v) : ∃ x y z, v = x :: y :: z :: probTail L A start goal i := by
  have hl : ∀ v, SliceSample (probTail L A start goal i) segs v → ∃ x y z, v = x :: y :: z :: probTail L A start goal i := by
    rintro v ⟨p, -, j, y, r, z, -, -, -, rfl⟩
    exact ⟨_, _, _, rfl⟩
  rcases h with h | ⟨v1, v2, h1, h2, -, h | h, -⟩
  · exact hl v h
  · obtain ⟨w, -, rfl⟩ := h
    obtain ⟨x, y, z, rfl⟩ := hl v1 h1
    exact ⟨x, y, w, rfl⟩
  · obtain ⟨w, -, rfl⟩ := h
    obtain ⟨x, y, z, rfl⟩ := hl v2 h2
    exact ⟨x, y, w, rfl⟩

theorem sameFree3_cons {ms : List Mesh} {x y z x' y' z' : ℝ} {t t' : Vec} :
    sameFree3 ms (x :: y :: z :: t) (x' :: y' :: z' :: t') =
      sameSliceFree3D triTol axisTol ms (placeOf (x :: y :: z :: t)) (placeOf (x' :: y' :: z' :: t')) := rfl

/-! ## What is known of the path -/

/-- A vertex `v` with the coordinates `tail` after its position: it is outside every obstacle mesh, or it was inserted
between two samples `v1` and `v2` of the same slice (one of them at the height of the other), and it can escape from every
mesh for which the way from `v1` or the way to `v2` is in general position. -/
def PlaceSafeJ (segs : List (ℝ × FreeSeg)) (tail : Vec) (M : BoundMesh) (v : Vec) : Prop :=
  (∀ m ∈ M.obstacle, Outside m (placeOf v)) ∨
  ∃ v1 v2, SliceSample tail segs v1 ∧ SliceSample tail segs v2 ∧
    ((placeOf v = { placeOf v1 with z := (placeOf v2).z }) ∨ (placeOf v = { placeOf v2 with z := (placeOf v1).z })) ∧
    ∀ m ∈ M.obstacle, (StepGeneric3 m (placeOf v1) (placeOf v) ∨ StepGeneric3 m (placeOf v) (placeOf v2)) →
      Escapes m (placeOf v)

/-- The way from `a` to `b`, interpolated with `numPoint + 1` configurations, is clear as far as the check between two
slices with configurations `ci` and `cj` can tell: for the bridging planner, at each of them the ellipsoid made for each body
for the way from `ci` to `cj`, centred where the body is, is clear of the grown obstacles; for the ablated planner, at each of
them the collision library reports no collision of a body with an obstacle. -/
def MotionClearJ (L : Libs3) (V : Variant) (A : Arm) (obs : List SuperQuadrics) (base : SuperQuadrics)
    (added : List SuperQuadrics) (robot : Tree3) (np : ℕ) (ci cj a b : Vec) : Prop :=
  ∃ steps, interpolateCompound a b np = .ok (steps.map (·.map some)) ∧ IsMotion a b np steps ∧
    match V.fcl with
    | none => ∃ tfe, computeTFEProb L A np robot ci cj = .ok tfe ∧ tfe.length = added.length + 1 ∧
        ∀ u ∈ steps, ∀ (n : ℕ) (body E : SuperQuadrics), (armBodies A base added u)[n]? = some body → tfe[n]? = some E →
          SweptClear3 obs E body.pos
    | some hit => ∀ u ∈ steps, ∀ o ∈ obs, ∀ body ∈ armBodies A base added u, hit body o = false

/-- What is known of a step from `a` to `b` of the path: either a translation with one orientation and one set of joint
angles, all of whose points can escape from every obstacle mesh for which the step is in general position; or a translation
along a vertical sweep line that is clear but for a stretch shorter than 1e-6; or, in one of the two directions, a motion from
a slice to the slice for which it is the nearest earlier one, clear according to the check made for these two. -/
def StepSafeJ (L : Libs3) (V : Variant) (A : Arm) (obs : List SuperQuadrics) (base : SuperQuadrics)
    (added : List SuperQuadrics) (robot : Tree3) (par : Param3) (start goal : Vec) (k : ℕ) (M : BoundMesh) (a b : Vec) : Prop :=
  (a.drop 3 = b.drop 3 ∧ ∀ m ∈ M.obstacle, StepGeneric3 m (placeOf a) (placeOf b) →
    ∀ s, 0 ≤ s → s ≤ 1 → Escapes m (V3.comb s (placeOf a) (placeOf b))) ∨
  (a.drop 3 = b.drop 3 ∧ RowClear3 M.obstacle (placeOf a) (placeOf b)) ∨
  (CloseIn 0 (2 * (par.xHi - par.xLo) / par.numLineX) a b ∧ CloseIn 1 (2 * (par.yHi - par.yLo) / par.numLineY) a b ∧
    ∃ i j, i < k ∧ NearestEarlier (probConf L A start goal) i j ∧
      ((a.drop 3 = probTail L A start goal j ∧ b.drop 3 = probTail L A start goal i ∧
        MotionClearJ L V A obs base added robot par.numPoint (probConf L A start goal i) (probConf L A start goal j) a b) ∨
      (b.drop 3 = probTail L A start goal j ∧ a.drop 3 = probTail L A start goal i ∧
        MotionClearJ L V A obs base added robot par.numPoint (probConf L A start goal i) (probConf L A start goal j) b a)))

theorem StepSafeJ.symm {L : Libs3} {V : Variant} {A : Arm} {obs : List SuperQuadrics} {base : SuperQuadrics}
    {added : List SuperQuadrics} {robot : Tree3} {par : Param3} {start goal : Vec} {k : ℕ} {M : BoundMesh} {a b : Vec}
    (h : StepSafeJ L V A obs base added robot par start goal k M a b) :
    StepSafeJ L V A obs base added robot par start goal k M b a := by
  rcases h with ⟨h1, h2⟩ | ⟨h1, h2⟩ | ⟨h1, h2, i, j, h3, h4, h5⟩
  · refine Or.inl ⟨h1.symm, fun m hm hg s s0 s1 => ?_⟩
    rw [V3.comb_swap]
    exact h2 m hm hg.swap (1 - s) (by linarith) (by linarith)
  · exact Or.inr (Or.inl ⟨h1.symm, h2.symm⟩)
  · exact Or.inr (Or.inr ⟨h1.symm, h2.symm, i, j, h3, h4, h5.symm⟩)

theorem probSample_joints (L : Libs3) (A : Arm) {start goal : Vec} (ls : start.length = 7 + A.nJ)
    (lg : goal.length = 7 + A.nJ) (k : ℕ) : (probSample L A start goal k).2.length = A.nJ := by
  match k with
  | 0 => simp [probSample, ls]
  | 1 => simp [probSample, lg]
  | k + 2 => simp [probSample]

theorem probTail_pose {L : Libs3} {A : Arm} {start goal : Vec} (ls : start.length = 7 + A.nJ) (lg : goal.length = 7 + A.nJ)
    {i : ℕ} (hu : (probSample L A start goal i).1.Unit) (x y z : ℝ) :
    (x :: y :: z :: probTail L A start goal i).length = 7 + A.nJ ∧ UnitPose (x :: y :: z :: probTail L A start goal i) ∧
    (probConf L A start goal i).length = 7 + A.nJ ∧ UnitPose (probConf L A start goal i) := by
  have hl := probSample_joints L A ls lg i
  have l1 : (x :: y :: z :: probTail L A start goal i).length = 7 + A.nJ := by simp [probTail, hl]; omega
  have l2 : (probConf L A start goal i).length = 7 + A.nJ := by simp [probConf, conf7, hl]; omega
  refine ⟨l1, ⟨by omega, ?_⟩, l2, ⟨by omega, (quat_unit_iff _).1 hu⟩⟩
  have := (unitPose_conf7 hu x y z).2
  exact this

/-- **C93 (partial)** A path returned by a new incremental planner (bridging or ablated) for an articulated robot: start,
goal, and in between configurations that have the orientation and the joint angles of one of the slices and are placed as
`PlaceSafeJ` says (samples: outside every obstacle mesh), joined by steps that are safe in the sense of `StepSafeJ`. The meshes are those the planner computes for the
robot as it was given; nothing is assumed of their shape, only that the sweep lines are in general position.
Missing: as for `C87_spatial_path_safe_partial`; and the meshes of all slices are those of the robot as it was given, not at
the orientation and joint angles of the slice (C58). -/
theorem C93_incremental_path_safe_partial (L : Libs3) (V : Variant) (A : Arm) (hV : V.arm = some A) (hpick : HeapTop L.pick)
    (base : SuperQuadrics) (ops : List (RobotOp SuperQuadrics 3)) (robot : Tree3)
    (hrun : Tree3.run ops (Tree3.new base) = .ok robot) (quats : List Quat)
    (arena obs : List SuperQuadrics) (hne : arena ≠ [] ∨ obs ≠ []) (start goal : Vec) (hs : start.length = 7 + A.nJ)
    (hg : goal.length = 7 + A.nJ) (par : Param3) (hnp : 1 ≤ par.numPoint) (rigid : Bool)
    (hunit : ∀ i, (probSample L A start goal i).1.Unit) (clock : ℕ → ℝ) (timeLim : ℝ) (fuel : ℕ)
    (r' : PlanRep Planner3)
    (h : Planner3.planProb L V A clock timeLim fuel (freshRep3 (.new robot quats arena obs start goal par rigid)) =
      some (.ok r')) (hsol : r'.st.res.solved = true) :
    ∃ k B M segs mid, 0 < k ∧ k < 60 ∧ cspaceBoundary3 robot arena obs = .ok B ∧ cspaceMesh arena obs B = .ok M ∧
      sweep3D L par.zLo par.zHi M par.linesX par.linesY = .ok segs ∧ r'.solvedPath = start :: (mid ++ [goal]) ∧ mid ≠ [] ∧
      (SweepGeneric3 L par M →
        (∀ v ∈ mid, ∃ i < k, SameRotation (quatPart v) (probSample L A start goal i).1 ∧
          v.drop 7 = (probSample L A start goal i).2 ∧ PlaceSafeJ segs (probTail L A start goal i) M v) ∧
        ∀ (n : ℕ) (a b : Vec), mid[n]? = some a → mid[n + 1]? = some b →
          StepSafeJ L V A obs base (addedBodies ops) robot par start goal k M a b) := by
  obtain ⟨k, hk0, hk, -, hpath⟩ := C75_prob_plan_end_to_end L V A hV hpick base ops robot hrun quats arena obs hne start
    goal hs hg par rigid clock timeLim fuel r' h
  obtain ⟨B, M, segs, mid, hB, hM, hsegs, hp, hm, hsamp, hstep⟩ := hpath hsol
  refine ⟨k, B, M, segs, mid, hk0, by omega, hB, hM, hsegs, hp, hm, fun hgen => ⟨fun v hv => ?_, ?_⟩⟩
  · obtain ⟨i, hi, hv'⟩ := hsamp v hv
    refine ⟨i, hi, ?_, ?_, ?_⟩
    · obtain ⟨x, y, z, rfl⟩ := probVertex_shape hv'
      exact sameRotation_matQuat (hunit i)
    · obtain ⟨x, y, z, rfl⟩ := probVertex_shape hv'
      rfl
    rcases hv' with hv' | hb
    · exact Or.inl fun m hm => slice_sample_outside hgen hsegs hv' m hm
    · obtain ⟨x, y, z, e⟩ := probVertex_shape (Or.inr hb)
      obtain ⟨v1, v2, h1, h2, hrej, hv', f1, f2⟩ := hb
      obtain ⟨x1, y1, z1, e1⟩ := probVertex_shape (ms := M.obstacle) (Or.inl h1)
      obtain ⟨x2, y2, z2, e2⟩ := probVertex_shape (ms := M.obstacle) (Or.inl h2)
      rw [e, e1, sameFree3_cons, ← e, ← e1] at f1
      rw [e, e2, sameFree3_cons, ← e, ← e2] at f2
      refine Or.inr ⟨v1, v2, h1, h2, ?_, fun m hm hgs => ?_⟩
      · rcases hv' with ⟨w, hw, rfl⟩ | ⟨w, hw, rfl⟩
        · left
          rw [e1, e2] at *
          simp only [List.getElem?_cons_succ, List.getElem?_cons_zero, Option.some.injEq] at hw
          subst hw
          rfl
        · right
          rw [e1, e2] at *
          simp only [List.getElem?_cons_succ, List.getElem?_cons_zero, Option.some.injEq] at hw
          subst hw
          rfl
      · rcases hgs with hgs | hgs
        · have := slice_step_generic f1 hm hgs (Or.inl (slice_sample_outside hgen hsegs h1 m hm)) 0 le_rfl zero_le_one
          rwa [V3.comb_zero] at this
        · have := slice_step_generic f2 hm hgs (Or.inr (slice_sample_outside hgen hsegs h2 m hm)) 1 zero_le_one le_rfl
          rwa [V3.comb_one] at this
  have main : ∀ a b, ProbStep L V A robot obs par start goal M.obstacle segs k a b →
      StepSafeJ L V A obs base (addedBodies ops) robot par start goal k M a b := by
    intro a b hc
    rcases hc with ⟨i, hi, va, vb, hor, hc⟩ | ⟨i, j, hi, hij, va, vb, c0, c1, hc⟩ | ⟨i, hi, p, hp, hc⟩
    · obtain ⟨x, y, z, rfl⟩ := probVertex_shape va
      obtain ⟨x', y', z', rfl⟩ := probVertex_shape vb
      rw [sameFree3_cons] at hc
      refine Or.inl ⟨rfl, fun m hm hgs s s0 s1 => slice_step_generic hc hm hgs ?_ s s0 s1⟩
      exact hor.imp (fun h => slice_sample_outside hgen hsegs h m hm) (fun h => slice_sample_outside hgen hsegs h m hm)
    · obtain ⟨x, y, z, rfl⟩ := probVertex_shape va
      obtain ⟨x', y', z', rfl⟩ := probVertex_shape vb
      obtain ⟨la, ua, lcj, ucj⟩ := probTail_pose hs hg (hunit j) x y z
      obtain ⟨lb, ub, lci, uci⟩ := probTail_pose hs hg (hunit i) x' y' z'
      refine Or.inr (Or.inr ⟨c0, c1, i, j, hi, hij, Or.inl ⟨rfl, rfl, ?_⟩⟩)
      obtain ⟨arm, fcl⟩ := V
      dsimp only at hV
      subst hV
      cases fcl with
      | none =>
        obtain ⟨steps, tfe, e, hmo, ht, hl, hv1, -⟩ := C53_incremental_check_partial L A base ops robot hrun obs par.numPoint
          hnp _ _ _ _ uci ucj ua ub lci lcj la lb
        exact ⟨steps, e, hmo, tfe, ht, hl, hv1.1 hc⟩
      | some hit =>
        obtain ⟨steps, b, e, hmo, hv1, hv2⟩ := C53_incremental_ablation_check L A hit base ops robot hrun obs par.numPoint
          hnp _ _ _ _ uci ucj ua ub lci lcj la lb
        rw [hc] at hv1
        exact ⟨steps, e, hmo, hv2.1 ((Res.ok.injEq _ _).mp hv1).symm⟩
    · exact Or.inr (Or.inl (slice_row_step hgen hsegs hp hc))
  intro n a b hna hnb
  rcases hstep n a b hna hnb with hc | hc
  · exact main a b hc
  · exact (main b a hc).symm

/-- **C93 (partial)** What `MotionClearJ` of the bridging planner means for the robot: if its bodies are ellipsoids, the
kinematics moves bodies rigidly, and the two orientations are neither perpendicular nor within rounding of each other, then at
every interpolated configuration of a step between two slices every body lies within an ellipsoid that the check found clear
of the grown obstacles at this place.
Missing: the configurations between two interpolated ones. -/
theorem C93_bodies_in_clear_ellipsoids_partial (L : Libs3) (hs : SvdOk L.svd) (hdet : ∀ M, SymPos M → (L.svd M).u.det = 1)
    (A : Arm) (hA : ∀ js i, (A.fk js i).Rigid3) (base : SuperQuadrics) (hb : base.Ok) (b1 : base.e1 = 1) (b2 : base.e2 = 1)
    (ops : List (RobotOp SuperQuadrics 3)) (robot : Tree3) (hrun : Tree3.run ops (Tree3.new base) = .ok robot)
    (ha : ∀ l ∈ addedBodies ops, l.Ok ∧ l.e1 = 1 ∧ l.e2 = 1) (obs : List SuperQuadrics) (np : ℕ) (hnp : 1 ≤ np)
    (start goal : Vec) (ls : start.length = 7 + A.nJ) (lg : goal.length = 7 + A.nJ) (i j : ℕ)
    (hi : (probSample L A start goal i).1.Unit) (hj : (probSample L A start goal j).1.Unit)
    (hfar : |Quat.dot (probSample L A start goal i).1 (probSample L A start goal j).1| < 1 - 1 / 2 ^ 52)
    (hd : Quat.dot (probSample L A start goal i).1 (probSample L A start goal j).1 ≠ 0) (a b : Vec) (la : 3 ≤ a.length)
    (lb : 3 ≤ b.length) (ea : a.drop 3 = probTail L A start goal j) (eb : b.drop 3 = probTail L A start goal i)
    (h : MotionClearJ L ⟨some A, none⟩ A obs base (addedBodies ops) robot np (probConf L A start goal i)
      (probConf L A start goal j) a b) :
    ∃ steps, interpolateCompound a b np = .ok (steps.map (·.map some)) ∧ IsMotion a b np steps ∧
      ∀ u ∈ steps, ∀ body ∈ armBodies A base (addedBodies ops) u,
        ∃ E : SuperQuadrics, body.solid ⊆ (bodyAt E body.pos E.quat).solid ∧ SweptClear3 obs E body.pos := by
  obtain ⟨steps, e, hmo, tfe, ht, hl, hclear⟩ := h
  refine ⟨steps, e, hmo, fun u hu body hbody => ?_⟩
  obtain ⟨n, hn⟩ := List.mem_iff_getElem?.1 hbody
  have key : ∀ v : Vec, 3 ≤ v.length → ∃ x y z, v = x :: y :: z :: v.drop 3 := by
    intro v hv
    match v, hv with
    | x :: y :: z :: t, _ => exact ⟨x, y, z, rfl⟩
  obtain ⟨x', y', z', ea'⟩ := key a la
  obtain ⟨x, y, z, eb'⟩ := key b lb
  rw [ea] at ea'
  rw [eb] at eb'
  rw [ea', eb'] at e
  obtain ⟨hl', henc⟩ := C79_incremental_slices_enclosed_partial L hs hdet A hA base hb b1 b2 ops robot hrun ha np hnp start goal
    ls lg i j hi hj hfar hd x y z x' y' z' steps e tfe ht
  have hlen : n < tfe.length := by
    have := (List.getElem?_eq_some_iff.1 hn).1
    rw [armBodies_length] at this
    omega
  have hE := List.getElem?_eq_getElem hlen
  exact ⟨tfe[n], henc u hu n body _ hn hE, hclear u hu n body _ hn hE⟩

/-- `C93_incremental_path_safe_partial` applies to the run of `C75_witness`, with an articulated robot of two bodies and an
obstacle: every step of the returned path between its first and its last is safe, and there is such a step. -/
example (sort : StdSort ℝ) (svd : SvdFun 3) (pick : ℕ → (ℕ → ℝ) → List ℕ → ℕ) (hpick : HeapTop pick)
    (rand : ℕ → Quat) (hrand : ∀ n, (rand n).Unit) (randJoint : ℕ → ℕ → ℝ) (A : Arm) (hA : A.nJ = 1) (clock : ℕ → ℝ)
    (timeLim : ℝ) (robot : Tree3) (hrun : Tree3.run [.add (exBall3 2)] (Tree3.new (exBall3 1)) = .ok robot) :
    ∃ (L : Libs3) (par : Param3) (start goal : Vec) (mid : List Vec) (k : ℕ) (r' : PlanRep Planner3) (M : BoundMesh),
      Planner3.planProb L ⟨some A, none⟩ A clock timeLim 1
        (freshRep3 (.new robot [] [exBall3 20] [exObs87] start goal par false)) = some (.ok r') ∧
      r'.solvedPath = start :: (mid ++ [goal]) ∧ 2 ≤ mid.length ∧ M.obstacle.length = 2 ∧
      ∀ (n : ℕ) (a b : Vec), mid[n]? = some a → mid[n + 1]? = some b →
        StepSafeJ L ⟨some A, none⟩ A [exObs87] (exBall3 1) [exBall3 2] robot par start goal k M a b := by
  obtain ⟨R, B, M, hB, hM, hMl, hR⟩ := C75_witness (exBall3 1) [.add (exBall3 2)] robot hrun [exBall3 20] [exObs87] (by simp) 10
    (by simp) (by simp [exBall3, exObs87])
  obtain ⟨L, hL⟩ : ∃ L : Libs3, L = ⟨sort, R, R + 2, svd, pick, exAng, some exQ0, rand, randJoint⟩ := ⟨_, rfl⟩
  have hq : (exQ0 : Quat).Unit := by norm_num [Quat.Unit, exQ0]
  have hd1 : Quat.dot exQ0 exQ0 = 1 := by norm_num [Quat.dot, exQ0]
  have hang : ∀ s, SameRotation s exQ0 → exAng exQ0 s = 0 := by
    rintro s (rfl | rfl)
    · simp [exAng, hd1]
    · norm_num [exAng, Quat.dot, exQ0, Quat.scale]
  obtain ⟨hgen, r', h, hsol, -, hlen⟩ := hR L (by rw [hL]; exact hpick) ⟨some A, none⟩ A rfl exQ0 exQ0 hq (by rw [hL])
    (by rw [hL]; simp only; rw [hang exQ0 (Or.inl rfl)]; norm_num)
    (by intro s hs; rw [hL]; simp only; rw [hang s hs]; norm_num) [1 / 2] (by simp [hA]) [] clock timeLim
  have hl : ∀ y : ℝ, (conf7 (2 * R + 1) y (R + 1) exQ0 ++ [1 / 2] : Vec).length = 7 + A.nJ := by intro y; simp [conf7, hA]
  obtain ⟨k, B', M', segs, mid, -, -, hB', hM', -, hpath, -, hsafe⟩ := C93_incremental_path_safe_partial L ⟨some A, none⟩ A rfl
    (by rw [hL]; exact hpick) (exBall3 1) [.add (exBall3 2)] robot hrun [] [exBall3 20] [exObs87] (Or.inl (by simp)) _ _ (hl 0)
    (hl 1) (exPar75 R) (by simp [exPar75]) false (by
      intro i
      match i with
      | 0 => exact hq
      | 1 => exact hq
      | i + 2 => rw [hL]; exact hrand _) clock timeLim 1 r' h hsol
  rw [hB] at hB'
  obtain rfl := (Res.ok.injEq _ _).mp hB'
  rw [hM] at hM'
  obtain rfl := (Res.ok.injEq _ _).mp hM'
  refine ⟨L, exPar75 R, _, _, mid, k, r', M, h, hpath, ?_, by rw [hMl]; rfl,
    (hsafe (hgen (by rw [hL]) (by rw [hL]))).2⟩
  rw [hpath] at hlen
  simp only [List.length_cons, List.length_append, List.length_nil] at hlen
  omega

/-- `C93_bodies_in_clear_ellipsoids_partial` applies to a motion past an obstacle from one orientation to another. -/
example (L : Libs3) (hs : SvdOk L.svd) (hdet : ∀ M, SymPos M → (L.svd M).u.det = 1) (A : Arm) (hn : A.nJ = 1)
    (hA : ∀ js i, (A.fk js i).Rigid3) : ∃ (a b : Vec) (steps : List Vec), SameRotation (quatPart a) exQ0 ∧ SameRotation (quatPart b) exTurn ∧
      IsMotion a b 5 steps ∧ ∀ u ∈ steps, ∀ body ∈ armBodies A (exBall3 1) [] u,
        ∃ E : SuperQuadrics, body.solid ⊆ (bodyAt E body.pos E.quat).solid ∧ SweptClear3 [exObs87] E body.pos := by
  have hq0 : (exQ0 : Quat).Unit := by norm_num [Quat.Unit, exQ0]
  have hq1 : (exTurn : Quat).Unit := by norm_num [Quat.Unit, exTurn]
  obtain ⟨start, hst⟩ : ∃ start : Vec, start = conf7 0 0 0 exQ0 ++ [1] := ⟨_, rfl⟩
  obtain ⟨goal, hgo⟩ : ∃ goal : Vec, goal = conf7 0 0 0 exTurn ++ [2] := ⟨_, rfl⟩
  have ls : start.length = 7 + A.nJ := by rw [hst, hn]; rfl
  have lg : goal.length = 7 + A.nJ := by rw [hgo, hn]; rfl
  have s0 : (probSample L A start goal 0).1 = exQ0 := by rw [hst]; rfl
  have s1 : (probSample L A start goal 1).1 = exTurn := by rw [hgo]; rfl
  have hrun : Tree3.run [] (Tree3.new (exBall3 1)) = .ok (Tree3.new (exBall3 1)) := rfl
  have hb : (exBall3 1).Ok := by constructor <;> norm_num [exBall3]
  have hdot : Quat.dot exTurn exQ0 = 1 / 2 := by norm_num [Quat.dot, exTurn, exQ0]
  -- the ellipsoids do not depend on the place
  obtain ⟨-, -, lc1, uc1⟩ := probTail_pose ls lg (i := 1) (by rw [s1]; exact hq1) 0 0 0
  obtain ⟨-, -, lc0, uc0⟩ := probTail_pose ls lg (i := 0) (by rw [s0]; exact hq0) 0 0 0
  obtain ⟨-, tfe0, -, -, ht0, -, -⟩ := C53_incremental_check_partial L A (exBall3 1) [] _ hrun [exObs87] 5 (by norm_num) _ _ _ _
    uc1 uc0 uc1 uc0 lc1 lc0 lc1 lc0
  obtain ⟨R, hR0, hR⟩ := meshes_boxed (tfe0.flatMap fun E => bridgeBound3 [exObs87] E)
  obtain ⟨la, ua, -, -⟩ := probTail_pose ls lg (i := 0) (by rw [s0]; exact hq0) (R + 1) 0 0
  obtain ⟨lb, ub, -, -⟩ := probTail_pose ls lg (i := 1) (by rw [s1]; exact hq1) (R + 1) 1 0
  set a : Vec := (R + 1) :: 0 :: 0 :: probTail L A start goal 0 with ha
  set b : Vec := (R + 1) :: 1 :: 0 :: probTail L A start goal 1 with hb'
  obtain ⟨steps, tfe, e, hmo, ht, hl, -⟩ := C53_incremental_check_partial L A (exBall3 1) [] _ hrun [exObs87] 5 (by norm_num)
    _ _ a b uc1 uc0 ua ub lc1 lc0 la lb
  rw [ht0] at ht
  obtain rfl := (Res.ok.injEq _ _).mp ht
  obtain ⟨steps', e', hmo', h⟩ := C93_bodies_in_clear_ellipsoids_partial L hs hdet A hA (exBall3 1) hb rfl rfl [] _ hrun
    (by simp [addedBodies]) [exObs87] 5 (by norm_num) start goal ls lg 1 0 (by rw [s1]; exact hq1) (by rw [s0]; exact hq0)
    (by rw [s0, s1, hdot]; norm_num) (by rw [s0, s1, hdot]; norm_num) a b (by rw [la]; omega) (by rw [lb]; omega) rfl rfl (by
      refine ⟨steps, e, hmo, tfe0, ht0, hl, fun u hu n body E hbody hE => ?_⟩
      have hx : coordOf u 0 = R + 1 := by
        obtain ⟨k, hk⟩ := List.mem_iff_getElem?.1 hu
        have hseg := (hmo.2.1 k u hk).2.1 0 (Or.inl (by norm_num))
        have e1 : coordOf a 0 = R + 1 := rfl
        have e2 : coordOf b 0 = R + 1 := rfl
        unfold OnSegment at hseg
        rw [e1, e2] at hseg
        rw [hseg]; ring
      have hbody' : body.pos = posPart u := by
        have := List.mem_of_getElem? hbody
        simp only [armBodies, addedBodies, List.filterMap_nil, List.mapIdx_nil, List.mem_singleton] at this
        rw [this]; rfl
      rw [hbody']
      refine isPtInCFree3D_right (R := R) ?_ ?_ ?_
      · intro m hm
        obtain ⟨o, ho, rfl⟩ := List.mem_map.1 hm
        obtain rfl := List.mem_singleton.1 ho
        exact (gridMesh_wf (by simp [exObs87]) (by simp [SuperQuadrics.minkSum3D])).1
      · intro m hm v hv
        exact (hR m (List.mem_flatMap.2 ⟨E, List.mem_of_getElem? hE, hm⟩) v hv).1.2
      · change R < coordOf u 0
        rw [hx]; linarith)
  refine ⟨a, b, steps', ?_, ?_, hmo', h⟩
  · have := sameRotation_matQuat hq0
    rw [← s0] at this ⊢
    exact this
  · have := sameRotation_matQuat hq1
    rw [← s1] at this ⊢
    exact this

end Hrm
