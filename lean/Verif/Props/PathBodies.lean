import Verif.Props.PathWitness
import Verif.Props.PathWitness3D
import Verif.Props.Enclose2D
import Verif.Props.Enclose3D

/-!
# C86, C87: where the bodies of the robot are on the turning steps of a returned path

Composition of the safety of the returned path (C86, C87) with the enclosing ellipses and ellipsoids (C79).
-/

set_option linter.unusedVariables false

namespace Hrm

open Matrix

/-- At configuration `u` every body of the rigid robot lies within an ellipsoid centred where the body is, and this ellipsoid
is clear of the grown obstacles there. -/
def BodiesClear3 (obs : List SuperQuadrics) (base : SuperQuadrics) (added : List SuperQuadrics) (u : Vec) : Prop :=
  (∃ E : SuperQuadrics, (bodyAt base (posPart u) (quatPart u)).solid ⊆ (bodyAt E (posPart u) E.quat).solid ∧
    SweptClear3 obs E (posPart u)) ∧
  ∀ l ∈ added, ∃ E : SuperQuadrics, (bodyAt l (centreAt3 l u) (matQuat (quatRot (quatPart u) * quatRot l.quat))).solid ⊆
    (bodyAt E (centreAt3 l u) E.quat).solid ∧ SweptClear3 obs E (centreAt3 l u)

/-- **C87 (partial)** On the returned path of the bridging spatial planner every step between roadmap vertices keeps the
orientation, or is interpolated (in one of the two directions) by `numPoint + 1` configurations at each of which every body of
the robot lies within an ellipsoid found clear of the grown obstacles at this place.
Missing: the configurations between two interpolated ones; robots whose bodies are not ellipsoids; slices exactly half a turn
apart or within rounding of each other without being equal (C79). -/
theorem C87_turning_bodies_partial (L : Libs3) (hsvd : SvdOk L.svd) (hdet : ∀ M, SymPos M → (L.svd M).u.det = 1)
    (hpick : HeapTop L.pick)
    (base : SuperQuadrics) (hb : base.Ok) (b1 : base.e1 = 1) (b2 : base.e2 = 1) (ops : List (RobotOp SuperQuadrics 3))
    (ha : ∀ l ∈ addedBodies ops, l.Ok ∧ l.e1 = 1 ∧ l.e2 = 1) (robot : Tree3)
    (hrun : Tree3.run ops (Tree3.new base) = .ok robot) (quats : List Quat)
    (arena obs : List SuperQuadrics) (hne : arena ≠ [] ∨ obs ≠ []) (start goal : Vec) (hs : start.length = 7)
    (hg : goal.length = 7) (par : Param3) (hnp : 1 ≤ par.numPoint) (hunit : ∀ q ∈ orientations L quats par, q.Unit)
    (hfar : ∀ p ∈ orientations L quats par, ∀ q ∈ orientations L quats par,
      (|Quat.dot p q| < 1 - 1 / 2 ^ 52 ∨ |Quat.dot p q| = 1) ∧ Quat.dot p q ≠ 0)
    (clock : ℕ → ℝ) (timeLim : ℝ) (fuel : ℕ) (r' : PlanRep Planner3)
    (h : Planner3.plan L ⟨none, none⟩ clock timeLim fuel (freshRep3 (.new robot quats arena obs start goal par true)) =
      some (.ok r')) (hsol : r'.st.res.solved = true) :
    ∃ B M mid, cspaceBoundary3 robot arena obs = .ok B ∧ cspaceMesh arena obs B = .ok M ∧
      r'.solvedPath = start :: (mid ++ [goal]) ∧ mid ≠ [] ∧
      (SweepGeneric3 L par M → ∀ (k : ℕ) (a b : Vec), mid[k]? = some a → mid[k + 1]? = some b →
        quatPart a = quatPart b ∨ ∃ steps, (IsMotion a b par.numPoint steps ∨ IsMotion b a par.numPoint steps) ∧
          ∀ u ∈ steps, BodiesClear3 obs base (addedBodies ops) u) := by
  obtain ⟨B, M, segs, mid, hB, hM, hsegs, hpath, hm, hsafe⟩ := C87_spatial_path_safe_partial L ⟨none, none⟩ rfl hpick base ops
    robot hrun quats arena obs hne start goal hs hg par hnp hunit clock timeLim fuel r' h hsol
  obtain ⟨B', M', segs', mid', -, -, -, hpath', -, hsamp, -⟩ := C73_spatial_plan_end_to_end L ⟨none, none⟩ rfl hpick base ops
    robot hrun quats arena obs hne start goal hs hg par clock timeLim fuel r' h hsol
  have e : mid' = mid := by
    rw [hpath] at hpath'
    exact (List.append_cancel_right (List.cons.inj hpath').2).symm
  subst e
  have hlen : ∀ v ∈ mid', v.length = 7 := by
    intro v hv
    obtain ⟨q, -, hv'⟩ := hsamp v hv
    obtain ⟨x, y, z, rfl⟩ := sampled_conf7 hv'
    rfl
  refine ⟨B, M, mid', hB, hM, hpath, hm, fun hgen k a b hka hkb => ?_⟩
  have la := hlen a (List.mem_of_getElem? hka)
  have lb := hlen b (List.mem_of_getElem? hkb)
  rcases (hsafe hgen).2 k a b hka hkb with ⟨h1, -⟩ | ⟨h1, -⟩ | ⟨-, -, i, j, qa, qb, hi, hj, steps, hor, hclear⟩
  · exact Or.inl h1
  · exact Or.inl h1
  · have mi := List.mem_of_getElem? hi
    have mj := List.mem_of_getElem? hj
    have hf := hfar qa mi qb mj
    have key : ∀ v w : Vec, v.length = 7 → w.length = 7 → SameRotation (quatPart v) qb → SameRotation (quatPart w) qa →
        interpolateCompound v w par.numPoint = .ok (steps.map (·.map some)) →
        ∀ u ∈ steps, BodiesClear3 obs base (addedBodies ops) u := by
      intro v w lv lw sv sw he u hu
      obtain ⟨c1, c2⟩ := C79_spatial_enclosed_partial L hsvd hdet base hb b1 b2 (addedBodies ops) ha par.numPoint hnp qa qb
        (hunit qa mi) (hunit qb mj) hf.1 hf.2 w v (by omega) (by omega) sw sv steps (Or.inr he) u hu
      obtain ⟨⟨E, h1, h2⟩, h3⟩ := hclear u hu
      refine ⟨⟨E, c1 E h1, h2⟩, fun l hl => ?_⟩
      obtain ⟨E', h4, h5⟩ := h3 l hl
      exact ⟨E', c2 l hl E' h4, h5⟩
    rcases hor with ⟨s1, s2, he, hmo⟩ | ⟨s1, s2, he, hmo⟩
    · exact Or.inr ⟨steps, Or.inl hmo, key a b la lb s1 s2 he⟩
    · exact Or.inr ⟨steps, Or.inr hmo, key b a lb la s1 s2 he⟩

/-- At step `k` of `np` from `(x1, y1, t1)` to `(x2, y2, t2)` the base of the planar robot lies within an ellipse centred
where the base is, and this ellipse is clear of the grown obstacles there. -/
def BaseClear2 (obs : List SuperEllipse) (base : SuperEllipse) (np : ℕ) (x1 y1 t1 x2 y2 t2 : ℝ) (k : ℕ) : Prop :=
  ∃ E : SuperEllipse, (bodyAt2 base (onWay np k x1 x2, onWay np k y1 y2) (onWay np k t1 t2)).solid ⊆
    (bodyAt2 E (onWay np k x1 x2, onWay np k y1 y2) E.ang).solid ∧ SweptClear obs E (onWay np k x1 x2, onWay np k y1 y2)

/-- The same for the body `l` attached to the base. -/
def LinkClear2 (obs : List SuperEllipse) (l : SuperEllipse) (np : ℕ) (x1 y1 t1 x2 y2 t2 : ℝ) (k : ℕ) : Prop :=
  ∃ E : SuperEllipse, (bodyAt2 l (centreAt l (onWay np k x1 x2) (onWay np k y1 y2) (onWay np k t1 t2))
      (onWay np k t1 t2 + l.ang)).solid ⊆
    (bodyAt2 E (centreAt l (onWay np k x1 x2) (onWay np k y1 y2) (onWay np k t1 t2)) E.ang).solid ∧
    SweptClear obs E (centreAt l (onWay np k x1 x2) (onWay np k y1 y2) (onWay np k t1 t2))

/-- Both angles of the attached body `l`, at headings `t1` and `t2`, are brought into `(-π, π]` by the same number of full
turns. -/
def SameTurns (l : SuperEllipse) (t1 t2 : ℝ) : Prop :=
  ∃ m : ℤ, -Real.pi < t1 + l.ang + 2 * Real.pi * m ∧ t1 + l.ang + 2 * Real.pi * m ≤ Real.pi ∧
    -Real.pi < t2 + l.ang + 2 * Real.pi * m ∧ t2 + l.ang + 2 * Real.pi * m ≤ Real.pi

/-- **C86 (partial)** On the returned path of the planar planner every step between roadmap vertices keeps the heading, or, in
one of the two directions, at each of `numPoint` evenly spaced points the base of the robot lies within an ellipse found clear
of the grown obstacles at this place, and so does every other body whose angle does not pass ±π on the way.
Missing: the motion between two of these points; the bodies whose angle passes ±π (C79_planar_enclosed_refuted); robots whose
bodies are not ellipses; a singular value decomposition with `U(1,0) < 0` (C45). -/
theorem C86_turning_bodies_partial (L : Libs2) (hsvd : SvdOk L.svd) (hsign : ∀ M, SymPos M → 0 ≤ (L.svd M).u 1 0)
    (hpick : HeapTop L.pick) (base : SuperEllipse) (hb : base.Ok) (b1 : base.eps = 1)
    (ops : List (RobotOp SuperEllipse 2)) (ha : ∀ l ∈ addedBodies ops, l.Ok ∧ l.eps = 1) (robot : Tree2)
    (hrun : Tree2.run ops (Tree2.new base) = .ok robot)
    (arena obs : List SuperEllipse) (hne : arena ≠ [] ∨ obs ≠ []) (hobs : ∀ o ∈ obs, o.num ≠ 0)
    (start goal : Vec) (hs : start.length = 3)
    (hg : goal.length = 3) (par : Param2) (hnp : par.numPoint ≠ 1) (hns : par.numSlice ≠ 1)
    (clock : ℕ → ℝ) (timeLim : ℝ) (fuel : ℕ) (r' : PlanRep Planner2)
    (h : Planner2.plan L clock timeLim fuel (freshRep (.new robot arena obs start goal par)) = some (.ok r'))
    (hsol : r'.st.res.solved = true) :
    ∃ B mid, cspaceBoundary robot arena obs = .ok B ∧ r'.solvedPath = start :: (mid ++ [goal]) ∧ mid ≠ [] ∧
      (SweepGeneric L par B → ∀ (n : ℕ) (a b : Vec), mid[n]? = some a → mid[n + 1]? = some b →
        ∃ x1 y1 t1 x2 y2 t2, ((a = [x1, y1, t1] ∧ b = [x2, y2, t2]) ∨ (b = [x1, y1, t1] ∧ a = [x2, y2, t2])) ∧
          (t1 = t2 ∨ ∀ k < par.numPoint, BaseClear2 obs base par.numPoint x1 y1 t1 x2 y2 t2 k ∧
            ∀ l ∈ addedBodies ops, SameTurns l t1 t2 → LinkClear2 obs l par.numPoint x1 y1 t1 x2 y2 t2 k)) := by
  obtain ⟨B, mid, hB, hpath, hm, hsafe⟩ := C86_planar_path_safe_partial L hpick base ops robot hrun arena obs hne hobs start goal
    hs hg par hnp hns clock timeLim fuel r' h hsol
  refine ⟨B, mid, hB, hpath, hm, fun hgen n a b hna hnb => ?_⟩
  have key : ∀ x1 y1 t1 x2 y2 t2 : ℝ, (∀ k < par.numPoint, StepClear L obs base (addedBodies ops) par.numPoint t1 t2 x1 y1 t1 x2 y2 t2 k) →
      ∀ k < par.numPoint, BaseClear2 obs base par.numPoint x1 y1 t1 x2 y2 t2 k ∧
        ∀ l ∈ addedBodies ops, SameTurns l t1 t2 → LinkClear2 obs l par.numPoint x1 y1 t1 x2 y2 t2 k := by
    intro x1 y1 t1 x2 y2 t2 hc k hk
    obtain ⟨⟨E, h1, h2⟩, h3⟩ := hc k hk
    refine ⟨⟨E, (C79_planar_enclosed_partial L.svd hsvd hsign base hb b1 t1 t2 x1 y1 x2 y2 _ k hk E).1 h1, h2⟩, ?_⟩
    rintro l hl ⟨m, m1, m2, m3, m4⟩
    obtain ⟨E', h4, h5⟩ := h3 l hl
    exact ⟨E', (C79_planar_enclosed_partial L.svd hsvd hsign l (ha l hl).1 (ha l hl).2 t1 t2 x1 y1 x2 y2 _ k hk E').2 m m1 m2 m3
      m4 h4, h5⟩
  obtain ⟨x1, y1, t1, x2, y2, t2, ea, eb, hc⟩ := (hsafe hgen).2 n a b hna hnb
  rcases hc with ⟨ht, -⟩ | ⟨ht, -⟩ | ⟨i, hi, j, hj, -, ⟨-, -, hc⟩ | ⟨-, -, hc⟩⟩
  · exact ⟨x1, y1, t1, x2, y2, t2, Or.inl ⟨ea, eb⟩, Or.inl ht⟩
  · exact ⟨x1, y1, t1, x2, y2, t2, Or.inl ⟨ea, eb⟩, Or.inl ht⟩
  · exact ⟨x1, y1, t1, x2, y2, t2, Or.inl ⟨ea, eb⟩, Or.inr (key _ _ _ _ _ _ hc)⟩
  · exact ⟨x2, y2, t2, x1, y1, t1, Or.inr ⟨eb, ea⟩, Or.inr (key _ _ _ _ _ _ hc)⟩

/-- The hypotheses of `C87_turning_bodies_partial` are met together: an ellipsoid (2, 1, 1), an obstacle, two orientations a
third of a turn apart, and a path with two or more inner configurations. -/
example (sort : StdSort ℝ) (pick : ℕ → (ℕ → ℝ) → List ℕ → ℕ) (hpick : HeapTop pick) (junk : Option Quat)
    (rand : ℕ → Quat) (randJoint : ℕ → ℕ → ℝ) (clock : ℕ → ℝ) (timeLim : ℝ) :
    ∃ (L : Libs3) (par : Param3) (start goal : Vec) (mid : List Vec) (r' : PlanRep Planner3),
      Planner3.plan L ⟨none, none⟩ clock timeLim 0
        (freshRep3 (.new (Tree3.new ⟨2, 1, 1, 1, 1, 0, (1, 0, 0, 0), 10⟩) [exQ0, exQ1] [exBall3 20] [exObs87] start goal par
          true)) = some (.ok r') ∧
      r'.solvedPath = start :: (mid ++ [goal]) ∧ 2 ≤ mid.length ∧
      ∀ (k : ℕ) (a b : Vec), mid[k]? = some a → mid[k + 1]? = some b →
        quatPart a = quatPart b ∨ ∃ steps, (IsMotion a b par.numPoint steps ∨ IsMotion b a par.numPoint steps) ∧
          ∀ u ∈ steps, BodiesClear3 [exObs87] ⟨2, 1, 1, 1, 1, 0, (1, 0, 0, 0), 10⟩ [] u := by
  obtain ⟨svd, hsvd, hdet⟩ := exists_svd_proper
  obtain ⟨dmin, dmax, par, start, goal, r', B, M, h, hsol, hs, hg, -, hnp, hu, hB, hM, hne, hgen, hlen⟩ :=
    C87_witness ⟨2, 1, 1, 1, 1, 0, (1, 0, 0, 0), 10⟩ sort svd pick hpick junk rand randJoint clock timeLim
  obtain ⟨B', M', mid, hB', hM', hpath, -, hsafe⟩ := C87_turning_bodies_partial
    ⟨sort, dmin, dmax, svd, pick, exAng, junk, rand, randJoint⟩ hsvd hdet hpick ⟨2, 1, 1, 1, 1, 0, (1, 0, 0, 0), 10⟩
    (by constructor <;> norm_num) rfl rfl [] (by simp [addedBodies]) _ rfl
    [exQ0, exQ1] [exBall3 20] [exObs87] (Or.inl (by simp)) start goal hs hg par hnp (by simpa [orientations] using hu) (by
      intro p hp q hq
      have hp' : p ∈ [exQ0, exQ1] := by simpa [orientations] using hp
      have hq' : q ∈ [exQ0, exQ1] := by simpa [orientations] using hq
      simp only [List.mem_cons, List.not_mem_nil, or_false] at hp' hq'
      rcases hp' with rfl | rfl <;> rcases hq' with rfl | rfl <;> norm_num [Quat.dot, exQ0, exQ1]) clock timeLim 0 r' h hsol
  rw [hB] at hB'
  obtain rfl := (Res.ok.injEq _ _).mp hB'
  rw [hM] at hM'
  obtain rfl := (Res.ok.injEq _ _).mp hM'
  refine ⟨_, par, start, goal, mid, r', h, hpath, ?_, hsafe hgen⟩
  rw [hpath] at hlen
  simp only [List.length_cons, List.length_append, List.length_nil] at hlen
  omega

/-- The hypotheses of `C86_turning_bodies_partial` are met together: an ellipse (2, 1), an obstacle, and a path with two or
more inner configurations. -/
example (sort : StdSort ℝ) (qr : QrSolve ℝ) (pick : ℕ → (ℕ → ℝ) → List ℕ → ℕ) (hpick : HeapTop pick) (clock : ℕ → ℝ)
    (timeLim : ℝ) :
    ∃ (L : Libs2) (par : Param2) (start goal : Vec) (mid : List Vec) (r' : PlanRep Planner2),
      Planner2.plan L clock timeLim 0
        (freshRep (.new (Tree2.new ⟨2, 1, 1, 0, 0, 0, 50⟩) [exCircle 20] [exObs86] start goal par)) = some (.ok r') ∧
      r'.solvedPath = start :: (mid ++ [goal]) ∧ 2 ≤ mid.length ∧
      ∀ (n : ℕ) (a b : Vec), mid[n]? = some a → mid[n + 1]? = some b →
        ∃ x1 y1 t1 x2 y2 t2, ((a = [x1, y1, t1] ∧ b = [x2, y2, t2]) ∨ (b = [x1, y1, t1] ∧ a = [x2, y2, t2])) ∧
          (t1 = t2 ∨ ∀ k < par.numPoint, BaseClear2 [exObs86] ⟨2, 1, 1, 0, 0, 0, 50⟩ par.numPoint x1 y1 t1 x2 y2 t2 k) := by
  obtain ⟨svd, hsvd, hsign⟩ := exists_svd_signed
  have hok : SuperEllipse.Ok ⟨2, 1, 1, 0, 0, 0, 50⟩ := by constructor <;> norm_num
  obtain ⟨dmin, dmax, par, start, goal, r', B, h, hsol, hs, hg, -, hnp, hns, hB, hne, hgen, hlen⟩ :=
    C86_witness ⟨2, 1, 1, 0, 0, 0, 50⟩ hok sort qr svd pick hpick clock timeLim
  obtain ⟨B', mid, hB', hpath, -, hsafe⟩ := C86_turning_bodies_partial ⟨sort, dmin, dmax, qr, svd, pick⟩ hsvd hsign hpick
    ⟨2, 1, 1, 0, 0, 0, 50⟩ hok rfl [] (by simp [addedBodies]) _ rfl [exCircle 20] [exObs86] (Or.inl (by simp))
    (by simp [exObs86]) start goal hs hg par (by omega) (by omega) clock timeLim 0 r' h hsol
  rw [hB] at hB'
  obtain rfl := (Res.ok.injEq _ _).mp hB'
  refine ⟨_, par, start, goal, mid, r', h, hpath, ?_, fun n a b ha hb => ?_⟩
  · rw [hpath] at hlen
    simp only [List.length_cons, List.length_append, List.length_nil] at hlen
    omega
  · obtain ⟨x1, y1, t1, x2, y2, t2, h1, h2⟩ := hsafe hgen n a b ha hb
    exact ⟨x1, y1, t1, x2, y2, t2, h1, h2.imp_right fun h k hk => (h k hk).1⟩

end Hrm
