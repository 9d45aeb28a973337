import Verif.Lemmas.CollisionSamples
import Verif.Props.Ompl
import Verif.Props.Convex

/-!
# Property C83: the collision test given to the sampling planners and to the ablated planner
-/

namespace Hrm

open Matrix

/-! ## Space -/

/-- The test of two superquadrics, each with the collision object made from its shape. -/
noncomputable def collides3 (cgal : List (Fin 3 → ℝ) → Cells) (collide : Geom → Pose 3 → Geom → Pose 3 → Bool)
    (A B : SuperQuadrics) : Bool :=
  isCollision3 collide A (collisionObject3 cgal A) B (collisionObject3 cgal B)

/-- The program treats the shape as an ellipsoid. -/
def SuperQuadrics.NearEllipsoid (Q : SuperQuadrics) : Prop := |Q.e1 - 1| < 1 / 10 ^ 6 ∧ |Q.e2 - 1| < 1 / 10 ^ 6

/-- The exponents are not in the gap where the program replaces a shape that is not an ellipsoid by one. -/
def SuperQuadrics.ClearExponents (Q : SuperQuadrics) : Prop := Q.NearEllipsoid → Q.e1 = 1 ∧ Q.e2 = 1

theorem object_ell {cgal : List (Fin 3 → ℝ) → Cells} {Q : SuperQuadrics} (h : Q.NearEllipsoid) :
    collisionObject3 cgal Q = .ellipsoid Q.a Q.b Q.c := by
  unfold collisionObject3
  rw [if_pos]
  exact h

theorem object_mesh {cgal : List (Fin 3 → ℝ) → Cells} {Q : SuperQuadrics} (h : ¬ Q.NearEllipsoid) :
    collisionObject3 cgal Q = .mesh (getMeshFromSQ cgal Q) := by
  unfold collisionObject3
  rw [if_neg]
  exact h

theorem obstacleObject3_eq (cgal : List (Fin 3 → ℝ) → Cells) (Q : SuperQuadrics) :
    obstacleObject3 cgal Q = collisionObject3 cgal Q := by
  by_cases h : Q.NearEllipsoid
  · rw [object_ell h]
    unfold obstacleObject3
    rw [if_pos]
    exact h
  · unfold obstacleObject3
    rw [if_neg]
    exact h

/-- The pose given to FCL. -/
noncomputable def SuperQuadrics.fclPose (Q : SuperQuadrics) : Pose 3 := ⟨quatRot Q.quat, ![Q.pos 0, Q.pos 1, Q.pos 2]⟩

theorem near_one {Q : SuperQuadrics} (h1 : Q.e1 = 1) (h2 : Q.e2 = 1) : Q.NearEllipsoid := by
  unfold SuperQuadrics.NearEllipsoid
  rw [h1, h2]
  norm_num

theorem object_at_one {cgal : List (Fin 3 → ℝ) → Cells} {Q : SuperQuadrics} (h1 : Q.e1 = 1) (h2 : Q.e2 = 1) :
    (collisionObject3 cgal Q).at Q.fclPose = Q.solid := by
  rw [object_ell (near_one h1 h2)]
  exact ellipsoid_at h1 h2 rfl rfl rfl

theorem object_at_sub {cgal : List (Fin 3 → ℝ) → Cells} (hc : CgalOk cgal) {Q : SuperQuadrics} (h : Q.Ok)
    (hx : Q.ClearExponents) : (collisionObject3 cgal Q).at Q.fclPose ⊆ Q.solid := by
  by_cases hn : Q.NearEllipsoid
  · rw [object_at_one (hx hn).1 (hx hn).2]
  · rw [object_mesh hn]
    exact mesh_at hc h

/-- **C83, ellipsoids.** For two ellipsoids the test answers exactly whether they have a common point. -/
theorem C83_ellipsoids_exact (cgal : List (Fin 3 → ℝ) → Cells) {collide : Geom → Pose 3 → Geom → Pose 3 → Bool}
    (hf : FclExact collide) (A B : SuperQuadrics) (hA1 : A.e1 = 1) (hA2 : A.e2 = 1) (hB1 : B.e1 = 1) (hB2 : B.e2 = 1) :
    collides3 cgal collide A B = true ↔ (A.solid ∩ B.solid).Nonempty := by
  unfold collides3 isCollision3
  rw [hf, ← object_at_one (cgal := cgal) hA1 hA2, ← object_at_one (cgal := cgal) hB1 hB2]
  rfl

/-- **C83, no false alarm in space.** Two superquadrics reported to collide have a common point. -/
theorem C83_no_false_alarm {cgal : List (Fin 3 → ℝ) → Cells} (hc : CgalOk cgal)
    {collide : Geom → Pose 3 → Geom → Pose 3 → Bool} (hf : FclExact collide) {A B : SuperQuadrics} (hA : A.Ok)
    (hB : B.Ok) (xA : A.ClearExponents) (xB : B.ClearExponents) (h : collides3 cgal collide A B = true) :
    (A.solid ∩ B.solid).Nonempty := by
  unfold collides3 isCollision3 at h
  rw [hf] at h
  obtain ⟨x, h1, h2⟩ := h
  exact ⟨x, object_at_sub hc hA xA h1, object_at_sub hc hB xB h2⟩

/-- The claim as a user would state it: the test answers whether the two bodies have a common point. -/
def C83_claim (cgal : List (Fin 3 → ℝ) → Cells) (collide : Geom → Pose 3 → Geom → Pose 3 → Bool) : Prop :=
  ∀ A B : SuperQuadrics, A.Ok → B.Ok → A.ClearExponents → B.ClearExponents →
    (collides3 cgal collide A B = true ↔ (A.solid ∩ B.solid).Nonempty)

theorem hull_placed (Q : SuperQuadrics) {x : Fin 3 → ℝ} (hx : x ∈ convexHull ℝ {p | p ∈ Q.originShape}) :
    ∃ p ∈ convexHull ℝ {p | p ∈ Q.aux.originShape}, x = quatRot Q.quat *ᵥ p + Q.pos := by
  refine convexHull_min (t := {x | ∃ p ∈ convexHull ℝ {p | p ∈ Q.aux.originShape}, x = quatRot Q.quat *ᵥ p + Q.pos})
    ?_ ?_ hx
  · intro y hy
    obtain ⟨i, j, hi, hj, rfl⟩ := mem_sample hy
    refine ⟨Q.aux.originPoint (Q.eta j, Q.omega i), subset_convexHull ℝ _ (sample_mem Q.aux hi hj), ?_⟩
    rw [aux_originPoint, SuperQuadrics.originPoint, mul_one]
  · rintro _ ⟨p, hp, rfl⟩ _ ⟨q, hq, rfl⟩ s t hs ht hst
    refine ⟨s • p + t • q, convex_convexHull ℝ _ hp hq hs ht hst, ?_⟩
    rw [mulVec_add, mulVec_smul, mulVec_smul, smul_add, smul_add]
    have : Q.pos = s • Q.pos + t • Q.pos := by rw [← add_smul, hst, one_smul]
    nth_rewrite 3 [this]
    abel

/-- C83 in space, the missed collisions. A body `A` that is an ellipsoid and an obstacle that is not, with at least
three samples per direction: if no collision is reported, then `A` stays clear of the convex hull of the obstacle's
sample points, or `A` is completely inside one tetrahedron spanned by four of them (and so inside the obstacle).
Missing from the claim: the part of the obstacle outside the hull, and bodies swallowed by the obstacle. -/
theorem C83_missed_partial {cgal : List (Fin 3 → ℝ) → Cells} (hc : CgalOk cgal)
    {collide : Geom → Pose 3 → Geom → Pose 3 → Bool} (hf : FclExact collide) {A Q : SuperQuadrics} (hA : A.Ok)
    (hA1 : A.e1 = 1) (hA2 : A.e2 = 1) (hQ : Q.Ok) (hn : ¬ Q.NearEllipsoid) (hnum : 3 ≤ Q.num)
    (h : collides3 cgal collide A Q = false) :
    Disjoint A.solid (convexHull ℝ {p | p ∈ Q.originShape}) ∨
    ∃ p ∈ Q.originShape, ∃ q ∈ Q.originShape, ∃ r ∈ Q.originShape, ∃ s ∈ Q.originShape,
      A.solid ⊆ convexHull ℝ {p, q, r, s} := by
  have ho := quatRot_orth hQ.unit
  have hno : ¬ ((collisionObject3 cgal A).at A.fclPose ∩ (collisionObject3 cgal Q).at Q.fclPose).Nonempty := by
    intro hne
    have := (hf _ _ _ _).2 hne
    unfold collides3 isCollision3 at h
    change collide _ A.fclPose _ Q.fclPose = false at h
    rw [this] at h
    cases h
  rw [object_at_one hA1 hA2, object_mesh hn] at hno
  set B : Set (Fin 3 → ℝ) := {p | quatRot Q.quat *ᵥ p + Q.pos ∈ A.solid} with hB
  have hcB : Convex ℝ B := by
    intro p hp q hq s t hs ht hst
    have := SuperQuadrics.solid_convex hA hp hq hs ht hst
    change quatRot Q.quat *ᵥ (s • p + t • q) + Q.pos ∈ A.solid
    convert this using 1
    rw [mulVec_add, mulVec_smul, mulVec_smul, smul_add, smul_add]
    have : Q.pos = s • Q.pos + t • Q.pos := by rw [← add_smul, hst, one_smul]
    nth_rewrite 1 [this]
    abel
  have hmiss : B ∩ (Geom.mesh (getMesh cgal Q.aux.originShape)).shape = ∅ := by
    rw [Set.eq_empty_iff_forall_notMem]
    rintro p ⟨hp, hm⟩
    refine hno ⟨_, hp, p, hm, ?_⟩
    simp only [SuperQuadrics.fclPose, posVec]
  have hpull : ∀ x ∈ A.solid, ∃ p ∈ B, x = quatRot Q.quat *ᵥ p + Q.pos := by
    intro x hx
    have e : x = quatRot Q.quat *ᵥ ((quatRot Q.quat)ᵀ *ᵥ (x - Q.pos)) + Q.pos := by
      rw [mulVec_mulVec, ho.right, one_mulVec, sub_add_cancel]
    refine ⟨(quatRot Q.quat)ᵀ *ᵥ (x - Q.pos), ?_, e⟩
    change quatRot Q.quat *ᵥ ((quatRot Q.quat)ᵀ *ᵥ (x - Q.pos)) + Q.pos ∈ A.solid
    rw [← e]; exact hx
  rcases mesh_missed hc (samples_spatial hQ hnum) hcB hmiss with h0 | ⟨p, hp, q, hq, r, hr, s, hs, hsub⟩
  · left
    rw [Set.disjoint_left]
    intro x hxA hxH
    obtain ⟨p, hp, e⟩ := hull_placed Q hxH
    rw [Set.eq_empty_iff_forall_notMem] at h0
    refine h0 p ⟨?_, hp⟩
    change quatRot Q.quat *ᵥ p + Q.pos ∈ A.solid
    rw [← e]; exact hxA
  · right
    have hmv : ∀ {p : Fin 3 → ℝ}, p ∈ Q.aux.originShape → quatRot Q.quat *ᵥ p + Q.pos ∈ Q.originShape := by
      intro p hp
      obtain ⟨i, j, hi, hj, rfl⟩ := mem_sample hp
      have := sample_mem Q (i := i) (j := j) hi hj
      convert this using 1
      rw [aux_originPoint, SuperQuadrics.originPoint, mul_one]
      rfl
    refine ⟨_, hmv hp, _, hmv hq, _, hmv hr, _, hmv hs, ?_⟩
    intro x hx
    obtain ⟨y, hy, rfl⟩ := hpull x hx
    have hy' := hsub hy
    refine convexHull_min (t := {y | quatRot Q.quat *ᵥ y + Q.pos ∈ convexHull ℝ
      {quatRot Q.quat *ᵥ p + Q.pos, quatRot Q.quat *ᵥ q + Q.pos, quatRot Q.quat *ᵥ r + Q.pos,
        quatRot Q.quat *ᵥ s + Q.pos}}) ?_ ?_ hy'
    · intro z hz
      simp only [Set.mem_insert_iff, Set.mem_singleton_iff] at hz
      apply subset_convexHull
      rcases hz with rfl | rfl | rfl | rfl <;> simp
    · intro u hu v hv a b ha hb hab
      have := convex_convexHull ℝ _ hu hv ha hb hab
      rw [Set.mem_ofPred_eq]
      convert this using 1
      rw [mulVec_add, mulVec_smul, mulVec_smul, smul_add, smul_add]
      have : Q.pos = a • Q.pos + b • Q.pos := by rw [← add_smul, hab, one_smul]
      nth_rewrite 1 [this]
      abel

/-- C83: a body that is not completely inside the obstacle is tested correctly up to the sampling. -/
theorem C83_not_swallowed_partial {cgal : List (Fin 3 → ℝ) → Cells} (hc : CgalOk cgal)
    {collide : Geom → Pose 3 → Geom → Pose 3 → Bool} (hf : FclExact collide) {A Q : SuperQuadrics} (hA : A.Ok)
    (hA1 : A.e1 = 1) (hA2 : A.e2 = 1) (hQ : Q.Ok) (hn : ¬ Q.NearEllipsoid) (hnum : 3 ≤ Q.num)
    (hout : ¬ A.solid ⊆ Q.solid) (h : collides3 cgal collide A Q = false) :
    Disjoint A.solid (convexHull ℝ {p | p ∈ Q.originShape}) := by
  rcases C83_missed_partial hc hf hA hA1 hA2 hQ hn hnum h with h | ⟨p, hp, q, hq, r, hr, s, hs, hsub⟩
  · exact h
  · exfalso
    apply hout
    intro x hx
    apply hull_in_solid hQ
    refine convexHull_mono ?_ (hsub hx)
    intro y hy
    simp only [Set.mem_insert_iff, Set.mem_singleton_iff] at hy
    rcases hy with rfl | rfl | rfl | rfl <;> assumption

theorem implicit_continuous {Q : SuperQuadrics} (h : Q.Ok) : Continuous Q.implicit := by
  unfold SuperQuadrics.implicit
  have h1 : (0 : ℝ) ≤ 2 / Q.e2 := by have := h.lo2; positivity
  have h2 : (0 : ℝ) ≤ Q.e2 / Q.e1 := by have := h.lo2; have := h.lo1; positivity
  have h3 : (0 : ℝ) ≤ 2 / Q.e1 := by have := h.lo1; positivity
  have c : ∀ (i : Fin 3) (a : ℝ), Continuous fun p : Fin 3 → ℝ => |p i / a| := by
    intro i a
    have : Continuous fun p : Fin 3 → ℝ => p i := continuous_apply i
    exact (this.div_const a).abs
  exact (((c 0 _).rpow_const fun _ => .inr h1).add ((c 1 _).rpow_const fun _ => .inr h1)).rpow_const
    (fun _ => .inr h2) |>.add ((c 2 _).rpow_const fun _ => .inr h3)

theorem implicit_origin {Q : SuperQuadrics} (h : Q.Ok) : Q.implicit 0 < 1 := by
  have h1 : 2 / Q.e2 ≠ 0 := by have := h.lo2; positivity
  have h2 : Q.e2 / Q.e1 ≠ 0 := by have := h.lo2; have := h.lo1; positivity
  have h3 : 2 / Q.e1 ≠ 0 := by have := h.lo1; positivity
  simp [SuperQuadrics.implicit, Real.zero_rpow h1, Real.zero_rpow h2, Real.zero_rpow h3]

/-- A small ball-shaped body with the orientation of `Q`, centred at the point `c` of the frame of `Q`. -/
noncomputable def probe (Q : SuperQuadrics) (c : Fin 3 → ℝ) (r : ℝ) : SuperQuadrics :=
  ⟨r, r, r, 1, 1, quatRot Q.quat *ᵥ c + Q.pos, Q.quat, 3⟩

theorem probe_solid {Q : SuperQuadrics} {c : Fin 3 → ℝ} {r : ℝ} (hr : 0 < r) {x : Fin 3 → ℝ}
    (hx : x ∈ (probe Q c r).solid) : ∃ p, (∀ i, |p i| ≤ r) ∧ x = quatRot Q.quat *ᵥ (c + p) + Q.pos := by
  obtain ⟨_, ⟨p, hp, rfl⟩, rfl⟩ := hx
  refine ⟨p, ?_, ?_⟩
  · simp only [SuperQuadrics.implicit, probe, div_one, Real.rpow_two, sq_abs, Real.rpow_one] at hp
    intro i
    have : (p i / r) ^ 2 ≤ 1 := by
      fin_cases i
      · change (p 0 / r) ^ 2 ≤ 1
        nlinarith [sq_nonneg (p 1 / r), sq_nonneg (p 2 / r)]
      · change (p 1 / r) ^ 2 ≤ 1
        nlinarith [sq_nonneg (p 0 / r), sq_nonneg (p 2 / r)]
      · change (p 2 / r) ^ 2 ≤ 1
        nlinarith [sq_nonneg (p 0 / r), sq_nonneg (p 1 / r)]
    rw [sq_le_one_iff_abs_le_one, abs_div, abs_of_pos hr, div_le_one hr] at this
    exact this
  · simp only [probe]
    rw [mulVec_add]
    abel

/-- **C83, swallowed bodies.** Every obstacle that is not treated as an ellipsoid — whatever the triangulation of its
sample points — contains balls for which no collision is reported. -/
theorem C83_swallowed (cgal : List (Fin 3 → ℝ) → Cells) {collide : Geom → Pose 3 → Geom → Pose 3 → Bool}
    (hf : FclExact collide) {Q : SuperQuadrics} (hQ : Q.Ok) (hn : ¬ Q.NearEllipsoid) :
    ∃ A : SuperQuadrics, A.Ok ∧ A.e1 = 1 ∧ A.e2 = 1 ∧ A.solid ⊆ Q.solid ∧ A.solid.Nonempty ∧
      collides3 cgal collide A Q = false := by
  set m := getMeshFromSQ cgal Q
  obtain ⟨hcl, hint⟩ := mesh_thin m
  set U : Set (Fin 3 → ℝ) := {p | Q.implicit p < 1} ∩ (Geom.mesh m).shapeᶜ with hU
  have hopen0 : IsOpen {p | Q.implicit p < 1} := isOpen_lt (implicit_continuous hQ) continuous_const
  have hopen : IsOpen U := hopen0.inter hcl.isOpen_compl
  have hne : U.Nonempty := by
    by_contra h0
    rw [Set.not_nonempty_iff_eq_empty] at h0
    have hsub : {p | Q.implicit p < 1} ⊆ (Geom.mesh m).shape := by
      intro p hp
      by_contra hm
      have : p ∈ U := ⟨hp, hm⟩
      rw [h0] at this
      exact this
    have := interior_maximal hsub hopen0 (implicit_origin hQ)
    rw [hint] at this
    exact this
  obtain ⟨c, hc⟩ := hne
  obtain ⟨r, hr, hball⟩ := Metric.isOpen_iff.1 hopen c hc
  have hr2 : 0 < r / 2 := by linarith
  have hin : ∀ p : Fin 3 → ℝ, (∀ i, |p i| ≤ r / 2) → c + p ∈ U := by
    intro p hp
    apply hball
    rw [Metric.mem_ball, dist_eq_norm, add_sub_cancel_left]
    refine lt_of_le_of_lt ((pi_norm_le_iff_of_nonneg hr2.le).2 fun i => ?_) (by linarith : r / 2 < r)
    rw [Real.norm_eq_abs]; exact hp i
  have hOk : (probe Q c (r / 2)).Ok :=
    ⟨hr2, hr2, hr2, by norm_num [probe], by norm_num [probe], by norm_num [probe], by norm_num [probe], hQ.unit⟩
  refine ⟨probe Q c (r / 2), hOk, rfl, rfl, ?_, ?_, ?_⟩
  · intro x hx
    obtain ⟨p, hp, rfl⟩ := probe_solid hr2 hx
    exact ⟨_, ⟨c + p, (hin p hp).1.le, rfl⟩, rfl⟩
  · exact ⟨_, _, ⟨0, (implicit_origin hOk).le, rfl⟩, rfl⟩
  · by_contra h
    rw [Bool.not_eq_false] at h
    unfold collides3 isCollision3 at h
    rw [hf] at h
    obtain ⟨x, h1, h2⟩ := h
    have h1' : x ∈ (probe Q c (r / 2)).solid := by
      rw [← object_at_one (cgal := cgal) (Q := probe Q c (r / 2)) rfl rfl]; exact h1
    rw [object_mesh hn] at h2
    obtain ⟨p, hp, rfl⟩ := probe_solid hr2 h1'
    obtain ⟨q, hq, e⟩ := h2
    dsimp only at e
    rw [posVec] at e
    have e' : c + p = q := by
      have := (quatRot_orth hQ.unit).injective (x := c + p - q) (by
        rw [mulVec_sub, sub_eq_zero]
        exact add_right_cancel e)
      exact sub_eq_zero.1 this
    exact (hin p hp).2 (e' ▸ hq)

/-- C83 is false of the program, for every library meeting the contracts. -/
theorem C83_refuted (cgal : List (Fin 3 → ℝ) → Cells) (collide : Geom → Pose 3 → Geom → Pose 3 → Bool)
    (hf : FclExact collide) : ¬ C83_claim cgal collide := by
  intro h
  have hn : ¬ exQuadric.NearEllipsoid := by
    rintro ⟨h1, -⟩
    norm_num [exQuadric, abs_of_neg] at h1
  obtain ⟨A, hA, h1, h2, hsub, hne, hfalse⟩ := C83_swallowed cgal hf exQuadric_ok hn
  have := (h A exQuadric hA exQuadric_ok (fun _ => ⟨h1, h2⟩) (fun hx => absurd hx hn)).2
    ⟨hne.some, hne.some_mem, hsub hne.some_mem⟩
  rw [hfalse] at this
  cases this

/-- C83: with two samples per direction no collision with the obstacle is ever reported. -/
theorem C83_two_samples {cgal : List (Fin 3 → ℝ) → Cells} (hc : CgalOk cgal)
    {collide : Geom → Pose 3 → Geom → Pose 3 → Bool} (hf : FclExact collide) (A Q : SuperQuadrics)
    (hn : ¬ Q.NearEllipsoid) (hnum : Q.num ≤ 2) : collides3 cgal collide A Q = false := by
  by_contra h
  rw [Bool.not_eq_false] at h
  unfold collides3 isCollision3 at h
  rw [hf, object_mesh hn] at h
  obtain ⟨x, -, p, hp, -⟩ := h
  have := mesh_flat hc (samples_flat Q hnum)
  unfold getMeshFromSQ at hp
  rw [this] at hp
  exact hp

/-! ## Plane -/

/-- The test of two superellipses, each with the collision object made from its shape. -/
noncomputable def collides2 (cgal : List (Fin 3 → ℝ) → Cells) (collide : Geom → Pose 3 → Geom → Pose 3 → Bool)
    (A B : SuperEllipse) : Bool :=
  isCollision2 collide A (collisionObject2 cgal A) B (collisionObject2 cgal B)

/-- The program treats the shape as an ellipse. -/
def SuperEllipse.NearEllipse (E : SuperEllipse) : Prop := |E.eps - 1| < 1 / 10 ^ 6

/-- The pose given to FCL. -/
noncomputable def SuperEllipse.fclPose (E : SuperEllipse) : Pose 3 := ⟨quatRot (zTurn E.ang), ![E.px, E.py, 1 / 10]⟩

theorem object2_ell {cgal : List (Fin 3 → ℝ) → Cells} {E : SuperEllipse} (h : E.NearEllipse) :
    collisionObject2 cgal E = .ellipsoid E.a E.b (1 / 10) := by
  unfold collisionObject2
  rw [if_pos]
  exact h

theorem object2_mesh {cgal : List (Fin 3 → ℝ) → Cells} {E : SuperEllipse} (h : ¬ E.NearEllipse) :
    collisionObject2 cgal E = .mesh (getMeshFromSQ cgal E.aux) := by
  unfold collisionObject2
  rw [if_neg]
  exact h

theorem quatRot_zTurn (t : ℝ) (p : Fin 3 → ℝ) :
    quatRot (zTurn t) *ᵥ p = ![(rot2 t *ᵥ ![p 0, p 1]) 0, (rot2 t *ᵥ ![p 0, p 1]) 1, p 2] := by
  have hc : Real.cos t = Real.cos (t / 2) ^ 2 - Real.sin (t / 2) ^ 2 := by
    rw [← Real.cos_two_mul']; congr 1; ring
  have hs : Real.sin t = 2 * Real.sin (t / 2) * Real.cos (t / 2) := by
    rw [← Real.sin_two_mul]; congr 1; ring
  have h1 := Real.sin_sq_add_cos_sq (t / 2)
  ext i
  fin_cases i <;> simp [quatRot, zTurn, rot2, mulVec, dotProduct, Fin.sum_univ_three, Fin.sum_univ_two, hc, hs]
  · left; linear_combination (-1 : ℝ) * h1
  · left; linear_combination (-1 : ℝ) * h1

/-- Where a point of the frame of `E` goes. -/
noncomputable def SuperEllipse.out (E : SuperEllipse) (p : Fin 2 → ℝ) : Fin 2 → ℝ := rot2 E.ang *ᵥ p + ![E.px, E.py]

theorem SuperEllipse.mem_solid {E : SuperEllipse} {x : Fin 2 → ℝ} :
    x ∈ E.solid ↔ ∃ p, E.implicit p ≤ 1 ∧ x = E.out p := by
  constructor
  · rintro ⟨_, ⟨p, hp, rfl⟩, rfl⟩
    exact ⟨p, hp, rfl⟩
  · rintro ⟨p, hp, rfl⟩
    exact ⟨_, ⟨p, hp, rfl⟩, rfl⟩

theorem mem_at2 {g : Geom} {E : SuperEllipse} {x : Fin 3 → ℝ} :
    x ∈ g.at E.fclPose ↔ ∃ p ∈ g.shape, x = ![E.out ![p 0, p 1] 0, E.out ![p 0, p 1] 1, p 2 + 1 / 10] := by
  unfold Geom.at SuperEllipse.fclPose SuperEllipse.out
  simp only [Set.mem_ofPred_eq, quatRot_zTurn]
  constructor <;> rintro ⟨p, hp, rfl⟩ <;> refine ⟨p, hp, ?_⟩ <;> ext i <;> fin_cases i <;> simp

/-- **C83, ellipses.** For two ellipses the test — of two ellipsoids of one height — answers exactly whether they have
a common point. -/
theorem C83_ellipses_exact (cgal : List (Fin 3 → ℝ) → Cells) {collide : Geom → Pose 3 → Geom → Pose 3 → Bool}
    (hf : FclExact collide) (A B : SuperEllipse) (hA : A.eps = 1) (hB : B.eps = 1) :
    collides2 cgal collide A B = true ↔ (A.solid ∩ B.solid).Nonempty := by
  have hnA : A.NearEllipse := by unfold SuperEllipse.NearEllipse; rw [hA]; norm_num
  have hnB : B.NearEllipse := by unfold SuperEllipse.NearEllipse; rw [hB]; norm_num
  have imp : ∀ {E : SuperEllipse} (_ : E.eps = 1) (p : Fin 2 → ℝ),
      E.implicit p = (p 0 / E.a) ^ 2 + (p 1 / E.b) ^ 2 := by
    intro E h p
    simp only [SuperEllipse.implicit, h, div_one, Real.rpow_two, sq_abs]
  unfold collides2 isCollision2
  rw [hf, object2_ell hnA, object2_ell hnB]
  change ((Geom.ellipsoid A.a A.b (1 / 10)).at A.fclPose ∩ (Geom.ellipsoid B.a B.b (1 / 10)).at B.fclPose).Nonempty ↔ _
  constructor
  · rintro ⟨x, h1, h2⟩
    rw [mem_at2] at h1 h2
    obtain ⟨p, hp, rfl⟩ := h1
    obtain ⟨q, hq, e⟩ := h2
    have e0 : A.out ![p 0, p 1] 0 = B.out ![q 0, q 1] 0 := by simpa using congrFun e 0
    have e1 : A.out ![p 0, p 1] 1 = B.out ![q 0, q 1] 1 := by simpa using congrFun e 1
    refine ⟨A.out ![p 0, p 1], SuperEllipse.mem_solid.2 ⟨_, ?_, rfl⟩, SuperEllipse.mem_solid.2 ⟨![q 0, q 1], ?_, ?_⟩⟩
    · rw [imp hA]
      have hp' : (p 0 / A.a) ^ 2 + (p 1 / A.b) ^ 2 + (p 2 / (1 / 10)) ^ 2 ≤ 1 := hp
      simp only [cons_val_zero, cons_val_one]
      nlinarith [sq_nonneg (p 2 / (1 / 10))]
    · rw [imp hB]
      have hq' : (q 0 / B.a) ^ 2 + (q 1 / B.b) ^ 2 + (q 2 / (1 / 10)) ^ 2 ≤ 1 := hq
      simp only [cons_val_zero, cons_val_one]
      nlinarith [sq_nonneg (q 2 / (1 / 10))]
    · ext i
      fin_cases i
      · exact e0
      · exact e1
  · rintro ⟨x, h1, h2⟩
    rw [SuperEllipse.mem_solid] at h1 h2
    obtain ⟨p, hp, rfl⟩ := h1
    obtain ⟨q, hq, e⟩ := h2
    rw [imp hA] at hp
    rw [imp hB] at hq
    have ep : ![p 0, p 1] = p := by ext i; fin_cases i <;> rfl
    have eq : ![q 0, q 1] = q := by ext i; fin_cases i <;> rfl
    refine ⟨![A.out p 0, A.out p 1, 0 + 1 / 10], mem_at2.2 ⟨![p 0, p 1, 0], ?_, ?_⟩,
      mem_at2.2 ⟨![q 0, q 1, 0], ?_, ?_⟩⟩
    · simpa [Geom.shape] using hp
    · simp [ep]
    · simpa [Geom.shape] using hq
    · simp [eq, e]

theorem aux2_ok {E : SuperEllipse} (h : E.Ok) : E.aux.Ok :=
  ⟨h.a, h.b, by norm_num [SuperEllipse.aux], h.lo, h.hi, by norm_num [SuperEllipse.aux],
    by norm_num [SuperEllipse.aux], by simp [SuperEllipse.aux]⟩

theorem aux2_aux (E : SuperEllipse) : E.aux.aux = E.aux := rfl

/-- The angles of the ten samples. -/
theorem aux2_eta (E : SuperEllipse) (j : ℕ) : E.aux.eta j = capH * ((2 * (j : ℝ) - 9) / 9) := by
  rw [eta_eq (Q := E.aux) (by norm_num [SuperEllipse.aux])]
  simp only [SuperEllipse.aux]
  push_cast
  ring

theorem aux2_omega (E : SuperEllipse) (i : ℕ) : E.aux.omega i = capW * ((2 * (i : ℝ) - 9) / 9) := by
  rw [omega_eq (Q := E.aux) (by norm_num [SuperEllipse.aux])]
  simp only [SuperEllipse.aux]
  push_cast
  ring

theorem aux2_abs_t {j : ℕ} (hj : j < 10) : 1 / 9 ≤ |(2 * (j : ℝ) - 9) / 9| ∧ |(2 * (j : ℝ) - 9) / 9| ≤ 1 := by
  interval_cases j <;> norm_num [abs_of_pos, abs_of_neg]

theorem aux2_t_cases {j : ℕ} (hj : j < 10) : |(2 * (j : ℝ) - 9) / 9| = 1 ∨ |(2 * (j : ℝ) - 9) / 9| ≤ 7 / 9 := by
  interval_cases j <;> norm_num [abs_of_pos, abs_of_neg]

theorem cos_eta {E : SuperEllipse} (j : ℕ) : Real.cos (E.aux.eta j) = Real.cos (capH * |(2 * (j : ℝ) - 9) / 9|) := by
  rw [aux2_eta, ← Real.cos_abs, abs_mul, abs_of_pos (by linarith [capH_bounds.1, Real.pi_gt_three])]

/-- All samples stay below the top of the planar bodies. -/
theorem aux2_height {E : SuperEllipse} (h : E.Ok) {x : Fin 3 → ℝ}
    (hx : x ∈ convexHull ℝ {p | p ∈ E.aux.originShape}) : x 2 < 1 / 10 := by
  refine convexHull_min (t := {x : Fin 3 → ℝ | x 2 < 1 / 10}) ?_ ?_ hx
  · intro p hp
    obtain ⟨i, j, hi, hj, rfl⟩ := mem_sample hp
    rw [← aux2_aux, aux_originPoint]
    have hj' : j < 10 := hj
    have hb := capH_bounds
    have hpi := Real.pi_gt_three
    have hcos : Real.cos (E.aux.eta j) ≠ 0 := by
      rw [cos_eta]
      rcases aux2_t_cases hj' with e | e
      · rw [e, mul_one]
        exact (Real.cos_neg_of_pi_div_two_lt_of_lt hb.1 (by linarith)).ne
      · have h0 := abs_nonneg ((2 * (j : ℝ) - 9) / 9)
        apply ne_of_gt
        apply Real.cos_pos_of_mem_Ioo
        constructor <;> nlinarith
    have hsin : |Real.sin (E.aux.eta j)| < 1 := by
      rw [← sq_lt_one_iff_abs_lt_one]
      have := Real.sin_sq_add_cos_sq (E.aux.eta j)
      have := sq_pos_of_ne_zero hcos
      linarith
    have key : expFun (E.aux.aux.eta j) E.eps true < 1 := by
      refine (le_abs_self _).trans_lt ?_
      rw [abs_expFun _ h.lo]
      exact Real.rpow_lt_one (abs_nonneg _) (by simpa [sc, aux2_aux] using hsin) h.lo
    change 1 / 10 * expFun (E.aux.aux.eta j) E.eps true < 1 / 10
    linarith
  · intro u hu v hv a b ha hb hab
    simp only [Set.mem_ofPred_eq, Pi.add_apply, Pi.smul_apply, smul_eq_mul] at hu hv ⊢
    rcases ha.eq_or_lt with rfl | ha'
    · have : b = 1 := by linarith
      rw [this]; linarith
    · nlinarith

/-- How far the samples reach in the first direction, as a fraction of the semi-axis. -/
noncomputable def reach (E : SuperEllipse) : ℝ := (Real.cos (capH / 9)) ^ E.eps

theorem cos_ninth : 49 / 50 ≤ Real.cos (capH / 9) ∧ Real.cos (capH / 9) < 1 := by
  have hb := capH_bounds
  have hp1 := Real.pi_gt_three
  have hp2 := Real.pi_lt_d2
  constructor
  · refine le_trans ?_ (Real.one_sub_sq_div_two_le_cos)
    have h1 : capH / 9 ≤ 1 / 5 := by linarith
    have h0 : 0 ≤ capH / 9 := by linarith
    nlinarith
  · have := Real.cos_lt_cos_of_nonneg_of_le_pi (x := 0) (y := capH / 9) le_rfl (by linarith) (by linarith)
    simpa using this

theorem reach_lt {E : SuperEllipse} (h : E.Ok) : 0 < reach E ∧ reach E < 1 :=
  ⟨Real.rpow_pos_of_pos (by linarith [cos_ninth.1]) _, Real.rpow_lt_one (by linarith [cos_ninth.1]) cos_ninth.2 h.lo⟩

theorem cos_eta_le {E : SuperEllipse} {j : ℕ} (hj : j < 10) : |Real.cos (E.aux.eta j)| ≤ Real.cos (capH / 9) := by
  have hb := capH_bounds
  have hp1 := Real.pi_gt_three
  have ht := aux2_abs_t hj
  rw [cos_eta]
  set t := |(2 * (j : ℝ) - 9) / 9|
  have hH : 0 < capH := by linarith
  have h1 : capH / 9 ≤ capH * t := by nlinarith [ht.1]
  have h2 : capH * t ≤ capH := by nlinarith [ht.2]
  rw [abs_le]
  constructor
  · rw [← Real.cos_pi_sub]
    apply Real.cos_le_cos_of_nonneg_of_le_pi <;> nlinarith
  · apply Real.cos_le_cos_of_nonneg_of_le_pi <;> nlinarith

/-- No sample reaches the end of the body in its first direction. -/
theorem aux2_reach {E : SuperEllipse} (h : E.Ok) {x : Fin 3 → ℝ}
    (hx : x ∈ convexHull ℝ {p | p ∈ E.aux.originShape}) : x 0 ≤ E.a * reach E := by
  refine convexHull_min (t := {x : Fin 3 → ℝ | x 0 ≤ E.a * reach E}) ?_ ?_ hx
  · intro p hp
    obtain ⟨i, j, hi, hj, rfl⟩ := mem_sample hp
    rw [← aux2_aux, aux_originPoint]
    change E.a * (expFun (E.aux.aux.eta j) E.eps false * expFun (E.aux.aux.omega i) (1 / 10) false) ≤ E.a * reach E
    apply mul_le_mul_of_nonneg_left _ h.a.le
    refine (le_abs_self _).trans ?_
    rw [abs_mul, abs_expFun _ h.lo, abs_expFun _ (by norm_num : (0 : ℝ) < 1 / 10)]
    have h1 : |sc (E.aux.aux.eta j) false| ^ E.eps ≤ reach E :=
      Real.rpow_le_rpow (abs_nonneg _) (by simpa [sc, aux2_aux] using cos_eta_le (E := E) (j := j) hj) h.lo.le
    have h2 : |sc (E.aux.aux.omega i) false| ^ (1 / 10 : ℝ) ≤ 1 :=
      Real.rpow_le_one (abs_nonneg _) (by simpa [sc] using Real.abs_cos_le_one _) (by norm_num)
    have h3 : 0 ≤ |sc (E.aux.aux.eta j) false| ^ E.eps := Real.rpow_nonneg (abs_nonneg _) _
    calc _ ≤ |sc (E.aux.aux.eta j) false| ^ E.eps * 1 := mul_le_mul_of_nonneg_left h2 h3
      _ ≤ reach E := by rw [mul_one]; exact h1
  · intro u hu v hv a b ha hb hab
    simp only [Set.mem_ofPred_eq, Pi.add_apply, Pi.smul_apply, smul_eq_mul] at hu hv ⊢
    have : b = 1 - a := by linarith
    subst this
    nlinarith

theorem SuperEllipse.implicit_continuous {E : SuperEllipse} (h : E.Ok) : Continuous E.implicit := by
  unfold SuperEllipse.implicit
  have h1 : (0 : ℝ) ≤ 2 / E.eps := by have := h.lo; positivity
  have c : ∀ (i : Fin 2) (a : ℝ), Continuous fun p : Fin 2 → ℝ => |p i / a| := by
    intro i a
    have : Continuous fun p : Fin 2 → ℝ => p i := continuous_apply i
    exact (this.div_const a).abs
  exact ((c 0 _).rpow_const fun _ => .inr h1).add ((c 1 _).rpow_const fun _ => .inr h1)

/-- A small disc with the orientation of `E`, centred at the point `c` of the frame of `E`. -/
noncomputable def probe2 (E : SuperEllipse) (c : Fin 2 → ℝ) (r : ℝ) : SuperEllipse :=
  ⟨r, r, 1, E.out c 0, E.out c 1, E.ang, 3⟩

theorem probe2_out (E : SuperEllipse) (c p : Fin 2 → ℝ) (r : ℝ) : (probe2 E c r).out p = E.out (c + p) := by
  simp only [SuperEllipse.out, probe2, mulVec_add]
  ext i
  fin_cases i <;> simp <;> ring

theorem disc_small {r : ℝ} (hr : 0 < r) {x y z : ℝ} (h : (x / r) ^ 2 + (y / r) ^ 2 + z ^ 2 ≤ 1) : |x| ≤ r ∧ |y| ≤ r := by
  have : ∀ w : ℝ, (w / r) ^ 2 ≤ 1 → |w| ≤ r := by
    intro w hw
    rw [sq_le_one_iff_abs_le_one, abs_div, abs_of_pos hr, div_le_one hr] at hw
    exact hw
  exact ⟨this x (by nlinarith [sq_nonneg (y / r), sq_nonneg z]), this y (by nlinarith [sq_nonneg (x / r), sq_nonneg z])⟩

theorem probe2_solid {E : SuperEllipse} {c : Fin 2 → ℝ} {r : ℝ} (hr : 0 < r) {x : Fin 2 → ℝ}
    (hx : x ∈ (probe2 E c r).solid) : ∃ p, (∀ i, |p i| ≤ r) ∧ x = E.out (c + p) := by
  obtain ⟨p, hp, rfl⟩ := SuperEllipse.mem_solid.1 hx
  refine ⟨p, ?_, probe2_out E c p r⟩
  simp only [SuperEllipse.implicit, probe2, div_one, Real.rpow_two, sq_abs] at hp
  have := disc_small hr (x := p 0) (y := p 1) (z := 0) (by simpa using hp)
  intro i
  fin_cases i
  · exact this.1
  · exact this.2

theorem probe2_ok (E : SuperEllipse) (c : Fin 2 → ℝ) {r : ℝ} (hr : 0 < r) : (probe2 E c r).IsEllipse :=
  ⟨hr, hr, rfl⟩

theorem SuperEllipse.out_inj {E : SuperEllipse} {p q : Fin 2 → ℝ} (h : E.out p = E.out q) : p = q := by
  have := (rot2_orth E.ang).injective (x := p - q) (by
    rw [mulVec_sub, sub_eq_zero]
    exact add_right_cancel h)
  exact sub_eq_zero.1 this

theorem collides2_iff (cgal : List (Fin 3 → ℝ) → Cells) {collide : Geom → Pose 3 → Geom → Pose 3 → Bool}
    (hf : FclExact collide) {E : SuperEllipse} (hn : ¬ E.NearEllipse) (c : Fin 2 → ℝ) (r : ℝ) :
    collides2 cgal collide (probe2 E c r) E = true ↔
      ∃ p ∈ (Geom.mesh (getMesh cgal E.aux.originShape)).shape,
        ((p 0 - c 0) / r) ^ 2 + ((p 1 - c 1) / r) ^ 2 + (p 2 / (1 / 10)) ^ 2 ≤ 1 := by
  have hnp : (probe2 E c r).NearEllipse := by
    change |(1 : ℝ) - 1| < _
    norm_num
  unfold collides2 isCollision2
  rw [hf, object2_ell hnp, object2_mesh hn]
  change ((Geom.ellipsoid r r (1 / 10)).at (probe2 E c r).fclPose ∩
    (Geom.mesh (getMesh cgal E.aux.originShape)).at E.fclPose).Nonempty ↔ _
  constructor
  · rintro ⟨x, h1, h2⟩
    obtain ⟨q, hq, rfl⟩ := mem_at2.1 h1
    obtain ⟨p, hp, e⟩ := mem_at2.1 h2
    rw [probe2_out] at e
    have e2 : p 2 = q 2 := by
      have := congrFun e 2
      simp at this
      linarith
    have e01 : E.out (c + ![q 0, q 1]) = E.out ![p 0, p 1] := by
      ext i
      fin_cases i
      · simpa using congrFun e 0
      · simpa using congrFun e 1
    have e' := SuperEllipse.out_inj e01
    have a0 : c 0 + q 0 = p 0 := by simpa using congrFun e' 0
    have a1 : c 1 + q 1 = p 1 := by simpa using congrFun e' 1
    refine ⟨p, hp, ?_⟩
    rw [e2, ← a0, ← a1]
    simpa [Geom.shape] using hq
  · rintro ⟨p, hp, h⟩
    refine ⟨_, mem_at2.2 ⟨![p 0 - c 0, p 1 - c 1, p 2], by simpa [Geom.shape] using h, rfl⟩, mem_at2.2 ⟨p, hp, ?_⟩⟩
    have : c + ![p 0 - c 0, p 1 - c 1] = ![p 0, p 1] := by
      ext i; fin_cases i <;> simp
    simp [probe2_out, this]

/-- **C83, missed in the plane.** Every obstacle that is not treated as an ellipse contains discs for which no collision
is reported: the samples do not reach its ends. -/
theorem C83_planar_missed {cgal : List (Fin 3 → ℝ) → Cells} (hc : CgalOk cgal)
    {collide : Geom → Pose 3 → Geom → Pose 3 → Bool} (hf : FclExact collide) {E : SuperEllipse} (hE : E.Ok)
    (hn : ¬ E.NearEllipse) :
    ∃ A : SuperEllipse, A.IsEllipse ∧ A.solid ⊆ E.solid ∧ A.solid.Nonempty ∧ collides2 cgal collide A E = false := by
  obtain ⟨hr0, hr1⟩ := reach_lt hE
  set c : Fin 2 → ℝ := ![E.a * ((1 + reach E) / 2), 0] with hcdef
  have hci : E.implicit c < 1 := by
    have h1 : 2 / E.eps ≠ 0 := by have := hE.lo; positivity
    have h2 : 0 < 2 / E.eps := by have := hE.lo; positivity
    have : c 0 / E.a = (1 + reach E) / 2 := by
      simp only [hcdef, cons_val_zero]
      field_simp [hE.a.ne']
    have this' : c 1 / E.b = 0 := by simp [hcdef]
    simp only [SuperEllipse.implicit, this, this', abs_zero, Real.zero_rpow h1, add_zero]
    apply Real.rpow_lt_one (abs_nonneg _) _ h2
    rw [abs_of_pos (by linarith)]
    linarith
  set U : Set (Fin 2 → ℝ) := {p | E.implicit p < 1} ∩ {p | E.a * reach E < p 0}
  have hopen : IsOpen U := (isOpen_lt (SuperEllipse.implicit_continuous hE) continuous_const).inter
    (isOpen_lt continuous_const (continuous_apply 0))
  have hcU : c ∈ U := by
    refine ⟨hci, ?_⟩
    change E.a * reach E < E.a * ((1 + reach E) / 2)
    exact mul_lt_mul_of_pos_left (by linarith) hE.a
  obtain ⟨r, hr, hball⟩ := Metric.isOpen_iff.1 hopen c hcU
  have hr2 : 0 < r / 2 := by linarith
  have hin : ∀ p : Fin 2 → ℝ, (∀ i, |p i| ≤ r / 2) → c + p ∈ U := by
    intro p hp
    apply hball
    rw [Metric.mem_ball, dist_eq_norm, add_sub_cancel_left]
    refine lt_of_le_of_lt ((pi_norm_le_iff_of_nonneg hr2.le).2 fun i => ?_) (by linarith : r / 2 < r)
    rw [Real.norm_eq_abs]; exact hp i
  refine ⟨probe2 E c (r / 2), probe2_ok _ _ hr2, ?_, ?_, ?_⟩
  · intro x hx
    obtain ⟨p, hp, rfl⟩ := probe2_solid hr2 hx
    exact SuperEllipse.mem_solid.2 ⟨_, (hin p hp).1.le, rfl⟩
  · exact ⟨_, SuperEllipse.mem_solid.2 ⟨0, by simp [SuperEllipse.implicit, probe2], rfl⟩⟩
  · by_contra h
    rw [Bool.not_eq_false, collides2_iff cgal hf hn] at h
    obtain ⟨p, hp, hle⟩ := h
    obtain ⟨b0, b1⟩ := disc_small hr2 hle
    have hU := hin ![p 0 - c 0, p 1 - c 1] (by intro i; fin_cases i; exacts [b0, b1])
    have h1 : E.a * reach E < p 0 := by
      have := hU.2
      change E.a * reach E < (c + ![p 0 - c 0, p 1 - c 1]) 0 at this
      simpa using this
    have h2 := aux2_reach hE (mesh_in_hull hc hp)
    linarith

theorem third_trig : 49 / 100 ≤ Real.cos (capW / 3) ∧ 43 / 50 ≤ Real.sin (capW / 3) := by
  have hb := capW_bounds
  have hd : |capW / 3 - Real.pi / 3| ≤ 1 / 10 ^ 6 := by
    rw [abs_le]; constructor <;> linarith
  have h1 : |Real.cos (capW / 3) - Real.cos (Real.pi / 3)| ≤ 1 / 10 ^ 6 :=
    (Real.abs_cos_sub_cos_le _ _).trans hd
  have h2 : |Real.sin (capW / 3) - Real.sin (Real.pi / 3)| ≤ 1 / 10 ^ 6 :=
    (Real.abs_sin_sub_sin_le _ _).trans hd
  rw [Real.cos_pi_div_three] at h1
  rw [Real.sin_pi_div_three] at h2
  rw [abs_le] at h1 h2
  have h3 : (173 / 100 : ℝ) ≤ Real.sqrt 3 := by
    apply Real.le_sqrt_of_sq_le; norm_num
  constructor
  · linarith [h1.1]
  · linarith [h2.1]

theorem rpow_prod {x y e : ℝ} (hx : 0 < x) (hy : 0 < y) (he : 0 < e) :
    (x ^ e * y ^ (1 / 10 : ℝ)) ^ (2 / e) = x ^ 2 * y ^ (1 / 10 * (2 / e)) := by
  rw [Real.mul_rpow (Real.rpow_nonneg hx.le _) (Real.rpow_nonneg hy.le _), ← Real.rpow_mul hx.le, ← Real.rpow_mul hy.le]
  have : e * (2 / e) = 2 := by field_simp
  rw [this, Real.rpow_two]

/-- **C83, false alarms in the plane.** For every obstacle of exponent at least one half that is not treated as an
ellipse there are discs without a common point with it that are reported to collide: the solid built for it has the
exponents in the wrong order, so that its outline is almost a rectangle. -/
theorem C83_planar_false_alarm {cgal : List (Fin 3 → ℝ) → Cells} (hc : CgalOk cgal)
    {collide : Geom → Pose 3 → Geom → Pose 3 → Bool} (hf : FclExact collide) {E : SuperEllipse} (hE : E.Ok)
    (hn : ¬ E.NearEllipse) (hexp : 1 / 2 ≤ E.eps) :
    ∃ A : SuperEllipse, A.IsEllipse ∧ Disjoint A.solid E.solid ∧ collides2 cgal collide A E = true := by
  obtain ⟨hC, hC1⟩ := cos_ninth
  obtain ⟨hU, hW⟩ := third_trig
  have hC0 : 0 < Real.cos (capH / 9) := by linarith
  have hU0 : 0 < Real.cos (capW / 3) := by linarith
  have hW0 : 0 < Real.sin (capW / 3) := by linarith
  set v : Fin 3 → ℝ := E.aux.originPoint (E.aux.eta 5, E.aux.omega 6) with hv
  have hvm : v ∈ E.aux.originShape := sample_mem E.aux (i := 6) (j := 5) (by norm_num [SuperEllipse.aux])
    (by norm_num [SuperEllipse.aux])
  have e5 : E.aux.eta 5 = capH / 9 := by rw [aux2_eta]; push_cast; ring
  have o6 : E.aux.omega 6 = capW / 3 := by rw [aux2_omega]; push_cast; ring
  have hv0 : v 0 = E.a * ((Real.cos (capH / 9)) ^ E.eps * (Real.cos (capW / 3)) ^ (1 / 10 : ℝ)) := by
    rw [hv, ← aux2_aux, aux_originPoint]
    change E.a * (expFun (E.aux.eta 5) E.eps false * expFun (E.aux.omega 6) (1 / 10) false) = _
    rw [e5, o6, expFun_spow, expFun_spow]
    simp only [sc, Bool.false_eq_true, if_false]
    rw [spow_pos hC0, spow_pos hU0]
  have hv1 : v 1 = E.b * ((Real.cos (capH / 9)) ^ E.eps * (Real.sin (capW / 3)) ^ (1 / 10 : ℝ)) := by
    rw [hv, ← aux2_aux, aux_originPoint]
    change E.b * (expFun (E.aux.eta 5) E.eps false * expFun (E.aux.omega 6) (1 / 10) true) = _
    rw [e5, o6, expFun_spow, expFun_spow]
    simp only [sc, Bool.false_eq_true, if_false, if_true]
    rw [spow_pos hC0, spow_pos hW0]
  have hv2 : |v 2 / (1 / 10)| ≤ 1 := by
    have : v 2 / (1 / 10) = expFun (E.aux.eta 5) E.eps true := by
      rw [hv, ← aux2_aux, aux_originPoint]
      change 1 / 10 * expFun (E.aux.eta 5) E.eps true / (1 / 10) = expFun (E.aux.eta 5) E.eps true
      ring
    rw [this, abs_expFun _ hE.lo]
    exact Real.rpow_le_one (abs_nonneg _) (by simpa [sc] using Real.abs_sin_le_one _) hE.lo.le
  set c : Fin 2 → ℝ := ![v 0, v 1] with hcdef
  have hout : 1 < E.implicit c := by
    have q0 : c 0 / E.a = (Real.cos (capH / 9)) ^ E.eps * (Real.cos (capW / 3)) ^ (1 / 10 : ℝ) := by
      simp only [hcdef, cons_val_zero, hv0]
      field_simp [hE.a.ne']
    have q1 : c 1 / E.b = (Real.cos (capH / 9)) ^ E.eps * (Real.sin (capW / 3)) ^ (1 / 10 : ℝ) := by
      simp only [hcdef, cons_val_one, hv1]
      change E.b * _ / E.b = _
      field_simp [hE.b.ne']
    have p0 : 0 < (Real.cos (capH / 9)) ^ E.eps * (Real.cos (capW / 3)) ^ (1 / 10 : ℝ) :=
      mul_pos (Real.rpow_pos_of_pos hC0 _) (Real.rpow_pos_of_pos hU0 _)
    have p1 : 0 < (Real.cos (capH / 9)) ^ E.eps * (Real.sin (capW / 3)) ^ (1 / 10 : ℝ) :=
      mul_pos (Real.rpow_pos_of_pos hC0 _) (Real.rpow_pos_of_pos hW0 _)
    rw [SuperEllipse.implicit, q0, q1, abs_of_pos p0, abs_of_pos p1, rpow_prod hC0 hU0 hE.lo,
      rpow_prod hC0 hW0 hE.lo]
    have hex : 1 / 10 * (2 / E.eps) ≤ 1 / 2 := by
      have : 2 / E.eps ≤ 4 := by rw [div_le_iff₀ hE.lo]; linarith
      linarith
    have b0 : (7 / 10 : ℝ) ≤ (Real.cos (capW / 3)) ^ (1 / 10 * (2 / E.eps)) := by
      calc (7 / 10 : ℝ) = (49 / 100 : ℝ) ^ (1 / 2 : ℝ) := by
            rw [← Real.sqrt_eq_rpow]
            symm
            rw [Real.sqrt_eq_iff_mul_self_eq (by norm_num) (by norm_num)]
            norm_num
        _ ≤ (Real.cos (capW / 3)) ^ (1 / 2 : ℝ) := Real.rpow_le_rpow (by norm_num) hU (by norm_num)
        _ ≤ _ := Real.rpow_le_rpow_of_exponent_ge hU0 (Real.cos_le_one _) hex
    have b1 : (43 / 50 : ℝ) ≤ (Real.sin (capW / 3)) ^ (1 / 10 * (2 / E.eps)) := by
      calc (43 / 50 : ℝ) ≤ (Real.sin (capW / 3)) ^ (1 : ℝ) := by rw [Real.rpow_one]; exact hW
        _ ≤ _ := Real.rpow_le_rpow_of_exponent_ge hW0 (Real.sin_le_one _) (by linarith)
    have hsq : (24 / 25 : ℝ) ≤ Real.cos (capH / 9) ^ 2 := by nlinarith
    nlinarith
  have hopen : IsOpen {p | 1 < E.implicit p} := isOpen_lt continuous_const (SuperEllipse.implicit_continuous hE)
  obtain ⟨r, hr, hball⟩ := Metric.isOpen_iff.1 hopen c hout
  have hr2 : 0 < r / 2 := by linarith
  have hin : ∀ p : Fin 2 → ℝ, (∀ i, |p i| ≤ r / 2) → 1 < E.implicit (c + p) := by
    intro p hp
    apply hball
    rw [Metric.mem_ball, dist_eq_norm, add_sub_cancel_left]
    refine lt_of_le_of_lt ((pi_norm_le_iff_of_nonneg hr2.le).2 fun i => ?_) (by linarith : r / 2 < r)
    rw [Real.norm_eq_abs]; exact hp i
  refine ⟨probe2 E c (r / 2), probe2_ok _ _ hr2, ?_, ?_⟩
  · rw [Set.disjoint_left]
    intro x hx hxE
    obtain ⟨p, hp, rfl⟩ := probe2_solid hr2 hx
    obtain ⟨q, hq, e⟩ := SuperEllipse.mem_solid.1 hxE
    have := SuperEllipse.out_inj e
    have h1 := hin p hp
    rw [this] at h1
    linarith
  · by_contra hno
    rw [collides2_iff cgal hf hn] at hno
    set B : Set (Fin 3 → ℝ) := {p | ((p 0 - c 0) / (r / 2)) ^ 2 + ((p 1 - c 1) / (r / 2)) ^ 2 + (p 2 / (1 / 10)) ^ 2 ≤ 1}
      with hB
    have hconv : Convex ℝ B := by
      intro p hp q hq s t hs ht hst
      have key : ∀ x y : ℝ, (s * x + t * y) ^ 2 ≤ s * x ^ 2 + t * y ^ 2 := by
        intro x y
        have : s * x ^ 2 + t * y ^ 2 - (s * x + t * y) ^ 2 = s * t * (x - y) ^ 2 := by
          have : t = 1 - s := by linarith
          subst this; ring
        nlinarith [mul_nonneg (mul_nonneg hs ht) (sq_nonneg (x - y))]
      simp only [hB, Set.mem_ofPred_eq, Pi.add_apply, Pi.smul_apply, smul_eq_mul] at hp hq ⊢
      have f0 : (s * p 0 + t * q 0 - c 0) / (r / 2) = s * ((p 0 - c 0) / (r / 2)) + t * ((q 0 - c 0) / (r / 2)) := by
        have : c 0 = s * c 0 + t * c 0 := by rw [← add_mul, hst, one_mul]
        nth_rewrite 1 [this]; ring
      have f1 : (s * p 1 + t * q 1 - c 1) / (r / 2) = s * ((p 1 - c 1) / (r / 2)) + t * ((q 1 - c 1) / (r / 2)) := by
        have : c 1 = s * c 1 + t * c 1 := by rw [← add_mul, hst, one_mul]
        nth_rewrite 1 [this]; ring
      have f2 : (s * p 2 + t * q 2) / (1 / 10) = s * (p 2 / (1 / 10)) + t * (q 2 / (1 / 10)) := by ring
      rw [f0, f1, f2]
      have g0 := key ((p 0 - c 0) / (r / 2)) ((q 0 - c 0) / (r / 2))
      have g1 := key ((p 1 - c 1) / (r / 2)) ((q 1 - c 1) / (r / 2))
      have g2 := key (p 2 / (1 / 10)) (q 2 / (1 / 10))
      nlinarith
    have hmiss : B ∩ (Geom.mesh (getMesh cgal E.aux.originShape)).shape = ∅ := by
      rw [Set.eq_empty_iff_forall_notMem]
      rintro p ⟨h1, h2⟩
      exact hno ⟨p, h2, h1⟩
    have hsp : ¬ Coplanar E.aux.originShape := by
      have := samples_spatial (aux2_ok hE) (by norm_num [SuperEllipse.aux])
      rwa [aux2_aux] at this
    have hc0 : c 0 = v 0 := rfl
    have hc1 : c 1 = v 1 := rfl
    rcases mesh_missed hc hsp hconv hmiss with h0 | ⟨p, hp, q, hq, u, hu, w, hw, hsub⟩
    · rw [Set.eq_empty_iff_forall_notMem] at h0
      refine h0 v ⟨?_, subset_convexHull ℝ _ hvm⟩
      simp only [hB, Set.mem_ofPred_eq, hc0, hc1, sub_self, zero_div]
      have := (sq_le_one_iff_abs_le_one _).2 hv2
      linarith
    · have htop : (![v 0, v 1, 1 / 10] : Fin 3 → ℝ) ∈ B := by
        simp [hB, hc0, hc1]
      have hm : (![v 0, v 1, 1 / 10] : Fin 3 → ℝ) ∈ convexHull ℝ {p | p ∈ E.aux.originShape} := by
        refine convexHull_mono ?_ (hsub htop)
        intro y hy
        simp only [Set.mem_insert_iff, Set.mem_singleton_iff] at hy
        rcases hy with rfl | rfl | rfl | rfl <;> assumption
      have := aux2_height hE hm
      simp at this

/-- The claim in the plane. -/
def C83_plane_claim (cgal : List (Fin 3 → ℝ) → Cells) (collide : Geom → Pose 3 → Geom → Pose 3 → Bool) : Prop :=
  ∀ A E : SuperEllipse, A.IsEllipse → E.Ok → ¬ E.NearEllipse →
    (collides2 cgal collide A E = true ↔ (A.solid ∩ E.solid).Nonempty)

/-- A superellipse that is not an ellipse. -/
noncomputable def exBlock : SuperEllipse := ⟨3, 2, 3 / 2, 1, 1, 1 / 2, 10⟩

theorem exBlock_ok : exBlock.Ok := ⟨by norm_num [exBlock], by norm_num [exBlock], by norm_num [exBlock],
  by norm_num [exBlock]⟩

theorem exBlock_block : ¬ exBlock.NearEllipse := by
  unfold SuperEllipse.NearEllipse
  norm_num [exBlock, abs_of_pos]

/-- C83 in the plane is false of the program, in both directions, for every library meeting the contracts. -/
theorem C83_plane_refuted {cgal : List (Fin 3 → ℝ) → Cells} (hc : CgalOk cgal)
    {collide : Geom → Pose 3 → Geom → Pose 3 → Bool} (hf : FclExact collide) : ¬ C83_plane_claim cgal collide := by
  intro h
  obtain ⟨A, hA, hd, ht⟩ := C83_planar_false_alarm hc hf exBlock_ok exBlock_block (by norm_num [exBlock])
  obtain ⟨x, h1, h2⟩ := (h A exBlock hA exBlock_ok exBlock_block).1 ht
  exact Set.disjoint_left.1 hd h1 h2

/-! ## The contracts on which C57 rests -/

/-- The collision test as `OMPL3D` uses it is exact for ellipsoidal bodies and obstacles. -/
theorem fclExact3_ellipsoids (cgal : List (Fin 3 → ℝ) → Cells) {collide : Geom → Pose 3 → Geom → Pose 3 → Bool}
    (hf : FclExact collide) {bodies : List SuperQuadrics} (hb : ∀ A ∈ bodies, A.e1 = 1 ∧ A.e2 = 1) {ob : SuperQuadrics}
    (h1 : ob.e1 = 1) (h2 : ob.e2 = 1) :
    FclExact3 (isCollision3 collide) robotObject3 (obstacleObject3 cgal) bodies ob := by
  intro A A0 hA0 hs
  obtain ⟨s1, s2, s3, s4, s5, -⟩ := hs
  obtain ⟨a1, a2⟩ := hb A0 hA0
  rw [obstacleObject3_eq, ← Bool.not_eq_true, Set.disjoint_iff_inter_eq_empty, ← Set.not_nonempty_iff_eq_empty, not_iff_not]
  unfold isCollision3
  rw [hf, ← object_at_one (cgal := cgal) h1 h2, ← ellipsoid_at (Q0 := A0) (s4.trans a1) (s5.trans a2) s1 s2 s3]
  rfl

/-- **C83, sampling planner in space.** With ellipsoidal bodies and obstacles, any history of the robot and any number
of calls of `setup`: a state is declared valid exactly if no body moved to it touches an obstacle. -/
theorem C83_states_exact (cgal : List (Fin 3 → ℝ) → Cells) {collide : Geom → Pose 3 → Geom → Pose 3 → Bool}
    (hf : FclExact collide) (base : SuperQuadrics) (ops : List (RobotOp SuperQuadrics 3)) (hops : RigidOps3 ops)
    (obstacles : List SuperQuadrics) (hb : ∀ A ∈ base :: addedBodies ops, A.e1 = 1 ∧ A.e2 = 1)
    (ho : ∀ ob ∈ obstacles, ob.e1 = 1 ∧ ob.e2 = 1) (n : ℕ) :
    ∃ T O, Tree3.run ops (Tree3.new base) = .ok T ∧
      Ompl3.setups robotObject3 (obstacleObject3 cgal) (n + 1) (Ompl3.new T obstacles) = .ok O ∧
      ∀ (p : Fin 3 → ℝ) (q : Quat), q.Unit → ∃ b : Bool, O.isStateValid (isCollision3 collide) p q = .ok b ∧
        (b = true ↔ ∀ ob ∈ obstacles, Disjoint (base.placed (quatRot q) p) ob.solid ∧
          ∀ l ∈ addedBodies ops, Disjoint (l.carried ⟨quatRot q, p⟩) ob.solid) :=
  C57_space (fun A B h => by simp [robotObject3, h.1, h.2.1, h.2.2.1]) base ops hops obstacles
    (fun ob hob => fclExact3_ellipsoids cgal hf hb (ho ob hob).1 (ho ob hob).2) n

/-- **C83, rejected states.** With ellipsoidal bodies and any superquadric obstacles: a state declared invalid is one
in which some body touches some obstacle. -/
theorem C83_rejections_real {cgal : List (Fin 3 → ℝ) → Cells} (hc : CgalOk cgal)
    {collide : Geom → Pose 3 → Geom → Pose 3 → Bool}
    (hf : FclExact collide) (base : SuperQuadrics) (ops : List (RobotOp SuperQuadrics 3)) (hops : RigidOps3 ops)
    (obstacles : List SuperQuadrics) (hb : ∀ A ∈ base :: addedBodies ops, A.e1 = 1 ∧ A.e2 = 1)
    (ho : ∀ ob ∈ obstacles, ob.Ok ∧ ob.ClearExponents) (n : ℕ) :
    ∃ T O, Tree3.run ops (Tree3.new base) = .ok T ∧
      Ompl3.setups robotObject3 (obstacleObject3 cgal) (n + 1) (Ompl3.new T obstacles) = .ok O ∧
      ∀ (p : Fin 3 → ℝ) (q : Quat), q.Unit → ∃ b : Bool, O.isStateValid (isCollision3 collide) p q = .ok b ∧
        (b = false → ∃ ob ∈ obstacles, (base.placed (quatRot q) p ∩ ob.solid).Nonempty ∨
          ∃ l ∈ addedBodies ops, (l.carried ⟨quatRot q, p⟩ ∩ ob.solid).Nonempty) := by
  obtain ⟨T, O, h1, h2, h⟩ := C57_space_tests (isCollision3 collide) robotObject3 (obstacleObject3 cgal)
    (fun A B h => by simp [robotObject3, h.1, h.2.1, h.2.2.1]) base ops hops obstacles n
  refine ⟨T, O, h1, h2, ?_⟩
  intro p q hq
  obtain ⟨B, b, hv, hlen, hB0, hBs, hiff⟩ := h p q hq
  refine ⟨b, hv, ?_⟩
  intro hfalse
  have hnot : ¬ ∀ ob ∈ obstacles, ∀ (i : ℕ) (A A0 : SuperQuadrics), B[i]? = some A →
      (base :: addedBodies ops)[i]? = some A0 → isCollision3 collide A (robotObject3 A0) ob (obstacleObject3 cgal ob) = false := by
    intro hall
    rw [hiff.2 hall] at hfalse
    cases hfalse
  push Not at hnot
  obtain ⟨ob, hob, i, A, A0, hA, hA0, ht⟩ := hnot
  have ht : isCollision3 collide A (robotObject3 A0) ob (obstacleObject3 cgal ob) = true := by simpa using ht
  have hsame : A.Same A0 := by
    cases i with
    | zero =>
      obtain rfl : base = A0 := by simpa using hA0
      exact (hB0 A hA).1
    | succ j => exact (hBs j A A0 hA (by simpa using hA0)).1
  obtain ⟨s1, s2, s3, s4, s5, -⟩ := hsame
  obtain ⟨a1, a2⟩ := hb A0 (List.mem_of_getElem? hA0)
  unfold isCollision3 at ht
  rw [hf, obstacleObject3_eq] at ht
  obtain ⟨x, hx1, hx2⟩ := ht
  have hx1' : x ∈ A.solid := by
    rw [← ellipsoid_at (Q0 := A0) (s4.trans a1) (s5.trans a2) s1 s2 s3]; exact hx1
  have hx2' : x ∈ ob.solid := object_at_sub hc (ho ob hob).1 (ho ob hob).2 hx2
  refine ⟨ob, hob, ?_⟩
  cases i with
  | zero =>
    left
    rw [← (hB0 A hA).2]
    exact ⟨x, hx1', hx2'⟩
  | succ j =>
    right
    have hA0' : (addedBodies ops)[j]? = some A0 := by simpa using hA0
    refine ⟨A0, List.mem_of_getElem? hA0', ?_⟩
    rw [← (hBs j A A0 hA hA0').2]
    exact ⟨x, hx1', hx2'⟩

/-- For an obstacle that is not treated as an ellipsoid the demand of C57 is never met. -/
theorem C83_C57_space_hypothesis (cgal : List (Fin 3 → ℝ) → Cells) {collide : Geom → Pose 3 → Geom → Pose 3 → Bool}
    (hf : FclExact collide) {ob : SuperQuadrics} (hob : ob.Ok) (hn : ¬ ob.NearEllipsoid) :
    ∃ A : SuperQuadrics, A.e1 = 1 ∧ A.e2 = 1 ∧
      ¬ FclExact3 (isCollision3 collide) robotObject3 (obstacleObject3 cgal) [A] ob := by
  obtain ⟨A, hA, h1, h2, hsub, hne, ht⟩ := C83_swallowed cgal hf hob hn
  refine ⟨A, h1, h2, ?_⟩
  intro h
  have := (h A A (by simp) ⟨rfl, rfl, rfl, rfl, rfl, rfl⟩).1 (by
    rw [obstacleObject3_eq]
    unfold collides3 at ht
    rw [object_ell (near_one h1 h2)] at ht
    exact ht)
  exact Set.disjoint_left.1 this hne.some_mem (hsub hne.some_mem)

/-- In the plane neither demand of C57 on the collision library is met for the obstacles that are given to it. -/
theorem C83_C57_plane_hypotheses {cgal : List (Fin 3 → ℝ) → Cells} (hc : CgalOk cgal)
    {collide : Geom → Pose 3 → Geom → Pose 3 → Bool} (hf : FclExact collide) {ob : SuperEllipse} (hob : ob.Ok)
    (hn : ¬ ob.NearEllipse) :
    ¬ FclSound2 (isCollision2 collide) (collisionObject2 cgal) ob ∧
    (1 / 2 ≤ ob.eps → ¬ FclComplete2 (isCollision2 collide) (collisionObject2 cgal) ob) := by
  constructor
  · intro h
    obtain ⟨A, hA, hsub, hne, ht⟩ := C83_planar_missed hc hf hob hn
    exact Set.disjoint_left.1 (h A A hA ⟨rfl, rfl, rfl, rfl⟩ ht) hne.some_mem (hsub hne.some_mem)
  · intro he h
    obtain ⟨A, hA, hd, ht⟩ := C83_planar_false_alarm hc hf hob hn he
    have := h A A hA ⟨rfl, rfl, rfl, rfl⟩ hd
    unfold collides2 at ht
    rw [this] at ht
    cases ht

/-! ## The contracts can be met, and concrete cases -/

example : CgalOk allCells ∧ FclExact idealCollide := ⟨cgalOk_allCells, fclExact_ideal⟩

theorem exQuadric_block : ¬ exQuadric.NearEllipsoid := by
  rintro ⟨h1, -⟩
  norm_num [exQuadric, abs_of_neg] at h1

theorem implicit_first {Q : SuperQuadrics} (h : Q.Ok) {p : Fin 3 → ℝ} (hp : Q.implicit p ≤ 1) : |p 0 / Q.a| ≤ 1 := by
  by_contra hlt
  rw [not_le] at hlt
  have h1 : 0 < 2 / Q.e2 := by have := h.lo2; positivity
  have h2 : 0 < Q.e2 / Q.e1 := by have := h.lo2; have := h.lo1; positivity
  have s1 : 1 < |p 0 / Q.a| ^ (2 / Q.e2) := Real.one_lt_rpow hlt h1
  have s2 : 0 ≤ |p 1 / Q.b| ^ (2 / Q.e2) := Real.rpow_nonneg (abs_nonneg _) _
  have s3 := Real.one_lt_rpow (show 1 < |p 0 / Q.a| ^ (2 / Q.e2) + |p 1 / Q.b| ^ (2 / Q.e2) by linarith) h2
  have s4 : 0 ≤ |p 2 / Q.c| ^ (2 / Q.e1) := Real.rpow_nonneg (abs_nonneg _) _
  unfold SuperQuadrics.implicit at hp
  linarith

/-- An ellipsoid far away from `exQuadric`. -/
noncomputable def exFar : SuperQuadrics := ⟨1, 1, 1, 1, 1, ![100, 0, 0], (1, 0, 0, 0), 10⟩

theorem exFar_ok : exFar.Ok := by constructor <;> norm_num [exFar]

theorem exFar_first {x : Fin 3 → ℝ} (hx : x ∈ exFar.solid) : 99 ≤ x 0 := by
  obtain ⟨_, ⟨p, hp, rfl⟩, rfl⟩ := hx
  have := implicit_first exFar_ok hp
  rw [abs_le] at this
  simp only [exFar, div_one] at this
  simp only [Pi.add_apply, mulVec, dotProduct, Fin.sum_univ_three, quatRot, exFar]
  simp
  linarith [this.1]

theorem exQuadric_first {x : Fin 3 → ℝ} (hx : x ∈ exQuadric.solid) : x 0 ≤ 3 := by
  obtain ⟨_, ⟨p, hp, rfl⟩, rfl⟩ := hx
  have := implicit_first exQuadric_ok hp
  rw [abs_le] at this
  simp only [exQuadric] at this
  simp only [Pi.add_apply, mulVec, dotProduct, Fin.sum_univ_three, quatRot, exQuadric]
  simp
  linarith [this.2]

/-- The ellipsoid far away is not inside the obstacle and is not reported: the hypotheses of
`C83_not_swallowed_partial` (and of `C83_missed_partial`) are met. -/
theorem exFar_case : ¬ exFar.solid ⊆ exQuadric.solid ∧ collides3 allCells idealCollide exFar exQuadric = false := by
  have hne : exFar.solid.Nonempty := ⟨_, _, ⟨0, (implicit_origin exFar_ok).le, rfl⟩, rfl⟩
  constructor
  · intro h
    linarith [exFar_first hne.some_mem, exQuadric_first (h hne.some_mem)]
  · by_contra h
    rw [Bool.not_eq_false] at h
    obtain ⟨x, h1, h2⟩ := C83_no_false_alarm cgalOk_allCells fclExact_ideal exFar_ok exQuadric_ok
      (fun _ => ⟨rfl, rfl⟩) (fun hx => absurd hx exQuadric_block) h
    linarith [exFar_first h1, exQuadric_first h2]

example : Disjoint exFar.solid (convexHull ℝ {p | p ∈ exQuadric.originShape}) :=
  C83_not_swallowed_partial cgalOk_allCells fclExact_ideal exFar_ok rfl rfl exQuadric_ok exQuadric_block
    (by norm_num [exQuadric]) exFar_case.1 exFar_case.2

example : collides3 allCells idealCollide exEllipsoid exEllipsoid = true := by
  rw [C83_ellipsoids_exact _ fclExact_ideal _ _ rfl rfl rfl rfl, Set.inter_self]
  exact ⟨_, _, ⟨0, (implicit_origin exEllipsoid_ok).le, rfl⟩, rfl⟩

example : ¬ C83_claim allCells idealCollide := C83_refuted _ _ fclExact_ideal
example : ¬ C83_plane_claim allCells idealCollide := C83_plane_refuted cgalOk_allCells fclExact_ideal

end Hrm
