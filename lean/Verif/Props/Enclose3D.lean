import Verif.Props.ProbCheck

/-!
# C79 – the bodies of a rigid spatial robot stay in their ellipsoids
-/

namespace Hrm

open Matrix

theorem Quat.dot_mul {p q l : Quat} (hl : l.Unit) : Quat.dot (Quat.mul p l) (Quat.mul q l) = Quat.dot p q := by
  obtain ⟨a, b, c, d⟩ := p
  obtain ⟨a', b', c', d'⟩ := q
  obtain ⟨e, f, g, h⟩ := l
  simp only [Quat.Unit, Quat.mul, Quat.dot] at *
  linear_combination (a * a' + b * b' + c * c' + d * d') * hl

theorem slerp_mul {p q l : Quat} (hl : l.Unit) (t : ℝ) :
    slerp (Quat.mul p l) t (Quat.mul q l) = Quat.mul (slerp p t q) l := by
  unfold slerp
  rw [Quat.dot_mul hl]
  dsimp only
  generalize (if slerpOne ≤ |Quat.dot p q| then (1 - t, t) else _ : ℝ × ℝ) = s
  generalize (if Quat.dot p q < 0 then -s.2 else s.2) = r
  obtain ⟨a, b, c, d⟩ := p
  obtain ⟨a', b', c', d'⟩ := q
  obtain ⟨e, f, g, h⟩ := l
  simp only [Quat.mul, Quat.comb, Prod.mk.injEq]
  refine ⟨?_, ?_, ?_, ?_⟩ <;> ring

/-- Interpolating the orientations of a body attached with orientation `l` is interpolating those of the base. -/
theorem slerp_attached {p q l : Quat} (hp : p.Unit) (hq : q.Unit) (hl : l.Unit) (hd : Quat.dot p q ≠ 0)
    (hfar : |Quat.dot p q| < 1 - 1 / 2 ^ 52 ∨ |Quat.dot p q| = 1) (t : ℝ) :
    quatRot (slerp (matQuat (quatRot p * quatRot l)) t (matQuat (quatRot q * quatRot l))) =
      quatRot (slerp p t q) * quatRot l := by
  rw [quatRot_mul hp hl, quatRot_mul hq hl, quatRot_mul (slerp_unit hp hq hfar t) hl, ← slerp_mul hl]
  refine quatRot_same (slerp_same (sameRotation_matQuat (hp.mul hl)) (sameRotation_matQuat (hq.mul hl))
    (Or.inl ?_) t)
  rw [Quat.dot_mul hl]; exact hd

theorem abs_dot_same {p q p' q' : Quat} (hp : SameRotation p' p) (hq : SameRotation q' q) :
    |Quat.dot p' q'| = |Quat.dot p q| := by
  rcases hp with rfl | rfl <;> rcases hq with rfl | rfl
  · rfl
  · rw [← abs_neg]; congr 1; simp only [Quat.dot]; ring
  · rw [← abs_neg]; congr 1; simp only [Quat.dot]; ring
  · congr 1; simp only [Quat.dot]; ring

theorem getTFE3D_pos {svd : SvdFun 3} {a : Fin 3 → ℝ} {qA qB : Quat} {np num : ℕ} {E : SuperQuadrics}
    (h : getTFE3D svd a qA qB np num = .ok E) : E.pos = 0 := by
  unfold getTFE3D at h
  have key : ∀ (l : List ℕ) (F : SuperQuadrics), F.pos = 0 →
      l.foldlM (fun (E : SuperQuadrics) i =>
        (Res.at' (interpolateSlerp qA qB np) i).bind fun q =>
        match q with
        | some q => .ok (getMVCE3D svd a ![E.a, E.b, E.c] q E.quat num)
        | none => .ub) F = (.ok E : Res SuperQuadrics) → E.pos = 0 := by
    intro l
    induction l with
    | nil => intro F hF h; obtain rfl := (Res.ok.injEq _ _).mp h; exact hF
    | cons i l ih =>
      intro F hF h
      rw [List.foldlM_cons] at h
      obtain ⟨G, h1, h⟩ := Res.bind_eq_ok.1 h
      refine ih G ?_ h
      obtain ⟨q, -, h1⟩ := Res.bind_eq_ok.1 h1
      cases q with
      | none => simp at h1
      | some q => obtain rfl := (Res.ok.injEq _ _).mp h1; rfl
  exact key _ _ rfl h

theorem solid0_quat {m : SuperQuadrics} {a : Fin 3 → ℝ} {q : Quat} (ha : a = ![m.a, m.b, m.c]) (h1 : m.e1 = 1) (h2 : m.e2 = 1)
    (hq : quatRot m.quat = quatRot q) : m.solid0 = (ellipsoid3 a q).solid0 := by
  subst ha
  rw [← solid0_ellipsoid3 h1 h2]
  unfold SuperQuadrics.solid0 ellipsoid3 SuperQuadrics.implicit
  dsimp only
  rw [hq]

/-- The ellipsoid of a turning body contains the body at each step of the turn. -/
theorem tfe3D_step {svd : SvdFun 3} (hs : SvdOk svd) (hdet : ∀ M, SymPos M → (svd M).u.det = 1) {m : SuperQuadrics}
    (hm : 0 < m.a ∧ 0 < m.b ∧ 0 < m.c) (h1 : m.e1 = 1) (h2 : m.e2 = 1) {qA qB : Quat} (hA : qA.Unit) (hB : qB.Unit)
    (hfar : |Quat.dot qA qB| < 1 - 1 / 2 ^ 52 ∨ |Quat.dot qA qB| = 1) {np num k : ℕ} (hnp : 1 ≤ np) (hk : k ≤ np)
    {E : SuperQuadrics} (hE : getTFE3D svd ![m.a, m.b, m.c] qA qB np num = .ok E)
    (hq : quatRot m.quat = quatRot (slerp qA ((k : ℝ) * (1 / (np : ℝ))) qB)) : m.solid0 ⊆ E.solid0 := by
  obtain ⟨F, e, c1, c2, c3⟩ := C45_tfe3D_partial svd hs hdet ![m.a, m.b, m.c]
    (fun i => by fin_cases i; exacts [hm.1, hm.2.1, hm.2.2]) qA qB hA hB hfar np num
  rw [hE] at e
  obtain rfl := (Res.ok.injEq _ _).mp e
  rw [solid_of_pos0 (getTFE3D_pos hE), solid_of_pos0 (m := ellipsoid3 _ _) rfl] at c1 c2
  have hn : (np : ℝ) ≠ 0 := by positivity
  rcases Nat.eq_zero_or_pos k with rfl | h0
  · rw [solid0_quat rfl h1 h2 (q := qA) (by rw [hq]; simp [slerp_zero])]
    exact c1
  · rcases Nat.lt_or_ge k np with h | h
    · have := c3 k h0 h
      rw [solid_of_pos0 (getTFE3D_pos hE), solid_of_pos0 (m := ellipsoid3 _ _) rfl] at this
      rw [solid0_quat rfl h1 h2 hq, mul_one_div]
      exact this
    · obtain rfl : k = np := le_antisymm hk h
      rw [solid0_quat rfl h1 h2 (q := qB) (by rw [hq, mul_one_div_cancel hn]; exact quatRot_same (slerp_one _ _))]
      exact c2

/-- C79 (spatial planners, rigid robots), what the ellipsoids are good for: let `v` and `w` be configurations with the
orientations `qa` and `qb` of two slices (up to the sign of the quaternion). At every step of the motion from `v` to `w`,
and of the motion from `w` to `v` (which is the one the planner checks with the ellipsoids made for `qa`, `qb`), the base lies in its ellipsoid centred where the base is, and every other body in its ellipsoid centred where that body
is. Missing: a singular value decomposition with a reflection (C45), slices whose orientations are within `2e-8` of each
other without being equal, and slices exactly half a turn apart. -/
theorem C79_spatial_enclosed_partial (L : Libs3) (hs : SvdOk L.svd) (hdet : ∀ M, SymPos M → (L.svd M).u.det = 1)
    (base : SuperQuadrics) (hb : base.Ok) (b1 : base.e1 = 1) (b2 : base.e2 = 1)
    (added : List SuperQuadrics) (ha : ∀ l ∈ added, l.Ok ∧ l.e1 = 1 ∧ l.e2 = 1) (np : ℕ) (hnp : 1 ≤ np)
    (qa qb : Quat) (hqa : qa.Unit) (hqb : qb.Unit)
    (hfar : |Quat.dot qa qb| < 1 - 1 / 2 ^ 52 ∨ |Quat.dot qa qb| = 1) (hd : Quat.dot qa qb ≠ 0)
    (v w : Vec) (lv : 7 ≤ v.length) (lw : v.length = w.length)
    (hva : SameRotation (quatPart v) qa) (hwb : SameRotation (quatPart w) qb)
    (steps : List Vec) (hsteps : interpolateCompound v w np = .ok (steps.map (·.map some)) ∨
      interpolateCompound w v np = .ok (steps.map (·.map some))) :
    ∀ u ∈ steps,
      (∀ E, getTFE3D L.svd ![base.a, base.b, base.c] qa qb np base.num = .ok E →
        (bodyAt base (posPart u) (quatPart u)).solid ⊆ (bodyAt E (posPart u) E.quat).solid) ∧
      ∀ l ∈ added, ∀ E, EnclosesLink L np qa qb l E →
        (bodyAt l (centreAt3 l u) (matQuat (quatRot (quatPart u) * quatRot l.quat))).solid ⊆
          (bodyAt E (centreAt3 l u) E.quat).solid := by
  have hst : ∀ u ∈ steps, ∃ k ≤ np, quatRot (quatPart u) = quatRot (slerp qa ((k : ℝ) * (1 / (np : ℝ))) qb) := by
    intro u hu
    rcases hsteps with hsteps | hsteps
    · rw [interp_steps lv lw hnp] at hsteps
      obtain rfl := map_some_inj ((Res.ok.injEq _ _).mp hsteps)
      obtain ⟨k, hk, rfl⟩ := List.mem_map.1 hu
      rw [List.mem_range] at hk
      refine ⟨k, by omega, ?_⟩
      rw [quatPart_compVec]
      exact quatRot_same (slerp_same hva hwb (Or.inl hd) _)
    · rw [interp_steps (by omega) lw.symm hnp] at hsteps
      obtain rfl := map_some_inj ((Res.ok.injEq _ _).mp hsteps)
      obtain ⟨k, hk, rfl⟩ := List.mem_map.1 hu
      rw [List.mem_range] at hk
      refine ⟨np - k, by omega, ?_⟩
      rw [quatRot_same (compVec_rev lw hnp (by omega)).2.1, quatPart_compVec]
      exact quatRot_same (slerp_same hva hwb (Or.inl hd) _)
  intro u hu
  obtain ⟨k, hk, hrot⟩ := hst u hu
  refine ⟨fun E hE => ?_, fun l hl E hE => ?_⟩
  · refine solid_placed (body := bodyAt base _ _) ?_
    exact tfe3D_step (m := bodyAt base _ (quatPart u)) hs hdet ⟨hb.a, hb.b, hb.c⟩ b1 b2 hqa hqb hfar hnp
      hk hE hrot
  · refine solid_placed (body := bodyAt l _ _) ?_
    obtain ⟨l1, l2, l3⟩ := ha l hl
    have hlu : l.quat.Unit := l1.unit
    have hu : ∀ {q : Quat}, q.Unit → (matQuat (quatRot q * quatRot l.quat)).Unit := by
      intro q hq
      rw [quatRot_mul hq hlu]
      exact (quatRot_matQuat (hq.mul hlu)).1
    refine tfe3D_step (m := bodyAt l _ (matQuat (quatRot (quatPart u) * quatRot l.quat))) (k := k) hs hdet
      ⟨l1.a, l1.b, l1.c⟩ l2 l3 (hu hqa) (hu hqb) ?_ hnp hk hE ?_
    · have hdot : |Quat.dot (matQuat (quatRot qa * quatRot l.quat)) (matQuat (quatRot qb * quatRot l.quat))| =
          |Quat.dot qa qb| := by
        rw [quatRot_mul hqa hlu, quatRot_mul hqb hlu, ← Quat.dot_mul (p := qa) (q := qb) hlu]
        exact abs_dot_same (sameRotation_matQuat (hqa.mul hlu)) (sameRotation_matQuat (hqb.mul hlu))
      rw [hdot]; exact hfar
    · rw [slerp_attached hqa hqb hlu hd hfar, ← hrot]
      have hsu := slerp_unit hqa hqb hfar ((k : ℝ) * (1 / (np : ℝ)))
      change quatRot (matQuat (quatRot (quatPart u) * quatRot l.quat)) = _
      rw [hrot, quatRot_mul hsu hlu]
      exact (quatRot_matQuat (hsu.mul hlu)).2

/-- Witness: a robot with two bodies, two slices a good part of a turn apart, vertices as the planner stores them. -/
example : exEllipsoid.Ok ∧ exEllipsoid.e1 = 1 ∧ exEllipsoid.e2 = 1 ∧
    (∀ l ∈ [exEllipsoid], l.Ok ∧ l.e1 = 1 ∧ l.e2 = 1) ∧
    ∃ qa qb : Quat, qa.Unit ∧ qb.Unit ∧ |Quat.dot qa qb| < 1 - 1 / 2 ^ 52 ∧ Quat.dot qa qb ≠ 0 ∧
      SameRotation (quatPart (conf7 1 2 3 (matQuat (quatRot qa)))) qa ∧
      SameRotation (quatPart (conf7 1 2 4 (matQuat (quatRot qb)))) qb := by
  have u1 : Quat.Unit (1, 0, 0, 0) := by norm_num [Quat.Unit]
  have u2 : Quat.Unit (-(3 / 5), 4 / 5, 0, 0) := by norm_num [Quat.Unit]
  refine ⟨exEllipsoid_ok, rfl, rfl, ?_, (1, 0, 0, 0), (-(3 / 5), 4 / 5, 0, 0), u1, u2, ?_, ?_, sameRotation_matQuat u1,
    sameRotation_matQuat u2⟩
  · intro l hl
    obtain rfl := List.mem_singleton.1 hl
    exact ⟨exEllipsoid_ok, rfl, rfl⟩
  · norm_num [Quat.dot, abs_of_neg]
  · norm_num [Quat.dot]

end Hrm
