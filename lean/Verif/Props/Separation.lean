import Verif.Lemmas.SepExact

/-!
# C43, C44: the algebraic separation test for ellipses and ellipsoids
-/

namespace Hrm

open Matrix Polynomial

/-! ## The bodies as ellipsoids -/

theorem rpow_two_one (x : ℝ) : |x| ^ ((2 : ℝ) / 1) = x ^ 2 := by
  rw [div_one, show (2 : ℝ) = ((2 : ℕ) : ℝ) by norm_num, Real.rpow_natCast, sq_abs]

theorem ellipse_solid {E : SuperEllipse} (h : E.eps = 1) :
    E.solid = ellSet (rot2 E.ang) ![E.px, E.py] ![E.a, E.b] := by
  have hi : ∀ p, E.implicit p = ∑ i, (p i / ![E.a, E.b] i) ^ 2 := by
    intro p
    simp only [SuperEllipse.implicit, h, rpow_two_one, Fin.sum_univ_two]
    rfl
  ext x
  simp only [SuperEllipse.solid, SuperEllipse.solid0, ellSet, Set.mem_ofPred_eq]
  constructor
  · rintro ⟨_, ⟨p, hp, rfl⟩, rfl⟩
    exact ⟨p, by rw [← hi]; exact hp, rfl⟩
  · rintro ⟨p, hp, rfl⟩
    exact ⟨_, ⟨p, by rw [hi]; exact hp, rfl⟩, rfl⟩

theorem ellipsoid_solid {Q : SuperQuadrics} (h1 : Q.e1 = 1) (h2 : Q.e2 = 1) :
    Q.solid = ellSet (quatRot Q.quat) Q.pos ![Q.a, Q.b, Q.c] := by
  have hi : ∀ p, Q.implicit p = ∑ i, (p i / ![Q.a, Q.b, Q.c] i) ^ 2 := by
    intro p
    simp only [SuperQuadrics.implicit, h1, h2, rpow_two_one, Fin.sum_univ_three]
    rw [div_one, Real.rpow_one]
    rfl
  ext x
  simp only [SuperQuadrics.solid, SuperQuadrics.solid0, ellSet, Set.mem_ofPred_eq]
  constructor
  · rintro ⟨_, ⟨p, hp, rfl⟩, rfl⟩
    exact ⟨p, by rw [← hi]; exact hp, rfl⟩
  · rintro ⟨p, hp, rfl⟩
    exact ⟨_, ⟨p, by rw [hi]; exact hp, rfl⟩, rfl⟩

theorem SuperEllipse.IsEllipse.pos {E : SuperEllipse} (h : E.IsEllipse) : ∀ i, 0 < ![E.a, E.b] i := by
  intro i; fin_cases i
  · exact h.a
  · exact h.b

theorem SuperQuadrics.IsEllipsoid.pos {Q : SuperQuadrics} (h : Q.IsEllipsoid) : ∀ i, 0 < ![Q.a, Q.b, Q.c] i := by
  intro i; fin_cases i
  · exact h.a
  · exact h.b
  · exact h.c

/-- The determinant polynomial `det (λ A - B)` of two ellipses, in the frame of the first. -/
noncomputable def ellipsePencil (A B : SuperEllipse) : ℝ[X] :=
  ellPencil (rot2 A.ang) ![A.px, A.py] ![A.a, A.b] (rot2 B.ang) ![B.px, B.py] ![B.a, B.b]

/-- The determinant polynomial `det (λ A - B)` of two ellipsoids, in the frame of the first. -/
noncomputable def ellipsoidPencil (A B : SuperQuadrics) : ℝ[X] :=
  ellPencil (quatRot A.quat) A.pos ![A.a, A.b, A.c] (quatRot B.quat) B.pos ![B.a, B.b, B.c]

theorem ellipse_run {eig : EigFun} (he : EigOk eig) {A : SuperEllipse} (hA : A.IsEllipse) (B : SuperEllipse) :
    ∃ (k : ℕ) (l : List ℂ), isEllipseSeparated eig A B = sepDecision (List.replicate k 0 ++ l) ∧
      (l : Multiset ℂ) = ((ellipsePencil A B).map (algebraMap ℝ ℂ)).roots := by
  set b := relQuad (rot2 A.ang) ![A.px, A.py] (rot2 B.ang) ![B.px, B.py] ![B.a, B.b] with hb
  obtain ⟨cs, hcs⟩ := coeffs2_cons (quadDiag ![A.a, A.b]) b
  have hd : ∀ i : Fin 2, quadDiag ![A.a, A.b] (Fin.castSucc i) ≠ 0 := by
    intro i
    simp only [quadDiag, Fin.snoc_castSucc]
    exact inv_ne_zero (pow_ne_zero _ (hA.pos i).ne')
  have h2 : quadDiag ![A.a, A.b] (Fin.last 2) = -1 := by simp only [quadDiag, Fin.snoc_last]
  have hne : -quadDiag ![A.a, A.b] 0 * quadDiag ![A.a, A.b] 1 * quadDiag ![A.a, A.b] 2 ≠ 0 := by
    have h0 := hd 0
    have h1 := hd 1
    have h2 : quadDiag ![A.a, A.b] 2 = -1 := h2
    rw [h2]
    exact mul_ne_zero (mul_ne_zero (neg_ne_zero.2 h0) h1) (by norm_num)
  obtain ⟨l, hl, hr⟩ := getRoots_spec he _ cs hne
  refine ⟨cs.length, l, ?_, ?_⟩
  · unfold isEllipseSeparated
    rw [← hb, hcs, hl]
  · rw [hr, ← hcs, coeffs2_poly, Polynomial.map_neg, roots_neg]
    rfl

theorem ellipsoid_run {eig : EigFun} (he : EigOk eig) {A : SuperQuadrics} (hA : A.IsEllipsoid) (B : SuperQuadrics) :
    ∃ (k : ℕ) (l : List ℂ), isEllipsoidSeparated eig A B = sepDecision (List.replicate k 0 ++ l) ∧
      (l : Multiset ℂ) = ((ellipsoidPencil A B).map (algebraMap ℝ ℂ)).roots := by
  set b := relQuad (quatRot A.quat) A.pos (quatRot B.quat) B.pos ![B.a, B.b, B.c] with hb
  obtain ⟨cs, hcs⟩ := coeffs3_cons (quadDiag ![A.a, A.b, A.c]) b
  have hd : ∀ i : Fin 3, quadDiag ![A.a, A.b, A.c] (Fin.castSucc i) ≠ 0 := by
    intro i
    simp only [quadDiag, Fin.snoc_castSucc]
    exact inv_ne_zero (pow_ne_zero _ (hA.pos i).ne')
  have h3 : quadDiag ![A.a, A.b, A.c] (Fin.last 3) = -1 := by simp only [quadDiag, Fin.snoc_last]
  have hne : -quadDiag ![A.a, A.b, A.c] 0 * quadDiag ![A.a, A.b, A.c] 1 * quadDiag ![A.a, A.b, A.c] 2 ≠ 0 := by
    have h0 := hd 0
    have h1 := hd 1
    have h2 := hd 2
    exact mul_ne_zero (mul_ne_zero (neg_ne_zero.2 h0) h1) h2
  obtain ⟨l, hl, hr⟩ := getRoots_spec he _ cs hne
  refine ⟨cs.length, l, ?_, ?_⟩
  · unfold isEllipsoidSeparated
    rw [← hb, hcs, hl]
  · rw [hr, ← hcs, coeffs3_poly _ _ h3]
    rfl

/-! ## C43: overlapping bodies are never declared separated -/

/-- The claim for ellipses, as a user would state it. -/
def C43_claim (eig : EigFun) : Prop := ∀ A B : SuperEllipse, A.IsEllipse → B.IsEllipse →
  (interior A.solid ∩ interior B.solid).Nonempty → isEllipseSeparated eig A B = false

/-- C43 for ellipses. Missing from the full claim: the answer is only guaranteed if the first body still meets the
second one after shrinking the second by two parts in a million. -/
theorem C43_ellipse_partial {eig : EigFun} (he : EigOk eig) {A B : SuperEllipse} (hA : A.IsEllipse) (hB : B.IsEllipse)
    (h : (A.solid ∩ (B.scaled (1 - 2 / 10 ^ 6)).solid).Nonempty) : isEllipseSeparated eig A B = false := by
  obtain ⟨k, l, e, hl⟩ := ellipse_run he hA B
  obtain ⟨x, h1, h2⟩ := h
  rw [e]
  rw [ellipse_solid hA.eps] at h1
  rw [ellipse_solid (E := B.scaled _) hB.eps] at h2
  refine sep_sound (rot2_orth _) (rot2_orth _) hA.pos hB.pos hl h1 ?_
  convert h2 using 1
  simp only [SuperEllipse.scaled]
  congr 1
  funext i
  fin_cases i <;> rfl

/-- C43 for ellipsoids, with the same margin. -/
theorem C43_ellipsoid_partial {eig : EigFun} (he : EigOk eig) {A B : SuperQuadrics} (hA : A.IsEllipsoid)
    (hB : B.IsEllipsoid) (h : (A.solid ∩ (B.scaled (1 - 2 / 10 ^ 6)).solid).Nonempty) :
    isEllipsoidSeparated eig A B = false := by
  obtain ⟨k, l, e, hl⟩ := ellipsoid_run he hA B
  obtain ⟨x, h1, h2⟩ := h
  rw [e]
  rw [ellipsoid_solid hA.e1 hA.e2] at h1
  rw [ellipsoid_solid (Q := B.scaled _) hB.e1 hB.e2] at h2
  refine sep_sound (quatRot_orth hA.unit) (quatRot_orth hB.unit) hA.pos hB.pos hl h1 ?_
  convert h2 using 1
  simp only [SuperQuadrics.scaled]
  congr 1
  funext i
  fin_cases i <;> rfl

/-! ## C44: separated bodies are recognised -/

/-- The claim for ellipses, as a user would state it. -/
def C44_claim (eig : EigFun) : Prop := ∀ A B : SuperEllipse, A.IsEllipse → B.IsEllipse →
  (∃ g > 0, GapAtLeast A.solid B.solid g) → isEllipseSeparated eig A B = true

/-- C44 for ellipses. Missing from the full claim: the slab between the bodies must be wide enough, compared with
the smallest semi-axis of the first and the largest of the second body. -/
theorem C44_ellipse_partial {eig : EigFun} (he : EigOk eig) {A B : SuperEllipse} (hA : A.IsEllipse) (hB : B.IsEllipse)
    {g : ℝ} (hgap : GapAtLeast A.solid B.solid g) (hg : max B.a B.b ^ 2 < 8 * 10 ^ 12 * g * min A.a A.b) :
    isEllipseSeparated eig A B = true := by
  obtain ⟨k, l, e, hl⟩ := ellipse_run he hA B
  rw [e]
  rw [ellipse_solid hA.eps, ellipse_solid hB.eps] at hgap
  refine sep_complete (rot2_orth _) (rot2_orth _) (lo := min A.a A.b) (hi := max B.a B.b) (lt_min hA.a hA.b) ?_ hB.pos ?_
    hg hgap hl
  · intro i; fin_cases i
    · exact min_le_left _ _
    · exact min_le_right _ _
  · intro i; fin_cases i
    · exact le_max_left _ _
    · exact le_max_right _ _

/-- C44 for ellipsoids, with the same margin. -/
theorem C44_ellipsoid_partial {eig : EigFun} (he : EigOk eig) {A B : SuperQuadrics} (hA : A.IsEllipsoid)
    (hB : B.IsEllipsoid) {g : ℝ} (hgap : GapAtLeast A.solid B.solid g)
    (hg : max B.a (max B.b B.c) ^ 2 < 8 * 10 ^ 12 * g * min A.a (min A.b A.c)) :
    isEllipsoidSeparated eig A B = true := by
  obtain ⟨k, l, e, hl⟩ := ellipsoid_run he hA B
  rw [e]
  rw [ellipsoid_solid hA.e1 hA.e2, ellipsoid_solid hB.e1 hB.e2] at hgap
  refine sep_complete (quatRot_orth hA.unit) (quatRot_orth hB.unit) (lo := min A.a (min A.b A.c))
    (hi := max B.a (max B.b B.c)) (lt_min hA.a (lt_min hA.b hA.c)) ?_ hB.pos ?_ hg hgap hl
  · intro i; fin_cases i
    · exact min_le_left _ _
    · exact (min_le_right _ _).trans (min_le_left _ _)
    · exact (min_le_right _ _).trans (min_le_right _ _)
  · intro i; fin_cases i
    · exact le_max_left _ _
    · exact (le_max_left _ _).trans (le_max_right _ _)
    · exact (le_max_right _ _).trans (le_max_right _ _)

/-- The criterion behind the test is exact: two ellipses are disjoint iff the determinant polynomial has two
distinct negative roots. All errors of the test come from its thresholds. -/
theorem C44_ellipse_criterion {A B : SuperEllipse} (hA : A.IsEllipse) (hB : B.IsEllipse) :
    Disjoint A.solid B.solid ↔ ∃ r s : ℝ, r < 0 ∧ s < 0 ∧ r ≠ s ∧
      (ellipsePencil A B).eval r = 0 ∧ (ellipsePencil A B).eval s = 0 := by
  rw [ellipse_solid hA.eps, ellipse_solid hB.eps]
  exact disjoint_iff_roots (rot2_orth _) (rot2_orth _) hA.pos hB.pos

theorem C44_ellipsoid_criterion {A B : SuperQuadrics} (hA : A.IsEllipsoid) (hB : B.IsEllipsoid) :
    Disjoint A.solid B.solid ↔ ∃ r s : ℝ, r < 0 ∧ s < 0 ∧ r ≠ s ∧
      (ellipsoidPencil A B).eval r = 0 ∧ (ellipsoidPencil A B).eval s = 0 := by
  rw [ellipsoid_solid hA.e1 hA.e2, ellipsoid_solid hB.e1 hB.e2]
  exact disjoint_iff_roots (quatRot_orth hA.unit) (quatRot_orth hB.unit) hA.pos hB.pos

/-- For disjoint ellipses the answer depends on nothing but the distance of the two negative roots. -/
theorem C44_ellipse_threshold {eig : EigFun} (he : EigOk eig) {A B : SuperEllipse} (hA : A.IsEllipse)
    (hB : B.IsEllipse) (h : Disjoint A.solid B.solid) :
    ∃ r s : ℝ, r < s ∧ s < 0 ∧ (∀ x < 0, (ellipsePencil A B).eval x = 0 ↔ x = r ∨ x = s) ∧
      (isEllipseSeparated eig A B = true ↔ 1 / 10 ^ 6 < s - r) := by
  obtain ⟨k, l, e, hl⟩ := ellipse_run he hA B
  rw [e]
  rw [ellipse_solid hA.eps, ellipse_solid hB.eps] at h
  exact sep_disjoint (rot2_orth _) (rot2_orth _) hA.pos hB.pos h hl

theorem C44_ellipsoid_threshold {eig : EigFun} (he : EigOk eig) {A B : SuperQuadrics} (hA : A.IsEllipsoid)
    (hB : B.IsEllipsoid) (h : Disjoint A.solid B.solid) :
    ∃ r s : ℝ, r < s ∧ s < 0 ∧ (∀ x < 0, (ellipsoidPencil A B).eval x = 0 ↔ x = r ∨ x = s) ∧
      (isEllipsoidSeparated eig A B = true ↔ 1 / 10 ^ 6 < s - r) := by
  obtain ⟨k, l, e, hl⟩ := ellipsoid_run he hA B
  rw [e]
  rw [ellipsoid_solid hA.e1 hA.e2, ellipsoid_solid hB.e1 hB.e2] at h
  exact sep_disjoint (quatRot_orth hA.unit) (quatRot_orth hB.unit) hA.pos hB.pos h hl

/-! ## Concrete cases and the refutations -/

/-- The contract of the eigenvalue routine can be met. -/
theorem eigOk_exists : ∃ eig : EigFun, EigOk eig :=
  ⟨fun _ M => (M.charpoly.map (algebraMap ℝ ℂ)).roots.toList, fun _ _ => Multiset.coe_toList _⟩

/-- A unit circle on the x axis. -/
def circ (d : ℝ) : SuperEllipse := ⟨1, 1, 1, d, 0, 0, 5⟩

theorem circ_ok (d : ℝ) : (circ d).IsEllipse := ⟨one_pos, one_pos, rfl⟩

theorem circ_mem {d s : ℝ} {x : Fin 2 → ℝ} (hs : 0 < s) :
    x ∈ ((circ d).scaled s).solid ↔ (x 0 - d) ^ 2 + x 1 ^ 2 ≤ s ^ 2 := by
  rw [ellipse_solid (E := (circ d).scaled s) rfl]
  have hr : rot2 ((circ d).scaled s).ang = 1 := by
    ext i j; fin_cases i <;> fin_cases j <;> simp [rot2, circ, SuperEllipse.scaled]
  rw [hr]
  simp only [ellSet, Set.mem_ofPred_eq, one_mulVec, Fin.sum_univ_two, SuperEllipse.scaled, circ, mul_one]
  have key : ∀ p : Fin 2 → ℝ, (p 0 / ![s, s] 0) ^ 2 + (p 1 / ![s, s] 1) ^ 2 ≤ 1 ↔ p 0 ^ 2 + p 1 ^ 2 ≤ s ^ 2 := by
    intro p
    simp only [Matrix.cons_val_zero, Matrix.cons_val_one]
    rw [div_pow, div_pow, ← add_div, div_le_one (by positivity)]
  constructor
  · rintro ⟨p, hp, rfl⟩
    rw [key] at hp
    simpa using hp
  · intro h
    refine ⟨x - ![d, 0], ?_, by rw [sub_add_cancel]⟩
    rw [key]
    simpa using h

theorem circ_scaled_one (d : ℝ) : (circ d).scaled 1 = circ d := by simp [SuperEllipse.scaled, circ]

theorem circ_mem' {d : ℝ} {x : Fin 2 → ℝ} : x ∈ (circ d).solid ↔ (x 0 - d) ^ 2 + x 1 ^ 2 ≤ 1 := by
  rw [← circ_scaled_one, circ_mem one_pos, one_pow]

theorem circ_interior {d : ℝ} {x : Fin 2 → ℝ} (h : (x 0 - d) ^ 2 + x 1 ^ 2 < 1) : x ∈ interior (circ d).solid := by
  refine interior_maximal (t := {x : Fin 2 → ℝ | (x 0 - d) ^ 2 + x 1 ^ 2 < 1}) ?_ ?_ h
  · intro y hy
    exact circ_mem'.2 (le_of_lt hy)
  · exact isOpen_lt (by fun_prop) continuous_const

theorem circ_gap {d : ℝ} : GapAtLeast (circ 0).solid (circ d).solid (d - 2) := by
  refine ⟨![1, 0], 1, by simp, ?_, ?_⟩
  · intro x hx
    rw [circ_mem'] at hx
    have : x 0 ≤ 1 := by nlinarith [sq_nonneg (x 1), sq_nonneg (x 0 - 1)]
    simpa [dotProduct, Fin.sum_univ_two] using this
  · intro x hx
    rw [circ_mem'] at hx
    have : d - 1 ≤ x 0 := by nlinarith [sq_nonneg (x 1), sq_nonneg (x 0 - d + 1)]
    simp [dotProduct, Fin.sum_univ_two]
    linarith

/-- Overlapping circles: the hypotheses of `C43_ellipse_partial` hold and the test says "not separated". -/
theorem C43_nontrivial {eig : EigFun} (he : EigOk eig) : isEllipseSeparated eig (circ 0) (circ 1) = false := by
  refine C43_ellipse_partial he (circ_ok 0) (circ_ok 1) ⟨![1 / 2, 0], ?_, ?_⟩
  · rw [circ_mem']; norm_num
  · rw [circ_mem (by norm_num)]; norm_num

/-- Circles a hundredth of a millimetre apart (in metres): the hypotheses of `C44_ellipse_partial` hold. -/
theorem C44_nontrivial {eig : EigFun} (he : EigOk eig) :
    isEllipseSeparated eig (circ 0) (circ (2 + 1 / 10 ^ 5)) = true := by
  refine C44_ellipse_partial he (circ_ok 0) (circ_ok _) circ_gap ?_
  simp only [circ]
  norm_num

theorem circ_pencil (d : ℝ) :
    ellipsePencil (circ 0) (circ d) = C (-1) * ((X - C 1) * (X ^ 2 + C (d ^ 2 - 2) * X + C 1)) := by
  apply Polynomial.funext
  intro x
  have hr : rot2 0 = 1 := by
    ext i j; fin_cases i <;> fin_cases j <;> simp [rot2]
  unfold ellipsePencil ellPencil
  have hq : relQuad (rot2 (circ 0).ang) ![(circ 0).px, (circ 0).py] (rot2 (circ d).ang) ![(circ d).px, (circ d).py]
      ![(circ d).a, (circ d).b] = !![1, 0, -d; 0, 1, 0; -d, 0, d ^ 2 - 1] := by
    unfold relQuad
    rw [homT_inv (rot2_orth _)]
    simp only [circ, hr]
    have h1 : homT (1 : Matrix (Fin 2) (Fin 2) ℝ)ᵀ (-((1 : Matrix (Fin 2) (Fin 2) ℝ)ᵀ *ᵥ ![d, 0])) = !![1, 0, -d; 0, 1, 0; 0, 0, 1] := by
      ext i j; fin_cases i <;> fin_cases j <;> simp [homT, Fin.snoc]
    have h2 : homT (1 : Matrix (Fin 2) (Fin 2) ℝ) ![0, 0] = 1 := by
      ext i j; fin_cases i <;> fin_cases j <;> simp [homT, Fin.snoc]
    have h3 : diagonal (quadDiag ![(1 : ℝ), 1]) = !![1, 0, 0; 0, 1, 0; 0, 0, -1] := by
      ext i j; fin_cases i <;> fin_cases j <;> simp [quadDiag, Fin.snoc]
    rw [h1, h2, h3, Matrix.mul_one]
    ext i j; fin_cases i <;> fin_cases j <;> simp [Matrix.mul_apply, Fin.sum_univ_three] <;> ring
  have h3 : diagonal (quadDiag ![(circ 0).a, (circ 0).b]) = !![1, 0, 0; 0, 1, 0; 0, 0, -1] := by
    ext i j; fin_cases i <;> fin_cases j <;> simp [quadDiag, Fin.snoc, circ]
  rw [hq, h3, pencil_eval, det_fin_three]
  simp
  ring

/-- Two unit circles whose centres are a little less than two radii apart are declared separated. -/
theorem C43_refuted {eig : EigFun} (he : EigOk eig) : ¬ C43_claim eig := by
  intro hc
  set d : ℝ := 2 * (1 - 4 / 10 ^ 14) / (1 + 4 / 10 ^ 14) with hd
  have h := hc (circ 0) (circ d) (circ_ok 0) (circ_ok d) ⟨![d / 2, 0], circ_interior (by simp [hd]; norm_num),
    circ_interior (by simp [hd]; norm_num)⟩
  obtain ⟨k, l, e, hl⟩ := ellipse_run he (circ_ok 0) (circ d)
  set c : ℝ := d ^ 2 / 2 - 1 with hcd
  set s : ℝ := 4 * (2 / 10 ^ 7) * (1 - 4 / 10 ^ 14) / (1 + 4 / 10 ^ 14) ^ 2 * 1 with hs
  have hcs : c ^ 2 + s ^ 2 = 1 := by simp only [hcd, hs, hd]; norm_num
  have hfac : (ellipsePencil (circ 0) (circ d)).map (algebraMap ℝ ℂ) =
      C (-1) * (({1, ⟨-c, s⟩, ⟨-c, -s⟩} : Multiset ℂ).map fun a => X - C a).prod := by
    rw [circ_pencil]
    apply Polynomial.funext
    intro x
    have e1 : (⟨-c, s⟩ : ℂ) = -c + s * Complex.I := by apply Complex.ext <;> simp
    have e2 : (⟨-c, -s⟩ : ℂ) = -c - s * Complex.I := by apply Complex.ext <;> simp
    rw [e1, e2]
    simp
    have hI := Complex.I_sq
    have hcs' : (c : ℂ) ^ 2 + (s : ℂ) ^ 2 = 1 := by exact_mod_cast hcs
    have hc2 : (d : ℂ) ^ 2 - 2 = 2 * (c : ℂ) := by
      have : d ^ 2 - 2 = 2 * c := by rw [hcd]; ring
      exact_mod_cast this
    left
    rw [hc2]
    linear_combination (s : ℂ) ^ 2 * hI - hcs'
  rw [hfac, roots_C_mul _ (by norm_num), roots_multiset_prod_X_sub_C] at hl
  have hperm : l.Perm [1, ⟨-c, s⟩, ⟨-c, -s⟩] := by
    rw [← Multiset.coe_eq_coe, hl]; rfl
  have hcpos : 0 < c := by simp only [hcd, hd]; norm_num
  have hs1 : |s| < 1 / 10 ^ 6 := by
    rw [abs_of_pos (by simp only [hs]; norm_num)]; simp only [hs]; norm_num
  have hs2 : 1 / 10 ^ 6 < |2 * s| := by
    rw [abs_of_pos (by simp only [hs]; norm_num)]; simp only [hs]; norm_num
  have hfil : (l.filter negReal).Perm [⟨-c, s⟩, ⟨-c, -s⟩] := by
    refine (hperm.filter _).trans ?_
    have t1 : negReal 1 = false := by
      rw [Bool.eq_false_iff, Ne, negReal_iff]; simp
    have t2 : negReal ⟨-c, s⟩ = true := by rw [negReal_iff]; exact ⟨hs1, by simpa using hcpos⟩
    have t3 : negReal ⟨-c, -s⟩ = true := by rw [negReal_iff]; exact ⟨by simpa using hs1, by simpa using hcpos⟩
    simp [List.filter_cons, t1, t2, t3]
  have hn : ‖(⟨-c, s⟩ : ℂ) - ⟨-c, -s⟩‖ = |2 * s| := by
    have : (⟨-c, s⟩ : ℂ) - ⟨-c, -s⟩ = ((2 * s : ℝ) : ℂ) * Complex.I := by
      apply Complex.ext <;> simp <;> ring
    rw [this, norm_mul, Complex.norm_I, mul_one, Complex.norm_real, Real.norm_eq_abs]
  have : isEllipseSeparated eig (circ 0) (circ d) = true := by
    rw [e, sepDecision_eq, filter_zeros]
    rcases List.perm_pair.1 hfil with h1 | h1
    · exact ⟨_, _, h1, by rwa [hn]⟩
    · exact ⟨_, _, h1, by rwa [norm_sub_rev, hn]⟩
  rw [h] at this
  exact absurd this (by simp)

/-- Two unit circles whose centres are a little more than two radii apart are declared not separated. -/
theorem C44_refuted {eig : EigFun} (he : EigOk eig) : ¬ C44_claim eig := by
  intro hc
  set y : ℝ := 1 + 2 / 10 ^ 7 with hy
  have hy0 : y ≠ 0 := by rw [hy]; norm_num
  set d : ℝ := y + 1 / y with hd
  have hd2 : 0 < d - 2 := by simp only [hd, hy]; norm_num
  have h := hc (circ 0) (circ d) (circ_ok 0) (circ_ok d) ⟨d - 2, hd2, circ_gap⟩
  obtain ⟨k, l, e, hl⟩ := ellipse_run he (circ_ok 0) (circ d)
  have hfac : ellipsePencil (circ 0) (circ d) = C (-1) * ∏ i : Fin 3, (X - C (![1, -y ^ 2, -(1 / y ^ 2)] i)) := by
    rw [circ_pencil]
    apply Polynomial.funext
    intro x
    simp [eval_prod, Fin.prod_univ_three]
    rw [hd]
    field_simp
    ring
  rw [e, sep_of_real_roots (i := (1 : Fin 3)) (j := 2) (by norm_num : (-1 : ℝ) ≠ 0) (by decide) (by simp [hy]; norm_num)
    (by simp [hy]; norm_num) ?_ hfac hl] at h
  · simp [hy] at h
    norm_num at h
  · intro i h1 h2
    fin_cases i
    · simp
    · exact absurd rfl h1
    · exact absurd rfl h2

end Hrm
