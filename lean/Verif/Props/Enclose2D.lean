import Verif.Props.Planner2D
import Verif.Props.TFE
import Verif.Props.Shape

/-!
# C79 – the bodies of a planar robot and their ellipses
-/

namespace Hrm

open Matrix

/-- The quadratic form of the ellipse with semi-axes `a` turned by `th`. -/
noncomputable def ellForm (a : Fin 2 → ℝ) (th : ℝ) (x : Fin 2 → ℝ) : ℝ :=
  x ⬝ᵥ ellMat (rot2 th) (fun i => (a i ^ 2)⁻¹) *ᵥ x

theorem ellForm_eq (a : Fin 2 → ℝ) (th : ℝ) (x : Fin 2 → ℝ) : ellForm a th x =
    (a 0 ^ 2)⁻¹ * (Real.cos th * x 0 + Real.sin th * x 1) ^ 2 + (a 1 ^ 2)⁻¹ * (Real.cos th * x 1 - Real.sin th * x 0) ^ 2 := by
  rw [ellForm, ellMat_form, Fin.sum_univ_two]
  have e0 : ((rot2 th)ᵀ *ᵥ x) 0 = Real.cos th * x 0 + Real.sin th * x 1 := by
    simp [rot2, mulVec, dotProduct, Fin.sum_univ_two]
  have e1 : ((rot2 th)ᵀ *ᵥ x) 1 = Real.cos th * x 1 - Real.sin th * x 0 := by
    simp [rot2, mulVec, dotProduct, Fin.sum_univ_two]; ring
  rw [e0, e1]

theorem mem_ellipse2 (a : Fin 2 → ℝ) (th : ℝ) (x : Fin 2 → ℝ) : x ∈ (ellipse2 a th).solid ↔ ellForm a th x ≤ 1 := by
  rw [mem_ellipse rfl rfl rfl]
  unfold ellForm ellipse2
  have : (fun i => (![a 0, a 1] i ^ 2)⁻¹) = fun i => (a i ^ 2)⁻¹ := by funext i; fin_cases i <;> rfl
  rw [this]

/-- The form of the covering ellipse: below the forms of both, and not lower than it has to be. -/
theorem mvce2D_form {svd : SvdFun 2} (hs : SvdOk svd) (hsign : ∀ M, SymPos M → 0 ≤ (svd M).u 1 0)
    {a b : Fin 2 → ℝ} (ha : ∀ i, 0 < a i) (hb : ∀ i, 0 < b i) (thA thB : ℝ) (num : ℕ) :
    ∃ E, E = getMVCE2D svd a b thA thB num ∧ 0 < E.a ∧ 0 < E.b ∧
    (∀ x, x ∈ E.solid ↔ ellForm ![E.a, E.b] E.ang x ≤ 1) ∧
    (∀ x, ellForm ![E.a, E.b] E.ang x ≤ ellForm a thA x) ∧ (∀ x, ellForm ![E.a, E.b] E.ang x ≤ ellForm b thB x) ∧
    ∀ μ ≤ (1 : ℝ), (∀ x, μ * ellForm b thB x ≤ ellForm a thA x) →
      ∀ x, μ * ellForm b thB x ≤ ellForm ![E.a, E.b] E.ang x := by
  have hr : 0 < min (b 0) (b 1) := lt_min (hb 0) (hb 1)
  obtain ⟨C, hC, e, hA, hB, -, hμ, -⟩ := mvceSvd_spec hs ha hb (rot2_orth thA) (rot2_orth thB) hr
  obtain ⟨ou, hCd, hsp⟩ := isSvd_symPos hC (hs C hC)
  have hsg := hsign C hC
  generalize hE : getMVCE2D svd a b thA thB num = E
  have hEa : E.a = (svd C).s 0 ^ (-(1 / 2) : ℝ) := by rw [← hE]; simp only [getMVCE2D, e]
  have hEb : E.b = (svd C).s 1 ^ (-(1 / 2) : ℝ) := by rw [← hE]; simp only [getMVCE2D, e]
  have hEang : E.ang = Real.arccos ((svd C).u 0 0) := by rw [← hE]; simp only [getMVCE2D, e]
  have hd : (fun i => (![E.a, E.b] i ^ 2)⁻¹) = (svd C).s := by
    funext i
    fin_cases i
    · simpa [hEa] using (rpow_neg_half (hsp 0)).2
    · simpa [hEb] using (rpow_neg_half (hsp 1)).2
  have hform : ∀ x, ellForm ![E.a, E.b] E.ang x = x ⬝ᵥ C *ᵥ x := by
    intro x
    unfold ellForm
    rw [hd, hEang, rot2_arccos_form ou hsg, ← hCd]
  refine ⟨E, rfl, by rw [hEa]; exact (rpow_neg_half (hsp 0)).1, by rw [hEb]; exact (rpow_neg_half (hsp 1)).1, ?_, ?_, ?_, ?_⟩
  · intro x
    rw [mem_ellipse (by rw [← hE]; rfl) (by rw [← hE]; rfl) (by rw [← hE]; rfl)]
    rfl
  · intro x; rw [hform]; exact hA x
  · intro x; rw [hform]; exact hB x
  · intro μ h1 h2 x
    rw [hform]
    exact hμ μ h1 h2 x

/-- How large a tightly-fitted ellipse can be at most. -/
theorem tfe2D_tight {svd : SvdFun 2} (hs : SvdOk svd) (hsign : ∀ M, SymPos M → 0 ≤ (svd M).u 1 0)
    {a : Fin 2 → ℝ} (ha : ∀ i, 0 < a i) {thA thB : ℝ} {np num : ℕ} {μ : ℝ} (h0 : 0 ≤ μ) (h1 : μ ≤ 1)
    (hB : ∀ x, μ * ellForm a thB x ≤ ellForm a thA x)
    (hk : ∀ k < np, ∀ x, μ * ellForm a thA x ≤ ellForm a (thetaStep thA thB np k) x)
    {E : SuperEllipse} (hE : getTFE2D svd a thA thB np num = some E) (x : Fin 2 → ℝ) (hx : x ∈ E.solid) :
    μ ^ (np + 1) * ellForm a thB x ≤ 1 := by
  unfold getTFE2D at hE
  split at hE
  · simp at hE
  have key : ∀ n ≤ np, ∃ E, E = (List.range n).foldl (fun E i =>
        getMVCE2D svd a ![E.a, E.b] (thetaStep thA thB np i) E.ang num) (getMVCE2D svd a a thA thB num) ∧
      0 < E.a ∧ 0 < E.b ∧ (∀ x, x ∈ E.solid ↔ ellForm ![E.a, E.b] E.ang x ≤ 1) ∧
      (∀ x, ellForm ![E.a, E.b] E.ang x ≤ ellForm a thA x) ∧
      ∀ x, μ ^ (n + 1) * ellForm a thB x ≤ ellForm ![E.a, E.b] E.ang x := by
    intro n
    induction n with
    | zero =>
      intro _
      obtain ⟨E, e, p1, p2, m, c1, -, c3⟩ := mvce2D_form hs hsign ha ha thA thB num
      refine ⟨E, e, p1, p2, m, c1, fun x => ?_⟩
      rw [zero_add, pow_one]
      exact c3 μ h1 hB x
    | succ n ih =>
      intro hn
      obtain ⟨F, e, p1, p2, m, c1, c2⟩ := ih (by omega)
      have hF : ∀ i, 0 < (![F.a, F.b] : Fin 2 → ℝ) i := by
        intro i
        fin_cases i
        · exact p1
        · exact p2
      obtain ⟨E, e', q1, q2, m', -, d2, d3⟩ := mvce2D_form hs hsign ha hF (thetaStep thA thB np n) F.ang num
      refine ⟨E, by rw [List.range_succ, List.foldl_append, ← e]; exact e', q1, q2, m', fun x => (d2 x).trans (c1 x), fun x => ?_⟩
      have := d3 μ h1 (fun x => le_trans (mul_le_mul_of_nonneg_left (c1 x) h0) (hk n (by omega) x)) x
      refine le_trans ?_ this
      rw [pow_succ, mul_comm (μ ^ (n + 1)), mul_assoc]
      exact mul_le_mul_of_nonneg_left (c2 x) h0
  obtain ⟨F, e, -, -, m, -, c⟩ := key np le_rfl
  obtain rfl := Option.some.inj hE
  rw [← e] at hx
  exact (c x).trans ((m x).1 hx)

/-- An ellipse twice as long as wide hardly changes when it is turned by at most 1/100. -/
theorem ellForm_near {th ph : ℝ} (h : |th - ph| ≤ 1 / 100) (x : Fin 2 → ℝ) :
    9 / 10 * ellForm ![2, 1] ph x ≤ ellForm ![2, 1] th x := by
  have hd : th = ph + (th - ph) := by ring
  generalize th - ph = d at h hd
  subst hd
  rw [ellForm_eq, ellForm_eq, Real.cos_add, Real.sin_add]
  have hs : |Real.sin d| ≤ 1 / 100 := (Real.abs_sin_le_abs).trans h
  have hsc := Real.sin_sq_add_cos_sq d
  generalize Real.sin d = s at hs hsc
  generalize Real.cos d = c at hsc
  set y0 := Real.cos ph * x 0 + Real.sin ph * x 1
  set y1 := Real.cos ph * x 1 - Real.sin ph * x 0
  have e0 : (Real.cos ph * c - Real.sin ph * s) * x 0 + (Real.sin ph * c + Real.cos ph * s) * x 1 = c * y0 + s * y1 := by
    simp only [y0, y1]; ring
  have e1 : (Real.cos ph * c - Real.sin ph * s) * x 1 - (Real.sin ph * c + Real.cos ph * s) * x 0 = c * y1 - s * y0 := by
    simp only [y0, y1]; ring
  rw [e0, e1]
  simp only [cons_val_zero, cons_val_one]
  obtain ⟨s1, s2⟩ := abs_le.1 hs
  have hs2 : s ^ 2 ≤ 1 / 10000 := by nlinarith
  have hc2 : c ^ 2 = 1 - s ^ 2 := by linarith
  have hcs : |c * s| ≤ 1 / 100 := by
    apply abs_le_of_sq_le_sq' _ (by norm_num) |> abs_le.2
    rw [mul_pow, hc2]; nlinarith [sq_nonneg (s ^ 2)]
  obtain ⟨c1, c2'⟩ := abs_le.1 hcs
  have : ((2 : ℝ) ^ 2)⁻¹ * (c * y0 + s * y1) ^ 2 + ((1 : ℝ) ^ 2)⁻¹ * (c * y1 - s * y0) ^ 2 -
      9 / 10 * (((2 : ℝ) ^ 2)⁻¹ * y0 ^ 2 + ((1 : ℝ) ^ 2)⁻¹ * y1 ^ 2) =
      (1 / 40 + 3 / 4 * s ^ 2) * y0 ^ 2 + (1 / 10 - 3 / 4 * s ^ 2) * y1 ^ 2 - 3 / 2 * (c * s) * (y0 * y1) := by
    have : c ^ 2 = 1 - s ^ 2 := hc2
    norm_num
    linear_combination (1 / 4 * y0 ^ 2 + y1 ^ 2) * this
  have h3 : 3 / 2 * (c * s) * (y0 * y1) ≤ 3 / 2 * (1 / 100) * |y0 * y1| := by
    have := le_abs_self ((c * s) * (y0 * y1))
    rw [abs_mul] at this
    nlinarith [abs_nonneg (y0 * y1)]
  have h4 : |y0 * y1| ≤ (y0 ^ 2 + y1 ^ 2) / 2 := by
    rw [abs_le]; constructor <;> nlinarith [sq_nonneg (y0 + y1), sq_nonneg (y0 - y1)]
  nlinarith [sq_nonneg y0, sq_nonneg y1, sq_nonneg s, mul_nonneg (sq_nonneg s) (sq_nonneg y0),
    mul_le_mul_of_nonneg_right hs2 (sq_nonneg y1)]

theorem solid_placed2 {l E : SuperEllipse} {th : ℝ} (h1 : l.eps = 1) (hx : E.px = 0) (hy : E.py = 0)
    (h : (ellipse2 ![l.a, l.b] th).solid ⊆ E.solid) (p : Pt ℝ) : (bodyAt2 l p th).solid ⊆ (bodyAt2 E p E.ang).solid := by
  rintro x ⟨q, hq, rfl⟩
  have hq' : q ∈ (ellipse2 ![l.a, l.b] th).solid := by
    refine ⟨q, ?_, by ext i; fin_cases i <;> simp [ellipse2]⟩
    obtain ⟨r, hr, e⟩ := hq
    refine ⟨r, ?_, e⟩
    unfold SuperEllipse.implicit at hr ⊢
    rw [show (bodyAt2 l p th).eps = 1 from h1] at hr
    exact hr
  obtain ⟨q', h2, e⟩ := h hq'
  rw [hx, hy] at e
  have : q = q' := by rw [e]; ext i; fin_cases i <;> simp
  rw [this]
  exact ⟨q', h2, rfl⟩

theorem getTFE2D_shape {svd : SvdFun 2} {a : Fin 2 → ℝ} {thA thB : ℝ} {np num : ℕ} {E : SuperEllipse}
    (h : getTFE2D svd a thA thB np num = some E) : E.eps = 1 ∧ E.px = 0 ∧ E.py = 0 := by
  unfold getTFE2D at h
  split at h
  · simp at h
  obtain rfl := Option.some.inj h
  have key : ∀ n : ℕ, ((List.range n).foldl (fun (E : SuperEllipse) i =>
        getMVCE2D svd a ![E.a, E.b] (thetaStep thA thB np i) E.ang num) (getMVCE2D svd a a thA thB num)).eps = 1 ∧
      ((List.range n).foldl (fun (E : SuperEllipse) i =>
        getMVCE2D svd a ![E.a, E.b] (thetaStep thA thB np i) E.ang num) (getMVCE2D svd a a thA thB num)).px = 0 ∧
      ((List.range n).foldl (fun (E : SuperEllipse) i =>
        getMVCE2D svd a ![E.a, E.b] (thetaStep thA thB np i) E.ang num) (getMVCE2D svd a a thA thB num)).py = 0 := by
    intro n
    cases n with
    | zero => exact ⟨rfl, rfl, rfl⟩
    | succ n => rw [List.range_succ, List.foldl_append]; exact ⟨rfl, rfl, rfl⟩
  exact key np

theorem ellForm_turn {a : Fin 2 → ℝ} {th ph : ℝ} (h : rot2 th = rot2 ph) : ellForm a th = ellForm a ph := by
  unfold ellForm; rw [h]

theorem rot2_turns (th : ℝ) (m : ℤ) : rot2 (th + 2 * Real.pi * m) = rot2 th := by
  unfold rot2
  rw [show th + 2 * Real.pi * m = th + m * (2 * Real.pi) by ring, Real.cos_add_int_mul_two_pi, Real.sin_add_int_mul_two_pi]

/-- A body attached with angle `phi` to a robot turning from `ha` to `hb`: at each step it lies in its ellipse. -/
theorem tfe2D_step {svd : SvdFun 2} (hs : SvdOk svd) (hsign : ∀ M, SymPos M → 0 ≤ (svd M).u 1 0) {l : SuperEllipse}
    (hl : l.Ok) (h1 : l.eps = 1) {tA tB ha hb phi : ℝ} {m : ℤ} (eA : tA = ha + phi + 2 * Real.pi * m)
    (eB : tB = hb + phi + 2 * Real.pi * m) {np num : ℕ} {E : SuperEllipse}
    (hE : getTFE2D svd ![l.a, l.b] tA tB np num = some E) {k : ℕ} (hk : k < np) (p : Pt ℝ) :
    (bodyAt2 l p (onWay np k ha hb + phi)).solid ⊆ (bodyAt2 E p E.ang).solid := by
  have hn : np ≠ 1 := by rintro rfl; simp [getTFE2D] at hE
  obtain ⟨F, e, -, -, c⟩ := C45_tfe2D_partial svd hs hsign ![l.a, l.b] (fun i => by fin_cases i; exacts [hl.a, hl.b]) tA tB
    np num hn
  rw [hE] at e
  obtain rfl := Option.some.inj e
  obtain ⟨s1, s2, s3⟩ := getTFE2D_shape hE
  refine solid_placed2 h1 s2 s3 ?_ p
  intro x hx
  refine c k hk ?_
  rw [mem_ellipse2] at hx ⊢
  rw [ellForm_turn (ph := onWay np k ha hb + phi)]
  · exact hx
  · rw [← rot2_turns (onWay np k ha hb + phi) m, eA, eB]
    congr 1
    unfold onWay; ring

/-- C79 (plane), what the ellipses are good for: while the robot turns from heading `ha` to `hb`, at every step the base
lies in its ellipse centred where the base is; and so does a body attached with angle `l.ang`, if the angles at which it
starts and ends, brought into `(-π, π]`, are off by the same number of full turns. Missing: bodies for which they are
not (C79_planar_enclosed_refuted), and a singular value decomposition with `U(1,0) < 0` (C45). -/
theorem C79_planar_enclosed_partial (svd : SvdFun 2) (hs : SvdOk svd) (hsign : ∀ M, SymPos M → 0 ≤ (svd M).u 1 0)
    (l : SuperEllipse) (hl : l.Ok) (h1 : l.eps = 1) (ha hb x1 y1 x2 y2 : ℝ) (np k : ℕ) (hk : k < np) (E : SuperEllipse) :
    (getTFE2D svd ![l.a, l.b] ha hb np l.num = some E →
      (bodyAt2 l (onWay np k x1 x2, onWay np k y1 y2) (onWay np k ha hb)).solid ⊆
        (bodyAt2 E (onWay np k x1 x2, onWay np k y1 y2) E.ang).solid) ∧
    (∀ m : ℤ, -Real.pi < ha + l.ang + 2 * Real.pi * m → ha + l.ang + 2 * Real.pi * m ≤ Real.pi →
      -Real.pi < hb + l.ang + 2 * Real.pi * m → hb + l.ang + 2 * Real.pi * m ≤ Real.pi →
      getTFE2D svd ![l.a, l.b] (matAngle (rot2 ha * rot2 l.ang)) (matAngle (rot2 hb * rot2 l.ang)) np l.num = some E →
      (bodyAt2 l (centreAt l (onWay np k x1 x2) (onWay np k y1 y2) (onWay np k ha hb)) (onWay np k ha hb + l.ang)).solid ⊆
        (bodyAt2 E (centreAt l (onWay np k x1 x2) (onWay np k y1 y2) (onWay np k ha hb)) E.ang).solid) := by
  constructor
  · intro hE
    have := tfe2D_step (ha := ha) (hb := hb) (phi := 0) (m := 0) hs hsign hl h1 (by simp) (by simp) hE hk
      (onWay np k x1 x2, onWay np k y1 y2)
    rw [add_zero] at this
    exact this
  · intro m a1 a2 b1 b2 hE
    refine tfe2D_step (m := m) hs hsign hl h1 ?_ ?_ hE hk _
    · rw [rot2_mul, ← rot2_turns _ m, matAngle_rot2 a1 a2]
    · rw [rot2_mul, ← rot2_turns _ m, matAngle_rot2 b1 b2]

/-- C79 (plane) as one would like it: for the slices that the planner joins (`i` with `i + 1`, the last with the first)
every body lies in its ellipse at every step. -/
def C79_planar_enclosed_claim (svd : SvdFun 2) : Prop :=
  ∀ (l : SuperEllipse) (n i np k : ℕ) (x1 y1 x2 y2 : ℝ) (E : SuperEllipse), l.Ok → l.eps = 1 → 3 ≤ n → i < n → k < np →
    let ha := heading n i
    let hb := heading n (if i = n - 1 then 0 else i + 1)
    getTFE2D svd ![l.a, l.b] (matAngle (rot2 ha * rot2 l.ang)) (matAngle (rot2 hb * rot2 l.ang)) np l.num = some E →
    (bodyAt2 l (centreAt l (onWay np k x1 x2) (onWay np k y1 y2) (onWay np k ha hb)) (onWay np k ha hb + l.ang)).solid ⊆
      (bodyAt2 E (centreAt l (onWay np k x1 x2) (onWay np k y1 y2) (onWay np k ha hb)) E.ang).solid

/-- C79 (plane) is false of links, whatever the singular value decomposition: the last slice has heading `+π` (the code's
constant), the first `-π`. On an edge between them the robot makes a full turn, but a link attached at a right angle has
nearly the same angle in both slices, so its ellipse is hardly larger than the link, and the link is outside at the
second of five steps, where it is at right angles to where it was. -/
theorem C79_planar_enclosed_refuted (svd : SvdFun 2) (hs : SvdOk svd) (hsign : ∀ M, SymPos M → 0 ≤ (svd M).u 1 0) :
    ¬ C79_planar_enclosed_claim svd := by
  intro H
  have hpi := hrmPi_lt_pi
  have hpi2 := pi_lt_hrmPi_eps.1
  have he : epsilon = 1 / 1000000 := by norm_num [epsilon]
  have hp0 := hrmPi_pos
  have hp3 := Real.pi_gt_three
  rw [he] at hpi2
  have h := H ⟨2, 1, 1, 0, 0, Real.pi / 2, 9⟩ 3 2 5 1 0 0 0 0
  have e2 : heading 3 2 = hrmPi := by norm_num [heading]; ring
  have e0 : heading 3 0 = -hrmPi := by norm_num [heading]
  simp only [show (2 : ℕ) = 3 - 1 from rfl, if_true] at h
  simp only [show (3 - 1 : ℕ) = 2 from rfl, e2, e0, rot2_mul] at h
  have tA : matAngle (rot2 (hrmPi + Real.pi / 2)) = hrmPi - 3 * Real.pi / 2 := by
    rw [← rot2_turns _ (-1), matAngle_rot2 (by push_cast; linarith) (by push_cast; linarith)]
    push_cast; ring
  have tB : matAngle (rot2 (-hrmPi + Real.pi / 2)) = Real.pi / 2 - hrmPi := by
    rw [matAngle_rot2 (by linarith) (by linarith)]
    ring
  rw [tA, tB] at h
  have hE : getTFE2D svd ![2, 1] (hrmPi - 3 * Real.pi / 2) (Real.pi / 2 - hrmPi) 5 9 = some _ := if_neg (by norm_num)
  generalize List.foldl _ _ _ = E at hE
  have h := h E ⟨by norm_num, by norm_num, by norm_num, by norm_num⟩ trivial (by norm_num) (by norm_num) (by norm_num) hE
  have hth : onWay 5 1 hrmPi (-hrmPi) = hrmPi / 2 := by norm_num [onWay]; ring
  have hce : centreAt ⟨2, 1, 1, 0, 0, Real.pi / 2, 9⟩ (onWay 5 1 0 0) (onWay 5 1 0 0) (onWay 5 1 hrmPi (-hrmPi)) = (0, 0) := by
    simp [centreAt, onWay]
  rw [hce, hth] at h
  obtain ⟨s1, s2, s3⟩ := getTFE2D_shape hE
  have hbE : bodyAt2 E (0, 0) E.ang = E := by
    cases E; simp only at s2 s3; subst s2 s3; rfl
  rw [hbE] at h
  -- the tip of the link
  have hx : ![2 * Real.cos (hrmPi / 2 + Real.pi / 2), 2 * Real.sin (hrmPi / 2 + Real.pi / 2)] ∈
      (bodyAt2 ⟨2, 1, 1, 0, 0, Real.pi / 2, 9⟩ (0, 0) (hrmPi / 2 + Real.pi / 2)).solid := by
    have : bodyAt2 ⟨2, 1, 1, 0, 0, Real.pi / 2, 9⟩ (0, 0) (hrmPi / 2 + Real.pi / 2) =
      ⟨2, 1, 1, 0, 0, hrmPi / 2 + Real.pi / 2, 9⟩ := rfl
    rw [this, mem_ellipse rfl rfl rfl]
    change ellForm ![2, 1] _ _ ≤ 1
    rw [ellForm_eq]
    simp only [cons_val_zero, cons_val_one]
    have := Real.sin_sq_add_cos_sq (hrmPi / 2 + Real.pi / 2)
    have e : Real.cos (hrmPi / 2 + Real.pi / 2) * (2 * Real.cos (hrmPi / 2 + Real.pi / 2)) +
      Real.sin (hrmPi / 2 + Real.pi / 2) * (2 * Real.sin (hrmPi / 2 + Real.pi / 2)) = 2 := by nlinarith
    rw [e]
    ring_nf
    norm_num
  have hin := h hx
  have ht := tfe2D_tight hs hsign (a := ![2, 1]) (fun i => by fin_cases i <;> norm_num) (μ := 9 / 10) (by norm_num)
    (by norm_num) (fun x => ellForm_near (by rw [abs_le]; constructor <;> linarith) x) (fun k hk x => ellForm_near (by
      have h0 : (0 : ℝ) ≤ k := Nat.cast_nonneg k
      have h4 : (k : ℝ) ≤ 4 := by
        have : k ≤ 4 := by omega
        exact_mod_cast this
      have : thetaStep (hrmPi - 3 * Real.pi / 2) (Real.pi / 2 - hrmPi) 5 k - (hrmPi - 3 * Real.pi / 2) =
        k * ((Real.pi - hrmPi) / 2) := by unfold thetaStep; push_cast; ring
      rw [this, abs_le]
      constructor <;> nlinarith) x) hE _ hin
  rw [ellForm_eq] at ht
  simp only [cons_val_zero, cons_val_one] at ht
  have hd : Real.cos (Real.pi / 2 - hrmPi) * (2 * Real.sin (hrmPi / 2 + Real.pi / 2)) -
      Real.sin (Real.pi / 2 - hrmPi) * (2 * Real.cos (hrmPi / 2 + Real.pi / 2)) = -2 * Real.cos (3 / 2 * (Real.pi - hrmPi)) := by
    have := Real.sin_sub (hrmPi / 2 + Real.pi / 2) (Real.pi / 2 - hrmPi)
    have e : Real.sin (hrmPi / 2 + Real.pi / 2 - (Real.pi / 2 - hrmPi)) = -Real.cos (3 / 2 * (Real.pi - hrmPi)) := by
      rw [show hrmPi / 2 + Real.pi / 2 - (Real.pi / 2 - hrmPi) = Real.pi - (3 / 2 * (Real.pi - hrmPi) - Real.pi / 2) by ring,
        Real.sin_pi_sub, Real.sin_sub_pi_div_two]
    rw [e] at this
    linarith
  rw [hd] at ht
  have hc : 1 - (3 / 2 * (Real.pi - hrmPi)) ^ 2 / 2 ≤ Real.cos (3 / 2 * (Real.pi - hrmPi)) := Real.one_sub_sq_div_two_le_cos
  have hc2 : (9 / 10 : ℝ) ≤ Real.cos (3 / 2 * (Real.pi - hrmPi)) := by nlinarith
  nlinarith [sq_nonneg (Real.cos (Real.pi / 2 - hrmPi) * (2 * Real.cos (hrmPi / 2 + Real.pi / 2)) +
    Real.sin (Real.pi / 2 - hrmPi) * (2 * Real.sin (hrmPi / 2 + Real.pi / 2)))]

/-- Witness for C79_planar_enclosed_partial: slices 0 and 1 of three, a body attached at angle 1. -/
example : (⟨2, 1, 1, 1, 0, 1, 9⟩ : SuperEllipse).Ok ∧
    -Real.pi < heading 3 0 + 1 + 2 * Real.pi * (0 : ℤ) ∧ heading 3 0 + 1 + 2 * Real.pi * (0 : ℤ) ≤ Real.pi ∧
    -Real.pi < heading 3 1 + 1 + 2 * Real.pi * (0 : ℤ) ∧ heading 3 1 + 1 + 2 * Real.pi * (0 : ℤ) ≤ Real.pi := by
  have e0 : heading 3 0 = -hrmPi := by norm_num [heading]
  have e1 : heading 3 1 = 0 := by norm_num [heading]
  have := hrmPi_lt_pi
  have := hrmPi_pos
  have := Real.pi_gt_three
  rw [e0, e1]
  refine ⟨⟨by norm_num, by norm_num, by norm_num, by norm_num⟩, ?_, ?_, ?_, ?_⟩ <;> norm_num <;> linarith

end Hrm
