import Verif.Lemmas.Convex
import Verif.Props.Planner2D
import Verif.Props.Shape
import Verif.Props.MultiBody
import Verif.Props.Grown

/-!
# C82 – the boundary polygons handed to the sweep line and to the point test are convex
-/

namespace Hrm

open Matrix

/-- Counter-clockwise convex: no vertex is to the right of an edge. -/
def CcwPolygon (shape : List (Pt ℝ)) : Prop := ∀ e ∈ edgesOf shape, ∀ v ∈ shape, 0 ≤ cross e v

theorem CcwPolygon.convex {shape : List (Pt ℝ)} (h : CcwPolygon shape) : ConvexPolygon shape := Or.inl h

/-- Points supported by normals of increasing angle. -/
theorem samples_ccw (N : ℕ) (P : ℕ → Fin 2 → ℝ) (al q x y : ℝ) (hq : 0 < q) (hx : 0 < x) (hy : 0 < y) (th : ℕ → ℝ)
    (hth : ∀ i, th i = 2 * i * hrmPi / ((N : ℝ) - 1))
    (hsup : ∀ i j : ℕ, i < N → j < N →
      (rot2 al *ᵥ ![x * expFun (th i) q false, y * expFun (th i) q true]) ⬝ᵥ P j ≤
      (rot2 al *ᵥ ![x * expFun (th i) q false, y * expFun (th i) q true]) ⬝ᵥ P i) :
    CcwPolygon (toPts ((List.range N).map P)) := by
  unfold CcwPolygon toPts
  rw [List.map_map]
  rcases Nat.lt_or_ge N 3 with hN | hN
  · -- at most two points
    have hself : ∀ (a b : Pt ℝ), cross (a, b) a = 0 ∧ cross (a, b) b = 0 := by
      intro a b; unfold cross; constructor <;> ring
    intro e he v hv
    obtain ⟨k, hk, rfl⟩ := List.mem_map.1 hv
    have hk : k < N := List.mem_range.1 hk
    rcases edge_range he with ⟨i, hi, rfl⟩ | ⟨h0, rfl⟩
    · obtain rfl : i = 0 := by omega
      have : k = 0 ∨ k = 1 := by omega
      rcases this with rfl | rfl
      · exact (hself _ _).1.ge
      · exact (hself _ _).2.ge
    · have : k = 0 ∨ k = N - 1 := by omega
      rcases this with rfl | h
      · exact (hself _ _).2.ge
      · rw [h]; exact (hself _ _).1.ge
  · have hN3 : (3 : ℝ) ≤ N := by exact_mod_cast hN
    have hN1 : (0 : ℝ) < (N : ℝ) - 1 := by linarith
    have hp := hrmPi_pos
    have hlt := hrmPi_lt_pi
    have h3 : (3 : ℝ) < Real.pi := Real.pi_gt_three
    have h4 : Real.pi < 3.15 := Real.pi_lt_d2
    have hstep : ∀ i, th (i + 1) = th i + 2 * hrmPi / ((N : ℝ) - 1) := by
      intro i; rw [hth, hth]; push_cast; ring
    refine convex_of_normals _
      (fun i => let v := rot2 al *ᵥ ![x * expFun (th i) q false, y * expFun (th i) q true]; (v 0, v 1)) th
      ?_ ?_ ?_ ?_ ?_ ?_
    · intro i j hij _
      have hc : (i : ℝ) < j := by exact_mod_cast hij
      rw [hth, hth]
      gcongr
    · intro i hi
      have hc : (i : ℝ) ≤ (N : ℝ) - 1 := by
        have : (i : ℝ) + 1 ≤ N := by exact_mod_cast hi
        linarith
      have h0 : th 0 = 0 := by rw [hth]; simp
      have h1 : th i ≤ 2 * hrmPi := by
        rw [hth, div_le_iff₀ hN1]
        nlinarith
      rw [h0]; linarith
    · intro i _
      rw [hstep]
      have : 2 * hrmPi / ((N : ℝ) - 1) ≤ hrmPi := by
        rw [div_le_iff₀ hN1]; nlinarith
      linarith
    · intro _
      have h0 : th 0 = 0 := by rw [hth]; simp
      have h1 : th (N - 1) = 2 * hrmPi := by
        rw [hth, Nat.cast_sub (by omega), Nat.cast_one]
        field_simp
      rw [h0, h1]
      have : hrmPi = 31415926 / 10 ^ 7 := rfl
      rw [this]; norm_num; linarith
    · intro i j _ _
      rw [← expFun_det hq (th i) (th j)]
      have e : det2 (let v := rot2 al *ᵥ ![x * expFun (th i) q false, y * expFun (th i) q true]; (v 0, v 1))
          (let v := rot2 al *ᵥ ![x * expFun (th j) q false, y * expFun (th j) q true]; (v 0, v 1)) =
          x * y * (expFun (th i) q false * expFun (th j) q true - expFun (th i) q true * expFun (th j) q false) := by
        have hcs := Real.cos_sq_add_sin_sq al
        simp only [det2, rot2, mulVec, dotProduct, Fin.sum_univ_two, Matrix.of_apply, cons_val_zero, cons_val_one]
        linear_combination (x * y * (expFun (th i) q false * expFun (th j) q true -
          expFun (th i) q true * expFun (th j) q false)) * hcs
      rw [e]
      exact ⟨fun h => (mul_pos_iff_of_pos_left (mul_pos hx hy)).1 h, fun h => mul_pos (mul_pos hx hy) h⟩
    · intro i j hi hj
      have := hsup i j hi hj
      simpa only [dotProduct, Fin.sum_univ_two, dot2, Function.comp] using this

/-- C82, the shapes: the polygon sampled on a superellipse is convex and run counter-clockwise. -/
theorem C82_shape_convex (E : SuperEllipse) (hE : E.Ok) : CcwPolygon (toPts E.originShape) := by
  refine samples_ccw E.num _ E.ang (2 - E.eps) (1 / E.a) (1 / E.b) (sub_pos.2 hE.hi) (one_div_pos.2 hE.a)
    (one_div_pos.2 hE.b) E.theta (fun _ => rfl) ?_
  intro i j _ _
  have hn : ∀ th, (![1 / E.a * expFun th (2 - E.eps) false, 1 / E.b * expFun th (2 - E.eps) true] : Fin 2 → ℝ) =
      E.normal th := by
    intro th; funext k; fin_cases k <;> simp [SuperEllipse.normal] <;> ring
  have e : ∀ th, E.originPoint th = rot2 E.ang *ᵥ E.canon th + ![E.px, E.py] := fun _ => rfl
  rw [hn, e, e, dotProduct_add, dotProduct_add, (rot2_orth _).dot, (rot2_orth _).dot, SuperEllipse.normal_canon hE]
  linarith [SuperEllipse.normal_le hE (E.theta i) (SuperEllipse.implicit_canon hE (E.theta j)).le]

/-- The solid is supported at each sample by the direction the code uses, if the semi-axes are equal. -/
theorem SuperEllipse.grad_support {E : SuperEllipse} (hE : E.Ok) (hab : E.a = E.b) (th : ℝ) :
    ∀ a ∈ E.solid, (rot2 E.ang *ᵥ E.gradPhi th) ⬝ᵥ a ≤ (rot2 E.ang *ᵥ E.gradPhi th) ⬝ᵥ E.originPoint th := by
  rintro a ⟨_, ⟨q, hq, rfl⟩, rfl⟩
  have hg : E.gradPhi th = (2 / E.eps * E.a) • E.normal th := by
    have := hE.a.ne'
    funext i
    fin_cases i
    · simp [SuperEllipse.gradPhi, SuperEllipse.normal]; field_simp
    · simp [SuperEllipse.gradPhi, SuperEllipse.normal, ← hab]; field_simp
  have hpos : 0 ≤ 2 / E.eps * E.a := (mul_pos (div_pos two_pos hE.lo) hE.a).le
  have e : E.originPoint th = rot2 E.ang *ᵥ E.canon th + ![E.px, E.py] := rfl
  rw [e, dotProduct_add, dotProduct_add, (rot2_orth _).dot, (rot2_orth _).dot, hg, smul_dotProduct,
    smul_dotProduct, SuperEllipse.normal_canon hE]
  have := mul_le_mul_of_nonneg_left (SuperEllipse.normal_le hE th hq) hpos
  simp only [smul_eq_mul]
  linarith

/-- The obstacle and the robot part for which the boundary is known to be convex: the obstacle has equal semi-axes, or
it is an ellipse and the robot part a disc. -/
def Round (o B : SuperEllipse) : Prop := o.a = o.b ∨ (o.eps = 1 ∧ B.a = B.b)

/-- The full claim C82: the boundary polygon of every obstacle grown by an elliptic robot part is convex. -/
def C82_claim : Prop :=
  ∀ (o B : SuperEllipse), o.Ok → B.Ok → B.eps = 1 → ConvexPolygon (toPts (o.minkSum2D B 1))

/-- C82, the grown obstacles: for an obstacle with equal semi-axes, and for an ellipse grown by a disc, the boundary
polygon is convex and run counter-clockwise. Missing: other pairs (false, `C82_refuted`). -/
theorem C82_cobstacle_convex_partial (o B : SuperEllipse) (ho : o.Ok) (hB : B.Ok) (h : Round o B) :
    CcwPolygon (toPts (o.minkSum2D B 1)) := by
  rcases h with hab | ⟨h1, hd⟩
  · have hT := ellMat_symm (rot2 B.ang) ![B.a, B.b]
    refine samples_ccw o.num _ o.ang (2 - o.eps) (2 / o.eps) (2 / o.eps) (sub_pos.2 ho.hi) (div_pos two_pos ho.lo)
      (div_pos two_pos ho.lo) o.theta (fun _ => rfl) ?_
    intro i j _ _
    change (rot2 o.ang *ᵥ o.gradPhi (o.theta i)) ⬝ᵥ _ ≤ (rot2 o.ang *ᵥ o.gradPhi (o.theta i)) ⬝ᵥ _
    rw [SuperEllipse.minkPoint_eq ho, SuperEllipse.minkPoint_eq ho, Int.cast_one, one_smul, one_smul, dotProduct_add,
      dotProduct_add]
    obtain ⟨-, hi2, hi3⟩ := ell_support hT (SuperEllipse.mat_ne hB (SuperEllipse.grad_rot_ne ho (o.theta i)))
    obtain ⟨⟨w, hw, hj1⟩, -, -⟩ := ell_support hT (SuperEllipse.mat_ne hB (SuperEllipse.grad_rot_ne ho (o.theta j)))
    have a1 := SuperEllipse.grad_support ho hab (o.theta i) _ (SuperEllipse.originPoint_mem ho (o.theta j))
    have a2 := hi3 w hw.le
    change _ + _ ⬝ᵥ ((1 / vnorm (B.mat *ᵥ _)) • (B.mat *ᵥ (B.mat *ᵥ _))) ≤
      _ + _ ⬝ᵥ ((1 / vnorm (B.mat *ᵥ _)) • (B.mat *ᵥ (B.mat *ᵥ _)))
    unfold SuperEllipse.mat at *
    rw [hi2, hj1]
    exact add_le_add a1 a2
  · -- the points of the ellipse with both semi-axes longer by the radius
    set F : SuperEllipse := { o with a := o.a + B.a, b := o.b + B.a } with hF
    have hFok : F.Ok := ⟨add_pos ho.a hB.a, add_pos ho.b hB.a, ho.lo, ho.hi⟩
    have : o.minkSum2D B 1 = F.originShape := by
      unfold SuperEllipse.minkSum2D SuperEllipse.originShape
      refine List.map_congr_left fun i _ => ?_
      rw [SuperEllipse.minkPoint_disc ho h1 hB hd]
      have e : F.theta i = o.theta i := rfl
      rw [e]
      unfold SuperEllipse.originPoint
      simp only [hF, h1, expFun_one, sc, if_true, Bool.false_eq_true, if_false]
      rw [← mulVec_smul, add_right_comm, ← mulVec_add]
      congr 2
      funext k; fin_cases k <;> simp <;> ring
    rw [this]
    exact C82_shape_convex F hFok

/-! ## The full claim is false -/

/-- A thin wall: an ellipse with semi-axes 1 and 200. -/
def exWall : SuperEllipse := ⟨1, 200, 1, 0, 0, 0, 9⟩
/-- A robot part: an ellipse with semi-axes 5 and 50. -/
def exPart : SuperEllipse := ⟨5, 50, 1, 0, 0, 0, 9⟩

theorem exWall_ok : exWall.Ok := ⟨by norm_num [exWall], by norm_num [exWall], by norm_num [exWall], by norm_num [exWall]⟩
theorem exPart_ok : exPart.Ok := ⟨by norm_num [exPart], by norm_num [exPart], by norm_num [exPart], by norm_num [exPart]⟩

theorem exWall_minkPoint (th : ℝ) : exWall.minkPoint exPart 1 th =
    ![Real.cos th + 5 * Real.cos th / Real.sqrt (Real.cos th ^ 2 + 100 * Real.sin th ^ 2),
      200 * Real.sin th + 500 * Real.sin th / Real.sqrt (Real.cos th ^ 2 + 100 * Real.sin th ^ 2)] := by
  have hR : rot2 0 = 1 := by
    ext i j; fin_cases i <;> fin_cases j <;> simp [rot2]
  have hg : exWall.gradPhi th = ![2 * Real.cos th, 2 * Real.sin th] := by
    have e : (2 : ℝ) - 1 = 1 := by norm_num
    funext i
    fin_cases i <;> simp [SuperEllipse.gradPhi, exWall, e, expFun_one, sc]
  have hT : exPart.mat = diagonal ![5, 50] := by
    simp [SuperEllipse.mat, ellMat, exPart, hR]
  have hA : exWall.ang = 0 := rfl
  have ho : exWall.originPoint th = ![Real.cos th, 200 * Real.sin th] := by
    funext i
    fin_cases i <;> simp [SuperEllipse.originPoint, exWall, hR, expFun_one, sc]
  rw [SuperEllipse.minkPoint_eq exWall_ok, ho, hA, hR, one_mulVec, hg, hT, Int.cast_one, one_smul]
  have h1 : diagonal ![(5 : ℝ), 50] *ᵥ ![2 * Real.cos th, 2 * Real.sin th] = ![10 * Real.cos th, 100 * Real.sin th] := by
    funext i; fin_cases i <;> simp [mulVec_diagonal] <;> ring
  have h2 : diagonal ![(5 : ℝ), 50] *ᵥ ![10 * Real.cos th, 100 * Real.sin th] =
      ![50 * Real.cos th, 5000 * Real.sin th] := by
    funext i; fin_cases i <;> simp [mulVec_diagonal] <;> ring
  have h3 : vnorm ![10 * Real.cos th, 100 * Real.sin th] = 10 * Real.sqrt (Real.cos th ^ 2 + 100 * Real.sin th ^ 2) := by
    have e : (![10 * Real.cos th, 100 * Real.sin th] : Fin 2 → ℝ) ⬝ᵥ ![10 * Real.cos th, 100 * Real.sin th] =
        10 ^ 2 * (Real.cos th ^ 2 + 100 * Real.sin th ^ 2) := by
      simp [dotProduct, Fin.sum_univ_two]; ring
    rw [vnorm, e, Real.sqrt_mul (by norm_num), Real.sqrt_sq (by norm_num)]
  rw [h1, h2, h3]
  have hM : 0 < Real.sqrt (Real.cos th ^ 2 + 100 * Real.sin th ^ 2) := by
    apply Real.sqrt_pos.2
    nlinarith [Real.cos_sq_add_sin_sq th, sq_nonneg (Real.sin th)]
  funext i
  fin_cases i <;> simp <;> field_simp <;> ring

/-- Bounds for a sample from bounds for its sine and cosine. -/
theorem sqrt_between {v l u : ℝ} (_ : 0 ≤ l) (hu : 0 ≤ u) (h1 : l ^ 2 ≤ v) (h2 : v ≤ u ^ 2) :
    l ≤ Real.sqrt v ∧ Real.sqrt v ≤ u :=
  ⟨Real.le_sqrt_of_sq_le h1, Real.sqrt_le_iff.2 ⟨hu, h2⟩⟩

theorem hrmPi_near : |hrmPi - Real.pi| ≤ 1 / 10 ^ 7 := by
  have h1 := Real.pi_gt_d20
  have h2 := Real.pi_lt_d20
  rw [abs_le, hrmPi]
  constructor <;> norm_num at * <;> linarith

theorem near_trig (k : ℝ) (hk0 : 0 ≤ k) (hk : k ≤ 2) :
    |Real.cos (k * hrmPi) - Real.cos (k * Real.pi)| ≤ 1 / 10 ^ 6 ∧
    |Real.sin (k * hrmPi) - Real.sin (k * Real.pi)| ≤ 1 / 10 ^ 6 := by
  have h : |k * hrmPi - k * Real.pi| ≤ 1 / 10 ^ 6 := by
    rw [← mul_sub, abs_mul, abs_of_nonneg hk0]
    have := hrmPi_near
    have h2 : k * |hrmPi - Real.pi| ≤ 2 * (1 / 10 ^ 7) := mul_le_mul hk this (abs_nonneg _) (by norm_num)
    refine h2.trans (by norm_num)
  exact ⟨(Real.abs_cos_sub_cos_le _ _).trans h, (Real.abs_sin_sub_sin_le _ _).trans h⟩

theorem sqrt2_bounds : 0.70710 < Real.sqrt 2 / 2 ∧ Real.sqrt 2 / 2 < 0.70711 := by
  obtain ⟨h1, h2⟩ := sqrt_between (v := 2) (l := 1.414203) (u := 1.414217) (by norm_num) (by norm_num) (by norm_num)
    (by norm_num)
  constructor <;> norm_num at * <;> linarith

/-- Coordinates of a sample with sine `v` and cosine `u`. -/
noncomputable def wallX (u v : ℝ) : ℝ := u + 5 * u / Real.sqrt (u ^ 2 + 100 * v ^ 2)
/-- See `wallX`. -/
noncomputable def wallY (u v : ℝ) : ℝ := 200 * v + 500 * v / Real.sqrt (u ^ 2 + 100 * v ^ 2)

theorem wall4 {u v : ℝ} (h : |u + 1| ≤ 1 / 10 ^ 6) (h' : |v| ≤ 1 / 10 ^ 6) : wallX u v < -5 ∧ -1 < wallY u v := by
  rw [abs_le] at h h'
  obtain ⟨a1, a2⟩ := h
  obtain ⟨b1, b2⟩ := h'
  obtain ⟨m, m'⟩ := sqrt_between (v := u ^ 2 + 100 * v ^ 2) (l := 0.999) (u := 1.001) (by norm_num) (by norm_num)
    (by nlinarith) (by nlinarith)
  unfold wallX wallY
  set M := Real.sqrt (u ^ 2 + 100 * v ^ 2)
  have p : 0 < M := by linarith
  have h1 : 5 * u / M < -4.9 := by rw [div_lt_iff₀ p]; linarith
  have h2 : -(1 / 2) < 500 * v / M := by rw [lt_div_iff₀ p]; linarith
  constructor <;> linarith

theorem wall6 {u v : ℝ} (h : |u| ≤ 1 / 10 ^ 6) (h' : |v + 1| ≤ 1 / 10 ^ 6) :
    (wallX u v < 1 / 100 ∧ -(1 / 100) < wallX u v) ∧ wallY u v < -249.9 ∧ -250.1 < wallY u v := by
  rw [abs_le] at h h'
  obtain ⟨a1, a2⟩ := h
  obtain ⟨b1, b2⟩ := h'
  obtain ⟨m, m'⟩ := sqrt_between (v := u ^ 2 + 100 * v ^ 2) (l := 9.999) (u := 10.001) (by norm_num) (by norm_num)
    (by nlinarith) (by nlinarith)
  unfold wallX wallY
  set M := Real.sqrt (u ^ 2 + 100 * v ^ 2)
  have p : 0 < M := by linarith
  have h1 : 5 * u / M < 1 / 200 := by rw [div_lt_iff₀ p]; linarith
  have h2 : -(1 / 200) < 5 * u / M := by rw [lt_div_iff₀ p]; linarith
  have h3 : 500 * v / M < -49.98 := by rw [div_lt_iff₀ p]; linarith
  have h4 : -50.02 < 500 * v / M := by rw [lt_div_iff₀ p]; linarith
  refine ⟨⟨?_, ?_⟩, ?_, ?_⟩ <;> linarith

theorem wall7 {u v : ℝ} (h : 0.7070 < u ∧ u < 0.7072) (h' : -0.7072 < v ∧ v < -0.7070) :
    (wallX u v < 1.21 ∧ 1.2 < wallX u v) ∧ wallY u v < -191 ∧ -192 < wallY u v := by
  obtain ⟨a1, a2⟩ := h
  obtain ⟨b1, b2⟩ := h'
  obtain ⟨m, m'⟩ := sqrt_between (v := u ^ 2 + 100 * v ^ 2) (l := 7.105) (u := 7.1075) (by norm_num) (by norm_num)
    (by nlinarith) (by nlinarith)
  unfold wallX wallY
  set M := Real.sqrt (u ^ 2 + 100 * v ^ 2)
  have p : 0 < M := by linarith
  have h1 : 5 * u / M < 0.4978 := by rw [div_lt_iff₀ p]; linarith
  have h2 : 0.497 < 5 * u / M := by rw [lt_div_iff₀ p]; linarith
  have h3 : 500 * v / M < -49.7 := by rw [div_lt_iff₀ p]; linarith
  have h4 : -49.8 < 500 * v / M := by rw [lt_div_iff₀ p]; linarith
  refine ⟨⟨?_, ?_⟩, ?_, ?_⟩ <;> linarith

theorem wall_cross {X4 Y4 X6 Y6 X7 Y7 : ℝ} (h4 : X4 < -5 ∧ -1 < Y4)
    (h6 : (X6 < 1 / 100 ∧ -(1 / 100) < X6) ∧ Y6 < -249.9 ∧ -250.1 < Y6)
    (h7 : (X7 < 1.21 ∧ 1.2 < X7) ∧ Y7 < -191 ∧ -192 < Y7) :
    cross ((X6, Y6), (X7, Y7)) (6, 0) < 0 ∧ 0 < cross ((X6, Y6), (X7, Y7)) (X4, Y4) := by
  obtain ⟨x4, y4⟩ := h4
  obtain ⟨⟨x6, x6'⟩, y6, y6'⟩ := h6
  obtain ⟨⟨x7, x7'⟩, y7, y7'⟩ := h7
  simp only [cross]
  constructor
  · have e1 : (X7 - X6) * (0 - Y6) ≤ 1.22 * 250.1 := by
      apply mul_le_mul <;> linarith
    have e2 : 57.9 * 5.99 ≤ (Y7 - Y6) * (6 - X6) := by
      apply mul_le_mul <;> linarith
    norm_num at e1 e2
    linarith
  · have e1 : 0 < (X7 - X6) * (Y4 - Y6) := mul_pos (by linarith) (by linarith)
    have e2 : 0 < (Y7 - Y6) * (X6 - X4) := mul_pos (by linarith) (by linarith)
    linarith

/-- **C82 is false of the code** for elongated obstacles: the boundary of a thin wall grown by an elongated part is not
convex: of the samples 0 and 4, one is to the right and one to the left of the edge from sample 6 to sample 7. (The code
uses the normal of the circle, see `C47_wrong_normal`.) -/
theorem C82_nonconvex : ∃ e ∈ edgesOf (toPts (exWall.minkSum2D exPart 1)),
    (∃ v ∈ toPts (exWall.minkSum2D exPart 1), cross e v < 0) ∧ ∃ v ∈ toPts (exWall.minkSum2D exPart 1), 0 < cross e v := by
  obtain ⟨r1, r2⟩ := sqrt2_bounds
  have hl : toPts (exWall.minkSum2D exPart 1) = (List.range 9).map fun i =>
      (wallX (Real.cos (exWall.theta i)) (Real.sin (exWall.theta i)),
        wallY (Real.cos (exWall.theta i)) (Real.sin (exWall.theta i))) := by
    simp only [toPts, SuperEllipse.minkSum2D, List.map_map]
    refine List.map_congr_left fun i _ => ?_
    rw [Function.comp, exWall_minkPoint]; rfl
  have th : ∀ i : ℕ, exWall.theta i = (i / 4 : ℝ) * hrmPi := by
    intro i; simp only [SuperEllipse.theta, exWall]; norm_num; ring
  have k0 : exWall.theta 0 = 0 := by rw [th]; norm_num
  have k4 : exWall.theta 4 = 1 * hrmPi := by rw [th]; norm_num
  have k6 : exWall.theta 6 = 3 / 2 * hrmPi := by rw [th]; norm_num
  have k7 : exWall.theta 7 = 7 / 4 * hrmPi := by rw [th]; norm_num
  have t6 : (3 / 2 : ℝ) * Real.pi = Real.pi / 2 + Real.pi := by ring
  have t7 : (7 / 4 : ℝ) * Real.pi = - (Real.pi / 4) + 2 * Real.pi := by ring
  have n4 := near_trig 1 (by norm_num) (by norm_num)
  have n6 := near_trig (3 / 2) (by norm_num) (by norm_num)
  have n7 := near_trig (7 / 4) (by norm_num) (by norm_num)
  rw [t7, Real.cos_add_two_pi, Real.cos_neg, Real.cos_pi_div_four, Real.sin_add_two_pi, Real.sin_neg,
    Real.sin_pi_div_four] at n7
  rw [t6, Real.cos_add_pi, Real.cos_pi_div_two, Real.sin_add_pi, Real.sin_pi_div_two, neg_zero, sub_zero,
    sub_neg_eq_add] at n6
  rw [one_mul Real.pi, Real.cos_pi, Real.sin_pi, sub_zero, sub_neg_eq_add] at n4
  have w4 := wall4 n4.1 n4.2
  have w6 := wall6 n6.1 n6.2
  obtain ⟨m, m'⟩ := n7
  rw [abs_le] at m m'
  have w7 := wall7 (u := Real.cos (7 / 4 * hrmPi)) (v := Real.sin (7 / 4 * hrmPi))
    ⟨by linarith [m.1, m.2], by linarith [m.1, m.2]⟩ ⟨by linarith [m'.1, m'.2], by linarith [m'.1, m'.2]⟩
  obtain ⟨c1, c2⟩ := wall_cross w4 w6 w7
  rw [← k4] at c2
  rw [← k6, ← k7] at c1 c2
  have e0 : wallX (Real.cos (exWall.theta 0)) (Real.sin (exWall.theta 0)) = 6 ∧
      wallY (Real.cos (exWall.theta 0)) (Real.sin (exWall.theta 0)) = 0 := by
    rw [k0]; norm_num [wallX, wallY]
  rw [show ((6 : ℝ), (0 : ℝ)) = (wallX (Real.cos (exWall.theta 0)) (Real.sin (exWall.theta 0)),
      wallY (Real.cos (exWall.theta 0)) (Real.sin (exWall.theta 0))) by rw [e0.1, e0.2]] at c1
  rw [hl]
  refine ⟨_, ?_, ⟨_, List.mem_map.2 ⟨0, List.mem_range.2 (by norm_num), rfl⟩, c1⟩,
    ⟨_, List.mem_map.2 ⟨4, List.mem_range.2 (by norm_num), rfl⟩, c2⟩⟩
  have hmem : ∀ f : ℕ → Pt ℝ, (f 6, f 7) ∈ edgesOf ((List.range 9).map f) := by
    intro f; simp [List.range_succ, edgesOf]
  exact hmem fun i => (wallX (Real.cos (exWall.theta i)) (Real.sin (exWall.theta i)),
    wallY (Real.cos (exWall.theta i)) (Real.sin (exWall.theta i)))

theorem C82_refuted : ¬ C82_claim := by
  intro h
  obtain ⟨e, he, ⟨v, hv, h1⟩, w, hw, h2⟩ := C82_nonconvex
  rcases h exWall exPart exWall_ok exPart_ok rfl with c | c
  · exact absurd (c e he v hv) (not_le.2 h1)
  · exact absurd (c e he w hw) (not_le.2 h2)

/-! ## Robots with several bodies, and what it gives for the planner -/

theorem edgesOf_map (f : Pt ℝ → Pt ℝ) (l : List (Pt ℝ)) : edgesOf (l.map f) = (edgesOf l).map (Prod.map f f) := by
  cases l with
  | nil => rfl
  | cons p ps =>
    simp only [List.map_cons, edgesOf]
    rw [show List.map f ps ++ [f p] = (ps ++ [p]).map f by simp, ← List.map_cons, List.zip_map]

theorem CcwPolygon.translate {l : List (Fin 2 → ℝ)} (h : CcwPolygon (toPts l)) (t : Fin 2 → ℝ) :
    CcwPolygon (toPts (l.map fun p => p - t)) := by
  have e : toPts (l.map fun p => p - t) = (toPts l).map fun p => (p.1 - t 0, p.2 - t 1) := by
    simp [toPts, List.map_map, Function.comp_def]
  rw [e]
  intro ed he v hv
  rw [edgesOf_map] at he
  obtain ⟨e', he', rfl⟩ := List.mem_map.1 he
  obtain ⟨v', hv', rfl⟩ := List.mem_map.1 hv
  have := h e' he' v' hv'
  have e2 : cross (Prod.map (fun p : Pt ℝ => (p.1 - t 0, p.2 - t 1)) (fun p : Pt ℝ => (p.1 - t 0, p.2 - t 1)) e')
      (v'.1 - t 0, v'.2 - t 1) = cross e' v' := by
    simp only [cross, Prod.map_fst, Prod.map_snd]; ring
  rw [e2]; exact this

theorem Tree2.mem_minkSum {T : Tree2} {s : SuperEllipse} {k : ℤ} {bs : List (List (Fin 2 → ℝ))}
    (h : T.minkSum s k = .ok bs) {c : List (Fin 2 → ℝ)} (hc : c ∈ bs) :
    c = s.minkSum2D T.base k ∨ ∃ i, T.minkLink s k i = .ok c := by
  unfold Tree2.minkSum at h
  suffices ∀ (l : List ℕ) (acc bs : List (List (Fin 2 → ℝ))),
      l.foldlM (fun acc i => (T.minkLink s k i).bind fun b => Res.ok (acc ++ [b])) acc = .ok bs →
      c ∈ bs → c ∈ acc ∨ ∃ i, T.minkLink s k i = .ok c by
    rcases this _ _ _ h hc with h | h
    · exact Or.inl (List.mem_singleton.1 h)
    · exact Or.inr h
  intro l
  induction l with
  | nil =>
    intro acc bs h hc
    obtain rfl := (Res.ok.injEq _ _).mp h
    exact Or.inl hc
  | cons i l ih =>
    intro acc bs h hc
    rw [List.foldlM_cons] at h
    obtain ⟨a, h1, h⟩ := Res.bind_eq_ok.1 h
    obtain ⟨b, h2, h1⟩ := Res.bind_eq_ok.1 h1
    obtain rfl := (Res.ok.injEq _ _).mp h1
    rcases ih _ _ h hc with h | h
    · rcases List.mem_append.1 h with h | h
      · exact Or.inl h
      · rw [List.mem_singleton.1 h]; exact Or.inr ⟨i, h2⟩
    · exact Or.inr h

theorem mem_bodyBoundaries {T : Tree2} {objs : List SuperEllipse} {k : ℤ} {bs : List (List (Pt ℝ))}
    (h : bodyBoundaries T objs k = .ok bs) {c : List (Pt ℝ)} (hc : c ∈ bs) :
    ∃ o ∈ objs, ∃ ms, T.minkSum o k = .ok ms ∧ ∃ m ∈ ms, c = toPts m := by
  unfold bodyBoundaries at h
  suffices ∀ (l : List SuperEllipse) (acc bs : List (List (Pt ℝ))),
      l.foldlM (fun acc o => (T.minkSum o k).bind fun b => Res.ok (acc ++ b.map toPts)) acc = .ok bs →
      c ∈ bs → c ∈ acc ∨ ∃ o ∈ l, ∃ ms, T.minkSum o k = .ok ms ∧ ∃ m ∈ ms, c = toPts m by
    rcases this _ _ _ h hc with h | h
    · exact nomatch h
    · exact h
  intro l
  induction l with
  | nil =>
    intro acc bs h hc
    obtain rfl := (Res.ok.injEq _ _).mp h
    exact Or.inl hc
  | cons o l ih =>
    intro acc bs h hc
    rw [List.foldlM_cons] at h
    obtain ⟨a, h1, h⟩ := Res.bind_eq_ok.1 h
    obtain ⟨b, h2, h1⟩ := Res.bind_eq_ok.1 h1
    obtain rfl := (Res.ok.injEq _ _).mp h1
    rcases ih _ _ h hc with h | ⟨o', ho', h⟩
    · rcases List.mem_append.1 h with h | h
      · exact Or.inl h
      · obtain ⟨m, hm, rfl⟩ := List.mem_map.1 h
        exact Or.inr ⟨o, by simp, b, h2, m, hm, rfl⟩
    · exact Or.inr ⟨o', by simp [ho'], h⟩

/-- C82, robots: for a robot built by public calls from well-formed bodies, and obstacles that are round or (when they
are ellipses) only meet disc-shaped bodies, every obstacle boundary handed to the planner is a convex polygon with at
least one vertex. Missing: other obstacles, see `C82_refuted`. -/
theorem C82_robot_boundaries_partial (base : SuperEllipse) (ops : List (RobotOp SuperEllipse 2)) (robot : Tree2)
    (hrun : Tree2.run ops (Tree2.new base) = .ok robot) (arena obs : List SuperEllipse) (hbase : base.Ok)
    (hlinks : ∀ l ∈ addedBodies ops, l.Ok) (hobs : ∀ o ∈ obs, o.Ok ∧ o.num ≠ 0 ∧ Round o base ∧
      ∀ l ∈ addedBodies ops, Round o l) (B : Bound2) (hB : cspaceBoundary robot arena obs = .ok B) :
    ∀ sh ∈ B.obstacle, sh ≠ [] ∧ ConvexPolygon sh := by
  have hi := run_inv_of hrun
  intro sh hsh
  unfold cspaceBoundary at hB
  obtain ⟨A, -, hB⟩ := Res.bind_eq_ok.1 hB
  obtain ⟨O, hO, hB⟩ := Res.bind_eq_ok.1 hB
  obtain rfl := (Res.ok.injEq _ _).mp hB
  obtain ⟨o, ho, ms, hms, m, hm, rfl⟩ := mem_bodyBoundaries hO hsh
  obtain ⟨hok, hn, hr1, hr2⟩ := hobs o ho
  constructor
  · obtain ⟨ms', e, -, hl⟩ := hi.minkSum_ok o 1
    rw [hms] at e
    obtain rfl := (Res.ok.injEq _ _).mp e
    have := hl m hm
    intro h0
    apply hn
    rw [← this]
    simpa [toPts] using h0
  · refine CcwPolygon.convex ?_
    rcases Tree2.mem_minkSum hms hm with rfl | ⟨i, hi'⟩
    · obtain ⟨s1, s2, s3, s4⟩ := hi.base
      refine C82_cobstacle_convex_partial o _ hok ⟨by rw [s1]; exact hbase.a, by rw [s2]; exact hbase.b,
        by rw [s3]; exact hbase.lo, by rw [s3]; exact hbase.hi⟩ ?_
      unfold Round
      rw [s1, s2]; exact hr1
    · unfold Tree2.minkLink at hi'
      obtain ⟨l', h1, hi'⟩ := Res.bind_eq_ok.1 hi'
      obtain ⟨t, h2, hi'⟩ := Res.bind_eq_ok.1 hi'
      obtain rfl := (Res.ok.injEq _ _).mp hi'
      have h1 := Res.at'_eq_ok.1 h1
      have hlt : i < (addedBodies ops).length := by rw [← hi.len]; exact (List.getElem?_eq_some_iff.1 h1).1
      have hl := List.getElem?_eq_getElem hlt
      obtain ⟨s1, s2, s3, s4⟩ := hi.same i _ l' hl h1
      have hmem := List.mem_of_getElem? hl
      have hlok := hlinks _ hmem
      refine CcwPolygon.translate (C82_cobstacle_convex_partial o _ hok ⟨?_, ?_, ?_, ?_⟩ ?_) _
      · rw [s1]; exact hlok.a
      · rw [s2]; exact hlok.b
      · rw [s3]; exact hlok.lo
      · rw [s3]; exact hlok.hi
      · have := hr2 _ hmem
        unfold Round at this ⊢
        rw [s1, s2]; exact this

/-- C82 and C71: for such a robot and such obstacles, no configuration sampled by the planner is strictly inside (at its
own height) a boundary polygon, if no polygon vertex is exactly on a sweep line. -/
theorem C82_sampled_outside_partial (L : Libs2) (base : SuperEllipse) (ops : List (RobotOp SuperEllipse 2)) (robot : Tree2)
    (hrun : Tree2.run ops (Tree2.new base) = .ok robot) (arena obs : List SuperEllipse) (hbase : base.Ok)
    (hlinks : ∀ l ∈ addedBodies ops, l.Ok) (hobs : ∀ o ∈ obs, o.Ok ∧ o.num ≠ 0 ∧ Round o base ∧
      ∀ l ∈ addedBodies ops, Round o l) (harena : arena ≠ []) (par : Param2) (hl : 2 ≤ par.numLineY)
    (hy : par.yLo ≤ par.yHi) (hlow : L.dmin ≤ par.xLo) (hup : par.xHi ≤ L.dmax) :
    ∃ B, cspaceBoundary robot arena obs = .ok B ∧
      ((∀ sh ∈ B.arena, ∀ v ∈ sh, L.dmin ≤ v.1 ∧ v.1 ≤ L.dmax) →
       (∀ sh ∈ B.obstacle, ∀ y ∈ par.lines, ∀ v ∈ sh, v.2 ≠ y) →
        ∃ rows, sweep2D L.sort L.dmin L.dmax par.xLo par.xHi B.arena B.obstacle par.lines = .ok rows ∧
          ∀ v, Sampled par rows v → ∃ x y th, v = [x, y, th] ∧ par.yLo ≤ y ∧ y ≤ par.yHi ∧
            ∀ sh ∈ B.obstacle, ¬ InSlice sh (x, y)) := by
  obtain ⟨B, hB, hl1, -⟩ := cspaceBoundary_ok (run_inv_of hrun) arena obs
  refine ⟨B, hB, fun hb hv => ?_⟩
  have hcv := C82_robot_boundaries_partial base ops robot hrun arena obs hbase hlinks hobs B hB
  have hane : B.arena ≠ [] := by
    intro h0
    rw [h0, List.length_nil] at hl1
    have : 0 < arena.length := List.length_pos_iff.2 harena
    have := Nat.mul_pos (show 0 < 1 + (addedBodies ops).length by omega) this
    omega
  obtain ⟨rows, e, -⟩ := C60_sweep2D_exact L.sort L.dmin L.dmax par.xLo par.xHi hlow hup B.arena B.obstacle
    par.lines (lines_ne (by omega)) hane hb hcv hv
  refine ⟨rows, e, fun v hvs => ?_⟩
  obtain ⟨x, y, th, a, b, c, -, d⟩ := C71_sampled_outside L par hl hy B hane hlow hup hb hcv hv rows e v hvs
  exact ⟨x, y, th, a, b, c, d⟩

/-- C82 and C53: for round obstacles (or ellipses and an enclosing disc) the point test of the check between two slices
rejects exactly the points strictly inside a boundary at their height, if no boundary vertex is at that height. -/
theorem C82_swept_clear_partial (obs : List SuperEllipse) (E : SuperEllipse) (hE : E.Ok)
    (hobs : ∀ o ∈ obs, o.Ok ∧ o.num ≠ 0 ∧ Round o E) (p : Pt ℝ)
    (hv : ∀ sh ∈ bridgeBound obs E, ∀ w ∈ sh, w.2 ≠ p.2) :
    SweptClear obs E p ↔ ∀ sh ∈ bridgeBound obs E, ¬ InSlice sh p := by
  refine C53_swept_clear obs E p (fun sh hsh => ?_) hv
  obtain ⟨o, ho, rfl⟩ := List.mem_map.1 hsh
  obtain ⟨hok, hn, hr⟩ := hobs o ho
  refine ⟨?_, (C82_cobstacle_convex_partial o _ hok ⟨hE.a, hE.b, hE.lo, hE.hi⟩ hr).convex⟩
  intro h0
  apply hn
  have : (toPts (o.minkSum2D { E with px := 0, py := 0 } 1)).length = o.num := by
    simp [toPts, SuperEllipse.minkSum2D]
  rw [← this, h0, List.length_nil]

/-- A witness: a superellipse with equal semi-axes and an elongated part; an ellipse and a disc. -/
example : Round ⟨2, 2, 1 / 2, 7, 8, 1, 20⟩ exPart ∧ Round exWall ⟨3, 3, 1, 0, 0, 0, 9⟩ ∧ ¬ Round exWall exPart := by
  refine ⟨Or.inl rfl, Or.inr ⟨rfl, rfl⟩, ?_⟩
  rintro (h | ⟨-, h⟩) <;> norm_num [exWall, exPart] at h

/-- A point of a convex set on the line through two of its points. -/
theorem slice_point {S : Set (Pt ℝ)} (hS : Convex ℝ S) {p q : Pt ℝ} (hp : p ∈ S) (hq : q ∈ S) {h : ℝ} (h1 : p.2 < h)
    (h2 : h < q.2) : ∃ x, (x, h) ∈ S ∧ min p.1 q.1 ≤ x ∧ x ≤ max p.1 q.1 := by
  have hd : 0 < q.2 - p.2 := by linarith
  have ha : 0 ≤ (q.2 - h) / (q.2 - p.2) := div_nonneg (by linarith) hd.le
  have hb : 0 ≤ (h - p.2) / (q.2 - p.2) := div_nonneg (by linarith) hd.le
  have hab : (q.2 - h) / (q.2 - p.2) + (h - p.2) / (q.2 - p.2) = 1 := by field_simp; ring
  have hm := hS hp hq ha hb hab
  refine ⟨(q.2 - h) / (q.2 - p.2) * p.1 + (h - p.2) / (q.2 - p.2) * q.1, ?_, ?_, ?_⟩
  · convert hm using 1
    ext
    · simp
    · simp; field_simp; ring
  · have e1 := mul_le_mul_of_nonneg_left (min_le_left p.1 q.1) ha
    have e2 := mul_le_mul_of_nonneg_left (min_le_right p.1 q.1) hb
    have e3 : (q.2 - h) / (q.2 - p.2) * min p.1 q.1 + (h - p.2) / (q.2 - p.2) * min p.1 q.1 = min p.1 q.1 := by
      rw [← add_mul, hab, one_mul]
    linarith
  · have e1 := mul_le_mul_of_nonneg_left (le_max_left p.1 q.1) ha
    have e2 := mul_le_mul_of_nonneg_left (le_max_right p.1 q.1) hb
    have e3 : (q.2 - h) / (q.2 - p.2) * max p.1 q.1 + (h - p.2) / (q.2 - p.2) * max p.1 q.1 = max p.1 q.1 := by
      rw [← add_mul, hab, one_mul]
    linarith

/-- A witness for C81 and C82: a unit disc at the origin and a disc-shaped robot part; the point `(0, 1/2)` is
rejected. -/
theorem C82_rejects_example : isPtInCFree2D ((0, 1 / 2) : Pt ℝ) (bridgeBound [exDisc 9] (exDisc 9)) = .ok false := by
  obtain ⟨r1, r2⟩ := sqrt2_bounds
  have hd := exDisc_ok 9
  have th : ∀ i : ℕ, (exDisc 9).theta i = (i / 4 : ℝ) * hrmPi := by
    intro i; simp only [SuperEllipse.theta, exDisc]; norm_num; ring
  have hl : bridgeBound [exDisc 9] (exDisc 9) = [(List.range 9).map fun i : ℕ =>
      (2 * Real.cos ((i / 4 : ℝ) * hrmPi), 2 * Real.sin ((i / 4 : ℝ) * hrmPi))] := by
    simp only [bridgeBound, List.map_cons, List.map_nil, toPts, SuperEllipse.minkSum2D, List.map_map]
    congr 1
    refine List.map_congr_left fun i _ => ?_
    have hp := SuperEllipse.minkPoint_disc (B := { exDisc 9 with px := 0, py := 0 }) hd rfl
      ⟨hd.a, hd.b, hd.lo, hd.hi⟩ rfl ((exDisc 9).theta i)
    rw [Function.comp, hp, th]
    have hR : rot2 0 = 1 := by
      ext i j; fin_cases i <;> fin_cases j <;> simp [rot2]
    simp only [exDisc, hR, one_mul, one_smul, one_mulVec]
    ext
    · simp; ring
    · simp; ring
  -- the samples
  have hnear : ∀ (i : ℕ), i < 9 → ∀ c s : ℝ, Real.cos ((i / 4 : ℝ) * Real.pi) = c → Real.sin ((i / 4 : ℝ) * Real.pi) = s →
      |Real.cos ((i / 4 : ℝ) * hrmPi) - c| ≤ 1 / 10 ^ 6 ∧ |Real.sin ((i / 4 : ℝ) * hrmPi) - s| ≤ 1 / 10 ^ 6 := by
    intro i hi c s hc hs
    have hi' : (i : ℝ) ≤ 8 := by exact_mod_cast (by omega : i ≤ 8)
    have := near_trig (i / 4 : ℝ) (by positivity) (by linarith)
    rwa [hc, hs] at this
  set q := Real.sqrt 2 / 2 with hq
  have c0 := hnear 0 (by norm_num) 1 0 (by norm_num) (by norm_num)
  have c1 := hnear 1 (by norm_num) q q
    (by rw [show (((1 : ℕ) : ℝ) / 4) * Real.pi = Real.pi / 4 by push_cast; ring, Real.cos_pi_div_four])
    (by rw [show (((1 : ℕ) : ℝ) / 4) * Real.pi = Real.pi / 4 by push_cast; ring, Real.sin_pi_div_four])
  have c2 := hnear 2 (by norm_num) 0 1
    (by rw [show (((2 : ℕ) : ℝ) / 4) * Real.pi = Real.pi / 2 by push_cast; ring, Real.cos_pi_div_two])
    (by rw [show (((2 : ℕ) : ℝ) / 4) * Real.pi = Real.pi / 2 by push_cast; ring, Real.sin_pi_div_two])
  have c3 := hnear 3 (by norm_num) (-q) q
    (by rw [show (((3 : ℕ) : ℝ) / 4) * Real.pi = Real.pi - Real.pi / 4 by push_cast; ring, Real.cos_pi_sub, Real.cos_pi_div_four])
    (by rw [show (((3 : ℕ) : ℝ) / 4) * Real.pi = Real.pi - Real.pi / 4 by push_cast; ring, Real.sin_pi_sub, Real.sin_pi_div_four])
  have c4 := hnear 4 (by norm_num) (-1) 0
    (by rw [show (((4 : ℕ) : ℝ) / 4) * Real.pi = Real.pi by push_cast; ring, Real.cos_pi])
    (by rw [show (((4 : ℕ) : ℝ) / 4) * Real.pi = Real.pi by push_cast; ring, Real.sin_pi])
  have c5 := hnear 5 (by norm_num) (-q) (-q)
    (by rw [show (((5 : ℕ) : ℝ) / 4) * Real.pi = Real.pi / 4 + Real.pi by push_cast; ring, Real.cos_add_pi, Real.cos_pi_div_four])
    (by rw [show (((5 : ℕ) : ℝ) / 4) * Real.pi = Real.pi / 4 + Real.pi by push_cast; ring, Real.sin_add_pi, Real.sin_pi_div_four])
  have c6 := hnear 6 (by norm_num) 0 (-1)
    (by rw [show (((6 : ℕ) : ℝ) / 4) * Real.pi = Real.pi / 2 + Real.pi by push_cast; ring, Real.cos_add_pi, Real.cos_pi_div_two, neg_zero])
    (by rw [show (((6 : ℕ) : ℝ) / 4) * Real.pi = Real.pi / 2 + Real.pi by push_cast; ring, Real.sin_add_pi, Real.sin_pi_div_two])
  have c7 := hnear 7 (by norm_num) q (-q)
    (by rw [show (((7 : ℕ) : ℝ) / 4) * Real.pi = - (Real.pi / 4) + 2 * Real.pi by push_cast; ring, Real.cos_add_two_pi, Real.cos_neg, Real.cos_pi_div_four])
    (by rw [show (((7 : ℕ) : ℝ) / 4) * Real.pi = - (Real.pi / 4) + 2 * Real.pi by push_cast; ring, Real.sin_add_two_pi, Real.sin_neg, Real.sin_pi_div_four])
  have c8 := hnear 8 (by norm_num) 1 0
    (by rw [show (((8 : ℕ) : ℝ) / 4) * Real.pi = 2 * Real.pi by push_cast; ring, Real.cos_two_pi])
    (by rw [show (((8 : ℕ) : ℝ) / 4) * Real.pi = 2 * Real.pi by push_cast; ring, Real.sin_two_pi])
  simp only [abs_le] at c0 c1 c2 c3 c4 c5 c6 c7 c8
  have hv : ∀ sh ∈ bridgeBound [exDisc 9] (exDisc 9), ∀ w ∈ sh, w.2 ≠ ((0, 1 / 2) : Pt ℝ).2 := by
    rw [hl]
    intro sh hsh w hw
    rw [List.mem_singleton.1 hsh] at hw
    obtain ⟨i, hi, rfl⟩ := List.mem_map.1 hw
    have hi : i < 9 := List.mem_range.1 hi
    intro h
    simp only at h
    interval_cases i
    · linarith [c0.2.1, c0.2.2]
    · linarith [c1.2.1, c1.2.2]
    · linarith [c2.2.1, c2.2.2]
    · linarith [c3.2.1, c3.2.2]
    · linarith [c4.2.1, c4.2.2]
    · linarith [c5.2.1, c5.2.2]
    · linarith [c6.2.1, c6.2.2]
    · linarith [c7.2.1, c7.2.2]
    · linarith [c8.2.1, c8.2.2]
  have hR : Round (exDisc 9) (exDisc 9) := Or.inl rfl
  obtain ⟨b, e, hb⟩ := C60_point_in_cfree ((0, 1 / 2) : Pt ℝ) (bridgeBound [exDisc 9] (exDisc 9)) (by
    intro sh hsh
    refine ⟨?_, ?_⟩
    · rw [hl] at hsh; rw [List.mem_singleton.1 hsh]; simp [List.range_succ]
    · obtain ⟨o, ho, rfl⟩ := List.mem_map.1 hsh
      rw [List.mem_singleton.1 ho]
      exact (C82_cobstacle_convex_partial (exDisc 9) _ hd ⟨hd.a, hd.b, hd.lo, hd.hi⟩ hR).convex) hv
  rw [e, hb.2]
  rw [hl]
  refine ⟨_, List.mem_singleton.2 rfl, ?_⟩
  have hmem : ∀ i : ℕ, i < 9 → (2 * Real.cos ((i / 4 : ℝ) * hrmPi), 2 * Real.sin ((i / 4 : ℝ) * hrmPi)) ∈
      region ((List.range 9).map fun i : ℕ => (2 * Real.cos ((i / 4 : ℝ) * hrmPi), 2 * Real.sin ((i / 4 : ℝ) * hrmPi))) :=
    fun i hi => subset_convexHull ℝ _ (List.mem_map.2 ⟨i, List.mem_range.2 hi, rfl⟩)
  have hc : Convex ℝ (region ((List.range 9).map fun i : ℕ =>
      (2 * Real.cos ((i / 4 : ℝ) * hrmPi), 2 * Real.sin ((i / 4 : ℝ) * hrmPi)))) := convex_convexHull ℝ _
  obtain ⟨x2, m2, l2, -⟩ := slice_point hc (hmem 7 (by norm_num)) (hmem 1 (by norm_num)) (h := 1 / 2)
    (by simp only; linarith [c7.2.2]) (by simp only; linarith [c1.2.1])
  obtain ⟨x1, m1, -, l1⟩ := slice_point hc (hmem 5 (by norm_num)) (hmem 3 (by norm_num)) (h := 1 / 2)
    (by simp only; linarith [c5.2.2]) (by simp only; linarith [c3.2.1])
  refine ⟨x1, x2, ?_, ?_, m1, m2⟩
  · refine l1.trans_lt (max_lt ?_ ?_)
    · simp only; linarith [c5.1.2]
    · simp only; linarith [c3.1.2]
  · refine lt_of_lt_of_le (lt_min ?_ ?_) l2
    · simp only; linarith [c7.1.1]
    · simp only; linarith [c1.1.1]

end Hrm
