import Verif.Lemmas.BallMesh
import Verif.Props.PathWitness3D
import Verif.Props.Enclose3D

/-!
# C91: a ball among balls — how deep can the robot reach into an obstacle on a returned spatial path?
-/

set_option linter.unusedVariables false

namespace Hrm

open Matrix BallMesh

/-! ### Distances -/

theorem dist3_nonneg (p q : V3) : 0 ≤ dist3 p q := Real.sqrt_nonneg _

theorem dist3_comm (p q : V3) : dist3 p q = dist3 q p := by unfold dist3; congr 1; ring

theorem dist3_eq (p q : V3) : dist3 p q = vnorm ![p.x - q.x, p.y - q.y, p.z - q.z] := by
  unfold dist3 vnorm
  congr 1
  simp [dotProduct, Fin.sum_univ_three]
  ring

theorem dist3_triangle (p q r : V3) : dist3 p r ≤ dist3 p q + dist3 q r := by
  set a := p.x - q.x with ha
  set b := p.y - q.y with hb
  set c := p.z - q.z with hc
  set d := q.x - r.x with hd
  set e := q.y - r.y with he
  set f := q.z - r.z with hf
  have e1 : dist3 p r = Real.sqrt ((a + d) ^ 2 + (b + e) ^ 2 + (c + f) ^ 2) := by
    unfold dist3; congr 1; simp only [ha, hb, hc, hd, he, hf]; ring
  have e2 : dist3 p q = Real.sqrt (a ^ 2 + b ^ 2 + c ^ 2) := rfl
  have e3 : dist3 q r = Real.sqrt (d ^ 2 + e ^ 2 + f ^ 2) := rfl
  rw [e1, e2, e3]
  have s1 := Real.sq_sqrt (show 0 ≤ a ^ 2 + b ^ 2 + c ^ 2 by positivity)
  have s2 := Real.sq_sqrt (show 0 ≤ d ^ 2 + e ^ 2 + f ^ 2 by positivity)
  have n1 := Real.sqrt_nonneg (a ^ 2 + b ^ 2 + c ^ 2)
  have n2 := Real.sqrt_nonneg (d ^ 2 + e ^ 2 + f ^ 2)
  have hcs : a * d + b * e + c * f ≤ Real.sqrt (a ^ 2 + b ^ 2 + c ^ 2) * Real.sqrt (d ^ 2 + e ^ 2 + f ^ 2) := by
    rw [← Real.sqrt_mul (by positivity)]
    apply Real.le_sqrt_of_sq_le
    nlinarith [sq_nonneg (a * e - b * d), sq_nonneg (a * f - c * d), sq_nonneg (b * f - c * e)]
  apply Real.sqrt_le_iff.2
  refine ⟨by linarith, ?_⟩
  nlinarith

/-- The overlap changes by no more than the ball moves. -/
theorem overlap3_move (r : ℝ) (o : SuperQuadrics) (p q : V3) : overlap3 r o p ≤ overlap3 r o q + dist3 q p := by
  have := dist3_triangle q p ⟨o.pos 0, o.pos 1, o.pos 2⟩
  unfold overlap3; linarith

theorem dist3_vertical (x y z z' : ℝ) : dist3 ⟨x, y, z⟩ ⟨x, y, z'⟩ = |z - z'| := by
  unfold dist3
  simp only [sub_self]
  rw [zero_pow two_ne_zero, add_zero, zero_add, Real.sqrt_sq_eq_abs]

theorem dist3_comb (p q : V3) (s t : ℝ) : dist3 (V3.comb s p q) (V3.comb t p q) = |s - t| * dist3 p q := by
  unfold dist3 V3.comb
  rw [← Real.sqrt_sq_eq_abs, ← Real.sqrt_mul (sq_nonneg _)]
  congr 1; simp only; ring

/-! ### The mesh of a ball grown by a ball -/

theorem tinv_ball {B : SuperQuadrics} {r : ℝ} (ha : B.a = r) (hb : B.b = r) (hc : B.c = r) (hq : Orth (quatRot B.quat))
    (u : Fin 3 → ℝ) : B.tinv *ᵥ u = r • u := by
  have e : (![B.a, B.b, B.c] : Fin 3 → ℝ) = r • 1 := by
    funext i; fin_cases i <;> simp [ha, hb, hc]
  have hd : diagonal (r • (1 : Fin 3 → ℝ)) = r • (1 : Matrix (Fin 3) (Fin 3) ℝ) := by
    rw [diagonal_smul]; rfl
  rw [SuperQuadrics.tinv, e, hd, Matrix.mul_smul, Matrix.smul_mul, Matrix.mul_one, hq.right, smul_mulVec, one_mulVec]

theorem minkPoint_twoBalls {o B : SuperQuadrics} (ho : o.Ball) {r : ℝ} (hr : 0 < r) (ha : B.a = r) (hb : B.b = r) (hc : B.c = r)
    (hq : Orth (quatRot B.quat)) (p : ℝ × ℝ) :
    o.minkPoint B 1 p = quatRot o.quat *ᵥ ![(r + o.a) * (Real.cos p.1 * Real.cos p.2), (r + o.a) * (Real.cos p.1 * Real.sin p.2),
      (r + o.a) * Real.sin p.1] + o.pos := by
  set u : Fin 3 → ℝ := ![Real.cos p.1 * Real.cos p.2, Real.cos p.1 * Real.sin p.2, Real.sin p.1] with hu
  have hoa := ho.radius
  have ob : o.b = o.a := ho.round.1.symm
  have oc : o.c = o.a := by rw [← ho.round.2, ob]
  have e21 : (2 : ℝ) - 1 = 1 := by norm_num
  have hg : o.gradPhi p = (1 / o.a) • u := by
    funext i
    fin_cases i <;> simp [SuperQuadrics.gradPhi, ho.ell.1, ho.ell.2, e21, expFun_one, sc, hu, ob, oc] <;> ring
  have horig : o.originPoint p = o.a • (quatRot o.quat *ᵥ u) + o.pos := by
    rw [← mulVec_smul]
    unfold SuperQuadrics.originPoint
    congr 2
    funext i
    fin_cases i <;> simp [ho.ell.1, ho.ell.2, expFun_one, sc, hu, ob, oc]
  have hn : vnorm (quatRot o.quat *ᵥ u) = 1 := by
    rw [vnorm, (quatRot_orth ho.unit).dot]
    have : u ⬝ᵥ u = 1 := by
      simp only [hu, dotProduct, Fin.sum_univ_three, cons_val_zero, cons_val_one, cons_val_two]
      have h1 := Real.cos_sq_add_sin_sq p.1
      have h2 := Real.cos_sq_add_sin_sq p.2
      simp
      linear_combination (Real.cos p.1) ^ 2 * h2 + h1
    rw [this, Real.sqrt_one]
  have hfin : (![(r + o.a) * (Real.cos p.1 * Real.cos p.2), (r + o.a) * (Real.cos p.1 * Real.sin p.2),
      (r + o.a) * Real.sin p.1] : Fin 3 → ℝ) = (r + o.a) • u := by
    funext i; fin_cases i <;> simp [hu]
  rw [hfin]
  unfold SuperQuadrics.minkPoint
  simp only [tinv_ball ha hb hc hq, hg, horig, mulVec_smul, smul_smul, Int.cast_one, one_mul]
  rw [vnorm_smul (by positivity), hn, mul_one]
  have : 1 / (r * (1 / o.a)) * (r * (r * (1 / o.a))) = r := by field_simp
  rw [this, add_smul]
  abel

theorem pi_close : Real.pi < hrmPi + epsilon ∧ Real.pi / 2 < hrmHalfPi + epsilon := by
  have := Real.pi_lt_d20
  unfold hrmHalfPi hrmPi epsilon
  norm_num at this ⊢
  constructor <;> linarith

theorem ball_grid {n : ℕ} (h4 : 4 ≤ n) (h6 : n ≤ 10 ^ 6) :
    Grid (n - 1) ((hrmPi + epsilon) / ((n : ℝ) - 1)) ((hrmHalfPi + epsilon) / ((n : ℝ) - 1)) := by
  have h4' : (4 : ℝ) ≤ n := by exact_mod_cast h4
  have h6' : (n : ℝ) ≤ 10 ^ 6 := by exact_mod_cast h6
  have hn : (0 : ℝ) < (n : ℝ) - 1 := by linarith
  have hN : ((n - 1 : ℕ) : ℝ) = (n : ℝ) - 1 := by rw [Nat.cast_sub (by omega), Nat.cast_one]
  have hp := hrmPi_lt_pi
  obtain ⟨p1, p2⟩ := pi_close
  have p3 := Real.pi_gt_three
  have he : epsilon = 1 / 10 ^ 6 := by norm_num [epsilon]
  have hh : hrmHalfPi = hrmPi / 2 := rfl
  have hp3 : 3 < hrmPi := by norm_num [hrmPi]
  have e1 : ∀ x : ℝ, ((n : ℝ) - 1) * (x / ((n : ℝ) - 1)) = x := fun x => by field_simp
  have key : ∀ x : ℝ, 3 / 2 < x → epsilon < x / ((n : ℝ) - 1) := by
    intro x hx
    rw [lt_div_iff₀ hn, he]
    have h6'' : (n : ℝ) ≤ 1000000 := by rw [show (1000000 : ℝ) = 10 ^ 6 by norm_num]; exact h6'
    rw [show (1 : ℝ) / 10 ^ 6 = 1 / 1000000 by norm_num]
    linarith
  have a1 : 0 < hrmPi + epsilon := by rw [he]; norm_num; linarith
  have a2 : 0 < hrmHalfPi + epsilon := by rw [he, hh]; norm_num; linarith
  refine ⟨by omega, div_pos a1 hn, div_pos a2 hn, ?_, ?_, ?_, ?_, ?_, ?_⟩
  · rw [div_lt_iff₀ hn]
    have he' : epsilon < 1 := by rw [he]; norm_num
    have := mul_le_mul_of_nonneg_left (show (3 : ℝ) ≤ (n : ℝ) - 1 by linarith) (show 0 ≤ Real.pi / 2 by linarith)
    linarith
  · rw [div_lt_iff₀ hn, hh]
    have he' : epsilon < 1 := by rw [he]; norm_num
    have := mul_le_mul_of_nonneg_left (show (3 : ℝ) ≤ (n : ℝ) - 1 by linarith) (show 0 ≤ Real.pi / 2 by linarith)
    linarith
  · rw [hN, e1]; exact p1
  · rw [hN, e1]
    have := key (hrmPi + epsilon) (by rw [he]; norm_num; linarith)
    linarith
  · rw [hN, e1]; exact p2
  · rw [hN, e1]
    have := key (hrmHalfPi + epsilon) (by rw [he, hh]; norm_num; linarith)
    linarith

theorem linSpaced_gl {n : ℕ} (h2 : 2 ≤ n) (h : ℝ) (j : ℕ) :
    linSpaced n (-h) h j = gl (n - 1) (h / ((n : ℝ) - 1)) j := by
  have h2' : (2 : ℝ) ≤ n := by exact_mod_cast h2
  have hn : (n : ℝ) - 1 ≠ 0 := by linarith
  unfold linSpaced gl
  rw [if_neg (by omega), Nat.cast_sub (by omega), Nat.cast_one]
  field_simp
  ring

theorem toV3_wld (M : Matrix (Fin 3) (Fin 3) ℝ) (o : Fin 3 → ℝ) (x y z : ℝ) :
    toV3 (M *ᵥ ![x, y, z] + o) = wld M o ⟨x, y, z⟩ := by
  unfold toV3 wld
  ext <;> simp [mulVec, dotProduct, Fin.sum_univ_three]

/-- The mesh of a ball grown by a ball is the latitude-longitude mesh. -/
theorem isBall_mesh {o B : SuperQuadrics} (ho : o.Ball) (h4 : 4 ≤ o.num) (h6 : o.num ≤ 10 ^ 6) {r : ℝ} (hr : 0 < r)
    (ha : B.a = r) (hb : B.b = r) (hc : B.c = r) (hq : Orth (quatRot B.quat)) :
    IsBall (o.num - 1) ((hrmPi + epsilon) / ((o.num : ℝ) - 1)) ((hrmHalfPi + epsilon) / ((o.num : ℝ) - 1)) (r + o.a)
      (quatRot o.quat) o.pos (gridMesh ((o.minkSum3D B 1).map toV3) o.num) := by
  set n := o.num with hn
  set α := (hrmPi + epsilon) / ((n : ℝ) - 1) with hα
  set β := (hrmHalfPi + epsilon) / ((n : ℝ) - 1) with hβ
  have hoa := ho.radius
  have hget : ∀ i < n, ∀ j < n, ((o.minkSum3D B 1).map toV3)[j * n + i]? =
      some (wld (quatRot o.quat) o.pos (vert (n - 1) α β (r + o.a) j i)) := by
    intro i hi j hj
    have hlt : j * n + i < n * n := by nlinarith
    rw [SuperQuadrics.minkSum3D, List.getElem?_map, List.getElem?_map, ← hn, List.getElem?_range hlt]
    simp only [Option.map_some]
    rw [minkPoint_twoBalls ho hr ha hb hc hq, toV3_wld]
    have e1 : (o.param (j * n + i)).1 = gl (n - 1) β j := by
      unfold SuperQuadrics.param SuperQuadrics.eta
      simp only
      rw [← hn, show (j * n + i) / n = j by
        rw [mul_comm, Nat.mul_add_div (by omega), Nat.div_eq_of_lt hi, add_zero], ← neg_add', linSpaced_gl (by omega)]
    have e2 : (o.param (j * n + i)).2 = gl (n - 1) α i := by
      unfold SuperQuadrics.param SuperQuadrics.omega
      simp only
      rw [← hn, show (j * n + i) % n = i by
        rw [mul_comm, Nat.mul_add_mod, Nat.mod_eq_of_lt hi], ← neg_add', linSpaced_gl (by omega)]
    rw [e1, e2]
    rfl
  refine ⟨ball_grid h4 h6, by linarith, ⟨(quatRot_orth ho.unit).right, (quatRot_orth ho.unit).left⟩, ?_, ?_⟩
  · intro I hI J hJ
    have hmem : J * n + I ∈ gridQ n := mem_gridQ.2 ⟨J, I, by omega, by omega, rfl⟩
    have g1 := hget I (by omega) J (by omega)
    have g2 := hget I (by omega) (J + 1) (by omega)
    have g3 := hget (I + 1) (by omega) (J + 1) (by omega)
    have g4 := hget (I + 1) (by omega) J (by omega)
    rw [show (J + 1) * n + I = J * n + I + n by ring] at g2
    rw [show (J + 1) * n + (I + 1) = J * n + I + n + 1 by ring] at g3
    rw [← add_assoc] at g4
    exact ⟨⟨_, List.mem_append_left _ (List.mem_map_of_mem hmem), g1, g2, g3⟩,
      ⟨_, List.mem_append_right _ (List.mem_map_of_mem hmem), g1, g4, g3⟩⟩
  · rintro a b c ⟨f, hf, h1, h2, h3⟩
    have key : ∀ J I : ℕ, J + 1 < n → I + 1 < n →
        ((o.minkSum3D B 1).map toV3)[J * n + I]? = some (wld (quatRot o.quat) o.pos (vert (n - 1) α β (r + o.a) J I)) ∧
        ((o.minkSum3D B 1).map toV3)[J * n + I + n]? = some (wld (quatRot o.quat) o.pos (vert (n - 1) α β (r + o.a) (J + 1) I)) ∧
        ((o.minkSum3D B 1).map toV3)[J * n + I + n + 1]? =
          some (wld (quatRot o.quat) o.pos (vert (n - 1) α β (r + o.a) (J + 1) (I + 1))) ∧
        ((o.minkSum3D B 1).map toV3)[J * n + I + 1]? = some (wld (quatRot o.quat) o.pos (vert (n - 1) α β (r + o.a) J (I + 1))) := by
      intro J I hJ hI
      have g1 := hget I (by omega) J (by omega)
      have g2 := hget I (by omega) (J + 1) (by omega)
      have g3 := hget (I + 1) (by omega) (J + 1) (by omega)
      have g4 := hget (I + 1) (by omega) J (by omega)
      rw [show (J + 1) * n + I = J * n + I + n by ring] at g2
      rw [show (J + 1) * n + (I + 1) = J * n + I + n + 1 by ring] at g3
      rw [← add_assoc] at g4
      exact ⟨g1, g2, g3, g4⟩
    rcases List.mem_append.1 hf with hf | hf
    · obtain ⟨q, hq, rfl⟩ := List.mem_map.1 hf
      obtain ⟨J, I, hJ, hI, rfl⟩ := mem_gridQ.1 hq
      obtain ⟨g1, g2, g3, g4⟩ := key J I hJ hI
      exact ⟨I, by omega, J, by omega, Option.some.inj (h1.symm.trans g1), Option.some.inj (h3.symm.trans g3),
        Or.inl (Option.some.inj (h2.symm.trans g2))⟩
    · obtain ⟨q, hq, rfl⟩ := List.mem_map.1 hf
      obtain ⟨J, I, hJ, hI, rfl⟩ := mem_gridQ.1 hq
      obtain ⟨g1, g2, g3, g4⟩ := key J I hJ hI
      exact ⟨I, by omega, J, by omega, Option.some.inj (h1.symm.trans g1), Option.some.inj (h3.symm.trans g3),
        Or.inr (Option.some.inj (h2.symm.trans g4))⟩

/-- The mesh the planner computes for the obstacle `o` and a ball of radius `r`, however the latter is placed. -/
theorem mesh_twoBalls {o B : SuperQuadrics} (ho : o.Ball) (h2 : 2 ≤ o.num) {r : ℝ} (hr : 0 < r)
    (ha : B.a = r) (hb : B.b = r) (hc : B.c = r) (hq : Orth (quatRot B.quat)) :
    gridMesh ((o.minkSum3D B 1).map toV3) o.num = grownBall r o := by
  unfold grownBall SuperQuadrics.minkSum3D
  rw [List.map_map]
  congr 1
  refine List.map_congr_left fun k _ => ?_
  have h2' : (2 : ℝ) ≤ o.num := by exact_mod_cast h2
  have hn : (o.num : ℝ) - 1 ≠ 0 := by linarith
  rw [Function.comp, minkPoint_twoBalls ho hr ha hb hc hq]
  have e1 : (o.param k).1 = (2 * ((k / o.num : ℕ) : ℝ) / ((o.num : ℝ) - 1) - 1) * (hrmHalfPi + epsilon) := by
    unfold SuperQuadrics.param SuperQuadrics.eta linSpaced
    simp only
    rw [if_neg (by omega)]
    field_simp
    ring
  have e2 : (o.param k).2 = (2 * ((k % o.num : ℕ) : ℝ) / ((o.num : ℝ) - 1) - 1) * (hrmPi + epsilon) := by
    unfold SuperQuadrics.param SuperQuadrics.omega linSpaced
    simp only
    rw [if_neg (by omega)]
    field_simp
    ring
  rw [e1, e2]

/-- Outside the mesh the ball overlaps the obstacle by no more than the sag. -/
theorem overlap3_le_of_outside {o : SuperQuadrics} (ho : o.Ball) (h4 : 4 ≤ o.num) (h6 : o.num ≤ 10 ^ 6) {r : ℝ} (hr : 0 < r)
    {p : V3} (h : Outside (grownBall r o) p) : overlap3 r o p ≤ sag3 r o := by
  have hq : Orth (quatRot (⟨r, r, r, 1, 1, 0, o.quat, 0⟩ : SuperQuadrics).quat) := quatRot_orth ho.unit
  rw [← mesh_twoBalls (B := ⟨r, r, r, 1, 1, 0, o.quat, 0⟩) ho (by omega) hr rfl rfl rfl hq] at h
  have := outside_dist (isBall_mesh ho h4 h6 hr rfl rfl rfl hq) h
  unfold overlap3 sag3
  linarith

theorem grownBall_wf {r : ℝ} {o : SuperQuadrics} (h : o.num ≠ 0) : (grownBall r o).WF :=
  gridMesh_wf h (by simp)

/-! ### The enclosing ellipsoid of a ball is the ball -/

theorem mvce_ball {svd : SvdFun 3} (hs : SvdOk svd) (hdet : ∀ M, SymPos M → (svd M).u.det = 1) {r : ℝ} (hr : 0 < r)
    {qA qB : Quat} (hA : qA.Unit) (hB : qB.Unit) (num : ℕ) :
    (getMVCE3D svd ![r, r, r] ![r, r, r] qA qB num).a = r ∧ (getMVCE3D svd ![r, r, r] ![r, r, r] qA qB num).b = r ∧
    (getMVCE3D svd ![r, r, r] ![r, r, r] qA qB num).c = r ∧ (getMVCE3D svd ![r, r, r] ![r, r, r] qA qB num).quat.Unit := by
  have hc : ∀ i, (0 : ℝ) < ![r, r, r] i := by intro i; fin_cases i <;> simpa
  refine ⟨?_, ?_, ?_, (mvce3D_spec hs hdet hc hc hA hB num).2.2.2.1⟩
  all_goals
    obtain ⟨C, hC, e, h1, -, -, h3, -⟩ := mvceSvd_spec hs hc hc (quatRot_orth hA) (quatRot_orth hB)
      (r := min (![r, r, r] 0) (min (![r, r, r] 1) (![r, r, r] 2))) (by simpa using hr)
    have hell : ∀ (q : Quat), q.Unit → ∀ (x : Fin 3 → ℝ),
        x ⬝ᵥ ellMat (quatRot q) (fun i => (![r, r, r] i ^ 2)⁻¹) *ᵥ x = (r ^ 2)⁻¹ * (x ⬝ᵥ x) := by
      intro q hq x
      have e1 : (fun i => (![r, r, r] i ^ 2)⁻¹) = fun _ : Fin 3 => (r ^ 2)⁻¹ := by
        funext i; fin_cases i <;> rfl
      have e2 : ellMat (quatRot q) (fun _ : Fin 3 => (r ^ 2)⁻¹) = (r ^ 2)⁻¹ • (1 : Matrix (Fin 3) (Fin 3) ℝ) := by
        unfold ellMat
        rw [show (diagonal fun _ : Fin 3 => (r ^ 2)⁻¹) = (r ^ 2)⁻¹ • (1 : Matrix (Fin 3) (Fin 3) ℝ) by
          rw [← Matrix.diagonal_one, ← Matrix.diagonal_smul]; congr 1; funext i; simp]
        rw [Matrix.mul_smul, Matrix.mul_one, Matrix.smul_mul, (quatRot_orth hq).right]
      rw [e1, e2, Matrix.smul_mulVec, one_mulVec, dotProduct_smul, smul_eq_mul]
    have hCx : ∀ x : Fin 3 → ℝ, x ⬝ᵥ C *ᵥ x = (r ^ 2)⁻¹ * (x ⬝ᵥ x) := by
      intro x
      refine le_antisymm ((h1 x).trans_eq (hell _ hA x)) ?_
      have := h3 1 le_rfl (fun y => by rw [one_mul, hell _ hB, hell _ hA]) x
      rwa [one_mul, hell _ hB] at this
    obtain ⟨ou, hCd, hsp⟩ := isSvd_symPos hC (hs C hC)
    have hsi : ∀ i, (svd C).s i = (r ^ 2)⁻¹ := by
      intro i
      have := hCx ((svd C).u *ᵥ Pi.single i 1)
      rw [show C *ᵥ ((svd C).u *ᵥ Pi.single i 1) = ellMat (svd C).u (svd C).s *ᵥ ((svd C).u *ᵥ Pi.single i 1) by
        rw [← hCd], ellMat_mulVec] at this
      have hu : ∀ y : Fin 3 → ℝ, (svd C).uᵀ *ᵥ ((svd C).u *ᵥ y) = y := by
        intro y; rw [mulVec_mulVec, ou.left, one_mulVec]
      rw [hu, ou.dot, ou.dot] at this
      simpa [dotProduct, Matrix.mulVec_single, Finset.sum_ite_eq, Pi.single_apply] using this
    have hpow : ((r ^ 2)⁻¹ : ℝ) ^ (-(1 / 2) : ℝ) = r := by
      have hx : (0 : ℝ) < (r ^ 2)⁻¹ := by positivity
      obtain ⟨q1, q2⟩ := rpow_neg_half hx
      have := inv_injective q2
      exact (pow_left_inj₀ q1.le hr.le two_ne_zero).1 this
    simp only [getMVCE3D, e, hsi, hpow]

theorem tfe_ball {svd : SvdFun 3} (hs : SvdOk svd) (hdet : ∀ M, SymPos M → (svd M).u.det = 1) {r : ℝ} (hr : 0 < r)
    {qA qB : Quat} (hA : qA.Unit) (hB : qB.Unit) (hfar : |Quat.dot qA qB| < 1 - 1 / 2 ^ 52 ∨ |Quat.dot qA qB| = 1)
    {np num : ℕ} {E : SuperQuadrics} (hE : getTFE3D svd ![r, r, r] qA qB np num = .ok E) :
    E.a = r ∧ E.b = r ∧ E.c = r ∧ E.quat.Unit := by
  unfold getTFE3D at hE
  have : ∀ (is : List ℕ) (E0 : SuperQuadrics), E0.a = r ∧ E0.b = r ∧ E0.c = r ∧ E0.quat.Unit →
      is.foldlM (fun (E : SuperQuadrics) i =>
        (Res.at' (interpolateSlerp qA qB np) i).bind fun q =>
        match q with
        | some q => .ok (getMVCE3D svd ![r, r, r] ![E.a, E.b, E.c] q E.quat num)
        | none => .ub) E0 = .ok E → E.a = r ∧ E.b = r ∧ E.c = r ∧ E.quat.Unit := by
    intro is
    induction is with
    | nil => intro E0 h e; obtain rfl := (Res.ok.injEq _ _).mp e; exact h
    | cons i is ih =>
      intro E0 h e
      rw [List.foldlM_cons] at e
      obtain ⟨E1, h1, e⟩ := Res.bind_eq_ok.1 e
      obtain ⟨q, h2, h1⟩ := Res.bind_eq_ok.1 h1
      cases q with
      | none => exact nomatch h1
      | some q =>
        obtain rfl := (Res.ok.injEq _ _).mp h1
        refine ih _ ?_ e
        have hqu : q.Unit := by
          have := Res.at'_eq_ok.1 h2
          unfold interpolateSlerp at this
          rw [List.getElem?_map] at this
          obtain ⟨k, -, hk⟩ := Option.map_eq_some_iff.1 this
          obtain ⟨t, -, rfl⟩ := Option.map_eq_some_iff.1 hk
          exact slerp_unit hA hB hfar t
        rw [h.1, h.2.1, h.2.2.1]
        exact mvce_ball hs hdet hr hqu h.2.2.2 num
  exact this _ _ (mvce_ball hs hdet hr hA hB num) hE

/-! ### The meshes of the planner -/

theorem minkSum_base3 {T : Tree3} {o : SuperQuadrics} {k : ℤ} {ms : List (List (Fin 3 → ℝ))} (h : T.minkSum o k = .ok ms) :
    o.minkSum3D T.base k ∈ ms := by
  unfold Tree3.minkSum at h
  have : ∀ (is : List ℕ) (acc ms : List (List (Fin 3 → ℝ))), o.minkSum3D T.base k ∈ acc →
      is.foldlM (fun acc i => (T.minkLink o k i).bind fun b => Res.ok (acc ++ [b])) acc = .ok ms → o.minkSum3D T.base k ∈ ms := by
    intro is
    induction is with
    | nil => intro acc ms hm h; obtain rfl := (Res.ok.injEq _ _).mp h; exact hm
    | cons i is ih =>
      intro acc ms hm h
      rw [List.foldlM_cons] at h
      obtain ⟨acc', h1, h⟩ := Res.bind_eq_ok.1 h
      obtain ⟨b, -, h1⟩ := Res.bind_eq_ok.1 h1
      obtain rfl := (Res.ok.injEq _ _).mp h1
      exact ih _ _ (by simp [hm]) h
  exact this _ _ _ (by simp) h

/-- The boundary of every obstacle grown by the base is among the obstacle boundaries. -/
theorem base_boundary3 {T : Tree3} {arena obs : List SuperQuadrics} {B : Bound3} (hB : cspaceBoundary3 T arena obs = .ok B)
    {o : SuperQuadrics} (ho : o ∈ obs) : o.minkSum3D T.base 1 ∈ B.obstacle := by
  unfold cspaceBoundary3 at hB
  obtain ⟨A, -, hB⟩ := Res.bind_eq_ok.1 hB
  obtain ⟨O, hO, hB⟩ := Res.bind_eq_ok.1 hB
  obtain rfl := (Res.ok.injEq _ _).mp hB
  dsimp only
  unfold bodyBoundaries3 at hO
  have : ∀ (l : List SuperQuadrics) (acc bs : List (List (Fin 3 → ℝ))),
      l.foldlM (fun acc o => (T.minkSum o 1).bind fun bs => Res.ok (acc ++ bs)) acc = .ok bs →
      (o.minkSum3D T.base 1 ∈ acc ∨ o ∈ l) → o.minkSum3D T.base 1 ∈ bs := by
    intro l
    induction l with
    | nil =>
      intro acc bs h hm
      obtain rfl := (Res.ok.injEq _ _).mp h
      simpa using hm
    | cons o' l ih =>
      intro acc bs h hm
      rw [List.foldlM_cons] at h
      obtain ⟨acc', h1, h⟩ := Res.bind_eq_ok.1 h
      obtain ⟨b, h0, h1⟩ := Res.bind_eq_ok.1 h1
      obtain rfl := (Res.ok.injEq _ _).mp h1
      refine ih _ _ h ?_
      rcases hm with hm | hm
      · exact Or.inl (List.mem_append_left _ hm)
      · rcases List.mem_cons.1 hm with rfl | hm
        · exact Or.inl (List.mem_append_right _ (minkSum_base3 h0))
        · exact Or.inr hm
  exact this _ _ _ hO (Or.inr ho)

theorem base_mesh {T : Tree3} {arena obs : List SuperQuadrics} {B : Bound3} (hB : cspaceBoundary3 T arena obs = .ok B)
    {M : BoundMesh} (hM : cspaceMesh arena obs B = .ok M) {n : ℕ} (hn : ∀ o ∈ obs, o.num = n) {o : SuperQuadrics} (ho : o ∈ obs) :
    gridMesh ((o.minkSum3D T.base 1).map toV3) o.num ∈ M.obstacle := by
  unfold cspaceMesh at hM
  obtain ⟨A, -, hM⟩ := Res.bind_eq_ok.1 hM
  obtain ⟨O, hO, hM⟩ := Res.bind_eq_ok.1 hM
  obtain rfl := (Res.ok.injEq _ _).mp hM
  dsimp only
  match obs, hO, hn, ho with
  | o' :: rest, hO, hn, ho =>
    rw [boundMeshes_eq (o := o') rfl] at hO
    obtain rfl := (Res.ok.injEq _ _).mp hO
    rw [hn o ho, ← hn o' (by simp)]
    exact List.mem_map_of_mem (f := fun b => gridMesh (b.map toV3) o'.num) (base_boundary3 hB ho)

/-! ### The path -/

/-- Points of a way checked at `np + 1` evenly spaced points. -/
theorem overlap3_between {r : ℝ} {o : SuperQuadrics} {p q : V3} {np : ℕ} (h1 : 1 ≤ np) {c : ℝ}
    (h : ∀ k ≤ np, overlap3 r o (V3.comb (1 - k / np) p q) ≤ c) (s : ℝ) (s0 : 0 ≤ s) (s1 : s ≤ 1) :
    overlap3 r o (V3.comb s p q) ≤ c + dist3 p q / (2 * np) := by
  have hn : (0 : ℝ) < np := by exact_mod_cast h1
  set u := (1 - s) * np with hu
  have hu0 : 0 ≤ u := mul_nonneg (by linarith) hn.le
  have hu1 : u ≤ np := by rw [hu]; nlinarith
  have e1 : (⌊u + 1 / 2⌋₊ : ℝ) ≤ u + 1 / 2 := Nat.floor_le (by linarith)
  have e2 : u + 1 / 2 < (⌊u + 1 / 2⌋₊ : ℝ) + 1 := Nat.lt_floor_add_one _
  set k := ⌊u + 1 / 2⌋₊ with hk
  have hkn : k ≤ np := by
    have : (k : ℝ) < np + 1 := by linarith
    have : k < np + 1 := by exact_mod_cast this
    omega
  have hmv := overlap3_move r o (V3.comb s p q) (V3.comb (1 - k / np) p q)
  rw [dist3_comb] at hmv
  have hd : |1 - (k : ℝ) / np - s| ≤ 1 / (2 * np) := by
    have : 1 - (k : ℝ) / np - s = (u - k) / np := by rw [hu]; field_simp; ring
    rw [this, abs_div, abs_of_pos hn, div_le_div_iff₀ hn (by linarith)]
    have : |u - (k : ℝ)| ≤ 1 / 2 := by rw [abs_le]; constructor <;> linarith
    nlinarith
  have := mul_le_mul_of_nonneg_right hd (dist3_nonneg p q)
  have e3 : 1 / (2 * (np : ℝ)) * dist3 p q = dist3 p q / (2 * np) := by ring
  rw [e3] at this
  linarith [h k hkn]

/-- A way along a vertical sweep line. -/
theorem overlap3_row {r : ℝ} (hr : 0 < r) {o : SuperQuadrics} (ho : o.Ball) (h4 : 4 ≤ o.num) (h6 : o.num ≤ 10 ^ 6)
    {obstacle : List Mesh} (hmem : grownBall r o ∈ obstacle) {p q : V3} (h : RowClear3 obstacle p q) (s : ℝ) (h0 : 0 ≤ s)
    (h1 : s ≤ 1) : overlap3 r o (V3.comb s p q) ≤ sag3 r o + 1 / 10 ^ 6 := by
  obtain ⟨hx, hy, hends, c, d, hcd, hlt, hfree⟩ := h
  set z := (V3.comb s p q).z with hz
  have hzm : min p.z q.z ≤ z ∧ z ≤ max p.z q.z := by
    have : z = s * p.z + (1 - s) * q.z := rfl
    rcases le_total p.z q.z with h | h
    · rw [min_eq_left h, max_eq_right h, this]; constructor <;> nlinarith
    · rw [min_eq_right h, max_eq_left h, this]; constructor <;> nlinarith
  have hwp : V3.comb s p q = ⟨p.x, p.y, z⟩ := by
    ext
    · show s * p.x + (1 - s) * q.x = p.x
      rw [← hx]; ring
    · show s * p.y + (1 - s) * q.y = p.y
      rw [← hy]; ring
    · rfl
  rw [hwp]
  suffices hex : ∃ z', |z' - z| ≤ 1 / 10 ^ 6 ∧ Outside (grownBall r o) ⟨p.x, p.y, z'⟩ by
    obtain ⟨z', hz', hns⟩ := hex
    have hm := overlap3_move r o ⟨p.x, p.y, z⟩ ⟨p.x, p.y, z'⟩
    rw [dist3_vertical] at hm
    have := overlap3_le_of_outside ho h4 h6 hr hns
    linarith
  have hpm : ∀ w, w = p.z ∨ w = q.z → Outside (grownBall r o) ⟨p.x, p.y, w⟩ := by
    rintro w (rfl | rfl)
    · exact (hends _ hmem).1
    · rw [hx, hy]; exact (hends _ hmem).2
  rcases hfree z hzm.1 hzm.2 with ⟨h3, h4⟩ | h3
  · rcases le_or_gt (min p.z q.z) c with hm | hm
    · refine ⟨c, by rw [abs_le]; constructor <;> linarith, ?_⟩
      rcases hfree c hm (by linarith [hzm.2]) with h5 | h5
      · exact absurd h5.1 (lt_irrefl _)
      · exact h5 _ hmem
    · refine ⟨min p.z q.z, by rw [abs_le]; constructor <;> linarith [hzm.1], hpm _ ?_⟩
      exact min_choice _ _
  · exact ⟨z, by rw [sub_self, abs_zero]; norm_num, h3 _ hmem⟩

/-- **C91 (partial)** A spatial planner for a rigid robot whose base is a ball, among ball-shaped obstacles with one number of
surface points. On every path it returns, between the second and the last but one configuration, the base overlaps no
obstacle by more than the sag of the latitude-longitude mesh, plus 1e-6 on a translation, plus half the spacing of the checked
configurations on a step between two orientations. Assumed: the decomposition of the library is a rotation (C45), no two
orientations are nearly but not exactly equal (C40), the sweep lines, the checked places and the translations are in general
position for the meshes, and a collision library of the ablated planner detects overlapping balls. Missing: links, the first
and last step (C31), and a vertex inserted between two samples is covered only if one of the ways to it is in general
position. -/
theorem C91_ball_overlap_partial (L : Libs3) (V : Variant) (hV : V.arm = none) (hpick : HeapTop L.pick) (hsvd : SvdOk L.svd)
    (hdet : ∀ M, SymPos M → (L.svd M).u.det = 1) (base : SuperQuadrics) (hbase : base.Ball)
    (ops : List (RobotOp SuperQuadrics 3)) (robot : Tree3) (hrun : Tree3.run ops (Tree3.new base) = .ok robot)
    (hrob : robot.base.quat.Unit) (quats : List Quat) (arena obs : List SuperQuadrics) (hne : arena ≠ [] ∨ obs ≠ [])
    (n : ℕ) (h4 : 4 ≤ n) (h6 : n ≤ 10 ^ 6) (hobs : ∀ o ∈ obs, o.Ball ∧ o.num = n)
    (hfcl : ∀ hit, V.fcl = some hit → ∀ o ∈ obs, ∀ p q, hit (bodyAt base p q) o = false → overlap3 base.a o (toV3 p) ≤ 0)
    (start goal : Vec) (hs : start.length = 7)
    (hg : goal.length = 7) (par : Param3) (hnp : 1 ≤ par.numPoint) (hunit : ∀ q ∈ orientations L quats par, q.Unit)
    (hfar : ∀ p ∈ orientations L quats par, ∀ q ∈ orientations L quats par,
      |Quat.dot p q| < 1 - 1 / 2 ^ 52 ∨ |Quat.dot p q| = 1)
    (clock : ℕ → ℝ) (timeLim : ℝ) (fuel : ℕ) (r' : PlanRep Planner3)
    (h : Planner3.plan L V clock timeLim fuel (freshRep3 (.new robot quats arena obs start goal par true)) =
      some (.ok r')) (hsol : r'.st.res.solved = true) :
    ∃ B M segs mid, cspaceBoundary3 robot arena obs = .ok B ∧ cspaceMesh arena obs B = .ok M ∧
      sweep3D L par.zLo par.zHi M par.linesX par.linesY = .ok segs ∧ r'.solvedPath = start :: (mid ++ [goal]) ∧ mid ≠ [] ∧
      (SweepGeneric3 L par M →
        (∀ v ∈ mid, ∀ o ∈ obs, overlap3 base.a o (placeOf v) ≤ sag3 base.a o ∨
          ∃ q v1 v2, LineSample3 segs q v1 ∧ LineSample3 segs q v2 ∧
            ((placeOf v = { placeOf v1 with z := (placeOf v2).z }) ∨ (placeOf v = { placeOf v2 with z := (placeOf v1).z })) ∧
            ((StepGeneric3 (grownBall base.a o) (placeOf v1) (placeOf v) ∨
                StepGeneric3 (grownBall base.a o) (placeOf v) (placeOf v2)) →
              overlap3 base.a o (placeOf v) ≤ sag3 base.a o)) ∧
        ∀ (k : ℕ) (a b : Vec), mid[k]? = some a → mid[k + 1]? = some b → ∀ o ∈ obs,
          (quatPart a = quatPart b ∧ (StepGeneric3 (grownBall base.a o) (placeOf a) (placeOf b) → ∀ s, 0 ≤ s → s ≤ 1 →
            overlap3 base.a o (V3.comb s (placeOf a) (placeOf b)) ≤ sag3 base.a o)) ∨
          (quatPart a = quatPart b ∧ ∀ s, 0 ≤ s → s ≤ 1 →
            overlap3 base.a o (V3.comb s (placeOf a) (placeOf b)) ≤ sag3 base.a o + 1 / 10 ^ 6) ∨
          ((∀ i ≤ par.numPoint, ∀ c, c = V3.comb (1 - i / par.numPoint) (placeOf a) (placeOf b) →
              GenericLine triTol (vertical c.x c.y c.z) (grownBall base.a o)) → ∀ s, 0 ≤ s → s ≤ 1 →
            overlap3 base.a o (V3.comb s (placeOf a) (placeOf b)) ≤
              sag3 base.a o + dist3 (placeOf a) (placeOf b) / (2 * par.numPoint))) := by
  obtain ⟨B, M, segs, mid, hB, hM, hsegs, hpath, hm, hsafe⟩ := C87_spatial_path_safe_partial L V hV hpick base ops robot hrun quats
    arena obs hne start goal hs hg par hnp hunit clock timeLim fuel r' h hsol
  refine ⟨B, M, segs, mid, hB, hM, hsegs, hpath, hm, fun hgen => ?_⟩
  obtain ⟨hv, hstep⟩ := hsafe hgen
  have hr := hbase.radius
  obtain ⟨bab, bbc⟩ := hbase.round
  have hmem : ∀ o ∈ obs, grownBall base.a o ∈ M.obstacle := by
    intro o ho
    have hsame := (run_inv_of3 hrun).base
    have := base_mesh hB hM (n := n) (fun o ho => (hobs o ho).2) ho
    rwa [mesh_twoBalls (hobs o ho).1 (by rw [(hobs o ho).2]; omega) hr hsame.1 (by rw [hsame.2.1, bab])
      (by rw [hsame.2.2.1, bab, bbc]) (quatRot_orth hrob)] at this
  have hout : ∀ o ∈ obs, ∀ p, Outside (grownBall base.a o) p → overlap3 base.a o p ≤ sag3 base.a o := fun o ho p hp =>
    overlap3_le_of_outside (hobs o ho).1 (by rw [(hobs o ho).2]; exact h4) (by rw [(hobs o ho).2]; exact h6) hr hp
  refine ⟨fun v hvm o ho => ?_, fun k a b hka hkb o ho => ?_⟩
  · obtain ⟨q, -, -, hp | ⟨v1, v2, h1, h2, h3, h4⟩⟩ := hv v hvm
    · exact Or.inl (hout o ho _ (hp _ (hmem o ho)))
    · exact Or.inr ⟨q, v1, v2, h1, h2, h3, fun hgs => hout o ho _ (Or.inr (h4 _ (hmem o ho) hgs))⟩
  · rcases hstep k a b hka hkb with ⟨hq, hw⟩ | ⟨hq, hrow⟩ | ⟨-, -, i, j, qa, qb, hqa, hqb, steps, hmo, hclear⟩
    · exact Or.inl ⟨hq, fun hgs s s0 s1 => hout o ho _ (Or.inr (hw _ (hmem o ho) hgs s s0 s1))⟩
    · exact Or.inr (Or.inl ⟨hq, overlap3_row hr (hobs o ho).1 (by rw [(hobs o ho).2]; exact h4)
        (by rw [(hobs o ho).2]; exact h6) (hmem o ho) hrow⟩)
    · refine Or.inr (Or.inr fun hgl => ?_)
      have hqau := List.mem_of_getElem? hqa
      have hqbu := List.mem_of_getElem? hqb
      have hpose : ∀ u, PoseClear3 L V obs base (addedBodies ops) par.numPoint qa qb u →
          GenericLine triTol (vertical (placeOf u).x (placeOf u).y (placeOf u).z) (grownBall base.a o) →
          overlap3 base.a o (placeOf u) ≤ sag3 base.a o := by
        intro u hu hgu
        obtain ⟨arm, fcl⟩ := V
        cases fcl with
        | some hit =>
          have h0 := hfcl hit rfl o ho _ _ (hu o ho).1
          refine le_trans h0 ?_
          unfold sag3
          have hR : 0 < base.a + o.a := by have := (hobs o ho).1.radius; linarith
          set x := (hrmPi + epsilon) / ((o.num : ℝ) - 1)
          set y := (hrmHalfPi + epsilon) / ((o.num : ℝ) - 1)
          have hc : Real.cos x * Real.cos y ≤ 1 := by
            have h1 := Real.cos_sq_add_sin_sq x
            have h2 := Real.cos_sq_add_sin_sq y
            nlinarith [sq_nonneg (Real.cos x - Real.cos y), sq_nonneg (Real.sin x), sq_nonneg (Real.sin y)]
          exact mul_nonneg hR.le (by linarith)
        | none =>
          obtain ⟨⟨E, hE, hfree⟩, -⟩ := hu
          rw [← bbc, ← bab] at hE
          obtain ⟨ea, eb, ec, eu⟩ := tfe_ball hsvd hdet hr (hunit _ hqau) (hunit _ hqbu) (hfar _ hqau _ hqbu) hE
          have hmm : grownBall base.a o ∈ bridgeBound3 obs E := by
            rw [← mesh_twoBalls (B := { E with pos := 0 }) (hobs o ho).1 (by rw [(hobs o ho).2]; omega) hr ea eb ec
              (quatRot_orth eu)]
            exact List.mem_map.2 ⟨o, ho, rfl⟩
          apply hout o ho
          by_cases hon : OnMesh (grownBall base.a o) (placeOf u)
          · exact Or.inl hon
          · exact Or.inr (C87_point_test triTol triTol_pos.le triTol_lt _ _ hfree _ hmm
              (grownBall_wf (by rw [(hobs o ho).2]; omega)) hgu hon)
      have hnp' : (0 : ℝ) < par.numPoint := by exact_mod_cast hnp
      have hplace : ∀ v w, IsMotion v w par.numPoint steps → ∀ k ≤ par.numPoint, ∃ u ∈ steps,
          placeOf u = V3.comb (1 - k / par.numPoint) (placeOf v) (placeOf w) := by
        intro v w hmo k hk
        have hk' : k < steps.length := by rw [hmo.1]; omega
        have hseg := (hmo.2.1 k _ (List.getElem?_eq_getElem hk')).2.1
        refine ⟨_, List.getElem_mem hk', ?_⟩
        have h0 := hseg 0 (by norm_num)
        have h1 := hseg 1 (by norm_num)
        have h2 := hseg 2 (by norm_num)
        unfold OnSegment at h0 h1 h2
        unfold placeOf toV3 posPart V3.comb
        ext
        · show coordOf _ 0 = (1 - _) * coordOf _ 0 + _ * coordOf _ 0
          rw [h0]; ring
        · show coordOf _ 1 = (1 - _) * coordOf _ 1 + _ * coordOf _ 1
          rw [h1]; ring
        · show coordOf _ 2 = (1 - _) * coordOf _ 2 + _ * coordOf _ 2
          rw [h2]; ring
      refine overlap3_between hnp fun i hi => ?_
      rcases hmo with hmo | hmo
      · obtain ⟨u, hu, e⟩ := hplace a b hmo.2.2.2 i hi
        rw [← e]
        exact hpose u (hclear u hu) (hgl i hi _ e)
      · obtain ⟨u, hu, e⟩ := hplace b a hmo.2.2.2 (par.numPoint - i) (by omega)
        have e' : V3.comb (1 - ((par.numPoint - i : ℕ) : ℝ) / par.numPoint) (placeOf b) (placeOf a) =
            V3.comb (1 - i / par.numPoint) (placeOf a) (placeOf b) := by
          rw [V3.comb_swap]
          congr 1
          rw [Nat.cast_sub hi]
          field_simp
          ring
        rw [e'] at e
        rw [← e]
        exact hpose u (hclear u hu) (hgl i hi _ e)

/-- The robot of the example: a ball of radius 2. -/
noncomputable def exBase91 : SuperQuadrics := ⟨2, 2, 2, 1, 1, 0, (1, 0, 0, 0), 10⟩

/-- The hypotheses of `C91_ball_overlap_partial` are met together: a ball of radius 2, a ball-shaped obstacle of radius 1 with
ten by ten surface points, a planner that returns a path with two or more inner configurations. The bounds, for each inner
step: on a translation the sag of the mesh (plus 1e-6), on a change of orientation the sag plus half the spacing. -/
example (sort : StdSort ℝ) (pick : ℕ → (ℕ → ℝ) → List ℕ → ℕ) (hpick : HeapTop pick) (junk : Option Quat)
    (rand : ℕ → Quat) (randJoint : ℕ → ℕ → ℝ) (clock : ℕ → ℝ) (timeLim : ℝ) :
    ∃ (L : Libs3) (par : Param3) (start goal : Vec) (mid : List Vec) (r' : PlanRep Planner3) (sag : ℝ),
      Planner3.plan L ⟨none, none⟩ clock timeLim 0
        (freshRep3 (.new (Tree3.new exBase91) [exQ0, exQ1] [exBall3 20] [exObs87] start goal par true)) = some (.ok r') ∧
      r'.solvedPath = start :: (mid ++ [goal]) ∧ 2 ≤ mid.length ∧
      sag = 3 * (1 - Real.cos ((hrmPi + epsilon) / 9) * Real.cos ((hrmHalfPi + epsilon) / 9)) ∧
      ∀ (k : ℕ) (a b : Vec), mid[k]? = some a → mid[k + 1]? = some b →
        (quatPart a = quatPart b ∧ (StepGeneric3 (grownBall 2 exObs87) (placeOf a) (placeOf b) → ∀ s, 0 ≤ s → s ≤ 1 →
          overlap3 2 exObs87 (V3.comb s (placeOf a) (placeOf b)) ≤ sag)) ∨
        (quatPart a = quatPart b ∧ ∀ s, 0 ≤ s → s ≤ 1 →
          overlap3 2 exObs87 (V3.comb s (placeOf a) (placeOf b)) ≤ sag + 1 / 10 ^ 6) ∨
        ((∀ i ≤ par.numPoint, ∀ c, c = V3.comb (1 - i / par.numPoint) (placeOf a) (placeOf b) →
          GenericLine triTol (vertical c.x c.y c.z) (grownBall 2 exObs87)) →
        ∀ s, 0 ≤ s → s ≤ 1 → overlap3 2 exObs87 (V3.comb s (placeOf a) (placeOf b)) ≤
          sag + dist3 (placeOf a) (placeOf b) / (2 * par.numPoint)) := by
  obtain ⟨svd, hsvd, hdet⟩ := exists_svd_proper
  have hunitq : Quat.Unit (1, 0, 0, 0) := by norm_num [Quat.Unit]
  have hball : exBase91.Ball := ⟨by norm_num [exBase91], ⟨rfl, rfl⟩, ⟨rfl, rfl⟩, hunitq⟩
  have hoball : exObs87.Ball := ⟨by norm_num [exObs87], ⟨rfl, rfl⟩, ⟨rfl, rfl⟩, hunitq⟩
  obtain ⟨dmin, dmax, par, start, goal, r', B, M, h, hsol, hs, hg, -, hnp, hu, hB, hM, hne, hgen, hlen⟩ :=
    C87_witness exBase91 sort svd pick hpick junk rand randJoint clock timeLim
  obtain ⟨B', M', segs, mid, hB', hM', -, hpath, -, hsafe⟩ := C91_ball_overlap_partial
    ⟨sort, dmin, dmax, svd, pick, exAng, junk, rand, randJoint⟩ ⟨none, none⟩ rfl hpick hsvd hdet exBase91 hball []
    (Tree3.new exBase91) rfl hunitq
    [exQ0, exQ1] [exBall3 20] [exObs87] (Or.inl (by simp)) 10 (by norm_num) (by norm_num) (by
      intro o ho
      obtain rfl := List.mem_singleton.1 ho
      exact ⟨hoball, rfl⟩) (by intro hit h; exact nomatch h) start goal hs hg par hnp (by simpa [orientations] using hu) (by
      intro p hp q hq
      have hp' : p ∈ [exQ0, exQ1] := by simpa [orientations] using hp
      have hq' : q ∈ [exQ0, exQ1] := by simpa [orientations] using hq
      simp only [List.mem_cons, List.not_mem_nil, or_false] at hp' hq'
      rcases hp' with rfl | rfl <;> rcases hq' with rfl | rfl <;> norm_num [Quat.dot, exQ0, exQ1]) clock
    timeLim 0 r' h hsol
  rw [hB] at hB'
  obtain rfl := (Res.ok.injEq _ _).mp hB'
  rw [hM] at hM'
  obtain rfl := (Res.ok.injEq _ _).mp hM'
  refine ⟨_, par, start, goal, mid, r', sag3 2 exObs87, h, hpath, ?_, ?_, fun k a b ha hb =>
    (hsafe hgen).2 k a b ha hb exObs87 (by simp)⟩
  · rw [hpath] at hlen
    simp only [List.length_cons, List.length_append, List.length_nil] at hlen
    omega
  · unfold sag3 exObs87
    norm_num

end Hrm
