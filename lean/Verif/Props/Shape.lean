import Verif.Lemmas.Shape
import Mathlib.Analysis.Convex.Combination
import Mathlib.Analysis.Real.Pi.Bounds
import Mathlib.Topology.Algebra.Monoid
import Mathlib.Algebra.Order.ToIntervalMod
import Mathlib.Order.Interval.Set.Infinite

/-!
# C46, C47, C48, C69: sampled shapes and closed-form Minkowski sums
-/

namespace Hrm

open Matrix

/-! ## C48 -/

/-- **C48.** Every point of a sampled superellipse lies on the surface `implicit = 1` moved by the
object's rotation and position, and there are `num` of them. -/
theorem C48_superellipse_samples (E : SuperEllipse) (h : E.Ok) :
    E.originShape.length = E.num ∧
    ∀ x ∈ E.originShape, ∃ p, E.implicit p = 1 ∧ x = rot2 E.ang *ᵥ p + ![E.px, E.py] := by
  refine ⟨by simp [SuperEllipse.originShape], ?_⟩
  intro x hx
  obtain ⟨i, -, rfl⟩ := List.mem_map.1 hx
  exact ⟨E.canon (E.theta i), SuperEllipse.implicit_canon h _, rfl⟩

/-- **C48.** Every point of a sampled superquadric lies on the surface `implicit = 1` moved by the
object's rotation and position, and there are `num * num` of them. -/
theorem C48_superquadric_samples (Q : SuperQuadrics) (h : Q.Ok) :
    Q.originShape.length = Q.num * Q.num ∧
    ∀ x ∈ Q.originShape, ∃ p, Q.implicit p = 1 ∧ x = quatRot Q.quat *ᵥ p + Q.pos := by
  refine ⟨by simp [SuperQuadrics.originShape], ?_⟩
  intro x hx
  obtain ⟨i, -, rfl⟩ := List.mem_map.1 hx
  exact ⟨Q.canon (Q.param i), SuperQuadrics.implicit_canon h _, rfl⟩

theorem linSpaced_cell {n : ℕ} {lo hi t : ℝ} (hn : 2 ≤ n) (h : lo < hi) (hlo : lo ≤ t) (hhi : t ≤ hi) :
    ∃ i, i + 1 < n ∧ linSpaced n lo hi i ≤ t ∧ t ≤ linSpaced n lo hi (i + 1) := by
  have hn1 : (0 : ℝ) < (n : ℝ) - 1 := by
    have : (2 : ℝ) ≤ n := by exact_mod_cast hn
    linarith
  have hstep : 0 < (hi - lo) / ((n : ℝ) - 1) := div_pos (by linarith) hn1
  have hne : n ≠ 1 := by omega
  simp only [linSpaced, if_neg hne]
  generalize hδ : (hi - lo) / ((n : ℝ) - 1) = δ at hstep
  have hδ' : hi - lo = δ * ((n : ℝ) - 1) := by rw [← hδ]; field_simp
  rcases eq_or_lt_of_le hhi with rfl | hlt
  · refine ⟨n - 2, by omega, ?_, ?_⟩
    · rw [show ((n - 2 : ℕ) : ℝ) = (n : ℝ) - 2 by rw [Nat.cast_sub hn]; norm_num]
      nlinarith
    · rw [show ((n - 2 + 1 : ℕ) : ℝ) = (n : ℝ) - 1 by
        rw [show n - 2 + 1 = n - 1 by omega, Nat.cast_sub (by omega)]; norm_num]
      nlinarith
  · have hq0 : 0 ≤ (t - lo) / δ := div_nonneg (by linarith) hstep.le
    have hq : δ * ((t - lo) / δ) = t - lo := by field_simp
    have h1 := Nat.floor_le hq0
    have h2 := Nat.lt_floor_add_one ((t - lo) / δ)
    generalize ⌊(t - lo) / δ⌋₊ = i at h1 h2
    refine ⟨i, ?_, ?_, ?_⟩
    · have h3 : (t - lo) / δ < (n : ℝ) - 1 := by rw [div_lt_iff₀ hstep]; nlinarith
      have : (i : ℝ) < (n : ℝ) - 1 := lt_of_le_of_lt h1 h3
      have : ((i + 1 : ℕ) : ℝ) < (n : ℝ) := by push_cast; linarith
      exact_mod_cast this
    · nlinarith
    · push_cast
      nlinarith

theorem pi_lt_hrmPi_eps : Real.pi < hrmPi + epsilon ∧ Real.pi / 2 < hrmHalfPi + epsilon := by
  have := Real.pi_lt_d6
  have e : hrmPi = 3.1415926 := by norm_num [hrmPi]
  have e2 : epsilon = 0.000001 := by norm_num [epsilon]
  constructor
  · rw [e, e2]; norm_num; linarith
  · rw [hrmHalfPi, e, e2]; norm_num; linarith

/-- **C48 (grid).** The samples of a superquadric form a grid of latitudes `η 0 < … < η (num-1)` and
longitudes `ω 0 < … < ω (num-1)`: sample `j * num + i` is the surface point of latitude `η j` and longitude
`ω i`, and the grid covers the whole surface: all latitudes in `[-π/2, π/2]` and all longitudes in
`[-π, π]` fall into one of its cells. -/
theorem C48_grid (Q : SuperQuadrics) (hn : 2 ≤ Q.num) :
    ∃ η ω : ℕ → ℝ, StrictMono η ∧ StrictMono ω ∧
      (∀ i j, i < Q.num → j < Q.num → Q.originShape[j * Q.num + i]? = some (quatRot Q.quat *ᵥ
        ![Q.a * (expFun (η j) Q.e1 false * expFun (ω i) Q.e2 false),
          Q.b * (expFun (η j) Q.e1 false * expFun (ω i) Q.e2 true),
          Q.c * expFun (η j) Q.e1 true] + Q.pos)) ∧
      (∀ t ∈ Set.Icc (-(Real.pi / 2)) (Real.pi / 2), ∃ j, j + 1 < Q.num ∧ η j ≤ t ∧ t ≤ η (j + 1)) ∧
      (∀ t ∈ Set.Icc (-Real.pi) Real.pi, ∃ i, i + 1 < Q.num ∧ ω i ≤ t ∧ t ≤ ω (i + 1)) := by
  obtain ⟨p1, p2⟩ := pi_lt_hrmPi_eps
  have p0 := Real.pi_pos
  have hn1 : (0 : ℝ) < (Q.num : ℝ) - 1 := by
    have : (2 : ℝ) ≤ Q.num := by exact_mod_cast hn
    linarith
  have mono : ∀ lo hi : ℝ, lo < hi → StrictMono (linSpaced Q.num lo hi) := by
    intro lo hi h a b hab
    simp only [linSpaced, if_neg (show Q.num ≠ 1 by omega)]
    have : 0 < (hi - lo) / ((Q.num : ℝ) - 1) := div_pos (by linarith) hn1
    have : (a : ℝ) < b := by exact_mod_cast hab
    nlinarith
  refine ⟨Q.eta, Q.omega, mono _ _ (by linarith), mono _ _ (by linarith), ?_, ?_, ?_⟩
  · intro i j hi hj
    have hk : j * Q.num + i < Q.num * Q.num := by
      calc j * Q.num + i < j * Q.num + Q.num := by omega
        _ = (j + 1) * Q.num := by ring
        _ ≤ Q.num * Q.num := Nat.mul_le_mul_right _ hj
    have e1 : (j * Q.num + i) / Q.num = j := by
      rw [Nat.mul_comm, Nat.mul_add_div (by omega), Nat.div_eq_of_lt hi, Nat.add_zero]
    have e2 : (j * Q.num + i) % Q.num = i := by
      rw [Nat.mul_comm, Nat.mul_add_mod, Nat.mod_eq_of_lt hi]
    rw [SuperQuadrics.originShape, List.getElem?_map, List.getElem?_range hk]
    simp only [Option.map_some, SuperQuadrics.param, e1, e2, SuperQuadrics.originPoint, mul_one]
  · rintro t ⟨h1, h2⟩
    exact linSpaced_cell hn (by linarith) (by linarith) (by linarith)
  · rintro t ⟨h1, h2⟩
    exact linSpaced_cell hn (by linarith) (by linarith) (by linarith)

/-! ## C46 -/

section support
variable {n : ℕ}

theorem mink_support {A B0 : Set (Fin n → ℝ)} {g x : Fin n → ℝ} {T : Matrix (Fin n) (Fin n) ℝ}
    (hx : x ∈ A) (hs : ∀ a ∈ A, g ⬝ᵥ a ≤ g ⬝ᵥ x) (hg : g ≠ 0) (hT : Tᵀ = T)
    (hTg : vnorm (T *ᵥ g) ≠ 0) (hB : B0 = {x | ∃ u : Fin n → ℝ, u ⬝ᵥ u ≤ 1 ∧ x = T *ᵥ u}) :
    IsSupportPoint (minkowskiSum A B0) (x + (1 / vnorm (T *ᵥ g)) • (T *ᵥ (T *ᵥ g))) ∧
    ∀ p ∈ minkowskiDiff A B0, g ⬝ᵥ p ≤ g ⬝ᵥ (x - (1 / vnorm (T *ᵥ g)) • (T *ᵥ (T *ᵥ g))) := by
  obtain ⟨⟨w, hw, hb⟩, hv, hall⟩ := ell_support hT hTg
  have hbB : (1 / vnorm (T *ᵥ g)) • (T *ᵥ (T *ᵥ g)) ∈ B0 := by
    rw [hB]; exact ⟨w, hw.le, hb⟩
  refine ⟨⟨⟨x, hx, _, hbB, rfl⟩, g, hg, ?_⟩, ?_⟩
  · rintro p ⟨a, ha, b, hb', rfl⟩
    rw [hB] at hb'
    obtain ⟨u, hu, rfl⟩ := hb'
    rw [dotProduct_add, dotProduct_add, hv]
    exact add_le_add (hs a ha) (hall u hu)
  · intro p hp
    have := hs _ (hp _ hbB)
    rw [dotProduct_add] at this
    rw [dotProduct_sub]
    linarith

end support

theorem SuperQuadrics.solid0_ell {B : SuperQuadrics} (h : B.Ok) (h1 : B.e1 = 1) (h2 : B.e2 = 1) :
    B.solid0 = {x | ∃ u : Fin 3 → ℝ, u ⬝ᵥ u ≤ 1 ∧ x = B.tinv *ᵥ u} := by
  have hd : ∀ i, 0 < (![B.a, B.b, B.c] : Fin 3 → ℝ) i := by
    intro i; fin_cases i
    · exact h.a
    · exact h.b
    · exact h.c
  rw [show B.tinv = ellMat (quatRot B.quat) ![B.a, B.b, B.c] from rfl, ← ell_mem (quatRot_orth h.unit) hd]
  unfold SuperQuadrics.solid0 SuperQuadrics.implicit
  ext x
  simp only [h1, h2, Set.mem_ofPred_eq, Fin.sum_univ_three, div_one, Real.rpow_two, sq_abs, Real.rpow_one,
    cons_val_zero, cons_val_one, cons_val]

theorem SuperQuadrics.support {Q : SuperQuadrics} (h : Q.Ok) (p : ℝ × ℝ) :
    Q.originPoint p ∈ Q.solid ∧
    (∀ a ∈ Q.solid, (quatRot Q.quat *ᵥ Q.gradPhi p) ⬝ᵥ a ≤
      (quatRot Q.quat *ᵥ Q.gradPhi p) ⬝ᵥ Q.originPoint p) ∧ quatRot Q.quat *ᵥ Q.gradPhi p ≠ 0 := by
  have ho := quatRot_orth h.unit
  have e : Q.originPoint p = quatRot Q.quat *ᵥ Q.canon p + Q.pos := rfl
  refine ⟨⟨_, ⟨Q.canon p, (SuperQuadrics.implicit_canon h p).le, rfl⟩, rfl⟩, ?_, ?_⟩
  · rintro a ⟨_, ⟨q, hq, rfl⟩, rfl⟩
    rw [e, dotProduct_add, dotProduct_add, ho.dot, ho.dot, SuperQuadrics.normal_canon h]
    linarith [SuperQuadrics.normal_le h p hq]
  · intro h0
    have h1 := SuperQuadrics.normal_canon h p
    rw [ho.injective h0, zero_dotProduct] at h1
    exact absurd h1 (by norm_num)

theorem SuperQuadrics.tinv_ne {B : SuperQuadrics} (h : B.Ok) {g : Fin 3 → ℝ} (hg : g ≠ 0) :
    vnorm (B.tinv *ᵥ g) ≠ 0 := by
  have hd : ∀ i, 0 < (![B.a, B.b, B.c] : Fin 3 → ℝ) i := by
    intro i; fin_cases i
    · exact h.a
    · exact h.b
    · exact h.c
  intro h0
  exact hg (ellMat_injective (quatRot_orth h.unit) hd (vnorm_eq_zero h0))

/-- **C46.** Every point of `getMinkSum3D(B, +1)` for an ellipsoidal robot part `B` (taken relative to
its own centre) is a support point of the exact Minkowski sum of the obstacle with `B`; there are
`num * num` points. With `-1` (arena) no position at which `B` fits into the arena lies beyond the
supporting plane at any of the reported points. -/
theorem C46_minkowski_3D (Q B : SuperQuadrics) (hQ : Q.Ok) (hB : B.Ok) (h1 : B.e1 = 1) (h2 : B.e2 = 1) :
    (Q.minkSum3D B 1).length = Q.num * Q.num ∧
    (∀ m ∈ Q.minkSum3D B 1, IsSupportPoint (minkowskiSum Q.solid B.solid0) m) ∧
    (∀ m ∈ Q.minkSum3D B (-1), ∃ g : Fin 3 → ℝ, g ≠ 0 ∧
      ∀ p ∈ minkowskiDiff Q.solid B.solid0, g ⬝ᵥ p ≤ g ⬝ᵥ m) := by
  refine ⟨by simp [SuperQuadrics.minkSum3D], ?_, ?_⟩
  · intro m hm
    obtain ⟨i, -, rfl⟩ := List.mem_map.1 hm
    obtain ⟨s1, s2, s3⟩ := SuperQuadrics.support hQ (Q.param i)
    have hT : B.tinvᵀ = B.tinv := ellMat_symm (quatRot B.quat) ![B.a, B.b, B.c]
    have := (mink_support s1 s2 s3 hT
      (SuperQuadrics.tinv_ne hB s3) (SuperQuadrics.solid0_ell hB h1 h2)).1
    simpa only [SuperQuadrics.minkPoint, Int.cast_one, one_smul] using this
  · intro m hm
    obtain ⟨i, -, rfl⟩ := List.mem_map.1 hm
    obtain ⟨s1, s2, s3⟩ := SuperQuadrics.support hQ (Q.param i)
    refine ⟨_, s3, ?_⟩
    have hT : B.tinvᵀ = B.tinv := ellMat_symm (quatRot B.quat) ![B.a, B.b, B.c]
    have := (mink_support s1 s2 s3 hT
      (SuperQuadrics.tinv_ne hB s3) (SuperQuadrics.solid0_ell hB h1 h2)).2
    simpa only [SuperQuadrics.minkPoint, Int.cast_neg, Int.cast_one, neg_smul, one_smul, smul_neg,
      ← sub_eq_add_neg] using this

/-! ## C47 -/

theorem vnorm_smul {n : ℕ} {c : ℝ} (hc : 0 ≤ c) (v : Fin n → ℝ) : vnorm (c • v) = c * vnorm v := by
  rw [vnorm, vnorm, dotProduct_smul, smul_dotProduct, smul_eq_mul, smul_eq_mul, ← mul_assoc,
    Real.sqrt_mul (mul_nonneg hc hc), Real.sqrt_mul_self hc]

/-- The symmetric matrix of the ellipse `B`. -/
noncomputable def SuperEllipse.mat (B : SuperEllipse) : Matrix (Fin 2) (Fin 2) ℝ :=
  ellMat (rot2 B.ang) ![B.a, B.b]

theorem SuperEllipse.tinv_eq (B : SuperEllipse) (r : ℝ) : B.tinv r = (1 / r) • B.mat := by
  have : (![B.a / r, B.b / r] : Fin 2 → ℝ) = (1 / r) • ![B.a, B.b] := by
    funext i; fin_cases i <;> simp <;> ring
  rw [SuperEllipse.tinv, this, diagonal_smul, SuperEllipse.mat, ellMat, Matrix.mul_smul, Matrix.smul_mul]

theorem SuperEllipse.minkPoint_eq {E : SuperEllipse} (h : E.Ok) (B : SuperEllipse) (k : ℤ) (th : ℝ) :
    E.minkPoint B k th = E.originPoint th + (k : ℝ) •
      ((1 / vnorm (B.mat *ᵥ (rot2 E.ang *ᵥ E.gradPhi th))) •
        (B.mat *ᵥ (B.mat *ᵥ (rot2 E.ang *ᵥ E.gradPhi th)))) := by
  have hr : 0 < min E.a E.b := lt_min h.a h.b
  unfold SuperEllipse.minkPoint
  simp only [SuperEllipse.tinv_eq, smul_mulVec, mulVec_smul, vnorm_smul (one_div_pos.2 hr).le, smul_smul]
  congr 2
  by_cases hv : vnorm (B.mat *ᵥ (rot2 E.ang *ᵥ E.gradPhi th)) = 0
  · rw [hv]; simp
  · field_simp

theorem SuperEllipse.solid0_ell {B : SuperEllipse} (h : B.Ok) (h1 : B.eps = 1) :
    B.solid0 = {x | ∃ u : Fin 2 → ℝ, u ⬝ᵥ u ≤ 1 ∧ x = B.mat *ᵥ u} := by
  have hd : ∀ i, 0 < (![B.a, B.b] : Fin 2 → ℝ) i := by
    intro i; fin_cases i
    · exact h.a
    · exact h.b
  rw [SuperEllipse.mat, ← ell_mem (rot2_orth B.ang) hd]
  unfold SuperEllipse.solid0 SuperEllipse.implicit
  ext x
  simp only [h1, Set.mem_ofPred_eq, Fin.sum_univ_two, div_one, Real.rpow_two, sq_abs,
    cons_val_zero, cons_val_one]

theorem SuperEllipse.mat_ne {B : SuperEllipse} (h : B.Ok) {g : Fin 2 → ℝ} (hg : g ≠ 0) :
    vnorm (B.mat *ᵥ g) ≠ 0 := by
  have hd : ∀ i, 0 < (![B.a, B.b] : Fin 2 → ℝ) i := by
    intro i; fin_cases i
    · exact h.a
    · exact h.b
  intro h0
  exact hg (ellMat_injective (rot2_orth B.ang) hd (vnorm_eq_zero h0))

theorem SuperEllipse.gradPhi_ne {E : SuperEllipse} (h : E.Ok) (th : ℝ) : E.gradPhi th ≠ 0 := by
  intro h0
  have h1 := SuperEllipse.normal_canon h th
  have e : E.normal th = 0 := by
    have e0 : 2 / E.eps * expFun th (2 - E.eps) false = 0 := congrFun h0 0
    have e1 : 2 / E.eps * expFun th (2 - E.eps) true = 0 := congrFun h0 1
    have hp : 2 / E.eps ≠ 0 := (div_pos two_pos h.lo).ne'
    have f0 := (mul_eq_zero.1 e0).resolve_left hp
    have f1 := (mul_eq_zero.1 e1).resolve_left hp
    funext i; fin_cases i <;> simp [SuperEllipse.normal, f0, f1]
  rw [e, zero_dotProduct] at h1
  exact absurd h1 (by norm_num)

theorem SuperEllipse.grad_rot_ne {E : SuperEllipse} (h : E.Ok) (th : ℝ) :
    rot2 E.ang *ᵥ E.gradPhi th ≠ 0 := fun h0 =>
  SuperEllipse.gradPhi_ne h th ((rot2_orth E.ang).injective h0)

theorem SuperEllipse.originPoint_mem {E : SuperEllipse} (h : E.Ok) (th : ℝ) : E.originPoint th ∈ E.solid :=
  ⟨_, ⟨E.canon th, (SuperEllipse.implicit_canon h th).le, rfl⟩, rfl⟩

/-- The full claim C47. -/
def C47_claim : Prop :=
  ∀ (E B : SuperEllipse), E.Ok → B.Ok → B.eps = 1 → 2 ≤ E.num →
    ∀ m ∈ E.minkSum2D B 1, IsSupportPoint (minkowskiSum E.solid B.solid0) m

/-- **C47, the part that holds.** For obstacles with equal semi-axes every reported point is a support
point of the exact Minkowski sum, and with `-1` no position at which the robot part fits lies beyond
the supporting plane there. For all obstacles every reported point belongs to the Minkowski sum.
Missing: support points for `a ≠ b` (false, `C47_wrong_normal`). -/
theorem C47_minkowski_2D_partial (E B : SuperEllipse) (hE : E.Ok) (hB : B.Ok) (h1 : B.eps = 1) :
    (E.minkSum2D B 1).length = E.num ∧
    (∀ m ∈ E.minkSum2D B 1, m ∈ minkowskiSum E.solid B.solid0) ∧
    (E.a = E.b → (∀ m ∈ E.minkSum2D B 1, IsSupportPoint (minkowskiSum E.solid B.solid0) m) ∧
      (∀ m ∈ E.minkSum2D B (-1), ∃ g : Fin 2 → ℝ, g ≠ 0 ∧
        ∀ p ∈ minkowskiDiff E.solid B.solid0, g ⬝ᵥ p ≤ g ⬝ᵥ m)) := by
  have hT := ellMat_symm (rot2 B.ang) ![B.a, B.b]
  refine ⟨by simp [SuperEllipse.minkSum2D], ?_, fun hab => ?_⟩
  · intro m hm
    obtain ⟨i, -, rfl⟩ := List.mem_map.1 hm
    rw [SuperEllipse.minkPoint_eq hE]
    obtain ⟨⟨w, hw, hb⟩, -, -⟩ := ell_support hT
      (SuperEllipse.mat_ne hB (SuperEllipse.grad_rot_ne hE (E.theta i)))
    refine ⟨_, SuperEllipse.originPoint_mem hE _, _, ?_, rfl⟩
    rw [SuperEllipse.solid0_ell hB h1, Int.cast_one, one_smul]
    exact ⟨w, hw.le, hb⟩
  · have hs : ∀ th, ∀ a ∈ E.solid, (rot2 E.ang *ᵥ E.gradPhi th) ⬝ᵥ a ≤
        (rot2 E.ang *ᵥ E.gradPhi th) ⬝ᵥ E.originPoint th := by
      rintro th a ⟨_, ⟨q, hq, rfl⟩, rfl⟩
      have hg : E.gradPhi th = (2 / E.eps * E.a) • E.normal th := by
        have := hE.a.ne'
        funext i
        fin_cases i
        · simp [SuperEllipse.gradPhi, SuperEllipse.normal]; field_simp
        · simp [SuperEllipse.gradPhi, SuperEllipse.normal, ← hab]; field_simp
      have hpos : 0 ≤ 2 / E.eps * E.a := (mul_pos (div_pos two_pos hE.lo) hE.a).le
      have e : E.originPoint th = rot2 E.ang *ᵥ E.canon th + ![E.px, E.py] := rfl
      rw [e, dotProduct_add, dotProduct_add, (rot2_orth _).dot, (rot2_orth _).dot, hg, smul_dotProduct,
        smul_dotProduct, SuperEllipse.normal_canon hE]
      have := mul_le_mul_of_nonneg_left (SuperEllipse.normal_le hE th hq) hpos
      simp only [smul_eq_mul]
      linarith
    constructor
    · intro m hm
      obtain ⟨i, -, rfl⟩ := List.mem_map.1 hm
      have hg := SuperEllipse.grad_rot_ne hE (E.theta i)
      rw [SuperEllipse.minkPoint_eq hE, Int.cast_one, one_smul]
      exact (mink_support (SuperEllipse.originPoint_mem hE _) (hs _) hg hT
        (SuperEllipse.mat_ne hB hg) (SuperEllipse.solid0_ell hB h1)).1
    · intro m hm
      obtain ⟨i, -, rfl⟩ := List.mem_map.1 hm
      have hg := SuperEllipse.grad_rot_ne hE (E.theta i)
      refine ⟨_, hg, ?_⟩
      rw [SuperEllipse.minkPoint_eq hE, Int.cast_neg, Int.cast_one, neg_smul, one_smul, ← sub_eq_add_neg]
      exact (mink_support (SuperEllipse.originPoint_mem hE _) (hs _) hg hT
        (SuperEllipse.mat_ne hB hg) (SuperEllipse.solid0_ell hB h1)).2

theorem expFun_one (th : ℝ) (s : Bool) : expFun th 1 s = sc th s := by
  rw [expFun_eq, Real.rpow_one, sgn_mul_abs]

theorem SuperEllipse.mat_disc {B : SuperEllipse} (h : B.a = B.b) (u : Fin 2 → ℝ) : B.mat *ᵥ u = B.a • u := by
  have e : (![B.a, B.b] : Fin 2 → ℝ) = B.a • 1 := by
    funext i; fin_cases i <;> simp [h]
  have hd : diagonal (B.a • (1 : Fin 2 → ℝ)) = B.a • (1 : Matrix (Fin 2) (Fin 2) ℝ) := by
    rw [diagonal_smul]; rfl
  rw [SuperEllipse.mat, ellMat, e, hd, Matrix.mul_smul, Matrix.smul_mul, Matrix.mul_one,
    (rot2_orth B.ang).right, smul_mulVec, one_mulVec]

/-- An ellipse sample and its Minkowski point for a disc robot part. -/
theorem SuperEllipse.minkPoint_disc {E B : SuperEllipse} (hE : E.Ok) (h1 : E.eps = 1) (hB : B.Ok)
    (hd : B.a = B.b) (th : ℝ) :
    E.minkPoint B 1 th = rot2 E.ang *ᵥ ![E.a * Real.cos th, E.b * Real.sin th] + ![E.px, E.py] +
      B.a • (rot2 E.ang *ᵥ ![Real.cos th, Real.sin th]) := by
  have hg : E.gradPhi th = (2 : ℝ) • ![Real.cos th, Real.sin th] := by
    have e : (2 : ℝ) - 1 = 1 := by norm_num
    funext i
    fin_cases i <;> simp [SuperEllipse.gradPhi, h1, e, expFun_one, sc]
  have hn : vnorm (rot2 E.ang *ᵥ ![Real.cos th, Real.sin th]) = 1 := by
    rw [vnorm, (rot2_orth _).dot]
    simp only [dotProduct, Fin.sum_univ_two, cons_val_zero, cons_val_one]
    rw [← pow_two, ← pow_two, Real.cos_sq_add_sin_sq, Real.sqrt_one]
  have hp := hB.a
  rw [SuperEllipse.minkPoint_eq hE, Int.cast_one, one_smul, hg]
  have hv : ∀ t : ℝ, 0 ≤ t → vnorm (t • (rot2 E.ang *ᵥ ![Real.cos th, Real.sin th])) = t := by
    intro t ht
    rw [vnorm_smul ht, hn, mul_one]
  simp only [mulVec_smul, SuperEllipse.mat_disc hd, smul_smul, hv _ (mul_pos hp two_pos).le]
  congr 1
  · simp only [SuperEllipse.originPoint, h1, expFun_one, sc]
    simp
  · congr 1
    field_simp

/-- **C47 fails.** For every ellipse with different semi-axes and every disc-shaped robot part, *no*
reported point off the axes of the ellipse is a support point of the Minkowski sum: the code uses the
normal of the circle instead of that of the ellipse, and the point is inside the true C-obstacle. -/
theorem C47_wrong_normal (E B : SuperEllipse) (hE : E.Ok) (h1 : E.eps = 1) (hB : B.Ok) (hB1 : B.eps = 1)
    (hd : B.a = B.b) (hab : E.a ≠ E.b) (th : ℝ) (hs : Real.sin th ≠ 0) (hc : Real.cos th ≠ 0) :
    ¬ IsSupportPoint (minkowskiSum E.solid B.solid0) (E.minkPoint B 1 th) := by
  rintro ⟨-, g, hg, hall⟩
  rw [SuperEllipse.minkPoint_disc hE h1 hB hd] at hall
  have ho := rot2_orth E.ang
  have hρ := hB.a
  obtain ⟨h, rfl⟩ : ∃ h, g = rot2 E.ang *ᵥ h := ⟨(rot2 E.ang)ᵀ *ᵥ g, by
    rw [mulVec_mulVec, ho.right, one_mulVec]⟩
  have hh : h ≠ 0 := by rintro rfl; exact hg (mulVec_zero _)
  have hN : 0 < vnorm h := lt_of_le_of_ne (vnorm_nonneg h) (fun e => hh (vnorm_eq_zero e.symm))
  have hsq := vnorm_sq h
  have hcs := Real.cos_sq_add_sin_sq th
  have hmem : ∀ u : Fin 2 → ℝ, u ⬝ᵥ u ≤ 1 → B.a • (rot2 E.ang *ᵥ u) ∈ B.solid0 := by
    intro u hu
    rw [SuperEllipse.solid0_ell hB hB1]
    exact ⟨rot2 E.ang *ᵥ u, by rw [ho.dot]; exact hu, (SuperEllipse.mat_disc hd _).symm⟩
  have hemem : ∀ p : Fin 2 → ℝ, (p 0 / E.a) ^ 2 + (p 1 / E.b) ^ 2 ≤ 1 →
      rot2 E.ang *ᵥ p + ![E.px, E.py] ∈ E.solid := by
    intro p hp
    refine ⟨_, ⟨p, ?_, rfl⟩, rfl⟩
    simpa [SuperEllipse.implicit, h1, sq_abs] using hp
  have ha := hE.a
  have hb := hE.b
  have hx : rot2 E.ang *ᵥ ![E.a * Real.cos th, E.b * Real.sin th] + ![E.px, E.py] ∈ E.solid := by
    apply hemem
    simp only [cons_val_zero, cons_val_one]
    rw [mul_div_cancel_left₀ _ ha.ne', mul_div_cancel_left₀ _ hb.ne', hcs]
  -- the direction must be the sample direction
  have c1 := hall _ ⟨_, hx, _, hmem ((1 / vnorm h) • h) (by
    rw [dotProduct_smul, smul_dotProduct, ← hsq, smul_eq_mul, smul_eq_mul]
    apply le_of_eq; field_simp), rfl⟩
  rw [dotProduct_add _ _ (B.a • _), dotProduct_add _ _ (B.a • _), dotProduct_smul, dotProduct_smul, ho.dot,
    ho.dot, dotProduct_smul, ← hsq] at c1
  have c2 : vnorm h ≤ h 0 * Real.cos th + h 1 * Real.sin th := by
    have e : (1 / vnorm h) • (vnorm h * vnorm h) = vnorm h := by
      rw [smul_eq_mul]; field_simp
    rw [e] at c1
    simp only [dotProduct, Fin.sum_univ_two, cons_val_zero, cons_val_one, smul_eq_mul] at c1
    nlinarith
  have hsq' : vnorm h * vnorm h = h 0 * h 0 + h 1 * h 1 := by
    rw [hsq]; simp [dotProduct, Fin.sum_univ_two]
  have hz : (h 0 - vnorm h * Real.cos th) ^ 2 + (h 1 - vnorm h * Real.sin th) ^ 2 ≤ 0 := by
    have : (h 0 - vnorm h * Real.cos th) ^ 2 + (h 1 - vnorm h * Real.sin th) ^ 2 =
      2 * (vnorm h * vnorm h) - 2 * vnorm h * (h 0 * Real.cos th + h 1 * Real.sin th) := by
      linear_combination (vnorm h * vnorm h) * hcs - hsq'
    rw [this]
    nlinarith
  have k0 : h 0 = vnorm h * Real.cos th := by nlinarith [sq_nonneg (h 0 - vnorm h * Real.cos th), sq_nonneg (h 1 - vnorm h * Real.sin th)]
  have k1 : h 1 = vnorm h * Real.sin th := by nlinarith [sq_nonneg (h 0 - vnorm h * Real.cos th), sq_nonneg (h 1 - vnorm h * Real.sin th)]
  -- but then another point of the ellipse is farther
  set c := Real.cos th
  set s := Real.sin th
  have hW : 0 < E.a ^ 2 * c ^ 2 + E.b ^ 2 * s ^ 2 := by positivity
  set N := Real.sqrt (E.a ^ 2 * c ^ 2 + E.b ^ 2 * s ^ 2) with hNdef
  have hNp : 0 < N := Real.sqrt_pos.2 hW
  have hNN : N * N = E.a ^ 2 * c ^ 2 + E.b ^ 2 * s ^ 2 := Real.mul_self_sqrt hW.le
  have c3 := hall _ ⟨_, hemem ![E.a ^ 2 * c / N, E.b ^ 2 * s / N] (by
    simp only [cons_val_zero, cons_val_one]
    apply le_of_eq
    field_simp
    linarith), _, hmem ![c, s] (by
      simp only [dotProduct, Fin.sum_univ_two, cons_val_zero, cons_val_one]
      linarith), rfl⟩
  simp only [dotProduct_add, ho.dot] at c3
  simp only [dotProduct, Fin.sum_univ_two, cons_val_zero, cons_val_one, k0, k1] at c3
  have c4 : vnorm h * N ≤ vnorm h * (E.a * c ^ 2 + E.b * s ^ 2) := by
    have e : vnorm h * c * (E.a ^ 2 * c / N) + vnorm h * s * (E.b ^ 2 * s / N) = vnorm h * N := by
      field_simp
      linarith
    linarith
  have c5 : N ≤ E.a * c ^ 2 + E.b * s ^ 2 := le_of_mul_le_mul_left c4 hN
  have c6 : N * N ≤ (E.a * c ^ 2 + E.b * s ^ 2) * (E.a * c ^ 2 + E.b * s ^ 2) :=
    mul_le_mul c5 c5 hNp.le (hNp.le.trans c5)
  have c7 : 0 < c ^ 2 * s ^ 2 * (E.a - E.b) ^ 2 := by
    have := sub_ne_zero.2 hab
    positivity
  have c8 : E.a ^ 2 * c ^ 2 + E.b ^ 2 * s ^ 2 - (E.a * c ^ 2 + E.b * s ^ 2) * (E.a * c ^ 2 + E.b * s ^ 2) =
      c ^ 2 * s ^ 2 * (E.a - E.b) ^ 2 := by
    linear_combination -(E.a ^ 2 * c ^ 2 + E.b ^ 2 * s ^ 2) * hcs
  linarith

/-- The concrete scene of the refutation: an ellipse with semi-axes 2 and 1, nine samples. -/
noncomputable def exEllipse : SuperEllipse := ⟨2, 1, 1, 0, 0, 0, 9⟩
/-- A disc of radius 1. -/
noncomputable def exDisc (num : ℕ) : SuperEllipse := ⟨1, 1, 1, 0, 0, 0, num⟩

theorem exEllipse_ok : exEllipse.Ok := ⟨by norm_num [exEllipse], by norm_num [exEllipse],
  by norm_num [exEllipse], by norm_num [exEllipse]⟩
theorem exDisc_ok (num : ℕ) : (exDisc num).Ok := ⟨by norm_num [exDisc], by norm_num [exDisc],
  by norm_num [exDisc], by norm_num [exDisc]⟩

/-- **C47 is false of the code.** -/
theorem C47_refuted : ¬ C47_claim := by
  intro h
  have h1 := h exEllipse (exDisc 9) exEllipse_ok (exDisc_ok 9) rfl (by norm_num [exEllipse])
    (exEllipse.minkPoint (exDisc 9) 1 (exEllipse.theta 1))
    (List.mem_map.2 ⟨1, by simp [exEllipse], rfl⟩)
  have ht : exEllipse.theta 1 = hrmPi / 4 := by
    simp only [SuperEllipse.theta, exEllipse]; norm_num; ring
  have hpi := Real.pi_gt_three
  have h4 : 0 < hrmPi / 4 := by norm_num [hrmPi]
  have h5 : hrmPi / 4 < Real.pi / 2 := by
    have : hrmPi / 4 < 1 := by norm_num [hrmPi]
    linarith
  refine C47_wrong_normal exEllipse (exDisc 9) exEllipse_ok rfl (exDisc_ok 9) rfl rfl
    (by norm_num [exEllipse]) _ ?_ ?_ h1
  · rw [ht]; exact (Real.sin_pos_of_pos_of_lt_pi h4 (by linarith)).ne'
  · rw [ht]; exact (Real.cos_pos_of_mem_Ioo ⟨by linarith, h5⟩).ne'

/-! ## C69 -/

theorem minkowskiSum_convex {n : ℕ} {A B : Set (Fin n → ℝ)} (hA : Convex ℝ A) (hB : Convex ℝ B) :
    Convex ℝ (minkowskiSum A B) := by
  rintro _ ⟨a, ha, b, hb, rfl⟩ _ ⟨a', ha', b', hb', rfl⟩ s t hs ht hst
  refine ⟨s • a + t • a', hA ha ha' hs ht hst, s • b + t • b', hB hb hb' hs ht hst, ?_⟩
  rw [smul_add, smul_add]
  abel

theorem ball_convex {n : ℕ} (T : Matrix (Fin n) (Fin n) ℝ) :
    Convex ℝ {x | ∃ u : Fin n → ℝ, u ⬝ᵥ u ≤ 1 ∧ x = T *ᵥ u} := by
  rintro _ ⟨u, hu, rfl⟩ _ ⟨v, hv, rfl⟩ s t hs ht hst
  refine ⟨s • u + t • v, ?_, by rw [mulVec_add, mulVec_smul, mulVec_smul]⟩
  have huv : u ⬝ᵥ v ≤ 1 := by
    refine (cauchy u v).trans ?_
    have h1 : vnorm u ≤ 1 := Real.sqrt_le_one.2 hu
    have h2 : vnorm v ≤ 1 := Real.sqrt_le_one.2 hv
    exact mul_le_one₀ h1 (vnorm_nonneg v) h2
  simp only [add_dotProduct, dotProduct_add, smul_dotProduct, dotProduct_smul, smul_eq_mul,
    dotProduct_comm v u]
  have : t = 1 - s := by linarith
  subst this
  nlinarith [mul_nonneg hs ht, mul_nonneg hs hs, mul_nonneg ht ht]

/-- The full claim C69: a robot-part position in which the exact shapes overlap (with some
interior point in common: the position lies strictly inside a supporting disc) is inside the polygon
spanned by the reported C-obstacle points. -/
def C69_claim : Prop :=
  ∀ (E B : SuperEllipse), E.Ok → B.Ok → B.eps = 1 → 2 ≤ E.num →
    interior (minkowskiSum E.solid B.solid0) ⊆ convexHull ℝ {m | m ∈ E.minkSum2D B 1}

/-- **C69, the part that holds (2D and 3D).** The polygon / polyhedron spanned by the reported points
is contained in the exact C-obstacle: no collision-free position is blocked. Missing: the other
inclusion, which is false for every resolution (`C69_refuted_every_resolution`). -/
theorem C69_hull_inside_partial :
    (∀ E B : SuperEllipse, E.Ok → B.Ok → B.eps = 1 →
      convexHull ℝ {m | m ∈ E.minkSum2D B 1} ⊆ minkowskiSum E.solid B.solid0) ∧
    (∀ Q B : SuperQuadrics, Q.Ok → B.Ok → B.e1 = 1 → B.e2 = 1 →
      convexHull ℝ {m | m ∈ Q.minkSum3D B 1} ⊆ minkowskiSum Q.solid B.solid0) := by
  constructor
  · intro E B hE hB h1
    refine convexHull_min (C47_minkowski_2D_partial E B hE hB h1).2.1
      (minkowskiSum_convex (SuperEllipse.solid_convex hE) ?_)
    rw [SuperEllipse.solid0_ell hB h1]
    exact ball_convex _
  · intro Q B hQ hB h1 h2
    refine convexHull_min (fun m hm => ((C46_minkowski_3D Q B hQ hB h1 h2).2.1 m hm).1)
      (minkowskiSum_convex (SuperQuadrics.solid_convex hQ) ?_)
    rw [SuperQuadrics.solid0_ell hB h1 h2]
    exact ball_convex _

theorem rot2_zero : rot2 0 = 1 := by
  ext i j; fin_cases i <;> fin_cases j <;> simp [rot2]

theorem exDisc_solid0 (num : ℕ) : (exDisc num).solid0 = {x | x ⬝ᵥ x ≤ 1} := by
  rw [SuperEllipse.solid0_ell (exDisc_ok num) rfl]
  ext x
  simp only [Set.mem_ofPred_eq]
  constructor
  · rintro ⟨u, hu, rfl⟩
    rw [SuperEllipse.mat_disc rfl]
    simpa [exDisc] using hu
  · intro h
    exact ⟨x, h, by rw [SuperEllipse.mat_disc rfl]; simp [exDisc]⟩

theorem exDisc_solid (num : ℕ) : (exDisc num).solid = {x | x ⬝ᵥ x ≤ 1} := by
  rw [← exDisc_solid0 num]
  ext x
  have e : (![(exDisc num).px, (exDisc num).py] : Fin 2 → ℝ) = 0 := by
    funext i; fin_cases i <;> simp [exDisc]
  constructor
  · rintro ⟨p, hp, rfl⟩
    rw [e, add_zero]; exact hp
  · intro h
    exact ⟨x, h, by rw [e, add_zero]⟩

/-- Two unit discs: the C-obstacle contains the disc of radius 2. -/
theorem exDisc_sum (num num' : ℕ) {x : Fin 2 → ℝ} (hx : x ⬝ᵥ x ≤ 4) :
    x ∈ minkowskiSum (exDisc num).solid (exDisc num').solid0 := by
  rw [exDisc_solid, exDisc_solid0]
  have h : ((1 / 2 : ℝ) • x) ⬝ᵥ ((1 / 2 : ℝ) • x) ≤ 1 := by
    rw [dotProduct_smul, smul_dotProduct, smul_eq_mul, smul_eq_mul]; linarith
  refine ⟨(1 / 2 : ℝ) • x, h, (1 / 2 : ℝ) • x, h, ?_⟩
  rw [← add_smul]; norm_num

/-- **C69 fails at every resolution.** For a unit-disc obstacle and a unit-disc robot part, whatever the
number of sample points, some position strictly inside the exact C-obstacle (an open ball around it
collides) is outside the polygon spanned by the reported points: it is reported free. -/
theorem C69_refuted_every_resolution (num : ℕ) :
    ∃ v : Fin 2 → ℝ, v ∈ interior (minkowskiSum (exDisc num).solid (exDisc num).solid0) ∧
      v ∉ convexHull ℝ {m | m ∈ (exDisc num).minkSum2D (exDisc num) 1} := by
  classical
  -- every reported point is 2 (cos, sin)
  have hpts : ∀ th, (exDisc num).minkPoint (exDisc num) 1 th = (2 : ℝ) • ![Real.cos th, Real.sin th] := by
    intro th
    rw [SuperEllipse.minkPoint_disc (exDisc_ok num) rfl (exDisc_ok num) rfl]
    simp only [exDisc, rot2_zero, one_mulVec]
    funext i
    fin_cases i <;> simp <;> ring
  -- a direction that is not sampled
  obtain ⟨ph, hph⟩ : ∃ ph : ℝ, ∀ i ∈ Finset.range num,
      Real.cos (ph - (exDisc num).theta i) < 1 := by
    have hfin : ((Finset.range num : Finset ℕ) : Set ℕ).Finite := Finset.finite_toSet _
    -- choose ph in (0, 2π) different from every sample modulo 2π
    let bad : Set ℝ := (fun i => toIcoMod Real.two_pi_pos 0 ((exDisc num).theta i)) ''
      ((Finset.range num : Finset ℕ) : Set ℕ)
    have hbad : bad.Finite := hfin.image _
    obtain ⟨ph, hph, hnb⟩ := (Set.Ioo_infinite (show (0 : ℝ) < 1 by norm_num)).exists_notMem_finite hbad
    refine ⟨ph, fun i hi => lt_of_le_of_ne (Real.cos_le_one _) fun h => ?_⟩
    obtain ⟨k, hk⟩ := (Real.cos_eq_one_iff _).1 h
    apply hnb
    refine ⟨i, Finset.mem_coe.2 hi, ?_⟩
    rw [toIcoMod_eq_iff]
    refine ⟨⟨hph.1.le, ?_⟩, -k, ?_⟩
    · have := Real.pi_gt_three
      linarith [hph.2]
    · rw [zsmul_eq_mul]; push_cast; linarith
  -- the largest value of the functional on the reported points
  set g : Fin 2 → ℝ := ![Real.cos ph, Real.sin ph] with hgd
  have hgg : g ⬝ᵥ g = 1 := by
    simp only [hgd, dotProduct, Fin.sum_univ_two, cons_val_zero, cons_val_one]
    have := Real.cos_sq_add_sin_sq ph
    nlinarith
  obtain ⟨c, hc, hcb⟩ : ∃ c : ℝ, c < 1 ∧ ∀ i ∈ Finset.range num, Real.cos (ph - (exDisc num).theta i) ≤ c := by
    by_cases hn : (Finset.range num).Nonempty
    · obtain ⟨j, hj, hmax⟩ := Finset.exists_max_image _ (fun i => Real.cos (ph - (exDisc num).theta i)) hn
      exact ⟨_, hph j hj, fun i hi => hmax i hi⟩
    · exact ⟨0, by norm_num, fun i hi => absurd ⟨i, hi⟩ hn⟩
  have hm : ∀ m ∈ (exDisc num).minkSum2D (exDisc num) 1, g ⬝ᵥ m ≤ 2 * c := by
    intro m hm
    obtain ⟨i, hi, rfl⟩ := List.mem_map.1 hm
    have := hcb i (Finset.mem_range.2 (List.mem_range.1 hi))
    rw [Real.cos_sub] at this
    rw [hpts]
    simp only [hgd, dotProduct, Fin.sum_univ_two, cons_val_zero, cons_val_one, Pi.smul_apply, smul_eq_mul]
    linarith
  -- the witness
  obtain ⟨t, ht1, ht2, ht0⟩ : ∃ t : ℝ, 2 * c < t ∧ t < 2 ∧ 0 ≤ t := by
    refine ⟨max (1 + c) 0, ?_, ?_, le_max_right _ _⟩
    · have := le_max_left (1 + c) 0; linarith
    · exact max_lt (by linarith) (by norm_num)
  refine ⟨t • g, ?_, ?_⟩
  · refine mem_interior.2 ⟨{x | x ⬝ᵥ x < 4}, ?_, ?_, ?_⟩
    · intro x hx
      exact exDisc_sum num num (le_of_lt hx)
    · have : Continuous fun x : Fin 2 → ℝ => x ⬝ᵥ x := by
        simp only [dotProduct, Fin.sum_univ_two]
        fun_prop
      exact isOpen_lt this continuous_const
    · simp only [Set.mem_ofPred_eq, dotProduct_smul, smul_dotProduct, hgg, smul_eq_mul]
      nlinarith
  · intro hv
    have hsub : convexHull ℝ {m | m ∈ (exDisc num).minkSum2D (exDisc num) 1} ⊆ {x | g ⬝ᵥ x ≤ 2 * c} := by
      refine convexHull_min hm ?_
      intro x hx y hy s u hs hu hsu
      simp only [Set.mem_ofPred_eq, dotProduct_add, dotProduct_smul, smul_eq_mul] at hx hy ⊢
      have : u = 1 - s := by linarith
      subst this
      nlinarith
    have := hsub hv
    simp only [Set.mem_ofPred_eq, dotProduct_smul, hgg, smul_eq_mul, mul_one] at this
    linarith

/-- **C69 is false of the code.** -/
theorem C69_refuted : ¬ C69_claim := by
  intro h
  obtain ⟨v, h1, h2⟩ := C69_refuted_every_resolution 50
  exact h2 (h (exDisc 50) (exDisc 50) (exDisc_ok 50) (exDisc_ok 50) rfl (by norm_num [exDisc]) h1)

/-! ## Witnesses -/

/-- A tilted superquadric obstacle and an ellipsoidal robot part. -/
noncomputable def exQuadric : SuperQuadrics := ⟨2, 1, 3, 1 / 2, 3 / 2, ![1, 2, 3], (3 / 5, 4 / 5, 0, 0), 10⟩
/-- An ellipsoidal robot part. -/
noncomputable def exEllipsoid : SuperQuadrics := ⟨1, 2, 3, 1, 1, ![0, 0, 0], (0, 0, 3 / 5, 4 / 5), 10⟩

theorem exQuadric_ok : exQuadric.Ok := by
  constructor <;> norm_num [exQuadric]
theorem exEllipsoid_ok : exEllipsoid.Ok := by
  constructor <;> norm_num [exEllipsoid]

example : ∀ m ∈ exQuadric.minkSum3D exEllipsoid 1,
    IsSupportPoint (minkowskiSum exQuadric.solid exEllipsoid.solid0) m :=
  (C46_minkowski_3D exQuadric exEllipsoid exQuadric_ok exEllipsoid_ok rfl rfl).2.1
example : (exQuadric.minkSum3D exEllipsoid 1).length = 100 :=
  (C46_minkowski_3D exQuadric exEllipsoid exQuadric_ok exEllipsoid_ok rfl rfl).1
example : ∀ m ∈ (exDisc 7).minkSum2D exEllipse 1,
    IsSupportPoint (minkowskiSum (exDisc 7).solid exEllipse.solid0) m :=
  ((C47_minkowski_2D_partial (exDisc 7) exEllipse (exDisc_ok 7) exEllipse_ok rfl).2.2 rfl).1

end Hrm
