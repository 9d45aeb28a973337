import Verif.Lemmas.Collision
import Mathlib.Analysis.Real.Pi.Bounds

/-!
# The sample points of a superquadric are not in a plane
-/

namespace Hrm

open Matrix

theorem sample_mem (Q : SuperQuadrics) {i j : ℕ} (hi : i < Q.num) (hj : j < Q.num) :
    Q.originPoint (Q.eta j, Q.omega i) ∈ Q.originShape := by
  refine List.mem_map.2 ⟨j * Q.num + i, ?_, ?_⟩
  · rw [List.mem_range]
    calc j * Q.num + i < j * Q.num + Q.num := by omega
      _ = (j + 1) * Q.num := by ring
      _ ≤ Q.num * Q.num := Nat.mul_le_mul_right _ hj
  · have h0 : 0 < Q.num := by omega
    have e1 : (j * Q.num + i) / Q.num = j := by
      rw [Nat.mul_comm, Nat.mul_add_div h0, Nat.div_eq_of_lt hi, add_zero]
    have e2 : (j * Q.num + i) % Q.num = i := by
      rw [Nat.mul_comm, Nat.mul_add_mod, Nat.mod_eq_of_lt hi]
    rw [SuperQuadrics.param, e1, e2]

theorem mem_sample {Q : SuperQuadrics} {x : Fin 3 → ℝ} (h : x ∈ Q.originShape) :
    ∃ i j : ℕ, i < Q.num ∧ j < Q.num ∧ x = Q.originPoint (Q.eta j, Q.omega i) := by
  obtain ⟨k, hk, rfl⟩ := List.mem_map.1 h
  rw [List.mem_range] at hk
  have h0 : 0 < Q.num := by
    rcases Nat.eq_zero_or_pos Q.num with h | h
    · simp [h] at hk
    · exact h
  exact ⟨k % Q.num, k / Q.num, Nat.mod_lt _ h0, Nat.div_lt_of_lt_mul hk, rfl⟩

theorem aux_originPoint (Q : SuperQuadrics) (p : ℝ × ℝ) :
    Q.aux.originPoint p = ![Q.a * (expFun p.1 Q.e1 false * expFun p.2 Q.e2 false),
      Q.b * (expFun p.1 Q.e1 false * expFun p.2 Q.e2 true), Q.c * expFun p.1 Q.e1 true] := by
  have h0 : Q.aux.pos = 0 := by ext i; fin_cases i <;> rfl
  have h1 : quatRot Q.aux.quat = 1 := by
    ext i j; fin_cases i <;> fin_cases j <;> simp [quatRot, SuperQuadrics.aux]
  rw [SuperQuadrics.originPoint, h0, h1, one_mulVec, add_zero, mul_one]
  rfl

/-- The extreme angles of the grid. -/
noncomputable def capH : ℝ := hrmHalfPi + epsilon
noncomputable def capW : ℝ := hrmPi + epsilon

theorem capH_bounds : Real.pi / 2 < capH ∧ capH < Real.pi / 2 + 2 / 10 ^ 6 := by
  refine ⟨pi_lt_hrmPi_eps.2, ?_⟩
  have := Real.pi_gt_d20
  unfold capH hrmHalfPi hrmPi epsilon
  norm_num at this ⊢
  linarith

theorem capW_bounds : Real.pi < capW ∧ capW < Real.pi + 2 / 10 ^ 6 := by
  refine ⟨pi_lt_hrmPi_eps.1, ?_⟩
  have := Real.pi_gt_d20
  unfold capW hrmPi epsilon
  norm_num at this ⊢
  linarith

theorem eta_eq {Q : SuperQuadrics} (h : Q.num ≠ 1) (j : ℕ) : Q.eta j = -capH + j * (2 * capH / ((Q.num : ℝ) - 1)) := by
  rw [SuperQuadrics.eta, linSpaced, if_neg h, capH]; ring

theorem omega_eq {Q : SuperQuadrics} (h : Q.num ≠ 1) (i : ℕ) :
    Q.omega i = -capW + i * (2 * capW / ((Q.num : ℝ) - 1)) := by
  rw [SuperQuadrics.omega, linSpaced, if_neg h, capW]; ring

theorem expFun_neg_cos (t p : ℝ) : expFun (-t) p false = expFun t p false := by simp [expFun]

theorem expFun_neg_sin (t p : ℝ) : expFun (-t) p true = -expFun t p true := by
  simp only [expFun, Real.sin_neg, abs_neg, if_true]
  have : sgn (-Real.sin t) = -sgn (Real.sin t) := by
    unfold sgn
    rcases lt_trichotomy (Real.sin t) 0 with h | h | h
    · rw [if_neg (by linarith), if_pos (by linarith), if_pos h]; norm_num
    · simp [h]
    · rw [if_pos (by linarith), if_neg (by linarith), if_pos h]
  rw [this]; ring

theorem expFun_sin_ne {t p : ℝ} (h : Real.sin t ≠ 0) : expFun t p true ≠ 0 := by
  simp only [expFun, if_true]
  refine mul_ne_zero ?_ (Real.rpow_pos_of_pos (abs_pos.2 h) p).ne'
  unfold sgn
  split
  · norm_num
  · split
    · norm_num
    · rename_i h1 h2; exact absurd (le_antisymm (not_lt.1 h2) (not_lt.1 h1)) h

/-- At least three samples per direction: the points do not lie in a plane. -/
theorem samples_spatial {Q : SuperQuadrics} (h : Q.Ok) (hn : 3 ≤ Q.num) : ¬ Coplanar Q.aux.originShape := by
  rintro ⟨g, d, hg, hall⟩
  have n1 : Q.aux.num ≠ 1 := by change Q.num ≠ 1; omega
  have hnR : (3 : ℝ) ≤ (Q.num : ℝ) := by exact_mod_cast hn
  have hP : ∀ i j : ℕ, i < Q.num → j < Q.num →
      g 0 * (Q.a * (expFun (Q.aux.eta j) Q.e1 false * expFun (Q.aux.omega i) Q.e2 false)) +
      g 1 * (Q.b * (expFun (Q.aux.eta j) Q.e1 false * expFun (Q.aux.omega i) Q.e2 true)) +
      g 2 * (Q.c * expFun (Q.aux.eta j) Q.e1 true) = d := by
    intro i j hi hj
    have := hall _ (sample_mem Q.aux (i := i) (j := j) hi hj)
    rw [aux_originPoint] at this
    simpa [dotProduct, Fin.sum_univ_three] using this
  obtain ⟨hH1, hH2⟩ := capH_bounds
  obtain ⟨hW1, hW2⟩ := capW_bounds
  have hpi := Real.pi_gt_three
  have e0 : Q.aux.eta 0 = -capH := by rw [eta_eq n1]; simp
  have eN : Q.aux.eta (Q.num - 1) = capH := by
    rw [eta_eq n1]
    have : ((Q.num - 1 : ℕ) : ℝ) = (Q.num : ℝ) - 1 := by
      rw [Nat.cast_sub (by omega)]; simp
    change -capH + ((Q.num - 1 : ℕ) : ℝ) * (2 * capH / ((Q.num : ℝ) - 1)) = capH
    rw [this]
    field_simp [show (Q.num : ℝ) - 1 ≠ 0 by linarith]
    ring
  -- the normal has no third coordinate
  have hg2 : g 2 = 0 := by
    have h1 := hP 0 0 (by omega) (by omega)
    have h2 := hP 0 (Q.num - 1) (by omega) (by omega)
    rw [e0, expFun_neg_cos, expFun_neg_sin] at h1
    rw [eN] at h2
    have h3 : g 2 * (Q.c * expFun capH Q.e1 true) = 0 := by linarith
    have hs : expFun capH Q.e1 true ≠ 0 := by
      apply expFun_sin_ne
      have : 0 < Real.sin capH := Real.sin_pos_of_pos_of_lt_pi (by linarith) (by linarith)
      exact this.ne'
    rcases mul_eq_zero.1 h3 with h | h'
    · exact h
    · exact absurd h' (mul_ne_zero h.c.ne' hs)
  have hce : expFun (Q.aux.eta 0) Q.e1 false < 0 := by
    rw [e0, expFun_neg_cos, expFun_spow]
    have hc : Real.cos capH < 0 := Real.cos_neg_of_pi_div_two_lt_of_lt hH1 (by linarith)
    have := spow_strictMono h.lo1 hc
    rw [spow_zero] at this
    simpa [sc] using this
  have hlt : expFun (Q.aux.eta 0) Q.e1 false < expFun (Q.aux.eta 1) Q.e1 false := by
    rw [expFun_spow, expFun_spow]
    apply spow_strictMono h.lo1
    have e1 : Q.aux.eta 1 = -(capH - 2 * capH / ((Q.num : ℝ) - 1)) := by
      rw [eta_eq n1]
      change -capH + ((1 : ℕ) : ℝ) * (2 * capH / ((Q.num : ℝ) - 1)) = _
      push_cast; ring
    have hstep : 0 < 2 * capH / ((Q.num : ℝ) - 1) ∧ 2 * capH / ((Q.num : ℝ) - 1) ≤ capH := by
      constructor
      · exact div_pos (by linarith) (by linarith)
      · rw [div_le_iff₀ (by linarith)]
        nlinarith
    rw [e0, e1]
    simp only [sc, Bool.false_eq_true, if_false, Real.cos_neg]
    apply Real.cos_lt_cos_of_nonneg_of_le_pi <;> linarith [hstep.1, hstep.2]
  set k : ℕ → ℝ := fun i => g 0 * (Q.a * expFun (Q.aux.omega i) Q.e2 false) +
    g 1 * (Q.b * expFun (Q.aux.omega i) Q.e2 true) with hk
  have hP' : ∀ i j : ℕ, i < Q.num → j < Q.num → expFun (Q.aux.eta j) Q.e1 false * k i = d := by
    intro i j hi hj
    have := hP i j hi hj
    rw [hg2] at this
    simp only [hk]
    linarith
  have k0 : k 0 = 0 := by
    have h1 := hP' 0 0 (by omega) (by omega)
    have h2 := hP' 0 1 (by omega) (by omega)
    have : (expFun (Q.aux.eta 1) Q.e1 false - expFun (Q.aux.eta 0) Q.e1 false) * k 0 = 0 := by linarith
    rcases mul_eq_zero.1 this with h' | h'
    · linarith
    · exact h'
  have k1 : k 1 = 0 := by
    have h1 := hP' 0 0 (by omega) (by omega)
    have h2 := hP' 1 0 (by omega) (by omega)
    rw [k0] at h1
    have : expFun (Q.aux.eta 0) Q.e1 false * k 1 = 0 := by linarith
    rcases mul_eq_zero.1 this with h' | h'
    · linarith
    · exact h'
  have hdet : expFun (Q.aux.omega 0) Q.e2 false * expFun (Q.aux.omega 1) Q.e2 true -
      expFun (Q.aux.omega 0) Q.e2 true * expFun (Q.aux.omega 1) Q.e2 false ≠ 0 := by
    have w0 : Q.aux.omega 0 = -capW := by rw [omega_eq n1]; simp
    have w1 : Q.aux.omega 1 = -capW + 2 * capW / ((Q.num : ℝ) - 1) := by
      rw [omega_eq n1]
      change -capW + ((1 : ℕ) : ℝ) * (2 * capW / ((Q.num : ℝ) - 1)) = _
      push_cast; ring
    rcases Nat.lt_or_ge 3 Q.num with h3 | h3
    · have h4 : (4 : ℝ) ≤ (Q.num : ℝ) := by exact_mod_cast h3
      have : 0 < Real.sin (Q.aux.omega 1 - Q.aux.omega 0) := by
        rw [w0, w1]
        apply Real.sin_pos_of_pos_of_lt_pi
        · have : 0 < 2 * capW / ((Q.num : ℝ) - 1) := div_pos (by linarith) (by linarith)
          linarith
        · have : 2 * capW / ((Q.num : ℝ) - 1) < Real.pi := by
            rw [div_lt_iff₀ (by linarith)]
            nlinarith
          linarith
      exact ((expFun_det h.lo2 _ _).2 this).ne'
    · have h4 : Q.num = 3 := by omega
      have : 0 < Real.sin (Q.aux.omega 0 - Q.aux.omega 1) := by
        rw [w0, w1, h4]
        have : -capW - (-capW + 2 * capW / (((3 : ℕ) : ℝ) - 1)) = -capW := by push_cast; ring
        rw [this, Real.sin_neg]
        have : Real.sin capW = -Real.sin (capW - Real.pi) := by
          rw [Real.sin_sub_pi]; ring
        rw [this, neg_neg]
        exact Real.sin_pos_of_pos_of_lt_pi (by linarith) (by linarith)
      have := (expFun_det h.lo2 _ _).2 this
      intro h0
      linarith
  set f0 := expFun (Q.aux.omega 0) Q.e2 false
  set f1 := expFun (Q.aux.omega 0) Q.e2 true
  set u0 := expFun (Q.aux.omega 1) Q.e2 false
  set u1 := expFun (Q.aux.omega 1) Q.e2 true
  have q0 : g 0 * (Q.a * f0) + g 1 * (Q.b * f1) = 0 := k0
  have q1 : g 0 * (Q.a * u0) + g 1 * (Q.b * u1) = 0 := k1
  have z0 : (g 0 * Q.a) * (f0 * u1 - f1 * u0) = 0 := by linear_combination u1 * q0 - f1 * q1
  have z1 : (g 1 * Q.b) * (f0 * u1 - f1 * u0) = 0 := by linear_combination f0 * q1 - u0 * q0
  have g0 : g 0 = 0 := by
    rcases mul_eq_zero.1 z0 with h' | h'
    · exact (mul_eq_zero.1 h').resolve_right h.a.ne'
    · exact absurd h' hdet
  have g1 : g 1 = 0 := by
    rcases mul_eq_zero.1 z1 with h' | h'
    · exact (mul_eq_zero.1 h').resolve_right h.b.ne'
    · exact absurd h' hdet
  apply hg
  ext i
  fin_cases i
  · exact g0
  · exact g1
  · exact hg2

/-- Two samples per direction: all points are in one plane. -/
theorem samples_flat (Q : SuperQuadrics) (hn : Q.num ≤ 2) : Coplanar Q.aux.originShape := by
  refine ⟨![1, 0, 0], Q.a * (expFun capH Q.e1 false * expFun capW Q.e2 false), ?_, ?_⟩
  · intro h; simpa using congrFun h 0
  intro p hp
  obtain ⟨i, j, hi, hj, rfl⟩ := mem_sample hp
  have hi' : i < Q.num := hi
  have hj' : j < Q.num := hj
  rw [aux_originPoint]
  have he : expFun (Q.aux.eta j) Q.e1 false = expFun capH Q.e1 false := by
    by_cases n1 : Q.aux.num = 1
    · rw [SuperQuadrics.eta, linSpaced, if_pos n1, capH]
    · have n2 : Q.aux.num = 2 := by
        have : Q.aux.num = Q.num := rfl
        omega
      rw [eta_eq n1, n2]
      have : j = 0 ∨ j = 1 := by omega
      rcases this with rfl | rfl
      · norm_num; exact expFun_neg_cos _ _
      · norm_num; congr 1; ring
  have ho : expFun (Q.aux.omega i) Q.e2 false = expFun capW Q.e2 false := by
    by_cases n1 : Q.aux.num = 1
    · rw [SuperQuadrics.omega, linSpaced, if_pos n1, capW]
    · have n2 : Q.aux.num = 2 := by
        have : Q.aux.num = Q.num := rfl
        omega
      rw [omega_eq n1, n2]
      have : i = 0 ∨ i = 1 := by omega
      rcases this with rfl | rfl
      · norm_num; exact expFun_neg_cos _ _
      · norm_num; congr 1; ring
  simp [dotProduct, Fin.sum_univ_three, he, ho]

end Hrm
