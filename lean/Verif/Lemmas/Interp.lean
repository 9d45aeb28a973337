import Verif.Spec.Interp
import Verif.Lemmas.MultiBody
import Mathlib.Tactic.FieldSimp
import Mathlib.Tactic.LinearCombination

/-!
# Closed forms of the interpolation functions
-/

namespace Hrm

theorem idx_coordOf {v : Vec} {j : ℕ} (h : j < v.length) : Res.idx v j = .ok (coordOf v j) := by
  rw [Res.idx_eq_ok, coordOf, List.getD_eq_getElem?_getD, List.getElem?_eq_getElem h]
  rfl

theorem idx_map_range {B : Type} (f : ℕ → B) {n i : ℕ} (h : i < n) :
    Res.idx ((List.range n).map f) i = .ok (f i) := by
  rw [Res.idx_eq_ok, List.getElem?_map, List.getElem?_range h]
  rfl

theorem at'_map_range {B : Type} (f : ℕ → B) {n i : ℕ} (h : i < n) :
    Res.at' ((List.range n).map f) i = .ok (f i) := by
  rw [Res.at'_eq_ok, List.getElem?_map, List.getElem?_range h]
  rfl

theorem rnStep_eq {v w : Vec} (h : v.length ≤ w.length) (t : Option ℝ) :
    rnStep v w t = .ok ((List.range v.length).map fun j => lerp t (coordOf v j) (coordOf w j)) := by
  unfold rnStep
  rw [appendLoop _ (fun j => lerp t (coordOf v j) (coordOf w j)) _ ?_]
  · simp
  · intro j hj
    rw [idx_coordOf hj, Res.bind_ok', idx_coordOf (by omega), Res.bind_ok']

theorem interpolateRn_eq {v w : Vec} (h : v.length ≤ w.length) (n : ℕ) :
    interpolateRn v w n = .ok ((List.range (n + 1)).map fun i =>
      (List.range v.length).map fun j => lerp (stepFrac n i) (coordOf v j) (coordOf w j)) := by
  unfold interpolateRn
  rw [appendLoop _ _ _ fun i _ => rnStep_eq h (stepFrac n i)]
  simp

theorem quatOf_part {v : Vec} (h : 7 ≤ v.length) : quatOf v = .ok (quatPart v) := by
  unfold quatOf
  rw [idx_coordOf (by omega), Res.bind_ok', idx_coordOf (by omega), Res.bind_ok', idx_coordOf (by omega),
    Res.bind_ok', idx_coordOf (by omega), Res.bind_ok']
  rfl

theorem transOf_eq {v : Vec} (h : 7 ≤ v.length) : transOf v = .ok [coordOf v 0, coordOf v 1, coordOf v 2] := by
  unfold transOf
  rw [idx_coordOf (by omega), Res.bind_ok', idx_coordOf (by omega), Res.bind_ok', idx_coordOf (by omega),
    Res.bind_ok']

/-- The row computed by `interpolateSE3` for step `i`. -/
noncomputable def se3Row (v w : Vec) (n i : ℕ) : List (Option ℝ) :=
  let q := (stepFrac n i).map fun t => slerp (quatPart v) t (quatPart w)
  [lerp (stepFrac n i) (coordOf v 0) (coordOf w 0), lerp (stepFrac n i) (coordOf v 1) (coordOf w 1),
    lerp (stepFrac n i) (coordOf v 2) (coordOf w 2), q.map (·.1), q.map (·.2.1), q.map (·.2.2.1), q.map (·.2.2.2)]

theorem interpolateSE3_eq {v w : Vec} (hv : 7 ≤ v.length) (hw : 7 ≤ w.length) (n : ℕ) :
    interpolateSE3 v w n = .ok ((List.range (n + 1)).map (se3Row v w n)) := by
  unfold interpolateSE3
  rw [quatOf_part hv, Res.bind_ok', quatOf_part hw, Res.bind_ok', transOf_eq hv, Res.bind_ok', transOf_eq hw,
    Res.bind_ok', interpolateRn_eq (by simp), Res.bind_ok']
  rw [appendLoop _ (se3Row v w n) _ ?_]
  · simp
  · intro i hi
    rw [idx_map_range _ hi, Res.bind_ok', interpolateSlerp, idx_map_range _ hi, Res.bind_ok']
    rfl

/-- The row computed by `interpolateCompoundSE3Rn` for step `i`. -/
noncomputable def compRow (v w : Vec) (n i : ℕ) : List (Option ℝ) :=
  se3Row v w n i ++ (List.range (v.length - 7)).map fun j =>
    lerp (stepFrac n i) (coordOf v (j + 7)) (coordOf w (j + 7))

theorem coord_take {v : Vec} {j : ℕ} (h : j < 7) : coordOf (v.take 7) j = coordOf v j := by
  simp [coordOf, List.getD_eq_getElem?_getD, h]

theorem coord_drop {v : Vec} {j : ℕ} : coordOf (v.drop 7) j = coordOf v (j + 7) := by
  simp [coordOf, List.getD_eq_getElem?_getD, List.getElem?_drop, Nat.add_comm]

theorem se3Row_take (v w : Vec) (n i : ℕ) : se3Row (v.take 7) (w.take 7) n i = se3Row v w n i := by
  simp only [se3Row, quatPart, coord_take (show 0 < 7 by omega), coord_take (show 1 < 7 by omega),
    coord_take (show 2 < 7 by omega), coord_take (show 3 < 7 by omega), coord_take (show 4 < 7 by omega),
    coord_take (show 5 < 7 by omega), coord_take (show 6 < 7 by omega)]

theorem interpolateCompound_eq {v w : Vec} (hv : 7 ≤ v.length) (hlen : v.length = w.length) (n : ℕ) :
    interpolateCompound v w n = .ok ((if n = 0 ∧ v.length ≠ 7 then [v.map some, w.map some] else []) ++
      (List.range (n + 1)).map (compRow v w n)) := by
  unfold interpolateCompound
  by_cases h7 : v.length = 7
  · rw [if_pos h7, interpolateSE3_eq hv (by omega)]
    have e : compRow v w n = se3Row v w n := by
      funext i
      simp [compRow, h7]
    simp [h7, e]
  · rw [if_neg h7, if_neg (by omega), interpolateSE3_eq (by simp; omega) (by simp; omega), Res.bind_ok',
      interpolateRn_eq (by simp; omega), Res.bind_ok']
    rw [appendLoop _ (compRow v w n) _ ?_]
    · simp [h7]
    · intro i hi
      rw [at'_map_range _ hi, Res.bind_ok', at'_map_range _ hi, Res.bind_ok', se3Row_take, compRow]
      simp only [coord_drop, List.length_drop]

/-! ## Quaternions -/

theorem Quat.dot_comm (p q : Quat) : Quat.dot p q = Quat.dot q p := by
  simp only [Quat.dot]; ring

theorem Quat.dot_comb (a : ℝ) (p : Quat) (b : ℝ) (q : Quat) (c : ℝ) (d : ℝ) :
    Quat.dot (Quat.comb a p b q) (Quat.comb c p d q) =
      a * c * Quat.dot p p + (a * d + b * c) * Quat.dot p q + b * d * Quat.dot q q := by
  simp only [Quat.dot, Quat.comb]; ring

theorem Quat.abs_dot_le {p q : Quat} (hp : Quat.dot p p = 1) (hq : Quat.dot q q = 1) : |Quat.dot p q| ≤ 1 := by
  have key : ∀ s : ℝ, s = 1 ∨ s = -1 → s * Quat.dot p q ≤ 1 := by
    intro s hs
    have h : 0 ≤ Quat.dot (Quat.comb 1 p (-s) q) (Quat.comb 1 p (-s) q) := by
      simp only [Quat.dot, ← pow_two]
      positivity
    rw [Quat.dot_comb, hp, hq] at h
    rcases hs with rfl | rfl <;> linarith
  rw [abs_le]
  have h1 := key 1 (Or.inl rfl)
  have h2 := key (-1) (Or.inr rfl)
  constructor <;> linarith

/-- The sign Eigen's `slerp` gives to the second quaternion. -/
noncomputable def slerpSign (p q : Quat) : ℝ := if Quat.dot p q < 0 then -1 else 1

theorem slerpSign_mul (p q : Quat) : slerpSign p q * Quat.dot p q = |Quat.dot p q| := by
  unfold slerpSign
  split
  · rename_i h; rw [abs_of_neg h]; ring
  · rename_i h; rw [abs_of_nonneg (not_lt.1 h)]; ring

theorem slerpSign_sq (p q : Quat) : slerpSign p q * slerpSign p q = 1 := by
  unfold slerpSign
  split <;> norm_num

theorem slerp_near {p q : Quat} (h : slerpOne ≤ |Quat.dot p q|) (t : ℝ) :
    slerp p t q = Quat.comb (1 - t) p (slerpSign p q * t) q := by
  unfold slerp slerpSign
  simp only [if_pos h]
  split <;> simp

theorem slerp_far {p q : Quat} (h : |Quat.dot p q| < slerpOne) (t : ℝ) :
    slerp p t q = Quat.comb (Real.sin ((1 - t) * Real.arccos |Quat.dot p q|) / Real.sin (Real.arccos |Quat.dot p q|))
      p (slerpSign p q * (Real.sin (t * Real.arccos |Quat.dot p q|) / Real.sin (Real.arccos |Quat.dot p q|))) q := by
  unfold slerp slerpSign
  simp only [if_neg (not_le.2 h)]
  split <;> simp

theorem slerpOne_lt : slerpOne < 1 := by unfold slerpOne; norm_num

theorem sin_arccos_pos {d : ℝ} (h0 : 0 ≤ d) (h : d < 1) : 0 < Real.sin (Real.arccos d) := by
  rw [Real.sin_arccos]
  apply Real.sqrt_pos.2
  nlinarith

/-- Two points of the arc: the angle between them is proportional to the difference of the parameters. -/
theorem slerp_dot {p q : Quat} (hp : Quat.dot p p = 1) (hq : Quat.dot q q = 1)
    (h : |Quat.dot p q| < slerpOne) (t u : ℝ) :
    Quat.dot (slerp p t q) (slerp p u q) = Real.cos ((t - u) * Real.arccos |Quat.dot p q|) := by
  have hd := h.trans slerpOne_lt
  have hs := sin_arccos_pos (abs_nonneg _) hd
  have hc : Real.cos (Real.arccos |Quat.dot p q|) = |Quat.dot p q| :=
    Real.cos_arccos (by linarith [abs_nonneg (Quat.dot p q)]) hd.le
  rw [slerp_far h, slerp_far h, Quat.dot_comb, hp, hq]
  have e1 := slerpSign_mul p q
  have e2 := slerpSign_sq p q
  generalize Real.arccos |Quat.dot p q| = θ at hs hc ⊢
  rw [show (1 - t) * θ = θ - t * θ by ring, show (1 - u) * θ = θ - u * θ by ring,
    show (t - u) * θ = t * θ - u * θ by ring, Real.sin_sub, Real.sin_sub, Real.cos_sub]
  have e3 := Real.sin_sq_add_cos_sq θ
  rw [← hc] at e1
  generalize Real.sin (t * θ) = st
  generalize Real.cos (t * θ) = ct
  generalize Real.sin (u * θ) = su
  generalize Real.cos (u * θ) = cu
  generalize Real.sin θ = s at hs e3 ⊢
  generalize Real.cos θ = c at e1 e3 ⊢
  generalize slerpSign p q = σ at e1 e2 ⊢
  generalize Quat.dot p q = d at e1 ⊢
  have hs' : s ≠ 0 := hs.ne'
  field_simp
  linear_combination ((s * ct - c * st) * su + st * (s * cu - c * su)) * e1 + st * su * e2 - st * su * e3

theorem slerp_zero (p q : Quat) : slerp p 0 q = p := by
  rcases le_or_gt slerpOne |Quat.dot p q| with h | h
  · rw [slerp_near h]; simp [Quat.comb]
  · have hs := sin_arccos_pos (abs_nonneg _) (h.trans slerpOne_lt)
    rw [slerp_far h]
    simp [Quat.comb, div_self hs.ne']

theorem slerp_one (p q : Quat) : SameRotation (slerp p 1 q) q := by
  have e : slerp p 1 q = Quat.comb 0 p (slerpSign p q) q := by
    rcases le_or_gt slerpOne |Quat.dot p q| with h | h
    · rw [slerp_near h]; simp
    · have hs := sin_arccos_pos (abs_nonneg _) (h.trans slerpOne_lt)
      rw [slerp_far h]
      simp [div_self hs.ne']
  rw [e]
  unfold slerpSign SameRotation
  split
  · right; simp [Quat.comb]
  · left; simp [Quat.comb]

theorem slerp_norm {p q : Quat} (hp : Quat.dot p p = 1) (hq : Quat.dot q q = 1) {t : ℝ} (h0 : 0 ≤ t)
    (h1 : t ≤ 1) : 1 - 1 / 2 ^ 53 ≤ Quat.dot (slerp p t q) (slerp p t q) ∧
      Quat.dot (slerp p t q) (slerp p t q) ≤ 1 := by
  rcases le_or_gt slerpOne |Quat.dot p q| with h | h
  · have e : Quat.dot (slerp p t q) (slerp p t q) = 1 - 2 * (t * (1 - t)) * (1 - |Quat.dot p q|) := by
      rw [slerp_near h, Quat.dot_comb, hp, hq]
      linear_combination 2 * t * (1 - t) * slerpSign_mul p q + t * t * slerpSign_sq p q
    have hd := Quat.abs_dot_le hp hq
    have ht : t * (1 - t) ≤ 1 / 4 := by nlinarith [sq_nonneg (t - 1 / 2)]
    have ht0 : 0 ≤ t * (1 - t) := mul_nonneg h0 (by linarith)
    have hk : 1 - |Quat.dot p q| ≤ 1 / 2 ^ 52 := by unfold slerpOne at h; linarith
    rw [e]
    constructor
    · have : 2 * (t * (1 - t)) * (1 - |Quat.dot p q|) ≤ 2 * (1 / 4) * (1 / 2 ^ 52) := by
        apply mul_le_mul _ hk (by linarith) (by norm_num)
        linarith
      have e2 : (2 : ℝ) * (1 / 4) * (1 / 2 ^ 52) = 1 / 2 ^ 53 := by norm_num
      linarith
    · nlinarith
  · rw [slerp_dot hp hq h]
    simp

end Hrm
