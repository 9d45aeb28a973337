import Verif.Spec.Separation
import Mathlib.LinearAlgebra.Matrix.Block

/-! # The companion matrix: its characteristic polynomial and its eigenvalues -/

namespace Hrm

open Matrix Polynomial

section companion
variable {R : Type*} [CommRing R]

/-- `x - C` for the companion matrix with first row `-c`. -/
def compX (c : ℕ → R) (x : R) (m : ℕ) : Matrix (Fin m) (Fin m) R := fun i j =>
  (if i = j then x else 0) + (if i.val = 0 then c j.val else if i.val = j.val + 1 then -1 else 0)

theorem compX_det (c : ℕ → R) (x : R) (m : ℕ) :
    (compX c x m).det = x ^ m + ∑ j ∈ Finset.range m, c j * x ^ (m - 1 - j) := by
  induction m with
  | zero => simp
  | succ m ih =>
    rcases Nat.eq_zero_or_pos m with rfl | hm
    · simp [compX, det_fin_one]
    rw [det_succ_column _ (Fin.last m)]
    have hsub : (compX c x (m + 1)).submatrix (Fin.last m).succAbove (Fin.last m).succAbove = compX c x m := by
      ext i j
      simp [compX]
    have h0 : ((compX c x (m + 1)).submatrix (0 : Fin (m + 1)).succAbove (Fin.last m).succAbove).det = (-1) ^ m := by
      rw [det_of_isUpperTriangular]
      · rw [Finset.prod_congr rfl (g := fun _ => (-1 : R))]
        · simp
        · intro i _
          simp [compX, Fin.ext_iff]
      · intro i j hij
        simp only [id] at hij
        have h1 : j.val < i.val := hij
        simp [compX, Fin.ext_iff]
        rw [if_neg (by omega), if_neg (by omega)]
        simp
    have hne : (0 : Fin (m + 1)) ≠ Fin.last m := by
      intro h
      have := congrArg Fin.val h
      simp at this
      omega
    rw [Finset.sum_eq_add (0 : Fin (m + 1)) (Fin.last m) hne]
    · rw [h0, hsub, ih]
      have e1 : compX c x (m + 1) 0 (Fin.last m) = c m := by simp [compX, hne]
      have e2 : compX c x (m + 1) (Fin.last m) (Fin.last m) = x := by
        simp [compX, Fin.ext_iff]; omega
      rw [e1, e2, Finset.sum_range_succ]
      have s1 : ((-1 : R) ^ ((0 : Fin (m + 1)).val + (Fin.last m).val)) = (-1) ^ m := by simp
      have s2 : ((-1 : R) ^ ((Fin.last m).val + (Fin.last m).val)) = 1 := by
        rw [Fin.val_last, ← two_mul, pow_mul]; simp
      rw [s1, s2]
      have s3 : (-1 : R) ^ m * c m * (-1) ^ m = c m := by
        rw [mul_right_comm, ← pow_add, ← two_mul, pow_mul]; simp
      rw [s3]
      have s4 : ∑ j ∈ Finset.range m, c j * x ^ (m + 1 - 1 - j) = x * ∑ j ∈ Finset.range m, c j * x ^ (m - 1 - j) := by
        rw [Finset.mul_sum]
        refine Finset.sum_congr rfl fun j hj => ?_
        have : j < m := Finset.mem_range.1 hj
        rw [show m + 1 - 1 - j = (m - 1 - j) + 1 by omega, pow_succ]; ring
      rw [s4]
      simp
      ring
    · intro i _ hi
      have : compX c x (m + 1) i (Fin.last m) = 0 := by
        have h2 : i.val ≠ 0 := fun h => hi.1 (Fin.ext h)
        have h3 : i ≠ Fin.last m := hi.2
        simp [compX, h3, h2]
        omega
      rw [this]; simp
    · simp
    · simp

end companion

theorem polyOf_eq (cs : List ℝ) : polyOf cs = ∑ j ∈ Finset.range cs.length, C (cs.getD j 0) * X ^ (cs.length - 1 - j) := by
  induction cs with
  | nil => simp [polyOf]
  | cons c cs ih =>
    rw [polyOf, ih, List.length_cons, Finset.sum_range_succ']
    rw [add_comm]
    congr 1
    refine Finset.sum_congr rfl fun j hj => ?_
    have : j < cs.length := Finset.mem_range.1 hj
    rw [show cs.length + 1 - 1 - (j + 1) = cs.length - 1 - j by omega]
    simp

/-- The characteristic polynomial of the companion matrix, times the leading coefficient. -/
theorem companion_charpoly (c : ℝ) (cs : List ℝ) (hc : c ≠ 0) :
    polyOf (c :: cs) = C c * (companionMat (c :: cs) cs.length).charpoly := by
  have h : (companionMat (c :: cs) cs.length).charmatrix = compX (fun j => C (cs.getD j 0 / c)) X cs.length := by
    ext1 i j
    by_cases hij : i = j
    · subst hij
      rw [charmatrix_apply_eq]
      by_cases h0 : i.val = 0
      · simp [companionMat, compX, h0, sub_eq_add_neg]
        rw [neg_div, C_neg, neg_neg]
      · simp [companionMat, compX, h0]
    · rw [charmatrix_apply_ne _ _ _ hij]
      by_cases h0 : i.val = 0
      · simp [companionMat, compX, h0, hij]
        rw [neg_div, C_neg, neg_neg]
      · by_cases h1 : i.val = j.val + 1
        · simp [companionMat, compX, h1, hij]
        · simp [companionMat, compX, h0, h1, hij]
  rw [charpoly, h, compX_det, polyOf, polyOf_eq, mul_add, Finset.mul_sum]
  congr 1
  refine Finset.sum_congr rfl fun j _ => ?_
  rw [← mul_assoc, ← C_mul, mul_div_cancel₀ _ hc]

/-- `getRootsPolynomial` returns zeros and exactly the complex roots of the polynomial, with multiplicities. -/
theorem getRoots_spec {eig : EigFun} (he : EigOk eig) (c : ℝ) (cs : List ℝ) (hc : c ≠ 0) :
    ∃ l : List ℂ, getRoots eig (c :: cs) = List.replicate cs.length 0 ++ l ∧
      (l : Multiset ℂ) = ((polyOf (c :: cs)).map (algebraMap ℝ ℂ)).roots := by
  refine ⟨_, rfl, ?_⟩
  have hl : (c :: cs).length - 1 = cs.length := by simp
  rw [he, companion_charpoly c cs hc, Polynomial.map_mul, map_C, roots_C_mul _ (by simpa using hc), hl]

end Hrm
