import Verif.Lemmas.Pencil

/-! # The coefficient lists are those of `det (λ A - B)` -/

namespace Hrm

open Matrix Polynomial

theorem coeffs2_poly (a : Fin 3 → ℝ) (b : Matrix (Fin 3) (Fin 3) ℝ) :
    polyOf (coeffs2 a b) = -pencil (diagonal a) b := by
  apply Polynomial.funext
  intro x
  rw [eval_neg, pencil_eval, det_fin_three]
  simp [polyOf, coeffs2, diagonal]
  ring

theorem coeffs3_poly (a : Fin 4 → ℝ) (b : Matrix (Fin 4) (Fin 4) ℝ) (h : a 3 = -1) :
    polyOf (coeffs3 a b) = pencil (diagonal a) b := by
  apply Polynomial.funext
  intro x
  rw [pencil_eval, det_succ_row_zero]
  simp only [Fin.sum_univ_four, det_fin_three, submatrix_apply]
  simp [polyOf, coeffs3, diagonal, Fin.succAbove, h]
  ring

theorem coeffs2_cons (a : Fin 3 → ℝ) (b : Matrix (Fin 3) (Fin 3) ℝ) :
    ∃ cs, coeffs2 a b = (-a 0 * a 1 * a 2) :: cs := ⟨_, rfl⟩

theorem coeffs3_cons (a : Fin 4 → ℝ) (b : Matrix (Fin 4) (Fin 4) ℝ) :
    ∃ cs, coeffs3 a b = (-a 0 * a 1 * a 2) :: cs := ⟨_, rfl⟩

end Hrm
