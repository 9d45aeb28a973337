import Verif.Spec.Rounding
import Mathlib.Tactic.Linarith
import Mathlib.Tactic.NormNum
import Mathlib.Tactic.Ring
import Mathlib.Tactic.Positivity
import Mathlib.Tactic.FieldSimp

/-!
# `binary64` meets the contract `Rounding`
-/

namespace Hrm

theorem two_zpow_pos (k : ℤ) : (0 : ℝ) < 2 ^ k := zpow_pos (by norm_num) k

theorem round_le_round {x y : ℝ} (h : x ≤ y) : round x ≤ round y := by
  rw [round_eq, round_eq]
  exact Int.floor_le_floor (by linarith)

theorem lastDigit_ge (x : ℝ) : -1074 ≤ lastDigit x := le_max_right _ _

theorem abs_lt_lastDigit (x : ℝ) : |x| < 2 ^ (lastDigit x + 53) := by
  have h : |x| < (2 : ℝ) ^ (Int.log 2 |x| + 1) := by exact_mod_cast Int.lt_zpow_succ_log_self (by norm_num) |x|
  refine h.trans_le (zpow_le_zpow_right₀ (by norm_num) ?_)
  have : Int.log 2 |x| - 52 ≤ lastDigit x := le_max_left _ _
  omega

theorem le_abs_lastDigit {x : ℝ} (hx : x ≠ 0) (h : -1074 < lastDigit x) : 2 ^ (lastDigit x + 52) ≤ |x| := by
  have e : lastDigit x = Int.log 2 |x| - 52 := by
    unfold lastDigit at *
    rcases max_choice (Int.log 2 |x| - 52) (-1074) with h' | h' <;> omega
  rw [e, sub_add_cancel]
  exact_mod_cast Int.zpow_log_le_self (b := 2) (by norm_num) (abs_pos.2 hx)

theorem lastDigit_zero : lastDigit 0 = -52 := by simp [lastDigit]

/-- A machine number: at most 53 binary digits, exponent at least -1074. -/
def Machine (x : ℝ) : Prop := ∃ m k : ℤ, |m| ≤ 2 ^ 53 ∧ -1074 ≤ k ∧ x = m * 2 ^ k

theorem mul_zpow_shift (m : ℤ) {a b : ℤ} (h : a ≤ b) : (m : ℝ) * 2 ^ b = ((m * 2 ^ (b - a).toNat : ℤ) : ℝ) * 2 ^ a := by
  have : (2 : ℝ) ^ b = 2 ^ (b - a).toNat * 2 ^ a := by
    rw [← zpow_natCast, ← zpow_add₀ (by norm_num)]
    congr 1
    omega
  rw [this]
  push_cast
  ring

theorem binary64_of_multiple {x : ℝ} (n : ℤ) (h : x = n * 2 ^ lastDigit x) : binary64 x = x := by
  have hq := (two_zpow_pos (lastDigit x)).ne'
  have : x / 2 ^ lastDigit x = n := by rw [div_eq_iff hq]; exact h
  rw [binary64, this, round_intCast]
  exact h.symm

theorem binary64_le_machine {x b : ℝ} (hb : Machine b) : (x ≤ b → binary64 x ≤ b) ∧ (b ≤ x → b ≤ binary64 x) := by
  obtain ⟨m, k, hm, hk, rfl⟩ := hb
  have hq := two_zpow_pos (lastDigit x)
  have key : ∀ n : ℤ, (x ≤ n * 2 ^ lastDigit x → binary64 x ≤ n * 2 ^ lastDigit x) ∧
      (n * 2 ^ lastDigit x ≤ x → n * 2 ^ lastDigit x ≤ binary64 x) := by
    intro n
    constructor
    · intro h
      have h1 : round (x / 2 ^ lastDigit x) ≤ n := by
        have := round_le_round ((div_le_iff₀ hq).2 h)
        rwa [round_intCast] at this
      unfold binary64
      have : ((round (x / 2 ^ lastDigit x) : ℤ) : ℝ) ≤ n := by exact_mod_cast h1
      nlinarith
    · intro h
      have h1 : n ≤ round (x / 2 ^ lastDigit x) := by
        have := round_le_round ((le_div_iff₀ hq).2 h)
        rwa [round_intCast] at this
      unfold binary64
      have : (n : ℝ) ≤ ((round (x / 2 ^ lastDigit x) : ℤ) : ℝ) := by exact_mod_cast h1
      nlinarith
  rcases le_or_gt (lastDigit x) k with h | h
  · rw [mul_zpow_shift m h]
    exact key _
  · by_cases hx : x = 0
    · subst hx
      have e0 : binary64 0 = 0 := by simp [binary64]
      rw [e0]
      exact ⟨id, id⟩
    · have hge := le_abs_lastDigit hx (by omega)
      have hB : |(m : ℝ) * 2 ^ k| ≤ 2 ^ (lastDigit x + 52) := by
        rw [abs_mul, abs_of_pos (two_zpow_pos k)]
        have hm' : |(m : ℝ)| ≤ 2 ^ 53 := by exact_mod_cast hm
        calc |(m : ℝ)| * 2 ^ k ≤ 2 ^ 53 * 2 ^ k := mul_le_mul_of_nonneg_right hm' (two_zpow_pos k).le
          _ = 2 ^ (53 + k) := by
            rw [zpow_add₀ (by norm_num)]; norm_num
          _ ≤ _ := zpow_le_zpow_right₀ (by norm_num) (by omega)
      have e52 : (2 : ℝ) ^ (lastDigit x + 52) = ((2 ^ 52 : ℤ) : ℝ) * 2 ^ lastDigit x := by
        rw [add_comm, zpow_add₀ (by norm_num)]; norm_num
      have e52' : -(2 : ℝ) ^ (lastDigit x + 52) = ((-2 ^ 52 : ℤ) : ℝ) * 2 ^ lastDigit x := by
        rw [e52]; push_cast; ring
      rw [abs_le] at hB
      constructor
      · intro hle
        rcases le_abs.1 hge with h1 | h1
        · have : x = (m : ℝ) * 2 ^ k := le_antisymm hle (hB.2.trans h1)
          have e : x = ((2 ^ 52 : ℤ) : ℝ) * 2 ^ lastDigit x := by rw [← e52]; exact le_antisymm (hle.trans hB.2) h1
          rw [binary64_of_multiple _ e]
          exact hle
        · have := (key (-2 ^ 52)).1 (by rw [← e52']; linarith)
          rw [← e52'] at this
          linarith [hB.1]
      · intro hle
        rcases le_abs.1 hge with h1 | h1
        · have := (key (2 ^ 52)).2 (by rw [← e52]; linarith)
          rw [← e52] at this
          linarith [hB.2]
        · have e : x = ((-2 ^ 52 : ℤ) : ℝ) * 2 ^ lastDigit x := by rw [← e52']; linarith [hB.1]
          rw [binary64_of_multiple _ e]
          exact hle

theorem binary64_machine {x : ℝ} (h : Machine x) : binary64 x = x :=
  le_antisymm ((binary64_le_machine h).1 le_rfl) ((binary64_le_machine h).2 le_rfl)

theorem machine_binary64 (x : ℝ) : Machine (binary64 x) := by
  refine ⟨round (x / 2 ^ lastDigit x), lastDigit x, ?_, lastDigit_ge x, rfl⟩
  have hq := two_zpow_pos (lastDigit x)
  have h : |x / 2 ^ lastDigit x| ≤ ((2 ^ 53 : ℤ) : ℝ) := by
    rw [abs_div, abs_of_pos hq, div_le_iff₀ hq]
    have := (abs_lt_lastDigit x).le
    rw [add_comm, zpow_add₀ (by norm_num)] at this
    exact_mod_cast this
  rw [abs_le] at h ⊢
  constructor
  · have := round_le_round h.1
    rw [← Int.cast_neg, round_intCast] at this
    exact this
  · have := round_le_round h.2
    rwa [round_intCast] at this

theorem binary64_eq_self {x : ℝ} : binary64 x = x ↔ Machine x :=
  ⟨fun h => h ▸ machine_binary64 x, binary64_machine⟩

theorem machine_pow {k : ℤ} (h : -1074 ≤ k) : Machine (2 ^ k) := ⟨1, k, by norm_num, h, by simp⟩

theorem Machine.neg {x : ℝ} (h : Machine x) : Machine (-x) := by
  obtain ⟨m, k, hm, hk, rfl⟩ := h
  exact ⟨-m, k, by rwa [abs_neg], hk, by push_cast; ring⟩

theorem Machine.grid {x : ℝ} (h : Machine x) : ∃ j : ℤ, x = j * 2 ^ (-1074 : ℤ) := by
  obtain ⟨m, k, hm, hk, rfl⟩ := h
  exact ⟨_, mul_zpow_shift m hk⟩

theorem binary64_mono : Monotone binary64 := by
  intro x y hxy
  rcases eq_or_ne (lastDigit x) (lastDigit y) with e | e
  · have hq := two_zpow_pos (lastDigit y)
    unfold binary64
    rw [e]
    have h1 : round (x / 2 ^ lastDigit y) ≤ round (y / 2 ^ lastDigit y) := round_le_round (by gcongr)
    have : ((round (x / 2 ^ lastDigit y) : ℤ) : ℝ) ≤ ((round (y / 2 ^ lastDigit y) : ℤ) : ℝ) := by exact_mod_cast h1
    nlinarith
  · suffices h : ∃ b, Machine b ∧ x ≤ b ∧ b ≤ y by
      obtain ⟨b, hb, h1, h2⟩ := h
      exact ((binary64_le_machine hb).1 h1).trans ((binary64_le_machine hb).2 h2)
    rcases le_or_gt x 0 with hx | hx
    · rcases le_or_gt 0 y with hy | hy
      · exact ⟨0, ⟨0, 0, by norm_num, by norm_num, by simp⟩, hx, hy⟩
      · have hx0 : x ≠ 0 := by linarith
        have hab : |y| ≤ |x| := by rw [abs_of_neg hy, abs_of_nonpos hx]; linarith
        have hlog : Int.log 2 |y| ≤ Int.log 2 |x| := Int.log_mono_right (abs_pos.2 hy.ne) hab
        have hld : lastDigit y < lastDigit x := by
          refine lt_of_le_of_ne ?_ (Ne.symm e)
          unfold lastDigit
          omega
        have h1 := le_abs_lastDigit hx0 (lt_of_le_of_lt (lastDigit_ge y) hld)
        have h2 := (abs_lt_lastDigit y).le
        refine ⟨-2 ^ (lastDigit x + 52), (machine_pow (by have := lastDigit_ge x; omega)).neg, ?_, ?_⟩
        · rw [abs_of_nonpos hx] at h1; linarith
        · rw [abs_of_neg hy] at h2
          have : (2 : ℝ) ^ (lastDigit y + 53) ≤ 2 ^ (lastDigit x + 52) := zpow_le_zpow_right₀ (by norm_num) (by omega)
          linarith
    · have hy : 0 < y := by linarith
      have hab : |x| ≤ |y| := by rw [abs_of_pos hx, abs_of_pos hy]; exact hxy
      have hlog : Int.log 2 |x| ≤ Int.log 2 |y| := Int.log_mono_right (abs_pos.2 hx.ne') hab
      have hld : lastDigit x < lastDigit y := by
        refine lt_of_le_of_ne ?_ e
        unfold lastDigit
        omega
      have h1 := le_abs_lastDigit hy.ne' (lt_of_le_of_lt (lastDigit_ge x) hld)
      have h2 := (abs_lt_lastDigit x).le
      refine ⟨2 ^ (lastDigit y + 52), machine_pow (by have := lastDigit_ge y; omega), ?_, ?_⟩
      · rw [abs_of_pos hx] at h2
        have : (2 : ℝ) ^ (lastDigit x + 53) ≤ 2 ^ (lastDigit y + 52) := zpow_le_zpow_right₀ (by norm_num) (by omega)
        linarith
      · rw [abs_of_pos hy] at h1; exact h1

theorem binary64_half (x : ℝ) : |binary64 x - x| ≤ 2 ^ lastDigit x / 2 := by
  have hq := two_zpow_pos (lastDigit x)
  have h := abs_sub_round (x / 2 ^ lastDigit x)
  have e : binary64 x - x = -((x / 2 ^ lastDigit x - round (x / 2 ^ lastDigit x)) * 2 ^ lastDigit x) := by
    unfold binary64
    rw [sub_mul, div_mul_cancel₀ _ hq.ne']
    ring
  rw [e, abs_neg, abs_mul, abs_of_pos hq]
  nlinarith

theorem binary64_rel {x : ℝ} (h : -1074 < lastDigit x) : |binary64 x - x| ≤ 2 ^ (-53 : ℤ) * |x| := by
  by_cases hx : x = 0
  · subst hx; simp [binary64]
  · have h1 := le_abs_lastDigit hx h
    have h2 := binary64_half x
    have e : (2 : ℝ) ^ lastDigit x / 2 = 2 ^ (-53 : ℤ) * 2 ^ (lastDigit x + 52) := by
      rw [← zpow_add₀ (by norm_num), show -53 + (lastDigit x + 52) = lastDigit x - 1 by ring, zpow_sub_one₀ (by norm_num)]
      rfl
    rw [e] at h2
    exact h2.trans (by gcongr)

theorem binary64_grid_rel {x : ℝ} {j : ℤ} (e : x = j * 2 ^ (-1074 : ℤ)) : |binary64 x - x| ≤ 2 ^ (-53 : ℤ) * |x| := by
  rcases (lastDigit_ge x).lt_or_eq with h | h
  · exact binary64_rel h
  · rw [binary64_of_multiple j (by rw [← h]; exact e), sub_self, abs_zero]
    positivity

/-- Double precision (without a largest number) meets the contract. -/
theorem binary64_rounding : Rounding binary64 (2 ^ (-53 : ℤ)) (2 ^ (-1075 : ℤ)) where
  mono := binary64_mono
  idem x := binary64_machine (machine_binary64 x)
  zero := by simp [binary64]
  one := binary64_machine ⟨1, 0, by norm_num, by norm_num, by simp⟩
  double x h := by
    obtain ⟨m, k, hm, hk, rfl⟩ := binary64_eq_self.1 h
    refine binary64_machine ⟨m, k + 1, hm, by omega, ?_⟩
    rw [zpow_add_one₀ (by norm_num)]; ring
  sub_ne x y hx hy hne := by
    obtain ⟨i, rfl⟩ := (binary64_eq_self.1 hx).grid
    obtain ⟨j, rfl⟩ := (binary64_eq_self.1 hy).grid
    have hp := two_zpow_pos (-1074)
    have hij : i ≠ j := fun h => hne (by rw [h])
    have hM : Machine (2 ^ (-1074 : ℤ)) := machine_pow le_rfl
    rw [← sub_mul]
    rcases lt_or_gt_of_ne hij with h | h
    · have h1 : (i : ℝ) - j ≤ -1 := by have : (i : ℝ) + 1 ≤ j := by exact_mod_cast h
                                       linarith
      have := (binary64_le_machine hM.neg).1 (show ((i : ℝ) - j) * 2 ^ (-1074 : ℤ) ≤ -2 ^ (-1074 : ℤ) by nlinarith)
      have h0 : binary64 (((i : ℝ) - j) * 2 ^ (-1074 : ℤ)) < 0 := by linarith
      exact h0.ne
    · have h1 : 1 ≤ (i : ℝ) - j := by have : (j : ℝ) + 1 ≤ i := by exact_mod_cast h
                                      linarith
      have := (binary64_le_machine hM).2 (show (2 : ℝ) ^ (-1074 : ℤ) ≤ ((i : ℝ) - j) * 2 ^ (-1074 : ℤ) by nlinarith)
      exact (lt_of_lt_of_le hp this).ne'
  err x := by
    rcases (lastDigit_ge x).lt_or_eq with h | h
    · have := binary64_rel h
      have := two_zpow_pos (-1075)
      linarith
    · have := binary64_half x
      rw [← h] at this
      have e : (2 : ℝ) ^ (-1074 : ℤ) / 2 = 2 ^ (-1075 : ℤ) := by
        rw [show (-1075 : ℤ) = -1074 - 1 by norm_num, zpow_sub_one₀ (by norm_num)]; rfl
      rw [e] at this
      have : 0 ≤ (2 : ℝ) ^ (-53 : ℤ) * |x| := by positivity
      linarith
  add_err x y hx hy := by
    obtain ⟨i, hi⟩ := (binary64_eq_self.1 hx).grid
    obtain ⟨j, hj⟩ := (binary64_eq_self.1 hy).grid
    exact binary64_grid_rel (j := i + j) (by rw [hi, hj]; push_cast; ring)
  sub_err x y hx hy := by
    obtain ⟨i, hi⟩ := (binary64_eq_self.1 hx).grid
    obtain ⟨j, hj⟩ := (binary64_eq_self.1 hy).grid
    exact binary64_grid_rel (j := i - j) (by rw [hi, hj]; push_cast; ring)
  u_nonneg := (two_zpow_pos _).le
  u_small := by norm_num
  η_nonneg := (two_zpow_pos _).le

end Hrm
