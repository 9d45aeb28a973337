import Verif.Spec.Ball
import Mathlib.Analysis.Real.Pi.Bounds
import Mathlib.Topology.Order.IntermediateValue
import Mathlib.Topology.Order.Lattice

/-!
# The latitude-longitude mesh on a sphere

In coordinates with the centre at the origin. `N` steps of longitude `2 * α` and of latitude `2 * β`; both overshoot:
`π < N * α < π + α` and `π / 2 < N * β < π / 2 + β`.
-/

namespace Hrm

namespace BallMesh

/-- The grid and its overshoot. -/
structure Grid (N : ℕ) (α β : ℝ) : Prop where
  three : 3 ≤ N
  αpos : 0 < α
  βpos : 0 < β
  αlt : α < Real.pi / 2
  βlt : β < Real.pi / 2
  lon0 : Real.pi < N * α
  lon1 : N * α < Real.pi + α
  lat0 : Real.pi / 2 < N * β
  lat1 : N * β < Real.pi / 2 + β

/-- Angle of grid line `i`. -/
noncomputable def gl (N : ℕ) (α : ℝ) (i : ℕ) : ℝ := (2 * (i : ℝ) - N) * α

/-- Angle of the middle of cell `i`. -/
noncomputable def gm (N : ℕ) (α : ℝ) (i : ℕ) : ℝ := (2 * (i : ℝ) + 1 - N) * α

theorem gm_gl (N : ℕ) (α : ℝ) (i : ℕ) : gm N α i = gl N α i + α := by unfold gm gl; ring
theorem gm_gl' (N : ℕ) (α : ℝ) (i : ℕ) : gm N α i = gl N α (i + 1) - α := by unfold gm gl; push_cast; ring
theorem gl_succ (N : ℕ) (α : ℝ) (i : ℕ) : gl N α (i + 1) = gl N α i + 2 * α := by unfold gl; push_cast; ring

/-- The larger weight: neighbouring cell in the increasing direction. -/
theorem step_up {p q α w : ℝ} (hα : 0 < Real.sin α)
    (h : p * Real.cos (w + α) + q * Real.sin (w + α) ≤ p * Real.cos (w - α) + q * Real.sin (w - α)) :
    0 ≤ p * Real.sin w - q * Real.cos w := by
  rw [Real.cos_add, Real.sin_add, Real.cos_sub, Real.sin_sub] at h
  have : 0 ≤ Real.sin α * (p * Real.sin w - q * Real.cos w) := by nlinarith
  exact nonneg_of_mul_nonneg_right this hα

theorem step_down {p q α w : ℝ} (hα : 0 < Real.sin α)
    (h : p * Real.cos (w - α) + q * Real.sin (w - α) ≤ p * Real.cos (w + α) + q * Real.sin (w + α)) :
    0 ≤ q * Real.cos w - p * Real.sin w := by
  rw [Real.cos_add, Real.sin_add, Real.cos_sub, Real.sin_sub] at h
  have : 0 ≤ Real.sin α * (q * Real.cos w - p * Real.sin w) := by nlinarith
  exact nonneg_of_mul_nonneg_right this hα

section
variable {N : ℕ} {α β : ℝ} (G : Grid N α β)
include G

theorem sinα : 0 < Real.sin α := Real.sin_pos_of_pos_of_lt_pi G.αpos (by linarith [G.αlt, Real.pi_pos])
theorem sinβ : 0 < Real.sin β := Real.sin_pos_of_pos_of_lt_pi G.βpos (by linarith [G.βlt, Real.pi_pos])
theorem cosα : 0 < Real.cos α := Real.cos_pos_of_mem_Ioo ⟨by linarith [G.αpos, Real.pi_pos], G.αlt⟩
theorem cosβ : 0 < Real.cos β := Real.cos_pos_of_mem_Ioo ⟨by linarith [G.βpos, Real.pi_pos], G.βlt⟩
theorem sin2α : 0 < Real.sin (2 * α) := by rw [Real.sin_two_mul]; have := sinα G; have := cosα G; positivity
theorem sin2β : 0 < Real.sin (2 * β) := by rw [Real.sin_two_mul]; have := sinβ G; have := cosβ G; positivity

theorem threeR : (3 : ℝ) ≤ N := by exact_mod_cast G.three

/-- In the cell where the direction `(p, q)` is largest, it has non-negative weights on both sides. -/
theorem wedge {p q : ℝ} {I : ℕ} (hI : I < N)
    (hmax : ∀ I' < N, p * Real.cos (gm N α I') + q * Real.sin (gm N α I') ≤
      p * Real.cos (gm N α I) + q * Real.sin (gm N α I)) :
    0 ≤ p * Real.sin (gl N α (I + 1)) - q * Real.cos (gl N α (I + 1)) ∧
    0 ≤ q * Real.cos (gl N α I) - p * Real.sin (gl N α I) := by
  have hs := sinα G
  have h3 := threeR G
  have up : I + 1 < N → 0 ≤ p * Real.sin (gl N α (I + 1)) - q * Real.cos (gl N α (I + 1)) := by
    intro h
    have := hmax (I + 1) h
    rw [gm_gl N α (I + 1), gm_gl' N α I] at this
    exact step_up hs this
  have down : 0 < I → 0 ≤ q * Real.cos (gl N α I) - p * Real.sin (gl N α I) := by
    intro h
    obtain ⟨k, rfl⟩ : ∃ k, I = k + 1 := ⟨I - 1, by omega⟩
    have := hmax k (by omega)
    rw [gm_gl N α (k + 1), gm_gl' N α k] at this
    exact step_down hs this
  -- the seam
  have hH : 0 < Real.sin (N * α - α) := Real.sin_pos_of_pos_of_lt_pi (by nlinarith [G.αpos]) (by linarith [G.lon1])
  have hw1 : 0 < Real.sin (N * α - 2 * α) :=
    Real.sin_pos_of_pos_of_lt_pi (by nlinarith [G.αpos]) (by linarith [G.lon1, G.αpos])
  have hsH : Real.sin (N * α) < 0 := by
    have : Real.sin (N * α) = - Real.sin (N * α - Real.pi) := by rw [Real.sin_sub_pi, neg_neg]
    rw [this]
    have := Real.sin_pos_of_pos_of_lt_pi (x := N * α - Real.pi) (by linarith [G.lon0]) (by linarith [G.lon1, G.αlt, Real.pi_pos])
    linarith
  have hid : Real.cos (N * α - 2 * α) * Real.sin (N * α) - Real.sin (N * α - 2 * α) * Real.cos (N * α) =
      Real.sin (2 * α) := by
    have := Real.sin_sub (N * α) (N * α - 2 * α)
    rw [show N * α - (N * α - 2 * α) = 2 * α by ring] at this
    linarith
  have h2 := sin2α G
  have first : gm N α 0 = -(N * α - α) := by unfold gm; push_cast; ring
  have last : gm N α (N - 1) = N * α - α := by
    unfold gm
    rw [Nat.cast_sub (by have := G.three; omega)]
    push_cast; ring
  constructor
  · by_cases h : I + 1 < N
    · exact up h
    · obtain rfl : I = N - 1 := by omega
      have hz := hmax 0 (by have := G.three; omega)
      rw [first, last, Real.cos_neg, Real.sin_neg] at hz
      have hq : 0 ≤ q := by
        have : 0 ≤ Real.sin (N * α - α) * q := by linarith
        exact nonneg_of_mul_nonneg_right this hH
      have hd := down (by have := G.three; omega)
      have e1 : gl N α (N - 1) = N * α - 2 * α := by
        unfold gl; rw [Nat.cast_sub (by have := G.three; omega)]; push_cast; ring
      have e2 : gl N α (N - 1 + 1) = N * α := by
        unfold gl; rw [show N - 1 + 1 = N by have := G.three; omega]; ring
      rw [e1] at hd
      rw [e2]
      have : 0 ≤ Real.sin (N * α - 2 * α) * (p * Real.sin (N * α) - q * Real.cos (N * α)) := by
        nlinarith [mul_nonneg hq h2.le]
      exact nonneg_of_mul_nonneg_right this hw1
  · by_cases h : 0 < I
    · exact down h
    · obtain rfl : I = 0 := by omega
      have hz := hmax (N - 1) (by have := G.three; omega)
      rw [first, last, Real.cos_neg, Real.sin_neg] at hz
      have hq : 0 ≤ -q := by
        have : 0 ≤ Real.sin (N * α - α) * (-q) := by linarith
        exact nonneg_of_mul_nonneg_right this hH
      have hd := up (by have := G.three; omega)
      have e1 : gl N α (0 + 1) = -(N * α - 2 * α) := by unfold gl; push_cast; ring
      have e2 : gl N α 0 = -(N * α) := by unfold gl; push_cast; ring
      rw [e1, Real.cos_neg, Real.sin_neg] at hd
      rw [e2, Real.cos_neg, Real.sin_neg]
      have : 0 ≤ Real.sin (N * α - 2 * α) * (q * Real.cos (N * α) - p * -Real.sin (N * α)) := by
        nlinarith [mul_nonneg hq h2.le]
      exact nonneg_of_mul_nonneg_right this hw1

/-- The same for the elevation. -/
theorem elev {a z : ℝ} (ha : 0 ≤ a) {J : ℕ} (hJ : J < N)
    (hmax : ∀ J' < N, a * Real.cos (gm N β J') + z * Real.sin (gm N β J') ≤
      a * Real.cos (gm N β J) + z * Real.sin (gm N β J)) :
    0 ≤ a * Real.sin (gl N β (J + 1)) - z * Real.cos (gl N β (J + 1)) ∧
    0 ≤ z * Real.cos (gl N β J) - a * Real.sin (gl N β J) := by
  have hs := sinβ G
  have h3 := threeR G
  have up : J + 1 < N → 0 ≤ a * Real.sin (gl N β (J + 1)) - z * Real.cos (gl N β (J + 1)) := by
    intro h
    have := hmax (J + 1) h
    rw [gm_gl N β (J + 1), gm_gl' N β J] at this
    exact step_up hs this
  have down : 0 < J → 0 ≤ z * Real.cos (gl N β J) - a * Real.sin (gl N β J) := by
    intro h
    obtain ⟨k, rfl⟩ : ∃ k, J = k + 1 := ⟨J - 1, by omega⟩
    have := hmax k (by omega)
    rw [gm_gl N β (k + 1), gm_gl' N β k] at this
    exact step_down hs this
  have hch : Real.cos (N * β) < 0 :=
    Real.cos_neg_of_pi_div_two_lt_of_lt G.lat0 (by linarith [G.lat1, G.βlt, Real.pi_pos])
  have hsh : 0 < Real.sin (N * β) := Real.sin_pos_of_pos_of_lt_pi (by linarith [G.lat0, Real.pi_pos]) (by linarith [G.lat1, G.βlt])
  have hce : 0 < Real.cos (N * β - 2 * β) := Real.cos_pos_of_mem_Ioo
    ⟨by nlinarith [G.βpos, Real.pi_pos], by linarith [G.lat1, G.βpos]⟩
  have hse : 0 ≤ Real.sin (N * β - 2 * β) := Real.sin_nonneg_of_nonneg_of_le_pi (by nlinarith [G.βpos])
    (by linarith [G.lat1, G.βpos, Real.pi_pos])
  constructor
  · by_cases h : J + 1 < N
    · exact up h
    · obtain rfl : J = N - 1 := by omega
      have hd := down (by have := G.three; omega)
      have e1 : gl N β (N - 1) = N * β - 2 * β := by
        unfold gl; rw [Nat.cast_sub (by have := G.three; omega)]; push_cast; ring
      have e2 : gl N β (N - 1 + 1) = N * β := by
        unfold gl; rw [show N - 1 + 1 = N by have := G.three; omega]; ring
      rw [e1] at hd
      rw [e2]
      have hz : 0 ≤ z := by
        have : 0 ≤ Real.cos (N * β - 2 * β) * z := by nlinarith [mul_nonneg ha hse]
        exact nonneg_of_mul_nonneg_right this hce
      nlinarith [mul_nonneg ha hsh.le, mul_nonneg hz (neg_pos.2 hch).le]
  · by_cases h : 0 < J
    · exact down h
    · obtain rfl : J = 0 := by omega
      have hd := up (by have := G.three; omega)
      have e1 : gl N β (0 + 1) = -(N * β - 2 * β) := by unfold gl; push_cast; ring
      have e2 : gl N β 0 = -(N * β) := by unfold gl; push_cast; ring
      rw [e1, Real.cos_neg, Real.sin_neg] at hd
      rw [e2, Real.cos_neg, Real.sin_neg]
      have hz : 0 ≤ -z := by
        have : 0 ≤ Real.cos (N * β - 2 * β) * (-z) := by nlinarith [mul_nonneg ha hse]
        exact nonneg_of_mul_nonneg_right this hce
      nlinarith [mul_nonneg ha hsh.le, mul_nonneg hz (neg_pos.2 hch).le]

theorem cos_gm {J : ℕ} (hJ : J < N) : 0 < Real.cos (gm N β J) := by
  have h1 : (J : ℝ) + 1 ≤ N := by exact_mod_cast hJ
  have h0 : (0 : ℝ) ≤ J := Nat.cast_nonneg _
  refine Real.cos_pos_of_mem_Ioo ⟨?_, ?_⟩
  · unfold gm; nlinarith [G.lat1, G.βpos]
  · unfold gm; nlinarith [G.lat1, G.βpos]

theorem cos_gl {j : ℕ} (h0 : 0 < j) (hj : j < N) : 0 < Real.cos (gl N β j) := by
  have h1 : (j : ℝ) + 1 ≤ N := by exact_mod_cast hj
  have h0 : (1 : ℝ) ≤ j := by exact_mod_cast h0
  refine Real.cos_pos_of_mem_Ioo ⟨?_, ?_⟩
  · unfold gl; nlinarith [G.lat1, G.βpos]
  · unfold gl; nlinarith [G.lat1, G.βpos]

theorem cos_gl_end {j : ℕ} (h : j = 0 ∨ j = N) : Real.cos (gl N β j) < 0 := by
  have hch : Real.cos (N * β) < 0 :=
    Real.cos_neg_of_pi_div_two_lt_of_lt G.lat0 (by linarith [G.lat1, G.βlt, Real.pi_pos])
  rcases h with rfl | rfl
  · rw [show gl N β 0 = -(N * β) by unfold gl; push_cast; ring, Real.cos_neg]; exact hch
  · rw [show gl j β j = j * β by unfold gl; ring]; exact hch

end

/-- A vector in terms of the two grid directions. -/
theorem decompose (p q w α : ℝ) :
    p * Real.sin (2 * α) = (p * Real.sin (w + 2 * α) - q * Real.cos (w + 2 * α)) * Real.cos w +
      (q * Real.cos w - p * Real.sin w) * Real.cos (w + 2 * α) ∧
    q * Real.sin (2 * α) = (p * Real.sin (w + 2 * α) - q * Real.cos (w + 2 * α)) * Real.sin w +
      (q * Real.cos w - p * Real.sin w) * Real.sin (w + 2 * α) := by
  have h := Real.sin_sub (w + 2 * α) w
  rw [show w + 2 * α - w = 2 * α by ring] at h
  constructor <;> rw [h] <;> ring

/-- The value of the middle direction is the sum of the weights. -/
theorem middle (p q w α : ℝ) :
    (p * Real.cos (w + α) + q * Real.sin (w + α)) * Real.sin (2 * α) =
      ((p * Real.sin (w + 2 * α) - q * Real.cos (w + 2 * α)) + (q * Real.cos w - p * Real.sin w)) * Real.cos α := by
  have h1 : Real.sin (w + 2 * α) = Real.sin (w + α) * Real.cos α + Real.cos (w + α) * Real.sin α := by
    rw [← Real.sin_add]; congr 1; ring
  have h2 : Real.cos (w + 2 * α) = Real.cos (w + α) * Real.cos α - Real.sin (w + α) * Real.sin α := by
    rw [← Real.cos_add]; congr 1; ring
  have h3 : Real.sin w = Real.sin (w + α) * Real.cos α - Real.cos (w + α) * Real.sin α := by
    rw [← Real.sin_sub]; congr 1; ring
  have h4 : Real.cos w = Real.cos (w + α) * Real.cos α + Real.sin (w + α) * Real.sin α := by
    rw [← Real.cos_sub]; congr 1; ring
  rw [Real.sin_two_mul, h1, h2, h3, h4]
  ring

/-- A vertex of the mesh. -/
noncomputable def vert (N : ℕ) (α β R : ℝ) (j i : ℕ) : V3 :=
  ⟨R * (Real.cos (gl N β j) * Real.cos (gl N α i)), R * (Real.cos (gl N β j) * Real.sin (gl N α i)), R * Real.sin (gl N β j)⟩

/-- The planar trapezoid is covered by its two triangles, also where it is crossed over at a pole. -/
theorem cell {R c c' s s' k l k' l' A B t : ℝ} (hR : 0 < R) (hA : 0 ≤ A) (hB : 0 ≤ B) (ht0 : 0 ≤ t) (ht1 : t ≤ 1)
    (ha : A + B = R * ((1 - t) * c + t * c')) (hc : 0 < c ∨ 0 < c') {P : V3}
    (hx : P.x = A * k + B * k') (hy : P.y = A * l + B * l') (hz : P.z = R * ((1 - t) * s + t * s')) :
    InTriangle 0 ⟨R * (c * k), R * (c * l), R * s⟩ ⟨R * (c' * k), R * (c' * l), R * s'⟩ ⟨R * (c' * k'), R * (c' * l'), R * s'⟩ P ∨
    InTriangle 0 ⟨R * (c * k), R * (c * l), R * s⟩ ⟨R * (c * k'), R * (c * l'), R * s⟩ ⟨R * (c' * k'), R * (c' * l'), R * s'⟩ P := by
  by_cases h : 0 < c' ∧ B ≤ t * (R * c')
  · left
    have hRc : 0 < R * c' := mul_pos hR h.1
    have hd : B / (R * c') ≤ t := by rw [div_le_iff₀ hRc]; exact h.2
    have hd0 : 0 ≤ B / (R * c') := div_nonneg hB hRc.le
    have hBe : B / (R * c') * (R * c') = B := div_mul_cancel₀ _ hRc.ne'
    have hAe : A = R * ((1 - t) * c + t * c') - B / (R * c') * (R * c') := by rw [hBe]; linarith
    generalize B / (R * c') = δ at *
    subst hAe
    rw [← hBe] at hx hy
    refine ⟨t - δ, δ, by linarith, by linarith, by linarith, by linarith, ?_, ?_, ?_⟩
    · rw [hx]; simp only; ring
    · rw [hy]; simp only; ring
    · rw [hz]; simp only; ring
  · right
    have hB2 : t * (R * c') ≤ B := by
      by_cases hc' : 0 < c'
      · exact (not_le.1 fun hle => h ⟨hc', hle⟩).le
      · have : t * (R * c') ≤ 0 := mul_nonpos_of_nonneg_of_nonpos ht0 (mul_nonpos_of_nonneg_of_nonpos hR.le (not_lt.1 hc'))
        linarith
    have hcp : 0 < c := by
      by_contra hn
      have hc' : 0 < c' := hc.resolve_left hn
      have : R * ((1 - t) * c) ≤ 0 :=
        mul_nonpos_of_nonneg_of_nonpos hR.le (mul_nonpos_of_nonneg_of_nonpos (by linarith) (not_lt.1 hn))
      exact h ⟨hc', by nlinarith⟩
    have hRc : 0 < R * c := mul_pos hR hcp
    have hd0 : 0 ≤ (B - t * (R * c')) / (R * c) := div_nonneg (by linarith) hRc.le
    have hBe : (B - t * (R * c')) / (R * c) * (R * c) = B - t * (R * c') := div_mul_cancel₀ _ hRc.ne'
    have hd1 : (B - t * (R * c')) / (R * c) + t ≤ 1 := by
      have : (B - t * (R * c')) / (R * c) ≤ 1 - t := by
        rw [div_le_iff₀ hRc]; nlinarith
      linarith
    generalize (B - t * (R * c')) / (R * c) = γ at *
    have hBe' : B = γ * (R * c) + t * (R * c') := by linarith
    subst hBe'
    have hAe : A = R * ((1 - t) * c + t * c') - (γ * (R * c) + t * (R * c')) := by linarith
    subst hAe
    refine ⟨γ, t, by linarith, by linarith, by linarith, by linarith, ?_, ?_, ?_⟩
    · rw [hx]; simp only; ring
    · rw [hy]; simp only; ring
    · rw [hz]; simp only; ring

/-- The height of the point `x` above the face in cell `(i, j)`, as a multiple of the radius. -/
noncomputable def faceVal (N : ℕ) (α β : ℝ) (i j : ℕ) (x : V3) : ℝ :=
  ((x.x * Real.cos (gm N α i) + x.y * Real.sin (gm N α i)) / Real.cos α * Real.cos (gm N β j) +
    x.z * Real.sin (gm N β j)) / Real.cos β

section
variable {N : ℕ} {α β : ℝ} (G : Grid N α β)
include G

/-- In the cell of the largest value, everything about the point. -/
theorem best_cell {x : V3} {I J : ℕ} (hI : I < N) (hJ : J < N)
    (hmax : ∀ i < N, ∀ j < N, faceVal N α β i j x ≤ faceVal N α β I J x) :
    ∃ A B C D, 0 ≤ A ∧ 0 ≤ B ∧ 0 ≤ C ∧ 0 ≤ D ∧
      x.x = A * Real.cos (gl N α I) + B * Real.cos (gl N α (I + 1)) ∧
      x.y = A * Real.sin (gl N α I) + B * Real.sin (gl N α (I + 1)) ∧
      A + B = C * Real.cos (gl N β J) + D * Real.cos (gl N β (J + 1)) ∧
      x.z = C * Real.sin (gl N β J) + D * Real.sin (gl N β (J + 1)) ∧
      faceVal N α β I J x = C + D := by
  have ca := cosα G
  have cb := cosβ G
  have sa := sin2α G
  have sb := sin2β G
  have hw := wedge G (p := x.x) (q := x.y) hI (by
    intro i hi
    have h := hmax i hi J hJ
    unfold faceVal at h
    rw [div_le_div_iff_of_pos_right cb] at h
    have h' : (x.x * Real.cos (gm N α i) + x.y * Real.sin (gm N α i)) / Real.cos α * Real.cos (gm N β J) ≤
      (x.x * Real.cos (gm N α I) + x.y * Real.sin (gm N α I)) / Real.cos α * Real.cos (gm N β J) := by linarith
    exact (div_le_div_iff_of_pos_right ca).1 (le_of_mul_le_mul_right h' (cos_gm G hJ)))
  obtain ⟨hA, hB⟩ := hw
  obtain ⟨d1, d2⟩ := decompose x.x x.y (gl N α I) α
  have dm := middle x.x x.y (gl N α I) α
  rw [← gl_succ] at d1 d2 dm
  rw [← gm_gl] at dm
  generalize hAe : x.x * Real.sin (gl N α (I + 1)) - x.y * Real.cos (gl N α (I + 1)) = A at *
  generalize hBe : x.y * Real.cos (gl N α I) - x.x * Real.sin (gl N α I) = B at *
  have ha : (x.x * Real.cos (gm N α I) + x.y * Real.sin (gm N α I)) / Real.cos α = A / Real.sin (2 * α) + B / Real.sin (2 * α) := by
    rw [← add_div, div_eq_div_iff ca.ne' sa.ne']; exact dm
  have ha0 : 0 ≤ A / Real.sin (2 * α) := div_nonneg hA sa.le
  have hb0 : 0 ≤ B / Real.sin (2 * α) := div_nonneg hB sa.le
  set a := A / Real.sin (2 * α) + B / Real.sin (2 * α) with hadef
  have he := elev G (a := a) (z := x.z) (by positivity) hJ (by
    intro j hj
    have h := hmax I hI j hj
    unfold faceVal at h
    rw [div_le_div_iff_of_pos_right cb, ha] at h
    exact h)
  obtain ⟨hC, hD⟩ := he
  obtain ⟨e1, e2⟩ := decompose a x.z (gl N β J) β
  have em := middle a x.z (gl N β J) β
  rw [← gl_succ] at e1 e2 em
  rw [← gm_gl] at em
  have hval : faceVal N α β I J x = (a * Real.cos (gm N β J) + x.z * Real.sin (gm N β J)) / Real.cos β := by
    unfold faceVal; rw [ha]
  generalize a * Real.sin (gl N β (J + 1)) - x.z * Real.cos (gl N β (J + 1)) = C at *
  generalize x.z * Real.cos (gl N β J) - a * Real.sin (gl N β J) = D at *
  refine ⟨A / Real.sin (2 * α), B / Real.sin (2 * α), C / Real.sin (2 * β), D / Real.sin (2 * β), ha0, hb0,
    div_nonneg hC sb.le, div_nonneg hD sb.le, ?_, ?_, ?_, ?_, ?_⟩
  · field_simp; linarith
  · field_simp; linarith
  · rw [← hadef]; field_simp; linarith
  · field_simp; linarith
  · rw [hval, ← add_div, div_eq_div_iff cb.ne' sb.ne']; exact em

theorem exists_best (x : V3) : ∃ I < N, ∃ J < N, ∀ i < N, ∀ j < N, faceVal N α β i j x ≤ faceVal N α β I J x := by
  have hN : 0 < N := by have := G.three; omega
  obtain ⟨⟨I, J⟩, h1, h2⟩ := Finset.exists_max_image (Finset.range N ×ˢ Finset.range N) (fun c => faceVal N α β c.1 c.2 x)
    ⟨(0, 0), by simp [hN]⟩
  rw [Finset.mem_product, Finset.mem_range, Finset.mem_range] at h1
  exact ⟨I, h1.1, J, h1.2, fun i hi j hj => h2 (i, j) (by simp [hi, hj])⟩

/-- A point whose largest face value is `R` is on the mesh of radius `R`. -/
theorem on_cell {R : ℝ} (hR : 0 < R) {x : V3} {I J : ℕ} (hI : I < N) (hJ : J < N)
    (hmax : ∀ i < N, ∀ j < N, faceVal N α β i j x ≤ faceVal N α β I J x) (he : faceVal N α β I J x = R) :
    InTriangle 0 (vert N α β R J I) (vert N α β R (J + 1) I) (vert N α β R (J + 1) (I + 1)) x ∨
    InTriangle 0 (vert N α β R J I) (vert N α β R J (I + 1)) (vert N α β R (J + 1) (I + 1)) x := by
  obtain ⟨A, B, C, D, hA, hB, hC, hD, hx, hy, hab, hz, hv⟩ := best_cell G hI hJ hmax
  have hCD : C + D = R := by rw [← hv, he]
  have hC' : C = R * (1 - D / R) := by field_simp; linarith
  have hD' : D = R * (D / R) := by field_simp
  refine cell (c := Real.cos (gl N β J)) (c' := Real.cos (gl N β (J + 1))) (t := D / R) hR hA hB (div_nonneg hD hR.le)
    (by rw [div_le_one hR]; linarith) ?_ ?_ hx hy ?_
  · rw [hab]
    calc C * Real.cos (gl N β J) + D * Real.cos (gl N β (J + 1))
        = R * (1 - D / R) * Real.cos (gl N β J) + R * (D / R) * Real.cos (gl N β (J + 1)) := by rw [← hC', ← hD']
      _ = _ := by ring
  · by_cases h0 : 0 < J
    · exact Or.inl (cos_gl G h0 hJ)
    · exact Or.inr (cos_gl G (by omega) (by have := G.three; omega))
  · rw [hz]
    calc C * Real.sin (gl N β J) + D * Real.sin (gl N β (J + 1))
        = R * (1 - D / R) * Real.sin (gl N β J) + R * (D / R) * Real.sin (gl N β (J + 1)) := by rw [← hC', ← hD']
      _ = _ := by ring

/-- Away from the centre the largest face value is positive. -/
theorem best_pos {x : V3} (hx : x ≠ ⟨0, 0, 0⟩) {I J : ℕ} (hI : I < N) (hJ : J < N)
    (hmax : ∀ i < N, ∀ j < N, faceVal N α β i j x ≤ faceVal N α β I J x) : 0 < faceVal N α β I J x := by
  obtain ⟨A, B, C, D, hA, hB, hC, hD, h1, h2, hab, hz, hv⟩ := best_cell G hI hJ hmax
  rw [hv]
  by_contra hn
  have hC0 : C = 0 := by linarith
  have hD0 : D = 0 := by linarith
  rw [hC0, hD0] at hab hz
  have hA0 : A = 0 := by linarith
  have hB0 : B = 0 := by linarith
  rw [hA0, hB0] at h1 h2
  apply hx
  ext
  · rw [h1]; ring
  · rw [h2]; ring
  · rw [hz]; ring

/-- All four corners of a cell have the value `R`. -/
theorem vert_val {R : ℝ} {I J j i : ℕ} (hi : i = I ∨ i = I + 1) (hj : j = J ∨ j = J + 1) :
    faceVal N α β I J (vert N α β R j i) = R := by
  have ca := cosα G
  have cb := cosβ G
  have h1 : Real.cos (gl N α i) * Real.cos (gm N α I) + Real.sin (gl N α i) * Real.sin (gm N α I) = Real.cos α := by
    rw [← Real.cos_sub]
    rcases hi with rfl | rfl
    · rw [gm_gl, show gl N α i - (gl N α i + α) = -α by ring, Real.cos_neg]
    · rw [gm_gl']; congr 1; ring
  have h2 : Real.cos (gl N β j) * Real.cos (gm N β J) + Real.sin (gl N β j) * Real.sin (gm N β J) = Real.cos β := by
    rw [← Real.cos_sub]
    rcases hj with rfl | rfl
    · rw [gm_gl, show gl N β j - (gl N β j + β) = -β by ring, Real.cos_neg]
    · rw [gm_gl']; congr 1; ring
  unfold faceVal vert
  simp only
  have : (R * (Real.cos (gl N β j) * Real.cos (gl N α i)) * Real.cos (gm N α I) +
      R * (Real.cos (gl N β j) * Real.sin (gl N α i)) * Real.sin (gm N α I)) / Real.cos α = R * Real.cos (gl N β j) := by
    rw [div_eq_iff ca.ne']
    linear_combination R * Real.cos (gl N β j) * h1
  rw [this, div_eq_iff cb.ne']
  linear_combination R * h2

/-- The face values are bounded by the distance from the centre. -/
theorem faceVal_le (x : V3) (i j : ℕ) :
    faceVal N α β i j x * (Real.cos α * Real.cos β) ≤ Real.sqrt (x.x ^ 2 + x.y ^ 2 + x.z ^ 2) := by
  have ca := cosα G
  have cb := cosβ G
  have ca1 := Real.cos_le_one α
  have e : faceVal N α β i j x * (Real.cos α * Real.cos β) =
      (x.x * Real.cos (gm N α i) + x.y * Real.sin (gm N α i)) * Real.cos (gm N β j) + Real.cos α * x.z * Real.sin (gm N β j) := by
    unfold faceVal
    field_simp
  rw [e]
  apply Real.le_sqrt_of_sq_le
  have t1 := Real.sin_sq_add_cos_sq (gm N α i)
  have t2 := Real.sin_sq_add_cos_sq (gm N β j)
  generalize Real.cos (gm N α i) = k at *
  generalize Real.sin (gm N α i) = l at *
  generalize Real.cos (gm N β j) = m at *
  generalize Real.sin (gm N β j) = n at *
  generalize Real.cos α = c at *
  have h1 : (x.x * k + x.y * l) ^ 2 ≤ x.x ^ 2 + x.y ^ 2 := by
    have : x.x ^ 2 + x.y ^ 2 - (x.x * k + x.y * l) ^ 2 = (x.x * l - x.y * k) ^ 2 := by
      linear_combination (-(x.x ^ 2) - x.y ^ 2) * t1
    nlinarith [sq_nonneg (x.x * l - x.y * k)]
  have h2 : ((x.x * k + x.y * l) * m + c * x.z * n) ^ 2 ≤ (x.x * k + x.y * l) ^ 2 + (c * x.z) ^ 2 := by
    have : (x.x * k + x.y * l) ^ 2 + (c * x.z) ^ 2 - ((x.x * k + x.y * l) * m + c * x.z * n) ^ 2 =
        ((x.x * k + x.y * l) * n - c * x.z * m) ^ 2 := by
      linear_combination (-((x.x * k + x.y * l) ^ 2) - (c * x.z) ^ 2) * t2
    nlinarith [sq_nonneg ((x.x * k + x.y * l) * n - c * x.z * m)]
  have h3 : (c * x.z) ^ 2 ≤ x.z ^ 2 := by
    rw [mul_pow]
    have : c ^ 2 ≤ 1 := by nlinarith
    nlinarith [sq_nonneg x.z]
  linarith

end

end BallMesh

end Hrm
