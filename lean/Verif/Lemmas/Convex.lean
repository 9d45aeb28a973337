import Verif.Lemmas.Polygon
import Verif.Lemmas.Shape
import Verif.Spec.Polygon
import Verif.Lemmas.Planner2D

/-!
# Polygons with sorted outward normals are convex
-/

namespace Hrm

/-- The determinant of two vectors. -/
def det2 (a b : Pt ℝ) : ℝ := a.1 * b.2 - a.2 * b.1

/-- The scalar product. -/
def dot2 (a b : Pt ℝ) : ℝ := a.1 * b.1 + a.2 * b.2

/-- Three points with supporting normals: if the normal of the third is not between those of the first two, it is on the
left of the edge. -/
theorem cross_of_normals {pi pj pk ni nj nk : Pt ℝ} (hij : 0 < det2 ni nj)
    (hk : det2 ni nk < 0 ∨ det2 nk nj < 0)
    (i1 : dot2 ni pj ≤ dot2 ni pi) (i2 : dot2 ni pk ≤ dot2 ni pi)
    (j1 : dot2 nj pi ≤ dot2 nj pj) (j2 : dot2 nj pk ≤ dot2 nj pj)
    (k1 : dot2 nk pi ≤ dot2 nk pk) (k2 : dot2 nk pj ≤ dot2 nk pk) : 0 ≤ cross (pi, pj) pk := by
  by_contra hD
  push Not at hD
  set D := cross (pi, pj) pk with hDdef
  have key : ∀ a b : Pt ℝ, det2 a b * D =
      (dot2 a pj - dot2 a pi) * (dot2 b pk - dot2 b pi) - (dot2 a pk - dot2 a pi) * (dot2 b pj - dot2 b pi) := by
    intro a b; rw [hDdef]; unfold det2 cross dot2; ring
  have e1 := key ni nj
  have e2 := key ni nk
  have e3 := key nk nj
  set xi := dot2 ni pj - dot2 ni pi
  set yi := dot2 ni pk - dot2 ni pi
  set xj := dot2 nj pj - dot2 nj pi
  set yj := dot2 nj pk - dot2 nj pi
  set xk := dot2 nk pj - dot2 nk pi
  set yk := dot2 nk pk - dot2 nk pi
  have a1 : xi ≤ 0 := by simp only [xi]; linarith
  have a2 : yi ≤ 0 := by simp only [yi]; linarith
  have a3 : 0 ≤ xj := by simp only [xj]; linarith
  have a4 : yj ≤ xj := by simp only [xj, yj]; linarith
  have a5 : 0 ≤ yk := by simp only [yk]; linarith
  have a6 : xk ≤ yk := by simp only [xk, yk]; linarith
  have n1 : xi * yj - yi * xj < 0 := by rw [← e1]; exact mul_neg_of_pos_of_neg hij hD
  have b1 : 0 < yj := by
    by_contra h; push Not at h
    nlinarith [mul_nonneg_of_nonpos_of_nonpos a1 h, mul_nonneg (neg_nonneg.2 a2) a3]
  have b2 : xi < yi := by
    by_contra h; push Not at h
    nlinarith [mul_nonneg (sub_nonneg.2 h) a3, mul_nonneg (neg_nonneg.2 a1) (sub_nonneg.2 a4)]
  rcases hk with hk | hk
  · have n2 : 0 < xi * yk - yi * xk := by rw [← e2]; exact mul_pos_of_neg_of_neg hk hD
    rcases le_or_gt xk 0 with h | h
    · nlinarith [mul_nonneg (neg_nonneg.2 a1) a5, mul_nonneg (neg_nonneg.2 a2) (neg_nonneg.2 h)]
    · nlinarith [mul_nonneg (neg_nonneg.2 a1) (sub_nonneg.2 a6), mul_pos (sub_pos.2 b2) h]
  · have n3 : 0 < xk * yj - yk * xj := by rw [← e3]; exact mul_pos_of_neg_of_neg hk hD
    rcases le_or_gt xk 0 with h | h
    · nlinarith [mul_nonneg (neg_nonneg.2 h) b1.le, mul_nonneg a5 a3]
    · nlinarith [mul_nonneg h.le (sub_nonneg.2 a4), mul_nonneg (sub_nonneg.2 a6) a3]

theorem sin_outside {d x : ℝ} (hd : 0 < d) (hdp : d < Real.pi) (h1 : d < x) (h2 : x < 2 * Real.pi) :
    Real.sin x < 0 ∨ Real.sin (d - x) < 0 := by
  rcases lt_or_ge Real.pi x with h | h
  · left
    have e : Real.sin x = - Real.sin (x - Real.pi) := by rw [Real.sin_sub_pi, neg_neg]
    rw [e, neg_lt_zero]
    exact Real.sin_pos_of_pos_of_lt_pi (by linarith) (by linarith)
  · right
    exact Real.sin_neg_of_neg_of_neg_pi_lt (by linarith) (by linarith)

theorem edge_range {N : ℕ} {p : ℕ → Pt ℝ} {e : Pt ℝ × Pt ℝ} (h : e ∈ edgesOf ((List.range N).map p)) :
    (∃ i, i + 1 < N ∧ e = (p i, p (i + 1))) ∨ (0 < N ∧ e = (p (N - 1), p 0)) := by
  cases N with
  | zero => simp [edgesOf] at h
  | succ n =>
    rw [List.range_succ_eq_map, List.map_cons, edgesOf, List.map_map] at h
    obtain ⟨i, hi, he⟩ := List.mem_iff_getElem.1 h
    rw [List.getElem_zip] at he
    have hi' : i < n + 1 := by simpa using hi
    have h1 : ∀ (hh : i < (p 0 :: List.map (p ∘ Nat.succ) (List.range n)).length),
        (p 0 :: List.map (p ∘ Nat.succ) (List.range n))[i] = p i := by
      intro hh
      cases i with
      | zero => rfl
      | succ j => simp
    rw [h1] at he
    rcases Nat.lt_or_ge i n with h2 | h2
    · left
      refine ⟨i, by omega, ?_⟩
      rw [← he, List.getElem_append_left (by simpa using h2)]
      simp
    · right
      obtain rfl : i = n := by omega
      refine ⟨by omega, ?_⟩
      rw [← he, List.getElem_append_right (by simp)]
      simp

/-- Points with supporting normals whose angles increase within one turn, with steps below a half turn, form a convex
polygon, run counter-clockwise. -/
theorem convex_of_normals {N : ℕ} (p n : ℕ → Pt ℝ) (t : ℕ → ℝ)
    (hmono : ∀ i j : ℕ, i < j → j < N → t i < t j)
    (hturn : ∀ i : ℕ, i < N → t i < t 0 + 2 * Real.pi)
    (hstep : ∀ i : ℕ, i + 1 < N → t (i + 1) < t i + Real.pi)
    (hlast : 1 < N → t 0 + Real.pi < t (N - 1))
    (hdet : ∀ i j : ℕ, i < N → j < N → (0 < det2 (n i) (n j) ↔ 0 < Real.sin (t j - t i)))
    (hsup : ∀ i j : ℕ, i < N → j < N → dot2 (n i) (p j) ≤ dot2 (n i) (p i)) :
    ∀ e ∈ edgesOf ((List.range N).map p), ∀ v ∈ (List.range N).map p, 0 ≤ cross e v := by
  have hneg : ∀ i j : ℕ, i < N → j < N → Real.sin (t j - t i) < 0 → det2 (n i) (n j) < 0 := by
    intro i j hi hj h
    have : 0 < det2 (n j) (n i) := by
      rw [hdet j i hj hi, ← neg_sub, Real.sin_neg]; linarith
    have e : det2 (n j) (n i) = - det2 (n i) (n j) := by unfold det2; ring
    linarith
  have hself : ∀ (a b : Pt ℝ), cross (a, b) a = 0 ∧ cross (a, b) b = 0 := by
    intro a b; unfold cross; constructor <;> ring
  -- one edge
  have main : ∀ (i j k : ℕ) (d x : ℝ), i < N → j < N → k < N → 0 < d → d < Real.pi → d < x → x < 2 * Real.pi →
      Real.sin (t j - t i) = Real.sin d → Real.sin (t k - t i) = Real.sin x → Real.sin (t j - t k) = Real.sin (d - x) →
      0 ≤ cross (p i, p j) (p k) := by
    intro i j k d x hi hj hk hd hdp hx hx2 e1 e2 e3
    refine cross_of_normals (ni := n i) (nj := n j) (nk := n k) ?_ ?_ (hsup i j hi hj) (hsup i k hi hk) (hsup j i hj hi)
      (hsup j k hj hk) (hsup k i hk hi) (hsup k j hk hj)
    · rw [hdet i j hi hj, e1]; exact Real.sin_pos_of_pos_of_lt_pi hd hdp
    · rcases sin_outside hd hdp hx hx2 with h | h
      · left; exact hneg i k hi hk (by rw [e2]; exact h)
      · right; exact hneg k j hk hj (by rw [e3]; exact h)
  have hper : ∀ y : ℝ, Real.sin y = Real.sin (y + 2 * Real.pi) := fun y => (Real.sin_add_two_pi y).symm
  intro e he v hv
  obtain ⟨k, hk, rfl⟩ := List.mem_map.1 hv
  have hk : k < N := List.mem_range.1 hk
  rcases edge_range he with ⟨i, hi, rfl⟩ | ⟨h0, rfl⟩
  · have hd := hmono i (i + 1) (by omega) hi
    have hdp := hstep i hi
    rcases lt_trichotomy k i with h | h | h
    · have h1 := hmono k i h (by omega)
      have h2 : t 0 ≤ t k := by
        rcases Nat.eq_zero_or_pos k with rfl | hk0
        · exact le_rfl
        · exact (hmono 0 k hk0 hk).le
      have h3 := hturn (i + 1) hi
      refine main i (i + 1) k (t (i + 1) - t i) (t k - t i + 2 * Real.pi) (by omega) hi hk (by linarith) (by linarith)
        (by linarith) (by linarith) rfl (hper _) ?_
      rw [← Real.sin_sub_two_pi]; congr 1; ring
    · subst h; exact (hself _ _).1.ge
    · rcases Nat.eq_or_lt_of_le h with h | h
      · obtain rfl : i + 1 = k := h
        exact (hself _ _).2.ge
      · have h1 := hmono (i + 1) k h hk
        have h2 := hturn k hk
        have h3 : t 0 ≤ t i := by
          rcases Nat.eq_zero_or_pos i with rfl | hi0
          · exact le_rfl
          · exact (hmono 0 i hi0 (by omega)).le
        refine main i (i + 1) k (t (i + 1) - t i) (t k - t i) (by omega) hi hk (by linarith) (by linarith) (by linarith)
          (by linarith) rfl rfl ?_
        congr 1; ring
  · rcases Nat.eq_zero_or_pos k with rfl | hk0
    · exact (hself _ _).2.ge
    rcases Nat.eq_or_lt_of_le (show k ≤ N - 1 by omega) with h | h
    · rw [← h]; exact (hself _ _).1.ge
    · have h1 := hmono 0 k hk0 hk
      have h2 := hmono k (N - 1) h (by omega)
      have h3 := hturn (N - 1) (by omega)
      have h4 := hlast (by omega)
      refine main (N - 1) 0 k (t 0 - t (N - 1) + 2 * Real.pi) (t k - t (N - 1) + 2 * Real.pi) (by omega) h0 hk
        (by linarith) (by linarith) (by linarith) (by linarith) (hper _) (hper _) ?_
      congr 1; ring

/-! ## The signed power -/

/-- `sgn x * |x| ^ q`. -/
noncomputable def spow (q x : ℝ) : ℝ := sgn x * |x| ^ q

theorem sgn_mul (x y : ℝ) : sgn (x * y) = sgn x * sgn y := by
  rcases lt_trichotomy x 0 with hx | rfl | hx <;> rcases lt_trichotomy y 0 with hy | rfl | hy
  · rw [sgn, sgn, sgn, if_neg (mul_pos_of_neg_of_neg hx hy).not_gt, if_pos (mul_pos_of_neg_of_neg hx hy), if_pos hx,
      if_pos hy]; norm_num
  · simp [sgn]
  · rw [sgn, sgn, sgn, if_pos (mul_neg_of_neg_of_pos hx hy), if_pos hx, if_neg hy.not_gt, if_pos hy]; norm_num
  · simp [sgn]
  · simp [sgn]
  · simp [sgn]
  · rw [sgn, sgn, sgn, if_pos (mul_neg_of_pos_of_neg hx hy), if_pos hy, if_neg hx.not_gt, if_pos hx]; norm_num
  · simp [sgn]
  · rw [sgn, sgn, sgn, if_neg (mul_pos hx hy).not_gt, if_pos (mul_pos hx hy), if_neg hx.not_gt, if_pos hx,
      if_neg hy.not_gt, if_pos hy]; norm_num

theorem spow_mul (q x y : ℝ) : spow q (x * y) = spow q x * spow q y := by
  unfold spow
  rw [sgn_mul, abs_mul, Real.mul_rpow (abs_nonneg _) (abs_nonneg _)]; ring

theorem spow_pos {q x : ℝ} (hx : 0 < x) : spow q x = x ^ q := by
  rw [spow, sgn, if_neg hx.not_gt, if_pos hx, abs_of_pos hx, one_mul]

theorem spow_neg {q x : ℝ} (hx : x < 0) : spow q x = -(-x) ^ q := by
  rw [spow, sgn, if_pos hx, abs_of_neg hx]; ring

theorem spow_zero (q : ℝ) : spow q 0 = 0 := by simp [spow, sgn]

theorem spow_strictMono {q : ℝ} (hq : 0 < q) : StrictMono (spow q) := by
  intro x y h
  have hp : ∀ z : ℝ, 0 < z → 0 < z ^ q := fun z hz => Real.rpow_pos_of_pos hz q
  rcases lt_trichotomy x 0 with hx | rfl | hx
  · rw [spow_neg hx]
    rcases lt_trichotomy y 0 with hy | rfl | hy
    · rw [spow_neg hy, neg_lt_neg_iff]
      exact Real.rpow_lt_rpow (by linarith) (by linarith) hq
    · rw [spow_zero]; linarith [hp (-x) (by linarith)]
    · rw [spow_pos hy]; linarith [hp (-x) (by linarith), hp y hy]
  · rw [spow_zero, spow_pos h]; exact hp y h
  · rw [spow_pos hx, spow_pos (hx.trans h)]
    exact Real.rpow_lt_rpow hx.le h hq

theorem expFun_spow (th q : ℝ) (s : Bool) : expFun th q s = spow q (sc th s) := expFun_eq th q s

theorem expFun_det {q : ℝ} (hq : 0 < q) (a b : ℝ) :
    0 < expFun a q false * expFun b q true - expFun a q true * expFun b q false ↔ 0 < Real.sin (b - a) := by
  simp only [expFun_spow]
  rw [← spow_mul, ← spow_mul, sub_pos, (spow_strictMono hq).lt_iff_lt, Real.sin_sub]
  simp only [sc]
  constructor <;> intro h <;> simp at h ⊢ <;> linarith

end Hrm
