import Verif.Lemmas.Ball
import Verif.Model.Planner3D

/-!
# The mesh of a ball in the world frame: what escapes from it is outside the inscribed ball
-/

namespace Hrm

namespace BallMesh

open Matrix

/-- From the frame of the ball to the world. -/
noncomputable def wld (M : Matrix (Fin 3) (Fin 3) ℝ) (o : Fin 3 → ℝ) (x : V3) : V3 :=
  ⟨M 0 0 * x.x + M 0 1 * x.y + M 0 2 * x.z + o 0, M 1 0 * x.x + M 1 1 * x.y + M 1 2 * x.z + o 1,
    M 2 0 * x.x + M 2 1 * x.y + M 2 2 * x.z + o 2⟩

/-- From the world to the frame of the ball. -/
noncomputable def loc (M : Matrix (Fin 3) (Fin 3) ℝ) (o : Fin 3 → ℝ) (p : V3) : V3 :=
  ⟨M 0 0 * (p.x - o 0) + M 1 0 * (p.y - o 1) + M 2 0 * (p.z - o 2),
    M 0 1 * (p.x - o 0) + M 1 1 * (p.y - o 1) + M 2 1 * (p.z - o 2),
    M 0 2 * (p.x - o 0) + M 1 2 * (p.y - o 1) + M 2 2 * (p.z - o 2)⟩

theorem wld_loc {M : Matrix (Fin 3) (Fin 3) ℝ} (h : M * Mᵀ = 1) (o : Fin 3 → ℝ) (p : V3) : wld M o (loc M o p) = p := by
  have e : ∀ i j, M i 0 * M j 0 + M i 1 * M j 1 + M i 2 * M j 2 = if i = j then 1 else 0 := by
    intro i j
    have := congrFun (congrFun h i) j
    rw [Matrix.mul_apply, Fin.sum_univ_three] at this
    simpa [Matrix.one_apply] using this
  have e00 := e 0 0; have e01 := e 0 1; have e02 := e 0 2; have e11 := e 1 1; have e12 := e 1 2; have e22 := e 2 2
  simp at e00 e01 e02 e11 e12 e22
  unfold wld loc
  ext
  · simp only; linear_combination (p.x - o 0) * e00 + (p.y - o 1) * e01 + (p.z - o 2) * e02
  · simp only; linear_combination (p.x - o 0) * e01 + (p.y - o 1) * e11 + (p.z - o 2) * e12
  · simp only; linear_combination (p.x - o 0) * e02 + (p.y - o 1) * e12 + (p.z - o 2) * e22

theorem loc_wld {M : Matrix (Fin 3) (Fin 3) ℝ} (h : Mᵀ * M = 1) (o : Fin 3 → ℝ) (x : V3) : loc M o (wld M o x) = x := by
  have e : ∀ i j, M 0 i * M 0 j + M 1 i * M 1 j + M 2 i * M 2 j = if i = j then 1 else 0 := by
    intro i j
    have := congrFun (congrFun h i) j
    rw [Matrix.mul_apply, Fin.sum_univ_three] at this
    simpa [Matrix.one_apply, Matrix.transpose_apply] using this
  have e00 := e 0 0; have e01 := e 0 1; have e02 := e 0 2; have e11 := e 1 1; have e12 := e 1 2; have e22 := e 2 2
  simp at e00 e01 e02 e11 e12 e22
  unfold wld loc
  ext
  · simp only; linear_combination x.x * e00 + x.y * e01 + x.z * e02
  · simp only; linear_combination x.x * e01 + x.y * e11 + x.z * e12
  · simp only; linear_combination x.x * e02 + x.y * e12 + x.z * e22

theorem loc_norm {M : Matrix (Fin 3) (Fin 3) ℝ} (h : M * Mᵀ = 1) (o : Fin 3 → ℝ) (p : V3) :
    (loc M o p).x ^ 2 + (loc M o p).y ^ 2 + (loc M o p).z ^ 2 = (p.x - o 0) ^ 2 + (p.y - o 1) ^ 2 + (p.z - o 2) ^ 2 := by
  have e : ∀ i j, M i 0 * M j 0 + M i 1 * M j 1 + M i 2 * M j 2 = if i = j then 1 else 0 := by
    intro i j
    have := congrFun (congrFun h i) j
    rw [Matrix.mul_apply, Fin.sum_univ_three] at this
    simpa [Matrix.one_apply] using this
  have e00 := e 0 0; have e01 := e 0 1; have e02 := e 0 2; have e11 := e 1 1; have e12 := e 1 2; have e22 := e 2 2
  simp at e00 e01 e02 e11 e12 e22
  unfold loc
  simp only
  linear_combination (p.x - o 0) ^ 2 * e00 + (p.y - o 1) ^ 2 * e11 + (p.z - o 2) ^ 2 * e22 +
    2 * (p.x - o 0) * (p.y - o 1) * e01 + 2 * (p.x - o 0) * (p.z - o 2) * e02 + 2 * (p.y - o 1) * (p.z - o 2) * e12

theorem inTriangle_wld (M : Matrix (Fin 3) (Fin 3) ℝ) (o : Fin 3 → ℝ) {tol : ℝ} {a b c p : V3} (h : InTriangle tol a b c p) :
    InTriangle tol (wld M o a) (wld M o b) (wld M o c) (wld M o p) := by
  obtain ⟨s, t, h1, h2, h3, h4, h5, h6, h7⟩ := h
  refine ⟨s, t, h1, h2, h3, h4, ?_, ?_, ?_⟩ <;>
    (unfold wld; simp only; rw [h5, h6, h7]; ring)

/-- A linear function on a triangle is bounded by its values at the corners. -/
theorem inTriangle_bounds {a b c p : V3} (h : InTriangle 0 a b c p) (f : V3 → ℝ)
    (hf : ∃ u v w d : ℝ, ∀ x : V3, f x = u * x.x + v * x.y + w * x.z + d) :
    (f p ≤ f a ∨ f p ≤ f b ∨ f p ≤ f c) ∧ (f a ≤ f p ∨ f b ≤ f p ∨ f c ≤ f p) := by
  obtain ⟨u, v, w, d, hf⟩ := hf
  obtain ⟨s, t, h1, h2, h3, h4, h5, h6, h7⟩ := h
  have e : f p = (1 - s - t) * f a + s * f b + t * f c := by
    rw [hf, hf, hf, hf, h5, h6, h7]; ring
  constructor
  · by_contra hn
    push Not at hn
    obtain ⟨n1, n2, n3⟩ := hn
    have k1 := mul_nonneg (show (0 : ℝ) ≤ 1 - s - t by linarith) (sub_pos.2 n1).le
    have k2 := mul_nonneg (show (0 : ℝ) ≤ s by linarith) (sub_pos.2 n2).le
    have k3 := mul_nonneg (show (0 : ℝ) ≤ t by linarith) (sub_pos.2 n3).le
    have z2 : s * (f p - f b) = 0 := by nlinarith
    have z3 : t * (f p - f c) = 0 := by nlinarith
    have z2 : s = 0 := (mul_eq_zero.1 z2).resolve_right (by linarith)
    have z3 : t = 0 := (mul_eq_zero.1 z3).resolve_right (by linarith)
    rw [z2, z3] at e
    linarith
  · by_contra hn
    push Not at hn
    obtain ⟨n1, n2, n3⟩ := hn
    have k1 := mul_nonneg (show (0 : ℝ) ≤ 1 - s - t by linarith) (sub_pos.2 n1).le
    have k2 := mul_nonneg (show (0 : ℝ) ≤ s by linarith) (sub_pos.2 n2).le
    have k3 := mul_nonneg (show (0 : ℝ) ≤ t by linarith) (sub_pos.2 n3).le
    have z2 : s * (f b - f p) = 0 := by nlinarith
    have z3 : t * (f c - f p) = 0 := by nlinarith
    have z2 : s = 0 := (mul_eq_zero.1 z2).resolve_right (by linarith)
    have z3 : t = 0 := (mul_eq_zero.1 z3).resolve_right (by linarith)
    rw [z2, z3] at e
    linarith

theorem faceVal_linear (N : ℕ) (α β : ℝ) (i j : ℕ) : ∃ u v w d : ℝ, ∀ x : V3, faceVal N α β i j x = u * x.x + v * x.y + w * x.z + d :=
  ⟨Real.cos (gm N α i) / Real.cos α * Real.cos (gm N β j) / Real.cos β,
    Real.sin (gm N α i) / Real.cos α * Real.cos (gm N β j) / Real.cos β, Real.sin (gm N β j) / Real.cos β, 0, fun x => by
    unfold faceVal; ring⟩

theorem faceVal_smul (N : ℕ) (α β : ℝ) (i j : ℕ) (c : ℝ) (x : V3) :
    faceVal N α β i j (V3.smul c x) = c * faceVal N α β i j x := by
  unfold faceVal V3.smul; simp only; ring

theorem faceVal_comb (N : ℕ) (α β : ℝ) (i j : ℕ) (M : Matrix (Fin 3) (Fin 3) ℝ) (o : Fin 3 → ℝ) (s : ℝ) (p q : V3) :
    faceVal N α β i j (loc M o (V3.comb s p q)) =
      s * faceVal N α β i j (loc M o p) + (1 - s) * faceVal N α β i j (loc M o q) := by
  unfold faceVal loc V3.comb; simp only; ring

/-- The mesh is the latitude-longitude mesh of radius `R` in the frame `M`, `o`. -/
structure IsBall (N : ℕ) (α β R : ℝ) (M : Matrix (Fin 3) (Fin 3) ℝ) (o : Fin 3 → ℝ) (m : Mesh) : Prop where
  grid : Grid N α β
  pos : 0 < R
  orth : M * Mᵀ = 1 ∧ Mᵀ * M = 1
  faces : ∀ I < N, ∀ J < N,
    m.HasFace (wld M o (vert N α β R J I)) (wld M o (vert N α β R (J + 1) I)) (wld M o (vert N α β R (J + 1) (I + 1))) ∧
    m.HasFace (wld M o (vert N α β R J I)) (wld M o (vert N α β R J (I + 1))) (wld M o (vert N α β R (J + 1) (I + 1)))
  only : ∀ a b c, m.HasFace a b c → ∃ I < N, ∃ J < N, a = wld M o (vert N α β R J I) ∧
    c = wld M o (vert N α β R (J + 1) (I + 1)) ∧
    (b = wld M o (vert N α β R (J + 1) I) ∨ b = wld M o (vert N α β R J (I + 1)))

section
variable {N : ℕ} {α β R : ℝ} {M : Matrix (Fin 3) (Fin 3) ℝ} {o : Fin 3 → ℝ} {m : Mesh} (H : IsBall N α β R M o m)
include H

/-- Every ray from the centre meets a face. -/
theorem ray {d : V3} (hd : d ≠ ⟨0, 0, 0⟩) : ∃ c, 0 < c ∧ (∃ I < N, ∃ J < N, c * faceVal N α β I J d = R) ∧
    ∃ a b e, m.HasFace (wld M o a) (wld M o b) (wld M o e) ∧ InTriangle 0 a b e (V3.smul c d) := by
  obtain ⟨I, hI, J, hJ, hmax⟩ := exists_best H.grid d
  have hpos := best_pos H.grid hd hI hJ hmax
  have hc : 0 < R / faceVal N α β I J d := div_pos H.pos hpos
  have he : R / faceVal N α β I J d * faceVal N α β I J d = R := div_mul_cancel₀ _ hpos.ne'
  refine ⟨_, hc, ⟨I, hI, J, hJ, he⟩, ?_⟩
  have := on_cell H.grid H.pos (x := V3.smul (R / faceVal N α β I J d) d) hI hJ (by
    intro i hi j hj
    rw [faceVal_smul, faceVal_smul]
    exact mul_le_mul_of_nonneg_left (hmax i hi j hj) hc.le) (by rw [faceVal_smul, he])
  rcases this with h | h
  · exact ⟨_, _, _, (H.faces I hI J hJ).1, h⟩
  · exact ⟨_, _, _, (H.faces I hI J hJ).2, h⟩

/-- A point with all face values below `R` is within the range of the vertices in every coordinate. -/
theorem not_far {x : V3} (hx : ∀ I < N, ∀ J < N, faceVal N α β I J x < R) (get : V3 → ℝ)
    (hget : ∃ u v w d : ℝ, ∀ y : V3, get (wld M o y) = u * y.x + v * y.y + w * y.z + d) :
    ¬ outOfRange get (get (wld M o x)) m.vertices := by
  have hget' := hget
  obtain ⟨u, v, w, c0, hg⟩ := hget
  -- a direction of which `x` is a multiple
  obtain ⟨d, k, hd, hk0, hxk, hk⟩ : ∃ (d : V3) (k : ℝ), d ≠ ⟨0, 0, 0⟩ ∧ 0 ≤ k ∧ x = V3.smul k d ∧
      ∀ c : ℝ, 0 < c → (∃ I < N, ∃ J < N, c * faceVal N α β I J d = R) → k ≤ c := by
    by_cases h0 : x = ⟨0, 0, 0⟩
    · refine ⟨⟨0, 0, 1⟩, 0, fun h => by simpa using congrArg V3.z h, le_rfl, ?_, fun c hc _ => hc.le⟩
      rw [h0]; unfold V3.smul; ext <;> simp
    · refine ⟨x, 1, h0, zero_le_one, ?_, ?_⟩
      · unfold V3.smul; ext <;> simp
      · rintro c hc ⟨I, hI, J, hJ, he⟩
        by_contra hn
        have h1 := hx I hI J hJ
        have hp := H.pos
        push Not at hn
        have : 0 < faceVal N α β I J x := by
          by_contra h
          push Not at h
          nlinarith
        nlinarith
  have hd' : V3.smul (-1) d ≠ ⟨0, 0, 0⟩ := by
    intro h
    apply hd
    unfold V3.smul at h
    have h1 := congrArg V3.x h
    have h2 := congrArg V3.y h
    have h3 := congrArg V3.z h
    simp only at h1 h2 h3
    ext
    · simp only; linarith
    · simp only; linarith
    · simp only; linarith
  obtain ⟨c1, c1p, he1, a1, b1, e1, hf1, ht1⟩ := ray H hd
  obtain ⟨c2, c2p, -, a2, b2, e2, hf2, ht2⟩ := ray H hd'
  have hk1 := hk c1 c1p he1
  have hfx : get (wld M o x) = k * (u * d.x + v * d.y + w * d.z) + c0 := by
    rw [hg, hxk]; unfold V3.smul; simp only; ring
  have hf1' : get (wld M o (V3.smul c1 d)) = c1 * (u * d.x + v * d.y + w * d.z) + c0 := by
    rw [hg]; unfold V3.smul; simp only; ring
  have hf2' : get (wld M o (V3.smul c2 (V3.smul (-1) d))) = -(c2 * (u * d.x + v * d.y + w * d.z)) + c0 := by
    rw [hg]; unfold V3.smul; simp only; ring
  have hmem : ∀ {a b e : V3}, m.HasFace a b e → a ∈ m.vertices ∧ b ∈ m.vertices ∧ e ∈ m.vertices := by
    rintro a b e ⟨f, -, h1, h2, h3⟩
    exact ⟨List.mem_of_getElem? h1, List.mem_of_getElem? h2, List.mem_of_getElem? h3⟩
  have B1 := inTriangle_bounds ht1 (fun y => get (wld M o y)) hget'
  have B2 := inTriangle_bounds ht2 (fun y => get (wld M o y)) hget'
  rw [hf1'] at B1
  rw [hf2'] at B2
  obtain ⟨m1, m2, m3⟩ := hmem hf1
  obtain ⟨m4, m5, m6⟩ := hmem hf2
  generalize hS : u * d.x + v * d.y + w * d.z = S at *
  rintro (h | h)
  · have n1 := h _ m1; have n2 := h _ m2; have n3 := h _ m3
    have n4 := h _ m4; have n5 := h _ m5; have n6 := h _ m6
    rw [hfx] at n1 n2 n3 n4 n5 n6
    rcases le_total 0 S with hS0 | hS0
    · have : k * S ≤ c1 * S := mul_le_mul_of_nonneg_right hk1 hS0
      rcases B1.1 with h | h | h <;> linarith
    · have h1 : k * S ≤ 0 := mul_nonpos_of_nonneg_of_nonpos hk0 hS0
      have h2 : c2 * S ≤ 0 := mul_nonpos_of_nonneg_of_nonpos c2p.le hS0
      rcases B2.1 with h | h | h <;> linarith
  · have n1 := h _ m1; have n2 := h _ m2; have n3 := h _ m3
    have n4 := h _ m4; have n5 := h _ m5; have n6 := h _ m6
    rw [hfx] at n1 n2 n3 n4 n5 n6
    rcases le_total 0 S with hS0 | hS0
    · have h1 : 0 ≤ k * S := mul_nonneg hk0 hS0
      have h2 : 0 ≤ c2 * S := mul_nonneg c2p.le hS0
      rcases B2.2 with h | h | h <;> linarith
    · have : c1 * S ≤ k * S := mul_le_mul_of_nonpos_right hk1 hS0
      rcases B1.2 with h | h | h <;> linarith

/-- A point on the mesh has some face value `R`. -/
theorem on_mesh_val {p : V3} (h : OnMesh m p) : ∃ I < N, ∃ J < N, R ≤ faceVal N α β I J (loc M o p) := by
  obtain ⟨a, b, c, hf, ht⟩ := h
  obtain ⟨I, hI, J, hJ, rfl, rfl, hb⟩ := H.only a b c hf
  refine ⟨I, hI, J, hJ, ?_⟩
  have B := (inTriangle_bounds ht (fun y => faceVal N α β I J (loc M o y)) (by
    obtain ⟨u, v, w, d, e⟩ := faceVal_linear N α β I J
    refine ⟨u * M 0 0 + v * M 0 1 + w * M 0 2, u * M 1 0 + v * M 1 1 + w * M 1 2, u * M 2 0 + v * M 2 1 + w * M 2 2,
      d - (u * (M 0 0 * o 0 + M 1 0 * o 1 + M 2 0 * o 2) + v * (M 0 1 * o 0 + M 1 1 * o 1 + M 2 1 * o 2) +
        w * (M 0 2 * o 0 + M 1 2 * o 1 + M 2 2 * o 2)), fun x => ?_⟩
    rw [e]; unfold loc; simp only; ring)).2
  simp only [loc_wld H.orth.2] at B
  rw [vert_val H.grid (Or.inl rfl) (Or.inl rfl), vert_val H.grid (Or.inr rfl) (Or.inr rfl)] at B
  rcases hb with rfl | rfl
  · rw [loc_wld H.orth.2, vert_val H.grid (Or.inl rfl) (Or.inr rfl)] at B
    rcases B with h | h | h <;> exact h
  · rw [loc_wld H.orth.2, vert_val H.grid (Or.inr rfl) (Or.inl rfl)] at B
    rcases B with h | h | h <;> exact h

/-- A way from a point with all values below `R` to one that has a larger value touches the mesh. -/
theorem crossing {p q : V3} (hp : ∀ I < N, ∀ J < N, faceVal N α β I J (loc M o p) < R)
    (hq : ∃ I < N, ∃ J < N, R ≤ faceVal N α β I J (loc M o q)) : ¬ Avoids m p q := by
  have hN : 0 < N := by have := H.grid.three; omega
  have hne : (Finset.range N ×ˢ Finset.range N).Nonempty := ⟨(0, 0), by simp [hN]⟩
  let g : ℝ → ℝ := fun s => (Finset.range N ×ˢ Finset.range N).sup' hne
    (fun c => faceVal N α β c.1 c.2 (loc M o (V3.comb s p q)))
  have hc : Continuous g := by
    refine Continuous.finset_sup'_apply hne fun c _ => ?_
    simp only [faceVal_comb]
    fun_prop
  have h1 : g 1 ≤ R := by
    refine Finset.sup'_le _ _ fun c hc => ?_
    rw [Finset.mem_product, Finset.mem_range, Finset.mem_range] at hc
    have := hp c.1 hc.1 c.2 hc.2
    rw [faceVal_comb]; linarith
  have h0 : R ≤ g 0 := by
    obtain ⟨I, hI, J, hJ, h⟩ := hq
    refine le_trans ?_ (Finset.le_sup' (f := fun c : ℕ × ℕ => faceVal N α β c.1 c.2 (loc M o (V3.comb 0 p q)))
      (show (I, J) ∈ _ by simp [hI, hJ]))
    simp only [faceVal_comb]
    linarith
  obtain ⟨s, ⟨s0, s1⟩, hs⟩ := intermediate_value_Icc' (show (0 : ℝ) ≤ 1 by norm_num) hc.continuousOn ⟨h1, h0⟩
  intro hav
  apply hav s s0 s1
  obtain ⟨c, hcm, hce⟩ := Finset.exists_mem_eq_sup' hne (fun c : ℕ × ℕ => faceVal N α β c.1 c.2 (loc M o (V3.comb s p q)))
  have hce' : faceVal N α β c.1 c.2 (loc M o (V3.comb s p q)) = R := by rw [← hs]; exact hce.symm
  rw [Finset.mem_product, Finset.mem_range, Finset.mem_range] at hcm
  have := on_cell H.grid H.pos (x := loc M o (V3.comb s p q)) hcm.1 hcm.2 (by
    intro i hi j hj
    rw [hce', ← hs]
    exact Finset.le_sup' (f := fun c : ℕ × ℕ => faceVal N α β c.1 c.2 (loc M o (V3.comb s p q)))
      (show (i, j) ∈ _ by simp [hi, hj])) hce'
  rcases this with h | h
  · have := inTriangle_wld M o h
    rw [wld_loc H.orth.1] at this
    exact ⟨_, _, _, (H.faces c.1 hcm.1 c.2 hcm.2).1, this⟩
  · have := inTriangle_wld M o h
    rw [wld_loc H.orth.1] at this
    exact ⟨_, _, _, (H.faces c.1 hcm.1 c.2 hcm.2).2, this⟩

/-- What can escape from the mesh has some face value of at least `R`. -/
theorem escapes_val {p : V3} (h : Escapes m p) : ∃ I < N, ∃ J < N, R ≤ faceVal N α β I J (loc M o p) := by
  induction h with
  | far p h =>
    by_contra hn
    push Not at hn
    have e := wld_loc H.orth.1 o p
    rcases h with h | h | h
    · refine not_far H hn V3.x ⟨M 0 0, M 0 1, M 0 2, o 0, fun y => rfl⟩ ?_
      rw [e]; exact h
    · refine not_far H hn V3.y ⟨M 1 0, M 1 1, M 1 2, o 1, fun y => rfl⟩ ?_
      rw [e]; exact h
    · refine not_far H hn V3.z ⟨M 2 0, M 2 1, M 2 2, o 2, fun y => rfl⟩ ?_
      rw [e]; exact h
  | move p q hav _ ih =>
    by_contra hn
    push Not at hn
    exact crossing H hn ih hav

/-- What is on the mesh or can escape from it is outside the inscribed ball. -/
theorem outside_dist {p : V3} (h : OnMesh m p ∨ Escapes m p) :
    R * (Real.cos α * Real.cos β) ≤ dist3 p ⟨o 0, o 1, o 2⟩ := by
  obtain ⟨I, hI, J, hJ, hv⟩ := h.elim (on_mesh_val H) (escapes_val H)
  have h1 := faceVal_le H.grid (loc M o p) I J
  rw [loc_norm H.orth.1] at h1
  have : R * (Real.cos α * Real.cos β) ≤ faceVal N α β I J (loc M o p) * (Real.cos α * Real.cos β) :=
    mul_le_mul_of_nonneg_right hv (mul_pos (cosα H.grid) (cosβ H.grid)).le
  exact this.trans h1

end

end BallMesh

end Hrm
