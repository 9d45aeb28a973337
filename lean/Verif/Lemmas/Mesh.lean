import Verif.Spec.Mesh
import Mathlib.Tactic.Linarith
import Mathlib.Tactic.Ring
import Mathlib.Tactic.FieldSimp
import Mathlib.Tactic.Positivity
import Mathlib.Tactic.LinearCombination

namespace Hrm
namespace V3

theorem dot_self_nonneg (a : V3) : 0 ≤ a.dot a := by
  unfold dot; nlinarith [mul_self_nonneg a.x, mul_self_nonneg a.y, mul_self_nonneg a.z]

theorem norm_pos {a : V3} (h : 0 < a.dot a) : 0 < a.norm := Real.sqrt_pos.2 h

theorem norm_sq (a : V3) : a.norm * a.norm = a.dot a := Real.mul_self_sqrt (dot_self_nonneg a)

theorem eq_zero_of_dot_self {a : V3} (h : ¬ 0 < a.dot a) : a.x = 0 ∧ a.y = 0 ∧ a.z = 0 := by
  have h0 : a.dot a = 0 := le_antisymm (not_lt.1 h) (dot_self_nonneg a)
  unfold dot at h0
  refine ⟨?_, ?_, ?_⟩ <;> nlinarith [sq_nonneg a.x, sq_nonneg a.y, sq_nonneg a.z]

theorem normalize_dot {a : V3} (h : 0 < a.dot a) (w : V3) : a.normalize.dot w = a.dot w / a.norm := by
  unfold normalize; rw [if_pos h]; unfold smul dot; simp only; ring

theorem normalize_norm {a : V3} (h : 0 < a.dot a) : a.normalize.norm = 1 := by
  have hp := norm_pos h
  have : a.normalize.dot a.normalize = 1 := by
    rw [normalize_dot h]
    have : a.dot a.normalize = a.dot a / a.norm := by
      have e : a.dot a.normalize = a.normalize.dot a := by unfold dot; ring
      rw [e, normalize_dot h]
    rw [this, ← norm_sq a]; field_simp
  unfold norm; rw [this]; exact Real.sqrt_one

theorem normalize_zero_dot {a : V3} (h : ¬ 0 < a.dot a) (w : V3) : a.normalize.dot w = 0 := by
  obtain ⟨h1, h2, h3⟩ := eq_zero_of_dot_self h
  unfold normalize; rw [if_neg h]; unfold dot; rw [h1, h2, h3]; ring

/-- Lagrange's identity. -/
theorem lagrange (u v : V3) :
    (u.dot v) ^ 2 - u.dot u * v.dot v = -((u.cross v).dot (u.cross v)) := by
  unfold dot cross; simp only; ring

end V3

open V3

/-- Soundness of the triangle test. -/
theorem lineTriangle_some {tol : ℝ} (htol : 0 ≤ tol) {line : Line3} {t0 u v pt : V3}
    (h : lineTriangle tol line t0 u v = some pt) :
    0 < (u.cross v).dot (u.cross v) ∧
    |(u.cross v).dot line.d| > tol * (u.cross v).norm ∧
    (∃ τ, pt = line.o.add (smul τ line.d)) ∧
    (u.cross v).dot (pt.sub t0) = 0 ∧
    ∃ s t, -tol ≤ s ∧ s ≤ 1 + tol ∧ -tol ≤ t ∧ s + t ≤ 1 + tol ∧
      pt = (t0.add (smul s u)).add (smul t v) := by
  have h' := h
  unfold lineTriangle at h
  simp only at h
  by_cases hc : 0 < (u.cross v).dot (u.cross v)
  swap
  · rw [if_pos] at h
    · simp at h
    · rw [normalize_zero_dot hc]
      rintro ⟨h1, -⟩
      simp at h1; linarith
  have hn := norm_pos hc
  split at h
  · simp at h
  rename_i hcond
  rw [not_not, normalize_dot hc, abs_div, abs_of_pos hn] at hcond
  have hb : |(u.cross v).dot line.d| > tol * (u.cross v).norm := by
    have := (lt_div_iff₀ hn).1 hcond.1; linarith
  have hd : (u.cross v).dot line.d ≠ 0 := by
    intro h0; rw [h0, abs_zero] at hb
    have := mul_nonneg htol hn.le; linarith
  rw [normalize_dot hc, normalize_dot hc] at h
  split at h
  · simp at h
  rename_i hs
  split at h
  · simp at h
  rename_i ht
  simp only [Option.some.injEq] at h
  rw [h] at hs ht
  simp only [not_or, not_lt] at hs ht
  have hplane : (u.cross v).dot (pt.sub t0) = 0 := by
    rw [← h]
    set c := u.cross v
    have e : -(c.dot (line.o.sub t0) / c.norm) / (c.dot line.d / c.norm) =
        -(c.dot (line.o.sub t0)) / c.dot line.d := by field_simp
    rw [e]
    have : c.dot ((line.o.add (smul (-(c.dot (line.o.sub t0)) / c.dot line.d) line.d)).sub t0) =
        c.dot (line.o.sub t0) + (-(c.dot (line.o.sub t0)) / c.dot line.d) * c.dot line.d := by
      unfold dot add smul sub; simp only; ring
    rw [this]; field_simp; ring
  refine ⟨hc, hb, ⟨_, h.symm⟩, hplane, _, _, hs.1, hs.2, ht.1, ht.2, ?_⟩
  have hD : (u.dot v) ^ 2 - u.dot u * v.dot v ≠ 0 := by rw [lagrange]; linarith
  set w := pt.sub t0 with hw
  have hw' : pt = t0.add w := by
    apply V3.ext <;> simp [hw, add, sub]
  rw [hw']
  -- expansion of w in the triangle basis
  have hx : w.x = (u.dot v * v.dot w - v.dot v * u.dot w) / (u.dot v ^ 2 - u.dot u * v.dot v) * u.x +
      (u.dot v * u.dot w - u.dot u * v.dot w) / (u.dot v ^ 2 - u.dot u * v.dot v) * v.x := by
    rw [div_mul_eq_mul_div, div_mul_eq_mul_div, ← add_div, eq_div_iff hD]
    have := hplane
    unfold dot cross at *
    simp only at *
    linear_combination (-(u.y * v.z - u.z * v.y)) * this
  have hy : w.y = (u.dot v * v.dot w - v.dot v * u.dot w) / (u.dot v ^ 2 - u.dot u * v.dot v) * u.y +
      (u.dot v * u.dot w - u.dot u * v.dot w) / (u.dot v ^ 2 - u.dot u * v.dot v) * v.y := by
    rw [div_mul_eq_mul_div, div_mul_eq_mul_div, ← add_div, eq_div_iff hD]
    have := hplane
    unfold dot cross at *
    simp only at *
    linear_combination (-(u.z * v.x - u.x * v.z)) * this
  have hz : w.z = (u.dot v * v.dot w - v.dot v * u.dot w) / (u.dot v ^ 2 - u.dot u * v.dot v) * u.z +
      (u.dot v * u.dot w - u.dot u * v.dot w) / (u.dot v ^ 2 - u.dot u * v.dot v) * v.z := by
    rw [div_mul_eq_mul_div, div_mul_eq_mul_div, ← add_div, eq_div_iff hD]
    have := hplane
    unfold dot cross at *
    simp only at *
    linear_combination (-(u.x * v.y - u.y * v.x)) * this
  apply V3.ext
  · simp only [add, smul]; linarith
  · simp only [add, smul]; linarith
  · simp only [add, smul]; linarith

/-- Completeness of the triangle test. -/
theorem lineTriangle_complete {tol : ℝ} (htol : 0 ≤ tol) (htol1 : tol < 1) {line : Line3}
    {t0 u v pt : V3} (hb : |(u.cross v).dot line.d| > tol * (u.cross v).norm) {τ s t : ℝ}
    (hl : pt = line.o.add (smul τ line.d)) (s0 : -tol ≤ s) (s1 : s ≤ 1 + tol) (t0' : -tol ≤ t)
    (t1 : s + t ≤ 1 + tol) (hp : pt = (t0.add (smul s u)).add (smul t v)) :
    lineTriangle tol line t0 u v = some pt := by
  have hc : 0 < (u.cross v).dot (u.cross v) := by
    by_contra hc
    obtain ⟨h1, h2, h3⟩ := eq_zero_of_dot_self hc
    have e : (u.cross v).dot line.d = 0 := by unfold dot; rw [h1, h2, h3]; ring
    rw [e, abs_zero] at hb
    have := mul_nonneg htol (Real.sqrt_nonneg ((u.cross v).dot (u.cross v)))
    unfold norm at hb; linarith
  have hn := norm_pos hc
  have hd : (u.cross v).dot line.d ≠ 0 := by
    intro h0; rw [h0, abs_zero] at hb
    have := mul_nonneg htol hn.le; linarith
  unfold lineTriangle
  simp only
  rw [if_neg]
  swap
  · rw [not_not, normalize_norm hc, normalize_dot hc, abs_div, abs_of_pos hn]
    exact ⟨(lt_div_iff₀ hn).2 hb, htol1⟩
  rw [normalize_dot hc, normalize_dot hc]
  have hpt : line.o.add (smul (-((u.cross v).dot (line.o.sub t0) / (u.cross v).norm) /
      ((u.cross v).dot line.d / (u.cross v).norm)) line.d) = pt := by
    have hτ : -((u.cross v).dot (line.o.sub t0) / (u.cross v).norm) /
      ((u.cross v).dot line.d / (u.cross v).norm) = τ := by
      rw [neg_div, div_div_div_cancel_right₀ hn.ne', ← neg_div, div_eq_iff hd]
      have hx := congrArg V3.x (hl.symm.trans hp)
      have hy := congrArg V3.y (hl.symm.trans hp)
      have hz := congrArg V3.z (hl.symm.trans hp)
      unfold dot cross sub
      simp only [add, smul] at *
      linear_combination (-(u.y * v.z - u.z * v.y)) * hx - (u.z * v.x - u.x * v.z) * hy -
        (u.x * v.y - u.y * v.x) * hz
    rw [hτ, hl]
  rw [hpt]
  have hD : (u.dot v) ^ 2 - u.dot u * v.dot v ≠ 0 := by rw [lagrange]; linarith
  have hw : pt.sub t0 = (smul s u).add (smul t v) := by
    rw [hp]; apply V3.ext <;> simp only [sub, add, smul] <;> ring
  have es : (u.dot v * v.dot (pt.sub t0) - v.dot v * u.dot (pt.sub t0)) /
      (u.dot v ^ 2 - u.dot u * v.dot v) = s := by
    rw [div_eq_iff hD, hw]; unfold dot add smul; simp only; ring
  have et : (u.dot v * u.dot (pt.sub t0) - u.dot u * v.dot (pt.sub t0)) /
      (u.dot v ^ 2 - u.dot u * v.dot v) = t := by
    rw [div_eq_iff hD, hw]; unfold dot add smul; simp only; ring
  rw [es, et, if_neg (by rw [not_or, not_lt]; exact ⟨s0, not_lt.2 s1⟩),
    if_neg (by rw [not_or, not_lt]; exact ⟨t0', not_lt.2 t1⟩)]

/-! ### Face by face -/

theorem onLine_iff (l : Line3) (p : V3) : OnLine l p ↔ ∃ τ, p = l.o.add (smul τ l.d) := Iff.rfl

theorem inTriangle_iff (tol : ℝ) (a b c p : V3) : InTriangle tol a b c p ↔
    ∃ s t, -tol ≤ s ∧ s ≤ 1 + tol ∧ -tol ≤ t ∧ s + t ≤ 1 + tol ∧
      p = (a.add (smul s (b.sub a))).add (smul t (c.sub a)) := by
  unfold InTriangle
  constructor
  · rintro ⟨s, t, h1, h2, h3, h4, hx, hy, hz⟩
    exact ⟨s, t, h1, h2, h3, h4, V3.ext hx hy hz⟩
  · rintro ⟨s, t, h1, h2, h3, h4, rfl⟩
    exact ⟨s, t, h1, h2, h3, h4, rfl, rfl, rfl⟩

theorem faceHit_some {tol : ℝ} (htol : 0 ≤ tol) {line : Line3} {a b c p : V3}
    (h : faceHit tol line (a, b, c) = some p) :
    OnLine line p ∧ InTriangle tol a b c p ∧ Transversal tol line a b c ∧
      ((b.sub a).cross (c.sub a)).dot (p.sub a) = 0 := by
  obtain ⟨-, h2, h3, h4, h5⟩ := lineTriangle_some htol h
  exact ⟨h3, (inTriangle_iff _ _ _ _ _).2 h5, h2, h4⟩

theorem faceHit_complete {tol : ℝ} (htol : 0 ≤ tol) (htol1 : tol < 1) {line : Line3} {a b c p : V3}
    (h1 : OnLine line p) (h2 : InTriangle tol a b c p) (h3 : Transversal tol line a b c) :
    faceHit tol line (a, b, c) = some p := by
  obtain ⟨τ, hτ⟩ := h1
  obtain ⟨s, t, a1, a2, a3, a4, a5⟩ := (inTriangle_iff _ _ _ _ _).1 h2
  exact lineTriangle_complete htol htol1 h3 hτ a1 a2 a3 a4 a5

theorem corners_ok {m : Mesh} {f : ℕ × ℕ × ℕ} (h : f.1 < m.vertices.length ∧
    f.2.1 < m.vertices.length ∧ f.2.2 < m.vertices.length) :
    ∃ a b c, m.corners f = .ok (a, b, c) ∧ m.vertices[f.1]? = some a ∧
      m.vertices[f.2.1]? = some b ∧ m.vertices[f.2.2]? = some c := by
  obtain ⟨h1, h2, h3⟩ := h
  refine ⟨_, _, _, ?_, List.getElem?_eq_getElem h1, List.getElem?_eq_getElem h2,
    List.getElem?_eq_getElem h3⟩
  unfold Mesh.corners
  rw [Res.idx_eq_ok.2 (List.getElem?_eq_getElem h1), Res.idx_eq_ok.2 (List.getElem?_eq_getElem h2),
    Res.idx_eq_ok.2 (List.getElem?_eq_getElem h3)]
  rfl

/-- The face scan: defined, at most two points, sound, and complete for faces that are not skipped. -/
theorem scanFaces_spec (tol : ℝ) (skip : Line3 → V3 × V3 × V3 → Prop) (line : Line3) (m : Mesh)
    (fs : List (ℕ × ℕ × ℕ))
    (hwf : ∀ f ∈ fs, f.1 < m.vertices.length ∧ f.2.1 < m.vertices.length ∧ f.2.2 < m.vertices.length) :
    ∀ acc : List V3, acc.length < 2 →
    ∃ pts, scanFaces tol skip line m fs acc = .ok pts ∧ pts.length ≤ 2 ∧ (∃ ext, pts = acc ++ ext) ∧
      (∀ p ∈ pts, p ∈ acc ∨ ∃ f ∈ fs, ∃ a b c, m.vertices[f.1]? = some a ∧
        m.vertices[f.2.1]? = some b ∧ m.vertices[f.2.2]? = some c ∧ ¬ skip line (a, b, c) ∧
        faceHit tol line (a, b, c) = some p) ∧
      (∀ f ∈ fs, ∀ a b c p, m.vertices[f.1]? = some a → m.vertices[f.2.1]? = some b →
        m.vertices[f.2.2]? = some c → ¬ skip line (a, b, c) → faceHit tol line (a, b, c) = some p →
        p ∈ pts ∨ pts.length = 2) := by
  classical
  induction fs with
  | nil =>
    intro acc hacc
    exact ⟨acc, rfl, hacc.le, ⟨[], by simp⟩, fun p hp => Or.inl hp, by simp⟩
  | cons f fs ih =>
    intro acc hacc
    have ih' := ih (fun g hg => hwf g (by simp [hg]))
    obtain ⟨a, b, c, hcor, ha, hb, hc⟩ := corners_ok (hwf f (by simp))
    have lift : ∀ {p : V3}, (∃ f ∈ fs, ∃ a b c, m.vertices[f.1]? = some a ∧
        m.vertices[f.2.1]? = some b ∧ m.vertices[f.2.2]? = some c ∧ ¬ skip line (a, b, c) ∧
        faceHit tol line (a, b, c) = some p) → (∃ g ∈ f :: fs, ∃ a b c, m.vertices[g.1]? = some a ∧
        m.vertices[g.2.1]? = some b ∧ m.vertices[g.2.2]? = some c ∧ ¬ skip line (a, b, c) ∧
        faceHit tol line (a, b, c) = some p) := by
      rintro p ⟨g, hg, h⟩; exact ⟨g, by simp [hg], h⟩
    by_cases hsk : skip line (a, b, c)
    · obtain ⟨pts, h1, h2, h3, h4, h5⟩ := ih' acc hacc
      refine ⟨pts, by rw [scanFaces, hcor]; simp only [Res.bind_ok', if_pos hsk]; exact h1, h2, h3, ?_, ?_⟩
      · intro p hp
        rcases h4 p hp with h | h
        · exact Or.inl h
        · exact Or.inr (lift h)
      · intro g hg a' b' c' p ha' hb' hc' hns hhit
        rcases List.mem_cons.1 hg with rfl | hg
        · rw [ha] at ha'; rw [hb] at hb'; rw [hc] at hc'
          cases ha'; cases hb'; cases hc'
          exact absurd hsk hns
        · exact h5 g hg a' b' c' p ha' hb' hc' hns hhit
    · cases hh : faceHit tol line (a, b, c) with
      | none =>
        obtain ⟨pts, h1, h2, h3, h4, h5⟩ := ih' acc hacc
        refine ⟨pts, ?_, h2, h3, ?_, ?_⟩
        · rw [scanFaces, hcor]
          simp only [Res.bind_ok', if_neg hsk, hh]
          rw [if_neg (by omega)]; exact h1
        · intro p hp
          rcases h4 p hp with h | h
          · exact Or.inl h
          · exact Or.inr (lift h)
        · intro g hg a' b' c' p ha' hb' hc' hns hhit
          rcases List.mem_cons.1 hg with rfl | hg
          · rw [ha] at ha'; rw [hb] at hb'; rw [hc] at hc'
            cases ha'; cases hb'; cases hc'
            rw [hh] at hhit; simp at hhit
          · exact h5 g hg a' b' c' p ha' hb' hc' hns hhit
      | some q =>
        have hq : ∃ g ∈ f :: fs, ∃ a b c, m.vertices[g.1]? = some a ∧
            m.vertices[g.2.1]? = some b ∧ m.vertices[g.2.2]? = some c ∧ ¬ skip line (a, b, c) ∧
            faceHit tol line (a, b, c) = some q := ⟨f, by simp, a, b, c, ha, hb, hc, hsk, hh⟩
        by_cases hlen : (acc ++ [q]).length = 2
        · refine ⟨acc ++ [q], ?_, hlen.le, ⟨[q], rfl⟩, ?_, ?_⟩
          · rw [scanFaces, hcor]
            simp only [Res.bind_ok', if_neg hsk, hh]
            rw [if_pos hlen]
          · intro p hp
            rcases List.mem_append.1 hp with h | h
            · exact Or.inl h
            · simp only [List.mem_singleton] at h; subst h; exact Or.inr hq
          · intros; exact Or.inr hlen
        · have hacc' : (acc ++ [q]).length < 2 := by
            rw [List.length_append, List.length_singleton] at *; omega
          obtain ⟨pts, h1, h2, ⟨e, h3⟩, h4, h5⟩ := ih' (acc ++ [q]) hacc'
          refine ⟨pts, ?_, h2, ⟨q :: e, by simp [h3]⟩, ?_, ?_⟩
          · rw [scanFaces, hcor]
            simp only [Res.bind_ok', if_neg hsk, hh]
            rw [if_neg hlen]; exact h1
          · intro p hp
            rcases h4 p hp with h | h
            · rcases List.mem_append.1 h with h | h
              · exact Or.inl h
              · simp only [List.mem_singleton] at h; subst h; exact Or.inr hq
            · exact Or.inr (lift h)
          · intro g hg a' b' c' p ha' hb' hc' hns hhit
            rcases List.mem_cons.1 hg with rfl | hg
            · rw [ha] at ha'; rw [hb] at hb'; rw [hc] at hc'
              cases ha'; cases hb'; cases hc'
              rw [hh] at hhit
              obtain rfl := (Option.some.injEq _ _).mp hhit
              left; rw [h3]; simp
            · exact h5 g hg a' b' c' p ha' hb' hc' hns hhit

end Hrm
