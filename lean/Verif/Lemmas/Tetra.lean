import Mathlib.Analysis.Convex.Caratheodory
import Mathlib.Analysis.Normed.Affine.AddTorsorBases
import Mathlib.Analysis.Normed.Module.Convex
import Mathlib.LinearAlgebra.Dimension.Constructions

/-!
# Tetrahedra and triangles in space
-/

namespace Hrm

/-- The four faces of a tetrahedron. -/
def tetraFaces (p q r s : Fin 3 → ℝ) : Set (Fin 3 → ℝ) :=
  convexHull ℝ {p, q, r} ∪ convexHull ℝ {p, r, s} ∪ convexHull ℝ {q, r, s} ∪ convexHull ℝ {p, q, s}

/-- A point of a tetrahedron is on a face or in the interior. -/
theorem tetra_mem {p q r s x : Fin 3 → ℝ} (hx : x ∈ convexHull ℝ {p, q, r, s}) :
    x ∈ tetraFaces p q r s ∨ x ∈ interior (convexHull ℝ {p, q, r, s}) := by
  by_cases hf : x ∈ tetraFaces p q r s
  · exact .inl hf
  right
  have hface : ∀ A : Set (Fin 3 → ℝ), x ∈ convexHull ℝ A →
      ¬ A ⊆ {p, q, r} ∧ ¬ A ⊆ {p, r, s} ∧ ¬ A ⊆ {q, r, s} ∧ ¬ A ⊆ {p, q, s} := by
    intro A hA
    refine ⟨?_, ?_, ?_, ?_⟩ <;> intro h <;> apply hf <;> have h' := convexHull_mono h hA
    · exact .inl (.inl (.inl h'))
    · exact .inl (.inl (.inr h'))
    · exact .inl (.inr h')
    · exact .inr h'
  obtain ⟨ι, hι, z, w, hz, hind, hw, hw1, hwx⟩ := eq_pos_convex_span_of_mem_convexHull hx
  have hxz : x ∈ convexHull ℝ (Set.range z) := by
    rw [← hwx]
    exact (convex_convexHull ℝ _).sum_mem (fun i _ => (hw i).le) hw1
      (fun i _ => subset_convexHull ℝ _ ⟨i, rfl⟩)
  obtain ⟨n1, n2, n3, n4⟩ := hface _ hxz
  have mem : ∀ A : Set (Fin 3 → ℝ), ¬ Set.range z ⊆ A → ∃ y ∈ Set.range z, y ∉ A := fun A h => Set.not_subset.1 h
  have hs : s ∈ Set.range z := by
    obtain ⟨y, hy, hn⟩ := mem _ n1
    have := hz hy
    simp only [Set.mem_insert_iff, Set.mem_singleton_iff, not_or] at this hn
    obtain ⟨a, b, c⟩ := hn
    rcases this with h | h | h | h <;> first | contradiction | (rw [← h]; exact hy)
  have hq : q ∈ Set.range z := by
    obtain ⟨y, hy, hn⟩ := mem _ n2
    have := hz hy
    simp only [Set.mem_insert_iff, Set.mem_singleton_iff, not_or] at this hn
    obtain ⟨a, b, c⟩ := hn
    rcases this with h | h | h | h <;> first | contradiction | (rw [← h]; exact hy)
  have hp : p ∈ Set.range z := by
    obtain ⟨y, hy, hn⟩ := mem _ n3
    have := hz hy
    simp only [Set.mem_insert_iff, Set.mem_singleton_iff, not_or] at this hn
    obtain ⟨a, b, c⟩ := hn
    rcases this with h | h | h | h <;> first | contradiction | (rw [← h]; exact hy)
  have hr : r ∈ Set.range z := by
    obtain ⟨y, hy, hn⟩ := mem _ n4
    have := hz hy
    simp only [Set.mem_insert_iff, Set.mem_singleton_iff, not_or] at this hn
    obtain ⟨a, b, c⟩ := hn
    rcases this with h | h | h | h <;> first | contradiction | (rw [← h]; exact hy)
  have hrange : Set.range z = {p, q, r, s} := by
    apply Set.Subset.antisymm hz
    intro y hy
    simp only [Set.mem_insert_iff, Set.mem_singleton_iff] at hy
    rcases hy with rfl | rfl | rfl | rfl <;> assumption
  -- the four points are distinct, otherwise the tetrahedron is a face
  obtain ⟨m1, m2, m3, m4⟩ := hface _ hx
  have hpq : p ≠ q := by rintro rfl; exact m2 (by intro y hy; simp at hy ⊢; tauto)
  have hpr : p ≠ r := by rintro rfl; exact m4 (by intro y hy; simp at hy ⊢; tauto)
  have hps : p ≠ s := by rintro rfl; exact m1 (by intro y hy; simp at hy ⊢; tauto)
  have hqr : q ≠ r := by rintro rfl; exact m4 (by intro y hy; simp at hy ⊢; tauto)
  have hqs : q ≠ s := by rintro rfl; exact m1 (by intro y hy; simp at hy ⊢; tauto)
  have hrs : r ≠ s := by rintro rfl; exact m1 (by intro y hy; simp at hy ⊢; tauto)
  have hcard : Fintype.card ι = 4 := by
    classical
    have h1 : (Finset.univ.image z : Set (Fin 3 → ℝ)) = {p, q, r, s} := by
      rw [← hrange]; simp
    have h2 : (Finset.univ.image z) = {p, q, r, s} := by
      apply Finset.coe_injective; rw [h1]; simp
    have h3 := Finset.card_image_of_injective Finset.univ hind.injective
    rw [h2] at h3
    rw [Finset.card_univ] at h3
    rw [← h3]
    simp [hpq, hpr, hps, hqr, hqs, hrs]
  have htop : affineSpan ℝ (Set.range z) = ⊤ := by
    rw [hind.affineSpan_eq_top_iff_card_eq_finrank_add_one, hcard]; simp
  let b : AffineBasis ι ℝ (Fin 3 → ℝ) := ⟨z, hind, htop⟩
  have hb : Set.range b = {p, q, r, s} := hrange
  rw [← hb, b.interior_convexHull]
  intro i
  have hx' : x = Finset.univ.affineCombination ℝ b w := by
    rw [Finset.affineCombination_eq_linear_combination _ _ _ hw1]
    exact hwx.symm
  rw [hx', b.coord_apply_combination_of_mem (Finset.mem_univ i) hw1]
  exact hw i

theorem finite_hull_closed {n : ℕ} {A : Set (Fin n → ℝ)} (hA : A.Finite) : IsClosed (convexHull ℝ A) :=
  hA.isCompact_convexHull ℝ |>.isClosed

/-- A convex body that meets a tetrahedron and none of its faces is inside it. -/
theorem convex_in_tetra {B : Set (Fin 3 → ℝ)} (hB : Convex ℝ B) {p q r s : Fin 3 → ℝ}
    (hne : (B ∩ convexHull ℝ {p, q, r, s}).Nonempty) (hf : B ∩ tetraFaces p q r s = ∅) :
    B ⊆ convexHull ℝ {p, q, r, s} := by
  have hin : ∀ x ∈ B, x ∈ convexHull ℝ {p, q, r, s} → x ∈ interior (convexHull ℝ {p, q, r, s}) := by
    intro x hx hm
    rcases tetra_mem hm with h | h
    · exact absurd (show x ∈ B ∩ tetraFaces p q r s from ⟨hx, h⟩) (by rw [hf]; simp)
    · exact h
  have hcl : IsClosed (convexHull ℝ {p, q, r, s}) := finite_hull_closed (Set.toFinite _)
  have := isPreconnected_iff_subset_of_disjoint.1 hB.isPreconnected _ _ isOpen_interior hcl.isOpen_compl
    (fun x hx => by
      by_cases hm : x ∈ convexHull ℝ {p, q, r, s}
      · exact .inl (hin x hx hm)
      · exact .inr hm)
    (by
      rw [Set.eq_empty_iff_forall_notMem]
      rintro x ⟨-, h1, h2⟩
      exact h2 (interior_subset h1))
  rcases this with h | h
  · exact h.trans interior_subset
  · obtain ⟨x, hx, hm⟩ := hne
    exact absurd hm (h hx)

/-- A triangle in space has no interior. -/
theorem triangle_thin (p q r : Fin 3 → ℝ) : interior (convexHull ℝ {p, q, r}) = ∅ := by
  rw [← Set.not_nonempty_iff_eq_empty, interior_convexHull_nonempty_iff_affineSpan_eq_top]
  intro h
  have h1 : vectorSpan ℝ {p, q, r} = ⊤ := by
    rw [← direction_affineSpan, h, AffineSubspace.direction_top]
  have h2 : Module.finrank ℝ (vectorSpan ℝ {p, q, r}) ≤ 2 := by
    have h3 := finrank_vectorSpan_range_le ℝ ![p, q, r] (n := 2) (by simp)
    have e : Set.range ![p, q, r] = {p, q, r} := by
      ext x
      simp [eq_comm]
      tauto
    rwa [e] at h3
  rw [h1, finrank_top] at h2
  simp at h2

/-- A list of triangles leaves a small ball free in every open set. -/
theorem triangles_thin (ts : List (Set (Fin 3 → ℝ))) (h : ∀ t ∈ ts, IsClosed t ∧ interior t = ∅) :
    IsClosed {x | ∃ t ∈ ts, x ∈ t} ∧ interior {x | ∃ t ∈ ts, x ∈ t} = ∅ := by
  induction ts with
  | nil => simp
  | cons t ts ih =>
    obtain ⟨h1, h2⟩ := ih (fun t ht => h t (by simp [ht]))
    obtain ⟨g1, g2⟩ := h t (by simp)
    have e : {x | ∃ t' ∈ t :: ts, x ∈ t'} = t ∪ {x | ∃ t ∈ ts, x ∈ t} := by
      ext x; simp
    rw [e]
    exact ⟨g1.union h1, by rw [interior_union_isClosed_of_interior_empty g1 h2, g2]⟩

end Hrm
