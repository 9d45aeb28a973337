import Verif.Props.Mesh
import Verif.Model.Planner3D

/-!
# C20, C64 – with the constants of the code

The theorems of Props/Mesh hold for every tolerance; here they are stated for the constants written in
src/geometry/LineIntersection.cpp (`1e-6`, `1e-12`) and for the check the planner makes.
-/

namespace Hrm

/-- C20: a line whose direction has no component strictly between 0 and 1e-6 (in absolute value) and that crosses a
triangle of a mesh, at an angle whose sine is at least 1e-12, hits the mesh. -/
theorem C20_constants_partial (line : Line3)
    (hax : ∀ w ∈ [line.d.x, line.d.y, line.d.z], w = 0 ∨ 1 / 10 ^ 6 ≤ |w|) (m : Mesh) (hwf : m.WF) (a b c p : V3)
    (hf : m.HasFace a b c) (hl : OnLine line p) (ht : InTriangle 0 a b c p)
    (htr : Transversal (1 / 10 ^ 12) line a b c) :
    ∃ pts, lineMesh triTol axisTol line m = .ok pts ∧ pts ≠ [] ∧ (p ∈ pts ∨ pts.length = 2) := by
  simp only [List.mem_cons, List.not_mem_nil, or_false, forall_eq_or_imp, forall_eq] at hax
  exact C20_mesh_complete_partial triTol axisTol triTol_pos.le triTol_lt line hax m hwf a b c p hf hl ht htr

/-- C64: if the planner accepts the way between two configurations of a slice, the direction of which has no component
strictly between 0 and 1e-6 and is parallel to no triangle, the way meets no body enclosed by an obstacle mesh. -/
theorem C64_planner_check_partial (obstacles : List Mesh) (x y z x' y' z' : ℝ) (tail tail' : Vec)
    (hacc : sameFree3 obstacles (x :: y :: z :: tail) (x' :: y' :: z' :: tail') = .ok true)
    (hax : ∀ w ∈ [(segLine ⟨x, y, z⟩ ⟨x', y', z'⟩).d.x, (segLine ⟨x, y, z⟩ ⟨x', y', z'⟩).d.y,
      (segLine ⟨x, y, z⟩ ⟨x', y', z'⟩).d.z], w = 0 ∨ 1 / 10 ^ 6 ≤ |w|)
    (m : Mesh) (hm : m ∈ obstacles) (hwf : m.WF) (C C' : V3 → Prop) (hC' : ConvexSet C') (hw : Watertight m C C')
    (hfaces : ∀ a b c p, m.HasFace a b c → InTriangle (1 / 10 ^ 12) a b c p → C' p)
    (h1 : ¬ C' ⟨x, y, z⟩) (h2 : ¬ C' ⟨x', y', z'⟩)
    (htr : ∀ a b c, m.HasFace a b c → Transversal (1 / 10 ^ 12) (segLine ⟨x, y, z⟩ ⟨x', y', z'⟩) a b c)
    (s : ℝ) (hs0 : 0 ≤ s) (hs1 : s ≤ 1) : ¬ C (V3.comb s ⟨x, y, z⟩ ⟨x', y', z'⟩) :=
  C64_transition3D_avoids_partial triTol axisTol triTol_pos.le triTol_lt obstacles ⟨x, y, z⟩ ⟨x', y', z'⟩ hacc hax m hm hwf
    C C' hC' hw hfaces h1 h2 htr s hs0 hs1

/-- The hypotheses of `C20_constants_partial` and its conclusion for a slanted line through a triangle; those of
`C64_planner_check_partial` are met by the slanted segment above the octahedron (Props/Mesh), whose check is the same. -/
example : ∃ pts, lineMesh triTol axisTol ⟨⟨0, 1 / 2, 0⟩, ⟨1, 0, 0⟩⟩ exTri = .ok pts ∧ pts ≠ [] := by
  obtain ⟨pts, h1, h2, -⟩ := C20_constants_partial ⟨⟨0, 1 / 2, 0⟩, ⟨1, 0, 0⟩⟩
    (by simp; norm_num) exTri
    ⟨by simp [exTri], by simp [exTri]⟩
    ⟨1, 1, -1⟩ ⟨1, 1, 1⟩ ⟨1, 0, 0⟩ ⟨1, 1 / 2, 0⟩ ⟨(0, 1, 2), by simp [exTri], rfl, rfl, rfl⟩ ⟨1, by norm_num⟩
    ⟨1 / 4, 1 / 2, by norm_num⟩
    (by
      unfold Transversal V3.norm V3.dot V3.cross V3.sub
      norm_num
      rw [show (4 : ℝ) = 2 ^ 2 by norm_num, Real.sqrt_sq (by norm_num)]
      norm_num)
  exact ⟨pts, h1, h2⟩

example (tail tail' : Vec) : sameFree3 [octa] (-3 :: -6 :: 2 :: tail) (3 :: 6 :: 2 :: tail') =
    sameSliceFree3D triTol axisTol [octa] ⟨-3, -6, 2⟩ ⟨3, 6, 2⟩ := rfl

end Hrm
