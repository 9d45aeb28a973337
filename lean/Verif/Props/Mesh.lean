import Verif.Lemmas.Mesh
import Verif.Model.FreeSpace
import Mathlib.Tactic.NormNum
import Mathlib.Tactic.IntervalCases

/-!
# Properties C18–C22, C63, C64: lines, triangles and meshes in 3D
-/

namespace Hrm

open V3

theorem triTol_pos : 0 < triTol := by unfold triTol; norm_num
theorem triTol_lt : triTol < 1 := by unfold triTol; norm_num

/-! ### C18, C19 -/

/-- **C18** A reported hit is on the line, in the triangle up to the tolerance (in the closed triangle
for tolerance 0), and exactly in its plane; a degenerate triangle never reports a hit. -/
theorem C18_line_triangle_sound (tol : ℝ) (htol : 0 ≤ tol) (line : Line3) (a b c p : V3)
    (h : lineTriangle tol line a (b.sub a) (c.sub a) = some p) :
    OnLine line p ∧ InTriangle tol a b c p ∧ ((b.sub a).cross (c.sub a)).dot (p.sub a) = 0 ∧
      0 < ((b.sub a).cross (c.sub a)).dot ((b.sub a).cross (c.sub a)) := by
  obtain ⟨h1, h2, -, h4⟩ := faceHit_some htol h
  exact ⟨h1, h2, h4, (lineTriangle_some htol h).1⟩

/-- **C19** If the line makes an angle with sine above the tolerance with the plane of the triangle and
has a point in the (closed, or tolerance-relaxed) triangle, that very point is reported. -/
theorem C19_line_triangle_complete (tol : ℝ) (htol : 0 ≤ tol) (htol1 : tol < 1) (line : Line3)
    (a b c p : V3) (h1 : OnLine line p) (h2 : InTriangle tol a b c p)
    (h3 : Transversal tol line a b c) :
    lineTriangle tol line a (b.sub a) (c.sub a) = some p :=
  faceHit_complete htol htol1 h1 h2 h3

theorem inTriangle_mono {tol : ℝ} (htol : 0 ≤ tol) {a b c p : V3} (h : InTriangle 0 a b c p) :
    InTriangle tol a b c p := by
  obtain ⟨s, t, h1, h2, h3, h4, h5⟩ := h
  exact ⟨s, t, by linarith, by linarith, by linarith, by linarith, h5⟩

/-- The unit vertical line through (1/4, 1/4) and the unit right triangle at height 2. -/
example : lineTriangle triTol (vertical (1 / 4) (1 / 4) 0) ⟨0, 0, 2⟩ ((⟨1, 0, 2⟩ : V3).sub ⟨0, 0, 2⟩)
    ((⟨0, 1, 2⟩ : V3).sub ⟨0, 0, 2⟩) = some ⟨1 / 4, 1 / 4, 2⟩ := by
  apply C19_line_triangle_complete triTol triTol_pos.le triTol_lt
  · exact ⟨2, by simp [vertical]⟩
  · exact inTriangle_mono triTol_pos.le ⟨1 / 4, 1 / 4, by norm_num⟩
  · unfold Transversal triTol vertical V3.norm V3.dot V3.cross V3.sub
    norm_num

/-! ### C20 -/

/-- **C20** Soundness, general line: normal return for a well-formed mesh, at most two points, each on
the line and on a face (up to the triangle tolerance). -/
theorem C20_mesh_sound (tol axisTol : ℝ) (htol : 0 ≤ tol) (line : Line3) (m : Mesh) (hwf : m.WF) :
    ∃ pts, lineMesh tol axisTol line m = .ok pts ∧ pts.length ≤ 2 ∧
      ∀ p ∈ pts, OnLine line p ∧ ∃ a b c, m.HasFace a b c ∧ InTriangle tol a b c p := by
  unfold lineMesh
  rw [if_neg hwf.1]
  split
  · exact ⟨[], rfl, by simp, by simp⟩
  · obtain ⟨pts, h1, h2, -, h4, -⟩ := scanFaces_spec tol (fun _ _ => False) line m m.faces hwf.2 []
      (by simp)
    refine ⟨pts, h1, h2, ?_⟩
    intro p hp
    rcases h4 p hp with h | ⟨f, hf, a, b, c, ha, hb, hc, -, hh⟩
    · simp at h
    · obtain ⟨g1, g2, -⟩ := faceHit_some htol hh
      exact ⟨g1, a, b, c, ⟨f, hf, ha, hb, hc⟩, g2⟩

/-- **C20** Soundness, vertical line. -/
theorem C20_vertical_sound (tol : ℝ) (htol : 0 ≤ tol) (line : Line3) (m : Mesh) (hwf : m.WF) :
    ∃ pts, vertLineMesh tol line m = .ok pts ∧ pts.length ≤ 2 ∧
      ∀ p ∈ pts, OnLine line p ∧ ∃ a b c, m.HasFace a b c ∧ InTriangle tol a b c p := by
  unfold vertLineMesh
  rw [if_neg hwf.1]
  split
  · exact ⟨[], rfl, by simp, by simp⟩
  · obtain ⟨pts, h1, h2, -, h4, -⟩ := scanFaces_spec tol faceOutOfRange line m m.faces hwf.2 []
      (by simp)
    refine ⟨pts, h1, h2, ?_⟩
    intro p hp
    rcases h4 p hp with h | ⟨f, hf, a, b, c, ha, hb, hc, -, hh⟩
    · simp at h
    · obtain ⟨g1, g2, -⟩ := faceHit_some htol hh
      exact ⟨g1, a, b, c, ⟨f, hf, ha, hb, hc⟩, g2⟩

/-- A coordinate of a point of the closed triangle is between those of the corners. -/
theorem bary_bounds {s t a b c x : ℝ} (hs : 0 ≤ s) (ht : 0 ≤ t) (hst : s + t ≤ 1)
    (h : x = a + s * (b - a) + t * (c - a)) :
    min a (min b c) ≤ x ∧ x ≤ max a (max b c) := by
  have e : x = (1 - s - t) * a + s * b + t * c := by rw [h]; ring
  have h1 : 0 ≤ 1 - s - t := by linarith
  constructor
  · have ma : min a (min b c) ≤ a := min_le_left _ _
    have mb : min a (min b c) ≤ b := (min_le_right _ _).trans (min_le_left _ _)
    have mc : min a (min b c) ≤ c := (min_le_right _ _).trans (min_le_right _ _)
    nlinarith [mul_le_mul_of_nonneg_left ma h1, mul_le_mul_of_nonneg_left mb hs,
      mul_le_mul_of_nonneg_left mc ht]
  · have ma : a ≤ max a (max b c) := le_max_left _ _
    have mb : b ≤ max a (max b c) := (le_max_left _ _).trans (le_max_right _ _)
    have mc : c ≤ max a (max b c) := (le_max_right _ _).trans (le_max_right _ _)
    nlinarith [mul_le_mul_of_nonneg_left ma h1, mul_le_mul_of_nonneg_left mb hs,
      mul_le_mul_of_nonneg_left mc ht]

theorem not_outOfRange_of_bary {get : V3 → ℝ} {vs : List V3} {a b c : V3} (ha : a ∈ vs) (hb : b ∈ vs)
    (hc : c ∈ vs) {x : ℝ} (h1 : min (get a) (min (get b) (get c)) ≤ x)
    (h2 : x ≤ max (get a) (max (get b) (get c))) : ¬ outOfRange get x vs := by
  rintro (h | h)
  · have := max_lt (h a ha) (max_lt (h b hb) (h c hc)); linarith
  · have := lt_min (h a ha) (lt_min (h b hb) (h c hc)); linarith

/-- **C20** Completeness, vertical line: if the line meets some face transversally, the result is not
empty, and it contains the meeting point unless two other points were found first. -/
theorem C20_vertical_complete (tol : ℝ) (htol : 0 ≤ tol) (htol1 : tol < 1) (x y z0 : ℝ) (m : Mesh)
    (hwf : m.WF) (a b c p : V3) (hf : m.HasFace a b c) (hl : OnLine (vertical x y z0) p)
    (ht : InTriangle 0 a b c p) (htr : Transversal tol (vertical x y z0) a b c) :
    ∃ pts, vertLineMesh tol (vertical x y z0) m = .ok pts ∧ pts ≠ [] ∧ (p ∈ pts ∨ pts.length = 2) := by
  obtain ⟨f, hfm, ha, hb, hc⟩ := hf
  have hhit := faceHit_complete htol htol1 hl (inTriangle_mono htol ht) htr
  obtain ⟨τ, hτ⟩ := hl
  obtain ⟨s, t, s0, s1, t0, t1, ex, ey, ez⟩ := ht
  have hpx : p.x = x := by rw [hτ]; simp [vertical]
  have hpy : p.y = y := by rw [hτ]; simp [vertical]
  have bx := bary_bounds (by linarith) (by linarith) (by linarith) ex
  have byy := bary_bounds (by linarith) (by linarith) (by linarith) ey
  rw [hpx] at bx; rw [hpy] at byy
  have ma := List.mem_of_getElem? ha
  have mb := List.mem_of_getElem? hb
  have mc := List.mem_of_getElem? hc
  unfold vertLineMesh
  rw [if_neg hwf.1, if_neg]
  swap
  · rintro (h | h)
    · exact not_outOfRange_of_bary (get := V3.x) ma mb mc bx.1 bx.2 h
    · exact not_outOfRange_of_bary (get := V3.y) ma mb mc byy.1 byy.2 h
  obtain ⟨pts, h1, h2, -, -, h5⟩ := scanFaces_spec tol faceOutOfRange (vertical x y z0) m m.faces
    hwf.2 [] (by simp)
  have hor := h5 f hfm a b c p ha hb hc (by
    unfold faceOutOfRange vertical
    simp only [not_or, not_lt]
    exact ⟨bx.1, bx.2, byy.1, byy.2⟩) hhit
  refine ⟨pts, h1, ?_, hor⟩
  rintro rfl
  simp at hor

/-- The claim C20 (completeness) for general lines. -/
def C20_claim : Prop :=
  ∀ (line : Line3) (m : Mesh), m.WF → ∀ a b c p : V3, m.HasFace a b c → OnLine line p →
    InTriangle 0 a b c p → Transversal triTol line a b c →
    ∃ pts, lineMesh triTol axisTol line m = .ok pts ∧ pts ≠ []

/-- One triangle in the plane x = 1. -/
def exTri : Mesh := ⟨[⟨1, 1, -1⟩, ⟨1, 1, 1⟩, ⟨1, 0, 0⟩], [(0, 1, 2)]⟩

/-- **C20 is false of the code for general lines**: the range filter treats a direction component below
1e-6 as zero, so a line that starts 1e-7 outside the mesh's y-range and enters it is dismissed. -/
theorem C20_refuted : ¬ C20_claim := by
  intro h
  obtain ⟨pts, h1, h2⟩ := h ⟨⟨0, 1 + 1 / 10 ^ 7, 0⟩, ⟨1, -5 / 10 ^ 7, 0⟩⟩ exTri
    ⟨by simp [exTri], by simp [exTri]⟩ ⟨1, 1, -1⟩ ⟨1, 1, 1⟩ ⟨1, 0, 0⟩
    ⟨1, 1 + 1 / 10 ^ 7 - 5 / 10 ^ 7, 0⟩ ⟨(0, 1, 2), by simp [exTri], rfl, rfl, rfl⟩
    ⟨1, by norm_num⟩ ⟨(1 - 4 / 10 ^ 7) / 2, 4 / 10 ^ 7, by norm_num⟩ (by
      unfold Transversal triTol V3.norm V3.dot V3.cross V3.sub
      norm_num
      rw [show (4 : ℝ) = 2 ^ 2 by norm_num, Real.sqrt_sq (by norm_num)]
      norm_num)
  have h3 : lineMesh triTol axisTol ⟨⟨0, 1 + 1 / 10 ^ 7, 0⟩, ⟨1, -5 / 10 ^ 7, 0⟩⟩ exTri = .ok [] := by
    unfold lineMesh
    rw [if_neg (by simp [exTri]), if_pos]
    right; left
    refine ⟨by unfold axisTol; norm_num [abs_of_pos, abs_of_neg], Or.inl ?_⟩
    intro v hv
    simp only [exTri, List.mem_cons, List.not_mem_nil, or_false] at hv
    rcases hv with rfl | rfl | rfl <;> norm_num
  rw [h3] at h1
  simp only [Res.ok.injEq] at h1
  exact h2 h1.symm

/-- **C20 (partial)** Completeness for lines none of whose direction components is a tiny non-zero
number (each is zero or at least the filter constant in absolute value). -/
theorem C20_mesh_complete_partial (tol axisTol : ℝ) (htol : 0 ≤ tol) (htol1 : tol < 1) (line : Line3)
    (hax : (line.d.x = 0 ∨ axisTol ≤ |line.d.x|) ∧ (line.d.y = 0 ∨ axisTol ≤ |line.d.y|) ∧
      (line.d.z = 0 ∨ axisTol ≤ |line.d.z|)) (m : Mesh)
    (hwf : m.WF) (a b c p : V3) (hf : m.HasFace a b c) (hl : OnLine line p)
    (ht : InTriangle 0 a b c p) (htr : Transversal tol line a b c) :
    ∃ pts, lineMesh tol axisTol line m = .ok pts ∧ pts ≠ [] ∧ (p ∈ pts ∨ pts.length = 2) := by
  obtain ⟨f, hfm, ha, hb, hc⟩ := hf
  have hhit := faceHit_complete htol htol1 hl (inTriangle_mono htol ht) htr
  obtain ⟨τ, hτ⟩ := hl
  obtain ⟨s, t, s0, s1, t0, t1, ex, ey, ez⟩ := ht
  have bx := bary_bounds (by linarith) (by linarith) (by linarith) ex
  have byy := bary_bounds (by linarith) (by linarith) (by linarith) ey
  have bz := bary_bounds (by linarith) (by linarith) (by linarith) ez
  have ma := List.mem_of_getElem? ha
  have mb := List.mem_of_getElem? hb
  have mc := List.mem_of_getElem? hc
  unfold lineMesh
  rw [if_neg hwf.1, if_neg]
  swap
  · rintro (⟨h, h'⟩ | ⟨h, h'⟩ | ⟨h, h'⟩)
    · have h0 : line.d.x = 0 := hax.1.resolve_right (not_le.2 h)
      have : p.x = line.o.x := by rw [hτ]; simp [h0]
      rw [this] at bx
      exact not_outOfRange_of_bary (get := V3.x) ma mb mc bx.1 bx.2 h'
    · have h0 : line.d.y = 0 := hax.2.1.resolve_right (not_le.2 h)
      have : p.y = line.o.y := by rw [hτ]; simp [h0]
      rw [this] at byy
      exact not_outOfRange_of_bary (get := V3.y) ma mb mc byy.1 byy.2 h'
    · have h0 : line.d.z = 0 := hax.2.2.resolve_right (not_le.2 h)
      have : p.z = line.o.z := by rw [hτ]; simp [h0]
      rw [this] at bz
      exact not_outOfRange_of_bary (get := V3.z) ma mb mc bz.1 bz.2 h'
  obtain ⟨pts, h1, h2, -, -, h5⟩ := scanFaces_spec tol (fun _ _ => False) line m m.faces
    hwf.2 [] (by simp)
  have hor := h5 f hfm a b c p ha hb hc (by simp) hhit
  refine ⟨pts, h1, ?_, hor⟩
  rintro rfl
  simp at hor

/-! ### C21 -/

/-- The claim C21: on a mesh made by `getMeshFromParamSurface` a vertical line meets either no face or
gives two points. -/
def C21_claim : Prop :=
  ∀ (surf : List V3) (n : ℕ) (x y : ℝ), surf.length = n * n → 2 ≤ n →
    ∀ pts, vertLineMesh triTol (vertical x y 0) (gridMesh surf n) = .ok pts → pts.length ≠ 1

/-- A 2x2 grid: the unit square in the plane z = 0. -/
def exSquare : List V3 := [⟨0, 0, 0⟩, ⟨1, 0, 0⟩, ⟨0, 1, 0⟩, ⟨1, 1, 0⟩]

theorem exSquare_hits : vertLineMesh triTol (vertical (1 / 4) (3 / 4) 0) (gridMesh exSquare 2) =
    .ok [⟨1 / 4, 3 / 4, 0⟩] := by
  have h1 : faceHit triTol (vertical (1 / 4) (3 / 4) 0) (⟨0, 0, 0⟩, ⟨0, 1, 0⟩, ⟨1, 1, 0⟩) =
      some ⟨1 / 4, 3 / 4, 0⟩ := by
    apply faceHit_complete triTol_pos.le triTol_lt
    · exact ⟨0, by simp [vertical]⟩
    · exact inTriangle_mono triTol_pos.le ⟨1 / 2, 1 / 4, by norm_num⟩
    · unfold Transversal triTol vertical V3.norm V3.dot V3.cross V3.sub; norm_num
  have h2 : faceHit triTol (vertical (1 / 4) (3 / 4) 0) (⟨0, 0, 0⟩, ⟨1, 0, 0⟩, ⟨1, 1, 0⟩) = none := by
    cases h : faceHit triTol (vertical (1 / 4) (3 / 4) 0) (⟨0, 0, 0⟩, ⟨1, 0, 0⟩, ⟨1, 1, 0⟩) with
    | none => rfl
    | some p =>
      exfalso
      obtain ⟨⟨τ, hτ⟩, ⟨s, t, a1, a2, a3, a4, ex, ey, -⟩, -⟩ := faceHit_some triTol_pos.le h
      rw [hτ] at ex ey
      simp only [vertical, mul_zero, add_zero] at ex ey
      have : triTol < 1 / 4 := by unfold triTol; norm_num
      linarith
  have hfaces : (gridMesh exSquare 2).faces = [(0, 2, 3), (0, 1, 3)] := by decide
  unfold vertLineMesh
  rw [if_neg (by simp [gridMesh, exSquare]), if_neg, hfaces]
  · have c1 : (gridMesh exSquare 2).corners (0, 2, 3) = .ok (⟨0, 0, 0⟩, ⟨0, 1, 0⟩, ⟨1, 1, 0⟩) := rfl
    have c2 : (gridMesh exSquare 2).corners (0, 1, 3) = .ok (⟨0, 0, 0⟩, ⟨1, 0, 0⟩, ⟨1, 1, 0⟩) := rfl
    have r1 : ¬ faceOutOfRange (vertical (1 / 4) (3 / 4) 0) (⟨0, 0, 0⟩, ⟨0, 1, 0⟩, ⟨1, 1, 0⟩) := by
      unfold faceOutOfRange vertical; norm_num
    simp only [scanFaces, c1, c2, Res.bind_ok', if_neg r1, h1, h2]
    split
    · simp_all
    · split <;> simp
  · rintro (h | h) <;> rcases h with h | h
    · have := h ⟨1, 0, 0⟩ (by simp [gridMesh, exSquare]); simp [vertical] at this; norm_num at this
    · have := h ⟨0, 0, 0⟩ (by simp [gridMesh, exSquare]); simp [vertical] at this; norm_num at this
    · have := h ⟨1, 1, 0⟩ (by simp [gridMesh, exSquare]); simp [vertical] at this; norm_num at this
    · have := h ⟨0, 0, 0⟩ (by simp [gridMesh, exSquare]); simp [vertical] at this; norm_num at this

/-- **C21 is false of the code**: nothing in the mesh type guarantees a second hit; on an open surface
there can be exactly one, and the callers then read element 1 of a one-element vector. -/
theorem C21_refuted : ¬ C21_claim := by
  intro h
  exact h exSquare 2 _ _ rfl le_rfl _ exSquare_hits rfl

/-- The consequence in the point test and in the obstacle table: undefined behaviour. -/
theorem C21_single_hit_is_ub :
    ptInObs3D triTol ⟨1 / 4, 3 / 4, 0⟩ (gridMesh exSquare 2) = .ub ∧
    obsEntry [(0 : ℝ)] = .ub := by
  constructor
  · unfold ptInObs3D
    simp only [exSquare_hits, Res.bind_ok', List.isEmpty_cons, Bool.false_eq_true, if_false]
    rfl
  · simp [obsEntry, Res.idx]

/-- **C21 (partial)** For every well-formed mesh: a vertical line that meets two faces transversally at
two different points yields exactly two points. Missing: lines that meet the surface once (possible, see
`C21_refuted`). -/
theorem C21_two_hits_partial (tol : ℝ) (htol : 0 ≤ tol) (htol1 : tol < 1) (x y z0 : ℝ) (m : Mesh)
    (hwf : m.WF) (a b c p a' b' c' p' : V3) (hpp : p ≠ p') (hf : m.HasFace a b c)
    (hl : OnLine (vertical x y z0) p) (ht : InTriangle 0 a b c p)
    (htr : Transversal tol (vertical x y z0) a b c) (hf' : m.HasFace a' b' c')
    (hl' : OnLine (vertical x y z0) p') (ht' : InTriangle 0 a' b' c' p')
    (htr' : Transversal tol (vertical x y z0) a' b' c') :
    ∃ pts, vertLineMesh tol (vertical x y z0) m = .ok pts ∧ pts.length = 2 := by
  obtain ⟨pts, h1, -, h3⟩ := C20_vertical_complete tol htol htol1 x y z0 m hwf a b c p hf hl ht htr
  obtain ⟨pts', h1', -, h3'⟩ := C20_vertical_complete tol htol htol1 x y z0 m hwf a' b' c' p' hf' hl' ht' htr'
  rw [h1] at h1'
  obtain rfl := (Res.ok.injEq _ _).mp h1'
  refine ⟨pts, h1, ?_⟩
  rcases h3 with h3 | h3
  · rcases h3' with h3' | h3'
    · obtain ⟨q, g1, g2, -⟩ := C20_vertical_sound tol htol (vertical x y z0) m hwf
      rw [h1] at g1
      obtain rfl := (Res.ok.injEq _ _).mp g1
      match pts, h3, h3', g2 with
      | [], h3, _, _ => simp at h3
      | [r], h3, h3', _ =>
        simp only [List.mem_singleton] at h3 h3'
        exact absurd (h3.trans h3'.symm) hpp
      | [r, r'], _, _, _ => rfl
      | _ :: _ :: _ :: _, _, _, g2 => simp at g2
    · exact h3'
  · exact h3

/-! ### C63: the 3D obstacle interval -/

/-- The claim C63: for a mesh that is the boundary of a convex body, the point test of the bridge slice
never declares an inner point free. -/
def C63_claim : Prop :=
  ∀ (m : Mesh) (C : V3 → Prop), m.WF → ConvexSet C → Supports m C →
    ∀ v : V3, (∃ z1 z2, z1 < v.z ∧ v.z < z2 ∧ C ⟨v.x, v.y, z1⟩ ∧ C ⟨v.x, v.y, z2⟩) →
      isPtInCFree3D triTol v [m] ≠ .ok true

/-- The octahedron, upper faces first. -/
def octa : Mesh :=
  ⟨[⟨0, 0, 1⟩, ⟨1, 0, 0⟩, ⟨0, 1, 0⟩, ⟨-1, 0, 0⟩, ⟨0, -1, 0⟩, ⟨0, 0, -1⟩],
   [(0, 1, 2), (0, 2, 3), (0, 3, 4), (0, 4, 1), (5, 1, 2), (5, 2, 3), (5, 3, 4), (5, 4, 1)]⟩

/-- The solid octahedron. -/
def octaBody (p : V3) : Prop := |p.x| + |p.y| + |p.z| ≤ 1

theorem octaBody_iff (p : V3) : octaBody p ↔
    (p.x + p.y + p.z ≤ 1 ∧ p.x + p.y - p.z ≤ 1 ∧ p.x - p.y + p.z ≤ 1 ∧ p.x - p.y - p.z ≤ 1 ∧
     -p.x + p.y + p.z ≤ 1 ∧ -p.x + p.y - p.z ≤ 1 ∧ -p.x - p.y + p.z ≤ 1 ∧ -p.x - p.y - p.z ≤ 1) := by
  unfold octaBody
  constructor
  · intro h
    have a1 := le_abs_self p.x; have a2 := neg_abs_le p.x
    have b1 := le_abs_self p.y; have b2 := neg_abs_le p.y
    have c1 := le_abs_self p.z; have c2 := neg_abs_le p.z
    refine ⟨?_, ?_, ?_, ?_, ?_, ?_, ?_, ?_⟩ <;> linarith
  · rintro ⟨h1, h2, h3, h4, h5, h6, h7, h8⟩
    rcases abs_cases p.x with ⟨a, _⟩ | ⟨a, _⟩ <;> rcases abs_cases p.y with ⟨b, _⟩ | ⟨b, _⟩ <;>
      rcases abs_cases p.z with ⟨c, _⟩ | ⟨c, _⟩ <;> rw [a, b, c] <;> linarith

theorem octa_convex : ConvexSet octaBody := by
  intro a b t ha hb h0 h1
  rw [octaBody_iff] at *
  have h1' : 0 ≤ 1 - t := by linarith
  obtain ⟨a1, a2, a3, a4, a5, a6, a7, a8⟩ := ha
  obtain ⟨b1, b2, b3, b4, b5, b6, b7, b8⟩ := hb
  unfold V3.comb
  simp only
  have key : ∀ u w : ℝ, u ≤ 1 → w ≤ 1 → t * u + (1 - t) * w ≤ 1 := by
    intro u w hu hw; nlinarith [mul_le_mul_of_nonneg_left hu h0, mul_le_mul_of_nonneg_left hw h1']
  refine ⟨?_, ?_, ?_, ?_, ?_, ?_, ?_, ?_⟩
  · have := key _ _ a1 b1; linarith
  · have := key _ _ a2 b2; linarith
  · have := key _ _ a3 b3; linarith
  · have := key _ _ a4 b4; linarith
  · have := key _ _ a5 b5; linarith
  · have := key _ _ a6 b6; linarith
  · have := key _ _ a7 b7; linarith
  · have := key _ _ a8 b8; linarith

theorem octa_supports : Supports octa octaBody := by
  rintro a b c ⟨f, hf, ha, hb, hc⟩
  simp only [octa, List.mem_cons, List.not_mem_nil, or_false] at hf
  rcases hf with rfl | rfl | rfl | rfl | rfl | rfl | rfl | rfl <;>
  · simp only [octa, List.getElem?_cons_zero, List.getElem?_cons_succ, Option.some.injEq] at ha hb hc
    subst ha hb hc
    refine ⟨?_, ?_⟩
    · rintro p ⟨s, t, s0, s1, t0, t1, ex, ey, ez⟩
      rw [octaBody_iff, ex, ey, ez]
      simp only
      refine ⟨?_, ?_, ?_, ?_, ?_, ?_, ?_, ?_⟩ <;> linarith
    · first
        | (left
           intro p hp
           rw [octaBody_iff] at hp
           unfold V3.dot V3.cross V3.sub
           simp only
           linarith [hp.1, hp.2.1, hp.2.2.1, hp.2.2.2.1, hp.2.2.2.2.1, hp.2.2.2.2.2.1,
             hp.2.2.2.2.2.2.1, hp.2.2.2.2.2.2.2])
        | (right
           intro p hp
           rw [octaBody_iff] at hp
           unfold V3.dot V3.cross V3.sub
           simp only
           linarith [hp.1, hp.2.1, hp.2.2.1, hp.2.2.2.1, hp.2.2.2.2.1, hp.2.2.2.2.2.1,
             hp.2.2.2.2.2.2.1, hp.2.2.2.2.2.2.2])

/-- **C63 is false of the code**: the vertical line through the apex of the octahedron hits the first
two faces at the apex, the scan stops, and the centre of the octahedron is declared free. (The same
happens for any superquadric mesh on the vertical line through its centre.) -/
theorem C63_refuted : ¬ C63_claim := by
  intro h
  refine h octa octaBody ?_ octa_convex octa_supports ⟨0, 0, 0⟩ ?_ ?_
  · refine ⟨by simp [octa], ?_⟩
    intro f hf
    simp only [octa, List.mem_cons, List.not_mem_nil, or_false] at hf
    rcases hf with rfl | rfl | rfl | rfl | rfl | rfl | rfl | rfl <;> simp [octa]
  · refine ⟨-1 / 2, 1 / 2, by norm_num, by norm_num, ?_, ?_⟩ <;> rw [octaBody_iff] <;> norm_num
  · have sq3 : triTol * Real.sqrt 3 < 1 := by
      have : Real.sqrt 3 ≤ 2 := by
        rw [show (2 : ℝ) = Real.sqrt (2 ^ 2) from (Real.sqrt_sq (by norm_num)).symm]
        exact Real.sqrt_le_sqrt (by norm_num)
      unfold triTol at *; linarith
    have h1 : faceHit triTol (vertical 0 0 0) (⟨0, 0, 1⟩, ⟨1, 0, 0⟩, ⟨0, 1, 0⟩) = some ⟨0, 0, 1⟩ := by
      apply faceHit_complete triTol_pos.le triTol_lt
      · exact ⟨1, by simp [vertical]⟩
      · exact inTriangle_mono triTol_pos.le ⟨0, 0, by norm_num⟩
      · unfold Transversal vertical V3.norm V3.dot V3.cross V3.sub
        norm_num
        exact sq3
    have h2 : faceHit triTol (vertical 0 0 0) (⟨0, 0, 1⟩, ⟨0, 1, 0⟩, ⟨-1, 0, 0⟩) = some ⟨0, 0, 1⟩ := by
      apply faceHit_complete triTol_pos.le triTol_lt
      · exact ⟨1, by simp [vertical]⟩
      · exact inTriangle_mono triTol_pos.le ⟨0, 0, by norm_num⟩
      · unfold Transversal vertical V3.norm V3.dot V3.cross V3.sub
        norm_num
        exact sq3
    have hv : vertLineMesh triTol (vertical 0 0 0) octa = .ok [⟨0, 0, 1⟩, ⟨0, 0, 1⟩] := by
      have c1 : octa.corners (0, 1, 2) = .ok (⟨0, 0, 1⟩, ⟨1, 0, 0⟩, ⟨0, 1, 0⟩) := rfl
      have c2 : octa.corners (0, 2, 3) = .ok (⟨0, 0, 1⟩, ⟨0, 1, 0⟩, ⟨-1, 0, 0⟩) := rfl
      have r1 : ¬ faceOutOfRange (vertical 0 0 0) (⟨0, 0, 1⟩, ⟨1, 0, 0⟩, ⟨0, 1, 0⟩) := by
        unfold faceOutOfRange vertical; norm_num
      have r2 : ¬ faceOutOfRange (vertical 0 0 0) (⟨0, 0, 1⟩, ⟨0, 1, 0⟩, ⟨-1, 0, 0⟩) := by
        unfold faceOutOfRange vertical; norm_num
      unfold vertLineMesh
      rw [if_neg (by simp [octa]), if_neg]
      · have : octa.faces = (0, 1, 2) :: (0, 2, 3) :: [(0, 3, 4), (0, 4, 1), (5, 1, 2), (5, 2, 3),
          (5, 3, 4), (5, 4, 1)] := rfl
        rw [this]
        simp only [scanFaces, c1, c2, Res.bind_ok', if_neg r1, if_neg r2, h1, h2]
        simp
      · rintro (h | h) <;> rcases h with h | h
        · have := h ⟨1, 0, 0⟩ (by simp [octa]); simp [vertical] at this; norm_num at this
        · have := h ⟨-1, 0, 0⟩ (by simp [octa]); simp [vertical] at this; norm_num at this
        · have := h ⟨0, 1, 0⟩ (by simp [octa]); simp [vertical] at this; norm_num at this
        · have := h ⟨0, -1, 0⟩ (by simp [octa]); simp [vertical] at this; norm_num at this
    unfold isPtInCFree3D noneOf ptInObs3D
    simp only [hv, Res.bind_ok', Res.idx, List.isEmpty_cons, Bool.false_eq_true, if_false,
      List.getElem?_cons_zero, List.getElem?_cons_succ]
    simp [noneOf]

/-- **C63 (partial)** For a mesh whose faces support a convex body, if the two recorded hits differ and
are points of the body, then the recorded interval is exactly the slice of the body on that vertical
line. Missing (false, `C63_refuted`): lines whose first two hits coincide. -/
theorem C63_vertical_interval_partial (tol : ℝ) (htol : 0 ≤ tol) (x y z0 : ℝ) (m : Mesh)
    (hwf : m.WF) (C : V3 → Prop) (hC : ConvexSet C) (hS : Supports m C) (p0 p1 : V3)
    (h : vertLineMesh tol (vertical x y z0) m = .ok [p0, p1]) (h0 : C p0) (h1 : C p1)
    (hne : p0.z ≠ p1.z) :
    ∀ z, C ⟨x, y, z⟩ ↔ min p0.z p1.z ≤ z ∧ z ≤ max p0.z p1.z := by
  -- every hit bounds the slice on one side
  have key : ∀ p ∈ [p0, p1], p = ⟨x, y, p.z⟩ ∧
      ((∀ z, C ⟨x, y, z⟩ → z ≤ p.z) ∨ (∀ z, C ⟨x, y, z⟩ → p.z ≤ z)) := by
    intro p hp
    have hscan : ∃ f ∈ m.faces, ∃ a b c, m.vertices[f.1]? = some a ∧
        m.vertices[f.2.1]? = some b ∧ m.vertices[f.2.2]? = some c ∧
        faceHit tol (vertical x y z0) (a, b, c) = some p := by
      unfold vertLineMesh at h
      rw [if_neg hwf.1] at h
      split at h
      · simp at h
      · obtain ⟨pts, g1, -, -, g4, -⟩ := scanFaces_spec tol faceOutOfRange (vertical x y z0) m m.faces
          hwf.2 [] (by simp)
        rw [h] at g1
        obtain rfl := (Res.ok.injEq _ _).mp g1
        rcases g4 p hp with g | ⟨f, hf, a, b, c, ha, hb, hc, -, hh⟩
        · simp at g
        · exact ⟨f, hf, a, b, c, ha, hb, hc, hh⟩
    obtain ⟨f, hf, a, b, c, ha, hb, hc, hh⟩ := hscan
    obtain ⟨⟨τ, hτ⟩, -, htr, hplane⟩ := faceHit_some htol hh
    have hp' : p = ⟨x, y, p.z⟩ := by
      apply V3.ext
      · rw [hτ]; simp [vertical]
      · rw [hτ]; simp [vertical]
      · rfl
    refine ⟨hp', ?_⟩
    obtain ⟨-, hside⟩ := hS a b c ⟨f, hf, ha, hb, hc⟩
    set N := (b.sub a).cross (c.sub a) with hN
    have hNz : N.z ≠ 0 := by
      intro h0
      have : N.dot (vertical x y z0).d = 0 := by unfold V3.dot vertical; simp [h0]
      unfold Transversal at htr
      rw [← hN, this, abs_zero] at htr
      have := mul_nonneg htol (Real.sqrt_nonneg (N.dot N))
      unfold V3.norm at htr; linarith
    have hval : ∀ z, N.dot ((⟨x, y, z⟩ : V3).sub a) = N.z * (z - p.z) := by
      intro z
      have : N.dot (p.sub a) = 0 := hplane
      rw [hp'] at this
      unfold V3.dot V3.sub at *
      simp only at *
      linarith
    rcases hside with hs | hs
    · have hz : ∀ z, C ⟨x, y, z⟩ → 0 ≤ N.z * (z - p.z) := fun z hz => hval z ▸ hs _ hz
      rcases hNz.lt_or_gt with hlt | hgt
      · left; intro z hc'
        have := nonpos_of_mul_nonneg_right (hz z hc') hlt; linarith
      · right; intro z hc'
        have := nonneg_of_mul_nonneg_right (hz z hc') hgt; linarith
    · have hz : ∀ z, C ⟨x, y, z⟩ → N.z * (z - p.z) ≤ 0 := fun z hz => hval z ▸ hs _ hz
      rcases hNz.lt_or_gt with hlt | hgt
      · right; intro z hc'
        have := nonneg_of_mul_nonpos_right (hz z hc') hlt; linarith
      · left; intro z hc'
        have := nonpos_of_mul_nonpos_right (hz z hc') hgt; linarith
  obtain ⟨e0, s0⟩ := key p0 (by simp)
  obtain ⟨e1, s1⟩ := key p1 (by simp)
  have between : ∀ lo hi z : ℝ, C ⟨x, y, lo⟩ → C ⟨x, y, hi⟩ → lo < hi → lo ≤ z → z ≤ hi →
      C ⟨x, y, z⟩ := by
    intro lo hi z hlo hhi hlt h1 h2
    have hpos : 0 < hi - lo := by linarith
    have := hC _ _ ((hi - z) / (hi - lo)) hlo hhi (div_nonneg (by linarith) hpos.le)
      ((div_le_one hpos).2 (by linarith))
    have e : V3.comb ((hi - z) / (hi - lo)) ⟨x, y, lo⟩ ⟨x, y, hi⟩ = ⟨x, y, z⟩ := by
      unfold V3.comb
      apply V3.ext
      · simp only; ring
      · simp only; ring
      · simp only; field_simp; ring
    rw [e] at this; exact this
  have c0 : C ⟨x, y, p0.z⟩ := e0 ▸ h0
  have c1 : C ⟨x, y, p1.z⟩ := e1 ▸ h1
  intro z
  rcases lt_or_gt_of_ne hne with hlt | hlt
  · rw [min_eq_left hlt.le, max_eq_right hlt.le]
    refine ⟨fun hz => ⟨?_, ?_⟩, fun hz => between _ _ z c0 c1 hlt hz.1 hz.2⟩
    · rcases s0 with s | s
      · exact absurd (s _ c1) (not_le.2 hlt)
      · exact s z hz
    · rcases s1 with s | s
      · exact s z hz
      · exact absurd (s _ c0) (not_le.2 hlt)
  · rw [min_eq_right hlt.le, max_eq_left hlt.le]
    refine ⟨fun hz => ⟨?_, ?_⟩, fun hz => between _ _ z c1 c0 hlt hz.1 hz.2⟩
    · rcases s1 with s | s
      · exact absurd (s _ c0) (not_le.2 hlt)
      · exact s z hz
    · rcases s0 with s | s
      · exact s z hz
      · exact absurd (s _ c1) (not_le.2 hlt)

/-- What the two crossings of the vertical line through `v` must be for the point test to be exact. -/
def GoodVertical (tol : ℝ) (v : V3) (m : Mesh) (C : V3 → Prop) : Prop :=
  (vertLineMesh tol (vertical v.x v.y v.z) m = .ok [] ∧ ∀ z, ¬ C ⟨v.x, v.y, z⟩) ∨
  ∃ p0 p1 : V3, vertLineMesh tol (vertical v.x v.y v.z) m = .ok [p0, p1] ∧ C p0 ∧ C p1 ∧ p0.z ≠ p1.z

/-- **C63 (partial, point test)** For meshes supporting convex bodies, on a vertical line that misses a
body or crosses its mesh at two different points of the body, the point test returns, and rejects the point
exactly if it lies strictly between two points of one body on its vertical line. -/
theorem C63_point_test_partial (tol : ℝ) (htol : 0 ≤ tol) (v : V3) (bounds : List (Mesh × (V3 → Prop)))
    (hb : ∀ mc ∈ bounds, mc.1.WF ∧ ConvexSet mc.2 ∧ Supports mc.1 mc.2 ∧ GoodVertical tol v mc.1 mc.2) :
    ∃ r, isPtInCFree3D tol v (bounds.map Prod.fst) = .ok r ∧
      (r = false ↔ ∃ mc ∈ bounds, ∃ z1 z2, z1 < v.z ∧ v.z < z2 ∧
        mc.2 ⟨v.x, v.y, z1⟩ ∧ mc.2 ⟨v.x, v.y, z2⟩) := by
  have one : ∀ mc ∈ bounds, ∃ r, ptInObs3D tol v mc.1 = .ok r ∧
      (r = true ↔ ∃ z1 z2, z1 < v.z ∧ v.z < z2 ∧ mc.2 ⟨v.x, v.y, z1⟩ ∧ mc.2 ⟨v.x, v.y, z2⟩) := by
    intro mc hmc
    obtain ⟨hwf, hC, hS, hg⟩ := hb mc hmc
    rcases hg with ⟨h, hno⟩ | ⟨p0, p1, h, h0, h1, hne⟩
    · refine ⟨false, by simp [ptInObs3D, h], ?_⟩
      simp only [Bool.false_eq_true, false_iff]
      rintro ⟨z1, z2, -, -, h1, -⟩
      exact hno z1 h1
    · have hiff := C63_vertical_interval_partial tol htol v.x v.y v.z mc.1 hwf mc.2 hC hS p0 p1 h h0 h1 hne
      refine ⟨decide (v.z > min p0.z p1.z ∧ v.z < max p0.z p1.z), by
        simp only [ptInObs3D, h, Res.bind_ok', Res.idx, List.isEmpty_cons, Bool.false_eq_true,
          if_false, List.getElem?_cons_zero, List.getElem?_cons_succ], ?_⟩
      rw [decide_eq_true_iff]
      constructor
      · rintro ⟨a, b⟩
        exact ⟨_, _, a, b, (hiff _).2 ⟨le_rfl, min_le_max⟩, (hiff _).2 ⟨min_le_max, le_rfl⟩⟩
      · rintro ⟨z1, z2, a, b, c1, c2⟩
        exact ⟨((hiff _).1 c1).1.trans_lt a, b.trans_le ((hiff _).1 c2).2⟩
  unfold isPtInCFree3D
  clear hb
  induction bounds with
  | nil => exact ⟨true, rfl, by simp⟩
  | cons mc l ih =>
    obtain ⟨r, hr, hiff⟩ := one mc (by simp)
    obtain ⟨r', hr', hiff'⟩ := ih fun x hx => one x (by simp [hx])
    rw [List.map_cons, noneOf, hr, Res.bind_ok']
    cases r with
    | true =>
      refine ⟨false, rfl, ?_⟩
      simp only [true_iff]
      exact ⟨mc, by simp, hiff.1 rfl⟩
    | false =>
      refine ⟨r', hr', ?_⟩
      rw [hiff']
      simp only [List.mem_cons, exists_eq_or_imp]
      constructor
      · exact Or.inr
      · rintro (h | h)
        · exact absurd (hiff.2 h) (by simp)
        · exact h

/-! ### C22: the parametric mesh -/

theorem mem_gridQ {n q : ℕ} : q ∈ gridQ n ↔ ∃ i j, i + 1 < n ∧ j + 1 < n ∧ q = i * n + j := by
  unfold gridQ
  simp only [List.mem_flatMap, List.mem_map, List.mem_range]
  constructor
  · rintro ⟨i, hi, j, hj, rfl⟩; exact ⟨i, j, by omega, by omega, rfl⟩
  · rintro ⟨i, j, hi, hj, rfl⟩; exact ⟨i, by omega, j, by omega, rfl⟩

/-- **C22** For every `n ≥ 2` (vertex `(i,j)` of the parameter grid has number `i*n+j`): the faces are
exactly the two triangles `(i,j),(i+1,j),(i+1,j+1)` and `(i,j),(i,j+1),(i+1,j+1)` of each grid cell,
each occurring once; there are `2(n-1)²`; all indices are valid with three different corners; every
vertex is used. -/
theorem C22_param_mesh (n : ℕ) (hn : 2 ≤ n) :
    (∀ f, f ∈ gridFaces n ↔ ∃ i j, i + 1 < n ∧ j + 1 < n ∧
      (f = (i * n + j, (i + 1) * n + j, (i + 1) * n + (j + 1)) ∨
       f = (i * n + j, i * n + (j + 1), (i + 1) * n + (j + 1)))) ∧
    (gridFaces n).Nodup ∧
    (gridFaces n).length = 2 * (n - 1) ^ 2 ∧
    (∀ f ∈ gridFaces n, f.1 < n * n ∧ f.2.1 < n * n ∧ f.2.2 < n * n ∧
      f.1 ≠ f.2.1 ∧ f.1 ≠ f.2.2 ∧ f.2.1 ≠ f.2.2) ∧
    (∀ v < n * n, ∃ f ∈ gridFaces n, v = f.1 ∨ v = f.2.1 ∨ v = f.2.2) := by
  have hmem : ∀ f, f ∈ gridFaces n ↔ ∃ i j, i + 1 < n ∧ j + 1 < n ∧
      (f = (i * n + j, (i + 1) * n + j, (i + 1) * n + (j + 1)) ∨
       f = (i * n + j, i * n + (j + 1), (i + 1) * n + (j + 1))) := by
    intro f
    unfold gridFaces
    simp only [List.mem_append, List.mem_map, mem_gridQ]
    constructor
    · rintro (⟨q, ⟨i, j, hi, hj, rfl⟩, rfl⟩ | ⟨q, ⟨i, j, hi, hj, rfl⟩, rfl⟩)
      · exact ⟨i, j, hi, hj, Or.inl (by rw [Prod.mk.injEq, Prod.mk.injEq]; refine ⟨rfl, ?_, ?_⟩ <;> ring)⟩
      · exact ⟨i, j, hi, hj, Or.inr (by rw [Prod.mk.injEq, Prod.mk.injEq]; refine ⟨rfl, ?_, ?_⟩ <;> ring)⟩
    · rintro ⟨i, j, hi, hj, rfl | rfl⟩
      · exact Or.inl ⟨_, ⟨i, j, hi, hj, rfl⟩, by
          rw [Prod.mk.injEq, Prod.mk.injEq]; refine ⟨rfl, ?_, ?_⟩ <;> ring⟩
      · exact Or.inr ⟨_, ⟨i, j, hi, hj, rfl⟩, by
          rw [Prod.mk.injEq, Prod.mk.injEq]; refine ⟨rfl, ?_, ?_⟩ <;> ring⟩
  have hq : (gridQ n).Nodup := by
    unfold gridQ
    rw [List.nodup_flatMap]
    refine ⟨fun i _ => List.Nodup.map (fun a b h => by simpa using h) List.nodup_range, ?_⟩
    refine List.Pairwise.imp_of_mem ?_ (List.nodup_range (n := n - 1))
    intro i i' hi hi' hne
    rw [Function.onFun, List.disjoint_left]
    intro x hx hx'
    simp only [List.mem_map, List.mem_range] at hx hx' hi hi'
    obtain ⟨j, hj, rfl⟩ := hx
    obtain ⟨j', hj', e⟩ := hx'
    have h1 : (i * n + j) / n = i := by
      rw [Nat.mul_comm, Nat.mul_add_div (by omega), Nat.div_eq_of_lt (by omega)]; omega
    have h2 : (i' * n + j') / n = i' := by
      rw [Nat.mul_comm, Nat.mul_add_div (by omega), Nat.div_eq_of_lt (by omega)]; omega
    rw [e] at h2; exact hne (h1.symm.trans h2)
  have hlen : (gridQ n).length = (n - 1) ^ 2 := by
    unfold gridQ
    simp only [List.length_flatMap, List.length_map, List.length_range, List.map_const',
      List.sum_replicate, smul_eq_mul]
    ring
  refine ⟨hmem, ?_, ?_, ?_, ?_⟩
  · unfold gridFaces
    rw [List.nodup_append']
    refine ⟨hq.map (fun a b h => by simpa using (Prod.mk.inj h).1),
      hq.map (fun a b h => by simpa using (Prod.mk.inj h).1), ?_⟩
    rw [List.disjoint_left]
    intro f h1 h2
    simp only [List.mem_map] at h1 h2
    obtain ⟨q, -, rfl⟩ := h1
    obtain ⟨q', -, e⟩ := h2
    simp only [Prod.mk.injEq] at e
    omega
  · unfold gridFaces
    rw [List.length_append, List.length_map, List.length_map, hlen]; ring
  · intro f hf
    rw [hmem] at hf
    obtain ⟨i, j, hi, hj, h⟩ := hf
    have h1 : (i + 1 + 1) * n ≤ n * n := Nat.mul_le_mul_right n (by omega)
    have e1 : (i + 1 + 1) * n = i * n + n + n := by ring
    have e2 : (i + 1) * n = i * n + n := by ring
    rcases h with rfl | rfl <;> simp only [e2] <;> omega
  · intro v hv
    have hdm := Nat.div_add_mod v n
    have hj : v % n < n := Nat.mod_lt _ (by omega)
    have hi : v / n < n := Nat.div_lt_of_lt_mul hv
    generalize v / n = i at *
    generalize v % n = j at *
    subst hdm
    rcases Nat.lt_or_ge (i + 1) n with h1 | h1 <;> rcases Nat.lt_or_ge (j + 1) n with h2 | h2
    · exact ⟨_, (hmem _).2 ⟨i, j, h1, h2, Or.inl rfl⟩, Or.inl (by ring)⟩
    · refine ⟨_, (hmem _).2 ⟨i, j - 1, h1, by omega, Or.inr rfl⟩, Or.inr (Or.inl ?_)⟩
      simp only; rw [Nat.mul_comm]; omega
    · refine ⟨_, (hmem _).2 ⟨i - 1, j, by omega, h2, Or.inl rfl⟩, Or.inr (Or.inl ?_)⟩
      simp only; rw [Nat.sub_add_cancel (by omega), Nat.mul_comm]
    · refine ⟨_, (hmem _).2 ⟨i - 1, j - 1, by omega, by omega, Or.inl rfl⟩, Or.inr (Or.inr ?_)⟩
      simp only; rw [Nat.sub_add_cancel (by omega), Nat.sub_add_cancel (by omega), Nat.mul_comm]

/-- Consequence used by the mesh routines: a surface of `n*n` points gives a well-formed mesh. -/
theorem C22_grid_mesh_wf (n : ℕ) (hn : 2 ≤ n) (surf : List V3) (hs : surf.length = n * n) :
    (gridMesh surf n).WF := by
  refine ⟨?_, fun f hf => ?_⟩
  · intro h; simp only [gridMesh] at h; rw [h] at hs; simp at hs; omega
  · obtain ⟨a, b, c, -⟩ := (C22_param_mesh n hn).2.2.2.1 f hf
    simp only [gridMesh]; rw [hs]; exact ⟨a, b, c⟩

/-- Each interior grid edge along the second parameter is shared by exactly the two cells beside it: the
triangle "below" and the triangle "above" (so the surface has no gaps between cells). -/
theorem C22_no_gaps (n : ℕ) (i j : ℕ) (hi : i + 2 < n) (hj : j + 1 < n) :
    ((i * n + j, (i + 1) * n + j, (i + 1) * n + (j + 1)) ∈ gridFaces n ∧
     ((i + 1) * n + j, (i + 1) * n + (j + 1), (i + 2) * n + (j + 1)) ∈ gridFaces n) ∧
    ((j * n + i, j * n + (i + 1), (j + 1) * n + (i + 1)) ∈ gridFaces n ∧
     (j * n + (i + 1), (j + 1) * n + (i + 1), (j + 1) * n + (i + 2)) ∈ gridFaces n) := by
  have hm := (C22_param_mesh n (by omega)).1
  refine ⟨⟨(hm _).2 ⟨i, j, by omega, hj, Or.inl rfl⟩, (hm _).2 ⟨i + 1, j, by omega, hj, Or.inr rfl⟩⟩,
    ⟨(hm _).2 ⟨j, i, hj, by omega, Or.inr rfl⟩, (hm _).2 ⟨j, i + 1, hj, by omega, Or.inl rfl⟩⟩⟩

example : gridFaces 2 = [(0, 2, 3), (0, 1, 3)] := by decide

/-! ### C64: the 3D same-slice transition check -/

/-- Convexity along a line: parameters between two members are members. -/
theorem convex_between {C : V3 → Prop} (hC : ConvexSet C) (o d : V3) {lo hi z : ℝ}
    (hlo : C (o.add (V3.smul lo d))) (hhi : C (o.add (V3.smul hi d))) (h1 : lo ≤ z) (h2 : z ≤ hi) :
    C (o.add (V3.smul z d)) := by
  rcases eq_or_lt_of_le (h1.trans h2) with e | hlt
  · have : z = lo := by linarith
    rwa [this]
  · have hpos : 0 < hi - lo := by linarith
    have := hC _ _ ((hi - z) / (hi - lo)) hlo hhi (div_nonneg (by linarith) hpos.le)
      ((div_le_one hpos).2 (by linarith))
    have e : V3.comb ((hi - z) / (hi - lo)) (o.add (V3.smul lo d)) (o.add (V3.smul hi d)) =
        o.add (V3.smul z d) := by
      have hne := hpos.ne'
      unfold V3.comb V3.add V3.smul
      ext <;> simp only <;> field_simp <;> ring
    rwa [e] at this

/-- The line the check builds from `t1` to `t2`. -/
noncomputable def segLine (t1 t2 : V3) : Line3 := ⟨t1, (t2.sub t1).normalize⟩

theorem segLine_param {t1 t2 : V3} (hne : t1 ≠ t2) : ∃ L, 0 < L ∧
    t2 = t1.add (V3.smul L (segLine t1 t2).d) ∧ (segLine t1 t2).d.dot (segLine t1 t2).d = 1 := by
  have hpos : 0 < (t2.sub t1).dot (t2.sub t1) := by
    by_contra h
    obtain ⟨h1, h2, h3⟩ := V3.eq_zero_of_dot_self h
    unfold V3.sub at h1 h2 h3
    exact hne (V3.ext (by linarith) (by linarith) (by linarith))
  have hn := V3.norm_pos hpos
  refine ⟨(t2.sub t1).norm, hn, ?_, ?_⟩
  · unfold segLine V3.normalize
    rw [if_pos hpos]
    have hne' := hn.ne'
    generalize (t2.sub t1).norm = L at *
    unfold V3.add V3.smul V3.sub
    ext <;> simp only <;> field_simp <;> ring
  · have := V3.normalize_norm hpos
    have h2 := V3.norm_sq (t2.sub t1).normalize
    rw [this] at h2
    unfold segLine; simp only; linarith

/-- An accepted segment crosses no face of a convex boundary mesh: `C'` is any convex set containing the
(tolerance-relaxed) faces and not the end points. -/
theorem segHitsMesh_not_false (tol axisTol : ℝ) (htol : 0 ≤ tol) (htol1 : tol < 1) (m : Mesh)
    (hwf : m.WF) (C' : V3 → Prop) (hC' : ConvexSet C')
    (hfaces : ∀ a b c p, m.HasFace a b c → InTriangle tol a b c p → C' p) (t1 t2 : V3)
    (h1 : ¬ C' t1) (h2 : ¬ C' t2)
    (hax : ∀ w ∈ [(segLine t1 t2).d.x, (segLine t1 t2).d.y, (segLine t1 t2).d.z],
      w = 0 ∨ axisTol ≤ |w|)
    (a b c p : V3) (hf : m.HasFace a b c) (hin : InTriangle 0 a b c p) (s : ℝ) (hs0 : 0 ≤ s)
    (hs1 : s ≤ 1) (hp : p = V3.comb s t1 t2) (htr : Transversal tol (segLine t1 t2) a b c) :
    segHitsMesh tol axisTol t1 t2 m ≠ .ok false := by
  have hpC : C' p := hfaces a b c p hf (inTriangle_mono htol hin)
  have hne : t1 ≠ t2 := by
    rintro rfl
    apply h1
    have : V3.comb s t1 t1 = t1 := by unfold V3.comb; ext <;> simp only <;> ring
    rwa [hp, this] at hpC
  obtain ⟨L, hL, ht2, hdd⟩ := segLine_param hne
  have hpl : p = t1.add (V3.smul ((1 - s) * L) (segLine t1 t2).d) := by
    rw [hp]
    have hx := congrArg V3.x ht2; have hy := congrArg V3.y ht2; have hz := congrArg V3.z ht2
    unfold V3.comb V3.add V3.smul at *
    simp only at *
    ext <;> simp only
    · rw [hx]; ring
    · rw [hy]; ring
    · rw [hz]; ring
  obtain ⟨pts, e1, e2, -⟩ := C20_mesh_complete_partial tol axisTol htol htol1 (segLine t1 t2)
    ⟨hax _ (by simp), hax _ (by simp), hax _ (by simp)⟩ m hwf a b c p hf
    ⟨(1 - s) * L, hpl⟩ hin htr
  obtain ⟨pts', e1', -, hall⟩ := C20_mesh_sound tol axisTol htol (segLine t1 t2) m hwf
  rw [e1] at e1'
  obtain rfl := (Res.ok.injEq _ _).mp e1'
  intro hcon
  unfold segHitsMesh at hcon
  rw [show (⟨t1, (t2.sub t1).normalize⟩ : Line3) = segLine t1 t2 from rfl, e1] at hcon
  rw [Res.bind_ok', if_neg (by simpa using e2)] at hcon
  match pts, e2 with
  | [], e2 => exact e2 rfl
  | [r], _ => simp [Res.idx] at hcon
  | r :: r' :: rest, _ =>
    simp only [Res.idx, List.getElem?_cons_zero, List.getElem?_cons_succ, Res.bind_ok', Res.ok.injEq,
      decide_eq_false_iff_not, not_or, not_lt] at hcon
    obtain ⟨⟨τ, hτ⟩, a', b', c', hf', hin'⟩ := hall r (by simp)
    have hrC := hfaces _ _ _ _ hf' hin'
    have hr : r = t1.add (V3.smul τ (segLine t1 t2).d) := hτ
    have hval : (r.sub t1).dot (r.sub t2) = τ * (τ - L) := by
      have e : (r.sub t1).dot (r.sub t2) = τ * (τ - L) * (segLine t1 t2).d.dot (segLine t1 t2).d := by
        rw [hr]
        generalize (segLine t1 t2).d = d at ht2
        rw [ht2]
        unfold V3.dot V3.sub V3.add V3.smul; simp only; ring
      rw [e, hdd, mul_one]
    have hτ0 : 0 < τ := by
      by_contra h
      apply h1
      have := convex_between hC' t1 (segLine t1 t2).d (hr ▸ hrC) (hpl ▸ hpC) (not_lt.1 h)
        (mul_nonneg (by linarith) hL.le)
      have e : t1.add (V3.smul 0 (segLine t1 t2).d) = t1 := by
        unfold V3.add V3.smul; ext <;> simp only <;> ring
      rwa [e] at this
    have hτL : τ < L := by
      by_contra h
      apply h2
      have := convex_between hC' t1 (segLine t1 t2).d (hpl ▸ hpC) (hr ▸ hrC)
        (show (1 - s) * L ≤ L by nlinarith) (not_lt.1 h)
      rwa [← ht2] at this
    have := hcon.1
    rw [hval] at this
    nlinarith

/-- The mesh surface closes off `C`: every segment from a point of `C` to a point outside `C'` meets a
face. -/
def Watertight (m : Mesh) (C C' : V3 → Prop) : Prop :=
  ∀ p q, C p → ¬ C' q → ∃ a b c s, m.HasFace a b c ∧ 0 ≤ s ∧ s ≤ 1 ∧ InTriangle 0 a b c (V3.comb s p q)

/-- The claim C64 (for the constants of the code): a transition accepted by the 3D same-slice check has
no point in an obstacle body. `C` is the body, `C'` a convex body around it that contains the
tolerance-relaxed faces; the end points are outside `C'`. -/
def C64_claim : Prop :=
  ∀ (obstacles : List Mesh) (t1 t2 : V3), sameSliceFree3D triTol axisTol obstacles t1 t2 = .ok true →
    ∀ m ∈ obstacles, m.WF → ∀ C C' : V3 → Prop, ConvexSet C' → Watertight m C C' →
      (∀ a b c p, m.HasFace a b c → InTriangle triTol a b c p → C' p) → ¬ C' t1 → ¬ C' t2 →
      ∀ s, 0 ≤ s → s ≤ 1 → ¬ C (V3.comb s t1 t2)

theorem noneOf_true {β : Type*} {p : β → Res Bool} {l : List β} (h : noneOf p l = .ok true) :
    ∀ b ∈ l, p b = .ok false := by
  induction l with
  | nil => simp
  | cons a l ih =>
    unfold noneOf at h
    cases ha : p a with
    | ok v =>
      rw [ha, Res.bind_ok'] at h
      cases v with
      | false =>
        simp only [Bool.false_eq_true, if_false] at h
        intro b hb
        rcases List.mem_cons.1 hb with rfl | hb
        · exact ha
        · exact ih h b hb
      | true => simp at h
    | throw => rw [ha] at h; simp at h
    | ub => rw [ha] at h; simp at h

/-- **C64 (partial)** Accepted same-slice transitions avoid every obstacle body, for segments whose
direction has no tiny non-zero component (the filter of C20) and is not parallel (within the tolerance)
to a face of that obstacle. -/
theorem C64_transition3D_avoids_partial (tol axisTol : ℝ) (htol : 0 ≤ tol) (htol1 : tol < 1)
    (obstacles : List Mesh) (t1 t2 : V3)
    (hacc : sameSliceFree3D tol axisTol obstacles t1 t2 = .ok true)
    (hax : ∀ w ∈ [(segLine t1 t2).d.x, (segLine t1 t2).d.y, (segLine t1 t2).d.z],
      w = 0 ∨ axisTol ≤ |w|)
    (m : Mesh) (hm : m ∈ obstacles) (hwf : m.WF) (C C' : V3 → Prop) (hC' : ConvexSet C')
    (hw : Watertight m C C')
    (hfaces : ∀ a b c p, m.HasFace a b c → InTriangle tol a b c p → C' p)
    (h1 : ¬ C' t1) (h2 : ¬ C' t2)
    (htr : ∀ a b c, m.HasFace a b c → Transversal tol (segLine t1 t2) a b c)
    (s : ℝ) (hs0 : 0 ≤ s) (hs1 : s ≤ 1) : ¬ C (V3.comb s t1 t2) := by
  intro hC
  obtain ⟨a, b, c, s', hf, h0, h1', hin⟩ := hw _ t1 hC h1
  have hfree := noneOf_true hacc m hm
  have e : V3.comb s' (V3.comb s t1 t2) t1 = V3.comb (1 - s' * (1 - s)) t1 t2 := by
    unfold V3.comb; ext <;> simp only <;> ring
  rw [e] at hin
  exact segHitsMesh_not_false tol axisTol htol htol1 m hwf C' hC' hfaces t1 t2 h1 h2 hax a b c _ hf hin
    _ (by nlinarith [mul_le_one₀ h1' (by linarith : 0 ≤ 1 - s) (by linarith)])
    (by nlinarith [mul_nonneg h0 (by linarith : 0 ≤ 1 - s)]) rfl (htr a b c hf) hfree

/-- The octahedron of radius `1 + 6 tol`. -/
def octaBody' (tol : ℝ) (p : V3) : Prop := |p.x| + |p.y| + |p.z| ≤ 1 + 6 * tol

theorem octa_convex' (tol : ℝ) : ConvexSet (octaBody' tol) := by
  intro a b t ha hb h0 h1
  unfold octaBody' V3.comb at *
  simp only
  have h1' : 0 ≤ 1 - t := by linarith
  have key : ∀ u w : ℝ, |t * u + (1 - t) * w| ≤ t * |u| + (1 - t) * |w| := by
    intro u w
    calc |t * u + (1 - t) * w| ≤ |t * u| + |(1 - t) * w| := abs_add_le _ _
      _ = t * |u| + (1 - t) * |w| := by rw [abs_mul, abs_mul, abs_of_nonneg h0, abs_of_nonneg h1']
  have := key a.x b.x; have := key a.y b.y; have := key a.z b.z
  nlinarith [mul_le_mul_of_nonneg_left ha h0, mul_le_mul_of_nonneg_left hb h1']

theorem octa_faces' (tol : ℝ) (htol : 0 ≤ tol) (a b c p : V3) (hf : octa.HasFace a b c)
    (hin : InTriangle tol a b c p) : octaBody' tol p := by
  obtain ⟨f, hf, ha, hb, hc⟩ := hf
  obtain ⟨s, t, s0, s1, t0, t1, ex, ey, ez⟩ := hin
  simp only [octa, List.mem_cons, List.not_mem_nil, or_false] at hf
  have b1 : |s| + |t| + |1 - s - t| ≤ 1 + 6 * tol := by
    rcases abs_cases s with ⟨e, _⟩ | ⟨e, _⟩ <;> rcases abs_cases t with ⟨e', _⟩ | ⟨e', _⟩ <;>
      rcases abs_cases (1 - s - t) with ⟨e'', _⟩ | ⟨e'', _⟩ <;> rw [e, e', e''] <;> linarith
  unfold octaBody'
  have n1 : |-s| = |s| := abs_neg s
  have n2 : |-t| = |t| := abs_neg t
  have n3 : |-(1 - s - t)| = |1 - s - t| := abs_neg _
  rcases hf with rfl | rfl | rfl | rfl | rfl | rfl | rfl | rfl <;>
  · simp only [octa, List.getElem?_cons_zero, List.getElem?_cons_succ, Option.some.injEq] at ha hb hc
    subst ha hb hc
    simp only at ex ey ez
    ring_nf at ex ey ez n1 n2 n3 b1 ⊢
    rw [ex, ey, ez]
    linarith

theorem octa_watertight (tol : ℝ) (htol : 0 ≤ tol) : Watertight octa octaBody (octaBody' tol) := by
  intro p q hp hq
  unfold octaBody octaBody' at *
  let g : ℝ → ℝ := fun s => |s * p.x + (1 - s) * q.x| + |s * p.y + (1 - s) * q.y| +
    |s * p.z + (1 - s) * q.z|
  have hg : Continuous g := by fun_prop
  have hmem : (1 : ℝ) ∈ Set.Icc (g 1) (g 0) := by
    constructor
    · simp only [g]; ring_nf; exact hp
    · simp only [g]; ring_nf; linarith [not_le.1 hq]
  obtain ⟨s, ⟨s0, s1⟩, hs⟩ := intermediate_value_Icc' (zero_le_one) hg.continuousOn hmem
  have main : ∀ r : V3, |r.x| + |r.y| + |r.z| = 1 → ∃ a b c, octa.HasFace a b c ∧ InTriangle 0 a b c r := by
    intro r hr
    rcases abs_cases r.x with ⟨ex, hx⟩ | ⟨ex, hx⟩ <;> rcases abs_cases r.y with ⟨ey, hy⟩ | ⟨ey, hy⟩ <;>
      rcases abs_cases r.z with ⟨ez, hz⟩ | ⟨ez, hz⟩ <;> rw [ex, ey, ez] at hr
    all_goals
      first
      | (refine ⟨_, _, _, ⟨(0, 1, 2), by simp [octa], rfl, rfl, rfl⟩, |r.x|, |r.y|, ?_⟩
         rw [ex, ey]
         refine ⟨?_, ?_, ?_, ?_, ?_, ?_, ?_⟩ <;> simp <;> linarith)
      | (refine ⟨_, _, _, ⟨(0, 2, 3), by simp [octa], rfl, rfl, rfl⟩, |r.y|, |r.x|, ?_⟩
         rw [ex, ey]
         refine ⟨?_, ?_, ?_, ?_, ?_, ?_, ?_⟩ <;> simp <;> linarith)
      | (refine ⟨_, _, _, ⟨(0, 3, 4), by simp [octa], rfl, rfl, rfl⟩, |r.x|, |r.y|, ?_⟩
         rw [ex, ey]
         refine ⟨?_, ?_, ?_, ?_, ?_, ?_, ?_⟩ <;> simp <;> linarith)
      | (refine ⟨_, _, _, ⟨(0, 4, 1), by simp [octa], rfl, rfl, rfl⟩, |r.y|, |r.x|, ?_⟩
         rw [ex, ey]
         refine ⟨?_, ?_, ?_, ?_, ?_, ?_, ?_⟩ <;> simp <;> linarith)
      | (refine ⟨_, _, _, ⟨(5, 1, 2), by simp [octa], rfl, rfl, rfl⟩, |r.x|, |r.y|, ?_⟩
         rw [ex, ey]
         refine ⟨?_, ?_, ?_, ?_, ?_, ?_, ?_⟩ <;> simp <;> linarith)
      | (refine ⟨_, _, _, ⟨(5, 2, 3), by simp [octa], rfl, rfl, rfl⟩, |r.y|, |r.x|, ?_⟩
         rw [ex, ey]
         refine ⟨?_, ?_, ?_, ?_, ?_, ?_, ?_⟩ <;> simp <;> linarith)
      | (refine ⟨_, _, _, ⟨(5, 3, 4), by simp [octa], rfl, rfl, rfl⟩, |r.x|, |r.y|, ?_⟩
         rw [ex, ey]
         refine ⟨?_, ?_, ?_, ?_, ?_, ?_, ?_⟩ <;> simp <;> linarith)
      | (refine ⟨_, _, _, ⟨(5, 4, 1), by simp [octa], rfl, rfl, rfl⟩, |r.y|, |r.x|, ?_⟩
         rw [ex, ey]
         refine ⟨?_, ?_, ?_, ?_, ?_, ?_, ?_⟩ <;> simp <;> linarith)
  obtain ⟨a, b, c, hf, hin⟩ := main (V3.comb s p q) hs
  exact ⟨a, b, c, s, hf, s0, s1, hin⟩


theorem octa_WF : octa.WF := by
  refine ⟨by simp [octa], ?_⟩
  intro f hf
  simp only [octa, List.mem_cons, List.not_mem_nil, or_false] at hf
  rcases hf with rfl | rfl | rfl | rfl | rfl | rfl | rfl | rfl <;> simp [octa]

/-- **C64 is false of the code**: the segment from (3/2, 0, 3000000) to (-3/2, 0, -3000000) passes
through the centre of the octahedron and is accepted, because its direction has an x-component below
1e-6 and its start is outside the x-range of the mesh. -/
theorem C64_refuted : ¬ C64_claim := by
  intro h
  set t1 : V3 := ⟨3 / 2, 0, 3000000⟩ with ht1
  set t2 : V3 := ⟨-3 / 2, 0, -3000000⟩ with ht2
  have tl : triTol < 1 / 100 := by unfold triTol; norm_num
  refine h [octa] t1 t2 ?_ octa (by simp) octa_WF octaBody (octaBody' triTol) (octa_convex' _)
    (octa_watertight _ triTol_pos.le) (octa_faces' _ triTol_pos.le) ?_ ?_ (1 / 2) (by norm_num)
    (by norm_num) ?_
  · have hl : lineMesh triTol axisTol ⟨t1, (t2.sub t1).normalize⟩ octa = .ok [] := by
      unfold lineMesh
      rw [if_neg (by simp [octa]), if_pos]
      left
      refine ⟨?_, Or.inl ?_⟩
      · have hd : (t2.sub t1).dot (t2.sub t1) = 36000000000009 := by
          rw [ht1, ht2]; unfold V3.dot V3.sub; norm_num
        have hs : (6000000 : ℝ) ≤ (t2.sub t1).norm := by
          unfold V3.norm; rw [hd]; apply Real.le_sqrt_of_sq_le; norm_num
        have hx : (t2.sub t1).normalize.x = -3 / (t2.sub t1).norm := by
          unfold V3.normalize; rw [if_pos (by rw [hd]; norm_num)]
          unfold V3.smul
          have : (t2.sub t1).x = -3 := by rw [ht1, ht2]; unfold V3.sub; norm_num
          simp only [this]; ring
        simp only [hx]
        rw [abs_div, abs_of_pos (a := (t2.sub t1).norm) (by linarith), div_lt_iff₀ (by linarith)]
        unfold axisTol
        norm_num
        linarith
      · intro v hv
        simp only [octa, List.mem_cons, List.not_mem_nil, or_false] at hv
        rcases hv with rfl | rfl | rfl | rfl | rfl | rfl <;> simp [ht1] <;> norm_num
    unfold sameSliceFree3D noneOf segHitsMesh
    rw [hl]
    simp [noneOf]
  · unfold octaBody'; rw [ht1]; norm_num; linarith
  · unfold octaBody'; rw [ht2]; norm_num; linarith
  · unfold octaBody V3.comb; rw [ht1, ht2]; norm_num

/-- A slanted segment at height 2 above the octahedron: it is accepted and meets all hypotheses of
`C64_transition3D_avoids_partial`. -/
example : let t1 : V3 := ⟨-3, -6, 2⟩; let t2 : V3 := ⟨3, 6, 2⟩
    sameSliceFree3D triTol axisTol [octa] t1 t2 = .ok true ∧
    (∀ w ∈ [(segLine t1 t2).d.x, (segLine t1 t2).d.y, (segLine t1 t2).d.z], w = 0 ∨ axisTol ≤ |w|) ∧
    (∀ a b c, octa.HasFace a b c → Transversal triTol (segLine t1 t2) a b c) ∧
    ¬ octaBody' triTol t1 ∧ ¬ octaBody' triTol t2 := by
  intro t1 t2
  have tl : triTol < 1 / 100 := by unfold triTol; norm_num
  have hd : (t2.sub t1).dot (t2.sub t1) = 180 := by
    simp only [t1, t2]; unfold V3.dot V3.sub; norm_num
  have hs0 : (0 : ℝ) < Real.sqrt 180 := Real.sqrt_pos.2 (by norm_num)
  have hs1 : Real.sqrt 180 ≤ 20 := by
    rw [Real.sqrt_le_left (by norm_num)]; norm_num
  have hdir : (segLine t1 t2).d = ⟨6 / Real.sqrt 180, 12 / Real.sqrt 180, 0⟩ := by
    unfold segLine V3.normalize
    rw [if_pos (by rw [hd]; norm_num)]
    unfold V3.norm; rw [hd]
    simp only [t1, t2, V3.smul, V3.sub]
    ext <;> simp only <;> ring
  refine ⟨?_, ?_, ?_, ?_, ?_⟩
  · have hl : lineMesh triTol axisTol ⟨t1, (t2.sub t1).normalize⟩ octa = .ok [] := by
      unfold lineMesh
      rw [if_neg (by simp [octa]), if_pos]
      right; right
      have hz : (t2.sub t1).normalize.z = 0 := congrArg V3.z hdir
      simp only [hz]
      refine ⟨by rw [abs_zero]; unfold axisTol; norm_num, Or.inl ?_⟩
      intro v hv
      simp only [octa, List.mem_cons, List.not_mem_nil, or_false] at hv
      rcases hv with rfl | rfl | rfl | rfl | rfl | rfl <;> simp [t1] <;> norm_num
    unfold sameSliceFree3D noneOf segHitsMesh
    rw [hl]
    simp [noneOf]
  · have key : ∀ k : ℝ, 1 ≤ k → axisTol ≤ |k / Real.sqrt 180| := by
      intro k hk
      rw [abs_of_pos (by positivity), le_div_iff₀ hs0]
      unfold axisTol; nlinarith
    rw [hdir]
    intro w hw
    simp only [List.mem_cons, List.not_mem_nil, or_false] at hw
    rcases hw with rfl | rfl | rfl
    · exact Or.inr (key _ (by norm_num))
    · exact Or.inr (key _ (by norm_num))
    · exact Or.inl rfl
  · rintro a b c ⟨f, hf, ha, hb, hc⟩
    have sq3 : triTol * Real.sqrt 3 < 6 / Real.sqrt 180 := by
      have h3 : Real.sqrt 3 ≤ 2 := by rw [Real.sqrt_le_left (by norm_num)]; norm_num
      rw [lt_div_iff₀ hs0]
      have : triTol * Real.sqrt 3 ≤ 1 / 100 * 2 :=
        mul_le_mul tl.le h3 (Real.sqrt_nonneg _) (by norm_num)
      nlinarith [mul_nonneg triTol_pos.le (Real.sqrt_nonneg 3)]
    have e12 : 12 / Real.sqrt 180 = 2 * (6 / Real.sqrt 180) := by ring
    have hpos : 0 < 6 / Real.sqrt 180 := by positivity
    simp only [octa, List.mem_cons, List.not_mem_nil, or_false] at hf
    unfold Transversal
    rw [hdir]
    generalize 6 / Real.sqrt 180 = q at *
    rw [e12]
    rcases hf with rfl | rfl | rfl | rfl | rfl | rfl | rfl | rfl <;>
    · simp only [octa, List.getElem?_cons_zero, List.getElem?_cons_succ, Option.some.injEq] at ha hb hc
      subst ha hb hc
      unfold V3.norm V3.dot V3.cross V3.sub
      norm_num
      rw [lt_abs]
      first
        | (left; linarith)
        | (right; linarith)
  · simp only [octaBody', t1]; norm_num; linarith
  · simp only [octaBody', t2]; norm_num; linarith

/-- Witness for `C63_vertical_interval_partial` and `C63_point_test_partial`: the vertical line through
`(1/4, 1/8)` crosses the octahedron at the heights `±5/8`. -/
theorem octa_good_vertical (z : ℝ) : octa.WF ∧ ConvexSet octaBody ∧ Supports octa octaBody ∧
    GoodVertical triTol ⟨1 / 4, 1 / 8, z⟩ octa octaBody := by
  refine ⟨octa_WF, octa_convex, octa_supports, Or.inr ⟨⟨1 / 4, 1 / 8, 5 / 8⟩, ⟨1 / 4, 1 / 8, -5 / 8⟩, ?_, ?_, ?_,
    by norm_num⟩⟩
  · have sq3 : triTol * Real.sqrt 3 < 1 := by
      have : Real.sqrt 3 ≤ 2 := by
        rw [show (2 : ℝ) = Real.sqrt (2 ^ 2) from (Real.sqrt_sq (by norm_num)).symm]
        exact Real.sqrt_le_sqrt (by norm_num)
      unfold triTol at *; linarith
    have h1 : faceHit triTol (vertical (1 / 4) (1 / 8) z) (⟨0, 0, 1⟩, ⟨1, 0, 0⟩, ⟨0, 1, 0⟩) =
        some ⟨1 / 4, 1 / 8, 5 / 8⟩ := by
      apply faceHit_complete triTol_pos.le triTol_lt
      · exact ⟨5 / 8 - z, by simp [vertical]⟩
      · exact inTriangle_mono triTol_pos.le ⟨1 / 4, 1 / 8, by norm_num⟩
      · unfold Transversal vertical V3.norm V3.dot V3.cross V3.sub
        norm_num
        exact sq3
    have h2 : faceHit triTol (vertical (1 / 4) (1 / 8) z) (⟨0, 0, -1⟩, ⟨1, 0, 0⟩, ⟨0, 1, 0⟩) =
        some ⟨1 / 4, 1 / 8, -5 / 8⟩ := by
      apply faceHit_complete triTol_pos.le triTol_lt
      · exact ⟨-5 / 8 - z, by simp [vertical]⟩
      · exact inTriangle_mono triTol_pos.le ⟨1 / 4, 1 / 8, by norm_num⟩
      · unfold Transversal vertical V3.norm V3.dot V3.cross V3.sub
        norm_num
        exact sq3
    have c1 : octa.corners (0, 1, 2) = .ok (⟨0, 0, 1⟩, ⟨1, 0, 0⟩, ⟨0, 1, 0⟩) := rfl
    have c2 : octa.corners (0, 2, 3) = .ok (⟨0, 0, 1⟩, ⟨0, 1, 0⟩, ⟨-1, 0, 0⟩) := rfl
    have c3 : octa.corners (0, 3, 4) = .ok (⟨0, 0, 1⟩, ⟨-1, 0, 0⟩, ⟨0, -1, 0⟩) := rfl
    have c4 : octa.corners (0, 4, 1) = .ok (⟨0, 0, 1⟩, ⟨0, -1, 0⟩, ⟨1, 0, 0⟩) := rfl
    have c5 : octa.corners (5, 1, 2) = .ok (⟨0, 0, -1⟩, ⟨1, 0, 0⟩, ⟨0, 1, 0⟩) := rfl
    have r1 : ¬ faceOutOfRange (vertical (1 / 4) (1 / 8) z) (⟨0, 0, 1⟩, ⟨1, 0, 0⟩, ⟨0, 1, 0⟩) := by
      unfold faceOutOfRange vertical; norm_num
    have r2 : faceOutOfRange (vertical (1 / 4) (1 / 8) z) (⟨0, 0, 1⟩, ⟨0, 1, 0⟩, ⟨-1, 0, 0⟩) := by
      unfold faceOutOfRange vertical; norm_num
    have r3 : faceOutOfRange (vertical (1 / 4) (1 / 8) z) (⟨0, 0, 1⟩, ⟨-1, 0, 0⟩, ⟨0, -1, 0⟩) := by
      unfold faceOutOfRange vertical; norm_num
    have r4 : faceOutOfRange (vertical (1 / 4) (1 / 8) z) (⟨0, 0, 1⟩, ⟨0, -1, 0⟩, ⟨1, 0, 0⟩) := by
      unfold faceOutOfRange vertical; norm_num
    have r5 : ¬ faceOutOfRange (vertical (1 / 4) (1 / 8) z) (⟨0, 0, -1⟩, ⟨1, 0, 0⟩, ⟨0, 1, 0⟩) := by
      unfold faceOutOfRange vertical; norm_num
    unfold vertLineMesh
    rw [if_neg (by simp [octa]), if_neg]
    · have : octa.faces = (0, 1, 2) :: (0, 2, 3) :: (0, 3, 4) :: (0, 4, 1) :: (5, 1, 2) ::
        [(5, 2, 3), (5, 3, 4), (5, 4, 1)] := rfl
      rw [this]
      simp only [scanFaces, c1, c2, c3, c4, c5, Res.bind_ok', if_neg r1, if_pos r2, if_pos r3, if_pos r4,
        if_neg r5, h1, h2]
      simp
    · rintro (h | h) <;> rcases h with h | h
      · have := h ⟨1, 0, 0⟩ (by simp [octa]); simp [vertical] at this; norm_num at this
      · have := h ⟨-1, 0, 0⟩ (by simp [octa]); simp [vertical] at this; norm_num at this
      · have := h ⟨0, 1, 0⟩ (by simp [octa]); simp [vertical] at this; norm_num at this
      · have := h ⟨0, -1, 0⟩ (by simp [octa]); simp [vertical] at this; norm_num at this
  · rw [octaBody_iff]; norm_num
  · rw [octaBody_iff]; norm_num

end Hrm
