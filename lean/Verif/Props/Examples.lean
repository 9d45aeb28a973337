import Verif.Props.Connect
import Verif.Props.Mesh

/-!
# Instances of C20, C21 and C67

Concrete cases that meet the hypotheses of theorems stated in Props/Mesh.lean and Props/Connect.lean.
-/

namespace Hrm

/-- The vertical line through `(1/4, 1/4)` meets two faces of the octahedron, and the routine returns two points
(`C21_two_hits_partial`; one of them is found by `C20_vertical_complete`). -/
example : (∃ pts, vertLineMesh triTol (vertical (1 / 4) (1 / 4) 0) octa = .ok pts ∧ pts ≠ [] ∧
      ((⟨1 / 4, 1 / 4, 1 / 2⟩ : V3) ∈ pts ∨ pts.length = 2)) ∧
    ∃ pts, vertLineMesh triTol (vertical (1 / 4) (1 / 4) 0) octa = .ok pts ∧ pts.length = 2 := by
  have hwf : octa.WF := by
    refine ⟨by simp [octa], fun f hf => ?_⟩
    simp only [octa, List.mem_cons, List.not_mem_nil, or_false] at hf
    rcases hf with rfl | rfl | rfl | rfl | rfl | rfl | rfl | rfl <;> simp [octa]
  have hf : octa.HasFace ⟨0, 0, 1⟩ ⟨1, 0, 0⟩ ⟨0, 1, 0⟩ := ⟨(0, 1, 2), by simp [octa], rfl, rfl, rfl⟩
  have hf' : octa.HasFace ⟨0, 0, -1⟩ ⟨1, 0, 0⟩ ⟨0, 1, 0⟩ := ⟨(5, 1, 2), by simp [octa], rfl, rfl, rfl⟩
  have hl : OnLine (vertical (1 / 4) (1 / 4) 0) ⟨1 / 4, 1 / 4, 1 / 2⟩ := ⟨1 / 2, by simp [vertical]⟩
  have hl' : OnLine (vertical (1 / 4) (1 / 4) 0) ⟨1 / 4, 1 / 4, -(1 / 2)⟩ := ⟨-(1 / 2), by simp [vertical]⟩
  have ht : InTriangle 0 ⟨0, 0, 1⟩ ⟨1, 0, 0⟩ ⟨0, 1, 0⟩ ⟨1 / 4, 1 / 4, 1 / 2⟩ := ⟨1 / 4, 1 / 4, by norm_num⟩
  have ht' : InTriangle 0 ⟨0, 0, -1⟩ ⟨1, 0, 0⟩ ⟨0, 1, 0⟩ ⟨1 / 4, 1 / 4, -(1 / 2)⟩ := ⟨1 / 4, 1 / 4, by norm_num⟩
  have hs : Real.sqrt 3 ≤ 2 := by
    rw [Real.sqrt_le_left (by norm_num)]; norm_num
  have htr : Transversal triTol (vertical (1 / 4) (1 / 4) 0) ⟨0, 0, 1⟩ ⟨1, 0, 0⟩ ⟨0, 1, 0⟩ := by
    simp only [Transversal, V3.cross, V3.sub, V3.dot, V3.norm, vertical, triTol]
    norm_num
    linarith
  have htr' : Transversal triTol (vertical (1 / 4) (1 / 4) 0) ⟨0, 0, -1⟩ ⟨1, 0, 0⟩ ⟨0, 1, 0⟩ := by
    simp only [Transversal, V3.cross, V3.sub, V3.dot, V3.norm, vertical, triTol]
    norm_num
    linarith
  exact ⟨C20_vertical_complete triTol triTol_pos.le triTol_lt _ _ _ octa hwf _ _ _ _ hf hl ht htr,
    C21_two_hits_partial triTol triTol_pos.le triTol_lt _ _ _ octa hwf _ _ _ _ _ _ _ _ (by simp; norm_num) hf hl ht htr hf' hl' ht'
      htr'⟩

/-- Two planes of two lines each, all transitions accepted: the first samples of the two planes are joined
(`C67_slice3D_joined`). -/
example : ∃ g' s n0 n1, constructSlice3D (fun _ _ => .ok true) (fun x y z => [x, y, z]) [(0, twoLines), (1, twoLines)] .empty =
      .ok (g', s) ∧ g'.vertex[n0]? = some [0, 0, 1] ∧ g'.vertex[n1]? = some [1, 0, 1] ∧ (n0, n1) ∈ g'.edge := by
  have h : ∃ r, constructSlice3D (fun _ _ => .ok true) (fun x y z => [x, y, z]) [(0, twoLines), (1, twoLines)] .empty = .ok r := by
    refine (constructSlice3D_sat (tot := True) (dim := 3) (Vp := fun v => v.length = 3) (Acc := fun _ _ => True)
      (free := fun _ _ => .ok true) ?_ ?_ ?_ ?_ .empty).2 trivial
    · constructor <;> simp +contextual [TotalOn]
    · rintro p - v ⟨i, y, r, x, -, -, -, rfl⟩
      rfl
    · simp
    · intro _
      simp [FreeSeg.Aligned, twoLines]
  obtain ⟨⟨g', s⟩, h⟩ := h
  obtain ⟨hl, hp, hc⟩ := C67_slice3D_joined _ _ _ _ _ _ h
  obtain ⟨pa, hpa⟩ : ∃ pa, s.line[0]? = some pa := ⟨_, List.getElem?_eq_getElem (by rw [hl]; simp)⟩
  obtain ⟨pb, hpb⟩ : ∃ pb, s.line[1]? = some pb := ⟨_, List.getElem?_eq_getElem (by rw [hl]; simp)⟩
  obtain ⟨n0, p0, v0⟩ := (hp 0 _ _ rfl hpa).1.2 0 0 ⟨[0], [2], [1]⟩ 0 1 rfl rfl rfl
  obtain ⟨n1, p1, v1⟩ := (hp 1 _ _ rfl hpb).1.2 0 0 ⟨[0], [2], [1]⟩ 0 1 rfl rfl rfl
  have := ((hc 0 _ _ _ _ rfl rfl hpa hpb) 0 n0 n1 _ _ 0 0 (by simp [twoLines]) p0 p1 rfl rfl (by simp) (by simp)) _ _ 1 1 v0 v1
    rfl rfl
  exact ⟨g', s, n0, n1, h, v0, v1, this.1 rfl⟩

/-- A slice of one vertex, and the same slice in an earlier pass, also of one vertex: there is an edge from the one to the other
(`C67_exist_slice_joined`). -/
example : ∃ g', connectExistSlice (near3D 1 1) (fun _ _ => .ok true) [⟨1, 2, []⟩] [[⟨0, 1, []⟩]] 0
      ⟨[[0, 0, 0], [1, 1, 5]], [], []⟩ = .ok g' ∧ ∃ e ∈ g'.edge, e = (1, 0) := by
  have hn : near3D 1 1 [1, 1, 5] [0, 0, 0] = .ok true := by simp [near3D, Res.at', Res.bind_ok']
  obtain ⟨g', h⟩ : ∃ g', connectExistSlice (near3D 1 1) (fun _ _ => .ok true) [⟨1, 2, []⟩] [[⟨0, 1, []⟩]] 0
      ⟨[[0, 0, 0], [1, 1, 5]], [], []⟩ = .ok g' := by
    simp [connectExistSlice, matchRanges, Res.at', Res.idx, List.range'_succ, matchStep, matchOne, hn, Graph.addEdge,
      vectorEuclidean, Res.bind_ok']
    exact ⟨_, rfl⟩
  obtain ⟨-, -, hj⟩ := C67_exist_slice_joined (near3D 1 1) (fun _ _ => .ok true) _ _ _ 0 3 ⟨1, 2, []⟩ ⟨0, 1, []⟩ _ _ (by simp) rfl
    rfl rfl h
  obtain ⟨hv, -, -⟩ := C67_exist_slice_joined (near3D 1 1) (fun _ _ => .ok true) _ _ _ 0 3 ⟨1, 2, []⟩ ⟨0, 1, []⟩ _ _ (by simp) rfl
    rfl rfl h
  obtain ⟨e, he, ⟨h1, h2⟩, h3, h4⟩ := hj 1 0 [1, 1, 5] [0, 0, 0] le_rfl (by simp) le_rfl (by simp) (by rw [hv]; rfl)
    (by rw [hv]; rfl) hn rfl
  refine ⟨g', h, e, he, Prod.ext ?_ ?_⟩ <;> simp only at h1 h2 h3 h4 ⊢ <;> omega

end Hrm
