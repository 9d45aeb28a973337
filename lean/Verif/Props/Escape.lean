import Verif.Spec.Escape
import Verif.Props.Mesh

/-!
# C87: what the checks against a mesh mean without any convexity
-/

namespace Hrm

open Classical

/-- The hit reported for one face. -/
noncomputable def hitOf (tol : ℝ) (skip : Line3 → V3 × V3 × V3 → Prop) (line : Line3) (m : Mesh) (f : ℕ × ℕ × ℕ) :
    Option V3 :=
  match m.corners f with
  | .ok c => if skip line c then none else faceHit tol line c
  | _ => none

/-- The scan returns the first two hits. -/
theorem scanFaces_take (tol : ℝ) (skip : Line3 → V3 × V3 × V3 → Prop) (line : Line3) (m : Mesh)
    (fs : List (ℕ × ℕ × ℕ))
    (hwf : ∀ f ∈ fs, f.1 < m.vertices.length ∧ f.2.1 < m.vertices.length ∧ f.2.2 < m.vertices.length) :
    ∀ acc : List V3, acc.length < 2 →
      scanFaces tol skip line m fs acc = .ok ((acc ++ fs.filterMap (hitOf tol skip line m)).take 2) := by
  induction fs with
  | nil =>
    intro acc hacc
    simp only [List.filterMap_nil, List.append_nil]
    rw [List.take_of_length_le hacc.le]; rfl
  | cons f fs ih =>
    intro acc hacc
    have ih' := ih (fun g hg => hwf g (by simp [hg]))
    obtain ⟨a, b, c, hcor, -⟩ := corners_ok (hwf f (by simp))
    rw [scanFaces, hcor, Res.bind_ok']
    have hh : hitOf tol skip line m f = if skip line (a, b, c) then none else faceHit tol line (a, b, c) := by
      unfold hitOf; rw [hcor]
    by_cases hsk : skip line (a, b, c)
    · rw [if_pos hsk] at hh ⊢
      rw [ih' acc hacc, List.filterMap_cons_none hh]
    · rw [if_neg hsk] at hh ⊢
      dsimp only
      cases he : faceHit tol line (a, b, c) with
      | none =>
        rw [he] at hh
        dsimp only
        rw [if_neg (by omega), ih' acc hacc, List.filterMap_cons_none hh]
      | some q =>
        rw [he] at hh
        dsimp only
        rw [List.filterMap_cons_some hh, show acc ++ q :: fs.filterMap (hitOf tol skip line m) =
          (acc ++ [q]) ++ fs.filterMap (hitOf tol skip line m) by simp]
        by_cases hl : (acc ++ [q]).length = 2
        · rw [if_pos hl, List.take_append_of_le_length hl.ge, List.take_of_length_le hl.le]
        · rw [if_neg hl, ih' (acc ++ [q]) (by rw [List.length_append, List.length_singleton] at *; omega)]

theorem filterMap_length_le {α β : Type*} (g : α → Option β) (P : α → Prop) (l : List α)
    (h : ∀ a ∈ l, ∀ b, g a = some b → P a) : (l.filterMap g).length ≤ l.countP (fun a => decide (P a)) := by
  induction l with
  | nil => simp
  | cons a l ih =>
    have ih' := ih fun x hx => h x (by simp [hx])
    cases hg : g a with
    | none => rw [List.filterMap_cons_none hg, List.countP_cons]; omega
    | some b =>
      rw [List.filterMap_cons_some hg, List.countP_cons, if_pos (by simpa using h a (by simp) b hg)]
      simpa using ih'

/-- On a generic line the scan returns a list that contains every exact face point of the line that is not skipped. -/
theorem scan_generic {tol : ℝ} (htol : 0 ≤ tol) (htol1 : tol < 1) (skip : Line3 → V3 × V3 × V3 → Prop) {line : Line3}
    {m : Mesh} (hwf : m.WF) (hg : GenericLine tol line m) :
    ∃ pts, scanFaces tol skip line m m.faces [] = .ok pts ∧ pts.length ≤ 2 ∧
      ∀ a b c p, m.HasFace a b c → OnLine line p → InTriangle 0 a b c p → ¬ skip line (a, b, c) → p ∈ pts := by
  have hle : (m.faces.filterMap (hitOf tol skip line m)).length ≤ 2 := by
    refine le_trans (filterMap_length_le _ (MeetsFace tol line m) _ ?_) hg.1
    intro f hf b hb
    obtain ⟨a, b', c, hcor, ha, hb', hc⟩ := corners_ok (hwf.2 f hf)
    unfold hitOf at hb
    rw [hcor] at hb
    dsimp only at hb
    split at hb
    · exact nomatch hb
    · obtain ⟨h1, h2, h3, -⟩ := faceHit_some htol hb
      exact ⟨a, b', c, b, ha, hb', hc, h3, h1, h2⟩
  refine ⟨_, scanFaces_take tol skip line m m.faces hwf.2 [] (by simp), by simp, ?_⟩
  rw [List.nil_append, List.take_of_length_le hle]
  rintro a b c p ⟨f, hf, ha, hb, hc⟩ hl hin hns
  refine List.mem_filterMap.2 ⟨f, hf, ?_⟩
  obtain ⟨a', b', c', hcor, ha', hb', hc'⟩ := corners_ok (hwf.2 f hf)
  rw [ha] at ha'; rw [hb] at hb'; rw [hc] at hc'
  obtain rfl := Option.some.inj ha'
  obtain rfl := Option.some.inj hb'
  obtain rfl := Option.some.inj hc'
  unfold hitOf
  rw [hcor]
  dsimp only
  rw [if_neg hns]
  exact faceHit_complete htol htol1 hl (inTriangle_mono htol hin) (hg.2 a b c p ⟨f, hf, ha, hb, hc⟩ hl hin)

/-- A general line through the mesh: every face point of the line is returned. -/
theorem lineMesh_generic {tol axisTol : ℝ} (htol : 0 ≤ tol) (htol1 : tol < 1) {line : Line3}
    (hax : ∀ w ∈ [line.d.x, line.d.y, line.d.z], w = 0 ∨ axisTol ≤ |w|) {m : Mesh} (hwf : m.WF)
    (hg : GenericLine tol line m) :
    ∃ pts, lineMesh tol axisTol line m = .ok pts ∧ pts.length ≤ 2 ∧ ∀ p, OnMesh m p → OnLine line p → p ∈ pts := by
  by_cases hex : ∃ p, OnMesh m p ∧ OnLine line p
  · obtain ⟨p0, ⟨a, b, c, hf, hin⟩, hl⟩ := hex
    obtain ⟨pts, e, hle, hall⟩ := scan_generic htol htol1 (fun _ _ => False) hwf hg
    have hne := C20_mesh_complete_partial tol axisTol htol htol1 line ⟨hax _ (by simp), hax _ (by simp), hax _ (by simp)⟩
      m hwf a b c p0 hf hl hin (hg.2 a b c p0 hf hl hin)
    obtain ⟨pts', e', hne', -⟩ := hne
    refine ⟨pts', e', ?_⟩
    unfold lineMesh at e'
    rw [if_neg hwf.1] at e'
    split at e'
    · exact absurd ((Res.ok.injEq _ _).mp e').symm hne'
    · rw [e] at e'
      obtain rfl := (Res.ok.injEq _ _).mp e'
      exact ⟨hle, fun p ⟨a, b, c, hf, hin⟩ hl => hall a b c p hf hl hin (by simp)⟩
  · obtain ⟨pts, e, hle, -⟩ := C20_mesh_sound tol axisTol htol line m hwf
    exact ⟨pts, e, hle, fun p h1 h2 => absurd ⟨p, h1, h2⟩ hex⟩

/-- A vertical line: every face point of the line is returned. -/
theorem vertLineMesh_generic {tol : ℝ} (htol : 0 ≤ tol) (htol1 : tol < 1) {x y z0 : ℝ} {m : Mesh} (hwf : m.WF)
    (hg : GenericLine tol (vertical x y z0) m) :
    ∃ pts, vertLineMesh tol (vertical x y z0) m = .ok pts ∧ pts.length ≤ 2 ∧
      ∀ z, OnMesh m ⟨x, y, z⟩ → (⟨x, y, z⟩ : V3) ∈ pts := by
  have hon : ∀ z, OnLine (vertical x y z0) ⟨x, y, z⟩ := fun z => ⟨z - z0, by simp [vertical]⟩
  by_cases hex : ∃ z, OnMesh m ⟨x, y, z⟩
  · obtain ⟨z1, a, b, c, hf, hin⟩ := hex
    obtain ⟨pts, e, hle, hall⟩ := scan_generic htol htol1 faceOutOfRange hwf hg
    obtain ⟨pts', e', hne', -⟩ := C20_vertical_complete tol htol htol1 x y z0 m hwf a b c _ hf (hon z1) hin
      (hg.2 a b c _ hf (hon z1) hin)
    refine ⟨pts', e', ?_⟩
    unfold vertLineMesh at e'
    rw [if_neg hwf.1] at e'
    split at e'
    · exact absurd ((Res.ok.injEq _ _).mp e').symm hne'
    · rw [e] at e'
      obtain rfl := (Res.ok.injEq _ _).mp e'
      refine ⟨hle, fun z ⟨a, b, c, hf, hin⟩ => hall a b c _ hf (hon z) hin ?_⟩
      obtain ⟨s, t, s0, s1, t0, t1, ex, ey, ez⟩ := hin
      have bx := bary_bounds (by linarith) (by linarith) (by linarith) ex
      have byy := bary_bounds (by linarith) (by linarith) (by linarith) ey
      unfold faceOutOfRange vertical
      simp only [not_or, not_lt]
      exact ⟨bx.1, bx.2, byy.1, byy.2⟩
  · obtain ⟨pts, e, hle, -⟩ := C20_vertical_sound tol htol (vertical x y z0) m hwf
    exact ⟨pts, e, hle, fun z h => absurd ⟨z, h⟩ hex⟩

/-! ### Escaping -/

/-- Beyond the bounding box there is no face. -/
theorem not_onMesh_of_far {m : Mesh} {p : V3}
    (h : outOfRange V3.x p.x m.vertices ∨ outOfRange V3.y p.y m.vertices ∨ outOfRange V3.z p.z m.vertices) :
    ¬ OnMesh m p := by
  rintro ⟨a, b, c, ⟨f, hf, ha, hb, hc⟩, s, t, s0, s1, t0, t1, ex, ey, ez⟩
  have ma := List.mem_of_getElem? ha
  have mb := List.mem_of_getElem? hb
  have mc := List.mem_of_getElem? hc
  have bx := bary_bounds (by linarith) (by linarith) (by linarith) ex
  have byy := bary_bounds (by linarith) (by linarith) (by linarith) ey
  have bz := bary_bounds (by linarith) (by linarith) (by linarith) ez
  rcases h with h | h | h
  · exact not_outOfRange_of_bary (get := V3.x) ma mb mc bx.1 bx.2 h
  · exact not_outOfRange_of_bary (get := V3.y) ma mb mc byy.1 byy.2 h
  · exact not_outOfRange_of_bary (get := V3.z) ma mb mc bz.1 bz.2 h

/-- A point that can escape is on no face. -/
theorem Escapes.off {m : Mesh} {p : V3} (h : Escapes m p) : ¬ OnMesh m p := by
  cases h with
  | far p h => exact not_onMesh_of_far h
  | move p q h _ =>
    have := h 1 zero_le_one le_rfl
    have e : V3.comb 1 p q = p := by unfold V3.comb; ext <;> simp
    rwa [e] at this

/-- Along a way that touches no face either every point can escape or none. -/
theorem Avoids.sub {m : Mesh} {p q : V3} (h : Avoids m p q) (s t : ℝ) (hs0 : 0 ≤ s) (hs1 : s ≤ 1) (ht0 : 0 ≤ t)
    (ht1 : t ≤ 1) : Avoids m (V3.comb s p q) (V3.comb t p q) := by
  intro u hu0 hu1
  have e : V3.comb u (V3.comb s p q) (V3.comb t p q) = V3.comb (u * s + (1 - u) * t) p q := by
    unfold V3.comb; ext <;> simp only <;> ring
  rw [e]
  exact h _ (by nlinarith [mul_nonneg hu0 hs0, mul_nonneg (by linarith : 0 ≤ 1 - u) ht0])
    (by nlinarith [mul_nonneg hu0 (by linarith : 0 ≤ 1 - s), mul_nonneg (by linarith : 0 ≤ 1 - u) (by linarith : 0 ≤ 1 - t)])

theorem V3.comb_one (p q : V3) : V3.comb 1 p q = p := by unfold V3.comb; ext <;> simp
theorem V3.comb_zero (p q : V3) : V3.comb 0 p q = q := by unfold V3.comb; ext <;> simp

theorem Avoids.escapes {m : Mesh} {p q : V3} (h : Avoids m p q) (he : Escapes m p ∨ Escapes m q) (s : ℝ) (hs0 : 0 ≤ s)
    (hs1 : s ≤ 1) : Escapes m (V3.comb s p q) := by
  rcases he with he | he
  · have := h.sub s 1 hs0 hs1 zero_le_one le_rfl
    rw [V3.comb_one] at this
    exact .move _ _ this he
  · have := h.sub s 0 hs0 hs1 le_rfl zero_le_one
    rw [V3.comb_zero] at this
    exact .move _ _ this he

/-- A point with no face above it or no face below it, and on no face, can escape. -/
theorem escapes_of_column {m : Mesh} {x y z : ℝ} (hoff : ¬ OnMesh m ⟨x, y, z⟩)
    (hcol : (∀ z', z < z' → ¬ OnMesh m ⟨x, y, z'⟩) ∨ (∀ z', z' < z → ¬ OnMesh m ⟨x, y, z'⟩)) : Escapes m ⟨x, y, z⟩ := by
  have bnd : ∃ B : ℝ, z ≤ B ∧ ∀ v ∈ m.vertices, v.z < B := by
    have : ∀ l : List V3, ∃ B : ℝ, z ≤ B ∧ ∀ v ∈ l, v.z < B := by
      intro l
      induction l with
      | nil => exact ⟨z, le_rfl, by simp⟩
      | cons v l ih =>
        obtain ⟨B, h1, h2⟩ := ih
        refine ⟨max B (v.z + 1), h1.trans (le_max_left _ _), ?_⟩
        intro w hw
        rcases List.mem_cons.1 hw with rfl | hw
        · exact lt_of_lt_of_le (by linarith) (le_max_right _ _)
        · exact (h2 w hw).trans_le (le_max_left _ _)
    exact this _
  have bnd' : ∃ B : ℝ, B ≤ z ∧ ∀ v ∈ m.vertices, B < v.z := by
    have : ∀ l : List V3, ∃ B : ℝ, B ≤ z ∧ ∀ v ∈ l, B < v.z := by
      intro l
      induction l with
      | nil => exact ⟨z, le_rfl, by simp⟩
      | cons v l ih =>
        obtain ⟨B, h1, h2⟩ := ih
        refine ⟨min B (v.z - 1), (min_le_left _ _).trans h1, ?_⟩
        intro w hw
        rcases List.mem_cons.1 hw with rfl | hw
        · exact lt_of_le_of_lt (min_le_right _ _) (by linarith)
        · exact (min_le_left _ _).trans_lt (h2 w hw)
    exact this _
  rcases hcol with h | h
  · obtain ⟨B, hB, hv⟩ := bnd
    refine .move _ ⟨x, y, B⟩ ?_ (.far _ (Or.inr (Or.inr (Or.inl hv))))
    intro s h0 h1 hm
    have e : V3.comb s ⟨x, y, z⟩ ⟨x, y, B⟩ = ⟨x, y, s * z + (1 - s) * B⟩ := by
      unfold V3.comb; ext <;> simp only <;> ring
    rw [e] at hm
    have hle : z ≤ s * z + (1 - s) * B := by nlinarith
    rcases hle.lt_or_eq with h' | h'
    · exact h _ h' hm
    · rw [← h'] at hm; exact hoff hm
  · obtain ⟨B, hB, hv⟩ := bnd'
    refine .move _ ⟨x, y, B⟩ ?_ (.far _ (Or.inr (Or.inr (Or.inr hv))))
    intro s h0 h1 hm
    have e : V3.comb s ⟨x, y, z⟩ ⟨x, y, B⟩ = ⟨x, y, s * z + (1 - s) * B⟩ := by
      unfold V3.comb; ext <;> simp only <;> ring
    rw [e] at hm
    have hle : s * z + (1 - s) * B ≤ z := by nlinarith
    rcases hle.lt_or_eq with h' | h'
    · exact h _ h' hm
    · rw [h'] at hm; exact hoff hm

/-- **C87** A step accepted by the same-slice check crosses no face of any obstacle mesh, whatever the mesh, when its line
is in general position and its ends are on no face; so if one end can escape from the mesh, every point of the way can. -/
theorem C87_slice_step (tol axisTol : ℝ) (htol : 0 ≤ tol) (htol1 : tol < 1) (obstacles : List Mesh) (t1 t2 : V3)
    (hacc : sameSliceFree3D tol axisTol obstacles t1 t2 = .ok true) (m : Mesh) (hm : m ∈ obstacles) (hwf : m.WF)
    (hax : ∀ w ∈ [(segLine t1 t2).d.x, (segLine t1 t2).d.y, (segLine t1 t2).d.z], w = 0 ∨ axisTol ≤ |w|)
    (hg : GenericLine tol (segLine t1 t2) m) (h1 : ¬ OnMesh m t1) (h2 : ¬ OnMesh m t2) :
    Avoids m t1 t2 ∧
    ((Escapes m t1 ∨ Escapes m t2) → ∀ s, 0 ≤ s → s ≤ 1 → Escapes m (V3.comb s t1 t2)) := by
  have key : Avoids m t1 t2 := by
    intro s hs0 hs1 hon
    have hne : t1 ≠ t2 := by
      rintro rfl
      have : V3.comb s t1 t1 = t1 := by unfold V3.comb; ext <;> simp only <;> ring
      rw [this] at hon
      exact h1 hon
    have hs0' : 0 < s := by
      rcases hs0.lt_or_eq with h | h
      · exact h
      · rw [← h, V3.comb_zero] at hon; exact absurd hon h2
    have hs1' : s < 1 := by
      rcases hs1.lt_or_eq with h | h
      · exact h
      · rw [h, V3.comb_one] at hon; exact absurd hon h1
    obtain ⟨L, hL, ht2, hdd⟩ := segLine_param hne
    have hpl : V3.comb s t1 t2 = t1.add (V3.smul ((1 - s) * L) (segLine t1 t2).d) := by
      have hx := congrArg V3.x ht2; have hy := congrArg V3.y ht2; have hz := congrArg V3.z ht2
      unfold V3.comb V3.add V3.smul at *
      simp only at *
      ext <;> simp only
      · rw [hx]; ring
      · rw [hy]; ring
      · rw [hz]; ring
    obtain ⟨pts, e, hle, hall⟩ := lineMesh_generic htol htol1 hax hwf hg
    have hmem := hall _ hon ⟨(1 - s) * L, hpl⟩
    have hval : ((V3.comb s t1 t2).sub t1).dot ((V3.comb s t1 t2).sub t2) < 0 := by
      have hpos : 0 < (t2.sub t1).dot (t2.sub t1) := by
        by_contra h
        obtain ⟨q1, q2, q3⟩ := V3.eq_zero_of_dot_self h
        unfold V3.sub at q1 q2 q3
        exact hne (V3.ext (by linarith) (by linarith) (by linarith))
      have e : ((V3.comb s t1 t2).sub t1).dot ((V3.comb s t1 t2).sub t2) =
          -((1 - s) * s * (t2.sub t1).dot (t2.sub t1)) := by
        unfold V3.comb V3.sub V3.dot; simp only; ring
      rw [e]
      have := mul_pos (mul_pos (by linarith : 0 < 1 - s) hs0') hpos
      linarith
    have hfree := noneOf_true hacc m hm
    unfold segHitsMesh at hfree
    rw [show (⟨t1, (t2.sub t1).normalize⟩ : Line3) = segLine t1 t2 from rfl, e, Res.bind_ok'] at hfree
    match pts, hle, hmem with
    | [], _, h => simp at h
    | [r], _, _ => simp [Res.idx] at hfree
    | [r, r'], _, h =>
      simp only [List.isEmpty_cons, Bool.false_eq_true, if_false, Res.idx, List.getElem?_cons_zero, List.getElem?_cons_succ,
        Res.bind_ok', Res.ok.injEq, decide_eq_false_iff_not, not_or, not_lt] at hfree
      rcases List.mem_cons.1 h with h | h
      · rw [h] at hval; linarith [hfree.1]
      · rw [List.mem_singleton.1 h] at hval; linarith [hfree.2]
    | _ :: _ :: _ :: _, hle, _ => simp at hle
  exact ⟨key, fun he s h0 h1 => key.escapes he s h0 h1⟩

/-- A point strictly between two faces above and below it. -/
def Covered (m : Mesh) (x y z : ℝ) : Prop := ∃ z1 z2, z1 < z ∧ z < z2 ∧ OnMesh m ⟨x, y, z1⟩ ∧ OnMesh m ⟨x, y, z2⟩

theorem escapes_of_not_covered {m : Mesh} {x y z : ℝ} (h : ¬ Covered m x y z) (hoff : ¬ OnMesh m ⟨x, y, z⟩) :
    Escapes m ⟨x, y, z⟩ := by
  apply escapes_of_column hoff
  by_contra hcon
  push Not at hcon
  obtain ⟨⟨z2, a, b⟩, z1, c, d⟩ := hcon
  exact h ⟨z1, z2, c, a, d, b⟩

/-- **C87** The point test of the bridge slices: a point declared free, on a generic vertical line and on no face, can
escape from every mesh it was tested against. -/
theorem C87_point_test (tol : ℝ) (htol : 0 ≤ tol) (htol1 : tol < 1) (v : V3) (bounds : List Mesh)
    (h : isPtInCFree3D tol v bounds = .ok true) (m : Mesh) (hm : m ∈ bounds) (hwf : m.WF)
    (hg : GenericLine tol (vertical v.x v.y v.z) m) (hoff : ¬ OnMesh m v) : Escapes m v := by
  refine escapes_of_not_covered (x := v.x) (y := v.y) (z := v.z) ?_ hoff
  rintro ⟨z1, z2, a1, a2, c1, c2⟩
  have hfree := noneOf_true h m hm
  obtain ⟨pts, e, hle, hall⟩ := vertLineMesh_generic htol htol1 hwf hg
  have m1 := hall z1 c1
  have m2 := hall z2 c2
  unfold ptInObs3D at hfree
  rw [e, Res.bind_ok'] at hfree
  match pts, hle, m1, m2 with
  | [], _, h, _ => simp at h
  | [r], _, _, _ => simp [Res.idx] at hfree
  | [r, r'], _, m1, m2 =>
    simp only [List.isEmpty_cons, Bool.false_eq_true, if_false, Res.idx, List.getElem?_cons_zero, List.getElem?_cons_succ,
      Res.bind_ok', Res.ok.injEq, decide_eq_false_iff_not] at hfree
    apply hfree
    have f1 : min r.z r'.z ≤ z1 := by
      rcases List.mem_cons.1 m1 with h | h
      · rw [← h]; exact min_le_left _ _
      · rw [← List.mem_singleton.1 h]; exact min_le_right _ _
    have f2 : z2 ≤ max r.z r'.z := by
      rcases List.mem_cons.1 m2 with h | h
      · rw [← h]; exact le_max_left _ _
      · rw [← List.mem_singleton.1 h]; exact le_max_right _ _
    exact ⟨f1.trans_lt a1, a2.trans_le f2⟩
  | _ :: _ :: _ :: _, hle, _, _ => simp at hle

/-! ### The hypotheses are met: two plates above a point -/

/-- Two triangles, at heights 5 and 6: an open mesh that is not the boundary of a convex body. -/
def plates : Mesh :=
  ⟨[⟨0, 0, 5⟩, ⟨1, 0, 5⟩, ⟨0, 1, 5⟩, ⟨0, 0, 6⟩, ⟨1, 0, 6⟩, ⟨0, 1, 6⟩], [(0, 1, 2), (3, 4, 5)]⟩

theorem plates_wf : plates.WF := by
  refine ⟨by simp [plates], ?_⟩
  intro f hf
  simp only [plates, List.mem_cons, List.not_mem_nil, or_false] at hf
  rcases hf with rfl | rfl <;> simp [plates]

theorem plates_face {a b c : V3} (h : plates.HasFace a b c) :
    (a = ⟨0, 0, 5⟩ ∧ b = ⟨1, 0, 5⟩ ∧ c = ⟨0, 1, 5⟩) ∨ (a = ⟨0, 0, 6⟩ ∧ b = ⟨1, 0, 6⟩ ∧ c = ⟨0, 1, 6⟩) := by
  obtain ⟨f, hf, ha, hb, hc⟩ := h
  simp only [plates, List.mem_cons, List.not_mem_nil, or_false] at hf
  rcases hf with rfl | rfl
  · left
    simp only [plates, List.getElem?_cons_zero, List.getElem?_cons_succ, Option.some.injEq] at ha hb hc
    exact ⟨ha.symm, hb.symm, hc.symm⟩
  · right
    simp only [plates, List.getElem?_cons_zero, List.getElem?_cons_succ, Option.some.injEq] at ha hb hc
    exact ⟨ha.symm, hb.symm, hc.symm⟩

theorem plates_on {p : V3} (h : OnMesh plates p) : p.z = 5 ∨ p.z = 6 := by
  obtain ⟨a, b, c, hf, s, t, -, -, -, -, -, -, hz⟩ := h
  rcases plates_face hf with ⟨rfl, rfl, rfl⟩ | ⟨rfl, rfl, rfl⟩ <;> norm_num at hz
  · exact Or.inl hz
  · exact Or.inr hz

theorem plates_hit (z : ℝ) (h : z = 5 ∨ z = 6) : OnMesh plates ⟨1 / 4, 1 / 4, z⟩ := by
  rcases h with rfl | rfl
  · exact ⟨⟨0, 0, 5⟩, ⟨1, 0, 5⟩, ⟨0, 1, 5⟩, ⟨(0, 1, 2), by simp [plates], by simp [plates], by simp [plates], by simp [plates]⟩,
      1 / 4, 1 / 4, by norm_num⟩
  · exact ⟨⟨0, 0, 6⟩, ⟨1, 0, 6⟩, ⟨0, 1, 6⟩, ⟨(3, 4, 5), by simp [plates], by simp [plates], by simp [plates], by simp [plates]⟩,
      1 / 4, 1 / 4, by norm_num⟩

theorem plates_generic (z0 : ℝ) : GenericLine triTol (vertical (1 / 4) (1 / 4) z0) plates := by
  refine ⟨List.countP_le_length.trans (by simp [plates]), ?_⟩
  intro a b c p hf _ _
  rcases plates_face hf with ⟨rfl, rfl, rfl⟩ | ⟨rfl, rfl, rfl⟩ <;>
    (unfold Transversal triTol vertical V3.norm V3.dot V3.cross V3.sub; norm_num)

theorem two_members {α : Type*} {a b : α} (hab : a ≠ b) {l : List α} (hl : l.length ≤ 2) (ha : a ∈ l) (hb : b ∈ l) :
    l = [a, b] ∨ l = [b, a] := by
  match l, hl, ha, hb with
  | [x], _, ha, hb =>
    rw [List.mem_singleton] at ha hb
    exact absurd (ha.trans hb.symm) hab
  | [x, y], _, ha, hb =>
    simp only [List.mem_cons, List.not_mem_nil, or_false] at ha hb
    rcases ha with rfl | rfl <;> rcases hb with rfl | rfl
    · exact absurd rfl hab
    · exact Or.inl rfl
    · exact Or.inr rfl
    · exact absurd rfl hab
  | _ :: _ :: _ :: _, hl, _, _ => simp at hl

theorem plates_ne : (⟨1 / 4, 1 / 4, 5⟩ : V3) ≠ ⟨1 / 4, 1 / 4, 6⟩ := by
  intro h; have := congrArg V3.z h; norm_num at this

/-- `C87_slice_step` applies to the vertical step from height 0 to height 1 below both plates, which its line meets: every
point of the way can escape. -/
example : ∀ s, 0 ≤ s → s ≤ 1 → Escapes plates (V3.comb s ⟨1 / 4, 1 / 4, 0⟩ ⟨1 / 4, 1 / 4, 1⟩) := by
  have hline : segLine ⟨1 / 4, 1 / 4, 0⟩ ⟨1 / 4, 1 / 4, 1⟩ = vertical (1 / 4) (1 / 4) 0 := by
    unfold segLine V3.normalize V3.norm V3.dot V3.sub V3.smul vertical
    norm_num
  have hax : ∀ w ∈ [(vertical (1 / 4) (1 / 4) 0).d.x, (vertical (1 / 4) (1 / 4) 0).d.y, (vertical (1 / 4) (1 / 4) 0).d.z],
      w = 0 ∨ axisTol ≤ |w| := by
    intro w hw
    simp only [vertical, List.mem_cons, List.not_mem_nil, or_false] at hw
    rcases hw with rfl | rfl | rfl
    · exact Or.inl rfl
    · exact Or.inl rfl
    · right; unfold axisTol; norm_num
  have hacc : sameSliceFree3D triTol axisTol [plates] ⟨1 / 4, 1 / 4, 0⟩ ⟨1 / 4, 1 / 4, 1⟩ = .ok true := by
    obtain ⟨pts, e, hle, hall⟩ := lineMesh_generic triTol_pos.le triTol_lt hax plates_wf (plates_generic 0)
    have m5 := hall _ (plates_hit 5 (Or.inl rfl)) ⟨5, by simp [vertical]⟩
    have m6 := hall _ (plates_hit 6 (Or.inr rfl)) ⟨6, by simp [vertical]⟩
    have : segHitsMesh triTol axisTol ⟨1 / 4, 1 / 4, 0⟩ ⟨1 / 4, 1 / 4, 1⟩ plates = .ok false := by
      unfold segHitsMesh
      rw [show (⟨⟨1 / 4, 1 / 4, 0⟩, ((⟨1 / 4, 1 / 4, 1⟩ : V3).sub ⟨1 / 4, 1 / 4, 0⟩).normalize⟩ : Line3) = _ from hline, e,
        Res.bind_ok']
      rcases two_members plates_ne hle m5 m6 with rfl | rfl <;> simp [Res.idx, V3.sub, V3.dot]
    unfold sameSliceFree3D noneOf
    rw [this]; rfl
  have h0 : ¬ OnMesh plates ⟨1 / 4, 1 / 4, 0⟩ := fun h => by rcases plates_on h with h | h <;> norm_num at h
  have h1 : ¬ OnMesh plates ⟨1 / 4, 1 / 4, 1⟩ := fun h => by rcases plates_on h with h | h <;> norm_num at h
  refine (C87_slice_step triTol axisTol triTol_pos.le triTol_lt [plates] _ _ hacc plates (by simp) plates_wf
    (by rw [hline]; exact hax) (by rw [hline]; exact plates_generic 0) h0 h1).2 (Or.inl (.far _ (Or.inr (Or.inr (Or.inr ?_)))))
  intro v hv
  simp only [plates, List.mem_cons, List.not_mem_nil, or_false] at hv
  rcases hv with rfl | rfl | rfl | rfl | rfl | rfl <;> norm_num

/-- `C87_point_test` applies to a point below the plates. -/
example : Escapes plates ⟨1 / 4, 1 / 4, 0⟩ := by
  have h0 : ¬ OnMesh plates ⟨1 / 4, 1 / 4, 0⟩ := fun h => by rcases plates_on h with h | h <;> norm_num at h
  refine C87_point_test triTol triTol_pos.le triTol_lt _ [plates] ?_ plates (by simp) plates_wf (plates_generic 0) h0
  obtain ⟨pts, e, hle, hall⟩ := vertLineMesh_generic triTol_pos.le triTol_lt plates_wf (plates_generic 0)
  have : ptInObs3D triTol ⟨1 / 4, 1 / 4, 0⟩ plates = .ok false := by
    unfold ptInObs3D
    rw [e, Res.bind_ok']
    rcases two_members plates_ne hle (hall 5 (plates_hit 5 (Or.inl rfl))) (hall 6 (plates_hit 6 (Or.inr rfl))) with rfl | rfl <;>
      simp [Res.idx]
  unfold isPtInCFree3D noneOf
  rw [this]; rfl

end Hrm
