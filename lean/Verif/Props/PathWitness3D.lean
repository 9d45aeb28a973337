import Verif.Props.PathClear3D
import Verif.Props.PathWitness
import Verif.Props.Plan3DWitness
import Verif.Props.Slices3D

/-!
# C87: a spatial planner with an obstacle, a solved task and a path with inner steps
-/

set_option linter.unusedVariables false

namespace Hrm

open Classical

/-- A vertical plane with two sweep lines that miss every mesh. -/
theorem planeSeg_missed (L : Libs3) (zlo zhi : ℝ) (hlu : zlo ≤ zhi) (M : BoundMesh) (ha : M.arena ≠ []) (x y0 y1 : ℝ)
    (hm : ∀ m ∈ M.arena ++ M.obstacle, ∀ y ∈ [y0, y1], vertLineMesh triTol (vertical x y 0) m = .ok []) :
    planeSeg L zlo zhi M [y0, y1] x = .ok ⟨[y0, y1], [⟨[zlo], [zhi], [(zlo + zhi) / 2]⟩, ⟨[zlo], [zhi], [(zlo + zhi) / 2]⟩]⟩ := by
  have hi : ∀ m ∈ M.arena ++ M.obstacle, ∀ y ∈ [y0, y1], isect3 (x, y) m = .ok [] := by
    intro m hm' y hy
    unfold isect3
    rw [hm m hm' y hy]; rfl
  have h := sweep_missed (hitsOf isect3) L.sort L.dmin L.dmax zlo zhi hlu M.arena M.obstacle ha (x, y0) (x, y1)
    (fun m hm' => ⟨hitsOf_eq (hi m hm' y0 (by simp)), hitsOf_eq (hi m hm' y1 (by simp))⟩)
  unfold planeSeg
  rw [fillLinesR_eq]
  · obtain ⟨t, h1, h2⟩ := Res.bind_eq_ok.1 h
    simp only [List.length_cons, List.length_nil, Nat.zero_add, Nat.reduceAdd, List.map_cons, List.map_nil, h1, Res.bind_ok', h2]
  · intro l hl m hm'
    obtain ⟨y, hy, rfl⟩ := List.mem_map.1 hl
    exact ⟨[], hi m hm' y hy, by simp⟩

/-- Two slices of two planes with two lines each, one sample per line, every check positive. -/
theorem roadmap3_all_free {dist : ℕ → ℕ → ℝ} {freeSame : ℕ → Vec → Vec → Res Bool} {freeMulti : ℕ → ℕ → Vec → Vec → Res Bool}
    {gx gy x0 x1 y0 y1 z l u : ℝ} {Q : ℕ → Quat} (hgx : |x0 - x1| ≤ gx) (hgy : |y0 - y1| ≤ gy)
    (hsame : ∀ i < 2, ∀ x ∈ [x0, x1], ∀ y ∈ [y0, y1], ∀ x' ∈ [x0, x1], ∀ y' ∈ [y0, y1],
      freeSame i (conf7 x y z (Q i)) (conf7 x' y' z (Q i)) = .ok true)
    (hmulti : ∀ i < 2, ∀ j < 2, ∀ x ∈ [x0, x1], ∀ y ∈ [y0, y1], ∀ x' ∈ [x0, x1], ∀ y' ∈ [y0, y1],
      freeMulti i j (conf7 x y z (Q j)) (conf7 x' y' z (Q i)) = .ok true) :
    ∃ r, buildRoadmap3D dist freeSame freeMulti gx gy (fun i x y z => conf7 x y z (Q i))
      (fun _ => [(x0, ⟨[y0, y1], [⟨[l], [u], [z]⟩, ⟨[l], [u], [z]⟩]⟩), (x1, ⟨[y0, y1], [⟨[l], [u], [z]⟩, ⟨[l], [u], [z]⟩]⟩)]) 2 = .ok r ∧
    r.1.vertex = [conf7 x0 y0 z (Q 0), conf7 x0 y1 z (Q 0), conf7 x1 y0 z (Q 0), conf7 x1 y1 z (Q 0),
      conf7 x0 y0 z (Q 1), conf7 x0 y1 z (Q 1), conf7 x1 y0 z (Q 1), conf7 x1 y1 z (Q 1)] ∧
    r.1.weight.length = 16 ∧ r.1.edge[4]? = some (4, 5) := by
  have hw : ∀ (a b c : ℝ) (q : Quat) (a' b' c' : ℝ) (q' : Quat), ∃ w, vectorEuclidean (conf7 a b c q) (conf7 a' b' c' q') = .ok w :=
    fun _ _ _ _ _ _ _ _ => ⟨_, rfl⟩
  choose W hW using hw
  have hr2 : List.range 2 = [0, 1] := rfl
  have hr1 : List.range 1 = [0] := rfl
  have slice : ∀ i < 2, ∀ g : Graph, constructSlice3D (freeSame i) (fun x y z => conf7 x y z (Q i))
      [(x0, ⟨[y0, y1], [⟨[l], [u], [z]⟩, ⟨[l], [u], [z]⟩]⟩), (x1, ⟨[y0, y1], [⟨[l], [u], [z]⟩, ⟨[l], [u], [z]⟩]⟩)] g =
      .ok (⟨g.vertex ++ [conf7 x0 y0 z (Q i), conf7 x0 y1 z (Q i), conf7 x1 y0 z (Q i), conf7 x1 y1 z (Q i)],
        g.edge ++ [(g.vertex.length, g.vertex.length + 1), (g.vertex.length + 2, g.vertex.length + 3),
          (g.vertex.length, g.vertex.length + 2), (g.vertex.length + 1, g.vertex.length + 3)],
        g.weight ++ [W x0 y0 z (Q i) x0 y1 z (Q i), W x1 y0 z (Q i) x1 y1 z (Q i), W x0 y0 z (Q i) x1 y0 z (Q i),
          W x0 y1 z (Q i) x1 y1 z (Q i)]⟩,
        ⟨g.vertex.length, g.vertex.length + 4, [[g.vertex.length, g.vertex.length + 1], [g.vertex.length + 2, g.vertex.length + 3]]⟩) := by
    intro i hi g
    have h3 : ∀ n : ℕ, n + 2 + 1 = n + 3 := fun _ => rfl
    have g0 : ∀ (l : List Vec) (a b c d : Vec), (l ++ [a, b, c, d])[l.length]? = some a := fun l a b c d => by simp
    simp [h3, g0, constructSlice3D, planeStep, crossPlanes, crossLine, generateVertices, genRow, hr2, hr1, Res.idx, Res.at',
      Graph.addVertex, connectOneSlice2D, linkLine, linkSample, linkRow, linkNext, linkPair, hsame i hi, Graph.addEdge, hW,
      Res.bind_ok, Res.bind_ok']
  have hn0 : nearestSlice3D dist 0 2 = 0 := by simp [nearestSlice3D, nearestLoop]
  have hn1 : nearestSlice3D dist 1 2 = 0 := by simp [nearestSlice3D, nearestLoop, ltInf]
  have abs2 : ∀ {a b g : ℝ}, |a - b| ≤ g → ∀ y ∈ [a, b], ∀ y' ∈ [a, b], ¬ g < |y - y'| := by
    intro a b g h
    have h0 : 0 ≤ g := (abs_nonneg _).trans h
    intro y hy y' hy'
    simp only [List.mem_cons, List.not_mem_nil, or_false] at hy hy'
    rw [not_lt]
    rcases hy with rfl | rfl <;> rcases hy' with rfl | rfl
    · simpa using h0
    · exact h
    · rwa [abs_sub_comm]
    · simpa using h0
  have near : ∀ x ∈ [x0, x1], ∀ y ∈ [y0, y1], ∀ x' ∈ [x0, x1], ∀ y' ∈ [y0, y1], ∀ q q' : Quat,
      near3D gx gy (conf7 x y z q) (conf7 x' y' z q') = .ok true := by
    intro x hx y hy x' hx' y' hy' q q'
    unfold near3D
    simp only [Res.at', conf7, List.getElem?_cons_zero, List.getElem?_cons_succ, Res.bind_ok', gt_iff_lt]
    rw [if_neg (abs2 hgx x hx x' hx'), decide_eq_true (abs2 hgy y hy y' hy')]
  have step : ∀ (g : Graph) (i j s t : ℕ), i < 2 → j < 2 →
      g.vertex[s]? = some (conf7 x0 y0 z (Q j)) → g.vertex[s + 1]? = some (conf7 x0 y1 z (Q j)) →
      g.vertex[s + 2]? = some (conf7 x1 y0 z (Q j)) → g.vertex[s + 3]? = some (conf7 x1 y1 z (Q j)) →
      g.vertex[t]? = some (conf7 x0 y0 z (Q i)) →
      matchRanges Res.at' Res.idx (near3D gx gy) (freeMulti i j) s (s + 4) t (t + 4) g =
        .ok ⟨g.vertex, g.edge ++ [(s, t), (s + 1, t), (s + 2, t), (s + 3, t)],
          g.weight ++ [W x0 y0 z (Q j) x0 y0 z (Q i), W x0 y1 z (Q j) x0 y0 z (Q i), W x1 y0 z (Q j) x0 y0 z (Q i),
            W x1 y1 z (Q j) x0 y0 z (Q i)]⟩ := by
    intro g i j s t hi hj h0 h1 h2 h3 h4
    have hr : List.range' s (s + 4 - s) = [s, s + 1, s + 2, s + 3] := by
      rw [Nat.add_sub_cancel_left]; rfl
    have ht : t + 4 - t = 4 := by omega
    unfold matchRanges
    rw [hr]
    simp [matchStep, ht, matchOne, Res.idx, Res.at', h0, h1, h2, h3, h4, near, hmulti i hi j hj, Graph.addEdge, hW, Res.bind_ok,
      Res.bind_ok']
  have hpure : ∀ {β : Type} (a : β), (pure a : Res β) = .ok a := fun _ => rfl
  unfold buildRoadmap3D buildSlices
  rw [hr2]
  simp only [List.foldlM_cons, List.foldlM_nil, slice 0 (by omega), slice 1 (by omega), Res.bind_ok', Res.bind_ok, Graph.empty]
  unfold connectMultiSlice3D
  simp only [hpure, Res.bind_ok', List.nil_append, List.length_nil, List.length_cons, Nat.zero_add, Nat.reduceAdd,
    List.cons_append, hr2]
  rw [if_neg (by norm_num)]
  simp only [List.foldlM_cons, List.foldlM_nil, multiStep3D, hn0, hn1, Res.at', List.getElem?_cons_zero,
    List.getElem?_cons_succ, Res.bind_ok']
  rw [step _ 0 0 0 0 (by omega) (by omega) rfl rfl rfl rfl rfl]
  simp only [Res.bind_ok]
  rw [step _ 1 0 0 4 (by omega) (by omega) rfl rfl rfl rfl rfl]
  simp only [hpure, Res.bind_ok, Res.bind_ok']
  exact ⟨_, rfl, rfl, rfl, rfl⟩

/-- Everything in a list of meshes is in some cube. -/
theorem meshes_boxed (l : List Mesh) : ∃ R : ℝ, 0 ≤ R ∧ ∀ m ∈ l, ∀ v ∈ m.vertices,
    (-R ≤ v.x ∧ v.x ≤ R) ∧ (-R ≤ v.z ∧ v.z ≤ R) := by
  obtain ⟨R, h0, h⟩ := polys_boxed (l.map fun m => m.vertices.map fun v => (v.x, v.z))
  exact ⟨R, h0, fun m hm v hv => h _ (List.mem_map.2 ⟨m, hm, rfl⟩) _ (List.mem_map.2 ⟨v, hv, rfl⟩)⟩

/-- The meshes of the sampled surfaces have corners within range. -/
theorem gridMesh_wf {surf : List V3} {n : ℕ} (hn : n ≠ 0) (hl : surf.length = n * n) : (gridMesh surf n).WF := by
  constructor
  · intro h
    have h' : surf = [] := h
    rw [h'] at hl
    have := Nat.mul_pos (Nat.pos_of_ne_zero hn) (Nat.pos_of_ne_zero hn)
    simp at hl; omega
  · intro f hf
    have hq : ∀ q ∈ gridQ n, q + n + 1 < n * n := by
      intro q hq
      obtain ⟨i, hi, hq⟩ := List.mem_flatMap.1 hq
      obtain ⟨j, hj, rfl⟩ := List.mem_map.1 hq
      have hi' := List.mem_range.1 hi
      have hj' := List.mem_range.1 hj
      have h1 : (i + 1 + 1) * n ≤ n * n := Nat.mul_le_mul_right n (by omega)
      have h2 : (i + 1 + 1) * n = i * n + n + n := by ring
      omega
    have hv : (gridMesh surf n).vertices.length = n * n := hl
    rw [hv]
    rcases List.mem_append.1 hf with h | h <;> obtain ⟨q, hq', rfl⟩ := List.mem_map.1 h <;> have := hq q hq' <;>
      simp only <;> refine ⟨?_, ?_, ?_⟩ <;> omega

/-- A point far to the right is in no triangle, with any reasonable tolerance. -/
theorem not_inTriangle_right {R : ℝ} (hR : 0 ≤ R) {a b c p : V3} (ha : -R ≤ a.x ∧ a.x ≤ R) (hb : -R ≤ b.x ∧ b.x ≤ R)
    (hc : -R ≤ c.x ∧ c.x ≤ R) (hp : 2 * R + 1 ≤ p.x) : ¬ InTriangle triTol a b c p := by
  rintro ⟨s, t, s0, s1, t0, t1, ex, -, -⟩
  unfold triTol at s0 s1 t0 t1
  have e : p.x = (1 - s - t) * a.x + s * b.x + t * c.x := by rw [ex]; ring
  have k1 : 0 ≤ (1 - s - t + 1 / 10 ^ 12) * (R - a.x) := mul_nonneg (by linarith) (by linarith)
  have k2 : 0 ≤ (s + 1 / 10 ^ 12) * (R - b.x) := mul_nonneg (by linarith) (by linarith)
  have k3 : 0 ≤ (t + 1 / 10 ^ 12) * (R - c.x) := mul_nonneg (by linarith) (by linarith)
  nlinarith [k1, k2, k3]

/-- The angle between two orientations (what Eigen's `angularDistance` computes). -/
noncomputable def exAng (p q : Quat) : ℝ := 2 * Real.arccos |Quat.dot p q|

/-- Two slices, two planes, two lines per plane, five points per rotating step; limits derived from `R`. -/
noncomputable def exPar87 (R : ℝ) : Param3 := ⟨2, 2, 2, 5, 1, 2, 2 * R + 1, 2 * R + 2, 0, 1, 2 * R + 1, 2 * R + 3⟩

theorem exPar87_lines (R : ℝ) : (exPar87 R).linesX = [2 * R + 1, 2 * R + 2] ∧ (exPar87 R).linesY = [0, 1] := by
  constructor
  · simp only [Param3.linesX, exPar87, show List.range 2 = [0, 1] from rfl, List.map_cons, List.map_nil]
    norm_num
    ring
  · simp only [Param3.linesY, exPar87, show List.range 2 = [0, 1] from rfl, List.map_cons, List.map_nil]
    norm_num

/-- A horizontal step above all meshes is accepted. -/
theorem sameFree3_above {R z : ℝ} (hz : R < z) {ms : List Mesh} (hne : ∀ m ∈ ms, m.vertices ≠ [])
    (hm : ∀ m ∈ ms, ∀ v ∈ m.vertices, v.z ≤ R) (x y x' y' : ℝ) (q q' : Quat) :
    sameFree3 ms (conf7 x y z q) (conf7 x' y' z q') = .ok true := by
  rw [sameFree3_conf7]
  have : ∀ m ∈ ms, segHitsMesh triTol axisTol (placeOf (conf7 x y z q)) (placeOf (conf7 x' y' z q')) m = .ok false := by
    intro m hm'
    unfold segHitsMesh
    have e : lineMesh triTol axisTol ⟨placeOf (conf7 x y z q),
        ((placeOf (conf7 x' y' z q')).sub (placeOf (conf7 x y z q))).normalize⟩ m = .ok [] := by
      unfold lineMesh
      rw [if_neg (hne m hm'), if_pos]
      refine Or.inr (Or.inr ⟨?_, Or.inl fun v hv => ?_⟩)
      · have h0 : ((placeOf (conf7 x' y' z q')).sub (placeOf (conf7 x y z q))).z = 0 := sub_self z
        have : (((placeOf (conf7 x' y' z q')).sub (placeOf (conf7 x y z q))).normalize).z = 0 := by
          unfold V3.normalize
          split
          · unfold V3.smul; simp [h0]
          · exact h0
        rw [this, abs_zero]
        norm_num [axisTol]
      · exact (hm m hm' v hv).trans_lt hz
    rw [e]; rfl
  unfold sameSliceFree3D
  rw [noneOf_total (q := fun _ => false) ms this]
  simp

/-- The point test far to the right. -/
theorem isPtInCFree3D_right {R : ℝ} {ms : List Mesh} (hne : ∀ m ∈ ms, m.vertices ≠ [])
    (hm : ∀ m ∈ ms, ∀ v ∈ m.vertices, v.x ≤ R) {p : V3} (hp : R < p.x) : isPtInCFree3D triTol p ms = .ok true := by
  have : ∀ m ∈ ms, ptInObs3D triTol p m = .ok false := by
    intro m hm'
    unfold ptInObs3D vertLineMesh
    rw [if_neg (hne m hm'), if_pos]
    · rfl
    · exact Or.inl (Or.inl fun v hv => (hm m hm' v hv).trans_lt hp)
  unfold isPtInCFree3D
  rw [noneOf_total (q := fun _ => false) ms this]
  simp

/-- The two orientations of the example: none, and a third of a turn about the diagonal (1, 1, 1). -/
def exQ0 : Quat := (1, 0, 0, 0)
noncomputable def exQ1 : Quat := (1 / 2, 1 / 2, 1 / 2, 1 / 2)

/-- The orientations as the planner stores them with the vertices. -/
noncomputable def exS0 : Quat := matQuat (quatRot exQ0)
noncomputable def exS1 : Quat := matQuat (quatRot exQ1)

theorem exS_facts : exAng exS1 exQ0 = 2 * (Real.pi / 3) ∧ exAng exS1 exQ1 = 0 ∧ exAng exQ1 exQ0 = 2 * (Real.pi / 3) ∧
    exAng exQ1 exQ1 = 0 ∧ exAng exQ1 exS0 = 2 * (Real.pi / 3) ∧ exAng exQ1 exS1 = 0 := by
  have h0 : exQ0.Unit := by norm_num [Quat.Unit, exQ0]
  have h1 : exQ1.Unit := by norm_num [Quat.Unit, exQ1]
  have e1 : exS1 = exQ1 ∨ exS1 = (-(1 / 2), -(1 / 2), -(1 / 2), -(1 / 2)) := sameRotation_matQuat h1
  have e0 : exS0 = exQ0 ∨ exS0 = (-1, 0, 0, 0) := by
    rcases sameRotation_matQuat h0 with h | h
    · exact Or.inl h
    · right; unfold exS0; rw [h]; simp [exQ0]
  have hp := Real.pi_pos
  have z : Real.arccos (1 / 2) = Real.pi / 3 := by
    rw [← Real.cos_pi_div_three, Real.arccos_cos (by positivity) (by linarith)]
  have d10 : |Quat.dot exQ1 exQ0| = 1 / 2 := by norm_num [Quat.dot, exQ0, exQ1]
  have d11 : |Quat.dot exQ1 exQ1| = 1 := by norm_num [Quat.dot, exQ0, exQ1]
  have dS10 : |Quat.dot exS1 exQ0| = 1 / 2 := by
    rcases e1 with e1 | e1 <;> rw [e1] <;> norm_num [Quat.dot, exQ0, exQ1]
  have dS11 : |Quat.dot exS1 exQ1| = 1 := by
    rcases e1 with e1 | e1 <;> rw [e1] <;> norm_num [Quat.dot, exQ0, exQ1]
  have d1S0 : |Quat.dot exQ1 exS0| = 1 / 2 := by
    rcases e0 with e0 | e0 <;> rw [e0] <;> norm_num [Quat.dot, exQ0, exQ1]
  have d1S1 : |Quat.dot exQ1 exS1| = 1 := by
    rcases e1 with e1 | e1 <;> rw [e1] <;> norm_num [Quat.dot, exQ0, exQ1]
  unfold exAng
  rw [d10, d11, dS10, dS11, d1S0, d1S1, z, Real.arccos_one]
  simp

/-- The roadmap vertices of the example. -/
noncomputable def exVerts3 (x0 x1 y0 y1 z : ℝ) : List Vec :=
  [conf7 x0 y0 z exS0, conf7 x0 y1 z exS0, conf7 x1 y0 z exS0, conf7 x1 y1 z exS0,
   conf7 x0 y0 z exS1, conf7 x0 y1 z exS1, conf7 x1 y0 z exS1, conf7 x1 y1 z exS1]

/-- The query at a vertex of the second slice returns this vertex. -/
theorem near3_example {junk : Option Quat} {x0 x1 y0 y1 z gx gy : ℝ} (hx : x0 ≠ x1) (hy : y0 ≠ y1) (hgx : 0 < gx) (hgy : 0 < gy)
    (i : ℕ) (hi : i < 2) : nearest3DJ exAng junk [exQ0, exQ1] (exVerts3 x0 x1 y0 y1 z) (conf7 x0 (if i = 0 then y0 else y1) z exS1)
      1 2 gx gy = .ok [4 + i] := by
  obtain ⟨a1, a2, a3, a4, a5, a6⟩ := exS_facts
  set q := conf7 x0 (if i = 0 then y0 else y1) z exS1 with hq
  have hpi := Real.pi_pos
  have hpi3 := Real.pi_gt_three
  have hcq : closestQuat exAng [exQ0, exQ1] exS1 = .ok (0, some exQ1) := by
    unfold closestQuat
    simp only [Res.idx, List.getElem?_cons_zero, Res.bind_ok', List.foldl_cons, List.foldl_nil, a1, a2, lt_irrefl, if_false]
    rw [if_pos (by linarith)]
  have hcol : collectK (fun r => exAng exQ1 r < 2) 1 [] [exQ0, exQ1] = [exQ1] := by
    rw [collectK_eq _ _ _ (by simp)]
    have n1 : ¬ exAng exQ1 exQ0 < 2 := by rw [a3]; linarith
    have n2 : exAng exQ1 exQ1 < 2 := by rw [a4]; norm_num
    simp [n1, n2]
  obtain ⟨k, w, hw, hcase, hstep⟩ := nearestStep3D_spec exAng (verts := exVerts3 x0 x1 y0 y1 z) (by simp [exVerts3]) (le_refl 7)
    (by
      intro v hv
      simp only [exVerts3, List.mem_cons, List.not_mem_nil, or_false] at hv
      rcases hv with rfl | rfl | rfl | rfl | rfl | rfl | rfl | rfl <;> rfl) (q := q) rfl gx gy exQ1
  have hmem : q ∈ exVerts3 x0 x1 y0 y1 z := by
    interval_cases i <;> simp [hq, exVerts3]
  have hqs : exAng exQ1 (quat q) < 1 / 10 ^ 6 := by
    change exAng exQ1 exS1 < _; rw [a6]; norm_num
  have hqq : euclid q q = 0 := by simp [euclid, hq, conf7]
  have hk8 : k < 8 := by simpa [exVerts3] using (List.getElem?_eq_some_iff.1 hw).1
  have key : euclid q w ≤ 0 ∧ 4 ≤ k := by
    rcases hcase with ⟨v', h1, h2, h3⟩ | ⟨-, h⟩
    · rw [hw] at h1
      obtain rfl := Option.some.inj h1
      refine ⟨hqq ▸ h3 q hmem hqs, ?_⟩
      by_contra hk
      have : quat w = exS0 := by
        interval_cases k <;> first | omega | (obtain rfl := Option.some.inj hw; rfl)
      rw [this, a5] at h2
      norm_num at h2
      linarith
    · exact absurd hqs (h q hmem)
  have hsame : ∀ x y : ℝ, euclid q (conf7 x y z exS1) ≤ 0 → x0 = x ∧ (if i = 0 then y0 else y1) = y := by
    intro x y h
    have h0 := le_antisymm h (Real.sqrt_nonneg _)
    unfold euclid at h0
    rw [Real.sqrt_eq_zero (by simp [hq, conf7]; positivity)] at h0
    simp only [hq, conf7, List.zipWith_cons_cons, List.zipWith_nil_left, List.sum_cons, List.sum_nil, sub_self] at h0
    norm_num at h0
    constructor
    · nlinarith [sq_nonneg (x0 - x), sq_nonneg ((if i = 0 then y0 else y1) - y)]
    · nlinarith [sq_nonneg (x0 - x), sq_nonneg ((if i = 0 then y0 else y1) - y)]
  have hk : k = 4 + i ∧ w = q := by
    obtain ⟨hle, hk4⟩ := key
    have hk' : k = 4 ∨ k = 5 ∨ k = 6 ∨ k = 7 := by omega
    rcases hk' with e | e | e | e <;> rw [e] at hw ⊢ <;> obtain rfl := Option.some.inj hw <;> have hs := hsame _ _ hle
    · interval_cases i
      · exact ⟨rfl, hq.symm⟩
      · exact absurd hs.2.symm hy
    · interval_cases i
      · exact absurd hs.2 hy
      · exact ⟨rfl, hq.symm⟩
    · exact absurd hs.1 hx
    · exact absurd hs.1 hx
  unfold nearest3DJ
  rw [show quatOf q = .ok exS1 from rfl, Res.bind_ok', hcq, Res.bind_ok']
  simp only [Option.some_or]
  rw [hcol, List.foldlM_cons, hstep, hk.1, hk.2]
  simp only [sub_self, abs_zero, hgx, hgy, and_self, if_true]
  rfl

/-- The obstacle of the example: a ball of radius 1, ten by ten surface points. -/
noncomputable def exObs87 : SuperQuadrics := ⟨1, 1, 1, 1, 1, 0, (1, 0, 0, 0), 10⟩

/-- A planner with an obstacle that meets the hypotheses of `C87_spatial_path_safe_partial`, solves its task, and returns a
path with an inner step: start, two or more roadmap vertices, goal. -/
theorem C87_witness (base : SuperQuadrics) (sort : StdSort ℝ) (svd : SvdFun 3) (pick : ℕ → (ℕ → ℝ) → List ℕ → ℕ) (hpick : HeapTop pick)
    (junk : Option Quat) (rand : ℕ → Quat) (randJoint : ℕ → ℕ → ℝ) (clock : ℕ → ℝ) (timeLim : ℝ) :
    ∃ (dmin dmax : ℝ) (par : Param3) (start goal : Vec) (r' : PlanRep Planner3) (B : Bound3) (M : BoundMesh),
    Planner3.plan ⟨sort, dmin, dmax, svd, pick, exAng, junk, rand, randJoint⟩ ⟨none, none⟩ clock timeLim 0
      (freshRep3 (.new (Tree3.new base) [exQ0, exQ1] [exBall3 20] [exObs87] start goal par true)) = some (.ok r') ∧
    r'.st.res.solved = true ∧ start.length = 7 ∧ goal.length = 7 ∧ start ≠ goal ∧ 1 ≤ par.numPoint ∧
    (∀ q ∈ [exQ0, exQ1], q.Unit) ∧
    cspaceBoundary3 (Tree3.new base) [exBall3 20] [exObs87] = .ok B ∧ cspaceMesh [exBall3 20] [exObs87] B = .ok M ∧
    M.obstacle ≠ [] ∧ SweepGeneric3 ⟨sort, dmin, dmax, svd, pick, exAng, junk, rand, randJoint⟩ par M ∧
    4 ≤ r'.solvedPath.length := by
  have hrun : Tree3.run [] (Tree3.new base) = .ok (Tree3.new base) := rfl
  have hr := run_inv_of3 hrun
  obtain ⟨B, hB, b1, b2, b3, b4⟩ := cspaceBoundary3_ok hr [exBall3 20] [exObs87]
  obtain ⟨M, hM, m1, m2⟩ := cspaceMesh_ok b1 b2
  have hu : ∀ q ∈ [exQ0, exQ1], q.Unit := by
    intro q hq
    simp only [List.mem_cons, List.not_mem_nil, or_false] at hq
    rcases hq with rfl | rfl <;> norm_num [Quat.Unit, exQ0, exQ1]
  have hMa : M.arena = B.arena.map (fun b => gridMesh (b.map toV3) (exBall3 20).num) ∧
      M.obstacle = B.obstacle.map (fun b => gridMesh (b.map toV3) exObs87.num) := by
    have hM' := hM
    unfold cspaceMesh at hM'
    obtain ⟨A, h1, hM'⟩ := Res.bind_eq_ok.1 hM'
    obtain ⟨O, h2, hM'⟩ := Res.bind_eq_ok.1 hM'
    obtain rfl := (Res.ok.injEq _ _).mp hM'
    rw [boundMeshes_eq (o := exBall3 20) rfl] at h1
    rw [boundMeshes_eq (o := exObs87) rfl] at h2
    obtain rfl := (Res.ok.injEq _ _).mp h1
    obtain rfl := (Res.ok.injEq _ _).mp h2
    exact ⟨rfl, rfl⟩
  have hMne : M.arena ≠ [] := by
    intro e; rw [e] at m1; rw [b1] at m1; simp [addedBodies] at m1
  have hOne : M.obstacle ≠ [] := by
    intro e; rw [e] at m2; rw [b2] at m2; simp [addedBodies] at m2
  have hwf : ∀ m ∈ M.arena ++ M.obstacle, m.WF := by
    intro m hm
    rcases List.mem_append.1 hm with h | h
    · rw [hMa.1] at h
      obtain ⟨b, hb, rfl⟩ := List.mem_map.1 h
      obtain ⟨o, ho, hl⟩ := b3 b hb
      obtain rfl := List.mem_singleton.1 ho
      exact gridMesh_wf (by simp [exBall3]) (by rw [List.length_map, hl]; simp [SuperQuadrics.minkSum3D])
    · rw [hMa.2] at h
      obtain ⟨b, hb, rfl⟩ := List.mem_map.1 h
      obtain ⟨o, ho, hl⟩ := b4 b hb
      obtain rfl := List.mem_singleton.1 ho
      exact gridMesh_wf (by simp [exObs87]) (by rw [List.length_map, hl]; simp [SuperQuadrics.minkSum3D])
  -- everything the planner computes is in a cube
  set E : Quat → Quat → SuperQuadrics := fun p q => tfe3Of svd base p q 5 with hE
  obtain ⟨R, hR0, hR⟩ := meshes_boxed (M.arena ++ M.obstacle ++
    [exQ0, exQ1].flatMap (fun p => [exQ0, exQ1].flatMap fun q => bridgeBound3 [exObs87] (E p q)))
  have hRM : ∀ m ∈ M.arena ++ M.obstacle, ∀ v ∈ m.vertices, (-R ≤ v.x ∧ v.x ≤ R) ∧ (-R ≤ v.z ∧ v.z ≤ R) := fun m hm =>
    hR m (List.mem_append_left _ hm)
  have hRE : ∀ p ∈ [exQ0, exQ1], ∀ q ∈ [exQ0, exQ1], ∀ m ∈ bridgeBound3 [exObs87] (E p q), ∀ v ∈ m.vertices, v.x ≤ R :=
    fun p hp q hq m hm v hv => (hR m (List.mem_append_right _
      (List.mem_flatMap.2 ⟨p, hp, List.mem_flatMap.2 ⟨q, hq, hm⟩⟩)) v hv).1.2
  set par := exPar87 R with hpar
  obtain ⟨hlx, hly⟩ := exPar87_lines R
  set L : Libs3 := ⟨sort, -(2 * R + 5), 2 * R + 5, svd, pick, exAng, junk, rand, randJoint⟩ with hL
  have hxs : ∀ x ∈ [2 * R + 1, 2 * R + 2], 2 * R + 1 ≤ x := by
    intro x hx
    simp only [List.mem_cons, List.not_mem_nil, or_false] at hx
    rcases hx with rfl | rfl <;> linarith
  have hnot : ∀ m ∈ M.arena ++ M.obstacle, ∀ x ∈ par.linesX, ∀ (a b c : V3) (p : V3), p.x = x →
      a ∈ m.vertices → b ∈ m.vertices → c ∈ m.vertices → ¬ InTriangle triTol a b c p := by
    intro m hm x hx a b c p hp ha hb hc
    rw [hlx] at hx
    exact not_inTriangle_right hR0 (hRM m hm a ha).1 (hRM m hm b hb).1 (hRM m hm c hc).1 (by rw [hp]; exact hxs x hx)
  have hgen : SweepGeneric3 L par M := by
    refine ⟨by simp [hpar, exPar87], hMne, ?_, ?_, ?_, ?_⟩
    · simp only [hL, hpar, exPar87]; linarith
    · simp only [hL, hpar, exPar87]; linarith
    · refine fun m hm => ⟨hwf m (List.mem_append_left _ hm), ?_⟩
      rintro x hx y hy a b c z ⟨f, hf, ha, hb, hc⟩ hin
      exact absurd hin (hnot m (List.mem_append_left _ hm) x hx a b c _ rfl (List.mem_of_getElem? ha) (List.mem_of_getElem? hb)
        (List.mem_of_getElem? hc))
    · refine fun m hm => ⟨hwf m (List.mem_append_right _ hm), fun x hx y hy => ⟨?_, ?_⟩⟩
      · rw [List.countP_eq_zero.2]
        · omega
        · rintro f hf hmeet
          simp only [decide_eq_true_eq] at hmeet
          obtain ⟨a, b, c, p, ha, hb, hc, -, ⟨τ, hτ⟩, hin⟩ := hmeet
          refine hnot m (List.mem_append_right _ hm) x hx a b c p ?_ (List.mem_of_getElem? ha) (List.mem_of_getElem? hb)
            (List.mem_of_getElem? hc) hin
          rw [hτ]; simp [vertical]
      · rintro a b c p ⟨f, hf, ha, hb, hc⟩ ⟨τ, hτ⟩ hin
        refine absurd (inTriangle_mono triTol_pos.le hin) (hnot m (List.mem_append_right _ hm) x hx a b c p ?_
          (List.mem_of_getElem? ha) (List.mem_of_getElem? hb) (List.mem_of_getElem? hc))
        rw [hτ]; simp [vertical]
  have hmiss : ∀ x ∈ [2 * R + 1, 2 * R + 2], ∀ (y : ℝ), ∀ m ∈ M.arena ++ M.obstacle,
      vertLineMesh triTol (vertical x y 0) m = .ok [] := by
    intro x hx y m hm
    unfold vertLineMesh
    rw [if_neg (hwf m hm).1, if_pos]
    exact Or.inl (Or.inl fun v hv => by
      have := (hRM m hm v hv).1.2
      have := hxs x hx
      simp only [vertical]; linarith)
  have hz : ((2 * R + 1) + (2 * R + 3)) / 2 = 2 * R + 2 := by ring
  have hplane : ∀ x ∈ [2 * R + 1, 2 * R + 2], planeSeg L par.zLo par.zHi M [0, 1] x =
      .ok ⟨[0, 1], [⟨[2 * R + 1], [2 * R + 3], [2 * R + 2]⟩, ⟨[2 * R + 1], [2 * R + 3], [2 * R + 2]⟩]⟩ := by
    intro x hx
    have := planeSeg_missed L (2 * R + 1) (2 * R + 3) (by linarith) M hMne x 0 1 (fun m hm y _ => hmiss x hx y m hm)
    rwa [hz] at this
  have hsegs : sweep3D L par.zLo par.zHi M par.linesX par.linesY = .ok
      [(2 * R + 1, ⟨[0, 1], [⟨[2 * R + 1], [2 * R + 3], [2 * R + 2]⟩, ⟨[2 * R + 1], [2 * R + 3], [2 * R + 2]⟩]⟩),
       (2 * R + 2, ⟨[0, 1], [⟨[2 * R + 1], [2 * R + 3], [2 * R + 2]⟩, ⟨[2 * R + 1], [2 * R + 3], [2 * R + 2]⟩]⟩)] := by
    rw [hlx, hly]
    unfold sweep3D
    simp only [List.foldlM_cons, List.foldlM_nil, hplane _ (List.mem_cons_self ..), hplane (2 * R + 2) (by simp), Res.bind_ok',
      Res.bind_ok, List.nil_append, List.cons_append]
    rfl
  set start : Vec := conf7 (2 * R + 1) 0 (2 * R + 2) exS1 with hstart
  set goal : Vec := conf7 (2 * R + 1) 1 (2 * R + 2) exS1 with hgoal
  set Q0 := freshQ L (Tree3.new base) [exQ0, exQ1] [exBall3 20] [exObs87] start goal par with hQ0
  have hq : Q0.q = [exQ0, exQ1] := by rw [hQ0, freshQ_q]; rfl
  have hsim := build3_sim (V := ⟨none, none⟩) rfl hr hB hM hQ0 (by rw [hpar]; simp [exPar87]) (by rw [hpar]; simp [exPar87])
    (by
      intro x hx y hy m hm
      rw [hlx] at hx
      refine ⟨[], ?_, by simp⟩
      unfold isect3
      rw [hmiss x hx y m hm]; rfl) hsegs
  have hsq : ∀ i < 2, ∃ q ∈ [exQ0, exQ1], sliceQuat Q0.q i = matQuat (quatRot q) ∧ [exQ0, exQ1][i]? = some q := by
    intro i hi
    rw [hq]
    interval_cases i
    · exact ⟨exQ0, by simp, rfl, rfl⟩
    · exact ⟨exQ1, by simp, rfl, rfl⟩
  have hfree : ∀ i < 2, ∀ j < 2, ∀ x ∈ [2 * R + 1, 2 * R + 2], ∀ y ∈ [(0 : ℝ), 1], ∀ x' ∈ [2 * R + 1, 2 * R + 2], ∀ y' ∈ [(0 : ℝ), 1],
      Q0.freeMulti L ⟨none, none⟩ i j (conf7 x y (2 * R + 2) (sliceQuat Q0.q j)) (conf7 x' y' (2 * R + 2) (sliceQuat Q0.q i))
        = .ok true := by
    intro i hi j hj x hx y hy x' hx' y' hy'
    obtain ⟨qi, hqi, ei, gi⟩ := hsq i hi
    obtain ⟨qj, hqj, ej, gj⟩ := hsq j hj
    rw [ei, ej]
    obtain ⟨steps, -, hmo, hiff, -⟩ := C53_spatial_check_partial L base [] _ hrun [exQ0, exQ1] [exBall3 20] [exObs87] start goal par
      (by rw [hpar]; simp [exPar87]) i j qi qj gi gj _ _ (unitPose_conf7 (hu qj hqj) x y (2 * R + 2))
      (unitPose_conf7 (hu qi hqi) x' y' (2 * R + 2)) rfl
    refine hiff.2 fun u hu' => ⟨⟨_, tfe3Of_spec .., ?_⟩, by simp [addedBodies]⟩
    obtain ⟨k, hk⟩ := List.mem_iff_getElem?.1 hu'
    have hseg := (hmo.2.1 k u hk).2.1 0 (Or.inl (by norm_num))
    have hkl : k ≤ 5 := by
      have := (List.getElem?_eq_some_iff.1 hk).1
      rw [hmo.1] at this
      simp only [hpar, exPar87] at this
      omega
    refine isPtInCFree3D_right (R := R) ?_ (hRE qi hqi qj hqj) ?_
    · intro m hm
      obtain ⟨o, ho, rfl⟩ := List.mem_map.1 hm
      obtain rfl := List.mem_singleton.1 ho
      exact (gridMesh_wf (by simp [exObs87]) (by simp [SuperQuadrics.minkSum3D])).1
    · change R < coordOf u 0
      have e1 : coordOf (conf7 x y (2 * R + 2) (matQuat (quatRot qj))) 0 = x := rfl
      have e2 : coordOf (conf7 x' y' (2 * R + 2) (matQuat (quatRot qi))) 0 = x' := rfl
      have := hxs x hx
      have := hxs x' hx'
      unfold OnSegment at hseg
      rw [e1, e2] at hseg
      have hk0 : (0 : ℝ) ≤ (k : ℝ) / (par.numPoint : ℝ) := by positivity
      have hk1 : (k : ℝ) / (par.numPoint : ℝ) ≤ 1 := by
        simp only [hpar, exPar87]
        rw [div_le_one (by norm_num)]
        exact_mod_cast hkl
      rw [hseg]
      nlinarith
  obtain ⟨⟨g, idx⟩, hbr, hv, hw, he⟩ := roadmap3_all_free (dist := qDist L.ang Q0.q) (freeSame := fun _ => sameFree3 M.obstacle)
    (freeMulti := Q0.freeMulti L ⟨none, none⟩) (gx := par.gapX) (gy := par.gapY) (x0 := 2 * R + 1) (x1 := 2 * R + 2) (y0 := 0) (y1 := 1)
    (z := 2 * R + 2) (l := 2 * R + 1) (u := 2 * R + 3) (Q := sliceQuat Q0.q)
    (by
      simp only [hpar, exPar87, Param3.gapX]
      rw [show 2 * R + 1 - (2 * R + 2) = -1 by ring, show 2 * R + 2 - (2 * R + 1) = 1 by ring]
      norm_num)
    (by simp only [hpar, exPar87, Param3.gapY]; norm_num)
    (by
      intro i hi x hx y hy x' hx' y' hy'
      exact sameFree3_above (R := R) (by linarith) (fun m hm => (hwf m (List.mem_append_right _ hm)).1)
        (fun m hm v hv => (hRM m (List.mem_append_right _ hm) v hv).2.2) _ _ _ _ _ _)
    hfree
  have hql : Q0.q.length = 2 := by rw [hq]; rfl
  rw [hql] at hsim
  have hmk : (fun i => mkVertex (sliceQuat Q0.q i) []) = fun i x y z => conf7 x y z (sliceQuat Q0.q i) := rfl
  rw [hmk, hbr] at hsim
  obtain ⟨P, hbd, hi⟩ := hsim
  simp only at hv hw he
  have hS0 : sliceQuat Q0.q 0 = exS0 := by rw [hq]; rfl
  have hS1 : sliceQuat Q0.q 1 = exS1 := by rw [hq]; rfl
  rw [hS0, hS1] at hv
  change g.vertex = exVerts3 (2 * R + 1) (2 * R + 2) 0 1 (2 * R + 2) at hv
  have hok := C23_build3D _ _ _ _ _ _ _ _ 7 (fun _ _ _ _ => rfl) g idx hbr
  have hvlen : g.vertex.length = 8 := by rw [hv]; rfl
  have hS : ∀ s ∈ [4], s < g.vertex.length := by simp [hvlen]
  have hG : ∀ s ∈ [5], s < g.vertex.length := by simp [hvlen]
  have hfresh : SearchRes.Fresh ⟨false, [], some 0⟩ := ⟨rfl, rfl⟩
  obtain ⟨sr, hsr⟩ := C28_search_returns hok hpick hS hG hfresh (by rw [hvlen, hw]; norm_num)
  have hconn : g.Connected 4 5 := by
    refine ⟨[4, 5], g.weight[4]'(by omega) + 0, .cons 4 5 [] _ 0 (.single 5 (by omega)) ⟨4, List.getElem?_eq_getElem _, Or.inl he⟩,
      rfl, rfl⟩
  have hsol : sr.solved = true :=
    (C28_search_complete_optimal hok hpick hS hG hfresh hsr).1.2 ⟨4, by simp, 5, by simp, hconn⟩
  obtain ⟨s, hs, t, ht, len, hpath, -⟩ := C27_search_returns_path hok hpick hS hG hfresh hsr hsol
  obtain rfl := List.mem_singleton.1 hs
  obtain rfl := List.mem_singleton.1 ht
  have hids := hpath.1.mem_lt hok
  have hlen2 : 2 ≤ sr.pathId.length := by
    obtain ⟨-, h1, h2⟩ := hpath
    match hp : sr.pathId with
    | [] => rw [hp] at h1; exact nomatch h1
    | [a] =>
      rw [hp] at h1 h2
      simp only [List.head?_cons, Option.some.injEq] at h1
      simp only [List.getLast?_singleton, Option.some.injEq] at h2
      omega
    | a :: b :: l => simp
  have hSO := sampleSO3_same (L := L) (Planner3.new (Tree3.new base) [exQ0, exQ1] [exBall3 20] [exObs87] start goal par true)
  have est : P.start = start := hi.start.trans hSO.2.2.2.2.1
  have egl : P.goal = goal := hi.goal.trans hSO.2.2.2.2.2.1
  have ers : P.res = ⟨false, [], some 0⟩ := hi.res.trans hSO.2.2.2.2.2.2.2.2.2.2.2.1
  have epar : P.par = par := by rw [hi.par, hQ0]; rfl
  have hPs : P.search L = .ok { P with res := sr } := by
    have g1 : (2 : ℝ) * ((2 * R + 2) - (2 * R + 1)) / (2 : ℕ) = 1 := by push_cast; ring
    have g2 : (2 : ℝ) * (1 - 0) / (2 : ℕ) = 1 := by norm_num
    have hxne : 2 * R + 1 ≠ 2 * R + 2 := by intro h; linarith
    have n0 := near3_example (junk := junk) (z := 2 * R + 2) (gx := 1) (gy := 1) hxne (zero_ne_one (α := ℝ)) (by norm_num)
      (by norm_num) 0 (by norm_num)
    have n1 := near3_example (junk := junk) (z := 2 * R + 2) (gx := 1) (gy := 1) hxne (zero_ne_one (α := ℝ)) (by norm_num)
      (by norm_num) 1 (by norm_num)
    change nearest3DJ _ _ _ _ start 1 2 _ _ = .ok [4] at n0
    change nearest3DJ _ _ _ _ goal 1 2 _ _ = .ok [5] at n1
    unfold Planner3.search
    simp only [est, egl, ers, hi.graph, hi.q, hq, epar, hv]
    change (nearest3DJ exAng junk [exQ0, exQ1] (exVerts3 (2 * R + 1) (2 * R + 2) 0 1 (2 * R + 2)) start 1 2
      (2 * ((2 * R + 2) - (2 * R + 1)) / (2 : ℕ)) (2 * (1 - 0) / (2 : ℕ))).bind _ = _
    rw [g1, g2, n0, Res.bind_ok']
    change (nearest3DJ exAng junk [exQ0, exQ1] (exVerts3 (2 * R + 1) (2 * R + 2) 0 1 (2 * R + 2)) goal 1 2
      (2 * ((2 * R + 2) - (2 * R + 1)) / (2 : ℕ)) (2 * (1 - 0) / (2 : ℕ))).bind _ = _
    rw [g1, g2, n1, Res.bind_ok']
    change (search g pick [4] [5] _).bind _ = _
    rw [hsr, Res.bind_ok']
  obtain ⟨path, mid, hp1, hp2, hp3, -⟩ := C30_solution_path hok.dims start goal sr.pathId hids (by rw [hv]; simp [exVerts3])
  have hpath' : getSolutionPath P.graph P.start P.goal sr.pathId = .ok path := by
    rw [hi.graph, est, egl]; exact hp1
  obtain ⟨r', e, er, epath⟩ := plan_solved_once (ops := planner3Ops L ⟨none, none⟩) clock timeLim 0
    (freshRep3 (.new (Tree3.new base) [exQ0, exQ1] [exBall3 20] [exObs87] start goal par true)) hbd hPs hsol hpath' ⟨_, rfl⟩
  refine ⟨_, _, par, start, goal, r', B, M, e, by rw [er]; exact hsol, rfl, rfl, ?_, by simp [hpar, exPar87], hu, hB, hM, hOne, hgen, ?_⟩
  · intro h
    simp only [hstart, hgoal, conf7, List.cons.injEq, and_true, true_and] at h
    exact zero_ne_one h
  · rw [epath, hp2]
    simp only [List.length_cons, List.length_append, List.length_nil]
    omega

/-- `C87_spatial_path_safe_partial` applies to the run of `C87_witness`: every step of the returned path between its first
and its last is safe, and there is such a step. -/
example (sort : StdSort ℝ) (svd : SvdFun 3) (pick : ℕ → (ℕ → ℝ) → List ℕ → ℕ) (hpick : HeapTop pick) (junk : Option Quat)
    (rand : ℕ → Quat) (randJoint : ℕ → ℕ → ℝ) (clock : ℕ → ℝ) (timeLim : ℝ) :
    ∃ (L : Libs3) (par : Param3) (start goal : Vec) (mid : List Vec) (r' : PlanRep Planner3) (M : BoundMesh),
      Planner3.plan L ⟨none, none⟩ clock timeLim 0
        (freshRep3 (.new (Tree3.new exRobot3) [exQ0, exQ1] [exBall3 20] [exObs87] start goal par true)) = some (.ok r') ∧
      r'.solvedPath = start :: (mid ++ [goal]) ∧ 2 ≤ mid.length ∧ M.obstacle ≠ [] ∧
      ∀ (k : ℕ) (a b : Vec), mid[k]? = some a → mid[k + 1]? = some b →
        StepSafe3 L ⟨none, none⟩ [exObs87] exRobot3 [] par (orientations L [exQ0, exQ1] par) M a b := by
  obtain ⟨dmin, dmax, par, start, goal, r', B, M, h, hsol, hs, hg, -, hnp, hu, hB, hM, hne, hgen, hlen⟩ :=
    C87_witness exRobot3 sort svd pick hpick junk rand randJoint clock timeLim
  obtain ⟨B', M', segs, mid, hB', hM', -, hpath, -, hsafe⟩ := C87_spatial_path_safe_partial
    ⟨sort, dmin, dmax, svd, pick, exAng, junk, rand, randJoint⟩ ⟨none, none⟩ rfl hpick exRobot3 [] (Tree3.new exRobot3) rfl
    [exQ0, exQ1] [exBall3 20] [exObs87] (Or.inl (by simp)) start goal hs hg par hnp (by simpa [orientations] using hu) clock
    timeLim 0 r' h hsol
  rw [hB] at hB'
  obtain rfl := (Res.ok.injEq _ _).mp hB'
  rw [hM] at hM'
  obtain rfl := (Res.ok.injEq _ _).mp hM'
  refine ⟨_, par, start, goal, mid, r', M, h, hpath, ?_, hne, (hsafe hgen).2⟩
  rw [hpath] at hlen
  simp only [List.length_cons, List.length_append, List.length_nil] at hlen
  omega

end Hrm
