import Verif.Props.Sweep3D

/-!
# A solved run of the spatial planner

The hypotheses of C73 are satisfiable: in an arena without obstacles the whole chain (slices, sweep, roadmap, queries,
search, path) returns and reports success.
-/

namespace Hrm

open Matrix Classical

/-- Without obstacles every transition between two slices is accepted. -/
theorem freeMulti3_free {base added} (L : Libs3) {V : Variant} (hV : V.arm = none) {P : Planner3}
    (hr : Tree3.Inv base added P.robot) (hobs : P.obs = []) (hnp : 1 ≤ P.par.numPoint) {i j : ℕ} (hi : i < P.q.length)
    (hj : j < P.q.length) {v w : Vec} (hv : v.length = 7) (hw : w.length = 7) :
    P.freeMulti L V i j v w = .ok true := by
  unfold Planner3.freeMulti multiFree3
  rw [Res.at'_eq_ok.2 (List.getElem?_eq_getElem hi), Res.bind_ok', Res.at'_eq_ok.2 (List.getElem?_eq_getElem hj),
    Res.bind_ok', interpolateCompound_eq (by omega) (by omega), hobs]
  have e : ((if P.par.numPoint = 0 ∧ v.length ≠ 7 then [v.map some, w.map some] else []) ++
      (List.range (P.par.numPoint + 1)).map (compRow v w P.par.numPoint)) =
      ((List.range (P.par.numPoint + 1)).map (compVec v w P.par.numPoint)).map (·.map some) := by
    rw [if_neg (by omega), List.nil_append, List.map_map]
    exact List.map_congr_left fun i _ => compRow_eq v w hnp i
  rw [e]
  have h7 : ∀ u ∈ (List.range (P.par.numPoint + 1)).map (compVec v w P.par.numPoint), 7 ≤ u.length := by
    intro u hu
    obtain ⟨k, -, rfl⟩ := List.mem_map.1 hu
    rw [compVec_length (by omega)]; omega
  cases hf : V.fcl with
  | some hit =>
    simp only [Res.bind_ok']
    refine (multiLoop3_iff hV [] [] _ h7 hr).1.2 fun u _ => ?_
    unfold stepFree3
    rw [hf]; rfl
  | none =>
    simp only [computeTFE3_eq hr, Res.bind_ok']
    refine (multiLoop3_iff hV [] _ _ h7 hr).1.2 fun u _ => ?_
    unfold stepFree3
    rw [hf]
    dsimp only
    refine (poseFree3_iff L [] base added P.par.numPoint P.q[i] P.q[j] u).1.2 ⟨?_, ?_⟩
    · exact ⟨_, tfe3Of_spec .., rfl⟩
    · intro l _
      exact ⟨_, tfe3Of_spec .., rfl⟩

theorem sameFree3_nil_total : TotalOn 7 (sameFree3 []) := by
  intro a b ha hb
  have hs : ∀ v : Vec, v.length = 7 → ∃ p, spatial v = .ok p := by
    intro v hv
    obtain ⟨x, y, z, t, rfl⟩ : ∃ x y z t, v = x :: y :: z :: t := by
      match v, hv with
      | x :: y :: z :: t, _ => exact ⟨x, y, z, t, rfl⟩
    exact ⟨_, rfl⟩
  obtain ⟨p, hp⟩ := hs a ha
  obtain ⟨q, hq⟩ := hs b hb
  exact ⟨_, by unfold sameFree3; rw [hp, Res.bind_ok', hq, Res.bind_ok']; rfl⟩

/-- A query with a slice strictly closer than the first one, a wide radius and wide gaps has an answer. -/
theorem nearest3DJ_nonempty {ang : Quat → Quat → ℝ} {junk : Option Quat} {q0 q1 : Quat} {verts : List Vec} {q : Vec}
    {radius gx gy : ℝ} (hne : verts ≠ []) (hdim : ∀ v ∈ verts, v.length = 7) (hq : q.length = 7) (hqq : quat q = q1)
    (hc : ang q1 q1 < ang q1 q0) (hr : ang q1 q1 < radius)
    (hg : ∀ v ∈ verts, |coord q 0 - coord v 0| < gx ∧ |coord q 1 - coord v 1| < gy) :
    ∃ ids, nearest3DJ ang junk [q0, q1] verts q 1 radius gx gy = .ok ids ∧ ids ≠ [] := by
  obtain ⟨m, hm, hcase⟩ := closestQuat_spec ang q0 [q1] q1
  have hm2 : m.2 = some q1 := by
    rcases hcase with ⟨-, h⟩ | ⟨r, hr, h1, h2, h3⟩
    · have := h q1 (by simp); linarith
    · rcases List.mem_cons.1 hr with rfl | hr
      · exact absurd h2 (lt_irrefl _)
      · obtain rfl := List.mem_singleton.1 hr
        exact h1
  have hcol : ∃ r l, collectK (fun r => ang q1 r < radius) 1 [] [q0, q1] = r :: l := by
    rw [collectK_eq _ _ _ (by simp)]
    by_cases h0 : ang q1 q0 < radius
    · exact ⟨q0, [], by simp [h0]⟩
    · exact ⟨q1, [], by simp [h0, hr]⟩
  obtain ⟨r, l, hl⟩ := hcol
  have hfold : ∀ (l : List Quat) (idx : List ℕ), ∃ ids, l.foldlM (nearestStep3D ang verts q gx gy) idx = .ok ids ∧
      idx.length + l.length = ids.length := by
    intro l
    induction l with
    | nil => intro idx; exact ⟨idx, rfl, by simp⟩
    | cons b l ih =>
      intro idx
      obtain ⟨i, w, hw, -, hstep⟩ := nearestStep3D_spec ang hne (le_refl 7) hdim hq gx gy b
      rw [List.foldlM_cons, hstep, if_pos (hg w (List.mem_of_getElem? hw))]
      obtain ⟨ids, e, hlen⟩ := ih (idx ++ [i])
      exact ⟨ids, e, by rw [← hlen]; simp; omega⟩
  obtain ⟨ids, e, hlen⟩ := hfold (r :: l) []
  refine ⟨ids, ?_, ?_⟩
  · unfold nearest3DJ
    rw [quatOf_eq (by omega), Res.bind_ok', show quat q = q1 from hqq, hm, Res.bind_ok', hm2]
    simp only [Option.some_or]
    rw [hl]; exact e
  · rintro rfl; simp at hlen

/-- Two sweep planes and two lines in each, to the right of everything within `R`; heights from 0 to 1. -/
noncomputable def exPar73 (R : ℝ) : Param3 := ⟨2, 2, 2, 5, 1, 100, R + 1, R + 2, 0, 1, 0, 1⟩

theorem meshes_bounded (l : List Mesh) : ∃ R : ℝ, 0 ≤ R ∧ ∀ m ∈ l, ∀ v ∈ m.vertices, v.x ≤ R := by
  obtain ⟨R, h0, h⟩ := polys_bounded (l.map fun m => m.vertices.map fun v => (v.x, v.y))
  exact ⟨R, h0, fun m hm v hv => (h _ (List.mem_map.2 ⟨m, hm, rfl⟩) _ (List.mem_map.2 ⟨v, hv, rfl⟩)).2⟩

/-- C73, a solved run: for every robot (built by public calls), every arena of sampled objects and no obstacles, both
the bridging and the ablated planner, with two predefined orientations `q0`, `q1` (the second strictly closer to itself
than the first is), planning from a configuration to itself succeeds on suitable sweep lines. -/
theorem C73_witness (L : Libs3) (hpick : HeapTop L.pick) (hlo : L.dmin ≤ 0) (hup : 1 ≤ L.dmax) (V : Variant)
    (hV : V.arm = none) (base : SuperQuadrics) (ops : List (RobotOp SuperQuadrics 3)) (robot : Tree3)
    (hrun : Tree3.run ops (Tree3.new base) = .ok robot) (arena : List SuperQuadrics) (hne : arena ≠ [])
    (hnum : ∀ o ∈ arena, 0 < o.num) (q0 q1 : Quat) (hang : L.ang q1 q1 < L.ang q1 q0) (hrad : L.ang q1 q1 < 100)
    (clock : ℕ → ℝ) (timeLim : ℝ) :
    ∃ R r', Planner3.plan L V clock timeLim 0 (freshRep3 (.new robot [q0, q1] arena [] (conf7 (R + 1) 0 0 q1)
      (conf7 (R + 1) 0 0 q1) (exPar73 R) true)) = some (.ok r') ∧ r'.st.res.solved = true := by
  have hr := run_inv_of3 hrun
  obtain ⟨B, hB, b1, b2, b3, -⟩ := cspaceBoundary3_ok hr arena []
  obtain ⟨M, hM, m1, m2⟩ := cspaceMesh_ok b1 b2
  obtain ⟨o, os, rfl⟩ := List.exists_cons_of_ne_nil hne
  have hMa : M.arena = B.arena.map fun b => gridMesh (b.map toV3) o.num := by
    unfold cspaceMesh at hM
    obtain ⟨A, h1, hM⟩ := Res.bind_eq_ok.1 hM
    obtain ⟨O, h2, hM⟩ := Res.bind_eq_ok.1 hM
    obtain rfl := (Res.ok.injEq _ _).mp hM
    rw [boundMeshes_eq (o := o) rfl] at h1
    obtain rfl := (Res.ok.injEq _ _).mp h1
    rfl
  have hMo : M.obstacle = [] := List.length_eq_zero_iff.1 (by rw [m2, b2]; simp)
  have hMne : M.arena ≠ [] := by
    intro e; rw [e] at m1; rw [b1] at m1; simp [Nat.add_mul] at m1; omega
  have hvert : ∀ m ∈ M.arena, m.vertices ≠ [] := by
    intro m hm
    rw [hMa] at hm
    obtain ⟨b, hb, rfl⟩ := List.mem_map.1 hm
    obtain ⟨o', ho', hl⟩ := b3 b hb
    have hpos := hnum o' ho'
    intro e
    have : b.length = 0 := by
      have := congrArg List.length e
      simpa [gridMesh] using this
    rw [hl] at this
    simp [SuperQuadrics.minkSum3D] at this
    omega
  obtain ⟨R, hR0, hR⟩ := meshes_bounded M.arena
  have hxs : ∀ x ∈ (exPar73 R).linesX, R < x ∧ |R + 1 - x| ≤ 1 := by
    intro x hx
    obtain ⟨k, hk, rfl⟩ := List.mem_map.1 hx
    have : k < 2 := List.mem_range.1 hk
    simp only [exPar73]
    interval_cases k <;> refine ⟨?_, abs_le.2 ⟨?_, ?_⟩⟩ <;> norm_num <;> linarith
  have hys : ∀ y ∈ (exPar73 R).linesY, |y| ≤ 1 := by
    intro y hy
    obtain ⟨k, hk, rfl⟩ := List.mem_map.1 hy
    have : k < 2 := List.mem_range.1 hk
    simp only [exPar73]
    interval_cases k <;> norm_num
  have hmiss : ∀ x ∈ (exPar73 R).linesX, ∀ y, ∀ m ∈ M.arena, vertLineMesh triTol (vertical x y 0) m = .ok [] := by
    intro x hx y m hm
    unfold vertLineMesh
    rw [if_neg (hvert m hm), if_pos]
    exact Or.inl (Or.inl fun v hv => lt_of_le_of_lt (hR m hm v hv) (hxs x hx).1)
  have hMeq : (⟨M.arena, ([] : List (Mesh × (V3 → Prop))).map Prod.fst⟩ : BoundMesh) = M := by
    have : M = ⟨M.arena, M.obstacle⟩ := rfl
    rw [this, hMo]; rfl
  have hX : (exPar73 R).linesX.length = 2 := by simp [exPar73]
  have hY : (exPar73 R).linesY.length = 2 := by simp [exPar73]
  obtain ⟨segs, hsegs, sg1, sg2⟩ := C74_spatial_sweep_exact_partial L (exPar73 R).zLo (exPar73 R).zHi hlo hup M.arena
    hMne [] (exPar73 R).linesX (exPar73 R).linesY (by intro e; rw [e] at hY; simp at hY)
    (fun x hx y _ m hm => ⟨[], hmiss x hx y m hm, by simp, by simp⟩) (by simp)
  rw [hMeq] at hsegs
  set par := exPar73 R with hpar
  set cf := conf7 (R + 1) 0 0 q1 with hcf
  set Q0 := freshQ L robot [q0, q1] (o :: os) [] cf cf par with hQ0
  have hq : Q0.q = [q0, q1] := by rw [hQ0, freshQ_q]; rfl
  obtain ⟨f1, f2, f3⟩ := freshQ_fields L robot [q0, q1] (o :: os) [] cf cf par
  have hgood : ∀ x ∈ par.linesX, ∀ y ∈ par.linesY, ∀ s ∈ M.arena ++ M.obstacle, GoodHit isect3 (x, y) s := by
    intro x hx y hy s hs
    rw [hMo, List.append_nil] at hs
    refine ⟨[], ?_, by simp⟩
    unfold isect3
    rw [hmiss x hx y s hs]; rfl
  have hsim := build3_sim (V := V) hV hr hB hM hQ0 (by rw [hpar]; simp [exPar73]) (by rw [hpar]; simp [exPar73]) hgood hsegs
  have hst := buildRoadmap3D_sat (tot := True) (dist := qDist L.ang Q0.q) (freeSame := fun _ => sameFree3 M.obstacle)
    (freeMulti := Q0.freeMulti L V) (gapX := par.gapX) (gapY := par.gapY)
    (mk := fun i => mkVertex (sliceQuat Q0.q i) []) (seg := fun _ => segs) (n := Q0.q.length)
    (dim := 7) (fun _ v => v.length = 7) (fun _ _ h => h)
    (fun i p _ => Sample.all (fun _ _ => rfl))
    (fun i v1 v2 v z ⟨p1, _, s1⟩ ⟨p2, _, s2⟩ _ hv _ _ => set_third_length
      (Sample.all (Vp := fun v => v.length = 7) (fun _ _ => rfl) v1 s1)
      (Sample.all (Vp := fun v => v.length = 7) (fun _ _ => rfl) v2 s2) hv)
    (fun _ => ⟨by norm_num, fun i _ => ⟨?_, ?_, ?_⟩, fun _ _ => by rw [hMo]; exact sameFree3_nil_total,
      fun i hi j hj v w hv hw => ⟨true, freeMulti3_free L hV (base := base) (added := addedBodies ops)
        (by rw [hQ0, f1]; exact hr) (by rw [hQ0, f2]) (by rw [hQ0, f3, hpar]; simp [exPar73]) hi hj hv hw⟩⟩)
  · obtain ⟨⟨g, idx⟩, hbr⟩ := hst.2 trivial
    obtain ⟨-, st2, -, st4, -⟩ := hst.1 _ hbr
    simp only at st2 st4
    rw [hbr] at hsim
    obtain ⟨P, hbd, hi⟩ := hsim
    have hmk : ∀ i x y z, (mkVertex (sliceQuat Q0.q i) [] x y z).length = 7 := fun _ _ _ _ => rfl
    have hok := C23_build3D _ _ _ _ _ _ _ _ 7 hmk g idx hbr
    have hvs := C65_spatial_vertices (qDist L.ang Q0.q)
      (fun _ => sameFree3 M.obstacle) (Q0.freeMulti L V) par.gapX par.gapY
      (fun i => [(sliceQuat Q0.q i).1, (sliceQuat Q0.q i).2.1, (sliceQuat Q0.q i).2.2.1, (sliceQuat Q0.q i).2.2.2])
      (fun _ => segs) Q0.q.length 4 (fun _ => rfl) g idx hbr
    have hsl : segs.length = 2 := by
      have := congrArg List.length sg1
      rw [List.length_map, hX] at this; exact this
    -- some vertex
    have hvne : g.vertex ≠ [] := by
      obtain ⟨x, hx⟩ : ∃ x, idx[0]? = some x :=
        ⟨_, List.getElem?_eq_getElem (by rw [st2, hq]; simp)⟩
      obtain ⟨p, hp⟩ : ∃ p, segs[0]? = some p := ⟨_, List.getElem?_eq_getElem (by omega)⟩
      obtain ⟨plane, -, hpl⟩ := (st4 0 x hx).1.2 0 p hp
      obtain ⟨t1, t2, t3⟩ := sg2 p (List.mem_of_getElem? hp)
      have hy : par.linesY[0]? = some par.linesY[0] := List.getElem?_eq_getElem (by omega)
      have hrow : p.2.rows[0]? = some p.2.rows[0] := List.getElem?_eq_getElem (by omega)
      obtain ⟨⟨T, T1, T2, -⟩, -, u3⟩ := t3 0 _ _ hy hrow
      obtain ⟨k, l, u, hk, -⟩ := u3 0 (by rw [hpar]; simp [exPar73]) (by rw [hpar]; simp [exPar73]) (by simp)
      have hkT : k < T.length := by
        have := (List.getElem?_eq_some_iff.1 hk).1
        rwa [T1, List.length_map] at this
      obtain ⟨n, -, hn⟩ := hpl.2 0 _ _ k _ (by rw [t1]; exact hy) hrow
        (by rw [T2]; exact List.getElem?_eq_getElem (by simpa using hkT))
      intro e
      rw [e] at hn; simp at hn
    -- all vertices lie near the query
    have hline : ∀ i v, SliceSample [(sliceQuat Q0.q i).1, (sliceQuat Q0.q i).2.1, (sliceQuat Q0.q i).2.2.1,
        (sliceQuat Q0.q i).2.2.2] segs v → |coord cf 0 - coord v 0| < 50 ∧ |coord cf 1 - coord v 1| < 50 := by
      rintro i v ⟨p, hp, j, y, r, z, h1, -, -, rfl⟩
      have hpx : p.1 ∈ par.linesX := by rw [← sg1]; exact List.mem_map.2 ⟨p, hp, rfl⟩
      have hy := hys y (by rw [(sg2 p hp).1] at h1; exact List.mem_of_getElem? h1)
      have hx := (hxs p.1 hpx).2
      have e1 : coord cf 0 - coord (p.1 :: y :: z :: [(sliceQuat Q0.q i).1, (sliceQuat Q0.q i).2.1,
        (sliceQuat Q0.q i).2.2.1, (sliceQuat Q0.q i).2.2.2]) 0 = R + 1 - p.1 := by simp [coord, hcf, conf7]
      have e2 : coord cf 1 - coord (p.1 :: y :: z :: [(sliceQuat Q0.q i).1, (sliceQuat Q0.q i).2.1,
        (sliceQuat Q0.q i).2.2.1, (sliceQuat Q0.q i).2.2.2]) 1 = -y := by simp [coord, hcf, conf7]
      rw [e1, e2, abs_neg]
      exact ⟨by linarith, by linarith⟩
    have hset : ∀ (v : Vec) (z : ℝ), coord (v.set 2 z) 0 = coord v 0 ∧ coord (v.set 2 z) 1 = coord v 1 := by
      intro v z
      simp [coord, List.getD_eq_getElem?_getD, List.getElem?_set]
    have hnear : ∀ v ∈ g.vertex, |coord cf 0 - coord v 0| < 50 ∧ |coord cf 1 - coord v 1| < 50 := by
      intro v hv
      obtain ⟨i, -, h | ⟨v1, v2, h1, h2, -, h, -⟩⟩ := hvs v hv
      · exact hline i v h
      · rcases h with ⟨z, -, rfl⟩ | ⟨z, -, rfl⟩
        · rw [(hset v1 z).1, (hset v1 z).2]; exact hline i v1 h1
        · rw [(hset v2 z).1, (hset v2 z).2]; exact hline i v2 h2
    obtain ⟨ids, hids, hidne⟩ := nearest3DJ_nonempty (junk := L.junk) (radius := 100) (gx := 50) (gy := 50) (q := cf)
      hvne hok.dims rfl rfl hang hrad hnear
    have hidlt := nearest3DJ_ids hids
    obtain ⟨s, hs, hsearch⟩ := search_same (g := g) hpick hidne (some 0)
    have hSO := sampleSO3_same (L := L) (Planner3.new robot [q0, q1] (o :: os) [] cf cf par true)
    have est : P.start = cf := hi.start.trans hSO.2.2.2.2.1
    have egl : P.goal = cf := hi.goal.trans hSO.2.2.2.2.2.1
    have ers : P.res = ⟨false, [], some 0⟩ := hi.res.trans hSO.2.2.2.2.2.2.2.2.2.2.2.1
    have epar : P.par = { par with numSlice := 2 } := by
      rw [hi.par, hQ0]; rfl
    have hnid : nearest3DJ L.ang L.junk P.q g.vertex cf P.par.numSearchNeighbor P.par.searchRadius
        (P.par.searchRadius * (P.par.xHi - P.par.xLo) / P.par.numLineX)
        (P.par.searchRadius * (P.par.yHi - P.par.yLo) / P.par.numLineY) = .ok ids := by
      have g1 : (100 : ℝ) * ((R + 2) - (R + 1)) / (2 : ℕ) = 50 := by push_cast; ring
      have g2 : (100 : ℝ) * (1 - 0) / (2 : ℕ) = 50 := by norm_num
      rw [hi.q, hq, epar]
      change nearest3DJ L.ang L.junk [q0, q1] g.vertex cf 1 100 (100 * ((R + 2) - (R + 1)) / (2 : ℕ))
        (100 * (1 - 0) / (2 : ℕ)) = _
      rw [g1, g2]
      exact hids
    have hPs : P.search L = .ok { P with res := ⟨true, [s], some 0⟩ } := by
      unfold Planner3.search
      simp only [est, egl, hnid, Res.bind_ok', ers, hi.graph]
      rw [hsearch, Res.bind_ok']
    obtain ⟨path, -, hpath, -⟩ := C30_solution_path hok.dims cf cf [s] (by
      intro i hi'; obtain rfl := List.mem_singleton.1 hi'; exact hidlt _ hs) hvne
    have hpath' : getSolutionPath P.graph P.start P.goal [s] = .ok path := by
      rw [hi.graph, est, egl]; exact hpath
    obtain ⟨r', e, er, -⟩ := plan_solved_once (ops := planner3Ops L V) clock timeLim 0
      (freshRep3 (.new robot [q0, q1] (o :: os) [] cf cf par true)) hbd hPs rfl hpath' ⟨_, rfl⟩
    exact ⟨R, r', e, by rw [er]⟩
  · intro e; rw [e] at sg1; rw [← sg1] at hX; simp at hX
  · intro p hp
    obtain ⟨t1, t2, t3⟩ := sg2 p hp
    refine ⟨by rw [t2, t1], fun r hr' => ?_⟩
    obtain ⟨j, hj⟩ := List.mem_iff_getElem?.1 hr'
    have hjl : j < par.linesY.length := by rw [← t2]; exact (List.getElem?_eq_some_iff.1 hj).1
    obtain ⟨⟨T, e1, e2, e3, -⟩, -⟩ := t3 j _ r (List.getElem?_eq_getElem hjl) hj
    rw [e1, e2, e3]; simp
  · intro p hp q' hq'
    rw [(sg2 p hp).1, (sg2 q' hq').1]

end Hrm
