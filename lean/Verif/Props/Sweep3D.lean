import Verif.Props.Planner3D
import Verif.Props.Sweep
import Verif.Props.Mesh

/-!
# C74 – the spatial sweep is exact end to end
-/

namespace Hrm

section general
set_option linter.unusedSectionVars false
variable {K : Type*} [Field K] [LinearOrder K] [IsStrictOrderedRing K] {Line Shape : Type*}

/-- Rows filled from any intersection routine whose arena hits are numbers in range are usable. -/
theorem filled_rowOk_of (isect : Line → Shape → List K) (dmin dmax lowB upB : K) (hlow : dmin ≤ lowB) (hup : upB ≤ dmax)
    (arena obs : List Shape) (t : Table K) (i : ℕ) (y : Line)
    (hb : ∀ sh ∈ arena, ∀ p ∈ isect y sh, dmin ≤ p ∧ p ≤ dmax)
    (hf : FilledRow isect lowB upB arena obs t i y) :
    t.RowOk dmin dmax i (arena.map fun sh => some (arenaVal lowB upB (isect y sh)).1)
      (arena.map fun sh => some (arenaVal lowB upB (isect y sh)).2)
      (obs.map fun sh => (obsVal (isect y sh)).1)
      (obs.map fun sh => (obsVal (isect y sh)).2) := by
  obtain ⟨f1, f2, f3, f4⟩ := hf
  refine ⟨f1, f2, f3, f4, by simp, by simp, ?_, ?_⟩
  · intro iv hiv
    rw [mem_pairs, List.zip_map', List.mem_map] at hiv
    obtain ⟨sh, hsh, he⟩ := hiv
    simp only [Prod.mk.injEq, Option.some.injEq] at he
    rw [← he.1, ← he.2]
    have hbd := hb sh hsh
    match hm : isect y sh with
    | [] => exact ⟨hlow, hup⟩
    | [p] => exact ⟨hlow, hup⟩
    | p0 :: p1 :: rest =>
      rw [hm] at hbd
      simp only [arenaVal]
      refine ⟨le_min hlow (le_min (hbd p0 (by simp)).1 (hbd p1 (by simp)).1),
        max_le hup (max_le (hbd p0 (by simp)).2 (hbd p1 (by simp)).2)⟩
  · intro iv hiv
    rw [mem_pairs, List.zip_map', List.mem_map] at hiv
    obtain ⟨sh, hsh, he⟩ := hiv
    match hm : isect y sh with
    | [] => simp [hm, obsVal] at he
    | [p] => simp [hm, obsVal] at he
    | p0 :: p1 :: rest =>
      simp only [hm, obsVal, Prod.mk.injEq, Option.some.injEq] at he
      unfold Interval.Valid
      rw [← he.1, ← he.2]
      exact min_le_max

/-- The free intervals of a family of lines, for any intersection routine: what the computed rows contain. -/
theorem fillLines_rows (isect : Line → Shape → List K) (S : StdSort K) (dmin dmax lowB upB : K) (hlow : dmin ≤ lowB)
    (hup : upB ≤ dmax) (arena obs : List Shape) (ys : List Line) (hys : ys ≠ []) (harena : arena ≠ [])
    (hb : ∀ y ∈ ys, ∀ sh ∈ arena, ∀ p ∈ isect y sh, dmin ≤ p ∧ p ≤ dmax)
    (hno : ∀ y ∈ ys, ∀ sh ∈ arena ++ obs, (isect y sh).length ≠ 1) :
    ∃ t rows, fillLines isect lowB upB arena obs 0 ys (setupTable (emptyTable K) ys.length arena.length obs.length lowB upB)
        = .ok t ∧ computeFreeSegment S dmin dmax t ys.length = .ok rows ∧ rows.length = ys.length ∧
      (∀ r ∈ rows, ∃ T : List (K × K × K), r.L = T.map (·.1) ∧ r.M = T.map (·.2.1) ∧ r.U = T.map (·.2.2) ∧
        ∀ t ∈ T, t.1 ≤ t.2.1 ∧ t.2.1 ≤ t.2.2) ∧
      ∀ (i : ℕ) (y : Line) (r : SegRow K), ys[i]? = some y → rows[i]? = some r →
        (∀ (k : ℕ) (l u x : K), r.L[k]? = some l → r.U[k]? = some u → l ≤ x → x ≤ u →
          ∀ sh ∈ obs, ∀ p0 p1 rest, isect y sh = p0 :: p1 :: rest → ¬ (min p0 p1 < x ∧ x < max p0 p1)) ∧
        (∀ x, lowB ≤ x → x ≤ upB →
          (∀ sh ∈ obs, ∀ p0 p1 rest, isect y sh = p0 :: p1 :: rest → ¬ (min p0 p1 ≤ x ∧ x ≤ max p0 p1)) →
          ∃ (k : ℕ) (l u : K), r.L[k]? = some l ∧ r.U[k]? = some u ∧ l ≤ x ∧ x ≤ u) := by
  obtain ⟨t, f1, -, f3, -⟩ := fillLines_ok isect lowB upB arena obs ys.length ys 0 _
    (setup_shape ys.length arena.length obs.length lowB upB) (by omega) hno
  have f3' : ∀ k y, ys[k]? = some y → FilledRow isect lowB upB arena obs t k y :=
    fun k y hk => by simpa using f3 k y hk
  have rowok := fun k y (hk : ys[k]? = some y) =>
    filled_rowOk_of isect dmin dmax lowB upB hlow hup arena obs t k y (hb y (List.mem_of_getElem? hk)) (f3' k y hk)
  have hlines : t.LinesOk dmin dmax ys.length := by
    intro i hi
    exact ⟨_, _, _, _, rowok i ys[i] (List.getElem?_eq_getElem hi)⟩
  obtain ⟨rows, r1, r2, r3⟩ := C07_C08_segments_aligned S dmin dmax t ys.length
    (List.length_pos_iff.2 hys) hlines
  refine ⟨t, rows, f1, r1, r2, ?_, ?_⟩
  · intro r hr
    obtain ⟨i, hi⟩ := List.mem_iff_getElem?.1 hr
    obtain ⟨ivs, -, ⟨T, t1, t2, t3, t4⟩, -⟩ := r3 i r hi
    exact ⟨T, t1, t2, t3, fun x hx => ⟨(t4 x hx).1, (t4 x hx).2.1⟩⟩
  intro i y r hy hr
  have hro := rowok i y hy
  constructor
  · intro k l u x hl hu hx1 hx2 sh hsh p0 p1 rest hp ⟨m1, m2⟩
    obtain ⟨-, hfree⟩ := C08_enhanced_points_free S dmin dmax t ys.length hlines rows r1 i r hr
      _ _ _ _ hro k l u x hl hu ⟨hx1, hx2⟩
    apply hfree
    refine ⟨min p0 p1, max p0 p1, m1, m2, fun z hz1 hz2 => ⟨⟨min p0 p1, max p0 p1⟩, ?_, hz1, hz2⟩⟩
    rw [mem_pairs, List.zip_map', List.mem_map]
    exact ⟨sh, hsh, by simp [hp, obsVal]⟩
  · intro x hx1 hx2 hout
    obtain ⟨ivs, s1, s2, -⟩ := sweepLineFree_spec S dmin dmax t i _ _ _ _ hro
    refine C61_enhancement_covers S dmin dmax t ys.length hlines rows r1 i r hr ivs s1 x ?_
    rw [s2]
    refine ⟨?_, ?_, ?_⟩
    · cases arena with
      | nil => exact absurd rfl harena
      | cons a as => simp [pairs]
    · intro iv hiv
      rw [mem_pairs, List.zip_map', List.mem_map] at hiv
      obtain ⟨sh, hsh, he⟩ := hiv
      simp only [Prod.mk.injEq, Option.some.injEq] at he
      match hm : isect y sh with
      | [] => rw [hm] at he; exact ⟨he.1 ▸ hx1, he.2 ▸ hx2⟩
      | [p] => rw [hm] at he; exact ⟨he.1 ▸ hx1, he.2 ▸ hx2⟩
      | p0 :: p1 :: rest =>
        rw [hm] at he
        simp only [arenaVal] at he
        exact ⟨he.1 ▸ (min_le_left _ _).trans hx1, he.2 ▸ hx2.trans (le_max_left _ _)⟩
    · rintro ⟨a, b, ha, hb', hall⟩
      obtain ⟨iv, hiv, c1, c2⟩ := hall x ha.le hb'.le
      rw [mem_pairs, List.zip_map', List.mem_map] at hiv
      obtain ⟨sh, hsh, he⟩ := hiv
      match hm : isect y sh with
      | [] => simp [hm, obsVal] at he
      | [p] => simp [hm, obsVal] at he
      | p0 :: p1 :: rest =>
        simp only [hm, obsVal, Prod.mk.injEq, Option.some.injEq] at he
        exact hout sh hsh p0 p1 rest hm ⟨he.1 ▸ c1, he.2 ▸ c2⟩

end general

/-- The heights recorded on a vertical line that misses the body or crosses its mesh at two different points of it:
none, or the two ends of the slice of the body on this line. -/
theorem isect3_good {x y : ℝ} {m : Mesh} {C : V3 → Prop} (hwf : m.WF) (hC : ConvexSet C) (hS : Supports m C)
    (hg : GoodVertical triTol ⟨x, y, 0⟩ m C) :
    (isect3 (x, y) m = .ok [] ∧ ∀ z, ¬ C ⟨x, y, z⟩) ∨
    ∃ z0 z1, isect3 (x, y) m = .ok [z0, z1] ∧ ∀ z, C ⟨x, y, z⟩ ↔ min z0 z1 ≤ z ∧ z ≤ max z0 z1 := by
  rcases hg with ⟨h, hno⟩ | ⟨p0, p1, h, h0, h1, hne⟩
  · left
    refine ⟨?_, hno⟩
    unfold isect3
    rw [h]; rfl
  · right
    refine ⟨p0.z, p1.z, ?_, C63_vertical_interval_partial triTol (by norm_num [triTol]) x y 0 m hwf C hC hS p0 p1 h h0 h1 hne⟩
    unfold isect3
    rw [h]; rfl

/-- C74 (partial): the whole spatial sweep. Take sweep lines at the places `xs × ys`; obstacle meshes supporting convex
bodies such that every sweep line misses a body or crosses its mesh at two different points of it; arena meshes met by
no sweep line in exactly one recorded point, at heights that are machine numbers. Then the sweep succeeds, delivers
one row for every sweep line, and on each line no point between the ends of a delivered interval is strictly between
two points of an obstacle body of this line, while every height within the limits that is in no obstacle body is in a
delivered interval. Missing (false, `C63_refuted`): lines through an edge or a vertex of an obstacle mesh. -/
theorem C74_spatial_sweep_exact_partial (L : Libs3) (lowB upB : ℝ) (hlow : L.dmin ≤ lowB) (hup : upB ≤ L.dmax)
    (arena : List Mesh) (harena : arena ≠ []) (bodies : List (Mesh × (V3 → Prop))) (xs ys : List ℝ) (hys : ys ≠ [])
    (ha : ∀ x ∈ xs, ∀ y ∈ ys, ∀ m ∈ arena, ∃ pts, vertLineMesh triTol (vertical x y 0) m = .ok pts ∧ pts.length ≠ 1 ∧
      ∀ p ∈ pts, L.dmin ≤ p.z ∧ p.z ≤ L.dmax)
    (hb : ∀ mc ∈ bodies, mc.1.WF ∧ ConvexSet mc.2 ∧ Supports mc.1 mc.2 ∧
      ∀ x ∈ xs, ∀ y ∈ ys, GoodVertical triTol ⟨x, y, 0⟩ mc.1 mc.2) :
    ∃ segs, sweep3D L lowB upB ⟨arena, bodies.map Prod.fst⟩ xs ys = .ok segs ∧ segs.map Prod.fst = xs ∧
      ∀ p ∈ segs, p.2.ty = ys ∧ p.2.rows.length = ys.length ∧
        ∀ (j : ℕ) (y : ℝ) (r : SegRow ℝ), ys[j]? = some y → p.2.rows[j]? = some r →
          (∃ T : List (ℝ × ℝ × ℝ), r.L = T.map (·.1) ∧ r.M = T.map (·.2.1) ∧ r.U = T.map (·.2.2) ∧
            ∀ t ∈ T, t.1 ≤ t.2.1 ∧ t.2.1 ≤ t.2.2) ∧
          (∀ (k : ℕ) (l u z : ℝ), r.L[k]? = some l → r.U[k]? = some u → l ≤ z → z ≤ u →
            ∀ mc ∈ bodies, ¬ ∃ z1 z2, z1 < z ∧ z < z2 ∧ mc.2 ⟨p.1, y, z1⟩ ∧ mc.2 ⟨p.1, y, z2⟩) ∧
          (∀ z, lowB ≤ z → z ≤ upB → (∀ mc ∈ bodies, ¬ mc.2 ⟨p.1, y, z⟩) →
            ∃ (k : ℕ) (l u : ℝ), r.L[k]? = some l ∧ r.U[k]? = some u ∧ l ≤ z ∧ z ≤ u) := by
  -- one plane
  have plane : ∀ x ∈ xs, ∃ rows, planeSeg L lowB upB ⟨arena, bodies.map Prod.fst⟩ ys x = .ok ⟨ys, rows⟩ ∧
      rows.length = ys.length ∧ ∀ (j : ℕ) (y : ℝ) (r : SegRow ℝ), ys[j]? = some y → rows[j]? = some r →
        (∃ T : List (ℝ × ℝ × ℝ), r.L = T.map (·.1) ∧ r.M = T.map (·.2.1) ∧ r.U = T.map (·.2.2) ∧
          ∀ t ∈ T, t.1 ≤ t.2.1 ∧ t.2.1 ≤ t.2.2) ∧
        (∀ (k : ℕ) (l u z : ℝ), r.L[k]? = some l → r.U[k]? = some u → l ≤ z → z ≤ u →
          ∀ mc ∈ bodies, ¬ ∃ z1 z2, z1 < z ∧ z < z2 ∧ mc.2 ⟨x, y, z1⟩ ∧ mc.2 ⟨x, y, z2⟩) ∧
        (∀ z, lowB ≤ z → z ≤ upB → (∀ mc ∈ bodies, ¬ mc.2 ⟨x, y, z⟩) →
          ∃ (k : ℕ) (l u : ℝ), r.L[k]? = some l ∧ r.U[k]? = some u ∧ l ≤ z ∧ z ≤ u) := by
    intro x hx
    have hlines : ∀ l ∈ ys.map fun y => (x, y), ∃ y ∈ ys, l = (x, y) := by
      intro l hl
      obtain ⟨y, hy, rfl⟩ := List.mem_map.1 hl
      exact ⟨y, hy, rfl⟩
    have hG : ∀ l ∈ ys.map fun y => (x, y), ∀ s ∈ arena ++ bodies.map Prod.fst, GoodHit isect3 l s := by
      intro l hl s hs
      obtain ⟨y, hy, rfl⟩ := hlines l hl
      rcases List.mem_append.1 hs with hs | hs
      · obtain ⟨pts, e, hn, -⟩ := ha x hx y hy s hs
        refine ⟨pts.map V3.z, ?_, by simpa using hn⟩
        unfold isect3
        rw [e]; rfl
      · obtain ⟨mc, hmc, rfl⟩ := List.mem_map.1 hs
        obtain ⟨h1, h2, h3, h4⟩ := hb mc hmc
        rcases isect3_good h1 h2 h3 (h4 x hx y hy) with ⟨e, -⟩ | ⟨z0, z1, e, -⟩
        · exact ⟨_, e, by simp⟩
        · exact ⟨_, e, by simp⟩
    obtain ⟨t, rows, f1, f2, f3, f4, f5⟩ := fillLines_rows (hitsOf isect3) L.sort L.dmin L.dmax lowB upB hlow hup arena
      (bodies.map Prod.fst) (ys.map fun y => (x, y)) (by simpa using hys) harena
      (by
        intro l hl s hs q hq
        obtain ⟨y, hy, rfl⟩ := hlines l hl
        obtain ⟨pts, e, -, hr⟩ := ha x hx y hy s hs
        have e' : isect3 (x, y) s = .ok (pts.map V3.z) := by unfold isect3; rw [e]; rfl
        rw [hitsOf_eq e'] at hq
        obtain ⟨p, hp, rfl⟩ := List.mem_map.1 hq
        exact hr p hp)
      (fun l hl s hs => (hG l hl s hs).ne)
    rw [List.length_map] at f1 f2 f3
    refine ⟨rows, ?_, f3, ?_⟩
    · unfold planeSeg
      rw [fillLinesR_eq _ hG]
      simp only
      rw [f1, Res.bind_ok', f2]; rfl
    · intro j y r hy hr
      obtain ⟨g1, g2⟩ := f5 j (x, y) r (by rw [List.getElem?_map, hy]; rfl) hr
      have hymem := List.mem_of_getElem? hy
      refine ⟨f4 r (List.mem_of_getElem? hr), ?_, ?_⟩
      · rintro k l u z hl hu h1 h2 mc hmc ⟨z1, z2, a1, a2, c1, c2⟩
        obtain ⟨w1, w2, w3, w4⟩ := hb mc hmc
        rcases isect3_good w1 w2 w3 (w4 x hx y hymem) with ⟨-, e⟩ | ⟨z0, z1', e, hiff⟩
        · exact e _ c1
        · refine g1 k l u z hl hu h1 h2 mc.1 (List.mem_map_of_mem hmc) z0 z1' [] (hitsOf_eq e) ⟨?_, ?_⟩
          · exact ((hiff _).1 c1).1.trans_lt a1
          · exact a2.trans_le ((hiff _).1 c2).2
      · intro z h1 h2 hout
        refine g2 z h1 h2 ?_
        rintro s hs p0 p1 rest e ⟨m1, m2⟩
        obtain ⟨mc, hmc, rfl⟩ := List.mem_map.1 hs
        obtain ⟨w1, w2, w3, w4⟩ := hb mc hmc
        rcases isect3_good w1 w2 w3 (w4 x hx y hymem) with ⟨e', -⟩ | ⟨z0, z1', e', hiff⟩
        · rw [hitsOf_eq e'] at e; exact nomatch e
        · rw [hitsOf_eq e'] at e
          obtain ⟨rfl, rfl, -⟩ : z0 = p0 ∧ z1' = p1 ∧ [] = rest := by simpa using e
          exact hout mc hmc ((hiff z).2 ⟨m1, m2⟩)
  -- all planes
  choose! rowsOf h1 h2 h3 using plane
  refine ⟨xs.map fun x => (x, ⟨ys, rowsOf x⟩), ?_, by simp [Function.comp_def], ?_⟩
  · unfold sweep3D
    have key : ∀ (l : List ℝ) (acc : List (ℝ × FreeSeg)), (∀ x ∈ l, x ∈ xs) →
        l.foldlM (fun acc x => (planeSeg L lowB upB ⟨arena, bodies.map Prod.fst⟩ ys x).bind fun s =>
          Res.ok (acc ++ [(x, s)])) acc = .ok (acc ++ l.map fun x => (x, ⟨ys, rowsOf x⟩)) := by
      intro l
      induction l with
      | nil => intro acc _; simp
      | cons x l ih =>
        intro acc hl
        rw [List.foldlM_cons, h1 x (hl x (by simp)), Res.bind_ok']
        change List.foldlM _ (acc ++ _) l = _
        rw [ih _ fun y hy => hl y (by simp [hy])]
        simp
    simpa using key xs [] fun _ h => h
  · intro p hp
    obtain ⟨x, hx, rfl⟩ := List.mem_map.1 hp
    exact ⟨rfl, h2 x hx, h3 x hx⟩

/-- C74, samples: under the hypotheses of `C74_spatial_sweep_exact_partial`, every configuration sampled on a sweep line
lies on one of the given lines and is not strictly between two points of an obstacle body on that line. -/
theorem C74_samples_outside_partial (L : Libs3) (lowB upB : ℝ) (hlow : L.dmin ≤ lowB) (hup : upB ≤ L.dmax)
    (arena : List Mesh) (harena : arena ≠ []) (bodies : List (Mesh × (V3 → Prop))) (xs ys : List ℝ) (hys : ys ≠ [])
    (ha : ∀ x ∈ xs, ∀ y ∈ ys, ∀ m ∈ arena, ∃ pts, vertLineMesh triTol (vertical x y 0) m = .ok pts ∧ pts.length ≠ 1 ∧
      ∀ p ∈ pts, L.dmin ≤ p.z ∧ p.z ≤ L.dmax)
    (hb : ∀ mc ∈ bodies, mc.1.WF ∧ ConvexSet mc.2 ∧ Supports mc.1 mc.2 ∧
      ∀ x ∈ xs, ∀ y ∈ ys, GoodVertical triTol ⟨x, y, 0⟩ mc.1 mc.2)
    (segs : List (ℝ × FreeSeg)) (hsegs : sweep3D L lowB upB ⟨arena, bodies.map Prod.fst⟩ xs ys = .ok segs)
    (q : Quat) (v : Vec) (hv : LineSample3 segs q v) :
    ∃ x ∈ xs, ∃ y ∈ ys, ∃ z, v = conf7 x y z (matQuat (quatRot q)) ∧
      ∀ mc ∈ bodies, ¬ ∃ z1 z2, z1 < z ∧ z < z2 ∧ mc.2 ⟨x, y, z1⟩ ∧ mc.2 ⟨x, y, z2⟩ := by
  obtain ⟨segs', e, e1, e2⟩ := C74_spatial_sweep_exact_partial L lowB upB hlow hup arena harena bodies xs ys hys ha hb
  rw [hsegs] at e
  obtain rfl := (Res.ok.injEq _ _).mp e
  obtain ⟨p, hp, j, y, r, z, hy, hr, hz, rfl⟩ := hv
  obtain ⟨f1, -, f3⟩ := e2 p hp
  rw [f1] at hy
  obtain ⟨⟨T, t1, t2, t3, t4⟩, g, -⟩ := f3 j y r hy hr
  rw [t2] at hz
  obtain ⟨t, ht, rfl⟩ := List.mem_map.1 hz
  obtain ⟨k, hk⟩ := List.mem_iff_getElem?.1 ht
  refine ⟨p.1, by rw [← e1]; exact List.mem_map_of_mem hp, y, List.mem_of_getElem? hy, t.2.1, rfl, ?_⟩
  exact g k t.1 t.2.2 t.2.1 (by rw [t1, List.getElem?_map, hk]; rfl) (by rw [t3, List.getElem?_map, hk]; rfl)
    (t4 t ht).1 (t4 t ht).2

/-- What "clear" means in the multi-slice check of the spatial planner (C53): when the meshes of the obstacles grown by
the ellipsoid `E` support convex bodies, and the vertical line through the point misses a body or crosses its mesh at
two different points of it, the point is declared clear exactly if no body has points above and below it. -/
theorem C53_swept_clear3_partial (obs : List SuperQuadrics) (E : SuperQuadrics) (p : Fin 3 → ℝ)
    (bodies : List (Mesh × (V3 → Prop))) (hbd : bridgeBound3 obs E = bodies.map Prod.fst)
    (hb : ∀ mc ∈ bodies, mc.1.WF ∧ ConvexSet mc.2 ∧ Supports mc.1 mc.2 ∧ GoodVertical triTol (toV3 p) mc.1 mc.2) :
    (SweptClear3 obs E p ↔ ∀ mc ∈ bodies, ¬ ∃ z1 z2, z1 < p 2 ∧ p 2 < z2 ∧ mc.2 ⟨p 0, p 1, z1⟩ ∧ mc.2 ⟨p 0, p 1, z2⟩) ∧
    (SweptHit3 obs E p ↔ ∃ mc ∈ bodies, ∃ z1 z2, z1 < p 2 ∧ p 2 < z2 ∧ mc.2 ⟨p 0, p 1, z1⟩ ∧ mc.2 ⟨p 0, p 1, z2⟩) := by
  obtain ⟨r, hr, hiff⟩ := C63_point_test_partial triTol (by norm_num [triTol]) (toV3 p) bodies hb
  unfold SweptClear3 SweptHit3
  rw [hbd, hr]
  simp only [Res.ok.injEq]
  refine ⟨?_, hiff⟩
  rw [← Bool.not_eq_false, hiff]
  push Not
  exact Iff.rfl

/-- The octahedron meets the hypotheses of the sweep: one line through it, one beside it. -/
theorem octa_lines : ∀ x ∈ [(1 : ℝ) / 4], ∀ y ∈ [(1 : ℝ) / 8, 3], GoodVertical triTol ⟨x, y, 0⟩ octa octaBody := by
  intro x hx y hy
  simp only [List.mem_cons, List.not_mem_nil, or_false] at hx hy
  subst hx
  rcases hy with rfl | rfl
  · exact (octa_good_vertical 0).2.2.2
  · left
    constructor
    · unfold vertLineMesh
      rw [if_neg (by simp [octa]), if_pos]
      right
      left
      intro v hv
      simp only [octa, List.mem_cons, List.not_mem_nil, or_false] at hv
      rcases hv with rfl | rfl | rfl | rfl | rfl | rfl <;> norm_num [vertical]
    · intro z hz
      rw [octaBody_iff] at hz
      norm_num at hz
      linarith [hz.1, hz.2.1]

/-- Witness for `C74_spatial_sweep_exact_partial` and `C74_samples_outside_partial`. -/
example (L : Libs3) (h1 : L.dmin ≤ -2) (h2 : 2 ≤ L.dmax) :
    (∀ x ∈ [(1 : ℝ) / 4], ∀ y ∈ [(1 : ℝ) / 8, 3], ∀ m ∈ [octa], ∃ pts, vertLineMesh triTol (vertical x y 0) m = .ok pts ∧
      pts.length ≠ 1 ∧ ∀ p ∈ pts, L.dmin ≤ p.z ∧ p.z ≤ L.dmax) ∧
    ∀ mc ∈ [((octa, octaBody) : Mesh × (V3 → Prop))], mc.1.WF ∧ ConvexSet mc.2 ∧ Supports mc.1 mc.2 ∧
      ∀ x ∈ [(1 : ℝ) / 4], ∀ y ∈ [(1 : ℝ) / 8, 3], GoodVertical triTol ⟨x, y, 0⟩ mc.1 mc.2 := by
  constructor
  · intro x hx y hy m hm
    obtain rfl := List.mem_singleton.1 hm
    have hz : ∀ p : V3, octaBody p → L.dmin ≤ p.z ∧ p.z ≤ L.dmax := by
      intro p hp
      unfold octaBody at hp
      have := abs_nonneg p.x
      have := abs_nonneg p.y
      have := abs_le.1 (show |p.z| ≤ 1 by linarith)
      exact ⟨by linarith, by linarith⟩
    rcases octa_lines x hx y hy with ⟨h, -⟩ | ⟨p0, p1, h, c0, c1, -⟩
    · exact ⟨_, h, by simp, by simp⟩
    · refine ⟨_, h, by simp, ?_⟩
      intro p hp
      simp only [List.mem_cons, List.not_mem_nil, or_false] at hp
      rcases hp with rfl | rfl
      · exact hz _ c0
      · exact hz _ c1
  · intro mc hmc
    obtain rfl := List.mem_singleton.1 hmc
    exact ⟨octa_WF, octa_convex, octa_supports, octa_lines⟩

end Hrm
