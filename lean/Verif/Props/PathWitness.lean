import Verif.Props.PathClear
import Verif.Props.Setup

/-!
# C86: a planner whose path passes an obstacle

The hypotheses of `C86_planar_path_safe_partial` are met by a planner with an arena, an obstacle, distinct start and goal,
and a path with inner steps.
-/

set_option linter.unusedVariables false

namespace Hrm

open Matrix Hrm.Interval

/-- Two sweep lines that miss every boundary, planar or spatial. -/
theorem sweep_missed {Line Shape : Type*} (isect : Line → Shape → List ℝ) (S : StdSort ℝ) (dmin dmax lowB upB : ℝ)
    (hlu : lowB ≤ upB) (arena obs : List Shape) (ha : arena ≠ []) (y0 y1 : Line)
    (hm : ∀ sh ∈ arena ++ obs, isect y0 sh = [] ∧ isect y1 sh = []) :
    ((fillLines isect lowB upB arena obs 0 [y0, y1] (setupTable (emptyTable ℝ) 2 arena.length obs.length lowB upB)).bind fun t =>
      computeFreeSegment S dmin dmax t 2) =
      .ok [⟨[lowB], [upB], [(lowB + upB) / 2]⟩, ⟨[lowB], [upB], [(lowB + upB) / 2]⟩] := by
  obtain ⟨t, f1, -, f3, -⟩ := fillLines_ok isect lowB upB arena obs 2 [y0, y1] 0 _
    (setup_shape 2 arena.length obs.length lowB upB) (by simp)
    (fun y hy sh hsh => by
      simp only [List.mem_cons, List.not_mem_nil, or_false] at hy
      rcases hy with rfl | rfl
      · rw [(hm sh hsh).1]; simp
      · rw [(hm sh hsh).2]; simp)
  have hrow : ∀ k < 2, sweepLineFree S dmin dmax t k = .ok [⟨lowB, upB⟩] := by
    intro k hk
    have hy : ∃ y, [y0, y1][k]? = some y ∧ ∀ sh ∈ arena ++ obs, isect y sh = [] := by
      interval_cases k
      · exact ⟨y0, rfl, fun sh hsh => (hm sh hsh).1⟩
      · exact ⟨y1, rfl, fun sh hsh => (hm sh hsh).2⟩
    obtain ⟨y, hy, hmy⟩ := hy
    obtain ⟨g1, g2, g3, g4⟩ := f3 k y hy
    rw [Nat.zero_add] at g1 g2 g3 g4
    have c1 : (arena.map fun sh => some (arenaVal lowB upB (isect y sh)).1) = List.replicate arena.length (some lowB) := by
      rw [List.eq_replicate_iff]
      refine ⟨by simp, fun b hb => ?_⟩
      obtain ⟨sh, hsh, rfl⟩ := List.mem_map.1 hb
      rw [hmy sh (by simp [hsh])]; rfl
    have c2 : (arena.map fun sh => some (arenaVal lowB upB (isect y sh)).2) = List.replicate arena.length (some upB) := by
      rw [List.eq_replicate_iff]
      refine ⟨by simp, fun b hb => ?_⟩
      obtain ⟨sh, hsh, rfl⟩ := List.mem_map.1 hb
      rw [hmy sh (by simp [hsh])]; rfl
    have c3 : (obs.map fun sh => (obsVal (isect y sh)).1) = List.replicate obs.length none := by
      rw [List.eq_replicate_iff]
      refine ⟨by simp, fun b hb => ?_⟩
      obtain ⟨sh, hsh, rfl⟩ := List.mem_map.1 hb
      rw [hmy sh (by simp [hsh])]; rfl
    have c4 : (obs.map fun sh => (obsVal (isect y sh)).2) = List.replicate obs.length none := by
      rw [List.eq_replicate_iff]
      refine ⟨by simp, fun b hb => ?_⟩
      obtain ⟨sh, hsh, rfl⟩ := List.mem_map.1 hb
      rw [hmy sh (by simp [hsh])]; rfl
    rw [c1] at g1
    rw [c2] at g2
    rw [c3] at g3
    rw [c4] at g4
    unfold sweepLineFree
    rw [rowIntervals_ok _ _ k _ _ g1 g2 (by simp), rowIntervals_ok _ _ k _ _ g3 g4 (by simp)]
    simp only [Res.bind_ok]
    rw [pairs_replicate, pairs_none, intersects_same S arena.length (List.length_pos_iff.2 ha) lowB upB hlu]
    simp [unions, complements]
  have hsort : ∀ x : ℝ, S.vals.run [x] = [x] := fun x => List.perm_singleton.1 (S.vals.perm [x])
  have h1 : ¬ (lowB + upB) / 2 < lowB := by linarith
  have h2 : ¬ upB < (lowB + upB) / 2 := by linarith
  have e1 : freeRows S dmin dmax t 2 = .ok [rowOf [⟨lowB, upB⟩], rowOf [⟨lowB, upB⟩]] := by
    unfold freeRows
    rw [show List.range 2 = [0, 1] from rfl]
    simp only [List.foldlM_cons, List.foldlM_nil, hrow 0 (by omega), hrow 1 (by omega), Res.bind_ok]
    rfl
  have e2 : enhanceOne (rowOf [(⟨lowB, upB⟩ : Interval ℝ)]) (rowOf [⟨lowB, upB⟩]) 0 0 = .ok (rowOf [⟨lowB, upB⟩]) := by
    unfold enhanceOne rowOf
    simp only [List.map_cons, List.map_nil, Res.idx, List.getElem?_cons_zero, Res.bind_ok]
    rw [if_neg (fun h => h1 h.1), if_neg (fun h => h2 h.1)]
  rw [f1, Res.bind_ok']
  unfold computeFreeSegment
  rw [e1]
  simp only [Res.bind_ok, enhance, enhanceRows, enhanceLoop]
  have hl : (rowOf [(⟨lowB, upB⟩ : Interval ℝ)]).M.length = 1 := rfl
  rw [hl, show List.range 1 = [0] from rfl]
  simp only [List.foldlM_cons, List.foldlM_nil, enhancePair, e2, Res.bind_ok, bind_pure]
  simp only [SegRow.sort, rowOf, List.map_cons, List.map_nil, hsort]

/-- Two sweep lines that miss every boundary. -/
theorem sweep2D_missed (S : StdSort ℝ) (dmin dmax lowB upB : ℝ) (hlu : lowB ≤ upB) (arena obs : List (List (Pt ℝ)))
    (ha : arena ≠ []) (y0 y1 : ℝ) (hm : ∀ sh ∈ arena ++ obs, isect2D y0 sh = [] ∧ isect2D y1 sh = []) :
    sweep2D S dmin dmax lowB upB arena obs [y0, y1] =
      .ok [⟨[lowB], [upB], [(lowB + upB) / 2]⟩, ⟨[lowB], [upB], [(lowB + upB) / 2]⟩] :=
  sweep_missed isect2D S dmin dmax lowB upB hlu arena obs ha y0 y1 hm

/-- Three slices of two samples each, every check positive: more edges than vertices, and the two samples of the first
slice are joined. -/
theorem roadmap_all_free {freeSame : ℕ → Vec → Vec → Res Bool} {freeMulti : ℕ → ℕ → Vec → Vec → Res Bool}
    {gap x y0 y1 l u : ℝ} {hd : ℕ → ℝ} (hgap : |y0 - y1| ≤ gap)
    (hsame : ∀ i < 3, freeSame i [x, y0, hd i] [x, y1, hd i] = .ok true)
    (hmulti : ∀ i < 3, ∀ j < 3, ∀ y ∈ [y0, y1], ∀ y' ∈ [y0, y1], freeMulti i j [x, y, hd i] [x, y', hd j] = .ok true)
    {r : Graph × List VertexIdx}
    (h : buildRoadmap2D freeSame freeMulti gap hd (fun _ => ⟨[y0, y1], [⟨[l], [u], [x]⟩, ⟨[l], [u], [x]⟩]⟩) 3 = .ok r) :
    r.1.vertex = [[x, y0, hd 0], [x, y1, hd 0], [x, y0, hd 1], [x, y1, hd 1], [x, y0, hd 2], [x, y1, hd 2]] ∧
    r.1.weight.length = 9 ∧ r.1.edge[0]? = some (0, 1) := by
  have hw : ∀ a b c a' b' c' : ℝ, ∃ w, vectorEuclidean [a, b, c] [a', b', c'] = .ok w := fun a b c a' b' c' =>
    ⟨_, rfl⟩
  choose W hW using hw
  have slice : ∀ i < 3, ∀ g : Graph, constructSlice2D (freeSame i) (hd i) ⟨[y0, y1], [⟨[l], [u], [x]⟩, ⟨[l], [u], [x]⟩]⟩ g =
      .ok (⟨g.vertex ++ [[x, y0, hd i], [x, y1, hd i]], g.edge ++ [(g.vertex.length, g.vertex.length + 1)],
        g.weight ++ [W x y0 (hd i) x y1 (hd i)]⟩,
        ⟨g.vertex.length, g.vertex.length + 2, [[g.vertex.length, g.vertex.length + 1]]⟩) := by
    intro i hi g
    have hr2 : List.range 2 = [0, 1] := rfl
    have hr1 : List.range 1 = [0] := rfl
    simp [constructSlice2D, generateVertices, genRow, hr2, hr1, Res.idx, Res.at', Graph.addVertex, connectOneSlice2D, linkLine,
      linkSample, linkRow, linkNext, linkPair, hsame i hi, Graph.addEdge, hW, Res.bind_ok, Res.bind_ok']
  have hr3 : List.range 3 = [0, 1, 2] := rfl
  have hp0 : partner2D 3 0 = 1 := rfl
  have hp1 : partner2D 3 1 = 2 := rfl
  have hp2 : partner2D 3 2 = 0 := rfl
  have hg : ∀ y ∈ [y0, y1], ∀ y' ∈ [y0, y1], |y - y'| ≤ gap := by
    have h0 : 0 ≤ gap := (abs_nonneg _).trans hgap
    intro y hy y' hy'
    simp only [List.mem_cons, List.not_mem_nil, or_false] at hy hy'
    rcases hy with rfl | rfl <;> rcases hy' with rfl | rfl
    · simpa using h0
    · exact hgap
    · rwa [abs_sub_comm]
    · simpa using h0
  have near : ∀ y ∈ [y0, y1], ∀ y' ∈ [y0, y1], ∀ a b : ℝ, near2D gap [x, y, a] [x, y', b] = .ok true := by
    intro y hy y' hy' a b
    simp [near2D, Res.idx, hg y hy y' hy']
  have step : ∀ (g : Graph) (i j s t : ℕ), i < 3 → j < 3 →
      g.vertex[s]? = some [x, y0, hd i] → g.vertex[s + 1]? = some [x, y1, hd i] → g.vertex[t]? = some [x, y0, hd j] →
      matchRanges Res.idx Res.idx (near2D gap) (freeMulti i j) s (s + 2) t (t + 2) g =
        .ok ⟨g.vertex, g.edge ++ [(s, t), (s + 1, t)], g.weight ++ [W x y0 (hd i) x y0 (hd j), W x y1 (hd i) x y0 (hd j)]⟩ := by
    intro g i j s t hi hj h0 h1 h2
    have hr : List.range' s (s + 2 - s) = [s, s + 1] := by
      rw [Nat.add_sub_cancel_left]; rfl
    have ht : t + 2 - t = 2 := by omega
    unfold matchRanges
    rw [hr]
    simp [matchStep, ht, matchOne, Res.idx, h0, h1, h2, near, hmulti i hi j hj, Graph.addEdge, hW, Res.bind_ok,
      Res.bind_ok']
  unfold buildRoadmap2D buildSlices at h
  rw [hr3] at h
  simp only [List.foldlM_cons, List.foldlM_nil, slice 0 (by omega), slice 1 (by omega), slice 2 (by omega), Res.bind_ok',
    Res.bind_ok, Graph.empty] at h
  have hpure : ∀ {β : Type} (a : β), (pure a : Res β) = .ok a := fun _ => rfl
  unfold connectMultiSlice2D at h
  simp only [hpure, Res.bind_ok', List.nil_append, List.length_nil, List.length_cons, Nat.zero_add, Nat.reduceAdd,
    List.cons_append, hr3] at h
  rw [if_neg (by norm_num)] at h
  simp only [List.foldlM_cons, List.foldlM_nil, multiStep2D, hp0, hp1, hp2, Res.at', List.getElem?_cons_zero,
    List.getElem?_cons_succ, Res.bind_ok'] at h
  rw [step _ 0 1 0 2 (by omega) (by omega) rfl rfl rfl] at h
  simp only [Res.bind_ok] at h
  rw [step _ 1 2 2 4 (by omega) (by omega) rfl rfl rfl] at h
  simp only [Res.bind_ok] at h
  rw [step _ 2 0 4 0 (by omega) (by omega) rfl rfl rfl] at h
  simp only [hpure, Res.bind_ok, Res.bind_ok'] at h
  obtain rfl := (Res.ok.injEq _ _).mp h
  exact ⟨rfl, rfl, rfl⟩

/-- Everything in a list of polygons is in some square. -/
theorem polys_boxed (l : List (List (Pt ℝ))) : ∃ M : ℝ, 0 ≤ M ∧ ∀ sh ∈ l, ∀ v ∈ sh,
    (-M ≤ v.1 ∧ v.1 ≤ M) ∧ (-M ≤ v.2 ∧ v.2 ≤ M) := by
  obtain ⟨M1, h1, hM1⟩ := polys_bounded l
  obtain ⟨M2, h2, hM2⟩ := polys_bounded (l.map (List.map Prod.swap))
  refine ⟨M1 + M2, by linarith, fun sh hsh v hv => ?_⟩
  have a := hM1 sh hsh v hv
  have b := hM2 (sh.map Prod.swap) (List.mem_map_of_mem hsh) v.swap (List.mem_map_of_mem hv)
  simp only [Prod.fst_swap] at b
  exact ⟨⟨by linarith, by linarith⟩, by linarith, by linarith⟩

/-- A line outside the square misses the polygons. -/
theorem isect2D_out {M y : ℝ} (hy : M < |y|) {sh : List (Pt ℝ)} (h : ∀ v ∈ sh, -M ≤ v.2 ∧ v.2 ≤ M) :
    isect2D y sh = [] := by
  by_cases hne : sh = []
  · subst hne; rfl
  · obtain ⟨l, h1, -, -, h2⟩ := C13_horizontal_line_polygon y sh hne
    unfold isect2D
    rw [h1]
    refine h2.2 ?_
    rcases lt_abs.1 hy with hy | hy
    · exact Or.inl fun v hv => (h v hv).2.trans_lt hy
    · exact Or.inr (Or.inl fun v hv => by have := (h v hv).1; linarith)

theorem isPtInCFree2D_out {M : ℝ} {p : Pt ℝ} (hy : M < |p.2|) : ∀ (l : List (List (Pt ℝ))),
    (∀ sh ∈ l, sh ≠ [] ∧ ∀ v ∈ sh, -M ≤ v.2 ∧ v.2 ≤ M) → isPtInCFree2D p l = .ok true := by
  intro l
  induction l with
  | nil => intro _; rfl
  | cons b bs ih =>
    intro h
    obtain ⟨l, h1, -, -, -⟩ := C13_horizontal_line_polygon p.2 b (h b (by simp)).1
    have h2 : isect2D p.2 b = l := by unfold isect2D; rw [h1]
    rw [isect2D_out hy (h b (by simp)).2] at h2
    subst h2
    unfold isPtInCFree2D ptInObs2D
    rw [h1]
    simp only [Res.bind_ok', List.isEmpty_nil, if_true]
    exact ih fun sh hsh => h sh (by simp [hsh])

theorem sameSlice_left {M x y y' : ℝ} (hx : x < -M) (Q : QrSolve ℝ) (l : List (List (Pt ℝ)))
    (h : ∀ sh ∈ l, ∀ v ∈ sh, -M ≤ v.1) : sameSliceFree2D Q l (x, y) (x, y') = true := by
  unfold sameSliceFree2D
  rw [Bool.not_eq_true', List.any_eq_false]
  intro sh hsh hc
  rw [C16_segment_polygon] at hc
  obtain ⟨e, he, -, s, t, hs0, hs1, ht0, ht1, h1, -⟩ := hc
  have m1 := h sh hsh _ (mem_edgesOf he).1
  have m2 := h sh hsh _ (mem_edgesOf he).2
  simp only [sub_self, mul_zero, add_zero] at h1
  nlinarith

/-- The vertices of the example. -/
noncomputable def exVerts (x y0 y1 : ℝ) : List Vec :=
  [[x, y0, heading 3 0], [x, y1, heading 3 0], [x, y0, heading 3 1], [x, y1, heading 3 1], [x, y0, heading 3 2],
    [x, y1, heading 3 2]]

theorem headings_three : heading 3 0 = -hrmPi ∧ heading 3 1 = 0 ∧ heading 3 2 = hrmPi := by
  unfold heading
  norm_num
  ring

/-- The query next to the first or the second vertex finds it. -/
theorem near_example {x y0 y1 gap : ℝ} (hy : y0 ≠ y1) (hgap : 0 < gap) (i : ℕ) (hi : i < 2) :
    nearest2D ((List.range 3).map (heading 3)) (exVerts x y0 y1) [x, if i = 0 then y0 else y1, heading 3 0] 1 100 gap
      = .ok [i] := by
  obtain ⟨e0, e1, e2⟩ := headings_three
  have hp : 3 < hrmPi := by unfold hrmPi; norm_num
  have hp4 : hrmPi < 4 := by unfold hrmPi; norm_num
  set q : Vec := [x, if i = 0 then y0 else y1, heading 3 0] with hq
  have hdim : ∀ v ∈ exVerts x y0 y1, v.length = 3 := by
    intro v hv
    simp only [exVerts, List.mem_cons, List.not_mem_nil, or_false] at hv
    rcases hv with rfl | rfl | rfl | rfl | rfl | rfl <;> rfl
  have hne : exVerts x y0 y1 ≠ [] := by simp [exVerts]
  obtain ⟨m, v, hm, hv, hv2, -⟩ := closestHeading_spec hne hdim (heading 3 0)
  have hm4 : |m - heading 3 0| < 100 := by
    have : m = heading 3 0 ∨ m = heading 3 1 ∨ m = heading 3 2 := by
      simp only [exVerts, List.mem_cons, List.not_mem_nil, or_false] at hv
      rcases hv with rfl | rfl | rfl | rfl | rfl | rfl <;>
        simp only [List.getElem?_cons_succ, List.getElem?_cons_zero, Option.some.injEq] at hv2 <;> simp [← hv2]
    rw [abs_lt]
    rcases this with h | h | h <;> rw [h, e0] <;> (try rw [e1]) <;> (try rw [e2]) <;> constructor <;> linarith
  have hcol : collectK (fun h => |m - h| < 100) 1 [] ((List.range 3).map (heading 3)) = [heading 3 0] := by
    rw [show (List.range 3).map (heading 3) = [heading 3 0, heading 3 1, heading 3 2] from rfl]
    unfold collectK
    simp only [if_pos hm4]
    simp
  obtain ⟨k, w, hw, hcase, hstep⟩ := nearestStep2D_spec hne hdim (q := q) rfl gap (heading 3 0)
  have hself : ∀ a b c : ℝ, euclid [a, b, c] [a, b, c] = 0 := by intro a b c; simp [euclid]
  have hsame : ∀ y y' : ℝ, euclid [x, y, heading 3 0] [x, y', heading 3 0] ≤ 0 → y = y' := by
    intro y y' h
    have h0 := le_antisymm h (Real.sqrt_nonneg _)
    unfold euclid at h0
    rw [Real.sqrt_eq_zero (by simp; positivity)] at h0
    simpa [sub_eq_zero] using h0
  have hmem : q ∈ exVerts x y0 y1 := by
    interval_cases i <;> simp [hq, exVerts]
  have hqq : euclid q q = 0 := hself _ _ _
  have hq2 : |coord q 2 - heading 3 0| < 1 / 10 ^ 6 := by simp [hq, coord]
  have hle : euclid q w ≤ 0 ∧ k < 2 := by
    rcases hcase with ⟨v', h1, h2, h3⟩ | ⟨rfl, h3⟩
    · rw [hw] at h1
      obtain rfl := Option.some.inj h1
      refine ⟨hqq ▸ h3 q hmem hq2, ?_⟩
      by_contra hk2
      have hk6 : k < 6 := by simpa [exVerts] using (List.getElem?_eq_some_iff.1 hw).1
      have : coord w 2 = heading 3 1 ∨ coord w 2 = heading 3 2 := by
        interval_cases k <;> first | omega | (obtain rfl := Option.some.inj hw; simp [coord])
      rw [abs_lt] at h2
      rcases this with h | h <;> rw [h, e0] at h2
      · rw [e1] at h2; norm_num at h2; linarith
      · rw [e2] at h2; norm_num at h2; linarith
    · exact ⟨hqq ▸ h3 w hw q hmem hq2, by omega⟩
  have hk : k = i ∧ coord q 1 = coord w 1 := by
    obtain ⟨hle, hk2⟩ := hle
    rw [hq] at hle ⊢
    have hi' : i = 0 ∨ i = 1 := by omega
    have hk' : k = 0 ∨ k = 1 := by omega
    rcases hi' with e | e <;> rcases hk' with e' | e' <;> rw [e] at hle ⊢ <;> rw [e'] at hw ⊢ <;>
      obtain rfl := Option.some.inj hw
    · exact ⟨rfl, rfl⟩
    · exact absurd (hsame _ _ hle) hy
    · exact absurd (hsame _ _ hle).symm hy
    · exact ⟨rfl, rfl⟩
  have hc : closestHeading (exVerts x y0 y1) (heading 3 0) = _ := hm
  unfold nearest2D
  rw [show Res.idx (exVerts x y0 y1) 0 = .ok [x, y0, heading 3 0] from rfl, Res.bind_ok',
    show Res.idx [x, y0, heading 3 0] 2 = .ok (heading 3 0) from rfl, Res.bind_ok',
    show Res.idx q 2 = .ok (heading 3 0) from rfl, Res.bind_ok', hc, Res.bind_ok']
  dsimp only
  rw [hcol, List.foldlM_cons, hstep, if_pos (by rw [hk.2]; simpa using hgap), hk.1]
  rfl

/-- The obstacle of the example: a disc of radius 1 around (5, 0), eight boundary points. -/
noncomputable def exObs86 : SuperEllipse := ⟨1, 1, 1, 5, 0, 0, 8⟩

/-- Three slices, two sweep lines, two points per rotating step; limits derived from `M`. -/
noncomputable def exPar86 (M : ℝ) : Param2 := ⟨3, 2, 2, 1, 100, -M - 3, -M - 1, -M - 1, M + 1⟩

theorem exPar86_lines (M : ℝ) : (exPar86 M).lines = [-M - 1, M + 1] := by
  simp only [Param2.lines, exPar86, show List.range 2 = [0, 1] from rfl, List.map_cons, List.map_nil]
  norm_num

/-- A planner with an obstacle that meets the hypotheses of `C86_planar_path_safe_partial`, solves its task, and returns a
path with an inner step: start, two or more roadmap vertices, goal. -/
theorem C86_witness (base : SuperEllipse) (hbase : base.Ok) (sort : StdSort ℝ) (qr : QrSolve ℝ) (svd : SvdFun 2) (pick : ℕ → (ℕ → ℝ) → List ℕ → ℕ)
    (hpick : HeapTop pick) (clock : ℕ → ℝ) (timeLim : ℝ) : ∃ (dmin dmax : ℝ) (par : Param2) (start goal : Vec)
    (r' : PlanRep Planner2) (B : Bound2),
    Planner2.plan ⟨sort, dmin, dmax, qr, svd, pick⟩ clock timeLim 0
      (freshRep (.new (Tree2.new base) [exCircle 20] [exObs86] start goal par)) = some (.ok r') ∧
    r'.st.res.solved = true ∧ start.length = 3 ∧ goal.length = 3 ∧ start ≠ goal ∧ 2 ≤ par.numPoint ∧ 2 ≤ par.numSlice ∧
    cspaceBoundary (Tree2.new base) [exCircle 20] [exObs86] = .ok B ∧ B.obstacle ≠ [] ∧
    SweepGeneric ⟨sort, dmin, dmax, qr, svd, pick⟩ par B ∧ 4 ≤ r'.solvedPath.length := by
  have hrun : Tree2.run [] (Tree2.new base) = .ok (Tree2.new base) := rfl
  have hr := run_inv_of hrun
  obtain ⟨B, hB, b1, b2, -⟩ := cspaceBoundary_ok hr [exCircle 20] [exObs86]
  have hobsne : B.obstacle ≠ [] := by intro e; rw [e] at b2; simp [addedBodies] at b2
  have harena : B.arena ≠ [] := by intro e; rw [e] at b1; simp [addedBodies] at b1
  have hnum : ∀ o ∈ [exObs86], o.num ≠ 0 := by simp [exObs86]
  -- everything the planner computes is in a square
  set E : ℕ → ℕ → SuperEllipse := fun i j => tfeOf svd base (heading 3 i) (heading 3 j) 2 with hE
  obtain ⟨M, hM0, hM⟩ := polys_boxed (B.arena ++ B.obstacle ++
    (List.range 3).flatMap (fun i => (List.range 3).flatMap fun j => bridgeBound [exObs86] (E i j)))
  have hMA : ∀ sh ∈ B.arena, ∀ v ∈ sh, (-M ≤ v.1 ∧ v.1 ≤ M) ∧ (-M ≤ v.2 ∧ v.2 ≤ M) := fun sh hsh => hM sh (by simp [hsh])
  have hMO : ∀ sh ∈ B.obstacle, ∀ v ∈ sh, (-M ≤ v.1 ∧ v.1 ≤ M) ∧ (-M ≤ v.2 ∧ v.2 ≤ M) := fun sh hsh => hM sh (by simp [hsh])
  have hME : ∀ i < 3, ∀ j < 3, ∀ sh ∈ bridgeBound [exObs86] (E i j), ∀ v ∈ sh, -M ≤ v.2 ∧ v.2 ≤ M :=
    fun i hi j hj sh hsh v hv => (hM sh (by
      refine List.mem_append_right _ (List.mem_flatMap.2 ⟨i, List.mem_range.2 hi, List.mem_flatMap.2 ⟨j, List.mem_range.2 hj, hsh⟩⟩)) v hv).2
  set par := exPar86 M with hpar
  have hlines : par.lines = [-M - 1, M + 1] := exPar86_lines M
  set L : Libs2 := ⟨sort, -M - 3, M + 3, qr, svd, pick⟩ with hL
  have hlow : L.dmin ≤ par.xLo := le_rfl
  have hup : par.xHi ≤ L.dmax := by simp only [hL, hpar, exPar86]; linarith
  have hb : ∀ sh ∈ B.arena, ∀ v ∈ sh, L.dmin ≤ v.1 ∧ v.1 ≤ L.dmax := fun sh hsh v hv => by
    have := (hMA sh hsh v hv).1
    simp only [hL]
    exact ⟨by linarith, by linarith⟩
  have hy0 : M < |(-M - 1 : ℝ)| := by rw [abs_of_nonpos (by linarith)]; linarith
  have hy1 : M < |(M + 1 : ℝ)| := by rw [abs_of_nonneg (by linarith)]; linarith
  have hgen : SweepGeneric L par B := by
    refine ⟨le_rfl, ?_, harena, hlow, hup, hb, ?_, ?_⟩
    · simp only [hpar, exPar86]; linarith
    · exact C82_robot_boundaries_partial base [] _ hrun [exCircle 20] [exObs86]
        hbase (by simp [addedBodies])
        (by
          intro o ho
          obtain rfl := List.mem_singleton.1 ho
          exact ⟨⟨by norm_num [exObs86], by norm_num [exObs86], by norm_num [exObs86], by norm_num [exObs86]⟩, by simp [exObs86],
            Or.inl rfl, by simp [addedBodies]⟩) B hB
    · intro sh hsh y hy v hv e
      have := (hMO sh hsh v hv).2
      rw [hlines] at hy
      simp only [List.mem_cons, List.not_mem_nil, or_false] at hy
      rcases hy with rfl | rfl <;> linarith
  set start : Vec := [-M - 2, -M - 1, heading 3 0] with hstart
  set goal : Vec := [-M - 2, M + 1, heading 3 0] with hgoal
  obtain ⟨P, -, hbd, -⟩ := build_total (L := L) (start := start) (goal := goal) (par := par) hr hB (by simp [hpar, exPar86])
    (by simp [hpar, exPar86]) (by simp [hpar, exPar86]) (by simp [hpar, exPar86]) hnum hlow hup hb
  obtain ⟨hn1, hl1, rows, r, hrows, hbr, hi⟩ := build_inv hr hB (by simp [hpar, exPar86]) hbd
  have hok := C23_build2D _ _ _ _ _ _ r.1 r.2 hbr
  have hmissed := sweep2D_missed sort (-M - 3) (M + 3) (-M - 3) (-M - 1) (by linarith) B.arena B.obstacle harena (-M - 1) (M + 1)
    (by
      intro sh hsh
      have : ∀ v ∈ sh, -M ≤ v.2 ∧ v.2 ≤ M := by
        rcases List.mem_append.1 hsh with h | h
        · exact fun v hv => (hMA sh h v hv).2
        · exact fun v hv => (hMO sh h v hv).2
      exact ⟨isect2D_out hy0 this, isect2D_out hy1 this⟩)
  rw [hlines] at hrows
  change sweep2D sort (-M - 3) (M + 3) (-M - 3) (-M - 1) B.arena B.obstacle _ = _ at hrows
  rw [hmissed] at hrows
  obtain rfl := (Res.ok.injEq _ _).mp hrows
  rw [hlines, show ((-M - 3 + (-M - 1)) / 2 : ℝ) = -M - 2 by ring] at hbr
  obtain ⟨hv, hw, he⟩ := roadmap_all_free (hd := heading 3) (by
      rw [abs_of_nonpos (by linarith)]
      simp only [hpar, exPar86, Param2.gapY]
      rw [abs_of_nonneg (by linarith)]
      push_cast
      linarith)
    (by
      intro i hi3
      rw [sameFree2_eq]
      rw [sameSlice_left (M := M) (by linarith) L.qr B.obstacle fun sh hsh v hv => (hMO sh hsh v hv).1.1])
    (by
      intro i hi3 j hj3 y hy y' hy'
      obtain ⟨b, e, hb'⟩ := freeMulti_eq (arena := [exCircle 20]) (obs := [exObs86]) (start := start) (goal := goal) (L := L)
        (par := par) hr hnum (by simp [hpar, exPar86]) (by simp [hpar, exPar86]) (i := i) (j := j) hi3 hj3 (-M - 2) y (heading 3 i)
        (-M - 2) y' (heading 3 j)
      rw [e, hb'.2 ?_]
      intro k hk
      refine ⟨isPtInCFree2D_out (M := M) ?_ _ fun sh hsh => ⟨?_, hME i hi3 j hj3 sh hsh⟩, by simp [addedBodies]⟩
      · have hk2 : k < 2 := hk
        have : onWay par.numPoint k y y' = y ∨ onWay par.numPoint k y y' = y' := by
          simp only [hpar, exPar86, onWay]
          interval_cases k
          · left; norm_num
          · right; norm_num
        simp only [List.mem_cons, List.not_mem_nil, or_false] at hy hy'
        rcases this with h | h <;> rw [h]
        · rcases hy with rfl | rfl <;> assumption
        · rcases hy' with rfl | rfl <;> assumption
      · exact bridge_ne hnum [E i j] (bridgeBound [exObs86] (E i j)) (by simp) sh hsh) hbr
  have hvlen : r.1.vertex.length = 6 := by rw [hv]; rfl
  have hS : ∀ s ∈ [0], s < r.1.vertex.length := by simp [hvlen]
  have hG : ∀ s ∈ [1], s < r.1.vertex.length := by simp [hvlen]
  have hfresh : SearchRes.Fresh ⟨false, [], some 0⟩ := ⟨rfl, rfl⟩
  obtain ⟨sr, hsr⟩ := C28_search_returns hok hpick hS hG hfresh (by rw [hvlen, hw]; norm_num)
  have hconn : r.1.Connected 0 1 := by
    refine ⟨[0, 1], r.1.weight[0]'(by omega) + 0, .cons 0 1 [] _ 0 (.single 1 (by omega)) ⟨0, List.getElem?_eq_getElem _, Or.inl he⟩,
      rfl, rfl⟩
  have hsol : sr.solved = true :=
    (C28_search_complete_optimal hok hpick hS hG hfresh hsr).1.2 ⟨0, by simp, 1, by simp, hconn⟩
  obtain ⟨s, hs, t, ht, len, hpath, -⟩ := C27_search_returns_path hok hpick hS hG hfresh hsr hsol
  obtain rfl := List.mem_singleton.1 hs
  obtain rfl := List.mem_singleton.1 ht
  have hids := hpath.1.mem_lt hok
  have hlen2 : 2 ≤ sr.pathId.length := by
    obtain ⟨-, h1, h2⟩ := hpath
    match hp : sr.pathId with
    | [] => rw [hp] at h1; exact nomatch h1
    | [a] =>
      rw [hp] at h1 h2
      simp only [List.head?_cons, Option.some.injEq] at h1
      simp only [List.getLast?_singleton, Option.some.injEq] at h2
      omega
    | a :: b :: l => simp
  have hhead : P.headings = ((List.range 3).map (heading 3)).map some := by
    rw [hi.headings]
    exact headings2_three
  have hPs : P.search L = .ok { P with res := sr } := by
    have e1 := hi.start
    have e2 := hi.goal
    have e3 := hi.par
    have e4 := hi.res
    have e5 := hi.graph
    change P.start = start at e1
    change P.goal = goal at e2
    change P.par = par at e3
    change P.res = ⟨false, [], some 0⟩ at e4
    have hyy : (-M - 1 : ℝ) ≠ M + 1 := by intro h; linarith
    have hgap : (0 : ℝ) < 100 * ((-M - 1) - (-M - 3)) / (2 : ℕ) := by norm_num
    unfold Planner2.search
    rw [hhead, realHeadings_some, Res.bind_ok']
    simp only [e1, e2, e3, e4, e5, hv]
    have n0 := near_example (x := -M - 2) hyy hgap 0 (by norm_num)
    have n1 := near_example (x := -M - 2) hyy hgap 1 (by norm_num)
    change nearest2D _ _ start 1 100 _ = _ at n0
    change nearest2D _ _ goal 1 100 _ = _ at n1
    change (nearest2D _ (exVerts (-M - 2) (-M - 1) (M + 1)) start 1 100 (100 * ((-M - 1) - (-M - 3)) / (2 : ℕ))).bind _ = _
    rw [n0, Res.bind_ok']
    change (nearest2D _ (exVerts (-M - 2) (-M - 1) (M + 1)) goal 1 100 (100 * ((-M - 1) - (-M - 3)) / (2 : ℕ))).bind _ = _
    rw [n1, Res.bind_ok']
    change (search r.1 pick [0] [1] _).bind _ = _
    rw [hsr, Res.bind_ok']
  obtain ⟨path, mid, hp1, hp2, hp3, -⟩ := C30_solution_path hok.dims start goal sr.pathId hids (by rw [hv]; simp)
  have hpath' : getSolutionPath P.graph P.start P.goal sr.pathId = .ok path := by
    rw [hi.graph, hi.start, hi.goal]; exact hp1
  obtain ⟨r', e, est, epath⟩ := plan_solved_once (ops := planner2Ops L) clock timeLim 0
    (freshRep (.new (Tree2.new base) [exCircle 20] [exObs86] start goal par)) hbd hPs hsol hpath' ⟨_, rfl⟩
  refine ⟨-M - 3, M + 3, par, start, goal, r', B, e, by rw [est]; exact hsol, rfl, rfl, ?_, le_rfl, by simp [hpar, exPar86], hB,
    hobsne, hgen, ?_⟩
  · intro h
    simp only [hstart, hgoal, List.cons.injEq, and_true, true_and] at h
    linarith
  · rw [epath, hp2]
    simp only [List.length_cons, List.length_append, List.length_nil]
    omega

/-- The hypotheses of `C86_slice_step` are met: a step past a square. -/
example (Q : QrSolve ℝ) : WayOutside [(1, -1), (3, -1), (3, 1), (1, 1)] ((0, -2) : Pt ℝ) (0, 2) := by
  have hx : ∀ v ∈ ([(1, -1), (3, -1), (3, 1), (1, 1)] : List (Pt ℝ)), 1 ≤ v.1 := by
    intro v hv
    simp only [List.mem_cons, List.not_mem_nil, or_false] at hv
    rcases hv with rfl | rfl | rfl | rfl <;> norm_num
  have hreg : ∀ y : ℝ, ((0, y) : Pt ℝ) ∉ region [(1, -1), (3, -1), (3, 1), (1, 1)] := by
    intro y h
    have := region_le [((1, -1) : Pt ℝ), (3, -1), (3, 1), (1, 1)] (-1) 0 (-1) (by
      intro v hv; have := hx v hv; simp only [neg_mul, one_mul, zero_mul, add_zero]; linarith) _ h
    norm_num at this
  have hedge : ∀ e ∈ edgesOf ([(1, -1), (3, -1), (3, 1), (1, 1)] : List (Pt ℝ)), ∀ y : ℝ, ¬ OnEdge e (0, y) := fun e he y ho =>
    hreg y (onEdge_mem_region he ho)
  have hin : ∀ p : Pt ℝ, p.2 = -2 ∨ p.2 = 2 → ¬ InSlice [(1, -1), (3, -1), (3, 1), (1, 1)] p := by
    rintro p hp ⟨x1, x2, -, -, h, -⟩
    have a := region_le [((1, -1) : Pt ℝ), (3, -1), (3, 1), (1, 1)] 0 1 1 (by
      intro v hv
      simp only [List.mem_cons, List.not_mem_nil, or_false] at hv
      rcases hv with rfl | rfl | rfl | rfl <;> norm_num) _ h
    have b := region_le [((1, -1) : Pt ℝ), (3, -1), (3, 1), (1, 1)] 0 (-1) 1 (by
      intro v hv
      simp only [List.mem_cons, List.not_mem_nil, or_false] at hv
      rcases hv with rfl | rfl | rfl | rfl <;> norm_num) _ h
    norm_num at a b
    rcases hp with h | h <;> rw [h] at a b <;> linarith
  refine C86_slice_step Q [[(1, -1), (3, -1), (3, 1), (1, 1)]] (0, -2) (0, 2)
    (sameSlice_left (M := -1) (by norm_num) Q _ (by
      intro sh hsh v hv; obtain rfl := List.mem_singleton.1 hsh; simpa using hx v hv)) _ (by simp) (by simp) ?_ (by norm_num) (by norm_num)
    (hin _ (Or.inl rfl)) (hin _ (Or.inr rfl)) ⟨fun e he => ⟨hedge e he _, hedge e he _⟩, ?_⟩
  · left
    simp only [edgesOf, List.zip, List.cons_append, List.nil_append, List.zipWith_cons_cons,
      List.zipWith_nil_left, List.mem_cons, List.not_mem_nil, or_false]
    rintro e (rfl | rfl | rfl | rfl) v (rfl | rfl | rfl | rfl) <;> norm_num [cross]
  · intro v hv s _ _ h
    have h1 := hx v hv
    rw [h] at h1
    simp only [wayPoint] at h1
    norm_num at h1

end Hrm
