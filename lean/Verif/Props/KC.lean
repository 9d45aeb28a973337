import Verif.Spec.KC
import Verif.Lemmas.KCPlan
import Mathlib.Analysis.Convex.Combination

/-! # C54, C55: the "kinematics of containment" planner and the point-in-polyhedron test -/

namespace Hrm

open Matrix

theorem homog_mulVec (t : Tet) (w : Fin 4 → ℝ) : homog t *ᵥ w =
    ![∑ j, w j * t j 0, ∑ j, w j * t j 1, ∑ j, w j * t j 2, ∑ j, w j] := by
  funext i
  fin_cases i <;> simp [homog, Matrix.mulVec, dotProduct, mul_comm]

theorem homog_det {t : Tet} (h : AffineIndependent ℝ t) : (homog t).det ≠ 0 := by
  intro hd
  obtain ⟨w, hw, h0⟩ := Matrix.exists_mulVec_eq_zero_iff.2 hd
  rw [homog_mulVec] at h0
  apply hw
  have e0 := congrFun h0 0
  have e1 := congrFun h0 1
  have e2 := congrFun h0 2
  have e3 := congrFun h0 3
  simp at e0 e1 e2 e3
  have := affineIndependent_iff.1 h Finset.univ w e3 (by
    funext i
    simp only [Finset.sum_apply, Pi.smul_apply, smul_eq_mul, Pi.zero_apply]
    fin_cases i
    · simpa using e0
    · simpa using e1
    · simpa using e2)
  funext i
  exact this i (Finset.mem_univ i)

/-- Points of the hull of four points. -/
theorem mem_hull_iff (t : Tet) (p : Fin 3 → ℝ) : p ∈ convexHull ℝ (Set.range t) ↔
    ∃ w : Fin 4 → ℝ, (∀ i, 0 ≤ w i) ∧ ∑ i, w i = 1 ∧ ∑ i, w i • t i = p := by
  constructor
  · intro hp
    have hsub : convexHull ℝ (Set.range t) ⊆
        {p | ∃ w : Fin 4 → ℝ, (∀ i, 0 ≤ w i) ∧ ∑ i, w i = 1 ∧ ∑ i, w i • t i = p} := by
      apply convexHull_min
      · rintro _ ⟨i, rfl⟩
        refine ⟨Pi.single i 1, fun j => ?_, by simp, ?_⟩
        · by_cases h : j = i
          · subst h; simp
          · simp [h]
        · simp [Pi.single_apply]
      · rintro p ⟨w, w1, w2, rfl⟩ q ⟨v, v1, v2, rfl⟩ a b ha hb hab
        refine ⟨fun i => a * w i + b * v i, fun i => ?_, ?_, ?_⟩
        · have := w1 i; have := v1 i; positivity
        · rw [Finset.sum_add_distrib, ← Finset.mul_sum, ← Finset.mul_sum, w2, v2]; simpa using hab
        · rw [Finset.smul_sum, Finset.smul_sum, ← Finset.sum_add_distrib]
          refine Finset.sum_congr rfl fun i _ => ?_
          rw [add_smul, mul_smul, mul_smul]
    exact hsub hp
  · rintro ⟨w, w1, w2, rfl⟩
    exact mem_convexHull_of_exists_fintype w t w1 w2 (fun i => ⟨i, rfl⟩) rfl

theorem inSimplex_colMajor (D : Matrix (Fin 4) (Fin 4) ℝ) (x y z : ℝ) :
    inSimplex (colMajor D) x y z = .ok (decide (∀ i, 0 ≤ (D *ᵥ ![x, y, z, 1]) i ∧ (D *ᵥ ![x, y, z, 1]) i ≤ 1)) := by
  have e : ∀ r : Fin 4, barycentric (colMajor D) x y z r.val = .ok ((D *ᵥ ![x, y, z, 1]) r) := by
    intro r
    fin_cases r <;> simp [barycentric, colMajor, Res.idx, Matrix.mulVec, dotProduct, Fin.sum_univ_four]
  have e0 := e 0
  have e1 := e 1
  have e2 := e 2
  have e3 := e 3
  simp only [Fin.isValue, Fin.val_zero, Fin.val_one, Fin.val_two, show ((3 : Fin 4) : ℕ) = 3 from rfl] at e0 e1 e2 e3
  unfold inSimplex
  rw [e0, Res.bind_ok', e1, Res.bind_ok', e2, Res.bind_ok', e3, Res.bind_ok']
  congr 1
  rw [decide_eq_decide]
  simp only [le_min_iff, max_le_iff, Fin.forall_fin_succ, Fin.isValue]
  simp
  tauto

theorem inSimplex_hull {t : Tet} (h : AffineIndependent ℝ t) (x y z : ℝ) :
    inSimplex (colMajor (homog t)⁻¹) x y z = .ok true ∧ ![x, y, z] ∈ convexHull ℝ (Set.range t) ∨
    inSimplex (colMajor (homog t)⁻¹) x y z = .ok false ∧ ![x, y, z] ∉ convexHull ℝ (Set.range t) := by
  have hd : IsUnit (homog t).det := (homog_det h).isUnit
  rw [inSimplex_colMajor]
  have key : (∀ i, 0 ≤ ((homog t)⁻¹ *ᵥ ![x, y, z, 1]) i ∧ ((homog t)⁻¹ *ᵥ ![x, y, z, 1]) i ≤ 1) ↔
      ![x, y, z] ∈ convexHull ℝ (Set.range t) := by
    rw [mem_hull_iff]
    constructor
    · intro hw
      have e : homog t *ᵥ ((homog t)⁻¹ *ᵥ ![x, y, z, 1]) = ![x, y, z, 1] := by
        rw [Matrix.mulVec_mulVec, Matrix.mul_nonsing_inv _ hd, Matrix.one_mulVec]
      rw [homog_mulVec] at e
      refine ⟨(homog t)⁻¹ *ᵥ ![x, y, z, 1], fun i => (hw i).1, by simpa using congrFun e 3, ?_⟩
      funext i
      simp only [Finset.sum_apply, Pi.smul_apply, smul_eq_mul]
      fin_cases i
      · simpa using congrFun e 0
      · simpa using congrFun e 1
      · simpa using congrFun e 2
    · rintro ⟨w, w1, w2, w3⟩
      have e : homog t *ᵥ w = ![x, y, z, 1] := by
        rw [homog_mulVec, w2]
        have e0 := congrFun w3 0
        have e1 := congrFun w3 1
        have e2 := congrFun w3 2
        simp only [Finset.sum_apply, Pi.smul_apply, smul_eq_mul] at e0 e1 e2
        rw [e0, e1, e2]; rfl
      have ew : (homog t)⁻¹ *ᵥ ![x, y, z, 1] = w := by
        rw [← e, Matrix.mulVec_mulVec, Matrix.nonsing_inv_mul _ hd, Matrix.one_mulVec]
      rw [ew]
      intro i
      refine ⟨w1 i, ?_⟩
      rw [← w2]
      exact Finset.single_le_sum (fun j _ => w1 j) (Finset.mem_univ i)
  by_cases hp : ![x, y, z] ∈ convexHull ℝ (Set.range t)
  · exact Or.inl ⟨by rw [decide_eq_true (key.2 hp)], hp⟩
  · exact Or.inr ⟨by rw [decide_eq_false (fun hk => hp (key.1 hk))], hp⟩

/-- C55: for every list of non-degenerate tetrahedra with the precomputed data, and every point: the test returns,
and returns true exactly for the points of one of the tetrahedra. -/
theorem C55_point_in_poly (ts : List Tet) (hts : ∀ t ∈ ts, AffineIndependent ℝ t) (x y z : ℝ) :
    ∃ r, isPtInPoly (polyData ts) [x, y, z] = .ok r ∧
      (r = true ↔ ∃ t ∈ ts, ![x, y, z] ∈ convexHull ℝ (Set.range t)) := by
  have e : isPtInPoly (polyData ts) [x, y, z] = polyLoop x y z (polyData ts) := rfl
  rw [e]
  induction ts with
  | nil => exact ⟨false, rfl, by simp⟩
  | cons t ts ih =>
    obtain ⟨r, h1, h2⟩ := ih (fun t ht => hts t (List.mem_cons_of_mem _ ht)) rfl
    have hu : polyLoop x y z (polyData (t :: ts)) = (inSimplex (colMajor (homog t)⁻¹) x y z).bind fun ok =>
      if ok then .ok true else polyLoop x y z (polyData ts) := rfl
    rw [hu]
    rcases inSimplex_hull (hts t (by simp)) x y z with ⟨ht, hm⟩ | ⟨ht, hm⟩
    · exact ⟨true, by rw [ht]; rfl, by simp [hm]⟩
    · refine ⟨r, by rw [ht, Res.bind_ok', if_neg (by simp), h1], ?_⟩
      rw [h2]
      simp [hm]

/-- The standard tetrahedron. -/
def exTet : Tet := ![![0, 0, 0], ![1, 0, 0], ![0, 1, 0], ![0, 0, 1]]

theorem exTet_indep : AffineIndependent ℝ exTet := by
  rw [affineIndependent_iff]
  intro s w h1 h2
  have hz : ∀ f : Fin 4 → ℝ, ∑ i ∈ s, f i = ∑ i, if i ∈ s then f i else 0 := by
    intro f; rw [Finset.sum_ite_mem, Finset.univ_inter]
  have e : ∀ k : Fin 3, ∑ i, (if i ∈ s then w i * exTet i k else 0) = 0 := by
    intro k
    rw [← hz fun i => w i * exTet i k]
    have := congrFun h2 k
    simpa [Finset.sum_apply] using this
  rw [hz] at h1
  have e0 := e 0
  have e1 := e 1
  have e2 := e 2
  rw [Fin.sum_univ_four] at e0 e1 e2 h1
  simp [exTet] at e0 e1 e2
  intro i hi
  fin_cases i
  · simp only [Fin.zero_eta, Fin.isValue] at hi ⊢
    rw [if_pos hi] at h1
    have a1 : (if (1 : Fin 4) ∈ s then w 1 else 0) = 0 := by split <;> simp_all
    have a2 : (if (2 : Fin 4) ∈ s then w 2 else 0) = 0 := by split <;> simp_all
    have a3 : (if (3 : Fin 4) ∈ s then w 3 else 0) = 0 := by split <;> simp_all
    linarith
  · exact e0 hi
  · exact e1 hi
  · exact e2 hi

/-- The test says yes inside the standard tetrahedron and no outside. -/
example : isPtInPoly (polyData [exTet]) [1 / 4, 1 / 4, 1 / 4] = .ok true ∧
    isPtInPoly (polyData [exTet]) [1, 1, 1] = .ok false := by
  have hts : ∀ t ∈ [exTet], AffineIndependent ℝ t := by
    intro t ht; rw [List.mem_singleton.1 ht]; exact exTet_indep
  constructor
  · obtain ⟨r, h1, h2⟩ := C55_point_in_poly [exTet] hts (1 / 4) (1 / 4) (1 / 4)
    rw [h1]
    congr 1
    rw [h2]
    refine ⟨exTet, by simp, (mem_hull_iff _ _).2 ⟨fun _ => 1 / 4, fun _ => by norm_num, by
      simp, ?_⟩⟩
    funext i
    fin_cases i <;> simp [Fin.sum_univ_four, exTet]
  · obtain ⟨r, h1, h2⟩ := C55_point_in_poly [exTet] hts 1 1 1
    rw [h1]
    congr 1
    rw [← Bool.not_eq_true, h2]
    rintro ⟨t, ht, hm⟩
    obtain rfl := List.mem_singleton.1 ht
    obtain ⟨w, w1, w2, w3⟩ := (mem_hull_iff _ _).1 hm
    have e0 := congrFun w3 0
    have e1 := congrFun w3 1
    simp [Fin.sum_univ_four, exTet] at e0 e1 w2
    have := w1 0
    have := w1 3
    linarith

/-! ## C54: connecting the slices -/

/-- C54 as stated: there is a problem for which the planner's roadmap connects configurations of different
headings. -/
def C54_claim : Prop :=
  ∃ (L : Libs2) (rnd : ℕ → ℝ) (draws : ℕ) (robot : Tree2) (arena obs : List SuperEllipse) (start goal : Vec)
    (par : Param2) (Q : PlannerKC) (e : ℕ × ℕ) (a b : Vec),
    (PlannerKC.new robot arena obs start goal par draws).build L rnd = .ok Q ∧ e ∈ Q.core.graph.edge ∧
    Q.core.graph.vertex[e.1]? = some a ∧ Q.core.graph.vertex[e.2]? = some b ∧ ¬ SameHeading a b

/-- The data of the polyhedron are never filled in, so no problem has an edge between headings. -/
theorem C54_refuted : ¬ C54_claim := by
  rintro ⟨L, rnd, draws, robot, arena, obs, start, goal, par, Q, e, a, b, h, he, ha, hb, hne⟩
  obtain ⟨B, hB, -⟩ := kc_boundary (robot := robot) (arena := arena) (obs := obs)
  obtain ⟨hk, -⟩ := kc_build hB h
  obtain ⟨k, hk'⟩ := List.mem_iff_getElem?.1 he
  obtain ⟨x, y, hx, hy, hp⟩ := hk.edges k e hk'
  rw [ha] at hx
  rw [hb] at hy
  obtain rfl := Option.some.inj hx
  obtain rfl := Option.some.inj hy
  exact hne hp.1

theorem inflate_eq (E : SuperEllipse) : inflate E = { E with a := 11 / 10 * E.a, b := 11 / 10 * E.b } := by
  unfold inflate inflation
  congr 1 <;> ring

/-- What the user gets instead: whenever `plan` on a new planner reports a solution, the whole path between start
and goal keeps one heading, and every step was accepted by the same-slice check – against the boundaries of the base alone, ten percent larger –
or runs along a sweep line. -/
theorem C54_path_one_heading (L : Libs2) (hpick : HeapTop L.pick) (rnd : ℕ → ℝ) (draws : ℕ) (robot : Tree2)
    (arena obs : List SuperEllipse) (hne : arena ≠ [] ∨ obs ≠ []) (start goal : Vec) (hs : start.length = 3)
    (hg : goal.length = 3) (par : Param2) (clock : ℕ → ℝ) (timeLim : ℝ) (fuel tick : ℕ) (r' : PlanRep PlannerKC)
    (h : PlannerKC.plan L rnd clock timeLim fuel ⟨.new robot arena obs start goal par draws, tick, 0, 0, 0, [], []⟩ =
      some (.ok r'))
    (hsol : r'.st.core.res.solved = true) :
    ∃ B mid, cspaceBoundary (Tree2.new { robot.base with a := 11 / 10 * robot.base.a, b := 11 / 10 * robot.base.b })
        arena obs = .ok B ∧
      r'.solvedPath = start :: (mid ++ [goal]) ∧ mid ≠ [] ∧ (∀ a ∈ mid, ∀ b ∈ mid, a[2]? = b[2]?) ∧
      ∀ (k : ℕ) (a b : Vec), mid[k]? = some a → mid[k + 1]? = some b →
        sameFree2 L B.obstacle a b = .ok true ∨ sameFree2 L B.obstacle b a = .ok true ∨ a[1]? = b[1]? := by
  obtain ⟨B, hB, -⟩ := kc_boundary (robot := robot) (arena := arena) (obs := obs)
  obtain ⟨P, hk, hsr, -, hpath⟩ := kc_plan hB hne h
  obtain ⟨hh, s, t, res, -, n1, n2, hse, hQ⟩ := search_ok hsr
  have e1 : P.start = start := hk.start
  have e2 : P.goal = goal := hk.goal
  have e3 : P.res = ⟨false, [], some 0⟩ := hk.res
  rw [e1] at n1
  rw [e2] at n2
  rw [e3] at hse
  have hok := hk.ok
  obtain ⟨hvne, hS⟩ := nearest2D_ids hok.dims hs n1
  obtain ⟨-, hT⟩ := nearest2D_ids hok.dims hg n2
  have hsol' : res.solved = true := by rw [hQ] at hsol; exact hsol
  have hgp := hpath hsol
  rw [hQ] at hgp
  change getSolutionPath P.graph P.start P.goal res.pathId = _ at hgp
  rw [e1, e2] at hgp
  obtain ⟨s0, hs0, t0, ht0, len, hpb, -⟩ := C27_search_returns_path hok hpick hS hT ⟨rfl, rfl⟩ hse hsol'
  have hids : ∀ i ∈ res.pathId, i < P.graph.vertex.length := hpb.1.mem_lt hok
  obtain ⟨path, mid, p1, p2, p3, p4, -⟩ := C30_solution_path hok.dims start goal res.pathId hids hvne
  rw [hgp] at p1
  obtain rfl := (Res.ok.injEq _ _).mp p1
  have hres : ∀ v : Vec, v.length = 3 → resize v 3 = v := by
    intro v hv
    obtain ⟨x, y, z, rfl⟩ := vec3 hv
    simp [resize]
  rw [hres start hs, hres goal hg] at p2
  have hstep : ∀ (k : ℕ) (a b : Vec), mid[k]? = some a → mid[k + 1]? = some b →
      SlicePair L B a b ∨ SlicePair L B b a := by
    intro k a b ha hb
    have hl : k + 1 < mid.length := (List.getElem?_eq_some_iff.1 hb).1
    refine C31_inner_steps_checked_partial hok hk.edges start goal hpb _ hgp (k + 1) (by omega) ?_ a b ?_ ?_
    · rw [p2]; simp; omega
    · rw [p2, List.getElem?_cons_succ, List.getElem?_append_left (by omega)]; exact ha
    · rw [p2, List.getElem?_cons_succ, List.getElem?_append_left hl]; exact hb
  have hone : ∀ (k : ℕ) (a b : Vec), mid[0]? = some a → mid[k]? = some b → a[2]? = b[2]? := by
    intro k
    induction k with
    | zero => intro a b ha hb; rw [ha] at hb; rw [Option.some.inj hb]
    | succ k ih =>
      intro a b ha hb
      have hl : k + 1 < mid.length := (List.getElem?_eq_some_iff.1 hb).1
      have hk' := List.getElem?_eq_getElem (by omega : k < mid.length)
      rw [ih a _ ha hk']
      rcases hstep k _ b hk' hb with h | h
      · exact h.1
      · exact h.1.symm
  refine ⟨B, mid, by rw [← inflate_eq]; exact hB, p2, ?_, ?_, ?_⟩
  · intro hm
    rw [hm] at p3
    have := List.length_eq_zero_iff.1 p3.symm
    have hhd := hpb.2.1
    rw [this] at hhd
    exact nomatch hhd
  · intro a ha b hb
    obtain ⟨i, hi⟩ := List.mem_iff_getElem?.1 ha
    obtain ⟨j, hj⟩ := List.mem_iff_getElem?.1 hb
    have h0 := List.getElem?_eq_getElem (by have := (List.getElem?_eq_some_iff.1 hi).1; omega : 0 < mid.length)
    rw [← hone i _ a h0 hi, hone j _ b h0 hj]
  · intro k a b ha hb
    rcases hstep k a b ha hb with h | h
    · rcases h.2 with h | h
      · exact Or.inl h
      · exact Or.inr (Or.inr h)
    · rcases h.2 with h | h
      · exact Or.inr (Or.inl h)
      · exact Or.inr (Or.inr h.symm)

theorem tryPoint_between {rnd : ℕ → ℝ} (hr : ∀ k, 0 ≤ rnd k ∧ rnd k ≤ 1) (k : ℕ) {v1 v2 : Vec} (h1 : v1.length = 3)
    (h2 : v2.length = 3) : BoxBetween v1 v2 (tryPoint rnd k v1 v2) := by
  refine ⟨by rw [(samplePoint_eq rnd k h1 h2).2, h1], ?_⟩
  have key : ∀ r a b : ℝ, 0 ≤ r → r ≤ 1 → min a b ≤ r * (a - b) + b ∧ r * (a - b) + b ≤ max a b := by
    intro r a b h0 h1
    rcases le_total a b with h | h
    · rw [min_eq_left h, max_eq_right h]; constructor <;> nlinarith
    · rw [min_eq_right h, max_eq_left h]; constructor <;> nlinarith
  obtain ⟨x, y, z, rfl⟩ := vec3 h1
  obtain ⟨x', y', z', rfl⟩ := vec3 h2
  intro i a b p ha hb hp
  rcases i with _ | _ | _ | i
  all_goals simp [tryPoint] at ha hb hp
  all_goals subst ha hb hp
  all_goals exact key _ _ _ (hr _).1 (hr _).2

/-- C54 for any polyhedron data: the connection of the slices returns, keeps everything it was given, and appends
middle vertices only – each in the box between a vertex of one slice and one of the next (cyclically), with both
motions in the polyhedron – joined to these two vertices and to nothing else; a vertex of a slice gets no middle
vertex only if, for every vertex of the next slice, all tries were rejected. -/
theorem C54_connection_partial (mats : List (List ℝ)) (hm : PolyOk mats) (rnd : ℕ → ℝ)
    (hr : ∀ k, 0 ≤ rnd k ∧ rnd k ≤ 1) (tries : ℕ) (idx : List VertexIdx) (n : ℕ) (g : Graph) (hg : g.Ok 3)
    (hl : n ≤ idx.length) (hb : ∀ s ∈ idx, s.slice ≤ g.vertex.length) (k : ℕ) :
    ∃ g' k' ps, connectMultiSliceKC mats rnd tries idx n (g, k) = .ok (g', k') ∧ g'.Ok 3 ∧
      g'.vertex = g.vertex ++ ps.map (fun p => p.2.2) ∧ g'.edge = g.edge ++ kcEdges g.vertex.length ps ∧
      (∀ p ∈ ps, (∃ j, AdjacentSlices idx n j p.1 p.2.1) ∧ ∃ v1 v2, g'.vertex[p.1]? = some v1 ∧
        g'.vertex[p.2.1]? = some v2 ∧ BoxBetween v1 v2 p.2.2 ∧ Contained mats v1 v2 p.2.2) ∧
      ∀ j m, (∃ p ∈ ps, p.1 = m) ∨ ∀ m2, AdjacentSlices idx n j m m2 → ∃ v1 v2, g'.vertex[m]? = some v1 ∧
        g'.vertex[m2]? = some v2 ∧ ∃ q, ∀ i < tries, ¬ Contained mats v1 v2 (tryPoint rnd (q + 3 * i) v1 v2) := by
  have hs := connectMultiSliceKC_sat (tot := True) (rnd := rnd) (tries := tries) (fun _ => hm) (idx := idx) (n := n) hg (fun _ => hl) (fun _ => hb) k
  obtain ⟨⟨g', k'⟩, e⟩ := hs.2 trivial
  obtain ⟨ps, a, h2, h3⟩ := hs.1 _ e
  refine ⟨g', k', ps, e, a.ok, a.vertex, a.edge, ?_, h3⟩
  intro p hp
  obtain ⟨v1, v2, q1, q2, ⟨j, q3⟩, q4⟩ := a.mid p hp
  refine ⟨h2 p hp, v1, v2, q1, q2, ?_, q4⟩
  rw [q3]
  exact tryPoint_between hr j (a.ok.dims _ (List.mem_of_getElem? q1)) (a.ok.dims _ (List.mem_of_getElem? q2))

/-- The hypotheses of `C54_connection_partial` are met by every list of tetrahedra. -/
theorem polyData_ok (ts : List Tet) : PolyOk (polyData ts) := by
  intro m hm
  obtain ⟨t, -, rfl⟩ := List.mem_map.1 hm
  simp [colMajor]

/-- A roadmap with one vertex in each of two slices, and the standard tetrahedron: a middle vertex is added. -/
example (rnd : ℕ → ℝ) (hr : ∀ k, 0 ≤ rnd k ∧ rnd k ≤ 1) : ∃ g' k', connectMultiSliceKC (polyData [exTet]) rnd 1
    [⟨0, 1, []⟩, ⟨1, 2, []⟩] 2 (⟨[[0, 0, 0], [0, 0, 0]], [], []⟩, 0) = .ok (g', k') ∧ 2 < g'.vertex.length := by
  obtain ⟨g', k', ps, h1, h2, h3, h4, h5, h6⟩ := C54_connection_partial (polyData [exTet]) (polyData_ok _) rnd hr 1
    [⟨0, 1, []⟩, ⟨1, 2, []⟩] 2 ⟨[[0, 0, 0], [0, 0, 0]], [], []⟩ ⟨by simp, rfl, by simp⟩ (by simp) (by simp) 0
  refine ⟨g', k', h1, ?_⟩
  have hps : ps ≠ [] := by
    rcases h6 0 0 with ⟨p, hp, -⟩ | hrej
    · exact List.ne_nil_of_mem hp
    · intro hnil
      obtain ⟨v1, v2, a1, a2, q, hq⟩ := hrej 1 ⟨by omega, _, rfl, by simp, by simp, Or.inl ⟨by omega, by simp, _, rfl, by simp⟩⟩
      rw [h3, hnil] at a1 a2
      simp at a1 a2
      subst a1 a2
      apply hq 0 (by omega)
      have h0 : isPtInPoly (polyData [exTet]) [0, 0, 0] = .ok true := by
        obtain ⟨r, e1, e2⟩ := C55_point_in_poly [exTet] (by
          intro t ht; rw [List.mem_singleton.1 ht]; exact exTet_indep) 0 0 0
        rw [e1]
        congr 1
        rw [e2]
        refine ⟨exTet, by simp, subset_convexHull _ _ ⟨0, ?_⟩⟩
        funext i
        fin_cases i <;> simp [exTet]
      have hd : diffVec (tryPoint rnd (q + 3 * 0) [0, 0, 0] [0, 0, 0]) [0, 0, 0] = [0, 0, 0] := by
        simp [tryPoint, diffVec]
      exact ⟨by rw [hd]; exact h0, by rw [hd]; exact h0⟩
  rw [h3]
  have := List.length_pos_iff.2 hps
  simp
  omega

/-- The hypotheses of `C54_path_one_heading` are met: in an empty round arena, with three slices and two sweep
lines, planning from the origin to itself succeeds, whatever the libraries and the random numbers. -/
theorem C54_witness (sort : StdSort ℝ) (qr : QrSolve ℝ) (svd : SvdFun 2) (pick : ℕ → (ℕ → ℝ) → List ℕ → ℕ)
    (hpick : HeapTop pick) (rnd : ℕ → ℝ) (clock : ℕ → ℝ) (timeLim : ℝ) : ∃ dmin dmax r',
    PlannerKC.plan ⟨sort, dmin, dmax, qr, svd, pick⟩ rnd clock timeLim 0
      ⟨.new (Tree2.new exRobot36) [exCircle 20] [] [0, 0, 0] [0, 0, 0] exPar71 0, 0, 0, 0, 0, [], []⟩ = some (.ok r') ∧
    r'.st.core.res.solved = true := by
  obtain ⟨B, hB, b1, b2⟩ := kc_boundary (robot := Tree2.new exRobot36) (arena := [exCircle 20]) (obs := [])
  obtain ⟨M, hM0, hM⟩ := polys_bounded B.arena
  have h1 := le_max_left M 10
  have h2 := le_max_right M 10
  have hlow : -(max M 10) ≤ exPar71.xLo := by simp only [exPar71]; linarith
  have hup : exPar71.xHi ≤ max M 10 := by simp only [exPar71]; linarith
  have hb : ∀ sh ∈ B.arena, ∀ v ∈ sh, -(max M 10) ≤ v.1 ∧ v.1 ≤ max M 10 := fun sh hsh v hv => by
    have := hM sh hsh v hv; exact ⟨by linarith, by linarith⟩
  refine ⟨-(max M 10), max M 10, ?_⟩
  set L : Libs2 := ⟨sort, -(max M 10), max M 10, qr, svd, pick⟩ with hL
  have hobs : B.obstacle = [] := List.length_eq_zero_iff.1 b2
  have harena : B.arena ≠ [] := by intro e; rw [e] at b1; simp at b1
  obtain ⟨rows, hrows, r1, r2⟩ := sweep2D_ok L.sort L.dmin L.dmax exPar71.xLo exPar71.xHi hlow hup B.arena
    B.obstacle exPar71.lines (lines_ne (by simp [exPar71])) hb
  have hst := buildRoadmap2D_sat (tot := True) (freeSame := fun _ => sameFree2 L B.obstacle)
    (freeMulti := fun _ _ _ _ => .ok false) (gap := 0) (headings := heading exPar71.numSlice)
    (seg := fun _ => ⟨exPar71.lines, rows⟩) (n := exPar71.numSlice)
    (fun _ => ⟨by simp [exPar71], fun _ _ => ⟨r1, fun r hr => by
        obtain ⟨T, t1, t2, t3, -⟩ := r2 r hr
        rw [t1, t2, t3]; simp⟩, fun _ _ => sameFree2_total L _, fun i hi j hj a b ha hb => ⟨false, rfl⟩⟩)
  obtain ⟨r, hbr⟩ := hst.2 trivial
  obtain ⟨-, i1, i2, -⟩ := hst.1 r hbr
  have hok := C23_build2D _ _ _ _ _ _ r.1 r.2 hbr
  have hvs := C65_planar_vertices_are_samples _ _ _ _ _ _ r.1 r.2 hbr
  -- the slices of the abstract construction
  unfold buildRoadmap2D at hbr
  cases hsl : buildSlices (fun i => constructSlice2D (sameFree2 L B.obstacle) (heading exPar71.numSlice i)
      ⟨exPar71.lines, rows⟩) exPar71.numSlice .empty [] with
  | throw => rw [hsl] at hbr; exact nomatch hbr
  | ub => rw [hsl] at hbr; exact nomatch hbr
  | ok s =>
  rw [hsl, Res.bind_ok'] at hbr
  cases hcm : connectMultiSlice2D (fun _ _ _ _ => .ok false) 0 exPar71.numSlice s.2 s.1 with
  | throw => rw [hcm] at hbr; exact nomatch hbr
  | ub => rw [hcm] at hbr; exact nomatch hbr
  | ok g =>
  rw [hcm] at hbr
  obtain rfl := (Res.ok.injEq _ _).mp hbr
  have hs' := (buildSlices_sat (tot := False) (slice := fun i => constructSlice2D (sameFree2 L B.obstacle)
        (heading exPar71.numSlice i) ⟨exPar71.lines, rows⟩)
      (Vp := fun i v => Slice2DV (heading exPar71.numSlice i) v) (numSlice := exPar71.numSlice)
      (Acc := fun _ _ => True) (Info := fun _ _ _ => True) (fun _ _ _ _ _ _ => trivial)
      (fun i hi g => (constructSlice2D_sat (tot := False) (Acc := fun _ _ => True)
        { acc := fun a b _ _ h => trivial
          vdim := fun v h => h.1
          third := fun v w z a b c => slice2DV_third a b c
          total := fun t => t.elim
          three := fun t => t.elim }
        (fun y x => ⟨rfl, rfl⟩) (fun a b h => trivial) (fun t => t.elim)).mono
          fun r hr => ⟨hr.1, hr.2.1, hr.2.2.1, trivial⟩) .empty).1 s hsl
  have hsok : s.1.Ok 3 := (hs'.1.mono (Vp' := fun v => v.length = 3) (fun v ⟨i, _, h⟩ => h.1) (fun _ _ h => h)).ok
    (fun _ h => h) ⟨by simp [Graph.empty], rfl, by simp [Graph.empty]⟩
  have hsame : s.1.vertex = g.vertex :=
    (((connectMultiSlice2D_sat (tot := False) (Acc := fun _ _ => True) hsok.dims (by intros; trivial)
      (fun h => h.elim)).1 g hcm).1.noVertex).symm
  simp only at hok hvs i1 i2
  rw [← hsame] at hvs i2
  obtain ⟨hvne, ids, hids, hidne, hidlt⟩ := witness_ids (L := L) harena hobs hlow hup hb hrows hsok.dims hvs
  -- the slices of the planner
  set K := PlannerKC.new (Tree2.new exRobot36) [exCircle 20] [] [0, 0, 0] [0, 0, 0] exPar71 0 with hK
  have hinv : SliceInv exRobot36 [] K.core B 0 (.empty, []) K.core.sampleOrientations := by
    refine ⟨run_inv_of (base := exRobot36) (ops := []) (robot := Tree2.new exRobot36) rfl, rfl, rfl, rfl, rfl, rfl,
      rfl, rfl, ?_, ?_, rfl, rfl, rfl, rfl, rfl, fun h => absurd h (lt_irrefl _), rfl, rfl⟩
    · simp [Planner2.sampleOrientations, hK, PlannerKC.new, Planner2.new]
    · rw [b1, b2]
      have := setup_shape exPar71.numLineY 1 0 exPar71.xLo exPar71.xHi
      simpa [Planner2.sampleOrientations, hK, PlannerKC.new, Planner2.new, Fs2.setup, Tree2.new, Tree2.numLinks, setupTable, vresize, emptyTable] using this
  have hsim := slices_sim_of (L := L) (P0 := K.core) (Q0 := K.core.sampleOrientations) hB
    (show exPar71.numSlice ≠ 1 by simp [exPar71]) (show exPar71.numLineY ≠ 1 by simp [exPar71]) hrows hinv
    exPar71.numSlice le_rfl
  change SimRel _ _ (buildSlices (fun i => constructSlice2D (sameFree2 L B.obstacle) (heading exPar71.numSlice i)
      ⟨exPar71.lines, rows⟩) exPar71.numSlice .empty []) at hsim
  rw [hsl] at hsim
  obtain ⟨P, hP, hi⟩ := hsim
  have hcon := connectMultiSliceKC_sat (tot := True) (mats := []) (rnd := rnd) (tries := exPar71.numPoint)
    (fun _ => by intro m hm; exact nomatch hm) (idx := s.2) (n := exPar71.numSlice) (g := s.1) hsok
    (fun _ => by rw [i1]) (fun _ x hx => (i2.bounds.2 x hx).2.2) 0
  obtain ⟨t, ht⟩ := hcon.2 trivial
  have ht1 : t.1 = s.1 := (connectMultiSliceKC_nil rnd _ _ _ _).1 t ht
  have hbd : K.build L rnd = .ok { K with core := { P with graph := t.1 }, draws := t.2 } := by
    unfold PlannerKC.build
    change Res.bind (List.foldlM _ _ (List.range exPar71.numSlice)) _ = _
    rw [hP, Res.bind_ok']
    have e3 : P.par = exPar71 := hi.par
    rw [e3, hi.idx, hi.graph]
    change (connectMultiSliceKC [] rnd exPar71.numPoint s.2 exPar71.numSlice (s.1, 0)).bind _ = _
    rw [ht, Res.bind_ok']
  obtain ⟨v, hv, hsearch⟩ := search_same (g := s.1) hpick hidne (some 0)
  have hPs : Planner2.search L { P with graph := t.1 } = .ok { P with graph := t.1, res := ⟨true, [v], some 0⟩ } := by
    have e1 : P.start = [0, 0, 0] := hi.start
    have e2 : P.goal = [0, 0, 0] := hi.goal
    have e3 : P.par = exPar71 := hi.par
    have e4 : P.res = ⟨false, [], some 0⟩ := hi.res
    have e5 : P.headings = ((List.range 3).map (heading 3)).map some := hi.headings.trans headings2_three
    unfold Planner2.search
    dsimp only
    rw [e5, realHeadings_some, Res.bind_ok']
    simp only [e1, e2, e3, e4, ht1]
    change (nearest2D _ _ _ 1 100 (100 * (10 - -10) / (2 : ℕ))).bind _ = _
    rw [hids, Res.bind_ok']
    change (nearest2D _ _ _ 1 100 (100 * (10 - -10) / (2 : ℕ))).bind _ = _
    rw [hids, Res.bind_ok']
    change (search s.1 pick ids ids _).bind _ = _
    rw [hsearch, Res.bind_ok']
  obtain ⟨path, -, hpath, -⟩ := C30_solution_path hsok.dims [0, 0, 0] [0, 0, 0] [v] (by
    intro i hi'; obtain rfl := List.mem_singleton.1 hi'; exact hidlt _ hv) hvne
  have hpath' : getSolutionPath t.1 P.start P.goal [v] = .ok path := by
    rw [ht1, hi.start, hi.goal]; exact hpath
  obtain ⟨r', e, est, -⟩ := plan_solved_once (ops := plannerKcOps L rnd) clock timeLim 0 ⟨K, 0, 0, 0, 0, [], []⟩ hbd
    (s2 := { K with core := { P with graph := t.1, res := ⟨true, [v], some 0⟩ }, draws := t.2 })
    (by
      change (Planner2.search L { P with graph := t.1 }).bind _ = _
      rw [hPs]; rfl) rfl hpath' ⟨_, rfl⟩
  exact ⟨r', e, by rw [est]⟩

end Hrm
