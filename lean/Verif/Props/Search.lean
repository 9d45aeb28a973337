import Verif.Lemmas.Search
import Verif.Lemmas.Roadmap

/-!
# C27–C31, C66: searching the roadmap and reading off the solution
-/

namespace Hrm

open Classical

/-- Splitting the list of pairs in the order of the double loop. -/
theorem pairs_split {α β : Type*} (A : List α) (B : List β) :
    ∀ (pre rest : List (α × β)) (s : α) (t : β),
      A.flatMap (fun a => B.map fun b => (a, b)) = pre ++ (s, t) :: rest →
      ∃ A1 A2 B1 B2, A = A1 ++ s :: A2 ∧ B = B1 ++ t :: B2 ∧
        (∀ a ∈ A1, ∀ b ∈ B, (a, b) ∈ pre) ∧ ∀ b ∈ B1, (s, b) ∈ pre := by
  induction A with
  | nil => intro pre rest s t h; simp at h
  | cons a A ih =>
    intro pre rest s t h
    rw [List.flatMap_cons] at h
    rcases List.append_eq_append_iff.1 h with ⟨p', h1, h2⟩ | ⟨p', h1, h2⟩
    · obtain ⟨A1, A2, B1, B2, e1, e2, e3, e4⟩ := ih p' rest s t h2
      refine ⟨a :: A1, A2, B1, B2, by rw [e1]; rfl, e2, ?_, ?_⟩
      · intro x hx b hb
        rw [h1, List.mem_append]
        rcases List.mem_cons.1 hx with rfl | hx
        · exact Or.inl (List.mem_map.2 ⟨b, hb, rfl⟩)
        · exact Or.inr (e3 x hx b hb)
      · intro b hb
        rw [h1, List.mem_append]
        exact Or.inr (e4 b hb)
    · cases p' with
      | nil =>
        simp only [List.append_nil] at h1
        simp only [List.nil_append] at h2
        obtain ⟨A1, A2, B1, B2, e1, e2, e3, e4⟩ := ih [] rest s t h2.symm
        refine ⟨a :: A1, A2, B1, B2, by rw [e1]; rfl, e2, ?_, ?_⟩
        · intro x hx b hb
          rcases List.mem_cons.1 hx with rfl | hx
          · rw [← h1]; exact List.mem_map.2 ⟨b, hb, rfl⟩
          · exact absurd (e3 x hx b hb) (by simp)
        · intro b hb
          exact absurd (e4 b hb) (by simp)
      | cons c p' =>
        obtain ⟨rfl, -⟩ := List.cons.inj h2
        obtain ⟨B1, B', hB, hB1, hB'⟩ := List.map_eq_append_iff.1 h1
        obtain ⟨t', B2, rfl, ht, -⟩ := List.map_eq_cons_iff.1 hB'
        obtain ⟨rfl, rfl⟩ := Prod.mk.inj ht
        refine ⟨[], A, B1, B2, rfl, hB, by simp, ?_⟩
        intro b hb
        rw [← hB1]
        exact List.mem_map.2 ⟨b, hb, rfl⟩

/-- Two vertices are connected in the roadmap. -/
def Graph.Connected (g : Graph) (a b : ℕ) : Prop := ∃ l L, g.PathBetween a b l L

/-- The unsolved state before the first search: no path yet. -/
def SearchRes.Fresh (r : SearchRes) : Prop := r.solved = false ∧ r.pathId = []

section
variable {g : Graph} {dim : ℕ} {pick : ℕ → (ℕ → ℝ) → List ℕ → ℕ} {idxS idxG : List ℕ} {r r' : SearchRes}

theorem search_core (hg : g.Ok dim) (hp : HeapTop pick) (hS : ∀ s ∈ idxS, s < g.vertex.length)
    (hG : ∀ t ∈ idxG, t < g.vertex.length) (hr : r.pathId = []) {tot : Prop}
    (htot : tot → g.vertex.length ≤ g.weight.length) :
    Res.Sat tot (search g pick idxS idxG r) (fun r' =>
      (r' = r ∧ ∀ s ∈ idxS, ∀ t ∈ idxG, ¬ g.Connected s t) ∨
      ∃ s t S1 S2 G1 G2, idxS = S1 ++ s :: S2 ∧ idxG = G1 ++ t :: G2 ∧
        (∀ s' ∈ S1, ∀ t' ∈ idxG, ¬ g.Connected s' t') ∧ (∀ t' ∈ G1, ¬ g.Connected s t') ∧
        PairFound g s t r') := by
  unfold search
  refine (searchPairs_spec hg hp htot _ ?_ hr).mono ?_
  · rintro ⟨s, t⟩ he
    obtain ⟨a, ha, he⟩ := List.mem_flatMap.1 he
    obtain ⟨b, hb, he⟩ := List.mem_map.1 he
    obtain ⟨rfl, rfl⟩ := Prod.mk.inj he
    exact ⟨hS _ ha, hG _ hb⟩
  · rintro r' (⟨e, h⟩ | ⟨pre, s, t, rest, e, hpre, hf⟩)
    · refine Or.inl ⟨e, ?_⟩
      rintro s hs t ht ⟨l, L, hl⟩
      exact h (s, t) (List.mem_flatMap.2 ⟨s, hs, List.mem_map.2 ⟨t, ht, rfl⟩⟩) l L hl
    · obtain ⟨S1, S2, G1, G2, e1, e2, h1, h2⟩ := pairs_split _ _ _ _ _ _ e
      refine Or.inr ⟨s, t, S1, S2, G1, G2, e1, e2, ?_, ?_, hf⟩
      · rintro s' hs' t' ht' ⟨l, L, hl⟩
        exact hpre _ (h1 s' hs' t' ht') l L hl
      · rintro t' ht' ⟨l, L, hl⟩
        exact hpre _ (h2 t' ht') l L hl

/-! ## C27 – the search returns a real path -/

/-- C27: on a well-formed roadmap, for every priority queue and all lists of existing start and goal
neighbours, if the (first) search reports success then the id list is a path of roadmap edges from a
start neighbour to a goal neighbour without repeated vertices. -/
theorem C27_search_returns_path (hg : g.Ok dim) (hp : HeapTop pick)
    (hS : ∀ s ∈ idxS, s < g.vertex.length) (hG : ∀ t ∈ idxG, t < g.vertex.length) (hr : r.Fresh)
    (h : search g pick idxS idxG r = .ok r') (hsol : r'.solved = true) :
    ∃ s ∈ idxS, ∃ t ∈ idxG, ∃ L, g.PathBetween s t r'.pathId L ∧ r'.pathId.Nodup := by
  rcases (search_core hg hp hS hG hr.2 (tot := False) (by simp)).1 r' h with ⟨e, -⟩ |
    ⟨s, t, S1, S2, G1, G2, e1, e2, -, -, L, -, hpath, hnd, -⟩
  · rw [e, hr.1] at hsol; simp at hsol
  · exact ⟨s, by simp [e1], t, by simp [e2], L, hpath, hnd⟩

/-! ## C28 – the search is complete and optimal -/

/-- C28: `search` reports success iff some start neighbour is connected with some goal neighbour; if so
the reported path belongs to the first connected pair, in the order of the double loop, and no path of
the roadmap between the two is shorter. -/
theorem C28_search_complete_optimal (hg : g.Ok dim) (hp : HeapTop pick)
    (hS : ∀ s ∈ idxS, s < g.vertex.length) (hG : ∀ t ∈ idxG, t < g.vertex.length) (hr : r.Fresh)
    (h : search g pick idxS idxG r = .ok r') :
    (r'.solved = true ↔ ∃ s ∈ idxS, ∃ t ∈ idxG, g.Connected s t) ∧
    (r'.solved = true → ∃ s t S1 S2 G1 G2 L, idxS = S1 ++ s :: S2 ∧ idxG = G1 ++ t :: G2 ∧
      (∀ s' ∈ S1, ∀ t' ∈ idxG, ¬ g.Connected s' t') ∧ (∀ t' ∈ G1, ¬ g.Connected s t') ∧
      g.PathBetween s t r'.pathId L ∧ ∀ l' L', g.PathBetween s t l' L' → L ≤ L') ∧
    (r'.solved = false → r' = r) := by
  rcases (search_core hg hp hS hG hr.2 (tot := False) (by simp)).1 r' h with ⟨e, hno⟩ |
    ⟨s, t, S1, S2, G1, G2, e1, e2, h1, h2, L, hs, hpath, -, hopt, -⟩
  · refine ⟨⟨fun hs => ?_, ?_⟩, fun hs => ?_, fun _ => e⟩
    · rw [e, hr.1] at hs; simp at hs
    · rintro ⟨s, hs, t, ht, hc⟩
      exact absurd hc (hno s hs t ht)
    · rw [e, hr.1] at hs; simp at hs
  · refine ⟨⟨fun _ => ⟨s, by simp [e1], t, by simp [e2], _, L, hpath⟩, fun _ => hs⟩, fun _ =>
      ⟨s, t, S1, S2, G1, G2, L, e1, e2, h1, h2, hpath, hopt⟩, fun hf => ?_⟩
    rw [hs] at hf; simp at hf

/-- C28 (termination): if the roadmap has at least as many edges as vertices, `search` always returns
normally, whatever the priority queue does. -/
theorem C28_search_returns (hg : g.Ok dim) (hp : HeapTop pick)
    (hS : ∀ s ∈ idxS, s < g.vertex.length) (hG : ∀ t ∈ idxG, t < g.vertex.length) (hr : r.Fresh)
    (hw : g.vertex.length ≤ g.weight.length) : ∃ r', search g pick idxS idxG r = .ok r' :=
  (search_core hg hp hS hG hr.2 (tot := True) (fun _ => hw)).2 trivial

/-! ## C29 – the reported cost -/

/-- C29 as claimed: the search does not fail, and the reported cost is the length of the reported path. -/
def C29_claim : Prop :=
  ∀ (g : Graph) (dim : ℕ) (pick : ℕ → (ℕ → ℝ) → List ℕ → ℕ) (idxS idxG : List ℕ) (r : SearchRes),
    g.Ok dim → HeapTop pick → (∀ s ∈ idxS, s < g.vertex.length) → (∀ t ∈ idxG, t < g.vertex.length) →
    r.Fresh → ∃ r', search g pick idxS idxG r = .ok r' ∧
      (r'.solved = true → ∃ L, g.IsPath r'.pathId L ∧ r'.cost = some L)

/-- What is actually reported: the sum of `weight[v]` over the *vertices* `v` of the path without the
first, i.e. of the weights of the edges whose *number* is a vertex of the path. -/
theorem C29_cost_partial (hg : g.Ok dim) (hp : HeapTop pick)
    (hS : ∀ s ∈ idxS, s < g.vertex.length) (hG : ∀ t ∈ idxG, t < g.vertex.length) (hr : r.Fresh)
    (h : search g pick idxS idxG r = .ok r') (hsol : r'.solved = true) :
    (∀ v ∈ r'.pathId.tail, v < g.weight.length) ∧
    r'.cost = some ((r'.pathId.tail.map (fun v => g.weight.getD v 0)).sum) := by
  rcases (search_core hg hp hS hG hr.2 (tot := False) (by simp)).1 r' h with ⟨e, -⟩ |
    ⟨s, t, S1, S2, G1, G2, e1, e2, -, -, L, -, -, -, -, h3, h4⟩
  · rw [e, hr.1] at hsol; simp at hsol
  · exact ⟨h3, h4⟩

end

/-- Any element of minimal priority: a legal priority queue. -/
noncomputable def anyTop (_k : ℕ) (f : ℕ → ℝ) (q : List ℕ) : ℕ := ((q.argmin f).getD 0)

theorem anyTop_heap : HeapTop anyTop := by
  intro k f q hq
  unfold anyTop
  cases h : q.argmin f with
  | none => exact absurd (List.argmin_eq_none.1 h) hq
  | some m => exact ⟨List.argmin_mem h, fun x hx => List.le_of_mem_argmin hx h⟩

theorem euclid_one (a b : ℝ) : euclid [a] [b] = |a - b| := by
  simp [euclid, Real.sqrt_sq_eq_abs]

theorem Graph.PathBetween.mem_tail {g : Graph} {a b : ℕ} {l : List ℕ} {L : ℝ} (h : g.PathBetween a b l L)
    (hab : a ≠ b) : b ∈ l.tail := by
  obtain ⟨-, h1, h2⟩ := h
  cases l with
  | nil => simp at h1
  | cons x l =>
    simp only [List.head?_cons, Option.some.injEq] at h1
    have := List.mem_of_getLast? h2
    rcases List.mem_cons.1 this with e | e
    · cases l with
      | nil => simp at h2; omega
      | cons y l =>
        have h2 : (y :: l).getLast? = some b := by simpa using h2
        exact List.mem_of_getLast? h2
    · exact e

/-- C29 is false: with two vertices joined by one edge the search reads `weight[1]`, outside the weight
list (undefined behaviour). -/
theorem C29_refuted : ¬ C29_claim := by
  intro H
  have hg : Graph.Ok ⟨[[0], [3]], [(0, 1)], [3]⟩ 1 := by
    refine ⟨by simp, rfl, ?_⟩
    intro k e w he hw
    match k with
    | 0 =>
      simp only [List.getElem?_cons_zero, Option.some.injEq] at he hw
      subst he hw
      exact ⟨[0], [3], rfl, rfl, by rw [euclid_one]; norm_num⟩
    | k + 1 => simp at he
  have hc : (⟨[[0], [3]], [(0, 1)], [3]⟩ : Graph).PathBetween 0 1 [0, 1] (3 + 0) :=
    ⟨.cons 0 1 [] 3 0 (.single 1 (by simp)) ⟨0, rfl, Or.inl rfl⟩, rfl, rfl⟩
  have hr : SearchRes.Fresh ⟨false, [], none⟩ := ⟨rfl, rfl⟩
  have hS : ∀ s ∈ [0], s < (⟨[[0], [3]], [(0, 1)], [3]⟩ : Graph).vertex.length := by simp
  have hG : ∀ t ∈ [1], t < (⟨[[0], [3]], [(0, 1)], [3]⟩ : Graph).vertex.length := by simp
  obtain ⟨r', h, -⟩ := H ⟨[[0], [3]], [(0, 1)], [3]⟩ 1 anyTop [0] [1] ⟨false, [], none⟩ hg anyTop_heap
    hS hG hr
  have hsol := (C28_search_complete_optimal hg anyTop_heap hS hG hr h).1.2 ⟨0, by simp, 1, by simp, _, _, hc⟩
  obtain ⟨s, hs, t, ht, L, hp, -⟩ := C27_search_returns_path hg anyTop_heap hS hG hr h hsol
  obtain rfl : s = 0 := by simpa using hs
  obtain rfl : t = 1 := by simpa using ht
  have := (C29_cost_partial hg anyTop_heap hS hG hr h hsol).1 1 (hp.mem_tail (by simp))
  simp at this

/-- A triangle roadmap on a line: vertices 0, 3, 10. -/
noncomputable def triangle : Graph := ⟨[[0], [3], [10]], [(1, 2), (0, 2), (0, 1)], [7, 10, 3]⟩

theorem triangle_ok : triangle.Ok 1 := by
  refine ⟨by simp [triangle], rfl, ?_⟩
  intro k e w he hw
  match k with
  | 0 =>
    simp only [triangle, List.getElem?_cons_zero, Option.some.injEq] at he hw
    subst he hw
    exact ⟨[3], [10], rfl, rfl, by rw [euclid_one]; norm_num⟩
  | 1 =>
    simp only [triangle, List.getElem?_cons_zero, List.getElem?_cons_succ, Option.some.injEq] at he hw
    subst he hw
    exact ⟨[0], [10], rfl, rfl, by rw [euclid_one]; norm_num⟩
  | 2 =>
    simp only [triangle, List.getElem?_cons_zero, List.getElem?_cons_succ, Option.some.injEq] at he hw
    subst he hw
    exact ⟨[0], [3], rfl, rfl, by rw [euclid_one]; norm_num⟩
  | k + 3 => simp [triangle] at he

theorem triangle_joins {a b : ℕ} {w : ℝ} (h : triangle.Joins a b w) :
    (a = 1 ∧ b = 2 ∧ w = 7) ∨ (a = 2 ∧ b = 1 ∧ w = 7) ∨ (a = 0 ∧ b = 2 ∧ w = 10) ∨
    (a = 2 ∧ b = 0 ∧ w = 10) ∨ (a = 0 ∧ b = 1 ∧ w = 3) ∨ (a = 1 ∧ b = 0 ∧ w = 3) := by
  obtain ⟨k, hw, he⟩ := h
  match k with
  | 0 => simp [triangle] at hw he; subst hw; rcases he with ⟨rfl, rfl⟩ | ⟨rfl, rfl⟩ <;> simp
  | 1 => simp [triangle] at hw he; subst hw; rcases he with ⟨rfl, rfl⟩ | ⟨rfl, rfl⟩ <;> simp
  | 2 => simp [triangle] at hw he; subst hw; rcases he with ⟨rfl, rfl⟩ | ⟨rfl, rfl⟩ <;> simp
  | k + 3 => simp [triangle] at hw

/-- Even when nothing is read out of range the cost is wrong: on the triangle roadmap the search from
vertex 0 to vertex 1 succeeds, and the reported cost is not the length of the reported path. -/
theorem C29_refuted_cost (pick : ℕ → (ℕ → ℝ) → List ℕ → ℕ) (hp : HeapTop pick) :
    ∃ r', search triangle pick [0] [1] ⟨false, [], none⟩ = .ok r' ∧ r'.solved = true ∧
      ∀ L, triangle.IsPath r'.pathId L → r'.cost ≠ some L := by
  have hr : SearchRes.Fresh ⟨false, [], none⟩ := ⟨rfl, rfl⟩
  have hS : ∀ s ∈ [0], s < triangle.vertex.length := by simp [triangle]
  have hG : ∀ t ∈ [1], t < triangle.vertex.length := by simp [triangle]
  obtain ⟨r', h⟩ := C28_search_returns triangle_ok hp hS hG hr (by simp [triangle])
  have hc : triangle.PathBetween 0 1 [0, 1] (3 + 0) :=
    ⟨.cons 0 1 [] 3 0 (.single 1 (by simp [triangle])) ⟨2, rfl, Or.inl rfl⟩, rfl, rfl⟩
  have hsol := (C28_search_complete_optimal triangle_ok hp hS hG hr h).1.2
    ⟨0, by simp, 1, by simp, _, _, hc⟩
  refine ⟨r', h, hsol, ?_⟩
  obtain ⟨s, hs, t, ht, L0, hpath, hnd⟩ := C27_search_returns_path triangle_ok hp hS hG hr h hsol
  obtain rfl : s = 0 := by simpa using hs
  obtain rfl : t = 1 := by simpa using ht
  have hcost := (C29_cost_partial triangle_ok hp hS hG hr h hsol).2
  intro L hL hLc
  rw [hLc, Option.some.injEq] at hcost
  obtain ⟨-, hhead, hlast⟩ := hpath
  revert hhead hlast hnd hcost
  generalize r'.pathId = l at hL
  intro hnd hcost hhead hlast
  cases hL with
  | single a _ => simp at hhead hlast; omega
  | cons a b l w L1 h1 hj =>
    obtain rfl : a = 0 := by simpa using hhead
    simp only [List.nodup_cons, List.mem_cons, not_or] at hnd
    rcases triangle_joins hj with ⟨h, -⟩ | ⟨h, -⟩ | ⟨-, rfl, rfl⟩ | ⟨h, -⟩ | ⟨-, rfl, rfl⟩ | ⟨h, -⟩
    · omega
    · omega
    · cases h1 with
      | single a _ => simp at hlast
      | cons a b l w L2 h2 hj2 =>
        simp only [List.nodup_cons, List.mem_cons, not_or] at hnd
        rcases triangle_joins hj2 with ⟨h, -⟩ | ⟨-, rfl, rfl⟩ | ⟨h, -⟩ | ⟨-, rfl, -⟩ | ⟨h, -⟩ | ⟨h, -⟩
        · omega
        · cases h2 with
          | single a _ => norm_num [triangle] at hcost
          | cons a b l w L3 h3 hj3 =>
            have : 1 ∈ b :: l := by
              refine List.mem_of_getLast? ?_
              simpa using hlast
            tauto
        · omega
        · tauto
        · omega
        · omega
    · omega
    · cases h1 with
      | single a _ => norm_num [triangle] at hcost
      | cons a b l w L3 h3 hj3 =>
        have : 1 ∈ b :: l := by
          refine List.mem_of_getLast? ?_
          simpa using hlast
        tauto
    · omega

/-- The hypotheses of C27 and C28 are met by the triangle roadmap. -/
example : ∃ r', search triangle anyTop [0] [1] ⟨false, [], none⟩ = .ok r' ∧ r'.solved = true := by
  obtain ⟨r', h1, h2, -⟩ := C29_refuted_cost anyTop anyTop_heap
  exact ⟨r', h1, h2⟩


/-! ## C66 – searching again corrupts the solution -/

theorem searchPair_unconnected {g : Graph} {dim : ℕ} (hg : g.Ok dim) {pick : ℕ → (ℕ → ℝ) → List ℕ → ℕ}
    (hp : HeapTop pick) {s t : ℕ} (hs : s < g.vertex.length) (ht : t < g.vertex.length) (r : SearchRes)
    (hno : ¬ g.Connected s t) : searchPair g pick s t r = .ok (r, false) := by
  unfold searchPair
  rcases astarLoop_spec (hg.agraph t ht) hs hp t (g.vertex.length + 1) (AState.init s) [] (Inv.init g.adj s)
    (by simp) (by simp) with ⟨e, -⟩ | ⟨st, C, x, e, I, hC, hx, -⟩
  · rw [e]
  · obtain ⟨l, hb, -, -⟩ := I.chain hC hx
    obtain ⟨h1, h2, h3⟩ := hb.toPath hg hs
    exact absurd ⟨_, _, h1, h2, by rw [h3]; rfl⟩ hno

theorem searchPair_stale {g : Graph} {dim : ℕ} (hg : g.Ok dim) {pick : ℕ → (ℕ → ℝ) → List ℕ → ℕ}
    (hp : HeapTop pick) {s t : ℕ} (hs : s < g.vertex.length) (ht : t < g.vertex.length) (r : SearchRes)
    (hr : r.pathId.head? = some s) (hc : g.Connected s t) :
    searchPair g pick s t r = .ok (⟨true, t :: r.pathId.reverse, some 0⟩, true) := by
  unfold searchPair
  rcases astarLoop_spec (hg.agraph t ht) hs hp t (g.vertex.length + 1) (AState.init s) [] (Inv.init g.adj s)
    (by simp) (by simp) with ⟨e, hno⟩ | ⟨st, C, x, e, -⟩
  · obtain ⟨l, L, hl⟩ := hc
    exact absurd hl.walk (hno L)
  · rw [e]
    simp only [onFound]
    obtain ⟨l, hl⟩ : ∃ l, r.pathId = s :: l := by
      cases h : r.pathId with
      | nil => rw [h] at hr; simp at hr
      | cons a l => rw [h] at hr; simp at hr; exact ⟨l, by rw [hr]⟩
    simp [hl, backtrack, Res.idx]

theorem searchPairs_stale {g : Graph} {dim : ℕ} (hg : g.Ok dim) {pick : ℕ → (ℕ → ℝ) → List ℕ → ℕ}
    (hp : HeapTop pick) (pre rest : List (ℕ × ℕ)) {s t : ℕ}
    (hpre : ∀ e ∈ pre, e.1 < g.vertex.length ∧ e.2 < g.vertex.length ∧ ¬ g.Connected e.1 e.2)
    (hs : s < g.vertex.length) (ht : t < g.vertex.length) (r : SearchRes)
    (hr : r.pathId.head? = some s) (hc : g.Connected s t) :
    searchPairs g pick (pre ++ (s, t) :: rest) r = .ok ⟨true, t :: r.pathId.reverse, some 0⟩ := by
  induction pre with
  | nil => simp [searchPairs, searchPair_stale hg hp hs ht r hr hc]
  | cons e pre ih =>
    obtain ⟨a, b⟩ := e
    obtain ⟨h1, h2, h3⟩ := hpre (a, b) (by simp)
    simp only [List.cons_append, searchPairs, searchPair_unconnected hg hp h1 h2 r h3, Res.bind_ok',
      Bool.false_eq_true, if_false]
    exact ih fun e he => hpre e (by simp [he])

/-- C66 as claimed: searching an unchanged roadmap again from the solved state again gives a path from a
start neighbour to a goal neighbour. -/
def C66_claim : Prop :=
  ∀ (g : Graph) (dim : ℕ) (pick : ℕ → (ℕ → ℝ) → List ℕ → ℕ) (idxS idxG : List ℕ) (r r' r'' : SearchRes),
    g.Ok dim → HeapTop pick → (∀ s ∈ idxS, s < g.vertex.length) → (∀ t ∈ idxG, t < g.vertex.length) →
    r.Fresh → search g pick idxS idxG r = .ok r' → r'.solved = true →
    search g pick idxS idxG r' = .ok r'' →
    ∃ s ∈ idxS, ∃ t ∈ idxG, ∃ L, g.PathBetween s t r''.pathId L

/-- What a second search does, always: the goal neighbour, followed by the first path *reversed*, with
cost 0. The id list then begins at the goal and its first two entries are the same vertex. -/
theorem C66_second_search_partial {g : Graph} {dim : ℕ} {pick : ℕ → (ℕ → ℝ) → List ℕ → ℕ}
    {idxS idxG : List ℕ} {r r' : SearchRes} (hg : g.Ok dim) (hp : HeapTop pick)
    (hS : ∀ s ∈ idxS, s < g.vertex.length) (hG : ∀ t ∈ idxG, t < g.vertex.length) (hr : r.Fresh)
    (h : search g pick idxS idxG r = .ok r') (hsol : r'.solved = true) :
    ∃ t, r'.pathId.getLast? = some t ∧
      search g pick idxS idxG r' = .ok ⟨true, t :: r'.pathId.reverse, some 0⟩ := by
  have hcore := (searchPairs_spec (r := r) hg hp (tot := False) (by simp)
    (idxS.flatMap fun s => idxG.map fun t => (s, t)) (by
      rintro ⟨s, t⟩ he
      obtain ⟨a, ha, he⟩ := List.mem_flatMap.1 he
      obtain ⟨b, hb, he⟩ := List.mem_map.1 he
      obtain ⟨rfl, rfl⟩ := Prod.mk.inj he
      exact ⟨hS _ ha, hG _ hb⟩) hr.2).1 r' h
  rcases hcore with ⟨e, -⟩ | ⟨pre, s, t, rest, e, hpre, L, -, hpath, -⟩
  · rw [e, hr.1] at hsol; simp at hsol
  · refine ⟨t, hpath.2.2, ?_⟩
    have hmem : ∀ e ∈ pre ++ (s, t) :: rest, e.1 < g.vertex.length ∧ e.2 < g.vertex.length := by
      rw [← e]
      rintro ⟨s, t⟩ he
      obtain ⟨a, ha, he⟩ := List.mem_flatMap.1 he
      obtain ⟨b, hb, he⟩ := List.mem_map.1 he
      obtain ⟨rfl, rfl⟩ := Prod.mk.inj he
      exact ⟨hS _ ha, hG _ hb⟩
    unfold search
    rw [e]
    refine searchPairs_stale hg hp pre rest ?_ (hmem (s, t) (by simp)).1 (hmem (s, t) (by simp)).2 r'
      hpath.2.1 ⟨_, _, hpath⟩
    intro e he
    have := hmem e (by simp [he])
    refine ⟨this.1, this.2, ?_⟩
    rintro ⟨l, L, hl⟩
    exact hpre e he l L hl

/-- C66 is false, on the triangle roadmap. -/
theorem C66_refuted : ¬ C66_claim := by
  intro H
  have hr : SearchRes.Fresh ⟨false, [], none⟩ := ⟨rfl, rfl⟩
  have hS : ∀ s ∈ [0], s < triangle.vertex.length := by simp [triangle]
  have hG : ∀ t ∈ [1], t < triangle.vertex.length := by simp [triangle]
  obtain ⟨r', h1, h2, -⟩ := C29_refuted_cost anyTop anyTop_heap
  obtain ⟨t, ht, h3⟩ := C66_second_search_partial triangle_ok anyTop_heap hS hG hr h1 h2
  obtain ⟨s', hs', t', ht', L', hp'⟩ := H _ _ _ _ _ _ _ _ triangle_ok anyTop_heap hS hG hr h1 h2 h3
  obtain ⟨s, hs, u, hu, L, hp, -⟩ := C27_search_returns_path triangle_ok anyTop_heap hS hG hr h1 h2
  have e1 : s' = 0 := by simpa using hs'
  have e2 : u = 1 := by simpa using hu
  have e3 := hp.2.2
  rw [ht] at e3
  have e4 := hp'.2.1
  simp only [List.head?_cons, Option.some.injEq] at e3 e4
  omega

/-! ## C30 – the solution path -/

/-- C30: the returned path is the start, the roadmap vertices of the id list in order, and the goal; all
have the pose dimension. -/
theorem C30_solution_path {g : Graph} {dim : ℕ} (hg : ∀ v ∈ g.vertex, v.length = dim) (start goal : Vec)
    (ids : List ℕ) (hids : ∀ i ∈ ids, i < g.vertex.length) (hne : g.vertex ≠ []) :
    ∃ path mid, getSolutionPath g start goal ids = .ok path ∧
      path = resize start dim :: (mid ++ [resize goal dim]) ∧
      mid.length = ids.length ∧ (∀ (k i : ℕ), ids[k]? = some i → mid[k]? = g.vertex[i]?) ∧
      ∀ v ∈ path, v.length = dim := by
  have hmid : ∀ ids : List ℕ, (∀ i ∈ ids, i < g.vertex.length) → ∃ mid, pathVertices g ids = .ok mid ∧
      mid.length = ids.length ∧ (∀ (k i : ℕ), ids[k]? = some i → mid[k]? = g.vertex[i]?) ∧
      ∀ v ∈ mid, v.length = dim := by
    intro ids
    induction ids with
    | nil => intro _; exact ⟨[], rfl, rfl, by simp, by simp⟩
    | cons i ids ih =>
      intro hids
      obtain ⟨mid, h1, h2, h3, h4⟩ := ih fun j hj => hids j (by simp [hj])
      have hi := hids i (by simp)
      have hv : Res.at' g.vertex i = .ok g.vertex[i] := Res.at'_eq_ok.2 (List.getElem?_eq_getElem hi)
      refine ⟨g.vertex[i] :: mid, by simp [pathVertices, hv, h1], by simp [h2], ?_, ?_⟩
      · intro k j hk
        cases k with
        | zero =>
          simp only [List.getElem?_cons_zero, Option.some.injEq] at hk
          subst hk
          simp [List.getElem?_eq_getElem hi]
        | succ k => simpa using h3 k j (by simpa using hk)
      · intro v hv
        rcases List.mem_cons.1 hv with rfl | hv
        · exact hg _ (List.getElem_mem hi)
        · exact h4 v hv
  obtain ⟨mid, h1, h2, h3, h4⟩ := hmid ids hids
  have hpos : 0 < g.vertex.length := List.length_pos_iff.2 hne
  have h0 : Res.at' g.vertex 0 = .ok g.vertex[0] := Res.at'_eq_ok.2 (List.getElem?_eq_getElem hpos)
  have hd : g.vertex[0].length = dim := hg _ (List.getElem_mem hpos)
  have hres : ∀ v : Vec, (resize v dim).length = dim := by
    intro v; simp only [resize, List.length_append, List.length_take, List.length_replicate]; omega
  refine ⟨_, mid, ?_, rfl, h2, h3, ?_⟩
  · simp [getSolutionPath, h0, h1, hd]
  · intro v hv
    simp only [List.mem_cons, List.mem_append, List.not_mem_nil, or_false] at hv
    rcases hv with rfl | hv | rfl
    · exact hres _
    · exact h4 v hv
    · exact hres _

/-- C30: a start or goal of the pose dimension is reported unchanged. -/
theorem C30_endpoints_unchanged (v : Vec) : resize v v.length = v := by simp [resize]

/-- The hypotheses of C30 are met. -/
example : getSolutionPath triangle [1] [2, 5] [0, 2] = .ok [[1], [0], [10], [2]] := by
  simp [getSolutionPath, triangle, pathVertices, Res.at', resize]

/-! ## C31 – which steps of the solution path were checked -/

/-- Consecutive configurations of a path. -/
def Consecutive (path : List Vec) (a b : Vec) : Prop :=
  ∃ k : ℕ, path[k]? = some a ∧ path[k + 1]? = some b

/-- C31 as claimed: for every roadmap whose edges are all accepted by the transition check `R`, every step
of the reported solution path is accepted by `R`. -/
def C31_claim : Prop :=
  ∀ (g : Graph) (dim : ℕ) (R : Vec → Vec → Prop) (start goal : Vec) (s t : ℕ) (ids : List ℕ) (L : ℝ)
    (path : List Vec), g.Ok dim → (∀ a b, R a b → R b a) → g.EdgesIn R → start.length = dim →
    goal.length = dim → g.PathBetween s t ids L → getSolutionPath g start goal ids = .ok path →
    ∀ a b, Consecutive path a b → R a b

/-- C31 is false: the step from the start to the first vertex is not checked. -/
theorem C31_refuted : ¬ C31_claim := by
  intro H
  have := H ⟨[[0]], [], []⟩ 1 (fun _ _ => False) [5] [0] 0 0 [0] 0 [[5], [0], [0]]
    ⟨by simp, rfl, by simp⟩ (by simp) (by simp [Graph.EdgesIn]) rfl rfl
    ⟨.single 0 (by simp), rfl, rfl⟩ (by simp [getSolutionPath, pathVertices, Res.at', resize]) [5] [0]
    ⟨0, rfl, rfl⟩
  exact this

theorem Graph.IsPath.steps {g : Graph} {R : Vec → Vec → Prop} (hR : g.EdgesIn R) {ids : List ℕ} {L : ℝ}
    (h : g.IsPath ids L) : ∀ (k i j : ℕ), ids[k]? = some i → ids[k + 1]? = some j →
      ∃ a b, g.vertex[i]? = some a ∧ g.vertex[j]? = some b ∧ (R a b ∨ R b a) := by
  induction h with
  | single a _ => intro k i j _ hj; simp at hj
  | cons a b l w L _ hj ih =>
    intro k i j hi hjj
    cases k with
    | zero =>
      simp only [List.getElem?_cons_zero, List.getElem?_cons_succ, Option.some.injEq] at hi hjj
      subst hi hjj
      obtain ⟨k, -, he | he⟩ := hj
      · obtain ⟨x, y, h1, h2, h3⟩ := hR k _ he
        exact ⟨x, y, h1, h2, Or.inl h3⟩
      · obtain ⟨x, y, h1, h2, h3⟩ := hR k _ he
        exact ⟨y, x, h2, h1, Or.inr h3⟩
    | succ k => exact ih k i j (by simpa using hi) (by simpa using hjj)

/-- C31, the part that holds: every step of the solution path except the first and the last was accepted
(in one of the two directions) when its edge was added. Missing: the first and the last step. -/
theorem C31_inner_steps_checked_partial {g : Graph} {dim : ℕ} {R : Vec → Vec → Prop} (hg : g.Ok dim)
    (hR : g.EdgesIn R) (start goal : Vec) {s t : ℕ} {ids : List ℕ} {L : ℝ}
    (hp : g.PathBetween s t ids L) (path : List Vec) (h : getSolutionPath g start goal ids = .ok path)
    (k : ℕ) (hk : 0 < k) (hk2 : k + 2 < path.length) (a b : Vec) (ha : path[k]? = some a)
    (hb : path[k + 1]? = some b) : R a b ∨ R b a := by
  have hids : ∀ i ∈ ids, i < g.vertex.length := by
    intro i hi
    have aux : ∀ {l : List ℕ} {L : ℝ}, g.IsPath l L → ∀ i ∈ l, i < g.vertex.length := by
      intro l L hl
      induction hl with
      | single a ha => simpa using ha
      | cons a b l w L _ hj ih =>
        intro i hi
        rcases List.mem_cons.1 hi with rfl | hi
        · obtain ⟨x, y, hx, -⟩ := hg.joins hj
          exact (List.getElem?_eq_some_iff.1 hx).1
        · exact ih i hi
    exact aux hp.1 i hi
  have hne : g.vertex ≠ [] := by
    intro e
    have := hids s (List.mem_of_head? hp.2.1)
    rw [e] at this; simp at this
  obtain ⟨path', mid, h1, h2, h3, h4, -⟩ := C30_solution_path hg.dims start goal ids hids hne
  rw [h] at h1
  cases h1
  subst h2
  simp only [List.length_cons, List.length_append, List.length_nil] at hk2
  obtain ⟨k, rfl⟩ : ∃ m, k = m + 1 := ⟨k - 1, by omega⟩
  rw [List.getElem?_cons_succ, List.getElem?_append_left (by omega)] at ha hb
  have hi : ids[k]? = some ids[k] := List.getElem?_eq_getElem (by omega)
  have hj : ids[k + 1]? = some ids[k + 1] := List.getElem?_eq_getElem (by omega)
  obtain ⟨x, y, e1, e2, hxy⟩ := hp.1.steps hR k _ _ hi hj
  rw [h4 _ _ hi, e1, Option.some.injEq] at ha
  rw [h4 _ _ hj, e2, Option.some.injEq] at hb
  rw [← ha, ← hb]
  exact hxy

end Hrm
