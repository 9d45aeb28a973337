import Verif.Spec.KC
import Verif.Lemmas.Roadmap
import Verif.Lemmas.Planner2DPlan

/-! # Lemmas about the "kinematics of containment" planner -/

namespace Hrm

open Matrix

theorem inSimplex_total {m : List ℝ} (h : 16 ≤ m.length) (x y z : ℝ) : ∃ r, inSimplex m x y z = .ok r := by
  have e : ∀ r < 4, ∃ a, barycentric m x y z r = .ok a := by
    intro r hr
    unfold barycentric
    rw [Res.idx_eq_ok.2 (List.getElem?_eq_getElem (by omega)), Res.bind_ok',
      Res.idx_eq_ok.2 (List.getElem?_eq_getElem (by omega)), Res.bind_ok',
      Res.idx_eq_ok.2 (List.getElem?_eq_getElem (by omega)), Res.bind_ok',
      Res.idx_eq_ok.2 (List.getElem?_eq_getElem (by omega)), Res.bind_ok']
    exact ⟨_, rfl⟩
  obtain ⟨a, ha⟩ := e 0 (by omega)
  obtain ⟨b, hb⟩ := e 1 (by omega)
  obtain ⟨c, hc⟩ := e 2 (by omega)
  obtain ⟨d, hd⟩ := e 3 (by omega)
  unfold inSimplex
  rw [ha, Res.bind_ok', hb, Res.bind_ok', hc, Res.bind_ok', hd, Res.bind_ok']
  exact ⟨_, rfl⟩

theorem polyLoop_total {mats : List (List ℝ)} (h : PolyOk mats) (x y z : ℝ) : ∃ r, polyLoop x y z mats = .ok r := by
  induction mats with
  | nil => exact ⟨false, rfl⟩
  | cons m ms ih =>
    unfold polyLoop
    obtain ⟨r, hr⟩ := inSimplex_total (h m (by simp)) x y z
    rw [hr, Res.bind_ok']
    split
    · exact ⟨true, rfl⟩
    · exact ih fun m hm => h m (List.mem_cons_of_mem _ hm)

theorem isPtInPoly_total {mats : List (List ℝ)} (h : PolyOk mats) {v : Vec} (hv : v.length = 3) :
    ∃ r, isPtInPoly mats v = .ok r := by
  obtain ⟨x, y, z, rfl⟩ := vec3 hv
  exact polyLoop_total h x y z

theorem samplePoint_eq (rnd : ℕ → ℝ) (k : ℕ) {v1 v2 : Vec} (h1 : v1.length = 3) (h2 : v2.length = 3) :
    samplePoint rnd k v1 v2 = .ok (tryPoint rnd k v1 v2, diffVec (tryPoint rnd k v1 v2) v1,
      diffVec (tryPoint rnd k v1 v2) v2) ∧ (tryPoint rnd k v1 v2).length = 3 := by
  obtain ⟨x, y, z, rfl⟩ := vec3 h1
  obtain ⟨x', y', z', rfl⟩ := vec3 h2
  refine ⟨?_, by simp [tryPoint]⟩
  simp [samplePoint, tryPoint, diffVec, List.range_succ, Res.idx]

theorem diffVec_length {a b : Vec} {n : ℕ} (h1 : a.length = n) (h2 : b.length = n) : (diffVec a b).length = n := by
  simp [diffVec, h1, h2]

/-- What one call of `addMiddleVertex` returns: a point tried and accepted, or nothing if every try was
rejected. -/
theorem addMiddle_spec {tot : Prop} {mats : List (List ℝ)} (hm : tot → PolyOk mats) (rnd : ℕ → ℝ) {v1 v2 : Vec}
    (h1 : v1.length = 3) (h2 : v2.length = 3) (tries k : ℕ) :
    Res.Sat tot (addMiddle mats rnd v1 v2 tries k) (fun r =>
      (∀ mid, r.1 = some mid → ∃ j < tries, mid = tryPoint rnd (k + 3 * j) v1 v2 ∧ Contained mats v1 v2 mid) ∧
      (r.1 = none → ∀ j < tries, ¬ Contained mats v1 v2 (tryPoint rnd (k + 3 * j) v1 v2))) := by
  induction tries generalizing k with
  | zero => exact Res.Sat.ok ⟨by simp, by simp⟩
  | succ n ih =>
    unfold addMiddle
    obtain ⟨e, hl⟩ := samplePoint_eq rnd k h1 h2
    rw [e, Res.bind_ok']
    simp only
    have step : ¬ Contained mats v1 v2 (tryPoint rnd k v1 v2) →
        Res.Sat tot (addMiddle mats rnd v1 v2 n (k + v1.length)) (fun r =>
      (∀ mid, r.1 = some mid → ∃ j < n + 1, mid = tryPoint rnd (k + 3 * j) v1 v2 ∧ Contained mats v1 v2 mid) ∧
      (r.1 = none → ∀ j < n + 1, ¬ Contained mats v1 v2 (tryPoint rnd (k + 3 * j) v1 v2))) := by
      intro hno
      refine (ih (k + v1.length)).mono ?_
      rintro r ⟨r1, r2⟩
      rw [h1] at r1 r2
      refine ⟨fun mid hmid => ?_, fun hn j hj => ?_⟩
      · obtain ⟨j, hj, ej, hc⟩ := r1 mid hmid
        exact ⟨j + 1, by omega, by rw [ej]; congr 1; ring, hc⟩
      · cases j with
        | zero => exact hno
        | succ j =>
          have := r2 hn j (by omega)
          rwa [show k + 3 * (j + 1) = k + 3 + 3 * j by ring]
    refine Res.Sat.bind (Q := fun r => isPtInPoly mats (diffVec (tryPoint rnd k v1 v2) v1) = .ok r)
      ⟨fun b hb => hb, fun t => isPtInPoly_total (hm t) (diffVec_length hl h1)⟩ ?_
    intro in1 hin1
    split
    · subst in1
      refine Res.Sat.bind (Q := fun r => isPtInPoly mats (diffVec (tryPoint rnd k v1 v2) v2) = .ok r)
        ⟨fun b hb => hb, fun t => isPtInPoly_total (hm t) (diffVec_length hl h2)⟩ ?_
      intro in2 hin2
      split
      · subst in2
        apply Res.Sat.ok
        refine ⟨fun mid hmid => ?_, fun hn => by simp at hn⟩
        simp only [Option.some.injEq] at hmid
        exact ⟨0, by omega, by rw [← hmid]; rfl, by rw [← hmid]; exact ⟨hin1, hin2⟩⟩
      · apply step
        rintro ⟨-, c2⟩
        rw [hin2] at c2
        exact ‹¬ in2 = true› ((Res.ok.injEq _ _).mp c2)
    · apply step
      rintro ⟨c1, -⟩
      rw [hin1] at c1
      exact ‹¬ in1 = true› ((Res.ok.injEq _ _).mp c1)

/-- Every try between the two vertices, starting at some random number, was rejected. -/
def AllRejected (mats : List (List ℝ)) (rnd : ℕ → ℝ) (tries : ℕ) (v1 v2 : Vec) : Prop :=
  ∃ k, ∀ j < tries, ¬ Contained mats v1 v2 (tryPoint rnd (k + 3 * j) v1 v2)

/-- A middle vertex between `v1` and `v2`. -/
def IsMiddle (mats : List (List ℝ)) (rnd : ℕ → ℝ) (v1 v2 mid : Vec) : Prop :=
  (∃ k, mid = tryPoint rnd k v1 v2) ∧ Contained mats v1 v2 mid

variable {tot : Prop} {mats : List (List ℝ)} {rnd : ℕ → ℝ} {tries : ℕ}

/-- The roadmap `g` after adding the middle vertices of the triples `ps`. -/
structure Added (mats : List (List ℝ)) (rnd : ℕ → ℝ) (g : Graph) (ps : List (ℕ × ℕ × Vec)) (g' : Graph) : Prop where
  vertex : g'.vertex = g.vertex ++ ps.map fun p => p.2.2
  edge : g'.edge = g.edge ++ kcEdges g.vertex.length ps
  ok : g'.Ok 3
  mid : ∀ p ∈ ps, ∃ v1 v2, g'.vertex[p.1]? = some v1 ∧ g'.vertex[p.2.1]? = some v2 ∧ IsMiddle mats rnd v1 v2 p.2.2

theorem kcEdges_append (n : ℕ) (ps : List (ℕ × ℕ × Vec)) (m m2 : ℕ) (mid : Vec) :
    kcEdges n (ps ++ [(m, m2, mid)]) = kcEdges n ps ++ [(m, n + ps.length), (m2, n + ps.length)] := by
  simp [kcEdges, List.zipIdx_append]

/-- The inner loop. -/
theorem kcInner_sat (hm : tot → PolyOk mats) {g0 : Graph} {m : ℕ} {v1 : Vec} (m2s : List ℕ) :
    ∀ {ps : List (ℕ × ℕ × Vec)} {s : KcState}, Added mats rnd g0 ps s.1 → s.1.vertex[m]? = some v1 →
    (tot → ∀ m2 ∈ m2s, m2 < s.1.vertex.length) →
    Res.Sat tot (kcInner mats rnd tries m v1 m2s s) (fun s' =>
      (s'.1 = s.1 ∧ ∀ m2 ∈ m2s, ∃ v2, s.1.vertex[m2]? = some v2 ∧ AllRejected mats rnd tries v1 v2) ∨
      ∃ m2 ∈ m2s, ∃ mid, Added mats rnd g0 (ps ++ [(m, m2, mid)]) s'.1) := by
  induction m2s with
  | nil => intro ps s ha hv _; exact Res.Sat.ok (Or.inl ⟨rfl, by simp⟩)
  | cons m2 m2s ih =>
    intro ps s ha hv hin
    have l1 : v1.length = 3 := ha.ok.dims _ (List.mem_of_getElem? hv)
    unfold kcInner
    refine Res.Sat.bind (Res.Sat.idx fun t => hin t m2 (by simp)) ?_
    intro v2 hv2
    have l2 : v2.length = 3 := ha.ok.dims _ (List.mem_of_getElem? hv2)
    refine Res.Sat.bind (addMiddle_spec hm rnd l1 l2 tries s.2) ?_
    rintro ⟨o, k'⟩ ⟨r1, r2⟩
    cases o with
    | none =>
      simp only
      refine (ih (s := (s.1, k')) ha hv fun t x hx => hin t x (List.mem_cons_of_mem _ hx)).mono ?_
      rintro s' (⟨e, hr⟩ | ⟨x, hx, mid, h⟩)
      · refine Or.inl ⟨e, ?_⟩
        intro x hx
        rcases List.mem_cons.1 hx with rfl | hx
        · exact ⟨v2, hv2, s.2, r2 rfl⟩
        · exact hr x hx
      · exact Or.inr ⟨x, List.mem_cons_of_mem _ hx, mid, h⟩
    | some mid =>
      obtain ⟨j, hj, ej, hc⟩ := r1 mid rfl
      have l3 : mid.length = 3 := by rw [ej]; exact (samplePoint_eq rnd _ l1 l2).2
      simp only
      rw [Graph.addEdge_eq _ _ _ (by rw [l1, l3]), Res.bind_ok', Graph.addEdge_eq _ _ _ (by rw [l2, l3]), Res.bind_ok']
      apply Res.Sat.ok
      refine Or.inr ⟨m2, by simp, mid, ?_⟩
      have hx : s.1.Ext (s.1.addVertex mid) := ⟨List.prefix_append _ _, List.prefix_rfl, List.prefix_rfl⟩
      have hnew : (s.1.addVertex mid).vertex[s.1.vertex.length]? = some mid := by simp [Graph.addVertex]
      have hgrow : Grow (fun v => v.length = 3) (fun _ _ => True) s.1
          (((s.1.addVertex mid).withEdge m s.1.vertex.length v1 mid).withEdge m2 s.1.vertex.length v2 mid) :=
        ((Grow.refl.vertex mid l3).edge _ _ _ _ (hx.get hv) hnew trivial).edge _ _ _ _ (hx.get hv2) hnew trivial
      have hlen : s.1.vertex.length = g0.vertex.length + ps.length := by rw [ha.vertex]; simp
      refine ⟨?_, ?_, hgrow.ok (fun _ h => h) ha.ok, ?_⟩
      · simp [Graph.withEdge, Graph.addVertex, ha.vertex]
      · rw [kcEdges_append, ← hlen]
        simp [Graph.withEdge, Graph.addVertex, ha.edge]
      · intro p hp
        rcases List.mem_append.1 hp with hp | hp
        · obtain ⟨a, b, h1, h2, h3⟩ := ha.mid p hp
          exact ⟨a, b, hgrow.ext.get h1, hgrow.ext.get h2, h3⟩
        · obtain rfl := List.mem_singleton.1 hp
          exact ⟨v1, v2, hgrow.ext.get hv, hgrow.ext.get hv2, ⟨_, ej⟩, hc⟩

/-- The first vertex of slice `i` as the code computes it. -/
def kcStart (idx : List VertexIdx) : ℕ → ℕ
  | 0 => 0
  | i + 1 => (idx[i]?.map VertexIdx.slice).getD 0

theorem kcRange_sat {idx : List VertexIdx} {n i : ℕ} (hi : i < n) (hl : tot → n ≤ idx.length) :
    Res.Sat tot (kcRange idx n i) (fun r => ∃ cur, idx[i]? = some cur ∧ r.1 = cur.slice ∧
      ((i + 1 < n ∧ r.2.1 = cur.slice ∧ ∃ nxt, idx[i + 1]? = some nxt ∧ r.2.2 = nxt.slice) ∨
       (i + 1 = n ∧ r.2.1 = 0 ∧ ∃ fst, idx[0]? = some fst ∧ r.2.2 = fst.slice))) := by
  unfold kcRange
  refine Res.Sat.bind (Res.Sat.at' fun t => by have := hl t; omega) ?_
  intro cur hcur
  split
  · refine Res.Sat.bind (Res.Sat.at' fun t => by have := hl t; omega) ?_
    intro nxt hn
    exact Res.Sat.ok ⟨cur, hcur, rfl, Or.inl ⟨by omega, rfl, nxt, hn, rfl⟩⟩
  · refine Res.Sat.bind (Res.Sat.at' fun t => by have := hl t; omega) ?_
    intro fst hf
    exact Res.Sat.ok ⟨cur, hcur, rfl, Or.inr ⟨by omega, rfl, fst, hf, rfl⟩⟩

theorem Added.ext {g0 g1 g2 : Graph} {ps qs : List (ℕ × ℕ × Vec)} (h1 : Added mats rnd g0 ps g1)
    (h2 : Added mats rnd g0 (ps ++ qs) g2) {i : ℕ} {v : Vec} (h : g1.vertex[i]? = some v) :
    g2.vertex[i]? = some v := by
  rw [h1.vertex] at h
  rw [h2.vertex, List.map_append, ← List.append_assoc, List.getElem?_append_left (List.getElem?_eq_some_iff.1 h).1]
  exact h

/-- All tries between `m` and the vertices of the partner slice were rejected. -/
def RejectedAll (mats : List (List ℝ)) (rnd : ℕ → ℝ) (tries : ℕ) (g : Graph) (m m2 : ℕ) : Prop :=
  ∃ v1 v2, g.vertex[m]? = some v1 ∧ g.vertex[m2]? = some v2 ∧ AllRejected mats rnd tries v1 v2

/-- The state after the slices before `i`. -/
def KcInv (mats : List (List ℝ)) (rnd : ℕ → ℝ) (tries : ℕ) (idx : List VertexIdx) (n : ℕ) (g0 : Graph) (i : ℕ)
    (s : KcState × ℕ) : Prop :=
  s.2 = kcStart idx i ∧ ∃ ps, Added mats rnd g0 ps s.1.1 ∧
    (∀ p ∈ ps, ∃ j < i, AdjacentSlices idx n j p.1 p.2.1) ∧
    ∀ j < i, ∀ m, (∃ p ∈ ps, p.1 = m) ∨
      ∀ m2, AdjacentSlices idx n j m m2 → RejectedAll mats rnd tries s.1.1 m m2

theorem kcSlice_sat (hm : tot → PolyOk mats) {idx : List VertexIdx} {n : ℕ} {g0 : Graph}
    (hl : tot → n ≤ idx.length) (hb : tot → ∀ s ∈ idx, s.slice ≤ g0.vertex.length) {i : ℕ} (hi : i < n)
    {s : KcState × ℕ} (h : KcInv mats rnd tries idx n g0 i s) :
    Res.Sat tot (kcSlice mats rnd tries idx n s i) (KcInv mats rnd tries idx n g0 (i + 1)) := by
  obtain ⟨hst, ps0, ha0, hp0, hc0⟩ := h
  unfold kcSlice
  refine Res.Sat.bind (kcRange_sat hi hl) ?_
  rintro ⟨r1, r2, r3⟩ ⟨cur, hcur, e1, hcase⟩
  simp only at e1 hcase ⊢
  subst e1
  -- membership of the inner range
  have hadj : ∀ m m2, s.2 ≤ m → m < cur.slice → (AdjacentSlices idx n i m m2 ↔ r2 ≤ m2 ∧ m2 < r3) := by
    intro m m2 h1 h2
    constructor
    · rintro ⟨-, c, hc, -, -, hq⟩
      rw [hcur] at hc
      obtain rfl := Option.some.inj hc
      rcases hcase with ⟨k1, k2, nxt, k3, k4⟩ | ⟨k1, k2, fst, k3, k4⟩
      · rcases hq with ⟨q1, q2, x, q3, q4⟩ | ⟨q1, -⟩
        · rw [k3] at q3
          obtain rfl := Option.some.inj q3
          omega
        · omega
      · rcases hq with ⟨q1, -⟩ | ⟨q1, x, q3, q4⟩
        · omega
        · rw [k3] at q3
          obtain rfl := Option.some.inj q3
          omega
    · rintro ⟨k5, k6⟩
      refine ⟨hi, cur, hcur, h2, ?_, ?_⟩
      · rintro j prev rfl hj
        rw [hst] at h1
        simpa [kcStart, hj] using h1
      · rcases hcase with ⟨k1, k2, nxt, k3, k4⟩ | ⟨k1, k2, fst, k3, k4⟩
        · exact Or.inl ⟨k1, by omega, nxt, k3, by omega⟩
        · exact Or.inr ⟨k1, fst, k3, by omega⟩
  have hbnd : tot → cur.slice ≤ g0.vertex.length ∧ r3 ≤ g0.vertex.length := by
    intro t
    refine ⟨hb t _ (List.mem_of_getElem? hcur), ?_⟩
    rcases hcase with ⟨k1, k2, nxt, k3, k4⟩ | ⟨k1, k2, fst, k3, k4⟩
    · rw [k4]; exact hb t _ (List.mem_of_getElem? k3)
    · rw [k4]; exact hb t _ (List.mem_of_getElem? k3)
  refine Res.Sat.bind (Q := fun t : KcState => ∃ qs, Added mats rnd g0 (ps0 ++ qs) t.1 ∧
    (∀ p ∈ qs, AdjacentSlices idx n i p.1 p.2.1) ∧
    ∀ m, s.2 ≤ m → m < cur.slice → (∃ p ∈ qs, p.1 = m) ∨
      ∀ m2, r2 ≤ m2 → m2 < r3 → RejectedAll mats rnd tries t.1 m m2) ?_ ?_
  · have := Res.Sat.foldlM_prefix (tot := tot)
      (f := fun (t : KcState) m => (Res.idx t.1.vertex m).bind fun v1 =>
        kcInner mats rnd tries m v1 (List.range' r2 (r3 - r2)) t)
      (P := fun done (t : KcState) => ∃ qs, Added mats rnd g0 (ps0 ++ qs) t.1 ∧
        (∀ p ∈ qs, AdjacentSlices idx n i p.1 p.2.1) ∧
        ∀ m ∈ done, (∃ p ∈ qs, p.1 = m) ∨ ∀ m2, r2 ≤ m2 → m2 < r3 → RejectedAll mats rnd tries t.1 m m2)
      (List.range' s.2 (cur.slice - s.2)) ?_ s.1 ⟨[], by simpa using ha0, by simp, by simp⟩
    · refine this.mono ?_
      rintro t ⟨qs, q1, q2, q3⟩
      refine ⟨qs, q1, q2, fun m h1 h2 => q3 m ?_⟩
      rw [List.mem_range'_1]
      omega
    · rintro t done m hpre ⟨qs, q1, q2, q3⟩
      have hmem : m ∈ List.range' s.2 (cur.slice - s.2) := hpre.subset (by simp)
      rw [List.mem_range'_1] at hmem
      have hlen : g0.vertex.length ≤ t.1.vertex.length := by rw [q1.vertex]; simp
      refine Res.Sat.bind (Res.Sat.idx fun t' => by have := hbnd t'; omega) ?_
      intro v1 hv1
      refine (kcInner_sat hm _ q1 hv1 fun t' x hx => ?_).mono ?_
      · rw [List.mem_range'_1] at hx
        have := hbnd t'
        omega
      · rintro t' (⟨e, hr⟩ | ⟨m2, hm2, mid, had⟩)
        · refine ⟨qs, by rw [e]; exact q1, q2, ?_⟩
          intro x hx
          rcases List.mem_append.1 hx with hx | hx
          · rw [e]; exact q3 x hx
          · obtain rfl := List.mem_singleton.1 hx
            refine Or.inr fun m2 k1 k2 => ?_
            obtain ⟨v2, hv2, hrej⟩ := hr m2 (by rw [List.mem_range'_1]; omega)
            exact ⟨v1, v2, by rw [e]; exact hv1, by rw [e]; exact hv2, hrej⟩
        · rw [List.mem_range'_1] at hm2
          refine ⟨qs ++ [(m, m2, mid)], by rw [← List.append_assoc]; exact had, ?_, ?_⟩
          · intro p hp
            rcases List.mem_append.1 hp with hp | hp
            · exact q2 p hp
            · obtain rfl := List.mem_singleton.1 hp
              exact (hadj m m2 (by omega) (by omega)).2 ⟨by omega, by omega⟩
          · intro x hx
            rcases List.mem_append.1 hx with hx | hx
            · rcases q3 x hx with ⟨p, hp, e⟩ | hrej
              · exact Or.inl ⟨p, by simp [hp], e⟩
              · refine Or.inr fun m2 k1 k2 => ?_
                obtain ⟨a, b, ha, hb', hr⟩ := hrej m2 k1 k2
                exact ⟨a, b, q1.ext had ha, q1.ext had hb', hr⟩
            · obtain rfl := List.mem_singleton.1 hx
              exact Or.inl ⟨(x, m2, mid), by simp, rfl⟩
  · rintro t ⟨qs, q1, q2, q3⟩
    apply Res.Sat.ok
    refine ⟨by simp [kcStart, hcur], ps0 ++ qs, q1, ?_, ?_⟩
    · intro p hp
      rcases List.mem_append.1 hp with hp | hp
      · obtain ⟨j, hj, h⟩ := hp0 p hp
        exact ⟨j, by omega, h⟩
      · exact ⟨i, by omega, q2 p hp⟩
    · intro j hj m
      rcases Nat.lt_succ_iff_lt_or_eq.1 hj with hj | rfl
      · rcases hc0 j hj m with ⟨p, hp, e⟩ | hrej
        · exact Or.inl ⟨p, by simp [hp], e⟩
        · refine Or.inr fun m2 hm2 => ?_
          obtain ⟨a, b, ha, hb', hr⟩ := hrej m2 hm2
          exact ⟨a, b, ha0.ext q1 ha, ha0.ext q1 hb', hr⟩
      · by_cases hin : s.2 ≤ m ∧ m < cur.slice
        · rcases q3 m hin.1 hin.2 with ⟨p, hp, e⟩ | hrej
          · exact Or.inl ⟨p, by simp [hp], e⟩
          · refine Or.inr fun m2 hm2 => ?_
            have := (hadj m m2 hin.1 hin.2).1 hm2
            exact hrej m2 this.1 this.2
        · refine Or.inr fun m2 hm2 => ?_
          exfalso
          apply hin
          obtain ⟨-, c, hc, k1, k2, -⟩ := hm2
          rw [hcur] at hc
          obtain rfl := Option.some.inj hc
          refine ⟨?_, k1⟩
          rw [hst]
          cases j with
          | zero => exact Nat.zero_le _
          | succ j =>
            unfold kcStart
            cases hj' : idx[j]? with
            | none => simp [hj']
            | some prev => simpa [hj'] using k2 j prev rfl hj'

/-- The whole connection between the slices. -/
theorem connectMultiSliceKC_sat (hm : tot → PolyOk mats) {idx : List VertexIdx} {n : ℕ} {g : Graph} (hg : g.Ok 3)
    (hl : tot → n ≤ idx.length) (hb : tot → ∀ s ∈ idx, s.slice ≤ g.vertex.length) (k : ℕ) :
    Res.Sat tot (connectMultiSliceKC mats rnd tries idx n (g, k)) (fun t => ∃ ps, Added mats rnd g ps t.1 ∧
      (∀ p ∈ ps, ∃ j, AdjacentSlices idx n j p.1 p.2.1) ∧
      ∀ j m, (∃ p ∈ ps, p.1 = m) ∨ ∀ m2, AdjacentSlices idx n j m m2 → RejectedAll mats rnd tries t.1 m m2) := by
  unfold connectMultiSliceKC
  refine Res.Sat.bind (Res.Sat.foldlM_range (P := fun i s => KcInv mats rnd tries idx n g i s) n
    (fun s i hi hs => kcSlice_sat hm hl hb hi hs) ((g, k), 0)
    ⟨rfl, [], ⟨by simp, by simp [kcEdges], hg, by simp⟩, by simp, by simp⟩) ?_
  rintro t ⟨-, ps, h1, h2, h3⟩
  apply Res.Sat.ok
  refine ⟨ps, h1, fun p hp => ?_, fun j m => ?_⟩
  · obtain ⟨j, -, h⟩ := h2 p hp; exact ⟨j, h⟩
  · by_cases hj : j < n
    · exact h3 j hj m
    · exact Or.inr fun m2 h => absurd h.1 hj

end Hrm
