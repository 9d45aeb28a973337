import Verif.Lemmas.Res
import Verif.Spec.Roadmap
import Mathlib.Tactic.Ring
import Mathlib.Tactic.Linarith

/-! # Lemmas about the roadmap construction -/

namespace Hrm

theorem vecDiff_eq : ∀ {a b : Vec}, a.length = b.length → vecDiff a b = .ok (List.zipWith (· - ·) a b)
  | [], _, _ => by simp [vecDiff]
  | _ :: _, [], h => by simp at h
  | x :: a, y :: b, h => by
    simp only [List.length_cons, Nat.add_right_cancel_iff] at h
    simp [vecDiff, vecDiff_eq h]

theorem foldl_sq (l : Vec) (c : ℝ) : l.foldl (fun acc x => acc + x * x) c = c + (l.map (· ^ 2)).sum := by
  induction l generalizing c with
  | nil => simp
  | cons x l ih => simp only [List.foldl_cons, ih, List.map_cons, List.sum_cons]; ring

theorem vectorEuclidean_eq {a b : Vec} (h : a.length = b.length) :
    vectorEuclidean a b = .ok (euclid a b) := by
  unfold vectorEuclidean euclid
  rw [vecDiff_eq h, Res.bind_ok', foldl_sq, zero_add, List.map_zipWith]

namespace Graph

theorem Ext.refl (g : Graph) : g.Ext g := ⟨List.prefix_rfl, List.prefix_rfl, List.prefix_rfl⟩

theorem Ext.trans {a b c : Graph} (h : a.Ext b) (h' : b.Ext c) : a.Ext c :=
  ⟨h.1.trans h'.1, h.2.1.trans h'.2.1, h.2.2.trans h'.2.2⟩

theorem Ext.get {g g' : Graph} (h : g.Ext g') {i : ℕ} {v : Vec} (hv : g.vertex[i]? = some v) :
    g'.vertex[i]? = some v := by
  obtain ⟨t, ht⟩ := h.1
  rw [← ht, List.getElem?_append_left (List.getElem?_eq_some_iff.1 hv).1]; exact hv

/-- New edge. -/
noncomputable def withEdge (g : Graph) (i j : ℕ) (a b : Vec) : Graph :=
  { g with edge := g.edge ++ [(i, j)], weight := g.weight ++ [euclid a b] }

theorem addEdge_eq (g : Graph) (i j : ℕ) {a b : Vec} (h : a.length = b.length) :
    g.addEdge i j a b = .ok (g.withEdge i j a b) := by
  unfold addEdge; rw [vectorEuclidean_eq h]; rfl

end Graph

/-- `g'` is obtained from `g` by appending vertices satisfying `Vp` and edges between existing vertices
related by `Acc`, with their Euclidean distance as weight. -/
inductive Grow (Vp : Vec → Prop) (Acc : Vec → Vec → Prop) (g : Graph) : Graph → Prop
  | refl : Grow Vp Acc g g
  | vertex {g' : Graph} (v : Vec) : Grow Vp Acc g g' → Vp v → Grow Vp Acc g (g'.addVertex v)
  | edge {g' : Graph} (i j : ℕ) (a b : Vec) : Grow Vp Acc g g' → g'.vertex[i]? = some a →
      g'.vertex[j]? = some b → Acc a b → Grow Vp Acc g (g'.withEdge i j a b)

namespace Grow
variable {Vp Vp' : Vec → Prop} {Acc Acc' : Vec → Vec → Prop} {g g' g'' : Graph}

theorem trans (h : Grow Vp Acc g g') (h' : Grow Vp Acc g' g'') : Grow Vp Acc g g'' := by
  induction h' with
  | refl => exact h
  | vertex v _ hv ih => exact ih.vertex v hv
  | edge i j a b _ h1 h2 h3 ih => exact ih.edge i j a b h1 h2 h3

theorem mono (hV : ∀ v, Vp v → Vp' v) (hA : ∀ a b, Acc a b → Acc' a b) (h : Grow Vp Acc g g') :
    Grow Vp' Acc' g g' := by
  induction h with
  | refl => exact .refl
  | vertex v _ hv ih => exact ih.vertex v (hV v hv)
  | edge i j a b _ h1 h2 h3 ih => exact ih.edge i j a b h1 h2 (hA _ _ h3)

theorem ext (h : Grow Vp Acc g g') : g.Ext g' := by
  induction h with
  | refl => exact Graph.Ext.refl g
  | vertex v _ hv ih => exact ih.trans ⟨List.prefix_append _ _, List.prefix_rfl, List.prefix_rfl⟩
  | edge i j a b _ h1 h2 h3 ih =>
    exact ih.trans ⟨List.prefix_rfl, List.prefix_append _ _, List.prefix_append _ _⟩

/-- New vertices satisfy `Vp`. -/
theorem newVertex (h : Grow Vp Acc g g') {i : ℕ} {v : Vec} (hv : g'.vertex[i]? = some v)
    (hi : g.vertex.length ≤ i) : Vp v := by
  induction h with
  | refl => exact absurd (List.getElem?_eq_some_iff.1 hv).1 (not_lt.2 hi)
  | @vertex g' w _ hw ih =>
    simp only [Graph.addVertex] at hv
    rcases lt_or_ge i g'.vertex.length with h | h
    · rw [List.getElem?_append_left h] at hv; exact ih hv
    · rw [List.getElem?_append_right h] at hv
      cases hk : i - g'.vertex.length with
      | zero => rw [hk] at hv; simp at hv; exact hv ▸ hw
      | succ k => rw [hk] at hv; simp at hv
  | edge i j a b _ h1 h2 h3 ih => exact ih hv

theorem allV (h : Grow Vp Acc g g') (hg : ∀ v ∈ g.vertex, Vp v) : ∀ v ∈ g'.vertex, Vp v := by
  intro v hv
  obtain ⟨i, hi⟩ := List.mem_iff_getElem?.1 hv
  rcases lt_or_ge i g.vertex.length with hlt | hge
  · have := h.ext.get (List.getElem?_eq_getElem hlt)
    rw [this] at hi
    obtain rfl := Option.some.inj hi
    exact hg _ (List.getElem_mem _)
  · exact h.newVertex hi hge

theorem edgesIn (h : Grow Vp Acc g g') (hg : g.EdgesIn Acc) : g'.EdgesIn Acc := by
  induction h with
  | refl => exact hg
  | vertex v _ hv ih =>
    intro k e he
    obtain ⟨a, b, h1, h2, h3⟩ := ih k e he
    have hx : ∀ {g : Graph}, g.Ext (g.addVertex v) :=
      ⟨List.prefix_append _ _, List.prefix_rfl, List.prefix_rfl⟩
    exact ⟨a, b, hx.get h1, hx.get h2, h3⟩
  | @edge g' i j a b _ h1 h2 h3 ih =>
    intro k e he
    simp only [Graph.withEdge] at he
    rcases lt_or_ge k g'.edge.length with h | h
    · rw [List.getElem?_append_left h] at he; exact ih k e he
    · rw [List.getElem?_append_right h] at he
      cases hk : k - g'.edge.length with
      | zero => rw [hk] at he; simp at he; subst he; exact ⟨a, b, h1, h2, h3⟩
      | succ k => rw [hk] at he; simp at he

theorem ok {dim : ℕ} (h : Grow Vp Acc g g') (hV : ∀ v, Vp v → v.length = dim) (hg : g.Ok dim) :
    g'.Ok dim := by
  induction h with
  | refl => exact hg
  | @vertex g' v _ hv ih =>
    refine ⟨?_, ih.len, ?_⟩
    · intro w hw
      simp only [Graph.addVertex, List.mem_append, List.mem_singleton] at hw
      rcases hw with hw | rfl
      · exact ih.dims w hw
      · exact hV _ hv
    · intro k e w he hw
      obtain ⟨a, b, h1, h2, h3⟩ := ih.edges k e w he hw
      have hx : g'.Ext (g'.addVertex v) := ⟨List.prefix_append _ _, List.prefix_rfl, List.prefix_rfl⟩
      exact ⟨a, b, hx.get h1, hx.get h2, h3⟩
  | @edge g' i j a b _ h1 h2 h3 ih =>
    refine ⟨ih.dims, by simp [Graph.withEdge, ih.len], ?_⟩
    intro k e w he hw
    simp only [Graph.withEdge] at he hw
    rcases lt_or_ge k g'.edge.length with h | h
    · rw [List.getElem?_append_left h] at he
      rw [List.getElem?_append_left (ih.len ▸ h)] at hw
      exact ih.edges k e w he hw
    · rw [List.getElem?_append_right h] at he
      rw [List.getElem?_append_right (ih.len ▸ h), ← ih.len] at hw
      cases hk : k - g'.edge.length with
      | zero =>
        rw [hk] at he hw; simp at he hw; subst he; exact ⟨a, b, h1, h2, hw.symm⟩
      | succ k => rw [hk] at he; simp at he

end Grow

/-! ### bridgeVertex, linkPair -/

theorem withThird_ok {v w n : Vec} (h : withThird v w = .ok n) :
    ∃ z, w[2]? = some z ∧ 2 < v.length ∧ n = v.set 2 z := by
  unfold withThird at h
  cases hw : Res.at' w 2 with
  | ok z =>
    rw [hw, Res.bind_ok'] at h
    split at h
    · exact ⟨z, Res.at'_eq_ok.1 hw, ‹_›, by simpa using h.symm⟩
    · simp at h
  | throw => rw [hw] at h; simp at h
  | ub => rw [hw] at h; simp at h

theorem withThird_sat {tot : Prop} {v w : Vec} (h : tot → 2 < v.length ∧ 2 < w.length) :
    Res.Sat tot (withThird v w) (fun n => ∃ z, w[2]? = some z ∧ 2 < v.length ∧ n = v.set 2 z) := by
  refine ⟨fun b hb => withThird_ok hb, fun t => ?_⟩
  obtain ⟨h1, h2⟩ := h t
  refine ⟨v.set 2 w[2], ?_⟩
  unfold withThird
  rw [Res.at'_eq_ok.2 (List.getElem?_eq_getElem h2), Res.bind_ok', if_pos h1]

theorem andThen_sat {tot : Prop} {a b : Res Bool} (ha : tot → ∃ r, a = .ok r) (hb : tot → ∃ r, b = .ok r) :
    Res.Sat tot (andThen a b) (fun r => r = true → a = .ok true ∧ b = .ok true) := by
  refine ⟨fun r hr => ?_, fun t => ?_⟩
  · unfold andThen at hr
    cases a with
    | ok x =>
      cases x with
      | true =>
        simp only [Res.bind_ok', if_true] at hr
        rintro rfl; exact ⟨rfl, hr⟩
      | false =>
        simp only [Res.bind_ok', Bool.false_eq_true, if_false, Res.ok.injEq] at hr
        subst hr; simp
    | throw => simp at hr
    | ub => simp at hr
  · obtain ⟨r, rfl⟩ := ha t
    obtain ⟨s, rfl⟩ := hb t
    cases r
    · exact ⟨false, rfl⟩
    · exact ⟨s, rfl⟩

variable {Vp : Vec → Prop} {Acc : Vec → Vec → Prop} {dim : ℕ} {free : Vec → Vec → Res Bool} {tot : Prop}

/-- Hypotheses of the connection routines, bundled: checks imply `Acc`; `Vp` fixes the dimension and is
kept by exchanging the third coordinate; in total mode the check always returns and there is a third
coordinate. -/
structure LinkHyp (tot : Prop) (dim : ℕ) (Vp : Vec → Prop) (Acc : Vec → Vec → Prop)
    (free : Vec → Vec → Res Bool) : Prop where
  acc : ∀ a b, Vp a → Vp b → free a b = .ok true → Acc a b
  vdim : ∀ v, Vp v → v.length = dim
  third : ∀ v w z, Vp v → Vp w → w[2]? = some z → Vp (v.set 2 z)
  total : tot → TotalOn dim free
  three : tot → 2 < dim

variable {Vb : Vec → Prop}

/-- The same with a separate predicate `Vb` for the vertices added by bridging: those obtained from one
end by taking the other end's third coordinate, when the direct transition was rejected. -/
structure LinkHypB (tot : Prop) (dim : ℕ) (Vp Vb : Vec → Prop) (Acc : Vec → Vec → Prop)
    (free : Vec → Vec → Res Bool) : Prop where
  acc : ∀ a b, Vp a ∨ Vb a → Vp b ∨ Vb b → (Vp a ∨ Vp b) → free a b = .ok true → Acc a b
  vdim : ∀ v, Vp v → v.length = dim
  total : tot → TotalOn dim free
  three : tot → 2 < dim
  bridge : ∀ v1 v2 v z, Vp v1 → Vp v2 → free v1 v2 = .ok false →
    ((v2[2]? = some z ∧ v = v1.set 2 z) ∨ (v1[2]? = some z ∧ v = v2.set 2 z)) →
    free v1 v = .ok true → free v v2 = .ok true → Vb v

theorem LinkHyp.toB (H : LinkHyp tot dim Vp Acc free) : LinkHypB tot dim Vp Vp Acc free :=
  ⟨fun a b ha hb _ => H.acc a b (ha.elim id id) (hb.elim id id), H.vdim, H.total, H.three, by
    rintro v1 v2 v z p1 p2 - (⟨h, rfl⟩ | ⟨h, rfl⟩) - -
    · exact H.third _ _ _ p1 p2 h
    · exact H.third _ _ _ p2 p1 h⟩

theorem bridgeVertex_satB (H : LinkHypB tot dim Vp Vb Acc free) {i j : ℕ} {g : Graph} {v1 v2 : Vec}
    (h1 : g.vertex[i]? = some v1) (h2 : g.vertex[j]? = some v2) (p1 : Vp v1) (p2 : Vp v2)
    (hrej : free v1 v2 = .ok false) :
    Res.Sat tot (bridgeVertex free i j g) (Grow Vb Acc g) := by
  unfold bridgeVertex
  rw [Res.at'_eq_ok.2 h1, Res.at'_eq_ok.2 h2, Res.bind_ok', Res.bind_ok']
  have l1 := H.vdim _ p1
  have l2 := H.vdim _ p2
  refine Res.Sat.bind (withThird_sat fun t => by rw [l1, l2]; exact ⟨H.three t, H.three t⟩) ?_
  rintro n1 ⟨z1, hz1, hl1, rfl⟩
  refine Res.Sat.bind (withThird_sat fun t => by rw [l1, l2]; exact ⟨H.three t, H.three t⟩) ?_
  rintro n2 ⟨z2, hz2, hl2, rfl⟩
  have m1 : (v1.set 2 z1).length = dim := by rw [List.length_set, l1]
  have m2 : (v2.set 2 z2).length = dim := by rw [List.length_set, l2]
  have add : ∀ vNew : Vec, vNew.length = dim → Vb vNew → free v1 vNew = .ok true → free vNew v2 = .ok true →
      Res.Sat tot (((g.addVertex vNew).addEdge i g.vertex.length v1 vNew).bind fun g1 =>
        g1.addEdge g.vertex.length j vNew v2) (Grow Vb Acc g) := by
    intro vNew hl hb f1 f2
    rw [Graph.addEdge_eq _ _ _ (by rw [l1, hl]), Res.bind_ok', Graph.addEdge_eq _ _ _ (by rw [l2, hl])]
    apply Res.Sat.ok
    have hx : g.Ext (g.addVertex vNew) := ⟨List.prefix_append _ _, List.prefix_rfl, List.prefix_rfl⟩
    have hnew : (g.addVertex vNew).vertex[g.vertex.length]? = some vNew := by
      simp [Graph.addVertex]
    exact ((Grow.refl.vertex vNew hb).edge _ _ _ _ (hx.get h1) hnew (H.acc _ _ (Or.inl p1) (Or.inr hb) (Or.inl p1) f1)).edge _ _ _ _
      hnew (hx.get h2) (H.acc _ _ (Or.inr hb) (Or.inl p2) (Or.inr p2) f2)
  refine Res.Sat.bind (andThen_sat (fun t => H.total t _ _ l1 m1) (fun t => H.total t _ _ m1 l2)) ?_
  intro ok1 hok1
  dsimp only
  split
  · rename_i h; obtain ⟨f1, f2⟩ := hok1 h; exact add _ m1 (H.bridge _ _ _ _ p1 p2 hrej (Or.inl ⟨hz1, rfl⟩) f1 f2) f1 f2
  · refine Res.Sat.bind (andThen_sat (fun t => H.total t _ _ l1 m2) (fun t => H.total t _ _ m2 l2)) ?_
    intro ok2 hok2
    split
    · rename_i h; obtain ⟨f1, f2⟩ := hok2 h; exact add _ m2 (H.bridge _ _ _ _ p1 p2 hrej (Or.inr ⟨hz2, rfl⟩) f1 f2) f1 f2
    · exact Res.Sat.ok .refl

theorem linkPair_satB (H : LinkHypB tot dim Vp Vb Acc free) {i j : ℕ} {g : Graph} {v1 v2 : Vec}
    (h1 : g.vertex[i]? = some v1) (h2 : g.vertex[j]? = some v2) (p1 : Vp v1) (p2 : Vp v2) :
    Res.Sat tot (linkPair free i j g) (Grow Vb Acc g) := by
  unfold linkPair
  rw [Res.idx_eq_ok.2 h1, Res.idx_eq_ok.2 h2, Res.bind_ok', Res.bind_ok']
  refine Res.Sat.bind (Q := fun r => free v1 v2 = .ok r)
    ⟨fun b hb => hb, fun t => H.total t _ _ (H.vdim _ p1) (H.vdim _ p2)⟩ ?_
  intro r hr
  split
  · subst r
    rw [Graph.addEdge_eq _ _ _ (by rw [H.vdim _ p1, H.vdim _ p2])]
    exact Res.Sat.ok (Grow.refl.edge _ _ _ _ h1 h2 (H.acc _ _ (Or.inl p1) (Or.inl p2) (Or.inl p1) hr))
  · have : r = false := by simpa using ‹¬ r = true›
    subst this
    exact bridgeVertex_satB H h1 h2 p1 p2 hr

theorem linkNext_satB (H : LinkHypB tot dim Vp Vb Acc free) {i n2 m : ℕ} {g : Graph} {v1 : Vec}
    (h1 : g.vertex[i]? = some v1) (p1 : Vp v1)
    (h2 : ∀ j < m, ∃ v2, g.vertex[n2 + j]? = some v2 ∧ Vp v2) :
    Res.Sat tot (linkNext free i n2 m g) (Grow Vb Acc g) := by
  unfold linkNext
  refine Res.Sat.foldlM _ ?_ g .refl
  intro g' j hj hg
  obtain ⟨v2, hv2, p2⟩ := h2 j (List.mem_range.1 hj)
  exact (linkPair_satB H (hg.ext.get h1) (hg.ext.get hv2) p1 p2).mono fun _ h => hg.trans h

theorem PlaneOk.mono {mk : ℝ → ℝ → Vec} {fs : FreeSeg} {plane : List ℕ} {g g' : Graph}
    (h : PlaneOk mk fs plane g) (hx : g.Ext g') : PlaneOk mk fs plane g' := by
  refine ⟨h.1, fun i y r j x h1 h2 h3 => ?_⟩
  obtain ⟨n, a, b⟩ := h.2 i y r j x h1 h2 h3
  exact ⟨n, a, hx.get b⟩

/-- A sample of one of the sweep lines. -/
def Sample (mk : ℝ → ℝ → Vec) (fs : FreeSeg) (v : Vec) : Prop :=
  ∃ (i : ℕ) (y : ℝ) (r : SegRow ℝ) (x : ℝ), fs.ty[i]? = some y ∧ fs.rows[i]? = some r ∧ x ∈ r.M ∧ v = mk y x

theorem Sample.all {mk : ℝ → ℝ → Vec} {fs : FreeSeg} {Vp : Vec → Prop} (h : ∀ y x, Vp (mk y x)) :
    ∀ v, Sample mk fs v → Vp v := by
  rintro v ⟨i, y, r, x, -, -, -, rfl⟩
  exact h y x

/-- `connectOneSlice2D` only appends: accepted transitions, row neighbours and bridge vertices. -/
theorem connectOneSlice2D_satB (H : LinkHypB tot dim Vp Vb Acc free) {mk : ℝ → ℝ → Vec} {fs : FreeSeg}
    {plane : List ℕ} {g : Graph} (hmk : ∀ v, Sample mk fs v → Vp v)
    (hrow : ∀ a b, RowNeighbours mk fs a b → Acc a b) (hp : PlaneOk mk fs plane g)
    (hal : tot → fs.Aligned) :
    Res.Sat tot (connectOneSlice2D free fs.ty.length fs.rows plane g) (Grow Vb Acc g) := by
  unfold connectOneSlice2D
  refine Res.Sat.foldlM _ ?_ g .refl
  intro g1 i hi hg1
  have hi := List.mem_range.1 hi
  unfold linkLine
  refine Res.Sat.bind (Res.Sat.at' fun _ => by rw [hp.1]; exact hi) ?_
  intro n1 hn1
  refine Res.Sat.bind (Res.Sat.idx fun t => by rw [(hal t).1]; exact hi) ?_
  intro r hr
  have hy : fs.ty[i]? = some fs.ty[i] := List.getElem?_eq_getElem hi
  have hs : ∀ x ∈ r.M, Vp (mk fs.ty[i] x) := fun x hx => hmk _ ⟨i, _, r, x, hy, hr, hx, rfl⟩
  have hv : ∀ (g' : Graph), g.Ext g' → ∀ (j : ℕ) (x : ℝ), r.M[j]? = some x →
      g'.vertex[n1 + j]? = some (mk fs.ty[i] x) := by
    intro g' hx j x hj
    obtain ⟨n, a, b⟩ := hp.2 i _ r j x hy hr hj
    rw [hn1] at a; obtain rfl := Option.some.inj a
    exact hx.get b
  refine Res.Sat.foldlM _ ?_ g1 hg1
  intro g2 j1 hj1 hg2
  have hj1 := List.mem_range.1 hj1
  have hx1 : r.M[j1]? = some r.M[j1] := List.getElem?_eq_getElem hj1
  unfold linkSample
  -- within the line
  refine Res.Sat.bind (Q := Grow Vb Acc g) ?_ ?_
  · unfold linkRow
    split
    · rename_i hne
      have hj2 : j1 + 1 < r.M.length := by omega
      refine Res.Sat.bind (Res.Sat.idx fun t => ?_) ?_
      · rw [((hal t).2 r (List.mem_of_getElem? hr)).2]; omega
      intro u hu
      refine Res.Sat.bind (Res.Sat.idx fun t => ?_) ?_
      · rw [((hal t).2 r (List.mem_of_getElem? hr)).1]; omega
      intro l hl
      split
      · rename_i hlt
        have hx2 : r.M[j1 + 1]? = some r.M[j1 + 1] := List.getElem?_eq_getElem hj2
        have e1 := hv g2 hg2.ext j1 _ hx1
        have e2 := hv g2 hg2.ext (j1 + 1) _ hx2
        rw [Res.idx_eq_ok.2 e1, Nat.add_assoc, Res.idx_eq_ok.2 e2, Res.bind_ok', Res.bind_ok',
          Graph.addEdge_eq _ _ _ (by rw [H.vdim _ (hs _ (List.getElem_mem hj1)), H.vdim _ (hs _ (List.getElem_mem hj2))])]
        refine Res.Sat.ok (hg2.edge _ _ _ _ e1 e2 (hrow _ _ ?_))
        exact ⟨i, j1, _, r, _, _, u, l, hy, hr, hx1, hx2, hu, hl, hlt, rfl, rfl⟩
      · exact Res.Sat.ok hg2
    · exact Res.Sat.ok hg2
  -- with the next line
  intro g3 hg3
  split
  · rename_i hne
    have hi2 : i + 1 < fs.ty.length := by omega
    refine Res.Sat.bind (Res.Sat.at' fun _ => by rw [hp.1]; exact hi2) ?_
    intro n2 hn2
    refine Res.Sat.bind (Res.Sat.idx fun t => by rw [(hal t).1]; exact hi2) ?_
    intro r2 hr2
    refine (linkNext_satB H (hv g3 hg3.ext j1 _ hx1) (hs _ (List.getElem_mem hj1)) ?_).mono fun _ h => hg3.trans h
    intro j hj
    obtain ⟨n, a, b⟩ := hp.2 (i + 1) _ r2 j _ (List.getElem?_eq_getElem hi2) hr2
      (List.getElem?_eq_getElem hj)
    rw [hn2] at a; obtain rfl := Option.some.inj a
    exact ⟨_, hg3.ext.get b, hmk _ ⟨i + 1, _, r2, _, List.getElem?_eq_getElem hi2, hr2, List.getElem_mem hj, rfl⟩⟩
  · exact Res.Sat.ok hg3

/-! ### generateVertices -/

theorem linkNext_sat (H : LinkHyp tot dim Vp Acc free) {i n2 m : ℕ} {g : Graph} {v1 : Vec}
    (h1 : g.vertex[i]? = some v1) (p1 : Vp v1)
    (h2 : ∀ j < m, ∃ v2, g.vertex[n2 + j]? = some v2 ∧ Vp v2) :
    Res.Sat tot (linkNext free i n2 m g) (Grow Vp Acc g) := linkNext_satB H.toB h1 p1 h2

theorem connectOneSlice2D_sat (H : LinkHyp tot dim Vp Acc free) {mk : ℝ → ℝ → Vec} {fs : FreeSeg}
    {plane : List ℕ} {g : Graph} (hmk : ∀ v, Sample mk fs v → Vp v)
    (hrow : ∀ a b, RowNeighbours mk fs a b → Acc a b) (hp : PlaneOk mk fs plane g)
    (hal : tot → fs.Aligned) :
    Res.Sat tot (connectOneSlice2D free fs.ty.length fs.rows plane g) (Grow Vp Acc g) :=
  connectOneSlice2D_satB H.toB hmk hrow hp hal

theorem foldl_addVertex (f : ℝ → Vec) (xs : List ℝ) (g : Graph) :
    xs.foldl (fun g x => g.addVertex (f x)) g = { g with vertex := g.vertex ++ xs.map f } := by
  induction xs generalizing g with
  | nil => simp
  | cons x xs ih => rw [List.foldl_cons, ih]; simp [Graph.addVertex]

theorem foldl_addVertex_grow {f : ℝ → Vec} (xs : List ℝ) (hf : ∀ x ∈ xs, Vp (f x)) {g0 g : Graph}
    (h : Grow Vp Acc g0 g) : Grow Vp Acc g0 (xs.foldl (fun g x => g.addVertex (f x)) g) := by
  induction xs generalizing g with
  | nil => exact h
  | cons x xs ih => exact ih (fun y hy => hf y (by simp [hy])) (h.vertex _ (hf x (by simp)))

theorem zipWith_take_right {α β γ : Type*} (f : α → β → γ) : ∀ (a : List α) (b : List β),
    List.zipWith f a b = List.zipWith f a (b.take a.length)
  | [], b => by simp
  | _ :: _, [] => by simp
  | x :: a, y :: b => by simp [← zipWith_take_right f a b]

/-- The vertices added by `generateVertices`: line by line, the middle points. -/
theorem generateVertices_sat {mk : ℝ → ℝ → Vec} {fs : FreeSeg} {g : Graph} (hmk : ∀ v, Sample mk fs v → Vp v)
    (hrows : tot → fs.rows.length = fs.ty.length) :
    Res.Sat tot (generateVertices mk fs.ty fs.rows g) (fun s => Grow Vp Acc g s.1 ∧
      PlaneOk mk fs s.2 s.1 ∧ s.1.edge = g.edge ∧ s.1.weight = g.weight ∧
      s.1.vertex = g.vertex ++ (List.zipWith (fun y r => r.M.map (mk y)) fs.ty fs.rows).flatten) := by
  unfold generateVertices
  have := Res.Sat.foldlM_range (tot := tot) (f := genRow mk fs.ty fs.rows)
    (P := fun n s => Grow Vp Acc g s.1 ∧ s.2.length = n ∧ s.1.edge = g.edge ∧ s.1.weight = g.weight ∧
      (∀ (i : ℕ) (y : ℝ) (r : SegRow ℝ) (j : ℕ) (x : ℝ), i < n → fs.ty[i]? = some y →
        fs.rows[i]? = some r →
        r.M[j]? = some x → ∃ m, s.2[i]? = some m ∧ s.1.vertex[m + j]? = some (mk y x)) ∧
      (n ≤ fs.ty.length → n ≤ fs.rows.length → s.1.vertex = g.vertex ++
        (List.zipWith (fun y r => r.M.map (mk y)) (fs.ty.take n) (fs.rows.take n)).flatten) ∧
      (0 < n → n ≤ fs.rows.length)) fs.ty.length ?_ (g, [])
    ⟨.refl, rfl, rfl, rfl, by intro i _ _ _ _ h; omega, by simp, by omega⟩
  · refine this.mono ?_
    rintro s ⟨h1, h2, h3, h4, h5, h6, h7⟩
    refine ⟨h1, ⟨h2, fun i y r j x hy hr hx => h5 i y r j x (List.getElem?_eq_some_iff.1 hy).1 hy hr hx⟩,
      h3, h4, ?_⟩
    rcases Nat.eq_zero_or_pos fs.ty.length with h0 | hpos
    · have := h6 le_rfl (by omega)
      rw [this]
      have e : fs.ty = [] := List.length_eq_zero_iff.1 h0
      simp [e]
    · have hle := h7 hpos
      rw [h6 le_rfl hle]
      rw [List.take_length, ← zipWith_take_right]
  · rintro ⟨g1, pl⟩ i hi ⟨h1, h2, h3, h4, h5, h6, h7⟩
    simp only at h1 h2 h3 h4 h5 h6
    unfold genRow
    refine Res.Sat.bind (Res.Sat.idx fun _ => hi) ?_
    intro y hy
    refine Res.Sat.bind (Res.Sat.idx fun t => by rw [hrows t]; exact hi) ?_
    intro r hr
    have hri := (List.getElem?_eq_some_iff.1 hr).1
    apply Res.Sat.ok
    simp only
    have hx : g1.Ext (r.M.foldl (fun g x => g.addVertex (mk y x)) g1) := by
      rw [foldl_addVertex]; exact ⟨List.prefix_append _ _, List.prefix_rfl, List.prefix_rfl⟩
    refine ⟨foldl_addVertex_grow _ (fun x hx => hmk _ ⟨i, y, r, x, hy, hr, hx, rfl⟩) h1, by simp [h2], by rw [foldl_addVertex]; exact h3,
      by rw [foldl_addVertex]; exact h4, ?_, ?_, fun _ => hri⟩
    · intro k y' r' j x hk hy' hr' hx'
      rcases Nat.lt_or_ge k i with hlt | hge
      · obtain ⟨m, a, b⟩ := h5 k y' r' j x hlt hy' hr' hx'
        refine ⟨m, ?_, hx.get b⟩
        rw [List.getElem?_append_left (by omega)]; exact a
      · obtain rfl : k = i := by omega
        rw [hy] at hy'; rw [hr] at hr'
        obtain rfl := Option.some.inj hy'
        obtain rfl := Option.some.inj hr'
        refine ⟨g1.vertex.length, by rw [List.getElem?_append_right (by omega)]; simp [h2], ?_⟩
        rw [foldl_addVertex]
        simp [List.getElem?_append_right, hx']
    · intro hle1 hle2
      rw [foldl_addVertex]
      simp only
      rw [h6 (by omega) (by omega), List.append_assoc]
      congr 1
      rw [List.take_add_one, List.take_add_one, hy, hr]
      simp only [Option.toList_some]
      rw [List.zipWith_append (by simp; omega)]
      simp


/-! ### Connecting two ranges of vertices -/

/-- A reading function (`[]` or `.at`). -/
def IsGet (get : List Vec → ℕ → Res Vec) : Prop := ∀ l i v, get l i = .ok v ↔ l[i]? = some v

theorem isGet_idx : IsGet Res.idx := fun _ _ _ => Res.idx_eq_ok
theorem isGet_at : IsGet Res.at' := fun _ _ _ => Res.at'_eq_ok

theorem IsGet.sat {get : List Vec → ℕ → Res Vec} (h : IsGet get) {tot : Prop} {l : List Vec} {i : ℕ}
    (hi : tot → i < l.length) : Res.Sat tot (get l i) (fun v => l[i]? = some v) :=
  ⟨fun _ e => (h _ _ _).1 e, fun t => ⟨l[i]'(hi t), (h _ _ _).2 (List.getElem?_eq_getElem (hi t))⟩⟩

variable {near : Vec → Vec → Res Bool}

/-- Exact outcome of the inner loop: the first `m` in `[m1, hi)` that is near and accepted gets an edge,
else nothing changes. -/
theorem matchOne_sat {get : List Vec → ℕ → Res Vec} (hget : IsGet get) (m0 : ℕ) (v1 : Vec) (hi : ℕ)
    (g : Graph) (hdim : ∀ v ∈ g.vertex, v.length = dim) (hv1 : v1.length = dim)
    (hhi : tot → hi ≤ g.vertex.length) (hn : tot → TotalOn dim near) (hf : tot → TotalOn dim free) :
    ∀ k m1 start, hi ≤ m1 + k →
    Res.Sat tot (matchOne get near free m0 v1 hi k m1 start g) (fun s =>
      (s = (g, start) ∧ ∀ m v2, m1 ≤ m → m < hi → g.vertex[m]? = some v2 →
        near v1 v2 = .ok false ∨ free v1 v2 = .ok false) ∨
      ∃ m v2, m1 ≤ m ∧ m < hi ∧ g.vertex[m]? = some v2 ∧ near v1 v2 = .ok true ∧
        free v1 v2 = .ok true ∧ s = (g.withEdge m0 m v1 v2, m) ∧
        ∀ m' v', m1 ≤ m' → m' < m → g.vertex[m']? = some v' →
          near v1 v' = .ok false ∨ free v1 v' = .ok false) := by
  intro k
  induction k with
  | zero =>
    intro m1 start hk
    unfold matchOne
    exact Res.Sat.ok (Or.inl ⟨rfl, fun m v2 h1 h2 => by omega⟩)
  | succ k ih =>
    intro m1 start hk
    unfold matchOne
    split
    · rename_i hlt
      refine Res.Sat.bind (hget.sat fun t => lt_of_lt_of_le hlt (hhi t)) ?_
      intro v2 hv2
      have hd2 := hdim v2 (List.mem_of_getElem? hv2)
      refine Res.Sat.bind (Q := fun r => near v1 v2 = .ok r)
        ⟨fun _ e => e, fun t => hn t _ _ hv1 hd2⟩ ?_
      intro b hb
      have skip : (near v1 v2 = .ok false ∨ free v1 v2 = .ok false) →
          Res.Sat tot (matchOne get near free m0 v1 hi k (m1 + 1) start g) (fun s =>
            (s = (g, start) ∧ ∀ m v2, m1 ≤ m → m < hi → g.vertex[m]? = some v2 →
              near v1 v2 = .ok false ∨ free v1 v2 = .ok false) ∨
            ∃ m v2, m1 ≤ m ∧ m < hi ∧ g.vertex[m]? = some v2 ∧ near v1 v2 = .ok true ∧
              free v1 v2 = .ok true ∧ s = (g.withEdge m0 m v1 v2, m) ∧
              ∀ m' v', m1 ≤ m' → m' < m → g.vertex[m']? = some v' →
                near v1 v' = .ok false ∨ free v1 v' = .ok false) := by
        intro hrej
        have hstep : ∀ m v', m1 ≤ m → ¬ m1 + 1 ≤ m → g.vertex[m]? = some v' →
            near v1 v' = .ok false ∨ free v1 v' = .ok false := by
          intro m v' h1 h2 h3
          obtain rfl : m = m1 := by omega
          rw [hv2] at h3; obtain rfl := Option.some.inj h3
          exact hrej
        refine (ih (m1 + 1) start (by omega)).mono ?_
        rintro s (⟨e, hall⟩ | ⟨m, v, h1, h2, h3, h4, h5, h6, h7⟩)
        · refine Or.inl ⟨e, fun m v' h1 h2 h3 => ?_⟩
          by_cases h : m1 + 1 ≤ m
          · exact hall m v' h h2 h3
          · exact hstep m v' h1 h h3
        · refine Or.inr ⟨m, v, by omega, h2, h3, h4, h5, h6, fun m' v' g1 g2 g3 => ?_⟩
          by_cases h : m1 + 1 ≤ m'
          · exact h7 m' v' h g2 g3
          · exact hstep m' v' g1 h g3
      split
      · rename_i hnb
        have : b = false := by simpa using hnb
        subst this
        exact skip (Or.inl hb)
      · rename_i hnb
        have : b = true := by simpa using hnb
        subst this
        refine Res.Sat.bind (Q := fun r => free v1 v2 = .ok r)
          ⟨fun _ e => e, fun t => hf t _ _ hv1 hd2⟩ ?_
        intro c hc
        split
        · subst c
          rw [Graph.addEdge_eq _ _ _ (by rw [hv1, hd2])]
          exact Res.Sat.ok (Or.inr ⟨m1, v2, le_rfl, hlt, hv2, hb, hc, rfl, fun m' v' h1 h2 => by omega⟩)
        · have : c = false := by simpa using ‹¬ c = true›
          subst this
          exact skip (Or.inr hc)
    · exact Res.Sat.ok (Or.inl ⟨rfl, fun m v2 h1 h2 => by omega⟩)

/-- The double loop only adds edges between the two ranges that were near and accepted. -/
theorem matchRanges_sat {get0 get1 : List Vec → ℕ → Res Vec} (h0 : IsGet get0) (h1 : IsGet get1)
    (lo0 hi0 lo1 hi1 : ℕ) (g : Graph) (hdim : ∀ v ∈ g.vertex, v.length = dim)
    (hacc : ∀ m0 m1 a b, (lo0 ≤ m0 ∧ m0 < hi0) → (lo1 ≤ m1 ∧ m1 < hi1) → g.vertex[m0]? = some a → g.vertex[m1]? = some b →
      near a b = .ok true → free a b = .ok true → Acc a b)
    (hb0 : tot → hi0 ≤ g.vertex.length)
    (hb1 : tot → hi1 ≤ g.vertex.length) (hn : tot → TotalOn dim near) (hf : tot → TotalOn dim free) :
    Res.Sat tot (matchRanges get0 get1 near free lo0 hi0 lo1 hi1 g)
      (fun g' => Grow (fun _ => False) Acc g g' ∧
        ∀ k e, g.edge.length ≤ k → g'.edge[k]? = some e →
          (lo0 ≤ e.1 ∧ e.1 < hi0) ∧ (lo1 ≤ e.2 ∧ e.2 < hi1)) := by
  unfold matchRanges
  refine Res.Sat.bind (Q := fun s => Grow (fun _ => False) Acc g s.1 ∧ lo1 ≤ s.2 ∧
    s.1.vertex = g.vertex ∧ ∀ k e, g.edge.length ≤ k → s.1.edge[k]? = some e →
          (lo0 ≤ e.1 ∧ e.1 < hi0) ∧ (lo1 ≤ e.2 ∧ e.2 < hi1)) ?_ ?_
  · refine Res.Sat.foldlM _ ?_ (g, lo1) ⟨.refl, le_rfl, rfl, fun k e h h' => ?_⟩
    swap
    · exact absurd (List.getElem?_eq_some_iff.1 h').1 (not_lt.2 h)
    rintro ⟨g1, st⟩ m0 hm0 ⟨hg, hst, hvx, hed⟩
    simp only at hg hst hvx hed
    rw [List.mem_range'_1] at hm0
    unfold matchStep
    refine Res.Sat.bind (h0.sat fun t => by rw [hvx]; have := hb0 t; omega) ?_
    intro v1 hv1
    simp only at hv1
    have hv1d : v1.length = dim := hdim v1 (hvx ▸ List.mem_of_getElem? hv1)
    refine (matchOne_sat h1 m0 v1 hi1 g1 (hvx ▸ hdim) hv1d (fun t => hvx ▸ hb1 t) hn hf
      (hi1 - st) st st (by omega)).mono ?_
    rintro s (⟨rfl, -⟩ | ⟨m, v2, a1, a2, a3, a4, a5, rfl, -⟩)
    · exact ⟨hg, hst, hvx, hed⟩
    · refine ⟨hg.edge _ _ _ _ hv1 a3 (hacc m0 m _ _ (by omega) (by omega) (hvx ▸ hv1) (hvx ▸ a3) a4 a5), by simp only; omega, hvx, ?_⟩
      intro k e hk he
      simp only [Graph.withEdge] at he
      rcases Nat.lt_or_ge k g1.edge.length with h | h
      · rw [List.getElem?_append_left h] at he; exact hed k e hk he
      · rw [List.getElem?_append_right h] at he
        cases hkk : k - g1.edge.length with
        | zero => rw [hkk] at he; simp at he; subst he; simp only; omega
        | succ k => rw [hkk] at he; simp at he
  · rintro s ⟨h, -, -, h'⟩
    exact Res.Sat.ok ⟨h, h'⟩


/-! ### Whole slices -/

/-- One plane: generate its vertices and connect them. -/
theorem plane_satB (H : LinkHypB tot dim Vp Vb Acc free) (hsub : ∀ v, Vp v → Vb v) {mk : ℝ → ℝ → Vec} {fs : FreeSeg} {g : Graph}
    (hmk : ∀ v, Sample mk fs v → Vp v) (hrow : ∀ a b, RowNeighbours mk fs a b → Acc a b)
    (hal : tot → fs.Aligned) {γ : Type} {k : GenState → Graph → Res γ} {P : γ → Prop}
    (hk : ∀ s g', Grow Vb Acc g g' → PlaneOk mk fs s.2 g' →
      (∀ (i n : ℕ), s.2[i]? = some n → g.vertex.length ≤ n) → Res.Sat tot (k s g') P) :
    Res.Sat tot ((generateVertices mk fs.ty fs.rows g).bind fun s =>
      (connectOneSlice2D free fs.ty.length fs.rows s.2 s.1).bind fun g' => k s g') P := by
  refine Res.Sat.bind (Q := fun s => Grow Vp Acc g s.1 ∧ PlaneOk mk fs s.2 s.1 ∧
    ∀ (i n : ℕ), s.2[i]? = some n → g.vertex.length ≤ n) ?_ ?_
  · have h1 := generateVertices_sat (tot := tot) (Acc := Acc) (g := g) hmk fun t => (hal t).1
    have h2 : Res.Sat False (generateVertices mk fs.ty fs.rows g)
        (fun s => g.vertex.length ≤ s.1.vertex.length ∧
          ∀ (i n : ℕ), s.2[i]? = some n → g.vertex.length ≤ n) := by
      unfold generateVertices
      refine Res.Sat.foldlM _ ?_ (g, []) ⟨le_rfl, by simp⟩
      rintro ⟨g1, pl⟩ i - ⟨hl, hp⟩
      unfold genRow
      refine Res.Sat.bind (Res.Sat.idx fun h => h.elim) fun y _ => ?_
      refine Res.Sat.bind (Res.Sat.idx fun h => h.elim) fun r _ => ?_
      apply Res.Sat.ok
      simp only at hl hp ⊢
      refine ⟨by rw [foldl_addVertex]; simp; omega, ?_⟩
      intro i' n hn
      rcases Nat.lt_or_ge i' pl.length with h | h
      · rw [List.getElem?_append_left h] at hn; exact hp i' n hn
      · rw [List.getElem?_append_right h] at hn
        cases hk : i' - pl.length with
        | zero => rw [hk] at hn; simp at hn; omega
        | succ k => rw [hk] at hn; simp at hn
    exact ⟨fun b hb => ⟨(h1.1 b hb).1, (h1.1 b hb).2.1, (h2.1 b hb).2⟩, h1.2⟩
  · rintro s ⟨hg, hp, hn⟩
    refine Res.Sat.bind (connectOneSlice2D_satB H hmk hrow hp hal) ?_
    intro g' hg'
    exact hk s g' ((hg.mono hsub fun _ _ h => h).trans hg') (hp.mono hg'.ext) hn

theorem plane_sat (H : LinkHyp tot dim Vp Acc free) {mk : ℝ → ℝ → Vec} {fs : FreeSeg} {g : Graph}
    (hmk : ∀ v, Sample mk fs v → Vp v) (hrow : ∀ a b, RowNeighbours mk fs a b → Acc a b)
    (hal : tot → fs.Aligned) {γ : Type} {k : GenState → Graph → Res γ} {P : γ → Prop}
    (hk : ∀ s g', Grow Vp Acc g g' → PlaneOk mk fs s.2 g' →
      (∀ (i n : ℕ), s.2[i]? = some n → g.vertex.length ≤ n) → Res.Sat tot (k s g') P) :
    Res.Sat tot ((generateVertices mk fs.ty fs.rows g).bind fun s =>
      (connectOneSlice2D free fs.ty.length fs.rows s.2 s.1).bind fun g' => k s g') P :=
  plane_satB H.toB (fun _ h => h) hmk hrow hal hk

theorem constructSlice2D_sat {angle : ℝ} {fs : FreeSeg} {g : Graph}
    (H : LinkHyp tot 3 Vp Acc free) (hmk : ∀ y x, Vp [x, y, angle])
    (hrow : ∀ a b, RowNeighbours (fun y x => [x, y, angle]) fs a b → Acc a b) (hal : tot → fs.Aligned) :
    Res.Sat tot (constructSlice2D free angle fs g) (fun r => Grow Vp Acc g r.1 ∧
      r.2.startId = g.vertex.length ∧ r.2.slice = r.1.vertex.length ∧
      ∃ plane, r.2.line = [plane] ∧ PlaneOk (fun y x => [x, y, angle]) fs plane r.1) := by
  unfold constructSlice2D
  refine plane_sat H (mk := fun y x => [x, y, angle]) (Sample.all hmk) hrow hal (P := fun r : Graph × VertexIdx => _) ?_
  intro s g' hg hp _
  exact Res.Sat.ok ⟨hg, rfl, rfl, s.2, rfl, hp⟩

/-- All planes of a 3D slice. -/
theorem planes_satB (H : LinkHypB tot dim Vp Vb Acc free) (hsub : ∀ v, Vp v → Vb v) {mk : ℝ → ℝ → ℝ → Vec}
    {planes : List (ℝ × FreeSeg)} (hmk : ∀ p ∈ planes, ∀ v, Sample (mk p.1) p.2 v → Vp v)
    (hrow : ∀ p ∈ planes, ∀ a b, RowNeighbours (mk p.1) p.2 a b → Acc a b)
    (hal : tot → ∀ p ∈ planes, p.2.Aligned) (g : Graph) :
    Res.Sat tot (planes.foldlM (planeStep free mk) (g, [])) (fun s => Grow Vb Acc g s.1 ∧
      s.2.length = planes.length ∧ ∀ (i : ℕ) (p : ℝ × FreeSeg), planes[i]? = some p →
        ∃ plane, s.2[i]? = some plane ∧ PlaneOk (mk p.1) p.2 plane s.1) := by
  refine Res.Sat.foldlM_prefix (P := fun done s => Grow Vb Acc g s.1 ∧
      s.2.length = done.length ∧ ∀ (i : ℕ) (p : ℝ × FreeSeg), done[i]? = some p →
        ∃ plane, s.2[i]? = some plane ∧ PlaneOk (mk p.1) p.2 plane s.1) planes ?_ (g, [])
    ⟨.refl, rfl, by simp⟩
  rintro ⟨g1, line⟩ done p hpre ⟨hg, hl, hall⟩
  simp only at hg hl hall
  have hmem : p ∈ planes := hpre.subset (by simp)
  unfold planeStep
  refine plane_satB (g := g1) H hsub (hmk p hmem) (hrow p hmem) (fun t => hal t p hmem)
    (P := fun r : Graph × List (List ℕ) => _) ?_
  intro s g' hg' hp _
  apply Res.Sat.ok
  refine ⟨hg.trans hg', by simp [hl], ?_⟩
  intro i q hq
  simp only
  rcases Nat.lt_or_ge i done.length with h | h
  · rw [List.getElem?_append_left h] at hq
    obtain ⟨plane, a, b⟩ := hall i q hq
    exact ⟨plane, by rw [List.getElem?_append_left (by omega)]; exact a, b.mono hg'.ext⟩
  · rw [List.getElem?_append_right h] at hq
    cases hk : i - done.length with
    | zero =>
      rw [hk] at hq; simp at hq; subst hq
      refine ⟨s.2, ?_, hp⟩
      rw [List.getElem?_append_right (by omega), hl, hk]; rfl
    | succ k => rw [hk] at hq; simp at hq

theorem constructSlice3D_satB (H : LinkHypB tot dim Vp Vb Acc free) (hsub : ∀ v, Vp v → Vb v) {mk : ℝ → ℝ → ℝ → Vec}
    {planes : List (ℝ × FreeSeg)} (hmk : ∀ p ∈ planes, ∀ v, Sample (mk p.1) p.2 v → Vp v)
    (hrow : ∀ p ∈ planes, ∀ a b, RowNeighbours (mk p.1) p.2 a b → Acc a b)
    (hal : tot → planes ≠ [] ∧ (∀ p ∈ planes, p.2.Aligned) ∧
      ∀ p ∈ planes, ∀ q ∈ planes, p.2.ty.length = q.2.ty.length) (g : Graph) :
    Res.Sat tot (constructSlice3D free mk planes g) (fun r => Grow Vb Acc g r.1 ∧
      r.2.startId = g.vertex.length ∧ r.2.slice = r.1.vertex.length ∧
      r.2.line.length = planes.length ∧ ∀ (i : ℕ) (p : ℝ × FreeSeg), planes[i]? = some p →
        ∃ plane, r.2.line[i]? = some plane ∧ PlaneOk (mk p.1) p.2 plane r.1) := by
  unfold constructSlice3D
  refine Res.Sat.bind (planes_satB H hsub hmk hrow (fun t => (hal t).2.1) g) ?_
  rintro ⟨g1, line⟩ ⟨hg, hl, hall⟩
  simp only at hg hl hall
  split
  · exact Res.Sat.fail_throw fun t => (hal t).1 ‹_›
  refine Res.Sat.bind (Q := Grow Vb Acc g1) ?_ ?_
  · refine Res.Sat.foldlM _ ?_ g1 .refl
    intro g2 i hi hg2
    have hi := List.mem_range.1 hi
    unfold crossPlanes
    refine Res.Sat.bind (Res.Sat.at' fun _ => by omega) ?_
    intro a ha
    refine Res.Sat.bind (Res.Sat.at' fun _ => by omega) ?_
    intro b hb
    obtain ⟨pa, hpa, oka⟩ := hall i a ha
    obtain ⟨pb, hpb, okb⟩ := hall (i + 1) b hb
    have hty : tot → a.2.ty.length = b.2.ty.length := fun t =>
      (hal t).2.2 a (List.mem_of_getElem? ha) b (List.mem_of_getElem? hb)
    refine Res.Sat.foldlM _ ?_ g2 hg2
    intro g3 j hj hg3
    have hj := List.mem_range.1 hj
    unfold crossLine
    rw [Res.idx_eq_ok.2 hpa, Res.bind_ok']
    refine Res.Sat.bind (Res.Sat.idx fun _ => by rw [oka.1]; exact hj) ?_
    intro n1 hn1
    rw [Res.idx_eq_ok.2 hpb, Res.bind_ok']
    refine Res.Sat.bind (Res.Sat.idx fun t => by rw [okb.1, ← hty t]; exact hj) ?_
    intro n2 hn2
    have hjb : j < b.2.ty.length := by rw [← okb.1]; exact (List.getElem?_eq_some_iff.1 hn2).1
    refine Res.Sat.bind (Res.Sat.idx fun t => by
      rw [((hal t).2.1 a (List.mem_of_getElem? ha)).1]; exact hj) ?_
    intro ra hra
    refine Res.Sat.foldlM _ ?_ g3 hg3
    intro g4 k1 hk1 hg4
    have hk1 := List.mem_range.1 hk1
    refine Res.Sat.bind (Res.Sat.idx fun t => by
      rw [((hal t).2.1 b (List.mem_of_getElem? hb)).1]; exact hjb) ?_
    intro rb hrb
    obtain ⟨m, e1, e2⟩ := oka.2 j _ ra k1 _ (List.getElem?_eq_getElem hj) hra
      (List.getElem?_eq_getElem hk1)
    rw [hn1] at e1; obtain rfl := Option.some.inj e1
    refine (linkNext_satB H (hg4.ext.get e2) (hmk a (List.mem_of_getElem? ha) _
      ⟨j, _, ra, _, List.getElem?_eq_getElem hj, hra, List.getElem_mem hk1, rfl⟩) ?_).mono fun _ h => hg4.trans h
    intro k2 hk2
    obtain ⟨m', f1, f2⟩ := okb.2 j _ rb k2 _ (List.getElem?_eq_getElem hjb) hrb
      (List.getElem?_eq_getElem hk2)
    rw [hn2] at f1; obtain rfl := Option.some.inj f1
    exact ⟨_, hg4.ext.get f2, hmk b (List.mem_of_getElem? hb) _
      ⟨j, _, rb, _, List.getElem?_eq_getElem hjb, hrb, List.getElem_mem hk2, rfl⟩⟩
  · intro g' hg'
    apply Res.Sat.ok
    refine ⟨hg.trans hg', rfl, rfl, hl, ?_⟩
    intro i p hp
    obtain ⟨plane, a, b⟩ := hall i p hp
    exact ⟨plane, a, b.mono hg'.ext⟩

theorem constructSlice3D_sat (H : LinkHyp tot dim Vp Acc free) {mk : ℝ → ℝ → ℝ → Vec}
    {planes : List (ℝ × FreeSeg)} (hmk : ∀ p ∈ planes, ∀ v, Sample (mk p.1) p.2 v → Vp v)
    (hrow : ∀ p ∈ planes, ∀ a b, RowNeighbours (mk p.1) p.2 a b → Acc a b)
    (hal : tot → planes ≠ [] ∧ (∀ p ∈ planes, p.2.Aligned) ∧
      ∀ p ∈ planes, ∀ q ∈ planes, p.2.ty.length = q.2.ty.length) (g : Graph) :
    Res.Sat tot (constructSlice3D free mk planes g) (fun r => Grow Vp Acc g r.1 ∧
      r.2.startId = g.vertex.length ∧ r.2.slice = r.1.vertex.length ∧
      r.2.line.length = planes.length ∧ ∀ (i : ℕ) (p : ℝ × FreeSeg), planes[i]? = some p →
        ∃ plane, r.2.line[i]? = some plane ∧ PlaneOk (mk p.1) p.2 plane r.1) :=
  constructSlice3D_satB H.toB (fun _ h => h) hmk hrow hal g

/-! ### All slices -/

theorem Partition.append {idx : List VertexIdx} {lo mid : ℕ} (h : Partition idx lo mid) (s : VertexIdx)
    (h1 : s.startId = mid) (h2 : mid ≤ s.slice) : Partition (idx ++ [s]) lo s.slice := by
  induction idx generalizing lo with
  | nil => simp only [Partition] at h; subst h; exact ⟨h1, h2, rfl⟩
  | cons t idx ih => exact ⟨h.1, h.2.1, ih h.2.2⟩

theorem Partition.bounds {idx : List VertexIdx} {lo hi : ℕ} (h : Partition idx lo hi) :
    lo ≤ hi ∧ ∀ s ∈ idx, lo ≤ s.startId ∧ s.startId ≤ s.slice ∧ s.slice ≤ hi := by
  induction idx generalizing lo with
  | nil => simp only [Partition] at h; subst h; simp
  | cons t idx ih =>
    obtain ⟨h1, h2, h3⟩ := h
    obtain ⟨g1, g2⟩ := ih h3
    refine ⟨by omega, fun s hs => ?_⟩
    rcases List.mem_cons.1 hs with rfl | hs
    · omega
    · have := g2 s hs; omega

/-- Every vertex number is in exactly one recorded range. -/
theorem Partition.exists_unique {idx : List VertexIdx} {lo hi : ℕ} (h : Partition idx lo hi) (m : ℕ)
    (h1 : lo ≤ m) (h2 : m < hi) :
    ∃! i : ℕ, ∃ s : VertexIdx, idx[i]? = some s ∧ s.startId ≤ m ∧ m < s.slice := by
  induction idx generalizing lo with
  | nil => simp only [Partition] at h; omega
  | cons t idx ih =>
    obtain ⟨e, hle, h3⟩ := h
    rcases Nat.lt_or_ge m t.slice with hlt | hge
    · refine ⟨0, ⟨t, rfl, by omega, hlt⟩, ?_⟩
      rintro i ⟨s, hs, a, b⟩
      cases i with
      | zero => rfl
      | succ i =>
        rw [List.getElem?_cons_succ] at hs
        have := h3.bounds.2 s (List.mem_of_getElem? hs)
        omega
    · obtain ⟨i, ⟨s, hs, a, b⟩, hu⟩ := ih h3 hge
      refine ⟨i + 1, ⟨s, by simpa using hs, a, b⟩, ?_⟩
      rintro k ⟨s', hs', a', b'⟩
      cases k with
      | zero => simp at hs'; subst hs'; omega
      | succ k =>
        rw [List.getElem?_cons_succ] at hs'
        rw [hu k ⟨s', hs', a', b'⟩]

theorem buildSlices_sat {slice : ℕ → Graph → Res (Graph × VertexIdx)} {Vp : ℕ → Vec → Prop}
    {Acc : Vec → Vec → Prop} {Info : ℕ → VertexIdx → Graph → Prop} {numSlice : ℕ}
    (hInfo : ∀ i s g g', Info i s g → Graph.Ext g g' → Info i s g')
    (hs : ∀ i < numSlice, ∀ g, Res.Sat tot (slice i g) (fun r => Grow (Vp i) Acc g r.1 ∧
      r.2.startId = g.vertex.length ∧ r.2.slice = r.1.vertex.length ∧ Info i r.2 r.1)) (g : Graph) :
    Res.Sat tot (buildSlices slice numSlice g []) (fun s =>
      Grow (fun v => ∃ i < numSlice, Vp i v) Acc g s.1 ∧ s.2.length = numSlice ∧
      Partition s.2 g.vertex.length s.1.vertex.length ∧
      ∀ (i : ℕ) (x : VertexIdx), s.2[i]? = some x → Info i x s.1 ∧
        ∀ (m : ℕ) (v : Vec), x.startId ≤ m → m < x.slice → s.1.vertex[m]? = some v → Vp i v) := by
  unfold buildSlices
  refine Res.Sat.foldlM_range (P := fun (n : ℕ) (s : Graph × List VertexIdx) =>
      Grow (fun v => ∃ i < numSlice, Vp i v) Acc g s.1 ∧ s.2.length = n ∧
      Partition s.2 g.vertex.length s.1.vertex.length ∧
      ∀ (i : ℕ) (x : VertexIdx), s.2[i]? = some x → Info i x s.1 ∧
        ∀ (m : ℕ) (v : Vec), x.startId ≤ m → m < x.slice → s.1.vertex[m]? = some v → Vp i v)
    numSlice ?_ (g, []) ⟨.refl, rfl, (rfl : g.vertex.length = g.vertex.length), by simp⟩
  rintro ⟨g1, idx⟩ i hi ⟨h1, h2, h3, h4⟩
  simp only at h1 h2 h3 h4
  refine Res.Sat.bind (hs i hi g1) ?_
  rintro ⟨g2, x⟩ ⟨k1, k2, k3, k4⟩
  simp only at k1 k2 k3 k4
  apply Res.Sat.ok
  refine ⟨h1.trans (k1.mono (fun v hv => ⟨i, hi, hv⟩) fun _ _ h => h), by simp [h2], ?_, ?_⟩
  · rw [← k3]
    refine h3.append x k2 ?_
    rw [k3]; exact k1.ext.1.length_le
  · intro j y hy
    simp only at hy ⊢
    rcases Nat.lt_or_ge j idx.length with h | h
    · rw [List.getElem?_append_left h] at hy
      obtain ⟨a, b⟩ := h4 j y hy
      refine ⟨hInfo _ _ _ _ a k1.ext, fun m v m1 m2 hv => b m v m1 m2 ?_⟩
      have hb := (h3.bounds.2 y (List.mem_of_getElem? hy)).2.2
      have hlt : m < g1.vertex.length := by omega
      obtain ⟨t, ht⟩ := k1.ext.1
      rw [← ht, List.getElem?_append_left hlt] at hv; exact hv
    · rw [List.getElem?_append_right h] at hy
      cases hk : j - idx.length with
      | zero =>
        rw [hk] at hy; simp at hy; subst hy
        have hj : j = i := by omega
        subst hj
        exact ⟨k4, fun m v m1 m2 hv => k1.newVertex hv (by omega)⟩
      | succ k => rw [hk] at hy; simp at hy

theorem near2D_total (gap : ℝ) : TotalOn 3 (near2D gap) := by
  intro a b ha hb
  unfold near2D
  have h1 : a[1]? = some a[1] := List.getElem?_eq_getElem (by omega)
  have h2 : b[1]? = some b[1] := List.getElem?_eq_getElem (by omega)
  rw [Res.idx_eq_ok.2 h1, Res.idx_eq_ok.2 h2]
  exact ⟨_, rfl⟩

theorem near3D_total (gapX gapY : ℝ) {dim : ℕ} (hd : 2 ≤ dim) : TotalOn dim (near3D gapX gapY) := by
  intro a b ha hb
  unfold near3D
  have h1 : a[1]? = some a[1] := List.getElem?_eq_getElem (by omega)
  have h2 : b[1]? = some b[1] := List.getElem?_eq_getElem (by omega)
  have h3 : a[0]? = some a[0] := List.getElem?_eq_getElem (by omega)
  have h4 : b[0]? = some b[0] := List.getElem?_eq_getElem (by omega)
  rw [Res.at'_eq_ok.2 h1, Res.at'_eq_ok.2 h2, Res.at'_eq_ok.2 h3, Res.at'_eq_ok.2 h4]
  simp only [Res.bind_ok']
  split
  · exact ⟨_, rfl⟩
  · exact ⟨_, rfl⟩

theorem Grow.noVertex {Acc : Vec → Vec → Prop} {g g' : Graph} (h : Grow (fun _ => False) Acc g g') :
    g'.vertex = g.vertex := by
  induction h with
  | refl => rfl
  | vertex v _ hv => exact hv.elim
  | edge i j a b _ _ _ _ ih => exact ih

/-- One outer iteration of a multi-slice connection. -/
theorem multiSlices_sat {step : Graph → ℕ → Res Graph} {Acc : Vec → Vec → Prop} {n : ℕ} {g : Graph}
    (h : ∀ i < n, ∀ g' : Graph, g'.vertex = g.vertex → Res.Sat tot (step g' i)
      (Grow (fun _ => False) Acc g')) :
    Res.Sat tot ((List.range n).foldlM step g) (Grow (fun _ => False) Acc g) := by
  refine Res.Sat.foldlM _ ?_ g .refl
  intro g' i hi hg
  exact (h i (List.mem_range.1 hi) g' hg.noVertex).mono fun _ h' => hg.trans h'

/-- If some pair of the two ranges is near and accepted, at least one edge is added. -/
theorem matchRanges_complete {get0 get1 : List Vec → ℕ → Res Vec} (h0 : IsGet get0) (h1 : IsGet get1)
    (lo0 hi0 lo1 hi1 : ℕ) (g g' : Graph) (hdim : ∀ v ∈ g.vertex, v.length = dim)
    (hr : matchRanges get0 get1 near free lo0 hi0 lo1 hi1 g = .ok g')
    {m0 m1 : ℕ} {v1 v2 : Vec} (hm0 : lo0 ≤ m0 ∧ m0 < hi0) (hm1 : lo1 ≤ m1 ∧ m1 < hi1)
    (hv1 : g.vertex[m0]? = some v1) (hv2 : g.vertex[m1]? = some v2)
    (hnear : near v1 v2 = .ok true) (hfree : free v1 v2 = .ok true) :
    g.edge.length < g'.edge.length := by
  have key : Res.Sat False
      ((List.range' lo0 (hi0 - lo0)).foldlM (matchStep get0 get1 near free hi1) (g, lo1))
      (fun s => s.1.vertex = g.vertex ∧ (g.edge.length < s.1.edge.length ∨
        (s = (g, lo1) ∧ m0 ∉ List.range' lo0 (hi0 - lo0)))) := by
    refine Res.Sat.foldlM_prefix (P := fun done s => s.1.vertex = g.vertex ∧
      (g.edge.length < s.1.edge.length ∨ (s = (g, lo1) ∧ m0 ∉ done))) _ ?_ (g, lo1)
      ⟨rfl, Or.inr ⟨rfl, by simp⟩⟩
    rintro ⟨g1, st⟩ done m hpre ⟨hvx, hdisj⟩
    simp only at hvx
    unfold matchStep
    refine Res.Sat.bind (h0.sat fun t => t.elim) ?_
    intro w hw
    simp only at hw
    have hwd : w.length = dim := hdim w (hvx ▸ List.mem_of_getElem? hw)
    refine (matchOne_sat (tot := False) h1 m w hi1 g1 (hvx ▸ hdim) hwd (fun t => t.elim) (fun t => t.elim)
      (fun t => t.elim) (hi1 - st) st st (by omega)).mono ?_
    rintro s (⟨rfl, hall⟩ | ⟨m', v', a1, a2, a3, a4, a5, rfl, -⟩)
    · refine ⟨hvx, ?_⟩
      rcases hdisj with h | ⟨e, hn⟩
      · exact Or.inl h
      · right
        refine ⟨e, ?_⟩
        simp only [List.mem_append, List.mem_singleton, not_or]
        refine ⟨hn, ?_⟩
        rintro rfl
        obtain ⟨rfl, rfl⟩ := Prod.mk.inj e
        rw [hv1] at hw; obtain rfl := Option.some.inj hw
        rcases hall m1 v2 hm1.1 hm1.2 hv2 with h | h
        · rw [hnear] at h; simp at h
        · rw [hfree] at h; simp at h
    · refine ⟨hvx, Or.inl ?_⟩
      simp only [Graph.withEdge, List.length_append, List.length_singleton]
      rcases hdisj with h | ⟨e, -⟩
      · simp only at h; omega
      · obtain ⟨rfl, rfl⟩ := Prod.mk.inj e; omega
  unfold matchRanges at hr
  cases hf : (List.range' lo0 (hi0 - lo0)).foldlM (matchStep get0 get1 near free hi1) (g, lo1) with
  | ok s =>
    rw [hf] at hr
    obtain ⟨-, h | ⟨-, hn⟩⟩ := key.1 s hf
    · simp at hr; subst hr; exact h
    · exact absurd (List.mem_range'_1.2 (by omega)) hn
  | throw => rw [hf] at hr; simp at hr
  | ub => rw [hf] at hr; simp at hr

/-! ### Nearest slices -/

theorem nearestLoop_spec (dist : ℕ → ℕ → ℝ) (i n : ℕ) (hi : i < n) :
    ∀ k j (md : Option ℝ) mi, j ≤ i → i ≤ j + k →
      ((j = 0 ∧ md = none ∧ mi = 0) ∨ (mi < j ∧ md = some (dist i mi) ∧ ∀ t < j, dist i mi ≤ dist i t)) →
      (i = 0 ∧ nearestLoop dist i n k j md mi = 0) ∨
      (nearestLoop dist i n k j md mi < i ∧
        ∀ t < i, dist i (nearestLoop dist i n k j md mi) ≤ dist i t) := by
  intro k
  induction k with
  | zero =>
    intro j md mi hj hk h
    obtain rfl : j = i := by omega
    unfold nearestLoop
    rcases h with ⟨h1, h2, h3⟩ | ⟨h1, h2, h3⟩
    · exact Or.inl ⟨h1, h3⟩
    · exact Or.inr ⟨h1, h3⟩
  | succ k ih =>
    intro j md mi hj hk h
    unfold nearestLoop
    by_cases hc : j ≠ i ∧ j < n
    · rw [if_pos hc]
      have hlt : j < i := by omega
      rcases h with ⟨rfl, rfl, rfl⟩ | ⟨h1, rfl, h3⟩
      · rw [if_pos (by simp [ltInf])]
        refine ih 1 _ 0 (by omega) (by omega) (Or.inr ⟨by omega, rfl, ?_⟩)
        intro t ht
        obtain rfl : t = 0 := by omega
        exact le_rfl
      · split
        · rename_i hd
          refine ih (j + 1) _ j (by omega) (by omega) (Or.inr ⟨by omega, rfl, ?_⟩)
          intro t ht
          rcases Nat.lt_succ_iff_lt_or_eq.1 ht with h | rfl
          · exact le_of_lt (lt_of_lt_of_le hd (h3 t h))
          · exact le_rfl
        · rename_i hd
          refine ih (j + 1) _ mi (by omega) (by omega) (Or.inr ⟨by omega, rfl, ?_⟩)
          intro t ht
          rcases Nat.lt_succ_iff_lt_or_eq.1 ht with h | rfl
          · exact h3 t h
          · exact not_lt.1 hd
    · rw [if_neg hc]
      have : j = i := by omega
      subst this
      rcases h with ⟨h1, h2, h3⟩ | ⟨h1, h2, h3⟩
      · exact Or.inl ⟨h1, h3⟩
      · exact Or.inr ⟨h1, h3⟩

theorem nearestSlice3D_zero (dist : ℕ → ℕ → ℝ) (n : ℕ) : nearestSlice3D dist 0 n = 0 := by
  unfold nearestSlice3D
  cases n <;> simp [nearestLoop]

theorem nearestSlice3D_spec (dist : ℕ → ℕ → ℝ) {i n : ℕ} (hi : i < n) (h0 : i ≠ 0) :
    nearestSlice3D dist i n < i ∧ ∀ t < i, dist i (nearestSlice3D dist i n) ≤ dist i t := by
  rcases nearestLoop_spec dist i n hi n 0 none 0 (by omega) (by omega) (Or.inl ⟨rfl, rfl, rfl⟩) with h | h
  · exact absurd h.1 h0
  · exact h

open Classical in
theorem probNearest_spec (dist : ℕ → ℝ) {n : ℕ} (hn : 2 ≤ n) :
    probNearest dist n < n - 1 ∧ ∀ t < n - 1, dist (probNearest dist n) ≤ dist t := by
  have key : ∀ k, ((List.range k).foldl (fun (s : Option ℝ × ℕ) i =>
      if ltInf (dist i) s.1 then (some (dist i), i) else s) (none, 0)
        = (none, 0) ∧ k = 0) ∨
      ∃ m, (List.range k).foldl (fun (s : Option ℝ × ℕ) i =>
      if ltInf (dist i) s.1 then (some (dist i), i) else s) (none, 0)
        = (some (dist m), m) ∧ m < k ∧ ∀ t < k, dist m ≤ dist t := by
    intro k
    induction k with
    | zero => exact Or.inl ⟨rfl, rfl⟩
    | succ k ih =>
      right
      rw [List.range_succ, List.foldl_append, List.foldl_cons, List.foldl_nil]
      rcases ih with ⟨e, rfl⟩ | ⟨m, e, hm, hall⟩
      · rw [e]
        refine ⟨0, by simp [ltInf], by omega, fun t ht => ?_⟩
        obtain rfl : t = 0 := by omega
        exact le_rfl
      · rw [e]
        simp only
        split
        · rename_i hd
          refine ⟨k, rfl, by omega, fun t ht => ?_⟩
          rcases Nat.lt_succ_iff_lt_or_eq.1 ht with h | rfl
          · exact le_of_lt (lt_of_lt_of_le hd (hall t h))
          · exact le_rfl
        · rename_i hd
          refine ⟨m, rfl, by omega, fun t ht => ?_⟩
          rcases Nat.lt_succ_iff_lt_or_eq.1 ht with h | rfl
          · exact hall t h
          · exact not_lt.1 hd
  unfold probNearest
  rcases key (n - 1) with ⟨-, h⟩ | ⟨m, e, hm, hall⟩
  · omega
  · rw [e]; exact ⟨hm, hall⟩

open Classical in
/-- Of several nearest slices the first is taken. -/
theorem probNearest_first (dist : ℕ → ℝ) (n : ℕ) : ∀ t < probNearest dist n, dist (probNearest dist n) < dist t := by
  have key : ∀ k, ((List.range k).foldl (fun (s : Option ℝ × ℕ) i =>
      if ltInf (dist i) s.1 then (some (dist i), i) else s) (none, 0)
        = (none, 0) ∧ k = 0) ∨
      ∃ m, (List.range k).foldl (fun (s : Option ℝ × ℕ) i =>
      if ltInf (dist i) s.1 then (some (dist i), i) else s) (none, 0)
        = (some (dist m), m) ∧ m < k ∧ (∀ t < k, dist m ≤ dist t) ∧ ∀ t < m, dist m < dist t := by
    intro k
    induction k with
    | zero => exact Or.inl ⟨rfl, rfl⟩
    | succ k ih =>
      right
      rw [List.range_succ, List.foldl_append, List.foldl_cons, List.foldl_nil]
      rcases ih with ⟨e, rfl⟩ | ⟨m, e, hm, hall, hf⟩
      · rw [e]
        refine ⟨0, by simp [ltInf], by omega, fun t ht => ?_, by simp⟩
        obtain rfl : t = 0 := by omega
        exact le_rfl
      · rw [e]
        simp only
        split
        · rename_i hd
          refine ⟨k, rfl, by omega, fun t ht => ?_, fun t ht => lt_of_lt_of_le hd (hall t ht)⟩
          rcases Nat.lt_succ_iff_lt_or_eq.1 ht with h | rfl
          · exact le_of_lt (lt_of_lt_of_le hd (hall t h))
          · exact le_rfl
        · rename_i hd
          refine ⟨m, rfl, by omega, fun t ht => ?_, hf⟩
          rcases Nat.lt_succ_iff_lt_or_eq.1 ht with h | rfl
          · exact hall t h
          · exact not_lt.1 hd
  unfold probNearest
  rcases key (n - 1) with ⟨e, -⟩ | ⟨m, e, -, -, hf⟩
  · rw [e]; simp
  · rw [e]; exact hf

/-! ### Whole roadmaps -/

/-- The double loop, everything: it appends accepted edges between the two ranges, and at least one if
there is an acceptable pair. -/
theorem matchRanges_full {get0 get1 : List Vec → ℕ → Res Vec} (h0 : IsGet get0) (h1 : IsGet get1)
    (lo0 hi0 lo1 hi1 : ℕ) (g : Graph) (hdim : ∀ v ∈ g.vertex, v.length = dim)
    (hacc : ∀ m0 m1 a b, (lo0 ≤ m0 ∧ m0 < hi0) → (lo1 ≤ m1 ∧ m1 < hi1) → g.vertex[m0]? = some a → g.vertex[m1]? = some b →
      free a b = .ok true → Acc a b)
    (hb0 : tot → hi0 ≤ g.vertex.length)
    (hb1 : tot → hi1 ≤ g.vertex.length) (hn : tot → TotalOn dim near) (hf : tot → TotalOn dim free) :
    Res.Sat tot (matchRanges get0 get1 near free lo0 hi0 lo1 hi1 g)
      (fun g' => Grow (fun _ => False) Acc g g' ∧
        ∀ (m0 m1 : ℕ) (v1 v2 : Vec), lo0 ≤ m0 → m0 < hi0 → lo1 ≤ m1 → m1 < hi1 →
          g'.vertex[m0]? = some v1 → g'.vertex[m1]? = some v2 → near v1 v2 = .ok true →
          free v1 v2 = .ok true →
          ∃ e ∈ g'.edge, (lo0 ≤ e.1 ∧ e.1 < hi0) ∧ (lo1 ≤ e.2 ∧ e.2 < hi1)) := by
  have h := matchRanges_sat (tot := tot) (Acc := Acc) h0 h1 lo0 hi0 lo1 hi1 g hdim
    (fun m0 m1 a b r0 r1 e0 e1 _ h => hacc m0 m1 a b r0 r1 e0 e1 h) hb0 hb1 hn hf
  refine ⟨fun g' hg' => ?_, h.2⟩
  obtain ⟨hg, hr⟩ := h.1 g' hg'
  refine ⟨hg, ?_⟩
  intro m0 m1 v1 v2 a1 a2 a3 a4 a5 a6 a7 a8
  have hvx := hg.noVertex
  rw [hvx] at a5 a6
  have hlt := matchRanges_complete h0 h1 lo0 hi0 lo1 hi1 g g' hdim hg' ⟨a1, a2⟩ ⟨a3, a4⟩ a5 a6 a7 a8
  exact ⟨_, List.getElem_mem hlt, hr _ _ le_rfl (List.getElem?_eq_getElem hlt)⟩

/-- The outer loop of the slice connections. -/
theorem multiFold_sat {step : Graph → ℕ → Res Graph} {Acc : Vec → Vec → Prop} {Q : ℕ → Graph → Prop}
    (n : ℕ) (g : Graph)
    (hQ : ∀ i g g', Q i g → Graph.Ext g g' → g'.vertex = g.vertex → Q i g')
    (h : ∀ i < n, ∀ g' : Graph, g'.vertex = g.vertex → Res.Sat tot (step g' i)
      (fun g'' => Grow (fun _ => False) Acc g' g'' ∧ Q i g'')) :
    Res.Sat tot ((List.range n).foldlM step g)
      (fun g' => Grow (fun _ => False) Acc g g' ∧ ∀ i < n, Q i g') := by
  refine Res.Sat.foldlM_range (P := fun k g' => Grow (fun _ => False) Acc g g' ∧ ∀ i < k, Q i g')
    n ?_ g ⟨.refl, by simp⟩
  rintro g' i hi ⟨hg, hq⟩
  refine (h i hi g' hg.noVertex).mono ?_
  rintro g'' ⟨hg', hq'⟩
  refine ⟨hg.trans hg', fun j hj => ?_⟩
  rcases Nat.lt_succ_iff_lt_or_eq.1 hj with h | rfl
  · exact hQ j _ _ (hq j h) hg'.ext hg'.noVertex
  · exact hq'

theorem JoinedIfPossible.mono {near free : Vec → Vec → Res Bool} {s t : VertexIdx} {g g' : Graph}
    (h : JoinedIfPossible near free s t g) (hx : g.Ext g') (hv : g'.vertex = g.vertex) :
    JoinedIfPossible near free s t g' := by
  intro m0 m1 v1 v2 a1 a2 a3 a4 a5 a6 a7 a8
  rw [hv] at a5 a6
  obtain ⟨e, he, hr⟩ := h m0 m1 v1 v2 a1 a2 a3 a4 a5 a6 a7 a8
  exact ⟨e, hx.2.1.subset he, hr⟩

theorem connectMultiSlice2D_sat {freeMulti : ℕ → ℕ → Vec → Vec → Res Bool} {gap : ℝ} {n : ℕ}
    {idx : List VertexIdx} {g : Graph} {Acc : Vec → Vec → Prop} (hdim : ∀ v ∈ g.vertex, v.length = 3)
    (hacc : ∀ (i j : ℕ) (s t : VertexIdx) (m0 m1 : ℕ) (a b : Vec), idx[i]? = some s → idx[j]? = some t →
      (s.startId ≤ m0 ∧ m0 < s.slice) → (t.startId ≤ m1 ∧ m1 < t.slice) → g.vertex[m0]? = some a → g.vertex[m1]? = some b →
      freeMulti i j a b = .ok true → Acc a b)
    (htot : tot → idx.length = n ∧ n ≠ 2 ∧ (∀ s ∈ idx, s.slice ≤ g.vertex.length) ∧
      ∀ i < idx.length, ∀ j < idx.length, TotalOn 3 (freeMulti i j)) :
    Res.Sat tot (connectMultiSlice2D freeMulti gap n idx g) (fun g' => Grow (fun _ => False) Acc g g' ∧
      (idx.length ≠ 1 → ∀ (i : ℕ) (s t : VertexIdx), idx[i]? = some s → idx[partner2D n i]? = some t →
        JoinedIfPossible (near2D gap) (freeMulti i (partner2D n i)) s t g')) := by
  unfold connectMultiSlice2D
  split
  · rename_i h1
    exact Res.Sat.ok ⟨.refl, fun h => absurd h1 h⟩
  refine (multiFold_sat (Acc := Acc) (Q := fun i g' => ∀ (s t : VertexIdx), idx[i]? = some s →
      idx[partner2D n i]? = some t → JoinedIfPossible (near2D gap) (freeMulti i (partner2D n i)) s t g')
      idx.length g ?_ ?_).mono ?_
  · intro i g1 g2 h hx hv s t hs ht
    exact (h s t hs ht).mono hx hv
  · intro i hi g1 hv
    unfold multiStep2D
    refine Res.Sat.bind (Res.Sat.at' fun _ => hi) ?_
    intro s hs
    refine Res.Sat.bind (Res.Sat.at' fun t => ?_) ?_
    · obtain ⟨hn, h2, -⟩ := htot t
      unfold partner2D
      split <;> omega
    intro t ht
    have hp : partner2D n i < idx.length := (List.getElem?_eq_some_iff.1 ht).1
    refine (matchRanges_full (dim := 3) isGet_idx isGet_idx _ _ _ _ g1 (hv ▸ hdim)
      (fun m0 m1 a b r0 r1 e0 e1 h => hacc i _ s t m0 m1 a b hs ht r0 r1 (hv ▸ e0) (hv ▸ e1) h)
      (fun q => hv ▸ (htot q).2.2.1 s (List.mem_of_getElem? hs))
      (fun q => hv ▸ (htot q).2.2.1 t (List.mem_of_getElem? ht)) (fun _ => near2D_total gap)
      (fun q => (htot q).2.2.2 _ hi _ hp)).mono ?_
    rintro g2 ⟨k1, k2⟩
    refine ⟨k1, fun s' t' hs' ht' => ?_⟩
    rw [hs] at hs'; rw [ht] at ht'
    obtain rfl := Option.some.inj hs'
    obtain rfl := Option.some.inj ht'
    exact k2
  · rintro g' ⟨k1, k2⟩
    exact ⟨k1, fun _ i s t hs ht => k2 i (List.getElem?_eq_some_iff.1 hs).1 s t hs ht⟩

theorem connectMultiSlice3D_sat {dist : ℕ → ℕ → ℝ} {freeMulti : ℕ → ℕ → Vec → Vec → Res Bool}
    {gapX gapY : ℝ} {n : ℕ} {idx : List VertexIdx} {g : Graph} {Acc : Vec → Vec → Prop}
    (hdim : ∀ v ∈ g.vertex, v.length = dim)
    (hacc : ∀ (i j : ℕ) (s t : VertexIdx) (m0 m1 : ℕ) (a b : Vec), idx[i]? = some s → idx[j]? = some t →
      (t.startId ≤ m0 ∧ m0 < t.slice) → (s.startId ≤ m1 ∧ m1 < s.slice) → g.vertex[m0]? = some a → g.vertex[m1]? = some b →
      freeMulti i j a b = .ok true → Acc a b)
    (htot : tot → idx.length = n ∧ 2 ≤ dim ∧ (∀ s ∈ idx, s.slice ≤ g.vertex.length) ∧
      ∀ i < idx.length, ∀ j < idx.length, TotalOn dim (freeMulti i j)) :
    Res.Sat tot (connectMultiSlice3D dist freeMulti gapX gapY n idx g)
      (fun g' => Grow (fun _ => False) Acc g g' ∧
      (idx.length ≠ 1 → ∀ (i : ℕ) (s t : VertexIdx), idx[i]? = some s →
        idx[nearestSlice3D dist i n]? = some t →
        JoinedIfPossible (near3D gapX gapY) (freeMulti i (nearestSlice3D dist i n)) t s g')) := by
  unfold connectMultiSlice3D
  split
  · rename_i h1
    exact Res.Sat.ok ⟨.refl, fun h => absurd h1 h⟩
  refine (multiFold_sat (Acc := Acc) (Q := fun i g' => ∀ (s t : VertexIdx), idx[i]? = some s →
      idx[nearestSlice3D dist i n]? = some t →
      JoinedIfPossible (near3D gapX gapY) (freeMulti i (nearestSlice3D dist i n)) t s g')
      idx.length g ?_ ?_).mono ?_
  · intro i g1 g2 h hx hv s t hs ht
    exact (h s t hs ht).mono hx hv
  · intro i hi g1 hv
    unfold multiStep3D
    refine Res.Sat.bind (Res.Sat.at' fun _ => hi) ?_
    intro s hs
    refine Res.Sat.bind (Res.Sat.at' fun t => ?_) ?_
    · obtain ⟨hn, -⟩ := htot t
      by_cases h0 : i = 0
      · subst h0; rw [nearestSlice3D_zero]; exact hi
      · have := (nearestSlice3D_spec dist (i := i) (n := n) (by omega) h0).1; omega
    intro t ht
    have hp : nearestSlice3D dist i n < idx.length := (List.getElem?_eq_some_iff.1 ht).1
    refine (matchRanges_full (dim := dim) isGet_at isGet_idx _ _ _ _ g1 (hv ▸ hdim)
      (fun m0 m1 a b r0 r1 e0 e1 h => hacc i _ s t m0 m1 a b hs ht r0 r1 (hv ▸ e0) (hv ▸ e1) h)
      (fun q => hv ▸ (htot q).2.2.1 t (List.mem_of_getElem? ht))
      (fun q => hv ▸ (htot q).2.2.1 s (List.mem_of_getElem? hs))
      (fun q => near3D_total gapX gapY (htot q).2.1)
      (fun q => (htot q).2.2.2 _ hi _ hp)).mono ?_
    rintro g2 ⟨k1, k2⟩
    refine ⟨k1, fun s' t' hs' ht' => ?_⟩
    rw [hs] at hs'; rw [ht] at ht'
    obtain rfl := Option.some.inj hs'
    obtain rfl := Option.some.inj ht'
    exact k2
  · rintro g' ⟨k1, k2⟩
    exact ⟨k1, fun _ i s t hs ht => k2 i (List.getElem?_eq_some_iff.1 hs).1 s t hs ht⟩

/-- The vertices of slice `i` of the 2D planner. -/
def Slice2DV (heading : ℝ) (v : Vec) : Prop := v.length = 3 ∧ v[2]? = some heading

theorem slice2DV_third {h : ℝ} {v w : Vec} {z : ℝ} (hv : Slice2DV h v) (hw : Slice2DV h w)
    (hz : w[2]? = some z) : Slice2DV h (v.set 2 z) := by
  refine ⟨by simpa using hv.1, ?_⟩
  have := hw.2; rw [hz] at this
  obtain rfl := Option.some.inj this
  rw [List.getElem?_set_self (by have := hv.1; omega)]

/-- Everything about the 2D build. -/
theorem buildRoadmap2D_sat {freeSame : ℕ → Vec → Vec → Res Bool}
    {freeMulti : ℕ → ℕ → Vec → Vec → Res Bool} {gap : ℝ} {headings : ℕ → ℝ} {seg : ℕ → FreeSeg} {n : ℕ}
    (htot : tot → n ≠ 2 ∧ (∀ i < n, (seg i).Aligned) ∧ (∀ i < n, TotalOn 3 (freeSame i)) ∧
      ∀ i < n, ∀ j < n, TotalOn 3 (freeMulti i j)) :
    Res.Sat tot (buildRoadmap2D freeSame freeMulti gap headings seg n) (fun r =>
      Grow (fun v => v.length = 3) (EdgeOrigin (fun i => onlyNear (AtHeading (headings i)) (freeSame i))
        (fun i j => onlyNear (FromToHeading (headings i) (headings j)) (freeMulti i j))
        (fun i => RowNeighbours (fun y x => [x, y, headings i]) (seg i)) n) .empty r.1 ∧
      r.2.length = n ∧ Partition r.2 0 r.1.vertex.length ∧
      (∀ (i : ℕ) (x : VertexIdx), r.2[i]? = some x →
        (∃ plane, x.line = [plane] ∧ PlaneOk (fun y x => [x, y, headings i]) (seg i) plane r.1) ∧
        ∀ (m : ℕ) (v : Vec), x.startId ≤ m → m < x.slice → r.1.vertex[m]? = some v →
          v[2]? = some (headings i)) ∧
      (n ≠ 1 → ∀ (i : ℕ) (s t : VertexIdx), r.2[i]? = some s → r.2[partner2D n i]? = some t →
        JoinedIfPossible (near2D gap) (freeMulti i (partner2D n i)) s t r.1)) := by
  unfold buildRoadmap2D
  have hs := buildSlices_sat (tot := tot) (slice := fun i => constructSlice2D (freeSame i) (headings i) (seg i))
    (Vp := fun i => Slice2DV (headings i)) (numSlice := n)
    (Acc := EdgeOrigin (fun i => onlyNear (AtHeading (headings i)) (freeSame i))
        (fun i j => onlyNear (FromToHeading (headings i) (headings j)) (freeMulti i j))
        (fun i => RowNeighbours (fun y x => [x, y, headings i]) (seg i)) n)
    (Info := fun i x g => ∃ plane, x.line = [plane] ∧
      PlaneOk (fun y x => [x, y, headings i]) (seg i) plane g)
    (fun i s g g' ⟨pl, a, b⟩ hx => ⟨pl, a, b.mono hx⟩)
    (fun i hi g => constructSlice2D_sat
      { acc := fun a b ha hb h => Or.inl ⟨i, hi, (if_pos ⟨ha.2, hb.2⟩).trans h⟩
        vdim := fun v h => h.1
        third := fun v w z a b c => slice2DV_third a b c
        total := fun t => (htot t).2.2.1 i hi
        three := fun _ => by norm_num }
      (fun y x => ⟨rfl, rfl⟩) (fun a b h => Or.inr (Or.inr ⟨i, hi, h⟩)) (fun t => (htot t).2.1 i hi))
    .empty
  refine Res.Sat.bind hs ?_
  rintro ⟨g, idx⟩ ⟨k1, k2, k3, k4⟩
  simp only at k1 k2 k3 k4
  have hdim : ∀ v ∈ g.vertex, v.length = 3 :=
    k1.mono (Vp' := fun v => v.length = 3) (fun v ⟨i, _, h⟩ => h.1) (fun _ _ h => h) |>.allV (by simp [Graph.empty])
  refine Res.Sat.bind (connectMultiSlice2D_sat (tot := tot) (Acc := EdgeOrigin (fun i => onlyNear (AtHeading (headings i)) (freeSame i))
        (fun i j => onlyNear (FromToHeading (headings i) (headings j)) (freeMulti i j))
        (fun i => RowNeighbours (fun y x => [x, y, headings i]) (seg i)) n) hdim ?_ ?_) ?_
  · intro i j s t m0 m1 a b hi hj r0 r1 e0 e1 h
    simp only at hi hj e0 e1
    have li := (List.getElem?_eq_some_iff.1 hi).1
    have lj := (List.getElem?_eq_some_iff.1 hj).1
    exact Or.inr (Or.inl ⟨i, by omega, j, by omega, (if_pos ⟨((k4 i s hi).2 m0 a r0.1 r0.2 e0).2,
      ((k4 j t hj).2 m1 b r1.1 r1.2 e1).2⟩).trans h⟩)
  · intro t
    exact ⟨k2, (htot t).1, fun s hs => (k3.bounds.2 s hs).2.2, by simpa only [k2] using (htot t).2.2.2⟩
  · rintro g' ⟨h1, h2⟩
    have hvx := h1.noVertex
    apply Res.Sat.ok
    refine ⟨(k1.mono (fun v ⟨i, _, h⟩ => h.1) fun _ _ h => h).trans
      (h1.mono (fun _ h => h.elim) fun _ _ h => h), k2, ?_, ?_, ?_⟩
    · simp only [hvx]; exact k3
    · intro i x hx
      obtain ⟨⟨pl, a, b⟩, c⟩ := k4 i x hx
      refine ⟨⟨pl, a, b.mono h1.ext⟩, fun m v m1 m2 hv => ?_⟩
      simp only [hvx] at hv
      exact (c m v m1 m2 hv).2
    · intro hn; exact h2 (by simpa only [k2] using hn)

theorem set_third_length {v1 v2 v : Vec} {z : ℝ} (h1 : v1.length = dim) (h2 : v2.length = dim)
    (h : (v2[2]? = some z ∧ v = v1.set 2 z) ∨ (v1[2]? = some z ∧ v = v2.set 2 z)) : v.length = dim := by
  rcases h with ⟨-, rfl⟩ | ⟨-, rfl⟩ <;> simpa

/-- Everything about the 3D build. -/
theorem buildRoadmap3D_sat {dist : ℕ → ℕ → ℝ} {freeSame : ℕ → Vec → Vec → Res Bool}
    {freeMulti : ℕ → ℕ → Vec → Vec → Res Bool} {gapX gapY : ℝ} {mk : ℕ → ℝ → ℝ → ℝ → Vec}
    {seg : ℕ → List (ℝ × FreeSeg)} {n : ℕ} (Q : ℕ → Vec → Prop)
    (hQd : ∀ i v, Q i v → v.length = dim) (hQmk : ∀ i, ∀ p ∈ seg i, ∀ v, Sample (mk i p.1) p.2 v → Q i v)
    (hQ3 : ∀ i v1 v2 v z, (∃ p ∈ seg i, Sample (mk i p.1) p.2 v1) → (∃ p ∈ seg i, Sample (mk i p.1) p.2 v2) →
      freeSame i v1 v2 = .ok false → ((v2[2]? = some z ∧ v = v1.set 2 z) ∨ (v1[2]? = some z ∧ v = v2.set 2 z)) →
      freeSame i v1 v = .ok true → freeSame i v v2 = .ok true → Q i v)
    (htot : tot → 2 < dim ∧ (∀ i < n, seg i ≠ [] ∧ (∀ p ∈ seg i, p.2.Aligned) ∧
        ∀ p ∈ seg i, ∀ q ∈ seg i, p.2.ty.length = q.2.ty.length) ∧
      (∀ i < n, TotalOn dim (freeSame i)) ∧ ∀ i < n, ∀ j < n, TotalOn dim (freeMulti i j)) :
    Res.Sat tot (buildRoadmap3D dist freeSame freeMulti gapX gapY mk seg n) (fun r =>
      Grow (fun v => v.length = dim) (EdgeOrigin (fun i => onlyNear (fun a b => Q i a ∧ Q i b ∧
        ((∃ p ∈ seg i, Sample (mk i p.1) p.2 a) ∨ ∃ p ∈ seg i, Sample (mk i p.1) p.2 b)) (freeSame i))
        (fun i j => onlyNear (fun a b => Q j a ∧ Q i b) (freeMulti i j))
        (fun i a b => ∃ p ∈ seg i, RowNeighbours (mk i p.1) p.2 a b) n) .empty r.1 ∧
      r.2.length = n ∧ Partition r.2 0 r.1.vertex.length ∧
      (∀ (i : ℕ) (x : VertexIdx), r.2[i]? = some x →
        (x.line.length = (seg i).length ∧ ∀ (k : ℕ) (p : ℝ × FreeSeg), (seg i)[k]? = some p →
          ∃ plane, x.line[k]? = some plane ∧ PlaneOk (mk i p.1) p.2 plane r.1) ∧
        ∀ (m : ℕ) (v : Vec), x.startId ≤ m → m < x.slice → r.1.vertex[m]? = some v → Q i v) ∧
      (n ≠ 1 → ∀ (i : ℕ) (s t : VertexIdx), r.2[i]? = some s → r.2[nearestSlice3D dist i n]? = some t →
        JoinedIfPossible (near3D gapX gapY) (freeMulti i (nearestSlice3D dist i n)) t s r.1)) := by
  unfold buildRoadmap3D
  have hs := buildSlices_sat (tot := tot) (slice := fun i => constructSlice3D (freeSame i) (mk i) (seg i))
    (Vp := Q) (numSlice := n)
    (Acc := EdgeOrigin (fun i => onlyNear (fun a b => Q i a ∧ Q i b ∧
        ((∃ p ∈ seg i, Sample (mk i p.1) p.2 a) ∨ ∃ p ∈ seg i, Sample (mk i p.1) p.2 b)) (freeSame i))
        (fun i j => onlyNear (fun a b => Q j a ∧ Q i b) (freeMulti i j))
        (fun i a b => ∃ p ∈ seg i, RowNeighbours (mk i p.1) p.2 a b) n)
    (Info := fun i x g => x.line.length = (seg i).length ∧ ∀ (k : ℕ) (p : ℝ × FreeSeg),
      (seg i)[k]? = some p → ∃ plane, x.line[k]? = some plane ∧ PlaneOk (mk i p.1) p.2 plane g)
    (fun i s g g' ⟨a, b⟩ hx => ⟨a, fun k p hp => by
      obtain ⟨pl, c, d⟩ := b k p hp; exact ⟨pl, c, d.mono hx⟩⟩)
    (fun i hi g => (constructSlice3D_satB (dim := dim) (Vp := fun v => ∃ p ∈ seg i, Sample (mk i p.1) p.2 v) (Vb := Q i)
      { acc := fun a b ha hb hab h => Or.inl ⟨i, hi, (if_pos ⟨ha.elim (fun ⟨p, hp, h⟩ => hQmk i p hp a h) id,
          hb.elim (fun ⟨p, hp, h⟩ => hQmk i p hp b h) id, hab⟩).trans h⟩
        vdim := fun v ⟨p, hp, h⟩ => hQd i v (hQmk i p hp v h)
        total := fun t => (htot t).2.2.1 i hi
        three := fun t => (htot t).1
        bridge := hQ3 i }
      (fun v ⟨p, hp, h⟩ => hQmk i p hp v h) (fun p hp v h => ⟨p, hp, h⟩) (fun p hp a b h => Or.inr (Or.inr ⟨i, hi, p, hp, h⟩)) (fun t => (htot t).2.1 i hi) g))
    .empty
  refine Res.Sat.bind hs ?_
  rintro ⟨g, idx⟩ ⟨k1, k2, k3, k4⟩
  simp only at k1 k2 k3 k4
  have hdim : ∀ v ∈ g.vertex, v.length = dim :=
    k1.mono (Vp' := fun v => v.length = dim) (fun v ⟨i, _, h⟩ => hQd i v h) (fun _ _ h => h)
      |>.allV (by simp [Graph.empty])
  refine Res.Sat.bind (connectMultiSlice3D_sat (tot := tot) (dim := dim) (Acc := EdgeOrigin (fun i => onlyNear (fun a b => Q i a ∧ Q i b ∧
        ((∃ p ∈ seg i, Sample (mk i p.1) p.2 a) ∨ ∃ p ∈ seg i, Sample (mk i p.1) p.2 b)) (freeSame i))
        (fun i j => onlyNear (fun a b => Q j a ∧ Q i b) (freeMulti i j))
        (fun i a b => ∃ p ∈ seg i, RowNeighbours (mk i p.1) p.2 a b) n) hdim ?_ ?_) ?_
  · intro i j s t m0 m1 a b hi hj r0 r1 e0 e1 h
    simp only at hi hj e0 e1
    have li := (List.getElem?_eq_some_iff.1 hi).1
    have lj := (List.getElem?_eq_some_iff.1 hj).1
    exact Or.inr (Or.inl ⟨i, by omega, j, by omega, (if_pos ⟨(k4 j t hj).2 m0 a r0.1 r0.2 e0,
      (k4 i s hi).2 m1 b r1.1 r1.2 e1⟩).trans h⟩)
  · intro t
    exact ⟨k2, by have := (htot t).1; omega, fun s hs => (k3.bounds.2 s hs).2.2, by simpa only [k2] using (htot t).2.2.2⟩
  · rintro g' ⟨h1, h2⟩
    have hvx := h1.noVertex
    apply Res.Sat.ok
    refine ⟨(k1.mono (fun v ⟨i, _, h⟩ => hQd i v h) fun _ _ h => h).trans
      (h1.mono (fun _ h => h.elim) fun _ _ h => h), k2, ?_, ?_, ?_⟩
    · simp only [hvx]; exact k3
    · intro i x hx
      obtain ⟨⟨a, b⟩, c⟩ := k4 i x hx
      refine ⟨⟨a, fun k p hp => ?_⟩, fun m v m1 m2 hv => ?_⟩
      · obtain ⟨pl, d, e⟩ := b k p hp
        exact ⟨pl, d, e.mono h1.ext⟩
      · simp only [hvx] at hv
        exact c m v m1 m2 hv
    · intro hn; exact h2 (by simpa only [k2] using hn)

theorem probConnect_sat {dist : ℕ → ℝ} {freeMulti : ℕ → Vec → Vec → Res Bool}
    {gapX gapY : ℝ} {n : ℕ} {idx : List VertexIdx} {g : Graph} {Acc : Vec → Vec → Prop}
    (hdim : ∀ v ∈ g.vertex, v.length = dim)
    (hacc : ∀ (s t : VertexIdx) (m0 m1 : ℕ) (a b : Vec), idx[n - 1]? = some s → idx[probNearest dist n]? = some t →
      (t.startId ≤ m0 ∧ m0 < t.slice) → (s.startId ≤ m1 ∧ m1 < s.slice) → g.vertex[m0]? = some a → g.vertex[m1]? = some b →
      freeMulti (probNearest dist n) a b = .ok true → Acc a b)
    (htot : tot → idx.length = n ∧ n ≠ 0 ∧ 2 ≤ dim ∧ (∀ s ∈ idx, s.slice ≤ g.vertex.length) ∧
      ∀ j, TotalOn dim (freeMulti j)) :
    Res.Sat tot (probConnect dist freeMulti gapX gapY n idx g)
      (fun g' => Grow (fun _ => False) Acc g g' ∧
      (n ≠ 1 → ∀ (s t : VertexIdx), idx[n - 1]? = some s → idx[probNearest dist n]? = some t →
        JoinedIfPossible (near3D gapX gapY) (freeMulti (probNearest dist n)) t s g')) := by
  unfold probConnect
  split
  · rename_i h1
    exact Res.Sat.ok ⟨.refl, fun h => absurd h1 h⟩
  rename_i h1
  refine Res.Sat.bind (Res.Sat.at' fun t => by have := htot t; omega) ?_
  intro s hs
  refine Res.Sat.bind (Res.Sat.at' fun t => ?_) ?_
  · obtain ⟨hn, h0, -⟩ := htot t
    have := (probNearest_spec dist (n := n) (by omega)).1; omega
  intro t ht
  refine (matchRanges_full (dim := dim) isGet_at isGet_at _ _ _ _ g hdim
    (fun m0 m1 a b => hacc s t m0 m1 a b hs ht)
    (fun q => (htot q).2.2.2.1 t (List.mem_of_getElem? ht))
    (fun q => (htot q).2.2.2.1 s (List.mem_of_getElem? hs))
    (fun q => near3D_total gapX gapY (htot q).2.2.1)
    (fun q => (htot q).2.2.2.2 _)).mono ?_
  rintro g2 ⟨k1, k2⟩
  refine ⟨k1, fun _ s' t' hs' ht' => ?_⟩
  rw [hs] at hs'; rw [ht] at ht'
  obtain rfl := Option.some.inj hs'
  obtain rfl := Option.some.inj ht'
  exact k2

/-- One step of a history from a well-formed roadmap. -/
theorem RoadOp.run_sat (op : RoadOp) (hd : op.Dim dim) (g : Graph) (hg : g.Ok dim) :
    Res.Sat False (op.run g) (Grow (fun v => v.length = dim) (fun _ _ => True) g) := by
  have weak : ∀ {g'}, Grow (fun _ => False) (fun _ _ => True) g g' →
      Grow (fun v => v.length = dim) (fun _ _ => True) g g' :=
    fun h => h.mono (fun _ h => h.elim) fun _ _ h => h
  have H : ∀ free, LinkHyp False dim (fun v => v.length = dim) (fun _ _ => True) free := fun free =>
    { acc := fun _ _ _ _ _ => trivial
      vdim := fun _ h => h
      third := fun v w z a b c => by simpa using a
      total := fun h => h.elim
      three := fun h => h.elim }
  cases op with
  | slice2D free angle fs =>
    obtain rfl : dim = 3 := hd
    exact Res.Sat.bind (constructSlice2D_sat (H free) (fun _ _ => rfl) (fun _ _ _ => trivial)
      (fun h => h.elim)) fun r hr => Res.Sat.ok hr.1
  | slice3D free mk planes =>
    exact Res.Sat.bind (constructSlice3D_sat (H free) (fun p _ => Sample.all (hd p.1)) (fun _ _ _ _ _ => trivial)
      (fun h => h.elim) g) fun r hr => Res.Sat.ok hr.1
  | multi2D freeMulti gap numSlice idx =>
    unfold RoadOp.run connectMultiSlice2D
    dsimp only
    split
    · exact Res.Sat.ok .refl
    refine (multiSlices_sat (Acc := fun _ _ => True) ?_).mono fun _ => weak
    intro i hi g' hv
    unfold multiStep2D
    refine Res.Sat.bind (Res.Sat.at' fun h => h.elim) fun s _ => ?_
    refine Res.Sat.bind (Res.Sat.at' fun h => h.elim) fun t _ => ?_
    exact (matchRanges_sat (dim := dim) isGet_idx isGet_idx _ _ _ _ g' (hv ▸ hg.dims) (fun _ _ _ _ _ _ _ _ _ _ => trivial)
      (fun h => h.elim) (fun h => h.elim) (fun h => h.elim) (fun h => h.elim)).mono fun _ h => h.1
  | multi3D dist freeMulti gapX gapY numSlice idx =>
    exact (connectMultiSlice3D_sat hg.dims (by intros; trivial) (fun h => h.elim)).mono
      fun _ h => weak h.1
  | exist near free idx idxAll sliceId =>
    unfold RoadOp.run connectExistSlice
    dsimp only
    refine Res.Sat.bind (Res.Sat.at' fun h => h.elim) fun s _ => ?_
    split
    · exact Res.Sat.fail_ub id
    refine Res.Sat.bind (Res.Sat.at' fun h => h.elim) fun t _ => ?_
    exact (matchRanges_sat (dim := dim) isGet_idx isGet_idx _ _ _ _ g hg.dims (fun _ _ _ _ _ _ _ _ _ _ => trivial)
      (fun h => h.elim) (fun h => h.elim) (fun h => h.elim) (fun h => h.elim)).mono fun _ h => weak h.1
  | prob dist freeMulti gapX gapY numSlice idx =>
    exact (probConnect_sat hg.dims (fun _ _ _ _ _ _ _ _ _ _ _ _ _ => trivial) (fun h => h.elim)).mono fun _ h => weak h.1

/-- Where the rows begin. -/
theorem generateVertices_starts {mk : ℝ → ℝ → Vec} {ty : List ℝ} {rows : List (SegRow ℝ)} {g : Graph}
    {s : GenState} (h : generateVertices mk ty rows g = .ok s) :
    s.2.length = ty.length ∧ ∀ (i n : ℕ), s.2[i]? = some n →
      n = g.vertex.length + ((rows.take i).map (fun r => r.M.length)).sum := by
  have key : Res.Sat False (generateVertices mk ty rows g) (fun s => s.2.length = ty.length ∧
      s.1.vertex.length = g.vertex.length + ((rows.take ty.length).map (fun r => r.M.length)).sum ∧
      ∀ (i n : ℕ), s.2[i]? = some n →
      n = g.vertex.length + ((rows.take i).map (fun r => r.M.length)).sum) := by
    unfold generateVertices
    refine Res.Sat.foldlM_range (P := fun k s => s.2.length = k ∧
      s.1.vertex.length = g.vertex.length + ((rows.take k).map (fun r => r.M.length)).sum ∧
      ∀ (i n : ℕ), s.2[i]? = some n →
      n = g.vertex.length + ((rows.take i).map (fun r => r.M.length)).sum) ty.length ?_ (g, [])
      ⟨rfl, by simp, by simp⟩
    rintro ⟨g1, pl⟩ i hi ⟨h1, h2, h3⟩
    simp only at h1 h2 h3
    unfold genRow
    refine Res.Sat.bind (Res.Sat.idx fun t => t.elim) fun y _ => ?_
    refine Res.Sat.bind (Res.Sat.idx fun t => t.elim) fun r hr => ?_
    apply Res.Sat.ok
    simp only
    refine ⟨by simp [h1], ?_, ?_⟩
    · rw [foldl_addVertex, List.take_add_one, hr]
      simp [h2, Nat.add_assoc]
    · intro k n hn
      rcases Nat.lt_or_ge k pl.length with hk | hk
      · rw [List.getElem?_append_left hk] at hn; exact h3 k n hn
      · rw [List.getElem?_append_right hk] at hn
        cases hkk : k - pl.length with
        | zero =>
          rw [hkk] at hn
          simp at hn
          have : k = i := by omega
          subst this
          omega
        | succ m => rw [hkk] at hn; simp at hn
  obtain ⟨a, -, c⟩ := key.1 s h
  exact ⟨a, c⟩

/-! ### The metric -/

theorem euclid_nil : euclid [] [] = 0 := by simp [euclid]

/-- Norm of a list. -/
noncomputable def nrm (l : Vec) : ℝ := Real.sqrt ((l.map (· ^ 2)).sum)

theorem sumsq_nonneg (l : Vec) : 0 ≤ (l.map (· ^ 2)).sum := by
  induction l with
  | nil => simp
  | cons x l ih => simp only [List.map_cons, List.sum_cons]; positivity

theorem nrm_cons (x : ℝ) (l : Vec) : nrm (x :: l) = Real.sqrt (x ^ 2 + nrm l ^ 2) := by
  unfold nrm
  rw [Real.sq_sqrt (sumsq_nonneg l)]; simp

theorem euclid_eq_nrm (a b : Vec) : euclid a b = nrm (List.zipWith (· - ·) a b) := by
  unfold euclid nrm
  rw [List.map_zipWith]

/-- Minkowski's inequality in the plane. -/
theorem sqrt_add_le (x y p q : ℝ) (hp : 0 ≤ p) (hq : 0 ≤ q) :
    Real.sqrt ((x + y) ^ 2 + (p + q) ^ 2) ≤ Real.sqrt (x ^ 2 + p ^ 2) + Real.sqrt (y ^ 2 + q ^ 2) := by
  rw [Real.sqrt_le_left (by positivity), add_sq (Real.sqrt _), Real.sq_sqrt (by positivity),
    Real.sq_sqrt (by positivity)]
  have h : x * y + p * q ≤ Real.sqrt (x ^ 2 + p ^ 2) * Real.sqrt (y ^ 2 + q ^ 2) := by
    rw [← Real.sqrt_mul (by positivity)]
    apply Real.le_sqrt_of_sq_le
    nlinarith [sq_nonneg (x * q - y * p)]
  nlinarith

theorem nrm_add_le : ∀ (a b : Vec), a.length = b.length →
    nrm (List.zipWith (· + ·) a b) ≤ nrm a + nrm b
  | [], [], _ => by simp [nrm]
  | [], _ :: _, h => by simp at h
  | _ :: _, [], h => by simp at h
  | x :: a, y :: b, h => by
    have ih := nrm_add_le a b (by simpa using h)
    rw [List.zipWith_cons_cons, nrm_cons, nrm_cons, nrm_cons]
    refine le_trans (Real.sqrt_le_sqrt ?_) (sqrt_add_le x y (nrm a) (nrm b) (Real.sqrt_nonneg _)
      (Real.sqrt_nonneg _))
    have h0 : 0 ≤ nrm (List.zipWith (· + ·) a b) := Real.sqrt_nonneg _
    have := pow_le_pow_left₀ h0 ih 2
    linarith

theorem euclid_nonneg (a b : Vec) : 0 ≤ euclid a b := Real.sqrt_nonneg _

theorem euclid_comm (a b : Vec) : euclid a b = euclid b a := by
  unfold euclid
  congr 2
  rw [List.zipWith_comm]
  congr 1
  funext x y; ring

theorem euclid_self (a : Vec) : euclid a a = 0 := by
  unfold euclid
  rw [List.zipWith_self]
  simp

theorem euclid_eq_zero : ∀ {a b : Vec}, a.length = b.length → (euclid a b = 0 ↔ a = b)
  | [], [], _ => by simp [euclid]
  | [], _ :: _, h => by simp at h
  | _ :: _, [], h => by simp at h
  | x :: a, y :: b, h => by
    have ih := euclid_eq_zero (a := a) (b := b) (by simpa using h)
    rw [euclid_eq_nrm, List.zipWith_cons_cons, nrm_cons, ← euclid_eq_nrm,
      Real.sqrt_eq_zero (by positivity)]
    constructor
    · intro e
      have h1 : (x - y) ^ 2 = 0 := by nlinarith [sq_nonneg (x - y), sq_nonneg (euclid a b)]
      have h2 : euclid a b ^ 2 = 0 := by nlinarith [sq_nonneg (x - y), sq_nonneg (euclid a b)]
      have := ih.1 (by simpa using h2)
      have hx : x = y := by have := pow_eq_zero_iff (n := 2) (by norm_num) |>.1 h1; linarith
      rw [hx, this]
    · intro e
      obtain ⟨rfl, rfl⟩ := List.cons.inj e
      rw [ih.2 rfl]; simp

theorem euclid_triangle {a b c : Vec} (hab : a.length = b.length) (hbc : b.length = c.length) :
    euclid a c ≤ euclid a b + euclid b c := by
  rw [euclid_eq_nrm, euclid_eq_nrm, euclid_eq_nrm]
  refine le_trans (le_of_eq ?_) (nrm_add_le _ _ (by simp [hab, hbc]))
  congr 1
  apply List.ext_getElem
  · simp [hab, hbc]
  · intro i h1 h2
    simp

/-! ### Bridging in the plane has no effect -/

theorem set_self_third {v : Vec} {z : ℝ} (h : v[2]? = some z) : v.set 2 z = v := by
  obtain ⟨hlt, e⟩ := List.getElem?_eq_some_iff.1 h
  subst e
  exact List.set_getElem_self hlt

theorem constructSlice2D_vertices {free : Vec → Vec → Res Bool} {angle : ℝ} {fs : FreeSeg} {g g' : Graph}
    {s : VertexIdx} (h : constructSlice2D free angle fs g = .ok (g', s)) :
    g'.vertex = g.vertex ++
      (List.zipWith (fun y r => r.M.map (fun x => [x, y, angle])) fs.ty fs.rows).flatten := by
  have key : Res.Sat False (constructSlice2D free angle fs g) (fun r => r.1.vertex = g.vertex ++
      (List.zipWith (fun y r => r.M.map (fun x => [x, y, angle])) fs.ty fs.rows).flatten) := by
    unfold constructSlice2D
    refine Res.Sat.bind (generateVertices_sat (tot := False) (Vp := Slice2DV angle)
      (Acc := fun _ _ => True) (mk := fun y x => [x, y, angle]) (fs := fs) (g := g)
      (Sample.all fun _ _ => ⟨rfl, rfl⟩) (fun h => h.elim)) ?_
    rintro s ⟨-, hp, -, -, hv⟩
    refine Res.Sat.bind (connectOneSlice2D_satB (tot := False) (dim := 3) (Vp := Slice2DV angle)
      (Vb := fun _ => False) (Acc := fun _ _ => True) (free := free)
      { acc := fun _ _ _ _ _ _ => trivial
        vdim := fun v h => h.1
        total := fun h => h.elim
        three := fun h => h.elim
        bridge := ?_ } (mk := fun y x => [x, y, angle]) (Sample.all fun _ _ => ⟨rfl, rfl⟩)
        (fun _ _ _ => trivial) hp (fun h => h.elim)) ?_
    · rintro v1 v2 v z p1 p2 hrej (⟨hz, rfl⟩ | ⟨hz, rfl⟩) f1 f2
      · have : z = angle := by have := p2.2; rw [hz] at this; exact Option.some.inj this
        subst this
        rw [set_self_third p1.2, hrej] at f2; simp at f2
      · have : z = angle := by have := p1.2; rw [hz] at this; exact Option.some.inj this
        subst this
        rw [set_self_third p2.2, hrej] at f1; simp at f1
    · intro g' hg'
      apply Res.Sat.ok
      simp only
      rw [hg'.noVertex, hv]
  exact key.1 _ h

theorem buildRoadmap2D_vertices {freeSame : ℕ → Vec → Vec → Res Bool}
    {freeMulti : ℕ → ℕ → Vec → Vec → Res Bool} {gap : ℝ} {headings : ℕ → ℝ} {seg : ℕ → FreeSeg} {n : ℕ}
    {g : Graph} {idx : List VertexIdx}
    (h : buildRoadmap2D freeSame freeMulti gap headings seg n = .ok (g, idx)) :
    g.vertex = (List.range n).flatMap (fun i => (List.zipWith
      (fun y r => r.M.map (fun x => [x, y, headings i])) (seg i).ty (seg i).rows).flatten) := by
  have key : Res.Sat False (buildRoadmap2D freeSame freeMulti gap headings seg n) (fun r =>
      r.1.vertex = (List.range n).flatMap (fun i => (List.zipWith
      (fun y r => r.M.map (fun x => [x, y, headings i])) (seg i).ty (seg i).rows).flatten)) := by
    unfold buildRoadmap2D
    refine Res.Sat.bind (Q := fun s => s.1.vertex = (List.range n).flatMap (fun i => (List.zipWith
      (fun y r => r.M.map (fun x => [x, y, headings i])) (seg i).ty (seg i).rows).flatten)) ?_ ?_
    · unfold buildSlices
      refine Res.Sat.foldlM_range (P := fun k (s : Graph × List VertexIdx) => s.1.vertex =
        (List.range k).flatMap (fun i => (List.zipWith
        (fun y r => r.M.map (fun x => [x, y, headings i])) (seg i).ty (seg i).rows).flatten)) n ?_ _ ?_
      · intro s i hi hs
        beta_reduce
        cases hc : constructSlice2D (freeSame i) (headings i) (seg i) s.1 with
        | ok r =>
          apply Res.Sat.ok
          simp only
          rw [constructSlice2D_vertices hc, hs, List.range_succ, List.flatMap_append]
          simp
        | throw => exact Res.Sat.fail_throw id
        | ub => exact Res.Sat.fail_ub id
      · simp [Graph.empty]
    · intro s hs
      have hdim : ∀ v ∈ s.1.vertex, v.length = 3 := by
        rw [hs]
        intro v hv
        simp only [List.mem_flatMap, List.mem_flatten] at hv
        obtain ⟨i, -, l, hl, hv⟩ := hv
        obtain ⟨k, hk⟩ := List.mem_iff_getElem?.1 hl
        rw [List.getElem?_zipWith] at hk
        cases hy : (seg i).ty[k]? with
        | none => rw [hy] at hk; simp at hk
        | some y =>
          cases hr : (seg i).rows[k]? with
          | none => rw [hy, hr] at hk; simp at hk
          | some r =>
            rw [hy, hr] at hk
            simp at hk
            subst hk
            obtain ⟨x, -, rfl⟩ := List.mem_map.1 hv
            rfl
      refine Res.Sat.bind (connectMultiSlice2D_sat (tot := False) (Acc := fun _ _ => True) hdim
        (by intros; trivial) (fun h => h.elim)) ?_
      rintro g' ⟨h1, -⟩
      apply Res.Sat.ok
      simp only
      rw [h1.noVertex, hs]
  exact key.1 _ h

end Hrm
