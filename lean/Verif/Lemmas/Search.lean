import Verif.Lemmas.Roadmap
import Verif.Spec.Search
import Mathlib.Data.Fintype.Card

/-! # Correctness of A* with a consistent heuristic -/

namespace Hrm

/-- `v` is reachable from `s` by a walk of length `L`. -/
inductive Walk (adj : ℕ → List (ℕ × ℝ)) (s : ℕ) : ℕ → ℝ → Prop
  | nil : Walk adj s s 0
  | snoc {u : ℕ} {L : ℝ} (v : ℕ) (w : ℝ) : Walk adj s u L → (v, w) ∈ adj u → Walk adj s v (L + w)

/-- What the search needs of the graph: non-negative weights, a consistent heuristic, vertices below
`n`. -/
structure AGraph (adj : ℕ → List (ℕ × ℝ)) (h : ℕ → ℝ) (n : ℕ) : Prop where
  nonneg : ∀ u e, e ∈ adj u → 0 ≤ e.2
  cons : ∀ u e, e ∈ adj u → h u ≤ e.2 + h e.1
  bound : ∀ u e, e ∈ adj u → e.1 < n

variable {adj : ℕ → List (ℕ × ℝ)} {h : ℕ → ℝ} {s n : ℕ}

theorem Walk.nonneg (G : AGraph adj h n) {v : ℕ} {L : ℝ} (hw : Walk adj s v L) : 0 ≤ L := by
  induction hw with
  | nil => exact le_rfl
  | snoc v w _ he ih => have := G.nonneg _ _ he; linarith

theorem Walk.bound (G : AGraph adj h n) (hs : s < n) {v : ℕ} {L : ℝ} (hw : Walk adj s v L) : v < n := by
  cases hw with
  | nil => exact hs
  | snoc v w _ he => exact G.bound _ _ he

/-- Invariant of the search; `C` are the closed vertices, newest first, `rl u` the out-edges of the
closed vertex `u` relaxed so far. -/
structure Inv (adj rl : ℕ → List (ℕ × ℝ)) (s : ℕ) (C : List ℕ) (st : AState) : Prop where
  ds : st.d s = some 0
  walk : ∀ v x, st.d v = some x → Walk adj s v x
  qd : ∀ v ∈ st.q, st.d v ≠ none
  qc : ∀ v ∈ st.q, v ∉ C
  qn : st.q.Nodup
  dq : ∀ v, st.d v ≠ none → v ∈ st.q ∨ v ∈ C
  rel : ∀ u ∈ C, ∀ x, st.d u = some x → ∀ e ∈ rl u, ∃ y, st.d e.1 = some y ∧ y ≤ x + e.2
  cd : ∀ u ∈ C, st.d u ≠ none
  opt : ∀ u ∈ C, ∀ x, st.d u = some x → ∀ L, Walk adj s u L → x ≤ L
  cn : C.Nodup
  pre : ∀ v x, st.d v = some x → v = s ∨ (st.p v ∈ C ∧ ∃ z w, (v, w) ∈ adj (st.p v) ∧
    st.d (st.p v) = some z ∧ x = z + w)
  ord : ∀ u C', (u :: C') <:+ C → u = s ∨ st.p u ∈ C'

theorem Inv.init (adj : ℕ → List (ℕ × ℝ)) (s : ℕ) : Inv adj adj s [] (AState.init s) := by
  have hd : ∀ v x, (AState.init s).d v = some x → v = s ∧ x = 0 := by
    intro v x hx
    simp only [AState.init, Function.update_apply] at hx
    split at hx
    · exact ⟨‹_›, by simpa using hx.symm⟩
    · simp at hx
  refine ⟨by simp [AState.init], ?_, ?_, by simp, by simp [AState.init], ?_, by simp, by simp, by simp,
    by simp, ?_, by simp⟩
  · intro v x hx
    obtain ⟨rfl, rfl⟩ := hd v x hx
    exact .nil
  · intro v hv
    simp only [AState.init, List.mem_singleton] at hv
    subst hv
    simp [AState.init]
  · intro v hv
    obtain ⟨x, hx⟩ := Option.ne_none_iff_exists'.1 hv
    obtain ⟨rfl, -⟩ := hd v x hx
    simp [AState.init]
  · intro v x hx
    exact Or.inl (hd v x hx).1

/-- The key lemma: while `u` is not closed, some queued vertex is at least as promising as any walk to
`u`. -/
theorem Inv.frontier (G : AGraph adj h n) {C : List ℕ} {st : AState} (I : Inv adj adj s C st) {u : ℕ} {L : ℝ}
    (hw : Walk adj s u L) (hu : u ∉ C) :
    ∃ y ∈ st.q, ∃ z, st.d y = some z ∧ z + h y ≤ L + h u := by
  induction hw with
  | nil =>
    rcases I.dq s (by rw [I.ds]; simp) with hq | hc
    · exact ⟨s, hq, 0, I.ds, le_rfl⟩
    · exact absurd hc hu
  | @snoc t L v w ht he ih =>
    by_cases hc : t ∈ C
    · obtain ⟨x, hx⟩ := Option.ne_none_iff_exists'.1 (I.cd t hc)
      obtain ⟨y, hy, hle⟩ := I.rel t hc x hx _ he
      have := I.opt t hc x hx L ht
      rcases I.dq v (by simp only at hy; rw [hy]; simp) with hq | hc'
      · exact ⟨v, hq, y, hy, by simp only at hle; linarith⟩
      · exact absurd hc' hu
    · obtain ⟨y, hy, z, hz, hle⟩ := ih hc
      have := G.cons _ _ he
      simp only at this
      exact ⟨y, hy, z, hz, by linarith⟩

/-- A queued vertex of minimal priority has its final distance. -/
theorem Inv.optimal (G : AGraph adj h n) {C : List ℕ} {st : AState} (I : Inv adj adj s C st) {u : ℕ}
    (hu : u ∈ st.q) (hmin : ∀ x ∈ st.q, st.f h u ≤ st.f h x) {x : ℝ} (hx : st.d u = some x) {L : ℝ}
    (hw : Walk adj s u L) : x ≤ L := by
  obtain ⟨y, hy, z, hz, hle⟩ := I.frontier G hw (I.qc u hu)
  have := hmin y hy
  simp only [AState.f, hx, hz, Option.getD_some] at this
  linarith

/-- Closing a minimal vertex, before its edges are relaxed. -/
theorem Inv.close (G : AGraph adj h n) {C : List ℕ} {st : AState} (I : Inv adj adj s C st) {u : ℕ}
    (hu : u ∈ st.q) (hmin : ∀ x ∈ st.q, st.f h u ≤ st.f h x) :
    Inv adj (Function.update adj u []) s (u :: C) { st with q := st.q.erase u } := by
  have huC := I.qc u hu
  refine ⟨I.ds, I.walk, fun v hv => I.qd v (List.mem_of_mem_erase hv), ?_, I.qn.erase u, ?_, ?_, ?_, ?_, ?_, ?_, ?_⟩
  · intro v hv
    rw [I.qn.mem_erase_iff] at hv
    simp only [List.mem_cons, not_or]
    exact ⟨hv.1, I.qc v hv.2⟩
  · intro v hv
    by_cases e : v = u
    · right; simp [e]
    · rcases I.dq v hv with hq | hc
      · left; exact I.qn.mem_erase_iff.2 ⟨e, hq⟩
      · right; simp [hc]
  · intro a ha x hx e he
    by_cases ea : a = u
    · subst ea; simp at he
    · rw [Function.update_of_ne ea] at he
      have : a ∈ C := by simpa [ea] using ha
      exact I.rel a this x hx e he
  · intro a ha
    rcases List.mem_cons.1 ha with rfl | ha
    · exact I.qd _ hu
    · exact I.cd a ha
  · intro a ha x hx L hL
    rcases List.mem_cons.1 ha with rfl | ha
    · exact I.optimal G hu hmin hx hL
    · exact I.opt a ha x hx L hL
  · exact List.nodup_cons.2 ⟨huC, I.cn⟩
  · intro v x hx
    rcases I.pre v x hx with h | ⟨h1, h2⟩
    · exact Or.inl h
    · exact Or.inr ⟨List.mem_cons_of_mem _ h1, h2⟩
  · intro a C' hs
    rcases List.suffix_cons_iff.1 hs with e | hs
    · obtain ⟨rfl, rfl⟩ := List.cons.inj e
      obtain ⟨x, hx⟩ := Option.ne_none_iff_exists'.1 (I.qd a hu)
      rcases I.pre a x hx with h | ⟨h1, -⟩
      · exact Or.inl h
      · exact Or.inr h1
    · exact I.ord a C' hs

theorem Inv.relaxOne (G : AGraph adj h n) {C done : List _} {st : AState} {u : ℕ}
    (I : Inv adj (Function.update adj u done) s (u :: C) st) {e : ℕ × ℝ} (he : e ∈ adj u) :
    Inv adj (Function.update adj u (done ++ [e])) s (u :: C) (relax u st e) := by
  obtain ⟨du, hdu⟩ := Option.ne_none_iff_exists'.1 (I.cd u (by simp))
  have hwalk : Walk adj s e.1 (du + e.2) := .snoc e.1 e.2 (I.walk u du hdu) he
  unfold relax
  rw [hdu]
  simp only
  split
  · rename_i hlt
    have hvC : e.1 ∉ u :: C := by
      intro hc
      obtain ⟨y, hy⟩ := Option.ne_none_iff_exists'.1 (I.cd _ hc)
      rw [hy] at hlt
      exact absurd (I.opt _ hc y hy _ hwalk) (not_le.2 hlt)
    have hvs : e.1 ≠ s := by
      intro hs
      rw [hs, I.ds] at hlt
      exact absurd (hwalk.nonneg G) (not_le.2 hlt)
    have hne : ∀ a ∈ u :: C, a ≠ e.1 := fun a ha e' => hvC (e' ▸ ha)
    refine ⟨?_, ?_, ?_, ?_, ?_, ?_, ?_, ?_, ?_, I.cn, ?_, ?_⟩
    · simp only; rw [Function.update_of_ne hvs.symm]; exact I.ds
    · intro v x hx
      simp only [Function.update_apply] at hx
      split at hx
      · obtain rfl := Option.some.inj hx; subst v; exact hwalk
      · exact I.walk v x hx
    · intro v hv
      simp only [Function.update_apply]
      split
      · simp
      · rename_i hvne
        simp only at hv
        split at hv
        · exact I.qd v hv
        · rcases List.mem_cons.1 hv with h | h
          · exact absurd h hvne
          · exact I.qd v h
    · intro v hv
      simp only at hv
      split at hv
      · exact I.qc v hv
      · rcases List.mem_cons.1 hv with rfl | h
        · exact hvC
        · exact I.qc v h
    · simp only
      split
      · exact I.qn
      · exact List.nodup_cons.2 ⟨‹_›, I.qn⟩
    · intro v hv
      simp only [Function.update_apply] at hv
      have hmem : ∀ x, x ∈ st.q → x ∈ (if e.1 ∈ st.q then st.q else e.1 :: st.q) := by
        intro x hx; split
        · exact hx
        · exact List.mem_cons_of_mem _ hx
      split at hv
      · left
        subst v
        simp only
        split
        · assumption
        · simp
      · rcases I.dq v hv with h | h
        · exact Or.inl (hmem v h)
        · exact Or.inr h
    · intro a ha x hx e' he'
      simp only at hx
      rw [Function.update_of_ne (hne a ha)] at hx
      have old : ∀ y, st.d e'.1 = some y → y ≤ x + e'.2 →
          ∃ y, Function.update st.d e.1 (some (du + e.2)) e'.1 = some y ∧ y ≤ x + e'.2 := by
        intro y hy hle
        by_cases e1 : e'.1 = e.1
        · rw [e1, Function.update_self]
          rw [← e1, hy] at hlt
          exact ⟨_, rfl, le_trans (le_of_lt hlt) hle⟩
        · rw [Function.update_of_ne e1]; exact ⟨y, hy, hle⟩
      by_cases ea : a = u
      · subst ea
        rw [Function.update_self] at he'
        rcases List.mem_append.1 he' with h | h
        · obtain ⟨y, hy, hle⟩ := I.rel a ha x hx e' (by rw [Function.update_self]; exact h)
          exact old y hy hle
        · obtain rfl := List.mem_singleton.1 h
          rw [hdu] at hx
          obtain rfl := Option.some.inj hx
          simp only
          exact ⟨_, Function.update_self .., le_rfl⟩
      · rw [Function.update_of_ne ea] at he'
        obtain ⟨y, hy, hle⟩ := I.rel a ha x hx e' (by rw [Function.update_of_ne ea]; exact he')
        exact old y hy hle
    · intro a ha
      simp only
      rw [Function.update_of_ne (hne a ha)]
      exact I.cd a ha
    · intro a ha x hx
      simp only at hx
      rw [Function.update_of_ne (hne a ha)] at hx
      exact I.opt a ha x hx
    · intro v x hx
      simp only at hx ⊢
      by_cases ev : v = e.1
      · right
        subst ev
        rw [Function.update_self] at hx
        obtain rfl := Option.some.inj hx
        rw [Function.update_self]
        refine ⟨by simp, du, e.2, he, ?_, rfl⟩
        rw [Function.update_of_ne (hne u (by simp))]; exact hdu
      · rw [Function.update_of_ne ev] at hx
        rw [Function.update_of_ne ev]
        rcases I.pre v x hx with h | ⟨h1, z, w, h2, h3, h4⟩
        · exact Or.inl h
        · refine Or.inr ⟨h1, z, w, h2, ?_, h4⟩
          rw [Function.update_of_ne (hne _ h1)]; exact h3
    · intro a C' hs
      simp only
      rw [Function.update_of_ne (hne a (hs.subset (by simp)))]
      exact I.ord a C' hs
  · rename_i hlt
    refine ⟨I.ds, I.walk, I.qd, I.qc, I.qn, I.dq, ?_, I.cd, I.opt, I.cn, I.pre, I.ord⟩
    intro a ha x hx e' he'
    by_cases ea : a = u
    · subst ea
      rw [Function.update_self] at he'
      rcases List.mem_append.1 he' with h | h
      · exact I.rel a ha x hx e' (by rw [Function.update_self]; exact h)
      · obtain rfl := List.mem_singleton.1 h
        rw [hdu] at hx
        obtain rfl := Option.some.inj hx
        cases hv : st.d e'.1 with
        | none => rw [hv] at hlt; exact absurd trivial hlt
        | some y => rw [hv] at hlt; exact ⟨y, rfl, not_lt.1 hlt⟩
    · rw [Function.update_of_ne ea] at he'
      exact I.rel a ha x hx e' (by rw [Function.update_of_ne ea]; exact he')

theorem Inv.relaxAll (G : AGraph adj h n) {C : List ℕ} {u : ℕ} (todo done : List (ℕ × ℝ)) {st : AState}
    (I : Inv adj (Function.update adj u done) s (u :: C) st) (ht : ∀ e ∈ todo, e ∈ adj u) :
    Inv adj (Function.update adj u (done ++ todo)) s (u :: C) (todo.foldl (relax u) st) := by
  induction todo generalizing done st with
  | nil => simpa using I
  | cons e todo ih =>
    rw [List.foldl_cons, show done ++ e :: todo = (done ++ [e]) ++ todo by simp]
    exact ih (done ++ [e]) (I.relaxOne G (ht e (by simp))) fun e he => ht e (by simp [he])

/-- One iteration. -/
theorem Inv.step (G : AGraph adj h n) {C : List ℕ} {st : AState} (I : Inv adj adj s C st) {u : ℕ}
    (hu : u ∈ st.q) (hmin : ∀ x ∈ st.q, st.f h u ≤ st.f h x) :
    Inv adj adj s (u :: C) ((adj u).foldl (relax u) { st with q := st.q.erase u }) := by
  have := (I.close G hu hmin).relaxAll G (adj u) [] fun e he => he
  simpa using this

/-- Outcome of the main loop: with more iterations than vertices left it ends, either in a state where
the goal has its final distance, or with the goal unreachable. -/
theorem astarLoop_spec (G : AGraph adj h n) (hs : s < n) {pick : ℕ → (ℕ → ℝ) → List ℕ → ℕ} (hp : HeapTop pick)
    (goal : ℕ) : ∀ (k : ℕ) (st : AState) (C : List ℕ), Inv adj adj s C st → goal ∉ C → n < k + C.length →
    (astarLoop adj h pick goal k st = some none ∧ ∀ L, ¬ Walk adj s goal L) ∨
    ∃ st' C' x, astarLoop adj h pick goal k st = some (some st') ∧ Inv adj adj s C' st' ∧
      goal ∉ C' ∧ st'.d goal = some x ∧ ∀ L, Walk adj s goal L → x ≤ L := by
  intro k
  induction k with
  | zero =>
    intro st C I _ hk
    exfalso
    have hsub : C ⊆ List.range n := by
      intro c hc
      obtain ⟨x, hx⟩ := Option.ne_none_iff_exists'.1 (I.cd c hc)
      exact List.mem_range.2 ((I.walk c x hx).bound G hs)
    have := (List.subperm_of_subset I.cn hsub).length_le
    simp at this
    omega
  | succ k ih =>
    intro st C I hg hk
    unfold astarLoop
    by_cases hq : st.q = []
    · rw [if_pos hq]
      refine Or.inl ⟨rfl, fun L hL => ?_⟩
      obtain ⟨y, hy, -⟩ := I.frontier G hL hg
      rw [hq] at hy; simp at hy
    · rw [if_neg hq]
      obtain ⟨h1, h2⟩ := hp k (st.f h) st.q hq
      dsimp only
      by_cases hgoal : pick k (st.f h) st.q = goal
      · rw [if_pos hgoal]
        rw [hgoal] at h1 h2
        obtain ⟨x, hx⟩ := Option.ne_none_iff_exists'.1 (I.qd goal h1)
        exact Or.inr ⟨st, C, x, rfl, I, hg, hx, fun L hL => I.optimal G h1 h2 hx hL⟩
      · rw [if_neg hgoal]
        refine ih _ _ (I.step G h1 h2) ?_ (by simp; omega)
        simp only [List.mem_cons, not_or]
        exact ⟨fun e => hgoal e.symm, hg⟩

/-! ### The predecessor chain -/

/-- The chain of predecessors from a vertex back to `s`. -/
inductive Back (p : ℕ → ℕ) (s : ℕ) : List ℕ → Prop
  | base : Back p s [s]
  | cons (a : ℕ) (l : List ℕ) : a ≠ s → Back p s (p a :: l) → Back p s (a :: p a :: l)

/-- A chain with its length. -/
inductive BackLen (adj : ℕ → List (ℕ × ℝ)) (p : ℕ → ℕ) (s : ℕ) : List ℕ → ℝ → Prop
  | base : BackLen adj p s [s] 0
  | cons (a : ℕ) (l : List ℕ) (w L : ℝ) : a ≠ s → BackLen adj p s (p a :: l) L → (a, w) ∈ adj (p a) →
      BackLen adj p s (a :: p a :: l) (L + w)

theorem BackLen.back {p : ℕ → ℕ} {l : List ℕ} {L : ℝ} (hb : BackLen adj p s l L) : Back p s l := by
  induction hb with
  | base => exact .base
  | cons a l w L ha _ _ ih => exact .cons a l ha ih

theorem Inv.chainClosed {C : List ℕ} {st : AState} (I : Inv adj adj s C st) :
    ∀ (B : List ℕ) (v : ℕ) (x : ℝ), v ∈ B → B <:+ C → st.d v = some x →
    ∃ l, BackLen adj st.p s l x ∧ l.head? = some v ∧ l.Nodup ∧ ∀ a ∈ l, a ∈ B := by
  intro B
  induction B with
  | nil => intro v x hv; simp at hv
  | cons b B ih =>
    intro v x hv hs hx
    have hs' : B <:+ C := (List.suffix_cons b B).trans hs
    rcases List.mem_cons.1 hv with rfl | hv
    · by_cases e : v = s
      · subst e
        rw [I.ds] at hx; obtain rfl := Option.some.inj hx
        exact ⟨[v], .base, rfl, by simp, by simp⟩
      · have hp : st.p v ∈ B := (I.ord v B hs).resolve_left e
        obtain ⟨-, z, w, h1, h2, rfl⟩ := (I.pre v x hx).resolve_left e
        obtain ⟨l, k1, k2, k3, k4⟩ := ih (st.p v) z hp hs' h2
        obtain ⟨t, rfl⟩ : ∃ t, l = st.p v :: t := by
          cases l with
          | nil => simp at k2
          | cons a t => simp at k2; exact ⟨t, by rw [k2]⟩
        refine ⟨v :: st.p v :: t, .cons v t w z e k1 h1, rfl, ?_, ?_⟩
        · refine List.nodup_cons.2 ⟨fun hm => ?_, k3⟩
          have hvB := k4 v hm
          have := I.cn.sublist hs.sublist
          exact (List.nodup_cons.1 this).1 hvB
        · intro a ha
          rcases List.mem_cons.1 ha with rfl | ha
          · simp
          · exact List.mem_cons_of_mem _ (k4 a ha)
    · obtain ⟨l, k1, k2, k3, k4⟩ := ih v x hv hs' hx
      exact ⟨l, k1, k2, k3, fun a ha => List.mem_cons_of_mem _ (k4 a ha)⟩

theorem Inv.chain {C : List ℕ} {st : AState} (I : Inv adj adj s C st) {v : ℕ} {x : ℝ}
    (hv : v ∉ C) (hx : st.d v = some x) :
    ∃ l, BackLen adj st.p s (v :: l) x ∧ (v :: l).Nodup ∧ ∀ a ∈ l, a ∈ C := by
  by_cases e : v = s
  · subst e
    rw [I.ds] at hx; obtain rfl := Option.some.inj hx
    exact ⟨[], .base, by simp, by simp⟩
  · obtain ⟨hp, z, w, h1, h2, rfl⟩ := (I.pre v x hx).resolve_left e
    obtain ⟨l, k1, k2, k3, k4⟩ := I.chainClosed C (st.p v) z hp List.suffix_rfl h2
    obtain ⟨t, rfl⟩ : ∃ t, l = st.p v :: t := by
      cases l with
      | nil => simp at k2
      | cons a t => simp at k2; exact ⟨t, by rw [k2]⟩
    exact ⟨st.p v :: t, .cons v t w z e k1 h1, List.nodup_cons.2 ⟨fun hm => hv (k4 v hm), k3⟩, k4⟩

/-- The back-tracking loop collects exactly the predecessor chain. -/
theorem backtrack_spec {p : ℕ → ℕ} {weight : List ℝ} {m : ℕ} {tot : Prop} :
    ∀ (l : List ℕ) (a : ℕ) (pre : List ℕ) (k : ℕ) (cost : ℝ), Back p s (a :: l) → l.length < k →
      pre.length + l.length ≤ m → (tot → ∀ x ∈ a :: l, x < weight.length) →
      Res.Sat tot (backtrack p weight s m k (pre ++ [a]) pre.length cost) (fun r =>
        r.1 = pre ++ a :: l ∧ r.2.1 = pre.length + l.length ∧
        (∀ x ∈ (a :: l).dropLast, x < weight.length) ∧
        r.2.2 = cost + ((a :: l).dropLast.map (fun v => weight.getD v 0)).sum) := by
  intro l
  induction l with
  | nil =>
    intro a pre k cost hb hk _ _
    obtain ⟨k, rfl⟩ : ∃ j, k = j + 1 := ⟨k - 1, by simp at hk; omega⟩
    unfold backtrack
    cases hb
    rw [Res.idx_eq_ok.2 (by simp : (pre ++ [s])[pre.length]? = some s), Res.bind_ok', if_neg (by simp)]
    exact Res.Sat.ok ⟨rfl, by simp, by simp, by simp⟩
  | cons b l ih =>
    intro a pre k cost hb hk hm ht
    obtain ⟨k, rfl⟩ : ∃ j, k = j + 1 := ⟨k - 1, by simp at hk; omega⟩
    unfold backtrack
    simp only [List.length_cons] at hm hk
    cases hb with
    | cons _ _ ha hb =>
    rw [Res.idx_eq_ok.2 (by simp : (pre ++ [a])[pre.length]? = some a), Res.bind_ok',
      if_pos ⟨ha, by omega⟩]
    refine Res.Sat.bind (Res.Sat.idx fun t => ht t a (by simp)) ?_
    intro w hw
    have := ih (p a) (pre ++ [a]) k (cost + w) hb (by omega) (by simp; omega)
      (fun t x hx => ht t x (List.mem_cons_of_mem _ hx))
    rw [List.length_append, List.length_singleton] at this
    refine this.mono ?_
    rintro r ⟨h1, h2, h3, h4⟩
    refine ⟨by rw [h1]; simp, by rw [h2]; simp; omega, ?_, ?_⟩
    · intro x hx
      rw [List.dropLast_cons_cons] at hx
      rcases List.mem_cons.1 hx with rfl | hx
      · exact (List.getElem?_eq_some_iff.1 hw).1
      · exact h3 x hx
    · rw [h4, List.dropLast_cons_cons, List.map_cons, List.sum_cons, List.getD_eq_getElem?_getD, hw]
      simp only [Option.getD_some]
      ring

/-! ### The roadmap as a search graph -/

theorem mem_adj {g : Graph} {u v : ℕ} {w : ℝ} : (v, w) ∈ g.adj u ↔ g.Joins u v w := by
  unfold Graph.adj Graph.Joins
  simp only [List.mem_flatMap, List.mem_append]
  constructor
  · rintro ⟨⟨e, w'⟩, hm, hx⟩
    obtain ⟨k, hk⟩ := List.mem_iff_getElem?.1 hm
    rw [List.getElem?_zip_eq_some] at hk
    rcases hx with hx | hx
    · split at hx
      · rename_i hu
        simp at hx hu
        obtain ⟨rfl, rfl⟩ := hx
        exact ⟨k, hk.2, Or.inl (by rw [hk.1, ← hu])⟩
      · simp at hx
    · split at hx
      · rename_i hu
        simp at hx hu
        obtain ⟨rfl, rfl⟩ := hx
        exact ⟨k, hk.2, Or.inr (by rw [hk.1, ← hu])⟩
      · simp at hx
  · rintro ⟨k, hw, he | he⟩
    · refine ⟨((u, v), w), List.mem_iff_getElem?.2 ⟨k, List.getElem?_zip_eq_some.2 ⟨he, hw⟩⟩, Or.inl ?_⟩
      simp
    · refine ⟨((v, u), w), List.mem_iff_getElem?.2 ⟨k, List.getElem?_zip_eq_some.2 ⟨he, hw⟩⟩, Or.inr ?_⟩
      simp

theorem Graph.Joins.symm {g : Graph} {a b : ℕ} {w : ℝ} (hj : g.Joins a b w) : g.Joins b a w := by
  obtain ⟨k, h1, h2⟩ := hj
  exact ⟨k, h1, h2.symm⟩

theorem Graph.Ok.joins {g : Graph} {dim : ℕ} (hg : g.Ok dim) {a b : ℕ} {w : ℝ} (hj : g.Joins a b w) :
    ∃ x y, g.vertex[a]? = some x ∧ g.vertex[b]? = some y ∧ w = euclid x y := by
  obtain ⟨k, h1, h2 | h2⟩ := hj
  · exact hg.edges k _ w h2 h1
  · obtain ⟨x, y, a1, a2, rfl⟩ := hg.edges k _ w h2 h1
    exact ⟨y, x, a2, a1, euclid_comm x y⟩

theorem heuristic_eq {g : Graph} {dim : ℕ} (hg : g.Ok dim) {goal v : ℕ} {a b : Vec}
    (ha : g.vertex[v]? = some a) (hb : g.vertex[goal]? = some b) : heuristic g goal v = euclid a b := by
  unfold heuristic
  rw [ha, hb]
  simp only
  rw [vectorEuclidean_eq (by rw [hg.dims a (List.mem_of_getElem? ha), hg.dims b (List.mem_of_getElem? hb)])]

/-- A well-formed roadmap with the Euclidean heuristic meets the requirements of A*. -/
theorem Graph.Ok.agraph {g : Graph} {dim : ℕ} (hg : g.Ok dim) (goal : ℕ) (hgoal : goal < g.vertex.length) :
    AGraph g.adj (heuristic g goal) g.vertex.length := by
  have hb := List.getElem?_eq_getElem hgoal
  refine ⟨?_, ?_, ?_⟩
  · rintro u ⟨v, w⟩ he
    obtain ⟨x, y, -, -, rfl⟩ := hg.joins (mem_adj.1 he)
    exact euclid_nonneg x y
  · rintro u ⟨v, w⟩ he
    obtain ⟨x, y, hx, hy, rfl⟩ := hg.joins (mem_adj.1 he)
    rw [heuristic_eq hg hx hb, heuristic_eq hg hy hb]
    have d1 := hg.dims x (List.mem_of_getElem? hx)
    have d2 := hg.dims y (List.mem_of_getElem? hy)
    have d3 := hg.dims _ (List.mem_of_getElem? hb)
    exact euclid_triangle (by rw [d1, d2]) (by rw [d2, d3])
  · rintro u ⟨v, w⟩ he
    obtain ⟨x, y, -, hy, -⟩ := hg.joins (mem_adj.1 he)
    exact (List.getElem?_eq_some_iff.1 hy).1

theorem Graph.IsPath.snoc {g : Graph} {l : List ℕ} {L : ℝ} (hl : g.IsPath l L) {a b : ℕ} {w : ℝ}
    (hlast : l.getLast? = some a) (hj : g.Joins a b w) (hb : b < g.vertex.length) :
    g.IsPath (l ++ [b]) (L + w) := by
  induction hl with
  | single c hc =>
    simp at hlast; subst hlast
    rw [zero_add, ← add_zero w]
    exact .cons c b [] w 0 (.single b hb) hj
  | cons c d l w' L' _ hj' ih =>
    have := ih (by simpa using hlast)
    rw [add_assoc]
    exact .cons c d (l ++ [b]) w' (L' + w) this hj'

/-- A walk of the search graph is a path of the roadmap. -/
theorem Walk.toPath {g : Graph} {dim : ℕ} (hg : g.Ok dim) (hs : s < g.vertex.length) {v : ℕ} {L : ℝ}
    (hw : Walk g.adj s v L) : ∃ l, g.PathBetween s v l L := by
  induction hw with
  | nil => exact ⟨[s], .single s hs, rfl, rfl⟩
  | @snoc u L v w _ he ih =>
    obtain ⟨l, h1, h2, h3⟩ := ih
    have hj := mem_adj.1 he
    obtain ⟨x, y, -, hy, -⟩ := hg.joins hj
    refine ⟨l ++ [v], h1.snoc h3 hj (List.getElem?_eq_some_iff.1 hy).1, ?_, by simp⟩
    cases l with
    | nil => simp at h2
    | cons a l => simpa using h2

theorem Graph.IsPath.walk {g : Graph} {l : List ℕ} {L : ℝ} (hl : g.IsPath l L) :
    ∀ {a b : ℕ} {r : ℕ} {M : ℝ}, l.head? = some a → l.getLast? = some b → Walk g.adj r a M →
      Walk g.adj r b (M + L) := by
  induction hl with
  | single c _ =>
    intro a b r M h1 h2 hw
    simp at h1 h2; subst h1; subst h2
    simpa using hw
  | cons c d l w L _ hj ih =>
    intro a b r M h1 h2 hw
    simp at h1; subst h1
    have := ih (a := d) (b := b) rfl (by simpa using h2) (.snoc d w hw (mem_adj.2 hj))
    rwa [add_assoc] at this

theorem Graph.PathBetween.walk {g : Graph} {a b : ℕ} {l : List ℕ} {L : ℝ} (hp : g.PathBetween a b l L) :
    Walk g.adj a b L := by
  have := hp.1.walk hp.2.1 hp.2.2 (.nil (adj := g.adj) (s := a))
  simpa using this

/-- A predecessor chain, reversed, is a path. -/
theorem BackLen.toPath {g : Graph} {dim : ℕ} (hg : g.Ok dim) (hs : s < g.vertex.length) {p : ℕ → ℕ}
    {l : List ℕ} {L : ℝ} (hb : BackLen g.adj p s l L) :
    g.IsPath l.reverse L ∧ l.reverse.head? = some s ∧ l.reverse.getLast? = l.head? := by
  induction hb with
  | base => exact ⟨.single s hs, rfl, rfl⟩
  | cons a l w L _ _ he ih =>
    obtain ⟨h1, h2, h3⟩ := ih
    have hj := mem_adj.1 he
    obtain ⟨x, y, -, hy, -⟩ := hg.joins hj
    rw [List.reverse_cons]
    refine ⟨h1.snoc (by rw [h3]; rfl) hj (List.getElem?_eq_some_iff.1 hy).1, ?_, by simp⟩
    cases hr : (p a :: l).reverse with
    | nil => rw [hr] at h2; simp at h2
    | cons c r => rw [hr] at h2; simpa using h2

/-- What `search` achieves for one pair. -/
def PairFound (g : Graph) (s t : ℕ) (r : SearchRes) : Prop :=
  ∃ L, r.solved = true ∧ g.PathBetween s t r.pathId L ∧ r.pathId.Nodup ∧
    (∀ l' L', g.PathBetween s t l' L' → L ≤ L') ∧
    (∀ v ∈ r.pathId.tail, v < g.weight.length) ∧
    r.cost = some ((r.pathId.tail.map (fun v => g.weight.getD v 0)).sum)

theorem searchPair_spec {g : Graph} {dim : ℕ} (hg : g.Ok dim) {pick : ℕ → (ℕ → ℝ) → List ℕ → ℕ}
    (hp : HeapTop pick) {s t : ℕ} (hs : s < g.vertex.length) (ht : t < g.vertex.length) {r : SearchRes}
    (hr : r.pathId = []) {tot : Prop} (htot : tot → g.vertex.length ≤ g.weight.length) :
    Res.Sat tot (searchPair g pick s t r) (fun b =>
      (b = (r, false) ∧ ∀ l L, ¬ g.PathBetween s t l L) ∨ (b.2 = true ∧ PairFound g s t b.1)) := by
  have G := hg.agraph t ht
  unfold searchPair
  rcases astarLoop_spec G hs hp t (g.vertex.length + 1) (AState.init s) [] (Inv.init g.adj s) (by simp)
    (by simp) with ⟨e, hno⟩ | ⟨st, C, x, e, I, hC, hx, hopt⟩
  · rw [e]
    exact Res.Sat.ok (Or.inl ⟨rfl, fun l L hl => hno L hl.walk⟩)
  · rw [e]
    simp only
    obtain ⟨l, hb, hnd, hlC⟩ := I.chain hC hx
    have hbound : ∀ a ∈ t :: l, a < g.vertex.length := by
      intro a ha
      rcases List.mem_cons.1 ha with rfl | ha
      · exact ht
      · obtain ⟨y, hy⟩ := Option.ne_none_iff_exists'.1 (I.cd a (hlC a ha))
        exact (I.walk a y hy).bound G hs
    have hlen : (t :: l).length ≤ g.vertex.length := by
      have := (List.subperm_of_subset hnd
        (fun a ha => List.mem_range.2 (hbound a ha) : (t :: l) ⊆ List.range g.vertex.length)).length_le
      simpa using this
    simp only [List.length_cons] at hlen
    obtain ⟨h1, h2, h3⟩ := hb.toPath hg hs
    unfold onFound
    rw [hr, List.nil_append]
    have hbt := backtrack_spec (s := s) (tot := tot) (weight := g.weight) (m := g.vertex.length)
      l t [] (g.vertex.length + 2) 0 hb.back (by omega) (by simp; omega)
      (fun q a ha => lt_of_lt_of_le (hbound a ha) (htot q))
    refine Res.Sat.bind hbt ?_
    rintro ⟨ids, num, cost⟩ ⟨k1, k2, k3, k4⟩
    simp only [List.nil_append, List.length_nil, zero_add] at k1 k2 k4
    subst k1
    simp only
    rw [if_neg (by omega)]
    have htail : (t :: l).reverse.tail = (t :: l).dropLast.reverse := by
      rw [List.tail_reverse]
    refine Res.Sat.ok (Or.inr ⟨rfl, x, rfl, ⟨h1, h2, by rw [h3]; rfl⟩, ?_, ?_, ?_, ?_⟩)
    · exact List.nodup_reverse.2 hnd
    · intro l' L' hl'
      exact hopt L' hl'.walk
    · intro v hv
      simp only [htail, List.mem_reverse] at hv
      exact k3 v hv
    · simp only [htail, List.map_reverse, List.sum_reverse, k4]

/-- What `search` achieves over a list of pairs. -/
theorem searchPairs_spec {g : Graph} {dim : ℕ} (hg : g.Ok dim) {pick : ℕ → (ℕ → ℝ) → List ℕ → ℕ}
    (hp : HeapTop pick) {tot : Prop} (htot : tot → g.vertex.length ≤ g.weight.length)
    (pairs : List (ℕ × ℕ)) (hpairs : ∀ e ∈ pairs, e.1 < g.vertex.length ∧ e.2 < g.vertex.length)
    {r : SearchRes} (hr : r.pathId = []) :
    Res.Sat tot (searchPairs g pick pairs r) (fun r' =>
      (r' = r ∧ ∀ e ∈ pairs, ∀ l L, ¬ g.PathBetween e.1 e.2 l L) ∨
      ∃ pre s t rest, pairs = pre ++ (s, t) :: rest ∧
        (∀ e ∈ pre, ∀ l L, ¬ g.PathBetween e.1 e.2 l L) ∧ PairFound g s t r') := by
  induction pairs with
  | nil => exact Res.Sat.ok (Or.inl ⟨rfl, by simp⟩)
  | cons e pairs ih =>
    obtain ⟨s, t⟩ := e
    obtain ⟨hs, ht⟩ := hpairs (s, t) (by simp)
    unfold searchPairs
    refine Res.Sat.bind (searchPair_spec hg hp hs ht hr htot) ?_
    rintro ⟨r1, b⟩ (⟨e, hno⟩ | ⟨hb, hf⟩)
    · obtain ⟨rfl, rfl⟩ := Prod.mk.inj e
      simp only [Bool.false_eq_true, if_false]
      refine (ih fun e he => hpairs e (by simp [he])).mono ?_
      rintro r' (⟨rfl, hall⟩ | ⟨pre, s', t', rest, rfl, hpre, hf⟩)
      · refine Or.inl ⟨rfl, ?_⟩
        intro e he
        rcases List.mem_cons.1 he with rfl | he
        · exact hno
        · exact hall e he
      · refine Or.inr ⟨(s, t) :: pre, s', t', rest, rfl, ?_, hf⟩
        intro e he
        rcases List.mem_cons.1 he with rfl | he
        · exact hno
        · exact hpre e he
    · simp only at hb hf
      subst hb
      simp only [if_true]
      exact Res.Sat.ok (Or.inr ⟨[], s, t, pairs, rfl, by simp, hf⟩)

end Hrm
