import Verif.Spec.FreeSpace
import Verif.Lemmas.Interval
import Mathlib.Tactic.Linarith
import Mathlib.Data.List.Forall2

set_option linter.unusedSectionVars false
set_option linter.unusedVariables false

namespace Hrm

open Hrm.Interval

/-! ### Loops in `Res` -/

theorem foldlM_range_inv {σ : Type*} (f : σ → ℕ → Res σ) (P : ℕ → σ → Prop) (n : ℕ) (s0 : σ)
    (h0 : P 0 s0) (step : ∀ k < n, ∀ s, P k s → ∃ s', f s k = .ok s' ∧ P (k + 1) s') :
    ∃ s, (List.range n).foldlM f s0 = .ok s ∧ P n s := by
  have gen : ∀ (m k : ℕ) (s : σ), k + m = n → P k s →
      ∃ s', (List.range' k m).foldlM f s = .ok s' ∧ P n s' := by
    intro m
    induction m with
    | zero => intro k s hk hp; exact ⟨s, by simp, by simpa using (show k = n by omega) ▸ hp⟩
    | succ m ih =>
      intro k s hk hp
      obtain ⟨s', h1, h2⟩ := step k (by omega) s hp
      obtain ⟨s'', h3, h4⟩ := ih (k + 1) s' (by omega) h2
      exact ⟨s'', by simp [List.range'_succ, h1, h3], h4⟩
  rw [List.range_eq_range']
  exact gen n 0 s0 (by omega) h0

/-- A loop that is fine up to `k < n` and throws there throws. -/
theorem foldlM_range_throw {σ : Type*} (f : σ → ℕ → Res σ) (P : ℕ → σ → Prop) (n k : ℕ) (s0 : σ)
    (hk : k < n) (h0 : P 0 s0)
    (step : ∀ j < k, ∀ s, P j s → ∃ s', f s j = .ok s' ∧ P (j + 1) s')
    (stop : ∀ s, P k s → f s k = .throw) : (List.range n).foldlM f s0 = .throw := by
  have gen : ∀ (m j : ℕ) (s : σ), j + m = n → j ≤ k → P j s →
      (List.range' j m).foldlM f s = .throw := by
    intro m
    induction m with
    | zero => intro j s h1 h2; omega
    | succ m ih =>
      intro j s h1 h2 hp
      rcases Nat.lt_or_eq_of_le h2 with h | h
      · obtain ⟨s', e1, e2⟩ := step j h s hp
        simp [List.range'_succ, e1, ih (j + 1) s' (by omega) (by omega) e2]
      · subst h; simp [List.range'_succ, stop s hp]
  rw [List.range_eq_range']
  exact gen n 0 s0 (by omega) (by omega) h0

section order
variable {K : Type*} [LinearOrder K]

/-! ### Table rows -/

theorem pairs_take_succ (lo up : List (Option K)) (h : lo.length = up.length) (k : ℕ)
    (hk : k < lo.length) :
    pairs (lo.take (k + 1)) (up.take (k + 1)) = pairs (lo.take k) (up.take k) ++
      (match lo[k], up[k]'(h ▸ hk) with
        | some l, some u => [⟨l, u⟩]
        | _, _ => []) := by
  have hk' : k < up.length := h ▸ hk
  unfold pairs
  rw [List.take_succ_eq_append_getElem hk, List.take_succ_eq_append_getElem hk',
    List.zip_append (by simp; omega), List.filterMap_append]
  congr 1
  cases lo[k] <;> cases up[k] <;> simp

theorem rowIntervals_ok (low upp : List (List (Option K))) (i : ℕ) (lo up : List (Option K))
    (hlo : low[i]? = some lo) (hup : upp[i]? = some up) (hlen : lo.length = up.length) :
    rowIntervals low upp i = .ok (pairs lo up) := by
  unfold rowIntervals
  rw [Res.at'_eq_ok.2 hlo, Res.bind_ok]
  obtain ⟨s, h1, h2⟩ := foldlM_range_inv (rowStep lo upp i)
    (fun k acc => acc = pairs (lo.take k) (up.take k)) lo.length [] (by simp [pairs]) (by
      intro k hk s hs
      have hk' : k < up.length := hlen ▸ hk
      rw [pairs_take_succ lo up hlen k hk, hs]
      unfold rowStep
      rw [Res.at'_eq_ok.2 (List.getElem?_eq_getElem hk), Res.at'_eq_ok.2 hup]
      simp only [Res.bind]
      rw [Res.at'_eq_ok.2 (List.getElem?_eq_getElem hk')]
      cases lo[k] <;> cases up[k] <;> simp)
  rw [h1, h2, List.take_length, hlen, List.take_length]

theorem mem_pairs {lo up : List (Option K)} {iv : Interval K} :
    iv ∈ pairs lo up ↔ (some iv.s, some iv.e) ∈ lo.zip up := by
  simp only [pairs, List.mem_filterMap]
  constructor
  · rintro ⟨⟨a, b⟩, h, e⟩
    cases a <;> cases b <;> simp at e
    subst e; exact h
  · intro h; exact ⟨_, h, rfl⟩

/-! ### Interior points of separated lists -/

theorem interior_separated [DenselyOrdered K] (l : List (Interval K)) :
    Separated l → (∀ i ∈ l, i.Valid) → ∀ x,
      (InteriorPt l x ↔ ∃ i ∈ l, i.s < x ∧ x < i.e) := by
  intro hs hv x
  constructor
  · rintro ⟨a, b, hax, hxb, hall⟩
    induction l with
    | nil => exact absurd (hall x hax.le hxb.le) (by simp)
    | cons c cs ih =>
      have hcs := (List.pairwise_cons.1 hs)
      have tl : ∀ y ∈ cover cs, c.e < y := by
        rintro y ⟨d, hd, hy⟩; exact lt_of_lt_of_le (hcs.1 d hd) hy.1
      rcases le_or_gt b c.e with hb | hb
      · refine ⟨c, by simp, ?_, lt_of_lt_of_le hxb hb⟩
        rcases mem_cover_cons.1 (hall a le_rfl (hax.le.trans hxb.le)) with h | h
        · exact lt_of_le_of_lt h.1 hax
        · exact absurd (tl a h) (not_lt.2 ((hax.le.trans hxb.le).trans hb))
      · rcases lt_or_ge c.e a with ha | ha
        · obtain ⟨i, hi, h⟩ := ih hcs.2 (fun i hi => hv i (by simp [hi])) (by
            intro y h1 h2
            rcases mem_cover_cons.1 (hall y h1 h2) with h | h
            · exact absurd h.2 (not_le.2 (lt_of_lt_of_le ha h1))
            · exact h)
          exact ⟨i, by simp [hi], h⟩
        · exfalso
          cases cs with
          | nil =>
            rcases mem_cover_cons.1 (hall b (hax.le.trans hxb.le) le_rfl) with h | h
            · exact absurd h.2 (not_le.2 hb)
            · simp at h
          | cons f fs =>
            have hcf : c.e < f.s := hcs.1 f (by simp)
            obtain ⟨y, h1, h2⟩ := exists_between (lt_min hb hcf)
            rw [lt_min_iff] at h2
            rcases mem_cover_cons.1 (hall y (ha.trans h1.le) h2.1.le) with h | ⟨g, hg, h⟩
            · exact absurd h.2 (not_le.2 h1)
            · rcases List.mem_cons.1 hg with hgf | hg'
              · rw [hgf] at h; exact absurd h.1 (not_le.2 h2.2)
              · have h4 := (List.pairwise_cons.1 hcs.2).1 g hg'
                have hvf : f.s ≤ f.e := hv f (by simp)
                exact absurd (hvf.trans (h4.le.trans h.1)) (not_le.2 h2.2)
  · rintro ⟨i, hi, h1, h2⟩
    exact ⟨i.s, i.e, h1, h2, fun y h3 h4 => ⟨i, hi, h3, h4⟩⟩

/-! ### Sorting keeps pointwise order -/

/-- Sorted permutations of two lists that split at a value. -/
theorem sorted_append_unique {l l₁ l₂ : List K} (hl : l.Pairwise (· ≤ ·)) (hp : l.Perm (l₁ ++ l₂))
    (h : ∀ a ∈ l₁, ∀ b ∈ l₂, a ≤ b) (S : SortBy (fun a b : K => a < b)) :
    l = S.run l₁ ++ S.run l₂ := by
  refine List.Perm.eq_of_pairwise (le := (· ≤ ·)) (fun a b _ _ => le_antisymm) hl ?_ ?_
  · rw [List.pairwise_append]
    refine ⟨(S.sorted l₁).imp not_lt.1, (S.sorted l₂).imp not_lt.1, ?_⟩
    intro a ha b hb
    exact h a ((S.perm l₁).mem_iff.1 ha) b ((S.perm l₂).mem_iff.1 hb)
  · exact hp.trans ((S.perm l₁).symm.append (S.perm l₂).symm)

theorem run_sorted (S : SortBy (fun a b : K => a < b)) (l : List K) :
    (S.run l).Pairwise (· ≤ ·) := (S.sorted l).imp not_lt.1

theorem run_eq_of_sorted (S : SortBy (fun a b : K => a < b)) {l u : List K} (hp : l.Perm u)
    (hu : u.Pairwise (· ≤ ·)) : S.run l = u :=
  List.Perm.eq_of_pairwise (le := (· ≤ ·)) (fun a b _ _ => le_antisymm) (run_sorted S l) hu
    ((S.perm l).trans hp)

/-- Pointwise order `≤` survives inserting a common... two sorted lists `x :: p` and `y :: p`. -/
theorem forall₂_orderedInsert {x y : K} (h : x ≤ y) (p : List K) (hp : p.Pairwise (· ≤ ·)) :
    List.Forall₂ (· ≤ ·) (p.orderedInsert (· ≤ ·) x) (p.orderedInsert (· ≤ ·) y) := by
  induction p with
  | nil => simpa using h
  | cons a p ih =>
    have hp' := List.pairwise_cons.1 hp
    simp only [List.orderedInsert]
    by_cases h1 : y ≤ a
    · rw [if_pos h1, if_pos (h.trans h1)]
      exact List.Forall₂.cons h (List.forall₂_refl _)
    · rw [if_neg h1]
      push Not at h1
      by_cases h2 : x ≤ a
      · rw [if_pos h2]
        refine List.Forall₂.cons h2 ?_
        -- a :: p versus insert y p
        have : ∀ (q : List K) (a y : K), a ≤ y → (a :: q).Pairwise (· ≤ ·) →
            List.Forall₂ (· ≤ ·) (a :: q) (q.orderedInsert (· ≤ ·) y) := by
          intro q
          induction q with
          | nil => intro a y hay _; simpa using hay
          | cons c q ihq =>
            intro a y hay hpair
            have hpc := List.pairwise_cons.1 hpair
            simp only [List.orderedInsert]
            split
            · exact List.Forall₂.cons hay (List.forall₂_refl _)
            · rename_i hyc
              exact List.Forall₂.cons (hpc.1 c (by simp)) (ihq c y (not_le.1 hyc).le hpc.2)
        exact this p a y h1.le hp
      · rw [if_neg h2]
        exact List.Forall₂.cons le_rfl (ih hp'.2)

/-- Sorted version of `x :: P`. -/
theorem run_cons (S : SortBy (fun a b : K => a < b)) (x : K) (P : List K) :
    S.run (x :: P) = (S.run P).orderedInsert (· ≤ ·) x := by
  apply run_eq_of_sorted S
  · exact ((S.perm P).symm.cons x).trans (List.perm_orderedInsert _ x _).symm
  · exact (run_sorted S P).orderedInsert x _

theorem triples_of_forall₂ {A B C : List K} (hAB : List.Forall₂ (· ≤ ·) A B)
    (hBC : List.Forall₂ (· ≤ ·) B C) (lo hi : K) (hA : ∀ a ∈ A, lo ≤ a) (hC : ∀ c ∈ C, c ≤ hi) :
    ∃ T : List (K × K × K), A = T.map (·.1) ∧ B = T.map (·.2.1) ∧ C = T.map (·.2.2) ∧
      ∀ t ∈ T, t.1 ≤ t.2.1 ∧ t.2.1 ≤ t.2.2 ∧ lo ≤ t.1 ∧ t.2.2 ≤ hi := by
  induction hAB generalizing C with
  | nil => cases hBC; exact ⟨[], by simp⟩
  | @cons a b A B hab _ ih =>
    cases hBC with
    | @cons _ c _ C' hbc hrest =>
      obtain ⟨T, h1, h2, h3, h4⟩ := ih hrest (fun a ha => hA a (by simp [ha]))
        (fun c hc => hC c (by simp [hc]))
      refine ⟨(a, b, c) :: T, by simp [← h1], by simp [← h2], by simp [← h3], ?_⟩
      intro t ht
      rcases List.mem_cons.1 ht with rfl | ht
      · exact ⟨hab, hbc, hA _ (by simp), hC _ (by simp)⟩
      · exact h4 t ht

/-- Sorting the three lists of a row separately keeps them aligned inside the segments. -/
theorem aligned_sort (S : SortBy (fun a b : K => a < b)) (m : Interval K → K)
    (ivs : List (Interval K)) :
    ∀ P : List K, (∀ iv ∈ ivs, iv.s ≤ m iv ∧ m iv ≤ iv.e) →
      ivs.Pairwise (fun a b => a.e ≤ b.s) → (∀ p ∈ P, ∃ iv ∈ ivs, iv.s ≤ p ∧ p ≤ iv.e) →
      AlignedIn ivs ⟨S.run (ivs.map (·.s) ++ P), S.run (ivs.map (·.e) ++ P),
        S.run (ivs.map m ++ P)⟩ := by
  induction ivs with
  | nil =>
    intro P _ _ hP
    have : P = [] := by
      cases P with
      | nil => rfl
      | cons p P => obtain ⟨iv, h, _⟩ := hP p (by simp); simp at h
    subst this
    have : S.run [] = [] := (S.perm []).eq_nil
    exact ⟨[], by simp [this]⟩
  | cons c cs ih =>
    intro P hm hord hP
    have hordc := List.pairwise_cons.1 hord
    have hmc := hm c (by simp)
    have hP1 : ∀ p ∈ P.filter (fun p => decide (p ≤ c.e)), c.s ≤ p ∧ p ≤ c.e := by
      intro p hp
      rw [List.mem_filter, decide_eq_true_eq] at hp
      obtain ⟨iv, hiv, h1, h2⟩ := hP p hp.1
      rcases List.mem_cons.1 hiv with rfl | hiv
      · exact ⟨h1, h2⟩
      · exact ⟨(hmc.1.trans hmc.2).trans ((hordc.1 iv hiv).trans h1), hp.2⟩
    have hP2 : ∀ p ∈ P.filter (fun p => !decide (p ≤ c.e)),
        c.e ≤ p ∧ ∃ iv ∈ cs, iv.s ≤ p ∧ p ≤ iv.e := by
      intro p hp
      rw [List.mem_filter] at hp
      have hlt : c.e < p := by simpa using hp.2
      obtain ⟨iv, hiv, h1, h2⟩ := hP p hp.1
      rcases List.mem_cons.1 hiv with rfl | hiv
      · exact absurd h2 (not_le.2 hlt)
      · exact ⟨hlt.le, iv, hiv, h1, h2⟩
    have hperm : P.Perm (P.filter (fun p => decide (p ≤ c.e)) ++
        P.filter (fun p => !decide (p ≤ c.e))) := (List.filter_append_perm _ P).symm
    generalize P.filter (fun p => decide (p ≤ c.e)) = P1 at hP1 hperm
    generalize P.filter (fun p => !decide (p ≤ c.e)) = P2 at hP2 hperm
    have split : ∀ f : Interval K → K, (∀ iv ∈ c :: cs, iv.s ≤ f iv ∧ f iv ≤ iv.e) →
        S.run ((c :: cs).map f ++ P) = S.run (f c :: P1) ++ S.run (cs.map f ++ P2) := by
      intro f hf
      refine sorted_append_unique (run_sorted S _) ((S.perm _).trans ?_) ?_ S
      · rw [List.map_cons, List.cons_append, List.cons_append]
        refine List.Perm.cons _ ?_
        refine (hperm.append_left _).trans ?_
        rw [← List.append_assoc, ← List.append_assoc]
        exact List.perm_append_comm.append_right _
      · intro a ha b hb
        have h1 : a ≤ c.e := by
          rcases List.mem_cons.1 ha with rfl | ha
          · exact (hf c (by simp)).2
          · exact (hP1 a ha).2
        have h2 : c.e ≤ b := by
          rcases List.mem_append.1 hb with hb | hb
          · obtain ⟨iv, hiv, rfl⟩ := List.mem_map.1 hb
            exact (hordc.1 iv hiv).trans (hf iv (by simp [hiv])).1
          · exact (hP2 b hb).1
        exact h1.trans h2
    have hval : ∀ iv ∈ c :: cs, iv.s ≤ iv.e := fun iv hiv => (hm iv hiv).1.trans (hm iv hiv).2
    rw [split (·.s) (fun iv hiv => ⟨le_rfl, hval iv hiv⟩),
      split (·.e) (fun iv hiv => ⟨hval iv hiv, le_rfl⟩), split m hm]
    obtain ⟨T2, e1, e2, e3, e4⟩ := ih P2 (fun iv hiv => hm iv (by simp [hiv])) hordc.2
      (fun p hp => (hP2 p hp).2)
    have memrun : ∀ x, c.s ≤ x → x ≤ c.e → ∀ y ∈ S.run (x :: P1), c.s ≤ y ∧ y ≤ c.e := by
      intro x h1 h2 y hy
      rcases List.mem_cons.1 ((S.perm _).mem_iff.1 hy) with rfl | hy
      · exact ⟨h1, h2⟩
      · exact hP1 y hy
    obtain ⟨T1, d1, d2, d3, d4⟩ := triples_of_forall₂
      (A := S.run (c.s :: P1)) (B := S.run (m c :: P1)) (C := S.run (c.e :: P1))
      (by rw [run_cons, run_cons]; exact forall₂_orderedInsert hmc.1 _ (run_sorted S P1))
      (by rw [run_cons, run_cons]; exact forall₂_orderedInsert hmc.2 _ (run_sorted S P1)) c.s c.e
      (fun a ha => (memrun _ le_rfl (hval c (by simp)) a ha).1)
      (fun a ha => (memrun _ (hval c (by simp)) le_rfl a ha).2)
    simp only at e1 e2 e3
    refine ⟨T1 ++ T2, ?_, ?_, ?_, ?_⟩
    · simp only [List.map_append, ← d1, ← e1]
    · simp only [List.map_append, ← d2, ← e2]
    · simp only [List.map_append, ← d3, ← e3]
    · intro t ht
      rcases List.mem_append.1 ht with ht | ht
      · obtain ⟨a, b, a', b'⟩ := d4 t ht
        exact ⟨a, b, c, by simp, a', b'⟩
      · obtain ⟨a, b, iv, hiv, h⟩ := e4 t ht
        exact ⟨a, b, iv, by simp [hiv], h⟩

/-- The unsorted row is aligned too. -/
theorem aligned_unsorted (m : Interval K → K) (ivs : List (Interval K)) (P : List K)
    (hm : ∀ iv ∈ ivs, iv.s ≤ m iv ∧ m iv ≤ iv.e)
    (hP : ∀ p ∈ P, ∃ iv ∈ ivs, iv.s ≤ p ∧ p ≤ iv.e) :
    AlignedIn ivs ⟨ivs.map (·.s) ++ P, ivs.map (·.e) ++ P, ivs.map m ++ P⟩ := by
  refine ⟨ivs.map (fun iv => (iv.s, m iv, iv.e)) ++ P.map (fun p => (p, p, p)), ?_, ?_, ?_, ?_⟩
  · simp [Function.comp_def]
  · simp [Function.comp_def]
  · simp [Function.comp_def]
  · intro t ht
    rcases List.mem_append.1 ht with ht | ht
    · obtain ⟨iv, hiv, rfl⟩ := List.mem_map.1 ht
      exact ⟨(hm iv hiv).1, (hm iv hiv).2, iv, hiv, le_rfl, le_rfl⟩
    · obtain ⟨p, hp, rfl⟩ := List.mem_map.1 ht
      obtain ⟨iv, hiv, h⟩ := hP p hp
      exact ⟨le_rfl, le_rfl, iv, hiv, h⟩

end order

/-! ### The enhancement loops in closed form -/

section field
variable {K : Type*} [Field K] [LinearOrder K]

/-- Middle of an interval. -/
def mid (iv : Interval K) : K := (iv.s + iv.e) / 2

/-- Row `rowOf ivs` with the points `P` pushed to all three lists. -/
def ext (ivs : List (Interval K)) (P : List K) : SegRow K :=
  ⟨ivs.map (·.s) ++ P, ivs.map (·.e) ++ P, ivs.map mid ++ P⟩

/-- The point pushed into segment `x`'s row because of segment `y` of the neighbouring row. -/
def addPt (x y : Interval K) : List K :=
  if mid x < y.s ∧ y.s ≤ x.e then [y.s]
  else if y.e < mid x ∧ x.s ≤ y.e then [y.e] else []

theorem rowOf_eq (ivs : List (Interval K)) : rowOf ivs = ext ivs [] := by
  simp [rowOf, ext, mid]

theorem ext_push (ivs : List (Interval K)) (P : List K) (p : K) :
    (ext ivs P).push p = ext ivs (P ++ [p]) := by
  simp [ext, SegRow.push]

theorem enhanceOne_ext (xs ys : List (Interval K)) (P Q : List K) (j1 j2 : ℕ)
    (h1 : j1 < xs.length) (h2 : j2 < ys.length) :
    enhanceOne (ext xs P) (ext ys Q) j1 j2 = .ok (ext xs (P ++ addPt xs[j1] ys[j2])) := by
  have hg : ∀ (zs : List (Interval K)) (R : List K) (f : Interval K → K) (j : ℕ)
      (h : j < zs.length), Res.idx (zs.map f ++ R) j = .ok (f zs[j]) := by
    intro zs R f j h
    rw [Res.idx_eq_ok, List.getElem?_append_left (by simpa using h)]
    simp [h]
  unfold enhanceOne
  simp only [ext]
  rw [hg xs P mid j1 h1, hg ys Q (·.s) j2 h2, hg xs P (·.e) j1 h1, hg ys Q (·.e) j2 h2,
    hg xs P (·.s) j1 h1]
  simp only [Res.bind_ok]
  unfold addPt
  split
  · simp [SegRow.push]
  · split <;> simp [SegRow.push]

theorem enhanceLoop_ext (xs ys : List (Interval K)) (P Q : List K) :
    enhanceLoop xs.length ys.length (ext xs P, ext ys Q) =
      .ok (ext xs (P ++ xs.flatMap fun x => ys.flatMap fun y => addPt x y),
           ext ys (Q ++ xs.flatMap fun x => ys.flatMap fun y => addPt y x)) := by
  unfold enhanceLoop
  obtain ⟨s, h1, h2⟩ := foldlM_range_inv
    (fun (ab : SegRow K × SegRow K) j1 =>
      (List.range ys.length).foldlM (fun ab j2 => enhancePair ab j1 j2) ab)
    (fun k ab => ab = (ext xs (P ++ (xs.take k).flatMap fun x => ys.flatMap fun y => addPt x y),
           ext ys (Q ++ (xs.take k).flatMap fun x => ys.flatMap fun y => addPt y x)))
    xs.length (ext xs P, ext ys Q) (by simp) (by
      intro k hk s hs
      subst hs
      set P' := P ++ (xs.take k).flatMap fun x => ys.flatMap fun y => addPt x y with hP'
      set Q' := Q ++ (xs.take k).flatMap fun x => ys.flatMap fun y => addPt y x with hQ'
      obtain ⟨s, h1, h2⟩ := foldlM_range_inv
        (fun (ab : SegRow K × SegRow K) j2 => enhancePair ab k j2)
        (fun l ab => ab = (ext xs (P' ++ (ys.take l).flatMap fun y => addPt xs[k] y),
           ext ys (Q' ++ (ys.take l).flatMap fun y => addPt y xs[k])))
        ys.length (ext xs P', ext ys Q') (by simp) (by
          intro l hl s hs
          subst hs
          refine ⟨_, ?_, rfl⟩
          unfold enhancePair
          simp only
          rw [enhanceOne_ext xs ys _ _ k l hk hl]
          simp only [Res.bind_ok]
          rw [enhanceOne_ext ys xs _ _ l k hl hk]
          simp only [Res.bind_ok]
          simp only [List.take_succ_eq_append_getElem hl, List.flatMap_append, List.flatMap_cons,
            List.flatMap_nil, List.append_nil, List.append_assoc])
      refine ⟨s, h1, ?_⟩
      rw [h2, List.take_length, List.take_succ_eq_append_getElem hk]
      simp only [List.flatMap_append, List.flatMap_cons, List.flatMap_nil, List.append_nil,
        List.append_assoc, hP', hQ'])
  rw [h1, h2, List.take_length]

/-- Closed form of the rows after enhancement: `P` are the points already pushed into the current
row by the previous iteration. -/
def enhancedRows (S : StdSort K) : List K → List (Interval K) → List (List (Interval K)) →
    List (SegRow K)
  | P, xs, [] => [ext xs P]
  | P, xs, ys :: rest =>
    (ext xs (P ++ xs.flatMap fun x => ys.flatMap fun y => addPt x y)).sort S ::
      enhancedRows S (xs.flatMap fun x => ys.flatMap fun y => addPt y x) ys rest

theorem enhanceRows_ext (S : StdSort K) (rest : List (List (Interval K))) :
    ∀ (P : List K) (xs : List (Interval K)),
      enhanceRows S xs.length (ext xs P) (rest.map rowOf) = .ok (enhancedRows S P xs rest) := by
  induction rest with
  | nil => intro P xs; simp [enhanceRows, enhancedRows]
  | cons ys rest ih =>
    intro P xs
    simp only [List.map_cons, enhanceRows, enhancedRows]
    have hlen : (rowOf ys).M.length = ys.length := by simp [rowOf]
    rw [hlen, rowOf_eq, enhanceLoop_ext]
    simp only [Res.bind_ok, List.nil_append]
    rw [ih]
    simp

theorem enhance_eq (S : StdSort K) (xs : List (Interval K)) (rest : List (List (Interval K))) :
    enhance S ((xs :: rest).map rowOf) = .ok (enhancedRows S [] xs rest) := by
  have := enhanceRows_ext S rest [] xs
  simp only [List.map_cons, enhance]
  rw [← this, rowOf_eq]
  simp [ext]

theorem enhancedRows_length (S : StdSort K) (rest : List (List (Interval K))) :
    ∀ (P : List K) (xs : List (Interval K)),
      (enhancedRows S P xs rest).length = rest.length + 1 := by
  induction rest with
  | nil => intro P xs; simp [enhancedRows]
  | cons ys rest ih => intro P xs; simp [enhancedRows, ih]

variable [IsStrictOrderedRing K]

theorem mid_mem {iv : Interval K} (h : iv.Valid) : iv.s ≤ mid iv ∧ mid iv ≤ iv.e := by
  unfold mid Interval.Valid at *
  have h2 : (0:K) < 2 := by norm_num
  constructor
  · rw [le_div_iff₀ h2]; linarith
  · rw [div_le_iff₀ h2]; linarith

theorem addPt_mem {x y : Interval K} (hx : x.Valid) {p : K} (hp : p ∈ addPt x y) :
    x.s ≤ p ∧ p ≤ x.e := by
  have hm := mid_mem hx
  unfold addPt at hp
  split at hp
  · rename_i h
    simp only [List.mem_singleton] at hp; subst hp
    exact ⟨hm.1.trans h.1.le, h.2⟩
  · split at hp
    · rename_i h
      simp only [List.mem_singleton] at hp; subst hp
      exact ⟨h.2, h.1.le.trans hm.2⟩
    · simp at hp

/-- Every row after enhancement, described by its position. -/
theorem enhancedRows_get (S : StdSort K) (rest : List (List (Interval K))) :
    ∀ (P : List K) (xs : List (Interval K)),
      (∀ p ∈ P, ∃ iv ∈ xs, iv.s ≤ p ∧ p ≤ iv.e) →
      (∀ l ∈ xs :: rest, ∀ iv ∈ l, iv.Valid) →
      ∀ (i : ℕ) (ivs : List (Interval K)), (xs :: rest)[i]? = some ivs →
      ∃ Q : List K, (∀ p ∈ Q, ∃ iv ∈ ivs, iv.s ≤ p ∧ p ≤ iv.e) ∧
        (i = 0 → ∀ p ∈ P, p ∈ Q) ∧
        (∀ ys, (xs :: rest)[i + 1]? = some ys → ∀ x ∈ ivs, ∀ y ∈ ys, ∀ p ∈ addPt x y, p ∈ Q) ∧
        (∀ j ys, i = j + 1 → (xs :: rest)[j]? = some ys →
            ∀ x ∈ ys, ∀ y ∈ ivs, ∀ p ∈ addPt y x, p ∈ Q) ∧
        (enhancedRows S P xs rest)[i]? =
          some (if i = rest.length then ext ivs Q else (ext ivs Q).sort S) := by
  induction rest with
  | nil =>
    intro P xs hP hv i ivs hi
    cases i with
    | zero =>
      simp only [List.getElem?_cons_zero, Option.some.injEq] at hi
      subst hi
      exact ⟨P, hP, fun _ _ h => h, by simp, by simp, by simp [enhancedRows]⟩
    | succ i => simp at hi
  | cons ys rest ih =>
    intro P xs hP hv i ivs hi
    have hvx : ∀ iv ∈ xs, iv.Valid := hv xs (by simp)
    have hvy : ∀ iv ∈ ys, iv.Valid := hv ys (by simp)
    cases i with
    | zero =>
      simp only [List.getElem?_cons_zero, Option.some.injEq] at hi
      subst hi
      refine ⟨P ++ xs.flatMap fun x => ys.flatMap fun y => addPt x y, ?_, ?_, ?_, ?_, ?_⟩
      · intro p hp
        rcases List.mem_append.1 hp with hp | hp
        · exact hP p hp
        · simp only [List.mem_flatMap] at hp
          obtain ⟨x, hx, y, hy, hp⟩ := hp
          exact ⟨x, hx, addPt_mem (hvx x hx) hp⟩
      · intro _ p hp; simp [hp]
      · intro zs hz x hx y hy p hp
        simp only [zero_add, List.getElem?_cons_succ, List.getElem?_cons_zero,
          Option.some.injEq] at hz
        subst hz
        exact List.mem_append.2 (Or.inr (List.mem_flatMap.2 ⟨x, hx, List.mem_flatMap.2 ⟨y, hy, hp⟩⟩))
      · intro j _ h; omega
      · simp [enhancedRows]
    | succ i =>
      obtain ⟨Q, q1, q2, q3, q4, q5⟩ := ih (xs.flatMap fun x => ys.flatMap fun y => addPt y x) ys
        (by
          intro p hp
          simp only [List.mem_flatMap] at hp
          obtain ⟨x, hx, y, hy, hp⟩ := hp
          exact ⟨y, hy, addPt_mem (hvy y hy) hp⟩)
        (fun l hl => hv l (by simp [List.mem_cons.1 hl])) i ivs (by simpa using hi)
      refine ⟨Q, q1, by omega, ?_, ?_, ?_⟩
      · intro zs hz; exact q3 zs (by simpa using hz)
      · intro j zs hj hz x hx y hy p hp
        have hij : i = j := by omega
        subst hij
        cases i with
        | zero =>
          simp only [List.getElem?_cons_zero, Option.some.injEq] at hz
          simp only [zero_add, List.getElem?_cons_succ, List.getElem?_cons_zero,
            Option.some.injEq] at hi
          subst hz; subst hi
          exact q2 rfl p (List.mem_flatMap.2 ⟨x, hx, List.mem_flatMap.2 ⟨y, hy, hp⟩⟩)
        | succ k => exact q4 k zs rfl (by simpa using hz) x hx y hy p hp
      · simp only [enhancedRows, List.getElem?_cons_succ, List.length_cons]
        rw [q5]
        simp

end field
end Hrm
