import Verif.Lemmas.FreeSpace

set_option linter.unusedSectionVars false
set_option linter.unusedVariables false

namespace Hrm

open Hrm.Interval

section order
variable {K : Type*} [LinearOrder K]

theorem interiorPt_congr {l₁ l₂ : List (Interval K)} (h : cover l₁ = cover l₂) (x : K) :
    InteriorPt l₁ x ↔ InteriorPt l₂ x := by
  unfold InteriorPt; rw [h]

theorem unions_spec (S : StdSort K) (ins : List (Interval K)) :
    cover (unions S ins) = cover ins ∧ Separated (unions S ins) ∧
      ((∀ i ∈ ins, i.Valid) → ∀ i ∈ unions S ins, i.Valid) := by
  rw [unions_eq]
  obtain ⟨h1, h2, h3⟩ := mergeSorted_spec _ (byStart_sorted S ins)
  refine ⟨h1.trans (cover_perm (S.byStart.perm ins)), h2, ?_⟩
  intro hv
  exact h3 (fun a ha => hv a ((S.byStart.perm ins).mem_iff.1 ha))

theorem sweepLineFree_spec [DenselyOrdered K] (S : StdSort K) (dmin dmax : K) (t : Table K) (i : ℕ)
    (al au ol ou : List (Option K)) (h : t.RowOk dmin dmax i al au ol ou) :
    ∃ ivs, sweepLineFree S dmin dmax t i = .ok ivs ∧
      (∀ x, x ∈ cover ivs ↔ pairs al au ≠ [] ∧ (∀ iv ∈ pairs al au, x ∈ iv.pts) ∧
        ¬ InteriorPt (pairs ol ou) x) ∧
      (∀ iv ∈ ivs, iv.Valid) ∧ ivs.Pairwise (fun a b => a.e ≤ b.s) := by
  unfold sweepLineFree
  rw [rowIntervals_ok _ _ i al au h.hal h.hau h.la, rowIntervals_ok _ _ i ol ou h.hol h.hou h.lo]
  simp only [Res.bind_ok]
  refine ⟨_, rfl, ?_⟩
  obtain ⟨a1, a2, a3, a4⟩ := intersects_spec S (pairs al au)
  obtain ⟨u1, u2, u3⟩ := unions_spec S (pairs ol ou)
  have u3' := u3 h.obs
  have hint : ∀ x, InteriorPt (pairs ol ou) x ↔ ∃ i ∈ unions S (pairs ol ou), i.s < x ∧ x < i.e := by
    intro x
    rw [← interior_separated _ u2 u3' x]
    exact interiorPt_congr u1.symm x
  generalize unions S (pairs ol ou) = U at *
  by_cases hA : pairs al au = []
  · have : intersects S (pairs al au) = [] := a4.2 (Or.inl hA)
    rw [this]
    simp [complements, hA]
  · have a3' := a3 hA
    have hsub : ∀ o ∈ intersects S (pairs al au), dmin ≤ o.s ∧ o.e ≤ dmax := by
      intro o ho
      have hov := a2 o ho
      obtain ⟨iv, hiv⟩ := List.exists_mem_of_ne_nil _ hA
      have h1 := (a3' o.s).1 ⟨o, ho, le_rfl, hov⟩ iv hiv
      have h2 := (a3' o.e).1 ⟨o, ho, hov, le_rfl⟩ iv hiv
      exact ⟨(h.arena iv hiv).1.trans h1.1, h2.2.trans (h.arena iv hiv).2⟩
    generalize hO : intersects S (pairs al au) = O at *
    match O, a1, hO with
    | [], _, hO =>
      refine ⟨?_, by simp [complements], by simp [complements]⟩
      intro x
      have := a3' x
      simp only [cover_nil, Set.mem_empty_iff_false, false_iff] at this
      simp [complements, this]
    | [o], _, hO =>
      have ho := hsub o (by simp)
      have hxo : ∀ x, x ∈ o.pts ↔ ∀ iv ∈ pairs al au, x ∈ iv.pts := by
        intro x; rw [← a3' x]; simp [cover]
      by_cases hU : U = []
      · subst hU
        simp only [complements, List.isEmpty_nil, if_true]
        refine ⟨?_, a2, by simp⟩
        intro x
        have : ¬ InteriorPt (pairs ol ou) x := by rw [hint]; simp
        simp only [ne_eq, hA, not_false_eq_true, true_and, this, and_true]
        rw [← a3']
      · obtain ⟨a, as, rfl⟩ := List.exists_cons_of_ne_nil hU
        have hss : (a :: as).Pairwise (fun a b => a.s < b.s) :=
          List.Pairwise.imp_of_mem (fun {a b} ha _ h => lt_of_le_of_lt (u3' a ha) h) u2
        have hrun : S.byStart.run (a :: as) = a :: as :=
          S.byStart.run_eq (key := Interval.s) (List.Perm.refl _) hss
        obtain ⟨c1, c2, c3⟩ := complements_core S dmin dmax o a as (a :: as) ho.1 ho.2
          (List.Perm.refl _) u2 u3'
        have hc : complements S dmin dmax [o] (a :: as) =
            (compOf dmin dmax (a :: as)).filterMap (fun curr => (intersects S [curr, o]).head?) := by
          simp [complements, hrun]
        rw [hc]
        refine ⟨?_, c2, c3⟩
        intro x
        rw [c1, hint, hxo]
        simp only [ne_eq, hA, not_false_eq_true, true_and, not_exists, not_and]

theorem sweepLineFree_throw (S : StdSort K) (dmin dmax : K) (t : Table K) (i : ℕ)
    (h : t.arenaLow.length ≤ i) : sweepLineFree S dmin dmax t i = .throw := by
  unfold sweepLineFree rowIntervals
  rw [Res.at'_eq_throw.2 h]; rfl

/-! ### Filling the table -/

theorem setAt2_ok {β : Type*} (tab : List (List β)) (i j : ℕ) (v : β) (row : List β)
    (h : tab[i]? = some row) (hj : j < row.length) :
    setAt2 tab i j v = .ok (tab.set i (row.set j v)) := by
  simp [setAt2, h, hj]

theorem setAt2_throw {β : Type*} (tab : List (List β)) (i j : ℕ) (v : β) (h : tab.length ≤ i) :
    setAt2 tab i j v = .throw := by
  have : tab[i]? = none := List.getElem?_eq_none_iff.2 h
  simp [setAt2, this]

variable {Line Shape : Type*}

/-- low/upper arena values, when the intersection routine returned no or at least two points. -/
def arenaVal (lowB upB : K) (pts : List K) : K × K :=
  match pts with
  | p0 :: p1 :: _ => (min lowB (min p0 p1), max upB (max p0 p1))
  | _ => (lowB, upB)

def obsVal (pts : List K) : Option K × Option K :=
  match pts with
  | p0 :: p1 :: _ => (some (min p0 p1), some (max p0 p1))
  | _ => (none, none)

theorem arenaEntry_ok (lowB upB : K) (pts : List K) (h : pts.length ≠ 1) :
    arenaEntry lowB upB pts = .ok (arenaVal lowB upB pts) := by
  match pts, h with
  | [], _ => rfl
  | p0 :: p1 :: ps, _ => simp [arenaEntry, arenaVal, Res.idx]

theorem obsEntry_ok (pts : List K) (h : pts.length ≠ 1) :
    obsEntry pts = .ok (obsVal pts) := by
  match pts, h with
  | [], _ => rfl
  | p0 :: p1 :: ps, _ => simp [obsEntry, obsVal, Res.idx]

theorem arenaEntry_ub (lowB upB : K) (p : K) : arenaEntry lowB upB [p] = .ub := by
  simp [arenaEntry, Res.idx]

theorem obsEntry_ub (p : K) : obsEntry [p] = .ub := by
  simp [obsEntry, Res.idx]

theorem fillArena_ok (isect : Line → Shape → List K) (lowB upB : K) (y : Line) (i : ℕ)
    (shs : List Shape) (hno1 : ∀ sh ∈ shs, (isect y sh).length ≠ 1) :
    ∀ (t : Table K) (pl pu : List (Option K)) (rl ru : List (Option K)),
      pl.length = pu.length →
      t.arenaLow[i]? = some (pl ++ rl) → t.arenaUpp[i]? = some (pu ++ ru) →
      rl.length = shs.length → ru.length = shs.length →
      fillArena isect lowB upB y i pl.length shs t = .ok
        { t with
          arenaLow := t.arenaLow.set i
            (pl ++ shs.map (fun sh => some (arenaVal lowB upB (isect y sh)).1))
          arenaUpp := t.arenaUpp.set i
            (pu ++ shs.map (fun sh => some (arenaVal lowB upB (isect y sh)).2)) } := by
  induction shs with
  | nil =>
    intro t pl pu rl ru hlen h1 h2 h3 h4
    have hrl : rl = [] := List.length_eq_zero_iff.1 (by simpa using h3)
    have hru : ru = [] := List.length_eq_zero_iff.1 (by simpa using h4)
    subst hrl hru
    obtain ⟨l1, e1⟩ := List.getElem?_eq_some_iff.1 h1
    obtain ⟨l2, e2⟩ := List.getElem?_eq_some_iff.1 h2
    simp only [fillArena, List.map_nil, ← e1, ← e2, List.set_getElem_self]
  | cons sh shs ih =>
    intro t pl pu rl ru hlen h1 h2 h3 h4
    obtain ⟨a, rl', rfl⟩ : ∃ a l, rl = a :: l := by
      cases rl with
      | nil => simp at h3
      | cons a l => exact ⟨a, l, rfl⟩
    obtain ⟨b, ru', rfl⟩ : ∃ a l, ru = a :: l := by
      cases ru with
      | nil => simp at h4
      | cons a l => exact ⟨a, l, rfl⟩
    have l1 := (List.getElem?_eq_some_iff.1 h1).1
    have l2 := (List.getElem?_eq_some_iff.1 h2).1
    rw [fillArena, arenaEntry_ok _ _ _ (hno1 sh (by simp)), Res.bind_ok,
      setAt2_ok _ _ _ _ _ h1 (by simp), Res.bind_ok,
      setAt2_ok _ _ _ _ _ h2 (by simp [hlen]), Res.bind_ok]
    have s1 : (pl ++ a :: rl').set pl.length (some (arenaVal lowB upB (isect y sh)).1) =
        (pl ++ [some (arenaVal lowB upB (isect y sh)).1]) ++ rl' := by
      simp
    have s2 : (pu ++ b :: ru').set pl.length (some (arenaVal lowB upB (isect y sh)).2) =
        (pu ++ [some (arenaVal lowB upB (isect y sh)).2]) ++ ru' := by
      simp [hlen]
    rw [s1, s2]
    have := ih (fun s hs => hno1 s (by simp [hs]))
      { t with
        arenaLow := t.arenaLow.set i ((pl ++ [some (arenaVal lowB upB (isect y sh)).1]) ++ rl')
        arenaUpp := t.arenaUpp.set i ((pu ++ [some (arenaVal lowB upB (isect y sh)).2]) ++ ru') }
      (pl ++ [some (arenaVal lowB upB (isect y sh)).1])
      (pu ++ [some (arenaVal lowB upB (isect y sh)).2]) rl' ru' (by simp [hlen])
      (by simp [l1]) (by simp [l2])
      (by simpa using h3) (by simpa using h4)
    rw [List.length_append, List.length_singleton] at this
    rw [this]
    simp

theorem fillObs_ok (isect : Line → Shape → List K) (y : Line) (i : ℕ)
    (shs : List Shape) (hno1 : ∀ sh ∈ shs, (isect y sh).length ≠ 1) :
    ∀ (t : Table K) (pl pu : List (Option K)) (rl ru : List (Option K)),
      pl.length = pu.length →
      t.obsLow[i]? = some (pl ++ rl) → t.obsUpp[i]? = some (pu ++ ru) →
      rl.length = shs.length → ru.length = shs.length →
      fillObs isect y i pl.length shs t = .ok
        { t with
          obsLow := t.obsLow.set i (pl ++ shs.map (fun sh => (obsVal (isect y sh)).1))
          obsUpp := t.obsUpp.set i (pu ++ shs.map (fun sh => (obsVal (isect y sh)).2)) } := by
  induction shs with
  | nil =>
    intro t pl pu rl ru hlen h1 h2 h3 h4
    have hrl : rl = [] := List.length_eq_zero_iff.1 (by simpa using h3)
    have hru : ru = [] := List.length_eq_zero_iff.1 (by simpa using h4)
    subst hrl hru
    obtain ⟨l1, e1⟩ := List.getElem?_eq_some_iff.1 h1
    obtain ⟨l2, e2⟩ := List.getElem?_eq_some_iff.1 h2
    simp only [fillObs, List.map_nil, ← e1, ← e2, List.set_getElem_self]
  | cons sh shs ih =>
    intro t pl pu rl ru hlen h1 h2 h3 h4
    obtain ⟨a, rl', rfl⟩ : ∃ a l, rl = a :: l := by
      cases rl with
      | nil => simp at h3
      | cons a l => exact ⟨a, l, rfl⟩
    obtain ⟨b, ru', rfl⟩ : ∃ a l, ru = a :: l := by
      cases ru with
      | nil => simp at h4
      | cons a l => exact ⟨a, l, rfl⟩
    have l1 := (List.getElem?_eq_some_iff.1 h1).1
    have l2 := (List.getElem?_eq_some_iff.1 h2).1
    rw [fillObs, obsEntry_ok _ (hno1 sh (by simp)), Res.bind_ok,
      setAt2_ok _ _ _ _ _ h1 (by simp), Res.bind_ok,
      setAt2_ok _ _ _ _ _ h2 (by simp [hlen]), Res.bind_ok]
    have s1 : (pl ++ a :: rl').set pl.length (obsVal (isect y sh)).1 =
        (pl ++ [(obsVal (isect y sh)).1]) ++ rl' := by
      simp
    have s2 : (pu ++ b :: ru').set pl.length (obsVal (isect y sh)).2 =
        (pu ++ [(obsVal (isect y sh)).2]) ++ ru' := by
      simp [hlen]
    rw [s1, s2]
    have := ih (fun s hs => hno1 s (by simp [hs]))
      { t with
        obsLow := t.obsLow.set i ((pl ++ [(obsVal (isect y sh)).1]) ++ rl')
        obsUpp := t.obsUpp.set i ((pu ++ [(obsVal (isect y sh)).2]) ++ ru') }
      (pl ++ [(obsVal (isect y sh)).1])
      (pu ++ [(obsVal (isect y sh)).2]) rl' ru' (by simp [hlen])
      (by simp [l1]) (by simp [l2])
      (by simpa using h3) (by simpa using h4)
    rw [List.length_append, List.length_singleton] at this
    rw [this]
    simp

theorem getElem?_of_shape {β : Type*} {tab : List (List β)} {n w i : ℕ} (hn : tab.length = n)
    (hw : ∀ r ∈ tab, r.length = w) (hi : i < n) : ∃ r, tab[i]? = some r ∧ r.length = w := by
  refine ⟨tab[i], List.getElem?_eq_getElem (hn ▸ hi), hw _ (List.getElem_mem _)⟩

theorem shape_set {β : Type*} {tab : List (List β)} {w i : ℕ} {row : List β}
    (hw : ∀ r ∈ tab, r.length = w) (hr : row.length = w) : ∀ r ∈ tab.set i row, r.length = w := by
  intro r hr'
  rcases List.mem_or_eq_of_mem_set hr' with h | h
  · exact hw r h
  · rw [h, hr]

/-- One line filled. -/
theorem fillOne_ok (isect : Line → Shape → List K) (lowB upB : K) (arena obs : List Shape)
    (y : Line) (i n : ℕ) (t : Table K) (hsh : t.Shape n arena.length obs.length) (hi : i < n)
    (hna : ∀ sh ∈ arena, (isect y sh).length ≠ 1) (hno : ∀ sh ∈ obs, (isect y sh).length ≠ 1) :
    (fillArena isect lowB upB y i 0 arena t >>= fun t => fillObs isect y i 0 obs t) = .ok
      ⟨t.arenaLow.set i (arena.map fun sh => some (arenaVal lowB upB (isect y sh)).1),
       t.arenaUpp.set i (arena.map fun sh => some (arenaVal lowB upB (isect y sh)).2),
       t.obsLow.set i (obs.map fun sh => (obsVal (isect y sh)).1),
       t.obsUpp.set i (obs.map fun sh => (obsVal (isect y sh)).2)⟩ := by
  obtain ⟨r1, a1, b1⟩ := getElem?_of_shape hsh.al hsh.ral hi
  obtain ⟨r2, a2, b2⟩ := getElem?_of_shape hsh.au hsh.rau hi
  obtain ⟨r3, a3, b3⟩ := getElem?_of_shape hsh.ol hsh.rol hi
  obtain ⟨r4, a4, b4⟩ := getElem?_of_shape hsh.ou hsh.rou hi
  have e1 := fillArena_ok isect lowB upB y i arena hna t [] [] r1 r2 rfl (by simpa using a1)
    (by simpa using a2) b1 b2
  simp only [List.length_nil, List.nil_append] at e1
  rw [e1, Res.bind_ok]
  have e2 := fillObs_ok isect y i obs hno
    { t with
      arenaLow := t.arenaLow.set i (arena.map fun sh => some (arenaVal lowB upB (isect y sh)).1)
      arenaUpp := t.arenaUpp.set i (arena.map fun sh => some (arenaVal lowB upB (isect y sh)).2) }
    [] [] r3 r4 rfl (by simpa using a3) (by simpa using a4) b3 b4
  simp only [List.length_nil, List.nil_append] at e2
  rw [e2]

/-- Row `i` of a filled table. -/
def FilledRow (isect : Line → Shape → List K) (lowB upB : K) (arena obs : List Shape) (t : Table K)
    (i : ℕ) (y : Line) : Prop :=
  t.arenaLow[i]? = some (arena.map fun sh => some (arenaVal lowB upB (isect y sh)).1) ∧
  t.arenaUpp[i]? = some (arena.map fun sh => some (arenaVal lowB upB (isect y sh)).2) ∧
  t.obsLow[i]? = some (obs.map fun sh => (obsVal (isect y sh)).1) ∧
  t.obsUpp[i]? = some (obs.map fun sh => (obsVal (isect y sh)).2)

theorem fillLines_ok (isect : Line → Shape → List K) (lowB upB : K) (arena obs : List Shape)
    (n : ℕ) (ys : List Line) :
    ∀ (i0 : ℕ) (t : Table K), t.Shape n arena.length obs.length → i0 + ys.length ≤ n →
      (∀ y ∈ ys, ∀ sh ∈ arena ++ obs, (isect y sh).length ≠ 1) →
      ∃ t', fillLines isect lowB upB arena obs i0 ys t = .ok t' ∧
        t'.Shape n arena.length obs.length ∧
        (∀ k y, ys[k]? = some y → FilledRow isect lowB upB arena obs t' (i0 + k) y) ∧
        (∀ j, j < i0 → t'.arenaLow[j]? = t.arenaLow[j]? ∧ t'.arenaUpp[j]? = t.arenaUpp[j]? ∧
          t'.obsLow[j]? = t.obsLow[j]? ∧ t'.obsUpp[j]? = t.obsUpp[j]?) := by
  induction ys with
  | nil =>
    intro i0 t hsh _ _
    exact ⟨t, rfl, hsh, by simp, fun j _ => ⟨rfl, rfl, rfl, rfl⟩⟩
  | cons y ys ih =>
    intro i0 t hsh hle hno
    have hi : i0 < n := by simp at hle; omega
    have e := fillOne_ok isect lowB upB arena obs y i0 n t hsh hi
      (fun sh hs => hno y (by simp) sh (by simp [hs]))
      (fun sh hs => hno y (by simp) sh (by simp [hs]))
    set t1 : Table K := ⟨t.arenaLow.set i0 (arena.map fun sh => some (arenaVal lowB upB (isect y sh)).1),
       t.arenaUpp.set i0 (arena.map fun sh => some (arenaVal lowB upB (isect y sh)).2),
       t.obsLow.set i0 (obs.map fun sh => (obsVal (isect y sh)).1),
       t.obsUpp.set i0 (obs.map fun sh => (obsVal (isect y sh)).2)⟩ with ht1
    have hsh1 : t1.Shape n arena.length obs.length :=
      ⟨by simp [ht1, hsh.al], by simp [ht1, hsh.au], by simp [ht1, hsh.ol], by simp [ht1, hsh.ou],
       shape_set hsh.ral (by simp), shape_set hsh.rau (by simp),
       shape_set hsh.rol (by simp), shape_set hsh.rou (by simp)⟩
    obtain ⟨t', f1, f2, f3, f4⟩ := ih (i0 + 1) t1 hsh1 (by simp at hle; omega)
      (fun y' hy => hno y' (by simp [hy]))
    refine ⟨t', ?_, f2, ?_, ?_⟩
    · rw [fillLines]
      cases h1 : fillArena isect lowB upB y i0 0 arena t with
      | throw => rw [h1] at e; simp at e
      | ub => rw [h1] at e; simp at e
      | ok ta =>
        rw [h1] at e
        simp only [Res.bind_ok] at e ⊢
        rw [e]
        simpa using f1
    · intro k z hk
      cases k with
      | zero =>
        simp only [List.getElem?_cons_zero, Option.some.injEq] at hk
        subst hk
        obtain ⟨g1, g2, g3, g4⟩ := f4 i0 (by omega)
        refine ⟨?_, ?_, ?_, ?_⟩
        · rw [Nat.add_zero, g1]; simp [ht1, hsh.al, hi]
        · rw [Nat.add_zero, g2]; simp [ht1, hsh.au, hi]
        · rw [Nat.add_zero, g3]; simp [ht1, hsh.ol, hi]
        · rw [Nat.add_zero, g4]; simp [ht1, hsh.ou, hi]
      | succ k =>
        have := f3 k z (by simpa using hk)
        rw [show i0 + (k + 1) = i0 + 1 + k by omega]; exact this
    · intro j hj
      obtain ⟨g1, g2, g3, g4⟩ := f4 j (by omega)
      have hne : i0 ≠ j := by omega
      refine ⟨?_, ?_, ?_, ?_⟩
      · rw [g1]; simp [ht1, List.getElem?_set_ne hne]
      · rw [g2]; simp [ht1, List.getElem?_set_ne hne]
      · rw [g3]; simp [ht1, List.getElem?_set_ne hne]
      · rw [g4]; simp [ht1, List.getElem?_set_ne hne]

/-- More lines than rows: the loop throws. -/
theorem fillLines_throw (isect : Line → Shape → List K) (lowB upB : K) (arena obs : List Shape)
    (n : ℕ) (ys : List Line) :
    ∀ (i0 : ℕ) (t : Table K), t.Shape n arena.length obs.length → i0 ≤ n → n < i0 + ys.length →
      0 < arena.length + obs.length →
      (∀ y ∈ ys, ∀ sh ∈ arena ++ obs, (isect y sh).length ≠ 1) →
      fillLines isect lowB upB arena obs i0 ys t = .throw := by
  induction ys with
  | nil => intro i0 t _ h1 h2; simp at h2; omega
  | cons y ys ih =>
    intro i0 t hsh hi0 hlt hpos hno
    rcases Nat.lt_or_eq_of_le hi0 with hi | hi
    · have e := fillOne_ok isect lowB upB arena obs y i0 n t hsh hi
        (fun sh hs => hno y (by simp) sh (by simp [hs]))
        (fun sh hs => hno y (by simp) sh (by simp [hs]))
      rw [fillLines]
      cases h1 : fillArena isect lowB upB y i0 0 arena t with
      | throw => rfl
      | ub => rw [h1] at e; simp at e
      | ok ta =>
        rw [h1] at e
        simp only [Res.bind_ok] at e ⊢
        rw [e]
        simp only [Res.bind_ok]
        refine ih (i0 + 1) _ ?_ (by omega) (by simp at hlt; omega) hpos
          (fun y' hy => hno y' (by simp [hy]))
        exact ⟨by simp [hsh.al], by simp [hsh.au], by simp [hsh.ol], by simp [hsh.ou],
         shape_set hsh.ral (by simp), shape_set hsh.rau (by simp),
         shape_set hsh.rol (by simp), shape_set hsh.rou (by simp)⟩
    · subst hi
      rw [fillLines]
      cases arena with
      | cons sh shs =>
        rw [fillArena, arenaEntry_ok _ _ _ (hno y (by simp) sh (by simp)), Res.bind_ok,
          setAt2_throw _ _ _ _ (le_of_eq hsh.al)]
        rfl
      | nil =>
        cases obs with
        | nil => simp at hpos
        | cons sh shs =>
          rw [fillArena, Res.bind_ok, fillObs, obsEntry_ok _ (hno y (by simp) sh (by simp)),
            Res.bind_ok, setAt2_throw _ _ _ _ (le_of_eq hsh.ol)]
          rfl

theorem setup_shape (numLine numArena numObs : ℕ) (lowB upB : K) :
    (setupTable (emptyTable K) numLine numArena numObs lowB upB).Shape numLine numArena numObs := by
  have hmem : ∀ {β : Type _} (n w : ℕ) (v : β), ∀ r ∈ vresize ([] : List (List β)) n (List.replicate w v),
      r.length = w := by
    intro β n w v r hr
    simp only [vresize, List.take_nil, List.nil_append] at hr
    rw [List.eq_of_mem_replicate hr]; simp
  refine ⟨?_, ?_, ?_, ?_, hmem _ _ _, hmem _ _ _, hmem _ _ _, hmem _ _ _⟩ <;>
    simp [setupTable, emptyTable, vresize]

end order

section field
variable {K : Type*} [Field K] [LinearOrder K]

theorem freeRows_ok (S : StdSort K) (dmin dmax : K) (t : Table K) (n : ℕ)
    (h : ∀ i < n, ∃ ivs, sweepLineFree S dmin dmax t i = .ok ivs) :
    ∃ ivss : List (List (Interval K)), ivss.length = n ∧
      (∀ i ivs, ivss[i]? = some ivs → sweepLineFree S dmin dmax t i = .ok ivs) ∧
      freeRows S dmin dmax t n = .ok (ivss.map rowOf) := by
  unfold freeRows
  obtain ⟨rows, h1, ivss, h2, h3, h4⟩ := foldlM_range_inv
    (fun (rows : List (SegRow K)) i => do
      let ivs ← sweepLineFree S dmin dmax t i
      Res.ok (rows ++ [rowOf ivs]))
    (fun k rows => ∃ ivss : List (List (Interval K)), ivss.length = k ∧
      (∀ i ivs, ivss[i]? = some ivs → sweepLineFree S dmin dmax t i = .ok ivs) ∧
      rows = ivss.map rowOf) n [] ⟨[], rfl, by simp, rfl⟩ (by
        rintro k hk rows ⟨ivss, e1, e2, rfl⟩
        obtain ⟨ivs, hi⟩ := h k hk
        refine ⟨_, by rw [hi]; rfl, ivss ++ [ivs], by simp [e1], ?_, by simp⟩
        intro i iv hiv
        rcases Nat.lt_trichotomy i k with hlt | heq | hgt
        · rw [List.getElem?_append_left (by omega)] at hiv
          exact e2 i iv hiv
        · subst heq
          rw [List.getElem?_append_right (by omega)] at hiv
          simp [e1] at hiv
          subst hiv; exact hi
        · rw [List.getElem?_eq_none (by simp; omega)] at hiv; simp at hiv)
  exact ⟨ivss, h2, h3, by rw [h1, h4]⟩

theorem freeRows_throw (S : StdSort K) (dmin dmax : K) (t : Table K) (n m : ℕ) (hm : m < n)
    (h : ∀ i < m, ∃ ivs, sweepLineFree S dmin dmax t i = .ok ivs)
    (hlen : t.arenaLow.length = m) :
    freeRows S dmin dmax t n = .throw := by
  unfold freeRows
  refine foldlM_range_throw _ (fun _ _ => True) n m [] hm trivial ?_ ?_
  · intro j hj s _
    obtain ⟨ivs, hi⟩ := h j hj
    exact ⟨s ++ [rowOf ivs], by simp only [hi, Res.bind_ok], trivial⟩
  · intro s _
    simp only [sweepLineFree_throw S dmin dmax t m (le_of_eq hlen)]; rfl

end field
end Hrm
