import Verif.Model.Plan
import Verif.Lemmas.Res
import Mathlib.Order.Monotone.Basic
import Mathlib.Tactic.Linarith
import Mathlib.Algebra.Order.Archimedean.Basic
import Mathlib.Algebra.Order.Archimedean.Real.Basic

/-!
# C32, C68: the planning loops and what they report
-/

namespace Hrm

open Classical

variable {σ : Type}

/-- What every timed step guarantees between the reports `r` and `r'`. -/
structure Prog (clock : ℕ → ℝ) (r r' : PlanRep σ) : Prop where
  tick : r.tick ≤ r'.tick
  path : (r'.solvedPath, r'.interpolated) = (r.solvedPath, r.interpolated)
  build : Monotone clock → r.buildTime ≤ r'.buildTime
  search : Monotone clock → r.searchTime ≤ r'.searchTime
  elapsed : Monotone clock → 1 ≤ r.tick → r'.buildTime + r'.searchTime ≤
    r.buildTime + r.searchTime + (clock (r'.tick - 1) - clock (r.tick - 1))

theorem Prog.refl (clock : ℕ → ℝ) (r : PlanRep σ) : Prog clock r r :=
  ⟨le_rfl, rfl, fun _ => le_rfl, fun _ => le_rfl, fun _ _ => by simp⟩

theorem Prog.trans {clock : ℕ → ℝ} {a b c : PlanRep σ} (h1 : Prog clock a b) (h2 : Prog clock b c) :
    Prog clock a c :=
  ⟨h1.tick.trans h2.tick, h2.path.trans h1.path, fun m => (h1.build m).trans (h2.build m),
    fun m => (h1.search m).trans (h2.search m), fun m ht => by
      have e1 := h1.elapsed m ht
      have e2 := h2.elapsed m (ht.trans h1.tick)
      linarith⟩

theorem timedBuild_sat {clock : ℕ → ℝ} {f : σ → Res σ} {r : PlanRep σ} {tot : Prop} {I J : σ → Prop}
    (hf : I r.st → Res.Sat tot (f r.st) J) (hI : I r.st) :
    Res.Sat tot (timedBuild clock f r) (fun r' => J r'.st ∧ Prog clock r r' ∧ r'.tick = r.tick + 2 ∧
      r'.searchTime = r.searchTime ∧ r'.totalTime = r.totalTime ∧
      r'.buildTime = r.buildTime + (clock (r.tick + 1) - clock r.tick)) := by
  refine Res.Sat.bind (hf hI) ?_
  intro s hs
  refine Res.Sat.ok ⟨hs, ⟨by simp, rfl, ?_, fun _ => le_rfl, ?_⟩, rfl, rfl, rfl, rfl⟩
  · intro m
    have := m (Nat.le_succ r.tick)
    simp only [Nat.succ_eq_add_one] at this
    dsimp only
    linarith
  · intro m _
    have := m (Nat.sub_le r.tick 1)
    dsimp only
    rw [show r.tick + 2 - 1 = r.tick + 1 by omega]
    linarith

theorem timedSearch_sat {ops : PlanOps σ} {clock : ℕ → ℝ} {r : PlanRep σ} {tot : Prop} {I J : σ → Prop}
    (hf : I r.st → Res.Sat tot (ops.search r.st) J) (hI : I r.st) :
    Res.Sat tot (timedSearch ops clock r) (fun r' => J r'.st ∧ Prog clock r r' ∧ r'.tick = r.tick + 2 ∧
      r'.buildTime = r.buildTime ∧ r'.totalTime = r'.buildTime + r'.searchTime ∧
      r'.searchTime = r.searchTime + (clock (r.tick + 1) - clock r.tick)) := by
  refine Res.Sat.bind (hf hI) ?_
  intro s hs
  refine Res.Sat.ok ⟨hs, ⟨by simp, rfl, fun _ => le_rfl, ?_, ?_⟩, rfl, rfl, rfl, rfl⟩
  · intro m
    have := m (Nat.le_succ r.tick)
    simp only [Nat.succ_eq_add_one] at this
    dsimp only
    linarith
  · intro m _
    have := m (Nat.sub_le r.tick 1)
    dsimp only
    rw [show r.tick + 2 - 1 = r.tick + 1 by omega]
    linarith

/-- The planner's steps always return and keep `I`. -/
structure PlanOps.Total (ops : PlanOps σ) (tot : Prop) (I : σ → Prop) : Prop where
  build : ∀ s, I s → Res.Sat tot (ops.build s) I
  search : ∀ s, I s → Res.Sat tot (ops.search s) I
  refineSlice : ∀ i s, I s → Res.Sat tot (ops.refineSlice i s) I
  beginRefine : ∀ s, I s → I (ops.beginRefine s)
  endRefine : ∀ s, I s → I (ops.endRefine s)

theorem PlanOps.total_true (ops : PlanOps σ) : ops.Total False (fun _ => True) :=
  ⟨fun _ _ => ⟨fun _ _ => trivial, False.elim⟩, fun _ _ => ⟨fun _ _ => trivial, False.elim⟩,
    fun _ _ _ => ⟨fun _ _ => trivial, False.elim⟩, fun _ _ => trivial, fun _ _ => trivial⟩

theorem refineLoop_sat {ops : PlanOps σ} {clock : ℕ → ℝ} {timeLim : ℝ} {tot : Prop} {I : σ → Prop}
    (ht : ops.Total tot I) (l : List ℕ) : ∀ r : PlanRep σ, I r.st →
    Res.Sat tot (refineLoop ops clock timeLim l r) (fun b => I b.1.st ∧ Prog clock r b.1 ∧
      (r.totalTime = r.buildTime + r.searchTime → b.1.totalTime = b.1.buildTime + b.1.searchTime) ∧
      (l ≠ [] → ∀ δ, Monotone clock → (∀ n, clock n + δ ≤ clock (n + 1)) →
        r.buildTime + r.searchTime + 2 * δ ≤ b.1.buildTime + b.1.searchTime)) := by
  induction l with
  | nil => intro r hr; exact Res.Sat.ok ⟨hr, Prog.refl _ _, fun h => h, fun h => absurd rfl h⟩
  | cons i l ih =>
    intro r hr
    unfold refineLoop
    refine Res.Sat.bind (timedBuild_sat (ht.refineSlice i r.st) hr) ?_
    rintro r1 ⟨i1, p1, t1, s1, -, b1⟩
    refine Res.Sat.bind (timedSearch_sat (ht.search r1.st) i1) ?_
    rintro r2 ⟨i2, p2, t2, b2, c2, s2⟩
    have key : ∀ δ, (∀ n, clock n + δ ≤ clock (n + 1)) →
        r.buildTime + r.searchTime + 2 * δ ≤ r2.buildTime + r2.searchTime := by
      intro δ hδ
      have e1 := hδ r.tick
      have e2 := hδ r1.tick
      rw [b2, s2, b1, s1]
      linarith
    split
    · exact Res.Sat.ok ⟨i2, p1.trans p2, fun _ => c2, fun _ δ _ hδ => key δ hδ⟩
    · refine (ih r2 i2).mono ?_
      rintro ⟨r3, b⟩ ⟨i3, p3, c3, -⟩
      refine ⟨i3, (p1.trans p2).trans p3, fun _ => c3 c2, fun _ δ m hδ => ?_⟩
      have e1 := key δ hδ
      have e2 := p3.build m
      have e3 := p3.search m
      simp only at e2 e3 ⊢
      linarith

theorem refineExist_sat {ops : PlanOps σ} {clock : ℕ → ℝ} {timeLim : ℝ} {tot : Prop} {I : σ → Prop}
    (ht : ops.Total tot I) (r : PlanRep σ) (hr : I r.st)
    (hc : r.totalTime = r.buildTime + r.searchTime) :
    Res.Sat tot (refineExist ops clock timeLim r) (fun r' => I r'.st ∧ Prog clock r r' ∧
      r'.totalTime = r'.buildTime + r'.searchTime ∧
      (1 ≤ ops.numSlice r.st → ∀ δ, Monotone clock → (∀ n, clock n + δ ≤ clock (n + 1)) →
        r.totalTime + 2 * δ ≤ r'.totalTime)) := by
  unfold refineExist
  refine Res.Sat.bind (refineLoop_sat ht (List.range (ops.numSlice r.st))
    { r with st := ops.beginRefine r.st } (ht.beginRefine _ hr)) ?_
  rintro ⟨r1, b⟩ ⟨i1, p1, c1, d1⟩
  simp only at i1 p1 c1 d1
  have p1' : Prog clock r r1 := ⟨p1.tick, p1.path, p1.build, p1.search, p1.elapsed⟩
  have c1 := c1 hc
  have d1' : 1 ≤ ops.numSlice r.st → ∀ δ, Monotone clock → (∀ n, clock n + δ ≤ clock (n + 1)) →
      r.totalTime + 2 * δ ≤ r1.totalTime := by
    intro hn δ m hδ
    have := d1 (by intro e; rw [List.range_eq_nil] at e; omega) δ m hδ
    rw [hc, c1]
    exact this
  cases b with
  | true => exact Res.Sat.ok ⟨i1, p1', c1, d1'⟩
  | false =>
    refine Res.Sat.ok ⟨ht.endRefine _ i1, ⟨p1'.tick, p1'.path, p1'.build, p1'.search, p1'.elapsed⟩, c1, d1'⟩

/-- One step of a refinement: slice `i` is refined, then the roadmap is searched, and the time spent is
added to the report. -/
def RefineStep (ops : PlanOps σ) (i : ℕ) (r r' : PlanRep σ) : Prop :=
  ∃ s, ops.refineSlice i r.st = .ok s ∧ ops.search s = .ok r'.st ∧
    r'.totalTime = r'.buildTime + r'.searchTime ∧ r'.solvedPath = r.solvedPath

theorem refineLoop_trace {ops : PlanOps σ} {clock : ℕ → ℝ} {timeLim : ℝ} (n : ℕ) : ∀ (k : ℕ)
    (r r' : PlanRep σ) (b : Bool), refineLoop ops clock timeLim (List.range' k n) r = .ok (r', b) →
    ∃ tr : ℕ → PlanRep σ, ∃ m, m ≤ n ∧ tr 0 = r ∧ tr m = r' ∧
      (∀ i, i < m → RefineStep ops (k + i) (tr i) (tr (i + 1))) ∧
      (∀ i, 0 < i → i < m → ops.solved (tr i).st = false ∧ (tr i).totalTime ≤ timeLim) ∧
      (b = true → 0 < m ∧ (ops.solved r'.st = true ∨ timeLim < r'.totalTime)) ∧
      (b = false → m = n ∧ (0 < m → ops.solved r'.st = false ∧ r'.totalTime ≤ timeLim)) := by
  induction n with
  | zero =>
    intro k r r' b h
    simp only [List.range'_zero, refineLoop, Res.ok.injEq, Prod.mk.injEq] at h
    obtain ⟨rfl, rfl⟩ := h
    exact ⟨fun _ => r, 0, le_rfl, rfl, rfl, by simp, by simp, by simp, by simp⟩
  | succ n ih =>
    intro k r r' b h
    rw [List.range'_succ, refineLoop] at h
    cases h1 : ops.refineSlice k r.st with
    | throw => simp [timedBuild, h1] at h
    | ub => simp [timedBuild, h1] at h
    | ok s1 =>
    simp only [timedBuild, h1, Res.bind_ok'] at h
    cases h2 : ops.search s1 with
    | throw => simp [timedSearch, h2] at h
    | ub => simp [timedSearch, h2] at h
    | ok s2 =>
    simp only [timedSearch, h2, Res.bind_ok'] at h
    have hstep : ∀ r2 : PlanRep σ, r2.st = s2 → r2.totalTime = r2.buildTime + r2.searchTime →
        r2.solvedPath = r.solvedPath → RefineStep ops k r r2 :=
      fun r2 e1 e2 e3 => ⟨s1, h1, by rw [e1, h2], e2, e3⟩
    split at h
    · rename_i hs
      simp only [Res.ok.injEq, Prod.mk.injEq] at h
      obtain ⟨h, rfl⟩ := h
      refine ⟨fun i => if i = 0 then r else r', 1, by omega, rfl, rfl, ?_, by omega, ?_, by simp⟩
      · intro i hi
        obtain rfl : i = 0 := by omega
        exact hstep _ (by rw [← h]; rfl) (by rw [← h]; rfl) (by rw [← h]; rfl)
      · intro _
        refine ⟨one_pos, ?_⟩
        rw [← h]
        exact hs
    · rename_i hs
      obtain ⟨tr, m, hm, h0, hr, hst, hmid, ht, hf⟩ := ih _ _ _ _ h
      rw [not_or] at hs
      obtain ⟨hs1, hs2⟩ := hs
      have hs1 := Bool.eq_false_iff.2 hs1
      have hs2 := not_lt.1 hs2
      refine ⟨fun i => if i = 0 then r else tr (i - 1), m + 1, by omega, rfl, by simpa using hr, ?_, ?_, ?_, ?_⟩
      · intro i hi
        rcases Nat.eq_zero_or_pos i with rfl | hi0
        · simp only [if_true, Nat.add_zero]
          simp only [Nat.zero_add, Nat.one_ne_zero, if_false, Nat.sub_self, h0]
          exact hstep _ rfl rfl rfl
        · obtain ⟨i, rfl⟩ : ∃ j, i = j + 1 := ⟨i - 1, by omega⟩
          have := hst i (by omega)
          rw [show k + (i + 1) = k + 1 + i by omega]
          simpa using this
      · intro i hi hi'
        rcases Nat.lt_or_ge i 2 with h2' | h2'
        · obtain rfl : i = 1 := by omega
          simp only [Nat.one_ne_zero, if_false, Nat.sub_self, h0]
          exact ⟨hs1, hs2⟩
        · have := hmid (i - 1) (by omega) (by omega)
          simpa [show i ≠ 0 by omega] using this
      · intro hb
        exact ⟨by omega, (ht hb).2⟩
      · intro hb
        refine ⟨by have := (hf hb).1; omega, fun _ => ?_⟩
        rcases Nat.eq_zero_or_pos m with rfl | hm0
        · rw [← hr, h0]
          exact ⟨hs1, hs2⟩
        · exact (hf hb).2 hm0

/-- **C32 (one refinement).** A refinement goes through the slices `0, 1, 2, …` in order, refining and then
searching for each, and stops right after the first slice at which a path is found or the time limit is
exceeded; if that never happens it goes through all the slices. `tr i` is the report after `i` slices. -/
theorem C32_refine_stops (ops : PlanOps σ) (clock : ℕ → ℝ) (timeLim : ℝ) (r r' : PlanRep σ)
    (h : refineExist ops clock timeLim r = .ok r') :
    ∃ tr : ℕ → PlanRep σ, ∃ m, m ≤ ops.numSlice r.st ∧ tr 0 = { r with st := ops.beginRefine r.st } ∧
      (∀ i, i < m → RefineStep ops i (tr i) (tr (i + 1))) ∧
      (∀ i, 0 < i → i < m → ops.solved (tr i).st = false ∧ (tr i).totalTime ≤ timeLim) ∧
      ((0 < m ∧ r' = tr m ∧ (ops.solved r'.st = true ∨ timeLim < r'.totalTime)) ∨
       (m = ops.numSlice r.st ∧ r' = { tr m with st := ops.endRefine (tr m).st } ∧
        (0 < m → ops.solved (tr m).st = false ∧ (tr m).totalTime ≤ timeLim))) := by
  unfold refineExist at h
  cases hl : refineLoop ops clock timeLim (List.range (ops.numSlice r.st))
      { r with st := ops.beginRefine r.st } with
  | throw => simp [hl] at h
  | ub => simp [hl] at h
  | ok b =>
  obtain ⟨r1, b⟩ := b
  rw [hl, Res.bind_ok'] at h
  rw [List.range_eq_range'] at hl
  obtain ⟨tr, m, hm, h0, hr, hst, hmid, ht, hf⟩ := refineLoop_trace _ _ _ _ _ hl
  refine ⟨tr, m, hm, h0, fun i hi => by simpa using hst i hi, hmid, ?_⟩
  cases b with
  | true =>
    simp only [if_true, Res.ok.injEq] at h
    subst h
    exact Or.inl ⟨(ht rfl).1, hr.symm, (ht rfl).2⟩
  | false =>
    simp only [Bool.false_eq_true, if_false, Res.ok.injEq] at h
    subst h
    exact Or.inr ⟨(hf rfl).1, by rw [hr], by rw [hr]; exact (hf rfl).2⟩

theorem planLoop_spec {ops : PlanOps σ} {clock : ℕ → ℝ} {timeLim : ℝ} (fuel : ℕ) : ∀ (r r' : PlanRep σ),
    r.totalTime = r.buildTime + r.searchTime → planLoop ops clock timeLim fuel r = some (.ok r') →
    (ops.solved r'.st = true ∨ timeLim ≤ r'.totalTime) ∧ Prog clock r r' ∧
      r'.totalTime = r'.buildTime + r'.searchTime := by
  induction fuel with
  | zero =>
    intro r r' hc h
    unfold planLoop at h
    split at h
    · simp at h
    · rename_i hn
      simp only [Option.some.injEq, Res.ok.injEq] at h
      subst h
      refine ⟨?_, Prog.refl _ _, hc⟩
      by_cases hs : ops.solved r.st = true
      · exact Or.inl hs
      · refine Or.inr ?_
        by_contra hlt
        exact hn ⟨by simpa using hs, not_le.1 hlt⟩
  | succ fuel ih =>
    intro r r' hc h
    unfold planLoop at h
    split at h
    · dsimp only at h
      cases hr : refineExist ops clock timeLim r with
      | ok r1 =>
        rw [hr] at h
        simp only at h
        obtain ⟨-, p1, c1, -⟩ := (refineExist_sat (ops.total_true) r trivial hc).1 _ hr
        obtain ⟨a, p2, c⟩ := ih r1 r' c1 h
        exact ⟨a, p1.trans p2, c⟩
      | throw => rw [hr] at h; simp at h
      | ub => rw [hr] at h; simp at h
    · rename_i hn
      simp only [Option.some.injEq, Res.ok.injEq] at h
      subst h
      refine ⟨?_, Prog.refl _ _, hc⟩
      by_cases hs : ops.solved r.st = true
      · exact Or.inl hs
      · refine Or.inr ?_
        by_contra hlt
        exact hn ⟨by simpa using hs, not_le.1 hlt⟩

theorem finish_spec {ops : PlanOps σ} {r r' : PlanRep σ} (h : finish ops r = .ok r') :
    r'.st = r.st ∧ r'.tick = r.tick ∧ r'.buildTime = r.buildTime ∧ r'.searchTime = r.searchTime ∧
    r'.totalTime = r.totalTime ∧
    (ops.solved r.st = true → ops.path r.st = .ok r'.solvedPath ∧ ops.interp r.st r'.solvedPath = .ok r'.interpolated) ∧
    (ops.solved r.st = false → (r'.solvedPath, r'.interpolated) = (r.solvedPath, r.interpolated)) := by
  unfold finish at h
  split at h
  · rename_i hs
    obtain ⟨p, hp, h⟩ := Res.bind_eq_ok.1 h
    obtain ⟨q, hq, h⟩ := Res.bind_eq_ok.1 h
    obtain rfl := (Res.ok.injEq _ _).mp h
    simp [hs, hp, hq]
  · rename_i hs
    simp only [Res.ok.injEq] at h
    subst h
    simp [hs]

theorem plan_core {ops : PlanOps σ} {clock : ℕ → ℝ} {timeLim : ℝ} {fuel : ℕ} {r r' : PlanRep σ}
    (h : plan ops clock timeLim fuel r = some (.ok r')) :
    ∃ r1 r2, (timedBuild clock ops.build r).bind (timedSearch ops clock) = .ok r1 ∧
      planLoop ops clock timeLim fuel r1 = some (.ok r2) ∧ finish ops r2 = .ok r' := by
  unfold plan at h
  cases h1 : (timedBuild clock ops.build r).bind (timedSearch ops clock) with
  | ok r1 =>
    rw [h1] at h
    simp only at h
    cases h2 : planLoop ops clock timeLim fuel r1 with
    | none => rw [h2] at h; simp at h
    | some x =>
      rw [h2] at h
      simp only [Option.map_some, Option.some.injEq] at h
      cases x with
      | ok r2 => exact ⟨r1, r2, rfl, h2, h⟩
      | throw => simp at h
      | ub => simp at h
  | throw => rw [h1] at h; simp at h
  | ub => rw [h1] at h; simp at h

/-! ## C32 -/

/-- C32 (report): whatever the steps do and whatever the clock shows, if `plan(timeLim)` returns normally
then it is solved or the total time has reached the limit; the total time is build time plus search time;
the solution path and the interpolated path are the planner's own if solved and untouched otherwise. -/
theorem C32_plan_report (ops : PlanOps σ) (clock : ℕ → ℝ) (timeLim : ℝ) (fuel : ℕ) (r r' : PlanRep σ)
    (h : plan ops clock timeLim fuel r = some (.ok r')) :
    (ops.solved r'.st = true ∨ timeLim ≤ r'.totalTime) ∧
    r'.totalTime = r'.buildTime + r'.searchTime ∧
    (ops.solved r'.st = true → ops.path r'.st = .ok r'.solvedPath ∧ ops.interp r'.st r'.solvedPath = .ok r'.interpolated) ∧
    (ops.solved r'.st = false → r'.solvedPath = r.solvedPath ∧ r'.interpolated = r.interpolated) := by
  obtain ⟨r1, r2, h1, h2, h3⟩ := plan_core h
  have hsat : Res.Sat False ((timedBuild clock ops.build r).bind (timedSearch ops clock)) (fun r' =>
      Prog clock r r' ∧ r'.totalTime = r'.buildTime + r'.searchTime) := by
    refine Res.Sat.bind (timedBuild_sat (I := fun _ => True) (J := fun _ => True) (ops.total_true.build r.st) trivial) ?_
    rintro a ⟨-, p1, -⟩
    refine (timedSearch_sat (I := fun _ => True) (J := fun _ => True) (ops.total_true.search a.st) trivial).mono ?_
    rintro b ⟨-, p2, -, -, c2, -⟩
    exact ⟨p1.trans p2, c2⟩
  obtain ⟨p1, c1⟩ := hsat.1 _ h1
  obtain ⟨a, p2, c2⟩ := planLoop_spec fuel r1 r2 c1 h2
  obtain ⟨e1, e2, e3, e4, e5, e6, e7⟩ := finish_spec h3
  rw [e1, e3, e4, e5]
  exact ⟨a, c2, e6, fun hs => Prod.ext_iff.1 ((e7 hs).trans (p2.path.trans p1.path))⟩

/-- C32 (termination): if the steps always return (keeping an invariant under which there is at least one
slice), and consecutive clock readings are at least `δ > 0` apart, then `plan` returns, for every time
limit. -/
theorem C32_plan_terminates (ops : PlanOps σ) (I : σ → Prop) (ht : ops.Total True I)
    (hn : ∀ s, I s → 1 ≤ ops.numSlice s) (hpath : ∀ s, I s → ∃ p q, ops.path s = .ok p ∧ ops.interp s p = .ok q) (clock : ℕ → ℝ)
    (δ : ℝ) (hδ : 0 < δ) (hclock : ∀ n, clock n + δ ≤ clock (n + 1)) (timeLim : ℝ) (r : PlanRep σ)
    (hr : I r.st) : ∃ fuel r', plan ops clock timeLim fuel r = some (.ok r') := by
  have hm : Monotone clock := monotone_nat_of_le_succ fun n => by have := hclock n; linarith
  have hsat : Res.Sat True ((timedBuild clock ops.build r).bind (timedSearch ops clock)) (fun r' =>
      I r'.st ∧ r'.totalTime = r'.buildTime + r'.searchTime) := by
    refine Res.Sat.bind (timedBuild_sat (ht.build r.st) hr) ?_
    rintro a ⟨i1, -⟩
    refine (timedSearch_sat (ht.search a.st) i1).mono ?_
    rintro b ⟨i2, -, -, -, c2, -⟩
    exact ⟨i2, c2⟩
  obtain ⟨r1, h1⟩ := hsat.2 trivial
  obtain ⟨i1, c1⟩ := hsat.1 _ h1
  have loop : ∀ (fuel : ℕ) (r : PlanRep σ), I r.st → r.totalTime = r.buildTime + r.searchTime →
      timeLim ≤ r.totalTime + fuel * (2 * δ) →
      ∃ r', planLoop ops clock timeLim fuel r = some (.ok r') ∧ I r'.st := by
    intro fuel
    induction fuel with
    | zero =>
      intro r hr _ hf
      simp only [Nat.cast_zero, zero_mul, add_zero] at hf
      refine ⟨r, ?_, hr⟩
      unfold planLoop
      rw [if_neg (fun h => absurd h.2 (not_lt.2 hf))]
    | succ fuel ih =>
      intro r hr hc hf
      unfold planLoop
      split
      · obtain ⟨r2, h2⟩ := (refineExist_sat (clock := clock) (timeLim := timeLim) ht r hr hc).2 trivial
        obtain ⟨i2, -, c2, d2⟩ := (refineExist_sat (clock := clock) (timeLim := timeLim) ht r hr hc).1 _ h2
        have := d2 (hn _ hr) δ hm hclock
        obtain ⟨r3, h3, i3⟩ := ih r2 i2 c2 (by push_cast at hf; linarith)
        exact ⟨r3, by rw [h2]; exact h3, i3⟩
      · exact ⟨r, rfl, hr⟩
  obtain ⟨fuel, hf⟩ := exists_nat_ge ((timeLim - r1.totalTime) / (2 * δ))
  rw [div_le_iff₀ (by linarith)] at hf
  obtain ⟨r2, h2, i2⟩ := loop fuel r1 i1 c1 (by linarith)
  obtain ⟨p, q, hp, hq⟩ := hpath _ i2
  refine ⟨fuel, ?_⟩
  unfold plan
  rw [h1]
  simp only [h2, Option.map_some, Res.bind_ok', finish, hp, hq]
  split
  · exact ⟨_, rfl⟩
  · exact ⟨_, rfl⟩

/-- C32 (refinement): if refining the first slice throws – as it does, see C12 – then `plan` never
returns normally after a refinement: when the first search fails before the time limit, `plan` throws. -/
theorem C32_failed_first_search_throws (ops : PlanOps σ) (clock : ℕ → ℝ) (timeLim : ℝ) (fuel : ℕ)
    (r r1 : PlanRep σ) (h1 : (timedBuild clock ops.build r).bind (timedSearch ops clock) = .ok r1)
    (hns : ops.solved r1.st = false) (hlt : r1.totalTime < timeLim) (hn : 1 ≤ ops.numSlice r1.st)
    (hthrow : ∀ s, ops.refineSlice 0 s = .throw) :
    plan ops clock timeLim (fuel + 1) r = some .throw := by
  have hre : refineExist ops clock timeLim r1 = .throw := by
    unfold refineExist
    obtain ⟨m, hm⟩ : ∃ m, ops.numSlice r1.st = m + 1 := ⟨ops.numSlice r1.st - 1, by omega⟩
    rw [hm, List.range_succ_eq_map]
    simp [refineLoop, timedBuild, hthrow]
  unfold plan
  rw [h1]
  simp only
  unfold planLoop
  rw [if_pos ⟨hns, hlt⟩]
  simp [hre]

theorem probPass_spec {ops : ProbOps σ} {clock : ℕ → ℝ} {timeLim : ℝ} {s s' : PlanRep σ × ℝ}
    (h : probPass ops clock timeLim s = .ok s') :
    s'.1.totalTime = s'.1.buildTime + s'.1.searchTime ∧
      (s'.1.solvedPath, s'.1.interpolated) = (s.1.solvedPath, s.1.interpolated) := by
  unfold probPass at h
  cases h1 : ops.addSlice s.1.st with
  | ok st1 =>
    rw [h1] at h
    simp only [Res.bind_ok'] at h
    cases h2 : ops.search st1 with
    | ok st2 =>
      rw [h2] at h
      simp only [Res.bind_ok'] at h
      split at h
      · cases h3 : refineExist ops.toPlanOps clock timeLim { s.1 with
            st := st2, tick := s.1.tick + 3, buildTime := s.1.buildTime + (clock s.1.tick - s.2),
            searchTime := s.1.searchTime + (clock (s.1.tick + 2) - clock (s.1.tick + 1)),
            totalTime := s.1.buildTime + (clock s.1.tick - s.2) +
              (s.1.searchTime + (clock (s.1.tick + 2) - clock (s.1.tick + 1))) } with
        | ok r1 =>
          rw [h3] at h
          simp only [Res.bind_ok', Res.ok.injEq] at h
          subst h
          obtain ⟨-, p, c, -⟩ := (refineExist_sat (ops.toPlanOps.total_true) _ trivial rfl).1 _ h3
          exact ⟨c, p.path⟩
        | throw => rw [h3] at h; simp at h
        | ub => rw [h3] at h; simp at h
      · simp only [Res.ok.injEq] at h
        subst h
        exact ⟨rfl, rfl⟩
    | throw => rw [h2] at h; simp at h
    | ub => rw [h2] at h; simp at h
  | throw => rw [h1] at h; simp at h
  | ub => rw [h1] at h; simp at h

/-- C32 (report, incremental planner). -/
theorem C32_prob_plan_report (ops : ProbOps σ) (reset : σ → σ) (clock : ℕ → ℝ) (timeLim : ℝ) (fuel : ℕ)
    (r r' : PlanRep σ) (h : probPlan ops reset clock timeLim fuel r = some (.ok r')) :
    (ops.solved r'.st = true ∨ timeLim ≤ r'.totalTime) ∧
    r'.totalTime = r'.buildTime + r'.searchTime ∧
    (ops.solved r'.st = true → ops.path r'.st = .ok r'.solvedPath ∧ ops.interp r'.st r'.solvedPath = .ok r'.interpolated) ∧
    (ops.solved r'.st = false → r'.solvedPath = r.solvedPath ∧ r'.interpolated = r.interpolated) := by
  have loop : ∀ (fuel : ℕ) (s : PlanRep σ × ℝ) (r2 : PlanRep σ),
      probLoop ops clock timeLim fuel s = some (.ok r2) →
      (ops.solved r2.st = true ∨ timeLim ≤ r2.totalTime) ∧ r2.totalTime = r2.buildTime + r2.searchTime ∧
        (r2.solvedPath, r2.interpolated) = (s.1.solvedPath, s.1.interpolated) := by
    intro fuel
    induction fuel with
    | zero => intro s r2 h; simp [probLoop] at h
    | succ fuel ih =>
      intro s r2 h
      unfold probLoop at h
      cases hp : probPass ops clock timeLim s with
      | ok s' =>
        obtain ⟨c, p⟩ := probPass_spec hp
        rw [hp] at h
        simp only at h
        split at h
        · obtain ⟨a1, a2, a3⟩ := ih s' r2 h
          exact ⟨a1, a2, a3.trans p⟩
        · rename_i hn
          simp only [Option.some.injEq, Res.ok.injEq] at h
          subst h
          refine ⟨?_, c, p⟩
          by_cases hs : ops.solved s'.1.st = true
          · exact Or.inl hs
          · refine Or.inr ?_
            by_contra hlt
            exact hn ⟨by simpa using hs, not_le.1 hlt⟩
      | throw => rw [hp] at h; simp at h
      | ub => rw [hp] at h; simp at h
  unfold probPlan at h
  cases h2 : probLoop ops clock timeLim fuel
      ({ r with st := reset r.st, tick := r.tick + 1 }, clock r.tick) with
  | none => rw [h2] at h; simp at h
  | some x =>
    rw [h2] at h
    simp only [Option.map_some, Option.some.injEq] at h
    cases x with
    | ok r2 =>
      obtain ⟨a1, a2, a3⟩ := loop fuel _ r2 h2
      obtain ⟨e1, e2, e3, e4, e5, e6, e7⟩ := finish_spec (ops := ops.toPlanOps) h
      rw [e1, e3, e4, e5]
      exact ⟨a1, a2, e6, fun hs => Prod.ext_iff.1 ((e7 hs).trans a3)⟩
    | throw => simp at h
    | ub => simp at h

/-! ## C68 – the reported time -/

/-- C68: with a clock that never goes back, on a fresh planner the total time reported by `plan` lies
between 0 and the time elapsed between the first and the last reading of the clock. -/
theorem C68_total_time_le_elapsed (ops : PlanOps σ) (clock : ℕ → ℝ) (hm : Monotone clock) (timeLim : ℝ)
    (fuel : ℕ) (r r' : PlanRep σ) (hb : r.buildTime = 0) (hs : r.searchTime = 0)
    (h : plan ops clock timeLim fuel r = some (.ok r')) :
    0 ≤ r'.totalTime ∧ r'.totalTime ≤ clock (r'.tick - 1) - clock r.tick := by
  obtain ⟨r1, r2, h1, h2, h3⟩ := plan_core h
  have hsat : Res.Sat False ((timedBuild clock ops.build r).bind (timedSearch ops clock)) (fun r' =>
      0 ≤ r'.buildTime ∧ 0 ≤ r'.searchTime ∧ 1 ≤ r'.tick ∧
      r'.totalTime = r'.buildTime + r'.searchTime ∧
      r'.totalTime ≤ clock (r'.tick - 1) - clock r.tick) := by
    refine Res.Sat.bind (timedBuild_sat (I := fun _ => True) (J := fun _ => True) (ops.total_true.build r.st) trivial) ?_
    rintro a ⟨-, p1, t1, s1, -, b1⟩
    refine (timedSearch_sat (I := fun _ => True) (J := fun _ => True) (ops.total_true.search a.st) trivial).mono ?_
    rintro b ⟨-, p2, t2, b2, c2, s2⟩
    have e1 := p1.build hm
    have e2 := p2.search hm
    have e3 := hm (show r.tick + 1 ≤ r.tick + 2 by omega)
    rw [t2, t1, show r.tick + 2 + 2 - 1 = r.tick + 3 by omega, c2, s2, b2, b1, t1, s1]
    have e4 := hm (show r.tick ≤ r.tick + 1 by omega)
    have e5 := hm (show r.tick + 2 ≤ r.tick + 2 + 1 by omega)
    refine ⟨by rw [hb]; linarith, by rw [hs]; linarith, by omega, rfl, ?_⟩
    rw [hb, hs]
    have : clock (r.tick + 2 + 1) = clock (r.tick + 3) := rfl
    linarith
  obtain ⟨b1, s1, t1, c1, d1⟩ := hsat.1 _ h1
  obtain ⟨-, p2, c2⟩ := planLoop_spec fuel r1 r2 c1 h2
  obtain ⟨-, e2, e3, e4, e5, -, -⟩ := finish_spec h3
  rw [e5, e2, c2]
  have k1 := p2.elapsed hm t1
  have k2 := p2.build hm
  have k3 := p2.search hm
  rw [c1] at d1
  constructor <;> linarith

/-- C68 as claimed for the incremental planner too. -/
def C68_claim : Prop :=
  ∀ (ops : ProbOps Bool) (clock : ℕ → ℝ) (timeLim : ℝ) (fuel : ℕ) (r r' : PlanRep Bool), Monotone clock →
    r.buildTime = 0 → r.searchTime = 0 → probPlan ops id clock timeLim fuel r = some (.ok r') →
    r'.totalTime ≤ clock (r'.tick - 1) - clock r.tick

/-- What the incremental planner reports after a pass, in general: the build time of a pass is measured
from the *beginning of the previous search*, so every search but the last is counted twice. Here `s.2` is
the beginning of the previous search and `clock (s.1.tick - 1)` its end. -/
theorem C68_prob_pass_partial (ops : ProbOps σ) (clock : ℕ → ℝ) (timeLim : ℝ) (s s' : PlanRep σ × ℝ)
    (h : probPass ops clock timeLim s = .ok s') (hno : ∀ st, ops.wantsRefine st = false) :
    s'.1.totalTime = s.1.buildTime + s.1.searchTime + (clock s.1.tick - clock (s.1.tick - 1)) +
      (clock (s'.1.tick - 1) - s'.2) + (clock (s.1.tick - 1) - s.2) ∧
    s'.2 = clock (s.1.tick + 1) ∧ s'.1.tick = s.1.tick + 3 := by
  unfold probPass at h
  cases h1 : ops.addSlice s.1.st with
  | ok st1 =>
    rw [h1] at h
    simp only [Res.bind_ok'] at h
    cases h2 : ops.search st1 with
    | ok st2 =>
      rw [h2] at h
      simp only [Res.bind_ok', hno, Bool.false_eq_true, if_false, Res.ok.injEq] at h
      subst h
      refine ⟨?_, rfl, rfl⟩
      simp only [Nat.add_one_sub_one, show s.1.tick + 3 - 1 = s.1.tick + 2 by omega]
      ring
    | throw => rw [h2] at h; simp at h
    | ub => rw [h2] at h; simp at h
  | throw => rw [h1] at h; simp at h
  | ub => rw [h1] at h; simp at h

/-- C68 is false for the incremental planner: with two passes, building instantaneous and each search
taking one second, the reported total time is three seconds although two have passed. -/
theorem C68_refuted : ¬ C68_claim := by
  intro H
  let ops : ProbOps Bool := {
    build := .ok, search := .ok, refineSlice := fun _ => .ok, beginRefine := id, endRefine := id,
    solved := id, numSlice := fun _ => 2, path := fun _ => .ok [], addSlice := fun s => .ok s,
    wantsRefine := fun _ => false }
  have := H ops (fun n => ((n / 3 : ℕ) : ℝ)) 2 2 ⟨false, 0, 0, 0, 0, [], []⟩ ⟨false, 7, 1, 2, 3, [], []⟩
    (fun a b hab => by
      have := Nat.div_le_div_right (c := 3) hab
      dsimp only
      exact_mod_cast this) rfl rfl (by
      norm_num [probPlan, probLoop, probPass, ops, finish])
  norm_num at this

/-! ## Witnesses -/

/-- A planner that is never solved and always returns. -/
def idlePlanner : PlanOps ℕ where
  build := .ok
  search := .ok
  refineSlice := fun _ s => .ok s
  beginRefine := id
  endRefine := id
  solved := fun _ => false
  numSlice := fun _ => 3
  path := fun _ => .ok []

/-- A refinement of it goes through all three slices. -/
example : ∃ r', refineExist idlePlanner (fun n => (n : ℝ)) 100 ⟨0, 0, 0, 0, 0, [], []⟩ = .ok r' := by
  have h3 : List.range 3 = [0, 1, 2] := rfl
  norm_num [refineExist, h3, refineLoop, timedBuild, timedSearch, idlePlanner]

/-- It meets the hypotheses of the termination theorem. -/
example : ∃ fuel r', plan idlePlanner (fun n => (n : ℝ)) 100 fuel ⟨0, 0, 0, 0, 0, [], []⟩ = some (.ok r') :=
  C32_plan_terminates _ (fun _ => True)
    ⟨fun _ _ => Res.Sat.ok trivial, fun _ _ => Res.Sat.ok trivial, fun _ _ _ => Res.Sat.ok trivial,
      fun _ _ => trivial, fun _ _ => trivial⟩
    (fun _ _ => by simp [idlePlanner]) (fun _ _ => ⟨_, _, rfl, rfl⟩) _ 1 one_pos
    (fun n => by push_cast; exact le_rfl) _ _ trivial

end Hrm
