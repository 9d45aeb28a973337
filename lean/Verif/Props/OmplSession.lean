import Verif.Model.OmplSession
import Verif.Lemmas.Res
import Verif.Lemmas.Shape
import Mathlib.Tactic.IntervalCases

set_option linter.unusedVariables false

/-!
# C94: the problem handed to the sampling-based planner is the one the user stated
-/

namespace Hrm

/-- The contract of the library: bounds in the right order are accepted, bounds in the wrong order rejected; a heading is
brought to `[-π, π)` by full turns, a quaternion is normalized, and neither is touched if it is fine already. -/
structure OmplLib.Ok (L : OmplLib) : Prop where
  accepts : ∀ lo hi, lo < hi → ¬ L.rejects lo hi
  rejects : ∀ lo hi, hi < lo → L.rejects lo hi
  wrap : ∀ t, ∃ m : ℤ, L.wrap t = t + 2 * Real.pi * m ∧ -Real.pi ≤ L.wrap t ∧ L.wrap t < Real.pi
  norm : ∀ q, (L.norm q).Unit
  keep : ∀ q, q.Unit → L.norm q = q

/-- The orientation part of a configuration is in its normal form. -/
def RotNormal : Vec → Prop
  | [t] => -Real.pi ≤ t ∧ t < Real.pi
  | [w, x, y, z] => Quat.Unit (w, x, y, z)
  | _ => False

/-- Every coordinate is between its bounds. -/
def Between (low high v : Vec) : Prop :=
  low.length = v.length ∧ high.length = v.length ∧
    ∀ (i : ℕ) (l h x : ℝ), low[i]? = some l → high[i]? = some h → v[i]? = some x → l ≤ x ∧ x ≤ h

/-- A configuration of the right length, with position between the bounds, orientation in normal form and joints between
-π/2 and π/2 (as the program has them). -/
structure Admissible (k : OmplKind) (low high v : Vec) : Prop where
  length : v.length = k.dim
  pos : Between low high (v.take k.posDim)
  rot : RotNormal ((v.drop k.posDim).take k.rotDim)
  joints : ∀ x ∈ v.drop (k.posDim + k.rotDim), -hrmHalfPi ≤ x ∧ x ≤ hrmHalfPi

/-- The caller's vectors after these steps. -/
def storeAfter (m : Store) : List OmplOp → Store
  | [] => m
  | .caller m' :: ops => storeAfter m' ops
  | _ :: ops => storeAfter m ops

/-- Call number `j` was a successful `setup` with these numbers. -/
def SetupAt (ops : List OmplOp) (outs : List OmplOut) (j pid sid : ℕ) : Prop :=
  ops[j]? = some (.setup pid sid) ∧ outs[j]? = some .done

/-- `ss_` after the steps: that of the last successful `setup`, with the bounds the caller's vectors had at that time; before
any successful `setup`, nothing (`start = none`) or what the constructor has set. -/
def SpaceFrom (k : OmplKind) (m : Store) (lowRef highRef : ℕ) (start : Option OmplSpace) (ops : List OmplOp)
    (outs : List OmplOut) (ss : Option OmplSpace) : Prop :=
  (ss = start ∧ ∀ j pid sid, ¬ SetupAt ops outs j pid sid) ∨
  ∃ (j pid sid : ℕ) (lo hi : Vec), SetupAt ops outs j pid sid ∧
    (∀ j' > j, ∀ pid' sid', ¬ SetupAt ops outs j' pid' sid') ∧
    storeAfter m (ops.take j) lowRef = some lo ∧ storeAfter m (ops.take j) highRef = some hi ∧
    k.posDim ≤ lo.length ∧ k.posDim ≤ hi.length ∧
    ss = some ⟨lo.take k.posDim, hi.take k.posDim, plannerOf pid, samplerOf sid, true⟩

theorem foldlM_range_at (v : Vec) (n : ℕ) :
    readEntries v n = if n ≤ v.length then .ok (v.take n) else .throw := by
  unfold readEntries
  induction n with
  | zero => simp [pure]
  | succ n ih =>
    rw [List.range_succ, List.foldlM_append, ih]
    by_cases h : n ≤ v.length
    · rw [if_pos h]
      change ((Res.at' v n).bind fun x => Res.ok (v.take n ++ [x])).bind (fun b => Res.ok b) = _
      by_cases h' : n + 1 ≤ v.length
      · rw [if_pos h']
        have e : v[n]? = some v[n] := List.getElem?_eq_getElem (by omega)
        simp only [Res.at', e]
        change Res.ok (v.take n ++ [v[n]]) = _
        rw [List.take_add_one, e]; rfl
      · rw [if_neg h']
        have e : v[n]? = none := List.getElem?_eq_none (by omega)
        simp only [Res.at', e]
        rfl
    · rw [if_neg h, if_neg (by omega)]
      rfl

theorem foldlM_range_idx (v : Vec) (n : ℕ) :
    readBounds v n = if n ≤ v.length then .ok (v.take n) else .ub := by
  unfold readBounds
  induction n with
  | zero => simp [pure]
  | succ n ih =>
    rw [List.range_succ, List.foldlM_append, ih]
    by_cases h : n ≤ v.length
    · rw [if_pos h]
      change ((Res.idx v n).bind fun x => Res.ok (v.take n ++ [x])).bind (fun b => Res.ok b) = _
      by_cases h' : n + 1 ≤ v.length
      · rw [if_pos h']
        have e : v[n]? = some v[n] := List.getElem?_eq_getElem (by omega)
        simp only [Res.idx, e]
        change Res.ok (v.take n ++ [v[n]]) = _
        rw [List.take_add_one, e]; rfl
      · rw [if_neg h']
        have e : v[n]? = none := List.getElem?_eq_none (by omega)
        simp only [Res.idx, e]
        rfl
    · rw [if_neg h, if_neg (by omega)]
      rfl

theorem setStateSpace_ok {L : OmplLib} {k : OmplKind} {low high : Vec} {S : OmplSpace} (h : L.setStateSpace k low high = .ok S) :
    k.posDim ≤ low.length ∧ k.posDim ≤ high.length ∧ S = ⟨low.take k.posDim, high.take k.posDim, none, none, false⟩ ∧
      ∀ b ∈ (low.take k.posDim).zip (high.take k.posDim), ¬ L.rejects b.1 b.2 := by
  unfold OmplLib.setStateSpace at h
  rw [foldlM_range_idx, foldlM_range_idx] at h
  by_cases h1 : k.posDim ≤ low.length
  · rw [if_pos h1] at h
    by_cases h2 : k.posDim ≤ high.length
    · rw [if_pos h2] at h
      simp only [Res.bind_ok'] at h
      split at h
      · exact nomatch h
      · rename_i hr
        push Not at hr
        exact ⟨h1, h2, ((Res.ok.injEq _ _).mp h).symm, hr⟩
    · rw [if_neg h2] at h; exact nomatch h
  · rw [if_neg h1] at h; exact nomatch h

theorem storeAfter_append (m : Store) (a b : List OmplOp) : storeAfter m (a ++ b) = storeAfter (storeAfter m a) b := by
  induction a generalizing m with
  | nil => rfl
  | cons op a ih => cases op <;> exact ih _

theorem omplRun_append {L : OmplLib} {a b : List OmplOp} {s : OmplSession × Store} {r : (OmplSession × Store) × List OmplOut}
    (h : omplRun L (a ++ b) s = .ok r) : ∃ s1 o1 o2, omplRun L a s = .ok (s1, o1) ∧ omplRun L b s1 = .ok (r.1, o2) ∧
      r.2 = o1 ++ o2 := by
  induction a generalizing s r with
  | nil => exact ⟨s, [], r.2, rfl, h, rfl⟩
  | cons op a ih =>
    rw [List.cons_append] at h
    unfold omplRun at h
    obtain ⟨x, hx, h⟩ := Res.bind_eq_ok.1 h
    obtain ⟨y, hy, h⟩ := Res.bind_eq_ok.1 h
    obtain ⟨s1, o1, o2, h1, h2, h3⟩ := ih hy
    obtain rfl := (Res.ok.injEq _ _).mp h
    refine ⟨s1, x.2 :: o1, o2, ?_, h2, by simp [h3]⟩
    unfold omplRun
    rw [hx, Res.bind_ok', h1, Res.bind_ok']

theorem omplRun_length {L : OmplLib} {ops : List OmplOp} {s : OmplSession × Store} {r : (OmplSession × Store) × List OmplOut}
    (h : omplRun L ops s = .ok r) : r.2.length = ops.length := by
  induction ops generalizing s r with
  | nil => obtain rfl := (Res.ok.injEq _ _).mp h; rfl
  | cons op a ih =>
    unfold omplRun at h
    obtain ⟨x, hx, h⟩ := Res.bind_eq_ok.1 h
    obtain ⟨y, hy, h⟩ := Res.bind_eq_ok.1 h
    obtain rfl := (Res.ok.injEq _ _).mp h
    simp [ih hy]

theorem setupAt_append_left {ops : List OmplOp} {outs : List OmplOut} {op : OmplOp} {o : OmplOut} (hl : outs.length = ops.length)
    {j pid sid : ℕ} (h : SetupAt (ops ++ [op]) (outs ++ [o]) j pid sid) :
    (j < ops.length ∧ SetupAt ops outs j pid sid) ∨ (j = ops.length ∧ op = .setup pid sid ∧ o = .done) := by
  obtain ⟨h1, h2⟩ := h
  rcases lt_trichotomy j ops.length with hj | hj | hj
  · rw [List.getElem?_append_left hj] at h1
    rw [List.getElem?_append_left (by omega)] at h2
    exact Or.inl ⟨hj, h1, h2⟩
  · subst hj
    rw [List.getElem?_append_right le_rfl] at h1
    rw [List.getElem?_append_right (by omega)] at h2
    simp [hl] at h1 h2
    exact Or.inr ⟨rfl, h1, h2⟩
  · rw [List.getElem?_eq_none (by simp; omega)] at h1
    exact nomatch h1

theorem setupAt_mono {ops : List OmplOp} {outs : List OmplOut} {op : OmplOp} {o : OmplOut} {j pid sid : ℕ}
    (h : SetupAt ops outs j pid sid) : SetupAt (ops ++ [op]) (outs ++ [o]) j pid sid := by
  obtain ⟨h1, h2⟩ := h
  refine ⟨?_, ?_⟩
  · rw [List.getElem?_append_left (List.getElem?_eq_some_iff.1 h1).1]; exact h1
  · rw [List.getElem?_append_left (List.getElem?_eq_some_iff.1 h2).1]; exact h2

/-- A step that is no successful `setup` keeps where `ss_` comes from. -/
theorem spaceFrom_keep {k : OmplKind} {m : Store} {lr hr : ℕ} {start : Option OmplSpace} {ops : List OmplOp}
    {outs : List OmplOut} {ss : Option OmplSpace} {op : OmplOp} {o : OmplOut} (hl : outs.length = ops.length)
    (h : SpaceFrom k m lr hr start ops outs ss) (hn : ∀ pid sid, ¬ (op = .setup pid sid ∧ o = .done)) :
    SpaceFrom k m lr hr start (ops ++ [op]) (outs ++ [o]) ss := by
  have key : ∀ j pid sid, SetupAt (ops ++ [op]) (outs ++ [o]) j pid sid → SetupAt ops outs j pid sid := by
    intro j pid sid h
    rcases setupAt_append_left hl h with h | h
    · exact h.2
    · exact absurd ⟨h.2.1, h.2.2⟩ (hn pid sid)
  rcases h with ⟨h1, h2⟩ | ⟨j, pid, sid, lo, hi, h1, h2, h3, h4, h5⟩
  · exact Or.inl ⟨h1, fun j pid sid h => h2 j pid sid (key j pid sid h)⟩
  · have hj := (List.getElem?_eq_some_iff.1 h1.1).1
    refine Or.inr ⟨j, pid, sid, lo, hi, setupAt_mono h1, fun j' hj' pid' sid' h => h2 j' hj' pid' sid' (key _ _ _ h), ?_, ?_, h5⟩
    · rw [List.take_append_of_le_length hj.le]; exact h3
    · rw [List.take_append_of_le_length hj.le]; exact h4

/-- Where `ss_` comes from, at any point of a session. -/
theorem omplRun_space {L : OmplLib} (s0 : OmplSession) (m : Store) (ops : List OmplOp)
    {r : (OmplSession × Store) × List OmplOut} (h : omplRun L ops (s0, m) = .ok r) :
    r.1.1.kind = s0.kind ∧ r.1.1.lowRef = s0.lowRef ∧ r.1.1.highRef = s0.highRef ∧ r.1.2 = storeAfter m ops ∧
      SpaceFrom s0.kind m s0.lowRef s0.highRef s0.ss ops r.2 r.1.1.ss := by
  induction ops using List.reverseRecOn generalizing r with
  | nil =>
    obtain rfl := (Res.ok.injEq _ _).mp h
    exact ⟨rfl, rfl, rfl, rfl, Or.inl ⟨rfl, fun j pid sid h => by simp [SetupAt] at h⟩⟩
  | append_singleton ops op ih =>
    obtain ⟨s1, o1, o2, h1, h2, h3⟩ := omplRun_append h
    obtain ⟨e1, e2, e3, e4, hs⟩ := ih h1
    have hl : o1.length = ops.length := omplRun_length h1
    unfold omplRun at h2
    obtain ⟨x, hx, h2⟩ := Res.bind_eq_ok.1 h2
    obtain ⟨y, hy, h2⟩ := Res.bind_eq_ok.1 h2
    obtain rfl := (Res.ok.injEq _ _).mp hy
    have h2' := (Res.ok.injEq _ _).mp h2
    have er : r.1 = x.1 := (congrArg Prod.fst h2').symm
    have eo : o2 = [x.2] := (congrArg Prod.snd h2').symm
    rw [h3, eo, er, storeAfter_append]
    cases op with
    | caller m' =>
      obtain rfl := (Res.ok.injEq _ _).mp hx
      exact ⟨e1, e2, e3, rfl, spaceFrom_keep hl hs (by rintro pid sid ⟨h, -⟩; exact nomatch h)⟩
    | plan a b =>
      unfold omplStep at hx
      obtain ⟨o, ho, hx⟩ := Res.bind_eq_ok.1 hx
      obtain rfl := (Res.ok.injEq _ _).mp hx
      exact ⟨e1, e2, e3, e4, spaceFrom_keep hl hs (by rintro pid sid ⟨h, -⟩; exact nomatch h)⟩
    | setup pid sid =>
      unfold omplStep at hx
      obtain ⟨o, ho, hx⟩ := Res.bind_eq_ok.1 hx
      obtain rfl := (Res.ok.injEq _ _).mp hx
      unfold OmplSession.setup at ho
      obtain ⟨lo, hlo, ho⟩ := Res.bind_eq_ok.1 ho
      obtain ⟨hi, hhi, ho⟩ := Res.bind_eq_ok.1 ho
      split at ho
      · rename_i S hS
        obtain rfl := (Res.ok.injEq _ _).mp ho
        refine ⟨e1, e2, e3, e4, Or.inr ⟨ops.length, pid, sid, lo, hi, ⟨by simp, by simp [hl]⟩, ?_, ?_, ?_, ?_⟩⟩
        · intro j' hj' pid' sid' h
          rcases setupAt_append_left hl h with h | h <;> omega
        · rw [List.take_left', ← e4, ← e2]
          · unfold Store.read at hlo
            split at hlo
            · rename_i v hv; obtain rfl := (Res.ok.injEq _ _).mp hlo; exact hv
            · exact nomatch hlo
          · rfl
        · rw [List.take_left', ← e4, ← e3]
          · unfold Store.read at hhi
            split at hhi
            · rename_i v hv; obtain rfl := (Res.ok.injEq _ _).mp hhi; exact hv
            · exact nomatch hhi
          · rfl
        · obtain ⟨a, b, rfl, -⟩ := setStateSpace_ok hS
          rw [e1] at a b
          exact ⟨a, b, by rw [e1]⟩
      · obtain rfl := (Res.ok.injEq _ _).mp ho
        exact ⟨e1, e2, e3, e4, spaceFrom_keep hl hs (by rintro pid sid ⟨-, h⟩; exact nomatch h)⟩
      · exact nomatch ho


theorem clampTo_spec {lo hi : ℝ} (h : lo ≤ hi) (x : ℝ) : lo ≤ clampTo lo hi x ∧ clampTo lo hi x ≤ hi ∧
    (lo ≤ x → x ≤ hi → clampTo lo hi x = x) ∧ ∀ y, lo ≤ y → y ≤ hi → |clampTo lo hi x - x| ≤ |y - x| := by
  unfold clampTo
  split
  · rename_i h1
    refine ⟨h, le_rfl, fun _ h2 => absurd h1 (not_lt.2 h2), fun y _ hy => ?_⟩
    rw [abs_of_neg (by linarith), abs_of_neg (by linarith)]; linarith
  · rename_i h1
    push Not at h1
    split
    · rename_i h2
      refine ⟨le_rfl, h, fun h3 _ => absurd h2 (not_lt.2 h3), fun y hy _ => ?_⟩
      rw [abs_of_pos (by linarith), abs_of_pos (by linarith)]; linarith
    · rename_i h2
      push Not at h2
      exact ⟨h2, h1, fun _ _ => rfl, fun y _ _ => by simp⟩

theorem clampAll_get {low high v : Vec} {i : ℕ} {l h x : ℝ} (h1 : low[i]? = some l) (h2 : high[i]? = some h)
    (h3 : v[i]? = some x) : (clampAll low high v)[i]? = some (clampTo l h x) := by
  induction i generalizing low high v with
  | zero =>
    match low, high, v with
    | [], _, _ => simp at h1
    | _ :: _, [], _ => simp at h2
    | _ :: _, _ :: _, [] => simp at h3
    | a :: low, b :: high, c :: v =>
      simp only [List.getElem?_cons_zero, Option.some.injEq] at h1 h2 h3
      subst h1 h2 h3
      rfl
  | succ i ih =>
    match low, high, v with
    | [], _, _ => simp at h1
    | _ :: _, [], _ => simp at h2
    | _ :: _, _ :: _, [] => simp at h3
    | a :: low, b :: high, c :: v =>
      simp only [List.getElem?_cons_succ] at h1 h2 h3
      simpa [clampAll] using ih h1 h2 h3

theorem clampAll_length (low high v : Vec) (h1 : low.length = v.length) (h2 : high.length = v.length) :
    (clampAll low high v).length = v.length := by
  induction v generalizing low high with
  | nil => cases low <;> cases high <;> simp_all [clampAll]
  | cons x v ih =>
    match low, high with
    | [], _ => simp at h1
    | _ :: _, [] => simp at h2
    | a :: low, b :: high =>
      simp only [clampAll, List.length_cons, Nat.add_right_cancel_iff] at *
      exact ih low high h1 h2

/-- Ordered bounds. -/
def Ordered (low high : Vec) : Prop := ∀ (i : ℕ) (l h : ℝ), low[i]? = some l → high[i]? = some h → l ≤ h

/-- `u` is `v` with every coordinate moved to the nearest value between the bounds. -/
def NearestIn (low high v u : Vec) : Prop :=
  u.length = v.length ∧ ∀ (i : ℕ) (l h x y : ℝ), low[i]? = some l → high[i]? = some h → v[i]? = some x → u[i]? = some y →
    l ≤ y ∧ y ≤ h ∧ ∀ z, l ≤ z → z ≤ h → |y - x| ≤ |z - x|

theorem clampAll_nearest {low high v : Vec} (ho : Ordered low high) (h1 : low.length = v.length) (h2 : high.length = v.length) :
    NearestIn low high v (clampAll low high v) := by
  refine ⟨clampAll_length _ _ _ h1 h2, fun i l h x y hl hh hx hy => ?_⟩
  rw [clampAll_get hl hh hx] at hy
  obtain rfl := Option.some.inj hy
  obtain ⟨a, b, -, c⟩ := clampTo_spec (ho i l h hl hh) x
  exact ⟨a, b, c⟩

theorem clampAll_id {low high v : Vec} (hb : Between low high v) : clampAll low high v = v := by
  obtain ⟨h1, h2, hb⟩ := hb
  refine List.ext_getElem? fun i => ?_
  by_cases hi : i < v.length
  · have e1 : low[i]? = some low[i] := List.getElem?_eq_getElem (by omega)
    have e2 : high[i]? = some high[i] := List.getElem?_eq_getElem (by omega)
    have e3 : v[i]? = some v[i] := List.getElem?_eq_getElem hi
    obtain ⟨a, b⟩ := hb i _ _ _ e1 e2 e3
    rw [clampAll_get e1 e2 e3, e3, (clampTo_spec (a.trans b) _).2.2.1 a b]
  · rw [List.getElem?_eq_none (by rw [clampAll_length _ _ _ h1 h2]; omega), List.getElem?_eq_none (by omega)]

theorem between_clampAll {low high v : Vec} (ho : Ordered low high) (h1 : low.length = v.length) (h2 : high.length = v.length) :
    Between low high (clampAll low high v) := by
  have hn := clampAll_nearest ho h1 h2
  have hlen := hn.1
  refine ⟨by rw [hlen, h1], by rw [hlen, h2], fun i l h y hl hh hy => ?_⟩
  have hi : i < v.length := by
    have := (List.getElem?_eq_some_iff.1 hy).1
    omega
  obtain ⟨a, b, -⟩ := hn.2 i l h v[i] y hl hh (List.getElem?_eq_getElem hi) hy
  exact ⟨a, b⟩

theorem wrap_keep {L : OmplLib} (hL : L.Ok) {t : ℝ} (h1 : -Real.pi ≤ t) (h2 : t < Real.pi) : L.wrap t = t := by
  obtain ⟨m, e, a, b⟩ := hL.wrap t
  have hp := Real.pi_pos
  have : m = 0 := by
    rw [e] at a b
    have h3 : (-1 : ℝ) < m := by
      by_contra h
      push Not at h
      nlinarith
    have h4 : (m : ℝ) < 1 := by
      by_contra h
      push Not at h
      nlinarith
    have h3' : (-1 : ℤ) < m := by exact_mod_cast h3
    have h4' : m < (1 : ℤ) := by exact_mod_cast h4
    omega
  rw [e, this]; simp

theorem rot_shape (k : OmplKind) (r : Vec) (h : r.length = k.rotDim) : (∃ t, r = [t]) ∨ ∃ w x y z, r = [w, x, y, z] := by
  have hk : k.rotDim = 1 ∨ k.rotDim = 4 := by cases k <;> simp [OmplKind.rotDim]
  rcases hk with e | e <;> rw [e] at h
  · exact Or.inl (List.length_eq_one_iff.1 h)
  · match r, h with
    | [w, x, y, z], _ => exact Or.inr ⟨w, x, y, z, rfl⟩

theorem rotBounds_normal {L : OmplLib} (hL : L.Ok) (k : OmplKind) (r : Vec) (h : r.length = k.rotDim) :
    RotNormal (L.rotBounds r) ∧ (L.rotBounds r).length = k.rotDim ∧ (RotNormal r → L.rotBounds r = r) := by
  have hlen : (L.rotBounds r).length = r.length := by
    rcases rot_shape k r h with ⟨t, rfl⟩ | ⟨w, x, y, z, rfl⟩ <;> rfl
  rcases rot_shape k r h with ⟨t, rfl⟩ | ⟨w, x, y, z, rfl⟩
  · obtain ⟨m, -, a, b⟩ := hL.wrap t
    refine ⟨⟨a, b⟩, by rw [hlen, h], fun hr => ?_⟩
    simp only [OmplLib.rotBounds, wrap_keep hL hr.1 hr.2]
  · refine ⟨hL.norm _, by rw [hlen, h], fun hr => ?_⟩
    simp only [OmplLib.rotBounds, hL.keep _ hr]

/-- The joints' bounds. -/
theorem joints_between {k : OmplKind} {v : Vec} (h : v.length = k.joints) : Between (List.replicate k.joints (-hrmHalfPi))
    (List.replicate k.joints hrmHalfPi) v ↔ ∀ x ∈ v, -hrmHalfPi ≤ x ∧ x ≤ hrmHalfPi := by
  constructor
  · rintro ⟨-, -, hb⟩ x hx
    obtain ⟨i, hi, rfl⟩ := List.mem_iff_getElem.1 hx
    exact hb i _ _ _ (by rw [List.getElem?_replicate, if_pos (by omega)]) (by rw [List.getElem?_replicate, if_pos (by omega)])
      (List.getElem?_eq_getElem hi)
  · intro hb
    refine ⟨by simp [h], by simp [h], fun i l u x hl hu hx => ?_⟩
    obtain ⟨_, rfl⟩ := List.getElem?_eq_some_iff.1 hl
    obtain ⟨_, rfl⟩ := List.getElem?_eq_some_iff.1 hu
    rw [List.getElem_replicate, List.getElem_replicate]
    exact hb x (List.mem_of_getElem? hx)

theorem hrmHalfPi_pos : 0 < hrmHalfPi := by norm_num [hrmHalfPi, hrmPi]

theorem joints_ordered (n : ℕ) : Ordered (List.replicate n (-hrmHalfPi)) (List.replicate n hrmHalfPi) := by
  intro i l h hl hh
  obtain ⟨_, rfl⟩ := List.getElem?_eq_some_iff.1 hl
  obtain ⟨_, rfl⟩ := List.getElem?_eq_some_iff.1 hh
  rw [List.getElem_replicate, List.getElem_replicate]
  have := hrmHalfPi_pos
  linarith

/-- What `enforceBounds` does to a configuration of the right length. -/
theorem enforce_spec {L : OmplLib} (hL : L.Ok) {k : OmplKind} {S : OmplSpace} (ho : Ordered S.low S.high)
    (hl : S.low.length = k.posDim) (hh : S.high.length = k.posDim) {u : Vec} (hu : u.length = k.dim) :
    Admissible k S.low S.high (L.enforce k S u) ∧ (Admissible k S.low S.high u → L.enforce k S u = u) ∧
      NearestIn S.low S.high (u.take k.posDim) ((L.enforce k S u).take k.posDim) := by
  have hd : u.length = k.posDim + k.rotDim + k.joints := hu
  have l1 : (u.take k.posDim).length = k.posDim := by rw [List.length_take]; omega
  have l2 : ((u.drop k.posDim).take k.rotDim).length = k.rotDim := by rw [List.length_take, List.length_drop]; omega
  have l3 : (u.drop (k.posDim + k.rotDim)).length = k.joints := by rw [List.length_drop]; omega
  have c1 : (clampAll S.low S.high (u.take k.posDim)).length = k.posDim := by
    rw [clampAll_length _ _ _ (by omega) (by omega), l1]
  obtain ⟨r1, r2, r3⟩ := rotBounds_normal hL k _ l2
  set J1 := List.replicate k.joints (-hrmHalfPi) with hJ1
  set J2 := List.replicate k.joints hrmHalfPi with hJ2
  have j1 : J1.length = (u.drop (k.posDim + k.rotDim)).length := by rw [hJ1, List.length_replicate, l3]
  have j2 : J2.length = (u.drop (k.posDim + k.rotDim)).length := by rw [hJ2, List.length_replicate, l3]
  have c3 : (clampAll J1 J2 (u.drop (k.posDim + k.rotDim))).length = k.joints := by rw [clampAll_length _ _ _ j1 j2, l3]
  have e : L.enforce k S u = clampAll S.low S.high (u.take k.posDim) ++ (L.rotBounds ((u.drop k.posDim).take k.rotDim) ++
      clampAll J1 J2 (u.drop (k.posDim + k.rotDim))) := by
    unfold OmplLib.enforce; rw [List.append_assoc]
  have t1 : (L.enforce k S u).take k.posDim = clampAll S.low S.high (u.take k.posDim) := by
    rw [e, List.take_left' c1]
  have t2 : ((L.enforce k S u).drop k.posDim).take k.rotDim = L.rotBounds ((u.drop k.posDim).take k.rotDim) := by
    rw [e, List.drop_left' c1, List.take_left' r2]
  have t3 : (L.enforce k S u).drop (k.posDim + k.rotDim) = clampAll J1 J2 (u.drop (k.posDim + k.rotDim)) := by
    rw [e, ← List.drop_drop, List.drop_left' c1, List.drop_left' r2]
  refine ⟨⟨?_, ?_, ?_, ?_⟩, ?_, ?_⟩
  · rw [e, List.length_append, List.length_append, c1, r2, c3]; unfold OmplKind.dim; omega
  · rw [t1]; exact between_clampAll ho (by omega) (by omega)
  · rw [t2]; exact r1
  · rw [t3]; exact (joints_between c3).1 (between_clampAll (joints_ordered _) j1 j2)
  · rintro ⟨-, a, b, c⟩
    rw [e, clampAll_id a, r3 b, clampAll_id ((joints_between l3).2 c), ← List.drop_drop, List.take_append_drop,
      List.take_append_drop]
  · rw [t1]; exact clampAll_nearest ho (by omega) (by omega)

/-- The state made from a vector: none if it is too short; otherwise its first coordinates, moved into the bounds. -/
structure StateFrom (k : OmplKind) (low high v u : Vec) : Prop where
  long : k.dim ≤ v.length
  admissible : Admissible k low high u
  same : Admissible k low high (v.take k.dim) → u = v.take k.dim
  nearest : NearestIn low high (v.take k.posDim) (u.take k.posDim)

theorem stateOf_spec {L : OmplLib} (hL : L.Ok) {k : OmplKind} {S : OmplSpace} (ho : Ordered S.low S.high)
    (hl : S.low.length = k.posDim) (hh : S.high.length = k.posDim) (v : Vec) :
    (k.dim ≤ v.length ∧ ∃ u, L.stateOf k S v = .ok u ∧ StateFrom k S.low S.high v u) ∨
      (v.length < k.dim ∧ L.stateOf k S v = .throw) := by
  unfold OmplLib.stateOf
  rw [foldlM_range_at]
  by_cases h : k.dim ≤ v.length
  · rw [if_pos h, Res.bind_ok']
    have hlen : (v.take k.dim).length = k.dim := by rw [List.length_take]; omega
    obtain ⟨a, b, c⟩ := enforce_spec hL ho hl hh hlen
    obtain ⟨a', b', c'⟩ := enforce_spec hL ho hl hh a.length
    have ee := b' a
    refine Or.inl ⟨h, _, rfl, ⟨h, a', fun h' => by rw [ee, b h'], ?_⟩⟩
    rw [ee]
    rw [List.take_take, min_eq_left (by unfold OmplKind.dim; omega)] at c
    exact c
  · rw [if_neg h]
    exact Or.inr ⟨by omega, rfl⟩

theorem ordered_of_accepted {L : OmplLib} (hL : L.Ok) {lo hi : Vec}
    (h : ∀ b ∈ lo.zip hi, ¬ L.rejects b.1 b.2) : Ordered lo hi := by
  intro i l u hl hu
  by_contra hlt
  push Not at hlt
  refine h (l, u) ?_ (hL.rejects _ _ hlt)
  exact List.mem_of_getElem? (i := i) (by rw [List.getElem?_zip_eq_some]; exact ⟨hl, hu⟩)


/-- The state space of a session has the right number of bounds, and the library accepted them. -/
def SpaceOk (L : OmplLib) (k : OmplKind) (S : OmplSpace) : Prop :=
  S.low.length = k.posDim ∧ S.high.length = k.posDim ∧ ∀ b ∈ S.low.zip S.high, ¬ L.rejects b.1 b.2

theorem spaceOk_of {L : OmplLib} {k : OmplKind} {low high : Vec} {S : OmplSpace} (h : L.setStateSpace k low high = .ok S) :
    SpaceOk L k S := by
  obtain ⟨h1, h2, rfl, h3⟩ := setStateSpace_ok h
  exact ⟨by simp [h1], by simp [h2], h3⟩

theorem omplStep_ok {L : OmplLib} {s : OmplSession × Store} {op : OmplOp} {r : (OmplSession × Store) × OmplOut}
    (h : omplStep L s op = .ok r) (hs : ∀ S, s.1.ss = some S → SpaceOk L s.1.kind S) :
    r.1.1.kind = s.1.kind ∧ ∀ S, r.1.1.ss = some S → SpaceOk L s.1.kind S := by
  cases op with
  | caller m' => obtain rfl := (Res.ok.injEq _ _).mp h; exact ⟨rfl, hs⟩
  | plan a b =>
    unfold omplStep at h
    obtain ⟨o, ho, h⟩ := Res.bind_eq_ok.1 h
    obtain rfl := (Res.ok.injEq _ _).mp h
    exact ⟨rfl, hs⟩
  | setup pid sid =>
    unfold omplStep at h
    obtain ⟨o, ho, h⟩ := Res.bind_eq_ok.1 h
    obtain rfl := (Res.ok.injEq _ _).mp h
    unfold OmplSession.setup at ho
    obtain ⟨lo, hlo, ho⟩ := Res.bind_eq_ok.1 ho
    obtain ⟨hi, hhi, ho⟩ := Res.bind_eq_ok.1 ho
    split at ho
    · rename_i S hS
      obtain rfl := (Res.ok.injEq _ _).mp ho
      refine ⟨rfl, fun S' h' => ?_⟩
      obtain rfl := Option.some.inj h'
      have := spaceOk_of hS
      exact ⟨this.1, this.2.1, this.2.2⟩
    · obtain rfl := (Res.ok.injEq _ _).mp ho
      exact ⟨rfl, hs⟩
    · exact nomatch ho

theorem omplRun_ok {L : OmplLib} {ops : List OmplOp} {s : OmplSession × Store} {r : (OmplSession × Store) × List OmplOut}
    (h : omplRun L ops s = .ok r) (hs : ∀ S, s.1.ss = some S → SpaceOk L s.1.kind S) :
    ∀ S, r.1.1.ss = some S → SpaceOk L s.1.kind S := by
  induction ops generalizing s r with
  | nil => obtain rfl := (Res.ok.injEq _ _).mp h; exact hs
  | cons op ops ih =>
    unfold omplRun at h
    obtain ⟨x, hx, h⟩ := Res.bind_eq_ok.1 h
    obtain ⟨y, hy, h⟩ := Res.bind_eq_ok.1 h
    obtain rfl := (Res.ok.injEq _ _).mp h
    obtain ⟨e, hs'⟩ := omplStep_ok hx hs
    have := ih hy (by rw [e]; exact hs')
    rw [e] at this
    exact this

/-- What a fresh session has. -/
theorem new_spec {L : OmplLib} {k : OmplKind} {m : Store} {lr hr : ℕ} {s0 : OmplSession}
    (h : OmplSession.new L k m lr hr = .ok s0) : s0.kind = k ∧ s0.lowRef = lr ∧ s0.highRef = hr ∧
      (∀ S, s0.ss = some S → SpaceOk L s0.kind S) ∧
      (s0.ss = none ∧ (∀ n, k ≠ .articulated n) ∨ (∃ n, k = .articulated n) ∧ ∃ lo hi, m lr = some lo ∧ m hr = some hi ∧
        s0.ss = some ⟨lo.take k.posDim, hi.take k.posDim, none, none, false⟩) := by
  cases k with
  | plane =>
    obtain rfl := (Res.ok.injEq _ _).mp h
    exact ⟨rfl, rfl, rfl, fun S h => (nomatch h), Or.inl ⟨rfl, fun n h => (nomatch h)⟩⟩
  | space =>
    obtain rfl := (Res.ok.injEq _ _).mp h
    exact ⟨rfl, rfl, rfl, fun S h => (nomatch h), Or.inl ⟨rfl, fun n h => (nomatch h)⟩⟩
  | articulated n =>
    unfold OmplSession.new at h
    obtain ⟨lo, hlo, h⟩ := Res.bind_eq_ok.1 h
    obtain ⟨hi, hhi, h⟩ := Res.bind_eq_ok.1 h
    obtain ⟨S, hS, h⟩ := Res.bind_eq_ok.1 h
    obtain rfl := (Res.ok.injEq _ _).mp h
    have hlo' : m lr = some lo := by
      unfold Store.read at hlo
      split at hlo
      · rename_i v hv; obtain rfl := (Res.ok.injEq _ _).mp hlo; exact hv
      · exact nomatch hlo
    have hhi' : m hr = some hi := by
      unfold Store.read at hhi
      split at hhi
      · rename_i v hv; obtain rfl := (Res.ok.injEq _ _).mp hhi; exact hv
      · exact nomatch hhi
    refine ⟨rfl, rfl, rfl, fun S' h' => ?_, Or.inr ⟨⟨n, rfl⟩, lo, hi, hlo', hhi', ?_⟩⟩
    · obtain rfl := Option.some.inj h'
      exact spaceOk_of hS
    · obtain ⟨-, -, e, -⟩ := setStateSpace_ok hS
      exact congrArg some e

/-- The library's problem has the settings of the last successful `setup` before call `i` (with the caller's bounds at that
time), or, for the articulated planner that was never set up, those of the constructor: no validity check, no planner. -/
def SpaceAt (k : OmplKind) (m : Store) (lowRef highRef : ℕ) (ops : List OmplOp) (outs : List OmplOut) (i : ℕ)
    (S : OmplSpace) : Prop :=
  (∃ (j pid sid : ℕ) (lo hi : Vec), j < i ∧ SetupAt ops outs j pid sid ∧
    (∀ j', j < j' → j' < i → ∀ pid' sid', ¬ SetupAt ops outs j' pid' sid') ∧
    storeAfter m (ops.take j) lowRef = some lo ∧ storeAfter m (ops.take j) highRef = some hi ∧
    S = ⟨lo.take k.posDim, hi.take k.posDim, plannerOf pid, samplerOf sid, true⟩) ∨
  (∃ n, k = .articulated n) ∧ (∀ j < i, ∀ pid sid, ¬ SetupAt ops outs j pid sid) ∧
    ∃ lo hi, m lowRef = some lo ∧ m highRef = some hi ∧ S = ⟨lo.take k.posDim, hi.take k.posDim, none, none, false⟩

/-- **C94 (partial)** What `plan`, as call number `i` of a session, does. Without an earlier successful `setup` the planners
in the plane and in space return `false` at once. Otherwise a configuration that is too short makes `plan` throw, and else the
library gets a problem with the settings of the last successful `setup` (the articulated planner: those of the constructor if
there was none), whose two states are the given ones if these are within the bounds, the first coordinates count only, and in
any case are within the bounds, with the nearest position. -/
theorem C94_problem_partial (L : OmplLib) (hL : L.Ok) (k : OmplKind) (m : Store) (lowRef highRef : ℕ) (s0 : OmplSession)
    (hnew : OmplSession.new L k m lowRef highRef = .ok s0) (ops : List OmplOp) (s' : OmplSession × Store) (outs : List OmplOut)
    (h : omplRun L ops (s0, m) = .ok (s', outs)) (i : ℕ) (start goal : Vec) (hi : ops[i]? = some (.plan start goal)) :
    (outs[i]? = some .notReady ∧ (∀ n, k ≠ .articulated n) ∧ ∀ j < i, ∀ pid sid, ¬ SetupAt ops outs j pid sid) ∨
    (outs[i]? = some .threw ∧ (start.length < k.dim ∨ goal.length < k.dim) ∧
      ∃ S, SpaceAt k m lowRef highRef ops outs i S) ∨
    (∃ p, outs[i]? = some (.handed p) ∧ SpaceAt k m lowRef highRef ops outs i p.space ∧
      StateFrom k p.space.low p.space.high start p.start ∧ StateFrom k p.space.low p.space.high goal p.goal) := by
  obtain ⟨n1, n2, n3, n4, n5⟩ := new_spec hnew
  have hil := (List.getElem?_eq_some_iff.1 hi).1
  have hsplit : ops = ops.take i ++ (OmplOp.plan start goal :: ops.drop (i + 1)) := by
    conv_lhs => rw [← List.take_append_drop i ops]
    rw [List.drop_eq_getElem_cons hil]
    congr 2
    exact (List.getElem?_eq_some_iff.1 hi).2
  have ht : (ops.take i).length = i := by rw [List.length_take]; omega
  rw [hsplit] at h
  obtain ⟨s1, o1, o2, h1, h2, h3⟩ := omplRun_append h
  dsimp only at h2 h3
  have hl1 : o1.length = i := by rw [omplRun_length h1, ht]
  obtain ⟨e1, e2, e3, e4, hs⟩ := omplRun_space s0 m _ h1
  have hok := omplRun_ok h1 n4
  rw [n1, n2, n3] at hs
  unfold omplRun at h2
  obtain ⟨x, hx, h2⟩ := Res.bind_eq_ok.1 h2
  obtain ⟨y, hy, h2⟩ := Res.bind_eq_ok.1 h2
  have h2' := (Res.ok.injEq _ _).mp h2
  have eo : o2 = x.2 :: y.2 := (congrArg Prod.snd h2').symm
  have hout : outs[i]? = some x.2 := by
    rw [h3, List.getElem?_append_right (by omega), eo, hl1]; simp
  -- setups before `i` are those of the prefix
  have hset : ∀ j < i, ∀ pid sid, SetupAt ops outs j pid sid ↔ SetupAt (ops.take i) o1 j pid sid := by
    intro j hj pid sid
    unfold SetupAt
    rw [List.getElem?_take_of_lt hj, h3, List.getElem?_append_left (by omega)]
  have htake : ∀ j ≤ i, (ops.take i).take j = ops.take j := fun j hj => by rw [List.take_take, min_eq_left hj]
  -- where the state space comes from
  have hspace : ∀ S, s1.1.ss = some S → SpaceAt k m lowRef highRef ops outs i S := by
    intro S hS
    rcases hs with ⟨ha, hb⟩ | ⟨j, pid, sid, lo, hi', ha, hb, hc, hd, -, -, he⟩
    · rcases n5 with ⟨hn, -⟩ | ⟨hk, lo, hi', c1, c2, c3⟩
      · have : s1.1.ss = none := ha.trans hn
        rw [hS] at this
        exact nomatch this
      · have : s1.1.ss = _ := ha.trans c3
        rw [hS] at this
        exact Or.inr ⟨hk, fun j hj pid sid hc => hb j pid sid ((hset j hj pid sid).1 hc), lo, hi', c1, c2, Option.some.inj this⟩
    · have hj : j < i := by
        have := (List.getElem?_eq_some_iff.1 ha.1).1
        omega
      have he' : s1.1.ss = _ := he
      rw [hS] at he'
      rw [htake j hj.le] at hc hd
      exact Or.inl ⟨j, pid, sid, lo, hi', hj, (hset j hj pid sid).2 ha,
        fun j' a b pid' sid' hc => hb j' a pid' sid' ((hset j' b pid' sid').1 hc), hc, hd, Option.some.inj he'⟩
  unfold omplStep at hx
  obtain ⟨o, ho, hx⟩ := Res.bind_eq_ok.1 hx
  obtain rfl := (Res.ok.injEq _ _).mp hx
  dsimp only at hout
  unfold OmplSession.plan at ho
  cases hss : s1.1.ss with
  | none =>
    rw [hss] at ho
    obtain rfl := (Res.ok.injEq _ _).mp ho
    refine Or.inl ⟨hout, ?_⟩
    rcases hs with ⟨ha, hb⟩ | ⟨j, pid, sid, lo, hi', -, -, -, -, -, -, he⟩
    · have ha' : s0.ss = none := by rw [← hss]; exact ha.symm
      rcases n5 with ⟨-, hn⟩ | ⟨hk, lo, hi', c1, c2, c3⟩
      · exact ⟨hn, fun j hj pid sid hc => hb j pid sid ((hset j hj pid sid).1 hc)⟩
      · rw [ha'] at c3; exact nomatch c3
    · have he' : s1.1.ss = _ := he
      rw [hss] at he'; exact nomatch he'
  | some S =>
    rw [hss] at ho
    have hSok := hok S hss
    dsimp only at hSok
    rw [n1] at hSok
    have hord := ordered_of_accepted hL hSok.2.2
    have ek : s1.1.kind = k := e1.trans n1
    dsimp only at ho
    rw [ek] at ho
    rcases stateOf_spec hL hord hSok.1 hSok.2.1 start with ⟨a1, u, a2, a3⟩ | ⟨a1, a2⟩
    · rcases stateOf_spec hL hord hSok.1 hSok.2.1 goal with ⟨b1, w, b2, b3⟩ | ⟨b1, b2⟩
      · rw [a2, Res.bind_ok', b2, Res.bind_ok'] at ho
        obtain rfl := (Res.ok.injEq _ _).mp ho
        exact Or.inr (Or.inr ⟨_, hout, hspace S hss, a3, b3⟩)
      · rw [a2, Res.bind_ok', b2] at ho
        obtain rfl := (Res.ok.injEq _ _).mp ho
        exact Or.inr (Or.inl ⟨hout, Or.inr b1, S, hspace S hss⟩)
    · rw [a2] at ho
      obtain rfl := (Res.ok.injEq _ _).mp ho
      exact Or.inr (Or.inl ⟨hout, Or.inl a1, S, hspace S hss⟩)


theorem setStateSpace_good {L : OmplLib} (hL : L.Ok) {k : OmplKind} {low high : Vec} (h1 : k.posDim ≤ low.length)
    (h2 : k.posDim ≤ high.length) (h : ∀ b ∈ (low.take k.posDim).zip (high.take k.posDim), b.1 < b.2) :
    L.setStateSpace k low high = .ok ⟨low.take k.posDim, high.take k.posDim, none, none, false⟩ := by
  unfold OmplLib.setStateSpace
  rw [foldlM_range_idx, foldlM_range_idx, if_pos h1, if_pos h2]
  simp only [Res.bind_ok']
  rw [if_neg]
  rintro ⟨b, hb, hr⟩
  exact hL.accepts _ _ (h b hb) hr

/-- **C94** What `setup` does, if the caller's vectors still exist and are long enough: with bounds in the right order it
succeeds, whatever the numbers of planner and sampler are, and replaces all earlier settings; with bounds in the wrong order
it throws and the session goes on with the earlier settings. -/
theorem C94_setup (L : OmplLib) (hL : L.Ok) (s : OmplSession) (m : Store) (pid sid : ℕ) (lo hi : Vec)
    (hlo : m s.lowRef = some lo) (hhi : m s.highRef = some hi) (h1 : s.kind.posDim ≤ lo.length) (h2 : s.kind.posDim ≤ hi.length) :
    ((∀ i < s.kind.posDim, ∀ l h, lo[i]? = some l → hi[i]? = some h → l < h) →
      omplStep L (s, m) (.setup pid sid) = .ok (({ s with ss := some ⟨lo.take s.kind.posDim, hi.take s.kind.posDim, plannerOf pid,
        samplerOf sid, true⟩ }, m), .done)) ∧
    ((∃ i < s.kind.posDim, ∃ l h, lo[i]? = some l ∧ hi[i]? = some h ∧ h < l) →
      omplStep L (s, m) (.setup pid sid) = .ok ((s, m), .threw)) := by
  have r1 : Store.read m s.lowRef = .ok lo := by unfold Store.read; rw [hlo]
  have r2 : Store.read m s.highRef = .ok hi := by unfold Store.read; rw [hhi]
  constructor
  · intro h
    have := setStateSpace_good hL h1 h2 (by
      rintro ⟨a, b⟩ hb
      obtain ⟨i, hi'⟩ := List.mem_iff_getElem?.1 hb
      rw [List.getElem?_zip_eq_some] at hi'
      have hlt : i < s.kind.posDim := by
        have := (List.getElem?_eq_some_iff.1 hi'.1).1
        rw [List.length_take] at this
        omega
      rw [List.getElem?_take_of_lt hlt, List.getElem?_take_of_lt hlt] at hi'
      exact h i hlt a b hi'.1 hi'.2)
    simp only [omplStep, OmplSession.setup, r1, r2, Res.bind_ok', this]
  · rintro ⟨i, hlt, l, h, hl, hh, hlh⟩
    have : L.setStateSpace s.kind lo hi = .throw := by
      unfold OmplLib.setStateSpace
      rw [foldlM_range_idx, foldlM_range_idx, if_pos h1, if_pos h2]
      simp only [Res.bind_ok']
      rw [if_pos]
      refine ⟨(l, h), List.mem_of_getElem? (i := i) ?_, hL.rejects _ _ hlh⟩
      rw [List.getElem?_zip_eq_some, List.getElem?_take_of_lt hlt, List.getElem?_take_of_lt hlt]
      exact ⟨hl, hh⟩
    simp only [omplStep, OmplSession.setup, r1, r2, Res.bind_ok', this]

/-- The numbers documented in OMPLInterface.h:88-92 are the planners and samplers set; every other number sets none. -/
theorem C94_ids : (plannerOf 0 = some .prm ∧ plannerOf 1 = some .lazyPrm ∧ plannerOf 2 = some .rrt ∧
      plannerOf 3 = some .rrtConnect ∧ plannerOf 4 = some .est ∧ plannerOf 5 = some .sbl ∧ plannerOf 6 = some .kpiece ∧
      ∀ id ≥ 7, plannerOf id = none) ∧
    (samplerOf 0 = some .uniform ∧ samplerOf 1 = some .gaussian ∧ samplerOf 2 = some .obstacleBased ∧
      samplerOf 3 = some .maxClearance ∧ samplerOf 4 = some .bridge ∧ ∀ id ≥ 5, samplerOf id = none) := by
  refine ⟨⟨rfl, rfl, rfl, rfl, rfl, rfl, rfl, fun id h => ?_⟩, ⟨rfl, rfl, rfl, rfl, rfl, fun id h => ?_⟩⟩
  · unfold plannerOf
    repeat rw [if_neg (by omega)]
  · unfold samplerOf
    repeat rw [if_neg (by omega)]

/-! ## What does not hold -/

/-- The claim on the states: the library plans from the start to the goal the user gave. -/
def C94_states_claim (L : OmplLib) : Prop :=
  ∀ (k : OmplKind) (m : Store) (lowRef highRef : ℕ) (s0 : OmplSession), OmplSession.new L k m lowRef highRef = .ok s0 →
    ∀ (ops : List OmplOp) (s' : OmplSession × Store) (outs : List OmplOut), omplRun L ops (s0, m) = .ok (s', outs) →
      ∀ (i : ℕ) (start goal : Vec) (p : OmplProblem), ops[i]? = some (.plan start goal) → outs[i]? = some (.handed p) →
        p.start = start ∧ p.goal = goal

/-- The claim on the collision check: the library never plans without it. -/
def C94_checked_claim (L : OmplLib) : Prop :=
  ∀ (k : OmplKind) (m : Store) (lowRef highRef : ℕ) (s0 : OmplSession), OmplSession.new L k m lowRef highRef = .ok s0 →
    ∀ (ops : List OmplOp) (s' : OmplSession × Store) (outs : List OmplOut), omplRun L ops (s0, m) = .ok (s', outs) →
      ∀ (i : ℕ) (p : OmplProblem), outs[i]? = some (.handed p) → p.space.checker = true

/-- The claim on the bounds: they are those the constructor was given. -/
def C94_bounds_claim (L : OmplLib) : Prop :=
  ∀ (k : OmplKind) (m : Store) (lowRef highRef : ℕ) (s0 : OmplSession) (lo hi : Vec), m lowRef = some lo → m highRef = some hi →
    OmplSession.new L k m lowRef highRef = .ok s0 →
    ∀ (ops : List OmplOp) (s' : OmplSession × Store) (outs : List OmplOut), omplRun L ops (s0, m) = .ok (s', outs) →
      ∀ (i : ℕ) (p : OmplProblem), outs[i]? = some (.handed p) →
        p.space.low = lo.take k.posDim ∧ p.space.high = hi.take k.posDim

/-- The caller's vectors of the examples. -/
def exStore : Store := fun r => if r = 0 then some [-10, -10, -10] else if r = 1 then some [10, 10, 10] else none

theorem ex_setup {L : OmplLib} (hL : L.Ok) (pid sid : ℕ) : omplStep L (⟨.plane, 0, 1, none⟩, exStore) (.setup pid sid) =
    .ok ((⟨.plane, 0, 1, some ⟨[-10, -10], [10, 10], plannerOf pid, samplerOf sid, true⟩⟩, exStore), .done) := by
  refine (C94_setup L hL ⟨.plane, 0, 1, none⟩ exStore pid sid [-10, -10, -10] [10, 10, 10] rfl rfl (by simp [OmplKind.posDim])
    (by simp [OmplKind.posDim])).1 ?_
  intro i hi l h hl hh
  have hi' : i < 2 := hi
  interval_cases i <;> (simp only [List.getElem?_cons_zero, List.getElem?_cons_succ, Option.some.injEq] at hl hh; subst hl hh; norm_num)

/-- A session that hands a problem over: `setup(2, 0)`, then `plan` from x = 20, outside of the bounds. -/
theorem ex_session {L : OmplLib} (hL : L.Ok) (x : ℝ) : ∃ p s', omplRun L [.setup 2 0, .plan [x, 0, 0] [0, 0, 0]]
    (⟨.plane, 0, 1, none⟩, exStore) = .ok (s', [.done, .handed p]) ∧ p.space.planner = some .rrt ∧ p.space.checker = true ∧
    StateFrom .plane [-10, -10] [10, 10] [x, 0, 0] p.start ∧ StateFrom .plane [-10, -10] [10, 10] [0, 0, 0] p.goal := by
  have ho : Ordered ([-10, -10] : Vec) [10, 10] := by
    intro i l h hl hh
    have hi' : i < 2 := (List.getElem?_eq_some_iff.1 hl).1
    interval_cases i <;>
      (simp only [List.getElem?_cons_zero, List.getElem?_cons_succ, Option.some.injEq] at hl hh; subst hl hh; norm_num)
  set S : OmplSpace := ⟨[-10, -10], [10, 10], plannerOf 2, samplerOf 0, true⟩ with hS
  rcases stateOf_spec hL (k := .plane) (S := S) ho rfl rfl [x, 0, 0] with ⟨-, u, e1, f1⟩ | ⟨h, -⟩
  · rcases stateOf_spec hL (k := .plane) (S := S) ho rfl rfl [0, 0, 0] with ⟨-, w, e2, f2⟩ | ⟨h, -⟩
    · refine ⟨⟨S, u, w⟩, (⟨.plane, 0, 1, some S⟩, exStore), ?_, rfl, rfl, f1, f2⟩
      unfold omplRun
      rw [ex_setup hL, Res.bind_ok', ← hS]
      simp only [omplRun, omplStep, OmplSession.plan, e1, e2, Res.bind_ok']
    · simp [OmplKind.dim, OmplKind.posDim, OmplKind.rotDim, OmplKind.joints] at h
  · simp [OmplKind.dim, OmplKind.posDim, OmplKind.rotDim, OmplKind.joints] at h

theorem C94_states_refuted (L : OmplLib) (hL : L.Ok) : ¬ C94_states_claim L := by
  intro hc
  obtain ⟨p, s', h, -, -, f, -⟩ := ex_session hL 20
  have hp := (hc .plane exStore 0 1 _ rfl _ _ _ h 1 [20, 0, 0] [0, 0, 0] p rfl rfl).1
  have := f.admissible.pos.2.2 0 (-10) 10 20 rfl rfl (by rw [hp]; rfl)
  norm_num at this

theorem C94_checked_refuted (L : OmplLib) (hL : L.Ok) : ¬ C94_checked_claim L := by
  intro hc
  have hb : ∀ b ∈ ([-10, -10, -10] : Vec).zip [10, 10, 10], b.1 < b.2 := by
    intro b hb
    simp only [List.zip_cons_cons, List.zip_nil_left, List.mem_cons, List.not_mem_nil, or_false, or_self] at hb
    subst hb
    norm_num
  have hsp := setStateSpace_good hL (k := .articulated 1) (low := [-10, -10, -10]) (high := [10, 10, 10]) (by simp [OmplKind.posDim])
    (by simp [OmplKind.posDim]) hb
  set S : OmplSpace := ⟨[-10, -10, -10], [10, 10, 10], none, none, false⟩ with hS
  have hnew : OmplSession.new L (.articulated 1) exStore 0 1 = .ok ⟨.articulated 1, 0, 1, some S⟩ := by
    unfold OmplSession.new
    rw [show Store.read exStore 0 = .ok [-10, -10, -10] from rfl, show Store.read exStore 1 = .ok [10, 10, 10] from rfl]
    simp only [Res.bind_ok']
    rw [hsp]
    rfl
  have ho : Ordered S.low S.high := ordered_of_accepted hL (fun b hb' => hL.accepts _ _ (hb b hb'))
  set v : Vec := [0, 0, 0, 1, 0, 0, 0, 0] with hv
  rcases stateOf_spec hL (k := .articulated 1) (S := S) ho rfl rfl v with ⟨-, u, e1, -⟩ | ⟨h, -⟩
  · have := hc (.articulated 1) exStore 0 1 _ hnew [.plan v v] (⟨.articulated 1, 0, 1, some S⟩, exStore) [.handed ⟨S, u, u⟩] (by
      simp only [omplRun, omplStep, OmplSession.plan, e1, Res.bind_ok']) 0 ⟨S, u, u⟩ rfl
    exact nomatch this
  · simp [hv, OmplKind.dim, OmplKind.posDim, OmplKind.rotDim, OmplKind.joints] at h

/-- The bounds are read through references when `setup` runs: changing the vectors given to the constructor changes them. -/
theorem C94_bounds_refuted (L : OmplLib) (hL : L.Ok) : ¬ C94_bounds_claim L := by
  intro hc
  obtain ⟨p, s', h, -, -, f, -⟩ := ex_session hL 0
  set m : Store := fun r => if r = 0 then some [20, 20, 20] else if r = 1 then some [30, 30, 30] else none with hm
  have hrun : omplRun L [.caller exStore, .setup 2 0, .plan [0, 0, 0] [0, 0, 0]] (⟨.plane, 0, 1, none⟩, m) =
      .ok (s', [.done, .done, .handed p]) := by
    unfold omplRun
    simp only [omplStep, Res.bind_ok']
    rw [h, Res.bind_ok']
  obtain ⟨h1, h2⟩ := hc .plane m 0 1 _ [20, 20, 20] [30, 30, 30] rfl rfl rfl _ _ _ hrun 2 p rfl
  have hp : p.start = [0, 0, 0] := f.same (by
    refine ⟨rfl, ⟨rfl, rfl, fun i l h x hl hh hx => ?_⟩, ?_, fun x hx => by simp [OmplKind.posDim, OmplKind.rotDim, OmplKind.dim, OmplKind.joints] at hx⟩
    · have hi' : i < 2 := (List.getElem?_eq_some_iff.1 hl).1
      interval_cases i <;> (
        simp [OmplKind.posDim, OmplKind.rotDim, OmplKind.dim, OmplKind.joints] at hl hh hx
        subst hl hh hx
        norm_num)
    · have := Real.pi_pos
      exact ⟨by linarith, this⟩)
  rcases C94_problem_partial L hL .plane m 0 1 _ rfl _ _ _ hrun 2 _ _ rfl with ⟨h, -⟩ | ⟨h, -⟩ | ⟨p', h, -, f', -⟩
  · exact nomatch h
  · exact nomatch h
  · have e : p = p' := OmplOut.handed.inj (Option.some.inj h)
    subst e
    have := f'.admissible.pos.2.2 0 20 30 0 (by rw [h1]; rfl) (by rw [h2]; rfl) (by rw [hp]; rfl)
    norm_num at this

/-- If the vectors given to the constructor no longer exist (temporaries, say), `setup` is undefined. -/
theorem C94_bounds_dangling (L : OmplLib) (s : OmplSession) (m : Store) (pid sid : ℕ) (ops : List OmplOp)
    (h : m s.lowRef = none ∨ ∃ lo, m s.lowRef = some lo ∧ m s.highRef = none) :
    omplRun L (.setup pid sid :: ops) (s, m) = .ub := by
  rcases h with h | ⟨lo, h1, h2⟩
  · simp only [omplRun, omplStep, OmplSession.setup, Store.read, h]
    rfl
  · simp only [omplRun, omplStep, OmplSession.setup, Store.read, h1, h2, Res.bind_ok']
    rfl

/-- There are libraries that keep the contract. -/
theorem exists_omplLib : ∃ L : OmplLib, L.Ok := by
  classical
  have hp := Real.pi_pos
  refine ⟨⟨fun lo hi => hi < lo, fun t => t + 2 * Real.pi * (-⌊(t + Real.pi) / (2 * Real.pi)⌋ : ℤ),
    fun q => if q.Unit then q else (1, 0, 0, 0)⟩, fun lo hi h => not_lt.2 h.le, fun lo hi h => h, fun t => ⟨_, rfl, ?_, ?_⟩, ?_, ?_⟩
  · have := Int.floor_le ((t + Real.pi) / (2 * Real.pi))
    rw [le_div_iff₀ (by positivity)] at this
    push_cast
    nlinarith
  · have := Int.lt_floor_add_one ((t + Real.pi) / (2 * Real.pi))
    rw [div_lt_iff₀ (by positivity)] at this
    push_cast
    nlinarith
  · intro q
    dsimp only
    split
    · assumption
    · norm_num [Quat.Unit]
  · intro q hq
    exact if_pos hq

/-- The hypotheses of the theorems above are met: a session with a failed and a successful `setup`. -/
example : ∃ (L : OmplLib) (p : OmplProblem) (s' : OmplSession × Store), L.Ok ∧
    omplRun L [.caller (fun r => if r = 0 then some [1, 1] else some [0, 0]), .setup 1 1, .caller exStore, .setup 2 0,
      .plan [20, 0, 0] [0, 0, 0]] (⟨.plane, 0, 1, none⟩, fun _ => none) =
      .ok (s', [.done, .threw, .done, .done, .handed p]) ∧ p.space.planner = some .rrt := by
  obtain ⟨L, hL⟩ := exists_omplLib
  obtain ⟨p, s', h, h2, -⟩ := ex_session hL 20
  have ht := (C94_setup L hL ⟨.plane, 0, 1, none⟩ (fun r => if r = 0 then some [1, 1] else some [0, 0]) 1 1 [1, 1] [0, 0] rfl rfl
    (by simp [OmplKind.posDim]) (by simp [OmplKind.posDim])).2 ⟨0, by simp [OmplKind.posDim], 1, 0, rfl, rfl, by norm_num⟩
  refine ⟨L, p, s', hL, ?_, h2⟩
  rw [omplRun, show omplStep L _ (.caller _) = .ok ((⟨.plane, 0, 1, none⟩, _), .done) from rfl, Res.bind_ok', omplRun, ht,
    Res.bind_ok', omplRun, show omplStep L _ (.caller _) = .ok ((⟨.plane, 0, 1, none⟩, _), .done) from rfl, Res.bind_ok', h]
  rfl

end Hrm
