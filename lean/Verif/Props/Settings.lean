import Verif.Spec.Settings
import Verif.Lemmas.Planner3DPlan
import Verif.Props.Planner3D
import Verif.Props.Csv
import Verif.Props.Shape
import Mathlib.Tactic

/-!
# Properties of the planning settings
-/

namespace Hrm

open Matrix

/-! ## C51 – derived parameters -/

theorem foldMin_spec (s : List ℝ) (m : ℝ) :
    (s.foldl (fun m x => if x < m then x else m) m = m ∨ s.foldl (fun m x => if x < m then x else m) m ∈ s) ∧
      s.foldl (fun m x => if x < m then x else m) m ≤ m ∧ ∀ x ∈ s, s.foldl (fun m x => if x < m then x else m) m ≤ x := by
  induction s generalizing m with
  | nil => simp
  | cons y s ih =>
    rw [List.foldl_cons]
    obtain ⟨h1, h2, h3⟩ := ih (if y < m then y else m)
    set r := s.foldl (fun m x => if x < m then x else m) (if y < m then y else m)
    have hle : (if y < m then y else m) ≤ m ∧ (if y < m then y else m) ≤ y := by
      split_ifs with h
      · exact ⟨h.le, le_rfl⟩
      · exact ⟨le_rfl, not_lt.1 h⟩
    refine ⟨?_, h2.trans hle.1, ?_⟩
    · rcases h1 with h1 | h1
      · split_ifs at h1
        · exact Or.inr (by rw [h1]; simp)
        · exact Or.inl h1
      · exact Or.inr (by simp [h1])
    · intro x hx
      rcases List.mem_cons.1 hx with rfl | hx
      · exact h2.trans hle.2
      · exact h3 x hx

theorem foldMin2_spec (ls : List (List ℝ)) (m : ℝ) :
    let r := ls.foldl (fun m s => s.foldl (fun m x => if x < m then x else m) m) m
    (r = m ∨ ∃ l ∈ ls, r ∈ l) ∧ r ≤ m ∧ ∀ l ∈ ls, ∀ x ∈ l, r ≤ x := by
  induction ls generalizing m with
  | nil => simp
  | cons s ls ih =>
    intro r
    obtain ⟨h1, h2, h3⟩ := ih (s.foldl (fun m x => if x < m then x else m) m)
    obtain ⟨g1, g2, g3⟩ := foldMin_spec s m
    refine ⟨?_, h2.trans g2, ?_⟩
    · rcases h1 with h1 | ⟨l, hl, h1⟩
      · rcases g1 with g1 | g1
        · exact Or.inl (h1.trans g1)
        · refine Or.inr ⟨s, by simp, ?_⟩
          change List.foldl _ _ ls ∈ s
          rw [h1]; exact g1
      · exact Or.inr ⟨l, by simp [hl], h1⟩
    · intro l hl x hx
      rcases List.mem_cons.1 hl with rfl | hl
      · exact h2.trans (g3 x hx)
      · exact h3 l hl x hx

/-- C51: the minimum size of a list of obstacles is the least semi-axis that occurs in it; an empty list is reported by
an exception. -/
theorem C51_min_size (ls : List (List ℝ)) (hne : ls ≠ []) (hne' : ∀ l ∈ ls, l ≠ []) :
    ∃ m, computeObstacleMinSize ls = .ok m ∧ IsLeastSize ls m := by
  cases ls with
  | nil => exact absurd rfl hne
  | cons s ls =>
    cases s with
    | nil => exact absurd rfl (hne' [] (by simp))
    | cons x s =>
      refine ⟨_, rfl, ?_, (foldMin2_spec ((x :: s) :: ls) x).2.2⟩
      rcases (foldMin2_spec ((x :: s) :: ls) x).1 with h | h
      · refine ⟨x :: s, by simp, ?_⟩
        rw [h]; simp
      · exact h

theorem C51_no_obstacles : computeObstacleMinSize [] = .throw := rfl

theorem IsLeastSize.unique {ls : List (List ℝ)} {m m' : ℝ} (h : IsLeastSize ls m) (h' : IsLeastSize ls m') : m = m' := by
  obtain ⟨⟨l, hl, hm⟩, h2⟩ := h
  obtain ⟨⟨l', hl', hm'⟩, h2'⟩ := h'
  exact le_antisymm (h2 l' hl' m' hm') (h2' l hl m hm)

theorem toIndex_nonneg {n : ℤ} (h0 : 0 ≤ n) (h1 : n < 2 ^ 31) : (toIndex n : ℤ) = n := by
  unfold toIndex
  rw [Int.emod_eq_of_lt h0 (by omega), Int.toNat_of_nonneg h0]

theorem toIndex_neg {n : ℤ} (h0 : n < 0) (h1 : -2 ^ 31 ≤ n) : (toIndex n : ℤ) = 2 ^ 64 + n := by
  unfold toIndex
  rw [← Int.add_emod_right, Int.emod_eq_of_lt (by omega) (by omega), Int.toNat_of_nonneg (by omega)]
  ring

theorem at'_zero {β : Type} {l : List β} {a : β} (h : l.head? = some a) : Res.at' l 0 = .ok a := by
  rw [Res.at'_eq_ok, ← List.head?_eq_getElem?, h]

/-- C51, as a user would state it (plane): for an environment with bodies of positive size, the limits are symmetric
about the arena's centre, keep the robot's base inside the arena, and there are sweep lines. -/
def C51_claim : Prop :=
  ∀ (robot : Tree2) (arena obs : List SuperEllipse) (p p' : Param2) (A : SuperEllipse), arena.head? = some A → A.Ok →
    robot.base.Ok → robot.numLinks = 0 → obs ≠ [] → (∀ E ∈ obs, E.Ok) →
    defineParameters2 robot arena obs p = .ok p' →
    (p'.xLo + p'.xHi = 2 * A.px ∧ p'.yLo + p'.yHi = 2 * A.py) ∧ StaysInside2 robot.base A p' ∧ 0 < p'.numLineY

/-- The result in the plane. -/
theorem defineParameters2_eq {robot : Tree2} {arena obs : List SuperEllipse} {p p' : Param2} {A : SuperEllipse}
    (hA : arena.head? = some A) (h : defineParameters2 robot arena obs p = .ok p') :
    p'.xLo = A.px - (A.a - 3 / 2 * robot.base.a) ∧ p'.xHi = A.px + (A.a - 3 / 2 * robot.base.a) ∧
      p'.yLo = A.py - (A.b - 3 / 2 * robot.base.a) ∧ p'.yHi = A.py + (A.b - 3 / 2 * robot.base.a) ∧
      p'.numSlice = p.numSlice ∧ p'.numPoint = p.numPoint ∧ p'.numSearchNeighbor = p.numSearchNeighbor ∧
      p'.searchRadius = p.searchRadius ∧
      (p.numLineY ≠ 0 → p'.numLineY = p.numLineY) ∧
      (p.numLineY = 0 → ∃ m n, IsLeastSize (obs.map fun o => [o.a, o.b]) m ∧ m ≠ 0 ∧
        toInt ((A.b - 3 / 2 * robot.base.a) / m) = .ok n ∧ p'.numLineY = toIndex n) := by
  unfold defineParameters2 at h
  rw [at'_zero hA] at h
  change (if p.numLineY = 0 then _ else _) = _ at h
  by_cases h0 : p.numLineY = 0
  · rw [if_pos h0] at h
    obtain ⟨m, h1, h⟩ := Res.bind_eq_ok.1 h
    obtain ⟨r, h2, h⟩ := Res.bind_eq_ok.1 h
    obtain ⟨n, h3, h⟩ := Res.bind_eq_ok.1 h
    obtain rfl := (Res.ok.injEq _ _).mp h
    refine ⟨rfl, rfl, rfl, rfl, rfl, rfl, rfl, rfl, fun h => absurd h0 h, fun _ => ⟨m, n, ?_, ?_, ?_, rfl⟩⟩
    · change computeObstacleMinSize (obs.map fun o => [o.a, o.b]) = .ok m at h1
      have hne : (obs.map fun o => [o.a, o.b]) ≠ [] := by
        intro e; rw [e] at h1; exact nomatch h1
      obtain ⟨m', h1', hm⟩ := C51_min_size (obs.map fun o => [o.a, o.b]) hne (by
        intro l hl
        obtain ⟨E, -, rfl⟩ := List.mem_map.1 hl
        simp)
      rw [h1] at h1'
      obtain rfl := (Res.ok.injEq _ _).mp h1'
      exact hm
    · intro e
      unfold quotient at h2
      rw [if_pos e] at h2
      exact nomatch h2
    · unfold quotient at h2
      split at h2
      · exact nomatch h2
      · obtain rfl := (Res.ok.injEq _ _).mp h2
        exact h3
  · rw [if_neg h0] at h
    obtain rfl := (Res.ok.injEq _ _).mp h
    exact ⟨rfl, rfl, rfl, rfl, rfl, rfl, rfl, rfl, fun _ => rfl, fun h => absurd h h0⟩

/-- C51, symmetry (plane): for every environment and robot, the limits are symmetric about the arena's centre. -/
theorem C51_symmetric_plane {robot : Tree2} {arena obs : List SuperEllipse} {p p' : Param2} {A : SuperEllipse}
    (hA : arena.head? = some A) (h : defineParameters2 robot arena obs p = .ok p') :
    p'.xLo + p'.xHi = 2 * A.px ∧ p'.yLo + p'.yHi = 2 * A.py := by
  obtain ⟨h1, h2, h3, h4, -⟩ := defineParameters2_eq hA h
  rw [h1, h2, h3, h4]
  constructor <;> ring

theorem rpow_le_one_abs {x e : ℝ} (he : 0 < e) (h : |x| ^ e ≤ 1) : |x| ≤ 1 := by
  by_contra hx
  exact absurd (Real.one_lt_rpow (not_le.1 hx) he) (not_lt.2 h)

theorem SuperEllipse.implicit_box {E : SuperEllipse} (h : E.Ok) {q : Fin 2 → ℝ} (hq : E.implicit q ≤ 1) :
    |q 0| ≤ E.a ∧ |q 1| ≤ E.b := by
  unfold SuperEllipse.implicit at hq
  have h0 : 0 ≤ |q 0 / E.a| ^ (2 / E.eps) := Real.rpow_nonneg (abs_nonneg _) _
  have h1 : 0 ≤ |q 1 / E.b| ^ (2 / E.eps) := Real.rpow_nonneg (abs_nonneg _) _
  have he : 0 < 2 / E.eps := div_pos two_pos h.lo
  have g0 := rpow_le_one_abs he (by linarith : |q 0 / E.a| ^ (2 / E.eps) ≤ 1)
  have g1 := rpow_le_one_abs he (by linarith : |q 1 / E.b| ^ (2 / E.eps) ≤ 1)
  rw [abs_div, abs_of_pos h.a, div_le_one h.a] at g0
  rw [abs_div, abs_of_pos h.b, div_le_one h.b] at g1
  exact ⟨g0, g1⟩

/-- C51, margin (plane): if the first semi-axis of the robot's base is its largest one, the base stays in the arena's box
for every position within the limits and every heading, for every convex superellipse as a base. (The other bodies and
the second semi-axis do not enter the limits.) -/
theorem C51_margin_plane_partial {robot : Tree2} {arena obs : List SuperEllipse} {p p' : Param2} {A : SuperEllipse}
    (hA : arena.head? = some A) (h : defineParameters2 robot arena obs p = .ok p') (hB : robot.base.Ok)
    (hab : robot.base.b ≤ robot.base.a) : StaysInside2 robot.base A p' := by
  obtain ⟨h1, h2, h3, h4, -⟩ := defineParameters2_eq hA h
  intro x y th hx1 hx2 hy1 hy2 s hs
  obtain ⟨p0, ⟨q, hq, rfl⟩, rfl⟩ := hs
  have hbox := SuperEllipse.implicit_box (E := { robot.base with px := x, py := y, ang := th }) ⟨hB.a, hB.b, hB.lo, hB.hi⟩ hq
  obtain ⟨b0, b1⟩ := hbox
  change |q 0| ≤ robot.base.a at b0
  change |q 1| ≤ robot.base.b at b1
  have ha := hB.a
  have hcs := Real.sin_sq_add_cos_sq th
  have sq0 : q 0 ^ 2 ≤ robot.base.a ^ 2 := sq_le_sq' (by linarith [abs_le.1 b0]) (abs_le.1 b0).2
  have sq1 : q 1 ^ 2 ≤ robot.base.a ^ 2 := sq_le_sq' (by linarith [abs_le.1 b1]) ((abs_le.1 b1).2.trans hab)
  have e0 : (rot2 th *ᵥ q + ![x, y]) 0 = Real.cos th * q 0 - Real.sin th * q 1 + x := by
    simp [rot2, dotProduct, Fin.sum_univ_two]; ring
  have e1 : (rot2 th *ᵥ q + ![x, y]) 1 = Real.sin th * q 0 + Real.cos th * q 1 + y := by
    simp [rot2, dotProduct, Fin.sum_univ_two]
  have k0 : |Real.cos th * q 0 - Real.sin th * q 1| ≤ 3 / 2 * robot.base.a := by
    apply abs_le_of_sq_le_sq _ (by linarith)
    nlinarith [sq_nonneg (Real.sin th * q 0 + Real.cos th * q 1)]
  have k1 : |Real.sin th * q 0 + Real.cos th * q 1| ≤ 3 / 2 * robot.base.a := by
    apply abs_le_of_sq_le_sq _ (by linarith)
    nlinarith [sq_nonneg (Real.cos th * q 0 - Real.sin th * q 1)]
  change |(rot2 th *ᵥ q + ![x, y]) 0 - A.px| ≤ A.a ∧ |(rot2 th *ᵥ q + ![x, y]) 1 - A.py| ≤ A.b
  rw [e0, e1]
  rw [abs_le] at k0 k1
  constructor <;> rw [abs_le] <;> constructor <;> linarith

/-- C51, number of sweep lines (plane): with `m` the least semi-axis of the obstacles, a derived number is the integral
part of (half of the height between the limits) / `m`; it is positive exactly if that half is at least `m`. -/
theorem C51_lines_plane_partial {robot : Tree2} {arena obs : List SuperEllipse} {p p' : Param2} {A : SuperEllipse}
    (hA : arena.head? = some A) (h : defineParameters2 robot arena obs p = .ok p') (h0 : p.numLineY = 0)
    {m : ℝ} (hm : IsLeastSize (obs.map fun o => [o.a, o.b]) m) (hm0 : 0 < m) (hb : p'.yLo ≤ p'.yHi) :
    (p'.numLineY : ℤ) = ⌊(p'.yHi - p'.yLo) / 2 / m⌋ ∧ (0 < p'.numLineY ↔ m ≤ (p'.yHi - p'.yLo) / 2) := by
  obtain ⟨-, -, h3, h4, -, -, -, -, -, h5⟩ := defineParameters2_eq hA h
  obtain ⟨m', n, hm', -, hn, e⟩ := h5 h0
  obtain rfl := hm.unique hm'
  have eb : (p'.yHi - p'.yLo) / 2 = A.b - 3 / 2 * robot.base.a := by rw [h3, h4]; ring
  rw [eb]
  have hnn : 0 ≤ A.b - 3 / 2 * robot.base.a := by rw [← eb]; linarith
  unfold toInt at hn
  rw [if_pos (div_nonneg hnn hm0.le)] at hn
  dsimp only at hn
  split at hn
  · rename_i hr
    obtain rfl := (Res.ok.injEq _ _).mp hn
    have hfl : 0 ≤ ⌊(A.b - 3 / 2 * robot.base.a) / m⌋ := Int.floor_nonneg.2 (div_nonneg hnn hm0.le)
    have hi := toIndex_nonneg hfl hr.2
    rw [e]
    refine ⟨hi, ?_⟩
    rw [← Int.natCast_pos, hi, Int.floor_pos, le_div_iff₀ hm0, one_mul]
  · exact nomatch hn

/-- C51: a derived number of sweep lines puts the lines *farther apart than the diameter of the smallest obstacle*, so
that obstacle can lie between two lines. -/
theorem C51_spacing_plane {robot : Tree2} {arena obs : List SuperEllipse} {p p' : Param2} {A : SuperEllipse}
    (hA : arena.head? = some A) (h : defineParameters2 robot arena obs p = .ok p') (h0 : p.numLineY = 0)
    {m : ℝ} (hm : IsLeastSize (obs.map fun o => [o.a, o.b]) m) (hm0 : 0 < m) (hb : p'.yLo ≤ p'.yHi) (hn : 2 ≤ p'.numLineY) :
    2 * m < (p'.yHi - p'.yLo) / ((p'.numLineY : ℝ) - 1) := by
  obtain ⟨e, -⟩ := C51_lines_plane_partial hA h h0 hm hm0 hb
  have hn' : (2 : ℝ) ≤ p'.numLineY := by exact_mod_cast hn
  have h1 : ((p'.numLineY : ℤ) : ℝ) ≤ (p'.yHi - p'.yLo) / 2 / m := by rw [e]; exact Int.floor_le _
  rw [Int.cast_natCast, le_div_iff₀ hm0] at h1
  rw [lt_div_iff₀ (by linarith)]
  nlinarith

/-- C51: when the base is too large for the arena by at least the least obstacle size, the number of sweep lines wraps
around to almost 2^64. -/
theorem C51_wraps_plane {robot : Tree2} {arena obs : List SuperEllipse} {p p' : Param2} {A : SuperEllipse}
    (hA : arena.head? = some A) (h : defineParameters2 robot arena obs p = .ok p') (h0 : p.numLineY = 0)
    {m : ℝ} (hm : IsLeastSize (obs.map fun o => [o.a, o.b]) m) (hm0 : 0 < m) (hb : (p'.yHi - p'.yLo) / 2 ≤ -m) :
    2 ^ 64 - 2 ^ 31 ≤ p'.numLineY := by
  obtain ⟨-, -, h3, h4, -, -, -, -, -, h5⟩ := defineParameters2_eq hA h
  obtain ⟨m', n, hm', -, hn, e⟩ := h5 h0
  obtain rfl := hm.unique hm'
  have eb : (p'.yHi - p'.yLo) / 2 = A.b - 3 / 2 * robot.base.a := by rw [h3, h4]; ring
  rw [eb] at hb
  have hq : (A.b - 3 / 2 * robot.base.a) / m ≤ -1 := by rw [div_le_iff₀ hm0]; linarith
  unfold toInt at hn
  rw [if_neg (not_le.2 (by linarith : (A.b - 3 / 2 * robot.base.a) / m < 0))] at hn
  dsimp only at hn
  split at hn
  · rename_i hr
    obtain rfl := (Res.ok.injEq _ _).mp hn
    have hc : ⌈(A.b - 3 / 2 * robot.base.a) / m⌉ ≤ -1 := Int.ceil_le.2 (by push_cast; exact hq)
    have hi := toIndex_neg (by omega) hr.1
    rw [e]
    omega
  · exact nomatch hn

/-! ### Wrong in the plane -/

/-- A unit disc as robot, an arena of half-size 2 and one obstacle of size 1. -/
noncomputable def exSet : Tree2 × SuperEllipse × SuperEllipse := ⟨.new ⟨1, 1, 1, 0, 0, 0, 10⟩, ⟨2, 2, 1, 0, 0, 0, 10⟩, ⟨1, 1, 1, 0, 0, 0, 10⟩⟩

/-- C51: the planar parameters are defined for every environment with an arena, an obstacle, positive sizes and a
quotient in the range of `int`. -/
theorem C51_defined_plane (robot : Tree2) {arena obs : List SuperEllipse} (p : Param2) {A : SuperEllipse}
    (hA : arena.head? = some A) {m : ℝ} (hm : IsLeastSize (obs.map fun o => [o.a, o.b]) m) (hm0 : 0 < m)
    (hr : |(A.b - 3 / 2 * robot.base.a) / m| < 2 ^ 31) : ∃ p', defineParameters2 robot arena obs p = .ok p' := by
  unfold defineParameters2
  rw [at'_zero hA]
  change ∃ p', (if p.numLineY = 0 then _ else _) = _
  split
  · have hne : (obs.map fun o => [o.a, o.b]) ≠ [] := by
      rintro e
      rw [e] at hm
      obtain ⟨⟨l, hl, -⟩, -⟩ := hm
      exact absurd hl (by simp)
    obtain ⟨m', h1, hm'⟩ := C51_min_size (obs.map fun o => [o.a, o.b]) hne (by
      intro l hl
      obtain ⟨E, -, rfl⟩ := List.mem_map.1 hl
      simp)
    obtain rfl := hm.unique hm'
    change computeObstacleMinSize (obs.map (·.semi)) = .ok m at h1
    rw [h1]
    change ∃ p', Res.bind (quotient _ m) _ = _
    unfold quotient
    rw [if_neg hm0.ne']
    change ∃ p', Res.bind (toInt _) _ = _
    obtain ⟨l, u⟩ := abs_lt.1 hr
    have : ∃ n, toInt ((A.b - 3 / 2 * robot.base.a) / m) = .ok n := by
      unfold toInt
      dsimp only
      rw [if_pos]
      · exact ⟨_, rfl⟩
      · split_ifs with h
        · have hf : 0 ≤ ⌊(A.b - 3 / 2 * robot.base.a) / m⌋ := Int.floor_nonneg.2 h
          exact ⟨by linarith, Int.floor_lt.2 (by push_cast; linarith)⟩
        · have hf : ⌈(A.b - 3 / 2 * robot.base.a) / m⌉ ≤ 0 := Int.ceil_le.2 (by push_cast; linarith)
          exact ⟨by have := Int.lt_ceil.2 (by push_cast; linarith : ((-2 ^ 31 : ℤ) : ℝ) < (A.b - 3 / 2 * robot.base.a) / m)
                    omega, by linarith⟩
    obtain ⟨n, hn⟩ := this
    rw [hn]
    exact ⟨_, rfl⟩
  · exact ⟨_, rfl⟩

theorem exSet_least : IsLeastSize ([exSet.2.2].map fun o => [o.a, o.b]) 1 := by
  constructor
  · exact ⟨[1, 1], by simp [exSet], by simp⟩
  · intro l hl x hx
    simp [exSet] at hl
    subst hl
    simp at hx
    rw [hx]

/-- C51 is false as stated: no sweep line at all. -/
theorem C51_no_lines : ∃ p', defineParameters2 exSet.1 [exSet.2.1] [exSet.2.2] ⟨10, 0, 5, 10, 1, 0, 0, 0, 0⟩ = .ok p' ∧
    p'.numLineY = 0 := by
  have e : exSet.2.1.b - 3 / 2 * exSet.1.base.a = 1 / 2 := by norm_num [exSet, Tree2.new]
  obtain ⟨p', hp⟩ := C51_defined_plane exSet.1 ⟨10, 0, 5, 10, 1, 0, 0, 0, 0⟩ (arena := [exSet.2.1]) rfl exSet_least one_pos
    (by rw [e]; norm_num [abs_of_pos])
  obtain ⟨-, -, h3, h4, -⟩ := defineParameters2_eq (A := exSet.2.1) rfl hp
  rw [e] at h3 h4
  refine ⟨p', hp, ?_⟩
  have := (C51_lines_plane_partial (A := exSet.2.1) rfl hp rfl exSet_least one_pos (by rw [h3, h4]; linarith)).2
  by_contra hne
  have := this.1 (Nat.pos_of_ne_zero hne)
  rw [h3, h4] at this
  linarith

/-- The hypotheses of the partial theorems are met: the same robot in an arena of half-size 10 gets 8 sweep lines. -/
example : ∃ p', defineParameters2 exSet.1 [⟨10, 10, 1, 0, 0, 0, 10⟩] [exSet.2.2] ⟨10, 0, 5, 10, 1, 0, 0, 0, 0⟩ = .ok p' ∧
    p'.numLineY = 8 ∧ StaysInside2 exSet.1.base ⟨10, 10, 1, 0, 0, 0, 10⟩ p' := by
  have e : (10 : ℝ) - 3 / 2 * exSet.1.base.a = 17 / 2 := by norm_num [exSet, Tree2.new]
  obtain ⟨p', hp⟩ := C51_defined_plane exSet.1 ⟨10, 0, 5, 10, 1, 0, 0, 0, 0⟩ (arena := [⟨10, 10, 1, 0, 0, 0, 10⟩]) rfl
    exSet_least one_pos (by dsimp only; rw [e]; norm_num [abs_of_pos])
  obtain ⟨-, -, h3, h4, -⟩ := defineParameters2_eq (A := ⟨10, 10, 1, 0, 0, 0, 10⟩) rfl hp
  dsimp only at h3 h4
  rw [e] at h3 h4
  have hn := (C51_lines_plane_partial (A := ⟨10, 10, 1, 0, 0, 0, 10⟩) rfl hp rfl exSet_least one_pos
    (by rw [h3, h4]; linarith)).1
  rw [h3, h4] at hn
  refine ⟨p', hp, ?_, C51_margin_plane_partial rfl hp ⟨one_pos, one_pos, one_pos, one_lt_two⟩ le_rfl⟩
  have : ⌊((0 : ℝ) + 17 / 2 - (0 - 17 / 2)) / 2 / 1⌋ = 8 := by norm_num
  rw [this] at hn
  exact_mod_cast hn

theorem C51_refuted : ¬ C51_claim := by
  intro h
  obtain ⟨p', h1, h2⟩ := C51_no_lines
  have hok : ∀ r : ℝ, 0 < r → (⟨r, r, 1, 0, 0, 0, 10⟩ : SuperEllipse).Ok := fun r hr => ⟨hr, hr, one_pos, one_lt_two⟩
  have := (h _ _ _ _ p' _ rfl (hok 2 two_pos) (hok 1 one_pos) rfl (by simp) (by
    intro E hE
    obtain rfl := List.mem_singleton.1 hE
    exact hok 1 one_pos) h1).2.2
  omega

/-- C51: the margin is wrong for a base whose second semi-axis is the larger one, whatever the arena: with `b ≥ 2a` and
limits that are not empty, the base leaves the arena. -/
theorem C51_margin_wrong_plane {robot : Tree2} {arena obs : List SuperEllipse} {p p' : Param2} {A : SuperEllipse}
    (hA : arena.head? = some A) (h : defineParameters2 robot arena obs p = .ok p') (hB : robot.base.Ok)
    (hab : 2 * robot.base.a ≤ robot.base.b) (hx : p'.xLo ≤ p'.xHi) (hy : p'.yLo ≤ p'.yHi) :
    ¬ StaysInside2 robot.base A p' := by
  obtain ⟨h1, h2, h3, h4, -⟩ := defineParameters2_eq hA h
  intro hs
  have hsol : ![p'.xHi, p'.yHi + robot.base.b] ∈
      ({ robot.base with px := p'.xHi, py := p'.yHi, ang := 0 } : SuperEllipse).solid := by
    refine ⟨![0, robot.base.b], ⟨![0, robot.base.b], ?_, ?_⟩, ?_⟩
    · have : 2 / robot.base.eps ≠ 0 := (div_pos two_pos hB.lo).ne'
      simp [SuperEllipse.implicit, div_self hB.b.ne', Real.zero_rpow this]
    · change _ = rot2 0 *ᵥ _
      rw [rot2_zero, one_mulVec]
    · ext i; fin_cases i <;> simp; ring
  have := (hs p'.xHi p'.yHi 0 hx le_rfl hy le_rfl _ hsol).2
  simp only [Matrix.cons_val_one, Matrix.cons_val_fin_one] at this
  rw [abs_le, h4] at this
  linarith [hB.a]

/-! ### Space -/

theorem defineParameters3_eq {robot : Tree3} {quats : List Quat} {arena obs : List SuperQuadrics} {p p' : Param3}
    {A : SuperQuadrics} (hA : arena.head? = some A) (h : defineParameters3 robot quats arena obs p = .ok p') :
    (p'.xLo = A.pos 0 - (A.a - 6 / 5 * robot.base.a) ∧ p'.xHi = A.pos 0 + (A.a - 6 / 5 * robot.base.a) ∧
      p'.yLo = A.pos 1 - (A.b - 6 / 5 * robot.base.a) ∧ p'.yHi = A.pos 1 + (A.b - 6 / 5 * robot.base.a) ∧
      p'.zLo = A.pos 2 - (A.c - 6 / 5 * robot.base.a) ∧ p'.zHi = A.pos 2 + (A.c - 6 / 5 * robot.base.a)) ∧
      p'.numSlice = quats.length ∧ p'.numPoint = p.numPoint ∧ p'.numSearchNeighbor = p.numSearchNeighbor ∧
      p'.searchRadius = p.searchRadius ∧
      ((p.numLineX ≠ 0 ∧ p.numLineY ≠ 0) → p'.numLineX = p.numLineX ∧ p'.numLineY = p.numLineY) ∧
      ((p.numLineX = 0 ∨ p.numLineY = 0) → ∃ m, IsLeastSize (obs.map fun o => [o.a, o.b, o.c]) m ∧ m ≠ 0 ∧
        floorToIndex ((A.a - 6 / 5 * robot.base.a) / m) = .ok p'.numLineX ∧
        floorToIndex ((A.b - 6 / 5 * robot.base.a) / m) = .ok p'.numLineY) := by
  unfold defineParameters3 at h
  rw [at'_zero hA] at h
  change (if p.numLineX = 0 ∨ p.numLineY = 0 then _ else _) = _ at h
  by_cases h0 : p.numLineX = 0 ∨ p.numLineY = 0
  · rw [if_pos h0] at h
    obtain ⟨m, h1, h⟩ := Res.bind_eq_ok.1 h
    obtain ⟨r, h2, h⟩ := Res.bind_eq_ok.1 h
    obtain ⟨n, h3, h⟩ := Res.bind_eq_ok.1 h
    obtain ⟨r', h2', h⟩ := Res.bind_eq_ok.1 h
    obtain ⟨n', h3', h⟩ := Res.bind_eq_ok.1 h
    obtain rfl := (Res.ok.injEq _ _).mp h
    refine ⟨⟨rfl, rfl, rfl, rfl, rfl, rfl⟩, rfl, rfl, rfl, rfl, fun h => ?_, fun _ => ⟨m, ?_, ?_, ?_, ?_⟩⟩
    · rcases h0 with e | e
      · exact absurd e h.1
      · exact absurd e h.2
    · change computeObstacleMinSize (obs.map fun o => [o.a, o.b, o.c]) = .ok m at h1
      have hne : (obs.map fun o => [o.a, o.b, o.c]) ≠ [] := by
        intro e; rw [e] at h1; exact nomatch h1
      obtain ⟨m', h1', hm⟩ := C51_min_size (obs.map fun o => [o.a, o.b, o.c]) hne (by
        intro l hl
        obtain ⟨E, -, rfl⟩ := List.mem_map.1 hl
        simp)
      rw [h1] at h1'
      obtain rfl := (Res.ok.injEq _ _).mp h1'
      exact hm
    · intro e
      unfold quotient at h2
      rw [if_pos e] at h2
      exact nomatch h2
    · unfold quotient at h2
      split at h2
      · exact nomatch h2
      · obtain rfl := (Res.ok.injEq _ _).mp h2
        exact h3
    · unfold quotient at h2'
      split at h2'
      · exact nomatch h2'
      · obtain rfl := (Res.ok.injEq _ _).mp h2'
        exact h3'
  · rw [if_neg h0] at h
    obtain rfl := (Res.ok.injEq _ _).mp h
    exact ⟨⟨rfl, rfl, rfl, rfl, rfl, rfl⟩, rfl, rfl, rfl, rfl, fun _ => ⟨rfl, rfl⟩, fun h => absurd h h0⟩

/-- C51, symmetry (space). -/
theorem C51_symmetric_space {robot : Tree3} {quats : List Quat} {arena obs : List SuperQuadrics} {p p' : Param3}
    {A : SuperQuadrics} (hA : arena.head? = some A) (h : defineParameters3 robot quats arena obs p = .ok p') :
    p'.xLo + p'.xHi = 2 * A.pos 0 ∧ p'.yLo + p'.yHi = 2 * A.pos 1 ∧ p'.zLo + p'.zHi = 2 * A.pos 2 := by
  obtain ⟨⟨h1, h2, h3, h4, h5, h6⟩, -⟩ := defineParameters3_eq hA h
  rw [h1, h2, h3, h4, h5, h6]
  refine ⟨?_, ?_, ?_⟩ <;> ring

/-- An entry of `R x` for orthogonal `R` is at most the norm of `x`. -/
theorem orth_entry_sq {R : Matrix (Fin 3) (Fin 3) ℝ} (hR : Orth R) (x : Fin 3 → ℝ) (i : Fin 3) :
    (R *ᵥ x) i ^ 2 ≤ x ⬝ᵥ x := by
  have h := hR.dot x x
  rw [← h]
  have : (R *ᵥ x) ⬝ᵥ (R *ᵥ x) = ∑ j, (R *ᵥ x) j * (R *ᵥ x) j := rfl
  rw [this, sq]
  exact Finset.single_le_sum (f := fun j => (R *ᵥ x) j * (R *ᵥ x) j) (fun j _ => mul_self_nonneg _) (Finset.mem_univ i)

/-- C51, margin (space): an ellipsoidal base whose first semi-axis is the largest stays in the arena's box for every
position within the limits and every orientation. -/
theorem C51_margin_space_partial {robot : Tree3} {quats : List Quat} {arena obs : List SuperQuadrics} {p p' : Param3}
    {A : SuperQuadrics} (hA : arena.head? = some A) (h : defineParameters3 robot quats arena obs p = .ok p')
    (hB : robot.base.Ok) (he1 : robot.base.e1 = 1) (he2 : robot.base.e2 = 1) (hab : robot.base.b ≤ robot.base.a)
    (hac : robot.base.c ≤ robot.base.a) : StaysInside3 robot.base A p' := by
  obtain ⟨⟨h1, h2, h3, h4, h5, h6⟩, -⟩ := defineParameters3_eq hA h
  intro t q hq hx1 hx2 hy1 hy2 hz1 hz2 s hs
  obtain ⟨p0, ⟨x, hx, rfl⟩, rfl⟩ := hs
  have ha := hB.a
  have hb := hB.b
  have hc := hB.c
  have hx' : (x 0 / robot.base.a) ^ 2 + (x 1 / robot.base.b) ^ 2 + (x 2 / robot.base.c) ^ 2 ≤ 1 := by
    unfold SuperQuadrics.implicit at hx
    simp only [he1, he2, div_one, Real.rpow_one] at hx
    simpa [Real.rpow_two] using hx
  have hsq : ∀ (u d : ℝ), 0 < d → d ≤ robot.base.a → u ^ 2 ≤ robot.base.a ^ 2 * (u / d) ^ 2 := by
    intro u d hd hda
    have : u ^ 2 = d ^ 2 * (u / d) ^ 2 := by field_simp
    rw [this]
    exact mul_le_mul_of_nonneg_right (pow_le_pow_left₀ hd.le hda 2) (sq_nonneg _)
  have hnorm : x ⬝ᵥ x ≤ robot.base.a ^ 2 := by
    have e : x ⬝ᵥ x = x 0 ^ 2 + x 1 ^ 2 + x 2 ^ 2 := by
      simp [dotProduct, Fin.sum_univ_three]; ring
    have k0 := hsq (x 0) _ ha le_rfl
    have k1 := hsq (x 1) _ hb hab
    have k2 := hsq (x 2) _ hc hac
    rw [e]
    nlinarith [sq_nonneg robot.base.a]
  have hent : ∀ i, |(quatRot q *ᵥ x) i| ≤ robot.base.a := fun i =>
    abs_le_of_sq_le_sq ((orth_entry_sq (quatRot_orth (by
      unfold Quat.Unit
      exact hq)) x i).trans hnorm) ha.le
  change |(quatRot q *ᵥ x + t) 0 - A.pos 0| ≤ A.a ∧ |(quatRot q *ᵥ x + t) 1 - A.pos 1| ≤ A.b ∧
    |(quatRot q *ᵥ x + t) 2 - A.pos 2| ≤ A.c
  simp only [Pi.add_apply]
  have k0 := abs_le.1 (hent 0)
  have k1 := abs_le.1 (hent 1)
  have k2 := abs_le.1 (hent 2)
  refine ⟨?_, ?_, ?_⟩ <;> rw [abs_le] <;> constructor <;> linarith

/-- C51, numbers of sweep lines (space): as in the plane. -/
theorem C51_lines_space_partial {robot : Tree3} {quats : List Quat} {arena obs : List SuperQuadrics} {p p' : Param3}
    {A : SuperQuadrics} (hA : arena.head? = some A) (h : defineParameters3 robot quats arena obs p = .ok p')
    (h0 : p.numLineX = 0 ∨ p.numLineY = 0) {m : ℝ} (hm : IsLeastSize (obs.map fun o => [o.a, o.b, o.c]) m) (hm0 : 0 < m) :
    ((p'.numLineX : ℤ) = ⌊(p'.xHi - p'.xLo) / 2 / m⌋ ∧ (p'.numLineY : ℤ) = ⌊(p'.yHi - p'.yLo) / 2 / m⌋) ∧
      (0 < p'.numLineX ↔ m ≤ (p'.xHi - p'.xLo) / 2) ∧ (0 < p'.numLineY ↔ m ≤ (p'.yHi - p'.yLo) / 2) ∧
      p'.xLo ≤ p'.xHi ∧ p'.yLo ≤ p'.yHi := by
  obtain ⟨⟨h1, h2, h3, h4, h5, h6⟩, -, -, -, -, -, hl⟩ := defineParameters3_eq hA h
  obtain ⟨m', hm', -, hX, hY⟩ := hl h0
  obtain rfl := hm.unique hm'
  have key : ∀ (b : ℝ) (n : ℕ), floorToIndex (b / m) = .ok n → (n : ℤ) = ⌊b / m⌋ ∧ (0 < n ↔ m ≤ b) ∧ 0 ≤ b := by
    intro b n hn
    unfold floorToIndex at hn
    split at hn
    · rename_i hr
      obtain rfl := (Res.ok.injEq _ _).mp hn
      have e := Int.toNat_of_nonneg hr.1
      refine ⟨e, ?_, ?_⟩
      · rw [← Int.natCast_pos, e, Int.floor_pos, le_div_iff₀ hm0, one_mul]
      · have := Int.floor_nonneg.1 hr.1
        by_contra hneg
        exact absurd this (not_le.2 (div_neg_of_neg_of_pos (not_le.1 hneg) hm0))
    · exact nomatch hn
  have eX : (p'.xHi - p'.xLo) / 2 = A.a - 6 / 5 * robot.base.a := by rw [h1, h2]; ring
  have eY : (p'.yHi - p'.yLo) / 2 = A.b - 6 / 5 * robot.base.a := by rw [h3, h4]; ring
  obtain ⟨x1, x2, x3⟩ := key _ _ hX
  obtain ⟨y1, y2, y3⟩ := key _ _ hY
  rw [eX, eY]
  exact ⟨⟨x1, y1⟩, x2, y2, by linarith, by linarith⟩

/-- C51: the number of slices a user asks for is replaced by the number of predefined orientations. -/
theorem C51_slices_overwritten {robot : Tree3} {quats : List Quat} {arena obs : List SuperQuadrics} {p p' : Param3}
    {A : SuperQuadrics} (hA : arena.head? = some A) (h : defineParameters3 robot quats arena obs p = .ok p') :
    p'.numSlice = quats.length := (defineParameters3_eq hA h).2.1

/-- C51: with random orientations (no predefined list) the derived parameters make the spatial planner fail for every
environment, whatever number of slices was asked for: no call of `plan` returns normally. -/
theorem C51_random_orientations_never_return {L : Libs3} {V : Variant} (hV : V.arm = none) {base : SuperQuadrics}
    {ops : List (RobotOp SuperQuadrics 3)} {robot : Tree3} (hrun : Tree3.run ops (Tree3.new base) = .ok robot) {arena obs : List SuperQuadrics}
    {p p' : Param3} {A : SuperQuadrics} (hA : arena.head? = some A)
    (h : defineParameters3 robot [] arena obs p = .ok p') (start goal : Vec) (clock : ℕ → ℝ) (timeLim : ℝ) (fuel : ℕ)
    (r' : PlanRep Planner3) :
    Planner3.plan L V clock timeLim fuel (freshRep3 (.new robot [] arena obs start goal p' true)) ≠ some (.ok r') := by
  intro hp
  have hne : arena ≠ [] := by rintro rfl; exact nomatch hA
  obtain ⟨P, -, -, hq, -⟩ := plan_fresh3 hV (run_inv_of3 hrun) (Or.inl hne) hp
  have hs := C51_slices_overwritten hA h
  apply hq
  rw [freshQ_q]
  unfold orientations
  rw [if_pos rfl, hs]
  rfl

/-- C51: the spatial margin is wrong for a box-like base, even with three equal semi-axes, whatever the arena. -/
theorem C51_margin_wrong_space {robot : Tree3} {quats : List Quat} {arena obs : List SuperQuadrics} {p p' : Param3}
    {A : SuperQuadrics} (hA : arena.head? = some A) (h : defineParameters3 robot quats arena obs p = .ok p')
    (ha : 0 < robot.base.a) (hb : robot.base.b = robot.base.a)
    (he1 : robot.base.e1 = 1 / 10) (he2 : robot.base.e2 = 1 / 10)
    (hx : p'.xLo ≤ p'.xHi) (hy : p'.yLo ≤ p'.yHi) (hz : p'.zLo ≤ p'.zHi) : ¬ StaysInside3 robot.base A p' := by
  obtain ⟨⟨h1, h2, h3, h4, h5, h6⟩, -⟩ := defineParameters3_eq hA h
  intro hs
  set q : Quat := (12 / 13, 0, 0, -5 / 13) with hq
  set x : Fin 3 → ℝ := ![9 / 10 * robot.base.a, 9 / 10 * robot.base.a, 0] with hxd
  have hmem : quatRot q *ᵥ x + ![p'.xHi, p'.yHi, p'.zHi] ∈
      ({ robot.base with pos := ![p'.xHi, p'.yHi, p'.zHi], quat := q } : SuperQuadrics).solid := by
    refine ⟨_, ⟨x, ?_, rfl⟩, rfl⟩
    unfold SuperQuadrics.implicit
    simp only [he1, he2, hb, hxd, Matrix.cons_val_zero, Matrix.cons_val_one, Matrix.cons_val]
    rw [mul_div_assoc, div_self ha.ne', mul_one, zero_div, abs_zero]
    norm_num
  have := (hs ![p'.xHi, p'.yHi, p'.zHi] q (by norm_num [hq]) hx le_rfl hy le_rfl hz le_rfl _ hmem).1
  have e : (quatRot q *ᵥ x + ![p'.xHi, p'.yHi, p'.zHi]) 0 = 239 / 169 * (9 / 10 * robot.base.a) + p'.xHi := by
    simp [quatRot, hq, hxd]
    ring
  rw [e, h2, abs_le] at this
  linarith

end Hrm
