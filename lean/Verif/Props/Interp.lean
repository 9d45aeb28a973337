import Verif.Lemmas.Interp
import Verif.Lemmas.Roadmap

/-!
# C39, C40, C41, C70: interpolation of configurations and of the solved path
-/

namespace Hrm

/-! ## C39 -/

theorem coord_of_length {v : Vec} {j : ℕ} (h : j < v.length) : v[j]? = some (coordOf v j) := by
  simp [coordOf, List.getD_eq_getElem?_getD, h]

theorem map_range_coord (v : Vec) : (List.range v.length).map (coordOf v) = v := by
  apply List.ext_getElem?
  intro j
  rw [List.getElem?_map]
  rcases lt_or_ge j v.length with h | h
  · rw [List.getElem?_range h, coord_of_length h]; rfl
  · rw [List.getElem?_eq_none h, List.getElem?_eq_none (by simpa using h)]; rfl

/-- **C39.** `interpolateRn(v, w, n)` returns `n + 1` points of the dimension of `v`, the first is `v`, the last
is `w`, and point `i` is `v + (i/n) (w - v)`. -/
theorem C39_interpolateRn (v w : Vec) (hlen : v.length = w.length) (n : ℕ) (hn : 1 ≤ n) :
    ∃ pts : List Vec, interpolateRn v w n = .ok (pts.map (·.map some)) ∧ pts.length = n + 1 ∧
      pts[0]? = some v ∧ pts[n]? = some w ∧
      ∀ (i : ℕ) (u : Vec), pts[i]? = some u → u.length = v.length ∧
        ∀ j < v.length, coordOf u j = coordOf v j + (i / n : ℝ) * (coordOf w j - coordOf v j) := by
  have hn0 : (n : ℝ) ≠ 0 := by exact_mod_cast (show n ≠ 0 by omega)
  set pt : ℕ → Vec := fun i => (List.range v.length).map fun j =>
    coordOf v j + (i / n : ℝ) * (coordOf w j - coordOf v j) with hpt
  refine ⟨(List.range (n + 1)).map pt, ?_, by simp, ?_, ?_, ?_⟩
  · rw [interpolateRn_eq hlen.le, List.map_map]
    congr 1
    apply List.map_congr_left
    intro i _
    simp only [hpt, Function.comp, List.map_map]
    apply List.map_congr_left
    intro j _
    simp only [stepFrac, if_neg (show n ≠ 0 by omega), lerp, Option.map_some, Function.comp, Option.some.injEq]
    field_simp
    ring
  · rw [List.getElem?_map, List.getElem?_range (by omega)]
    simp only [Option.map_some, hpt, Nat.cast_zero, zero_div, zero_mul, add_zero, Option.some.injEq]
    exact map_range_coord v
  · rw [List.getElem?_map, List.getElem?_range (by omega)]
    simp only [Option.map_some, hpt, div_self hn0, one_mul, add_sub_cancel, Option.some.injEq]
    rw [hlen]
    exact map_range_coord w
  · intro i u hu
    rw [List.getElem?_map] at hu
    rcases lt_or_ge i (n + 1) with h | h
    · rw [List.getElem?_range h] at hu
      simp only [Option.map_some, Option.some.injEq] at hu
      subst hu
      refine ⟨by simp [hpt], ?_⟩
      intro j hj
      have : j < (pt i).length := by simpa [hpt] using hj
      have e := coord_of_length this
      rw [hpt, List.getElem?_map, List.getElem?_range hj] at e
      simp only [Option.map_some, Option.some.injEq] at e
      rw [e]
    · rw [List.getElem?_eq_none (by simpa using h)] at hu
      simp at hu

/-- If the second vector is shorter the function reads past its end. -/
theorem C39_short_end_undefined (v w : Vec) (h : w.length < v.length) (n : ℕ) : interpolateRn v w n = .ub := by
  have key : ∀ t, rnStep v w t = .ub := by
    intro t
    unfold rnStep
    have hsplit : List.range v.length = List.range w.length ++ w.length ::
        (List.range' (w.length + 1) (v.length - w.length - 1)) := by
      rw [List.range_eq_range', List.range_eq_range', ← List.range'_succ, 
        show v.length - w.length - 1 + 1 = v.length - w.length by omega]
      have := (List.range'_append (s := 0) (m := w.length) (n := v.length - w.length) (step := 1)).symm
      simpa [show w.length + (v.length - w.length) = v.length by omega] using this
    rw [hsplit, List.foldlM_append]
    rw [appendLoop _ (fun j => lerp t (coordOf v j) (coordOf w j)) _ ?_]
    · simp only [List.nil_append, Res.bind_ok, List.foldlM_cons]
      rw [idx_coordOf h, Res.bind_ok', Res.idx_eq_ub.2 le_rfl]
      rfl
    · intro j hj
      rw [idx_coordOf (by omega), Res.bind_ok', idx_coordOf hj, Res.bind_ok']
  unfold interpolateRn
  rw [List.range_succ_eq_map, List.foldlM_cons, key]
  rfl

/-! ## C40 -/

/-- Configuration of step `i` when `numStep ≥ 1`. -/
noncomputable def compVec (v w : Vec) (n i : ℕ) : Vec :=
  let t : ℝ := i * (1 / (n : ℝ))
  let q := slerp (quatPart v) t (quatPart w)
  [(1 - t) * coordOf v 0 + t * coordOf w 0, (1 - t) * coordOf v 1 + t * coordOf w 1, (1 - t) * coordOf v 2 + t * coordOf w 2,
    q.1, q.2.1, q.2.2.1, q.2.2.2] ++ (List.range (v.length - 7)).map fun j =>
      (1 - t) * coordOf v (j + 7) + t * coordOf w (j + 7)

theorem compRow_eq (v w : Vec) {n : ℕ} (hn : 1 ≤ n) (i : ℕ) : compRow v w n i = (compVec v w n i).map some := by
  simp [compRow, compVec, se3Row, stepFrac, show n ≠ 0 by omega, lerp, Function.comp_def]

theorem compVec_length {v w : Vec} (hv : 7 ≤ v.length) (n i : ℕ) : (compVec v w n i).length = v.length := by
  simp [compVec]; omega

theorem coord_compVec {v w : Vec} {n i j : ℕ} (hj : j < 3 ∨ 7 ≤ j ∧ j < v.length) :
    coordOf (compVec v w n i) j =
      (1 - (i : ℝ) * (1 / (n : ℝ))) * coordOf v j + (i : ℝ) * (1 / (n : ℝ)) * coordOf w j := by
  rcases hj with hj | ⟨h7, hj⟩
  · rcases (show j = 0 ∨ j = 1 ∨ j = 2 by omega) with rfl | rfl | rfl <;> rfl
  · obtain ⟨k, rfl⟩ : ∃ k, j = k + 7 := ⟨j - 7, by omega⟩
    have hk : k < v.length - 7 := by omega
    conv_lhs => rw [coordOf, compVec, List.getD_eq_getElem?_getD, List.getElem?_append_right (by simp)]
    simp [hk]

theorem quatPart_compVec (v w : Vec) (n i : ℕ) :
    quatPart (compVec v w n i) = slerp (quatPart v) ((i : ℝ) * (1 / (n : ℝ))) (quatPart w) := rfl

theorem ext_coord {u v : Vec} (hl : u.length = v.length) (h : ∀ j < v.length, coordOf u j = coordOf v j) : u = v := by
  apply List.ext_getElem?
  intro j
  rcases lt_or_ge j v.length with hj | hj
  · rw [coord_of_length hj, coord_of_length (by omega), h j hj]
  · rw [List.getElem?_eq_none hj, List.getElem?_eq_none (by omega)]

/-- **C40.** `interpolateCompoundSE3Rn(v, w, n)` for two configurations of the same dimension with unit
quaternions, `n ≥ 1`: it returns `n + 1` configurations, all numbers; position and joint coordinates of step `i`
are those of the point `i/n` of the straight segment; the quaternion of every step is unit up to machine
precision; the first step is `v`; the last step is `w`, up to the sign of its quaternion. -/
theorem C40_interpolateCompound (v w : Vec) (hv : UnitPose v) (hw : UnitPose w) (hlen : v.length = w.length)
    (n : ℕ) (hn : 1 ≤ n) :
    ∃ steps : List Vec, interpolateCompound v w n = .ok (steps.map (·.map some)) ∧ steps.length = n + 1 ∧
      (∀ (i : ℕ) (u : Vec), steps[i]? = some u → u.length = v.length ∧
        (∀ j, j < 3 ∨ 7 ≤ j → OnSegment v w (i / n) u j) ∧
        1 - 1 / 2 ^ 53 ≤ Quat.dot (quatPart u) (quatPart u) ∧ Quat.dot (quatPart u) (quatPart u) ≤ 1) ∧
      steps[0]? = some v ∧
      ∃ u, steps[n]? = some u ∧ (∀ j, j < 3 ∨ 7 ≤ j → coordOf u j = coordOf w j) ∧
        SameRotation (quatPart u) (quatPart w) := by
  have hn0 : (n : ℝ) ≠ 0 := by exact_mod_cast (show n ≠ 0 by omega)
  have beyond : ∀ (u : Vec) (j : ℕ), u.length ≤ j → coordOf u j = 0 := by
    intro u j hj
    simp [coordOf, List.getD_eq_getElem?_getD, List.getElem?_eq_none hj]
  refine ⟨(List.range (n + 1)).map (compVec v w n), ?_, by simp, ?_, ?_, ?_⟩
  · rw [interpolateCompound_eq hv.1 hlen, if_neg (by omega), List.nil_append, List.map_map]
    congr 1
    apply List.map_congr_left
    intro i _
    exact compRow_eq v w hn i
  · intro i u hu
    rw [List.getElem?_map] at hu
    rcases lt_or_ge i (n + 1) with h | h
    · rw [List.getElem?_range h] at hu
      simp only [Option.map_some, Option.some.injEq] at hu
      subst hu
      have h1 : (i : ℝ) ≤ n := by exact_mod_cast (show i ≤ n by omega)
      have hnp : (0 : ℝ) < n := by exact_mod_cast hn
      refine ⟨compVec_length hv.1 n i, ?_, ?_⟩
      · intro j hj
        unfold OnSegment
        rcases lt_or_ge j v.length with hl | hl
        · rw [coord_compVec (by omega)]
          field_simp
          ring
        · rw [beyond _ _ (by rw [compVec_length hv.1]; exact hl), beyond v j hl, beyond w j (by omega)]
          simp
      · rw [quatPart_compVec]
        refine slerp_norm hv.2 hw.2 (by positivity) ?_
        rw [mul_one_div]
        exact (div_le_one hnp).2 h1
    · rw [List.getElem?_eq_none (by simpa using h)] at hu
      simp at hu
  · rw [List.getElem?_map, List.getElem?_range (by omega)]
    simp only [Option.map_some, Option.some.injEq]
    apply ext_coord (compVec_length hv.1 n 0)
    intro j hj
    by_cases h : j < 3 ∨ 7 ≤ j
    · rw [coord_compVec (by omega)]
      simp
    · have e : quatPart (compVec v w n 0) = quatPart v := by
        rw [quatPart_compVec]
        simp only [Nat.cast_zero, zero_mul]
        exact slerp_zero _ _
      simp only [quatPart, Prod.mk.injEq] at e
      rcases (show j = 3 ∨ j = 4 ∨ j = 5 ∨ j = 6 by omega) with rfl | rfl | rfl | rfl
      · exact e.1
      · exact e.2.1
      · exact e.2.2.1
      · exact e.2.2.2
  · refine ⟨compVec v w n n, ?_, ?_, ?_⟩
    · rw [List.getElem?_map, List.getElem?_range (by omega)]; rfl
    · intro j hj
      rcases lt_or_ge j v.length with hl | hl
      · rw [coord_compVec (by omega)]
        field_simp
        ring
      · rw [beyond _ _ (by rw [compVec_length hv.1]; exact hl), beyond w j (by omega)]
    · rw [quatPart_compVec, mul_one_div, div_self hn0]
      exact slerp_one _ _

/-- **C40 (constant speed).** When the two orientations are not (numerically) equal, the steps lie on the
shorter great-circle arc and are equally spaced: the angle between the quaternions of steps `i` and `k` is
`(i - k)/n` times the angle `θ = arccos |⟨qv, qw⟩|` between the two orientations. -/
theorem C40_constant_speed (v w : Vec) (hv : UnitPose v) (hw : UnitPose w) (hlen : v.length = w.length)
    (n : ℕ) (hn : 1 ≤ n) (hfar : |Quat.dot (quatPart v) (quatPart w)| < 1 - 1 / 2 ^ 52) :
    ∃ steps : List Vec, interpolateCompound v w n = .ok (steps.map (·.map some)) ∧
      ∀ (i k : ℕ) (p q : Vec), steps[i]? = some p → steps[k]? = some q →
        Quat.dot (quatPart p) (quatPart q) =
          Real.cos (((i : ℝ) - k) / n * Real.arccos |Quat.dot (quatPart v) (quatPart w)|) := by
  refine ⟨(List.range (n + 1)).map (compVec v w n), ?_, ?_⟩
  · rw [interpolateCompound_eq hv.1 hlen, if_neg (by omega), List.nil_append, List.map_map]
    congr 1
    apply List.map_congr_left
    intro i _
    exact compRow_eq v w hn i
  · intro i k p q hp hq
    rw [List.getElem?_map] at hp hq
    obtain ⟨i', hi, rfl⟩ := Option.map_eq_some_iff.1 hp
    obtain ⟨k', hk, rfl⟩ := Option.map_eq_some_iff.1 hq
    obtain ⟨_, hi⟩ := List.getElem?_eq_some_iff.1 hi
    obtain ⟨_, hk⟩ := List.getElem?_eq_some_iff.1 hk
    rw [List.getElem_range] at hi hk
    subst hi hk
    rw [quatPart_compVec, quatPart_compVec, slerp_dot hv.2 hw.2 hfar]
    congr 1
    ring

/-! ## C41 -/

/-- **C41, claim**: with `numStep = 0` the two given configurations are returned (the special case at the
beginning of the function). -/
def C41_claim : Prop := ∀ v w : Vec, UnitPose v → UnitPose w → v.length = w.length →
  interpolateCompound v w 0 = .ok [v.map some, w.map some]

/-- What the function really returns for `numStep = 0`: for a rigid-body configuration a single step in which
every coordinate is NaN; otherwise the two configurations followed by a step in which every coordinate is NaN. -/
theorem C41_step_zero (v w : Vec) (hv : 7 ≤ v.length) (hlen : v.length = w.length) :
    interpolateCompound v w 0 = .ok (if v.length = 7 then [List.replicate 7 none]
      else [v.map some, w.map some, List.replicate v.length none]) := by
  have e : compRow v w 0 0 = List.replicate v.length none := by
    have : (List.range (v.length - 7)).map (fun _ => (none : Option ℝ)) = List.replicate (v.length - 7) none := by
      simp
    simp only [compRow, se3Row, stepFrac, if_true, lerp, Option.map_none, this]
    rw [show v.length = 7 + (v.length - 7) by omega, List.replicate_add]
    simp [List.replicate]
  rw [interpolateCompound_eq hv hlen]
  split
  · rename_i h
    rw [if_neg h.2]
    simp [e]
  · rename_i h
    have h7 : v.length = 7 := by omega
    rw [if_pos h7]
    simp [e, h7]

theorem C41_refuted : ¬ C41_claim := by
  intro h
  have hu : UnitPose [0, 0, 0, 1, 0, 0, 0] := ⟨le_rfl, by norm_num [Quat.dot, quatPart, coordOf]⟩
  have := h _ _ hu hu rfl
  rw [C41_step_zero _ _ le_rfl rfl] at this
  simp at this

/-! ## C70 -/

theorem appendListLoop {B : Type} (g : List B → ℕ → Res (List B)) (v : ℕ → List B) (n : ℕ)
    (h : ∀ acc, ∀ i < n, g acc i = .ok (acc ++ v i)) (acc : List B) :
    (List.range n).foldlM g acc = .ok (acc ++ ((List.range n).map v).flatten) := by
  induction n with
  | zero => simp
  | succ n ih =>
    rw [List.range_succ, List.foldlM_append, ih fun acc i hi => h acc i (by omega)]
    simp [h _ n (by omega)]

/-- The steps `seg` interpolate from `v` to `w`: at least two configurations, the first is `v`, the last is `w`
up to the sign of its quaternion, positions and joints are equally spaced on the straight segment, and all
quaternions are unit up to machine precision. -/
def Interpolates (v w : Vec) (seg : List Vec) : Prop :=
  2 ≤ seg.length ∧ seg[0]? = some v ∧
  (∀ (i : ℕ) (u : Vec), seg[i]? = some u → u.length = v.length ∧
    (∀ j, j < 3 ∨ 7 ≤ j → OnSegment v w (i / ((seg.length : ℝ) - 1)) u j) ∧
    1 - 1 / 2 ^ 53 ≤ Quat.dot (quatPart u) (quatPart u) ∧ Quat.dot (quatPart u) (quatPart u) ≤ 1) ∧
  ∃ u, seg[seg.length - 1]? = some u ∧ (∀ j, j < 3 ∨ 7 ≤ j → coordOf u j = coordOf w j) ∧
    SameRotation (quatPart u) (quatPart w)

theorem interpolates_of {v w : Vec} (hv : UnitPose v) (hw : UnitPose w) (hlen : v.length = w.length)
    {n : ℕ} (hn : 1 ≤ n) : ∃ seg : List Vec, interpolateCompound v w n = .ok (seg.map (·.map some)) ∧
      seg.length = n + 1 ∧ Interpolates v w seg := by
  obtain ⟨seg, h1, h2, h3, h4, h5⟩ := C40_interpolateCompound v w hv hw hlen n hn
  refine ⟨seg, h1, h2, by omega, h4, ?_, by rw [h2]; exact h5⟩
  rw [h2]
  push_cast
  rw [add_sub_cancel_right]
  exact h3

/-- A solved path: at least two configurations of one dimension, with unit quaternions. -/
structure SolvedPath (path : List Vec) : Prop where
  two : 2 ≤ path.length
  unit : ∀ v ∈ path, UnitPose v
  dim : ∀ v ∈ path, ∀ w ∈ path, v.length = w.length

/-- **C70, claim**: the interpolated path of a solved path whose cost is its length consists of numbers, starts
with the first configuration, and every consecutive pair of path configurations is interpolated. -/
def C70_claim : Prop := ∀ (path : List Vec) (cost : ℝ) (num : ℕ), SolvedPath path → 1 ≤ num → 0 < cost →
  (∃ len : ℕ → ℝ, (∀ i v w, path[i]? = some v → path[i + 1]? = some w → vectorEuclidean v w = .ok (len i)) ∧
    cost = ((List.range (path.length - 1)).map len).sum) →
  ∃ segs : List (List Vec), interpolatedPath3D path cost num = .ok (segs.flatten.map (·.map some)) ∧
    segs.length + 1 = path.length ∧ ∀ (i : ℕ) (v w : Vec) (seg : List Vec), path[i]? = some v → path[i + 1]? = some w →
      segs[i]? = some seg → Interpolates v w seg

/-- **C70 (partial).** The claim holds if every segment of the path is at least as long as one step
(`cost / (num * number of segments)`), for any positive cost. Missing: shorter segments, which give NaN
configurations, and a zero cost, which is undefined behaviour (`C70_refuted`, `C70_zero_cost_undefined`). -/
theorem C70_interpolated_path_partial (path : List Vec) (cost : ℝ) (num : ℕ) (hp : SolvedPath path)
    (hn : 1 ≤ num) (hc : 0 < cost)
    (hlong : ∀ (i : ℕ) (v w : Vec) (d : ℝ), path[i]? = some v → path[i + 1]? = some w → vectorEuclidean v w = .ok d →
      cost ≤ d * (num * ((path.length : ℝ) - 1)) ∧ d * (num * ((path.length : ℝ) - 1)) < 2 ^ 31 * cost) :
    ∃ segs : List (List Vec), interpolatedPath3D path cost num = .ok (segs.flatten.map (·.map some)) ∧
      segs.length + 1 = path.length ∧ ∀ (i : ℕ) (v w : Vec) (seg : List Vec), path[i]? = some v → path[i + 1]? = some w →
        segs[i]? = some seg → Interpolates v w seg := by
  have h2 : (2 : ℝ) ≤ path.length := by exact_mod_cast hp.two
  have hnum : (1 : ℝ) ≤ num := by exact_mod_cast hn
  set den : ℝ := num * ((path.length : ℝ) - 1) with hden
  have hden0 : 0 < den := by rw [hden]; nlinarith
  have hseg : ∀ i, i < path.length - 1 → ∃ seg : List Vec, ∃ v w : Vec, path[i]? = some v ∧ path[i + 1]? = some w ∧
      Interpolates v w seg ∧ ∃ d n, vectorEuclidean v w = .ok d ∧ stepCount cost den d = .ok n ∧
      interpolateCompound v w n = .ok (seg.map (·.map some)) := by
    intro i hi
    obtain ⟨v, hv⟩ : ∃ v, path[i]? = some v := ⟨_, List.getElem?_eq_getElem (by omega)⟩
    obtain ⟨w, hw⟩ : ∃ w, path[i + 1]? = some w := ⟨_, List.getElem?_eq_getElem (by omega)⟩
    have mv := List.mem_of_getElem? hv
    have mw := List.mem_of_getElem? hw
    have hd := vectorEuclidean_eq (hp.dim v mv w mw)
    obtain ⟨l1, l2⟩ := hlong i v w _ hv hw hd
    have hstep : 0 < cost / den := div_pos hc hden0
    have hx : euclid v w / (cost / den) = euclid v w * den / cost := by field_simp
    have hx1 : 1 ≤ euclid v w / (cost / den) := by
      rw [hx, le_div_iff₀ hc]; linarith
    have hx2 : euclid v w / (cost / den) < 2 ^ 31 := by
      rw [hx, div_lt_iff₀ hc]; linarith
    have hcount : stepCount cost den (euclid v w) = .ok ⌊euclid v w / (cost / den)⌋₊ := by
      unfold stepCount
      rw [if_neg hden0.ne', if_neg hstep.ne']
      simp only
      rw [if_neg]
      rw [not_or]
      exact ⟨by linarith, not_le.2 hx2⟩
    obtain ⟨seg, s1, -, s3⟩ := interpolates_of (hp.unit v mv) (hp.unit w mw) (hp.dim v mv w mw)
      ((Nat.one_le_floor_iff _).2 hx1)
    exact ⟨seg, v, w, hv, hw, s3, _, _, hd, hcount, s1⟩
  choose! seg hseg using hseg
  refine ⟨(List.range (path.length - 1)).map seg, ?_, by simp; have := hp.two; omega, ?_⟩
  · unfold interpolatedPath3D
    rw [if_neg (by have := hp.two; omega), appendListLoop _ (fun i => (seg i).map (·.map some)) _ ?_]
    · rw [List.nil_append, List.map_flatten, List.map_map]
      rfl
    · intro acc i hi
      obtain ⟨v, w, hv, hw, -, d, n, e1, e2, e3⟩ := hseg i hi
      rw [Res.at'_eq_ok.2 hv, Res.bind_ok', Res.at'_eq_ok.2 hw, Res.bind_ok', e1, Res.bind_ok', ← hden, e2,
        Res.bind_ok', e3, Res.bind_ok']
  · intro i v w s hv hw hs
    have hi : i < path.length - 1 := by
      have := (List.getElem?_eq_some_iff.1 hw).1
      omega
    obtain ⟨v', w', hv', hw', hI, -⟩ := hseg i hi
    rw [List.getElem?_map, List.getElem?_range hi] at hs
    simp only [Option.map_some, Option.some.injEq] at hs
    rw [hv] at hv'
    rw [hw] at hw'
    cases hv'
    cases hw'
    rw [← hs]
    exact hI

theorem interpolated_zero_cost (path : List Vec) (num : ℕ) (h2 : 2 ≤ path.length)
    (hdim : ∀ v ∈ path, ∀ w ∈ path, v.length = w.length) :
    interpolatedPath3D path 0 num = .ub := by
  obtain ⟨v, w, rest, rfl⟩ : ∃ v w rest, path = v :: w :: rest := by
    match path, h2 with
    | v :: w :: rest, _ => exact ⟨v, w, rest, rfl⟩
  unfold interpolatedPath3D
  have hd := vectorEuclidean_eq (hdim v (by simp) w (by simp))
  rw [if_neg (by simp)]
  have hr : List.range ((v :: w :: rest).length - 1) = 0 :: (List.range rest.length).map Nat.succ := by
    rw [← List.range_succ_eq_map]; rfl
  rw [hr, List.foldlM_cons]
  have e : ∀ den d : ℝ, stepCount 0 den d = .ub := by
    intro den d
    unfold stepCount
    split
    · simp
    · simp
  have e1 : Res.at' (v :: w :: rest) 0 = .ok v := rfl
  have e2 : Res.at' (v :: w :: rest) (0 + 1) = .ok w := rfl
  rw [e1, Res.bind_ok', e2, Res.bind_ok', hd, Res.bind_ok', e, Res.bind_ub']
  rfl

/-- A solved path of cost 0 (the start and the goal are attached to the same roadmap vertex) makes the program
convert an infinity or NaN to `int`. -/
theorem C70_zero_cost_undefined (path : List Vec) (num : ℕ) (hp : SolvedPath path) :
    interpolatedPath3D path 0 num = .ub := interpolated_zero_cost path num hp.two hp.dim

/-- Pose with position `(x, 0, 0)` and identity orientation. -/
def alongX (x : ℝ) : Vec := [x, 0, 0, 1, 0, 0, 0]

theorem alongX_unit (x : ℝ) : UnitPose (alongX x) := ⟨le_rfl, by norm_num [Quat.dot, quatPart, coordOf, alongX]⟩

theorem alongX_dist (x y : ℝ) : vectorEuclidean (alongX x) (alongX y) = .ok |x - y| := by
  simp only [vectorEuclidean, alongX, vecDiff, Res.bind_ok', List.foldl, Res.ok.injEq]
  rw [← Real.sqrt_sq_eq_abs]
  congr 1
  ring

theorem alongX_path (xs : List ℝ) (h : 2 ≤ xs.length) : SolvedPath (xs.map alongX) := by
  refine ⟨by simpa using h, ?_, ?_⟩
  · intro v hv
    obtain ⟨x, -, rfl⟩ := List.mem_map.1 hv
    exact alongX_unit x
  · intro v hv w hw
    obtain ⟨x, -, rfl⟩ := List.mem_map.1 hv
    obtain ⟨y, -, rfl⟩ := List.mem_map.1 hw
    rfl

/-- **C70 is refuted**: on the path through positions 0, 1, 4 (length 4) with `num = 1` the first segment is
shorter than a step, so that a configuration of NaNs is returned. -/
theorem C70_refuted : ¬ C70_claim := by
  intro h
  have h0 := alongX_dist 0 1
  have h1 := alongX_dist 1 4
  norm_num at h0 h1
  obtain ⟨segs, e, hl, hI⟩ := h ([0, 1, 4].map alongX) 4 1 (alongX_path _ (by simp)) le_rfl (by norm_num)
    ⟨fun i => if i = 0 then 1 else 3, by
      intro i v w hv hw
      match i with
      | 0 => simp at hv hw; subst hv hw; simpa using h0
      | 1 => simp at hv hw; subst hv hw; simpa using h1
      | i + 2 => simp at hw, by simp [List.range_succ]; norm_num⟩
  have e0 : stepCount 4 2 1 = .ok 0 := by norm_num [stepCount]
  have e1 : stepCount 4 2 3 = .ok 1 := by
    have : ⌊(3 / 2 : ℝ)⌋₊ = 1 := by rw [Nat.floor_eq_iff (by norm_num)]; norm_num
    norm_num [stepCount, this]
  have c0 := C41_step_zero (alongX 0) (alongX 1) le_rfl rfl
  obtain ⟨seg, c1, -⟩ := interpolates_of (alongX_unit 1) (alongX_unit 4) rfl (le_refl 1)
  have hcalc : interpolatedPath3D ([0, 1, 4].map alongX) 4 1 =
      .ok (List.replicate 7 none :: seg.map (·.map some)) := by
    have hr : List.range (([0, 1, 4].map alongX).length - 1) = [0, 1] := rfl
    unfold interpolatedPath3D
    rw [hr]
    have a0 : Res.at' ([0, 1, 4].map alongX) 0 = .ok (alongX 0) := rfl
    have a1 : Res.at' ([0, 1, 4].map alongX) 1 = .ok (alongX 1) := rfl
    have a2 : Res.at' ([0, 1, 4].map alongX) 2 = .ok (alongX 4) := rfl
    have hden : ((1 : ℕ) : ℝ) * (((([0, 1, 4] : List ℝ).map alongX).length : ℝ) - 1) = 2 := by norm_num
    simp only [List.foldlM_cons, List.foldlM_nil, a0, a1, a2, Res.bind_ok', h0, h1, hden, e0, e1, c0, c1,
      Nat.zero_add, Nat.reduceAdd, Res.bind_ok, Res.pure_eq]
    simp [alongX]
  rw [hcalc] at e
  simp only [Res.ok.injEq] at e
  have : (List.replicate 7 none : List (Option ℝ)) ∈ segs.flatten.map (·.map some) := by rw [← e]; simp
  obtain ⟨u, -, hu⟩ := List.mem_map.1 this
  cases u with
  | nil => simp at hu
  | cons a u => simp [List.replicate] at hu

/-! ## Witnesses -/

/-- The hypotheses of C39 and C40 are met by different poses. -/
example : UnitPose (alongX 0) ∧ UnitPose [1, 2, 3, 3 / 5, 4 / 5, 0, 0] ∧
    |Quat.dot (quatPart (alongX 0)) (quatPart [1, 2, 3, 3 / 5, 4 / 5, 0, 0])| < 1 - 1 / 2 ^ 52 := by
  refine ⟨alongX_unit 0, ⟨by norm_num, by norm_num [Quat.dot, quatPart, coordOf]⟩, ?_⟩
  norm_num [Quat.dot, quatPart, coordOf, alongX, abs_of_nonneg]

/-- The hypotheses of the partial C70 are met: positions 0, 1, 4 with `num = 5`. -/
example : ∃ segs : List (List Vec),
    interpolatedPath3D ([0, 1, 4].map alongX) 4 5 = .ok (segs.flatten.map (·.map some)) := by
  obtain ⟨segs, h, -⟩ := C70_interpolated_path_partial ([0, 1, 4].map alongX) 4 5 (alongX_path _ (by simp))
    (by norm_num) (by norm_num) (by
      intro i v w d hv hw hd
      match i with
      | 0 =>
        simp at hv hw; subst hv hw
        rw [alongX_dist] at hd
        simp only [Res.ok.injEq] at hd
        subst hd
        norm_num
      | 1 =>
        simp at hv hw; subst hv hw
        rw [alongX_dist] at hd
        simp only [Res.ok.injEq] at hd
        subst hd
        norm_num
      | i + 2 => simp at hw)
  exact ⟨segs, h⟩

end Hrm
