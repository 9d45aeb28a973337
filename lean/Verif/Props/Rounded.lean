import Verif.Lemmas.Rounded
import Verif.Lemmas.Binary64
import Verif.Props.Sweep

/-!
# C89: the planar sweep in rounded arithmetic
-/

set_option linter.unusedSectionVars false

namespace Hrm
open Hrm.Interval

variable {fl : ℝ → ℝ} {u η : ℝ}

/-! ### One edge -/

theorem quot_err (R : Rounding fl u η) {a d : ℝ} (hd : d ≠ 0) (h0 : 0 ≤ a / d) (h1 : a / d ≤ 1)
    (ha : |fl a - a| ≤ u * |a|) (hdd : |fl d - d| ≤ u * |d|) (hfd : fl d ≠ 0) (hq0 : 0 ≤ fl a / fl d) (hq1 : fl a / fl d ≤ 1) :
    |fl (fl a / fl d) - a / d| ≤ 4 * u + η := by
  have hu := R.u_nonneg
  have hus := R.u_small
  have hdp : 0 < |d| := abs_pos.2 hd
  have had : |a| ≤ |d| := by
    have : |a / d| ≤ 1 := by rw [abs_of_nonneg h0]; exact h1
    rwa [abs_div, div_le_one hdp] at this
  have hfdp : 0 < |fl d| := abs_pos.2 hfd
  have hlow : (1 - u) * |d| ≤ |fl d| := by
    have := abs_sub_abs_le_abs_sub d (fl d)
    rw [abs_sub_comm] at this
    linarith
  have hq : |fl a / fl d - a / d| ≤ 3 * u := by
    have e : fl a / fl d - a / d = ((fl a - a) * d + a * (d - fl d)) / (fl d * d) := by
      field_simp
      ring
    rw [e, abs_div, abs_mul, div_le_iff₀ (mul_pos hfdp hdp)]
    have t1 : |(fl a - a) * d + a * (d - fl d)| ≤ |fl a - a| * |d| + |a| * |d - fl d| := by
      rw [← abs_mul, ← abs_mul]; exact abs_add_le _ _
    rw [abs_sub_comm d (fl d)] at t1
    have t2 : |fl a - a| * |d| ≤ u * |d| * |d| := by
      refine mul_le_mul_of_nonneg_right (ha.trans ?_) hdp.le
      gcongr
    have t3 : |a| * |fl d - d| ≤ |d| * (u * |d|) := mul_le_mul had hdd (abs_nonneg _) hdp.le
    have t4 : u * |d| * ((1 - u) * |d|) ≤ u * |d| * |fl d| := mul_le_mul_of_nonneg_left hlow (by positivity)
    have t5 : 0 ≤ u * |d| * |d| := by positivity
    nlinarith
  have he := R.err (fl a / fl d)
  rw [abs_of_nonneg hq0] at he
  have : |fl (fl a / fl d) - a / d| ≤ |fl (fl a / fl d) - fl a / fl d| + |fl a / fl d - a / d| := abs_sub_le _ _ _
  nlinarith

/-- The rounded parameter of the crossing is between 0 and 1. -/
theorem quot_mem (R : Rounding fl u η) {y1 y2 ty : ℝ} (hlo : min y1 y2 ≤ ty) (hhi : ty ≤ max y1 y2) (hne : y1 - y2 ≠ 0) :
    (0 ≤ (ty - y2) / (y1 - y2) ∧ (ty - y2) / (y1 - y2) ≤ 1) ∧
    (0 ≤ fl (ty - y2) / fl (y1 - y2) ∧ (fl (y1 - y2) ≠ 0 → fl (ty - y2) / fl (y1 - y2) ≤ 1)) := by
  rcases lt_or_gt_of_ne hne with h | h
  · have h12 : y1 ≤ y2 := by linarith
    rw [min_eq_left h12] at hlo
    rw [max_eq_right h12] at hhi
    have a1 : fl (ty - y2) ≤ 0 := by rw [← R.zero]; exact R.mono (by linarith)
    have a2 : fl (y1 - y2) ≤ fl (ty - y2) := R.mono (by linarith)
    refine ⟨⟨div_nonneg_of_nonpos (by linarith) h.le, ?_⟩, div_nonneg_of_nonpos a1 (a2.trans a1), fun hne' => ?_⟩
    · rw [div_le_one_of_neg h]; linarith
    · rw [div_le_one_of_neg (lt_of_le_of_ne (a2.trans a1) hne')]; exact a2
  · have h12 : y2 ≤ y1 := by linarith
    rw [min_eq_right h12] at hlo
    rw [max_eq_left h12] at hhi
    have a1 : 0 ≤ fl (ty - y2) := by
      have := R.mono (show (0 : ℝ) ≤ ty - y2 by linarith)
      rwa [R.zero] at this
    have a2 : fl (ty - y2) ≤ fl (y1 - y2) := R.mono (by linarith)
    refine ⟨⟨div_nonneg (by linarith) h.le, ?_⟩, div_nonneg a1 (a1.trans a2), fun hne' => ?_⟩
    · rw [div_le_one h]; linarith
    · rw [div_le_one (lt_of_le_of_ne (a1.trans a2) (Ne.symm hne'))]; exact a2

theorem comb_err (R : Rounding fl u η) {t T x1 x2 X : ℝ} (hT0 : 0 ≤ T) (hT1 : T ≤ 1) (hTm : fl T = T)
    (ht : |T - t| ≤ 4 * u + η) (h1 : |x1| ≤ X) (h2 : |x2| ≤ X) :
    |fl (fl (T * x1) + fl (fl (1 - T) * x2)) - (t * x1 + (1 - t) * x2)| ≤ crossErr u η X := by
  have hu := R.u_nonneg
  have hus := R.u_small
  have hη := R.η_nonneg
  have hX : 0 ≤ X := (abs_nonneg _).trans h1
  set s := fl (1 - T) with hs
  have hs0 : 0 ≤ s := by
    have := R.mono (show (0 : ℝ) ≤ 1 - T by linarith)
    rwa [R.zero] at this
  have hs1 : s ≤ 1 := by
    have := R.mono (show 1 - T ≤ 1 by linarith)
    rwa [R.one] at this
  have hse : |s - (1 - T)| ≤ u := by
    have := R.sub_err 1 T R.one hTm
    rw [abs_of_nonneg (show (0 : ℝ) ≤ 1 - T by linarith)] at this
    nlinarith
  set p := fl (T * x1) with hp
  set r := fl (s * x2) with hr
  have hpe : |p - T * x1| ≤ u * X + η := by
    have := R.err (T * x1)
    rw [abs_mul, abs_of_nonneg hT0] at this
    have : T * |x1| ≤ X := by nlinarith [abs_nonneg x1]
    nlinarith
  have hre : |r - s * x2| ≤ u * X + η := by
    have := R.err (s * x2)
    rw [abs_mul, abs_of_nonneg hs0] at this
    have : s * |x2| ≤ X := by nlinarith [abs_nonneg x2]
    nlinarith
  have hsx : |s * x2 - (1 - T) * x2| ≤ u * X := by
    rw [← sub_mul, abs_mul]
    exact mul_le_mul hse h2 (abs_nonneg _) hu
  have hTx : |(T * x1 + (1 - T) * x2) - (t * x1 + (1 - t) * x2)| ≤ (4 * u + η) * (2 * X) := by
    rw [show (T * x1 + (1 - T) * x2) - (t * x1 + (1 - t) * x2) = (T - t) * (x1 - x2) by ring, abs_mul]
    refine mul_le_mul ht ?_ (abs_nonneg _) (by linarith)
    have := abs_sub x1 x2
    linarith
  have hmid : |T * x1 + (1 - T) * x2| ≤ X := by
    have e1 : |T * x1| ≤ T * X := by rw [abs_mul, abs_of_nonneg hT0]; exact mul_le_mul_of_nonneg_left h1 hT0
    have e2 : |(1 - T) * x2| ≤ (1 - T) * X := by
      rw [abs_mul, abs_of_nonneg (by linarith)]; exact mul_le_mul_of_nonneg_left h2 (by linarith)
    have := abs_add_le (T * x1) ((1 - T) * x2)
    linarith
  have hsum := R.add_err p r (R.idem _) (R.idem _)
  have hpr : |p + r - (T * x1 + (1 - T) * x2)| ≤ 3 * u * X + 2 * η := by
    rw [abs_le] at hpe hre hsx ⊢
    constructor <;> linarith [hpe.1, hpe.2, hre.1, hre.2, hsx.1, hsx.2]
  have hprX : |p + r| ≤ X + (3 * u * X + 2 * η) := by
    have := abs_sub_abs_le_abs_sub (p + r) (T * x1 + (1 - T) * x2)
    linarith
  have hfin : u * |p + r| ≤ 2 * u * X + η := by
    have h3 : u * |p + r| ≤ u * (X + (3 * u * X + 2 * η)) := mul_le_mul_of_nonneg_left hprX hu
    have h4 : u * (3 * u * X) ≤ u * X := by
      have : 0 ≤ u * X := by positivity
      nlinarith
    have h5 : u * (2 * η) ≤ η := by nlinarith
    nlinarith
  unfold crossErr
  rw [abs_le] at hsum hpr hTx ⊢
  constructor <;> nlinarith [hsum.1, hsum.2, hpr.1, hpr.2, hTx.1, hTx.2]

/-- The computed crossing with one edge: found exactly if the exact one is, a machine number, and closer to it than the
bound. -/
theorem horizEdgeF_close (R : Rounding fl u η) {ty X : ℝ} {e : Pt ℝ × Pt ℝ} (hty : fl ty = ty) (h1 : fl e.1.2 = e.1.2)
    (h2 : fl e.2.2 = e.2.2) (hx1 : |e.1.1| ≤ X) (hx2 : |e.2.1| ≤ X) :
    (horizEdge ty e = none ∧ horizEdgeF fl ty e = none) ∨
    ∃ c d, horizEdge ty e = some c ∧ horizEdgeF fl ty e = some d ∧ |d - c| ≤ crossErr u η X ∧ fl d = d := by
  unfold horizEdge horizEdgeF
  by_cases hr : min e.1.2 e.2.2 ≤ ty ∧ ty ≤ max e.1.2 e.2.2
  · rw [if_pos hr, if_pos hr]
    by_cases hd : e.1.2 - e.2.2 = 0
    · left
      rw [if_pos hd, if_pos (by rw [hd, R.zero])]
      exact ⟨rfl, rfl⟩
    · right
      have hfd : fl (e.1.2 - e.2.2) ≠ 0 := R.sub_ne _ _ h1 h2 (fun h => hd (by rw [h, sub_self]))
      obtain ⟨⟨q0, q1⟩, f0, f1⟩ := quot_mem R hr.1 hr.2 hd
      have f1 := f1 hfd
      have t0 : 0 ≤ fl (fl (ty - e.2.2) / fl (e.1.2 - e.2.2)) := by
        have := R.mono f0
        rwa [R.zero] at this
      have t1 : fl (fl (ty - e.2.2) / fl (e.1.2 - e.2.2)) ≤ 1 := by
        have := R.mono f1
        rwa [R.one] at this
      rw [if_neg hd, if_neg hfd]
      dsimp only
      rw [if_pos ⟨q0, q1⟩, if_pos ⟨t0, t1⟩]
      refine ⟨_, _, rfl, rfl, ?_, R.idem _⟩
      exact comb_err R t0 t1 (R.idem _)
        (quot_err R hd q0 q1 (R.sub_err _ _ hty h2) (R.sub_err _ _ h1 h2) hfd f0 f1) hx1 hx2
  · left
    rw [if_neg hr, if_neg hr]
    exact ⟨rfl, rfl⟩

theorem forall₂_filterMap {α β γ : Type*} {P : β → γ → Prop} {f : α → Option β} {g : α → Option γ} (l : List α)
    (h : ∀ a ∈ l, (f a = none ∧ g a = none) ∨ ∃ c d, f a = some c ∧ g a = some d ∧ P c d) :
    List.Forall₂ P (l.filterMap f) (l.filterMap g) := by
  induction l with
  | nil => exact .nil
  | cons a l ih =>
    have ih := ih (fun b hb => h b (by simp [hb]))
    rcases h a (by simp) with ⟨h1, h2⟩ | ⟨c, d, h1, h2, h3⟩
    · rw [List.filterMap_cons_none h1, List.filterMap_cons_none h2]; exact ih
    · rw [List.filterMap_cons_some h1, List.filterMap_cons_some h2]; exact .cons h3 ih

/-- The ordinates of the boundary are machine numbers, the abscissas are at most `X`. -/
def MachinePoly (fl : ℝ → ℝ) (X : ℝ) (sh : List (Pt ℝ)) : Prop := ∀ v ∈ sh, fl v.2 = v.2 ∧ |v.1| ≤ X

/-- The computed crossings of a line with a boundary, one by one. -/
theorem isect2DF_close (R : Rounding fl u η) {ty X : ℝ} (hty : fl ty = ty) {sh : List (Pt ℝ)} (hm : MachinePoly fl X sh) :
    List.Forall₂ (fun c d => |d - c| ≤ crossErr u η X ∧ fl d = d) (isect2D ty sh) (isect2DF fl ty sh) := by
  unfold isect2D horizLinePolygon isect2DF
  cases sh with
  | nil => exact .nil
  | cons p ps =>
    dsimp only
    by_cases hc : ty > maxCoeff p.2 (List.map (fun x => x.2) ps) ∨ ty < minCoeff p.2 (List.map (fun x => x.2) ps)
    · rw [if_pos hc, if_pos hc]; exact .nil
    · rw [if_neg hc, if_neg hc]
      refine forall₂_filterMap _ fun e he => ?_
      obtain ⟨m1, m2⟩ := mem_edgesOf he
      exact horizEdgeF_close R hty (hm _ m1).1 (hm _ m2).1 (hm _ m1).2 (hm _ m2).2

/-! ### The free segments, for machine numbers -/

/-- The row is usable and all its numbers are machine numbers. -/
def Table.RowOkF (fl : ℝ → ℝ) (t : Table ℝ) (dmin dmax : ℝ) (i : ℕ) (al au ol ou : List (Option ℝ)) : Prop :=
  t.RowOk dmin dmax i al au ol ou ∧ Ends (fun x => fl x = x) (pairs al au) ∧ Ends (fun x => fl x = x) (pairs ol ou)

theorem freeRowsF_ok (S : StdSort ℝ) (dmin dmax : ℝ) (t : Table ℝ) (n : ℕ)
    (h : ∀ i < n, ∃ ivs, sweepLineFree S dmin dmax t i = .ok ivs) :
    ∃ ivss : List (List (Interval ℝ)), ivss.length = n ∧
      (∀ i ivs, ivss[i]? = some ivs → sweepLineFree S dmin dmax t i = .ok ivs) ∧
      freeRowsF fl S dmin dmax t n = .ok (ivss.map (rowBy (midF fl))) := by
  unfold freeRowsF
  obtain ⟨rows, h1, ivss, h2, h3, h4⟩ := foldlM_range_inv
    (fun (rows : List (SegRow ℝ)) i => do
      let ivs ← sweepLineFree S dmin dmax t i
      Res.ok (rows ++ [rowOfF fl ivs]))
    (fun k rows => ∃ ivss : List (List (Interval ℝ)), ivss.length = k ∧
      (∀ i ivs, ivss[i]? = some ivs → sweepLineFree S dmin dmax t i = .ok ivs) ∧
      rows = ivss.map (rowBy (midF fl))) n [] ⟨[], rfl, by simp, rfl⟩ (by
        rintro k hk rows ⟨ivss, e1, e2, rfl⟩
        obtain ⟨ivs, hi⟩ := h k hk
        refine ⟨_, by rw [hi]; rfl, ivss ++ [ivs], by simp [e1], ?_, by simp [rowBy, rowOfF]⟩
        intro i iv hiv
        rcases Nat.lt_trichotomy i k with hlt | heq | hgt
        · rw [List.getElem?_append_left (by omega)] at hiv
          exact e2 i iv hiv
        · subst heq
          rw [List.getElem?_append_right (by omega)] at hiv
          simp [e1] at hiv
          subst hiv; exact hi
        · rw [List.getElem?_eq_none (by simp; omega)] at hiv; simp at hiv)
  exact ⟨ivss, h2, h3, by rw [h1, h4]⟩

/-- The rounded rows: low, middle and upper coordinates stay aligned inside the free intervals of the line, and no free
point is lost. -/
theorem computeFreeSegmentF_spec (R : Rounding fl u η) (S : StdSort ℝ) {dmin dmax : ℝ} (hdmin : fl dmin = dmin)
    (hdmax : fl dmax = dmax) (t : Table ℝ) (n : ℕ) (hn : 0 < n)
    (h : ∀ i < n, ∃ al au ol ou, t.RowOkF fl dmin dmax i al au ol ou) :
    ∃ rows, computeFreeSegmentF fl S dmin dmax t n = .ok rows ∧ rows.length = n ∧
      ∀ i r, rows[i]? = some r → ∃ ivs, sweepLineFree S dmin dmax t i = .ok ivs ∧ AlignedIn ivs r ∧
        ∀ x ∈ cover ivs, ∃ (k : ℕ) (l u : ℝ), r.L[k]? = some l ∧ r.U[k]? = some u ∧ l ≤ x ∧ x ≤ u := by
  obtain ⟨ivss, hlen, hfree, hrows⟩ := freeRowsF_ok (fl := fl) S dmin dmax t n (fun i hi => by
    obtain ⟨al, au, ol, ou, hr, -⟩ := h i hi
    obtain ⟨ivs, h1, -⟩ := sweepLineFree_spec S dmin dmax t i al au ol ou hr
    exact ⟨ivs, h1⟩)
  obtain ⟨xs, rest, rfl⟩ : ∃ xs rest, ivss = xs :: rest := by
    cases ivss with
    | nil => simp at hlen; omega
    | cons xs rest => exact ⟨xs, rest, rfl⟩
  have hprop : ∀ (i : ℕ) (ivs : List (Interval ℝ)), (xs :: rest)[i]? = some ivs →
      (∀ iv ∈ ivs, iv.Valid) ∧ ivs.Pairwise (fun a b => a.e ≤ b.s) ∧
      ∀ iv ∈ ivs, iv.s ≤ midF fl iv ∧ midF fl iv ≤ iv.e := by
    intro i ivs hi
    have hin : i < n := by rw [← hlen]; exact (List.getElem?_eq_some_iff.1 hi).1
    obtain ⟨al, au, ol, ou, hr, e1, e2⟩ := h i hin
    obtain ⟨ivs', h1, -, h3, h4⟩ := sweepLineFree_spec S dmin dmax t i al au ol ou hr
    rw [hfree i ivs hi] at h1
    obtain rfl := (Res.ok.injEq _ _).mp h1
    have hends := sweepLineFree_ends (P := fun x => fl x = x) S hdmin hdmax hr e1 e2 (hfree i _ hi)
    exact ⟨h3, h4, fun iv hiv => midF_mem R (h3 iv hiv) (hends iv hiv).1 (hends iv hiv).2⟩
  have hmid : ∀ l ∈ xs :: rest, ∀ iv ∈ l, iv.s ≤ midF fl iv ∧ midF fl iv ≤ iv.e := by
    intro l hl
    obtain ⟨i, hi⟩ := List.mem_iff_getElem?.1 hl
    exact (hprop i l hi).2.2
  refine ⟨enhancedRowsBy (midF fl) S [] xs rest, ?_, ?_, ?_⟩
  · simp only [computeFreeSegmentF, hrows, Res.bind_ok]; exact enhanceBy_eq _ S xs rest
  · rw [enhancedRowsBy_length]; simpa using hlen
  · intro i r hr
    have hi : i < (xs :: rest).length := by
      have := (List.getElem?_eq_some_iff.1 hr).1
      rw [enhancedRowsBy_length] at this; simpa using this
    obtain ⟨Q, q1, q5⟩ := enhancedRowsBy_get S rest [] xs (by simp) hmid i (xs :: rest)[i] (List.getElem?_eq_getElem hi)
    rw [hr, Option.some.injEq] at q5
    obtain ⟨p1, p2, p3⟩ := hprop i _ (List.getElem?_eq_getElem hi)
    refine ⟨_, hfree i _ (List.getElem?_eq_getElem hi), ?_, ?_⟩
    · rw [q5]
      split
      · exact aligned_unsorted (midF fl) _ Q p3 q1
      · exact aligned_sort S.vals (midF fl) _ Q p3 p2 q1
    · rintro x ⟨iv, hiv, h1, h2⟩
      rw [q5]
      split
      · obtain ⟨k, hk⟩ := List.mem_iff_getElem?.1 hiv
        have hlt := (List.getElem?_eq_some_iff.1 hk).1
        refine ⟨k, iv.s, iv.e, ?_, ?_, h1, h2⟩
        · simp only [extBy]
          rw [List.getElem?_append_left (by simpa using hlt), List.getElem?_map, hk]; rfl
        · simp only [extBy]
          rw [List.getElem?_append_left (by simpa using hlt), List.getElem?_map, hk]; rfl
      · exact cover_sorted S.vals _ Q p1 iv hiv x h1 h2

/-! ### The whole sweep -/

theorem isect2DF_length (R : Rounding fl u η) {ty X : ℝ} (hty : fl ty = ty) {sh : List (Pt ℝ)} (hm : MachinePoly fl X sh) :
    (isect2DF fl ty sh).length = (isect2D ty sh).length := (isect2DF_close R hty hm).length_eq.symm

theorem isect2DF_mem (R : Rounding fl u η) {ty X : ℝ} (hty : fl ty = ty) {sh : List (Pt ℝ)} (hm : MachinePoly fl X sh)
    {x : ℝ} (hx : x ∈ isect2DF fl ty sh) : fl x = x ∧ |x| ≤ X + crossErr u η X := by
  have hf := isect2DF_close R hty hm
  obtain ⟨k, hk⟩ := List.mem_iff_getElem?.1 hx
  obtain ⟨hlt, e⟩ := List.getElem?_eq_some_iff.1 hk
  have hlt' : k < (isect2D ty sh).length := by rw [hf.length_eq]; exact hlt
  obtain ⟨h1, h2⟩ := (List.forall₂_iff_get.1 hf).2 k hlt' hlt
  simp only [List.get_eq_getElem, e] at h1 h2
  have hb := isect2D_bounds ty sh (-X) X (fun v hv => abs_le.1 (hm v hv).2) _ (List.getElem_mem hlt')
  refine ⟨h2, ?_⟩
  rw [abs_le] at h1 ⊢
  constructor <;> linarith [h1.1, h1.2, hb.1, hb.2]

/-- A row filled by the rounded routine is usable. -/
theorem filled_rowOkF (R : Rounding fl u η) {dmin dmax lowB upB X y : ℝ} (hy : fl y = y)
    (hlow : dmin ≤ lowB) (hup : upB ≤ dmax) (mlow : fl lowB = lowB) (mup : fl upB = upB)
    (hd1 : dmin ≤ -(X + crossErr u η X)) (hd2 : X + crossErr u η X ≤ dmax)
    {arena obs : List (List (Pt ℝ))} (ha : ∀ sh ∈ arena, MachinePoly fl X sh) (ho : ∀ sh ∈ obs, MachinePoly fl X sh)
    {t : Table ℝ} {i : ℕ} (hf : FilledRow (isect2DF fl) lowB upB arena obs t i y) :
    t.RowOkF fl dmin dmax i (arena.map fun sh => some (arenaVal lowB upB (isect2DF fl y sh)).1)
      (arena.map fun sh => some (arenaVal lowB upB (isect2DF fl y sh)).2)
      (obs.map fun sh => (obsVal (isect2DF fl y sh)).1)
      (obs.map fun sh => (obsVal (isect2DF fl y sh)).2) := by
  obtain ⟨f1, f2, f3, f4⟩ := hf
  have hmin : ∀ a b : ℝ, fl a = a → fl b = b → fl (min a b) = min a b := by
    intro a b h1 h2; rcases min_choice a b with h | h <;> rw [h] <;> assumption
  have hmax : ∀ a b : ℝ, fl a = a → fl b = b → fl (max a b) = max a b := by
    intro a b h1 h2; rcases max_choice a b with h | h <;> rw [h] <;> assumption
  refine ⟨⟨f1, f2, f3, f4, by simp, by simp, ?_, ?_⟩, ?_, ?_⟩
  · intro iv hiv
    rw [mem_pairs, List.zip_map', List.mem_map] at hiv
    obtain ⟨sh, hsh, he⟩ := hiv
    simp only [Prod.mk.injEq, Option.some.injEq] at he
    rw [← he.1, ← he.2]
    have hbd := fun x (hx : x ∈ isect2DF fl y sh) => abs_le.1 (isect2DF_mem R hy (ha sh hsh) hx).2
    match hm : isect2DF fl y sh with
    | [] => exact ⟨hlow, hup⟩
    | [p] => exact ⟨hlow, hup⟩
    | p0 :: p1 :: rest =>
      rw [hm] at hbd
      simp only [arenaVal]
      have b0 := hbd p0 (by simp)
      have b1 := hbd p1 (by simp)
      exact ⟨le_min hlow (le_min (hd1.trans b0.1) (hd1.trans b1.1)), max_le hup (max_le (b0.2.trans hd2) (b1.2.trans hd2))⟩
  · intro iv hiv
    rw [mem_pairs, List.zip_map', List.mem_map] at hiv
    obtain ⟨sh, hsh, he⟩ := hiv
    match hm : isect2DF fl y sh with
    | [] => simp [hm, obsVal] at he
    | [p] => simp [hm, obsVal] at he
    | p0 :: p1 :: rest =>
      simp only [hm, obsVal, Prod.mk.injEq, Option.some.injEq] at he
      unfold Interval.Valid
      rw [← he.1, ← he.2]
      exact min_le_max
  · intro iv hiv
    rw [mem_pairs, List.zip_map', List.mem_map] at hiv
    obtain ⟨sh, hsh, he⟩ := hiv
    simp only [Prod.mk.injEq, Option.some.injEq] at he
    rw [← he.1, ← he.2]
    have hbd := fun x (hx : x ∈ isect2DF fl y sh) => (isect2DF_mem R hy (ha sh hsh) hx).1
    match hm : isect2DF fl y sh with
    | [] => exact ⟨mlow, mup⟩
    | [p] => exact ⟨mlow, mup⟩
    | p0 :: p1 :: rest =>
      rw [hm] at hbd
      simp only [arenaVal]
      have b0 := hbd p0 (by simp)
      have b1 := hbd p1 (by simp)
      exact ⟨hmin _ _ mlow (hmin _ _ b0 b1), hmax _ _ mup (hmax _ _ b0 b1)⟩
  · intro iv hiv
    rw [mem_pairs, List.zip_map', List.mem_map] at hiv
    obtain ⟨sh, hsh, he⟩ := hiv
    have hbd := fun x (hx : x ∈ isect2DF fl y sh) => (isect2DF_mem R hy (ho sh hsh) hx).1
    match hm : isect2DF fl y sh with
    | [] => simp [hm, obsVal] at he
    | [p] => simp [hm, obsVal] at he
    | p0 :: p1 :: rest =>
      rw [hm] at hbd
      simp only [hm, obsVal, Prod.mk.injEq, Option.some.injEq] at he
      rw [← he.1, ← he.2]
      exact ⟨hmin _ _ (hbd p0 (by simp)) (hbd p1 (by simp)), hmax _ _ (hbd p0 (by simp)) (hbd p1 (by simp))⟩

theorem abs_min_sub_min {a b c d e : ℝ} (h1 : |c - a| ≤ e) (h2 : |d - b| ≤ e) :
    |min c d - min a b| ≤ e ∧ |max c d - max a b| ≤ e := by
  rw [abs_le] at h1 h2
  constructor <;> rw [abs_le]
  · constructor
    · have : min a b - e ≤ min c d := le_min (by linarith [min_le_left a b]) (by linarith [min_le_right a b])
      linarith
    · have : min c d - e ≤ min a b := le_min (by linarith [min_le_left c d]) (by linarith [min_le_right c d])
      linarith
  · constructor
    · have : max a b ≤ max c d + e := max_le (by linarith [le_max_left c d]) (by linarith [le_max_right c d])
      linarith
    · have : max c d ≤ max a b + e := max_le (by linarith [le_max_left a b]) (by linarith [le_max_right a b])
      linarith

/-- The slice of a convex obstacle and the interval the rounded routine stores for it. -/
theorem slice_close (R : Rounding fl u η) {y X : ℝ} (hy : fl y = y) {sh : List (Pt ℝ)} (hm : MachinePoly fl X sh)
    (hne : sh ≠ []) (hcv : ConvexPolygon sh) (hv : ∀ v ∈ sh, v.2 ≠ y) :
    (obsVal (isect2DF fl y sh) = (none, none) ∧ ∀ x, (x, y) ∉ region sh) ∨
    ∃ lo hi a b, obsVal (isect2DF fl y sh) = (some a, some b) ∧ lo ≤ hi ∧ (∀ x, (x, y) ∈ region sh ↔ lo ≤ x ∧ x ≤ hi) ∧
      |a - lo| ≤ crossErr u η X ∧ |b - hi| ≤ crossErr u η X := by
  have hf := isect2DF_close R hy hm
  rcases slice_exact y sh hne hcv hv with ⟨h0, h1⟩ | ⟨p0, p1, rest, hp, hs⟩
  · left
    rw [h0, List.forall₂_nil_left_iff] at hf
    rw [hf]
    exact ⟨rfl, h1⟩
  · right
    rw [hp] at hf
    generalize isect2DF fl y sh = L at hf ⊢
    cases hf with
    | @cons _ q0 _ l0 h0 hf =>
      cases hf with
      | @cons _ q1 _ l1 h1 hf =>
        have := abs_min_sub_min h0.1 h1.1
        exact ⟨min p0 p1, max p0 p1, _, _, rfl, min_le_max, hs, this.1, this.2⟩

/-- **C89** The planar sweep in rounded arithmetic (any correct rounding, no overflow), for any number of sweep lines,
arenas and convex C-obstacles with no vertex at the height of a line. The computation succeeds with one row per line;
in each row the low, middle and upper coordinates are aligned, the middle one between the others; a point between low and
upper is not deeper in the slice of any obstacle than `crossErr`; a point of the line within the limits and farther than
that from every obstacle is between some low and upper coordinate. -/
theorem C89_rounded_sweep (R : Rounding fl u η) (S : StdSort ℝ) (dmin dmax lowB upB X : ℝ)
    (mdmin : fl dmin = dmin) (mdmax : fl dmax = dmax) (mlow : fl lowB = lowB) (mup : fl upB = upB)
    (hlow : dmin ≤ lowB) (hup : upB ≤ dmax) (hd1 : dmin ≤ -(X + crossErr u η X)) (hd2 : X + crossErr u η X ≤ dmax)
    (arena obs : List (List (Pt ℝ))) (ys : List ℝ) (hys : ys ≠ []) (harena : arena ≠ [])
    (mys : ∀ y ∈ ys, fl y = y)
    (ha : ∀ sh ∈ arena, ∀ v ∈ sh, fl v.2 = v.2 ∧ |v.1| ≤ X)
    (ho : ∀ sh ∈ obs, ∀ v ∈ sh, fl v.2 = v.2 ∧ |v.1| ≤ X)
    (hcv : ∀ sh ∈ obs, sh ≠ [] ∧ ConvexPolygon sh)
    (hv : ∀ sh ∈ obs, ∀ y ∈ ys, ∀ v ∈ sh, v.2 ≠ y) :
    ∃ rows, sweep2DF fl S dmin dmax lowB upB arena obs ys = .ok rows ∧ rows.length = ys.length ∧
      ∀ (i : ℕ) (y : ℝ) (r : SegRow ℝ), ys[i]? = some y → rows[i]? = some r →
        (r.L.length = r.M.length ∧ r.U.length = r.M.length) ∧
        (∀ (k : ℕ) (l m up : ℝ), r.L[k]? = some l → r.M[k]? = some m → r.U[k]? = some up → l ≤ m ∧ m ≤ up) ∧
        (∀ (k : ℕ) (l up x : ℝ), r.L[k]? = some l → r.U[k]? = some up → l ≤ x → x ≤ up →
          ∀ sh ∈ obs, ¬ ∃ x1 x2, x1 + crossErr u η X < x ∧ x < x2 - crossErr u η X ∧ (x1, y) ∈ region sh ∧
            (x2, y) ∈ region sh) ∧
        (∀ x, lowB ≤ x → x ≤ upB → (∀ sh ∈ obs, ∀ x', |x' - x| ≤ crossErr u η X → (x', y) ∉ region sh) →
          ∃ (k : ℕ) (l up : ℝ), r.L[k]? = some l ∧ r.U[k]? = some up ∧ l ≤ x ∧ x ≤ up) := by
  set δ := crossErr u η X with hδ
  obtain ⟨t, f1, -, f3, -⟩ := fillLines_ok (isect2DF fl) lowB upB arena obs ys.length ys 0 _
    (setup_shape ys.length arena.length obs.length lowB upB) (by omega)
    (fun y hy sh hsh => by
      rw [isect2DF_length R (mys y hy) (X := X) ?_]
      · exact isect2D_length_ne_one y sh
      · rcases List.mem_append.1 hsh with h | h
        · exact ha sh h
        · exact ho sh h)
  have f3' : ∀ k y, ys[k]? = some y → FilledRow (isect2DF fl) lowB upB arena obs t k y :=
    fun k y hk => by simpa using f3 k y hk
  have rowok := fun k y (hk : ys[k]? = some y) => filled_rowOkF R (mys y (List.mem_of_getElem? hk)) hlow hup mlow mup hd1 hd2
    ha ho (f3' k y hk)
  obtain ⟨rows, r1, r2, r3⟩ := computeFreeSegmentF_spec R S mdmin mdmax t ys.length (List.length_pos_iff.2 hys) (by
    intro i hi
    exact ⟨_, _, _, _, rowok i ys[i] (List.getElem?_eq_getElem hi)⟩)
  refine ⟨rows, ?_, r2, ?_⟩
  · simp only [sweep2DF, f1, Res.bind_ok]; exact r1
  intro i y r hy hr
  have hym := List.mem_of_getElem? hy
  have hro := (rowok i y hy).1
  obtain ⟨ivs, s1, ⟨T, t1, t2, t3, t4⟩, hcov⟩ := r3 i r hr
  obtain ⟨ivs', g1, g2, -⟩ := sweepLineFree_spec S dmin dmax t i _ _ _ _ hro
  rw [s1] at g1
  obtain rfl := (Res.ok.injEq _ _).mp g1
  refine ⟨by rw [t1, t2, t3]; simp, ?_, ?_, ?_⟩
  · intro k l m up hl hm hu
    rw [t1, List.getElem?_map] at hl
    rw [t2, List.getElem?_map] at hm
    rw [t3, List.getElem?_map] at hu
    cases hT : T[k]? with
    | none => simp [hT] at hl
    | some tr =>
      rw [hT] at hl hm hu
      simp only [Option.map_some, Option.some.injEq] at hl hm hu
      subst hl hm hu
      have := t4 tr (List.mem_of_getElem? hT)
      exact ⟨this.1, this.2.1⟩
  · intro k l up x hl hu hx1 hx2 sh hsh
    rintro ⟨x1, x2, h1, h2, m1, m2⟩
    have hfree : ¬ InteriorPt (pairs (obs.map fun sh => (obsVal (isect2DF fl y sh)).1)
        (obs.map fun sh => (obsVal (isect2DF fl y sh)).2)) x := by
      rw [t1, List.getElem?_map] at hl
      rw [t3, List.getElem?_map] at hu
      cases hT : T[k]? with
      | none => simp [hT] at hl
      | some tr =>
        rw [hT] at hl hu
        simp only [Option.map_some, Option.some.injEq] at hl hu
        subst hl hu
        obtain ⟨-, -, iv, hiv, a, b⟩ := t4 tr (List.mem_of_getElem? hT)
        exact ((g2 x).1 ⟨iv, hiv, a.trans hx1, hx2.trans b⟩).2.2
    apply hfree
    rcases slice_close R (mys y hym) (ho sh hsh) (hcv sh hsh).1 (hcv sh hsh).2 (hv sh hsh y hym) with
      ⟨-, h0⟩ | ⟨lo, hi, a, b, hab, -, hs, ea, eb⟩
    · exact absurd m1 (h0 x1)
    · obtain ⟨a1, -⟩ := (hs x1).1 m1
      obtain ⟨-, b2⟩ := (hs x2).1 m2
      rw [abs_le] at ea eb
      refine ⟨x1 + δ, x2 - δ, h1, h2, fun z hz1 hz2 => ⟨⟨a, b⟩, ?_, ?_, ?_⟩⟩
      · rw [mem_pairs, List.zip_map', List.mem_map]
        exact ⟨sh, hsh, by simp [hab]⟩
      · show a ≤ z
        linarith [ea.2]
      · show z ≤ b
        linarith [eb.1]
  · intro x hx1 hx2 hout
    refine hcov x ((g2 x).2 ⟨?_, ?_, ?_⟩)
    · cases arena with
      | nil => exact absurd rfl harena
      | cons a as => simp [pairs]
    · intro iv hiv
      rw [mem_pairs, List.zip_map', List.mem_map] at hiv
      obtain ⟨sh, hsh, he⟩ := hiv
      simp only [Prod.mk.injEq, Option.some.injEq] at he
      match hm : isect2DF fl y sh with
      | [] => rw [hm] at he; exact ⟨he.1 ▸ hx1, he.2 ▸ hx2⟩
      | [p] => rw [hm] at he; exact ⟨he.1 ▸ hx1, he.2 ▸ hx2⟩
      | p0 :: p1 :: rest =>
        rw [hm] at he
        simp only [arenaVal] at he
        exact ⟨he.1 ▸ (min_le_left _ _).trans hx1, he.2 ▸ hx2.trans (le_max_left _ _)⟩
    · rintro ⟨a, b, ha', hb', hall⟩
      obtain ⟨iv, hiv, c1, c2⟩ := hall x ha'.le hb'.le
      rw [mem_pairs, List.zip_map', List.mem_map] at hiv
      obtain ⟨sh, hsh, he⟩ := hiv
      rcases slice_close R (mys y hym) (ho sh hsh) (hcv sh hsh).1 (hcv sh hsh).2 (hv sh hsh y hym) with
        ⟨h0, -⟩ | ⟨lo, hi, a', b', hab, hlohi, hs, ea, eb⟩
      · rw [h0] at he; simp at he
      · rw [hab] at he
        simp only [Prod.mk.injEq, Option.some.injEq] at he
        rw [abs_le] at ea eb
        have hδ0 : 0 ≤ δ := by linarith [ea.1, ea.2]
        -- the point of the slice closest to x
        refine hout sh hsh (max lo (min x hi)) ?_ ((hs _).2 ⟨le_max_left _ _, max_le hlohi (min_le_right _ _)⟩)
        have e1 := he.1 ▸ c1
        have e2 := he.2 ▸ c2
        rw [abs_le]
        constructor
        · have : x - δ ≤ min x hi := le_min (by linarith [hδ0]) (by linarith [eb.2])
          linarith [le_max_right lo (min x hi)]
        · have : max lo (min x hi) ≤ x + δ := max_le (by linarith [ea.1]) (by linarith [min_le_left x hi, hδ0])
          linarith

/-- Without rounding the model of this file is the exact one. -/
theorem C89_exact_case (S : StdSort ℝ) (dmin dmax lowB upB : ℝ) (arena obs : List (List (Pt ℝ))) (ys : List ℝ) :
    sweep2DF id S dmin dmax lowB upB arena obs ys = sweep2D S dmin dmax lowB upB arena obs ys := by
  unfold sweep2DF sweep2D
  have : isect2DF id = (isect2D : ℝ → List (Pt ℝ) → List ℝ) := funext fun y => funext fun sh => isect2DF_id y sh
  rw [this]
  rfl

/-- **C89** The point test of the check between slices in rounded arithmetic: a point deeper than `crossErr` in the slice of
some boundary is rejected, a point farther than that from all boundaries' insides is accepted. -/
theorem C89_rounded_point_test (R : Rounding fl u η) (v : Pt ℝ) (mv : fl v.2 = v.2) (X : ℝ) (bounds : List (List (Pt ℝ)))
    (hm : ∀ sh ∈ bounds, ∀ w ∈ sh, fl w.2 = w.2 ∧ |w.1| ≤ X)
    (hcv : ∀ sh ∈ bounds, sh ≠ [] ∧ ConvexPolygon sh)
    (hv : ∀ sh ∈ bounds, ∀ w ∈ sh, w.2 ≠ v.2) :
    ∃ b, isPtInCFree2DF fl v bounds = .ok b ∧
      ((∃ sh ∈ bounds, ∃ x1 x2, x1 + crossErr u η X < v.1 ∧ v.1 < x2 - crossErr u η X ∧ (x1, v.2) ∈ region sh ∧
        (x2, v.2) ∈ region sh) → b = false) ∧
      ((∀ sh ∈ bounds, ∀ x, |x - v.1| ≤ crossErr u η X → (x, v.2) ∉ region sh) → b = true) := by
  induction bounds with
  | nil => exact ⟨true, rfl, by simp, by simp⟩
  | cons sh bs ih =>
    obtain ⟨b, e1, e2, e3⟩ := ih (fun s hs => hm s (by simp [hs])) (fun s hs => hcv s (by simp [hs]))
      (fun s hs => hv s (by simp [hs]))
    obtain ⟨hne, hc⟩ := hcv sh (by simp)
    have hpt : ∃ c, ptInObs2DF fl v sh = .ok c ∧
        ((∃ x1 x2, x1 + crossErr u η X < v.1 ∧ v.1 < x2 - crossErr u η X ∧ (x1, v.2) ∈ region sh ∧
          (x2, v.2) ∈ region sh) → c = true) ∧
        ((∀ x, |x - v.1| ≤ crossErr u η X → (x, v.2) ∉ region sh) → c = false) := by
      have hlen := isect2DF_length R mv (hm sh (by simp))
      have hone := isect2D_length_ne_one v.2 sh
      rcases slice_close R mv (hm sh (by simp)) hne hc (hv sh (by simp)) with
        ⟨h0, h1⟩ | ⟨lo, hi, a, b, hab, hlohi, hs, ea, eb⟩
      · match hL : isect2DF fl v.2 sh with
        | [] =>
          refine ⟨false, by simp [ptInObs2DF, hL], ?_, by simp⟩
          rintro ⟨x1, x2, -, -, m1, -⟩
          exact absurd m1 (h1 x1)
        | [p] => rw [hL] at hlen; exact absurd hlen.symm hone
        | p0 :: p1 :: rest => rw [hL] at h0; simp [obsVal] at h0
      · match hL : isect2DF fl v.2 sh with
        | [] => rw [hL] at hab; simp [obsVal] at hab
        | [p] => rw [hL] at hlen; exact absurd hlen.symm hone
        | p0 :: p1 :: rest =>
          rw [hL] at hab
          simp only [obsVal, Prod.mk.injEq, Option.some.injEq] at hab
          have hev : ptInObs2DF fl v sh = .ok (decide (v.1 > a ∧ v.1 < b)) := by
            simp only [ptInObs2DF, hL, List.isEmpty_cons, Bool.false_eq_true, if_false, Res.idx, List.getElem?_cons_zero,
              List.getElem?_cons_succ, Res.bind_ok', hab.1, hab.2]
          rw [abs_le] at ea eb
          refine ⟨_, hev, ?_, ?_⟩
          · rintro ⟨x1, x2, h1, h2, m1, m2⟩
            have := ((hs x1).1 m1).1
            have := ((hs x2).1 m2).2
            rw [decide_eq_true_eq]
            constructor <;> linarith [ea.2, eb.1]
          · intro hout
            rw [decide_eq_false_iff_not]
            rintro ⟨h1, h2⟩
            have hδ0 : 0 ≤ crossErr u η X := by linarith [ea.1, ea.2]
            refine hout (max lo (min v.1 hi)) ?_ ((hs _).2 ⟨le_max_left _ _, max_le hlohi (min_le_right _ _)⟩)
            rw [abs_le]
            constructor
            · have : v.1 - crossErr u η X ≤ min v.1 hi := le_min (by linarith) (by linarith [eb.2])
              linarith [le_max_right lo (min v.1 hi)]
            · have : max lo (min v.1 hi) ≤ v.1 + crossErr u η X :=
                max_le (by linarith [ea.1]) (by linarith [min_le_left v.1 hi])
              linarith
    obtain ⟨c, c1, c2, c3⟩ := hpt
    cases c with
    | true =>
      refine ⟨false, by simp [isPtInCFree2DF, c1], fun _ => rfl, fun h => ?_⟩
      have := c3 (h sh (by simp))
      exact absurd this (by simp)
    | false =>
      refine ⟨b, by simp [isPtInCFree2DF, c1, e1], ?_, fun h => e3 fun s hs => h s (by simp [hs])⟩
      rintro ⟨s, hs, h⟩
      rcases List.mem_cons.1 hs with rfl | hs
      · exact absurd (c2 h) (by simp)
      · exact e2 ⟨s, hs, h⟩

/-! ### The heights of the lines -/

set_option linter.unusedVariables false in
theorem lines_num {u η n Y yLo q p P y : ℝ} (hu : 0 ≤ u) (hus : u ≤ 1 / 100) (hη : 0 ≤ η) (hY0 : 0 ≤ Y) (h2 : 2 ≤ n)
    (hq : |yLo + q| ≤ Y) (hq0 : 0 ≤ q) (hq1 : q ≤ Y) (e2 : |p - q| ≤ (2 * u + u * u) * Y + n * η) (hp0 : 0 ≤ p)
    (e3 : |P - p| ≤ u * p + η) (e4 : |y - (yLo + P)| ≤ u * |yLo + P|) :
    |y - (yLo + q)| ≤ 6 * u * Y + 2 * n * η := by
  have huY : 0 ≤ u * Y := mul_nonneg hu hY0
  have hnη : 0 ≤ n * η := mul_nonneg (by linarith) hη
  have hη2 : η ≤ n * η / 2 := by nlinarith
  have h1 : u * u * Y ≤ u * Y / 100 := by nlinarith
  have h3 : u * (n * η) ≤ n * η / 100 := by nlinarith
  have e2' : |p - q| ≤ 201 / 100 * (u * Y) + n * η := by linarith
  have hp : p ≤ Y + 3 * (u * Y) + n * η := by
    rw [abs_le] at e2'
    linarith [e2'.2]
  have hup : u * p ≤ 103 / 100 * (u * Y) + n * η / 100 := by
    have : u * p ≤ u * (Y + 3 * (u * Y) + n * η) := mul_le_mul_of_nonneg_left hp hu
    have e : u * (Y + 3 * (u * Y) + n * η) = u * Y + 3 * (u * u * Y) + u * (n * η) := by ring
    linarith
  have e3' : |P - p| ≤ 103 / 100 * (u * Y) + n * η / 100 + n * η / 2 := by linarith
  have e5 : |yLo + P| ≤ Y + (4 * (u * Y) + 2 * (n * η)) := by
    rw [abs_le] at hq e2' e3' ⊢
    constructor
    · linarith [hq.1, e2'.1, e3'.1]
    · linarith [hq.2, e2'.2, e3'.2]
  have e6 : u * |yLo + P| ≤ 104 / 100 * (u * Y) + n * η / 50 := by
    have : u * |yLo + P| ≤ u * (Y + (4 * (u * Y) + 2 * (n * η))) := mul_le_mul_of_nonneg_left e5 hu
    have e : u * (Y + (4 * (u * Y) + 2 * (n * η))) = u * Y + 4 * (u * u * Y) + 2 * (u * (n * η)) := by ring
    linarith
  have e7 : |y - (yLo + P)| ≤ 104 / 100 * (u * Y) + n * η / 50 := e4.trans e6
  rw [show 6 * u * Y + 2 * n * η = 6 * (u * Y) + 2 * (n * η) by ring]
  rw [abs_le] at e2' e3' e7 ⊢
  constructor
  · linarith [e2'.1, e3'.1, e7.1]
  · linarith [e2'.2, e3'.2, e7.2]

/-- **C89** The computed heights of the sweep lines: machine numbers, in order, the first one the lower limit, and each one
close to the exact height. -/
theorem C89_rounded_lines (R : Rounding fl u η) (yLo yHi : ℝ) (hlo : fl yLo = yLo) (hhi : fl yHi = yHi) (hle : yLo ≤ yHi)
    (n : ℕ) (hn : 2 ≤ n) :
    (linesF fl yLo yHi n).length = n ∧ (∀ y ∈ linesF fl yLo yHi n, fl y = y) ∧
    (linesF fl yLo yHi n).Pairwise (· ≤ ·) ∧ (linesF fl yLo yHi n)[0]? = some yLo ∧
    ∀ (i : ℕ) (y : ℝ), (linesF fl yLo yHi n)[i]? = some y →
      |y - (yLo + i * ((yHi - yLo) / ((n : ℝ) - 1)))| ≤ 6 * u * (|yLo| + |yHi|) + 2 * n * η := by
  have hu := R.u_nonneg
  have hus := R.u_small
  have hη := R.η_nonneg
  have hn1 : (1 : ℝ) ≤ (n : ℝ) - 1 := by
    have : (2 : ℝ) ≤ n := by exact_mod_cast hn
    linarith
  have hD : 0 ≤ fl (yHi - yLo) := by
    have := R.mono (show (0 : ℝ) ≤ yHi - yLo by linarith)
    rwa [R.zero] at this
  set d := fl (fl (yHi - yLo) / ((n : ℝ) - 1)) with hd
  have hd0 : 0 ≤ d := by
    have := R.mono (show (0 : ℝ) ≤ fl (yHi - yLo) / ((n : ℝ) - 1) from div_nonneg hD (by linarith))
    rwa [R.zero] at this
  refine ⟨by simp [linesF], ?_, ?_, ?_, ?_⟩
  · intro y hy
    obtain ⟨i, -, rfl⟩ := List.mem_map.1 hy
    exact R.idem _
  · unfold linesF
    rw [List.pairwise_map]
    refine List.pairwise_lt_range.imp fun {i j} hij => ?_
    have : (i : ℝ) ≤ j := by exact_mod_cast hij.le
    refine R.mono ?_
    have := R.mono (show (i : ℝ) * d ≤ (j : ℝ) * d by gcongr)
    linarith
  · unfold linesF
    rw [List.getElem?_map, List.getElem?_range (by omega)]
    simp [R.zero, hlo]
  · intro i y hy
    unfold linesF at hy
    rw [List.getElem?_map] at hy
    have hin : i < n := by
      by_contra hcon
      rw [List.getElem?_eq_none (by simpa using hcon)] at hy
      simp at hy
    rw [List.getElem?_range hin] at hy
    simp only [Option.map_some, Option.some.injEq] at hy
    subst hy
    set Y := |yLo| + |yHi| with hY
    have hDY : yHi - yLo ≤ Y := by
      have := neg_abs_le yLo
      have := le_abs_self yHi
      rw [hY]; linarith
    have hY0 : 0 ≤ Y := by positivity
    have hi0 : (0 : ℝ) ≤ i := by positivity
    have hin1 : (i : ℝ) ≤ (n : ℝ) - 1 := by
      have : (i : ℝ) + 1 ≤ n := by exact_mod_cast hin
      linarith
    -- the length of the range
    have e1 : |fl (yHi - yLo) - (yHi - yLo)| ≤ u * Y := by
      have := R.sub_err yHi yLo hhi hlo
      rw [abs_of_nonneg (show 0 ≤ yHi - yLo by linarith)] at this
      exact this.trans (by gcongr)
    -- the spacing
    have e2 : |(i : ℝ) * d - i * ((yHi - yLo) / ((n : ℝ) - 1))| ≤ (2 * u + u * u) * Y + n * η := by
      have a1 := R.err (fl (yHi - yLo) / ((n : ℝ) - 1))
      rw [← hd, abs_of_nonneg (div_nonneg hD (by linarith))] at a1
      have hr0 : 0 ≤ (i : ℝ) / ((n : ℝ) - 1) := div_nonneg hi0 (by linarith)
      have hr1 : (i : ℝ) / ((n : ℝ) - 1) ≤ 1 := (div_le_one (by linarith)).2 hin1
      have a2 : (i : ℝ) * |d - fl (yHi - yLo) / ((n : ℝ) - 1)| ≤ u * fl (yHi - yLo) + n * η := by
        have : (i : ℝ) * |d - fl (yHi - yLo) / ((n : ℝ) - 1)| ≤ i * (u * (fl (yHi - yLo) / ((n : ℝ) - 1)) + η) := by gcongr
        have b : (i : ℝ) * (u * (fl (yHi - yLo) / ((n : ℝ) - 1)) + η) =
            (i : ℝ) / ((n : ℝ) - 1) * (u * fl (yHi - yLo)) + i * η := by ring
        have b1 : (i : ℝ) / ((n : ℝ) - 1) * (u * fl (yHi - yLo)) ≤ u * fl (yHi - yLo) := by
          have : 0 ≤ u * fl (yHi - yLo) := mul_nonneg hu hD
          nlinarith
        have b2 : (i : ℝ) * η ≤ n * η := by
          refine mul_le_mul_of_nonneg_right ?_ hη
          linarith
        linarith
      have a3 : |(i : ℝ) * (fl (yHi - yLo) / ((n : ℝ) - 1)) - i * ((yHi - yLo) / ((n : ℝ) - 1))| ≤ u * Y := by
        have : (i : ℝ) * (fl (yHi - yLo) / ((n : ℝ) - 1)) - i * ((yHi - yLo) / ((n : ℝ) - 1)) =
            (i : ℝ) / ((n : ℝ) - 1) * (fl (yHi - yLo) - (yHi - yLo)) := by ring
        rw [this, abs_mul, abs_of_nonneg hr0]
        have := abs_nonneg (fl (yHi - yLo) - (yHi - yLo))
        nlinarith
      have a4 : fl (yHi - yLo) ≤ (1 + u) * Y := by
        rw [abs_le] at e1
        linarith [e1.2]
      have a5 : u * fl (yHi - yLo) ≤ u * ((1 + u) * Y) := mul_le_mul_of_nonneg_left a4 hu
      have a7 : |(i : ℝ) * d - i * (fl (yHi - yLo) / ((n : ℝ) - 1))| = (i : ℝ) * |d - fl (yHi - yLo) / ((n : ℝ) - 1)| := by
        rw [← mul_sub, abs_mul, abs_of_nonneg hi0]
      have a6 : |(i : ℝ) * d - i * ((yHi - yLo) / ((n : ℝ) - 1))| ≤ |(i : ℝ) * d - i * (fl (yHi - yLo) / ((n : ℝ) - 1))| +
          |(i : ℝ) * (fl (yHi - yLo) / ((n : ℝ) - 1)) - i * ((yHi - yLo) / ((n : ℝ) - 1))| := abs_sub_le _ _ _
      have a8 : u * ((1 + u) * Y) = u * Y + u * u * Y := by ring
      linarith
    have hex : 0 ≤ (i : ℝ) * ((yHi - yLo) / ((n : ℝ) - 1)) ∧ (i : ℝ) * ((yHi - yLo) / ((n : ℝ) - 1)) ≤ Y := by
      have hr0 : 0 ≤ (i : ℝ) / ((n : ℝ) - 1) := div_nonneg hi0 (by linarith)
      have hr1 : (i : ℝ) / ((n : ℝ) - 1) ≤ 1 := (div_le_one (by linarith)).2 hin1
      have : (i : ℝ) * ((yHi - yLo) / ((n : ℝ) - 1)) = (i : ℝ) / ((n : ℝ) - 1) * (yHi - yLo) := by ring
      rw [this]
      constructor
      · exact mul_nonneg hr0 (by linarith)
      · nlinarith
    have e3 := R.err ((i : ℝ) * d)
    rw [abs_of_nonneg (mul_nonneg hi0 hd0)] at e3
    have e4 := R.add_err yLo (fl ((i : ℝ) * d)) hlo (R.idem _)
    have hpt : |yLo + i * ((yHi - yLo) / ((n : ℝ) - 1))| ≤ Y := by
      have hup : (i : ℝ) * ((yHi - yLo) / ((n : ℝ) - 1)) ≤ yHi - yLo := by
        have hr0 : 0 ≤ (i : ℝ) / ((n : ℝ) - 1) := div_nonneg hi0 (by linarith)
        have hr1 : (i : ℝ) / ((n : ℝ) - 1) ≤ 1 := (div_le_one (by linarith)).2 hin1
        have : (i : ℝ) * ((yHi - yLo) / ((n : ℝ) - 1)) = (i : ℝ) / ((n : ℝ) - 1) * (yHi - yLo) := by ring
        rw [this]
        nlinarith
      rw [abs_le]
      have := neg_abs_le yLo
      have := le_abs_self yHi
      have := abs_nonneg yHi
      have := abs_nonneg yLo
      constructor
      · linarith [hex.1]
      · linarith
    exact lines_num hu hus hη hY0 (by exact_mod_cast hn) hpt hex.1 hex.2 e2 (mul_nonneg hi0 hd0) e3 e4

/-! ### Double precision meets the hypotheses -/

theorem binary64_int (m : ℤ) (h : |m| ≤ 2 ^ 53) : binary64 (m : ℝ) = m :=
  binary64_machine ⟨m, 0, h, by norm_num, by simp⟩

theorem crossErr_binary64 : crossErr (2 ^ (-53 : ℤ)) (2 ^ (-1075 : ℤ)) 10 < 1 / 10 ^ 13 := by
  have h : (2 : ℝ) ^ (-1075 : ℤ) ≤ 2 ^ (-60 : ℤ) := zpow_le_zpow_right₀ (by norm_num) (by norm_num)
  unfold crossErr
  have e : (2 : ℝ) ^ (-60 : ℤ) = 1 / 1152921504606846976 := by norm_num
  rw [e] at h
  generalize (2 : ℝ) ^ (-1075 : ℤ) = w at *
  norm_num at h ⊢
  linarith

/-- A kite. -/
def exKite : List (Pt ℝ) := [(-3, 0), (0, -5), (4, 0), (0, 7)]

theorem exKite_convex : ConvexPolygon exKite := by
  left
  simp [exKite, edgesOf, cross]
  norm_num

/-- Double precision, a kite in a square arena, three lines: all hypotheses of `C89_rounded_sweep` hold, and the error is
less than 1e-13; the computed rows miss the inner part of the kite. -/
example (S : StdSort ℝ) : ∃ rows, sweep2DF binary64 S (-1000) 1000 (-10) 10 [[(-10, -10), (10, -10), (10, 10), (-10, 10)]]
    [exKite] [1, 2, 6] = .ok rows ∧ rows.length = 3 ∧
    ∀ r, rows[0]? = some r → ∀ (k : ℕ) (l up : ℝ), r.L[k]? = some l → r.U[k]? = some up → ¬ (l ≤ 0 ∧ 0 ≤ up) := by
  have hint : ∀ m : ℤ, |m| ≤ 2 ^ 53 → binary64 (m : ℝ) = m := binary64_int
  have hε := crossErr_binary64
  have m0 : binary64 0 = 0 := by simpa using hint 0 (by norm_num)
  have m1 : binary64 1 = 1 := by simpa using hint 1 (by norm_num)
  have m2 : binary64 2 = 2 := by simpa using hint 2 (by norm_num)
  have m6 : binary64 6 = 6 := by simpa using hint 6 (by norm_num)
  have m7 : binary64 7 = 7 := by simpa using hint 7 (by norm_num)
  have m5 : binary64 (-5) = -5 := by simpa using hint (-5) (by norm_num)
  have m10 : binary64 10 = 10 := by simpa using hint 10 (by norm_num)
  have m10' : binary64 (-10) = -10 := by simpa using hint (-10) (by norm_num)
  have mM : binary64 1000 = 1000 := by simpa using hint 1000 (by norm_num)
  have mM' : binary64 (-1000) = -1000 := by simpa using hint (-1000) (by norm_num)
  obtain ⟨rows, e1, e2, e3⟩ := C89_rounded_sweep binary64_rounding S (-1000) 1000 (-10) 10 10 mM' mM m10' m10 (by norm_num)
    (by norm_num) (by generalize crossErr _ _ _ = ε at *; linarith) (by generalize crossErr _ _ _ = ε at *; linarith) [[(-10, -10), (10, -10), (10, 10), (-10, 10)]] [exKite] [1, 2, 6] (by simp)
    (by simp) (by simp [m1, m2, m6])
    (by
      intro sh hsh v hv
      simp only [List.mem_singleton] at hsh
      subst hsh
      simp only [List.mem_cons, List.not_mem_nil, or_false] at hv
      rcases hv with rfl | rfl | rfl | rfl <;> simp [m10, m10'])
    (by
      intro sh hsh v hv
      simp only [List.mem_singleton] at hsh
      subst hsh
      simp only [exKite, List.mem_cons, List.not_mem_nil, or_false] at hv
      rcases hv with rfl | rfl | rfl | rfl <;> simp [m0, m5, m7] <;> norm_num [abs_le])
    (by
      intro sh hsh
      simp only [List.mem_singleton] at hsh
      subst hsh
      exact ⟨by simp [exKite], exKite_convex⟩)
    (by
      intro sh hsh y hy v hv
      simp only [List.mem_singleton] at hsh
      subst hsh
      simp only [List.mem_cons, List.not_mem_nil, or_false] at hy
      simp only [exKite, List.mem_cons, List.not_mem_nil, or_false] at hv
      rcases hy with rfl | rfl | rfl <;> rcases hv with rfl | rfl | rfl | rfl <;> norm_num)
  refine ⟨rows, e1, by simpa using e2, ?_⟩
  intro r hr k l up hl hu ⟨h1, h2⟩
  obtain ⟨-, -, h, -⟩ := e3 0 1 r rfl hr
  generalize crossErr (2 ^ (-53 : ℤ)) (2 ^ (-1075 : ℤ)) 10 = ε at *
  refine h k l up 0 hl hu h1 h2 exKite (by simp) ⟨-18 / 7, 24 / 7, by linarith, by linarith, ?_, ?_⟩
  · exact region_comb (vertex_mem_region (v := (-3, 0)) (by simp [exKite])) (vertex_mem_region (v := (0, 7)) (by simp [exKite]))
      (6 / 7) (by norm_num) (by norm_num) _ (by norm_num) (by norm_num)
  · exact region_comb (vertex_mem_region (v := (4, 0)) (by simp [exKite])) (vertex_mem_region (v := (0, 7)) (by simp [exKite]))
      (6 / 7) (by norm_num) (by norm_num) _ (by norm_num) (by norm_num)

/-- Eleven lines over [-10, 10] in double precision: the computed heights are the exact ones up to 1e-12. -/
example : ∀ (i : ℕ) (y : ℝ), (linesF binary64 (-10) 10 11)[i]? = some y → |y - (-10 + 2 * i)| ≤ 1 / 10 ^ 12 := by
  intro i y h
  have m10 : binary64 10 = 10 := by simpa using binary64_int 10 (by norm_num)
  have m10' : binary64 (-10) = -10 := by simpa using binary64_int (-10) (by norm_num)
  obtain ⟨-, -, -, -, e⟩ := C89_rounded_lines binary64_rounding (-10) 10 m10' m10 (by norm_num) 11 (by norm_num)
  have := e i y h
  have h60 : (2 : ℝ) ^ (-1075 : ℤ) ≤ 2 ^ (-60 : ℤ) := zpow_le_zpow_right₀ (by norm_num) (by norm_num)
  have e60 : (2 : ℝ) ^ (-60 : ℤ) = 1 / 1152921504606846976 := by norm_num
  have e53 : (2 : ℝ) ^ (-53 : ℤ) = 1 / 9007199254740992 := by norm_num
  rw [e60] at h60
  generalize (2 : ℝ) ^ (-1075 : ℤ) = w at *
  rw [e53] at this
  have e2 : -10 + (i : ℝ) * ((10 - -10) / (((11 : ℕ) : ℝ) - 1)) = -10 + 2 * i := by norm_num; ring
  rw [e2] at this
  refine this.trans ?_
  norm_num at h60 ⊢
  linarith

/-- A point inside the kite is rejected, a point outside it is accepted. -/
example : isPtInCFree2DF binary64 (0, 1) [exKite] = .ok false ∧ isPtInCFree2DF binary64 (-5, 1) [exKite] = .ok true := by
  have m0 : binary64 0 = 0 := by simpa using binary64_int 0 (by norm_num)
  have m1 : binary64 1 = 1 := by simpa using binary64_int 1 (by norm_num)
  have m7 : binary64 7 = 7 := by simpa using binary64_int 7 (by norm_num)
  have m5 : binary64 (-5) = -5 := by simpa using binary64_int (-5) (by norm_num)
  have hε := crossErr_binary64
  have key := fun (x : ℝ) => C89_rounded_point_test binary64_rounding (x, 1) m1 10 [exKite]
    (by
      intro sh hsh v hv
      simp only [List.mem_singleton] at hsh
      subst hsh
      simp only [exKite, List.mem_cons, List.not_mem_nil, or_false] at hv
      rcases hv with rfl | rfl | rfl | rfl <;> simp [m0, m5, m7] <;> norm_num [abs_le])
    (by
      intro sh hsh
      simp only [List.mem_singleton] at hsh
      subst hsh
      exact ⟨by simp [exKite], exKite_convex⟩)
    (by
      intro sh hsh v hv
      simp only [List.mem_singleton] at hsh
      subst hsh
      simp only [exKite, List.mem_cons, List.not_mem_nil, or_false] at hv
      rcases hv with rfl | rfl | rfl | rfl <;> norm_num)
  generalize crossErr (2 ^ (-53 : ℤ)) (2 ^ (-1075 : ℤ)) 10 = ε at *
  constructor
  · obtain ⟨b, e1, e2, -⟩ := key 0
    rw [e1, e2 ⟨exKite, by simp, -18 / 7, 24 / 7, by linarith, by linarith, ?_, ?_⟩]
    · exact region_comb (vertex_mem_region (v := (-3, 0)) (by simp [exKite]))
        (vertex_mem_region (v := (0, 7)) (by simp [exKite])) (6 / 7) (by norm_num) (by norm_num) _ (by norm_num) (by norm_num)
    · exact region_comb (vertex_mem_region (v := (4, 0)) (by simp [exKite]))
        (vertex_mem_region (v := (0, 7)) (by simp [exKite])) (6 / 7) (by norm_num) (by norm_num) _ (by norm_num) (by norm_num)
  · obtain ⟨b, e1, -, e3⟩ := key (-5)
    rw [e1, e3 ?_]
    intro sh hsh x hx hmem
    simp only [List.mem_singleton] at hsh
    subst hsh
    have := region_le exKite (-1) 0 3 (by
      intro v hv
      simp only [exKite, List.mem_cons, List.not_mem_nil, or_false] at hv
      rcases hv with rfl | rfl | rfl | rfl <;> norm_num) _ hmem
    rw [abs_le] at hx
    dsimp only at this hx
    linarith [hx.2]

end Hrm
