import Verif.Spec.Disc
import Verif.Props.PathWitness
import Verif.Props.Grown
import Mathlib.Analysis.SpecialFunctions.Complex.Arg
import Mathlib.Analysis.LocallyConvex.Separation

/-!
# C88: a disc among discs — how deep can the robot reach into an obstacle on a returned path?
-/

set_option linter.unusedVariables false

namespace Hrm

open Matrix

/-! ### Distances -/

theorem dist2_eq (p q : Pt ℝ) : dist2 p q = ‖(⟨p.1 - q.1, p.2 - q.2⟩ : ℂ)‖ := by
  rw [dist2, Complex.norm_def, Complex.normSq_mk]; congr 1; ring

theorem dist2_nonneg (p q : Pt ℝ) : 0 ≤ dist2 p q := Real.sqrt_nonneg _

theorem dist2_comm (p q : Pt ℝ) : dist2 p q = dist2 q p := by unfold dist2; congr 1; ring

theorem dist2_triangle (p q r : Pt ℝ) : dist2 p r ≤ dist2 p q + dist2 q r := by
  rw [dist2_eq, dist2_eq, dist2_eq]
  have : (⟨p.1 - r.1, p.2 - r.2⟩ : ℂ) = ⟨p.1 - q.1, p.2 - q.2⟩ + ⟨q.1 - r.1, q.2 - r.2⟩ := by
    apply Complex.ext <;> simp
  rw [this]
  exact norm_add_le _ _

/-- The overlap changes by no more than the disc moves. -/
theorem overlap_move (r : ℝ) (o : SuperEllipse) (p q : Pt ℝ) : overlap r o p ≤ overlap r o q + dist2 q p := by
  have := dist2_triangle q p (o.px, o.py)
  unfold overlap; linarith

theorem dist2_horizontal (x x' y : ℝ) : dist2 (x, y) (x', y) = |x - x'| := by
  unfold dist2
  rw [sub_self, zero_pow two_ne_zero, add_zero, Real.sqrt_sq_eq_abs]

theorem dist2_way (p q : Pt ℝ) (s t : ℝ) : dist2 (wayPoint p q s) (wayPoint p q t) = |s - t| * dist2 p q := by
  unfold dist2 wayPoint
  rw [← Real.sqrt_sq_eq_abs, ← Real.sqrt_mul (sq_nonneg _)]
  congr 1; ring

/-! ### The sampled circle -/

/-- Every direction is within half a step of a sampled one. -/
theorem sample_near (n : ℕ) (h2 : 2 ≤ n) (h7 : n ≤ 10 ^ 7) (ph : ℝ) :
    ∃ i < n, ∃ m : ℤ, |ph - 2 * i * hrmPi / ((n : ℝ) - 1) - m * (2 * Real.pi)| ≤ Real.pi / ((n : ℝ) - 1) := by
  have hn1 : (0 : ℝ) < (n : ℝ) - 1 := by
    have : (2 : ℝ) ≤ n := by exact_mod_cast h2
    linarith
  have hp := hrmPi_lt_pi
  have hp0 : 0 < hrmPi := by norm_num [hrmPi]
  have hpi := Real.pi_pos
  set m : ℤ := ⌊ph / (2 * Real.pi)⌋ with hm
  set psi := ph - m * (2 * Real.pi) with hpsi
  have hps0 : 0 ≤ psi := by
    have := Int.floor_le (ph / (2 * Real.pi))
    rw [le_div_iff₀ (by linarith)] at this
    simp only [hpsi]; linarith
  have hps1 : psi < 2 * Real.pi := by
    have := Int.lt_floor_add_one (ph / (2 * Real.pi))
    rw [div_lt_iff₀ (by linarith)] at this
    simp only [hpsi]; linarith
  rcases le_or_gt psi (2 * hrmPi) with h | h
  · -- the nearest sample
    set u := psi * ((n : ℝ) - 1) / (2 * hrmPi) with hu
    have hu0 : 0 ≤ u := by positivity
    have hu1 : u ≤ (n : ℝ) - 1 := by
      rw [hu, div_le_iff₀ (by linarith)]; nlinarith
    refine ⟨⌊u + 1 / 2⌋₊, ?_, m, ?_⟩
    · have : (⌊u + 1 / 2⌋₊ : ℝ) ≤ u + 1 / 2 := Nat.floor_le (by linarith)
      have : (⌊u + 1 / 2⌋₊ : ℝ) < n := by linarith
      exact_mod_cast this
    · have e1 : (⌊u + 1 / 2⌋₊ : ℝ) ≤ u + 1 / 2 := Nat.floor_le (by linarith)
      have e2 : u + 1 / 2 < (⌊u + 1 / 2⌋₊ : ℝ) + 1 := Nat.lt_floor_add_one _
      have e3 : ph - 2 * (⌊u + 1 / 2⌋₊ : ℝ) * hrmPi / ((n : ℝ) - 1) - m * (2 * Real.pi) =
          (u - (⌊u + 1 / 2⌋₊ : ℝ)) * (2 * hrmPi / ((n : ℝ) - 1)) := by
        have : psi = u * (2 * hrmPi / ((n : ℝ) - 1)) := by rw [hu]; field_simp
        rw [sub_mul, ← this]; simp only [hpsi]; ring
      rw [e3, abs_mul, abs_of_pos (by positivity : 0 < 2 * hrmPi / ((n : ℝ) - 1))]
      have e4 : |u - (⌊u + 1 / 2⌋₊ : ℝ)| ≤ 1 / 2 := by rw [abs_le]; constructor <;> linarith
      calc |u - (⌊u + 1 / 2⌋₊ : ℝ)| * (2 * hrmPi / ((n : ℝ) - 1)) ≤ 1 / 2 * (2 * hrmPi / ((n : ℝ) - 1)) :=
            mul_le_mul_of_nonneg_right e4 (by positivity)
        _ = hrmPi / ((n : ℝ) - 1) := by ring
        _ ≤ Real.pi / ((n : ℝ) - 1) := by gcongr
  · -- past the last sample
    refine ⟨n - 1, by omega, m, ?_⟩
    have e : ph - 2 * ((n - 1 : ℕ) : ℝ) * hrmPi / ((n : ℝ) - 1) - m * (2 * Real.pi) = psi - 2 * hrmPi := by
      rw [Nat.cast_sub (by omega), Nat.cast_one]
      have : 2 * ((n : ℝ) - 1) * hrmPi / ((n : ℝ) - 1) = 2 * hrmPi := by field_simp
      rw [this]; simp only [hpsi]; ring
    rw [e, abs_of_pos (by linarith)]
    have hlast : Real.pi - hrmPi < 1 / 10 ^ 7 := by
      have := Real.pi_lt_d20
      unfold hrmPi
      norm_num at this ⊢
      linarith
    have hn7 : (n : ℝ) - 1 ≤ 10 ^ 7 := by
      have : (n : ℝ) ≤ 10 ^ 7 := by exact_mod_cast h7
      linarith
    calc psi - 2 * hrmPi ≤ 2 * (1 / 10 ^ 7) := by linarith
      _ ≤ Real.pi / 10 ^ 7 := by have := Real.pi_gt_three; linarith
      _ ≤ Real.pi / ((n : ℝ) - 1) := by gcongr

theorem Disc_ok {E : SuperEllipse} (h : E.Disc) : E.Ok := ⟨h.radius, h.round ▸ h.radius, by rw [h.ell]; norm_num, by rw [h.ell]; norm_num⟩

theorem rot2_mulVec (t x y : ℝ) :
    Matrix.mulVec (rot2 t) ![x, y] = ![Real.cos t * x - Real.sin t * y, Real.sin t * x + Real.cos t * y] := by
  ext i
  fin_cases i <;> simp [rot2, Matrix.mulVec, dotProduct, Fin.sum_univ_two]
  ring

/-- The boundary the program computes for a disc grown by a disc. -/
theorem toPts_minkSum_disc {o B : SuperEllipse} (ho : o.Disc) (hB : B.Ok) (hr : B.a = B.b) :
    toPts (o.minkSum2D B 1) = grownCircle B.a o := by
  unfold toPts SuperEllipse.minkSum2D grownCircle
  rw [List.map_map]
  refine List.map_congr_left fun i _ => ?_
  rw [Function.comp, SuperEllipse.minkPoint_disc (Disc_ok ho) ho.ell hB hr, ← ho.round]
  have e : SuperEllipse.theta o i = 2 * i * hrmPi / ((o.num : ℝ) - 1) := rfl
  rw [← e]
  simp only [rot2_mulVec]
  apply Prod.ext <;> simp [Real.cos_add, Real.sin_add] <;> ring

/-- The polygon contains the disc whose radius is smaller by the sag. -/
theorem disc_in_polygon {r : ℝ} (hr : 0 < r) {o : SuperEllipse} (ho : o.Disc) (h2 : 2 ≤ o.num) (h7 : o.num ≤ 10 ^ 7)
    {p : Pt ℝ} (hp : sag r o < overlap r o p) : p ∈ region (grownCircle r o) := by
  by_contra hcon
  have hfin : ({v | v ∈ grownCircle r o} : Set (Pt ℝ)).Finite := List.finite_toSet _
  obtain ⟨f, u, hf1, hf2⟩ := geometric_hahn_banach_closed_point (convex_convexHull ℝ _) (hfin.isClosed_convexHull ℝ) hcon
  have hlin : ∀ v : Pt ℝ, f v = f (1, 0) * v.1 + f (0, 1) * v.2 := by
    intro v
    have : v = v.1 • ((1 : ℝ), (0 : ℝ)) + v.2 • ((0 : ℝ), (1 : ℝ)) := by ext <;> simp
    conv_lhs => rw [this]
    rw [map_add, map_smul, map_smul, smul_eq_mul, smul_eq_mul]; ring
  set z : ℂ := ⟨f (1, 0), f (0, 1)⟩ with hz
  have hc : ‖z‖ * Real.cos z.arg = f (1, 0) := Complex.norm_mul_cos_arg z
  have hs : ‖z‖ * Real.sin z.arg = f (0, 1) := Complex.norm_mul_sin_arg z
  obtain ⟨i, hi, m, him⟩ := sample_near o.num h2 h7 (z.arg - o.ang)
  set th := 2 * (i : ℝ) * hrmPi / ((o.num : ℝ) - 1) with hth
  have hmem : (o.px + (r + o.a) * Real.cos (o.ang + th), o.py + (r + o.a) * Real.sin (o.ang + th)) ∈ grownCircle r o :=
    List.mem_map.2 ⟨i, List.mem_range.2 hi, rfl⟩
  have hlt := (hf1 _ (subset_convexHull ℝ _ hmem)).trans hf2
  rw [hlin, hlin p] at hlt
  dsimp only at hlt
  have hn1 : (1 : ℝ) ≤ (o.num : ℝ) - 1 := by
    have : (2 : ℝ) ≤ o.num := by exact_mod_cast h2
    linarith
  have hcos : Real.cos (Real.pi / ((o.num : ℝ) - 1)) ≤ Real.cos (z.arg - o.ang - th) := by
    have e : Real.cos (z.arg - o.ang - th) = Real.cos (|z.arg - o.ang - th - m * (2 * Real.pi)|) := by
      rw [Real.cos_abs, Real.cos_sub_int_mul_two_pi]
    rw [e]
    refine Real.cos_le_cos_of_nonneg_of_le_pi (abs_nonneg _) ?_ him
    rw [div_le_iff₀ (by linarith)]
    nlinarith [Real.pi_pos]
  have hcs : Real.cos (z.arg - o.ang - th) = Real.cos z.arg * Real.cos (o.ang + th) + Real.sin z.arg * Real.sin (o.ang + th) := by
    rw [sub_sub, Real.cos_sub]
  have hrho : 0 < r + o.a := by have := ho.radius; linarith
  -- the distance bounds the component along the direction
  have hcomp : f (1, 0) * (p.1 - o.px) + f (0, 1) * (p.2 - o.py) ≤ ‖z‖ * dist2 p (o.px, o.py) := by
    rw [← hc, ← hs]
    have h1 : Real.cos z.arg * (p.1 - o.px) + Real.sin z.arg * (p.2 - o.py) ≤ dist2 p (o.px, o.py) := by
      apply Real.le_sqrt_of_sq_le
      have := Real.cos_sq_add_sin_sq z.arg
      dsimp only
      have e : (p.1 - o.px) ^ 2 + (p.2 - o.py) ^ 2 - (Real.cos z.arg * (p.1 - o.px) + Real.sin z.arg * (p.2 - o.py)) ^ 2 =
          (Real.cos z.arg * (p.2 - o.py) - Real.sin z.arg * (p.1 - o.px)) ^ 2 := by
        linear_combination (-((p.1 - o.px) ^ 2 + (p.2 - o.py) ^ 2)) * this
      nlinarith [sq_nonneg (Real.cos z.arg * (p.2 - o.py) - Real.sin z.arg * (p.1 - o.px))]
    nlinarith [norm_nonneg z]
  have hv : f (1, 0) * ((r + o.a) * Real.cos (o.ang + th)) + f (0, 1) * ((r + o.a) * Real.sin (o.ang + th)) =
      ‖z‖ * ((r + o.a) * Real.cos (z.arg - o.ang - th)) := by
    rw [hcs, ← hc, ← hs]; ring
  have hd : dist2 p (o.px, o.py) < (r + o.a) * Real.cos (Real.pi / ((o.num : ℝ) - 1)) := by
    unfold sag overlap at hp; linarith
  have hge : ‖z‖ * dist2 p (o.px, o.py) ≤ ‖z‖ * ((r + o.a) * Real.cos (z.arg - o.ang - th)) := by
    refine mul_le_mul_of_nonneg_left ?_ (norm_nonneg z)
    nlinarith
  linarith

/-- A point that is not strictly inside the polygon at its height overlaps by no more than the sag. -/
theorem overlap_le_of_not_inSlice {r : ℝ} (hr : 0 < r) {o : SuperEllipse} (ho : o.Disc) (h2 : 2 ≤ o.num) (h7 : o.num ≤ 10 ^ 7)
    {p : Pt ℝ} (hp : ¬ InSlice (grownCircle r o) p) : overlap r o p ≤ sag r o := by
  by_contra hcon
  push Not at hcon
  apply hp
  set d := (overlap r o p - sag r o) / 2 with hd
  have hd0 : 0 < d := by simp only [hd]; linarith
  have key : ∀ x, |x - p.1| ≤ d → (x, p.2) ∈ region (grownCircle r o) := by
    intro x hx
    apply disc_in_polygon hr ho h2 h7
    have := overlap_move r o p (x, p.2)
    have e : dist2 (x, p.2) p = |x - p.1| := dist2_horizontal x p.1 p.2
    rw [e] at this
    linarith
  exact ⟨p.1 - d, p.1 + d, by linarith, by linarith, key _ (by rw [abs_le]; constructor <;> linarith),
    key _ (by rw [abs_le]; constructor <;> linarith)⟩

theorem overlap_le_of_outside {r : ℝ} (hr : 0 < r) {o : SuperEllipse} (ho : o.Disc) (h2 : 2 ≤ o.num) (h7 : o.num ≤ 10 ^ 7)
    {p : Pt ℝ} (hp : p ∉ region (grownCircle r o)) : overlap r o p ≤ sag r o := by
  by_contra hcon
  exact hp (disc_in_polygon hr ho h2 h7 (not_le.1 hcon))

/-! ### The enclosing ellipse of a disc is the disc -/

theorem mvce_disc {svd : SvdFun 2} (hs : SvdOk svd) {r : ℝ} (hr : 0 < r) (thA thB : ℝ) (num : ℕ) :
    (getMVCE2D svd ![r, r] ![r, r] thA thB num).a = r ∧ (getMVCE2D svd ![r, r] ![r, r] thA thB num).b = r := by
  have hc : ∀ i, (0 : ℝ) < ![r, r] i := by intro i; fin_cases i <;> simpa
  obtain ⟨C, hC, e, h1, -, -, h3, -⟩ := mvceSvd_spec hs hc hc (rot2_orth thA) (rot2_orth thB)
    (r := min (![r, r] 0) (![r, r] 1)) (by simpa using hr)
  have hell : ∀ th (x : Fin 2 → ℝ), x ⬝ᵥ ellMat (rot2 th) (fun i => (![r, r] i ^ 2)⁻¹) *ᵥ x = (r ^ 2)⁻¹ * (x ⬝ᵥ x) := by
    intro th x
    have e1 : (fun i => (![r, r] i ^ 2)⁻¹) = fun _ : Fin 2 => (r ^ 2)⁻¹ := by
      funext i; fin_cases i <;> rfl
    have e2 : ellMat (rot2 th) (fun _ : Fin 2 => (r ^ 2)⁻¹) = (r ^ 2)⁻¹ • (1 : Matrix (Fin 2) (Fin 2) ℝ) := by
      unfold ellMat
      rw [show (diagonal fun _ : Fin 2 => (r ^ 2)⁻¹) = (r ^ 2)⁻¹ • (1 : Matrix (Fin 2) (Fin 2) ℝ) by
        rw [← Matrix.diagonal_one, ← Matrix.diagonal_smul]; congr 1; funext i; simp]
      rw [Matrix.mul_smul, Matrix.mul_one, Matrix.smul_mul, (rot2_orth th).right]
    rw [e1, e2, Matrix.smul_mulVec, one_mulVec, dotProduct_smul, smul_eq_mul]
  have hCx : ∀ x : Fin 2 → ℝ, x ⬝ᵥ C *ᵥ x = (r ^ 2)⁻¹ * (x ⬝ᵥ x) := by
    intro x
    refine le_antisymm ((h1 x).trans_eq (hell _ x)) ?_
    have := h3 1 le_rfl (fun y => by rw [one_mul, hell, hell]) x
    rwa [one_mul, hell] at this
  obtain ⟨ou, hCd, hsp⟩ := isSvd_symPos hC (hs C hC)
  have hsi : ∀ i, (svd C).s i = (r ^ 2)⁻¹ := by
    intro i
    have := hCx ((svd C).u *ᵥ Pi.single i 1)
    rw [show C *ᵥ ((svd C).u *ᵥ Pi.single i 1) = ellMat (svd C).u (svd C).s *ᵥ ((svd C).u *ᵥ Pi.single i 1) by
      rw [← hCd], ellMat_mulVec] at this
    have hu : ∀ y : Fin 2 → ℝ, (svd C).uᵀ *ᵥ ((svd C).u *ᵥ y) = y := by
      intro y; rw [mulVec_mulVec, ou.left, one_mulVec]
    rw [hu, ou.dot, ou.dot] at this
    simpa [dotProduct, Matrix.mulVec_single, Finset.sum_ite_eq, Pi.single_apply] using this
  have hpow : ((r ^ 2)⁻¹ : ℝ) ^ (-(1 / 2) : ℝ) = r := by
    have hx : (0 : ℝ) < (r ^ 2)⁻¹ := by positivity
    obtain ⟨q1, q2⟩ := rpow_neg_half hx
    have := inv_injective q2
    exact (pow_left_inj₀ q1.le hr.le two_ne_zero).1 this
  constructor
  · simp only [getMVCE2D, e, hsi, hpow]
  · simp only [getMVCE2D, e, hsi, hpow]

theorem tfe_disc {svd : SvdFun 2} (hs : SvdOk svd) {l : SuperEllipse} (hl : l.Disc) {ha hb : ℝ} {np : ℕ} {E : SuperEllipse}
    (hE : getTFE2D svd ![l.a, l.b] ha hb np l.num = some E) : E.a = l.a ∧ E.b = l.a ∧ E.eps = 1 := by
  rw [← hl.round] at hE
  unfold getTFE2D at hE
  split at hE
  · exact nomatch hE
  · obtain rfl := Option.some.inj hE
    have : ∀ (is : List ℕ) (E0 : SuperEllipse), E0.a = l.a ∧ E0.b = l.a ∧ E0.eps = 1 →
        ∀ E1, E1 = is.foldl (fun E i => getMVCE2D svd ![l.a, l.a] ![E.a, E.b] (thetaStep ha hb np i) E.ang l.num) E0 →
        E1.a = l.a ∧ E1.b = l.a ∧ E1.eps = 1 := by
      intro is
      induction is with
      | nil => intro E0 h E1 e; rw [e]; exact h
      | cons i is ih =>
        intro E0 h E1 e
        refine ih _ ?_ E1 e
        dsimp only
        rw [h.1, h.2.1]
        obtain ⟨h1, h2⟩ := mvce_disc hs hl.radius (thetaStep ha hb np i) E0.ang l.num
        exact ⟨h1, h2, rfl⟩
    refine this _ _ ?_ _ rfl
    obtain ⟨h1, h2⟩ := mvce_disc hs hl.radius ha hb l.num
    exact ⟨h1, h2, rfl⟩

/-! ### The point test -/

/-- A point declared free is strictly inside no tested convex polygon with no vertex at its height. -/
theorem not_inSlice_of_free {p : Pt ℝ} {bs : List (List (Pt ℝ))} (h : isPtInCFree2D p bs = .ok true) {sh : List (Pt ℝ)}
    (hsh : sh ∈ bs) (hne : sh ≠ []) (hcv : ConvexPolygon sh) (hv : ∀ v ∈ sh, v.2 ≠ p.2) : ¬ InSlice sh p := by
  induction bs with
  | nil => simp at hsh
  | cons b bs ih =>
    unfold isPtInCFree2D at h
    obtain ⟨hit, e, h⟩ := Res.bind_eq_ok.1 h
    cases hit with
    | true => simp at h
    | false =>
      rcases List.mem_cons.1 hsh with rfl | hsh
      · unfold ptInObs2D at e
        obtain ⟨l, hl, -⟩ := C13_horizontal_line_polygon p.2 sh hne
        have hl' : isect2D p.2 sh = l := by unfold isect2D; rw [hl]
        rw [hl, Res.bind_ok'] at e
        rintro ⟨x1, x2, a1, a2, r1, r2⟩
        rcases slice_exact p.2 sh hne hcv hv with ⟨-, h0⟩ | ⟨p0, p1, rest, he, hs⟩
        · exact h0 x1 r1
        · rw [hl'] at he
          subst he
          simp only [List.isEmpty_cons, Bool.false_eq_true, if_false, Res.idx, List.getElem?_cons_zero,
            List.getElem?_cons_succ, Res.bind_ok', Res.ok.injEq, decide_eq_false_iff_not] at e
          exact e ⟨((hs x1).1 r1).1.trans_lt a1, a2.trans_le ((hs x2).1 r2).2⟩
      · exact ih (by simpa using h) hsh

/-! ### The boundaries of the planner -/

theorem minkSum_base {T : Tree2} {o : SuperEllipse} {k : ℤ} {ms : List (List (Fin 2 → ℝ))} (h : T.minkSum o k = .ok ms) :
    o.minkSum2D T.base k ∈ ms := by
  unfold Tree2.minkSum at h
  have : ∀ (is : List ℕ) (acc ms : List (List (Fin 2 → ℝ))), o.minkSum2D T.base k ∈ acc →
      is.foldlM (fun acc i => (T.minkLink o k i).bind fun b => Res.ok (acc ++ [b])) acc = .ok ms → o.minkSum2D T.base k ∈ ms := by
    intro is
    induction is with
    | nil => intro acc ms hm h; obtain rfl := (Res.ok.injEq _ _).mp h; exact hm
    | cons i is ih =>
      intro acc ms hm h
      rw [List.foldlM_cons] at h
      obtain ⟨acc', h1, h⟩ := Res.bind_eq_ok.1 h
      obtain ⟨b, -, h1⟩ := Res.bind_eq_ok.1 h1
      obtain rfl := (Res.ok.injEq _ _).mp h1
      exact ih _ _ (by simp [hm]) h
  exact this _ _ _ (by simp) h

/-- The boundary of every obstacle grown by the base is among the obstacle boundaries. -/
theorem base_boundary {T : Tree2} {arena obs : List SuperEllipse} {B : Bound2} (hB : cspaceBoundary T arena obs = .ok B)
    {o : SuperEllipse} (ho : o ∈ obs) : toPts (o.minkSum2D T.base 1) ∈ B.obstacle := by
  unfold cspaceBoundary at hB
  obtain ⟨A, -, hB⟩ := Res.bind_eq_ok.1 hB
  obtain ⟨O, hO, hB⟩ := Res.bind_eq_ok.1 hB
  obtain rfl := (Res.ok.injEq _ _).mp hB
  dsimp only
  unfold bodyBoundaries at hO
  have : ∀ (l : List SuperEllipse) (acc bs : List (List (Pt ℝ))),
      l.foldlM (fun acc o => (T.minkSum o 1).bind fun b => Res.ok (acc ++ b.map toPts)) acc = .ok bs →
      (toPts (o.minkSum2D T.base 1) ∈ acc ∨ o ∈ l) → toPts (o.minkSum2D T.base 1) ∈ bs := by
    intro l
    induction l with
    | nil =>
      intro acc bs h hm
      obtain rfl := (Res.ok.injEq _ _).mp h
      simpa using hm
    | cons o' l ih =>
      intro acc bs h hm
      rw [List.foldlM_cons] at h
      obtain ⟨acc', h1, h⟩ := Res.bind_eq_ok.1 h
      obtain ⟨b, h0, h1⟩ := Res.bind_eq_ok.1 h1
      obtain rfl := (Res.ok.injEq _ _).mp h1
      refine ih _ _ h ?_
      rcases hm with hm | hm
      · exact Or.inl (List.mem_append_left _ hm)
      · rcases List.mem_cons.1 hm with rfl | hm
        · exact Or.inl (List.mem_append_right _ (List.mem_map_of_mem (minkSum_base h0)))
        · exact Or.inr hm
  exact this _ _ _ hO (Or.inr ho)

/-! ### The path -/

theorem onWay_rev {np k : ℕ} (hk : k < np) (h2 : 2 ≤ np) (a b : ℝ) : onWay np k b a = onWay np (np - 1 - k) a b := by
  unfold onWay
  have h1 : (0 : ℝ) < (np : ℝ) - 1 := by
    have : (2 : ℝ) ≤ np := by exact_mod_cast h2
    linarith
  rw [show ((np - 1 - k : ℕ) : ℝ) = (np : ℝ) - 1 - k by
    rw [Nat.cast_sub (by omega), Nat.cast_sub (by omega), Nat.cast_one]]
  field_simp
  ring

/-- Points of a way checked at `np` evenly spaced points. -/
theorem overlap_between {r : ℝ} {o : SuperEllipse} {p q : Pt ℝ} {np : ℕ} (h2 : 2 ≤ np) {c : ℝ}
    (h : ∀ k < np, overlap r o (onWay np k p.1 q.1, onWay np k p.2 q.2) ≤ c) (s : ℝ) (h0 : 0 ≤ s) (h1 : s ≤ 1) :
    overlap r o (wayPoint p q s) ≤ c + dist2 p q / (2 * ((np : ℝ) - 1)) := by
  have hn : (0 : ℝ) < (np : ℝ) - 1 := by
    have : (2 : ℝ) ≤ np := by exact_mod_cast h2
    linarith
  set u := s * ((np : ℝ) - 1) with hu
  have hu0 : 0 ≤ u := by positivity
  have hu1 : u ≤ (np : ℝ) - 1 := by rw [hu]; nlinarith
  have e1 : (⌊u + 1 / 2⌋₊ : ℝ) ≤ u + 1 / 2 := Nat.floor_le (by linarith)
  have e2 : u + 1 / 2 < (⌊u + 1 / 2⌋₊ : ℝ) + 1 := Nat.lt_floor_add_one _
  set k := ⌊u + 1 / 2⌋₊ with hk
  have hkn : k < np := by
    have : (k : ℝ) < np := by linarith
    exact_mod_cast this
  have hw : (onWay np k p.1 q.1, onWay np k p.2 q.2) = wayPoint p q (k / ((np : ℝ) - 1)) := rfl
  have hmv := overlap_move r o (wayPoint p q s) (wayPoint p q (k / ((np : ℝ) - 1)))
  rw [dist2_way, ← hw] at hmv
  have hd : |(k : ℝ) / ((np : ℝ) - 1) - s| ≤ 1 / (2 * ((np : ℝ) - 1)) := by
    have : (k : ℝ) / ((np : ℝ) - 1) - s = (k - u) / ((np : ℝ) - 1) := by rw [hu]; field_simp
    rw [this, abs_div, abs_of_pos hn, div_le_div_iff₀ hn (by linarith)]
    have : |(k : ℝ) - u| ≤ 1 / 2 := by rw [abs_le]; constructor <;> linarith
    nlinarith
  have := mul_le_mul_of_nonneg_right hd (dist2_nonneg p q)
  have e3 : 1 / (2 * ((np : ℝ) - 1)) * dist2 p q = dist2 p q / (2 * ((np : ℝ) - 1)) := by ring
  rw [e3] at this
  linarith [h k hkn]

/-- A way along a sweep line. -/
theorem overlap_row {r : ℝ} (hr : 0 < r) {o : SuperEllipse} (ho : o.Disc) (h2 : 2 ≤ o.num) (h7 : o.num ≤ 10 ^ 7)
    {obstacle : List (List (Pt ℝ))} (hmem : grownCircle r o ∈ obstacle) {p q : Pt ℝ} (h : RowClear obstacle p q)
    (hp : ¬ InSlice (grownCircle r o) p) (hq : ¬ InSlice (grownCircle r o) q) (s : ℝ) (h0 : 0 ≤ s) (h1 : s ≤ 1) :
    overlap r o (wayPoint p q s) ≤ sag r o + 1 / 10 ^ 6 := by
  obtain ⟨hy, c, d, hcd, hlt, hfree⟩ := h
  have hwy : (wayPoint p q s).2 = p.2 := by unfold wayPoint; rw [← hy]; ring
  set x := (wayPoint p q s).1 with hx
  have hxm : min p.1 q.1 ≤ x ∧ x ≤ max p.1 q.1 := by
    have : x = p.1 + s * (q.1 - p.1) := rfl
    rcases le_total p.1 q.1 with h | h
    · rw [min_eq_left h, max_eq_right h, this]; constructor <;> nlinarith
    · rw [min_eq_right h, max_eq_left h, this]; constructor <;> nlinarith
  have hwp : wayPoint p q s = (x, p.2) := Prod.ext rfl hwy
  rw [hwp]
  -- a free point closer than 1e-6
  suffices hex : ∃ x', |x' - x| ≤ 1 / 10 ^ 6 ∧ ¬ InSlice (grownCircle r o) (x', p.2) by
    obtain ⟨x', hx', hns⟩ := hex
    have hm := overlap_move r o (x, p.2) (x', p.2)
    rw [dist2_horizontal] at hm
    have := overlap_le_of_not_inSlice hr ho h2 h7 hns
    linarith
  have hpm : ∀ z, z = p.1 ∨ z = q.1 → ¬ InSlice (grownCircle r o) (z, p.2) := by
    rintro z (rfl | rfl)
    · exact hp
    · rw [hy]; exact hq
  rcases hfree x hxm.1 hxm.2 with ⟨h3, h4⟩ | h3
  · rcases le_or_gt (min p.1 q.1) c with hm | hm
    · refine ⟨c, by rw [abs_le]; constructor <;> linarith, ?_⟩
      rcases hfree c hm (by linarith [hxm.2]) with h5 | h5
      · exact absurd h5.1 (lt_irrefl _)
      · exact h5 _ hmem
    · refine ⟨min p.1 q.1, by rw [abs_le]; constructor <;> linarith [hxm.1], hpm _ ?_⟩
      exact min_choice _ _
  · exact ⟨x, by rw [sub_self, abs_zero]; norm_num, h3 _ hmem⟩

/-- The boundary the check of a step uses for a disc, when the enclosing shape is the base. -/
theorem bridge_disc {r : ℝ} (hr : 0 < r) {obs : List SuperEllipse} {E o : SuperEllipse} (ea : E.a = r) (eb : E.b = r)
    (ee : E.eps = 1) (ho : o ∈ obs) (hod : o.Disc) : grownCircle r o ∈ bridgeBound obs E := by
  have hE : ({ E with px := 0, py := 0 } : SuperEllipse).Ok := by
    constructor
    · show 0 < E.a
      rw [ea]; exact hr
    · show 0 < E.b
      rw [eb]; exact hr
    · show _ < E.eps
      rw [ee]; norm_num
    · show E.eps < _
      rw [ee]; norm_num
  have e := toPts_minkSum_disc hod hE (show E.a = E.b by rw [ea, eb])
  have e2 : toPts (o.minkSum2D { E with px := 0, py := 0 } 1) = grownCircle r o := by
    rw [e]
    show grownCircle E.a o = _
    rw [ea]
  rw [← e2]
  exact List.mem_map.2 ⟨o, ho, rfl⟩

/-- **C88 (partial)** A planar planner whose robot has a disc as base, among disc-shaped obstacles. On every path it
returns, between the second and the last but one configuration, the base overlaps no obstacle by more than the sag of the
sampled circle, plus 1e-6 on a step at one heading, plus half the spacing of the checked points on a step that changes the
heading. Assumed: the sweep lines and the checked points are at no vertex height, and no step at one heading touches the
boundary polygon of the obstacle accidentally (C17). Missing: links, and the first and last step (C31). -/
theorem C88_disc_overlap_partial (L : Libs2) (hpick : HeapTop L.pick) (hsvd : SvdOk L.svd) (base : SuperEllipse)
    (hbase : base.Disc) (ops : List (RobotOp SuperEllipse 2)) (robot : Tree2)
    (hrun : Tree2.run ops (Tree2.new base) = .ok robot)
    (arena obs : List SuperEllipse) (hne : arena ≠ [] ∨ obs ≠ [])
    (hobs : ∀ o ∈ obs, o.Disc ∧ 2 ≤ o.num ∧ o.num ≤ 10 ^ 7)
    (start goal : Vec) (hs : start.length = 3)
    (hg : goal.length = 3) (par : Param2) (hnp : 2 ≤ par.numPoint) (hns : par.numSlice ≠ 1)
    (clock : ℕ → ℝ) (timeLim : ℝ) (fuel : ℕ) (r' : PlanRep Planner2)
    (h : Planner2.plan L clock timeLim fuel (freshRep (.new robot arena obs start goal par)) = some (.ok r'))
    (hsol : r'.st.res.solved = true) :
    ∃ B mid, cspaceBoundary robot arena obs = .ok B ∧ r'.solvedPath = start :: (mid ++ [goal]) ∧ mid ≠ [] ∧
      (SweepGeneric L par B →
        (∀ v ∈ mid, ∃ x y t, v = [x, y, t] ∧ ∀ o ∈ obs, overlap base.a o (x, y) ≤ sag base.a o) ∧
        ∀ (k : ℕ) (a b : Vec), mid[k]? = some a → mid[k + 1]? = some b →
          ∃ x1 y1 t1 x2 y2 t2, a = [x1, y1, t1] ∧ b = [x2, y2, t2] ∧
            ∀ o ∈ obs, NoTouch (grownCircle base.a o) (x1, y1) (x2, y2) →
              (∀ k < par.numPoint, ∀ v ∈ grownCircle base.a o, v.2 ≠ onWay par.numPoint k y1 y2) →
              (t1 = t2 ∧ ∀ s, 0 ≤ s → s ≤ 1 →
                overlap base.a o (wayPoint (x1, y1) (x2, y2) s) ≤ sag base.a o + 1 / 10 ^ 6) ∨
              ∀ s, 0 ≤ s → s ≤ 1 → overlap base.a o (wayPoint (x1, y1) (x2, y2) s) ≤
                sag base.a o + dist2 (x1, y1) (x2, y2) / (2 * ((par.numPoint : ℝ) - 1))) := by
  obtain ⟨B, mid, hB, hpath, hm, hsafe⟩ := C86_planar_path_safe_partial L hpick base ops robot hrun arena obs hne
    (fun o ho => by have := (hobs o ho).2.1; omega) start goal hs hg par (by omega) hns clock timeLim fuel r' h hsol
  refine ⟨B, mid, hB, hpath, hm, fun hgen => ?_⟩
  obtain ⟨hv, hstep⟩ := hsafe hgen
  have hr := hbase.radius
  have hbsame : robot.base.a = base.a ∧ robot.base.b = base.b ∧ robot.base.eps = base.eps := by
    have := (run_inv_of hrun).base
    exact ⟨this.1, this.2.1, this.2.2.1⟩
  have hrok : robot.base.Ok := by
    have := Disc_ok hbase
    exact ⟨by rw [hbsame.1]; exact this.a, by rw [hbsame.2.1]; exact this.b, by rw [hbsame.2.2]; exact this.lo,
      by rw [hbsame.2.2]; exact this.hi⟩
  have hmem : ∀ o ∈ obs, grownCircle base.a o ∈ B.obstacle := by
    intro o ho
    have := base_boundary hB ho
    rwa [toPts_minkSum_disc (hobs o ho).1 hrok (by rw [hbsame.1, hbsame.2.1]; exact hbase.round), hbsame.1] at this
  refine ⟨fun v hvm => ?_, fun k a b hka hkb => ?_⟩
  · obtain ⟨x, y, t, e, hout⟩ := hv v hvm
    exact ⟨x, y, t, e, fun o ho => overlap_le_of_not_inSlice hr (hobs o ho).1 (hobs o ho).2.1 (hobs o ho).2.2
      (hout _ (hmem o ho))⟩
  · obtain ⟨x1, y1, t1, x2, y2, t2, e1, e2, hcase⟩ := hstep k a b hka hkb
    refine ⟨x1, y1, t1, x2, y2, t2, e1, e2, fun o ho hnt hgp => ?_⟩
    obtain ⟨hod, ho2, ho7⟩ := hobs o ho
    have hin : ∀ v ∈ mid, ∀ x y t, v = [x, y, t] → ¬ InSlice (grownCircle base.a o) (x, y) := by
      intro v hvm x y t e
      obtain ⟨x', y', t', e', hout⟩ := hv v hvm
      rw [e] at e'
      injection e' with e1 e'
      injection e' with e2 e'
      subst e1 e2
      exact hout _ (hmem o ho)
    have hcheck : ∀ (i j : ℕ) (u1 w1 s1 u2 w2 s2 : ℝ),
        (∀ k < par.numPoint, StepClear L obs base (addedBodies ops) par.numPoint (heading par.numSlice i)
          (heading par.numSlice j) u1 w1 s1 u2 w2 s2 k) →
        (∀ k < par.numPoint, ∀ v ∈ grownCircle base.a o, v.2 ≠ onWay par.numPoint k w1 w2) →
        ∀ k < par.numPoint, overlap base.a o (onWay par.numPoint k u1 u2, onWay par.numPoint k w1 w2) ≤ sag base.a o := by
      intro i j u1 w1 s1 u2 w2 s2 hcl hg2 k hk
      obtain ⟨⟨E, hE, hfree⟩, -⟩ := hcl k hk
      obtain ⟨ea, eb, ee⟩ := tfe_disc hsvd hbase hE
      have hsh : grownCircle base.a o ∈ bridgeBound obs E := bridge_disc hr ea eb ee ho hod
      refine overlap_le_of_not_inSlice hr hod ho2 ho7 (not_inSlice_of_free hfree hsh ?_ ?_ (hg2 k hk))
      · exact (hgen.convex _ (hmem o ho)).1
      · exact (hgen.convex _ (hmem o ho)).2
    rcases hcase with ⟨ht, hw⟩ | ⟨ht, hrow⟩ | ⟨i, hi, j, hj, -, hw⟩
    · refine Or.inl ⟨ht, fun s s0 s1 => ?_⟩
      have := overlap_le_of_outside hr hod ho2 ho7 (hw _ (hmem o ho) hnt s s0 s1)
      linarith [show (0 : ℝ) < 1 / 10 ^ 6 by norm_num]
    · exact Or.inl ⟨ht, overlap_row hr hod ho2 ho7 (hmem o ho) hrow (hin a (List.mem_of_getElem? hka) _ _ _ e1)
        (hin b (List.mem_of_getElem? hkb) _ _ _ e2)⟩
    · refine Or.inr ?_
      rcases hw with ⟨rfl, rfl, hw⟩ | ⟨rfl, rfl, hw⟩
      · exact overlap_between hnp (p := (x1, y1)) (q := (x2, y2)) (hcheck i j _ _ _ _ _ _ hw hgp)
      · have hrev := overlap_between hnp (p := (x2, y2)) (q := (x1, y1)) (hcheck i j _ _ _ _ _ _ hw (by
          intro k hk v hv'
          rw [onWay_rev hk hnp]
          exact hgp _ (by omega) v hv'))
        intro s s0 s1
        have := hrev (1 - s) (by linarith) (by linarith)
        rw [wayPoint_rev, dist2_comm, show (1 : ℝ) - (1 - s) = s by ring] at this
        exact this

/-- The hypotheses of `C88_disc_overlap_partial` are met together: a robot that is a disc of radius 2, a disc-shaped
obstacle of radius 1, a planner that returns a path with two or more inner configurations; at each of them the robot
overlaps the obstacle by at most the sag of the circle sampled at eight points. -/
example (sort : StdSort ℝ) (qr : QrSolve ℝ) (pick : ℕ → (ℕ → ℝ) → List ℕ → ℕ)
    (hpick : HeapTop pick) (clock : ℕ → ℝ) (timeLim : ℝ) : ∃ (L : Libs2) (par : Param2) (start goal : Vec)
    (r' : PlanRep Planner2) (mid : List Vec),
    Planner2.plan L clock timeLim 0
      (freshRep (.new (Tree2.new ⟨2, 2, 1, 0, 0, 0, 50⟩) [exCircle 20] [exObs86] start goal par)) = some (.ok r') ∧
    r'.solvedPath = start :: (mid ++ [goal]) ∧ 2 ≤ mid.length ∧
    ∀ v ∈ mid, ∃ x y t, v = [x, y, t] ∧ overlap 2 exObs86 (x, y) ≤ 3 * (1 - Real.cos (Real.pi / 7)) := by
  obtain ⟨svd, hsvd⟩ := exists_svd 2
  have hd : (⟨2, 2, 1, 0, 0, 0, 50⟩ : SuperEllipse).Disc := ⟨by norm_num, rfl, rfl⟩
  obtain ⟨dmin, dmax, par, start, goal, r', B, hplan, hsol, hs, hg, -, hnp, hns, hB, -, hgen, hlen⟩ :=
    C86_witness ⟨2, 2, 1, 0, 0, 0, 50⟩ (Disc_ok hd) sort qr svd pick hpick clock timeLim
  obtain ⟨B', mid, hB', hpath, hm, hall⟩ := C88_disc_overlap_partial ⟨sort, dmin, dmax, qr, svd, pick⟩ hpick hsvd _ hd [] _ rfl
    [exCircle 20] [exObs86] (Or.inl (by simp)) (by
      intro o ho
      obtain rfl := List.mem_singleton.1 ho
      exact ⟨⟨by norm_num [exObs86], rfl, rfl⟩, by norm_num [exObs86], by norm_num [exObs86]⟩) start goal hs hg par hnp (by omega)
    clock timeLim 0 r' hplan hsol
  obtain rfl := (Res.ok.injEq _ _).mp (hB.symm.trans hB')
  refine ⟨_, par, start, goal, r', mid, hplan, hpath, ?_, fun v hv => ?_⟩
  · rw [hpath] at hlen
    simp only [List.length_cons, List.length_append, List.length_nil] at hlen
    omega
  · obtain ⟨x, y, t, e, ho⟩ := (hall hgen).1 v hv
    refine ⟨x, y, t, e, ?_⟩
    have := ho exObs86 (by simp)
    have e2 : sag 2 exObs86 = 3 * (1 - Real.cos (Real.pi / 7)) := by
      unfold sag exObs86
      norm_num
    rwa [e2] at this

end Hrm
