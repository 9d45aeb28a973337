import Verif.Spec.Planner2D
import Verif.Lemmas.MultiBody
import Verif.Lemmas.Rotation
import Verif.Lemmas.Roadmap
import Verif.Props.Sweep
import Mathlib.Analysis.Real.Pi.Bounds

/-! # The planar planner object: poses, boundaries, sweep, slices -/

namespace Hrm

open Matrix

theorem hrmPi_pos : 0 < hrmPi := by unfold hrmPi; norm_num

theorem hrmPi_lt_pi : hrmPi < Real.pi := by
  have := Real.pi_gt_d20
  unfold hrmPi
  norm_num at this ⊢
  linarith

/-- A rotation by an angle in `(-π, π]` has this angle. -/
theorem matAngle_rot2 {th : ℝ} (h1 : -Real.pi < th) (h2 : th ≤ Real.pi) : matAngle (rot2 th) = th := by
  have e : (⟨rot2 th 0 0, rot2 th 1 0⟩ : ℂ) = Complex.cos th + Complex.sin th * Complex.I := by
    apply Complex.ext <;>
      simp [rot2, Complex.cos_ofReal_re, Complex.sin_ofReal_re, Complex.cos_ofReal_im, Complex.sin_ofReal_im]
  unfold matAngle
  rw [e]
  exact Complex.arg_cos_add_sin_mul_I ⟨h1, h2⟩

namespace Tree2

/-- The robot with the given bodies placed at `g`. -/
noncomputable def posed (base : SuperEllipse) (added : List SuperEllipse) (g : Pose 2) : Tree2 :=
  ⟨place base g, added.length, added.map fun l => place l (g.mul ⟨rot2 l.ang, ![l.px, l.py]⟩),
    added.map fun l => ⟨rot2 l.ang, ![l.px, l.py]⟩⟩

theorem place_congr {E F : SuperEllipse} (h : E.Same F) (g : Pose 2) : place E g = place F g := by
  obtain ⟨h1, h2, h3, h4⟩ := h
  unfold place
  rw [h1, h2, h3, h4]

theorem Inv.posed_eq {base added T} (h : Inv base added T) (g : Pose 2) :
    T.robotTF g = .ok (posed base added g) := by
  rw [robotTF_eq T g (h.len.trans h.num.symm) h.tflen]
  congr 1
  have hlink : List.zipWith (fun l t => place l (g.mul t)) T.link T.tf =
      added.map fun l => place l (g.mul ⟨rot2 l.ang, ![l.px, l.py]⟩) := by
    apply List.ext_getElem?
    intro i
    rw [List.getElem?_zipWith, h.tf, List.getElem?_map, List.getElem?_map]
    cases e : added[i]? with
    | none => cases T.link[i]? <;> rfl
    | some l =>
      have hi : i < T.link.length := by rw [h.len]; exact (List.getElem?_eq_some_iff.1 e).1
      rw [List.getElem?_eq_getElem hi]
      simp only [Option.map_some, Option.some.injEq]
      exact place_congr (h.same i l _ e (List.getElem?_eq_getElem hi)) _
  unfold posed
  rw [hlink, place_congr h.base, h.tf, h.num]

theorem posed_inv (base : SuperEllipse) (added : List SuperEllipse) (g : Pose 2) :
    Inv base added (posed base added g) := by
  refine ⟨⟨rfl, rfl, rfl, rfl⟩, rfl, rfl, by simp [posed], ?_⟩
  intro i l l' e1 e2
  simp only [posed, List.getElem?_map, e1, Option.map_some, Option.some.injEq] at e2
  rw [← e2]
  exact ⟨rfl, rfl, rfl, rfl⟩

end Tree2

theorem setTransform2_eq {base added T} (h : Tree2.Inv base added T) (x y th : ℝ) :
    setTransform2 T [x, y, th] = .ok (Tree2.posed base added ⟨rot2 th, ![x, y]⟩) := h.posed_eq _

/-! ## Boundaries -/

theorem Tree2.Inv.minkSum_ok {base added T} (h : Tree2.Inv base added T) (s : SuperEllipse) (k : ℤ) :
    ∃ B, T.minkSum s k = .ok B ∧ B.length = 1 + added.length ∧ ∀ b ∈ B, b.length = s.num := by
  have hone : ∀ i < T.numLinks, ∃ b, T.minkLink s k i = .ok b ∧ b.length = s.num := by
    intro i hi
    have h1 : i < T.link.length := by rw [h.len, ← h.num]; exact hi
    have h2 : i < T.tf.length := by rw [h.tflen]; exact hi
    refine ⟨_, by
      unfold Tree2.minkLink
      rw [Res.at'_eq_ok.2 (List.getElem?_eq_getElem h1), Res.bind_ok',
        Res.at'_eq_ok.2 (List.getElem?_eq_getElem h2), Res.bind_ok'], ?_⟩
    simp [SuperEllipse.minkSum2D]
  choose! f hf using hone
  refine ⟨_, appendLoop _ f _ (fun i hi => (hf i hi).1) _, ?_, ?_⟩
  · simp [h.num]; omega
  · intro b hb
    rw [List.mem_append] at hb
    rcases hb with hb | hb
    · simp only [List.mem_singleton] at hb
      subst hb; simp [SuperEllipse.minkSum2D]
    · rw [List.mem_map] at hb
      obtain ⟨i, hi, rfl⟩ := hb
      exact (hf i (List.mem_range.1 hi)).2

theorem bodyBoundaries_ok {base added T} (h : Tree2.Inv base added T) (k : ℤ) (objs : List SuperEllipse) :
    ∃ B, bodyBoundaries T objs k = .ok B ∧ B.length = (1 + added.length) * objs.length ∧
      ∀ b ∈ B, ∃ o ∈ objs, b.length = o.num := by
  induction objs using List.reverseRecOn with
  | nil => exact ⟨[], rfl, by simp, by simp⟩
  | append_singleton objs o ih =>
    obtain ⟨B, e, hl, hm⟩ := ih
    obtain ⟨C, e2, hl2, hm2⟩ := h.minkSum_ok o k
    refine ⟨B ++ C.map toPts, ?_, ?_, ?_⟩
    · unfold bodyBoundaries at e ⊢
      rw [List.foldlM_append, e]
      simp [e2]
    · simp [hl, hl2]; ring
    · intro b hb
      rw [List.mem_append] at hb
      rcases hb with hb | hb
      · obtain ⟨o', h1, h2⟩ := hm b hb
        exact ⟨o', by simp [h1], h2⟩
      · rw [List.mem_map] at hb
        obtain ⟨c, hc, rfl⟩ := hb
        exact ⟨o, by simp, by simp [toPts, hm2 c hc]⟩

theorem cspaceBoundary_ok {base added T} (h : Tree2.Inv base added T) (arena obs : List SuperEllipse) :
    ∃ B, cspaceBoundary T arena obs = .ok B ∧ B.arena.length = (1 + added.length) * arena.length ∧
      B.obstacle.length = (1 + added.length) * obs.length ∧
      (∀ b ∈ B.arena, ∃ o ∈ arena, b.length = o.num) ∧ ∀ b ∈ B.obstacle, ∃ o ∈ obs, b.length = o.num := by
  obtain ⟨A, e1, l1, m1⟩ := bodyBoundaries_ok h (-1) arena
  obtain ⟨O, e2, l2, m2⟩ := bodyBoundaries_ok h 1 obs
  exact ⟨⟨A, O⟩, by simp [cspaceBoundary, e1, e2], l1, l2, m1, m2⟩

/-! ## Sweep -/

theorem table_unique {K Line Shape : Type*} [LinearOrder K] {isect : Line → Shape → List K} {lowB upB : K}
    {arena obs : List Shape} {t t' : Table K} {n na no na' no' : ℕ} {ys : List Line} (hn : ys.length = n)
    (h : t.Shape n na no) (h' : t'.Shape n na' no')
    (f : ∀ k y, ys[k]? = some y → FilledRow isect lowB upB arena obs t k y)
    (f' : ∀ k y, ys[k]? = some y → FilledRow isect lowB upB arena obs t' k y) : t = t' := by
  have key : ∀ {β : Type _} (l l' : List β), l.length = n → l'.length = n →
      (∀ k, k < n → l[k]? = l'[k]?) → l = l' := by
    intro β l l' e e' hk
    apply List.ext_getElem?
    intro k
    rcases Nat.lt_or_ge k n with h | h
    · exact hk k h
    · rw [List.getElem?_eq_none_iff.2 (by omega), List.getElem?_eq_none_iff.2 (by omega)]
  obtain ⟨a1, a2, a3, a4⟩ := t
  obtain ⟨b1, b2, b3, b4⟩ := t'
  have g : ∀ k, k < n → ∃ y, ys[k]? = some y := fun k hk => ⟨_, List.getElem?_eq_getElem (by omega)⟩
  have e1 : a1 = b1 := key _ _ h.al h'.al fun k hk => by
    obtain ⟨y, hy⟩ := g k hk
    exact (f k y hy).1.trans (f' k y hy).1.symm
  have e2 : a2 = b2 := key _ _ h.au h'.au fun k hk => by
    obtain ⟨y, hy⟩ := g k hk
    exact (f k y hy).2.1.trans (f' k y hy).2.1.symm
  have e3 : a3 = b3 := key _ _ h.ol h'.ol fun k hk => by
    obtain ⟨y, hy⟩ := g k hk
    exact (f k y hy).2.2.1.trans (f' k y hy).2.2.1.symm
  have e4 : a4 = b4 := key _ _ h.ou h'.ou fun k hk => by
    obtain ⟨y, hy⟩ := g k hk
    exact (f k y hy).2.2.2.trans (f' k y hy).2.2.2.symm
  subst e1 e2 e3 e4
  rfl

@[simp] theorem Param2.lines_length (p : Param2) : p.lines.length = p.numLineY := by simp [Param2.lines]

/-- On a table of the right shape, whatever it contains, the sweep delivers the same as on a fresh one. -/
theorem sweep_eq (L : Libs2) (p : Param2) (f : Fs2) (hp : p.numLineY ≠ 1)
    (hsh : f.table.Shape p.numLineY f.bound.arena.length f.bound.obstacle.length) :
    ∃ t, t.Shape p.numLineY f.bound.arena.length f.bound.obstacle.length ∧
      f.sweep L p = (sweep2D L.sort L.dmin L.dmax f.lowB f.upB f.bound.arena f.bound.obstacle p.lines).bind
        fun rows => .ok ({ f with table := t }, ⟨p.lines, rows⟩) := by
  obtain ⟨t, f1, f2, f3, -⟩ := fillLines_ok isect2D f.lowB f.upB f.bound.arena f.bound.obstacle p.numLineY p.lines 0
    f.table hsh (by simp) (fun y _ sh _ => isect2D_length_ne_one y sh)
  obtain ⟨t', f1', f2', f3', -⟩ := fillLines_ok isect2D f.lowB f.upB f.bound.arena f.bound.obstacle p.numLineY
    p.lines 0 _ (setup_shape p.numLineY f.bound.arena.length f.bound.obstacle.length f.lowB f.upB) (by simp)
    (fun y _ sh _ => isect2D_length_ne_one y sh)
  obtain rfl : t = t' := table_unique (ys := p.lines) p.lines_length f2 f2' (fun k y hy => by simpa using f3 k y hy)
    (fun k y hy => by simpa using f3' k y hy)
  refine ⟨t, f2, ?_⟩
  unfold Fs2.sweep sweep2D
  rw [if_neg hp, f1]
  simp only [Param2.lines_length, f1', Res.bind_ok, Res.bind_ok']

/-! ## Headings -/

theorem headings2_get {n : ℕ} (hn : n ≠ 1) {i : ℕ} (hi : i < n) : (headings2 n)[i]? = some (some (heading n i)) := by
  simp [headings2, heading, hn, hi]

@[simp] theorem headings2_length (n : ℕ) : (headings2 n).length = n := by simp [headings2]

theorem heading_bounds {n : ℕ} (hn : n ≠ 1) {i : ℕ} (hi : i < n) : -hrmPi ≤ heading n i ∧ heading n i ≤ hrmPi := by
  have h2 : 2 ≤ n := by omega
  have hn1 : (0 : ℝ) < (n : ℝ) - 1 := by
    have : (2 : ℝ) ≤ n := by exact_mod_cast h2
    linarith
  have hpi := hrmPi_pos
  have hle : (i : ℝ) ≤ (n : ℝ) - 1 := by
    have : (i : ℝ) + 1 ≤ n := by exact_mod_cast hi
    linarith
  unfold heading
  constructor
  · have : 0 ≤ 2 * hrmPi / ((n : ℝ) - 1) * i := by positivity
    linarith
  · have : 2 * hrmPi / ((n : ℝ) - 1) * i ≤ 2 * hrmPi := by
      rw [div_mul_eq_mul_div, div_le_iff₀ hn1]
      have := mul_le_mul_of_nonneg_left hle (by linarith : (0 : ℝ) ≤ 2 * hrmPi)
      linarith
    linarith

theorem matAngle_heading {n : ℕ} (hn : n ≠ 1) {i : ℕ} (hi : i < n) :
    matAngle (rot2 (heading n i)) = heading n i := by
  obtain ⟨h1, h2⟩ := heading_bounds hn hi
  have := hrmPi_lt_pi
  exact matAngle_rot2 (by linarith) (by linarith)

end Hrm
