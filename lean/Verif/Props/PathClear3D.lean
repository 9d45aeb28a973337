import Verif.Props.Escape
import Verif.Props.Sweep3D
import Verif.Props.ProbCheck

/-!
# C87: the returned spatial path, step by step, against the obstacle meshes

Composition of C73 (the returned path and its checks), the sweep, the same-slice check and C53 (the check between slices).
Nothing is assumed of the shape of the meshes: see `Verif/Spec/Escape.lean`.
-/

set_option linter.unusedVariables false

namespace Hrm

open Classical

/-- A row of free intervals whose points all satisfy `F`: between neighbouring samples whose intervals are closer than
1e-6, every point satisfies `F` but for a stretch shorter than that. -/
theorem row_gap {r : SegRow ℝ} {F : ℝ → Prop}
    (hT : ∃ T : List (ℝ × ℝ × ℝ), r.L = T.map (·.1) ∧ r.M = T.map (·.2.1) ∧ r.U = T.map (·.2.2) ∧
      ∀ t ∈ T, t.1 ≤ t.2.1 ∧ t.2.1 ≤ t.2.2)
    (hsound : ∀ (k : ℕ) (l u z : ℝ), r.L[k]? = some l → r.U[k]? = some u → l ≤ z → z ≤ u → F z)
    {j : ℕ} {x x' u l : ℝ} (hx : r.M[j]? = some x) (hx' : r.M[j + 1]? = some x') (hu : r.U[j]? = some u)
    (hl : r.L[j + 1]? = some l) (hclose : |u - l| < 1 / 10 ^ 6) :
    (F x ∧ F x') ∧ ∃ c d, c ≤ d ∧ d - c < 1 / 10 ^ 6 ∧ ∀ z, min x x' ≤ z → z ≤ max x x' → (c < z ∧ z < d) ∨ F z := by
  obtain ⟨T, t1, t2, t3, t4⟩ := hT
  have get : ∀ (k : ℕ) (m : ℝ), r.M[k]? = some m → ∃ lo hi, r.L[k]? = some lo ∧ r.U[k]? = some hi ∧ lo ≤ m ∧ m ≤ hi := by
    intro k m hm
    rw [t2, List.getElem?_map] at hm
    cases hT : T[k]? with
    | none => simp [hT] at hm
    | some t =>
      rw [hT] at hm
      simp only [Option.map_some, Option.some.injEq] at hm
      subst hm
      exact ⟨t.1, t.2.2, by rw [t1, List.getElem?_map, hT]; rfl, by rw [t3, List.getElem?_map, hT]; rfl,
        t4 t (List.mem_of_getElem? hT)⟩
  obtain ⟨l0, u0, a1, a2, a3, a4⟩ := get j x hx
  obtain ⟨l1, u1, b1, b2, b3, b4⟩ := get (j + 1) x' hx'
  rw [hu] at a2
  obtain rfl := Option.some.inj a2
  rw [hl] at b1
  obtain rfl := Option.some.inj b1
  have hc := abs_lt.1 hclose
  refine ⟨⟨hsound j l0 u x a1 hu a3 a4, hsound (j + 1) l u1 x' hl b2 b3 b4⟩, ?_⟩
  rcases le_total x x' with hxx | hxx
  · rw [min_eq_left hxx, max_eq_right hxx]
    rcases le_total l u with hlu | hlu
    · refine ⟨l, l, le_rfl, by norm_num, fun z hz1 hz2 => Or.inr ?_⟩
      rcases le_total z u with hzu | hzu
      · exact hsound j l0 u z a1 hu (a3.trans hz1) hzu
      · exact hsound (j + 1) l u1 z hl b2 (hlu.trans hzu) (hz2.trans b4)
    · refine ⟨u, l, hlu, by linarith, fun z hz1 hz2 => ?_⟩
      rcases le_or_gt z u with hzu | hzu
      · exact Or.inr (hsound j l0 u z a1 hu (a3.trans hz1) hzu)
      · rcases le_or_gt l z with hlz | hlz
        · exact Or.inr (hsound (j + 1) l u1 z hl b2 hlz (hz2.trans b4))
        · exact Or.inl ⟨hzu, hlz⟩
  · rw [min_eq_right hxx, max_eq_left hxx]
    refine ⟨x', x, hxx, by linarith, fun z hz1 hz2 => ?_⟩
    rcases hz1.lt_or_eq with h1 | h1
    · rcases hz2.lt_or_eq with h2 | h2
      · exact Or.inl ⟨h1, h2⟩
      · exact Or.inr (hsound j l0 u z a1 hu (by rw [h2]; exact a3) (by rw [h2]; exact a4))
    · exact Or.inr (hsound (j + 1) l u1 z hl b2 (by rw [← h1]; exact b3) (by rw [← h1]; exact b4))

/-- The meshes and the limits are in general position for the sweep: every sweep line is generic for every obstacle mesh,
and the arena meshes are within the range of machine numbers. -/
structure SweepGeneric3 (L : Libs3) (par : Param3) (M : BoundMesh) : Prop where
  linesY : par.numLineY ≠ 0
  arena : M.arena ≠ []
  low : L.dmin ≤ par.zLo
  upp : par.zHi ≤ L.dmax
  range : ∀ m ∈ M.arena, m.WF ∧ ∀ x ∈ par.linesX, ∀ y ∈ par.linesY, ∀ a b c z, m.HasFace a b c →
    InTriangle triTol a b c ⟨x, y, z⟩ → L.dmin ≤ z ∧ z ≤ L.dmax
  obstacle : ∀ m ∈ M.obstacle, m.WF ∧ ∀ x ∈ par.linesX, ∀ y ∈ par.linesY, GenericLine triTol (vertical x y 0) m

theorem sweep3D_planes {L : Libs3} {lowB upB : ℝ} {M : BoundMesh} {ys : List ℝ} :
    ∀ (xs : List ℝ) (acc segs : List (ℝ × FreeSeg)),
      xs.foldlM (fun acc x => (planeSeg L lowB upB M ys x).bind fun s => Res.ok (acc ++ [(x, s)])) acc = .ok segs →
      ∀ p ∈ segs, p ∈ acc ∨ (p.1 ∈ xs ∧ planeSeg L lowB upB M ys p.1 = .ok p.2) := by
  intro xs
  induction xs with
  | nil =>
    intro acc segs h p hp
    have : acc = segs := (Res.ok.injEq _ _).mp h
    exact Or.inl (this ▸ hp)
  | cons x xs ih =>
    intro acc segs h p hp
    rw [List.foldlM_cons] at h
    obtain ⟨acc', h1, h2⟩ := Res.bind_eq_ok.1 h
    obtain ⟨s, h3, h4⟩ := Res.bind_eq_ok.1 h1
    obtain rfl := (Res.ok.injEq _ _).mp h4
    rcases ih _ _ h2 p hp with h5 | ⟨h5, h6⟩
    · rcases List.mem_append.1 h5 with h5 | h5
      · exact Or.inl h5
      · obtain rfl := List.mem_singleton.1 h5
        exact Or.inr ⟨by simp, h3⟩
    · exact Or.inr ⟨by simp [h5], h6⟩

/-- **C87** The spatial sweep without convexity: no point of a delivered interval has a face of an obstacle mesh both
strictly above and strictly below it. -/
theorem C87_sweep_columns {L : Libs3} {par : Param3} {M : BoundMesh} (hg : SweepGeneric3 L par M)
    {segs : List (ℝ × FreeSeg)} (hsegs : sweep3D L par.zLo par.zHi M par.linesX par.linesY = .ok segs)
    (p : ℝ × FreeSeg) (hp : p ∈ segs) (j : ℕ) (y : ℝ) (r : SegRow ℝ) (hy : p.2.ty[j]? = some y)
    (hr : p.2.rows[j]? = some r) :
    p.1 ∈ par.linesX ∧ y ∈ par.linesY ∧
    (∃ T : List (ℝ × ℝ × ℝ), r.L = T.map (·.1) ∧ r.M = T.map (·.2.1) ∧ r.U = T.map (·.2.2) ∧
      ∀ t ∈ T, t.1 ≤ t.2.1 ∧ t.2.1 ≤ t.2.2) ∧
    ∀ (k : ℕ) (l u z : ℝ), r.L[k]? = some l → r.U[k]? = some u → l ≤ z → z ≤ u →
      ∀ m ∈ M.obstacle, ¬ Covered m p.1 y z := by
  rcases sweep3D_planes _ _ _ hsegs p hp with h | ⟨hx, hpl⟩
  · exact nomatch h
  have hpl0 := hpl
  unfold planeSeg at hpl
  obtain ⟨t0, e1, hpl⟩ := Res.bind_eq_ok.1 hpl
  obtain ⟨rows0, e2, hpl⟩ := Res.bind_eq_ok.1 hpl
  have e3 := (Res.ok.injEq _ _).mp hpl
  have hG := fillLinesR_good _ e1
  have hys : par.linesY ≠ [] := by
    intro h
    have := congrArg List.length h
    rw [Param3.linesY_length] at this
    exact hg.linesY this
  obtain ⟨t, rows, f1, f2, f3, f4, f5⟩ := fillLines_rows (hitsOf isect3) L.sort L.dmin L.dmax par.zLo par.zHi hg.low hg.upp
    M.arena M.obstacle (par.linesY.map fun y => (p.1, y)) (by simpa using hys) hg.arena
    (by
      intro l hl s hs q hq
      obtain ⟨y, hy, rfl⟩ := List.mem_map.1 hl
      obtain ⟨w, hrange⟩ := hg.range s hs
      obtain ⟨pts, e, -, hall⟩ := C20_vertical_sound triTol triTol_pos.le (vertical p.1 y 0) s w
      have e' : isect3 (p.1, y) s = .ok (pts.map V3.z) := by unfold isect3; rw [e]; rfl
      rw [hitsOf_eq e'] at hq
      obtain ⟨v, hv, rfl⟩ := List.mem_map.1 hq
      obtain ⟨⟨τ, hτ⟩, a, b, c, hf, hin⟩ := hall v hv
      have hv' : v = ⟨p.1, y, v.z⟩ := by
        rw [hτ]; simp [vertical]
      rw [hv'] at hin
      exact hrange p.1 hx y hy a b c v.z hf hin)
    (fun l hl s hs => (hG l hl s hs).ne)
  rw [fillLinesR_eq _ hG] at e1
  rw [List.length_map] at f1 f2 f3
  rw [f1] at e1
  obtain rfl := (Res.ok.injEq _ _).mp e1
  rw [f2] at e2
  obtain rfl := (Res.ok.injEq _ _).mp e2
  rw [← e3] at hy hr
  simp only at hy hr
  have hymem := List.mem_of_getElem? hy
  refine ⟨hx, hymem, f4 r (List.mem_of_getElem? hr), ?_⟩
  rintro k l u z hl hu h1 h2 m hm ⟨z1, z2, a1, a2, c1, c2⟩
  obtain ⟨w, hgen⟩ := hg.obstacle m hm
  obtain ⟨pts, e, hle, hall⟩ := vertLineMesh_generic triTol_pos.le triTol_lt w (hgen p.1 hx y hymem)
  have m1 := hall z1 c1
  have m2 := hall z2 c2
  have e' : isect3 (p.1, y) m = .ok (pts.map V3.z) := by unfold isect3; rw [e]; rfl
  have hsound := (f5 j (p.1, y) r (by rw [List.getElem?_map, hy]; rfl) hr).1 k l u z hl hu h1 h2 m hm
  rw [hitsOf_eq e'] at hsound
  match pts, hle, m1, m2 with
  | [], _, h, _ => simp at h
  | [q], _, h, h' =>
    have g1 := congrArg V3.z (List.mem_singleton.1 h)
    have g2 := congrArg V3.z (List.mem_singleton.1 h')
    simp only at g1 g2
    linarith
  | [q, q'], _, m1, m2 =>
    refine hsound q.z q'.z [] rfl ⟨?_, ?_⟩
    · refine lt_of_le_of_lt ?_ a1
      rcases List.mem_cons.1 m1 with h | h
      · rw [← h]; exact min_le_left _ _
      · rw [← List.mem_singleton.1 h]; exact min_le_right _ _
    · refine lt_of_lt_of_le a2 ?_
      rcases List.mem_cons.1 m2 with h | h
      · rw [← h]; exact le_max_left _ _
      · rw [← List.mem_singleton.1 h]; exact le_max_right _ _
  | _ :: _ :: _ :: _, hle, _, _ => simp at hle

/-- The point is on the surface of the mesh or can escape from it. -/
def Outside (m : Mesh) (p : V3) : Prop := OnMesh m p ∨ Escapes m p

theorem outside_of_not_covered {m : Mesh} {x y z : ℝ} (h : ¬ Covered m x y z) : Outside m ⟨x, y, z⟩ := by
  by_cases hm : OnMesh m ⟨x, y, z⟩
  · exact Or.inl hm
  · exact Or.inr (escapes_of_not_covered h hm)

/-- **C87** Every configuration sampled on a sweep line is outside every obstacle mesh. -/
theorem C87_sample_outside {L : Libs3} {par : Param3} {M : BoundMesh} (hg : SweepGeneric3 L par M)
    {segs : List (ℝ × FreeSeg)} (hsegs : sweep3D L par.zLo par.zHi M par.linesX par.linesY = .ok segs) (q : Quat) (v : Vec)
    (hv : LineSample3 segs q v) (m : Mesh) (hm : m ∈ M.obstacle) : Outside m (toV3 (posPart v)) := by
  obtain ⟨p, hp, j, y, r, z, hy, hr, hz, rfl⟩ := hv
  obtain ⟨-, -, ⟨T, t1, t2, t3, t4⟩, h⟩ := C87_sweep_columns hg hsegs p hp j y r hy hr
  rw [t2] at hz
  obtain ⟨t, ht, rfl⟩ := List.mem_map.1 hz
  obtain ⟨k, hk⟩ := List.mem_iff_getElem?.1 ht
  have := h k t.1 t.2.2 t.2.1 (by rw [t1, List.getElem?_map, hk]; rfl) (by rw [t3, List.getElem?_map, hk]; rfl)
    (t4 t ht).1 (t4 t ht).2 m hm
  exact outside_of_not_covered this

/-- The step from `p` to `q` is in general position for the mesh: neither end is on a face, the line through them meets at
most two faces and grazes none, and no direction component is a tiny non-zero number. -/
structure StepGeneric3 (m : Mesh) (p q : V3) : Prop where
  wf : m.WF
  ends : ¬ OnMesh m p ∧ ¬ OnMesh m q
  line : GenericLine triTol (segLine p q) m
  axis : ∀ w ∈ [(segLine p q).d.x, (segLine p q).d.y, (segLine p q).d.z], w = 0 ∨ axisTol ≤ |w|

theorem segLine_swap (p q : V3) : (segLine q p).d = V3.smul (-1) (segLine p q).d := by
  have e : (p.sub q).dot (p.sub q) = (q.sub p).dot (q.sub p) := by unfold V3.sub V3.dot; simp only; ring
  have en : (p.sub q).norm = (q.sub p).norm := by unfold V3.norm; rw [e]
  unfold segLine V3.normalize
  simp only
  rw [e, en]
  split
  · unfold V3.smul V3.sub; ext <;> simp only <;> ring
  · unfold V3.smul V3.sub; ext <;> simp only <;> ring

theorem onLine_swap {p q r : V3} (h : OnLine (segLine p q) r) : OnLine (segLine q p) r := by
  by_cases hne : p = q
  · subst hne; exact h
  obtain ⟨L, hL, hq, -⟩ := segLine_param hne
  obtain ⟨τ, hτ⟩ := h
  refine ⟨L - τ, ?_⟩
  rw [segLine_swap, hτ]
  have ho : (segLine q p).o = q := rfl
  have ho' : (segLine p q).o = p := rfl
  rw [ho, ho']
  have hx := congrArg V3.x hq; have hy := congrArg V3.y hq; have hz := congrArg V3.z hq
  unfold V3.add V3.smul at *
  simp only at *
  ext <;> simp only
  · rw [hx]; ring
  · rw [hy]; ring
  · rw [hz]; ring

theorem transversal_swap {tol : ℝ} {p q a b c : V3} (h : Transversal tol (segLine p q) a b c) :
    Transversal tol (segLine q p) a b c := by
  unfold Transversal at *
  rw [segLine_swap]
  have : ((b.sub a).cross (c.sub a)).dot (V3.smul (-1) (segLine p q).d) =
      -((b.sub a).cross (c.sub a)).dot (segLine p q).d := by
    unfold V3.dot V3.smul; simp only; ring
  rwa [this, abs_neg]

theorem GenericLine.swap {tol : ℝ} {m : Mesh} {p q : V3} (h : GenericLine tol (segLine p q) m) :
    GenericLine tol (segLine q p) m := by
  refine ⟨?_, fun a b c r hf hl hin => transversal_swap (h.2 a b c r hf (onLine_swap hl) hin)⟩
  refine le_trans (List.countP_mono_left ?_) h.1
  rintro f hf hmeet
  simp only [decide_eq_true_eq] at *
  obtain ⟨a, b, c, r, ha, hb, hc, h1, h2, h3⟩ := hmeet
  exact ⟨a, b, c, r, ha, hb, hc, transversal_swap h1, onLine_swap h2, h3⟩

theorem StepGeneric3.swap {m : Mesh} {p q : V3} (h : StepGeneric3 m p q) : StepGeneric3 m q p := by
  refine ⟨h.wf, h.ends.symm, h.line.swap, ?_⟩
  intro w hw
  rw [segLine_swap] at hw
  simp only [V3.smul, List.mem_cons, List.not_mem_nil, or_false] at hw
  have := h.axis
  simp only [List.mem_cons, List.not_mem_nil, or_false, forall_eq_or_imp, forall_eq] at this
  rcases hw with rfl | rfl | rfl
  · rcases this.1 with h | h
    · left; rw [h]; ring
    · right; rwa [neg_one_mul, abs_neg]
  · rcases this.2.1 with h | h
    · left; rw [h]; ring
    · right; rwa [neg_one_mul, abs_neg]
  · rcases this.2.2 with h | h
    · left; rw [h]; ring
    · right; rwa [neg_one_mul, abs_neg]

/-- The place of a configuration. -/
noncomputable def placeOf (v : Vec) : V3 := toV3 (posPart v)

/-- Both ends are on one vertical line and outside every one of the meshes (on its surface, or able to escape from it), and
so is every point of the way except for a stretch shorter than 1e-6. -/
def RowClear3 (obstacle : List Mesh) (p q : V3) : Prop :=
  p.x = q.x ∧ p.y = q.y ∧ (∀ m ∈ obstacle, Outside m p ∧ Outside m q) ∧ ∃ c d, c ≤ d ∧ d - c < 1 / 10 ^ 6 ∧
    ∀ z, min p.z q.z ≤ z → z ≤ max p.z q.z → (c < z ∧ z < d) ∨ ∀ m ∈ obstacle, Outside m ⟨p.x, p.y, z⟩

theorem RowClear3.symm {obstacle : List Mesh} {p q : V3} (h : RowClear3 obstacle p q) : RowClear3 obstacle q p := by
  obtain ⟨h1, h2, h0, c, d, h3, h4, h5⟩ := h
  refine ⟨h1.symm, h2.symm, fun m hm => (h0 m hm).symm, c, d, h3, h4, fun z a b => ?_⟩
  rw [← h1, ← h2]
  exact h5 z (by rwa [min_comm]) (by rwa [max_comm])

/-- **C87** Neighbouring samples of one vertical sweep line: both, and apart from a stretch shorter than 1e-6 the way between them, are
outside every obstacle mesh. -/
theorem C87_row_step {L : Libs3} {par : Param3} {M : BoundMesh} (hg : SweepGeneric3 L par M) {segs : List (ℝ × FreeSeg)}
    (hsegs : sweep3D L par.zLo par.zHi M par.linesX par.linesY = .ok segs) (p : ℝ × FreeSeg) (hp : p ∈ segs) (q : Quat)
    {a b : Vec} (h : RowNeighbours (fun y z => conf7 p.1 y z q) p.2 a b) :
    quatPart a = quatPart b ∧ RowClear3 M.obstacle (placeOf a) (placeOf b) := by
  obtain ⟨i, j, y, r, z, z', u, l, hy, hr, hz, hz', hu, hl, hclose, rfl, rfl⟩ := h
  obtain ⟨-, -, hT, hsound⟩ := C87_sweep_columns hg hsegs p hp i y r hy hr
  obtain ⟨⟨f1, f2⟩, c, d, h1, h2, h3⟩ := row_gap (F := fun z => ∀ m ∈ M.obstacle, ¬ Covered m p.1 y z) hT hsound hz hz' hu hl hclose
  refine ⟨rfl, rfl, rfl, fun m hm => ⟨outside_of_not_covered (f1 m hm), outside_of_not_covered (f2 m hm)⟩, c, d, h1, h2,
    fun w hw1 hw2 => ?_⟩
  exact (h3 w hw1 hw2).imp id fun h m hm => outside_of_not_covered (h m hm)

/-- The robot at configuration `u` is clear, as far as the check between slices can tell: for the bridging planner the
swept ellipsoids of all bodies are clear of the grown obstacles; for the ablated planner the collision library reports no
collision of a body with an obstacle. -/
def PoseClear3 (L : Libs3) (V : Variant) (obs : List SuperQuadrics) (base : SuperQuadrics) (added : List SuperQuadrics)
    (np : ℕ) (qa qb : Quat) (u : Vec) : Prop :=
  match V.fcl with
  | none => StepClear3 L obs base added np qa qb u
  | some hit => ∀ o ∈ obs, hit (bodyAt base (posPart u) (matQuat (quatRot (quatPart u)))) o = false ∧
      ∀ l ∈ added, hit (bodyAt l (centreAt3 l u) (matQuat (quatRot (quatPart u) * quatRot l.quat))) o = false

/-- What is known of a step from `a` to `b` of the path: either it is a translation at one orientation, all of whose points
can escape from every obstacle mesh for which the step is in general position; or a translation along a vertical sweep line
that is clear but for a stretch shorter than 1e-6; or, in one of the two directions, an interpolated motion from the
orientation `qb` of one slice to the orientation `qa` of another, at each of whose `numPoint + 1` configurations the robot
is clear according to the check made for `qa` and `qb`. -/
def StepSafe3 (L : Libs3) (V : Variant) (obs : List SuperQuadrics) (base : SuperQuadrics) (added : List SuperQuadrics)
    (par : Param3) (qs : List Quat) (M : BoundMesh) (a b : Vec) : Prop :=
  (quatPart a = quatPart b ∧ ∀ m ∈ M.obstacle, StepGeneric3 m (placeOf a) (placeOf b) →
    ∀ s, 0 ≤ s → s ≤ 1 → Escapes m (V3.comb s (placeOf a) (placeOf b))) ∨
  (quatPart a = quatPart b ∧ RowClear3 M.obstacle (placeOf a) (placeOf b)) ∨
  (CloseIn 0 (2 * (par.xHi - par.xLo) / par.numLineX) a b ∧ CloseIn 1 (2 * (par.yHi - par.yLo) / par.numLineY) a b ∧
    ∃ (i j : ℕ) (qa qb : Quat), qs[i]? = some qa ∧ qs[j]? = some qb ∧ ∃ steps,
      ((SameRotation (quatPart a) qb ∧ SameRotation (quatPart b) qa ∧ interpolateCompound a b par.numPoint = .ok (steps.map (·.map some)) ∧
          IsMotion a b par.numPoint steps) ∨
        (SameRotation (quatPart b) qb ∧ SameRotation (quatPart a) qa ∧ interpolateCompound b a par.numPoint = .ok (steps.map (·.map some)) ∧
          IsMotion b a par.numPoint steps)) ∧
      ∀ u ∈ steps, PoseClear3 L V obs base added par.numPoint qa qb u)

theorem CloseIn.symm {c : ℕ} {d : ℝ} {a b : Vec} (h : CloseIn c d a b) : CloseIn c d b a := by
  obtain ⟨x, y, h1, h2, h3⟩ := h
  exact ⟨y, x, h2, h1, by rwa [abs_sub_comm]⟩

theorem V3.comb_swap (s : ℝ) (p q : V3) : V3.comb s p q = V3.comb (1 - s) q p := by
  unfold V3.comb; ext <;> simp only <;> ring

theorem StepSafe3.symm {L : Libs3} {V : Variant} {obs : List SuperQuadrics} {base : SuperQuadrics}
    {added : List SuperQuadrics} {par : Param3} {qs : List Quat} {M : BoundMesh} {a b : Vec}
    (h : StepSafe3 L V obs base added par qs M a b) : StepSafe3 L V obs base added par qs M b a := by
  rcases h with ⟨h1, h2⟩ | ⟨h1, h2⟩ | ⟨h1, h2, i, j, qa, qb, h3, h4, steps, h5, h6⟩
  · refine Or.inl ⟨h1.symm, fun m hm hg s s0 s1 => ?_⟩
    rw [V3.comb_swap]
    exact h2 m hm hg.swap (1 - s) (by linarith) (by linarith)
  · exact Or.inr (Or.inl ⟨h1.symm, h2.symm⟩)
  · exact Or.inr (Or.inr ⟨h1.symm, h2.symm, i, j, qa, qb, h3, h4, steps, h5.symm, h6⟩)

/-- What is known of a vertex `v` of the path: it is outside every obstacle mesh, or it was inserted between two samples
`v1` and `v2` (one of them at the height of the other), and it can escape from every mesh for which the way from `v1` or the
way to `v2` is in general position. -/
def PlaceSafe3 (segs : List (ℝ × FreeSeg)) (q : Quat) (M : BoundMesh) (v : Vec) : Prop :=
  (∀ m ∈ M.obstacle, Outside m (placeOf v)) ∨
  ∃ v1 v2, LineSample3 segs q v1 ∧ LineSample3 segs q v2 ∧
    ((placeOf v = { placeOf v1 with z := (placeOf v2).z }) ∨ (placeOf v = { placeOf v2 with z := (placeOf v1).z })) ∧
    ∀ m ∈ M.obstacle, (StepGeneric3 m (placeOf v1) (placeOf v) ∨ StepGeneric3 m (placeOf v) (placeOf v2)) →
      Escapes m (placeOf v)

theorem sameFree3_conf7 {ms : List Mesh} {x y z x' y' z' : ℝ} {q q' : Quat} :
    sameFree3 ms (conf7 x y z q) (conf7 x' y' z' q') =
      sameSliceFree3D triTol axisTol ms (placeOf (conf7 x y z q)) (placeOf (conf7 x' y' z' q')) := rfl

theorem sampled_conf7 {ms : List Mesh} {segs : List (ℝ × FreeSeg)} {q : Quat} {v : Vec}
    (h : LineSample3 segs q v ∨ BridgeOf (sameFree3 ms) (LineSample3 segs q) v) :
    ∃ x y z, v = conf7 x y z (matQuat (quatRot q)) := by
  have hl : ∀ v, LineSample3 segs q v → ∃ x y z, v = conf7 x y z (matQuat (quatRot q)) := by
    rintro v ⟨p, -, j, y, r, z, -, -, -, rfl⟩
    exact ⟨_, _, _, rfl⟩
  rcases h with h | ⟨v1, v2, h1, h2, -, h | h, -⟩
  · exact hl v h
  · obtain ⟨w, -, rfl⟩ := h
    obtain ⟨x, y, z, rfl⟩ := hl v1 h1
    exact ⟨x, y, w, rfl⟩
  · obtain ⟨w, -, rfl⟩ := h
    obtain ⟨x, y, z, rfl⟩ := hl v2 h2
    exact ⟨x, y, w, rfl⟩

theorem unitPose_conf7 {q : Quat} (hq : q.Unit) (x y z : ℝ) : UnitPose (conf7 x y z (matQuat (quatRot q))) := by
  refine ⟨le_rfl, ?_⟩
  have e : quatPart (conf7 x y z (matQuat (quatRot q))) = matQuat (quatRot q) := rfl
  rw [e]
  obtain ⟨w, a, b, c⟩ := q
  unfold Quat.Unit at hq
  simp only at hq
  rcases sameRotation_matQuat (q := (w, a, b, c)) (by unfold Quat.Unit; exact hq) with h | h <;> rw [h] <;>
    unfold Quat.dot <;> simp only <;> linarith

theorem Outside.escapes {m : Mesh} {p : V3} (h : Outside m p) (h' : ¬ OnMesh m p) : Escapes m p := h.resolve_left h'

/-- One step accepted by the same-slice check from (or to) a point outside the mesh. -/
theorem slice_step_generic {ms : List Mesh} {p q : V3} (hacc : sameSliceFree3D triTol axisTol ms p q = .ok true) {m : Mesh}
    (hm : m ∈ ms) (hg : StepGeneric3 m p q) (ho : Outside m p ∨ Outside m q) (s : ℝ) (s0 : 0 ≤ s) (s1 : s ≤ 1) :
    Escapes m (V3.comb s p q) :=
  (C87_slice_step triTol axisTol triTol_pos.le triTol_lt ms p q hacc m hm hg.wf hg.axis hg.line hg.ends.1 hg.ends.2).2
    (ho.imp (·.escapes hg.ends.1) (·.escapes hg.ends.2)) s s0 s1

/-- **C87 (partial)** A path returned by a new spatial planner for a rigid robot (bridging or ablated): start, goal, and in
between configurations that are outside every obstacle mesh, joined by steps that are safe in the sense of `StepSafe3`. The
meshes are those the planner computes for the robot as it was given; nothing is assumed of their shape, only that the sweep
lines are in general position.
Missing: the first and the last step are not checked (C31); ways that touch a mesh or whose line meets more than two faces
(C22); between the `numPoint + 1` configurations of a step with changing orientation nothing is checked; the meshes have
their vertices on the true C-obstacle, they do not contain it (C47). -/
theorem C87_spatial_path_safe_partial (L : Libs3) (V : Variant) (hV : V.arm = none) (hpick : HeapTop L.pick)
    (base : SuperQuadrics) (ops : List (RobotOp SuperQuadrics 3)) (robot : Tree3)
    (hrun : Tree3.run ops (Tree3.new base) = .ok robot) (quats : List Quat)
    (arena obs : List SuperQuadrics) (hne : arena ≠ [] ∨ obs ≠ []) (start goal : Vec) (hs : start.length = 7)
    (hg : goal.length = 7) (par : Param3) (hnp : 1 ≤ par.numPoint) (hunit : ∀ q ∈ orientations L quats par, q.Unit)
    (clock : ℕ → ℝ) (timeLim : ℝ) (fuel : ℕ) (r' : PlanRep Planner3)
    (h : Planner3.plan L V clock timeLim fuel (freshRep3 (.new robot quats arena obs start goal par true)) =
      some (.ok r')) (hsol : r'.st.res.solved = true) :
    ∃ B M segs mid, cspaceBoundary3 robot arena obs = .ok B ∧ cspaceMesh arena obs B = .ok M ∧
      sweep3D L par.zLo par.zHi M par.linesX par.linesY = .ok segs ∧ r'.solvedPath = start :: (mid ++ [goal]) ∧ mid ≠ [] ∧
      (SweepGeneric3 L par M →
        (∀ v ∈ mid, ∃ q ∈ orientations L quats par, SameRotation (quatPart v) q ∧ PlaceSafe3 segs q M v) ∧
        ∀ (k : ℕ) (a b : Vec), mid[k]? = some a → mid[k + 1]? = some b →
          StepSafe3 L V obs base (addedBodies ops) par (orientations L quats par) M a b) := by
  obtain ⟨B, M, segs, mid, hB, hM, hsegs, hpath, hm, hsamp, hstep⟩ := C73_spatial_plan_end_to_end L V hV hpick base ops
    robot hrun quats arena obs hne start goal hs hg par clock timeLim fuel r' h hsol
  refine ⟨B, M, segs, mid, hB, hM, hsegs, hpath, hm, fun hgen => ⟨fun v hv => ?_, ?_⟩⟩
  · obtain ⟨q, hq, hv'⟩ := hsamp v hv
    refine ⟨q, hq, ?_, ?_⟩
    · obtain ⟨x, y, z, rfl⟩ := sampled_conf7 hv'
      exact sameRotation_matQuat (hunit q hq)
    rcases hv' with hv' | hb
    · exact Or.inl fun m hm => C87_sample_outside hgen hsegs q v hv' m hm
    · obtain ⟨x, y, z, e⟩ := sampled_conf7 (Or.inr hb)
      obtain ⟨v1, v2, h1, h2, hrej, hv', f1, f2⟩ := hb
      obtain ⟨x1, y1, z1, e1⟩ := sampled_conf7 (ms := M.obstacle) (Or.inl h1)
      obtain ⟨x2, y2, z2, e2⟩ := sampled_conf7 (ms := M.obstacle) (Or.inl h2)
      rw [e, e1, sameFree3_conf7, ← e, ← e1] at f1
      rw [e, e2, sameFree3_conf7, ← e, ← e2] at f2
      refine Or.inr ⟨v1, v2, h1, h2, ?_, fun m hm hgs => ?_⟩
      · refine hv'.imp ?_ ?_
        · rintro ⟨w, hw, hw'⟩
          rw [hw', e1, e2]
          rw [e2] at hw
          obtain rfl : z2 = w := Option.some.inj hw
          rfl
        · rintro ⟨w, hw, hw'⟩
          rw [hw', e1, e2]
          rw [e1] at hw
          obtain rfl : z1 = w := Option.some.inj hw
          rfl
      · rcases hgs with hgs | hgs
        · have := slice_step_generic f1 hm hgs (Or.inl (C87_sample_outside hgen hsegs q v1 h1 m hm)) 0 le_rfl zero_le_one
          rwa [V3.comb_zero] at this
        · have := slice_step_generic f2 hm hgs (Or.inr (C87_sample_outside hgen hsegs q v2 h2 m hm)) 1 zero_le_one le_rfl
          rwa [V3.comb_one] at this
  have main : ∀ a b, Sampled3 M.obstacle segs (orientations L quats par) a →
      Sampled3 M.obstacle segs (orientations L quats par) b →
      StepChecked3 L V (.new robot quats arena obs start goal par true) M segs (orientations L quats par) a b →
      StepSafe3 L V obs base (addedBodies ops) par (orientations L quats par) M a b := by
    intro a b ha hb hc
    rcases hc with ⟨i, hi, hc⟩ | ⟨i, hi, j, hj, hc⟩ | ⟨i, hi, hc⟩
    · obtain ⟨⟨q, hq, ⟨x, y, z, x', y', z', rfl, rfl⟩, hor⟩, hc⟩ := onlyNear_true hc
      rw [sameFree3_conf7] at hc
      refine Or.inl ⟨rfl, fun m hm hgs s s0 s1 => slice_step_generic hc hm hgs ?_ s s0 s1⟩
      exact hor.imp (fun h => C87_sample_outside hgen hsegs q _ h m hm) (fun h => C87_sample_outside hgen hsegs q _ h m hm)
    · obtain ⟨⟨⟨⟨qv, x, y, z, hqv, rfl⟩, ⟨qw, x', y', z', hqw, rfl⟩⟩, c0, c1⟩, hc⟩ := onlyNear_true hc
      have ua := unitPose_conf7 (hunit qv (List.mem_of_getElem? hqv)) x y z
      have ub := unitPose_conf7 (hunit qw (List.mem_of_getElem? hqw)) x' y' z'
      have sv : SameRotation (quatPart (conf7 x y z (matQuat (quatRot qv)))) qv :=
        sameRotation_matQuat (hunit qv (List.mem_of_getElem? hqv))
      have sw : SameRotation (quatPart (conf7 x' y' z' (matQuat (quatRot qw)))) qw :=
        sameRotation_matQuat (hunit qw (List.mem_of_getElem? hqw))
      refine Or.inr (Or.inr ⟨c0, c1, i, j, qw, qv, hqw, hqv, ?_⟩)
      obtain ⟨arm, fcl⟩ := V
      dsimp only at hV
      subst hV
      cases fcl with
      | none =>
        obtain ⟨steps, he, hmo, hv1, -⟩ := C53_spatial_check_partial L base ops robot hrun quats arena obs start goal par hnp i j _ _
          hqw hqv _ _ ua ub rfl
        exact ⟨steps, Or.inl ⟨sv, sw, he, hmo⟩, hv1.1 hc⟩
      | some hit =>
        obtain ⟨steps, b, he, hmo, hv1, hv2⟩ := C53_ablation_check L hit base ops robot hrun quats arena obs start goal par hnp i j
          hi hj _ _ ua ub rfl
        rw [hc] at hv1
        exact ⟨steps, Or.inl ⟨sv, sw, he, hmo⟩, hv2.1 ((Res.ok.injEq _ _).mp hv1).symm⟩
    · obtain ⟨q, hq, p, hp, hc⟩ := hc
      exact Or.inr (Or.inl (C87_row_step hgen hsegs p hp _ hc))
  intro k a b hka hkb
  have ha := hsamp a (List.mem_of_getElem? hka)
  have hb := hsamp b (List.mem_of_getElem? hkb)
  rcases hstep k a b hka hkb with hc | hc
  · exact main a b ha hb hc
  · exact (main b a hb ha hc).symm

end Hrm
