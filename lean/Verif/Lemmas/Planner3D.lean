import Verif.Model.Planner3D
import Verif.Lemmas.Planner2D
import Verif.Props.Nearest

/-! # The spatial planner object: poses, boundaries, sweep -/

namespace Hrm

open Matrix

/-! ## Placing the robot -/

namespace Tree3

/-- The robot with the given bodies placed at `g`. -/
noncomputable def posed (base : SuperQuadrics) (added : List SuperQuadrics) (g : Pose 3) : Tree3 :=
  ⟨place base g, added.length, added.map fun l => place l (g.mul ⟨quatRot l.quat, l.pos⟩),
    added.map fun l => ⟨quatRot l.quat, l.pos⟩⟩

theorem place_congr {E F : SuperQuadrics} (h : E.Same F) (g : Pose 3) : place E g = place F g := by
  obtain ⟨h1, h2, h3, h4, h5, h6⟩ := h
  unfold place
  rw [h1, h2, h3, h4, h5, h6]

theorem Inv.posed_eq {base added T} (h : Inv base added T) (g : Pose 3) :
    T.robotTF g = .ok (posed base added g) := by
  rw [robotTF_eq T g (h.len.trans h.num.symm) h.tflen]
  congr 1
  have hlink : List.zipWith (fun l t => place l (g.mul t)) T.link T.tf =
      added.map fun l => place l (g.mul ⟨quatRot l.quat, l.pos⟩) := by
    apply List.ext_getElem?
    intro i
    rw [List.getElem?_zipWith, h.tf, List.getElem?_map, List.getElem?_map]
    cases e : added[i]? with
    | none => cases T.link[i]? <;> rfl
    | some l =>
      have hi : i < T.link.length := by rw [h.len]; exact (List.getElem?_eq_some_iff.1 e).1
      rw [List.getElem?_eq_getElem hi]
      simp only [Option.map_some, Option.some.injEq]
      exact place_congr (h.same i l _ e (List.getElem?_eq_getElem hi)) _
  unfold posed
  rw [hlink, place_congr h.base, h.tf, h.num]

theorem posed_inv (base : SuperQuadrics) (added : List SuperQuadrics) (g : Pose 3) :
    Inv base added (posed base added g) := by
  refine ⟨⟨rfl, rfl, rfl, rfl, rfl, rfl⟩, rfl, rfl, by simp [posed], ?_⟩
  intro i l l' e1 e2
  simp only [posed, List.getElem?_map, e1, Option.map_some, Option.some.injEq] at e2
  rw [← e2]
  exact ⟨rfl, rfl, rfl, rfl, rfl, rfl⟩

end Tree3

theorem run_inv_of3 {base : SuperQuadrics} {ops : List (RobotOp SuperQuadrics 3)} {robot : Tree3}
    (h : Tree3.run ops (Tree3.new base) = .ok robot) : Tree3.Inv base (addedBodies ops) robot := by
  obtain ⟨T, e, hT⟩ := Tree3.run_inv base ops
  rw [h] at e
  obtain rfl := (Res.ok.injEq _ _).mp e
  exact hT

/-- The pose read from a configuration. -/
noncomputable def poseOf (v : Vec) : Pose 3 := ⟨quatRot (quat v), ![coord v 0, coord v 1, coord v 2]⟩

theorem setTransform3_eq {base added T} (h : Tree3.Inv base added T) {v : Vec} (hv : 7 ≤ v.length) :
    setTransform3 none T v = .ok (Tree3.posed base added (poseOf v)) := by
  unfold setTransform3
  rw [quatOf_eq hv, Res.bind_ok', idx_coord (by omega), Res.bind_ok', idx_coord (by omega), Res.bind_ok',
    idx_coord (by omega), Res.bind_ok']
  exact h.posed_eq _

theorem setTransform3_congr {base added T U} (hT : Tree3.Inv base added T) (hU : Tree3.Inv base added U) (v : Vec) :
    setTransform3 none T v = setTransform3 none U v := by
  unfold setTransform3
  simp only [hT.posed_eq, hU.posed_eq]

/-! ## Boundaries and meshes -/

theorem Tree3.Inv.minkSum_ok {base added T} (h : Tree3.Inv base added T) (s : SuperQuadrics) (k : ℤ) :
    ∃ B, T.minkSum s k = .ok B ∧ B.length = 1 + added.length ∧ ∀ b ∈ B, b.length = (s.minkSum3D s 1).length := by
  have hlen : ∀ (B : SuperQuadrics) (k : ℤ), (s.minkSum3D B k).length = (s.minkSum3D s 1).length := by
    intro B k; simp [SuperQuadrics.minkSum3D]
  have hone : ∀ i < T.numLinks, ∃ b, T.minkLink s k i = .ok b ∧ b.length = (s.minkSum3D s 1).length := by
    intro i hi
    have h1 : i < T.link.length := by rw [h.len, ← h.num]; exact hi
    refine ⟨_, by
      unfold Tree3.minkLink
      rw [Res.at'_eq_ok.2 (List.getElem?_eq_getElem h1), Res.bind_ok'], ?_⟩
    rw [List.length_map, hlen]
  choose! f hf using hone
  refine ⟨_, appendLoop _ f _ (fun i hi => (hf i hi).1) _, ?_, ?_⟩
  · simp [h.num]; omega
  · intro b hb
    rw [List.mem_append] at hb
    rcases hb with hb | hb
    · simp only [List.mem_singleton] at hb
      subst hb; exact hlen _ _
    · rw [List.mem_map] at hb
      obtain ⟨i, hi, rfl⟩ := hb
      exact (hf i (List.mem_range.1 hi)).2

theorem bodyBoundaries3_ok {base added T} (h : Tree3.Inv base added T) (k : ℤ) (objs : List SuperQuadrics) :
    ∃ B, bodyBoundaries3 T objs k = .ok B ∧ B.length = (1 + added.length) * objs.length ∧
      ∀ b ∈ B, ∃ o ∈ objs, b.length = (o.minkSum3D o 1).length := by
  induction objs using List.reverseRecOn with
  | nil => exact ⟨[], rfl, by simp, by simp⟩
  | append_singleton objs o ih =>
    obtain ⟨B, e, hl, hm⟩ := ih
    obtain ⟨C, e2, hl2, hm2⟩ := h.minkSum_ok o k
    refine ⟨B ++ C, ?_, ?_, ?_⟩
    · unfold bodyBoundaries3 at e ⊢
      rw [List.foldlM_append, e]
      simp [e2]
    · simp [hl, hl2]; ring
    · intro b hb
      rw [List.mem_append] at hb
      rcases hb with hb | hb
      · obtain ⟨o', h1, h2⟩ := hm b hb
        exact ⟨o', by simp [h1], h2⟩
      · exact ⟨o, by simp, hm2 b hb⟩

theorem cspaceBoundary3_ok {base added T} (h : Tree3.Inv base added T) (arena obs : List SuperQuadrics) :
    ∃ B, cspaceBoundary3 T arena obs = .ok B ∧ B.arena.length = (1 + added.length) * arena.length ∧
      B.obstacle.length = (1 + added.length) * obs.length ∧
      (∀ b ∈ B.arena, ∃ o ∈ arena, b.length = (o.minkSum3D o 1).length) ∧
      ∀ b ∈ B.obstacle, ∃ o ∈ obs, b.length = (o.minkSum3D o 1).length := by
  obtain ⟨A, e1, l1, m1⟩ := bodyBoundaries3_ok h (-1) arena
  obtain ⟨O, e2, l2, m2⟩ := bodyBoundaries3_ok h 1 obs
  exact ⟨⟨A, O⟩, by simp [cspaceBoundary3, e1, e2], l1, l2, m1, m2⟩

theorem boundMeshes_eq {objs : List SuperQuadrics} {bd : List (List (Fin 3 → ℝ))} {o : SuperQuadrics}
    (h : objs[0]? = some o) : boundMeshes objs bd = .ok (bd.map fun b => gridMesh (b.map toV3) o.num) := by
  have : ∀ (bd : List (List (Fin 3 → ℝ))) (acc : List Mesh), bd.foldlM (fun acc b =>
      (Res.at' objs 0).bind fun o => (.ok (acc ++ [gridMesh (b.map toV3) o.num]) : Res (List Mesh))) acc =
      .ok (acc ++ bd.map fun b => gridMesh (b.map toV3) o.num) := by
    intro bd
    induction bd with
    | nil => intro acc; simp
    | cons b bd ih =>
      intro acc
      rw [List.foldlM_cons]
      have e := ih (acc ++ [gridMesh (b.map toV3) o.num])
      rw [Res.at'_eq_ok.2 h] at e ⊢
      refine e.trans ?_
      simp
  have := this bd []
  rw [List.nil_append] at this
  exact this

theorem boundMeshes_ok {objs : List SuperQuadrics} {bd : List (List (Fin 3 → ℝ))} {n : ℕ}
    (hl : bd.length = n * objs.length) : ∃ M, boundMeshes objs bd = .ok M ∧ M.length = bd.length := by
  cases objs with
  | nil =>
    have : bd = [] := List.length_eq_zero_iff.1 (by simpa using hl)
    subst this
    exact ⟨[], rfl, rfl⟩
  | cons o objs => exact ⟨_, boundMeshes_eq (o := o) rfl, by simp⟩

theorem cspaceMesh_ok {arena obs : List SuperQuadrics} {B : Bound3} {n : ℕ} (h1 : B.arena.length = n * arena.length)
    (h2 : B.obstacle.length = n * obs.length) : ∃ M, cspaceMesh arena obs B = .ok M ∧
      M.arena.length = B.arena.length ∧ M.obstacle.length = B.obstacle.length := by
  obtain ⟨A, e1, l1⟩ := boundMeshes_ok h1
  obtain ⟨O, e2, l2⟩ := boundMeshes_ok h2
  exact ⟨⟨A, O⟩, by simp [cspaceMesh, e1, e2], l1, l2⟩

/-! ## Sweep -/

section fill
set_option linter.unusedSectionVars false
variable {K : Type*} [LinearOrder K] {Line Shape : Type*}

/-- The intersection when there is one, nothing otherwise. -/
def hitsOf (isect : Line → Shape → Res (List K)) (l : Line) (s : Shape) : List K :=
  match isect l s with
  | .ok pts => pts
  | _ => []

theorem hitsOf_eq {isect : Line → Shape → Res (List K)} {l : Line} {s : Shape} {pts : List K}
    (h : isect l s = .ok pts) : hitsOf isect l s = pts := by
  simp [hitsOf, h]

/-- An intersection the table can hold: computed, and not a single point. -/
def GoodHit (isect : Line → Shape → Res (List K)) (l : Line) (s : Shape) : Prop :=
  ∃ pts, isect l s = .ok pts ∧ pts.length ≠ 1

theorem GoodHit.ne {isect : Line → Shape → Res (List K)} {l : Line} {s : Shape} (h : GoodHit isect l s) :
    (hitsOf isect l s).length ≠ 1 := by
  obtain ⟨pts, h1, h2⟩ := h
  rwa [hitsOf_eq h1]

theorem arenaEntry_good {lowB upB : K} {pts : List K} {v : K × K} (h : arenaEntry lowB upB pts = .ok v) :
    pts.length ≠ 1 := by
  intro h1
  match pts, h1 with
  | [p], _ => rw [arenaEntry_ub] at h; exact nomatch h

theorem obsEntry_good {pts : List K} {v : Option K × Option K} (h : obsEntry pts = .ok v) : pts.length ≠ 1 := by
  intro h1
  match pts, h1 with
  | [p], _ => rw [obsEntry_ub] at h; exact nomatch h

theorem fillArenaR_good {isect : Line → Shape → Res (List K)} {lowB upB : K} {y : Line} {i : ℕ} (shs : List Shape) :
    ∀ {j : ℕ} {t t' : Table K}, fillArenaR isect lowB upB y i j shs t = .ok t' → ∀ s ∈ shs, GoodHit isect y s := by
  induction shs with
  | nil => intro j t t' _ s hs; exact nomatch hs
  | cons sh shs ih =>
    intro j t t' h s hs
    unfold fillArenaR at h
    obtain ⟨pts, h1, h⟩ := Res.bind_eq_ok.1 h
    obtain ⟨v, h2, h⟩ := Res.bind_eq_ok.1 h
    obtain ⟨lo, -, h⟩ := Res.bind_eq_ok.1 h
    obtain ⟨up, -, h⟩ := Res.bind_eq_ok.1 h
    rcases List.mem_cons.1 hs with rfl | hs
    · exact ⟨pts, h1, arenaEntry_good h2⟩
    · exact ih h s hs

theorem fillObsR_good {isect : Line → Shape → Res (List K)} {y : Line} {i : ℕ} (shs : List Shape) :
    ∀ {j : ℕ} {t t' : Table K}, fillObsR isect y i j shs t = .ok t' → ∀ s ∈ shs, GoodHit isect y s := by
  induction shs with
  | nil => intro j t t' _ s hs; exact nomatch hs
  | cons sh shs ih =>
    intro j t t' h s hs
    unfold fillObsR at h
    obtain ⟨pts, h1, h⟩ := Res.bind_eq_ok.1 h
    obtain ⟨v, h2, h⟩ := Res.bind_eq_ok.1 h
    obtain ⟨lo, -, h⟩ := Res.bind_eq_ok.1 h
    obtain ⟨up, -, h⟩ := Res.bind_eq_ok.1 h
    rcases List.mem_cons.1 hs with rfl | hs
    · exact ⟨pts, h1, obsEntry_good h2⟩
    · exact ih h s hs

theorem fillLinesR_good {isect : Line → Shape → Res (List K)} {lowB upB : K} {arena obs : List Shape} (ys : List Line) :
    ∀ {i : ℕ} {t t' : Table K}, fillLinesR isect lowB upB arena obs i ys t = .ok t' →
      ∀ y ∈ ys, ∀ s ∈ arena ++ obs, GoodHit isect y s := by
  induction ys with
  | nil => intro i t t' _ y hy; exact nomatch hy
  | cons y ys ih =>
    intro i t t' h y' hy
    unfold fillLinesR at h
    obtain ⟨t1, h1, h⟩ := Res.bind_eq_ok.1 h
    obtain ⟨t2, h2, h⟩ := Res.bind_eq_ok.1 h
    rcases List.mem_cons.1 hy with rfl | hy
    · intro s hs
      rcases List.mem_append.1 hs with hs | hs
      · exact fillArenaR_good _ h1 s hs
      · exact fillObsR_good _ h2 s hs
    · exact ih h y' hy

theorem fillArenaR_eq {isect : Line → Shape → Res (List K)} {lowB upB : K} {y : Line} {i : ℕ} (shs : List Shape)
    (hg : ∀ s ∈ shs, GoodHit isect y s) : ∀ (j : ℕ) (t : Table K),
    fillArenaR isect lowB upB y i j shs t = fillArena (hitsOf isect) lowB upB y i j shs t := by
  induction shs with
  | nil => intro j t; rfl
  | cons sh shs ih =>
    intro j t
    obtain ⟨pts, e, -⟩ := hg sh (by simp)
    unfold fillArenaR fillArena
    rw [e, Res.bind_ok', hitsOf_eq e]
    simp only [ih fun s hs => hg s (by simp [hs])]
    rfl

theorem fillObsR_eq {isect : Line → Shape → Res (List K)} {y : Line} {i : ℕ} (shs : List Shape)
    (hg : ∀ s ∈ shs, GoodHit isect y s) : ∀ (j : ℕ) (t : Table K),
    fillObsR isect y i j shs t = fillObs (hitsOf isect) y i j shs t := by
  induction shs with
  | nil => intro j t; rfl
  | cons sh shs ih =>
    intro j t
    obtain ⟨pts, e, -⟩ := hg sh (by simp)
    unfold fillObsR fillObs
    rw [e, Res.bind_ok', hitsOf_eq e]
    simp only [ih fun s hs => hg s (by simp [hs])]
    rfl

theorem fillLinesR_eq {isect : Line → Shape → Res (List K)} {lowB upB : K} {arena obs : List Shape} (ys : List Line)
    (hg : ∀ y ∈ ys, ∀ s ∈ arena ++ obs, GoodHit isect y s) : ∀ (i : ℕ) (t : Table K),
    fillLinesR isect lowB upB arena obs i ys t = fillLines (hitsOf isect) lowB upB arena obs i ys t := by
  induction ys with
  | nil => intro i t; rfl
  | cons y ys ih =>
    intro i t
    unfold fillLinesR fillLines
    simp only [ih fun y' hy => hg y' (by simp [hy]),
      fillArenaR_eq arena (fun s hs => hg y (by simp) s (by simp [hs])),
      fillObsR_eq obs (fun s hs => hg y (by simp) s (by simp [hs]))]
    rfl

end fill

@[simp] theorem Param3.linesX_length (p : Param3) : p.linesX.length = p.numLineX := by simp [Param3.linesX]
@[simp] theorem Param3.linesY_length (p : Param3) : p.linesY.length = p.numLineY := by simp [Param3.linesY]

/-- The free intervals of the vertical plane at `x`, computed on a fresh table. -/
noncomputable def planeSeg (L : Libs3) (lowB upB : ℝ) (m : BoundMesh) (ys : List ℝ) (x : ℝ) : Res FreeSeg :=
  (fillLinesR isect3 lowB upB m.arena m.obstacle 0 (ys.map fun y => (x, y))
    (setupTable (emptyTable ℝ) ys.length m.arena.length m.obstacle.length lowB upB)).bind fun t =>
  (computeFreeSegment L.sort L.dmin L.dmax t ys.length).bind fun rows => .ok ⟨ys, rows⟩

/-- The planes of a slice, each computed on a fresh table. -/
noncomputable def sweep3D (L : Libs3) (lowB upB : ℝ) (m : BoundMesh) (xs ys : List ℝ) : Res (List (ℝ × FreeSeg)) :=
  xs.foldlM (fun acc x => (planeSeg L lowB upB m ys x).bind fun s => .ok (acc ++ [(x, s)])) []

/-- On a table of the right shape, whatever it contains, the sweep of a plane delivers the same as on a fresh one. -/
theorem sweepPlane_eq (L : Libs3) (ys : List ℝ) (f : Fs3) (x : ℝ)
    (hsh : f.table.Shape ys.length f.mesh.arena.length f.mesh.obstacle.length)
    (hg : ∀ y ∈ ys, ∀ s ∈ f.mesh.arena ++ f.mesh.obstacle, GoodHit isect3 (x, y) s) :
    ∃ t, t.Shape ys.length f.mesh.arena.length f.mesh.obstacle.length ∧
      f.sweepPlane L ys x = (planeSeg L f.lowB f.upB f.mesh ys x).bind fun s => .ok ({ f with table := t }, s) := by
  have hg' : ∀ l ∈ ys.map fun y => (x, y), ∀ s ∈ f.mesh.arena ++ f.mesh.obstacle, GoodHit isect3 l s := by
    intro l hl s hs
    obtain ⟨y, hy, rfl⟩ := List.mem_map.1 hl
    exact hg y hy s hs
  obtain ⟨t, f1, f2, f3, -⟩ := fillLines_ok (hitsOf isect3) f.lowB f.upB f.mesh.arena f.mesh.obstacle ys.length
    (ys.map fun y => (x, y)) 0 f.table hsh (by simp) (fun y hy sh hs => (hg' y hy sh hs).ne)
  obtain ⟨t', f1', f2', f3', -⟩ := fillLines_ok (hitsOf isect3) f.lowB f.upB f.mesh.arena f.mesh.obstacle ys.length
    (ys.map fun y => (x, y)) 0 _ (setup_shape ys.length f.mesh.arena.length f.mesh.obstacle.length f.lowB f.upB) (by simp)
    (fun y hy sh hs => (hg' y hy sh hs).ne)
  obtain rfl : t = t' := table_unique (ys := ys.map fun y => (x, y)) (by simp) f2 f2' (fun k y hy => by simpa using f3 k y hy)
    (fun k y hy => by simpa using f3' k y hy)
  refine ⟨t, f2, ?_⟩
  unfold Fs3.sweepPlane planeSeg
  rw [fillLinesR_eq _ hg', fillLinesR_eq _ hg', f1, f1', Res.bind_ok', Res.bind_ok']
  cases computeFreeSegment L.sort L.dmin L.dmax t ys.length <;> rfl

theorem sweepPlane_good {L : Libs3} {ys : List ℝ} {f : Fs3} {x : ℝ} {r : Fs3 × FreeSeg} (h : f.sweepPlane L ys x = .ok r) :
    ∀ y ∈ ys, ∀ s ∈ f.mesh.arena ++ f.mesh.obstacle, GoodHit isect3 (x, y) s := by
  unfold Fs3.sweepPlane at h
  obtain ⟨t, h1, -⟩ := Res.bind_eq_ok.1 h
  intro y hy s hs
  exact fillLinesR_good _ h1 (x, y) (List.mem_map_of_mem hy) s hs

/-- The fold over the planes. -/
theorem sweepFold_ok {L : Libs3} {ys : List ℝ} (xs : List ℝ) : ∀ {f : Fs3} {acc : List (ℝ × FreeSeg)} {r : Fs3 × List (ℝ × FreeSeg)},
    f.table.Shape ys.length f.mesh.arena.length f.mesh.obstacle.length →
    xs.foldlM (fun (s : Fs3 × List (ℝ × FreeSeg)) x =>
      (s.1.sweepPlane L ys x).bind fun r => .ok (r.1, s.2 ++ [(x, r.2)])) (f, acc) = .ok r →
    ∃ t, t.Shape ys.length f.mesh.arena.length f.mesh.obstacle.length ∧ r.1 = { f with table := t } ∧
      xs.foldlM (fun acc x => (planeSeg L f.lowB f.upB f.mesh ys x).bind fun s => .ok (acc ++ [(x, s)])) acc = .ok r.2 ∧
      ∀ x ∈ xs, ∀ y ∈ ys, ∀ s ∈ f.mesh.arena ++ f.mesh.obstacle, GoodHit isect3 (x, y) s := by
  induction xs with
  | nil =>
    intro f acc r hsh h
    obtain rfl := (Res.ok.injEq _ _).mp h
    exact ⟨f.table, hsh, rfl, rfl, by simp⟩
  | cons x xs ih =>
    intro f acc r hsh h
    rw [List.foldlM_cons] at h
    obtain ⟨s, h1, h⟩ := Res.bind_eq_ok.1 h
    obtain ⟨w, h2, h1⟩ := Res.bind_eq_ok.1 h1
    obtain rfl := (Res.ok.injEq _ _).mp h1
    have hg := sweepPlane_good h2
    obtain ⟨t, t1, t2⟩ := sweepPlane_eq L ys f x hsh hg
    rw [t2] at h2
    obtain ⟨sg, h3, h2⟩ := Res.bind_eq_ok.1 h2
    obtain rfl := (Res.ok.injEq _ _).mp h2
    obtain ⟨t', t1', e1, e2, e3⟩ := ih (f := { f with table := t }) t1 h
    refine ⟨t', t1', e1, ?_, ?_⟩
    · rw [List.foldlM_cons, h3]
      exact e2
    · intro x' hx'
      rcases List.mem_cons.1 hx' with rfl | hx'
      · exact hg
      · exact e3 x' hx'

/-- A sweep that returns: there is more than one line in each direction, every intersection is usable, and the result is
that of the sweep with fresh tables. -/
theorem sweep3_ok {L : Libs3} {p : Param3} {f : Fs3} {r : Fs3 × List (ℝ × FreeSeg)}
    (hsh : f.table.Shape p.numLineY f.mesh.arena.length f.mesh.obstacle.length) (h : f.sweep L p = .ok r) :
    p.numLineX ≠ 1 ∧ p.numLineY ≠ 1 ∧ ∃ t, t.Shape p.numLineY f.mesh.arena.length f.mesh.obstacle.length ∧
      r.1 = { f with table := t } ∧ sweep3D L f.lowB f.upB f.mesh p.linesX p.linesY = .ok r.2 ∧
      ∀ x ∈ p.linesX, ∀ y ∈ p.linesY, ∀ s ∈ f.mesh.arena ++ f.mesh.obstacle, GoodHit isect3 (x, y) s := by
  unfold Fs3.sweep at h
  split at h
  · exact nomatch h
  · rename_i hn
    push Not at hn
    refine ⟨hn.1, hn.2, ?_⟩
    have := sweepFold_ok (ys := p.linesY) p.linesX (f := f) (by simpa using hsh) h
    simpa [sweep3D] using this

/-- Conversely: usable intersections and a sweep with fresh tables that returns. -/
theorem sweep3_total {L : Libs3} {p : Param3} {f : Fs3} {segs : List (ℝ × FreeSeg)}
    (hx : p.numLineX ≠ 1) (hy : p.numLineY ≠ 1)
    (hsh : f.table.Shape p.numLineY f.mesh.arena.length f.mesh.obstacle.length)
    (hg : ∀ x ∈ p.linesX, ∀ y ∈ p.linesY, ∀ s ∈ f.mesh.arena ++ f.mesh.obstacle, GoodHit isect3 (x, y) s)
    (h : sweep3D L f.lowB f.upB f.mesh p.linesX p.linesY = .ok segs) :
    ∃ t, t.Shape p.numLineY f.mesh.arena.length f.mesh.obstacle.length ∧
      f.sweep L p = .ok ({ f with table := t }, segs) := by
  unfold Fs3.sweep
  rw [if_neg (by push Not; exact ⟨hx, hy⟩)]
  have key : ∀ (xs : List ℝ) (f : Fs3) (acc : List (ℝ × FreeSeg)) (segs : List (ℝ × FreeSeg)),
      f.table.Shape p.linesY.length f.mesh.arena.length f.mesh.obstacle.length →
      (∀ x ∈ xs, ∀ y ∈ p.linesY, ∀ s ∈ f.mesh.arena ++ f.mesh.obstacle, GoodHit isect3 (x, y) s) →
      xs.foldlM (fun acc x => (planeSeg L f.lowB f.upB f.mesh p.linesY x).bind fun s => .ok (acc ++ [(x, s)])) acc = .ok segs →
      ∃ t, t.Shape p.linesY.length f.mesh.arena.length f.mesh.obstacle.length ∧
        xs.foldlM (fun (s : Fs3 × List (ℝ × FreeSeg)) x =>
          (s.1.sweepPlane L p.linesY x).bind fun r => .ok (r.1, s.2 ++ [(x, r.2)])) (f, acc) = .ok ({ f with table := t }, segs) := by
    intro xs
    induction xs with
    | nil =>
      intro f acc segs hsh _ h
      obtain rfl := (Res.ok.injEq _ _).mp h
      exact ⟨f.table, hsh, rfl⟩
    | cons x xs ih =>
      intro f acc segs hsh hg h
      rw [List.foldlM_cons] at h
      obtain ⟨a1, h1, h⟩ := Res.bind_eq_ok.1 h
      obtain ⟨sg, h3, h1⟩ := Res.bind_eq_ok.1 h1
      obtain rfl := (Res.ok.injEq _ _).mp h1
      obtain ⟨t, t1, t2⟩ := sweepPlane_eq L p.linesY f x hsh (hg x (by simp))
      obtain ⟨t', t1', e⟩ := ih { f with table := t } _ segs t1 (fun x' hx' => hg x' (by simp [hx'])) h
      refine ⟨t', t1', ?_⟩
      rw [List.foldlM_cons, t2, h3]
      exact e
  have := key p.linesX f [] segs (by simpa using hsh) hg h
  simpa using this

/-- A slice with a line in each direction. -/
theorem sweep3D_fst {L : Libs3} {lowB upB : ℝ} {m : BoundMesh} {xs ys : List ℝ} {segs : List (ℝ × FreeSeg)}
    (h : sweep3D L lowB upB m xs ys = .ok segs) :
    segs.length = xs.length ∧ ∀ (k : ℕ) (p : ℝ × FreeSeg), segs[k]? = some p →
      xs[k]? = some p.1 ∧ planeSeg L lowB upB m ys p.1 = .ok p.2 := by
  have key : ∀ (xs : List ℝ) (acc segs : List (ℝ × FreeSeg)),
      xs.foldlM (fun acc x => (planeSeg L lowB upB m ys x).bind fun s => .ok (acc ++ [(x, s)])) acc = .ok segs →
      segs.length = acc.length + xs.length ∧ (∀ k < acc.length, segs[k]? = acc[k]?) ∧
      ∀ (k : ℕ) (p : ℝ × FreeSeg), segs[acc.length + k]? = some p →
        xs[k]? = some p.1 ∧ planeSeg L lowB upB m ys p.1 = .ok p.2 := by
    intro xs
    induction xs with
    | nil =>
      intro acc segs h
      obtain rfl := (Res.ok.injEq _ _).mp h
      refine ⟨rfl, fun _ _ => rfl, ?_⟩
      intro k p hk
      rw [List.getElem?_eq_none (by omega)] at hk
      exact nomatch hk
    | cons x xs ih =>
      intro acc segs h
      rw [List.foldlM_cons] at h
      obtain ⟨a1, h1, h⟩ := Res.bind_eq_ok.1 h
      obtain ⟨sg, h3, h1⟩ := Res.bind_eq_ok.1 h1
      obtain rfl := (Res.ok.injEq _ _).mp h1
      obtain ⟨e1, e2, e3⟩ := ih _ _ h
      refine ⟨by rw [e1]; simp; omega, ?_, ?_⟩
      · intro k hk
        rw [e2 k (by simp; omega), List.getElem?_append_left hk]
      · intro k p hk
        cases k with
        | zero =>
          rw [Nat.add_zero, e2 acc.length (by simp)] at hk
          simp only [List.getElem?_append_right (le_refl acc.length), Nat.sub_self, List.getElem?_cons_zero, Option.some.injEq] at hk
          rw [← hk]
          exact ⟨rfl, h3⟩
        | succ k =>
          have := e3 k p (by rw [List.length_append, List.length_singleton, Nat.add_assoc, Nat.add_comm 1]; exact hk)
          simpa using this
  obtain ⟨e1, -, e3⟩ := key xs [] segs h
  exact ⟨by simpa using e1, fun k p hk => e3 k p (by simpa using hk)⟩

end Hrm
