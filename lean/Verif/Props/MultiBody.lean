import Verif.Lemmas.MultiBody
import Verif.Props.Shape

/-!
# Properties C37, C38: multi-body robots
-/

namespace Hrm

open Matrix

/-! ## C37 in the plane -/

theorem SuperEllipse.solid_place {E F : SuperEllipse} (hs : E.Same F) {g : Pose 2}
    (hr : rot2 (matAngle g.rot) = g.rot) : (Tree2.place E g).solid = F.placed g.rot g.pos := by
  have hi : (Tree2.place E g).implicit = F.implicit := by
    rw [← hs.implicit]; rfl
  ext x
  simp only [SuperEllipse.solid, SuperEllipse.solid0, SuperEllipse.placed, Set.mem_ofPred_eq, hi]
  have e1 : (Tree2.place E g).ang = matAngle g.rot := rfl
  have e2 : ![(Tree2.place E g).px, (Tree2.place E g).py] = g.pos := by
    funext i; fin_cases i <;> rfl
  rw [e1, e2, hr]
  constructor
  · rintro ⟨_, ⟨q, hq, rfl⟩, rfl⟩
    exact ⟨q, hq, rfl⟩
  · rintro ⟨q, hq, rfl⟩
    exact ⟨_, ⟨q, hq, rfl⟩, rfl⟩

theorem Pose.Rigid2.angle {g : Pose 2} (h : g.Rigid2) : rot2 (matAngle g.rot) = g.rot := by
  obtain ⟨th, h⟩ := h
  rw [h, rot2_matAngle]

theorem Pose.Rigid2.mul_link {g : Pose 2} (h : g.Rigid2) (l : SuperEllipse) :
    (g.mul ⟨rot2 l.ang, ![l.px, l.py]⟩).Rigid2 := by
  obtain ⟨th, h⟩ := h
  exact ⟨th + l.ang, by simp only [Pose.mul]; rw [h, rot2_mul]⟩

/-- **C37 (plane).** Whatever bodies were added and however the robot was moved before: the counts agree,
the stored transformations are those of the bodies as added, and moving the robot by a rigid motion `g`
puts the base at `g` and every body where `g` carries it. -/
theorem C37_robot2D (base : SuperEllipse) (ops : List (RobotOp SuperEllipse 2)) :
    ∃ T, Tree2.run ops (Tree2.new base) = .ok T ∧
      T.numLinks = (addedBodies ops).length ∧ T.link.length = T.numLinks ∧ T.tf.length = T.numLinks ∧
      (∀ (i : ℕ) (l : SuperEllipse), (addedBodies ops)[i]? = some l →
        T.tf[i]? = some ⟨rot2 l.ang, ![l.px, l.py]⟩) ∧
      ∀ g : Pose 2, g.Rigid2 → ∃ T', T.robotTF g = .ok T' ∧ T'.numLinks = T.numLinks ∧
        T'.link.length = T.numLinks ∧ T'.tf = T.tf ∧ T'.base.solid = base.placed g.rot g.pos ∧
        ∀ (i : ℕ) (l : SuperEllipse), (addedBodies ops)[i]? = some l →
          ∃ l', T'.link[i]? = some l' ∧ l'.solid = l.carried g := by
  obtain ⟨T, h, hi⟩ := Tree2.run_inv base ops
  refine ⟨T, h, hi.num, hi.len.trans hi.num.symm, hi.tflen, ?_, ?_⟩
  · intro i l e
    rw [hi.tf, List.getElem?_map, e, Option.map_some]
  · intro g hg
    obtain ⟨T', e, hi', hb, hl⟩ := hi.move g
    refine ⟨T', e, hi'.num.trans hi.num.symm, hi'.len.trans hi.num.symm, hi'.tf.trans hi.tf.symm, ?_, ?_⟩
    · rw [hb]
      exact SuperEllipse.solid_place hi.base hg.angle
    · intro i l e1
      obtain ⟨l0, -, hs, e3⟩ := hl i l e1
      exact ⟨_, e3, SuperEllipse.solid_place hs (hg.mul_link l).angle⟩

/-- The Minkowski boundary depends on the second shape only through its semi-axes and angle. -/
theorem SuperEllipse.minkSum2D_congr (E B C : SuperEllipse) (k : ℤ) (ha : B.a = C.a) (hb : B.b = C.b)
    (hr : B.ang = C.ang) : E.minkSum2D B k = E.minkSum2D C k := by
  simp only [SuperEllipse.minkSum2D, SuperEllipse.minkPoint, SuperEllipse.tinv, ha, hb, hr]

theorem Tree2.minkLink_eq (T : Tree2) (s1 : SuperEllipse) (k : ℤ) (i : ℕ) (l : SuperEllipse) (t : Pose 2)
    (hl : T.link[i]? = some l) (ht : T.tf[i]? = some t) (B : SuperEllipse) (ha : B.a = l.a) (hb : B.b = l.b)
    (hr : B.ang = matAngle (rot2 T.base.ang * t.rot)) :
    T.minkLink s1 k i = .ok ((s1.minkSum2D B k).map fun p => p - rot2 T.base.ang *ᵥ t.pos) := by
  unfold Tree2.minkLink
  rw [Res.at'_eq_ok.2 hl, Res.bind_ok', Res.at'_eq_ok.2 ht, Res.bind_ok',
    SuperEllipse.minkSum2D_congr s1 B { l with ang := matAngle (rot2 T.base.ang * t.rot) } k ha hb hr]

/-- **C37 / C38 (plane).** After any history and any rigid motion, `minkSum` returns one boundary for the
base and one for each body, in order; the boundary of a body is the Minkowski boundary for the body as it
stands, moved by the vector from the body's centre to the base. -/
theorem C37_minkSum2D (base : SuperEllipse) (ops : List (RobotOp SuperEllipse 2)) (T T' : Tree2) (g : Pose 2)
    (hT : Tree2.run ops (Tree2.new base) = .ok T) (hg : g.Rigid2) (hT' : T.robotTF g = .ok T')
    (s1 : SuperEllipse) (k : ℤ) :
    ∃ B, T'.minkSum s1 k = .ok B ∧ B.length = 1 + (addedBodies ops).length ∧
      B[0]? = some (s1.minkSum2D T'.base k) ∧
      ∀ (i : ℕ) (l' : SuperEllipse), T'.link[i]? = some l' →
        B[i + 1]? = some ((s1.minkSum2D l' k).map fun p => p - (![l'.px, l'.py] - ![T'.base.px, T'.base.py])) := by
  obtain ⟨T0, h, hi⟩ := Tree2.run_inv base ops
  rw [hT] at h
  obtain rfl := (Res.ok.injEq _ _).mp h
  obtain ⟨T1, e, hi', hb, hl⟩ := hi.move g
  rw [hT'] at e
  obtain rfl := (Res.ok.injEq _ _).mp e
  have hang : rot2 T'.base.ang = g.rot := by rw [hb]; exact hg.angle
  have hpos : ![T'.base.px, T'.base.py] = g.pos := by rw [hb]; funext i; fin_cases i <;> rfl
  have hone : ∀ i < T'.numLinks, T'.minkLink s1 k i = .ok
      ((s1.minkSum2D (T'.link.getD i base) k).map
        fun p => p - (![(T'.link.getD i base).px, (T'.link.getD i base).py] - ![T'.base.px, T'.base.py])) := by
    intro i hn
    rw [hi'.num] at hn
    obtain ⟨l, hli⟩ : ∃ l, (addedBodies ops)[i]? = some l := ⟨_, List.getElem?_eq_getElem hn⟩
    obtain ⟨l0, -, -, e3⟩ := hl i l hli
    have hD : T'.link.getD i base = Tree2.place l0 (g.mul ⟨rot2 l.ang, ![l.px, l.py]⟩) := by
      rw [List.getD_eq_getElem?_getD, e3, Option.getD_some]
    have ht : T'.tf[i]? = some ⟨rot2 l.ang, ![l.px, l.py]⟩ := by
      rw [hi'.tf, List.getElem?_map, hli, Option.map_some]
    rw [Tree2.minkLink_eq T' s1 k i _ _ e3 ht (Tree2.place l0 (g.mul ⟨rot2 l.ang, ![l.px, l.py]⟩)) rfl rfl
      (by rw [hang]; rfl), hD, hpos, hang]
    have hv : ![(Tree2.place l0 (g.mul ⟨rot2 l.ang, ![l.px, l.py]⟩)).px,
        (Tree2.place l0 (g.mul ⟨rot2 l.ang, ![l.px, l.py]⟩)).py] - g.pos = g.rot *ᵥ ![l.px, l.py] := by
      have : ![(Tree2.place l0 (g.mul ⟨rot2 l.ang, ![l.px, l.py]⟩)).px,
        (Tree2.place l0 (g.mul ⟨rot2 l.ang, ![l.px, l.py]⟩)).py] = g.rot *ᵥ ![l.px, l.py] + g.pos := by
        funext i; fin_cases i <;> rfl
      rw [this, add_sub_cancel_right]
    rw [hv]
  refine ⟨_, appendLoop _ _ _ hone _, ?_, rfl, ?_⟩
  · simp [hi'.num]; omega
  · intro i l' e1
    have hn : i < T'.numLinks := by
      rw [hi'.num, ← hi'.len]; exact (List.getElem?_eq_some_iff.1 e1).1
    rw [List.singleton_append, List.getElem?_cons_succ, List.getElem?_map, List.getElem?_range hn,
      Option.map_some, List.getD_eq_getElem?_getD, e1, Option.getD_some]

theorem appendLoop_congr {B : Type} (f f' : ℕ → Res B) (l : List ℕ) (h : ∀ i ∈ l, f i = f' i) (acc : List B) :
    l.foldlM (fun acc i => (f i).bind fun b => (.ok (acc ++ [b]) : Res (List B))) acc =
      l.foldlM (fun acc i => (f' i).bind fun b => (.ok (acc ++ [b]) : Res (List B))) acc := by
  induction l generalizing acc with
  | nil => rfl
  | cons i l ih =>
    rw [List.foldlM_cons, List.foldlM_cons, h i (by simp)]
    congr 1
    funext acc'
    exact ih (fun j hj => h j (by simp [hj])) acc'

/-- **C38 (plane).** The boundaries do not depend on where the base stands, only on its rotation. -/
theorem C38_minkSum2D_base_independent (base : SuperEllipse) (ops : List (RobotOp SuperEllipse 2)) (T T1 T2 : Tree2)
    (R : Matrix (Fin 2) (Fin 2) ℝ) (p1 p2 : Fin 2 → ℝ) (hT : Tree2.run ops (Tree2.new base) = .ok T)
    (h1 : T.robotTF ⟨R, p1⟩ = .ok T1) (h2 : T.robotTF ⟨R, p2⟩ = .ok T2) (s1 : SuperEllipse) (k : ℤ) :
    T1.minkSum s1 k = T2.minkSum s1 k := by
  obtain ⟨T0, h, hi⟩ := Tree2.run_inv base ops
  rw [hT] at h
  obtain rfl := (Res.ok.injEq _ _).mp h
  obtain ⟨T1', e, hi1, hb1, hl1⟩ := hi.move ⟨R, p1⟩
  rw [h1] at e
  obtain rfl := (Res.ok.injEq _ _).mp e
  obtain ⟨T2', e, hi2, hb2, hl2⟩ := hi.move ⟨R, p2⟩
  rw [h2] at e
  obtain rfl := (Res.ok.injEq _ _).mp e
  have ha : T1.base.ang = T2.base.ang := by rw [hb1, hb2]; simp only [Tree2.place]
  have hlink : ∀ i, i < T1.numLinks → T1.minkLink s1 k i = T2.minkLink s1 k i := by
    intro i hn
    rw [hi1.num] at hn
    obtain ⟨l, hli⟩ : ∃ l, (addedBodies ops)[i]? = some l := ⟨_, List.getElem?_eq_getElem hn⟩
    obtain ⟨l0, e0, -, e1⟩ := hl1 i l hli
    obtain ⟨l0', e0', -, e2⟩ := hl2 i l hli
    rw [e0] at e0'
    obtain rfl := Option.some.inj e0'
    have t1 : T1.tf[i]? = some ⟨rot2 l.ang, ![l.px, l.py]⟩ := by
      rw [hi1.tf, List.getElem?_map, hli, Option.map_some]
    have t2 : T2.tf[i]? = some ⟨rot2 l.ang, ![l.px, l.py]⟩ := by
      rw [hi2.tf, List.getElem?_map, hli, Option.map_some]
    rw [Tree2.minkLink_eq T1 s1 k i _ _ e1 t1 { l0 with ang := matAngle (rot2 T2.base.ang * rot2 l.ang) } (by simp only [Tree2.place])
      (by simp only [Tree2.place]) (by simp only [ha]), Tree2.minkLink_eq T2 s1 k i _ _ e2 t2
        { l0 with ang := matAngle (rot2 T2.base.ang * rot2 l.ang) } (by simp only [Tree2.place])
        (by simp only [Tree2.place]) (by simp only), ha]
  have hb : s1.minkSum2D T1.base k = s1.minkSum2D T2.base k :=
    SuperEllipse.minkSum2D_congr _ _ _ _ (by rw [hb1, hb2]; simp only [Tree2.place]) (by rw [hb1, hb2]; simp only [Tree2.place]) ha
  unfold Tree2.minkSum
  rw [hb, hi2.num, ← hi1.num]
  exact appendLoop_congr _ _ _ (fun i hi => hlink i (List.mem_range.1 hi)) _

/-- **C38 (plane, meaning).** Placing the base (with its rotation unchanged) on a point of the boundary
that `minkSum` reports for body `i` makes body `i` touch or meet the obstacle: the carried body and the
obstacle have a common point. Ellipses only for the body. -/
theorem C38_boundary_points_collide (base : SuperEllipse) (ops : List (RobotOp SuperEllipse 2)) (T T' : Tree2)
    (g : Pose 2) (hT : Tree2.run ops (Tree2.new base) = .ok T) (hg : g.Rigid2) (hT' : T.robotTF g = .ok T')
    (s1 : SuperEllipse) (h1 : s1.Ok) (i : ℕ) (l : SuperEllipse) (hl : (addedBodies ops)[i]? = some l)
    (hok : l.Ok) (he : l.eps = 1) (B : List (List (Fin 2 → ℝ))) (hB : T'.minkSum s1 1 = .ok B)
    (bd : List (Fin 2 → ℝ)) (hbd : B[i + 1]? = some bd) (m : Fin 2 → ℝ) (hm : m ∈ bd) :
    ∃ x, x ∈ s1.solid ∧ x ∈ l.carried ⟨g.rot, m⟩ := by
  obtain ⟨B', hB', -, -, hlink⟩ := C37_minkSum2D base ops T T' g hT hg hT' s1 1
  rw [hB] at hB'
  obtain rfl := (Res.ok.injEq _ _).mp hB'
  obtain ⟨T0, h, hi⟩ := Tree2.run_inv base ops
  rw [hT] at h
  obtain rfl := (Res.ok.injEq _ _).mp h
  obtain ⟨T1, e, hi', hb, hlk⟩ := hi.move g
  rw [hT'] at e
  obtain rfl := (Res.ok.injEq _ _).mp e
  obtain ⟨l0, -, hs, e3⟩ := hlk i l hl
  have := hlink i _ e3
  rw [hbd] at this
  rw [Option.some.inj this] at hm
  set l' := Tree2.place l0 (g.mul ⟨rot2 l.ang, ![l.px, l.py]⟩) with hl'
  obtain ⟨p, hp, rfl⟩ := List.mem_map.1 hm
  have hok' : l'.Ok := ⟨hs.1 ▸ hok.a, hs.2.1 ▸ hok.b, hs.2.2.1 ▸ hok.lo, hs.2.2.1 ▸ hok.hi⟩
  obtain ⟨x, hx, y, ⟨q, hq, rfl⟩, rfl⟩ := (C47_minkowski_2D_partial s1 l' h1 hok'
    (hs.2.2.1.trans he)).2.1 p hp
  refine ⟨x, hx, -q, ?_, ?_⟩
  · have : l.implicit (-q) = l'.implicit q := by
      have : l'.implicit = l.implicit := by rw [← hs.implicit]; rfl
      rw [this]
      simp [SuperEllipse.implicit, neg_div]
    rw [this]; exact hq
  · have hr : rot2 l'.ang = g.rot * rot2 l.ang := (hg.mul_link l).angle
    have hp1 : ![l'.px, l'.py] = g.rot *ᵥ ![l.px, l.py] + g.pos := by funext i; fin_cases i <;> rfl
    have hp2 : ![T'.base.px, T'.base.py] = g.pos := by rw [hb]; funext i; fin_cases i <;> rfl
    rw [hr, hp1, hp2, mulVec_neg]
    simp only [Pose.mul]
    abel

/-! ## C37 in space -/

theorem SuperQuadrics.solid_place {E F : SuperQuadrics} (hs : E.Same F) {g : Pose 3}
    (hr : quatRot (matQuat g.rot) = g.rot) : (Tree3.place E g).solid = F.placed g.rot g.pos := by
  have hi : (Tree3.place E g).implicit = F.implicit := by
    rw [← hs.implicit]; rfl
  ext x
  simp only [SuperQuadrics.solid, SuperQuadrics.solid0, SuperQuadrics.placed, Set.mem_ofPred_eq, hi]
  have e1 : (Tree3.place E g).quat = matQuat g.rot := rfl
  have e2 : (Tree3.place E g).pos = g.pos := rfl
  rw [e1, e2, hr]
  constructor
  · rintro ⟨_, ⟨q, hq, rfl⟩, rfl⟩
    exact ⟨q, hq, rfl⟩
  · rintro ⟨q, hq, rfl⟩
    exact ⟨_, ⟨q, hq, rfl⟩, rfl⟩

theorem quatRot_det {q : Quat} (h : q.Unit) : (quatRot q).det = 1 := by
  rw [quatRot_eq_hom h]
  obtain ⟨w, x, y, z⟩ := q
  unfold Quat.Unit at h
  simp only at h
  have : (quatHom (w, x, y, z)).det = (w ^ 2 + x ^ 2 + y ^ 2 + z ^ 2) ^ 3 := by
    simp [quatHom, det_fin_three]; ring
  rw [this, h]; norm_num

theorem Pose.Rigid3.quat {g : Pose 3} (h : g.Rigid3) :
    (matQuat g.rot).Unit ∧ quatRot (matQuat g.rot) = g.rot := rot3_matQuat ⟨h.1, h.2.1⟩ h.2.2

theorem Pose.Rigid3.mul {g h : Pose 3} (hg : g.Rigid3) (hh : h.Rigid3) : (g.mul h).Rigid3 := by
  obtain ⟨a1, a2, a3⟩ := hg
  obtain ⟨b1, b2, b3⟩ := hh
  refine ⟨?_, ?_, ?_⟩
  · simp only [Pose.mul]
    rw [transpose_mul, Matrix.mul_assoc, ← Matrix.mul_assoc g.rotᵀ, a1, Matrix.one_mul, b1]
  · simp only [Pose.mul]
    rw [transpose_mul, Matrix.mul_assoc, ← Matrix.mul_assoc h.rot, b2, Matrix.one_mul, a2]
  · simp only [Pose.mul]
    rw [det_mul, a3, b3, one_mul]

theorem rigid_link {l : SuperQuadrics} (h : l.quat.Unit) : (⟨quatRot l.quat, l.pos⟩ : Pose 3).Rigid3 :=
  ⟨(quatRot_orth h).left, (quatRot_orth h).right, quatRot_det h⟩

theorem mem_added {S : Type} {n : ℕ} {ops : List (RobotOp S n)} {l : S} (h : l ∈ addedBodies ops) :
    RobotOp.add l ∈ ops := by
  obtain ⟨op, hop, e⟩ := List.mem_filterMap.1 h
  cases op with
  | add x => simp only [Option.some.injEq] at e; exact e ▸ hop
  | move g => simp at e

/-- **C37 (space).** As `C37_robot2D`, with unit quaternions for the added bodies. -/
theorem C37_robot3D (base : SuperQuadrics) (ops : List (RobotOp SuperQuadrics 3)) (hops : RigidOps3 ops) :
    ∃ T, Tree3.run ops (Tree3.new base) = .ok T ∧
      T.numLinks = (addedBodies ops).length ∧ T.link.length = T.numLinks ∧ T.tf.length = T.numLinks ∧
      (∀ (i : ℕ) (l : SuperQuadrics), (addedBodies ops)[i]? = some l →
        T.tf[i]? = some ⟨quatRot l.quat, l.pos⟩) ∧
      ∀ g : Pose 3, g.Rigid3 → ∃ T', T.robotTF g = .ok T' ∧ T'.numLinks = T.numLinks ∧
        T'.link.length = T.numLinks ∧ T'.tf = T.tf ∧ T'.base.solid = base.placed g.rot g.pos ∧
        ∀ (i : ℕ) (l : SuperQuadrics), (addedBodies ops)[i]? = some l →
          ∃ l', T'.link[i]? = some l' ∧ l'.solid = l.carried g := by
  obtain ⟨T, h, hi⟩ := Tree3.run_inv base ops
  refine ⟨T, h, hi.num, hi.len.trans hi.num.symm, hi.tflen, ?_, ?_⟩
  · intro i l e
    rw [hi.tf, List.getElem?_map, e, Option.map_some]
  · intro g hg
    obtain ⟨T', e, hi', hb, hl⟩ := hi.move g
    refine ⟨T', e, hi'.num.trans hi.num.symm, hi'.len.trans hi.num.symm, hi'.tf.trans hi.tf.symm, ?_, ?_⟩
    · rw [hb]
      exact SuperQuadrics.solid_place hi.base hg.quat.2
    · intro i l e1
      obtain ⟨l0, -, hs, e3⟩ := hl i l e1
      exact ⟨_, e3, SuperQuadrics.solid_place hs
        (hg.mul (rigid_link (hops.2 l (mem_added (List.mem_of_getElem? e1))))).quat.2⟩

/-- **C37 (articulated robots).** After any history, moving the robot with base frame `g` and joint
transformations `fk` (from the kinematics library) puts body `i` where `g * fk i` carries it. -/
theorem C37_robot3D_articulated (base : SuperQuadrics) (ops : List (RobotOp SuperQuadrics 3)) (hops : RigidOps3 ops)
    (T : Tree3) (hT : Tree3.run ops (Tree3.new base) = .ok T) (g : Pose 3) (hg : g.Rigid3) (fk : ℕ → Pose 3)
    (hfk : ∀ i, (fk i).Rigid3) :
    ∃ T', T.robotTFWith g fk = .ok T' ∧ T'.link.length = (addedBodies ops).length ∧ T'.tf = T.tf ∧
      T'.base.solid = base.placed g.rot g.pos ∧
      ∀ (i : ℕ) (l : SuperQuadrics), (addedBodies ops)[i]? = some l →
        ∃ l', T'.link[i]? = some l' ∧ l'.solid = l.carried (g.mul (fk i)) := by
  obtain ⟨T0, h, hi⟩ := Tree3.run_inv base ops
  rw [hT] at h
  obtain rfl := (Res.ok.injEq _ _).mp h
  obtain ⟨T', e, h1, h2, h3, h4, h5⟩ := Tree3.robotTFWith_spec T g fk (hi.len.trans hi.num.symm) hi.tflen
  refine ⟨T', e, h4.trans hi.num, h3, ?_, ?_⟩
  · rw [h1]
    exact SuperQuadrics.solid_place hi.base hg.quat.2
  · intro i l e1
    have hn : i < T.link.length := by rw [hi.len]; exact (List.getElem?_eq_some_iff.1 e1).1
    have ht : T.tf[i]? = some ⟨quatRot l.quat, l.pos⟩ := by
      rw [hi.tf, List.getElem?_map, e1, Option.map_some]
    exact ⟨_, h5 i _ _ (List.getElem?_eq_getElem hn) ht,
      SuperQuadrics.solid_place (hi.same i l _ e1 (List.getElem?_eq_getElem hn))
        ((hg.mul (hfk i)).mul (rigid_link (hops.2 l (mem_added (List.mem_of_getElem? e1))))).quat.2⟩

/-- **C37 (space).** `minkSum` returns one boundary for the base and one for each body, in order; the
boundary of a body is the Minkowski boundary for the body as it stands, moved by minus the *position* of
the body (not: relative to the base). -/
theorem C37_minkSum3D (base : SuperQuadrics) (ops : List (RobotOp SuperQuadrics 3)) (T : Tree3)
    (hT : Tree3.run ops (Tree3.new base) = .ok T) (s1 : SuperQuadrics) (k : ℤ) :
    ∃ B, T.minkSum s1 k = .ok B ∧ B.length = 1 + (addedBodies ops).length ∧
      B[0]? = some (s1.minkSum3D T.base k) ∧
      ∀ (i : ℕ) (l' : SuperQuadrics), T.link[i]? = some l' →
        B[i + 1]? = some ((s1.minkSum3D l' k).map fun p => p - l'.pos) := by
  obtain ⟨T0, h, hi⟩ := Tree3.run_inv base ops
  rw [hT] at h
  obtain rfl := (Res.ok.injEq _ _).mp h
  have hone : ∀ i < T.numLinks, T.minkLink s1 k i = .ok
      ((s1.minkSum3D (T.link.getD i base) k).map fun p => p - (T.link.getD i base).pos) := by
    intro i hn
    rw [hi.num, ← hi.len] at hn
    unfold Tree3.minkLink
    rw [Res.at'_eq_ok.2 (List.getElem?_eq_getElem hn), Res.bind_ok', List.getD_eq_getElem?_getD,
      List.getElem?_eq_getElem hn, Option.getD_some]
  refine ⟨_, appendLoop _ _ _ hone _, ?_, rfl, ?_⟩
  · simp [hi.num]; omega
  · intro i l' e1
    have hn : i < T.numLinks := by
      rw [hi.num, ← hi.len]; exact (List.getElem?_eq_some_iff.1 e1).1
    rw [List.singleton_append, List.getElem?_cons_succ, List.getElem?_map, List.getElem?_range hn,
      Option.map_some, List.getD_eq_getElem?_getD, e1, Option.getD_some]

/-! ## C38 in space -/

/-- The claim C38 for spatial robots: the boundaries depend on the rotation of the base only. -/
def C38_claim : Prop :=
  ∀ (base : SuperQuadrics) (ops : List (RobotOp SuperQuadrics 3)), RigidOps3 ops → ∀ (T T1 T2 : Tree3)
    (R : Matrix (Fin 3) (Fin 3) ℝ) (p1 p2 : Fin 3 → ℝ), (⟨R, p1⟩ : Pose 3).Rigid3 →
    Tree3.run ops (Tree3.new base) = .ok T → T.robotTF ⟨R, p1⟩ = .ok T1 → T.robotTF ⟨R, p2⟩ = .ok T2 →
    ∀ (s1 : SuperQuadrics) (k : ℤ), T1.minkSum s1 k = T2.minkSum s1 k

/-- The Minkowski boundary depends on the second shape only through its semi-axes and orientation. -/
theorem SuperQuadrics.minkSum3D_congr (E B C : SuperQuadrics) (k : ℤ) (ha : B.a = C.a) (hb : B.b = C.b)
    (hc : B.c = C.c) (hr : B.quat = C.quat) : E.minkSum3D B k = E.minkSum3D C k := by
  simp only [SuperQuadrics.minkSum3D, SuperQuadrics.minkPoint, SuperQuadrics.tinv, ha, hb, hc, hr]

/-- **C38 (space, what the code does)**: if the base stands at `p2` instead of `p1`, the reported boundary
of the base is the same, but the reported boundary of every other body is moved by `p1 - p2`. -/
theorem C38_minkSum3D_shift (base : SuperQuadrics) (ops : List (RobotOp SuperQuadrics 3)) (T T1 T2 : Tree3)
    (R : Matrix (Fin 3) (Fin 3) ℝ) (p1 p2 : Fin 3 → ℝ) (hT : Tree3.run ops (Tree3.new base) = .ok T)
    (h1 : T.robotTF ⟨R, p1⟩ = .ok T1) (h2 : T.robotTF ⟨R, p2⟩ = .ok T2) (s1 : SuperQuadrics) (k : ℤ) :
    ∃ B1 B2, T1.minkSum s1 k = .ok B1 ∧ T2.minkSum s1 k = .ok B2 ∧ B1[0]? = B2[0]? ∧
      ∀ i, i < (addedBodies ops).length → ∃ b, B1[i + 1]? = some b ∧
        B2[i + 1]? = some (b.map fun x => x + (p1 - p2)) ∧ b.length = s1.num * s1.num := by
  obtain ⟨T0, h, hi⟩ := Tree3.run_inv base ops
  rw [hT] at h
  obtain rfl := (Res.ok.injEq _ _).mp h
  obtain ⟨T1', e, hi1, hb1, hl1⟩ := hi.move ⟨R, p1⟩
  rw [h1] at e
  obtain rfl := (Res.ok.injEq _ _).mp e
  obtain ⟨T2', e, hi2, hb2, hl2⟩ := hi.move ⟨R, p2⟩
  rw [h2] at e
  obtain rfl := (Res.ok.injEq _ _).mp e
  have run1 : ∀ g' T', T.robotTF g' = .ok T' → Tree3.run (ops ++ [.move g']) (Tree3.new base) = .ok T' := by
    intro g' T' h
    unfold Tree3.run at *
    rw [List.foldlM_append, hT]
    simp [h]
  have hadd : ∀ g', addedBodies (ops ++ [RobotOp.move g']) = addedBodies ops := by
    intro g'; simp [addedBodies, List.filterMap_append]
  obtain ⟨B1, e1, -, b1, l1⟩ := C37_minkSum3D base (ops ++ [.move ⟨R, p1⟩]) T1 (run1 _ _ h1) s1 k
  obtain ⟨B2, e2, -, b2, l2⟩ := C37_minkSum3D base (ops ++ [.move ⟨R, p2⟩]) T2 (run1 _ _ h2) s1 k
  refine ⟨B1, B2, e1, e2, ?_, ?_⟩
  · rw [b1, b2, hb1, hb2]
    exact congrArg some (SuperQuadrics.minkSum3D_congr s1 _ _ k rfl rfl rfl (by simp only [Tree3.place]))
  · intro i hn
    obtain ⟨l, hli⟩ : ∃ l, (addedBodies ops)[i]? = some l := ⟨_, List.getElem?_eq_getElem hn⟩
    obtain ⟨l0, f0, -, f1⟩ := hl1 i l hli
    obtain ⟨l0', f0', -, f2⟩ := hl2 i l hli
    rw [f0] at f0'
    obtain rfl := Option.some.inj f0'
    refine ⟨_, l1 i _ f1, ?_, by simp [SuperQuadrics.minkSum3D]⟩
    rw [l2 i _ f2, List.map_map]
    rw [SuperQuadrics.minkSum3D_congr s1 (Tree3.place l0 ((⟨R, p2⟩ : Pose 3).mul ⟨quatRot l.quat, l.pos⟩))
      (Tree3.place l0 ((⟨R, p1⟩ : Pose 3).mul ⟨quatRot l.quat, l.pos⟩)) k (by simp only [Tree3.place])
      (by simp only [Tree3.place]) (by simp only [Tree3.place]) (by simp only [Tree3.place, Pose.mul])]
    congr 1
    apply List.map_congr_left
    intro x _
    simp only [Function.comp, Tree3.place, Pose.mul]
    abel

/-- A ball. -/
def exBall (p : Fin 3 → ℝ) : SuperQuadrics := ⟨1, 1, 1, 1, 1, p, (1, 0, 0, 0), 2⟩

theorem exRigid (p : Fin 3 → ℝ) : (⟨1, p⟩ : Pose 3).Rigid3 := by
  refine ⟨?_, ?_, ?_⟩ <;> simp

/-- **C38 is false of the code in space**: a robot of two balls, its base at the origin or at (1,0,0). -/
theorem C38_refuted : ¬ C38_claim := by
  intro h
  have hops : RigidOps3 [.add (exBall ![0, 0, 3])] := by
    refine ⟨by simp, ?_⟩
    intro l hl
    simp only [List.mem_singleton, RobotOp.add.injEq] at hl
    subst hl
    simp [exBall]
  obtain ⟨T, hT, hnum, -, -, -, hmove⟩ := C37_robot3D (exBall 0) _ hops
  obtain ⟨T1, h1, -⟩ := hmove ⟨1, 0⟩ (exRigid _)
  obtain ⟨T2, h2, -⟩ := hmove ⟨1, ![1, 0, 0]⟩ (exRigid _)
  have heq := h _ _ hops T T1 T2 1 0 ![1, 0, 0] (exRigid _) hT h1 h2 (exBall 0) 1
  obtain ⟨B1, B2, e1, e2, -, hsh⟩ := C38_minkSum3D_shift _ _ T T1 T2 1 0 ![1, 0, 0] hT h1 h2 (exBall 0) 1
  rw [e1, e2] at heq
  obtain rfl := (Res.ok.injEq _ _).mp heq
  obtain ⟨b, f1, f2, hlen⟩ := hsh 0 (by simp [addedBodies])
  rw [f1] at f2
  have hb := Option.some.inj f2
  have h0 : 0 < b.length := by rw [hlen]; simp [exBall]
  have h3 := congrArg (fun l => l[0]?) hb
  simp only [List.getElem?_map, List.getElem?_eq_getElem h0, Option.map_some, Option.some.injEq] at h3
  have := congrFun h3 0
  simp at this

/-- **C38 (space, partial).** When the base stands at the origin, placing the base (rotation unchanged) on
a point of the boundary reported for body `i` makes body `i` meet the obstacle. Missing (false): other
positions of the base. -/
theorem C38_boundary_points_collide_3D_partial (base : SuperQuadrics) (ops : List (RobotOp SuperQuadrics 3))
    (hops : RigidOps3 ops) (T T' : Tree3) (R : Matrix (Fin 3) (Fin 3) ℝ) (hg : (⟨R, 0⟩ : Pose 3).Rigid3)
    (hT : Tree3.run ops (Tree3.new base) = .ok T) (hT' : T.robotTF ⟨R, 0⟩ = .ok T')
    (s1 : SuperQuadrics) (h1 : s1.Ok) (i : ℕ) (l : SuperQuadrics) (hl : (addedBodies ops)[i]? = some l)
    (hok : l.Ok) (he1 : l.e1 = 1) (he2 : l.e2 = 1) (B : List (List (Fin 3 → ℝ))) (hB : T'.minkSum s1 1 = .ok B)
    (bd : List (Fin 3 → ℝ)) (hbd : B[i + 1]? = some bd) (m : Fin 3 → ℝ) (hm : m ∈ bd) :
    ∃ x, x ∈ s1.solid ∧ x ∈ l.carried ⟨R, m⟩ := by
  have hrun : Tree3.run (ops ++ [.move ⟨R, 0⟩]) (Tree3.new base) = .ok T' := by
    unfold Tree3.run at *
    rw [List.foldlM_append, hT]
    simp [hT']
  obtain ⟨B', hB', -, -, hlink⟩ := C37_minkSum3D base _ T' hrun s1 1
  rw [hB] at hB'
  obtain rfl := (Res.ok.injEq _ _).mp hB'
  obtain ⟨T0, h, hi⟩ := Tree3.run_inv base ops
  rw [hT] at h
  obtain rfl := (Res.ok.injEq _ _).mp h
  obtain ⟨T1, e, hi', hb, hlk⟩ := hi.move ⟨R, 0⟩
  rw [hT'] at e
  obtain rfl := (Res.ok.injEq _ _).mp e
  obtain ⟨l0, -, hs, e3⟩ := hlk i l hl
  have := hlink i _ e3
  rw [hbd] at this
  rw [Option.some.inj this] at hm
  have hrig := (hg.mul (rigid_link (hops.2 l (mem_added (List.mem_of_getElem? hl))))).quat
  set l' := Tree3.place l0 ((⟨R, 0⟩ : Pose 3).mul ⟨quatRot l.quat, l.pos⟩) with hl'
  obtain ⟨p, hp, rfl⟩ := List.mem_map.1 hm
  have hok' : l'.Ok := ⟨hs.1 ▸ hok.a, hs.2.1 ▸ hok.b, hs.2.2.1 ▸ hok.c, hs.2.2.2.1 ▸ hok.lo1, hs.2.2.2.1 ▸ hok.hi1,
    hs.2.2.2.2.1 ▸ hok.lo2, hs.2.2.2.2.1 ▸ hok.hi2, hrig.1⟩
  obtain ⟨x, hx, y, ⟨q, hq, rfl⟩, rfl⟩ := ((C46_minkowski_3D s1 l' h1 hok'
    (hs.2.2.2.1.trans he1) (hs.2.2.2.2.1.trans he2)).2.1 p hp).1
  refine ⟨x, hx, -q, ?_, ?_⟩
  · have : l.implicit (-q) = l'.implicit q := by
      have : l'.implicit = l.implicit := by rw [← hs.implicit]; rfl
      rw [this]
      simp [SuperQuadrics.implicit, neg_div]
    rw [this]; exact hq
  · have hr : quatRot l'.quat = R * quatRot l.quat := hrig.2
    have hp1 : l'.pos = R *ᵥ l.pos + 0 := rfl
    rw [hr, hp1, mulVec_neg]
    simp only
    abel

/-! ## Witnesses -/

/-- A two-body planar robot that was moved once already. -/
example : let ops : List (RobotOp SuperEllipse 2) := [.add ⟨1, 2, 1, 3, 0, 0, 10⟩, .move ⟨rot2 1, ![5, 6]⟩,
      .add ⟨2, 2, 1, -3, 0, 1, 10⟩]
    RigidOps2 ops ∧ (addedBodies ops).length = 2 := by
  refine ⟨?_, rfl⟩
  intro g hg
  simp only [List.mem_cons, RobotOp.move.injEq, List.not_mem_nil, or_false, reduceCtorEq, false_or] at hg
  exact ⟨1, by rw [hg]⟩

end Hrm
