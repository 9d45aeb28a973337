import Verif.Lemmas.Kinematics
import Verif.Props.Plan

/-!
# C84 – articulated robots are placed as their description says
-/

namespace Hrm

open Matrix

mutual
theorem names_chain (l : UrdfLink) (n : String) (h : n ∈ l.names) : ∃ ks, Chain [l] ks n := by
  match l with
  | .mk name j cs =>
    rw [UrdfLink.names] at h
    rcases List.mem_cons.1 h with rfl | h
    · exact ⟨_, .here (List.mem_singleton.2 rfl)⟩
    · obtain ⟨ks, hk⟩ := linkNames_chain cs n h
      exact ⟨_, .deeper (List.mem_singleton.2 rfl) hk⟩
theorem linkNames_chain (ls : List UrdfLink) (n : String) (h : n ∈ linkNames ls) : ∃ ks, Chain ls ks n := by
  match ls with
  | [] => rw [linkNames] at h; exact absurd h (by simp)
  | c :: cs =>
    rw [linkNames] at h
    rcases List.mem_append.1 h with h | h
    · obtain ⟨ks, hk⟩ := names_chain c n h
      refine ⟨ks, ?_⟩
      cases hk with
      | here h => exact .here (by rw [List.mem_singleton] at h; rw [h]; exact List.mem_cons_self)
      | deeper h hc => exact .deeper (by rw [List.mem_singleton] at h; rw [h]; exact List.mem_cons_self) hc
    · obtain ⟨ks, hk⟩ := linkNames_chain cs n h
      refine ⟨ks, ?_⟩
      cases hk with
      | here h => exact .here (List.mem_cons_of_mem _ h)
      | deeper h hc => exact .deeper (List.mem_cons_of_mem _ h) hc
end

theorem tree_grows {M : UrdfModel} (h : M.Ok) :
    Grows ⟨M.root, [], 0⟩ (treeOf M) M.root (linkNames M.children) (linkJoints M.children) (Chain M.children) := by
  have hn := List.nodup_cons.1 h.names
  refine grows_links M.children ⟨M.root, [], 0⟩ M.root (.inl rfl) hn.2 ?_
  rintro n hmem (e | ⟨s, hs, -⟩)
  · exact hn.1 (by rw [← (show n = M.root from e)]; exact hmem)
  · cases hs

theorem chainPose_act {θ : String → ℝ} : ∀ {js : List UrdfJoint}, (∀ j ∈ js, j.quat.Unit ∧ j.axis ≠ 0) →
    ∀ p, (chainPose θ js).act p = carryAll θ js p
  | [], _, p => Pose.one3_act p
  | j :: js, h, p => by
    change ((j.pose (θ j.name)).mul (chainPose θ js)).act p = j.carry (θ j.name) (carryAll θ js p)
    rw [Pose.act_mul, pose_act (h j List.mem_cons_self).1 (h j List.mem_cons_self).2,
      chainPose_act fun k hk => h k (List.mem_cons_of_mem _ hk)]

theorem chainPose_rigid {θ : String → ℝ} : ∀ {js : List UrdfJoint}, (∀ j ∈ js, j.quat.Unit ∧ j.axis ≠ 0) →
    (chainPose θ js).Rigid3
  | [], _ => Pose.one3_rigid
  | j :: _, h => (pose_rigid (h j List.mem_cons_self).1 (h j List.mem_cons_self).2 _).mul
      (chainPose_rigid fun k hk => h k (List.mem_cons_of_mem _ hk))

/-- A rotation survives the way over the quaternion. -/
theorem requat {gq : Matrix (Fin 3) (Fin 3) ℝ → Quat} (hq : GetQuatOk gq) {g : Pose 3} (h : g.Rigid3) :
    (⟨quatRot (gq g.rot), g.pos⟩ : Pose 3) = g := by
  cases g
  rw [(hq _ h.1 h.2.1 h.2.2).2]

/-- **C84, number of joints.** The tree has as many joint values as the description has movable joints. -/
theorem C84_joint_number {M : UrdfModel} (h : M.Ok) :
    (treeOf M).nJ = (movableNames (linkJoints M.children)).length := by
  rw [(tree_grows h).nJ]
  exact Nat.zero_add _

/-- **C84, placement of a body.** For every well-formed description with a movable joint, every body of it and all joint
values — `θ` by the names of the joints, given as a list in the order of the description, parents first —: the placement
returned is a rigid motion and carries each point of the body as the joints on the way to the body say. -/
theorem C84_placement {gq : Matrix (Fin 3) (Fin 3) ℝ → Quat} (hq : GetQuatOk gq) {M : UrdfModel} (h : M.Ok)
    {js : List UrdfJoint} {n : String} (hc : Chain M.children js n) (θ : String → ℝ)
    (hne : movableNames (linkJoints M.children) ≠ []) :
    ∃ f, (treeOf M).getTransform gq ((movableNames (linkJoints M.children)).map θ) n = .ok f ∧ f.Rigid3 ∧
      ∀ p, f.rot *ᵥ p + f.pos = carryAll θ js p := by
  have g := tree_grows h
  have hjs : ∀ j ∈ js, j.quat.Unit ∧ j.axis ≠ 0 := fun j hj =>
    ⟨h.unit j (chain_joints hc j hj), h.axis j (chain_joints hc j hj)⟩
  have hr := chainPose_rigid (θ := θ) hjs
  refine ⟨chainPose θ js, ?_, hr, chainPose_act hjs⟩
  unfold KTree.getTransform
  rw [if_neg (by rw [C84_joint_number h]; simp), if_neg (not_not.2 ((g.has n).2 (.inr (chain_names hc)))),
    if_neg (by simpa using hne)]
  change Res.ok _ = _
  rw [g.new _ θ (by rw [List.drop_zero]) js n hc]
  change Res.ok (⟨quatRot (gq (Pose.one3.mul (chainPose θ js)).rot), (Pose.one3.mul (chainPose θ js)).pos⟩ : Pose 3) = _
  rw [Pose.one3_mul, requat hq hr]

/-- Joint values in a list are values by name. -/
theorem C84_values_by_name {M : UrdfModel} (h : M.Ok) {qs : List ℝ}
    (hl : qs.length = (movableNames (linkJoints M.children)).length) :
    ∃ θ : String → ℝ, qs = (movableNames (linkJoints M.children)).map θ := by
  have hn : (movableNames (linkJoints M.children)).Nodup :=
    List.Nodup.sublist (List.Sublist.map _ List.filter_sublist) h.joints
  set ns := movableNames (linkJoints M.children)
  refine ⟨fun s => qs.getD (ns.idxOf s) 0, ?_⟩
  refine List.ext_getElem (by simpa using hl) ?_
  intro i h1 h2
  rw [List.getElem_map, hn.idxOf_getElem]
  simp [h1]

/-- **C84, locality.** The placement of a body depends only on the values of the joints on the way to it. -/
theorem C84_local {gq : Matrix (Fin 3) (Fin 3) ℝ → Quat} (hq : GetQuatOk gq) {M : UrdfModel} (h : M.Ok)
    {js : List UrdfJoint} {n : String} (hc : Chain M.children js n) {θ θ' : String → ℝ} (he : ∀ j ∈ js, θ j.name = θ' j.name)
    (hne : movableNames (linkJoints M.children) ≠ []) :
    (treeOf M).getTransform gq ((movableNames (linkJoints M.children)).map θ) n =
      (treeOf M).getTransform gq ((movableNames (linkJoints M.children)).map θ') n := by
  obtain ⟨f, e, -, hf⟩ := C84_placement hq h hc θ hne
  obtain ⟨f', e', -, hf'⟩ := C84_placement hq h hc θ' hne
  rw [e, e']
  congr 1
  refine Pose.ext_act fun p => ?_
  change f.rot *ᵥ p + f.pos = f'.rot *ᵥ p + f'.pos
  rw [hf, hf']
  clear hf hf' e e' hc
  induction js with
  | nil => rfl
  | cons j js ih =>
    change j.carry (θ j.name) (carryAll θ js p) = j.carry (θ' j.name) (carryAll θ' js p)
    rw [he j List.mem_cons_self, ih fun k hk => he k (List.mem_cons_of_mem _ hk)]

theorem one_placed {gq : Matrix (Fin 3) (Fin 3) ℝ → Quat} (hq : GetQuatOk gq) :
    (⟨quatRot (gq Pose.one3.rot), Pose.one3.pos⟩ : Pose 3) = Pose.one3 := requat hq Pose.one3_rigid

/-- C84: a body the description does not know is placed as if it were fixed to the base. -/
theorem C84_unknown_body {gq : Matrix (Fin 3) (Fin 3) ℝ → Quat} (hq : GetQuatOk gq) {M : UrdfModel} (h : M.Ok) {n : String}
    (hn : n ∉ M.root :: linkNames M.children) (qs : List ℝ) : (treeOf M).getTransform gq qs n = .ok Pose.one3 := by
  have g := tree_grows h
  have hno : ¬ (treeOf M).Has n := by
    rw [g.has]
    rintro ((e | ⟨s, hs, -⟩) | e)
    · exact hn (by rw [show n = M.root from e]; exact List.mem_cons_self)
    · cases hs
    · exact hn (List.mem_cons_of_mem _ e)
  unfold KTree.getTransform
  rw [if_pos hno]
  split
  · exact congrArg Res.ok (one_placed hq)
  · exact congrArg Res.ok (one_placed hq)

/-- C84: with a wrong number of joint values all bodies are placed as if they were fixed to the base, with all joint
origins ignored. -/
theorem C84_wrong_number {gq : Matrix (Fin 3) (Fin 3) ℝ → Quat} (hq : GetQuatOk gq) {M : UrdfModel} (h : M.Ok) (n : String)
    {qs : List ℝ} (hl : qs.length ≠ (movableNames (linkJoints M.children)).length) :
    (treeOf M).getTransform gq qs n = .ok Pose.one3 := by
  unfold KTree.getTransform
  rw [if_pos (by rwa [C84_joint_number h])]
  exact congrArg Res.ok (one_placed hq)

/-- C84: with a description without movable joints, asking for one of its bodies reads a joint value that does not
exist. -/
theorem C84_no_joint_ub {gq : Matrix (Fin 3) (Fin 3) ℝ → Quat} {M : UrdfModel} (h : M.Ok)
    (h0 : movableNames (linkJoints M.children) = []) {n : String} (hn : n ∈ M.root :: linkNames M.children) :
    (treeOf M).getTransform gq [] n = .ub := by
  have g := tree_grows h
  unfold KTree.getTransform
  rw [if_neg (by rw [C84_joint_number h, h0]; simp), if_neg (not_not.2 ((g.has n).2 ?_)), if_pos rfl]
  · rfl
  · rcases List.mem_cons.1 hn with e | e
    · exact .inl (.inl e)
    · exact .inr e

/-- C84: a floating or planar joint is treated as a fixed one: it has no value. -/
theorem C84_unsupported_joint (j : UrdfJoint) (h : j.type = .other) : j.toKdl = .none ∧ movableNames [j] = [] := by
  constructor
  · unfold UrdfJoint.toKdl
    rw [h]
  · simp [movableNames, h, JointType.movable]

/-- The claim as a user would state it: a placement that is returned is that of the body of this name, for the joint
values given. -/
def C84_claim (gq : Matrix (Fin 3) (Fin 3) ℝ → Quat) : Prop :=
  ∀ (M : UrdfModel), M.Ok → ∀ (qs : List ℝ) (n : String) (f : Pose 3), (treeOf M).getTransform gq qs n = .ok f →
    ∃ (js : List UrdfJoint) (θ : String → ℝ), Chain M.children js n ∧ qs = (movableNames (linkJoints M.children)).map θ ∧
      ∀ p, f.rot *ᵥ p + f.pos = carryAll θ js p

/-- C84 is false of the program: failures are printed, not reported. -/
theorem C84_refuted {gq : Matrix (Fin 3) (Fin 3) ℝ → Quat} (hq : GetQuatOk gq) : ¬ C84_claim gq := by
  intro h
  have hM : (⟨"base", []⟩ : UrdfModel).Ok :=
    ⟨by simp [linkNames], by simp [linkJoints], by simp [linkJoints], by simp [linkJoints]⟩
  obtain ⟨js, θ, hc, -⟩ := h _ hM [] "body1" _ (C84_unknown_body hq hM (by simp [linkNames]) [])
  exact chain_nil hc

/-! ## The whole robot -/

theorem getTransform_ok {gq : Matrix (Fin 3) (Fin 3) ℝ → Quat} (hq : GetQuatOk gq) {M : UrdfModel} (h : M.Ok)
    (θ : String → ℝ) (hne : movableNames (linkJoints M.children) ≠ []) (n : String) :
    ∃ f, (treeOf M).getTransform gq ((movableNames (linkJoints M.children)).map θ) n = .ok f ∧ f.Rigid3 ∧
      (n ∉ linkNames M.children → f = Pose.one3) := by
  by_cases hn : n ∈ linkNames M.children
  · obtain ⟨js, hc⟩ := linkNames_chain _ n hn
    obtain ⟨f, e, hr, -⟩ := C84_placement hq h hc θ hne
    exact ⟨f, e, hr, fun h => absurd hn h⟩
  · by_cases hr : n = M.root
    · have g := tree_grows h
      refine ⟨Pose.one3, ?_, Pose.one3_rigid, fun _ => rfl⟩
      unfold KTree.getTransform
      rw [if_neg (by rw [C84_joint_number h]; simp), if_neg (not_not.2 ((g.has n).2 (.inl (.inl hr)))),
        if_neg (by simpa using hne)]
      change Res.ok _ = _
      rw [g.old _ n (.inl hr)]
      exact congrArg Res.ok (one_placed hq)
    · exact ⟨_, C84_unknown_body hq h (by simp [hr, hn]) _, Pose.one3_rigid, fun _ => rfl⟩

theorem robotTFJoints_eq {gq : Matrix (Fin 3) (Fin 3) ℝ → Quat} {T : KTree} {qs : List ℝ} {fk : ℕ → Pose 3}
    (h : ∀ i, T.getTransform gq qs (bodyName i) = .ok (fk i)) (R : Tree3) (g : Pose 3) :
    R.robotTFJoints gq T g qs = R.robotTFWith g fk := by
  unfold Tree3.robotTFJoints Tree3.robotTFWith
  congr 1
  funext R i
  rw [h i]
  rfl

theorem carried_eq (l : SuperQuadrics) (g : Pose 3) : l.carried g = {x | ∃ p ∈ l.solid, x = g.act p} := by
  ext x
  constructor
  · rintro ⟨q, hi, rfl⟩
    refine ⟨quatRot l.quat *ᵥ q + l.pos, ⟨_, ⟨q, hi, rfl⟩, rfl⟩, ?_⟩
    unfold Pose.act
    rw [mulVec_add, mulVec_mulVec, add_assoc]
  · rintro ⟨p, ⟨_, ⟨q, hi, rfl⟩, rfl⟩, rfl⟩
    refine ⟨q, hi, ?_⟩
    unfold Pose.act
    rw [mulVec_add, mulVec_mulVec, add_assoc]

/-- **C84, the whole robot.** For every robot, built by any history, every well-formed description with a movable joint,
every rigid base frame `g` and all joint values: moving the robot succeeds; the base is at `g`; the body number `i` whose
link `body(i+1)` is in the description is carried by the joints on the way to it and then by `g`; a body whose link is not
in the description is carried by `g` alone. -/
theorem C84_robot {gq : Matrix (Fin 3) (Fin 3) ℝ → Quat} (hq : GetQuatOk gq) {M : UrdfModel} (h : M.Ok)
    (hne : movableNames (linkJoints M.children) ≠ []) (θ : String → ℝ) (base : SuperQuadrics)
    (ops : List (RobotOp SuperQuadrics 3)) (hops : RigidOps3 ops) (T : Tree3)
    (hT : Tree3.run ops (Tree3.new base) = .ok T) (g : Pose 3) (hg : g.Rigid3) :
    ∃ T', T.robotTFJoints gq (treeOf M) g ((movableNames (linkJoints M.children)).map θ) = .ok T' ∧
      T'.base.solid = base.placed g.rot g.pos ∧ T'.link.length = (addedBodies ops).length ∧
      ∀ (i : ℕ) (l : SuperQuadrics), (addedBodies ops)[i]? = some l → ∃ l', T'.link[i]? = some l' ∧
        (∀ js, Chain M.children js ("body" ++ toString (i + 1)) →
          l'.solid = {x | ∃ p ∈ l.solid, x = g.rot *ᵥ carryAll θ js p + g.pos}) ∧
        ("body" ++ toString (i + 1) ∉ linkNames M.children → l'.solid = {x | ∃ p ∈ l.solid, x = g.rot *ᵥ p + g.pos}) := by
  choose fk hfk hr hun using fun i => getTransform_ok hq h θ hne (bodyName i)
  rw [robotTFJoints_eq hfk]
  obtain ⟨T', e, h1, -, h3, h4⟩ := C37_robot3D_articulated base ops hops T hT g hg fk hr
  refine ⟨T', e, h3, h1, ?_⟩
  intro i l hl
  obtain ⟨l', e1, e2⟩ := h4 i l hl
  have key : l'.solid = {x | ∃ p ∈ l.solid, x = g.rot *ᵥ (fk i).act p + g.pos} := by
    rw [e2, carried_eq]
    ext x
    constructor
    · rintro ⟨p, hp, rfl⟩
      exact ⟨p, hp, Pose.act_mul g (fk i) p⟩
    · rintro ⟨p, hp, rfl⟩
      exact ⟨p, hp, (Pose.act_mul g (fk i) p).symm⟩
  refine ⟨l', e1, ?_, ?_⟩
  · intro js hc
    change Chain M.children js (bodyName i) at hc
    obtain ⟨f, ef, -, hf⟩ := C84_placement hq h hc θ hne
    rw [hfk i] at ef
    obtain rfl := (Res.ok.injEq _ _).mp ef
    rw [key]
    ext x
    constructor
    · rintro ⟨p, hp, rfl⟩
      exact ⟨p, hp, by rw [← hf p]; rfl⟩
    · rintro ⟨p, hp, rfl⟩
      exact ⟨p, hp, by rw [← hf p]; rfl⟩
  · intro hn
    rw [key, hun i hn]
    simp only [Pose.one3_act]

/-! ## The planners -/

/-- **C84, the kinematics of the planners.** For every well-formed description, all joint values and every body, the planners
work with a rigid motion, as the checks of the articulated planner (C53) ask of the kinematics. -/
theorem C84_arm_rigid {gq : Matrix (Fin 3) (Fin 3) ℝ → Quat} (hq : GetQuatOk gq) {M : UrdfModel} (h : M.Ok)
    (qs : List ℝ) (i : ℕ) : ((armOf gq (parseURDF (some M))).fk qs i).Rigid3 := by
  change (match (treeOf M).getTransform gq qs (bodyName i) with | .ok f => f | _ => Pose.one3).Rigid3
  by_cases hne : movableNames (linkJoints M.children) = []
  · by_cases hqs : qs = []
    · subst hqs
      by_cases hn : bodyName i ∈ M.root :: linkNames M.children
      · rw [C84_no_joint_ub h hne hn]
        exact Pose.one3_rigid
      · rw [C84_unknown_body hq h hn]
        exact Pose.one3_rigid
    · rw [C84_wrong_number hq h _ (by rw [hne]; simpa using hqs)]
      exact Pose.one3_rigid
  · by_cases hl : qs.length = (movableNames (linkJoints M.children)).length
    · obtain ⟨θ, rfl⟩ := C84_values_by_name h hl
      obtain ⟨f, e, hr, -⟩ := getTransform_ok hq h θ hne (bodyName i)
      rw [e]
      exact hr
    · rw [C84_wrong_number hq h _ hl]
      exact Pose.one3_rigid

theorem bodyName_ne (i : ℕ) : bodyName i ≠ "root" := by
  intro e
  have := congrArg String.toList e
  simp [bodyName] at this

/-- **C84, unreadable description.** If the robot description cannot be read, the planner for articulated robots and the
planner for rigid bodies put every robot at the same place for every configuration: the robot is silently taken for a
rigid body. -/
theorem C84_missing_description {gq : Matrix (Fin 3) (Fin 3) ℝ → Quat} (hq : GetQuatOk gq) (T : Tree3) (v : Vec) :
    setTransform3 (some (armOf gq (parseURDF none))) T v = setTransform3 none T v := by
  have hfk : ∀ i, (armOf gq (parseURDF none)).fk [] i = Pose.one3 := by
    intro i
    have : (parseURDF none).getTransform gq [] (bodyName i) = .ok Pose.one3 := by
      unfold KTree.getTransform
      rw [if_neg (by simp [parseURDF]), if_pos]
      · exact congrArg Res.ok (one_placed hq)
      · rintro (e | ⟨s, hs, -⟩)
        · exact bodyName_ne i e
        · cases hs
    unfold armOf
    dsimp only
    rw [this]
  have hr : ∀ g, T.robotTFWith g ((armOf gq (parseURDF none)).fk []) = T.robotTF g := by
    intro g
    unfold Tree3.robotTFWith Tree3.robotTF
    congr 1
    funext R i
    rw [hfk i, Pose.mul_one3]
  unfold setTransform3
  congr 1
  funext q
  congr 1
  funext x
  congr 1
  funext y
  congr 1
  funext z
  exact hr _

/-- **C84, the tree-like robot.** The start of a configuration file with the nine joint values of the tree-like robot: the
planning configuration keeps six of them, and its length is not the one by which the description is chosen, so the robot is
planned for without one. -/
theorem C84_tree_dropped (x y z ux uy uz th : ℝ) (js : List ℝ) (hj : js.length = 9)
    (hax : (ux, uy, uz) ≠ ((0, 0, 0) : ℝ × ℝ × ℝ)) :
    ∃ q : Quat, convertConfig .tree .space (x :: y :: z :: ux :: uy :: uz :: th :: js) =
        .ok (some (conf7 x y z q ++ js.take 6)) ∧ chooseDescription (conf7 x y z q ++ js.take 6) = .none := by
  obtain ⟨q, e, -⟩ := (C77_configuration_space .tree x y z ux uy uz th js hax).1 (by rw [hj]; decide)
  refine ⟨q, e, ?_⟩
  unfold chooseDescription
  rw [if_neg, if_neg] <;> simp [conf7, hj]

/-- The snake-like robot, with three joint values, gets its description. -/
theorem C84_snake_kept (x y z ux uy uz th : ℝ) (js : List ℝ) (hj : js.length = 3)
    (hax : (ux, uy, uz) ≠ ((0, 0, 0) : ℝ × ℝ × ℝ)) :
    ∃ q : Quat, convertConfig .snake .space (x :: y :: z :: ux :: uy :: uz :: th :: js) =
        .ok (some (conf7 x y z q ++ js)) ∧ chooseDescription (conf7 x y z q ++ js) = .snake := by
  obtain ⟨q, e, -⟩ := (C77_configuration_space .snake x y z ux uy uz th js hax).1 (by rw [hj]; decide)
  rw [List.take_of_length_le (by rw [hj]; decide)] at e
  refine ⟨q, e, ?_⟩
  unfold chooseDescription
  rw [if_pos]
  simp [conf7, hj]

theorem jointsAt_short {n : ℕ} {v : Vec} (h7 : 7 ≤ v.length) (h : v.length < 7 + n) : jointsAt n v = .throw := by
  unfold jointsAt
  have key : ∀ (l : List ℕ) (acc : List ℝ), (∃ i ∈ l, v.length ≤ 7 + i) →
      l.foldlM (fun acc i => (Res.at' v (7 + i)).bind fun x => (.ok (acc ++ [x]) : Res (List ℝ))) acc = .throw := by
    intro l
    induction l with
    | nil => rintro acc ⟨i, hi, -⟩; simp at hi
    | cons j l ih =>
      rintro acc ⟨i, hi, hr⟩
      rw [List.foldlM_cons]
      by_cases hj : v.length ≤ 7 + j
      · have : Res.at' v (7 + j) = .throw := by
          unfold Res.at'
          rw [List.getElem?_eq_none hj]
        rw [this]; rfl
      · have : Res.at' v (7 + j) = .ok (v[7 + j]'(by omega)) := by
          rw [Res.at'_eq_ok, List.getElem?_eq_getElem]
        rw [this]
        refine ih _ ⟨i, ?_, hr⟩
        rcases List.mem_cons.1 hi with rfl | hi
        · exact absurd hr hj
        · exact hi
  exact key _ _ ⟨v.length - 7, List.mem_range.2 (by omega), by omega⟩

theorem probPlan_throw {σ : Type} {ops : ProbOps σ} {reset : σ → σ} {clock : ℕ → ℝ} {timeLim : ℝ} {fuel : ℕ} {r : PlanRep σ}
    (h : ops.addSlice (reset r.st) = .throw) : probPlan ops reset clock timeLim (fuel + 1) r = some .throw := by
  have hp : probPass ops clock timeLim ({ r with st := reset r.st, tick := r.tick + 1 }, clock r.tick) = .throw := by
    unfold probPass
    dsimp only
    rw [h]
    rfl
  unfold probPlan probLoop
  rw [hp]
  rfl

/-- **C84, too few joint values.** If the start configuration has fewer joint values than the description has joints, as
that of the tree-like robot does, the planner for articulated robots throws in its first pass, whatever the environment. -/
theorem C84_short_start_throws (L : Libs3) (V : Variant) (A : Arm) (clock : ℕ → ℝ) (timeLim : ℝ) (fuel : ℕ)
    (r : PlanRep Planner3) (h7 : 7 ≤ r.st.start.length) (h : r.st.start.length < 7 + A.nJ) :
    Planner3.planProb L V A clock timeLim (fuel + 1) r = some .throw := by
  have hs : ∀ P : Planner3, P.start = r.st.start → P.par.numSlice = 0 → P.addSlice L V A = .throw := by
    intro P e h0
    have hq : ∃ q, quatAt P.start = .ok q := by
      rw [e]
      unfold quatAt
      have hi : ∀ i < 7, Res.at' r.st.start i = .ok (r.st.start.getD i 0) := by
        intro i hi
        rw [Res.at'_eq_ok, List.getD_eq_getElem?_getD, List.getElem?_eq_getElem (by omega)]
        rfl
      rw [hi 3 (by omega), Res.bind_ok', hi 4 (by omega), Res.bind_ok', hi 5 (by omega), Res.bind_ok', hi 6 (by omega),
        Res.bind_ok']
      exact ⟨_, rfl⟩
    obtain ⟨q, hq⟩ := hq
    unfold Planner3.addSlice Planner3.sampleProb
    rw [if_pos h0, hq, Res.bind_ok', e, jointsAt_short h7 h]
    rfl
  exact probPlan_throw (ops := probOps L V A) (hs { r.st with par := { r.st.par with numSlice := 0 } } rfl rfl)

/-! ## A concrete robot -/

/-- A base, an arm turning about the vertical axis at distance 1, and a slide on it. -/
noncomputable def exArm : UrdfModel :=
  ⟨"base", [.mk "body1" ⟨"j1", .revolute, (1, 0, 0, 0), ![1, 0, 0], ![0, 0, 2]⟩
    [.mk "body2" ⟨"j2", .prismatic, (1, 0, 0, 0), ![2, 0, 0], ![1, 0, 0]⟩ []]]⟩

theorem exArm_joints : linkJoints exArm.children = [⟨"j1", .revolute, (1, 0, 0, 0), ![1, 0, 0], ![0, 0, 2]⟩,
    ⟨"j2", .prismatic, (1, 0, 0, 0), ![2, 0, 0], ![1, 0, 0]⟩] := by
  simp [exArm, linkJoints, UrdfLink.joints]

theorem exArm_ok : exArm.Ok := by
  refine ⟨?_, ?_, ?_, ?_⟩
  · simp [exArm, linkNames, UrdfLink.names]
  · rw [exArm_joints]
    simp
  · rw [exArm_joints]
    simp [Quat.Unit]
  · rw [exArm_joints]
    intro j hj
    simp only [List.mem_cons, List.mem_nil_iff, or_false] at hj
    rcases hj with rfl | rfl <;> intro e
    · have := congrFun e 2
      simp at this
    · have := congrFun e 0
      simp at this

theorem exArm_movable : movableNames (linkJoints exArm.children) = ["j1", "j2"] := by
  rw [exArm_joints]
  rfl

/-- The second body is reached over both joints, and with the values `π/2` and `3` its origin is at `(1, 5, 0)`. -/
example {gq : Matrix (Fin 3) (Fin 3) ℝ → Quat} (hq : GetQuatOk gq) : ∃ f,
    (treeOf exArm).getTransform gq [Real.pi / 2, 3] (bodyName 1) = .ok f ∧ f.Rigid3 ∧ f.pos = ![1, 5, 0] := by
  have hc : Chain exArm.children [⟨"j1", .revolute, (1, 0, 0, 0), ![1, 0, 0], ![0, 0, 2]⟩,
      ⟨"j2", .prismatic, (1, 0, 0, 0), ![2, 0, 0], ![1, 0, 0]⟩] "body2" :=
    .deeper (List.mem_singleton.2 rfl) (.here (List.mem_singleton.2 rfl))
  obtain ⟨f, e, hr, hf⟩ := C84_placement hq exArm_ok hc (fun s => if s = "j1" then Real.pi / 2 else 3)
    (by rw [exArm_movable]; simp)
  rw [exArm_movable] at e
  have e : (treeOf exArm).getTransform gq [Real.pi / 2, 3] "body2" = .ok f := by simpa using e
  refine ⟨f, by rw [show bodyName 1 = "body2" from by decide]; exact e, hr, ?_⟩
  have h0 := hf 0
  rw [mulVec_zero, zero_add] at h0
  rw [h0]
  have u1 : unitAxis 0 0 2 = ![0, 0, 1] := by
    have : Real.sqrt (0 ^ 2 + 0 ^ 2 + 2 ^ 2) = 2 := by
      rw [show (0 : ℝ) ^ 2 + 0 ^ 2 + 2 ^ 2 = 2 ^ 2 by norm_num]
      exact Real.sqrt_sq (by norm_num)
    rw [unitAxis, this]
    ext i
    fin_cases i <;> simp
  have u2 : unitAxis 1 0 0 = ![1, 0, 0] := by
    have : Real.sqrt (1 ^ 2 + 0 ^ 2 + 0 ^ 2) = 1 := by
      rw [show (1 : ℝ) ^ 2 + 0 ^ 2 + 0 ^ 2 = 1 by norm_num, Real.sqrt_one]
    rw [unitAxis, this]
    ext i
    fin_cases i <;> simp
  change quatRot (1, 0, 0, 0) *ᵥ rotateAbout (unitAxis 0 0 2) (Real.pi / 2)
    (quatRot (1, 0, 0, 0) *ᵥ ((0 : Fin 3 → ℝ) + (3 : ℝ) • unitAxis 1 0 0) + ![2, 0, 0]) + ![1, 0, 0] = _
  rw [quatRot_one, one_mulVec, one_mulVec, u1, u2, zero_add]
  have e5 : (3 : ℝ) • ![1, 0, 0] + ![2, 0, 0] = (![5, 0, 0] : Fin 3 → ℝ) := by
    ext i
    fin_cases i <;> norm_num
  rw [e5]
  unfold rotateAbout
  rw [Real.cos_pi_div_two, Real.sin_pi_div_two]
  ext i
  fin_cases i <;> simp [crossProduct]

/-- The contract for the quaternions can be met: by the routine of Eigen. -/
example : GetQuatOk matQuat := fun _ h1 h2 h3 => (rot3_matQuat ⟨h1, h2⟩ h3)

end Hrm
