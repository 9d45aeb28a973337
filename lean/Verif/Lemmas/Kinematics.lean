import Verif.Spec.Kinematics
import Verif.Props.MultiBody
import Verif.Props.Config

/-!
# Lemmas about kinematic trees
-/

namespace Hrm

open Matrix

/-! ## Transformations -/

/-- The action of a transformation on points. -/
def Pose.act {n : ℕ} (g : Pose n) (p : Fin n → ℝ) : Fin n → ℝ := g.rot *ᵥ p + g.pos

theorem Pose.act_mul {n : ℕ} (g h : Pose n) (p : Fin n → ℝ) : (g.mul h).act p = g.act (h.act p) := by
  unfold Pose.act Pose.mul
  rw [mulVec_add, mulVec_mulVec, add_assoc]

theorem Pose.ext_act {n : ℕ} {g h : Pose n} (e : ∀ p, g.act p = h.act p) : g = h := by
  have e0 : g.pos = h.pos := by
    have := e 0
    simpa [Pose.act] using this
  have e1 : g.rot = h.rot := by
    refine Matrix.ext_of_mulVec_single fun i => ?_
    have := e (Pi.single i 1)
    unfold Pose.act at this
    rw [e0] at this
    exact add_right_cancel this
  cases g
  cases h
  simp_all

theorem Pose.one3_act (p : Fin 3 → ℝ) : Pose.one3.act p = p := by simp [Pose.act, Pose.one3]

theorem Pose.mul_assoc3 (g h k : Pose 3) : (g.mul h).mul k = g.mul (h.mul k) :=
  Pose.ext_act fun p => by simp only [Pose.act_mul]

theorem Pose.mul_one3 (g : Pose 3) : g.mul Pose.one3 = g := Pose.ext_act fun p => by
  rw [Pose.act_mul, Pose.one3_act]

theorem Pose.one3_mul (g : Pose 3) : Pose.one3.mul g = g := Pose.ext_act fun p => by
  rw [Pose.act_mul, Pose.one3_act]

theorem Pose.one3_rigid : Pose.one3.Rigid3 := by simp [Pose.Rigid3, Pose.one3]

/-! ## The rotation of a joint -/

theorem kdlRot2_mulVec (u : Fin 3 → ℝ) (th : ℝ) (v : Fin 3 → ℝ) :
    kdlRot2 u th *ᵥ v = rotateAbout u th v := by
  ext i
  fin_cases i <;>
  · simp [kdlRot2, rotateAbout, Matrix.mulVec, dotProduct, Fin.sum_univ_three, crossProduct, vecHead, vecTail]
    ring

theorem sq_pos {a : Fin 3 → ℝ} (h : a ≠ 0) : 0 < a 0 ^ 2 + a 1 ^ 2 + a 2 ^ 2 := by
  by_contra hn
  refine h ?_
  have h0 : a 0 ^ 2 = 0 := by nlinarith [sq_nonneg (a 0), sq_nonneg (a 1), sq_nonneg (a 2)]
  have h1 : a 1 ^ 2 = 0 := by nlinarith [sq_nonneg (a 0), sq_nonneg (a 1), sq_nonneg (a 2)]
  have h2 : a 2 ^ 2 = 0 := by nlinarith [sq_nonneg (a 0), sq_nonneg (a 1), sq_nonneg (a 2)]
  ext i
  fin_cases i
  · simpa using h0
  · simpa using h1
  · simpa using h2

theorem kdlAxis_unit {a : Fin 3 → ℝ} (h : a ≠ 0) : kdlAxis a 0 ^ 2 + kdlAxis a 1 ^ 2 + kdlAxis a 2 ^ 2 = 1 := by
  have hp := sq_pos h
  have hs := Real.sqrt_pos.2 hp
  have hq := Real.sq_sqrt hp.le
  simp only [kdlAxis, Pi.smul_apply, smul_eq_mul, mul_pow, ← mul_add, inv_pow]
  rw [hq]
  exact inv_mul_cancel₀ hp.ne'

theorem unit_eq (j : UrdfJoint) : j.unit = kdlAxis j.axis := by
  unfold UrdfJoint.unit unitAxis kdlAxis
  congr 1
  ext i
  fin_cases i <;> rfl

theorem kdlAxis_rot {R : Matrix (Fin 3) (Fin 3) ℝ} (h : Orth R) (a : Fin 3 → ℝ) : kdlAxis (R *ᵥ a) = R *ᵥ kdlAxis a := by
  have e : ∀ v : Fin 3 → ℝ, v 0 ^ 2 + v 1 ^ 2 + v 2 ^ 2 = v ⬝ᵥ v := by
    intro v
    simp [dotProduct, Fin.sum_univ_three]
    ring
  unfold kdlAxis
  rw [e, e, h.dot, mulVec_smul]

theorem cross_rot {q : Quat} (hq : q.Unit) (u v : Fin 3 → ℝ) :
    crossProduct (quatRot q *ᵥ u) (quatRot q *ᵥ v) = quatRot q *ᵥ crossProduct u v := by
  rw [quatRot_eq_hom hq]
  obtain ⟨w, x, y, z⟩ := q
  unfold Quat.Unit at hq
  simp only at hq
  ext i
  fin_cases i
  · simp [quatHom, Matrix.mulVec, dotProduct, Fin.sum_univ_three, crossProduct]
    linear_combination ((w ^ 2 + x ^ 2 - y ^ 2 - z ^ 2) * (u 1 * v 2 - u 2 * v 1) + 2 * (x * y - w * z) * (u 2 * v 0 - u 0 * v 2) + 2 * (x * z + w * y) * (u 0 * v 1 - u 1 * v 0)) * hq
  · simp [quatHom, Matrix.mulVec, dotProduct, Fin.sum_univ_three, crossProduct]
    linear_combination (2 * (x * y + w * z) * (u 1 * v 2 - u 2 * v 1) + (w ^ 2 - x ^ 2 + y ^ 2 - z ^ 2) * (u 2 * v 0 - u 0 * v 2) + 2 * (y * z - w * x) * (u 0 * v 1 - u 1 * v 0)) * hq
  · simp [quatHom, Matrix.mulVec, dotProduct, Fin.sum_univ_three, crossProduct]
    linear_combination (2 * (x * z - w * y) * (u 1 * v 2 - u 2 * v 1) + 2 * (y * z + w * x) * (u 2 * v 0 - u 0 * v 2) + (w ^ 2 - x ^ 2 - y ^ 2 + z ^ 2) * (u 0 * v 1 - u 1 * v 0)) * hq

theorem rotateAbout_rot {q : Quat} (hq : q.Unit) (u : Fin 3 → ℝ) (th : ℝ) (v : Fin 3 → ℝ) :
    rotateAbout (quatRot q *ᵥ u) th (quatRot q *ᵥ v) = quatRot q *ᵥ rotateAbout u th v := by
  unfold rotateAbout
  rw [cross_rot hq, (quatRot_orth hq).dot, mulVec_add, mulVec_add, mulVec_smul, mulVec_smul, mulVec_smul]

theorem kdlRot2_zero (u : Fin 3 → ℝ) : kdlRot2 u 0 = 1 := by
  ext i j
  fin_cases i <;> fin_cases j <;> simp [kdlRot2]

theorem kdlRot2_rigid {u : Fin 3 → ℝ} (hu : u 0 ^ 2 + u 1 ^ 2 + u 2 ^ 2 = 1) (th : ℝ) (p : Fin 3 → ℝ) :
    (⟨kdlRot2 u th, p⟩ : Pose 3).Rigid3 := by
  have hne : (u 0, u 1, u 2) ≠ ((0, 0, 0) : ℝ × ℝ × ℝ) := by
    intro e
    simp only [Prod.mk.injEq] at e
    rw [e.1, e.2.1, e.2.2] at hu
    norm_num at hu
  obtain ⟨h1, h2⟩ := C77_axis_angle (th := th) hne
  have hun : unitAxis (u 0) (u 1) (u 2) = u := by
    unfold unitAxis
    rw [hu, Real.sqrt_one, inv_one, one_smul]
    ext i
    fin_cases i <;> rfl
  have e : kdlRot2 u th = quatRot (axisAngleQuat th (normalize3 (u 0, u 1, u 2))) := by
    refine Matrix.ext_of_mulVec_single fun i => ?_
    rw [kdlRot2_mulVec u, h2, hun]
  rw [e]
  exact ⟨(quatRot_orth h1).left, (quatRot_orth h1).right, quatRot_det h1⟩

/-! ## The pose of a segment -/

/-- The pose of the segment built from a joint. -/
noncomputable def UrdfJoint.pose (j : UrdfJoint) (x : ℝ) : Pose 3 :=
  (j.toKdl.pose x).mul (((j.toKdl.pose 0).inv3).mul j.origin)

theorem origin_act (j : UrdfJoint) (p : Fin 3 → ℝ) : j.origin.act p = quatRot j.quat *ᵥ p + j.pos := rfl

theorem origin_rigid {j : UrdfJoint} (hq : j.quat.Unit) : j.origin.Rigid3 :=
  ⟨(quatRot_orth hq).left, (quatRot_orth hq).right, quatRot_det hq⟩

theorem tip_eq (j : UrdfJoint) (o : Fin 3 → ℝ) : ((⟨1, o⟩ : Pose 3).inv3).mul j.origin = ⟨quatRot j.quat, j.pos - o⟩ := by
  refine Pose.ext_act fun p => ?_
  rw [Pose.act_mul, origin_act]
  simp [Pose.act, Pose.inv3, sub_eq_add_neg, add_assoc]

theorem rot_ne_zero {q : Quat} (hq : q.Unit) {a : Fin 3 → ℝ} (ha : a ≠ 0) : quatRot q *ᵥ a ≠ 0 := by
  intro e
  have h : (quatRot q)ᵀ *ᵥ (quatRot q *ᵥ a) = a := by
    rw [mulVec_mulVec, (quatRot_orth hq).left, one_mulVec]
  rw [e, mulVec_zero] at h
  exact ha h.symm

/-- The pose of a segment is the meaning of the joint. -/
theorem pose_act {j : UrdfJoint} (hq : j.quat.Unit) (ha : j.axis ≠ 0) (x : ℝ) (p : Fin 3 → ℝ) :
    (j.pose x).act p = j.carry x p := by
  have hne : quatRot j.quat *ᵥ j.axis ≠ 0 := rot_ne_zero hq ha
  have fixed : ((Pose.one3).mul (((Pose.one3).inv3).mul j.origin)).act p = quatRot j.quat *ᵥ p + j.pos := by
    rw [Pose.one3_mul, Pose.act_mul, origin_act]
    simp [Pose.act, Pose.inv3, Pose.one3]
  have turn : ((⟨kdlRot2 (kdlAxis (quatRot j.quat *ᵥ j.axis)) x, j.pos⟩ : Pose 3).mul
      (((⟨kdlRot2 (kdlAxis (quatRot j.quat *ᵥ j.axis)) 0, j.pos⟩ : Pose 3).inv3).mul j.origin)).act p =
      quatRot j.quat *ᵥ rotateAbout j.unit x p + j.pos := by
    rw [kdlRot2_zero, tip_eq, Pose.act_mul]
    unfold Pose.act
    dsimp only
    rw [sub_self, add_zero, kdlRot2_mulVec, kdlAxis_rot (quatRot_orth hq), rotateAbout_rot hq, unit_eq]
  unfold UrdfJoint.pose UrdfJoint.toKdl UrdfJoint.carry
  cases j.type with
  | fixed => exact fixed
  | other => exact fixed
  | revolute => exact turn
  | continuous => exact turn
  | prismatic =>
    change ((⟨1, j.pos + x • kdlAxis (quatRot j.quat *ᵥ j.axis)⟩ : Pose 3).mul
      (((⟨1, j.pos + (0 : ℝ) • kdlAxis (quatRot j.quat *ᵥ j.axis)⟩ : Pose 3).inv3).mul j.origin)).act p = _
    rw [zero_smul, add_zero, tip_eq, Pose.act_mul, kdlAxis_rot (quatRot_orth hq), unit_eq]
    unfold Pose.act
    dsimp only
    rw [one_mulVec, sub_self, add_zero, mulVec_add, mulVec_smul]
    abel

theorem pose_rigid {j : UrdfJoint} (hq : j.quat.Unit) (ha : j.axis ≠ 0) (x : ℝ) : (j.pose x).Rigid3 := by
  have hne : quatRot j.quat *ᵥ j.axis ≠ 0 := rot_ne_zero hq ha
  have r1 : ∀ o : Fin 3 → ℝ, (⟨1, o⟩ : Pose 3).Rigid3 := fun o => by simp [Pose.Rigid3]
  have r2 : ∀ o : Fin 3 → ℝ, ((⟨1, o⟩ : Pose 3).inv3).Rigid3 := fun o => by simp [Pose.Rigid3, Pose.inv3]
  unfold UrdfJoint.pose UrdfJoint.toKdl
  cases j.type with
  | fixed => exact (r1 0).mul ((r2 0).mul (origin_rigid hq))
  | other => exact (r1 0).mul ((r2 0).mul (origin_rigid hq))
  | revolute =>
    refine (kdlRot2_rigid (kdlAxis_unit hne) x _).mul (Pose.Rigid3.mul ?_ (origin_rigid hq))
    dsimp only [KJoint.pose]
    rw [show (j.origin.rot *ᵥ j.axis) = quatRot j.quat *ᵥ j.axis from rfl, kdlRot2_zero]
    exact r2 _
  | continuous =>
    refine (kdlRot2_rigid (kdlAxis_unit hne) x _).mul (Pose.Rigid3.mul ?_ (origin_rigid hq))
    dsimp only [KJoint.pose]
    rw [show (j.origin.rot *ᵥ j.axis) = quatRot j.quat *ᵥ j.axis from rfl, kdlRot2_zero]
    exact r2 _
  | prismatic => exact (r1 _).mul ((r2 _).mul (origin_rigid hq))

/-! ## Building the tree -/

/-- The placement along a chain of joints. -/
noncomputable def chainPose (θ : String → ℝ) : List UrdfJoint → Pose 3
  | [] => Pose.one3
  | j :: js => (j.pose (θ j.name)).mul (chainPose θ js)

theorem moves_eq (j : UrdfJoint) : j.toKdl.moves = j.type.movable := by
  unfold UrdfJoint.toKdl
  cases j.type <;> rfl

theorem pose_fixed {j : UrdfJoint} (h : j.type.movable = false) (x y : ℝ) : j.pose x = j.pose y := by
  unfold UrdfJoint.pose UrdfJoint.toKdl
  cases e : j.type <;> first | rfl | (rw [e] at h; exact absurd h (by simp [JointType.movable]))

theorem segOf_pose (name parent : String) (n : ℕ) (j : UrdfJoint) (x : ℝ) : (segOf name parent n j).pose x = j.pose x := rfl

theorem KTree.add_eq {T : KTree} {name parent : String} (j : UrdfJoint) (hp : T.Has parent) (hn : ¬ T.Has name) :
    T.add name parent j = { T with segs := segOf name parent T.nJ j :: T.segs,
                                   nJ := T.nJ + (movableNames [j]).length } := by
  unfold KTree.add
  rw [if_neg (by tauto), moves_eq]
  unfold movableNames
  cases h : j.type.movable <;> simp [h]

/-- What a part of the description adds to the tree. -/
structure Grows (T T' : KTree) (parent : String) (names : List String) (js : List UrdfJoint)
    (chain : List UrdfJoint → String → Prop) : Prop where
  root : T'.root = T.root
  has : ∀ n, T'.Has n ↔ T.Has n ∨ n ∈ names
  nJ : T'.nJ = T.nJ + (movableNames js).length
  old : ∀ qs n, T.Has n → fkFrom qs T'.segs n = fkFrom qs T.segs n
  new : ∀ qs θ, (movableNames js).map θ <+: qs.drop T.nJ → ∀ ks n, chain ks n →
    fkFrom qs T'.segs n = (fkFrom qs T.segs parent).mul (chainPose θ ks)

theorem movableNames_append (a b : List UrdfJoint) : movableNames (a ++ b) = movableNames a ++ movableNames b := by
  simp [movableNames]

theorem prefix_split {α : Type} {a b l : List α} (h : a ++ b <+: l) : a <+: l ∧ b <+: l.drop a.length := by
  obtain ⟨t, rfl⟩ := h
  refine ⟨⟨b ++ t, by simp⟩, ⟨t, ?_⟩⟩
  rw [List.append_assoc, List.drop_left]

theorem chain_nil {ks : List UrdfJoint} {n : String} : ¬ Chain [] ks n := by
  intro h
  cases h with
  | here h => cases h
  | deeper h => cases h

theorem chain_cons {c : UrdfLink} {cs : List UrdfLink} {ks : List UrdfJoint} {n : String} (h : Chain (c :: cs) ks n) :
    Chain [c] ks n ∨ Chain cs ks n := by
  cases h with
  | here h =>
    rcases List.mem_cons.1 h with rfl | h
    · exact .inl (.here (List.mem_singleton.2 rfl))
    · exact .inr (.here h)
  | deeper h hc =>
    rcases List.mem_cons.1 h with rfl | h
    · exact .inl (.deeper (List.mem_singleton.2 rfl) hc)
    · exact .inr (.deeper h hc)

theorem chain_single {name : String} {j : UrdfJoint} {cs : List UrdfLink} {ks : List UrdfJoint} {n : String}
    (h : Chain [.mk name j cs] ks n) : (n = name ∧ ks = [j]) ∨ ∃ ks', ks = j :: ks' ∧ Chain cs ks' n := by
  cases h with
  | here h =>
    obtain ⟨rfl, rfl, rfl⟩ := UrdfLink.mk.inj (List.mem_singleton.1 h)
    exact .inl ⟨rfl, rfl⟩
  | deeper h hc =>
    obtain ⟨rfl, rfl, rfl⟩ := UrdfLink.mk.inj (List.mem_singleton.1 h)
    exact .inr ⟨_, rfl, hc⟩

theorem mem_linkNames {l : UrdfLink} {n : String} (hn : n ∈ l.names) : ∀ {ls : List UrdfLink}, l ∈ ls → n ∈ linkNames ls
  | [], h => nomatch h
  | c :: cs, h => by
    rw [linkNames]
    rcases List.mem_cons.1 h with rfl | h
    · exact List.mem_append_left _ hn
    · exact List.mem_append_right _ (mem_linkNames hn h)

theorem mem_linkJoints {l : UrdfLink} {j : UrdfJoint} (hn : j ∈ l.joints) :
    ∀ {ls : List UrdfLink}, l ∈ ls → j ∈ linkJoints ls
  | [], h => nomatch h
  | c :: cs, h => by
    rw [linkJoints]
    rcases List.mem_cons.1 h with rfl | h
    · exact List.mem_append_left _ hn
    · exact List.mem_append_right _ (mem_linkJoints hn h)

theorem chain_names {ls : List UrdfLink} {ks : List UrdfJoint} {n : String} (h : Chain ls ks n) : n ∈ linkNames ls := by
  induction h with
  | here h => exact mem_linkNames (by rw [UrdfLink.names]; exact List.mem_cons_self) h
  | deeper h _ ih => exact mem_linkNames (by rw [UrdfLink.names]; exact List.mem_cons_of_mem _ ih) h

theorem chain_joints {ls : List UrdfLink} {ks : List UrdfJoint} {n : String} (h : Chain ls ks n) :
    ∀ j ∈ ks, j ∈ linkJoints ls := by
  induction h with
  | here h =>
    intro j hj
    rw [List.mem_singleton] at hj
    subst hj
    exact mem_linkJoints (by rw [UrdfLink.joints]; exact List.mem_cons_self) h
  | deeper h _ ih =>
    intro j hj
    rcases List.mem_cons.1 hj with rfl | hj
    · exact mem_linkJoints (by rw [UrdfLink.joints]; exact List.mem_cons_self) h
    · exact mem_linkJoints (by rw [UrdfLink.joints]; exact List.mem_cons_of_mem _ (ih j hj)) h

/-- Adding one segment. -/
theorem grows_add {T : KTree} {name parent : String} (j : UrdfJoint) (hp : T.Has parent) (hn : ¬ T.Has name) :
    Grows T (T.add name parent j) parent [name] [j] (fun ks n => ks = [j] ∧ n = name) := by
  rw [KTree.add_eq j hp hn]
  refine ⟨rfl, ?_, rfl, ?_, ?_⟩
  · intro n
    unfold KTree.Has
    simp only [List.mem_cons, exists_eq_or_imp, List.mem_nil_iff, or_false]
    constructor
    · rintro (h | h | h)
      · exact .inl (.inl h)
      · exact .inr h.symm
      · exact .inl (.inr h)
    · rintro ((h | h) | h)
      · exact .inl h
      · exact .inr (.inr h)
      · exact .inr (.inl h.symm)
  · intro qs n h
    have hne : name ≠ n := by rintro rfl; exact hn h
    change (if name = n then _ else _) = _
    rw [if_neg hne]
  · rintro qs θ hpre ks n ⟨rfl, rfl⟩
    change (if n = n then _ else _) = _
    rw [if_pos rfl, segOf_pose]
    change (fkFrom qs T.segs parent).mul _ = _
    congr 1
    change _ = (j.pose (θ j.name)).mul Pose.one3
    rw [Pose.mul_one3]
    cases hm : j.type.movable with
    | false => exact pose_fixed hm _ _
    | true =>
      have hq : (segOf n parent T.nJ j).qNr = T.nJ := by
        unfold segOf
        rw [moves_eq, hm]
        rfl
      have e : movableNames [j] = [j.name] := by
        unfold movableNames
        rw [List.filter_cons, if_pos hm]
        rfl
      rw [hq]
      rw [e] at hpre
      congr 1
      obtain ⟨t, ht⟩ := hpre
      have : (qs.drop T.nJ)[0]? = some (θ j.name) := by rw [← ht]; rfl
      rw [List.getElem?_drop, Nat.add_zero] at this
      rw [List.getD_eq_getElem?_getD, this]
      rfl

mutual
theorem grows_link (l : UrdfLink) (T : KTree) (parent : String) (hp : T.Has parent) (hn : l.names.Nodup)
    (hd : ∀ n ∈ l.names, ¬ T.Has n) : Grows T (addLink parent l T) parent l.names l.joints (Chain [l]) := by
  match l with
  | .mk name j cs =>
    rw [UrdfLink.names, List.nodup_cons] at hn
    rw [UrdfLink.names] at hd
    have g1 := grows_add j hp (hd name List.mem_cons_self)
    have g2 := grows_links cs (T.add name parent j) name ((g1.has name).2 (.inr (by simp))) hn.2 (by
      intro n hmem h
      rcases (g1.has n).1 h with h | h
      · exact hd n (List.mem_cons_of_mem _ hmem) h
      · rw [List.mem_singleton] at h
        exact hn.1 (h ▸ hmem))
    rw [addLink, UrdfLink.names, UrdfLink.joints]
    refine ⟨g2.root.trans g1.root, ?_, ?_, ?_, ?_⟩
    · intro n
      rw [g2.has, g1.has, List.mem_singleton, List.mem_cons, or_assoc]
    · rw [g2.nJ, g1.nJ, show j :: linkJoints cs = [j] ++ linkJoints cs from rfl, movableNames_append, List.length_append,
        Nat.add_assoc]
    · intro qs n h
      rw [g2.old qs n ((g1.has n).2 (.inl h)), g1.old qs n h]
    · intro qs θ hpre ks n hc
      rw [show j :: linkJoints cs = [j] ++ linkJoints cs from rfl, movableNames_append, List.map_append] at hpre
      obtain ⟨p1, p2⟩ := prefix_split hpre
      rw [List.length_map, List.drop_drop, ← g1.nJ] at p2
      have hname := g1.new qs θ p1 [j] name ⟨rfl, rfl⟩
      rcases chain_single hc with ⟨rfl, rfl⟩ | ⟨ks', rfl, hc'⟩
      · rw [g2.old qs n ((g1.has n).2 (.inr (by simp))), hname]
      · rw [g2.new qs θ p2 ks' n hc', hname, Pose.mul_assoc3]
        congr 1
        change ((j.pose (θ j.name)).mul Pose.one3).mul _ = (j.pose (θ j.name)).mul _
        rw [Pose.mul_one3]

theorem grows_links (ls : List UrdfLink) (T : KTree) (parent : String) (hp : T.Has parent) (hn : (linkNames ls).Nodup)
    (hd : ∀ n ∈ linkNames ls, ¬ T.Has n) : Grows T (addLinks parent ls T) parent (linkNames ls) (linkJoints ls)
      (Chain ls) := by
  match ls with
  | [] =>
    rw [addLinks, linkNames, linkJoints]
    exact ⟨rfl, by simp, rfl, fun _ _ _ => rfl, fun _ _ _ _ _ h => absurd h chain_nil⟩
  | c :: cs =>
    rw [linkNames, List.nodup_append] at hn
    rw [linkNames] at hd
    have g1 := grows_link c T parent hp hn.1 (fun n h => hd n (List.mem_append_left _ h))
    have g2 := grows_links cs (addLink parent c T) parent ((g1.has _).2 (.inl hp)) hn.2.1 (by
      intro n hmem h
      rcases (g1.has n).1 h with h | h
      · exact hd n (List.mem_append_right _ hmem) h
      · exact hn.2.2 n h n hmem rfl)
    rw [addLinks, linkNames, linkJoints]
    refine ⟨g2.root.trans g1.root, ?_, ?_, ?_, ?_⟩
    · intro n
      rw [g2.has, g1.has, List.mem_append, or_assoc]
    · rw [g2.nJ, g1.nJ, movableNames_append, List.length_append, Nat.add_assoc]
    · intro qs n h
      rw [g2.old qs n ((g1.has n).2 (.inl h)), g1.old qs n h]
    · intro qs θ hpre ks n hc
      rw [movableNames_append, List.map_append] at hpre
      obtain ⟨p1, p2⟩ := prefix_split hpre
      rw [List.length_map, List.drop_drop, ← g1.nJ] at p2
      rcases chain_cons hc with h | h
      · rw [g2.old qs n ((g1.has n).2 (.inr ?_)), g1.new qs θ p1 ks n h]
        cases c with
        | mk name j ds =>
          rcases chain_single h with ⟨rfl, -⟩ | ⟨ks', -, h'⟩
          · rw [UrdfLink.names]; exact List.mem_cons_self
          · rw [UrdfLink.names]; exact List.mem_cons_of_mem _ (chain_names h')
      · rw [g2.new qs θ p2 ks n h, g1.old qs parent hp]
end

end Hrm
