import Verif.Props.ProbWitness
import Verif.Props.TFE
import Verif.Props.MultiBody

/-!
# C53 – the check between two slices of the incremental planner
-/

namespace Hrm

open Matrix

/-! ## The robot at a configuration -/

/-- The robot with its bodies at configuration `u`. -/
noncomputable def armTree (A : Arm) (base : SuperQuadrics) (added : List SuperQuadrics) (u : Vec) : Tree3 :=
  Tree3.posedArm base added (poseOf u) (A.fk ((u.drop 7).take A.nJ))

theorem readJoints_total (v : Vec) (n : ℕ) (h : 7 + n ≤ v.length) : readJoints n v = .ok ((v.drop 7).take n) := by
  have h1 : ∀ i < n, Res.idx v (7 + i) = .ok (v.getD (7 + i) 0) := by
    intro i hi
    rw [Res.idx_eq_ok, List.getD_eq_getElem?_getD, List.getElem?_eq_getElem (by omega)]; rfl
  have h3 := appendLoop _ _ n h1 []
  have h5 := (readJoints_ok h3).1
  rw [← h5]; exact h3

theorem setArm_eq {base added} {T : Tree3} (hr : Tree3.Inv base added T) {A : Arm} {u : Vec} (h : 7 + A.nJ ≤ u.length) :
    setTransform3 (some A) T u = .ok (armTree A base added u) := by
  unfold setTransform3
  rw [quatOf_eq (by omega), Res.bind_ok', idx_coord (by omega), Res.bind_ok', idx_coord (by omega), Res.bind_ok',
    idx_coord (by omega), Res.bind_ok']
  dsimp only
  rw [readJoints_total u A.nJ h, Res.bind_ok']
  exact hr.posedArm_eq _ _

theorem armTree_inv (A : Arm) (base : SuperQuadrics) (added : List SuperQuadrics) (u : Vec) :
    Tree3.Inv base added (armTree A base added u) := Tree3.posedArm_inv _ _ _ _

theorem armTree_link (A : Arm) (base : SuperQuadrics) (added : List SuperQuadrics) (u : Vec) :
    (armTree A base added u).link = added.mapIdx (armBody A u) := by
  unfold armTree Tree3.posedArm
  dsimp only
  congr 1
  funext i l
  unfold armBody bodyAt Tree3.place Pose.mul
  dsimp only
  congr 1
  rw [mulVec_add, mulVec_mulVec, add_assoc]
  rfl

theorem armTree_bodies (A : Arm) (base : SuperQuadrics) (added : List SuperQuadrics) (u : Vec) :
    (armTree A base added u).bodyShapes = armBodies A base added u := by
  unfold Tree3.bodyShapes armBodies
  rw [armTree_link]
  rfl

theorem armBodies_length (A : Arm) (base : SuperQuadrics) (added : List SuperQuadrics) (u : Vec) :
    (armBodies A base added u).length = added.length + 1 := by
  simp [armBodies]

/-! ## The enclosing ellipsoids -/

/-- The ellipsoid that covers an earlier one `m` and the body `a`. -/
noncomputable def coverOf (svd : SvdFun 3) (m a : SuperQuadrics) : SuperQuadrics :=
  getMVCE3D svd ![m.a, m.b, m.c] ![a.a, a.b, a.c] m.quat a.quat a.num

theorem mvceStep_eq (svd : SvdFun 3) {n : ℕ} {aux mv : List SuperQuadrics} (h1 : mv.length = n) (h2 : aux.length = n) :
    mvceStep svd n aux mv = .ok (List.zipWith (coverOf svd) mv aux) := by
  have key : ∀ k ≤ n, (List.range k).foldlM (fun (mv : List SuperQuadrics) i =>
      (Res.at' mv i).bind fun m => (Res.at' aux i).bind fun a =>
      .ok (mv.set i (getMVCE3D svd ![m.a, m.b, m.c] ![a.a, a.b, a.c] m.quat a.quat a.num))) mv =
      (.ok ((List.zipWith (coverOf svd) mv aux).take k ++ mv.drop k) : Res _) := by
    intro k
    induction k with
    | zero => intro _; simp
    | succ k ih =>
      intro hk
      rw [List.range_succ, List.foldlM_append, ih (by omega), Res.bind_ok, List.foldlM_cons]
      have hlen : ((List.zipWith (coverOf svd) mv aux).take k).length = k := by simp; omega
      have hm : mv[k]? = some mv[k] := List.getElem?_eq_getElem (by omega)
      have ha : aux[k]? = some aux[k] := List.getElem?_eq_getElem (by omega)
      have hg : ((List.zipWith (coverOf svd) mv aux).take k ++ mv.drop k)[k]? = some mv[k] := by
        rw [List.getElem?_append_right (by omega), hlen, Nat.sub_self, List.getElem?_drop, Nat.add_zero, hm]
      rw [Res.at'_eq_ok.2 hg, Res.bind_ok', Res.at'_eq_ok.2 ha, Res.bind_ok', Res.bind_ok, List.foldlM_nil, Res.pure_eq]
      congr 1
      rw [List.set_append_right _ _ (by omega), hlen, Nat.sub_self, List.drop_eq_getElem_cons (by omega), List.set_cons_zero,
        List.take_add_one, List.getElem?_zipWith, hm, ha, List.append_assoc]
      rfl
  have := key n le_rfl
  unfold mvceStep
  rw [this, List.drop_of_length_le (by omega), List.append_nil, List.take_of_length_le (by simp; omega)]

theorem tfeProb_eq {base added} {T : Tree3} (hr : Tree3.Inv base added T) (L : Libs3) (A : Arm) (np : ℕ) {v w : Vec}
    (hv : 7 + A.nJ ≤ v.length) {steps : List Vec} (hi : interpolateCompound v w np = .ok (steps.map (·.map some)))
    (hl : ∀ u ∈ steps, 7 + A.nJ ≤ u.length) :
    computeTFEProb L A np T v w = .ok (steps.foldl (fun mv u => List.zipWith (coverOf L.svd) mv (armBodies A base added u))
      (armBodies A base added v)) := by
  unfold computeTFEProb
  rw [hi, Res.bind_ok', setArm_eq hr hv, Res.bind_ok', armTree_bodies, hr.num]
  have key : ∀ (l : List Vec) (mv : List SuperQuadrics), (∀ u ∈ l, 7 + A.nJ ≤ u.length) → mv.length = added.length + 1 →
      (l.map (·.map some)).foldlM (fun (mv : List SuperQuadrics) row =>
        (numRow row).bind fun v => (setTransform3 (some A) T v).bind fun T' =>
        mvceStep L.svd (added.length + 1) T'.bodyShapes mv) mv =
      (.ok (l.foldl (fun mv u => List.zipWith (coverOf L.svd) mv (armBodies A base added u)) mv) : Res _) := by
    intro l
    induction l with
    | nil => intro mv _ _; rfl
    | cons u l ih =>
      intro mv hu hm
      rw [List.map_cons, List.foldlM_cons, numRow_some, Res.bind_ok', setArm_eq hr (hu u (by simp)), Res.bind_ok',
        armTree_bodies, mvceStep_eq _ hm (armBodies_length _ _ _ _), Res.bind_ok, List.foldl_cons]
      refine ih (List.zipWith (coverOf L.svd) mv (armBodies A base added u)) (fun w hw => hu w (by simp [hw])) ?_
      rw [List.length_zipWith, hm, armBodies_length, min_self]
  exact key steps _ hl (armBodies_length _ _ _ _)

theorem solid0_ellipsoid3 {m : SuperQuadrics} (h1 : m.e1 = 1) (h2 : m.e2 = 1) :
    (ellipsoid3 ![m.a, m.b, m.c] m.quat).solid0 = m.solid0 := by
  unfold SuperQuadrics.solid0 SuperQuadrics.implicit
  rw [h1, h2]
  rfl

theorem solid_of_pos0 {m : SuperQuadrics} (h : m.pos = 0) : m.solid = m.solid0 := by
  unfold SuperQuadrics.solid
  rw [h]
  ext x
  simp

/-- Semi-axes, orientation and exponents as they must be for the covering ellipsoids. -/
def IsEllipsoid (m : SuperQuadrics) : Prop :=
  0 < m.a ∧ 0 < m.b ∧ 0 < m.c ∧ m.quat.Unit ∧ m.e1 = 1 ∧ m.e2 = 1

theorem axes_pos {m : SuperQuadrics} (h : IsEllipsoid m) : ∀ i, 0 < (![m.a, m.b, m.c] : Fin 3 → ℝ) i := by
  intro i
  fin_cases i
  · exact h.1
  · exact h.2.1
  · exact h.2.2.1

theorem coverOf_spec {svd : SvdFun 3} (hs : SvdOk svd) (hdet : ∀ M, SymPos M → (svd M).u.det = 1) {m a : SuperQuadrics}
    (hm : IsEllipsoid m) (ha : IsEllipsoid a) :
    IsEllipsoid (coverOf svd m a) ∧ m.solid0 ⊆ (coverOf svd m a).solid0 ∧ a.solid0 ⊆ (coverOf svd m a).solid0 := by
  obtain ⟨h1, h2, h3, h4, h5, h6⟩ := mvce3D_spec hs hdet (axes_pos hm) (axes_pos ha) hm.2.2.2.1 ha.2.2.2.1 a.num
  refine ⟨⟨h1, h2, h3, h4, rfl, rfl⟩, ?_, ?_⟩
  · rw [solid_of_pos0 (m := ellipsoid3 _ _) rfl, solid_of_pos0 (m := getMVCE3D _ _ _ _ _ _) rfl,
      solid0_ellipsoid3 hm.2.2.2.2.1 hm.2.2.2.2.2] at h5
    exact h5
  · rw [solid_of_pos0 (m := ellipsoid3 _ _) rfl, solid_of_pos0 (m := getMVCE3D _ _ _ _ _ _) rfl,
      solid0_ellipsoid3 ha.2.2.2.2.1 ha.2.2.2.2.2] at h6
    exact h6

theorem coverFold {svd : SvdFun 3} (hs : SvdOk svd) (hdet : ∀ M, SymPos M → (svd M).u.det = 1) {β : Type*}
    (f : β → SuperQuadrics) (l : List β) (hf : ∀ u ∈ l, IsEllipsoid (f u)) : ∀ (m : SuperQuadrics), IsEllipsoid m →
    IsEllipsoid (l.foldl (fun m u => coverOf svd m (f u)) m) ∧
    m.solid0 ⊆ (l.foldl (fun m u => coverOf svd m (f u)) m).solid0 ∧
    ∀ u ∈ l, (f u).solid0 ⊆ (l.foldl (fun m u => coverOf svd m (f u)) m).solid0 := by
  induction l with
  | nil => intro m hm; exact ⟨hm, subset_rfl, by simp⟩
  | cons u l ih =>
    intro m hm
    obtain ⟨c1, c2, c3⟩ := coverOf_spec hs hdet hm (hf u (by simp))
    obtain ⟨i1, i2, i3⟩ := ih (fun w hw => hf w (by simp [hw])) _ c1
    rw [List.foldl_cons]
    refine ⟨i1, c2.trans i2, fun w hw => ?_⟩
    rcases List.mem_cons.1 hw with rfl | hw
    · exact c3.trans i2
    · exact i3 w hw

/-- The ellipsoids of the bodies are independent of each other. -/
theorem coverFold_getElem? {svd : SvdFun 3} {β : Type*} (f : β → List SuperQuadrics) (n : ℕ) (l : List β)
    (hf : ∀ u, (f u).length = n) (b : ℕ) (hb : b < n) : ∀ (mv : List SuperQuadrics) (hm : mv.length = n),
    (l.foldl (fun mv u => List.zipWith (coverOf svd) mv (f u)) mv).length = n ∧
    (l.foldl (fun mv u => List.zipWith (coverOf svd) mv (f u)) mv)[b]? =
      some (l.foldl (fun m u => coverOf svd m ((f u)[b]'(by rw [hf]; exact hb))) (mv[b]'(by omega))) := by
  induction l with
  | nil => intro mv hm; exact ⟨hm, List.getElem?_eq_getElem (l := mv) (by omega)⟩
  | cons u l ih =>
    intro mv hm
    rw [List.foldl_cons]
    have hz : (List.zipWith (coverOf svd) mv (f u)).length = n := by rw [List.length_zipWith, hm, hf, min_self]
    obtain ⟨i1, i2⟩ := ih _ hz
    refine ⟨i1, ?_⟩
    rw [i2, List.foldl_cons, List.getElem_zipWith]

theorem bodyAt_ellipsoid {l : SuperQuadrics} (hl : l.Ok) (h1 : l.e1 = 1) (h2 : l.e2 = 1) (p : Fin 3 → ℝ)
    {R : Matrix (Fin 3) (Fin 3) ℝ} (hR : Orth R) (hd : R.det = 1) : IsEllipsoid (bodyAt l p (matQuat R)) :=
  ⟨hl.a, hl.b, hl.c, (rot3_matQuat hR hd).1, h1, h2⟩

theorem Orth.mul' {R S : Matrix (Fin 3) (Fin 3) ℝ} (hR : Orth R) (hS : Orth S) : Orth (R * S) := by
  constructor
  · rw [transpose_mul, Matrix.mul_assoc, ← Matrix.mul_assoc Rᵀ, hR.left, Matrix.one_mul, hS.left]
  · rw [transpose_mul, Matrix.mul_assoc, ← Matrix.mul_assoc S, hS.right, Matrix.one_mul, hR.right]

theorem armBodies_ellipsoid {A : Arm} (hA : ∀ js i, (A.fk js i).Rigid3) {base : SuperQuadrics} (hb : base.Ok)
    (b1 : base.e1 = 1) (b2 : base.e2 = 1) {added : List SuperQuadrics}
    (ha : ∀ l ∈ added, l.Ok ∧ l.e1 = 1 ∧ l.e2 = 1) {u : Vec} (hu : (quatPart u).Unit) :
    ∀ body ∈ armBodies A base added u, IsEllipsoid body := by
  intro body hbody
  rcases List.mem_cons.1 hbody with rfl | hbody
  · exact bodyAt_ellipsoid hb b1 b2 _ (quatRot_orth hu) (quatRot_det hu)
  · obtain ⟨i, hi, rfl⟩ := List.mem_mapIdx.1 hbody
    obtain ⟨l1, l2, l3⟩ := ha _ (List.getElem_mem hi)
    have hlu : (added[i]).quat.Unit := l1.unit
    obtain ⟨f1, f2, f3⟩ := hA ((u.drop 7).take A.nJ) i
    refine bodyAt_ellipsoid l1 l2 l3 _ (((quatRot_orth hu).mul' ⟨f1, f2⟩).mul' (quatRot_orth hlu)) ?_
    rw [det_mul, det_mul, quatRot_det hu, f3, quatRot_det hlu, one_mul, one_mul]

/-! ## The interpolated orientations -/

theorem slerp_same {p q p' q' : Quat} (hp : SameRotation p' p) (hq : SameRotation q' q)
    (hd : Quat.dot p q ≠ 0 ∨ p' = p ∧ q' = q) (t : ℝ) : SameRotation (slerp p' t q') (slerp p t q) := by
  rcases hd with hd | ⟨rfl, rfl⟩
  swap
  · exact Or.inl rfl
  obtain ⟨p1, p2, p3, p4⟩ := p
  obtain ⟨q1, q2, q3, q4⟩ := q
  rcases hp with rfl | rfl <;> rcases hq with rfl | rfl
  · exact Or.inl rfl
  · left
    have e : Quat.dot (p1, p2, p3, p4) (-q1, -q2, -q3, -q4) = -Quat.dot (p1, p2, p3, p4) (q1, q2, q3, q4) := by
      simp only [Quat.dot]; ring
    unfold slerp
    rw [e]
    dsimp only
    rw [abs_neg]
    generalize Quat.dot (p1, p2, p3, p4) (q1, q2, q3, q4) = d at hd
    generalize (if slerpOne ≤ |d| then (1 - t, t) else _ : ℝ × ℝ) = s
    rcases lt_or_gt_of_ne hd with h | h
    · rw [if_neg (by linarith), if_pos h]
      simp [Quat.comb]
    · rw [if_pos (by linarith), if_neg (by linarith)]
      simp [Quat.comb]
  · right
    have e : Quat.dot (-p1, -p2, -p3, -p4) (q1, q2, q3, q4) = -Quat.dot (p1, p2, p3, p4) (q1, q2, q3, q4) := by
      simp only [Quat.dot]; ring
    unfold slerp
    rw [e]
    dsimp only
    rw [abs_neg]
    generalize Quat.dot (p1, p2, p3, p4) (q1, q2, q3, q4) = d at hd
    generalize (if slerpOne ≤ |d| then (1 - t, t) else _ : ℝ × ℝ) = s
    rcases lt_or_gt_of_ne hd with h | h
    · rw [if_neg (by linarith), if_pos h]
      simp only [Quat.comb, Prod.mk.injEq]
      refine ⟨?_, ?_, ?_, ?_⟩ <;> ring
    · rw [if_pos (by linarith), if_neg (by linarith)]
      simp only [Quat.comb, Prod.mk.injEq]
      refine ⟨?_, ?_, ?_, ?_⟩ <;> ring
  · right
    have e : Quat.dot (-p1, -p2, -p3, -p4) (-q1, -q2, -q3, -q4) = Quat.dot (p1, p2, p3, p4) (q1, q2, q3, q4) := by
      simp only [Quat.dot]; ring
    unfold slerp
    rw [e]
    simp only [Quat.comb, Prod.mk.injEq]
    refine ⟨?_, ?_, ?_, ?_⟩ <;> ring

/-- Turning from `q` to `p` passes through the same orientations as turning from `p` to `q`. -/
theorem slerp_rev (p q : Quat) (t : ℝ) : SameRotation (slerp q (1 - t) p) (slerp p t q) := by
  have hd : Quat.dot q p = Quat.dot p q := by simp only [Quat.dot]; ring
  obtain ⟨c, d, e1, e2⟩ : ∃ c d : ℝ, slerp p t q = Quat.comb c p (slerpSign p q * d) q ∧
      slerp q (1 - t) p = Quat.comb d q (slerpSign p q * c) p := by
    have hs : slerpSign q p = slerpSign p q := by unfold slerpSign; rw [hd]
    rcases le_or_gt slerpOne |Quat.dot p q| with h | h
    · exact ⟨_, _, slerp_near h t, by rw [slerp_near (by rw [hd]; exact h), hs, sub_sub_cancel]⟩
    · exact ⟨_, _, slerp_far h t, by rw [slerp_far (by rw [hd]; exact h), hs, hd, sub_sub_cancel]⟩
  rw [e1, e2]
  unfold slerpSign
  split
  · right
    simp only [Quat.comb, Prod.mk.injEq]
    refine ⟨?_, ?_, ?_, ?_⟩ <;> ring
  · left
    simp only [Quat.comb, Prod.mk.injEq]
    refine ⟨?_, ?_, ?_, ?_⟩ <;> ring

theorem quatRot_same {p q : Quat} (h : SameRotation p q) : quatRot p = quatRot q := by
  rcases h with rfl | rfl
  · rfl
  · ext i j; fin_cases i <;> fin_cases j <;> simp [quatRot]

theorem compVec_drop (v w : Vec) (n i : ℕ) : (compVec v w n i).drop 7 = (List.range (v.length - 7)).map fun j =>
    (1 - (i : ℝ) * (1 / (n : ℝ))) * coordOf v (j + 7) + (i : ℝ) * (1 / (n : ℝ)) * coordOf w (j + 7) := by
  simp [compVec]

theorem coordOf_drop {v v' : Vec} (h : v.drop 7 = v'.drop 7) (j : ℕ) : coordOf v (j + 7) = coordOf v' (j + 7) := by
  have e := congrArg (fun l => l[j]?) h
  simp only [List.getElem?_drop] at e
  unfold coordOf
  rw [List.getD_eq_getElem?_getD, List.getD_eq_getElem?_getD, Nat.add_comm j 7, e]

/-- Two motions with the same orientations and joint angles at their ends have them at each step. -/
theorem compVec_same {v w v' w' : Vec} (hv : SameRotation (quatPart v) (quatPart v'))
    (hw : SameRotation (quatPart w) (quatPart w'))
    (hd : Quat.dot (quatPart v') (quatPart w') ≠ 0 ∨ quatPart v = quatPart v' ∧ quatPart w = quatPart w')
    (hl : v.length = v'.length) (jv : v.drop 7 = v'.drop 7) (jw : w.drop 7 = w'.drop 7) (n i : ℕ) :
    quatRot (quatPart (compVec v w n i)) = quatRot (quatPart (compVec v' w' n i)) ∧
    (compVec v w n i).drop 7 = (compVec v' w' n i).drop 7 := by
  constructor
  · rw [quatPart_compVec, quatPart_compVec]
    exact quatRot_same (slerp_same hv hw hd _)
  · rw [compVec_drop, compVec_drop, hl]
    congr 1
    funext j
    rw [coordOf_drop jv, coordOf_drop jw]

theorem interp_steps {v w : Vec} (hv : 7 ≤ v.length) (hlen : v.length = w.length) {n : ℕ} (hn : 1 ≤ n) :
    interpolateCompound v w n = .ok (((List.range (n + 1)).map (compVec v w n)).map (·.map some)) := by
  rw [interpolateCompound_eq hv hlen, if_neg (by omega), List.nil_append, List.map_map]
  congr 1
  apply List.map_congr_left
  intro i _
  exact compRow_eq v w hn i

/-- The motion from `w` to `v` passes through the same places, orientations and joint angles as that from `v` to `w`. -/
theorem compVec_rev {v w : Vec} (hv : v.length = w.length) {n k : ℕ} (hn : 1 ≤ n) (hk : k ≤ n) :
    posPart (compVec w v n k) = posPart (compVec v w n (n - k)) ∧
    SameRotation (quatPart (compVec w v n k)) (quatPart (compVec v w n (n - k))) ∧
    (compVec w v n k).drop 7 = (compVec v w n (n - k)).drop 7 := by
  have ht : ((n - k : ℕ) : ℝ) * (1 / (n : ℝ)) = 1 - (k : ℝ) * (1 / (n : ℝ)) := by
    have hn' : (n : ℝ) ≠ 0 := by positivity
    rw [Nat.cast_sub hk]
    field_simp
  refine ⟨?_, ?_, ?_⟩
  · ext i
    fin_cases i <;> simp only [posPart, coordOf, compVec, ht] <;> simp <;> ring
  · rw [quatPart_compVec, quatPart_compVec, ht]
    have := slerp_rev (quatPart v) (quatPart w) (1 - (k : ℝ) * (1 / (n : ℝ)))
    rwa [sub_sub_cancel] at this
  · rw [compVec_drop, compVec_drop, ht, hv]
    congr 1
    funext j
    ring
theorem map_some_inj {a b : List Vec} (h : a.map (·.map some) = b.map (·.map some)) : a = b := by
  have hi : Function.Injective fun u : Vec => u.map (some : ℝ → Option ℝ) :=
    List.map_injective_iff.2 (Option.some_injective ℝ)
  exact List.map_injective_iff.2 hi h

/-! ## The check -/

theorem multiLoopArm_iff {base added} (A : Arm) (obs : List SuperQuadrics)
    (bridge : List (List Mesh)) (steps : List Vec) (h7 : ∀ u ∈ steps, 7 + A.nJ ≤ u.length) :
    ∀ {T : Tree3}, Tree3.Inv base added T →
    (multiLoop3 ⟨some A, none⟩ obs bridge (steps.map (·.map some)) T = .ok true ↔
      ∀ u ∈ steps, poseFree3 bridge (armTree A base added u) = .ok true) ∧
    (multiLoop3 ⟨some A, none⟩ obs bridge (steps.map (·.map some)) T = .ok false →
      ∃ u ∈ steps, poseFree3 bridge (armTree A base added u) = .ok false) := by
  induction steps with
  | nil => intro T _; exact ⟨by simp [multiLoop3], by simp [multiLoop3]⟩
  | cons u steps ih =>
    intro T hT
    obtain ⟨ih1, ih2⟩ := ih (fun w hw => h7 w (by simp [hw])) (armTree_inv A base added u)
    have e : multiLoop3 ⟨some A, none⟩ obs bridge ((u :: steps).map (·.map some)) T =
        (poseFree3 bridge (armTree A base added u)).bind fun ok =>
          if ok then multiLoop3 ⟨some A, none⟩ obs bridge (steps.map (·.map some)) (armTree A base added u)
          else .ok false := by
      rw [List.map_cons]
      conv_lhs => unfold multiLoop3
      rw [numRow_some, Res.bind_ok', setArm_eq hT (h7 u (by simp)), Res.bind_ok']
      rfl
    rw [e]
    cases hs : poseFree3 bridge (armTree A base added u) with
    | throw => exact ⟨⟨fun h => (nomatch h), fun h => by have := h u (by simp); rw [hs] at this; exact nomatch this⟩,
        fun h => (nomatch h)⟩
    | ub => exact ⟨⟨fun h => (nomatch h), fun h => by have := h u (by simp); rw [hs] at this; exact nomatch this⟩,
        fun h => (nomatch h)⟩
    | ok b =>
      rw [Res.bind_ok']
      cases b with
      | true =>
        rw [if_pos rfl]
        refine ⟨ih1.trans ⟨fun h w hw => ?_, fun h w hw => h w (by simp [hw])⟩, fun h => ?_⟩
        · rcases List.mem_cons.1 hw with rfl | hw
          · exact hs
          · exact h w hw
        · obtain ⟨w, hw, e⟩ := ih2 h
          exact ⟨w, by simp [hw], e⟩
      | false =>
        refine ⟨⟨fun h => ?_, fun h => ?_⟩, fun _ => ⟨u, by simp, hs⟩⟩
        · simp at h
        · have := h u (by simp); rw [hs] at this; simp at this

/-- One step of the check, for the bodies of the robot and one ellipsoid each. -/
theorem poseFreeArm_iff (A : Arm) (obs : List SuperQuadrics) (base : SuperQuadrics) (added : List SuperQuadrics)
    (tfe : List SuperQuadrics) (hlen : tfe.length = added.length + 1) (u : Vec) :
    (poseFree3 (bridgeSlice3 obs tfe) (armTree A base added u) = .ok true ↔
      ∀ (b : ℕ) (body E : SuperQuadrics), (armBodies A base added u)[b]? = some body → tfe[b]? = some E →
        SweptClear3 obs E body.pos) ∧
    (poseFree3 (bridgeSlice3 obs tfe) (armTree A base added u) = .ok false →
      ∃ (b : ℕ) (body E : SuperQuadrics), (armBodies A base added u)[b]? = some body ∧ tfe[b]? = some E ∧
        SweptHit3 obs E body.pos) := by
  have hbr : ∀ b : ℕ, (bridgeSlice3 obs tfe)[b]? = (tfe[b]?).map (bridgeBound3 obs) := by
    intro b; rw [bridgeSlice3, List.getElem?_map]
  obtain ⟨k1, k2⟩ := linksFree3_iff (bridgeSlice3 obs tfe) (armTree A base added u)
    (List.range (armTree A base added u).numLinks)
  have hnl : (armTree A base added u).numLinks = added.length := rfl
  obtain ⟨E0, hE0⟩ : ∃ E0, tfe[0]? = some E0 := ⟨_, List.getElem?_eq_getElem (by omega)⟩
  have hb0 : (armBodies A base added u)[0]? = some (armTree A base added u).base := rfl
  have hbs : ∀ b : ℕ, (armBodies A base added u)[b + 1]? = (armTree A base added u).link[b]? := by
    intro b; rw [armTree_link]; rfl
  have hll : (armTree A base added u).link.length = added.length := by rw [armTree_link]; simp
  have e : poseFree3 (bridgeSlice3 obs tfe) (armTree A base added u) =
      (isPtInCFree3D triTol (toV3 (armTree A base added u).base.pos) (bridgeBound3 obs E0)).bind fun ok =>
        if ok then linksFree3 (bridgeSlice3 obs tfe) (armTree A base added u)
          (List.range (armTree A base added u).numLinks) else .ok false := by
    unfold poseFree3
    rw [Res.at'_eq_ok.2 (by rw [hbr, hE0]; rfl), Res.bind_ok']
  rw [e]
  constructor
  · constructor
    · intro h
      obtain ⟨ok, h1, h⟩ := Res.bind_eq_ok.1 h
      cases ok with
      | false => simp at h
      | true =>
        have h2 := k1.1 (by simpa using h)
        intro b body E hbody hE
        cases b with
        | zero =>
          rw [hb0] at hbody; rw [hE0] at hE
          obtain rfl := Option.some.inj hbody
          obtain rfl := Option.some.inj hE
          exact h1
        | succ b =>
          rw [hbs] at hbody
          obtain ⟨l, br, e1, e2, e3⟩ := h2 b (by
            rw [List.mem_range, hnl, ← hll]; exact (List.getElem?_eq_some_iff.1 hbody).1)
          rw [hbody] at e1
          rw [hbr, hE] at e2
          obtain rfl := Option.some.inj e1
          obtain rfl := Option.some.inj e2
          exact e3
    · intro h
      have h0 : isPtInCFree3D triTol (toV3 (armTree A base added u).base.pos) (bridgeBound3 obs E0) = .ok true :=
        h 0 _ E0 hb0 hE0
      rw [h0, Res.bind_ok', if_pos rfl]
      refine k1.2 ?_
      intro j hj
      rw [List.mem_range, hnl] at hj
      have hl' : (armTree A base added u).link[j]? = some ((armTree A base added u).link[j]'(by omega)) :=
        List.getElem?_eq_getElem _
      have ht' : tfe[j + 1]? = some (tfe[j + 1]'(by omega)) := List.getElem?_eq_getElem _
      refine ⟨_, bridgeBound3 obs (tfe[j + 1]'(by omega)), hl', by rw [hbr, ht']; rfl, ?_⟩
      exact h (j + 1) _ _ (by rw [hbs]; exact hl') ht'
  · intro h
    obtain ⟨ok, h1, h⟩ := Res.bind_eq_ok.1 h
    cases ok with
    | false => exact ⟨0, _, E0, hb0, hE0, h1⟩
    | true =>
      obtain ⟨j, hj, l, br, e1, e2, e3⟩ := k2 (by simpa using h)
      rw [List.mem_range, hnl] at hj
      have ht' : tfe[j + 1]? = some (tfe[j + 1]'(by omega)) := List.getElem?_eq_getElem _
      rw [hbr, ht'] at e2
      obtain rfl := Option.some.inj e2
      exact ⟨j + 1, l, _, by rw [hbs]; exact e1, ht', e3⟩

/-- C53 (incremental planner): the check between two slices with configurations `ci` and `cj` has one ellipsoid per body
of the robot; it walks `numPoint + 1` interpolated configurations from `v` to `w` and accepts exactly if at each of them
every body's ellipsoid, centred where the body is, is clear; it rejects only if at some step some body hits. Missing: the
check need not return a verdict at all (see C53_spatial_check_partial), and `numPoint = 0`. -/
theorem C53_incremental_check_partial (L : Libs3) (A : Arm) (base : SuperQuadrics) (ops : List (RobotOp SuperQuadrics 3))
    (robot : Tree3) (hrun : Tree3.run ops (Tree3.new base) = .ok robot) (obs : List SuperQuadrics) (np : ℕ) (hnp : 1 ≤ np)
    (ci cj v w : Vec) (hci : UnitPose ci) (hcj : UnitPose cj) (hv : UnitPose v) (hw : UnitPose w)
    (lci : ci.length = 7 + A.nJ) (lcj : cj.length = 7 + A.nJ) (lv : v.length = 7 + A.nJ) (lw : w.length = 7 + A.nJ) :
    ∃ steps tfe, interpolateCompound v w np = .ok (steps.map (·.map some)) ∧ IsMotion v w np steps ∧
      computeTFEProb L A np robot ci cj = .ok tfe ∧ tfe.length = (addedBodies ops).length + 1 ∧
      let verdict := probCheck L ⟨some A, none⟩ A robot obs np ci cj v w
      (verdict = .ok true ↔ ∀ u ∈ steps, ∀ (b : ℕ) (body E : SuperQuadrics),
        (armBodies A base (addedBodies ops) u)[b]? = some body → tfe[b]? = some E → SweptClear3 obs E body.pos) ∧
      (verdict = .ok false → ∃ u ∈ steps, ∃ (b : ℕ) (body E : SuperQuadrics),
        (armBodies A base (addedBodies ops) u)[b]? = some body ∧ tfe[b]? = some E ∧ SweptHit3 obs E body.pos) := by
  have hr := run_inv_of3 hrun
  obtain ⟨steps, e, m1, m2, m3, m4⟩ := C40_interpolateCompound v w hv hw (by omega) np hnp
  obtain ⟨cs, ce, c1, c2, -, -⟩ := C40_interpolateCompound ci cj hci hcj (by omega) np hnp
  have h7 : ∀ u ∈ steps, 7 + A.nJ ≤ u.length := by
    intro u hu
    obtain ⟨k, hk⟩ := List.mem_iff_getElem?.1 hu
    rw [(m2 k u hk).1]; omega
  have hc7 : ∀ u ∈ cs, 7 + A.nJ ≤ u.length := by
    intro u hu
    obtain ⟨k, hk⟩ := List.mem_iff_getElem?.1 hu
    rw [(c2 k u hk).1]; omega
  have ht := tfeProb_eq hr L A np (by omega) ce hc7
  have hlen := (coverFold_getElem? (svd := L.svd) (armBodies A base (addedBodies ops)) ((addedBodies ops).length + 1) cs
    (armBodies_length A base (addedBodies ops)) 0 (by omega) (armBodies A base (addedBodies ops) ci)
    (armBodies_length _ _ _ _)).1
  refine ⟨steps, _, e, ⟨m1, m2, m3, m4⟩, ht, hlen, ?_⟩
  unfold probCheck multiFree3
  rw [ht, Res.bind_ok', e, Res.bind_ok']
  obtain ⟨k1, k2⟩ := multiLoopArm_iff A obs (bridgeSlice3 obs _) steps h7 hr
  refine ⟨k1.trans ?_, fun h => ?_⟩
  · exact forall₂_congr fun u _ => (poseFreeArm_iff A obs base (addedBodies ops) _ hlen u).1
  · obtain ⟨u, hu, e⟩ := k2 h
    exact ⟨u, hu, (poseFreeArm_iff A obs base (addedBodies ops) _ hlen u).2 e⟩

theorem solid_placed {body E : SuperQuadrics} (h : body.solid0 ⊆ E.solid0) :
    body.solid ⊆ (bodyAt E body.pos E.quat).solid := by
  rintro x ⟨p, hp, rfl⟩
  exact ⟨p, h hp, rfl⟩

/-- `C79_incremental_enclosed_partial` for the motion in the direction in which the ellipsoids were made. -/
theorem incremental_enclosed_fwd (L : Libs3) (hs : SvdOk L.svd) (hdet : ∀ M, SymPos M → (L.svd M).u.det = 1)
    (A : Arm) (hA : ∀ js i, (A.fk js i).Rigid3) (base : SuperQuadrics) (hb : base.Ok) (b1 : base.e1 = 1) (b2 : base.e2 = 1)
    (ops : List (RobotOp SuperQuadrics 3)) (robot : Tree3) (hrun : Tree3.run ops (Tree3.new base) = .ok robot)
    (ha : ∀ l ∈ addedBodies ops, l.Ok ∧ l.e1 = 1 ∧ l.e2 = 1) (np : ℕ) (hnp : 1 ≤ np)
    (ci cj v w : Vec) (hci : UnitPose ci) (hcj : UnitPose cj)
    (lci : ci.length = 7 + A.nJ) (lcj : cj.length = 7 + A.nJ) (lv : v.length = 7 + A.nJ) (lw : w.length = 7 + A.nJ)
    (hfar : |Quat.dot (quatPart ci) (quatPart cj)| < 1 - 1 / 2 ^ 52 ∨ |Quat.dot (quatPart ci) (quatPart cj)| = 1)
    (hvi : SameRotation (quatPart v) (quatPart ci)) (hwj : SameRotation (quatPart w) (quatPart cj))
    (hd : Quat.dot (quatPart ci) (quatPart cj) ≠ 0 ∨ quatPart v = quatPart ci ∧ quatPart w = quatPart cj)
    (jv : v.drop 7 = ci.drop 7) (jw : w.drop 7 = cj.drop 7)
    (steps : List Vec) (hsteps : interpolateCompound v w np = .ok (steps.map (·.map some)))
    (tfe : List SuperQuadrics) (htfe : computeTFEProb L A np robot ci cj = .ok tfe) :
    tfe.length = (addedBodies ops).length + 1 ∧
    ∀ u ∈ steps, ∀ (b : ℕ) (body E : SuperQuadrics), (armBodies A base (addedBodies ops) u)[b]? = some body →
      tfe[b]? = some E → body.solid ⊆ (bodyAt E body.pos E.quat).solid := by
  have hr := run_inv_of3 hrun
  set added := addedBodies ops
  -- the steps of the two motions
  rw [interp_steps (by omega) (by omega) hnp] at hsteps
  obtain rfl := map_some_inj ((Res.ok.injEq _ _).mp hsteps)
  have ce := interp_steps (v := ci) (w := cj) (by omega) (by omega) hnp
  have hc7 : ∀ u ∈ (List.range (np + 1)).map (compVec ci cj np), 7 + A.nJ ≤ u.length := by
    intro u hu
    obtain ⟨k, -, rfl⟩ := List.mem_map.1 hu
    rw [compVec_length (by omega)]; omega
  rw [tfeProb_eq hr L A np (by omega) ce hc7] at htfe
  obtain rfl := (Res.ok.injEq _ _).mp htfe
  have hq : ∀ i, (quatPart (compVec ci cj np i)).Unit := by
    intro i
    rw [quatPart_compVec]
    exact slerp_unit ((quat_unit_iff _).2 hci.2) ((quat_unit_iff _).2 hcj.2) hfar _
  have key := fun b hb' => coverFold_getElem? (svd := L.svd) (armBodies A base added) (added.length + 1)
    ((List.range (np + 1)).map (compVec ci cj np)) (armBodies_length A base added) b hb' (armBodies A base added ci)
    (armBodies_length _ _ _ _)
  refine ⟨(key 0 (by omega)).1, fun u hu b body E hbody hE => solid_placed ?_⟩
  obtain ⟨k, hk, rfl⟩ := List.mem_map.1 hu
  have hbl : b < added.length + 1 := by
    rw [← armBodies_length A base added (compVec v w np k)]
    exact (List.getElem?_eq_some_iff.1 hbody).1
  rw [(key b hbl).2] at hE
  obtain rfl := Option.some.inj hE
  -- the body at the step of the other motion
  obtain ⟨s1, s2⟩ := compVec_same hvi hwj hd (by omega) jv jw np k
  have hsame : body.solid0 =
      ((armBodies A base added (compVec ci cj np k))[b]'(by rw [armBodies_length]; exact hbl)).solid0 := by
    have : ∀ x, (armBodies A base added (compVec ci cj np k))[b]? = some x → body.solid0 = x.solid0 := by
      intro x hx
      cases b with
      | zero =>
        obtain rfl := Option.some.inj hbody
        obtain rfl := Option.some.inj hx
        unfold SuperQuadrics.solid0 SuperQuadrics.implicit bodyAt
        dsimp only
        rw [s1]
      | succ b =>
        simp only [armBodies, List.getElem?_cons_succ, List.getElem?_mapIdx, Option.map_eq_some_iff] at hbody hx
        obtain ⟨l, hl, rfl⟩ := hbody
        obtain ⟨l', hl', rfl⟩ := hx
        rw [hl] at hl'
        obtain rfl := Option.some.inj hl'
        unfold SuperQuadrics.solid0 SuperQuadrics.implicit armBody bodyAt
        dsimp only
        rw [s1, s2]
    exact this _ (List.getElem?_eq_getElem _)
  rw [hsame]
  have hf : ∀ u ∈ (List.range (np + 1)).map (compVec ci cj np),
      IsEllipsoid ((armBodies A base added u)[b]'(by rw [armBodies_length]; exact hbl)) := by
    intro u hu
    obtain ⟨i, -, rfl⟩ := List.mem_map.1 hu
    exact armBodies_ellipsoid hA hb b1 b2 ha (hq i) _ (List.getElem_mem _)
  exact (coverFold hs hdet _ _ hf _ (armBodies_ellipsoid hA hb b1 b2 ha ((quat_unit_iff _).2 hci.2) _
    (List.getElem_mem _))).2.2 (compVec ci cj np k) (List.mem_map_of_mem hk)

/-- Configurations with the same place, orientation and joint angles put the bodies in the same places. -/
theorem armBodies_congr (A : Arm) (base : SuperQuadrics) (added : List SuperQuadrics) {u u' : Vec}
    (h1 : posPart u = posPart u') (h2 : SameRotation (quatPart u) (quatPart u')) (h3 : u.drop 7 = u'.drop 7) :
    armBodies A base added u = armBodies A base added u' := by
  have e : armBody A u = armBody A u' := by
    funext i l
    unfold armBody
    rw [h1, quatRot_same h2, h3]
  unfold armBodies
  rw [e, h1, quatRot_same h2]

/-- C79 (incremental planner), what the ellipsoids are good for: at every step of every motion between vertices of the
two slices, in either direction (the planner makes the ellipsoids for the way from the newest slice to the nearest earlier
one, and checks motions the other way), each body of a robot made of ellipsoids lies in its ellipsoid centred where the
body is. Missing: a singular value decomposition with a reflection (C45), slices whose orientations are within `2e-8` of
each other without being equal, and slices exactly half a turn apart whose quaternions were stored with a different sign in
the vertices. -/
theorem C79_incremental_enclosed_partial (L : Libs3) (hs : SvdOk L.svd) (hdet : ∀ M, SymPos M → (L.svd M).u.det = 1)
    (A : Arm) (hA : ∀ js i, (A.fk js i).Rigid3) (base : SuperQuadrics) (hb : base.Ok) (b1 : base.e1 = 1) (b2 : base.e2 = 1)
    (ops : List (RobotOp SuperQuadrics 3)) (robot : Tree3) (hrun : Tree3.run ops (Tree3.new base) = .ok robot)
    (ha : ∀ l ∈ addedBodies ops, l.Ok ∧ l.e1 = 1 ∧ l.e2 = 1) (np : ℕ) (hnp : 1 ≤ np)
    (ci cj v w : Vec) (hci : UnitPose ci) (hcj : UnitPose cj)
    (lci : ci.length = 7 + A.nJ) (lcj : cj.length = 7 + A.nJ) (lv : v.length = 7 + A.nJ) (lw : w.length = 7 + A.nJ)
    (hfar : |Quat.dot (quatPart ci) (quatPart cj)| < 1 - 1 / 2 ^ 52 ∨ |Quat.dot (quatPart ci) (quatPart cj)| = 1)
    (hvi : SameRotation (quatPart v) (quatPart ci)) (hwj : SameRotation (quatPart w) (quatPart cj))
    (hd : Quat.dot (quatPart ci) (quatPart cj) ≠ 0 ∨ quatPart v = quatPart ci ∧ quatPart w = quatPart cj)
    (jv : v.drop 7 = ci.drop 7) (jw : w.drop 7 = cj.drop 7)
    (steps : List Vec) (hsteps : interpolateCompound v w np = .ok (steps.map (·.map some)) ∨
      interpolateCompound w v np = .ok (steps.map (·.map some)))
    (tfe : List SuperQuadrics) (htfe : computeTFEProb L A np robot ci cj = .ok tfe) :
    tfe.length = (addedBodies ops).length + 1 ∧
    ∀ u ∈ steps, ∀ (b : ℕ) (body E : SuperQuadrics), (armBodies A base (addedBodies ops) u)[b]? = some body →
      tfe[b]? = some E → body.solid ⊆ (bodyAt E body.pos E.quat).solid := by
  have key := fun (steps : List Vec) (hst : interpolateCompound v w np = .ok (steps.map (·.map some))) =>
    incremental_enclosed_fwd L hs hdet A hA base hb b1 b2 ops robot hrun ha np hnp ci cj v w hci hcj lci lcj lv lw hfar hvi hwj
      hd jv jw steps hst tfe htfe
  rcases hsteps with h | h
  · exact key steps h
  · rw [interp_steps (by omega) (by omega) hnp] at h
    obtain rfl := map_some_inj ((Res.ok.injEq _ _).mp h)
    obtain ⟨k1, k2⟩ := key _ (interp_steps (by omega) (by omega) hnp)
    refine ⟨k1, fun u hu b body E hbody hE => ?_⟩
    obtain ⟨k, hk, rfl⟩ := List.mem_map.1 hu
    rw [List.mem_range] at hk
    obtain ⟨r1, r2, r3⟩ := compVec_rev (v := v) (w := w) (by omega) hnp (k := k) (by omega)
    rw [armBodies_congr A base (addedBodies ops) r1 r2 r3] at hbody
    exact k2 _ (List.mem_map_of_mem (List.mem_range.2 (by omega))) b body E hbody hE

theorem sameRotation_matQuat {q : Quat} (h : q.Unit) : SameRotation (matQuat (quatRot q)) q := by
  obtain ⟨s, hs, e⟩ := matQuat_quatRot h
  rw [e]
  rcases mul_self_eq_one_iff.1 hs with rfl | rfl
  · left; simp [Quat.scale]
  · right; simp [Quat.scale]

/-- C79 (incremental planner), the same for the slices the planner makes: the check between a slice `i` and its nearest
earlier slice `j` makes the ellipsoids from the configurations `probConf` of `i` and `j`, in this order, and walks from a
vertex of `j` to a vertex of `i`; vertices have a position and the slice's `probTail`. -/
theorem C79_incremental_slices_enclosed_partial (L : Libs3) (hs : SvdOk L.svd)
    (hdet : ∀ M, SymPos M → (L.svd M).u.det = 1)
    (A : Arm) (hA : ∀ js i, (A.fk js i).Rigid3) (base : SuperQuadrics) (hb : base.Ok) (b1 : base.e1 = 1) (b2 : base.e2 = 1)
    (ops : List (RobotOp SuperQuadrics 3)) (robot : Tree3) (hrun : Tree3.run ops (Tree3.new base) = .ok robot)
    (ha : ∀ l ∈ addedBodies ops, l.Ok ∧ l.e1 = 1 ∧ l.e2 = 1) (np : ℕ) (hnp : 1 ≤ np)
    (start goal : Vec) (ls : start.length = 7 + A.nJ) (lg : goal.length = 7 + A.nJ) (i j : ℕ)
    (hi : (probSample L A start goal i).1.Unit) (hj : (probSample L A start goal j).1.Unit)
    (hfar : |Quat.dot (probSample L A start goal i).1 (probSample L A start goal j).1| < 1 - 1 / 2 ^ 52)
    (hd : Quat.dot (probSample L A start goal i).1 (probSample L A start goal j).1 ≠ 0)
    (x y z x' y' z' : ℝ) (steps : List Vec)
    (hsteps : interpolateCompound (x' :: y' :: z' :: probTail L A start goal j) (x :: y :: z :: probTail L A start goal i) np
      = .ok (steps.map (·.map some)))
    (tfe : List SuperQuadrics) (htfe : computeTFEProb L A np robot (probConf L A start goal i)
      (probConf L A start goal j) = .ok tfe) :
    tfe.length = (addedBodies ops).length + 1 ∧
    ∀ u ∈ steps, ∀ (b : ℕ) (body E : SuperQuadrics), (armBodies A base (addedBodies ops) u)[b]? = some body →
      tfe[b]? = some E → body.solid ⊆ (bodyAt E body.pos E.quat).solid := by
  have hjl : ∀ k, (probSample L A start goal k).2.length = A.nJ := by
    intro k
    match k with
    | 0 => simp [probSample, ls]
    | 1 => simp [probSample, lg]
    | k + 2 => simp [probSample]
  have hq : ∀ k, quatPart (probConf L A start goal k) = (probSample L A start goal k).1 := by
    intro k; rfl
  have hql : ∀ k, (probConf L A start goal k).length = 7 + A.nJ := by
    intro k; simp [probConf, conf7, hjl]; omega
  have hpl : ∀ k (a b c : ℝ), (a :: b :: c :: probTail L A start goal k).length = 7 + A.nJ := by
    intro k a b c; simp [probTail, hjl]; omega
  have hpq : ∀ k (a b c : ℝ), quatPart (a :: b :: c :: probTail L A start goal k) =
      matQuat (quatRot (probSample L A start goal k).1) := by
    intro k a b c; rfl
  have hdr : ∀ k (a b c : ℝ), (a :: b :: c :: probTail L A start goal k).drop 7 = (probConf L A start goal k).drop 7 := by
    intro k a b c; simp [probTail, probConf, conf7]
  refine C79_incremental_enclosed_partial L hs hdet A hA base hb b1 b2 ops robot hrun ha np hnp _ _ _ _
    ⟨by rw [hql]; omega, by rw [hq]; exact (quat_unit_iff _).1 hi⟩
    ⟨by rw [hql]; omega, by rw [hq]; exact (quat_unit_iff _).1 hj⟩
    (hql i) (hql j) (hpl i x y z) (hpl j x' y' z') (Or.inl (by rw [hq, hq]; exact hfar))
    (by rw [hq, hpq]; exact sameRotation_matQuat hi) (by rw [hq, hpq]; exact sameRotation_matQuat hj)
    (Or.inl (by rw [hq, hq]; exact hd)) (hdr _ _ _ _) (hdr _ _ _ _) steps (Or.inr hsteps) tfe htfe

/-- Witness for the theorems of this file: a robot with two bodies, one sliding joint, a quarter of a turn and more. -/
example (L : Libs3) : ∃ (A : Arm) (robot : Tree3) (ci cj v w : Vec), (∀ js i, (A.fk js i).Rigid3) ∧ exEllipsoid.Ok ∧
    exEllipsoid.e1 = 1 ∧ exEllipsoid.e2 = 1 ∧
    Tree3.run [.add exEllipsoid] (Tree3.new exEllipsoid) = .ok robot ∧
    UnitPose ci ∧ UnitPose cj ∧ UnitPose v ∧ UnitPose w ∧ ci.length = 7 + A.nJ ∧ cj.length = 7 + A.nJ ∧
    v.length = 7 + A.nJ ∧ w.length = 7 + A.nJ ∧
    |Quat.dot (quatPart ci) (quatPart cj)| < 1 - 1 / 2 ^ 52 ∧ Quat.dot (quatPart ci) (quatPart cj) ≠ 0 ∧
    SameRotation (quatPart v) (quatPart ci) ∧ SameRotation (quatPart w) (quatPart cj) ∧
    v.drop 7 = ci.drop 7 ∧ w.drop 7 = cj.drop 7 := by
  refine ⟨⟨1, fun js _ => ⟨1, ![js.getD 0 0, 0, 0]⟩⟩, _, [0, 0, 0, 1, 0, 0, 0, 0], [0, 0, 0, 3 / 5, 4 / 5, 0, 0, 1],
    [1, 2, 3, 1, 0, 0, 0, 0], [1, 2, 4, -(3 / 5), -(4 / 5), 0, 0, 1], ?_, exEllipsoid_ok, rfl, rfl, rfl, ?_⟩
  · intro js i; exact ⟨by simp, by simp, by simp⟩
  · refine ⟨⟨by simp, by norm_num [quatPart, coordOf, Quat.dot]⟩, ⟨by simp, by norm_num [quatPart, coordOf, Quat.dot]⟩,
      ⟨by simp, by norm_num [quatPart, coordOf, Quat.dot]⟩, ⟨by simp, by norm_num [quatPart, coordOf, Quat.dot]⟩,
      rfl, rfl, rfl, rfl, ?_, ?_, ?_, ?_, rfl, rfl⟩
    · norm_num [quatPart, coordOf, Quat.dot, abs_of_pos]
    · norm_num [quatPart, coordOf, Quat.dot]
    · left; rfl
    · right; norm_num [quatPart, coordOf]

end Hrm
