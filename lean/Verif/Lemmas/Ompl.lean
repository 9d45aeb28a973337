import Verif.Model.Ompl
import Verif.Lemmas.MultiBody

/-! # Lemmas for the OMPL baseline -/

namespace Hrm

open Matrix Classical

theorem allLoop_eq (f : ℕ → Res Bool) (P : ℕ → Prop) (l : List ℕ) (h : ∀ i ∈ l, f i = .ok (decide (P i))) :
    allLoop f l = .ok (decide (∀ i ∈ l, P i)) := by
  induction l with
  | nil => simp [allLoop]
  | cons i l ih =>
    unfold allLoop
    rw [h i List.mem_cons_self, Res.bind_ok', ih fun j hj => h j (List.mem_cons_of_mem _ hj)]
    by_cases hp : P i <;> simp [hp]

theorem okDecide {P Q : Prop} {i : Decidable P} {r : Res Bool} (h : P ↔ Q)
    (hr : r = .ok (@decide Q (propDecidable Q))) : r = .ok (@decide P i) := by
  rw [hr]
  congr 1
  exact decide_eq_decide.2 h.symm

/-- The test of one pair in the plane. -/
def PairOk2 {Obj : Type} (eig : EigFun) (fcl : SuperEllipse → Obj → SuperEllipse → Obj → Bool)
    (A : SuperEllipse) (a : Obj) (B : SuperEllipse) (b : Obj) : Prop :=
  if |B.eps - 1| < 1 / 10 ^ 6 then isEllipseSeparated eig A B = true else fcl A a B b = false

theorem at'_append_map {A B : Type} (l : List A) (f : A → B) (r : List B) (i : ℕ) (x : A) (h : l[i]? = some x) :
    Res.at' (l.map f ++ r) i = .ok (f x) := by
  rw [Res.at'_eq_ok, List.getElem?_append_left (by simpa using (List.getElem?_eq_some_iff.1 h).1),
    List.getElem?_map, h, Option.map_some]

theorem Ompl2.isSeparated_eq {Obj : Type} (eig : EigFun) (fcl : SuperEllipse → Obj → SuperEllipse → Obj → Bool)
    (mk : SuperEllipse → Obj) (O : Ompl2 Obj) (T : Tree2) (r r' : List Obj) (bodies : List SuperEllipse)
    (h1 : O.objRobot = bodies.map mk ++ r) (h2 : O.objObs = O.obstacle.map mk ++ r')
    (hl : T.link.length = T.numLinks) (hb : bodies.length = 1 + T.numLinks) :
    O.isSeparated eig fcl T = .ok (decide (∀ ob ∈ O.obstacle, ∀ (i : ℕ) (A A0 : SuperEllipse),
      (T.base :: T.link)[i]? = some A → bodies[i]? = some A0 → PairOk2 eig fcl A (mk A0) ob (mk ob))) := by
  unfold Ompl2.isSeparated
  rw [allLoop_eq _ (fun k => ∀ ob, O.obstacle[k]? = some ob → ∀ (i : ℕ) (A A0 : SuperEllipse),
      (T.base :: T.link)[i]? = some A → bodies[i]? = some A0 → PairOk2 eig fcl A (mk A0) ob (mk ob))]
  · congr 1
    apply decide_eq_decide.2
    constructor
    · intro h ob hob
      obtain ⟨k, hk⟩ := List.mem_iff_getElem?.1 hob
      exact h k (List.mem_range.2 (List.getElem?_eq_some_iff.1 hk).1) ob hk
    · intro h k _ ob hob
      exact h ob (List.mem_iff_getElem?.2 ⟨k, hob⟩)
  · intro k hk
    have hk := List.mem_range.1 hk
    have e1 := List.getElem?_eq_getElem hk
    set ob := O.obstacle[k]
    rw [Res.at'_eq_ok.2 e1, Res.bind_ok']
    have hP : (∀ ob', O.obstacle[k]? = some ob' → ∀ (i : ℕ) (A A0 : SuperEllipse),
        (T.base :: T.link)[i]? = some A → bodies[i]? = some A0 → PairOk2 eig fcl A (mk A0) ob' (mk ob')) ↔
        (∀ (i : ℕ) (A A0 : SuperEllipse),
        (T.base :: T.link)[i]? = some A → bodies[i]? = some A0 → PairOk2 eig fcl A (mk A0) ob (mk ob)) := by
      rw [e1]
      simp
    refine okDecide (i := _) hP ?_
    obtain ⟨b0, bs, rfl⟩ : ∃ b0 bs, bodies = b0 :: bs := by
      cases bodies with
      | nil => simp at hb; omega
      | cons b0 bs => exact ⟨b0, bs, rfl⟩
    have hbs : bs.length = T.link.length := by simp at hb; omega
    by_cases hE : |ob.eps - 1| < 1 / 10 ^ 6
    · simp only [if_pos hE, PairOk2]
      by_cases hB : isEllipseSeparated eig T.base ob = true
      · rw [if_pos hB, allLoop_eq _ (fun j => ∀ A, T.link[j]? = some A → isEllipseSeparated eig A ob = true)]
        · congr 1
          apply decide_eq_decide.2
          constructor
          · intro h i A A0 hA hA0
            cases i with
            | zero => obtain rfl : T.base = A := by simpa using hA
                      exact hB
            | succ j =>
              have hA : T.link[j]? = some A := by simpa using hA
              exact h j (List.mem_range.2 (hl ▸ (List.getElem?_eq_some_iff.1 hA).1)) A hA
          · intro h j _ A hA
            have hj : j < bs.length := hbs ▸ (List.getElem?_eq_some_iff.1 hA).1
            exact h (j + 1) A bs[j] (by simpa using hA) (by simp [hj])
        · intro j hj
          have hj : j < T.link.length := hl ▸ List.mem_range.1 hj
          have e := List.getElem?_eq_getElem hj
          rw [Res.at'_eq_ok.2 e, Res.bind_ok', e]
          simp
      · rw [if_neg hB]
        congr 1
        symm
        apply decide_eq_false
        intro h
        exact hB (h 0 T.base b0 rfl rfl)
    · simp only [if_neg hE, PairOk2]
      have e2 : Res.at' O.objRobot 0 = .ok (mk b0) := by
        rw [h1]; exact at'_append_map _ _ _ _ _ rfl
      have e3 : Res.at' O.objObs k = .ok (mk ob) := by
        rw [h2]; exact at'_append_map _ _ _ _ _ e1
      rw [e2, Res.bind_ok', e3, Res.bind_ok']
      by_cases hB : fcl T.base (mk b0) ob (mk ob) = true
      · rw [if_pos hB]
        congr 1
        symm
        apply decide_eq_false
        intro h
        have := h 0 T.base b0 rfl rfl
        rw [hB] at this
        cases this
      · rw [if_neg hB, allLoop_eq _ (fun j => ∀ A A0, T.link[j]? = some A → bs[j]? = some A0 →
          fcl A (mk A0) ob (mk ob) = false)]
        · congr 1
          apply decide_eq_decide.2
          constructor
          · intro h i A A0 hA hA0
            cases i with
            | zero =>
              obtain rfl : T.base = A := by simpa using hA
              obtain rfl : b0 = A0 := by simpa using hA0
              simpa using hB
            | succ j =>
              have hA : T.link[j]? = some A := by simpa using hA
              exact h j (List.mem_range.2 (hl ▸ (List.getElem?_eq_some_iff.1 hA).1)) A A0 hA (by simpa using hA0)
          · intro h j _ A A0 hA hA0
            exact h (j + 1) A A0 (by simpa using hA) (by simpa using hA0)
        · intro j hj
          have hj : j < T.link.length := hl ▸ List.mem_range.1 hj
          have e := List.getElem?_eq_getElem hj
          have hj' : j < bs.length := hbs ▸ hj
          have e' := List.getElem?_eq_getElem hj'
          have e4 : Res.at' O.objRobot (j + 1) = .ok (mk bs[j]) := by
            rw [h1]; exact at'_append_map _ _ _ _ _ (by simpa using e')
          rw [Res.at'_eq_ok.2 e, Res.bind_ok', e4, Res.bind_ok', e, e']
          simp

theorem Ompl2.setCollisionObject_eq {Obj : Type} (mk : SuperEllipse → Obj) (O : Ompl2 Obj)
    (hl : O.robot.link.length = O.robot.numLinks) :
    O.setCollisionObject mk = .ok { O with
      objRobot := O.objRobot ++ (O.robot.base :: O.robot.link).map mk, objObs := O.objObs ++ O.obstacle.map mk } := by
  unfold Ompl2.setCollisionObject
  have := appendLoop (fun i => (Res.at' O.robot.link i).bind fun l => (.ok (mk l) : Res Obj))
    (fun i => mk (O.robot.link.getD i O.robot.base)) O.robot.numLinks (by
      intro i hi
      have hi : i < O.robot.link.length := hl ▸ hi
      rw [Res.at'_eq_ok.2 (List.getElem?_eq_getElem hi), Res.bind_ok']
      simp [List.getD, hi]) (O.objRobot ++ [mk O.robot.base])
  have e : ∀ (acc : List Obj) (i : ℕ), ((Res.at' O.robot.link i).bind fun l => (.ok (acc ++ [mk l]) : Res (List Obj))) =
      ((Res.at' O.robot.link i).bind fun l => (.ok (mk l) : Res Obj)).bind fun b => .ok (acc ++ [b]) := by
    intro acc i
    cases Res.at' O.robot.link i <;> rfl
  simp only [e]
  rw [this, Res.bind_ok']
  congr 1
  have : (List.range O.robot.numLinks).map (fun i => mk (O.robot.link.getD i O.robot.base)) = O.robot.link.map mk := by
    apply List.ext_getElem
    · simp [hl]
    · intro i h1 h2
      simp only [List.length_map] at h2
      simp [List.getD, h2]
  rw [this]
  simp

theorem Ompl3.isSeparated_eq {Obj : Type} (fcl : SuperQuadrics → Obj → SuperQuadrics → Obj → Bool)
    (mk mkO : SuperQuadrics → Obj) (O : Ompl3 Obj) (T : Tree3) (r r' : List Obj) (bodies : List SuperQuadrics)
    (h1 : O.objRobot = bodies.map mk ++ r) (h2 : O.objObs = O.obstacle.map mkO ++ r')
    (hl : T.link.length = T.numLinks) (hb : bodies.length = 1 + T.numLinks) :
    O.isSeparated fcl T = .ok (decide (∀ ob ∈ O.obstacle, ∀ (i : ℕ) (A A0 : SuperQuadrics),
      (T.base :: T.link)[i]? = some A → bodies[i]? = some A0 → fcl A (mk A0) ob (mkO ob) = false)) := by
  unfold Ompl3.isSeparated
  rw [allLoop_eq _ (fun k => ∀ ob, O.obstacle[k]? = some ob → ∀ (i : ℕ) (A A0 : SuperQuadrics),
      (T.base :: T.link)[i]? = some A → bodies[i]? = some A0 → fcl A (mk A0) ob (mkO ob) = false)]
  · congr 1
    apply decide_eq_decide.2
    constructor
    · intro h ob hob
      obtain ⟨k, hk⟩ := List.mem_iff_getElem?.1 hob
      exact h k (List.mem_range.2 (List.getElem?_eq_some_iff.1 hk).1) ob hk
    · intro h k _ ob hob
      exact h ob (List.mem_iff_getElem?.2 ⟨k, hob⟩)
  · intro k hk
    have hk := List.mem_range.1 hk
    have e1 := List.getElem?_eq_getElem hk
    set ob := O.obstacle[k]
    obtain ⟨b0, bs, rfl⟩ : ∃ b0 bs, bodies = b0 :: bs := by
      cases bodies with
      | nil => simp at hb; omega
      | cons b0 bs => exact ⟨b0, bs, rfl⟩
    have hbs : bs.length = T.link.length := by simp at hb; omega
    have hP : (∀ ob', O.obstacle[k]? = some ob' → ∀ (i : ℕ) (A A0 : SuperQuadrics),
        (T.base :: T.link)[i]? = some A → (b0 :: bs)[i]? = some A0 → fcl A (mk A0) ob' (mkO ob') = false) ↔
        (∀ (i : ℕ) (A A0 : SuperQuadrics),
        (T.base :: T.link)[i]? = some A → (b0 :: bs)[i]? = some A0 → fcl A (mk A0) ob (mkO ob) = false) := by
      rw [e1]
      simp
    refine okDecide (i := _) hP ?_
    have e2 : Res.at' O.objRobot 0 = .ok (mk b0) := by
      rw [h1]; exact at'_append_map _ _ _ _ _ rfl
    have e3 : Res.at' O.objObs k = .ok (mkO ob) := by
      rw [h2]; exact at'_append_map _ _ _ _ _ e1
    simp only [Res.at'_eq_ok.2 e1, e2, e3, Res.bind_ok']
    by_cases hB : fcl T.base (mk b0) ob (mkO ob) = true
    · rw [if_pos hB]
      congr 1
      symm
      apply decide_eq_false
      intro h
      have := h 0 T.base b0 rfl rfl
      rw [hB] at this
      cases this
    · rw [if_neg hB, allLoop_eq _ (fun j => ∀ A A0, T.link[j]? = some A → bs[j]? = some A0 →
        fcl A (mk A0) ob (mkO ob) = false)]
      · congr 1
        apply decide_eq_decide.2
        constructor
        · intro h i A A0 hA hA0
          cases i with
          | zero =>
            obtain rfl : T.base = A := by simpa using hA
            obtain rfl : b0 = A0 := by simpa using hA0
            simpa using hB
          | succ j =>
            have hA : T.link[j]? = some A := by simpa using hA
            exact h j (List.mem_range.2 (hl ▸ (List.getElem?_eq_some_iff.1 hA).1)) A A0 hA (by simpa using hA0)
        · intro h j _ A A0 hA hA0
          exact h (j + 1) A A0 (by simpa using hA) (by simpa using hA0)
      · intro j hj
        have hj : j < T.link.length := hl ▸ List.mem_range.1 hj
        have e := List.getElem?_eq_getElem hj
        have hj' : j < bs.length := hbs ▸ hj
        have e' := List.getElem?_eq_getElem hj'
        have e4 : Res.at' O.objRobot (j + 1) = .ok (mk bs[j]) := by
          rw [h1]; exact at'_append_map _ _ _ _ _ (by simpa using e')
        rw [Res.at'_eq_ok.2 e, Res.bind_ok', e4, Res.bind_ok', e, e']
        simp

theorem Ompl3.setCollisionObject_eq {Obj : Type} (mk mkO : SuperQuadrics → Obj) (O : Ompl3 Obj)
    (hl : O.robot.link.length = O.robot.numLinks) :
    O.setCollisionObject mk mkO = .ok { O with
      objRobot := O.objRobot ++ (O.robot.base :: O.robot.link).map mk, objObs := O.objObs ++ O.obstacle.map mkO } := by
  unfold Ompl3.setCollisionObject
  have := appendLoop (fun i => (Res.at' O.robot.link i).bind fun l => (.ok (mk l) : Res Obj))
    (fun i => mk (O.robot.link.getD i O.robot.base)) O.robot.numLinks (by
      intro i hi
      have hi : i < O.robot.link.length := hl ▸ hi
      rw [Res.at'_eq_ok.2 (List.getElem?_eq_getElem hi), Res.bind_ok']
      simp [List.getD, hi]) (O.objRobot ++ [mk O.robot.base])
  have e : ∀ (acc : List Obj) (i : ℕ), ((Res.at' O.robot.link i).bind fun l => (.ok (acc ++ [mk l]) : Res (List Obj))) =
      ((Res.at' O.robot.link i).bind fun l => (.ok (mk l) : Res Obj)).bind fun b => .ok (acc ++ [b]) := by
    intro acc i
    cases Res.at' O.robot.link i <;> rfl
  simp only [e]
  rw [this, Res.bind_ok']
  congr 1
  have : (List.range O.robot.numLinks).map (fun i => mk (O.robot.link.getD i O.robot.base)) = O.robot.link.map mk := by
    apply List.ext_getElem
    · simp [hl]
    · intro i h1 h2
      simp only [List.length_map] at h2
      simp [List.getD, h2]
  rw [this]
  simp

end Hrm
