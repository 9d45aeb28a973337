import Verif.Lemmas.Ompl
import Verif.Props.MultiBody
import Verif.Props.Separation

/-!
# Properties C56, C57: the OMPL baseline
-/

namespace Hrm

open Matrix

/-! ## C57: the state validity check -/

/-- `n` calls of `setup`. -/
def Ompl2.setups {Obj : Type} (mk : SuperEllipse → Obj) : ℕ → Ompl2 Obj → Res (Ompl2 Obj)
  | 0, O => .ok O
  | n + 1, O => (O.setCollisionObject mk).bind fun O => Ompl2.setups mk n O

/-- `n` calls of `setup`. -/
def Ompl3.setups {Obj : Type} (mk mkO : SuperQuadrics → Obj) : ℕ → Ompl3 Obj → Res (Ompl3 Obj)
  | 0, O => .ok O
  | n + 1, O => (O.setCollisionObject mk mkO).bind fun O => Ompl3.setups mk mkO n O

theorem Ompl2.setups_eq {Obj : Type} (mk : SuperEllipse → Obj) (n : ℕ) (O : Ompl2 Obj)
    (hl : O.robot.link.length = O.robot.numLinks) (hr : ∃ r, O.objRobot = (O.robot.base :: O.robot.link).map mk ++ r)
    (ho : ∃ r, O.objObs = O.obstacle.map mk ++ r) :
    ∃ O', Ompl2.setups mk n O = .ok O' ∧ O'.robot = O.robot ∧ O'.obstacle = O.obstacle ∧
      (∃ r, O'.objRobot = (O.robot.base :: O.robot.link).map mk ++ r) ∧ ∃ r, O'.objObs = O.obstacle.map mk ++ r := by
  induction n generalizing O with
  | zero => exact ⟨O, rfl, rfl, rfl, hr, ho⟩
  | succ n ih =>
    obtain ⟨r, hr⟩ := hr
    obtain ⟨s, ho⟩ := ho
    unfold Ompl2.setups
    rw [Ompl2.setCollisionObject_eq mk O hl, Res.bind_ok']
    exact ih _ hl ⟨r ++ (O.robot.base :: O.robot.link).map mk, by simp only [hr, List.append_assoc]⟩
      ⟨s ++ O.obstacle.map mk, by simp only [ho, List.append_assoc]⟩

theorem Ompl3.setups_eq {Obj : Type} (mk mkO : SuperQuadrics → Obj) (n : ℕ) (O : Ompl3 Obj)
    (hl : O.robot.link.length = O.robot.numLinks) (hr : ∃ r, O.objRobot = (O.robot.base :: O.robot.link).map mk ++ r)
    (ho : ∃ r, O.objObs = O.obstacle.map mkO ++ r) :
    ∃ O', Ompl3.setups mk mkO n O = .ok O' ∧ O'.robot = O.robot ∧ O'.obstacle = O.obstacle ∧
      (∃ r, O'.objRobot = (O.robot.base :: O.robot.link).map mk ++ r) ∧ ∃ r, O'.objObs = O.obstacle.map mkO ++ r := by
  induction n generalizing O with
  | zero => exact ⟨O, rfl, rfl, rfl, hr, ho⟩
  | succ n ih =>
    obtain ⟨r, hr⟩ := hr
    obtain ⟨s, ho⟩ := ho
    unfold Ompl3.setups
    rw [Ompl3.setCollisionObject_eq mk mkO O hl, Res.bind_ok']
    exact ih _ hl ⟨r ++ (O.robot.base :: O.robot.link).map mk, by simp only [hr, List.append_assoc]⟩
      ⟨s ++ O.obstacle.map mkO, by simp only [ho, List.append_assoc]⟩

theorem map_same {S Obj : Type} (R : S → S → Prop) (mk : S → Obj) (hmk : ∀ A B : S, R A B → mk A = mk B)
    (l l' : List S) (hlen : l.length = l'.length)
    (h : ∀ (i : ℕ) (x y : S), l'[i]? = some x → l[i]? = some y → R y x) : l.map mk = l'.map mk := by
  apply List.ext_getElem (by simp [hlen])
  intro i h1 h2
  simp only [List.length_map] at h1 h2
  simp only [List.getElem_map]
  exact hmk _ _ (h i _ _ (List.getElem?_eq_getElem h2) (List.getElem?_eq_getElem h1))

/-- **C57 (plane), the tests made.** Whatever the robot's history and however often `setup` was called (at least
once), the check of a state never fails, and declares the state valid exactly if for every obstacle and every body —
the base and every body added — the pair passes its test: the separation test for an obstacle whose exponent is
one (to six digits), the collision library for any other. The shapes tested are the bodies moved to the state; the
collision objects are those of the same body and of the same obstacle. -/
theorem C57_plane {Obj : Type} (eig : EigFun) (fcl : SuperEllipse → Obj → SuperEllipse → Obj → Bool)
    (mk : SuperEllipse → Obj) (hmk : ∀ A B : SuperEllipse, A.Same B → mk A = mk B) (base : SuperEllipse)
    (ops : List (RobotOp SuperEllipse 2)) (obstacles : List SuperEllipse) (n : ℕ) :
    ∃ T O, Tree2.run ops (Tree2.new base) = .ok T ∧ Ompl2.setups mk (n + 1) (Ompl2.new T obstacles) = .ok O ∧
      ∀ x y th : ℝ, ∃ (B : List SuperEllipse) (b : Bool), O.isStateValid eig fcl x y th = .ok b ∧
        B.length = 1 + (addedBodies ops).length ∧
        (∀ A, B[0]? = some A → A.Same base ∧ A.solid = base.placed (rot2 th) ![x, y]) ∧
        (∀ (i : ℕ) (A l : SuperEllipse), B[i + 1]? = some A → (addedBodies ops)[i]? = some l →
          A.Same l ∧ A.solid = l.carried ⟨rot2 th, ![x, y]⟩) ∧
        (b = true ↔ ∀ ob ∈ obstacles, ∀ (i : ℕ) (A A0 : SuperEllipse), B[i]? = some A →
          (base :: addedBodies ops)[i]? = some A0 →
          if |ob.eps - 1| < 1 / 10 ^ 6 then isEllipseSeparated eig A ob = true
          else fcl A (mk A0) ob (mk ob) = false) := by
  obtain ⟨T, h, hi⟩ := Tree2.run_inv base ops
  have hl : T.link.length = T.numLinks := hi.len.trans hi.num.symm
  have hset : ∃ O', Ompl2.setups mk (n + 1) (Ompl2.new T obstacles) = .ok O' ∧ O'.robot = T ∧ O'.obstacle = obstacles ∧
      (∃ r, O'.objRobot = (T.base :: T.link).map mk ++ r) ∧ ∃ r, O'.objObs = obstacles.map mk ++ r := by
    unfold Ompl2.setups
    rw [Ompl2.setCollisionObject_eq mk _ hl, Res.bind_ok']
    exact Ompl2.setups_eq mk n _ hl ⟨[], by simp [Ompl2.new]⟩ ⟨[], by simp [Ompl2.new]⟩
  obtain ⟨O, hO, hrob, hobs, ⟨r, hr⟩, s, hs⟩ := hset
  refine ⟨T, O, h, hO, ?_⟩
  intro x y th
  obtain ⟨T', e, hi', hb, hlk⟩ := hi.move ⟨rot2 th, ![x, y]⟩
  have hg : (⟨rot2 th, ![x, y]⟩ : Pose 2).Rigid2 := ⟨th, rfl⟩
  have hmap : (T.base :: T.link).map mk = (base :: addedBodies ops).map mk := by
    refine map_same _ mk hmk _ _ (by simp [hi.len]) ?_
    intro i a b e1 e2
    cases i with
    | zero =>
      obtain rfl : base = a := by simpa using e1
      obtain rfl : T.base = b := by simpa using e2
      exact hi.base
    | succ j => exact hi.same j a b (by simpa using e1) (by simpa using e2)
  refine ⟨T'.base :: T'.link, ?_⟩
  have hv : O.isStateValid eig fcl x y th = O.isSeparated eig fcl T' := by
    unfold Ompl2.isStateValid
    rw [hrob, e, Res.bind_ok']
  have hsep := Ompl2.isSeparated_eq eig fcl mk O T' r s (base :: addedBodies ops) (by rw [hr, hmap]) (by rw [hs, hobs])
      (hi'.len.trans hi'.num.symm) (by rw [hi'.num]; simp [Nat.add_comm])
  refine ⟨_, hv.trans hsep, by simp [hi'.len, Nat.add_comm], ?_, ?_, ?_⟩
  · intro A hA
    obtain rfl : T'.base = A := by simpa using hA
    exact ⟨hi'.base, by rw [hb]; exact SuperEllipse.solid_place hi.base hg.angle⟩
  · intro i A l hA hl
    obtain ⟨l0, -, h0, h1⟩ := hlk i l hl
    have hA : T'.link[i]? = some A := by simpa using hA
    refine ⟨hi'.same i l A hl hA, ?_⟩
    rw [h1] at hA
    obtain rfl := Option.some.inj hA
    exact SuperEllipse.solid_place h0 (hg.mul_link l).angle
  · refine Iff.trans (@decide_eq_true_iff _ (_)) ?_
    rw [hobs]
    rfl

/-- What is asked of the collision library for an obstacle: no collision reported means that an elliptic body and the
obstacle have no point in common. -/
def FclSound2 {Obj : Type} (fcl : SuperEllipse → Obj → SuperEllipse → Obj → Bool) (mk : SuperEllipse → Obj)
    (ob : SuperEllipse) : Prop :=
  ∀ A A0 : SuperEllipse, A0.IsEllipse → A.Same A0 → fcl A (mk A0) ob (mk ob) = false → Disjoint A.solid ob.solid

/-- The converse demand: bodies without a common point are not reported. -/
def FclComplete2 {Obj : Type} (fcl : SuperEllipse → Obj → SuperEllipse → Obj → Bool) (mk : SuperEllipse → Obj)
    (ob : SuperEllipse) : Prop :=
  ∀ A A0 : SuperEllipse, A0.IsEllipse → A.Same A0 → Disjoint A.solid ob.solid → fcl A (mk A0) ob (mk ob) = false

/-- The obstacles for which the separation test is right up to the tolerance, or the collision library decides. -/
def GoodObstacle2 (ob : SuperEllipse) : Prop := ob.IsEllipse ∨ 1 / 10 ^ 6 ≤ |ob.eps - 1|

theorem IsEllipse_same {A B : SuperEllipse} (h : A.Same B) (hB : B.IsEllipse) : A.IsEllipse :=
  ⟨h.1 ▸ hB.a, h.2.1 ▸ hB.b, h.2.2.1 ▸ hB.eps⟩

theorem ellipse_eps {E : SuperEllipse} (h : E.IsEllipse) : |E.eps - 1| < 1 / 10 ^ 6 := by
  rw [h.eps]; norm_num

/-- The claim as a user would state it: in a state declared valid no body overlaps an obstacle. -/
def C57_claim {Obj : Type} (eig : EigFun) (fcl : SuperEllipse → Obj → SuperEllipse → Obj → Bool)
    (mk : SuperEllipse → Obj) : Prop :=
  ∀ (base : SuperEllipse) (ops : List (RobotOp SuperEllipse 2)) (obstacles : List SuperEllipse) (n : ℕ) (T : Tree2)
    (O : Ompl2 Obj) (x y th : ℝ), base.IsEllipse → (∀ l ∈ addedBodies ops, l.IsEllipse) →
    (∀ ob ∈ obstacles, GoodObstacle2 ob) →
    Tree2.run ops (Tree2.new base) = .ok T → Ompl2.setups mk (n + 1) (Ompl2.new T obstacles) = .ok O →
    O.isStateValid eig fcl x y th = .ok true →
    ∀ ob ∈ obstacles, interior (base.placed (rot2 th) ![x, y]) ∩ interior ob.solid = ∅ ∧
      ∀ l ∈ addedBodies ops, interior (l.carried ⟨rot2 th, ![x, y]⟩) ∩ interior ob.solid = ∅

/-- C57 in the plane. Missing from the claim: an elliptic obstacle must be shrunk by two parts in a million. -/
theorem C57_plane_partial {Obj : Type} {eig : EigFun} (he : EigOk eig)
    {fcl : SuperEllipse → Obj → SuperEllipse → Obj → Bool} {mk : SuperEllipse → Obj}
    (hmk : ∀ A B : SuperEllipse, A.Same B → mk A = mk B) {base : SuperEllipse}
    {ops : List (RobotOp SuperEllipse 2)} {obstacles : List SuperEllipse} {n : ℕ} {T : Tree2} {O : Ompl2 Obj} {x y th : ℝ}
    (hbase : base.IsEllipse) (hadd : ∀ l ∈ addedBodies ops, l.IsEllipse)
    (hfcl : ∀ ob ∈ obstacles, FclSound2 fcl mk ob)
    (hT : Tree2.run ops (Tree2.new base) = .ok T) (hO : Ompl2.setups mk (n + 1) (Ompl2.new T obstacles) = .ok O)
    (hv : O.isStateValid eig fcl x y th = .ok true) :
    ∀ ob ∈ obstacles,
      (ob.IsEllipse → Disjoint (base.placed (rot2 th) ![x, y]) (ob.scaled (1 - 2 / 10 ^ 6)).solid ∧
        ∀ l ∈ addedBodies ops, Disjoint (l.carried ⟨rot2 th, ![x, y]⟩) (ob.scaled (1 - 2 / 10 ^ 6)).solid) ∧
      (1 / 10 ^ 6 ≤ |ob.eps - 1| → Disjoint (base.placed (rot2 th) ![x, y]) ob.solid ∧
        ∀ l ∈ addedBodies ops, Disjoint (l.carried ⟨rot2 th, ![x, y]⟩) ob.solid) := by
  obtain ⟨T0, O0, h1, h2, h⟩ := C57_plane eig fcl mk hmk base ops obstacles n
  rw [hT] at h1
  obtain rfl := (Res.ok.injEq _ _).mp h1
  rw [hO] at h2
  obtain rfl := (Res.ok.injEq _ _).mp h2
  obtain ⟨B, b, e, hlen, hB0, hBs, hiff⟩ := h x y th
  rw [hv] at e
  obtain rfl := (Res.ok.injEq _ _).mp e
  have hall := hiff.1 rfl
  have h0 : (0 : ℕ) < B.length := by omega
  have hE : ∀ A ob : SuperEllipse, A.IsEllipse → ob.IsEllipse → isEllipseSeparated eig A ob = true →
      Disjoint A.solid (ob.scaled (1 - 2 / 10 ^ 6)).solid := by
    intro A ob hA hob hs
    rw [Set.disjoint_iff_inter_eq_empty]
    by_contra hne
    rw [C43_ellipse_partial he hA hob (Set.nonempty_iff_ne_empty.2 hne)] at hs
    cases hs
  intro ob hob
  have hbt := hall ob hob 0 B[0] base (List.getElem?_eq_getElem h0) rfl
  obtain ⟨hs0, hsol0⟩ := hB0 B[0] (List.getElem?_eq_getElem h0)
  constructor
  · intro hel
    refine ⟨?_, ?_⟩
    · rw [if_pos (ellipse_eps hel)] at hbt
      rw [← hsol0]
      exact hE _ _ (IsEllipse_same hs0 hbase) hel hbt
    · intro l hl
      obtain ⟨i, hi⟩ := List.mem_iff_getElem?.1 hl
      have hi' : i + 1 < B.length := by
        have := (List.getElem?_eq_some_iff.1 hi).1
        omega
      obtain ⟨hs1, hsol1⟩ := hBs i B[i + 1] l (List.getElem?_eq_getElem hi') hi
      have ht := hall ob hob (i + 1) B[i + 1] l (List.getElem?_eq_getElem hi') (by simpa using hi)
      rw [if_pos (ellipse_eps hel)] at ht
      rw [← hsol1]
      exact hE _ _ (IsEllipse_same hs1 (hadd l hl)) hel ht
  · intro hne
    refine ⟨?_, ?_⟩
    · rw [if_neg (not_lt.2 hne)] at hbt
      rw [← hsol0]
      exact hfcl ob hob _ _ hbase hs0 hbt
    · intro l hl
      obtain ⟨i, hi⟩ := List.mem_iff_getElem?.1 hl
      have hi' : i + 1 < B.length := by
        have := (List.getElem?_eq_some_iff.1 hi).1
        omega
      obtain ⟨hs1, hsol1⟩ := hBs i B[i + 1] l (List.getElem?_eq_getElem hi') hi
      have ht := hall ob hob (i + 1) B[i + 1] l (List.getElem?_eq_getElem hi') (by simpa using hi)
      rw [if_neg (not_lt.2 hne)] at ht
      rw [← hsol1]
      exact hfcl ob hob _ _ (hadd l hl) hs1 ht

/-- The gap that makes the separation test answer "separated". -/
def ClearOf (S : Set (Fin 2 → ℝ)) (A ob : SuperEllipse) : Prop :=
  (ob.IsEllipse ∧ ∃ g, GapAtLeast S ob.solid g ∧ max ob.a ob.b ^ 2 < 8 * 10 ^ 12 * g * min A.a A.b) ∨
  (1 / 10 ^ 6 ≤ |ob.eps - 1| ∧ Disjoint S ob.solid)

/-- C57, the other direction: a state in which every body keeps clear of every obstacle is declared valid. -/
theorem C57_plane_free {Obj : Type} {eig : EigFun} (he : EigOk eig)
    {fcl : SuperEllipse → Obj → SuperEllipse → Obj → Bool} {mk : SuperEllipse → Obj}
    (hmk : ∀ A B : SuperEllipse, A.Same B → mk A = mk B) {base : SuperEllipse}
    {ops : List (RobotOp SuperEllipse 2)} {obstacles : List SuperEllipse} {n : ℕ} {T : Tree2} {O : Ompl2 Obj} {x y th : ℝ}
    (hbase : base.IsEllipse) (hadd : ∀ l ∈ addedBodies ops, l.IsEllipse)
    (hfcl : ∀ ob ∈ obstacles, FclComplete2 fcl mk ob)
    (hT : Tree2.run ops (Tree2.new base) = .ok T) (hO : Ompl2.setups mk (n + 1) (Ompl2.new T obstacles) = .ok O)
    (hclear : ∀ ob ∈ obstacles, ClearOf (base.placed (rot2 th) ![x, y]) base ob ∧
      ∀ l ∈ addedBodies ops, ClearOf (l.carried ⟨rot2 th, ![x, y]⟩) l ob) :
    O.isStateValid eig fcl x y th = .ok true := by
  obtain ⟨T0, O0, h1, h2, h⟩ := C57_plane eig fcl mk hmk base ops obstacles n
  rw [hT] at h1
  obtain rfl := (Res.ok.injEq _ _).mp h1
  rw [hO] at h2
  obtain rfl := (Res.ok.injEq _ _).mp h2
  obtain ⟨B, b, e, hlen, hB0, hBs, hiff⟩ := h x y th
  rw [e, hiff.2]
  have key : ∀ A A0 ob : SuperEllipse, ob ∈ obstacles → A.Same A0 → A0.IsEllipse → ClearOf A.solid A0 ob →
      if |ob.eps - 1| < 1 / 10 ^ 6 then isEllipseSeparated eig A ob = true
          else fcl A (mk A0) ob (mk ob) = false := by
    intro A A0 ob hob hs hA0 hc
    rcases hc with ⟨hel, g, hg, hlt⟩ | ⟨hne, hd⟩
    · rw [if_pos (ellipse_eps hel)]
      refine C44_ellipse_partial he (IsEllipse_same hs hA0) hel hg ?_
      rw [hs.1, hs.2.1]
      exact hlt
    · rw [if_neg (not_lt.2 hne)]
      exact hfcl ob hob A A0 hA0 hs hd
  intro ob hob i A A0 hA hA0
  obtain ⟨c0, cs⟩ := hclear ob hob
  cases i with
  | zero =>
    obtain rfl : base = A0 := by simpa using hA0
    obtain ⟨hs, hsol⟩ := hB0 A hA
    exact key _ _ _ hob hs hbase (hsol ▸ c0)
  | succ j =>
    have hA0 : (addedBodies ops)[j]? = some A0 := by simpa using hA0
    obtain ⟨hs, hsol⟩ := hBs j A A0 hA hA0
    have hm := List.mem_iff_getElem?.2 ⟨j, hA0⟩
    exact key _ _ _ hob hs (hadd _ hm) (hsol ▸ cs A0 hm)

/-- The claim is false: the tolerance of the separation test lets overlapping bodies pass. -/
theorem C57_refuted {Obj : Type} {eig : EigFun} (he : EigOk eig)
    (fcl : SuperEllipse → Obj → SuperEllipse → Obj → Bool) (mk : SuperEllipse → Obj) : ¬ C57_claim eig fcl mk := by
  intro hc
  refine C43_refuted he ?_
  intro A B hA hB hne
  by_contra hs
  have hs : isEllipseSeparated eig A B = true := by simpa using hs
  have hpl : isEllipseSeparated eig (Tree2.place A ⟨rot2 A.ang, ![A.px, A.py]⟩) B = true := by
    rw [← hs]
    unfold isEllipseSeparated
    simp only [Tree2.place, rot2_matAngle, cons_val_zero, cons_val_one]
  have hv : (⟨Tree2.new A, [B], [mk A], [mk B]⟩ : Ompl2 Obj).isStateValid eig fcl A.px A.py A.ang = .ok true := by
    unfold Ompl2.isStateValid Tree2.robotTF Ompl2.isSeparated
    simp only [Tree2.new, List.range_zero, List.foldlM_nil, Res.pure_eq, Res.bind_ok', List.length_singleton,
      List.range_one, allLoop]
    rw [Res.at'_eq_ok.2 (show [B][0]? = some B from rfl), Res.bind_ok', if_pos (ellipse_eps hB), if_pos hpl]
    rfl
  have := (hc A [] [B] 0 (Tree2.new A) ⟨Tree2.new A, [B], [mk A], [mk B]⟩ A.px A.py A.ang hA (by simp [addedBodies])
    (by simp [GoodObstacle2, hB]) rfl rfl hv B (by simp)).1
  have hsol : A.placed (rot2 A.ang) ![A.px, A.py] = A.solid := by
    have := SuperEllipse.solid_place (E := A) (F := A) ⟨rfl, rfl, rfl, rfl⟩ (g := ⟨rot2 A.ang, ![A.px, A.py]⟩)
      (rot2_matAngle _)
    rw [← this]
    simp only [SuperEllipse.solid, SuperEllipse.solid0, Tree2.place, rot2_matAngle, cons_val_zero, cons_val_one]
    rfl
  rw [hsol] at this
  exact hne.ne_empty this

/-! ### Space -/

theorem C57_space_moved {Obj : Type} (fcl : SuperQuadrics → Obj → SuperQuadrics → Obj → Bool)
    (mk mkO : SuperQuadrics → Obj) (hmk : ∀ A B : SuperQuadrics, A.Same B → mk A = mk B) {base : SuperQuadrics}
    {ops : List (RobotOp SuperQuadrics 3)} (obstacles : List SuperQuadrics) (n : ℕ) {T : Tree3}
    (hi : Tree3.Inv base (addedBodies ops) T) :
    ∃ O, Ompl3.setups mk mkO (n + 1) (Ompl3.new T obstacles) = .ok O ∧ O.robot = T ∧
      ∀ T' : Tree3, T'.link.length = T'.numLinks → T'.numLinks = (addedBodies ops).length →
        ∃ b : Bool, O.isSeparated fcl T' = .ok b ∧
          (b = true ↔ ∀ ob ∈ obstacles, ∀ (i : ℕ) (A A0 : SuperQuadrics), (T'.base :: T'.link)[i]? = some A →
            (base :: addedBodies ops)[i]? = some A0 → fcl A (mk A0) ob (mkO ob) = false) := by
  have hl : T.link.length = T.numLinks := hi.len.trans hi.num.symm
  have hset : ∃ O', Ompl3.setups mk mkO (n + 1) (Ompl3.new T obstacles) = .ok O' ∧ O'.robot = T ∧
      O'.obstacle = obstacles ∧
      (∃ r, O'.objRobot = (T.base :: T.link).map mk ++ r) ∧ ∃ r, O'.objObs = obstacles.map mkO ++ r := by
    unfold Ompl3.setups
    rw [Ompl3.setCollisionObject_eq mk mkO _ hl, Res.bind_ok']
    exact Ompl3.setups_eq mk mkO n _ hl ⟨[], by simp [Ompl3.new]⟩ ⟨[], by simp [Ompl3.new]⟩
  obtain ⟨O, hO, hrob, hobs, ⟨r, hr⟩, s, hs⟩ := hset
  refine ⟨O, hO, hrob, ?_⟩
  intro T' h1 h2
  have hmap : (T.base :: T.link).map mk = (base :: addedBodies ops).map mk := by
    refine map_same _ mk hmk _ _ (by simp [hi.len]) ?_
    intro i a b e1 e2
    cases i with
    | zero =>
      obtain rfl : base = a := by simpa using e1
      obtain rfl : T.base = b := by simpa using e2
      exact hi.base
    | succ j => exact hi.same j a b (by simpa using e1) (by simpa using e2)
  refine ⟨_, Ompl3.isSeparated_eq fcl mk mkO O T' r s (base :: addedBodies ops) (by rw [hr, hmap]) (by rw [hs, hobs])
      h1 (by rw [h2]; simp [Nat.add_comm]), ?_⟩
  refine Iff.trans (@decide_eq_true_iff _ (_)) ?_
  rw [hobs]

/-- **C57 (space), the tests made.** Whatever the collision library answers: the check of a state never fails, and
declares the state valid exactly if for no obstacle and no body — the base and every body added, moved to the state —
the library reports a collision; the collision objects are those of the same body and of the same obstacle. -/
theorem C57_space_tests {Obj : Type} (fcl : SuperQuadrics → Obj → SuperQuadrics → Obj → Bool)
    (mk mkO : SuperQuadrics → Obj) (hmk : ∀ A B : SuperQuadrics, A.Same B → mk A = mk B) (base : SuperQuadrics)
    (ops : List (RobotOp SuperQuadrics 3)) (hops : RigidOps3 ops) (obstacles : List SuperQuadrics) (n : ℕ) :
    ∃ T O, Tree3.run ops (Tree3.new base) = .ok T ∧ Ompl3.setups mk mkO (n + 1) (Ompl3.new T obstacles) = .ok O ∧
      ∀ (p : Fin 3 → ℝ) (q : Quat), q.Unit → ∃ (B : List SuperQuadrics) (b : Bool), O.isStateValid fcl p q = .ok b ∧
        B.length = 1 + (addedBodies ops).length ∧
        (∀ A, B[0]? = some A → A.Same base ∧ A.solid = base.placed (quatRot q) p) ∧
        (∀ (i : ℕ) (A l : SuperQuadrics), B[i + 1]? = some A → (addedBodies ops)[i]? = some l →
          A.Same l ∧ A.solid = l.carried ⟨quatRot q, p⟩) ∧
        (b = true ↔ ∀ ob ∈ obstacles, ∀ (i : ℕ) (A A0 : SuperQuadrics), B[i]? = some A →
          (base :: addedBodies ops)[i]? = some A0 → fcl A (mk A0) ob (mkO ob) = false) := by
  obtain ⟨T, h, hi⟩ := Tree3.run_inv base ops
  obtain ⟨O, hO, hrob, hsep⟩ := C57_space_moved fcl mk mkO hmk obstacles n hi
  refine ⟨T, O, h, hO, ?_⟩
  intro p q hq
  have hg : (⟨quatRot q, p⟩ : Pose 3).Rigid3 := ⟨(quatRot_orth hq).left, (quatRot_orth hq).right, quatRot_det hq⟩
  obtain ⟨T1, h1, -, -, -, -, hmv⟩ := C37_robot3D base ops hops
  rw [h] at h1
  obtain rfl := (Res.ok.injEq _ _).mp h1
  obtain ⟨T', e, hn', hl', -, hb', hlk'⟩ := hmv _ hg
  obtain ⟨T'', e', hi', -, -⟩ := hi.move ⟨quatRot q, p⟩
  rw [e] at e'
  obtain rfl := (Res.ok.injEq _ _).mp e'
  obtain ⟨b, hb, hiff⟩ := hsep T' (hi'.len.trans hi'.num.symm) hi'.num
  refine ⟨T'.base :: T'.link, b, ?_, by simp [hi'.len, Nat.add_comm], ?_, ?_, hiff⟩
  · unfold Ompl3.isStateValid
    rw [hrob, e, Res.bind_ok']
    exact hb
  · intro A hA
    obtain rfl : T'.base = A := by simpa using hA
    exact ⟨hi'.base, hb'⟩
  · intro i A l hA hl
    have hA : T'.link[i]? = some A := by simpa using hA
    obtain ⟨l', hl', hsol⟩ := hlk' i l hl
    rw [hA] at hl'
    obtain rfl := Option.some.inj hl'
    exact ⟨hi'.same i l A hl hA, hsol⟩

/-- What is asked of the collision library in space: for the given bodies, wherever they are, it reports a collision
exactly if body and obstacle have a common point. -/
def FclExact3 {Obj : Type} (fcl : SuperQuadrics → Obj → SuperQuadrics → Obj → Bool) (mk mkO : SuperQuadrics → Obj)
    (bodies : List SuperQuadrics) (ob : SuperQuadrics) : Prop :=
  ∀ A, ∀ A0 ∈ bodies, A.Same A0 → (fcl A (mk A0) ob (mkO ob) = false ↔ Disjoint A.solid ob.solid)

/-- **C57 (space).** With a collision library that is right about single pairs: after any history of the robot and any
number of calls of `setup` (at least one), the check of a state never fails, and declares the state valid exactly if no
body of the robot, moved to the state, has a point in common with an obstacle. -/
theorem C57_space {Obj : Type} {fcl : SuperQuadrics → Obj → SuperQuadrics → Obj → Bool}
    {mk mkO : SuperQuadrics → Obj} (hmk : ∀ A B : SuperQuadrics, A.Same B → mk A = mk B) (base : SuperQuadrics)
    (ops : List (RobotOp SuperQuadrics 3)) (hops : RigidOps3 ops) (obstacles : List SuperQuadrics)
    (hfcl : ∀ ob ∈ obstacles, FclExact3 fcl mk mkO (base :: addedBodies ops) ob) (n : ℕ) :
    ∃ T O, Tree3.run ops (Tree3.new base) = .ok T ∧ Ompl3.setups mk mkO (n + 1) (Ompl3.new T obstacles) = .ok O ∧
      ∀ (p : Fin 3 → ℝ) (q : Quat), q.Unit → ∃ b : Bool, O.isStateValid fcl p q = .ok b ∧
        (b = true ↔ ∀ ob ∈ obstacles, Disjoint (base.placed (quatRot q) p) ob.solid ∧
          ∀ l ∈ addedBodies ops, Disjoint (l.carried ⟨quatRot q, p⟩) ob.solid) := by
  obtain ⟨T, h, hi⟩ := Tree3.run_inv base ops
  obtain ⟨O, hO, hrob, hsep⟩ := C57_space_moved fcl mk mkO hmk obstacles n hi
  refine ⟨T, O, h, hO, ?_⟩
  intro p q hq
  have hg : (⟨quatRot q, p⟩ : Pose 3).Rigid3 := ⟨(quatRot_orth hq).left, (quatRot_orth hq).right, quatRot_det hq⟩
  obtain ⟨T1, h1, -, -, -, -, hmv⟩ := C37_robot3D base ops hops
  rw [h] at h1
  obtain rfl := (Res.ok.injEq _ _).mp h1
  obtain ⟨T', e, hn', hl', -, hb', hlk'⟩ := hmv _ hg
  obtain ⟨T'', e', hi', -, -⟩ := hi.move ⟨quatRot q, p⟩
  rw [e] at e'
  obtain rfl := (Res.ok.injEq _ _).mp e'
  obtain ⟨b, hb, hiff⟩ := hsep T' (hi'.len.trans hi'.num.symm) hi'.num
  refine ⟨b, ?_, ?_⟩
  · unfold Ompl3.isStateValid
    rw [hrob, e, Res.bind_ok']
    exact hb
  · rw [hiff]
    constructor
    · intro hall ob hob
      refine ⟨?_, ?_⟩
      · rw [← hb']
        exact (hfcl ob hob _ base (by simp) hi'.base).1 (hall ob hob 0 T'.base base rfl rfl)
      · intro l hl
        obtain ⟨i, hil⟩ := List.mem_iff_getElem?.1 hl
        obtain ⟨l', hl', hsol⟩ := hlk' i l hil
        rw [← hsol]
        exact (hfcl ob hob _ l (by simp [hl]) (hi'.same i l l' hil hl')).1
          (hall ob hob (i + 1) l' l (by simpa using hl') (by simpa using hil))
    · intro hall ob hob i A A0 hA hA0
      obtain ⟨c0, cs⟩ := hall ob hob
      cases i with
      | zero =>
        obtain rfl : base = A0 := by simpa using hA0
        obtain rfl : T'.base = A := by simpa using hA
        exact (hfcl ob hob _ base (by simp) hi'.base).2 (hb' ▸ c0)
      | succ j =>
        have hA0 : (addedBodies ops)[j]? = some A0 := by simpa using hA0
        have hA : T'.link[j]? = some A := by simpa using hA
        obtain ⟨l', hl', hsol⟩ := hlk' j A0 hA0
        rw [hA] at hl'
        obtain rfl := Option.some.inj hl'
        exact (hfcl ob hob _ A0 (by simp [List.mem_of_getElem? hA0]) (hi'.same j A0 A hA0 hA)).2
          (hsol ▸ cs A0 (List.mem_iff_getElem?.2 ⟨j, hA0⟩))

/-- **C57 (space, articulated).** The same for `OMPL3DArticulated`: body `i` is moved by the joint transformation the
kinematics library returns for the joint values of the state. -/
theorem C57_space_articulated {Obj : Type} {fcl : SuperQuadrics → Obj → SuperQuadrics → Obj → Bool}
    {mk mkO : SuperQuadrics → Obj} (hmk : ∀ A B : SuperQuadrics, A.Same B → mk A = mk B) (base : SuperQuadrics)
    (ops : List (RobotOp SuperQuadrics 3)) (hops : RigidOps3 ops) (obstacles : List SuperQuadrics)
    (hfcl : ∀ ob ∈ obstacles, FclExact3 fcl mk mkO (base :: addedBodies ops) ob) (n : ℕ) :
    ∃ T O, Tree3.run ops (Tree3.new base) = .ok T ∧ Ompl3.setups mk mkO (n + 1) (Ompl3.new T obstacles) = .ok O ∧
      ∀ (p : Fin 3 → ℝ) (q : Quat) (fk : ℕ → Pose 3), q.Unit → (∀ i, (fk i).Rigid3) →
        ∃ b : Bool, O.isStateValidArt fcl p q fk = .ok b ∧
        (b = true ↔ ∀ ob ∈ obstacles, Disjoint (base.placed (quatRot q) p) ob.solid ∧
          ∀ (i : ℕ) (l : SuperQuadrics), (addedBodies ops)[i]? = some l →
            Disjoint (l.carried (Pose.mul ⟨quatRot q, p⟩ (fk i))) ob.solid) := by
  obtain ⟨T, h, hi⟩ := Tree3.run_inv base ops
  obtain ⟨O, hO, hrob, hsep⟩ := C57_space_moved fcl mk mkO hmk obstacles n hi
  refine ⟨T, O, h, hO, ?_⟩
  intro p q fk hq hfk
  have hg : (⟨quatRot q, p⟩ : Pose 3).Rigid3 := ⟨(quatRot_orth hq).left, (quatRot_orth hq).right, quatRot_det hq⟩
  obtain ⟨T', e, hl', -, hb', hlk'⟩ := C37_robot3D_articulated base ops hops T h _ hg fk hfk
  obtain ⟨T'', e', hb2, hn2, -, hl2, hlk2⟩ :=
    Tree3.robotTFWith_spec T ⟨quatRot q, p⟩ fk (hi.len.trans hi.num.symm) hi.tflen
  rw [e] at e'
  obtain rfl := (Res.ok.injEq _ _).mp e'
  have hs0 : T'.base.Same base := by
    rw [hb2]; exact hi.base
  have hsame : ∀ (i : ℕ) (l A : SuperQuadrics), (addedBodies ops)[i]? = some l → T'.link[i]? = some A → A.Same l := by
    intro i l A e1 e2
    have hi1 : i < T.link.length := by rw [hi.len]; exact (List.getElem?_eq_some_iff.1 e1).1
    have hi2 : i < T.tf.length := by rw [hi.tflen, ← hi.len.trans hi.num.symm]; exact hi1
    have := hlk2 i _ _ (List.getElem?_eq_getElem hi1) (List.getElem?_eq_getElem hi2)
    rw [e2] at this
    obtain rfl := Option.some.inj this
    exact (show (T.link[i]).Same l from hi.same i l _ e1 (List.getElem?_eq_getElem hi1))
  obtain ⟨b, hb, hiff⟩ := hsep T' (hl2.trans hn2.symm) (hn2.trans hi.num)
  refine ⟨b, ?_, ?_⟩
  · unfold Ompl3.isStateValidArt
    rw [hrob, e, Res.bind_ok']
    exact hb
  · rw [hiff]
    constructor
    · intro hall ob hob
      refine ⟨?_, ?_⟩
      · rw [← hb']
        exact (hfcl ob hob _ base (by simp) hs0).1 (hall ob hob 0 T'.base base rfl rfl)
      · intro i l hil
        obtain ⟨l', hl', hsol⟩ := hlk' i l hil
        rw [← hsol]
        exact (hfcl ob hob _ l (by simp [List.mem_of_getElem? hil]) (hsame i l l' hil hl')).1
          (hall ob hob (i + 1) l' l (by simpa using hl') (by simpa using hil))
    · intro hall ob hob i A A0 hA hA0
      obtain ⟨c0, cs⟩ := hall ob hob
      cases i with
      | zero =>
        obtain rfl : base = A0 := by simpa using hA0
        obtain rfl : T'.base = A := by simpa using hA
        exact (hfcl ob hob _ base (by simp) hs0).2 (hb' ▸ c0)
      | succ j =>
        have hA0 : (addedBodies ops)[j]? = some A0 := by simpa using hA0
        have hA : T'.link[j]? = some A := by simpa using hA
        obtain ⟨l', hl', hsol⟩ := hlk' j A0 hA0
        rw [hA] at hl'
        obtain rfl := Option.some.inj hl'
        exact (hfcl ob hob _ A0 (by simp [List.mem_of_getElem? hA0]) (hsame j A0 A hA0 hA)).2 (hsol ▸ cs j A0 hA0)

/-- Before `setup`, the check of any state throws (no collision objects). -/
theorem C57_no_setup {Obj : Type} (fcl : SuperQuadrics → Obj → SuperQuadrics → Obj → Bool) (base : SuperQuadrics)
    (ops : List (RobotOp SuperQuadrics 3)) (obstacles : List SuperQuadrics) (hne : obstacles ≠ []) (p : Fin 3 → ℝ)
    (q : Quat) :
    ∃ T, Tree3.run ops (Tree3.new base) = .ok T ∧
      (Ompl3.new T obstacles : Ompl3 Obj).isStateValid fcl p q = .throw := by
  obtain ⟨T, h, hi⟩ := Tree3.run_inv base ops
  obtain ⟨T', e, -⟩ := hi.move ⟨quatRot q, p⟩
  refine ⟨T, h, ?_⟩
  unfold Ompl3.isStateValid
  rw [show (Ompl3.new T obstacles : Ompl3 Obj).robot = T from rfl, e, Res.bind_ok']
  unfold Ompl3.isSeparated
  obtain ⟨o, os, rfl⟩ := List.exists_cons_of_ne_nil hne
  rw [show (Ompl3.new T (o :: os) : Ompl3 Obj).obstacle.length = os.length + 1 from rfl, List.range_succ_eq_map]
  rfl

/-- The contracts on the collision library can be met: by a library that computes the truth. -/
theorem fclExact3_exists : ∃ fcl : SuperQuadrics → Unit → SuperQuadrics → Unit → Bool,
    ∀ bodies ob, FclExact3 fcl (fun _ => ()) (fun _ => ()) bodies ob := by
  classical
  refine ⟨fun A _ B _ => !decide (Disjoint A.solid B.solid), ?_⟩
  intro bodies ob A A0 _ _
  simp

theorem fclExact2_exists : ∃ fcl : SuperEllipse → Unit → SuperEllipse → Unit → Bool,
    ∀ ob, FclSound2 fcl (fun _ => ()) ob ∧ FclComplete2 fcl (fun _ => ()) ob := by
  classical
  refine ⟨fun A _ B _ => !decide (Disjoint A.solid B.solid), fun ob => ⟨?_, ?_⟩⟩
  · intro A A0 _ _ h
    simpa using h
  · intro A A0 _ _ h
    simpa using h

/-- A robot of two unit discs, one obstacle close to the second: declared valid. -/
theorem C57_nontrivial {eig : EigFun} (he : EigOk eig) :
    ∃ (T : Tree2) (O : Ompl2 Unit), Tree2.run [.add (circ 1)] (Tree2.new (circ 0)) = .ok T ∧
      Ompl2.setups (fun _ => ()) 2 (Ompl2.new T [circ (3 + 1 / 10 ^ 5)]) = .ok O ∧
      O.isStateValid eig (fun _ _ _ _ => false) 0 0 0 = .ok true := by
  obtain ⟨T, O, h1, h2, -⟩ := C57_plane eig (fun _ _ _ _ => false) (fun _ => ()) (fun _ _ _ => rfl) (circ 0)
    [.add (circ 1)] [circ (3 + 1 / 10 ^ 5)] 1
  refine ⟨T, O, h1, h2, ?_⟩
  have hr : rot2 0 = 1 := by
    ext i j; fin_cases i <;> fin_cases j <;> simp [rot2]
  have hpl : ∀ c : ℝ, (circ c).solid = (circ 0).placed (rot2 0) ![c, 0] := by
    intro c
    have e1 : (circ c).implicit = (circ 0).implicit := rfl
    ext z
    simp only [SuperEllipse.solid, SuperEllipse.solid0, SuperEllipse.placed, Set.mem_ofPred_eq]
    rw [e1]
    constructor
    · rintro ⟨_, ⟨q, hq, rfl⟩, rfl⟩
      exact ⟨q, hq, rfl⟩
    · rintro ⟨q, hq, rfl⟩
      exact ⟨_, ⟨q, hq, rfl⟩, rfl⟩
  have hgap : ∀ c : ℝ, c ≤ 1 → GapAtLeast (circ c).solid (circ (3 + 1 / 10 ^ 5)).solid (1 / 10 ^ 5) := by
    intro c hc
    refine ⟨![1, 0], 2, by simp, ?_, ?_⟩
    · intro x hx
      rw [circ_mem'] at hx
      have : x 0 ≤ 2 := by nlinarith [sq_nonneg (x 1), sq_nonneg (x 0 - c - 1)]
      simpa [dotProduct, Fin.sum_univ_two] using this
    · intro x hx
      rw [circ_mem'] at hx
      have : 2 + 1 / 10 ^ 5 ≤ x 0 := by nlinarith [sq_nonneg (x 1), sq_nonneg (x 0 - (3 + 1 / 10 ^ 5) + 1)]
      simpa [dotProduct, Fin.sum_univ_two] using this
  have key : ∀ (S : Set (Fin 2 → ℝ)) (c d : ℝ), c ≤ 1 → S = (circ c).solid →
      ClearOf S (circ d) (circ (3 + 1 / 10 ^ 5)) := by
    intro S c d hc e
    refine .inl ⟨circ_ok _, 1 / 10 ^ 5, e ▸ hgap c hc, ?_⟩
    simp only [circ]
    norm_num
  refine C57_plane_free he (fun _ _ _ => rfl) (circ_ok 0) (by simp [addedBodies, circ_ok]) (fun _ _ _ _ _ _ _ => rfl)
    h1 h2 ?_
  intro ob hob
  obtain rfl : ob = circ (3 + 1 / 10 ^ 5) := by simpa using hob
  refine ⟨key _ 0 0 (by norm_num) (hpl 0).symm, ?_⟩
  intro l hl
  obtain rfl : l = circ 1 := by simpa [addedBodies] using hl
  refine key _ 1 1 le_rfl ?_
  rw [hpl 1]
  unfold SuperEllipse.carried
  simp only [circ, hr, Matrix.one_mul, Matrix.one_mulVec]
  simp [SuperEllipse.placed, SuperEllipse.implicit]

end Hrm
