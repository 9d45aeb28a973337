import Verif.Spec.MultiBody
import Verif.Lemmas.Rotation
import Verif.Lemmas.Res

/-! # Lemmas for multi-body robots -/

namespace Hrm

open Matrix

/-- A loop that rewrites entry `i` of `link` from entry `i` of `tf`. -/
theorem setLoop {S P : Type} (f : S → P → S) (n : ℕ) (link : List S) (tf : List P) (hl : link.length = n)
    (ht : tf.length = n) :
    (List.range n).foldlM (fun (L : List S) i => (Res.at' tf i).bind fun t => (Res.at' L i).bind fun l =>
      (.ok (L.set i (f l t)) : Res (List S))) link = .ok (List.zipWith f link tf) := by
  have key : ∀ m, m ≤ n →
      (List.range m).foldlM (fun (L : List S) i => (Res.at' tf i).bind fun t => (Res.at' L i).bind fun l =>
      (.ok (L.set i (f l t)) : Res (List S))) link =
      .ok (List.zipWith f (link.take m) (tf.take m) ++ link.drop m) := by
    intro m hm
    induction m with
    | zero => simp
    | succ m ih =>
      rw [List.range_succ, List.foldlM_append, ih (by omega)]
      simp only [Res.bind_ok, List.foldlM_cons, List.foldlM_nil]
      have hm1 : m < link.length := by omega
      have hm2 : m < tf.length := by omega
      have hlen : (List.zipWith f (link.take m) (tf.take m)).length = m := by
        simp; omega
      have e2 : (List.zipWith f (link.take m) (tf.take m) ++ link.drop m)[m]? = some link[m] := by
        rw [List.getElem?_append_right (by omega), hlen, Nat.sub_self, List.getElem?_drop, Nat.add_zero,
          List.getElem?_eq_getElem hm1]
      rw [Res.at'_eq_ok.2 (List.getElem?_eq_getElem hm2), Res.bind_ok', Res.at'_eq_ok.2 e2, Res.bind_ok']
      simp only [Res.pure_eq, Res.bind_ok, Res.ok.injEq]
      rw [List.set_append_right _ _ (by omega), hlen, Nat.sub_self, List.drop_eq_getElem_cons hm1,
        List.set_cons_zero, ← List.take_concat_get' link m hm1, ← List.take_concat_get' tf m hm2,
        List.zipWith_append (by simp; omega)]
      simp
  have := key n le_rfl
  rw [this, List.take_of_length_le (by omega), List.take_of_length_le (by omega), List.drop_of_length_le (by omega),
    List.append_nil]

/-- A loop that appends one computed entry per link. -/
theorem appendLoop {B : Type} (f : ℕ → Res B) (v : ℕ → B) (n : ℕ) (h : ∀ i < n, f i = .ok (v i)) (acc : List B) :
    (List.range n).foldlM (fun acc i => (f i).bind fun b => (.ok (acc ++ [b]) : Res (List B))) acc =
      .ok (acc ++ (List.range n).map v) := by
  induction n with
  | zero => simp
  | succ n ih =>
    rw [List.range_succ, List.foldlM_append, ih fun i hi => h i (by omega)]
    simp [h n (by omega)]

/-! ## 2D -/

/-- Same semi-axes, exponent and resolution. -/
def SuperEllipse.Same (E F : SuperEllipse) : Prop := E.a = F.a ∧ E.b = F.b ∧ E.eps = F.eps ∧ E.num = F.num

theorem SuperEllipse.Same.implicit {E F : SuperEllipse} (h : E.Same F) : E.implicit = F.implicit := by
  obtain ⟨h1, h2, h3, -⟩ := h
  funext p
  simp only [SuperEllipse.implicit, h1, h2, h3]

namespace Tree2

theorem robotTF_eq (T : Tree2) (g : Pose 2) (hl : T.link.length = T.numLinks) (ht : T.tf.length = T.numLinks) :
    T.robotTF g = .ok { T with
      base := place T.base g, link := List.zipWith (fun l t => place l (g.mul t)) T.link T.tf } := by
  have aux : ∀ (l : List ℕ) (b : SuperEllipse) (L : List SuperEllipse),
      l.foldlM (fun (T : Tree2) i =>
        (Res.at' T.tf i).bind fun t => (Res.at' T.link i).bind fun l =>
          (.ok { T with link := T.link.set i (place l (g.mul t)) } : Res Tree2)) { T with base := b, link := L } =
      (l.foldlM (fun (L : List SuperEllipse) i => (Res.at' T.tf i).bind fun t => (Res.at' L i).bind fun l =>
        (.ok (L.set i (place l (g.mul t))) : Res (List SuperEllipse))) L).bind fun L => .ok { T with base := b, link := L } := by
    intro l b
    induction l with
    | nil => intro L; rfl
    | cons i l ih =>
      intro L
      rw [List.foldlM_cons, List.foldlM_cons]
      cases h1 : Res.at' T.tf i with
      | throw => simp
      | ub => simp
      | ok t =>
        cases h2 : Res.at' L i with
        | throw => simp [h2]
        | ub => simp [h2]
        | ok x => simp [h2]; exact ih _
  unfold robotTF
  rw [aux, setLoop _ _ _ _ hl ht]
  rfl

/-- What stays true of a planar robot in every history. -/
structure Inv (base : SuperEllipse) (added : List SuperEllipse) (T : Tree2) : Prop where
  base : T.base.Same base
  num : T.numLinks = added.length
  tf : T.tf = added.map fun l => ⟨rot2 l.ang, ![l.px, l.py]⟩
  len : T.link.length = added.length
  same : ∀ (i : ℕ) (l l' : SuperEllipse), added[i]? = some l → T.link[i]? = some l' → l'.Same l

theorem Inv.tflen {base added T} (h : Inv base added T) : T.tf.length = T.numLinks := by
  rw [h.tf, h.num, List.length_map]

theorem Inv.move {base added T} (h : Inv base added T) (g : Pose 2) :
    ∃ T', T.robotTF g = .ok T' ∧ Inv base added T' ∧ T'.base = place T.base g ∧
      ∀ (i : ℕ) (l : SuperEllipse), added[i]? = some l →
        ∃ l0, T.link[i]? = some l0 ∧ l0.Same l ∧
          T'.link[i]? = some (place l0 (g.mul ⟨rot2 l.ang, ![l.px, l.py]⟩)) := by
  refine ⟨_, robotTF_eq T g (h.len.trans h.num.symm) h.tflen, ⟨h.base, h.num, h.tf, ?_, ?_⟩, rfl, ?_⟩
  · simp [h.len, h.tf]
  · intro i l l' e1 e2
    simp only [h.tf, List.getElem?_zipWith, List.getElem?_map, e1] at e2
    cases e3 : T.link[i]? with
    | none => rw [e3] at e2; simp at e2
    | some l0 =>
      rw [e3] at e2
      simp only [Option.map_some, Option.some.injEq] at e2
      rw [← e2]
      exact h.same i l l0 e1 e3
  · intro i l e1
    have hi : i < T.link.length := by rw [h.len]; exact (List.getElem?_eq_some_iff.1 e1).1
    refine ⟨T.link[i], List.getElem?_eq_getElem hi, h.same i l _ e1 (List.getElem?_eq_getElem hi), ?_⟩
    simp only [h.tf, List.getElem?_zipWith, List.getElem?_map, e1, List.getElem?_eq_getElem hi,
      Option.map_some]

theorem Inv.add {base added T} (h : Inv base added T) (l : SuperEllipse) :
    Inv base (added ++ [l]) (T.addBody l) := by
  refine ⟨h.base, by simp [addBody, h.num], by simp [addBody, h.tf], by simp [addBody, h.len], ?_⟩
  intro i x x' e1 e2
  simp only [addBody] at e2
  rcases Nat.lt_or_ge i added.length with hi | hi
  · rw [List.getElem?_append_left hi] at e1
    rw [List.getElem?_append_left (by rw [h.len]; exact hi)] at e2
    exact h.same i x x' e1 e2
  · rw [List.getElem?_append_right hi] at e1
    rw [List.getElem?_append_right (by rw [h.len]; exact hi), h.len] at e2
    rw [e1] at e2
    obtain rfl := Option.some.inj e2
    exact ⟨rfl, rfl, rfl, rfl⟩

theorem run_inv (base : SuperEllipse) (ops : List (RobotOp SuperEllipse 2)) :
    ∃ T, Tree2.run ops (Tree2.new base) = .ok T ∧ Inv base (addedBodies ops) T := by
  induction ops using List.reverseRecOn with
  | nil => exact ⟨_, rfl, ⟨rfl, rfl, rfl, rfl⟩, rfl, rfl, rfl, by simp [addedBodies]⟩
  | append_singleton ops op ih =>
    obtain ⟨T, h, hi⟩ := ih
    unfold Tree2.run at *
    rw [List.foldlM_append, h]
    cases op with
    | add l =>
      refine ⟨_, rfl, ?_⟩
      simpa [addedBodies, List.filterMap_append] using hi.add l
    | move g =>
      obtain ⟨T', h', hi', -⟩ := hi.move g
      refine ⟨T', by simp [h'], ?_⟩
      simpa [addedBodies, List.filterMap_append] using hi'

end Tree2
/-! ## 3D -/

/-- Same semi-axes, exponent and resolution. -/
def SuperQuadrics.Same (E F : SuperQuadrics) : Prop := E.a = F.a ∧ E.b = F.b ∧ E.c = F.c ∧ E.e1 = F.e1 ∧ E.e2 = F.e2 ∧ E.num = F.num

theorem SuperQuadrics.Same.implicit {E F : SuperQuadrics} (h : E.Same F) : E.implicit = F.implicit := by
  obtain ⟨h1, h2, h3, h4, h5, -⟩ := h
  funext p
  simp only [SuperQuadrics.implicit, h1, h2, h3, h4, h5]

namespace Tree3

theorem robotTF_eq (T : Tree3) (g : Pose 3) (hl : T.link.length = T.numLinks) (ht : T.tf.length = T.numLinks) :
    T.robotTF g = .ok { T with
      base := place T.base g, link := List.zipWith (fun l t => place l (g.mul t)) T.link T.tf } := by
  have aux : ∀ (l : List ℕ) (b : SuperQuadrics) (L : List SuperQuadrics),
      l.foldlM (fun (T : Tree3) i =>
        (Res.at' T.tf i).bind fun t => (Res.at' T.link i).bind fun l =>
          (.ok { T with link := T.link.set i (place l (g.mul t)) } : Res Tree3)) { T with base := b, link := L } =
      (l.foldlM (fun (L : List SuperQuadrics) i => (Res.at' T.tf i).bind fun t => (Res.at' L i).bind fun l =>
        (.ok (L.set i (place l (g.mul t))) : Res (List SuperQuadrics))) L).bind fun L => .ok { T with base := b, link := L } := by
    intro l b
    induction l with
    | nil => intro L; rfl
    | cons i l ih =>
      intro L
      rw [List.foldlM_cons, List.foldlM_cons]
      cases h1 : Res.at' T.tf i with
      | throw => simp
      | ub => simp
      | ok t =>
        cases h2 : Res.at' L i with
        | throw => simp [h2]
        | ub => simp [h2]
        | ok x => simp [h2]; exact ih _
  unfold robotTF
  rw [aux, setLoop _ _ _ _ hl ht]
  rfl

/-- What stays true of a spatial robot in every history. -/
structure Inv (base : SuperQuadrics) (added : List SuperQuadrics) (T : Tree3) : Prop where
  base : T.base.Same base
  num : T.numLinks = added.length
  tf : T.tf = added.map fun l => ⟨quatRot l.quat, l.pos⟩
  len : T.link.length = added.length
  same : ∀ (i : ℕ) (l l' : SuperQuadrics), added[i]? = some l → T.link[i]? = some l' → l'.Same l

theorem Inv.tflen {base added T} (h : Inv base added T) : T.tf.length = T.numLinks := by
  rw [h.tf, h.num, List.length_map]

theorem Inv.move {base added T} (h : Inv base added T) (g : Pose 3) :
    ∃ T', T.robotTF g = .ok T' ∧ Inv base added T' ∧ T'.base = place T.base g ∧
      ∀ (i : ℕ) (l : SuperQuadrics), added[i]? = some l →
        ∃ l0, T.link[i]? = some l0 ∧ l0.Same l ∧
          T'.link[i]? = some (place l0 (g.mul ⟨quatRot l.quat, l.pos⟩)) := by
  refine ⟨_, robotTF_eq T g (h.len.trans h.num.symm) h.tflen, ⟨h.base, h.num, h.tf, ?_, ?_⟩, rfl, ?_⟩
  · simp [h.len, h.tf]
  · intro i l l' e1 e2
    simp only [h.tf, List.getElem?_zipWith, List.getElem?_map, e1] at e2
    cases e3 : T.link[i]? with
    | none => rw [e3] at e2; simp at e2
    | some l0 =>
      rw [e3] at e2
      simp only [Option.map_some, Option.some.injEq] at e2
      rw [← e2]
      exact h.same i l l0 e1 e3
  · intro i l e1
    have hi : i < T.link.length := by rw [h.len]; exact (List.getElem?_eq_some_iff.1 e1).1
    refine ⟨T.link[i], List.getElem?_eq_getElem hi, h.same i l _ e1 (List.getElem?_eq_getElem hi), ?_⟩
    simp only [h.tf, List.getElem?_zipWith, List.getElem?_map, e1, List.getElem?_eq_getElem hi,
      Option.map_some]

theorem Inv.add {base added T} (h : Inv base added T) (l : SuperQuadrics) :
    Inv base (added ++ [l]) (T.addBody l) := by
  refine ⟨h.base, by simp [addBody, h.num], by simp [addBody, h.tf], by simp [addBody, h.len], ?_⟩
  intro i x x' e1 e2
  simp only [addBody] at e2
  rcases Nat.lt_or_ge i added.length with hi | hi
  · rw [List.getElem?_append_left hi] at e1
    rw [List.getElem?_append_left (by rw [h.len]; exact hi)] at e2
    exact h.same i x x' e1 e2
  · rw [List.getElem?_append_right hi] at e1
    rw [List.getElem?_append_right (by rw [h.len]; exact hi), h.len] at e2
    rw [e1] at e2
    obtain rfl := Option.some.inj e2
    exact ⟨rfl, rfl, rfl, rfl, rfl, rfl⟩

theorem run_inv (base : SuperQuadrics) (ops : List (RobotOp SuperQuadrics 3)) :
    ∃ T, Tree3.run ops (Tree3.new base) = .ok T ∧ Inv base (addedBodies ops) T := by
  induction ops using List.reverseRecOn with
  | nil => exact ⟨_, rfl, ⟨rfl, rfl, rfl, rfl, rfl, rfl⟩, rfl, rfl, rfl, by simp [addedBodies]⟩
  | append_singleton ops op ih =>
    obtain ⟨T, h, hi⟩ := ih
    unfold Tree3.run at *
    rw [List.foldlM_append, h]
    cases op with
    | add l =>
      refine ⟨_, rfl, ?_⟩
      simpa [addedBodies, List.filterMap_append] using hi.add l
    | move g =>
      obtain ⟨T', h', hi', -⟩ := hi.move g
      refine ⟨T', by simp [h'], ?_⟩
      simpa [addedBodies, List.filterMap_append] using hi'

/-- The articulated version: body `i` goes to `g * fk i * tf i`. -/
theorem robotTFWith_spec (T : Tree3) (g : Pose 3) (fk : ℕ → Pose 3) (hl : T.link.length = T.numLinks)
    (ht : T.tf.length = T.numLinks) :
    ∃ T', T.robotTFWith g fk = .ok T' ∧ T'.base = place T.base g ∧ T'.numLinks = T.numLinks ∧ T'.tf = T.tf ∧
      T'.link.length = T.numLinks ∧
      ∀ (i : ℕ) (l : SuperQuadrics) (t : Pose 3), T.link[i]? = some l → T.tf[i]? = some t →
        T'.link[i]? = some (place l ((g.mul (fk i)).mul t)) := by
  have key : Res.Sat True (T.robotTFWith g fk) (fun T' => T'.base = place T.base g ∧ T'.numLinks = T.numLinks ∧
      T'.tf = T.tf ∧ T'.link.length = T.numLinks ∧
      (∀ (i : ℕ) (l : SuperQuadrics) (t : Pose 3), i < T.numLinks → T.link[i]? = some l → T.tf[i]? = some t →
        T'.link[i]? = some (place l ((g.mul (fk i)).mul t))) ∧
      ∀ i, T.numLinks ≤ i → T'.link[i]? = T.link[i]?) := by
    unfold robotTFWith
    refine Res.Sat.foldlM_range (P := fun m (T' : Tree3) => T'.base = place T.base g ∧ T'.numLinks = T.numLinks ∧
      T'.tf = T.tf ∧ T'.link.length = T.numLinks ∧
      (∀ (i : ℕ) (l : SuperQuadrics) (t : Pose 3), i < m → T.link[i]? = some l → T.tf[i]? = some t →
        T'.link[i]? = some (place l ((g.mul (fk i)).mul t))) ∧
      ∀ i, m ≤ i → T'.link[i]? = T.link[i]?) T.numLinks ?_ _ ⟨rfl, rfl, rfl, hl, by simp, by simp⟩
    rintro T' i hi ⟨h1, h2, h3, h4, h5, h6⟩
    refine Res.Sat.bind (Res.Sat.at' fun _ => by rw [h3, ht]; exact hi) fun t e1 => ?_
    refine Res.Sat.bind (Res.Sat.at' fun _ => by rw [h4]; exact hi) fun l e2 => ?_
    refine Res.Sat.ok ⟨h1, h2, h3, by simpa using h4, ?_, ?_⟩
    · intro j l' t' hj e3 e4
      simp only
      rcases Nat.lt_or_ge j i with h | h
      · rw [List.getElem?_set_ne (by omega)]
        exact h5 j l' t' h e3 e4
      · obtain rfl : j = i := by omega
        rw [h6 j le_rfl, e3] at e2
        rw [h3, e4] at e1
        obtain rfl := Option.some.inj e1
        obtain rfl := Option.some.inj e2
        rw [List.getElem?_set_self (by omega)]
    · intro j hj
      simp only
      rw [List.getElem?_set_ne (by omega)]
      exact h6 j (by omega)
  obtain ⟨T', e⟩ := key.2 trivial
  obtain ⟨h1, h2, h3, h4, h5, -⟩ := key.1 T' e
  exact ⟨T', e, h1, h2, h3, h4, fun i l t e1 e2 =>
    h5 i l t (by rw [← hl]; exact (List.getElem?_eq_some_iff.1 e1).1) e1 e2⟩

end Tree3
end Hrm
