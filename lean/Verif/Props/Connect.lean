import Verif.Props.Roadmap
import Verif.Props.Mesh

/-!
# C67: the connections that are made within a slice, between slices and with an older slice
-/

namespace Hrm

theorem Graph.Ext.edge {g g' : Graph} (h : g.Ext g') {e : ℕ × ℕ} (he : e ∈ g.edge) : e ∈ g'.edge :=
  h.2.1.subset he

theorem addEdge_sat (g : Graph) (i j : ℕ) (a b : Vec) :
    Res.Sat False (g.addEdge i j a b) (fun g' => g.Ext g' ∧ g'.vertex = g.vertex ∧ (i, j) ∈ g'.edge) := by
  refine ⟨?_, False.elim⟩
  intro g' h
  unfold Graph.addEdge at h
  cases hw : vectorEuclidean a b with
  | ok w =>
    rw [hw] at h
    simp only [Res.bind_ok', Res.ok.injEq] at h
    subst h
    exact ⟨⟨List.prefix_rfl, List.prefix_append _ _, List.prefix_append _ _⟩, rfl, by simp⟩
  | throw => rw [hw] at h; simp at h
  | ub => rw [hw] at h; simp at h

theorem addVertex_ext (g : Graph) (v : Vec) : g.Ext (g.addVertex v) :=
  ⟨List.prefix_append _ _, List.prefix_rfl, List.prefix_rfl⟩

/-- `JoinedPair` is about vertices of the earlier graph, so it survives any extension. -/
theorem JoinedPair.mono {free : Vec → Vec → Res Bool} {g g' : Graph} {i j : ℕ} {a b : Vec}
    (h : JoinedPair free g i j) (ha : g.vertex[i]? = some a) (hb : g.vertex[j]? = some b)
    (hx : g.Ext g') : JoinedPair free g' i j := by
  intro a' b' za zb h1 h2 h3 h4
  rw [hx.get ha] at h1
  rw [hx.get hb] at h2
  obtain rfl := Option.some.inj h1
  obtain rfl := Option.some.inj h2
  obtain ⟨k1, k2⟩ := h _ _ za zb ha hb h3 h4
  refine ⟨fun hf => hx.edge (k1 hf), fun hf => ⟨fun p q => ?_, fun o p q => ?_⟩⟩
  · obtain ⟨k, e1, e2, e3⟩ := (k2 hf).1 p q
    exact ⟨k, hx.get e1, hx.edge e2, hx.edge e3⟩
  · obtain ⟨k, e1, e2, e3⟩ := (k2 hf).2 o p q
    exact ⟨k, hx.get e1, hx.edge e2, hx.edge e3⟩

theorem withThird_val {v w n : Vec} {z : ℝ} (h : withThird v w = .ok n) (hz : w[2]? = some z) :
    n = v.set 2 z := by
  unfold withThird at h
  rw [Res.at'_eq_ok.2 hz, Res.bind_ok'] at h
  split at h
  · simp only [Res.ok.injEq] at h; exact h.symm
  · exact nomatch h

/-- What is remembered of a linked pair. -/
def PairDone (free : Vec → Vec → Res Bool) (g : Graph) (i j : ℕ) : Prop :=
  (∃ a, g.vertex[i]? = some a) ∧ (∃ b, g.vertex[j]? = some b) ∧ JoinedPair free g i j

theorem PairDone.mono {free : Vec → Vec → Res Bool} {g g' : Graph} {i j : ℕ} (h : PairDone free g i j)
    (hx : g.Ext g') : PairDone free g' i j := by
  obtain ⟨⟨a, ha⟩, ⟨b, hb⟩, h⟩ := h
  exact ⟨⟨a, hx.get ha⟩, ⟨b, hx.get hb⟩, h.mono ha hb hx⟩

theorem addDetour {g g' : Graph} {i j : ℕ} {v1 v2 n : Vec}
    (h : (((g.addVertex n).addEdge i g.vertex.length v1 n).bind fun g1 =>
      g1.addEdge g.vertex.length j n v2) = .ok g') :
    g.Ext g' ∧ ∃ k, g'.vertex[k]? = some n ∧ (i, k) ∈ g'.edge ∧ (k, j) ∈ g'.edge := by
  have hs := addEdge_sat (g.addVertex n) i g.vertex.length v1 n
  cases h1 : (g.addVertex n).addEdge i g.vertex.length v1 n with
  | ok g1 =>
    rw [h1, Res.bind_ok'] at h
    obtain ⟨x1, y1, z1⟩ := hs.1 g1 h1
    obtain ⟨x2, y2, z2⟩ := (addEdge_sat g1 g.vertex.length j n v2).1 g' h
    refine ⟨(addVertex_ext g n).trans (x1.trans x2), g.vertex.length, ?_, x2.edge z1, z2⟩
    apply x2.get
    rw [y1]
    simp [Graph.addVertex]
  | throw => rw [h1] at h; simp at h
  | ub => rw [h1] at h; simp at h

theorem linkPair_done (free : Vec → Vec → Res Bool) (i j : ℕ) (g : Graph) :
    Res.Sat False (linkPair free i j g) (fun g' => g.Ext g' ∧ PairDone free g' i j) := by
  unfold linkPair
  refine Res.Sat.bind (Res.Sat.idx False.elim) fun a ha => ?_
  refine Res.Sat.bind (Res.Sat.idx False.elim) fun b hb => ?_
  refine ⟨?_, False.elim⟩
  intro g' h
  cases hf : free a b with
  | throw => rw [hf] at h; simp at h
  | ub => rw [hf] at h; simp at h
  | ok r =>
    rw [hf, Res.bind_ok'] at h
    cases r with
    | true =>
      simp only [if_true] at h
      obtain ⟨x, y, z⟩ := (addEdge_sat g i j a b).1 g' h
      refine ⟨x, ⟨a, x.get ha⟩, ⟨b, x.get hb⟩, ?_⟩
      intro a' b' za zb h1 h2 h3 h4
      rw [x.get ha] at h1
      rw [x.get hb] at h2
      obtain rfl := Option.some.inj h1
      obtain rfl := Option.some.inj h2
      refine ⟨fun _ => z, fun hf' => ?_⟩
      rw [hf] at hf'
      simp at hf'
    | false =>
      simp only [Bool.false_eq_true, if_false] at h
      unfold bridgeVertex at h
      rw [Res.at'_eq_ok.2 ha, Res.bind_ok', Res.at'_eq_ok.2 hb, Res.bind_ok'] at h
      cases hn1 : withThird a b with
      | throw => rw [hn1] at h; simp at h
      | ub => rw [hn1] at h; simp at h
      | ok n1 =>
      rw [hn1, Res.bind_ok'] at h
      cases hn2 : withThird b a with
      | throw => rw [hn2] at h; simp at h
      | ub => rw [hn2] at h; simp at h
      | ok n2 =>
      rw [hn2, Res.bind_ok'] at h
      cases ho1 : andThen (free a n1) (free n1 b) with
      | throw => rw [ho1] at h; simp at h
      | ub => rw [ho1] at h; simp at h
      | ok o1 =>
      rw [ho1, Res.bind_ok'] at h
      dsimp only at h
      cases o1 with
      | true =>
        simp only [if_true] at h
        obtain ⟨x, k, hk1, hk2, hk3⟩ := addDetour h
        refine ⟨x, ⟨a, x.get ha⟩, ⟨b, x.get hb⟩, ?_⟩
        intro a' b' za zb h1 h2 h3 h4
        rw [x.get ha] at h1
        rw [x.get hb] at h2
        obtain rfl := Option.some.inj h1
        obtain rfl := Option.some.inj h2
        have e1 := withThird_val hn1 h4
        subst e1
        refine ⟨fun hf' => by rw [hf] at hf'; simp at hf', fun _ => ⟨fun _ _ => ⟨k, hk1, hk2, hk3⟩, ?_⟩⟩
        rintro (p | p) _ _
        · simp [andThen, p] at ho1
        · unfold andThen at ho1
          cases hq : free a (a.set 2 zb) with
          | ok r => rw [hq] at ho1; cases r <;> simp [p] at ho1
          | throw => rw [hq] at ho1; simp at ho1
          | ub => rw [hq] at ho1; simp at ho1
      | false =>
        simp only [Bool.false_eq_true, if_false] at h
        cases ho2 : andThen (free a n2) (free n2 b) with
        | throw => rw [ho2] at h; simp at h
        | ub => rw [ho2] at h; simp at h
        | ok o2 =>
        rw [ho2, Res.bind_ok'] at h
        have key : g.Ext g' ∧ (o2 = true → ∃ k, g'.vertex[k]? = some n2 ∧ (i, k) ∈ g'.edge ∧
            (k, j) ∈ g'.edge) := by
          cases o2 with
          | true =>
            simp only [if_true] at h
            exact ⟨(addDetour h).1, fun _ => (addDetour h).2⟩
          | false =>
            simp only [Bool.false_eq_true, if_false, Res.ok.injEq] at h
            subst h
            exact ⟨.refl _, by simp⟩
        obtain ⟨x, hk⟩ := key
        refine ⟨x, ⟨a, x.get ha⟩, ⟨b, x.get hb⟩, ?_⟩
        intro a' b' za zb h1 h2 h3 h4
        rw [x.get ha] at h1
        rw [x.get hb] at h2
        obtain rfl := Option.some.inj h1
        obtain rfl := Option.some.inj h2
        have e1 := withThird_val hn1 h4
        have e2 := withThird_val hn2 h3
        subst e1 e2
        refine ⟨fun hf' => by rw [hf] at hf'; simp at hf', fun _ => ⟨fun p q => ?_, fun _ p q => ?_⟩⟩
        · simp [andThen, p, q] at ho1
        · apply hk
          simp [andThen, p, q] at ho2
          exact ho2

theorem linkNext_done (free : Vec → Vec → Res Bool) (i n2 m : ℕ) (g : Graph) :
    Res.Sat False (linkNext free i n2 m g)
      (fun g' => g.Ext g' ∧ ∀ j < m, PairDone free g' i (n2 + j)) := by
  unfold linkNext
  refine Res.Sat.foldlM_range (P := fun k g' => g.Ext g' ∧ ∀ j < k, PairDone free g' i (n2 + j)) m ?_ g
    ⟨.refl _, by simp⟩
  rintro g1 k - ⟨hx, hd⟩
  refine (linkPair_done free i (n2 + k) g1).mono ?_
  rintro g2 ⟨hx2, hd2⟩
  refine ⟨hx.trans hx2, fun j hj => ?_⟩
  rcases Nat.lt_or_ge j k with h | h
  · exact (hd j h).mono hx2
  · obtain rfl : j = k := by omega
    exact hd2

theorem linkRow_done (r : SegRow ℝ) (n1 j1 : ℕ) (g : Graph) :
    Res.Sat False (linkRow r n1 j1 g) (fun g' => g.Ext g' ∧ ∀ u l, j1 + 1 < r.M.length →
      r.U[j1]? = some u → r.L[j1 + 1]? = some l → |u - l| < 1 / 10 ^ 6 →
      (n1 + j1, n1 + j1 + 1) ∈ g'.edge) := by
  unfold linkRow
  split
  · refine Res.Sat.bind (Res.Sat.idx False.elim) fun u hu => ?_
    refine Res.Sat.bind (Res.Sat.idx False.elim) fun l hl => ?_
    split
    · refine Res.Sat.bind (Res.Sat.idx False.elim) fun a ha => ?_
      refine Res.Sat.bind (Res.Sat.idx False.elim) fun b hb => ?_
      exact (addEdge_sat g _ _ a b).mono fun g' h => ⟨h.1, fun _ _ _ _ _ _ => h.2.2⟩
    · rename_i hn
      refine Res.Sat.ok ⟨.refl _, ?_⟩
      intro u' l' _ hu' hl' hlt
      rw [hu] at hu'
      rw [hl] at hl'
      obtain rfl := Option.some.inj hu'
      obtain rfl := Option.some.inj hl'
      exact absurd hlt hn
  · rename_i hn
    exact Res.Sat.ok ⟨.refl _, fun _ _ h => absurd h (by omega)⟩

/-- Everything about sweep line `i` done for the samples `< k`. -/
def LineDone (free : Vec → Vec → Res Bool) (fs : FreeSeg) (plane : List ℕ) (g : Graph) (i k : ℕ) : Prop :=
  (∀ (n1 n2 : ℕ) (r1 r2 : SegRow ℝ) (j1 j2 : ℕ), plane[i]? = some n1 → plane[i + 1]? = some n2 →
    fs.rows[i]? = some r1 → fs.rows[i + 1]? = some r2 → i + 1 < fs.ty.length → j1 < k → j1 < r1.M.length →
    j2 < r2.M.length → PairDone free g (n1 + j1) (n2 + j2)) ∧
  (∀ (n1 : ℕ) (r : SegRow ℝ) (j : ℕ) (u l : ℝ), plane[i]? = some n1 → fs.rows[i]? = some r →
    j < k → j + 1 < r.M.length → r.U[j]? = some u → r.L[j + 1]? = some l →
    |u - l| < 1 / 10 ^ 6 → (n1 + j, n1 + j + 1) ∈ g.edge)

theorem LineDone.mono {free : Vec → Vec → Res Bool} {fs : FreeSeg} {plane : List ℕ} {g g' : Graph}
    {i k : ℕ} (h : LineDone free fs plane g i k) (hx : g.Ext g') : LineDone free fs plane g' i k :=
  ⟨fun n1 n2 r1 r2 j1 j2 a b c d e f f' f'' => (h.1 n1 n2 r1 r2 j1 j2 a b c d e f f' f'').mono hx,
   fun n1 r j u l a b c d e f f' => hx.edge (h.2 n1 r j u l a b c d e f f')⟩

/-- Everything about a plane done. -/
def PlaneDone (free : Vec → Vec → Res Bool) (fs : FreeSeg) (plane : List ℕ) (g : Graph) : Prop :=
  ∀ i < fs.ty.length, ∀ m, LineDone free fs plane g i m

theorem PlaneDone.mono {free : Vec → Vec → Res Bool} {fs : FreeSeg} {plane : List ℕ} {g g' : Graph}
    (h : PlaneDone free fs plane g) (hx : g.Ext g') : PlaneDone free fs plane g' :=
  fun i hi m => (h i hi m).mono hx

theorem PlaneDone.joined {free : Vec → Vec → Res Bool} {fs : FreeSeg} {plane : List ℕ} {g : Graph}
    (hd : PlaneDone free fs plane g) : PlaneJoined free fs plane g := by
  refine ⟨?_, ?_⟩
  · intro i n1 n2 r1 r2 j1 j2 e1 e2 e3 e4 e5 e6 e7
    exact ((hd i (by omega) (j1 + 1)).1 n1 n2 r1 r2 j1 j2 e1 e2 e3 e4 e5 (by omega) e6 e7).2.2
  · intro i n1 r j u l e1 e2 e3 e4 e5 e6 e7
    exact (hd i e3 (j + 1)).2 n1 r j u l e1 e2 (by omega) e4 e5 e6 e7

theorem connectOneSlice2D_done (free : Vec → Vec → Res Bool) (fs : FreeSeg) (plane : List ℕ) (g : Graph) :
    Res.Sat False (connectOneSlice2D free fs.ty.length fs.rows plane g)
      (fun g' => g.Ext g' ∧ PlaneDone free fs plane g') := by
  unfold connectOneSlice2D PlaneDone
  refine (Res.Sat.foldlM_range (P := fun k g' => g.Ext g' ∧ ∀ i < k, ∀ m, LineDone free fs plane g' i m)
    fs.ty.length ?_ g ⟨.refl _, by simp⟩)
  · rintro g1 i hi ⟨hx, hd⟩
    unfold linkLine
    refine Res.Sat.bind (Res.Sat.at' False.elim) fun n1 hn1 => ?_
    refine Res.Sat.bind (Res.Sat.idx False.elim) fun r hr => ?_
    refine (Res.Sat.foldlM_range (P := fun k g' => g1.Ext g' ∧ LineDone free fs plane g' i k)
      r.M.length ?_ g1 ⟨.refl _, by constructor <;> intros <;> omega⟩).mono ?_
    · rintro g2 j1 hj1 ⟨hx2, hd2⟩
      unfold linkSample
      refine Res.Sat.bind (linkRow_done r n1 j1 g2) ?_
      rintro g3 ⟨hx3, hrow⟩
      have rowPart : ∀ g4 : Graph, g3.Ext g4 → ∀ (n1' : ℕ) (r' : SegRow ℝ) (j : ℕ) (u l : ℝ),
          plane[i]? = some n1' → fs.rows[i]? = some r' → j < j1 + 1 → j + 1 < r'.M.length →
          r'.U[j]? = some u → r'.L[j + 1]? = some l → |u - l| < 1 / 10 ^ 6 →
          (n1' + j, n1' + j + 1) ∈ g4.edge := by
        intro g4 hx4 n1' r' j u l e1 e2 e3 e4 e5 e6 e7
        rw [hn1] at e1
        rw [hr] at e2
        obtain rfl := Option.some.inj e1
        obtain rfl := Option.some.inj e2
        rcases Nat.lt_or_ge j j1 with h | h
        · exact (hx3.trans hx4).edge (hd2.2 _ _ _ u l hn1 hr h e4 e5 e6 e7)
        · obtain rfl : j = j1 := by omega
          exact hx4.edge (hrow u l e4 e5 e6 e7)
      split
      · refine Res.Sat.bind (Res.Sat.at' False.elim) fun n2 hn2 => ?_
        refine Res.Sat.bind (Res.Sat.idx False.elim) fun r2 hr2 => ?_
        refine (linkNext_done free (n1 + j1) n2 r2.M.length g3).mono ?_
        rintro g4 ⟨hx4, hd4⟩
        refine ⟨hx2.trans (hx3.trans hx4), ?_, rowPart g4 hx4⟩
        intro n1' n2' r1' r2' k1 k2 e1 e2 e3 e4 e5 e6 e7 e8
        rw [hn1] at e1
        rw [hn2] at e2
        rw [hr] at e3
        rw [hr2] at e4
        obtain rfl := Option.some.inj e1
        obtain rfl := Option.some.inj e2
        obtain rfl := Option.some.inj e3
        obtain rfl := Option.some.inj e4
        rcases Nat.lt_or_ge k1 j1 with h | h
        · exact (hd2.1 _ _ _ _ k1 k2 hn1 hn2 hr hr2 e5 h e7 e8).mono (hx3.trans hx4)
        · obtain rfl : k1 = j1 := by omega
          exact hd4 k2 e8
      · rename_i hlast
        refine Res.Sat.ok ⟨hx2.trans hx3, ?_, rowPart g3 (.refl _)⟩
        intro n1' n2' r1' r2' k1 k2 e1 e2 e3 e4 e5
        omega
    · rintro g2 ⟨hx2, hd2⟩
      refine ⟨hx.trans hx2, fun i' hi' m => ?_⟩
      rcases Nat.lt_or_ge i' i with h | h
      · exact (hd i' h m).mono hx2
      · obtain rfl : i' = i := by omega
        constructor
        · intro n1' n2' r1' r2' k1 k2 e1 e2 e3 e4 e5 e6 e7 e8
          have e3' := e3
          rw [hr] at e3'
          obtain rfl := Option.some.inj e3'
          exact hd2.1 n1' n2' r r2' k1 k2 e1 e2 e3 e4 e5 e7 e7 e8
        · intro n1' r' j u l e1 e2 e3 e4 e5 e6 e7
          have e2' := e2
          rw [hr] at e2'
          obtain rfl := Option.some.inj e2'
          exact hd2.2 n1' r j u l e1 e2 (by omega) e4 e5 e6 e7

/-- **C67 (2D slices).** In a constructed planar slice every sample of a sweep line is joined with every
sample of the next line as far as the check accepts (directly, or through a bridge vertex), and
consecutive samples of one line are joined when the first ends where the second begins. -/
theorem C67_slice2D_joined (free : Vec → Vec → Res Bool) (angle : ℝ) (fs : FreeSeg) (g g' : Graph)
    (s : VertexIdx) (h : constructSlice2D free angle fs g = .ok (g', s)) :
    ∃ plane, s.line = [plane] ∧ PlaneOk (fun y x => [x, y, angle]) fs plane g' ∧
      PlaneJoined free fs plane g' := by
  have key : Res.Sat False (constructSlice2D free angle fs g) (fun r => ∃ plane, r.2.line = [plane] ∧
      PlaneOk (fun y x => [x, y, angle]) fs plane r.1 ∧ PlaneJoined free fs plane r.1) := by
    unfold constructSlice2D
    refine Res.Sat.bind (generateVertices_sat (tot := False) (Vp := fun _ => True)
      (Acc := fun _ _ => True) (Sample.all fun _ _ => trivial) False.elim) ?_
    rintro ⟨g1, plane⟩ ⟨-, hp, -⟩
    refine Res.Sat.bind (connectOneSlice2D_done free fs plane g1) ?_
    rintro g2 ⟨hx, hd⟩
    exact Res.Sat.ok ⟨plane, rfl, hp.mono hx, hd.joined⟩
  exact key.1 _ h

/-- The samples of equal line number of two adjacent planes are joined as far as possible. -/
def CrossJoined (free : Vec → Vec → Res Bool) (a b : FreeSeg) (pa pb : List ℕ) (g : Graph) : Prop :=
  ∀ (j n1 n2 : ℕ) (ra rb : SegRow ℝ) (k1 k2 : ℕ), j < a.ty.length → pa[j]? = some n1 → pb[j]? = some n2 →
    a.rows[j]? = some ra → b.rows[j]? = some rb → k1 < ra.M.length → k2 < rb.M.length →
    JoinedPair free g (n1 + k1) (n2 + k2)

/-- The same with the vertices known to exist. -/
def CrossDone (free : Vec → Vec → Res Bool) (a b : FreeSeg) (pa pb : List ℕ) (g : Graph) (m : ℕ) : Prop :=
  ∀ (j n1 n2 : ℕ) (ra rb : SegRow ℝ) (k1 k2 : ℕ), j < m → pa[j]? = some n1 → pb[j]? = some n2 →
    a.rows[j]? = some ra → b.rows[j]? = some rb → k1 < ra.M.length → k2 < rb.M.length →
    PairDone free g (n1 + k1) (n2 + k2)

theorem CrossDone.mono {free : Vec → Vec → Res Bool} {a b : FreeSeg} {pa pb : List ℕ} {g g' : Graph} {m : ℕ}
    (h : CrossDone free a b pa pb g m) (hx : g.Ext g') : CrossDone free a b pa pb g' m :=
  fun j n1 n2 ra rb k1 k2 e1 e2 e3 e4 e5 e6 e7 => (h j n1 n2 ra rb k1 k2 e1 e2 e3 e4 e5 e6 e7).mono hx

theorem crossPlanes_done (free : Vec → Vec → Res Bool) (planes : List (ℝ × FreeSeg)) (line : List (List ℕ))
    (g : Graph) (i : ℕ) :
    Res.Sat False (crossPlanes free planes line g i) (fun g' => g.Ext g' ∧
      ∀ (a b : ℝ × FreeSeg) (pa pb : List ℕ), planes[i]? = some a → planes[i + 1]? = some b →
        line[i]? = some pa → line[i + 1]? = some pb → CrossDone free a.2 b.2 pa pb g' a.2.ty.length) := by
  unfold crossPlanes
  refine Res.Sat.bind (Res.Sat.at' False.elim) fun a ha => ?_
  refine Res.Sat.bind (Res.Sat.at' False.elim) fun b hb => ?_
  refine (Res.Sat.foldlM_range (P := fun m g' => g.Ext g' ∧ ∀ (pa pb : List ℕ), line[i]? = some pa →
    line[i + 1]? = some pb → CrossDone free a.2 b.2 pa pb g' m) a.2.ty.length ?_ g
    ⟨.refl _, by intro _ _ _ _ j; intros; omega⟩).mono ?_
  · rintro g1 j - ⟨hx, hd⟩
    unfold crossLine
    refine Res.Sat.bind (Res.Sat.idx False.elim) fun la hla => ?_
    refine Res.Sat.bind (Res.Sat.idx False.elim) fun n1 hn1 => ?_
    refine Res.Sat.bind (Res.Sat.idx False.elim) fun lb hlb => ?_
    refine Res.Sat.bind (Res.Sat.idx False.elim) fun n2 hn2 => ?_
    refine Res.Sat.bind (Res.Sat.idx False.elim) fun ra hra => ?_
    refine (Res.Sat.foldlM_range (P := fun k g' => g1.Ext g' ∧ ∀ k1 < k, ∀ (rb : SegRow ℝ) (k2 : ℕ),
      b.2.rows[j]? = some rb → k2 < rb.M.length → PairDone free g' (n1 + k1) (n2 + k2)) ra.M.length ?_ g1
      ⟨.refl _, by simp⟩).mono ?_
    · rintro g2 k - ⟨hx2, hd2⟩
      refine Res.Sat.bind (Res.Sat.idx False.elim) fun rb hrb => ?_
      refine (linkNext_done free (n1 + k) n2 rb.M.length g2).mono ?_
      rintro g3 ⟨hx3, hd3⟩
      refine ⟨hx2.trans hx3, fun k1 hk1 rb' k2 e1 e2 => ?_⟩
      rcases Nat.lt_or_ge k1 k with h | h
      · exact (hd2 k1 h rb' k2 e1 e2).mono hx3
      · obtain rfl : k1 = k := by omega
        rw [hrb] at e1
        obtain rfl := Option.some.inj e1
        exact hd3 k2 e2
    · rintro g2 ⟨hx2, hd2⟩
      refine ⟨hx.trans hx2, fun pa pb hpa hpb => ?_⟩
      intro j' m1 m2 ra' rb k1 k2 e1 e2 e3 e4 e5 e6 e7
      rcases Nat.lt_or_ge j' j with h | h
      · exact (hd pa pb hpa hpb j' m1 m2 ra' rb k1 k2 h e2 e3 e4 e5 e6 e7).mono hx2
      · obtain rfl : j' = j := by omega
        rw [hla] at hpa
        rw [hlb] at hpb
        obtain rfl := Option.some.inj hpa
        obtain rfl := Option.some.inj hpb
        rw [hn1] at e2
        rw [hn2] at e3
        rw [hra] at e4
        obtain rfl := Option.some.inj e2
        obtain rfl := Option.some.inj e3
        obtain rfl := Option.some.inj e4
        exact hd2 k1 e6 rb k2 e5 e7
  · rintro g1 ⟨hx, hd⟩
    refine ⟨hx, fun a' b' pa pb e1 e2 e3 e4 => ?_⟩
    rw [ha] at e1
    rw [hb] at e2
    obtain rfl := Option.some.inj e1
    obtain rfl := Option.some.inj e2
    exact hd pa pb e3 e4

/-- **C67 (3D slices).** In a constructed spatial slice every plane is joined as in 2D, and the samples
of line `j` of a plane with all samples of line `j` of the next plane, as far as the check accepts. -/
theorem C67_slice3D_joined (free : Vec → Vec → Res Bool) (mk : ℝ → ℝ → ℝ → Vec)
    (planes : List (ℝ × FreeSeg)) (g g' : Graph) (s : VertexIdx)
    (h : constructSlice3D free mk planes g = .ok (g', s)) :
    s.line.length = planes.length ∧
    (∀ (i : ℕ) (p : ℝ × FreeSeg) (plane : List ℕ), planes[i]? = some p → s.line[i]? = some plane →
      PlaneOk (mk p.1) p.2 plane g' ∧ PlaneJoined free p.2 plane g') ∧
    (∀ (i : ℕ) (a b : ℝ × FreeSeg) (pa pb : List ℕ), planes[i]? = some a → planes[i + 1]? = some b →
      s.line[i]? = some pa → s.line[i + 1]? = some pb → CrossJoined free a.2 b.2 pa pb g') := by
  have hp : Res.Sat False (planes.foldlM (planeStep free mk) (g, [])) (fun s =>
      s.2.length = planes.length ∧
      ∀ (i : ℕ) (p : ℝ × FreeSeg) (plane : List ℕ), planes[i]? = some p → s.2[i]? = some plane →
        PlaneOk (mk p.1) p.2 plane s.1 ∧ PlaneDone free p.2 plane s.1) := by
    refine Res.Sat.foldlM_prefix (P := fun done s => s.2.length = done.length ∧
      ∀ (i : ℕ) (p : ℝ × FreeSeg) (plane : List ℕ), done[i]? = some p → s.2[i]? = some plane →
        PlaneOk (mk p.1) p.2 plane s.1 ∧ PlaneDone free p.2 plane s.1) planes ?_ (g, []) ⟨rfl, by simp⟩
    rintro ⟨g1, line⟩ done p - ⟨hl, hd⟩
    simp only at hl hd
    unfold planeStep
    refine Res.Sat.bind (generateVertices_sat (tot := False) (Vp := fun _ => True)
      (Acc := fun _ _ => True) (Sample.all fun _ _ => trivial) False.elim) ?_
    rintro ⟨g2, plane⟩ ⟨hgrow, hpl, -⟩
    refine Res.Sat.bind (connectOneSlice2D_done free p.2 plane g2) ?_
    rintro g3 ⟨hx, hdone⟩
    refine Res.Sat.ok ⟨by simp [hl], ?_⟩
    simp only
    intro i q pl e1 e2
    rcases Nat.lt_or_ge i done.length with hi | hi
    · rw [List.getElem?_append_left hi] at e1
      rw [List.getElem?_append_left (by omega)] at e2
      have hx' := hgrow.ext.trans hx
      exact ⟨(hd i q pl e1 e2).1.mono hx', (hd i q pl e1 e2).2.mono hx'⟩
    · rw [List.getElem?_append_right hi] at e1
      rw [List.getElem?_append_right (by omega), hl] at e2
      cases hk : i - done.length with
      | zero =>
        rw [hk] at e1 e2
        simp only [List.getElem?_cons_zero, Option.some.injEq] at e1 e2
        subst e1 e2
        exact ⟨hpl.mono hx, hdone⟩
      | succ k => rw [hk] at e1; simp at e1
  have key : Res.Sat False (constructSlice3D free mk planes g) (fun r =>
      r.2.line.length = planes.length ∧
      (∀ (i : ℕ) (p : ℝ × FreeSeg) (plane : List ℕ), planes[i]? = some p → r.2.line[i]? = some plane →
        PlaneOk (mk p.1) p.2 plane r.1 ∧ PlaneJoined free p.2 plane r.1) ∧
      (∀ (i : ℕ) (a b : ℝ × FreeSeg) (pa pb : List ℕ), planes[i]? = some a → planes[i + 1]? = some b →
        r.2.line[i]? = some pa → r.2.line[i + 1]? = some pb → CrossJoined free a.2 b.2 pa pb r.1)) := by
    unfold constructSlice3D
    refine Res.Sat.bind hp ?_
    rintro ⟨g1, line⟩ ⟨hl, hd⟩
    simp only at hl hd
    split
    · exact Res.Sat.fail_throw id
    refine Res.Sat.bind (Res.Sat.foldlM_range (P := fun m g' => g1.Ext g' ∧ ∀ i < m,
      ∀ (a b : ℝ × FreeSeg) (pa pb : List ℕ), planes[i]? = some a → planes[i + 1]? = some b →
        line[i]? = some pa → line[i + 1]? = some pb → CrossDone free a.2 b.2 pa pb g' a.2.ty.length)
      (planes.length - 1) ?_ g1 ⟨.refl _, by simp⟩) ?_
    · rintro g2 i - ⟨hx, hd2⟩
      refine (crossPlanes_done free planes line g2 i).mono ?_
      rintro g3 ⟨hx3, hd3⟩
      refine ⟨hx.trans hx3, fun i' hi' a b pa pb e1 e2 e3 e4 => ?_⟩
      rcases Nat.lt_or_ge i' i with h | h
      · exact (hd2 i' h a b pa pb e1 e2 e3 e4).mono hx3
      · obtain rfl : i' = i := by omega
        exact hd3 a b pa pb e1 e2 e3 e4
    · rintro g2 ⟨hx, hd2⟩
      refine Res.Sat.ok ⟨hl, fun i p plane e1 e2 => ?_, fun i a b pa pb e1 e2 e3 e4 => ?_⟩
      · exact ⟨(hd i p plane e1 e2).1.mono hx, ((hd i p plane e1 e2).2.mono hx).joined⟩
      · have hlt : i < planes.length - 1 := by
          have := (List.getElem?_eq_some_iff.1 e2).1
          omega
        intro j n1 n2 ra rb k1 k2 f1 f2 f3 f4 f5 f6 f7
        exact (hd2 i hlt a b pa pb e1 e2 e3 e4 j n1 n2 ra rb k1 k2 f1 f2 f3 f4 f5 f6 f7).2.2
  exact key.1 _ h

/-- **C67 (refined slices).** `connectExistSlice` joins the slice of this round with the slice of the same
orientation of the previous round whenever a near, accepted pair exists, and changes no vertex. -/
theorem C67_exist_slice_joined (near free : Vec → Vec → Res Bool) (idx : List VertexIdx)
    (idxAll : List (List VertexIdx)) (prev : List VertexIdx) (k dim : ℕ) (cur old : VertexIdx) (g g' : Graph)
    (hdim : ∀ v ∈ g.vertex, v.length = dim) (hcur : idx[k]? = some cur)
    (hprev : idxAll.getLast? = some prev) (hold : prev[k]? = some old)
    (h : connectExistSlice near free idx idxAll k g = .ok g') :
    g'.vertex = g.vertex ∧ g.Ext g' ∧ JoinedIfPossible near free cur old g' := by
  unfold connectExistSlice at h
  rw [Res.at'_eq_ok.2 hcur, Res.bind_ok'] at h
  simp only [hprev] at h
  rw [Res.at'_eq_ok.2 hold, Res.bind_ok'] at h
  obtain ⟨h1, h2⟩ := (matchRanges_full (tot := False) (Acc := fun _ _ => True) isGet_idx isGet_idx
    cur.startId cur.slice old.startId old.slice g hdim (by intros; trivial) False.elim False.elim
    False.elim False.elim).1 _ h
  exact ⟨h1.noVertex, h1.ext, h2⟩

/-- **C67 (adjacency).** The adjacency test of the slice connections: in 2D the y-coordinates differ by at
most `gap`; in 3D the x-coordinates by at most `gapX` and the y-coordinates by at most `gapY`. -/
theorem C67_adjacency (gap gapX gapY x y x' y' : ℝ) (r r' : Vec) :
    (near2D gap (x :: y :: r) (x' :: y' :: r') = .ok true ↔ |y - y'| ≤ gap) ∧
    (near3D gapX gapY (x :: y :: r) (x' :: y' :: r') = .ok true ↔ |x - x'| ≤ gapX ∧ |y - y'| ≤ gapY) := by
  constructor
  · simp [near2D, Res.idx]
  · simp only [near3D, Res.at', List.getElem?_cons_zero, Res.bind_ok', List.getElem?_cons_succ]
    by_cases h : |x - x'| > gapX
    · simp [h, not_le.2 h]
    · rw [if_neg h]
      simp [not_lt.1 h]

/-! ## Witnesses -/

/-- Two sweep lines with one sample each. -/
noncomputable def twoLines : FreeSeg := ⟨[0, 1], [⟨[0], [2], [1]⟩, ⟨[0], [2], [1]⟩]⟩

/-- A check that refuses the direct transition but accepts everything that keeps a coordinate fixed is
possible; here: accept everything, and the two samples are joined by an edge. -/
example : ∃ g' s, constructSlice2D (fun _ _ => .ok true) 0 twoLines .empty = .ok (g', s) ∧
    g'.edge ≠ [] := by
  have h : ∃ r, constructSlice2D (fun _ _ => .ok true) 0 twoLines .empty = .ok r := by
    refine (constructSlice2D_sat (tot := True) (Vp := fun v => v.length = 3) (Acc := fun _ _ => True)
      (free := fun _ _ => .ok true) (angle := 0) (fs := twoLines) (g := .empty) ?_ ?_ ?_ ?_).2 trivial
    · constructor <;> simp +contextual [TotalOn]
    · simp
    · simp
    · intro _
      simp [FreeSeg.Aligned, twoLines]
  obtain ⟨⟨g', s⟩, h⟩ := h
  refine ⟨g', s, h, ?_⟩
  obtain ⟨plane, -, hok, hj⟩ := C67_slice2D_joined _ _ _ _ _ _ h
  obtain ⟨n0, p0, v0⟩ := hok.2 0 0 ⟨[0], [2], [1]⟩ 0 1 rfl rfl rfl
  obtain ⟨n1, p1, v1⟩ := hok.2 1 1 ⟨[0], [2], [1]⟩ 0 1 rfl rfl rfl
  have := ((hj.1 0 n0 n1 _ _ 0 0 p0 p1 rfl rfl (by simp [twoLines]) (by simp) (by simp)) _ _ 0 0 v0 v1 rfl
    rfl).1 rfl
  exact List.ne_nil_of_mem this

end Hrm
