import Verif.Lemmas.Roadmap

/-!
# The slice-connection routines only ever check near pairs
-/

namespace Hrm

theorem onlyNear_true {N : Vec → Vec → Prop} {free : Vec → Vec → Res Bool} {a b : Vec}
    (h : onlyNear N free a b = .ok true) : N a b ∧ free a b = .ok true := by
  unfold onlyNear at h
  split at h
  · exact ⟨‹_›, h⟩
  · exact absurd ((Res.ok.injEq _ _).mp h) (by decide)

theorem onlyNear_onlyNear (N N' : Vec → Vec → Prop) (free : Vec → Vec → Res Bool) :
    onlyNear N (onlyNear N' free) = onlyNear (fun a b => N a b ∧ N' a b) free := by
  funext a b
  unfold onlyNear
  by_cases h : N a b <;> by_cases h' : N' a b <;> simp [h, h']

theorem near2D_close {gap : ℝ} {a b : Vec} (h : near2D gap a b = .ok true) : CloseIn 1 gap a b := by
  unfold near2D at h
  obtain ⟨x, hx, h⟩ := Res.bind_eq_ok.1 h
  obtain ⟨y, hy, h⟩ := Res.bind_eq_ok.1 h
  have := of_decide_eq_true ((Res.ok.injEq _ _).mp h)
  exact ⟨x, y, Res.idx_eq_ok.1 hx, Res.idx_eq_ok.1 hy, not_lt.1 this⟩

theorem near3D_close {gapX gapY : ℝ} {a b : Vec} (h : near3D gapX gapY a b = .ok true) :
    CloseIn 0 gapX a b ∧ CloseIn 1 gapY a b := by
  unfold near3D at h
  obtain ⟨x, hx, h⟩ := Res.bind_eq_ok.1 h
  obtain ⟨y, hy, h⟩ := Res.bind_eq_ok.1 h
  split at h
  · exact absurd ((Res.ok.injEq _ _).mp h) (by decide)
  rename_i h0
  obtain ⟨x', hx', h⟩ := Res.bind_eq_ok.1 h
  obtain ⟨y', hy', h⟩ := Res.bind_eq_ok.1 h
  have := of_decide_eq_true ((Res.ok.injEq _ _).mp h)
  exact ⟨⟨x, y, Res.at'_eq_ok.1 hx, Res.at'_eq_ok.1 hy, not_lt.1 h0⟩,
    ⟨x', y', Res.at'_eq_ok.1 hx', Res.at'_eq_ok.1 hy', not_lt.1 this⟩⟩

theorem matchOne_guard {get : List Vec → ℕ → Res Vec} {near free : Vec → Vec → Res Bool} {N : Vec → Vec → Prop}
    (hN : ∀ a b, near a b = .ok true → N a b) (m0 : ℕ) (v1 : Vec) (hi : ℕ) :
    ∀ (k m1 start : ℕ) (g : Graph), matchOne get near free m0 v1 hi k m1 start g =
      matchOne get near (onlyNear N free) m0 v1 hi k m1 start g
  | 0, _, _, _ => rfl
  | k + 1, m1, start, g => by
    unfold matchOne
    split
    · congr 1
      funext v2
      cases hnr : near v1 v2 with
      | throw => rfl
      | ub => rfl
      | ok b =>
        simp only [Res.bind_ok']
        cases b
        · simp only [Bool.false_eq_true, not_false_iff, if_true]
          exact matchOne_guard hN m0 v1 hi k _ _ _
        · simp only [not_true, if_false]
          unfold onlyNear
          rw [if_pos (hN _ _ hnr)]
          congr 1
          funext ok
          rw [matchOne_guard hN m0 v1 hi k]
          rfl
    · rfl

theorem matchRanges_guard {get0 get1 : List Vec → ℕ → Res Vec} {near free : Vec → Vec → Res Bool}
    {N : Vec → Vec → Prop} (hN : ∀ a b, near a b = .ok true → N a b) (lo0 hi0 lo1 hi1 : ℕ) (g : Graph) :
    matchRanges get0 get1 near free lo0 hi0 lo1 hi1 g =
      matchRanges get0 get1 near (onlyNear N free) lo0 hi0 lo1 hi1 g := by
  unfold matchRanges
  congr 2
  funext s m0
  unfold matchStep
  congr 1
  funext v1
  exact matchOne_guard hN m0 v1 _ _ _ _ _

theorem buildRoadmap2D_guard (freeSame : ℕ → Vec → Vec → Res Bool) (freeMulti : ℕ → ℕ → Vec → Vec → Res Bool) (gap : ℝ)
    (headings : ℕ → ℝ) (seg : ℕ → FreeSeg) (n : ℕ) : buildRoadmap2D freeSame freeMulti gap headings seg n =
      buildRoadmap2D freeSame (fun i j => onlyNear (CloseIn 1 gap) (freeMulti i j)) gap headings seg n := by
  unfold buildRoadmap2D
  congr 1
  funext s
  congr 1
  unfold connectMultiSlice2D
  congr 2
  funext g i
  unfold multiStep2D
  congr 1
  funext cur
  congr 1
  funext adj
  exact matchRanges_guard (fun a b => near2D_close) _ _ _ _ _

theorem buildRoadmap3D_guard (dist : ℕ → ℕ → ℝ) (freeSame : ℕ → Vec → Vec → Res Bool)
    (freeMulti : ℕ → ℕ → Vec → Vec → Res Bool) (gapX gapY : ℝ) (mk : ℕ → ℝ → ℝ → ℝ → Vec)
    (seg : ℕ → List (ℝ × FreeSeg)) (n : ℕ) : buildRoadmap3D dist freeSame freeMulti gapX gapY mk seg n =
      buildRoadmap3D dist freeSame (fun i j => onlyNear (fun a b => CloseIn 0 gapX a b ∧ CloseIn 1 gapY a b)
        (freeMulti i j)) gapX gapY mk seg n := by
  unfold buildRoadmap3D
  congr 1
  funext s
  congr 1
  unfold connectMultiSlice3D
  congr 2
  funext g i
  unfold multiStep3D
  congr 1
  funext cur
  congr 1
  funext adj
  exact matchRanges_guard (fun a b => near3D_close) _ _ _ _ _

theorem probConnect_guard (dist : ℕ → ℝ) (freeMulti : ℕ → Vec → Vec → Res Bool) (gapX gapY : ℝ) (n : ℕ)
    (idx : List VertexIdx) (g : Graph) : probConnect dist freeMulti gapX gapY n idx g =
      probConnect dist (fun j => onlyNear (fun a b => CloseIn 0 gapX a b ∧ CloseIn 1 gapY a b) (freeMulti j)) gapX gapY
        n idx g := by
  unfold probConnect
  congr 1
  congr 1
  funext cur
  congr 1
  funext adj
  exact matchRanges_guard (fun a b => near3D_close) _ _ _ _ _

theorem probConnect_near {dim : ℕ} {dist : ℕ → ℝ} {freeMulti : ℕ → Vec → Vec → Res Bool}
    {gapX gapY : ℝ} {n : ℕ} {idx : List VertexIdx} {g g' : Graph} {Acc : Vec → Vec → Prop}
    (hdim : ∀ v ∈ g.vertex, v.length = dim)
    (hacc : ∀ (s t : VertexIdx) (m0 m1 : ℕ) (a b : Vec), idx[n - 1]? = some s → idx[probNearest dist n]? = some t →
      (t.startId ≤ m0 ∧ m0 < t.slice) → (s.startId ≤ m1 ∧ m1 < s.slice) → g.vertex[m0]? = some a → g.vertex[m1]? = some b →
      CloseIn 0 gapX a b → CloseIn 1 gapY a b → freeMulti (probNearest dist n) a b = .ok true → Acc a b)
    (h : probConnect dist freeMulti gapX gapY n idx g = .ok g') :
    Grow (fun _ => False) Acc g g' ∧
      (n ≠ 1 → ∀ (s t : VertexIdx), idx[n - 1]? = some s → idx[probNearest dist n]? = some t →
        JoinedIfPossible (near3D gapX gapY) (freeMulti (probNearest dist n)) t s g') := by
  refine ⟨?_, ((probConnect_sat (tot := False) (Acc := fun _ _ => True) hdim (fun _ _ _ _ _ _ _ _ _ _ _ _ _ => trivial)
    (fun h => h.elim)).1 g' h).2⟩
  rw [probConnect_guard] at h
  exact ((probConnect_sat (tot := False) (Acc := Acc) hdim (fun s t m0 m1 a b hs ht r0 r1 e0 e1 hab => by
    obtain ⟨⟨h1, h2⟩, h3⟩ := onlyNear_true hab
    exact hacc s t m0 m1 a b hs ht r0 r1 e0 e1 h1 h2 h3) (fun h => h.elim)).1 g' h).1

end Hrm
