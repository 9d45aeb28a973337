import Verif.Lemmas.Planner2DBuild
import Verif.Spec.Planner2D

/-! # The check between two slices, pose by pose and body by body -/

namespace Hrm

open Matrix

theorem isPtInCFree2D_total (v : Pt ℝ) : ∀ bounds : List (List (Pt ℝ)), (∀ sh ∈ bounds, sh ≠ []) →
    ∃ b, isPtInCFree2D v bounds = .ok b
  | [], _ => ⟨true, rfl⟩
  | sh :: bs, h => by
    obtain ⟨b, hb⟩ := isPtInCFree2D_total v bs fun s hs => h s (by simp [hs])
    obtain ⟨l, hl, -, h1, -⟩ := C13_horizontal_line_polygon v.2 sh (h sh (by simp))
    have hpt : ∃ c, ptInObs2D v sh = .ok c := by
      match l, hl, h1 with
      | [], hl, _ => exact ⟨false, by simp [ptInObs2D, hl]⟩
      | [p], _, h1 => simp at h1
      | p0 :: p1 :: rest, hl, _ => exact ⟨_, by simp [ptInObs2D, hl, Res.idx]; rfl⟩
    obtain ⟨c, hc⟩ := hpt
    unfold isPtInCFree2D
    rw [hc, Res.bind_ok']
    cases c
    · exact ⟨b, by simpa using hb⟩
    · exact ⟨false, by simp⟩

theorem linksFree2_eq {base : SuperEllipse} {added : List SuperEllipse} {bridge : List (List (List (Pt ℝ)))}
    (hlen : bridge.length = 1 + added.length) (hne : ∀ b ∈ bridge, ∀ sh ∈ b, sh ≠ []) (x y th : ℝ) :
    ∀ js : List ℕ, (∀ j ∈ js, j < added.length) →
    ∃ b, linksFree2 bridge (Tree2.posed base added ⟨rot2 th, ![x, y]⟩) js = .ok b ∧
      (b = true ↔ ∀ j ∈ js, ∀ (l : SuperEllipse) (bd : List (List (Pt ℝ))), added[j]? = some l →
        bridge[j + 1]? = some bd → isPtInCFree2D (centreAt l x y th) bd = .ok true)
  | [], _ => ⟨true, rfl, by simp⟩
  | j :: js, hj => by
    obtain ⟨b, e, hb⟩ := linksFree2_eq (base := base) hlen hne x y th js fun k hk => hj k (by simp [hk])
    have hj0 : j < added.length := hj j (by simp)
    have hbr : j + 1 < bridge.length := by omega
    have hl : Res.idx (Tree2.posed base added ⟨rot2 th, ![x, y]⟩).link j =
        .ok (Tree2.place added[j] (Pose.mul ⟨rot2 th, ![x, y]⟩ ⟨rot2 added[j].ang, ![added[j].px, added[j].py]⟩)) := by
      rw [Res.idx_eq_ok]
      simp [Tree2.posed, List.getElem?_eq_getElem hj0]
    have hpx : ((Tree2.place added[j] (Pose.mul ⟨rot2 th, ![x, y]⟩
        ⟨rot2 added[j].ang, ![added[j].px, added[j].py]⟩)).px, (Tree2.place added[j] (Pose.mul ⟨rot2 th, ![x, y]⟩
        ⟨rot2 added[j].ang, ![added[j].px, added[j].py]⟩)).py) = centreAt added[j] x y th := by
      simp only [Tree2.place, Pose.mul, centreAt, rot2, Matrix.mulVec, dotProduct, Fin.sum_univ_two]
      simp
      constructor <;> ring
    obtain ⟨c, hc⟩ := isPtInCFree2D_total (centreAt added[j] x y th) bridge[j + 1]
      (hne _ (List.getElem_mem hbr))
    unfold linksFree2
    rw [hl, Res.bind_ok', Res.at'_eq_ok.2 (List.getElem?_eq_getElem hbr), Res.bind_ok', hpx, hc, Res.bind_ok']
    cases c with
    | true =>
      refine ⟨b, by simpa using e, ?_⟩
      rw [hb]
      constructor
      · intro h k hk l bd h1 h2
        rcases List.mem_cons.1 hk with rfl | hk
        · rw [List.getElem?_eq_getElem hj0] at h1
          rw [List.getElem?_eq_getElem hbr] at h2
          obtain rfl := Option.some.inj h1
          obtain rfl := Option.some.inj h2
          exact hc
        · exact h k hk l bd h1 h2
      · intro h k hk; exact h k (by simp [hk])
    | false =>
      refine ⟨false, by simp, ?_⟩
      simp only [Bool.false_eq_true, false_iff]
      intro h
      have := h j (by simp) _ _ (List.getElem?_eq_getElem hj0) (List.getElem?_eq_getElem hbr)
      rw [hc] at this
      simp at this

/-- One pose. -/
theorem poseFree2_eq {base : SuperEllipse} {added : List SuperEllipse} {bridge : List (List (List (Pt ℝ)))}
    (hlen : bridge.length = 1 + added.length) (hne : ∀ b ∈ bridge, ∀ sh ∈ b, sh ≠ []) (x y th : ℝ) :
    ∃ b, poseFree2 bridge (Tree2.posed base added ⟨rot2 th, ![x, y]⟩) = .ok b ∧
      (b = true ↔ (∀ bd, bridge[0]? = some bd → isPtInCFree2D (x, y) bd = .ok true) ∧
        ∀ (j : ℕ) (l : SuperEllipse) (bd : List (List (Pt ℝ))), added[j]? = some l →
        bridge[j + 1]? = some bd → isPtInCFree2D (centreAt l x y th) bd = .ok true) := by
  have h0 : 0 < bridge.length := by omega
  obtain ⟨c, hc⟩ := isPtInCFree2D_total (x, y) bridge[0] (hne _ (List.getElem_mem h0))
  obtain ⟨b, e, hb⟩ := linksFree2_eq (base := base) hlen hne x y th (List.range added.length) (by simp)
  have hpos : ((Tree2.posed base added ⟨rot2 th, ![x, y]⟩).base.px, (Tree2.posed base added ⟨rot2 th, ![x, y]⟩).base.py) =
      (x, y) := by simp [Tree2.posed, Tree2.place]
  unfold poseFree2
  rw [Res.at'_eq_ok.2 (List.getElem?_eq_getElem h0), Res.bind_ok', hpos, hc, Res.bind_ok']
  cases c with
  | true =>
    refine ⟨b, by simpa [Tree2.posed] using e, ?_⟩
    rw [hb]
    constructor
    · intro h
      refine ⟨fun bd h1 => ?_, fun j l bd h1 h2 => ?_⟩
      · rw [List.getElem?_eq_getElem h0] at h1
        obtain rfl := Option.some.inj h1
        exact hc
      · exact h j (List.mem_range.2 (List.getElem?_eq_some_iff.1 h1).1) l bd h1 h2
    · rintro ⟨-, h⟩ j _
      exact h j
  | false =>
    refine ⟨false, by simp, ?_⟩
    simp only [Bool.false_eq_true, false_iff, not_and]
    intro h
    have := h _ (List.getElem?_eq_getElem h0)
    rw [hc] at this
    simp at this

theorem multiStepConf_eq (dt : ℝ) (i : ℕ) (x1 y1 t1 x2 y2 t2 : ℝ) :
    multiStepConf dt i [x1, y1, t1] [x2, y2, t2] =
      .ok [(1 - i * dt) * x1 + i * dt * x2, (1 - i * dt) * y1 + i * dt * y2, (1 - i * dt) * t1 + i * dt * t2] := by
  simp [multiStepConf, List.range_succ, Res.idx]

theorem onWay_eq (n i : ℕ) (a b : ℝ) :
    (1 - i * (1 / ((n : ℝ) - 1))) * a + i * (1 / ((n : ℝ) - 1)) * b = onWay n i a b := by
  unfold onWay; ring

theorem multiFreeLoop_eq {base : SuperEllipse} {added : List SuperEllipse} {bridge : List (List (List (Pt ℝ)))}
    (hlen : bridge.length = 1 + added.length) (hne : ∀ b ∈ bridge, ∀ sh ∈ b, sh ≠ []) (n : ℕ)
    (x1 y1 t1 x2 y2 t2 : ℝ) : ∀ (is : List ℕ) (T : Tree2), Tree2.Inv base added T →
    ∃ b T', multiFreeLoop bridge (1 / ((n : ℝ) - 1)) [x1, y1, t1] [x2, y2, t2] is T = .ok (b, T') ∧
      (b = true ↔ ∀ i ∈ is,
        (∀ bd, bridge[0]? = some bd → isPtInCFree2D (onWay n i x1 x2, onWay n i y1 y2) bd = .ok true) ∧
        ∀ (j : ℕ) (l : SuperEllipse) (bd : List (List (Pt ℝ))), added[j]? = some l → bridge[j + 1]? = some bd →
          isPtInCFree2D (centreAt l (onWay n i x1 x2) (onWay n i y1 y2) (onWay n i t1 t2)) bd = .ok true)
  | [], T, _ => ⟨true, T, rfl, by simp⟩
  | i :: is, T, hT => by
    obtain ⟨c, hc, hc2⟩ := poseFree2_eq (base := base) hlen hne (onWay n i x1 x2) (onWay n i y1 y2) (onWay n i t1 t2)
    obtain ⟨b, T', e, hb⟩ := multiFreeLoop_eq hlen hne n x1 y1 t1 x2 y2 t2 is _
      (Tree2.posed_inv base added ⟨rot2 (onWay n i t1 t2), ![onWay n i x1 x2, onWay n i y1 y2]⟩)
    unfold multiFreeLoop
    rw [multiStepConf_eq, Res.bind_ok', onWay_eq, onWay_eq, onWay_eq, setTransform2_eq hT, Res.bind_ok', hc,
      Res.bind_ok']
    cases c with
    | true =>
      refine ⟨b, T', by simpa using e, ?_⟩
      rw [hb, List.forall_mem_cons]
      exact ⟨fun h => ⟨hc2.1 rfl, h⟩, fun h => h.2⟩
    | false =>
      refine ⟨false, _, by simp; rfl, ?_⟩
      simp only [Bool.false_eq_true, false_iff, List.forall_mem_cons, not_and]
      intro h
      have := hc2.2 h
      simp at this

end Hrm
