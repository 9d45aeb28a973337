import Verif.Model.Nearest
import Verif.Lemmas.Roadmap

/-! # Lemmas about the nearest-neighbour queries -/

namespace Hrm

open Classical

theorem collectK_sublist {β : Type*} (close : β → Prop) (k : ℕ) (l : List β) : ∀ acc : List β,
    ∃ m, collectK close k acc l = acc ++ m ∧ m.Sublist l ∧ ∀ b ∈ m, close b := by
  induction l with
  | nil => intro acc; exact ⟨[], by simp [collectK], by simp, by simp⟩
  | cons b l ih =>
    intro acc
    unfold collectK
    dsimp only
    by_cases hb : close b
    · rw [if_pos hb]
      split
      · exact ⟨[b], rfl, by simp, by simp [hb]⟩
      · obtain ⟨m, h1, h2, h3⟩ := ih (acc ++ [b])
        refine ⟨b :: m, by rw [h1]; simp, h2.cons_cons b, ?_⟩
        intro x hx
        rcases List.mem_cons.1 hx with rfl | hx
        · exact hb
        · exact h3 x hx
    · rw [if_neg hb]
      split
      · exact ⟨[], by simp, by simp, by simp⟩
      · obtain ⟨m, h1, h2, h3⟩ := ih acc
        exact ⟨m, h1, h2.cons b, h3⟩

/-- With a positive limit, the first `k` elements passing the test are collected. -/
theorem collectK_eq {β : Type*} (close : β → Prop) {k : ℕ} (l : List β) : ∀ acc : List β,
    acc.length < k → collectK close k acc l = acc ++ (l.filter (fun b => close b)).take (k - acc.length) := by
  induction l with
  | nil => intro acc _; simp [collectK]
  | cons b l ih =>
    intro acc hacc
    unfold collectK
    dsimp only
    by_cases hb : close b
    · rw [if_pos hb, List.filter_cons_of_pos (by simpa using hb)]
      obtain ⟨m, hm⟩ : ∃ m, k - acc.length = m + 1 := ⟨k - acc.length - 1, by omega⟩
      rw [hm, List.take_succ_cons]
      simp only [List.length_append, List.length_cons, List.length_nil, zero_add]
      split
      · have : m = 0 := by omega
        simp [this]
      · rw [ih _ (by simp; omega)]
        simp only [List.length_append, List.length_cons, List.length_nil, zero_add]
        rw [show k - (acc.length + 1) = m by omega]
        simp
    · rw [if_neg hb, if_neg (by omega), List.filter_cons_of_neg (by simpa using hb)]
      exact ih acc hacc

theorem collectK_length {β : Type*} (close : β → Prop) (k : ℕ) (l : List β) :
    (collectK close k [] l).length ≤ max k 1 := by
  rcases Nat.eq_zero_or_pos k with rfl | hk
  · cases l with
    | nil => simp [collectK]
    | cons b l =>
      unfold collectK
      dsimp only
      split <;> simp
  · rw [collectK_eq close l [] (by simpa using hk)]
    simp only [List.nil_append, List.length_nil, Nat.sub_zero, List.length_take]
    omega

/-- Result of the closest-in-slice loop: either the initial state, and nothing in the slice was closer;
or a vertex of the slice that is closest and closer than the initial value. -/
theorem closestInSlice_spec {same : Vec → Res Bool} {inS : Vec → Prop} {q : Vec} (verts : List Vec)
    (hsame : ∀ v ∈ verts, same v = .ok (decide (inS v))) (hlen : ∀ v ∈ verts, q.length = v.length) :
    ∀ (done rest : List Vec) (s0 s : Option ℝ × ℕ), done ++ rest = verts →
      ((s = s0 ∧ ∀ v ∈ done, inS v → ¬ ltInf (euclid q v) s0.1) ∨
        ∃ v, done[s.2]? = some v ∧ inS v ∧ s.1 = some (euclid q v) ∧ ltInf (euclid q v) s0.1 ∧
          ∀ u ∈ done, inS u → euclid q v ≤ euclid q u) →
      ∃ s', closestInSlice same q rest done.length s = .ok s' ∧
        ((s' = s0 ∧ ∀ v ∈ verts, inS v → ¬ ltInf (euclid q v) s0.1) ∨
        ∃ v, verts[s'.2]? = some v ∧ inS v ∧ s'.1 = some (euclid q v) ∧ ltInf (euclid q v) s0.1 ∧
          ∀ u ∈ verts, inS u → euclid q v ≤ euclid q u) := by
  intro done rest
  induction rest generalizing done with
  | nil =>
    intro s0 s hd hs
    rw [List.append_nil] at hd
    subst hd
    exact ⟨s, rfl, hs⟩
  | cons v rest ih =>
    intro s0 s hd hs
    have hv : v ∈ verts := by rw [← hd]; simp
    unfold closestInSlice
    rw [vectorEuclidean_eq (hlen v hv), Res.bind_ok', hsame v hv]
    have hd' : (done ++ [v]) ++ rest = verts := by simpa using hd
    have hlen' : (done ++ [v]).length = done.length + 1 := by simp
    have key := ih (done ++ [v]) s0
    rw [hlen'] at key
    by_cases hlt : ltInf (euclid q v) s.1
    · by_cases hin : inS v
      · simp only [hlt, if_true, hin, decide_true, Res.bind_ok']
        refine key _ hd' (Or.inr ⟨v, by simp, hin, rfl, ?_, ?_⟩)
        · rcases hs with ⟨rfl, -⟩ | ⟨w, -, -, h1, h2, -⟩
          · exact hlt
          · rw [h1] at hlt
            cases h0 : s0.1 with
            | none => trivial
            | some m =>
              rw [h0] at h2
              simp only [ltInf] at hlt h2 ⊢
              exact hlt.trans h2
        · intro u hu hinu
          rcases List.mem_append.1 hu with hu | hu
          · rcases hs with ⟨rfl, h0⟩ | ⟨w, -, -, h1, h2, h3⟩
            · have := h0 u hu hinu
              cases h0 : s.1 with
              | none => rw [h0] at this; exact absurd trivial this
              | some m =>
                rw [h0] at this hlt
                simp only [ltInf] at hlt this
                linarith
            · rw [h1] at hlt
              simp only [ltInf] at hlt
              exact hlt.le.trans (h3 u hu hinu)
          · simp only [List.mem_singleton] at hu
            rw [hu]
      · simp only [hlt, if_true, hin, decide_false, Res.bind_ok', Bool.false_eq_true, if_false]
        refine key _ hd' ?_
        rcases hs with ⟨rfl, h0⟩ | ⟨w, h1, h2, h3, h4, h5⟩
        · refine Or.inl ⟨rfl, ?_⟩
          intro u hu hinu
          rcases List.mem_append.1 hu with hu | hu
          · exact h0 u hu hinu
          · simp only [List.mem_singleton] at hu
            rw [hu] at hinu
            exact absurd hinu hin
        · refine Or.inr ⟨w, ?_, h2, h3, h4, ?_⟩
          · rw [List.getElem?_append_left (List.getElem?_eq_some_iff.1 h1).1]; exact h1
          · intro u hu hinu
            rcases List.mem_append.1 hu with hu | hu
            · exact h5 u hu hinu
            · simp only [List.mem_singleton] at hu
              rw [hu] at hinu
              exact absurd hinu hin
    · simp only [hlt, if_false, Res.bind_ok', Bool.false_eq_true]
      refine key _ hd' ?_
      rcases hs with ⟨rfl, h0⟩ | ⟨w, h1, h2, h3, h4, h5⟩
      · refine Or.inl ⟨rfl, ?_⟩
        intro u hu hinu
        rcases List.mem_append.1 hu with hu | hu
        · exact h0 u hu hinu
        · simp only [List.mem_singleton] at hu
          rw [hu]
          exact hlt
      · refine Or.inr ⟨w, ?_, h2, h3, h4, ?_⟩
        · rw [List.getElem?_append_left (List.getElem?_eq_some_iff.1 h1).1]; exact h1
        · intro u hu hinu
          rcases List.mem_append.1 hu with hu | hu
          · exact h5 u hu hinu
          · simp only [List.mem_singleton] at hu
            rw [hu]
            rw [h3] at hlt
            simpa [ltInf] using hlt

/-- The heading found is the heading of a vertex, and no vertex is closer in heading. -/
theorem closestHeading_spec {verts : List Vec} (hne : verts ≠ []) (hdim : ∀ v ∈ verts, v.length = 3) (qa : ℝ) :
    ∃ m v, closestHeading verts qa = .ok (|qa - m|, m) ∧ v ∈ verts ∧ v[2]? = some m ∧
      ∀ u ∈ verts, ∀ a, u[2]? = some a → |qa - m| ≤ |qa - a| := by
  have hpos : 0 < verts.length := List.length_pos_iff.2 hne
  have h0 : Res.idx verts 0 = .ok verts[0] := Res.idx_eq_ok.2 (List.getElem?_eq_getElem hpos)
  have hd : 2 < verts[0].length := by rw [hdim _ (List.getElem_mem hpos)]; norm_num
  have h02 : Res.idx verts[0] 2 = .ok verts[0][2] := Res.idx_eq_ok.2 (List.getElem?_eq_getElem hd)
  unfold closestHeading
  rw [h0, Res.bind_ok', h02, Res.bind_ok']
  have hsat := Res.Sat.foldlM_prefix (tot := True) (f := fun (s : ℝ × ℝ) (v : Vec) =>
      (Res.idx v 2).bind fun a => .ok (if |qa - a| < s.1 then (|qa - a|, a) else s))
    (P := fun done s => s.1 = |qa - s.2| ∧ (∃ v ∈ verts, v[2]? = some s.2) ∧
      ∀ u ∈ done, ∀ a, u[2]? = some a → s.1 ≤ |qa - a|) verts ?_ (|qa - verts[0][2]|, verts[0][2]) ?_
  · obtain ⟨⟨d, m⟩, hr⟩ := hsat.2 trivial
    obtain ⟨h1, ⟨v, hv, hv2⟩, h3⟩ := hsat.1 _ hr
    simp only at h1 hv2 h3
    subst h1
    exact ⟨m, v, hr, hv, hv2, h3⟩
  · rintro ⟨d, m⟩ done v hpre ⟨h1, h2, h3⟩
    have hv : v ∈ verts := hpre.subset (by simp)
    refine Res.Sat.bind (Res.Sat.idx (fun _ => by rw [hdim v hv]; norm_num)) ?_
    intro a ha
    refine Res.Sat.ok ?_
    simp only at h1 h2 h3
    dsimp only
    split
    · rename_i hlt
      refine ⟨rfl, ⟨v, hv, ha⟩, ?_⟩
      intro u hu b hb
      rcases List.mem_append.1 hu with hu | hu
      · exact hlt.le.trans (h3 u hu b hb)
      · simp only [List.mem_singleton] at hu
        subst hu
        rw [ha] at hb
        cases hb
        exact le_rfl
    · rename_i hlt
      refine ⟨h1, h2, ?_⟩
      intro u hu b hb
      rcases List.mem_append.1 hu with hu | hu
      · exact h3 u hu b hb
      · simp only [List.mem_singleton] at hu
        subst hu
        rw [ha] at hb
        cases hb
        exact not_lt.1 hlt
  · exact ⟨rfl, ⟨verts[0], List.getElem_mem hpos, List.getElem?_eq_getElem hd⟩, by simp⟩

end Hrm
