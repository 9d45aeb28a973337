import Verif.Model.Basic
import Mathlib.Data.List.Induction

/-! # Total / partial correctness of `Res` computations -/

namespace Hrm
universe u v

/-- `r` ends in a state satisfying `P` if it returns normally; and if `tot` holds it does return
normally. -/
def Res.Sat {β : Type u} (tot : Prop) (r : Res β) (P : β → Prop) : Prop :=
  (∀ b, r = .ok b → P b) ∧ (tot → ∃ b, r = .ok b)

namespace Res

instance : LawfulMonad Res := LawfulMonad.mk'
  (id_map := fun x => by cases x <;> rfl)
  (pure_bind := fun _ _ => rfl)
  (bind_assoc := fun x f g => by cases x <;> rfl)

theorem Sat.ok {β : Type u} {tot : Prop} {b : β} {P : β → Prop} (h : P b) : Sat tot (.ok b) P :=
  ⟨fun b' e => by cases e; exact h, fun _ => ⟨b, rfl⟩⟩

theorem Sat.fail_throw {β : Type u} {tot : Prop} {P : β → Prop} (h : ¬ tot) : Sat tot (.throw : Res β) P :=
  ⟨fun _ e => (nomatch e), fun t => absurd t h⟩

theorem Sat.fail_ub {β : Type u} {tot : Prop} {P : β → Prop} (h : ¬ tot) : Sat tot (.ub : Res β) P :=
  ⟨fun _ e => (nomatch e), fun t => absurd t h⟩

theorem Sat.mono {β : Type u} {tot : Prop} {r : Res β} {P Q : β → Prop} (h : Sat tot r P)
    (hPQ : ∀ b, P b → Q b) : Sat tot r Q := ⟨fun b e => hPQ b (h.1 b e), h.2⟩

theorem Sat.bind {β : Type u} {γ : Type v} {tot : Prop} {r : Res β} {f : β → Res γ} {Q : β → Prop}
    {P : γ → Prop} (h : Sat tot r Q) (hf : ∀ b, Q b → Sat tot (f b) P) : Sat tot (r.bind f) P := by
  cases r with
  | ok b => exact hf b (h.1 b rfl)
  | throw => exact ⟨fun b e => by simp at e, fun t => by obtain ⟨b, e⟩ := h.2 t; cases e⟩
  | ub => exact ⟨fun b e => by simp at e, fun t => by obtain ⟨b, e⟩ := h.2 t; cases e⟩

theorem Sat.idx {β : Type u} {tot : Prop} {l : List β} {i : ℕ} (h : tot → i < l.length) :
    Sat tot (Res.idx l i) (fun b => l[i]? = some b) :=
  ⟨fun b e => Res.idx_eq_ok.1 e, fun t => ⟨l[i]'(h t), Res.idx_eq_ok.2 (List.getElem?_eq_getElem (h t))⟩⟩

theorem Sat.at' {β : Type u} {tot : Prop} {l : List β} {i : ℕ} (h : tot → i < l.length) :
    Sat tot (Res.at' l i) (fun b => l[i]? = some b) :=
  ⟨fun b e => Res.at'_eq_ok.1 e, fun t => ⟨l[i]'(h t), Res.at'_eq_ok.2 (List.getElem?_eq_getElem (h t))⟩⟩

/-- Loop invariant rule. -/
theorem Sat.foldlM {α : Type v} {β : Type u} {tot : Prop} {f : β → α → Res β} {P : β → Prop}
    (l : List α) (h : ∀ b, ∀ a ∈ l, P b → Sat tot (f b a) P) (b : β) (hb : P b) :
    Sat tot (l.foldlM f b) P := by
  induction l generalizing b with
  | nil => exact Sat.ok hb
  | cons a l ih =>
    rw [List.foldlM_cons]
    exact Sat.bind (h b a (by simp) hb) fun b' hb' =>
      ih (fun b a ha => h b a (by simp [ha])) b' hb'

/-- Loop invariant rule over `0 .. n-1` with the iteration number. -/
theorem Sat.foldlM_range {β : Type u} {tot : Prop} {f : β → ℕ → Res β} {P : ℕ → β → Prop}
    (n : ℕ) (h : ∀ b i, i < n → P i b → Sat tot (f b i) (P (i + 1))) (b : β) (hb : P 0 b) :
    Sat tot ((List.range n).foldlM f b) (P n) := by
  induction n with
  | zero => exact Sat.ok hb
  | succ n ih =>
    rw [List.range_succ, List.foldlM_append]
    refine Sat.bind (ih fun b i hi => h b i (by omega)) fun b' hb' => ?_
    rw [List.foldlM_cons]
    exact Sat.bind (h b' n (by omega) hb') fun b'' hb'' => Sat.ok hb''

/-- Loop invariant rule over a list with the consumed prefix. -/
theorem Sat.foldlM_prefix {α : Type v} {β : Type u} {tot : Prop} {f : β → α → Res β}
    {P : List α → β → Prop} (l : List α)
    (h : ∀ b done a, (done ++ [a]) <+: l → P done b → Sat tot (f b a) (P (done ++ [a]))) (b : β)
    (hb : P [] b) : Sat tot (l.foldlM f b) (P l) := by
  induction l using List.reverseRecOn with
  | nil => exact Sat.ok hb
  | append_singleton l a ih =>
    rw [List.foldlM_append]
    refine Sat.bind (ih fun b done x hp => h b done x (hp.trans (List.prefix_append _ _))) fun b' hb' => ?_
    rw [List.foldlM_cons]
    exact Sat.bind (h b' l a List.prefix_rfl hb') fun b'' hb'' => Sat.ok hb''

end Res

theorem Res.bind_eq_ok {β : Type*} {γ : Type*} {x : Res β} {f : β → Res γ} {y : γ} :
    x.bind f = .ok y ↔ ∃ a, x = .ok a ∧ f a = .ok y := by
  cases x <;> simp

end Hrm
