import Mathlib.Order.Defs.LinearOrder
import Mathlib.Data.List.Sort
import Mathlib.Data.List.Pairwise

/-!
# Common modelling vocabulary

Conventions of the whole model (see DESIGN.md, section 2).
-/

namespace Hrm

/-- Outcome of a C++ call: a normal value, a `std::out_of_range` exception (thrown by
`std::vector::at`, which the code base uses everywhere), or undefined behaviour (unchecked
`operator[]` out of range, `back()` of an empty vector, conversion of a non-finite double to an
integer, reading an uninitialised variable). -/
inductive Res (β : Type*) where
  | ok (b : β)
  | throw
  | ub
  deriving DecidableEq, Repr

namespace Res

universe u v

/-- Sequencing: exceptions and undefined behaviour propagate. -/
def bind {β : Type u} {γ : Type v} : Res β → (β → Res γ) → Res γ
  | ok b, f => f b
  | throw, _ => throw
  | ub, _ => ub

@[simp] theorem bind_ok' {β : Type u} {γ : Type v} (b : β) (f : β → Res γ) : (ok b).bind f = f b := rfl
@[simp] theorem bind_throw' {β : Type u} {γ : Type v} (f : β → Res γ) :
    (throw : Res β).bind f = throw := rfl
@[simp] theorem bind_ub' {β : Type u} {γ : Type v} (f : β → Res γ) : (ub : Res β).bind f = ub := rfl

variable {β γ : Type u}

instance : Monad Res where
  pure := ok
  bind := bind

@[simp] theorem pure_eq (b : β) : (pure b : Res β) = ok b := rfl
@[simp] theorem bind_ok (b : β) (f : β → Res γ) : (ok b >>= f) = f b := rfl
@[simp] theorem bind_throw (f : β → Res γ) : ((throw : Res β) >>= f) = throw := rfl
@[simp] theorem bind_ub (f : β → Res γ) : ((ub : Res β) >>= f) = ub := rfl

/-- `v.at(i)`: throws when out of range. -/
def at' (l : List β) (i : Nat) : Res β :=
  match l[i]? with
  | some b => ok b
  | none => throw

/-- `v[i]`: undefined behaviour when out of range. -/
def idx (l : List β) (i : Nat) : Res β :=
  match l[i]? with
  | some b => ok b
  | none => ub

theorem at'_eq_ok {l : List β} {i : Nat} {b : β} : at' l i = ok b ↔ l[i]? = some b := by
  unfold at'; cases h : l[i]? <;> simp

theorem at'_eq_throw {l : List β} {i : Nat} : at' l i = throw ↔ l.length ≤ i := by
  unfold at'; rw [← List.getElem?_eq_none_iff]; cases h : l[i]? <;> simp

theorem at'_ne_ub {l : List β} {i : Nat} : at' l i ≠ ub := by
  unfold at'; cases h : l[i]? <;> simp

theorem idx_eq_ok {l : List β} {i : Nat} {b : β} : idx l i = ok b ↔ l[i]? = some b := by
  unfold idx; cases h : l[i]? <;> simp

theorem idx_eq_ub {l : List β} {i : Nat} : idx l i = ub ↔ l.length ≤ i := by
  unfold idx; rw [← List.getElem?_eq_none_iff]; cases h : l[i]? <;> simp

end Res

/-- A legal `std::sort` for the strict weak order `lt`: *any* function that returns a permutation
in which no later element is smaller than an earlier one. `std::sort` is not stable, so nothing is
said about elements that compare equal; theorems quantify over all such functions. -/
structure SortBy {β : Type*} (lt : β → β → Prop) where
  run : List β → List β
  perm : ∀ l, (run l).Perm l
  sorted : ∀ l, (run l).Pairwise (fun a b => ¬ lt b a)

/-- A witness that the contract is satisfiable for every key into a linear order: insertion sort. -/
def SortBy.ofKey {β γ : Type*} [LinearOrder γ] (key : β → γ) :
    SortBy (fun a b : β => key a < key b) where
  run l := l.insertionSort (fun a b => key a ≤ key b)
  perm l := List.perm_insertionSort _ l
  sorted l := by
    have : Std.Total (fun a b : β => key a ≤ key b) := ⟨fun a b => le_total _ _⟩
    have : IsTrans β (fun a b : β => key a ≤ key b) := ⟨fun _ _ _ => le_trans⟩
    exact (List.pairwise_insertionSort (fun a b : β => key a ≤ key b) l).imp
      (fun h => not_lt.2 h)

/-- With pairwise different keys the result of a legal sort is determined. -/
theorem SortBy.run_eq {β γ : Type*} [LinearOrder γ] {key : β → γ}
    (S : SortBy (fun a b : β => key a < key b)) {l u : List β} (hp : l.Perm u)
    (hu : u.Pairwise (fun a b => key a < key b)) : S.run l = u := by
  have hperm := (S.perm l).trans hp
  have hinj : ∀ a ∈ u, ∀ b ∈ u, key a = key b → a = b := by
    intro a ha b hb hab
    by_contra hne
    have : Std.Symm (fun a b : β => a ≠ b → key a ≠ key b) :=
      ⟨fun _ _ h h' e => h h'.symm e.symm⟩
    exact List.Pairwise.forall_of_forall (R := fun a b : β => a ≠ b → key a ≠ key b)
      (fun x _ h => absurd rfl h)
      (List.Pairwise.imp (S := fun a b : β => a ≠ b → key a ≠ key b)
        (fun {_ _} h _ => ne_of_lt h) hu) ha hb hne hab
  refine List.Perm.eq_of_pairwise
    (le := fun a b : β => key a ≤ key b ∧ (key a = key b → a = b)) ?_ ?_ ?_ hperm
  · intro a b _ _ h1 h2; exact h1.2 (le_antisymm h1.1 h2.1)
  · refine List.Pairwise.imp_of_mem (fun {a b} ha hb h => ⟨not_lt.1 h, ?_⟩) (S.sorted l)
    exact hinj a (hperm.mem_iff.1 ha) b (hperm.mem_iff.1 hb)
  · exact hu.imp (fun h => ⟨h.le, fun e => absurd e (ne_of_lt h)⟩)

end Hrm
