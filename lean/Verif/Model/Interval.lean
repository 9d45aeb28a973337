import Verif.Model.Basic

/-!
# Model of `hrm::Interval` (src/datastructure/Interval.cpp, include/hrm/datastructure/Interval.h)

The code only copies and compares coordinates, so the model is over an arbitrary linear order `α`
(non-NaN doubles are an instance). `-DBL_MAX`/`DBL_MAX` are the parameters `dmin`, `dmax`.
Passing NaN to these functions is outside the model (a NaN key breaks the strict weak order that
`std::sort` requires); the callers filter NaN first, see `Model/FreeSpace.lean`.
-/

namespace Hrm

/-- `hrm::Interval`, include/hrm/datastructure/Interval.h:19-68 (fields `start_`, `end_`). -/
structure Interval (α : Type*) where
  s : α
  e : α
  deriving DecidableEq, Repr

/-- The sorts used by Interval.cpp:19-20, 45-46, 76-77 (by start) and 48-49 (by end), and by
FreeSpace-inl.h:165-170 (plain values): any legal `std::sort`. -/
structure StdSort (α : Type*) [LinearOrder α] where
  byStart : SortBy (fun a b : Interval α => a.s < b.s)
  byEnd : SortBy (fun a b : Interval α => a.e < b.e)
  vals : SortBy (fun a b : α => a < b)

/-- The contract is satisfiable: insertion sort. -/
def StdSort.ins (α : Type*) [LinearOrder α] : StdSort α where
  byStart := SortBy.ofKey Interval.s
  byEnd := SortBy.ofKey Interval.e
  vals := SortBy.ofKey id

namespace Interval

variable {α : Type*} [LinearOrder α]

/-- Loop body Interval.cpp:24-28. `acc` is the vector `res` reversed (its head is `res.back()`).
The first case is unreachable: `res` is non-empty from line 22 on. -/
def mergeStep (acc : List (Interval α)) (el : Interval α) : List (Interval α) :=
  match acc with
  | [] => [el]
  | b :: bs => if b.e < el.s then el :: b :: bs else { b with e := max b.e el.e } :: bs

/-- Interval.cpp:22-31: `res` starts with the first element, then *all* elements (the first one
again) are merged in. -/
def mergeSorted (l : List (Interval α)) : List (Interval α) :=
  match l with
  | [] => []
  | x :: xs => ((x :: xs).foldl mergeStep [x]).reverse

/-- `Interval::unions`, Interval.cpp:10-32. -/
def unions (S : StdSort α) (ins : List (Interval α)) : List (Interval α) :=
  if ins.isEmpty then [] else mergeSorted (S.byStart.run ins)

/-- `Interval::intersects`, Interval.cpp:34-58. The second sort is applied to the already sorted
copy (line 48). `back()`/`front()` are on non-empty vectors; the last case is unreachable. -/
def intersects (S : StdSort α) (ins : List (Interval α)) : List (Interval α) :=
  if ins.isEmpty then []
  else
    let c1 := S.byStart.run ins
    let c2 := S.byEnd.run c1
    match c1.getLast?, c2.head? with
    | some l, some f => if l.s > f.e then [] else [⟨l.s, f.e⟩]
    | _, _ => []

/-- The gaps between consecutive inner intervals and after the last one, Interval.cpp:81-84. -/
def gaps (dmax : α) : List (Interval α) → List (Interval α)
  | [] => []
  | [x] => [⟨x.e, dmax⟩]
  | x :: y :: ys => ⟨x.e, y.s⟩ :: gaps dmax (y :: ys)

/-- `comp`, Interval.cpp:80-84 (the first entry reaches from `-DBL_MAX`). -/
def compOf (dmin dmax : α) : List (Interval α) → List (Interval α)
  | [] => []
  | x :: xs => ⟨dmin, x.s⟩ :: gaps dmax (x :: xs)

/-- `Interval::complements`, Interval.cpp:60-100; loop 87-97 intersects every gap with
`outer.at(0)` and keeps the first (only) interval of a non-empty result. -/
def complements (S : StdSort α) (dmin dmax : α) (outer inner : List (Interval α)) :
    List (Interval α) :=
  match outer with
  | [] => []
  | o :: os =>
    if inner.isEmpty then o :: os
    else (compOf dmin dmax (S.byStart.run inner)).filterMap
      (fun curr => (intersects S [curr, o]).head?)

end Interval
end Hrm
