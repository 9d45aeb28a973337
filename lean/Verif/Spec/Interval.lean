import Verif.Model.Interval
import Mathlib.Data.Set.Basic

/-!
# Specification vocabulary for intervals (independent of the algorithms)
-/

namespace Hrm

variable {α : Type*} [LinearOrder α]

/-- The closed point set of an interval. -/
def Interval.pts (i : Interval α) : Set α := {x | i.s ≤ x ∧ x ≤ i.e}

/-- The points covered by a list of intervals. -/
def cover (l : List (Interval α)) : Set α := {x | ∃ i ∈ l, x ∈ i.pts}

/-- Start does not exceed end. -/
def Interval.Valid (i : Interval α) : Prop := i.s ≤ i.e

/-- Listed in increasing order with a gap between any two of them. -/
def Separated (l : List (Interval α)) : Prop := l.Pairwise (fun a b => a.e < b.s)

end Hrm
