import Verif.Spec.Interval
import Verif.Model.FreeSpace

/-!
# Specification vocabulary for free segments
-/

namespace Hrm

variable {K : Type*} [LinearOrder K]

/-- The pairs of a table row in which neither entry is NaN. -/
def pairs (lo up : List (Option K)) : List (Interval K) :=
  (lo.zip up).filterMap fun p =>
    match p with
    | (some l, some u) => some ⟨l, u⟩
    | _ => none

/-- `x` is an interior point of the point set covered by `l`: a whole neighbourhood `[a,b]` of `x` is
covered. -/
def InteriorPt (l : List (Interval K)) (x : K) : Prop :=
  ∃ a b, a < x ∧ x < b ∧ ∀ y, a ≤ y → y ≤ b → y ∈ cover l

/-- A row of low/middle/upper lists is aligned with respect to the free segments `ivs`: the three
lists are the projections of one list of triples, each ordered low ≤ middle ≤ upper and contained in
one free segment. -/
def AlignedIn (ivs : List (Interval K)) (r : SegRow K) : Prop :=
  ∃ T : List (K × K × K), r.L = T.map (·.1) ∧ r.M = T.map (·.2.1) ∧ r.U = T.map (·.2.2) ∧
    ∀ t ∈ T, t.1 ≤ t.2.1 ∧ t.2.1 ≤ t.2.2 ∧ ∃ iv ∈ ivs, iv.s ≤ t.1 ∧ t.2.2 ≤ iv.e

/-- All rows of the four tables exist for `n` lines and have the widths `na` / `no`. -/
structure Table.Shape (t : Table K) (n na no : Nat) : Prop where
  al : t.arenaLow.length = n
  au : t.arenaUpp.length = n
  ol : t.obsLow.length = n
  ou : t.obsUpp.length = n
  ral : ∀ r ∈ t.arenaLow, r.length = na
  rau : ∀ r ∈ t.arenaUpp, r.length = na
  rol : ∀ r ∈ t.obsLow, r.length = no
  rou : ∀ r ∈ t.obsUpp, r.length = no

/-- Row `i` of the table is usable: the four rows exist, match in width, the obstacle pairs are valid
intervals and the arena pairs are within the representable range. -/
structure Table.RowOk (t : Table K) (dmin dmax : K) (i : ℕ) (al au ol ou : List (Option K)) :
    Prop where
  hal : t.arenaLow[i]? = some al
  hau : t.arenaUpp[i]? = some au
  hol : t.obsLow[i]? = some ol
  hou : t.obsUpp[i]? = some ou
  la : al.length = au.length
  lo : ol.length = ou.length
  arena : ∀ iv ∈ pairs al au, dmin ≤ iv.s ∧ iv.e ≤ dmax
  obs : ∀ iv ∈ pairs ol ou, iv.Valid

/-- The nearest point of the interval `[l,u]` to `m`. -/
def clamp (m l u : K) : K := max l (min m u)

end Hrm
