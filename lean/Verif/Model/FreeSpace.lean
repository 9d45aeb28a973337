import Verif.Model.Interval
import Mathlib.Algebra.Order.Field.Basic

/-!
# Model of `hrm::FreeSpaceComputator` (include/hrm/datastructure/FreeSpace.h, FreeSpace-inl.h),
`FreeSpace2D::computeIntersectionInterval` and `FreeSpace3D::computeIntersectionInterval`

Coordinates are elements of an ordered field `K` (exact arithmetic); a possibly-NaN coordinate is
`Option K` with `none` = NaN. A line/boundary intersection routine is a parameter `isect`; it is
instantiated in `Model/Polygon.lean` (2D) and `Model/Mesh.lean` (3D).
-/

namespace Hrm

/-- `IntersectionInterval`, FreeSpace.h:14-26 (`none` = NaN). -/
structure Table (K : Type*) where
  arenaLow : List (List (Option K))
  arenaUpp : List (List (Option K))
  obsLow : List (List (Option K))
  obsUpp : List (List (Option K))
  deriving Repr, DecidableEq

/-- `std::vector::resize(n, v)`: truncate, or append copies of `v`. -/
def vresize {β : Type*} (l : List β) (n : Nat) (v : β) : List β :=
  l.take n ++ List.replicate (n - l.length) v

/-- `FreeSpaceComputator::setup`, FreeSpace-inl.h:20-39, on the current table.
`numArena = (1 + numLinks) * arena.size()`, `numObs` alike (lines 25-28). -/
def setupTable {K : Type*} (t : Table K) (numLine numArena numObs : Nat) (lowB upB : K) : Table K where
  arenaLow := vresize t.arenaLow numLine (List.replicate numArena (some lowB))
  arenaUpp := vresize t.arenaUpp numLine (List.replicate numArena (some upB))
  obsLow := vresize t.obsLow numLine (List.replicate numObs none)
  obsUpp := vresize t.obsUpp numLine (List.replicate numObs none)

/-- The freshly constructed object (no rows). -/
def emptyTable (K : Type*) : Table K := ⟨[], [], [], []⟩

section order
variable {K : Type*} [LinearOrder K]

/-- Loop body FreeSpace-inl.h:109-113 and 116-120: entry `j` of row `i`, kept only if neither bound
is NaN (`.at` throws when a row or an entry is missing; `upp` is only read when `low` is not NaN). -/
def rowStep (lo : List (Option K)) (upp : List (List (Option K))) (i : Nat)
    (acc : List (Interval K)) (j : Nat) : Res (List (Interval K)) :=
  (Res.at' lo j).bind fun
    | none => .ok acc
    | some l => (Res.at' upp i).bind fun up => (Res.at' up j).bind fun
      | none => .ok acc
      | some u => .ok (acc ++ [⟨l, u⟩])

/-- Loops FreeSpace-inl.h:108-114 and 115-121: collect the non-NaN pairs of row `i`. -/
def rowIntervals (low upp : List (List (Option K))) (i : Nat) : Res (List (Interval K)) := do
  let lo ← Res.at' low i
  (List.range lo.length).foldlM (rowStep lo upp i) []

/-- `computeSweepLineFreeSegment`, FreeSpace-inl.h:100-129. -/
def sweepLineFree (S : StdSort K) (dmin dmax : K) (t : Table K) (i : Nat) :
    Res (List (Interval K)) := do
  let arenaSeg ← rowIntervals t.arenaLow t.arenaUpp i
  let obsSeg ← rowIntervals t.obsLow t.obsUpp i
  .ok (Interval.complements S dmin dmax (Interval.intersects S arenaSeg) (Interval.unions S obsSeg))

/-- One sweep line of `FreeSegment2D` (FreeSpace.h:29-41): the lists `xL[i]`, `xU[i]`, `xM[i]`.
Simplification: the three outer vectors always have one entry per line (they are filled together,
FreeSpace-inl.h:89-91), so they are one list of rows; the three inner lists stay separate. -/
structure SegRow (K : Type*) where
  L : List K
  U : List K
  M : List K
  deriving Repr, DecidableEq

/-- push `p` to `xU[i]`, `xL[i]` and `xM[i]` (e.g. FreeSpace-inl.h:141-143). -/
def SegRow.push (r : SegRow K) (p : K) : SegRow K := ⟨r.L ++ [p], r.U ++ [p], r.M ++ [p]⟩

/-- The two `if … else if …` of one direction (FreeSpace-inl.h:139-149): look at segment `j1` of
`a` and segment `j2` of `b`, possibly push a bound of `b`'s segment into `a`. -/
def enhanceOne (a b : SegRow K) (j1 j2 : Nat) : Res (SegRow K) := do
  let m ← Res.idx a.M j1
  let bl ← Res.idx b.L j2
  let au ← Res.idx a.U j1
  if m < bl ∧ bl ≤ au then .ok (a.push bl)
  else do
    let bu ← Res.idx b.U j2
    let al ← Res.idx a.L j1
    if bu < m ∧ al ≤ bu then .ok (a.push bu) else .ok a

/-- Loop body FreeSpace-inl.h:139-161: rows `i` (`a`) and `i+1` (`b`); the second direction sees the
row `a` already extended by the first. -/
def enhancePair (ab : SegRow K × SegRow K) (j1 j2 : Nat) : Res (SegRow K × SegRow K) := do
  let a ← enhanceOne ab.1 ab.2 j1 j2
  let b ← enhanceOne ab.2 a j2 j1
  .ok (a, b)

/-- Loops over `j1 < n1`, `j2 < n2`, FreeSpace-inl.h:137-163 (`n1`, `n2` are the sizes of the
*unmodified* `segment_.xM[i]`, `segment_.xM[i+1]`). -/
def enhanceLoop (n1 n2 : Nat) (ab : SegRow K × SegRow K) : Res (SegRow K × SegRow K) :=
  (List.range n1).foldlM (fun ab j1 => (List.range n2).foldlM (fun ab j2 => enhancePair ab j1 j2) ab) ab

/-- FreeSpace-inl.h:165-170: the three lists of the row are sorted separately. -/
def SegRow.sort (S : StdSort K) (r : SegRow K) : SegRow K :=
  ⟨S.vals.run r.L, S.vals.run r.U, S.vals.run r.M⟩

/-- The loop over `i`, FreeSpace-inl.h:136-171: `n1` is the original size of the current row `a`
(which may have been extended by the previous iteration), the next row is still unmodified.
The last row is never sorted. -/
def enhanceRows (S : StdSort K) : Nat → SegRow K → List (SegRow K) → Res (List (SegRow K))
  | _, a, [] => .ok [a]
  | n1, a, b :: rest => do
    let ab ← enhanceLoop n1 b.M.length (a, b)
    let rest' ← enhanceRows S b.M.length ab.2 rest
    .ok (ab.1.sort S :: rest')

/-- `enhanceFreeSegment`, FreeSpace-inl.h:132-174. For an empty list of lines `ty.size() - 1` wraps
around and `segment_.xM[0]` is read out of bounds: undefined behaviour. -/
def enhance (S : StdSort K) : List (SegRow K) → Res (List (SegRow K))
  | [] => .ub
  | a :: rest => enhanceRows S a.M.length a rest

end order

section field
variable {K : Type*} [Field K] [LinearOrder K]

/-- FreeSpace-inl.h:80-88: low, upper and middle coordinates of the free intervals of a line. -/
def rowOf (ivs : List (Interval K)) : SegRow K :=
  ⟨ivs.map (·.s), ivs.map (·.e), ivs.map (fun iv => (iv.s + iv.e) / 2)⟩

/-- FreeSpace-inl.h:65-92: the rows before enhancement, for `n = ty.size()` lines. -/
def freeRows (S : StdSort K) (dmin dmax : K) (t : Table K) (n : Nat) : Res (List (SegRow K)) :=
  (List.range n).foldlM (fun rows i => do
    let ivs ← sweepLineFree S dmin dmax t i
    .ok (rows ++ [rowOf ivs])) []

/-- `computeFreeSegment`, FreeSpace-inl.h:63-97; `n = ty.size()` (the y-coordinates themselves are
only stored, line 71). -/
def computeFreeSegment (S : StdSort K) (dmin dmax : K) (t : Table K) (n : Nat) :
    Res (List (SegRow K)) := do
  let rows ← freeRows S dmin dmax t n
  enhance S rows

end field

section fill
variable {K : Type*} [LinearOrder K] {Line Shape : Type*}

/-- `tab.at(i).at(j) = v`. -/
def setAt2 {β : Type*} (tab : List (List β)) (i j : Nat) (v : β) : Res (List (List β)) :=
  match tab[i]? with
  | none => .throw
  | some row => if j < row.length then .ok (tab.set i (row.set j v)) else .throw

/-- Arena entry, FreeSpace2D.cpp:19-31 and FreeSpace3D.cpp:37-51 (`pts` = first coordinate / z of
the intersection points; indexing `[1]` past the end is undefined behaviour). `fmin`/`fmax` of
non-NaN values. Returns (low, upp). -/
def arenaEntry (lowB upB : K) (pts : List K) : Res (K × K) :=
  if pts.isEmpty then .ok (lowB, upB)
  else do
    let p0 ← Res.idx pts 0
    let p1 ← Res.idx pts 1
    .ok (min lowB (min p0 p1), max upB (max p0 p1))

/-- Obstacle entry, FreeSpace2D.cpp:36-47 and FreeSpace3D.cpp:54-65; NaN when there is no
intersection. -/
def obsEntry (pts : List K) : Res (Option K × Option K) :=
  if pts.isEmpty then .ok (none, none)
  else do
    let p0 ← Res.idx pts 0
    let p1 ← Res.idx pts 1
    .ok (some (min p0 p1), some (max p0 p1))

/-- Inner loop over the arena boundaries (`j` from `j0`), FreeSpace2D.cpp:18-32. -/
def fillArena (isect : Line → Shape → List K) (lowB upB : K) (y : Line) (i : Nat) :
    Nat → List Shape → Table K → Res (Table K)
  | _, [], t => .ok t
  | j, sh :: shs, t => do
    let v ← arenaEntry lowB upB (isect y sh)
    let lo ← setAt2 t.arenaLow i j (some v.1)
    let up ← setAt2 t.arenaUpp i j (some v.2)
    fillArena isect lowB upB y i (j + 1) shs { t with arenaLow := lo, arenaUpp := up }

/-- Inner loop over the obstacle boundaries, FreeSpace2D.cpp:35-48. -/
def fillObs (isect : Line → Shape → List K) (y : Line) (i : Nat) :
    Nat → List Shape → Table K → Res (Table K)
  | _, [], t => .ok t
  | j, sh :: shs, t => do
    let v ← obsEntry (isect y sh)
    let lo ← setAt2 t.obsLow i j v.1
    let up ← setAt2 t.obsUpp i j v.2
    fillObs isect y i (j + 1) shs { t with obsLow := lo, obsUpp := up }

/-- `computeIntersectionInterval`, FreeSpace2D.cpp:14-50 and FreeSpace3D.cpp:29-68: for every sweep
line `i` fill row `i` for all arena and all obstacle boundaries. (`i` starts at `i0`.) -/
def fillLines (isect : Line → Shape → List K) (lowB upB : K) (arena obs : List Shape) :
    Nat → List Line → Table K → Res (Table K)
  | _, [], t => .ok t
  | i, y :: ys, t => do
    let t ← fillArena isect lowB upB y i 0 arena t
    let t ← fillObs isect y i 0 obs t
    fillLines isect lowB upB arena obs (i + 1) ys t

end fill
end Hrm
