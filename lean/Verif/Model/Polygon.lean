import Verif.Model.FreeSpace

/-!
# Model of the 2D line intersection routines (src/geometry/LineIntersection.cpp:173-248) and of the 2D
checks built on them (src/planners/HRM2D.cpp:215-232, 267-282)

A boundary (`Eigen::Matrix2Xd`, one column per vertex) is the list of its vertices. Exact arithmetic
in an ordered field `K`.
-/

namespace Hrm

section
variable {K : Type*}

/-- A point of the plane. -/
abbrev Pt (K : Type*) := K × K

/-- The edges visited by LineIntersection.cpp:224-236 / 187-196: column `i` to column `i+1`, the last
column back to column `0`. -/
def edgesOf : List (Pt K) → List (Pt K × Pt K)
  | [] => []
  | p :: ps => (p :: ps).zip (ps ++ [p])

variable [Field K] [LinearOrder K]

/-- Eigen's `maxCoeff` of a row (non-empty). -/
def maxCoeff : K → List K → K := List.foldl max
/-- Eigen's `minCoeff` of a row (non-empty). -/
def minCoeff : K → List K → K := List.foldl min

/-- Loop body LineIntersection.cpp:238-244 for one edge. When `y1 = y2` (and `ty` equal to them) the
division is 0/0 = NaN, both comparisons of line 241 are false and nothing is pushed. -/
def horizEdge (ty : K) (e : Pt K × Pt K) : Option K :=
  if min e.1.2 e.2.2 ≤ ty ∧ ty ≤ max e.1.2 e.2.2 then
    if e.1.2 - e.2.2 = 0 then none
    else
      let t := (ty - e.2.2) / (e.1.2 - e.2.2)
      if 0 ≤ t ∧ t ≤ 1 then some (t * e.1.1 + (1 - t) * e.2.1) else none
  else none

/-- `intersectHorizontalLinePolygon2D`, LineIntersection.cpp:215-248. `maxCoeff` of an empty matrix
(line 220) is undefined behaviour. -/
def horizLinePolygon (ty : K) (shape : List (Pt K)) : Res (List K) :=
  match shape with
  | [] => .ub
  | p :: ps =>
    if ty > maxCoeff p.2 (ps.map (·.2)) ∨ ty < minCoeff p.2 (ps.map (·.2)) then .ok []
    else .ok ((edgesOf (p :: ps)).filterMap (horizEdge ty))

/-- The intersection routine plugged into `FreeSpace2D::computeIntersectionInterval`
(FreeSpace2D.cpp:19-20, 36-38); boundaries are never empty there (every boundary has as many columns
as the shape has sample points), so the undefined case is not propagated. -/
def isect2D (ty : K) (shape : List (Pt K)) : List K :=
  match horizLinePolygon ty shape with
  | .ok l => l
  | _ => []

/-- Eigen's `colPivHouseholderQr().solve(b)` for a 2x2 matrix `[a b; c d]` (LineIntersection.cpp:205),
as a contract: exact solution when non-singular; for a singular matrix the basic solution, whose
non-pivot component is set to zero (Eigen sets the components beyond the non-zero pivots to 0). -/
structure QrSolve (K : Type*) [Field K] where
  solve : (a b c d r0 r1 : K) → K × K
  regular : ∀ a b c d r0 r1, a * d - b * c ≠ 0 →
    a * (solve a b c d r0 r1).1 + b * (solve a b c d r0 r1).2 = r0 ∧
    c * (solve a b c d r0 r1).1 + d * (solve a b c d r0 r1).2 = r1
  singular : ∀ a b c d r0 r1, a * d - b * c = 0 →
    (solve a b c d r0 r1).1 = 0 ∨ (solve a b c d r0 r1).2 = 0

/-- Loop body LineIntersection.cpp:188-209 for one edge of the polygon. -/
def segEdge (Q : QrSolve K) (p1 p2 : Pt K) (e : Pt K × Pt K) : Bool :=
  let sol := Q.solve (p2.1 - p1.1) (e.1.1 - e.2.1) (p2.2 - p1.2) (e.1.2 - e.2.2)
    (e.1.1 - p1.1) (e.1.2 - p1.2)
  decide ((sol.1 > 0 ∧ sol.1 < 1) ∧ (sol.2 > 0 ∧ sol.2 < 1))

/-- `isIntersectSegPolygon2D`, LineIntersection.cpp:173-213 (the two end points given by their first
two coordinates). -/
def segPolygon (Q : QrSolve K) (p1 p2 : Pt K) (shape : List (Pt K)) : Bool :=
  (edgesOf shape).any (segEdge Q p1 p2)

/-- `HRM2D::isSameSliceTransitionFree`, HRM2D.cpp:215-232: only the obstacle boundaries of the slice
are tested. -/
def sameSliceFree2D (Q : QrSolve K) (obstacles : List (List (Pt K))) (v1 v2 : Pt K) : Bool :=
  !(obstacles.any (segPolygon Q v1 v2))

/-- One boundary of `HRM2D::isPtInCFree`, HRM2D.cpp:271-278: `.ok true` = blocked. -/
def ptInObs2D (v : Pt K) (bound : List (Pt K)) : Res Bool :=
  (horizLinePolygon v.2 bound).bind fun pts =>
    if pts.isEmpty then .ok false
    else
      (Res.idx pts 0).bind fun p0 =>
      (Res.idx pts 1).bind fun p1 =>
        .ok (decide (v.1 > min p0 p1 ∧ v.1 < max p0 p1))

/-- `HRM2D::isPtInCFree`, HRM2D.cpp:267-282, for the boundaries `bridgeSliceBound_.at(bdIdx)`. -/
def isPtInCFree2D (v : Pt K) : List (List (Pt K)) → Res Bool
  | [] => .ok true
  | b :: bs => (ptInObs2D v b).bind fun hit => if hit then .ok false else isPtInCFree2D v bs

end
end Hrm
