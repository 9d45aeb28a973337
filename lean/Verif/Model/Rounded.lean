import Verif.Model.Planner2D

/-!
# The planar sweep in rounded arithmetic

The same C++ functions as in `Model/Polygon.lean`, `Model/FreeSpace.lean` and `Model/Planner2D.lean`, with every arithmetic
operation followed by the rounding function `fl`, in the order in which the C++ code writes the operations (no fused
multiply-add, no extended precision). Comparisons, minima, maxima and copies are exact in floating point, so the functions
that do nothing else (`fillLines`, `sweepLineFree`, `enhance`) are used as they are. Overflow is not modelled.
-/

namespace Hrm

variable (fl : ℝ → ℝ)

/-- Loop body LineIntersection.cpp:238-244 for one edge, rounded. If the rounded difference of the heights is zero the
quotient is NaN or infinite and nothing is pushed. -/
noncomputable def horizEdgeF (ty : ℝ) (e : Pt ℝ × Pt ℝ) : Option ℝ :=
  if min e.1.2 e.2.2 ≤ ty ∧ ty ≤ max e.1.2 e.2.2 then
    if fl (e.1.2 - e.2.2) = 0 then none
    else
      let t := fl (fl (ty - e.2.2) / fl (e.1.2 - e.2.2))
      if 0 ≤ t ∧ t ≤ 1 then some (fl (fl (t * e.1.1) + fl (fl (1 - t) * e.2.1))) else none
  else none

/-- `intersectHorizontalLinePolygon2D`, LineIntersection.cpp:215-248, rounded (for an empty boundary see `isect2D`). -/
noncomputable def isect2DF (ty : ℝ) (shape : List (Pt ℝ)) : List ℝ :=
  match shape with
  | [] => []
  | p :: ps =>
    if ty > maxCoeff p.2 (ps.map (·.2)) ∨ ty < minCoeff p.2 (ps.map (·.2)) then []
    else (edgesOf (p :: ps)).filterMap (horizEdgeF fl ty)

/-- The middle of a free interval, FreeSpace-inl.h:87, rounded. -/
noncomputable def midF (iv : Interval ℝ) : ℝ := fl (fl (iv.s + iv.e) / 2)

/-- FreeSpace-inl.h:80-88, rounded. -/
noncomputable def rowOfF (ivs : List (Interval ℝ)) : SegRow ℝ := ⟨ivs.map (·.s), ivs.map (·.e), ivs.map (midF fl)⟩

/-- FreeSpace-inl.h:65-92, rounded. -/
noncomputable def freeRowsF (S : StdSort ℝ) (dmin dmax : ℝ) (t : Table ℝ) (n : Nat) : Res (List (SegRow ℝ)) :=
  (List.range n).foldlM (fun rows i => do
    let ivs ← sweepLineFree S dmin dmax t i
    .ok (rows ++ [rowOfF fl ivs])) []

/-- `computeFreeSegment`, FreeSpace-inl.h:63-97, rounded. -/
noncomputable def computeFreeSegmentF (S : StdSort ℝ) (dmin dmax : ℝ) (t : Table ℝ) (n : Nat) : Res (List (SegRow ℝ)) := do
  let rows ← freeRowsF fl S dmin dmax t n
  enhance S rows

/-- The whole planar pipeline for one slice, FreeSpace-inl.h:20-39, FreeSpace2D.cpp:14-50 and FreeSpace-inl.h:63-97,
rounded. -/
noncomputable def sweep2DF (S : StdSort ℝ) (dmin dmax lowB upB : ℝ) (arena obs : List (List (Pt ℝ))) (ys : List ℝ) :
    Res (List (SegRow ℝ)) := do
  let t ← fillLines (isect2DF fl) lowB upB arena obs 0 ys
    (setupTable (emptyTable ℝ) ys.length arena.length obs.length lowB upB)
  computeFreeSegmentF fl S dmin dmax t ys.length

/-- One boundary of `HRM2D::isPtInCFree`, HRM2D.cpp:271-278, rounded: `.ok true` = blocked. -/
noncomputable def ptInObs2DF (v : Pt ℝ) (bound : List (Pt ℝ)) : Res Bool :=
  if (isect2DF fl v.2 bound).isEmpty then .ok false
  else
    (Res.idx (isect2DF fl v.2 bound) 0).bind fun p0 =>
    (Res.idx (isect2DF fl v.2 bound) 1).bind fun p1 =>
      .ok (decide (v.1 > min p0 p1 ∧ v.1 < max p0 p1))

/-- `HRM2D::isPtInCFree`, HRM2D.cpp:267-282, rounded. -/
noncomputable def isPtInCFree2DF (v : Pt ℝ) : List (List (Pt ℝ)) → Res Bool
  | [] => .ok true
  | b :: bs => (ptInObs2DF fl v b).bind fun hit => if hit then .ok false else isPtInCFree2DF v bs

/-- The heights of the sweep lines, HRM2D.cpp:55-61, rounded (the number of lines is converted exactly). -/
noncomputable def linesF (yLo yHi : ℝ) (n : ℕ) : List ℝ :=
  (List.range n).map fun i : ℕ => fl (yLo + fl ((i : ℝ) * fl (fl (yHi - yLo) / ((n : ℝ) - 1))))

end Hrm
