import Verif.Model.Shape
import Mathlib.Analysis.SpecialFunctions.Trigonometric.Inverse

/-!
# Model of the interpolation of poses
(src/util/InterpolateSE3.cpp, src/planners/HRM3D.cpp:271-299)

Coordinates of the given configurations are real numbers; computed coordinates are `Option ℝ`, where `none`
is NaN (the only non-finite value that can arise here).
-/

namespace Hrm

/-- `static_cast<double>(i) * dt` with `dt = 1.0 / numStep`. For `numStep = 0` the loops only run with `i = 0`
and the value is `0 * inf` = NaN. -/
noncomputable def stepFrac (numStep i : ℕ) : Option ℝ :=
  if numStep = 0 then none else some (i * (1 / (numStep : ℝ)))

/-- `(1.0 - t) * a + t * b`. -/
noncomputable def lerp (t : Option ℝ) (a b : ℝ) : Option ℝ := t.map fun t => (1 - t) * a + t * b

/-- One step of `interpolateRn`, InterpolateSE3.cpp:111-116. -/
noncomputable def rnStep (vStart vEnd : Vec) (t : Option ℝ) : Res (List (Option ℝ)) :=
  (List.range vStart.length).foldlM (fun st j =>
    ((Res.idx vStart j).bind fun a => (Res.idx vEnd j).bind fun b => .ok (lerp t a b)).bind fun x =>
      .ok (st ++ [x])) []

/-- `interpolateRn`, InterpolateSE3.cpp:104-122. -/
noncomputable def interpolateRn (vStart vEnd : Vec) (numStep : ℕ) : Res (List (List (Option ℝ))) :=
  (List.range (numStep + 1)).foldlM (fun acc i =>
    (rnStep vStart vEnd (stepFrac numStep i)).bind fun st => .ok (acc ++ [st])) []

/-- Dot product of quaternions as vectors of `ℝ⁴`. -/
def Quat.dot (p q : Quat) : ℝ :=
  p.1 * q.1 + p.2.1 * q.2.1 + p.2.2.1 * q.2.2.1 + p.2.2.2 * q.2.2.2

/-- `a * p.coeffs() + b * q.coeffs()`. -/
def Quat.comb (a : ℝ) (p : Quat) (b : ℝ) (q : Quat) : Quat :=
  (a * p.1 + b * q.1, a * p.2.1 + b * q.2.1, a * p.2.2.1 + b * q.2.2.1, a * p.2.2.2 + b * q.2.2.2)

/-- `1 - NumTraits<double>::epsilon()` in Eigen's `slerp`. -/
noncomputable def slerpOne : ℝ := 1 - 1 / 2 ^ 52

/-- Eigen's `QuaternionBase::slerp(t, other)` for a finite `t` (Eigen/src/Geometry/Quaternion.h). -/
noncomputable def slerp (qa : Quat) (t : ℝ) (qb : Quat) : Quat :=
  let d := Quat.dot qa qb
  let s : ℝ × ℝ :=
    if slerpOne ≤ |d| then (1 - t, t)
    else
      let th := Real.arccos |d|
      (Real.sin ((1 - t) * th) / Real.sin th, Real.sin (t * th) / Real.sin th)
  Quat.comb s.1 qa (if d < 0 then -s.2 else s.2) qb

/-- `interpolateSlerp`, InterpolateSE3.cpp:89-102. A NaN parameter makes all four coefficients NaN, written
`none`. -/
noncomputable def interpolateSlerp (qa qb : Quat) (numStep : ℕ) : List (Option Quat) :=
  (List.range (numStep + 1)).map fun i => (stepFrac numStep i).map fun t => slerp qa t qb

/-- `vInterp.push_back({x, y, z, q.w(), q.x(), q.y(), q.z()})`, InterpolateSE3.cpp:21-24. -/
def poseRow (tr : List (Option ℝ)) (q : Option Quat) : Res (List (Option ℝ)) :=
  (Res.idx tr 0).bind fun x => (Res.idx tr 1).bind fun y => (Res.idx tr 2).bind fun z =>
  .ok [x, y, z, q.map (·.1), q.map (·.2.1), q.map (·.2.2.1), q.map (·.2.2.2)]

/-- `{v[0], v[1], v[2]}`. -/
def transOf (v : Vec) : Res Vec :=
  (Res.idx v 0).bind fun x => (Res.idx v 1).bind fun y => (Res.idx v 2).bind fun z => .ok [x, y, z]

/-- `interpolateSE3`, InterpolateSE3.cpp:5-29. -/
noncomputable def interpolateSE3 (vStart vEnd : Vec) (numStep : ℕ) : Res (List (List (Option ℝ))) :=
  (quatOf vStart).bind fun qa => (quatOf vEnd).bind fun qb =>
  let quats := interpolateSlerp qa qb numStep
  (transOf vStart).bind fun ta => (transOf vEnd).bind fun tb =>
  (interpolateRn ta tb numStep).bind fun trans =>
  (List.range (numStep + 1)).foldlM (fun acc i =>
    ((Res.idx trans i).bind fun tr => (Res.idx quats i).bind fun q => poseRow tr q).bind fun row =>
      .ok (acc ++ [row])) []

/-- `interpolateCompoundSE3Rn`, InterpolateSE3.cpp:31-65. The first `if` only initialises the result: the
rest of the function runs for `numStep = 0` too. `begin() + 7` of a shorter vector is undefined. -/
noncomputable def interpolateCompound (vStart vEnd : Vec) (numStep : ℕ) : Res (List (List (Option ℝ))) :=
  let init : List (List (Option ℝ)) := if numStep = 0 then [vStart.map some, vEnd.map some] else []
  if vStart.length = 7 then interpolateSE3 vStart vEnd numStep
  else if vStart.length < 7 ∨ vEnd.length < 7 then .ub
  else
    (interpolateSE3 (vStart.take 7) (vEnd.take 7) numStep).bind fun se3 =>
    (interpolateRn (vStart.drop 7) (vEnd.drop 7) numStep).bind fun rn =>
    (List.range (numStep + 1)).foldlM (fun acc i =>
      ((Res.at' se3 i).bind fun a => (Res.at' rn i).bind fun b => (.ok (a ++ b) : Res _)).bind fun row =>
        .ok (acc ++ [row])) init

/-- `static_cast<int>(dist / distanceStep)` with `distanceStep = cost / den`, HRM3D.cpp:277-287, in IEEE
arithmetic: `cost / 0` is infinite (then the quotient is 0) or NaN, a zero `distanceStep` gives an infinite
quotient or NaN; converting NaN, an infinity or a value outside of `int` is undefined. A negative value (only
for a negative cost) becomes a huge `size_t`; this is written `ub` too. -/
noncomputable def stepCount (cost den dist : ℝ) : Res ℕ :=
  if den = 0 then (if cost = 0 then .ub else .ok 0)
  else if cost / den = 0 then .ub
  else
    let x := dist / (cost / den)
    if x < 0 ∨ (2 : ℝ) ^ 31 ≤ x then .ub else .ok ⌊x⌋₊

/-- `HRM3D::getInterpolatedSolutionPath(num)`, HRM3D.cpp:271-299, on the solved path and its cost. An empty
path makes `size() - 1` wrap around and `at(0)` throw. -/
noncomputable def interpolatedPath3D (path : List Vec) (cost : ℝ) (num : ℕ) : Res (List (List (Option ℝ))) :=
  if path.length = 0 then .throw
  else
    (List.range (path.length - 1)).foldlM (fun acc i =>
      (Res.at' path i).bind fun v => (Res.at' path (i + 1)).bind fun w =>
      (vectorEuclidean v w).bind fun d =>
      (stepCount cost (num * ((path.length : ℝ) - 1)) d).bind fun n =>
      (interpolateCompound v w n).bind fun steps => .ok (acc ++ steps)) []

end Hrm
