import Verif.Model.Basic
import Mathlib.Analysis.Real.Sqrt

/-!
# Model of the 3D line / triangle / mesh routines

src/geometry/LineIntersection.cpp:7-171, src/geometry/MeshGenerator.cpp:105-131 and the 3D checks of
src/planners/HRM3D.cpp:319-365, 394-425. Exact real arithmetic.
-/

namespace Hrm

open Classical

/-- The tolerance of the line/triangle test, LineIntersection.cpp:129. -/
noncomputable def triTol : ℝ := 1 / 10 ^ 12

/-- The tolerance of the axis-parallel test, LineIntersection.cpp:23. -/
noncomputable def axisTol : ℝ := 1 / 10 ^ 6

/-- `Eigen::Vector3d`. -/
@[ext] structure V3 where
  x : ℝ
  y : ℝ
  z : ℝ

namespace V3
/-- componentwise operations of Eigen -/
noncomputable def add (a b : V3) : V3 := ⟨a.x + b.x, a.y + b.y, a.z + b.z⟩
noncomputable def sub (a b : V3) : V3 := ⟨a.x - b.x, a.y - b.y, a.z - b.z⟩
noncomputable def smul (c : ℝ) (a : V3) : V3 := ⟨c * a.x, c * a.y, c * a.z⟩
/-- `a.dot(b)` -/
noncomputable def dot (a b : V3) : ℝ := a.x * b.x + a.y * b.y + a.z * b.z
/-- `a.cross(b)` -/
noncomputable def cross (a b : V3) : V3 :=
  ⟨a.y * b.z - a.z * b.y, a.z * b.x - a.x * b.z, a.x * b.y - a.y * b.x⟩
/-- `a.norm()` -/
noncomputable def norm (a : V3) : ℝ := Real.sqrt (a.dot a)
/-- `a.normalize()`: Eigen divides by the norm only when the squared norm is positive. -/
noncomputable def normalize (a : V3) : V3 := if 0 < a.dot a then smul (1 / a.norm) a else a
end V3

/-- `Line3D`: origin (entries 0-2) and direction (entries 3-5). -/
structure Line3 where
  o : V3
  d : V3

/-- `intersectLineTriangle3D`, LineIntersection.cpp:126-171; `tol` is the constant `1e-12` of line 129.
`some pt` = returned true with the out parameter `pt` (which no caller reads after `false`). -/
noncomputable def lineTriangle (tol : ℝ) (line : Line3) (t0 u v : V3) : Option V3 :=
  let n := (u.cross v).normalize
  let a := -(n.dot (line.o.sub t0))
  let b := n.dot line.d
  if ¬ (|b| > tol ∧ n.norm > tol) then none
  else
    let pt := line.o.add (V3.smul (a / b) line.d)
    let uu := u.dot u
    let uv := u.dot v
    let vv := v.dot v
    let wu := u.dot (pt.sub t0)
    let wv := v.dot (pt.sub t0)
    let D := uv ^ 2 - uu * vv
    let s := (uv * wv - vv * wu) / D
    if s < -tol ∨ s > 1 + tol then none
    else
      let t := (uv * wu - uu * wv) / D
      if t < -tol ∨ s + t > 1 + tol then none else some pt

/-- `MeshMatrix`: vertices (columns) and faces (rows of three vertex numbers; the code stores them as
doubles and casts to int, all meshes of the code base hold non-negative integers). -/
structure Mesh where
  vertices : List V3
  faces : List (ℕ × ℕ × ℕ)

/-- The three corners of a face, `shape.vertices.col(int(shape.faces(i, k)))`; out of range is
undefined behaviour. -/
def Mesh.corners (m : Mesh) (f : ℕ × ℕ × ℕ) : Res (V3 × V3 × V3) :=
  (Res.idx m.vertices f.1).bind fun a =>
  (Res.idx m.vertices f.2.1).bind fun b =>
  (Res.idx m.vertices f.2.2).bind fun c => .ok (a, b, c)

/-- One face, LineIntersection.cpp:38-47 (and 107-119). -/
noncomputable def faceHit (tol : ℝ) (line : Line3) (c : V3 × V3 × V3) : Option V3 :=
  lineTriangle tol line c.1 (c.2.1.sub c.1) (c.2.2.sub c.1)

/-- Quick check of LineIntersection.cpp:82-105: the vertical line is outside the x- or y-range of the
face. -/
def faceOutOfRange (line : Line3) (c : V3 × V3 × V3) : Prop :=
  line.o.x < min c.1.x (min c.2.1.x c.2.2.x) ∨ line.o.x > max c.1.x (max c.2.1.x c.2.2.x) ∨
  line.o.y < min c.1.y (min c.2.1.y c.2.2.y) ∨ line.o.y > max c.1.y (max c.2.1.y c.2.2.y)

/-- The loops LineIntersection.cpp:36-51 (`skip` = never) and 80-121 (`skip` = quick check): scan the
faces in order, collect hits, stop after two. -/
noncomputable def scanFaces (tol : ℝ) (skip : Line3 → V3 × V3 × V3 → Prop) (line : Line3) (m : Mesh) :
    List (ℕ × ℕ × ℕ) → List V3 → Res (List V3)
  | [], pts => .ok pts
  | f :: fs, pts =>
    (m.corners f).bind fun c =>
      if skip line c then scanFaces tol skip line m fs pts
      else
        let pts' := match faceHit tol line c with
          | some p => pts ++ [p]
          | none => pts
        if pts'.length = 2 then .ok pts' else scanFaces tol skip line m fs pts'

/-- `maxCoeff`/`minCoeff` range test for one coordinate (`get`), LineIntersection.cpp:24-25, 60-67. -/
def outOfRange (get : V3 → ℝ) (x : ℝ) (vs : List V3) : Prop :=
  (∀ v ∈ vs, get v < x) ∨ (∀ v ∈ vs, x < get v)

/-- `intersectLineMesh3D`, LineIntersection.cpp:7-54; `axisTol` is the constant `1e-6` of line 23. The
range test is stated directly (`x > maxCoeff` iff all coordinates are below). Eigen's `maxCoeff` on an
empty matrix is undefined behaviour. -/
noncomputable def lineMesh (tol axisTol : ℝ) (line : Line3) (m : Mesh) : Res (List V3) :=
  if m.vertices = [] then .ub
  else if (|line.d.x| < axisTol ∧ outOfRange V3.x line.o.x m.vertices) ∨
      (|line.d.y| < axisTol ∧ outOfRange V3.y line.o.y m.vertices) ∨
      (|line.d.z| < axisTol ∧ outOfRange V3.z line.o.z m.vertices) then .ok []
  else scanFaces tol (fun _ _ => False) line m m.faces []

/-- `intersectVerticalLineMesh3D`, LineIntersection.cpp:56-124. -/
noncomputable def vertLineMesh (tol : ℝ) (line : Line3) (m : Mesh) : Res (List V3) :=
  if m.vertices = [] then .ub
  else if outOfRange V3.x line.o.x m.vertices ∨ outOfRange V3.y line.o.y m.vertices then .ok []
  else scanFaces tol faceOutOfRange line m m.faces []

/-- The vertical sweep line through `(x, y)`, FreeSpace3D.cpp:33-34 (`z0` = 0) and HRM3D.cpp:397-398. -/
def vertical (x y z0 : ℝ) : Line3 := ⟨⟨x, y, z0⟩, ⟨0, 0, 1⟩⟩

/-- `q` of `getMeshFromParamSurface`, MeshGenerator.cpp:110-118: for each `i < n-1` the numbers
`i*n, ..., (i+1)*n - 2` (`LinSpaced` with n-1 points between integers at distance n-2). -/
def gridQ (n : ℕ) : List ℕ :=
  (List.range (n - 1)).flatMap fun i => (List.range (n - 1)).map fun j => i * n + j

/-- The faces of `getMeshFromParamSurface`, MeshGenerator.cpp:120-128 (`n ≥ 1`; for `n = 0` the unsigned
`n - 1` wraps, not modelled). -/
def gridFaces (n : ℕ) : List (ℕ × ℕ × ℕ) :=
  (gridQ n).map (fun q => (q, q + n, q + n + 1)) ++ (gridQ n).map (fun q => (q, q + 1, q + n + 1))

/-- `getMeshFromParamSurface`, MeshGenerator.cpp:105-131. -/
def gridMesh (surf : List V3) (n : ℕ) : Mesh := ⟨surf, gridFaces n⟩

/-- One obstacle of `HRM3D::isSameSliceTransitionFree`, HRM3D.cpp:331-357: `.ok true` = blocked. -/
noncomputable def segHitsMesh (tol axisTol : ℝ) (t1 t2 : V3) (obs : Mesh) : Res Bool :=
  (lineMesh tol axisTol ⟨t1, (t2.sub t1).normalize⟩ obs).bind fun pts =>
    if pts.isEmpty then .ok false
    else
      (Res.idx pts 0).bind fun p0 =>
      (Res.idx pts 1).bind fun p1 =>
        .ok (decide (((p0.sub t1).dot (p0.sub t2) < 0) ∨ ((p1.sub t1).dot (p1.sub t2) < 0)))

/-- `!std::any_of(...)` over a range whose predicate may fail: stops at the first `true`. -/
def noneOf {β : Type*} (p : β → Res Bool) : List β → Res Bool
  | [] => .ok true
  | b :: bs => (p b).bind fun h => if h then .ok false else noneOf p bs

/-- `HRM3D::isSameSliceTransitionFree`, HRM3D.cpp:319-365. -/
noncomputable def sameSliceFree3D (tol axisTol : ℝ) (obstacles : List Mesh) (t1 t2 : V3) : Res Bool :=
  noneOf (segHitsMesh tol axisTol t1 t2) obstacles

/-- One boundary of `HRM3D::isPtInCFree`, HRM3D.cpp:404-417. -/
noncomputable def ptInObs3D (tol : ℝ) (v : V3) (bound : Mesh) : Res Bool :=
  (vertLineMesh tol (vertical v.x v.y v.z) bound).bind fun pts =>
    if pts.isEmpty then .ok false
    else
      (Res.idx pts 0).bind fun p0 =>
      (Res.idx pts 1).bind fun p1 =>
        .ok (decide (v.z > min p0.z p1.z ∧ v.z < max p0.z p1.z))

/-- `HRM3D::isPtInCFree`, HRM3D.cpp:394-425, for the meshes `bridgeSliceBound_.at(bdIdx)`. -/
noncomputable def isPtInCFree3D (tol : ℝ) (v : V3) (bounds : List Mesh) : Res Bool :=
  noneOf (ptInObs3D tol v) bounds

end Hrm
