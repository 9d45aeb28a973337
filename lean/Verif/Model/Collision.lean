import Verif.Model.Ompl

/-!
# Model of the collision objects handed to FCL

src/util/EllipsoidSQCollisionFCL.cpp, src/geometry/MeshGenerator.cpp:16-103, and the object setup of
`HRM3DAblation` and `OMPL3D`.

Libraries as parameters: `cgal` is the constructor of `CGAL::Triangulation_3` (what its finite-vertex and finite-cell
iterators deliver), `collide` is `fcl::collide` followed by `isCollision()`.
-/

namespace Hrm

open Matrix

/-- `struct Mesh`, MeshGenerator.h:16-22: points and triangles, the latter as three point numbers. -/
structure TriMesh where
  vertices : List (Fin 3 → ℝ)
  triangles : List (ℕ × ℕ × ℕ)

/-- What the iterators of a `CGAL::Triangulation_3` deliver. Simplification: a cell's vertex handles are replaced by
the numbers `vertexIdx` assigns to them (MeshGenerator.cpp:43-62), their positions in the vertex iteration. -/
structure Cells where
  points : List (Fin 3 → ℝ)
  cells : List (ℕ × ℕ × ℕ × ℕ)

/-- The four triangles emitted for a cell, MeshGenerator.cpp:72-83. -/
def cellFaces (c : ℕ × ℕ × ℕ × ℕ) : List (ℕ × ℕ × ℕ) :=
  [(c.1, c.2.1, c.2.2.1), (c.1, c.2.2.1, c.2.2.2), (c.2.1, c.2.2.1, c.2.2.2), (c.1, c.2.1, c.2.2.2)]

/-- `getMesh`, MeshGenerator.cpp:28-89: the points are pushed to the *front* of the list given to CGAL.
Simplification: `ParametricPoints` (three coordinate lists of one length) is a list of points. -/
def getMesh (cgal : List (Fin 3 → ℝ) → Cells) (points : List (Fin 3 → ℝ)) : TriMesh :=
  let T := cgal (points.foldl (fun L p => p :: L) [])
  ⟨T.points, T.cells.flatMap cellFaces⟩

/-- `sqAux` of `getMeshFromSQ`, MeshGenerator.cpp:17-19: the same shape at the origin, unturned. -/
def SuperQuadrics.aux (Q : SuperQuadrics) : SuperQuadrics :=
  { Q with pos := ![0, 0, 0], quat := (1, 0, 0, 0) }

/-- `getMeshFromSQ` with `getBoundary3D` and `getBoundaryFromMatrix`, MeshGenerator.cpp:16-26 and 91-103. -/
noncomputable def getMeshFromSQ (cgal : List (Fin 3 → ℝ) → Cells) (Q : SuperQuadrics) : TriMesh :=
  getMesh cgal Q.aux.originShape

/-- The geometry of an `fcl::CollisionObject`: an ellipsoid with its half lengths, or a triangle mesh. -/
inductive Geom where
  | ellipsoid (a b c : ℝ)
  | mesh (m : TriMesh)

/-- `setCollisionObjectFromSQ(SuperQuadrics)`, EllipsoidSQCollisionFCL.cpp:55-75. -/
noncomputable def collisionObject3 (cgal : List (Fin 3 → ℝ) → Cells) (Q : SuperQuadrics) : Geom :=
  open Classical in
  if |Q.e1 - 1| < 1 / 10 ^ 6 ∧ |Q.e2 - 1| < 1 / 10 ^ 6 then .ellipsoid Q.a Q.b Q.c
  else .mesh (getMeshFromSQ cgal Q)

/-- The robot part of `setCollisionObject`, OMPL3D.cpp:92-106 and HRM3DAblation-inl.h:82-92: always an ellipsoid. -/
def robotObject3 (Q : SuperQuadrics) : Geom := .ellipsoid Q.a Q.b Q.c

/-- The obstacle part of `setCollisionObject`, OMPL3D.cpp:108-117 and HRM3DAblation-inl.h:95-105. -/
noncomputable def obstacleObject3 (cgal : List (Fin 3 → ℝ) → Cells) (Q : SuperQuadrics) : Geom :=
  open Classical in
  if |Q.e1 - 1| < 1 / 10 ^ 6 ∧ |Q.e2 - 1| < 1 / 10 ^ 6 then .ellipsoid Q.a Q.b Q.c
  else collisionObject3 cgal Q

/-- `objAux` of `setCollisionObjectFromSQ(SuperEllipse)`, EllipsoidSQCollisionFCL.cpp:88-91. -/
noncomputable def SuperEllipse.aux (E : SuperEllipse) : SuperQuadrics :=
  ⟨E.a, E.b, 1 / 10, E.eps, 1 / 10, ![0, 0, 0], (1, 0, 0, 0), 10⟩

/-- `setCollisionObjectFromSQ(SuperEllipse)`, EllipsoidSQCollisionFCL.cpp:77-98. -/
noncomputable def collisionObject2 (cgal : List (Fin 3 → ℝ) → Cells) (E : SuperEllipse) : Geom :=
  open Classical in
  if |E.eps - 1| < 1 / 10 ^ 6 then .ellipsoid E.a E.b (1 / 10) else .mesh (getMeshFromSQ cgal E.aux)

/-- `isCollision` for superquadrics, EllipsoidSQCollisionFCL.cpp:7-25. -/
noncomputable def isCollision3 (collide : Geom → Pose 3 → Geom → Pose 3 → Bool) (A : SuperQuadrics) (oA : Geom)
    (B : SuperQuadrics) (oB : Geom) : Bool :=
  collide oA ⟨quatRot A.quat, ![A.pos 0, A.pos 1, A.pos 2]⟩ oB ⟨quatRot B.quat, ![B.pos 0, B.pos 1, B.pos 2]⟩

/-- The quaternion of `Eigen::AngleAxis(th, (0,0,1))`. -/
noncomputable def zTurn (th : ℝ) : Quat := (Real.cos (th / 2), 0, 0, Real.sin (th / 2))

/-- `isCollision` for superellipses, EllipsoidSQCollisionFCL.cpp:27-53. -/
noncomputable def isCollision2 (collide : Geom → Pose 3 → Geom → Pose 3 → Bool) (A : SuperEllipse) (oA : Geom)
    (B : SuperEllipse) (oB : Geom) : Bool :=
  collide oA ⟨quatRot (zTurn A.ang), ![A.px, A.py, 1 / 10]⟩ oB ⟨quatRot (zTurn B.ang), ![B.px, B.py, 1 / 10]⟩

end Hrm
