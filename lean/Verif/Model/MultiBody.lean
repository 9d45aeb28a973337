import Verif.Model.Shape
import Mathlib.Analysis.SpecialFunctions.Complex.Arg

/-!
# Model of the multi-body robots
(include/hrm/datastructure/MultiBodyTree.h, src/datastructure/MultiBodyTree2D.cpp, MultiBodyTree3D.cpp)

A homogeneous transformation (`SE2Transform`, `SE3Transform`) is modelled by its upper rows: rotation part
and translation part. The last row of every transformation stored in `tf_` is `(0, …, 0, 1)`
(`setIdentity` in addBody), so the upper rows of a product depend only on the upper rows of the factors.
-/

namespace Hrm

open Matrix

/-- Upper rows of a homogeneous matrix. -/
structure Pose (n : ℕ) where
  rot : Matrix (Fin n) (Fin n) ℝ
  pos : Fin n → ℝ

/-- Upper rows of the product of two homogeneous matrices. -/
def Pose.mul {n : ℕ} (g h : Pose n) : Pose n := ⟨g.rot * h.rot, g.rot *ᵥ h.pos + g.pos⟩

/-- `Eigen::Rotation2Dd(M).angle()`: `atan2(M(1,0), M(0,0))` (`fromRotationMatrix`). -/
noncomputable def matAngle (M : Matrix (Fin 2) (Fin 2) ℝ) : ℝ := Complex.arg ⟨M 0 0, M 1 0⟩

/-- Eigen's conversion of a 3x3 matrix to a quaternion (Shoemake's method). -/
noncomputable def matQuat (M : Matrix (Fin 3) (Fin 3) ℝ) : Quat :=
  let tr := M 0 0 + M 1 1 + M 2 2
  if 0 < tr then
    let t := Real.sqrt (tr + 1)
    let s := (1 / 2) / t
    (1 / 2 * t, (M 2 1 - M 1 2) * s, (M 0 2 - M 2 0) * s, (M 1 0 - M 0 1) * s)
  else
    let i : Fin 3 := if M 1 1 > M 0 0 then 1 else 0
    let i : Fin 3 := if M 2 2 > M i i then 2 else i
    let j := i + 1
    let k := j + 1
    let t := Real.sqrt (M i i - M j j - M k k + 1)
    let s := (1 / 2) / t
    let q : Fin 3 → ℝ := fun l =>
      if l = i then 1 / 2 * t else if l = j then (M j i + M i j) * s else (M k i + M i k) * s
    ((M k j - M j k) * s, q 0, q 1, q 2)

/-- `MultiBodyTree<SuperEllipse, SE2Transform>`, MultiBodyTree.h:51-62. -/
structure Tree2 where
  base : SuperEllipse
  numLinks : ℕ
  link : List SuperEllipse
  tf : List (Pose 2)

namespace Tree2

/-- The constructor, MultiBodyTree.h:16 and MultiBodyTree2D.cpp:5-6. -/
def new (base : SuperEllipse) : Tree2 := ⟨base, 0, [], []⟩

/-- `addBody`, MultiBodyTree2D.cpp:10-22. -/
noncomputable def addBody (T : Tree2) (l : SuperEllipse) : Tree2 :=
  { T with link := T.link ++ [l], numLinks := T.numLinks + 1, tf := T.tf ++ [⟨rot2 l.ang, ![l.px, l.py]⟩] }

/-- `setPosition`, `setAngle` from a transformation, MultiBodyTree2D.cpp:26-29 and 36-39. -/
noncomputable def place (E : SuperEllipse) (g : Pose 2) : SuperEllipse :=
  { E with px := g.pos 0, py := g.pos 1, ang := matAngle g.rot }

/-- `robotTF`, MultiBodyTree2D.cpp:24-41. -/
noncomputable def robotTF (T : Tree2) (g : Pose 2) : Res Tree2 :=
  (List.range T.numLinks).foldlM (fun (T : Tree2) i =>
    (Res.at' T.tf i).bind fun t => (Res.at' T.link i).bind fun l =>
      .ok { T with link := T.link.set i (place l (g.mul t)) }) { T with base := place T.base g }

/-- One link of `minkSum`, MultiBodyTree2D.cpp:55-61. -/
noncomputable def minkLink (T : Tree2) (s1 : SuperEllipse) (k : ℤ) (i : ℕ) : Res (List (Fin 2 → ℝ)) :=
  (Res.at' T.link i).bind fun l => (Res.at' T.tf i).bind fun t =>
    let aux : SuperEllipse := { l with ang := matAngle (rot2 T.base.ang * t.rot) }
    let tc := rot2 T.base.ang *ᵥ t.pos
    .ok ((s1.minkSum2D aux k).map fun p => p - tc)

/-- `minkSum`, MultiBodyTree2D.cpp:43-65. -/
noncomputable def minkSum (T : Tree2) (s1 : SuperEllipse) (k : ℤ) : Res (List (List (Fin 2 → ℝ))) :=
  (List.range T.numLinks).foldlM (fun acc i => (T.minkLink s1 k i).bind fun b => .ok (acc ++ [b]))
    [s1.minkSum2D T.base k]

end Tree2

/-- `MultiBodyTree<SuperQuadrics, SE3Transform>`, MultiBodyTree.h:51-62. -/
structure Tree3 where
  base : SuperQuadrics
  numLinks : ℕ
  link : List SuperQuadrics
  tf : List (Pose 3)

namespace Tree3

/-- The constructor, MultiBodyTree.h:16 and MultiBodyTree3D.cpp:5-6. -/
def new (base : SuperQuadrics) : Tree3 := ⟨base, 0, [], []⟩

/-- `getBodyShapes`, MultiBodyTree3D.cpp:10-19. -/
def bodyShapes (T : Tree3) : List SuperQuadrics := T.base :: T.link

/-- `addBody`, MultiBodyTree3D.cpp:21-32. -/
noncomputable def addBody (T : Tree3) (l : SuperQuadrics) : Tree3 :=
  { T with link := T.link ++ [l], numLinks := T.numLinks + 1, tf := T.tf ++ [⟨quatRot l.quat, l.pos⟩] }

/-- `setPosition`, `setQuaternion` from a transformation, MultiBodyTree3D.cpp:36-40 and 47-51. -/
noncomputable def place (E : SuperQuadrics) (g : Pose 3) : SuperQuadrics :=
  { E with pos := g.pos, quat := matQuat g.rot }

/-- The loop of both `robotTF` versions, MultiBodyTree3D.cpp:34-53 and 63-89: `fk i` is the transformation
between base and link frame `i` (`kdl.getTransform(joints, "body" + (i+1))`; the identity for the rigid
version). -/
noncomputable def robotTFWith (T : Tree3) (g : Pose 3) (fk : ℕ → Pose 3) : Res Tree3 :=
  (List.range T.numLinks).foldlM (fun (T : Tree3) i =>
    (Res.at' T.tf i).bind fun t => (Res.at' T.link i).bind fun l =>
      .ok { T with link := T.link.set i (place l ((g.mul (fk i)).mul t)) }) { T with base := place T.base g }

/-- `robotTF(g)`, MultiBodyTree3D.cpp:34-53. -/
noncomputable def robotTF (T : Tree3) (g : Pose 3) : Res Tree3 :=
  (List.range T.numLinks).foldlM (fun (T : Tree3) i =>
    (Res.at' T.tf i).bind fun t => (Res.at' T.link i).bind fun l =>
      .ok { T with link := T.link.set i (place l (g.mul t)) }) { T with base := place T.base g }

/-- One link of `minkSum`, MultiBodyTree3D.cpp:99-101. -/
noncomputable def minkLink (T : Tree3) (s1 : SuperQuadrics) (k : ℤ) (i : ℕ) : Res (List (Fin 3 → ℝ)) :=
  (Res.at' T.link i).bind fun l => .ok ((s1.minkSum3D l k).map fun p => p - l.pos)

/-- `minkSum`, MultiBodyTree3D.cpp:91-105. -/
noncomputable def minkSum (T : Tree3) (s1 : SuperQuadrics) (k : ℤ) : Res (List (List (Fin 3 → ℝ))) :=
  (List.range T.numLinks).foldlM (fun acc i => (T.minkLink s1 k i).bind fun b => .ok (acc ++ [b]))
    [s1.minkSum3D T.base k]

end Tree3
end Hrm
