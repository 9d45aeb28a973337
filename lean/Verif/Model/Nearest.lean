import Verif.Model.Roadmap

/-!
# Model of the nearest-neighbour queries on the roadmap

src/planners/HRM2D.cpp:284-342, src/planners/HRM3D.cpp:443-508.
-/

namespace Hrm

open Classical

/-- "Search for k-nn C-slices", HRM2D.cpp:307-316 and HRM3D.cpp:467-476: elements passing the test are
collected; the loop breaks as soon as `k` have been collected (tested after each element). -/
noncomputable def collectK {β : Type*} (close : β → Prop) (k : ℕ) : List β → List β → List β
  | acc, [] => acc
  | acc, b :: rest =>
    let acc' := if close b then acc ++ [b] else acc
    if k ≤ acc'.length then acc' else collectK close k acc' rest

/-- The closest vertex of one slice, HRM2D.cpp:323-332 and HRM3D.cpp:483-497: `same v` is the test whether
`v` lies in the slice (evaluated only when the distance test succeeds). The state is
(`minEuclideanDist`, `idxSlice`). -/
noncomputable def closestInSlice (same : Vec → Res Bool) (q : Vec) :
    List Vec → ℕ → Option ℝ × ℕ → Res (Option ℝ × ℕ)
  | [], _, s => .ok s
  | v :: rest, i, s =>
    (vectorEuclidean q v).bind fun d =>
    (if ltInf d s.1 then same v else .ok false).bind fun b =>
    closestInSlice same q rest (i + 1) (if b then (some d, i) else s)

/-- `EPSILON`, include/hrm/datastructure/DataType.h. -/
noncomputable def epsilon : ℝ := 1 / 10 ^ 6

/-- The heading of the roadmap vertex closest in heading, HRM2D.cpp:290-305 (pair: `minAngleDist`,
`minAngle`). -/
noncomputable def closestHeading (verts : List Vec) (qa : ℝ) : Res (ℝ × ℝ) :=
  (Res.idx verts 0).bind fun v0 => (Res.idx v0 2).bind fun a0 =>
  verts.foldlM (fun (s : ℝ × ℝ) v => (Res.idx v 2).bind fun a =>
    .ok (if |qa - a| < s.1 then (|qa - a|, a) else s)) (|qa - a0|, a0)

/-- One iteration of HRM2D.cpp:320-340. `gap` is `radius * (bl[1] - bl[0]) / numLineY`. -/
noncomputable def nearestStep2D (verts : List Vec) (q : Vec) (gap : ℝ) (idx : List ℕ) (ang : ℝ) :
    Res (List ℕ) :=
  (Res.idx verts 0).bind fun v0 => (vectorEuclidean q v0).bind fun d0 =>
  (closestInSlice (fun v => (Res.idx v 2).bind fun a => .ok (decide (|a - ang| < epsilon))) q verts 0
    (some d0, 0)).bind fun s =>
  (Res.idx q 1).bind fun y => (Res.idx verts s.2).bind fun v => (Res.idx v 1).bind fun vy =>
  .ok (if |y - vy| < gap then idx ++ [s.2] else idx)

/-- `HRM2D::getNearestNeighborsOnGraph`, HRM2D.cpp:284-342. -/
noncomputable def nearest2D (headings : List ℝ) (verts : List Vec) (q : Vec) (k : ℕ) (radius gap : ℝ) :
    Res (List ℕ) :=
  (Res.idx verts 0).bind fun v0 => (Res.idx v0 2).bind fun _ => (Res.idx q 2).bind fun qa =>
  (closestHeading verts qa).bind fun m =>
  (collectK (fun h => |m.2 - h| < radius) k [] headings).foldlM (nearestStep2D verts q gap) []

/-- A quaternion `(w, x, y, z)`. -/
abbrev Quat := ℝ × ℝ × ℝ × ℝ

/-- `Eigen::Quaterniond(v[3], v[4], v[5], v[6])`. -/
noncomputable def quatOf (v : Vec) : Res Quat :=
  (Res.idx v 3).bind fun w => (Res.idx v 4).bind fun x => (Res.idx v 5).bind fun y =>
  (Res.idx v 6).bind fun z => .ok (w, x, y, z)

/-- HRM3D.cpp:455-464: `minQuat` is declared without a value (`none`) and set only when an orientation is
*strictly* closer than `q_[0]`. `ang` is Eigen's `angularDistance`. -/
noncomputable def closestQuat (ang : Quat → Quat → ℝ) (qs : List Quat) (qq : Quat) :
    Res (ℝ × Option Quat) :=
  (Res.idx qs 0).bind fun q0 =>
  .ok (qs.foldl (fun s q => if ang qq q < s.1 then (ang qq q, some q) else s) (ang qq q0, none))

/-- One iteration of HRM3D.cpp:480-505. -/
noncomputable def nearestStep3D (ang : Quat → Quat → ℝ) (verts : List Vec) (q : Vec) (gapX gapY : ℝ)
    (idx : List ℕ) (cur : Quat) : Res (List ℕ) :=
  (closestInSlice (fun v => (quatOf v).bind fun r => .ok (decide (ang cur r < epsilon))) q verts 0
    (none, 0)).bind fun s =>
  (Res.idx q 0).bind fun x => (Res.idx verts s.2).bind fun v => (Res.idx v 0).bind fun vx =>
  (Res.idx q 1).bind fun y => (Res.idx v 1).bind fun vy =>
  .ok (if |x - vx| < gapX ∧ |y - vy| < gapY then idx ++ [s.2] else idx)

/-- `HRM3D::getNearestNeighborsOnGraph`, HRM3D.cpp:443-508: using `minQuat` while it is uninitialised is
undefined behaviour. -/
noncomputable def nearest3D (ang : Quat → Quat → ℝ) (qs : List Quat) (verts : List Vec) (q : Vec) (k : ℕ)
    (radius gapX gapY : ℝ) : Res (List ℕ) :=
  (quatOf q).bind fun qq => (closestQuat ang qs qq).bind fun m =>
  match m.2 with
  | none => .ub
  | some mq =>
    (collectK (fun r => ang mq r < radius) k [] qs).foldlM (nearestStep3D ang verts q gapX gapY) []

end Hrm
