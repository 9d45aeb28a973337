import Verif.Model.Demo

/-!
# Model of `storeRoutines`

include/hrm/test/util/DisplayPlanningData-inl.h:11-68, `HRM3D::getFreeSegmentOneSlice` (HRM3D.h:36-42) and the last line
of the programs demo/DemoHRMRigidBodyPlanning3D.cpp (61) and demo/DemoProbHRMArticulatedBodyPlanning3D.cpp (61-62).

`prM` is Eigen's output of a 3xN matrix, given by its columns; `pr` is the output of a `double`. The files are written
through `Files.put` (Model/Demo.lean): a file that is opened holds what is written until it is closed; an exception or
undefined behaviour in between ends the program.
-/

namespace Hrm

/-- `HRM3D::getFreeSegmentOneSlice`, HRM3D.h:36-42: mesh the boundary (with the planner's arena and obstacles,
FreeSpace3D.cpp:14-27) and run the sweep-line process. -/
noncomputable def Planner3.freeSegmentOneSlice (L : Libs3) (P : Planner3) (b : Bound3) :
    Res (Planner3 × List (ℝ × FreeSeg)) :=
  (cspaceMesh P.arena P.obs b).bind fun m => (({ P.fs with mesh := m } : Fs3).sweep L P.par).bind fun r =>
  .ok ({ P with fs := r.1, sliceBound := b, sliceMesh := m }, r.2)

/-- The boundary of one group of surfaces, DisplayPlanningData-inl.h:26-31, 40-45: each matrix, then a line end. -/
def boundText (prM : List (Fin 3 → ℝ) → List Char) (bs : List (List (Fin 3 → ℝ))) : List Char :=
  bs.flatMap fun b => prM b ++ ['\n']

/-- One line of the file of segments, DisplayPlanningData-inl.h:58-62 (all accesses unchecked). -/
noncomputable def segEntry (pr : ℝ → List Char) (x y : ℝ) (r : SegRow ℝ) (k : ℕ) : Res (List Char) :=
  (Res.idx r.L k).bind fun l => (Res.idx r.M k).bind fun m => (Res.idx r.U k).bind fun u =>
  .ok (writeRow pr [x, y, l, m, u])

/-- The loop over `k < xM[j].size()`, DisplayPlanningData-inl.h:56-63. -/
noncomputable def segLineText (pr : ℝ → List Char) (x : ℝ) (s : FreeSeg) (acc : List Char) (j : ℕ) : Res (List Char) :=
  (Res.idx s.ty j).bind fun y => (Res.idx s.rows j).bind fun r =>
  (List.range r.M.length).foldlM (fun (acc : List Char) k => (segEntry pr x y r k).bind fun t => .ok (acc ++ t)) acc

/-- The loops over `i < tx.size()` and `j < ty.size()`, DisplayPlanningData-inl.h:54-65. -/
noncomputable def segText (pr : ℝ → List Char) (segs : List (ℝ × FreeSeg)) : Res (List Char) :=
  segs.foldlM (fun (acc : List Char) p => (List.range p.2.ty.length).foldlM (segLineText pr p.1 p.2) acc) []

/-- `storeRoutines`, DisplayPlanningData-inl.h:11-68. The planner's own change by `getFreeSegmentOneSlice` is dropped:
the programs do not use the planner afterwards. -/
noncomputable def storeRoutines (L : Libs3) (pr : ℝ → List Char) (prM : List (Fin 3 → ℝ) → List Char) (D : Dirs)
    (suffix : List Char) (P : Planner3) (fs : Files) : Res Files :=
  let fs := fs.put (outFile D "origin_bound".toList suffix)
    (boundText prM (P.obs.map (·.originShape)) ++ boundText prM (P.arena.map (·.originShape)))
  (Res.at' P.sliceBoundAll 0).bind fun b =>
  let fs := fs.put (outFile D "mink_bound".toList suffix) (boundText prM b.obstacle ++ boundText prM b.arena)
  (P.freeSegmentOneSlice L b).bind fun r =>
  (segText pr r.2).bind fun t => .ok (fs.put (outFile D "segment".toList suffix) t)

/-- The whole program DemoHRMRigidBodyPlanning3D.cpp:9-65. -/
noncomputable def mainHRM3D (L : Libs3) (V : Variant) (stof : List Char → Scan) (pr : ℝ → List Char)
    (prN : Option ℝ → List Char) (prM : List (Fin 3 → ℝ) → List Char) (D : Dirs) (T : Task) (quatFile : List Char)
    (num : ℕ) (suffix : List Char) (clock : ℕ → ℝ) (timeLim : ℝ) (fuel : ℕ) (fs : Files) : Option (Res Files) :=
  match setupDemo3 stof pr D T quatFile num fs with
  | .ok (fs, P) => (Planner3.plan L V clock timeLim fuel (freshRep3 P)).map fun x => x.bind fun r =>
    storeRoutines L pr prM D suffix r.st
      (storePath pr prN D suffix r.st.res.pathId r.solvedPath r.interpolated (storeGraph pr D suffix r.st.graph fs))
  | .throw => some .throw
  | .ub => some .ub

/-- The whole program DemoProbHRMArticulatedBodyPlanning3D.cpp:9-65. -/
noncomputable def mainProb3D (L : Libs3) (urdf : Option (List Char) → Option UrdfModel)
    (getQuat : Matrix (Fin 3) (Fin 3) ℝ → Quat) (stof : List Char → Scan) (pr : ℝ → List Char)
    (prN : Option ℝ → List Char) (prM : List (Fin 3 → ℝ) → List Char) (D : Dirs) (T : Task) (rigid : Bool) (num : ℕ)
    (suffix : List Char) (clock : ℕ → ℝ) (timeLim : ℝ) (fuel : ℕ) (fs : Files) : Option (Res Files) :=
  match setupProb3 stof pr D T rigid num fs with
  | .ok (fs, P) =>
    let A := armOf getQuat (parseURDF (urdf (fs (urdfFile D T.robot))))
    (Planner3.planProb L ⟨some A, none⟩ A clock timeLim fuel (freshRep3 P)).map fun x => x.bind fun r =>
    storeRoutines L pr prM D suffix r.st
      (storePath pr prN D suffix r.st.res.pathId r.solvedPath r.interpolated (storeGraph pr D suffix r.st.graph fs))
  | .throw => some .throw
  | .ub => some .ub

end Hrm
