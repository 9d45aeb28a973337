import Verif.Spec.Planner3D

/-!
# Specification vocabulary for the incremental spatial planner (`ProbHRM3D`)
-/

namespace Hrm

open Matrix

/-- The orientation and the joint angles the incremental planner uses for its slice `i`: those of the start, those of
the goal, then the random ones in the order they are drawn. -/
noncomputable def probSample (L : Libs3) (A : Arm) (start goal : Vec) : ℕ → Quat × Vec
  | 0 => (quatPart start, (start.drop 7).take A.nJ)
  | 1 => (quatPart goal, (goal.drop 7).take A.nJ)
  | i + 2 => (L.rand i, (List.range A.nJ).map (L.randJoint i))

/-- The configuration of the robot at the origin with that orientation and those joint angles. -/
noncomputable def probConf (L : Libs3) (A : Arm) (start goal : Vec) (i : ℕ) : Vec :=
  conf7 0 0 0 (probSample L A start goal i).1 ++ (probSample L A start goal i).2

/-- What the vertices of slice `i` have after their position: the orientation (converted to a matrix and back) and the
joint angles. -/
noncomputable def probTail (L : Libs3) (A : Arm) (start goal : Vec) (i : ℕ) : Vec :=
  let q := matQuat (quatRot (probSample L A start goal i).1)
  [q.1, q.2.1, q.2.2.1, q.2.2.2] ++ (probSample L A start goal i).2

/-- Slice `j` is the earlier slice whose configuration is nearest to that of slice `i`; of several, the first. -/
def NearestEarlier (c : ℕ → Vec) (i j : ℕ) : Prop :=
  j < i ∧ (∀ t < i, euclid (c i) (c j) ≤ euclid (c i) (c t)) ∧ ∀ t < j, euclid (c i) (c j) < euclid (c i) (c t)

/-- The check of a motion from `v1` to `v2` between slices with configurations `ci` and `cj`: ellipsoids enclosing the
bodies on the way from `ci` to `cj`, obstacles grown by them, and the point test at every step of the motion. -/
noncomputable def probCheck (L : Libs3) (V : Variant) (A : Arm) (robot : Tree3) (obs : List SuperQuadrics) (np : ℕ)
    (ci cj v1 v2 : Vec) : Res Bool :=
  (computeTFEProb L A np robot ci cj).bind fun tfe =>
  multiFree3 V obs np (match V.fcl with | none => bridgeSlice3 obs tfe | some _ => []) robot v1 v2

/-- The states after `k` returning passes of the planning loop from `P0`: a slice is added, then the roadmap is
searched; the loop goes on only while no path has been found. -/
inductive ProbReach (L : Libs3) (V : Variant) (A : Arm) (P0 : Planner3) : ℕ → Planner3 → Prop
  | start : ProbReach L V A P0 0 P0
  | pass {k : ℕ} {P P1 P2 : Planner3} (h : ProbReach L V A P0 k P)
      (h0 : P.res.solved = false) (h1 : P.addSlice L V A = .ok P1) (h2 : P1.search L = .ok P2) : ProbReach L V A P0 (k + 1) P2

/-- A vertex of slice `i`: a sample of a sweep line, or a configuration inserted between two of them by the same-slice
check. -/
def ProbVertex (L : Libs3) (A : Arm) (start goal : Vec) (obstacles : List Mesh) (segs : List (ℝ × FreeSeg)) (i : ℕ)
    (v : Vec) : Prop :=
  SliceSample (probTail L A start goal i) segs v ∨
  BridgeOf (sameFree3 obstacles) (SliceSample (probTail L A start goal i) segs) v

/-- Why the step from `a` to `b` is in the roadmap after `k` slices: both belong to one slice, one of them is a sample of
a sweep line, and the same-slice check against the obstacle meshes accepted the step; or `b` belongs to some slice and `a`
to its nearest earlier slice, in x and in y they are at most two line distances (extent by number of lines) apart, and the
check made for these two slices accepted the step; or they are neighbouring free intervals of one sweep line of some
slice. -/
def ProbStep (L : Libs3) (V : Variant) (A : Arm) (robot : Tree3) (obs : List SuperQuadrics) (par : Param3) (start goal : Vec)
    (obstacles : List Mesh) (segs : List (ℝ × FreeSeg)) (k : ℕ) (a b : Vec) : Prop :=
  (∃ i < k, ProbVertex L A start goal obstacles segs i a ∧ ProbVertex L A start goal obstacles segs i b ∧
    (SliceSample (probTail L A start goal i) segs a ∨ SliceSample (probTail L A start goal i) segs b) ∧
    sameFree3 obstacles a b = .ok true) ∨
  (∃ i j, i < k ∧ NearestEarlier (probConf L A start goal) i j ∧
    ProbVertex L A start goal obstacles segs j a ∧ ProbVertex L A start goal obstacles segs i b ∧
    CloseIn 0 (2 * (par.xHi - par.xLo) / par.numLineX) a b ∧ CloseIn 1 (2 * (par.yHi - par.yLo) / par.numLineY) a b ∧
    probCheck L V A robot obs par.numPoint (probConf L A start goal i) (probConf L A start goal j) a b = .ok true) ∨
  ∃ i < k, ∃ p ∈ segs, RowNeighbours (fun y z => p.1 :: y :: z :: probTail L A start goal i) p.2 a b

/-- Body `i + 1` of an articulated robot at configuration `u` (position, quaternion, joint angles): the body `l` is
attached at `l.pos`, `l.quat` to the frame of its link, which the kinematics `A` places relative to the base. -/
noncomputable def armBody (A : Arm) (u : Vec) (i : ℕ) (l : SuperQuadrics) : SuperQuadrics :=
  bodyAt l (quatRot (quatPart u) *ᵥ ((A.fk ((u.drop 7).take A.nJ) i).rot *ᵥ l.pos + (A.fk ((u.drop 7).take A.nJ) i).pos)
      + posPart u)
    (matQuat (quatRot (quatPart u) * (A.fk ((u.drop 7).take A.nJ) i).rot * quatRot l.quat))

/-- All bodies of an articulated robot at configuration `u`: the base, then the others in order. -/
noncomputable def armBodies (A : Arm) (base : SuperQuadrics) (added : List SuperQuadrics) (u : Vec) : List SuperQuadrics :=
  bodyAt base (posPart u) (matQuat (quatRot (quatPart u))) :: added.mapIdx (armBody A u)

end Hrm
