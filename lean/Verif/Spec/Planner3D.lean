import Verif.Model.Planner3D
import Verif.Spec.Mesh
import Verif.Spec.MultiBody
import Verif.Spec.Roadmap
import Verif.Spec.Interp

/-!
# Specification vocabulary for the spatial planners
-/

namespace Hrm

open Matrix

/-- The orientations of the slices of a new planner: the predefined ones if there are any, otherwise `numSlice`
random ones. -/
noncomputable def orientations (L : Libs3) (quats : List Quat) (par : Param3) : List Quat :=
  if quats = [] then (List.range par.numSlice).map L.rand else quats

/-- A configuration of the spatial planner: a position and a quaternion. -/
def conf7 (x y z : ℝ) (q : Quat) : Vec := [x, y, z, q.1, q.2.1, q.2.2.1, q.2.2.2]

/-- A configuration sampled by the planner on a sweep line: `(x, y)` is the place of the sweep line, `z` the height of a
sample of this line, and the orientation that of slice `q`. -/
def LineSample3 (segs : List (ℝ × FreeSeg)) (q : Quat) (v : Vec) : Prop :=
  ∃ p ∈ segs, ∃ (j : ℕ) (y : ℝ) (r : SegRow ℝ) (z : ℝ), p.2.ty[j]? = some y ∧ p.2.rows[j]? = some r ∧ z ∈ r.M ∧
    v = conf7 p.1 y z (matQuat (quatRot q))

/-- A vertex of the roadmap: a sample of a sweep line of some slice, or a configuration inserted between two of them by
the same-slice check against the obstacle meshes. -/
def Sampled3 (obstacles : List Mesh) (segs : List (ℝ × FreeSeg)) (qs : List Quat) (v : Vec) : Prop :=
  ∃ q ∈ qs, LineSample3 segs q v ∨ BridgeOf (sameFree3 obstacles) (LineSample3 segs q) v

/-- The position of a configuration. -/
noncomputable def posPart (v : Vec) : Fin 3 → ℝ := ![coordOf v 0, coordOf v 1, coordOf v 2]

/-- Where the centre of a body attached at `l.pos` is when the robot is at configuration `u`. -/
noncomputable def centreAt3 (l : SuperQuadrics) (u : Vec) : Fin 3 → ℝ :=
  quatRot (quatPart u) *ᵥ l.pos + posPart u

/-- The ellipsoid `E` of a body whose centre is at `p` is clear of the obstacles, as far as the point test on the
meshes of the obstacles grown by `E` can tell. -/
def SweptClear3 (obs : List SuperQuadrics) (E : SuperQuadrics) (p : Fin 3 → ℝ) : Prop :=
  isPtInCFree3D triTol (toV3 p) (bridgeBound3 obs E) = .ok true

/-- The point test puts the centre inside the mesh of some grown obstacle. -/
def SweptHit3 (obs : List SuperQuadrics) (E : SuperQuadrics) (p : Fin 3 → ℝ) : Prop :=
  isPtInCFree3D triTol (toV3 p) (bridgeBound3 obs E) = .ok false

/-- `E` is the ellipsoid computed for the body `l`, attached with orientation `l.quat`, for all robot orientations
from `qa` to `qb`. -/
def EnclosesLink (L : Libs3) (np : ℕ) (qa qb : Quat) (l E : SuperQuadrics) : Prop :=
  getTFE3D L.svd ![l.a, l.b, l.c] (matQuat (quatRot qa * quatRot l.quat)) (matQuat (quatRot qb * quatRot l.quat)) np
    l.num = .ok E

/-- At configuration `u` of a motion between slices with orientations `qa` and `qb`, the ellipsoid of the base is
clear, and so is that of every link. -/
def StepClear3 (L : Libs3) (obs : List SuperQuadrics) (base : SuperQuadrics) (added : List SuperQuadrics) (np : ℕ)
    (qa qb : Quat) (u : Vec) : Prop :=
  (∃ E, getTFE3D L.svd ![base.a, base.b, base.c] qa qb np base.num = .ok E ∧ SweptClear3 obs E (posPart u)) ∧
  ∀ l ∈ added, ∃ E, EnclosesLink L np qa qb l E ∧ SweptClear3 obs E (centreAt3 l u)

/-- At configuration `u`, the ellipsoid of the base or of some link hits. -/
def StepHit3 (L : Libs3) (obs : List SuperQuadrics) (base : SuperQuadrics) (added : List SuperQuadrics) (np : ℕ)
    (qa qb : Quat) (u : Vec) : Prop :=
  (∃ E, getTFE3D L.svd ![base.a, base.b, base.c] qa qb np base.num = .ok E ∧ SweptHit3 obs E (posPart u)) ∨
  ∃ l ∈ added, ∃ E, EnclosesLink L np qa qb l E ∧ SweptHit3 obs E (centreAt3 l u)

/-- A body of the given shape at the given place and orientation. -/
def bodyAt (l : SuperQuadrics) (p : Fin 3 → ℝ) (q : Quat) : SuperQuadrics := { l with pos := p, quat := q }

/-- The steps of an interpolated motion from `v` to `w`: `n + 1` configurations, position on the straight segment,
unit quaternions (up to machine precision), the first is `v`, the last is `w` up to the sign of the quaternion. -/
def IsMotion (v w : Vec) (n : ℕ) (steps : List Vec) : Prop :=
  steps.length = n + 1 ∧
  (∀ (i : ℕ) (u : Vec), steps[i]? = some u → u.length = v.length ∧
    (∀ j, j < 3 ∨ 7 ≤ j → OnSegment v w (i / n) u j) ∧
    1 - 1 / 2 ^ 53 ≤ Quat.dot (quatPart u) (quatPart u) ∧ Quat.dot (quatPart u) (quatPart u) ≤ 1) ∧
  steps[0]? = some v ∧
  ∃ u, steps[n]? = some u ∧ (∀ j, j < 3 ∨ 7 ≤ j → coordOf u j = coordOf w j) ∧
    SameRotation (quatPart u) (quatPart w)

end Hrm
