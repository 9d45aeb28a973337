import Verif.Spec.Planner3D
import Verif.Spec.Ball

/-!
# Specification vocabulary: a motion in space at all times
-/

namespace Hrm

/-- A motion of a rigid robot from configuration `v` to configuration `w` in the time from 0 to 1: the position moves evenly
along the straight segment; the orientation turns evenly about a fixed axis along the shorter way, that is, the angle between
the unit quaternions at two times is the time between them times the angle between the quaternions of `v` and `w` or of `v` and
the opposite of `w`, whichever is smaller. (A rotation turns by twice the angle of its quaternion.) -/
structure SteadyMotion (v w : Vec) (u : ℝ → Vec) : Prop where
  start : posPart (u 0) = posPart v ∧ quatPart (u 0) = quatPart v
  finish : posPart (u 1) = posPart w ∧ SameRotation (quatPart (u 1)) (quatPart w)
  straight : ∀ s, posPart (u s) = posPart v + s • (posPart w - posPart v)
  turn : ∀ s t, Quat.dot (quatPart (u s)) (quatPart (u t)) =
    Real.cos ((s - t) * Real.arccos |Quat.dot (quatPart v) (quatPart w)|)

/-- How far a body attached at `l.pos` can move at most on the whole motion from `v` to `w`: the translation plus the turning
angle times the distance of the body from the centre of rotation. -/
noncomputable def reach3 (l : SuperQuadrics) (v w : Vec) : ℝ :=
  dist3 (toV3 (posPart v)) (toV3 (posPart w)) +
    2 * Real.arccos |Quat.dot (quatPart v) (quatPart w)| * Real.sqrt (l.pos 0 ^ 2 + l.pos 1 ^ 2 + l.pos 2 ^ 2)

end Hrm
