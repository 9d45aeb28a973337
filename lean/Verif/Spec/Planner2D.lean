import Verif.Model.Planner2D
import Verif.Spec.Polygon
import Verif.Spec.MultiBody
import Verif.Spec.Roadmap

/-!
# Specification vocabulary for the planar planner
-/

namespace Hrm

/-- At its own height, the point lies strictly between two points of the region enclosed by the polygon. -/
def InSlice (sh : List (Pt ℝ)) (p : Pt ℝ) : Prop :=
  ∃ x1 x2, x1 < p.1 ∧ p.1 < x2 ∧ (x1, p.2) ∈ region sh ∧ (x2, p.2) ∈ region sh

/-- Step `i` of `n` on the way from `a` to `b`. -/
noncomputable def onWay (n i : ℕ) (a b : ℝ) : ℝ := a + (i : ℝ) / ((n : ℝ) - 1) * (b - a)

/-- Where the centre of a body that was attached at `(l.px, l.py)` is, when the robot is at `(x, y, th)`. -/
noncomputable def centreAt (l : SuperEllipse) (x y th : ℝ) : Pt ℝ :=
  (x + (Real.cos th * l.px - Real.sin th * l.py), y + (Real.sin th * l.px + Real.cos th * l.py))

/-- Heading number `i` of `n` equally spaced ones from `-π` to `π` (the code's constant). -/
noncomputable def heading (n i : ℕ) : ℝ := -hrmPi + 2 * hrmPi / ((n : ℝ) - 1) * i

/-- A body of the given shape at the given place and angle. -/
def bodyAt2 (l : SuperEllipse) (p : Pt ℝ) (th : ℝ) : SuperEllipse := { l with px := p.1, py := p.2, ang := th }

end Hrm
