import Verif.Model.FreeSpace
import Verif.Model.Roadmap

/-! # Specification for the stored details of a run (C99) -/

namespace Hrm

/-- The free segments of a slice as a table: one row `x, y, low, middle, up` per segment. -/
def segmentRows (segs : List (ℝ × FreeSeg)) : List (List ℝ) :=
  segs.flatMap fun p => (p.2.ty.zip p.2.rows).flatMap fun yr =>
    (yr.2.L.zip (yr.2.M.zip yr.2.U)).map fun t => [p.1, yr.1, t.1, t.2.1, t.2.2]

end Hrm
