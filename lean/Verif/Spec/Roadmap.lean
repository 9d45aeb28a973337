import Verif.Model.Roadmap

/-! # Specification vocabulary for roadmaps -/

namespace Hrm

/-- Euclidean distance of two configurations of one dimension. -/
noncomputable def euclid (a b : Vec) : ℝ := Real.sqrt ((List.zipWith (fun x y => (x - y) ^ 2) a b).sum)

/-- A well-formed roadmap of dimension `dim`: all vertices have `dim` coordinates, every edge has a
weight, its two ends are existing vertices and the weight is their Euclidean distance. -/
structure Graph.Ok (g : Graph) (dim : ℕ) : Prop where
  dims : ∀ v ∈ g.vertex, v.length = dim
  len : g.edge.length = g.weight.length
  edges : ∀ (k : ℕ) (e : ℕ × ℕ) (w : ℝ), g.edge[k]? = some e → g.weight[k]? = some w →
    ∃ a b, g.vertex[e.1]? = some a ∧ g.vertex[e.2]? = some b ∧ w = euclid a b

/-- `g'` is `g` with things appended: nothing removed, changed or reordered. -/
def Graph.Ext (g g' : Graph) : Prop :=
  g.vertex <+: g'.vertex ∧ g.edge <+: g'.edge ∧ g.weight <+: g'.weight

/-- Every edge joins two vertices related by `R`. -/
def Graph.EdgesIn (g : Graph) (R : Vec → Vec → Prop) : Prop :=
  ∀ (k : ℕ) (e : ℕ × ℕ), g.edge[k]? = some e →
    ∃ a b, g.vertex[e.1]? = some a ∧ g.vertex[e.2]? = some b ∧ R a b

/-- `plane` gives, for every sweep line of `fs`, the number of its first vertex: vertex `plane[i] + j` is
`mk y x` for the y-coordinate of line `i` and the `j`-th middle coordinate `x` of the line. -/
def PlaneOk (mk : ℝ → ℝ → Vec) (fs : FreeSeg) (plane : List ℕ) (g : Graph) : Prop :=
  plane.length = fs.ty.length ∧
  ∀ (i : ℕ) (y : ℝ) (r : SegRow ℝ) (j : ℕ) (x : ℝ), fs.ty[i]? = some y → fs.rows[i]? = some r →
    r.M[j]? = some x → ∃ n, plane[i]? = some n ∧ g.vertex[n + j]? = some (mk y x)

/-- Two neighbouring samples of one sweep line of `fs`, the first ending where the second begins (up to
1e-6). -/
def RowNeighbours (mk : ℝ → ℝ → Vec) (fs : FreeSeg) (a b : Vec) : Prop :=
  ∃ (i j : ℕ) (y : ℝ) (r : SegRow ℝ) (x x' u l : ℝ), fs.ty[i]? = some y ∧ fs.rows[i]? = some r ∧
    r.M[j]? = some x ∧ r.M[j + 1]? = some x' ∧ r.U[j]? = some u ∧ r.L[j + 1]? = some l ∧
    |u - l| < 1 / 10 ^ 6 ∧ a = mk y x ∧ b = mk y x'

/-- The free segments of a slice have one row per sweep line and three lists of one length per row. -/
def FreeSeg.Aligned (fs : FreeSeg) : Prop :=
  fs.rows.length = fs.ty.length ∧
  ∀ r ∈ fs.rows, r.L.length = r.M.length ∧ r.U.length = r.M.length

/-- A check that always returns on configurations of dimension `dim`. -/
def TotalOn (dim : ℕ) (free : Vec → Vec → Res Bool) : Prop :=
  ∀ a b : Vec, a.length = dim → b.length = dim → ∃ r, free a b = .ok r

end Hrm

namespace Hrm

/-- The recorded slices are consecutive vertex ranges that together are exactly `[lo, hi)`. -/
def Partition : List VertexIdx → ℕ → ℕ → Prop
  | [], lo, hi => lo = hi
  | s :: rest, lo, hi => s.startId = lo ∧ lo ≤ s.slice ∧ Partition rest s.slice hi

/-- Why a roadmap edge between `a` and `b` exists: some slice's same-slice check accepted it, some pair
of slices' multi-slice check accepted it, or they are neighbouring samples of a sweep line. -/
def EdgeOrigin (freeSame : ℕ → Vec → Vec → Res Bool) (freeMulti : ℕ → ℕ → Vec → Vec → Res Bool)
    (neigh : ℕ → Vec → Vec → Prop) (numSlice : ℕ) (a b : Vec) : Prop :=
  (∃ i < numSlice, freeSame i a b = .ok true) ∨
  (∃ i < numSlice, ∃ j < numSlice, freeMulti i j a b = .ok true) ∨
  (∃ i < numSlice, neigh i a b)

end Hrm

namespace Hrm

/-- One public step that changes the roadmap: building a slice (planar or spatial robot), or one of the
slice-connection routines, with arbitrary arguments. -/
inductive RoadOp
  | slice2D (free : Vec → Vec → Res Bool) (angle : ℝ) (fs : FreeSeg)
  | slice3D (free : Vec → Vec → Res Bool) (mk : ℝ → ℝ → ℝ → Vec) (planes : List (ℝ × FreeSeg))
  | multi2D (freeMulti : ℕ → ℕ → Vec → Vec → Res Bool) (gap : ℝ) (numSlice : ℕ) (idx : List VertexIdx)
  | multi3D (dist : ℕ → ℕ → ℝ) (freeMulti : ℕ → ℕ → Vec → Vec → Res Bool) (gapX gapY : ℝ)
      (numSlice : ℕ) (idx : List VertexIdx)
  | exist (near free : Vec → Vec → Res Bool) (idx : List VertexIdx) (idxAll : List (List VertexIdx))
      (sliceId : ℕ)
  | prob (dist : ℕ → ℝ) (freeMulti : ℕ → Vec → Vec → Res Bool) (gapX gapY : ℝ) (numSlice : ℕ)
      (idx : List VertexIdx)

/-- What the step does to the roadmap. -/
noncomputable def RoadOp.run : RoadOp → Graph → Res Graph
  | .slice2D free angle fs, g => (constructSlice2D free angle fs g).bind fun r => .ok r.1
  | .slice3D free mk planes, g => (constructSlice3D free mk planes g).bind fun r => .ok r.1
  | .multi2D freeMulti gap numSlice idx, g => connectMultiSlice2D freeMulti gap numSlice idx g
  | .multi3D dist freeMulti gapX gapY numSlice idx, g =>
      connectMultiSlice3D dist freeMulti gapX gapY numSlice idx g
  | .exist near free idx idxAll sliceId, g => connectExistSlice near free idx idxAll sliceId g
  | .prob dist freeMulti gapX gapY numSlice idx, g => probConnect dist freeMulti gapX gapY numSlice idx g

/-- A history of steps. -/
noncomputable def runOps (ops : List RoadOp) (g : Graph) : Res Graph := ops.foldlM (fun g op => op.run g) g

/-- The step generates vertices of dimension `dim`. -/
def RoadOp.Dim (dim : ℕ) : RoadOp → Prop
  | .slice2D _ _ _ => dim = 3
  | .slice3D _ mk _ => ∀ x y z, (mk x y z).length = dim
  | _ => True

/-- Two vertex ranges are joined as soon as they contain a near, accepted pair. -/
def JoinedIfPossible (near free : Vec → Vec → Res Bool) (s t : VertexIdx) (g : Graph) : Prop :=
  ∀ (m0 m1 : ℕ) (v1 v2 : Vec), s.startId ≤ m0 → m0 < s.slice → t.startId ≤ m1 → m1 < t.slice →
    g.vertex[m0]? = some v1 → g.vertex[m1]? = some v2 → near v1 v2 = .ok true →
    free v1 v2 = .ok true →
    ∃ e ∈ g.edge, (s.startId ≤ e.1 ∧ e.1 < s.slice) ∧ (t.startId ≤ e.2 ∧ e.2 < t.slice)

end Hrm

namespace Hrm

/-- The roadmap joins the vertices `i` and `j` (configurations `a`, `b`) as far as the check `free`
allows: by an edge if the direct transition is accepted; otherwise through a new vertex that is one of
the two with the third coordinate of the other, if both halves of one of the two detours are accepted
(the detour through `a`'s copy is preferred). -/
def JoinedPair (free : Vec → Vec → Res Bool) (g : Graph) (i j : ℕ) : Prop :=
  ∀ (a b : Vec) (za zb : ℝ), g.vertex[i]? = some a → g.vertex[j]? = some b → a[2]? = some za →
    b[2]? = some zb →
    (free a b = .ok true → (i, j) ∈ g.edge) ∧
    (free a b = .ok false →
      (free a (a.set 2 zb) = .ok true → free (a.set 2 zb) b = .ok true →
        ∃ k, g.vertex[k]? = some (a.set 2 zb) ∧ (i, k) ∈ g.edge ∧ (k, j) ∈ g.edge) ∧
      ((free a (a.set 2 zb) = .ok false ∨ free (a.set 2 zb) b = .ok false) →
        free a (b.set 2 za) = .ok true → free (b.set 2 za) b = .ok true →
        ∃ k, g.vertex[k]? = some (b.set 2 za) ∧ (i, k) ∈ g.edge ∧ (k, j) ∈ g.edge))

/-- Every sample of a sweep line is joined (as far as possible) with every sample of the next line of
the plane, and consecutive samples of one line are joined when the first ends where the second begins. -/
def PlaneJoined (free : Vec → Vec → Res Bool) (fs : FreeSeg) (plane : List ℕ) (g : Graph) : Prop :=
  (∀ (i n1 n2 : ℕ) (r1 r2 : SegRow ℝ) (j1 j2 : ℕ), plane[i]? = some n1 → plane[i + 1]? = some n2 →
    fs.rows[i]? = some r1 → fs.rows[i + 1]? = some r2 → i + 1 < fs.ty.length → j1 < r1.M.length →
    j2 < r2.M.length → JoinedPair free g (n1 + j1) (n2 + j2)) ∧
  (∀ (i n1 : ℕ) (r : SegRow ℝ) (j : ℕ) (u l : ℝ), plane[i]? = some n1 → fs.rows[i]? = some r →
    i < fs.ty.length → j + 1 < r.M.length → r.U[j]? = some u → r.L[j + 1]? = some l →
    |u - l| < 1 / 10 ^ 6 → (n1 + j, n1 + j + 1) ∈ g.edge)

/-- A sample of a spatial slice with orientation part `ori`: the plane `p` of the sweep has the line `y` with the free
intervals `r`, and `z` is one of their sampled heights. -/
def SliceSample (ori : Vec) (planes : List (ℝ × FreeSeg)) (v : Vec) : Prop :=
  ∃ p ∈ planes, ∃ (j : ℕ) (y : ℝ) (r : SegRow ℝ) (z : ℝ),
    p.2.ty[j]? = some y ∧ p.2.rows[j]? = some r ∧ z ∈ r.M ∧ v = p.1 :: y :: z :: ori

/-- `v` was inserted between two samples whose direct transition was rejected: one of them at the third coordinate
(height) of the other, with both partial transitions accepted. -/
def BridgeOf (free : Vec → Vec → Res Bool) (S : Vec → Prop) (v : Vec) : Prop :=
  ∃ v1 v2, S v1 ∧ S v2 ∧ free v1 v2 = .ok false ∧
    ((∃ z, v2[2]? = some z ∧ v = v1.set 2 z) ∨ (∃ z, v1[2]? = some z ∧ v = v2.set 2 z)) ∧
    free v1 v = .ok true ∧ free v v2 = .ok true

end Hrm

namespace Hrm

/-- Two configurations differ by at most `d` in coordinate `c`. -/
def CloseIn (c : ℕ) (d : ℝ) (a b : Vec) : Prop := ∃ x y, a[c]? = some x ∧ b[c]? = some y ∧ |x - y| ≤ d

open Classical in
/-- The check that first looks whether the two configurations are near each other, and rejects them otherwise. -/
noncomputable def onlyNear (N : Vec → Vec → Prop) (free : Vec → Vec → Res Bool) (a b : Vec) : Res Bool :=
  if N a b then free a b else .ok false

/-- Both configurations of a planar robot have the given heading. -/
def AtHeading (th : ℝ) (a b : Vec) : Prop := a[2]? = some th ∧ b[2]? = some th

/-- Both configurations of a spatial robot have, after the position, the given coordinates (orientation, joints). -/
def AtOrientation (o : Vec) (a b : Vec) : Prop := a.drop 3 = o ∧ b.drop 3 = o

/-- A motion of a planar robot from heading `th` to heading `th'`. -/
def FromToHeading (th th' : ℝ) (a b : Vec) : Prop := a[2]? = some th ∧ b[2]? = some th'

/-- A motion of a spatial robot from a configuration with the coordinates `o` after the position to one with `o'`. -/
def FromToOrientation (o o' : Vec) (a b : Vec) : Prop := a.drop 3 = o ∧ b.drop 3 = o'

/-- The numbers of a list are `n` evenly spaced ones from `lo` to `hi`. -/
def EvenlySpaced (lo hi : ℝ) (n : ℕ) (l : List ℝ) : Prop :=
  l.length = n ∧ l[0]? = some lo ∧ l[n - 1]? = some hi ∧
  ∀ (k : ℕ) (a b c : ℝ), l[k]? = some a → l[k + 1]? = some b → l[k + 2]? = some c → b - a = c - b

end Hrm
