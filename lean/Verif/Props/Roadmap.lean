import Verif.Lemmas.Roadmap
import Verif.Lemmas.Near
import Mathlib.Tactic.IntervalCases

/-!
# Properties of the roadmap: C23-C26, C34, C35, C42, C58 (part), C65
-/

namespace Hrm

/-! ## C23 – the roadmap is always well-formed -/

/-- C23: after any history of slice constructions and connections (with any inputs, any collision checks,
of which every step returned normally) edges and weights have equal length, edge ends are existing
vertices and every weight is the Euclidean distance of the edge's ends. -/
theorem C23_roadmap_wellformed (dim : ℕ) (ops : List RoadOp) (hops : ∀ op ∈ ops, op.Dim dim) (g : Graph)
    (h : runOps ops .empty = .ok g) : g.Ok dim := by
  have key : Res.Sat False (runOps ops .empty) (fun g => g.Ok dim) := by
    refine Res.Sat.foldlM _ ?_ _ ⟨by simp [Graph.empty], rfl, by simp [Graph.empty]⟩
    intro g op hop hg
    exact (op.run_sat (hops op hop) g hg).mono fun g' h => h.ok (fun _ h => h) hg
  exact key.1 g h

/-- C23 for `buildRoadmap` of the planar planner. -/
theorem C23_build2D (freeSame : ℕ → Vec → Vec → Res Bool) (freeMulti : ℕ → ℕ → Vec → Vec → Res Bool)
    (gap : ℝ) (headings : ℕ → ℝ) (seg : ℕ → FreeSeg) (n : ℕ) (g : Graph) (idx : List VertexIdx)
    (h : buildRoadmap2D freeSame freeMulti gap headings seg n = .ok (g, idx)) : g.Ok 3 := by
  have := (buildRoadmap2D_sat (tot := False) (fun h => h.elim)).1 _ h
  exact this.1.ok (fun _ h => h) ⟨by simp [Graph.empty], rfl, by simp [Graph.empty]⟩

/-- C23 for `buildRoadmap` of the spatial planner; `dim` is the length of its configurations (7). -/
theorem C23_build3D (dist : ℕ → ℕ → ℝ) (freeSame : ℕ → Vec → Vec → Res Bool)
    (freeMulti : ℕ → ℕ → Vec → Vec → Res Bool) (gapX gapY : ℝ) (mk : ℕ → ℝ → ℝ → ℝ → Vec)
    (seg : ℕ → List (ℝ × FreeSeg)) (n dim : ℕ) (hmk : ∀ i x y z, (mk i x y z).length = dim)
    (g : Graph) (idx : List VertexIdx)
    (h : buildRoadmap3D dist freeSame freeMulti gapX gapY mk seg n = .ok (g, idx)) : g.Ok dim := by
  have := (buildRoadmap3D_sat (tot := False) (dim := dim) (fun _ v => v.length = dim) (fun _ _ h => h)
    (fun i p _ => Sample.all (hmk i p.1))
    (fun i v1 v2 v z ⟨p1, _, s1⟩ ⟨p2, _, s2⟩ _ hv _ _ => set_third_length (Sample.all (Vp := fun v => v.length = dim) (hmk i p1.1) v1 s1)
      (Sample.all (Vp := fun v => v.length = dim) (hmk i p2.1) v2 s2) hv) (fun h => h.elim)).1 _ h
  exact this.1.ok (fun _ h => h) ⟨by simp [Graph.empty], rfl, by simp [Graph.empty]⟩

/-! ## C25 – building only appends -/

/-- C25: continuing any history by any further steps keeps every vertex, edge and weight at its place. -/
theorem C25_append_only (dim : ℕ) (ops more : List RoadOp) (hops : ∀ op ∈ ops ++ more, op.Dim dim)
    (g g' : Graph) (h : runOps ops .empty = .ok g) (h' : runOps (ops ++ more) .empty = .ok g') :
    g.Ext g' := by
  have hg : g.Ok dim := C23_roadmap_wellformed dim ops (fun op ho => hops op (by simp [ho])) g h
  have e : runOps (ops ++ more) .empty = (runOps ops .empty).bind (runOps more) := by
    unfold runOps; rw [List.foldlM_append]; rfl
  rw [e, h, Res.bind_ok'] at h'
  have key : Res.Sat False (runOps more g) (fun g' => g'.Ok dim ∧ g.Ext g') := by
    refine Res.Sat.foldlM _ ?_ _ ⟨hg, .refl g⟩
    rintro g1 op hop ⟨h1, h2⟩
    exact (op.run_sat (hops op (by simp [hop])) g1 h1).mono fun g2 h =>
      ⟨h.ok (fun _ h => h) h1, h2.trans h.ext⟩
  exact (key.1 g' h').2

/-- A vertex id keeps its meaning. -/
theorem C25_ids_stay_valid (dim : ℕ) (ops more : List RoadOp) (hops : ∀ op ∈ ops ++ more, op.Dim dim)
    (g g' : Graph) (h : runOps ops .empty = .ok g) (h' : runOps (ops ++ more) .empty = .ok g')
    (i : ℕ) (v : Vec) (hv : g.vertex[i]? = some v) : g'.vertex[i]? = some v :=
  (C25_append_only dim ops more hops g g' h h').get hv

/-! ## C24 – every edge was accepted -/

/-- C24 (planar): every edge of a built roadmap joins vertices of one heading accepted by the same-slice check of that
slice, or a vertex of one slice and a vertex of another, accepted by the check made for the headings of these two slices,
or neighbouring samples of one sweep line. -/
theorem C24_edges_accepted_2D (freeSame : ℕ → Vec → Vec → Res Bool)
    (freeMulti : ℕ → ℕ → Vec → Vec → Res Bool) (gap : ℝ) (headings : ℕ → ℝ) (seg : ℕ → FreeSeg) (n : ℕ)
    (g : Graph) (idx : List VertexIdx)
    (h : buildRoadmap2D freeSame freeMulti gap headings seg n = .ok (g, idx)) :
    g.EdgesIn (EdgeOrigin (fun i => onlyNear (AtHeading (headings i)) (freeSame i))
      (fun i j => onlyNear (FromToHeading (headings i) (headings j)) (freeMulti i j))
      (fun i => RowNeighbours (fun y x => [x, y, headings i]) (seg i)) n) := by
  have := (buildRoadmap2D_sat (tot := False) (fun h => h.elim)).1 _ h
  exact this.1.edgesIn (by intro k e he; simp [Graph.empty] at he)

/-- C24 (spatial): every edge joins vertices of one orientation, one of them a sample of a sweep line, accepted by the
same-slice check of that slice, or a vertex of slice `j` and a vertex of slice `i`, accepted in this direction by the check
made for `i` and `j`, or neighbouring samples of one sweep line. -/
theorem C24_edges_accepted_3D (dist : ℕ → ℕ → ℝ) (freeSame : ℕ → Vec → Vec → Res Bool)
    (freeMulti : ℕ → ℕ → Vec → Vec → Res Bool) (gapX gapY : ℝ) (ori : ℕ → Vec)
    (seg : ℕ → List (ℝ × FreeSeg)) (n k : ℕ) (hori : ∀ i, (ori i).length = k)
    (g : Graph) (idx : List VertexIdx)
    (h : buildRoadmap3D dist freeSame freeMulti gapX gapY (fun i x y z => x :: y :: z :: ori i) seg n = .ok (g, idx)) :
    g.EdgesIn (EdgeOrigin (fun i => onlyNear (fun a b => AtOrientation (ori i) a b ∧
        (SliceSample (ori i) (seg i) a ∨ SliceSample (ori i) (seg i) b)) (freeSame i))
      (fun i j => onlyNear (FromToOrientation (ori j) (ori i)) (freeMulti i j))
      (fun i a b => ∃ p ∈ seg i, RowNeighbours (fun y z => p.1 :: y :: z :: ori i) p.2 a b) n) := by
  have := (buildRoadmap3D_sat (tot := False) (dim := k + 3)
    (fun i v => v.drop 3 = ori i ∧ v.length = k + 3) (fun i v h => h.2)
    (fun i p _ => Sample.all fun y z => ⟨rfl, by simp [hori]⟩)
    (by
      rintro i v1 v2 v z ⟨p1, -, j1, y1, r1, z1, -, -, -, rfl⟩ ⟨p2, -, j2, y2, r2, z2, -, -, -, rfl⟩ -
        (⟨-, rfl⟩ | ⟨-, rfl⟩) - -
      · exact ⟨rfl, by simp [hori]⟩
      · exact ⟨rfl, by simp [hori]⟩) (fun h => h.elim)).1 _ h
  refine (this.1.mono (fun _ h => h) ?_).edgesIn (by intro k e he; simp [Graph.empty] at he)
  rintro a b (⟨i, hi, hc⟩ | ⟨i, hi, j, hj, hc⟩ | hc)
  · obtain ⟨h1, h2⟩ := onlyNear_true hc
    exact Or.inl ⟨i, hi, (if_pos ⟨⟨h1.1.1, h1.2.1.1⟩, h1.2.2⟩).trans h2⟩
  · obtain ⟨h1, h2⟩ := onlyNear_true hc
    exact Or.inr (Or.inl ⟨i, hi, j, hj, (if_pos ⟨h1.1.1, h1.2.1⟩).trans h2⟩)
  · exact Or.inr (Or.inr hc)

/-- C24 (planar), with distance: vertices of different slices are joined only if they are at most `gap` apart in `y`. -/
theorem C24_edges_near_2D (freeSame : ℕ → Vec → Vec → Res Bool)
    (freeMulti : ℕ → ℕ → Vec → Vec → Res Bool) (gap : ℝ) (headings : ℕ → ℝ) (seg : ℕ → FreeSeg) (n : ℕ)
    (g : Graph) (idx : List VertexIdx)
    (h : buildRoadmap2D freeSame freeMulti gap headings seg n = .ok (g, idx)) :
    g.EdgesIn (EdgeOrigin (fun i => onlyNear (AtHeading (headings i)) (freeSame i))
      (fun i j => onlyNear (fun a b => FromToHeading (headings i) (headings j) a b ∧ CloseIn 1 gap a b) (freeMulti i j))
      (fun i => RowNeighbours (fun y x => [x, y, headings i]) (seg i)) n) := by
  rw [buildRoadmap2D_guard] at h
  have := C24_edges_accepted_2D _ _ _ _ _ _ _ _ h
  simp only [onlyNear_onlyNear] at this
  exact this

/-- C24 (spatial), with distance: vertices of different slices are joined only if they are at most `gapX` apart in `x`
and `gapY` in `y`. -/
theorem C24_edges_near_3D (dist : ℕ → ℕ → ℝ) (freeSame : ℕ → Vec → Vec → Res Bool)
    (freeMulti : ℕ → ℕ → Vec → Vec → Res Bool) (gapX gapY : ℝ) (ori : ℕ → Vec)
    (seg : ℕ → List (ℝ × FreeSeg)) (n k : ℕ) (hori : ∀ i, (ori i).length = k)
    (g : Graph) (idx : List VertexIdx)
    (h : buildRoadmap3D dist freeSame freeMulti gapX gapY (fun i x y z => x :: y :: z :: ori i) seg n = .ok (g, idx)) :
    g.EdgesIn (EdgeOrigin (fun i => onlyNear (fun a b => AtOrientation (ori i) a b ∧
        (SliceSample (ori i) (seg i) a ∨ SliceSample (ori i) (seg i) b)) (freeSame i))
      (fun i j => onlyNear (fun a b => FromToOrientation (ori j) (ori i) a b ∧ CloseIn 0 gapX a b ∧ CloseIn 1 gapY a b)
        (freeMulti i j))
      (fun i a b => ∃ p ∈ seg i, RowNeighbours (fun y z => p.1 :: y :: z :: ori i) p.2 a b) n) := by
  rw [buildRoadmap3D_guard] at h
  have := C24_edges_accepted_3D _ _ _ _ _ _ _ _ k hori _ _ h
  simp only [onlyNear_onlyNear] at this
  exact this

/-! ## C26 – slice bookkeeping -/

/-- C26 (planar): the recorded slices partition the vertices in order; every vertex belongs to exactly
one slice; all vertices of slice `i` carry heading `i`; and the row information of slice `i` addresses
the row's samples. -/
theorem C26_slices_partition_2D (freeSame : ℕ → Vec → Vec → Res Bool)
    (freeMulti : ℕ → ℕ → Vec → Vec → Res Bool) (gap : ℝ) (headings : ℕ → ℝ) (seg : ℕ → FreeSeg) (n : ℕ)
    (g : Graph) (idx : List VertexIdx)
    (h : buildRoadmap2D freeSame freeMulti gap headings seg n = .ok (g, idx)) :
    idx.length = n ∧ Partition idx 0 g.vertex.length ∧
    (∀ m < g.vertex.length, ∃! i : ℕ, ∃ s : VertexIdx, idx[i]? = some s ∧ s.startId ≤ m ∧ m < s.slice) ∧
    (∀ (i : ℕ) (s : VertexIdx), idx[i]? = some s →
      (∃ plane, s.line = [plane] ∧ PlaneOk (fun y x => [x, y, headings i]) (seg i) plane g) ∧
      ∀ (m : ℕ) (v : Vec), s.startId ≤ m → m < s.slice → g.vertex[m]? = some v →
        v[2]? = some (headings i)) := by
  obtain ⟨-, h2, h3, h4, -⟩ := (buildRoadmap2D_sat (tot := False) (fun h => h.elim)).1 _ h
  exact ⟨h2, h3, fun m hm => h3.exists_unique m (Nat.zero_le m) hm, h4⟩

/-- C26 (spatial). `Q i` is any property that the vertices made for slice `i` have and that survives
exchanging the third coordinate between two of them: for instance "the orientation part is that of
slice `i`". -/
theorem C26_slices_partition_3D (dist : ℕ → ℕ → ℝ) (freeSame : ℕ → Vec → Vec → Res Bool)
    (freeMulti : ℕ → ℕ → Vec → Vec → Res Bool) (gapX gapY : ℝ) (ori : ℕ → Vec)
    (seg : ℕ → List (ℝ × FreeSeg)) (n k : ℕ) (hori : ∀ i, (ori i).length = k)
    (g : Graph) (idx : List VertexIdx)
    (h : buildRoadmap3D dist freeSame freeMulti gapX gapY (fun i x y z => x :: y :: z :: ori i) seg n
      = .ok (g, idx)) :
    idx.length = n ∧ Partition idx 0 g.vertex.length ∧
    (∀ m < g.vertex.length, ∃! i : ℕ, ∃ s : VertexIdx, idx[i]? = some s ∧ s.startId ≤ m ∧ m < s.slice) ∧
    (∀ (i : ℕ) (s : VertexIdx), idx[i]? = some s →
      (s.line.length = (seg i).length ∧ ∀ (k : ℕ) (p : ℝ × FreeSeg), (seg i)[k]? = some p →
        ∃ plane, s.line[k]? = some plane ∧
          PlaneOk (fun y z => p.1 :: y :: z :: ori i) p.2 plane g) ∧
      ∀ (m : ℕ) (v : Vec), s.startId ≤ m → m < s.slice → g.vertex[m]? = some v →
        ∃ x y z, v = x :: y :: z :: ori i) := by
  obtain ⟨-, h2, h3, h4, -⟩ := (buildRoadmap3D_sat (tot := False) (dim := k + 3)
    (fun i v => ∃ x y z, v = x :: y :: z :: ori i)
    (by rintro i v ⟨x, y, z, rfl⟩; simp [hori])
    (fun i p _ => Sample.all fun y z => ⟨p.1, y, z, rfl⟩)
    (by
      rintro i v1 v2 v z ⟨p1, -, j1, y1, r1, z1, -, -, -, rfl⟩ ⟨p2, -, j2, y2, r2, z2, -, -, -, rfl⟩ -
        (⟨-, rfl⟩ | ⟨-, rfl⟩) - -
      · exact ⟨_, _, z, rfl⟩
      · exact ⟨_, _, z, rfl⟩) (fun h => h.elim)).1 _ h
  exact ⟨h2, h3, fun m hm => h3.exists_unique m (Nat.zero_le m) hm, h4⟩

/-- C26: what a plane contributes, exactly: the new vertices are the samples, line by line in order, and
the recorded row starts are the running counts. -/
theorem C26_rows_exact (mk : ℝ → ℝ → Vec) (fs : FreeSeg) (g g' : Graph) (plane : List ℕ)
    (h : generateVertices mk fs.ty fs.rows g = .ok (g', plane)) :
    g'.vertex = g.vertex ++ (List.zipWith (fun y r => r.M.map (mk y)) fs.ty fs.rows).flatten ∧
    g'.edge = g.edge ∧ g'.weight = g.weight ∧ plane.length = fs.ty.length ∧
    ∀ (i n : ℕ), plane[i]? = some n →
      n = g.vertex.length + ((fs.rows.take i).map (fun r => r.M.length)).sum := by
  have h1 := (generateVertices_sat (tot := False) (Vp := fun _ => True) (Acc := fun _ _ => True)
    (mk := mk) (fs := fs) (g := g) (Sample.all fun _ _ => trivial) (fun h => h.elim)).1 _ h
  exact ⟨h1.2.2.2.2, h1.2.2.1, h1.2.2.2.1, generateVertices_starts h⟩

/-! ## C34 – multi-slice connection in 2D -/

/-- The full claim: the planar build returns for every number of slices. -/
def C34_claim : Prop :=
  ∀ (freeSame : ℕ → Vec → Vec → Res Bool) (freeMulti : ℕ → ℕ → Vec → Vec → Res Bool) (gap : ℝ)
    (headings : ℕ → ℝ) (seg : ℕ → FreeSeg) (n : ℕ),
    (∀ i < n, (seg i).Aligned) → (∀ i < n, TotalOn 3 (freeSame i)) → (∀ i j, TotalOn 3 (freeMulti i j)) →
    ∃ r, buildRoadmap2D freeSame freeMulti gap headings seg n = .ok r

/-- With exactly two slices the planar build never returns normally, whatever the scene: for the last
slice the partner index is 2, outside the slice list. -/
theorem C34_two_slices_never_return (freeSame : ℕ → Vec → Vec → Res Bool)
    (freeMulti : ℕ → ℕ → Vec → Vec → Res Bool) (gap : ℝ) (headings : ℕ → ℝ) (seg : ℕ → FreeSeg)
    (r : Graph × List VertexIdx) : buildRoadmap2D freeSame freeMulti gap headings seg 2 ≠ .ok r := by
  intro h
  unfold buildRoadmap2D at h
  have hs := buildSlices_sat (tot := False)
    (slice := fun i => constructSlice2D (freeSame i) (headings i) (seg i))
    (Vp := fun _ v => v.length = 3) (numSlice := 2) (Acc := fun _ _ => True) (Info := fun _ _ _ => True)
    (fun _ _ _ _ _ _ => trivial)
    (fun i hi g => (constructSlice2D_sat
      { acc := fun _ _ _ _ _ => trivial
        vdim := fun _ h => h
        third := fun v w z a b c => by simpa using a
        total := fun h => h.elim
        three := fun h => h.elim }
      (fun y x => rfl) (fun _ _ _ => trivial) (fun h => h.elim)).mono
        fun _ h => ⟨h.1, h.2.1, h.2.2.1, trivial⟩) .empty
  cases hb : buildSlices (fun i => constructSlice2D (freeSame i) (headings i) (seg i)) 2 .empty [] with
  | ok s =>
    rw [hb, Res.bind_ok'] at h
    have hl := (hs.1 s hb).2.1
    cases hc : connectMultiSlice2D freeMulti gap 2 s.2 s.1 with
    | ok g =>
      unfold connectMultiSlice2D at hc
      rw [if_neg (by omega), hl, show List.range 2 = [0] ++ [1] from rfl, List.foldlM_append] at hc
      cases h0 : List.foldlM (multiStep2D freeMulti gap 2 s.2) s.1 [0] with
      | ok g1 =>
        rw [h0] at hc
        change ((multiStep2D freeMulti gap 2 s.2 g1 1).bind fun g => .ok g) = .ok g at hc
        cases h1 : multiStep2D freeMulti gap 2 s.2 g1 1 with
        | ok g2 =>
          unfold multiStep2D at h1
          have e : Res.at' s.2 (partner2D 2 1) = .throw := by
            unfold Res.at'
            rw [show s.2[partner2D 2 1]? = none from by
              rw [List.getElem?_eq_none_iff]; rw [hl]; simp [partner2D]]
          rw [e] at h1
          cases hx : Res.at' s.2 1 with
          | ok c => rw [hx] at h1; simp at h1
          | throw => rw [hx] at h1; simp at h1
          | ub => rw [hx] at h1; simp at h1
        | throw => rw [h1] at hc; simp at hc
        | ub => rw [h1] at hc; simp at hc
      | throw => rw [h0] at hc; exact nomatch hc
      | ub => rw [h0] at hc; exact nomatch hc
    | throw => rw [hc] at h; simp at h
    | ub => rw [hc] at h; simp at h
  | throw => rw [hb] at h; simp at h
  | ub => rw [hb] at h; simp at h

theorem C34_refuted : ¬ C34_claim := by
  intro h
  obtain ⟨r, hr⟩ := h (fun _ _ _ => .ok true) (fun _ _ _ _ => .ok true) 1 (fun _ => 0) (fun _ => ⟨[], []⟩) 2
    (fun _ _ => ⟨rfl, by simp⟩) (fun _ _ _ _ _ _ => ⟨_, rfl⟩) (fun _ _ _ _ _ _ => ⟨_, rfl⟩)
  exact C34_two_slices_never_return _ _ _ _ _ r hr

/-- C34, the part that holds: for every number of slices except two the planar build returns normally,
and every slice is connected with its cyclic successor whenever a near, accepted pair of vertices
exists. -/
theorem C34_total_partial (freeSame : ℕ → Vec → Vec → Res Bool)
    (freeMulti : ℕ → ℕ → Vec → Vec → Res Bool) (gap : ℝ) (headings : ℕ → ℝ) (seg : ℕ → FreeSeg) (n : ℕ)
    (hn : n ≠ 2) (hal : ∀ i < n, (seg i).Aligned) (hsame : ∀ i < n, TotalOn 3 (freeSame i))
    (hmulti : ∀ i < n, ∀ j < n, TotalOn 3 (freeMulti i j)) :
    ∃ g idx, buildRoadmap2D freeSame freeMulti gap headings seg n = .ok (g, idx) ∧ idx.length = n ∧
      (n ≠ 1 → ∀ (i : ℕ) (s t : VertexIdx), idx[i]? = some s → idx[(i + 1) % n]? = some t →
        JoinedIfPossible (near2D gap) (freeMulti i ((i + 1) % n)) s t g) := by
  have hsat := buildRoadmap2D_sat (tot := True) (freeSame := freeSame) (freeMulti := freeMulti) (gap := gap)
    (headings := headings) (seg := seg) (n := n) (fun _ => ⟨hn, hal, hsame, hmulti⟩)
  obtain ⟨⟨g, idx⟩, hr⟩ := hsat.2 trivial
  obtain ⟨-, h2, -, -, h5⟩ := hsat.1 _ hr
  simp only at h2 h5
  refine ⟨g, idx, hr, h2, fun h1 i s t hs ht => ?_⟩
  have hi : i < n := by have := (List.getElem?_eq_some_iff.1 hs).1; omega
  have e : partner2D n i = (i + 1) % n := by
    unfold partner2D
    by_cases hlast : i = n - 1
    · rw [if_pos ⟨hlast, hn⟩, show i + 1 = n by omega, Nat.mod_self]
    · rw [if_neg (by tauto), Nat.mod_eq_of_lt (by omega)]
  have := h5 h1 i s t hs (by rw [e]; exact ht)
  rw [e] at this
  exact this

/-- The hypotheses are met: three slices, one sweep line each with two free segments. -/
example : ∃ g idx, buildRoadmap2D (fun _ _ _ => .ok true) (fun _ _ _ _ => .ok true) 1 (fun i => i)
    (fun _ => ⟨[0], [⟨[0, 2], [1, 3], [1 / 2, 5 / 2]⟩]⟩) 3 = .ok (g, idx) ∧ idx.length = 3 := by
  obtain ⟨g, idx, h, h', -⟩ := C34_total_partial (fun _ _ _ => .ok true) (fun _ _ _ _ => .ok true) 1
    (fun i => i) (fun _ => ⟨[0], [⟨[0, 2], [1, 3], [1 / 2, 5 / 2]⟩]⟩) 3 (by norm_num)
    (fun _ _ => ⟨rfl, by simp⟩) (fun _ _ _ _ _ _ => ⟨_, rfl⟩) (fun _ _ _ _ _ _ _ _ => ⟨_, rfl⟩)
  exact ⟨g, idx, h, h'⟩

/-! ## C35 – multi-slice connection in 3D -/

/-- The full claim, first half: the spatial build never joins a vertex with itself. -/
def C35_no_self_claim : Prop :=
  ∀ (dist : ℕ → ℕ → ℝ) (freeSame : ℕ → Vec → Vec → Res Bool)
    (freeMulti : ℕ → ℕ → Vec → Vec → Res Bool) (gapX gapY : ℝ) (mk : ℕ → ℝ → ℝ → ℝ → Vec)
    (seg : ℕ → List (ℝ × FreeSeg)) (n : ℕ) (g : Graph) (idx : List VertexIdx),
    (∀ i x y z, (mk i x y z).length = 7) →
    buildRoadmap3D dist freeSame freeMulti gapX gapY mk seg n = .ok (g, idx) → ∀ e ∈ g.edge, e.1 ≠ e.2

/-- The full claim, second half: every pair of different slices with an acceptable pair of vertices is
joined (in one direction or the other). -/
def C35_pairs_claim : Prop :=
  ∀ (dist : ℕ → ℕ → ℝ) (freeSame : ℕ → Vec → Vec → Res Bool)
    (freeMulti : ℕ → ℕ → Vec → Vec → Res Bool) (gapX gapY : ℝ) (mk : ℕ → ℝ → ℝ → ℝ → Vec)
    (seg : ℕ → List (ℝ × FreeSeg)) (n : ℕ) (g : Graph) (idx : List VertexIdx),
    (∀ i x y z, (mk i x y z).length = 7) →
    buildRoadmap3D dist freeSame freeMulti gapX gapY mk seg n = .ok (g, idx) →
    ∀ (i j : ℕ) (s t : VertexIdx), i < j → idx[i]? = some s → idx[j]? = some t →
      JoinedIfPossible (near3D gapX gapY) (freeMulti i j) s t g

/-- A slice with a single sample at the origin. -/
noncomputable def oneSample : List (ℝ × FreeSeg) := [(0, ⟨[0], [⟨[0], [0], [0]⟩]⟩)]

/-- The scene of the counterexamples: every slice has one sample at the origin, all checks accept. -/
theorem oneSample_slice (q : Vec) (g : Graph) :
    constructSlice3D (fun _ _ => .ok true) (fun x y z => x :: y :: z :: q) oneSample g =
      .ok (g.addVertex (0 :: 0 :: 0 :: q),
        ⟨g.vertex.length, g.vertex.length + 1, [[g.vertex.length]]⟩) := by
  simp [constructSlice3D, oneSample, planeStep, generateVertices, genRow, connectOneSlice2D, linkLine,
    linkSample, linkRow, Res.idx, Res.at', Graph.addVertex, List.range_succ]

theorem C35_build_three (q : Vec) : ∃ w, buildRoadmap3D (fun _ _ => 0) (fun _ _ _ => .ok true)
    (fun _ _ _ _ => .ok true) 1 1 (fun _ x y z => x :: y :: z :: q) (fun _ => oneSample) 3 =
      .ok (⟨[0 :: 0 :: 0 :: q, 0 :: 0 :: 0 :: q, 0 :: 0 :: 0 :: q], [(0, 0), (0, 1), (0, 2)], w⟩,
        [⟨0, 1, [[0]]⟩, ⟨1, 2, [[1]]⟩, ⟨2, 3, [[2]]⟩]) := by
  have hb : buildSlices (fun _ => constructSlice3D (fun _ _ => .ok true)
      (fun x y z => x :: y :: z :: q) oneSample) 3 .empty [] =
      .ok (⟨[0 :: 0 :: 0 :: q, 0 :: 0 :: 0 :: q, 0 :: 0 :: 0 :: q], [], []⟩,
        [⟨0, 1, [[0]]⟩, ⟨1, 2, [[1]]⟩, ⟨2, 3, [[2]]⟩]) := by
    simp [buildSlices, List.range_succ, oneSample_slice, Graph.addVertex, Graph.empty]
  have hn : ∀ i < 3, nearestSlice3D (fun _ _ => (0 : ℝ)) i 3 = 0 := by
    intro i hi
    interval_cases i <;> simp [nearestSlice3D, nearestLoop, ltInf]
  have hm : ∀ (E : List (ℕ × ℕ)) (W : List ℝ) (i : ℕ), i < 3 → ∃ w,
      multiStep3D (fun _ _ => 0) (fun _ _ _ _ => .ok true) 1 1 3
        [⟨0, 1, [[0]]⟩, ⟨1, 2, [[1]]⟩, ⟨2, 3, [[2]]⟩]
        ⟨[0 :: 0 :: 0 :: q, 0 :: 0 :: 0 :: q, 0 :: 0 :: 0 :: q], E, W⟩ i =
      .ok ⟨[0 :: 0 :: 0 :: q, 0 :: 0 :: 0 :: q, 0 :: 0 :: 0 :: q], E ++ [(0, i)], w⟩ := by
    intro E W i hi
    unfold multiStep3D
    rw [hn i hi]
    have h01 : ¬ (1 : ℝ) < 0 := by norm_num
    have hnr : near3D 1 1 (0 :: 0 :: 0 :: q) (0 :: 0 :: 0 :: q) = .ok true := by
      simp [near3D, Res.at', h01]
    refine ⟨W ++ [euclid (0 :: 0 :: 0 :: q) (0 :: 0 :: 0 :: q)], ?_⟩
    interval_cases i <;>
    (simp [Res.at', Res.idx, matchRanges, matchStep, matchOne, hnr, Graph.addEdge_eq, Graph.withEdge])
  obtain ⟨w0, h0⟩ := hm [] [] 0 (by norm_num)
  obtain ⟨w1, h1⟩ := hm ([] ++ [(0, 0)]) w0 1 (by norm_num)
  obtain ⟨w2, h2⟩ := hm ([] ++ [(0, 0)] ++ [(0, 1)]) w1 2 (by norm_num)
  refine ⟨w2, ?_⟩
  unfold buildRoadmap3D
  rw [hb, Res.bind_ok']
  unfold connectMultiSlice3D
  simp only [List.length_cons, List.length_nil]
  rw [if_neg (by norm_num), show List.range (0 + 1 + 1 + 1) = [0, 1, 2] from rfl]
  rw [List.foldlM_cons, h0]
  change Res.bind (List.foldlM _ _ [1, 2]) _ = _
  rw [List.foldlM_cons, h1]
  change Res.bind (List.foldlM _ _ [2]) _ = _
  rw [List.foldlM_cons, h2]
  rfl

/-- Slice 0 is "connected" with itself: the roadmap contains the edge (0, 0). -/
theorem C35_no_self_refuted : ¬ C35_no_self_claim := by
  intro h
  obtain ⟨w, hw⟩ := C35_build_three [1, 0, 0, 0]
  exact h _ _ _ _ _ _ _ _ _ _ (fun _ _ _ _ => rfl) hw (0, 0) (by simp) rfl

/-- Slices 1 and 2 are never tried against each other although every pair of vertices is acceptable. -/
theorem C35_pairs_refuted : ¬ C35_pairs_claim := by
  intro h
  obtain ⟨w, hw⟩ := C35_build_three [1, 0, 0, 0]
  obtain ⟨e, he, hr⟩ := h _ _ _ _ _ _ _ _ _ _ (fun _ _ _ _ => rfl) hw 1 2 _ _ (by norm_num) rfl rfl
    1 2 _ _ (le_refl 1) (by norm_num) (le_refl 2) (by norm_num) rfl rfl
    (by have h01 : ¬ (1 : ℝ) < 0 := by norm_num
        simp [near3D, Res.at', h01]) rfl
  simp at he hr
  rcases he with rfl | rfl | rfl <;> simp at hr

/-- C35, the part that holds: the spatial build returns (for total checks and aligned sweeps), and every
slice `i ≥ 1` is tried against one *earlier* slice, a nearest one, to which it is joined whenever a near
and accepted pair of vertices exists. -/
theorem C35_nearest_earlier_partial (dist : ℕ → ℕ → ℝ) (freeSame : ℕ → Vec → Vec → Res Bool)
    (freeMulti : ℕ → ℕ → Vec → Vec → Res Bool) (gapX gapY : ℝ) (mk : ℕ → ℝ → ℝ → ℝ → Vec)
    (seg : ℕ → List (ℝ × FreeSeg)) (n dim : ℕ) (hdim : 2 < dim) (hmk : ∀ i x y z, (mk i x y z).length = dim)
    (hseg : ∀ i < n, seg i ≠ [] ∧ (∀ p ∈ seg i, p.2.Aligned) ∧
        ∀ p ∈ seg i, ∀ q ∈ seg i, p.2.ty.length = q.2.ty.length)
    (hsame : ∀ i < n, TotalOn dim (freeSame i)) (hmulti : ∀ i < n, ∀ j < n, TotalOn dim (freeMulti i j)) :
    ∃ g idx, buildRoadmap3D dist freeSame freeMulti gapX gapY mk seg n = .ok (g, idx) ∧ idx.length = n ∧
      ∀ i < n, i ≠ 0 → ∃ j < i, (∀ t < i, dist i j ≤ dist i t) ∧
        ∀ (s t : VertexIdx), idx[i]? = some s → idx[j]? = some t →
          JoinedIfPossible (near3D gapX gapY) (freeMulti i j) t s g := by
  have hsat := buildRoadmap3D_sat (tot := True) (dist := dist) (freeSame := freeSame)
    (freeMulti := freeMulti) (gapX := gapX) (gapY := gapY) (mk := mk) (seg := seg) (n := n)
    (dim := dim) (fun _ v => v.length = dim) (fun _ _ h => h)
    (fun i p _ => Sample.all (hmk i p.1))
    (fun i v1 v2 v z ⟨p1, _, s1⟩ ⟨p2, _, s2⟩ _ hv _ _ => set_third_length (Sample.all (Vp := fun v => v.length = dim) (hmk i p1.1) v1 s1)
      (Sample.all (Vp := fun v => v.length = dim) (hmk i p2.1) v2 s2) hv) (fun _ => ⟨hdim, hseg, hsame, hmulti⟩)
  obtain ⟨⟨g, idx⟩, hr⟩ := hsat.2 trivial
  obtain ⟨-, h2, -, -, h5⟩ := hsat.1 _ hr
  simp only at h2 h5
  refine ⟨g, idx, hr, h2, fun i hi h0 => ?_⟩
  obtain ⟨h6, h7⟩ := nearestSlice3D_spec dist hi h0
  exact ⟨_, h6, h7, fun s t hs ht => h5 (by omega) i s t hs ht⟩

/-! ## C42 – the metric -/

/-- C42: on vectors of one dimension `vectorEuclidean` returns a number, and these numbers form a metric.
(On vectors of different dimensions the code may read past the end of the second one.) -/
theorem C42_metric (n : ℕ) : ∃ d : Vec → Vec → ℝ,
    (∀ a b : Vec, a.length = n → b.length = n → vectorEuclidean a b = .ok (d a b)) ∧
    (∀ a b : Vec, a.length = n → b.length = n → 0 ≤ d a b ∧ d a b = d b a ∧ (d a b = 0 ↔ a = b)) ∧
    (∀ a b c : Vec, a.length = n → b.length = n → c.length = n → d a c ≤ d a b + d b c) ∧
    (∀ a b : Vec, a.length = n → b.length = n →
      d a b ^ 2 = (List.zipWith (fun x y => (x - y) ^ 2) a b).sum) := by
  refine ⟨euclid, fun a b ha hb => vectorEuclidean_eq (by rw [ha, hb]), fun a b ha hb =>
    ⟨euclid_nonneg a b, euclid_comm a b, euclid_eq_zero (by rw [ha, hb])⟩,
    fun a b c ha hb hc => euclid_triangle (by rw [ha, hb]) (by rw [hb, hc]), fun a b _ _ => ?_⟩
  unfold euclid
  rw [Real.sq_sqrt]
  have := sumsq_nonneg (List.zipWith (· - ·) a b)
  rwa [List.map_zipWith] at this

/-- Different dimensions: a longer first vector reads past the end of the second. -/
theorem C42_dimension_mismatch (a b : Vec) (h : b.length < a.length) : vectorEuclidean a b = .ub := by
  have : ∀ a b : Vec, b.length < a.length → vecDiff a b = .ub := by
    intro a
    induction a with
    | nil => intro b h; simp at h
    | cons x a ih =>
      intro b h
      cases b with
      | nil => rfl
      | cons y b => simp only [vecDiff, ih b (by simpa using h)]; rfl
  simp [vectorEuclidean, this a b h]

example : vectorEuclidean [0, 3] [4, 0] = .ok 5 := by
  rw [vectorEuclidean_eq (by simp)]
  simp only [euclid, List.zipWith_cons_cons, List.zipWith_nil_left, List.sum_cons, List.sum_nil]
  rw [show (0 - 4 : ℝ) ^ 2 + ((3 - 0) ^ 2 + 0) = 5 ^ 2 by norm_num, Real.sqrt_sq (by norm_num)]

/-! ## C58 – incremental connection of ProbHRM -/

/-- C58 (connection part): a new slice is tried against exactly one earlier slice, a nearest one in the
configuration distance, and is joined to it whenever a near and accepted pair of vertices exists. -/
theorem C58_connect_nearest (dist : ℕ → ℝ) (freeMulti : ℕ → Vec → Vec → Res Bool) (gapX gapY : ℝ)
    (n dim : ℕ) (idx : List VertexIdx) (g : Graph) (hn : 2 ≤ n) (hdim : 2 ≤ dim)
    (hg : ∀ v ∈ g.vertex, v.length = dim) (hidx : idx.length = n)
    (hb : ∀ s ∈ idx, s.slice ≤ g.vertex.length) (htot : ∀ j, TotalOn dim (freeMulti j)) :
    ∃ g', probConnect dist freeMulti gapX gapY n idx g = .ok g' ∧ g'.vertex = g.vertex ∧ g.Ext g' ∧
      ∃ j < n - 1, (∀ t < n - 1, dist j ≤ dist t) ∧
        ∀ (s t : VertexIdx), idx[n - 1]? = some s → idx[j]? = some t →
          JoinedIfPossible (near3D gapX gapY) (freeMulti j) t s g' := by
  have hsat := probConnect_sat (tot := True) (dist := dist) (freeMulti := freeMulti) (gapX := gapX)
    (gapY := gapY) (n := n) (idx := idx) (g := g) (dim := dim) (Acc := fun _ _ => True) hg
    (by intros; trivial) (fun _ => ⟨hidx, by omega, hdim, hb, htot⟩)
  obtain ⟨g', hr⟩ := hsat.2 trivial
  obtain ⟨h1, h2⟩ := hsat.1 _ hr
  obtain ⟨h3, h4⟩ := probNearest_spec dist hn
  exact ⟨g', hr, h1.noVertex, h1.ext, _, h3, h4, h2 (by omega)⟩

/-! ## C65 – in the plane bridging has no effect -/

/-- C65: the vertices of a planar roadmap are exactly the sweep-line samples of its slices, in order:
the bridge-vertex fall-back never adds a vertex, since both ends of a planar same-slice transition have
the same third coordinate (the heading). -/
theorem C65_planar_vertices_are_samples (freeSame : ℕ → Vec → Vec → Res Bool)
    (freeMulti : ℕ → ℕ → Vec → Vec → Res Bool) (gap : ℝ) (headings : ℕ → ℝ) (seg : ℕ → FreeSeg) (n : ℕ)
    (g : Graph) (idx : List VertexIdx)
    (h : buildRoadmap2D freeSame freeMulti gap headings seg n = .ok (g, idx)) :
    g.vertex = (List.range n).flatMap (fun i => (List.zipWith
      (fun y r => r.M.map (fun x => [x, y, headings i])) (seg i).ty (seg i).rows).flatten) :=
  buildRoadmap2D_vertices h

/-- C65 (spatial): every vertex belongs to a slice and carries its orientation; it is a sample of one of the sweep lines
of that slice, at a height that belongs to this very line; or it was inserted between two such samples because their
direct transition was rejected: then it differs from one of them only in height, has the height of the other, and the
transitions from the first to it and from it to the second were accepted. -/
theorem C65_spatial_vertices (dist : ℕ → ℕ → ℝ) (freeSame : ℕ → Vec → Vec → Res Bool)
    (freeMulti : ℕ → ℕ → Vec → Vec → Res Bool) (gapX gapY : ℝ) (ori : ℕ → Vec)
    (seg : ℕ → List (ℝ × FreeSeg)) (n k : ℕ) (hori : ∀ i, (ori i).length = k)
    (g : Graph) (idx : List VertexIdx)
    (h : buildRoadmap3D dist freeSame freeMulti gapX gapY (fun i x y z => x :: y :: z :: ori i) seg n
      = .ok (g, idx)) (v : Vec) (hv : v ∈ g.vertex) :
    ∃ i < n, SliceSample (ori i) (seg i) v ∨ BridgeOf (freeSame i) (SliceSample (ori i) (seg i)) v := by
  obtain ⟨-, h2, h3, h4, -⟩ := (buildRoadmap3D_sat (tot := False) (dim := k + 3)
    (fun i v => v.length = k + 3 ∧ (SliceSample (ori i) (seg i) v ∨
      BridgeOf (freeSame i) (SliceSample (ori i) (seg i)) v))
    (fun i v h => h.1)
    (by
      rintro i p hp v ⟨j, y, r, z, hy, hr, hz, rfl⟩
      exact ⟨by simp [hori], Or.inl ⟨p, hp, j, y, r, z, hy, hr, hz, rfl⟩⟩)
    (by
      rintro i v1 v2 v z ⟨p1, hp1, j1, y1, r1, z1, a1, b1, c1, rfl⟩ ⟨p2, hp2, j2, y2, r2, z2, a2, b2, c2, rfl⟩ hrej hv f1 f2
      refine ⟨set_third_length (by simp [hori]) (by simp [hori]) hv, Or.inr ⟨_, _, ⟨p1, hp1, j1, y1, r1, z1, a1, b1, c1, rfl⟩,
        ⟨p2, hp2, j2, y2, r2, z2, a2, b2, c2, rfl⟩, hrej, ?_, f1, f2⟩⟩
      rcases hv with ⟨hz, rfl⟩ | ⟨hz, rfl⟩
      · exact Or.inl ⟨z, hz, rfl⟩
      · exact Or.inr ⟨z, hz, rfl⟩)
    (fun h => h.elim)).1 _ h
  obtain ⟨m, hm⟩ := List.mem_iff_getElem?.1 hv
  have hml := (List.getElem?_eq_some_iff.1 hm).1
  obtain ⟨i, ⟨s, hs, hs1, hs2⟩, -⟩ := h3.exists_unique m (Nat.zero_le m) hml
  refine ⟨i, ?_, ((h4 i s hs).2 m v hs1 hs2 hm).2⟩
  rw [← h2]; exact (List.getElem?_eq_some_iff.1 hs).1

/-! ## Witnesses -/

/-- A history meeting the hypotheses of C23 and C25: two slices of a spatial robot, then the incremental
connection, which adds an edge. -/
example : ∃ g, runOps [.slice3D (fun _ _ => .ok true) (fun x y z => x :: y :: z :: [1, 0, 0, 0]) oneSample,
    .slice3D (fun _ _ => .ok true) (fun x y z => x :: y :: z :: [0, 1, 0, 0]) oneSample,
    .prob (fun _ => 1) (fun _ _ _ => .ok true) 1 1 2 [⟨0, 1, [[0]]⟩, ⟨1, 2, [[1]]⟩]] .empty = .ok g ∧
    g.edge ≠ [] := by
  obtain ⟨g', h1, h2, -, j, hj, -, h4⟩ := C58_connect_nearest (fun _ => 1) (fun _ _ _ => .ok true) 1 1 2 7
    [⟨0, 1, [[0]]⟩, ⟨1, 2, [[1]]⟩] ⟨[[0, 0, 0, 1, 0, 0, 0], [0, 0, 0, 0, 1, 0, 0]], [], []⟩ le_rfl
    (by norm_num) (by simp) rfl (by simp) (fun _ _ _ _ _ => ⟨_, rfl⟩)
  refine ⟨g', ?_, ?_⟩
  · unfold runOps
    rw [List.foldlM_cons]
    simp only [RoadOp.run, oneSample_slice, Res.bind_ok']
    change List.foldlM _ _ _ = _
    rw [List.foldlM_cons]
    simp only [RoadOp.run, oneSample_slice, Res.bind_ok']
    change List.foldlM _ _ _ = _
    rw [List.foldlM_cons]
    simp only [RoadOp.run, Graph.empty, Graph.addVertex, List.nil_append, List.cons_append]
    rw [h1]; rfl
  · obtain rfl : j = 0 := by omega
    have h01 : ¬ (1 : ℝ) < 0 := by norm_num
    obtain ⟨e, he, -⟩ := h4 ⟨1, 2, [[1]]⟩ ⟨0, 1, [[0]]⟩ rfl rfl 0 1 [0, 0, 0, 1, 0, 0, 0]
      [0, 0, 0, 0, 1, 0, 0] (by simp) (by simp) (by simp) (by simp) (by rw [h2]; rfl) (by rw [h2]; rfl)
      (by simp [near3D, Res.at', h01]) rfl
    intro hnil
    rw [hnil] at he
    simp at he

end Hrm
