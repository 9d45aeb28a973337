import Verif.Model.Ompl
import Verif.Lemmas.MultiBody

/-!
# Property C56: what the OMPL baseline reports
-/

namespace Hrm

/-- The calls of `plan` in order; the result holds the members after the last one. -/
noncomputable def omplHistory (plan : OmplRep → OmplCall → Res (OmplRep × Bool)) (calls : List OmplCall)
    (s : OmplRep) : Res OmplRep :=
  calls.foldlM (fun s c => (plan s c).bind fun r => .ok r.1) s

/-- The library reported a path (exact or approximate) before the time limit. -/
def OmplCall.Found (c : OmplCall) : Prop :=
  ∃ r, c.solve = some r ∧ (r.status = .exact ∨ r.status = .approximate) ∧ c.time < c.maxTime

/-- The library found an exact solution. -/
def OmplCall.Exact (c : OmplCall) : Prop := ∃ r, c.solve = some r ∧ r.status = .exact

theorem status_toBool (t : OmplStatus) : t.toBool = true ↔ t = .exact ∨ t = .approximate := by
  cases t <;> simp [OmplStatus.toBool]

/-- The interpolated path of a call that found one, nothing otherwise. -/
noncomputable def OmplCall.interpPath (c : OmplCall) : List Vec :=
  open Classical in if c.Found then (match c.solve with | some r => r.interp | none => []) else []

/-- The simplified path of a call that found one, nothing otherwise. -/
noncomputable def OmplCall.simplePath (c : OmplCall) : List Vec :=
  open Classical in if c.Found then (match c.solve with | some r => r.simplified | none => []) else []

theorem omplSolve_spec (c : OmplCall) (s : OmplRep) (h : s.isSolved = false) :
    ((omplSolve c s).isSolved = true ↔ c.Found) ∧ (omplSolve c s).path = s.path ∧
      (omplSolve c s).pathInterp = s.pathInterp ∧ (omplSolve c s).ready = s.ready ∧
      (omplSolve c s).numValidStates = s.numValidStates ∧ (omplSolve c s).vertex = s.vertex ∧
      (omplSolve c s).edge = s.edge ∧
      (∀ r, c.solve = some r → (omplSolve c s).totalTime = c.time) ∧
      (c.solve = none → (omplSolve c s).totalTime = s.totalTime) := by
  unfold omplSolve OmplCall.Found
  cases hs : c.solve with
  | none => simp [h]
  | some r =>
    by_cases hc : r.status.toBool = true ∧ c.time < c.maxTime
    · simp [hc, ← status_toBool]
    · simp only [if_neg hc, h]
      simp
      intro h1
      by_contra h2
      exact hc ⟨(status_toBool _).2 h1, not_le.1 h2⟩

theorem omplGraph_spec (c : OmplCall) (n : ℕ) (s : OmplRep) (h : n ≤ c.verts.length) :
    omplGraph c n s = .ok { s with
      vertex := c.verts.take n, edge := (List.range n).flatMap fun i => (c.adj i).map fun j => (i, j) } := by
  unfold omplGraph
  rw [appendLoop (fun i => Res.idx c.verts i) (fun i => c.verts.getD i []) n (by
    intro i hi
    have hi : i < c.verts.length := by omega
    simp [Res.idx, List.getD, hi]) [], Res.bind_ok']
  congr 2
  rw [List.nil_append]
  apply List.ext_getElem
  · simp [h]
  · intro i h1 h2
    simp at h1 h2
    simp [List.getD, show i < c.verts.length by omega]

theorem omplGraph_ub (c : OmplCall) (n : ℕ) (s : OmplRep) (h : c.verts.length < n) : omplGraph c n s = .ub := by
  unfold omplGraph
  obtain ⟨k, rfl⟩ : ∃ k, n = c.verts.length + (k + 1) := ⟨n - c.verts.length - 1, by omega⟩
  rw [List.range_add, List.foldlM_append, appendLoop (fun i => Res.idx c.verts i) (fun i => c.verts.getD i []) c.verts.length (by
    intro i hi
    simp [Res.idx, List.getD, hi]) [], List.range_succ_eq_map]
  simp [Res.idx]

/-- The planners in space (also for articulated robots), one call: what is true of the members afterwards. -/
theorem omplPlanS_spec {dim : ℕ} {s s' : OmplRep} {c : OmplCall} {b : Bool} (hr : s.ready = true)
    (h : omplPlan dim getSolution3 s c = .ok (s', b)) :
    b = true ∧ s'.ready = true ∧ (s'.isSolved = true ↔ c.Found) ∧ s'.path = s.path ++ c.simplePath ∧
      s'.pathInterp = s.pathInterp ++ c.interpPath ∧ s'.vertex = c.verts ∧
      s'.edge = ((List.range c.verts.length).flatMap fun i => (c.adj i).map fun j => (i, j)) ∧
      s'.numGraphVertex = c.verts.length ∧ s'.numGraphEdges = c.numEdges ∧
      s'.numCollisionChecks = c.checked ∧ s'.numValidStates = c.valid ∧ s'.validSpace = c.prob ∧
      (c.solve ≠ none → s'.totalTime = c.time) ∧ (c.solve = none → s'.totalTime = s.totalTime) := by
  unfold omplPlan at h
  dsimp only at h
  rw [if_neg (by simp [hr])] at h
  cases h1 : readState dim c.start with
  | throw => rw [h1] at h; nomatch h
  | ub => rw [h1] at h; nomatch h
  | ok u =>
    cases h2 : readState dim c.goal with
    | throw => rw [h1, h2] at h; nomatch h
    | ub => rw [h1, h2] at h; nomatch h
    | ok u' =>
      rw [h1, h2, Res.bind_ok', Res.bind_ok'] at h
      obtain ⟨q1, q2, q3, q4, q5, q6, q7, q8, q9⟩ := omplSolve_spec c { s with isSolved := false } rfl
      set t := omplSolve c { s with isSolved := false } with ht
      unfold getSolution3 at h
      dsimp only at h
      rw [omplGraph_spec _ _ _ le_rfl, Res.bind_ok', Res.bind_ok'] at h
      obtain ⟨rfl, rfl⟩ : _ ∧ _ := by simpa using h
      have hp : (omplPath3 c t).path = s.path ++ c.simplePath ∧ (omplPath3 c t).pathInterp = s.pathInterp ++ c.interpPath ∧
          (omplPath3 c t).isSolved = t.isSolved ∧ (omplPath3 c t).ready = t.ready ∧
          (omplPath3 c t).totalTime = t.totalTime := by
        unfold omplPath3 OmplCall.simplePath OmplCall.interpPath
        by_cases hf : c.Found
        · obtain ⟨r, hr, hr2⟩ := hf
          have hf : c.Found := ⟨r, hr, hr2⟩
          rw [q1.2 hf, hr, if_pos hf, if_pos hf]
          simp [q2, q3]
        · have : t.isSolved = false := by simpa using fun e => hf (q1.1 e)
          rw [this, if_neg hf, if_neg hf]
          simp [q2, q3, this]
      obtain ⟨p1, p2, p3, p4, p5⟩ := hp
      refine ⟨rfl, ?_, ?_, ?_, ?_, ?_, rfl, rfl, rfl, rfl, rfl, rfl, ?_, ?_⟩
      · simp only [omplCounts, p4, q4, hr]
      · simp only [omplCounts, p3, q1]
      · simp only [omplCounts, p1]
      · simp only [omplCounts, p2]
      · rfl
      · intro hne
        obtain ⟨r, hr⟩ := Option.ne_none_iff_exists'.1 hne
        simp only [omplCounts, p5, q8 r hr]
      · intro hn
        simp only [omplCounts, p5, q9 hn]

/-- The planner for rigid bodies, one call. -/
theorem omplPlan3_spec {s s' : OmplRep} {c : OmplCall} {b : Bool} (hr : s.ready = true)
    (h : omplPlan3 s c = .ok (s', b)) :
    b = true ∧ s'.ready = true ∧ (s'.isSolved = true ↔ c.Found) ∧ s'.path = s.path ++ c.simplePath ∧
      s'.pathInterp = s.pathInterp ++ c.interpPath ∧ s'.vertex = c.verts ∧
      s'.edge = ((List.range c.verts.length).flatMap fun i => (c.adj i).map fun j => (i, j)) ∧
      s'.numGraphVertex = c.verts.length ∧ s'.numGraphEdges = c.numEdges ∧
      s'.numCollisionChecks = c.checked ∧ s'.numValidStates = c.valid ∧ s'.validSpace = c.prob ∧
      (c.solve ≠ none → s'.totalTime = c.time) ∧ (c.solve = none → s'.totalTime = s.totalTime) :=
  omplPlanS_spec hr h

theorem omplPlan2_spec {s s' : OmplRep} {c : OmplCall} {b : Bool} (hr : s.ready = true)
    (h : omplPlan2 s c = .ok (s', b)) :
    b = true ∧ s'.ready = true ∧ (s'.isSolved = true ↔ c.Found) ∧ s'.path = s.path ++ c.interpPath ∧
      s.numValidStates ≤ c.verts.length ∧ s'.vertex = c.verts.take s.numValidStates ∧
      s'.edge = ((List.range s.numValidStates).flatMap fun i => (c.adj i).map fun j => (i, j)) ∧
      s'.numGraphVertex = c.verts.length ∧ s'.numGraphEdges = c.numEdges ∧
      s'.numCollisionChecks = c.checked ∧ s'.numValidStates = c.valid ∧ s'.validSpace = c.prob ∧
      s'.totalTime = c.time := by
  unfold omplPlan2 omplPlan at h
  dsimp only at h
  rw [if_neg (by simp [hr])] at h
  cases h1 : readState 3 c.start with
  | throw => rw [h1] at h; nomatch h
  | ub => rw [h1] at h; nomatch h
  | ok u =>
    cases h2 : readState 3 c.goal with
    | throw => rw [h1, h2] at h; nomatch h
    | ub => rw [h1, h2] at h; nomatch h
    | ok u' =>
      rw [h1, h2, Res.bind_ok', Res.bind_ok'] at h
      obtain ⟨q1, q2, q3, q4, q5, q6, q7, q8, q9⟩ := omplSolve_spec c { s with isSolved := false } rfl
      set t := omplSolve c { s with isSolved := false } with ht
      unfold getSolution2 at h
      dsimp only at h
      have hp : (omplPath2 c t).path = s.path ++ c.interpPath ∧
          (omplPath2 c t).isSolved = t.isSolved ∧ (omplPath2 c t).ready = t.ready ∧
          (omplPath2 c t).numValidStates = s.numValidStates := by
        unfold omplPath2 OmplCall.interpPath
        by_cases hf : c.Found
        · obtain ⟨r, hr, hr2⟩ := hf
          have hf : c.Found := ⟨r, hr, hr2⟩
          rw [q1.2 hf, hr, if_pos hf]
          simp [q2, q5]
        · have : t.isSolved = false := by simpa using fun e => hf (q1.1 e)
          rw [this, if_neg hf]
          simp [q2, q5, this]
      obtain ⟨p1, p2, p3, p4⟩ := hp
      rcases Nat.lt_or_ge c.verts.length s.numValidStates with hlt | hge
      · rw [omplGraph_ub _ _ _ (by simpa [p4] using hlt)] at h
        nomatch h
      · rw [omplGraph_spec _ _ _ (by simpa [p4] using hge), Res.bind_ok', Res.bind_ok'] at h
        obtain ⟨rfl, rfl⟩ : _ ∧ _ := by simpa using h
        refine ⟨rfl, ?_, ?_, ?_, hge, ?_, ?_, rfl, rfl, rfl, rfl, rfl, rfl⟩
        · simp only [omplCounts, p3, q4, hr]
        · simp only [omplCounts, p2, q1]
        · simp only [omplCounts, p1]
        · simp only [omplCounts, p4]
        · simp only [omplCounts, p4]

/-! ## Histories -/

theorem omplHistory_snoc (plan : OmplRep → OmplCall → Res (OmplRep × Bool)) (calls : List OmplCall) (c : OmplCall)
    (s : OmplRep) :
    omplHistory plan (calls ++ [c]) s = (omplHistory plan calls s).bind fun t => (plan t c).bind fun r => .ok r.1 := by
  unfold omplHistory
  rw [List.foldlM_append]
  change Res.bind _ _ = _
  congr 1
  funext t
  change Res.bind (Res.bind (plan t c) _) _ = _
  cases plan t c <;> rfl

theorem omplHistory3 {calls : List OmplCall} {s : OmplRep} (h : omplHistory omplPlan3 calls (OmplRep.init true) = .ok s) :
    s.ready = true ∧ s.path = (calls.map OmplCall.simplePath).flatten ∧
      s.pathInterp = (calls.map OmplCall.interpPath).flatten := by
  induction calls using List.reverseRecOn generalizing s with
  | nil =>
    obtain rfl := (Res.ok.injEq _ _).mp h
    exact ⟨rfl, rfl, rfl⟩
  | append_singleton calls c ih =>
    rw [omplHistory_snoc] at h
    cases h1 : omplHistory omplPlan3 calls (OmplRep.init true) with
    | throw => rw [h1] at h; nomatch h
    | ub => rw [h1] at h; nomatch h
    | ok t =>
      obtain ⟨i1, i2, i3⟩ := ih h1
      rw [h1, Res.bind_ok'] at h
      cases h2 : omplPlan3 t c with
      | throw => rw [h2] at h; nomatch h
      | ub => rw [h2] at h; nomatch h
      | ok r =>
        obtain ⟨s', b⟩ := r
        rw [h2, Res.bind_ok'] at h
        obtain rfl := (Res.ok.injEq _ _).mp h
        obtain ⟨-, q1, -, q3, q4, -⟩ := omplPlan3_spec i1 h2
        refine ⟨q1, ?_, ?_⟩
        · simp only [q3, i2, List.map_append, List.flatten_append, List.map_cons, List.map_nil, List.flatten_cons,
            List.flatten_nil, List.append_nil]
        · simp only [q4, i3, List.map_append, List.flatten_append, List.map_cons, List.map_nil, List.flatten_cons,
            List.flatten_nil, List.append_nil]

/-- The motion counter of the last of these calls. -/
def lastValid (calls : List OmplCall) : ℕ := (calls.getLast?.map OmplCall.valid).getD 0

theorem omplHistory2 {calls : List OmplCall} {s : OmplRep} (h : omplHistory omplPlan2 calls (OmplRep.init true) = .ok s) :
    s.ready = true ∧ s.path = (calls.map OmplCall.interpPath).flatten ∧ s.numValidStates = lastValid calls := by
  induction calls using List.reverseRecOn generalizing s with
  | nil =>
    obtain rfl := (Res.ok.injEq _ _).mp h
    exact ⟨rfl, rfl, rfl⟩
  | append_singleton calls c ih =>
    rw [omplHistory_snoc] at h
    cases h1 : omplHistory omplPlan2 calls (OmplRep.init true) with
    | throw => rw [h1] at h; nomatch h
    | ub => rw [h1] at h; nomatch h
    | ok t =>
      obtain ⟨i1, i2, -⟩ := ih h1
      rw [h1, Res.bind_ok'] at h
      cases h2 : omplPlan2 t c with
      | throw => rw [h2] at h; nomatch h
      | ub => rw [h2] at h; nomatch h
      | ok r =>
        obtain ⟨s', b⟩ := r
        rw [h2, Res.bind_ok'] at h
        obtain rfl := (Res.ok.injEq _ _).mp h
        obtain ⟨-, q1, -, q3, -, -, -, -, -, -, q4, -⟩ := omplPlan2_spec i1 h2
        refine ⟨q1, ?_, ?_⟩
        · simp only [q3, i2, List.map_append, List.flatten_append, List.map_cons, List.map_nil, List.flatten_cons,
            List.flatten_nil, List.append_nil]
        · simp [q4, lastValid]

/-! ## C56 -/

/-- The claim, first half: `plan` returns `true` only if a solution was found. -/
def C56_claim (plan : OmplRep → OmplCall → Res (OmplRep × Bool)) : Prop :=
  ∀ (calls : List OmplCall) (c : OmplCall) (s s' : OmplRep), omplHistory plan calls (OmplRep.init true) = .ok s →
    plan s c = .ok (s', true) → c.Exact

/-- The claim, second half: after a call that found a solution, the path is that of this call. -/
def C56_path_claim (plan : OmplRep → OmplCall → Res (OmplRep × Bool)) (path : OmplCall → List Vec) : Prop :=
  ∀ (calls : List OmplCall) (c : OmplCall) (s s' : OmplRep) (b : Bool),
    omplHistory plan calls (OmplRep.init true) = .ok s → plan s c = .ok (s', b) → c.Found → s'.path = path c

/-- C56 in the plane, what does hold after any history of calls and one more call `c` that neither throws nor is
undefined. The return value tells nothing; the solved flag, the time and the counters describe the last call; the path
is the concatenation of the paths of *all* calls that found one; the graph shown is the part of the last planner data
up to the motion counter of the *call before*. Missing from the claim: see `C56_refuted`, `C56_path_refuted`. -/
theorem C56_plane_partial {calls : List OmplCall} {c : OmplCall} {s s' : OmplRep} {b : Bool}
    (h : omplHistory omplPlan2 calls (OmplRep.init true) = .ok s) (hc : omplPlan2 s c = .ok (s', b)) :
    b = true ∧ (s'.isSolved = true ↔ c.Found) ∧ s'.totalTime = c.time ∧
      s'.path = (calls.map OmplCall.interpPath).flatten ++ c.interpPath ∧
      s'.numGraphVertex = c.verts.length ∧ s'.numGraphEdges = c.numEdges ∧ s'.numCollisionChecks = c.checked ∧
      s'.vertex = c.verts.take (lastValid calls) ∧ lastValid calls ≤ c.verts.length := by
  obtain ⟨h1, h2, h3⟩ := omplHistory2 h
  obtain ⟨q1, -, q2, q3, q4, q5, -, q6, q7, q8, -, -, q9⟩ := omplPlan2_spec h1 hc
  exact ⟨q1, q2, q9, h2 ▸ q3, q6, q7, q8, h3 ▸ q5, h3 ▸ q4⟩

/-- C56 in space: as above, but the graph is that of the last call; the time is that of the last call unless the
library threw. -/
theorem C56_space_partial {calls : List OmplCall} {c : OmplCall} {s s' : OmplRep} {b : Bool}
    (h : omplHistory omplPlan3 calls (OmplRep.init true) = .ok s) (hc : omplPlan3 s c = .ok (s', b)) :
    b = true ∧ (s'.isSolved = true ↔ c.Found) ∧ (c.solve ≠ none → s'.totalTime = c.time) ∧
      s'.path = (calls.map OmplCall.simplePath).flatten ++ c.simplePath ∧
      s'.pathInterp = (calls.map OmplCall.interpPath).flatten ++ c.interpPath ∧
      s'.numGraphVertex = c.verts.length ∧ s'.numGraphEdges = c.numEdges ∧ s'.numCollisionChecks = c.checked ∧
      s'.vertex = c.verts ∧
      s'.edge = ((List.range c.verts.length).flatMap fun i => (c.adj i).map fun j => (i, j)) := by
  obtain ⟨h1, h2, h3⟩ := omplHistory3 h
  obtain ⟨q1, -, q2, q3, q4, q5, q6, q7, q8, q9, -, -, q10, -⟩ := omplPlan3_spec h1 hc
  exact ⟨q1, q2, q10, h2 ▸ q3, h3 ▸ q4, q7, q8, q9, q5, q6⟩

theorem path_flatten_nil {f : OmplCall → List Vec} {calls : List OmplCall} (hf : ∀ c, ¬ c.Found → f c = [])
    (h : ∀ c ∈ calls, ¬ c.Found) : (calls.map f).flatten = [] := by
  induction calls with
  | nil => rfl
  | cons c cs ih =>
    rw [List.map_cons, List.flatten_cons, hf c (h c (by simp)), ih fun d hd => h d (by simp [hd])]
    rfl

/-- The second half of the claim holds for the first call that finds a solution. -/
theorem C56_first_solution {calls : List OmplCall} {c : OmplCall} {s s' : OmplRep} {b : Bool}
    (hn : ∀ d ∈ calls, ¬ d.Found) :
    (omplHistory omplPlan2 calls (OmplRep.init true) = .ok s → omplPlan2 s c = .ok (s', b) →
      s'.path = c.interpPath) ∧
    (omplHistory omplPlan3 calls (OmplRep.init true) = .ok s → omplPlan3 s c = .ok (s', b) →
      s'.path = c.simplePath ∧ s'.pathInterp = c.interpPath) := by
  have e1 := path_flatten_nil (f := OmplCall.interpPath) (fun c h => by simp [OmplCall.interpPath, h]) hn
  have e2 := path_flatten_nil (f := OmplCall.simplePath) (fun c h => by simp [OmplCall.simplePath, h]) hn
  constructor
  · intro h hc
    have := (C56_plane_partial h hc).2.2.2.1
    rw [this, e1]; rfl
  · intro h hc
    obtain ⟨-, -, -, p1, p2, -⟩ := C56_space_partial h hc
    rw [p1, p2, e1, e2]
    exact ⟨rfl, rfl⟩

/-- Without `setup`, `plan` reports failure and changes nothing but the flag. -/
theorem C56_not_ready (dim : ℕ) (g : OmplCall → OmplRep → Res OmplRep) (s : OmplRep) (c : OmplCall)
    (h : s.ready = false) : omplPlan dim g s c = .ok ({ s with isSolved := false }, false) := by
  unfold omplPlan
  simp [h]

/-- Reading a state throws exactly if the vector is too short. -/
theorem readState_eq (dim : ℕ) (v : Vec) : readState dim v = if dim ≤ v.length then .ok () else .throw := by
  unfold readState
  induction dim with
  | zero => simp
  | succ n ih =>
    rw [List.range_succ, List.foldlM_append, ih]
    by_cases h : n ≤ v.length
    · rw [if_pos h]
      change Res.bind (Res.ok ()) _ = _
      rw [Res.bind_ok', List.foldlM_cons]
      by_cases h' : n + 1 ≤ v.length
      · rw [if_pos h', Res.at'_eq_ok.2 (List.getElem?_eq_getElem (show n < v.length by omega))]; rfl
      · rw [if_neg h']
        have : v[n]? = none := by rw [List.getElem?_eq_none_iff]; omega
        unfold Res.at'
        rw [this]; rfl
    · rw [if_neg h, if_neg (by omega)]; rfl

theorem omplGraph_all (c : OmplCall) (s : OmplRep) : ∃ s', omplGraph c c.verts.length s = .ok s' := by
  unfold omplGraph
  have key : ∀ n ≤ c.verts.length, ∃ vs, (List.range n).foldlM (fun acc i => (Res.idx c.verts i).bind fun v => .ok (acc ++ [v])) [] =
      Res.ok vs := by
    intro n hn
    induction n with
    | zero => exact ⟨_, rfl⟩
    | succ n ih =>
      obtain ⟨vs, h⟩ := ih (by omega)
      refine ⟨vs ++ [c.verts[n]], ?_⟩
      rw [List.range_succ, List.foldlM_append, h]
      change Res.bind (Res.ok vs) _ = _
      rw [Res.bind_ok', List.foldlM_cons, Res.idx_eq_ok.2 (List.getElem?_eq_getElem (show n < c.verts.length by omega))]
      rfl
  obtain ⟨vs, h⟩ := key _ le_rfl
  rw [h]
  exact ⟨_, rfl⟩

/-- When `plan` returns: a state given with too few entries makes it throw (in the plane and in space), and nothing
else does; in space it returns whenever both states have their seven entries, whatever the library answers. -/
theorem C56_outcome (s : OmplRep) (c : OmplCall) (hs : s.ready = true) :
    (omplPlan2 s c = .throw ↔ c.start.length < 3 ∨ c.goal.length < 3) ∧
    (omplPlan3 s c = .throw ↔ c.start.length < 7 ∨ c.goal.length < 7) ∧
    ((∃ r, omplPlan3 s c = .ok r) ↔ 7 ≤ c.start.length ∧ 7 ≤ c.goal.length) := by
  have key : ∀ (dim : ℕ) (g : OmplCall → OmplRep → Res OmplRep), omplPlan dim g s c =
      if dim ≤ c.start.length ∧ dim ≤ c.goal.length then
        (g c (omplSolve c { s with isSolved := false })).bind fun s => .ok (s, true) else .throw := by
    intro dim g
    unfold omplPlan
    dsimp only
    rw [if_neg (by simp [hs]), readState_eq, readState_eq]
    by_cases h1 : dim ≤ c.start.length
    · by_cases h2 : dim ≤ c.goal.length
      · rw [if_pos h1, if_pos h2, if_pos ⟨h1, h2⟩]; rfl
      · rw [if_pos h1, if_neg h2, if_neg (c := dim ≤ c.start.length ∧ dim ≤ c.goal.length) (fun h : _ ∧ _ => h2 h.2)]; rfl
    · rw [if_neg h1]
      symm
      exact if_neg (fun h => h1 h.1)
  have g2 : ∀ (t : OmplRep), getSolution2 c t ≠ .throw := by
    intro t ht
    unfold getSolution2 omplGraph at ht
    dsimp only at ht
    have fold : ∀ (l : List ℕ) (acc : List Vec), l.foldlM (fun acc i => (Res.idx c.verts i).bind fun v => .ok (acc ++ [v])) acc ≠ .throw := by
      intro l
      induction l with
      | nil => intro acc h; exact nomatch h
      | cons i l ih =>
        intro acc h
        rw [List.foldlM_cons] at h
        cases hv : Res.idx c.verts i with
        | ok v => rw [hv] at h; exact ih _ h
        | ub => rw [hv] at h; exact nomatch h
        | throw => unfold Res.idx at hv; split at hv <;> exact nomatch hv
    revert ht
    generalize hl : List.range _ = l
    cases hf : l.foldlM (fun acc i => (Res.idx c.verts i).bind fun v => .ok (acc ++ [v])) [] with
    | ok vs => intro ht; exact nomatch ht
    | ub => intro ht; exact nomatch ht
    | throw => exact fun _ => fold _ _ hf
  have g3 : ∀ t : OmplRep, ∃ t', getSolution3 c t = .ok t' := by
    intro t
    unfold getSolution3
    dsimp only
    obtain ⟨t', h⟩ := omplGraph_all c { omplPath3 c t with numGraphVertex := c.verts.length, numGraphEdges := c.numEdges }
    rw [h]
    exact ⟨_, rfl⟩
  refine ⟨?_, ?_, ?_⟩
  · unfold omplPlan2
    rw [key]
    split
    · rename_i h
      refine ⟨fun e => ?_, fun e => by omega⟩
      cases hg : getSolution2 c (omplSolve c { s with isSolved := false }) with
      | ok t => rw [hg] at e; exact nomatch e
      | ub => rw [hg] at e; exact nomatch e
      | throw => exact absurd hg (g2 _)
    · exact ⟨fun _ => by omega, fun _ => rfl⟩
  · unfold omplPlan3
    rw [key]
    split
    · rename_i h
      obtain ⟨t', ht⟩ := g3 (omplSolve c { s with isSolved := false })
      rw [ht]
      exact ⟨(fun e => nomatch e), fun e => by omega⟩
    · exact ⟨fun _ => by omega, fun _ => rfl⟩
  · unfold omplPlan3
    rw [key]
    split
    · rename_i h
      obtain ⟨t', ht⟩ := g3 (omplSolve c { s with isSolved := false })
      rw [ht]
      exact ⟨fun _ => h, fun _ => ⟨_, rfl⟩⟩
    · rename_i h
      exact ⟨(fun ⟨_, e⟩ => nomatch e), fun e => absurd e h⟩

example : ∃ (s : OmplRep) (c : OmplCall), s.ready = true ∧ c.start.length = 2 ∧ omplPlan2 s c = .throw := by
  refine ⟨OmplRep.init true, ⟨[0, 0], [0, 0, 0], 1, none, 0, [], fun _ => [], 0, 0, 0, 0⟩, rfl, rfl, ?_⟩
  exact ((C56_outcome _ _ rfl).1).2 (Or.inl (by norm_num))

/-- After any number of calls that returned, also none, the solved flag tells whether the last call found a path. -/
theorem C56_flag {calls : List OmplCall} {s : OmplRep} :
    (omplHistory omplPlan2 calls (OmplRep.init true) = .ok s → (s.isSolved = true ↔ ∃ c, calls.getLast? = some c ∧ c.Found)) ∧
    (omplHistory omplPlan3 calls (OmplRep.init true) = .ok s → (s.isSolved = true ↔ ∃ c, calls.getLast? = some c ∧ c.Found)) := by
  constructor
  all_goals
    intro h
    rcases List.eq_nil_or_concat calls with rfl | ⟨l, c, rfl⟩
    · obtain rfl := (Res.ok.injEq _ _).mp h
      simp [OmplRep.init]
    · rw [List.concat_eq_append] at h ⊢
      rw [omplHistory_snoc] at h
      obtain ⟨t, h1, h⟩ := Res.bind_eq_ok.1 h
      obtain ⟨⟨s', b⟩, h2, h⟩ := Res.bind_eq_ok.1 h
      obtain rfl := (Res.ok.injEq _ _).mp h
      first
        | rw [(C56_plane_partial h1 h2).2.1]
        | rw [(C56_space_partial h1 h2).2.1]
      simp

/-- A second call in the plane whose planner data has fewer vertices than the first call counted valid motions reads
outside the planner data. -/
theorem C56_plane_ub {calls : List OmplCall} {c : OmplCall} {s : OmplRep}
    (h : omplHistory omplPlan2 calls (OmplRep.init true) = .ok s) (hs : 3 ≤ c.start.length) (hg : 3 ≤ c.goal.length)
    (hlt : c.verts.length < lastValid calls) : omplPlan2 s c = .ub := by
  have hread : ∀ v : Vec, 3 ≤ v.length → readState 3 v = .ok () := by
    intro v hv
    obtain ⟨a, b, d, l, rfl⟩ : ∃ a b d l, v = a :: b :: d :: l := by
      match v, hv with
      | a :: b :: d :: l, _ => exact ⟨a, b, d, l, rfl⟩
    rfl
  obtain ⟨h1, -, h3⟩ := omplHistory2 h
  cases hp : omplPlan2 s c with
  | ub => rfl
  | ok r =>
    obtain ⟨s', b⟩ := r
    have := (C56_plane_partial h hp).2.2.2.2.2.2.2.2
    omega
  | throw =>
    exfalso
    unfold omplPlan2 omplPlan at hp
    dsimp only at hp
    rw [if_neg (by simp [h1]), hread _ hs, hread _ hg, Res.bind_ok', Res.bind_ok'] at hp
    unfold getSolution2 at hp
    dsimp only at hp
    generalize hn : OmplRep.numValidStates _ = n at hp
    rcases Nat.lt_or_ge c.verts.length n with hlt | hge
    · rw [omplGraph_ub _ _ _ hlt] at hp; nomatch hp
    · rw [omplGraph_spec _ _ _ hge] at hp; nomatch hp

/-- A call that finds nothing. -/
def failCall : OmplCall := ⟨[0, 0, 0, 1, 0, 0, 0], [1, 0, 0, 1, 0, 0, 0], 1, none, 0, [], fun _ => [], 0, 0, 0, 0⟩

/-- A call with an exact solution of one state. -/
noncomputable def goodCall (x : ℝ) : OmplCall :=
  ⟨[0, 0, 0, 1, 0, 0, 0], [1, 0, 0, 1, 0, 0, 0], 1, some ⟨.exact, [[x]], [[x]], [[x]]⟩, 0, [], fun _ => [], 0, 0, 0, 0⟩

theorem goodCall_found (x : ℝ) : (goodCall x).Found := ⟨_, rfl, .inl rfl, by simp [goodCall]⟩

theorem C56_refuted : ¬ C56_claim omplPlan2 ∧ ¬ C56_claim omplPlan3 := by
  constructor
  · intro h
    obtain ⟨r, hr, -⟩ := h [] failCall _ _ rfl rfl
    nomatch hr
  · intro h
    obtain ⟨r, hr, -⟩ := h [] failCall _ _ rfl rfl
    nomatch hr

theorem good_plan2 (s : OmplRep) (hr : s.ready = true) (hv : s.numValidStates = 0) (x : ℝ) :
    ∃ s', omplPlan2 s (goodCall x) = .ok (s', true) := by
  unfold omplPlan2 omplPlan
  dsimp only
  rw [if_neg (by simp [hr])]
  obtain ⟨q1, q2, q3, q4, q5, q6, q7, q8, q9⟩ := omplSolve_spec (goodCall x) { s with isSolved := false } rfl
  change ∃ s', (getSolution2 _ _).bind _ = _
  unfold getSolution2
  dsimp only
  rw [omplGraph_spec]
  · exact ⟨_, rfl⟩
  · have : (omplPath2 (goodCall x) (omplSolve (goodCall x) { s with isSolved := false })).numValidStates = 0 := by
      unfold omplPath2
      split
      · exact q5.trans hv
      · exact q5.trans hv
    exact this.le.trans (Nat.zero_le _)

theorem good_plan3 (s : OmplRep) (hr : s.ready = true) (x : ℝ) :
    ∃ s', omplPlan3 s (goodCall x) = .ok (s', true) := by
  unfold omplPlan3 omplPlan
  dsimp only
  rw [if_neg (by simp [hr])]
  rw [show readState 7 (goodCall x).start = .ok () from rfl, show readState 7 (goodCall x).goal = .ok () from rfl,
    Res.bind_ok', Res.bind_ok']
  unfold getSolution3
  dsimp only
  rw [omplGraph_spec _ _ _ le_rfl]
  exact ⟨_, rfl⟩

theorem good_interp (x : ℝ) : (goodCall x).interpPath = [[x]] ∧ (goodCall x).simplePath = [[x]] := by
  unfold OmplCall.interpPath OmplCall.simplePath
  rw [if_pos (goodCall_found x), if_pos (goodCall_found x)]
  exact ⟨rfl, rfl⟩

/-- Two successful calls: the path is that of both. -/
theorem C56_path_refuted :
    ¬ C56_path_claim omplPlan2 OmplCall.interpPath ∧ ¬ C56_path_claim omplPlan3 OmplCall.simplePath := by
  constructor
  · intro h
    obtain ⟨s1, h1⟩ := good_plan2 (OmplRep.init true) rfl rfl 0
    have hh : omplHistory omplPlan2 [goodCall 0] (OmplRep.init true) = .ok s1 := by
      have := omplHistory_snoc omplPlan2 [] (goodCall 0) (OmplRep.init true)
      rw [List.nil_append] at this
      rw [this]
      change Res.bind (omplPlan2 (OmplRep.init true) (goodCall 0)) _ = _
      rw [h1]; rfl
    obtain ⟨r1, r2, r3⟩ := omplHistory2 hh
    obtain ⟨s2, h2⟩ := good_plan2 s1 r1 r3 1
    have e1 := h _ _ _ _ _ hh h2 (goodCall_found 1)
    have e2 := (C56_plane_partial hh h2).2.2.2.1
    rw [e1] at e2
    have := congrArg List.length e2
    simp [good_interp] at this
  · intro h
    obtain ⟨s1, h1⟩ := good_plan3 (OmplRep.init true) rfl 0
    have hh : omplHistory omplPlan3 [goodCall 0] (OmplRep.init true) = .ok s1 := by
      have := omplHistory_snoc omplPlan3 [] (goodCall 0) (OmplRep.init true)
      rw [List.nil_append] at this
      rw [this]
      rw [show omplHistory omplPlan3 [] (OmplRep.init true) = .ok (OmplRep.init true) from rfl, Res.bind_ok', h1]
      rfl
    obtain ⟨r1, r2, r3⟩ := omplHistory3 hh
    obtain ⟨s2, h2⟩ := good_plan3 s1 r1 1
    have e1 := h _ _ _ _ _ hh h2 (goodCall_found 1)
    have e2 := (C56_space_partial hh h2).2.2.2.1
    rw [e1] at e2
    have := congrArg List.length e2
    simp [good_interp] at this

end Hrm
