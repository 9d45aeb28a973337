import Verif.Props.Plan3DWitness

/-!
# The reported times of the concrete planners
-/

namespace Hrm

/-- **C68** (plane) A returning call of `plan` on a new planner reads the clock four times and reports exactly the two
measured periods; if it returns unsolved, the time limit has passed and no path is reported. -/
theorem C68_planar_report (L : Libs2) (base : SuperEllipse) (ops : List (RobotOp SuperEllipse 2)) (robot : Tree2)
    (hrun : Tree2.run ops (Tree2.new base) = .ok robot) (arena obs : List SuperEllipse) (hne : arena ≠ [] ∨ obs ≠ [])
    (start goal : Vec) (par : Param2) (clock : ℕ → ℝ) (timeLim : ℝ) (fuel : ℕ) (r' : PlanRep Planner2)
    (h : Planner2.plan L clock timeLim fuel (freshRep (.new robot arena obs start goal par)) = some (.ok r')) :
    r'.buildTime = clock 1 - clock 0 ∧ r'.searchTime = clock 3 - clock 2 ∧ r'.totalTime = r'.buildTime + r'.searchTime ∧
    (r'.st.res.solved = false → r'.solvedPath = [] ∧ timeLim ≤ r'.totalTime) := by
  have hr := run_inv_of hrun
  obtain ⟨B, hB, -⟩ := cspaceBoundary_ok hr arena obs
  obtain ⟨P, -, -, -, -, e1, e2, e3, -, e5⟩ := plan_fresh hr hB hne h
  obtain ⟨c1, c2, -⟩ := C32_plan_report _ _ _ _ _ _ h
  refine ⟨e1, e2, c2, fun hs => ⟨(e5.1 hs).1, c1.resolve_left ?_⟩⟩
  change ¬ r'.st.res.solved = true
  simp [hs]

/-- **C68** (space) The same for the spatial planner. -/
theorem C68_spatial_report (L : Libs3) (V : Variant) (hV : V.arm = none) (base : SuperQuadrics)
    (ops : List (RobotOp SuperQuadrics 3)) (robot : Tree3) (hrun : Tree3.run ops (Tree3.new base) = .ok robot)
    (quats : List Quat) (arena obs : List SuperQuadrics) (hne : arena ≠ [] ∨ obs ≠ []) (start goal : Vec)
    (par : Param3) (clock : ℕ → ℝ) (timeLim : ℝ) (fuel : ℕ) (r' : PlanRep Planner3)
    (h : Planner3.plan L V clock timeLim fuel (freshRep3 (.new robot quats arena obs start goal par true)) =
      some (.ok r')) :
    r'.buildTime = clock 1 - clock 0 ∧ r'.searchTime = clock 3 - clock 2 ∧ r'.totalTime = r'.buildTime + r'.searchTime ∧
    (r'.st.res.solved = false → r'.solvedPath = [] ∧ timeLim ≤ r'.totalTime) := by
  obtain ⟨P, -, -, -, -, e1, e2, e3, -, e5⟩ := plan_fresh3 hV (run_inv_of3 hrun) hne h
  obtain ⟨c1, c2, -⟩ := C32_plan_report _ _ _ _ _ _ h
  refine ⟨e1, e2, c2, fun hs => ⟨(e5.1 hs).1, c1.resolve_left ?_⟩⟩
  change ¬ r'.st.res.solved = true
  simp [hs]

/-- The call of `C71_witness` meets the hypotheses: with a clock that ticks once a second it reports two seconds. -/
example (sort : StdSort ℝ) (qr : QrSolve ℝ) (svd : SvdFun 2) (pick : ℕ → (ℕ → ℝ) → List ℕ → ℕ) (hpick : HeapTop pick) :
    ∃ dmin dmax r', Planner2.plan ⟨sort, dmin, dmax, qr, svd, pick⟩ (fun n => (n : ℝ)) 10 0
      (freshRep (.new (Tree2.new exRobot36) [exCircle 20] [] [0, 0, 0] [0, 0, 0] exPar71)) = some (.ok r') ∧
    r'.totalTime = 2 := by
  obtain ⟨dmin, dmax, r', h, -⟩ := C71_witness sort qr svd pick hpick (fun n => (n : ℝ)) 10
  obtain ⟨e1, e2, e3, -⟩ := C68_planar_report _ exRobot36 [] _ rfl _ _ (Or.inl (by simp)) _ _ _ _ _ _ _ h
  refine ⟨dmin, dmax, r', h, ?_⟩
  rw [e3, e1, e2]
  norm_num

end Hrm
