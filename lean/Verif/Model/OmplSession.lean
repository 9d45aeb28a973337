import Verif.Model.Ompl
import Verif.Model.Roadmap

/-!
# Model of the sessions with the OMPL baseline

include/hrm/planners/ompl_interface/OMPLInterface.h, OMPLInterface-inl.h, src/planners/ompl_interface/OMPL2D.cpp, OMPL3D.cpp,
OMPL3DArticulated.cpp: construction, `setup` and the planning problem that `plan` hands to the library.

The members `lowBound_`, `highBound_` are *references* to vectors of the caller (OMPLInterface.h:162, 165): the model has the
caller's vectors in a store and the session refers to them. What the library answers to a problem is in Model/Ompl.
-/

namespace Hrm

/-- The vectors of the caller; `none`: destroyed. -/
abbrev Store := ℕ → Option Vec

/-- The three planners. -/
inductive OmplKind where
  | plane
  | space
  | articulated (numJoint : ℕ)

/-- Number of coordinates of the position. -/
def OmplKind.posDim : OmplKind → ℕ
  | .plane => 2
  | _ => 3

/-- Number of coordinates of the orientation. -/
def OmplKind.rotDim : OmplKind → ℕ
  | .plane => 1
  | _ => 4

/-- Number of joints. -/
def OmplKind.joints : OmplKind → ℕ
  | .articulated n => n
  | _ => 0

/-- Number of coordinates read from a configuration, OMPL2D.cpp:155-166, OMPL3D.cpp:160-174, OMPL3DArticulated.cpp:82-103. -/
def OmplKind.dim (k : OmplKind) : ℕ := k.posDim + k.rotDim + k.joints

/-- The planners of OMPL that can be chosen, OMPLInterface-inl.h:102-121. -/
inductive OmplPlanner where
  | prm | lazyPrm | rrt | rrtConnect | est | sbl | kpiece
  deriving DecidableEq

/-- The samplers that can be chosen, OMPLInterface-inl.h:128-162. -/
inductive OmplSampler where
  | uniform | gaussian | obstacleBased | maxClearance | bridge
  deriving DecidableEq

/-- `setPlanner`, OMPLInterface-inl.h:99-122: another number only prints a message. -/
def plannerOf (id : ℕ) : Option OmplPlanner :=
  if id = 0 then some .prm
  else if id = 1 then some .lazyPrm
  else if id = 2 then some .rrt
  else if id = 3 then some .rrtConnect
  else if id = 4 then some .est
  else if id = 5 then some .sbl
  else if id = 6 then some .kpiece
  else none

/-- `setValidStateSampler`, OMPLInterface-inl.h:124-165: another number is ignored. -/
def samplerOf (id : ℕ) : Option OmplSampler :=
  if id = 0 then some .uniform
  else if id = 1 then some .gaussian
  else if id = 2 then some .obstacleBased
  else if id = 3 then some .maxClearance
  else if id = 4 then some .bridge
  else none

/-- What the session keeps in `ss_` (`ompl::geometric::SimpleSetup`): bounds of the position, planner and sampler if one was
set (otherwise the library chooses), and whether the state validity checker was set (without one the library takes every
state as valid). -/
structure OmplSpace where
  low : Vec
  high : Vec
  planner : Option OmplPlanner
  sampler : Option OmplSampler
  checker : Bool

/-- The library: `rejects lo hi` = `RealVectorBounds::check` throws for these bounds; `wrap` = `SO2StateSpace::enforceBounds`;
`norm` = `SO3StateSpace::enforceBounds`. -/
structure OmplLib where
  rejects : ℝ → ℝ → Prop
  wrap : ℝ → ℝ
  norm : Quat → Quat

/-- `ompl::base::RealVectorStateSpace::enforceBounds` for one coordinate. -/
noncomputable def clampTo (lo hi x : ℝ) : ℝ := if hi < x then hi else if x < lo then lo else x

/-- `enforceBounds` for a vector. -/
noncomputable def clampAll : Vec → Vec → Vec → Vec
  | lo :: los, hi :: his, x :: xs => clampTo lo hi x :: clampAll los his xs
  | _, _, _ => []

/-- `enforceBounds` for the orientation. -/
def OmplLib.rotBounds (L : OmplLib) : Vec → Vec
  | [t] => [L.wrap t]
  | [w, x, y, z] => let q := L.norm (w, x, y, z); [q.1, q.2.1, q.2.2.1, q.2.2.2]
  | r => r

/-- `enforceBounds` of the compound state: position, orientation, joints (`maxJointAngle_` = `HALF_PI`,
OMPL3DArticulated.cpp:39-43, OMPL3DArticulated.h:57). -/
noncomputable def OmplLib.enforce (L : OmplLib) (k : OmplKind) (S : OmplSpace) (u : Vec) : Vec :=
  clampAll S.low S.high (u.take k.posDim) ++ L.rotBounds ((u.drop k.posDim).take k.rotDim) ++
    clampAll (List.replicate k.joints (-hrmHalfPi)) (List.replicate k.joints hrmHalfPi) (u.drop (k.posDim + k.rotDim))

/-- The coordinates read with `.at`, OMPL2D.cpp:155-166, OMPL3D.cpp:160-174, OMPL3DArticulated.cpp:82-103. -/
def readEntries (v : Vec) (n : ℕ) : Res Vec :=
  (List.range n).foldlM (fun acc i => (Res.at' v i).bind fun x => .ok (acc ++ [x])) []

/-- The coordinates read with `[]`, OMPL2D.cpp:80-83, OMPL3D.cpp:79-84, OMPL3DArticulated.cpp:32-37. -/
def readBounds (v : Vec) (n : ℕ) : Res Vec :=
  (List.range n).foldlM (fun acc i => (Res.idx v i).bind fun x => .ok (acc ++ [x])) []

/-- `setStateFromVector` followed by `enforceBounds` in setStartAndGoalState, OMPLInterface-inl.h:173-185: the bounds are
enforced twice. -/
noncomputable def OmplLib.stateOf (L : OmplLib) (k : OmplKind) (S : OmplSpace) (v : Vec) : Res Vec :=
  (readEntries v k.dim).bind fun u => .ok (L.enforce k S (L.enforce k S u))

open Classical in
/-- `setStateSpace`, OMPL2D.cpp:74-88, OMPL3D.cpp:73-89, OMPL3DArticulated.cpp:22-55: a fresh `SimpleSetup`. (The bounds of the
joints are -π/2 and π/2 and are not rejected.) -/
noncomputable def OmplLib.setStateSpace (L : OmplLib) (k : OmplKind) (low high : Vec) : Res OmplSpace :=
  (readBounds low k.posDim).bind fun lo => (readBounds high k.posDim).bind fun hi =>
  if ∃ b ∈ lo.zip hi, L.rejects b.1 b.2 then .throw else .ok ⟨lo, hi, none, none, false⟩

/-- The members used here: the references to the bounds and `ss_`. -/
structure OmplSession where
  kind : OmplKind
  lowRef : ℕ
  highRef : ℕ
  ss : Option OmplSpace

/-- The vector behind a reference; reading a destroyed vector is undefined. -/
def Store.read (m : Store) (r : ℕ) : Res Vec :=
  match m r with
  | some v => .ok v
  | none => .ub

/-- The constructors, OMPLInterface-inl.h:28-36, OMPL2D.cpp:7-12, OMPL3D.cpp:7-14, OMPL3DArticulated.cpp:5-17: the articulated
planner sets its state space at once. -/
noncomputable def OmplSession.new (L : OmplLib) (k : OmplKind) (m : Store) (lowRef highRef : ℕ) : Res OmplSession :=
  match k with
  | .articulated n =>
    (m.read lowRef).bind fun lo => (m.read highRef).bind fun hi =>
    (L.setStateSpace (.articulated n) lo hi).bind fun S => .ok ⟨.articulated n, lowRef, highRef, some S⟩
  | k => .ok ⟨k, lowRef, highRef, none⟩

/-- What happens in a session: calls of `setup` and `plan`; `caller m`: the caller changes or destroys vectors of its own. -/
inductive OmplOp where
  | setup (plannerId samplerId : ℕ)
  | plan (start goal : Vec)
  | caller (m : Store)

/-- A problem as the library gets it. -/
structure OmplProblem where
  space : OmplSpace
  start : Vec
  goal : Vec

/-- What a call did: it returned (`setup`, or no call), an exception left it, it returned `false` without any planning, or it
handed this problem to `ss_->solve`. -/
inductive OmplOut where
  | done
  | threw
  | notReady
  | handed (p : OmplProblem)

/-- `setup`, OMPLInterface-inl.h:40-58. An exception of setStateSpace leaves the old `ss_` in place. (The collision objects:
Model/Ompl; that the library's own `setup` throws is not modelled.) -/
noncomputable def OmplSession.setup (L : OmplLib) (m : Store) (s : OmplSession) (pid sid : ℕ) : Res (OmplSession × OmplOut) :=
  (m.read s.lowRef).bind fun lo => (m.read s.highRef).bind fun hi =>
  match L.setStateSpace s.kind lo hi with
  | .ok S => .ok ({ s with ss := some { S with checker := true, planner := plannerOf pid, sampler := samplerOf sid } }, .done)
  | .throw => .ok (s, .threw)
  | .ub => .ub

/-- The beginning of `plan`, OMPLInterface-inl.h:60-76, up to `ss_->solve`. -/
noncomputable def OmplSession.plan (L : OmplLib) (s : OmplSession) (start goal : Vec) : Res OmplOut :=
  match s.ss with
  | none => .ok .notReady
  | some S =>
    match (L.stateOf s.kind S start).bind fun a => (L.stateOf s.kind S goal).bind fun b => .ok (a, b) with
    | .ok (a, b) => .ok (.handed ⟨S, a, b⟩)
    | .throw => .ok .threw
    | .ub => .ub

/-- One step of a session. -/
noncomputable def omplStep (L : OmplLib) (s : OmplSession × Store) : OmplOp → Res ((OmplSession × Store) × OmplOut)
  | .setup pid sid => (s.1.setup L s.2 pid sid).bind fun r => .ok ((r.1, s.2), r.2)
  | .plan start goal => (s.1.plan L start goal).bind fun o => .ok (s, o)
  | .caller m => .ok ((s.1, m), .done)

/-- A whole session. -/
noncomputable def omplRun (L : OmplLib) : List OmplOp → OmplSession × Store → Res ((OmplSession × Store) × List OmplOut)
  | [], s => .ok (s, [])
  | op :: ops, s => (omplStep L s op).bind fun r => (omplRun L ops r.1).bind fun r' => .ok (r'.1, r.2 :: r'.2)

end Hrm
