# Formal model of ChirikjianLab/hrm in Lean 4 — design

## 1. Layout

* `lean/Verif/Model/*.lean` – the model, function by function. Every definition cites file and lines in /repo.
* `lean/Verif/Spec/*.lean` – small independent specifications (point sets, paths, convex polygons …).
* `lean/Verif/Lemmas/*.lean` – helper lemmas.
* `lean/Verif/Props/*.lean` – the property theorems and, next to each, `example`s showing that the hypotheses are met by a non-trivial case.
* `properties.jsonl`, `MANIFEST.json`, `seeded/LOG.jsonl` – property list, claims, mutation log.

## 2. Modelling conventions

* **Numbers.** Code that only compares/copies doubles (Interval, free segments) is modelled over an arbitrary linear
  order `α` – exact for non-NaN doubles – with `±DBL_MAX` as parameters. NaN is `none : Option α` where the code
  looks at it. Code that computes is modelled over an arbitrary linearly ordered field `K` (exact arithmetic; `ℚ` gives an
  executable instance) or `ℝ` (sqrt/trigonometry/powers). **Rounding is not modelled**, except in
  `Model/Rounded` (C89), where every operation of the planar sweep is followed by a rounding function. Divisions by zero that the code
  really performs are modelled in `D` = {nan, -inf, finite x, +inf} with IEEE special-value rules and exact finite arithmetic.
* **Undefined behaviour / exceptions** are distinct outcomes: `Res.ub`, `Res.throw` (std::out_of_range from `.at`).
* **std::sort** is unstable: the model takes *any* function meeting the contract (permutation, sorted); theorems quantify over it.
* **External calls**: Eigen solvers/SVD, boost A*, the clock, random numbers, OMPL, FCL, KDL, CGAL are parameters whose contract is a hypothesis of the theorem. For C83: `CgalOk` (a Delaunay triangulation: the cells lie in the hull of the points and cover it up to coplanar input) and `FclExact` (a query answers whether the two geometries, solids or surfaces as they are, have a common point); both are satisfiable (`cgalOk_allCells`, `fclExact_ideal`).
* A loop is a fold / structural recursion; mutation through references returns the new value.

## 3. Trusted base

Lean 4.33 kernel; axioms `propext`, `Classical.choice`, `Quot.sound` only (checked with `#print axioms`);
the reading of the C++ (cited per definition); the conventions of section 2. Not modelled: floating-point rounding (other than in the planar sweep, C89; overflow nowhere),
memory/time behaviour, threads (there are none), OMPL/FCL/KDL internals, Eigen internals, visualisation, CMake, the XML parsing of URDF files (the parsed robot description is a parameter; its conversion to a KDL tree by the bundled kdl_parser and the KDL joint/segment/forward-kinematics formulas are written out, Model/Kinematics; `GetQuatOk`, the contract for the rotation-to-quaternion conversion, is met by Eigen's, `matQuat`; `OmplLib.Ok`, the contract for OMPL's bounds check, angle wrap and quaternion normalisation, is met by `exists_omplLib`).

## 4. Per property plan

| id | model | proof plan |
|----|-------|-----------|
| C01-C05 | `Model/Interval` over a linear order, sort as parameter | induction over the merge loop with an invariant on (closed prefix, last interval) ; C02 by uniqueness of canonical gap-separated covers; C05 refuted by a nested witness, `_partial` for merged input |
| C06 | `Model/FreeSpace` table rows of `Option α` | composition of C01, C03, C04 |
| C07-C10 | `computeFreeSegment`, `enhanceFreeSegment` with UB for `size()-1` underflow | invariant "appended entries are degenerate triples taken from original rows"; pointwise order is preserved by sorting the three lists separately; C09 refuted for the last row, partial for the others |
| C11, C12 | `computeIntersectionInterval` + `setup` | refutation witness + what holds; C12: the number of rows is fixed at setup, doubling exceeds it: throws for all n |
| C13-C17 | polygons as vertex lists over an ordered field | sign-change counting around the cycle; convex polygons as intersection of half planes |
| C18-C21 | Möller–Trumbore over an ordered field | algebra (`field_simp`, `ring`) |
| C22 | index arithmetic over ℕ | `omega`, `Nat` div/mod |
| C23-C26 | roadmap state machine, operations as a list | invariants by induction over histories |
| C27-C31 | `search` with A* as executable model + contract | induction; optimality via consistent-heuristic invariant |
| C32 | plan loop with clock stream | induction on fuel / stream position |
| C33-C36 | slice loops | closed forms, refutations |
| C37-C38 | MultiBodyTree state machine | induction over histories |
| C39-C42 | interpolation, metric | algebra, `EuclideanSpace` |
| C43-C44 | characteristic polynomial of the pencil, `getRootsPolynomial` / `isEllipseSeparated` with `eigenvalues()` by contract | `ring` for coefficients; simultaneous diagonalisation; counterexamples with two unit circles; robust versions with explicit gap |
| C45-C48 | matrices over ℝ, SVD by contract | inner products, Hölder / Cauchy–Schwarz; refutations over the SVD contract |
| C49-C50 | text as `List Char`, `stof` and stream output as parameters with contracts (`Spec/Csv`) | round trip by induction over lines and fields |
| C51 | `defineParameters`, integer conversions with their undefined cases | field facts, floor bounds, refutations |
| C52 | nearest-vertex loops | fold invariants; `minQuat` without initial value as `Option` |
| C79-C81 | covering ellipsoids of moving bodies, grown obstacles | slerp commutes with attaching a body; covering chain; contact points and the geometric-mean inequality (minimum volume); hull of the boundary points. C81 in space: the faces that accept a point give a convex combination of sum points up to the triangle tolerance, absorbed by scaling both bodies by 1 + 4e-12 |
| C82 | convexity of boundary polygons | normals of increasing angle; the signed power is multiplicative and increasing; counterexample with numeric bounds |
| C83 | collision objects and pairwise collision test | triangles of a tetrahedralization lie in the hull of the samples and cover its boundary (segment to a far point); contracts for CGAL and FCL only; interior probes for the refutations, numeric bounds for the planar solid |
| C84 | URDF tree to KDL tree, getTransform, robotTF with joint values, choice of the description | induction over the tree (`Grows`: adding a subtree numbers its movable joints in preorder and leaves older segments alone); the pose of each segment equals the joint motion written with Rodrigues' formula; failures and configuration-file cases by evaluation |
| C85 | `FreeSpaceComputator::setup` on a used object (`std::vector::resize`) | row-wise characterisation of the resized tables, then the sweep-line lemmas; refutation by a second `setup` with other limits |
| C86 | one returned path of `HRM2D::plan`, all its inner steps, every point of each step | composition of C71 (checks of the returned path), C60 (sweep), C16/C17 (same-slice check) and C53 (check between slices); `C86_witness` runs a whole planner with an obstacle; `C86_turning_bodies_partial` adds C79: on turning steps the bodies lie within the ellipses found clear |
| C87 | one returned path of the spatial planners, all its inner steps; arbitrary triangle meshes | notion of being outside a mesh that needs no convexity (`Spec/Escape`: able to move beyond the bounding box without touching a face); scan of the faces returns all hits of a generic line, hence the sweep, the point test and the same-slice check preserve the ability to escape; composition with C73; `C87_witness` runs a whole planner with an obstacle; `C87_turning_bodies_partial` adds C79 |
| C88 | discs only: metric consequence of C86 for the true robot, not for its polygons | the sampled grown circle contains the disc smaller by its sag (separating line, nearest sampled angle; hrmPi < pi is absorbed by the bound 10^7 on the number of points); the enclosing ellipse of a rotating disc is the disc for every SVD; distance is 1-Lipschitz, so the points between two checked ones lose at most half their spacing; links on turning steps (Props/LinkDiscs): the centre of a link moves by at most the translation plus angle times lever |
| C89 | `Model/Rounded`: the planar sweep, the point test and the line heights with a rounding function after every operation; `Spec/Rounding` states the contract and defines `binary64` | forward error analysis of one edge crossing, transported through the sweep by the slice lemmas of C60; `binary64` is shown to meet the contract |
| C90 | the field `interpolated` of the report: `PlanOps.interp` is the function a call of `plan` reaches (base class copy for HRM2D and HRM3D, `HRM3D.cpp:271-299` for ProbHRM3D) | invariants of the plan loops, cost of C29 and interpolation of C70; refutation on the run of C87_witness |
| C91 | balls only: metric consequence of C87 for the true robot, not for its meshes | the latitude-longitude mesh with its overlapping seam and its faces crossed over at the poles: every ray from the centre meets a face of the cell in which its direction is largest, so a point below all face planes cannot escape (intermediate value along the way); face planes are at least R cos(d) cos(d') from the centre; the enclosing ellipsoid of a turning ball is the ball; distance is 1-Lipschitz; links on turning steps (Props/LinkBalls): the orientations of a link are those of the base times a fixed one, so their dot product is the same; between the checked configurations (Props/LinkMotion, Spec/Motion): slerp is characterised as the motion with constant turning speed, two rotations move a point by at most twice the sine of their angle times its distance |
| C92 | `PlannerKC` of C54 and the boundaries of the inflated base; metric consequence for discs | slices simulated as in C71 with the inflated robot, edges within slices only (the connection between slices adds nothing, C54); same-slice check and sweep rows as in C86; overlap of the smaller disc = overlap of the inflated one minus r/10; 1 - cos t <= t^2/2 |
| C93 | C75 composed with C87 (sweep, same-slice check), C53 (check between slices, bridging and ablated) and C79 (ellipsoids), for articulated robots | per step of the returned path: translation that cannot pass through a mesh, sweep-line step, or motion towards the nearest earlier slice with every interpolated body inside an ellipsoid found clear |
| C94 | Model/OmplSession: constructor, `setup`, `plan` of the three OMPL planners over histories of calls, with the caller's vectors in a store (the bounds are references) and the library by contract `OmplLib.Ok` | induction over the history: the settings in force are those of the last successful `setup`; case analysis of the state conversion (clamp, wrap, normalise); counterexamples for the refuted parts |
| C95 | Model/AngleAxis: `interpolateAngleAxis` with Eigen's matrix → quaternion → angle/axis → matrix conversions | Rodrigues' matrix is the rotation of the half-angle quaternion; slerp in terms of the half-angle quaternion; a half turn refutes the agreement |
| C96 | Model/Demo: a file system, `parsePlanningConfig` with its file names, `loadEnvironment`, `storeGraphInfo`, `storePathInfo` and the main program of demo/DemoHRMRigidBodyPlanning3D.cpp (without `storeRoutines`), on top of Model/Settings, Csv and Planner3D | file names of different roles differ; each `put` changes one file; C30/C28 for the stored path; reading back with C49/C77; a complete run on concrete files as witness (Props/DemoWitness) |
| C97 | Model/Demo: the main program of demo/DemoProbHRMArticulatedBodyPlanning3D.cpp (without `storeRoutines`), with the value of `isRobotRigid` as a parameter, on top of Model/Kinematics and `planProb` | refuted as stated: with the default flag the first pass reads joint values behind a vector of seven numbers; with the flag of the tests: C90/C32 for the report, the file lemmas of C96; a complete run on concrete files (Props/DemoProbWitness) |
| C98 | composition of Model/Demo with the path-safety results of the planners | C96 + C87 (rigid) and C97 + C93 (articulated) for the path read back from the resource files and written to the result files; general position of the sweep lines as in C87; two complete concrete runs meet the hypotheses (Props/DemoSafe) |
| C99 | Model/Routines (both spatial programs): `storeRoutines`, `getFreeSegmentOneSlice` and the whole main programs, on top of Model/Demo; the matrix printer is a parameter | the boundary of slice 0 is that of the constructor's robot (replicated over the slices), the sweep of the final planner returns what it returned while building (table shape, good intersections), the enhanced rows stay aligned (induction over the enhancement loops), PlaneOk of the roadmap for the vertices; C87 for the columns |
| C100 | Model/DemoOmpl: both OMPL demonstration programs from the resource files to the result files, on top of Model/Demo (files), Model/OmplSession (problem) and Model/Ompl (members); the library's answer to a problem is a parameter; the vector of obstacle meshes has no effect (no function reads `obsMesh_`) | inversion of the program composed with the inversion lemmas of C94 (`new_spec`, `stateOf_spec`), C96 (config files) and the call lemma of C56 (generalised to any number of joints); refutation on the concrete files of C96_witness, whose arena is not at the origin |
| C101 | Model/Bench: the command lines of all benchmark programs that are built (`argv` as a list; reading the null pointer at its end is undefined), the loops over trials and the statistics of the five for the highway roadmap planners; on top of Model/Demo, Model/Settings and the planners | case analysis on the number of arguments; inversion of the program down to `plan` of a new planner for every trial (induction over trials); rows by induction over the table; refutation by the README's command line; witness on the files of C97_witness_run; planar witness with three successful trials (C101_witness2D, Props/BenchWitness) |
| C53 | multi-slice check of the planar, spatial, articulated and ablation planners | loop characterisation, step by step and body by body |
| C54-C55 | HRM2DKC object and tetrahedra | invariants over the build; barycentric coordinates |
| C56-C57 | OMPL wrappers, library answers as parameters | induction over histories of calls; `noneOf` loops |
| C58, C75, C76, C72 (incremental) | `ProbHRM3D` object | invariants over passes; witness runs |
| C59-C62 | enhancement and sweep, end to end | composition with C06-C08, C13-C15 |
| C63-C64, C74 | 3D sweep and same-slice check | convexity along a line; composition with C18-C20, C06 |
| C65, C67 | roadmap construction | exact vertex lists, completeness of the connection loops |
| C66, C68 | repeated search, time accounting | state after the first search; clock streams |
| C69 | polygon of boundary points against the exact Minkowski sum | inclusion by convexity; refutation at every resolution |
| C70 | interpolated path | loop over segments, NaN as `none` |
| C71-C73 | `HRM2D`, `HRM3D`, `HRM3DAblation` objects, `plan()` | simulation of the object by the stateless pipeline, then composition of C06-C65 and C27-C32 |
| C77 | resource file → configuration file → objects | round trip through the CSV model |
| C78 | sweep lines of the three planners; the roadmap after a returning `plan` | arithmetic of the line table + the vertex characterisations of C65/C73/C75 |

Every property in `properties.jsonl` is expressed in the model; none is marked not applicable. Where the claim as a user
would state it is false of the code, the file contains `Cxx_claim` (the claim as a `Prop`), `Cxx_refuted` (its negation,
proved) and the strongest version that holds (`_partial` where something of the English statement is missing).

## 5. Findings

What the proofs show to be wrong or surprising in the pinned code. Each line names the theorem.

| where | finding | theorem |
|-------|---------|---------|
| DemoProbHRMArticulatedBodyPlanning3D.cpp:22-46 / PlanningRequest.h:40 | the program does not set `isRobotRigid = false`: every slice is placed with a vector of seven numbers, and `ProbHRM3D::setTransform` (ProbHRM3D.cpp:207-210) reads the joint values behind its end: undefined behaviour on every run | C97_demo_undefined, C97_refuted |
| HRM3D.h:30 / HighwayRoadMap.h:100 | `HRM3D::getInterpolatedSolutionPath(size_t)` does not override the virtual function with `unsigned int`: `plan` of HRM3D reports an un-interpolated copy as the interpolated path | C90_spatial_copy, C90_refuted |
| HRM3D.cpp:277-287 via ProbHRM3D.cpp:62 | start and goal with the same nearest vertex give cost 0: division by zero and a conversion to `int` that is undefined, so such a call never reports success | C90_goal_at_start |
| HRM2D.cpp `computeTFE` | link angles are normalised to (-π, π], headings are not: on the edge that closes the circle a link's ellipse does not contain the link | C79_planar_enclosed_refuted |
| Interval.cpp `complements` | exact only if the inner intervals are merged | C05_refuted |
| FreeSpace-inl.h `enhanceFreeSegment` | last row is not sorted; zero lines underflow `size()-1`; samples of the last line are therefore not chained | C09_refuted, C10, C62_refuted |
| FreeSpace2D/3D `computeIntersectionInterval` | arena interval is widened (`fmin`/`fmax` swapped), not clipped | C11_refuted |
| HighwayRoadMap-inl.h refinement | the table keeps the number of rows of the constructor, refining always throws `out_of_range` | C12_refuted |
| LineIntersection.cpp (planar) | a line through two coinciding crossings loses the second; segments through a vertex are missed | C15_refuted, C17_refuted |
| LineIntersection.cpp (spatial) | directions with a component below the tolerance are treated as axis-parallel; one hit on an open surface is read out of range | C20, C21, C63, C64 refutations |
| HighwayRoadMap-inl.h `search` | cost is summed over weights indexed by *vertex* ids; a second search walks a stale predecessor | C29_refuted, C66_refuted |
| HighwayRoadMap-inl.h | first and last step of every path are never collision checked | C31_refuted |
| HRM2D.cpp sampling | one slice: division by zero; two slices: connection always throws; a second `plan()` always fails | C33_refuted, C34, C72 |
| HRM3D.cpp `connectMultiSlice` | slice 0 joined with itself, most pairs never tried | C35_no_self_refuted, C35_pairs_refuted |
| FreeSpace.h:106 | the free-space object owns a *copy* of the robot, set only by HRM2DKC: C-obstacles never see the orientation of the slice | C36_refuted, C36_spatial_* |
| MultiBodyTree3D.cpp `minkSum` | subtracts the global instead of the relative link position | C38 |
| InterpolateSE3.cpp | `numStep = 0` is overwritten / followed by a NaN step | C41_refuted |
| EllipsoidSeparation.cpp | thresholds of 1e-6 on the roots: wrong in both directions | C43_refuted, C44_refuted |
| TightFitEllipsoid.cpp | angle from `acos(U(0,0))`, reflections turned into quaternions: result need not contain its inputs | C45 |
| SuperEllipse.cpp | normal lacks 1/a, 1/b: Minkowski boundary wrong unless a = b | C47_refuted |
| SuperEllipse.cpp | for the same reason the C-obstacle polygon of an elongated obstacle can be non-convex, although sweep and point test use two crossings only | C82_refuted |
| EllipsoidSQCollisionFCL.cpp | obstacles that are not ellipsoids are handed to FCL as triangle surfaces: a body inside the obstacle is not reported | C83_swallowed, C83_refuted |
| OMPL2D.cpp `setCollisionObject` | the auxiliary solid gets the exponents `{eps, 0.1}` in the wrong order, so its outline is nearly a box: false alarms and missed collisions | C83_planar_false_alarm, C83_planar_missed |
| MeshGenerator.cpp `getMeshFromSQ` | with two samples per direction all samples are coplanar, the surface is empty and no collision is ever reported | C83_two_samples |
| ParseURDF.cpp `getTransform` | an unknown body, a wrong number of joint values or an unreadable description is printed only: the identity is returned and the robot is planned for as a rigid one | C84_refuted, C84_unknown_body, C84_wrong_number, C84_missing_description |
| ParsePlanningSettings.cpp `parseStartGoalConfig` | numDOF = 12 for "tree" keeps six of the nine joint values: the tests then look for length 16 and plan without a description, the demo (description chosen by robot type) always throws | C84_tree_dropped, C84_short_start_throws |
| ParseURDF.cpp / kdl_parser.cpp | the forward kinematics reads joint value 0 even if there is no joint; floating and planar joints silently become fixed | C84_no_joint_ub, C84_unsupported_joint |
| FreeSpace-inl.h `setup` | a second `setup` keeps the rows that exist (old limits, old crossings, old width): stale answers, or `out_of_range` after `setRobot` with more links | C85_refuted, C85_wider_setup_throws |
| all planners | boundary polygons are inscribed, hence smaller than the true C-obstacle | C69_refuted |
| Parse2dCsvFile.cpp | non-numeric fields shift columns; `stof` loses precision; one out-of-range number makes the read throw | C49, C50 |
| ParsePlanningSettings.cpp | number of sweep lines may be 0 or about 2^64; the margin looks at the first semi-axis only; an empty obstacle list throws; the slice number given on the command line is overwritten | C51_* |
| HRM3D.cpp nearest vertex | `minQuat` is used uninitialised when the first orientation is a closest one | C52 |
| HRM2D.cpp multi-slice check | `numPoint = 0` accepts everything | C53_refuted |
| HRM2DKC.cpp | `polyhedronVertex_` is never filled: slices are never connected, paths keep one heading | C54_refuted |
| OMPL wrappers | `plan` returns true whenever `setup` was called; path accumulates over calls | C56_* |
| OMPL wrappers | start/goal outside of the bounds are silently moved inside (`enforceBounds`); an unknown planner or sampler number only prints a message and the library's default is used; `lowBound_`/`highBound_` are references to the caller's vectors; OMPL3DArticulated plans without a validity checker if `setup` is not called; the arena is never used in the validity check | C94_*_refuted, C94_bounds_dangling, C94_ids |
| DemoOMPL*.cpp | the planning box is built from the arena's semi-axes around the origin (the HRM programs add the arena's position): with an arena elsewhere start and goal are silently moved out of it; the margin uses the first semi-axis of the robot's base only | C100_refuted |
| BenchOMPL3D.cpp:10, 35 / BenchOMPL3DArticulated.cpp:10, 37 | accept exactly seven arguments but read eight (`argv[8]` is then null): the README's command line only prints the usage text, and seven arguments are undefined – no command line starts them | C101_ompl_never_starts, C101_refuted |
| BenchHRM3D*.cpp / BenchProbHRM3D*.cpp | with only the first of the two optional arguments, `argv[argc]` (null) is passed to `atoi` | C101_args_HRM3D, C101_args_Prob3D |
| BenchHRM2D.cpp:112 | a negative number of trials is no trial for the first loop and more than 2^63 for the second one, which reads beyond the table | C101_table2D |
| BenchHRM3D*.cpp / ParsePlanningSettings.cpp:150 / HRM3D.cpp:430-437, 456 | with the sampling method `0` (random orientations) `defineParameters` overwrites the number of slices of the command line by the number of orientations read, 0: no orientation is drawn and `q_[0]` is read from an empty vector | C101_random_sampling_undefined |
| BenchHRM2D.cpp:50, 77-81 / HighwayRoadMap-inl.h:91-107, HRM2D.cpp | the planar benchmark takes any number of slices from the command line, but planning never ends normally with fewer than three | C101_few_slices2D, C34_two_slices_never_return |
| ProbHRM3D.cpp | planning time counted twice; a second `plan()` mixes old samples; refinement at the 60th slice fails | C68, C72_incremental_mixes_samples, C76 |
| HRM3D.cpp `getInterpolatedSolutionPath` | short segments give NaN configurations | C70_refuted |
| InterpolateSE3.cpp `interpolateAngleAxis` | for orientations half a turn apart it may turn the other way round than `interpolateSlerp`; with `numStep = 0` it returns NaN | C95_refuted, C95_no_step |
