{"id": "C01", "title": "Interval union preserves the point set and is canonical", "statement": "For every list of intervals whose starts do not exceed their ends, Interval::unions returns intervals that cover exactly the points covered by the inputs, listed by increasing start, any two of them separated by a gap (end of one < start of the next); the empty list gives the empty list.", "quantifier": "all finite lists of valid intervals over the (non-NaN) coordinates, and every result std::sort may produce", "why_tests_cant": "the input lists are unbounded in length and ordering/touching/nesting patterns; a unit test samples a handful", "anchors": ["src/datastructure/Interval.cpp:unions", "include/hrm/datastructure/Interval.h"]}
{"id": "C02", "title": "Interval union does not depend on input order or on the sort implementation", "statement": "Two input lists that cover the same set of points (in particular any permutation or duplication of the same list) give the identical list of intervals from Interval::unions, whatever the (unstable) std::sort does with equal keys; applying unions to its own result changes nothing.", "quantifier": "all pairs of lists of valid intervals covering the same points, all legal std::sort behaviours", "why_tests_cant": "std::sort's treatment of equal keys is unspecified, so no run of one library can settle it; permutations are factorial", "anchors": ["src/datastructure/Interval.cpp:unions"]}
{"id": "C03", "title": "Interval intersection is exact", "statement": "Interval::intersects of a non-empty list returns at most one interval; a point lies in the result iff it lies in every input interval; the result is empty iff the inputs are empty or max start > min end.", "quantifier": "all non-empty lists of intervals (valid or not), all points, all legal sorts", "why_tests_cant": "unbounded list lengths and all points of the line", "anchors": ["src/datastructure/Interval.cpp:intersects"]}
{"id": "C04", "title": "Interval complement is exact for merged inner intervals", "statement": "For one outer interval inside the representable range and inner intervals sorted/merged as produced by unions, Interval::complements returns valid intervals in increasing order whose points are exactly the points of the outer interval that are not strictly inside any inner interval; only outer[0] is used.", "quantifier": "all outer intervals, all merged inner lists, all points", "why_tests_cant": "all points and all list sizes; boundary coincidences (touching, nested ends) are measure-zero and missed by samples", "anchors": ["src/datastructure/Interval.cpp:complements"]}
{"id": "C05", "title": "Interval complement is exact for arbitrary inner intervals", "statement": "Interval::complements(outer, inner) contains no point strictly inside an inner interval, for every list of valid inner intervals, merged or not.", "quantifier": "all outer intervals and all lists of valid inner intervals", "why_tests_cant": "needs all nesting patterns; the only tests use disjoint inner intervals", "anchors": ["src/datastructure/Interval.cpp:complements"]}
{"id": "C06", "title": "Free segments of a sweep line are exactly arena minus obstacles", "statement": "Given the per-line intersection table, the free segments returned for the line contain exactly the points that lie in every (non-NaN) arena interval and not in the interior of the union of the (non-NaN) obstacle intervals; NaN entries are ignored; no arena entry gives no free segment.", "quantifier": "all table rows (any number of arena and obstacle entries, any NaN pattern), all points on the line", "why_tests_cant": "every combination of counts, NaN patterns, overlaps and coincident ends", "anchors": ["include/hrm/datastructure/FreeSpace-inl.h:computeSweepLineFreeSegment", "src/datastructure/Interval.cpp"]}
{"id": "C07", "title": "Free segments carry aligned and ordered low / middle / upper coordinates", "statement": "After computeFreeSegment, for every sweep line the three coordinate lists have equal length and at each index low <= middle <= upper.", "quantifier": "all sweep-line lists of at least one line and all per-line free segments", "why_tests_cant": "the enhancement step appends and re-sorts three lists independently, so alignment is a global property of every input", "anchors": ["include/hrm/datastructure/FreeSpace-inl.h:computeFreeSegment", "include/hrm/datastructure/FreeSpace-inl.h:enhanceFreeSegment"]}
{"id": "C08", "title": "Enhancement only adds points of free space and keeps the original segments", "statement": "Every low/middle/upper value, and every pair low_k..upper_k, after enhancement lies inside one original free segment of the same sweep line; every original segment midpoint is still there; lists only grow.", "quantifier": "all rows of valid, increasing, disjoint free segments", "why_tests_cant": "unbounded rows and segments; interplay of appended points and separate sorts", "anchors": ["include/hrm/datastructure/FreeSpace-inl.h:enhanceFreeSegment"]}
{"id": "C09", "title": "Rows are sorted after enhancement", "statement": "After computeFreeSegment each row's low, middle and upper lists are in increasing order.", "quantifier": "all sweep-line lists", "why_tests_cant": "needs a row where points are appended to the last sweep line", "anchors": ["include/hrm/datastructure/FreeSpace-inl.h:enhanceFreeSegment"]}
{"id": "C10", "title": "Free-segment computation is defined for every list of sweep lines", "statement": "computeFreeSegment(ty) has defined behaviour for every ty (including the empty list) for which the intersection table has enough rows, and throws std::out_of_range exactly when it has fewer rows than ty.", "quantifier": "all numbers of configured rows and of sweep lines", "why_tests_cant": "boundary behaviours (0 lines, more lines than set up) across all sizes", "anchors": ["include/hrm/datastructure/FreeSpace-inl.h:computeFreeSegment", "include/hrm/datastructure/FreeSpace-inl.h:enhanceFreeSegment", "include/hrm/datastructure/FreeSpace-inl.h:setup"]}
{"id": "C11", "title": "Free segments stay inside the C-space of the arena", "statement": "On a sweep line that meets the arena boundary, every free segment lies between the two arena boundary crossings.", "quantifier": "all arena boundaries and sweep lines", "why_tests_cant": "quantifies over all geometries", "anchors": ["src/datastructure/FreeSpace2D.cpp:computeIntersectionInterval", "src/datastructure/FreeSpace3D.cpp:computeIntersectionInterval"]}
{"id": "C12", "title": "Refining the roadmap keeps working", "statement": "After an unsuccessful build, refining (doubling the sweep lines) processes all the new sweep lines without an exception.", "quantifier": "all numbers of sweep lines >= 1", "why_tests_cant": "only reached after the whole orientation cycle fails; depends on state left by earlier calls", "anchors": ["include/hrm/planners/HighwayRoadMap-inl.h:refineExistRoadmap", "include/hrm/datastructure/FreeSpace-inl.h:setup", "src/datastructure/FreeSpace2D.cpp", "src/datastructure/FreeSpace3D.cpp", "src/planners/HRM2D.cpp:sweepLineProcess", "src/planners/HRM3D.cpp:sweepLineProcess"]}
{"id": "C13", "title": "Horizontal line / polygon: returned points are on the polygon and never exactly one", "statement": "Every x returned by intersectHorizontalLinePolygon2D lies, at that height, on an edge of the closed polygon; the number of returned points is never exactly one (so callers may read [0] and [1] when it is non-empty); the result is empty iff every vertex is strictly above the line, or every vertex strictly below it, or every vertex exactly on it.", "quantifier": "all polygons (any number of vertices, convex or not) and all heights", "why_tests_cant": "all polygons and heights, including lines through vertices and along edges", "anchors": ["src/geometry/LineIntersection.cpp:intersectHorizontalLinePolygon2D", "src/datastructure/FreeSpace2D.cpp"]}
{"id": "C14", "title": "Sweep line interval of a convex C-obstacle is exact", "statement": "For a convex polygon and a height not passing through a vertex, the obstacle interval [low, upp] recorded for the sweep line is exactly the set of x whose point lies in the polygon, and NaN is recorded iff the line misses the polygon.", "quantifier": "all convex polygons (any number of vertices), all heights not through a vertex", "why_tests_cant": "all convex shapes and all points", "anchors": ["src/geometry/LineIntersection.cpp:intersectHorizontalLinePolygon2D", "src/datastructure/FreeSpace2D.cpp:computeIntersectionInterval"]}
{"id": "C15", "title": "Sweep line interval is exact also through vertices", "statement": "The obstacle interval recorded for a sweep line covers the polygon's whole slice, also when the line passes through a vertex.", "quantifier": "all convex polygons and all heights", "why_tests_cant": "coincidence of a sweep line with a vertex is a measure-zero event", "anchors": ["src/geometry/LineIntersection.cpp:intersectHorizontalLinePolygon2D"]}
{"id": "C16", "title": "Segment / polygon test reports only real crossings and all transversal ones", "statement": "isIntersectSegPolygon2D returns true only if the open segment meets the interior of an edge of the closed polygon, and it returns true whenever some edge crosses the segment at a point interior to both.", "quantifier": "all segments and all polygons (closed by the edge last->first); QR solve assumed exact on non-singular systems", "why_tests_cant": "all relative positions including parallel and shared end points", "anchors": ["src/geometry/LineIntersection.cpp:isIntersectSegPolygon2D"]}
{"id": "C17", "title": "A same-slice transition reported free avoids every C-obstacle", "statement": "If the planner's same-slice 2D transition check accepts the segment v1-v2, no point of the segment lies in the interior of a convex C-obstacle that contains neither end point.", "quantifier": "all convex obstacle polygons, all segments", "why_tests_cant": "continuum of points on each segment; vertex coincidences", "anchors": ["src/planners/HRM2D.cpp:isSameSliceTransitionFree", "src/geometry/LineIntersection.cpp:isIntersectSegPolygon2D"]}
{"id": "C18", "title": "Line / triangle intersection is sound", "statement": "When intersectLineTriangle3D reports a hit, the returned point lies on the line, in the plane of the triangle, and its barycentric coordinates are within the tolerance of [0,1] (exactly inside the triangle when tolerance is 0).", "quantifier": "all lines, all triangles", "why_tests_cant": "continuum of lines/triangles incl. near-degenerate", "anchors": ["src/geometry/LineIntersection.cpp:intersectLineTriangle3D"]}
{"id": "C19", "title": "Line / triangle intersection is complete", "statement": "If the line is not (nearly) parallel to the plane of the triangle and meets the triangle, intersectLineTriangle3D reports a hit at that very point.", "quantifier": "all lines and triangles with |determinant| above the tolerance", "why_tests_cant": "continuum of inputs", "anchors": ["src/geometry/LineIntersection.cpp:intersectLineTriangle3D"]}
{"id": "C20", "title": "Line / mesh intersection", "statement": "intersectLineMesh3D and intersectVerticalLineMesh3D return at most two points, each on the line and on some face of the mesh; if the line (non-parallel) meets some face the result is non-empty.", "quantifier": "all meshes with valid face indices, all lines", "why_tests_cant": "meshes are unbounded; face order matters", "anchors": ["src/geometry/LineIntersection.cpp:intersectLineMesh3D", "src/geometry/LineIntersection.cpp:intersectVerticalLineMesh3D"]}
{"id": "C21", "title": "3D sweep line never reads past the intersection result", "statement": "In the 3D free-space computation, whenever the vertical line meets a boundary mesh, two intersection points are available.", "quantifier": "all meshes and all vertical lines", "why_tests_cant": "out-of-bounds read is undefined behaviour, may be silent in a run", "anchors": ["src/datastructure/FreeSpace3D.cpp:computeIntersectionInterval", "src/geometry/LineIntersection.cpp:intersectVerticalLineMesh3D"]}
{"id": "C22", "title": "Parametric mesh is well formed", "statement": "getMeshFromParamSurface for an n x n parameter grid (n>=2) yields faces whose indices are valid vertex numbers with three different corners, splits every grid cell into exactly its two triangles, has 2(n-1)^2 faces, and uses every vertex.", "quantifier": "all n >= 2", "why_tests_cant": "all grid sizes; also n = 0 and n = 1", "anchors": ["src/geometry/MeshGenerator.cpp:getMeshFromParamSurface"]}
{"id": "C23", "title": "Roadmap graph well-formedness", "statement": "After any sequence of slice constructions and connections, edges and weights have equal length, every edge end is an existing vertex index, and each weight equals the Euclidean distance of its edge's two vertices.", "quantifier": "all sequences of roadmap-building operations, any collision-check outcomes", "why_tests_cant": "all histories of build / connect / refine", "anchors": ["include/hrm/planners/HighwayRoadMap-inl.h", "src/planners/HRM2D.cpp", "src/planners/HRM3D.cpp", "include/hrm/datastructure/DataType.h"]}
{"id": "C24", "title": "Every roadmap edge was accepted by a transition check", "statement": "Every edge of the roadmap joins two vertices for which the corresponding transition check (same-slice or multi-slice) returned true (or that are adjacent collinear samples of one free segment). An edge accepted by the same-slice check joins two configurations of one orientation, one of which at least is a sample of a sweep line.", "quantifier": "all histories of roadmap building and all checker behaviours", "why_tests_cant": "any history", "anchors": ["include/hrm/planners/HighwayRoadMap-inl.h:connectOneSlice2D", "src/planners/HRM2D.cpp:connectMultiSlice", "src/planners/HRM3D.cpp"]}
{"id": "C25", "title": "Building only appends to the roadmap", "statement": "Building another slice, connecting slices or refining never removes or reorders existing vertices, edges or weights, so vertex ids stay valid.", "quantifier": "all histories", "why_tests_cant": "any history", "anchors": ["include/hrm/planners/HighwayRoadMap-inl.h", "src/planners/HRM2D.cpp", "src/planners/HRM3D.cpp", "src/planners/ProbHRM3D.cpp"]}
{"id": "C26", "title": "Slice bookkeeping partitions the vertices", "statement": "The per-slice vertex index ranges recorded while building are consecutive, ordered, disjoint and together cover exactly the vertices generated; within a slice the per-row start/size information addresses exactly the vertices of that row.", "quantifier": "all numbers of slices and rows, all free-segment counts", "why_tests_cant": "unbounded sizes", "anchors": ["src/planners/HRM2D.cpp:generateVertices", "src/planners/HRM3D.cpp:generateVertices", "src/planners/HRM2D.cpp:connectMultiSlice"]}
{"id": "C27", "title": "Search returns a real path", "statement": "When search() succeeds the vertex id list starts at a vertex near the start, ends at a vertex near the goal, every consecutive pair is an edge of the roadmap, and no vertex is repeated.", "quantifier": "all graphs, all start/goal neighbour lists", "why_tests_cant": "all graphs", "anchors": ["include/hrm/planners/HighwayRoadMap-inl.h:search"]}
{"id": "C28", "title": "Search is complete and optimal over the roadmap", "statement": "search() reports success iff some start neighbour is connected to some goal neighbour, and the path it returns for the first such pair is no longer (in summed Euclidean edge length) than any other path of that pair.", "quantifier": "all graphs with Euclidean weights and all pairs of vertices", "why_tests_cant": "optimality quantifies over all paths", "anchors": ["include/hrm/planners/HighwayRoadMap-inl.h:search", "include/hrm/planners/HighwayRoadMap.h:AStarHeuristic"]}
{"id": "C29", "title": "Reported cost equals the length of the reported path", "statement": "The solution cost equals the sum of the weights of the edges on the returned path, and computing it never reads outside the weight list.", "quantifier": "all roadmaps with a solution", "why_tests_cant": "needs graphs where edge ids differ from vertex ids", "anchors": ["include/hrm/planners/HighwayRoadMap-inl.h:search"]}
{"id": "C30", "title": "Solution path structure", "statement": "When solved, the solution path is start, then the roadmap vertices of the id list in order, then goal, all of the pose dimension; when not solved it is empty.", "quantifier": "all roadmaps / id lists", "why_tests_cant": "all path lengths and dimensions", "anchors": ["include/hrm/planners/HighwayRoadMap-inl.h:getSolutionPath"]}
{"id": "C31", "title": "Every step of the solution path has been collision checked", "statement": "Every two consecutive configurations of the returned solution path were accepted by a transition check.", "quantifier": "all roadmaps with a solution, all checkers", "why_tests_cant": "requires a roadmap where the first hop is blocked", "anchors": ["include/hrm/planners/HighwayRoadMap-inl.h:getSolutionPath", "src/planners/HRM2D.cpp:getNearestNeighborsOnGraph"]}
{"id": "C32", "title": "plan() returns only when solved or out of time, and with a consistent report", "statement": "If plan(timeLim) returns normally then it is solved or total time >= timeLim; total time is build time plus search time; the solution is marked solved iff the search found a path; with a clock that advances past the limit, plan always returns.", "quantifier": "all clock behaviours, all search outcomes, all time limits", "why_tests_cant": "depends on wall clock and on unbounded refinement loops", "anchors": ["include/hrm/planners/HighwayRoadMap-inl.h:plan", "src/planners/ProbHRM3D.cpp:plan"]}
{"id": "C33", "title": "2D orientation samples", "statement": "sampleOrientations produces numSlice headings from -pi to +pi, equally spaced (first exactly -pi, last exactly +pi), for every numSlice >= 1.", "quantifier": "all numSlice >= 1", "why_tests_cant": "all counts; numSlice = 1 divides by zero", "anchors": ["src/planners/HRM2D.cpp:sampleOrientations"]}
{"id": "C34", "title": "Multi-slice connection in 2D is total", "statement": "connectMultiSlice of the 2D planner runs without exception for every number of slices, and tries each slice against its cyclic successor exactly once.", "quantifier": "all numbers of slices", "why_tests_cant": "loop bounds over all counts", "anchors": ["src/planners/HRM2D.cpp:connectMultiSlice"]}
{"id": "C35", "title": "Multi-slice connection in 3D tries every pair of slices", "statement": "connectMultiSlice of the 3D planner attempts to connect every unordered pair of different slices and never connects a slice with itself.", "quantifier": "all numbers of slices", "why_tests_cant": "loop bounds over all counts", "anchors": ["src/planners/HRM3D.cpp:connectMultiSlice"]}
{"id": "C36", "title": "Each C-slice uses the robot at its own orientation", "statement": "The C-space boundaries of a slice are the Minkowski sums for the robot at that slice's orientation.", "quantifier": "all robots, obstacles and orientations", "why_tests_cant": "all orientations; the copy of the robot inside the free-space object is invisible to a caller", "anchors": ["include/hrm/datastructure/FreeSpace-inl.h:computeCSpaceBoundary", "src/planners/HRM2D.cpp:constructOneSlice", "src/planners/HRM2D.cpp:setTransform", "src/planners/HRM3D.cpp:setTransform"]}
{"id": "C37", "title": "Multi-body robot bookkeeping", "statement": "After any sequence of addBody calls the number of links, the link list and the link transforms agree, minkSum returns exactly 1+numLinks boundaries in base-then-link order, and robotTF places link i at (base transform)*(link transform i) no matter what earlier robotTF calls were made.", "quantifier": "all sequences of addBody / robotTF calls", "why_tests_cant": "all histories", "anchors": ["src/datastructure/MultiBodyTree2D.cpp", "src/datastructure/MultiBodyTree3D.cpp"]}
{"id": "C38", "title": "Minkowski boundaries are relative to the robot base", "statement": "The C-obstacle boundary of each body depends on the robot's orientation and shape but not on where the robot's base currently is.", "quantifier": "all base positions", "why_tests_cant": "all base positions", "anchors": ["src/datastructure/MultiBodyTree2D.cpp:minkSum", "src/datastructure/MultiBodyTree3D.cpp:minkSum"]}
{"id": "C39", "title": "Rn interpolation", "statement": "interpolateRn(v1,v2,n) returns n+1 points, first v1, last v2, equally spaced on the straight segment, of the dimension of v1, for every n >= 1.", "quantifier": "all vectors of equal length, all n >= 1", "why_tests_cant": "all n and dimensions", "anchors": ["src/util/InterpolateSE3.cpp:interpolateRn"]}
{"id": "C40", "title": "SE(3) interpolation", "statement": "interpolateSE3 / compound interpolation return numStep+1 steps whose translation part is the straight segment, whose first and last steps are the two given poses (unit quaternion up to sign), and whose intermediate quaternions are unit (up to machine precision, 2^-53) and equally spaced on the shorter great-circle arc, for every numStep >= 1.", "quantifier": "all pairs of poses, all numStep >= 1", "why_tests_cant": "continuum of rotations; all step counts", "anchors": ["src/util/InterpolateSE3.cpp"]}
{"id": "C41", "title": "Step-count zero interpolation is defined", "statement": "interpolateCompoundSE3Rn with numStep = 0 returns the two given configurations (its special case at the beginning of the function).", "quantifier": "all pairs of configurations", "why_tests_cant": "produces NaN silently", "anchors": ["src/util/InterpolateSE3.cpp:interpolateCompoundSE3Rn"]}
{"id": "C42", "title": "vectorEuclidean is a metric", "statement": "For vectors of one dimension, vectorEuclidean is non-negative, symmetric, zero iff the vectors are equal, and satisfies the triangle inequality.", "quantifier": "all vectors of all dimensions", "why_tests_cant": "continuum of triples", "anchors": ["src/util/DistanceMetric.cpp:vectorEuclidean"]}
{"id": "C43", "title": "Ellipse / ellipsoid separation test never declares overlapping bodies separated", "statement": "If the interiors of the two ellipses (ellipsoids) share a point, isEllipseSeparated / isEllipsoidSeparated returns false.", "quantifier": "all pairs of ellipses/ellipsoids with overlapping interiors, exact root finding", "why_tests_cant": "continuum of shapes", "anchors": ["src/util/EllipsoidSeparation.cpp"]}
{"id": "C44", "title": "Separation test recognises separated bodies", "statement": "If a hyperplane strictly separates the two ellipses (ellipsoids), the separation test returns true.", "quantifier": "all strictly separated pairs", "why_tests_cant": "continuum of shapes", "anchors": ["src/util/EllipsoidSeparation.cpp"]}
{"id": "C45", "title": "Tight-fitted ellipsoid encloses the inputs", "statement": "The ellipse/ellipsoid returned by getMVCE2D/3D contains both input bodies, and the one returned by getTFE2D/3D contains the robot body at every interpolated orientation between the two slices.", "quantifier": "all semi-axes, all orientations, all numStep; SVD contract assumed", "why_tests_cant": "continuum of points of the bodies and orientations", "anchors": ["src/geometry/TightFitEllipsoid.cpp"]}
{"id": "C46", "title": "Minkowski boundary points of superquadrics are exact", "statement": "Each point returned by SuperQuadrics::getMinkSum3D (ellipsoid robot part) is a boundary (support) point of the true Minkowski sum of obstacle and robot part: no point of the sum lies beyond the supporting plane there.", "quantifier": "all semi-axes, exponents in (0,2), orientations, surface parameters", "why_tests_cant": "continuum of points", "anchors": ["src/geometry/SuperQuadrics.cpp:getMinkSum3D"]}
{"id": "C47", "title": "Minkowski boundary points of superellipses are exact", "statement": "Each point returned by SuperEllipse::getMinkSum2D is a boundary (support) point of the true Minkowski sum.", "quantifier": "all semi-axes, exponents, orientations", "why_tests_cant": "continuum of points", "anchors": ["src/geometry/SuperEllipse.cpp:getMinkSum2D"]}
{"id": "C48", "title": "Sampled shape points satisfy the implicit equation", "statement": "Every point of getOriginShape (superellipse and superquadric) lies on the surface |x/a|^(2/e)+... = 1 transformed by the object's pose.", "quantifier": "all semi-axes > 0, exponents in (0,2), all angles", "why_tests_cant": "continuum of parameters", "anchors": ["src/geometry/SuperEllipse.cpp:getOriginShape", "src/geometry/SuperQuadrics.cpp:getOriginShape", "src/util/ExponentialFunction.cpp"]}
{"id": "C49", "title": "CSV written by the tools can be read back", "statement": "For every table of numbers, the text written by the graph/path writers is parsed by parse2DCsvFile into the same table of numbers; comment lines are skipped.", "quantifier": "all tables of finite numbers, any row/column counts", "why_tests_cant": "all table shapes incl. empty rows and trailing separators", "anchors": ["src/util/Parse2dCsvFile.cpp", "src/test/util/DisplayPlanningData.cpp"]}
{"id": "C50", "title": "CSV rows keep their columns", "statement": "parse2DCsvFile puts the k-th comma-separated field of a line in column k, or reports an error, for every line of text.", "quantifier": "all text lines", "why_tests_cant": "all strings", "anchors": ["src/util/Parse2dCsvFile.cpp"]}
{"id": "C51", "title": "Planning parameters derive correctly from the arena and obstacles", "statement": "defineParameters sets boundary limits symmetric about the arena centre, inside the arena by the robot-size margin, and numbers of sweep lines that are positive.", "quantifier": "all arenas, robots, obstacle lists", "why_tests_cant": "continuum of inputs, ratios below 1", "anchors": ["src/test/util/ParsePlanningSettings.cpp:defineParameters", "include/hrm/test/util/ParsePlanningSettings.h:computeObstacleMinSize"]}
{"id": "C52", "title": "Nearest-neighbour query returns valid vertex ids", "statement": "getNearestNeighborsOnGraph returns only existing vertex ids, within the requested radius and count limits, and behaves for every roadmap including an empty one.", "quantifier": "all roadmaps, all query points", "why_tests_cant": "all roadmaps; empty/one-slice corner cases", "anchors": ["src/planners/HRM2D.cpp:getNearestNeighborsOnGraph", "src/planners/HRM3D.cpp:getNearestNeighborsOnGraph"]}
{"id": "C53", "title": "Multi-slice transition check covers all interpolated poses and all bodies", "statement": "The multi-slice transition check returns true iff at every interpolated step every robot body centre is outside the bridge-slice obstacles; at least one step is checked.", "quantifier": "all step counts, bodies, boundaries", "why_tests_cant": "all counts incl. 0 and 1", "anchors": ["src/planners/HRM2D.cpp:isMultiSliceTransitionFree", "src/planners/HRM3D.cpp:isMultiSliceTransitionFree", "include/hrm/planners/HRM3DAblation-inl.h"]}
{"id": "C54", "title": "HRM2DKC connects adjacent slices", "statement": "connectMultiSlice of the kinematic-constraint variant adds the edges for vertices whose motions stay in the free polyhedra.", "quantifier": "all slices and vertices", "why_tests_cant": "all states", "anchors": ["src/planners/HRM2DKC.cpp:connectMultiSlice", "src/geometry/PointInPoly.cpp"]}
{"id": "C55", "title": "Point-in-polyhedron test", "statement": "isPtInPoly returns true for every point of the tetrahedra spanned by the given vertices and only for points in their hull.", "quantifier": "all point sets and points", "why_tests_cant": "continuum", "anchors": ["src/geometry/PointInPoly.cpp"]}
{"id": "C56", "title": "OMPL baseline reports success truthfully", "statement": "OMPLInterface::plan returns true only if a solution was found; the solved flag, path and time describe the last call only.", "quantifier": "all sequences of plan() calls and all OMPL outcomes", "why_tests_cant": "all histories", "anchors": ["include/hrm/planners/ompl_interface/OMPLInterface-inl.h", "src/planners/ompl_interface"]}
{"id": "C57", "title": "OMPL validity check covers all body/obstacle pairs", "statement": "A state is declared valid only if every robot body is separated from every obstacle.", "quantifier": "all numbers of bodies and obstacles", "why_tests_cant": "all counts", "anchors": ["src/planners/ompl_interface/OMPL2D.cpp", "src/planners/ompl_interface/OMPL3D.cpp"]}
{"id": "C58", "title": "Predefined orientations and ProbHRM slices", "statement": "ProbHRM3D's first two slices are the start and the goal orientation; a predefined quaternion list overrides numSlice; later slices are connected to the nearest earlier slice.", "quantifier": "all numbers of slices, all sample streams", "why_tests_cant": "all random streams", "anchors": ["src/planners/ProbHRM3D.cpp:sampleOrientations", "src/planners/ProbHRM3D.cpp:connectMultiSlice", "src/planners/HRM3D.cpp:sampleSO3"]}
{"id": "C59", "title": "Enhancement is complete for overlapping free segments", "statement": "If a free segment of one sweep line overlaps (in the sweep coordinate) a free segment of the next line, then the point of the second nearest to the middle of the first becomes a vertex coordinate of the first line, and vice versa.", "quantifier": "all tables, all pairs of adjacent lines and of overlapping segments", "why_tests_cant": "all combinations of segments; a dropped push is invisible to spot checks", "anchors": ["include/hrm/datastructure/FreeSpace-inl.h:enhanceFreeSegment"]}
{"id": "C60", "title": "The 2D sweep is exact end to end", "statement": "For convex C-obstacles, given sweep lines that pass through no obstacle vertex, the whole 2D computation (intersection table, interval algebra, enhancement) succeeds for every number of lines, arenas and obstacles; on each line no reported free point is strictly inside an obstacle, and every point within the limits that is in no obstacle is reported free. The point test used by the multi-slice check is exact in the same sense.", "quantifier": "all finite lists of convex polygons, all lists of sweep lines off the vertices, all points, every legal std::sort", "why_tests_cant": "composition of four algorithms over unboundedly many geometric inputs", "anchors": ["src/datastructure/FreeSpace2D.cpp:computeIntersectionInterval", "include/hrm/datastructure/FreeSpace-inl.h:computeFreeSegment", "src/geometry/LineIntersection.cpp:intersectHorizontalLinePolygon2D", "src/planners/HRM2D.cpp:isPtInCFree"]}
{"id": "C61", "title": "Enhancement loses no free point", "statement": "After enhancement every point of every free segment of a sweep line still lies between low_k and upper_k for some index k of the line's lists, although the three lists are sorted independently.", "quantifier": "all tables, all lines, all free points, every legal std::sort", "why_tests_cant": "sorting the lists independently re-pairs lows and uppers in data-dependent ways", "anchors": ["include/hrm/datastructure/FreeSpace-inl.h:enhanceFreeSegment"]}
{"id": "C62", "title": "Samples of one free segment are chained along the line", "statement": "If low_{j+1} lies strictly inside a free segment of its line, then upper_j = low_{j+1}, so the planner links the two consecutive samples.", "quantifier": "all tables, all lines, all indices, every legal std::sort", "why_tests_cant": "depends on the combined effect of independent sorts on arbitrary data", "anchors": ["include/hrm/datastructure/FreeSpace-inl.h:enhanceFreeSegment", "include/hrm/planners/HighwayRoadMap-inl.h:connectOneSlice2D"]}
{"id": "C63", "title": "3D sweep interval of a convex obstacle is exact", "statement": "For a closed convex boundary mesh the vertical line's recorded interval is exactly the part of the line inside the body; in particular a point strictly inside an obstacle is never reported collision-free.", "quantifier": "all convex bodies with a boundary mesh, all vertical lines", "why_tests_cant": "ranges over all meshes and lines", "anchors": ["src/geometry/LineIntersection.cpp:intersectVerticalLineMesh3D", "src/planners/HRM3D.cpp:isPtInCFree"]}
{"id": "C64", "title": "Accepted 3D same-slice transitions avoid the obstacles", "statement": "If the 3D same-slice check accepts a transition between two positions outside the (convex) obstacles, no position on the straight segment between them is inside an obstacle.", "quantifier": "all lists of convex obstacle meshes, all pairs of positions", "why_tests_cant": "ranges over all obstacles and segments", "anchors": ["src/planners/HRM3D.cpp:isSameSliceTransitionFree", "src/geometry/LineIntersection.cpp:intersectLineMesh3D"]}
{"id": "C65", "title": "Roadmap vertices are exactly the sweep samples", "statement": "The vertices of a 2D roadmap are exactly the sweep-line samples of its slices in order: the bridge-vertex fallback, which exchanges the third coordinate of two vertices, never adds one in 2D (there the third coordinate is the common heading). In 3D every vertex is a sample of its own slice's sweep lines or a bridge vertex that was inserted between two such samples and accepted by the same-slice check.", "quantifier": "all numbers of slices, free segments, headings and collision checks", "why_tests_cant": "ranges over all scenes and checks", "anchors": ["include/hrm/planners/HighwayRoadMap-inl.h:bridgeVertex", "src/planners/HRM2D.cpp:generateVertices"]}
{"id": "C66", "title": "Searching again does not corrupt the solution", "statement": "Calling search() again on an unchanged, already solved roadmap reports again a path from a start neighbour to a goal neighbour.", "quantifier": "all roadmaps, neighbour lists and priority queues", "why_tests_cant": "depends on the history of calls (stale state of an earlier search)", "anchors": ["include/hrm/planners/HighwayRoadMap-inl.h:search", "src/planners/ProbHRM3D.cpp:plan"]}
{"id": "C68", "title": "Reported planning time never exceeds the elapsed time", "statement": "The total planning time a planner reports is at most the time that passed between the call of plan() and its return.", "quantifier": "all runs, all clocks that do not go backwards, all numbers of refinements or incremental slices", "why_tests_cant": "depends on every sequence of clock readings along a run", "anchors": ["include/hrm/planners/HighwayRoadMap-inl.h:plan", "include/hrm/planners/HighwayRoadMap-inl.h:refineExistRoadmap", "src/planners/ProbHRM3D.cpp:plan"]}
{"id": "C69", "title": "The polygonal C-obstacle covers the true C-obstacle", "statement": "A position in which the exact shapes collide is inside the polygon (polyhedron) spanned by the C-obstacle points the library reports, so that a position outside it is really collision-free; and no collision-free position is inside it.", "quantifier": "all obstacles, ellipsoidal robot parts, resolutions and positions", "why_tests_cant": "continuum of positions, every resolution", "anchors": ["src/geometry/SuperEllipse.cpp:getMinkSum2D", "src/geometry/SuperQuadrics.cpp:getMinkSum3D"]}
{"id": "C67", "title": "Connections inside a slice are complete", "statement": "After a slice has been constructed, every promised pair is joined: consecutive samples of one sweep line are joined when the first free segment ends where (within 1e-6) the second begins; every sample of a sweep line is joined with every sample of the next line (in 3D also of the same line of the next plane) by an edge if the collision test accepts the direct transition, and otherwise through an inserted vertex with exchanged third coordinate when both halves are accepted; a refined slice is joined with its predecessor of the same orientation whenever a near, accepted pair exists; nearness means |dy| <= gap in 2D and |dx| <= gapX and |dy| <= gapY in 3D.", "quantifier": "all free-segment tables, all roadmaps, all collision tests, all gaps", "why_tests_cant": "a missing edge shows only as a planning failure in some scene; the pair sets are unbounded", "anchors": ["src/planners/HRM2D.cpp:connectOneSlice", "src/planners/HRM3D.cpp:connectOneSlice", "src/planners/HRM2D.cpp:connectExistSlice"]}
{"id": "C70", "title": "The interpolated solution path is made of numbers and follows the solved path", "statement": "For a solved path with positive cost equal to its length, HRM3D::getInterpolatedSolutionPath(num) (used by ProbHRM3D::plan to fill the result) returns configurations whose coordinates are all numbers, and each pair of consecutive path configurations is interpolated: first configuration, equally spaced steps, last configuration (up to quaternion sign).", "quantifier": "all paths, all costs, all num", "why_tests_cant": "short segments, zero costs and NaN propagation; continuum of paths", "anchors": ["src/planners/HRM3D.cpp:getInterpolatedSolutionPath", "src/planners/ProbHRM3D.cpp:plan", "src/util/InterpolateSE3.cpp"]}
{"id": "C71", "title": "One planar plan() call, end to end", "statement": "If plan() on a new planar planner returns and reports success, the stored path starts at the start configuration, ends at the goal, visits in between only sampled configurations (middle of a free sweep-line interval, at one of the slice headings), and every step between two of these was accepted by a collision check; sampled configurations are outside the C-obstacle boundaries.", "quantifier": "all robots built by public calls, obstacles, arenas, parameters, clocks, time limits, library tie-breaks", "why_tests_cant": "depends on every module of the planner at once", "anchors": ["src/planners/HRM2D.cpp", "include/hrm/planners/HighwayRoadMap-inl.h"]}
{"id": "C72", "title": "A planner can be used for a second plan() call", "statement": "After a plan() call on a planar or spatial planner, another plan() call on the same planner also returns normally.", "quantifier": "all planners and all pairs of calls", "why_tests_cant": "histories of calls", "anchors": ["include/hrm/planners/HighwayRoadMap-inl.h plan, buildRoadmap", "src/planners/HRM2D.cpp sampleOrientations, connectMultiSlice"]}
{"id": "C73", "title": "One spatial plan() call, end to end", "statement": "If plan() on a new spatial planner (bridging or FCL ablation variant, rigid robot) returns and reports success, the stored path starts at the start configuration, ends at the goal configuration, every configuration in between is a sample of a sweep line of the sweep of the given arena and obstacles with the orientation of one of the slices (the predefined quaternions if any, else the random ones), or was inserted between two such samples with both partial transitions accepted, and every step between two of these configurations was accepted by the same-slice check (then both ends have the same orientation and one is a sweep-line sample), by the check between two slices, or joins touching free intervals of one sweep line.", "quantifier": "all robots built by public calls, arenas, obstacles, start/goal configurations, parameters, random orientations, clocks, time limits", "why_tests_cant": "composition of all stages over unbounded inputs and schedules of the clock", "anchors": ["include/hrm/planners/HighwayRoadMap-inl.h plan, buildRoadmap, search", "src/planners/HRM3D.cpp", "include/hrm/planners/HRM3DAblation-inl.h"]}
{"id": "C74", "title": "The 3D sweep is exact end to end", "statement": "For boundary meshes of convex C-obstacles the whole 3D sweep (vertical line/mesh intersection, table, interval algebra, enhancement, plane by plane) succeeds and delivers one row per sweep line; on each line no delivered point is strictly between two points of an obstacle on this line, and every height within the limits that is in no obstacle is in a delivered interval.", "quantifier": "all finite lists of meshes of convex bodies, all grids of sweep lines, every legal std::sort", "why_tests_cant": "composition over unboundedly many geometric inputs", "anchors": ["src/datastructure/FreeSpace3D.cpp:computeIntersectionInterval", "src/planners/HRM3D.cpp:sweepLineProcess", "include/hrm/datastructure/FreeSpace-inl.h:computeFreeSegment"]}
{"id": "C75", "title": "Incremental planner: one call from the input to the returned path", "statement": "If plan of a new incremental spatial planner (ProbHRM3D) returns, it has made at least one and, unless the number of interpolation points is 0, fewer than 60 passes, one slice each. If it reports success the returned path is the start, then at least one roadmap vertex, then the goal; every vertex is a sample of a sweep line of one of the slices (or was inserted between two such by the same-slice check), and every step between two of them was accepted by the check within a slice, by the check between a slice and its nearest earlier slice, or joins neighbouring free intervals of one sweep line.", "quantifier": "all robots, kinematics, obstacles, parameters, random streams, clocks and numbers of passes", "why_tests_cant": "a whole run over random streams and time limits; tests run a few seeds", "anchors": ["src/planners/ProbHRM3D.cpp:plan", "src/planners/ProbHRM3D.cpp:connectMultiSlice", "src/planners/ProbHRM3D.cpp:sampleOrientations", "include/hrm/planners/HighwayRoadMap-inl.h:search"]}
{"id": "C76", "title": "The rigid-robot flag has to agree with the planner class", "statement": "PlanningRequest.isRobotRigid (default true) is not derived from the robot: the incremental planner for a robot with joints never returns from plan when the flag is left at true (joint angles are read past the end of the slice configuration), and the rigid-body spatial planner throws std::out_of_range when it is false.", "quantifier": "all robots with at least one joint, all obstacles, parameters, random streams, clocks", "why_tests_cant": "the flag and the class are set in different places; tests only use matching pairs", "anchors": ["src/planners/HRM3D.cpp:constructOneSlice", "src/planners/ProbHRM3D.cpp:setTransform", "include/hrm/planners/PlanningRequest.h:isRobotRigid"]}
{"id": "C77", "title": "Loaded objects are those of the resource files", "statement": "For every resource file, parsePlanningConfig followed by the loaders yields the described objects in the order of the file: sizes, exponents and positions as written, and an orientation that is the rotation by the given angle about the given axis; robots get the first body as base and the others as links in order; start and goal keep position and joint values and have the orientation converted; malformed files are reported.", "quantifier": "all files, any number of objects and columns, all axes and angles", "why_tests_cant": "all texts; all axes and angles; the orientation is a continuum", "anchors": ["src/test/util/ParsePlanningSettings.cpp:parseGeometricModel", "src/test/util/ParsePlanningSettings.cpp:parseStartGoalConfig", "src/test/util/ParsePlanningSettings.cpp:loadVectorGeometry", "src/test/util/ParsePlanningSettings.cpp:loadRobotMultiBody3D", "src/test/util/ParsePlanningSettings.cpp:loadPreDefinedQuaternions"]}
{"id": "C78", "title": "Roadmap vertices lie on an evenly spaced grid of sweep lines", "statement": "After every returning plan() of a new planner (planar, spatial, incremental), there are at least two sweep lines per direction, they are evenly spaced from the lower to the upper planning limit (both included), and every vertex of the roadmap lies on one of these lines with the orientation (and joint angles) of one of the slices.", "quantifier": "all scenes, robots, parameters, clocks, random streams", "why_tests_cant": "unboundedly many lines, slices and scenes", "anchors": ["src/planners/HRM2D.cpp:sweepLineProcess", "src/planners/HRM3D.cpp:sweepLineProcess", "include/hrm/planners/HighwayRoadMap-inl.h:buildRoadmap"]}
{"id": "C79", "title": "Bodies stay inside the ellipsoids used by the multi-slice check", "statement": "Between two slices the planners replace each body by one covering ellipse/ellipsoid. At every interpolated step of a motion between vertices of the two slices, every body of the robot (base and links) lies inside its ellipse/ellipsoid placed at the body's centre, so that a step declared clear is clear for the body itself.", "quantifier": "all robots made of ellipses/ellipsoids, all slice pairs that the planners join, all numbers of steps, all vertices; planar, rigid spatial and articulated (incremental) planners", "why_tests_cant": "a continuum of orientations and of body points", "anchors": ["src/planners/HRM2D.cpp:computeTFE,isMultiSliceTransitionFree", "src/planners/HRM3D.cpp:computeTFE,isMultiSliceTransitionFree", "src/planners/ProbHRM3D.cpp", "src/geometry/TightFitEllipsoid.cpp"]}
{"id": "C80", "title": "The covering ellipsoid has minimum volume", "statement": "getMVCE2D/3D return the smallest covering body: no ellipse/ellipsoid centred at the origin that contains both inputs has a smaller area/volume.", "quantifier": "all semi-axes, all orientations, all competing ellipses/ellipsoids", "why_tests_cant": "quantifies over all competing ellipsoids", "anchors": ["src/geometry/TightFitEllipsoid.cpp:getMVCE2D,getMVCE3D"]}
{"id": "C81", "title": "Rejections by the multi-slice check are real", "statement": "The boundaries the multi-slice check tests against are made of points of the exact Minkowski sums of the obstacles with the enclosing ellipse/ellipsoid, one boundary per obstacle in order; a point rejected by the check is a position at which the enclosing ellipse/ellipsoid really meets some obstacle.", "quantifier": "all obstacles, all enclosing ellipses, all positions", "why_tests_cant": "continuum of positions and shapes", "anchors": ["src/planners/HRM2D.cpp:bridgeSlice,isPtInCFree", "src/planners/HRM3D.cpp:bridgeSlice"]}
{"id": "C82", "title": "Boundary polygons are convex", "statement": "The polygon returned by SuperEllipse::getOriginShape is convex and run counter-clockwise, and so is the boundary of every obstacle grown by an elliptic robot part (getMinkSum2D with k = 1), for the base and for every link of a multi-body robot; the line-polygon intersection of the sweep and the point test, which use only two crossings per polygon, rely on it.", "quantifier": "all superellipses, all obstacle/part pairs, every number of samples, every robot built by public calls", "why_tests_cant": "the shapes, their exponents, orientations and sample counts form a continuum; a test sees a few", "anchors": ["src/geometry/SuperEllipse.cpp:32-101", "src/datastructure/MultiBodyTree2D.cpp:43-65", "src/geometry/LineIntersection.cpp:173-248"]}
{"id": "C83", "title": "The collision test of the sampling planners answers truthfully", "statement": "The pairwise collision test used by the sampling-based planners and by the ablated planner (collision objects built from the shapes, then one query of the collision library) reports a collision exactly if the two bodies have a common point.", "quantifier": "all superquadrics / superellipses, sample numbers and poses; all triangulations the geometry library may return; all collision libraries that are right about the solids and surfaces they are given", "why_tests_cant": "continuum of shapes and poses; the library is only as right as the objects handed to it", "anchors": ["src/util/EllipsoidSQCollisionFCL.cpp", "src/geometry/MeshGenerator.cpp:getMesh,getMeshFromSQ", "src/planners/ompl_interface/OMPL3D.cpp:setCollisionObject", "src/planners/ompl_interface/OMPL2D.cpp:setCollisionObject", "include/hrm/planners/HRM3DAblation-inl.h:setCollisionObject"]}
{"id": "C84", "title": "Articulated robots are placed as their description says", "statement": "Given a robot description, a base pose and one value per movable joint, the robot's i-th body is carried by the joints on the way from the root to the link body(i+1), each turning about or sliding along its axis by its own value, and then by the base pose; a body or a number of joint values the description does not know is reported, not answered.", "quantifier": "all well-formed robot descriptions (trees of any depth and branching), all joint values, all robots built by any history, all rigid base poses", "why_tests_cant": "unbounded trees and a continuum of joint values; errors are only printed", "anchors": ["src/util/ParseURDF.cpp:getTransform", "src/util/external/kdl_parser/src/kdl_parser/kdl_parser.cpp:addChildrenToTree,toKdl", "src/datastructure/MultiBodyTree3D.cpp:robotTF", "src/test/util/ParsePlanningSettings.cpp:parseStartGoalConfig", "test/TestProbHRM3D.cpp"]}
{"id": "C85", "title": "setup() prepares exactly the requested sweep lines", "statement": "After FreeSpaceComputator::setup(n, low, high) the object has exactly n sweep lines, and until computeIntersectionInterval is called each of them is free from low to high, whatever the object was used for before (another number of lines, other limits, or another robot installed by setRobot); asking for a further line throws.", "quantifier": "all previous contents of the object, all numbers of lines, limits, arena and obstacle counts, and all robots installed in between", "why_tests_cant": "tests set up a fresh object once; reuse with other limits, line counts or robots is a history over an unbounded state", "anchors": ["include/hrm/datastructure/FreeSpace-inl.h:FreeSpaceComputator::setup", "include/hrm/datastructure/FreeSpace.h:setRobot", "src/datastructure/FreeSpace2D.cpp:computeIntersectionInterval"]}
{"id": "C86", "title": "Every step of the returned planar path is clear of the C-obstacles", "statement": "When HRM2D::plan reports success, the path is start, roadmap configurations, goal; every roadmap configuration is outside every C-obstacle boundary, and every step between two of them is either a translation at one heading that stays outside every boundary, a translation along a sweep line that stays outside every boundary, or a motion between two neighbouring headings whose enclosing ellipses are clear of the grown obstacles.", "quantifier": "all robots, arenas, obstacles, starts, goals, parameters, clocks, sorts, solvers and heap orders; every path length", "why_tests_cant": "a test can replay a few returned paths on a few maps with sampled checks; the statement is about every point of every step of every returned path", "anchors": ["src/planners/HRM2D.cpp:HRM2D::plan", "src/planners/HRM2D.cpp:isSameSliceTransitionFree", "src/planners/HRM2D.cpp:isMultiSliceTransitionFree", "include/hrm/planners/HighwayRoadMap-inl.h:connectOneSlice2D", "include/hrm/datastructure/FreeSpace-inl.h:computeFreeSegment"]}
{"id": "C87", "title": "Every step of the returned spatial path stays outside the C-obstacle meshes", "statement": "When plan() of a spatial rigid-body planner reports success, the path is start, roadmap configurations, goal; every roadmap configuration is on the surface of, or can move away to beyond the bounding box of, every C-obstacle mesh without touching a face of it, and every step between two of them is a translation at one orientation all of whose points can so escape, a translation along a vertical sweep line all of whose points are outside but for a stretch shorter than 1e-6, or a motion between two slices at whose interpolated configurations the robot is clear of the obstacles. No convexity or closedness of the meshes is assumed: the meshes the planner builds are grids of sampled points, not convex polyhedra.", "quantifier": "all robots built by public calls, arenas, obstacles, starts, goals, parameters, orientations, clocks, sorts and heap orders; every path length; every triangle mesh for the single checks", "why_tests_cant": "a test replays a few returned paths with sampled checks; the statement is about every point of every step of every returned path", "anchors": ["include/hrm/planners/HighwayRoadMap-inl.h plan", "src/planners/HRM3D.cpp:sweepLineProcess", "src/planners/HRM3D.cpp:isSameSliceTransitionFree", "src/planners/HRM3D.cpp:isMultiSliceTransitionFree", "src/planners/HRM3D.cpp:isPtInCFree", "src/geometry/LineIntersection.cpp"]}
{"id": "C88", "title": "A disc-shaped robot overlaps a disc-shaped obstacle on the returned path by no more than an explicit bound", "statement": "When the base of the robot and the obstacles are discs, then at every roadmap configuration of the path plan() returns the base reaches into no obstacle deeper than (r + R)(1 - cos(pi/(n-1))), where r and R are the radii and n the number of boundary points of the obstacle; at every point of a step at one heading no deeper than that plus 1e-6; at every point of a step that changes the heading no deeper than that plus half the distance of two checked points. On a step that changes the heading the same holds of every disc-shaped link, with half the distance its centre can move between two checked configurations.", "quantifier": "all disc robots, disc obstacles, arenas, starts, goals, parameters, clocks, sorts, heap orders and SVD answers within contract; every path length; every point of every step", "why_tests_cant": "a test measures the penetration at samples of a few paths; the bound is over the continuum of every step of every path and its constants are only visible in a proof", "anchors": ["include/hrm/planners/HighwayRoadMap-inl.h plan", "src/planners/HRM2D.cpp:sweepLineProcess", "src/planners/HRM2D.cpp:isSameSliceTransitionFree", "src/planners/HRM2D.cpp:isMultiSliceTransitionFree", "src/geometry/SuperEllipse.cpp:getMinkSum2D", "src/geometry/TightFitEllipsoid.cpp"]}
{"id": "C89", "title": "The planar sweep computed in double precision errs by no more than an explicit bound", "statement": "Computed with correctly rounded arithmetic (IEEE double precision without overflow), the free segments of a slice of a planar sweep are still one row per line with aligned low, middle and upper coordinates in order; a point of a free segment is not deeper in a C-obstacle than 13uX + (2X+3)eta, where u is the unit roundoff, eta the underflow unit and X the largest abscissa; a point of the line farther than that from all C-obstacles is in a free segment. The point test of the check between slices has the same tolerance. The heights of the lines are in order and off by at most 6u(|lo|+|hi|) + 2n eta.", "quantifier": "all correctly rounding arithmetics (all rounding directions), all machine-number limits and line heights, all numbers of lines, all convex C-obstacles with machine-number ordinates and no vertex at the height of a line", "why_tests_cant": "a test compares floating-point output with itself or with a tolerance chosen by eye on a few inputs; how far rounding can move the end of a free segment over all inputs is only settled by an error analysis", "anchors": ["src/geometry/LineIntersection.cpp:intersectHorizontalLinePolygon2D", "include/hrm/datastructure/FreeSpace-inl.h:computeFreeSegment", "src/datastructure/FreeSpace2D.cpp", "src/planners/HRM2D.cpp:isPtInCFree", "src/planners/HRM2D.cpp:sweepLineProcess"]}
{"id": "C90", "title": "The interpolated path that plan() reports", "statement": "After a solved call of plan(), the reported interpolated path contains, for every step of the solved path, a sequence of configurations from one end of the step to the other, spaced as asked for by the number of points. (The planar planners report a copy of the solved path by design; the spatial planner should interpolate.)", "quantifier": "all robots built by public calls, obstacles, parameters, start and goal, library behaviours, clocks, numbers of refinements and passes", "why_tests_cant": "which overload of the interpolation function a call reaches does not show up in the types of the results, and a test that checks that the path is non-empty and ends at the goal passes with a copy", "anchors": ["include/hrm/planners/HighwayRoadMap.h:100 getInterpolatedSolutionPath", "include/hrm/planners/HighwayRoadMap-inl.h:83-88,285-292 plan, getInterpolatedSolutionPath", "include/hrm/planners/HRM3D.h:30", "src/planners/HRM3D.cpp:271-299", "src/planners/ProbHRM3D.cpp:59-64 plan"]}
{"id": "C91", "title": "A ball-shaped robot overlaps a ball-shaped obstacle on the returned spatial path by no more than an explicit bound", "statement": "When the base of the robot and the obstacles are balls, then on the path plan() of a spatial planner returns the base reaches into no obstacle deeper than (r + R)(1 - cos(d) cos(d/2)), where r and R are the radii, n by n the number of surface points of the obstacles and d = (3.1415926 + 1e-6)/(n - 1) (up to the 1e-6); at every point of a translation no deeper than that plus 1e-6; at every point of a step that changes the orientation no deeper than that plus half the distance of two checked configurations. At the checked configurations of such a step no ball-shaped link reaches deeper than the first bound. At all times of such a step no ball-shaped link reaches deeper than that plus half of the longest way it can move between two checked configurations (translation plus turning angle times lever arm).", "quantifier": "all ball robots, ball obstacles, arenas, starts, goals, parameters, orientations, clocks, sorts, heap orders and SVD answers within contract; both the bridging and the ablated planner; every path length; every point of every step", "why_tests_cant": "a test measures the penetration at samples of a few paths; the bound is over the continuum of every step of every path, and what a triangle mesh with overlapping seams and crossed-over faces at the poles keeps out is only settled by a proof", "anchors": ["include/hrm/planners/HighwayRoadMap-inl.h plan", "src/planners/HRM3D.cpp:sweepLineProcess, isSameSliceTransitionFree, isMultiSliceTransitionFree, isPtInCFree", "src/planners/HRM3DAblation.cpp", "src/geometry/SuperQuadrics.cpp:getMinkSum3D", "src/geometry/MeshGenerator.cpp:getMeshFromParamSurface", "src/geometry/TightFitEllipsoid.cpp"]}
{"id": "C92", "title": "The translations HRM2DKC returns keep the robot clear of the obstacles, and the ten percent inflation pays for the sampled boundaries", "statement": "When plan() of HRM2DKC reports a solution for a robot that is one body, the inner configurations of the path are outside the boundaries of the base made ten percent larger, and every step between them is a translation at one heading that passes outside those boundaries, or runs along a sweep line clear but for a stretch shorter than 1e-6. For a disc among discs the robot never overlaps an obstacle on such a step by more than (1.1 r + R)(1 - cos(pi/(n-1))) + 1e-6 - r/10; when (1.1 r + R) 5/(n-1)^2 + 1e-6 <= r/10 it is free of collisions at every moment.", "quantifier": "all single-body robots, obstacles, arenas, starts, goals, parameters, clocks, random numbers, sorts and heap orders within contract; every path length; every point of every step", "why_tests_cant": "a test checks samples of a few paths; the claim is over the continuum of every step of every path, and whether the inflation compensates the inscribed polygons depends on the number of boundary points", "anchors": ["src/planners/HRM2DKC.cpp", "include/hrm/planners/HRM2DKC.h:inflationFactor_", "include/hrm/planners/HighwayRoadMap-inl.h plan", "src/planners/HRM2D.cpp:sweepLineProcess, isSameSliceTransitionFree", "src/geometry/SuperEllipse.cpp:getMinkSum2D"]}
{"id": "C93", "title": "The incremental planner's path is safe step by step", "statement": "When the incremental planner (bridging or ablated) reports a solution for an articulated robot, the returned path is start, goal and in between configurations with the orientation and joint angles of one of its slices. A configuration taken from a sweep line is outside every obstacle boundary it computed. A step within a slice keeps orientation and joint angles and cannot pass through a boundary it is in general position with; a step along a sweep line is clear but for a stretch shorter than 1e-6; a step between slices joins a slice to its nearest earlier one, and at each interpolated configuration every body lies within an ellipsoid found clear of the grown obstacles (ablated: the collision library reports no collision of any body).", "quantifier": "all articulated robots, kinematics, arenas, obstacles, tasks, parameters, orientation and joint samples, clocks and numbers of passes", "why_tests_cant": "continuum of motions, random samples and unbounded roadmaps", "anchors": ["src/planners/ProbHRM3D.cpp:ProbHRM3D::plan", "src/planners/ProbHRM3D.cpp:connectMultiSlice", "src/planners/ProbHRM3D.cpp:isMultiSliceTransitionFree", "include/hrm/planners/HRM3DAblation-inl.h:isMultiSliceTransitionFree"]}
{"id": "C94", "title": "The problem handed to the sampling-based planner is the one the user stated", "statement": "After any sequence of setup and plan calls on a baseline planner (plane, space, articulated robot), plan hands the library the requested start and goal, the bounds given to the constructor, the planner and sampler numbers of the last setup and the collision check; plan without setup is refused; a configuration that is too short is reported.", "quantifier": "all three planners, numbers of joints, bounds, histories of setup/plan calls and of the caller's own changes to its vectors, planner and sampler numbers, start and goal vectors of every length", "why_tests_cant": "unbounded histories of calls; continuum of configurations", "anchors": ["include/hrm/planners/ompl_interface/OMPLInterface-inl.h:setup", "include/hrm/planners/ompl_interface/OMPLInterface-inl.h:plan", "include/hrm/planners/ompl_interface/OMPLInterface-inl.h:setPlanner", "src/planners/ompl_interface/OMPL2D.cpp:setStateSpace", "src/planners/ompl_interface/OMPL3D.cpp:setStateSpace", "src/planners/ompl_interface/OMPL3DArticulated.cpp:setStateSpace"]}
{"id": "C95", "title": "Interpolation about an axis turns at constant speed and agrees with slerp", "statement": "For unit quaternions and at least one step, interpolateAngleAxis returns numStep + 1 unit quaternions; the i-th is the first orientation followed by a turn of i / numStep of one fixed angle between 0 and pi about one fixed axis, so the first represents the first orientation and the last the second; and the orientations are those interpolateSlerp gives.", "quantifier": "all pairs of unit quaternions, all numbers of steps, all steps", "why_tests_cant": "a continuum of pairs of orientations, with special cases (half turns, identical or opposite quaternions) of measure zero that sampled tests do not meet", "anchors": ["src/util/InterpolateSE3.cpp:67-102:interpolateAngleAxis,interpolateSlerp"]}
{"id": "C96", "title": "The demonstration program plans this task's problem and stores results that agree with each other", "statement": "parsePlanningConfig converts this task's four resource files, as they are before the call, into the four configuration files of its dimension and changes no other file; the planner of the 3D demonstration program is constructed from exactly these objects, end points and orientations; if the program ends normally it has changed no file but the configuration files and the five result files, and the result files agree: the stored path is empty together with the list of vertex numbers, or it starts with the task's first end point, ends with its second, and in between visits the stored vertices with the stored numbers, consecutive ones joined by a stored edge; the interpolated path stored is the solution path.", "quantifier": "all contents of the file system, all directories and task names without a slash, all libraries and clocks, all robots, arenas and obstacles in the files, all runs that end normally", "why_tests_cant": "the space of files, environments and planning runs is infinite, and stale configuration files only show up in particular histories of programs", "anchors": ["demo/DemoHRMRigidBodyPlanning3D.cpp:main", "src/test/util/ParsePlanningSettings.cpp:162-263:parsePlanningConfig,parseGeometricModel,parseStartGoalConfig", "include/hrm/test/util/ParsePlanningSettings.h:142-155:loadEnvironment", "src/test/util/DisplayPlanningData.cpp:27-87:storeGraphInfo,storePathInfo"]}
{"id": "C97", "title": "The demonstration program for articulated robots plans this task's problem", "statement": "The demonstration program for articulated robots has defined behaviour on files it can read: its planner is constructed from this task's resource files, and if it ends normally it has changed no file but the configuration files and the five result files, which agree with each other (the stored path starts with the task's first end point, ends with its second and in between visits the stored vertices with the stored numbers, consecutive ones joined by a stored edge; the interpolated path stored is the interpolation of the stored path).", "quantifier": "all contents of the file system, all directories and task names without a slash, all robot descriptions with the expected number of joints, all libraries and clocks, all runs", "why_tests_cant": "an out-of-bounds read may go unnoticed in any particular run; the space of files, robots and planning runs is infinite", "anchors": ["demo/DemoProbHRMArticulatedBodyPlanning3D.cpp:main", "include/hrm/planners/PlanningRequest.h:40:isRobotRigid", "src/planners/HRM3D.cpp:26-33:constructOneSlice", "src/planners/ProbHRM3D.cpp:198-220:setTransform", "src/planners/ProbHRM3D.cpp:18-65:plan"]}
{"id": "C98", "title": "The path a demonstration run leaves on disk is safe", "statement": "If a demonstration program ends normally, the solution path it has written is empty or runs from the first to the second end point of the task file, and all its inner vertices and all movements between consecutive ones keep the robot described by the robot file inside the arena and away from the obstacles described by the environment files, in the sense the library gives to safety (membership in the computed configuration-space regions, and the bridge-slice checks between slices).", "quantifier": "all contents of the file system, all directories and task names without a slash, all quaternion files or robot descriptions, all libraries and clocks, all runs", "why_tests_cant": "the space of files, robots and planning runs is infinite, and a sampled run may happen to be safe", "anchors": ["demo/DemoHRMRigidBodyPlanning3D.cpp:main", "demo/DemoProbHRMArticulatedBodyPlanning3D.cpp:main", "include/hrm/test/util/ParsePlanningSettings.h:loadEnvironment", "src/planners/HRM3D.cpp:plan", "src/planners/ProbHRM3D.cpp:plan"]}
{"id": "C99", "title": "The details a run stores describe the roadmap it stores", "statement": "Whenever a demonstration program (for rigid bodies or for articulated robots) gets as far as storing its path, it also stores its details and ends normally: three further files, and no other, hold the surfaces of the obstacles and of the arena, the boundaries of the configuration space, and the free segments. The middle of every segment stored is, at every orientation (with its joint values) tried, a vertex of the roadmap stored; every vertex stored is over the place of a segment stored, at the height of the middle of one; the segments are in order and no obstacle's face lies both above and below a point of one (sweep lines in general position).", "quantifier": "all contents of the file system, all directories and task names without a slash, all orientation files and robot descriptions, all libraries, printers and clocks, all runs", "why_tests_cant": "the space of scenes is infinite; a test compares a few files with files stored before", "anchors": ["include/hrm/test/util/DisplayPlanningData-inl.h:storeRoutines", "include/hrm/planners/HRM3D.h:getFreeSegmentOneSlice,getSliceBoundary", "demo/DemoHRMRigidBodyPlanning3D.cpp:main", "demo/DemoProbHRMArticulatedBodyPlanning3D.cpp:main"]}
{"id": "C100", "title": "The sampling-based demonstration programs plan the configured task", "statement": "Whenever a demonstration program of the OMPL baseline (for rigid bodies or for articulated robots) ends normally, it has changed no files but the four configuration files and the five result files; it has asked the library for a path between the configured end points, with the planner, the sampler and the validity check it states, inside the arena shrunk by a margin for the robot; and the files it leaves hold the library's answer to this problem: the planner data and, exactly if a path was reported in time, the simplified and the interpolated path. If the arena is too small for the margin, it does not end normally.", "quantifier": "all contents of the file system, all directories and task names without a slash, all robot descriptions, all answers of the library, all time limits", "why_tests_cant": "the space of tasks is infinite; the tasks shipped all have the arena at the origin", "anchors": ["demo/DemoOMPLRigidBodyPlanning3D.cpp:main", "demo/DemoOMPLArticulatedBodyPlanning3D.cpp:main", "include/hrm/planners/ompl_interface/OMPLInterface-inl.h:setup,plan", "src/planners/ompl_interface/OMPL3D.cpp:getSolution,setStateSpace"]}
{"id": "C101", "title": "The benchmark programs run what their command line says and report every trial", "statement": "With the arguments of their usage text (the bracketed ones optional) the benchmark programs start with these settings, and with fewer print the usage text, return 1 and change nothing. A benchmark of the highway roadmap planners that ends normally after starting has changed only the four configuration files and its file of statistics; this holds the headings and exactly one line for every trial, in order, with what planning the configured task with a new planner reported, so that no trial depends on an earlier one.", "quantifier": "all command lines, all contents of the file system, all numbers of trials, all clocks, all library answers", "why_tests_cant": "the space of command lines, files and clocks is infinite; the benchmarks are not run by any test", "anchors": ["test/benchmark/BenchHRM2D.cpp:main", "test/benchmark/BenchHRM3D.cpp:main", "test/benchmark/BenchHRM3DAblation.cpp:main", "test/benchmark/BenchProbHRM3D.cpp:main", "test/benchmark/BenchProbHRM3DAblation.cpp:main", "test/benchmark/BenchOMPL3D.cpp:main", "test/benchmark/BenchOMPL3DArticulated.cpp:main"]}
