import json
C=[]
def c(p,status,theorems,note=""): C.append(dict(property=p,status=status,theorems=theorems,note=note))
c("C01","proved",["Hrm.C01_unions_exact"])
c("C02","proved",["Hrm.C02_unions_order_independent","Hrm.C02_unions_canonical","Hrm.C02_unions_idempotent"],"order independence over any linear order; same-cover version for dense orders")
c("C03","proved",["Hrm.C03_intersects_exact"])
c("C04","proved",["Hrm.C04_complements_exact","Hrm.C04_complements_corner"])
c("C05","partial",["Hrm.C05_refuted","Hrm.C05_complements_sound_partial"],"false of the code for un-merged inner lists (refuted); holds for separated ones")
c("C06","proved",["Hrm.C06_sweep_line_exact","Hrm.C06_free_avoids_obstacles"])
c("C07","proved",["Hrm.C07_C08_segments_aligned","Hrm.C07_low_mid_upp"])
c("C08","proved",["Hrm.C07_C08_segments_aligned","Hrm.C08_enhanced_points_free"])
c("C09","partial",["Hrm.C09_refuted","Hrm.C09_rows_sorted_partial"],"false of the code for the last row (refuted with a two-line witness); proved for all other rows")
c("C10","partial",["Hrm.C10_outcome","Hrm.C10_refuted_empty"],"exact outcome proved; the claim fails for zero lines (undefined behaviour)")
c("C11","partial",["Hrm.C11_refuted","Hrm.C11_arena_hull_partial"],"false of the code: fmin/fmax widen instead of clip")
c("C12","partial",["Hrm.C12_refuted","Hrm.C12_fill_ok_partial"],"false of the code: refinement always throws out_of_range; holds up to the configured number of lines")
c("C59","proved",["Hrm.C59_enhancement_complete"])
c("C13","proved",["Hrm.C13_horizontal_line_polygon"])
c("C14","proved",["Hrm.C14_obstacle_interval_exact"])
c("C15","partial",["Hrm.C15_refuted","Hrm.C15_through_vertices_partial"],"false of the code when the first two crossings coincide (diamond through its side vertices); otherwise exact")
c("C16","proved",["Hrm.C16_segment_polygon"])
c("C17","partial",["Hrm.C17_refuted","Hrm.C17_transition_free_partial"],"false for segments through an obstacle vertex; proved for all others")
c("C60","proved",["Hrm.C60_sweep2D_exact","Hrm.C60_point_in_cfree"])
c("C61","proved",["Hrm.C61_enhancement_covers"])
c("C62","partial",["Hrm.C62_consecutive_samples_meet_partial","Hrm.C62_refuted_last_row"],"false for the last line, which is not sorted; proved for all other lines")
c("C18","proved",["Hrm.C18_line_triangle_sound"])
c("C19","proved",["Hrm.C19_line_triangle_complete"])
c("C20","partial",["Hrm.C20_mesh_sound","Hrm.C20_vertical_sound","Hrm.C20_vertical_complete","Hrm.C20_refuted","Hrm.C20_mesh_complete_partial","Hrm.C20_constants_partial"],"soundness and the vertical variant are complete; the general routine misses lines with a tiny non-zero direction component (refuted)")
c("C21","partial",["Hrm.C21_refuted","Hrm.C21_single_hit_is_ub","Hrm.C21_two_hits_partial"],"false of the code on open surfaces (one hit, then out-of-range read); two different crossings always give two points")
c("C22","proved",["Hrm.C22_param_mesh","Hrm.C22_grid_mesh_wf","Hrm.C22_no_gaps"])
c("C63","partial",["Hrm.C63_refuted","Hrm.C63_vertical_interval_partial","Hrm.C63_point_test_partial"],"false when the first two recorded hits coincide (vertical line through the apex of an octahedron); otherwise exact")
c("C64","partial",["Hrm.C64_refuted","Hrm.C64_transition3D_avoids_partial","Hrm.C64_planner_check_partial"],"false for directions with a tiny non-zero component; proved for all other directions not parallel to a face")
c("C23","proved",["Hrm.C23_roadmap_wellformed","Hrm.C23_build2D","Hrm.C23_build3D"])
c("C24","proved",["Hrm.C24_edges_accepted_2D","Hrm.C24_edges_accepted_3D","Hrm.C24_edges_near_2D","Hrm.C24_edges_near_3D"],
 "An edge between slices is tied to the check of exactly these two slices: the checked ends lie in the slices the check was made for.")
c("C25","proved",["Hrm.C25_append_only","Hrm.C25_ids_stay_valid"])
c("C26","proved",["Hrm.C26_slices_partition_2D","Hrm.C26_slices_partition_3D","Hrm.C26_rows_exact"])
c("C34","partial",["Hrm.C34_refuted","Hrm.C34_two_slices_never_return","Hrm.C34_total_partial"],"false of the code for exactly two slices (always throws, proved for all scenes); proved for every other number")
c("C35","partial",["Hrm.C35_no_self_refuted","Hrm.C35_pairs_refuted","Hrm.C35_nearest_earlier_partial","Hrm.C35_plan_nearest_partial"],"false of the code: slice 0 is joined with itself and most pairs are never tried; each later slice is joined with a nearest earlier one")
c("C42","proved",["Hrm.C42_metric","Hrm.C42_dimension_mismatch"])
c("C65","proved",["Hrm.C65_planar_vertices_are_samples","Hrm.C65_spatial_vertices"],"planar: exact list of vertices; spatial: every vertex is a sample of its own line or an accepted insertion between two samples")
c("C27","proved",["Hrm.C27_search_returns_path"],"on well-formed roadmaps (C23), for every heap behaviour and every lists of existing neighbour ids; nearness of the neighbours is C52")
c("C28","proved",["Hrm.C28_search_complete_optimal","Hrm.C28_search_returns"],"solved iff some pair connected; optimal for the first connected pair; termination when there are at least as many edges as vertices (otherwise see C29: out-of-range read)")
c("C29","partial",["Hrm.C29_refuted","Hrm.C29_refuted_cost","Hrm.C29_cost_partial"],"REFUTED: the weight vector is indexed with vertex ids; exact value of the reported cost proved")
c("C30","proved",["Hrm.C30_solution_path","Hrm.C30_endpoints_unchanged"],"getSolutionPath on every roadmap with a vertex; that the path is left empty when unsolved is part of C32")
c("C31","partial",["Hrm.C31_refuted","Hrm.C31_inner_steps_checked_partial"],"REFUTED: the first and the last step are never checked; all inner steps proved")
c("C52","partial",["Hrm.C52_refuted","Hrm.C52_empty_roadmap","Hrm.C52_refuted_slice","Hrm.C52_nearest2D_partial","Hrm.C52_nearest3D_partial","Hrm.C52_first_closest_ub","Hrm.C52_incremental_start_ub"],"REFUTED for empty roadmaps, for the slice of the returned vertex, and in 3D whenever the first orientation is a closest one (uninitialised quaternion); the rest proved")
c("C66","partial",["Hrm.C66_refuted","Hrm.C66_second_search_partial"],"REFUTED: a second search always reports the goal neighbour followed by the reversed first path, cost 0")
c("C32","proved",["Hrm.C32_plan_report","Hrm.C32_plan_terminates","Hrm.C32_failed_first_search_throws","Hrm.C32_prob_plan_report","Hrm.C32_refine_stops"])
c("C68","partial",["Hrm.C68_total_time_le_elapsed","Hrm.C68_planar_report","Hrm.C68_spatial_report","Hrm.C68_refuted","Hrm.C68_prob_pass_partial"],"proved for HRM2D/HRM3D; REFUTED for ProbHRM3D, whose pass adds the build and search time to the total twice (the start mark is not reset)")
c("C46","proved",["Hrm.C46_minkowski_3D"],"obstacle contraction (arena, K=-1) in the supporting-plane form")
c("C47","partial",["Hrm.C47_refuted","Hrm.C47_wrong_normal","Hrm.C47_minkowski_2D_partial"],"REFUTED for obstacles with different semi-axes (the normal lacks the 1/a, 1/b factors); proved for equal semi-axes; membership in the sum proved for all")
c("C48","proved",["Hrm.C48_superellipse_samples","Hrm.C48_superquadric_samples","Hrm.C48_grid"])
c("C69","partial",["Hrm.C69_refuted","Hrm.C69_refuted_every_resolution","Hrm.C69_hull_inside_partial"],"REFUTED at every resolution (inscribed polygon); the inclusion polygon in true C-obstacle proved in 2D and 3D")
c("C67","proved",["Hrm.C67_slice2D_joined","Hrm.C67_slice3D_joined","Hrm.C67_exist_slice_joined","Hrm.C67_adjacency"])
c("C37","proved",["Hrm.C37_robot2D","Hrm.C37_minkSum2D","Hrm.C37_robot3D","Hrm.C37_robot3D_articulated","Hrm.C37_minkSum3D"])
c("C38","partial",["Hrm.C38_refuted","Hrm.C38_minkSum2D_base_independent","Hrm.C38_boundary_points_collide","Hrm.C38_minkSum3D_shift","Hrm.C38_boundary_points_collide_3D_partial"],"REFUTED in 3D: the code subtracts the global link position, so the boundary moves with the base position; 2D proved; 3D proved for a base at the origin and the exact shift proved in general")
c("C39","proved",["Hrm.C39_interpolateRn","Hrm.C39_short_end_undefined"])
c("C40","proved",["Hrm.C40_interpolateCompound","Hrm.C40_constant_speed"])
c("C41","partial",["Hrm.C41_refuted","Hrm.C41_step_zero"],"REFUTED: the early case is overwritten (rigid) or followed by a NaN step (articulated); the exact result for numStep = 0 is proved")
c("C70","partial",["Hrm.C70_refuted","Hrm.C70_zero_cost_undefined","Hrm.C70_interpolated_path_partial"],"REFUTED: a path segment shorter than one step yields NaN configurations, a zero cost is undefined behaviour; proved when every segment is at least one step long")
c("C45","partial",["Hrm.C45_refuted","Hrm.C45_refuted_3D","Hrm.C45_mvce2D_partial","Hrm.C45_tfe2D_partial","Hrm.C45_mvce3D_partial","Hrm.C45_tfe3D_partial"],"REFUTED over the contract of the singular value decomposition: in 2D the angle of the result is acos(U(0,0)), which ignores the sign of U(1,0); in 3D the sorted singular vectors may form a reflection, for which the matrix-to-quaternion conversion is meaningless (two equal axis-aligned ellipsoids with semi-axes 3,2,1 give one with semi-axes 1,2,3). Proved, for every pair of ellipsoids and any number of intermediate orientations: under the side condition U(1,0)>=0 in 2D and det U=1 in 3D, the result contains both ellipsoids, and the tightly fitted ellipsoid contains the body at both end orientations and at every interpolated one.")
c("C33","partial",["Hrm.C33_refuted","Hrm.C33_headings_partial","Hrm.C33_planner_headings"],
"False for one slice (the step is a division by zero and the heading is NaN: C33_refuted); for every number of slices >= 2 the headings are exactly as claimed. A second call appends again.")
c("C36","partial",["Hrm.C36_refuted","Hrm.C36_constructor_pose_partial","Hrm.C36_spatial_refuted","Hrm.C36_spatial_constructor_pose_partial"],
"Planar and spatial planners. Refuted for every choice of conforming libraries: the free-space object keeps its own copy of the robot, so every slice gets the boundaries of the robot in the pose it had at construction (proved); they are the right ones for a disc without links.")
c("C53","partial",["Hrm.C53_refuted","Hrm.C53_planar_check_partial","Hrm.C53_swept_clear","Hrm.C53_spatial_check_partial","Hrm.C53_swept_clear3_partial","Hrm.C53_ablation_check","Hrm.C53_incremental_check_partial","Hrm.C53_incremental_ablation_check"],
"Planar planner. With numPoint = 0 no step is checked and everything is accepted (C53_refuted); for numPoint >= 2 the verdict is characterised exactly, step by step and body by body. numPoint = 1 (division by zero) is not modelled. Spatial planner (C53_spatial_check_partial, numPoint >= 1): same characterisation, for rigid robots and returning checks; ablation variant (C53_ablation_check): exact, relative to the FCL verdict. Incremental planner with articulated robots (C53_incremental_check_partial): same characterisation, joints included.")
c("C71","proved",["Hrm.C71_planar_plan_end_to_end","Hrm.C71_sampled_outside","Hrm.C71_witness"],
"Uses the contract of the priority queue (HeapTop). The first and the last step (start/goal to the roadmap) are not covered, see C31; the boundaries are those of the constructor pose, see C36.")
c("C72","partial",["Hrm.C72_second_plan_fails","Hrm.C72_rebuild_fails","Hrm.C72_spatial_rebuild_fails","Hrm.C72_spatial_second_plan_fails","Hrm.C72_incremental_mixes_samples"],
"The claim is false for every planner and not only for some: after a call that returned, no second call can return normally (the slice list has grown to twice its size and the last slice has no partner).")
c("C54","partial",["Hrm.C54_refuted","Hrm.C54_path_one_heading","Hrm.C54_connection_partial","Hrm.C54_witness"],"Refuted as stated for the planner object: polyhedronVertex_ is private and never filled, so for no problem does the built roadmap contain an edge between different headings (C54_refuted), and every reported path keeps one heading end to end (C54_path_one_heading; C54_witness shows a run that is solved). For arbitrary polyhedron data connectMultiSlice itself is proved sound and complete with respect to the tries made (C54_connection_partial).")
c("C55","proved",["Hrm.C55_point_in_poly"],"isPtInPoly on the precomputed data of any list of affinely independent tetrahedra, every point; exact arithmetic.")
c("C43","partial",["Hrm.C43_refuted","Hrm.C43_ellipse_partial","Hrm.C43_ellipsoid_partial","Hrm.C43_nontrivial"],"As stated it is false of the code: a complex pair of roots with imaginary part between 5e-7 and 1e-6 passes both thresholds, so two unit circles overlapping by about 1.6e-13 are declared separated (C43_refuted). Proved for every pair of ellipses and of ellipsoids: if the first body meets the second one shrunk by two parts in a million, the answer is false. Exact arithmetic; Eigen's eigenvalues() by contract (the roots of the characteristic polynomial with multiplicity).")
c("C44","partial",["Hrm.C44_refuted","Hrm.C44_ellipse_partial","Hrm.C44_ellipsoid_partial","Hrm.C44_ellipse_criterion","Hrm.C44_ellipsoid_criterion","Hrm.C44_ellipse_threshold","Hrm.C44_ellipsoid_threshold","Hrm.C44_nontrivial"],"As stated it is false of the code: two negative roots closer than 1e-6 count as one, so two unit circles with a tiny gap are declared not separated (C44_refuted). Proved: a slab of width g between the bodies with max-axis(B)^2 < 8e12*g*min-axis(A) makes the answer true; the criterion behind the test (two distinct negative roots) is exact for all ellipses and ellipsoids, and for disjoint bodies the answer is true exactly if the two negative roots differ by more than 1e-6.")
c("C56","partial",["Hrm.C56_plane_partial","Hrm.C56_space_partial","Hrm.C56_first_solution","Hrm.C56_not_ready","Hrm.C56_outcome","Hrm.C56_flag","Hrm.C56_plane_ub","Hrm.C56_refuted","Hrm.C56_path_refuted"],"As stated the claim is false: plan returns true whenever setup was called, and the path accumulates over calls (both refuted). Proved for every history of calls and every answer of the library: the solved flag is set exactly if the library reported a path (exact or approximate) within the time limit of this call; time and counters describe the last call; the path is the concatenation over all calls that found one, so it is right for the first solution; the planar graph is cut at the previous call's motion counter and reads out of bounds if that is larger than the planner data.")
c("C57","partial",["Hrm.C57_plane","Hrm.C57_plane_partial","Hrm.C57_plane_free","Hrm.C57_space_tests","Hrm.C57_space","Hrm.C57_space_articulated","Hrm.C57_no_setup","Hrm.C57_refuted","Hrm.C57_nontrivial","Hrm.fclExact3_exists","Hrm.fclExact2_exists"],"Every body/obstacle pair is tested, for any robot history, any numbers of bodies and obstacles and any number of setup calls. In space (rigid and articulated): valid exactly if all bodies miss all obstacles, given a collision library that is right about single pairs of robot body and obstacle; C57_space_tests states the tests made for any library. When the objects the program builds meet that demand is the subject of C83 (ellipsoids: yes; every other obstacle: no). In the plane, elliptic obstacles are decided by the separation test, whose tolerance (C43) makes the literal claim false; proved with the obstacle shrunk by two parts in a million, and the converse with a gap.")
c("C73","proved",["Hrm.C73_spatial_plan_end_to_end","Hrm.C73_witness"],
"Uses the contract of the priority queue (HeapTop). First and last step are not covered, see C31. Covers HRM3D and HRM3DAblation for rigid robots; ProbHRM3D never completes a plan in the model because its nearest-vertex routine reads an uninitialised quaternion (C52_incremental_start_ub).")
c("C74","partial",["Hrm.C74_spatial_sweep_exact_partial","Hrm.C74_samples_outside_partial"],
"Proved for sweep lines that miss a body or cross its mesh at two different recorded points; false for lines through an edge or vertex of a mesh (C63_refuted).")
c("C58","proved",["Hrm.C58_prob_slices","Hrm.C58_prob_connected","Hrm.C58_predefined","Hrm.C58_connect_nearest","Hrm.C75_witness"],
 "ProbHRM3D ignores a predefined quaternion list; HRM3D uses it and overrides numSlice.")
c("C75","proved",["Hrm.C75_prob_plan_end_to_end","Hrm.C75_witness","Hrm.C75_uninitialised_never_returns"],
 "C75_witness: a solved run exists, for any content of the uninitialised quaternion (C52) near the slice; C75_uninitialised_never_returns: counting that read as undefined, no run returns.")
c("C76","proved",["Hrm.C76_rigid_flag_with_joints","Hrm.C76_nonrigid_flag_throws"],
 "Negative results: both mismatches fail for every input.")
c("C49","partial",["Hrm.C49_refuted","Hrm.C49_roundtrip_partial","Hrm.C49_edges","Hrm.C49_path_ids","Hrm.C49_precision_lost","Hrm.exStof_ok","Hrm.exPr_ok"],"As stated the claim is false: numbers are read with std::stof, so any entry that is no float value is changed (C49_refuted, C49_precision_lost: whatever the printing). Proved for all tables: the shape is kept (empty rows and trailing commas included) and every entry is what stof makes of its printed form; edge lists and path indices up to 2^24 come back exactly. stof and ostream are parameters with the recorded contracts StofOk and PrintOk.")
c("C50","partial",["Hrm.C50_refuted","Hrm.C50_columns_shift","Hrm.C50_rows_partial","Hrm.C50_numeric_columns","Hrm.C50_out_of_range_throws","Hrm.C50_missing_file"],"As stated the claim is false: a field that is no number is dropped and the later columns move left (C50_columns_shift). Proved: exact description of the rows returned for every file; columns are fields exactly when all fields are numbers; one number out of the float range anywhere makes the whole read throw.")
c("C51","partial",["Hrm.C51_refuted","Hrm.C51_no_lines","Hrm.C51_symmetric_plane","Hrm.C51_symmetric_space","Hrm.C51_margin_plane_partial","Hrm.C51_margin_space_partial","Hrm.C51_margin_wrong_plane","Hrm.C51_margin_wrong_space","Hrm.C51_lines_plane_partial","Hrm.C51_lines_space_partial","Hrm.C51_spacing_plane","Hrm.C51_wraps_plane","Hrm.C51_defined_plane","Hrm.C51_min_size","Hrm.C51_slices_overwritten","Hrm.C51_random_orientations_never_return"],"As stated the claim is false: the number of sweep lines may be zero (C51_refuted) or wrap to almost 2^64, the margin looks at the first semi-axis of the base only (wrong for bases longer in another direction, and in space for box-like bases). Proved for every environment: symmetry; the margin when the first semi-axis is the largest (plane: any convex superellipse; space: ellipsoids); the exact numbers of lines and when they are positive; derived lines are farther apart than the smallest obstacle; with random orientations the derived numSlice is 0 and the spatial planner never returns.")
c("C77","partial",["Hrm.C77_objects_space","Hrm.C77_objects_plane","Hrm.C77_axis_angle","Hrm.C77_rows_read_back","Hrm.C77_robot_plane","Hrm.C77_robot_space","Hrm.C77_configuration_space","Hrm.C77_configuration_plane","Hrm.C77_start_goal","Hrm.C77_zero_axis","Hrm.C77_blank_line_throws","Hrm.C77_empty_robot_ub","Hrm.C77_unit_lost"],"Proved up to the rounding of printing and std::stof (a parameter f): every number of a loaded object is f of the exact one. Because of that rounding a loaded quaternion need not be a unit quaternion (C77_unit_lost, for a quarter turn, however numbers are printed). A zero axis gives a quaternion that is not normalised; an empty robot file is undefined behaviour. nan and inf are not modelled.")
c("C78","proved",["Hrm.C78_planar_vertices_on_lines","Hrm.C78_spatial_vertices_on_grid","Hrm.C78_incremental_vertices_on_grid"],"the hypotheses are met by the runs of C71_witness, C73_witness, C75_witness")
c("C79","partial",["Hrm.C79_planar_enclosed_refuted","Hrm.C79_planar_enclosed_partial","Hrm.C79_spatial_enclosed_partial","Hrm.C79_incremental_enclosed_partial","Hrm.C79_incremental_slices_enclosed_partial","Hrm.C79_described_robot_enclosed_partial"],
"The motion is the one the code checks: from the vertex of the other slice to the vertex of the newest one, while the ellipsoids are made in the opposite direction. REFUTED for planar links, whatever the singular value decomposition: on an edge between the last slice (heading +pi) and the first (heading -pi) the robot makes a full turn, but the link's angles in the two slices differ by 1e-7, so its ellipse is hardly larger than the link and does not contain it at the second of five steps. Proved in the plane: the base always, links whose two angles are normalised by the same number of turns. Proved in space, rigid and articulated: all bodies, except slices exactly half a turn apart, orientations within 2e-8 without being equal, and the SVD side condition of C45.")
c("C80","proved",["Hrm.C80_mvce2D_minimal","Hrm.C80_mvce3D_minimal","Hrm.C80_least_area","Hrm.C80_least_volume_partial"],
"Over the contract of the singular value decomposition, no side condition for the product of semi-axes (area and volume up to a constant). As Lebesgue measure of the returned set: in 2D without side condition, in 3D (C80_least_volume_partial) for det U = 1, as otherwise the returned quaternion is not a rotation (C45).")
c("C81","partial",["Hrm.C81_grown_obstacles_2D_partial","Hrm.C81_hits_are_real_2D","Hrm.C81_grown_obstacles_3D","Hrm.C81_hits_are_real_3D_partial","Hrm.C81_spatial_rejections_partial"],
"One boundary per obstacle, in order, all points in the exact Minkowski sum; in space they are support points, in the plane for obstacles with equal semi-axes only (C47). A planar rejection is a real collision of the enclosing ellipse. A rejection by the spatial check of a rigid robot is a real collision of a fitted ellipsoid with an obstacle, both enlarged by the factor 1 + 4e-12. Missing: the planar boundary in general (C47), space without the factor (the code accepts points just outside a triangle), and an improper singular value decomposition.")
c("C82","partial",["Hrm.C82_shape_convex","Hrm.C82_cobstacle_convex_partial","Hrm.C82_robot_boundaries_partial","Hrm.C82_sampled_outside_partial","Hrm.C82_swept_clear_partial","Hrm.C82_nonconvex","Hrm.C82_refuted","Hrm.C82_rejects_example"],
 "Sampled superellipses are convex for all parameters and sample counts. Grown obstacles are convex when the obstacle has equal semi-axes, or is an ellipse and the part a disc; with this the convexity hypotheses of C60, C53 and C71 are discharged. False in general: a thin wall grown by an elongated ellipse gives a non-convex polygon (C82_nonconvex), because the code uses the normals of the circle (C47).")
c("C83","partial",["Hrm.C83_ellipsoids_exact","Hrm.C83_no_false_alarm","Hrm.C83_missed_partial","Hrm.C83_not_swallowed_partial","Hrm.C83_swallowed","Hrm.C83_refuted","Hrm.C83_two_samples","Hrm.C83_ellipses_exact","Hrm.C83_planar_missed","Hrm.C83_planar_false_alarm","Hrm.C83_plane_refuted","Hrm.C83_states_exact","Hrm.C83_rejections_real","Hrm.C83_C57_space_hypothesis","Hrm.C83_C57_plane_hypotheses"],"Exact for ellipsoids and ellipses, and then whole states are checked exactly. REFUTED for all other obstacles: they are handed over as surfaces, so a body inside is not reported; in the plane the two exponents are swapped, so that there are false alarms as well. In space reported collisions are real, and a body that meets the hull of the samples without being inside it is reported.")
c("C84","partial",["Hrm.C84_joint_number","Hrm.C84_placement","Hrm.C84_values_by_name","Hrm.C84_local","Hrm.C84_robot","Hrm.C84_arm_rigid","Hrm.C84_unknown_body","Hrm.C84_wrong_number","Hrm.C84_no_joint_ub","Hrm.C84_unsupported_joint","Hrm.C84_refuted","Hrm.C84_missing_description","Hrm.C84_tree_dropped","Hrm.C84_snake_kept","Hrm.C84_short_start_throws"],"The placement is proved for every well-formed description with a movable joint and one value per joint. REFUTED for the error part: an unknown body, a wrong number of joint values and an unreadable description are printed only, and the robot is taken for a rigid one; without movable joints a value that does not exist is read.")
c("C85", "partial", ["Hrm.C85_setup_lines_partial", "Hrm.C85_fresh_setup_free", "Hrm.C85_refuted", "Hrm.C85_wider_setup_throws"],
  "Proved for a new object; exact behaviour for a used one. The full claim is refuted: setup only resizes the tables, so lines that existed before keep their old limits and crossings, and their old width (a robot with more links or a larger arena makes filling throw).")
c("C86", "partial", ["Hrm.C86_planar_path_safe_partial", "Hrm.C86_slice_step", "Hrm.C86_row_step", "Hrm.C86_turning_bodies_partial"],
  "Proved for every returned path whose boundaries are convex polygons with no vertex on a sweep line. Missing because false of the code: first and last step (C31), accidental contacts of a translation (C17), a stretch shorter than 1e-6 on a sweep line (free intervals closer than that are joined), the motion between the sampled points of a rotating step, and boundaries for the robot as given rather than at the slice heading (C36). C86_witness: a planner with an obstacle that meets all hypotheses and returns a path with inner steps.")
c("C87", "partial", ["Hrm.C87_spatial_path_safe_partial", "Hrm.C87_slice_step", "Hrm.C87_point_test", "Hrm.C87_sweep_columns", "Hrm.C87_sample_outside", "Hrm.C87_row_step", "Hrm.C87_turning_bodies_partial"],
  "Proved for every returned path whose sweep lines are in general position (at most two faces met, none grazed); a translation step is covered for every mesh for which its line is in general position and its ends are on no face. Missing because false of the code: lines meeting more than two faces (the scan stops after two hits, C63), first and last step (C31), a stretch shorter than 1e-6 on a sweep line, motion between the interpolated configurations of a rotating step. That the meshes enclose the true C-obstacles is not claimed. C87_witness: a planner with an obstacle and two orientations that meets all hypotheses and returns a path with inner steps.")
c("C88", "partial", ["Hrm.C88_disc_overlap_partial", "Hrm.toPts_minkSum_disc", "Hrm.disc_in_polygon", "Hrm.overlap_between", "Hrm.C88_accepted_turn_partial", "Hrm.C88_path_links_partial"],
  "Proved for the base of the robot and obstacles with 2 to 10^7 boundary points; for disc-shaped links on the steps that change the heading, at every point of the motion (C88_accepted_turn_partial, C88_path_links_partial). Missing because false of the code: the links on a step at one heading (C36: the boundaries are those of the robot as given), the first and last step (C31), translations that touch a boundary polygon accidentally (C17), sweep lines or checked points at the height of a polygon vertex (the line test is blind to a vertex, C13). An example runs a whole planner with a disc robot and a disc obstacle that meets all hypotheses and returns a path with inner steps.")
c("C89", "proved", ["Hrm.C89_rounded_sweep", "Hrm.C89_rounded_point_test", "Hrm.C89_rounded_lines", "Hrm.C89_exact_case", "Hrm.binary64_rounding"],
  "Every arithmetic operation of the sweep is followed by a rounding function of which only the contract Rounding is used; binary64 (53 digits, gradual underflow, no largest number) is proved to meet it. Overflow, fused multiply-add and extended precision are not modelled, nor is the rounding of the C-obstacle boundaries themselves (sin/cos/pow) and of the QR-based check in a slice. Examples in double precision.")
c("C90","partial",["Hrm.C90_planar_copy","Hrm.C90_spatial_copy","Hrm.C90_refuted","Hrm.C90_incremental_partial","Hrm.C90_goal_at_start"],
 "the claim is false of HRM3D: the interpolating function takes size_t and does not override the virtual one that takes unsigned int, so plan() stores an un-interpolated copy (C90_spatial_copy, C90_refuted). ProbHRM3D does interpolate (C90_incremental_partial, with the restrictions of C70), but if start and goal have the same nearest vertex the cost is 0 and the call is undefined (C90_goal_at_start).")
c("C91","partial",["Hrm.C91_ball_overlap_partial","Hrm.mesh_twoBalls","Hrm.overlap3_le_of_outside","Hrm.overlap3_between","Hrm.tfe_ball","Hrm.C91_accepted_turn_partial","Hrm.C91_path_links_partial","Hrm.C91_turn_all_times_partial","Hrm.C91_path_all_times_partial"],
 "Proved for the base of a rigid robot and obstacles with one common number of surface points, 4 to 10^6 (all meshes are triangulated with the number of the first obstacle). What the mesh encloses is defined without reference to balls (Outside: on a face, or able to move away without touching one). For ball-shaped links at the checked configurations of the steps that change the orientation (C91_accepted_turn_partial, C91_path_links_partial) and at all times of these steps (C91_turn_all_times_partial, C91_path_all_times_partial). Missing because false of the code: links on a step at one orientation (C36: the meshes are those of the robot as given), the first and last step (C31), translations and checked places whose line meets more than two faces or grazes one (C22), decompositions that are reflections (C45), nearly equal orientations (C40). An example runs a whole planner with a ball robot and a ball obstacle that meets all hypotheses.")
c("C92","partial",["Hrm.C92_kc_path_safe_partial","Hrm.C92_disc_margin_partial","Hrm.C92_sag_small","Hrm.C92_collision_free_partial","Hrm.C92_witness"],
 "Proved for robots of one body. Missing because false of the code: the links (the free space of HRM2DKC knows the base alone), the first and last step (C31), steps that touch a boundary accidentally (C17), the orientation of the base (C36: the boundaries are those of the base as given; no matter for discs). C92_witness runs a whole planner past an obstacle and an example applies the theorem to it.")
c("C93", "partial", ["Hrm.C93_incremental_path_safe_partial", "Hrm.C93_bodies_in_clear_ellipsoids_partial"],
  "Over the reals. Needs sweep lines in general position with the meshes (as C87), and for the ellipsoids: ellipsoidal bodies, rigid kinematics, a proper SVD, orientations neither perpendicular nor within rounding of each other (C79). Missing: first and last step of the path are unchecked by the code (C31); between two interpolated configurations nothing is checked; the meshes are those of the robot as given, not at the slice's orientation and joint angles (C58), so they do not bound the robot; refuted parts in C58/C87.")
c("C94", "partial", ["Hrm.C94_problem_partial", "Hrm.C94_setup", "Hrm.C94_ids", "Hrm.C94_states_refuted", "Hrm.C94_checked_refuted", "Hrm.C94_bounds_refuted", "Hrm.C94_bounds_dangling"],
  "Proved for every history: settings are those of the last successful setup with the caller's vectors at that moment, start and goal are the given ones if within the bounds and otherwise silently moved to the nearest position, too short configurations throw, the planners for rigid bodies refuse without setup. Refuted for the code: states outside of the bounds are replaced without a report; the articulated planner plans without collision check if setup was not called; the bounds are references, so a change of the caller's vectors changes them and setup is undefined once they are gone. The library (bounds check, angle wrap, quaternion normalisation) enters by the contract OmplLib.Ok, met by a concrete library (exists_omplLib).")
c("C95","partial",["Hrm.C95_one_axis","Hrm.C95_ends","Hrm.C95_no_step","Hrm.C95_agrees_with_slerp_partial","Hrm.C95_refuted"],
 "Proved: unit results, one axis, constant speed, both ends; the agreement with slerp for all pairs that are not half a turn apart (and not closer than slerp's threshold). REFUTED: for a half turn the two functions may turn in opposite directions (the axis of interpolateAngleAxis forgets the sign of the quaternion). With no step at all the result is not a number.")
c("C96","proved",["Hrm.C96_config_files","Hrm.C96_other_dimension_stale","Hrm.C96_planner_of_resources","Hrm.C96_demo_end_to_end","Hrm.C96_results_agree"],
 "Spatial rigid-body program, up to storePathInfo (storeRoutines and standard output are not modelled; every output file can be written; coordinates as read back through stof). A complete run on concrete files that stores a path is given in Props/DemoWitness (C96_witness). C96_other_dimension_stale: after a task of the other dimension a spatial setting still has the objects of an earlier program.")
c("C97","partial",["Hrm.C97_refuted","Hrm.C97_demo_undefined","Hrm.C97_rigid_flag_undefined","Hrm.C97_planner_of_resources","Hrm.C97_demo_end_to_end_partial"],
 "Refuted as stated: the program leaves isRobotRigid at its default true, so the planner places the robot with a vector of seven numbers and reads the joint values behind its end, on every run that gets as far as planning (C97_demo_undefined, C97_rigid_flag_undefined). With the flag of the tests (false) the rest of the claim is proved (C97_demo_end_to_end_partial); a complete solved run on concrete files is in Props/DemoProbWitness. storeRoutines and standard output are not modelled.")
c("C98","partial",["Hrm.C98_stored_path_safe_partial","Hrm.C98_articulated_path_safe_partial"],
 "Both programs, on every run that ends normally, under the genericity condition of C87/C93 on sweep lines and meshes (SweepGeneric3) and unit orientations. The joints from the start to the first vertex and from the last vertex to the goal are not claimed (C87 shows they are not checked), and for the articulated program the flag isRobotRigid is false, as in the tests (with the demo's own value the program is undefined, C97). Safety is that of the sampled meshes, as in C87/C93: the step from meshes to closed-loop surfaces is C20/C51. Two complete concrete runs meet the hypotheses (examples in Props/DemoSafe).")
c("C99","proved",["Hrm.C99_stored_details","Hrm.C99_stored_details_incremental","Hrm.C99_program_details","Hrm.C99_program_ends","Hrm.C99_articulated_program_details","Hrm.C99_articulated_program_ends"],
 "C99_stored_details: after any returning plan call of a new spatial planner, for any number of orientations and any scene. C99_program_details: the program, from the resource files to the files of details. C99_program_ends: storing the details never fails, so the program ends normally exactly when its part up to the path does. C99_stored_details_incremental and C99_articulated_program_details: the same for the incremental planner and the program for articulated robots, for each slice tried. The output of Eigen matrices is a parameter. Concrete runs of both programs with a segment stored meet the hypotheses.")
c("C100","partial",["Hrm.C100_demo_end_to_end_partial","Hrm.C100_problem","Hrm.C100_stored_answer","Hrm.C100_ends_iff","Hrm.C100_setup_outcome","Hrm.C100_articulated_states","Hrm.C100_articulated_witness","Hrm.C100_witness","Hrm.C100_refuted"],
 "REFUTED as stated: the box is that of the arena's semi-axes around the origin, whatever the arena's position and orientation; with an arena somewhere else even end points at its centre are moved (C100_refuted, on the files of C96_witness, where the HRM program finds a path). Proved for every run that ends normally: the files touched, the settings of the problem, the box (never empty: a too small arena ends the program by an exception, C100_setup_outcome, which also says when the program ends normally), end points unchanged if inside of the box and otherwise the nearest admissible ones, and the result files. Model: the library's answers are parameters, as in C56 and C94.")
c("C101","partial",["Hrm.C101_bench_HRM3D_partial","Hrm.C101_bench_Prob3D_partial","Hrm.C101_planner_of_resources","Hrm.C101_args_HRM3D","Hrm.C101_args_Prob3D","Hrm.C101_args_HRM2D","Hrm.C101_ompl_never_starts","Hrm.C101_bench_HRM2D_partial","Hrm.C101_planner_of_resources2D","Hrm.C101_resource_names","Hrm.C101_resource_names2D","Hrm.C101_table2D","Hrm.C101_row_HRM3D","Hrm.C101_row_Prob3D","Hrm.C101_random_sampling_undefined","Hrm.C101_few_slices2D","Hrm.C101_witness","Hrm.C101_witness2D","Hrm.C101_refuted"],
 "REFUTED as stated for the command lines: BenchOMPL3D and BenchOMPL3DArticulated accept only seven arguments but read eight, so no command line starts them (C101_ompl_never_starts: README's command prints the usage text); giving only the first of the two optional arguments of the benchmarks in space reads a null pointer; a negative number of planar trials reads beyond the table; with the sampling method 0 (random orientations) the number of slices is overwritten by 0 and every run with a trial is undefined (C101_random_sampling_undefined); with fewer than three slices the planar benchmark never ends normally (C101_few_slices2D). Proved: exactly which command lines start and with which settings; the planner of the trials is that of this task's resource files; the files touched, the headings, one row for every trial of a new planner, SUCCESS being 1 exactly if the path has vertices; one row for every planar trial. Missing: the bodies of the OMPL benchmarks (they never start), and normal ends of the HRM benchmarks as a condition on the files (C96, C97 and C99 give it for one plan). Model: std::stod, printing and the clock are parameters; atoi is a parameter (texts outside of int not modelled).")
json.dump({"claims":C},open('/verif/MANIFEST.json','w'),indent=1)
