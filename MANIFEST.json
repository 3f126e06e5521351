{
 "claims": [
  {
   "property": "C01",
   "status": "proved",
   "theorems": [
    "LcpPhysics.C01_polar_roundtrip",
    "LcpPhysics.C01_polar_radius",
    "LcpPhysics.C01_polar_angle_range",
    "LcpPhysics.C01_polar_angle_range_signed",
    "LcpPhysics.C01_cart_roundtrip"
   ],
   "note": "exact reals; atan2 modelled by Complex.arg"
  },
  {
   "property": "C02",
   "status": "proved",
   "theorems": [
    "LcpPhysics.C02_rotation_matrix_spec",
    "LcpPhysics.C02_rotation_preserves_dot",
    "LcpPhysics.C02_rotation_preserves_cross",
    "LcpPhysics.C02_rotation_preserves_norm",
    "LcpPhysics.C02_rotation_compose",
    "LcpPhysics.C02_rotation_inverse",
    "LcpPhysics.C02_left_orthogonal"
   ],
   "note": ""
  },
  {
   "property": "C03",
   "status": "proved",
   "theorems": [
    "LcpPhysics.C03_hull_accepts_iff",
    "LcpPhysics.C03_hull_rejects",
    "LcpPhysics.C03_hull_vertices_stay"
   ],
   "note": ""
  },
  {
   "property": "C04",
   "status": "proved",
   "theorems": [
    "LcpPhysics.C04_centroid_is_area_centroid",
    "LcpPhysics.C04_centroid_translate",
    "LcpPhysics.C04_centroid_rotate",
    "LcpPhysics.C04_centroid_zero_in_body_frame",
    "LcpPhysics.C04_centroid_in_hull"
   ],
   "note": "also: rotation equivariance, equals the fan-decomposed area centroid, lies in the convex hull for star-shaped vertex lists"
  },
  {
   "property": "C05",
   "status": "proved",
   "theorems": [
    "LcpPhysics.C05_hull_rigid",
    "LcpPhysics.C05_rect_rigid",
    "LcpPhysics.C05_hull_distances",
    "LcpPhysics.C05_pose_determines_vertices",
    "LcpPhysics.C05_pose_after_op"
   ],
   "note": ""
  },
  {
   "property": "C06",
   "status": "proved",
   "theorems": [
    "LcpPhysics.C06_rect_accepts_iff",
    "LcpPhysics.C06_rect_is_hull"
   ],
   "note": ""
  },
  {
   "property": "C07",
   "status": "proved",
   "theorems": [
    "LcpPhysics.C07_mass_matrix_symm",
    "LcpPhysics.C07_mass_matrix_quadratic",
    "LcpPhysics.C07_mass_matrix_posdef",
    "LcpPhysics.C07_circle_inertia_pos",
    "LcpPhysics.C07_hull_inertia_pos",
    "LcpPhysics.C07_rect_inertia_pos",
    "LcpPhysics.C07_hull_inertia_invariant",
    "LcpPhysics.C07_hull_inertia_mass_linear",
    "LcpPhysics.C07_hull_inertia_scale"
   ],
   "note": "inertia formulas of all shapes positive; M symmetric, its quadratic form is twice the kinetic energy, positive definite"
  },
  {
   "property": "C08",
   "status": "proved",
   "theorems": [
    "LcpPhysics.C08_quaternion_rotation",
    "LcpPhysics.C08_box_region",
    "LcpPhysics.C08_rect_geom"
   ],
   "note": "ODE's quaternion convention (w,x,y,z) is part of the trusted reading"
  },
  {
   "property": "C09",
   "status": "proved",
   "theorems": [
    "LcpPhysics.C09_geometry_covers",
    "LcpPhysics.C09_near_bodies_overlap",
    "LcpPhysics.C09_circle_contact_near",
    "LcpPhysics.C09_circle_contact_presented",
    "LcpPhysics.C09_rect_contact_presented",
    "LcpPhysics.C09_small_eps_hides_contact",
    "LcpPhysics.C09_broad_phase_exact"
   ],
   "note": "The ODE geometry built for a body covers the body grown by its eps (circles: sphere of radius rad+eps; hulls: sphere around the farthest vertex; rects: grown box), and this survives every pose update; hence bodies whose regions come within eps1+eps2 have overlapping AABBs. That the narrow phase reports a contact only if the broad phase presents the pair is proved for pairs with two circles and for two rectangles; for general hulls the statement is gap <= eps1+eps2 implies overlap. C09_small_eps_hides_contact: if a body's eps is smaller than half the world's, contacts the narrow phase would report are hidden."
  },
  {
   "property": "C10",
   "status": "proved",
   "theorems": [
    "LcpPhysics.C10_exactly_requested",
    "LcpPhysics.C10_symmetric",
    "LcpPhysics.C10_excluded_never_contacts"
   ],
   "note": ""
  },
  {
   "property": "C11",
   "status": "proved",
   "theorems": [
    "LcpPhysics.C11_circle_contact_iff",
    "LcpPhysics.C11_circle_contact_exact",
    "LcpPhysics.C11_circle_contact_symm"
   ],
   "note": ""
  },
  {
   "property": "C12",
   "status": "proved",
   "theorems": [
    "LcpPhysics.C12_pair_wellformed",
    "LcpPhysics.C12_contacts_wellformed",
    "LcpPhysics.C12_finder_ok",
    "LcpPhysics.C12_hulls_never_nan"
   ],
   "note": "the three branches of the default handler, both argument orders; NaN normals are flagged and excluded (hull pairs never give NaN: C12_hulls_never_nan)"
  },
  {
   "property": "C13",
   "status": "proved",
   "theorems": [
    "LcpPhysics.C13_support_argmax",
    "LcpPhysics.C13_support_raises_iff",
    "LcpPhysics.C13_support_total",
    "LcpPhysics.C13_support_can_raise"
   ],
   "note": "false without the hypothesis that the origin is in the solid: C13_support_can_raise"
  },
  {
   "property": "C14",
   "status": "proved",
   "theorems": [
    "LcpPhysics.C14_closest_nearest",
    "LcpPhysics.C14_closest_total"
   ],
   "note": ""
  },
  {
   "property": "C15",
   "status": "proved",
   "theorems": [
    "LcpPhysics.C15_gjk_correct",
    "LcpPhysics.C15_gjk_terminates",
    "LcpPhysics.C15_collinear_can_raise"
   ],
   "note": "explicit iteration bound n^3+2; with collinear vertices the loop can raise (C15_collinear_can_raise)"
  },
  {
   "property": "C16",
   "status": "proved",
   "theorems": [
    "LcpPhysics.C16_circle_hull_exact",
    "LcpPhysics.C16_circle_hull_total",
    "LcpPhysics.C16_circle_hull_flip",
    "LcpPhysics.C16_centre_on_vertex_nan"
   ],
   "note": "false when the centre is on the hull: NaN normal (C16_centre_on_vertex_nan)"
  },
  {
   "property": "C17",
   "status": "proved",
   "theorems": [
    "LcpPhysics.C17_gap_sound",
    "LcpPhysics.C17_best_separation",
    "LcpPhysics.C17_warm_start_unobservable",
    "LcpPhysics.C17_test_total"
   ],
   "note": ""
  },
  {
   "property": "C18",
   "status": "proved",
   "theorems": [
    "LcpPhysics.C18_clip_inside",
    "LcpPhysics.C18_clip_outside"
   ],
   "note": "the code's behaviour when both end points are outside is stated separately (extrapolated point)"
  },
  {
   "property": "C19",
   "status": "proved",
   "theorems": [
    "LcpPhysics.C19_hull_contact_off_edge",
    "LcpPhysics.C19_contact_on_reference_edge",
    "LcpPhysics.C19_rect_contact_on_edge"
   ],
   "note": "hulls whose vertices are equidistant from the centre, in particular Rect; false for general hulls (C19_hull_contact_off_edge)"
  },
  {
   "property": "C20",
   "status": "proved",
   "theorems": [
    "LcpPhysics.C20_post_stab_can_penetrate",
    "LcpPhysics.C20_strict_step_no_penetration",
    "LcpPhysics.C20_nonstrict_penetration_only_if_tiny",
    "LcpPhysics.C20_strict_reachable",
    "LcpPhysics.C20_construction_raises_iff"
   ],
   "note": "post-stabilization off; with it the claim is false (C20_post_stab_can_penetrate)"
  },
  {
   "property": "C21",
   "status": "proved",
   "theorems": [
    "LcpPhysics.C21_step_exact",
    "LcpPhysics.C21_rejected_attempts"
   ],
   "note": ""
  },
  {
   "property": "C22",
   "status": "partial",
   "theorems": [
    "LcpPhysics.C22_rollback_restores_partial",
    "LcpPhysics.C22_rot2_drift",
    "LcpPhysics.C22_rot2_not_read",
    "LcpPhysics.C22_rot2_not_restored"
   ],
   "note": "false for rot2: negation C22_rot2_not_restored with a concrete world, exact drift formula, non-interference of rot2; proved for all other joint state"
  },
  {
   "property": "C23",
   "status": "proved",
   "theorems": [
    "LcpPhysics.C23_fuel_irrelevant",
    "LcpPhysics.C23_nonstrict_terminates",
    "LcpPhysics.C23_nonstrict_progress",
    "LcpPhysics.C23_nonstrict_returns"
   ],
   "note": "the _returns theorems add that the step returns if its parts do"
  },
  {
   "property": "C24",
   "status": "proved",
   "theorems": [
    "LcpPhysics.C24_fixed_step_exact_time",
    "LcpPhysics.C24_fixed_step_terminates",
    "LcpPhysics.C24_fixed_step_returns"
   ],
   "note": "the _returns theorems add that the step returns if its parts do"
  },
  {
   "property": "C25",
   "status": "proved",
   "theorems": [
    "LcpPhysics.C25_time_increases",
    "LcpPhysics.C25_run_world_final_time",
    "LcpPhysics.C25_run_world_terminates",
    "LcpPhysics.C25_run_world_returns"
   ],
   "note": "the _returns theorems add that the run returns if its parts do"
  },
  {
   "property": "C26",
   "status": "proved",
   "theorems": [
    "LcpPhysics.C26_strict_can_diverge",
    "LcpPhysics.C26_strict_terminates_iff"
   ],
   "note": "finder whose reported contacts depend only on the bodies"
  },
  {
   "property": "C27",
   "status": "proved",
   "theorems": [
    "LcpPhysics.C27_constructed",
    "LcpPhysics.C27_never_interpenetrate",
    "LcpPhysics.C27_terminates_unless_pressed",
    "LcpPhysics.C27_strict_terminates",
    "LcpPhysics.C27_inelastic_never_hangs",
    "LcpPhysics.C27_strict_can_hang",
    "LcpPhysics.C27_inelastic_circles_run"
   ],
   "note": "First drafted as unconditional termination, which is false: C27_strict_can_hang exhibits, for every restitution in (0,1], a world accepted by the constructor whose strict step_dt never returns with any exact solver (a contact exactly tol deep that was separating may approach at e times that speed, so every halved step is rejected). The positive theorems: C27_constructed (the constructor establishes the invariant), C27_never_interpenetrate (safety for whatever the solver returns), C27_terminates_unless_pressed (any solver), C27_strict_terminates and C27_inelastic_never_hangs (exact solver), and C27_inelastic_circles_run, where nothing is assumed about the solver's answer: jointless inelastic circles with any friction step forever without overlapping. Needs a complete broad phase (C09), symmetric no-contact sets (C10), tol below the sum of radii and -eps <= tol."
  },
  {
   "property": "C28",
   "status": "proved",
   "theorems": [
    "LcpPhysics.C28_anchor_rigid",
    "LcpPhysics.C28_constructors_fix"
   ],
   "note": ""
  },
  {
   "property": "C29",
   "status": "proved",
   "theorems": [
    "LcpPhysics.C29_engine_invariant",
    "LcpPhysics.C29_static_constraints_hold"
   ],
   "note": "relies on an exact LCP solver (Spec.Exact) and a contact finder returning well-formed contacts"
  },
  {
   "property": "C30",
   "status": "proved",
   "theorems": [
    "LcpPhysics.C30_set_v_slices",
    "LcpPhysics.C30_slice_cat",
    "LcpPhysics.C30_set_p_cat",
    "LcpPhysics.C30_set_v_disjoint",
    "LcpPhysics.C30_mkWorld_good",
    "LcpPhysics.C30_good_invariant",
    "LcpPhysics.C30_velocity_is_concatenation"
   ],
   "note": ""
  },
  {
   "property": "C31",
   "status": "proved",
   "theorems": [
    "LcpPhysics.C31_post_stab_keeps_velocity",
    "LcpPhysics.C31_post_stab_pose"
   ],
   "note": ""
  },
  {
   "property": "C32",
   "status": "proved",
   "theorems": [
    "LcpPhysics.C32_equality_jacobian",
    "LcpPhysics.C32_row_count",
    "LcpPhysics.C32_kernel",
    "LcpPhysics.C32_J_ignores_rot2"
   ],
   "note": ""
  },
  {
   "property": "C33",
   "status": "proved",
   "theorems": [
    "LcpPhysics.C33_normal_jacobian",
    "LcpPhysics.C33_friction_jacobian",
    "LcpPhysics.C33_fric_dirs_not_two",
    "LcpPhysics.C33_tangent_orthonormal"
   ],
   "note": "fric_dirs = 2; for other values the assembly raises (C33_fric_dirs_not_two)"
  },
  {
   "property": "C34",
   "status": "proved",
   "theorems": [
    "LcpPhysics.C34_lcp_sound",
    "LcpPhysics.C34_lcp_complete"
   ],
   "note": "both directions: every LCP solution is a solution of the contact law and conversely"
  },
  {
   "property": "C35",
   "status": "proved",
   "theorems": [
    "LcpPhysics.C35_no_contact_solution",
    "LcpPhysics.C35_no_contact_unique",
    "LcpPhysics.C35_no_contact_succeeds"
   ],
   "note": ""
  },
  {
   "property": "C36",
   "status": "proved",
   "theorems": [
    "LcpPhysics.C36_free_flight",
    "LcpPhysics.C36_free_flight_n",
    "LcpPhysics.C36_gravity_acceleration"
   ],
   "note": "one step and n steps, closed form"
  },
  {
   "property": "C37",
   "status": "proved",
   "theorems": [
    "LcpPhysics.C37_cache_never_stale",
    "LcpPhysics.C37_nonstatic_never_caches",
    "LcpPhysics.C37_solve_same",
    "LcpPhysics.C37_post_stab_same"
   ],
   "note": "one engine object per world; sharing an engine between worlds is outside the model"
  },
  {
   "property": "C38",
   "status": "proved",
   "theorems": [
    "LcpPhysics.C38_engine_contact_law",
    "LcpPhysics.C38_restitution",
    "LcpPhysics.C38_no_approach"
   ],
   "note": "exact LCP solver assumed (Spec.Exact)"
  },
  {
   "property": "C39",
   "status": "proved",
   "theorems": [
    "LcpPhysics.C39_coulomb"
   ],
   "note": "exact LCP solver assumed (Spec.Exact)"
  },
  {
   "property": "C40",
   "status": "proved",
   "theorems": [
    "LcpPhysics.C40_linear_momentum"
   ],
   "note": ""
  },
  {
   "property": "C41",
   "status": "proved",
   "theorems": [
    "LcpPhysics.C41_angular_momentum_balance",
    "LcpPhysics.C41_angular_momentum_conserved"
   ],
   "note": "conserved when contact points coincide; the exact defect is stated otherwise"
  },
  {
   "property": "C42",
   "status": "proved",
   "theorems": [
    "LcpPhysics.C42_energy_balance",
    "LcpPhysics.C42_inelastic_energy_decreases",
    "LcpPhysics.C42_frictionless_energy",
    "LcpPhysics.C42_frictionless_energy_le",
    "LcpPhysics.C42_friction_can_create_energy",
    "LcpPhysics.C42_central_energy_le",
    "LcpPhysics.C42_circles_central"
   ],
   "note": "inelastic with friction, frictionless with common restitution, and central contacts (circles) with friction and any restitution in [0,1]. False in general: C42_friction_can_create_energy gives a corner contact, friction from 1/3 on, whose energy grows from 6.5 to 7.5 with restitution 1."
  },
  {
   "property": "C43",
   "status": "proved",
   "theorems": [
    "LcpPhysics.C43_frictionless_unique",
    "LcpPhysics.C43_friction_not_unique"
   ],
   "note": "frictionless; post-collision velocity unique. With friction false: C43_friction_not_unique gives two outcomes for one state (friction above 5/3)."
  },
  {
   "property": "C44",
   "status": "proved",
   "theorems": [
    "LcpPhysics.C44_solve_kkt",
    "LcpPhysics.C44_newton_unique",
    "LcpPhysics.C44_factor_and_solve"
   ],
   "note": "exact LU solves, contract Factors; includes uniqueness of the Newton step"
  },
  {
   "property": "C45",
   "status": "proved",
   "theorems": [
    "LcpPhysics.C45_block_lu",
    "LcpPhysics.C45_raises_iff_singular",
    "LcpPhysics.C45_pre_raises_iff",
    "LcpPhysics.C45_monotone_never_raises"
   ],
   "note": "LAPACK contract BtrifactOk, shown satisfiable (Gaussian elimination, someBtrifact_ok); Q symmetric; raises exactly for singular systems, never for monotone F"
  },
  {
   "property": "C46",
   "status": "proved",
   "theorems": [
    "LcpPhysics.C46_unpack_pivots",
    "LcpPhysics.C46_unpack_data",
    "LcpPhysics.C46_unpack_factors"
   ],
   "note": ""
  },
  {
   "property": "C47",
   "status": "proved",
   "theorems": [
    "LcpPhysics.C47_init_positive",
    "LcpPhysics.C47_shift_uniform",
    "LcpPhysics.C47_not_all_ge_one"
   ],
   "note": "the code comment 'all >= 1' is refuted (C47_not_all_ge_one)"
  },
  {
   "property": "C48",
   "status": "proved",
   "theorems": [
    "LcpPhysics.C48_get_step",
    "LcpPhysics.C48_get_step_maximal",
    "LcpPhysics.C48_zero_direction",
    "LcpPhysics.C48_step_positive",
    "LcpPhysics.C48_run_positive"
   ],
   "note": "a zero component makes the step undefined (C48_zero_direction)"
  },
  {
   "property": "C49",
   "status": "proved",
   "theorems": [
    "LcpPhysics.C49_step_contracts",
    "LcpPhysics.C49_run_contracts"
   ],
   "note": "Q symmetric, LAPACK contract"
  },
  {
   "property": "C50",
   "status": "proved",
   "theorems": [
    "LcpPhysics.C50_best_iterate",
    "LcpPhysics.C50_stopping"
   ],
   "note": ""
  },
  {
   "property": "C51",
   "status": "proved",
   "theorems": [
    "LcpPhysics.C51_residual_certificate",
    "LcpPhysics.C51_returned_certificate",
    "LcpPhysics.C51_exact"
   ],
   "note": ""
  },
  {
   "property": "C52",
   "status": "partial",
   "theorems": [
    "LcpPhysics.C52_capped_step_independent",
    "LcpPhysics.C52_step_depends_on_batch",
    "LcpPhysics.C52_batch_dependence"
   ],
   "note": "false as stated: C52_batch_dependence gives a problem whose result depends on its batch; the predictor's capped step is independent"
  },
  {
   "property": "C53",
   "status": "proved",
   "theorems": [
    "LcpPhysics.C53_backward_defect",
    "LcpPhysics.C53_backward_symmetric",
    "LcpPhysics.C53_asymmetric_wrong"
   ],
   "note": "For every differentiable family of problems and interior solutions with fixed products s z: the derivative of any differentiable loss of x is the inner product with the returned gradients minus dh.((F^T-F) dz); equality for symmetric F; for a concrete family with skew-symmetric F the returned gradients pair to 0 while the derivative is -1 (the statement's negation for asymmetric F)."
  },
  {
   "property": "C54",
   "status": "proved",
   "theorems": [
    "LcpPhysics.C54_masked_update",
    "LcpPhysics.C54_scatter_rows",
    "LcpPhysics.C54_batched_diagonal"
   ],
   "note": ""
  },
  {
   "property": "C55",
   "status": "proved",
   "theorems": [
    "LcpPhysics.C55_outcomes",
    "LcpPhysics.C55_monotone_returns",
    "LcpPhysics.C55_returns_none"
   ],
   "note": "includes a concrete problem for which None is returned, and a sufficient condition under which it never is"
  },
  {
   "property": "C56",
   "status": "proved",
   "theorems": [
    "LcpPhysics.C56_impulses",
    "LcpPhysics.C56_forces_superpose",
    "LcpPhysics.C56_no_forces",
    "LcpPhysics.C56_multiplier",
    "LcpPhysics.C56_add_force_comm"
   ],
   "note": ""
  },
  {
   "property": "C57",
   "status": "partial",
   "theorems": [
    "LcpPhysics.C57_gravity_partial",
    "LcpPhysics.C57_shared_gravity_wrong"
   ],
   "note": "false for a Gravity object shared by bodies of different mass (C57_shared_gravity_wrong); proved for one object per body"
  },
  {
   "property": "C58",
   "status": "proved",
   "theorems": [
    "LcpPhysics.C58_frames_consecutive",
    "LcpPhysics.C58_frames_bounded",
    "LcpPhysics.C58_record_once"
   ],
   "note": "file writing itself is not modelled, only the sequence of frames"
  },
  {
   "property": "C59",
   "status": "proved",
   "theorems": [
    "LcpPhysics.C59_round_trip",
    "LcpPhysics.C59_any_length",
    "LcpPhysics.C59_unpack_pack"
   ],
   "note": "Both directions: from_vector of to_vector, and to_vector of from_vector for vectors of the right length."
  },
  {
   "property": "C60",
   "status": "proved",
   "theorems": [
    "LcpPhysics.C60_scan_row",
    "LcpPhysics.C60_first_column_hides_row",
    "LcpPhysics.C60_right_edge_never_ends",
    "LcpPhysics.C60_scan_blocks"
   ],
   "note": "The statement records two defects of the scan: the first column hides the row, a run on the right edge never ends."
  },
  {
   "property": "C61",
   "status": "proved",
   "theorems": [
    "LcpPhysics.C61_solves_regularised",
    "LcpPhysics.C61_factor_solve_kkt",
    "LcpPhysics.C61_first_residual",
    "LcpPhysics.C61_sweep",
    "LcpPhysics.C61_refinement_diverges",
    "LcpPhysics.C61_right_sign_refines",
    "LcpPhysics.C61_never_raises",
    "LcpPhysics.C61_witness"
   ],
   "note": "factor_solve_kkt_reg solves the regularised system; a sweep turns the residual R into 2R - eps (dx, ds, 0, 0); for Q, D >= lam I and monotone F the residual after n sweeps is at least (1 + lam/(lam+eps))^n times the first one; the opposite sign would contract by eps/(lam+eps); no factorisation raises; concrete witness with eps = 1e-7."
  },
  {
   "property": "C62",
   "status": "proved",
   "theorems": [
    "LcpPhysics.C62_post_stab_law",
    "LcpPhysics.C62_post_stab_minimal",
    "LcpPhysics.C62_post_stab_free",
    "LcpPhysics.C62_post_stab_solvable",
    "LcpPhysics.C62_post_stab_idle"
   ],
   "note": "exact LCP solver assumed for the law; C62_post_stab_solvable shows when it can be met; C62_post_stab_idle: post-stabilization reads velocities only, so it never repairs overlap of bodies at rest"
  },
  {
   "property": "C63",
   "status": "proved",
   "theorems": [
    "LcpPhysics.C63_bger",
    "LcpPhysics.C63_get_sizes",
    "LcpPhysics.C63_bdiag",
    "LcpPhysics.C63_bdiag_batch_raises",
    "LcpPhysics.C63_expandParam",
    "LcpPhysics.C63_extract_batch_size",
    "LcpPhysics.C63_extract_batch_size_inconsistent"
   ],
   "note": "bdiag is false for proper batches: it succeeds exactly when the batch or the size is one (C63_bdiag, C63_bdiag_batch_raises); extract_batch_size does not notice inconsistent batch sizes."
  },
  {
   "property": "C64",
   "status": "proved",
   "theorems": [
    "LcpPhysics.C64_sat_complete",
    "LcpPhysics.C64_disjoint_no_contact",
    "LcpPhysics.C64_penetration_depth"
   ],
   "note": ""
  },
  {
   "property": "C65",
   "status": "proved",
   "theorems": [
    "LcpPhysics.C65_penetration_depth",
    "LcpPhysics.C65_deep_contact",
    "LcpPhysics.C65_total",
    "LcpPhysics.C65_concentric_nan"
   ],
   "note": "penetration exact whenever the normal is finite; C65_concentric_nan shows the NaN case"
  },
  {
   "property": "C66",
   "status": "proved",
   "theorems": [
    "LcpPhysics.C66_rect_contact_depth"
   ],
   "note": "diagonals shorter than 10^10, the initial value of the code's running maximum"
  },
  {
   "property": "C67",
   "status": "proved",
   "theorems": [
    "LcpPhysics.C67_overlap_without_contact"
   ],
   "note": "concrete bodies; overlap is robust (every displacement up to 1/20)"
  },
  {
   "property": "C68",
   "status": "proved",
   "theorems": [
    "LcpPhysics.C68_get_action",
    "LcpPhysics.C68_zero_threshold"
   ],
   "note": ""
  },
  {
   "property": "C69",
   "status": "proved",
   "theorems": [
    "LcpPhysics.C69_find_ball",
    "LcpPhysics.C69_ball_radius",
    "LcpPhysics.C69_box_corners"
   ],
   "note": "The degenerate radius at the border is part of the statement."
  },
  {
   "property": "C70",
   "status": "proved",
   "theorems": [
    "LcpPhysics.C70_approx_sound",
    "LcpPhysics.C70_zero_iff",
    "LcpPhysics.C70_library_certificate",
    "LcpPhysics.C70_engine_law",
    "LcpPhysics.C70_post_stab_law"
   ],
   "note": "Batch of one, as the engine calls it. The residual is the one the solver itself minimises (pdipm.py:93-97)."
  },
  {
   "property": "C71",
   "status": "proved",
   "theorems": [
    "LcpPhysics.C71_friction_form",
    "LcpPhysics.C71_frictionless_returns",
    "LcpPhysics.C71_post_stab_returns",
    "LcpPhysics.C71_tree_independent",
    "LcpPhysics.C71_run_returns_or_search_raises",
    "LcpPhysics.C71_run_returns",
    "LcpPhysics.C71_circle_run_returns",
    "LcpPhysics.C71_circle_step_returns"
   ],
   "note": "LAPACK contract BtrifactOk (shown satisfiable). With friction the LCP matrix is not monotone (C71_friction_form) and returning is not claimed; post_stabilization returns for every friction."
  },
  {
   "property": "C72",
   "status": "proved",
   "theorems": [
    "LcpPhysics.C72_linear_momentum",
    "LcpPhysics.C72_contact_bounds",
    "LcpPhysics.C72_inelastic_energy",
    "LcpPhysics.C72_near_exact",
    "LcpPhysics.C72_constraint_drift"
   ],
   "note": "C72_constraint_drift is for worlds without post-stabilization, which moves bodies on purpose."
  },
  {
   "property": "C73",
   "status": "proved",
   "theorems": [
    "LcpPhysics.C73_step_raises_from"
   ],
   "note": ""
  },
  {
   "property": "C74",
   "status": "proved",
   "theorems": [
    "LcpPhysics.C74_friction_solvable",
    "LcpPhysics.C74_friction_inelastic",
    "LcpPhysics.C74_friction_separable",
    "LcpPhysics.C74_circles_solvable",
    "LcpPhysics.C74_circles_engine_answers",
    "LcpPhysics.C74_frictionless_solvable",
    "LcpPhysics.C74_feasible_necessary",
    "LcpPhysics.C74_common_restitution",
    "LcpPhysics.C74_inelastic",
    "LcpPhysics.C74_exact_engine_returns",
    "LcpPhysics.C74_exact_engine_raises",
    "LcpPhysics.C74_mixed_restitution_infeasible",
    "LcpPhysics.C74_mixed_restitution_raises"
   ],
   "note": "Feasibility is necessary with or without friction (C74_feasible_necessary). With friction existence is proved under cone feasibility (C74_friction_solvable, C74_friction_inelastic, C74_friction_separable, C74_circles_solvable); a problem that is feasible but not cone feasible is not decided. The Exact contract of C38-C43 is met by the solver exactLcp, which returns whenever a solution exists (C74_exact_engine_returns)."
  },
  {
   "property": "C75",
   "status": "proved",
   "theorems": [
    "LcpPhysics.C75_inputs_restored",
    "LcpPhysics.C75_backward_difference",
    "LcpPhysics.C75_half_of_linear",
    "LcpPhysics.C75_half_gradient",
    "LcpPhysics.C75_copy_would_converge",
    "LcpPhysics.C75_not_the_gradient"
   ],
   "note": "The intended reading (approximates the gradient) is false and refuted by C75_not_the_gradient and C75_half_gradient. Indexing a tensor is taken to give a view, as in PyTorch 0.4 and later."
  },
  {
   "property": "C78",
   "status": "proved",
   "theorems": [
    "LcpPhysics.C78_island_energy",
    "LcpPhysics.C78_isolated_body",
    "LcpPhysics.C78_locality"
   ],
   "note": "Velocities only: halving of the time step is global, so positions of separate groups are coupled through the step size."
  },
  {
   "property": "C76",
   "status": "proved",
   "theorems": [
    "LcpPhysics.C76_bodies",
    "LcpPhysics.C76_coefficients",
    "LcpPhysics.C76_excluded_pairs",
    "LcpPhysics.C76_library_search",
    "LcpPhysics.C76_constructed",
    "LcpPhysics.C76_scenery_rests",
    "LcpPhysics.C76_ball_step",
    "LcpPhysics.C76_ball_keeps_speed",
    "LcpPhysics.C76_ball_never_spins",
    "LcpPhysics.C76_mirror",
    "LcpPhysics.C76_paddle_obeys",
    "LcpPhysics.C76_square_hit_stops_the_ball",
    "LcpPhysics.C76_run_is_turns",
    "LcpPhysics.C76_run_is_play",
    "LcpPhysics.C76_run_clock",
    "LcpPhysics.C76_make_world_returns",
    "LcpPhysics.C76_engine_returns",
    "LcpPhysics.C76_scenery_places",
    "LcpPhysics.C76_step_breakout"
   ],
   "note": "Exact reals; drawing is not modelled. The ball must have positive radius; the contact search must respect the exclusion sets (the library's does)."
  },
  {
   "property": "C79",
   "status": "proved",
   "theorems": [
    "LcpPhysics.C79_circle_contacts_central",
    "LcpPhysics.C79_spin_kept",
    "LcpPhysics.C79_never_spins",
    "LcpPhysics.C79_search_central"
   ],
   "note": "Circle against circle and circle against hull; torque-free forces on the circle assumed for runs."
  },
  {
   "property": "C80",
   "status": "proved",
   "theorems": [
    "LcpPhysics.C80_impulse_of_two",
    "LcpPhysics.C80_impulse_on_rest",
    "LcpPhysics.C80_impulse_on_rest_flipped",
    "LcpPhysics.C80_bounce",
    "LcpPhysics.C80_bounce_flipped",
    "LcpPhysics.C80_equal_masses_exchange"
   ],
   "note": "Contacts of either body with further bodies are excluded by hypothesis."
  },
  {
   "property": "C77",
   "status": "proved",
   "theorems": [
    "LcpPhysics.C77_paddle_box",
    "LcpPhysics.C77_paddle_exact",
    "LcpPhysics.C77_ball_left_of_paddle",
    "LcpPhysics.C77_ball_taken_for_paddle",
    "LcpPhysics.C77_extracted_world",
    "LcpPhysics.C77_no_inertia_raises"
   ],
   "note": "A frame is its first colour channel. That the paddle is always found is false: C77_ball_taken_for_paddle."
  },
  {
   "property": "C81",
   "status": "proved",
   "theorems": [
    "LcpPhysics.C81_loop",
    "LcpPhysics.C81_negative_depth_hides",
    "LcpPhysics.C81_circles_agree",
    "LcpPhysics.C81_ode_reports_earlier",
    "LcpPhysics.C81_concentric"
   ],
   "note": "ode.collide on spheres is specified (Spec/Ode.lean), not modelled; boxes are covered only by C81_loop."
  },
  {
   "property": "C82",
   "status": "proved",
   "theorems": [
    "LcpPhysics.C82_same_impact",
    "LcpPhysics.C82_same_correction",
    "LcpPhysics.C82_solver_irrelevant",
    "LcpPhysics.C82_solver_irrelevant_fixed",
    "LcpPhysics.C82_gravity_scales",
    "LcpPhysics.C82_mass_unit",
    "LcpPhysics.C82_pair_order"
   ],
   "note": "Both runs are assumed to return. With friction the outcome is not unique (C43), so the claim is false there. Independence of pair order is proved for circles."
  },
  {
   "property": "C83",
   "status": "proved",
   "theorems": [
    "LcpPhysics.C83_hull_lamina",
    "LcpPhysics.C83_polygon",
    "LcpPhysics.C83_rect_lamina",
    "LcpPhysics.C83_circle_lamina",
    "LcpPhysics.C83_nonconvex_inertia_wrong"
   ],
   "note": "Convex hulls without three collinear vertices; the claim for arbitrary accepted polygons is false (C83_nonconvex_inertia_wrong)."
  },
  {
   "property": "C84",
   "status": "proved",
   "theorems": [
    "LcpPhysics.C84_regions",
    "LcpPhysics.C84_contacts_seen",
    "LcpPhysics.C84_translated_run",
    "LcpPhysics.C84_translated_world",
    "LcpPhysics.C84_boxes_seen"
   ],
   "note": "The broad phase is an oracle assumed to report the same pairs for the moved bodies; C84_boxes_seen proves this for bounding boxes in frames without turn."
  },
  {
   "property": "C85",
   "status": "proved",
   "theorems": [
    "LcpPhysics.C85_law_seen",
    "LcpPhysics.C85_post_law_seen",
    "LcpPhysics.C85_galilean_run",
    "LcpPhysics.C85_galilean_returns"
   ],
   "note": "Runs: free bodies without friction (with friction outcomes are not unique, C43). Joints fixed to the world single out a frame, so they are excluded."
  },
  {
   "property": "C86",
   "status": "proved",
   "theorems": [
    "LcpPhysics.C86_search_bounds_overlap",
    "LcpPhysics.C86_run_bounds_overlap",
    "LcpPhysics.C86_constructed"
   ],
   "note": "Post-stabilization off (with it the claim is false, C20). Two hulls that are not both rectangles are excluded (C67)."
  },
  {
   "property": "C87",
   "status": "proved",
   "theorems": [
    "LcpPhysics.C87_nothing_overlaps",
    "LcpPhysics.C87_scenery_stays",
    "LcpPhysics.C87_ball_stays_in_court",
    "LcpPhysics.C87_slow_ball_stays"
   ],
   "note": "Exact solver; the broad phase reports every pair of overlapping bounding boxes. Below the end of the left wall (row 189) nothing is claimed."
  },
  {
   "property": "C88",
   "status": "proved",
   "theorems": [
    "LcpPhysics.C88_world_from_screen",
    "LcpPhysics.C88_reads_picture",
    "LcpPhysics.C88_ball_read_as_block"
   ],
   "note": "A frame is its red channel, the only one read. The claim without the condition on line 57 is false (C88_ball_read_as_block)."
  },
  {
   "property": "C89",
   "status": "proved",
   "theorems": [
    "LcpPhysics.C89_simulate",
    "LcpPhysics.C89_world_made",
    "LcpPhysics.C89_simulated_state",
    "LcpPhysics.C89_only_paddle_angle"
   ],
   "note": "The attributes pos and rot, stale until the next set_p, are not modelled separately from p."
  },
  {
   "property": "C90",
   "status": "proved",
   "theorems": [
    "LcpPhysics.C90_free_step",
    "LcpPhysics.C90_any_length",
    "LcpPhysics.C90_dynamics",
    "LcpPhysics.C90_prediction",
    "LcpPhysics.C90_bounce_forgotten"
   ],
   "note": "One state per batch. Exact LCP solver. The last clause (the prediction forgets bounces) is C90_bounce_forgotten."
  },
  {
   "property": "C91",
   "status": "proved",
   "theorems": [
    "LcpPhysics.C91_cost"
   ],
   "note": "The MPC solver that minimises this cost is not modelled."
  },
  {
   "property": "C92",
   "status": "proved",
   "theorems": [
    "LcpPhysics.C92_learned_states",
    "LcpPhysics.C92_loss"
   ],
   "note": "Gradient descent on the loss is not modelled; the loss is shown to be a quadratic with the true speed as its only zero."
  },
  {
   "property": "C93",
   "status": "proved",
   "theorems": [
    "LcpPhysics.C93_made_regular",
    "LcpPhysics.C93_game_regular",
    "LcpPhysics.C93_library_engine_returns",
    "LcpPhysics.C93_step_raises",
    "LcpPhysics.C93_free_engine_returns",
    "LcpPhysics.C93_game_raises",
    "LcpPhysics.C93_corner_raises"
   ],
   "note": "LAPACK by contract. A ball of radius 0 is excluded (C77)."
  },
  {
   "property": "C94",
   "status": "proved",
   "theorems": [
    "LcpPhysics.C94_search_total",
    "LcpPhysics.C94_nan_contact",
    "LcpPhysics.C94_search_fails",
    "LcpPhysics.C94_step_raises"
   ],
   "note": "Hulls that are not rectangles can make the search fail: C65, C67. In exact arithmetic."
  },
  {
   "property": "C95",
   "status": "proved",
   "theorems": [
    "LcpPhysics.C95_loss",
    "LcpPhysics.C95_before_impact",
    "LcpPhysics.C95_positions",
    "LcpPhysics.C95_mass_invisible",
    "LcpPhysics.C95_no_gradient"
   ],
   "note": "Exact arithmetic: the impulse acts in exactly three steps (t = 0, 1/30, 2/30 < 0.1). After the impact nothing is claimed. RMSprop is not modelled."
  },
  {
   "property": "C96",
   "status": "proved",
   "theorems": [
    "LcpPhysics.C96_momentum",
    "LcpPhysics.C96_centre_of_mass",
    "LcpPhysics.C96_centre_fixed",
    "LcpPhysics.C96_angular_momentum",
    "LcpPhysics.C96_energy_inelastic",
    "LcpPhysics.C96_energy_frictionless",
    "LcpPhysics.C96_search_meets"
   ],
   "note": "LCP solver by the contract Exact. Angular momentum is claimed for bodies without joints: the anchors of a rotating joint separate at second order (a revolute joint holds velocities, not positions)."
  },
  {
   "property": "C97",
   "status": "proved",
   "theorems": [
    "LcpPhysics.C97_rub",
    "LcpPhysics.C97_slip"
   ],
   "note": "Law level: about the ContactLaw that C38 gives for every exact engine step; instance in Props/Rolling.lean."
  },
  {
   "property": "C98",
   "status": "proved",
   "theorems": [
    "LcpPhysics.C98_sliding",
    "LcpPhysics.C98_rolls",
    "LcpPhysics.C98_frictionless",
    "LcpPhysics.C98_runs",
    "LcpPhysics.C98_initial"
   ],
   "note": "post_stab off, LCP solver by the contract Exact, broad phase presents the pair once. Exact arithmetic: the ball starts exactly on the floor."
  },
  {
   "property": "C99",
   "status": "proved",
   "theorems": [
    "LcpPhysics.C99_virtual_work",
    "LcpPhysics.C99_propped_rests",
    "LcpPhysics.C99_rest_iff_balanced",
    "LcpPhysics.C99_stays",
    "LcpPhysics.C99_tower",
    "LcpPhysics.C99_tower_criterion",
    "LcpPhysics.C99_tower_runs",
    "LcpPhysics.C99_overhang"
   ],
   "note": "LCP solver by the contract Exact. The criterion for falling assumes bricks thicker than the contact distance eps (otherwise bricks that do not touch get contacts too). Exact arithmetic: bricks touch exactly."
  },
  {
   "property": "C100",
   "status": "proved",
   "theorems": [
    "LcpPhysics.C100_block",
    "LcpPhysics.C100_tips_iff",
    "LcpPhysics.C100_slides",
    "LcpPhysics.C100_stays",
    "LcpPhysics.C100_rest_iff",
    "LcpPhysics.C100_runs",
    "LcpPhysics.C100_initial",
    "LcpPhysics.C100_slide_demo"
   ],
   "note": "post_stab off, LCP solver by the contract Exact. Exact arithmetic: the box starts exactly on the plane. When a box tips, only the first step of tipping is described."
  },
  {
   "property": "C101",
   "status": "proved",
   "theorems": [
    "LcpPhysics.C101_transposed",
    "LcpPhysics.C101_curve_exists",
    "LcpPhysics.C101_response_closed",
    "LcpPhysics.C101_backward_response",
    "LcpPhysics.C101_curve_response",
    "LcpPhysics.C101_load_ignored",
    "LcpPhysics.C101_backward_returns",
    "LcpPhysics.C101_load_matters",
    "LcpPhysics.C101_wrong_gradient",
    "LcpPhysics.C101_spurious_gradient",
    "LcpPhysics.C101_exact_load",
    "LcpPhysics.C101_ball_returns"
   ],
   "note": "The negation of the naive property (gradients are right with friction) with its exact reason. C101_transposed: for every solution curve in p alone, the returned dp for loss gradient delta equals the derivative of x in direction delta. C101_curve_exists: such curves exist through every interior solution. C101_response_closed: closed form for a body in one contact. C101_wrong_gradient/C101_spurious_gradient: the two errors; instantiated for the ball sliding on a floor of C98. C101_exact_load: the exact law for comparison."
  },
  {
   "property": "C102",
   "status": "proved",
   "theorems": [
    "LcpPhysics.C102_contact_is_overlap",
    "LcpPhysics.C102_phantom_contact",
    "LcpPhysics.C102_phantom_refused",
    "LcpPhysics.C102_phantom_wall",
    "LcpPhysics.C102_accepted_iff",
    "LcpPhysics.C102_strict_step",
    "LcpPhysics.C102_strict_ends"
   ],
   "note": "Measured pairs are circle-circle, circle-hull and box-box; for two general hulls the property is false as stated and its negation is proved (C102_phantom_contact, C102_phantom_refused, C102_phantom_wall). C102_strict_ends: a bound on the halvings exists; C102_strict_step: the explicit bound and the least advance. The engine enters only through the velocities it returns."
  },
  {
   "property": "C103",
   "status": "proved",
   "theorems": [
    "LcpPhysics.C103_runs",
    "LcpPhysics.C103_accuracy",
    "LcpPhysics.C103_bounces",
    "LcpPhysics.C103_height_gradient",
    "LcpPhysics.C103_almost_every_height",
    "LcpPhysics.C103_speed_gradient",
    "LcpPhysics.C103_wrong_way"
   ],
   "note": "Exact arithmetic, LCP solver by the contract Exact, strict_no_penetration=True (default), post_stab off, no gravity, ball without spin moving straight down. The derivative is that of the function the program computes (which correct reverse-mode differentiation returns); C101 treats the backward pass itself. The naive property (gradients of the simulation approximate gradients of the motion) is false; its negation is C103_height_gradient with a concrete run."
  },
  {
   "property": "C104",
   "status": "proved",
   "theorems": [
    "LcpPhysics.C104_step",
    "LcpPhysics.C104_energy",
    "LcpPhysics.C104_run",
    "LcpPhysics.C104_fixed_step",
    "LcpPhysics.C104_bounces_higher"
   ],
   "note": "Exact arithmetic, LCP solver by the contract Exact, post_stab off (post-stabilization moves bodies in addition). Constant weight in C104_energy, C104_run and C104_fixed_step; any force in C104_step. C104_bounces_higher is one scene up to the sizes and masses that do not matter. The naive property (speed gained = acceleration times time passed) is false; the theorems give the exact law and when it holds."
  },
  {
   "property": "C105",
   "status": "proved",
   "theorems": [
    "LcpPhysics.C105_step",
    "LcpPhysics.C105_slows",
    "LcpPhysics.C105_drifts",
    "LcpPhysics.C105_brakes",
    "LcpPhysics.C105_rate",
    "LcpPhysics.C105_stops",
    "LcpPhysics.C105_runs",
    "LcpPhysics.C105_spinner"
   ],
   "note": "Exact arithmetic, LCP solver by the contract Exact, post_stab off. One revolute joint to the world (a Joint with body2 None); joints between two bodies are not covered. The naive property (a frictionless pivot conserves the energy of the body it holds) is false; C105_stops and C105_spinner prove the opposite for all bodies pinned off their centre."
  },
  {
   "property": "C106",
   "status": "proved",
   "theorems": [
    "LcpPhysics.C106_step",
    "LcpPhysics.C106_separates",
    "LcpPhysics.C106_distance",
    "LcpPhysics.C106_apart",
    "LcpPhysics.C106_runs",
    "LcpPhysics.C106_spinner"
   ],
   "note": "Exact arithmetic, LCP solver by the contract Exact, post_stab off. The two bodies are held by nothing else and touch nothing. The naive property (bodies fixed to each other keep their distance) is false; C106_separates gives the exact growth, C106_apart and C106_spinner the limits."
  },
  {
   "property": "C107",
   "status": "proved",
   "theorems": [
    "LcpPhysics.C107_law",
    "LcpPhysics.C107_contacts",
    "LcpPhysics.C107_step",
    "LcpPhysics.C107_runs",
    "LcpPhysics.C107_cradle",
    "LcpPhysics.C107_exchange",
    "LcpPhysics.C107_jump"
   ],
   "note": "Exact arithmetic, LCP solver by the contract Exact, post_stab off, strict_no_penetration=True, one restitution for all balls, the other balls of the row at a common speed. The naive property (a row of equal elastic balls passes the impact on to its last ball) is false; C107_cradle proves what happens instead."
  },
  {
   "property": "C108",
   "status": "proved",
   "theorems": [
    "LcpPhysics.C108_law",
    "LcpPhysics.C108_post_law",
    "LcpPhysics.C108_contacts",
    "LcpPhysics.C108_circle",
    "LcpPhysics.C108_hull",
    "LcpPhysics.C108_rect",
    "LcpPhysics.C108_joints",
    "LcpPhysics.C108_circles_simulation",
    "LcpPhysics.C108_simulation",
    "LcpPhysics.C108_sizes_matter"
   ],
   "note": "Exact arithmetic, LCP solver by the contract Exact. The run theorems need bodies without friction (with friction the velocities need not be unique: C108_law and C108_post_law still carry every solution over). The broad phase is an oracle that must not depend on the units. C108_sizes_matter proves that the bound on the sizes is needed. The default values of eps, tol and dt (utils.py) are dimensional too; here they are scaled with the scene."
  },
  {
   "property": "C109",
   "status": "proved",
   "theorems": [
    "LcpPhysics.C109_law",
    "LcpPhysics.C109_gravity_weighs",
    "LcpPhysics.C109_falling_steps",
    "LcpPhysics.C109_falling_returns",
    "LcpPhysics.C109_falling_run",
    "LcpPhysics.C109_fall"
   ],
   "note": "Exact arithmetic, LCP solver by the contract Exact, no joints (a joint to the world does feel gravity), frictionless for the runs (C109_law covers friction). The broad phase must not depend on the frame."
  },
  {
   "property": "C110",
   "status": "proved",
   "theorems": [
    "LcpPhysics.C110_solution",
    "LcpPhysics.C110_heavy_stall",
    "LcpPhysics.C110_light_stall",
    "LcpPhysics.C110_contracts",
    "LcpPhysics.C110_touching",
    "LcpPhysics.C110_resting_drift",
    "LcpPhysics.C110_heavy_correction"
   ],
   "note": "Exact arithmetic; the bounds of (1) and (2) are sufficient, not sharp. The naive property (the solver returns a solution of a solvable monotone problem with one inequality up to eps) is false; C110_heavy_stall, C110_light_stall and C110_touching give the exact results. solve_dynamics has four rows per contact, so only post_stabilization is reached by these theorems."
  },
  {
   "property": "C111",
   "status": "proved",
   "theorems": [
    "LcpPhysics.C111_forever",
    "LcpPhysics.C111_weld_bounded",
    "LcpPhysics.C111_runs",
    "LcpPhysics.C111_weld_runs",
    "LcpPhysics.C111_step",
    "LcpPhysics.C111_without",
    "LcpPhysics.C111_factor",
    "LcpPhysics.C111_slows",
    "LcpPhysics.C111_drift",
    "LcpPhysics.C111_total",
    "LcpPhysics.C111_stops",
    "LcpPhysics.C111_weld"
   ],
   "note": "Exact arithmetic, LCP solver by the contract Exact, post_stab on. The bodies touch nothing (with contacts the two solves of a step are C38 and C62). C111_factor varies the factor in the formula for the drift that C111_step and C111_without derive from the engine for the factors 1/2 and 0; other factors are not in the code. Forces enter C111_step; the sums over many steps are for bodies without forces."
  },
  {
   "property": "C112",
   "status": "proved",
   "theorems": [
    "LcpPhysics.C112_inelastic_step",
    "LcpPhysics.C112_bouncing_step",
    "LcpPhysics.C112_bouncing_costs",
    "LcpPhysics.C112_sum",
    "LcpPhysics.C112_count",
    "LcpPhysics.C112_limit",
    "LcpPhysics.C112_koenig",
    "LcpPhysics.C112_internal",
    "LcpPhysics.C112_still",
    "LcpPhysics.C112_still_iff"
   ],
   "note": "Exact arithmetic, LCP solver by the contract Exact. With friction and restitution together energy can be created (C42_friction_can_create_energy), so that case is excluded; C112_still covers friction and any restitutions. With joints and restitution the constraint velocities of the old state would enter the balance, so (2) is for free bodies."
  },
  {
   "property": "C113",
   "status": "proved",
   "theorems": [
    "LcpPhysics.C113_law",
    "LcpPhysics.C113_circle_pair",
    "LcpPhysics.C113_scene",
    "LcpPhysics.C113_hull_pair",
    "LcpPhysics.C113_hull_contacts",
    "LcpPhysics.C113_tie",
    "LcpPhysics.C113_tie_motion"
   ],
   "note": "Exact arithmetic. The naive property (the order of a pair never matters) is false: C113_tie, C113_tie_motion. C113_scene is for pairs with a circle; for two hulls C113_hull_contacts is per pair, because the hidden start edge differs after an early exit of the first test (it cannot change separations, C17)."
  },
  {
   "property": "C114",
   "status": "proved",
   "theorems": [
    "LcpPhysics.C114_impact",
    "LcpPhysics.C114_correction",
    "LcpPhysics.C114_gravity",
    "LcpPhysics.C114_run"
   ],
   "note": "Exact arithmetic, LCP solver by the contract Exact. Circles only: a tie of two hulls is decided by the order of the pair (C113), and hull contacts between aligned faces depend on the start edge. Without friction, because with friction the outcome of an impact need not be unique. The theorem compares two runs that return; existence in the examples by C74."
  },
  {
   "property": "C115",
   "status": "proved",
   "theorems": [
    "LcpPhysics.C115_forces",
    "LcpPhysics.C115_fixed_ball",
    "LcpPhysics.C115_pushes",
    "LcpPhysics.C115_test_forces",
    "LcpPhysics.C115_materials",
    "LcpPhysics.C115_demos_start",
    "LcpPhysics.C115_held",
    "LcpPhysics.C115_slopes",
    "LcpPhysics.C115_left_alone",
    "LcpPhysics.C115_clocks",
    "LcpPhysics.C115_excluded",
    "LcpPhysics.C115_starts",
    "LcpPhysics.C115_watched_step",
    "LcpPhysics.C115_step",
    "LcpPhysics.C115_run"
   ],
   "note": "Exact arithmetic. Scenes without drawing and recording. (1) needs no solver. (2), (3): LCP solver by the contract Exact; (3) is about runs in which nothing touches the body, expressed by a contact search that stops the program when it does; no theorem says that the balls of the demos never reach the clock. Whether every later step of a demo returns is not proved (with friction and joints the LCP need not be solvable; strict mode need not terminate, C22)."
  },
  {
   "property": "C116",
   "status": "proved",
   "theorems": [
    "LcpPhysics.C116_as_library",
    "LcpPhysics.C116_plain_return",
    "LcpPhysics.C116_opposite",
    "LcpPhysics.C116_one_sweep",
    "LcpPhysics.C116_one_sweep_back",
    "LcpPhysics.C116_inverse_refines",
    "LcpPhysics.C116_sparse_rows",
    "LcpPhysics.C116_dense_misses",
    "LcpPhysics.C116_full_step",
    "LcpPhysics.C116_full_residual",
    "LcpPhysics.C116_runs_agree",
    "LcpPhysics.C116_sparse_runs_agree",
    "LcpPhysics.C116_sparse_needs_equalities",
    "LcpPhysics.C116_newton",
    "LcpPhysics.C116_regularised_return",
    "LcpPhysics.C116_repeated_equality"
   ],
   "note": "Exact arithmetic. The file fails on import (line 11); modelled with binverse the matrix inverse, one batch element. SP_IR_INVERSE always raises (bmm of a csc_matrix) and is modelled so; no theorem is about it. The naive properties (all variants compute the same step; refinement refines) are false: C116_opposite, C116_dense_misses, C61."
  },
  {
   "property": "C117",
   "status": "proved",
   "theorems": [
    "LcpPhysics.C117_flight",
    "LcpPhysics.C117_target",
    "LcpPhysics.C117_centre",
    "LcpPhysics.C117_miss",
    "LcpPhysics.C117_weak_misses",
    "LcpPhysics.C117_first_push_hits",
    "LcpPhysics.C117_no_gradient",
    "LcpPhysics.C117_stalls",
    "LcpPhysics.C117_reach",
    "LcpPhysics.C117_reach_demo",
    "LcpPhysics.C117_printed",
    "LcpPhysics.C117_printed_stale"
   ],
   "note": "Exact arithmetic (the push lasts three steps; DT = 1/30). (2) needs no solver contract, except that the target stays (Exact). What backward returns is a parameter; its contract Differentiates is used only where the distance is differentiable in every direction. Nothing is proved about the gradient at pushes that hit, nor that runs with an impact return. The naive property (the printed distance is that of the learned push) is false: C117_printed_stale."
  },
  {
   "property": "C118",
   "status": "proved",
   "theorems": [
    "LcpPhysics.C118_step_bound",
    "LcpPhysics.C118_step_sign",
    "LcpPhysics.C118_memory",
    "LcpPhysics.C118_first_step",
    "LcpPhysics.C118_first_mass",
    "LcpPhysics.C118_reach",
    "LcpPhysics.C118_not_at_once",
    "LcpPhysics.C118_overshoot",
    "LcpPhysics.C118_stalls",
    "LcpPhysics.C118_histories",
    "LcpPhysics.C118_report",
    "LcpPhysics.C118_screen",
    "LcpPhysics.C118_main",
    "LcpPhysics.C118_blind",
    "LcpPhysics.C118_cycle",
    "LcpPhysics.C118_early_stop",
    "LcpPhysics.C118_game_loss",
    "LcpPhysics.C118_game_gradient",
    "LcpPhysics.C118_learn_rate",
    "LcpPhysics.C118_learned",
    "LcpPhysics.C118_learn_reach",
    "LcpPhysics.C118_mass_stops",
    "LcpPhysics.C118_game_stops"
   ],
   "note": "Exact arithmetic. RMSprop is not in the repository; its update is modelled from its documentation. Random numbers and gradients are parameters; in C118_blind the gradient is the derivative where there is one. Every run starts from the same state of the random generator of the contact search. Nothing is proved about the gradient of the loss after the impact. (3) is for games without contacts; screens are given, gym is not modelled."
  },
  {
   "property": "C119",
   "status": "proved",
   "theorems": [
    "LcpPhysics.C119_error",
    "LcpPhysics.C119_steps",
    "LcpPhysics.C119_returns",
    "LcpPhysics.C119_fixed",
    "LcpPhysics.C119_fixed_first",
    "LcpPhysics.C119_stands",
    "LcpPhysics.C119_demo_steps",
    "LcpPhysics.C119_exact_steps",
    "LcpPhysics.C119_force_times",
    "LcpPhysics.C119_clock_of_world"
   ],
   "note": "Only the clock is rounded; positions and velocities stay exact in the other properties. Steps are taken as not cut in (1)-(3). Overflow is left out (no largest exponent). The loop condition of `step(fixed_dt=True)` at times below one step is only treated for the first step taken whole."
  },
  {
   "property": "C120",
   "status": "proved",
   "theorems": [
    "LcpPhysics.C120_reward_lost",
    "LcpPhysics.C120_average",
    "LcpPhysics.C120_never_moves",
    "LcpPhysics.C120_direction",
    "LcpPhysics.C120_paddle_velocity",
    "LcpPhysics.C120_velocity",
    "LcpPhysics.C120_measures",
    "LcpPhysics.C120_reappears",
    "LcpPhysics.C120_returns",
    "LcpPhysics.C120_errors"
   ],
   "note": "Exact arithmetic. The gym environment, the controller and the random numbers are parameters; printing, rendering, recording and KeyboardInterrupt are left out. At most 10^10 passes per episode, as in the code. The naive property (the average is that of the points earned) is false: C120_reward_lost. The cost of the controller is that of C68; the mpc package itself is not modelled."
  },
  {
   "property": "C121",
   "status": "proved",
   "theorems": [
    "LcpPhysics.C121_hull_qualifies",
    "LcpPhysics.C121_plain_qualifies",
    "LcpPhysics.C121_search_total",
    "LcpPhysics.C121_search_fails",
    "LcpPhysics.C121_step_raises",
    "LcpPhysics.C121_hulls_never_raise",
    "LcpPhysics.C121_hulls_search",
    "LcpPhysics.C121_hulls_run",
    "LcpPhysics.C121_rotate_verts",
    "LcpPhysics.C121_test_centroid",
    "LcpPhysics.C121_test_inertia",
    "LcpPhysics.C121_render_starts",
    "LcpPhysics.C121_render_pushed",
    "LcpPhysics.C121_render_search",
    "LcpPhysics.C121_slide_starts",
    "LcpPhysics.C121_slope_stays"
   ],
   "note": "Exact arithmetic. The whole-run result is for frictionless bodies and strict_no_pen off (the tests run with friction and strict_no_pen on, so only their starts and searches are covered). The broad phase is any function that returns pairs of distinct indices. Drawing and recording are left out."
  },
  {
   "property": "C122",
   "status": "proved",
   "theorems": [
    "LcpPhysics.C122_exact",
    "LcpPhysics.C122_drift",
    "LcpPhysics.C122_million",
    "LcpPhysics.C122_shape",
    "LcpPhysics.C122_rect_symmetric",
    "LcpPhysics.C122_broad_phase",
    "LcpPhysics.C122_position",
    "LcpPhysics.C122_undo"
   ],
   "note": "Only move, set_p and rotate_verts are rounded; the vertices and poses given to the constructors are taken as they are. Overflow is left out. A matrix product is two rounded products and a rounded sum; a fused multiply-add, which some libraries use, is not covered. The naive property that undone steps leave no trace is false: C122_undo."
  },
  {
   "property": "C123",
   "status": "proved",
   "theorems": [
    "LcpPhysics.C123_penetration",
    "LcpPhysics.C123_kept",
    "LcpPhysics.C123_refused",
    "LcpPhysics.C123_step",
    "LcpPhysics.C123_run",
    "LcpPhysics.C123_calls",
    "LcpPhysics.C123_attempts",
    "LcpPhysics.C123_clock",
    "LcpPhysics.C123_exact",
    "LcpPhysics.C123_pressed"
   ],
   "note": "Circles only, no post-stabilization. The velocities come from outside and are real numbers: the engine, and a NaN it may return for concentric circles, are not part of this model. Overflow is left out. The norm is a rounded root of a rounded sum of rounded squares; a scaled or fused computation is not covered. Exact arithmetic gives the contrast: C123_pressed."
  },
  {
   "property": "C124",
   "status": "proved",
   "theorems": [
    "LcpPhysics.C124_flight",
    "LcpPhysics.C124_run",
    "LcpPhysics.C124_converges",
    "LcpPhysics.C124_constant",
    "LcpPhysics.C124_impulse",
    "LcpPhysics.C124_early"
   ],
   "note": "Exact arithmetic, no post-stabilization. Forces with jumps (the impulses) are not Lipschitz: for them the velocity is given in closed form instead. The naive property that shorter steps give the right motion also through contacts is false: C124_early."
  },
  {
   "property": "C125",
   "status": "proved",
   "theorems": [
    "LcpPhysics.C125_hinge_any",
    "LcpPhysics.C125_weld_any",
    "LcpPhysics.C125_pin_any",
    "LcpPhysics.C125_library",
    "LcpPhysics.C125_speed_step",
    "LcpPhysics.C125_speed",
    "LcpPhysics.C125_holds",
    "LcpPhysics.C125_limit",
    "LcpPhysics.C125_runs",
    "LcpPhysics.C125_pendulum"
   ],
   "note": "Exact arithmetic, no post-stabilization. The bound in initial data is for contacts without restitution (bounces can feed energy, C42). That joints do part is C105 and C106: the rate of first order is the true one. The double pendulum's bodies ignore each other's touch, as in the library's own chains."
  },
  {
   "property": "C126",
   "status": "proved",
   "theorems": [
    "LcpPhysics.C126_equation",
    "LcpPhysics.C126_swings",
    "LcpPhysics.C126_recursion",
    "LcpPhysics.C126_converges",
    "LcpPhysics.C126_pendulum"
   ],
   "note": "Exact arithmetic, exact solver, no post-stabilization; constant forces (gravity). The body must start moving about the pivot (with another initial velocity the first step projects it, C105). The pivot does not stay on the body: see C125 and C105."
  },
  {
   "property": "C127",
   "status": "proved",
   "theorems": [
    "LcpPhysics.C127_exact_made",
    "LcpPhysics.C127_exact",
    "LcpPhysics.C127_step",
    "LcpPhysics.C127_angle",
    "LcpPhysics.C127_length",
    "LcpPhysics.C127_anchor",
    "LcpPhysics.C127_made",
    "LcpPhysics.C127_joint",
    "LcpPhysics.C127_million",
    "LcpPhysics.C127_bounded",
    "LcpPhysics.C127_ends",
    "LcpPhysics.C127_fixed"
   ],
   "note": "Velocities come from outside and are real numbers; post-stabilization is off; overflow is left out. That an accepted length exists is not part of this (C123 for circles)."
  },
  {
   "property": "C128",
   "status": "proved",
   "theorems": [
    "LcpPhysics.C128_step",
    "LcpPhysics.C128_elastic",
    "LcpPhysics.C128_higher",
    "LcpPhysics.C128_slow",
    "LcpPhysics.C128_settles",
    "LcpPhysics.C128_runs"
   ],
   "note": "Exact arithmetic, exact solver, no post-stabilization, a ball that falls straight down without spin. (1)-(3) assume steps in which the ball moves by less than its radius. That a fast ball keeps gaining for ever is not proved, only that it never loses with e = 1."
  },
  {
   "property": "C129",
   "status": "proved",
   "theorems": [
    "LcpPhysics.C129_step",
    "LcpPhysics.C129_once",
    "LcpPhysics.C129_loss",
    "LcpPhysics.C129_hit",
    "LcpPhysics.C129_near_miss",
    "LcpPhysics.C129_unseen",
    "LcpPhysics.C129_runs"
   ],
   "note": "Exact arithmetic, exact solver, no post-stabilization, frictionless discs. The broad phase presents the pair at most once, as ODE's spaces do. With friction discs begin to spin (C43, C80 for the single impact)."
  },
  {
   "property": "C130",
   "status": "proved",
   "theorems": [
    "LcpPhysics.C130_step",
    "LcpPhysics.C130_run",
    "LcpPhysics.C130_every_time",
    "LcpPhysics.C130_no_forces",
    "LcpPhysics.C130_answers",
    "LcpPhysics.C130_stands_still",
    "LcpPhysics.C130_eps_zero_stands_still"
   ],
   "note": "Exact arithmetic, exact solver, no post-stabilization, discs without restitution: with restitution a step can hang (C27_strict_can_hang), and hulls can stall at phantom walls (C102). Rounding is not considered: in floating point halving ends at some point."
  },
  {
   "property": "C131",
   "status": "proved",
   "theorems": [
    "LcpPhysics.C131_twins",
    "LcpPhysics.C131_loss",
    "LcpPhysics.C131_ratio",
    "LcpPhysics.C131_mass",
    "LcpPhysics.C131_descent",
    "LcpPhysics.C131_restitution"
   ],
   "note": "Exact arithmetic, exact solver, no post-stabilization, frictionless discs; the experiment's own scene is a chain of rectangles (C95, C118), to which this does not apply. The descent of (5) is plain gradient descent with the exact derivative, not the RMSprop of the experiment."
  },
  {
   "property": "C132",
   "status": "proved",
   "theorems": [
    "LcpPhysics.C132_step",
    "LcpPhysics.C132_depth",
    "LcpPhysics.C132_for_ever",
    "LcpPhysics.C132_pair",
    "LcpPhysics.C132_sunk_step",
    "LcpPhysics.C132_sunk",
    "LcpPhysics.C132_sinks"
   ],
   "note": "Exact arithmetic, exact solver, no post-stabilization (what it does to positions is a matter of its own, see the properties on post_stabilization). (1) and (2) need contacts that do not approach, i.e. zero restitution; the depth must be less than the sum of any two radii, since coinciding centres give a normal that is not a number."
  },
  {
   "property": "C133",
   "status": "proved",
   "theorems": [
    "LcpPhysics.C133_rolls",
    "LcpPhysics.C133_spins",
    "LcpPhysics.C133_grips",
    "LcpPhysics.C133_runs"
   ],
   "note": "Exact arithmetic, exact solver, no post-stabilization, level rectangular floor below the ball; a slope is represented by the direction of the force. Rolling on other shapes, and wheels with several contacts, are not covered."
  },
  {
   "property": "C134",
   "status": "proved",
   "theorems": [
    "LcpPhysics.C134_exact",
    "LcpPhysics.C134_pens",
    "LcpPhysics.C134_reported",
    "LcpPhysics.C134_direction",
    "LcpPhysics.C134_points",
    "LcpPhysics.C134_underflow",
    "LcpPhysics.C134_run"
   ],
   "note": "Circles against circles only; overflow is left out, as in C123, and a norm computed with scaling or fused operations would be covered only as far as its result is that of the plain formula. Between 2^-538 and 2^-470 nothing is claimed about the direction."
  },
  {
   "property": "C135",
   "status": "proved",
   "theorems": [
    "LcpPhysics.C135_exact",
    "LcpPhysics.C135_velocity",
    "LcpPhysics.C135_unit_mass",
    "LcpPhysics.C135_slows",
    "LcpPhysics.C135_flight",
    "LcpPhysics.C135_world"
   ],
   "note": "Bodies without constraints and contacts; the inverse of the diagonal mass matrix is taken to have the rounded reciprocals on the diagonal. The forces are given numbers; their own computation is the subject of C138. Overflow is left out. (5) is stated with bounds on the computed velocities and coordinates."
  },
  {
   "property": "C136",
   "status": "proved",
   "theorems": [
    "LcpPhysics.C136_exact",
    "LcpPhysics.C136_numbers",
    "LcpPhysics.C136_same",
    "LcpPhysics.C136_thirtieth",
    "LcpPhysics.C136_lossless",
    "LcpPhysics.C136_lag"
   ],
   "note": "Only the times are modelled: the pictures are not. (3) holds for every rounding to nearest; with ties to even the frame is lost at the fourth step."
  },
  {
   "property": "C137",
   "status": "proved",
   "theorems": [
    "LcpPhysics.C137_binade",
    "LcpPhysics.C137_runs",
    "LcpPhysics.C137_push",
    "LcpPhysics.C137_timed_force",
    "LcpPhysics.C137_impulse",
    "LcpPhysics.C137_film",
    "LcpPhysics.C137_exact",
    "LcpPhysics.C137_impulse_even",
    "LcpPhysics.C137_impulse_forces"
   ],
   "note": "Steps that are not shortened; in a run in which the world shortens steps the times differ."
  },
  {
   "property": "C138",
   "status": "proved",
   "theorems": [
    "LcpPhysics.C138_exact",
    "LcpPhysics.C138_total",
    "LcpPhysics.C138_weight",
    "LcpPhysics.C138_fall",
    "LcpPhysics.C138_two",
    "LcpPhysics.C138_three"
   ],
   "note": "The values of the force functions are given numbers; the functions of forces.py return constants. In (2) the gravity objects attached to the body must have been attached to it last (C56 shows what happens to shared ones)."
  },
  {
   "property": "C139",
   "status": "proved",
   "theorems": [
    "LcpPhysics.C139_order",
    "LcpPhysics.C139_bounded",
    "LcpPhysics.C139_settles",
    "LcpPhysics.C139_flight"
   ],
   "note": "For nonnegative components; the computation is that of C135. How long it takes to settle is not bounded here."
  },
  {
   "property": "C140",
   "status": "proved",
   "theorems": [
    "LcpPhysics.C140_circle",
    "LcpPhysics.C140_rect",
    "LcpPhysics.C140_moderate"
   ],
   "note": "Circles and rectangles; for hulls see C141."
  },
  {
   "property": "C141",
   "status": "proved",
   "theorems": [
    "LcpPhysics.C141_hull",
    "LcpPhysics.C141_positive",
    "LcpPhysics.C141_exact",
    "LcpPhysics.C141_underflow",
    "LcpPhysics.C141_vertices"
   ],
   "note": "In (3) the cross products must be zero or of usual size as computed. In (4) the program may stop before: the order of so small vertices is checked with products that can underflow as well."
  },
  {
   "property": "C142",
   "status": "proved",
   "theorems": [
    "LcpPhysics.C142_right",
    "LcpPhysics.C142_tiny",
    "LcpPhysics.C142_refused",
    "LcpPhysics.C142_exact"
   ],
   "note": "Without rounding the test is that of the model; here the vertices are given double precision numbers. Overflow is left out."
  }
 ]
}