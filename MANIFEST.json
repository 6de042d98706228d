{
 "claims": [
  {
   "property": "C01",
   "status": "proved",
   "theorems": [
    "Ptera.C01_rotation_is_proper",
    "Ptera.C01_freestream_direction",
    "Ptera.C01_freestream_direction_unit",
    "Ptera.C01_freestream_speed"
   ],
   "note": ""
  },
  {
   "property": "C02",
   "status": "proved",
   "theorems": [
    "Ptera.C02_freestream_in_wind_axes",
    "Ptera.C02_magnitudes",
    "Ptera.C02_coefficient_directions"
   ],
   "note": ""
  },
  {
   "property": "C03",
   "status": "proved",
   "theorems": [
    "Ptera.C03_unit_normal",
    "Ptera.C03_normal_orientation",
    "Ptera.C03_area_nonneg",
    "Ptera.C03_area_is_sum_of_triangles",
    "Ptera.C03_projected_area",
    "Ptera.C03_projected_area_le",
    "Ptera.C03_projected_area_normal",
    "Ptera.C03_average_sizes",
    "Ptera.C03_area_le_span_times_chord",
    "Ptera.C03_unit_directions"
   ],
   "note": ""
  },
  {
   "property": "C04",
   "status": "proved",
   "theorems": [
    "Ptera.C04_quarter_three_quarter",
    "Ptera.C04_affine",
    "Ptera.C04_mirror"
   ],
   "note": ""
  },
  {
   "property": "C05",
   "status": "proved",
   "theorems": [
    "Ptera.C05_reflect_involutive",
    "Ptera.C05_reflect_isometry",
    "Ptera.C05_reflect_fixed_iff",
    "Ptera.C05_reflect_mirror"
   ],
   "note": ""
  },
  {
   "property": "C06",
   "status": "proved",
   "theorems": [
    "Ptera.C06_proper_rotation",
    "Ptera.C06_proper_rotation_normalized",
    "Ptera.C06_fixes_axis",
    "Ptera.C06_compose",
    "Ptera.C06_inverse",
    "Ptera.C06_turns_by_angle",
    "Ptera.C06_axis_length_irrelevant"
   ],
   "note": ""
  },
  {
   "property": "C07",
   "status": "proved",
   "theorems": [
    "Ptera.C07_linspace",
    "Ptera.C07_cosspace"
   ],
   "note": ""
  },
  {
   "property": "C08",
   "status": "proved",
   "theorems": [
    "Ptera.C08_interp"
   ],
   "note": ""
  },
  {
   "property": "C09",
   "status": "proved",
   "theorems": [
    "Ptera.C09_biot_savart",
    "Ptera.C09_biot_savart_collapsed",
    "Ptera.C09_rings",
    "Ptera.C09_horseshoes"
   ],
   "note": ""
  },
  {
   "property": "C10",
   "status": "proved",
   "theorems": [
    "Ptera.C10_line",
    "Ptera.C10_ring",
    "Ptera.C10_horseshoe",
    "Ptera.C10_ring_by_sides",
    "Ptera.C10_permutation",
    "Ptera.C10_pointwise"
   ],
   "note": ""
  },
  {
   "property": "C11",
   "status": "proved",
   "theorems": [
    "Ptera.C11_odd_in_strength",
    "Ptera.C11_odd_in_orientation",
    "Ptera.C11_zero_strength",
    "Ptera.C11_linear",
    "Ptera.C11_superposition"
   ],
   "note": ""
  },
  {
   "property": "C12",
   "status": "proved",
   "theorems": [
    "Ptera.C12_isometry",
    "Ptera.C12_rotation",
    "Ptera.C12_translation",
    "Ptera.C12_field"
   ],
   "note": ""
  },
  {
   "property": "C13",
   "status": "proved",
   "theorems": [
    "Ptera.C13_no_division_by_zero",
    "Ptera.C13_core_radius_defined",
    "Ptera.C13_on_line",
    "Ptera.C13_end_points",
    "Ptera.C13_zero_length"
   ],
   "note": ""
  },
  {
   "property": "C14",
   "status": "proved",
   "theorems": [
    "Ptera.C14_core",
    "Ptera.C14_age_attenuates",
    "Ptera.C14_viscosity_attenuates",
    "Ptera.C14_speed_decreases"
   ],
   "note": ""
  },
  {
   "property": "C15",
   "status": "proved",
   "theorems": [
    "Ptera.C15_side_by_side",
    "Ptera.C15_one_behind_the_other",
    "Ptera.C15_ring_plus_horseshoe",
    "Ptera.C15_degenerate"
   ],
   "note": ""
  },
  {
   "property": "C16",
   "status": "proved",
   "theorems": [
    "Ptera.C16_ring_history",
    "Ptera.C16_horseshoe_history",
    "Ptera.C16_horseshoe_legs"
   ],
   "note": ""
  },
  {
   "property": "C17",
   "status": "proved",
   "theorems": [
    "Ptera.C17_wing_rejects",
    "Ptera.C17_wing_accepts",
    "Ptera.C17_section",
    "Ptera.C17_airplane",
    "Ptera.C17_control_surface",
    "Ptera.C17_hinge_behind_airfoil"
   ],
   "note": ""
  },
  {
   "property": "C18",
   "status": "proved",
   "theorems": [
    "Ptera.C18_solver_counts",
    "Ptera.C18_wing_counts",
    "Ptera.C18_at_least_one_row",
    "Ptera.C18_airplane_count"
   ],
   "note": ""
  },
  {
   "property": "C19",
   "status": "proved",
   "theorems": [
    "Ptera.C19_flags",
    "Ptera.C19_neighbours_exist"
   ],
   "note": ""
  },
  {
   "property": "C20",
   "status": "proved",
   "theorems": [
    "Ptera.C20_chordwise",
    "Ptera.C20_spanwise",
    "Ptera.C20_within_section",
    "Ptera.C20_across_border",
    "Ptera.C20_symmetry_plane",
    "Ptera.C20_everywhere",
    "Ptera.C20_gap_at_border"
   ],
   "note": ""
  },
  {
   "property": "C21",
   "status": "proved",
   "theorems": [
    "Ptera.C21_mirror",
    "Ptera.C21_mirror_opposite"
   ],
   "note": ""
  },
  {
   "property": "C22",
   "status": "proved",
   "theorems": [
    "Ptera.C22_wing_frame",
    "Ptera.C22_section_frame",
    "Ptera.C22_untwisted",
    "Ptera.C22_positive_twist_nose_up"
   ],
   "note": ""
  },
  {
   "property": "C23",
   "status": "proved",
   "theorems": [
    "Ptera.C23_mac_between",
    "Ptera.C23_mac_rectangular",
    "Ptera.C23_mac_ge_smc",
    "Ptera.C23_symmetric_doubling",
    "Ptera.C23_wetted_ge_projected",
    "Ptera.C23_projected_area",
    "Ptera.C23_projected_area_is_trapezoidal",
    "Ptera.C23_untwisted_wings",
    "Ptera.C23_mirrored_wing",
    "Ptera.C23_projected_area_twisted",
    "Ptera.C23_mac_of_twisted_wing_fails"
   ],
   "note": "C23_projected_area derives the planform area from the panels themselves (camber lines lying flat); C23_projected_area_is_trapezoidal and C23_untwisted_wings are its consequences for untwisted wings. With twist the claim about the mean aerodynamic chord is false: C23_projected_area_twisted gives the area and C23_mac_of_twisted_wing_fails a rectangular wing of chord 1 with mean aerodynamic chord 2."
  },
  {
   "property": "C24",
   "status": "proved",
   "theorems": [
    "Ptera.C24_sides",
    "Ptera.C24_camber_line",
    "Ptera.C24_outline",
    "Ptera.C24_outline_midpoints",
    "Ptera.C24_symmetric",
    "Ptera.C24_symmetric_accepted",
    "Ptera.C24_cambered_rejected",
    "Ptera.C24_naca4412_rejected",
    "Ptera.C24_repaneled"
   ],
   "note": ""
  },
  {
   "property": "C25",
   "status": "proved",
   "theorems": [
    "Ptera.C25_zero_deflection",
    "Ptera.C25_hinge_behind_all",
    "Ptera.C25_rigid_rotation",
    "Ptera.C25_distances",
    "Ptera.C25_positive_is_down",
    "Ptera.C25_camber_line",
    "Ptera.C25_hinge_on_camber_line",
    "Ptera.C25_inFront_sorted",
    "Ptera.C25_zero_deflection_repaneled"
   ],
   "note": ""
  },
  {
   "property": "C26",
   "status": "proved",
   "theorems": [
    "Ptera.C26_constant",
    "Ptera.C26_sine",
    "Ptera.C26_custom",
    "Ptera.C26_uniform",
    "Ptera.C26_starts_at_base",
    "Ptera.C26_bounded",
    "Ptera.C26_periodic"
   ],
   "note": ""
  },
  {
   "property": "C27",
   "status": "proved",
   "theorems": [
    "Ptera.C27_rejects",
    "Ptera.C27_run_length",
    "Ptera.C27_delta_time",
    "Ptera.C27_accepts",
    "Ptera.C27_raises_exactly"
   ],
   "note": ""
  },
  {
   "property": "C28",
   "status": "proved",
   "theorems": [
    "Ptera.C28_max_period",
    "Ptera.C28_zero_iff_static",
    "Ptera.C28_defined"
   ],
   "note": ""
  },
  {
   "property": "C29",
   "status": "partial",
   "theorems": [
    "Ptera.C29_leading_edge_iff",
    "Ptera.C29_static_wing_partial",
    "Ptera.C29_static_airplane_partial",
    "Ptera.C29_static_operating_point_partial",
    "Ptera.C29_operating_point_fails",
    "Ptera.C29_airplane_drops_references",
    "Ptera.C29_swept_dihedral_fails"
   ],
   "note": "The property as stated is false of the code. Proved: motionless movements reproduce the base wing if and only if every section is straight above/below its inner neighbour or to its right and displaced in at most one of x and z; airplane and operating point with default references/thrust/viscosity. Negations proved: C29_swept_dihedral_fails, C29_operating_point_fails, C29_airplane_drops_references."
  },
  {
   "property": "C30",
   "status": "proved",
   "theorems": [
    "Ptera.C30_rigid_sections"
   ],
   "note": ""
  },
  {
   "property": "C31",
   "status": "proved",
   "theorems": [
    "Ptera.C31_histories",
    "Ptera.C31_steady_problems",
    "Ptera.C31_wings_generated",
    "Ptera.C31_airplanes_generated",
    "Ptera.C31_movement_accepted"
   ],
   "note": ""
  },
  {
   "property": "C32",
   "status": "proved",
   "theorems": [
    "Ptera.C32_window",
    "Ptera.C32_results_cover_window"
   ],
   "note": ""
  },
  {
   "property": "C33",
   "status": "proved",
   "theorems": [
    "Ptera.C33_horseshoe",
    "Ptera.C33_ring",
    "Ptera.C33_only_singular_fails"
   ],
   "note": ""
  },
  {
   "property": "C34",
   "status": "partial",
   "theorems": [
    "Ptera.C34_ring_fails",
    "Ptera.C34_ring_new_solver",
    "Ptera.C34_horseshoe",
    "Ptera.C34_horseshoe_new_solver",
    "Ptera.C34_unsteady",
    "Ptera.C34_unsteady_reruns",
    "Ptera.C34_unsteady_lists"
   ],
   "note": "True of the horseshoe solver for any number of reruns (seed points repeated once per run) and of any new horseshoe solver object whatever is on the panels (C34_horseshoe_new_solver), and of the unsteady solver for the strengths, loads and wake of every step, for any solver object of the problem and any number of reruns (C34_unsteady, C34_unsteady_reruns); its result lists are appended to again (C34_unsteady_lists). False of the ring solver object: C34_ring_fails exhibits a problem on which the second run succeeds with another strength; a new ring solver object does reproduce the strengths, arrays, velocities, loads and the vortices on the panels (C34_ring_new_solver)."
  },
  {
   "property": "C35",
   "status": "proved",
   "theorems": [
    "Ptera.C35_forces",
    "Ptera.C35_force_laws",
    "Ptera.C35_moments",
    "Ptera.C35_horseshoe",
    "Ptera.C35_ring",
    "Ptera.C35_unsteady"
   ],
   "note": ""
  },
  {
   "property": "C36",
   "status": "partial",
   "theorems": [
    "Ptera.C36_multiplicities",
    "Ptera.C36_fails",
    "Ptera.C36_unsteady_fails",
    "Ptera.C36_unsteady_multiplicities"
   ],
   "note": "The property as stated is false of the code: C36_fails exhibits a run of the steady ring solver on a wing of two panels whose panel forces do not add up to the forces on its five distinct filaments; C36_unsteady_fails exhibits a run of the unsteady solver on the same wing. Proved besides: the exact multiplicities for every row of every wing of the steady ring solver and of every step of the unsteady solver (outer chordwise filaments once, inner ones twice)."
  },
  {
   "property": "C37",
   "status": "proved",
   "theorems": [
    "Ptera.C37_panel_loads",
    "Ptera.C37_totals",
    "Ptera.C37_area_weighted",
    "Ptera.C37_horseshoe",
    "Ptera.C37_ring",
    "Ptera.C37_unsteady",
    "Ptera.C37_unsteady_steps"
   ],
   "note": ""
  },
  {
   "property": "C38",
   "status": "proved",
   "theorems": [
    "Ptera.C38_horseshoe",
    "Ptera.C38_ring",
    "Ptera.C38_unsteady"
   ],
   "note": ""
  },
  {
   "property": "C39",
   "status": "proved",
   "theorems": [
    "Ptera.C39_steady",
    "Ptera.C39_horseshoes",
    "Ptera.C39_trailing_horseshoes",
    "Ptera.C39_unsteady"
   ],
   "note": ""
  },
  {
   "property": "C40",
   "status": "proved",
   "theorems": [
    "Ptera.C40_run_finishes",
    "Ptera.C40_only_singular_fails",
    "Ptera.C40_shape",
    "Ptera.C40_arrays"
   ],
   "note": ""
  },
  {
   "property": "C41",
   "status": "proved",
   "theorems": [
    "Ptera.C41_strength",
    "Ptera.C41_kept"
   ],
   "note": ""
  },
  {
   "property": "C42",
   "status": "proved",
   "theorems": [
    "Ptera.C42_age"
   ],
   "note": ""
  },
  {
   "property": "C43",
   "status": "proved",
   "theorems": [
    "Ptera.C43_attached",
    "Ptera.C43_connected",
    "Ptera.C43_convected",
    "Ptera.C43_first",
    "Ptera.C43_prescribed",
    "Ptera.C43_prescribed_rings"
   ],
   "note": ""
  },
  {
   "property": "C44",
   "status": "proved",
   "theorems": [
    "Ptera.C44_recorded",
    "Ptera.C44_objects",
    "Ptera.C44_objects_rewritten"
   ],
   "note": ""
  },
  {
   "property": "C45",
   "status": "proved",
   "theorems": [
    "Ptera.C45_own_step",
    "Ptera.C45_no_penetration",
    "Ptera.C45_solution_velocity"
   ],
   "note": ""
  },
  {
   "property": "C46",
   "status": "proved",
   "theorems": [
    "Ptera.C46_difference",
    "Ptera.C46_translation",
    "Ptera.C46_superposition"
   ],
   "note": ""
  },
  {
   "property": "C47",
   "status": "proved",
   "theorems": [
    "Ptera.C47_static",
    "Ptera.C47_periodic",
    "Ptera.C47_coefficients",
    "Ptera.C47_moment_coefficients"
   ],
   "note": ""
  },
  {
   "property": "C48",
   "status": "proved",
   "theorems": [
    "Ptera.C48_result",
    "Ptera.C48_within_bounds",
    "Ptera.C48_raises",
    "Ptera.C48_balance"
   ],
   "note": "For every pair of optimizers (strategies choosing the next point from the values seen). The imbalance is the one a new solver computes at the point, so purity of the objective is part of the theorem. C48_balance translates the cutoff into forces and moments."
  },
  {
   "property": "C49",
   "status": "partial",
   "theorems": [
    "Ptera.C49_evaluation_fails",
    "Ptera.C49_never_trims"
   ],
   "note": "The property is false of the code; its negation is proved for all inputs and optimizers: every evaluation raises, AttributeError when the simulation itself finishes (C49_evaluation_fails), so no trim condition is ever returned (C49_never_trims)."
  },
  {
   "property": "C50",
   "status": "proved",
   "theorems": [
    "Ptera.C50_steady",
    "Ptera.C50_steady_ends",
    "Ptera.C50_steady_analysis",
    "Ptera.C50_zero_moment_masks",
    "Ptera.C50_unsteady",
    "Ptera.C50_unsteady_ends",
    "Ptera.C50_unsteady_analysis",
    "Ptera.C50_unsteady_zero_coefficient",
    "Ptera.C50_steady_iteration",
    "Ptera.C50_unsteady_iteration"
   ],
   "note": "Proved for every table of results (C50_steady, C50_unsteady) and for the functions themselves (the _analysis theorems); C50_*_ends: an analysis whose iterations do not raise ends with a verdict. C50_zero_moment_masks and C50_unsteady_zero_coefficient state what the code does when a coefficient is exactly 0. C50_steady_iteration and C50_unsteady_iteration say what the result of a setting is."
  },
  {
   "property": "C51",
   "status": "partial",
   "theorems": [
    "Ptera.C51_horseshoe_partial",
    "Ptera.C51_ring_partial",
    "Ptera.C51_plots_partial",
    "Ptera.C51_unsteady_partial",
    "Ptera.C51_lift_fails"
   ],
   "note": "Proved for side force and moments of every finished run (steady, plots, and unsteady with constant dynamic pressure and references). False of induced drag and lift: in every run their products with the coefficients are <= 0, and C51_lift_fails exhibits a printed lift of -1 with CL = 2."
  },
  {
   "property": "C52",
   "status": "proved",
   "theorems": [
    "Ptera.C52_panels",
    "Ptera.C52_scalars",
    "Ptera.C52_wake"
   ],
   "note": ""
  },
  {
   "property": "C53",
   "status": "proved",
   "theorems": [
    "Ptera.C53_rate",
    "Ptera.C53_animation"
   ],
   "note": ""
  },
  {
   "property": "C54",
   "status": "proved",
   "theorems": [
    "Ptera.C54_drawn",
    "Ptera.C54_streamlines",
    "Ptera.C54_streamlines_width",
    "Ptera.C54_steady",
    "Ptera.C54_unsteady"
   ],
   "note": ""
  },
  {
   "property": "C55",
   "status": "proved",
   "theorems": [
    "Ptera.C55_levels",
    "Ptera.C55_total",
    "Ptera.C55_error"
   ],
   "note": ""
  },
  {
   "property": "C56",
   "status": "partial",
   "theorems": [
    "Ptera.C56_steady_partial",
    "Ptera.C56_airfoils",
    "Ptera.C56_unsteady_partial",
    "Ptera.C56_normals_dropped",
    "Ptera.C56_vertical_fails",
    "Ptera.C56_section_lost",
    "Ptera.C56_symmetric_section_fails"
   ],
   "note": "Proved for everything but the planes: unit normal and chordwise vectors are dropped (C56_normals_dropped), neighbouring sections at the same y raise ZeroDivisionError (C56_vertical_fails) and short sections get no panels (C56_section_lost), which on a symmetric wing raises an error (C56_symmetric_section_fails). The property as stated is false of the code in these respects."
  },
  {
   "property": "C57",
   "status": "proved",
   "theorems": [
    "Ptera.C57_limits",
    "Ptera.C57_errors"
   ],
   "note": ""
  },
  {
   "property": "C58",
   "status": "proved",
   "theorems": [
    "Ptera.C58_points"
   ],
   "note": ""
  },
  {
   "property": "C59",
   "status": "partial",
   "theorems": [
    "Ptera.C59_periodic_partial",
    "Ptera.C59_static_fails"
   ],
   "note": "Proved for every finished run of a problem with a period (C59_periodic_partial). False of static problems: after every finished run printing raises IndexError (C59_static_fails)."
  },
  {
   "property": "C60",
   "status": "partial",
   "theorems": [
    "Ptera.C60_plain",
    "Ptera.C60_scalars_partial",
    "Ptera.C60_only_final_fails"
   ],
   "note": "Proved without scalars for every run, and with scalars when results are computed at every step. False with scalars when only final results are computed: TypeError in every such run (C60_only_final_fails)."
  },
  {
   "property": "C61",
   "status": "proved",
   "theorems": [
    "Ptera.C61_points",
    "Ptera.C61_ends"
   ],
   "note": ""
  },
  {
   "property": "C62",
   "status": "proved",
   "theorems": [
    "Ptera.C62_loft",
    "Ptera.C62_edges"
   ],
   "note": ""
  },
  {
   "property": "C63",
   "status": "proved",
   "theorems": [
    "Ptera.C63_speed_and_density"
   ],
   "note": ""
  },
  {
   "property": "C64",
   "status": "proved",
   "theorems": [
    "Ptera.C64_can_be_built",
    "Ptera.C64_geometry",
    "Ptera.C64_attitude",
    "Ptera.C64_translated_wing",
    "Ptera.C64_position",
    "Ptera.C64_pitch"
   ],
   "note": ""
  },
  {
   "property": "C65",
   "status": "proved",
   "theorems": [
    "Ptera.C65_symmetric_wing",
    "Ptera.C65_opposite_ailerons",
    "Ptera.C65_fin",
    "Ptera.C65_upright_wing",
    "Ptera.C65_mirror",
    "Ptera.C65_no_sideslip"
   ],
   "note": ""
  },
  {
   "property": "C66",
   "status": "proved",
   "theorems": [
    "Ptera.C66_order"
   ],
   "note": ""
  },
  {
   "property": "C67",
   "status": "proved",
   "theorems": [
    "Ptera.C67_airplanes",
    "Ptera.C67_wings",
    "Ptera.C67_root_section",
    "Ptera.C67_sections",
    "Ptera.C67_kept",
    "Ptera.C67_vertical",
    "Ptera.C67_operating_points",
    "Ptera.C67_spacings"
   ],
   "note": ""
  },
  {
   "property": "C68",
   "status": "proved",
   "theorems": [
    "Ptera.C68_density"
   ],
   "note": ""
  },
  {
   "property": "C69",
   "status": "proved",
   "theorems": [
    "Ptera.C69_position"
   ],
   "note": ""
  },
  {
   "property": "C70",
   "status": "proved",
   "theorems": [
    "Ptera.C70_sideslip_reversed",
    "Ptera.C70_no_sideslip"
   ],
   "note": ""
  },
  {
   "property": "C71",
   "status": "proved",
   "theorems": [
    "Ptera.C71_order",
    "Ptera.C71_airplanes"
   ],
   "note": ""
  },
  {
   "property": "C72",
   "status": "proved",
   "theorems": [
    "Ptera.C72_causal",
    "Ptera.C72_shorter"
   ],
   "note": ""
  },
  {
   "property": "C73",
   "status": "proved",
   "theorems": [
    "Ptera.C73_steady",
    "Ptera.C73_unsteady"
   ],
   "note": ""
  },
  {
   "property": "C74",
   "status": "proved",
   "theorems": [
    "Ptera.C74_case_and_blanks",
    "Ptera.C74_four_digits",
    "Ptera.C74_database",
    "Ptera.C74_file",
    "Ptera.C74_title",
    "Ptera.C74_only_title"
   ],
   "note": ""
  },
  {
   "property": "C75",
   "status": "proved",
   "theorems": [
    "Ptera.C75_steady",
    "Ptera.C75_unsteady"
   ],
   "note": ""
  },
  {
   "property": "C76",
   "status": "partial",
   "theorems": [
    "Ptera.C76_can_be_built",
    "Ptera.C76_geometry",
    "Ptera.C76_length_unit_partial",
    "Ptera.C76_enlarged",
    "Ptera.C76_small_fails"
   ],
   "note": "Proved where the change of unit leaves the set of cut-off filaments as it is (C76_length_unit_partial), in particular for every enlargement of airplanes without cut-offs (C76_enlarged). False of the code for small units: C76_small_fails."
  },
  {
   "property": "C77",
   "status": "proved",
   "theorems": [
    "Ptera.C77_inverted_wing",
    "Ptera.C77_inverted_airplane",
    "Ptera.C77_flap_keeps_nose",
    "Ptera.C77_flat_wing",
    "Ptera.C77_upside_down",
    "Ptera.C77_odd_lift",
    "Ptera.C77_no_lift",
    "Ptera.C77_unsteady"
   ],
   "note": ""
  },
  {
   "property": "C78",
   "status": "proved",
   "theorems": [
    "Ptera.C78_points",
    "Ptera.C78_sharp_nose",
    "Ptera.C78_given_points_kept",
    "Ptera.C78_ends_kept",
    "Ptera.C78_upside_down",
    "Ptera.C78_symmetric"
   ],
   "note": ""
  },
  {
   "property": "C79",
   "status": "partial",
   "theorems": [
    "Ptera.C79_horseshoe_text",
    "Ptera.C79_ring_text",
    "Ptera.C79_unsteady_text",
    "Ptera.C79_plots_partial",
    "Ptera.C79_titles",
    "Ptera.C79_other_files",
    "Ptera.C79_same_name_fails",
    "Ptera.C79_untitled_plots_lost"
   ],
   "note": "Texts: proved for every finished run of the steady solvers and of unsteady problems with a period (printing raises for the others, C59); for the heading count of unsteady texts names must not begin with a tab. Plots: proved for every airplane whose name no later airplane has (C79_plots_partial), and other files are untouched. False of airplanes that share a name: their files show the last one only (C79_same_name_fails); C79_untitled_plots_lost exhibits a study whose plots are lost."
  },
  {
   "property": "C80",
   "status": "proved",
   "theorems": [
    "Ptera.C80_steady",
    "Ptera.C80_unsteady"
   ],
   "note": ""
  },
  {
   "property": "C81",
   "status": "proved",
   "theorems": [
    "Ptera.C81_repeats",
    "Ptera.C81_window"
   ],
   "note": ""
  },
  {
   "property": "C82",
   "status": "proved",
   "theorems": [
    "Ptera.C82_wing",
    "Ptera.C82_steady"
   ],
   "note": ""
  },
  {
   "property": "C83",
   "status": "proved",
   "theorems": [
    "Ptera.C83_horseshoe",
    "Ptera.C83_ring",
    "Ptera.C83_unsteady"
   ],
   "note": ""
  },
  {
   "property": "C84",
   "status": "proved",
   "theorems": [
    "Ptera.C84_steady",
    "Ptera.C84_unsteady"
   ],
   "note": ""
  },
  {
   "property": "C85",
   "status": "proved",
   "theorems": [
    "Ptera.C85_horseshoe",
    "Ptera.C85_ring",
    "Ptera.C85_small",
    "Ptera.C85_unsteady"
   ],
   "note": ""
  },
  {
   "property": "C86",
   "status": "proved",
   "theorems": [
    "Ptera.C86_faster"
   ],
   "note": ""
  },
  {
   "property": "C87",
   "status": "proved",
   "theorems": [
    "Ptera.C87_references",
    "Ptera.C87_density",
    "Ptera.C87_position",
    "Ptera.C87_order",
    "Ptera.C87_sideslip_reversed",
    "Ptera.C87_upside_down",
    "Ptera.C87_faster",
    "Ptera.C87_no_sideslip",
    "Ptera.C87_only_final"
   ],
   "note": ""
  },
  {
   "property": "C88",
   "status": "proved",
   "theorems": [
    "Ptera.C88_operations",
    "Ptera.C88_raised",
    "Ptera.C88_again",
    "Ptera.C88_final",
    "Ptera.C88_completed_steps",
    "Ptera.C88_horseshoe_operations",
    "Ptera.C88_ring_operations",
    "Ptera.C88_horseshoe_again",
    "Ptera.C88_horseshoe_raised",
    "Ptera.C88_ring_again",
    "Ptera.C88_ring_raised"
   ],
   "note": "An interrupt inside one of the operations is not covered: the preallocation loop, which appends one array per step, counts as one operation, and so does each method. A ring solver that has solved once does not repeat even complete runs (C34_ring_fails), so C88_ring_again is about those that have not."
  },
  {
   "property": "C89",
   "status": "proved",
   "theorems": [
    "Ptera.C89_steady",
    "Ptera.C89_unsteady",
    "Ptera.C89_airplane_twice",
    "Ptera.C89_movement_twice",
    "Ptera.C89_fin"
   ],
   "note": "In exact arithmetic: with rounding, NumPy notices a singular matrix only if a pivot is exactly 0. If a panel has no area, Python gets NaN strengths instead of the error (see C91)."
  },
  {
   "property": "C90",
   "status": "proved",
   "theorems": [
    "Ptera.C90_horseshoe",
    "Ptera.C90_ring",
    "Ptera.C90_unsteady"
   ],
   "note": "Equality of the whole states, without hypotheses on the solver. It shows that 0 for None in the model hides no error of the code."
  },
  {
   "property": "C91",
   "status": "proved",
   "theorems": [
    "Ptera.C91_solve",
    "Ptera.C91_steady",
    "Ptera.C91_unsteady",
    "Ptera.C91_sections"
   ],
   "note": "In Python the normal of such a panel is 0/0 = NaN and np.linalg.solve then returns NaN strengths instead of raising; in the model the run ends in LinAlgError. Either way there are no results that are numbers."
  },
  {
   "property": "C92",
   "status": "proved",
   "theorems": [
    "Ptera.C92_horseshoe",
    "Ptera.C92_ring",
    "Ptera.C92_steady_conditions",
    "Ptera.C92_unsteady",
    "Ptera.C92_unsteady_strengths"
   ],
   "note": "Panels without area have the zero vector for their normal in the model, so the condition then fails and the model raises; Python gets NaN instead (see C91)."
  },
  {
   "property": "C93",
   "status": "proved",
   "theorems": [
    "Ptera.C93_interpolator",
    "Ptera.C93_accepted",
    "Ptera.C93_between",
    "Ptera.C93_monotone",
    "Ptera.C93_extent",
    "Ptera.C93_straight",
    "Ptera.C93_scaled",
    "Ptera.C93_naca"
   ],
   "note": "The interpolator is modelled from SciPy's published algorithm; SciPy's source is not in the repository. Cambered four-digit names are covered by the general statements; that their outlines meet the condition on x is not proved."
  },
  {
   "property": "C94",
   "status": "proved",
   "theorems": [
    "Ptera.C94_steady",
    "Ptera.C94_same_wings",
    "Ptera.C94_unsteady",
    "Ptera.C94_study"
   ],
   "note": "The unsteady theorem about studies assumes that all airplanes have the same reference point moving alike; the one about problems does not. The default time step and the default number of steps of a motionless study do depend on the grouping, so they are excluded."
  },
  {
   "property": "C95",
   "status": "proved",
   "theorems": [
    "Ptera.C95_far_apart",
    "Ptera.C95_velocity",
    "Ptera.C95_can_be_moved"
   ],
   "note": ""
  },
  {
   "property": "C96",
   "status": "proved",
   "theorems": [
    "Ptera.C96_nearby",
    "Ptera.C96_velocity",
    "Ptera.C96_flow",
    "Ptera.C96_cut_off_jumps"
   ],
   "note": "Points exactly at the solvers' cut-off are excluded by hypothesis; C96_cut_off_jumps shows that the velocity jumps there. Over the reals; rounding is not modelled."
  },
  {
   "property": "C97",
   "status": "proved",
   "theorems": [
    "Ptera.C97_nearby",
    "Ptera.C97_solvable",
    "Ptera.C97_flow_field",
    "Ptera.C97_final",
    "Ptera.C97_averages"
   ],
   "note": "Points exactly at the solver's cut-off are excluded by hypothesis (see C96_cut_off_jumps). The margin is not computed and may shrink with the number of steps. Over the reals; rounding is not modelled."
  },
  {
   "property": "C98",
   "status": "proved",
   "theorems": [
    "Ptera.C98_wing",
    "Ptera.C98_steady"
   ],
   "note": "Steady solvers only: the movements of a wing given from its left tip are not the mirrored movements of a symmetric wing. Over the reals; rounding is not modelled."
  },
  {
   "property": "C99",
   "status": "proved",
   "theorems": [
    "Ptera.C99_wing",
    "Ptera.C99_given",
    "Ptera.C99_airplane",
    "Ptera.C99_steady",
    "Ptera.C99_unsteady"
   ],
   "note": "The wings compared must satisfy the constructor's exact requirements (root normal equal to the wing normal, root at the origin, directions perpendicular), which a small change can violate. Hinge positions, airfoils, panel numbers and spacings are kept. Over the reals; rounding is not modelled."
  },
  {
   "property": "C100",
   "status": "proved",
   "theorems": [
    "Ptera.C100_wings",
    "Ptera.C100_airplanes",
    "Ptera.C100_operating_points",
    "Ptera.C100_problem",
    "Ptera.C100_unsteady",
    "Ptera.C100_averages",
    "Ptera.C100_vertical_jumps"
   ],
   "note": "That a nearby movement is accepted is a hypothesis; C31 (C31_movement_accepted) gives it for every movement of accepted wings with documented spacings. Base reference dimensions, viscosities and normals are dropped by the code (C29) and play no part. Over the reals; rounding is not modelled."
  },
  {
   "property": "C101",
   "status": "partial",
   "theorems": [
    "Ptera.C101_runs_partial",
    "Ptera.C101_out_of_range",
    "Ptera.C101_missing",
    "Ptera.C101_again_fails",
    "Ptera.C101_at_most_once",
    "Ptera.C101_py_prefix_fails",
    "Ptera.C101_order_fails",
    "Ptera.C101_order"
   ],
   "note": "Proved: an entry at whose place the listing has the file of an example that has not yet run to its end runs exactly that example. False in general: a finished example is never run again though the terminal says so (C101_again_fails, C101_at_most_once); the entries are right for one order of the directory only (C101_order), and in alphabetical order every entry runs another file (C101_order_fails); a file beginning with \"py\" cannot be run (C101_py_prefix_fails). The widgets are not modelled; the body of the package examples itself (empty) is not counted as a run."
  },
  {
   "property": "C102",
   "status": "proved",
   "theorems": [
    "Ptera.C102_far_apart",
    "Ptera.C102_solvable",
    "Ptera.C102_flow_field",
    "Ptera.C102_studies",
    "Ptera.C102_final",
    "Ptera.C102_averages"
   ],
   "note": "Hypothesis: no point at which the velocity is computed for an airplane alone is exactly on the border of the region in which the solver leaves out a filament, where the computed velocity jumps (C96_cut_off_jumps). Loads are compared at the steps at which both runs compute results: with only_final_results the first such step depends on the longest period among all airplanes."
  },
  {
   "property": "C103",
   "status": "partial",
   "theorems": [
    "Ptera.C103_can_be_described",
    "Ptera.C103_study",
    "Ptera.C103_similarity_partial",
    "Ptera.C103_finals_partial",
    "Ptera.C103_enlarged",
    "Ptera.C103_slightly_enlarged",
    "Ptera.C103_small_fails"
   ],
   "note": "Proved where the change of units leaves the set of cut-off filaments as it is (C103_similarity_partial): for every run and every factor from 1 up to some number above 1 (C103_slightly_enlarged), and for every factor from 1 on if no filament is cut off (C103_enlarged). What the study itself makes of the change holds without condition (C103_study). False of the code for small units: C103_small_fails."
  },
  {
   "property": "C104",
   "status": "partial",
   "theorems": [
    "Ptera.C104_bar_partial",
    "Ptera.C104_amounts",
    "Ptera.C104_early_fails",
    "Ptera.C104_not_before"
   ],
   "note": "Proved: the bar never goes back or past its end, is full at the end, starts with a hundredth up to rounding, and its amounts are in proportion to the numbers of rings whatever the history of the solver. False: the bar is full before the last step begins (C104_early_fails); it is not full earlier than that (C104_not_before). How tqdm draws the bar is not modelled."
  },
  {
   "property": "C105",
   "status": "partial",
   "theorems": [
    "Ptera.C105_without_vortices_partial",
    "Ptera.C105_fails",
    "Ptera.C105_horseshoe_fails",
    "Ptera.C105_ring_fails",
    "Ptera.C105_unsteady_fails"
   ],
   "note": "Proved: panels without vortices answer with zero. False: with a vortex the methods raise AttributeError (C105_fails); after every run of every solver every panel does (C105_horseshoe_fails, C105_ring_fails, C105_unsteady_fails)."
  },
  {
   "property": "C106",
   "status": "partial",
   "theorems": [
    "Ptera.C106_own_partial",
    "Ptera.C106_exact_partial",
    "Ptera.C106_trailing_edge_fails"
   ],
   "note": "Proved: every construction gives what it gives with cross sections of its own, apart from the directions and trailing edges of the cross sections; those too unless a later wing with another chordwise direction shares them. False in that case (C106_trailing_edge_fails)."
  },
  {
   "property": "C107",
   "status": "partial",
   "theorems": [
    "Ptera.C107_speed_partial",
    "Ptera.C107_fails",
    "Ptera.C107_slow_fails"
   ],
   "note": "Proved: bounds for the difference between the speed said and played, and exactly when they agree to within half a percent. False in general (C107_fails, C107_slow_fails): the frame rate is rounded down, and the text does not take this into account."
  },
  {
   "property": "C108",
   "status": "partial",
   "theorems": [
    "Ptera.C108_own_partial",
    "Ptera.C108_kept_partial",
    "Ptera.C108_replaced_fails"
   ],
   "note": "Proved: every new solver gives what it gives with airplanes of its own, after any history; the results stay until an event concerns the airplane. False: that they stay for good (C108_replaced_fails), since they are kept on the airplane objects and not with the problem."
  },
  {
   "property": "C109",
   "status": "proved",
   "theorems": [
    "Ptera.C109_own",
    "Ptera.C109_final",
    "Ptera.C109_kept",
    "Ptera.C109_steps"
   ],
   "note": "The results of single steps are kept on the movement's airplanes: a later run with the other kind of wake replaces them, which the claim allows; one with the same kind leaves the same (C109_steps). The final results belong to the problem and stay. Positive time step and non-negative period (C109_final) as in C32."
  }
 ]
}