{
 "claims": [
  {
   "property": "C01",
   "status": "proved",
   "theorems": [
    "RustBCA.C01_exactly_one_fate"
   ],
   "note": "any Scalar, geometry, options, stream, fuel"
  },
  {
   "property": "C02",
   "status": "proved",
   "theorems": [
    "RustBCA.C02_ion_first"
   ],
   "note": ""
  },
  {
   "property": "C03",
   "status": "proved",
   "theorems": [
    "RustBCA.C03_no_recoils"
   ],
   "note": ""
  },
  {
   "property": "C04",
   "status": "proved",
   "theorems": [
    "RustBCA.C04_recoils_are_target_atoms"
   ],
   "note": ""
  },
  {
   "property": "C05",
   "status": "proved",
   "theorems": [
    "RustBCA.C05_recoils_start_inside"
   ],
   "note": ""
  },
  {
   "property": "C06",
   "status": "proved",
   "theorems": [
    "RustBCA.C06_fates_match_positions"
   ],
   "note": ""
  },
  {
   "property": "C07",
   "status": "proved",
   "theorems": [
    "RustBCA.C07_stack_never_underflows",
    "RustBCA.C07_finished_ion_panics"
   ],
   "note": ""
  },
  {
   "property": "C08",
   "status": "proved",
   "theorems": [
    "RustBCA.C08_trajectories"
   ],
   "note": ""
  },
  {
   "property": "C09",
   "status": "proved",
   "theorems": [
    "RustBCA.C09_energy_loss_records",
    "RustBCA.C09_one_record_per_pass"
   ],
   "note": ""
  },
  {
   "property": "C10",
   "status": "proved",
   "theorems": [
    "RustBCA.C10_counter_per_pass",
    "RustBCA.C10_counter_whole_run",
    "RustBCA.C10_only_strong_deflections_count"
   ],
   "note": ""
  },
  {
   "property": "C11",
   "status": "proved",
   "theorems": [
    "RustBCA.C11_recoil_energy_bounds",
    "RustBCA.C11_head_on_maximum",
    "RustBCA.C11_energy_through_collision_loop"
   ],
   "note": "exact arithmetic"
  },
  {
   "property": "C12",
   "status": "proved",
   "theorems": [
    "RustBCA.C12_momentum_conserved",
    "RustBCA.C12_momentum_conserved_in_loop"
   ],
   "note": "exact arithmetic"
  },
  {
   "property": "C13",
   "status": "proved",
   "theorems": [
    "RustBCA.C13_rotate",
    "RustBCA.C13_rotate_zero",
    "RustBCA.C13_azimuth"
   ],
   "note": "exact arithmetic"
  },
  {
   "property": "C14",
   "status": "proved",
   "theorems": [
    "RustBCA.C14_ok_angle_is_a_number",
    "RustBCA.C14_nan_is_reported",
    "RustBCA.C14_nan_stops_the_run"
   ],
   "note": "every Scalar"
  },
  {
   "property": "C15",
   "status": "partial",
   "theorems": [
    "RustBCA.C15_partner_offset_partial",
    "RustBCA.C15_at_impact_parameter_partial",
    "RustBCA.C15_refuted"
   ],
   "note": "False of the code in general (sign of the z term): refuted with a witness; the exact displacement is proved for every direction, and the property where dir.x = 0 or dir.z = 0"
  },
  {
   "property": "C16",
   "status": "proved",
   "theorems": [
    "RustBCA.C16_annuli",
    "RustBCA.C16_first_step_only_once"
   ],
   "note": "exact arithmetic"
  },
  {
   "property": "C17",
   "status": "partial",
   "theorems": [
    "RustBCA.C17_free_flight_partial",
    "RustBCA.C17_refuted"
   ],
   "note": "The 5 percent limit is proved for correction factors of at least 1; false of the code below 1 (the factor is applied twice): refuted with a witness"
  },
  {
   "property": "C18",
   "status": "proved",
   "theorems": [
    "RustBCA.C18_one_pass",
    "RustBCA.C18_telescopes",
    "RustBCA.C18_every_run"
   ],
   "note": ""
  },
  {
   "property": "C19",
   "status": "proved",
   "theorems": [
    "RustBCA.C19_screening_functions",
    "RustBCA.C19_others_refused",
    "RustBCA.C19_repulsive",
    "RustBCA.C19_published",
    "RustBCA.C19_screening_length"
   ],
   "note": "exact arithmetic"
  },
  {
   "property": "C20",
   "status": "proved",
   "theorems": [
    "RustBCA.C20_unique_turning_point"
   ],
   "note": "exact arithmetic"
  },
  {
   "property": "C21",
   "status": "proved",
   "theorems": [
    "RustBCA.C21_newton_iterates",
    "RustBCA.C21_newton_converges",
    "RustBCA.C21_newton_accuracy",
    "RustBCA.C21_distance_of_closest_approach"
   ],
   "note": "exact arithmetic"
  },
  {
   "property": "C22",
   "status": "proved",
   "theorems": [
    "RustBCA.C22_ok_means_small_step",
    "RustBCA.C22_no_budget"
   ],
   "note": "every Scalar"
  },
  {
   "property": "C23",
   "status": "partial",
   "theorems": [
    "RustBCA.C23_zeros_are_turning_points_partial",
    "RustBCA.C23_derivative_screened",
    "RustBCA.C23_derivative_lennard_jones_partial",
    "RustBCA.C23_refuted_four_eight",
    "RustBCA.C23_refuted_morse_derivative",
    "RustBCA.C23_refuted_singularity_free_derivative"
   ],
   "note": "False of the code for FOUR_EIGHT (function) and MORSE (derivative): refuted with witnesses; proved for all other potentials"
  },
  {
   "property": "C24",
   "status": "proved",
   "theorems": [
    "RustBCA.C24_coulomb_closest_approach"
   ],
   "note": "exact arithmetic"
  },
  {
   "property": "C25",
   "status": "proved",
   "theorems": [
    "RustBCA.C25_polynomial_roots_are_turning_points",
    "RustBCA.C25_polynomial_rootfinder"
   ],
   "note": "exact arithmetic; the external polynomial solver enters as a hypothesis"
  },
  {
   "property": "C26",
   "status": "proved",
   "theorems": [
    "RustBCA.C26_at_most_pi",
    "RustBCA.C26_gauss_mehler_straight_line",
    "RustBCA.C26_magic"
   ],
   "note": "exact arithmetic"
  },
  {
   "property": "C27",
   "status": "proved",
   "theorems": [
    "RustBCA.C27_one_species",
    "RustBCA.C27_choose",
    "RustBCA.C27_interval_length"
   ],
   "note": "exact arithmetic"
  },
  {
   "property": "C28",
   "status": "proved",
   "theorems": [
    "RustBCA.C28_averages"
   ],
   "note": "exact arithmetic"
  },
  {
   "property": "C29",
   "status": "partial",
   "theorems": [
    "RustBCA.C29_variants",
    "RustBCA.C29_documented_partial",
    "RustBCA.C29_positive_targets_partial",
    "RustBCA.C29_refuted"
   ],
   "note": "False of the code when the species energies are not all zero but average to zero over the target; refuted with a witness"
  },
  {
   "property": "C30",
   "status": "proved",
   "theorems": [
    "RustBCA.C30_refraction",
    "RustBCA.C30_round_trip"
   ],
   "note": "exact arithmetic"
  },
  {
   "property": "C31",
   "status": "partial",
   "theorems": [
    "RustBCA.C31_leaving_partial",
    "RustBCA.C31_mirror",
    "RustBCA.C31_reentering",
    "RustBCA.C31_entering",
    "RustBCA.C31_leaving_free_refuted",
    "RustBCA.C31_no_crossing"
   ],
   "note": "False of the code for a particle that crosses outwards while its direction points back: it pays nothing; refuted with a witness"
  },
  {
   "property": "C32",
   "status": "proved",
   "theorems": [
    "RustBCA.C32_outside",
    "RustBCA.C32_not_negative",
    "RustBCA.C32_no_nan",
    "RustBCA.C32_only_removes"
   ],
   "note": ""
  },
  {
   "property": "C33",
   "status": "proved",
   "theorems": [
    "RustBCA.C33_boundary"
   ],
   "note": ""
  },
  {
   "property": "C34",
   "status": "partial",
   "theorems": [
    "RustBCA.C34_positive",
    "RustBCA.C34_order_partial",
    "RustBCA.C34_velocity_proportional",
    "RustBCA.C34_refuted"
   ],
   "note": "The order of the cross sections fails for correction factors below 1; refuted with a witness"
  },
  {
   "property": "C35",
   "status": "proved",
   "theorems": [
    "RustBCA.C35_mesh0D",
    "RustBCA.C35_mesh1D",
    "RustBCA.C35_sphere",
    "RustBCA.C35_meshes2D"
   ],
   "note": "exact arithmetic (2D: every Scalar)"
  },
  {
   "property": "C36",
   "status": "proved",
   "theorems": [
    "RustBCA.C36_layers",
    "RustBCA.C36_lookup"
   ],
   "note": "every Scalar whose comparisons obey the IEEE laws"
  },
  {
   "property": "C37",
   "status": "proved",
   "theorems": [
    "RustBCA.C37_mesh0D",
    "RustBCA.C37_mesh1D",
    "RustBCA.C37_sphere"
   ],
   "note": "exact arithmetic"
  },
  {
   "property": "C38",
   "status": "proved",
   "theorems": [
    "RustBCA.C38_contains",
    "RustBCA.C38_relabelling"
   ],
   "note": "exact arithmetic"
  },
  {
   "property": "C39",
   "status": "proved",
   "theorems": [
    "RustBCA.C39_edge_distance",
    "RustBCA.C39_outside",
    "RustBCA.C39_centroid",
    "RustBCA.C39_layer"
   ],
   "note": "exact arithmetic"
  },
  {
   "property": "C40",
   "status": "proved",
   "theorems": [
    "RustBCA.C40_one_cell"
   ],
   "note": "every Scalar whose comparisons obey the IEEE laws"
  },
  {
   "property": "C41",
   "status": "proved",
   "theorems": [
    "RustBCA.C41_mesh0D",
    "RustBCA.C41_mesh1D",
    "RustBCA.C41_mesh2D",
    "RustBCA.C41_homogeneous",
    "RustBCA.C41_sphere",
    "RustBCA.C41_concentrations",
    "RustBCA.C41_densities",
    "RustBCA.C41_ball",
    "RustBCA.C41_trimesh"
   ],
   "note": "exact arithmetic"
  },
  {
   "property": "C42",
   "status": "proved",
   "theorems": [
    "RustBCA.C42_lookups_in_range"
   ],
   "note": "every Scalar"
  },
  {
   "property": "C43",
   "status": "partial",
   "theorems": [
    "RustBCA.C43_rootfinder_implemented_partial",
    "RustBCA.C43_accepted_pairs",
    "RustBCA.C43_check_passes",
    "RustBCA.C43_newton_never_works",
    "RustBCA.InputExample.C43_refuted"
   ],
   "note": "False of the code: WW, KRC_MORSE and FOUR_EIGHT are accepted with Newton, which always panics for want of a derivative; refuted with a witness"
  },
  {
   "property": "C44",
   "status": "proved",
   "theorems": [
    "RustBCA.C44_options_compatible",
    "RustBCA.C44_check_iff"
   ],
   "note": "every Scalar"
  },
  {
   "property": "C45",
   "status": "proved",
   "theorems": [
    "RustBCA.C45_requested_ions",
    "RustBCA.C45_count",
    "RustBCA.C45_units"
   ],
   "note": "every Scalar; unit values over the reals"
  },
  {
   "property": "C46",
   "status": "proved",
   "theorems": [
    "RustBCA.C46_accepts_iff",
    "RustBCA.C46_direction",
    "RustBCA.C46_scaling",
    "RustBCA.C46_direction_point"
   ],
   "note": "exact arithmetic"
  },
  {
   "property": "C47",
   "status": "proved",
   "theorems": [
    "RustBCA.C47_chunks_partition",
    "RustBCA.C47_every_ion_once",
    "RustBCA.C47_refused",
    "RustBCA.C47_run_chunks"
   ],
   "note": "every Scalar"
  },
  {
   "property": "C48",
   "status": "proved",
   "theorems": [
    "RustBCA.C48_schedule_independent",
    "RustBCA.C48_same_tapes"
   ],
   "note": "every Scalar; for given random streams per ion"
  },
  {
   "property": "C49",
   "status": "proved",
   "theorems": [
    "RustBCA.C49_summary_balances",
    "RustBCA.C49_summary_counter"
   ],
   "note": "every Scalar"
  },
  {
   "property": "C50",
   "status": "proved",
   "theorems": [
    "RustBCA.C50_one_row_per_mass",
    "RustBCA.C50_equal_columns",
    "RustBCA.C50_order_independent"
   ],
   "note": "every Scalar whose comparisons obey the IEEE laws"
  },
  {
   "property": "C51",
   "status": "proved",
   "theorems": [
    "RustBCA.C51_one_line",
    "RustBCA.C51_files_agree_with_summary",
    "RustBCA.C51_other_files"
   ],
   "note": "every Scalar"
  },
  {
   "property": "C52",
   "status": "proved",
   "theorems": [
    "RustBCA.C52_trajectories_decodable"
   ],
   "note": "every Scalar"
  },
  {
   "property": "C53",
   "status": "partial",
   "theorems": [
    "RustBCA.C53_completed_chunks_survive_partial",
    "RustBCA.C53_always_a_prefix",
    "RustBCA.C53_run_passes_through",
    "RustBCA.C53_energy_loss_lost",
    "RustBCA.RunExample.C53_refuted"
   ],
   "note": "False of the code for energy_loss.output, which is never flushed: refuted with a witness; proved for the six other list files"
  },
  {
   "property": "C54",
   "status": "proved",
   "theorems": [
    "RustBCA.C54_emission_angle",
    "RustBCA.C54_cardinal"
   ],
   "note": "exact arithmetic"
  },
  {
   "property": "C55",
   "status": "partial",
   "theorems": [
    "RustBCA.C55_never_out_of_range",
    "RustBCA.C55_at_most_one_cell",
    "RustBCA.C55_energy_angle_cell",
    "RustBCA.C55_implantation_cell_partial",
    "RustBCA.C55_energy_loss_cell_partial",
    "RustBCA.C55_refuted"
   ],
   "note": "Proved: never out of range, at most one cell (every Scalar), the right cell for the energy-angle histograms (exact arithmetic). False for implantation and energy-loss profiles, which truncate towards zero: positions up to one cell below the axis are counted in the first cell; refuted with a witness, and the exact behaviour proved"
  },
  {
   "property": "C56",
   "status": "proved",
   "theorems": [
    "RustBCA.C56_rotation",
    "RustBCA.C56_round_trip",
    "RustBCA.C56_normal_incidence",
    "RustBCA.C56_gimbal_lock"
   ],
   "note": "exact arithmetic; C56_gimbal_lock shows the 1e-9 offset does not rule out a rotated direction exactly along x"
  },
  {
   "property": "C57",
   "status": "proved",
   "theorems": [
    "RustBCA.C57_tagged_arrays"
   ],
   "note": "every Scalar"
  },
  {
   "property": "C58",
   "status": "proved",
   "theorems": [
    "RustBCA.C58_counters",
    "RustBCA.C58_no_deadlock",
    "RustBCA.C58_terminates",
    "RustBCA.C58_finishes",
    "RustBCA.C58_sputtering_yield",
    "RustBCA.C58_sputtering_schedules",
    "RustBCA.C58_sputtering_returns",
    "RustBCA.C58_reflection_coefficient",
    "RustBCA.C58_compound_reflection_coefficient",
    "RustBCA.C58_reflection_bounds",
    "RustBCA.C58_counter_wraps",
    "RustBCA.C58_incidence",
    "RustBCA.C58_compound_reflection_bounds"
   ],
   "note": "all interleavings; the i32 counter wraps at 2^31 events (C58_counter_wraps)"
  },
  {
   "property": "C59",
   "status": "proved",
   "theorems": [
    "RustBCA.C59_simple_bca",
    "RustBCA.C59_refused",
    "RustBCA.C59_compound_second_species",
    "RustBCA.C59_simple_compound_bca",
    "RustBCA.C59_compound_of_one"
   ],
   "note": "every Scalar"
  },
  {
   "property": "C60",
   "status": "partial",
   "theorems": [
    "RustBCA.C60_drop_partial",
    "RustBCA.C60_wrong_layouts"
   ],
   "note": "False of the code: the size passed is the number of elements, not of bytes; refuted for every non-empty output, proved for the empty one"
  },
  {
   "property": "C61",
   "status": "partial",
   "theorems": [
    "RustBCA.C61_moves_along_direction_partial",
    "RustBCA.C61_refuted"
   ],
   "note": "False of the code after a barrier crossing: dir_old is not updated; refuted with a witness; proved for passes that do not cross the barrier"
  },
  {
   "property": "C62",
   "status": "partial",
   "theorems": [
    "RustBCA.C62_entering_partial",
    "RustBCA.C62_refuted"
   ],
   "note": "False of the code for a particle that crosses barrier and surface in one step; refuted with a witness"
  },
  {
   "property": "C63",
   "status": "partial",
   "theorems": [
    "RustBCA.C63_outside_partial",
    "RustBCA.C63_refuted"
   ],
   "note": "False of the code at the front surface x = 0: the last layer answers; refuted with a witness"
  },
  {
   "property": "C64",
   "status": "partial",
   "theorems": [
    "RustBCA.C64_indices_honoured_partial",
    "RustBCA.C64_refuted"
   ],
   "note": "False of the code for single-entry lists: they are replaced by zeros; refuted"
  },
  {
   "property": "C65",
   "status": "proved",
   "theorems": [
    "RustBCA.C65_fails_only_in_physics"
   ],
   "note": "every Scalar"
  },
  {
   "property": "C66",
   "status": "proved",
   "theorems": [
    "RustBCA.C66_simple_list",
    "RustBCA.C66_simple_bca_list_c",
    "RustBCA.C66_compound_bca_list_c",
    "RustBCA.C66_compound_bca_list_py",
    "RustBCA.C66_compound_bca_list_1D_py",
    "RustBCA.C66_compound_bca_list_fortran"
   ],
   "note": "every Scalar"
  },
  {
   "property": "C67",
   "status": "proved",
   "theorems": [
    "RustBCA.C67_reflect_single_ion_py",
    "RustBCA.C67_reflected_velocity",
    "RustBCA.C67_reflect_single_ion_c"
   ],
   "note": ""
  },
  {
   "property": "C68",
   "status": "proved",
   "theorems": [
    "RustBCA.C68_start_positions",
    "RustBCA.C68_layered_start"
   ],
   "note": "exact arithmetic"
  },
  {
   "property": "C69",
   "status": "proved",
   "theorems": [
    "RustBCA.C69_records_do_not_change_physics",
    "RustBCA.C69_whole_run",
    "RustBCA.C69_other_records_succeed"
   ],
   "note": "every Scalar and geometry; two executions compared on the same random numbers"
  },
  {
   "property": "C70",
   "status": "proved",
   "theorems": [
    "RustBCA.C70_translation",
    "RustBCA.C70_lateral_position"
   ],
   "note": "exact arithmetic; for targets whose composition ignores z, which is true of every geometry of the program (the code looks stopping powers up at (x, y, y))"
  },
  {
   "property": "C71",
   "status": "proved",
   "theorems": [
    "RustBCA.C71_energies_and_directions"
   ],
   "note": "exact arithmetic"
  },
  {
   "property": "C72",
   "status": "partial",
   "theorems": [
    "RustBCA.C72_no_energy_is_created_partial",
    "RustBCA.C72_coulomb",
    "RustBCA.C72_pass",
    "RustBCA.EnergyExample.C72_backwards_refuted"
   ],
   "note": "False of the code in general: a collision early in a step can make the distance travelled negative, and the electronic stopping of a negative distance adds energy (refuted by a run). Proved for runs whose steps all go forwards or with local stopping, and unconditionally for Coulomb potentials"
  },
  {
   "property": "C73",
   "status": "proved",
   "theorems": [
    "RustBCA.C73_records_account_for_the_loss"
   ],
   "note": "exact arithmetic"
  },
  {
   "property": "C74",
   "status": "proved",
   "theorems": [
    "RustBCA.C74_stream",
    "RustBCA.C74_fuel"
   ],
   "note": "every Scalar; C74_fuel: the bound the model puts on its loops has no influence on the outcome"
  },
  {
   "property": "C75",
   "status": "partial",
   "theorems": [
    "RustBCA.C75_threshold_partial",
    "RustBCA.C75_threshold_ignored",
    "RustBCA.C75_refuted"
   ],
   "note": "False of the code: without free-flight paths THRESHOLD is LIQUID everywhere, and with them it is ignored where the free-flight path is not shorter than the spacing; refuted. Proved where the density is at or above the threshold or the free-flight path is the shorter one"
  },
  {
   "property": "C76",
   "status": "proved",
   "theorems": [
    "RustBCA.C76_same_construction",
    "RustBCA.C76_ball_is_sphere"
   ],
   "note": "exact arithmetic; the parry3d library is external: its ball queries enter through BallContract (distance, containment and projection of a ball), which the example instance meets"
  },
  {
   "property": "C77",
   "status": "partial",
   "theorems": [
    "RustBCA.C77_trimesh_nested",
    "RustBCA.C77_any_shape",
    "RustBCA.C77_almost_every_ray",
    "RustBCA.C77_almost_every_point",
    "RustBCA.C77_trimesh_inside_partial",
    "RustBCA.C77_one_metre",
    "RustBCA.ParryExample.C77_refuted",
    "RustBCA.C77_from_input",
    "RustBCA.C77_nested_from_input"
   ],
   "note": "parry3d ray cast as specified by MeshContract. Proved for closed outward-oriented meshes of any shape: inside exactly if in the body and the surface is within 1 metre in direction +x (C77_any_shape), for all points but a set of volume zero (C77_almost_every_point for bodies up to 1 metre long). False of the code for larger targets (ray length 1.0): refuted. Missing: the null set of points whose ray grazes an edge; C77_from_input carries it to the vertices, indices and unit of the input file (contract of TriMesh::new: the mesh of the listed triangles)"
  },
  {
   "property": "C78",
   "status": "proved",
   "theorems": [
    "RustBCA.C78_main_runs_what_was_asked",
    "RustBCA.C78_every_requested_ion_reported"
   ],
   "note": "every Scalar; file reading and TOML parsing are external"
  },
  {
   "property": "C79",
   "status": "proved",
   "theorems": [
    "RustBCA.C79_minimum_cutoff"
   ],
   "note": "exact arithmetic"
  },
  {
   "property": "C80",
   "status": "proved",
   "theorems": [
    "RustBCA.C80_collision",
    "RustBCA.C80_no_collision_outside",
    "RustBCA.C80_deep_recoil_energy_ignored"
   ],
   "note": "exact arithmetic. C80_deep_recoil_energy_ignored: the range estimate takes the energy of the projectile, not of the recoil"
  },
  {
   "property": "C81",
   "status": "proved",
   "theorems": [
    "RustBCA.C81_depth_first",
    "RustBCA.C81_subcascades",
    "RustBCA.C81_others_do_not_matter"
   ],
   "note": "every Scalar and geometry; both directions"
  },
  {
   "property": "C82",
   "status": "proved",
   "theorems": [
    "RustBCA.C82_cross_sections",
    "RustBCA.C82_loss",
    "RustBCA.C82_oen_robinson_normalised",
    "RustBCA.C82_decay_rate",
    "RustBCA.C82_local_loss_without_collision",
    "RustBCA.C82_unscreened"
   ],
   "note": "exact arithmetic. C82_local_loss_without_collision: the local loss is charged even in passes without a collision"
  },
  {
   "property": "C83",
   "status": "proved",
   "theorems": [
    "RustBCA.C83_lennard_jones",
    "RustBCA.C83_lennard_jones_65_6",
    "RustBCA.C83_morse",
    "RustBCA.C83_four_eight",
    "RustBCA.C83_krc_morse",
    "RustBCA.C83_tungsten",
    "RustBCA.C83_tungsten_middle",
    "RustBCA.C83_tungsten_jump"
   ],
   "note": "exact arithmetic. C83_tungsten_jump: the W-W energy is discontinuous at 1.1 Angstrom"
  },
  {
   "property": "C84",
   "status": "proved",
   "theorems": [
    "RustBCA.C84_gauss_mehler_converges",
    "RustBCA.C84_screened_converges",
    "RustBCA.C84_rutherford",
    "RustBCA.C84_gauss_legendre_integrand",
    "RustBCA.C84_gauss_legendre_accuracy",
    "RustBCA.C84_mendenhall_weller",
    "RustBCA.C84_gauss_legendre_screened"
   ],
   "note": "exact arithmetic, at the exact closest approach; MAGIC (an empirical fit) is C86"
  },
  {
   "property": "C85",
   "status": "proved",
   "theorems": [
    "RustBCA.C85_azimuth",
    "RustBCA.C85_recoil_places_refuted"
   ],
   "note": "C85_recoil_places_refuted shows the stated exception is real: the y, z at which recoils start are not turned (the sign slip of C15)"
  },
  {
   "property": "C86",
   "status": "partial",
   "theorems": [
    "RustBCA.C86_magic_partial",
    "RustBCA.C86_constants_exchanged",
    "RustBCA.C86_refuted_moliere",
    "RustBCA.C86_refuted_zbl"
   ],
   "note": "exact arithmetic. Proved for KR_C and TRIDYN; false for MOLIERE and ZBL, whose last two constants are exchanged (C86_constants_exchanged): C86_refuted_moliere and C86_refuted_zbl give, for every pair of atoms, a collision in which the angle is below 85 % of the classical one"
  },
  {
   "property": "C87",
   "status": "proved",
   "theorems": [
    "RustBCA.C87_interval",
    "RustBCA.C87_cpr",
    "RustBCA.C87_cpr_newton",
    "RustBCA.C87_cpr_krc_morse",
    "RustBCA.C87_distance_of_closest_approach",
    "RustBCA.C87_weight"
   ],
   "note": "exact arithmetic; the external crate rcpr is assumed to report exactly the zeros in the interval (Spec.FindsAllRoots). FOUR_EIGHT is excluded: its function is wrong (C23)"
  },
  {
   "property": "C88",
   "status": "partial",
   "theorems": [
    "RustBCA.C88_outward",
    "RustBCA.C88_outward_run",
    "RustBCA.C88_inward",
    "RustBCA.C88_inside",
    "RustBCA.C88_inside_coulomb",
    "RustBCA.C88_inside_screened",
    "RustBCA.C88_run_coulomb",
    "RustBCA.C88_run_screened",
    "RustBCA.C88_run_screened_result",
    "RustBCA.C88_refuted_parallel",
    "RustBCA.C88_refuted_simple_bca",
    "RustBCA.C125_almost_surely",
    "RustBCA.C127_run_ends"
   ],
   "note": "proved in front of a homogeneous target for directions with an x component (no free-flight paths, not GASEOUS), and inside a target of uniform composition, for every stream: in the low-energy modes at most E/(S(Ec) s) + 1 passes with Coulomb potentials, E/(S(Ec) s) + K/s + 2 with screened potentials without weak collisions, after which the particle is still followed; and whole runs when the simulated volume ends with the material, with Coulomb potentials (C88_run_coulomb) and with screened potentials without weak collisions if recoils are not followed or no pass goes backwards (C88_run_screened). False in general: an ion parallel to the surface in front of the barrier is followed for ever (C88_refuted_parallel; for the library call simple_bca C88_refuted_simple_bca). Missing: how often a particle can cross the surface, weak collisions, free-flight paths, LOW_ENERGY_LOCAL inside For gases, free-flight paths and INTERPOLATED stopping: with probability one (C125). For local stopping: C127."
  },
  {
   "property": "C89",
   "status": "partial",
   "theorems": [
    "RustBCA.C89_choose_double_partial",
    "RustBCA.C89_single_species",
    "RustBCA.C89_refuted"
   ],
   "note": "Proved for random numbers below 1 - (2n + 1)/2^53 for n species, and for all of them for one species. False in full: for densities 1 : 4 : 1 the random number 1 - 2^-53 stops the program (C89_refuted, whatever the treatment of ties)"
  },
  {
   "property": "C90",
   "status": "proved",
   "theorems": [
    "RustBCA.C90_rotate",
    "RustBCA.C90_root",
    "RustBCA.C90_pass",
    "RustBCA.C90_run"
   ],
   "note": "any arithmetic of 53 binary digits rounding to nearest, unbounded exponents (Double.lean); sin and cos arbitrary"
  },
  {
   "property": "C91",
   "status": "partial",
   "theorems": [
    "RustBCA.C91_input",
    "RustBCA.C91_default_incident",
    "RustBCA.C91_refuted_normal",
    "RustBCA.C91_refuted_refraction"
   ],
   "note": "Proved for the directions from_input and default_incident accept. False for rotate_given_surface_normal (at normal incidence the offset is lost in rounding) and after refraction"
  },
  {
   "property": "C92",
   "status": "proved",
   "theorems": [
    "RustBCA.C92_newton_succeeds",
    "RustBCA.C92_accuracy",
    "RustBCA.C92_distance_of_closest_approach"
   ],
   "note": "exact arithmetic; impact parameter above 0 and energy of at least 1e-25 reduced units (below 1e-18 eV for all atoms)"
  },
  {
   "property": "C93",
   "status": "partial",
   "theorems": [
    "RustBCA.C93_collision_partial",
    "RustBCA.C93_refuted_head_on",
    "RustBCA.C93_refuted_gauss_mehler",
    "RustBCA.C93_refuted_magic"
   ],
   "note": "over XReal: exact arithmetic with the infinities and NaN of IEEE 754. Proved for MENDENHALL_WELLER, GAUSS_LEGENDRE, GAUSS_MEHLER with at most 12 points, and MAGIC up to reduced energy 5. False in full: impact parameter 0 at reduced energy up to 5, many Gauss-Mehler points, MAGIC for fast and distant collisions. Missing: Gauss-Mehler between 13 points and the collision-dependent limit, MAGIC above reduced energy 5 at moderate distance"
  },
  {
   "property": "C94",
   "status": "proved",
   "theorems": [
    "RustBCA.C94_step",
    "RustBCA.C94_species",
    "RustBCA.C94_free_flight"
   ],
   "note": "exact arithmetic; random numbers = product of uniform measures on [0,1)"
  },
  {
   "property": "C95",
   "status": "proved",
   "theorems": [
    "RustBCA.C95_pass",
    "RustBCA.C95_path",
    "RustBCA.C95_cascades",
    "RustBCA.C95_run",
    "RustBCA.C95_mesh0d",
    "RustBCA.C95_mesh1d",
    "RustBCA.C95_homogeneous",
    "RustBCA.C95_mesh2d"
   ],
   "note": "over XReal (exact arithmetic with the infinities and NaN of IEEE 754); rounding is not combined with special values"
  },
  {
   "property": "C96",
   "status": "proved",
   "theorems": [
    "RustBCA.C96_pass",
    "RustBCA.C96_never_panics",
    "RustBCA.C96_mesh0d",
    "RustBCA.C96_homogeneous",
    "RustBCA.C96_random_numbers",
    "RustBCA.C96_mesh1d",
    "RustBCA.C96_mesh2d"
   ],
   "note": "weak_collision_order = 0; C96_pass covers every order. The excluded directions and landing points (Generic) are those where the code divides by zero"
  },
  {
   "property": "C97",
   "status": "proved",
   "theorems": [
    "RustBCA.C97_independent",
    "RustBCA.C97_ions"
   ],
   "note": "threads with endless streams of independent outcomes, any adaptive choice of the next sample (each once): joint probabilities factor into those of single runs (chance = probability that the run returns, within the fuel, with a result in the set); C97_ions ties this to run_ion/physics_loop"
  },
  {
   "property": "C98",
   "status": "proved",
   "theorems": [
    "RustBCA.C98_joint_distribution",
    "RustBCA.C98_statistical_error",
    "RustBCA.C98_reflection_coefficient",
    "RustBCA.C98_compound_reflection_coefficient",
    "RustBCA.C98_sputtering_yield"
   ],
   "note": "conditional on all samples returning (within the fuel); sputtering: as long as the 32-bit counter does not wrap"
  },
  {
   "property": "C99",
   "status": "proved",
   "theorems": [
    "RustBCA.C99_boundary",
    "RustBCA.C99_regions",
    "RustBCA.C99_hull",
    "RustBCA.C99_crossing",
    "RustBCA.C99_convex",
    "RustBCA.C99_nearest",
    "RustBCA.C99_queries",
    "RustBCA.C99_closest_point",
    "RustBCA.C99_built",
    "RustBCA.C99_homogeneous_barrier",
    "RustBCA.C99_mesh_barrier",
    "RustBCA.C99_entry_direction",
    "RustBCA.C99_entry_homogeneous",
    "RustBCA.C99_entry_mesh",
    "RustBCA.C99_scaled",
    "RustBCA.C99_built_mesh"
   ],
   "note": "exact arithmetic, geo 0.25's algorithms as translated in Model/Geo.lean (the crate's source is not in /repo); C99_entry_*: NaN direction when a step enters the material of a 2D target past its barrier. C99_scaled: inside does not depend on the unit of length. C99_built_mesh: what is built from the input of a target of triangles"
  },
  {
   "property": "C100",
   "status": "proved",
   "theorems": [
    "RustBCA.C100_range",
    "RustBCA.C100_passes",
    "RustBCA.C100_low_energy"
   ],
   "note": "the code subtracts S(E1) times the distance with the energy E1 after the collision, which for a growing stopping power is at least what continuous slowing down takes; C100_range for passes that go forward (Coulomb potentials always do: coulomb_always_forwards), C100_passes also for passes that go backward. Growing holds at every energy in the LOW_ENERGY_NONLOCAL and LOW_ENERGY_EQUIPARTITION modes (C100_low_energy); it is a hypothesis for INTERPOLATED, and LOW_ENERGY_LOCAL loses nothing along the path"
  },
  {
   "property": "C101",
   "status": "proved",
   "theorems": [
    "RustBCA.C101_balance",
    "RustBCA.C101_count",
    "RustBCA.C101_coulomb",
    "RustBCA.C101_local"
   ],
   "note": "the two conditions are those of C72: particles that re-enter through the energy barrier gain the surface binding energy again, and passes that go backwards gain energy in the path-dependent stopping modes (C72_backwards_refuted)"
  },
  {
   "property": "C102",
   "status": "proved",
   "theorems": [
    "RustBCA.C102_histograms"
   ],
   "note": "exact arithmetic, usable axes (increasing, at least two points). The first bin of the depth axes also collects values up to one bin width below the axis: C55_refuted"
  },
  {
   "property": "C103",
   "status": "proved",
   "theorems": [
    "RustBCA.C103_refraction_angle",
    "RustBCA.C103_beyond_one",
    "RustBCA.C103_agrees_with_refraction"
   ],
   "note": "over XReal (exact arithmetic with the infinities and NaN of IEEE 754). No run calls this function"
  },
  {
   "property": "C104",
   "status": "proved",
   "theorems": [
    "RustBCA.C104_units",
    "RustBCA.C104_one_ion",
    "RustBCA.C104_refuted_hdf5",
    "RustBCA.C41_mesh0D",
    "RustBCA.C41_mesh1D",
    "RustBCA.C41_sphere",
    "RustBCA.C41_homogeneous",
    "RustBCA.C41_mesh2D",
    "RustBCA.C41_ball",
    "RustBCA.C41_trimesh"
   ],
   "note": "exact arithmetic; samplers scale with the parameters of their distribution (Spec.ScaleFree, true of rand_distr up to rounding). Proved for the default build and every feature except hdf5_input; in a build with hdf5_input it is false (C104_refuted_hdf5): drawn direction components are multiplied by the length unit, fixed ones are not. That the target built is the same in every unit (hypothesis hg of C104_units) is C41_*, one theorem per geometry"
  },
  {
   "property": "C105",
   "status": "partial",
   "theorems": [
    "RustBCA.C105_without_recoils",
    "RustBCA.C105_never_recoils",
    "RustBCA.C105_refuted_recoils",
    "RustBCA.C105_refuted_sputtering"
   ],
   "note": "true of the calls that ask for no recoils (same options); false of all others: the default_options of the distributions build puts the request into track_trajectories and sets track_recoils to false, so no library call follows recoils and sputtering_yield is 0 for every input (C105_refuted_sputtering)"
  },
  {
   "property": "C106",
   "status": "partial",
   "theorems": [
    "RustBCA.C106_from_input",
    "RustBCA.C106_default_incident",
    "RustBCA.C106_new",
    "RustBCA.C106_c_entry",
    "RustBCA.C106_refuted_origin"
   ],
   "note": "all of it holds, except that default_incident reports its starting energy in electronvolts, not joules (C106_refuted_origin)"
  },
  {
   "property": "C107",
   "status": "proved",
   "theorems": [
    "RustBCA.C107_joint_distribution",
    "RustBCA.C107_statistical_error",
    "RustBCA.C107_run",
    "RustBCA.C107_reflected"
   ],
   "note": "each thread has its own stream of independent outcomes of a countable generator; expectations are among the cascades that end (fuel of the model), as in C98"
  },
  {
   "property": "C108",
   "status": "partial",
   "theorems": [
    "RustBCA.C108_collision_partial",
    "RustBCA.C108_pass_partial",
    "RustBCA.C108_run_partial",
    "RustBCA.C108_leaving_flat_partial",
    "RustBCA.C108_refuted",
    "RustBCA.C108_refuted_surface"
   ],
   "note": "proved for masses that are equal or at least one part in 2^25 of their sum apart, and targets with an ISOTROPIC surface (any geometry, any number of crossings) or cascades that do not cross the surface; leaving a flat or layered target with any other binding model (C108_leaving_flat_partial, one crossing). False otherwise: masses one unit in the last place apart (C108_refuted), and a surface whose normal is not along x, where the computed cosine may be -1-2^-52 and the particle leaves with a negative energy (C108_refuted_surface). Missing: whole runs over flat targets with refraction at entry"
  },
  {
   "property": "C109",
   "status": "proved",
   "theorems": [
    "RustBCA.C109_mesh0d",
    "RustBCA.C109_mesh1d",
    "RustBCA.C109_sphere",
    "RustBCA.C109_ball",
    "RustBCA.C109_trimesh",
    "RustBCA.C109_homogeneous2d"
   ],
   "note": "Exact description of energy barrier and simulation volume by distances to the material, from the input file, in every unit. For triangle meshes the distance queries of parry3d enter by their documented behaviour (MeasuresMeshes), for which Examples/Volumes.lean gives an instance; the points of the barrier of 2D targets are described by C99."
  },
  {
   "property": "C110",
   "status": "proved",
   "theorems": [
    "RustBCA.C110_collision",
    "RustBCA.C110_path",
    "RustBCA.C110_stopping",
    "RustBCA.C110_recoils"
   ],
   "note": "Stated with explicit formulas (Spec/Library.lean: Kr-C function, Firsov length, Lobatto formula; Spec/Stopping.lean: Lindhard-Scharff). The collision theorem assumes a relative energy of at least 1e-25 of the screening energy (C92)."
  },
  {
   "property": "C111",
   "status": "proved",
   "theorems": [
    "RustBCA.C111_distinct",
    "RustBCA.C111_untouched",
    "RustBCA.C111_list_files",
    "RustBCA.C111_summary",
    "RustBCA.C111_distributions",
    "RustBCA.C111_two_runs"
   ],
   "note": "Different path texts are taken to be different files. C111_input_overwritten (Examples) shows that a distributions build can overwrite its own input file, if that has the name of an output file."
  },
  {
   "property": "C112",
   "status": "proved",
   "theorems": [
    "RustBCA.C112_same_run",
    "RustBCA.C112_run",
    "RustBCA.C112_mesh0d",
    "RustBCA.C112_mesh1d",
    "RustBCA.C112_homogeneous2d",
    "RustBCA.C112_sphere",
    "RustBCA.C112_ball",
    "RustBCA.C112_trimesh",
    "RustBCA.C112_mesh2d"
   ],
   "note": "Exact arithmetic (sums of densities are associative). The two side conditions are needed: RelistedExample.C112_refuted_average for the surface binding energies; the first species serves as the struck one in passes without a collision (finding on LOW_ENERGY_LOCAL). From the input file also for 2D targets (homogeneous or of triangles), spheres, and the balls and triangle meshes of the parry3d build (whatever that library answers)."
  },
  {
   "property": "C113",
   "status": "proved",
   "theorems": [
    "RustBCA.C113_target",
    "RustBCA.C113_options",
    "RustBCA.C113_start",
    "RustBCA.C113_program"
   ],
   "note": "TOML parsing itself is not modelled: the parsed record is the starting point. A list of at most one interaction index means index 0 for all species (that is what the code does; see C64)."
  },
  {
   "property": "C114",
   "status": "proved",
   "theorems": [
    "RustBCA.C114_pass",
    "RustBCA.C114_run",
    "RustBCA.C114_electrons",
    "RustBCA.C114_local",
    "RustBCA.C114_no_electrons"
   ],
   "note": "Over doubles with arbitrary correct rounding to nearest. C114_run bounds the exact sum of the energies returned by E (1 + u)^n, n the random numbers drawn; C114_local and C114_no_electrons give the hypothesis on electronic stopping; for the other modes a pass that moves backwards gives energy even without rounding (C72_backwards_refuted)."
  },
  {
   "property": "C115",
   "status": "proved",
   "theorems": [
    "RustBCA.C115_independent",
    "RustBCA.C115_joint_distribution",
    "RustBCA.C115_statistical_error",
    "RustBCA.C115_run",
    "RustBCA.C115_reflected"
   ],
   "note": "Conditional on the run coming to an end (the loops of the model have fuel). The samplers of rand_distr are parameters; they are assumed to draw their random numbers one after the other from the stream (SamplesInOrder). rayon gives every ion to one worker thread; the main thread, which draws the ions, has its own generator."
  },
  {
   "property": "C116",
   "status": "proved",
   "theorems": [
    "RustBCA.C116_statistical_error",
    "RustBCA.C116_beam_error",
    "RustBCA.C116_run",
    "RustBCA.C116_beam_run",
    "RustBCA.C116_reflection_coefficient",
    "RustBCA.C116_compound_reflection_coefficient",
    "RustBCA.bounded_quantity",
    "RustBCA.finite_quantity",
    "RustBCA.beam_variance"
   ],
   "note": "Chebyshev's inequality for real quantities of independent, not identically distributed samples, applied to whole runs (fixed ions: variance shown finite for a generator with finitely many outcomes; drawn ions: finite variance is a hypothesis, shown to hold for bounded quantities) and to the energy reflection coefficient of the library. Real arithmetic for the library functions."
  },
  {
   "property": "C117",
   "status": "proved",
   "theorems": [
    "RustBCA.C117_reflected",
    "RustBCA.C117_sputtered",
    "RustBCA.C117_implanted",
    "RustBCA.C117_losses"
   ],
   "note": "Exact arithmetic for the binning (as C102); the first depth bin also holds the values up to one cell below the axis, as C55 found (InBin says so). Generator with finitely many outcomes."
  },
  {
   "property": "C118",
   "status": "partial",
   "theorems": [
    "RustBCA.C118_factor_multiplies_partial",
    "RustBCA.C118_refuted_interpolated"
   ],
   "note": "Proved for the three LOW_ENERGY modes. False for INTERPOLATED: 1/S_high + ck/S_low is inverted, so a larger factor always gives a smaller loss (C118_refuted_interpolated, for every target, particle, distance and pair of factors)."
  },
  {
   "property": "C119",
   "status": "proved",
   "theorems": [
    "RustBCA.C119_same_target",
    "RustBCA.C119_run"
   ],
   "note": "Exact arithmetic (in doubles the sums of the thicknesses round). Positive length unit."
  },
  {
   "property": "C120",
   "status": "proved",
   "theorems": [
    "RustBCA.C120_elsewhere",
    "RustBCA.C120_run",
    "RustBCA.C120_deep_layers",
    "RustBCA.C120_thick_layer"
   ],
   "note": "A target restricted to a region fails on every question outside it; success there transfers to every target alike in the region. Exactly at x = 0 a layered target takes the density of its last layer (C63), hence the region leaves that plane out."
  },
  {
   "property": "C121",
   "status": "proved",
   "theorems": [
    "RustBCA.C121_ion",
    "RustBCA.C121_run",
    "RustBCA.C121_program",
    "RustBCA.C121_all_ions",
    "RustBCA.C121_samples",
    "RustBCA.C121_sputtering_yield",
    "RustBCA.C121_simple_bca",
    "RustBCA.C121_simple_compound_bca",
    "RustBCA.C121_simple_bca_list_py",
    "RustBCA.C121_simple_bca_list_c",
    "RustBCA.C121_compound_bca_list_c",
    "RustBCA.C121_compound_tagged_bca_list_c",
    "RustBCA.C121_reflect_single_ion_c",
    "RustBCA.C121_compound_bca_list_fortran",
    "RustBCA.C121_compound_bca_list_py",
    "RustBCA.C121_compound_bca_list_1D_py",
    "RustBCA.C121_reflect_single_ion_py"
   ],
   "note": "The loops of the model carry a bound (fuel); these theorems show that the bound is not observable. Whether an ion comes to an end is C88. That random numbers and input are all that matters is built into the model: its functions have no other argument."
  },
  {
   "property": "C122",
   "status": "proved",
   "theorems": [
    "RustBCA.C122_last_pass",
    "RustBCA.C122_ion",
    "RustBCA.C122_run",
    "RustBCA.C122_files",
    "RustBCA.C122_f64",
    "RustBCA.ieee_arith"
   ],
   "note": "for every scalar with IEEE comparisons whose zero is not NaN, and for f64 in full (Ieee L, nothing assumed of the platform's functions)"
  },
  {
   "property": "C123",
   "status": "proved",
   "theorems": [
    "RustBCA.C123_sputtering_yield",
    "RustBCA.C123_reflection_coefficient",
    "RustBCA.C123_compound_reflection_coefficient",
    "RustBCA.rounded_ratio",
    "RustBCA.C123_every_order",
    "RustBCA.C123_every_order_value",
    "RustBCA.C123_schedule_matters"
   ],
   "note": "Rust's f64 in full (Ieee L, nothing assumed of the platform's functions). C123_schedule_matters refutes that the f64 energy coefficient is independent of the schedule (it is in exact arithmetic, C58)"
  },
  {
   "property": "C124",
   "status": "proved",
   "theorems": [
    "RustBCA.C124_input",
    "RustBCA.C124_default_incident",
    "RustBCA.C124_accepts",
    "RustBCA.C124_zero_refused",
    "RustBCA.C124_refuted_huge",
    "RustBCA.C124_refuted_infinite",
    "RustBCA.C124_stuck"
   ],
   "note": "Rust's f64 in full (Ieee L). The two _refuted theorems show that acceptance does not imply a direction: overflow of the length is not noticed (finding 43)"
  },
  {
   "property": "C125",
   "status": "proved",
   "theorems": [
    "RustBCA.C125_ends",
    "RustBCA.C125_almost_surely",
    "RustBCA.small_again",
    "RustBCA.C96_random_numbers",
    "RustBCA.least_stopping",
    "RustBCA.C125_screened_ends",
    "RustBCA.C125_screened_almost_surely",
    "RustBCA.C125_screened_result",
    "RustBCA.C125_homogeneous2D",
    "RustBCA.C125_homogeneous2D_screened"
   ],
   "note": "every stopping mode but LOW_ENERGY_LOCAL (where nothing is lost along the path), solids, gases and threshold targets, with and without free-flight paths, weak collisions and recoils; Coulomb potentials. C125_screened_*: the screened potentials in the low-energy path modes, without recoils, weak collisions and free-flight paths (a pass can go backwards there and gain energy; what falls is 2 sqrt(E)/k less the asymptotic deflection). small_again (Borel-Cantelli) and C96_random_numbers show that almost every stream meets the hypotheses of C125_ends In a geometry of the program: C125_homogeneous2D (CutOut)."
  },
  {
   "property": "C126",
   "status": "proved",
   "theorems": [
    "RustBCA.C126_simple",
    "RustBCA.C126_compound",
    "RustBCA.C126_tagged",
    "RustBCA.C126_fortran",
    "RustBCA.C126_reflect",
    "RustBCA.C126_one_ion",
    "RustBCA.C126_simple_duty",
    "RustBCA.C126_compound_duty",
    "RustBCA.C126_tagged_duty",
    "RustBCA.C126_fortran_duty",
    "RustBCA.C126_negative",
    "RustBCA.C126_null",
    "RustBCA.C126_untouched",
    "RustBCA.C126_drop_empty",
    "RustBCA.C126_drop",
    "RustBCA.C126_drop_tagged_empty",
    "RustBCA.C126_drop_tagged"
   ],
   "note": "Memory is made of disjoint blocks, pointers point to their beginnings; slice::from_raw_parts and dealloc carry Rust's safety conditions (anything else is undefined behaviour). What holds of the lists is C57, C66, C67. C126_drop is C60's refutation in operation."
  },
  {
   "property": "C127",
   "status": "proved",
   "theorems": [
    "RustBCA.C127_run_ends",
    "RustBCA.C127_result",
    "RustBCA.loses_locally",
    "RustBCA.local_pass",
    "RustBCA.local_passes",
    "RustBCA.C127_homogeneous2D",
    "RustBCA.CutOut.ends",
    "RustBCA.CutOut.encloses",
    "RustBCA.C127_mesh2D",
    "RustBCA.CutOutMesh.ends",
    "RustBCA.CutOutMesh.encloses",
    "RustBCA.CutOutMesh.thin"
   ],
   "note": "LOW_ENERGY_LOCAL stopping and screened potentials, solids, gases and threshold targets, weak collisions and recoils; without free-flight paths. Sure, not almost sure: a bound N on the passes before the random numbers are known. NowhereThin is a Spec structure over get_densities and get_ck C127_homogeneous2D: in a HomogeneousMesh2D whose simulation polygon lies in the material (CutOut); of the geometries of the program only the 2D meshes can satisfy EndsWithMaterial, in the others the simulated volume goes beyond the barrier and C88_refuted_parallel shows that a sure end is false. C127_mesh2D: the same in a Mesh2D of triangles of different densities."
  },
  {
   "property": "C128",
   "status": "proved",
   "theorems": [
    "RustBCA.C128_options",
    "RustBCA.C128_grid",
    "RustBCA.C128_materials",
    "RustBCA.C128_particles",
    "RustBCA.C128_0D",
    "RustBCA.C128_1D",
    "RustBCA.C128_2D",
    "RustBCA.C128_homogeneous2D",
    "RustBCA.C128_sphere",
    "RustBCA.C128_ball",
    "RustBCA.C128_trimesh",
    "RustBCA.C128_document",
    "RustBCA.C128_program",
    "RustBCA.C128_run",
    "RustBCA.C128_options_agree",
    "RustBCA.C128_materials_agree",
    "RustBCA.C128_particles_agree",
    "RustBCA.C128_order",
    "RustBCA.C128_unknown_key_ignored",
    "RustBCA.C128_minimal",
    "RustBCA.C128_counts",
    "RustBCA.C128_hdf5_needs_filename",
    "RustBCA.C128_one_meaning",
    "RustBCA.SaysOr_present"
   ],
   "note": "From the TOML document on (the syntax is the crate's); three leniencies of the crate are a parameter. The format is a relation in Spec/Toml; reading and saying are the same for every document. C128_run composes with C78 and thereby with everything proved of main. C128_unknown_key_ignored and C128_hdf5_needs_filename are findings 45, 46."
  },
  {
   "property": "C129",
   "status": "partial",
   "theorems": [
    "RustBCA.C129_rows",
    "RustBCA.C129_every_row_reported",
    "RustBCA.C129_same_ions",
    "RustBCA.C129_weight_without_effect",
    "RustBCA.C129_refuted_indices",
    "RustBCA.C129_without_hdf5"
   ],
   "note": "The crate hdf5 is a function from file names to rows. Everything stated is proved, and one check that should be there is refuted: interaction indices of the rows are not compared with the size of the interaction matrix, which the other build does for its ions (C42); weight and tag, which a row must have, have no effect. Directions that mix fixed and drawn components: C104_refuted_hdf5."
  },
  {
   "property": "C130",
   "status": "proved",
   "theorems": [
    "RustBCA.C130_loop",
    "RustBCA.C130_homogeneous2D",
    "RustBCA.C130_mesh2D",
    "RustBCA.C130_almost_surely",
    "RustBCA.C130_almost_surely_screened",
    "RustBCA.campaign_ends",
    "RustBCA.campaign_ends_streams",
    "RustBCA.all_tapes",
    "RustBCA.C130_from_input",
    "RustBCA.cut_out_of_input",
    "RustBCA.cut_out_mesh_of_input"
   ],
   "note": "C130_loop: every configuration. C130_homogeneous2D, C130_mesh2D: LOW_ENERGY_LOCAL and screened potentials without free-flight paths, one bound for the run before the random numbers are drawn. C130_almost_surely: Coulomb potentials, the other stopping modes, homogeneous 2D target; C130_almost_surely_screened: screened potentials, nonlocal or equipartition stopping, without recoils, weak collisions and free-flight paths. In the other geometries the simulated volume goes beyond the energy barrier, and C88_refuted_parallel shows an ion that is followed for ever there. C130_from_input: the hypotheses about the homogeneous 2D target as conditions on the input file, in its own unit. cut_out_mesh_of_input: the same for targets of triangles (proper triangles that cover the polygon of the material)."
  }
 ]
}