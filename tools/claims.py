CL={}
CL['C01']=('proved',['C01_exactly_one_fate'],'any Scalar, geometry, options, stream, fuel')
CL['C02']=('proved',['C02_ion_first'],'')
CL['C03']=('proved',['C03_no_recoils'],'')
CL['C04']=('proved',['C04_recoils_are_target_atoms'],'')
CL['C05']=('proved',['C05_recoils_start_inside'],'')
CL['C06']=('proved',['C06_fates_match_positions'],'')
CL['C07']=('proved',['C07_stack_never_underflows','C07_finished_ion_panics'],'')
CL['C08']=('proved',['C08_trajectories'],'')
CL['C09']=('proved',['C09_energy_loss_records','C09_one_record_per_pass'],'')
CL['C10']=('proved',['C10_counter_per_pass','C10_counter_whole_run','C10_only_strong_deflections_count'],'')

CL['C11']=('proved',['C11_recoil_energy_bounds','C11_head_on_maximum','C11_energy_through_collision_loop'],'exact arithmetic')
CL['C12']=('proved',['C12_momentum_conserved','C12_momentum_conserved_in_loop'],'exact arithmetic')
CL['C13']=('proved',['C13_rotate','C13_rotate_zero','C13_azimuth'],'exact arithmetic')
CL['C14']=('proved',['C14_ok_angle_is_a_number','C14_nan_is_reported','C14_nan_stops_the_run'],'every Scalar')
CL['C15']=('partial',['C15_partner_offset_partial','C15_at_impact_parameter_partial','C15_refuted'],'False of the code in general (sign of the z term): refuted with a witness; the exact displacement is proved for every direction, and the property where dir.x = 0 or dir.z = 0')
CL['C18']=('proved',['C18_one_pass','C18_telescopes','C18_every_run'],'')
CL['C61']=('partial',['C61_moves_along_direction_partial','C61_refuted'],'False of the code after a barrier crossing: dir_old is not updated; refuted with a witness; proved for passes that do not cross the barrier')

CL['C19']=('proved',['C19_screening_functions','C19_others_refused','C19_repulsive'],'exact arithmetic')
CL['C20']=('proved',['C20_unique_turning_point'],'exact arithmetic')
CL['C21']=('proved',['C21_newton_iterates','C21_newton_converges','C21_newton_accuracy','C21_distance_of_closest_approach'],'exact arithmetic')
CL['C22']=('proved',['C22_ok_means_small_step','C22_no_budget'],'every Scalar')
CL['C23']=('partial',['C23_zeros_are_turning_points_partial','C23_derivative_screened','C23_derivative_lennard_jones_partial','C23_refuted_four_eight','C23_refuted_morse_derivative'],'False of the code for FOUR_EIGHT (function) and MORSE (derivative): refuted with witnesses; proved for all other potentials')
CL['C24']=('proved',['C24_coulomb_closest_approach'],'exact arithmetic')
CL['C25']=('proved',['C25_polynomial_roots_are_turning_points','C25_polynomial_rootfinder'],'exact arithmetic; the external polynomial solver enters as a hypothesis')
CL['C26']=('proved',['C26_at_most_pi','C26_gauss_mehler_straight_line','C26_magic'],'exact arithmetic')

CL['C16']=('proved',['C16_annuli'],'exact arithmetic')
CL['C17']=('partial',['C17_free_flight_partial','C17_refuted'],'The 5 percent limit is proved for correction factors of at least 1; false of the code below 1 (the factor is applied twice): refuted with a witness')
CL['C27']=('proved',['C27_one_species','C27_choose','C27_interval_length'],'exact arithmetic')
CL['C28']=('proved',['C28_averages'],'exact arithmetic')
CL['C29']=('partial',['C29_variants','C29_documented_partial','C29_positive_targets_partial','C29_refuted'],'False of the code when the species energies are not all zero but average to zero over the target; refuted with a witness')
CL['C30']=('proved',['C30_refraction','C30_round_trip'],'exact arithmetic')
CL['C31']=('partial',['C31_leaving_partial','C31_mirror','C31_reentering','C31_entering','C31_leaving_free_refuted'],'False of the code for a particle that crosses outwards while its direction points back: it pays nothing; refuted with a witness')
CL['C32']=('proved',['C32_outside','C32_not_negative','C32_no_nan','C32_only_removes'],'')
CL['C33']=('proved',['C33_boundary'],'')
CL['C34']=('partial',['C34_positive','C34_order_partial','C34_velocity_proportional','C34_refuted'],'The order of the cross sections fails for correction factors below 1; refuted with a witness')
CL['C62']=('partial',['C62_entering_partial','C62_refuted'],'False of the code for a particle that crosses barrier and surface in one step; refuted with a witness')

CL['C35']=('proved',['C35_mesh0D','C35_mesh1D','C35_sphere','C35_meshes2D'],'exact arithmetic (2D: every Scalar)')
CL['C36']=('proved',['C36_layers','C36_lookup'],'every Scalar whose comparisons obey the IEEE laws')
CL['C37']=('proved',['C37_mesh0D','C37_mesh1D','C37_sphere'],'exact arithmetic')
CL['C38']=('proved',['C38_contains','C38_relabelling'],'exact arithmetic')
CL['C39']=('proved',['C39_edge_distance','C39_outside'],'exact arithmetic')
CL['C40']=('proved',['C40_one_cell'],'every Scalar whose comparisons obey the IEEE laws')
CL['C41']=('proved',['C41_mesh0D','C41_mesh1D','C41_mesh2D','C41_homogeneous','C41_sphere','C41_concentrations','C41_densities'],'exact arithmetic')
CL['C63']=('partial',['C63_outside_partial','C63_refuted'],'False of the code at the front surface x = 0: the last layer answers; refuted with a witness')

CL['C42']=('proved',['C42_lookups_in_range'],'every Scalar')
CL['C43']=('partial',['C43_rootfinder_implemented_partial','C43_accepted_pairs','C43_check_passes','C43_newton_never_works','InputExample.C43_refuted'],'False of the code: WW, KRC_MORSE and FOUR_EIGHT are accepted with Newton, which always panics for want of a derivative; refuted with a witness')
CL['C44']=('proved',['C44_options_compatible','C44_check_iff'],'every Scalar')
CL['C45']=('proved',['C45_requested_ions','C45_count','C45_units'],'every Scalar; unit values over the reals')
CL['C46']=('proved',['C46_accepts_iff','C46_direction','C46_scaling','C46_direction_point'],'exact arithmetic')
CL['C64']=('partial',['C64_indices_honoured_partial','C64_refuted'],'False of the code for single-entry lists: they are replaced by zeros; refuted')

CL['C47']=('proved',['C47_chunks_partition','C47_every_ion_once','C47_refused','C47_run_chunks'],'every Scalar')
CL['C48']=('proved',['C48_schedule_independent','C48_same_tapes'],'every Scalar; for given random streams per ion')
CL['C49']=('proved',['C49_summary_balances','C49_summary_counter'],'every Scalar')
CL['C50']=('proved',['C50_one_row_per_mass','C50_equal_columns','C50_order_independent'],'every Scalar whose comparisons obey the IEEE laws')
CL['C51']=('proved',['C51_one_line','C51_files_agree_with_summary','C51_other_files'],'every Scalar')
CL['C52']=('proved',['C52_trajectories_decodable'],'every Scalar')
CL['C53']=('partial',['C53_completed_chunks_survive_partial','C53_always_a_prefix','C53_run_passes_through','C53_energy_loss_lost','RunExample.C53_refuted'],'False of the code for energy_loss.output, which is never flushed: refuted with a witness; proved for the six other list files')
CL['C54']=('proved',['C54_emission_angle','C54_cardinal'],'exact arithmetic')
CL['C55']=('partial',['C55_never_out_of_range','C55_at_most_one_cell','C55_energy_angle_cell','C55_implantation_cell_partial','C55_energy_loss_cell_partial','C55_refuted'],'Proved: never out of range, at most one cell (every Scalar), the right cell for the energy-angle histograms (exact arithmetic). False for implantation and energy-loss profiles, which truncate towards zero: positions up to one cell below the axis are counted in the first cell; refuted with a witness, and the exact behaviour proved')
CL['C65']=('proved',['C65_fails_only_in_physics'],'every Scalar')

CL['C56']=('proved',['C56_rotation','C56_round_trip','C56_normal_incidence','C56_gimbal_lock'],'exact arithmetic; C56_gimbal_lock shows the 1e-9 offset does not rule out a rotated direction exactly along x')
CL['C57']=('proved',['C57_tagged_arrays'],'every Scalar')
CL['C58']=('proved',['C58_counters','C58_no_deadlock','C58_terminates','C58_finishes','C58_sputtering_yield','C58_sputtering_schedules','C58_sputtering_returns','C58_reflection_coefficient','C58_compound_reflection_coefficient','C58_reflection_bounds','C58_counter_wraps'],'all interleavings; the i32 counter wraps at 2^31 events (C58_counter_wraps)')
CL['C59']=('proved',['C59_simple_bca','C59_refused','C59_compound_second_species'],'every Scalar')
CL['C60']=('partial',['C60_drop_partial','C60_wrong_layouts'],'False of the code: the size passed is the number of elements, not of bytes; refuted for every non-empty output, proved for the empty one')
CL['C66']=('proved',['C66_simple_list','C66_simple_bca_list_c','C66_compound_bca_list_c','C66_compound_bca_list_py','C66_compound_bca_list_1D_py','C66_compound_bca_list_fortran'],'every Scalar')
CL['C67']=('proved',['C67_reflect_single_ion_py','C67_reflected_velocity','C67_reflect_single_ion_c'],'')
CL['C68']=('proved',['C68_start_positions'],'exact arithmetic')
CL['C69']=('proved',['C69_records_do_not_change_physics','C69_whole_run','C69_other_records_succeed'],'every Scalar and geometry; two executions compared on the same random numbers')
CL['C70']=('proved',['C70_translation','C70_lateral_position'],'exact arithmetic; for targets whose composition ignores z, which is true of every geometry of the program (the code looks stopping powers up at (x, y, y))')
CL['C71']=('proved',['C71_energies_and_directions'],'exact arithmetic')
CL['C72']=('partial',['C72_no_energy_is_created_partial','C72_coulomb','C72_pass','EnergyExample.C72_backwards_refuted'],'False of the code in general: a collision early in a step can make the distance travelled negative, and the electronic stopping of a negative distance adds energy (refuted by a run). Proved for runs whose steps all go forwards or with local stopping, and unconditionally for Coulomb potentials')
CL['C73']=('proved',['C73_records_account_for_the_loss'],'exact arithmetic')
CL['C74']=('proved',['C74_stream','C74_fuel'],'every Scalar; C74_fuel: the bound the model puts on its loops has no influence on the outcome')

CL['C75']=('partial',['C75_threshold_partial','C75_threshold_ignored','C75_refuted'],'False of the code: without free-flight paths THRESHOLD is LIQUID everywhere, and with them it is ignored where the free-flight path is not shorter than the spacing; refuted. Proved where the density is at or above the threshold or the free-flight path is the shorter one')
CL['C76']=('proved',['C76_same_construction','C76_ball_is_sphere'],'exact arithmetic; the parry3d library is external: its ball queries enter through BallContract (distance, containment and projection of a ball), which the example instance meets')
CL['C77']=('partial',['C77_trimesh_nested','C77_any_shape','C77_almost_every_ray','C77_almost_every_point','C77_trimesh_inside_partial','C77_one_metre','ParryExample.C77_refuted'],'parry3d ray cast as specified by MeshContract. Proved for closed outward-oriented meshes of any shape: inside exactly if in the body and the surface is within 1 metre in direction +x (C77_any_shape), for all points but a set of volume zero (C77_almost_every_point for bodies up to 1 metre long). False of the code for larger targets (ray length 1.0): refuted. Missing: the null set of points whose ray grazes an edge')
CL['C78']=('proved',['C78_main_runs_what_was_asked','C78_every_requested_ion_reported'],'every Scalar; file reading and TOML parsing are external')
CL['C79']=('proved',['C79_minimum_cutoff'],'exact arithmetic')

CL['C80']=('proved',['C80_collision','C80_no_collision_outside','C80_deep_recoil_energy_ignored'],'exact arithmetic. C80_deep_recoil_energy_ignored: the range estimate takes the energy of the projectile, not of the recoil')
CL['C81']=('proved',['C81_depth_first','C81_subcascades','C81_others_do_not_matter'],'every Scalar and geometry; both directions')
CL['C82']=('proved',['C82_cross_sections','C82_loss','C82_oen_robinson_normalised','C82_decay_rate','C82_local_loss_without_collision'],'exact arithmetic. C82_local_loss_without_collision: the local loss is charged even in passes without a collision')
CL['C16']=(CL['C16'][0],CL['C16'][1]+['C16_first_step_only_once'],CL['C16'][2])
CL['C31']=(CL['C31'][0],CL['C31'][1]+['C31_no_crossing'],CL['C31'][2])
CL['C83']=('proved',['C83_lennard_jones','C83_lennard_jones_65_6','C83_morse','C83_four_eight','C83_krc_morse','C83_tungsten'],'exact arithmetic')
CL['C19']=(CL['C19'][0],CL['C19'][1]+['C19_published'],CL['C19'][2])
CL['C84']=('proved',['C84_gauss_mehler_converges','C84_screened_converges','C84_rutherford','C84_gauss_legendre_integrand','C84_gauss_legendre_accuracy','C84_mendenhall_weller'],'exact arithmetic, at the exact closest approach; MAGIC (an empirical fit) is not covered')
CL['C85']=('proved',['C85_azimuth','C85_recoil_places_refuted'],'C85_recoil_places_refuted shows the stated exception is real: the y, z at which recoils start are not turned (the sign slip of C15)')
CL['C84']=(CL['C84'][0],CL['C84'][1]+['C84_gauss_legendre_screened'],'exact arithmetic, at the exact closest approach; MAGIC (an empirical fit) is C86')
CL['C86']=('partial',['C86_magic_partial','C86_constants_exchanged','C86_refuted_moliere','C86_refuted_zbl'],'exact arithmetic. Proved for KR_C and TRIDYN; false for MOLIERE and ZBL, whose last two constants are exchanged (C86_constants_exchanged): C86_refuted_moliere and C86_refuted_zbl give, for every pair of atoms, a collision in which the angle is below 85 % of the classical one')
CL['C83']=(CL['C83'][0],CL['C83'][1]+['C83_tungsten_middle','C83_tungsten_jump'],'exact arithmetic. C83_tungsten_jump: the W-W energy is discontinuous at 1.1 Angstrom')
CL['C58']=(CL['C58'][0],CL['C58'][1]+['C58_incidence'],CL['C58'][2])
CL['C87']=('proved',['C87_interval','C87_cpr','C87_cpr_newton','C87_cpr_krc_morse','C87_distance_of_closest_approach'],'exact arithmetic; the external crate rcpr is assumed to report exactly the zeros in the interval (Spec.FindsAllRoots). FOUR_EIGHT is excluded: its function is wrong (C23)')
CL['C39']=(CL['C39'][0],CL['C39'][1]+['C39_centroid'],CL['C39'][2])
CL['C23']=(CL['C23'][0],CL['C23'][1]+['C23_refuted_singularity_free_derivative'],CL['C23'][2])
CL['C88']=('partial',['C88_outward','C88_outward_run','C88_inward','C88_refuted_parallel','C88_refuted_simple_bca'],'proved in front of a homogeneous target for directions with an x component (no free-flight paths, not GASEOUS). False in general: an ion parallel to the surface in front of the barrier is followed for ever (C88_refuted_parallel; for the library call simple_bca C88_refuted_simple_bca). Missing: passes inside the target, where termination depends on the random numbers and the scattering')
CL['C89']=('partial',['C89_choose_double_partial','C89_single_species','C89_refuted'],'Proved for random numbers below 1 - (2n + 1)/2^53 for n species, and for all of them for one species. False in full: for densities 1 : 4 : 1 the random number 1 - 2^-53 stops the program (C89_refuted, whatever the treatment of ties)')
CL['C90']=('proved',['C90_rotate','C90_root','C90_pass','C90_run'],'any arithmetic of 53 binary digits rounding to nearest, unbounded exponents (Double.lean); sin and cos arbitrary')
CL['C91']=('partial',['C91_input','C91_default_incident','C91_refuted_normal','C91_refuted_refraction'],'Proved for the directions from_input and default_incident accept. False for rotate_given_surface_normal (at normal incidence the offset is lost in rounding) and after refraction')
CL['C87']=(CL['C87'][0],CL['C87'][1]+['C87_weight'],CL['C87'][2])
CL['C92']=('proved',['C92_newton_succeeds','C92_accuracy','C92_distance_of_closest_approach'],'exact arithmetic; impact parameter above 0 and energy of at least 1e-25 reduced units (below 1e-18 eV for all atoms)')
CL['C93']=('partial',['C93_collision_partial','C93_refuted_head_on','C93_refuted_gauss_mehler','C93_refuted_magic'],'over XReal: exact arithmetic with the infinities and NaN of IEEE 754. Proved for MENDENHALL_WELLER, GAUSS_LEGENDRE, GAUSS_MEHLER with at most 12 points, and MAGIC up to reduced energy 5. False in full: impact parameter 0 at reduced energy up to 5, many Gauss-Mehler points, MAGIC for fast and distant collisions. Missing: Gauss-Mehler between 13 points and the collision-dependent limit, MAGIC above reduced energy 5 at moderate distance')
CL['C19']=(CL['C19'][0],CL['C19'][1]+['C19_screening_length'],CL['C19'][2])
CL['C59']=(CL['C59'][0],CL['C59'][1]+['C59_simple_compound_bca','C59_compound_of_one'],CL['C59'][2])
CL['C94']=('proved',['C94_step','C94_species','C94_free_flight'],'exact arithmetic; random numbers = product of uniform measures on [0,1)')
CL['C95']=('proved',['C95_pass','C95_path','C95_cascades','C95_run','C95_mesh0d','C95_mesh1d','C95_homogeneous'],'over XReal (exact arithmetic with the infinities and NaN of IEEE 754); rounding is not combined with special values')
CL['C96']=('proved',['C96_pass','C96_never_panics','C96_mesh0d','C96_homogeneous','C96_random_numbers'],'weak_collision_order = 0; C96_pass covers every order. The excluded directions and landing points (Generic) are those where the code divides by zero')
CL["C97"]=("proved",["C97_independent","C97_ions"],"threads with endless streams of independent outcomes, any adaptive choice of the next sample (each once): joint probabilities factor into those of single runs (chance = probability that the run returns, within the fuel, with a result in the set); C97_ions ties this to run_ion/physics_loop")
CL["C98"]=("proved",["C98_joint_distribution","C98_statistical_error","C98_reflection_coefficient","C98_compound_reflection_coefficient","C98_sputtering_yield"],"conditional on all samples returning (within the fuel); sputtering: as long as the 32-bit counter does not wrap")
CL["C99"]=("proved",["C99_boundary","C99_regions","C99_hull","C99_crossing","C99_convex","C99_nearest","C99_queries","C99_closest_point","C99_built","C99_homogeneous_barrier","C99_mesh_barrier","C99_entry_direction","C99_entry_homogeneous","C99_entry_mesh"],"exact arithmetic, geo 0.25's algorithms as translated in Model/Geo.lean (the crate's source is not in /repo); C99_entry_*: NaN direction when a step enters the material of a 2D target past its barrier")

CL['C95']=(CL['C95'][0],CL['C95'][1]+['C95_mesh2d'],CL['C95'][2])
CL['C96']=(CL['C96'][0],CL['C96'][1]+['C96_mesh1d','C96_mesh2d'],CL['C96'][2])
CL['C39']=(CL['C39'][0],CL['C39'][1]+['C39_layer'],CL['C39'][2])

CL['C100']=('proved',['C100_range','C100_passes','C100_low_energy'],'the code subtracts S(E1) times the distance with the energy E1 after the collision, which for a growing stopping power is at least what continuous slowing down takes; C100_range for passes that go forward (Coulomb potentials always do: coulomb_always_forwards), C100_passes also for passes that go backward. Growing holds at every energy in the LOW_ENERGY_NONLOCAL and LOW_ENERGY_EQUIPARTITION modes (C100_low_energy); it is a hypothesis for INTERPOLATED, and LOW_ENERGY_LOCAL loses nothing along the path')
CL['C88']=('partial',['C88_outward','C88_outward_run','C88_inward','C88_inside','C88_inside_coulomb','C88_inside_screened','C88_run_coulomb','C88_run_screened','C88_run_screened_result','C88_refuted_parallel','C88_refuted_simple_bca'],'proved in front of a homogeneous target for directions with an x component (no free-flight paths, not GASEOUS), and inside a target of uniform composition, for every stream: in the low-energy modes at most E/(S(Ec) s) + 1 passes with Coulomb potentials, E/(S(Ec) s) + K/s + 2 with screened potentials without weak collisions, after which the particle is still followed; and whole runs when the simulated volume ends with the material, with Coulomb potentials (C88_run_coulomb) and with screened potentials without weak collisions if recoils are not followed or no pass goes backwards (C88_run_screened). False in general: an ion parallel to the surface in front of the barrier is followed for ever (C88_refuted_parallel; for the library call simple_bca C88_refuted_simple_bca). Missing: how often a particle can cross the surface, weak collisions, free-flight paths, LOW_ENERGY_LOCAL inside')
CL['C101']=('proved',['C101_balance','C101_count','C101_coulomb','C101_local'],'the two conditions are those of C72: particles that re-enter through the energy barrier gain the surface binding energy again, and passes that go backwards gain energy in the path-dependent stopping modes (C72_backwards_refuted)')
CL['C102']=('proved',['C102_histograms'],'exact arithmetic, usable axes (increasing, at least two points). The first bin of the depth axes also collects values up to one bin width below the axis: C55_refuted')
CL['C103']=('proved',['C103_refraction_angle','C103_beyond_one','C103_agrees_with_refraction'],'over XReal (exact arithmetic with the infinities and NaN of IEEE 754). No run calls this function')
CL['C104']=('proved',['C104_units','C104_one_ion','C104_refuted_hdf5'],'exact arithmetic; samplers scale with the parameters of their distribution (Spec.ScaleFree, true of rand_distr up to rounding). Proved for the default build and every feature except hdf5_input; in a build with hdf5_input it is false (C104_refuted_hdf5): drawn direction components are multiplied by the length unit, fixed ones are not')
CL['C105']=('partial',['C105_without_recoils','C105_never_recoils','C105_refuted_recoils','C105_refuted_sputtering'],'true of the calls that ask for no recoils (same options); false of all others: the default_options of the distributions build puts the request into track_trajectories and sets track_recoils to false, so no library call follows recoils and sputtering_yield is 0 for every input (C105_refuted_sputtering)')
CL['C106']=('partial',['C106_from_input','C106_default_incident','C106_new','C106_c_entry','C106_refuted_origin'],'all of it holds, except that default_incident reports its starting energy in electronvolts, not joules (C106_refuted_origin)')
o=CL['C82']; CL['C82']=(o[0],o[1]+['C82_unscreened'],o[2])
CL['C107']=('proved',['C107_joint_distribution','C107_statistical_error','C107_run','C107_reflected'],'each thread has its own stream of independent outcomes of a countable generator; expectations are among the cascades that end (fuel of the model), as in C98')
o=CL['C41']; CL['C41']=(o[0],o[1]+['C41_ball','C41_trimesh'],o[2])
o=CL['C77']; CL['C77']=(o[0],o[1]+['C77_from_input','C77_nested_from_input'],o[2]+'; C77_from_input carries it to the vertices, indices and unit of the input file (contract of TriMesh::new: the mesh of the listed triangles)')
CL['C108']=('partial',['C108_collision_partial','C108_pass_partial','C108_run_partial','C108_refuted'],'proved for masses that are equal or at least one part in 2^25 of their sum apart, and targets with an ISOTROPIC surface (any geometry, any number of crossings) or cascades that do not cross the surface; refuted for masses one unit in the last place apart (C108_refuted); missing: crossing a surface with another binding model, where the computed cosine may exceed 1 by rounding')
CL['C109']=('proved',['C109_mesh0d','C109_mesh1d','C109_sphere','C109_ball','C109_trimesh','C109_homogeneous2d'],"Exact description of energy barrier and simulation volume by distances to the material, from the input file, in every unit. For triangle meshes the distance queries of parry3d enter by their documented behaviour (MeasuresMeshes), for which Examples/Volumes.lean gives an instance; the points of the barrier of 2D targets are described by C99.")
CL['C110']=('proved',['C110_collision','C110_path','C110_stopping','C110_recoils'],"Stated with explicit formulas (Spec/Library.lean: Kr-C function, Firsov length, Lobatto formula; Spec/Stopping.lean: Lindhard-Scharff). The collision theorem assumes a relative energy of at least 1e-25 of the screening energy (C92).")
CL["C111"]=("proved",["C111_distinct","C111_untouched","C111_list_files","C111_summary","C111_distributions","C111_two_runs"],"Different path texts are taken to be different files. C111_input_overwritten (Examples) shows that a distributions build can overwrite its own input file, if that has the name of an output file.")
CL["C112"]=("proved",["C112_same_run","C112_run","C112_mesh0d","C112_mesh1d"],"Exact arithmetic (sums of densities are associative). The two side conditions are needed: RelistedExample.C112_refuted_average for the surface binding energies; the first species serves as the struck one in passes without a collision (finding on LOW_ENERGY_LOCAL). For the other geometries the statement is C112_same_run, with the answers of the geometry as hypotheses.")
CL["C113"]=("proved",["C113_target","C113_options","C113_start","C113_program"],"TOML parsing itself is not modelled: the parsed record is the starting point. A list of at most one interaction index means index 0 for all species (that is what the code does; see C64).")
CL["C108"]=("partial",["C108_collision_partial","C108_pass_partial","C108_run_partial","C108_leaving_flat_partial","C108_refuted","C108_refuted_surface"],"proved for masses that are equal or at least one part in 2^25 of their sum apart, and targets with an ISOTROPIC surface (any geometry, any number of crossings) or cascades that do not cross the surface; leaving a flat or layered target with any other binding model (C108_leaving_flat_partial, one crossing). False otherwise: masses one unit in the last place apart (C108_refuted), and a surface whose normal is not along x, where the computed cosine may be -1-2^-52 and the particle leaves with a negative energy (C108_refuted_surface). Missing: whole runs over flat targets with refraction at entry")
CL["C114"]=("proved",["C114_pass","C114_run","C114_electrons","C114_local","C114_no_electrons"],"Over doubles with arbitrary correct rounding to nearest. C114_run bounds the exact sum of the energies returned by E (1 + u)^n, n the random numbers drawn; C114_local and C114_no_electrons give the hypothesis on electronic stopping; for the other modes a pass that moves backwards gives energy even without rounding (C72_backwards_refuted).")
CL["C115"]=("proved",["C115_independent","C115_joint_distribution","C115_statistical_error","C115_run","C115_reflected"],"Conditional on the run coming to an end (the loops of the model have fuel). The samplers of rand_distr are parameters; they are assumed to draw their random numbers one after the other from the stream (SamplesInOrder). rayon gives every ion to one worker thread; the main thread, which draws the ions, has its own generator.")
CL["C116"]=("proved",["C116_statistical_error","C116_beam_error","C116_run","C116_beam_run","C116_reflection_coefficient","C116_compound_reflection_coefficient","bounded_quantity","finite_quantity","beam_variance"],"Chebyshev's inequality for real quantities of independent, not identically distributed samples, applied to whole runs (fixed ions: variance shown finite for a generator with finitely many outcomes; drawn ions: finite variance is a hypothesis, shown to hold for bounded quantities) and to the energy reflection coefficient of the library. Real arithmetic for the library functions.")
CL["C117"]=("proved",["C117_reflected","C117_sputtered","C117_implanted","C117_losses"],"Exact arithmetic for the binning (as C102); the first depth bin also holds the values up to one cell below the axis, as C55 found (InBin says so). Generator with finitely many outcomes.")
CL["C118"]=("partial",["C118_factor_multiplies_partial","C118_refuted_interpolated"],"Proved for the three LOW_ENERGY modes. False for INTERPOLATED: 1/S_high + ck/S_low is inverted, so a larger factor always gives a smaller loss (C118_refuted_interpolated, for every target, particle, distance and pair of factors).")
for k,x in (("C58","C58_compound_reflection_bounds"),("C68","C68_layered_start")):
    o=CL[k]; CL[k]=(o[0],o[1]+[x],o[2])

o=CL["C104"]; CL["C104"]=(o[0],o[1]+["C41_mesh0D","C41_mesh1D","C41_sphere","C41_homogeneous","C41_mesh2D","C41_ball","C41_trimesh"],o[2]+". That the target built is the same in every unit (hypothesis hg of C104_units) is C41_*, one theorem per geometry")
CL["C119"]=("proved",["C119_same_target","C119_run"],"Exact arithmetic (in doubles the sums of the thicknesses round). Positive length unit.")
CL["C120"]=("proved",["C120_elsewhere","C120_run","C120_deep_layers","C120_thick_layer"],"A target restricted to a region fails on every question outside it; success there transfers to every target alike in the region. Exactly at x = 0 a layered target takes the density of its last layer (C63), hence the region leaves that plane out.")
CL["C121"]=("proved",["C121_ion","C121_run","C121_program","C121_all_ions","C121_samples","C121_sputtering_yield"]+["C121_"+x for x in "simple_bca simple_compound_bca simple_bca_list_py simple_bca_list_c compound_bca_list_c compound_tagged_bca_list_c reflect_single_ion_c compound_bca_list_fortran compound_bca_list_py compound_bca_list_1D_py reflect_single_ion_py".split()],"The loops of the model carry a bound (fuel); these theorems show that the bound is not observable. Whether an ion comes to an end is C88. That random numbers and input are all that matters is built into the model: its functions have no other argument.")
CL["C122"]=("proved",["C122_last_pass","C122_ion","C122_run","C122_files","C122_f64","ieee_arith"],"for every scalar with IEEE comparisons whose zero is not NaN, and for f64 in full (Ieee L, nothing assumed of the platform's functions)")
CL["C123"]=("proved",["C123_sputtering_yield","C123_reflection_coefficient","C123_compound_reflection_coefficient","rounded_ratio","C123_every_order","C123_every_order_value","C123_schedule_matters"],"Rust's f64 in full (Ieee L, nothing assumed of the platform's functions). C123_schedule_matters refutes that the f64 energy coefficient is independent of the schedule (it is in exact arithmetic, C58)")
CL["C124"]=("proved",["C124_input","C124_default_incident","C124_accepts","C124_zero_refused","C124_refuted_huge","C124_refuted_infinite","C124_stuck"],"Rust's f64 in full (Ieee L). The two _refuted theorems show that acceptance does not imply a direction: overflow of the length is not noticed (finding 43)")
CL["C125"]=("proved",["C125_ends","C125_almost_surely","small_again","C96_random_numbers","least_stopping"],"every stopping mode but LOW_ENERGY_LOCAL (where nothing is lost along the path), solids, gases and threshold targets, with and without free-flight paths, weak collisions and recoils; Coulomb potentials. small_again (Borel-Cantelli) and C96_random_numbers show that almost every stream meets the hypotheses of C125_ends")
o=CL["C88"]; CL["C88"]=(o[0],o[1]+["C125_almost_surely"],o[2]+" For gases, free-flight paths and INTERPOLATED stopping: with probability one (C125).")
CL["C126"]=("proved",["C126_simple","C126_compound","C126_tagged","C126_fortran","C126_reflect","C126_one_ion","C126_simple_duty","C126_compound_duty","C126_tagged_duty","C126_fortran_duty","C126_negative","C126_null","C126_untouched","C126_drop_empty","C126_drop","C126_drop_tagged_empty","C126_drop_tagged"],"Memory is made of disjoint blocks, pointers point to their beginnings; slice::from_raw_parts and dealloc carry Rust's safety conditions (anything else is undefined behaviour). What holds of the lists is C57, C66, C67. C126_drop is C60's refutation in operation.")
o=CL["C125"]; CL["C125"]=(o[0],o[1]+["C125_screened_ends","C125_screened_almost_surely","C125_screened_result"],o[2].replace("; Coulomb potentials.","; Coulomb potentials. C125_screened_*: the screened potentials in the low-energy path modes, without recoils, weak collisions and free-flight paths (a pass can go backwards there and gain energy; what falls is 2 sqrt(E)/k less the asymptotic deflection)."))
CL["C127"]=("proved",["C127_run_ends","C127_result","loses_locally","local_pass","local_passes"],"LOW_ENERGY_LOCAL stopping and screened potentials, solids, gases and threshold targets, weak collisions and recoils; without free-flight paths. Sure, not almost sure: a bound N on the passes before the random numbers are known. NowhereThin is a Spec structure over get_densities and get_ck")
o=CL["C88"]; CL["C88"]=(o[0],o[1]+["C127_run_ends"],o[2]+" For local stopping: C127.")

CL["C128"]=("proved",["C128_options","C128_grid","C128_materials","C128_particles","C128_0D","C128_1D","C128_2D","C128_homogeneous2D","C128_sphere","C128_ball","C128_trimesh","C128_document","C128_program","C128_run","C128_options_agree","C128_materials_agree","C128_particles_agree","C128_order","C128_unknown_key_ignored","C128_minimal","C128_counts","C128_hdf5_needs_filename","C128_one_meaning","SaysOr_present"],"From the TOML document on (the syntax is the crate's); three leniencies of the crate are a parameter. The format is a relation in Spec/Toml; reading and saying are the same for every document. C128_run composes with C78 and thereby with everything proved of main. C128_unknown_key_ignored and C128_hdf5_needs_filename are findings 45, 46.")
CL["C129"]=("partial",["C129_rows","C129_every_row_reported","C129_same_ions","C129_weight_without_effect","C129_refuted_indices","C129_without_hdf5"],"The crate hdf5 is a function from file names to rows. Everything stated is proved, and one check that should be there is refuted: interaction indices of the rows are not compared with the size of the interaction matrix, which the other build does for its ions (C42); weight and tag, which a row must have, have no effect. Directions that mix fixed and drawn components: C104_refuted_hdf5.")
o=CL["C127"]; CL["C127"]=(o[0],o[1]+["C127_homogeneous2D","CutOut.ends","CutOut.encloses"],o[2]+" C127_homogeneous2D: in a HomogeneousMesh2D whose simulation polygon lies in the material (CutOut); of the geometries of the program only the 2D meshes can satisfy EndsWithMaterial, in the others the simulated volume goes beyond the barrier and C88_refuted_parallel shows that a sure end is false")
o=CL["C125"]; CL["C125"]=(o[0],o[1]+["C125_homogeneous2D","C125_homogeneous2D_screened"],o[2]+" In a geometry of the program: C125_homogeneous2D (CutOut).")
o=CL["C127"]; CL["C127"]=(o[0],o[1]+["C127_mesh2D","CutOutMesh.ends","CutOutMesh.encloses","CutOutMesh.thin"],o[2]+". C127_mesh2D: the same in a Mesh2D of triangles of different densities.")
o=CL["C112"]; CL["C112"]=(o[0],o[1]+["C112_homogeneous2d","C112_sphere","C112_ball","C112_trimesh"],o[2].replace("For the other geometries the statement","From the input file also for homogeneous 2D targets, spheres, and the balls and triangle meshes of the parry3d build (whatever that library answers). For targets of triangles in 2D the statement"))
o=CL["C112"]; CL["C112"]=(o[0],o[1]+["C112_mesh2d"],o[2].replace("homogeneous 2D targets, spheres, and the balls","2D targets (homogeneous or of triangles), spheres, and the balls").split(" For targets of triangles in 2D the statement")[0])
CL["C130"]=("proved",["C130_loop","C130_homogeneous2D","C130_mesh2D","C130_almost_surely","C130_almost_surely_screened","campaign_ends","campaign_ends_streams","all_tapes"],"C130_loop: every configuration. C130_homogeneous2D, C130_mesh2D: LOW_ENERGY_LOCAL and screened potentials without free-flight paths, one bound for the run before the random numbers are drawn. C130_almost_surely: Coulomb potentials, the other stopping modes, homogeneous 2D target; C130_almost_surely_screened: screened potentials, nonlocal or equipartition stopping, without recoils, weak collisions and free-flight paths. In the other geometries the simulated volume goes beyond the energy barrier, and C88_refuted_parallel shows an ion that is followed for ever there.")
o=CL["C99"]; CL["C99"]=(o[0],o[1]+["C99_scaled"],o[2]+". C99_scaled: inside does not depend on the unit of length")
o=CL["C130"]; CL["C130"]=(o[0],o[1]+["C130_from_input","cut_out_of_input"],o[2]+" C130_from_input: the hypotheses about the homogeneous 2D target as conditions on the input file, in its own unit.")
o=CL["C99"]; CL["C99"]=(o[0],o[1]+["C99_built_mesh"],o[2]+". C99_built_mesh: what is built from the input of a target of triangles")
o=CL["C130"]; CL["C130"]=(o[0],o[1]+["cut_out_mesh_of_input"],o[2]+" cut_out_mesh_of_input: the same for targets of triangles (proper triangles that cover the polygon of the material).")
