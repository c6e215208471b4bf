{"id": "C01", "title": "Every returned particle has exactly one fate", "statement": "single_ion_bca called with a particle that is neither stopped nor left returns a non-empty list in which every particle has exactly one of stopped and left set.", "quantifier": "all ions, materials (any geometry implementation), options, random streams and numbers of loop iterations, for IEEE doubles including NaN", "why_tests_cant": "the list is produced by a random nested loop of unbounded length; a test sees a few seeds only", "anchors": ["src/bca.rs:single_ion_bca", "src/material.rs:boundary_condition_planar"]}
{"id": "C02", "title": "The incident ion comes first and keeps its identity", "statement": "The first particle returned by single_ion_bca is the ion passed in: same mass, Z, Ec, Es, Ed, interaction index, weight, tag, tracked vector, origin, origin energy, trajectory-tracking flag and incident flag; every later particle has incident = false.", "quantifier": "all ions, materials, options, random streams, iteration counts", "why_tests_cant": "identity of the ion must survive any number of collisions and any cascade", "anchors": ["src/bca.rs:single_ion_bca"]}
{"id": "C03", "title": "No recoils unless asked for", "statement": "With track_recoils = false, single_ion_bca returns exactly one particle.", "quantifier": "all ions, materials, other options, random streams", "why_tests_cant": "a single path that pushes a recoil would change yields silently; all paths must be excluded", "anchors": ["src/bca.rs:single_ion_bca"]}
{"id": "C04", "title": "Recoils are target atoms and inherit tag, weight and tracked vector", "statement": "Every non-incident particle returned has (Z, m, Ec, Es, Ed, interaction_index) of one single species of the material, track_trajectories = track_recoil_trajectories, and the tag, weight and tracked vector of the ion that started the cascade.", "quantifier": "all recoils of all generations, in all cascades", "why_tests_cant": "inheritance is transitive along recoil generations of unbounded depth", "anchors": ["src/bca.rs:choose_collision_partner", "src/material.rs:Material::choose", "src/bca.rs:single_ion_bca"]}
{"id": "C05", "title": "Recoils start inside the material with energy above their cutoff", "statement": "Every non-incident particle returned was created at a position (pos_origin) for which the geometry answers inside = true, and with energy_origin > Ec.", "quantifier": "all recoils of all generations, all geometries", "why_tests_cant": "depends on the guard being evaluated on every path of the collision loop, with and without deep-recoil suppression", "anchors": ["src/bca.rs:single_ion_bca", "src/output.rs:output_lists"]}
{"id": "C06", "title": "A stopped particle is below cutoff and inside the barrier; a left particle is outside the simulation boundary", "statement": "For every particle returned by single_ion_bca: left implies its final position is outside the simulation boundary; stopped implies its final energy is below its cutoff energy and its final position is inside the energy barrier and inside the simulation boundary.", "quantifier": "all returned particles", "why_tests_cant": "the flags are set in one place and the state may be changed later by surface code; only an invariant shows they agree at the end", "anchors": ["src/material.rs:boundary_condition_planar", "src/bca.rs:single_ion_bca"]}
{"id": "C07", "title": "The particle stack never underflows", "statement": "For an ion that is neither stopped nor left, single_ion_bca never fails by popping an empty stack; it can fail only through one of the other documented panics. Called with an already finished ion it always panics.", "quantifier": "all ions, materials, options, random streams, iteration counts", "why_tests_cant": "the stack height is refreshed in the inner loop only, so safety is a property of the whole history", "anchors": ["src/bca.rs:single_ion_bca"]}
{"id": "C08", "title": "Trajectories end at the final state, and are empty when not tracked", "statement": "If track_trajectories is off for a particle, its trajectory is returned as it was created; if on, the last element of the returned trajectory is the particle's final (E, x, y, z) and the trajectory is an extension of the initial one.", "quantifier": "all returned particles", "why_tests_cant": "trajectory pushes happen in several branches; the tail invariant is about all histories", "anchors": ["src/particle.rs:Particle::update_trajectory_tracker", "src/particle.rs:Particle::advance", "src/material.rs:boundary_condition_planar"]}
{"id": "C09", "title": "Energy-loss records only for tracked incident ions", "statement": "Energy-loss records are appended only to the incident ion and only when track_energy_losses is set, exactly one per step of the trajectory loop; recoils keep only the record they were created with.", "quantifier": "all returned particles", "why_tests_cant": "must hold for every number of steps and recoils", "anchors": ["src/particle.rs:Particle::update_energy_loss_tracker", "src/bca.rs:single_ion_bca"]}
{"id": "C10", "title": "Collision counter counts strong collisions only", "statement": "In one step of the loop number_collision_events of the moving particle grows by at most one, however large weak_collision_order is, and it never decreases.", "quantifier": "all steps, all weak collision orders", "why_tests_cant": "quantifies over the weak collision order and the history", "anchors": ["src/bca.rs:single_ion_bca"]}
{"id": "C11", "title": "Recoil energy lies between 0 and the kinematic maximum", "statement": "calculate_binary_collision returns recoil_energy T with 0 <= T <= 4 Ma Mb/(Ma+Mb)^2 E <= E, so the projectile's energy never becomes negative in a collision.", "quantifier": "all masses > 0, energies >= 0, potentials, scattering integrals and angles, exact arithmetic", "why_tests_cant": "a bound over a continuum of masses, energies and angles", "anchors": ["src/bca.rs:calculate_binary_collision"]}
{"id": "C12", "title": "Binary collisions conserve momentum", "statement": "After a collision the momentum of the deflected projectile plus that of the recoil (before bulk binding is subtracted) equals the momentum of the projectile before it, as vectors in the laboratory frame.", "quantifier": "all masses, energies, directions not on the x axis, azimuths and centre-of-mass angles in [0, pi], exact arithmetic", "why_tests_cant": "an identity over six continuous parameters linking three functions (angles, energy, two rotations)", "anchors": ["src/bca.rs:calculate_binary_collision", "src/particle.rs:Particle::rotate", "src/particle.rs:Particle::get_momentum"]}
{"id": "C13", "title": "Rotation keeps direction cosines normalised and turns by psi", "statement": "Particle::rotate maps a unit direction to a unit direction whose scalar product with the old one is cos psi, and with azimuth phi measured around the old direction; rotate by 0 is the identity.", "quantifier": "all unit directions with |dir.x| < 1, all psi and phi, exact arithmetic", "why_tests_cant": "drift of direction cosines is a property of all angles", "anchors": ["src/particle.rs:Particle::rotate"]}
{"id": "C14", "title": "A failed scattering angle is reported, not propagated", "statement": "If the centre-of-mass angle is NaN, calculate_binary_collision returns Err; whenever it returns Ok the angle theta is not NaN.", "quantifier": "all inputs including NaN and infinities, all potentials and integrals", "why_tests_cant": "NaN paths are reached only by unusual inputs", "anchors": ["src/bca.rs:calculate_binary_collision", "src/bca.rs:scattering_function_gm", "src/bca.rs:scattering_function_gl"]}
{"id": "C15", "title": "The recoil sits at the impact parameter from the path", "statement": "The collision partner is placed mfp ahead of the projectile and displaced by a vector perpendicular to its direction, of length equal to the impact parameter.", "quantifier": "all unit directions with |dir.x| < 1, azimuths, impact parameters and mean free paths, exact arithmetic", "why_tests_cant": "an identity over continuous directions; a special direction hides a sign error", "anchors": ["src/bca.rs:choose_collision_partner"]}
{"id": "C16", "title": "Impact parameters fill disjoint annuli of the right size", "statement": "Without free-flight paths, the k-th impact parameter p_k satisfies pmax sqrt k <= p_k < pmax sqrt(k+1) with pi pmax^2 = mfp^2, there are exactly weak_collision_order+1 collision geometries sharing one path length, and the area swept pi p_k^2 is mfp^2 (u+k) for the uniform number u drawn.", "quantifier": "all densities > 0, orders, random streams in [0,1)", "why_tests_cant": "quantifies over all random streams and all orders", "anchors": ["src/bca.rs:determine_mfp_phi_impact_parameter", "src/material.rs:Material::mfp"]}
{"id": "C17", "title": "Free-flight paths respect the 5 percent electronic-loss limit", "statement": "With free-flight paths on, exactly one collision geometry is produced, and the (pmax, free-flight path) pair satisfies n pi pmax^2 ffp = 1 with electronic loss over ffp at most 5 percent of E, unless the interatomic spacing is larger, in which case it falls back to the cylinder pmax = mfp/sqrt pi.", "quantifier": "all particles and materials, exact arithmetic", "why_tests_cant": "the limit is enforced by rescaling for a continuum of energies", "anchors": ["src/bca.rs:determine_mfp_phi_impact_parameter"]}
{"id": "C18", "title": "Path length: total displacement telescopes", "statement": "advance moves the particle along its previous direction by mfp + old asymptotic deflection - new asymptotic deflection and returns that distance; over any sequence of steps the distances sum to the sum of the path lengths plus the first minus the last deflection.", "quantifier": "all step sequences of any length", "why_tests_cant": "an unbounded sum over histories", "anchors": ["src/particle.rs:Particle::advance"]}
{"id": "C19", "title": "Screening functions are proper screening functions", "statement": "For every screened-Coulomb potential phi is positive, strictly decreasing and at most phi(0), with phi(0) = 1 (up to 1e-4 for Lenz-Jensen), and the reported derivative dphi is its true derivative.", "quantifier": "all distances xi >= 0 and all screened potentials, exact arithmetic", "why_tests_cant": "calculus facts about every real argument", "anchors": ["src/interactions.rs:phi", "src/interactions.rs:dphi"]}
{"id": "C20", "title": "The screened distance-of-closest-approach equation has exactly one root", "statement": "For every reduced energy > 0 and impact parameter > 0 the distance of closest approach function of a screened potential is strictly increasing on x > 0 and has exactly one zero there, which lies beyond the impact parameter.", "quantifier": "all energies, impact parameters, screened potentials, exact arithmetic", "why_tests_cant": "existence and uniqueness over a continuum", "anchors": ["src/interactions.rs:distance_of_closest_approach_function", "src/interactions.rs:diff_distance_of_closest_approach_function"]}
{"id": "C21", "title": "Newton's method for screened potentials stays in range and converges", "statement": "For screened potentials newton_rootfinder's iterates stay positive and, from the first iteration on, below the true root and increasing; for every tolerance there is a number of iterations with which it returns Ok, and an Ok result is within a computable distance of the true root.", "quantifier": "all energies, impact parameters > 0, tolerances > 0, screened potentials, exact arithmetic", "why_tests_cant": "convergence is a statement about infinite sequences of iterates", "anchors": ["src/bca.rs:newton_rootfinder"]}
{"id": "C22", "title": "Newton's method returns Ok only after a small step, within the iteration budget", "statement": "newton_rootfinder returns Ok only if the square of its last step is below the tolerance, after at most max_iterations evaluations, and with max_iterations = 0 always returns Err.", "quantifier": "all inputs including NaN, all budgets", "why_tests_cant": "termination and success condition over all inputs", "anchors": ["src/bca.rs:newton_rootfinder"]}
{"id": "C23", "title": "Distance-of-closest-approach functions vanish exactly at turning points", "statement": "For r > 0 the distance-of-closest-approach function of every potential is zero iff 1 - V(r)/E_r - p^2/r^2 = 0 with V the potential's own energy, and the reported derivative is its derivative.", "quantifier": "all distances, energies, impact parameters and potential parameters", "why_tests_cant": "an algebraic identity over continuous parameters for a dozen potentials", "anchors": ["src/interactions.rs:doca_lennard_jones", "src/interactions.rs:doca_lennard_jones_65_6", "src/interactions.rs:doca_morse", "src/interactions.rs:doca_four_eight", "src/interactions.rs:diff_doca_morse", "src/interactions.rs:interaction_potential"]}
{"id": "C24", "title": "Coulomb distance of closest approach is the exact turning point", "statement": "For the COULOMB potential the closed-form distance of closest approach is positive and solves 1 - V(r)/E_r - p^2/r^2 = 0.", "quantifier": "all energies > 0, impact parameters, charges > 0", "why_tests_cant": "continuum of parameters", "anchors": ["src/bca.rs:distance_of_closest_approach", "src/interactions.rs:coulomb"]}
{"id": "C25", "title": "Polynomial coefficients describe the turning-point equation", "statement": "For the inverse-power potentials a positive root of the polynomial with the returned coefficients, mapped by inverse_transform, is exactly a turning point of the potential, and every turning point arises this way.", "quantifier": "all potential parameters, energies and impact parameters > 0", "why_tests_cant": "identity between a coefficient vector and a transcendental equation for all parameters", "anchors": ["src/interactions.rs:polynomial_coefficients", "src/interactions.rs:inverse_transform"]}
{"id": "C26", "title": "Scattering quadratures have the right limits", "statement": "Mendenhall-Weller and the Gauss quadratures give theta = pi at zero impact parameter and theta <= pi always; Gauss-Mehler gives exactly theta = 0 for vanishing potential, for every number of points >= 1.", "quantifier": "all energies, distances, numbers of quadrature points", "why_tests_cant": "a trigonometric sum identity for every n", "anchors": ["src/bca.rs:mendenhall_weller", "src/bca.rs:scattering_integral_gauss_mehler", "src/bca.rs:scattering_integral_gauss_legendre"]}
{"id": "C27", "title": "Species are drawn with probability equal to their concentration", "statement": "For non-negative concentrations summing to one, choose never panics for a random number in [0,1), returns species i exactly when the number lies in the i-th of consecutive half-open intervals whose length is the i-th concentration, never returns a species of zero concentration, and all returned parameters belong to that one species.", "quantifier": "all species counts, concentrations and random numbers", "why_tests_cant": "quantifies over lists of any length and all random numbers", "anchors": ["src/material.rs:Material::choose", "src/material.rs:Material::get_cumulative_concentrations"]}
{"id": "C28", "title": "Concentration averages stay between the extremes", "statement": "average_Z, average_mass and average_bulk_binding_energy are convex combinations: they lie between the minimum and maximum over the species.", "quantifier": "all species counts and concentrations summing to one, exact arithmetic", "why_tests_cant": "lists of any length", "anchors": ["src/material.rs:Material::average_Z", "src/material.rs:Material::average_mass", "src/material.rs:Material::average_bulk_binding_energy"]}
{"id": "C29", "title": "Surface binding energy follows the documented model", "statement": "actual_surface_binding_energy is the particle's Es for INDIVIDUAL; the concentration-weighted target average for TARGET, or 0 if the particle's Es is 0; their mean for AVERAGE, or 0 if either is 0; and the PLANAR and ISOTROPIC variants give the same energies as the plain models.", "quantifier": "all materials, particles, positions and binding models", "why_tests_cant": "case analysis over models times arbitrary lists, with special cases at zero", "anchors": ["src/material.rs:Material::actual_surface_binding_energy"]}
{"id": "C30", "title": "Surface refraction conserves tangential momentum and exchanges exactly Es", "statement": "surface_refraction adds Es to the energy, keeps the direction a unit vector, leaves the momentum parallel to the surface unchanged and changes the energy of normal motion by exactly Es; going in with Es and out with -Es through the same plane restores energy and direction.", "quantifier": "all unit directions and normals, energies and binding energies for which the particle can pass, exact arithmetic", "why_tests_cant": "continuum of directions and energies", "anchors": ["src/particle.rs:surface_refraction"]}
{"id": "C31", "title": "A particle leaves through the surface only if its normal energy exceeds Es", "statement": "When a particle crosses the energy barrier outwards, it either pays exactly Es (if moving outwards with normal energy, or total energy for ISOTROPIC, above Es) or is specularly reflected with unchanged energy and marked backreflected; a backreflected particle re-entering pays nothing and loses the mark.", "quantifier": "all particles, geometries, binding models", "why_tests_cant": "branch structure over continuous states and histories of crossings", "anchors": ["src/material.rs:surface_binding_energy"]}
{"id": "C32", "title": "Electronic stopping only removes energy, only inside, and never below zero", "statement": "subtract_electronic_stopping_energy changes nothing outside the material; inside, the resulting energy is never negative and, for a non-negative distance travelled, never larger than before; it fails rather than continue with a NaN energy.", "quantifier": "all particles, materials, stopping modes, positions", "why_tests_cant": "all inputs incl. NaN; the clamp and asserts must cover every mode", "anchors": ["src/bca.rs:subtract_electronic_stopping_energy", "src/material.rs:Material::electronic_stopping_cross_sections"]}
{"id": "C33", "title": "Boundary conditions are exclusive and final", "statement": "boundary_condition_planar marks a particle left exactly when it is outside the simulation boundary, stopped exactly when below cutoff, not left and within the barrier, and applies the surface potential only if neither; position, identity and counters are not touched.", "quantifier": "all particles and geometries", "why_tests_cant": "all states incl. NaN", "anchors": ["src/material.rs:boundary_condition_planar"]}
{"id": "C34", "title": "Electronic stopping cross sections are positive and ordered", "statement": "For physical inputs every electronic stopping cross section is positive; the low-energy modes are proportional to the correction factor; the interpolated cross section never exceeds either the Bethe-like or the Lindhard-Scharff value.", "quantifier": "all energies, charges, masses > 0, correction factors > 0", "why_tests_cant": "continuum of inputs with a logarithm and powers", "anchors": ["src/material.rs:Material::electronic_stopping_cross_sections"]}
{"id": "C35", "title": "Material, energy barrier and simulation boundary are nested", "statement": "inside implies inside_energy_barrier implies inside_simulation_boundary.", "quantifier": "all points; 0D, 1D and sphere geometries with positive density (and any 2D mesh for the first implication)", "why_tests_cant": "all points of space", "anchors": ["src/geometry.rs:Mesh0D", "src/geometry.rs:Mesh1D", "src/sphere.rs:Sphere", "src/geometry.rs:Mesh2D::inside_energy_barrier"]}
{"id": "C36", "title": "1D layers tile the material, and lookups never fail", "statement": "Mesh1D built from positive thicknesses has layers that are contiguous from 0 to the total thickness; for every x, including points outside, get_densities, get_concentrations, get_ck and get_total_density succeed and refer to the same layer, which is the unique layer containing x when x is inside.", "quantifier": "all numbers of layers, thicknesses, points", "why_tests_cant": "lists of any length and all points, including exact interfaces", "anchors": ["src/geometry.rs:Mesh1D"]}
{"id": "C37", "title": "closest_point returns a nearest boundary point", "statement": "The point returned by closest_point lies on the material surface and no surface point is closer.", "quantifier": "all points (other than the centre for the sphere); 0D, 1D, sphere", "why_tests_cant": "minimality over a continuum of surface points", "anchors": ["src/geometry.rs:Mesh0D::closest_point", "src/geometry.rs:Mesh1D::closest_point", "src/sphere.rs:Sphere::closest_point"]}
{"id": "C38", "title": "Triangle containment is geometric containment", "statement": "Triangle2D::contains is true exactly for convex combinations of the three corners; it is invariant under relabelling the corners.", "quantifier": "all non-degenerate triangles and points, exact arithmetic", "why_tests_cant": "all triangles, orientations, boundary points", "anchors": ["src/geometry.rs:Triangle2D::contains"]}
{"id": "C39", "title": "Triangle distance is the least distance to the triangle's edges", "statement": "Triangle2D::distance_to is attained by a point of the three edges and no edge point is closer; for points outside the triangle it is the distance to the triangle.", "quantifier": "all triangles with non-zero sides, all points", "why_tests_cant": "minimality over a continuum", "anchors": ["src/geometry.rs:Triangle2D::distance_to"]}
{"id": "C40", "title": "2D meshes answer from the containing cell, else from a nearest cell", "statement": "For a 2D mesh all four lookups refer to one and the same cell: the first containing cell for points inside the boundary, otherwise the first cell of least distance; they fail only if the boundary contains a point no cell contains.", "quantifier": "all meshes of any size, all points", "why_tests_cant": "any number of cells, all points", "anchors": ["src/geometry.rs:Mesh2D"]}
{"id": "C41", "title": "Geometry is independent of the unit it is given in", "statement": "Multiplying lengths by c and dividing densities by c^3 while dividing the length unit by c gives the same geometry; densities are number per cubic metre, and concentrations sum to one and do not depend on the unit.", "quantifier": "all inputs, units > 0, exact arithmetic", "why_tests_cant": "all inputs and units", "anchors": ["src/geometry.rs:Mesh0D::new", "src/geometry.rs:Mesh1D::new", "src/sphere.rs:Sphere::new"]}
{"id": "C42", "title": "Accepted inputs never index outside the interaction matrices", "statement": "If input() accepts an input file, then for every accepted ion/target and target/target pair the lookups of interaction potential, scattering integral and root finder are in range.", "quantifier": "all input files and all species pairs", "why_tests_cant": "all matrix sizes and index vectors", "anchors": ["src/input.rs:input", "src/bca.rs:calculate_binary_collision", "src/bca.rs:distance_of_closest_approach"]}
{"id": "C43", "title": "Accepted inputs pair potentials with root finders that can solve them", "statement": "If input() accepts the options then for every pair actually looked up, the root finder chosen can be run for the potential without panicking for lack of an implementation.", "quantifier": "all potentials, root finders, matrices, build features", "why_tests_cant": "product of enums times matrix sizes", "anchors": ["src/input.rs:input", "src/bca.rs:distance_of_closest_approach", "src/interactions.rs:diff_distance_of_closest_approach_function"]}
{"id": "C44", "title": "Mutually exclusive options are rejected", "statement": "input() accepts free-flight paths only with INTERPOLATED stopping and weak_collision_order 0, and GASEOUS only with weak_collision_order 0; num_threads and num_chunks are positive.", "quantifier": "all option records", "why_tests_cant": "all combinations of options", "anchors": ["src/input.rs:input"]}
{"id": "C45", "title": "The requested number of ions is generated, in order", "statement": "input() produces exactly sum N_i particle inputs, the first N_1 of species 1, and so on, with mass, energies and positions converted by the chosen units.", "quantifier": "all particle parameter lists", "why_tests_cant": "lists of any length and counts", "anchors": ["src/input.rs:input"]}
{"id": "C46", "title": "Ion directions are normalised and never gimbal-locked", "statement": "Particle::from_input accepts exactly inputs with positive energy whose normalised x-direction is strictly below 1 - epsilon in magnitude; the particle's direction is then a unit vector parallel to the input, unchanged by scaling the input direction.", "quantifier": "all inputs; scaling by any positive factor", "why_tests_cant": "continuum of directions", "anchors": ["src/particle.rs:Particle::from_input"]}
{"id": "C47", "title": "Every ion is simulated exactly once", "statement": "physics_loop's chunks partition the ion list: concatenated in order they are the ion list, each chunk is non-empty and at most total/num_chunks long, for every num_chunks <= number of ions; otherwise the run is refused.", "quantifier": "all ion counts and chunk counts", "why_tests_cant": "integer division corner cases over all pairs", "anchors": ["src/physics.rs:physics_loop"]}
{"id": "C48", "title": "Results do not depend on chunking or thread schedule", "statement": "With the same per-ion outcome, the sequence of finished particles handed to the outputs is the same for every num_chunks and every thread schedule, hence so are all counts and files.", "quantifier": "all chunk counts and all schedules of the worker threads", "why_tests_cant": "all interleavings", "anchors": ["src/physics.rs:physics_loop"]}
{"id": "C49", "title": "Reflected plus deposited equals the number of ions", "statement": "In summary.output the reflected and deposited columns together add up to the number of simulated ions, and the sputtered column adds up to the number of recoils that left.", "quantifier": "all runs", "why_tests_cant": "sum over arbitrary histories of updates", "anchors": ["src/output.rs:SummaryPerSpecies::update", "src/physics.rs:physics_loop"]}
{"id": "C50", "title": "The summary table has one consistent row per mass", "statement": "The four columns of the summary always have equal length, no mass occurs twice, and the counts for a mass equal the number of processed particles with this mass and fate, whatever order they are processed in.", "quantifier": "all sequences of particles with non-NaN masses", "why_tests_cant": "histories of any length and permutations", "anchors": ["src/output.rs:SummaryPerSpecies::update"]}
{"id": "C51", "title": "List files classify each particle exactly once", "statement": "Each processed particle adds one line to exactly one of reflected, deposited or sputtered output, or none if it is a recoil that stopped; the numbers of lines agree with the summary.", "quantifier": "all sequences of finished particles", "why_tests_cant": "all histories", "anchors": ["src/output.rs:output_lists", "src/output.rs:SummaryPerSpecies::update"]}
{"id": "C52", "title": "Trajectory files can be decoded", "statement": "trajectories.output can be split unambiguously into the trajectories of the tracked particles using the counts in trajectory_data.output.", "quantifier": "all sequences of particles and trajectory lengths, including empty ones", "why_tests_cant": "an injectivity statement over unbounded lists", "anchors": ["src/output.rs:output_lists"]}
{"id": "C53", "title": "After a chunk is flushed its lines survive a crash", "statement": "When the process is killed at any point, every list output file contains all lines of all chunks completed before the crash, as a prefix of the full output.", "quantifier": "all crash points, buffer sizes and outputs", "why_tests_cant": "all crash points", "anchors": ["src/output.rs:output_list_flush", "src/output.rs:open_output_lists", "src/physics.rs:physics_loop"]}
{"id": "C54", "title": "Reported emission angles lie between 0 and 180 degrees", "statement": "energy_angle_from_particle returns the angle between the particle's direction and the outward surface normal (-x), in [0, 180] degrees, with cosine equal to -dir.x for unit directions.", "quantifier": "all directions, exact arithmetic", "why_tests_cant": "continuum of directions and quadrant handling", "anchors": ["src/output.rs:energy_angle_from_particle"]}
{"id": "C55", "title": "Histograms never index out of range and count each particle at most once", "statement": "With at least two grid points per axis, Distributions::update never fails, adds each reflected or sputtered particle to at most one energy-angle cell, the cell whose half-open interval contains its energy and angle, and each implanted ion to at most one cell per axis, the one containing its position.", "quantifier": "all particles incl. NaN or infinite coordinates, all grids", "why_tests_cant": "all floating-point coordinates including boundary values", "anchors": ["src/output.rs:Distributions::update"]}
{"id": "C56", "title": "Surface-normal rotation is a rotation and is undone by rotate_back", "statement": "rotate_given_surface_normal applies to the direction a rotation (length and angle preserving, determinant 1) that carries the inward normal to +x, and then only adds the fixed 1e-9 offset against gimbal lock and renormalises; rotate_back applies the inverse rotation, so that it undoes the first up to that offset.", "quantifier": "all unit normals and directions, exact arithmetic", "why_tests_cant": "continuum incl. the antiparallel special case", "anchors": ["src/lib.rs:rotate_given_surface_normal", "src/lib.rs:rotate_back"]}
{"id": "C57", "title": "Tagged output arrays stay aligned", "statement": "compound_tagged_bca_list_c returns arrays of particles, weights, tags and incident flags of equal length in which entry i describes one particle, with the tag and weight of the ion whose cascade produced it.", "quantifier": "all input lists and cascades", "why_tests_cant": "lists of any length", "anchors": ["src/lib.rs:compound_tagged_bca_list_c"]}
{"id": "C58", "title": "Yield and reflection counters are schedule independent and bounded", "statement": "sputtering_yield returns the number of recoils that left the target (reflection_coefficient: the number of incident ions that left moving away with positive energy) divided by the number of samples, whatever order threads update the counters in; the workers never deadlock; the particle reflection coefficient lies in [0, 1].", "quantifier": "all interleavings of the worker threads, all sample counts > 0", "why_tests_cant": "all interleavings", "anchors": ["src/lib.rs:sputtering_yield", "src/lib.rs:reflection_coefficient"]}
{"id": "C59", "title": "simple_bca returns the ion and what left, nothing else", "statement": "simple_bca returns one row per particle that is the ion or has left the target, in cascade order, each row holding Z, mass, energy, position and direction converted back to amu, eV and Angstrom; it refuses non-positive energies.", "quantifier": "all inputs and cascades", "why_tests_cant": "lists of any length", "anchors": ["src/lib.rs:simple_bca"]}
{"id": "C60", "title": "Output memory handed to C is released with the layout it was allocated with", "statement": "drop_output_bca and drop_output_tagged_bca deallocate each array with exactly the size and alignment it was allocated with.", "quantifier": "all output lengths", "why_tests_cant": "an undefined-behaviour condition on every length", "anchors": ["src/lib.rs:drop_output_bca", "src/lib.rs:drop_output_tagged_bca"]}
{"id": "C61", "title": "A particle moves in its current direction", "statement": "In every pass of the trajectory loop the particle is displaced along the direction it had after the previous pass, including changes of direction by surface refraction and reflection.", "quantifier": "all passes of all cascades, all geometries", "why_tests_cant": "it must hold for every geometry, binding model and cascade; the discrepancy after a reflection only shows when position and direction are compared over two consecutive passes", "anchors": ["src/particle.rs: Particle::advance", "src/bca.rs: boundary_condition_planar", "src/particle.rs: surface_refraction"]}
{"id": "C62", "title": "A particle entering the target keeps moving into it", "statement": "When a particle crosses the energy barrier inwards, refraction by the planar surface leaves it moving towards the target (and only steepens its path), never away from it.", "quantifier": "all positions, directions, energies and surface binding energies", "why_tests_cant": "a statement over all real positions, directions and energies; fails only for steps that cross barrier and surface at once", "anchors": ["src/bca.rs: boundary_condition_planar", "src/particle.rs: surface_refraction"]}
{"id": "C63", "title": "Outside a layered target the nearest layer answers", "statement": "For a point at or before the front surface of a 1D mesh the composition queries answer from the first layer, for a point at or behind the back surface from the last layer.", "quantifier": "all layered targets and all points not inside", "why_tests_cant": "all points and layer stacks; the discrepancy sits at one single coordinate", "anchors": ["src/geometry.rs: Mesh1D::get_densities", "src/geometry.rs: Mesh1D::get_concentrations", "src/geometry.rs: Mesh1D::get_ck"]}
{"id": "C64", "title": "The interaction index given for a species is the one used", "statement": "For every accepted input, each ion of species i and each target species keeps the interaction index the user gave it, so the matrices are read at the row and column the user meant.", "quantifier": "all accepted inputs, all lists of interaction indices", "why_tests_cant": "all index lists and matrix sizes; the discrepancy shows only for single-entry lists with a nonzero index", "anchors": ["src/input.rs: input", "src/particle.rs: ParticleParameters", "src/material.rs: MaterialParameters"]}
{"id": "C65", "title": "Only the physics of an ion can make a run fail", "statement": "Once inputs are accepted, a run completes exactly when there are at least as many ions as chunks and the simulation of every ion completes; summary, histograms (with two grid points per axis) and list output never make it fail.", "quantifier": "all runs, ions, chunkings, thread schedules and particles produced", "why_tests_cant": "Needs every particle, including NaN values, and every chunking; tests try a few.", "anchors": ["src/physics.rs: physics_loop", "src/output.rs: SummaryPerSpecies::update, Distributions::update"]}
{"id": "C66", "title": "List functions return each ion's result, in order", "statement": "The list functions (simple_bca_list_c, compound_bca_list_c, compound_bca_list_py, compound_bca_list_1D_py, compound_bca_list_fortran) refuse lists of unequal length where they check them, and return the concatenation, ion by ion in input order, of the ion and the recoils of its cascade that left the target; every returned list (rows, incident flags, stopped flags) has one entry per returned particle, at the same position.", "quantifier": "all input lists and all cascades", "why_tests_cant": "lists and cascades of any length", "anchors": ["src/lib.rs:simple_bca_list_c", "src/lib.rs:compound_bca_list_c", "src/lib.rs:compound_bca_list_py", "src/lib.rs:compound_bca_list_1D_py", "src/lib.rs:compound_bca_list_fortran"]}
{"id": "C67", "title": "reflect_single_ion reports the ion it was given", "statement": "reflect_single_ion_py and reflect_single_ion_c simulate exactly one ion with the energy and velocity given and write back the final velocity of that same ion (never of a recoil): zero when it stopped, and otherwise a velocity whose kinetic energy is the ion's final energy.", "quantifier": "all velocities, species and targets, all cascades", "why_tests_cant": "all cascades; a recoil must never be reported in place of the ion", "anchors": ["src/lib.rs:reflect_single_ion_py", "src/lib.rs:reflect_single_ion_c"]}
{"id": "C68", "title": "Library calls start ions where the target begins", "statement": "The start position the yield functions give an ion is exactly at the edge of the energy barrier; that of the list functions lies strictly inside it, before the surface.", "quantifier": "all target densities > 0", "why_tests_cant": "a statement over all densities", "anchors": ["src/lib.rs:sputtering_yield", "src/lib.rs:compound_bca_list_c", "src/geometry.rs:Mesh0D"]}
{"id": "C69", "title": "What is recorded does not change what happens", "statement": "Tracking switches (trajectories, recoil trajectories, energy losses, displacements), particle weights, tags and tracked vectors, the output name and buffer size, and the number of chunks and threads have no influence on the physics: on the same random numbers the same particles come out in the same order with the same physical state, the same number of random numbers is used, runs fail alike, and the summary and the reflected, sputtered and deposited lists of a whole run are identical.", "quantifier": "all ions, targets, option records differing only in those switches, random streams", "why_tests_cant": "a relation between two executions, for every input and random stream", "anchors": ["src/bca.rs:single_ion_bca", "src/particle.rs:Particle", "src/physics.rs:physics_loop", "src/output.rs:output_lists"]}
{"id": "C70", "title": "Only the position relative to the target matters", "statement": "Moving the ion and the target by the same vector moves every position in the result by that vector and changes nothing else. In particular, for layered targets the starting point in the plane of the surface, and for two-dimensional targets the starting z, has no influence.", "quantifier": "all targets, ions, displacements, random streams", "why_tests_cant": "a relation between two executions, for every input and random stream", "anchors": ["src/bca.rs:single_ion_bca", "src/geometry.rs:Geometry", "src/particle.rs:advance"]}
{"id": "C71", "title": "Energies never negative, directions never longer than unit", "statement": "In a target with positive masses and charges and non-negative energies, densities, concentrations and correction factors, an ion with non-negative energy and a direction of length at most 1 gives, whatever the random numbers and the potentials, only particles with non-negative energy and direction of length at most 1.", "quantifier": "all targets, ions, options, random streams, any number of collisions, passes and generations of recoils", "why_tests_cant": "an invariant of unbounded loops over all inputs", "anchors": ["src/bca.rs:single_ion_bca", "src/bca.rs:subtract_electronic_stopping_energy", "src/bca.rs:boundary_condition_planar", "src/particle.rs:rotate", "src/particle.rs:surface_refraction"]}
{"id": "C72", "title": "No energy is created", "statement": "Without surface binding, the particles that come out of the simulation of one ion (the ion and all its recoils) carry together at most the energy the ion had. With surface binding, the energy can only grow when a particle enters the energy barrier, by at most the surface binding energy.", "quantifier": "all targets, ions, options, random streams, cascades", "why_tests_cant": "a bound on a sum over an unbounded cascade", "anchors": ["src/bca.rs:single_ion_bca", "src/particle.rs:advance", "src/bca.rs:subtract_electronic_stopping_energy"]}
{"id": "C73", "title": "Energy-loss records account for the loss", "statement": "With energy losses tracked and no surface binding, the records added to the ion account for all the energy it lost: the nuclear and electronic losses recorded add up to at least the difference between its initial and final energy, and to exactly that if the particle is left with any energy and no step went backwards; nuclear losses are never negative.", "quantifier": "all targets, ions, options, random streams, numbers of steps", "why_tests_cant": "a ledger over an unbounded number of steps", "anchors": ["src/particle.rs:update_energy_loss_tracker", "src/bca.rs:single_ion_bca"]}
{"id": "C74", "title": "Random numbers are used in order, each once", "statement": "The simulation of one ion uses up the first k numbers of the random stream and leaves exactly the rest; its result depends on no other number. The outcome is a function of the inputs and these numbers.", "quantifier": "all ions, targets, options, random streams", "why_tests_cant": "quantifies over all streams and over unbounded loops", "anchors": ["src/bca.rs:single_ion_bca", "src/bca.rs:determine_mfp_phi_impact_parameter", "src/material.rs:choose"]}
{"id": "C75", "title": "THRESHOLD mean free path model", "statement": "Under the THRESHOLD mean-free-path model every step draws its path as under GASEOUS where the target's number density is below the threshold, and as under LIQUID elsewhere, as documented.", "quantifier": "all particles, targets, thresholds, options, random streams", "why_tests_cant": "an equality of two simulations over all states, targets and random streams", "anchors": ["src/bca.rs:determine_mfp_phi_impact_parameter", "src/enums.rs:MeanFreePathModel"]}
{"id": "C76", "title": "BALL and SPHERE are the same target", "statement": "A BALL target (parry3d) and a SPHERE target with the same input entries have the same composition everywhere, the same energy barrier, the same simulation volume and the same nearest surface point (except at the centre), and agree on inside except exactly on the surface.", "quantifier": "all balls, all points", "why_tests_cant": "equality at every point of space", "anchors": ["src/parry.rs:ParryBall", "src/sphere.rs:Sphere"]}
{"id": "C77", "title": "Triangle-mesh targets: inside and nesting", "statement": "For a closed, outward-oriented triangle mesh, a point is reported inside exactly if the mesh encloses it, and inside, energy barrier and simulation volume are nested.", "quantifier": "all meshes and points", "why_tests_cant": "quantifies over all meshes and points", "anchors": ["src/parry.rs:ParryTriMesh", "src/parry.rs:inside_trimesh"]}
{"id": "C78", "title": "From command line to output files", "statement": "The program ends normally exactly if the command line names a readable input file for a known geometry and the simulation of what that file asks for succeeds; then the reflected and deposited columns of summary.output add up to the number of ions requested in the file, and the list files have the corresponding numbers of lines.", "quantifier": "all command lines, input files, random streams, thread schedules", "why_tests_cant": "end-to-end over all inputs and executions", "anchors": ["src/main.rs:main", "src/input.rs:input", "src/physics.rs:physics_loop"]}
{"id": "C79", "title": "Minimum cutoff energy", "statement": "minimum_cutoff_energy of a target with at least one species and non-negative cutoff energies is one of the cutoff energies, and no species has a smaller one.", "quantifier": "all targets, any number of species", "why_tests_cant": "unbounded number of species", "anchors": ["src/material.rs:minimum_cutoff_energy"]}
{"id": "C80", "title": "What a collision does, and which recoils are followed", "statement": "In each collision an atom of one species of the target is chosen; outside the material or the energy barrier nothing happens; otherwise the projectile loses exactly the recoil energy and is turned by psi, the atom starts with the recoil energy minus the bulk binding energy, and it is followed exactly if recoils are tracked, its energy exceeds its cutoff and, with deep recoils suppressed, it is closer to the surface than the range estimate.", "quantifier": "all targets, options, particles, collision geometries, random streams", "why_tests_cant": "ranges over all states and random streams", "anchors": ["src/bca.rs:single_ion_bca", "src/bca.rs:choose_collision_partner"]}
{"id": "C81", "title": "Cascades are followed depth first", "statement": "The output lists the ion's final state first and then, recoil by recoil, last created first, the complete cascade of each recoil: the result is the same as calling the simulation for each recoil in turn on the remaining random numbers. Particles waiting on the stack have no influence on the one being followed.", "quantifier": "all targets, ions, options, random streams; cascades of any size and depth", "why_tests_cant": "unbounded cascades", "anchors": ["src/bca.rs:single_ion_bca"]}
{"id": "C82", "title": "How much energy electronic stopping takes", "statement": "Inside the material a step costs distance times sum of density times cross section (nonlocal and interpolated), Oen and Robinson's loss (local), or the mean of the two (equipartition); cross sections are Lindhard-Scharff's times the correction factor, or Biersack and Varelas' harmonic sum; Oen and Robinson's loss integrates to the cross section over all impact parameters, and the particle's energy never goes below zero.", "quantifier": "all particles, targets, modes, potentials, distances", "why_tests_cant": "real-valued inputs; an integral over all impact parameters", "anchors": ["src/bca.rs:subtract_electronic_stopping_energy", "src/bca.rs:oen_robinson_loss", "src/material.rs:electronic_stopping_cross_sections"]}
{"id": "C83", "title": "Interaction energies have the documented shape", "statement": "Lennard-Jones 12-6 and 6.5-6, Morse and four-eight potentials are repulsive exactly inside the documented distance and have their well of the documented depth at the documented distance; KRC_MORSE lies between its two parts; the W-W potential is ZBL at short distances, the published quintic, decreasing, in between, the published cubic spline at large ones and zero beyond 4.2689 Angstrom; screening functions are the published sums of exponentials.", "quantifier": "all distances and potential parameters, exact arithmetic", "why_tests_cant": "extrema and sign over continuous distances and parameters", "anchors": ["src/interactions.rs:interaction_potential", "src/interactions.rs:lennard_jones", "src/interactions.rs:morse", "src/interactions.rs:four_eight", "src/interactions.rs:tungsten_tungsten_cubic_spline"]}
{"id": "C84", "title": "Scattering integrals converge to the classical deflection angle", "statement": "For every interaction potential with a simple outermost turning point r0 (in particular every screened potential, for all atoms, energies and impact parameters), the Gauss-Mehler scattering angle computed at r0 is defined for every number of points and tends, as the number of points grows, to the classical deflection angle pi - 2p int_r0^inf dr/(r^2 sqrt(1 - U/E - p^2/r^2)); for the Coulomb potential the angle and recoil energy of a binary collision tend to Rutherford's. Gauss-Legendre samples an integrand whose integral is exactly that angle and is as accurate as the best polynomial of degree 9, and Mendenhall-Weller is the four-point Gauss-Lobatto rule for the same integral.", "quantifier": "all potentials satisfying the stated conditions, all atoms, energies, impact parameters and numbers of quadrature points", "why_tests_cant": "the limit and the exact integral are not computable by tests; tests compare a handful of angles", "anchors": ["src/bca.rs:gauss_mehler", "src/bca.rs:gauss_legendre", "src/bca.rs:mendenhall_weller", "src/bca.rs:scattering_integral_gauss_mehler", "src/bca.rs:calculate_binary_collision"]}
{"id": "C85", "title": "The azimuth of the ion beam is irrelevant for flat and layered targets", "statement": "For a 0D or 1D target, turning an incoming ion (position and direction) by any angle about the surface normal and running it on the same random numbers gives the same particles in the same order, with the same energies, species, fates, collision counts and depths, directions turned by that angle, and the ion's own positions turned; the same number of random numbers is drawn and failures are the same. (The lateral places at which recoils are set going are the exception: they are not turned.)", "quantifier": "all angles, flat and layered targets, ions, options, random streams and cascade sizes", "why_tests_cant": "A symmetry of the whole cascade under a continuous group, for every random stream; tests can compare a few runs only", "anchors": ["src/bca.rs:single_ion_bca", "src/bca.rs:choose_collision_partner", "src/particle.rs:Particle::rotate", "src/particle.rs:surface_refraction", "src/geometry.rs:Mesh0D", "src/geometry.rs:Mesh1D"]}
{"id": "C86", "title": "MAGIC is the published formula", "statement": "The scattering angle of the MAGIC option is the one of Biersack and Haggmark's formula, at the centre-of-mass energy, impact parameter and distance of closest approach in reduced units, with the sum of the radii of curvature of the potential chosen and the constants published for that potential; it therefore approximates the classical deflection angle of that potential to a few per cent.", "quantifier": "all atoms, energies, impact parameters, distances; the potentials MAGIC accepts (MOLIERE, KR_C, ZBL, TRIDYN)", "why_tests_cant": "real-valued inputs; a wrong constant shifts angles by a few per cent in some collisions and is invisible in most", "anchors": ["src/bca.rs:magic", "src/interactions.rs:phi", "src/interactions.rs:dphi"]}
{"id": "C87", "title": "The Chebyshev-proxy root finder looks where the turning points are", "statement": "With the Chebyshev-proxy root finder and a Lennard-Jones, Morse or tungsten potential (and Kr-C/Morse, if the Morse part is attractive beyond 10 Angstrom and the Kr-C energy at 10 Angstrom plus the impact parameter does not exceed the radial energy there), the distance of closest approach used by a collision is the outermost turning point of the two atoms, provided the external solver reports all roots in the interval it is given; the root finder reports failure only if there is no turning point at or beyond 1e-15 m.", "quantifier": "all atoms, energies, impact parameters, potential parameters with a well, every solver that honours its contract", "why_tests_cant": "real-valued inputs; a search interval that is too short silently yields an inner turning point, and the scattering angle is then wrong", "anchors": ["src/bca.rs:cpr_rootfinder", "src/bca.rs:distance_of_closest_approach", "src/interactions.rs:crossing_point_doca", "src/interactions.rs:scaling_function"]}
{"id": "C88", "title": "Every ion comes to an end", "statement": "Following an ion ends: in front of a homogeneous target a particle heading away from it leaves the simulation with the energy and direction it has, and one heading for it gets to the energy barrier, after a number of passes bounded by the distance divided by the interatomic spacing along its direction; so a call that follows an ion returns.", "quantifier": "all homogeneous targets, particles in front of the barrier, root finders, weak collision orders and streams of random numbers in [0, 1)", "why_tests_cant": "a test waits a finite time for a few streams; termination quantifies over all streams and directions", "anchors": ["src/bca.rs:single_ion_bca", "src/bca.rs:determine_mfp_phi_impact_parameter", "src/material.rs:boundary_condition_planar", "src/lib.rs:simple_bca"]}
{"id": "C89", "title": "Choosing a species survives rounding", "statement": "In double precision, for every homogeneous target of species with positive densities and every random number in [0,1), choosing a collision partner's species succeeds and picks the species in whose interval of the cumulated concentrations the random number lies, up to the rounding of those concentrations.", "quantifier": "all double-precision arithmetics with rounding to nearest (any treatment of ties), all lists of positive densities, all random numbers in [0,1)", "why_tests_cant": "the failing random number has probability 2^-53 per draw, and rounding errors depend on all densities", "anchors": ["src/material.rs:choose", "src/material.rs:get_cumulative_concentrations", "src/geometry.rs:Mesh0D::new"]}
{"id": "C90", "title": "Directions keep length one in double precision", "statement": "In double precision the direction of a particle after any collision, and of any recoil, has length 1 to within 2^-50 in its square, with no component above 1 in size (so that the square root in the next rotation is defined), no matter how many collisions came before: rounding errors do not accumulate. (Away from the surface, which turns directions without normalising them.)", "quantifier": "all double-precision arithmetics with rounding to nearest, all library functions sin and cos, all numbers of collisions, random streams, potentials and targets", "why_tests_cant": "needs all rounding histories of unboundedly long cascades", "anchors": ["src/particle.rs:rotate", "src/structs.rs:normalize", "src/bca.rs:single_ion_bca"]}
{"id": "C91", "title": "Gimbal lock is avoided in double precision", "statement": "The guards that keep directions away from the x axis work in double precision: for an ion accepted by from_input or default_incident, for a direction returned by rotate_given_surface_normal, and for a direction refracted at the surface, the divisor sqrt(1 - ux*ux) of the next rotation is not zero.", "quantifier": "all double-precision arithmetics with rounding to nearest, all accepted directions", "why_tests_cant": "only directions within rounding of the axis show it", "anchors": ["src/particle.rs:from_input", "src/particle.rs:default_incident", "src/particle.rs:rotate", "src/particle.rs:surface_refraction", "src/lib.rs:rotate_given_surface_normal"]}
{"id": "C92", "title": "The default root finder never fails for screened potentials", "statement": "For every screened potential, all positive charges and masses, every positive impact parameter and every centre-of-mass energy of at least 1e-25 reduced units, Newton's method with the 100 iterations and tolerance the simulation uses returns a distance of closest approach; it never exceeds the true turning point and is within 0.2 per cent of it. Above reduced energy 5 twelve iterations suffice.", "quantifier": "all screened potentials, charges, masses, impact parameters, energies", "why_tests_cant": "A test can try some energies and impact parameters; a failure at one combination aborts a whole run.", "anchors": ["src/bca.rs:newton_rootfinder", "src/bca.rs:distance_of_closest_approach", "src/interactions.rs:doca_function"]}
{"id": "C93", "title": "Collisions produce numbers", "statement": "With the special values of IEEE 754 taken into account, a binary collision with a screened potential returns real numbers (no NaN, no infinity, no panic): angles between 0 and pi, transferred energy between 0 and its kinematic maximum, distance of closest approach near the turning point, for every scattering integral.", "quantifier": "all screened potentials, scattering integrals, charges, masses, energies and impact parameters", "why_tests_cant": "A NaN appears only for particular combinations, e.g. when Newton's result is on the wrong side of a turning point or of the impact parameter.", "anchors": ["src/bca.rs:calculate_binary_collision", "src/bca.rs:scattering_integral_gauss_mehler", "src/bca.rs:magic", "src/bca.rs:mendenhall_weller", "src/bca.rs:gauss_legendre"]}
{"id": "C94", "title": "The random choices have the documented distributions", "statement": "For independent uniform random numbers, the azimuths of the collisions of one step are uniform in [0, 2 pi), the impact parameter of the k-th collision is uniform over the area of the k-th annulus of area s^2 around the path (s the interatomic spacing), the path length is s for LIQUID, exponential with mean s for GASEOUS, and shortened by a uniform factor for an ion's first step; all of these are independent of each other and of the random numbers that follow. The atom met is of species i with probability equal to its local concentration. With free-flight paths longer than s the impact parameter exceeds b with probability exp(-n pi b^2 ffp), that of finding none of n randomly placed atoms per volume within b of the path.", "quantifier": "every particle, target, option set without or with free-flight paths, every bound on azimuths, impact parameters and path, every measurable condition on the following random numbers", "why_tests_cant": "A unit test samples finitely many random numbers; the distribution is a measure over all infinite random streams.", "anchors": ["src/bca.rs: determine_mfp_phi_impact_parameter", "src/material.rs: choose"]}
{"id": "C95", "title": "Infinities and NaN do not arise in a run", "statement": "Compute a step, a trajectory or the whole cascade of an ion with numbers that include the infinities and NaN of IEEE 754, on a target with positive tables and screened potentials, random numbers strictly between 0 and 1, and encounters that the chosen scattering integral handles; no particle moves exactly along the x axis and none lands exactly on the surface. Then the run returns, every energy, position and direction in the returned particles is an ordinary number, and the particles are exactly those of the run over the real numbers.", "quantifier": "every such target, geometry, option set, ion and stream of random numbers; cascades of any size", "why_tests_cant": "an infinity or NaN shows up only for rare combinations of random numbers; a test samples a few", "anchors": ["src/bca.rs::single_ion_bca", "src/bca.rs::determine_mfp_phi_impact_parameter", "src/bca.rs::calculate_binary_collision", "src/material.rs::surface_binding_energy", "src/particle.rs::rotate"]}
{"id": "C96", "title": "A run never panics", "statement": "Follow an ion with one collision partner per step, screened potentials and a scattering integral that handles every encounter from the cutoff energy up, on a target that answers every question about every point. As long as no particle moves exactly along the x axis or lands exactly on the surface, no step panics: the run returns (or goes on for ever), over real numbers and over numbers with infinities and NaN alike, and both return the same particles.", "quantifier": "every such target, option set, ion, stream of random numbers strictly between 0 and 1 (almost every stream), and number of steps", "why_tests_cant": "a panic in the middle of a cascade depends on the whole history of random numbers", "anchors": ["src/bca.rs::single_ion_bca", "src/bca.rs::choose_collision_partner", "src/bca.rs::calculate_binary_collision", "src/material.rs::choose", "src/material.rs::surface_binding_energy"]}
{"id": "C97", "title": "The ions of a run are independent, whatever the threads do", "statement": "The random numbers come from thread-local generators, and which thread simulates which ion is decided while the program runs, and may depend on how long earlier ions took. Still the results of the ions are independent of each other, each with the distribution it has by itself: no stream of random numbers is used twice, and none is biased by the schedule.", "quantifier": "all countable generators with any distribution, all numbers of threads and samples, all adaptive schedules that start every sample once, all inputs", "why_tests_cant": "the claim is about probabilities over all random streams and all schedules", "anchors": ["src/physics.rs::physics_loop", "src/lib.rs::sputtering_yield", "src/bca.rs::single_ion_bca", "src/particle.rs::Particle::from_input"]}
{"id": "C98", "title": "Yields and reflection coefficients converge with the known statistical error", "statement": "reflection_coefficient, compound_reflection_coefficient and sputtering_yield with n samples return an estimate of the probability that an ion of the given species, energy and angle is reflected, or of the expected number of atoms it sputters; the probability of an error of \u03b5 or more is at most the variance of one sample over n\u03b5\u00b2 (1/(4n\u03b5\u00b2) for reflection), for every number of threads and every schedule.", "quantifier": "all arguments the functions accept, all n, all \u03b5, all generators, threads and adaptive schedules", "why_tests_cant": "a statistical test samples finitely many streams; the bound is about the distribution of the returned number", "anchors": ["src/lib.rs::sputtering_yield", "src/lib.rs::reflection_coefficient", "src/lib.rs::compound_reflection_coefficient", "src/bca.rs::single_ion_bca"]}
{"id": "C99", "title": "2D targets: inside, nearest surface and energy barrier", "statement": "For a 2D target given by the corners of a polygon: a point on an edge is not inside; two points that can be joined without meeting an edge get the same answer; points outside the convex hull of the corners are not inside; crossing one edge from outside leads inside; for a convex polygon (listed in either sense) exactly the points strictly on the inner side of every edge are inside. The nearest surface point of a point that is not inside is on the polygon (at the same z) and no point of the polygon is nearer. The energy barrier is the material together with the points nearer than the barrier thickness to the polygon (homogeneous target), or to an edge of a triangle (mesh). For points inside the material the target names the point itself as nearest surface point, so that a particle that comes from outside the barrier straight into the material loses its direction (NaN).", "quantifier": "every polygon, convex or not, self-crossing or not, with repeated corners or not; every point; both 2D geometries", "why_tests_cant": "polygons have unboundedly many shapes and degenerate positions (points level with corners, on edges, repeated corners); tests sample a few points of one square", "anchors": ["src/geometry.rs::HomogeneousMesh2D", "src/geometry.rs::Mesh2D", "src/material.rs::surface_binding_energy"]}
{"id": "C100", "title": "The electronic range", "statement": "In a target of uniform composition a particle that stays inside it and moves forward never travels farther than the path on which continuous electronic slowing down, with the stopping power the program uses, would take it from the energy it began with to the energy it has (in the low-energy modes at most 2E/S(E)); so it is never farther than that from where it began. Without free-flight paths in a solid, the number of passes is bounded by that path and the interatomic spacing, up to the difference of the asymptotic deflections.", "quantifier": "all uniform targets and geometries, sound particles, interaction potentials, scattering integrals, numbers of weak collisions, streams of random numbers and numbers of passes; all stopping powers that grow with the energy", "why_tests_cant": "the bound is about every collision history; tests see a few random histories, and none of them near the bound", "anchors": ["src/bca.rs:single_ion_bca", "src/bca.rs:subtract_electronic_stopping_energy", "src/material.rs:electronic_stopping_cross_sections", "src/particle.rs:advance"]}
{"id": "C101", "title": "The number of recoils", "statement": "Every recoil costs the average bulk binding energy of the target: the energies of all the particles a call of single_ion_bca returns, plus that binding energy for each recoil among them, add up to no more than the energy of the ion. So an ion makes at most E/Eb recoils.", "quantifier": "all targets whose average bulk binding energy is everywhere at least Eb > 0, all ions, options, streams of random numbers and fuel, when no energy is created: nothing is bound to the surface or there is no vacuum to come back from, and no pass goes backwards (Coulomb potentials) or the stopping is local", "why_tests_cant": "the number of particles in a cascade is unbounded a priori and depends on every random number; a test sees the cascades it happens to draw", "anchors": ["src/bca.rs:single_ion_bca", "src/material.rs:average_bulk_binding_energy"]}
{"id": "C102", "title": "The histograms of a run are the histograms of its particles", "statement": "When a run with distributions enabled finishes, every cell of the reflected and sputtered energy-angle histograms holds exactly the number of reflected (sputtered) particles of all the cascades whose energy and emission angle lie in that cell; every bin of the implantation profiles holds the number of ions that came to rest in it; and every bin of the energy-loss profiles holds the sum, per ion and per unit depth, of the losses recorded there along the incident ions (zero if losses are not tracked). Nothing is counted twice or lost between chunks.", "quantifier": "all usable grids, all lists of ions, all results of their cascades, all chunk sizes, thread counts and splits", "why_tests_cant": "The histograms accumulate over all particles of the run; a test can check a few particles on one grid, not that the accumulated cells equal the counts for every run.", "anchors": ["src/output.rs: Distributions::new, Distributions::update", "src/physics.rs: physics_loop"]}
{"id": "C103", "title": "The angle of refraction", "statement": "refraction_angle(cos, E_old, E_new) obeys Snell's law for the surface barrier: it returns incidence angle minus refracted angle (opposite sign for a negative cosine), where the momentum along the surface is the same before and after; it is the angle by which surface_refraction turns the direction; a cosine beyond 1 counts as normal incidence; and it panics exactly when no refracted angle exists (total reflection).", "quantifier": "every cosine and all positive energies", "why_tests_cant": "All real cosines and energies, including the limit of total reflection, where the arcsine is NaN.", "anchors": ["src/particle.rs:refraction_angle", "src/particle.rs:surface_refraction"]}
{"id": "C104", "title": "The units of the input file do not matter", "statement": "Two input files that describe the same options, target, material and ions in different length, energy and mass units give, on the same random numbers, the same run: the same panic, or the same particles in the same order, the same summary, and the same histograms (equal counts, equal energy losses per length) when the axes describe the same intervals.", "quantifier": "all accepted or refused inputs of the default build (and of every feature but hdf5_input), all pairs of units, all random streams and schedules", "why_tests_cant": "Every combination of units, distributions and targets, and whole runs.", "anchors": ["src/input.rs:input", "src/material.rs:Material::new", "src/physics.rs:physics_loop", "src/output.rs:Distributions::update", "src/particle.rs:Particle::from_input"]}
{"id": "C105", "title": "Library results do not depend on optional features", "statement": "A library function gives the same result whether or not the crate was built with the optional feature distributions: cascades follow recoils when the function asks for recoils, so that sputtering yields and lists of emitted particles mean the same in every build.", "quantifier": "all ions, targets, energies, angles, sample counts, random streams and schedules", "why_tests_cant": "The claim compares two builds on all inputs; a test suite is compiled with one set of features and samples inputs.", "anchors": ["src/input.rs:Options::default_options", "src/lib.rs:sputtering_yield", "src/lib.rs:reflection_coefficient", "src/lib.rs:simple_bca"]}
{"id": "C106", "title": "New particles start from a clean state", "statement": "A particle made by Particle::from_input, Particle::default_incident or Particle::new, or by a C entry point, starts with the given parameters, at the given place, along the (normalised) given direction; it has no past position or direction other than the starting ones, no deflection to correct for, no collisions; it has neither stopped nor left; its trajectory and energy records hold at most the starting point and a zero loss; and the energy it reports to have started with is its energy.", "quantifier": "all parameters, positions and directions", "why_tests_cant": "Every combination of real parameters; the state a particle starts with decides its whole cascade.", "anchors": ["src/particle.rs:Particle::from_input", "src/particle.rs:Particle::default_incident", "src/particle.rs:Particle::new", "src/lib.rs:simple_bca"]}
{"id": "C107", "title": "The results of a run converge with the known statistical error", "statement": "In a run, however many threads follow the ions and in whatever order, whatever chunking and output options: the counts of the ions are independent, each with the distribution it would have alone. Whatever is counted among the particles of a run, divided by the number of ions, differs from the average over the ions of the number expected from each alone by e or more with probability at most (average variance)/(n e^2); the variances are finite. In particular the reflected fraction read off summary.output differs from the ions' average probability of being reflected by e or more with probability at most 1/(4 n e^2). The ions may all be different.", "quantifier": "all inputs and lists of ions, targets, options, chunk numbers, numbers of threads, schedules (which may depend on the results so far), generators of independent outcomes, counted sets of particles and e > 0", "why_tests_cant": "A statement about the probability distribution over all streams of random numbers and all schedules.", "anchors": ["src/physics.rs:physics_loop", "src/output.rs:SummaryPerSpecies", "src/bca.rs:single_ion_bca"]}
{"id": "C108", "title": "Energies do not become negative in double precision", "statement": "In double precision the energy transferred in a collision is never negative and never more than the moving particle has, and no particle returned by a simulation has a negative energy (from which the program would take square roots), however many collisions, stopping steps and surface crossings came before.", "quantifier": "all double-precision arithmetics that round to nearest alike in all binades, compute powi(2) as a product and sines of size at most 1; all random streams, potentials, targets, numbers of collisions", "why_tests_cant": "needs all rounding histories of unboundedly long cascades; the failing cases (masses one unit in the last place apart) are never in a test", "anchors": ["src/bca.rs:calculate_binary_collision", "src/bca.rs:subtract_electronic_stopping_energy", "src/material.rs:surface_binding_energy", "src/bca.rs:single_ion_bca"]}
{"id": "C109", "title": "The energy barrier and the simulation volume have the stated thickness around the target", "statement": "For an accepted target the energy barrier consists of the material and all points nearer to it than 2/sqrt(pi) interatomic spacings n^(-1/3) of the (surface) material; the simulation volume reaches ten times as far. For half-space, layers, sphere and ball this is exact, for layers with the first layer's density in front and the last layer's behind; for triangle meshes the barrier is measured from the triangles, the simulation volume from the bounding box, and the nearest surface point returned is on the triangles with none nearer.", "quantifier": "all accepted inputs of each target type in every length unit, all points of space", "why_tests_cant": "a test evaluates a few points; the claim is about every point, unit, density and mesh", "anchors": ["src/geometry.rs: Mesh0D, Mesh1D (new, inside_energy_barrier, inside_simulation_boundary)", "src/sphere.rs: Sphere", "src/parry.rs: ParryBall, ParryTriMesh"]}
{"id": "C110", "title": "What library calls simulate", "statement": "The library functions take no options: a call simulates one collision per step after a path of one interatomic spacing (a random part of it first) with impact parameter uniform in the area of one spacing squared; the collision is the one in the Kr-C potential with Firsov's screening length, its distance of closest approach found to 0.2 per cent and its angle by Mendenhall and Weller's formula, with the elastic energy transfer; electronic stopping is Lindhard and Scharff's over the distance travelled, with correction factor 1; recoils are followed exactly if asked for and above their cutoff energy, wherever they are.", "quantifier": "all ions, target atoms, energies, impact parameters, random numbers and targets of library calls", "why_tests_cant": "the numbers a call returns are random; whether the documented physics was simulated shows only in every single collision", "anchors": ["src/lib.rs", "src/input.rs: Options::default_options", "src/bca.rs: calculate_binary_collision, determine_mfp_phi_impact_parameter, subtract_electronic_stopping_energy"]}
{"id": "C111", "title": "The files of a run hold that run and touch no other", "statement": "A run named N writes only the nine files N + reflected.output, sputtered.output, deposited.output, trajectories.output, trajectory_data.output, displacements.output, energy_loss.output, summary.output, distributions.toml. After a run that ended each of them it produces holds exactly this run's lines (summary.output: the heading and one row per mass), whatever was there before; no other file on the disk changes at any moment, so a later run with another name leaves the files of an earlier one alone, even if the later run is killed.", "quantifier": "all names, options, builds (list output, distributions), outcomes of a run, earlier contents of the disk and moments of interruption", "why_tests_cant": "Names, earlier disk contents and interruption points are unbounded; that two names never produce the same path needs a proof about all texts.", "anchors": ["src/output.rs: open_output_lists, SummaryPerSpecies::new, SummaryPerSpecies::print, Distributions::print", "src/physics.rs: physics_loop"]}
{"id": "C112", "title": "How the species are listed does not matter", "statement": "Listing a species of the target several times in a row, with its density divided among the entries, or adding species of which there is none, changes nothing: with the same random numbers every ion and every recoil ends with the same data, and a run writes the same outputs. (The first species must stay the first, and the added ones must not be the only ones with a surface binding energy.)", "quantifier": "all targets (for input files: homogeneous and layered), tables of species, divisions of densities, options, ions, random streams and numbers of steps, exact arithmetic", "why_tests_cant": "An equality of whole simulations over all streams and targets; a test compares one pair of runs.", "anchors": ["src/material.rs: choose, average_*, electronic_stopping_cross_sections, actual_surface_binding_energy", "src/bca.rs: subtract_electronic_stopping_energy, single_ion_bca", "src/geometry.rs: Mesh0D, Mesh1D"]}
{"id": "C113", "title": "What is read is what is simulated", "statement": "When an input file is accepted, the simulated target is exactly the one the file describes: masses, charges, bulk and surface binding energies, cutoff and displacement energies and interaction indices are the file's lists, in the file's order, converted with the units the file names; a single displacement energy holds for every species; geometry, binding models and options are passed on unchanged; and each ion starts with the mass, charge, energy, cutoff, surface binding energy, position and index of its particle record.", "quantifier": "every input file (any number of species, any units, any geometry type), every particle record, every random stream", "why_tests_cant": "An index mixed up in one of nine parallel lists only shows for targets with several species and particular units; a test fixes both", "anchors": ["src/input.rs:input", "src/material.rs:Material::new", "src/particle.rs:Particle::from_input", "src/main.rs:main"]}
{"id": "C114", "title": "In double precision energy is created by rounding only", "statement": "With f64 arithmetic (correctly rounded +,-,*,/,sqrt; squares computed as one multiplication; computed sines at most 1), without surface binding and with electronic stopping that takes energy (local losses, or none), the energies of all the particles returned by single_ion_bca (the ion and every recoil) together exceed the energy of the ion at most by the factor (1 + 2^-53)^n, where n is the number of random numbers the run has drawn; and none of them is negative.", "quantifier": "all potentials, scattering integrals, root finders, geometries, surface binding models, random streams, numbers of collisions and recoils; masses equal or at least 2^-24 apart", "why_tests_cant": "Each rounding error is below any tolerance a test would use; only a proof over all runs shows that the errors cannot add up to more than one unit roundoff per collision.", "anchors": ["src/bca.rs:single_ion_bca", "src/bca.rs:subtract_electronic_stopping_energy", "src/material.rs:surface_binding_energy"]}
{"id": "C115", "title": "A run averages over the beam as well", "statement": "When the input file gives the energies, positions and directions of the ions as distributions, the program draws the ions one after the other in the main thread and then follows them in parallel. The results of different ions are independent, each distributed as those of one ion drawn from the beam and followed by itself; the joint distribution of any counts is that of independent counts; and any count of the particles of the run, per ion, is off the value expected of the beam by eps or more with probability at most the average variance (which is finite) over n eps^2. In particular the reflected fraction reported in summary.output is off the beam's average probability of reflection by eps or more with probability at most 1/(4 n eps^2).", "quantifier": "every input file that is accepted (species, numbers of ions, distributions, options, target), every random number generator, every number of threads and order in which they take the ions (which may depend on what happened before), chunking and output options, every quantity counted, every eps > 0", "why_tests_cant": "a statement about probabilities over all outcomes of the random number generator and all schedules; a test sees one outcome and one schedule", "anchors": ["src/input.rs: input", "src/physics.rs: physics_loop", "src/bca.rs: single_ion_bca"]}
{"id": "C116", "title": "Energies and other averages converge, with a known statistical error", "statement": "Whatever quantity is added up over the particles of a run (energy of those that left, depth of those that stopped, ...), per ion, differs from its mean over the ions simulated by themselves by eps or more with probability at most the average variance over n eps^2; the same holds when the ions are drawn from distributions, and for the energy reflection coefficient returned by reflection_coefficient and compound_reflection_coefficient. With a generator of finitely many outcomes (rand has 2^53) the variance is always finite.", "quantifier": "every real quantity of a particle, every beam, target and option, every number of ions and threads, every order of work and interleaving, every eps > 0", "why_tests_cant": "It is a statement about probabilities of sums of real quantities over every schedule and sample size; a test sees a few averages of a few seeds.", "anchors": ["src/physics.rs:physics_loop", "src/lib.rs:reflection_coefficient", "src/lib.rs:compound_reflection_coefficient", "src/bca.rs:single_ion_bca", "src/input.rs:input"]}
{"id": "C117", "title": "Every cell of the distribution files converges, with a known statistical error", "statement": "With the distributions build, every cell of the energy-angle distributions of reflected ions and of the implantation profiles, over the number of ions, differs from the ions' average probability of ending in that cell by eps or more with probability at most 1/(4 n eps^2); cells of sputtered atoms and of the energy-loss profiles differ from their mean with probability at most the average variance (which is finite) over n eps^2.", "quantifier": "every grid, cell, beam, target, option, number of ions and threads, order of work and interleaving, every eps > 0", "why_tests_cant": "It is a statement about probabilities over all random streams and schedules for every cell and sample size; a test sees a few histograms of a few seeds.", "anchors": ["src/output.rs:Distributions", "src/physics.rs:physics_loop", "src/bca.rs:single_ion_bca"]}
{"id": "C118", "title": "The electronic stopping correction factor multiplies the electronic energy loss", "statement": "Changing the electronic stopping correction factor of the target from c to c', and nothing else, multiplies the electronic energy loss of a step by c'/c.", "quantifier": "every target, place, particle, step, pair of factors and stopping mode", "why_tests_cant": "The scaling must hold for every energy, composition and mode; a test compares two factors at a few energies, in the mode its author thought of.", "anchors": ["src/material.rs:electronic_stopping_cross_sections", "src/bca.rs:subtract_electronic_stopping_energy"]}
{"id": "C119", "title": "Dividing a layer does not matter", "statement": "Giving a layer of a layered target as several thinner layers of the same composition, whose thicknesses add up, changes nothing: the target answers every query alike at every point, and a run with the same random numbers gives the same particles and outputs, or is refused in the same way.", "quantifier": "all layered targets, all divisions of any of their layers, all units, ions, options, random streams and schedules (exact arithmetic)", "why_tests_cant": "Equality must hold at every depth (boundaries included) and for every division and stream; a test compares a few depths of one target.", "anchors": ["src/geometry.rs:Mesh1D", "src/main.rs"]}
{"id": "C120", "title": "Only the part of the target that is reached matters", "statement": "If the simulation of an ion (or a whole run) in one target asks only about places in some region, its result - all particles, all recorded data, all random numbers consumed, all files - is the same in every target that answers alike in that region; in particular two layered targets with the same upper layers, or a layered target with a thick first layer and a homogeneous target of the same composition, give the same result for an ion that never goes deeper than half the common part.", "quantifier": "every region, every pair of targets alike in it, every ion, material, options, random sequence and chunking; every layered input with positive thicknesses", "why_tests_cant": "it compares two runs in arbitrary targets on arbitrary places never visited; no finite set of runs covers the unvisited places", "anchors": ["src/bca.rs:single_ion_bca", "src/main.rs:physics_loop", "src/geometry.rs:Mesh0D", "src/geometry.rs:Mesh1D", "src/material.rs:Material"]}
{"id": "C121", "title": "Input and random numbers determine the outcome", "statement": "For given input and random numbers a simulation - of one ion, of a run, of the program from its command line, of any library function - ends in at most one way: one result or one panic, independently of how many passes its loops need; if every ion of a run comes to an end, so does the run; a sputtering yield has one value whatever the threads do.", "quantifier": "every input, material, target, options, random sequence and schedule; every number of loop passes", "why_tests_cant": "no test can run a loop for all numbers of passes, nor tell a run that never ends from a long one", "anchors": ["src/bca.rs:single_ion_bca", "src/physics.rs:physics_loop", "src/main.rs:main", "src/lib.rs"]}
{"id": "C122", "title": "No energy in the output is NaN", "statement": "Whatever the target, the potentials, the stopping powers, the options and the random numbers, and whatever overflows, underflows or invalid operations occur in double precision on the way: a simulation that ends reports no particle whose energy is NaN; a particle reported as stopped has an energy that compares as below its cutoff (so it is not +infinity and its cutoff is not NaN), and a particle that ended inside the target has an energy that does not compare as below zero.", "quantifier": "all inputs, targets, potentials, platform mathematics libraries, random numbers, and all f64 values including infinities, signed zeros, subnormal numbers and NaN", "why_tests_cant": "NaN appears only for rare combinations of inputs and random numbers", "anchors": ["src/bca.rs: single_ion_bca, subtract_electronic_stopping_energy", "src/material.rs: boundary_condition_planar", "src/output.rs: output_lists"]}
{"id": "C123", "title": "The yields and coefficients Python gets, as doubles", "statement": "In double precision, with all its rounding, overflow and special values: sputtering_yield returns the double nearest to the number of sputtered atoms per sample (while the count fits in 32 bits), zero only if there are none; reflection_coefficient and compound_reflection_coefficient return as their first value the double nearest to the fraction of ions reflected, between 0 and 1, equal to 0 or 1 only if none or all are reflected, and as their second value a number that is neither NaN nor negative. Every order of the samples is produced by some thread schedule, and in doubles the order can change the second value: it is not reproducible.", "quantifier": "every dictionary, energy, angle, number of samples below 2^31, random streams, platform mathematics library and thread schedule", "why_tests_cant": "rounding and schedules: no set of runs covers all counts and all interleavings, and a sum that depends on the schedule looks right in every single run", "anchors": ["src/lib.rs: sputtering_yield, reflection_coefficient, compound_reflection_coefficient"]}
{"id": "C124", "title": "The direction of an incident ion, as doubles", "statement": "In double precision, with rounding, underflow, overflow and special values: the direction given for an ion may have any length; if its largest component is between 2^-450 and 2^500 in magnitude, an accepted ion has the given direction divided by its length, each component to 2^-46, and directions further than about 2^-22 rad from the x axis are accepted; the direction (0, 0, 0) is refused. Components of 2^512 or more are accepted too, but the ion gets the direction (0, 0, 0) and never moves; an infinite y component gives the direction (0, NaN, 0).", "quantifier": "every direction of doubles, every other input value, every platform", "why_tests_cant": "no test covers all lengths, and the failures are at the ends of the range of doubles", "anchors": ["src/particle.rs: Particle::from_input, Particle::default_incident, Particle::advance"]}
{"id": "C125", "title": "With probability one every run in a uniform target ends", "statement": "In a target of uniform composition whose simulated volume ends with the material, with Coulomb potentials and positive cutoff energies, in every electronic stopping mode but the local one, and whether the target is a solid, a gas or of the threshold kind, with or without high-energy free-flight paths, the simulation of an ion with all its recoils ends with a result with probability one over the random numbers: it ends on every stream of numbers in which runs of small numbers of every length come again and again. With screened potentials, in the low-energy path-dependent stopping modes and without recoils, weak collisions and free-flight paths, the run of the ion ends with probability one as well, in solids and in gases.", "quantifier": "all uniform targets, all options with Coulomb potentials (or screened ones, with the restrictions given), all ions of finite energy inside, almost all streams of random numbers", "why_tests_cant": "the number of passes is not bounded: in a gas the free paths can be arbitrarily short, so no number of runs shows that each ends", "anchors": ["src/bca.rs:single_ion_bca", "src/bca.rs:determine_mfp_phi_impact_parameter", "src/particle.rs:Particle::advance"]}
{"id": "C126", "title": "The C interface works on the caller's arrays and leaves its results in memory that stays", "statement": "If the arrays a C or Fortran caller passes hold as many elements as it declares, each list function computes what it computes on these lists, returns the number of rows and the address of a new block that holds exactly these rows, and changes nothing else in memory: not the caller's arrays, not the results of earlier calls. It never answers when an array is shorter than declared, a pointer is null or misaligned, or a count is negative: all of these are undefined behaviour, even a null pointer for an array of length zero. A result without rows is freed harmlessly; passing a result with rows to the drop function is undefined behaviour whatever happened in between.", "quantifier": "all memories, allocators, vector capacities, inputs, random streams, potentials and sequences of calls", "why_tests_cant": "what raw pointers point to, and what an allocator does, ranges over all memories; a test sees one allocator, under which freeing with the wrong size may go unnoticed", "anchors": ["src/lib.rs:compound_tagged_bca_list_c", "src/lib.rs:simple_bca_list_c", "src/lib.rs:compound_bca_list_c", "src/lib.rs:compound_bca_list_fortran", "src/lib.rs:reflect_single_ion_c", "src/lib.rs:drop_output_bca"]}
{"id": "C127", "title": "With local electronic stopping every run ends", "statement": "With LOW_ENERGY_LOCAL stopping, in a target that has everywhere at least some atom density and whose simulated volume ends with the material, the run of an ion ends after a number of passes that can be named before the random numbers are drawn; if every particle can meet every species and no particle is caught exactly along an axis or on the surface, it ends with a result.", "quantifier": "all such targets, screened potentials, species, energies, solids and gases, with and without weak collisions and recoils, all random streams", "why_tests_cant": "a bound over all random streams and over the whole cascade; a test sees the runs that ended", "anchors": ["src/bca.rs:subtract_electronic_stopping_energy", "src/bca.rs:oen_robinson_loss", "src/bca.rs:single_ion_bca"]}
{"id": "C128", "title": "The input file says what is simulated", "statement": "A run of the program simulates exactly the options, materials, particles and target that the TOML document in the named file states: every key means what the format says, a missing optional key means its documented default (those of the library functions), a missing required key or a value of the wrong kind makes the program stop instead of being replaced by a default, the order of keys does not matter, and no document describes two simulations.", "quantifier": "every TOML document, file name, command line and combination of the input features, and every behaviour of the TOML crate on the points the format leaves open", "why_tests_cant": "tests read a handful of files; the property ranges over all documents, and a swapped or misspelt key in one of sixty fields only shows in a file that sets it", "anchors": ["src/input.rs:Options", "src/input.rs:InputFile::new", "src/material.rs:MaterialParameters", "src/particle.rs:ParticleParameters", "src/enums.rs:Distributions", "src/enums.rs:InteractionPotential", "src/geometry.rs:Mesh0DInput"]}
{"id": "C129", "title": "Ions read from an HDF5 file", "statement": "Built with feature hdf5_input and with use_hdf5 set, the ions of the run are the rows of the data set, in their order and in SI units, whatever N, E, pos, dir and the units of the input file say, and every row is reported once; everything else of the input file is checked as in the other build. A file holding the ions the other build makes of an input file gives the same run to the last detail. With use_hdf5 = false the two builds simulate the same (if no direction mixes fixed and drawn components).", "quantifier": "every input file, every content of the HDF5 file, every sampler and every random stream; every way the run is cut into chunks and threads", "why_tests_cant": "A test needs the HDF5 library, which the default build does not even compile in, and fixes one file; that nothing of the particle section leaks into the run is a statement about all inputs", "anchors": ["src/input.rs:input", "src/particle.rs:ParticleInput", "src/particle.rs:Particle::from_input"]}
{"id": "C130", "title": "A run ends", "statement": "The loop over the ions ends when following every ion ends, whatever the number of threads and chunks, the way the work is split and the outputs asked for. So a run of any list of ions inside a 2D target (homogeneous or of triangles) whose simulated part lies in the material always ends with local electronic stopping, after a number of passes that does not depend on the random numbers; and with probability one with the other stopping modes.", "quantifier": "every list of ions, every number of threads and chunks, every way of splitting the work, every output configuration, every stream of random numbers for every ion (for the statements with probability one: almost every family of streams)", "why_tests_cant": "a run that does not end cannot be told from a long one by testing; the number of schedules and streams is unbounded", "anchors": ["src/physics.rs:physics_loop", "src/bca.rs:single_ion_bca", "src/output.rs:Distributions", "src/output.rs:SummaryPerSpecies", "src/geometry.rs:HomogeneousMesh2D", "src/geometry.rs:Mesh2D"]}
