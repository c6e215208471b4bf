# Formal model of RustBCA in Lean 4 — design

Layout of `lean/Verif/`:

| directory | content |
|---|---|
| `Double.lean` | arithmetic with 53 binary digits, for the theorems about rounding |
| `Scalar.lean`, `Monad.lean` | scalars, panics, random streams, loops, and the rules to reason about them |
| `Model/` | the code, function by function; every definition cites file and lines |
| `Spec/` | small specifications the properties are stated with, independent of the model's helpers |
| `Props/` | the property theorems `Cnn_…` (all named in `MANIFEST.json`) with their local lemmas |
| `Proofs/` | longer supporting proofs (loop invariants, kinematics, Newton, relational reasoning) |
| `Examples/` | beside each theorem, a concrete non-trivial case meeting its hypotheses; refutation witnesses |
| `Conformance.lean` | the assertions of `/repo/src/tests.rs` run on the model with IEEE doubles at build time (tests, not proofs) |

## Trusted base

* Lean 4.33.0's kernel (every module is replayed by `vcheck`). The theorems depend on no axioms
  beyond `propext`, `Classical.choice`, `Quot.sound` (of the theorems in the manifest: most on all
  three, the purely structural ones on `propext` and `Quot.sound` or `propext` only,
  `C76_same_construction` on none). No axiom is declared here; nothing is evaluated by compiled code
  inside a proof.
* Mathlib definitions used in statements: `ℝ`, `Real.sqrt/sin/cos/exp/log/rpow/arccos`, `Complex.arg`
  (for `atan2`), `HasDerivAt`, `List`, `convexHull`-free elementary geometry.
* That the hand translation in `Model/` says what the Rust says. Every definition cites the file and
  lines it models and states its simplifications. `Conformance.lean` runs ten of the thirteen tests of
  `tests.rs` on the model (all but those that need the external crates `rcpr` and `parry3d`).
* External code, which enters as parameters. What a theorem assumes about it is a hypothesis of that
  theorem:
  - `geo` (point in polygon, closest point): `Ext.polygon_contains`, `Ext.polygon_closest_point`,
    arbitrary functions in all theorems but those of C99 (and `C95_homogeneous`, `C95_mesh2d`, `C96_homogeneous`, `C96_mesh2d`, and the theorems of C125, C127, C130 about 2D targets), which
    are about `Geo.ext` (`Model/Geo.lean`): the algorithms of `geo` 0.25 (winding number; nearest point over the
    edges, the point itself if it is inside or on the polygon) written down from that version's published
    source, which is *not* in /repo — a translation that could not be compared with the file here. The exact
    orientation predicate of the crate `robust` is the exact determinant;
  - `rcpr` (polynomial and Chebyshev root finding): `Rcpr`, arbitrary; `C25_polynomial_rootfinder`
    assumes it returns all real roots;
  - `parry3d_f64`: `Parry`, arbitrary; `C76` assumes `BallContract`, `C77` `MeshContract`
    (`Spec/Parry.lean`), both met by a concrete instance in `Examples/Parry.lean`;
  - `rand`, `rand_distr`: a random stream is an arbitrary function `Nat → F`, distributions are an
    arbitrary `Sampler`; theorems that need it assume numbers in [0,1);
  - file reading and TOML syntax: `docs`, which document (a tree of TOML values) a file holds; from the document on
    the derived `Deserialize` implementations are modelled (`Model/Toml.lean`); the three points on which the crate
    `toml` and not this code decides are the parameter `TomlCrate`;
  - `f64` printing: an arbitrary function to strings;
  - rayon: any way of splitting a chunk (`Split`), any interleaving of atomic steps (`Proofs/Pool`).

## How the code is modelled

* **Scalars.** All model code is generic in `class Scalar F` (the `f64` operations the code uses, with
  `Bool` comparisons). Instances: `ℝ` (exact arithmetic), `Float` (IEEE doubles, executable).
  - Control-flow theorems are proved for *every* `Scalar`: they hold for IEEE doubles, NaN included.
  - Order theorems use `ScalarOrd` (laws that IEEE comparisons obey, NaN included).
  - Physics theorems are about `F = ℝ` and carry hypotheses that exclude division by zero, roots of
    negative numbers etc.; they say nothing about rounding.
  - C93 is about `F = XReal` (`Special.lean`): the real numbers with the infinities and NaN of IEEE 754 (one
    zero, no rounding, no overflow). Theorems over ℝ use Mathlib's totalised functions (x/0 = 0, sqrt and ln of
    negative numbers, arccos beyond 1); C93 shows where that matters for collisions, and
    that over its range the ℝ model computes the same numbers.
  - The theorems about rounding (C89–C91) are about `F = Dbl A` (`Double.lean`): numbers with 53 binary
    digits; every sum, product, quotient and square root is rounded to a nearest such number (any choice
    at ties), and the library functions are arbitrary functions into such numbers (the theorems say which
    are assumed to square correctly). Simplifications: the exponent is unbounded, so no overflow,
    underflow, infinities or NaN; `x/0 = 0` and `sqrt` of a negative number is 0 as in Mathlib (the
    theorems speak about the operands instead).
* **Panics** (`unwrap`, `expect`, `assert!`, slice indexing, `panic!`) are `Except.error (Err.panic msg)`.
* **Randomness** is an explicit stream consumed one number at a time (`M F = StateT (Nat → F) Res`).
* **Loops** without a static bound (`while`) take fuel and fail with `Err.fuel`; theorems hold for every
  fuel, and `C74_fuel` proves that a run that ends does not depend on it.
* **`&mut` arguments**: the new value is returned.
* **Geometry trait** = record of functions `Geom F`; the theorems about `single_ion_bca` quantify over all
  records, hence over every implementation.
* **Threads**: rayon's `par_extend` is an arbitrary split of the chunk; the parallel counters of the yield
  functions are an interleaving semantics with a lock.
* **Files**: `BufWriter<File>` = (bytes on disk, buffer), with an arbitrary crash point.

## What is modelled and what is not

| file | modelled | not modelled |
|---|---|---|
| bca.rs | everything (single_ion_bca … mendenhall_weller, root finders, quadratures, oen-robinson, free flight paths) | `accelerated_ions` blocks: the feature does not compile (calls a method missing from the `Geometry` trait) |
| interactions.rs | everything | |
| particle.rs | everything | |
| material.rs | everything | |
| geometry.rs, sphere.rs, parry.rs | everything; polygon queries are external except in C99 (`Model/Geo.lean`), shape queries of `parry3d` are external | |
| input.rs | validation, unit conversion, sampling, particle generation; one record per geometry, deserialization of the document (`Model/Toml.lean`); the build with feature `hdf5_input` (`Model/Hdf5.lean`) | TOML syntax; arrays in the place of sections; what the crate hdf5 does |
| physics.rs | everything but the progress bar and messages | |
| output.rs | list files, summary, distributions, buffering; the text of each line up to number formatting; file names, creation and contents on disk (`Model/Disk.lean`) | paths are texts: two texts naming one file (`./a`, `a`) are not identified |
| main.rs | everything | |
| lib.rs | all exported simulation functions, the yield/reflection functions, surface-normal rotations, drop functions | Python marshalling (lists go in and come out); raw pointers are in `Model/CMemory.lean`, for pointers to the beginning of a block |
| consts.rs, enums.rs, structs.rs | everything used | Display instances |

`Ieee L` (`Ieee.lean`) is `f64` in full: rounding to nearest with ties to even, subnormal numbers, overflow to
infinity, signed zeros, infinities, NaN; the functions Rust leaves to the platform (`sin`, `powf`, `powi`, …) are
the parameter `L`, of which nothing is assumed.  Every theorem stated for every `Scalar` or `ScalarOrd` holds for
it (it is an instance of both); C122, C123 and C124 are about it.  `Proofs/Ieee.lean: ieee_arith` shows that in the
range of normal numbers its rounding is one of the roundings the theorems about `Dbl A` range over, the one with
ties to even; what those theorems say of `f64` holds as long as no operation leaves that range.

`FRAC_2_SQRT_PI` is modelled as `2/sqrt(pi)` and the `const`s as the expressions that define them, so in `Ieee L`
the first could differ from Rust's literal in the last place; no theorem about `Ieee L` depends on its digits.

Not modelled anywhere: `usize` overflow (`i32` overflow of the counters is: `C58_counter_wraps`), the bits of a
NaN, memory other than the arrays of the C interface (C126).

## Plan and status per property

| id | model | proof |
|---|---|---|
| C01–C10 | `Model/Bca.lean: single_ion_bca` and callees, any `Scalar`, any `Geom` | Hoare logic over the two nested fuel loops with an invariant on (stack, current particle, output) |
| C11–C13 | `calculate_binary_collision`, `rotate`, `get_momentum` over ℝ | trigonometry: half-angle identities, `Complex.arg` for `atan2` |
| C14 | same, any `Scalar` | case analysis |
| C15 | `choose_collision_partner` over ℝ | refuted as stated (sign of one term); exact offset proved |
| C16–C17, C75 | `determine_mfp_phi_impact_parameter` | loop lemmas + real analysis; C17, C75 refuted in part |
| C18, C61 | `advance` | induction on step lists; C61 refuted after a barrier crossing |
| C19–C21 | `phi`, `dphi`, `doca_function`, `newton_rootfinder` over ℝ | sums of exponentials; IVT; concavity ⇒ monotone Newton; monotone convergence |
| C22 | `newton_rootfinder`, any `Scalar` | induction on iterations |
| C23–C25 | all potentials over ℝ | algebra with `rpow`, `HasDerivAt`; refutations for FOUR_EIGHT and the Morse derivative |
| C26 | quadratures | trigonometric sums, induction on n |
| C27–C29, C33–C34, C79 | `Model/Material.lean` | lists, induction |
| C30–C31, C62 | `surface_refraction`, `surface_binding_energy` | real algebra; refutations |
| C32 | `subtract_electronic_stopping_energy` | any `Scalar` for structure; ℝ for sign |
| C35–C37, C41, C63 | `Model/Geometry.lean` | ℝ / any `ScalarOrd`; induction on layers |
| C38–C40 | `Triangle2D`, `Mesh2D` | barycentric algebra, projection onto segments, fold argmin |
| C42–C46, C64 | `Model/Input.lean` | any `Scalar`; case analysis on enums |
| C47–C49, C65 | `Model/Physics.lean` | list chunking, induction on the split tree |
| C50–C53, C55 | `Model/Output.lean` | folds, `List.Perm`, crash-prefix invariant |
| C54 | `energy_angle_from_particle` over ℝ | `Complex.arg` |
| C56–C60, C66–C68 | `Model/Lib.lean`, `Model/Yields.lean` | matrix algebra; lists; interleavings; layouts |
| C69–C70 | `single_ion_bca` | relational (two-run) logic, `Proofs/Relational`, `Proofs/Simulation` |
| C71–C73 | `single_ion_bca` over ℝ | loop invariants carrying energy ledgers, `Proofs/EnergyLoop` |
| C74 | `single_ion_bca`, any `Scalar` | every action reads a prefix of the stream |
| C76–C77 | `Model/Parry.lean` | algebra; ray casting against convex polyhedra; for any shape, the piece of the ray before its first crossing is connected and meets no boundary point, so it is on the side of the crossed face that the ray comes from; grazing rays start in finitely many planes |
| C78 | `Model/Main.lean` | composition of C45, C49, C51 |
| C80–C81 | `collision_step`, `single_ion_bca` | exact case analysis of one collision; the stack loop refined to an inductive depth-first relation (`Spec.Path`, `Spec.Cascades`), both directions |
| C82 | `subtract_electronic_stopping_energy`, `electronic_stopping_cross_sections`, `oen_robinson_loss` over ℝ | algebra against the textbook formulas (`Spec/Stopping`); Gamma integral |
| C83 | `interaction_potential` over ℝ | completing squares, Bernoulli, limits |
| C84 | the quadratures of `bca.rs` over ℝ, against `Spec.deflection` (a Lebesgue integral) | change of variables, removable singularities, midpoint rule for continuous functions, arcsin antiderivative, moments of the 5-point rule |
| C85 | `single_ion_bca` for `Mesh0D`, `Mesh1D` | the relational logic of C69–C70 with positions related and directions turned; C85_recoil_places_refuted for the exception |
| C86 | `magic` over ℝ, against `Spec.magicAngle` with the published constants | algebra in reduced units (C86_magic_partial); refuted for MOLIERE and ZBL by bounding both angles at one collision per pair of atoms |
| C87 | `cpr_rootfinder` and `distance_of_closest_approach` over ℝ; the crate `rcpr` by its contract (`Spec.FindsAllRoots`) | beyond the crossing point the potential is not positive, so turning points are within impact parameter plus crossing point; zeros by C23, positive scaling functions |
| C88 | the trajectory loop for `Mesh0D` in front of the barrier, and inside any target of uniform composition | one pass computed exactly (C16, C27: no collision can happen), then induction on the number of passes; the parallel ion by induction on the fuel; inside, C100 with the energy at least the cutoff while the particle is followed, and the asymptotic deflection bounded by the turning point (C21); a whole run: passes per particle (C100) times particles (C101), no pass fails |
| C89 | `choose` on `Mesh0D` in double precision | error bounds of rounded cumulative sums; refuted by exact computation of nine roundings |
| C90 | `rotate`, `trajectory_step`, `single_ion_bca` in double precision | error analysis of `normalize`; `sqrt(rnd(x²)) ≥ x` in binary; induction along `Spec.Path` and `Spec.Cascades` |
| C91 | `from_input`, `default_incident`, `rotate_given_surface_normal`, `surface_refraction` in double precision | monotonicity of rounding; refuted by exact computation |
| C92 | `newton_rootfinder`, `distance_of_closest_approach` | convexity: the residual times the slope shrinks at least fourfold per Newton step (`NewtonSpeed`); error of the last step from the slopes at both ends (`NewtonAccuracy`) |
| C93 | `calculate_binary_collision` and everything below it for screened potentials, over `XReal` | every operation shown to have its arguments in its domain, from the accuracy of C92; refuted by computation for p = 0, many Gauss-Mehler points, MAGIC |
| C94 | `determine_mfp_phi_impact_parameter`, `choose` over ℝ; random numbers distributed by `Measure.infinitePi` of the uniform measure on [0, 1) | the outcome is a box of random numbers up to a null set; product measures of boxes, Tonelli for the shortened gas path |
| C95 | the whole run over `XReal` (exact arithmetic with infinities and NaN) and over ℝ | lifting: each function maps ordinary numbers to ordinary numbers with the same value (`RLift`/`MLift`), step by step up to `single_ion_bca` |
| C96 | the same, without assuming that the run over ℝ returns | totality of each function on tables of matching lengths (`ReadyTarget`); energies at or above the cutoff keep every collision in the range of C92/C93; loop invariant over the cascade |
| C97 | threads, each with an endless stream of independent outcomes of a countable generator (`threadStreams`); an execution as an inductive relation whose next (thread, sample) is any function of the history | strong Markov property for words (what a run drew and what remains are independent), induction on the number of samples left; C74 (a run depends only on the numbers it draws) |
| C98 | the distribution of a count (`countLaw`), its mean and variance; the yield functions of C58 on the streams of an execution | joint law = product law by summing C97 over results; Bienaymé and Chebyshev; counts are 0 or 1 without recoils (C03), at most the fuel with them |
| C99 | `geo`'s polygon queries (winding number, nearest point) and the queries of the two 2D geometries built on them | the winding number is constant along segments that meet no edge and changes by one across an edge (cases per edge, telescoping over the closed ring); convex polygons by walking along the angle around the point; nearest point by induction over the edges; entering past the barrier over `XReal` |
| C100 | `trajectory_step` for passes that begin and end inside a target of uniform composition | one pass loses at least the stopping power at the energy after the collision times the distance (C82); an integral of 1/S compared with that step by monotonicity, added up by induction on the passes; the number of passes from the spacing (C16) and the cutoff energy |
| C101 | `single_ion_bca`, its recoils and the bulk binding energy | the energy balance of C72 with the term Eb times the number of particles reported or waiting added to the invariant of the three nested loops |
| C102 | `Distributions::new`, `update` and `physics_loop` with the feature `distributions` | the cells after one more particle (C55's cells), induction over the particles processed, and C47 for which particles these are |
| C103 | `particle::refraction_angle` | evaluation over XReal with the arcsines as witnesses; agreement with `surface_refraction` (C30) by comparing cosines |
| C104 | `input`, `Material::new`, `physics_loop`, `Distributions` | two runs side by side (RRel/MRel): draws, generated ions (equal up to the length of the direction, which `from_input` normalises), material, processing, histogram bins; refutation for the particle generation of the `hdf5_input` build |
| C105 | `default_options` of both builds, `sputtering_yield` of the `distributions` build | the two option records side by side: equal without recoils; with recoils asked for, every cascade equals that of `default_options(false)`, hence one particle and yield 0 |
| C106 | `from_input`, `default_incident`, `Particle::new`, the `Particle` literal of the C entry points | field by field against `Spec.JustStarted`; refutation for `energy_origin` of `default_incident` |
| C107 | `physics_loop`, `SummaryPerSpecies` over the thread streams of C97 | joint law of the counts is the product of the single laws (C97), Chebyshev for independent, not identically distributed counts; summary columns counted with C49/C47 |
| C108 | `calculate_binary_collision`, `subtract_electronic_stopping_energy`, `boundary_condition_planar`, `single_ion_bca` over `Dbl A` | monotone rounding: the computed kinematic factor is at most 1 (exactly 1 for equal masses; the rounding errors are outweighed when the masses are 2^-25 apart), so is the squared sine; invariant through passes, paths and cascades (C81); refutation with masses one unit in the last place apart; at the surface: for a normal along x the computed cosine is at most 1 (`sqrt(x*x) >= |x|`), refutation for the normal (5, 12, 0)/13 by exact evaluation of all roundings |
| C109 | `Mesh0D::new`, `Mesh1D::new`, `Sphere::new`, `ParryBall::new`, `ParryTriMesh::new` and their `inside_energy_barrier`, `inside_simulation_boundary`, `closest_point`; parry3d's distance queries by contract | explicit nearest points of half-spaces and balls (triangle inequality); the contract is met by the compact-set minimiser (Examples/Volumes) |
| C110 | `Options::default_options` and the three stages of a step under these options | specialise C16, C19, C82, C92 to the library's options; the Mendenhall-Weller sum rewritten with `1/√` and the derivative of the Kr-C function |
| C111 | a disk (path to contents), `open_output_lists`, the summary and distributions files as operations on it | no ending of an output file is the end of another, so paths determine name and ending; truncation before the first write |
| C112 | all uses of the species tables in material.rs and bca.rs, `new` of every geometry | a relation between lists of (species, amount); weighted sums and the search of `choose` by induction on it; then the two runs side by side, equal but for the index of the struck species |
| C113 | `Material.new`, `complete_material`, `input`, `from_input`, `main` (parsed record on) | Spec/AsRead: `TargetAsRead`, `EquallyLong`, `StartsAsRead` compare the file's lists with the simulated target entry by entry; inversion of the `Except` program (`input_facts`, `RSat` rules), then C78 and C45 lift it to the whole program |
| C114 | `single_ion_bca` over doubles: collisions, recoils, electronic stopping, boundary | Spec/DoubleBalance: `totalEnergyDbl`, `unitRoundoff`, `ElectronsTake`; per collision one rounding, so a factor 1 + u, and one random number; induction over `Path`/`Cascades` (C81) with the stream counted by `after` |
| C115 | `input` (`make_particle_inputs`) followed by `physics_loop` on the streams of all threads | Spec/Campaign: `beam`, `drawnAndFollowed`, `programStreams`; the expected value of two computations one after the other (strong Markov property of the stream, Proofs/Campaign), product formula over the main thread's stream and C97 on the threads' streams, then Chebyshev |
| C116 | `physics_loop`, `input` + `physics_loop`, `reflection_coefficient`, `compound_reflection_coefficient`: real quantities instead of counts | Spec/Means: `meanOf`, `varianceOf`, `FiniteVariance` as integrals over the streams on which the computation returns, `totalOf`, `energyReturned`; there are countably many results, so they are numbered and C107/C115's joint distributions apply (Proofs/Means); finitely many outcomes of the generator give finitely many results of a simulation (Proofs/FinitelyMany), hence a finite variance |
| C117 | the histograms of C102 on the thread streams of C97 | each cell is a count or a total over the processed particles (C102), then C107 (counts; at most one ion per cascade gives variance 1/4) and C116 (losses) |
| C118 | `subtract_electronic_stopping_energy` for two targets that differ only in `get_ck` | every cross section is a product with ck (low-energy modes), and the loss is linear in the cross sections; INTERPOLATED: 1/(1/S_high + ck/S_low) falls with ck, refuted for all inputs |
| C119 | `Mesh1D::new` and its queries for two lists of layers, one dividing the other | induction on the division: a depth is found in parts of the same layer; first and last layers alike, so the records of queries are equal and whole runs too |
| C120 | `single_ion_bca` and `physics_loop` in two targets alike in a region; `Mesh0D`/`Mesh1D` inputs with the same upper part | one-sided monotonicity of every function in the geometry's answers (Proofs/Monotone): a success is preserved when failures are replaced by answers; for layers, the queries above half the common depth computed from the input |
| C121 | the fuel of the two loops of `single_ion_bca`, up to `main`, the library functions and the yields | one-sided relation "unless the first ran out of fuel, the second ends in the same way" (Proofs/Fuel), preserved by every construct; so the fuel of the model is not observable |
| C122 | `Ieee L`, and any `ScalarOrd` whose zero is not NaN; `single_ion_bca`, `physics_loop_run`, list files | the last pass of every trajectory leaves its energy as `subtract_electronic_stopping_energy` left it, which asserts that it is not NaN (`boundary_ends`, `PassTrace`); induction over the cascade tree of C81 |
| C123 | `Ieee L`; `sputtering_yield`, `reflection_coefficient`, `compound_reflection_coefficient` with the pool of C58 | counts below 2^53 and their quotient are exact or correctly rounded (`rounded_ratio`, `ratio_le_one`); sums and quotients of nonnegative doubles are nonnegative or infinite; a schedule that serves the workers in any given order (`pool_serve_all`); `C123_schedule_matters` is a refutation with 2^53, 1, 1 |
| C124 | `Ieee L`; `Particle::from_input`, `Particle::default_incident`, `Particle::advance` | forward error analysis of the three squares, two sums, root and quotient with the underflow term kept relative to the length (`normalised_near`); the special values by evaluation |
| C125 | a whole run in any target of uniform composition with Coulomb potentials | a pass uses between 1 and W random numbers (`pass_draws`), and the flight is at least the spacing if they are at most 1/e; by Borel-Cantelli such stretches of every length come again and again (`small_again`); each takes at least sigma s of the particle's energy, where sigma is the least stopping power between the cutoff energy and the ion's energy (continuity); recoils lose the binding energy, so the cascade ends by induction on E/Eb (C81). Screened potentials, where a pass may go backwards and gain energy: instead of the energy, 2 sqrt(E)/k less the asymptotic deflection falls by s (`falling_ends`). `C125_homogeneous2D*`: the same in a geometry of the program |
| C126 | the C and Fortran entry points on a memory of blocks: `from_raw_parts` with its safety conditions, leaked vectors, `dealloc` | reading an array succeeds exactly if memory holds it (`raw_ok`); the rest of a call is the list function of C57/C66/C67 followed by the allocation of its result; frame property of the new block |
| C127 | a whole run in any target nowhere thin (`NowhereThin`), local electronic stopping, screened potentials | the distance of closest approach is at most a bound K + p in every collision, so the Oen-Robinson loss of a pass that collides is at least a c > 0 (`loses_locally`, `local_pass`); passes of one particle are at most E/c (`local_passes`), recoils at most E/Eb (C101); the run ends by the loop measure of `run_ends`. The hypotheses about the volumes are that the material lies within the barrier (`BarrierEncloses`) and that the simulated volume ends with the material (`EndsWithMaterial`); `C127_homogeneous2D` and `C127_mesh2D` discharge them for 2D targets whose simulation polygon lies in the material |
| C128 | `Model/Toml.lean`: every derived `Deserialize` the input file goes through (options, axes, materials, particles, the seven geometries, all enumerations, defaults) | a relational format (`Spec/Toml.lean`); reading = saying, for every document, section by section and for the whole file; composition with `main` (`C128_run`) |
| C129 | `input` in the build with feature `hdf5_input`: rows of the data set, and generation of particles | acceptance characterised by an iff (the tape is untouched: nothing is drawn); C49's balance on it; the flag `use_hdf5` is invisible to the run (definitional); the two builds side by side (MRel), ions equal up to the length of the direction; refutation: indices of the rows unchecked |
| C130 | `physics_loop` with all outputs on a list of inputs; targets `HomogeneousMesh2D` and `Mesh2D` | no function of the outputs or of the loop uses fuel (`Ends`, closed under the program's constructions); C127/C125 for every ion, with the largest of the bounds; for the statements with probability one the streams of the ions are a product measure (`randomTapes`), almost all of whose members satisfy the conditions of C125 for every ion; `C130_from_input`: the conditions on the homogeneous 2D target read off the input, by invariance of `Geo.polygon_contains` under change of units; `cut_out_mesh_of_input`: the same for targets of triangles, by `C99_built_mesh` (cells and boundary as `Mesh2D::new` builds them) |

## Findings: where the code does not do what is documented or expected

Each is backed by a theorem (in brackets) unless marked *read*, which means observed while modelling.

1. **Recoil position** [C15_refuted]: the z component of the recoil's offset in `choose_collision_partner`
   has the wrong sign, so the recoil is not at the impact parameter from the path (and the model is not
   symmetric about the surface normal).
2. **Backward steps create energy** [EnergyExample.C72_backwards_refuted]: the distance travelled is
   `mfp + old τ − new τ`, which can be negative (first step `mfp·random`, GASEOUS, several weak
   collisions); the particle moves backwards and nonlocal stopping of a negative distance adds energy.
3. **Leaving for free** [C31_leaving_free_refuted]: a particle crossing the barrier outwards whose
   direction points back pays no surface binding energy; on re-entering it gains Es.
4. **Turned round when entering** [C62_refuted]: a particle that crosses barrier and surface in one step
   is refracted with the normal pointing the wrong way.
5. **Old direction after refraction** [C61_refuted]: `surface_refraction` and reflection change `dir` but
   not `dir_old`, along which the next step moves.
6. **Correction factor twice** [C17_refuted, C34_refuted]: `ck` multiplies the electronic loss in the
   free-flight-path limit although INTERPOLATED cross sections contain it, and INTERPOLATED divides by
   `ck` where the low-energy modes multiply.
7. **THRESHOLD** [C75_threshold_ignored, C75_refuted] has no effect without free-flight paths.
8. **TRIMESH larger than 1 m** [C77_one_metre, ParryExample.C77_refuted]: the containment ray has length 1.0.
9. **Turning points** [C23_refuted_four_eight, C23_refuted_morse_derivative]: `doca_four_eight` does not
   match the potential `four_eight`; `diff_doca_morse` is not the derivative of `doca_morse`
   (`diff_doca_function_transformed` is wrong too but unused: C23_refuted_singularity_free_derivative).
10. **Accepted but impossible** [InputExample.C43_refuted]: WW, KRC_MORSE and FOUR_EIGHT are accepted with
    Newton root finders, for which no derivative exists: every collision panics.
11. **Interaction indices** [C64_refuted]: a list with one index is silently replaced by zeros.
12. **Front surface of layered targets** [C63_refuted]: at exactly x = 0 the last layer answers.
13. **AVERAGE surface binding** [C29_refuted] tests the sum of the species' energies, not the average.
14. **energy_loss.output** [RunExample.C53_refuted] is never flushed with the other list files.
15. **Histograms** [C55_refuted]: implantation and energy-loss profiles truncate toward zero, so the cell
    below the axis is counted in cell 0 (the energy-angle histograms use floor).
16. **drop_* functions** [C60_wrong_layouts] deallocate with the number of elements as size in bytes.
17. **Gimbal lock** [C56_gimbal_lock]: rotating by a surface normal can give exactly (1,0,0) in spite of
    the 1e-9 offset. Yields at glancing angles can fail the direction assertion (*read*).
18. **simple_compound_bca** [C59_compound_second_species] panics as soon as an atom of the second species
    is hit: `interaction_index` has one entry.
19. **Start positions** [C68_start_positions]: list functions start ions inside the energy barrier
    (`10E30` is 1e31), the yield functions at its edge.
20. **Deep recoils** [C80_collision, C80_deep_recoil_energy_ignored]: with `suppress_deep_recoils` the range
    estimate uses the projectile's energy after the collision, not the recoil's: after a head-on collision
    between equals, which hands over all the energy, the estimate is nearly 0 and the energetic recoil is
    dropped unless it is at the very surface.
21. **Local loss without collision** [C82_local_loss_without_collision]: with LOW_ENERGY_LOCAL (or
    EQUIPARTITION) a pass in which no collision takes place still charges an Oen-Robinson loss if it ends
    inside the material, as for a head-on collision with an atom of charge 0.
22. **Azimuthal symmetry of recoil positions** [C85_recoil_places_refuted]: because of the sign slip of finding on
    C15 in `recoil_position`, turning the ion about the surface normal does not turn the lateral places at
    which recoils start. Depths, energies, directions and the ion's own positions are turned (C85_azimuth).
23. **MAGIC constants** [C86_constants_exchanged, C86_refuted_moliere, C86_refuted_zbl]: the last two of the
    five constants for MOLIERE and ZBL are exchanged with respect to Biersack and Haggmark's (and to the code's
    own order for KR_C); scattering angles are up to about 40 % too small.
24. **W-W potential** [C83_tungsten_jump]: the energy jumps up by about 0.26 eV where ZBL ends (1.1 Å), a force
    of the wrong sign at a point.
25. **Ions followed for ever** [C88_refuted_parallel, C88_refuted_simple_bca]: an ion in front of the
    energy barrier that moves parallel to the surface never leaves, stops or collides, so the call never
    returns; such ions are accepted by `Particle::from_input` and `simple_bca` (`ux = 0`).
26. **A compound target can stop the program** [C89_refuted]: in double precision the cumulative
    concentrations may add up to less than 1, e.g. for densities 1 : 4 : 1, and then the largest random
    number below 1 makes `choose` panic (probability 2^-53 per collision).
27. **Gimbal lock after rounding** [C91_refuted_normal, C91_refuted_refraction]: the 1e-9 by which
    `rotate_given_surface_normal` avoids exactly normal incidence is lost in double precision (ux = 1.0
    exactly; confirmed by evaluating the model with hardware doubles: the direction after the first
    collision is NaN), and refraction can turn an accepted direction exactly along x.
28. **Head-on collisions** [C93_refuted_head_on]: a random number equal to 0 makes the impact parameter 0, and
    then, up to reduced energy 5, Newton's method starts at 0/0 and the program stops (probability 2^-53 per
    collision).
29. **Many Gauss-Mehler points** [C93_refuted_gauss_mehler]: Newton's method stops before the turning
    point, so for every collision a large enough `n_points` puts a node where the integrand is complex, and
    the program stops; up to 12 points are always safe [C93_collision_partial].
30. **MAGIC for fast, distant collisions** [C93_refuted_magic]: above reduced energy 1000 Newton's first step is
    its last and, at large impact parameters, ends below the impact parameter; MAGIC takes the arc cosine of a
    number above 1 and the collision fails with "CoM deflection angle is NaN".
31. *read*: `default_incident` does not convert `energy_origin` to joules; `simple_bca` does not
    normalise the direction; tagged positions are read raw but divided by Å on output;
    `default_options` with feature `distributions` puts `track_recoils` into `track_trajectories`;
    `compound_bca_list_1D_py` checks only the first layer's list of densities; screened potentials always
    use NEWTON{100, 1e-6} whatever root finder is chosen; MENDENHALL_WELLER/MAGIC with an unscreened
    potential panics at run time although `input` accepts it; histograms with fewer than two grid points
    panic; lengths of the lists Ec, N, Es (and Ed, interaction_index beyond one entry) are not checked;
    the number of chunks can exceed `num_chunks`; the i32 event counters wrap at 2^31.
32. *read and proof hypotheses* (C95, C96): a particle that enters or leaves the energy barrier and lands
    exactly on the closest surface point divides by zero in `surface_binding_energy`; `INTERPOLATED`
    stopping at energy 0 with correction factor 0 is 0/0; with `weak_collision_order` > 0 a head-on first
    collision between equal masses leaves energy 0 for the next collision's root finder; a GASEOUS free path
    is infinite when the random number is 0.
33. *proved* (C99_closest_point, C99_entry_homogeneous, C99_entry_mesh): for a place inside the material the
    2D geometries return the place itself as the nearest surface point (`Closest::Intersection`), so a particle
    whose step takes it from outside the energy barrier directly into the material — a free path longer than the
    barrier (GASEOUS, or a `MESH2D` barrier thickness chosen smaller than the spacing) — is refracted at the
    surface normal 0/0: its direction, and with it every later position, is NaN. With a barrier
    thicker than the step, particles land in the barrier first and are refracted correctly.
34. *proved* (C104_refuted_hdf5): in a build with feature `hdf5_input` (input.rs:586-600) a direction component
    drawn from a distribution is multiplied by the length unit while a fixed one is not; mixing them gives
    directions that depend on the length unit (with ANGSTROM, every ion is refused as gimbal-locked).
    In the default build both are multiplied, which normalisation undoes (C104_one_ion).
35. *proved* (C105_refuted_sputtering): in a build with feature `distributions` the library's
    `default_options(track_recoils)` sets `track_trajectories: track_recoils, track_recoils: false`
    (input.rs:341-342), so no library call follows recoils and `sputtering_yield` returns 0 for every
    ion, target, energy and angle.
36. *proved* (C106_refuted_origin): `Particle::default_incident` sets `energy_origin` to the number of
    electronvolts without converting it to joules (particle.rs:195); nothing in the library reads it.
37. *proved* (C108_refuted): for two masses that differ in their last binary digit (2^53 - 1 and 2^53 - 2 in
    some unit) the computed factor 4 Ma Mb/(Ma + Mb)^2 is 1 + 2^-52: a head-on collision leaves the
    moving particle an energy of -2^-52 of what it had. Equal masses are safe, as are masses at least
    one part in 2^25 of their sum apart.
38. *proved* (DiskExample.C111_input_overwritten): output files are opened with truncation and without a
    check, so a build with distributions started from an input file called name + `distributions.toml`
    (name being the name given in that file) overwrites its own input.
39. *proved* (RelistedExample.C112_refuted_average): with the AVERAGE surface binding model the sum of the table
    of surface binding energies is compared with zero without weighting, so adding a species of which there
    is none to the input can change the surface binding energy from 0 to half the particle's own.
40. *proved* (C108_refuted_surface): in double precision the cosine with a surface normal that is not along a
    coordinate axis can come out as -1 - 2^-52 although the direction has just been normalised; a particle whose
    energy is one unit in the last place below its surface binding energy then passes the escape test and
    leaves with a negative energy (clamping the cosine to 1 would prevent it).
41. *proved* (C118_refuted_interpolated): with INTERPOLATED electronic stopping the correction factor multiplies
    1/S_low (material.rs:303, `1./S_low*ck`), so a larger correction factor always means a smaller electronic
    energy loss, and the other modes go the other way.
42. *proved* (C123_schedule_matters): `reflection_coefficient` adds the energies of the reflected ions in the order
    in which the threads get the lock, and addition of doubles is not associative: with the same random numbers
    the energy coefficient can still differ between two runs (in the last digits; counts cannot).
43. *proved* (C124_refuted_huge, C124_refuted_infinite, C124_stuck): a direction with a component beyond 2^512 (or
    infinite) is accepted; the ion then has the direction (0, 0, 0) (or (0, NaN, 0)) and does not move.
44. *proved* (C126_negative, C126_null): `compound_bca_list_fortran` converts its counts with `as usize`, so a negative
    count is a slice of more than 2^63 elements (undefined behaviour rather than an error); a null pointer is
    undefined behaviour even for an array of length zero.  The array it returns cannot be freed through the
    interface at all (there is no drop function for rows of six numbers).
45. *proved* (C128_unknown_key_ignored): no structure has `deny_unknown_fields`, so a misspelt optional key
    (`track_recoil = false`) is ignored without a word and the default is simulated.
46. *proved* (C128_hdf5_needs_filename): built with feature `hdf5_input` the program refuses every input file without
    `particle_input_filename`, including those with `use_hdf5 = false` (the field has no default).
47. *proved* (C129_refuted_indices): the interaction indices of ions read from an HDF5 file are not compared with the
    size of the interaction matrix; an index beyond it passes the checks (C42 does not hold of that build) and the
    run panics at the first collision.
48. *proved* (C129_weight_without_effect): the columns `weight` and `tag`, which every row of the HDF5 file must
    have, have no effect: an ion of weight 0 or 100 counts as one.
