import Verif.Props.Energy
import Verif.Examples.Cascade
import Verif.Spec.Polynomial
import Verif.Props.Stopping

/-! # C71-C74: a run that meets the hypotheses, and the run that refutes C72 in general -/

set_option linter.unusedSimpArgs false
set_option linter.unusedVariables false

namespace RustBCA.EnergyExample
open Scalar Spec

theorem target_sound : SoundTarget CascadeExample.mat where
  m := by simp [CascadeExample.mat]
  Z := by simp [CascadeExample.mat]
  Ec := by simp [CascadeExample.mat]
  Es := by simp [CascadeExample.mat]
  Eb := by simp [CascadeExample.mat]
  concentrations := by
    intro x y z cs h
    have : [(1:ℝ)] = cs := by injection h
    subst this; simp
  densities := by
    intro x y z cs h
    have : [(1:ℝ)] = cs := by injection h
    subst this; simp
  ck := by
    intro x y z c h
    have : (1:ℝ) = c := by injection h
    subst this; norm_num

theorem ion_sound : SoundParticle CascadeExample.ion where
  m := by simp [CascadeExample.ion]
  Z := by simp [CascadeExample.ion]
  E := by simp [CascadeExample.ion]
  Es := by simp [CascadeExample.ion]
  dir := by simp [CascadeExample.ion, Spec.inner]

theorem zeros_unit : UnitInterval CascadeExample.zeros := fun k => by
  simp [CascadeExample.zeros]

/-- The hypotheses of C71, C72 (Coulomb) and C73 are met by a run with two particles. -/
example : ∃ out t, single_ion_bca CascadeExample.rcpr 3 CascadeExample.ion CascadeExample.mat
      CascadeExample.options CascadeExample.zeros = .ok (out, t) ∧ out.length = 2 ∧
    (∀ q ∈ out, 0 ≤ q.E ∧ 0 < q.m ∧ Spec.inner q.dir q.dir ≤ 1) ∧ totalEnergy out ≤ 1 ∧
    ∃ q recs, out[0]? = some q ∧ q.energies = [] ++ recs ∧ 1 - q.E ≤ recordedLoss recs := by
  obtain ⟨out, t, h, hlen, hs, hl⟩ := CascadeExample.run
  have hfree : NoSurfaceBinding CascadeExample.mat CascadeExample.ion := by
    constructor
    · rfl
    · simp [CascadeExample.mat]
  refine ⟨out, t, h, hlen,
    C71_energies_and_directions _ _ _ _ _ _ _ _ target_sound ion_sound h,
    C72_coulomb _ _ _ _ _ _ _ _ target_sound ion_sound hfree ?_ rfl zeros_unit rfl h, ?_⟩
  · intro row hrow V hV
    simp only [CascadeExample.options, List.mem_singleton] at hrow
    subst hrow
    exact ⟨1, 1, by simpa using hV⟩
  · obtain ⟨q, recs, h1, h2, h3, _⟩ := C73_records_account_for_the_loss _ _ _ _ _ _ _ _
      target_sound ion_sound rfl rfl hfree h hs hl
    exact ⟨q, recs, h1, h2, h3⟩

/-- C74: the run above used up a number of random numbers and left the rest. -/
example : ∃ out t k, single_ion_bca CascadeExample.rcpr 3 CascadeExample.ion CascadeExample.mat
      CascadeExample.options CascadeExample.zeros = .ok (out, t) ∧ out.length = 2 ∧
    t = after k CascadeExample.zeros ∧
    single_ion_bca CascadeExample.rcpr 4 CascadeExample.ion CascadeExample.mat
      CascadeExample.options CascadeExample.zeros = .ok (out, t) := by
  obtain ⟨out, t, h, hlen, _, _⟩ := CascadeExample.run
  obtain ⟨k, hk, _⟩ := C74_stream _ _ _ _ _ _ _ _ h
  refine ⟨out, t, k, h, hlen, hk, ?_⟩
  rw [C74_fuel _ 3 4 _ _ _ _ (by omega) (by rw [h]; intro hh; cases hh), h]

/-! ## A head-on collision at the start of the first step: the ion goes backwards and gains energy -/

/-- The Lindhard-Scharff cross section of the ion after the collision. -/
noncomputable def S : ℝ := Material.S_low (1/9) 1 1 1

theorem S_pos : 0 < S := S_low_pos (by norm_num) one_pos one_pos one_pos

/-- A slab `z < 1/2` with `4/S` atoms per unit volume. -/
noncomputable def geom : Geom ℝ where
  get_densities _ _ _ := .ok [4/S]
  get_ck _ _ _ := .ok 1
  get_total_density _ _ _ := .ok (4/S)
  get_concentrations _ _ _ := .ok [1]
  inside _ _ z := .ok (z <. 0.5)
  inside_simulation_boundary _ _ _ := .ok false
  inside_energy_barrier _ _ _ := .ok true
  closest_point x y _ := .ok (x, y, 0.5)

/-- Target atoms twice as heavy as the ion; nothing is bound. -/
noncomputable def mat : Material ℝ :=
  { CascadeExample.mat with
    m := [2]
    geometry := geom }

noncomputable def options : Options ℝ :=
  { Options.default_options false with
    interaction_potential := [[.LENNARD_JONES_12_6 1 (1/24192)]]
    scattering_integral := [[.GAUSS_LEGENDRE]]
    root_finder := [[.POLYNOMIAL 0]]
    electronic_stopping_mode := .LOW_ENERGY_NONLOCAL }

/-- The polynomial solver; its answer 1/4 is the largest root of the polynomial it is asked about
(`rcpr_right`). -/
noncomputable def rcpr : Rcpr ℝ := ⟨true, fun _ _ => .ok [1/4],
  fun _ _ _ _ _ => .ok (.error ""), fun _ _ _ _ _ _ => .ok (.error "")⟩

theorem EV_pos : 0 < EV ℝ := by unfold EV Q; norm_num

theorem coefficients : polynomial_coefficients (1*2/(1+2) : ℝ) 0
    (.LENNARD_JONES_12_6 1 (1/24192)) = .ok [1, 0, 0, 1/4032, 0, 0, -1/4032] := by
  unfold polynomial_coefficients
  have he : EV ℝ ≠ 0 := EV_pos.ne'
  simp only [powf_real, powi_real, Real.one_rpow]
  congr 1
  simp only [List.cons.injEq, and_true]
  refine ⟨by norm_num, by simp, by norm_num, ?_, by norm_num, by norm_num, ?_⟩
  · have h4 : (4.0:ℝ) = 4 := by norm_num
    rw [h4]; field_simp; norm_num
  · have h4 : (-4.0:ℝ) = -4 := by norm_num
    rw [h4]; field_simp; norm_num

/-- The answer of the polynomial solver is right: 1/4 is the largest real root. -/
theorem rcpr_right : IsGreatest {x : ℝ | polyValue [1, 0, 0, 1/4032, 0, 0, -1/4032] x = 0} (1/4) := by
  constructor
  · simp only [Set.mem_setOf_eq, polyValue, List.length_cons, List.length_nil]; norm_num
  · intro x hx
    simp only [Set.mem_setOf_eq, polyValue, List.length_cons, List.length_nil] at hx
    by_contra h
    push Not at h
    have h3 : (1/4:ℝ)^3 < x^3 := by gcongr
    have h6 : (1/4:ℝ)^6 < x^6 := by gcongr
    norm_num at h3 h6 hx
    nlinarith

theorem a_pos : (screening_length 1 1 (.LENNARD_JONES_12_6 1 (1/24192)) : ℝ) ≠ 0 := by
  unfold screening_length
  simp only [powf_real, sqrt_real]
  have : 0 < A0 ℝ := by unfold A0; norm_num
  have h2 : (0:ℝ) < (Real.sqrt 1 + Real.sqrt 1) := by simp
  have := Real.rpow_pos_of_pos h2 (-2.0/3.0 : ℝ)
  have : (0:ℝ) < 0.8853 := by norm_num
  positivity

/-- The head-on collision: the recoil takes 8/9 of the energy and the asymptotes shift by 1/2. -/
theorem collision (p q : Particle ℝ) (h1 : p.m = 1) (hZ : p.Z = 1) (h3 : p.E = 1)
    (h4 : p.interaction_index = 0) (h5 : q.m = 2) (h6 : q.Z = 1) (h7 : q.interaction_index = 0) :
    ∃ b, calculate_binary_collision rcpr p q ⟨0, 0, 0⟩ options = .ok (.ok b) ∧
      b.recoil_energy = 8/9 ∧ b.asymptotic_deflection = 1/2 := by
  have hdoca : distance_of_closest_approach rcpr p q ⟨0, 0, 0⟩ options
      = .ok (1/2/screening_length 1 1 (.LENNARD_JONES_12_6 1 (1/24192))) := by
    unfold distance_of_closest_approach
    simp only [h1, hZ, h3, h4, h5, h6, h7, options, vget, List.getElem?_cons_zero]
    have hi : ((1*2/(1+2) : ℝ) <. energy_threshold_single_root
        (.LENNARD_JONES_12_6 (1:ℝ) (1/24192))) = true := by
      rw [lt_real]
      show (1*2/(1+2) : ℝ) < 10^400
      have h10 : (1:ℝ) ≤ 10^400 := one_le_pow₀ (by norm_num)
      exact lt_of_lt_of_le (by norm_num) h10
    have hp : polynomial_rootfinder rcpr 1 1 1 2 1 0 (.LENNARD_JONES_12_6 (1:ℝ) (1/24192)) 0
        = .ok (.ok (1/2/screening_length 1 1 (.LENNARD_JONES_12_6 1 (1/24192)))) := by
      unfold polynomial_rootfinder
      simp only [coefficients, rcpr, unwrapA, max_root, inverse_transform, bind, Except.bind, pure,
        Except.pure, List.foldl_cons, List.foldl_nil, isNaN_real, Bool.false_eq_true, if_false,
        sqrt_real]
      rw [show (1/4:ℝ) = (1/2)^2 by norm_num, Real.sqrt_sq (by norm_num)]
    simp only [bind, Except.bind, List.getElem?_cons_zero, hi, if_true, show rcpr.enabled = true from rfl, hp, unwrapA]
  have hth : scattering_angle .GAUSS_LEGENDRE 1 1 1 2 1 0
      (1/2/screening_length 1 1 (.LENNARD_JONES_12_6 1 (1/24192)))
      (.LENNARD_JONES_12_6 (1:ℝ) (1/24192)) = .ok Real.pi := by
    simp [scattering_angle, gauss_legendre, scattering_integral_gauss_legendre, quadrature,
      gl_nodes, forFold, scattering_function_gl, unwrapA, interaction_potential, bind, Except.bind,
      pure, Except.pure]
    norm_num
  refine ⟨collision_result 1 2 1 (screening_length 1 1 (.LENNARD_JONES_12_6 1 (1/24192)))
    (1/2/screening_length 1 1 (.LENNARD_JONES_12_6 1 (1/24192))) Real.pi
    (.LENNARD_JONES_12_6 1 (1/24192)), ?_, ?_, ?_⟩
  · unfold calculate_binary_collision
    rw [hdoca]
    simp only [h1, hZ, h3, h4, h5, h6, h7, options, vget, List.getElem?_cons_zero, bind,
      Except.bind, hth, isNaN_real, Bool.false_eq_true, if_false, pure, Except.pure]
  · rw [recoil_energy_eq, Real.cos_pi]; norm_num
  · have h2 : (2.0:ℝ) = 2 := by norm_num
    simp only [collision_result, sin_real, h2, Real.sin_pi_div_two, mul_one]
    exact div_mul_cancel₀ _ a_pos

noncomputable def zeros : Tape ℝ := CascadeExample.zeros

/-- The collision geometry of the first pass with all random numbers zero. -/
theorem geometry_zero (p : Particle ℝ) (hf : p.first_step = true) :
    Sat (determine_mfp_phi_impact_parameter p mat options) zeros
    (fun r s => r = ({ p with first_step := false }, [⟨0, 0, 0⟩]) ∧ s = zeros)
    (fun _ => False) := by
  simp [Sat, determine_mfp_phi_impact_parameter, draw_phis, collectN, Material.mfp,
    Material.total_number_density, mat, geom, options, Options.default_options, fsum, random, zeros,
    CascadeExample.zeros,
    bind, StateT.bind, Except.bind, pure, StateT.pure, Except.pure, liftM, monadLift,
    MonadLift.monadLift, StateT.lift, MeanFreePathModel.isGaseous, hf, Functor.map, Except.map]
  rfl

theorem partner_zero (p : Particle ℝ) (hd : p.dir = ⟨0, 0, 1⟩) (hp : p.pos = ⟨0, 0, 0⟩) :
    Sat (choose_collision_partner p mat ⟨0, 0, 0⟩ options) zeros
    (fun r s => r.1 = 0 ∧ r.2.m = 2 ∧ r.2.Z = 1 ∧ r.2.interaction_index = 0 ∧
      r.2.pos = ⟨0, 0, 0⟩ ∧ s = zeros) (fun _ => False) := by
  unfold choose_collision_partner Material.choose
  simp [Material.get_cumulative_concentrations, mat, geom, CascadeExample.mat, Material.cumulative,
    Material.choose_index, Material.species, vget, zeros, CascadeExample.zeros, recoil_position,
    Particle.new, hd, hp]
  norm_num
  rfl

theorem apply_zero (s : StepState ℝ) (q : Particle ℝ) (r : BinaryCollisionResult ℝ) :
    ∃ s', apply_collision mat options 0 ⟨0, 0, 0⟩ 0 q r s = .ok s' ∧
      s'.particles = s.particles ∧ s'.strong_collision_index = 0 ∧
      s'.total_asymptotic_deflection = s.total_asymptotic_deflection + r.asymptotic_deflection ∧
      ∃ d n, s'.particle_1 = { s.particle_1 with
        E := s.particle_1.E + -r.recoil_energy
        dir := d
        number_collision_events := n } := by
  have hE : mat.average_bulk_binding_energy q.pos.x q.pos.y q.pos.z
      = .ok (Material.weighted_sum [1/4] [1]) := rfl
  have ho : options.track_recoils = false := rfl
  have hk : ∀ p2 q2, keep_recoil p2 q2 mat options = .ok false := by
    intro p2 q2
    unfold keep_recoil
    simp [ho, pure, Except.pure]
  unfold apply_collision
  simp only [hE, hk, bind, Except.bind, pure, Except.pure, beq_self_eq_true, if_true]
  refine ⟨_, rfl, by simp, rfl, rfl, ?_⟩
  simp only [Bool.and_true]
  split
  · exact ⟨_, _, rfl⟩
  · exact ⟨_, _, rfl⟩

/-- The end of the pass: the ion is moved back by 1/2 and gains 2 by negative stopping. -/
theorem finish (s : StepState ℝ) (hm : s.particle_1.m = 1) (hZ : s.particle_1.Z = 1)
    (hE : s.particle_1.E = 1/9) (hi : s.particle_1.interaction_index = 0)
    (hpos : s.particle_1.pos = ⟨0, 0, 0⟩) (hd : s.particle_1.dir_old = ⟨0, 0, 1⟩)
    (ha : s.particle_1.asymptotic_deflection = 0) (hsi : s.strong_collision_index = 0)
    (hτ : s.total_asymptotic_deflection = 1/2) :
    RSat (finish_step mat options [⟨0, 0, 0⟩] s) (fun r => r.2 = s.particles ∧ r.1.left = true ∧
      r.1.E = 1/9 + 2) (fun _ => False) := by
  unfold finish_step
  simp only [vget, List.getElem?_cons_zero, rsat_bind, rsat_ok, hτ, hsi]
  have hA : ∃ p, s.particle_1.advance 0 (1/2) = (p, -(1/2)) ∧ p.E = 1/9 ∧ p.m = 1 ∧ p.Z = 1 ∧
      p.interaction_index = 0 ∧ p.pos = ⟨0, 0, -(1/2)⟩ := by
    obtain ⟨a1, a2, a3, _, _, _, a7, _⟩ := advance_same s.particle_1 0 (1/2)
    refine ⟨_, Prod.ext rfl (by rw [a7, ha]; norm_num), a1.trans hE, a2.trans hm, a3.trans hZ,
      (Particle.advance_interaction_index s.particle_1 0 (1/2)).trans hi, ?_⟩
    unfold Particle.advance
    by_cases h : (s.particle_1.E >. s.particle_1.Ec) = true
    · obtain ⟨l, hl⟩ := utt_same s.particle_1
      simp only [h, if_true, hl, ha, hpos, hd]
      norm_num
    · simp only [h, Bool.false_eq_true, if_false, ha, hpos, hd]
      norm_num
  obtain ⟨p, hp, h1, h2, h3, h4, h5⟩ := hA
  simp only [hp]
  have hS : (mat.electronic_stopping_cross_sections p .LOW_ENERGY_NONLOCAL) = .ok [S] := by
    simp [Material.electronic_stopping_cross_sections,
      Material.electronic_stopping_correction_factor, Material.number_densities, mat, geom,
      CascadeExample.mat, Material.stopping_power, h1, h2, h3, S, bind, Except.bind, pure,
      Except.pure]
  have hsub : ∃ q e, subtract_electronic_stopping_energy p mat (-(1/2))
      s.normalized_distance_of_closest_approach s.strong_collision_Z 0 options = .ok (q, e) ∧
      q.E = 1/9 + 2 := by
    have hb : bragg_sum [S] [4/S] = 4 := by
      unfold bragg_sum
      rw [fsum_real]
      have := S_pos.ne'
      simp
      field_simp
    unfold subtract_electronic_stopping_energy
    have hins : mat.inside p.pos.x p.pos.y p.pos.z = .ok true := by
      simp only [Material.inside, mat, geom, h5]
      congr 1
      rw [lt_real]; norm_num
    have hn : ∀ x y z, mat.number_densities x y z = .ok [4/S] := fun _ _ _ => rfl
    simp only [hins, isNaN_real, rassert, Bool.not_false, if_true, bind, Except.bind, pure,
      Except.pure, h4, options, vget, List.getElem?_cons_zero, hS, hn, hb,
      show mat.interaction_index = [0] from rfl]
    refine ⟨_, _, rfl, ?_⟩
    simp only [h1]
    rw [if_neg]
    · norm_num
    · rw [lt_real]; norm_num
  obtain ⟨q, e, hq, hqE⟩ := hsub
  rw [hq]
  simp only [rsat_ok]
  obtain ⟨⟨l, hl⟩, _⟩ := tracker_same q options s.total_energy_lost_to_recoils e
  rw [hl]
  unfold boundary_condition_planar
  simp only [Material.inside_simulation_boundary, Material.inside_energy_barrier, mat, geom, rsat_bind,
    rsat_ok, Bool.not_false, if_true]
  obtain ⟨l2, hl2⟩ := utt_same { q with energies := l, left := true }
  rw [hl2]
  simp [hqE]

/-- The first pass of the ion. -/
theorem pass (p : Particle ℝ) (hm : p.m = 1) (hZ : p.Z = 1) (hE : p.E = 1)
    (hi : p.interaction_index = 0) (hd : p.dir = ⟨0, 0, 1⟩) (hdo : p.dir_old = ⟨0, 0, 1⟩)
    (hpos : p.pos = ⟨0, 0, 0⟩) (hfs : p.first_step = true) (ha : p.asymptotic_deflection = 0) :
    Sat (trajectory_step rcpr mat options p []) zeros
      (fun r s => r.2 = [] ∧ r.1.left = true ∧ r.1.E = 1/9 + 2) (fun _ => False) := by
  unfold trajectory_step
  simp only [sat_bind]
  refine sat_mono (geometry_zero p hfs) (fun r s hr => ?_) (fun _ h => h)
  obtain ⟨rfl, rfl⟩ := hr
  have ho : options.weak_collision_order = 0 := rfl
  simp only [ho, List.zipIdx_cons, List.zipIdx_nil, List.take_succ_cons, List.take_zero,
    forFold, sat_bind, sat_pure, collision_step]
  refine sat_mono (partner_zero { p with first_step := false } hd hpos) (fun r s hr => ?_)
    (fun _ h => h)
  obtain ⟨si, q⟩ := r
  obtain ⟨h1, h2, h3, h4, h5, rfl⟩ := hr
  simp only at h1 h2 h3 h4 h5
  have hin : mat.geometry.inside q.pos.x q.pos.y q.pos.z = .ok true := by
    simp only [mat, geom, h5, show ((0 : ℝ) <. 0.5) = true by simp; norm_num]
  have hb : mat.geometry.inside_energy_barrier p.pos.x p.pos.y p.pos.z = .ok true := rfl
  simp only [Material.inside, Material.inside_energy_barrier, sat_lift, hin, hb, rsat_ok,
    Bool.and_self, if_true, sat_bind]
  obtain ⟨b, hb1, hb2, hb3⟩ := collision { p with first_step := false } q hm hZ hE hi h2 h3 h4
  simp only [hb1, rsat_ok, unwrapA, h1]
  obtain ⟨s', hs', k1, k2, k3, d, n, k4⟩ :=
    apply_zero ⟨{ p with first_step := false }, [], 0.0, 0.0, 0.0, 0.0, 0⟩ q b
  simp only [hs', rsat_ok]
  refine rsat_mono (finish s' ?_ ?_ ?_ ?_ ?_ ?_ ?_ k2 ?_) (fun r hr => ?_) (fun _ h => h)
  · rw [k4]; exact hm
  · rw [k4]; exact hZ
  · rw [k4]; simp only [hE, hb2]; norm_num
  · rw [k4]; exact hi
  · rw [k4]; exact hpos
  · rw [k4]; exact hdo
  · rw [k4]; exact ha
  · rw [k3, hb3]; norm_num
  · rw [k1] at hr; exact hr

theorem run : ∃ q t, single_ion_bca rcpr 2 CascadeExample.ion mat options zeros = .ok ([q], t) ∧
    q.E = 1/9 + 2 := by
  have h : Sat (single_ion_bca rcpr 2 CascadeExample.ion mat options) zeros
      (fun out _ => ∃ q, out = [q] ∧ q.E = 1/9 + 2) (fun _ => False) := by
    simp only [single_ion_bca, whileFuel, sat_bind, cascade_body, popLast, Nat.lt_one_iff,
      List.getLast?_singleton, List.dropLast_singleton, decide_true, Nat.zero_lt_one, if_true,
      sat_lift, rsat_ok]
    have hrun : TrajState.running (⟨CascadeExample.ion, [], 1⟩ : TrajState ℝ) = true := rfl
    simp only [hrun, if_true, traj_body, sat_bind]
    refine sat_mono (pass CascadeExample.ion rfl rfl rfl rfl rfl rfl rfl rfl rfl)
      (fun r s hr => ?_) (fun _ h => h)
    obtain ⟨p1, ps⟩ := r
    obtain ⟨h1, h2, h3⟩ := hr
    simp only at h1 h2 h3
    subst h1
    have hstop : ∀ ps i, TrajState.running (⟨p1, ps, i⟩ : TrajState ℝ) = false := by
      intro ps i; simp [TrajState.running, h2]
    simp [hstop, h3]
  unfold Sat at h
  cases hr : single_ion_bca rcpr 2 CascadeExample.ion mat options zeros with
  | ok r =>
    rw [hr] at h
    obtain ⟨q, h1, h2⟩ := h
    exact ⟨q, r.2, by rw [← h1], h2⟩
  | error e => rw [hr] at h; exact absurd h id

/-- **C72 is false in general.** In a physically meaningful target without surface binding, with
random numbers in [0, 1) and a right answer of the polynomial solver, an ion of energy 1 ends with
more than twice its energy: the head-on collision at the start of its first step moves it backwards
and the electronic stopping of a negative distance adds energy. -/
theorem C72_backwards_refuted : ∃ (rcpr : Rcpr ℝ) (mat : Material ℝ) (o : Options ℝ) (fuel : Nat)
    (ion : Particle ℝ) (tape tape' : Tape ℝ) (out : List (Particle ℝ)),
    SoundTarget mat ∧ SoundParticle ion ∧ NoSurfaceBinding mat ion ∧ UnitInterval tape ∧
    single_ion_bca rcpr fuel ion mat o tape = .ok (out, tape') ∧ 2*ion.E < totalEnergy out := by
  obtain ⟨q, t, h, hE⟩ := run
  refine ⟨rcpr, mat, options, 2, CascadeExample.ion, zeros, t, [q], ?_, ion_sound, ⟨rfl, ?_⟩,
    zeros_unit, h, ?_⟩
  · constructor
    · simp [mat]
    · simp [mat, CascadeExample.mat]
    · simp [mat, CascadeExample.mat]
    · simp [mat, CascadeExample.mat]
    · simp [mat, CascadeExample.mat]
    · intro x y z cs h
      have : [(1:ℝ)] = cs := by injection h
      subst this; simp
    · intro x y z cs h
      have : [4/S] = cs := by injection h
      subst this
      have := S_pos
      simp only [List.mem_singleton, forall_eq]; positivity
    · intro x y z c h
      have : (1:ℝ) = c := by injection h
      subst this; norm_num
  · simp [mat, CascadeExample.mat]
  · rw [totalEnergy_one, hE]
    show 2*(1:ℝ) < 1/9 + 2
    norm_num

end RustBCA.EnergyExample
