import Verif.Props.Cascade
import Mathlib.Tactic.NormNum
import Mathlib.Tactic.Linarith

/-!
# A run of `single_ion_bca` that returns an ion and one recoil

Non-vacuity of C01-C10: over the reals, an ion of energy 1 flying along z hits a target atom of
equal mass head-on in a slab `z < 1/2`, hands over all its energy (a quarter of which frees the atom), and both leave.
-/

namespace RustBCA.CascadeExample
open Scalar

/-- A slab `z < 1/2` of density 1; everything is inside the energy barrier, and every point counts
as beyond the simulation boundary, so particles leave after one pass. -/
noncomputable def geom : Geom ℝ where
  get_densities _ _ _ := .ok [1]
  get_ck _ _ _ := .ok 1
  get_total_density _ _ _ := .ok 1
  get_concentrations _ _ _ := .ok [1]
  inside _ _ z := .ok (z <. 0.5)
  inside_simulation_boundary _ _ _ := .ok false
  inside_energy_barrier _ _ _ := .ok true
  closest_point x y _ := .ok (x, y, 0.5)

noncomputable def mat : Material ℝ where
  m := [1]
  Z := [1]
  Eb := [1/4]
  Es := [0]
  Ec := [1/2]
  Ed := [0]
  interaction_index := [0]
  geometry := geom
  surface_binding_model := .AVERAGE
  bulk_binding_model := .INDIVIDUAL

noncomputable def options : Options ℝ :=
  { Options.default_options true with
    interaction_potential := [[.COULOMB 1 1]]
    scattering_integral := [[.GAUSS_LEGENDRE]]
    track_energy_losses := true }

noncomputable def ion : Particle ℝ where
  m := 1
  Z := 1
  E := 1
  Ec := 1/2
  Es := 0
  Ed := 0
  pos := ⟨0, 0, 0⟩
  dir := ⟨0, 0, 1⟩
  pos_old := ⟨0, 0, 0⟩
  dir_old := ⟨0, 0, 1⟩
  pos_origin := ⟨0, 0, 0⟩
  energy_origin := 1
  asymptotic_deflection := 0
  stopped := false
  left := false
  incident := true
  first_step := true
  trajectory := []
  energies := []
  track_trajectories := true
  number_collision_events := 0
  backreflected := false
  interaction_index := 0
  weight := 1
  tag := 7
  tracked_vector := ⟨1, 2, 3⟩

noncomputable def rcpr : Rcpr ℝ := ⟨false, fun _ _ => .error "", fun _ _ _ _ _ => .ok (.error ""),
  fun _ _ _ _ _ _ => .ok (.error "")⟩

/-- All random numbers are 0: a head-on collision. -/
noncomputable def zeros : Tape ℝ := fun _ => 0

/-- The collision geometry of a pass with all random numbers zero. -/
theorem geometry_zero (p : Particle ℝ) : Sat (determine_mfp_phi_impact_parameter p mat options) zeros
    (fun r s => r = ({ p with first_step := false },
      [⟨0, 0, if p.first_step then 0 else 1⟩]) ∧ s = zeros) (fun _ => False) := by
  obtain ⟨fs, hfs⟩ : ∃ fs, fs = p.first_step := ⟨_, rfl⟩
  cases fs <;>
  simp [Sat, determine_mfp_phi_impact_parameter, draw_phis, collectN, Material.mfp,
    Material.total_number_density, mat, geom, options, Options.default_options, fsum, random, zeros,
    bind, StateT.bind, Except.bind, pure, StateT.pure, Except.pure, liftM, monadLift,
    MonadLift.monadLift, StateT.lift, MeanFreePathModel.isGaseous, ← hfs, Functor.map, Except.map]
  · refine ⟨⟨?_, by norm_num⟩, rfl⟩
    cases p; simp_all
  · rfl

/-- With all-zero random numbers the partner sits straight ahead, at rest. -/
theorem partner_zero (p : Particle ℝ) (g : BinaryCollisionGeometry ℝ) (hg : g.impact_parameter = 0)
    (hd : p.dir = ⟨0, 0, 1⟩) (hp : p.pos = ⟨0, 0, 0⟩) :
    Sat (choose_collision_partner p mat g options) zeros
    (fun r s => r.1 = 0 ∧ r.2.first_step = false ∧ r.2.m = 1 ∧ r.2.Z = 1 ∧ r.2.Ec = 1/2 ∧ r.2.interaction_index = 0 ∧
      r.2.dir = ⟨0, 0, 1⟩ ∧ r.2.pos = ⟨0, 0, g.mfp⟩ ∧ s = zeros)
      (fun _ => False) := by
  unfold choose_collision_partner Material.choose
  simp [Material.get_cumulative_concentrations, mat, geom, Material.cumulative,
    Material.choose_index, Material.species, vget, zeros, recoil_position, Particle.new, hd, hp, hg]
  norm_num
  rfl

/-- The head-on collision: the recoil gets the whole energy and flies straight on. -/
theorem collision_zero (p q : Particle ℝ) (h1 : p.m = 1) (h3 : p.E = 1)
    (h4 : p.interaction_index = 0) (h5 : q.m = 1)
    (h7 : q.interaction_index = 0) :
    RSat (calculate_binary_collision rcpr p q ⟨0, 0, 0⟩ options)
      (fun r => ∃ b, r = .ok b ∧ b.recoil_energy = 1 ∧ b.psi_recoil = 0) (fun _ => False) := by
  simp [calculate_binary_collision, distance_of_closest_approach, options, vget, h1, h3, h4, h5,
    h7, scattering_angle, gauss_legendre, scattering_integral_gauss_legendre, quadrature, gl_nodes,
    forFold, scattering_function_gl, unwrapA, interaction_potential, collision_result]
  norm_num
  rw [Complex.arg_eq_zero_iff]
  norm_num

theorem subtract_ok (p : Particle ℝ) (h : p.interaction_index = 0) (d x0 Z : ℝ) :
    RSat (subtract_electronic_stopping_energy p mat d x0 Z 0 options) (fun _ => True)
      (fun _ => False) := by
  unfold subtract_electronic_stopping_energy
  by_cases hz : p.pos.z < 0.5
  · simp [Material.inside, mat, geom, hz, vget, h, options, Options.default_options,
      Material.electronic_stopping_cross_sections, Material.electronic_stopping_correction_factor,
      Material.number_densities]
  · simp [Material.inside, mat, geom, hz]

theorem boundary_ok (p : Particle ℝ) : RSat (boundary_condition_planar p mat)
    (fun q => q.left = true ∧ q.interaction_index = p.interaction_index) (fun _ => False) := by
  simp [boundary_condition_planar, Material.inside_simulation_boundary,
      Material.inside_energy_barrier, mat, geom]

theorem finish_ok (g : BinaryCollisionGeometry ℝ) (s : StepState ℝ)
    (h : s.particle_1.interaction_index = 0) (hi : s.strong_collision_index = 0) :
    RSat (finish_step mat options [g] s) (fun r => r.2 = s.particles ∧ r.1.left = true)
      (fun _ => False) := by
  unfold finish_step
  simp only [vget, List.getElem?_cons_zero, rsat_bind, rsat_ok]
  generalize hp : s.particle_1.advance g.mfp s.total_asymptotic_deflection = pd
  obtain ⟨p, d⟩ := pd
  have hpi : p.interaction_index = 0 := by
    rw [← h, ← Particle.advance_interaction_index s.particle_1 g.mfp s.total_asymptotic_deflection, hp]
  rw [hi]
  refine rsat_mono (subtract_ok p hpi _ _ _) (fun r _ => ?_) (fun _ h => h)
  refine rsat_mono (boundary_ok _) (fun q hq => ?_) (fun _ h => h)
  exact ⟨rfl, hq.1⟩

/-- The pass of the recoil: no partner inside, so nothing is added to the stack. -/
theorem pass_recoil (p : Particle ℝ) (ps : List (Particle ℝ)) (hd : p.dir = ⟨0, 0, 1⟩)
    (hp : p.pos = ⟨0, 0, 0⟩) (hf : p.first_step = false) (h : p.interaction_index = 0) :
    Sat (trajectory_step rcpr mat options p ps) zeros
      (fun r s => r.2 = ps ∧ r.1.left = true ∧ s = zeros) (fun _ => False) := by
  unfold trajectory_step
  simp only [sat_bind]
  refine sat_mono (geometry_zero p) (fun r s hr => ?_) (fun _ h => h)
  obtain ⟨rfl, rfl⟩ := hr
  simp only [hf]
  have ho : options.weak_collision_order = 0 := rfl
  simp only [ho, List.zipIdx_cons, List.zipIdx_nil, List.take_succ_cons, List.take_zero, forFold,
    sat_bind, sat_pure, collision_step, Bool.false_eq_true, if_false]
  refine sat_mono (partner_zero _ ⟨0, 0, 1⟩ rfl hd hp) (fun r s hr => ?_) (fun _ h => h)
  obtain ⟨h1, _, _, _, _, _, _, h7, rfl⟩ := hr
  have : ¬ ((1 : ℝ) < 0.5) := by norm_num
  simp only [Material.inside, Material.inside_energy_barrier, mat, geom, h7, sat_lift, rsat_ok,
    show ((1 : ℝ) <. 0.5) = false by simp; norm_num, Bool.false_and, Bool.false_eq_true, if_false,
    sat_pure]
  exact rsat_mono (finish_ok _ _ h rfl) (fun r hr => ⟨hr.1, hr.2, trivial⟩) (fun _ h => h)

theorem apply_zero (s : StepState ℝ) (q : Particle ℝ) (r : BinaryCollisionResult ℝ)
    (hr1 : r.recoil_energy = 1) (hr2 : r.psi_recoil = 0) (h4 : q.Ec = 1/2)
    (h6 : q.dir = ⟨0, 0, 1⟩) :
    RSat (apply_collision mat options 0 ⟨0, 0, 0⟩ 0 q r s)
      (fun s' => s'.particle_1.interaction_index = s.particle_1.interaction_index ∧
        s'.strong_collision_index = 0 ∧ ∃ q', s'.particles = s.particles ++ [q'] ∧
        q'.dir = ⟨0, 0, 1⟩ ∧ q'.pos = q.pos ∧ q'.first_step = q.first_step ∧
        q'.interaction_index = q.interaction_index ∧ q'.stopped = q.stopped ∧ q'.left = q.left)
      (fun _ => False) := by
  unfold apply_collision
  have hd : ((Particle.rotated_dir (⟨0, 0, 1⟩ : Vec3 ℝ) (-0) 0).normalize) = ⟨0, 0, 1⟩ := by
    simp [Particle.rotated_dir, Vec3.normalize, Vec3.magnitude]
  have hE : RSat (mat.average_bulk_binding_energy q.pos.x q.pos.y q.pos.z) (fun e => e = 1/4)
      (fun _ => False) := by
    simp [Material.average_bulk_binding_energy, mat, geom, Material.weighted_sum, fsum]
    norm_num
  simp only [rsat_bind]
  refine rsat_mono hE (fun e he => ?_) (fun _ h => h)
  subst he
  have ho1 : options.track_recoils = true := rfl
  have ho2 : options.suppress_deep_recoils = false := rfl
  have hc : ((1 : ℝ) - 1/4 >. 1/2) = true := by simp; norm_num
  simp only [keep_recoil, ho1, ho2, Bool.and_false, Bool.false_eq_true, if_false, rsat_pure,
    Particle.rotate, hr1, hr2, h4, h6, hc, Bool.and_self, if_true, hd, beq_self_eq_true]
  refine ⟨?_, trivial, _, rfl, rfl, rfl, rfl, rfl, rfl, rfl⟩
  split <;> rfl

/-- The pass of the ion: one recoil is added. -/
theorem pass_ion_of (p : Particle ℝ) (hm : p.m = 1) (hE : p.E = 1) (hi : p.interaction_index = 0)
    (hd : p.dir = ⟨0, 0, 1⟩) (hpos : p.pos = ⟨0, 0, 0⟩) (hfs : p.first_step = true) :
    Sat (trajectory_step rcpr mat options p []) zeros
      (fun r s => r.1.left = true ∧ s = zeros ∧ ∃ q, r.2 = [q] ∧ q.dir = ⟨0, 0, 1⟩ ∧
        q.pos = ⟨0, 0, 0⟩ ∧ q.first_step = false ∧ q.interaction_index = 0 ∧ q.stopped = false ∧
        q.left = false)
      (fun _ => False) := by
  unfold trajectory_step
  simp only [sat_bind]
  refine sat_mono (geometry_zero p) (fun r s hr => ?_) (fun _ h => h)
  obtain ⟨rfl, rfl⟩ := hr
  have ho : options.weak_collision_order = 0 := rfl
  simp only [ho, hfs, List.zipIdx_cons, List.zipIdx_nil, List.take_succ_cons, List.take_zero,
    forFold, sat_bind, sat_pure, collision_step, if_true]
  have hp := sat_and (partner_zero { p with first_step := false } ⟨0, 0, 0⟩ rfl hd hpos)
    (partner_sat { p with first_step := false } mat ⟨0, 0, 0⟩ options zeros)
  refine sat_mono hp (fun r s hr => ?_) (fun _ h => h.1)
  clear hp
  obtain ⟨⟨h1, hfsq, h2, h3, h4, h5, h6, h7, rfl⟩, hP⟩ := hr
  obtain ⟨si, q⟩ := r
  simp only at h1 h2 h3 h4 h5 h6 h7 hP hfsq
  have hin : mat.geometry.inside q.pos.x q.pos.y q.pos.z = .ok true := by
    simp only [mat, geom, h7, show ((0 : ℝ) <. 0.5) = true by simp; norm_num]
  have hb : mat.geometry.inside_energy_barrier p.pos.x p.pos.y p.pos.z = .ok true := rfl
  simp only [Material.inside, Material.inside_energy_barrier, sat_lift, hin, hb, rsat_ok,
    Bool.and_self, if_true, sat_bind]
  refine rsat_mono (collision_zero _ q hm hE hi h2 h5) (fun r hr => ?_) (fun _ h => h)
  obtain ⟨b, rfl, hb1, hb2⟩ := hr
  simp only [unwrapA, rsat_ok]
  rw [h1]
  refine rsat_mono (apply_zero _ q b hb1 hb2 h4 h6) (fun s' hs' => ?_) (fun _ h => h)
  obtain ⟨g1, g2, q', g3, g4, g5, g6, g7, g8, g9⟩ := hs'
  refine rsat_mono (finish_ok _ s' (g1.trans hi) g2) (fun r hr => ?_) (fun _ h => h)
  exact ⟨hr.2, trivial, q', by rw [hr.1, g3]; rfl, g4, by rw [g5, h7], by rw [g6, hfsq],
    by rw [g7, h5], by rw [g8, hP.stopped], by rw [g9, hP.left]⟩

/-- **Non-vacuity of C01-C10.** This run returns two particles: the ion and one recoil. -/
theorem run_ok_of (p : Particle ℝ) (hm : p.m = 1) (hE : p.E = 1) (hi : p.interaction_index = 0)
    (hd : p.dir = ⟨0, 0, 1⟩) (hpos : p.pos = ⟨0, 0, 0⟩) (hfs : p.first_step = true)
    (hst : p.stopped = false) (hle : p.left = false) :
    Sat (single_ion_bca rcpr 3 p mat options) zeros
    (fun out _ => out.length = 2) (fun _ => False) := by
  simp only [single_ion_bca, whileFuel, sat_bind, cascade_body, popLast, Nat.lt_one_iff,
    List.getLast?_singleton, List.dropLast_singleton, decide_true, Nat.zero_lt_one, if_true,
    sat_lift, rsat_ok]
  have hrun : TrajState.running (⟨p, [], 1⟩ : TrajState ℝ) = true := by
    simp [TrajState.running, hst, hle]
  simp only [hrun, if_true, traj_body, sat_bind]
  refine sat_mono (pass_ion_of p hm hE hi hd hpos hfs) (fun r s hr => ?_) (fun _ h => h)
  obtain ⟨hl, rfl, q, hq, g1, g2, g3, g4, g5, g6⟩ := hr
  obtain ⟨p1, ps⟩ := r
  simp only at hl hq
  subst hq
  have hstop : ∀ ps i, TrajState.running (⟨p1, ps, i⟩ : TrajState ℝ) = false := by
    intro ps i; simp [TrajState.running, hl]
  have hrq : ∀ ps i, TrajState.running (⟨q, ps, i⟩ : TrajState ℝ) = true := by
    intro ps i; simp [TrajState.running, g5, g6]
  simp only [sat_pure, hstop, Bool.false_eq_true, if_false, List.length_singleton,
    Nat.zero_lt_one, decide_true, if_true, sat_bind, List.getLast?_singleton, sat_lift, rsat_ok,
    List.dropLast_singleton, hrq]
  refine sat_mono (pass_recoil q [] g1 g2 g3 g4) (fun r s hr => ?_) (fun _ h => h)
  obtain ⟨p2, ps⟩ := r
  obtain ⟨h1, h2, rfl⟩ := hr
  simp only at h1 h2
  subst h1
  have hstop2 : ∀ ps i, TrajState.running (⟨p2, ps, i⟩ : TrajState ℝ) = false := by
    intro ps i; simp [TrajState.running, h2]
  simp [hstop2]

theorem run_ok : Sat (single_ion_bca rcpr 3 ion mat options) zeros
    (fun out _ => out.length = 2) (fun _ => False) :=
  run_ok_of ion rfl rfl rfl rfl rfl rfl rfl rfl

/-- The run above as an equation, meeting the hypotheses of every theorem of C01-C10. -/
theorem run : ∃ out tape', single_ion_bca rcpr 3 ion mat options zeros = .ok (out, tape') ∧
    out.length = 2 ∧ ion.stopped = false ∧ ion.left = false := by
  have h := run_ok
  unfold Sat at h
  cases hr : single_ion_bca rcpr 3 ion mat options zeros with
  | ok r => rw [hr] at h; exact ⟨r.1, r.2, rfl, h, rfl, rfl⟩
  | error e => rw [hr] at h; exact absurd h id

/-- For instance C04 and C05 speak about an existing recoil here. -/
example : ∃ out : List (Particle ℝ), ∃ q ∈ out.tail, (∃ i, IsSpecies mat i q) ∧ q.tag = 7 ∧
    (q.energy_origin >. q.Ec) = true := by
  obtain ⟨out, t, hr, hlen, hs, hl⟩ := run
  match out, hlen with
  | [a, b], _ =>
    have h4 := C04_recoils_are_target_atoms rcpr mat options 3 ion zeros t [a, b] hs hl hr b (by simp)
    have h5 := C05_recoils_start_inside rcpr mat options 3 ion zeros t [a, b] hs hl hr b (by simp)
    exact ⟨[a, b], b, by simp, h4.1, h4.2.2.1, h5.2⟩

end RustBCA.CascadeExample
