import Verif.Props.Recoils
import Verif.Props.LocalLoss
import Verif.Examples.Energy

/-! # C16, C80-C82 on concrete runs -/

set_option linter.unusedSimpArgs false

namespace RustBCA
open Scalar Spec

namespace RecoilExample
open CascadeExample

/-- C81: the run of `CascadeExample` (an ion and one recoil) as a depth-first cascade. -/
example : ∃ out t', out.length = 2 ∧ Cascades rcpr mat options [ion] zeros out t' := by
  obtain ⟨out, t, hr, hlen, hs, hl⟩ := run
  exact ⟨out, t, hlen, (C81_depth_first rcpr mat options ion zeros t out hs hl).1 ⟨3, hr⟩⟩

/-- C81: the second particle is what `single_ion_bca` returns for the recoil. -/
example : ∃ q recoil out t t', (∃ fuel, single_ion_bca rcpr fuel ion mat options zeros
      = .ok (q :: out, t')) ∧ (∃ fuel, single_ion_bca rcpr fuel recoil mat options t
      = .ok (out, t')) ∧ out.length = 1 := by
  obtain ⟨out, t', hr, hlen, hs, hl⟩ := run
  obtain ⟨q, recoils, t1, outs, hp, hc, rfl⟩ := C81_subcascades rcpr mat options 3 ion zeros t' out
    hs hl hr
  have hlen' : outs.flatten.length = 1 := by simpa using hlen
  generalize hrs : recoils.reverse = rs at hc
  cases hc with
  | nil => simp at hlen'
  | @cons p ps _ o1 t2 outs' _ hrun hrest =>
    cases hrest with
    | nil => exact ⟨q, p, o1, t1, t', ⟨3, by simpa using hr⟩, hrun, by simpa using hlen'⟩
    | @cons p2 ps2 _ o2 t3 outs2 _ hrun2 hrest2 =>
      -- each call returns at least one particle, so there is no second recoil
      exfalso
      have fresh : ∀ r ∈ recoils, r.stopped = false ∧ r.left = false := path_recoils_fresh hp
      have h1 : p ∈ recoils := by
        rw [← List.mem_reverse, hrs]; simp
      have h2 : p2 ∈ recoils := by
        rw [← List.mem_reverse, hrs]; simp
      obtain ⟨f1, g1⟩ := hrun
      obtain ⟨f2, g2⟩ := hrun2
      obtain ⟨a, as, ha, _⟩ := (sat_of_ok (single_ion_bca_sat rcpr mat options f1 p t1
        (fresh p h1).1 (fresh p h1).2) g1).ion_first
      obtain ⟨b, bs, hb, _⟩ := (sat_of_ok (single_ion_bca_sat rcpr mat options f2 p2 t2
        (fresh p2 h2).1 (fresh p2 h2).2) g2).ion_first
      rw [ha, hb] at hlen'
      simp at hlen'

/-- The collision of the ion's first pass, with a recoil that is followed. -/
theorem collision_run : ∃ s s' g k t t', collision_step rcpr mat options s (g, k) t = .ok (s', t') ∧
    s.particles = [] ∧ s'.particles.length = 1 := by
  have h := pass_ion_of ion rfl rfl rfl rfl rfl rfl
  unfold Sat at h
  cases hr : trajectory_step rcpr mat options ion [] zeros with
  | error e => rw [hr] at h; exact absurd h id
  | ok r =>
    obtain ⟨⟨q, qs⟩, t⟩ := r
    rw [hr] at h
    obtain ⟨_, _, q1, hq1, _⟩ := h
    simp only at hq1
    obtain ⟨tr⟩ := sat_of_ok (pass_trace rcpr mat options ion [] zeros) hr
    have hl := tr.hloop
    have hg := sat_of_ok (geometry_zero ion) tr.hmfp
    obtain ⟨hg, ht⟩ := hg
    injection hg with hg1 hg2
    rw [hg2] at hl
    have ho : options.weak_collision_order = 0 := rfl
    simp only [ho, List.zipIdx_cons, List.zipIdx_nil, List.take_succ_cons, List.take_zero,
      forFold, bind, StateT.bind, Except.bind, pure, StateT.pure, Except.pure] at hl
    split at hl
    · cases hl
    · rename_i x hx
      injection hl with hl
      refine ⟨_, x.1, _, _, _, x.2, hx, rfl, ?_⟩
      have h2 : x.1 = tr.s := congrArg Prod.fst hl
      rw [h2, ← tr.hqs, hq1]
      rfl

/-- C80: there the recoil was to be followed. -/
example : ∃ p q : Particle ℝ, ToFollow mat options p q := by
  obtain ⟨s, s', g, k, t, t', hr, h0, h1⟩ := collision_run
  obtain ⟨i, q, _, _, _, _, _, h⟩ := C80_collision rcpr mat options s s' g k t t' hr
  rcases h with ⟨_, h⟩ | ⟨_, _, r, eb, recoil, _, _, _, _, _, h2, h3⟩
  · rw [h, h0] at h1; simp at h1
  · by_cases hf : ToFollow mat options s'.particle_1 recoil
    · exact ⟨_, _, hf⟩
    · rw [h3 hf, h0] at h1; simp at h1

/-- C16, first step: the ion's pass is a first step, that of its recoil is not. -/
example : ∃ q recoil t, trajectory_step rcpr mat options ion [] zeros = .ok ((q, [recoil]), t) ∧
    ion.first_step = true ∧ recoil.first_step = false := by
  have h := pass_ion_of ion rfl rfl rfl rfl rfl rfl
  unfold Sat at h
  cases hr : trajectory_step rcpr mat options ion [] zeros with
  | error e => rw [hr] at h; exact absurd h id
  | ok r =>
    obtain ⟨⟨q, qs⟩, t⟩ := r
    rw [hr] at h
    obtain ⟨_, _, q1, hq1, _⟩ := h
    simp only at hq1
    subst hq1
    exact ⟨q, q1, t, rfl, rfl, (C16_first_step_only_once _ _ _ _ _ _ _ _ hr).2 q1 (by simp)⟩

/-- C80, deep recoils: the premise can be met (a recoil next to the surface). -/
example : ∃ (p q : Particle ℝ), p.E = 0 ∧ NearSurface mat p q := by
  refine ⟨{ ion with E := 0 }, { ion with pos := ⟨0, 0, 1/2⟩ }, rfl, 1, 0, 0, 0.5, ?_, rfl, ?_⟩
  · show Except.ok _ = _
    rw [fsum_real]; simp
  · have ha : 0 < lindhardLength 1 1 := by
      unfold lindhardLength
      have : (0:ℝ) < A0 ℝ := by unfold A0; norm_num
      have h2 : (0:ℝ) < (Real.sqrt 1 + Real.sqrt 1) ^ (-2/3 : ℝ) :=
        Real.rpow_pos_of_pos (by rw [Real.sqrt_one]; norm_num) _
      positivity
    have e : (minus ⟨0, 0, 0.5⟩ ⟨0, 0, 1/2⟩ : Vec3 ℝ) = ⟨0, 0, 0⟩ := by
      unfold minus; norm_num
    simp only [ion, e]
    unfold Spec.norm Spec.inner estimatedRange
    simp only [mul_zero, add_zero, Real.sqrt_zero]
    rw [Real.zero_rpow (by norm_num)]
    positivity

end RecoilExample

namespace LocalLossExample

/-- A half space: material beyond `z = 1/2`, its energy barrier beyond `z = 1/4`. -/
noncomputable def geom : Geom ℝ where
  get_densities _ _ _ := .ok [1]
  get_ck _ _ _ := .ok 1
  get_total_density _ _ _ := .ok 1
  get_concentrations _ _ _ := .ok [1]
  inside _ _ z := .ok (0.5 <. z)
  inside_simulation_boundary _ _ z := .ok (-(1.0) <. z)
  inside_energy_barrier _ _ z := .ok (0.25 <. z)
  closest_point x y _ := .ok (x, y, 0.5)

noncomputable def mat : Material ℝ := { CascadeExample.mat with geometry := geom }

noncomputable def options : Options ℝ :=
  { Options.default_options true with
    interaction_potential := [[.MOLIERE]]
    scattering_integral := [[.GAUSS_LEGENDRE]]
    electronic_stopping_mode := .LOW_ENERGY_LOCAL
    track_energy_losses := true }

/-- An ion in front of the barrier, after its first step. -/
noncomputable def ion : Particle ℝ := { CascadeExample.ion with first_step := false }

noncomputable def a : ℝ := screening_length 1 0.0 (.MOLIERE : InteractionPotential ℝ)

noncomputable def loss : ℝ := oen_robinson_loss 1 0.0 (Material.S_low 1 1 1 1) 0.0 .MOLIERE

theorem loss_pos : 0 < loss := by
  have ha : 0 < screening_length 1 0.0 (.MOLIERE : InteractionPotential ℝ) := by
    unfold screening_length
    simp only [powf_real, sqrt_real]
    have : (0:ℝ) < A0 ℝ := by unfold A0; norm_num
    have h2 : (0:ℝ) < (Real.sqrt 1 + Real.sqrt 0.0) ^ (-2.0/3.0 : ℝ) :=
      Real.rpow_pos_of_pos (by rw [Real.sqrt_one]; positivity) _
    have h3 : (0:ℝ) < 0.8853 := by norm_num
    positivity
  have hS : 0 < Material.S_low (1:ℝ) 1 1 1 := S_low_pos one_pos one_pos one_pos one_pos
  unfold loss
  rw [oen_spec]
  unfold oenRobinson
  have hd : (0:ℝ) < first_screening_radius (.MOLIERE : InteractionPotential ℝ) := by
    unfold first_screening_radius; norm_num
  have := Real.pi_pos
  positivity

theorem geometry : determine_mfp_phi_impact_parameter ion mat options CascadeExample.zeros
    = .ok ((ion, [⟨0, 0, 1⟩]), CascadeExample.zeros) := by
  have h := CascadeExample.geometry_zero ion
  unfold Sat at h
  have e : determine_mfp_phi_impact_parameter ion mat options CascadeExample.zeros
    = determine_mfp_phi_impact_parameter ion CascadeExample.mat CascadeExample.options
      CascadeExample.zeros := rfl
  rw [e]
  cases hr : determine_mfp_phi_impact_parameter ion CascadeExample.mat CascadeExample.options
      CascadeExample.zeros with
  | error e => rw [hr] at h; exact absurd h id
  | ok r =>
    rw [hr] at h
    obtain ⟨h1, h2⟩ := h
    obtain ⟨x, t⟩ := r
    simp only at h1 h2
    rw [h1, h2]
    rfl

theorem surface_total (p : Particle ℝ) :
    RSat (surface_binding_energy p mat) (fun _ => True) (fun _ => False) := by
  have hEs : ∃ Es, mat.actual_surface_binding_energy p p.pos_old.x p.pos_old.y p.pos_old.z
      = .ok Es := by
    unfold Material.actual_surface_binding_energy
    simp only [mat, geom, CascadeExample.mat, bind, Except.bind]
    by_cases h : (p.Es ==. (0.0 : ℝ) || fsum [0] ==. (0.0 : ℝ)) = true
    · exact ⟨_, if_pos h⟩
    · exact ⟨_, if_neg h⟩
  obtain ⟨Es, hEs⟩ := hEs
  have hb : ∀ x y z, ∃ b, mat.inside_energy_barrier x y z = .ok b := fun _ _ _ => ⟨_, rfl⟩
  have hc : ∀ x y z, ∃ c, mat.closest_point x y z = .ok c := fun _ _ _ => ⟨_, rfl⟩
  obtain ⟨b1, h1⟩ := hb p.pos.x p.pos.y p.pos.z
  obtain ⟨b2, h2⟩ := hb p.pos_old.x p.pos_old.y p.pos_old.z
  obtain ⟨c, h3⟩ := hc p.pos.x p.pos.y p.pos.z
  have hm : mat.surface_binding_model = .AVERAGE := rfl
  unfold surface_binding_energy
  simp only [rsat_bind, hEs, h1, h2, rsat_ok]
  have hen : RSat (surface_entering p mat Es) (fun _ => True) (fun _ => False) := by
    unfold surface_entering
    split
    · simp
    · simp only [rsat_bind, h3, rsat_ok, hm, rsat_pure]
  have hle : RSat (surface_leaving p mat Es) (fun _ => True) (fun _ => False) := by
    unfold surface_leaving
    simp only [rsat_bind, h3, rsat_ok, hm]
    repeat' split
    all_goals simp
  cases b1 <;> cases b2
  · simp
  · simpa using hle
  · simpa using hen
  · simp

theorem boundary_total (p : Particle ℝ) :
    RSat (boundary_condition_planar p mat) (fun _ => True) (fun _ => False) := by
  obtain ⟨b1, h1⟩ : ∃ b, mat.inside_simulation_boundary p.pos.x p.pos.y p.pos.z = .ok b := ⟨_, rfl⟩
  obtain ⟨b2, h2⟩ : ∃ b, mat.inside_energy_barrier p.pos.x p.pos.y p.pos.z = .ok b := ⟨_, rfl⟩
  unfold boundary_condition_planar
  simp only [rsat_bind, h1, h2, rsat_ok]
  generalize (if ((p.E <. p.Ec) && !(if (!b1) = true then
      { p with left := true }.update_trajectory_tracker else p).left && b2) = true then _
      else _ : Particle ℝ) = r
  by_cases h : (!r.stopped && !r.left) = true
  · rw [if_pos h]; exact surface_total r
  · rw [if_neg h]; simp

/-- The pass: no collision, since the ion starts in front of the barrier. -/
theorem pass : ∃ q t', trajectory_step CascadeExample.rcpr mat options ion [] CascadeExample.zeros
    = .ok ((q, []), t') ∧ q.energies = ion.energies ++ [⟨0, loss, q.pos.x, q.pos.y, q.pos.z⟩] := by
  have h : Sat (trajectory_step CascadeExample.rcpr mat options ion []) CascadeExample.zeros
      (fun r _ => r.2 = [] ∧ r.1.energies
        = ion.energies ++ [⟨0, loss, r.1.pos.x, r.1.pos.y, r.1.pos.z⟩])
      (fun _ => False) := by
    unfold trajectory_step
    simp only [sat_bind]
    have hg : Sat (determine_mfp_phi_impact_parameter ion mat options) CascadeExample.zeros
        (fun a t => a = (ion, [⟨0, 0, 1⟩]) ∧ t = CascadeExample.zeros) (fun _ => False) := by
      unfold Sat; rw [geometry]; exact ⟨rfl, rfl⟩
    refine sat_mono hg (fun r t hr => ?_) (fun _ h => h)
    obtain ⟨rfl, rfl⟩ := hr
    have ho : options.weak_collision_order = 0 := rfl
    simp only [ho, List.zipIdx_cons, List.zipIdx_nil, List.take_succ_cons, List.take_zero,
      forFold, sat_bind, sat_pure, collision_step]
    have hp := CascadeExample.partner_zero ion ⟨0, 0, 1⟩ rfl rfl rfl
    have hp' : Sat (choose_collision_partner ion mat ⟨0, 0, 1⟩ options) CascadeExample.zeros
        (fun _ _ => True) (fun _ => False) := sat_mono hp (fun _ _ _ => trivial) (fun _ h => h)
    refine sat_mono hp' (fun r t _ => ?_) (fun _ h => h)
    obtain ⟨si, q⟩ := r
    have hb : mat.geometry.inside_energy_barrier ion.pos.x ion.pos.y ion.pos.z = .ok false := by
      simp only [mat, geom, ion, CascadeExample.ion]
      congr 1
      rw [lt_real_false]; norm_num
    have hi : ∃ b, mat.geometry.inside q.pos.x q.pos.y q.pos.z = .ok b := ⟨_, rfl⟩
    obtain ⟨b, hi⟩ := hi
    simp only [Material.inside, Material.inside_energy_barrier, sat_lift, hi, hb, rsat_ok,
      Bool.and_false, Bool.false_eq_true, if_false, sat_pure]
    unfold finish_step
    simp only [vget, List.getElem?_cons_zero, rsat_bind, rsat_ok]
    have hA : ∃ p d, ion.advance 1 0.0 = (p, d) ∧ p.E = 1 ∧ p.m = 1 ∧ p.Z = 1 ∧
        p.interaction_index = 0 ∧ p.pos = ⟨0, 0, 1⟩ ∧ p.energies = ion.energies ∧
        p.incident = true := by
      unfold Particle.advance
      by_cases h : (ion.E >. ion.Ec) = true
      · obtain ⟨l, hl⟩ := utt_same ion
        simp only [h, if_true, hl]
        refine ⟨_, _, rfl, rfl, rfl, rfl, rfl, ?_, rfl, rfl⟩
        norm_num [ion, CascadeExample.ion]
      · simp only [h, Bool.false_eq_true, if_false]
        refine ⟨_, _, rfl, rfl, rfl, rfl, rfl, ?_, rfl, rfl⟩
        norm_num [ion, CascadeExample.ion]
    obtain ⟨p, d, hp, h1, h2, h3, h4, h5, h6, h7⟩ := hA
    simp only [hp]
    have hS : (mat.electronic_stopping_cross_sections p .LOW_ENERGY_LOCAL)
        = .ok [Material.S_low 1 1 1 1] := by
      simp [Material.electronic_stopping_cross_sections,
        Material.electronic_stopping_correction_factor, Material.number_densities, mat, geom,
        CascadeExample.mat, Material.stopping_power, h1, h2, h3, bind, Except.bind, pure,
        Except.pure]
    have hsub : ∃ q, subtract_electronic_stopping_energy p mat d 0.0 0.0 0 options
        = .ok (q, loss) ∧ q.energies = ion.energies ∧ q.pos = p.pos ∧ q.incident = true := by
      unfold subtract_electronic_stopping_energy
      have hins : mat.inside p.pos.x p.pos.y p.pos.z = .ok true := by
        simp only [Material.inside, mat, geom, h5]
        congr 1
        rw [lt_real]; norm_num
      have hn : ∀ x y z, mat.number_densities x y z = .ok [1] := fun _ _ _ => rfl
      simp only [hins, isNaN_real, rassert, Bool.not_false, if_true, bind, Except.bind, pure,
        Except.pure, h4, options, vget, List.getElem?_cons_zero, hS, hn, h3,
        show mat.interaction_index = [0] from rfl]
      exact ⟨_, rfl, h6, rfl, h7⟩
    obtain ⟨q, hq, hqe, hqp, hqi⟩ := hsub
    rw [hq]
    simp only [rsat_ok]
    have hu : q.update_energy_loss_tracker options 0.0 loss
        = { q with energies := ion.energies ++ [⟨0, loss, q.pos.x, q.pos.y, q.pos.z⟩] } := by
      unfold Particle.update_energy_loss_tracker
      have : (0.0:ℝ) = 0 := by norm_num
      simp [hqi, options, hqe, this]
    rw [hu]
    refine rsat_mono (rsat_and (boundary_frame _ mat) (boundary_total _)) (fun r hr => ?_)
      (fun _ h => h.2)
    obtain ⟨⟨E, dir, b, st, lf, tr, hr⟩, _⟩ := hr
    refine ⟨rfl, ?_⟩
    rw [hr]
  unfold Sat at h
  cases hr : trajectory_step CascadeExample.rcpr mat options ion [] CascadeExample.zeros with
  | error e => rw [hr] at h; exact absurd h id
  | ok r =>
    obtain ⟨⟨q, qs⟩, t⟩ := r
    rw [hr] at h
    obtain ⟨h1, h2⟩ := h
    simp only at h1 h2
    subst h1
    exact ⟨q, t, rfl, h2⟩

/-- **C82, "local losses happen in collisions" is false of the code.** With LOW_ENERGY_LOCAL
stopping an ion that starts a pass in front of the energy barrier, where no collision takes place
(`C80_no_collision_outside`), and ends it inside the material loses energy as if it had collided
head on (distance of closest approach 0) with an atom of charge 0. -/
theorem _root_.RustBCA.C82_local_loss_without_collision : ∃ (rcpr : Rcpr ℝ) (mat : Material ℝ)
    (o : Options ℝ) (p q : Particle ℝ) (t t' : Tape ℝ) (l : ℝ),
    o.electronic_stopping_mode = .LOW_ENERGY_LOCAL ∧
    mat.geometry.inside_energy_barrier p.pos.x p.pos.y p.pos.z = .ok false ∧
    trajectory_step rcpr mat o p [] t = .ok ((q, []), t') ∧
    q.energies = p.energies ++ [⟨0, l, q.pos.x, q.pos.y, q.pos.z⟩] ∧ 0 < l := by
  obtain ⟨q, t', h1, h2⟩ := pass
  refine ⟨_, _, _, ion, q, _, t', loss, rfl, ?_, h1, h2, loss_pos⟩
  simp only [mat, geom, ion, CascadeExample.ion]
  congr 1
  rw [lt_real_false]; norm_num

/-- C82's hypotheses are met: a particle inside the material, with LOW_ENERGY_LOCAL stopping,
head-on collision with an atom of charge 2. -/
example : ∃ q l, subtract_electronic_stopping_energy { ion with pos := ⟨0, 0, 1⟩ } mat 1 0 2 0
      options = .ok (q, l) ∧
    l = oenRobinson (first_screening_radius .MOLIERE) (screening_length 1 2 .MOLIERE)
      (Material.S_low 1 1 1 1) 0 := by
  have hins : mat.geometry.inside 0 0 1 = .ok true := by
    simp only [mat, geom]
    congr 1
    rw [lt_real]; norm_num
  have hS : mat.electronic_stopping_cross_sections { ion with pos := ⟨0, 0, 1⟩ } .LOW_ENERGY_LOCAL
      = .ok [Material.S_low 1 1 1 1] := by
    simp [Material.electronic_stopping_cross_sections,
      Material.electronic_stopping_correction_factor, Material.number_densities, mat, geom,
      CascadeExample.mat, Material.stopping_power, ion, CascadeExample.ion, bind, Except.bind, pure,
      Except.pure]
  have hrun : ∃ q l, subtract_electronic_stopping_energy { ion with pos := ⟨0, 0, 1⟩ } mat 1 0 2 0
      options = .ok (q, l) := by
    unfold subtract_electronic_stopping_energy
    have hn : ∀ x y z, mat.number_densities x y z = .ok [1] := fun _ _ _ => rfl
    simp only [Material.inside, hins, isNaN_real, rassert, Bool.not_false, if_true, bind,
      Except.bind, pure, Except.pure, options, vget, List.getElem?_cons_zero, hS, hn,
      show mat.interaction_index = [0] from rfl, show ion.interaction_index = 0 from rfl]
    exact ⟨_, _, rfl⟩
  obtain ⟨q, l, h⟩ := hrun
  exact ⟨q, l, h, (C82_loss _ q mat 1 0 2 l 0 0 options _ [1] [.MOLIERE] .MOLIERE _ hins hS rfl rfl rfl
    rfl rfl h).2⟩

end LocalLossExample

end RustBCA
