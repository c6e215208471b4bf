import Verif.Proofs.Relational
import Verif.Spec.Symmetry

/-!
# Physically identical runs stay identical

Function by function: related inputs give related results (used by C69, C70).
-/

set_option linter.unusedSectionVars false
set_option linter.unusedVariables false

namespace RustBCA
open Scalar Spec

variable {F : Type} [Scalar F] {P : Bool → Vec3 F → Vec3 F → Prop} {L : Vec3 F → Vec3 F}
  {mat mat' : Material F}
  {o o' : Options F} {p q p2 q2 : Particle F}

/-- Field by field. -/
macro "same " h:term : tactic => `(tactic|
  (constructor <;> first
    | exact ($h).pos | exact ($h).pos_old | exact ($h).pos_origin
    | simp only [($h).m, ($h).Z, ($h).E, ($h).Ec, ($h).Es, ($h).Ed, ($h).dir,
        ($h).dir_old, ($h).energy_origin, ($h).asymptotic_deflection,
        ($h).stopped, ($h).left, ($h).incident, ($h).first_step, ($h).number_collision_events,
        ($h).backreflected, ($h).interaction_index]))

namespace Spec.SameTarget
variable (h : SameTarget P L mat mat')
include h

theorem total_number_density {b : Bool} {v w : Vec3 F} (hv : P b v w) :
    mat'.total_number_density w.x w.y w.z = mat.total_number_density v.x v.y v.z := by
  simp only [Material.total_number_density, h.densities hv]

theorem mfp {b : Bool} {v w : Vec3 F} (hv : P b v w) :
    mat'.mfp w.x w.y w.z = mat.mfp v.x v.y v.z := by
  simp only [Material.mfp, h.total_number_density hv]

theorem average_mass {b : Bool} {v w : Vec3 F} (hv : P b v w) :
    mat'.average_mass w.x w.y w.z = mat.average_mass v.x v.y v.z := by
  simp only [Material.average_mass, h.concentrations hv, h.m]

theorem average_Z {b : Bool} {v w : Vec3 F} (hv : P b v w) :
    mat'.average_Z w.x w.y w.z = mat.average_Z v.x v.y v.z := by
  simp only [Material.average_Z, h.concentrations hv, h.Z]

theorem average_Eb {b : Bool} {v w : Vec3 F} (hv : P b v w) :
    mat'.average_bulk_binding_energy w.x w.y w.z =
      mat.average_bulk_binding_energy v.x v.y v.z := by
  simp only [Material.average_bulk_binding_energy, h.concentrations hv, h.Eb]

theorem species (i : Nat) : mat'.species i = mat.species i := by
  simp only [Material.species, h.Z, h.m, h.Ec, h.Es, h.Ed, h.interaction_index]

theorem choose {b : Bool} {v w : Vec3 F} (hv : P b v w) :
    mat'.choose w.x w.y w.z = mat.choose v.x v.y v.z := by
  simp only [Material.choose, Material.get_cumulative_concentrations, h.concentrations hv, h.species]

theorem stopping (hp : SamePhysics P L p q) (mode : ElectronicStoppingMode) :
    mat'.electronic_stopping_cross_sections q mode =
      mat.electronic_stopping_cross_sections p mode := by
  simp only [Material.electronic_stopping_cross_sections,
    Material.electronic_stopping_correction_factor, Material.number_densities, hp.E, hp.m, hp.Z,
    h.ck_yy hp.pos, h.densities_yy hp.pos, h.Z]

theorem actual_Es (hp : SamePhysics P L p q) {b : Bool} {v w : Vec3 F} (hv : P b v w) :
    mat'.actual_surface_binding_energy q w.x w.y w.z =
      mat.actual_surface_binding_energy p v.x v.y v.z := by
  simp only [Material.actual_surface_binding_energy, h.concentrations hv, h.surface_binding_model,
    h.Es, hp.Es]

end Spec.SameTarget

theorem Spec.SamePhysics.tracker (hp : SamePhysics P L p q) :
    SamePhysics P L p.update_trajectory_tracker q.update_trajectory_tracker := by
  unfold Particle.update_trajectory_tracker
  split <;> split <;> same hp

theorem Spec.SamePhysics.loss_tracker (hp : SamePhysics P L p q) (En Ee : F) :
    SamePhysics P L (p.update_energy_loss_tracker o En Ee)
      (q.update_energy_loss_tracker o' En Ee) := by
  unfold Particle.update_energy_loss_tracker
  split <;> split <;> same hp

theorem Spec.SamePhysics.rotate (hT : Rigid P L) (hp : SamePhysics P L p q) (psi phi : F) :
    SamePhysics P L (p.rotate psi phi) (q.rotate psi phi) := by
  unfold Particle.rotate
  rw [hp.dir, hT.deflect]
  same hp

theorem Spec.SamePhysics.advance (hT : Rigid P L) (hp : SamePhysics P L p q) (mfp ad : F) :
    SamePhysics P L (p.advance mfp ad).1 (q.advance mfp ad).1 ∧
      (q.advance mfp ad).2 = (p.advance mfp ad).2 := by
  have h1 : SamePhysics P L (if p.E >. p.Ec then p.update_trajectory_tracker else p)
      (if q.E >. q.Ec then q.update_trajectory_tracker else q) := by
    rw [hp.E, hp.Ec]; split
    · exact hp.tracker
    · exact hp
  unfold Particle.advance
  simp only
  generalize (if p.E >. p.Ec then p.update_trajectory_tracker else p) = p1 at *
  generalize (if q.E >. q.Ec then q.update_trajectory_tracker else q) = q1 at *
  refine ⟨?_, ?_⟩
  · rw [h1.dir_old, h1.asymptotic_deflection]
    constructor <;> first
      | exact h1.pos | exact hT.move h1.pos _ _ | exact h1.pos_origin
      | simp only [h1.m, h1.Z, h1.E, h1.Ec, h1.Es, h1.Ed, h1.dir, h1.energy_origin,
          h1.stopped, h1.left, h1.incident, h1.first_step, h1.number_collision_events,
          h1.backreflected, h1.interaction_index]
  · rw [h1.asymptotic_deflection]

theorem Spec.SamePhysics.refraction (hT : Rigid P L) (hp : SamePhysics P L p q) (n : Vec3 F)
    (Es : F) : SamePhysics P L (surface_refraction p n Es) (surface_refraction q (L n) Es) := by
  unfold surface_refraction
  simp only [hp.dir, hp.E, hT.dot, hT.combine]
  same hp

theorem closest_rel (h : SameTarget P L mat mat') {b : Bool} {v w : Vec3 F} (hv : P b v w) :
    RRel (fun c d => (⟨d.1 - w.x, d.2.1 - w.y, d.2.2 - w.z⟩ : Vec3 F) =
        L ⟨c.1 - v.x, c.2.1 - v.y, c.2.2 - v.z⟩)
      (mat.closest_point v.x v.y v.z) (mat'.closest_point w.x w.y w.z) := by
  unfold Material.closest_point
  rcases h.closest hv with ⟨c, d, h1, h2, h3⟩ | ⟨e, h1, h2⟩
  · rw [h1, h2]; exact h3
  · rw [h1, h2]; exact (rfl : e = e)

theorem surface_entering_rel (hT : Rigid P L) (h : SameTarget P L mat mat')
    (hp : SamePhysics P L p q) (Es : F) :
    RRel (SamePhysics P L) (surface_entering p mat Es) (surface_entering q mat' Es) := by
  unfold surface_entering
  simp only
  refine RRel.ite hp.backreflected.symm (RRel.pure (by same hp)) ?_
  rw [h.surface_binding_model]
  refine RRel.bind (closest_rel h hp.pos) fun c d hcd => ?_
  obtain ⟨c1, c2, c3⟩ := c
  obtain ⟨d1, d2, d3⟩ := d
  have e1 := congrArg Vec3.x hcd
  have e2 := congrArg Vec3.y hcd
  have e3 := congrArg Vec3.z hcd
  simp only at e1 e2 e3 ⊢
  rw [e1, e2, e3, hT.length, hT.scale]
  cases mat.surface_binding_model
  · exact RRel.pure (by same hp)
  all_goals exact RRel.pure (hp.refraction hT _ _)

theorem surface_leaving_rel (hT : Rigid P L) (h : SameTarget P L mat mat')
    (hp : SamePhysics P L p q) (Es : F) :
    RRel (SamePhysics P L) (surface_leaving p mat Es) (surface_leaving q mat' Es) := by
  unfold surface_leaving
  simp only
  rw [h.surface_binding_model, hp.dir, hp.E]
  refine RRel.bind (closest_rel h hp.pos) fun c d hcd => ?_
  obtain ⟨c1, c2, c3⟩ := c
  obtain ⟨d1, d2, d3⟩ := d
  have e1 := congrArg Vec3.x hcd
  have e2 := congrArg Vec3.y hcd
  have e3 := congrArg Vec3.z hcd
  simp only at e1 e2 e3 ⊢
  rw [e1, e2, e3, hT.length, hT.cosine, hT.scale_neg, hT.reflect]
  refine RRel.ite rfl (RRel.ite rfl ?_ ?_) (RRel.pure hp)
  · cases mat.surface_binding_model
    · exact RRel.pure (by same hp)
    all_goals exact RRel.pure (hp.refraction hT _ _)
  · exact RRel.pure (by same hp)

theorem surface_binding_rel (hT : Rigid P L) (h : SameTarget P L mat mat')
    (hp : SamePhysics P L p q) :
    RRel (SamePhysics P L) (surface_binding_energy p mat) (surface_binding_energy q mat') := by
  unfold surface_binding_energy
  simp only [Material.inside_energy_barrier]
  refine RRel.bind_same (h.actual_Es hp hp.pos_old).symm fun Es => ?_
  refine RRel.bind_same (h.barrier hp.pos).symm fun now => ?_
  refine RRel.bind_same (h.barrier hp.pos_old).symm fun old => ?_
  refine RRel.bind (RRel.ite rfl (surface_entering_rel hT h hp Es) (RRel.pure hp))
    fun a b hab => RRel.ite rfl (surface_leaving_rel hT h hab Es) (RRel.pure hab)

theorem boundary_rel (hT : Rigid P L) (h : SameTarget P L mat mat') (hp : SamePhysics P L p q) :
    RRel (SamePhysics P L) (boundary_condition_planar p mat) (boundary_condition_planar q mat') := by
  unfold boundary_condition_planar
  simp only [Material.inside_energy_barrier, Material.inside_simulation_boundary]
  refine RRel.bind_same (h.boundary hp.pos).symm fun inside_sim => ?_
  have h1 : SamePhysics P L
      (if !inside_sim then { p with left := true }.update_trajectory_tracker else p)
      (if !inside_sim then { q with left := true }.update_trajectory_tracker else q) := by
    split
    · exact Spec.SamePhysics.tracker (by same hp)
    · exact hp
  generalize (if !inside_sim then { p with left := true }.update_trajectory_tracker else p) = p1
    at *
  generalize (if !inside_sim then { q with left := true }.update_trajectory_tracker else q) = q1
    at *
  refine RRel.bind_same (h.barrier hp.pos).symm fun inside_barrier => ?_
  have h2 : SamePhysics P L
      (if (p.E <. p.Ec) && !p1.left && inside_barrier then
        { p1 with stopped := true }.update_trajectory_tracker else p1)
      (if (q.E <. q.Ec) && !q1.left && inside_barrier then
        { q1 with stopped := true }.update_trajectory_tracker else q1) := by
    rw [h1.left, hp.E, hp.Ec]
    split
    · exact Spec.SamePhysics.tracker (by same h1)
    · exact h1
  generalize (if (p.E <. p.Ec) && !p1.left && inside_barrier then
    { p1 with stopped := true }.update_trajectory_tracker else p1) = p2 at *
  generalize (if (q.E <. q.Ec) && !q1.left && inside_barrier then
    { q1 with stopped := true }.update_trajectory_tracker else q1) = q2 at *
  exact RRel.ite (by rw [h2.stopped, h2.left]) (surface_binding_rel hT h h2) (RRel.pure h2)

theorem stopping_rel (hT : Rigid P L) (h : SameTarget P L mat mat')
    (ho : SamePhysicsOptions o o') (hp : SamePhysics P L p q) (dist x0 sZ : F) (si : Nat) :
    RRel (fun a b => SamePhysics P L a.1 b.1 ∧ b.2 = a.2)
      (subtract_electronic_stopping_energy p mat dist x0 sZ si o)
      (subtract_electronic_stopping_energy q mat' dist x0 sZ si o') := by
  unfold subtract_electronic_stopping_energy
  simp only [Material.inside, Material.number_densities]
  rw [hp.E, hp.Z, hp.interaction_index, ho.interaction_potential, h.interaction_index,
    ho.electronic_stopping_mode, h.stopping hp]
  refine RRel.bind_same rfl fun _ => ?_
  refine RRel.bind_same (h.inside hp.pos).symm fun inside => ?_
  refine RRel.ite rfl ?_ (RRel.pure ⟨hp, rfl⟩)
  refine RRel.bind_same rfl fun row => ?_
  refine RRel.bind_same rfl fun ti => ?_
  refine RRel.bind_same rfl fun V => ?_
  refine RRel.bind_same rfl fun powers => ?_
  refine RRel.bind_same (h.densities hp.pos).symm fun n => ?_
  refine RRel.bind_same rfl fun delta => ?_
  refine RRel.bind_same rfl fun _ => ?_
  exact RRel.pure ⟨by same hp, rfl⟩

theorem doca_eq (rcpr : Rcpr F) (ho : SamePhysicsOptions o o') (hp : SamePhysics P L p q)
    (hp2 : SamePhysics P L p2 q2) (g : BinaryCollisionGeometry F) :
    distance_of_closest_approach rcpr q q2 g o' = distance_of_closest_approach rcpr p p2 g o := by
  simp only [distance_of_closest_approach, hp.Z, hp2.Z, hp.m, hp2.m, hp.E, hp.interaction_index,
    hp2.interaction_index, ho.interaction_potential, ho.root_finder]

theorem collision_eq (rcpr : Rcpr F) (ho : SamePhysicsOptions o o') (hp : SamePhysics P L p q)
    (hp2 : SamePhysics P L p2 q2) (g : BinaryCollisionGeometry F) :
    calculate_binary_collision rcpr q q2 g o' = calculate_binary_collision rcpr p p2 g o := by
  simp only [calculate_binary_collision, doca_eq rcpr ho hp hp2 g, hp.Z, hp2.Z, hp.m, hp2.m, hp.E,
    hp.interaction_index, hp2.interaction_index, ho.interaction_potential, ho.scattering_integral]

theorem ffp_eq (h : SameTarget P L mat mat') (hp : SamePhysics P L p q) :
    ffp_limits q mat' = ffp_limits p mat := by
  simp only [ffp_limits, hp.m, hp.Z, hp.E, hp.Ec, h.average_mass hp.pos, h.average_Z hp.pos,
    Material.number_densities, Material.electronic_stopping_correction_factor, h.densities hp.pos, h.ck hp.pos,
    h.total_number_density hp.pos, h.stopping hp]

/-- Particles and geometries of a pass. -/
def PassRel (P : Bool → Vec3 F → Vec3 F → Prop) (L : Vec3 F → Vec3 F) (a b : Particle F × List (BinaryCollisionGeometry F)) : Prop :=
  SamePhysics P L a.1 b.1 ∧ b.2 = a.2

theorem first_step_rel (hp : SamePhysics P L p q) (mfp ffp : F) :
    MRel (fun a b : Particle F × F => SamePhysics P L a.1 b.1 ∧ b.2 = a.2)
      (if p.first_step then do
          let r ← random
          pure ({ p with first_step := false }, mfp*r)
        else pure (p, ffp) : M F (Particle F × F))
      (if q.first_step then do
          let r ← random
          pure ({ q with first_step := false }, mfp*r)
        else pure (q, ffp) : M F (Particle F × F)) := by
  refine MRel.ite hp.first_step.symm (MRel.bind_same rfl fun r => MRel.pure ⟨?_, rfl⟩)
    (MRel.pure ⟨hp, rfl⟩)
  same hp

theorem mfp_rel (h : SameTarget P L mat mat') (ho : SamePhysicsOptions o o')
    (hp : SamePhysics P L p q) :
    MRel (PassRel P L) (determine_mfp_phi_impact_parameter p mat o)
      (determine_mfp_phi_impact_parameter q mat' o') := by
  unfold determine_mfp_phi_impact_parameter
  simp only [ho.weak_collision_order, ho.high_energy_free_flight_paths, ho.mean_free_path_model,
    ffp_eq h hp]
  refine MRel.bind_same (by rw [h.mfp hp.pos]) fun mfp => ?_
  refine MRel.bind_same rfl fun phis => ?_
  refine MRel.ite rfl ?_ ?_
  · refine MRel.bind_same rfl fun pf => ?_
    refine MRel.ite rfl ?_ ?_
    · refine MRel.bind_same rfl fun r => ?_
      refine MRel.bind (first_step_rel hp mfp mfp) fun a b hab => ?_
      refine MRel.bind_same (by simp only [h.densities hp.pos]) fun factor => ?_
      rw [hab.2]
      exact MRel.bind_same rfl fun phi => MRel.pure ⟨hab.1, rfl⟩
    · refine MRel.bind_same rfl fun r => ?_
      refine MRel.bind (first_step_rel hp mfp pf.2) fun a b hab => ?_
      rw [hab.2]
      refine MRel.bind_same rfl fun ffp => ?_
      exact MRel.bind_same rfl fun phi => MRel.pure ⟨hab.1, rfl⟩
  · refine MRel.bind_same rfl fun ips => ?_
    refine MRel.bind (first_step_rel hp mfp mfp) fun a b hab => ?_
    rw [hab.2]
    exact MRel.bind_same rfl fun mfp => MRel.pure ⟨hab.1, rfl⟩

theorem partner_rel (hT : Rigid P L) (h : SameTarget P L mat mat') (hp : SamePhysics P L p q)
    (g : BinaryCollisionGeometry F) :
    MRel (fun a b : Nat × Particle F => SamePhysics P L a.2 b.2 ∧ b.1 = a.1)
      (choose_collision_partner p mat g o) (choose_collision_partner q mat' g o') := by
  unfold choose_collision_partner
  have hr := hT.recoil hp.pos p.dir g
  simp only [hp.dir, h.choose hr]
  refine MRel.bind_same rfl fun s => MRel.pure ⟨?_, rfl⟩
  constructor <;> first
    | rfl | exact hr | (simp only [Particle.new]; rw [hT.length, hT.scale])

theorem keep_eq (hT : Rigid P L) (h : SameTarget P L mat mat') (ho : SamePhysicsOptions o o')
    (hp : SamePhysics P L p q) (hp2 : SamePhysics P L p2 q2) :
    RRel Eq (keep_recoil p p2 mat o) (keep_recoil q q2 mat' o') := by
  unfold keep_recoil
  simp only [ho.track_recoils, ho.suppress_deep_recoils, hp.E, hp2.E, hp2.Ec, hp.Z, hp2.Z, hp.m,
    hp2.m, h.total_number_density hp2.pos]
  refine RRel.ite rfl ?_ (RRel.pure rfl)
  refine RRel.bind_same rfl fun n => ?_
  refine RRel.bind (closest_rel h hp2.pos) fun c d hcd => ?_
  obtain ⟨c1, c2, c3⟩ := c
  obtain ⟨d1, d2, d3⟩ := d
  have e1 := congrArg Vec3.x hcd
  have e2 := congrArg Vec3.y hcd
  have e3 := congrArg Vec3.z hcd
  simp only at e1 e2 e3 ⊢
  rw [e1, e2, e3, hT.length]
  exact RRel.pure rfl

/-- The variables of a pass. -/
structure StepRel (P : Bool → Vec3 F → Vec3 F → Prop) (L : Vec3 F → Vec3 F) (s s' : StepState F) : Prop where
  particle_1 : SamePhysics P L s.particle_1 s'.particle_1
  particles : List.Forall₂ (SamePhysics P L) s.particles s'.particles
  lost : s'.total_energy_lost_to_recoils = s.total_energy_lost_to_recoils
  deflection : s'.total_asymptotic_deflection = s.total_asymptotic_deflection
  x0 : s'.normalized_distance_of_closest_approach = s.normalized_distance_of_closest_approach
  sZ : s'.strong_collision_Z = s.strong_collision_Z
  si : s'.strong_collision_index = s.strong_collision_index

theorem apply_rel (hT : Rigid P L) (h : SameTarget P L mat mat') (ho : SamePhysicsOptions o o')
    (hp2 : SamePhysics P L p2 q2) {s s' : StepState F} (hs : StepRel P L s s') (k : Nat)
    (g : BinaryCollisionGeometry F) (i : Nat) (r : BinaryCollisionResult F) :
    RRel (StepRel P L) (apply_collision mat o k g i p2 r s)
      (apply_collision mat' o' k g i q2 r s') := by
  unfold apply_collision
  simp only
  have hs1 : StepRel P L
      (if k == 0 then { s with
        normalized_distance_of_closest_approach := r.normalized_distance_of_closest_approach
        strong_collision_Z := p2.Z
        strong_collision_index := i } else s)
      (if k == 0 then { s' with
        normalized_distance_of_closest_approach := r.normalized_distance_of_closest_approach
        strong_collision_Z := q2.Z
        strong_collision_index := i } else s') := by
    split
    · exact { hs with x0 := rfl, sZ := hp2.Z, si := rfl }
    · exact hs
  generalize (if k == 0 then { s with
        normalized_distance_of_closest_approach := r.normalized_distance_of_closest_approach
        strong_collision_Z := p2.Z
        strong_collision_index := i } else s) = s1 at *
  generalize (if k == 0 then { s' with
        normalized_distance_of_closest_approach := r.normalized_distance_of_closest_approach
        strong_collision_Z := q2.Z
        strong_collision_index := i } else s') = s1' at *
  refine RRel.bind_same (h.average_Eb hp2.pos).symm fun eb => ?_
  have h1 : SamePhysics P L
      ({ s1.particle_1 with E := s1.particle_1.E + -r.recoil_energy }.rotate r.psi g.phi_azimuthal)
      ({ s1'.particle_1 with E := s1'.particle_1.E + -r.recoil_energy }.rotate r.psi
        g.phi_azimuthal) :=
    Spec.SamePhysics.rotate hT (by same hs1.particle_1) _ _
  have h2 : SamePhysics P L
      ({ p2 with E := r.recoil_energy - eb, energy_origin := r.recoil_energy - eb }.rotate
        (-r.psi_recoil) g.phi_azimuthal)
      ({ q2 with E := r.recoil_energy - eb, energy_origin := r.recoil_energy - eb }.rotate
        (-r.psi_recoil) g.phi_azimuthal) :=
    Spec.SamePhysics.rotate hT (by same hp2) _ _
  generalize ({ s1.particle_1 with E := s1.particle_1.E + -r.recoil_energy }.rotate r.psi
    g.phi_azimuthal) = P1 at *
  generalize ({ s1'.particle_1 with E := s1'.particle_1.E + -r.recoil_energy }.rotate r.psi
    g.phi_azimuthal) = Q1 at *
  generalize ({ p2 with E := r.recoil_energy - eb, energy_origin := r.recoil_energy - eb }.rotate
    (-r.psi_recoil) g.phi_azimuthal) = P2 at *
  generalize ({ q2 with E := r.recoil_energy - eb, energy_origin := r.recoil_energy - eb }.rotate
    (-r.psi_recoil) g.phi_azimuthal) = Q2 at *
  have h3 : SamePhysics P L
      (if (r.psi >. 0.0) && (k == 0) then
        { P1 with number_collision_events := P1.number_collision_events + 1 } else P1)
      (if (r.psi >. 0.0) && (k == 0) then
        { Q1 with number_collision_events := Q1.number_collision_events + 1 } else Q1) := by
    split
    · same h1
    · exact h1
  have h4 : SamePhysics P L { P2 with dir_old := P2.dir } { Q2 with dir_old := Q2.dir } :=
    by same h2
  refine RRel.bind (keep_eq hT h ho h3 h4) fun a b hab => ?_
  subst hab
  refine RRel.pure { hs1 with
    particle_1 := h3
    particles := ?_
    lost := by simp only [hs1.lost]
    deflection := by simp only [hs1.deflection] }
  simp only
  cases a
  · simpa using hs1.particles
  · simp only [if_true]
    exact List.rel_append hs1.particles (List.Forall₂.cons h4 .nil)

theorem collision_rel (rcpr : Rcpr F) (hT : Rigid P L) (h : SameTarget P L mat mat')
    (ho : SamePhysicsOptions o o') {s s' : StepState F} (hs : StepRel P L s s')
    (gk : BinaryCollisionGeometry F × Nat) :
    MRel (StepRel P L) (collision_step rcpr mat o s gk) (collision_step rcpr mat' o' s' gk) := by
  unfold collision_step
  refine MRel.bind (partner_rel hT h hs.particle_1 gk.1) fun a b hab => ?_
  obtain ⟨h2, hi⟩ := hab
  simp only [Material.inside, Material.inside_energy_barrier]
  rw [hi]
  refine MRel.bind_same (by rw [h.inside h2.pos]) fun inside => ?_
  refine MRel.bind_same (by rw [h.barrier hs.particle_1.pos]) fun barrier => ?_
  refine MRel.ite rfl ?_ (MRel.pure hs)
  refine MRel.bind_same (by rw [collision_eq rcpr ho hs.particle_1 h2]) fun res => ?_
  refine MRel.bind_same rfl fun r => ?_
  exact MRel.lift (apply_rel hT h ho h2 hs _ _ _ _)

theorem finish_rel (hT : Rigid P L) (h : SameTarget P L mat mat') (ho : SamePhysicsOptions o o')
    {s s' : StepState F} (hs : StepRel P L s s') (gs : List (BinaryCollisionGeometry F)) :
    RRel (fun a b => SamePhysics P L a.1 b.1 ∧ List.Forall₂ (SamePhysics P L) a.2 b.2)
      (finish_step mat o gs s) (finish_step mat' o' gs s') := by
  unfold finish_step
  refine RRel.bind_same rfl fun g0 => ?_
  rw [hs.deflection, hs.x0, hs.sZ, hs.si, hs.lost]
  have ha := hs.particle_1.advance hT g0.mfp s.total_asymptotic_deflection
  simp only
  rw [ha.2]
  refine RRel.bind (stopping_rel hT h ho ha.1 _ _ _ _) fun a b hab => ?_
  simp only [hab.2]
  refine RRel.bind (boundary_rel hT h (hab.1.loss_tracker _ _)) fun c d hcd => ?_
  exact RRel.pure ⟨hcd, hs.particles⟩

theorem trajectory_rel (rcpr : Rcpr F) (hT : Rigid P L) (h : SameTarget P L mat mat')
    (ho : SamePhysicsOptions o o') (hp : SamePhysics P L p q) {l l' : List (Particle F)}
    (hl : List.Forall₂ (SamePhysics P L) l l') :
    MRel (fun a b => SamePhysics P L a.1 b.1 ∧ List.Forall₂ (SamePhysics P L) a.2 b.2)
      (trajectory_step rcpr mat o p l) (trajectory_step rcpr mat' o' q l') := by
  unfold trajectory_step
  refine MRel.bind (mfp_rel h ho hp) fun a b hab => ?_
  obtain ⟨h1, h2⟩ := hab
  simp only [h2, ho.weak_collision_order]
  refine MRel.bind (MRel.forFold (fun x y gk hxy => collision_rel rcpr hT h ho hxy gk) _ _ _
    ⟨h1, hl, rfl, rfl, rfl, rfl, rfl⟩) fun s s' hs => ?_
  exact MRel.lift (finish_rel hT h ho hs _)

theorem traj_loop_rel (rcpr : Rcpr F) (hT : Rigid P L) (h : SameTarget P L mat mat')
    (ho : SamePhysicsOptions o o') (n : Nat) (s s' : TrajState F)
    (hs : SamePhysics P L s.particle_1 s'.particle_1 ∧
      List.Forall₂ (SamePhysics P L) s.particles s'.particles ∧
      s'.particle_index = s.particle_index) :
    MRel (fun s s' : TrajState F => SamePhysics P L s.particle_1 s'.particle_1 ∧
        List.Forall₂ (SamePhysics P L) s.particles s'.particles ∧
        s'.particle_index = s.particle_index)
      (whileFuel TrajState.running (traj_body rcpr mat o) n s)
      (whileFuel TrajState.running (traj_body rcpr mat' o') n s') := by
  refine MRel.whileFuel (fun x y hxy => ?_) (fun x y hxy => ?_) n s s' hs
  · simp only [TrajState.running, hxy.1.stopped, hxy.1.left]
  · unfold traj_body
    refine MRel.bind (trajectory_rel rcpr hT h ho hxy.1 hxy.2.1) fun a b hab => ?_
    exact MRel.pure ⟨hab.1, hab.2, hab.2.length_eq.symm⟩

theorem cascade_rel (rcpr : Rcpr F) (hT : Rigid P L) (h : SameTarget P L mat mat')
    (ho : SamePhysicsOptions o o') (fuel : Nat) (hp : SamePhysics P L p q) :
    MRel (List.Forall₂ (SamePhysics P L)) (single_ion_bca rcpr fuel p mat o)
      (single_ion_bca rcpr fuel q mat' o') := by
  unfold single_ion_bca
  refine MRel.bind (MRel.whileFuel
    (I := fun s s' : CascadeState F => List.Forall₂ (SamePhysics P L) s.particles s'.particles ∧
      List.Forall₂ (SamePhysics P L) s.particle_output s'.particle_output ∧
      s'.particle_index = s.particle_index)
    (fun x y hxy => by simp only [hxy.2.2]) (fun x y hxy => ?_) fuel _ _
    ⟨.cons hp .nil, .nil, rfl⟩) fun a b hab => MRel.pure hab.2.1
  unfold cascade_body
  have hpop : RRel (fun a b : Particle F × List (Particle F) => SamePhysics P L a.1 b.1 ∧
      List.Forall₂ (SamePhysics P L) a.2 b.2) (popLast x.particles) (popLast y.particles) := by
    generalize y.particles = l' at *
    generalize x.particles = l at *
    have hl := hxy.1
    unfold popLast
    rcases List.eq_nil_or_concat l with rfl | ⟨xs, xa, rfl⟩
    · cases hl
      simp [RRel, rpanic]
    · rcases List.eq_nil_or_concat l' with rfl | ⟨ys, ya, rfl⟩
      · have := hl.length_eq
        simp at this
      · rw [List.concat_eq_append, List.concat_eq_append] at *
        have hlen : xs.length = ys.length := by
          have := hl.length_eq
          simpa using this
        have e1 := List.forall₂_take_append _ _ _ hl
        have e2 := List.forall₂_drop_append _ _ _ hl
        rw [← hlen, List.take_left ] at e1
        rw [← hlen, List.drop_left] at e2
        simp only [List.getLast?_append, List.getLast?_singleton, Option.some_or,
          List.dropLast_concat]
        refine ⟨?_, e1⟩
        cases e2 with
        | cons h _ => exact h
  refine MRel.bind (MRel.lift hpop) fun a b hab => ?_
  refine MRel.bind (traj_loop_rel rcpr hT h ho fuel _ _ ⟨hab.1, hab.2, hxy.2.2⟩) fun s s' hs => ?_
  exact MRel.pure ⟨hs.2.1, List.rel_append hxy.2.1 (.cons hs.1 .nil), hs.2.2⟩

end RustBCA
