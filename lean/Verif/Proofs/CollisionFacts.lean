import Verif.Proofs.CascadeLoop

/-! # What a collision does, exactly (helper lemmas, any scalar) -/

set_option linter.unusedSectionVars false

namespace RustBCA
open Scalar
variable {F : Type} [Scalar F]

theorem rsat_eq {α : Type} (r : Res α) : RSat r (fun a => r = .ok a) (fun e => r = .error e) := by
  cases r <;> simp

theorem sat_eq {α : Type} (m : M F α) (t : Tape F) :
    Sat m t (fun a t' => m t = .ok (a, t')) (fun e => m t = .error e) := by
  rw [sat_iff]; exact ⟨fun _ _ h => h, fun _ h => h⟩

theorem binary_collision_ok {rcpr : Rcpr F} {p q : Particle F} {g : BinaryCollisionGeometry F}
    {o : Options F} {r : BinaryCollisionResult F}
    (h : calculate_binary_collision rcpr p q g o = .ok (.ok r)) :
    ∃ row V x0 theta, o.interaction_potential[p.interaction_index]? = some row ∧
      row[q.interaction_index]? = some V ∧
      distance_of_closest_approach rcpr p q g o = .ok x0 ∧ isNaN theta = false ∧
      r = collision_result p.m q.m p.E (screening_length p.Z q.Z V) x0 theta V := by
  have key : RSat (calculate_binary_collision rcpr p q g o) (fun a => ∀ r, a = .ok r →
      ∃ row V x0 theta, o.interaction_potential[p.interaction_index]? = some row ∧
      row[q.interaction_index]? = some V ∧
      distance_of_closest_approach rcpr p q g o = .ok x0 ∧ isNaN theta = false ∧
      r = collision_result p.m q.m p.E (screening_length p.Z q.Z V) x0 theta V)
      (fun _ => True) := by
    unfold calculate_binary_collision
    simp only [rsat_bind]
    refine rsat_mono (rsat_vget_some _ _) (fun row hrow => ?_) (fun _ _ => trivial)
    refine rsat_mono (rsat_vget_some _ _) (fun V hV => ?_) (fun _ _ => trivial)
    refine rsat_mono (rsat_trivial _) (fun row2 _ => ?_) (fun _ _ => trivial)
    refine rsat_mono (rsat_trivial _) (fun si _ => ?_) (fun _ _ => trivial)
    refine rsat_mono (rsat_eq _) (fun x0 hx0 => ?_) (fun _ _ => trivial)
    refine rsat_mono (rsat_trivial _) (fun theta _ => ?_) (fun _ _ => trivial)
    cases hn : isNaN theta with
    | true => simp
    | false =>
      simp only [Bool.false_eq_true, if_false, rsat_pure]
      intro r hr
      injection hr with hr
      exact ⟨row, V, x0, theta, hrow, hV, hx0, hn, hr.symm⟩
  rw [h] at key
  exact key r rfl

/-- Everything `apply_collision` does to the state. -/
structure Applied (mat : Material F) (o : Options F) (k : Nat) (g : BinaryCollisionGeometry F)
    (si : Nat) (q : Particle F) (r : BinaryCollisionResult F) (s s' : StepState F) : Prop where
  moving : s'.particle_1 = { s.particle_1 with
    E := s.particle_1.E + -r.recoil_energy
    dir := (Particle.rotated_dir s.particle_1.dir r.psi g.phi_azimuthal).normalize
    number_collision_events := s.particle_1.number_collision_events +
      (if (r.psi >. 0.0) && (k == 0) then 1 else 0) }
  lost : s'.total_energy_lost_to_recoils = s.total_energy_lost_to_recoils + r.recoil_energy
  deflection : s'.total_asymptotic_deflection
    = s.total_asymptotic_deflection + r.asymptotic_deflection
  strong : (s'.normalized_distance_of_closest_approach, s'.strong_collision_Z,
      s'.strong_collision_index) =
    if k = 0 then (r.normalized_distance_of_closest_approach, q.Z, si)
    else (s.normalized_distance_of_closest_approach, s.strong_collision_Z,
      s.strong_collision_index)
  stack : ∃ eb, mat.average_bulk_binding_energy q.pos.x q.pos.y q.pos.z = .ok eb ∧
    (s'.particles = s.particles ∨ s'.particles = s.particles ++ [{ q with
      E := r.recoil_energy - eb
      energy_origin := r.recoil_energy - eb
      dir := (Particle.rotated_dir q.dir (-r.psi_recoil) g.phi_azimuthal).normalize
      dir_old := (Particle.rotated_dir q.dir (-r.psi_recoil) g.phi_azimuthal).normalize }])

theorem apply_collision_applied (mat : Material F) (o : Options F) (k : Nat)
    (g : BinaryCollisionGeometry F) (si : Nat) (q : Particle F) (r : BinaryCollisionResult F)
    (s : StepState F) :
    RSat (apply_collision mat o k g si q r s) (fun s' => Applied mat o k g si q r s s')
      (fun _ => True) := by
  unfold apply_collision
  obtain ⟨s1, hs1, h1, h2, h3, h4, h5⟩ : ∃ s1, (if (k == 0) = true then { s with
      normalized_distance_of_closest_approach := r.normalized_distance_of_closest_approach
      strong_collision_Z := q.Z
      strong_collision_index := si } else s) = s1 ∧ s1.particle_1 = s.particle_1 ∧
      s1.particles = s.particles ∧
      s1.total_energy_lost_to_recoils = s.total_energy_lost_to_recoils ∧
      s1.total_asymptotic_deflection = s.total_asymptotic_deflection ∧
      (s1.normalized_distance_of_closest_approach, s1.strong_collision_Z,
        s1.strong_collision_index) =
      if k = 0 then (r.normalized_distance_of_closest_approach, q.Z, si)
      else (s.normalized_distance_of_closest_approach, s.strong_collision_Z,
        s.strong_collision_index) :=
    ⟨_, rfl, by split <;> rfl, by split <;> rfl, by split <;> rfl, by split <;> rfl, by
      by_cases hk : k = 0 <;> simp [hk]⟩
  simp only [hs1, rsat_bind]
  refine rsat_mono (rsat_eq _) (fun eb heb => ?_) (fun _ _ => trivial)
  refine rsat_mono (rsat_trivial _) (fun keep hk => ?_) (fun _ _ => trivial)
  simp only [rsat_pure]
  refine ⟨?_, ?_, ?_, ?_, eb, heb, ?_⟩
  · rw [h1]
    by_cases hpk : ((r.psi >. 0.0) && (k == 0)) = true
    · simp only [hpk, if_true]; rfl
    · simp only [hpk]; rfl
  · rw [h3]
  · rw [h4]
  · exact h5
  · rw [h2]
    cases keep
    · left; rfl
    · right; rfl

/-- The partner chosen for the collision, exactly. -/
theorem partner_exact (p : Particle F) (mat : Material F) (g : BinaryCollisionGeometry F)
    (o : Options F) (t : Tape F) :
    Sat (choose_collision_partner p mat g o) t (fun r _ => Partner mat o p r.2 ∧
      IsSpecies mat r.1 r.2 ∧ r.2.pos = recoil_position p.pos p.dir g ∧
      r.2.dir = ⟨p.dir.x/p.dir.magnitude, p.dir.y/p.dir.magnitude, p.dir.z/p.dir.magnitude⟩ ∧
      r.2.dir_old = r.2.dir ∧ r.2.backreflected = false ∧ r.2.pos_old = r.2.pos ∧
      r.2.asymptotic_deflection = 0.0 ∧ r.2.first_step = false)
      (fun _ => True) := by
  unfold choose_collision_partner Material.choose
  simp only [sat_bind, sat_random, sat_lift]
  refine rsat_mono (rsat_trivial _) (fun cc _ => ?_) (fun _ _ => trivial)
  split
  · simp only [sat_lift]
    refine rsat_mono (species_sat mat _) (fun s hs => ?_) (fun _ _ => trivial)
    obtain ⟨h1, h2, h3, h4, h5, h6, h7⟩ := hs
    refine ⟨⟨⟨_, h1, h2, h3, h4, h5, h6⟩, rfl, rfl, rfl, rfl, rfl, rfl, rfl, rfl, rfl, rfl, rfl⟩,
      ?_, rfl, rfl, rfl, rfl, rfl, rfl, rfl⟩
    rw [h7]; exact ⟨h1, h2, h3, h4, h5, h6⟩
  · simp

/-- One pass of the collision loop: nothing, or a collision with a partner. -/
theorem collision_step_cases (rcpr : Rcpr F) (mat : Material F) (o : Options F) (s : StepState F)
    (gk : BinaryCollisionGeometry F × Nat) (t : Tape F) :
    Sat (collision_step rcpr mat o s gk) t (fun s' _ => s' = s ∨ ∃ si q r,
      Partner mat o s.particle_1 q ∧ IsSpecies mat si q ∧
      q.pos = recoil_position s.particle_1.pos s.particle_1.dir gk.1 ∧
      q.dir = ⟨s.particle_1.dir.x/s.particle_1.dir.magnitude,
        s.particle_1.dir.y/s.particle_1.dir.magnitude,
        s.particle_1.dir.z/s.particle_1.dir.magnitude⟩ ∧
      q.dir_old = q.dir ∧ q.backreflected = false ∧ q.pos_old = q.pos ∧
      q.asymptotic_deflection = 0.0 ∧ q.first_step = false ∧
      mat.geometry.inside q.pos.x q.pos.y q.pos.z = .ok true ∧
      mat.geometry.inside_energy_barrier s.particle_1.pos.x s.particle_1.pos.y
        s.particle_1.pos.z = .ok true ∧
      calculate_binary_collision rcpr s.particle_1 q gk.1 o = .ok (.ok r) ∧
      Applied mat o gk.2 gk.1 si q r s s')
      (fun _ => True) := by
  obtain ⟨g, k⟩ := gk
  unfold collision_step
  simp only [sat_bind]
  refine sat_mono (partner_exact _ _ _ _ _) (fun r t1 hr => ?_) (fun _ _ => trivial)
  obtain ⟨si, q⟩ := r
  simp only [sat_lift] at hr ⊢
  obtain ⟨hP, hsp, hpos, hdir, hdo, hbr, hpo, hasy, hfs⟩ := hr
  refine rsat_mono (rsat_eq _) (fun ins hins => ?_) (fun _ _ => trivial)
  refine rsat_mono (rsat_eq _) (fun ib hib => ?_) (fun _ _ => trivial)
  split
  · rename_i hc
    simp only [Bool.and_eq_true] at hc
    simp only [sat_bind, sat_lift]
    refine rsat_mono (rsat_eq _) (fun res hres => ?_) (fun _ _ => trivial)
    cases res with
    | error m => simp [unwrapA]
    | ok r =>
      simp only [unwrapA, rsat_ok]
      refine rsat_mono (apply_collision_applied mat o k g si q r s) (fun s' hs' => ?_)
        (fun _ _ => trivial)
      unfold Material.inside at hins
      unfold Material.inside_energy_barrier at hib
      rw [hc.1] at hins
      rw [hc.2] at hib
      exact Or.inr ⟨si, q, r, hP, hsp, hpos, hdir, hdo, hbr, hpo, hasy, hfs, hins, hib, hres, hs'⟩
  · exact Or.inl rfl

end RustBCA
