import Verif.Proofs.CascadeTree
import Verif.Proofs.PassTrace
import Verif.Props.Streams

/-!
# C16 (first step), C80, C81: recoils, and the order in which a cascade is followed
-/

set_option linter.unusedSectionVars false

namespace RustBCA
open Scalar Spec

section Collision

theorem estimated_range_eq (Za Zb Ma Mb E n : ℝ) :
    powi (powf (LINDHARD_REDUCED_ENERGY_PREFACTOR ℝ*screening_length Za Zb
      (.MOLIERE : InteractionPotential ℝ)*Mb/(Ma+Mb)/Za/Zb*E) 0.3 + 0.1) 3/n
      /screening_length Za Zb (.MOLIERE : InteractionPotential ℝ)
      /screening_length Za Zb (.MOLIERE : InteractionPotential ℝ)
    = estimatedRange Za Zb Ma Mb E n := by
  have ha : screening_length Za Zb (.MOLIERE : InteractionPotential ℝ) = lindhardLength Za Zb := by
    unfold screening_length lindhardLength
    simp only [powf_real, sqrt_real]
    norm_num
  have h4 : (4.0 : ℝ) = 4 := by norm_num
  rw [ha]
  unfold estimatedRange LINDHARD_REDUCED_ENERGY_PREFACTOR
  rw [powi_real, show (3:ℤ) = ((3:ℕ):ℤ) from rfl, zpow_natCast, powf_real, pi_real, h4]

theorem keep_recoil_iff (p q : Particle ℝ) (mat : Material ℝ) (o : Options ℝ) :
    RSat (keep_recoil p q mat o) (fun b => b = true ↔ ToFollow mat o p q) (fun _ => True) := by
  unfold keep_recoil
  split
  · rename_i h
    simp only [Bool.and_eq_true] at h
    simp only [rsat_bind]
    refine rsat_mono (rsat_eq _) (fun n hn => ?_) (fun _ _ => trivial)
    refine rsat_mono (rsat_eq _) (fun c hc => ?_) (fun _ _ => trivial)
    obtain ⟨x, y, z⟩ := c
    simp only [rsat_pure, Bool.and_eq_true]
    rw [estimated_range_eq, lt_real, lt_real, sqrt_real]
    have hd : Real.sqrt ((x - q.pos.x)*(x - q.pos.x) + (y - q.pos.y)*(y - q.pos.y)
        + (z - q.pos.z)*(z - q.pos.z)) = Spec.norm (minus ⟨x, y, z⟩ q.pos) := rfl
    rw [hd]
    constructor
    · rintro ⟨h1, h2⟩
      exact ⟨h.1, h2, fun _ => ⟨n, x, y, z, hn, hc, h1⟩⟩
    · rintro ⟨_, h2, h3⟩
      obtain ⟨n', x', y', z', hn', hc', h4⟩ := h3 h.2
      rw [hn] at hn'
      have hc2 : mat.geometry.closest_point q.pos.x q.pos.y q.pos.z = .ok (x, y, z) := hc
      rw [hc2] at hc'
      injection hn' with hn'
      injection hc' with hc'
      injection hc' with e1 hc'
      injection hc' with e2 e3
      subst hn' e1 e2 e3
      exact ⟨h4, h2⟩
  · rename_i h
    simp only [rsat_pure, Bool.and_eq_true, lt_real]
    constructor
    · rintro ⟨h1, h2⟩
      refine ⟨h1, h2, fun h3 => ?_⟩
      rw [h1, h3] at h; simp at h
    · rintro ⟨h1, h2, _⟩
      exact ⟨h1, h2⟩

/-- **C80.** A pass of the collision loop, completely. An atom `q` at rest, of one species of the
target, is chosen. If it does not lie inside the material, or the projectile is outside the energy
barrier, nothing happens. Otherwise the collision is computed, the projectile is turned by `psi` and
loses the recoil energy `T`; the atom, turned by `-psi_recoil`, starts with the energy `T` minus
the mean bulk binding energy of the place, and is put on top of the stack exactly if it is to be
followed, that is if recoils are asked for, this energy exceeds its cutoff and, with deep recoils
suppressed, it is near the surface. -/
theorem C80_collision (rcpr : Rcpr ℝ) (mat : Material ℝ) (o : Options ℝ) (s s' : StepState ℝ)
    (g : BinaryCollisionGeometry ℝ) (k : Nat) (t t' : Tape ℝ)
    (run : collision_step rcpr mat o s (g, k) t = .ok (s', t')) :
    ∃ i q, choose_collision_partner s.particle_1 mat g o t = .ok ((i, q), t') ∧ IsSpecies mat i q ∧
      q.pos = recoil_position s.particle_1.pos s.particle_1.dir g ∧ q.first_step = false ∧
      q.asymptotic_deflection = 0 ∧
      ((mat.geometry.inside q.pos.x q.pos.y q.pos.z = .ok false ∨
          mat.geometry.inside_energy_barrier s.particle_1.pos.x s.particle_1.pos.y
            s.particle_1.pos.z = .ok false) ∧ s' = s ∨
        mat.geometry.inside q.pos.x q.pos.y q.pos.z = .ok true ∧
        mat.geometry.inside_energy_barrier s.particle_1.pos.x s.particle_1.pos.y
          s.particle_1.pos.z = .ok true ∧
        ∃ r eb recoil, calculate_binary_collision rcpr s.particle_1 q g o = .ok (.ok r) ∧
          mat.average_bulk_binding_energy q.pos.x q.pos.y q.pos.z = .ok eb ∧
          recoil = { q with
            E := r.recoil_energy - eb
            energy_origin := r.recoil_energy - eb
            dir := (q.rotate (-r.psi_recoil) g.phi_azimuthal).dir
            dir_old := (q.rotate (-r.psi_recoil) g.phi_azimuthal).dir } ∧
          s'.particle_1 = { s.particle_1 with
            E := s.particle_1.E - r.recoil_energy
            dir := (s.particle_1.rotate r.psi g.phi_azimuthal).dir
            number_collision_events := s.particle_1.number_collision_events +
              (if k = 0 ∧ 0 < r.psi then 1 else 0) } ∧
          s'.total_asymptotic_deflection
            = s.total_asymptotic_deflection + r.asymptotic_deflection ∧
          (ToFollow mat o s'.particle_1 recoil → s'.particles = s.particles ++ [recoil]) ∧
          (¬ ToFollow mat o s'.particle_1 recoil → s'.particles = s.particles)) := by
  have key : Sat (collision_step rcpr mat o s (g, k)) t (fun s' t' =>
    ∃ i q, choose_collision_partner s.particle_1 mat g o t = .ok ((i, q), t') ∧ IsSpecies mat i q ∧
      q.pos = recoil_position s.particle_1.pos s.particle_1.dir g ∧ q.first_step = false ∧
      q.asymptotic_deflection = 0 ∧
      ((mat.geometry.inside q.pos.x q.pos.y q.pos.z = .ok false ∨
          mat.geometry.inside_energy_barrier s.particle_1.pos.x s.particle_1.pos.y
            s.particle_1.pos.z = .ok false) ∧ s' = s ∨
        mat.geometry.inside q.pos.x q.pos.y q.pos.z = .ok true ∧
        mat.geometry.inside_energy_barrier s.particle_1.pos.x s.particle_1.pos.y
          s.particle_1.pos.z = .ok true ∧
        ∃ r eb recoil, calculate_binary_collision rcpr s.particle_1 q g o = .ok (.ok r) ∧
          mat.average_bulk_binding_energy q.pos.x q.pos.y q.pos.z = .ok eb ∧
          recoil = { q with
            E := r.recoil_energy - eb
            energy_origin := r.recoil_energy - eb
            dir := (q.rotate (-r.psi_recoil) g.phi_azimuthal).dir
            dir_old := (q.rotate (-r.psi_recoil) g.phi_azimuthal).dir } ∧
          s'.particle_1 = { s.particle_1 with
            E := s.particle_1.E - r.recoil_energy
            dir := (s.particle_1.rotate r.psi g.phi_azimuthal).dir
            number_collision_events := s.particle_1.number_collision_events +
              (if k = 0 ∧ 0 < r.psi then 1 else 0) } ∧
          s'.total_asymptotic_deflection
            = s.total_asymptotic_deflection + r.asymptotic_deflection ∧
          (ToFollow mat o s'.particle_1 recoil → s'.particles = s.particles ++ [recoil]) ∧
          (¬ ToFollow mat o s'.particle_1 recoil → s'.particles = s.particles)))
      (fun _ => True) := by
    unfold collision_step
    simp only [sat_bind]
    refine sat_mono (sat_and (sat_eq _ _) (partner_exact s.particle_1 mat g o t))
      (fun a t1 ha => ?_) (fun _ _ => trivial)
    obtain ⟨i, q⟩ := a
    obtain ⟨hrun, _, hsp, hpos, _, _, _, _, hasy, hfs⟩ := ha
    simp only at hsp hpos hasy hfs
    simp only [sat_lift]
    refine rsat_mono (rsat_eq _) (fun ins hins => ?_) (fun _ _ => trivial)
    refine rsat_mono (rsat_eq _) (fun ib hib => ?_) (fun _ _ => trivial)
    unfold Material.inside at hins
    unfold Material.inside_energy_barrier at hib
    have hasy' : q.asymptotic_deflection = 0 := by rw [hasy]; norm_num
    split
    · rename_i hc
      simp only [Bool.and_eq_true] at hc
      rw [hc.1] at hins
      rw [hc.2] at hib
      simp only [sat_bind, sat_lift]
      refine rsat_mono (rsat_eq _) (fun res hres => ?_) (fun _ _ => trivial)
      cases res with
      | error m => simp [unwrapA]
      | ok r =>
        simp only [unwrapA, rsat_ok]
        have hap : RSat (apply_collision mat o k g i q r s) (fun s' => ∃ eb recoil,
          mat.average_bulk_binding_energy q.pos.x q.pos.y q.pos.z = .ok eb ∧
          recoil = { q with
            E := r.recoil_energy - eb
            energy_origin := r.recoil_energy - eb
            dir := (q.rotate (-r.psi_recoil) g.phi_azimuthal).dir
            dir_old := (q.rotate (-r.psi_recoil) g.phi_azimuthal).dir } ∧
          s'.particle_1 = { s.particle_1 with
            E := s.particle_1.E - r.recoil_energy
            dir := (s.particle_1.rotate r.psi g.phi_azimuthal).dir
            number_collision_events := s.particle_1.number_collision_events +
              (if k = 0 ∧ 0 < r.psi then 1 else 0) } ∧
          s'.total_asymptotic_deflection
            = s.total_asymptotic_deflection + r.asymptotic_deflection ∧
          (ToFollow mat o s'.particle_1 recoil → s'.particles = s.particles ++ [recoil]) ∧
          (¬ ToFollow mat o s'.particle_1 recoil → s'.particles = s.particles))
            (fun _ => True) := by
          unfold apply_collision
          obtain ⟨s1, hs1, h1, h2, h3⟩ : ∃ s1, (if (k == 0) = true then { s with
              normalized_distance_of_closest_approach := r.normalized_distance_of_closest_approach
              strong_collision_Z := q.Z
              strong_collision_index := i } else s) = s1 ∧ s1.particle_1 = s.particle_1 ∧
              s1.particles = s.particles ∧
              s1.total_asymptotic_deflection = s.total_asymptotic_deflection :=
            ⟨_, rfl, by split <;> rfl, by split <;> rfl, by split <;> rfl⟩
          simp only [hs1, rsat_bind, h1, h2, h3]
          refine rsat_mono (rsat_eq _) (fun eb heb => ?_) (fun _ _ => trivial)
          refine rsat_mono (keep_recoil_iff _ _ _ _) (fun keep hk => ?_) (fun _ _ => trivial)
          simp only [rsat_pure]
          have hp1 : (if ((r.psi >. 0.0) && (k == 0)) = true then
              { ({ s.particle_1 with E := s.particle_1.E + -r.recoil_energy }.rotate r.psi
                  g.phi_azimuthal) with
                number_collision_events := ({ s.particle_1 with
                  E := s.particle_1.E + -r.recoil_energy }.rotate r.psi
                    g.phi_azimuthal).number_collision_events + 1 }
              else { s.particle_1 with E := s.particle_1.E + -r.recoil_energy }.rotate r.psi
                  g.phi_azimuthal)
              = { s.particle_1 with
                E := s.particle_1.E - r.recoil_energy
                dir := (s.particle_1.rotate r.psi g.phi_azimuthal).dir
                number_collision_events := s.particle_1.number_collision_events +
                  (if k = 0 ∧ 0 < r.psi then 1 else 0) } := by
            have h0 : (0.0 : ℝ) = 0 := by norm_num
            by_cases hk0 : k = 0
            · by_cases hps : 0 < r.psi
              · have : (r.psi >. (0.0:ℝ)) = true := by rw [lt_real, h0]; exact hps
                simp only [hk0, this, hps, beq_self_eq_true, Bool.and_self, if_true, and_self,
                  sub_eq_add_neg]
                rfl
              · have : (r.psi >. (0.0:ℝ)) = false := by
                  rw [lt_real_false, h0]; exact not_lt.1 hps
                simp only [hk0, this, hps, Bool.false_and, Bool.false_eq_true, if_false, and_false,
                  sub_eq_add_neg]
                rfl
            · have : (k == 0) = false := by simp [hk0]
              simp only [hk0, this, Bool.and_false, Bool.false_eq_true, if_false, false_and,
                sub_eq_add_neg]
              rfl
          refine ⟨eb, _, heb, rfl, hp1, trivial, ?_, ?_⟩
          · intro hf
            have : keep = true := hk.2 hf
            rw [this]; rfl
          · intro hf
            have : keep = false := by
              cases keep
              · rfl
              · exact absurd (hk.1 rfl) hf
            rw [this]; rfl
        refine rsat_mono hap (fun s' hs' => ?_) (fun _ _ => trivial)
        obtain ⟨eb, recoil, e1, e2, e3, e4, e5, e6⟩ := hs'
        exact ⟨i, q, hrun, hsp, hpos, hfs, hasy', Or.inr ⟨hins, hib, r, eb, recoil, hres, e1, e2,
          e3, e4, e5, e6⟩⟩
    · rename_i hc
      simp only [sat_pure]
      refine ⟨i, q, hrun, hsp, hpos, hfs, hasy', Or.inl ⟨?_, trivial⟩⟩
      cases ins
      · exact Or.inl hins
      · cases ib
        · exact Or.inr hib
        · simp at hc
  exact sat_of_ok key run

/-- **C80, outside.** While the projectile is outside the energy barrier no collision takes place:
nothing at all changes in the collision loop. -/
theorem C80_no_collision_outside {F : Type} [Scalar F] (rcpr : Rcpr F) (mat : Material F)
    (o : Options F) (l : List (BinaryCollisionGeometry F × Nat)) (s s' : StepState F)
    (t t' : Tape F)
    (hout : mat.geometry.inside_energy_barrier s.particle_1.pos.x s.particle_1.pos.y
      s.particle_1.pos.z = .ok false)
    (run : forFold (collision_step rcpr mat o) l s t = .ok (s', t')) : s' = s := by
  have key := sat_forFold (E := fun _ => True) (body := collision_step rcpr mat o)
    (fun (x : StepState F) _ => x = s) l ?_ s t rfl
  · exact sat_of_ok key run
  · intro gk _ x t1 hx
    subst hx
    refine sat_mono (collision_step_cases rcpr mat o x gk t1) (fun y _ hy => ?_)
      (fun _ _ => trivial)
    rcases hy with rfl | ⟨_, _, _, _, _, _, _, _, _, _, _, _, _, hb, _⟩
    · rfl
    · rw [hout] at hb; cases hb

/-- **C80, deep recoils.** The estimate that decides whether a recoil is deep is made with the energy
the *projectile* has left, not with the energy of the recoil: after a collision in which the
projectile gave up all its energy, the recoil is followed only within `0.001/(n a^2)` of the
surface, however energetic it is. -/
theorem C80_deep_recoil_energy_ignored (mat : Material ℝ) (p q : Particle ℝ) (hp : p.E = 0)
    (n : ℝ) (hn : mat.total_number_density q.pos.x q.pos.y q.pos.z = .ok n)
    (h : NearSurface mat p q) :
    ∃ x y z, mat.geometry.closest_point q.pos.x q.pos.y q.pos.z = .ok (x, y, z) ∧
      Spec.norm (minus ⟨x, y, z⟩ q.pos) < 0.001/(n*lindhardLength p.Z q.Z^2) := by
  obtain ⟨n', x, y, z, hn', hc, hlt⟩ := h
  rw [hn] at hn'
  injection hn' with hn'
  subst hn'
  refine ⟨x, y, z, hc, ?_⟩
  have : estimatedRange p.Z q.Z p.m q.m p.E n = 0.001/(n*lindhardLength p.Z q.Z^2) := by
    unfold estimatedRange
    simp only [hp, mul_zero]
    rw [Real.zero_rpow (by norm_num), div_div, div_div]
    have e : ((0:ℝ) + 0.1)^3 = 0.001 := by norm_num
    rw [e, pow_two]
  rw [← this]; exact hlt

end Collision

section Order
variable {F : Type} [Scalar F]

/-- **C81.** `single_ion_bca` with enough fuel returns `out` and leaves the stream `t'` exactly if
this is the result of following the ion to its end and then the recoils it set in motion, the last
one first, each with everything it sets in motion in turn. -/
theorem C81_depth_first (rcpr : Rcpr F) (mat : Material F) (o : Options F) (ion : Particle F)
    (t t' : Tape F) (out : List (Particle F)) (hs : ion.stopped = false) (hl : ion.left = false) :
    (∃ fuel, single_ion_bca rcpr fuel ion mat o t = .ok (out, t')) ↔
      Cascades rcpr mat o [ion] t out t' := by
  constructor
  · rintro ⟨fuel, h⟩
    have h' : (whileFuel (fun s : CascadeState F => decide (0 < s.particle_index))
      (cascade_body rcpr mat o fuel) fuel ⟨[ion], [], 1⟩ t >>= fun x =>
        Except.ok (x.1.particle_output, x.2)) = .ok (out, t') := h
    cases hx : whileFuel (fun s : CascadeState F => decide (0 < s.particle_index))
      (cascade_body rcpr mat o fuel) fuel ⟨[ion], [], 1⟩ t with
    | error e => rw [hx] at h'; cases h'
    | ok x =>
      obtain ⟨s, t2⟩ := x
      rw [hx] at h'
      injection h' with h'
      injection h' with h1 h2
      simp only at h1 h2
      subst h1 h2
      obtain ⟨out, h3, h4⟩ := cascades_of_loop fuel fuel [ion] [] t t2 s
        (by intro p hp; rw [List.mem_singleton] at hp; subst hp; exact ⟨hs, hl⟩) hx
      rw [h3, List.nil_append]
      exact h4
  · intro h
    obtain ⟨N, hN⟩ := loop_of_cascades h
      (by intro p hp; rw [List.mem_singleton] at hp; subst hp; exact ⟨hs, hl⟩)
    refine ⟨max N out.length + 1, ?_⟩
    obtain ⟨fuel, hfuel⟩ : ∃ fuel, fuel = max N out.length + 1 := ⟨_, rfl⟩
    obtain ⟨n, hn⟩ : ∃ n, fuel = (n + 1) + out.length := ⟨fuel - 1 - out.length, by omega⟩
    have h1 := hN fuel (by omega) (n + 1) [] []
    rw [← hn] at h1
    rw [← hfuel]
    show (whileFuel (fun s : CascadeState F => decide (0 < s.particle_index))
      (cascade_body rcpr mat o fuel) fuel ⟨[ion], [], 1⟩ t >>= fun x =>
        Except.ok (x.1.particle_output, x.2)) = .ok (out, t')
    have h2 : whileFuel (fun s : CascadeState F => decide (0 < s.particle_index))
      (cascade_body rcpr mat o fuel) fuel ⟨[ion], [], 1⟩ t = .ok (⟨[], out, 0⟩, t') := by
      refine Eq.trans h1 ?_
      rw [whileFuel_succ_run]
      simp
    rw [h2]
    rfl

/-- What `single_ion_bca` returns for the particles `ps`, called for one after the other on the
successive random numbers. -/
inductive Spec.CallsInTurn (rcpr : Rcpr F) (mat : Material F) (o : Options F) :
    List (Particle F) → Tape F → List (List (Particle F)) → Tape F → Prop
  | nil {t} : CallsInTurn rcpr mat o [] t [] t
  | cons {p ps t out t1 outs t2} : (∃ fuel, single_ion_bca rcpr fuel p mat o t = .ok (out, t1)) →
      CallsInTurn rcpr mat o ps t1 outs t2 → CallsInTurn rcpr mat o (p :: ps) t (out :: outs) t2

/-- **C81, subcascades.** The result is the final state of the ion, followed by what
`single_ion_bca` returns when called, one after the other, with each of the recoils the ion set in
motion (the last one first): every recoil is followed exactly once, and its history does not depend
on how the cascade came to it. -/
theorem C81_subcascades (rcpr : Rcpr F) (mat : Material F) (o : Options F) (fuel : Nat)
    (ion : Particle F) (t t' : Tape F) (out : List (Particle F)) (hs : ion.stopped = false)
    (hl : ion.left = false) (run : single_ion_bca rcpr fuel ion mat o t = .ok (out, t')) :
    ∃ q recoils t1 outs, Path rcpr mat o ion t q recoils t1 ∧
      CallsInTurn rcpr mat o recoils.reverse t1 outs t' ∧ out = q :: outs.flatten := by
  have h := (C81_depth_first rcpr mat o ion t t' out hs hl).1 ⟨fuel, run⟩
  cases h with
  | @cons _ _ _ q rec t1 sub t2 rest _ hp hsub hrest =>
    cases hrest
    have key : ∀ (ps : List (Particle F)) (t : Tape F) (out : List (Particle F)) (t' : Tape F),
        Cascades rcpr mat o ps t out t' → (∀ p ∈ ps, p.stopped = false ∧ p.left = false) →
        ∃ outs, CallsInTurn rcpr mat o ps t outs t' ∧ out = outs.flatten := by
      intro ps
      induction ps with
      | nil => intro t out t' h _; cases h; exact ⟨[], .nil, rfl⟩
      | cons p ps ih =>
        intro t out t' h hfr
        have h2 : Cascades rcpr mat o ([p] ++ ps) t out t' := h
        obtain ⟨x, y, t1, rfl, h3, h4⟩ := cascades_append.1 h2
        obtain ⟨outs, h5, h6⟩ := ih _ _ _ h4 (fun r hr => hfr r (List.mem_cons_of_mem _ hr))
        have hp := hfr p (by simp)
        exact ⟨x :: outs, .cons ((C81_depth_first rcpr mat o p t t1 x hp.1 hp.2).2 h3) h5,
          by rw [h6]; rfl⟩
    obtain ⟨outs, h1, h2⟩ := key _ _ _ _ hsub
      (fun r hr => path_recoils_fresh hp r (List.mem_reverse.1 hr))
    exact ⟨q, rec, t1, outs, hp, h1, by rw [h2, List.append_nil]⟩

/-- **C81, the stack does not matter.** What a pass of the trajectory loop does to the moving
particle, and the recoils it creates, are the same whatever other particles wait to be followed. -/
theorem C81_others_do_not_matter (rcpr : Rcpr F) (mat : Material F) (o : Options F)
    (p q : Particle F) (ps new : List (Particle F)) (t t' : Tape F) :
    trajectory_step rcpr mat o p [] t = .ok ((q, new), t') ↔
      trajectory_step rcpr mat o p ps t = .ok ((q, ps ++ new), t') := by
  constructor
  · exact step_below ps
  · intro h
    obtain ⟨new', h1, h2⟩ := step_alone h
    rw [List.append_cancel_left h1]; exact h2

theorem mfp_first (p : Particle F) (mat : Material F) (o : Options F) (t : Tape F) :
    Sat (determine_mfp_phi_impact_parameter p mat o) t
      (fun r _ => r.1 = { p with first_step := false }) (fun _ => True) := by
  unfold determine_mfp_phi_impact_parameter
  simp only [sat_bind]
  refine sat_mono (sat_trivial _) (fun _ t1 _ => ?_) (fun _ _ => trivial)
  refine sat_mono (sat_trivial _) (fun _ t2 _ => ?_) (fun _ _ => trivial)
  have key : ∀ (c : Particle F) (m : F) (n : F) (tt : Tape F),
      Sat (if c.first_step then do
          let r ← random
          pure ({ c with first_step := false }, m*r)
        else pure (c, n) : M F (Particle F × F)) tt (fun r _ => r.1 = { c with first_step := false })
        (fun _ => True) := by
    intro c m n tt
    split
    · simp only [sat_bind, sat_random, sat_pure]
    · rename_i h
      simp only [Bool.not_eq_true] at h
      simp only [sat_pure]
      rw [← h]
  split
  · simp only [sat_bind]
    refine sat_mono (sat_trivial _) (fun a t3 _ => ?_) (fun _ _ => trivial)
    split
    · simp only [sat_bind, sat_random]
      refine sat_mono (key p _ _ _) (fun r t4 hr => ?_) (fun _ _ => trivial)
      refine sat_mono (sat_trivial _) (fun _ t5 _ => ?_) (fun _ _ => trivial)
      refine sat_mono (sat_trivial _) (fun _ t6 _ => ?_) (fun _ _ => trivial)
      exact hr
    · simp only [sat_bind, sat_random]
      refine sat_mono (key p _ _ _) (fun r t4 hr => ?_) (fun _ _ => trivial)
      refine sat_mono (sat_trivial _) (fun _ t5 _ => ?_) (fun _ _ => trivial)
      refine sat_mono (sat_trivial _) (fun _ t6 _ => ?_) (fun _ _ => trivial)
      exact hr
  · simp only [sat_bind]
    refine sat_mono (sat_trivial _) (fun a t3 _ => ?_) (fun _ _ => trivial)
    refine sat_mono (key p _ _ _) (fun r t4 hr => ?_) (fun _ _ => trivial)
    refine sat_mono (sat_trivial _) (fun _ t5 _ => ?_) (fun _ _ => trivial)
    exact hr

theorem loop_first_step (rcpr : Rcpr F) (mat : Material F) (o : Options F)
    (l : List (BinaryCollisionGeometry F × Nat)) (s : StepState F) (t : Tape F) :
    Sat (forFold (collision_step rcpr mat o) l s) t (fun s' _ =>
      s'.particle_1.first_step = s.particle_1.first_step ∧
      ∃ new, s'.particles = s.particles ++ new ∧ ∀ r ∈ new, r.first_step = false)
      (fun _ => True) := by
  refine sat_forFold (E := fun _ => True) (body := collision_step rcpr mat o)
    (fun (x : StepState F) _ => x.particle_1.first_step = s.particle_1.first_step ∧
      ∃ new, x.particles = s.particles ++ new ∧ ∀ r ∈ new, r.first_step = false)
    l ?_ s t ⟨rfl, [], by simp, by simp⟩
  intro gk _ x t1 ⟨h1, new, h2, h3⟩
  refine sat_mono (collision_step_cases rcpr mat o x gk t1) (fun y _ hy => ?_) (fun _ _ => trivial)
  rcases hy with rfl | ⟨si, q, r, _, _, _, _, _, _, _, _, hfs, _, _, hr, hA⟩
  · exact ⟨h1, new, h2, h3⟩
  · obtain ⟨eb, _, hst⟩ := hA.stack
    refine ⟨by rw [hA.moving]; exact h1, ?_⟩
    rcases hst with hst | hst
    · exact ⟨new, by rw [hst, h2], h3⟩
    · refine ⟨new ++ [_], by rw [hst, h2, List.append_assoc], ?_⟩
      intro r hr
      rcases List.mem_append.mp hr with hr | hr
      · exact h3 r hr
      · rw [List.mem_singleton] at hr; rw [hr]; exact hfs

/-- **C16, first step.** Only a particle's first pass can be a first step (which is shortened by a
random factor, see `C16_annuli`), and recoils have none: after a pass the mark is gone, and the
recoils created in it do not carry it. -/
theorem C16_first_step_only_once (rcpr : Rcpr F) (mat : Material F) (o : Options F)
    (p q : Particle F) (new : List (Particle F)) (t t' : Tape F)
    (run : trajectory_step rcpr mat o p [] t = .ok ((q, new), t')) :
    q.first_step = false ∧ ∀ r ∈ new, r.first_step = false := by
  have key : Sat (trajectory_step rcpr mat o p []) t (fun x _ => x.1.first_step = false ∧
      ∀ r ∈ x.2, r.first_step = false) (fun _ => True) := by
    unfold trajectory_step
    simp only [sat_bind]
    refine sat_mono (mfp_first p mat o t) (fun r t1 hr => ?_) (fun _ _ => trivial)
    obtain ⟨p1, gs⟩ := r
    simp only at hr
    subst hr
    refine sat_mono (loop_first_step rcpr mat o _ _ t1) (fun s t2 hs => ?_) (fun _ _ => trivial)
    obtain ⟨h1, new, h2, h3⟩ := hs
    simp only [List.nil_append] at h1 h2
    simp only [sat_lift]
    unfold finish_step
    simp only [rsat_bind]
    refine rsat_mono (rsat_trivial _) (fun g0 _ => ?_) (fun _ _ => trivial)
    refine rsat_mono (subtract_frame _ mat _ _ _ _ o) (fun r hr => ?_) (fun _ _ => trivial)
    obtain ⟨p3, el⟩ := r
    obtain ⟨E3, hE3⟩ := hr
    simp only at hE3
    refine rsat_mono (boundary_frame _ mat) (fun q hq => ?_) (fun _ _ => trivial)
    obtain ⟨E, dir, b, st, lf, tr, hq⟩ := hq
    simp only [rsat_pure]
    refine ⟨?_, by rw [h2]; exact h3⟩
    rw [hq]
    simp [hE3, h1]
  exact sat_of_ok key run

end Order

end RustBCA
