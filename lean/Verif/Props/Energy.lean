import Verif.Proofs.EnergyLoop
import Verif.Props.Cascade
import Verif.Props.Streams
import Verif.Props.FreePaths

/-!
# Properties C71-C73: energies over a whole cascade (over the reals)
-/

set_option linter.unusedVariables false
set_option linter.unusedSimpArgs false

namespace RustBCA
open Scalar Spec

section
variable (rcpr : Rcpr ℝ) (mat : Material ℝ) (o : Options ℝ) (fuel : Nat) (ion : Particle ℝ)
  (tape : Tape ℝ)

/-- What a trajectory does to the energies, from the particle `p` and the stack `ps` on. -/
structure TrajSound (p : Particle ℝ) (ps : List (Particle ℝ)) (x : TrajState ℝ) : Prop where
  moving : SoundParticle x.particle_1
  stack : (∀ r ∈ ps, SoundParticle r) → ∀ r ∈ x.particles, SoundParticle r
  free : NoSurfaceBinding mat p → NoSurfaceBinding mat x.particle_1
  freeStack : (∀ E ∈ mat.Es, E = 0) → (∀ r ∈ ps, NoSurfaceBinding mat r) →
    ∀ r ∈ x.particles, NoSurfaceBinding mat r
  total : LossNeverNegative rcpr mat o fuel ion tape → NoSurfaceBinding mat p →
    x.particle_1.E + totalEnergy x.particles ≤ p.E + totalEnergy ps
  falls : LossNeverNegative rcpr mat o fuel ion tape → NoSurfaceBinding mat p →
    x.particle_1.E ≤ p.E
  incident : x.particle_1.incident = p.incident
  ledger : (p.incident && o.track_energy_losses) = true → NoSurfaceBinding mat p →
    ∃ recs, x.particle_1.energies = p.energies ++ recs ∧
      p.E - x.particle_1.E ≤ recordedLoss recs ∧
      (LossNeverNegative rcpr mat o fuel ion tape → 0 < x.particle_1.E →
        p.E - x.particle_1.E = recordedLoss recs) ∧
      (∀ e ∈ recs, 0 ≤ e.En) ∧
      (LossNeverNegative rcpr mat o fuel ion tape → ∀ e ∈ recs, 0 ≤ e.Ee)

theorem recordedLoss_append (l : List (EnergyLoss ℝ)) (e : EnergyLoss ℝ) :
    recordedLoss (l ++ [e]) = recordedLoss l + (e.En + e.Ee) := by
  simp [recordedLoss]

theorem traj_sound (hm : SoundTarget mat) {s : CascadeState ℝ} {t : Tape ℝ} {p : Particle ℝ}
    {ps : List (Particle ℝ)} (hreach : AtHead rcpr mat o fuel ion tape s t)
    (hpos : 0 < s.particle_index) (hpop : popLast s.particles = .ok (p, ps))
    (hp : SoundParticle p) :
    Sat (whileFuel TrajState.running (traj_body rcpr mat o) fuel ⟨p, ps, s.particle_index⟩) t
      (fun x _ => TrajSound rcpr mat o fuel ion tape p ps x) (fun _ => True) := by
  have := sat_whileFuel (E := fun _ => True) (cond := TrajState.running)
    (body := traj_body rcpr mat o)
    (fun x t' => InTrajectory rcpr mat o fuel ion tape x t' ∧
      TrajSound rcpr mat o fuel ion tape p ps x) trivial ?_ fuel ⟨p, ps, s.particle_index⟩ t
    ⟨.start hreach hpos hpop, hp, fun h => h, fun h => h, fun _ h => h, fun _ _ => le_refl _,
      fun _ _ => le_refl _, rfl, fun _ _ => ⟨[], by simp, by simp [recordedLoss],
        by simp [recordedLoss], by simp, by simp⟩⟩
  · exact sat_mono this (fun x _ h => h.1.2) (fun _ _ => trivial)
  rintro x t1 ⟨hx, hT⟩ hrun
  have hflags : x.particle_1.stopped = false ∧ x.particle_1.left = false := by
    unfold TrajState.running at hrun
    simpa only [Bool.and_eq_true, Bool.not_eq_true'] using hrun
  rw [sat_iff]
  refine ⟨fun y t2 hy => ?_, fun _ _ => trivial⟩
  have hbody := hy
  refine ⟨.next hx hrun hy, ?_⟩
  have hstep : ∃ q qs, trajectory_step rcpr mat o x.particle_1 x.particles t1 = .ok ((q, qs), t2) ∧
      y.particle_1 = q ∧ y.particles = qs := by
    have h := sat_of_ok (R := fun (y : TrajState ℝ) t2 =>
      ∃ q qs, trajectory_step rcpr mat o x.particle_1 x.particles t1 = .ok ((q, qs), t2) ∧
      y.particle_1 = q ∧ y.particles = qs) (E := fun _ => True) ?_ hy
    · exact h
    · unfold traj_body
      simp only [sat_bind, sat_pure]
      refine sat_mono (sat_eq _ _) (fun r t3 hr => ?_) (fun _ _ => trivial)
      exact ⟨r.1, r.2, hr, rfl, rfl⟩
  obtain ⟨q, qs, hq, hy1, hy2⟩ := hstep
  have hP := sat_of_ok (pass_sound rcpr o hm hT.moving x.particles t1) hq
  have hS := (sat_of_ok (trajectory_step_sat rcpr mat o x.particle_1 x.particles t1
    hflags.1 hflags.2) hq).same
  simp only at hP hS
  have hloss : LossNeverNegative rcpr mat o fuel ion tape →
      (o.electronic_stopping_mode = .LOW_ENERGY_LOCAL ∨ Forwards mat o t1 x.particle_1 q) :=
    fun h => h.imp_right fun h => hy1 ▸ h x t1 y t2 hx hrun hbody
  have hdown : LossNeverNegative rcpr mat o fuel ion tape → NoSurfaceBinding mat p →
      q.E ≤ p.E := fun h hf => by
    have h1 := hT.falls h hf
    have h2 := hP.totalFree (hloss h) (hT.free hf)
    have h3 := (sat_of_ok (pass_trace rcpr mat o x.particle_1 x.particles t1) hq)
    obtain ⟨tr⟩ := h3
    obtain ⟨new, hn1, hn2, _⟩ := tr.s_eq.stack
    have hqs : totalEnergy qs = totalEnergy x.particles + totalEnergy new := by
      rw [← totalEnergy_append]
      have := congrArg totalEnergy (tr.hqs.trans hn1)
      exact this
    have h4 : 0 ≤ totalEnergy new := by
      unfold totalEnergy
      refine List.sum_nonneg fun e he => ?_
      obtain ⟨r, hr, rfl⟩ := List.mem_map.mp he
      have h5 := hn2 r hr
      obtain ⟨i, _, _, hEc, _, _, _⟩ := h5.species
      have h6 := (lt_real _ _).1 h5.above
      have h7 := hm.Ec _ (List.mem_of_getElem? hEc)
      rw [h5.energy]; linarith
    linarith
  refine ⟨hy1 ▸ hP.moving, fun h => hy2 ▸ hP.stack (hT.stack h), fun h => hy1 ▸ hP.free (hT.free h),
    fun hz h => hy2 ▸ hP.freeStack hz (hT.freeStack hz h), fun h hf => ?_, ?_, ?_, ?_⟩
  · rw [hy1, hy2]
    have h1 := hP.totalFree (hloss h) (hT.free hf)
    have h2 := hT.total h hf
    linarith
  · rw [hy1]; exact hdown
  · rw [hy1, ← hT.incident]; exact hS.incident
  · intro hi hf
    obtain ⟨recs, h1, h2, h3, h4, h5⟩ := hT.ledger hi hf
    obtain ⟨e, k1, k2, k3, k4, k5⟩ := hP.ledger (by rw [hT.incident]; exact hi) (hT.free hf)
    refine ⟨recs ++ [e], by rw [hy1, k1, h1, List.append_assoc], ?_, ?_, ?_, ?_⟩
    · rw [hy1, recordedLoss_append]; linarith
    · intro hl hpos
      rw [hy1] at hpos ⊢
      rw [recordedLoss_append, ← k3 hpos]
      have hx0 : 0 < x.particle_1.E := by
        have := k3 hpos
        have := k5 (hloss hl)
        linarith
      rw [← h3 hl hx0]; ring
    · intro e' he'
      rcases List.mem_append.mp he' with he' | he'
      · exact h4 e' he'
      · rw [List.mem_singleton.mp he']; exact k4
    · intro hl e' he'
      rcases List.mem_append.mp he' with he' | he'
      · exact h5 hl e' he'
      · rw [List.mem_singleton.mp he']; exact k5 (hloss hl)

/-- What the cascade does to the energies. -/
structure CascadeSound (s : CascadeState ℝ) : Prop where
  stack : ∀ r ∈ s.particles, SoundParticle r
  out : ∀ r ∈ s.particle_output, SoundParticle r
  freeStack : NoSurfaceBinding mat ion → ∀ r ∈ s.particles, NoSurfaceBinding mat r
  total : LossNeverNegative rcpr mat o fuel ion tape → NoSurfaceBinding mat ion →
    totalEnergy s.particle_output + totalEnergy s.particles ≤ ion.E
  ledger : (ion.incident && o.track_energy_losses) = true → NoSurfaceBinding mat ion →
    (s.particle_output = [] ∧ s.particles = [ion]) ∨
    ∃ q rest recs, s.particle_output = q :: rest ∧ q.energies = ion.energies ++ recs ∧
      ion.E - q.E ≤ recordedLoss recs ∧
      (LossNeverNegative rcpr mat o fuel ion tape → 0 < q.E → ion.E - q.E = recordedLoss recs) ∧
      (∀ e ∈ recs, 0 ≤ e.En) ∧
      (LossNeverNegative rcpr mat o fuel ion tape → ∀ e ∈ recs, 0 ≤ e.Ee)

theorem popLast_ok {α : Type} {l : List α} {a : α} {r : List α} (h : popLast l = .ok (a, r)) :
    l = r ++ [a] := by
  unfold popLast at h
  cases hl : l.getLast? with
  | none => rw [hl] at h; simp [rpanic] at h
  | some b =>
    rw [hl] at h
    injection h with h
    injection h with h1 h2
    subst h1 h2
    have hne : l ≠ [] := by rintro rfl; simp at hl
    rw [List.getLast?_eq_some_getLast hne] at hl
    injection hl with hl
    rw [← hl]; exact (List.dropLast_append_getLast hne).symm

theorem cascade_sound (hm : SoundTarget mat) (hion : SoundParticle ion) :
    Sat (single_ion_bca rcpr fuel ion mat o) tape (fun out _ => ∃ s : CascadeState ℝ,
      out = s.particle_output ∧ s.particle_index = 0 ∧
      CascadeSound rcpr mat o fuel ion tape s) (fun _ => True) := by
  unfold single_ion_bca
  simp only [sat_bind, sat_pure]
  have := sat_whileFuel (E := fun _ => True)
    (cond := fun s : CascadeState ℝ => decide (0 < s.particle_index))
    (body := cascade_body rcpr mat o fuel)
    (fun s t' => AtHead rcpr mat o fuel ion tape s t' ∧
      CascadeSound rcpr mat o fuel ion tape s) trivial ?_ fuel ⟨[ion], [], 1⟩ tape
    ⟨.start, by simpa using hion, by simp, fun h => by simpa using h,
      fun _ _ => by simp [totalEnergy], fun _ _ => Or.inl ⟨rfl, rfl⟩⟩
  · refine sat_mono this (fun s _ h => ⟨s, rfl, ?_, h.1.2⟩) (fun _ _ => trivial)
    have := h.2
    simp only [decide_eq_false_iff_not, not_lt, Nat.le_zero] at this
    exact this
  rintro s t ⟨hr, hI⟩ hc
  have hpos : 0 < s.particle_index := by simpa using hc
  rw [sat_iff]
  refine ⟨fun s' t' hs' => ?_, fun _ _ => trivial⟩
  refine ⟨.next hr hpos hs', ?_⟩
  have hbody : Sat (cascade_body rcpr mat o fuel s) t (fun s' _ => ∃ p ps x,
      s.particles = ps ++ [p] ∧ TrajSound rcpr mat o fuel ion tape p ps x ∧
      s' = ⟨x.particles, s.particle_output ++ [x.particle_1], x.particle_index⟩)
      (fun _ => True) := by
    unfold cascade_body
    simp only [sat_bind, sat_lift, sat_pure]
    refine rsat_mono (rsat_eq _) (fun a ha => ?_) (fun _ _ => trivial)
    obtain ⟨p, ps⟩ := a
    have hsp := popLast_ok ha
    have hp : SoundParticle p := hI.stack p (by rw [hsp]; simp)
    refine sat_mono (traj_sound rcpr mat o fuel ion tape hm hr hpos ha hp)
      (fun x _ hx => ?_) (fun _ _ => trivial)
    exact ⟨p, ps, x, hsp, hx, rfl⟩
  obtain ⟨p, ps, x, hsp, hx, rfl⟩ := sat_of_ok hbody hs'
  have hps : ∀ r ∈ ps, SoundParticle r := fun r h => hI.stack r (by rw [hsp]; simp [h])
  have hfree : NoSurfaceBinding mat ion → NoSurfaceBinding mat p ∧
      ∀ r ∈ ps, NoSurfaceBinding mat r := fun h =>
    ⟨hI.freeStack h p (by rw [hsp]; simp), fun r hr' => hI.freeStack h r (by rw [hsp]; simp [hr'])⟩
  refine ⟨hx.stack hps, ?_, fun h => hx.freeStack h.2 (hfree h).2, fun hl h => ?_, fun hi h => ?_⟩
  · intro r hr'
    rcases List.mem_append.mp hr' with hr' | hr'
    · exact hI.out r hr'
    · rw [List.mem_singleton.mp hr']; exact hx.moving
  · have h1 := hI.total hl h
    have h2 := hx.total hl (hfree h).1
    rw [hsp] at h1
    simp only [totalEnergy_append, totalEnergy_one] at h1 ⊢
    linarith
  · right
    rcases hI.ledger hi h with ⟨h1, h2⟩ | ⟨q, rest, recs, h1, h2⟩
    · rw [h2] at hsp
      have : ps = [] ∧ p = ion := by
        cases ps with
        | nil => exact ⟨rfl, by simpa using hsp.symm⟩
        | cons a b =>
          have := congrArg List.length hsp
          simp at this
      obtain ⟨rfl, rfl⟩ := this
      obtain ⟨recs, h3⟩ := hx.ledger hi h
      exact ⟨x.particle_1, [], recs, by rw [h1]; rfl, h3⟩
    · exact ⟨q, rest ++ [x.particle_1], recs, by rw [h1]; rfl, h2⟩

variable (out : List (Particle ℝ)) (tape' : Tape ℝ)

/-- **C71.** Every particle reported has an energy that is not negative, a positive mass and a
direction that is at most a unit vector. -/
theorem C71_energies_and_directions (hm : SoundTarget mat) (hion : SoundParticle ion)
    (run : single_ion_bca rcpr fuel ion mat o tape = .ok (out, tape')) :
    ∀ q ∈ out, 0 ≤ q.E ∧ 0 < q.m ∧ Spec.inner q.dir q.dir ≤ 1 := by
  obtain ⟨s, rfl, _, hs⟩ := sat_of_ok (cascade_sound rcpr mat o fuel ion tape hm hion) run
  intro q hq
  have := hs.out q hq
  exact ⟨this.E, this.m, this.dir⟩

/-- **C72, part.** Without surface binding, and as long as no pass moves a particle backwards (or
the electronic losses do not depend on the distance), the particles reported carry together at most
the energy of the incident particle.  Missing: passes that go backwards, for which it is false
(`C72_backwards_refuted`). -/
theorem C72_no_energy_is_created_partial (hm : SoundTarget mat) (hion : SoundParticle ion)
    (hfree : NoSurfaceBinding mat ion) (hl : LossNeverNegative rcpr mat o fuel ion tape)
    (run : single_ion_bca rcpr fuel ion mat o tape = .ok (out, tape')) :
    totalEnergy out ≤ ion.E := by
  obtain ⟨s, rfl, h0, hs⟩ := sat_of_ok (cascade_sound rcpr mat o fuel ion tape hm hion) run
  have := hs.total hl hfree
  have h1 : 0 ≤ totalEnergy s.particles := by
    unfold totalEnergy
    refine List.sum_nonneg fun e he => ?_
    obtain ⟨r, hr, rfl⟩ := List.mem_map.mp he
    exact (hs.stack r hr).E
  linarith

/-- **C72, one pass.** The energy carried by the moving particle and the stack can grow in a pass
that does not go backwards only if the particle enters the energy barrier, and then by at most the
surface binding energy. -/
theorem C72_pass (p : Particle ℝ) (ps : List (Particle ℝ)) (q : Particle ℝ)
    (qs : List (Particle ℝ)) (t t' : Tape ℝ) (hm : SoundTarget mat) (hp : SoundParticle p)
    (hl : o.electronic_stopping_mode = .LOW_ENERGY_LOCAL ∨ Forwards mat o t p q)
    (run : trajectory_step rcpr mat o p ps t = .ok ((q, qs), t')) :
    q.E + totalEnergy qs ≤ p.E + totalEnergy ps ∨
    ∃ x Es, mat.actual_surface_binding_energy x x.pos_old.x x.pos_old.y x.pos_old.z = .ok Es ∧
      x.Es = p.Es ∧ x.pos_old = p.pos ∧ x.pos = q.pos ∧
      mat.geometry.inside_energy_barrier p.pos.x p.pos.y p.pos.z = .ok false ∧
      mat.geometry.inside_energy_barrier q.pos.x q.pos.y q.pos.z = .ok true ∧
      q.E + totalEnergy qs ≤ p.E + totalEnergy ps + Es :=
  (sat_of_ok (pass_sound rcpr o hm hp ps t) run).total hl

/-- **C73.** With energy losses tracked and without surface binding, the records added to the
incident particle account for all the energy it has lost: their sum is at least the loss, and
equal to it if the particle keeps any energy and no pass went backwards. -/
theorem C73_records_account_for_the_loss (hm : SoundTarget mat) (hion : SoundParticle ion)
    (hi : ion.incident = true) (ht : o.track_energy_losses = true)
    (hfree : NoSurfaceBinding mat ion)
    (run : single_ion_bca rcpr fuel ion mat o tape = .ok (out, tape'))
    (hst : ion.stopped = false) (hlf : ion.left = false) :
    ∃ q recs, out[0]? = some q ∧ q.energies = ion.energies ++ recs ∧
      ion.E - q.E ≤ recordedLoss recs ∧ (∀ e ∈ recs, 0 ≤ e.En) ∧
      (LossNeverNegative rcpr mat o fuel ion tape →
        (∀ e ∈ recs, 0 ≤ e.Ee) ∧ (0 < q.E → ion.E - q.E = recordedLoss recs)) := by
  obtain ⟨s, rfl, h0, hs⟩ := sat_of_ok (cascade_sound rcpr mat o fuel ion tape hm hion) run
  obtain ⟨q0, rest0, hq0, _⟩ := C02_ion_first _ _ _ _ _ _ _ _ hst hlf run
  rcases hs.ledger (by simp [hi, ht]) hfree with ⟨h1, h2⟩ | ⟨q, rest, recs, h1, h2, h3, h4, h5, h6⟩
  · rw [h1] at hq0; simp at hq0
  · exact ⟨q, recs, by rw [h1]; rfl, h2, h3, h5, fun hl => ⟨h6 hl, h4 hl⟩⟩

end

/-! ## Coulomb potentials never turn a step backwards -/

theorem unit_after {t : Tape ℝ} (k : Nat) (h : UnitInterval t) : UnitInterval (after k t) :=
  fun i => h (k + i)

theorem draws_unit {α : Type} {m : M ℝ α} (hm : DrawsInOrder m) {t t' : Tape ℝ} {a : α}
    (h : m t = .ok (a, t')) (hu : UnitInterval t) : UnitInterval t' := by
  obtain ⟨k, rfl, _⟩ := hm t a t' h
  exact unit_after k hu

/-- The step drawn is not negative. -/
theorem mfp_drawn_nonneg {mat : Material ℝ} {o : Options ℝ} (hm : SoundTarget mat)
    (hff : o.high_energy_free_flight_paths = false) (p : Particle ℝ) (t : Tape ℝ)
    (hu : UnitInterval t) :
    Sat (determine_mfp_phi_impact_parameter p mat o) t
      (fun r _ => ∀ g ∈ r.2, 0 ≤ g.mfp) (fun _ => True) := by
  unfold determine_mfp_phi_impact_parameter
  simp only [hff, Bool.false_eq_true, if_false, sat_bind, sat_lift]
  have hmfp : RSat (mat.mfp p.pos.x p.pos.y p.pos.z) (fun s => 0 ≤ s) (fun _ => True) := by
    unfold Material.mfp Material.total_number_density
    cases hd : mat.geometry.get_densities p.pos.x p.pos.y p.pos.z with
    | error e => exact trivial
    | ok ns =>
      show 0 ≤ powf (fsum ns) (-1.0/3.0)
      rw [powf_real, fsum_real]
      exact Real.rpow_nonneg (List.sum_nonneg (hm.densities _ _ _ _ hd)) _
  refine rsat_mono hmfp (fun s hs => ?_) (fun _ _ => trivial)
  refine sat_mono (sat_eq _ _) (fun phis t1 h1 => ?_) (fun _ _ => trivial)
  have hu1 := draws_unit (draws_phis _) h1 hu
  refine sat_mono (sat_eq _ _) (fun ips t2 h2 => ?_) (fun _ _ => trivial)
  have hu2 := draws_unit (draws_collectN (fun k => draws_bind draws_random fun _ => draws_pure _) _)
    h2 hu1
  have hfs : Sat (if p.first_step = true then do
      let r ← random
      pure ({ p with first_step := false }, s*r)
      else pure (p, s) : M ℝ (Particle ℝ × ℝ)) t2 (fun r t3 => 0 ≤ r.2 ∧ UnitInterval t3)
      (fun _ => True) := by
    split
    · simp only [sat_bind, sat_random, sat_pure]
      exact ⟨mul_nonneg hs (hu2 0).1, fun i => hu2 (i + 1)⟩
    · simp only [sat_pure]; exact ⟨hs, hu2⟩
  refine sat_mono hfs (fun pf t3 h3 => ?_) (fun _ _ => trivial)
  have hex : Sat (if o.mean_free_path_model.isGaseous = true then do
      let e ← exponential
      pure (pf.2*e)
      else pure pf.2 : M ℝ ℝ) t3 (fun m _ => 0 ≤ m) (fun _ => True) := by
    split
    · simp only [exponential, sat_bind, sat_random, sat_pure]
      refine mul_nonneg h3.1 ?_
      rw [ln_real]
      have := Real.log_nonpos (h3.2 0).1 (h3.2 0).2.le
      linarith
    · simp only [sat_pure]; exact h3.1
  refine sat_mono hex (fun m t4 h4 => ?_) (fun _ _ => trivial)
  simp only [sat_pure]
  intro g hg
  obtain ⟨ab, _, rfl⟩ := List.mem_map.mp hg
  exact h4

/-- A Coulomb collision does not shift the asymptotes. -/
theorem coulomb_pass {rcpr : Rcpr ℝ} {mat : Material ℝ} {o : Options ℝ} (hC : AllCoulomb o)
    (p : Particle ℝ) (ps : List (Particle ℝ)) (t : Tape ℝ) :
    Sat (trajectory_step rcpr mat o p ps) t (fun r _ => r.1.asymptotic_deflection = 0 ∧
      ((∀ x ∈ ps, x.asymptotic_deflection = 0) → ∀ x ∈ r.2, x.asymptotic_deflection = 0))
      (fun _ => True) := by
  refine sat_mono (pass_trace rcpr mat o p ps t) (fun r _ hr => ?_) (fun _ _ => trivial)
  obtain ⟨tr⟩ := hr
  have e0 : (0.0 : ℝ) = 0 := by norm_num
  have key := sat_forFold (E := fun _ => True) (body := collision_step rcpr mat o)
    (fun (x : StepState ℝ) _ => x.total_asymptotic_deflection = 0 ∧
      ((∀ y ∈ ps, y.asymptotic_deflection = 0) → ∀ y ∈ x.particles, y.asymptotic_deflection = 0))
    (tr.gs.zipIdx.take (o.weak_collision_order + 1)) ?_ ⟨tr.p1, ps, 0.0, 0.0, 0.0, 0.0, 0⟩ tr.t1
    ⟨e0, fun h => h⟩
  · obtain ⟨k1, k2⟩ := sat_of_ok key tr.hloop
    obtain ⟨E, d, b, st, lf, l, hq⟩ := tr.q_eq
    obtain ⟨E3, h3⟩ := tr.p3_eq
    refine ⟨?_, fun h => ?_⟩
    · have h1 := congrArg Particle.asymptotic_deflection hq
      have h2 : (tr.p3.update_energy_loss_tracker o tr.s.total_energy_lost_to_recoils
          tr.el).asymptotic_deflection = tr.p3.asymptotic_deflection := by
        obtain ⟨⟨l', hl'⟩, _⟩ := tracker_same tr.p3 o tr.s.total_energy_lost_to_recoils tr.el
        rw [hl']
      have h4 := (advance_same tr.s.particle_1 tr.g0.mfp tr.s.total_asymptotic_deflection).2.2.2.2.2.2.2.1
      have h5 : tr.p3.asymptotic_deflection = tr.s.total_asymptotic_deflection := by
        have := congrArg Particle.asymptotic_deflection h3
        exact this.trans h4
      exact h1.trans (h2.trans (h5.trans k1))
    · have := k2 h
      intro x hx
      exact this x (by have h6 := tr.hqs; exact h6 ▸ hx)
  · intro gk _ x t1 ⟨h1, h2⟩
    refine sat_mono (collision_step_cases rcpr mat o x gk t1) (fun y _ hy => ?_)
      (fun _ _ => trivial)
    rcases hy with rfl | ⟨si, q, r, _, hsp, _, _, _, _, _, hasy, _, _, _, hr, hA⟩
    · exact ⟨h1, h2⟩
    · obtain ⟨row, V, x0, theta, hrow, hV, _, _, rfl⟩ := binary_collision_ok hr
      obtain ⟨Z1, Z2, rfl⟩ := hC row (List.mem_of_getElem? hrow) V (List.mem_of_getElem? hV)
      refine ⟨?_, fun h0 => ?_⟩
      · rw [hA.deflection, h1]; simp [collision_result]; exact e0
      · obtain ⟨eb, _, hst⟩ := hA.stack
        rcases hst with hst | hst
        · rw [hst]; exact h2 h0
        · rw [hst]
          intro z hz
          rcases List.mem_append.mp hz with hz | hz
          · exact h2 h0 z hz
          · rw [List.mem_singleton.mp hz]; exact hasy.trans e0

/-- **C72, Coulomb.** With Coulomb potentials only, without free-flight paths and with random
numbers in [0, 1), no pass goes backwards. -/
theorem coulomb_always_forwards (rcpr : Rcpr ℝ) (mat : Material ℝ) (o : Options ℝ) (fuel : Nat)
    (ion : Particle ℝ) (tape : Tape ℝ) (hm : SoundTarget mat) (hC : AllCoulomb o)
    (hff : o.high_energy_free_flight_paths = false) (hu : UnitInterval tape)
    (h0 : ion.asymptotic_deflection = 0) : AlwaysForwards rcpr mat o fuel ion tape := by
  have hstep : ∀ {x x' : TrajState ℝ} {t t' : Tape ℝ}, traj_body rcpr mat o x t = .ok (x', t') →
      x'.particle_1.asymptotic_deflection = 0 ∧
      ((∀ y ∈ x.particles, y.asymptotic_deflection = 0) →
        ∀ y ∈ x'.particles, y.asymptotic_deflection = 0) := by
    intro x x' t t' h
    have hS : Sat (traj_body rcpr mat o x) t (fun x' _ => x'.particle_1.asymptotic_deflection = 0 ∧
      ((∀ y ∈ x.particles, y.asymptotic_deflection = 0) →
        ∀ y ∈ x'.particles, y.asymptotic_deflection = 0)) (fun _ => True) := by
      unfold traj_body
      simp only [sat_bind, sat_pure]
      exact sat_mono (coulomb_pass hC x.particle_1 x.particles t) (fun r _ hr => hr)
        (fun _ _ => trivial)
    exact sat_of_ok hS h
  have hhead : ∀ {s t}, AtHead rcpr mat o fuel ion tape s t →
      (∀ y ∈ s.particles, y.asymptotic_deflection = 0) ∧ UnitInterval t := by
    intro s t h
    induction h with
    | start => exact ⟨by simpa using h0, hu⟩
    | @next s s' t t' _ _ hb ih =>
      refine ⟨?_, draws_unit (draws_cascade_body rcpr mat o fuel s) hb ih.2⟩
      have hS : Sat (cascade_body rcpr mat o fuel s) t
          (fun s' _ => ∀ y ∈ s'.particles, y.asymptotic_deflection = 0) (fun _ => True) := by
        unfold cascade_body
        simp only [sat_bind, sat_lift, sat_pure]
        refine rsat_mono (rsat_eq _) (fun a ha => ?_) (fun _ _ => trivial)
        have hsp := popLast_ok (a := a.1) (r := a.2) ha
        have := sat_whileFuel (E := fun _ => True) (cond := TrajState.running)
          (body := traj_body rcpr mat o)
          (fun x _ => ∀ y ∈ x.particles, y.asymptotic_deflection = 0) trivial ?_ fuel
          ⟨a.1, a.2, s.particle_index⟩ t (fun y hy => ih.1 y (by rw [hsp]; simp [hy]))
        · exact sat_mono this (fun x _ h => h.1) (fun _ _ => trivial)
        · intro x t1 hx _
          rw [sat_iff]
          exact ⟨fun x' t2 hx' => (hstep hx').2 hx, fun _ _ => trivial⟩
      exact sat_of_ok hS hb
  have hin : ∀ {x t}, InTrajectory rcpr mat o fuel ion tape x t →
      x.particle_1.asymptotic_deflection = 0 ∧ UnitInterval t := by
    intro x t h
    induction h with
    | @start s t p ps hs _ hpop =>
      have := hhead hs
      exact ⟨this.1 p (by rw [popLast_ok hpop]; simp), this.2⟩
    | @next x x' t t' _ _ hb ih =>
      exact ⟨(hstep hb).1, draws_unit (draws_traj_body rcpr mat o x) hb ih.2⟩
  intro x t x' t' hx hrun hb p1 gs t1 g0 hmfp hg0
  rw [(hin hx).1, (hstep hb).1]
  have := sat_of_ok (mfp_drawn_nonneg hm hff x.particle_1 t (hin hx).2) hmfp g0
    (List.mem_of_getElem? hg0)
  linarith

/-- **C72, Coulomb.** With Coulomb potentials only, without surface binding and free-flight paths,
the particles reported carry at most the energy of the ion, whatever the random numbers. -/
theorem C72_coulomb (rcpr : Rcpr ℝ) (mat : Material ℝ) (o : Options ℝ) (fuel : Nat)
    (ion : Particle ℝ) (tape tape' : Tape ℝ) (out : List (Particle ℝ)) (hm : SoundTarget mat)
    (hion : SoundParticle ion) (hfree : NoSurfaceBinding mat ion) (hC : AllCoulomb o)
    (hff : o.high_energy_free_flight_paths = false) (hu : UnitInterval tape)
    (h0 : ion.asymptotic_deflection = 0)
    (run : single_ion_bca rcpr fuel ion mat o tape = .ok (out, tape')) :
    totalEnergy out ≤ ion.E :=
  C72_no_energy_is_created_partial rcpr mat o fuel ion tape out tape' hm hion hfree
    (Or.inr (coulomb_always_forwards rcpr mat o fuel ion tape hm hC hff hu h0)) run

end RustBCA
