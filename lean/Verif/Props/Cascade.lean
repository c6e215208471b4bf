import Verif.Proofs.CascadeLoop

/-!
# C01-C10: what `single_ion_bca` returns

Every theorem holds for every scalar type (so for `f64` with NaN and rounding), every material and
geometry, every option record, every external root finder, every random stream and every amount
of loop fuel.  `Examples/Cascade.lean` exhibits a run that returns an ion and a recoil.
-/

namespace RustBCA
open Scalar
variable {F : Type} [Scalar F] (rcpr : Rcpr F) (mat : Material F) (options : Options F)
  (fuel : Nat) (ion : Particle F) (tape tape' : Tape F) (out : List (Particle F))

/-- **C01.** Called with an unfinished ion, `single_ion_bca` returns a non-empty list, and each
particle in it has exactly one of `stopped` and `left` set. -/
theorem C01_exactly_one_fate (hs : ion.stopped = false) (hl : ion.left = false)
    (run : single_ion_bca rcpr fuel ion mat options tape = .ok (out, tape')) :
    out ≠ [] ∧ ∀ q ∈ out,
      (q.stopped = true ∧ q.left = false) ∨ (q.stopped = false ∧ q.left = true) := by
  have h := sat_of_ok (single_ion_bca_sat rcpr mat options fuel ion tape hs hl) run
  refine ⟨?_, fun q hq => ?_⟩
  · obtain ⟨q0, rest, h0, _⟩ := h.ion_first
    rw [h0]; simp
  · obtain ⟨p, n, _, _, hlife, hfin⟩ := h.mem hq
    have hb := hlife.not_both
    cases h1 : q.stopped <;> cases h2 : q.left <;> simp_all

/-- **C02.** The first particle returned is the ion that was passed in; the others are not
incident. -/
theorem C02_ion_first (hs : ion.stopped = false) (hl : ion.left = false)
    (run : single_ion_bca rcpr fuel ion mat options tape = .ok (out, tape')) :
    ∃ q rest, out = q :: rest ∧ SameParticle ion q ∧ ∀ r ∈ rest, r.incident = false := by
  have h := sat_of_ok (single_ion_bca_sat rcpr mat options fuel ion tape hs hl) run
  obtain ⟨q, rest, h0, ⟨_, _, _, hl, _⟩, h2, _⟩ := h.ion_first
  refine ⟨q, rest, h0, hl.same, fun r hr => ?_⟩
  obtain ⟨p, hp, _, _, _, hlife, _⟩ := h2 r hr
  rw [hlife.same.incident, hp.incident]

/-- **C03.** Without recoil tracking exactly one particle is returned. -/
theorem C03_no_recoils (hs : ion.stopped = false) (hl : ion.left = false)
    (hr : options.track_recoils = false)
    (run : single_ion_bca rcpr fuel ion mat options tape = .ok (out, tape')) :
    out.length = 1 := by
  have h := sat_of_ok (single_ion_bca_sat rcpr mat options fuel ion tape hs hl) run
  obtain ⟨q, rest, h0, _, _, h3⟩ := h.ion_first
  rw [h0, h3 hr]; rfl

/-- **C04.** Every recoil (every particle after the first) has all its parameters from one single
species of the material, the recoil-tracking flag, and tag, weight and tracked vector of the ion. -/
theorem C04_recoils_are_target_atoms (hs : ion.stopped = false) (hl : ion.left = false)
    (run : single_ion_bca rcpr fuel ion mat options tape = .ok (out, tape'))
    (q : Particle F) (hq : q ∈ out.tail) :
    (∃ i, IsSpecies mat i q) ∧ q.track_trajectories = options.track_recoil_trajectories ∧
      q.tag = ion.tag ∧ q.weight = ion.weight ∧ q.tracked_vector = ion.tracked_vector := by
  have h := sat_of_ok (single_ion_bca_sat rcpr mat options fuel ion tape hs hl) run
  obtain ⟨q0, rest, h0, _, h2, _⟩ := h.ion_first
  rw [h0] at hq
  obtain ⟨p, hp, _, _, _, hlife, _⟩ := h2 q hq
  have hsame := hlife.same
  refine ⟨?_, by rw [hsame.track_trajectories, hp.track], by rw [hsame.tag, hp.tag],
    by rw [hsame.weight, hp.weight], by rw [hsame.tracked_vector, hp.tracked_vector]⟩
  obtain ⟨i, hi⟩ := hp.species
  exact ⟨i, by unfold IsSpecies at hi ⊢
               rw [hsame.Z, hsame.m, hsame.Ec, hsame.Es, hsame.Ed, hsame.interaction_index]
               exact hi⟩

/-- **C05.** Every recoil was created where the geometry says `inside`, with energy above its
cutoff. -/
theorem C05_recoils_start_inside (hs : ion.stopped = false) (hl : ion.left = false)
    (run : single_ion_bca rcpr fuel ion mat options tape = .ok (out, tape'))
    (q : Particle F) (hq : q ∈ out.tail) :
    mat.geometry.inside q.pos_origin.x q.pos_origin.y q.pos_origin.z = .ok true ∧
      (q.energy_origin >. q.Ec) = true := by
  have h := sat_of_ok (single_ion_bca_sat rcpr mat options fuel ion tape hs hl) run
  obtain ⟨q0, rest, h0, _, h2, _⟩ := h.ion_first
  rw [h0] at hq
  obtain ⟨p, hp, _, _, _, hlife, _⟩ := h2 q hq
  have hsame := hlife.same
  rw [hsame.pos_origin, hsame.energy_origin, hsame.Ec]
  exact ⟨hp.inside, hp.above⟩

/-- **C06.** A particle that left is outside the simulation boundary; a particle that stopped is
below its cutoff energy, inside the energy barrier and inside the simulation boundary. -/
theorem C06_fates_match_positions (hs : ion.stopped = false) (hl : ion.left = false)
    (run : single_ion_bca rcpr fuel ion mat options tape = .ok (out, tape'))
    (q : Particle F) (hq : q ∈ out) :
    (q.left = true →
      mat.geometry.inside_simulation_boundary q.pos.x q.pos.y q.pos.z = .ok false) ∧
    (q.stopped = true → (q.E <. q.Ec) = true ∧
      mat.geometry.inside_energy_barrier q.pos.x q.pos.y q.pos.z = .ok true ∧
      mat.geometry.inside_simulation_boundary q.pos.x q.pos.y q.pos.z = .ok true) := by
  have h := sat_of_ok (single_ion_bca_sat rcpr mat options fuel ion tape hs hl) run
  obtain ⟨p, n, hn, _, hlife, _⟩ := h.mem hq
  refine ⟨hlife.left, fun hst => ?_⟩
  exact ⟨(hlife.stopped hst).1, (hlife.stopped hst).2, hlife.running hn (hlife.not_both hst)⟩

/-- **C07.** Whenever the outer loop is about to pop, the stack is not empty, so `pop().unwrap()`
succeeds: for every state the loop head can be reached in, from an unfinished ion. -/
theorem C07_stack_never_underflows (hs : ion.stopped = false) (hl : ion.left = false)
    (s : CascadeState F) (reach : AtLoopHead rcpr mat options fuel ion s)
    (hpos : 0 < s.particle_index) : ∃ top rest, popLast s.particles = .ok (top, rest) := by
  have hI := atLoopHead_inv hs hl reach
  have hne : s.particles ≠ [] := by
    intro h; rw [hI.index, h] at hpos; simp at hpos
  exact ⟨s.particles.getLast hne, s.particles.dropLast, by
    unfold popLast; rw [List.getLast?_eq_some_getLast hne]⟩

/-- **C07, second half.** Called with an ion that is already finished, `single_ion_bca` always
panics on the empty stack (whatever the fuel beyond the two iterations it gets to make). -/
theorem C07_finished_ion_panics (h : ion.stopped = true ∨ ion.left = true) :
    single_ion_bca rcpr (fuel + 2) ion mat options tape =
      .error (.panic "called `Option::unwrap()` on a `None` value") := by
  have hr : TrajState.running (⟨ion, [], 1⟩ : TrajState F) = false := by
    unfold TrajState.running
    rcases h with h | h <;> simp [h]
  simp [single_ion_bca, whileFuel, cascade_body, popLast, hr, bind, StateT.bind, Except.bind,
    liftM, monadLift, MonadLift.monadLift, StateT.lift, pure, StateT.pure, Except.pure, rpanic]

/-- **C08.** Trajectories: untracked ones are returned as they were created (the ion's as it came
in, a recoil's empty); tracked ones extend the initial one and end with the particle's final
energy and position. -/
theorem C08_trajectories (hs : ion.stopped = false) (hl : ion.left = false)
    (run : single_ion_bca rcpr fuel ion mat options tape = .ok (out, tape')) :
    (∀ q ∈ out, q.track_trajectories = true → q.trajectory.getLast? = some (finalElement q)) ∧
    (∃ q rest, out = q :: rest ∧ ion.trajectory <+: q.trajectory ∧
      (ion.track_trajectories = false → q.trajectory = ion.trajectory)) ∧
    (∀ q ∈ out.tail, q.track_trajectories = false → q.trajectory = []) := by
  have h := sat_of_ok (single_ion_bca_sat rcpr mat options fuel ion tape hs hl) run
  refine ⟨fun q hq ht => ?_, ?_, fun q hq ht => ?_⟩
  · obtain ⟨p, n, _, _, hlife, hfin⟩ := h.mem hq
    exact hlife.final (by rw [← hlife.same.track_trajectories, ht]) hfin
  · obtain ⟨q, rest, h0, ⟨_, _, _, hlife, _⟩, _⟩ := h.ion_first
    exact ⟨q, rest, h0, hlife.extends_, hlife.untracked⟩
  · obtain ⟨q0, rest, h0, _, h2, _⟩ := h.ion_first
    rw [h0] at hq
    obtain ⟨p, hp, _, _, _, hlife, _⟩ := h2 q hq
    rw [hlife.untracked (by rw [← hlife.same.track_trajectories, ht]), hp.trajectory]

/-- **C09.** Energy-loss records: the ion (first in the list) got exactly one per pass of the
trajectory loop if it is incident and `track_energy_losses` is on, and none otherwise; recoils keep
only the record they were created with. -/
theorem C09_energy_loss_records (hs : ion.stopped = false) (hl : ion.left = false)
    (run : single_ion_bca rcpr fuel ion mat options tape = .ok (out, tape')) :
    (∃ q rest n, out = q :: rest ∧ Passes rcpr mat options n ion q ∧
      ∃ records, q.energies = ion.energies ++ records ∧
        records.length = if ion.incident && options.track_energy_losses then n else 0) ∧
    (∀ q ∈ out.tail,
      q.energies = [⟨0.0, 0.0, q.pos_origin.x, q.pos_origin.y, q.pos_origin.z⟩]) := by
  have h := sat_of_ok (single_ion_bca_sat rcpr mat options fuel ion tape hs hl) run
  obtain ⟨q0, rest, h0, ⟨n, _, hp, hlife, _⟩, h2, _⟩ := h.ion_first
  refine ⟨⟨q0, rest, n, h0, hp, ?_⟩, fun q hq => ?_⟩
  · cases hc : (ion.incident && options.track_energy_losses) with
    | true =>
      obtain ⟨rec, h1, h2⟩ := hlife.energies_some hc
      exact ⟨rec, h1, by simpa using h2⟩
    | false => exact ⟨[], by simp [hlife.energies_none hc], rfl⟩
  · rw [h0] at hq
    obtain ⟨p, hp, _, _, _, hlife, _⟩ := h2 q hq
    rw [hlife.energies_none (by rw [hp.incident]; rfl), hlife.same.pos_origin, hp.energies]

/-- **C09, one pass.** One pass of the loop appends one record, at the new position, to an incident
tracked particle, and nothing to any other. -/
theorem C09_one_record_per_pass (p q : Particle F) (hs : p.stopped = false) (hl : p.left = false)
    (pass : Pass rcpr mat options p q) :
    ((p.incident && options.track_energy_losses) = true →
      ∃ En Ee, q.energies = p.energies ++ [⟨En, Ee, q.pos.x, q.pos.y, q.pos.z⟩]) ∧
    ((p.incident && options.track_energy_losses) = false → q.energies = p.energies) := by
  obtain ⟨_, _, _, _, e⟩ := pass
  have h := sat_of_ok (trajectory_step_sat rcpr mat options p _ _ hs hl) e
  exact ⟨h.energies_one, h.energies_none⟩

/-- **C10.** In one pass of the loop the collision counter of the moving particle grows by at most
one, whatever `weak_collision_order` is, and never decreases. -/
theorem C10_counter_per_pass (p q : Particle F) (hs : p.stopped = false) (hl : p.left = false)
    (pass : Pass rcpr mat options p q) :
    p.number_collision_events ≤ q.number_collision_events ∧
      q.number_collision_events ≤ p.number_collision_events + 1 := by
  obtain ⟨_, _, _, _, e⟩ := pass
  have h := sat_of_ok (trajectory_step_sat rcpr mat options p _ _ hs hl) e
  exact ⟨h.count_ge, h.count_le⟩

/-- **C10, whole run.** The returned ion made at most as many counted collisions as passes. -/
theorem C10_counter_whole_run (hs : ion.stopped = false) (hl : ion.left = false)
    (run : single_ion_bca rcpr fuel ion mat options tape = .ok (out, tape')) :
    ∃ q rest n, out = q :: rest ∧ Passes rcpr mat options n ion q ∧
      ion.number_collision_events ≤ q.number_collision_events ∧
      q.number_collision_events ≤ ion.number_collision_events + n := by
  have h := sat_of_ok (single_ion_bca_sat rcpr mat options fuel ion tape hs hl) run
  obtain ⟨q0, rest, h0, ⟨n, _, hp, hlife, _⟩, _⟩ := h.ion_first
  exact ⟨q0, rest, n, h0, hp, hlife.count_ge, hlife.count_le⟩

end RustBCA
