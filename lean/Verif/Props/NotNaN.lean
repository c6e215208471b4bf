import Verif.Spec.NotNaN
import Verif.Ieee
import Verif.Proofs.PassTrace
import Verif.Props.Recoils
import Verif.Props.Stopping
import Verif.Props.Output
import Verif.Props.Main

/-!
# C122: no energy in the output is NaN

For every scalar whose zero is not NaN, in particular for Rust's `f64` with its overflows, infinities, signed zeros
and NaNs.
-/

set_option linter.unusedSectionVars false

namespace RustBCA
open Scalar Spec
variable {F : Type} [Scalar F]


/-- Where a trajectory ends, the energy is what stopping left. -/
theorem boundary_ends (p q : Particle F) (mat : Material F) (hs : p.stopped = false) (hl : p.left = false)
    (run : boundary_condition_planar p mat = .ok q) (done : q.stopped = true ∨ q.left = true) :
    q.E = p.E ∧ q.Ec = p.Ec ∧ q.pos = p.pos ∧ (q.stopped = true → (p.E <. p.Ec) = true) := by
  obtain ⟨sim, bar, -, -, h⟩ := rsat_of_ok (boundary_sat p mat hs hl) run
  rcases h with ⟨-, rfl⟩ | ⟨-, -, h, rfl⟩ | ⟨-, -, E, dir, b, rfl⟩
  · unfold Particle.update_trajectory_tracker
    split <;> exact ⟨rfl, rfl, rfl, fun h => by simp [hs] at h⟩
  · unfold Particle.update_trajectory_tracker
    split <;> exact ⟨rfl, rfl, rfl, fun _ => h⟩
  · rcases done with h | h
    · simp [hs] at h
    · simp [hl] at h

/-- **C122** (a pass) A pass that ends a trajectory leaves an energy that is not NaN; if it ends it because the
particle came to rest, the energy compares as below the cutoff. -/
theorem C122_last_pass [ScalarOrd F] (h0 : isNaN (0.0 : F) = false) (rcpr : Rcpr F) (mat : Material F) (o : Options F)
    (p q : Particle F) (ps qs : List (Particle F)) (t t' : Tape F) (hs : p.stopped = false) (hl : p.left = false)
    (run : trajectory_step rcpr mat o p ps t = .ok ((q, qs), t')) (done : q.stopped = true ∨ q.left = true) :
    SettledEnergy mat q := by
  obtain ⟨tr⟩ := sat_of_ok (pass_trace rcpr mat o p ps t) run
  have hE := (C32_no_nan _ _ mat _ _ _ _ _ o h0 tr.hstop).2
  have hneg := C32_not_negative _ _ mat _ _ _ _ _ o (run := tr.hstop)
  obtain ⟨E, hp3⟩ := tr.p3_eq
  obtain ⟨b, hp1⟩ := tr.p1_eq
  obtain ⟨E1, dir1, n1, h1, -⟩ := tr.s_eq.particle
  have f1 : tr.p3.stopped = false ∧ tr.p3.left = false := by
    rw [hp3]
    dsimp only
    rw [Particle.advance_stopped, Particle.advance_left, h1, hp1]
    exact ⟨hs, hl⟩
  have f2 : (tr.p3.update_energy_loss_tracker o tr.s.total_energy_lost_to_recoils tr.el).stopped = false ∧
      (tr.p3.update_energy_loss_tracker o tr.s.total_energy_lost_to_recoils tr.el).left = false ∧
      (tr.p3.update_energy_loss_tracker o tr.s.total_energy_lost_to_recoils tr.el).E = tr.p3.E ∧
      (tr.p3.update_energy_loss_tracker o tr.s.total_energy_lost_to_recoils tr.el).Ec = tr.p3.Ec ∧
      (tr.p3.update_energy_loss_tracker o tr.s.total_energy_lost_to_recoils tr.el).pos = tr.p3.pos := by
    unfold Particle.update_energy_loss_tracker
    split <;> exact ⟨f1.1, f1.2, rfl, rfl, rfl⟩
  obtain ⟨e1, e2, e3, e4⟩ := boundary_ends _ _ mat f2.1 f2.2.1 tr.hbound done
  rw [f2.2.2.1] at e1 e4
  rw [f2.2.2.2.1] at e2 e4
  rw [f2.2.2.2.2] at e3
  have hpos : tr.p3.pos = (tr.s.particle_1.advance tr.g0.mfp tr.s.total_asymptotic_deflection).1.pos := by
    rw [hp3]
  refine ⟨by rw [e1]; exact hE, fun h => by rw [e1, e2]; exact e4 h, fun h => ?_⟩
  rw [e1]
  rw [e3, hpos] at h
  exact (hneg h).1

/-- **C122** (an ion) Whatever the target, the options, the potentials and the random numbers, and whatever the
arithmetic does: every particle `single_ion_bca` returns has an energy that is not NaN, below its cutoff if it came to
rest, and not below zero if it ended inside the target. -/
theorem C122_ion [ScalarOrd F] (h0 : isNaN (0.0 : F) = false) (rcpr : Rcpr F) (mat : Material F) (o : Options F)
    (fuel : Nat) (ion : Particle F) (t t' : Tape F) (out : List (Particle F)) (hs : ion.stopped = false)
    (hl : ion.left = false) (run : single_ion_bca rcpr fuel ion mat o t = .ok (out, t')) :
    ∀ q ∈ out, SettledEnergy mat q := by
  have hcas := (C81_depth_first rcpr mat o ion t t' out hs hl).mp ⟨fuel, run⟩
  have fresh : ∀ {p t q rec t1}, Path rcpr mat o p t q rec t1 → ∀ r ∈ rec, r.stopped = false ∧ r.left = false := by
    intro p t q rec t1 hp
    induction hp with
    | finished _ => simp
    | step _ _ hst _ ih =>
      intro r hr
      rcases List.mem_append.mp hr with hr | hr
      · obtain ⟨tr⟩ := sat_of_ok (pass_trace rcpr mat o _ _ _) hst
        obtain ⟨new, h1, h2, -⟩ := tr.s_eq.stack
        have := tr.hqs
        simp only [h1, List.nil_append] at this
        rw [this] at hr
        exact ⟨(h2 r hr).stopped, (h2 r hr).left⟩
      · exact ih r hr
  have path : ∀ {p t q rec t1}, Path rcpr mat o p t q rec t1 → p.stopped = false → p.left = false →
      SettledEnergy mat q := by
    intro p t q rec t1 hp
    induction hp with
    | finished h =>
      intro h1 h2
      rcases h with h | h
      · rw [h1] at h; cases h
      · rw [h2] at h; cases h
    | @step p t q new t1 r more t2 h1 h2 hst hrest ih =>
      intro _ _
      by_cases hd : q.stopped = true ∨ q.left = true
      · have := C122_last_pass h0 rcpr mat o _ _ _ _ _ _ h1 h2 hst hd
        cases hrest with
        | finished _ => exact this
        | step h3 h4 _ _ =>
          rcases hd with h | h
          · rw [h3] at h; cases h
          · rw [h4] at h; cases h
      · push Not at hd
        exact ih (by simpa using hd.1) (by simpa using hd.2)
  have cas : ∀ {ps t out t'}, Cascades rcpr mat o ps t out t' → (∀ p ∈ ps, p.stopped = false ∧ p.left = false) →
      ∀ q ∈ out, SettledEnergy mat q := by
    intro ps t out t' hc
    induction hc with
    | nil => intro _ q hq; cases hq
    | cons hp _ _ ih1 ih2 =>
      intro hps q hq
      rcases List.mem_cons.mp hq with hq | hq
      · rw [hq]
        exact path hp (hps _ (by simp)).1 (hps _ (by simp)).2
      · rcases List.mem_append.mp hq with hq | hq
        · exact ih1 (fun r hr => fresh hp r (List.mem_reverse.mp hr)) q hq
        · exact ih2 (fun r hr => hps r (by simp [hr])) q hq
  exact cas hcas (by simpa using ⟨hs, hl⟩)

theorem run_ion_settled [ScalarOrd F] (h0 : isNaN (0.0 : F) = false) {rcpr : Rcpr F} {fuel : Nat} {material : Material F}
    {options : Options F} {input : ParticleInput F} {tape : Tape F} {out : List (Particle F)}
    (h : run_ion rcpr fuel material options input tape = .ok out) : ∀ p ∈ out, SettledEnergy material p := by
  unfold run_ion at h
  simp only [bind, Except.bind, pure, Except.pure] at h
  cases hp : Particle.from_input input options with
  | error e => rw [hp] at h; simp at h
  | ok ion =>
    rw [hp] at h; simp only at h
    have hion : ion.stopped = false ∧ ion.left = false := by
      unfold Particle.from_input at hp
      simp only [bind, Except.bind, pure, Except.pure, rassert] at hp
      split at hp
      · simp at hp
      · split at hp
        · simp at hp
        · obtain rfl := Except.ok.inj hp
          exact ⟨rfl, rfl⟩
    cases hr : single_ion_bca rcpr fuel ion material options tape with
    | error e => rw [hr] at h; simp at h
    | ok r =>
      rw [hr] at h
      obtain rfl : r.1 = out := by simpa using h
      exact C122_ion h0 rcpr material options fuel ion tape r.2 r.1 hion.1 hion.2 hr

/-- **C122** (a run) The particles a run hands to its outputs. -/
theorem C122_run [ScalarOrd F] (h0 : isNaN (0.0 : F) = false) {rcpr : Rcpr F} {fuel : Nat} {cfg : OutputConfig F}
    {material : Material F} {options : Options F} {splits : List Split} {tapes : Nat → Tape F}
    {inputs : List (ParticleInput F)} {s : RunState F}
    (run : physics_loop_run rcpr fuel cfg material options splits tapes inputs = .ok s) :
    ∀ p ∈ s.processed, SettledEnergy material p := by
  obtain ⟨⟨outs, ho, hp⟩, -⟩ := run_outputs run
  intro p hpm
  rw [hp, List.mem_flatten] at hpm
  obtain ⟨out, hout, hpo⟩ := hpm
  obtain ⟨i, hi, rfl⟩ := List.getElem_of_mem hout
  have hl := ho.length_eq
  exact run_ion_settled h0 (List.forall₂_iff_get.1 ho |>.2 i (by omega) hi) p hpo

/-- **C122** (the output files) Every line of reflected.output, deposited.output and sputtered.output is the line of a
particle whose energy is not NaN. -/
theorem C122_files [ScalarOrd F] (h0 : isNaN (0.0 : F) = false) {rcpr : Rcpr F} {fuel : Nat} {cfg : OutputConfig F}
    {material : Material F} {options : Options F} {splits : List Split} {tapes : Nat → Tape F}
    {inputs : List (ParticleInput F)} {s : RunState F} (hlist : cfg.list_output = true)
    (run : physics_loop_run rcpr fuel cfg material options splits tapes inputs = .ok s) (line : String) :
    (line ∈ linesOf .reflected s.ops → ∃ p, SettledEnergy material p ∧ line = reflectedLine cfg.fmt cfg.units p) ∧
    (line ∈ linesOf .deposited s.ops → ∃ p, SettledEnergy material p ∧ (p.E <. p.Ec) = true ∧
      line = depositedLine cfg.fmt cfg.units p) ∧
    (line ∈ linesOf .sputtered s.ops → ∃ p, SettledEnergy material p ∧ line = sputteredLine cfg.fmt cfg.units p) := by
  obtain ⟨e1, e2, e3, -⟩ := C51_files_agree_with_summary hlist run
  have hall := C122_run h0 run
  refine ⟨fun h => ?_, fun h => ?_, fun h => ?_⟩
  · rw [e1, List.mem_map] at h
    obtain ⟨p, hp, rfl⟩ := h
    exact ⟨p, hall p (List.mem_filter.1 hp).1, rfl⟩
  · rw [e2, List.mem_map] at h
    obtain ⟨p, hp, rfl⟩ := h
    have hp' := List.mem_filter.1 hp
    have := hall p hp'.1
    exact ⟨p, this, this.below_cutoff (by have := hp'.2; simp at this; exact this.2), rfl⟩
  · rw [e3, List.mem_map] at h
    obtain ⟨p, hp, rfl⟩ := h
    exact ⟨p, hall p (List.mem_filter.1 hp).1, rfl⟩

/-! ## Rust's `f64` -/

theorem ieee_zero_not_nan (L : Libm) : isNaN (0.0 : Ieee L) = false := B64.not_nan_ofReal _ _

/-- **C122** (`f64`) With Rust's numbers, overflow, underflow, signed zeros, infinities and NaNs included, and
whatever the platform's functions return: the energies of a run are not NaN, and those of deposited ions are finite or
negative infinity. -/
theorem C122_f64 (L : Libm) {rcpr : Rcpr (Ieee L)} {fuel : Nat} {cfg : OutputConfig (Ieee L)}
    {material : Material (Ieee L)} {options : Options (Ieee L)} {splits : List Split} {tapes : Nat → Tape (Ieee L)}
    {inputs : List (ParticleInput (Ieee L))} {s : RunState (Ieee L)}
    (run : physics_loop_run rcpr fuel cfg material options splits tapes inputs = .ok s) :
    ∀ p ∈ s.processed, p.E ≠ B64.nan ∧ (p.stopped = true → p.E ≠ B64.pinf ∧ p.Ec ≠ B64.nan) ∧
      (material.geometry.inside p.pos.x p.pos.y p.pos.z = .ok true → p.E ≠ B64.ninf) := by
  intro p hp
  have h := C122_run (ieee_zero_not_nan L) run p hp
  refine ⟨fun hn => ?_, fun hst => ?_, fun hin hn => ?_⟩
  · have := h.not_nan
    rw [hn] at this; cases this
  · have h1 := h.below_cutoff hst
    refine ⟨fun hn => ?_, fun hn => ?_⟩
    · rw [hn] at h1
      revert h1
      generalize p.Ec = c
      cases c <;> intro h1 <;> cases h1
    · have := (ScalarOrd.nan_lt _ _ h1).2
      rw [hn] at this; cases this
  · have h1 := h.not_negative hin
    rw [hn] at h1
    have hz : XReal.lt .ninf (B64.toX (0.0 : Ieee L)) = false := h1
    have h2 : B64.toX (0.0 : Ieee L) = .fin 0 := by
      have := B64.toX_ofReal (neg := false) (x := (0.0:ℝ)) (by
        rw [show (0.0:ℝ) = 0 by norm_num, ieeeRound_zero, abs_zero]; positivity)
      rw [show (0.0:ℝ) = 0 by norm_num, ieeeRound_zero] at this
      rw [← this, ← show (0.0:ℝ) = 0 by norm_num]
      rfl
    rw [h2] at hz
    cases hz

end RustBCA
