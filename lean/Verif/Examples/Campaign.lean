import Verif.Props.Campaign
import Verif.Examples.RunStatistics

/-!
# C115: the hypotheses are met
-/

set_option linter.unusedSimpArgs false
set_option linter.unusedVariables false

namespace RustBCA.CampaignExample
open Scalar Spec MeasureTheory StatisticsExample MainExample LibExample

/-- Two ions, their energies drawn between 1000 and 2000 eV. -/
noncomputable def spread : ParticleParameters ℝ := { pp with E := [.UNIFORM 1000 2000] }

/-- `Uniform::from(a..b)` draws one number and scales it. -/
noncomputable def scaled : Sampler ℝ :=
  ⟨fun a b => do let r ← random; pure (a + b*r), fun a b => do let r ← random; pure (a + (b - a)*r)⟩

theorem scaled_draws : SamplesInOrder scaled :=
  ⟨fun _ _ => draws_bind draws_random fun _ => draws_pure _, fun _ _ => draws_bind draws_random fun _ => draws_pure _⟩

/-- The ion drawn. -/
noncomputable def ionAt (r : ℝ) : ParticleInput ℝ :=
  { one with E := (1000 + (2000 - 1000)*r)*EV ℝ }

theorem ionAt_zero : ionAt 0 = one := by
  unfold ionAt one
  simp

theorem drawn_ion (t : Tape ℝ) :
    drawIon scaled (ANGSTROM ℝ) (EV ℝ) (AMU ℝ) spread 0 t = .ok (ionAt (t 0), fun n => t (n + 1)) := by
  simp only [drawIon, spread, pp, vget, List.getElem?_cons_zero, bind, StateT.bind, liftM, monadLift,
    MonadLift.monadLift, StateT.lift, Except.bind, pure, Except.pure, StateT.pure, make_particle_input, draw, draw_ux,
    point_six, rassert, Bool.not_false, if_true, scaled, random, ionAt, one]

theorem read (t : Tape ℝ) : make_particle_inputs scaled (ANGSTROM ℝ) (EV ℝ) (AMU ℝ) spread t =
    .ok ([ionAt (t 0), ionAt (t 1)], fun n => t (n + 1 + 1)) := by
  simp only [make_particle_inputs, spread, pp, forFold, List.length_cons, List.length_nil,
    List.range, List.range.loop, vget, List.getElem?_cons_zero, List.getElem?_cons_succ,
    bind, StateT.bind, liftM, monadLift, MonadLift.monadLift, StateT.lift, Except.bind,
    pure, Except.pure, StateT.pure, collectN, make_particle_input, draw, draw_ux, point_six,
    rassert, one, Bool.not_false, if_true, List.nil_append, List.append_nil,
    List.cons_append, scaled, random, ionAt]

theorem beam_eq : beam scaled (ANGSTROM ℝ) (EV ℝ) (AMU ℝ) spread =
    [drawIon scaled (ANGSTROM ℝ) (EV ℝ) (AMU ℝ) spread 0, drawIon scaled (ANGSTROM ℝ) (EV ℝ) (AMU ℝ) spread 0] := rfl

/-- Two threads take turns. -/
noncomputable def turn {α β γ : Type} : (xs : List γ) → xs ≠ [] → List (Fin xs.length × List α × β) → Bool × Fin xs.length
  | [], h => absurd rfl h
  | _ :: _, _ => turns

theorem turn_once {α β γ : Type} : ∀ (xs : List γ) hx, EachOnce (turn (α := α) (β := β) xs hx)
  | [], h => absurd rfl h
  | _ :: _, _ => turns_once

/-- A beam of two ions whose energies are drawn, read and followed to the end with positive probability, two threads
following them; so the bound of C115 is about a run that happens. -/
theorem runs (rcpr : Rcpr ℝ) (units : OutputUnits ℝ) (splits : List Split) : ∃ mat : Material ℝ, ∃ gs,
    (∀ t, ∃ acc t', input InputExample.ext scaled rcpr.enabled (Options.default_options true) (.ok mat) spread t =
      .ok (acc, t') ∧ acc.material = mat ∧ acc.output_units = ⟨ANGSTROM ℝ, EV ℝ, AMU ℝ⟩) ∧
    gs = beam scaled (ANGSTROM ℝ) (EV ℝ) (AMU ℝ) spread ∧ gs.length = 2 ∧
    programStreams Bool bits {ω | ∃ acc t' h tapes s, ∃ hi : acc.particle_input_array ≠ [],
        input InputExample.ext scaled rcpr.enabled (Options.default_options true) (.ok mat) spread
          (fun n => number (ω.1 n)) = .ok (acc, t') ∧
        Execution number (fun i => simulation rcpr 2 acc.material acc.options acc.particle_input_array[i])
          (turn acc.particle_input_array hi) [] ω.2 h ∧ Given number h tapes ∧
        physics_loop_run rcpr 2 ⟨none, true, units, fun _ => "1"⟩ acc.material acc.options splits tapes
          acc.particle_input_array = .ok s} ≠ 0 ∧
    ∀ ε : ℝ, 0 < ε →
      programStreams Bool bits {ω | ∃ acc t' h tapes s, ∃ hi : acc.particle_input_array ≠ [],
        input InputExample.ext scaled rcpr.enabled (Options.default_options true) (.ok mat) spread
          (fun n => number (ω.1 n)) = .ok (acc, t') ∧
        Execution number (fun i => simulation rcpr 2 acc.material acc.options acc.particle_input_array[i])
          (turn acc.particle_input_array hi) [] ω.2 h ∧ Given number h tapes ∧
        physics_loop_run rcpr 2 ⟨none, true, units, fun _ => "1"⟩ acc.material acc.options splits tapes
          acc.particle_input_array = .ok s ∧
        ε ≤ |((columnSums (s.summary.rows units)).1 : ℝ)/gs.length -
          (∑ i : Fin gs.length,
            (chance bits number (drawnAndFollowed rcpr 2 mat (Options.default_options true) gs[i])
              {out | ∃ q ∈ out, q.incident = true ∧ q.left = true}/
              chance bits number (drawnAndFollowed rcpr 2 mat (Options.default_options true) gs[i])
                Set.univ).toReal)/gs.length|} ≤
      ENNReal.ofReal (1/(4*gs.length*ε^2)) := by
  obtain ⟨mat, mesh, hm, out, ho⟩ := ion_ok rcpr
  have hcomp : complete_material mat = .ok mat := by
    have h := hm
    simp only [mesh0d_material, Mesh0D.new, Material.new, compound_parameters, energy_unit_of,
      mass_unit_of, length_unit_of, bind, Except.bind, pure, Except.pure, Except.ok.injEq,
      Prod.mk.injEq] at h
    rw [← h.1]
    rfl
  have hidx : max_unwrap mat.interaction_index = .ok 0 := by
    have h := hm
    simp only [mesh0d_material, Mesh0D.new, Material.new, compound_parameters, energy_unit_of,
      mass_unit_of, length_unit_of, bind, Except.bind, pure, Except.pure, Except.ok.injEq,
      Prod.mk.injEq] at h
    rw [← h.1]
    rfl
  have hin : ∀ t, input InputExample.ext scaled rcpr.enabled (Options.default_options true) (.ok mat) spread t =
      .ok (⟨[ionAt (t 0), ionAt (t 1)], mat, Options.default_options true, ⟨ANGSTROM ℝ, EV ℝ, AMU ℝ⟩⟩,
        fun n => t (n + 1 + 1)) := by
    intro t
    refine InputExample.input_ok_of (p' := spread) (mi := 0) (pi := 0) Nat.one_pos Nat.one_pos hcomp
      rfl rfl ?_ rfl hidx Nat.one_pos rfl Nat.one_pos rfl rfl rfl rfl (read t)
    cases rcpr.enabled <;> rfl
  obtain ⟨gs, hgs⟩ : ∃ gs, gs = beam scaled (ANGSTROM ℝ) (EV ℝ) (AMU ℝ) spread := ⟨_, rfl⟩
  have hlen : gs.length = 2 := by rw [hgs, beam_eq]; rfl
  have hne : gs ≠ [] := by intro h; rw [h] at hlen; cases hlen
  refine ⟨mat, gs, fun t => ⟨_, _, hin t, rfl, rfl⟩, hgs, hlen, ?_, fun ε hε => C115_reflected (p' := spread) bits number rcpr 2
    ⟨none, true, units, fun _ => "1"⟩ splits scaled_draws rfl (hin zeros) hgs hne turn turn_once ε hε⟩
  have hd : ∀ g ∈ gs, DrawsInOrder g := by rw [hgs]; exact draws_beam scaled_draws _ _ _ _
  have heach : ∀ i : Fin gs.length, gs[i] = drawIon scaled (ANGSTROM ℝ) (EV ℝ) (AMU ℝ) spread 0 := by
    intro i
    have : ∀ g ∈ gs, g = drawIon scaled (ANGSTROM ℝ) (EV ℝ) (AMU ℝ) spread 0 := by
      rw [hgs, beam_eq]
      simp
    exact this _ (List.getElem_mem _)
  have hone : ∃ t', simulation rcpr 2 mat (Options.default_options true) one zeros = .ok (out, t') := by
    unfold run_ion at ho
    unfold simulation
    cases hp : Particle.from_input one (Options.default_options true) with
    | error e => rw [hp] at ho; cases ho
    | ok p =>
      rw [hp] at ho
      simp only [bind, Except.bind, StateT.bind, liftM, monadLift, MonadLift.monadLift, StateT.lift, pure,
        Except.pure] at ho ⊢
      cases hs : single_ion_bca rcpr 2 p mat (Options.default_options true) zeros with
      | error e => rw [hs] at ho; cases ho
      | ok r =>
        rw [hs] at ho
        injection ho with ho
        exact ⟨r.2, by rw [← ho]⟩
  have hsim : ∀ x, DrawsInOrder (simulation rcpr 2 mat (Options.default_options true) x) :=
    draws_simulation rcpr 2 _ _
  have hpos : ∀ i : Fin gs.length,
      chance bits number (gs[i] >>= simulation rcpr 2 mat (Options.default_options true)) Set.univ ≠ 0 := by
    intro i
    obtain ⟨t', ht⟩ := hone
    refine chance_pos (draws_bind (hd _ (List.getElem_mem _)) hsim) (ω := fun _ => 0) (b := out) (t' := t') ?_
    rw [RunStatisticsExample.zero_bits, heach]
    refine m_bind_ok.2 ⟨_, _, drawn_ion zeros, ?_⟩
    have e1 : zeros 0 = (0:ℝ) := rfl
    rw [e1, ionAt_zero]
    exact ht
  have h1 := (C115_independent (Thread := Bool) bits number hne hd hsim turn turn_once (fun _ => Set.univ)).2
  intro h0
  have h2 := Finset.prod_ne_zero_iff.2 fun (i : Fin gs.length) (_ : i ∈ Finset.univ) => hpos i
  apply h2
  rw [← h1]
  refine le_antisymm ((measure_mono ?_).trans h0.le) bot_le
  rintro ω ⟨xs, t', h, hx, ha, he, -⟩
  rw [hgs, inputs_beam (read fun n => number (ω.1 n))] at ha
  injection ha with ha
  injection ha with ha _
  have : Nonempty (Fin (2^53)) := ⟨0⟩
  obtain ⟨hnd, hall, hdr⟩ := execution_all (turn_once xs hx) he (by simp) (fun e he => by cases he)
  obtain ⟨tapes, ht⟩ := given_exists (value := number) hnd
  have hrun : ∃ s, physics_loop_run rcpr 2 ⟨none, true, units, fun _ => "1"⟩ mat (Options.default_options true) splits
      tapes xs = .ok s := by
    refine (C65_fails_only_in_physics (by simp) _ splits _).2 ⟨Nat.one_pos, ?_, ?_⟩
    · rw [← ha]; simp [Options.default_options]
    · intro a hmem
      obtain ⟨k, hk, hka⟩ := List.mem_iff_getElem.1 hmem
      rw [List.length_zipIdx] at hk
      obtain ⟨e, he', hi⟩ := List.mem_map.1 (hall ⟨k, hk⟩)
      obtain ⟨t', ht'⟩ := given_run (prog := fun i : Fin xs.length =>
        simulation rcpr 2 mat (Options.default_options true) xs[i]) ht hdr e he'
      have hr := simulation_run ht'
      rw [hi] at hr
      rw [← hka, List.getElem_zipIdx, Nat.zero_add]
      exact ⟨_, hr⟩
  obtain ⟨s, hs⟩ := hrun
  have hcast : ∀ ys, xs = ys → ∃ h tapes s, ∃ hi : ys ≠ [],
      Execution number (fun i : Fin ys.length => simulation rcpr 2 mat (Options.default_options true) ys[i])
        (turn ys hi) [] ω.2 h ∧ Given number h tapes ∧
      physics_loop_run rcpr 2 ⟨none, true, units, fun _ => "1"⟩ mat (Options.default_options true) splits tapes ys =
        .ok s := by
    rintro _ rfl
    exact ⟨h, tapes, s, hx, he, ht, hs⟩
  obtain ⟨h, tapes, s, hi, r1, r2, r3⟩ := hcast _ ha.symm
  exact ⟨_, _, h, tapes, s, hi, hin _, r1, r2, r3⟩

end RustBCA.CampaignExample
