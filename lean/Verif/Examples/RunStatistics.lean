import Verif.Props.RunStatistics
import Verif.Examples.Main
import Verif.Examples.Statistics

/-!
# C107: the hypotheses are met
-/

namespace RustBCA.RunStatisticsExample
open Scalar Spec MeasureTheory StatisticsExample MainExample LibExample

theorem zero_bits : (fun n => number ((fun _ => 0 : ℕ → Fin (2^53)) n)) = zeros := by
  ext k
  unfold number zeros
  simp

/-- The two ions of `MainExample` come to an end with positive probability, two threads following them, and
on the streams they then used the run ends too. -/
theorem runs_any (rcpr : Rcpr ℝ) (cfg : OutputConfig ℝ) (hcfg : ∀ o, cfg.grid = some o → TwoPoints o)
    (splits : List Split) : ∃ mat : Material ℝ,
    threadStreams Bool bits {ω | ∃ h tapes s,
        Execution number (fun i : Fin [one, one].length =>
          simulation rcpr 2 mat (Options.default_options true) [one, one][i]) turns [] ω h ∧
        Given number h tapes ∧
        physics_loop_run rcpr 2 cfg mat (Options.default_options true) splits tapes [one, one] = .ok s} ≠ 0 := by
  obtain ⟨mat, mesh, hm, out, ho⟩ := ion_ok rcpr
  refine ⟨mat, ?_⟩
  have hone : ∃ t', simulation rcpr 2 mat (Options.default_options true) one zeros = .ok (out, t') := by
    unfold run_ion at ho
    unfold simulation
    cases hp : Particle.from_input one (Options.default_options true) with
    | error e => rw [hp] at ho; cases ho
    | ok p =>
      rw [hp] at ho
      simp only [bind, Except.bind, StateT.bind, liftM, monadLift, MonadLift.monadLift, StateT.lift, pure,
        Except.pure] at ho ⊢
      cases hs : single_ion_bca rcpr 2 p mat (Options.default_options true) zeros with
      | error e => rw [hs] at ho; cases ho
      | ok r =>
        rw [hs] at ho
        injection ho with ho
        exact ⟨r.2, by rw [← ho]⟩
  have heach : ∀ i : Fin [one, one].length, [one, one][i] = one := by
    intro i
    match i with
    | ⟨0, _⟩ => rfl
    | ⟨1, _⟩ => rfl
  have hpos : ∀ i : Fin [one, one].length, chance bits number
      (simulation rcpr 2 mat (Options.default_options true) [one, one][i]) Set.univ ≠ 0 := by
    intro i
    obtain ⟨t', ht⟩ := hone
    rw [heach]
    refine chance_pos (draws_simulation _ _ _ _ _) (ω := fun _ => 0) (b := out) (t' := t') ?_
    rw [zero_bits]
    exact ht
  have h1 := C97_independent (Thread := Bool) bits number
    (fun i : Fin [one, one].length => simulation rcpr 2 mat (Options.default_options true) [one, one][i])
    (fun _ => draws_simulation _ _ _ _ _) turns turns_once (fun _ => Set.univ)
  intro h0
  have h2 := Finset.prod_ne_zero_iff.2 fun (i : Fin [one, one].length) (_ : i ∈ Finset.univ) => hpos i
  apply h2
  rw [← h1]
  refine le_antisymm ((measure_mono ?_).trans h0.le) bot_le
  rintro ω ⟨h, he, -⟩
  haveI : Nonempty (Fin (2^53)) := ⟨0⟩
  obtain ⟨hnd, hall, hd⟩ := execution_all turns_once he (by simp) (fun e he => by cases he)
  obtain ⟨tapes, ht⟩ := given_exists (value := number) hnd
  have hrun : ∃ s, physics_loop_run rcpr 2 cfg mat (Options.default_options true) splits
      tapes [one, one] = .ok s := by
    refine (C65_fails_only_in_physics hcfg _ splits _).2 ⟨Nat.one_pos, ?_, ?_⟩
    · simp [Options.default_options]
    · have hk : ∀ i : Fin [one, one].length, ∃ out,
          run_ion rcpr 2 mat (Options.default_options true) one (tapes i) = .ok out := by
        intro i
        obtain ⟨e, he', hi⟩ := List.mem_map.1 (hall i)
        obtain ⟨t', ht'⟩ := given_run (prog := fun i : Fin [one, one].length =>
          simulation rcpr 2 mat (Options.default_options true) [one, one][i]) ht hd e he'
        have := simulation_run ht'
        rw [heach, hi] at this
        exact ⟨_, this⟩
      intro a ha
      simp only [List.zipIdx_cons, List.zipIdx_nil, List.mem_cons, List.not_mem_nil, or_false] at ha
      rcases ha with rfl | rfl
      · exact hk ⟨0, by simp⟩
      · exact hk ⟨1, by simp⟩
  obtain ⟨s, hs⟩ := hrun
  exact ⟨h, tapes, s, he, ht, hs⟩

/-- The two ions come to an end with positive probability, so the bound of C107 is about a run that happens. -/
theorem runs (rcpr : Rcpr ℝ) (units : OutputUnits ℝ) (splits : List Split) : ∃ mat : Material ℝ,
    threadStreams Bool bits {ω | ∃ h tapes s,
        Execution number (fun i : Fin [one, one].length =>
          simulation rcpr 2 mat (Options.default_options true) [one, one][i]) turns [] ω h ∧
        Given number h tapes ∧
        physics_loop_run rcpr 2 ⟨none, true, units, fun _ => "1"⟩ mat (Options.default_options true) splits tapes
          [one, one] = .ok s} ≠ 0 ∧
    ∀ ε : ℝ, 0 < ε →
      threadStreams Bool bits {ω | ∃ h tapes s,
        Execution number (fun i : Fin [one, one].length =>
          simulation rcpr 2 mat (Options.default_options true) [one, one][i]) turns [] ω h ∧
        Given number h tapes ∧
        physics_loop_run rcpr 2 ⟨none, true, units, fun _ => "1"⟩ mat (Options.default_options true) splits tapes
          [one, one] = .ok s ∧
        ε ≤ |((columnSums (s.summary.rows units)).1 : ℝ)/[one, one].length -
          (∑ i : Fin [one, one].length,
            (chance bits number (simulation rcpr 2 mat (Options.default_options true) [one, one][i])
              {out | ∃ q ∈ out, q.incident = true ∧ q.left = true}/
              chance bits number (simulation rcpr 2 mat (Options.default_options true) [one, one][i])
                Set.univ).toReal)/[one, one].length|} ≤
      ENNReal.ofReal (1/(4*([one, one].length : ℕ)*ε^2)) := by
  obtain ⟨mat, h⟩ := runs_any rcpr ⟨none, true, units, fun _ => "1"⟩ (by simp) splits
  exact ⟨mat, h, fun ε hε => C107_reflected bits number rcpr 2 _ mat _ splits [one, one] (by simp) turns turns_once
    ε hε⟩

end RustBCA.RunStatisticsExample
