import Verif.Props.HistogramStatistics
import Verif.Examples.RunStatistics
import Verif.Examples.HistogramRun

/-!
# C117: the hypotheses are met
-/

namespace RustBCA.HistogramStatisticsExample
open Scalar Spec MeasureTheory ProbabilityTheory StatisticsExample MainExample HistogramExample

/-- Two ions, eleven cells per axis, two threads: the run ends with positive probability, and the bounds hold of the
third depth bin, of the cell (2, 5) of the two energy-angle distributions. -/
example (rcpr : Rcpr ℝ) (splits : List Split) : ∃ mat : Material ℝ,
    threadStreams Bool bits {ω | ∃ h tapes s,
        Execution number (fun i : Fin [one, one].length =>
          simulation rcpr 2 mat (Options.default_options true) [one, one][i]) turns [] ω h ∧
        Given number h tapes ∧
        physics_loop_run rcpr 2 cfg mat (Options.default_options true) splits tapes [one, one] = .ok s} ≠ 0 ∧
    threadStreams Bool bits {ω | ∃ h tapes s d, ∃ k : ℕ,
        Execution number (fun i : Fin [one, one].length =>
          simulation rcpr 2 mat (Options.default_options true) [one, one][i]) turns [] ω h ∧ Given number h tapes ∧
        physics_loop_run rcpr 2 cfg mat (Options.default_options true) splits tapes [one, one] = .ok s ∧
        s.distributions = some d ∧ d.implanted_x[2]? = some k ∧
        3/4 ≤ |(k:ℝ)/[one, one].length -
          (∑ l : Fin [one, one].length,
            (chance bits number (simulation rcpr 2 mat (Options.default_options true) [one, one][l])
              {out | ∃ q ∈ out, q.incident = true ∧ q.stopped = true ∧
                InBin grid.x_min grid.x_max grid.x_num 2 (q.pos.x/cfg.units.length_unit)}/
              chance bits number (simulation rcpr 2 mat (Options.default_options true) [one, one][l])
                Set.univ).toReal)/[one, one].length|} ≤ ENNReal.ofReal (1/(4*([one, one].length : ℕ)*(3/4)^2)) ∧
    threadStreams Bool bits {ω | ∃ h tapes s d row, ∃ k : ℕ,
        Execution number (fun i : Fin [one, one].length =>
          simulation rcpr 2 mat (Options.default_options true) [one, one][i]) turns [] ω h ∧ Given number h tapes ∧
        physics_loop_run rcpr 2 cfg mat (Options.default_options true) splits tapes [one, one] = .ok s ∧
        s.distributions = some d ∧ d.reflected_ead[2]? = some row ∧ row[5]? = some k ∧
        3/4 ≤ |(k:ℝ)/[one, one].length -
          (∑ l : Fin [one, one].length,
            (chance bits number (simulation rcpr 2 mat (Options.default_options true) [one, one][l])
              {out | ∃ q ∈ out, q.incident = true ∧ q.left = true ∧ EmittedIn grid cfg.units 2 5 q}/
              chance bits number (simulation rcpr 2 mat (Options.default_options true) [one, one][l])
                Set.univ).toReal)/[one, one].length|} ≤ ENNReal.ofReal (1/(4*([one, one].length : ℕ)*(3/4)^2)) := by
  obtain ⟨mat, h⟩ := RunStatisticsExample.runs_any rcpr cfg
    (fun o h => by obtain rfl := Option.some.inj h; exact good.two) splits
  refine ⟨mat, h, ?_, ?_⟩
  · exact C117_implanted bits number rcpr 2 cfg mat _ splits [one, one] (by simp) rfl good 2 turns turns_once (3/4)
      (by norm_num) _ _ (.inl ⟨rfl, by norm_num [grid], rfl⟩)
  · exact C117_reflected bits number rcpr 2 cfg mat _ splits [one, one] (by simp) rfl good 2 5 (by norm_num [grid])
      (by norm_num [grid]) turns turns_once (3/4) (by norm_num)

/-- Sputtered atoms and energy losses. -/
example (rcpr : Rcpr ℝ) (mat : Material ℝ) (splits : List Split) :
    (∀ l : Fin [one, one].length, MemLp (fun k : ℕ => (k : ℝ)) 2
      (countLaw bits number (simulation rcpr 9 mat (Options.default_options true) [one, one][l])
        (howMany fun q => q.incident = false ∧ q.left = true ∧ EmittedIn grid cfg.units 2 5 q))) ∧
    (∀ l : Fin [one, one].length, FiniteVariance bits number
      (simulation rcpr 9 mat { Options.default_options true with track_energy_losses := true } [one, one][l])
        (lossIn grid cfg.units 1 2 fun l => l.Ee)) :=
  ⟨(C117_sputtered bits number rcpr 9 cfg mat _ splits [one, one] (by simp) rfl good 2 5 (by norm_num [grid])
      (by norm_num [grid]) rfl turns turns_once 1 one_pos).1,
   (C117_losses bits number rcpr 9 cfg mat { Options.default_options true with track_energy_losses := true } splits
      [one, one] (by simp) rfl good rfl 2 (by norm_num [grid]) turns turns_once 1 one_pos _ _ (.inl ⟨rfl, rfl⟩)).1⟩

end RustBCA.HistogramStatisticsExample
