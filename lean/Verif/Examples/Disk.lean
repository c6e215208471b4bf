import Verif.Props.Disk
import Verif.Examples.Run

/-!
# Non-vacuity for C111
-/

namespace RustBCA
open Scalar Spec CascadeExample RunExample

namespace DiskExample

/-- A disk on which every file exists and holds the same old text. -/
def old : Disk := fun _ => some "old".toList

/-- The options of the run, with a name. -/
noncomputable def named (name : String) : Options ℝ := { options with name := name, num_chunks := 1 }

/-- C111: the run of three ions of C47, on a disk full of old files.  The rows of the summary are of
this run (three ions are reflected or deposited), the list of sputtered particles has this run's lines;
a file of another run keeps its old text, also if the run is killed after opening its files. -/
example : ∃ s refl sput dep,
    physics_loop_run rcpr 3 cfg mat (named "run1") [] (fun _ => zeros)
      [inp, inp, inp] = .ok s ∧
    perform old (physics_loop_files cfg (fun _ => "") (named "run1") s) "run1sputtered.output"
      = some (textOf .sputtered s.ops) ∧
    perform old (physics_loop_files cfg (fun _ => "") (named "run1") s) "run1summary.output"
      = some (summaryText cfg.fmt (s.summary.rows cfg.units)).toList ∧
    columnSums (s.summary.rows cfg.units) = (refl, sput, dep) ∧ refl + dep = 3 ∧
    perform old (physics_loop_files cfg (fun _ => "") (named "run1") s) "run2summary.output"
      = some "old".toList ∧
    AtSomeMoment old (physics_loop_files cfg (fun _ => "") (named "run1") s)
      (perform old (open_output_lists (named "run1"))) := by
  obtain ⟨s, hs⟩ := run3 1 (by norm_num) (by norm_num) []
  obtain ⟨refl, sput, dep, h1, h2, -⟩ := C49_summary_balances hs
  refine ⟨s, refl, sput, dep, hs, ?_, ?_, h1, h2, ?_, ?_⟩
  · exact C111_list_files cfg _ (named "run1") s old rfl .sputtered "sputtered.output" (by simp)
  · exact C111_summary cfg _ (named "run1") s old
  · refine C111_untouched cfg (fun _ => "") (named "run1") s old _ _ ?_ ⟨_, List.prefix_rfl, .inl rfl⟩
    rintro ⟨e, he, h⟩
    have := (C111_distinct "run2" "run1" "summary.output" e summary_mem he h).1
    exact absurd this (by decide)
  · refine ⟨open_output_lists (named "run1"), ?_, .inl rfl⟩
    rw [show physics_loop_files cfg (fun _ => "") (named "run1") s = open_output_lists (named "run1") ++
      (open_summary (named "run1") ++ (list_writes (named "run1") s.ops ++
        (print_summary cfg.fmt (named "run1") cfg.units s.summary ++
          distributions_file (fun _ => "") (named "run1") s.distributions))) by
      simp only [physics_loop_files, cfg, if_true, List.append_assoc]]
    exact List.prefix_append _ _

/-- **Finding.** Nothing keeps a run from overwriting the file it was started from: with distributions,
a run named `w` whose input file is called `wdistributions.toml`. -/
theorem C111_input_overwritten (d : Distributions ℝ) :
    old "wdistributions.toml" = some "old".toList ∧
    perform old (physics_loop_files cfg (fun _ => "counts") (named "w")
      ⟨[], SummaryPerSpecies.new, some d, []⟩) "wdistributions.toml" = some "counts\n".toList := by
  refine ⟨rfl, (C111_distributions cfg _ (named "w") _ old).trans ?_⟩
  show some ("counts".toList ++ ['\n']) = _
  exact congrArg some (by decide)

end DiskExample
end RustBCA
