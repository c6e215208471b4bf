import Verif.Model.Output

/-!
# The main loop (physics.rs)

Random numbers: every thread has its own generator, and whatever the schedule, the numbers ion `i`
consumes form some stream; `sim` maps ion number and input to the result of its cascade (see
`run_ion` and `Tapes` below), so a schedule enters through the streams it hands out, through the
way rayon splits a chunk (`Split`) and through the order in which pieces finish (`Schedule`).
The progress bar and console messages are not modelled.
-/

namespace RustBCA
open Scalar

/-- `slice::chunks(n)` of the Rust standard library for `n > 0`: consecutive pieces of length `n`,
the last one possibly shorter.  (`n = 0` panics in Rust; see `physics_loop`.) -/
def chunks {α : Type} (n : Nat) (l : List α) : List (List α) :=
  if _h : n = 0 ∨ l = [] then []
  else l.take n :: chunks n (l.drop n)
termination_by l.length
decreasing_by
  simp only [not_or] at _h
  have : l.length ≠ 0 := fun e => _h.2 (List.eq_nil_of_length_eq_zero e)
  simp only [List.length_drop]; omega

/-- How rayon splits a slice between threads: either a piece is folded sequentially, or it is cut
at `mid` and both parts are processed (possibly in parallel) and their results appended in order
(`ParallelExtend` for `Vec`). -/
inductive Split where
  | leaf
  | node (mid : Nat) (l r : Split)

/-- physics.rs:44-51 `extend(chunk.iter().map(f).flatten())`. -/
def seq_collect {α β : Type} (f : α → Res (List β)) : List α → Res (List β)
  | [] => pure []
  | x :: xs => do
    let a ← f x
    let b ← seq_collect f xs
    pure (a ++ b)

/-- physics.rs:35-42 `par_extend(chunk.into_par_iter().map(f).flatten())` for a given way of
splitting the chunk.  If several ions panic the model reports the first in order; rayon
reports some panic. -/
def par_collect {α β : Type} (f : α → Res (List β)) : Split → List α → Res (List β)
  | .leaf, xs => seq_collect f xs
  | .node mid l r, xs => do
    let a ← par_collect f l (xs.take mid)
    let b ← par_collect f r (xs.drop mid)
    pure (a ++ b)

variable {F : Type} [Scalar F]

/-- What the run accumulates: finished particles in the order they reach the outputs, the summary,
the distributions (if that feature is on) and the operations on the list files. -/
structure RunState (F : Type) where
  processed : List (Particle F)
  summary : SummaryPerSpecies F
  distributions : Option (Distributions F)
  ops : List OutOp

/-- Build and run-time configuration of the outputs: cargo features `distributions` (its grid) and
`no_list_output` (negated), output units, number formatting. -/
structure OutputConfig (F : Type) where
  grid : Option (GridOptions F)
  list_output : Bool
  units : OutputUnits F
  fmt : F → String

/-- physics.rs:54-66 processing one finished particle. -/
def process_particle (cfg : OutputConfig F) (options : Options F) (total_count : Nat)
    (s : RunState F) (particle : Particle F) : Res (RunState F) := do
  let summary ← s.summary.update particle
  let distributions ← (match s.distributions with
    | none => pure none
    | some d => do
      let d ← d.update particle cfg.units options.track_energy_losses total_count
      pure (some d) : Res (Option (Distributions F)))
  pure {
    processed := s.processed ++ [particle]
    summary := summary
    distributions := distributions
    ops := if cfg.list_output then s.ops ++ output_lists cfg.fmt particle options cfg.units
      else s.ops }

/-- physics.rs:29-70 one chunk: simulate, process in order, flush. -/
def process_chunk {α : Type} (cfg : OutputConfig F) (options : Options F) (total_count : Nat)
    (sim : α → Res (List (Particle F))) (s : RunState F) (chunk : List α × Split) :
    Res (RunState F) := do
  let finished_particles ← (if options.num_threads > 1 then par_collect sim chunk.2 chunk.1
    else seq_collect sim chunk.1 : Res (List (Particle F)))
  let s ← forFold (process_particle cfg options total_count) finished_particles s
  pure { s with ops := if cfg.list_output then s.ops ++ output_list_flush else s.ops }

/-- The way the successive chunks are split; a missing entry means "not split". -/
def withSplits {α : Type} (splits : List Split) (l : List (List α)) : List (List α × Split) :=
  l.zipIdx.map fun (c, i) => (c, splits.getD i .leaf)

/-- physics.rs:3-81 `physics_loop`.  `ions` are the elements of `particle_input_array` (with
whatever `sim` needs to know about them). -/
def physics_loop {α : Type} (cfg : OutputConfig F) (options : Options F)
    (sim : α → Res (List (Particle F))) (splits : List Split) (ions : List α) :
    Res (RunState F) := do
  let total_count := ions.length
  rassert (decide (0 < options.num_chunks)) "attempt to divide by zero"
  rassert (decide (0 < total_count/options.num_chunks))
    "Input error: chunk size == 0 - reduce num_chunks or increase particle count."
  forFold (process_chunk cfg options total_count sim)
    (withSplits splits (chunks (total_count/options.num_chunks) ions))
    ⟨[], SummaryPerSpecies.new, cfg.grid.map Distributions.new, []⟩

/-- physics.rs:40, 49 the simulation of one ion on the random stream `tape`. -/
def run_ion (rcpr : Rcpr F) (fuel : Nat) (material : Material F) (options : Options F)
    (input : ParticleInput F) (tape : Tape F) : Res (List (Particle F)) := do
  let particle ← Particle.from_input input options
  let (out, _) ← single_ion_bca rcpr fuel particle material options tape
  pure out

/-- physics.rs:3-81 `physics_loop` on particle inputs; `tapes i` is the stream of random numbers
ion number `i` consumes in the execution considered. -/
def physics_loop_run (rcpr : Rcpr F) (fuel : Nat) (cfg : OutputConfig F) (material : Material F)
    (options : Options F) (splits : List Split) (tapes : Nat → Tape F)
    (inputs : List (ParticleInput F)) : Res (RunState F) :=
  physics_loop cfg options (fun (pi : ParticleInput F × Nat) =>
    run_ion rcpr fuel material options pi.1 (tapes pi.2)) splits inputs.zipIdx

end RustBCA
