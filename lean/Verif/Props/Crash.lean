import Verif.Props.Output
import Verif.Spec.Crash

/-!
# Crash safety of the list outputs (C53)
-/

set_option linter.unusedSectionVars false
set_option linter.unusedVariables false
set_option linter.unusedSimpArgs false

namespace RustBCA
open Scalar Spec

/-- The bytes written to `f` by the steps. -/
def bytesOf (f : OutFile) (ms : List Micro) : List Char :=
  (ms.map fun m => match m with
    | .write g data => if g = f then data else []
    | .flush _ => []).flatten

theorem bytesOf_append (f : OutFile) (a b : List Micro) :
    bytesOf f (a ++ b) = bytesOf f a ++ bytesOf f b := by
  simp [bytesOf]

theorem performs_bytes {ops : List OutOp} {ms : List Micro} (h : Performs ops ms) (f : OutFile) :
    bytesOf f ms = textOf f ops := by
  induction h with
  | nil => rfl
  | @flush g ops ms _ ih =>
    show bytesOf f ([.flush g] ++ ms) = _
    rw [bytesOf_append, ih]
    simp [bytesOf, textOf, linesOf]
  | @write g line ops ms pieces hp _ ih =>
    rw [bytesOf_append, ih]
    have : textOf f (.write g line :: ops) =
        (if g = f then line.toList ++ ['\n'] else []) ++ textOf f ops := by
      unfold textOf linesOf
      rw [List.filterMap_cons]
      by_cases hg : g = f <;> simp [hg]
    rw [this]
    congr 1
    by_cases hg : g = f
    · rw [if_pos hg, ← hp]
      simp [bytesOf, hg, List.map_map, Function.comp_def]
    · rw [if_neg hg]
      simp [bytesOf, hg, List.map_map, Function.comp_def]

theorem Stream.write_all_spec (s : Stream) (d : List Char) (hs : s.buf.length ≤ s.cap) :
    (s.write_all d).file ++ (s.write_all d).buf = s.file ++ s.buf ++ d ∧
    s.file <+: (s.write_all d).file ∧ (s.write_all d).cap = s.cap ∧
    (s.write_all d).buf.length ≤ s.cap := by
  unfold Stream.write_all
  by_cases h1 : d.length < s.cap - s.buf.length
  · rw [if_pos h1]
    refine ⟨by simp, by simp, rfl, ?_⟩
    simp only [List.length_append]; omega
  · rw [if_neg h1]
    by_cases h2 : d.length > s.cap - s.buf.length
    · simp only [if_pos h2]
      by_cases h3 : d.length ≥ s.flush.cap
      · rw [if_pos h3]
        simp [Stream.flush, List.append_assoc]
      · rw [if_neg h3]
        simp only [Stream.flush] at h3
        refine ⟨by simp [Stream.flush], by simp [Stream.flush], rfl, ?_⟩
        simp only [Stream.flush, List.nil_append]; omega
    · simp only [if_neg h2]
      by_cases h3 : d.length ≥ s.cap
      · rw [if_pos h3]
        have : s.buf = [] := by
          apply List.eq_nil_of_length_eq_zero
          omega
        simp [this]
      · rw [if_neg h3]
        refine ⟨by simp, by simp, rfl, ?_⟩
        simp only [List.length_append]; omega

theorem streams_append (cap : OutFile → Nat) (a : List Micro) (m : Micro) :
    streams cap (a ++ [m]) = microStep (streams cap a) m := by
  simp [streams]

/-- Buffers never exceed their capacity. -/
theorem streams_buf (cap : OutFile → Nat) (ms : List Micro) (f : OutFile) :
    (streams cap ms f).buf.length ≤ (streams cap ms f).cap := by
  induction ms using List.reverseRecOn with
  | nil => exact Nat.zero_le _
  | append_singleton ms m ih =>
    rw [streams_append]
    cases m with
    | write g d =>
      simp only [microStep]
      by_cases hg : f = g
      · subst hg
        rw [if_pos rfl, (Stream.write_all_spec _ d ih).2.2.1]
        exact (Stream.write_all_spec _ d ih).2.2.2
      · rw [if_neg hg]; exact ih
    | flush g =>
      simp only [microStep]
      by_cases hg : f = g
      · subst hg
        rw [if_pos rfl]; exact Nat.zero_le _
      · rw [if_neg hg]; exact ih

/-- What has been written is in the file or in the buffer, in order. -/
theorem streams_bytes (cap : OutFile → Nat) (ms : List Micro) (f : OutFile) :
    (streams cap ms f).file ++ (streams cap ms f).buf = bytesOf f ms := by
  induction ms using List.reverseRecOn with
  | nil => rfl
  | append_singleton ms m ih =>
    rw [streams_append, bytesOf_append, ← ih]
    cases m with
    | write g d =>
      unfold microStep
      by_cases hg : f = g
      · subst hg
        simp [bytesOf, (Stream.write_all_spec _ d (streams_buf cap ms f)).1]
      · simp [bytesOf, hg, Ne.symm hg]
    | flush g =>
      unfold microStep
      by_cases hg : f = g
      · subst hg
        simp [bytesOf, Stream.flush]
      · simp [bytesOf, hg]

/-- Files only grow. -/
theorem streams_grow (cap : OutFile → Nat) (ms rest : List Micro) (f : OutFile) :
    (streams cap ms f).file <+: (streams cap (ms ++ rest) f).file := by
  induction rest using List.reverseRecOn with
  | nil => simp
  | append_singleton rest m ih =>
    rw [← List.append_assoc, streams_append]
    refine ih.trans ?_
    cases m with
    | write g d =>
      unfold microStep
      by_cases hg : f = g
      · subst hg; simp [(Stream.write_all_spec _ d (streams_buf cap (ms ++ rest) f)).2.1]
      · simp [hg]
    | flush g =>
      unfold microStep
      by_cases hg : f = g
      · subst hg; simp [Stream.flush]
      · simp [hg]

theorem performs_append {a b : List OutOp} {ms : List Micro} (h : Performs (a ++ b) ms) :
    ∃ x y, Performs a x ∧ Performs b y ∧ ms = x ++ y := by
  induction a generalizing ms with
  | nil => exact ⟨[], ms, .nil, h, rfl⟩
  | cons op a ih =>
    cases h with
    | flush h =>
      obtain ⟨x, y, hx, hy, rfl⟩ := ih h
      exact ⟨_, y, .flush hx, hy, rfl⟩
    | write pieces hp h =>
      obtain ⟨x, y, hx, hy, rfl⟩ := ih h
      exact ⟨_, y, .write pieces hp hx, hy, by simp⟩

theorem performs_flushes {ms : List Micro} (h : Performs output_list_flush ms) :
    ms = [.flush .displacements, .flush .reflected, .flush .deposited, .flush .sputtered,
      .flush .trajectory_data, .flush .trajectory] := by
  unfold output_list_flush at h
  cases h with | flush h =>
  cases h with | flush h =>
  cases h with | flush h =>
  cases h with | flush h =>
  cases h with | flush h =>
  cases h with | flush h =>
  cases h; rfl

/-- After the flushes at the end of a chunk everything written so far is in the file, for every
file but the energy losses. -/
theorem flushed_text (cap : OutFile → Nat) {ops : List OutOp} {ms : List Micro}
    (h : Performs (ops ++ output_list_flush) ms) (f : OutFile) (hf : f ≠ .energy_loss) :
    (streams cap ms f).file = textOf f (ops ++ output_list_flush) := by
  have hb := streams_bytes cap ms f
  rw [performs_bytes h f] at hb
  rw [← hb]
  have : (streams cap ms f).buf = [] := by
    obtain ⟨x, y, _, hy, rfl⟩ := performs_append h
    rw [performs_flushes hy]
    unfold streams
    rw [List.foldl_append]
    simp only [List.foldl_cons, List.foldl_nil, microStep]
    cases f <;> simp [Stream.flush]
    exact absurd rfl hf
  rw [this, List.append_nil]

variable {F : Type} [Scalar F]

/-- The operations after some completed chunks end with a flush (or there are none). -/
theorem chunks_ops {α : Type} {cfg : OutputConfig F} {options : Options F} {n : Nat}
    {sim : α → Res (List (Particle F))} (hlist : cfg.list_output = true)
    (cs : List (List α × Split)) {s s' : RunState F}
    (h : forFold (process_chunk cfg options n sim) cs s = .ok s')
    (hs : s.ops = [] ∨ ∃ o, s.ops = o ++ output_list_flush) :
    (s'.ops = [] ∨ ∃ o, s'.ops = o ++ output_list_flush) ∧ ∃ o, s'.ops = s.ops ++ o := by
  induction cs generalizing s with
  | nil =>
    obtain rfl : s = s' := by simpa [forFold, pure, Except.pure] using h
    exact ⟨hs, [], by simp⟩
  | cons c cs ih =>
    obtain ⟨m, h1, h2⟩ := forFold_ok_cons.1 h
    obtain ⟨ps, m', hc, hf, rfl⟩ := process_chunk_ok.1 h1
    have hm := (forFold_run _ hf).2
    simp only [hlist, if_true] at hm h2 ih
    obtain ⟨g1, o, g2⟩ := ih h2 (.inr ⟨_, rfl⟩)
    refine ⟨g1, ?_⟩
    rw [g2]
    simp only [hm]
    exact ⟨_, by rw [List.append_assoc, List.append_assoc]⟩

/-- **C53 (partial)** When the process is killed at any point after some chunks are completed, every
list file except energy_loss.output contains all lines of these chunks, as a prefix of what a longer
run would have written; whatever the buffer sizes, the pieces in which lines are written, the
operations still to come, and the step in the middle of which the process dies.  (The property
includes energy_loss.output, for which it is false: `RunExample.C53_refuted`.) -/
theorem C53_completed_chunks_survive_partial {α : Type} {cfg : OutputConfig F} {options : Options F}
    {n : Nat} {sim : α → Res (List (Particle F))} (hlist : cfg.list_output = true)
    {completed : List (List α × Split)} {s s' : RunState F} (hs : s.ops = [])
    (run : forFold (process_chunk cfg options n sim) completed s = .ok s')
    (cap : OutFile → Nat) (rest : List OutOp) (before during : List Micro)
    (hb : Performs s'.ops before) (hd : Performs rest during) (f : OutFile)
    (hf : f ≠ .energy_loss) (c : List Char) (killed : KilledDuring cap before during f c) :
    textOf f s'.ops <+: c ∧ c <+: textOf f (s'.ops ++ rest) := by
  obtain ⟨a, b, rfl, h1, h2⟩ := killed
  constructor
  · refine List.IsPrefix.trans ?_ h1
    rcases (chunks_ops hlist completed run (.inl hs)).1 with h0 | ⟨o, h0⟩
    · rw [h0]; exact List.nil_prefix
    · rw [h0] at hb
      rw [h0, ← flushed_text cap hb f hf]
      exact streams_grow cap _ _ f
  · refine h2.trans ?_
    have h3 : textOf f (s'.ops ++ rest) = bytesOf f (before ++ (a ++ b)) := by
      rw [bytesOf_append, performs_bytes hb, performs_bytes hd]
      simp [textOf, linesOf]
    rw [h3, ← streams_bytes cap]
    refine List.IsPrefix.trans ?_ (List.prefix_append _ _)
    have : before ++ (a ++ b) = (before ++ a ++ b.take 1) ++ b.drop 1 := by
      simp only [List.append_assoc, List.take_append_drop]
    rw [this]
    exact streams_grow cap _ _ f

/-- **C53** for every file, energy_loss.output included: whenever the process is killed, the file
is a prefix of the full output; nothing is reordered, lost in the middle or written twice. -/
theorem C53_always_a_prefix (cap : OutFile → Nat) (ops : List OutOp) (ms : List Micro)
    (h : Performs ops ms) (f : OutFile) (c : List Char) (killed : KilledDuring cap [] ms f c) :
    c <+: textOf f ops := by
  obtain ⟨a, b, rfl, h1, h2⟩ := killed
  refine h2.trans ?_
  rw [← performs_bytes h f, ← streams_bytes cap]
  refine List.IsPrefix.trans ?_ (List.prefix_append _ _)
  have : a ++ b = ([] ++ a ++ b.take 1) ++ b.drop 1 := by
    simp only [List.nil_append, List.append_assoc, List.take_append_drop]
  rw [this]
  exact streams_grow cap _ _ f

/-- **C53** the chunks completed before the end of a successful run: the run passes through this
state, and its operations continue those of the state. -/
theorem C53_run_passes_through {α : Type} {cfg : OutputConfig F} {options : Options F}
    {sim : α → Res (List (Particle F))} {splits : List Split} {ions : List α} {s : RunState F}
    (hlist : cfg.list_output = true)
    (run : physics_loop cfg options sim splits ions = .ok s) (k : Nat) :
    ∃ sk rest, forFold (process_chunk cfg options ions.length sim)
        ((withSplits splits (chunks (ions.length/options.num_chunks) ions)).take k)
        ⟨[], SummaryPerSpecies.new, cfg.grid.map Distributions.new, []⟩ = .ok sk ∧
      s.ops = sk.ops ++ rest ∧
      ∀ f, linesOf f sk.ops =
        (sk.processed.map fun p => linesOf f (output_lists cfg.fmt p options cfg.units)).flatten := by
  obtain ⟨h1, h2, h3⟩ := physics_loop_ok.1 run
  rw [← List.take_append_drop k (withSplits splits (chunks (ions.length/options.num_chunks) ions))]
    at h3
  obtain ⟨sk, g1, g2⟩ := forFold_ok_append.1 h3
  have hk := (chunks_ops hlist _ g1 (.inl rfl)).1
  obtain ⟨-, rest, hr⟩ := chunks_ops hlist _ g2 hk
  refine ⟨sk, rest, g1, hr, fun f => ?_⟩
  obtain ⟨ps, t', h4, h5, hv⟩ := chunks_to_one _ g1 (SameView.refl _)
  rw [← hv.lines f, (forFold_run _ h5).2, ← hv.processed, forFold_processed _ h5, hlist]
  simp only [if_true, List.nil_append]
  clear h4 h5
  induction ps with
  | nil => rfl
  | cons p ps ih => simp only [List.map_cons, List.flatten_cons, linesOf_append, ih]

/-! ### The energy-loss file -/

/-- As long as the buffer is large enough, nothing reaches a file that is never flushed. -/
theorem never_flushed (cap : OutFile → Nat) (ms : List Micro) (f : OutFile)
    (hno : ∀ m ∈ ms, ∀ g, m = .flush g → g ≠ f) (hcap : (bytesOf f ms).length < cap f) :
    (streams cap ms f).file = [] ∧ (streams cap ms f).cap = cap f := by
  induction ms using List.reverseRecOn with
  | nil => exact ⟨rfl, rfl⟩
  | append_singleton ms m ih =>
    rw [bytesOf_append, List.length_append] at hcap
    obtain ⟨i1, i2⟩ := ih (fun m hm => hno m (by simp [hm])) (by omega)
    have hbuf := streams_bytes cap ms f
    rw [i1, List.nil_append] at hbuf
    rw [streams_append]
    cases m with
    | write g d =>
      unfold microStep
      by_cases hg : f = g
      · subst hg
        have hd : (bytesOf f [.write f d]) = d := by simp [bytesOf]
        rw [hd] at hcap
        simp only [if_true]
        unfold Stream.write_all
        rw [if_pos (by rw [i2, hbuf]; omega)]
        exact ⟨i1, i2⟩
      · simp [hg, i1, i2]
    | flush g =>
      have := hno (.flush g) (by simp) g rfl
      simp only [microStep]
      rw [if_neg (Ne.symm this)]
      exact ⟨i1, i2⟩

theorem performs_no_flush {ops : List OutOp} {ms : List Micro} (h : Performs ops ms) (f : OutFile)
    (hno : ∀ g, OutOp.flush g ∈ ops → g ≠ f) : ∀ m ∈ ms, ∀ g, m = .flush g → g ≠ f := by
  induction h with
  | nil => simp
  | flush _ ih =>
    intro m hm g e
    rcases List.mem_cons.1 hm with rfl | hm
    · injection e with e; subst e; exact hno _ (by simp)
    · exact ih (fun g hg => hno g (by simp [hg])) m hm g e
  | write pieces _ _ ih =>
    intro m hm g e
    rcases List.mem_append.1 hm with hm | hm
    · obtain ⟨x, _, rfl⟩ := List.mem_map.1 hm
      simp at e
    · exact ih (fun g hg => hno g (by simp [hg])) m hm g e

/-- No run ever flushes energy_loss.output. -/
theorem no_energy_loss_flush {α : Type} {cfg : OutputConfig F} {options : Options F}
    {n : Nat} {sim : α → Res (List (Particle F))}
    {cs : List (List α × Split)} {s s' : RunState F}
    (run : forFold (process_chunk cfg options n sim) cs s = .ok s')
    (hs : ∀ g, OutOp.flush g ∈ s.ops → g ≠ .energy_loss) :
    ∀ g, OutOp.flush g ∈ s'.ops → g ≠ .energy_loss := by
  induction cs generalizing s with
  | nil =>
    obtain rfl : s = s' := by simpa [forFold, pure, Except.pure] using run
    exact hs
  | cons c cs ih =>
    obtain ⟨m, h1, h2⟩ := forFold_ok_cons.1 run
    obtain ⟨ps, m', hc, hf, rfl⟩ := process_chunk_ok.1 h1
    have hm := (forFold_run _ hf).2
    refine ih h2 fun g hg => ?_
    have hw : ∀ p, OutOp.flush g ∉ output_lists cfg.fmt p options cfg.units := by
      intro p hp
      unfold output_lists at hp
      simp only [List.mem_append] at hp
      rcases hp with ((((hp | hp) | hp) | hp) | hp) | hp <;> split at hp <;> simp at hp
    cases hl : cfg.list_output with
    | false =>
      simp only [hl, Bool.false_eq_true, if_false] at hm hg
      rw [hm] at hg
      exact hs g hg
    | true =>
      simp only [hl, if_true] at hm hg
      rw [hm, List.mem_append, List.mem_append] at hg
      rcases hg with (hg | hg) | hg
      · exact hs g hg
      · obtain ⟨l, hl, hgl⟩ := List.mem_flatten.1 hg
        obtain ⟨p, _, rfl⟩ := List.mem_map.1 hl
        exact absurd hgl (hw p)
      · rintro rfl; simp [output_list_flush] at hg

/-- **C53** fails for energy_loss.output: however many chunks are completed and whatever they
wrote, if the stream's buffer is larger than the text, nothing of it is on disk when the process is
killed. -/
theorem C53_energy_loss_lost {α : Type} {cfg : OutputConfig F} {options : Options F}
    {n : Nat} {sim : α → Res (List (Particle F))}
    {completed : List (List α × Split)} {s s' : RunState F} (hs : s.ops = [])
    (run : forFold (process_chunk cfg options n sim) completed s = .ok s')
    (cap : OutFile → Nat) (before : List Micro) (hb : Performs s'.ops before)
    (hcap : (textOf .energy_loss s'.ops).length < cap .energy_loss) :
    KilledDuring cap before [] .energy_loss [] := by
  have h := (never_flushed cap before .energy_loss
    (performs_no_flush hb _ (no_energy_loss_flush run (by rw [hs]; simp)))
    (by rw [performs_bytes hb]; exact hcap)).1
  exact ⟨[], [], rfl, by simp [h], by simp [h]⟩

end RustBCA
