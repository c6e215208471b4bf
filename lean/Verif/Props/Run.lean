import Verif.Spec.Run
import Verif.Props.Cascade

/-!
# C47, C48: chunks and schedules
-/

set_option linter.unusedSectionVars false
set_option linter.unusedSimpArgs false
set_option linter.unusedVariables false

namespace RustBCA
open Scalar Spec

variable {F : Type} [Scalar F]

/-! ## C47 -/

/-- **C47** `chunks` cuts a list into consecutive, non-empty pieces of at most `n` elements. -/
theorem C47_chunks_partition {α : Type} (n : Nat) (hn : 0 < n) (l : List α) :
    (chunks n l).flatten = l ∧ ∀ c ∈ chunks n l, c ≠ [] ∧ c.length ≤ n := by
  induction h : l.length using Nat.strong_induction_on generalizing l with
  | _ k ih =>
    unfold chunks
    by_cases hl : l = []
    · subst hl; simp
    · have hcond : ¬ (n = 0 ∨ l = []) := by
        rintro (h1 | h1)
        · omega
        · exact hl h1
      rw [dif_neg hcond]
      have hlen : 0 < l.length := List.length_pos_of_ne_nil hl
      obtain ⟨h1, h2⟩ := ih (l.drop n).length (by simp; omega) (l.drop n) rfl
      constructor
      · rw [List.flatten_cons, h1, List.take_append_drop]
      · intro c hc
        rcases List.mem_cons.1 hc with rfl | hc
        · constructor
          · intro e
            have := congrArg List.length e
            simp only [List.length_take, List.length_nil] at this; omega
          · simp
        · exact h2 c hc

theorem seq_collect_ok {α β : Type} (f : α → Res (List β)) (xs : List α) (ys : List β) :
    seq_collect f xs = .ok ys ↔ ∃ outs, Simulated f xs outs ∧ ys = outs.flatten := by
  induction xs generalizing ys with
  | nil =>
    simp only [seq_collect, pure, Except.pure]
    constructor
    · intro h
      obtain rfl : [] = ys := by simpa using h
      exact ⟨[], List.Forall₂.nil, rfl⟩
    · rintro ⟨outs, h, rfl⟩
      cases h; rfl
  | cons x xs ih =>
    simp only [seq_collect, bind, Except.bind, pure, Except.pure]
    constructor
    · intro h
      cases hx : f x with
      | error e => rw [hx] at h; simp at h
      | ok a =>
        rw [hx] at h
        simp only at h
        cases hy : seq_collect f xs with
        | error e => rw [hy] at h; simp at h
        | ok b =>
          rw [hy] at h
          obtain ⟨outs, h1, h2⟩ := (ih b).1 hy
          refine ⟨a :: outs, List.Forall₂.cons hx h1, ?_⟩
          simp only [Except.ok.injEq] at h
          rw [← h, h2, List.flatten_cons]
    · rintro ⟨outs, h, rfl⟩
      cases h with
      | cons h1 h2 =>
        rename_i a outs
        rw [h1, (ih outs.flatten).2 ⟨outs, h2, rfl⟩]
        rfl

theorem seq_collect_append {α β : Type} (f : α → Res (List β)) (xs ys : List α) (r : List β) :
    seq_collect f (xs ++ ys) = .ok r ↔
      ∃ a b, seq_collect f xs = .ok a ∧ seq_collect f ys = .ok b ∧ r = a ++ b := by
  simp only [seq_collect_ok]
  constructor
  · rintro ⟨outs, h, rfl⟩
    refine ⟨_, _, ⟨outs.take xs.length, ?_, rfl⟩, ⟨outs.drop xs.length, ?_, rfl⟩, ?_⟩
    · have := List.forall₂_take xs.length h
      rwa [List.take_left] at this
    · have := List.forall₂_drop xs.length h
      rwa [List.drop_left] at this
    · rw [← List.flatten_append, List.take_append_drop]
  · rintro ⟨a, b, ⟨o1, h1, rfl⟩, ⟨o2, h2, rfl⟩, rfl⟩
    exact ⟨o1 ++ o2, List.rel_append h1 h2, by simp⟩

/-- However rayon splits a chunk, the results are those of the sequential loop. -/
theorem par_collect_ok {α β : Type} (f : α → Res (List β)) (sp : Split) (xs : List α)
    (r : List β) : par_collect f sp xs = .ok r ↔ seq_collect f xs = .ok r := by
  induction sp generalizing xs r with
  | leaf => exact Iff.rfl
  | node mid l rr ihl ihr =>
    have hsplit : seq_collect f xs = .ok r ↔ ∃ a b, seq_collect f (xs.take mid) = .ok a ∧
        seq_collect f (xs.drop mid) = .ok b ∧ r = a ++ b := by
      rw [← seq_collect_append, List.take_append_drop]
    rw [hsplit]
    simp only [par_collect, bind, Except.bind, pure, Except.pure]
    constructor
    · intro h
      cases h1 : par_collect f l (xs.take mid) with
      | error e => rw [h1] at h; simp at h
      | ok a =>
        rw [h1] at h; simp only at h
        cases h2 : par_collect f rr (xs.drop mid) with
        | error e => rw [h2] at h; simp at h
        | ok b =>
          rw [h2] at h
          exact ⟨a, b, (ihl _ _).1 h1, (ihr _ _).1 h2, by simpa using h.symm⟩
    · rintro ⟨a, b, h1, h2, rfl⟩
      rw [(ihl _ _).2 h1]
      simp only
      rw [(ihr _ _).2 h2]

/-- What the outputs depend on: everything but the flushes. -/
structure SameView (s s' : RunState F) : Prop where
  processed : s'.processed = s.processed
  summary : s'.summary = s.summary
  distributions : s'.distributions = s.distributions
  lines : ∀ f, linesOf f s'.ops = linesOf f s.ops

theorem SameView.refl (s : RunState F) : SameView s s := ⟨rfl, rfl, rfl, fun _ => rfl⟩
theorem SameView.symm {s s' : RunState F} (h : SameView s s') : SameView s' s :=
  ⟨h.1.symm, h.2.symm, h.3.symm, fun f => (h.4 f).symm⟩
theorem SameView.trans {s s' s'' : RunState F} (h : SameView s s') (h' : SameView s' s'') :
    SameView s s'' :=
  ⟨h'.1.trans h.1, h'.2.trans h.2, h'.3.trans h.3, fun f => (h'.4 f).trans (h.4 f)⟩

theorem linesOf_append (f : OutFile) (a b : List OutOp) :
    linesOf f (a ++ b) = linesOf f a ++ linesOf f b := by
  unfold linesOf; rw [List.filterMap_append]

theorem linesOf_flush (f : OutFile) : linesOf f output_list_flush = [] := rfl

theorem process_particle_ok {cfg : OutputConfig F} {options : Options F} {n : Nat}
    {s s' : RunState F} {p : Particle F} (h : process_particle cfg options n s p = .ok s') :
    s'.processed = s.processed ++ [p] ∧ s.summary.update p = .ok s'.summary ∧
    (match s.distributions with
      | none => s'.distributions = none
      | some d => ∃ d', d.update p cfg.units options.track_energy_losses n = .ok d' ∧
          s'.distributions = some d') ∧
    s'.ops = if cfg.list_output then s.ops ++ output_lists cfg.fmt p options cfg.units
      else s.ops := by
  unfold process_particle at h
  simp only [bind, Except.bind, pure, Except.pure] at h
  cases h1 : s.summary.update p with
  | error e => rw [h1] at h; simp at h
  | ok sm =>
    rw [h1] at h; simp only at h
    cases hd : s.distributions with
    | none =>
      rw [hd] at h
      simp only [Except.ok.injEq] at h
      subst h
      exact ⟨rfl, rfl, rfl, rfl⟩
    | some d =>
      rw [hd] at h; simp only at h
      cases h2 : d.update p cfg.units options.track_energy_losses n with
      | error e => rw [h2] at h; simp at h
      | ok d' =>
        rw [h2] at h
        simp only [Except.ok.injEq] at h
        subst h
        exact ⟨rfl, rfl, ⟨d', h2, rfl⟩, rfl⟩

theorem process_particle_view {cfg : OutputConfig F} {options : Options F} {n : Nat}
    {s s' t : RunState F} {p : Particle F} (h : process_particle cfg options n s p = .ok s')
    (hv : SameView s t) : ∃ t', process_particle cfg options n t p = .ok t' ∧ SameView s' t' := by
  obtain ⟨h1, h2, h3, h4⟩ := process_particle_ok h
  cases hd : s.distributions with
  | none =>
    rw [hd] at h3
    refine ⟨⟨t.processed ++ [p], s'.summary, none,
      if cfg.list_output then t.ops ++ output_lists cfg.fmt p options cfg.units else t.ops⟩, ?_, ?_⟩
    · unfold process_particle
      rw [hv.summary, h2, hv.distributions, hd]; rfl
    · refine ⟨by rw [h1, hv.processed], rfl, by rw [h3], fun f => ?_⟩
      rw [h4]
      cases cfg.list_output with
      | true => simp only [if_true, linesOf_append, hv.lines]
      | false => simpa using hv.lines f
  | some d =>
    rw [hd] at h3
    obtain ⟨d', hd', e⟩ := h3
    refine ⟨⟨t.processed ++ [p], s'.summary, some d',
      if cfg.list_output then t.ops ++ output_lists cfg.fmt p options cfg.units else t.ops⟩, ?_, ?_⟩
    · unfold process_particle
      rw [hv.summary, h2, hv.distributions, hd]
      simp only [bind, Except.bind, pure, Except.pure]
      rw [hd']
    · refine ⟨by rw [h1, hv.processed], rfl, by rw [e], fun f => ?_⟩
      rw [h4]
      cases cfg.list_output with
      | true => simp only [if_true, linesOf_append, hv.lines]
      | false => simpa using hv.lines f

theorem forFold_ok_cons {α σ : Type} {body : σ → α → Res σ} {x : α} {xs : List α} {s s' : σ} :
    forFold body (x :: xs) s = .ok s' ↔ ∃ m, body s x = .ok m ∧ forFold body xs m = .ok s' := by
  simp only [forFold, bind, Except.bind]
  cases body s x with
  | error e => simp
  | ok m => simp

theorem forFold_ok_append {α σ : Type} {body : σ → α → Res σ} {xs ys : List α} {s s' : σ} :
    forFold body (xs ++ ys) s = .ok s' ↔
      ∃ m, forFold body xs s = .ok m ∧ forFold body ys m = .ok s' := by
  induction xs generalizing s with
  | nil =>
    simp only [List.nil_append, forFold, pure, Except.pure, Except.ok.injEq, exists_eq_left']
  | cons x xs ih =>
    rw [List.cons_append, forFold_ok_cons]
    constructor
    · rintro ⟨m, h1, h2⟩
      obtain ⟨m', h3, h4⟩ := ih.1 h2
      exact ⟨m', forFold_ok_cons.2 ⟨m, h1, h3⟩, h4⟩
    · rintro ⟨m', h3, h4⟩
      obtain ⟨m, h1, h2⟩ := forFold_ok_cons.1 h3
      exact ⟨m, h1, ih.2 ⟨m', h2, h4⟩⟩

theorem process_all_view {cfg : OutputConfig F} {options : Options F} {n : Nat}
    (ps : List (Particle F)) :
    ∀ {s s' t : RunState F}, forFold (process_particle cfg options n) ps s = .ok s' →
      SameView s t → ∃ t', forFold (process_particle cfg options n) ps t = .ok t' ∧
        SameView s' t' := by
  induction ps with
  | nil =>
    intro s s' t h hv
    obtain rfl : s = s' := by simpa [forFold, pure, Except.pure] using h
    exact ⟨t, rfl, hv⟩
  | cons p ps ih =>
    intro s s' t h hv
    obtain ⟨m, h1, h2⟩ := forFold_ok_cons.1 h
    obtain ⟨m', h1', hv'⟩ := process_particle_view h1 hv
    obtain ⟨t', h3, hv''⟩ := ih h2 hv'
    exact ⟨t', forFold_ok_cons.2 ⟨m', h1', h3⟩, hv''⟩

theorem process_chunk_ok {α : Type} {cfg : OutputConfig F} {options : Options F} {n : Nat}
    {sim : α → Res (List (Particle F))} {s s' : RunState F} {c : List α × Split} :
    process_chunk cfg options n sim s c = .ok s' ↔
      ∃ ps m, seq_collect sim c.1 = .ok ps ∧
        forFold (process_particle cfg options n) ps s = .ok m ∧
        s' = { m with ops := if cfg.list_output then m.ops ++ output_list_flush else m.ops } := by
  have hcol : ∀ ps, (if options.num_threads > 1 then par_collect sim c.2 c.1
      else seq_collect sim c.1 : Res (List (Particle F))) = .ok ps ↔
      seq_collect sim c.1 = .ok ps := by
    intro ps
    split
    · exact par_collect_ok sim c.2 c.1 ps
    · exact Iff.rfl
  unfold process_chunk
  constructor
  · intro h
    simp only [bind, Except.bind, pure, Except.pure] at h
    cases hc : (if options.num_threads > 1 then par_collect sim c.2 c.1
      else seq_collect sim c.1 : Res (List (Particle F))) with
    | error e => rw [hc] at h; simp at h
    | ok ps =>
      rw [hc] at h; simp only at h
      cases hf : forFold (process_particle cfg options n) ps s with
      | error e => rw [hf] at h; simp at h
      | ok m =>
        rw [hf] at h
        simp only [Except.ok.injEq] at h
        exact ⟨ps, m, (hcol ps).1 hc, hf, h.symm⟩
  · rintro ⟨ps, m, h1, h2, rfl⟩
    rw [(hcol ps).2 h1]
    simp only [bind, Except.bind, pure, Except.pure]
    rw [h2]

theorem flush_view (cfg : OutputConfig F) (m : RunState F) :
    SameView m { m with ops := if cfg.list_output then m.ops ++ output_list_flush else m.ops } := by
  refine ⟨rfl, rfl, rfl, fun f => ?_⟩
  cases cfg.list_output with
  | true => simp [linesOf_append, linesOf_flush]
  | false => simp

/-- The chunked loop does what one pass over all ions would do. -/
theorem chunks_to_one {α : Type} {cfg : OutputConfig F} {options : Options F} {n : Nat}
    {sim : α → Res (List (Particle F))} (cs : List (List α × Split)) :
    ∀ {s s' t : RunState F}, forFold (process_chunk cfg options n sim) cs s = .ok s' →
      SameView s t →
      ∃ ps t', seq_collect sim (cs.map (·.1)).flatten = .ok ps ∧
        forFold (process_particle cfg options n) ps t = .ok t' ∧ SameView s' t' := by
  induction cs with
  | nil =>
    intro s s' t h hv
    obtain rfl : s = s' := by simpa [forFold, pure, Except.pure] using h
    exact ⟨[], t, rfl, rfl, hv⟩
  | cons c cs ih =>
    intro s s' t h hv
    obtain ⟨m, h1, h2⟩ := forFold_ok_cons.1 h
    obtain ⟨ps, m', hc, hf, rfl⟩ := process_chunk_ok.1 h1
    obtain ⟨t1, ht1, hv1⟩ := process_all_view ps hf hv
    obtain ⟨qs, t', hq, hf', hv'⟩ := ih h2 ((flush_view cfg m').symm.trans hv1)
    refine ⟨ps ++ qs, t', ?_, forFold_ok_append.2 ⟨t1, ht1, hf'⟩, hv'⟩
    rw [List.map_cons, List.flatten_cons]
    exact (seq_collect_append _ _ _ _).2 ⟨ps, qs, hc, hq, rfl⟩

theorem one_to_chunks {α : Type} {cfg : OutputConfig F} {options : Options F} {n : Nat}
    {sim : α → Res (List (Particle F))} (cs : List (List α × Split)) :
    ∀ {s t' t : RunState F} {ps : List (Particle F)},
      seq_collect sim (cs.map (·.1)).flatten = .ok ps →
      forFold (process_particle cfg options n) ps t = .ok t' → SameView s t →
      ∃ s', forFold (process_chunk cfg options n sim) cs s = .ok s' ∧ SameView s' t' := by
  induction cs with
  | nil =>
    intro s t' t ps h hf hv
    obtain rfl : [] = ps := by simpa [seq_collect, pure, Except.pure] using h
    obtain rfl : t = t' := by simpa [forFold, pure, Except.pure] using hf
    exact ⟨s, rfl, hv⟩
  | cons c cs ih =>
    intro s t' t ps h hf hv
    rw [List.map_cons, List.flatten_cons] at h
    obtain ⟨p1, p2, h1, h2, rfl⟩ := (seq_collect_append _ _ _ _).1 h
    obtain ⟨t1, hf1, hf2⟩ := forFold_ok_append.1 hf
    obtain ⟨s1, hs1, hv1⟩ := process_all_view p1 hf1 hv.symm
    obtain ⟨s', hs', hv'⟩ := ih (s := { s1 with
      ops := if cfg.list_output then s1.ops ++ output_list_flush else s1.ops }) h2 hf2
      (hv1.trans (flush_view cfg s1)).symm
    exact ⟨s', forFold_ok_cons.2 ⟨_, process_chunk_ok.2 ⟨p1, s1, h1, hs1, rfl⟩, hs'⟩, hv'⟩

theorem withSplits_fst {α : Type} (splits : List Split) (l : List (List α)) :
    (withSplits splits l).map (·.1) = l := by
  unfold withSplits
  rw [List.map_map]
  refine List.ext_getElem? fun i => ?_
  simp only [List.getElem?_map, List.getElem?_zipIdx, Option.map_map]
  cases l[i]? <;> rfl

theorem physics_loop_ok {α : Type} {cfg : OutputConfig F} {options : Options F}
    {sim : α → Res (List (Particle F))} {splits : List Split} {ions : List α} {s : RunState F} :
    physics_loop cfg options sim splits ions = .ok s ↔
      0 < options.num_chunks ∧ 0 < ions.length/options.num_chunks ∧
      forFold (process_chunk cfg options ions.length sim)
        (withSplits splits (chunks (ions.length/options.num_chunks) ions))
        ⟨[], SummaryPerSpecies.new, cfg.grid.map Distributions.new, []⟩ = .ok s := by
  unfold physics_loop
  by_cases h1 : 0 < options.num_chunks
  · by_cases h2 : 0 < ions.length/options.num_chunks
    · simp [rassert, h1, h2, bind, Except.bind]
    · simp [rassert, h1, h2, bind, Except.bind]
  · simp [rassert, h1, bind, Except.bind]

theorem forFold_processed {cfg : OutputConfig F} {options : Options F} {n : Nat}
    (ps : List (Particle F)) :
    ∀ {s s' : RunState F}, forFold (process_particle cfg options n) ps s = .ok s' →
      s'.processed = s.processed ++ ps := by
  induction ps with
  | nil =>
    intro s s' h
    obtain rfl : s = s' := by simpa [forFold, pure, Except.pure] using h
    simp
  | cons p ps ih =>
    intro s s' h
    obtain ⟨m, h1, h2⟩ := forFold_ok_cons.1 h
    rw [ih h2, (process_particle_ok h1).1]; simp

/-- **C47** Every ion is simulated exactly once: a run that finishes has handed to the outputs
exactly the particles of every ion's cascade, ions in input order, one cascade per ion. -/
theorem C47_every_ion_once {α : Type} {cfg : OutputConfig F} {options : Options F}
    {sim : α → Res (List (Particle F))} {splits : List Split} {ions : List α} {s : RunState F}
    (run : physics_loop cfg options sim splits ions = .ok s) :
    ∃ outs, Simulated sim ions outs ∧ s.processed = outs.flatten := by
  obtain ⟨h1, h2, h3⟩ := physics_loop_ok.1 run
  obtain ⟨ps, t', h4, h5, hv⟩ := chunks_to_one _ h3 (SameView.refl _)
  rw [withSplits_fst, (C47_chunks_partition _ h2 ions).1] at h4
  obtain ⟨outs, ho, rfl⟩ := (seq_collect_ok _ _ _).1 h4
  refine ⟨outs, ho, ?_⟩
  rw [← hv.processed, forFold_processed _ h5]
  simp

/-- **C47** a run is refused exactly when there are fewer ions than chunks (or no chunks); no ion
is simulated then. -/
theorem C47_refused {α : Type} (cfg : OutputConfig F) (options : Options F)
    (sim : α → Res (List (Particle F))) (splits : List Split) (ions : List α)
    (h : options.num_chunks = 0 ∨ ions.length < options.num_chunks) :
    physics_loop cfg options sim splits ions = .error (.panic (if options.num_chunks = 0 then
      "attempt to divide by zero" else
      "Input error: chunk size == 0 - reduce num_chunks or increase particle count.")) := by
  unfold physics_loop
  by_cases h1 : options.num_chunks = 0
  · simp [rassert, h1, bind, Except.bind]
  · have h2 : ions.length/options.num_chunks = 0 :=
      Nat.div_eq_of_lt (h.resolve_left h1)
    simp [rassert, h1, h2, bind, Except.bind, Nat.pos_of_ne_zero h1]

/-- **C47** the chunks of a run: consecutive pieces of the ion list, each non-empty and at most
`total/num_chunks` long. -/
theorem C47_run_chunks {α : Type} (options : Options F) (ions : List α) (splits : List Split)
    (h1 : 0 < options.num_chunks) (h2 : options.num_chunks ≤ ions.length) :
    let cs := (withSplits splits (chunks (ions.length/options.num_chunks) ions)).map (·.1)
    cs.flatten = ions ∧ ∀ c ∈ cs, c ≠ [] ∧ c.length ≤ ions.length/options.num_chunks := by
  simp only [withSplits_fst]
  exact C47_chunks_partition _ (Nat.div_pos h2 h1) ions

/-! ## C48 -/

/-- **C48** Results do not depend on chunking or thread schedule: if a run succeeds, then so does
the run with any other admissible number of chunks, any other number of threads and any other way
of splitting the chunks between threads, and it hands the same sequence of particles to the
outputs, with the same summary, the same distributions and the same lines in every list file. -/
theorem C48_schedule_independent {α : Type} {cfg : OutputConfig F} {options : Options F}
    {sim : α → Res (List (Particle F))} {splits : List Split} {ions : List α} {s : RunState F}
    (run : physics_loop cfg options sim splits ions = .ok s)
    (num_chunks num_threads : Nat) (splits' : List Split)
    (hc : 0 < num_chunks) (hn : num_chunks ≤ ions.length) :
    ∃ s', physics_loop cfg
        { options with
          num_chunks := num_chunks
          num_threads := num_threads } sim splits' ions = .ok s' ∧
      s'.processed = s.processed ∧ s'.summary = s.summary ∧ s'.distributions = s.distributions ∧
      ∀ f, linesOf f s'.ops = linesOf f s.ops := by
  obtain ⟨h1, h2, h3⟩ := physics_loop_ok.1 run
  obtain ⟨ps, t', h4, h5, hv⟩ := chunks_to_one _ h3 (SameView.refl _)
  rw [withSplits_fst, (C47_chunks_partition _ h2 ions).1] at h4
  have hn' : 0 < ions.length/num_chunks := Nat.div_pos hn hc
  have h4' : seq_collect sim ((withSplits splits' (chunks (ions.length/num_chunks) ions)).map
      (·.1)).flatten = .ok ps := by
    rw [withSplits_fst, (C47_chunks_partition _ hn' ions).1]; exact h4
  obtain ⟨s', h6, hv'⟩ := one_to_chunks (options := { options with
    num_chunks := num_chunks
    num_threads := num_threads }) _ h4' h5 (SameView.refl _)
  have := hv.trans hv'.symm
  exact ⟨s', physics_loop_ok.2 ⟨hc, hn', h6⟩, this.processed, this.summary, this.distributions,
    this.lines⟩

theorem run_ion_options (rcpr : Rcpr F) (fuel : Nat) (material : Material F) (options : Options F)
    (input : ParticleInput F) (tape : Tape F) (num_chunks num_threads : Nat) :
    run_ion rcpr fuel material
      { options with
        num_chunks := num_chunks
        num_threads := num_threads } input tape = run_ion rcpr fuel material options input tape := by
  rfl

/-- **C48** for the program's own simulation: with the same random numbers for each ion, chunking
and threads make no difference. -/
theorem C48_same_tapes {rcpr : Rcpr F} {fuel : Nat} {cfg : OutputConfig F} {material : Material F}
    {options : Options F} {splits : List Split} {tapes : Nat → Tape F}
    {inputs : List (ParticleInput F)} {s : RunState F}
    (run : physics_loop_run rcpr fuel cfg material options splits tapes inputs = .ok s)
    (num_chunks num_threads : Nat) (splits' : List Split)
    (hc : 0 < num_chunks) (hn : num_chunks ≤ inputs.length) :
    ∃ s', physics_loop_run rcpr fuel cfg material
        { options with
          num_chunks := num_chunks
          num_threads := num_threads } splits' tapes inputs = .ok s' ∧
      s'.processed = s.processed ∧ s'.summary = s.summary ∧ s'.distributions = s.distributions ∧
      ∀ f, linesOf f s'.ops = linesOf f s.ops :=
  C48_schedule_independent run num_chunks num_threads splits' hc (by simpa using hn)

end RustBCA
