import Verif.Props.Histograms
import Verif.Props.Crash
import Verif.Examples.Cascade
import Mathlib.Tactic.IntervalCases

/-!
# Whole runs that succeed

Non-vacuity of C47-C53 and C65: three ions, each of which makes one recoil, through
`physics_loop`; and the refutation of C53 for energy_loss.output.
-/

namespace RustBCA.RunExample
open Scalar Spec CascadeExample

noncomputable def inp : ParticleInput ℝ :=
  ⟨1, 1, 1, 1/2, 0, 0, 0, 0, 0, 0, 2, 0, 1, 0⟩

noncomputable def cfg : OutputConfig ℝ := ⟨none, true, ⟨1, 1, 1⟩, fun _ => "1"⟩

/-- An ion of the cascade example, read from its input, makes one recoil. -/
theorem run_inp : ∃ out, run_ion rcpr 3 mat options inp zeros = .ok out ∧ out.length = 2 := by
  unfold run_ion
  have hs : Scalar.sqrt ((0:ℝ)*0+0*0+2*2) = 2 := by
    show Real.sqrt _ = 2
    rw [show ((0:ℝ)*0+0*0+2*2) = 2^2 by norm_num]
    exact Real.sqrt_sq (by norm_num)
  have h1 : (Scalar.abs ((0:ℝ)/2) <. 1.0 - epsilon) = true := by
    rw [lt_real, abs_real, epsilon_real]; norm_num
  have h2 : ((1:ℝ) >. 0.0) = true := by rw [lt_real]; norm_num
  obtain ⟨p, hp, e1, e2, e3, e4, e5, e6, e7, e8⟩ : ∃ p, Particle.from_input inp options = .ok p ∧
      p.m = 1 ∧ p.E = 1 ∧ p.interaction_index = 0 ∧ p.dir = ⟨0, 0, 1⟩ ∧ p.pos = ⟨0, 0, 0⟩ ∧
      p.first_step = true ∧ p.stopped = false ∧ p.left = false := by
    unfold Particle.from_input
    simp only [inp, hs, h1, h2, rassert, if_true, bind, Except.bind, pure, Except.pure]
    refine ⟨_, rfl, rfl, rfl, rfl, ?_, rfl, rfl, rfl, rfl⟩
    simp
  have hr := run_ok_of p e1 e2 e3 e4 e5 e6 e7 e8
  unfold Sat at hr
  rw [hp]
  simp only [bind, Except.bind, pure, Except.pure]
  cases h : single_ion_bca rcpr 3 p mat options zeros with
  | ok r => rw [h] at hr; exact ⟨r.1, rfl, hr⟩
  | error e => rw [h] at hr; exact absurd hr id

/-- A run of three ions succeeds, for every admissible number of chunks. -/
theorem run3 (nc : Nat) (h0 : 0 < nc) (h3 : nc ≤ 3) (splits : List Split) :
    ∃ s, physics_loop_run rcpr 3 cfg mat { options with num_chunks := nc } splits (fun _ => zeros)
      [inp, inp, inp] = .ok s := by
  refine (C65_fails_only_in_physics (by simp [cfg]) _ splits _).2 ⟨h0, h3, ?_⟩
  intro a ha
  obtain ⟨out, ho, -⟩ := run_inp
  simp only [List.zipIdx_cons, List.zipIdx_nil, List.mem_cons, List.not_mem_nil, or_false] at ha
  rcases ha with rfl | rfl | rfl <;> exact ⟨out, ho⟩

/-- C47-C52 on this run: six particles are processed, the summary balances, the lists agree with it
and the trajectories can be decoded, with one chunk or with three. -/
example : ∃ s s' refl sput dep,
    physics_loop_run rcpr 3 cfg mat { options with num_chunks := 1 } [] (fun _ => zeros)
      [inp, inp, inp] = .ok s ∧
    physics_loop_run rcpr 3 cfg mat { options with num_chunks := 3, num_threads := 4 }
      [.node 1 .leaf .leaf] (fun _ => zeros) [inp, inp, inp] = .ok s' ∧
    s.processed.length = 6 ∧ s'.processed = s.processed ∧
    columnSums (s.summary.rows cfg.units) = (refl, sput, dep) ∧ refl + dep = 3 ∧
    columnSums (s.summary.rows cfg.units) = ((linesOf .reflected s.ops).length,
      (linesOf .sputtered s.ops).length, (linesOf .deposited s.ops).length) ∧
    (decodeTrajectories (linesOf .trajectory_data s.ops) (linesOf .trajectory s.ops)).isSome := by
  obtain ⟨s, hs⟩ := run3 1 (by norm_num) (by norm_num) []
  obtain ⟨s', hs', hp, -⟩ := C48_same_tapes hs 3 4 [.node 1 .leaf .leaf] (by norm_num) (by simp)
  obtain ⟨refl, sput, dep, h1, h2, -⟩ := C49_summary_balances hs
  obtain ⟨outs, ho, hpr⟩ := C47_every_ion_once hs
  have hlen : s.processed.length = 6 := by
    have h2 : ∀ out ∈ outs, out.length = 2 := by
      intro out hout
      obtain ⟨i, hi, rfl⟩ := List.getElem_of_mem hout
      have hl := ho.length_eq
      obtain ⟨o, h5, h6⟩ := run_inp
      have h7 : ∀ j (h1 : j < [inp, inp, inp].zipIdx.length) (h2 : j < outs.length),
          run_ion rcpr 3 mat options inp zeros = .ok outs[j] := by
        intro j h1 h2
        have h4 := List.forall₂_iff_get.1 ho |>.2 j h1 h2
        have h8 : ([inp, inp, inp].zipIdx.get ⟨j, h1⟩).1 = inp := by
          simp only [List.get_eq_getElem, List.getElem_zipIdx]
          have : j < 3 := by simpa using h1
          interval_cases j <;> rfl
        have h9 : run_ion rcpr 3 mat { options with num_chunks := 1 }
            ([inp, inp, inp].zipIdx.get ⟨j, h1⟩).1 zeros = .ok outs[j] := h4
        rw [h8] at h9
        exact h9
      have h7 := h7 i (by omega) hi
      rw [h5] at h7
      obtain rfl := Except.ok.inj h7
      exact h6
    have hl : outs.length = 3 := by have := ho.length_eq; simpa using this.symm
    rw [hpr, List.length_flatten, List.map_congr_left h2]
    simp [hl]
  exact ⟨s, s', refl, sput, dep, hs, hs', hlen, hp, h1, h2,
    (C51_files_agree_with_summary rfl hs).2.2.2, by rw [C52_trajectories_decodable rfl hs]; rfl⟩

/-- C50: two particles of mass 1 and one of mass 2. -/
example : ∃ s, forFold SummaryPerSpecies.update
    [{ ion with left := true }, { ion with m := 2, incident := false, left := true },
      { ion with stopped := true }] (SummaryPerSpecies.new : SummaryPerSpecies ℝ) = .ok s ∧
    s.m.length = s.deposited.length ∧ s.m.Pairwise (fun a b => (a ==. b) = false) := by
  obtain ⟨s, h1, -, -, h2, h3, -⟩ := C50_one_row_per_mass (F := ℝ)
    [{ ion with left := true }, { ion with m := 2, incident := false, left := true },
      { ion with stopped := true }] (fun _ _ => rfl)
  exact ⟨s, h1, h2.symm, h3⟩

/-- **C53 refuted**: a run of two chunks with one ion each, whose recorded energy loss is on no disk
after the first chunk although that chunk is completed and flushed. -/
theorem C53_refuted : ∃ (sim : Unit → Res (List (Particle ℝ))) (s' : RunState ℝ)
    (cap : OutFile → Nat) (before : List Micro),
    forFold (process_chunk cfg options 2 sim) [([()], Split.leaf)]
      ⟨[], SummaryPerSpecies.new, none, []⟩ = .ok s' ∧
    Performs s'.ops before ∧ textOf .energy_loss s'.ops ≠ [] ∧
    KilledDuring cap before [] .energy_loss [] := by
  set p : Particle ℝ := { ion with left := true, energies := [⟨1, 1, 0, 0, 0⟩] } with hp
  have hsim : seq_collect (fun _ : Unit => (.ok [p] : Res (List (Particle ℝ)))) [()] = .ok [p] := rfl
  obtain ⟨t, ht⟩ := process_all_ok (cfg := cfg) (options := options) (n := 2) (by simp [cfg]) [p]
    ⟨[], SummaryPerSpecies.new, none, []⟩ new_even (by simp)
  have hrun := (process_chunk_ok (sim := fun _ : Unit => (.ok [p] : Res (List (Particle ℝ))))
    (c := ([()], Split.leaf))).2 ⟨[p], t, hsim, ht, rfl⟩
  have hops := (forFold_run _ ht).2
  have hperf : ∀ ops : List OutOp, ∃ ms, Performs ops ms := by
    intro ops
    induction ops with
    | nil => exact ⟨[], .nil⟩
    | cons op ops ih =>
      obtain ⟨ms, h⟩ := ih
      cases op with
      | write f line => exact ⟨_, .write [line.toList ++ ['\n']] (by simp) h⟩
      | flush f => exact ⟨_, .flush h⟩
  set s' : RunState ℝ := { t with
    ops := if cfg.list_output then t.ops ++ output_list_flush else t.ops } with hs'
  have hfold : forFold (process_chunk cfg options 2 fun _ : Unit => .ok [p]) [([()], Split.leaf)]
      ⟨[], SummaryPerSpecies.new, none, []⟩ = .ok s' := forFold_ok_cons.2 ⟨_, hrun, rfl⟩
  obtain ⟨before, hb⟩ := hperf s'.ops
  refine ⟨_, s', fun _ => (textOf .energy_loss s'.ops).length + 1, before, hfold, hb, ?_,
    C53_energy_loss_lost rfl hfold _ before hb (Nat.lt_succ_self _)⟩
  have hlines : linesOf .energy_loss s'.ops = [energyLossLine cfg.fmt cfg.units p ⟨1, 1, 0, 0, 0⟩] := by
    have hc : cfg.list_output = true := rfl
    rw [hs']
    simp only [hc, if_true] at hops ⊢
    rw [hops, linesOf_append, linesOf_flush]
    simp only [List.map_cons, List.map_nil, List.flatten_cons, List.flatten_nil, List.append_nil,
      List.nil_append]
    rw [(output_lists_lines cfg.fmt p options cfg.units).2.2.2.2.2.2]
    rfl
  unfold textOf
  rw [hlines]
  simp

end RustBCA.RunExample
