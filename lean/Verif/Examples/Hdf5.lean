import Verif.Props.Hdf5
import Verif.Examples.Input
import Verif.Examples.Main

/-!
# An HDF5 file of ions

Non-vacuity of C129.
-/

set_option linter.unusedSimpArgs false
set_option linter.unusedVariables false

namespace RustBCA.Hdf5Example
open Scalar Spec

/-- A file with one ion that is in no input file. -/
noncomputable def disk : String → Option (List (ParticleInput ℝ)) := fun f =>
  if f = "ions.h5" then some [MainExample.one] else none

/-- `C129_same_ions` and `C129_rows`: an input the other build accepts, with a file that holds its ions. -/
theorem same (t : Tape ℝ) : ∃ acc, input_hdf5 InputExample.ext InputExample.sampler false
    (fun _ => some InputExample.ions) "x.h5"
    { InputExample.options .KR_C .DEFAULTNEWTON with use_hdf5 := true } (.ok CascadeExample.mat)
    InputExample.params t = .ok (acc, t) ∧ acc.particle_input_array.length = 2 := by
  have h : ∃ acc, input InputExample.ext InputExample.sampler false (InputExample.options .KR_C .DEFAULTNEWTON)
      (.ok CascadeExample.mat) InputExample.params t = .ok (acc, t) ∧ acc.particle_input_array = InputExample.ions := by
    refine ⟨?w, ?a, ?b⟩
    case a =>
      refine InputExample.input_ok_of (options := InputExample.options .KR_C .DEFAULTNEWTON)
        (p' := InputExample.params) (m1 := CascadeExample.mat) (mi := 0) (pi := 0)
        (arr := InputExample.ions) (lu := ANGSTROM ℝ) (eu := EV ℝ) (mu := AMU ℝ) Nat.one_pos Nat.one_pos
        ?_ ?_ ?_ ?_ ?_ rfl Nat.one_pos rfl Nat.one_pos rfl rfl rfl rfl ?_
      · rfl
      · rfl
      · rfl
      · rfl
      · rfl
      · simp only [make_particle_inputs, InputExample.params, forFold, List.length_cons, List.length_nil,
          List.range, List.range.loop, vget, List.getElem?_cons_zero, List.getElem?_cons_succ,
          bind, StateT.bind, liftM, monadLift, MonadLift.monadLift, StateT.lift, Except.bind,
          pure, Except.pure, StateT.pure, collectN, make_particle_input, draw, draw_ux,
          InputExample.half_ne, InputExample.quarter_ne, rassert, InputExample.ions, Bool.not_false, if_true,
          List.nil_append, List.append_nil, List.cons_append]
    case b => rfl
  obtain ⟨acc, h1, h2⟩ := h
  obtain ⟨acc', h3, h4, -⟩ := C129_same_ions (hdf5 := fun _ => some InputExample.ions) (filename := "x.h5") h1
    (by rw [h2])
  exact ⟨acc', h3, by rw [h4, h2]; rfl⟩

/-- `C129_rows` with rows the input file does not know: they are the ions of the run. -/
theorem rows (t : Tape ℝ) : ∃ acc, input_hdf5 InputExample.ext InputExample.sampler false disk "ions.h5"
    { InputExample.options .KR_C .DEFAULTNEWTON with use_hdf5 := true } (.ok CascadeExample.mat)
    InputExample.params t = .ok (acc, t) ∧ acc.particle_input_array = [MainExample.one] := by
  obtain ⟨acc, h, -⟩ := same t
  obtain ⟨-, f⟩ := (C129_rows rfl).1 h
  refine ⟨{ acc with particle_input_array := [MainExample.one] }, (C129_rows rfl).2 ⟨rfl, ?_⟩, rfl⟩
  exact ⟨by simp [disk], f.target, f.threads, f.chunks, f.options, f.exclusive, f.square, f.compatible,
    f.particles, f.indices, f.length_unit, f.energy_unit, f.mass_unit⟩

/-- `C129_refuted_indices` on it: with a second row whose interaction index is 1 the input is accepted, though
the matrix has one row. -/
example (t : Tape ℝ) : ∃ acc, input_hdf5 InputExample.ext InputExample.sampler false
    (fun _ => some [MainExample.one, { MainExample.one with interaction_index := 1 }]) "ions.h5"
    { InputExample.options .KR_C .DEFAULTNEWTON with use_hdf5 := true } (.ok CascadeExample.mat)
    InputExample.params t = .ok (acc, t) := by
  obtain ⟨acc, h, hr⟩ := rows t
  obtain ⟨acc', h', -⟩ := C129_refuted_indices rfl h MainExample.one
  rw [hr] at h'
  exact ⟨acc', h'⟩

/-- `C129_every_row_reported`: the two ions of `MainExample`, read from a file, are both reported. -/
example (rcpr : Rcpr ℝ) : ∃ (mat : Material ℝ) (s : RunState ℝ) (refl sput dep : Nat),
    physics_loop_run rcpr 2 ⟨none, true, ⟨ANGSTROM ℝ, EV ℝ, AMU ℝ⟩, fun _ => "1"⟩ mat
      { Options.default_options true with use_hdf5 := true } [] (fun _ => LibExample.zeros)
      [MainExample.one, MainExample.one] = .ok s ∧
    columnSums (s.summary.rows ⟨ANGSTROM ℝ, EV ℝ, AMU ℝ⟩) = (refl, sput, dep) ∧ refl + dep = 2 := by
  obtain ⟨mat, mesh, hm, hion⟩ := MainExample.ion_ok rcpr
  have hcomp : complete_material mat = .ok mat ∧ max_unwrap mat.interaction_index = .ok 0 := by
    have h := hm
    simp only [mesh0d_material, Mesh0D.new, Material.new, compound_parameters,
      energy_unit_of, mass_unit_of, length_unit_of, bind, Except.bind, pure, Except.pure, Except.ok.injEq,
      Prod.mk.injEq] at h
    rw [← h.1]
    exact ⟨rfl, rfl⟩
  have hread : input_hdf5 InputExample.ext InputExample.sampler rcpr.enabled
      (fun _ => some [MainExample.one, MainExample.one]) "ions.h5"
      { Options.default_options true with use_hdf5 := true } (.ok mat) MainExample.pp LibExample.zeros =
      .ok (⟨[MainExample.one, MainExample.one], mat, { Options.default_options true with use_hdf5 := true },
        ⟨ANGSTROM ℝ, EV ℝ, AMU ℝ⟩⟩, LibExample.zeros) := by
    refine (C129_rows rfl).2 ⟨rfl, rfl, ⟨mat, rfl, hcomp.1⟩, Nat.one_pos, Nat.one_pos, rfl, rfl, rfl, ?_,
      ⟨MainExample.pp, 0, rfl, rfl, Nat.one_pos⟩, ⟨0, hcomp.2, Nat.one_pos⟩, rfl, rfl, rfl⟩
    cases rcpr.enabled <;> rfl
  have hloop : ∃ s, physics_loop_run rcpr 2 ⟨none, true, ⟨ANGSTROM ℝ, EV ℝ, AMU ℝ⟩, fun _ => "1"⟩
      mat { Options.default_options true with use_hdf5 := true } [] (fun _ => LibExample.zeros)
      [MainExample.one, MainExample.one] = .ok s := by
    refine (C65_fails_only_in_physics (by simp) _ [] _).2 ⟨Nat.one_pos, ?_, ?_⟩
    · simp [Options.default_options]
    · intro a ha
      obtain ⟨out, ho⟩ := hion
      simp only [List.zipIdx_cons, List.zipIdx_nil, List.mem_cons, List.not_mem_nil, or_false] at ha
      rcases ha with rfl | rfl <;> exact ⟨out, ho⟩
  obtain ⟨s, hs⟩ := hloop
  obtain ⟨rows, refl, sput, dep, h1, h2, h3⟩ := C129_every_row_reported rfl hread hs
  obtain rfl := Option.some.inj h1
  exact ⟨mat, s, refl, sput, dep, hs, h2, h3⟩

/-- `C129_without_hdf5`: the input of `InputExample` meets its hypotheses, and both builds accept it. -/
example : (∀ d ∈ InputExample.params.dir, AllFixed d ∨ AllDrawn d) ∧
    (∀ lu, length_unit_of InputExample.ext InputExample.params.length_unit = .ok lu → 0 < lu) ∧
    ∀ t, ∃ acc acc', input InputExample.ext InputExample.sampler false
        (InputExample.options .KR_C .DEFAULTNEWTON) (.ok CascadeExample.mat) InputExample.params t = .ok (acc, t) ∧
      input_hdf5 InputExample.ext InputExample.sampler false disk ""
        (InputExample.options .KR_C .DEFAULTNEWTON) (.ok CascadeExample.mat) InputExample.params t =
        .ok (acc', t) := by
  have h1 : ∀ d ∈ InputExample.params.dir, AllFixed d ∨ AllDrawn d := by
    intro d hd
    simp only [InputExample.params, List.mem_cons, List.not_mem_nil, or_false] at hd
    rcases hd with rfl | rfl
    · exact .inl ⟨_, _, _, rfl⟩
    · exact .inl ⟨_, _, _, rfl⟩
  have h2 : ∀ lu, length_unit_of InputExample.ext InputExample.params.length_unit = .ok lu → 0 < lu := by
    intro lu h
    obtain rfl := Except.ok.inj (show Except.ok (ANGSTROM ℝ) = Except.ok lu from h)
    unfold ANGSTROM; norm_num
  refine ⟨h1, h2, fun t => ?_⟩
  obtain ⟨acc, ha, -⟩ := InputExample.accepted false .KR_C .DEFAULTNEWTON rfl rfl t
  obtain ⟨k1, k2⟩ := C129_without_hdf5 disk "" (options := InputExample.options .KR_C .DEFAULTNEWTON) rfl
    (.ok CascadeExample.mat) h1 h2 t (sampler := InputExample.sampler) (cpr := false)
  cases hr : input_hdf5 InputExample.ext InputExample.sampler false disk ""
      (InputExample.options .KR_C .DEFAULTNEWTON) (.ok CascadeExample.mat) InputExample.params t with
  | error e => rw [(k1 e).2 hr] at ha; cases ha
  | ok r =>
    obtain ⟨acc', s⟩ := r
    obtain ⟨rfl, -⟩ := k2 acc t acc' s ha hr
    exact ⟨acc, acc', ha, rfl⟩

end RustBCA.Hdf5Example
