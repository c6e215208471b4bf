import Verif.Spec.Main
import Verif.Props.Input
import Verif.Props.Output

/-!
# C78: the program from command line to output files
-/

set_option linter.unusedSectionVars false
set_option linter.unusedSimpArgs false

namespace RustBCA
open Scalar Spec
variable {F : Type} [Scalar F]

/-- A run of the program on what was asked for. -/
structure RunOf (w : World F) (options : Options F) (mp : MaterialParameters F)
    (pp : ParticleParameters F) (geometry : Res (Geom F)) (s : RunState F) (acc : Accepted F) :
    Prop where
  input : ∃ t', RustBCA.input w.ext w.sampler w.rcpr.enabled options
    (Material.new w.ext mp geometry) pp w.tape = .ok (acc, t')
  loop : physics_loop_run w.rcpr w.fuel ⟨w.grid, w.list_output, acc.output_units, w.fmt⟩
    acc.material acc.options w.splits w.tapes acc.particle_input_array = .ok s

theorem run_file_ok {G : Type} {w : World F} {record : Option (InputRecord F G)}
    {geometry : G → Res (Geom F)} {s : RunState F} :
    run_file w record geometry = .ok s ↔ ∃ r acc, record = some r ∧
      RunOf w r.options r.material_parameters r.particle_parameters (geometry r.geometry_input)
        s acc := by
  unfold run_file
  cases record with
  | none => simp [bind, Except.bind, rpanic]
  | some r =>
    simp only [bind, Except.bind, pure, Except.pure]
    cases hi : input w.ext w.sampler w.rcpr.enabled r.options
        (Material.new w.ext r.material_parameters (geometry r.geometry_input))
        r.particle_parameters w.tape with
    | error e =>
      simp only [reduceCtorEq, false_iff]
      rintro ⟨r', acc, hr, ⟨t', h1⟩, -⟩
      obtain rfl := Option.some.inj hr
      rw [hi] at h1; cases h1
    | ok x =>
      obtain ⟨acc, t'⟩ := x
      constructor
      · intro h; exact ⟨r, acc, rfl, ⟨⟨t', hi⟩, h⟩⟩
      · rintro ⟨r', acc', hr, ⟨t'', h1⟩, h2⟩
        obtain rfl := Option.some.inj hr
        rw [hi] at h1
        obtain ⟨rfl, -⟩ := Prod.mk.inj (Except.ok.inj h1)
        exact h2

/-- **C78** (dispatch) The program ends normally exactly if the command line asks for a run (its
file can be read, the geometry name is known) and that run, on the options, materials, particles
and target of that file, ends normally. -/
theorem C78_main_runs_what_was_asked (w : World F) (args : List String) (s : RunState F) :
    main w args = .ok s ↔ ∃ options mp pp geometry acc, AsksFor w args options mp pp geometry ∧
      RunOf w options mp pp geometry s acc := by
  constructor
  · intro h
    unfold main at h
    cases ha : parse_args w.parry3d args with
    | error e => rw [ha] at h; simp [bind, Except.bind] at h
    | ok x =>
      obtain ⟨f, gt⟩ := x
      rw [ha] at h
      simp only [bind, Except.bind] at h
      unfold parse_args at ha
      split at ha
      · obtain ⟨rfl, rfl⟩ := Prod.mk.inj (Except.ok.inj ha)
        obtain ⟨r, acc, h1, h2⟩ := run_file_ok.1 h
        exact ⟨_, _, _, _, acc, .default _ r h1, h2⟩
      · obtain ⟨rfl, rfl⟩ := Prod.mk.inj (Except.ok.inj ha)
        obtain ⟨r, acc, h1, h2⟩ := run_file_ok.1 h
        exact ⟨_, _, _, _, acc, .file _ _ r h1, h2⟩
      · split at ha
        · obtain ⟨rfl, rfl⟩ := Prod.mk.inj (Except.ok.inj ha)
          obtain ⟨r, acc, h1, h2⟩ := run_file_ok.1 h
          exact ⟨_, _, _, _, acc, .mesh0D _ _ r h1, h2⟩
        · obtain ⟨rfl, rfl⟩ := Prod.mk.inj (Except.ok.inj ha)
          obtain ⟨r, acc, h1, h2⟩ := run_file_ok.1 h
          exact ⟨_, _, _, _, acc, .mesh1D _ _ r h1, h2⟩
        · obtain ⟨rfl, rfl⟩ := Prod.mk.inj (Except.ok.inj ha)
          obtain ⟨r, acc, h1, h2⟩ := run_file_ok.1 h
          exact ⟨_, _, _, _, acc, .mesh2D _ _ r h1, h2⟩
        · obtain ⟨rfl, rfl⟩ := Prod.mk.inj (Except.ok.inj ha)
          obtain ⟨r, acc, h1, h2⟩ := run_file_ok.1 h
          exact ⟨_, _, _, _, acc, .sphere _ _ r h1, h2⟩
        · obtain ⟨rfl, rfl⟩ := Prod.mk.inj (Except.ok.inj ha)
          obtain ⟨r, acc, h1, h2⟩ := run_file_ok.1 h
          exact ⟨_, _, _, _, acc, .homogeneous2D _ _ r h1, h2⟩
        · by_cases hf : w.parry3d = true
          · rw [if_pos hf] at ha
            obtain ⟨rfl, rfl⟩ := Prod.mk.inj (Except.ok.inj ha)
            obtain ⟨r, acc, h1, h2⟩ := run_file_ok.1 h
            exact ⟨_, _, _, _, acc, .ball _ _ r h1 hf, h2⟩
          · rw [if_neg hf] at ha; cases ha
        · by_cases hf : w.parry3d = true
          · rw [if_pos hf] at ha
            obtain ⟨rfl, rfl⟩ := Prod.mk.inj (Except.ok.inj ha)
            obtain ⟨r, acc, h1, h2⟩ := run_file_ok.1 h
            exact ⟨_, _, _, _, acc, .trimesh _ _ r h1 hf, h2⟩
          · rw [if_neg hf] at ha; cases ha
        · cases ha
      · cases ha
  · rintro ⟨o, mp, pp, g, acc, ha, hr⟩
    cases ha with
    | default prog r h =>
      simp only [main, parse_args, bind, Except.bind, pure, Except.pure]
      exact run_file_ok.2 ⟨r, acc, h, hr⟩
    | file prog f r h =>
      simp only [main, parse_args, bind, Except.bind, pure, Except.pure]
      exact run_file_ok.2 ⟨r, acc, h, hr⟩
    | mesh0D prog f r h =>
      simp only [main, parse_args, bind, Except.bind, pure, Except.pure]
      exact run_file_ok.2 ⟨r, acc, h, hr⟩
    | mesh1D prog f r h =>
      simp only [main, parse_args, bind, Except.bind, pure, Except.pure]
      exact run_file_ok.2 ⟨r, acc, h, hr⟩
    | mesh2D prog f r h =>
      simp only [main, parse_args, bind, Except.bind, pure, Except.pure]
      exact run_file_ok.2 ⟨r, acc, h, hr⟩
    | sphere prog f r h =>
      simp only [main, parse_args, bind, Except.bind, pure, Except.pure]
      exact run_file_ok.2 ⟨r, acc, h, hr⟩
    | homogeneous2D prog f r h =>
      simp only [main, parse_args, bind, Except.bind, pure, Except.pure]
      exact run_file_ok.2 ⟨r, acc, h, hr⟩
    | ball prog f r h hf =>
      simp only [main, parse_args, hf, if_true, bind, Except.bind, pure, Except.pure]
      exact run_file_ok.2 ⟨r, acc, h, hr⟩
    | trimesh prog f r h hf =>
      simp only [main, parse_args, hf, if_true, bind, Except.bind, pure, Except.pure]
      exact run_file_ok.2 ⟨r, acc, h, hr⟩

/-- **C78** (from input file to output files) If the program ends normally, the command line named
an input file, and the reflected and deposited columns of summary.output add up to the number of
ions that file asks for; if list files are written, reflected.output and deposited.output together
have that many lines, and every line of sputtered.output is counted in the sputtered column. -/
theorem C78_every_requested_ion_reported {w : World F} {args : List String} {s : RunState F}
    (run : main w args = .ok s) :
    ∃ options mp pp geometry, AsksFor w args options mp pp geometry ∧
      ∃ units refl sput dep, columnSums (s.summary.rows units) = (refl, sput, dep) ∧
        length_unit_of w.ext pp.length_unit = .ok units.length_unit ∧
        energy_unit_of w.ext pp.energy_unit = .ok units.energy_unit ∧
        mass_unit_of w.ext pp.mass_unit = .ok units.mass_unit ∧
        refl + dep = (pp.N.take pp.Z.length).sum ∧
        (w.list_output = true → (linesOf .reflected s.ops).length = refl ∧
          (linesOf .deposited s.ops).length = dep ∧ (linesOf .sputtered s.ops).length = sput) := by
  obtain ⟨o, mp, pp, g, acc, ha, ⟨t', hi⟩, hl⟩ := (C78_main_runs_what_was_asked w args s).1 run
  refine ⟨o, mp, pp, g, ha, acc.output_units, ?_⟩
  obtain ⟨refl, sput, dep, h1, h2, -⟩ := C49_summary_balances hl
  obtain ⟨u1, u2, u3, -⟩ := C45_requested_ions hi
  refine ⟨refl, sput, dep, h1, u1, u2, u3, by rw [h2, C45_count hi], fun hlist => ?_⟩
  obtain ⟨-, -, -, h3⟩ := C51_files_agree_with_summary (cfg := ⟨w.grid, w.list_output,
    acc.output_units, w.fmt⟩) hlist hl
  simp only at h3 h1
  rw [h1] at h3
  simp only [Prod.mk.injEq] at h3
  exact ⟨h3.1.symm, h3.2.2.symm, h3.2.1.symm⟩

end RustBCA
