import Verif.Props.Toml
import Verif.Examples.Main

/-!
# A document, read and simulated

Non-vacuity of C128: the input file of `Examples/Main`, written out; the program reads it as the record
there and runs.
-/

set_option linter.unusedSimpArgs false
set_option linter.unusedVariables false

namespace RustBCA.TomlExample
open Scalar Spec

/-- toml 0.7 as we believe it is; nothing below depends on it. -/
def crate : TomlCrate := ⟨true, false, true⟩

noncomputable section

def options : Toml ℝ := .table [("name", .str "default"), ("num_threads", .int 1),
  ("interaction_potential", .arr [.arr [.str "KR_C"]]), ("a_key_nobody_reads", .bool true)]

def materials : Toml ℝ := .table [("energy_unit", .str "EV"), ("mass_unit", .str "AMU"),
  ("Z", .arr [.int 1]), ("m", .arr [.int 1]), ("Eb", .arr [.int 1]), ("Ec", .arr [.int 1]),
  ("Es", .arr [.int 1]), ("surface_binding_model", .str "AVERAGE")]

def particles : Toml ℝ := .table [("length_unit", .str "ANGSTROM"), ("energy_unit", .str "EV"),
  ("mass_unit", .str "AMU"), ("N", .arr [.int 2]), ("m", .arr [.int 4]), ("Z", .arr [.int 2]),
  ("E", .arr [.int 1000]), ("Ec", .arr [.int 1]), ("Es", .arr [.int 0]),
  ("pos", .arr [.arr [.int (-100), .int 0, .int 0]]),
  ("dir", .arr [.arr [.float 0.6, .float 0.8, .int 0]])]

def geometry : Toml ℝ := .table [("length_unit", .str "ANGSTROM"), ("densities", .arr [.int 1]),
  ("electronic_stopping_correction_factor", .float 1.0)]

def document : Toml ℝ := .table [("options", options), ("material_parameters", materials),
  ("particle_parameters", particles), ("geometry_input", geometry)]

theorem options_read : read_options crate options = some (Options.default_options true) := by
  simp [options, read_options, required, defaulted, List.lookup_cons, read_string, read_usize, read_vec,
    read_interaction_potential, unit_variant, Options.default_options]

theorem materials_read : read_material_parameters crate materials = some MainExample.mp := by
  simp [materials, read_material_parameters, required, defaulted, List.lookup_cons, read_string, read_vec,
    read_f64, i64_as_f64, read_surface_binding_model, unit_variant, MainExample.mp, compound_parameters, ofNat]

theorem particles_read : read_particle_parameters crate false particles = some MainExample.pp := by
  simp [particles, read_particle_parameters, required, defaulted, List.lookup_cons, read_string, read_vec,
    read_f64, read_usize, i64_as_f64, read_triple, read_distribution, MainExample.pp, ofNat, crate]

theorem geometry_read : read_mesh0D geometry = some ⟨"ANGSTROM", [1], 1.0⟩ := by
  simp [geometry, read_mesh0D, required, List.lookup_cons, read_string, read_vec, read_f64, i64_as_f64, ofNat]

theorem document_read : read_input crate ⟨false, false⟩ read_mesh0D document = some MainExample.record := by
  simp [document, read_input, required, List.lookup_cons, options_read, materials_read, particles_read,
    geometry_read, MainExample.record]

/-- The disk: that document is `target.toml`. -/
def docs (f : String) : Option (Toml ℝ) := if f = "target.toml" then some document else none

def world (rcpr : Rcpr ℝ) (parry : Parry ℝ) : World ℝ :=
  { MainExample.world rcpr parry with files := files_of crate ⟨false, false⟩ docs }

/-- The document in question is in the format, and says what the record of `Examples/Main` says. -/
theorem asks (rcpr : Rcpr ℝ) (parry : Parry ℝ) : DocumentAsks (world rcpr parry) crate ⟨false, false⟩ docs
    ["RustBCA", "0D", "target.toml"] (Options.default_options true) MainExample.mp MainExample.pp
    (Mesh0D.toGeom <$> Mesh0D.new InputExample.ext ⟨"ANGSTROM", [1], 1.0⟩) :=
  .mesh0D "RustBCA" "target.toml" document MainExample.record (if_pos rfl)
    ((C128_document crate _ C128_0D _ _).1 document_read)

/-- C128 on a run of the program from the document to the output files. -/
example (rcpr : Rcpr ℝ) (parry : Parry ℝ) : ∃ s,
    main (world rcpr parry) ["RustBCA", "0D", "target.toml"] = .ok s := by
  obtain ⟨s, hs⟩ := MainExample.run rcpr parry
  obtain ⟨o, mp, pp, g, acc, ha, hr⟩ := (C78_main_runs_what_was_asked _ _ _).1 hs
  refine ⟨s, (C128_run (crate := crate) (features := ⟨false, false⟩) (docs := docs) rfl s).2
    ⟨o, mp, pp, g, acc, ?_, ⟨hr.input, hr.loop⟩⟩⟩
  generalize hargs : ["RustBCA", "0D", "target.toml"] = args at ha
  cases ha with
  | mesh0D prog f r h =>
    simp only [List.cons.injEq, true_and, and_true] at hargs
    obtain ⟨rfl, rfl⟩ := hargs
    obtain rfl := Option.some.inj (show some MainExample.record = some r from h)
    exact asks rcpr parry
  | _ => simp at hargs

/-- A misspelt `track_recoils = false`: the recoils are tracked all the same, without a word. -/
example : ∃ o, read_options crate (.table [("track_recoil", .bool false), ("name", .str "run")] : Toml ℝ) = some o ∧
    o.track_recoils = true := by
  refine ⟨_, (C128_unknown_key_ignored crate _ _ _ (by decide)).trans (C128_minimal crate "run"), rfl⟩

/-- Without a name the options are refused. -/
example : read_options crate (.table [("num_threads", .int 4)] : Toml ℝ) = none := by
  have e : ([("num_threads", Toml.int 4)] : List (String × Toml ℝ)).lookup "name" = none := by
    rw [lookup_other (by decide)]; rfl
  cases h : read_options crate (.table [("num_threads", .int 4)] : Toml ℝ) with
  | none => rfl
  | some o =>
    obtain ⟨w, ⟨t, ht, h1⟩, -⟩ := ((C128_options crate _ _).1 h).name
    obtain rfl := Toml.table.inj ht
    rw [e] at h1; cases h1

/-- `N = [1e4]` is refused. -/
example : read_particle_parameters crate false
    (.table [("N", .arr [.float 10000]), ("length_unit", .str "ANGSTROM")] : Toml ℝ) = none :=
  C128_counts crate false (lookup_same _ _ _) List.mem_cons_self (.inl ⟨_, rfl⟩)

/-- The document above is refused by a build with feature `hdf5_input`. -/
example : read_input crate ⟨false, true⟩ read_mesh0D document = none := by
  obtain ⟨p, h1, h2⟩ : ∃ p, particles = .table p ∧ p.lookup "particle_input_filename" = none := ⟨_, rfl, rfl⟩
  refine C128_hdf5_needs_filename crate _ rfl read_mesh0D (p := p) ?_ h2
  rw [← h1, lookup_other (by decide), lookup_other (by decide), lookup_same]

/-- A uniform distribution, a normal one, and one with both kinds of keys: uniform. -/
example : IsDistribution (.table [("min", .int 0), ("max", .float 2)] : Toml ℝ) (.UNIFORM 0 2) ∧
    IsDistribution (.table [("mean", .int 0), ("std", .float 2)] : Toml ℝ) (.NORMAL 0 2) ∧
    IsDistribution (.table [("mean", .int 0), ("std", .float 2), ("min", .int 0), ("max", .float 2)] : Toml ℝ)
      (.UNIFORM 0 2) := by
  refine ⟨?_, ?_, ?_⟩ <;> rw [← read_distribution_iff] <;>
    simp [read_distribution, required, List.lookup_cons, read_f64, i64_as_f64, ofNat]

/-- A Morse potential. -/
example : IsPotential crate (.table [("MORSE", .table [("D", .int 1), ("r0", .int 3), ("alpha", .int 2)])] : Toml ℝ)
    (.MORSE 1 2 3) := by
  rw [← read_potential_iff]
  simp [read_interaction_potential, unit_variant, struct_variant, required, List.lookup_cons, read_f64,
    i64_as_f64, ofNat, keys_allowed]

end

end RustBCA.TomlExample
