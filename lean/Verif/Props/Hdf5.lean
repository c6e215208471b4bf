import Verif.Model.Hdf5
import Verif.Props.AsRead
import Verif.Props.Main
import Verif.Props.Units

/-!
# C129: ions read from an HDF5 file
-/

set_option linter.unusedSectionVars false
set_option linter.unusedSimpArgs false
set_option linter.unusedVariables false

namespace RustBCA
open Scalar Spec
variable {F : Type} [Scalar F]

/-- What an accepted input of the HDF5 build satisfies. -/
structure Hdf5Facts (ext : Ext F) (cpr : Bool) (hdf5 : String → Option (List (ParticleInput F)))
    (filename : String) (o : Options F) (material : Res (Material F)) (p : ParticleParameters F)
    (acc : Accepted F) : Prop where
  rows : hdf5 filename = some acc.particle_input_array
  target : ∃ m0, material = .ok m0 ∧ complete_material m0 = .ok acc.material
  threads : 0 < o.num_threads
  chunks : 0 < o.num_chunks
  options : acc.options = o
  exclusive : check_options o = .ok ()
  square : check_matrices o = .ok ()
  compatible : check_compatibility cpr o = .ok ()
  particles : ∃ p' pi, complete_particles p = .ok p' ∧ max_unwrap p'.interaction_index = .ok pi ∧
    pi < o.interaction_potential.length
  indices : ∃ mi, max_unwrap acc.material.interaction_index = .ok mi ∧
    mi < o.interaction_potential.length
  length_unit : length_unit_of ext p.length_unit = .ok acc.output_units.length_unit
  energy_unit : energy_unit_of ext p.energy_unit = .ok acc.output_units.energy_unit
  mass_unit : mass_unit_of ext p.mass_unit = .ok acc.output_units.mass_unit

theorem complete_particles_units {p p' : ParticleParameters F} (h : complete_particles p = .ok p') :
    p'.length_unit = p.length_unit ∧ p'.energy_unit = p.energy_unit ∧ p'.mass_unit = p.mass_unit := by
  have key : RSat (complete_particles p) (fun p' => p'.length_unit = p.length_unit ∧
      p'.energy_unit = p.energy_unit ∧ p'.mass_unit = p.mass_unit) (fun _ => True) := by
    unfold complete_particles
    simp only [rsat_bind, rsat_assert, rsat_pure, implies_true, and_true]
    intro _ _ _ _
    split <;> exact ⟨rfl, rfl, rfl⟩
  rw [h] at key
  exact key

/-- **C129** (from the file) In the HDF5 build with `use_hdf5` the ions are the rows of the data set, each as
it stands there: no unit is applied, no random number is used, and N, E, pos, dir, m, Z, Ec and Es of the
input file play no role.  Everything else is checked as in the other build. -/
theorem C129_rows {ext : Ext F} {sampler : Sampler F} {cpr : Bool}
    {hdf5 : String → Option (List (ParticleInput F))} {filename : String} {options : Options F}
    (on : options.use_hdf5 = true) {material : Res (Material F)} {p : ParticleParameters F} {t t' : Tape F}
    {acc : Accepted F} :
    input_hdf5 ext sampler cpr hdf5 filename options material p t = .ok (acc, t') ↔
      t' = t ∧ Hdf5Facts ext cpr hdf5 filename options material p acc := by
  constructor
  · intro run
    have key : Sat (input_hdf5 ext sampler cpr hdf5 filename options material p) t
        (fun acc t' => t' = t ∧ Hdf5Facts ext cpr hdf5 filename options material p acc) (fun _ => True) := by
      unfold input_hdf5
      simp only [sat_bind, sat_lift, rsat_assert]
      refine rsat_mono (rsat_eq _) (fun m0 h0 => ?_) (fun _ _ => trivial)
      refine ⟨fun h1 => ⟨fun h2 => ?_, fun _ => trivial⟩, fun _ => trivial⟩
      refine rsat_mono (rsat_eq _) (fun m1 h3 => ?_) (fun _ _ => trivial)
      refine rsat_mono (rsat_eq _) (fun u h4 => ?_) (fun _ _ => trivial)
      refine rsat_mono (rsat_eq _) (fun u' h5 => ?_) (fun _ _ => trivial)
      refine rsat_mono (rsat_eq _) (fun u'' h6 => ?_) (fun _ _ => trivial)
      refine rsat_mono (rsat_eq _) (fun p' h7 => ?_) (fun _ _ => trivial)
      refine rsat_mono (rsat_eq _) (fun mi h8 => ?_) (fun _ _ => trivial)
      refine ⟨fun h9 => ?_, fun _ => trivial⟩
      refine rsat_mono (rsat_eq _) (fun pi h10 => ?_) (fun _ _ => trivial)
      refine ⟨fun h11 => ?_, fun _ => trivial⟩
      refine rsat_mono (rsat_eq _) (fun lu h12 => ?_) (fun _ _ => trivial)
      refine rsat_mono (rsat_eq _) (fun eu h13 => ?_) (fun _ _ => trivial)
      refine rsat_mono (rsat_eq _) (fun mu h14 => ?_) (fun _ _ => trivial)
      rw [if_pos on]
      obtain ⟨e1, e2, e3⟩ := complete_particles_units h7
      rw [e1] at h12; rw [e2] at h13; rw [e3] at h14
      cases hf : hdf5 filename with
      | none => simp only [sat_lift]; exact trivial
      | some rows =>
        simp only [sat_pure]
        exact ⟨trivial, hf, ⟨m0, h0, h3⟩, by simpa using h1, by simpa using h2, rfl, h4, h5, h6,
          ⟨p', pi, h7, h10, by simpa using h11⟩, ⟨mi, h8, by simpa using h9⟩, h12, h13, h14⟩
    exact sat_of_ok key run
  · rintro ⟨rfl, h⟩
    obtain ⟨m0, rfl, h3⟩ := h.target
    obtain ⟨p', pi, h7, h10, h11⟩ := h.particles
    obtain ⟨mi, h8, h9⟩ := h.indices
    obtain ⟨e1, e2, e3⟩ := complete_particles_units h7
    have h12 := h.length_unit; have h13 := h.energy_unit; have h14 := h.mass_unit
    rw [← e1] at h12; rw [← e2] at h13; rw [← e3] at h14
    have ho := h.options
    obtain ⟨arr, m1, o, lu, eu, mu⟩ := acc
    simp only at ho h3 h8 h12 h13 h14
    subst ho
    have hr : hdf5 filename = some arr := h.rows
    unfold input_hdf5
    simp only [bind, StateT.bind, liftM, monadLift, MonadLift.monadLift, StateT.lift, Except.bind,
      pure, Except.pure, rassert, h.threads, h.chunks, h3, h.exclusive, h.square, h.compatible, h7, h8, h9, h10,
      h11, h12, h13, h14, decide_true, if_true, on, hr, StateT.pure]

/-- **C129** (every row reported) A run on these ions reports every row once: the reflected and deposited
columns of the summary add up to the number of rows, whatever N says. -/
theorem C129_every_row_reported {ext : Ext F} {sampler : Sampler F} {cpr : Bool}
    {hdf5 : String → Option (List (ParticleInput F))} {filename : String} {options : Options F}
    (on : options.use_hdf5 = true) {material : Res (Material F)} {p : ParticleParameters F} {t t' : Tape F}
    {acc : Accepted F} (read : input_hdf5 ext sampler cpr hdf5 filename options material p t = .ok (acc, t'))
    {rcpr : Rcpr F} {fuel : Nat} {cfg : OutputConfig F} {splits : List Split} {tapes : Nat → Tape F}
    {s : RunState F}
    (run : physics_loop_run rcpr fuel cfg acc.material acc.options splits tapes acc.particle_input_array = .ok s) :
    ∃ rows refl sput dep, hdf5 filename = some rows ∧
      columnSums (s.summary.rows cfg.units) = (refl, sput, dep) ∧ refl + dep = rows.length := by
  obtain ⟨refl, sput, dep, h1, h2, -⟩ := C49_summary_balances run
  exact ⟨_, refl, sput, dep, ((C129_rows on).1 read).2.rows, h1, h2⟩

/-- **C129** (same ions, same run) A file that holds the ions the other build makes of an input file gives
the run of that input file: what the other build accepts, this one accepts with `use_hdf5` set, with the same
target and units, and the runs are the same to the last detail. -/
theorem C129_same_ions {ext : Ext F} {sampler : Sampler F} {cpr : Bool} {options : Options F}
    {material : Res (Material F)} {p : ParticleParameters F} {t t' : Tape F} {acc : Accepted F}
    (made : input ext sampler cpr options material p t = .ok (acc, t'))
    {hdf5 : String → Option (List (ParticleInput F))} {filename : String}
    (holds : hdf5 filename = some acc.particle_input_array) :
    ∃ acc', input_hdf5 ext sampler cpr hdf5 filename { options with use_hdf5 := true } material p t =
        .ok (acc', t) ∧
      acc'.particle_input_array = acc.particle_input_array ∧ acc'.material = acc.material ∧
      acc'.output_units = acc.output_units ∧
      ∀ rcpr fuel cfg splits tapes,
        physics_loop_run rcpr fuel cfg acc'.material acc'.options splits tapes acc'.particle_input_array =
        physics_loop_run rcpr fuel cfg acc.material acc.options splits tapes acc.particle_input_array := by
  obtain ⟨m0, p', mi, pi, f⟩ := input_facts made
  obtain ⟨e1, e2, e3⟩ := complete_particles_units f.hp
  refine ⟨{ acc with options := { options with use_hdf5 := true } }, (C129_rows rfl).2 ⟨rfl, ?_⟩, rfl, rfl, rfl, ?_⟩
  · exact ⟨holds, ⟨m0, f.hm0, f.hm⟩, f.threads, f.chunks, rfl, f.co, f.cm, f.cc, ⟨p', pi, f.hp, f.hpi, f.pi_lt⟩,
      ⟨mi, f.hmi, f.mi_lt⟩, by rw [← e1]; exact f.lu, by rw [← e2]; exact f.eu, by rw [← e3]; exact f.mu⟩
  · intro rcpr fuel cfg splits tapes
    rw [f.opts]
    rfl

/-- The columns `weight` and `tag` of a row. -/
def reweighted (q : ParticleInput F) (w : F) (k : Int) : ParticleInput F := { q with weight := w, tag := k }

/-- **C129** (weights) The columns `weight` and `tag`, which every row must have, have no effect on the ion's
cascade: nothing of what it produces depends on them (so an ion of weight 0 or 100 counts as one ion). -/
theorem C129_weight_without_effect (rcpr : Rcpr F) (fuel : Nat) (material : Material F) (options : Options F)
    (q : ParticleInput F) (w : F) (k : Int) (t : Tape F) :
    run_ion rcpr fuel material options (reweighted q w k) t = run_ion rcpr fuel material options q t := rfl

/-- **C129 refuted** (interaction indices) The interaction indices of the rows are not checked: whatever the
build accepts from some file it accepts with any row added to that file, for instance one whose interaction
index is beyond the interaction matrix (in the other build, C42 excludes that). -/
theorem C129_refuted_indices {ext : Ext F} {sampler : Sampler F} {cpr : Bool}
    {hdf5 : String → Option (List (ParticleInput F))} {filename : String} {options : Options F}
    (on : options.use_hdf5 = true) {material : Res (Material F)} {p : ParticleParameters F} {t t' : Tape F}
    {acc : Accepted F} (read : input_hdf5 ext sampler cpr hdf5 filename options material p t = .ok (acc, t'))
    (q : ParticleInput F) :
    ∃ acc', input_hdf5 ext sampler cpr (fun _ => some (acc.particle_input_array ++
        [{ q with interaction_index := options.interaction_potential.length }])) filename options material p t =
        .ok (acc', t) ∧
      ∃ r ∈ acc'.particle_input_array, ∀ j, ¬ ∃ V, Entry acc'.options.interaction_potential
        r.interaction_index j V := by
  obtain ⟨-, h⟩ := (C129_rows on).1 read
  refine ⟨{ acc with particle_input_array := acc.particle_input_array ++
    [{ q with interaction_index := options.interaction_potential.length }] }, (C129_rows on).2 ⟨rfl, ?_⟩, ?_⟩
  · exact ⟨rfl, h.target, h.threads, h.chunks, h.options, h.exclusive, h.square, h.compatible, h.particles,
      h.indices, h.length_unit, h.energy_unit, h.mass_unit⟩
  · refine ⟨_, List.mem_append_right _ (List.mem_singleton.2 rfl), fun j => ?_⟩
    rintro ⟨V, hV⟩
    rw [show ({ acc with particle_input_array := acc.particle_input_array ++
      [{ q with interaction_index := options.interaction_potential.length }] } : Accepted F).options = options
      from h.options] at hV
    obtain ⟨row, h1, -⟩ := hV
    simp at h1

/-! ## Without the file -/

/-- Ions that move along the same ray and agree in everything else. -/
def SameRay (q q' : ParticleInput ℝ) : Prop := ∃ c : ℝ, 0 < c ∧ SameIon c q q'

theorem loop_same_rays (rcpr : Rcpr ℝ) (fuel : Nat) (cfg : OutputConfig ℝ) (mat : Material ℝ) (o : Options ℝ)
    (splits : List Split) (tapes : Nat → Tape ℝ) {l l' : List (ParticleInput ℝ)}
    (h : List.Forall₂ SameRay l l') :
    physics_loop_run rcpr fuel cfg mat o splits tapes l' = physics_loop_run rcpr fuel cfg mat o splits tapes l := by
  have hlen : l'.length = l.length := h.length_eq.symm
  refine (RRel.eq ?_).symm
  unfold physics_loop_run physics_loop
  simp only [List.length_zipIdx, hlen]
  refine RRel.bind_same rfl fun _ => RRel.bind_same rfl fun _ => ?_
  refine forFold_rel₂ (I := Eq) (R := fun a b => List.Forall₂ (fun (a b : ParticleInput ℝ × Nat) =>
    SameRay a.1 b.1 ∧ b.2 = a.2) a.1 b.1 ∧ b.2 = a.2) ?_
    (withSplits_same splits (chunks_same _ _ rfl (zipIdx_same h 0))) _ _ rfl
  rintro s _ a b rfl hab
  have hf : ∀ a b : ParticleInput ℝ × Nat, SameRay a.1 b.1 ∧ b.2 = a.2 →
      run_ion rcpr fuel mat o b.1 (tapes b.2) = run_ion rcpr fuel mat o a.1 (tapes a.2) := by
    rintro a b ⟨⟨c, hc, h1⟩, h2⟩
    unfold run_ion
    rw [h2, from_input_units hc h1]
  unfold process_chunk
  refine RRel.bind (R := Eq) (RRel.of_eq ?_) fun ps ps' hps => ?_
  · rw [hab.2]
    split
    · exact (par_collect_same hf _ hab.1).symm
    · exact (seq_collect_same hf hab.1).symm
  · subst hps
    exact RRel.of_eq rfl

/-- All components of a direction are given as fixed numbers. -/
def AllFixed (d : Distr ℝ × Distr ℝ × Distr ℝ) : Prop :=
  ∃ x y z, d = (.POINT x, .POINT y, .POINT z)

/-- All components of a direction are drawn. -/
def AllDrawn (d : Distr ℝ × Distr ℝ × Distr ℝ) : Prop :=
  (∀ x, d.1 ≠ .POINT x) ∧ (∀ x, d.2.1 ≠ .POINT x) ∧ (∀ x, d.2.2 ≠ .POINT x)

theorem draw_dir_drawn (sampler : Sampler ℝ) (u : ℝ) {d : Distr ℝ} (h : ∀ x, d ≠ .POINT x) :
    draw_dir_hdf5 sampler u d = draw sampler u d ∧ draw_ux_hdf5 sampler u d = draw_ux sampler u d := by
  cases d with
  | POINT x => exact absurd rfl (h x)
  | UNIFORM a b => exact ⟨rfl, rfl⟩
  | NORMAL a b => exact ⟨rfl, rfl⟩

theorem one_ion_ray (sampler : Sampler ℝ) {lu : ℝ} (hl : 0 < lu) (eu mu m Z Ec Es : ℝ) (E : Distr ℝ)
    (pos dir : Distr ℝ × Distr ℝ × Distr ℝ) (i : Nat) (hd : AllFixed dir ∨ AllDrawn dir) :
    MRel SameRay (make_particle_input sampler lu eu mu m Z Ec Es E pos dir i)
      (make_particle_input_hdf5 sampler lu eu mu m Z Ec Es E pos dir i) := by
  unfold make_particle_input make_particle_input_hdf5
  refine MRel.bind_same rfl fun _ => MRel.bind_same rfl fun _ => MRel.bind_same rfl fun _ =>
    MRel.bind_same rfl fun _ => ?_
  rcases hd with ⟨x, y, z, rfl⟩ | ⟨h1, h2, h3⟩
  · refine MRel.bind (R := fun a b => b = 1/lu*a) (MRel.bind_same rfl fun _ => MRel.pure (by field_simp)) ?_
    rintro a b rfl
    refine MRel.bind (R := fun a b => b = 1/lu*a) (MRel.pure (by field_simp)) ?_
    rintro a b rfl
    refine MRel.bind (R := fun a b => b = 1/lu*a) (MRel.pure (by field_simp)) ?_
    rintro a b rfl
    exact MRel.pure ⟨1/lu, by positivity, rfl⟩
  · rw [(draw_dir_drawn sampler lu h1).2, (draw_dir_drawn sampler lu h2).1, (draw_dir_drawn sampler lu h3).1]
    refine MRel.bind_same rfl fun _ => MRel.bind_same rfl fun _ => MRel.bind_same rfl fun _ =>
      MRel.pure ⟨1, one_pos, ?_⟩
    simp only [SameIon, one_mul]

theorem vget_mem {α : Type} {l : List α} {i : Nat} {a : α} (h : vget l i = .ok a) : a ∈ l := by
  unfold vget at h
  cases hi : l[i]? with
  | none => rw [hi] at h; cases h
  | some b => rw [hi] at h; cases h; exact List.mem_of_getElem? hi

theorem inputs_ray (sampler : Sampler ℝ) {lu : ℝ} (hl : 0 < lu) (eu mu : ℝ) (p : ParticleParameters ℝ)
    (hd : ∀ d ∈ p.dir, AllFixed d ∨ AllDrawn d) :
    MRel (List.Forall₂ SameRay) (make_particle_inputs sampler lu eu mu p)
      (make_particle_inputs_hdf5 sampler lu eu mu p) := by
  unfold make_particle_inputs make_particle_inputs_hdf5
  refine MRel.forFold (I := List.Forall₂ SameRay) ?_ _ _ _ List.Forall₂.nil
  intro acc acc' i hacc
  refine MRel.bind_same rfl fun N_ => MRel.bind_same rfl fun _ => MRel.bind_same rfl fun _ =>
    MRel.bind_same rfl fun _ => MRel.bind_same rfl fun _ => MRel.bind_same rfl fun _ =>
    MRel.bind_same rfl fun _ => MRel.bind_same rfl fun _ => ?_
  refine MRel.bind (R := fun d d' => d' = d ∧ d ∈ p.dir) (MRel.lift ?_) ?_
  · cases hv : vget p.dir i with
    | error e => exact (rfl : e = e)
    | ok d => exact ⟨rfl, vget_mem hv⟩
  · rintro d _ ⟨rfl, hm⟩
    exact MRel.bind (MRel.collectN (fun _ => one_ion_ray sampler hl _ _ _ _ _ _ _ _ _ _ (hd _ hm)) N_)
      fun l l' hl => MRel.pure (List.rel_append hacc hl)

theorem complete_particles_dir {p p' : ParticleParameters F} (h : complete_particles p = .ok p') :
    p'.dir = p.dir := by
  have key : RSat (complete_particles p) (fun p' => p'.dir = p.dir) (fun _ => True) := by
    unfold complete_particles
    simp only [rsat_bind, rsat_assert, rsat_pure, implies_true, and_true]
    intro _ _ _ _
    split <;> rfl
  rw [h] at key
  exact key

/-- **C129** (without the file) With `use_hdf5 = false` the build runs the same simulation as the other one
if no direction mixes fixed and drawn components: it refuses the same inputs, for the same reason; and from
an input it accepts it makes, of the same random numbers, ions whose run is the same to the last detail.
(For the other directions, `C104_refuted_hdf5`.) -/
theorem C129_without_hdf5 {ext : Ext ℝ} {sampler : Sampler ℝ} {cpr : Bool}
    (hdf5 : String → Option (List (ParticleInput ℝ))) (filename : String) {options : Options ℝ}
    (off : options.use_hdf5 = false) (material : Res (Material ℝ)) {p : ParticleParameters ℝ}
    (hd : ∀ d ∈ p.dir, AllFixed d ∨ AllDrawn d)
    (hl : ∀ lu, length_unit_of ext p.length_unit = .ok lu → 0 < lu) (t : Tape ℝ) :
    (∀ e, input ext sampler cpr options material p t = .error e ↔
      input_hdf5 ext sampler cpr hdf5 filename options material p t = .error e) ∧
    ∀ acc s acc' s', input ext sampler cpr options material p t = .ok (acc, s) →
      input_hdf5 ext sampler cpr hdf5 filename options material p t = .ok (acc', s') →
      s' = s ∧ acc'.material = acc.material ∧ acc'.options = acc.options ∧
      acc'.output_units = acc.output_units ∧
      ∀ rcpr fuel cfg splits tapes,
        physics_loop_run rcpr fuel cfg acc'.material acc'.options splits tapes acc'.particle_input_array =
        physics_loop_run rcpr fuel cfg acc.material acc.options splits tapes acc.particle_input_array := by
  have key : MRel (fun acc acc' : Accepted ℝ => acc'.material = acc.material ∧ acc'.options = acc.options ∧
      acc'.output_units = acc.output_units ∧
      List.Forall₂ SameRay acc.particle_input_array acc'.particle_input_array)
      (input ext sampler cpr options material p)
      (input_hdf5 ext sampler cpr hdf5 filename options material p) := by
    unfold input input_hdf5
    refine MRel.bind_same rfl fun _ => MRel.bind_same rfl fun _ => MRel.bind_same rfl fun _ =>
      MRel.bind_same rfl fun m => MRel.bind_same rfl fun _ => MRel.bind_same rfl fun _ =>
      MRel.bind_same rfl fun _ => ?_
    refine MRel.bind (R := fun q q' => q' = q ∧ complete_particles p = .ok q) (MRel.lift ?_) ?_
    · cases hc : complete_particles p with
      | error e => exact (rfl : e = e)
      | ok q => exact ⟨rfl, rfl⟩
    rintro q _ ⟨rfl, hc⟩
    refine MRel.bind_same rfl fun _ => MRel.bind_same rfl fun _ => MRel.bind_same rfl fun _ =>
      MRel.bind_same rfl fun _ => ?_
    refine MRel.bind (R := fun u u' => u' = u ∧ 0 < u) (MRel.lift ?_) ?_
    · rw [(complete_particles_units hc).1]
      cases hu : length_unit_of ext p.length_unit with
      | error e => exact (rfl : e = e)
      | ok u => exact ⟨rfl, hl u hu⟩
    rintro lu _ ⟨rfl, hlu⟩
    refine MRel.bind_same rfl fun eu => MRel.bind_same rfl fun mu => ?_
    simp only [off, Bool.false_eq_true, if_false]
    refine MRel.bind (inputs_ray sampler hlu eu mu _ ?_) fun a a' ha => MRel.pure ⟨rfl, rfl, rfl, ha⟩
    rw [complete_particles_dir hc]
    exact hd
  have k := key t
  constructor
  · intro e
    cases h1 : input ext sampler cpr options material p t <;>
      cases h2 : input_hdf5 ext sampler cpr hdf5 filename options material p t <;> rw [h1, h2] at k
    · have : _ = _ := k
      rw [this]
    · exact k.elim
    · exact k.elim
    · simp
  · intro acc s acc' s' h1 h2
    rw [h1, h2] at k
    obtain ⟨⟨k1, k2, k3, k4⟩, k5⟩ := k
    refine ⟨k5.symm, k1, k2, k3, fun rcpr fuel cfg splits tapes => ?_⟩
    rw [k1, k2]
    exact loop_same_rays rcpr fuel cfg _ _ splits tapes k4

end RustBCA
