import Verif.Spec.AsRead
import Verif.Props.Main

/-!
# C113: what is read is what is simulated
-/

namespace RustBCA
open Scalar Spec
variable {F : Type} [Scalar F]

theorem material_new_ok {ext : Ext F} {mp : MaterialParameters F} {geometry : Res (Geom F)}
    {m0 : Material F} (h : Material.new ext mp geometry = .ok m0) :
    ∃ eu mu g, energy_unit_of ext mp.energy_unit = .ok eu ∧ mass_unit_of ext mp.mass_unit = .ok mu ∧
      geometry = .ok g ∧ m0 = ⟨mp.m.map (· * mu), mp.Z, mp.Eb.map (· * eu), mp.Es.map (· * eu),
        mp.Ec.map (· * eu), mp.Ed.map (· * eu), mp.interaction_index, g,
        mp.surface_binding_model, mp.bulk_binding_model⟩ := by
  unfold Material.new at h
  cases h1 : energy_unit_of ext mp.energy_unit with
  | error e => rw [h1] at h; cases h
  | ok eu =>
    cases h2 : mass_unit_of ext mp.mass_unit with
    | error e => rw [h1, h2] at h; cases h
    | ok mu =>
      cases h3 : geometry with
      | error e => rw [h1, h2, h3] at h; cases h
      | ok g =>
        rw [h1, h2, h3] at h
        exact ⟨eu, mu, g, rfl, rfl, rfl, (Except.ok.inj h).symm⟩

theorem complete_material_ok {m0 m1 : Material F} (h : complete_material m0 = .ok m1) :
    m0.m.length = m0.Z.length ∧ m0.m.length = m0.Eb.length ∧ m0.m.length = m0.Es.length ∧
    ∃ ed, (2 ≤ m0.Ed.length → ed = m0.Ed) ∧
      (m0.Ed.length ≤ 1 → ∃ e, m0.Ed[0]? = some e ∧ ed = List.replicate m0.m.length e) ∧
      m1 = { m0 with
        interaction_index := if m0.interaction_index.length ≤ 1 then
          List.replicate m0.m.length 0 else m0.interaction_index
        Ed := ed } := by
  have key : RSat (complete_material m0) (fun m1 =>
      m0.m.length = m0.Z.length ∧ m0.m.length = m0.Eb.length ∧ m0.m.length = m0.Es.length ∧
    ∃ ed, (2 ≤ m0.Ed.length → ed = m0.Ed) ∧
      (m0.Ed.length ≤ 1 → ∃ e, m0.Ed[0]? = some e ∧ ed = List.replicate m0.m.length e) ∧
      m1 = { m0 with
        interaction_index := if m0.interaction_index.length ≤ 1 then
          List.replicate m0.m.length 0 else m0.interaction_index
        Ed := ed }) (fun _ => True) := by
    unfold complete_material
    simp only [rsat_bind, rsat_assert, beq_iff_eq]
    refine ⟨fun a1 => ⟨fun a2 => ⟨fun a3 => ?_, fun _ => trivial⟩, fun _ => trivial⟩, fun _ => trivial⟩
    have hx : (if m0.interaction_index.length ≤ 1 then
        { m0 with interaction_index := List.replicate m0.m.length 0 } else m0) =
        { m0 with interaction_index := if m0.interaction_index.length ≤ 1 then
          List.replicate m0.m.length 0 else m0.interaction_index } := by
      split <;> rfl
    rw [hx]
    dsimp only
    by_cases hl : m0.Ed.length ≤ 1
    · rw [if_pos hl]
      simp only [rsat_bind, rsat_vget, rsat_pure]
      exact ⟨fun e he => ⟨a1, a2, a3, _, fun h => absurd h (by omega), fun _ => ⟨e, he, rfl⟩, rfl⟩,
        fun _ => trivial⟩
    · rw [if_neg hl, rsat_pure]
      exact ⟨a1, a2, a3, m0.Ed, fun _ => rfl, fun h => absurd h hl, rfl⟩
  have := rsat_of_ok key h
  exact this

/-- **C113** (target) Whatever the file says: if it is accepted, its lists are equally long, and
the target that is simulated is the one it describes, in the units it names, entry by entry. -/
theorem C113_target {ext : Ext F} {sampler : Sampler F} {cpr : Bool} {options : Options F}
    {mp : MaterialParameters F} {geometry : Res (Geom F)} {p : ParticleParameters F}
    {t t' : Tape F} {acc : Accepted F}
    (run : input ext sampler cpr options (Material.new ext mp geometry) p t = .ok (acc, t')) :
    EquallyLong mp ∧ ∃ eu mu g, energy_unit_of ext mp.energy_unit = .ok eu ∧
      mass_unit_of ext mp.mass_unit = .ok mu ∧ geometry = .ok g ∧
      TargetAsRead mp g eu mu acc.material := by
  obtain ⟨m0, p', mi, pi, h⟩ := input_facts run
  obtain ⟨eu, mu, g, h1, h2, h3, rfl⟩ := material_new_ok h.hm0
  obtain ⟨a1, a2, a3, ed, b1, b2, hm⟩ := complete_material_ok h.hm
  simp only [List.length_map] at a1 a2 a3 b1 b2
  refine ⟨⟨a1.symm, a2.symm, a3.symm, ?_⟩, eu, mu, g, h1, h2, h3, ?_⟩
  · intro he
    obtain ⟨e, h, -⟩ := b2 (by rw [he]; simp)
    rw [he] at h
    cases h
  · rw [hm]
    refine ⟨rfl, rfl, rfl, rfl, rfl, b1, ?_, ?_, ?_, rfl, rfl, rfl⟩
    · intro e he
      obtain ⟨e', h, rfl⟩ := b2 (by rw [he]; simp)
      rw [he] at h
      obtain rfl : e*eu = e' := by simpa using h
      exact ⟨by simp, fun x hx => List.eq_of_mem_replicate hx⟩
    · intro h
      exact if_neg (show ¬ mp.interaction_index.length ≤ 1 by omega)
    · intro h
      have hi : (if mp.interaction_index.length ≤ 1 then
          List.replicate (mp.m.map (· * mu)).length 0 else mp.interaction_index) =
          List.replicate mp.m.length 0 := by rw [if_pos h, List.length_map]
      dsimp only
      rw [hi]
      exact ⟨by simp, fun x hx => List.eq_of_mem_replicate hx⟩

/-- **C113** (options) The options are passed on as they were read. -/
theorem C113_options {ext : Ext F} {sampler : Sampler F} {cpr : Bool} {options : Options F}
    {material : Res (Material F)} {p : ParticleParameters F}
    {t t' : Tape F} {acc : Accepted F}
    (run : input ext sampler cpr options material p t = .ok (acc, t')) : acc.options = options := by
  obtain ⟨m0, p', mi, pi, h⟩ := input_facts run
  exact h.opts

/-- **C113** (ions) The ion that starts is the one the particle record describes. -/
theorem C113_start {q : ParticleInput F} {o : Options F} {b : Particle F}
    (h : Particle.from_input q o = .ok b) : StartsAsRead q o b := by
  have key : RSat (Particle.from_input q o) (fun b => StartsAsRead q o b) (fun _ => True) := by
    unfold Particle.from_input
    simp only [rsat_bind, rsat_assert, rsat_pure, implies_true, and_true]
    exact fun _ _ => ⟨rfl, rfl, rfl, rfl, rfl, rfl, rfl, rfl, rfl, rfl, rfl, ⟨rfl, rfl⟩, rfl, rfl, rfl, rfl⟩
  have := rsat_of_ok key h
  exact this

/-- **C113** (program) A run of the program that ends normally simulated the target described in
the file named on the command line, with the options of that file, and reported in the units the
file names for its particles. -/
theorem C113_program {w : World F} {args : List String} {s : RunState F}
    (run : main w args = .ok s) :
    ∃ options mp pp geometry, AsksFor w args options mp pp geometry ∧ EquallyLong mp ∧
    ∃ eu mu g mat ions lu' eu' mu', energy_unit_of w.ext mp.energy_unit = .ok eu ∧
      mass_unit_of w.ext mp.mass_unit = .ok mu ∧ geometry = .ok g ∧ TargetAsRead mp g eu mu mat ∧
      length_unit_of w.ext pp.length_unit = .ok lu' ∧ energy_unit_of w.ext pp.energy_unit = .ok eu' ∧
      mass_unit_of w.ext pp.mass_unit = .ok mu' ∧
      physics_loop_run w.rcpr w.fuel ⟨w.grid, w.list_output, ⟨lu', eu', mu'⟩, w.fmt⟩ mat options
        w.splits w.tapes ions = .ok s ∧
      ∃ blocks : List (List (ParticleInput F)), ions = blocks.flatten ∧ blocks.length = pp.Z.length ∧
        ∀ i b, blocks[i]? = some b → pp.N[i]? = some b.length ∧
          ∀ q ∈ b, IonOf w.sampler lu' eu' mu' pp i q := by
  obtain ⟨options, mp, pp, geometry, acc, ha, ⟨⟨t', hi⟩, hl⟩⟩ := (C78_main_runs_what_was_asked _ _ _).1 run
  obtain ⟨he, eu, mu, g, h1, h2, h3, h4⟩ := C113_target hi
  have ho := C113_options hi
  rw [ho] at hl
  obtain ⟨u1, u2, u3, blocks, b1, b2, b3⟩ := C45_requested_ions hi
  exact ⟨options, mp, pp, geometry, ha, he, eu, mu, g, acc.material, acc.particle_input_array,
    _, _, _, h1, h2, h3, h4, u1, u2, u3, hl, blocks, b1, b2, b3⟩

end RustBCA
