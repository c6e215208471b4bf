import Verif.Spec.Start
import Verif.Props.Input
import Verif.Props.Lib

/-! **C106** New particles start from a clean state. -/

namespace RustBCA
open Scalar Spec
variable {F : Type} [Scalar F]

/-- **C106** An ion of the input file, once accepted, has just started where the file puts it, with
the file's parameters; its trajectory holds exactly the starting point. -/
theorem C106_from_input {q : ParticleInput F} {o : Options F} {b : Particle F}
    (h : Particle.from_input q o = .ok b) :
    JustStarted b q.E ⟨q.x, q.y, q.z⟩ (direction q.ux q.uy q.uz) ∧
      b.m = q.m ∧ b.Z = q.Z ∧ b.Ec = q.Ec ∧ b.Es = q.Es ∧ b.interaction_index = q.interaction_index ∧
      b.incident = true ∧ b.first_step = true ∧ b.energy_origin = q.E ∧
      b.track_trajectories = o.track_trajectories ∧
      b.trajectory = [⟨q.E, q.x, q.y, q.z⟩] ∧ b.energies = [] ∧ b.weight = 1.0 ∧ b.tag = 0 := by
  unfold Particle.from_input at h
  simp only [bind, Except.bind, pure, Except.pure] at h
  split at h; · cases h
  split at h; · cases h
  cases h
  exact ⟨⟨rfl, rfl, rfl, rfl, rfl, rfl, rfl, rfl, rfl, rfl, rfl, by simp, by simp⟩,
    rfl, rfl, rfl, rfl, rfl, rfl, rfl, rfl, rfl, rfl, rfl, rfl, rfl⟩

/-- **C106** An ion of the library's `default_incident`, given in amu and eV at depth `x`. -/
theorem C106_default_incident {m Z E Ec Es x ux uy uz : F} {b : Particle F}
    (h : Particle.default_incident m Z E Ec Es x ux uy uz = .ok b) :
    JustStarted b (E*EV F) ⟨x, 0.0, 0.0⟩ (direction ux uy uz) ∧
      b.m = m*AMU F ∧ b.Z = Z ∧ b.Ec = Ec*EV F ∧ b.Es = Es*EV F ∧ b.interaction_index = 0 ∧
      b.incident = true ∧ b.first_step = true ∧ b.track_trajectories = false ∧
      b.weight = 1.0 ∧ b.tag = 0 := by
  unfold Particle.default_incident at h
  simp only [bind, Except.bind, pure, Except.pure] at h
  split at h; · cases h
  split at h; · cases h
  cases h
  exact ⟨⟨rfl, rfl, rfl, rfl, rfl, rfl, rfl, rfl, rfl, rfl, rfl, by simp, by simp⟩,
    rfl, rfl, rfl, rfl, rfl, rfl, rfl, rfl, rfl, rfl⟩

/-- **C106** A particle of `Particle::new` (recoils are made this way). -/
theorem C106_new (m Z E Ec Es Ed x y z ux uy uz : F) (incident track : Bool) (i : Nat) :
    JustStarted (Particle.new m Z E Ec Es Ed x y z ux uy uz incident track i) E ⟨x, y, z⟩
        (direction ux uy uz) ∧
      ∀ b, b = Particle.new m Z E Ec Es Ed x y z ux uy uz incident track i →
      b.m = m ∧ b.Z = Z ∧ b.Ec = Ec ∧ b.Es = Es ∧ b.Ed = Ed ∧ b.interaction_index = i ∧
      b.incident = incident ∧ b.first_step = incident ∧ b.energy_origin = E ∧
      b.track_trajectories = track ∧ b.weight = 1.0 ∧ b.tag = 0 := by
  refine ⟨⟨rfl, rfl, rfl, rfl, rfl, rfl, rfl, rfl, rfl, rfl, rfl, ?_, ?_⟩, ?_⟩
  · simp [Particle.new]
  · simp [Particle.new]
  · rintro b rfl
    exact ⟨rfl, rfl, rfl, rfl, rfl, rfl, rfl, rfl, rfl, rfl, rfl, rfl⟩

/-- **C106** The ions the C entry points and `simple_bca` build. -/
theorem C106_c_entry (m Z E Ec Es x y z ux uy uz weight : F) (tag : Int) (v : Vec3 F) :
    JustStarted (ion_literal m Z E Ec Es x y z ux uy uz weight tag v) E ⟨x, y, z⟩ ⟨ux, uy, uz⟩ ∧
      ∀ b, b = ion_literal m Z E Ec Es x y z ux uy uz weight tag v →
      b.m = m ∧ b.Z = Z ∧ b.Ec = Ec ∧ b.Es = Es ∧ b.interaction_index = 0 ∧
      b.incident = true ∧ b.first_step = true ∧ b.energy_origin = E ∧
      b.track_trajectories = false ∧ b.weight = weight ∧ b.tag = tag ∧ b.tracked_vector = v := by
  refine ⟨⟨rfl, rfl, rfl, rfl, rfl, rfl, rfl, rfl, rfl, rfl, rfl, ?_, ?_⟩, ?_⟩
  · simp [ion_literal]
  · simp [ion_literal]
  · rintro b rfl
    exact ⟨rfl, rfl, rfl, rfl, rfl, rfl, rfl, rfl, rfl, rfl, rfl, rfl⟩

/-- **C106** (refuted for the origin energy of `default_incident`) The energy an ion reports to have
started with is not the energy it started with: it is the number of electronvolts, read as joules. -/
theorem C106_refuted_origin {m Z E Ec Es x ux uy uz : ℝ} {b : Particle ℝ}
    (h : Particle.default_incident m Z E Ec Es x ux uy uz = .ok b) :
    b.energy_origin = E ∧ b.energy_origin ≠ b.E := by
  obtain ⟨hj, -⟩ := C106_default_incident h
  have hE : 0 < E ∧ b.energy_origin = E := by
    unfold Particle.default_incident at h
    simp only [bind, Except.bind, pure, Except.pure, rassert] at h
    split at h; · cases h
    split at h; · cases h
    rename_i h2
    cases h
    refine ⟨?_, rfl⟩
    split at h2
    · rename_i h3
      have := (lt_real _ _).1 h3
      norm_num at this
      exact this
    · cases h2
  refine ⟨hE.2, ?_⟩
  rw [hE.2, hj.E]
  have : EV ℝ < 1 := by unfold EV Q; norm_num
  intro hc
  have h1 := hE.1
  nlinarith

end RustBCA
