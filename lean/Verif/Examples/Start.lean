import Verif.Props.Start
import Verif.Examples.Lib

/-! Concrete cases for **C106**. -/

namespace RustBCA.LibExample
open Scalar Spec

/-- **C106** An ion of the input file at (1, 2, 3) flying along (0, 3, 4). -/
example (o : Options ℝ) : ∃ b, Particle.from_input ⟨1, 1, 5, 1, 1, 1, 2, 3, 0, 3, 4, 0, 1, 7⟩ o = .ok b ∧
    b.trajectory = [⟨5, 1, 2, 3⟩] ∧ b.dir_old = ⟨0/5, 3/5, 4/5⟩ ∧ b.pos_old = ⟨1, 2, 3⟩ := by
  obtain ⟨b, hb⟩ := (C46_accepts_iff ⟨1, 1, 5, 1, 1, 1, 2, 3, 0, 3, 4, 0, 1, 7⟩ o).2 ⟨by norm_num, by norm_num⟩
  obtain ⟨h1, -, -, -, -, -, -, -, -, -, h2, -⟩ := C106_from_input hb
  refine ⟨b, hb, h2, ?_, h1.pos_old⟩
  rw [h1.dir_old, direction]
  simp only [sqrt_real]
  rw [show (0*0 + 3*3 + 4*4 : ℝ) = 5^2 by norm_num, Real.sqrt_sq (by norm_num)]

/-- **C106** A library ion of half an electronvolt says it started with half a joule. -/
example : ∃ b : Particle ℝ, Particle.default_incident 1 1 (1/2) 1 1 (-1) (3/5) (4/5) (0/5) = .ok b ∧
    b.energy_origin ≠ b.E := by
  have hsq : Scalar.sqrt ((3/5:ℝ)*(3/5) + (4/5)*(4/5) + (0/5)*(0/5)) = 1 := by
    show Real.sqrt _ = 1
    rw [show ((3/5:ℝ)*(3/5) + (4/5)*(4/5) + (0/5)*(0/5)) = 1 by norm_num, Real.sqrt_one]
  obtain ⟨p, hp, -⟩ := incident_ok (1/2) (-1) (3/5) (4/5) (0/5) 1 hsq
    (by rw [abs_of_pos (by norm_num)]; norm_num) (by norm_num) (by norm_num)
  exact ⟨p, hp, (C106_refuted_origin hp).2⟩

end RustBCA.LibExample
