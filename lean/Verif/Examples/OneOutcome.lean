import Verif.Props.OneOutcome
import Verif.Examples.Cascade

/-!
Examples for C121: a simulation that ends with a result, and one that ends with a panic.
-/

namespace RustBCA.OneOutcomeExample
open Spec CascadeExample

/-- The ion of the cascade example makes a recoil; its simulation meets the bound 0, ends with the bound 3, and
therefore ends in the same way with every bound from some on. -/
example : ∃ out rest enough, single_ion_bca rcpr 0 ion mat options zeros = .error .fuel ∧
    single_ion_bca rcpr 3 ion mat options zeros = .ok (out, rest) ∧ out.length = 2 ∧
    ∀ bound, enough ≤ bound → single_ion_bca rcpr bound ion mat options zeros = .ok (out, rest) := by
  obtain ⟨out, rest, h, hlen, -⟩ := run
  obtain ⟨enough, he⟩ := (C121_ion rcpr ion mat options zeros).settled _ ⟨3, h, nofun⟩
  exact ⟨out, rest, enough, rfl, h, hlen, he⟩

/-- A target that refuses every question: the simulation panics, with every sufficiently large bound. -/
example (message : String) : ∃ enough, ∀ bound, enough ≤ bound →
    single_ion_bca rcpr bound ion { mat with geometry := { geom with get_densities := fun _ _ _ => rpanic message } }
      options zeros = .error (.panic message) :=
  (C121_ion rcpr ion _ options zeros).settled _ ⟨1, rfl, nofun⟩

end RustBCA.OneOutcomeExample
