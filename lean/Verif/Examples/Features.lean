import Verif.Props.Features
import Verif.Examples.Lib

/-! Concrete cases for **C105**. -/

namespace RustBCA.LibExample
open Scalar Spec

/-- **C105** `sputtering_yield` in a build with `distributions`, two samples at 30 degrees: it
returns, and the theorem says what. -/
example (rcpr : Rcpr ℝ) (ext : Ext ℝ) : ∃ r, sputtering_yield_distributions rcpr 2 ext ones ones (1/2) 30 2
    (fun _ => half) r ∧ r = 0 := by
  obtain ⟨q, -, -, h, -⟩ := samples_ok rcpr ext false
  obtain ⟨f, hf, hfin⟩ := C58_finishes sputtered_particle false [[q], [q]]
  have hr : sputtering_yield_distributions rcpr 2 ext ones ones (1/2) 30 2 (fun _ => half)
      (ofI32 f.num / ofNat 2) :=
    ⟨_, f, (sputtering_is_reflection _ _ _ _ _ _ _ _ _).trans (h rfl), hf, hfin, rfl⟩
  refine ⟨_, hr, ?_⟩
  rw [C105_refuted_sputtering hr]
  simp

end RustBCA.LibExample
