import Verif.Spec.Bulk
import Verif.Spec.Vacuum
import Verif.Spec.Random

/-!
# Vocabulary for C125: runs that end with probability one
-/

namespace RustBCA.Spec

/-- Again and again, for every `w`, the stream of random numbers has `w` numbers in a row that are at most `1/e`
(of which an exponentially distributed factor `-ln u` is at least 1). -/
def SmallAgain (t : Tape ℝ) : Prop := ∀ w k : ℕ, ∃ j, k ≤ j ∧ ∀ i < w, t (j + i) ≤ Real.exp (-1)

/-- A particle of charge `Z`, mass `m` and cutoff energy `Ec`, which must be positive, loses at least `σ` per unit length
to the electrons at every energy from its cutoff energy to `Emax`. -/
def SlowedUpTo (o : Options ℝ) (ck : ℝ) (Zs ns : List ℝ) (σ Emax Z m Ec : ℝ) : Prop :=
  0 < Ec ∧ ∀ e, Ec ≤ e → e ≤ Emax → σ ≤ pathStopping o.electronic_stopping_mode ck Zs ns Z m e

end RustBCA.Spec
