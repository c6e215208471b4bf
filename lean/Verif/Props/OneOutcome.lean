import Verif.Proofs.Fuel
import Verif.Props.Yields

/-!
# C121: input and random numbers determine the outcome

The `while` loops of the model run at most a given number of times; this bound is not part of the program.
The theorems say that it has no influence: whatever ends ends in one way only, a result or a panic, and does
so for every larger bound.
-/

namespace RustBCA
open Scalar

/-! ## Specification -/

/-- `f bound` is what a program does when its loops may run `bound` times; the program ends in the way `r`
if it does so for some bound without meeting it. -/
def Spec.EndsAs {α : Type} (f : Nat → Res α) (r : Res α) : Prop := ∃ bound, f bound = r ∧ r ≠ .error .fuel

/-- The program ends in at most one way, and in that way for every sufficiently large bound. -/
structure Spec.OneOutcome {α : Type} (f : Nat → Res α) : Prop where
  unique : ∀ r r', EndsAs f r → EndsAs f r' → r = r'
  settled : ∀ r, EndsAs f r → ∃ enough, ∀ bound, enough ≤ bound → f bound = r

open Spec

/-! ## Proof -/

theorem one_outcome {α : Type} {f : Nat → Res α} (h : ∀ n m, n ≤ m → RMore (f n) (f m)) : OneOutcome f where
  unique := by
    rintro _ _ ⟨n, rfl, hn⟩ ⟨m, rfl, hm⟩
    rcases le_total n m with hle | hle
    · exact (h n m hle hn).symm
    · exact h m n hle hm
  settled := by
    rintro _ ⟨n, rfl, hn⟩
    exact ⟨n, fun m hm => h n m hm hn⟩

theorem one_outcome_m {F α : Type} (tape : Tape F) {f : Nat → M F α} (h : ∀ n m, n ≤ m → MMore (f n) (f m)) :
    OneOutcome fun bound => f bound tape := one_outcome fun n m hle => h n m hle tape

section
variable {F : Type} [Scalar F]

/-- **C121, one ion.** -/
theorem C121_ion (rcpr : Rcpr F) (ion : Particle F) (mat : Material F) (o : Options F) (tape : Tape F) :
    OneOutcome fun bound => single_ion_bca rcpr bound ion mat o tape :=
  one_outcome fun _ _ h => more_cascade rcpr h ion mat o tape

/-- **C121, a run.** -/
theorem C121_run (rcpr : Rcpr F) (cfg : OutputConfig F) (mat : Material F) (o : Options F) (splits : List Split)
    (tapes : Nat → Tape F) (inputs : List (ParticleInput F)) :
    OneOutcome fun bound => physics_loop_run rcpr bound cfg mat o splits tapes inputs :=
  one_outcome fun _ _ h => more_run rcpr h cfg mat o splits tapes inputs

/-- **C121, the program.** -/
theorem C121_program (w : World F) (args : List String) :
    OneOutcome fun bound => main { w with fuel := bound } args :=
  one_outcome fun _ _ h => more_main w h args

/-- **C121, ions that end.** If the simulation of each ion of a run ends, however long it takes, then there
is one bound that is enough for all of them. -/
theorem C121_all_ions (rcpr : Rcpr F) (mat : Material F) (o : Options F) (tapes : Nat → Tape F)
    (inputs : List (ParticleInput F)) (out : ParticleInput F × Nat → List (Particle F))
    (ends : ∀ i ∈ inputs.zipIdx, EndsAs (fun bound => run_ion rcpr bound mat o i.1 (tapes i.2)) (.ok (out i))) :
    ∃ enough, ∀ bound, enough ≤ bound → ∀ i ∈ inputs.zipIdx, run_ion rcpr bound mat o i.1 (tapes i.2) = .ok (out i) := by
  have key : ∀ l : List (ParticleInput F × Nat),
      (∀ i ∈ l, EndsAs (fun bound => run_ion rcpr bound mat o i.1 (tapes i.2)) (.ok (out i))) →
      ∃ enough, ∀ bound, enough ≤ bound → ∀ i ∈ l, run_ion rcpr bound mat o i.1 (tapes i.2) = .ok (out i) := by
    intro l
    induction l with
    | nil => intro _; exact ⟨0, fun _ _ i hi => absurd hi List.not_mem_nil⟩
    | cons a l ih =>
      intro h
      obtain ⟨n, hn⟩ := ih fun i hi => h i (List.mem_cons_of_mem _ hi)
      obtain ⟨m, hm⟩ := (one_outcome (f := fun bound => run_ion rcpr bound mat o a.1 (tapes a.2))
        fun _ _ hle => rmore_bind (rmore_refl _) fun _ => rmore_bind (more_cascade rcpr hle _ mat o _)
          fun _ => rmore_refl _).settled _ (h a List.mem_cons_self)
      refine ⟨max n m, fun bound hb i hi => ?_⟩
      rcases List.mem_cons.1 hi with rfl | hi
      · exact hm bound (le_trans (le_max_right _ _) hb)
      · exact hn bound (le_trans (le_max_left _ _) hb) i hi
  exact key _ ends

/-! ### Library functions -/

/-- goes through the steps of a library function -/
local macro "more_steps" h:term : tactic => `(tactic| repeat first
  | exact more_cascade _ $h _ _ _
  | with_reducible exact mmore_refl _
  | refine mmore_forFold (fun _ _ => ?_) _ _
  | refine mmore_bind ?_ fun _ => ?_
  | split)

theorem C121_simple_bca (rcpr : Rcpr F) (ext : Ext F) (x y z ux uy uz E1 Z1 m1 Ec1 Es1 Z2 m2 Ec2 Es2 n2 Eb2 : F)
    (tape : Tape F) : OneOutcome fun bound =>
      simple_bca rcpr bound ext x y z ux uy uz E1 Z1 m1 Ec1 Es1 Z2 m2 Ec2 Es2 n2 Eb2 tape := by
  refine one_outcome_m tape fun n m h => ?_
  unfold simple_bca
  more_steps h

theorem C121_simple_compound_bca (rcpr : Rcpr F) (ext : Ext F) (x y z ux uy uz E1 Z1 m1 Ec1 Es1 : F)
    (Z2 m2 Ec2 Es2 n2 Eb2 : List F) (tape : Tape F) : OneOutcome fun bound =>
      simple_compound_bca rcpr bound ext x y z ux uy uz E1 Z1 m1 Ec1 Es1 Z2 m2 Ec2 Es2 n2 Eb2 tape := by
  refine one_outcome_m tape fun n m h => ?_
  unfold simple_compound_bca
  more_steps h

theorem C121_simple_bca_list_py (rcpr : Rcpr F) (ext : Ext F) (energies usx usy usz : List F)
    (Z1 m1 Ec1 Es1 Z2 m2 Ec2 Es2 n2 Eb2 : F) (tape : Tape F) : OneOutcome fun bound =>
      simple_bca_list_py rcpr bound ext energies usx usy usz Z1 m1 Ec1 Es1 Z2 m2 Ec2 Es2 n2 Eb2 tape := by
  refine one_outcome_m tape fun n m h => ?_
  unfold simple_bca_list_py simple_list_body simple_bca
  more_steps h

theorem C121_simple_bca_list_c (rcpr : Rcpr F) (ext : Ext F) (velocities : List (Vec3 F))
    (Z1 m1 Ec1 Es1 Z2 m2 n2 Ec2 Es2 Eb2 : F) (tape : Tape F) : OneOutcome fun bound =>
      simple_bca_list_c rcpr bound ext velocities Z1 m1 Ec1 Es1 Z2 m2 n2 Ec2 Es2 Eb2 tape := by
  refine one_outcome_m tape fun n m h => ?_
  unfold simple_bca_list_c velocity_body
  more_steps h

theorem C121_compound_bca_list_c (rcpr : Rcpr F) (ext : Ext F) (velocities : List (Vec3 F)) (Z1 m1 Ec1 Es1 : F)
    (Z2 m2 n2 Ec2 Es2 Eb2 : List F) (tape : Tape F) : OneOutcome fun bound =>
      compound_bca_list_c rcpr bound ext velocities Z1 m1 Ec1 Es1 Z2 m2 n2 Ec2 Es2 Eb2 tape := by
  refine one_outcome_m tape fun n m h => ?_
  unfold compound_bca_list_c velocity_body
  more_steps h

theorem C121_compound_tagged_bca_list_c (rcpr : Rcpr F) (ext : Ext F) (input : InputTaggedBCA F) (tape : Tape F) :
    OneOutcome fun bound => compound_tagged_bca_list_c rcpr bound ext input tape := by
  refine one_outcome_m tape fun n m h => ?_
  unfold compound_tagged_bca_list_c tagged_body
  more_steps h

theorem C121_reflect_single_ion_c (rcpr : Rcpr F) (ext : Ext F) (ux uy uz E1 Z1 m1 Ec1 Es1 : F)
    (Z2 m2 Ec2 Es2 Eb2 n2 : List F) (tape : Tape F) : OneOutcome fun bound =>
      reflect_single_ion_c rcpr bound ext ux uy uz E1 Z1 m1 Ec1 Es1 Z2 m2 Ec2 Es2 Eb2 n2 tape := by
  refine one_outcome_m tape fun n m h => ?_
  unfold reflect_single_ion_c
  more_steps h

theorem C121_compound_bca_list_fortran (rcpr : Rcpr F) (ext : Ext F) (track_recoils : Bool)
    (ux uy uz E1 Z1 m1 Ec1 Es1 Z2 m2 Ec2 Es2 Eb2 n2 : List F) (tape : Tape F) : OneOutcome fun bound =>
      compound_bca_list_fortran rcpr bound ext track_recoils ux uy uz E1 Z1 m1 Ec1 Es1 Z2 m2 Ec2 Es2 Eb2 n2 tape := by
  refine one_outcome_m tape fun n m h => ?_
  unfold compound_bca_list_fortran fortran_body
  more_steps h

theorem C121_compound_bca_list_py (rcpr : Rcpr F) (ext : Ext F)
    (energies ux uy uz Z1 m1 Ec1 Es1 Z2 m2 Ec2 Es2 n2 Eb2 : List F) (tape : Tape F) : OneOutcome fun bound =>
      compound_bca_list_py rcpr bound ext energies ux uy uz Z1 m1 Ec1 Es1 Z2 m2 Ec2 Es2 n2 Eb2 tape := by
  refine one_outcome_m tape fun n m h => ?_
  unfold compound_bca_list_py py_body
  more_steps h

theorem C121_compound_bca_list_1D_py (rcpr : Rcpr F) (ext : Ext F)
    (ux uy uz energies Z1 m1 Ec1 Es1 Z2 m2 Ec2 Es2 Eb2 : List F) (n2 : List (List F)) (dx : List F) (tape : Tape F) :
    OneOutcome fun bound => compound_bca_list_1D_py rcpr bound ext ux uy uz energies Z1 m1 Ec1 Es1 Z2 m2 Ec2 Es2 Eb2
      n2 dx tape := by
  refine one_outcome_m tape fun n m h => ?_
  unfold compound_bca_list_1D_py py_body
  more_steps h

theorem C121_reflect_single_ion_py (rcpr : Rcpr F) (ext : Ext F) (ion target : PyDict F) (vx vy vz : F)
    (tape : Tape F) : OneOutcome fun bound => reflect_single_ion_py rcpr bound ext ion target vx vy vz tape := by
  refine one_outcome_m tape fun n m h => ?_
  unfold reflect_single_ion_py
  more_steps h

theorem more_sputtering (rcpr : Rcpr F) {n m : Nat} (h : n ≤ m) (ext : Ext F) (ion target : PyDict F)
    (energy angle : F) (num : Nat) (tapes : Nat → Tape F) :
    RMore (sputtering_samples rcpr n ext ion target energy angle num tapes)
      (sputtering_samples rcpr m ext ion target energy angle num tapes) :=
  rmore_bind (rmore_refl _) fun _ => rmore_bind (rmore_refl _) fun _ => rmore_bind (rmore_refl _) fun _ =>
    rmore_bind (rmore_refl _) fun _ => more_samples rcpr h _ _ _ _ _ _ _ _ _ _

theorem more_reflection (rcpr : Rcpr F) {n m : Nat} (h : n ≤ m) (ext : Ext F) (ion target : PyDict F)
    (energy angle : F) (num : Nat) (tapes : Nat → Tape F) :
    RMore (reflection_samples rcpr n ext ion target energy angle num tapes)
      (reflection_samples rcpr m ext ion target energy angle num tapes) :=
  rmore_bind (rmore_refl _) fun _ => rmore_bind (rmore_refl _) fun _ => rmore_bind (rmore_refl _) fun _ =>
    rmore_bind (rmore_refl _) fun _ => more_samples rcpr h _ _ _ _ _ _ _ _ _ _

theorem more_compound (rcpr : Rcpr F) {n m : Nat} (h : n ≤ m) (ext : Ext F) (ion : PyDict F)
    (targets : List (PyDict F)) (densities : List F) (energy angle : F) (num : Nat) (tapes : Nat → Tape F) :
    RMore (compound_reflection_samples rcpr n ext ion targets densities energy angle num tapes)
      (compound_reflection_samples rcpr m ext ion targets densities energy angle num tapes) :=
  rmore_bind (rmore_refl _) fun _ => rmore_bind (rmore_refl _) fun _ => rmore_bind (rmore_refl _) fun _ =>
    rmore_bind (rmore_refl _) fun _ => rmore_bind (rmore_refl _) fun _ => rmore_bind (rmore_refl _) fun _ =>
    rmore_bind (rmore_refl _) fun _ => rmore_bind (rmore_refl _) fun _ => more_samples rcpr h _ _ _ _ _ _ _ _ _ _

/-- **C121, the cascades behind yields and reflection coefficients.** -/
theorem C121_samples (rcpr : Rcpr F) (ext : Ext F) (ion target : PyDict F) (targets : List (PyDict F))
    (densities : List F) (energy angle : F) (num : Nat) (tapes : Nat → Tape F) :
    (OneOutcome fun bound => sputtering_samples rcpr bound ext ion target energy angle num tapes) ∧
    (OneOutcome fun bound => reflection_samples rcpr bound ext ion target energy angle num tapes) ∧
    (OneOutcome fun bound => compound_reflection_samples rcpr bound ext ion targets densities energy angle num tapes) :=
  ⟨one_outcome fun _ _ h => more_sputtering rcpr h ext ion target energy angle num tapes,
   one_outcome fun _ _ h => more_reflection rcpr h ext ion target energy angle num tapes,
   one_outcome fun _ _ h => more_compound rcpr h ext ion targets densities energy angle num tapes⟩

/-- **C121, the sputtering yield.** Whatever the threads do and however many passes it takes: one value. -/
theorem C121_sputtering_yield {rcpr : Rcpr F} {bound bound' : Nat} {ext : Ext F} {ion target : PyDict F}
    {energy angle : F} {num : Nat} {tapes : Nat → Tape F} {r r' : F}
    (h : sputtering_yield rcpr bound ext ion target energy angle num tapes r)
    (h' : sputtering_yield rcpr bound' ext ion target energy angle num tapes r') : r = r' := by
  have up : ∀ {a b : Nat} {q : F}, a ≤ b → sputtering_yield rcpr a ext ion target energy angle num tapes q →
      sputtering_yield rcpr b ext ion target energy angle num tapes q := by
    rintro a b q hab ⟨outs, final, h1, h2⟩
    exact ⟨outs, final, by rw [more_sputtering rcpr hab ext ion target energy angle num tapes (by rw [h1]; exact nofun), h1], h2⟩
  exact C58_sputtering_schedules (up (le_max_left bound bound') h) (up (le_max_right bound bound') h')

end
end RustBCA
