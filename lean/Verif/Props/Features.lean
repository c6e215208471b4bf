import Verif.Props.Yields
import Verif.Props.Lib

/-! **C105** The library functions in a build with feature `distributions`. -/

namespace RustBCA
open Scalar Spec
variable {F : Type} [Scalar F]

/-- **C105** In a build with feature `distributions` every cascade the library follows is the one
`default_options(false)` gives in the default build, whatever was asked for. -/
theorem C105_never_recoils (rcpr : Rcpr F) (fuel : Nat) (ion : Particle F) (mat : Material F)
    (track_recoils : Bool) :
    single_ion_bca rcpr fuel ion mat (Options.default_options_distributions track_recoils) =
      single_ion_bca rcpr fuel ion mat (Options.default_options false) := by
  rfl

/-- **C105** So such a cascade is the ion alone: no recoil is ever returned. -/
theorem C105_refuted_recoils (rcpr : Rcpr F) (fuel : Nat) (ion : Particle F) (mat : Material F)
    (track_recoils : Bool) (tape tape' : Tape F) (out : List (Particle F))
    (hs : ion.stopped = false) (hl : ion.left = false)
    (run : single_ion_bca rcpr fuel ion mat (Options.default_options_distributions track_recoils) tape =
      .ok (out, tape')) : ∃ q, out = [q] ∧ SameParticle ion q := by
  rw [C105_never_recoils] at run
  obtain ⟨q, rest, rfl, hq, -⟩ := C02_ion_first _ _ _ _ _ _ _ _ hs hl run
  have h1 := C03_no_recoils _ _ _ _ _ _ _ _ hs hl rfl run
  refine ⟨q, ?_, hq⟩
  have : rest = [] := by simpa using h1
  rw [this]

theorem sputtering_samples_distributions_ok {rcpr : Rcpr F} {fuel : Nat} {ext : Ext F}
    {ion target : PyDict F} {energy angle : F} {n : Nat} {tapes : Nat → Tape F}
    {outs : List (List (Particle F))}
    (h : sputtering_samples_distributions rcpr fuel ext ion target energy angle n tapes = .ok outs) :
    outs.length = n ∧ ∃ m, ∀ out ∈ outs, ∃ ion, ion.incident = true ∧ ion.stopped = false ∧
      ion.left = false ∧ CascadeOf rcpr fuel m (Options.default_options_distributions true) ion out := by
  unfold sputtering_samples_distributions at h
  simp only [bind, Except.bind] at h
  split at h; · simp at h
  split at h; · simp at h
  split at h; · simp at h
  split at h; · simp at h
  obtain ⟨h1, h2⟩ := run_samples_ok h
  exact ⟨h1, _, h2⟩

/-- **C105** (refuted) In a build with feature `distributions` the sputtering yield is zero for every ion, every
target, every energy and angle and all random numbers: whenever `sputtering_yield` returns, it
returns `0 / num_samples`. -/
theorem C105_refuted_sputtering {rcpr : Rcpr F} {fuel : Nat} {ext : Ext F} {ion target : PyDict F}
    {energy angle : F} {n : Nat} {tapes : Nat → Tape F} {r : F}
    (h : sputtering_yield_distributions rcpr fuel ext ion target energy angle n tapes r) :
    r = ofNat 0 / ofNat n := by
  obtain ⟨outs, final, h1, h2, h3, h4⟩ := h
  obtain ⟨hlen, m, hm⟩ := sputtering_samples_distributions_ok h1
  subst hlen
  obtain ⟨hn, -⟩ := C58_counters _ _ _ _ h2 h3
  have h0 : outs.flatten.countP sputtered_particle = 0 := by
    rw [List.countP_eq_zero]
    intro q hq
    obtain ⟨out, ho, hqo⟩ := List.mem_flatten.1 hq
    obtain ⟨p, hi, hs, hl, t, t', hr⟩ := hm out ho
    obtain ⟨q', rfl, hs'⟩ := C105_refuted_recoils _ _ _ _ _ _ _ _ hs hl hr
    rw [List.mem_singleton] at hqo
    subst hqo
    rw [sputtered_iff]
    intro hc
    have := hs'.incident
    rw [hi] at this
    unfold SputteredAway at hc
    simp [this] at hc
  rw [h4, hn, h0, ofI32_wrap (by omega)]

/-- The cascades of `sputtering_yield` are then those of `reflection_coefficient`. -/
theorem sputtering_is_reflection (rcpr : Rcpr F) (fuel : Nat) (ext : Ext F) (ion target : PyDict F)
    (energy angle : F) (n : Nat) (tapes : Nat → Tape F) :
    sputtering_samples_distributions rcpr fuel ext ion target energy angle n tapes =
      reflection_samples rcpr fuel ext ion target energy angle n tapes := by
  rfl

/-- **C105** What does hold in both builds: the calls that do not follow recoils
(`reflection_coefficient`, `compound_reflection_coefficient`, `reflect_single_ion_py`,
`reflect_single_ion_c`, `compound_bca_list_fortran` with `track_recoils` off) get the same options, so they give the same
results. -/
theorem C105_without_recoils : Options.default_options_distributions (F := F) false =
    Options.default_options false := rfl

end RustBCA
