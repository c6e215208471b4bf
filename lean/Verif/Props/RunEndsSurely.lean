import Verif.Props.RunEnds
import Verif.Proofs.Fuel

/-!
# C130: the whole run ends with probability one
-/

set_option linter.unusedVariables false

namespace RustBCA
open Scalar Spec MeasureTheory

/-- The streams of all ions, drawn independently. -/
noncomputable def Spec.randomTapes : Measure (ℕ → Tape ℝ) := Measure.infinitePi fun _ => randomTape

/-- What almost every stream satisfies, almost every family of streams satisfies for every ion. -/
theorem all_tapes {P : Tape ℝ → Prop} (h : ∀ᵐ t ∂randomTape, P t) : ∀ᵐ tapes ∂randomTapes, ∀ i, P (tapes i) := by
  rw [ae_all_iff]
  intro i
  exact (measurePreserving_eval_infinitePi (fun _ : ℕ => randomTape) i).quasiMeasurePreserving.ae h

section
variable {parse : String → Option ℝ} {mat : Material ℝ} {n : ℕ}

/-- If every ion ends on its stream, the run does. -/
theorem campaign_ends_streams (rcpr : Rcpr ℝ) (o : Options ℝ) (inputs : List (ParticleInput ℝ)) (tapes : ℕ → Tape ℝ)
    (h : ∀ q ∈ inputs, ∀ i b, Particle.from_input q o = .ok b → ∃ fuel, single_ion_bca rcpr fuel b mat o (tapes i) ≠ .error .fuel) :
    ∃ N, ∀ fuel, N ≤ fuel → ∀ cfg splits, physics_loop_run rcpr fuel cfg mat o splits tapes inputs ≠ .error .fuel := by
  obtain ⟨N, hN⟩ := bound_all (P := fun (x : ParticleInput ℝ × ℕ) N => ∀ fuel, N ≤ fuel →
      run_ion rcpr fuel mat o x.1 (tapes x.2) ≠ .error .fuel) (fun _ _ _ hle hP fuel hf => hP fuel (hle.trans hf)) inputs.zipIdx (by
    rintro ⟨q, i⟩ hx
    have hq : q ∈ inputs := by
      have h2 := (List.mem_zipIdx hx).2.2
      exact h2 ▸ List.getElem_mem _
    cases hb : Particle.from_input q o with
    | error e =>
      refine ⟨0, fun fuel _ he => ?_⟩
      have hE : Ends (Particle.from_input q o) := by
        unfold Particle.from_input
        exact ends_bind (ends_assert _ _) fun _ => ends_bind (ends_assert _ _) fun _ => ends_pure _
      unfold run_ion at he
      rw [hb] at he hE
      cases he
      exact hE rfl
    | ok b =>
      obtain ⟨N, hN⟩ := h q hq i b hb
      refine ⟨N, fun fuel hf he => ?_⟩
      have hN' : single_ion_bca rcpr fuel b mat o (tapes i) ≠ .error .fuel := by
        rw [more_cascade rcpr hf b mat o (tapes i) hN]
        exact hN
      unfold run_ion at he
      rw [hb] at he
      simp only [bind, Except.bind] at he
      cases hr : single_ion_bca rcpr fuel b mat o (tapes i) with
      | error e =>
        rw [hr] at he
        cases he
        exact hN' hr
      | ok r => rw [hr] at he; cases he)
  exact ⟨N, fun fuel hf cfg splits => C130_loop _ _ _ _ _ fun x hx => hN x hx fuel hf⟩

/-- An ion of the input file that the run can follow with Coulomb potentials: positive mass, charge, cutoff energy, a start inside
the material. -/
structure FollowableCoulomb (inside : ℝ → ℝ → Prop) (mat : Material ℝ) (o : Options ℝ) (q : ParticleInput ℝ) : Prop where
  m : 0 < q.m
  Z : 0 < q.Z
  Ec : 0 < q.Ec
  E : 0 ≤ q.E
  Es : 0 ≤ q.Es
  inside : inside q.x q.y
  tables : CoulombWithAll mat o q.interaction_index

/-- **C130, Coulomb potentials.** With nonlocal, equipartition or interpolated stopping, the run of any list of ions in a homogeneous
2D target whose simulated part is cut out of the material ends with probability one. -/
theorem C130_almost_surely {g : HomogeneousMesh2D ℝ} (rcpr : Rcpr ℝ) (o : Options ℝ) {eb : ℝ} (h : CutOut parse g mat n)
    (hrec : o.track_recoils = false ∨ BoundBy mat eb) (heb0 : 0 < eb)
    (hmode : o.electronic_stopping_mode ≠ .LOW_ENERGY_LOCAL) (hC : AllCoulomb o)
    (htab : ∀ j ∈ mat.interaction_index, CoulombWithAll mat o j) (inputs : List (ParticleInput ℝ))
    (hq : ∀ q ∈ inputs, FollowableCoulomb (fun x y => Geo.polygon_contains g.boundary (x, y) = true) mat o q) :
    ∀ᵐ tapes ∂randomTapes, ∃ N, ∀ fuel, N ≤ fuel → ∀ cfg splits,
      physics_loop_run rcpr fuel cfg mat o splits tapes inputs ≠ .error .fuel := by
  filter_upwards [all_tapes C96_random_numbers, all_tapes small_again] with tapes ht ha
  refine campaign_ends_streams rcpr o inputs tapes fun q hm i b hb => ?_
  obtain ⟨e1, e2, e3, e4, e5, e6, e7, e8, e9, e10, e11, e12⟩ := from_input_followed hb
  have hq := hq q hm
  obtain ⟨fuel, out, t, hr⟩ := C125_ends rcpr o (ion := b) h.ready h.sound h.same h.ck h.densities.2.2 h.encloses h.ends hrec heb0 hmode hC
    (e3 ▸ hq.Ec) h.Ec (e8 ▸ hq.tables) htab ⟨e1 ▸ hq.m, e2 ▸ hq.Z, e4 ▸ hq.E, e5 ▸ hq.Es, e11⟩
    (by
      unfold IsInside
      rw [h.geometry, e6, e7]
      exact congrArg Except.ok hq.inside) e9 e10 e12 (tapes i) (ht i) (ha i)
  exact ⟨fuel, by rw [hr]; exact nofun⟩

/-- **C130, screened potentials,** without recoils, weak collisions and free-flight paths: the run of any list of ions ends with
probability one. -/
theorem C130_almost_surely_screened {g : HomogeneousMesh2D ℝ} (rcpr : Rcpr ℝ) (o : Options ℝ) (h : CutOut parse g mat n)
    (hff : o.high_energy_free_flight_paths = false) (hw : o.weak_collision_order = 0) (htr : o.track_recoils = false)
    (hmode : o.electronic_stopping_mode = .LOW_ENERGY_NONLOCAL ∨ o.electronic_stopping_mode = .LOW_ENERGY_EQUIPARTITION)
    (hV : AllScreened o) (inputs : List (ParticleInput ℝ))
    (hq : ∀ q ∈ inputs, Followable (fun x y => Geo.polygon_contains g.boundary (x, y) = true) mat o q) :
    ∀ᵐ tapes ∂randomTapes, ∃ N, ∀ fuel, N ≤ fuel → ∀ cfg splits,
      physics_loop_run rcpr fuel cfg mat o splits tapes inputs ≠ .error .fuel := by
  filter_upwards [all_tapes C96_random_numbers, all_tapes small_again] with tapes ht ha
  refine campaign_ends_streams rcpr o inputs tapes fun q hm i b hb => ?_
  obtain ⟨e1, e2, e3, e4, e5, e6, e7, e8, e9, e10, e11, e12⟩ := from_input_followed hb
  have hq := hq q hm
  exact C125_screened_ends rcpr o (ion := b) h.ready h.sound h.same h.ck h.densities.2.2 h.encloses h.ends hff hw htr hmode hV
    (e3 ▸ hq.Ec) (e8 ▸ hq.tables) ⟨e1 ▸ hq.m, e2 ▸ hq.Z, e4 ▸ (hq.Ec.le.trans hq.E), e5 ▸ hq.Es, e11⟩ (by rw [e3, e4]; exact hq.E)
    (by
      unfold IsInside
      rw [h.geometry, e6, e7]
      exact congrArg Except.ok hq.inside) e9 e10 (tapes i) (ht i) (ha i)

end

end RustBCA
