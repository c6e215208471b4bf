import Verif.Props.Input
import Verif.Examples.Cascade

/-!
# Inputs that are accepted

Non-vacuity of C42-C46, and the refutation of C43.
-/

namespace RustBCA.InputExample
open Scalar Spec

/-- Two species, one ion each. -/
noncomputable def params : ParticleParameters ℝ where
  length_unit := "ANGSTROM"
  energy_unit := "EV"
  mass_unit := "AMU"
  N := [1, 1]
  m := [4, 1]
  Z := [2, 1]
  E := [.POINT 1000, .POINT 500]
  Ec := [1, 2]
  Es := [0, 1]
  pos := [(.POINT (-4), .POINT 0, .POINT 0), (.POINT (-5), .POINT 1, .POINT 0)]
  dir := [(.POINT 0.5, .POINT 0.5, .POINT 0), (.POINT 0.25, .POINT 0.5, .POINT 0)]
  interaction_index := [0, 0]

noncomputable def sampler : Sampler ℝ := ⟨fun _ _ => random, fun _ _ => random⟩

/-- Options the program accepts, for any potential and root finder that pass its check. -/
noncomputable def options (V : InteractionPotential ℝ) (rf : Rootfinder ℝ) : Options ℝ :=
  { Options.default_options true with
    interaction_potential := [[V]]
    scattering_integral := [[.GAUSS_LEGENDRE]]
    root_finder := [[rf]] }

noncomputable def ext : Ext ℝ := ⟨fun _ => none, fun _ _ => false, fun _ _ => none⟩

theorem half_ne : ((0.5:ℝ) ==. 1.0) = false := by rw [eq_real_false]; norm_num
theorem quarter_ne : ((0.25:ℝ) ==. 1.0) = false := by rw [eq_real_false]; norm_num

/-- `input` assembled from its parts. -/
theorem input_ok_of {F : Type} [Scalar F] {ext : Ext F} {sampler : Sampler F} {cpr : Bool}
    {options : Options F} {m0 m1 : Material F} {p p' : ParticleParameters F} {t t' : Tape F}
    {mi pi : Nat} {lu eu mu : F} {arr : List (ParticleInput F)}
    (h1 : 0 < options.num_threads) (h2 : 0 < options.num_chunks)
    (h3 : complete_material m0 = .ok m1) (h4 : check_options options = .ok ())
    (h5 : check_matrices options = .ok ()) (h6 : check_compatibility cpr options = .ok ())
    (h7 : complete_particles p = .ok p') (h8 : max_unwrap m1.interaction_index = .ok mi)
    (h9 : mi < options.interaction_potential.length)
    (h10 : max_unwrap p'.interaction_index = .ok pi)
    (h11 : pi < options.interaction_potential.length)
    (h12 : length_unit_of ext p'.length_unit = .ok lu)
    (h13 : energy_unit_of ext p'.energy_unit = .ok eu)
    (h14 : mass_unit_of ext p'.mass_unit = .ok mu) (h15 : options.use_hdf5 = false)
    (h16 : make_particle_inputs sampler lu eu mu p' t = .ok (arr, t')) :
    input ext sampler cpr options (.ok m0) p t = .ok (⟨arr, m1, options, ⟨lu, eu, mu⟩⟩, t') := by
  unfold input
  simp only [bind, StateT.bind, liftM, monadLift, MonadLift.monadLift, StateT.lift, Except.bind,
    pure, Except.pure, rassert, h1, h2, h3, h4, h5, h6, h7, h8, h9, h10, h11, h12, h13, h14, h15,
    decide_true, if_true, Bool.false_eq_true, if_false, h16, StateT.pure]

/-- The ions generated for `params`. -/
noncomputable def ions : List (ParticleInput ℝ) :=
  [⟨4*AMU ℝ, 2, 1000*EV ℝ, 1*EV ℝ, 0*EV ℝ, (-4)*ANGSTROM ℝ, 0*ANGSTROM ℝ, 0*ANGSTROM ℝ,
      0.5*ANGSTROM ℝ, 0.5*ANGSTROM ℝ, 0*ANGSTROM ℝ, 0, 1.0, 0⟩,
    ⟨1*AMU ℝ, 1, 500*EV ℝ, 2*EV ℝ, 1*EV ℝ, (-5)*ANGSTROM ℝ, 1*ANGSTROM ℝ, 0*ANGSTROM ℝ,
      0.25*ANGSTROM ℝ, 0.5*ANGSTROM ℝ, 0*ANGSTROM ℝ, 0, 1.0, 0⟩]

/-- The run: accepted whenever the pair passes the compatibility table. -/
theorem accepted (cpr : Bool) (V : InteractionPotential ℝ) (rf : Rootfinder ℝ)
    (h1 : rootfinder_enabled cpr rf = true) (h2 : compatible V rf = true) (t : Tape ℝ) :
    ∃ acc, input ext sampler cpr (options V rf) (.ok CascadeExample.mat) params t = .ok (acc, t) ∧
      acc.options = options V rf ∧ acc.material.interaction_index = [0] ∧
      acc.particle_input_array.map (·.interaction_index) = [0, 0] ∧
      acc.particle_input_array.length = 2 := by
  refine ⟨?w, ?a, ?b⟩
  case a =>
    refine input_ok_of (options := options V rf) (p' := params) (m1 := CascadeExample.mat) (mi := 0) (pi := 0)
      (arr := ions) (lu := ANGSTROM ℝ) (eu := EV ℝ) (mu := AMU ℝ) Nat.one_pos Nat.one_pos ?_ ?_ ?_ ?_ ?_ rfl
      Nat.one_pos rfl Nat.one_pos rfl rfl rfl rfl ?_
    · rfl
    · rfl
    · rfl
    · simp only [check_compatibility, options, forFold, List.zip_cons_cons, List.zip_nil_right, h1,
        h2, rassert, bind, Except.bind, pure, Except.pure, if_true]
    · rfl
    · simp only [make_particle_inputs, params, forFold, List.length_cons, List.length_nil,
        List.range, List.range.loop, vget, List.getElem?_cons_zero, List.getElem?_cons_succ,
        bind, StateT.bind, liftM, monadLift, MonadLift.monadLift, StateT.lift, Except.bind,
        pure, Except.pure, StateT.pure, collectN, make_particle_input, draw, draw_ux, half_ne,
        quarter_ne, rassert, ions, Bool.not_false, if_true, List.nil_append, List.append_nil,
        List.cons_append]
  case b => exact ⟨rfl, rfl, rfl, rfl⟩

/-- C42 on this run: the pair (ion, target) has a root finder, and it is the one configured. -/
example (t : Tape ℝ) : ∃ acc, input ext sampler false (options .KR_C .DEFAULTNEWTON)
      (.ok CascadeExample.mat) params t = .ok (acc, t) ∧
    ∃ r, Entry acc.options.root_finder 0 0 r := by
  obtain ⟨acc, run, h1, h2, h3, -⟩ := accepted false .KR_C .DEFAULTNEWTON rfl rfl t
  exact ⟨acc, run, (C42_lookups_in_range run 0 (by rw [h3]; simp) 0 (by rw [h2]; simp)).2.2⟩

/-- **C43 refuted**: `input` accepts FOUR_EIGHT with the Newton root finder (as well as WW and
KRC_MORSE), and then every collision with an accepted ion panics because no derivative is
implemented. -/
theorem C43_refuted (V : InteractionPotential ℝ)
    (hV : V = .WW ∨ (∃ D al r0 k x0, V = .KRC_MORSE D al r0 k x0) ∨ ∃ al be, V = .FOUR_EIGHT al be)
    (t : Tape ℝ) :
    ∃ acc, input ext sampler false (options V .DEFAULTNEWTON) (.ok CascadeExample.mat) params t =
        .ok (acc, t) ∧
      ∃ q ∈ acc.particle_input_array, ∃ j ∈ acc.material.interaction_index,
        ∀ (rcpr : Rcpr ℝ) (p1 p2 : Particle ℝ) (g : BinaryCollisionGeometry ℝ),
          p1.interaction_index = q.interaction_index → p2.interaction_index = j →
          ∃ e, NotImplemented e ∧
            distance_of_closest_approach rcpr p1 p2 g acc.options = .error e := by
  have hc : compatible V .DEFAULTNEWTON = true := by
    rcases hV with rfl | ⟨D, al, r0, k, x0, rfl⟩ | ⟨al, be, rfl⟩ <;> rfl
  obtain ⟨acc, run, h1, h2, h3, h4⟩ := accepted false V .DEFAULTNEWTON rfl hc t
  have hlen : 0 < acc.particle_input_array.length := by omega
  refine ⟨acc, run, acc.particle_input_array[0], List.getElem_mem hlen, 0, by rw [h2]; simp, ?_⟩
  intro rcpr p1 p2 g e1 e2
  have e3 : (acc.particle_input_array[0]).interaction_index = 0 := by
    have : (acc.particle_input_array.map (·.interaction_index))[0]'(by simpa using hlen) = 0 := by
      simp [h3]
    simpa using this
  rw [e3] at e1
  refine ⟨_, ?_, C43_newton_never_works rcpr p1 p2 g acc.options V .DEFAULTNEWTON hV (Or.inl rfl) ?_ ?_⟩
  · simp [NotImplemented]
  · rw [h1, e1, e2]; exact ⟨[V], rfl, rfl⟩
  · rw [h1, e1, e2]; exact ⟨[.DEFAULTNEWTON], rfl, rfl⟩

/-- The hypotheses of `C43_rootfinder_implemented_partial` are met by screened potentials with a
Newton root finder: the energy is finite and `CanSolve` holds. -/
example : CanSolve (.KR_C : InteractionPotential ℝ) .DEFAULTNEWTON ∧
    CanSolve (.LENNARD_JONES_12_6 1 1 : InteractionPotential ℝ) (.POLYNOMIAL 0) ∧
    ((1:ℝ)*1/(1 + 1) <. infinity) = true := by
  refine ⟨trivial, trivial, ?_⟩
  rw [lt_real, show (infinity : ℝ) = 10^400 from rfl]; calc (1:ℝ)*1/(1+1) ≤ 1 := by norm_num
    _ < 10^400 := one_lt_pow₀ (by norm_num) (by norm_num)

/-- C43: an accepted run with a pair that is looked up, and pairs that must be refused. -/
example (t : Tape ℝ) : (∃ acc, input ext sampler false (options .KR_C .DEFAULTNEWTON)
      (.ok CascadeExample.mat) params t = .ok (acc, t)) ∧
    MustRefuse (.MORSE 1 1 1 : InteractionPotential ℝ) .DEFAULTNEWTON ∧
    MustRefuse (.KR_C : InteractionPotential ℝ) (.POLYNOMIAL 0) := by
  obtain ⟨acc, run, -⟩ := accepted false .KR_C .DEFAULTNEWTON rfl rfl t
  exact ⟨⟨acc, run⟩, by simp [MustRefuse], by simp [MustRefuse]⟩

/-- C46: an accepted input. -/
example (o : Options ℝ) : ∃ b, Particle.from_input (F := ℝ)
    ⟨1, 1, 1, 0, 0, 0, 0, 0, 0, 3, 4, 0, 1, 0⟩ o = .ok b := by
  rw [C46_accepts_iff]
  constructor
  · norm_num
  · simp only [zero_div, abs_zero]; norm_num

/-- C64: the hypotheses of `C64_refuted` are met by an accepted input: one target species and two
ion species... with a single index each, both 1, and a 1x1 matrix. -/
example (t : Tape ℝ) : ∃ acc, input ext sampler false (options .KR_C .DEFAULTNEWTON)
      (.ok { CascadeExample.mat with interaction_index := [1] })
      { params with interaction_index := [1] } t = .ok (acc, t) ∧
    ∀ q ∈ acc.particle_input_array, q.interaction_index = 0 := by
  obtain ⟨acc, run, -⟩ := accepted false .KR_C .DEFAULTNEWTON rfl rfl t
  have run' : input ext sampler false (options .KR_C .DEFAULTNEWTON)
      (.ok { CascadeExample.mat with interaction_index := [1] })
      { params with interaction_index := [1] } t = .ok (acc, t) := run
  exact ⟨acc, run', (C64_refuted run' rfl rfl).2⟩

end RustBCA.InputExample
