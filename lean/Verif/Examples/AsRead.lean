import Verif.Props.AsRead
import Verif.Examples.Main

/-!
# Non-vacuity of C113
-/

namespace RustBCA.AsReadExample
open Scalar Spec InputExample

/-- Tungsten with hydrogen, one displacement energy for both. -/
noncomputable def mp : MaterialParameters ℝ where
  energy_unit := "EV"
  mass_unit := "AMU"
  Eb := [3, 2]
  Es := [8, 4]
  Ec := [1, 0.5]
  Ed := [25]
  Z := [74, 1]
  m := [184, 1]
  interaction_index := []
  surface_binding_model := .INDIVIDUAL
  bulk_binding_model := .INDIVIDUAL

/-- The file is accepted; both species get 25 eV and index 0. -/
theorem accepts (t : Tape ℝ) : ∃ acc t', input ext sampler false (options .KR_C .DEFAULTNEWTON)
      (Material.new ext mp (.ok CascadeExample.geom)) params t = .ok (acc, t') ∧
    acc.material.Ed = [25*EV ℝ, 25*EV ℝ] ∧ acc.material.Es = [8*EV ℝ, 4*EV ℝ] ∧
    acc.material.interaction_index = [0, 0] := by
  have hn : Material.new ext mp (.ok CascadeExample.geom) = .ok ⟨[184*AMU ℝ, 1*AMU ℝ], [74, 1],
      [3*EV ℝ, 2*EV ℝ], [8*EV ℝ, 4*EV ℝ], [1*EV ℝ, 0.5*EV ℝ], [25*EV ℝ], [], CascadeExample.geom,
      .INDIVIDUAL, .INDIVIDUAL⟩ := rfl
  refine ⟨⟨ions, ⟨[184*AMU ℝ, 1*AMU ℝ], [74, 1], [3*EV ℝ, 2*EV ℝ], [8*EV ℝ, 4*EV ℝ],
    [1*EV ℝ, 0.5*EV ℝ], [25*EV ℝ, 25*EV ℝ], [0, 0], CascadeExample.geom, .INDIVIDUAL, .INDIVIDUAL⟩,
    options .KR_C .DEFAULTNEWTON, ⟨ANGSTROM ℝ, EV ℝ, AMU ℝ⟩⟩, t, ?_, rfl, rfl, rfl⟩
  rw [hn]
  refine input_ok_of (options := options .KR_C .DEFAULTNEWTON) (p' := params) (mi := 0) (pi := 0)
      (arr := ions) (lu := ANGSTROM ℝ) (eu := EV ℝ) (mu := AMU ℝ) Nat.one_pos Nat.one_pos ?_ ?_ ?_ ?_ ?_ rfl
      Nat.one_pos rfl Nat.one_pos rfl rfl rfl rfl ?_
  · rfl
  · rfl
  · rfl
  · rfl
  · rfl
  · simp only [make_particle_inputs, params, forFold, List.length_cons, List.length_nil,
        List.range, List.range.loop, vget, List.getElem?_cons_zero, List.getElem?_cons_succ,
        bind, StateT.bind, liftM, monadLift, MonadLift.monadLift, StateT.lift, Except.bind,
        pure, Except.pure, StateT.pure, collectN, make_particle_input, draw, draw_ux, half_ne,
        quarter_ne, rassert, ions, Bool.not_false, if_true, List.nil_append, List.append_nil,
        List.cons_append]

/-- `C113_target` on it: the one displacement energy holds for each of the two species. -/
example (t : Tape ℝ) : ∃ acc t', input ext sampler false (options .KR_C .DEFAULTNEWTON)
      (Material.new ext mp (.ok CascadeExample.geom)) params t = .ok (acc, t') ∧
    acc.material.Ed.length = 2 ∧ ∀ e ∈ acc.material.Ed, e = 25*EV ℝ := by
  obtain ⟨acc, t', run, -⟩ := accepts t
  obtain ⟨-, eu, mu, g, h1, -, -, h⟩ := C113_target run
  obtain rfl : EV ℝ = eu := Except.ok.inj (show Except.ok (EV ℝ) = .ok eu from h1)
  exact ⟨acc, t', run, h.displacement_one 25 rfl⟩

/-- The hypothesis of `C113_program` is met by the run of C78's example. -/
example (rcpr : Rcpr ℝ) (parry : Parry ℝ) : ∃ s,
    main (MainExample.world rcpr parry) ["RustBCA", "0D", "target.toml"] = .ok s :=
  MainExample.run rcpr parry

/-- An ion that starts. -/
example (o : Options ℝ) : ∃ b, Particle.from_input (F := ℝ)
    ⟨1, 1, 1, 0, 0, 0, 0, 0, 0, 3, 4, 0, 1, 0⟩ o = .ok b ∧ b.E = 1 ∧ b.pos_origin = ⟨0, 0, 0⟩ := by
  obtain ⟨b, h⟩ := (C46_accepts_iff (⟨1, 1, 1, 0, 0, 0, 0, 0, 0, 3, 4, 0, 1, 0⟩ : ParticleInput ℝ) o).2
    ⟨by norm_num, by simp only [zero_div, abs_zero]; norm_num⟩
  exact ⟨b, h, (C113_start h).energy, (C113_start h).origin⟩

end RustBCA.AsReadExample
