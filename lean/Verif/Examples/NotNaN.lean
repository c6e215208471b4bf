import Verif.Props.NotNaN
import Verif.Model.Lib

/-!
Examples for C122 with Rust's `f64`: an ion that flies past a target, with a finite or an infinite energy, is reported
with that energy; one whose energy is NaN is not reported at all.
-/

set_option linter.unusedSimpArgs false

namespace RustBCA.NotNaNExample
open Scalar Spec

variable {F : Type} [Scalar F]

/-- A target of density 1 that is nowhere near: no point is inside, every point is beyond the simulation boundary. -/
def far : Geom F where
  get_densities _ _ _ := .ok [1.0]
  get_ck _ _ _ := .ok 1.0
  get_total_density _ _ _ := .ok 1.0
  get_concentrations _ _ _ := .ok [1.0]
  inside _ _ _ := .ok false
  inside_simulation_boundary _ _ _ := .ok false
  inside_energy_barrier _ _ _ := .ok false
  closest_point x y z := .ok (x, y, z)

def mat : Material F where
  m := [1.0]
  Z := [1.0]
  Eb := [0.0]
  Es := [0.0]
  Ec := [1.0]
  Ed := [0.0]
  interaction_index := [0]
  geometry := far
  surface_binding_model := .AVERAGE
  bulk_binding_model := .INDIVIDUAL

/-- An ion of energy `E`. -/
def ion (E : F) : Particle F := ion_literal 1.0 1.0 E 1.0 0.0 0.0 0.0 0.0 0.0 1.0 0.0 1.0 0 ⟨0.0, 0.0, 0.0⟩

def zeros : Tape F := fun _ => 0.0

theorem flies_past (rcpr : Rcpr F) (E : F) (hE : isNaN E = false) (h1 : ((0.0 : F) <. 0.0 + 1.0) = true) :
    ∃ q rest, single_ion_bca rcpr 2 (ion E) mat (Options.default_options true) zeros = .ok ([q], rest) ∧ q.E = E ∧
      q.left = true := by
  obtain ⟨q, rest, hq, h2, h3, h4⟩ : ∃ q rest, trajectory_step rcpr mat (Options.default_options true) (ion E) [] zeros =
      .ok ((q, []), rest) ∧ q.E = E ∧ q.left = true ∧ q.stopped = false := by
    simp only [trajectory_step, determine_mfp_phi_impact_parameter, draw_phis, collectN, Material.mfp,
      Material.total_number_density, mat, far, bind, StateT.bind, Functor.map, Except.map,
      Except.bind, pure, StateT.pure, Except.pure, liftM, monadLift, MonadLift.monadLift,
      StateT.lift, random, Options.default_options, Bool.false_eq_true, if_false, if_true,
      MeanFreePathModel.isGaseous, List.nil_append, List.zip_cons_cons, List.zip_nil_right,
      List.map_cons, List.map_nil, List.zipIdx_cons, List.zipIdx_nil, List.take_succ_cons, List.take_zero, forFold,
      collision_step, choose_collision_partner, Material.choose, Material.get_cumulative_concentrations,
      Material.cumulative, Material.choose_index, zeros, h1, Material.species, vget, List.getElem?_cons_zero,
      Material.inside, Material.inside_energy_barrier, Bool.false_and, ion, ion_literal, finish_step,
      subtract_electronic_stopping_energy, rassert, Particle.advance_E, hE, Bool.not_false,
      Particle.update_energy_loss_tracker, Bool.and_false, boundary_condition_planar,
      Material.inside_simulation_boundary, Particle.update_trajectory_tracker, Particle.advance_track_trajectories,
      Bool.not_true, Particle.advance_stopped, Particle.advance_left]
    refine ⟨_, _, rfl, ?_, ?_, ?_⟩ <;> simp
  refine ⟨q, rest, ?_, h2, h3⟩
  have hrun : ∀ ps i, TrajState.running (⟨ion E, ps, i⟩ : TrajState F) = true := by
    intro ps i; simp [TrajState.running, ion, ion_literal]
  have hstop : ∀ ps i, TrajState.running (⟨q, ps, i⟩ : TrajState F) = false := by
    intro ps i; simp [TrajState.running, h3, h4]
  simp only [single_ion_bca, whileFuel, cascade_body, popLast, List.getLast?_singleton,
    List.dropLast_singleton, bind, StateT.bind, Except.bind, pure, StateT.pure, Except.pure, liftM,
    monadLift, MonadLift.monadLift, StateT.lift, hrun, if_true, traj_body, hq, hstop,
    Bool.false_eq_true, if_false, Nat.zero_lt_one, decide_true, List.length_nil, lt_self_iff_false,
    decide_false, List.nil_append]

/-- A NaN energy is refused. -/
theorem nan_refused (rcpr : Rcpr F) (E : F) (hE : isNaN E = true) (h1 : ((0.0 : F) <. 0.0 + 1.0) = true) :
    ∃ message, single_ion_bca rcpr 2 (ion E) mat (Options.default_options true) zeros = .error (.panic message) := by
  obtain ⟨message, hm⟩ : ∃ message, trajectory_step rcpr mat (Options.default_options true) (ion E) [] zeros =
      .error (.panic message) := by
    simp only [trajectory_step, determine_mfp_phi_impact_parameter, draw_phis, collectN, Material.mfp,
      Material.total_number_density, mat, far, bind, StateT.bind, Functor.map, Except.map,
      Except.bind, pure, StateT.pure, Except.pure, liftM, monadLift, MonadLift.monadLift,
      StateT.lift, random, Options.default_options, Bool.false_eq_true, if_false, if_true,
      MeanFreePathModel.isGaseous, List.nil_append, List.zip_cons_cons, List.zip_nil_right,
      List.map_cons, List.map_nil, List.zipIdx_cons, List.zipIdx_nil, List.take_succ_cons, List.take_zero, forFold,
      collision_step, choose_collision_partner, Material.choose, Material.get_cumulative_concentrations,
      Material.cumulative, Material.choose_index, zeros, h1, Material.species, vget, List.getElem?_cons_zero,
      Material.inside, Material.inside_energy_barrier, Bool.false_and, ion, ion_literal, finish_step,
      subtract_electronic_stopping_energy, rassert, Particle.advance_E, hE, Bool.not_true, rpanic]
    exact ⟨_, rfl⟩
  refine ⟨message, ?_⟩
  have hrun : ∀ ps i, TrajState.running (⟨ion E, ps, i⟩ : TrajState F) = true := by
    intro ps i; simp [TrajState.running, ion, ion_literal]
  simp only [single_ion_bca, whileFuel, cascade_body, popLast, List.getLast?_singleton,
    List.dropLast_singleton, bind, StateT.bind, Except.bind, pure, StateT.pure, Except.pure, liftM,
    monadLift, MonadLift.monadLift, StateT.lift, hrun, if_true, traj_body, hm,
    Bool.false_eq_true, if_false, Nat.zero_lt_one, decide_true]

theorem one_onGrid : OnGrid 1 := ⟨1, 0, by norm_num, by norm_num, by norm_num⟩

theorem toX_lit (L : Libm) {x : ℝ} (hx : OnGrid x) (hs : |x| < 2) (neg : Bool) :
    B64.toX (B64.ofReal neg x) = .fin x := by
  have h := B64.toX_ofReal (neg := neg) (x := x) (by
    rw [ieeeRound_exact hx]
    exact hs.trans (lt_of_eq_of_lt (zpow_one 2).symm (zpow_lt_zpow_right₀ (by norm_num) (by norm_num))))
  rwa [ieeeRound_exact hx] at h

theorem zero_lt_one (L : Libm) : ((0.0 : Ieee L) <. 0.0 + 1.0) = true := by
  have e0 : B64.toX (0.0 : Ieee L) = .fin 0 := by
    have := toX_lit L (x := (0.0:ℝ)) (by rw [show (0.0:ℝ) = 0 by norm_num]; exact isF64_zero.1) (by norm_num) false
    rw [← show (0.0:ℝ) = 0 by norm_num, ← this]; rfl
  have e1 : B64.toX (1.0 : Ieee L) = .fin 1 := by
    have := toX_lit L (x := (1.0:ℝ)) (by rw [show (1.0:ℝ) = 1 by norm_num]; exact one_onGrid) (by norm_num) false
    rw [← show (1.0:ℝ) = 1 by norm_num, ← this]; rfl
  have e2 : B64.toX (0.0 + 1.0 : Ieee L) = .fin 1 := by
    show B64.toX (B64.ofX _ (XReal.add (B64.toX (0.0 : Ieee L)) (B64.toX (1.0 : Ieee L)))) = _
    rw [e0, e1]
    show B64.toX (B64.ofReal _ (0 + 1)) = _
    rw [zero_add]
    exact toX_lit L one_onGrid (by norm_num) _
  show XReal.lt (B64.toX (0.0 : Ieee L)) (B64.toX (0.0 + 1.0 : Ieee L)) = true
  rw [e0, e2]
  simp [XReal.lt]

/-- Energies 1 and infinity are reported, a NaN is not. -/
example (L : Libm) (rcpr : Rcpr (Ieee L)) (E : Ieee L) (hE : E = 1.0 ∨ E = B64.pinf) :
    ∃ q rest, single_ion_bca rcpr 2 (ion E) mat (Options.default_options true) zeros = .ok ([q], rest) ∧ q.E = E ∧
      SettledEnergy mat q := by
  obtain ⟨q, rest, h, h1, -⟩ := flies_past rcpr E
    (by rcases hE with rfl | rfl; exacts [B64.not_nan_ofReal _ _, rfl]) (zero_lt_one L)
  exact ⟨q, rest, h, h1, C122_ion (ieee_zero_not_nan L) _ _ _ _ _ _ _ _ rfl rfl h q (by simp)⟩

example (L : Libm) (rcpr : Rcpr (Ieee L)) :
    ∃ message, single_ion_bca rcpr 2 (ion B64.nan) mat (Options.default_options true) zeros =
      .error (.panic message) := nan_refused rcpr _ rfl (zero_lt_one L)

end RustBCA.NotNaNExample
