import Verif.Props.FreePaths
import Verif.Props.Surface
import Verif.Props.Materials
import Verif.Examples.Cascade

/-!
# Non-vacuity of C16, C17, C27-C34, C62

A half space `x > 0` of two species with concentrations 1/4 and 3/4, and particles that move in it,
leave it and enter it.
-/

namespace RustBCA.MaterialExample
open Scalar Spec

noncomputable def mesh : Mesh0D ℝ := ⟨[1/4, 3/4], [1/4, 3/4], 1, 1⟩

noncomputable def mat : Material ℝ where
  m := [1, 4]
  Z := [1, 2]
  Eb := [1, 2]
  Es := [1, 3]
  Ec := [1, 1]
  Ed := [0, 0]
  interaction_index := [0, 0]
  geometry := mesh.toGeom
  surface_binding_model := .AVERAGE
  bulk_binding_model := .INDIVIDUAL

/-- A particle moving inwards, inside the target. -/
noncomputable def inside : Particle ℝ :=
  { CascadeExample.ion with
    pos := ⟨1, 0, 0⟩
    dir := ⟨1, 0, 0⟩
    Es := 1 }

/-- All random numbers one half. -/
noncomputable def halves : Tape ℝ := fun _ => 1/2

/-- Path lengths with free-flight paths off. -/
noncomputable def nearOptions : Options ℝ :=
  { Options.default_options true with weak_collision_order := 2 }

noncomputable def flightOptions : Options ℝ :=
  { Options.default_options true with high_energy_free_flight_paths := true }

theorem concentrations : Concentrations [1/4, 3/4] := by
  refine ⟨?_, by norm_num⟩
  simp; norm_num

theorem tabulated : Tabulated mat ([1/4, 3/4] : List ℝ).length :=
  ⟨le_rfl, le_rfl, le_rfl, le_rfl, le_rfl, le_rfl⟩

theorem spacing : IsSpacing ([1/4, 3/4] : List ℝ).sum 1 := ⟨one_pos, by norm_num⟩

theorem halves_unit : UnitInterval halves := fun _ => by simp only [halves]; norm_num

theorem physical : Physical mat inside :=
  ⟨by simp [mat], by norm_num [inside, CascadeExample.ion], by norm_num [inside, CascadeExample.ion],
    by norm_num [inside, CascadeExample.ion]⟩

/-- C27: with the random number 1/2 the second species is chosen. -/
example : ∃ s, mat.choose 1 0 0 halves = .ok (s, fun n => halves (n + 1)) ∧ s.species_index = 1 := by
  obtain ⟨s, h1, h2, _⟩ := C27_choose mat 1 0 0 halves _ rfl concentrations tabulated
    (halves_unit 0).1 (halves_unit 0).2
  refine ⟨s, h1, (h2 1).mpr ⟨by simp [mesh], ?_, ?_⟩⟩ <;> simp [halves, mesh] <;> norm_num

/-- C28: the average charge number is 7/4. -/
example : mat.average_Z 1 0 0 = .ok (7/4) := by
  rw [(C28_averages mat 1 0 0 _ rfl concentrations).1.1]
  simp only [average, mat, mesh]
  norm_num

/-- C29: a particle of surface energy 1 on this target, AVERAGE model: (1 + 5/2)/2. -/
example : mat.actual_surface_binding_energy inside 1 0 0 = .ok ((1 + 5/2)/2) := by
  rw [C29_positive_targets_partial mat inside 1 0 0 _ rfl concentrations le_rfl (by simp [mat])
    (by simp [mat])]
  simp only [documented, calculation, average, mat, inside, mesh]
  norm_num

/-- C16: three collision geometries, one per annulus. -/
example : ∃ gs t', determine_mfp_phi_impact_parameter inside mat nearOptions halves
    = .ok (({ inside with first_step := false }, gs), t') ∧ gs.length = 3 := by
  obtain ⟨gs, t', h1, h2, _⟩ := C16_annuli inside mat nearOptions halves [1/4, 3/4] 1 rfl (by norm_num) spacing
    rfl halves_unit
  exact ⟨gs, t', h1, h2⟩

/-- The data of the free-flight computation are physical. -/
theorem flightData : ∃ S, FlightData mat inside [1/4, 3/4] [1/4, 3/4] S 1 := by
  obtain ⟨S, h1, h2, h3⟩ := C34_positive mat inside .INTERPOLATED 1 _ physical one_pos rfl rfl
  refine ⟨S, rfl, by norm_num, rfl, concentrations, rfl, one_pos, h1, ?_, ⟨le_rfl, le_rfl⟩,
    by simp [mat], physical, by norm_num [inside, CascadeExample.ion]⟩
  unfold electronicLoss
  have := bragg_nonneg S [1/4, 3/4] (fun s hs => (h3 s hs).le) (by simp; norm_num)
  have e := bragg_eq S [1/4, 3/4] 1
  unfold electronicLoss at e
  linarith

/-- C17: one collision geometry on the free-flight path. -/
example : ∃ g t', determine_mfp_phi_impact_parameter inside mat flightOptions halves
    = .ok (({ inside with first_step := false }, [g]), t') := by
  obtain ⟨S, h⟩ := flightData
  obtain ⟨_, _, g, t', _, _, _, _, _, h1, _⟩ := C17_free_flight_partial mat inside flightOptions
    halves _ _ S 1 1 h spacing rfl halves_unit
  exact ⟨g, t', h1⟩

/-- C34: in every mode two positive cross sections. -/
example (mode : ElectronicStoppingMode) :
    ∃ S, mat.electronic_stopping_cross_sections inside mode = .ok S ∧ S.length = 2 := by
  obtain ⟨S, h1, h2, _⟩ := C34_positive mat inside mode 1 _ physical one_pos rfl rfl
  exact ⟨S, h1, h2⟩

/-- C32: electronic stopping of the particle inside succeeds, and removes energy. -/
example (d : ℝ) (hd : 0 ≤ d) : ∃ q loss,
    subtract_electronic_stopping_energy inside mat d 0 0 0 nearOptions = .ok (q, loss) ∧
    0 ≤ loss ∧ q.E ≤ inside.E := by
  have hin : mat.geometry.inside inside.pos.x inside.pos.y inside.pos.z = .ok true := by
    simp only [mat, Mesh0D.toGeom, inside, lt_real]; norm_num
  obtain ⟨S, h1, _⟩ := C34_positive mat inside .LOW_ENERGY_NONLOCAL 1 [1/4, 3/4] physical one_pos
    rfl rfl
  have hrun : ∃ r, subtract_electronic_stopping_energy inside mat d 0 0 0 nearOptions = .ok r := by
    unfold subtract_electronic_stopping_energy
    have hin' : mat.inside inside.pos.x inside.pos.y inside.pos.z = .ok true := hin
    have e1 : vget mat.interaction_index 0 = .ok 0 := rfl
    have e2 : vget ([[.KR_C]] : List (List (InteractionPotential ℝ))) inside.interaction_index
      = .ok [.KR_C] := rfl
    have e3 : vget ([.KR_C] : List (InteractionPotential ℝ)) 0 = .ok .KR_C := rfl
    have e4 : mat.number_densities inside.pos.x inside.pos.y inside.pos.z = .ok [1/4, 3/4] := rfl
    simp only [hin', bind, Except.bind, pure, Except.pure, nearOptions, Options.default_options, h1,
      rassert, isNaN_real, Bool.not_false, if_true, e1, e2, e3, e4]
    exact ⟨_, rfl⟩
  obtain ⟨⟨q, loss⟩, hr⟩ := hrun
  obtain ⟨h2, h3, h4, h5⟩ := C32_only_removes inside q mat d 0 0 loss 1 0 nearOptions [1/4, 3/4]
    [1/4, 3/4] physical one_pos hd hin rfl rfl rfl (by simp; norm_num) hr
  exact ⟨q, loss, hr, h2, h5⟩

/-- A particle that has just crossed the barrier outwards, with energy enough to leave. -/
noncomputable def leaving : Particle ℝ :=
  { CascadeExample.ion with
    E := 4
    pos_old := ⟨0, 0, 0⟩
    pos := ⟨-2, 0, 0⟩
    dir := ⟨-1, 0, 0⟩
    Es := 1 }

/-- C31: the particle pays 7/4 for leaving. -/
example : ∃ q, surface_binding_energy leaving mat = .ok q ∧ q.E = 4 - 7/4 := by
  have hb : Barrier mat leaving true false := by
    constructor <;> simp [mat, Mesh0D.toGeom, leaving, mesh, lt_real]
  have hs : SurfaceAt mat leaving 2 ⟨1, 0, 0⟩ := by
    refine ⟨by norm_num, by simp [Spec.IsUnit, inner], ?_⟩
    simp [mat, Mesh0D.toGeom, leaving]
    norm_num
  have hE : mat.actual_surface_binding_energy leaving leaving.pos_old.x leaving.pos_old.y
      leaving.pos_old.z = .ok (7/4) := by
    rw [C29_positive_targets_partial mat leaving _ _ _ _ rfl concentrations le_rfl (by simp [mat])
      (by simp [mat])]
    simp only [documented, calculation, average, mat, leaving, mesh]
    norm_num
  obtain ⟨q, h1, _, h2, _⟩ := C31_leaving_partial leaving mat (7/4) 2 ⟨1, 0, 0⟩ hb hs hE (by norm_num)
    (by simp [Spec.IsUnit, leaving, inner]) (by norm_num [leaving])
    (by norm_num [leaving, inner])
  refine ⟨q, h1, ?_⟩
  have := (h2 (by simp [Isotropic, mat]) (by norm_num [normalEnergy, leaving, inner])).energy
  rw [this]; norm_num [leaving]

/-- A particle that has just crossed the barrier inwards. -/
noncomputable def entering : Particle ℝ :=
  { CascadeExample.ion with
    E := 4
    pos_old := ⟨-2, 0, 0⟩
    pos := ⟨-1/2, 0, 0⟩
    dir := ⟨1, 0, 0⟩
    Es := 1 }

/-- C31: having paid on the way out, the particle is not charged again outside. -/
example : surface_binding_energy { leaving with pos_old := ⟨-2, 0, 0⟩, pos := ⟨-3, 0, 0⟩ } mat
    = .ok { leaving with pos_old := ⟨-2, 0, 0⟩, pos := ⟨-3, 0, 0⟩ } := by
  refine C31_no_crossing _ mat (7/4) false ?_ ?_
  · constructor <;> simp [mat, Mesh0D.toGeom, mesh, lt_real]
  · rw [C29_positive_targets_partial mat _ _ _ _ _ rfl concentrations le_rfl (by simp [mat])
      (by simp [mat])]
    simp only [documented, calculation, average, mat, leaving, mesh]
    norm_num

/-- C31, C62: the particle gains 7/4 and goes on inwards. -/
example : (∃ q, surface_binding_energy entering mat = .ok q ∧ q.E = 4 + 7/4) ∧
    ∃ q, surface_binding_energy entering mat = .ok q ∧ 0 < inner q.dir ⟨1, 0, 0⟩ := by
  have hb : Barrier mat entering false true := by
    constructor <;> simp [mat, Mesh0D.toGeom, entering, mesh, lt_real]
    norm_num
  have hs : SurfaceAt mat entering (1/2) ⟨1, 0, 0⟩ := by
    refine ⟨by norm_num, by simp [Spec.IsUnit, inner], ?_⟩
    simp [mat, Mesh0D.toGeom, entering]
    norm_num
  have hE : mat.actual_surface_binding_energy entering entering.pos_old.x entering.pos_old.y
      entering.pos_old.z = .ok (7/4) := by
    rw [C29_positive_targets_partial mat entering _ _ _ _ rfl concentrations le_rfl (by simp [mat])
      (by simp [mat])]
    simp only [documented, calculation, average, mat, entering, mesh]
    norm_num
  have hu : Spec.IsUnit entering.dir := by simp [Spec.IsUnit, entering, inner]
  constructor
  · obtain ⟨q, h1, _, h2⟩ := C31_entering entering mat (7/4) (1/2) ⟨1, 0, 0⟩ hb hs hE (by norm_num)
      hu (by norm_num [entering]) rfl
    exact ⟨q, h1, by rw [(h2 (by simp [Isotropic, mat])).energy]; norm_num [entering]⟩
  · obtain ⟨q, h1, h2, _⟩ := C62_entering_partial entering mat (7/4) (1/2) ⟨1, 0, 0⟩ hb hs hE
      (by norm_num) hu (by norm_num [entering]) rfl (by norm_num [entering, inner])
    exact ⟨q, h1, h2⟩

/-- C30: the hypotheses of the round trip. -/
example : surface_refraction (surface_refraction entering ⟨1, 0, 0⟩ 2) ⟨1, 0, 0⟩ (-2) = entering :=
  C30_round_trip entering ⟨1, 0, 0⟩ 2 (by simp [Spec.IsUnit, entering, inner])
    (by simp [Spec.IsUnit, inner]) (by norm_num [entering]) (by norm_num)
    (by norm_num [entering, inner])

/-- C33: a particle beyond the simulation boundary leaves. -/
example : ∃ q, boundary_condition_planar { leaving with pos := ⟨-20, 0, 0⟩ } mat = .ok q ∧
    q.left = true := by
  have hsim : mat.geometry.inside_simulation_boundary (-20) 0 0 = .ok false := by
    simp only [mat, Mesh0D.toGeom, mesh, lt_real]; norm_num
  have hbar : mat.geometry.inside_energy_barrier (-20) 0 0 = .ok false := by
    simp only [mat, Mesh0D.toGeom, mesh, lt_real]; norm_num
  have hrun : ∃ q, boundary_condition_planar { leaving with pos := ⟨-20, 0, 0⟩ } mat = .ok q := by
    have hsim' : mat.inside_simulation_boundary (-20) 0 0 = .ok false := hsim
    have hbar' : mat.inside_energy_barrier (-20) 0 0 = .ok false := hbar
    unfold boundary_condition_planar
    simp [hsim', hbar', bind, Except.bind, pure, Except.pure, leaving,
      Particle.update_trajectory_tracker, CascadeExample.ion]
  obtain ⟨q, hq⟩ := hrun
  exact ⟨q, hq, (C33_boundary _ q mat false false hsim hbar rfl rfl hq).1.mpr rfl⟩

/-- C79: three species. -/
example : ({ mat with Ec := [3, 1, 2] } : Material ℝ).minimum_cutoff_energy = 1 := by
  obtain ⟨h1, h2⟩ := C79_minimum_cutoff { mat with Ec := [3, 1, 2] } (by simp) (by simp)
  have h3 := h2 1 (by simp)
  simp only [List.mem_cons, List.not_mem_nil, or_false] at h1
  rcases h1 with h1 | h1 | h1
  · rw [h1] at h3; norm_num at h3
  · exact h1
  · rw [h1] at h3; norm_num at h3

end RustBCA.MaterialExample
