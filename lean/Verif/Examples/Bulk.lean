import Verif.Props.Bulk
import Verif.Examples.Range

/-! # C88: a target, an ion and options that meet the hypotheses -/

namespace RustBCA.BulkExample
open Scalar Spec

/-- The half space `z < 1/2`; nothing outside of it is simulated. -/
noncomputable def geom : Geom ℝ where
  get_densities _ _ _ := .ok [1]
  get_ck _ _ _ := .ok 1
  get_total_density _ _ _ := .ok 1
  get_concentrations _ _ _ := .ok [1]
  inside _ _ z := .ok (z <. 0.5)
  inside_simulation_boundary _ _ z := .ok (z <. 0.5)
  inside_energy_barrier _ _ z := .ok (z <. 0.5)
  closest_point x y _ := .ok (x, y, 0.5)

noncomputable def mat : Material ℝ := { CascadeExample.mat with geometry := geom }

noncomputable def options : Options ℝ :=
  { Options.default_options true with
    interaction_potential := [[.COULOMB 1 1]]
    scattering_integral := [[.GAUSS_MEHLER 10]]
    weak_collision_order := 3
    electronic_stopping_mode := .LOW_ENERGY_EQUIPARTITION }

theorem target_sound : SoundTarget mat where
  m := EnergyExample.target_sound.m
  Z := EnergyExample.target_sound.Z
  Ec := EnergyExample.target_sound.Ec
  Es := EnergyExample.target_sound.Es
  Eb := EnergyExample.target_sound.Eb
  concentrations := EnergyExample.target_sound.concentrations
  densities := EnergyExample.target_sound.densities
  ck := EnergyExample.target_sound.ck

theorem target_ready : ReadyTarget mat 1 where
  tabulated := by constructor <;> simp [mat, CascadeExample.mat]
  densities := fun _ _ _ => ⟨[1], rfl, rfl⟩
  concentrations := fun _ _ _ => ⟨[1], rfl, rfl, by simp [Concentrations]⟩
  ck := fun _ _ _ => ⟨1, rfl⟩
  inside := fun _ _ _ => ⟨_, rfl⟩
  boundary := fun _ _ _ => ⟨_, rfl⟩
  barrier := fun _ _ _ => ⟨_, rfl⟩
  closest := fun _ _ _ => ⟨_, rfl⟩

theorem same : SameEverywhere mat [1] 1 := ⟨fun _ _ _ => rfl, fun _ _ _ => rfl, rfl⟩

theorem bound : BoundBy mat (1/4) := by
  intro x y z cs h
  have : [(1:ℝ)] = cs := by injection h
  subst this
  simp [mat, CascadeExample.mat]

noncomputable def σ : ℝ := pathStopping .LOW_ENERGY_EQUIPARTITION 1 [1] [1] 1 1 (1/2)

theorem σ_pos : 0 < σ :=
  ((C100_low_energy .LOW_ENERGY_EQUIPARTITION (Or.inr rfl) 1 one_pos [1] [1] rfl (by simp) (by simp) (by simp) 1 1 one_pos
    one_pos).1 1).pos (1/2) (by norm_num) (by norm_num)

theorem tables : CoulombWithAll mat options 0 := by
  intro k j h
  refine ⟨[.COULOMB 1 1], [.GAUSS_MEHLER 10], .GAUSS_MEHLER 10, rfl, ⟨1, 1, ?_⟩, rfl, ?_, Or.inr ⟨10, rfl⟩⟩ <;>
  · have : j = 0 := by
      have := List.mem_of_getElem? h
      simpa [mat, CascadeExample.mat] using this
    subst this
    rfl

/-- Every ion of any energy `E` in this target ends, with at most `4 E + 1` particles. -/
example (rcpr : Rcpr ℝ) (E : ℝ) (hE : 0 < E) : ∃ fuel, ∀ tape, Unit01 tape → ∃ out tape',
    single_ion_bca rcpr fuel { CascadeExample.ion with E := E } mat options tape = .ok (out, tape') ∧
      (out.length : ℝ) ≤ E/(1/4) + 1 := by
  obtain ⟨f1, h1⟩ := exists_nat_ge (E/(σ*1) + 3)
  obtain ⟨f2, h2⟩ := exists_nat_ge (E/(1/4) + 2)
  refine ⟨max f1 f2, fun tape ht => ?_⟩
  refine C88_run_coulomb (s := 1) (σ := σ) (ion := { CascadeExample.ion with E := E }) rcpr options target_ready target_sound same one_pos
    (by simp) ⟨one_pos, by norm_num⟩ (fun _ _ _ h => h) (fun x y z h => h) bound (by norm_num) rfl rfl
    (Or.inr rfl) ?_ σ_pos ⟨?_, le_refl _⟩ ?_ tables ?_ ?_ hE ?_ rfl rfl rfl (max f1 f2) ?_ ?_ tape ht
  · intro row hrow V hV
    simp only [options, List.mem_singleton] at hrow
    subst hrow
    exact ⟨1, 1, by simpa using hV⟩
  · simp [CascadeExample.ion]
  · intro i Z m Ec hZ hm hEc
    have h1 : Z = 1 := by simpa [mat, CascadeExample.mat] using List.mem_of_getElem? hZ
    have h2 : m = 1 := by simpa [mat, CascadeExample.mat] using List.mem_of_getElem? hm
    have h3 : Ec = 1/2 := by simpa [mat, CascadeExample.mat] using List.mem_of_getElem? hEc
    subst h1 h2 h3
    exact ⟨by norm_num, le_refl _⟩
  · intro j hj
    have : j = 0 := by simpa [mat, CascadeExample.mat] using hj
    subst this
    exact tables
  · exact ⟨EnergyExample.ion_sound.m, EnergyExample.ion_sound.Z, hE.le, EnergyExample.ion_sound.Es, EnergyExample.ion_sound.dir⟩
  · show Except.ok ((0:ℝ) <. 0.5) = Except.ok true
    congr 1
    rw [lt_real]; norm_num
  · refine h1.trans ?_
    exact_mod_cast le_max_left _ _
  · refine h2.trans ?_
    exact_mod_cast le_max_right _ _

end RustBCA.BulkExample
