import Verif.Props.LocalEnds
import Verif.Examples.BulkScreened

/-! # C127: a hydrogen gas that is twice as dense beyond the origin -/

set_option linter.unusedSimpArgs false

namespace RustBCA.LocalEndsExample
open Scalar Spec SpecialExample BulkScreenedExample

noncomputable def geom : Geom ℝ where
  get_densities x _ _ := .ok [if x <. 0 then 1 else 2]
  get_ck x _ _ := .ok (if x <. 0 then 3 else 1)
  get_total_density x _ _ := .ok (if x <. 0 then 1 else 2)
  get_concentrations _ _ _ := .ok [1]
  inside _ _ _ := .ok true
  inside_simulation_boundary _ _ _ := .ok true
  inside_energy_barrier _ _ _ := .ok true
  closest_point x y z := .ok (x, y, z)

noncomputable def mat : Material ℝ := { BulkScreenedExample.mat with geometry := geom, Eb := [1] }

noncomputable def options : Options ℝ :=
  { BulkScreenedExample.options with
    electronic_stopping_mode := .LOW_ENERGY_LOCAL
    mean_free_path_model := .GASEOUS
    weak_collision_order := 3
    track_recoils := true }

theorem target_sound : SoundTarget mat where
  m := BulkScreenedExample.target_sound.m
  Z := BulkScreenedExample.target_sound.Z
  Ec := BulkScreenedExample.target_sound.Ec
  Es := BulkScreenedExample.target_sound.Es
  Eb := by simp [mat]
  concentrations := BulkScreenedExample.target_sound.concentrations
  densities := by
    intro x y z ns h n hn
    cases h
    rw [List.mem_singleton] at hn
    subst hn
    split <;> norm_num
  ck := by
    intro x y z c h
    cases h
    split <;> norm_num

theorem target_ready : ReadyTarget mat 1 where
  tabulated := by constructor <;> simp [mat, BulkScreenedExample.mat, SpecialRunExample.mat, CascadeExample.mat]
  densities := fun _ _ _ => ⟨_, rfl, rfl⟩
  concentrations := fun _ _ _ => ⟨[1], rfl, rfl, by simp [Concentrations]⟩
  ck := fun _ _ _ => ⟨_, rfl⟩
  inside := fun _ _ _ => ⟨_, rfl⟩
  boundary := fun _ _ _ => ⟨_, rfl⟩
  barrier := fun _ _ _ => ⟨_, rfl⟩
  closest := fun _ _ _ => ⟨_, rfl⟩

theorem thin : NowhereThin mat 1 1 where
  densities := by
    intro x y z ns h
    cases h
    refine ⟨rfl, ?_⟩
    simp only [List.sum_cons, List.sum_nil, add_zero]
    split <;> norm_num
  ck := by
    intro x y z c h
    cases h
    split <;> norm_num

theorem bound : BoundBy mat 1 := by
  intro x y z cs h
  cases h
  simp [mat]

/-- C127: there is a number of passes after which the run of a hydrogen ion of any energy has ended, with all its recoils, in
this gas of uneven density, with weak collisions. -/
example (rcpr : Rcpr ℝ) (E : ℝ) (hE : unit ≤ E) : ∃ N, ∀ fuel, N ≤ fuel → ∀ tape, OpenUnit tape →
    single_ion_bca rcpr fuel (ion E) mat options tape ≠ .error .fuel :=
  C127_run_ends (ion := ion E) (eb := 1) rcpr options target_ready target_sound thin one_pos one_pos
    (fun _ _ _ h => h) (fun x y z h => h) rfl rfl (SpecialRunExample.screened false)
    SpecialRunExample.target_regular.Ec_pos (Or.inr ⟨bound, one_pos⟩) tables tables' (ion_regular E hE).sound unit_pos hE rfl rfl rfl

end RustBCA.LocalEndsExample
