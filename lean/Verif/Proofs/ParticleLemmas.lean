import Verif.Spec.Cascade

/-! Projections of the small particle updates (helper lemmas). -/

set_option linter.unusedSectionVars false

namespace RustBCA
variable {F : Type} [Scalar F]
namespace Particle

@[simp] theorem utt_m (p : Particle F) : p.update_trajectory_tracker.m = p.m := by
  unfold update_trajectory_tracker; split <;> rfl
@[simp] theorem uelt_m (p : Particle F) (o : Options F) (a b : F) :
    (p.update_energy_loss_tracker o a b).m = p.m := by
  unfold update_energy_loss_tracker; split <;> rfl
@[simp] theorem advance_m (p : Particle F) (a b : F) : (p.advance a b).1.m = p.m := by
  unfold advance; simp only; split <;> simp
@[simp] theorem utt_Z (p : Particle F) : p.update_trajectory_tracker.Z = p.Z := by
  unfold update_trajectory_tracker; split <;> rfl
@[simp] theorem uelt_Z (p : Particle F) (o : Options F) (a b : F) :
    (p.update_energy_loss_tracker o a b).Z = p.Z := by
  unfold update_energy_loss_tracker; split <;> rfl
@[simp] theorem advance_Z (p : Particle F) (a b : F) : (p.advance a b).1.Z = p.Z := by
  unfold advance; simp only; split <;> simp
@[simp] theorem utt_E (p : Particle F) : p.update_trajectory_tracker.E = p.E := by
  unfold update_trajectory_tracker; split <;> rfl
@[simp] theorem uelt_E (p : Particle F) (o : Options F) (a b : F) :
    (p.update_energy_loss_tracker o a b).E = p.E := by
  unfold update_energy_loss_tracker; split <;> rfl
@[simp] theorem advance_E (p : Particle F) (a b : F) : (p.advance a b).1.E = p.E := by
  unfold advance; simp only; split <;> simp
@[simp] theorem utt_Ec (p : Particle F) : p.update_trajectory_tracker.Ec = p.Ec := by
  unfold update_trajectory_tracker; split <;> rfl
@[simp] theorem uelt_Ec (p : Particle F) (o : Options F) (a b : F) :
    (p.update_energy_loss_tracker o a b).Ec = p.Ec := by
  unfold update_energy_loss_tracker; split <;> rfl
@[simp] theorem advance_Ec (p : Particle F) (a b : F) : (p.advance a b).1.Ec = p.Ec := by
  unfold advance; simp only; split <;> simp
@[simp] theorem utt_Es (p : Particle F) : p.update_trajectory_tracker.Es = p.Es := by
  unfold update_trajectory_tracker; split <;> rfl
@[simp] theorem uelt_Es (p : Particle F) (o : Options F) (a b : F) :
    (p.update_energy_loss_tracker o a b).Es = p.Es := by
  unfold update_energy_loss_tracker; split <;> rfl
@[simp] theorem advance_Es (p : Particle F) (a b : F) : (p.advance a b).1.Es = p.Es := by
  unfold advance; simp only; split <;> simp
@[simp] theorem utt_Ed (p : Particle F) : p.update_trajectory_tracker.Ed = p.Ed := by
  unfold update_trajectory_tracker; split <;> rfl
@[simp] theorem uelt_Ed (p : Particle F) (o : Options F) (a b : F) :
    (p.update_energy_loss_tracker o a b).Ed = p.Ed := by
  unfold update_energy_loss_tracker; split <;> rfl
@[simp] theorem advance_Ed (p : Particle F) (a b : F) : (p.advance a b).1.Ed = p.Ed := by
  unfold advance; simp only; split <;> simp
@[simp] theorem utt_pos (p : Particle F) : p.update_trajectory_tracker.pos = p.pos := by
  unfold update_trajectory_tracker; split <;> rfl
@[simp] theorem uelt_pos (p : Particle F) (o : Options F) (a b : F) :
    (p.update_energy_loss_tracker o a b).pos = p.pos := by
  unfold update_energy_loss_tracker; split <;> rfl
@[simp] theorem utt_dir (p : Particle F) : p.update_trajectory_tracker.dir = p.dir := by
  unfold update_trajectory_tracker; split <;> rfl
@[simp] theorem uelt_dir (p : Particle F) (o : Options F) (a b : F) :
    (p.update_energy_loss_tracker o a b).dir = p.dir := by
  unfold update_energy_loss_tracker; split <;> rfl
@[simp] theorem advance_dir (p : Particle F) (a b : F) : (p.advance a b).1.dir = p.dir := by
  unfold advance; simp only; split <;> simp
@[simp] theorem utt_pos_old (p : Particle F) : p.update_trajectory_tracker.pos_old = p.pos_old := by
  unfold update_trajectory_tracker; split <;> rfl
@[simp] theorem uelt_pos_old (p : Particle F) (o : Options F) (a b : F) :
    (p.update_energy_loss_tracker o a b).pos_old = p.pos_old := by
  unfold update_energy_loss_tracker; split <;> rfl
@[simp] theorem utt_dir_old (p : Particle F) : p.update_trajectory_tracker.dir_old = p.dir_old := by
  unfold update_trajectory_tracker; split <;> rfl
@[simp] theorem uelt_dir_old (p : Particle F) (o : Options F) (a b : F) :
    (p.update_energy_loss_tracker o a b).dir_old = p.dir_old := by
  unfold update_energy_loss_tracker; split <;> rfl
@[simp] theorem utt_pos_origin (p : Particle F) : p.update_trajectory_tracker.pos_origin = p.pos_origin := by
  unfold update_trajectory_tracker; split <;> rfl
@[simp] theorem uelt_pos_origin (p : Particle F) (o : Options F) (a b : F) :
    (p.update_energy_loss_tracker o a b).pos_origin = p.pos_origin := by
  unfold update_energy_loss_tracker; split <;> rfl
@[simp] theorem advance_pos_origin (p : Particle F) (a b : F) : (p.advance a b).1.pos_origin = p.pos_origin := by
  unfold advance; simp only; split <;> simp
@[simp] theorem utt_energy_origin (p : Particle F) : p.update_trajectory_tracker.energy_origin = p.energy_origin := by
  unfold update_trajectory_tracker; split <;> rfl
@[simp] theorem uelt_energy_origin (p : Particle F) (o : Options F) (a b : F) :
    (p.update_energy_loss_tracker o a b).energy_origin = p.energy_origin := by
  unfold update_energy_loss_tracker; split <;> rfl
@[simp] theorem advance_energy_origin (p : Particle F) (a b : F) : (p.advance a b).1.energy_origin = p.energy_origin := by
  unfold advance; simp only; split <;> simp
@[simp] theorem utt_asymptotic_deflection (p : Particle F) : p.update_trajectory_tracker.asymptotic_deflection = p.asymptotic_deflection := by
  unfold update_trajectory_tracker; split <;> rfl
@[simp] theorem uelt_asymptotic_deflection (p : Particle F) (o : Options F) (a b : F) :
    (p.update_energy_loss_tracker o a b).asymptotic_deflection = p.asymptotic_deflection := by
  unfold update_energy_loss_tracker; split <;> rfl
@[simp] theorem utt_stopped (p : Particle F) : p.update_trajectory_tracker.stopped = p.stopped := by
  unfold update_trajectory_tracker; split <;> rfl
@[simp] theorem uelt_stopped (p : Particle F) (o : Options F) (a b : F) :
    (p.update_energy_loss_tracker o a b).stopped = p.stopped := by
  unfold update_energy_loss_tracker; split <;> rfl
@[simp] theorem advance_stopped (p : Particle F) (a b : F) : (p.advance a b).1.stopped = p.stopped := by
  unfold advance; simp only; split <;> simp
@[simp] theorem utt_left (p : Particle F) : p.update_trajectory_tracker.left = p.left := by
  unfold update_trajectory_tracker; split <;> rfl
@[simp] theorem uelt_left (p : Particle F) (o : Options F) (a b : F) :
    (p.update_energy_loss_tracker o a b).left = p.left := by
  unfold update_energy_loss_tracker; split <;> rfl
@[simp] theorem advance_left (p : Particle F) (a b : F) : (p.advance a b).1.left = p.left := by
  unfold advance; simp only; split <;> simp
@[simp] theorem utt_incident (p : Particle F) : p.update_trajectory_tracker.incident = p.incident := by
  unfold update_trajectory_tracker; split <;> rfl
@[simp] theorem uelt_incident (p : Particle F) (o : Options F) (a b : F) :
    (p.update_energy_loss_tracker o a b).incident = p.incident := by
  unfold update_energy_loss_tracker; split <;> rfl
@[simp] theorem advance_incident (p : Particle F) (a b : F) : (p.advance a b).1.incident = p.incident := by
  unfold advance; simp only; split <;> simp
@[simp] theorem utt_first_step (p : Particle F) : p.update_trajectory_tracker.first_step = p.first_step := by
  unfold update_trajectory_tracker; split <;> rfl
@[simp] theorem uelt_first_step (p : Particle F) (o : Options F) (a b : F) :
    (p.update_energy_loss_tracker o a b).first_step = p.first_step := by
  unfold update_energy_loss_tracker; split <;> rfl
@[simp] theorem advance_first_step (p : Particle F) (a b : F) : (p.advance a b).1.first_step = p.first_step := by
  unfold advance; simp only; split <;> simp
@[simp] theorem uelt_trajectory (p : Particle F) (o : Options F) (a b : F) :
    (p.update_energy_loss_tracker o a b).trajectory = p.trajectory := by
  unfold update_energy_loss_tracker; split <;> rfl
@[simp] theorem utt_energies (p : Particle F) : p.update_trajectory_tracker.energies = p.energies := by
  unfold update_trajectory_tracker; split <;> rfl
@[simp] theorem advance_energies (p : Particle F) (a b : F) : (p.advance a b).1.energies = p.energies := by
  unfold advance; simp only; split <;> simp
@[simp] theorem utt_track_trajectories (p : Particle F) : p.update_trajectory_tracker.track_trajectories = p.track_trajectories := by
  unfold update_trajectory_tracker; split <;> rfl
@[simp] theorem uelt_track_trajectories (p : Particle F) (o : Options F) (a b : F) :
    (p.update_energy_loss_tracker o a b).track_trajectories = p.track_trajectories := by
  unfold update_energy_loss_tracker; split <;> rfl
@[simp] theorem advance_track_trajectories (p : Particle F) (a b : F) : (p.advance a b).1.track_trajectories = p.track_trajectories := by
  unfold advance; simp only; split <;> simp
@[simp] theorem utt_number_collision_events (p : Particle F) : p.update_trajectory_tracker.number_collision_events = p.number_collision_events := by
  unfold update_trajectory_tracker; split <;> rfl
@[simp] theorem uelt_number_collision_events (p : Particle F) (o : Options F) (a b : F) :
    (p.update_energy_loss_tracker o a b).number_collision_events = p.number_collision_events := by
  unfold update_energy_loss_tracker; split <;> rfl
@[simp] theorem advance_number_collision_events (p : Particle F) (a b : F) : (p.advance a b).1.number_collision_events = p.number_collision_events := by
  unfold advance; simp only; split <;> simp
@[simp] theorem utt_backreflected (p : Particle F) : p.update_trajectory_tracker.backreflected = p.backreflected := by
  unfold update_trajectory_tracker; split <;> rfl
@[simp] theorem uelt_backreflected (p : Particle F) (o : Options F) (a b : F) :
    (p.update_energy_loss_tracker o a b).backreflected = p.backreflected := by
  unfold update_energy_loss_tracker; split <;> rfl
@[simp] theorem advance_backreflected (p : Particle F) (a b : F) : (p.advance a b).1.backreflected = p.backreflected := by
  unfold advance; simp only; split <;> simp
@[simp] theorem utt_interaction_index (p : Particle F) : p.update_trajectory_tracker.interaction_index = p.interaction_index := by
  unfold update_trajectory_tracker; split <;> rfl
@[simp] theorem uelt_interaction_index (p : Particle F) (o : Options F) (a b : F) :
    (p.update_energy_loss_tracker o a b).interaction_index = p.interaction_index := by
  unfold update_energy_loss_tracker; split <;> rfl
@[simp] theorem advance_interaction_index (p : Particle F) (a b : F) : (p.advance a b).1.interaction_index = p.interaction_index := by
  unfold advance; simp only; split <;> simp
@[simp] theorem utt_weight (p : Particle F) : p.update_trajectory_tracker.weight = p.weight := by
  unfold update_trajectory_tracker; split <;> rfl
@[simp] theorem uelt_weight (p : Particle F) (o : Options F) (a b : F) :
    (p.update_energy_loss_tracker o a b).weight = p.weight := by
  unfold update_energy_loss_tracker; split <;> rfl
@[simp] theorem advance_weight (p : Particle F) (a b : F) : (p.advance a b).1.weight = p.weight := by
  unfold advance; simp only; split <;> simp
@[simp] theorem utt_tag (p : Particle F) : p.update_trajectory_tracker.tag = p.tag := by
  unfold update_trajectory_tracker; split <;> rfl
@[simp] theorem uelt_tag (p : Particle F) (o : Options F) (a b : F) :
    (p.update_energy_loss_tracker o a b).tag = p.tag := by
  unfold update_energy_loss_tracker; split <;> rfl
@[simp] theorem advance_tag (p : Particle F) (a b : F) : (p.advance a b).1.tag = p.tag := by
  unfold advance; simp only; split <;> simp
@[simp] theorem utt_tracked_vector (p : Particle F) : p.update_trajectory_tracker.tracked_vector = p.tracked_vector := by
  unfold update_trajectory_tracker; split <;> rfl
@[simp] theorem uelt_tracked_vector (p : Particle F) (o : Options F) (a b : F) :
    (p.update_energy_loss_tracker o a b).tracked_vector = p.tracked_vector := by
  unfold update_energy_loss_tracker; split <;> rfl
@[simp] theorem advance_tracked_vector (p : Particle F) (a b : F) : (p.advance a b).1.tracked_vector = p.tracked_vector := by
  unfold advance; simp only; split <;> simp

theorem utt_trajectory (p : Particle F) : p.update_trajectory_tracker.trajectory =
    p.trajectory ++ (if p.track_trajectories then [finalElement p] else []) := by
  unfold update_trajectory_tracker finalElement; split <;> simp_all

theorem uelt_energies (p : Particle F) (o : Options F) (a b : F) :
    (p.update_energy_loss_tracker o a b).energies =
      p.energies ++ (if p.incident && o.track_energy_losses then
        [⟨a, b, p.pos.x, p.pos.y, p.pos.z⟩] else []) := by
  unfold update_energy_loss_tracker
  split <;> simp_all

theorem advance_trajectory (p : Particle F) (a b : F) : (p.advance a b).1.trajectory =
    p.trajectory ++ (if p.track_trajectories && (p.E >. p.Ec) then [finalElement p] else []) := by
  unfold advance
  simp only
  split <;> simp_all [utt_trajectory]

end Particle
end RustBCA
