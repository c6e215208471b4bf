import Verif.Proofs.CollisionFacts

/-! # A pass of the trajectory loop, taken apart (helper lemmas, any scalar) -/

set_option linter.unusedSectionVars false

namespace RustBCA
open Scalar
variable {F : Type} [Scalar F]

/-- The intermediate results of a successful pass. -/
structure PassTrace (rcpr : Rcpr F) (mat : Material F) (o : Options F) (p : Particle F)
    (ps : List (Particle F)) (t : Tape F) (q : Particle F) (qs : List (Particle F)) where
  p1 : Particle F
  gs : List (BinaryCollisionGeometry F)
  t1 : Tape F
  hmfp : determine_mfp_phi_impact_parameter p mat o t = .ok ((p1, gs), t1)
  s : StepState F
  t2 : Tape F
  hloop : forFold (collision_step rcpr mat o) (gs.zipIdx.take (o.weak_collision_order + 1))
    ⟨p1, ps, 0.0, 0.0, 0.0, 0.0, 0⟩ t1 = .ok (s, t2)
  g0 : BinaryCollisionGeometry F
  hg0 : gs[0]? = some g0
  p3 : Particle F
  el : F
  hstop : subtract_electronic_stopping_energy
    (s.particle_1.advance g0.mfp s.total_asymptotic_deflection).1 mat
    (s.particle_1.advance g0.mfp s.total_asymptotic_deflection).2
    s.normalized_distance_of_closest_approach s.strong_collision_Z s.strong_collision_index o
    = .ok (p3, el)
  hbound : boundary_condition_planar
    (p3.update_energy_loss_tracker o s.total_energy_lost_to_recoils el) mat = .ok q
  hqs : qs = s.particles

theorem pass_trace (rcpr : Rcpr F) (mat : Material F) (o : Options F) (p : Particle F)
    (ps : List (Particle F)) (t : Tape F) :
    Sat (trajectory_step rcpr mat o p ps) t
      (fun r _ => Nonempty (PassTrace rcpr mat o p ps t r.1 r.2)) (fun _ => True) := by
  unfold trajectory_step
  simp only [sat_bind]
  refine sat_mono (sat_eq _ _) (fun r t1 hr => ?_) (fun _ _ => trivial)
  obtain ⟨p1, gs⟩ := r
  refine sat_mono (sat_eq _ _) (fun s t2 hs => ?_) (fun _ _ => trivial)
  simp only [sat_lift]
  unfold finish_step
  simp only [rsat_bind]
  refine rsat_mono (rsat_vget_some _ _) (fun g0 hg0 => ?_) (fun _ _ => trivial)
  refine rsat_mono (rsat_eq _) (fun r hr2 => ?_) (fun _ _ => trivial)
  obtain ⟨p3, el⟩ := r
  refine rsat_mono (rsat_eq _) (fun q hq => ?_) (fun _ _ => trivial)
  simp only [rsat_pure]
  exact ⟨⟨p1, gs, t1, hr, s, t2, hs, g0, hg0, p3, el, hr2, hq, rfl⟩⟩

theorem PassTrace.p1_eq {rcpr : Rcpr F} {mat : Material F} {o : Options F} {p : Particle F}
    {ps : List (Particle F)} {t : Tape F} {q : Particle F} {qs : List (Particle F)}
    (tr : PassTrace rcpr mat o p ps t q qs) : ∃ b, tr.p1 = { p with first_step := b } :=
  sat_of_ok (mfp_frame p mat o t) tr.hmfp

theorem PassTrace.s_eq {rcpr : Rcpr F} {mat : Material F} {o : Options F} {p : Particle F}
    {ps : List (Particle F)} {t : Tape F} {q : Particle F} {qs : List (Particle F)}
    (tr : PassTrace rcpr mat o p ps t q qs) :
    LoopEffect mat o true tr.p1 ps tr.s :=
  sat_of_ok (collision_loop_sat rcpr mat o tr.gs _ _ tr.t1) tr.hloop

theorem PassTrace.p3_eq {rcpr : Rcpr F} {mat : Material F} {o : Options F} {p : Particle F}
    {ps : List (Particle F)} {t : Tape F} {q : Particle F} {qs : List (Particle F)}
    (tr : PassTrace rcpr mat o p ps t q qs) :
    ∃ E, tr.p3 = { (tr.s.particle_1.advance tr.g0.mfp tr.s.total_asymptotic_deflection).1 with
      E := E } := by
  have h := rsat_of_ok (subtract_frame _ mat _ _ _ _ o) tr.hstop
  exact h

/-- What the boundary condition changes. -/
theorem boundary_frame (p : Particle F) (mat : Material F) :
    RSat (boundary_condition_planar p mat)
      (fun q => ∃ E dir b st lf tr, q = { p with
        E := E, dir := dir, backreflected := b, stopped := st, left := lf, trajectory := tr })
      (fun _ => True) := by
  unfold boundary_condition_planar
  simp only [rsat_bind]
  refine rsat_mono (rsat_trivial _) (fun sim _ => ?_) (fun _ _ => trivial)
  refine rsat_mono (rsat_trivial _) (fun bar _ => ?_) (fun _ _ => trivial)
  have h1 : ∃ lf tr, (if (!sim) = true then
      { p with left := true }.update_trajectory_tracker else p) =
      { p with left := lf, trajectory := tr } := by
    split
    · unfold Particle.update_trajectory_tracker
      split
      · exact ⟨_, _, rfl⟩
      · exact ⟨_, _, rfl⟩
    · exact ⟨p.left, p.trajectory, rfl⟩
  obtain ⟨lf, tr, h1⟩ := h1
  rw [h1]
  have h2 : ∃ st tr', (if ((p.E <. p.Ec) && !lf && bar) = true then
      { p with left := lf, trajectory := tr, stopped := true }.update_trajectory_tracker
      else { p with left := lf, trajectory := tr }) =
      { p with left := lf, trajectory := tr', stopped := st } := by
    split
    · unfold Particle.update_trajectory_tracker
      split
      · exact ⟨_, _, rfl⟩
      · exact ⟨_, _, rfl⟩
    · exact ⟨p.stopped, tr, rfl⟩
  obtain ⟨st, tr', h2⟩ := h2
  simp only [h2]
  split
  · refine rsat_mono (surface_binding_energy_frame _ mat) (fun q hq => ?_) (fun _ _ => trivial)
    obtain ⟨E', dir', b', rfl⟩ := hq
    exact ⟨_, _, _, _, _, _, rfl⟩
  · simp only [rsat_pure]
    exact ⟨p.E, p.dir, p.backreflected, st, lf, tr', rfl⟩

theorem PassTrace.q_eq {rcpr : Rcpr F} {mat : Material F} {o : Options F} {p : Particle F}
    {ps : List (Particle F)} {t : Tape F} {q : Particle F} {qs : List (Particle F)}
    (tr : PassTrace rcpr mat o p ps t q qs) :
    ∃ E dir b st lf l, q =
      { (tr.p3.update_energy_loss_tracker o tr.s.total_energy_lost_to_recoils tr.el) with
        E := E, dir := dir, backreflected := b, stopped := st, left := lf, trajectory := l } := by
  have h := rsat_of_ok (boundary_frame _ mat) tr.hbound
  exact h

end RustBCA
