import Verif.Proofs.PassTrace
import Verif.Proofs.Kinematics

/-!
# C10 (sharp), C11-C15, C18, C61: one collision, one step

Theorems over `ℝ` read the code with exact arithmetic; theorems over `F` hold for every scalar.
-/

namespace RustBCA
open Scalar Spec

section AnyScalar
variable {F : Type} [Scalar F]

/-- **C10, sharp.** Only the first collision of a pass (index 0, the strong one) can count, and it
counts exactly when it deflects: for collision number `gk.2` of the loop, either no collision took
place and nothing changed, or one took place with result `r` and the counter grew by one iff
`gk.2 = 0` and `psi > 0`. -/
theorem C10_only_strong_deflections_count (rcpr : Rcpr F) (mat : Material F) (o : Options F)
    (s s' : StepState F) (gk : BinaryCollisionGeometry F × Nat) (t t' : Tape F)
    (run : collision_step rcpr mat o s gk t = .ok (s', t')) :
    s' = s ∨ ∃ q r, calculate_binary_collision rcpr s.particle_1 q gk.1 o = .ok (.ok r) ∧
      s'.particle_1.number_collision_events = s.particle_1.number_collision_events +
        (if gk.2 = 0 ∧ (r.psi >. 0.0) = true then 1 else 0) := by
  have h := sat_of_ok (collision_step_cases rcpr mat o s gk t) run
  rcases h with h | ⟨si, q, r, _, _, _, _, _, _, _, _, _, _, _, hr, hA⟩
  · exact Or.inl h
  · refine Or.inr ⟨q, r, hr, ?_⟩
    rw [hA.moving]
    by_cases h0 : gk.2 = 0 <;> by_cases h1 : (r.psi >. 0.0) = true <;> simp [h0, h1]

/-- **C14.** Whenever `calculate_binary_collision` returns `Ok`, the angle it reports is not NaN. -/
theorem C14_ok_angle_is_a_number (rcpr : Rcpr F) (p q : Particle F)
    (g : BinaryCollisionGeometry F) (o : Options F) (r : BinaryCollisionResult F)
    (run : calculate_binary_collision rcpr p q g o = .ok (.ok r)) : isNaN r.theta = false := by
  obtain ⟨_, _, _, _, _, _, _, hn, rfl⟩ := binary_collision_ok run
  exact hn

/-- **C14, second half.** If the scattering integral yields NaN, the result is `Err`, not a result. -/
theorem C14_nan_is_reported (rcpr : Rcpr F) (p q : Particle F)
    (g : BinaryCollisionGeometry F) (o : Options F)
    (row : List (InteractionPotential F)) (V : InteractionPotential F)
    (srow : List ScatteringIntegral) (si : ScatteringIntegral) (x0 theta : F)
    (h1 : o.interaction_potential[p.interaction_index]? = some row)
    (h2 : row[q.interaction_index]? = some V)
    (h3 : o.scattering_integral[p.interaction_index]? = some srow)
    (h4 : srow[q.interaction_index]? = some si)
    (h5 : distance_of_closest_approach rcpr p q g o = .ok x0)
    (h6 : scattering_angle si p.Z q.Z p.m q.m p.E g.impact_parameter x0 V = .ok theta)
    (hn : isNaN theta = true) :
    calculate_binary_collision rcpr p q g o =
      .ok (.error "Numerical error: CoM deflection angle is NaN.") := by
  simp [calculate_binary_collision, vget, h1, h2, h3, h4, h5, h6, hn, bind, Except.bind, pure,
    Except.pure]

/-- **C14, consequence.** A NaN angle therefore ends the cascade by a panic carrying this message:
the collision step cannot return. -/
theorem C14_nan_stops_the_run (rcpr : Rcpr F) (mat : Material F) (o : Options F)
    (s : StepState F) (g : BinaryCollisionGeometry F) (k si : Nat) (q : Particle F)
    (t t' : Tape F) (msg : String)
    (h1 : choose_collision_partner s.particle_1 mat g o t = .ok ((si, q), t'))
    (h2 : mat.geometry.inside q.pos.x q.pos.y q.pos.z = .ok true)
    (h3 : mat.geometry.inside_energy_barrier s.particle_1.pos.x s.particle_1.pos.y
      s.particle_1.pos.z = .ok true)
    (h4 : calculate_binary_collision rcpr s.particle_1 q g o = .ok (.error msg)) :
    collision_step rcpr mat o s (g, k) t = .error (.panic msg) := by
  simp [collision_step, h1, h2, h3, h4, Material.inside, Material.inside_energy_barrier, unwrapA,
    bind, StateT.bind, Except.bind, liftM, monadLift, MonadLift.monadLift, StateT.lift, pure,
    Except.pure]

end AnyScalar

section Energy

/-- **C11.** The recoil energy lies between 0 and the kinematic maximum, which is at most the
projectile's energy. -/
theorem C11_recoil_energy_bounds (rcpr : Rcpr ℝ) (p q : Particle ℝ)
    (g : BinaryCollisionGeometry ℝ) (o : Options ℝ) (r : BinaryCollisionResult ℝ)
    (hm : 0 < p.m) (hq : 0 < q.m) (hE : 0 ≤ p.E)
    (run : calculate_binary_collision rcpr p q g o = .ok (.ok r)) :
    0 ≤ r.recoil_energy ∧ r.recoil_energy ≤ 4*p.m*q.m/(p.m + q.m)^2*p.E ∧
      4*p.m*q.m/(p.m + q.m)^2*p.E ≤ p.E := by
  obtain ⟨_, V, x0, theta, _, _, _, _, rfl⟩ := binary_collision_ok run
  have h := recoil_energy_bounds (screening_length p.Z q.Z V) x0 theta V hm hq hE
  exact ⟨h.1, h.2, by nlinarith [kinematic_factor_le_one hm hq]⟩

/-- The maximum of C11 is attained: a head-on collision (theta = pi) transfers exactly it. -/
theorem C11_head_on_maximum (Ma Mb E0 a x0 : ℝ) (V : InteractionPotential ℝ) :
    (collision_result Ma Mb E0 a x0 Real.pi V).recoil_energy = 4*Ma*Mb/(Ma + Mb)^2*E0 := by
  rw [recoil_energy_eq, Real.cos_pi]; ring

/-- **C11, whole pass.** Through any number of collisions of a pass (strong and weak) the energy of
the moving particle stays non-negative, never grows, and falls by exactly what is recorded as lost
to recoils. -/
theorem C11_energy_through_collision_loop (rcpr : Rcpr ℝ) (mat : Material ℝ) (o : Options ℝ)
    (l : List (BinaryCollisionGeometry ℝ × Nat)) (s s' : StepState ℝ) (t t' : Tape ℝ)
    (hm : 0 < s.particle_1.m) (hE : 0 ≤ s.particle_1.E) (hmat : ∀ m ∈ mat.m, 0 < m)
    (run : forFold (collision_step rcpr mat o) l s t = .ok (s', t')) :
    0 ≤ s'.particle_1.E ∧ s'.particle_1.E ≤ s.particle_1.E ∧
      s.particle_1.E - s'.particle_1.E
        = s'.total_energy_lost_to_recoils - s.total_energy_lost_to_recoils := by
  have key := sat_forFold (E := fun _ => True) (body := collision_step rcpr mat o)
    (fun (x : StepState ℝ) _ => 0 < x.particle_1.m ∧ 0 ≤ x.particle_1.E ∧
      x.particle_1.E ≤ s.particle_1.E ∧
      s.particle_1.E - x.particle_1.E
        = x.total_energy_lost_to_recoils - s.total_energy_lost_to_recoils)
    l ?_ s t ⟨hm, hE, le_refl _, by ring⟩
  · exact (sat_of_ok key run).2
  · intro gk _ x t1 ⟨h1, h2, h3, h4⟩
    refine sat_mono (collision_step_cases rcpr mat o x gk t1) (fun y _ hy => ?_)
      (fun _ _ => trivial)
    rcases hy with rfl | ⟨si, q, r, _, hsp, _, _, _, _, _, _, _, _, _, hr, hA⟩
    · exact ⟨h1, h2, h3, h4⟩
    · have hqm : 0 < q.m := hmat _ (List.mem_of_getElem? hsp.2.1)
      obtain ⟨b1, b2, b3⟩ := C11_recoil_energy_bounds rcpr x.particle_1 q gk.1 o r h1 hqm h2 hr
      have hEy : y.particle_1.E = x.particle_1.E + -r.recoil_energy := by rw [hA.moving]
      have hmy : y.particle_1.m = x.particle_1.m := by rw [hA.moving]
      refine ⟨hmy ▸ h1, ?_, ?_, ?_⟩
      · rw [hEy]; linarith
      · rw [hEy]; linarith
      · rw [hEy, hA.lost]; linarith

end Energy

section Momentum

/-- **C12.** A binary collision conserves momentum: the projectile, turned by `psi` with the energy
left to it, and the recoil, turned by `-psi_recoil` with the recoil energy (before the bulk binding
energy is subtracted), together have the momentum the projectile had. -/
theorem C12_momentum_conserved (rcpr : Rcpr ℝ) (p q : Particle ℝ)
    (g : BinaryCollisionGeometry ℝ) (o : Options ℝ) (r : BinaryCollisionResult ℝ)
    (hm : 0 < p.m) (hq : 0 < q.m) (hE : 0 ≤ p.E) (hd : Spec.IsUnit p.dir) (hx : |p.dir.x| ≠ 1)
    (hqd : q.dir = p.dir)
    (run : calculate_binary_collision rcpr p q g o = .ok (.ok r)) :
    plus (momentum p.m (p.E - r.recoil_energy) (p.rotate r.psi g.phi_azimuthal).dir)
      (momentum q.m r.recoil_energy (q.rotate (-r.psi_recoil) g.phi_azimuthal).dir)
      = momentum p.m p.E p.dir := by
  obtain ⟨_, V, x0, theta, _, _, _, _, rfl⟩ := binary_collision_ok run
  rw [rotate_dir hd hx, rotate_dir (by rw [hqd]; exact hd) (by rw [hqd]; exact hx), hqd]
  exact momentum_conserved _ x0 theta _ V p.dir hm hq hE

/-- **C12, in the program.** If a pass of the collision loop puts a recoil on the stack, then the
momenta of the moving particle after it and of the recoil with its energy before the bulk binding
energy `eb` was subtracted add up to the momentum of the moving particle before it. -/
theorem C12_momentum_conserved_in_loop (rcpr : Rcpr ℝ) (mat : Material ℝ) (o : Options ℝ)
    (s s' : StepState ℝ) (gk : BinaryCollisionGeometry ℝ × Nat) (t t' : Tape ℝ) (q : Particle ℝ)
    (hm : 0 < s.particle_1.m) (hE : 0 ≤ s.particle_1.E) (hmat : ∀ m ∈ mat.m, 0 < m)
    (hd : Spec.IsUnit s.particle_1.dir) (hx : |s.particle_1.dir.x| ≠ 1)
    (run : collision_step rcpr mat o s gk t = .ok (s', t'))
    (hnew : s'.particles = s.particles ++ [q]) :
    ∃ eb, mat.average_bulk_binding_energy q.pos.x q.pos.y q.pos.z = .ok eb ∧
      plus (momentum s'.particle_1.m s'.particle_1.E s'.particle_1.dir)
        (momentum q.m (q.E + eb) q.dir)
        = momentum s.particle_1.m s.particle_1.E s.particle_1.dir := by
  have h := sat_of_ok (collision_step_cases rcpr mat o s gk t) run
  rcases h with rfl | ⟨si, q0, r, _, hsp, _, hdir, _, _, _, _, _, _, _, hr, hA⟩
  · exact absurd hnew (by simp)
  · obtain ⟨eb, heb, hst⟩ := hA.stack
    rcases hst with hst | hst
    · rw [hst] at hnew; exact absurd hnew (by simp)
    · rw [hst] at hnew
      have hq : q = _ := (List.singleton_inj.mp (List.append_cancel_left hnew)).symm
      refine ⟨eb, by rw [hq]; exact heb, ?_⟩
      have hmag : s.particle_1.dir.magnitude = 1 := by
        unfold Vec3.magnitude
        rw [show s.particle_1.dir.x * s.particle_1.dir.x + s.particle_1.dir.y*s.particle_1.dir.y
          + s.particle_1.dir.z*s.particle_1.dir.z = 1 from hd]
        simp
      have hqd : q0.dir = s.particle_1.dir := by rw [hdir, hmag]; simp
      have hc := C12_momentum_conserved rcpr s.particle_1 q0 gk.1 o r hm
        (hmat _ (List.mem_of_getElem? hsp.2.1)) hE hd hx hqd hr
      rw [hA.moving, hq]
      simp only [sub_add_cancel, ← sub_eq_add_neg]
      exact hc

end Momentum

section Rotate

/-- **C13.** `rotate` turns a unit direction (not along ±x) into the direction at polar angle `psi`
and azimuth `phi` from it; the result is a unit vector whose scalar product with the old direction
is `cos psi`. -/
theorem C13_rotate (p : Particle ℝ) (hd : Spec.IsUnit p.dir) (hx : |p.dir.x| ≠ 1) (psi phi : ℝ) :
    (p.rotate psi phi).dir = turned p.dir psi phi ∧ Spec.IsUnit (p.rotate psi phi).dir ∧
      inner (p.rotate psi phi).dir p.dir = Real.cos psi := by
  rw [rotate_dir hd hx]
  exact ⟨rfl, turned_unit hd hx psi phi⟩

/-- **C13, identity.** Rotating by 0 changes nothing at all. -/
theorem C13_rotate_zero (p : Particle ℝ) (hd : Spec.IsUnit p.dir) (hx : |p.dir.x| ≠ 1) (phi : ℝ) :
    p.rotate 0 phi = p := by
  have h := rotate_dir hd hx 0 phi
  have h2 : turned p.dir 0 phi = p.dir := by
    apply Vec3.ext_real <;> simp [turned, plus, times]
  have : (p.rotate 0 phi) = { p with dir := (p.rotate 0 phi).dir } := rfl
  rw [this, h, h2]

/-- **C13, azimuth.** The azimuth of the new direction around the old one is `phi`: its component
along the (normalised) projection of the x axis is `sin psi cos phi`, that along the third
direction of the right-handed frame is `sin psi sin phi`. -/
theorem C13_azimuth (p : Particle ℝ) (hd : Spec.IsUnit p.dir) (hx : |p.dir.x| ≠ 1) (psi phi : ℝ) :
    inner (p.rotate psi phi).dir (minus xhat (times p.dir.x p.dir))
      = Real.sqrt (1 - p.dir.x^2)*(Real.sin psi*Real.cos phi) ∧
    inner (p.rotate psi phi).dir (cross p.dir xhat)
      = Real.sqrt (1 - p.dir.x^2)*(Real.sin psi*Real.sin phi) := by
  rw [rotate_dir hd hx]
  have h0 := not_axis_pos hd hx
  have hs : Real.sqrt (1 - p.dir.x^2) ^ 2 = 1 - p.dir.x^2 := Real.sq_sqrt h0.le
  have hs0 : Real.sqrt (1 - p.dir.x^2) ≠ 0 := (Real.sqrt_pos.mpr h0).ne'
  unfold Spec.IsUnit at hd
  simp only [Spec.inner, turned, plus, times, minus, cross, xhat] at *
  set s := Real.sqrt (1 - p.dir.x^2)
  constructor
  · field_simp
    linear_combination (-(Real.cos psi)*p.dir.x*s + Real.sin psi*Real.cos phi*(p.dir.x^2))*hd
      - Real.sin psi*Real.cos phi*hs
  · field_simp
    linear_combination Real.sin psi*Real.sin phi*hd - Real.sin psi*Real.sin phi*hs

/-- The hypotheses of C12 and C13 are met, for instance, by the direction (3/5, 0, 4/5). -/
example : Spec.IsUnit ⟨3/5, 0, 4/5⟩ ∧ |((⟨3/5, 0, 4/5⟩ : Vec3 ℝ)).x| ≠ 1 := by
  constructor
  · unfold Spec.IsUnit Spec.inner; norm_num
  · simp only; rw [abs_of_pos (by norm_num)]; norm_num

end Rotate

end RustBCA
