import Verif.Proofs.PassTrace
import Verif.Proofs.Kinematics
import Verif.Examples.Cascade

/-!
# C15, C18, C61: where things are and how far they move
-/

namespace RustBCA
open Scalar Spec

/-! ## C15: the collision partner's position -/

/-- Where the collision partner is, relative to the point `mfp` ahead of the projectile. -/
noncomputable def partner_offset (p : Particle ℝ) (g : BinaryCollisionGeometry ℝ) (q : Particle ℝ) :
    Vec3 ℝ := minus q.pos (plus p.pos (times g.mfp p.dir))

/-- What C15 says of one choice of partner: displaced perpendicularly to the direction of motion,
by the impact parameter. -/
def AtImpactParameter (p : Particle ℝ) (g : BinaryCollisionGeometry ℝ) (q : Particle ℝ) : Prop :=
  inner (partner_offset p g q) p.dir = 0 ∧ Spec.norm (partner_offset p g q) = |g.impact_parameter|

theorem offset_formulas (p : Particle ℝ) (g : BinaryCollisionGeometry ℝ) (q : Particle ℝ)
    (hd : Spec.IsUnit p.dir) (hx : |p.dir.x| ≠ 1)
    (hpos : q.pos = recoil_position p.pos p.dir g) :
    inner (partner_offset p g q) p.dir
      = -2*g.impact_parameter*Real.cos g.phi_azimuthal*p.dir.x*p.dir.z^2
          /Real.sqrt (1 - p.dir.x^2) ∧
    inner (partner_offset p g q) (partner_offset p g q)
      = g.impact_parameter^2*(1 - 4*Real.sin g.phi_azimuthal*Real.cos g.phi_azimuthal
          *p.dir.x*p.dir.y*p.dir.z/(1 - p.dir.x^2)) := by
  have h0 := not_axis_pos hd hx
  have hs : Real.sqrt (1 - p.dir.x^2) ^ 2 = 1 - p.dir.x^2 := Real.sq_sqrt h0.le
  have hs0 : Real.sqrt (1 - p.dir.x^2) ≠ 0 := (Real.sqrt_pos.mpr h0).ne'
  have e1 : (1.0 : ℝ) - p.dir.x*p.dir.x = 1 - p.dir.x^2 := by norm_num; ring
  have hsc := Real.sin_sq_add_cos_sq g.phi_azimuthal
  unfold Spec.IsUnit at hd
  unfold partner_offset
  rw [hpos]
  simp only [Spec.inner, plus, times, minus, recoil_position, sqrt_real, sin_real, cos_real] at *
  rw [e1]
  constructor
  · set s := Real.sqrt (1 - p.dir.x^2)
    field_simp
    linear_combination (-Real.cos g.phi_azimuthal*g.impact_parameter*p.dir.x)*hs
      + (Real.cos g.phi_azimuthal*g.impact_parameter*p.dir.x)*hd
  · set s := Real.sqrt (1 - p.dir.x^2)
    set c := Real.cos g.phi_azimuthal
    set e := Real.sin g.phi_azimuthal
    set x := p.dir.x
    set y := p.dir.y
    set z := p.dir.z
    rw [← hs]
    field_simp
    linear_combination g.impact_parameter^2*((e^2 + c^2*x^2)*hd - (e^2 + c^2*x^2)*hs
      + c^2*s^2*hs + s^2*hsc)

/-- **C15 (partial).** The exact displacement of the chosen partner.  C15 asks for scalar product 0
and squared length p^2; the code has extra terms, both with the factor `dir.x * dir.z`.
Missing from C15: perpendicularity and length for directions with `dir.x ≠ 0`, `dir.z ≠ 0` (they
fail, see `C15_refuted`). -/
theorem C15_partner_offset_partial (p : Particle ℝ) (mat : Material ℝ)
    (g : BinaryCollisionGeometry ℝ) (o : Options ℝ) (t t' : Tape ℝ) (si : Nat) (q : Particle ℝ)
    (hd : Spec.IsUnit p.dir) (hx : |p.dir.x| ≠ 1)
    (run : choose_collision_partner p mat g o t = .ok ((si, q), t')) :
    inner (partner_offset p g q) p.dir
      = -2*g.impact_parameter*Real.cos g.phi_azimuthal*p.dir.x*p.dir.z^2
          /Real.sqrt (1 - p.dir.x^2) ∧
    inner (partner_offset p g q) (partner_offset p g q)
      = g.impact_parameter^2*(1 - 4*Real.sin g.phi_azimuthal*Real.cos g.phi_azimuthal
          *p.dir.x*p.dir.y*p.dir.z/(1 - p.dir.x^2)) :=
  offset_formulas p g q hd hx (sat_of_ok (partner_exact p mat g o t) run).2.2.1

/-- **C15 where it holds.** For motion in the x-y plane (`dir.z = 0`) or parallel to the surface
(`dir.x = 0`) the partner is at the impact parameter, perpendicular to the path. -/
theorem C15_at_impact_parameter_partial (p : Particle ℝ) (mat : Material ℝ)
    (g : BinaryCollisionGeometry ℝ) (o : Options ℝ) (t t' : Tape ℝ) (si : Nat) (q : Particle ℝ)
    (hd : Spec.IsUnit p.dir) (hx : |p.dir.x| ≠ 1) (hxz : p.dir.x = 0 ∨ p.dir.z = 0)
    (run : choose_collision_partner p mat g o t = .ok ((si, q), t')) :
    AtImpactParameter p g q := by
  obtain ⟨h1, h2⟩ := C15_partner_offset_partial p mat g o t t' si q hd hx run
  have hz : p.dir.x * p.dir.z = 0 := by rcases hxz with h | h <;> simp [h]
  constructor
  · rw [h1]
    rw [show -2*g.impact_parameter*Real.cos g.phi_azimuthal*p.dir.x*p.dir.z^2
      = -2*g.impact_parameter*Real.cos g.phi_azimuthal*p.dir.z*(p.dir.x*p.dir.z) by ring, hz]
    simp
  · unfold Spec.norm
    rw [h2, show 4*Real.sin g.phi_azimuthal*Real.cos g.phi_azimuthal*p.dir.x*p.dir.y*p.dir.z
      = 4*Real.sin g.phi_azimuthal*Real.cos g.phi_azimuthal*p.dir.y*(p.dir.x*p.dir.z) by ring, hz]
    simp [Real.sqrt_sq_eq_abs]

/-- **C15 is false of the code.** A particle flying along (3/5, 0, 4/5), impact parameter 1, azimuth
0: the partner the code chooses is not displaced perpendicularly to the path. -/
theorem C15_refuted : ∃ (p : Particle ℝ) (mat : Material ℝ) (g : BinaryCollisionGeometry ℝ)
    (o : Options ℝ) (t t' : Tape ℝ) (si : Nat) (q : Particle ℝ),
    Spec.IsUnit p.dir ∧ |p.dir.x| ≠ 1 ∧ choose_collision_partner p mat g o t = .ok ((si, q), t') ∧
    ¬ AtImpactParameter p g q := by
  let p : Particle ℝ := { CascadeExample.ion with dir := ⟨3/5, 0, 4/5⟩ }
  let g : BinaryCollisionGeometry ℝ := ⟨0, 1, 0⟩
  have hd : Spec.IsUnit p.dir := by
    show (3/5 : ℝ)*(3/5) + 0*0 + 4/5*(4/5) = 1
    norm_num
  have hx : |p.dir.x| ≠ 1 := by
    show |(3/5 : ℝ)| ≠ 1
    rw [abs_of_pos (by norm_num)]; norm_num
  have hok : Sat (choose_collision_partner p CascadeExample.mat g CascadeExample.options)
      CascadeExample.zeros (fun _ _ => True) (fun _ => False) := by
    simp [choose_collision_partner, Material.choose, Material.get_cumulative_concentrations,
      CascadeExample.mat, CascadeExample.geom, Material.cumulative, Material.choose_index,
      CascadeExample.zeros, Material.species, vget]
    norm_num
  have hex : ∃ r t', choose_collision_partner p CascadeExample.mat g CascadeExample.options
      CascadeExample.zeros = .ok (r, t') := by
    unfold Sat at hok
    cases h : choose_collision_partner p CascadeExample.mat g CascadeExample.options
      CascadeExample.zeros with
    | ok a => exact ⟨a.1, a.2, rfl⟩
    | error e => rw [h] at hok; exact hok.elim
  obtain ⟨⟨si, q⟩, t', hrun⟩ := hex
  refine ⟨p, _, g, _, _, t', si, q, hd, hx, hrun, fun h => ?_⟩
  have h1 := (C15_partner_offset_partial p _ g _ _ t' si q hd hx hrun).1
  rw [h.1] at h1
  have h2 : (-2*g.impact_parameter*Real.cos g.phi_azimuthal*p.dir.x*p.dir.z^2)
      = -2*1*Real.cos 0*(3/5)*(4/5)^2 := rfl
  rw [h2, Real.cos_zero, eq_comm, div_eq_zero_iff] at h1
  rcases h1 with h1 | h1
  · norm_num at h1
  · exact (Real.sqrt_pos.mpr (not_axis_pos hd hx)).ne' h1

/-! ## C18: distances -/

section
variable {F : Type} [Scalar F]

/-- A pass that moved the particle: `path` is the path length drawn for the pass (the free path of
its collision geometry), `d` the distance it actually moved along `dir_old`. -/
def MovedBy (rcpr : Rcpr F) (mat : Material F) (o : Options F) (p : Particle F) (path d : F)
    (q : Particle F) : Prop :=
  ∃ ps qs t t' p1 gs t1 g0,
    trajectory_step rcpr mat o p ps t = .ok ((q, qs), t') ∧
    determine_mfp_phi_impact_parameter p mat o t = .ok ((p1, gs), t1) ∧
    gs[0]? = some g0 ∧ path = g0.mfp ∧
    q.pos = ⟨p.pos.x + p.dir_old.x*d, p.pos.y + p.dir_old.y*d, p.pos.z + p.dir_old.z*d⟩ ∧
    q.pos_old = p.pos

/-- **C18, one pass.** A pass moves the particle along its previous direction by the path length
plus the old minus the new asymptotic deflection (for every scalar). -/
theorem C18_one_pass (rcpr : Rcpr F) (mat : Material F) (o : Options F) (p q : Particle F)
    (pass : Pass rcpr mat o p q) :
    ∃ path, MovedBy rcpr mat o p path
      (path + p.asymptotic_deflection - q.asymptotic_deflection) q := by
  obtain ⟨ps, qs, t, t', run⟩ := pass
  obtain ⟨tr⟩ := sat_of_ok (pass_trace rcpr mat o p ps t) run
  obtain ⟨b, hp1⟩ := tr.p1_eq
  obtain ⟨⟨E, dir, n, hs, _⟩, _⟩ := tr.s_eq
  obtain ⟨E3, hp3⟩ := tr.p3_eq
  obtain ⟨E4, dir4, b4, st, lf, l, hq⟩ := tr.q_eq
  obtain ⟨p1, gs, t1, hmfp, s, t2, hloop, g0, hg0, p3, el, hstop, hbound, hqs⟩ := tr
  simp only at hp1 hs hp3 hq
  have hpos : s.particle_1.pos = p.pos := by rw [hs, hp1]
  have hdo : s.particle_1.dir_old = p.dir_old := by rw [hs, hp1]
  have has : s.particle_1.asymptotic_deflection = p.asymptotic_deflection := by rw [hs, hp1]
  have hqa : q.asymptotic_deflection = s.total_asymptotic_deflection := by
    rw [hq]; simp only; unfold Particle.update_energy_loss_tracker
    split <;> rw [hp3] <;> rfl
  have hadv : ∀ (x : Particle F) (a c : F), (x.advance a c).1.pos =
      ⟨x.pos.x + x.dir_old.x*(a + x.asymptotic_deflection - c),
       x.pos.y + x.dir_old.y*(a + x.asymptotic_deflection - c),
       x.pos.z + x.dir_old.z*(a + x.asymptotic_deflection - c)⟩ ∧
      (x.advance a c).1.pos_old = x.pos := by
    intro x a c
    unfold Particle.advance Particle.update_trajectory_tracker
    split
    · split <;> exact ⟨rfl, rfl⟩
    · exact ⟨rfl, rfl⟩
  have hqp : q.pos = p3.pos := by rw [hq]; simp
  have hqo : q.pos_old = p3.pos_old := by
    rw [hq]; simp only; unfold Particle.update_energy_loss_tracker; split <;> rfl
  obtain ⟨ha, hb⟩ := hadv s.particle_1 g0.mfp s.total_asymptotic_deflection
  refine ⟨g0.mfp, ps, qs, t, t', p1, gs, t1, g0, run, hmfp, hg0, rfl, ?_, ?_⟩
  · rw [hqp, hp3]
    simp only
    rw [ha, hpos, hdo, has, hqa]
  · rw [hqo, hp3]
    simp only
    rw [hb, hpos]

end

/-- A run of passes of one particle, with the path length and the distance moved in each. -/
inductive Moves (rcpr : Rcpr ℝ) (mat : Material ℝ) (o : Options ℝ) :
    Particle ℝ → List (ℝ × ℝ) → Particle ℝ → Prop
  | nil (p) : Moves rcpr mat o p [] p
  | cons {p q r path l} : MovedBy rcpr mat o p path
      (path + p.asymptotic_deflection - q.asymptotic_deflection) q →
      Moves rcpr mat o q l r →
      Moves rcpr mat o p ((path, path + p.asymptotic_deflection - q.asymptotic_deflection) :: l) r

/-- **C18, telescoping.** Over any number of passes the distances moved add up to the path lengths
plus the first minus the last asymptotic deflection. -/
theorem C18_telescopes (rcpr : Rcpr ℝ) (mat : Material ℝ) (o : Options ℝ) (p q : Particle ℝ)
    (l : List (ℝ × ℝ)) (h : Moves rcpr mat o p l q) :
    (l.map Prod.snd).sum = (l.map Prod.fst).sum
      + p.asymptotic_deflection - q.asymptotic_deflection := by
  induction h with
  | nil p => simp
  | cons h1 _ ih => simp only [List.map_cons, List.sum_cons, ih]; ring

/-- Every run of passes is such a run: `n` passes give `n` path lengths and `n` distances. -/
theorem C18_every_run (rcpr : Rcpr ℝ) (mat : Material ℝ) (o : Options ℝ) (n : Nat)
    (p q : Particle ℝ) (h : Passes rcpr mat o n p q) :
    ∃ l, l.length = n ∧ Moves rcpr mat o p l q := by
  have snoc : ∀ {p q r path l}, Moves rcpr mat o p l q → MovedBy rcpr mat o q path
      (path + q.asymptotic_deflection - r.asymptotic_deflection) r →
      Moves rcpr mat o p
        (l ++ [(path, path + q.asymptotic_deflection - r.asymptotic_deflection)]) r := by
    intro p q r path l h1 h2
    induction h1 with
    | nil p => exact Moves.cons h2 (Moves.nil _)
    | cons h3 _ ih => exact Moves.cons h3 (ih h2)
  induction h with
  | refl p => exact ⟨[], rfl, Moves.nil _⟩
  | step _ hp ih =>
    obtain ⟨l, hl, hm⟩ := ih
    obtain ⟨path, hpath⟩ := C18_one_pass rcpr mat o _ _ hp
    exact ⟨_, by simp [hl], snoc hm hpath⟩

/-! ## C61: the direction of motion -/

section
variable {F : Type} [Scalar F]

theorem surface_unchanged (p : Particle F) (mat : Material F)
    (h : mat.geometry.inside_energy_barrier p.pos.x p.pos.y p.pos.z
      = mat.geometry.inside_energy_barrier p.pos_old.x p.pos_old.y p.pos_old.z) :
    RSat (surface_binding_energy p mat) (fun q => q = p) (fun _ => True) := by
  unfold surface_binding_energy Material.inside_energy_barrier
  simp only [rsat_bind]
  refine rsat_mono (rsat_trivial _) (fun Es _ => ?_) (fun _ _ => trivial)
  refine rsat_mono (rsat_eq _) (fun b hb => ?_) (fun _ _ => trivial)
  rw [← h, hb]
  cases b <;> simp

theorem boundary_keeps_dir (p : Particle F) (mat : Material F)
    (h : mat.geometry.inside_energy_barrier p.pos.x p.pos.y p.pos.z
      = mat.geometry.inside_energy_barrier p.pos_old.x p.pos_old.y p.pos_old.z) :
    RSat (boundary_condition_planar p mat) (fun q => q.dir = p.dir ∧ q.dir_old = p.dir_old ∧
      q.pos = p.pos ∧ q.pos_old = p.pos_old) (fun _ => True) := by
  unfold boundary_condition_planar
  simp only [rsat_bind]
  refine rsat_mono (rsat_trivial _) (fun sim _ => ?_) (fun _ _ => trivial)
  refine rsat_mono (rsat_trivial _) (fun bar _ => ?_) (fun _ _ => trivial)
  obtain ⟨a, ha⟩ : ∃ a, a = (if (!sim) = true then
      { p with left := true }.update_trajectory_tracker else p) := ⟨_, rfl⟩
  rw [← ha]
  have a1 : a.dir = p.dir ∧ a.dir_old = p.dir_old ∧ a.pos = p.pos ∧ a.pos_old = p.pos_old := by
    rw [ha]; unfold Particle.update_trajectory_tracker
    split <;> (try split) <;> exact ⟨rfl, rfl, rfl, rfl⟩
  clear ha
  obtain ⟨c, hc⟩ : ∃ c, c = (if ((p.E <. p.Ec) && !a.left && bar) = true then
      { a with stopped := true }.update_trajectory_tracker else a) := ⟨_, rfl⟩
  rw [← hc]
  have c1 : c.dir = p.dir ∧ c.dir_old = p.dir_old ∧ c.pos = p.pos ∧ c.pos_old = p.pos_old := by
    rw [hc]; unfold Particle.update_trajectory_tracker
    split <;> (try split) <;> exact a1
  clear hc
  split
  · refine rsat_mono (surface_unchanged c mat (by rw [c1.2.2.1, c1.2.2.2]; exact h))
      (fun q hq => ?_) (fun _ _ => trivial)
    rw [hq]; exact c1
  · exact c1

/-- **C61 (partial).** After a pass that did not cross the energy barrier, `dir_old`, along which
the next pass moves the particle (`C18_one_pass`), is its current direction.
Missing from C61: passes that cross the barrier (there it fails, `C61_refuted`). -/
theorem C61_moves_along_direction_partial (rcpr : Rcpr F) (mat : Material F) (o : Options F)
    (p q : Particle F) (pass : Pass rcpr mat o p q)
    (h : mat.geometry.inside_energy_barrier q.pos.x q.pos.y q.pos.z
      = mat.geometry.inside_energy_barrier p.pos.x p.pos.y p.pos.z) : q.dir_old = q.dir := by
  obtain ⟨ps, qs, t, t', run⟩ := pass
  obtain ⟨tr⟩ := sat_of_ok (pass_trace rcpr mat o p ps t) run
  obtain ⟨path, ps2, qs2, t2, t3, _, _, _, _, _, _, _, _, _, hpo⟩ :=
    C18_one_pass rcpr mat o p q ⟨ps, qs, t, t', run⟩
  obtain ⟨E3, hp3⟩ := tr.p3_eq
  obtain ⟨E4, dir4, b4, st, lf, l, hq⟩ := tr.q_eq
  obtain ⟨p1, gs, t1, hmfp, s, t2, hloop, g0, hg0, p3, el, hstop, hbound, hqs⟩ := tr
  simp only at hp3 hq
  have h4 : ∀ (x : Particle F) (a c : F), (x.update_energy_loss_tracker o a c).dir_old = x.dir_old ∧
      (x.update_energy_loss_tracker o a c).pos_old = x.pos_old := by
    intro x a c; unfold Particle.update_energy_loss_tracker; split <;> exact ⟨rfl, rfl⟩
  have hpos4 : q.pos = p3.pos := by rw [hq]; simp
  have hpold4 : q.pos_old = p3.pos_old := by rw [hq]; exact (h4 _ _ _).2
  have hk := rsat_of_ok (boundary_keeps_dir
    (p3.update_energy_loss_tracker o s.total_energy_lost_to_recoils el) mat (by
      rw [Particle.uelt_pos, (h4 _ _ _).2, ← hpos4, ← hpold4, hpo]; exact h)) hbound
  rw [hk.1, hk.2.1, (h4 _ _ _).1, hp3]
  simp only [Particle.uelt_dir, Particle.advance_dir]
  unfold Particle.advance Particle.update_trajectory_tracker
  split <;> (try split) <;> rfl

end

/-- **C61 is false of the code.** A particle that tries to leave through the surface with too
little energy is reflected: its direction now points inwards, but its next move, by any distance,
still takes it outwards. -/
theorem C61_refuted : ∃ (p : Particle ℝ) (mat : Material ℝ) (q : Particle ℝ),
    boundary_condition_planar p mat = .ok q ∧ q.backreflected = true ∧ q.dir.x = 3/5 ∧
    q.stopped = false ∧ q.left = false ∧
    ∀ d, 0 < d → (q.advance d q.asymptotic_deflection).1.pos.x < q.pos.x := by
  let geom : Geom ℝ := (⟨[1], [1], 1, 1⟩ : Mesh0D ℝ).toGeom
  let mat : Material ℝ := { CascadeExample.mat with
    geometry := geom, surface_binding_model := .INDIVIDUAL }
  let p : Particle ℝ := { CascadeExample.ion with
    Es := 10, pos := ⟨-2, 0, 0⟩, pos_old := ⟨-1/2, 0, 0⟩, track_trajectories := false,
    dir := ⟨-(3/5), 0, 4/5⟩, dir_old := ⟨-(3/5), 0, 4/5⟩ }
  have h : RSat (boundary_condition_planar p mat) (fun q => q.backreflected = true ∧
      q.dir.x = 3/5 ∧ q.stopped = false ∧ q.left = false ∧ q.dir_old.x = -(3/5)) (fun _ => False) := by
    unfold boundary_condition_planar surface_binding_energy
    simp [p, mat, geom, Mesh0D.toGeom, Material.inside_simulation_boundary, Material.closest_point,
      Material.inside_energy_barrier, Material.actual_surface_binding_energy,
      CascadeExample.ion, CascadeExample.mat, surface_leaving]
    norm_num
    rw [show Real.sqrt 4 = 2 by
      rw [show (4:ℝ) = 2^2 by norm_num]; exact Real.sqrt_sq (by norm_num)]
    norm_num
  cases hq : boundary_condition_planar p mat with
  | error e => rw [hq] at h; exact h.elim
  | ok q =>
    rw [hq] at h
    obtain ⟨h1, h2, h3, h4, h5⟩ := h
    refine ⟨p, mat, q, hq, h1, h2, h3, h4, fun d hd => ?_⟩
    have : (q.advance d q.asymptotic_deflection).1.pos.x
        = q.pos.x + q.dir_old.x*(d + q.asymptotic_deflection - q.asymptotic_deflection) := by
      unfold Particle.advance Particle.update_trajectory_tracker
      split <;> (try split) <;> rfl
    rw [this, h5]
    linarith

end RustBCA
