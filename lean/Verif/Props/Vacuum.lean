import Verif.Spec.Vacuum
import Verif.Props.Energy
import Verif.Proofs.CascadeTree
import Verif.Props.Recoils

/-!
# C88: an ion comes to an end
-/

set_option linter.unusedSectionVars false
set_option linter.unusedSimpArgs false
set_option linter.unusedVariables false

namespace RustBCA
open Scalar Spec
variable {rcpr : Rcpr ℝ} {mat : Material ℝ} {o : Options ℝ} {g : Mesh0D ℝ} {s : ℝ}

theorem density_pos (h : UniformTarget mat g s) : 0 < g.densities.sum := by
  have h1 := h.spacing
  have h2 : 0 < s^3 := pow_pos h.spacing_pos 3
  by_contra hn
  push Not at hn
  nlinarith [mul_nonneg h2.le (neg_nonneg.mpr hn)]

/-- In front of the barrier no collision happens. -/
theorem no_collision (h : UniformTarget mat g s) (st : StepState ℝ)
    (hx : st.particle_1.pos.x ≤ -g.energy_barrier_thickness) :
    ∀ (l : List (BinaryCollisionGeometry ℝ × Nat)) (t : Tape ℝ), UnitInterval t →
      ∃ t', forFold (collision_step rcpr mat o) l st t = .ok (st, t') := by
  intro l
  induction l with
  | nil => intro t _; exact ⟨t, rfl⟩
  | cons a l ih =>
    intro t hu
    obtain ⟨sp, hsp, _⟩ := C27_choose mat (recoil_position st.particle_1.pos st.particle_1.dir a.1).x
      (recoil_position st.particle_1.pos st.particle_1.dir a.1).y
      (recoil_position st.particle_1.pos st.particle_1.dir a.1).z t g.concentrations
      (by rw [h.geometry]; rfl) h.concentrations h.tabulated (hu 0).1 (hu 0).2
    obtain ⟨t', ht'⟩ := ih (fun n => t (n + 1)) (fun k => hu (k + 1))
    refine ⟨t', ?_⟩
    have hb : ∀ y z, mat.inside_energy_barrier st.particle_1.pos.x y z = .ok false := by
      intro y z
      unfold Material.inside_energy_barrier
      rw [h.geometry]
      show Except.ok _ = _
      rw [(lt_real_false _ _).2 hx]
    have hi : ∀ x y z, ∃ b, mat.inside x y z = .ok b := by
      intro x y z
      unfold Material.inside
      rw [h.geometry]
      exact ⟨_, rfl⟩
    have hstep : collision_step rcpr mat o st a t = .ok (st, fun n => t (n + 1)) := by
      obtain ⟨g1, k⟩ := a
      unfold collision_step choose_collision_partner
      simp only [bind, Except.bind, pure, Except.pure, StateT.bind, StateT.pure, liftM, monadLift,
        MonadLift.monadLift, StateT.lift, hsp, hb]
      obtain ⟨b, hbq⟩ := hi (recoil_position st.particle_1.pos st.particle_1.dir g1).x
        (recoil_position st.particle_1.pos st.particle_1.dir g1).y
        (recoil_position st.particle_1.pos st.particle_1.dir g1).z
      simp only [Particle.new, hbq, Bool.and_false, Bool.false_eq_true, if_false, pure, Except.pure,
        StateT.pure]
    unfold forFold
    simp only [bind, StateT.bind, Except.bind, hstep]
    exact ht'

/-- What one pass in front of the barrier does to the particle: `d` is the way covered. -/
structure FreePass (g : Mesh0D ℝ) (p q : Particle ℝ) (d : ℝ) : Prop where
  pos : q.pos = ⟨p.pos.x + p.dir_old.x*d, p.pos.y + p.dir_old.y*d, p.pos.z + p.dir_old.z*d⟩
  dir_old : q.dir_old = p.dir
  deflection : q.asymptotic_deflection = 0
  first_step : q.first_step = false
  still_out : q.pos.x ≤ -g.energy_barrier_thickness → q.dir = p.dir ∧ q.E = p.E ∧
    q.stopped = false ∧ (q.left = true ↔ q.pos.x ≤ -10*g.energy_barrier_thickness)

theorem binding_total (h : UniformTarget mat g s) (p : Particle ℝ) (x y z : ℝ) :
    ∃ Es, mat.actual_surface_binding_energy p x y z = .ok Es := by
  unfold Material.actual_surface_binding_energy
  rw [h.geometry]
  simp only [Mesh0D.toGeom, bind, Except.bind]
  repeat' split
  all_goals exact ⟨_, rfl⟩

theorem entering_total (h : UniformTarget mat g s) (p : Particle ℝ) (Es : ℝ) :
    ∃ q, surface_entering p mat Es = .ok q := by
  unfold surface_entering
  simp only [Material.closest_point]
  rw [h.geometry]
  simp only [Mesh0D.toGeom, bind, Except.bind]
  repeat' split
  all_goals exact ⟨_, rfl⟩

/-- The boundary conditions for a particle that was in front of the barrier before its step. -/
theorem boundary_in_front (h : UniformTarget mat g s) (p : Particle ℝ) (hst : p.stopped = false)
    (hl : p.left = false) (hx : p.pos_old.x ≤ -g.energy_barrier_thickness) :
    ∃ q, boundary_condition_planar p mat = .ok q ∧
      (p.pos.x ≤ -g.energy_barrier_thickness → q.dir = p.dir ∧ q.E = p.E ∧
        q.stopped = false ∧ (q.left = true ↔ p.pos.x ≤ -10*g.energy_barrier_thickness)) := by
  have ht := h.thickness
  have hin : ∀ y z, mat.inside_energy_barrier p.pos_old.x y z = .ok false := by
    intro y z
    unfold Material.inside_energy_barrier
    rw [h.geometry]
    show Except.ok _ = _
    rw [(lt_real_false _ _).2 hx]
  have hsim : ∀ y z, mat.inside_simulation_boundary p.pos.x y z
      = .ok (p.pos.x >. -10.0*g.energy_barrier_thickness) := by
    intro y z
    unfold Material.inside_simulation_boundary
    rw [h.geometry]; rfl
  have hbar : ∀ y z, mat.inside_energy_barrier p.pos.x y z
      = .ok (p.pos.x >. -g.energy_barrier_thickness) := by
    intro y z
    unfold Material.inside_energy_barrier
    rw [h.geometry]; rfl
  have e10 : (-10.0 : ℝ) = -10 := by norm_num
  obtain ⟨Es, hEs⟩ := binding_total h p p.pos_old.x p.pos_old.y p.pos_old.z
  obtain ⟨q0, hq0⟩ := entering_total h p Es
  unfold boundary_condition_planar
  simp only [hsim, hbar, bind, Except.bind, e10]
  by_cases h1 : p.pos.x ≤ -10*g.energy_barrier_thickness
  · have h2 : p.pos.x ≤ -g.energy_barrier_thickness := by linarith
    rw [(lt_real_false _ _).2 h1, (lt_real_false _ _).2 h2]
    unfold Particle.update_trajectory_tracker
    cases ht : p.track_trajectories <;>
    · simp only [Bool.not_false, if_true, ht, Bool.not_true, Bool.and_false, Bool.false_eq_true,
        if_false, hst, Bool.true_and, Bool.false_and]
      exact ⟨_, rfl, fun _ => ⟨rfl, rfl, rfl, iff_of_true rfl h1⟩⟩
  · have h1' := lt_of_not_ge h1
    rw [(lt_real _ _).2 h1']
    by_cases h2 : p.pos.x ≤ -g.energy_barrier_thickness
    · rw [(lt_real_false _ _).2 h2]
      refine ⟨p, ?_, fun _ => ⟨rfl, rfl, hst, iff_of_false (by simp [hl]) h1⟩⟩
      simp only [Bool.not_true, Bool.false_eq_true, if_false, hl, Bool.not_false, Bool.and_true,
        Bool.and_false, hst, if_true]
      unfold surface_binding_energy
      simp only [hEs, hin, hbar, bind, Except.bind, (lt_real_false _ _).2 h2, Bool.false_and,
        Bool.not_false, Bool.true_and, Bool.false_eq_true, if_false, pure, Except.pure]
    · have h2' := lt_of_not_ge h2
      rw [(lt_real _ _).2 h2']
      have key : ∃ q, surface_binding_energy p mat = .ok q := by
        unfold surface_binding_energy
        simp only [hEs, hin, hbar, bind, Except.bind, (lt_real _ _).2 h2', Bool.not_false,
          Bool.true_and, if_true, hq0, Bool.not_true, Bool.false_and, Bool.false_eq_true, if_false,
          pure, Except.pure]
        exact ⟨_, rfl⟩
      by_cases hE : (p.E <. p.Ec) = true
      · simp only [hE, hl, Bool.not_true, Bool.false_eq_true, if_false, Bool.not_false,
          Bool.and_true, if_true]
        unfold Particle.update_trajectory_tracker
        cases ht : p.track_trajectories <;>
        · simp only [ht, Bool.false_eq_true, if_false, if_true, Bool.not_true, Bool.false_and]
          exact ⟨_, rfl, fun h3 => absurd h3 h2⟩
      · obtain ⟨q, hq⟩ := key
        refine ⟨q, ?_, fun h3 => absurd h3 h2⟩
        simp only [Bool.eq_false_iff.mpr hE, hl, hst, Bool.not_true, Bool.false_eq_true, if_false,
          Bool.not_false, Bool.and_true, Bool.true_and, Bool.false_and, if_true, hq]

theorem free_pass (h : UniformTarget mat g s) (hff : o.high_energy_free_flight_paths = false)
    (hgas : o.mean_free_path_model.isGaseous = false) (p : Particle ℝ)
    (hst : p.stopped = false) (hl : p.left = false)
    (hx : p.pos.x ≤ -g.energy_barrier_thickness)
    (hnew : ∀ f, 0 ≤ f → f ≤ 1 → p.pos.x + p.dir_old.x*(s*f + p.asymptotic_deflection) ≤ 0)
    (t : Tape ℝ) (hu : UnitInterval t) :
    ∃ q t' f, trajectory_step rcpr mat o p [] t = .ok ((q, []), t') ∧ UnitInterval t' ∧
      0 ≤ f ∧ f ≤ 1 ∧ (p.first_step = false → f = 1) ∧
      FreePass g p q (s*f + p.asymptotic_deflection) := by
  have hd : mat.geometry.get_densities p.pos.x p.pos.y p.pos.z = .ok g.densities := by
    rw [h.geometry]; rfl
  have ht := h.thickness
  obtain ⟨gs, t1, hrun, hlen, ⟨f, e, hpath, hf, he⟩, _⟩ := C16_annuli p mat o t g.densities s hd
    (density_pos h) ⟨h.spacing_pos, h.spacing⟩ hff hu
  have hu1 := draws_unit (draws_determine p mat o) hrun hu
  rw [hgas] at he
  simp only [Bool.false_eq_true, if_false] at he
  subst he
  simp only [mul_one] at hpath
  obtain ⟨g0, rest, hgs⟩ : ∃ g0 rest, gs = g0 :: rest := by
    cases gs with
    | nil => simp at hlen
    | cons a b => exact ⟨a, b, rfl⟩
  have hg0 := hpath g0 (by rw [hgs]; simp)
  obtain ⟨t2, hfold⟩ := no_collision (rcpr := rcpr) (o := o) h
    ⟨{ p with first_step := false }, [], 0.0, 0.0, 0.0, 0.0, 0⟩ hx
    (gs.zipIdx.take (o.weak_collision_order + 1)) t1 hu1
  have hu2 := draws_unit (draws_forFold (fun a b => draws_collision_step rcpr mat o a b) _ _) hfold hu1
  -- the last part of the pass
  obtain ⟨d, hdq⟩ : ∃ d, d = s*f + p.asymptotic_deflection := ⟨_, rfl⟩
  have hfin : ∃ q, finish_step mat o gs
      ⟨{ p with first_step := false }, [], 0.0, 0.0, 0.0, 0.0, 0⟩ = .ok (q, []) ∧
      FreePass g p q d := by
    have hf0 : 0 ≤ f ∧ f ≤ 1 := by
      rw [hf]; split
      · exact ⟨(hu _).1, (hu _).2.le⟩
      · norm_num
    have hpos0 := hnew f hf0.1 hf0.2
    rw [← hdq] at hpos0
    obtain ⟨tr, hadv⟩ : ∃ tr, ({ p with first_step := false } : Particle ℝ).advance g0.mfp 0.0
        = ({ p with
            first_step := false
            trajectory := tr
            pos_old := p.pos
            pos := ⟨p.pos.x + p.dir_old.x*d, p.pos.y + p.dir_old.y*d, p.pos.z + p.dir_old.z*d⟩
            asymptotic_deflection := 0
            dir_old := p.dir }, d) := by
      unfold Particle.advance Particle.update_trajectory_tracker
      rw [hg0]
      have e : s*f + p.asymptotic_deflection - 0.0 = d := by rw [hdq]; norm_num
      have e0 : (0.0 : ℝ) = 0 := by norm_num
      by_cases hE : (p.E >. p.Ec) = true <;> cases htt : p.track_trajectories <;>
        simp only [hE, if_true, Bool.false_eq_true, if_false, htt, e] <;>
        simp only [e0] <;> exact ⟨_, rfl⟩
    obtain ⟨p1, hp1⟩ : ∃ p1 : Particle ℝ, p1 = { p with
            first_step := false
            trajectory := tr
            pos_old := p.pos
            pos := ⟨p.pos.x + p.dir_old.x*d, p.pos.y + p.dir_old.y*d, p.pos.z + p.dir_old.z*d⟩
            asymptotic_deflection := 0
            dir_old := p.dir } := ⟨_, rfl⟩
    rw [← hp1] at hadv
    have hsub : subtract_electronic_stopping_energy p1 mat d 0.0 0.0 0 o = .ok (p1, 0.0) := by
      unfold subtract_electronic_stopping_energy Material.inside
      have hi : ∀ y z, mat.geometry.inside p1.pos.x y z = .ok false := by
        intro y z
        rw [h.geometry]
        show Except.ok _ = _
        have : p1.pos.x ≤ 0.0 := by rw [hp1]; norm_num; exact hpos0
        rw [(lt_real_false _ _).2 this]
      simp only [isNaN_real, rassert, Bool.not_false, if_true, hi, bind, Except.bind,
        Bool.false_eq_true, if_false, pure, Except.pure]
    obtain ⟨p2, hp2, hk⟩ : ∃ p2, p1.update_energy_loss_tracker o 0.0 0.0 = p2 ∧
        ∃ en, p2 = { p1 with energies := en } := by
      refine ⟨_, rfl, ?_⟩
      unfold Particle.update_energy_loss_tracker
      split
      · exact ⟨_, rfl⟩
      · exact ⟨p1.energies, rfl⟩
    obtain ⟨en, hen⟩ := hk
    obtain ⟨q, hq, hqs⟩ := boundary_in_front h p2 (by rw [hen, hp1]; exact hst)
      (by rw [hen, hp1]; exact hl) (by rw [hen, hp1]; exact hx)
    obtain ⟨E', dir', b', st', lf', tr', hqe⟩ := rsat_of_ok (boundary_frame p2 mat) hq
    refine ⟨q, ?_, ?_⟩
    · unfold finish_step
      simp only [hgs, vget_some, vget, List.getElem?_cons_zero, bind, Except.bind, hadv, hsub, hp2, hq, pure,
        Except.pure]
    · have e1 : q.pos = p1.pos := by rw [hqe, hen]
      constructor
      · rw [e1, hp1]
      · rw [hqe, hen, hp1]
      · rw [hqe, hen, hp1]
      · rw [hqe, hen, hp1]
      · intro hout
        rw [e1] at hout ⊢
        have := hqs (by rw [hen]; exact hout)
        obtain ⟨a1, a2, a3, a4⟩ := this
        refine ⟨by rw [a1, hen, hp1], by rw [a2, hen, hp1], a3, by rw [a4, hen]⟩
  obtain ⟨q, hq, hfp⟩ := hfin
  refine ⟨q, t2, f, ?_, hu2, ?_, ?_, ?_, by rw [← hdq]; exact hfp⟩
  · unfold trajectory_step
    simp only [bind, StateT.bind, Except.bind, hrun, hfold, liftM, monadLift, MonadLift.monadLift,
      StateT.lift, hq, pure, Except.pure]
  · rw [hf]; split
    · exact (hu _).1
    · norm_num
  · rw [hf]; split
    · exact (hu _).2.le
    · norm_num
  · intro h1
    rw [hf, h1]; simp

/-- Heading away from the target, a particle in the settled state leaves. -/
theorem leaves_settled (h : UniformTarget mat g s) (hff : o.high_energy_free_flight_paths = false)
    (hgas : o.mean_free_path_model.isGaseous = false) : ∀ (n : Nat) (p : Particle ℝ) (t : Tape ℝ),
    InFront g p → p.asymptotic_deflection = 0 → p.first_step = false → p.dir_old = p.dir → p.dir.x < 0 →
    p.pos.x + 10*g.energy_barrier_thickness ≤ n*(s*-p.dir.x) → UnitInterval t →
    ∃ k q t', k ≤ n ∧ QuietPasses rcpr mat o k p t q t' ∧ q.left = true ∧ q.stopped = false ∧
      q.E = p.E ∧ q.dir = p.dir := by
  intro n
  induction n with
  | zero =>
    intro p t hp _ _ _ _ hn _
    have := hp.within
    simp only [Nat.cast_zero, zero_mul] at hn
    linarith
  | succ n ih =>
    intro p t hp hdefl hfs hdo hdx hn hu
    have ht := h.thickness
    have hsp := h.spacing_pos
    obtain ⟨q, t1, f, hstep, hu1, hf0, hf1, hfs1, hq⟩ := free_pass (rcpr := rcpr) (o := o) h hff hgas
      p hp.not_stopped hp.not_left hp.in_front (by
        intro f hf0 hf1
        rw [hdefl, hdo]
        have := hp.in_front
        have : p.dir.x*(s*f + 0) ≤ 0 := mul_nonpos_of_nonpos_of_nonneg hdx.le (by positivity)
        linarith) t hu
    obtain rfl := hfs1 hfs
    have hqx : q.pos.x = p.pos.x - s*-p.dir.x := by
      rw [hq.pos, hdefl, hdo]; ring
    have hmove : 0 < s*-p.dir.x := mul_pos hsp (by linarith)
    have hqo : q.pos.x ≤ -g.energy_barrier_thickness := by have := hp.in_front; linarith
    obtain ⟨a1, a2, a3, a4⟩ := hq.still_out hqo
    by_cases hleft : q.left = true
    · exact ⟨1, q, t1, by omega, .succ hp.not_stopped hp.not_left hstep .zero, hleft, a3, a2, a1⟩
    · have hw : -10*g.energy_barrier_thickness < q.pos.x := by
        by_contra hc
        exact hleft (a4.mpr (le_of_not_gt hc))
      obtain ⟨k, r, t2, b1, b2, b3, b4, b5, b6⟩ := ih q t1
        ⟨a3, by simpa using hleft, hqo, hw⟩ hq.deflection hq.first_step
        (by rw [hq.dir_old, a1]) (by rw [a1]; exact hdx)
        (by rw [hqx, a1]; push_cast at hn; linarith) hu1
      exact ⟨k + 1, r, t2, by omega, .succ hp.not_stopped hp.not_left hstep b2, b3, b4,
        b5.trans a2, b6.trans a1⟩

/-- **C88** (away from the target) A particle in front of the energy barrier of a homogeneous target
that heads away from it leaves the simulation, with the energy and direction it has, for all random
numbers, after at most `n` passes whenever `n - 1` steps of one interatomic spacing along its
direction lead beyond the simulation boundary. -/
theorem C88_outward (h : UniformTarget mat g s) (hff : o.high_energy_free_flight_paths = false)
    (hgas : o.mean_free_path_model.isGaseous = false) (n : Nat) (p : Particle ℝ) (t : Tape ℝ)
    (hp : InFront g p) (hdefl : 0 ≤ p.asymptotic_deflection) (hdo : p.dir_old.x ≤ 0) (hdx : p.dir.x < 0)
    (hn : p.pos.x + 10*g.energy_barrier_thickness ≤ n*(s*-p.dir.x)) (hu : Unit01 t) :
    ∃ k q t', k ≤ n + 1 ∧ QuietPasses rcpr mat o k p t q t' ∧ q.left = true ∧ q.stopped = false ∧
      q.E = p.E ∧ q.dir = p.dir := by
  have ht := h.thickness
  have hsp := h.spacing_pos
  obtain ⟨q, t1, f, hstep, hu1, hf0, hf1, hfs1, hq⟩ := free_pass (rcpr := rcpr) (o := o) h hff hgas
    p hp.not_stopped hp.not_left hp.in_front (by
      intro f hf0 hf1
      have := hp.in_front
      have : p.dir_old.x*(s*f + p.asymptotic_deflection) ≤ 0 := mul_nonpos_of_nonpos_of_nonneg hdo (by positivity)
      linarith) t hu
  have hqx : q.pos.x = p.pos.x + p.dir_old.x*(s*f + p.asymptotic_deflection) := by
    rw [hq.pos]
  have hmove : p.dir_old.x*(s*f + p.asymptotic_deflection) ≤ 0 := mul_nonpos_of_nonpos_of_nonneg hdo (by positivity)
  have hqo : q.pos.x ≤ -g.energy_barrier_thickness := by have := hp.in_front; linarith
  obtain ⟨a1, a2, a3, a4⟩ := hq.still_out hqo
  by_cases hleft : q.left = true
  · exact ⟨1, q, t1, by omega, .succ hp.not_stopped hp.not_left hstep .zero, hleft, a3, a2, a1⟩
  · have hw : -10*g.energy_barrier_thickness < q.pos.x := by
      by_contra hc
      exact hleft (a4.mpr (le_of_not_gt hc))
    obtain ⟨k, r, t2, b1, b2, b3, b4, b5, b6⟩ := leaves_settled (rcpr := rcpr) (o := o) h hff hgas
      n q t1 ⟨a3, by simpa using hleft, hqo, hw⟩ hq.deflection hq.first_step
      (by rw [hq.dir_old, a1]) (by rw [a1]; exact hdx) (by rw [a1]; linarith) hu1
    exact ⟨k + 1, r, t2, by omega, .succ hp.not_stopped hp.not_left hstep b2, b3, b4,
      b5.trans a2, b6.trans a1⟩

theorem path_of_passes {k : Nat} {p q : Particle ℝ} {t t' : Tape ℝ}
    (h : QuietPasses rcpr mat o k p t q t') (hq : q.stopped = true ∨ q.left = true) :
    Path rcpr mat o p t q [] t' := by
  induction h with
  | zero => exact .finished hq
  | succ hs hl hstep _ ih =>
    have := Path.step hs hl hstep (ih hq)
    simpa using this

/-- **C88** (away from the target, the run) Followed by `single_ion_bca`, such a particle is alone in
the output, gone, with its energy and direction. -/
theorem C88_outward_run (h : UniformTarget mat g s) (hff : o.high_energy_free_flight_paths = false)
    (hgas : o.mean_free_path_model.isGaseous = false) (p : Particle ℝ) (t : Tape ℝ)
    (hp : InFront g p) (hdefl : 0 ≤ p.asymptotic_deflection) (hdo : p.dir_old.x ≤ 0) (hdx : p.dir.x < 0) (hu : Unit01 t) :
    ∃ fuel q t', single_ion_bca rcpr fuel p mat o t = .ok ([q], t') ∧ q.left = true ∧
      q.stopped = false ∧ q.E = p.E ∧ q.dir = p.dir := by
  have hpos : 0 < s*-p.dir.x := mul_pos h.spacing_pos (by linarith)
  obtain ⟨n, hn⟩ := exists_nat_ge ((p.pos.x + 10*g.energy_barrier_thickness)/(s*-p.dir.x))
  obtain ⟨k, q, t', _, h1, h2, h3, h4, h5⟩ := C88_outward (rcpr := rcpr) (o := o) h hff hgas n p t hp
    hdefl hdo hdx ((div_le_iff₀ hpos).mp hn) hu
  obtain ⟨fuel, hfuel⟩ := (C81_depth_first rcpr mat o p t t' [q] hp.not_stopped hp.not_left).mpr
    (.cons (path_of_passes h1 (Or.inr h2)) .nil .nil)
  exact ⟨fuel, q, t', hfuel, h2, h3, h4, h5⟩

/-- Heading towards the target, a particle in the settled state reaches the barrier. -/
theorem reaches_settled (h : UniformTarget mat g s) (hst : s ≤ g.energy_barrier_thickness)
    (hff : o.high_energy_free_flight_paths = false)
    (hgas : o.mean_free_path_model.isGaseous = false) : ∀ (n : Nat) (p : Particle ℝ) (t : Tape ℝ),
    InFront g p → p.asymptotic_deflection = 0 → p.first_step = false → p.dir_old = p.dir → 0 < p.dir.x → p.dir.x ≤ 1 →
    -g.energy_barrier_thickness - p.pos.x < n*(s*p.dir.x) → UnitInterval t →
    ∃ k q t', k ≤ n ∧ QuietPasses rcpr mat o k p t q t' ∧ -g.energy_barrier_thickness < q.pos.x ∧
      q.pos.x ≤ 0 := by
  intro n
  induction n with
  | zero =>
    intro p t hp _ _ _ _ _ hn _
    have := hp.in_front
    simp only [Nat.cast_zero, zero_mul] at hn
    linarith
  | succ n ih =>
    intro p t hp hdefl hfs hdo hdx hd1 hn hu
    have ht := h.thickness
    have hsp := h.spacing_pos
    have hle : p.dir.x*s ≤ g.energy_barrier_thickness := by nlinarith
    obtain ⟨q, t1, f, hstep, hu1, hf0, hf1, hfs1, hq⟩ := free_pass (rcpr := rcpr) (o := o) h hff hgas
      p hp.not_stopped hp.not_left hp.in_front (by
        intro f hf0 hf1
        rw [hdefl, hdo]
        have := hp.in_front
        have : p.dir.x*(s*f + 0) ≤ p.dir.x*s := by
          refine mul_le_mul_of_nonneg_left ?_ hdx.le
          nlinarith
        linarith) t hu
    obtain rfl := hfs1 hfs
    have hqx : q.pos.x = p.pos.x + s*p.dir.x := by
      rw [hq.pos, hdefl, hdo]; ring
    have hmove : 0 < s*p.dir.x := mul_pos hsp hdx
    by_cases hin : -g.energy_barrier_thickness < q.pos.x
    · refine ⟨1, q, t1, by omega, .succ hp.not_stopped hp.not_left hstep .zero, hin, ?_⟩
      have := hp.in_front
      nlinarith
    · have hqo : q.pos.x ≤ -g.energy_barrier_thickness := le_of_not_gt hin
      obtain ⟨a1, a2, a3, a4⟩ := hq.still_out hqo
      have hw : -10*g.energy_barrier_thickness < q.pos.x := by have := hp.within; linarith
      have hleft : q.left = false := by
        by_contra hc
        simp only [Bool.not_eq_false] at hc
        have := a4.mp hc
        linarith
      obtain ⟨k, r, t2, b1, b2, b3, b4⟩ := ih q t1
        ⟨a3, hleft, hqo, hw⟩ hq.deflection hq.first_step
        (by rw [hq.dir_old, a1]) (by rw [a1]; exact hdx) (by rw [a1]; exact hd1)
        (by rw [hqx, a1]; push_cast at hn; linarith) hu1
      exact ⟨k + 1, r, t2, by omega, .succ hp.not_stopped hp.not_left hstep b2, b3, b4⟩

/-- **C88** (towards the target) A particle in front of the energy barrier that heads for the target
gets to the barrier (it is between barrier and surface after a pass), for all random numbers, after
finitely many passes. -/
theorem C88_inward (h : UniformTarget mat g s) (hst : s ≤ g.energy_barrier_thickness)
    (hff : o.high_energy_free_flight_paths = false)
    (hgas : o.mean_free_path_model.isGaseous = false) (n : Nat) (p : Particle ℝ) (t : Tape ℝ)
    (hp : InFront g p) (hdefl : p.asymptotic_deflection = 0) (hdo : 0 ≤ p.dir_old.x) (hdo1 : p.dir_old.x ≤ 1) (hdx : 0 < p.dir.x)
    (hd1 : p.dir.x ≤ 1) (hn : -g.energy_barrier_thickness - p.pos.x < n*(s*p.dir.x))
    (hu : Unit01 t) :
    ∃ k q t', k ≤ n + 1 ∧ QuietPasses rcpr mat o k p t q t' ∧ -g.energy_barrier_thickness < q.pos.x ∧
      q.pos.x ≤ 0 := by
  have ht := h.thickness
  have hsp := h.spacing_pos
  have hbound : ∀ f, 0 ≤ f → f ≤ 1 → p.dir_old.x*(s*f) ≤ g.energy_barrier_thickness := by
    intro f hf0 hf1
    calc p.dir_old.x*(s*f) ≤ 1*(s*f) := mul_le_mul_of_nonneg_right hdo1 (by positivity)
      _ ≤ g.energy_barrier_thickness := by nlinarith
  obtain ⟨q, t1, f, hstep, hu1, hf0, hf1, hfs1, hq⟩ := free_pass (rcpr := rcpr) (o := o) h hff hgas
    p hp.not_stopped hp.not_left hp.in_front (by
      intro f hf0 hf1
      rw [hdefl, add_zero]
      have := hp.in_front
      have := hbound f hf0 hf1
      linarith) t hu
  have hqx : q.pos.x = p.pos.x + p.dir_old.x*(s*f) := by
    rw [hq.pos, hdefl]; ring
  have hmove : 0 ≤ p.dir_old.x*(s*f) := by positivity
  by_cases hin : -g.energy_barrier_thickness < q.pos.x
  · refine ⟨1, q, t1, by omega, .succ hp.not_stopped hp.not_left hstep .zero, hin, ?_⟩
    have := hp.in_front
    have := hbound f hf0 hf1
    linarith
  · have hqo : q.pos.x ≤ -g.energy_barrier_thickness := le_of_not_gt hin
    obtain ⟨a1, a2, a3, a4⟩ := hq.still_out hqo
    have hw : -10*g.energy_barrier_thickness < q.pos.x := by have := hp.within; linarith
    have hleft : q.left = false := by
      by_contra hc
      simp only [Bool.not_eq_false] at hc
      have := a4.mp hc
      linarith
    obtain ⟨k, r, t2, b1, b2, b3, b4⟩ := reaches_settled (rcpr := rcpr) (o := o) h hst hff hgas
      n q t1 ⟨a3, hleft, hqo, hw⟩ hq.deflection hq.first_step
      (by rw [hq.dir_old, a1]) (by rw [a1]; exact hdx) (by rw [a1]; exact hd1)
      (by rw [a1]; linarith) hu1
    exact ⟨k + 1, r, t2, by omega, .succ hp.not_stopped hp.not_left hstep b2, b3, b4⟩

theorem parallel_loop (h : UniformTarget mat g s) (hff : o.high_energy_free_flight_paths = false)
    (hgas : o.mean_free_path_model.isGaseous = false) : ∀ (fuel : Nat) (p : Particle ℝ) (i : Nat)
    (t : Tape ℝ), InFront g p → p.dir_old.x = 0 → p.dir.x = 0 → UnitInterval t →
    whileFuel TrajState.running (traj_body rcpr mat o) fuel ⟨p, [], i⟩ t = .error .fuel := by
  intro fuel
  induction fuel with
  | zero => intro p i t _ _ _ _; rfl
  | succ n ih =>
    intro p i t hp hdo hdx hu
    have ht := h.thickness
    obtain ⟨q, t1, f, hstep, hu1, hf0, hf1, hfs1, hq⟩ := free_pass (rcpr := rcpr) (o := o) h hff hgas
      p hp.not_stopped hp.not_left hp.in_front (by
        intro f hf0 hf1
        rw [hdo, zero_mul]
        have := hp.in_front
        linarith) t hu
    have hqx : q.pos.x = p.pos.x := by rw [hq.pos, hdo]; simp
    have hqo : q.pos.x ≤ -g.energy_barrier_thickness := by have := hp.in_front; linarith
    obtain ⟨a1, a2, a3, a4⟩ := hq.still_out hqo
    have hw : -10*g.energy_barrier_thickness < q.pos.x := by have := hp.within; linarith
    have hleft : q.left = false := by
      by_contra hc
      simp only [Bool.not_eq_false] at hc
      have := a4.mp hc
      linarith
    rw [whileFuel_succ_run, if_pos (by simp [TrajState.running, hp.not_stopped, hp.not_left]),
      traj_body_run, hstep]
    exact ih q 0 t1 ⟨a3, hleft, hqo, hw⟩ (by rw [hq.dir_old, hdx]) (by rw [a1, hdx])
      hu1

/-- **C88 refuted** in general: an ion in front of the energy barrier that moves parallel to the
surface never comes to an end: however many passes of the loops are allowed, and whatever the
random numbers, the run is not finished. -/
theorem C88_refuted_parallel (h : UniformTarget mat g s) (hff : o.high_energy_free_flight_paths = false)
    (hgas : o.mean_free_path_model.isGaseous = false) (p : Particle ℝ) (t : Tape ℝ)
    (hp : InFront g p) (hdo : p.dir_old.x = 0) (hdx : p.dir.x = 0) (hu : Unit01 t) (fuel : Nat) :
    single_ion_bca rcpr fuel p mat o t = .error .fuel := by
  unfold single_ion_bca
  cases fuel with
  | zero => rfl
  | succ n =>
    simp only [bind, StateT.bind]
    rw [whileFuel_succ_run, if_pos (by simp),
      show ([p] : List (Particle ℝ)) = [] ++ [p] from rfl, cascade_body_run,
      parallel_loop h hff hgas (n + 1) p 1 t hp hdo hdx hu]
    rfl

end RustBCA
