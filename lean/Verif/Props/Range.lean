import Verif.Spec.Range
import Verif.Props.Energy
import Verif.Props.LocalLoss
import Verif.Props.Geometry
import Verif.Props.Recoils
import Verif.Spec.Vacuum
import Mathlib.Analysis.SpecialFunctions.Integrals.Basic

/-!
# C100: the electronic range
-/

set_option linter.unusedSimpArgs false
set_option linter.unusedVariables false

namespace RustBCA
open Scalar Spec

/-! ## One step -/

theorem inv_antitone {S : ℝ → ℝ} {Emax a b : ℝ} (h : Growing S Emax) (ha : 0 < a) (hb : 0 < b) (h1 : a ≤ Emax) (h2 : b ≤ Emax) :
    AntitoneOn (fun e => 1/S e) (Set.uIcc a b) := by
  intro x hx y hy hxy
  have hx0 : 0 < x := lt_of_lt_of_le (lt_min ha hb) hx.1
  have hy0 : 0 < y := lt_of_lt_of_le (lt_min ha hb) hy.1
  have hy1 : y ≤ Emax := le_trans hy.2 (max_le h1 h2)
  exact one_div_le_one_div_of_le (h.pos x hx0 (hxy.trans hy1)) (h.mono x y hx0 hxy hy1)

theorem inv_integrable {S : ℝ → ℝ} {Emax a b : ℝ} (h : Growing S Emax) (ha : 0 < a) (hb : 0 < b) (h1 : a ≤ Emax) (h2 : b ≤ Emax) :
    IntervalIntegrable (fun e => 1/S e) MeasureTheory.volume a b :=
  (inv_antitone h ha hb h1 h2).intervalIntegrable

/-- Below `b` the integral of `1/S` is at least that with `S b`. -/
theorem slowing_ge {S : ℝ → ℝ} {Emax a b : ℝ} (h : Growing S Emax) (ha : 0 < a) (hab : a ≤ b) (h2 : b ≤ Emax) :
    (b - a)/S b ≤ ∫ e in a..b, 1/S e := by
  have hb := lt_of_lt_of_le ha hab
  have : ∫ _ in a..b, 1/S b ≤ ∫ e in a..b, 1/S e := by
    refine intervalIntegral.integral_mono_on hab (intervalIntegrable_const) (inv_integrable h ha hb (hab.trans h2) h2) ?_
    intro e he
    exact one_div_le_one_div_of_le (h.pos e (lt_of_lt_of_le ha he.1) (he.2.trans h2)) (h.mono e b (lt_of_lt_of_le ha he.1) he.2 h2)
  rw [intervalIntegral.integral_const, smul_eq_mul] at this
  calc (b - a)/S b = (b - a)*(1/S b) := by ring
    _ ≤ _ := this

/-- Above `a` it is at most that with `S a`. -/
theorem slowing_le {S : ℝ → ℝ} {Emax a b : ℝ} (h : Growing S Emax) (ha : 0 < a) (hab : a ≤ b) (h2 : b ≤ Emax) :
    ∫ e in a..b, 1/S e ≤ (b - a)/S a := by
  have hb := lt_of_lt_of_le ha hab
  have : ∫ e in a..b, 1/S e ≤ ∫ _ in a..b, 1/S a := by
    refine intervalIntegral.integral_mono_on hab (inv_integrable h ha hb (hab.trans h2) h2) (intervalIntegrable_const) ?_
    intro e he
    exact one_div_le_one_div_of_le (h.pos a ha (hab.trans h2)) (h.mono a e ha he.1 (he.2.trans h2))
  rw [intervalIntegral.integral_const, smul_eq_mul] at this
  calc _ ≤ (b - a)*(1/S a) := this
    _ = (b - a)/S a := by ring

/-- A loss of `S E1 * d` takes at least the path `d` of continuous slowing down. -/
theorem step_range {S : ℝ → ℝ} {Emax E0 E1 E' d : ℝ} (h : Growing S Emax) (h0 : S 0 = 0) (h1 : 0 ≤ E1) (h2 : E1 ≤ E0)
    (h3 : E0 ≤ Emax) (h4 : 0 < E') (h5 : E' ≤ Emax) (hl : E' ≤ E1 - S E1*d) : d ≤ slowingDown S E0 E' := by
  have hE1 : 0 < E1 := by
    rcases h1.lt_or_eq with h | h
    · exact h
    · rw [← h, h0] at hl; linarith
  have hS : 0 < S E1 := h.pos E1 hE1 (h2.trans h3)
  have hE0 : 0 < E0 := lt_of_lt_of_le hE1 h2
  have split : slowingDown S E0 E' = (∫ e in E'..E1, 1/S e) + ∫ e in E1..E0, 1/S e :=
    (intervalIntegral.integral_add_adjacent_intervals (inv_integrable h h4 hE1 h5 (h2.trans h3))
      (inv_integrable h hE1 hE0 (h2.trans h3) h3)).symm
  have hrest : 0 ≤ ∫ e in E1..E0, 1/S e := by
    refine intervalIntegral.integral_nonneg h2 fun e he => ?_
    exact (one_div_pos.2 (h.pos e (lt_of_lt_of_le hE1 he.1) (he.2.trans h3))).le
  have hd : d ≤ (E1 - E')/S E1 := by
    rw [le_div_iff₀ hS]; linarith
  rw [split]
  rcases le_total E' E1 with hle | hle
  · have := slowing_ge h h4 hle (h2.trans h3)
    linarith
  · have := slowing_le h hE1 hle h5
    rw [intervalIntegral.integral_symm]
    have e : (E1 - E')/S E1 = -((E' - E1)/S E1) := by ring
    linarith

theorem slowing_add {S : ℝ → ℝ} {Emax a b c : ℝ} (h : Growing S Emax) (ha : 0 < a) (hb : 0 < b) (hc : 0 < c) (h1 : a ≤ Emax)
    (h2 : b ≤ Emax) (h3 : c ≤ Emax) : slowingDown S a b + slowingDown S b c = slowingDown S a c := by
  unfold slowingDown
  rw [add_comm]
  exact intervalIntegral.integral_add_adjacent_intervals (inv_integrable h hc hb h3 h2) (inv_integrable h hb ha h2 h1)

/-! ## One pass -/

theorem zip_comm_sum (S ns : List ℝ) (d : ℝ) : braggLoss S ns d = (List.zipWith (fun a b => a*b) S ns).sum*d := by
  unfold braggLoss; rfl

theorem local_nonneg (Za Zb Se x0 : ℝ) (V : InteractionPotential ℝ) (h : 0 ≤ Se) : 0 ≤ oen_robinson_loss Za Zb Se x0 V := by
  rw [oen_spec]; unfold oenRobinson
  have := Real.pi_pos
  have h1 := Real.exp_pos (-(first_screening_radius V*x0))
  positivity

theorem zip_map_sum (Zs ns : List ℝ) (f : ℝ → ℝ) :
    (List.zipWith (·*·) (Zs.map f) ns).sum = (List.zipWith (fun Zb n => f Zb*n) Zs ns).sum := by
  rw [List.zipWith_map_left]

theorem lindhard_nonneg (E m Za Zb : ℝ) (hA : 0 < Za) (hB : 0 < Zb) : 0 ≤ lindhardScharff E m Za Zb := by
  unfold lindhardScharff
  have h1 : (0:ℝ) ≤ ANGSTROM ℝ := by unfold ANGSTROM; norm_num
  have h2 : (0:ℝ) ≤ Q ℝ := by unfold Q; norm_num
  have h3 := Real.sqrt_nonneg ((E/Q ℝ)/(m/AMU ℝ))
  positivity

/-- Inside a target of uniform composition, electronic stopping takes at least the stopping power times the
distance. -/
theorem path_loss {mat : Material ℝ} {ns : List ℝ} {ck : ℝ} (hu : SameEverywhere mat ns ck) (hm : SoundTarget mat)
    {p : Particle ℝ} (hp : SoundParticle p) (hin : IsInside mat p) (d x0 sz : ℝ) (si : ℕ) (o : Options ℝ) :
    RSat (subtract_electronic_stopping_energy p mat d x0 sz si o) (fun r =>
      r.1.E ≤ max 0 (p.E - pathStopping o.electronic_stopping_mode ck mat.Z ns p.Z p.m p.E*d)) (fun _ => True) := by
  have hck : 0 ≤ ck := hm.ck 0 0 0 ck (hu.ck 0 0 0)
  have hcs := C82_cross_sections mat p o.electronic_stopping_mode ck ns (hu.ck _ _ _) (hu.densities _ _ _) hu.length
  unfold subtract_electronic_stopping_energy Material.inside Material.number_densities
  unfold IsInside at hin
  simp only [rsat_bind, rsat_assert, implies_true, and_true, hin, hu.densities, hcs, rsat_ok, if_true]
  intro hn
  refine rsat_mono (rsat_trivial _) (fun row _ => ?_) (fun _ _ => trivial)
  refine rsat_mono (rsat_trivial _) (fun ti _ => ?_) (fun _ _ => trivial)
  refine rsat_mono (rsat_trivial _) (fun V _ => ?_) (fun _ _ => trivial)
  have fin : ∀ loss : ℝ, pathStopping o.electronic_stopping_mode ck mat.Z ns p.Z p.m p.E*d ≤ loss →
      (if (p.E + -loss) <. 0.0 then (0.0:ℝ) else p.E + -loss) ≤
        max 0 (p.E - pathStopping o.electronic_stopping_mode ck mat.Z ns p.Z p.m p.E*d) := by
    intro loss hl
    have e0 : (0.0:ℝ) = 0 := by norm_num
    rw [e0]
    by_cases h : ((p.E + -loss) <. (0:ℝ)) = true
    · rw [if_pos h]; exact le_max_left _ _
    · rw [if_neg h]; exact le_trans (by linarith) (le_max_right _ _)
  have low : ∀ (i : ℕ) (se : ℝ), ((mat.Z.map fun Zb => lindhardScharff p.E p.m p.Z Zb*ck)[i]? = some se) → 0 ≤ se := by
    intro i se h
    rw [List.getElem?_map] at h
    obtain ⟨Zb, hZ, rfl⟩ := Option.map_eq_some_iff.1 h
    exact mul_nonneg (lindhard_nonneg _ _ _ _ hp.Z (hm.Z _ (List.mem_of_getElem? hZ))) hck
  have h05 : (0.5:ℝ) = 1/2 := by norm_num
  cases hmode : o.electronic_stopping_mode with
  | INTERPOLATED =>
    simp only [rsat_pure, rsat_assert, implies_true, and_true, hmode] at fin ⊢
    intro _
    refine fin _ ?_
    rw [bragg_spec, zip_comm_sum, zip_map_sum]
    exact le_of_eq rfl
  | LOW_ENERGY_NONLOCAL =>
    simp only [rsat_pure, rsat_assert, implies_true, and_true, hmode] at fin ⊢
    intro _
    refine fin _ ?_
    rw [bragg_spec, zip_comm_sum, zip_map_sum]
    exact le_of_eq rfl
  | LOW_ENERGY_LOCAL =>
    simp only [rsat_bind, hmode] at fin ⊢
    refine rsat_mono (rsat_vget_some _ _) (fun se hse => ?_) (fun _ _ => trivial)
    simp only [rsat_pure, rsat_assert, implies_true, and_true]
    intro _
    refine fin _ ?_
    have := local_nonneg p.Z sz se x0 V (low _ _ hse)
    simp only [pathStopping]
    linarith
  | LOW_ENERGY_EQUIPARTITION =>
    simp only [rsat_bind, hmode] at fin ⊢
    refine rsat_mono (rsat_vget_some _ _) (fun se hse => ?_) (fun _ _ => trivial)
    simp only [rsat_pure, rsat_assert, implies_true, and_true]
    intro _
    refine fin _ ?_
    have := local_nonneg p.Z sz se x0 V (low _ _ hse)
    rw [bragg_spec, zip_comm_sum, zip_map_sum, h05]
    simp only [pathStopping]
    nlinarith

/-- What a pass that begins and ends inside the material does. -/
structure InsidePass (mat : Material ℝ) (o : Options ℝ) (S : ℝ → ℝ) (t : Tape ℝ) (p q : Particle ℝ) : Prop where
  sound : SoundParticle q
  dir_old : Spec.inner q.dir_old q.dir_old ≤ 1
  Z : q.Z = p.Z
  m : q.m = p.m
  Ec : q.Ec = p.Ec
  first_step : q.first_step = false
  running : p.stopped = false → p.left = false → q.stopped = false → q.left = false → p.Ec ≤ q.E
  loss : ∃ p1 gs t1 g0 E1, determine_mfp_phi_impact_parameter p mat o t = .ok ((p1, gs), t1) ∧ gs[0]? = some g0 ∧
    0 ≤ E1 ∧ E1 ≤ p.E ∧
    q.E ≤ max 0 (E1 - S E1*(g0.mfp + p.asymptotic_deflection - q.asymptotic_deflection)) ∧
    q.pos = ⟨p.pos.x + p.dir_old.x*(g0.mfp + p.asymptotic_deflection - q.asymptotic_deflection),
      p.pos.y + p.dir_old.y*(g0.mfp + p.asymptotic_deflection - q.asymptotic_deflection),
      p.pos.z + p.dir_old.z*(g0.mfp + p.asymptotic_deflection - q.asymptotic_deflection)⟩

set_option maxHeartbeats 1000000 in
theorem inside_pass (rcpr : Rcpr ℝ) {mat : Material ℝ} (o : Options ℝ) {ns : List ℝ} {ck : ℝ} (hu : SameEverywhere mat ns ck)
    (hm : SoundTarget mat) (hnest : BarrierEncloses mat.geometry) {p q : Particle ℝ} (hp : SoundParticle p) {ps qs : List (Particle ℝ)}
    {t t' : Tape ℝ} (run : trajectory_step rcpr mat o p ps t = .ok ((q, qs), t')) (hin : IsInside mat p) (hin' : IsInside mat q) :
    InsidePass mat o (pathStopping o.electronic_stopping_mode ck mat.Z ns p.Z p.m) t p q := by
  obtain ⟨tr⟩ := sat_of_ok (pass_trace rcpr mat o p ps t) run
  simp only at tr
  have hp1 := sat_of_ok (mfp_first p mat o t) tr.hmfp
  simp only at hp1
  have hp1s : SoundParticle tr.p1 := by
    rw [hp1]; exact ⟨hp.m, hp.Z, hp.E, hp.Es, hp.dir⟩
  have hC := sat_of_ok (collide_sound rcpr o hm _ _ tr.t1 (by exact hp1s)) tr.hloop
  have hE1 := (C11_energy_through_collision_loop rcpr mat o _ _ _ _ _ hp1s.m hp1s.E hm.m tr.hloop)
  obtain ⟨E1, d1, n1, hs1, _, _⟩ := tr.s_eq.particle
  obtain ⟨a1, a2, a3, a4, a5, a6, a7, a8, a9, a10⟩ :=
    advance_same tr.s.particle_1 tr.g0.mfp tr.s.total_asymptotic_deflection
  have hadv : ∀ (x : Particle ℝ) (a c : ℝ), (x.advance a c).1.pos =
      ⟨x.pos.x + x.dir_old.x*(a + x.asymptotic_deflection - c), x.pos.y + x.dir_old.y*(a + x.asymptotic_deflection - c),
        x.pos.z + x.dir_old.z*(a + x.asymptotic_deflection - c)⟩ ∧ (x.advance a c).1.dir_old = x.dir ∧
      (x.advance a c).1.Ec = x.Ec ∧ (x.advance a c).1.first_step = x.first_step ∧
      ((x.advance a c).1.stopped = x.stopped ∧ (x.advance a c).1.left = x.left) := by
    intro x a c
    unfold Particle.advance
    by_cases h : (x.E >. x.Ec) = true
    · obtain ⟨l, hl⟩ := utt_same x
      simp only [h, if_true, hl, and_self]
    · simp only [h, Bool.false_eq_true, if_false, and_self]
  obtain ⟨c1, c2, c3, c4, c5⟩ := hadv tr.s.particle_1 tr.g0.mfp tr.s.total_asymptotic_deflection
  have hq := tr.q_eq
  have hstop := tr.hstop
  have hbound := tr.hbound
  generalize (tr.s.particle_1.advance tr.g0.mfp tr.s.total_asymptotic_deflection).2 = d at *
  generalize (tr.s.particle_1.advance tr.g0.mfp tr.s.total_asymptotic_deflection).1 = pa at *
  have hpa : SoundParticle pa :=
    ⟨a2 ▸ hC.moving.m, a3 ▸ hC.moving.Z, a1 ▸ hC.moving.E, a4 ▸ hC.moving.Es,
      by rw [a5]; exact hC.moving.dir⟩
  obtain ⟨⟨E3, hp3⟩, b1, b2, b3, b4⟩ :=
    rsat_of_ok (subtract_sound hm hpa d _ _ _ o) hstop
  simp only at hp3 b1 b2 b3 b4
  obtain ⟨⟨l, hl⟩, hen⟩ := tracker_same tr.p3 o tr.s.total_energy_lost_to_recoils tr.el
  rw [hl] at hen hbound hq
  have hB := rsat_of_ok (boundary_sound (p := { tr.p3 with energies := l }) hm b1
    (by rw [hp3]; exact hpa.dir) (by rw [hp3]; exact hpa.Es)) hbound
  obtain ⟨Eq', dq, bq, stq, lfq, lq, hqe⟩ := hq
  have f1 : tr.s.particle_1.m = p.m := by rw [hs1, hp1]
  have f2 : tr.s.particle_1.Z = p.Z := by rw [hs1, hp1]
  have f4 : tr.s.particle_1.pos = p.pos := by rw [hs1, hp1]
  have f5 : tr.s.particle_1.asymptotic_deflection = p.asymptotic_deflection := by rw [hs1, hp1]
  have f6 : tr.s.particle_1.dir_old = p.dir_old := by rw [hs1, hp1]
  have f7 : tr.s.particle_1.Ec = p.Ec := by rw [hs1, hp1]
  have f9 : tr.s.particle_1.first_step = false := by rw [hs1, hp1]
  have f8 : tr.p1.E = p.E := by rw [hp1]
  have g1 : tr.p3.m = p.m := by rw [hp3, ← f1]; exact a2
  have g2 : tr.p3.Z = p.Z := by rw [hp3, ← f2]; exact a3
  have g4 : tr.p3.pos_old = p.pos := by rw [hp3, ← f4]; exact a6
  have g5 : tr.p3.asymptotic_deflection = tr.s.total_asymptotic_deflection := by rw [hp3]; exact a8
  have g6 : tr.p3.pos = pa.pos := by rw [hp3]
  have hqpos : q.pos = tr.p3.pos := by have h := congrArg Particle.pos hqe; exact h
  have hqasy : q.asymptotic_deflection = tr.s.total_asymptotic_deflection :=
    (congrArg Particle.asymptotic_deflection hqe).trans g5
  have hqdo : q.dir_old = tr.s.particle_1.dir :=
    (congrArg Particle.dir_old hqe).trans (by rw [hp3]; exact c2)
  have hqEc : q.Ec = p.Ec := (congrArg Particle.Ec hqe).trans (by rw [hp3]; exact c3.trans f7)
  have hqfs : q.first_step = false := (congrArg Particle.first_step hqe).trans (by rw [hp3]; exact c4.trans f9)
  have hpain : IsInside mat pa := by
    unfold IsInside at hin' ⊢
    rw [hqpos, g6] at hin'; exact hin'
  have hloss := rsat_of_ok (path_loss hu hm hpa hpain d _ _ _ o) hstop
  simp only at hloss
  refine ⟨⟨by rw [hB.m]; exact g1 ▸ hp.m, by rw [hB.Z]; exact g2 ▸ hp.Z, hB.E,
      by rw [hB.Es]; rw [hp3]; exact hpa.Es, hB.dir⟩, by rw [hqdo]; exact hC.moving.dir, by rw [hB.Z]; exact g2,
      by rw [hB.m]; exact g1, hqEc, hqfs, ?_, tr.p1, tr.gs, tr.t1, tr.g0, tr.s.particle_1.E, tr.hmfp, tr.hg0, hC.moving.E, ?_, ?_, ?_⟩
  · intro hst hlf hst' hlf'
    have e1 : tr.p3.stopped = false := by
      rw [hp3]
      exact (c5.1.trans (by rw [hs1, hp1]; exact hst))
    have e2 : tr.p3.left = false := by
      rw [hp3]
      exact (c5.2.trans (by rw [hs1, hp1]; exact hlf))
    have hbar : mat.geometry.inside_energy_barrier pa.pos.x pa.pos.y pa.pos.z = .ok true := hnest _ _ _ hpain
    obtain ⟨sim, hsim⟩ : ∃ b, mat.geometry.inside_simulation_boundary pa.pos.x pa.pos.y pa.pos.z = .ok b := by
      cases hb : mat.geometry.inside_simulation_boundary pa.pos.x pa.pos.y pa.pos.z with
      | ok b => exact ⟨b, rfl⟩
      | error e =>
        have hb' : mat.geometry.inside_simulation_boundary tr.p3.pos.x tr.p3.pos.y tr.p3.pos.z = .error e := by
          rw [g6]; exact hb
        unfold boundary_condition_planar Material.inside_simulation_boundary at hbound
        simp only [hb', bind, Except.bind] at hbound
        cases hbound
    obtain ⟨k1, k2, k3, k4, _⟩ := C33_boundary { tr.p3 with energies := l } q mat sim true (by simp only [g6]; exact hsim)
      (by simp only [g6]; exact hbar) e2 e1 hbound
    have hsimt : sim = true := by
      by_contra hc
      have := k1.2 (by simpa using hc)
      rw [hlf'] at this; cases this
    have hge : ¬ ((tr.p3.E <. tr.p3.Ec) = true) := by
      intro h
      have := k2.2 ⟨hsimt, h, rfl⟩
      rw [hst'] at this; cases this
    have hsurf := (k4 hlf' hst').1
    have hsame : ({ tr.p3 with energies := l } : Particle ℝ) = q := by
      cases hEs : mat.actual_surface_binding_energy { tr.p3 with energies := l } tr.p3.pos_old.x tr.p3.pos_old.y tr.p3.pos_old.z with
      | error e =>
        unfold surface_binding_energy at hsurf
        simp only [hEs, bind, Except.bind] at hsurf
        cases hsurf
      | ok Es =>
        rw [C31_no_crossing { tr.p3 with energies := l } mat Es true
          ⟨by simp only [g4]; exact hnest _ _ _ hin, by simp only [g6]; exact hbar⟩ hEs] at hsurf
        exact Except.ok.inj hsurf
    have hE : q.E = tr.p3.E := (congrArg Particle.E hsame).symm
    rw [hE, ← f7, ← c3, show pa.Ec = tr.p3.Ec by rw [hp3]]
    exact (lt_real_false _ _).1 (by simpa using hge)
  · have := hE1.2.1
    rw [← f8]
    have h2 := hC.ledger
    simp only at this h2
    linarith
  · have h1 : q.E ≤ tr.p3.E := by
      rcases hB.gain with h | ⟨Es, _, _, h4, _⟩
      · exact h
      · simp only [g4] at h4
        rw [hnest _ _ _ hin] at h4
        cases h4
    refine h1.trans ?_
    rw [a2, f1, a3, f2, a1, a7, f5] at hloss
    rw [hqasy]
    exact hloss
  · rw [hqpos, g6, c1, f4, f5, f6, hqasy]

/-! ## Many passes -/

theorem stopping_zero (mode : ElectronicStoppingMode) (ck : ℝ) (Zs ns : List ℝ) (Za m : ℝ) : pathStopping mode ck Zs ns Za m 0 = 0 := by
  have hl : ∀ Zb, lindhardScharff 0 m Za Zb = 0 := by intro Zb; unfold lindhardScharff; simp
  have hb : ∀ Zb, betheBiersack (relativisticBeta 0 m) Za Zb = 0 := by
    intro Zb; unfold betheBiersack relativisticBeta; simp
  have hz : ∀ (l l' : List ℝ), (List.zipWith (fun _ _ => (0:ℝ)) l l').sum = 0 := by
    intro l
    induction l with
    | nil => intro l'; simp
    | cons a l ih =>
      intro l'
      cases l' with
      | nil => simp
      | cons b l' => simp [ih]
  cases mode <;> simp only [pathStopping, hl, hb, zero_mul, div_zero, add_zero, hz, zero_div]

theorem apart_triangle (a b c : Vec3 ℝ) : apart a c ≤ apart a b + apart b c := by
  have e : ∀ a b : Vec3 ℝ, apart a b = ‖(!₂[b.x - a.x, b.y - a.y, b.z - a.z] : EuclideanSpace ℝ (Fin 3))‖ := by
    intro a b
    rw [EuclideanSpace.norm_eq]
    simp [Fin.sum_univ_three, apart]
  rw [e, e, e]
  have : (!₂[c.x - a.x, c.y - a.y, c.z - a.z] : EuclideanSpace ℝ (Fin 3)) =
      !₂[b.x - a.x, b.y - a.y, b.z - a.z] + !₂[c.x - b.x, c.y - b.y, c.z - b.z] := by
    ext i; fin_cases i <;> simp
  rw [this]
  exact norm_add_le _ _

theorem apart_step (a v : Vec3 ℝ) (d : ℝ) (hv : Spec.inner v v ≤ 1) (hd : 0 ≤ d) :
    apart a ⟨a.x + v.x*d, a.y + v.y*d, a.z + v.z*d⟩ ≤ d := by
  unfold apart
  rw [Real.sqrt_le_left hd]
  simp only [Spec.inner] at hv
  simp only [add_sub_cancel_left]
  have : (v.x*d)^2 + (v.y*d)^2 + (v.z*d)^2 = (v.x*v.x + v.y*v.y + v.z*v.z)*d^2 := by ring
  rw [this]
  nlinarith [sq_nonneg d]

section
variable (rcpr : Rcpr ℝ) {mat : Material ℝ} (o : Options ℝ) {ns : List ℝ} {ck : ℝ} (hu : SameEverywhere mat ns ck)
  (hm : SoundTarget mat) (hnest : BarrierEncloses mat.geometry) {p : Particle ℝ} (hp : SoundParticle p)
include hu hm hnest hp

/-- **C100, the range.** In a target of uniform composition, as long as a particle stays inside and goes forward, the
path it has gone is at most the path on which continuous electronic slowing down would have taken it to the energy it
has; so it is never farther from where it began. -/
theorem C100_range (hdo : Spec.inner p.dir_old p.dir_old ≤ 1)
    (hS : Growing (pathStopping o.electronic_stopping_mode ck mat.Z ns p.Z p.m) p.E) (n : ℕ) (L : ℝ) (q : Particle ℝ)
    (h : StaysInside rcpr mat o (Forwards mat o) p n L q) (hq : 0 < q.E) :
    L ≤ slowingDown (pathStopping o.electronic_stopping_mode ck mat.Z ns p.Z p.m) p.E q.E ∧ apart p.pos q.pos ≤ L ∧ q.E ≤ p.E := by
  have key : ∀ n L q, StaysInside rcpr mat o (Forwards mat o) p n L q → SoundParticle q ∧ Spec.inner q.dir_old q.dir_old ≤ 1 ∧
      q.Z = p.Z ∧ q.m = p.m ∧ IsInside mat q ∧ q.E ≤ p.E ∧ apart p.pos q.pos ≤ L ∧
      (0 < q.E → L ≤ slowingDown (pathStopping o.electronic_stopping_mode ck mat.Z ns p.Z p.m) p.E q.E) := by
    intro n L q h
    induction h with
    | start hin =>
      refine ⟨hp, hdo, rfl, rfl, hin, le_rfl, ?_, fun _ => ?_⟩
      · simp [apart]
      · simp [slowingDown]
    | @pass n L q ps t r qs t' h hst hlf run hG hin ih =>
      obtain ⟨i1, i2, i3, i4, i5, i6, i7, i8⟩ := ih
      have hP := inside_pass rcpr o hu hm hnest i1 run i5 hin
      rw [i3, i4] at hP
      obtain ⟨p1, gs, t1, g0, E1, hdet, hg0, hE0, hE1, hE, hpos⟩ := hP.loss
      have hd := hG p1 gs t1 g0 hdet hg0
      generalize g0.mfp + q.asymptotic_deflection - r.asymptotic_deflection = d at *
      have hz := stopping_zero o.electronic_stopping_mode ck mat.Z ns q.Z q.m
      rw [i3, i4] at hz
      have hSE : 0 ≤ pathStopping o.electronic_stopping_mode ck mat.Z ns p.Z p.m E1 := by
        rcases hE0.lt_or_eq with h | h
        · exact (hS.pos E1 h (hE1.trans i6)).le
        · rw [← h, hz]
      have hrq : r.E ≤ q.E := by
        refine hE.trans (max_le i1.E ?_)
        have := mul_nonneg hSE hd
        linarith
      have hstep : apart q.pos r.pos ≤ d := by rw [hpos]; exact apart_step q.pos q.dir_old d i2 hd
      refine ⟨hP.sound, hP.dir_old, hP.Z.trans i3, hP.m.trans i4, hin, hrq.trans i6, ?_, fun hr => ?_⟩
      · exact (apart_triangle _ q.pos _).trans (add_le_add i7 le_rfl)
      · have hq0 : 0 < q.E := lt_of_lt_of_le hr hrq
        have h1 := i8 hq0
        have h2 := step_range hS hz hE0 hE1 i6 hr (hrq.trans i6) (by
          rcases le_max_iff.1 hE with h | h
          · exact absurd hr (not_lt.2 h)
          · exact h)
        rw [← slowing_add hS (lt_of_lt_of_le hq0 i6) hq0 hr le_rfl i6 (hrq.trans i6)]
        linarith
  obtain ⟨_, _, _, _, _, h1, h2, h3⟩ := key n L q h
  exact ⟨h3 hq, h2, h1⟩

/-- **C100, the number of passes.** Without free-flight paths and in a solid, where the free path is the spacing `s`,
`n` passes inside the material make a path of `n*s` (less up to `s` for the random first step) but for the difference of
the asymptotic deflections, and continuous slowing down takes at least that path for the energy lost. -/
theorem C100_passes {s : ℝ} (hn : 0 < ns.sum) (hs : IsSpacing ns.sum s) (hff : o.high_energy_free_flight_paths = false)
    (hliq : o.mean_free_path_model.isGaseous = false) (Emax : ℝ) (hpE : p.E ≤ Emax)
    (hS : Growing (pathStopping o.electronic_stopping_mode ck mat.Z ns p.Z p.m) Emax) (n : ℕ) (L : ℝ) (q : Particle ℝ)
    (h : StaysInside rcpr mat o (fun t _ r => Unit01 t ∧ 0 < r.E ∧ r.E ≤ Emax) p n L q) (hp0 : 0 < p.E) :
    n*s + p.asymptotic_deflection - q.asymptotic_deflection ≤
      slowingDown (pathStopping o.electronic_stopping_mode ck mat.Z ns p.Z p.m) p.E q.E + if p.first_step then s else 0 := by
  have hs0 : 0 ≤ s := hs.1.le
  have key : ∀ n L q, StaysInside rcpr mat o (fun t _ r => Unit01 t ∧ 0 < r.E ∧ r.E ≤ Emax) p n L q → SoundParticle q ∧
      q.Z = p.Z ∧ q.m = p.m ∧ IsInside mat q ∧ 0 < q.E ∧ q.E ≤ Emax ∧
      n*s + p.asymptotic_deflection - q.asymptotic_deflection ≤
        slowingDown (pathStopping o.electronic_stopping_mode ck mat.Z ns p.Z p.m) p.E q.E +
          (if p.first_step then s else 0) - (if q.first_step then s else 0) := by
    intro n L q h
    induction h with
    | start hin =>
      refine ⟨hp, rfl, rfl, hin, hp0, hpE, ?_⟩
      simp [slowingDown]
    | @pass n L q ps t r qs t' h hst hlf run hG hin ih =>
      obtain ⟨i1, i3, i4, i5, i6, i7, i8⟩ := ih
      obtain ⟨hun, hr, hrE⟩ := hG
      have hP := inside_pass rcpr o hu hm hnest i1 run i5 hin
      rw [i3, i4] at hP
      obtain ⟨p1, gs, t1, g0, E1, hdet, hg0, hE0, hE1, hE, hpos⟩ := hP.loss
      obtain ⟨gs', t2, hdet', _, _, ⟨f, e, hmfp, hf, he⟩, _⟩ := annuli_rest q mat o t ns s (hu.densities _ _ _) hn hs hff hun
      rw [hdet] at hdet'
      simp only [Except.ok.injEq, Prod.mk.injEq] at hdet'
      have hg : g0.mfp = s*f*e := hmfp g0 (hdet'.1.2 ▸ List.mem_of_getElem? hg0)
      rw [hliq] at he
      simp only [Bool.false_eq_true, if_false] at he
      rw [he, mul_one] at hg
      have hf1 : s - g0.mfp ≤ if q.first_step then s else 0 := by
        rw [hg, hf]
        by_cases hfs : q.first_step = true
        · simp only [hfs, if_true]
          have := (hun (2*(o.weak_collision_order + 1))).1
          nlinarith
        · simp only [hfs, Bool.false_eq_true, if_false]; linarith
      have hz := stopping_zero o.electronic_stopping_mode ck mat.Z ns p.Z p.m
      have h2 := step_range hS hz hE0 hE1 i7 hr hrE (by
          rcases le_max_iff.1 hE with h | h
          · exact absurd hr (not_lt.2 h)
          · exact h)
      refine ⟨hP.sound, hP.Z.trans i3, hP.m.trans i4, hin, hr, hrE, ?_⟩
      rw [← slowing_add hS hp0 i6 hr hpE i7 hrE, hP.first_step]
      simp only [Bool.false_eq_true, if_false, sub_zero]
      push_cast
      linarith
  have := (key n L q h).2.2.2.2.2.2
  have h2 : (0:ℝ) ≤ if q.first_step then s else 0 := by split <;> simp [hs0]
  linarith

/-- **C88, inside the material.** A particle that stays inside the material and is still followed after `n` passes has
made at most as many passes as the spacing fits into the path on which the stopping power at the cutoff energy takes
all its energy away, one more, and what the asymptotic deflections make up for. -/
theorem C88_inside {s : ℝ} (hn : 0 < ns.sum) (hs : IsSpacing ns.sum s) (hff : o.high_energy_free_flight_paths = false)
    (hliq : o.mean_free_path_model.isGaseous = false) (Emax : ℝ) (hpE : p.E ≤ Emax) (hEc : 0 < p.Ec) (hEc' : p.Ec ≤ Emax)
    (hS : Growing (pathStopping o.electronic_stopping_mode ck mat.Z ns p.Z p.m) Emax) (n : ℕ) (L : ℝ) (q : Particle ℝ)
    (h : StaysInside rcpr mat o (fun t _ r => Unit01 t ∧ r.E ≤ Emax ∧ r.stopped = false ∧ r.left = false) p n L q)
    (hp0 : 0 < p.E) :
    n*s ≤ p.E/pathStopping o.electronic_stopping_mode ck mat.Z ns p.Z p.m p.Ec + s + q.asymptotic_deflection -
      p.asymptotic_deflection := by
  have hs0 : 0 ≤ s := hs.1.le
  have key : ∀ n L q, StaysInside rcpr mat o (fun t _ r => Unit01 t ∧ r.E ≤ Emax ∧ r.stopped = false ∧ r.left = false) p n L q →
      SoundParticle q ∧ IsInside mat q ∧ (0 < n → p.Ec ≤ q.E) ∧ q.Ec = p.Ec ∧ q.E ≤ Emax ∧
      StaysInside rcpr mat o (fun t _ r => Unit01 t ∧ 0 < r.E ∧ r.E ≤ Emax) p n L q := by
    intro n L q h
    induction h with
    | start hin => exact ⟨hp, hin, fun h => absurd h (lt_irrefl _), rfl, hpE, .start hin⟩
    | @pass n L q ps t r qs t' h hst hlf run hG hin ih =>
      obtain ⟨i1, i2, i3, i4, i5, i6⟩ := ih
      obtain ⟨hun, hrE, hrs, hrl⟩ := hG
      have hP := inside_pass rcpr o hu hm hnest i1 run i2 hin
      have hr := hP.running hst hlf hrs hrl
      rw [i4] at hr
      exact ⟨hP.sound, hin, fun _ => hr, hP.Ec.trans i4, hrE, .pass i6 hst hlf run ⟨hun, lt_of_lt_of_le hEc hr, hrE⟩ hin⟩
  obtain ⟨_, _, k1, _, k2, k3⟩ := key n L q h
  have hb := C100_passes rcpr o hu hm hnest hp hn hs hff hliq Emax hpE hS n L q k3 hp0
  have hif : (if p.first_step then s else 0) ≤ s := by split <;> simp [hs0]
  rcases Nat.eq_zero_or_pos n with h0 | h0
  · subst h0
    cases h
    have : 0 ≤ p.E/pathStopping o.electronic_stopping_mode ck mat.Z ns p.Z p.m p.Ec :=
      div_nonneg hp0.le (hS.pos _ hEc hEc').le
    push_cast
    linarith
  have hq := k1 h0
  have hSc := hS.pos p.Ec hEc (hq.trans k2)
  have hslow : slowingDown (pathStopping o.electronic_stopping_mode ck mat.Z ns p.Z p.m) p.E q.E ≤
      p.E/pathStopping o.electronic_stopping_mode ck mat.Z ns p.Z p.m p.Ec := by
    rcases le_total q.E p.E with hle | hle
    · refine (slowing_le hS (lt_of_lt_of_le hEc hq) hle hpE).trans ?_
      have hm1 := hS.mono p.Ec q.E hEc hq k2
      have hqE := lt_of_lt_of_le hEc hq
      exact div_le_div₀ hp0.le (by linarith) hSc hm1
    · have h1 : 0 ≤ slowingDown (pathStopping o.electronic_stopping_mode ck mat.Z ns p.Z p.m) q.E p.E :=
        le_trans (div_nonneg (by linarith) (hS.pos q.E (lt_of_lt_of_le hp0 hle) k2).le) (slowing_ge hS hp0 hle k2)
      have h2 : slowingDown (pathStopping o.electronic_stopping_mode ck mat.Z ns p.Z p.m) p.E q.E =
          -slowingDown (pathStopping o.electronic_stopping_mode ck mat.Z ns p.Z p.m) q.E p.E := intervalIntegral.integral_symm _ _
      have h3 : 0 ≤ p.E/pathStopping o.electronic_stopping_mode ck mat.Z ns p.Z p.m p.Ec := div_nonneg hp0.le hSc.le
      linarith
  linarith

end

end RustBCA
