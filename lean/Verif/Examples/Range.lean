import Verif.Props.RangeEnd
import Verif.Props.NoPanic
import Verif.Examples.Energy

/-!
# C100 and C88 at work

A slab `|y| < 1/10` of one atom per cubic metre. An ion of one kilogram and one joule flies along z; all random numbers are
1/4, so that every atom it looks for is 0.28 m off in y, outside the slab: it loses electronic energy only.
-/

set_option linter.unusedSimpArgs false
set_option linter.unusedVariables false

namespace RustBCA.RangeExample
open Scalar Spec

noncomputable def geom : Geom ℝ where
  get_densities _ _ _ := .ok [1]
  get_ck _ _ _ := .ok 1
  get_total_density _ _ _ := .ok 1
  get_concentrations _ _ _ := .ok [1]
  inside _ y _ := .ok (decide (|y| < 1/10))
  inside_simulation_boundary _ _ _ := .ok true
  inside_energy_barrier _ _ _ := .ok true
  closest_point x y z := .ok (x, y, z)

noncomputable def mat : Material ℝ := { CascadeExample.mat with geometry := geom }

noncomputable def options (V : InteractionPotential ℝ) : Options ℝ :=
  { Options.default_options true with
    interaction_potential := [[V]]
    scattering_integral := [[.MENDENHALL_WELLER]]
    electronic_stopping_mode := .LOW_ENERGY_NONLOCAL }

noncomputable def quarters : Tape ℝ := fun _ => 1/4

theorem quarters_open : OpenUnit quarters := fun k => by
  show (0:ℝ) < 1/4 ∧ (1/4:ℝ) < 1
  norm_num

theorem target_sound : SoundTarget mat where
  m := EnergyExample.target_sound.m
  Z := EnergyExample.target_sound.Z
  Ec := EnergyExample.target_sound.Ec
  Es := EnergyExample.target_sound.Es
  Eb := EnergyExample.target_sound.Eb
  concentrations := EnergyExample.target_sound.concentrations
  densities := EnergyExample.target_sound.densities
  ck := EnergyExample.target_sound.ck

theorem target_ready : ReadyTarget mat 1 where
  tabulated := by constructor <;> simp [mat, CascadeExample.mat]
  densities := fun _ _ _ => ⟨[1], rfl, rfl⟩
  concentrations := fun _ _ _ => ⟨[1], rfl, rfl, by simp [Concentrations]⟩
  ck := fun _ _ _ => ⟨1, rfl⟩
  inside := fun _ _ _ => ⟨_, rfl⟩
  boundary := fun _ _ _ => ⟨_, rfl⟩
  barrier := fun _ _ _ => ⟨_, rfl⟩
  closest := fun _ _ _ => ⟨_, rfl⟩

theorem same : SameEverywhere mat [1] 1 := ⟨fun _ _ _ => rfl, fun _ _ _ => rfl, rfl⟩

theorem nested : BarrierEncloses mat.geometry := fun _ _ _ _ => rfl

theorem spacing : IsSpacing ([(1:ℝ)].sum) 1 := ⟨one_pos, by norm_num⟩

theorem ion_inside : IsInside mat CascadeExample.ion := by
  show Except.ok (decide (|(0:ℝ)| < 1/10)) = Except.ok true
  norm_num

theorem small : lindhardScharff 1 1 1 1 ≤ 1/2 := by
  unfold lindhardScharff
  have h1 : Real.sqrt ((1/Q ℝ)/(1/AMU ℝ)) ≤ 1 := by
    rw [Real.sqrt_le_one]
    unfold Q AMU
    norm_num
  have h2 : (1:ℝ) ≤ ((1:ℝ)^(2/3 : ℝ) + (1:ℝ)^(2/3 : ℝ))^(3/2 : ℝ) := by
    rw [Real.one_rpow]
    exact Real.one_le_rpow (by norm_num) (by norm_num)
  have h3 : (0:ℝ) ≤ 1.212*ANGSTROM ℝ^2*Q ℝ := by unfold ANGSTROM Q; norm_num
  have h4 : 1.212*ANGSTROM ℝ^2*Q ℝ ≤ 1/2 := by unfold ANGSTROM Q; norm_num
  rw [Real.one_rpow (7/6), one_mul, mul_one]
  have h5 : 1.212*ANGSTROM ℝ^2*Q ℝ/((1:ℝ)^(2/3 : ℝ) + (1:ℝ)^(2/3 : ℝ))^(3/2 : ℝ) ≤ 1/2 := by
    rw [div_le_iff₀ (by linarith)]
    nlinarith
  have h6 : 0 ≤ 1.212*ANGSTROM ℝ^2*Q ℝ/((1:ℝ)^(2/3 : ℝ) + (1:ℝ)^(2/3 : ℝ))^(3/2 : ℝ) := div_nonneg h3 (by linarith)
  calc _ ≤ 1.212*ANGSTROM ℝ^2*Q ℝ/((1:ℝ)^(2/3 : ℝ) + (1:ℝ)^(2/3 : ℝ))^(3/2 : ℝ)*1 := by gcongr
    _ ≤ 1/2 := by linarith

set_option maxHeartbeats 1000000 in
/-- One pass: the ion goes a quarter of a metre, stays inside, and is still followed. -/
theorem pass (rcpr : Rcpr ℝ) (V : InteractionPotential ℝ) : ∃ q t', trajectory_step rcpr mat (options V) CascadeExample.ion []
      quarters = .ok ((q, []), t') ∧ q.pos = ⟨0, 0, 1/4⟩ ∧ q.stopped = false ∧ q.left = false ∧ 0 < q.E ∧ q.E ≤ 1 ∧
      q.asymptotic_deflection = 0 := by
  have hun : UnitInterval quarters := fun k => ⟨(quarters_open k).1.le, (quarters_open k).2⟩
  have e0 : (0.0:ℝ) = 0 := by norm_num
  have e1 : (1.0:ℝ) = 1 := by norm_num
  obtain ⟨gs, t1, hdet, ht1, hlen, ⟨f, e, hmfp, hf, he⟩, himp⟩ := annuli_rest CascadeExample.ion mat (options V) quarters [1] 1 rfl
    (by norm_num) spacing rfl hun
  obtain ⟨g, rfl⟩ : ∃ g, gs = [g] := List.length_eq_one_iff.1 hlen
  obtain ⟨hip, _, hphi, _⟩ := himp 0 g rfl
  have hgm : g.mfp = 1/4 := by
    rw [hmfp g (by simp), hf, he]
    simp [CascadeExample.ion, options, Options.default_options, MeanFreePathModel.isGaseous, quarters]
  have hphi' : g.phi_azimuthal = Real.pi/2 := by
    rw [hphi]; simp only [quarters]; ring
  have hfar : ¬ |g.impact_parameter| < 1/10 := by
    intro h
    have h2 : g.impact_parameter^2 < (1/10)^2 := by
      rw [← sq_abs]; have := abs_nonneg g.impact_parameter; nlinarith
    have h3 : Real.pi*g.impact_parameter^2 = 1/4 := by
      rw [hip]; simp [quarters]
    have := Real.pi_le_four
    nlinarith [sq_nonneg g.impact_parameter, Real.pi_pos]
  have ht1' : t1 = quarters := by rw [ht1]; rfl
  subst ht1'
  have hpart : ∃ si q2, choose_collision_partner { CascadeExample.ion with first_step := false } mat g (options V) quarters =
      .ok ((si, q2), quarters) ∧ mat.geometry.inside q2.pos.x q2.pos.y q2.pos.z = .ok false := by
    have hlt : ((quarters 0) <. (1:ℝ)) = true := by rw [lt_real]; show (1/4:ℝ) < 1; norm_num
    obtain ⟨sp, hsp⟩ : ∃ sp, mat.species 0 = .ok sp := by
      simp [Material.species, mat, CascadeExample.mat, vget, bind, Except.bind, pure, Except.pure]
    have hgc : ∀ x y z : ℝ, mat.geometry.get_concentrations x y z = .ok [1] := fun _ _ _ => rfl
    simp only [choose_collision_partner, Material.choose, bind, StateT.bind,
      Except.bind, pure, StateT.pure, Except.pure, liftM, monadLift, MonadLift.monadLift,
      StateT.lift, random, Material.get_cumulative_concentrations, hgc, Material.cumulative,
      Material.choose_index, zero_add, e0, hlt, if_true, hsp]
    refine ⟨_, _, rfl, ?_⟩
    show Except.ok (decide (|_| < (1/10:ℝ))) = Except.ok false
    simp only [Particle.new, recoil_position, CascadeExample.ion, hphi', sin_real, cos_real, Real.sin_pi_div_two, Real.cos_pi_div_two,
      e1, sqrt_real, mul_zero, zero_mul, sub_zero, Real.sqrt_one, div_one, one_mul, mul_one, zero_add, zero_sub, abs_neg,
      Except.ok.injEq, decide_eq_false_iff_not]
    exact hfar
  obtain ⟨si, q2, hq2, hq2in⟩ := hpart
  have hcs : collision_step rcpr mat (options V) ⟨{ CascadeExample.ion with first_step := false }, [], 0.0, 0.0, 0.0, 0.0, 0⟩ (g, 0)
      quarters = .ok (⟨{ CascadeExample.ion with first_step := false }, [], 0.0, 0.0, 0.0, 0.0, 0⟩, quarters) := by
    simp only [collision_step, bind, StateT.bind, Except.bind, hq2, liftM, monadLift, MonadLift.monadLift,
      StateT.lift, Material.inside, Material.inside_energy_barrier, hq2in,
      show ∀ x y z : ℝ, mat.geometry.inside_energy_barrier x y z = .ok true from fun _ _ _ => rfl,
      Bool.false_and, Bool.false_eq_true, if_false, pure, StateT.pure, Except.pure]
  obtain ⟨⟨q, qs⟩, hfin⟩ := finish_total target_ready (options V) [g] (by simp)
    ⟨{ CascadeExample.ion with first_step := false }, [], 0.0, 0.0, 0.0, 0.0, 0⟩ (by norm_num) (by
      intro i hi
      obtain rfl : i = 0 := by omega
      exact ⟨[V], 0, V, rfl, rfl, rfl⟩)
  have hrun : trajectory_step rcpr mat (options V) CascadeExample.ion [] quarters = .ok ((q, qs), quarters) := by
    simp only [trajectory_step, bind, StateT.bind, Except.bind, hdet]
    simp only [show (options V : Options ℝ).weak_collision_order = 0 from rfl, zero_add,
      List.zipIdx_cons, List.zipIdx_nil, List.take_succ_cons, List.take_zero, forFold, bind, StateT.bind, Except.bind, hcs,
      liftM, monadLift, MonadLift.monadLift, StateT.lift, pure, StateT.pure, Except.pure, hfin]
  obtain ⟨tr⟩ := sat_of_ok (pass_trace rcpr mat (options V) CascadeExample.ion [] quarters) hrun
  simp only at tr
  have hm := tr.hmfp
  rw [hdet] at hm
  simp only [Except.ok.injEq, Prod.mk.injEq] at hm
  obtain ⟨⟨m1, m2⟩, m3⟩ := hm
  have hl := tr.hloop
  rw [← m1, ← m2, ← m3] at hl
  simp only [show (options V : Options ℝ).weak_collision_order = 0 from rfl, zero_add,
      List.zipIdx_cons, List.zipIdx_nil, List.take_succ_cons, List.take_zero, forFold, bind, StateT.bind, Except.bind, hcs,
      pure, StateT.pure, Except.pure, Except.ok.injEq, Prod.mk.injEq] at hl
  have hs := hl.1
  have hqs : qs = [] := by
    have h := tr.hqs
    rw [← hs] at h; exact h
  subst hqs
  have hg0 : tr.g0 = g := by
    have h := tr.hg0
    rw [← m2] at h; simpa using h.symm
  have hst := tr.hstop
  have hbo := tr.hbound
  have hqe := tr.q_eq
  rw [← hs, hg0] at hst
  obtain ⟨pd, hpd⟩ : ∃ pd, pd = ({ CascadeExample.ion with first_step := false } : Particle ℝ).advance g.mfp 0.0 := ⟨_, rfl⟩
  rw [← hpd] at hst
  have k : pd.1.pos = ⟨0, 0, 1/4⟩ ∧ pd.1.E = 1 ∧ pd.1.Ec = 1/2 ∧ pd.1.stopped = false ∧ pd.1.left = false ∧ pd.2 = 1/4 ∧
      pd.1.m = 1 ∧ pd.1.Z = 1 ∧ pd.1.interaction_index = 0 ∧ pd.1.asymptotic_deflection = 0 := by
    rw [hpd, hgm]
    unfold Particle.advance
    simp only [Particle.update_trajectory_tracker]
    split
    · split <;> simp [CascadeExample.ion, e0]
    · simp [CascadeExample.ion, e0]
  obtain ⟨k1, k2, k3, k4, k5, k6, k7, k8, k9, k10⟩ := k
  have hcr := C82_cross_sections mat pd.1 (options V).electronic_stopping_mode 1 [1] rfl rfl rfl
  have hin : mat.geometry.inside pd.1.pos.x pd.1.pos.y pd.1.pos.z = .ok true := by
    rw [k1]
    show Except.ok (decide (|(0:ℝ)| < 1/10)) = Except.ok true
    norm_num
  have hloss := C82_loss pd.1 tr.p3 mat pd.2 0.0 0.0 tr.el 0 0 (options V) _ [1] [V] V _ hin hcr rfl
    (by rw [k9]; rfl) rfl rfl rfl (by exact hst)
  obtain ⟨l1, l2⟩ := hloss
  have hlo : tr.el = lindhardScharff 1 1 1 1*(1/4) := by
    rw [l2]
    show braggLoss [lindhardScharff pd.1.E pd.1.m pd.1.Z 1*1] [1] pd.2 = _
    rw [k2, k7, k8, k6]
    simp [braggLoss]
  have hsm := small
  have hsm0 := lindhard_nonneg 1 1 1 1 one_pos one_pos
  have hE3 : tr.p3.E = 1 - lindhardScharff 1 1 1 1*(1/4) := by
    rw [l1, k2, hlo]
    exact max_eq_right (by linarith)
  obtain ⟨⟨l, hl⟩, _⟩ := tracker_same tr.p3 (options V) tr.s.total_energy_lost_to_recoils tr.el
  rw [hl] at hbo hqe
  obtain ⟨b1, b2, b3, b4, _⟩ := C33_boundary { tr.p3 with energies := l } q mat true true rfl rfl
    (by rw [l1]; exact k5) (by rw [l1]; exact k4) hbo
  have hql : q.left = false := by
    cases h : q.left with
    | false => rfl
    | true => exact absurd (b1.1 h) (by simp)
  have hqst : q.stopped = false := by
    cases h : q.stopped with
    | false => rfl
    | true =>
      have h2 := (b2.1 h).2.1
      rw [lt_real] at h2
      have h3 : tr.p3.Ec = 1/2 := by rw [l1]; exact k3
      simp only [hE3, h3] at h2
      linarith
  have hqp : q.pos = ⟨0, 0, 1/4⟩ := by
    obtain ⟨_, _, _, _, _, _, hq⟩ := hqe
    have h := congrArg Particle.pos hq
    refine h.trans ?_
    show tr.p3.pos = _
    rw [l1]; exact k1
  have hqa : q.asymptotic_deflection = 0 := by
    obtain ⟨_, _, _, _, _, _, hq⟩ := hqe
    have h := congrArg Particle.asymptotic_deflection hq
    refine h.trans ?_
    show tr.p3.asymptotic_deflection = _
    rw [l1]; exact k10
  have hqE : q.E = tr.p3.E := by
    have h1 := (b4 hql hqst).1
    cases hEs : mat.actual_surface_binding_energy { tr.p3 with energies := l } tr.p3.pos_old.x tr.p3.pos_old.y tr.p3.pos_old.z with
    | error e =>
      unfold surface_binding_energy at h1
      simp only [hEs, bind, Except.bind] at h1
      cases h1
    | ok Es =>
      rw [C31_no_crossing { tr.p3 with energies := l } mat Es true ⟨rfl, rfl⟩ hEs] at h1
      exact (congrArg Particle.E (Except.ok.inj h1)).symm
  exact ⟨q, _, hrun, hqp, hqst, hql, by rw [hqE, hE3]; linarith, by rw [hqE, hE3]; linarith, hqa⟩

/-- The hypotheses of the theorems on the path: the ion goes a quarter of a metre and stays inside. -/
theorem goes (rcpr : Rcpr ℝ) (V : InteractionPotential ℝ) (G : Tape ℝ → Particle ℝ → Particle ℝ → Prop)
    (hG : ∀ q : Particle ℝ, q.stopped = false → q.left = false → 0 < q.E → q.E ≤ 1 → q.asymptotic_deflection = 0 →
      G quarters CascadeExample.ion q) :
    ∃ q, StaysInside rcpr mat (options V) G CascadeExample.ion 1 (1/4) q ∧ 0 < q.E := by
  obtain ⟨q, t', hrun, hpos, h1, h2, h3, h4, h5⟩ := pass rcpr V
  have hd : apart CascadeExample.ion.pos q.pos = 1/4 := by
    rw [hpos]
    simp only [apart, CascadeExample.ion, sub_zero]
    rw [show ((0:ℝ)^2 + 0^2 + (1/4)^2) = (1/4)^2 by norm_num, Real.sqrt_sq (by norm_num)]
  have h := StaysInside.pass (rcpr := rcpr) (mat := mat) (o := options V) (G := G) (.start ion_inside) rfl rfl hrun
    (hG q h1 h2 h3 h4 h5) (by
      show mat.geometry.inside _ _ _ = _
      rw [hpos]
      show Except.ok (decide (|(0:ℝ)| < 1/10)) = Except.ok true
      norm_num)
  rw [hd, show ((0:ℝ) + 1/4) = 1/4 by norm_num] at h
  exact ⟨q, h, h3⟩

theorem growing (V : InteractionPotential ℝ) (Emax : ℝ) :
    Growing (pathStopping (options V).electronic_stopping_mode 1 mat.Z [1] CascadeExample.ion.Z CascadeExample.ion.m) Emax :=
  (C100_low_energy _ (Or.inl rfl) 1 one_pos mat.Z [1] rfl target_sound.Z (by simp) (by norm_num) _ _ one_pos one_pos).1 Emax

/-- C100: the path of a quarter of a metre is at most that of continuous slowing down, which is at most `2E/S(E)`. -/
example (rcpr : Rcpr ℝ) (V : InteractionPotential ℝ) : ∃ q, 0 < q.E ∧
    StaysInside rcpr mat (options V) (Forwards mat (options V)) CascadeExample.ion 1 (1/4) q ∧
    1/4 ≤ slowingDown (pathStopping .LOW_ENERGY_NONLOCAL 1 [1] [1] 1 1) 1 q.E := by
  obtain ⟨q, h, hE⟩ := goes rcpr V (Forwards mat (options V)) (fun q _ _ _ _ h5 p1 gs t1 g0 hdet hg0 => by
    have hun : UnitInterval quarters := fun k => ⟨(quarters_open k).1.le, (quarters_open k).2⟩
    obtain ⟨gs', t2, hdet', _, _, ⟨f, e, hmfp, hf, he⟩, _⟩ := annuli_rest CascadeExample.ion mat (options V) quarters [1] 1 rfl
      (by norm_num) spacing rfl hun
    rw [hdet] at hdet'
    simp only [Except.ok.injEq, Prod.mk.injEq] at hdet'
    rw [hmfp g0 (hdet'.1.2 ▸ List.mem_of_getElem? hg0), hf, he, h5]
    simp [CascadeExample.ion, options, Options.default_options, MeanFreePathModel.isGaseous, quarters])
  exact ⟨q, hE, h, (C100_range rcpr (options V) same target_sound nested EnergyExample.ion_sound
    (by simp [Spec.inner, CascadeExample.ion]) (growing V _) 1 _ q h hE).1⟩

/-- C100, the number of passes. -/
example (rcpr : Rcpr ℝ) (V : InteractionPotential ℝ) : ∃ q,
    StaysInside rcpr mat (options V) (fun t _ r => Unit01 t ∧ 0 < r.E ∧ r.E ≤ 1) CascadeExample.ion 1 (1/4) q ∧
    (1:ℕ)*(1:ℝ) + 0 - q.asymptotic_deflection ≤
      slowingDown (pathStopping .LOW_ENERGY_NONLOCAL 1 [1] [1] 1 1) 1 q.E + if true then 1 else 0 := by
  obtain ⟨q, h, hE⟩ := goes rcpr V (fun t _ r => Unit01 t ∧ 0 < r.E ∧ r.E ≤ 1) (fun q _ _ h3 h4 _ =>
    ⟨fun k => ⟨(quarters_open k).1.le, (quarters_open k).2⟩, h3, h4⟩)
  exact ⟨q, h, C100_passes rcpr (options V) same target_sound nested EnergyExample.ion_sound (by norm_num) spacing rfl rfl 1 le_rfl
    (growing V 1) 1 _ q h one_pos⟩

/-- C88: with a Coulomb potential the number of passes has the bound `E/(S(Ec) s) + 1`. -/
example (rcpr : Rcpr ℝ) (n : ℕ) (L : ℝ) (q : Particle ℝ)
    (h : StaysInside rcpr mat (options (.COULOMB 1 1)) (fun t _ r => Unit01 t ∧ r.stopped = false ∧ r.left = false)
      CascadeExample.ion n L q) :
    (n : ℝ) ≤ 1/(pathStopping .LOW_ENERGY_NONLOCAL 1 [1] [1] 1 1 (1/2)*1) + 1 :=
  C88_inside_coulomb rcpr (options (.COULOMB 1 1)) same target_sound nested EnergyExample.ion_sound (Or.inl rfl) one_pos (by simp)
    (by norm_num) spacing rfl rfl (by norm_num [CascadeExample.ion]) one_pos (by
      intro row hrow V hV
      simp only [options, List.mem_singleton] at hrow
      subst hrow
      exact ⟨1, 1, by simpa using hV⟩) rfl n L q h

/-- C88 with the universal potential. -/
example (rcpr : Rcpr ℝ) (n : ℕ) (L : ℝ) (q : Particle ℝ)
    (h : StaysInside rcpr mat (options .ZBL) (fun t _ r => OpenUnit t ∧ r.stopped = false ∧ r.left = false)
      CascadeExample.ion n L q) :
    (n : ℝ) ≤ 1/(pathStopping .LOW_ENERGY_NONLOCAL 1 [1] [1] 1 1 (1/2)*1) + 8*coulombConstant 1 1/1 + 2 := by
  have hk : 0 ≤ 8*coulombConstant 1 1 := by
    unfold coulombConstant
    have := Real.pi_pos
    positivity
  refine C88_inside_screened rcpr (options .ZBL) same target_sound nested EnergyExample.ion_sound (Or.inl rfl) one_pos (by simp)
    (by norm_num) spacing rfl rfl (by norm_num [CascadeExample.ion]) one_pos (by
      intro row hrow V hV
      simp only [options, List.mem_singleton] at hrow
      subst hrow
      obtain rfl : V = .ZBL := by simpa using hV
      exact .zbl) rfl (by norm_num [CascadeExample.ion]) (by simp [CascadeExample.ion]) (8*coulombConstant 1 1) hk ?_ n L q h
  intro Zb hZ Mb hM
  simp only [mat, CascadeExample.mat, List.mem_singleton] at hZ hM
  subst hZ hM
  simp only [CascadeExample.ion]
  rw [div_le_iff₀ (by norm_num)]
  linarith

/-- and both hypotheses are met by the pass above. -/
example (rcpr : Rcpr ℝ) (V : InteractionPotential ℝ) : ∃ q,
    StaysInside rcpr mat (options V) (fun t _ r => OpenUnit t ∧ r.stopped = false ∧ r.left = false) CascadeExample.ion 1 (1/4) q := by
  obtain ⟨q, h, _⟩ := goes rcpr V (fun t _ r => OpenUnit t ∧ r.stopped = false ∧ r.left = false)
    (fun q h1 h2 _ _ _ => ⟨quarters_open, h1, h2⟩)
  exact ⟨q, h⟩

end RustBCA.RangeExample
