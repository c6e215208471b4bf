import Verif.Props.Lib
import Verif.Props.SurfaceNormal
import Verif.Examples.Cascade

/-!
# Calls of the library interface that succeed

Non-vacuity of C56-C59 and C66-C68.
-/

set_option linter.unusedSimpArgs false
set_option linter.unusedVariables false

namespace RustBCA.LibExample
open Scalar Spec

/-- A pass that ends a trajectory outside the target: the impact parameter (second random number) is
zero, the partner sits at the end of the step, which is not inside, and the step ends either beyond
the simulation boundary or, with less than the cutoff energy, in the energy barrier. -/
theorem one_pass_at (rcpr : Rcpr ℝ) (p : Particle ℝ) (mat : Material ℝ) (tr : Bool) (T : Tape ℝ)
    (n c : ℝ) (s : Species ℝ) (pos' : Vec3 ℝ) (sim bar : Bool)
    (hfs : p.first_step = true) (hold : p.dir_old = p.dir) (has : p.asymptotic_deflection = 0)
    (hb0 : ∃ b, mat.geometry.inside_energy_barrier p.pos.x p.pos.y p.pos.z = .ok b) (hst : p.stopped = false) (hl : p.left = false)
    (hgn : mat.geometry.get_densities p.pos.x p.pos.y p.pos.z = .ok [n])
    (hgc : mat.geometry.get_concentrations pos'.x pos'.y pos'.z = .ok [c]) (hc : T 3 < c)
    (hs : mat.species 0 = .ok s) (hT : T 1 = 0)
    (hpos : pos' = ⟨p.pos.x + n^(-(1/3) : ℝ)*T 2*p.dir.x, p.pos.y + n^(-(1/3) : ℝ)*T 2*p.dir.y,
      p.pos.z + n^(-(1/3) : ℝ)*T 2*p.dir.z⟩)
    (hin : mat.geometry.inside pos'.x pos'.y pos'.z = .ok false)
    (hsim : mat.geometry.inside_simulation_boundary pos'.x pos'.y pos'.z = .ok sim)
    (hbar : mat.geometry.inside_energy_barrier pos'.x pos'.y pos'.z = .ok bar)
    (hend : sim = false ∨ (sim = true ∧ bar = true ∧ p.E < p.Ec)) :
    ∃ q, single_ion_bca rcpr 2 p mat (Options.default_options tr) T =
        .ok ([q], fun k => T (k + 4)) ∧
      q.E = p.E ∧ q.left = !sim ∧ q.stopped = sim ∧ q.incident = p.incident ∧ q.dir = p.dir := by
  obtain ⟨b0, hb0⟩ := hb0
  have h2 : (2.0 : ℝ) = 2 := by norm_num
  have h30 : (-1.0/3.0 : ℝ) = -(1/3) := by norm_num
  have h00 : (0.0 : ℝ) = 0 := by norm_num
  obtain ⟨N, hN⟩ : ∃ N, N = n^(-(1/3) : ℝ) := ⟨_, rfl⟩
  rw [← hN] at hpos
  have hstep : ∃ q, trajectory_step rcpr mat (Options.default_options tr) p [] T =
      .ok ((q, []), fun k => T (k + 4)) ∧
      q.E = p.E ∧ q.left = !sim ∧ q.stopped = sim ∧ q.incident = p.incident ∧ q.dir = p.dir := by
    have hmfp : mat.mfp p.pos.x p.pos.y p.pos.z = .ok N := by
      simp only [Material.mfp, Material.total_number_density, hgn, fsum, Functor.map, Except.map,
        powf_real, h30, hN]
      simp [h00]
    have hdet : determine_mfp_phi_impact_parameter p mat (Options.default_options tr) T =
        .ok (({ p with first_step := false }, [⟨2*Real.pi*T 0, 0, N*T 2⟩]), fun k => T (k + 3)) := by
      simp only [determine_mfp_phi_impact_parameter, draw_phis, collectN, hmfp, bind, StateT.bind,
        Except.bind, pure, StateT.pure, Except.pure, liftM, monadLift, MonadLift.monadLift,
        StateT.lift, random, Options.default_options, hfs, Bool.false_eq_true, if_false, if_true,
        MeanFreePathModel.isGaseous, List.nil_append, List.zip_cons_cons, List.zip_nil_right,
        List.map_cons, List.map_nil, hT, zero_add, h2, pi_real, ofNat_real, Nat.cast_zero, add_zero,
        sqrt_real, Real.sqrt_zero, mul_zero]
    have hpart : ∃ q2, choose_collision_partner { p with first_step := false } mat
        ⟨2*Real.pi*T 0, 0, N*T 2⟩ (Options.default_options tr) (fun k => T (k + 3)) =
          .ok ((s.species_index, q2), fun k => T (k + 4)) ∧ q2.pos = pos' := by
      have hrec : recoil_position p.pos p.dir ⟨2*Real.pi*T 0, 0, N*T 2⟩ = pos' := by
        rw [hpos]
        simp only [recoil_position, zero_mul, zero_div, sub_zero, add_zero]
      simp only [choose_collision_partner, Material.choose, hrec, bind, StateT.bind,
        Except.bind, pure, StateT.pure, Except.pure, liftM, monadLift, MonadLift.monadLift,
        StateT.lift, random, Material.get_cumulative_concentrations, hgc, Material.cumulative,
        Material.choose_index, zero_add, h00, (lt_real _ _).2 hc, if_true, hs]
      exact ⟨_, rfl, rfl⟩
    obtain ⟨q2, hq2, hq2p⟩ := hpart
    simp only [trajectory_step, bind, StateT.bind, Except.bind, hdet]
    simp only [show (Options.default_options tr : Options ℝ).weak_collision_order = 0 from rfl,
      List.zipIdx_cons, List.zipIdx_nil, List.take_succ_cons, List.take_zero, forFold,
      collision_step, bind, StateT.bind, Except.bind, hq2, liftM, monadLift, MonadLift.monadLift,
      StateT.lift, Material.inside, Material.inside_energy_barrier, hq2p, hin, hb0,
      Bool.false_and, Bool.false_eq_true, if_false, pure, StateT.pure, Except.pure]
    obtain ⟨q, hq, hfin⟩ : ∃ q, finish_step mat (Options.default_options tr)
        [⟨2*Real.pi*T 0, 0, N*T 2⟩] ⟨{ p with first_step := false }, [], 0.0, 0.0, 0.0, 0.0, 0⟩ =
          .ok (q, []) ∧ q.E = p.E ∧ q.left = !sim ∧ q.stopped = sim ∧ q.incident = p.incident ∧
            q.dir = p.dir := by
      obtain ⟨pd, hpd⟩ : ∃ pd, pd = ({ p with first_step := false } : Particle ℝ).advance
        (N*T 2) 0.0 := ⟨_, rfl⟩
      have e1 : pd.1.pos = pos' ∧ pd.1.E = p.E ∧ pd.1.Ec = p.Ec ∧ pd.1.dir = p.dir ∧
          pd.1.stopped = false ∧ pd.1.left = false ∧ pd.1.incident = p.incident := by
        rw [hpd, hpos]
        unfold Particle.advance
        simp only [Particle.update_trajectory_tracker]
        split
        · split <;> simp only [hold, has, h00, add_zero, sub_zero, hst, hl, mul_comm, and_self]
        · simp only [hold, has, h00, add_zero, sub_zero, hst, hl, mul_comm, and_self]
      obtain ⟨g1, g2, g3, g4, g5, g6, g7⟩ := e1
      unfold finish_step
      simp only [vget, List.getElem?_cons_zero, bind, Except.bind, ← hpd,
        subtract_electronic_stopping_energy, Material.inside, g1, hin, isNaN_real, Bool.not_false,
        rassert, if_true, Bool.false_eq_true, if_false, pure, Except.pure,
        Particle.update_energy_loss_tracker, Options.default_options, Bool.and_false,
        boundary_condition_planar, Material.inside_simulation_boundary,
        Material.inside_energy_barrier, hsim, hbar, g2, g3]
      rcases hend with h | ⟨h, hb, hE⟩
      · subst h
        simp only [Bool.not_false, if_true, Particle.update_trajectory_tracker]
        by_cases htt : pd.1.track_trajectories = true <;> simp [htt, g2, g4, g5, g7]
      · subst h hb
        simp only [Bool.not_true, Bool.false_eq_true, if_false, g6, Bool.not_false,
          (lt_real _ _).2 hE, Bool.and_self, if_true, Particle.update_trajectory_tracker]
        by_cases htt : pd.1.track_trajectories = true <;> simp [htt, g2, g4, g6, g7]
    rw [hq]
    exact ⟨q, rfl, hfin⟩
  obtain ⟨q, hq, h1, h2', h3, h4, h5⟩ := hstep
  refine ⟨q, ?_, h1, h2', h3, h4, h5⟩
  have hrun : ∀ ps i, TrajState.running (⟨p, ps, i⟩ : TrajState ℝ) = true := by
    intro ps i; simp [TrajState.running, hst, hl]
  have hstop : ∀ ps i, TrajState.running (⟨q, ps, i⟩ : TrajState ℝ) = false := by
    intro ps i; simp [TrajState.running, h2', h3]
  simp only [single_ion_bca, whileFuel, cascade_body, popLast, List.getLast?_singleton,
    List.dropLast_singleton, bind, StateT.bind, Except.bind, pure, StateT.pure, Except.pure, liftM,
    monadLift, MonadLift.monadLift, StateT.lift, hrun, if_true, traj_body, hq, hstop,
    Bool.false_eq_true, if_false, Nat.zero_lt_one, decide_true, List.length_nil, lt_self_iff_false,
    decide_false, List.nil_append]

theorem one_pass (rcpr : Rcpr ℝ) (p : Particle ℝ) (mat : Material ℝ) (tr : Bool) (T : Tape ℝ)
    (n c : ℝ) (s : Species ℝ) (pos' : Vec3 ℝ) (sim bar : Bool)
    (hfs : p.first_step = true) (hold : p.dir_old = p.dir) (has : p.asymptotic_deflection = 0)
    (hb0 : ∃ b, mat.geometry.inside_energy_barrier p.pos.x p.pos.y p.pos.z = .ok b) (hst : p.stopped = false) (hl : p.left = false)
    (hgn : ∀ x y z, mat.geometry.get_densities x y z = .ok [n])
    (hgt : ∀ x y z, mat.geometry.get_total_density x y z = .ok n)
    (hgc : ∀ x y z, mat.geometry.get_concentrations x y z = .ok [c]) (hc : T 3 < c)
    (hs : mat.species 0 = .ok s) (hT : T 1 = 0)
    (hpos : pos' = ⟨p.pos.x + n^(-(1/3) : ℝ)*T 2*p.dir.x, p.pos.y + n^(-(1/3) : ℝ)*T 2*p.dir.y,
      p.pos.z + n^(-(1/3) : ℝ)*T 2*p.dir.z⟩)
    (hin : mat.geometry.inside pos'.x pos'.y pos'.z = .ok false)
    (hsim : mat.geometry.inside_simulation_boundary pos'.x pos'.y pos'.z = .ok sim)
    (hbar : mat.geometry.inside_energy_barrier pos'.x pos'.y pos'.z = .ok bar)
    (hend : sim = false ∨ (sim = true ∧ bar = true ∧ p.E < p.Ec)) :
    ∃ q, single_ion_bca rcpr 2 p mat (Options.default_options tr) T =
        .ok ([q], fun k => T (k + 4)) ∧
      q.E = p.E ∧ q.left = !sim ∧ q.stopped = sim ∧ q.incident = p.incident ∧ q.dir = p.dir :=
  one_pass_at rcpr p mat tr T n c s pos' sim bar hfs hold has hb0 hst hl (hgn _ _ _) (hgc _ _ _) hc hs hT hpos hin hsim hbar hend

/-- The target of one species every entry point builds, as `one_pass` wants it. -/
theorem target_facts (ext : Ext ℝ) (Z m Ec Es Eb n u : ℝ) (k : Nat) (unit : String)
    (model : SurfaceBindingModel) (hu : length_unit_of ext unit = .ok u) (hu0 : 0 < u)
    (hn : 0 < n) :
    ∃ mat mesh s, mesh0d_material ext (compound_parameters [Z] [m] [Ec] [Es] [Eb] (k + 1) [0] model)
        unit [n] = .ok (mat, mesh) ∧
      (∀ x y z, mat.geometry.get_densities x y z = .ok [n/u^3]) ∧
      (∀ x y z, mat.geometry.get_total_density x y z = .ok (n/u^3)) ∧
      (∀ x y z, mat.geometry.get_concentrations x y z = .ok [1]) ∧
      mat.species 0 = .ok s ∧
      (∀ x y z, mat.geometry.inside x y z = .ok (decide (0 < x))) ∧
      (∀ x y z, mat.geometry.inside_energy_barrier x y z =
        .ok (decide (-mesh.energy_barrier_thickness < x))) ∧
      (∀ x y z, mat.geometry.inside_simulation_boundary x y z =
        .ok (decide (-10*mesh.energy_barrier_thickness < x))) ∧
      (n/u^3)^(-(1/3) : ℝ) ≤ mesh.energy_barrier_thickness ∧ 0 < mesh.energy_barrier_thickness := by
  obtain ⟨mat, mesh, h⟩ := mesh0d_material_total ext [Z] [m] [Ec] [Es] [Eb] [n] (k + 1) [0] model hu
  have h00 : (0.0 : ℝ) = 0 := by norm_num
  have h10 : (10.0 : ℝ) = 10 := by norm_num
  have h2 : (2.0 : ℝ) = 2 := by norm_num
  have h30 : (-1.0/3.0 : ℝ) = -(1/3) := by norm_num
  have hN : 0 < n/u^3 := by positivity
  have hp : powi u 3 = u^3 := by
    rw [powi_real, show (3:ℤ) = ((3:ℕ):ℤ) from rfl, zpow_natCast]
  have hmat := h
  simp only [mesh0d_material, Mesh0D.new, hu, Material.new, compound_parameters, energy_unit_of,
    mass_unit_of, bind, Except.bind, pure, Except.pure, Except.ok.injEq, Prod.mk.injEq] at h
  obtain ⟨h1, h2'⟩ := h
  have hpi : 0 < Real.sqrt Real.pi := Real.sqrt_pos.2 Real.pi_pos
  have hpi2 : Real.sqrt Real.pi < 2 := by
    rw [Real.sqrt_lt' (by norm_num)]
    have := Real.pi_lt_d2
    linarith
  have hP : 0 < (n/u^3)^(-(1/3) : ℝ) := Real.rpow_pos_of_pos hN _
  have hthick : mesh.energy_barrier_thickness = (n/u^3)^(-(1/3) : ℝ)/Real.sqrt Real.pi*2 := by
    rw [← h2']
    simp only [barrier_thickness, convert_densities, List.map_cons, List.map_nil, fsum,
      List.foldl_cons, List.foldl_nil, SQRTPI_real, powf_real, h30, h2, h00, zero_add, hp]
  refine ⟨mat, mesh, ⟨0, Z, m*AMU ℝ, Ec*EV ℝ, Es*EV ℝ, 0.0*EV ℝ, 0⟩, hmat, ?_, ?_, ?_, ?_, ?_, ?_, ?_, ?_, ?_⟩
  · intro x y z
    rw [← h1]
    simp only [Mesh0D.toGeom, convert_densities, List.map_cons, List.map_nil, hp]
  · intro x y z
    rw [← h1]
    simp only [Mesh0D.toGeom, convert_densities, List.map_cons, List.map_nil, hp, fsum,
      List.foldl_cons, List.foldl_nil, h00, zero_add]
  · intro x y z
    rw [← h1]
    simp only [Mesh0D.toGeom, convert_densities, concentrations_of, List.map_cons, List.map_nil, hp,
      fsum, List.foldl_cons, List.foldl_nil, h00, zero_add, div_self hN.ne']
  · rw [← h1]
    rfl
  · intro x y z
    rw [← h1]
    simp only [Mesh0D.toGeom, h00]
    rfl
  · intro x y z
    rw [← h1, ← h2']
    rfl
  · intro x y z
    rw [← h1, ← h2']
    simp only [Mesh0D.toGeom, h10]
    rfl
  · rw [hthick, div_mul_eq_mul_div, le_div_iff₀ hpi]
    nlinarith
  · rw [hthick]; positivity

/-- All random numbers 0 but the third, which sets the length of the first step. -/
noncomputable def half : Tape ℝ := fun k => if k = 2 then 1/2 else 0

noncomputable def zeros : Tape ℝ := fun _ => 0

/-- **C59** A call of `simple_bca` that returns the row of a reflected ion: it starts beyond the
simulation boundary. -/
theorem simple_ok (rcpr : Rcpr ℝ) (ext : Ext ℝ) : ∃ rows tape',
    simple_bca rcpr 2 ext (-1) 0 0 0.6 0.8 0 1 1 1 1 1 1 1 1 1 1 1 zeros = .ok (rows, tape') ∧
      rows.length = 1 := by
  obtain ⟨mat, mesh, s, hm, g1, g2, g3, g4, g5, g6, g7, g8, g9⟩ := target_facts ext 1 1 1 1 1 1
    (ANGSTROM ℝ) 0 "ANGSTROM" .AVERAGE rfl (by unfold ANGSTROM; norm_num) one_pos
  have hfar : mesh.energy_barrier_thickness < 1/20 := by
    have hb := (mesh0d_material_ok (u := ANGSTROM ℝ) rfl hm).2.2.2
    rw [hb, barrier_thickness, SQRTPI_real]
    simp only [List.map_cons, List.map_nil, fsum, List.foldl_cons, List.foldl_nil]
    rw [powi_real, show (3:ℤ) = ((3:ℕ):ℤ) from rfl, zpow_natCast, powf_real, ANGSTROM]
    have e : (0.0 + 1/(1e-10:ℝ)^3) = (10:ℝ)^(30:ℝ) := by norm_num
    rw [e, ← Real.rpow_mul (by norm_num)]
    have e2 : (30 * (-1.0/3.0) : ℝ) = -10 := by norm_num
    rw [e2, Real.rpow_neg (by norm_num)]
    have hpi : 1 < Real.sqrt Real.pi := by
      rw [Real.lt_sqrt (by norm_num)]
      have := Real.pi_gt_three
      linarith
    rw [div_mul_eq_mul_div, div_lt_iff₀ (by linarith)]
    norm_num
    linarith
  have h1 : ((1:ℝ) >. 0.0) = true := by rw [lt_real]; norm_num
  obtain ⟨q, hq, -, hl, -, hi, -⟩ := one_pass rcpr (ion_literal (1*AMU ℝ) 1 (1*EV ℝ) (1*EV ℝ)
    (1*EV ℝ) (-1) 0 0 0.6 0.8 0 1.0 0 ⟨0.0, 0.0, 0.0⟩) mat true zeros _ 1 s ⟨-1, 0, 0⟩ false false rfl
    rfl (show (0.0:ℝ) = 0 by norm_num) ⟨_, g6 _ _ _⟩ rfl rfl g1 g2 g3 (by simp [zeros]) g4 rfl
    (by simp [ion_literal, zeros])
    (by rw [g5]; norm_num) (by rw [g7]; simp; linarith) (by rw [g6]; simp; linarith)
    (.inl rfl)
  refine ⟨([q].filter fun p => p.incident || p.left).map output_row, fun k => zeros (k + 4), ?_, ?_⟩
  · simp only [simple_bca, h1, rassert, if_true, bind, StateT.bind, Except.bind, pure, StateT.pure,
      Except.pure, liftM, monadLift, MonadLift.monadLift, StateT.lift]
    rw [hm]
    simp only
    rw [hq]
  · simp [hi, ion_literal]

example (rcpr : Rcpr ℝ) (ext : Ext ℝ) : ∃ rows : List (List ℝ), ∃ q : Particle ℝ,
    rows = [row q (q.E/EV ℝ) q.pos] := by
  obtain ⟨rows, tape', h, hl⟩ := simple_ok rcpr ext
  obtain ⟨mat, ion, q, recoils, -, -, -, -, -, hr⟩ := C59_simple_bca h
  refine ⟨rows, q, ?_⟩
  rw [hr] at hl ⊢
  simp only [List.length_cons, Nat.add_eq_right, List.length_eq_zero_iff] at hl
  rw [hl]

example (rcpr : Rcpr ℝ) (ext : Ext ℝ) : ∃ rows tape',
    simple_compound_bca rcpr 2 ext (-1) 0 0 0.6 0.8 0 1 1 1 1 1 [1] [1] [1] [1] [1] [1] zeros =
      .ok (rows, tape') ∧ rows.length = 1 := by
  rw [C59_compound_of_one _ _ _ _ _ _ _ _ _ _ _ _ _ _ _ _ _ _ _ _ (by rw [lt_real]; norm_num)]
  exact simple_ok rcpr ext

/-- An ion with less than the cutoff energy stops where the list functions start it. -/
theorem list_ion_stops (rcpr : Rcpr ℝ) (ext : Ext ℝ) (k : Nat) (tr : Bool)
    (model : SurfaceBindingModel) :
    ∃ mat mesh, mesh0d_material ext (compound_parameters [1] [1] [1] [1] [1] (k + 1) [0] model)
        "ANGSTROM" [1] = .ok (mat, mesh) ∧
      ∀ p : Particle ℝ, p.first_step = true → p.dir_old = p.dir → p.asymptotic_deflection = 0 →
        p.stopped = false → p.left = false → p.pos = ⟨list_start_x (fsum [1]), 0.0, 0.0⟩ →
        p.E < p.Ec → p.incident = true →
        ∃ q, single_ion_bca rcpr 2 p mat (Options.default_options tr) zeros = .ok ([q], zeros) ∧
          q.incident = true ∧ q.stopped = true := by
  obtain ⟨mat, mesh, s, hm, g1, g2, g3, g4, g5, g6, g7, g8, g9⟩ := target_facts ext 1 1 1 1 1 1
    (ANGSTROM ℝ) k "ANGSTROM" model rfl (by unfold ANGSTROM; norm_num) one_pos
  refine ⟨mat, mesh, hm, fun p h1 h2 h3 h4 h5 h6 h7 h8 => ?_⟩
  obtain ⟨c1, c2⟩ := (C68_start_positions ext [1] [1] [1] [1] [1] [1] (k + 1) [0] model
    (by simp)).1 mat mesh hm 0.0 0.0
  have hx : -mesh.energy_barrier_thickness < list_start_x (fsum [1]) := by
    rw [g6] at c1; simpa using c1
  obtain ⟨q, hq, -, -, hs, hi, -⟩ := one_pass rcpr p mat tr zeros _ 1 s p.pos true true h1
    h2 h3 ⟨_, g6 _ _ _⟩ h4 h5 g1 g2 g3 (by simp [zeros]) g4 rfl
    (by simp [zeros])
    (by rw [h6]; exact c2) (by rw [g7, h6]; simp; linarith) (by rw [h6]; exact c1)
    (.inr ⟨rfl, rfl, h7⟩)
  exact ⟨q, hq, hi.trans h8, hs⟩

/-- The kinetic energy of a few m/s is below the cutoff. -/
theorem slow : 0.5*1*AMU ℝ*5*5 < 1*EV ℝ := by
  unfold AMU EV Q; norm_num

theorem speed : Scalar.sqrt ((3:ℝ)*3 + 4*4 + 0*0) = 5 := by
  show Real.sqrt _ = 5
  rw [show ((3:ℝ)*3 + 4*4 + 0*0) = 5^2 by norm_num]
  exact Real.sqrt_sq (by norm_num)

/-- **C57** Two tagged ions. -/
noncomputable def tagged : InputTaggedBCA ℝ where
  positions := [⟨1, 2, 3⟩, ⟨4, 5, 6⟩]
  velocities := [⟨3, 4, 0⟩, ⟨3, 4, 0⟩]
  Z1 := 1
  m1 := 1
  Ec1 := 1
  Es1 := 1
  Z2 := [1]
  m2 := [1]
  n2 := [1]
  Ec2 := [1]
  Es2 := [1]
  Eb2 := [1]
  tags := [7, 8]
  weights := [1/2, 1/3]

theorem tagged_ok (rcpr : Rcpr ℝ) (ext : Ext ℝ) : ∃ o tape',
    compound_tagged_bca_list_c rcpr 2 ext tagged zeros = .ok (o, tape') ∧
      o.tags = [7, 8] ∧ o.weights = [1/2, 1/3] ∧ o.len = 2 := by
  obtain ⟨mat, mesh, hm, hrun⟩ := list_ion_stops rcpr ext 0 true .AVERAGE
  have hion : ∀ (w : ℝ) (t : Int) (tv : Vec3 ℝ), ∃ q,
      single_ion_bca rcpr 2 (ion_literal (1*AMU ℝ) 1 (0.5*1*AMU ℝ*5*5) (1*EV ℝ) (1*EV ℝ)
        (list_start_x (fsum [1])) 0.0 0.0 (3/5) (4/5) (0/5) w t tv) mat
        (Options.default_options true) zeros = .ok ([q], zeros) ∧ q.incident = true ∧
        q.weight = w ∧ q.tag = t := by
    intro w t tv
    obtain ⟨q, h1, h2, -⟩ := hrun (ion_literal (1*AMU ℝ) 1 (0.5*1*AMU ℝ*5*5) (1*EV ℝ) (1*EV ℝ)
        (list_start_x (fsum [1])) 0.0 0.0 (3/5) (4/5) (0/5) w t tv) rfl rfl
        (show (0.0:ℝ) = 0 by norm_num) rfl rfl rfl slow rfl
    obtain ⟨q', r, h3, h4, -⟩ := C02_ion_first _ _ _ _ _ _ _ _ rfl rfl h1
    obtain ⟨rfl, -⟩ := List.cons.inj h3
    exact ⟨q, h1, h2, h4.weight, h4.tag⟩
  obtain ⟨q1, r1, i1, w1, t1⟩ := hion (1/2) 7 ⟨1, 2, 3⟩
  obtain ⟨q2, r2, i2, w2, t2⟩ := hion (1/3) 8 ⟨4, 5, 6⟩
  refine ⟨⟨2, [tagged_row q1, tagged_row q2], [q1.weight, q2.weight], [q1.tag, q2.tag],
    [q1.incident, q2.incident]⟩, zeros, ?_, by rw [t1, t2], by rw [w1, w2], rfl⟩
  simp only [compound_tagged_bca_list_c, bind, StateT.bind, Except.bind, pure, StateT.pure,
    Except.pure, liftM, monadLift, MonadLift.monadLift, StateT.lift]
  simp only [tagged, List.length_singleton, List.replicate_one]
  rw [hm]
  simp only [List.zipIdx_cons, List.zipIdx_nil, forFold, tagged_body, tagged_ion, vget, bind,
    StateT.bind, Except.bind, pure, StateT.pure, Except.pure, liftM, monadLift,
    MonadLift.monadLift, StateT.lift, List.getElem?_cons_zero, List.getElem?_cons_succ, speed,
    zero_add, r1, r2, List.foldl_cons, List.foldl_nil, push_tagged, reported, i1, i2, Bool.or_true,
    if_true, List.nil_append, List.length_append, List.length_singleton, List.cons_append]
  rfl

example (rcpr : Rcpr ℝ) (ext : Ext ℝ) : ∃ (o : OutputTaggedBCA ℝ) (results : List (List (TaggedEntry ℝ))),
    o.len = 2 ∧ o.len = results.flatten.length ∧
    o.tags.map some = results.flatten.map (fun e => tagged.tags[e.i]?) := by
  obtain ⟨o, t, h, -, -, hl⟩ := tagged_ok rcpr ext
  obtain ⟨mat, results, -, -, h1, -, h2, -⟩ := C57_tagged_arrays h
  exact ⟨o, results, hl, h1, h2⟩

/-- **C66** The list functions succeed on two such ions. -/
theorem lists_ok (rcpr : Rcpr ℝ) (ext : Ext ℝ) :
    (∃ rows t, simple_bca_list_c rcpr 2 ext [⟨3, 4, 0⟩, ⟨3, 4, 0⟩] 1 1 1 1 1 1 1 1 1 1 zeros =
      .ok (rows, t) ∧ rows.length = 2) ∧
    (∃ rows t, compound_bca_list_c rcpr 2 ext [⟨3, 4, 0⟩, ⟨3, 4, 0⟩] 1 1 1 1 [1] [1] [1] [1] [1] [1]
      zeros = .ok (rows, t) ∧ rows.length = 2) ∧
    (∃ rows t, compound_bca_list_fortran rcpr 2 ext true [3/5, 3/5] [4/5, 4/5] [0, 0] [1/2, 1/2]
      [1, 1] [1, 1] [1, 1] [1, 1] [1] [1] [1] [1] [1] [1] zeros = .ok (rows, t) ∧
      rows.length = 2) ∧
    (∃ rows t, compound_bca_list_py rcpr 2 ext [1/2, 1/2] [3, 3] [4, 4] [0, 0]
      [1, 1] [1, 1] [1, 1] [1, 1] [1] [1] [1] [1] [1] [1] zeros = .ok ((rows, [true, true]), t) ∧
      rows.length = 2) ∧
    (∃ r t, reflect_single_ion_c rcpr 2 ext (3/5) (4/5) 0 (1/2) 1 1 1 1 [1] [1] [1] [1] [1] [1] zeros =
      .ok (r, t)) := by
  have h00 : (0.0:ℝ) = 0 := by norm_num
  have hE : (1/2*EV ℝ : ℝ) < 1*EV ℝ := by unfold EV Q; norm_num
  refine ⟨?_, ?_, ?_, ?_, ?_⟩
  · obtain ⟨mat, mesh, hm, hrun⟩ := list_ion_stops rcpr ext 1 true .AVERAGE
    obtain ⟨q, h1, h2, -⟩ := hrun (ion_literal (1*AMU ℝ) 1 (0.5*1*AMU ℝ*5*5) (1*EV ℝ) (1*EV ℝ)
        (list_start_x (fsum [1])) 0.0 0.0 (3/5) (4/5) (0/5) 1.0 0 ⟨0.0, 0.0, 0.0⟩) rfl rfl
        h00 rfl rfl rfl slow rfl
    refine ⟨[output_row q, output_row q], zeros, ?_, rfl⟩
    have hx : list_start_x (1:ℝ) = list_start_x (fsum [1]) := by simp [fsum, h00]
    simp only [simple_bca_list_c, bind, StateT.bind, Except.bind, pure, StateT.pure,
      Except.pure, liftM, monadLift, MonadLift.monadLift, StateT.lift, List.length_cons,
      List.length_nil]
    rw [hm, hx]
    simp only [forFold, velocity_body, bind, StateT.bind, Except.bind, pure, StateT.pure,
      Except.pure, speed, h1, List.filter_cons, List.filter_nil, reported, h2, Bool.or_true, if_true,
      List.map_cons, List.map_nil, List.nil_append, List.cons_append]
  · obtain ⟨mat, mesh, hm, hrun⟩ := list_ion_stops rcpr ext 0 true .AVERAGE
    obtain ⟨q, h1, h2, -⟩ := hrun (ion_literal (1*AMU ℝ) 1 (0.5*1*AMU ℝ*5*5) (1*EV ℝ) (1*EV ℝ)
        (list_start_x (fsum [1])) 0.0 0.0 (3/5) (4/5) (0/5) 1.0 0 ⟨0.0, 0.0, 0.0⟩) rfl rfl
        h00 rfl rfl rfl slow rfl
    refine ⟨[output_row q, output_row q], zeros, ?_, rfl⟩
    simp only [compound_bca_list_c, bind, StateT.bind, Except.bind, pure, StateT.pure,
      Except.pure, liftM, monadLift, MonadLift.monadLift, StateT.lift, List.length_singleton,
      List.replicate_one]
    rw [hm]
    simp only [forFold, velocity_body, bind, StateT.bind, Except.bind, pure, StateT.pure,
      Except.pure, speed, h1, List.filter_cons, List.filter_nil, reported, h2, Bool.or_true, if_true,
      List.map_cons, List.map_nil, List.nil_append, List.cons_append]
  · obtain ⟨mat, mesh, hm, hrun⟩ := list_ion_stops rcpr ext 0 true .INDIVIDUAL
    obtain ⟨q, h1, h2, -⟩ := hrun (ion_literal (1*AMU ℝ) 1 (1/2*EV ℝ) (1*EV ℝ) (1*EV ℝ)
        (list_start_x (fsum [1])) 0.0 0.0 (3/5) (4/5) 0 1.0 0 ⟨0.0, 0.0, 0.0⟩) rfl rfl
        h00 rfl rfl rfl hE rfl
    refine ⟨[fortran_row q, fortran_row q], zeros, ?_, rfl⟩
    simp only [compound_bca_list_fortran, bind, StateT.bind, Except.bind, pure, StateT.pure,
      Except.pure, liftM, monadLift, MonadLift.monadLift, StateT.lift, List.length_singleton,
      List.replicate_one]
    rw [hm]
    simp only [forFold, zip_ions, List.zip_cons_cons, List.zip_nil_right, List.map_cons, List.map_nil,
      fortran_body, bind, StateT.bind, Except.bind, pure, StateT.pure,
      Except.pure, h1, List.filter_cons, List.filter_nil, reported, h2, Bool.or_true, if_true,
      List.nil_append, List.cons_append]
  · obtain ⟨mat, mesh, hm, hrun⟩ := list_ion_stops rcpr ext 0 true .INDIVIDUAL
    have hd : (Scalar.abs ((3:ℝ)/5) <. 1.0 - epsilon) = true := by
      rw [lt_real, abs_real, epsilon_real, abs_of_pos (by norm_num)]; norm_num
    have hpos : ((1/2:ℝ) >. 0.0) = true := by rw [lt_real]; norm_num
    obtain ⟨p, hp, a1, a2, a3, a4, a5, a6, a7, a8⟩ : ∃ p : Particle ℝ,
        Particle.default_incident 1 1 (1/2) 1 1 (list_start_x (fsum [1])) 3 4 0 = .ok p ∧
        p.first_step = true ∧ p.dir_old = p.dir ∧ p.asymptotic_deflection = 0 ∧
        p.stopped = false ∧ p.left = false ∧ p.pos = ⟨list_start_x (fsum [1]), 0.0, 0.0⟩ ∧
        p.E < p.Ec ∧ p.incident = true := by
      simp only [Particle.default_incident, speed, hd, hpos, rassert, if_true, bind, Except.bind,
        pure, Except.pure]
      exact ⟨_, rfl, rfl, rfl, h00, rfl, rfl, rfl, hE, rfl⟩
    obtain ⟨q, h1, h2, -⟩ := hrun p a1 a2 a3 a4 a5 a6 a7 a8
    refine ⟨[python_row q, python_row q], zeros, ?_, rfl⟩
    simp only [compound_bca_list_py, check_lengths, rassert, bind, StateT.bind, Except.bind, pure,
      StateT.pure, Except.pure, liftM, monadLift, MonadLift.monadLift, StateT.lift,
      List.length_cons, List.length_nil, beq_self_eq_true, if_true, List.replicate_succ,
      List.replicate_zero, zero_add]
    rw [zero_add] at hm
    rw [hm]
    simp only [forFold, zip_ions, List.zip_cons_cons, List.zip_nil_right, List.map_cons, List.map_nil,
      py_body, bind, StateT.bind, Except.bind, pure, StateT.pure, liftM, monadLift,
      MonadLift.monadLift, StateT.lift,
      Except.pure, hp, h1, List.foldl_cons, List.foldl_nil, push_py, reported, h2, Bool.or_true,
      if_true, List.nil_append, List.cons_append]
  · obtain ⟨mat, mesh, hm, hrun⟩ := list_ion_stops rcpr ext 0 false .AVERAGE
    obtain ⟨q, h1, h2, -⟩ := hrun (ion_literal (1*AMU ℝ) 1 (1/2*EV ℝ) (1*EV ℝ) (1*EV ℝ)
        (list_start_x (fsum [1])) 0.0 0.0 (3/5) (4/5) 0 1.0 0 ⟨0.0, 0.0, 0.0⟩) rfl rfl
        h00 rfl rfl rfl hE rfl
    have hpos : ((1/2:ℝ) >. 0.0) = true := by rw [lt_real]; norm_num
    refine ⟨(q.dir.x, q.dir.y, q.dir.z, if (q.pos.x >=. 0.0) = true then 0.0 else q.E/EV ℝ), zeros, ?_⟩
    simp only [reflect_single_ion_c, rassert, hpos, if_true, bind, StateT.bind, Except.bind, pure,
      StateT.pure, Except.pure, liftM, monadLift, MonadLift.monadLift, StateT.lift,
      List.length_singleton, List.replicate_one]
    rw [hm]
    simp only [h1, vget, List.getElem?_cons_zero]

/-- An ion with less than the cutoff energy stops in the barrier after a first step of half a mean free
path, if it starts at the edge of the barrier. -/
theorem edge_ion_stops (rcpr : Rcpr ℝ) (ext : Ext ℝ) (tr : Bool) (ux uy uz : ℝ)
    (hux : 0 < ux) (hux1 : ux < 1) :
    ∃ mat mesh, mesh0d_material ext (compound_parameters [1] [1] [1] [1] [1] 1 [0] .AVERAGE)
        "M" [1] = .ok (mat, mesh) ∧
      ∀ p : Particle ℝ, p.first_step = true → p.dir_old = p.dir → p.asymptotic_deflection = 0 →
        p.stopped = false → p.left = false → p.pos = ⟨-mesh.energy_barrier_thickness, 0.0, 0.0⟩ →
        p.dir = ⟨ux, uy, uz⟩ → p.E < p.Ec → p.incident = true →
        ∃ q t, single_ion_bca rcpr 2 p mat (Options.default_options tr) half = .ok ([q], t) ∧
          q.incident = true ∧ q.left = false := by
  obtain ⟨mat, mesh, s, hm, g1, g2, g3, g4, g5, g6, g7, g8, g9⟩ := target_facts ext 1 1 1 1 1 1
    1.0 0 "M" .AVERAGE rfl (by norm_num) one_pos
  refine ⟨mat, mesh, hm, fun p h1 h2 h3 h4 h5 h6 hd h7 h8 => ?_⟩
  have e1 : (1/1.0^3 : ℝ) = 1 := by norm_num
  rw [e1] at g1 g2 g8
  rw [Real.one_rpow] at g8
  have hx : ∀ y z, mat.geometry.inside (-mesh.energy_barrier_thickness + 1/2*ux) y z = .ok false := by
    intro y z; rw [g5]; simp; linarith
  have hx2 : ∀ y z, mat.geometry.inside_simulation_boundary
      (-mesh.energy_barrier_thickness + 1/2*ux) y z = .ok true := by
    intro y z; rw [g7]; simp; linarith
  have hx3 : ∀ y z, mat.geometry.inside_energy_barrier
      (-mesh.energy_barrier_thickness + 1/2*ux) y z = .ok true := by
    intro y z; rw [g6]; simp; linarith
  obtain ⟨q, hq, -, hl, hs, hi, -⟩ := one_pass rcpr p mat tr half 1 1 s
    ⟨-mesh.energy_barrier_thickness + 1/2*ux, 0.0 + 1/2*uy, 0.0 + 1/2*uz⟩ true true h1
    h2 h3 ⟨_, g6 _ _ _⟩ h4 h5 g1 g2 g3 (by simp [half]) g4 (by simp [half])
    (by rw [h6, hd]; simp [half])
    (hx _ _) (hx2 _ _) (hx3 _ _) (.inr ⟨rfl, rfl, h7⟩)
  exact ⟨q, _, hq, hi.trans h8, hl⟩

/-- Dictionaries for an ion and a target with all entries 1. -/
noncomputable def ones : PyDict ℝ := fun _ => some (.float 1)

theorem incident_ok (E x ux uy uz n : ℝ) (hn : Scalar.sqrt (ux*ux + uy*uy + uz*uz) = n)
    (hg : |ux/n| < 1 - 2^(-52:ℤ)) (hE0 : 0 < E) (hE1 : E < 1) : ∃ p : Particle ℝ,
    Particle.default_incident 1 1 E 1 1 x ux uy uz = .ok p ∧
    p.first_step = true ∧ p.dir_old = p.dir ∧ p.asymptotic_deflection = 0 ∧
    p.stopped = false ∧ p.left = false ∧ p.pos = ⟨x, 0.0, 0.0⟩ ∧ p.dir = ⟨ux/n, uy/n, uz/n⟩ ∧
    p.E < p.Ec ∧ p.incident = true := by
  have hd : (Scalar.abs (ux/n) <. 1.0 - epsilon) = true := by
    rw [lt_real, abs_real, epsilon_real]
    norm_num at hg ⊢
    exact hg
  have hpos : (E >. 0.0) = true := by rw [lt_real]; norm_num; exact hE0
  have hE : E*EV ℝ < 1*EV ℝ := by
    have : 0 < EV ℝ := by unfold EV Q; norm_num
    exact mul_lt_mul_of_pos_right hE1 this
  have h00 : (0.0:ℝ) = 0 := by norm_num
  simp only [Particle.default_incident, hn, hd, hpos, rassert, if_true, bind, Except.bind,
    pure, Except.pure]
  exact ⟨_, rfl, rfl, rfl, h00, rfl, rfl, rfl, rfl, hE, rfl⟩

/-- **C67** `reflect_single_ion_py` on a slow ion, which is not reflected. -/
theorem reflect_ok (rcpr : Rcpr ℝ) (ext : Ext ℝ) :
    ∃ t, reflect_single_ion_py rcpr 2 ext ones ones 3 4 0 half = .ok ((0.0, 0.0, 0.0), t) := by
  obtain ⟨mat, mesh, hm, hrun⟩ := edge_ion_stops rcpr ext false (3/5) (4/5) (0/5)
    (by norm_num) (by norm_num)
  have h2 : (2.0:ℝ) = 2 := by norm_num
  have e2 : (powf (3:ℝ) 2.0 + powf 4 2.0 + powf 0 2.0 : ℝ) = 3*3 + 4*4 + 0*0 := by
    simp only [powf_real, h2, Real.rpow_two]; ring
  have hslow : 0.5*1*AMU ℝ*(3*3 + 4*4 + 0*0)/EV ℝ < 1 := by unfold AMU EV Q; norm_num
  have hpos : 0 < 0.5*1*AMU ℝ*(3*3 + 4*4 + 0*0)/EV ℝ := by unfold AMU EV Q; norm_num
  have hsq : Scalar.sqrt ((3/5:ℝ)*(3/5) + (4/5)*(4/5) + (0/5)*(0/5)) = 1 := by
    show Real.sqrt _ = 1
    rw [show ((3/5:ℝ)*(3/5) + (4/5)*(4/5) + (0/5)*(0/5)) = 1 by norm_num, Real.sqrt_one]
  obtain ⟨p, hp, a1, a2, a3, a4, a5, a6, a7, a8, a9⟩ := incident_ok
    (0.5*1*AMU ℝ*(3*3 + 4*4 + 0*0)/EV ℝ) (-mesh.energy_barrier_thickness) (3/5) (4/5) (0/5) 1 hsq
    (by rw [abs_of_pos (by norm_num)]; norm_num) hpos hslow
  obtain ⟨q, t, hq, hi, hl⟩ := hrun p a1 a2 a3 a4 a5 a6 (by rw [a7]; simp) a8 a9
  have hvx : ((3:ℝ) >. 0.0) = true := by rw [lt_real]; norm_num
  refine ⟨t, ?_⟩
  simp only [reflect_single_ion_py, unpack_ion, unpack_target, unpack, ones, rassert, hvx, if_true,
    bind, StateT.bind, Except.bind, pure, StateT.pure, Except.pure, liftM, monadLift,
    MonadLift.monadLift, StateT.lift, e2, speed]
  rw [hm]
  simp only [hp, hq, vget, List.getElem?_cons_zero, hl, Bool.and_false, Bool.false_and,
    Bool.false_eq_true, if_false, pure, StateT.pure, Except.pure]

/-- **C58** `reflection_coefficient` with two samples at 30 degrees: it returns, and returns 0. -/
theorem incidence_30 : (incidence (30:ℝ)).1 = Real.cos (Real.pi/6) + 1e-6 ∧
    (incidence (30:ℝ)).2.1 = Real.sin (Real.pi/6) - 1e-6 ∧ (incidence (30:ℝ)).2.2 = 0.0 := by
  unfold incidence
  have : (30/180.0*Scalar.pi : ℝ) = Real.pi/6 := by
    rw [pi_real, show (180.0:ℝ) = 180 by norm_num]; ring
  simp only [this, cos_real, sin_real, and_self]

theorem samples_ok (rcpr : Rcpr ℝ) (ext : Ext ℝ) (tr : Bool) : ∃ q : Particle ℝ,
    q.incident = true ∧ q.left = false ∧
    (tr = false → reflection_samples rcpr 2 ext ones ones (1/2) 30 2 (fun _ => half) =
      .ok [[q], [q]]) ∧
    (tr = true → sputtering_samples rcpr 2 ext ones ones (1/2) 30 2 (fun _ => half) =
      .ok [[q], [q]]) := by
  obtain ⟨i1, i2, i3⟩ := incidence_30
  rw [Real.cos_pi_div_six] at i1
  rw [Real.sin_pi_div_six] at i2
  obtain ⟨ux, hux⟩ : ∃ ux, ux = (incidence (30:ℝ)).1 := ⟨_, rfl⟩
  obtain ⟨uy, huy⟩ : ∃ uy, uy = (incidence (30:ℝ)).2.1 := ⟨_, rfl⟩
  obtain ⟨uz, huz⟩ : ∃ uz, uz = (incidence (30:ℝ)).2.2 := ⟨_, rfl⟩
  have hux0 : 0 < ux := by rw [hux, i1]; positivity
  have huy0 : 0.49 < uy := by rw [huy, i2]; norm_num
  have hs3 : Real.sqrt 3 < 1.733 := by rw [Real.sqrt_lt' (by norm_num)]; norm_num
  have hux1 : ux < 0.87 := by rw [hux, i1]; linarith
  obtain ⟨n, hn⟩ : ∃ n, n = Scalar.sqrt (ux*ux + uy*uy + uz*uz) := ⟨_, rfl⟩
  have hn2 : n^2 = ux*ux + uy*uy + uz*uz := by
    rw [hn]; exact Real.sq_sqrt (by
      have h1 := mul_self_nonneg uz
      have h2 := mul_self_nonneg ux
      have h3 := mul_self_nonneg uy
      linarith)
  have hn0 : 0 < n := by
    rw [hn]; exact Real.sqrt_pos.2 (by
      have h1 := mul_self_nonneg uz
      have h2 := mul_pos hux0 hux0
      have h3 := mul_self_nonneg uy
      linarith)
  have hlt : ux/n < 0.9 := by
    rw [div_lt_iff₀ hn0]
    have huz0 : 0 ≤ uz*uz := mul_self_nonneg _
    nlinarith
  obtain ⟨mat, mesh, hm, hrun⟩ := edge_ion_stops rcpr ext tr (ux/n) (uy/n) (uz/n)
    (by positivity) (by linarith)
  obtain ⟨p, hp, a1, a2, a3, a4, a5, a6, a7, a8, a9⟩ := incident_ok
    (1/2) (-mesh.energy_barrier_thickness) ux uy uz n hn.symm
    (by rw [abs_of_pos (by positivity)]; refine lt_trans hlt ?_; norm_num) (by norm_num) (by norm_num)
  obtain ⟨q, t, hq, hi, hl⟩ := hrun p a1 a2 a3 a4 a5 a6 a7 a8 a9
  have hang : (Scalar.abs (30:ℝ) <=. 90.0) = true := by
    rw [le_real, abs_real, abs_of_pos (by norm_num)]; norm_num
  rw [hux, huy, huz] at hp
  refine ⟨q, hi, hl, fun h => ?_, fun h => ?_⟩
  all_goals
    subst h
    simp only [reflection_samples, sputtering_samples, check_angle, unpack_ion, unpack_target,
      unpack, ones, rassert, hang, if_true, bind, Except.bind, pure, Except.pure]
    rw [hm]
    simp only [run_samples, collectN, bind, Except.bind, pure, Except.pure, hp, hq,
      List.nil_append, List.cons_append]

example (rcpr : Rcpr ℝ) (ext : Ext ℝ) : ∃ r, sputtering_yield rcpr 2 ext ones ones (1/2) 30 2
    (fun _ => half) r := by
  obtain ⟨q, -, -, -, h⟩ := samples_ok rcpr ext true
  exact C58_sputtering_returns (h rfl)

/-- The reflection coefficient of these two samples is 0, by C58. -/
example (rcpr : Rcpr ℝ) (ext : Ext ℝ) : ∃ r, reflection_coefficient rcpr 2 ext ones ones (1/2) 30 2
    (fun _ => half) r ∧ r.1 = 0 := by
  obtain ⟨q, -, hl, h, -⟩ := samples_ok rcpr ext false
  obtain ⟨f, hf, hfin⟩ := C58_finishes reflected_particle true [[q], [q]]
  have hr : reflection_coefficient rcpr 2 ext ones ones (1/2) 30 2 (fun _ => half)
      (coefficients f (1/2) 2) := ⟨_, f, h rfl, hf, hfin, rfl⟩
  refine ⟨_, hr, ?_⟩
  obtain ⟨outs, ho, -, hv⟩ := reflection_coefficient_value hr
  rw [h rfl, Except.ok.injEq] at ho
  subst ho
  have hc : howMany ReflectedBack ([[q], [q]] : List (List (Particle ℝ))).flatten = 0 := by
    simp [howMany, ReflectedBack, hl]
  rw [hc] at hv
  rw [(hv (by norm_num)).1]
  simp

/-- An ion that came back, and an atom it knocked out. -/
noncomputable def back : Particle ℝ :=
  { CascadeExample.ion with
    left := true
    dir := ⟨-1, 0, 0⟩ }
noncomputable def atom : Particle ℝ := { back with incident := false }

/-- **C58** Three workers, with 2, 0 and 1 particles to count: every schedule that runs to the end
counts three and adds up their energies, and one exists. -/
example : ∃ final, Pool.Reaches sputtered_particle true 3
      (Pool.initial [[back, atom, atom], [], [atom]]) final ∧
    final.finished 3 ∧ final.num = 3 ∧ final.energy = 3 := by
  obtain ⟨f, hf, hfin⟩ := C58_finishes sputtered_particle true
    [[back, atom, atom], [], [atom]]
  obtain ⟨h1, h2⟩ := C58_counters _ _ _ _ hf hfin
  obtain ⟨l, hp, he⟩ := h2 rfl
  have ha : sputtered_particle atom = true := by
    simp only [sputtered_particle, atom, back, CascadeExample.ion]
    norm_num
  have hb : sputtered_particle back = false := by simp [sputtered_particle, back, CascadeExample.ion]
  refine ⟨f, hf, hfin, ?_, ?_⟩
  · rw [h1]
    simp [ha, hb, List.countP_cons]
    rfl
  · simp only [List.flatten_cons, List.flatten_nil, List.filter_cons, ha, hb, if_true,
      Bool.false_eq_true, if_false, List.nil_append, List.append_nil, List.cons_append,
      List.filter_nil, List.map_cons, List.map_nil] at hp
    have hE : atom.E = 1 := rfl
    rw [hE] at hp
    have hl : l = [1, 1, 1] := by
      have := List.perm_replicate (n := 3) (a := (1:ℝ)) (l := l)
      exact this.1 hp
    rw [he, hl]
    norm_num

/-- **C58** finding, on the pool itself: two thousand million sputtered atoms and a few more, and
every schedule ends with a negative count. -/
example : ∃ (outs : List (List (Particle ℝ))) (final : Pool ℝ),
    Pool.Reaches sputtered_particle false outs.length (Pool.initial outs) final ∧
    final.finished outs.length ∧ final.num < 0 := by
  have ha : sputtered_particle atom = true := by
    simp only [sputtered_particle, atom, back, CascadeExample.ion]
    norm_num
  obtain ⟨f, hf, hfin⟩ := C58_finishes sputtered_particle false
    [List.replicate (2^31) atom]
  obtain ⟨h1, -⟩ := C58_counters _ _ _ _ hf hfin
  refine ⟨_, f, hf, hfin, ?_⟩
  rw [h1, List.flatten_singleton, List.countP_replicate, if_pos ha]
  unfold i32_wrap
  norm_num

/-- **C56** A surface facing +z hit by a particle moving along -z: it becomes (nearly) +x, and comes
back; the antiparallel special case `n = +x` too. -/
example : (∃ u, rotate_given_surface_normal (0:ℝ) 0 1 0 0 (-1) = .ok u) ∧
    (∃ u, rotate_given_surface_normal (1:ℝ) 0 0 (-1) 0 0 = .ok u) := by
  constructor
  · obtain ⟨R, -, -, h, -⟩ := C56_rotation ⟨0, 0, 1⟩ (by simp [Spec.IsUnit, Spec.inner])
    exact ⟨_, h ⟨0, 0, -1⟩ (by simp only [Spec.inner]; norm_num)⟩
  · obtain ⟨R, -, -, h, -⟩ := C56_rotation ⟨1, 0, 0⟩ (by simp [Spec.IsUnit, Spec.inner])
    exact ⟨_, h ⟨-1, 0, 0⟩ (by simp only [Spec.inner]; norm_num)⟩

end RustBCA.LibExample
