import Verif.Proofs.SpecialFlight

/-! # The collision loop over numbers with special values (helper lemmas for C95) -/

namespace RustBCA
open Scalar Spec

set_option linter.unusedSimpArgs false
set_option linter.unusedVariables false

/-- Every impact parameter drawn is positive, and the random numbers left are still in the open interval. -/
theorem determine_pos {mat : Material ℝ} {mat' : Material XReal} (h : SameMaterial mat mat') (hm : RegularTarget mat)
    {p : Particle ℝ} (hp : RegularParticle p) (o : Options ℝ) {t : Tape ℝ} (ht : OpenUnit t) :
    Sat (determine_mfp_phi_impact_parameter p mat o) t
      (fun r t1 => (∀ g ∈ r.2, 0 < g.impact_parameter) ∧ OpenUnit t1) (fun _ => True) := by
  have hs : 0 < SQRTPI ℝ := by rw [SQRTPI_real]; exact Real.sqrt_pos.2 Real.pi_pos
  have key : ∀ (c : Particle ℝ) (m n : ℝ) (tt : Tape ℝ), OpenUnit tt →
      Sat (if c.first_step then do
          let r ← random
          pure ({ c with first_step := false }, m*r)
        else pure (c, n) : M ℝ (Particle ℝ × ℝ)) tt (fun _ t1 => OpenUnit t1) (fun _ => True) := by
    intro c m n tt htt
    by_cases hf : c.first_step = true
    · rw [if_pos hf]
      simp only [sat_bind, sat_random, sat_pure]
      exact htt.next
    · rw [if_neg hf]
      exact htt
  have key2 : ∀ (tt : Tape ℝ), OpenUnit tt →
      Sat (exponential : M ℝ ℝ) tt (fun _ t1 => OpenUnit t1) (fun _ => True) := by
    intro tt htt
    unfold exponential
    simp only [sat_bind, sat_random, sat_pure]
    exact htt.next
  unfold determine_mfp_phi_impact_parameter
  rw [sat_bind, sat_lift, rsat_iff]
  refine ⟨fun mfp hmf => ?_, fun _ _ => trivial⟩
  have hmfp0 : 0 < mfp := by
    unfold Material.mfp at hmf
    cases hq : mat.total_number_density p.pos.x p.pos.y p.pos.z with
    | error e => rw [hq] at hmf; cases hmf
    | ok n =>
      rw [hq] at hmf
      cases hmf
      exact Real.rpow_pos_of_pos (XReal.total_pos h _ _ _ hm hq) _
  rw [sat_bind, sat_iff]
  refine ⟨fun phis t1 hphi => ?_, fun _ _ => trivial⟩
  have ht1 : OpenUnit t1 := by rw [XReal.draw_phis_rest _ _ hphi]; exact ht.shift _
  by_cases hff : o.high_energy_free_flight_paths = true
  · rw [if_pos hff, sat_bind, sat_lift, rsat_iff]
    refine ⟨fun x hl => ?_, fun _ _ => trivial⟩
    obtain ⟨pmax, ffp⟩ := x
    obtain ⟨l1, l2⟩ := XReal.ffp_limits_fin h hm hp hl
    simp only
    by_cases hc : (ffp <. mfp) = true
    · rw [if_pos hc]
      simp only [sat_bind, sat_random]
      refine sat_mono (key _ _ _ _ ht1.next) (fun x t2 ht2 => ?_) (fun _ _ => trivial)
      obtain ⟨p1, f1⟩ := x
      simp only [sat_bind]
      refine sat_mono (R := fun _ t3 => OpenUnit t3) (E := fun _ => True) ?_ (fun e t3 ht3 => ?_) (fun _ _ => trivial)
      · cases o.mean_free_path_model with
        | GASEOUS => exact key2 _ ht2
        | LIQUID => exact ht2
        | THRESHOLD d =>
          simp only [sat_bind, sat_lift]
          refine rsat_mono (rsat_trivial _) (fun ds _ => ?_) (fun _ _ => trivial)
          split
          · exact key2 _ ht2
          · exact ht2
      · simp only [sat_lift]
        refine rsat_mono (rsat_trivial _) (fun phi _ => ?_) (fun _ _ => trivial)
        simp only [sat_pure]
        refine ⟨fun g hg => ?_, ht3⟩
        rw [List.mem_singleton] at hg
        subst hg
        exact mul_pos (div_pos hmfp0 hs) (Real.sqrt_pos.2 (ht1 0).1)
    · rw [if_neg hc]
      have hle : mfp ≤ ffp := not_lt.1 fun hh => hc ((lt_real _ _).2 hh)
      have hE : 0 < p.E := by
        rcases hp.E_nonneg.lt_or_eq with hE | hE
        · exact hE
        · have := (l2 hE.symm).1
          linarith
      have hpm := (l1 hE).2
      simp only [sat_bind, sat_random]
      refine sat_mono (key _ _ _ _ ht1.next) (fun x t2 ht2 => ?_) (fun _ _ => trivial)
      obtain ⟨p1, f1⟩ := x
      simp only [sat_bind]
      have key3 : Sat (if o.mean_free_path_model.isGaseous then do
          let e ← exponential
          pure (f1*e)
        else pure f1 : M ℝ ℝ) t2 (fun _ t3 => OpenUnit t3) (fun _ => True) := by
        split
        · simp only [sat_bind, sat_pure]
          exact key2 _ ht2
        · exact ht2
      refine sat_mono key3 (fun e t3 ht3 => ?_) (fun _ _ => trivial)
      simp only [sat_lift]
      refine rsat_mono (rsat_trivial _) (fun phi _ => ?_) (fun _ _ => trivial)
      simp only [sat_pure]
      refine ⟨fun g hg => ?_, ht3⟩
      rw [List.mem_singleton] at hg
      subst hg
      refine mul_pos hpm (Real.sqrt_pos.2 ?_)
      have := Real.log_neg (ht1 0).1 (ht1 0).2
      show 0 < -Real.log (t1 0)
      linarith
  · rw [if_neg hff]
    rw [sat_bind, sat_iff]
    refine ⟨fun ps t2 hps => ?_, fun _ _ => trivial⟩
    rw [collect_random (fun k r => mfp/SQRTPI ℝ*Scalar.sqrt (r + ofNat k)) _ t1] at hps
    have hps' := Prod.mk.inj (Except.ok.inj hps)
    obtain ⟨e1, e2⟩ := hps'
    have ht2 : OpenUnit t2 := by rw [← e2]; exact ht1.shift _
    have hpos : ∀ x ∈ ps, 0 < x := by
      intro x hx
      rw [← e1, List.mem_map] at hx
      obtain ⟨k, _, rfl⟩ := hx
      refine mul_pos (div_pos hmfp0 hs) (Real.sqrt_pos.2 ?_)
      have := (ht1 k).1
      have h0 : (0:ℝ) ≤ (k:ℝ) := Nat.cast_nonneg k
      show 0 < t1 k + (k:ℝ)
      linarith
    rw [sat_bind]
    refine sat_mono (key _ _ _ _ ht2) (fun x t3 ht3 => ?_) (fun _ _ => trivial)
    obtain ⟨p1, f1⟩ := x
    simp only [sat_bind]
    have key3 : Sat (if o.mean_free_path_model.isGaseous then do
          let e ← exponential
          pure (f1*e)
        else pure f1 : M ℝ ℝ) t3 (fun _ t3 => OpenUnit t3) (fun _ => True) := by
      split
      · simp only [sat_bind, sat_pure]
        exact key2 _ ht3
      · exact ht3
    refine sat_mono key3 (fun e t4 ht4 => ?_) (fun _ _ => trivial)
    simp only [sat_pure]
    refine ⟨fun g hg => ?_, ht4⟩
    rw [List.mem_map] at hg
    obtain ⟨⟨a, b⟩, hab, rfl⟩ := hg
    exact hpos _ (List.of_mem_zip hab).2

def BinaryCollisionResult.lift (r : BinaryCollisionResult ℝ) : BinaryCollisionResult XReal where
  theta := .fin r.theta
  psi := .fin r.psi
  psi_recoil := .fin r.psi_recoil
  recoil_energy := .fin r.recoil_energy
  asymptotic_deflection := .fin r.asymptotic_deflection
  normalized_distance_of_closest_approach := .fin r.normalized_distance_of_closest_approach

def StepState.lift (s : StepState ℝ) : StepState XReal where
  particle_1 := s.particle_1.lift
  particles := s.particles.map (·.lift)
  total_energy_lost_to_recoils := .fin s.total_energy_lost_to_recoils
  total_asymptotic_deflection := .fin s.total_asymptotic_deflection
  normalized_distance_of_closest_approach := .fin s.normalized_distance_of_closest_approach
  strong_collision_Z := .fin s.strong_collision_Z
  strong_collision_index := s.strong_collision_index

namespace XReal

theorem sinx_pos {d : Vec3 ℝ} (hd : Spec.IsUnit d) (hx : |d.x| ≠ 1) :
    0 ≤ (1.0:ℝ) - d.x*d.x ∧ Real.sqrt ((1.0:ℝ) - d.x*d.x) ≠ 0 := by
  have := not_axis_pos hd hx
  have e : (1.0:ℝ) - d.x*d.x = 1 - d.x^2 := by norm_num; ring
  rw [e]
  exact ⟨this.le, (Real.sqrt_pos.2 this).ne'⟩

theorem recoil_position_fin (pos : Vec3 ℝ) {dir : Vec3 ℝ} (g : BinaryCollisionGeometry ℝ) (hd : Spec.IsUnit dir)
    (hx : |dir.x| ≠ 1) : recoil_position pos.lift dir.lift g.lift = (recoil_position pos dir g).lift := by
  obtain ⟨h1, h2⟩ := sinx_pos hd hx
  simp only [recoil_position, Vec3.lift, BinaryCollisionGeometry.lift, fin_sin, fin_cos, fin_lit, fin_mul, fin_sub,
    fin_sqrt h1, fin_add, fin_div h2]
  rfl

theorem new_fin (m Z E Ec Es Ed x y z : ℝ) {d : Vec3 ℝ} (hd : Spec.IsUnit d) (incident track : Bool) (i : Nat) :
    Particle.new (fin m) (fin Z) (fin E) (fin Ec) (fin Es) (fin Ed) (fin x) (fin y) (fin z) (fin d.x) (fin d.y)
      (fin d.z) incident track i = (Particle.new m Z E Ec Es Ed x y z d.x d.y d.z incident track i).lift := by
  have h : d.x*d.x + d.y*d.y + d.z*d.z = 1 := hd
  have h0 : 0 ≤ d.x*d.x + d.y*d.y + d.z*d.z := by rw [h]; norm_num
  have h1 : Real.sqrt (d.x*d.x + d.y*d.y + d.z*d.z) ≠ 0 := by rw [h]; norm_num
  simp only [Particle.new, fin_mul, fin_add, fin_sqrt h0, fin_div h1]
  rfl

theorem partner_fin {mat : Material ℝ} {mat' : Material XReal} (h : SameMaterial mat mat') {p : Particle ℝ}
    (hp : RegularParticle p) (hx : |p.dir.x| ≠ 1) (g : BinaryCollisionGeometry ℝ) (o : Options ℝ) (t : Tape ℝ) :
    MLift (fun x : Nat × Particle ℝ => (x.1, x.2.lift)) (choose_collision_partner p mat g o)
      (choose_collision_partner p.lift mat' g.lift o.lift) t := by
  unfold choose_collision_partner
  have e : recoil_position p.lift.pos p.lift.dir g.lift = (recoil_position p.pos p.dir g).lift :=
    recoil_position_fin p.pos g hp.unit hx
  rw [e]
  refine MLift.bind (choose_fin h _ _ _ t) fun s t1 hs => MLift.pure ?_
  refine Prod.ext rfl ?_
  show ({ Particle.new (fin s.m) (fin s.Z) (0.0:XReal) _ _ _ _ _ _ _ _ _ _ _ _ with
    weight := _
    tag := _
    tracked_vector := _ } : Particle XReal) = _
  have e0 : (0.0:XReal) = fin 0.0 := fin_lit ..
  rw [e0]
  have := new_fin s.m s.Z 0.0 s.Ec s.Es s.Ed (recoil_position p.pos p.dir g).x (recoil_position p.pos p.dir g).y
    (recoil_position p.pos p.dir g).z hp.unit false o.track_recoil_trajectories s.interaction_index
  exact congrArg (fun q : Particle XReal => { q with
    weight := fin p.weight
    tag := p.tag
    tracked_vector := p.tracked_vector.lift }) this

theorem rotated_fin {d : Vec3 ℝ} (hd : Spec.IsUnit d) (hx : |d.x| ≠ 1) (psi phi : ℝ) :
    (Particle.rotated_dir d.lift (fin psi) (fin phi)).normalize =
      ((Particle.rotated_dir d psi phi).normalize).lift := by
  obtain ⟨h1, h2⟩ := sinx_pos hd hx
  have e : Particle.rotated_dir d.lift (fin psi) (fin phi) = (Particle.rotated_dir d psi phi).lift := by
    simp only [Particle.rotated_dir, Vec3.lift, fin_sin, fin_cos, fin_lit, fin_mul, fin_sub,
      fin_sqrt h1, fin_add, fin_div h2]
    rfl
  rw [e]
  have hu : Spec.IsUnit (Particle.rotated_dir d psi phi) := by
    rw [rotated_dir_eq hd hx]; exact (turned_unit hd hx psi phi).1
  generalize Particle.rotated_dir d psi phi = v at *
  have h : v.x*v.x + v.y*v.y + v.z*v.z = 1 := hu
  have h0 : 0 ≤ v.x*v.x + v.y*v.y + v.z*v.z := by rw [h]; norm_num
  have h1 : Real.sqrt (v.x*v.x + v.y*v.y + v.z*v.z) ≠ 0 := by rw [h]; norm_num
  simp only [Vec3.normalize, Vec3.magnitude, Vec3.lift, fin_mul, fin_add, fin_sqrt h0, fin_div h1]
  rfl

theorem rotate_fin {p : Particle ℝ} (hd : Spec.IsUnit p.dir) (hx : |p.dir.x| ≠ 1) (psi phi : ℝ) :
    p.lift.rotate (fin psi) (fin phi) = (p.rotate psi phi).lift := by
  unfold Particle.rotate
  have := rotated_fin hd hx psi phi
  exact congrArg (fun d => { p.lift with dir := d }) this

theorem keep_fin {mat : Material ℝ} {mat' : Material XReal} (h : SameMaterial mat mat') (hm : RegularTarget mat)
    {p q : Particle ℝ} (hZ : 0 < p.Z) (hM : 0 < p.m) (hE : 0 ≤ p.E) (hZ2 : 0 < q.Z) (hM2 : 0 < q.m)
    (o : Options ℝ) : RLift id (keep_recoil p q mat o) (keep_recoil p.lift q.lift mat' o.lift) := by
  unfold keep_recoil
  refine RLift.ite rfl (fun _ => ?_) (fun _ => RLift.pure ?_)
  · refine RLift.bind (total_fin h q.pos.x q.pos.y q.pos.z) fun n hn => ?_
    have hn0 := total_pos h _ _ _ hm hn
    refine RLift.bind (f := fun c : ℝ × ℝ × ℝ => (fin c.1, fin c.2.1, fin c.2.2))
      (RLift.of_map (h.geometry.closest q.pos.x q.pos.y q.pos.z)) fun c hc => RLift.pure ?_
    obtain ⟨x2, y2, z2⟩ := c
    obtain ⟨g1, g2⟩ := screening_length_fin' (.MOLIERE : InteractionPotential ℝ) .moliere hZ hZ2.le
    have g1' : screening_length (fin p.Z) (fin q.Z) (.MOLIERE : InteractionPotential XReal) =
      fin (screening_length p.Z q.Z (.MOLIERE : InteractionPotential ℝ)) := g1
    have e0 : p.lift.E = fin p.E := rfl
    have e4 : p.lift.m = fin p.m := rfl
    have e5 : p.lift.Z = fin p.Z := rfl
    have e0' : q.lift.E = fin q.E := rfl
    have e6' : q.lift.Ec = fin q.Ec := rfl
    have e4' : q.lift.m = fin q.m := rfl
    have e5' : q.lift.Z = fin q.Z := rfl
    have e1 : q.lift.pos.x = fin q.pos.x := rfl
    have e2 : q.lift.pos.y = fin q.pos.y := rfl
    have e3 : q.lift.pos.z = fin q.pos.z := rfl
    have hL : 0 < LINDHARD_REDUCED_ENERGY_PREFACTOR ℝ := by
      unfold LINDHARD_REDUCED_ENERGY_PREFACTOR
      have := EPS0_pos; have := Q_pos; have := Real.pi_pos
      have h4 : (0:ℝ) < 4.0 := by norm_num
      simp only [pi_real]
      positivity
    have hMM : p.m + q.m ≠ 0 := by positivity
    obtain ⟨a, ha⟩ : ∃ a, a = screening_length p.Z q.Z (.MOLIERE : InteractionPotential ℝ) := ⟨_, rfl⟩
    simp only [e0, e1, e2, e3, e4, e5, e0', e4', e5', e6', g1', ← ha] at g2 ⊢
    have hr : 0 ≤ LINDHARD_REDUCED_ENERGY_PREFACTOR ℝ*a*q.m/(p.m + q.m)/p.Z/q.Z*p.E := by positivity
    have h03 : (0:ℝ) < 0.3 := by norm_num
    have hd2 : 0 ≤ (x2 - q.pos.x)*(x2 - q.pos.x) + (y2 - q.pos.y)*(y2 - q.pos.y) +
      (z2 - q.pos.z)*(z2 - q.pos.z) := by
      have := mul_self_nonneg (x2 - q.pos.x)
      have := mul_self_nonneg (y2 - q.pos.y)
      have := mul_self_nonneg (z2 - q.pos.z)
      positivity
    simp only [lindhard_fin, fin_mul, fin_add, fin_sub, fin_div hMM, fin_div hZ.ne', fin_div hZ2.ne', fin_lit,
      fin_powf' hr h03, fin_powi (Or.inl (by norm_num : (0:ℤ) ≤ 3)), fin_div hn0.ne', fin_div g2.ne', fin_sqrt hd2,
      fin_lt']
    rfl
  · show (o.track_recoils && (fin q.Ec <. fin q.E)) = _
    rw [fin_lt']
    rfl

theorem apply_fin {mat : Material ℝ} {mat' : Material XReal} (h : SameMaterial mat mat') (hm : RegularTarget mat)
    (o : Options ℝ) (k : Nat) (g : BinaryCollisionGeometry ℝ) (si : Nat) (q : Particle ℝ)
    (r : BinaryCollisionResult ℝ) (s : StepState ℝ) (hp : RegularParticle s.particle_1)
    (hx : |s.particle_1.dir.x| ≠ 1) (hq : Spec.IsUnit q.dir) (hqx : |q.dir.x| ≠ 1) (hZ : 0 < q.Z) (hM : 0 < q.m)
    (hE : 0 ≤ s.particle_1.E + -r.recoil_energy) :
    RLift StepState.lift (apply_collision mat o k g si q r s)
      (apply_collision mat' o.lift k g.lift si q.lift r.lift s.lift) := by
  unfold apply_collision
  have e1 : (if (k == 0) = true then { s.lift with
      normalized_distance_of_closest_approach := r.lift.normalized_distance_of_closest_approach
      strong_collision_Z := q.lift.Z
      strong_collision_index := si } else s.lift) = StepState.lift (if (k == 0) = true then { s with
      normalized_distance_of_closest_approach := r.normalized_distance_of_closest_approach
      strong_collision_Z := q.Z
      strong_collision_index := si } else s) := by
    split <;> rfl
  have e2 : (if (k == 0) = true then { s with
      normalized_distance_of_closest_approach := r.normalized_distance_of_closest_approach
      strong_collision_Z := q.Z
      strong_collision_index := si } else s).particle_1 = s.particle_1 := by
    split <;> rfl
  simp only [e1]
  obtain ⟨s1, hs1⟩ : ∃ s1, s1 = (if (k == 0) = true then { s with
      normalized_distance_of_closest_approach := r.normalized_distance_of_closest_approach
      strong_collision_Z := q.Z
      strong_collision_index := si } else s) := ⟨_, rfl⟩
  rw [← hs1] at e2 ⊢
  refine RLift.bind (average_Eb_fin h q.pos.x q.pos.y q.pos.z) fun eb _ => ?_
  have hd1 : Spec.IsUnit ({ s1.particle_1 with E := s1.particle_1.E + -r.recoil_energy } : Particle ℝ).dir := by
    show Spec.IsUnit s1.particle_1.dir
    rw [e2]; exact hp.unit
  have hx1 : |({ s1.particle_1 with E := s1.particle_1.E + -r.recoil_energy } : Particle ℝ).dir.x| ≠ 1 := by
    show |s1.particle_1.dir.x| ≠ 1
    rw [e2]; exact hx
  have f1 := rotate_fin hd1 hx1 r.psi g.phi_azimuthal
  have f2 := rotate_fin (p := { q with
    E := r.recoil_energy - eb
    energy_origin := r.recoil_energy - eb }) hq hqx (-r.psi_recoil) g.phi_azimuthal
  obtain ⟨p1, hp1⟩ : ∃ p1, p1 = ({ s1.particle_1 with E := s1.particle_1.E + -r.recoil_energy } : Particle ℝ).rotate
    r.psi g.phi_azimuthal := ⟨_, rfl⟩
  obtain ⟨q1, hq1⟩ : ∃ q1, q1 = ({ q with
    E := r.recoil_energy - eb
    energy_origin := r.recoil_energy - eb } : Particle ℝ).rotate (-r.psi_recoil) g.phi_azimuthal := ⟨_, rfl⟩
  have hp1Z : p1.Z = s.particle_1.Z := by rw [hp1, ← e2]; rfl
  have hp1m : p1.m = s.particle_1.m := by rw [hp1, ← e2]; rfl
  have hp1E : p1.E = s.particle_1.E + -r.recoil_energy := by rw [hp1, ← e2]; rfl
  have hq1Z : q1.Z = q.Z := by rw [hq1]; rfl
  have hq1m : q1.m = q.m := by rw [hq1]; rfl
  rw [← hp1] at f1
  rw [← hq1] at f2
  have f1' : ({ s1.lift.particle_1 with E := s1.lift.particle_1.E + -r.lift.recoil_energy } : Particle XReal).rotate
    r.lift.psi g.lift.phi_azimuthal = p1.lift := f1
  have f2' : ({ q.lift with
    E := r.lift.recoil_energy - fin eb
    energy_origin := r.lift.recoil_energy - fin eb } : Particle XReal).rotate (-r.lift.psi_recoil)
      g.lift.phi_azimuthal = q1.lift := f2
  simp only [f1', f2', ← hp1, ← hq1]
  have e0 : (0.0:XReal) = fin 0.0 := fin_lit ..
  have e3 : (r.lift.psi >. 0.0) = (r.psi >. 0.0) := by
    rw [e0]; exact fin_lt' _ _
  rw [e3]
  have e4 : (if ((r.psi >. 0.0) && (k == 0)) = true then { p1.lift with
      number_collision_events := p1.lift.number_collision_events + 1 } else p1.lift) =
      Particle.lift (if ((r.psi >. 0.0) && (k == 0)) = true then { p1 with
      number_collision_events := p1.number_collision_events + 1 } else p1) := by
    split <;> rfl
  rw [e4]
  obtain ⟨p2, hp2⟩ : ∃ p2, p2 = (if ((r.psi >. 0.0) && (k == 0)) = true then { p1 with
      number_collision_events := p1.number_collision_events + 1 } else p1) := ⟨_, rfl⟩
  rw [← hp2]
  have hp2Z : p2.Z = s.particle_1.Z := by rw [hp2, ← hp1Z]; split <;> rfl
  have hp2m : p2.m = s.particle_1.m := by rw [hp2, ← hp1m]; split <;> rfl
  have hp2E : p2.E = s.particle_1.E + -r.recoil_energy := by rw [hp2, ← hp1E]; split <;> rfl
  refine RLift.bind (keep_fin h hm (p := p2) (q := { q1 with dir_old := q1.dir }) (hp2Z ▸ hp.Z_pos)
    (hp2m ▸ hp.m_pos) (hp2E ▸ hE) (hq1Z ▸ hZ : 0 < q1.Z) (hq1m ▸ hM : 0 < q1.m) o) fun keep _ => RLift.pure ?_
  have e5 : s1.lift.total_energy_lost_to_recoils + r.lift.recoil_energy =
    fin (s1.total_energy_lost_to_recoils + r.recoil_energy) := rfl
  have e6 : s1.lift.total_asymptotic_deflection + r.lift.asymptotic_deflection =
    fin (s1.total_asymptotic_deflection + r.asymptotic_deflection) := rfl
  rw [e5, e6]
  cases keep
  · rfl
  · simp only [id, if_true, StepState.lift, List.map_append]
    rfl

theorem lift_row {α β : Type} {f : α → β} {l : List (List α)} {i j : Nat} {row : List α} {a : α}
    (h : l[i]? = some row) (h' : row[j]? = some a) :
    ∃ row', (l.map (·.map f))[i]? = some row' ∧ row'[j]? = some (f a) :=
  ⟨row.map f, by rw [List.getElem?_map, h]; rfl, by rw [List.getElem?_map, h']; rfl⟩

theorem unit_div {d : Vec3 ℝ} (h : Spec.IsUnit d) :
    (⟨d.x/d.magnitude, d.y/d.magnitude, d.z/d.magnitude⟩ : Vec3 ℝ) = d := by
  exact normalize_of_unit h

/-- One pass of the collision loop. -/
theorem collision_step_fin (rcpr : Rcpr ℝ) (rcpr' : Rcpr XReal) {mat : Material ℝ} {mat' : Material XReal}
    (h : SameMaterial mat mat') (hm : RegularTarget mat) (o : Options ℝ) (s : StepState ℝ)
    (hp : RegularParticle s.particle_1) (hs : MayCollide mat o s.particle_1)
    (g : BinaryCollisionGeometry ℝ) (hg : 0 < g.impact_parameter) (k : Nat) (t : Tape ℝ) :
    MLift StepState.lift (collision_step rcpr mat o s (g, k)) (collision_step rcpr' mat' o.lift s.lift (g.lift, k)) t := by
  unfold collision_step
  refine MLift.bind (partner_fin h hp hs.1 g o t) fun x t1 hx => ?_
  obtain ⟨si, q⟩ := x
  obtain ⟨hP, hsp, hpos, hdir, _⟩ := sat_of_ok (partner_exact s.particle_1 mat g o t) hx
  simp only at hP hsp hpos hdir ⊢
  rw [unit_div hp.unit] at hdir
  refine MLift.bind (f := id) (MLift.lift (RLift.of_map ?_)) fun ins t2 _ => ?_
  · show mat'.geometry.inside (fin q.pos.x) (fin q.pos.y) (fin q.pos.z) = (mat.geometry.inside _ _ _).map id
    rw [h.geometry.inside]
    cases mat.geometry.inside q.pos.x q.pos.y q.pos.z <;> rfl
  refine MLift.lift_bind fun ib hib => ⟨ib, ?_, ?_⟩
  · show mat'.geometry.inside_energy_barrier (fin _) (fin _) (fin _) = _
    rw [h.geometry.barrier]; exact hib
  refine MLift.ite rfl (fun hc => ?_) (fun _ => MLift.pure rfl)
  rw [Bool.and_eq_true] at hc
  obtain ⟨hc1, hc2⟩ := hc
  subst hc2
  have hZ : 0 < q.Z := hm.Z_pos _ (List.mem_of_getElem? hsp.1)
  have hM : 0 < q.m := hm.m_pos _ (List.mem_of_getElem? hsp.2.1)
  obtain ⟨row, V, row', sint, h1, h2, h3, h4, hV, hE, hI⟩ :=
    hs.2 hib si q.Z q.m q.interaction_index hsp.1 hsp.2.1 hsp.2.2.2.2.2
  have enc : Encounter fin V.lift sint s.particle_1.Z q.Z s.particle_1.m q.m s.particle_1.E g.impact_parameter
      s.lift.particle_1 q.lift g.lift o.lift :=
    ⟨rfl, rfl, rfl, rfl, rfl, rfl, lift_row h1 h2, ⟨row', h3, h4⟩⟩
  have enc' : Encounter id V sint s.particle_1.Z q.Z s.particle_1.m q.m s.particle_1.E g.impact_parameter
      s.particle_1 q g o :=
    ⟨rfl, rfl, rfl, rfl, rfl, rfl, ⟨row, h1, h2⟩, ⟨row', h3, h4⟩⟩
  obtain ⟨theta, psi, psi', T, d, x, run, _, _, _, _, _, _, hT, _, hreal⟩ := C93_collision_partial rcpr'
    s.lift.particle_1 q.lift g.lift o.lift V hV sint s.particle_1.Z q.Z s.particle_1.m q.m s.particle_1.E
    g.impact_parameter enc hp.Z_pos hZ hp.m_pos hM hg hE hI
  have run' := hreal rcpr s.particle_1 q g o enc'
  have hb := (C11_recoil_energy_bounds rcpr s.particle_1 q g o _ hp.m_pos hM hp.E_nonneg run')
  refine MLift.lift_bind fun res hres => ⟨_, run, ?_⟩
  rw [run'] at hres
  cases hres
  refine MLift.lift_bind fun res hres => ⟨_, rfl, ?_⟩
  cases hres
  refine MLift.lift ?_
  refine apply_fin h hm o k g si q
    { theta := theta
      psi := psi
      psi_recoil := psi'
      recoil_energy := T
      asymptotic_deflection := d
      normalized_distance_of_closest_approach := x } s hp hs.1 ?_ ?_ hZ hM ?_
  · rw [hdir]; exact hp.unit
  · rw [hdir]; exact hs.1
  · have h1 := hb.1
    have h2 := hb.2.1
    have h3 := hb.2.2
    show 0 ≤ s.particle_1.E + -T
    simp only at h1 h2 h3
    linarith

/-- What one pass of the collision loop keeps. -/
theorem collision_step_regular (rcpr : Rcpr ℝ) {mat : Material ℝ} (hm : RegularTarget mat) (o : Options ℝ)
    (s : StepState ℝ) (hp : RegularParticle s.particle_1) (hx : |s.particle_1.dir.x| ≠ 1)
    (hl : ∀ r ∈ s.particles, RegularParticle r) (hZ : 0 ≤ s.strong_collision_Z)
    (gk : BinaryCollisionGeometry ℝ × Nat) (t : Tape ℝ) :
    Sat (collision_step rcpr mat o s gk) t (fun s' _ => RegularParticle s'.particle_1 ∧
      (∀ r ∈ s'.particles, RegularParticle r) ∧ 0 ≤ s'.strong_collision_Z) (fun _ => True) := by
  have hsound := collide_sound rcpr o hm.sound [gk] s t hp.sound
  have e : forFold (collision_step rcpr mat o) [gk] s = collision_step rcpr mat o s gk := by
    unfold forFold
    exact bind_pure _
  rw [e] at hsound
  refine sat_mono (sat_and hsound (sat_and (collision_step_cases rcpr mat o s gk t)
    (collision_step_sat rcpr mat o s gk t))) (fun s' _ hs' => ?_) (fun _ _ => trivial)
  obtain ⟨hS, hcase, hce⟩ := hs'
  rcases hcase with rfl | ⟨si, q, r, hP, hsp, hpos, hdir, _, _, _, _, _, _, _, hr, hA⟩
  · exact ⟨hp, hl, hZ⟩
  rw [unit_div hp.unit] at hdir
  obtain ⟨eb, _, hstk⟩ := hA.stack
  obtain ⟨new, hn1, hn2, _⟩ := hce.stack
  refine ⟨⟨hS.moving, ?_, ?_⟩, fun r' hr' => ?_, ?_⟩
  · have := congrArg Particle.Ec hA.moving
    rw [this]; exact hp.Ec_pos
  · have := congrArg Particle.dir hA.moving
    rw [this]
    show Spec.IsUnit (Vec3.normalize _)
    rw [rotated_dir_eq hp.unit hx, normalize_of_unit (turned_unit hp.unit hx _ _).1]
    exact (turned_unit hp.unit hx _ _).1
  · have hs0 := hS.stack (fun r hr => (hl r hr).sound) r' hr'
    rcases hstk with hstk | hstk
    · rw [hstk] at hr'; exact hl r' hr'
    · rw [hstk, List.mem_append, List.mem_singleton] at hr'
      rcases hr' with hr' | hr'
      · exact hl r' hr'
      · refine ⟨hs0, ?_, ?_⟩
        · rw [hr']; exact hm.Ec_pos _ (List.mem_of_getElem? hsp.2.2.1)
        · rw [hr']
          show Spec.IsUnit (Vec3.normalize _)
          have hx' : |q.dir.x| ≠ 1 := by rw [hdir]; exact hx
          have hu' : Spec.IsUnit q.dir := by rw [hdir]; exact hp.unit
          rw [rotated_dir_eq hu' hx', normalize_of_unit (turned_unit hu' hx' _ _).1]
          exact (turned_unit hu' hx' _ _).1
  · have := hA.strong
    by_cases hk : gk.2 = 0
    · rw [if_pos hk] at this
      rw [(Prod.mk.inj (Prod.mk.inj this).2).1]
      exact (hm.Z_pos _ (List.mem_of_getElem? hsp.1)).le
    · rw [if_neg hk] at this
      rw [(Prod.mk.inj (Prod.mk.inj this).2).1]
      exact hZ

end XReal
end RustBCA
