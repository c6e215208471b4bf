import Verif.Proofs.SpecialCollide
import Verif.Props.Surface

/-! # The end of a pass over numbers with special values (helper lemmas for C95) -/

namespace RustBCA
open Scalar Spec

set_option linter.unusedSimpArgs false
set_option linter.unusedVariables false

namespace XReal

theorem utt_fin (p : Particle ℝ) : p.lift.update_trajectory_tracker = p.update_trajectory_tracker.lift := by
  unfold Particle.update_trajectory_tracker
  have e : p.lift.track_trajectories = p.track_trajectories := rfl
  rw [e]
  by_cases h : p.track_trajectories = true
  · rw [if_pos h, if_pos h]
    simp only [Particle.lift, List.map_append]
    rfl
  · rw [if_neg h, if_neg h]

theorem uel_fin (p : Particle ℝ) (o : Options ℝ) (En Ee : ℝ) :
    p.lift.update_energy_loss_tracker o.lift (fin En) (fin Ee) = (p.update_energy_loss_tracker o En Ee).lift := by
  unfold Particle.update_energy_loss_tracker
  have e : (p.lift.incident && o.lift.track_energy_losses) = (p.incident && o.track_energy_losses) := rfl
  rw [e]
  by_cases h : (p.incident && o.track_energy_losses) = true
  · rw [if_pos h, if_pos h]
    simp only [Particle.lift, List.map_append]
    rfl
  · rw [if_neg h, if_neg h]

theorem advance_fin (p : Particle ℝ) (mfp d : ℝ) :
    p.lift.advance (fin mfp) (fin d) = ((p.advance mfp d).1.lift, fin (p.advance mfp d).2) := by
  unfold Particle.advance
  have e : (p.lift.E >. p.lift.Ec) = (p.E >. p.Ec) := fin_lt' _ _
  rw [e]
  by_cases h : (p.E >. p.Ec) = true
  · rw [if_pos h, if_pos h, utt_fin]
    rfl
  · rw [if_neg h, if_neg h]
    rfl

theorem subtract_fin {mat : Material ℝ} {mat' : Material XReal} (h : SameMaterial mat mat') (hm : RegularTarget mat)
    {p : Particle ℝ} (hp : RegularParticle p) {o : Options ℝ} (ho : AllScreened o) (d x0 : ℝ) {sz : ℝ} (hz : 0 ≤ sz)
    (si : Nat) : RLift (fun x : Particle ℝ × ℝ => (x.1.lift, fin x.2))
      (subtract_electronic_stopping_energy p mat d x0 sz si o)
      (subtract_electronic_stopping_energy p.lift mat' (fin d) (fin x0) (fin sz) si o.lift) := by
  unfold subtract_electronic_stopping_energy
  refine RLift.bind (f := id) (fun _ _ => rfl) fun _ _ => ?_
  refine RLift.bind (f := id) (RLift.of_map ?_) fun ins _ => ?_
  · show mat'.geometry.inside (fin p.pos.x) (fin p.pos.y) (fin p.pos.z) = (mat.geometry.inside _ _ _).map id
    rw [h.geometry.inside]
    cases mat.geometry.inside p.pos.x p.pos.y p.pos.z <;> rfl
  refine RLift.ite rfl (fun _ => ?_) (fun _ => RLift.pure rfl)
  refine RLift.bind (RLift.vget (f := List.map (·.lift)) o.interaction_potential p.interaction_index)
    fun row hrow => ?_
  rw [h.interaction_index]
  refine RLift.bind (f := id) (fun a ha => ha) fun j _ => ?_
  refine RLift.bind (RLift.vget (f := InteractionPotential.lift) row j) fun V hVr => ?_
  have hV : Screened V := by
    refine ho row ?_ V ?_
    · exact List.mem_of_getElem? (vget_some hrow)
    · exact List.mem_of_getElem? (vget_some hVr)
  refine RLift.bind (stopping_fin h hm hp o.electronic_stopping_mode) fun S _ => ?_
  refine RLift.bind (densities_fin h p.pos.x p.pos.y p.pos.z) fun ns _ => ?_
  refine RLift.bind (f := fin) ?_ fun de _ => ?_
  · have e : o.lift.electronic_stopping_mode = o.electronic_stopping_mode := rfl
    rw [e]
    have hoen : ∀ se : ℝ, oen_robinson_loss p.lift.Z (fin sz) (fin se) (fin x0) V.lift =
        fin (oen_robinson_loss p.Z sz se x0 V) := fun se => oen_fin V hV se x0 hp.Z_pos hz
    cases o.electronic_stopping_mode with
    | INTERPOLATED => exact RLift.pure (by rw [bragg_sum_fin, fin_mul])
    | LOW_ENERGY_NONLOCAL => exact RLift.pure (by rw [bragg_sum_fin, fin_mul])
    | LOW_ENERGY_LOCAL => exact RLift.bind (RLift.vget _ _) fun se _ => RLift.pure (hoen se)
    | LOW_ENERGY_EQUIPARTITION =>
      refine RLift.bind (RLift.vget _ _) fun se _ => RLift.pure ?_
      rw [hoen, bragg_sum_fin, fin_lit, fin_mul, fin_mul, fin_mul, fin_add]
  · have e : p.lift.E + -fin de = fin (p.E + -de) := rfl
    rw [e]
    refine RLift.bind (f := id) (fun _ _ => rfl) fun _ _ => RLift.pure ?_
    have e0 : (0.0:XReal) = fin 0.0 := fin_lit ..
    rw [e0, fin_lt']
    by_cases hc : (p.E + -de <. 0.0) = true
    · rw [if_pos hc, if_pos hc]; rfl
    · rw [if_neg hc, if_neg hc]; rfl

theorem refraction_fin (p : Particle ℝ) (n : Vec3 ℝ) (Es : ℝ) (hE : 0 ≤ p.E) (h1 : 0 < p.E + Es)
    (h2 : 0 ≤ p.E*(p.dir.dot n)^(2:ℤ) + Es) :
    surface_refraction p.lift n.lift (fin Es) = (surface_refraction p n Es).lift := by
  have hd : Vec3.dot p.lift.dir n.lift = fin (p.dir.dot n) := rfl
  have hq : 0 ≤ p.E/(p.E + Es) := by positivity
  have hs : Real.sqrt (p.E + Es) ≠ 0 := (Real.sqrt_pos.2 h1).ne'
  have e : p.lift.E = fin p.E := rfl
  simp only [surface_refraction, hd, e, fin_add, fin_div h1.ne', fin_sqrt hq, fin_sqrt hE, fin_neg, fin_mul,
    fin_powi (Or.inl (by norm_num : (0:ℤ) ≤ 2)), fin_sqrt h2, fin_sqrt h1.le, fin_div hs]
  rfl

theorem mag_pos {x y z x2 y2 z2 : ℝ} (h : (x2, y2, z2) ≠ (x, y, z)) :
    0 < (x2 - x)*(x2 - x) + (y2 - y)*(y2 - y) + (z2 - z)*(z2 - z) := by
  have h0 : 0 ≤ (x2 - x)*(x2 - x) + (y2 - y)*(y2 - y) + (z2 - z)*(z2 - z) := by
    have := mul_self_nonneg (x2 - x)
    have := mul_self_nonneg (y2 - y)
    have := mul_self_nonneg (z2 - z)
    positivity
  refine lt_of_le_of_ne h0 fun he => h ?_
  have a := mul_self_nonneg (x2 - x)
  have b := mul_self_nonneg (y2 - y)
  have c := mul_self_nonneg (z2 - z)
  have a0 : (x2 - x)*(x2 - x) = 0 := by linarith
  have b0 : (y2 - y)*(y2 - y) = 0 := by linarith
  have c0 : (z2 - z)*(z2 - z) = 0 := by linarith
  have a1 := sub_eq_zero.1 (mul_self_eq_zero.1 a0)
  have b1 := sub_eq_zero.1 (mul_self_eq_zero.1 b0)
  have c1 := sub_eq_zero.1 (mul_self_eq_zero.1 c0)
  rw [a1, b1, c1]

theorem over_unit {a b c : ℝ} (h : 0 < a*a + b*b + c*c) : Spec.IsUnit
    (⟨a/Real.sqrt (a*a + b*b + c*c), b/Real.sqrt (a*a + b*b + c*c), c/Real.sqrt (a*a + b*b + c*c)⟩ : Vec3 ℝ) := by
  have hs : Real.sqrt (a*a + b*b + c*c) ≠ 0 := (Real.sqrt_pos.2 h).ne'
  have h2 : Real.sqrt (a*a + b*b + c*c)^2 = a*a + b*b + c*c := Real.sq_sqrt h.le
  generalize Real.sqrt (a*a + b*b + c*c) = m at *
  unfold Spec.IsUnit Spec.inner
  simp only
  field_simp
  linarith

theorem entering_fin {mat : Material ℝ} {mat' : Material XReal} (h : SameMaterial mat mat') {p : Particle ℝ}
    (hu : Spec.IsUnit p.dir) (hE : 0 < p.E) {Es : ℝ} (hEs : 0 ≤ Es)
    (hoff : ∀ x y z, mat.geometry.closest_point p.pos.x p.pos.y p.pos.z = .ok (x, y, z) →
      (x, y, z) ≠ (p.pos.x, p.pos.y, p.pos.z)) :
    RLift Particle.lift (surface_entering p mat Es) (surface_entering p.lift mat' (fin Es)) ∧
      ∀ q, surface_entering p mat Es = .ok q → Spec.IsUnit q.dir := by
  unfold surface_entering
  have e0 : p.lift.backreflected = p.backreflected := rfl
  by_cases hb : p.backreflected = true
  · rw [e0, if_pos hb]
    simp only [if_pos hb]
    refine ⟨RLift.pure rfl, fun q hq => ?_⟩
    cases hq
    exact hu
  rw [e0, if_neg hb]
  simp only [if_neg hb]
  have hc : mat'.closest_point p.lift.pos.x p.lift.pos.y p.lift.pos.z = _ :=
    h.geometry.closest p.pos.x p.pos.y p.pos.z
  simp only [hc]
  unfold Material.closest_point
  cases hc : mat.geometry.closest_point p.pos.x p.pos.y p.pos.z with
  | error e =>
    constructor
    · intro _ ha
      cases ha
    · intro _ ha
      cases ha
  | ok c =>
  obtain ⟨x2, y2, z2⟩ := c
  have hmag := mag_pos (hoff _ _ _ hc)
  have hs : Real.sqrt ((x2 - p.pos.x)*(x2 - p.pos.x) + (y2 - p.pos.y)*(y2 - p.pos.y) +
    (z2 - p.pos.z)*(z2 - p.pos.z)) ≠ 0 := (Real.sqrt_pos.2 hmag).ne'
  have hn := over_unit hmag
  have e1 : p.lift.pos.x = fin p.pos.x := rfl
  have e2 : p.lift.pos.y = fin p.pos.y := rfl
  have e3 : p.lift.pos.z = fin p.pos.z := rfl
  simp only [Except.map, bind, Except.bind, e1, e2, e3, fin_sub, fin_mul, fin_add, fin_sqrt hmag.le, fin_div hs,
    h.surface_binding_model, sqrt_real, pure, Except.pure]
  obtain ⟨n, hnd⟩ : ∃ n : Vec3 ℝ, n = ⟨(x2 - p.pos.x)/Real.sqrt ((x2 - p.pos.x)*(x2 - p.pos.x) +
      (y2 - p.pos.y)*(y2 - p.pos.y) + (z2 - p.pos.z)*(z2 - p.pos.z)),
    (y2 - p.pos.y)/Real.sqrt ((x2 - p.pos.x)*(x2 - p.pos.x) + (y2 - p.pos.y)*(y2 - p.pos.y) +
      (z2 - p.pos.z)*(z2 - p.pos.z)),
    (z2 - p.pos.z)/Real.sqrt ((x2 - p.pos.x)*(x2 - p.pos.x) + (y2 - p.pos.y)*(y2 - p.pos.y) +
      (z2 - p.pos.z)*(z2 - p.pos.z))⟩ := ⟨_, rfl⟩
  have h2 : 0 ≤ p.E*(p.dir.dot n)^(2:ℤ) + Es := by
    have : 0 ≤ (p.dir.dot n)^(2:ℤ) := by
      rw [show (2:ℤ) = ((2:ℕ):ℤ) from rfl, zpow_natCast]; positivity
    positivity
  have hf := refraction_fin p n Es hE.le (by linarith) h2
  have hr := C30_refraction p n Es hu (hnd ▸ hn) hE.le (by linarith) (by unfold normalEnergy; positivity)
  rw [hnd] at hf hr
  cases mat.surface_binding_model with
  | ISOTROPIC c =>
    refine ⟨RLift.pure rfl, fun q hq => ?_⟩
    cases hq
    exact hu
  | _ =>
    refine ⟨RLift.pure hf, fun q hq => ?_⟩
    cases hq
    exact hr.unit

theorem leaving_fin {mat : Material ℝ} {mat' : Material XReal} (h : SameMaterial mat mat') {p : Particle ℝ}
    (hu : Spec.IsUnit p.dir) (hE : 0 ≤ p.E) {Es : ℝ} (hEs : 0 ≤ Es)
    (hoff : ∀ x y z, mat.geometry.closest_point p.pos.x p.pos.y p.pos.z = .ok (x, y, z) →
      (x, y, z) ≠ (p.pos.x, p.pos.y, p.pos.z)) :
    RLift Particle.lift (surface_leaving p mat Es) (surface_leaving p.lift mat' (fin Es)) ∧
      ∀ q, surface_leaving p mat Es = .ok q → Spec.IsUnit q.dir := by
  unfold surface_leaving
  have hc : mat'.closest_point p.lift.pos.x p.lift.pos.y p.lift.pos.z = _ :=
    h.geometry.closest p.pos.x p.pos.y p.pos.z
  simp only [hc]
  unfold Material.closest_point
  cases hc : mat.geometry.closest_point p.pos.x p.pos.y p.pos.z with
  | error e =>
    constructor
    · intro _ ha
      cases ha
    · intro _ ha
      cases ha
  | ok c =>
  obtain ⟨x2, y2, z2⟩ := c
  have hmag := mag_pos (hoff _ _ _ hc)
  have hn := over_unit hmag
  have e1 : p.lift.pos.x = fin p.pos.x := rfl
  have e2 : p.lift.pos.y = fin p.pos.y := rfl
  have e3 : p.lift.pos.z = fin p.pos.z := rfl
  have e4 : p.lift.dir.x = fin p.dir.x := rfl
  have e5 : p.lift.dir.y = fin p.dir.y := rfl
  have e6 : p.lift.dir.z = fin p.dir.z := rfl
  have e7 : p.lift.E = fin p.E := rfl
  simp only [Except.map, bind, Except.bind, e1, e2, e3, e4, e5, e6, e7, fin_sub, fin_mul, fin_add, fin_neg,
    fin_sqrt hmag.le, h.surface_binding_model, sqrt_real, pure, Except.pure, fin_lit]
  generalize x2 - p.pos.x = dx at *
  generalize y2 - p.pos.y = dy at *
  generalize z2 - p.pos.z = dz at *
  have hs : 0 < Real.sqrt (dx*dx + dy*dy + dz*dz) := Real.sqrt_pos.2 hmag
  obtain ⟨mag, hmd⟩ : ∃ mag, mag = Real.sqrt (dx*dx + dy*dy + dz*dz) := ⟨_, rfl⟩
  simp only [← hmd] at hs hn ⊢
  simp only [fin_div hs.ne', fin_mul, fin_add, fin_neg, fin_lt']
  obtain ⟨c, hcdef⟩ : ∃ c, c = dx*p.dir.x/mag + dy*p.dir.y/mag + dz*p.dir.z/mag := ⟨_, rfl⟩
  simp only [← hcdef]
  by_cases hc0 : (c <. 0.0) = true
  swap
  · simp only [if_neg hc0]
    refine ⟨RLift.pure rfl, fun q hq => ?_⟩
    cases hq
    exact hu
  simp only [if_pos hc0]
  -- the reflected direction
  have hmir : Spec.IsUnit (⟨-2.0*c*dx/mag + p.dir.x, -2.0*c*dy/mag + p.dir.y, -2.0*c*dz/mag + p.dir.z⟩ : Vec3 ℝ) := by
    have h1 : p.dir.x*p.dir.x + p.dir.y*p.dir.y + p.dir.z*p.dir.z = 1 := hu
    have h2 : dx/mag*(dx/mag) + dy/mag*(dy/mag) + dz/mag*(dz/mag) = 1 := hn
    have h3 : c = dx/mag*p.dir.x + dy/mag*p.dir.y + dz/mag*p.dir.z := by rw [hcdef]; ring
    have e : ∀ a : ℝ, -2.0*c*a/mag = -2*c*(a/mag) := by intro a; norm_num; ring
    unfold Spec.IsUnit Spec.inner
    simp only [e]
    generalize dx/mag = a at *
    generalize dy/mag = b at *
    generalize dz/mag = d at *
    linear_combination h1 + 4*c^2*h2 + 4*c*h3
  have hmirror : RLift Particle.lift (Except.ok { p with
        dir := ⟨-2.0*c*dx/mag + p.dir.x, -2.0*c*dy/mag + p.dir.y, -2.0*c*dz/mag + p.dir.z⟩
        backreflected := true } : Res (Particle ℝ)) (Except.ok { p.lift with
        dir := ⟨fin (-2.0*c*dx/mag + p.dir.x), fin (-2.0*c*dy/mag + p.dir.y), fin (-2.0*c*dz/mag + p.dir.z)⟩
        backreflected := true } : Res (Particle XReal)) := RLift.pure rfl
  -- refraction
  have href : Es < p.E*c*c → surface_refraction p.lift ⟨fin (-dx/mag), fin (-dy/mag), fin (-dz/mag)⟩ (fin (-Es)) =
      (surface_refraction p ⟨-dx/mag, -dy/mag, -dz/mag⟩ (-Es)).lift ∧
      Spec.IsUnit (surface_refraction p ⟨-dx/mag, -dy/mag, -dz/mag⟩ (-Es)).dir := by
    intro hlt
    have hn' : Spec.IsUnit (⟨-dx/mag, -dy/mag, -dz/mag⟩ : Vec3 ℝ) := by
      have h2 : dx/mag*(dx/mag) + dy/mag*(dy/mag) + dz/mag*(dz/mag) = 1 := hn
      show -dx/mag*(-dx/mag) + -dy/mag*(-dy/mag) + -dz/mag*(-dz/mag) = 1
      linear_combination h2
    have hdot : p.dir.dot ⟨-dx/mag, -dy/mag, -dz/mag⟩ = -c := by
      rw [hcdef]; unfold Vec3.dot; simp only; ring
    have hinner : Spec.inner p.dir ⟨-dx/mag, -dy/mag, -dz/mag⟩ = -c := hdot
    have hc2 : c*c ≤ 1 := by
      have hu' : Spec.inner p.dir p.dir ≤ 1 := le_of_eq hu
      have := inner_sq_le p.dir ⟨-dx/mag, -dy/mag, -dz/mag⟩ hu' hn'
      rw [hinner] at this
      nlinarith
    have hEE : p.E*c*c ≤ p.E := by
      have := mul_le_mul_of_nonneg_left hc2 hE
      linarith
    have h1 : 0 < p.E + -Es := by linarith
    have h2 : 0 ≤ p.E*(p.dir.dot ⟨-dx/mag, -dy/mag, -dz/mag⟩)^(2:ℤ) + -Es := by
      rw [hdot, show (2:ℤ) = ((2:ℕ):ℤ) from rfl, zpow_natCast]
      have : p.E*(-c)^2 = p.E*c*c := by ring
      linarith
    refine ⟨refraction_fin p ⟨-dx/mag, -dy/mag, -dz/mag⟩ (-Es) hE h1 h2, ?_⟩
    refine (C30_refraction p _ (-Es) hu hn' hE h1 ?_).unit
    unfold normalEnergy
    rw [hinner]
    have : p.E*(-c)^2 = p.E*c*c := by ring
    linarith
  cases mat.surface_binding_model with
  | ISOTROPIC cc =>
    simp only [fin_lt']
    by_cases hgt : (Es <. p.E) = true
    · simp only [if_pos hgt]
      refine ⟨RLift.pure rfl, fun q hq => ?_⟩
      cases hq
      exact hu
    · simp only [if_neg hgt]
      refine ⟨hmirror, fun q hq => ?_⟩
      cases hq
      exact hmir
  | _ =>
    simp only [fin_lt']
    by_cases hgt : (Es <. p.E*c*c) = true
    · simp only [if_pos hgt]
      obtain ⟨r1, r2⟩ := href ((lt_real _ _).1 hgt)
      refine ⟨RLift.pure r1, fun q hq => ?_⟩
      cases hq
      exact r2
    · simp only [if_neg hgt]
      refine ⟨hmirror, fun q hq => ?_⟩
      cases hq
      exact hmir

theorem barrier_fin {mat : Material ℝ} {mat' : Material XReal} (h : SameMaterial mat mat') (v : Vec3 ℝ) :
    mat'.inside_energy_barrier v.lift.x v.lift.y v.lift.z = mat.geometry.inside_energy_barrier v.x v.y v.z :=
  h.geometry.barrier _ _ _

theorem binding_fin {mat : Material ℝ} {mat' : Material XReal} (h : SameMaterial mat mat') (hm : RegularTarget mat)
    {p : Particle ℝ} (hu : Spec.IsUnit p.dir) (hE : 0 ≤ p.E) (hEs : 0 ≤ p.Es)
    (hin : mat.geometry.inside_energy_barrier p.pos.x p.pos.y p.pos.z = .ok true → 0 < p.E)
    (hoff : OffSurface mat p) :
    RLift Particle.lift (surface_binding_energy p mat) (surface_binding_energy p.lift mat') ∧
      ∀ q, surface_binding_energy p mat = .ok q → Spec.IsUnit q.dir := by
  cases hes : mat.actual_surface_binding_energy p p.pos_old.x p.pos_old.y p.pos_old.z with
  | error e =>
    unfold surface_binding_energy
    simp only [hes, bind, Except.bind]
    constructor
    · intro _ ha
      cases ha
    · intro _ ha
      cases ha
  | ok Es =>
  have hes' := actual_Es_fin h p.pos_old.x p.pos_old.y p.pos_old.z p Es hes
  have hEs0 := (rsat_of_ok (actual_Es_sound hm.sound hEs p.pos_old.x p.pos_old.y p.pos_old.z) hes).1
  have g1 := barrier_fin h p.pos
  have g2 := barrier_fin h p.pos_old
  cases hn : mat.geometry.inside_energy_barrier p.pos.x p.pos.y p.pos.z with
  | error e =>
    unfold surface_binding_energy Material.inside_energy_barrier
    simp only [hes, hn, bind, Except.bind]
    constructor
    · intro _ ha
      cases ha
    · intro _ ha
      cases ha
  | ok bn =>
  cases ho : mat.geometry.inside_energy_barrier p.pos_old.x p.pos_old.y p.pos_old.z with
  | error e =>
    unfold surface_binding_energy Material.inside_energy_barrier
    simp only [hes, hn, ho, bind, Except.bind]
    constructor
    · intro _ ha
      cases ha
    · intro _ ha
      cases ha
  | ok bo =>
  rw [hn] at g1
  rw [ho] at g2
  have hb : Barrier mat p bo bn := ⟨ho, hn⟩
  have hb' : Barrier mat' p.lift bo bn := ⟨g2, g1⟩
  have hne : bn ≠ bo → ∀ x y z, mat.geometry.closest_point p.pos.x p.pos.y p.pos.z = .ok (x, y, z) →
      (x, y, z) ≠ (p.pos.x, p.pos.y, p.pos.z) := fun hne x y z hc => hoff bn bo x y z hn ho hne hc
  cases bo <;> cases bn
  · rw [C31_no_crossing p mat Es false hb hes, C31_no_crossing p.lift mat' (fin Es) false hb' hes']
    refine ⟨RLift.pure rfl, fun q hq => ?_⟩
    cases hq
    exact hu
  · rw [binding_entering p mat Es hb hes, binding_entering p.lift mat' (fin Es) hb' hes']
    exact entering_fin h hu (hin hn) hEs0 (hne (by simp))
  · rw [binding_leaving p mat Es hb hes, binding_leaving p.lift mat' (fin Es) hb' hes']
    exact leaving_fin h hu hE hEs0 (hne (by simp))
  · rw [C31_no_crossing p mat Es true hb hes, C31_no_crossing p.lift mat' (fin Es) true hb' hes']
    refine ⟨RLift.pure rfl, fun q hq => ?_⟩
    cases hq
    exact hu

theorem boundary_fin {mat : Material ℝ} {mat' : Material XReal} (h : SameMaterial mat mat') (hm : RegularTarget mat)
    {p : Particle ℝ} (hu : Spec.IsUnit p.dir) (hE : 0 ≤ p.E) (hEs : 0 ≤ p.Es) (hEc : 0 < p.Ec)
    (hoff : OffSurface mat p) :
    RLift Particle.lift (boundary_condition_planar p mat) (boundary_condition_planar p.lift mat') ∧
      ∀ q, boundary_condition_planar p mat = .ok q → Spec.IsUnit q.dir := by
  have g1 := barrier_fin h p.pos
  have g2 : mat'.inside_simulation_boundary p.lift.pos.x p.lift.pos.y p.lift.pos.z =
    mat.geometry.inside_simulation_boundary p.pos.x p.pos.y p.pos.z := h.geometry.boundary _ _ _
  unfold boundary_condition_planar Material.inside_simulation_boundary
  unfold Material.inside_simulation_boundary at g2
  cases hs : mat.geometry.inside_simulation_boundary p.pos.x p.pos.y p.pos.z with
  | error e =>
    simp only [hs, bind, Except.bind]
    constructor
    · intro _ ha
      cases ha
    · intro _ ha
      cases ha
  | ok sim =>
  cases hn : mat.geometry.inside_energy_barrier p.pos.x p.pos.y p.pos.z with
  | error e =>
    simp only [hs, bind, Except.bind, Material.inside_energy_barrier, hn]
    constructor
    · intro _ ha
      cases ha
    · intro _ ha
      cases ha
  | ok bar =>
  rw [hn] at g1
  rw [hs] at g2
  have g1' : mat'.inside_energy_barrier p.lift.pos.x p.lift.pos.y p.lift.pos.z = .ok bar := g1
  simp only [hs, bind, Except.bind, g1', g2]
  simp only [Material.inside_energy_barrier, hn]
  obtain ⟨p1, hp1⟩ : ∃ p1, p1 = (if (!sim) = true then { p with left := true }.update_trajectory_tracker else p) :=
    ⟨_, rfl⟩
  have f1 : (if (!sim) = true then { p.lift with left := true }.update_trajectory_tracker else p.lift) = p1.lift := by
    rw [hp1]
    cases sim
    · exact utt_fin { p with left := true }
    · rfl
  rw [f1, ← hp1]
  have k1 : ∃ lf tr, p1 = { p with left := lf, trajectory := tr } := by
    rw [hp1]
    cases sim
    · obtain ⟨l, hl⟩ := utt_same { p with left := true }
      exact ⟨true, l, hl⟩
    · exact ⟨p.left, p.trajectory, rfl⟩
  have e1 : (p.lift.E <. p.lift.Ec) = (p.E <. p.Ec) := fin_lt' _ _
  have e2 : p1.lift.left = p1.left := rfl
  rw [e1]
  obtain ⟨p2, hp2⟩ : ∃ p2, p2 = (if ((p.E <. p.Ec) && !p1.left && bar) = true then
    { p1 with stopped := true }.update_trajectory_tracker else p1) := ⟨_, rfl⟩
  have f2 : ∀ P, P = p1.lift → (if ((p.E <. p.Ec) && !P.left && bar) = true then
      { P with stopped := true }.update_trajectory_tracker else P) = p2.lift := by
    intro P hP
    rw [hp2, hP, e2]
    by_cases hc : ((p.E <. p.Ec) && !p1.left && bar) = true
    · rw [if_pos hc, if_pos hc]
      exact utt_fin { p1 with stopped := true }
    · rw [if_neg hc, if_neg hc]
  rw [f2 _ rfl, ← hp2]
  have k2 : ∃ st lf tr, p2 = { p with stopped := st, left := lf, trajectory := tr } := by
    obtain ⟨lf, tr, k1⟩ := k1
    rw [hp2]
    by_cases hc : ((p.E <. p.Ec) && !p1.left && bar) = true
    · rw [if_pos hc]
      obtain ⟨l, hl⟩ := utt_same { p1 with stopped := true }
      rw [hl, k1]
      exact ⟨true, lf, l, rfl⟩
    · rw [if_neg hc, k1]
      exact ⟨p.stopped, lf, tr, rfl⟩
  have e3 : (!p2.lift.stopped && !p2.lift.left) = (!p2.stopped && !p2.left) := rfl
  rw [e3]
  obtain ⟨st, lf, tr, k2⟩ := k2
  by_cases hc : (!p2.stopped && !p2.left) = true
  · simp only [if_pos hc]
    refine binding_fin h hm ?_ ?_ ?_ ?_ ?_
    · rw [k2]; exact hu
    · rw [k2]; exact hE
    · rw [k2]; exact hEs
    · have ep : p2.pos = p.pos := by rw [k2]
      have eE : p2.E = p.E := by rw [k2]
      rw [ep, eE, hn]
      intro hbar
      cases hbar
      by_contra hneg
      have hlt : (p.E <. p.Ec) = true := (lt_real _ _).2 (by linarith)
      rw [Bool.and_eq_true, Bool.not_eq_true', Bool.not_eq_true'] at hc
      by_cases hl : p1.left = true
      · have : p2 = p1 := by rw [hp2, hl]; simp
        rw [this, hl] at hc
        exact absurd hc.2 (by simp)
      · have hl' : p1.left = false := by simpa using hl
        have : p2 = { p1 with stopped := true }.update_trajectory_tracker := by rw [hp2, hlt, hl']; simp
        obtain ⟨l, hl2⟩ := utt_same { p1 with stopped := true }
        rw [this, hl2] at hc
        exact absurd hc.1 (by simp)
    · have ep : p2.pos = p.pos := by rw [k2]
      have eo : p2.pos_old = p.pos_old := by rw [k2]
      unfold OffSurface at hoff ⊢
      rw [ep, eo]
      exact hoff
  · simp only [if_neg hc]
    refine ⟨RLift.pure rfl, fun q hq => ?_⟩
    cases hq
    rw [k2]
    exact hu

end XReal
end RustBCA
