import Verif.Props.Gimbal

/-!
# C89, C90, C91 at work

Non-vacuity, and the refutation of C89 in full.
-/

set_option linter.unusedSectionVars false
set_option linter.unusedSimpArgs false

namespace RustBCA
open Scalar Spec

namespace DoubleExample
variable {A : DoubleArith}

/-- A small whole number as a double. -/
def int (A : DoubleArith) (n : ℤ) (h : |n| ≤ 2^53) : Dbl A := ⟨n, isDouble_int n h⟩

theorem exact {x y : ℝ} (h : IsDouble y) (e : x = y) : A.rnd x = y := by
  rw [e]; exact rnd_double A h

theorem sixth {x : ℝ} (h : x = 1/6) :
    A.rnd x = ((6004799503160661 : ℤ) : ℝ)*(2:ℝ)^(-55:ℤ) := by
  subst h
  refine rnd_eq A _ _ (by norm_num) (by norm_num) ?_
  rw [abs_lt]; constructor <;> norm_num

theorem two_thirds {x : ℝ} (h : x = 2/3) :
    A.rnd x = ((6004799503160661 : ℤ) : ℝ)*(2:ℝ)^(-53:ℤ) := by
  subst h
  refine rnd_eq A _ _ (by norm_num) (by norm_num) ?_
  rw [abs_lt]; constructor <;> norm_num

theorem first_two : A.rnd (((6004799503160661 : ℤ) : ℝ)*(2:ℝ)^(-55:ℤ)
    + ((6004799503160661 : ℤ) : ℝ)*(2:ℝ)^(-53:ℤ)) = ((7505999378950826 : ℤ) : ℝ)*(2:ℝ)^(-53:ℤ) := by
  refine rnd_eq A _ _ (by norm_num) (by norm_num) ?_
  rw [abs_lt]; constructor <;> norm_num

theorem all_three : A.rnd (((7505999378950826 : ℤ) : ℝ)*(2:ℝ)^(-53:ℤ)
    + ((6004799503160661 : ℤ) : ℝ)*(2:ℝ)^(-55:ℤ)) = ((9007199254740991 : ℤ) : ℝ)*(2:ℝ)^(-53:ℤ) := by
  refine rnd_eq A _ _ (by norm_num) (by norm_num) ?_
  rw [abs_lt]; constructor <;> norm_num

end DoubleExample

open DoubleExample in
/-- **C89** (refuted in full) For a homogeneous target of three species with densities in the
ratio 1 : 4 : 1, whatever the rounding of ties and whatever the library functions: the random
number `1 - 2^-53`, the largest below 1 in double precision, stops the program. -/
theorem C89_refuted (A : DoubleArith) (ext : Ext (Dbl A)) (input : Mesh0DInput (Dbl A))
    (g : Mesh0D (Dbl A)) (hg : Mesh0D.new ext input = .ok g) (mat : Material (Dbl A))
    (hm : mat.geometry = g.toGeom) (hd : g.densities.map Dbl.val = [1, 4, 1])
    (x y z : Dbl A) (t : Tape (Dbl A)) (ht : (t 0).val = 1 - 1/2^53) :
    ∃ e, mat.choose x y z t = .error e := by
  have hcon := mesh0d_concentrations hg
  obtain ⟨a, b, c, hl⟩ : ∃ a b c, g.densities = [a, b, c] := by
    have h3 : g.densities.length = 3 := by
      rw [← List.length_map (f := Dbl.val), hd]; rfl
    exact List.length_eq_three.mp h3
  rw [hl] at hd hcon
  simp only [List.map_cons, List.map_nil, List.cons.injEq, and_true] at hd
  obtain ⟨ha, hb, hc⟩ := hd
  have s1 : (0.0 + a : Dbl A).val = 1 := by
    rw [Dbl.val_add, zero_val, ha]
    exact exact ⟨1, 0, by norm_num, by norm_num⟩ (by norm_num)
  have s2 : (0.0 + a + b : Dbl A).val = 5 := by
    rw [Dbl.val_add, s1, hb]
    exact exact ⟨5, 0, by norm_num, by norm_num⟩ (by norm_num)
  have s3 : (0.0 + a + b + c : Dbl A).val = 6 := by
    rw [Dbl.val_add, s2, hc]
    exact exact ⟨6, 0, by norm_num, by norm_num⟩ (by norm_num)
  have c1 : (a/(0.0 + a + b + c)).val = ((6004799503160661 : ℤ) : ℝ)*(2:ℝ)^(-55:ℤ) := by
    rw [Dbl.val_div, s3, ha]; exact sixth (by norm_num)
  have c2 : (b/(0.0 + a + b + c)).val = ((6004799503160661 : ℤ) : ℝ)*(2:ℝ)^(-53:ℤ) := by
    rw [Dbl.val_div, s3, hb]; exact two_thirds (by norm_num)
  have c3 : (c/(0.0 + a + b + c)).val = ((6004799503160661 : ℤ) : ℝ)*(2:ℝ)^(-55:ℤ) := by
    rw [Dbl.val_div, s3, hc]; exact sixth (by norm_num)
  have t1 : (0.0 + a/(0.0 + a + b + c)).val = ((6004799503160661 : ℤ) : ℝ)*(2:ℝ)^(-55:ℤ) := by
    rw [Dbl.val_add, zero_val, c1]
    exact exact ⟨6004799503160661, -55, by norm_num, rfl⟩ (zero_add _)
  have t2 : (0.0 + a/(0.0 + a + b + c) + b/(0.0 + a + b + c)).val
      = ((7505999378950826 : ℤ) : ℝ)*(2:ℝ)^(-53:ℤ) := by
    rw [Dbl.val_add, t1, c2]; exact first_two
  have t3 : (0.0 + a/(0.0 + a + b + c) + b/(0.0 + a + b + c) + c/(0.0 + a + b + c)).val
      = ((9007199254740991 : ℤ) : ℝ)*(2:ℝ)^(-53:ℤ) := by
    rw [Dbl.val_add, t2, c3]; exact all_three
  have hn : Material.choose_index (t 0) (Material.cumulative 0.0 g.concentrations) = none := by
    rw [hcon]
    simp only [concentrations_of, fsum, List.foldl_cons, List.foldl_nil, List.map_cons,
      List.map_nil, Material.cumulative, Material.choose_index]
    rw [if_neg, if_neg, if_neg]
    · rfl
    · rw [Dbl.lt_iff, t3, ht]; norm_num
    · rw [Dbl.lt_iff, t2, ht]; norm_num
    · rw [Dbl.lt_iff, t1, ht]; norm_num
  unfold Material.choose Material.get_cumulative_concentrations
  rw [hm]
  simp only [Mesh0D.toGeom, bind, StateT.bind, Except.bind, random, liftM, monadLift,
    MonadLift.monadLift, StateT.lift, pure, Except.pure, hn]
  exact ⟨_, rfl⟩

namespace DoubleExample
variable {A : DoubleArith}

theorem arith_exists : ∃ A : DoubleArith, A.powi = fun x n => x^n := by
  obtain ⟨A⟩ := doubleArith_nonempty
  exact ⟨{ A with powi := fun x n => x^n }, rfl⟩

def ext (A : DoubleArith) : Ext (Dbl A) := ⟨fun _ => none, fun _ _ => false, fun _ _ => none⟩

/-- The input of such a target: densities 1, 4 and 1 per cubic metre. -/
def input (A : DoubleArith) : Mesh0DInput (Dbl A) :=
  ⟨"M", [int A 1 (by norm_num), int A 4 (by norm_num), int A 1 (by norm_num)],
    int A 1 (by norm_num)⟩

/-- The target exists. -/
theorem target_exists (hA : A.powi = fun x n => x^n) :
    ∃ g, Mesh0D.new (ext A) (input A) = .ok g ∧ g.densities.map Dbl.val = [1, 4, 1] := by
  have h1 : (1.0 : Dbl A).val = 1 := by
    change A.rnd _ = _
    exact exact ⟨1, 0, by norm_num, by norm_num⟩ (by norm_num)
  have hp : (powi (1.0 : Dbl A) 3).val = 1 := by
    change A.rnd (A.powi (1.0 : Dbl A).val 3) = 1
    rw [h1, hA]
    exact exact ⟨1, 0, by norm_num, by norm_num⟩ (by norm_num)
  refine ⟨_, rfl, ?_⟩
  simp only [input, convert_densities, List.map_cons, List.map_nil, List.cons.injEq, and_true]
  refine ⟨?_, ?_, ?_⟩
  · rw [Dbl.val_div, hp]
    exact exact ⟨1, 0, by norm_num, by norm_num⟩ (by simp [int, Dbl.val])
  · rw [Dbl.val_div, hp]
    exact exact ⟨4, 0, by norm_num, by norm_num⟩ (by simp [int, Dbl.val])
  · rw [Dbl.val_div, hp]
    exact exact ⟨1, 0, by norm_num, by norm_num⟩ (by simp [int, Dbl.val])

/-- The random number the refutation speaks of is a double. -/
noncomputable def last (A : DoubleArith) : Dbl A :=
  ⟨1 - 1/2^53, 2^53 - 1, -53, by norm_num, by norm_num⟩

/-- Three species, all data 1. -/
noncomputable def material (A : DoubleArith) (g : Mesh0D (Dbl A)) : Material (Dbl A) :=
  let o := int A 1 (by norm_num)
  { m := [o, o, o]
    Z := [o, o, o]
    Eb := [o, o, o]
    Es := [o, o, o]
    Ec := [o, o, o]
    Ed := [o, o, o]
    interaction_index := [0, 0, 0]
    geometry := g.toGeom
    surface_binding_model := .TARGET
    bulk_binding_model := .INDIVIDUAL }

end DoubleExample

open DoubleExample in
/-- Beside C89: an arithmetic, a target and a random number for which the program stops, and, for
the same target, the random number 0, for which it does not. -/
example : ∃ (A : DoubleArith) (mat : Material (Dbl A)),
    (∃ e, mat.choose (last A) (last A) (last A) (fun _ => last A) = .error e) ∧
    ∃ s t, mat.choose (last A) (last A) (last A) (fun _ => int A 0 (by norm_num)) = .ok (s, t) := by
  obtain ⟨A, hA⟩ := arith_exists
  obtain ⟨g, hg, hd⟩ := target_exists hA
  refine ⟨A, material A g, C89_refuted A _ _ g hg _ rfl hd _ _ _ _ rfl, ?_⟩
  have hl : g.densities.length = 3 := by rw [← List.length_map (f := Dbl.val), hd]; rfl
  obtain ⟨s, hs, _⟩ := C89_choose_double_partial _ _ g hg (material A g) rfl
    (by
      intro d hm
      have : d.val ∈ g.densities.map Dbl.val := List.mem_map_of_mem hm
      rw [hd] at this
      simp at this
      rcases this with h | h | h <;> rw [h] <;> norm_num)
    (by intro h; rw [h] at hl; cases hl)
    (by rw [hl]; exact ⟨le_refl 3, le_refl 3, le_refl 3, le_refl 3, le_refl 3, le_refl 3⟩)
    (last A) (last A) (last A) (fun _ => int A 0 (by norm_num))
    (by simp [int, Dbl.val]) (by rw [hl]; simp [int, Dbl.val]; norm_num)
  exact ⟨s, _, hs⟩

/-! ## A run in double precision -/

namespace DoubleExample
variable {A : DoubleArith}


/-- A target that fills all space inside the barrier; particles leave after one pass. -/
noncomputable def geom (A : DoubleArith) : Geom (Dbl A) where
  get_densities _ _ _ := .ok [1.0]
  get_ck _ _ _ := .ok 1.0
  get_total_density _ _ _ := .ok 1.0
  get_concentrations _ _ _ := .ok [1.0]
  inside _ _ _ := .ok true
  inside_simulation_boundary _ _ _ := .ok false
  inside_energy_barrier _ _ _ := .ok true
  closest_point x y z := .ok (x, y, z)

noncomputable def mat (A : DoubleArith) : Material (Dbl A) where
  m := [1.0]
  Z := [1.0]
  Eb := [0.0]
  Es := [0.0]
  Ec := [1.0]
  Ed := [0.0]
  interaction_index := [0]
  geometry := geom A
  surface_binding_model := .AVERAGE
  bulk_binding_model := .INDIVIDUAL

noncomputable def options (A : DoubleArith) : Options (Dbl A) :=
  { Options.default_options true with
    interaction_potential := [[.COULOMB 1.0 1.0]]
    scattering_integral := [[.GAUSS_LEGENDRE]]
    electronic_stopping_mode := .LOW_ENERGY_LOCAL
    track_recoils := false }

/-- An ion moving along z. -/
noncomputable def ion (A : DoubleArith) : Particle (Dbl A) where
  m := 1.0
  Z := 1.0
  E := 1.0
  Ec := 0.5
  Es := 0.0
  Ed := 0.0
  pos := ⟨0.0, 0.0, 0.0⟩
  dir := ⟨0.0, 0.0, 1.0⟩
  pos_old := ⟨0.0, 0.0, 0.0⟩
  dir_old := ⟨0.0, 0.0, 1.0⟩
  pos_origin := ⟨0.0, 0.0, 0.0⟩
  energy_origin := 1.0
  asymptotic_deflection := 0.0
  stopped := false
  left := false
  incident := true
  first_step := true
  trajectory := []
  energies := []
  track_trajectories := true
  number_collision_events := 0
  backreflected := false
  interaction_index := 0
  weight := 1.0
  tag := 7
  tracked_vector := ⟨0.0, 0.0, 0.0⟩

def rcpr (A : DoubleArith) : Rcpr (Dbl A) := ⟨false, fun _ _ => .error "",
  fun _ _ _ _ _ => .ok (.error ""), fun _ _ _ _ _ _ => .ok (.error "")⟩

/-- All random numbers are 0. -/
noncomputable def zeros (A : DoubleArith) : Tape (Dbl A) := fun _ => 0.0

theorem ion_unit : UnitDirection (ion A).dir := by
  have h0 : (0.0 : Dbl A).val = 0 := zero_val
  have h1 : (1.0 : Dbl A).val = 1 := one_val
  refine ⟨Or.inr ?_, ?_, ?_, ?_⟩
  · simp only [exactSquare, ion, h0, h1]; norm_num
  · simp only [ion, h0]; norm_num
  · simp only [ion, h0]; norm_num
  · simp only [ion, h1]; norm_num

theorem geometry_zero (p : Particle (Dbl A)) (hfs : p.first_step = true) :
    Sat (determine_mfp_phi_impact_parameter p (mat A) (options A)) (zeros A)
    (fun r s => ∃ b g, r = ({ p with first_step := b }, [g]) ∧ s = zeros A) (fun _ => False) := by
  simp [Sat, determine_mfp_phi_impact_parameter, draw_phis, collectN, Material.mfp,
    Material.total_number_density, mat, geom, options, Options.default_options, fsum, random, zeros,
    bind, StateT.bind, Except.bind, pure, StateT.pure, Except.pure, liftM, monadLift,
    MonadLift.monadLift, StateT.lift, MeanFreePathModel.isGaseous, hfs, Functor.map, Except.map]
  rfl

theorem partner_zero (p : Particle (Dbl A)) (g : BinaryCollisionGeometry (Dbl A)) :
    Sat (choose_collision_partner p (mat A) g (options A)) (zeros A)
    (fun r s => r.1 = 0 ∧ r.2.interaction_index = 0 ∧ s = zeros A) (fun _ => False) := by
  have hlt : ((0.0 : Dbl A) <. 0.0 + 1.0) = true := by
    rw [Dbl.lt_iff, dbl_zero_add, zero_val, one_val]; norm_num
  unfold choose_collision_partner Material.choose
  simp [Material.get_cumulative_concentrations, mat, geom, Material.cumulative,
    Material.choose_index, Material.species, vget, zeros, Particle.new, hlt]
  rfl

theorem not_nan (x : Dbl A) : isNaN x = false := rfl

theorem collision_total (p q : Particle (Dbl A)) (g : BinaryCollisionGeometry (Dbl A))
    (h4 : p.interaction_index = 0) (h7 : q.interaction_index = 0) :
    RSat (calculate_binary_collision (rcpr A) p q g (options A))
      (fun r => ∃ b, r = .ok b) (fun _ => False) := by
  simp [calculate_binary_collision, distance_of_closest_approach, options, vget, h4,
    h7, scattering_angle, gauss_legendre, scattering_integral_gauss_legendre, quadrature, gl_nodes,
    forFold, scattering_function_gl, unwrapA, interaction_potential, not_nan]

theorem apply_total (s : StepState (Dbl A)) (q : Particle (Dbl A)) (g : BinaryCollisionGeometry (Dbl A))
    (r : BinaryCollisionResult (Dbl A)) :
    RSat (apply_collision (mat A) (options A) 0 g 0 q r s)
      (fun s' => s'.particle_1.interaction_index = s.particle_1.interaction_index ∧
        s'.strong_collision_index = 0 ∧ s'.particles = s.particles)
      (fun _ => False) := by
  unfold apply_collision
  have hE : RSat ((mat A).average_bulk_binding_energy q.pos.x q.pos.y q.pos.z) (fun _ => True)
      (fun _ => False) := by
    simp [Material.average_bulk_binding_energy, mat, geom]
  simp only [rsat_bind]
  refine rsat_mono hE (fun e _ => ?_) (fun _ h => h)
  have ho1 : (options A).track_recoils = false := rfl
  have ho2 : (options A).suppress_deep_recoils = false := rfl
  simp only [keep_recoil, ho1, ho2, Bool.and_false, Bool.false_and, Bool.false_eq_true, if_false,
    rsat_pure, Particle.rotate, beq_self_eq_true, if_true]
  refine ⟨?_, trivial, trivial⟩
  split <;> rfl

theorem finish_total (g : BinaryCollisionGeometry (Dbl A)) (s : StepState (Dbl A))
    (h : s.particle_1.interaction_index = 0) (hi : s.strong_collision_index = 0) :
    RSat (finish_step (mat A) (options A) [g] s) (fun r => r.2 = s.particles ∧ r.1.left = true)
      (fun _ => False) := by
  unfold finish_step
  simp only [vget, List.getElem?_cons_zero, rsat_bind, rsat_ok]
  generalize hp : s.particle_1.advance g.mfp s.total_asymptotic_deflection = pd
  obtain ⟨p, d⟩ := pd
  have hpi : p.interaction_index = 0 := by
    rw [← h, ← Particle.advance_interaction_index s.particle_1 g.mfp s.total_asymptotic_deflection, hp]
  have hsub : RSat (subtract_electronic_stopping_energy p (mat A) d
      s.normalized_distance_of_closest_approach s.strong_collision_Z 0 (options A))
      (fun _ => True) (fun _ => False) := by
    unfold subtract_electronic_stopping_energy
    simp [Material.inside, mat, geom, vget, hpi, options, Options.default_options, not_nan,
      Material.electronic_stopping_cross_sections, Material.electronic_stopping_correction_factor,
      Material.number_densities]
  rw [hi]
  refine rsat_mono hsub (fun r _ => ?_) (fun _ h => h)
  have hb : ∀ p : Particle (Dbl A), RSat (boundary_condition_planar p (mat A))
      (fun q => q.left = true) (fun _ => False) := by
    intro p
    simp [boundary_condition_planar, Material.inside_simulation_boundary,
      Material.inside_energy_barrier, mat, geom]
  refine rsat_mono (hb _) (fun q hq => ?_) (fun _ h => h)
  exact ⟨rfl, hq⟩

/-- The pass of the ion. -/
theorem pass_ion : Sat (trajectory_step (rcpr A) (mat A) (options A) (ion A) []) (zeros A)
      (fun r _ => r.1.left = true ∧ r.2 = []) (fun _ => False) := by
  unfold trajectory_step
  simp only [sat_bind]
  refine sat_mono (geometry_zero (ion A) rfl) (fun r s hr => ?_) (fun _ h => h)
  obtain ⟨b, g, rfl, rfl⟩ := hr
  have ho : (options A).weak_collision_order = 0 := rfl
  simp only [ho, List.zipIdx_cons, List.zipIdx_nil, List.take_succ_cons, List.take_zero,
    forFold, sat_bind, sat_pure, collision_step]
  refine sat_mono (partner_zero _ g) (fun r s hr => ?_) (fun _ h => h)
  obtain ⟨si, q⟩ := r
  obtain ⟨h1, h5, rfl⟩ := hr
  simp only at h1 h5
  have hin : (mat A).geometry.inside q.pos.x q.pos.y q.pos.z = .ok true := rfl
  have hb : ∀ x y z, (mat A).geometry.inside_energy_barrier x y z = .ok true := fun _ _ _ => rfl
  simp only [Material.inside, Material.inside_energy_barrier, sat_lift, hin, hb, rsat_ok,
    Bool.and_self, if_true, sat_bind]
  refine rsat_mono (collision_total _ q g rfl h5) (fun r hr => ?_) (fun _ h => h)
  obtain ⟨b, rfl⟩ := hr
  simp only [unwrapA, rsat_ok]
  rw [h1]
  refine rsat_mono (apply_total _ q g b) (fun s' hs' => ?_) (fun _ h => h)
  obtain ⟨g1, g2, g3⟩ := hs'
  refine rsat_mono (finish_total _ s' (g1.trans rfl) g2) (fun r hr => ?_) (fun _ h => h)
  exact ⟨hr.2, by rw [hr.1, g3]⟩

/-- A run with a collision. -/
theorem run : ∃ out t', single_ion_bca (rcpr A) 2 (ion A) (mat A) (options A) (zeros A)
    = .ok (out, t') ∧ out.length = 1 := by
  have h : Sat (single_ion_bca (rcpr A) 2 (ion A) (mat A) (options A)) (zeros A)
      (fun out _ => out.length = 1) (fun _ => False) := by
    simp only [single_ion_bca, whileFuel, sat_bind, cascade_body, popLast, Nat.lt_one_iff,
      List.getLast?_singleton, List.dropLast_singleton, decide_true, Nat.zero_lt_one, if_true,
      sat_lift, rsat_ok]
    have hrun : TrajState.running (⟨ion A, [], 1⟩ : TrajState (Dbl A)) = true := rfl
    simp only [hrun, if_true, traj_body, sat_bind]
    refine sat_mono pass_ion (fun r s hr => ?_) (fun _ h => h)
    obtain ⟨p1, ps⟩ := r
    obtain ⟨hl, hq⟩ := hr
    simp only at hl hq
    subst hq
    have hstop : ∀ ps i, TrajState.running (⟨p1, ps, i⟩ : TrajState (Dbl A)) = false := by
      intro ps i; simp [TrajState.running, hl]
    simp [hstop]
  cases hr : single_ion_bca (rcpr A) 2 (ion A) (mat A) (options A) (zeros A) with
  | ok r => unfold Sat at h; rw [hr] at h; exact ⟨r.1, r.2, rfl, h⟩
  | error e => unfold Sat at h; rw [hr] at h; exact absurd h id

end DoubleExample

open DoubleExample in
/-- Beside C90: in any double precision arithmetic there is a run with a collision that meets the
hypotheses of `C90_run`. -/
example (A : DoubleArith) : ∃ out t', single_ion_bca (rcpr A) 2 (ion A) (mat A) (options A) (zeros A)
    = .ok (out, t') ∧ out.length = 1 ∧ ∀ q ∈ out, UnitDirection q.dir := by
  obtain ⟨out, t', h, hl⟩ := run (A := A)
  exact ⟨out, t', h, hl, C90_run _ _ _ 2 _ _ _ _ ion_unit rfl rfl (fun _ _ _ => rfl) h⟩

open DoubleExample in
/-- Beside C91: an arithmetic that squares correctly; the ion of the refutation is accepted, so
`C91_input` speaks about it. -/
example : ∃ A : DoubleArith, (∀ x, A.powf x 2 = x^2) ∧ (∀ x, A.powi x 2 = x^2) ∧
    ∃ (input : ParticleInput (Dbl A)) (p : Particle (Dbl A)),
      Particle.from_input input (options A) = .ok p ∧ UnitDirection p.dir := by
  obtain ⟨A⟩ := doubleArith_nonempty
  refine ⟨{ A with powf := fun x n => x^n, powi := fun x n => x^n }, ?_, ?_, ?_⟩
  · intro x; simp only; norm_num
  · intro x; simp only; norm_cast
  · obtain ⟨i, p, _, h, _⟩ := C91_refuted_refraction
      (A := { A with powf := fun x n => x^n, powi := fun x n => x^n })
      (by intro x; simp only; norm_cast) (options _)
    exact ⟨i, p, h, (C91_input i _ p h).1⟩

end RustBCA
