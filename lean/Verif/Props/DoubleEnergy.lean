import Verif.Props.DoubleDir
import Verif.Spec.DoubleEnergy
import Mathlib.Tactic.GCongr

/-!
# C108: energies in double precision
-/

set_option linter.unusedSectionVars false
set_option linter.unusedSimpArgs false
set_option linter.unusedVariables false

namespace RustBCA
open Scalar Spec

variable {A : DoubleArith}

theorem Dbl.double (a : Dbl A) : IsDouble a.val := a.2

theorem four_val : (4.0 : Dbl A).val = 4 := by
  rw [Dbl.val_scientific]
  have : (OfScientific.ofScientific 40 true 1 : ℝ) = 4 := by norm_num
  rw [this]
  exact rnd_double A ⟨4, 0, by norm_num, by norm_num⟩

theorem isDouble_four {x : ℝ} (h : IsDouble x) : IsDouble (4*x) := by
  obtain ⟨m, e, hm, rfl⟩ := h
  refine ⟨m, e + 2, hm, ?_⟩
  rw [zpow_add₀ (by norm_num)]
  norm_num
  ring

theorem isDouble_twice {x : ℝ} (h : IsDouble x) : IsDouble (2*x) := by
  obtain ⟨m, e, hm, rfl⟩ := h
  refine ⟨m, e + 1, hm, ?_⟩
  rw [zpow_add₀ (by norm_num)]
  norm_num
  ring

theorem isDouble_one : IsDouble (1:ℝ) := ⟨1, 0, by norm_num, by norm_num⟩

/-- Pure arithmetic: the rounding errors of the kinematic factor are outweighed. -/
theorem factor_apart {u a b p s s2 : ℝ} (hu0 : 0 < u) (hu1 : u < 1/1000) (ha : 0 < a) (hb : 0 < b)
    (hab : 8*u*(a + b)^2 ≤ (a - b)^2) (hp : p ≤ (1 + u)*(a*b)) (hs : (1 - u)*(a + b) ≤ s)
    (hs2 : (1 - u)*(s*s) ≤ s2) : 4*p ≤ s2 := by
  have hS : 0 < a + b := by linarith
  have h1 : (1 - u)^2*(a + b)^2 ≤ s*s := by
    have := mul_self_le_mul_self (mul_nonneg (by linarith) hS.le) hs
    nlinarith
  have h2 : (1 - u)^3*(a + b)^2 ≤ s2 := by
    have := mul_le_mul_of_nonneg_left h1 (show 0 ≤ 1 - u by linarith)
    nlinarith
  have h3 : 4*(a*b) ≤ (1 - 8*u)*(a + b)^2 := by nlinarith
  have h4 : 4*p ≤ (1 + u)*((1 - 8*u)*(a + b)^2) := by
    have := mul_le_mul_of_nonneg_left h3 (show 0 ≤ 1 + u by linarith)
    linarith
  have h5 : (1 + u)*(1 - 8*u) ≤ (1 - u)^3 := by nlinarith [mul_pos hu0 hu0]
  have h6 := mul_le_mul_of_nonneg_right h5 (sq_nonneg (a + b))
  nlinarith

/-- The kinematic factor `4 Ma Mb / (Ma + Mb)^2` as computed never exceeds 1. -/
theorem factor_le_one (hA : RegularArith A) {a b : Dbl A} (ha : 0 < a.val) (hb : 0 < b.val)
    (hab : EqualOrApart a.val b.val) :
    0 ≤ ((4.0*(a*b)/powi (a + b) 2 : Dbl A)).val ∧ ((4.0*(a*b)/powi (a + b) 2 : Dbl A)).val ≤ 1 := by
  have hs2v : (powi (a + b) 2 : Dbl A).val = A.rnd ((a + b).val*(a + b).val) := by
    show A.rnd (A.powi (a + b).val 2) = _
    rw [hA.square]
  have hp4 : (4.0*(a*b) : Dbl A).val = 4*(a*b).val := by
    rw [Dbl.val_mul, four_val, rnd_double A (isDouble_four (a*b).double)]
  have hp0 : 0 ≤ (a*b).val := rnd_nonneg (mul_pos ha hb).le
  have hs0 : 0 ≤ (powi (a + b) 2 : Dbl A).val := by
    rw [hs2v]; exact rnd_nonneg (mul_self_nonneg _)
  rw [Dbl.val_div, hp4]
  refine ⟨rnd_nonneg (div_nonneg (by linarith) hs0), ?_⟩
  have key : 4*(a*b).val ≤ (powi (a + b) 2 : Dbl A).val := by
    rcases hab with hab | hab
    · have e1 : (a + b).val = 2*a.val := by
        rw [Dbl.val_add, ← hab, ← two_mul, rnd_double A (isDouble_twice a.double)]
      rw [hs2v, e1, Dbl.val_mul, ← hab]
      have : 2*a.val*(2*a.val) = 2*(2*(a.val*a.val)) := by ring
      rw [this, hA.scales, hA.scales]
      linarith
    · obtain ⟨u, hu⟩ : ∃ u : ℝ, u = 2^(-53:ℤ) := ⟨_, rfl⟩
      have hu0 : 0 < u := by rw [hu]; positivity
      have hu1 : u < 1/1000 := by rw [hu]; norm_num
      have b1 := (rnd_bounds A (mul_pos ha hb).le).2
      have b2 := (rnd_bounds A (add_pos ha hb).le).1
      have b3 := (rnd_bounds A (mul_self_nonneg (a + b).val)).1
      rw [← hu] at b1 b2 b3
      rw [hs2v]
      refine factor_apart hu0 hu1 ha hb ?_ b1 b2 b3
      have h1 : (2^(-25:ℤ)*(a.val + b.val))^2 ≤ (a.val - b.val)^2 := by
        rw [← sq_abs (a.val - b.val)]
        exact pow_le_pow_left₀ (mul_nonneg (by positivity) (add_pos ha hb).le) hab 2
      have h2 : (2^(-25:ℤ)*(a.val + b.val))^2 = 8*u*(a.val + b.val)^2 := by
        rw [mul_pow, hu]; norm_num
      linarith
  have : (4*(a*b).val)/(powi (a + b) 2 : Dbl A).val ≤ 1 := div_le_one_of_le₀ key hs0
  have := rnd_mono A this
  rwa [rnd_double A isDouble_one] at this

/-- **C108** (one collision; missing: masses that are almost but not quite equal, for which it is
refuted below) In double precision, the energy transferred in a collision is never
negative and never more than the particle has; what is left is not negative, and not more than it
was. -/
theorem C108_collision_partial (hA : RegularArith A) (rcpr : Rcpr (Dbl A)) (p q : Particle (Dbl A))
    (g : BinaryCollisionGeometry (Dbl A)) (o : Options (Dbl A))
    (r : BinaryCollisionResult (Dbl A)) (hm : 0 < p.m.val) (hq : 0 < q.m.val)
    (hpq : EqualOrApart p.m.val q.m.val) (hE : 0 ≤ p.E.val)
    (run : calculate_binary_collision rcpr p q g o = .ok (.ok r)) :
    0 ≤ r.recoil_energy.val ∧ r.recoil_energy.val ≤ p.E.val ∧
    0 ≤ (p.E - r.recoil_energy).val ∧ (p.E - r.recoil_energy).val ≤ p.E.val := by
  obtain ⟨_, V, x0, theta, _, _, _, _, rfl⟩ := binary_collision_ok run
  obtain ⟨f0, f1⟩ := factor_le_one hA hm hq hpq
  have hσ : |(sin (theta/2.0) : Dbl A).val| ≤ 1 := by
    have h := abs_le.mp (hA.sine (theta/2.0).val)
    have h1 := rnd_mono A h.2
    have h2 := rnd_mono A h.1
    rw [rnd_double A isDouble_one] at h1
    rw [rnd_double A (isDouble_neg isDouble_one)] at h2
    exact abs_le.mpr ⟨h2, h1⟩
  have hσ2 : 0 ≤ (powi (sin (theta/2.0)) 2 : Dbl A).val ∧
      (powi (sin (theta/2.0)) 2 : Dbl A).val ≤ 1 := by
    have e : (powi (sin (theta/2.0)) 2 : Dbl A).val
        = A.rnd ((sin (theta/2.0) : Dbl A).val*(sin (theta/2.0) : Dbl A).val) := by
      show A.rnd (A.powi (sin (theta/2.0) : Dbl A).val 2) = _
      rw [hA.square]
    rw [e]
    refine ⟨rnd_nonneg (mul_self_nonneg _), ?_⟩
    have : (sin (theta/2.0) : Dbl A).val*(sin (theta/2.0) : Dbl A).val ≤ 1 := by
      have := abs_le.mp hσ; nlinarith
    have := rnd_mono A this
    rwa [rnd_double A isDouble_one] at this
  have hfE : 0 ≤ (4.0*(p.m*q.m)/powi (p.m + q.m) 2*p.E : Dbl A).val ∧
      (4.0*(p.m*q.m)/powi (p.m + q.m) 2*p.E : Dbl A).val ≤ p.E.val := by
    rw [Dbl.val_mul]
    refine ⟨rnd_nonneg (mul_nonneg f0 hE), ?_⟩
    have := rnd_mono A (mul_le_of_le_one_left hE f1)
    rwa [rnd_double A p.E.double] at this
  have hT : 0 ≤ (4.0*(p.m*q.m)/powi (p.m + q.m) 2*p.E*powi (sin (theta/2.0)) 2 : Dbl A).val ∧
      (4.0*(p.m*q.m)/powi (p.m + q.m) 2*p.E*powi (sin (theta/2.0)) 2 : Dbl A).val ≤ p.E.val := by
    rw [Dbl.val_mul]
    refine ⟨rnd_nonneg (mul_nonneg hfE.1 hσ2.1), ?_⟩
    have := rnd_mono A ((mul_le_of_le_one_right hfE.1 hσ2.2).trans hfE.2)
    rwa [rnd_double A p.E.double] at this
  refine ⟨hT.1, hT.2, rnd_nonneg (sub_nonneg.mpr hT.2), ?_⟩
  have := rnd_mono A (show p.E.val - (4.0*(p.m*q.m)/powi (p.m + q.m) 2*p.E*
    powi (sin (theta/2.0)) 2 : Dbl A).val ≤ p.E.val from sub_le_self _ hT.1)
  rwa [rnd_double A p.E.double] at this

/-- What the collisions of a pass do to energies. -/
theorem collisions_energies (hA : RegularArith A) (rcpr : Rcpr (Dbl A)) {mat : Material (Dbl A)}
    (o : Options (Dbl A)) (hmat : SoundDoubles mat)
    (l : List (BinaryCollisionGeometry (Dbl A) × Nat)) (s : StepState (Dbl A)) (t : Tape (Dbl A))
    (hp : SoundDouble mat s.particle_1) (hs : ∀ r ∈ s.particles, SoundDouble mat r) :
    Sat (forFold (collision_step rcpr mat o) l s) t
      (fun s' _ => SoundDouble mat s'.particle_1 ∧ ∀ r ∈ s'.particles, SoundDouble mat r)
      (fun _ => True) := by
  refine sat_forFold (fun (s' : StepState (Dbl A)) _ => SoundDouble mat s'.particle_1 ∧
    ∀ r ∈ s'.particles, SoundDouble mat r) l ?_ s t ⟨hp, hs⟩
  intro gk _ x t1 hx
  refine sat_mono (sat_and (collision_step_cases rcpr mat o x gk t1)
    (collision_step_sat rcpr mat o x gk t1)) (fun y _ hy => ?_) (fun _ _ => trivial)
  obtain ⟨hy, hce⟩ := hy
  rcases hy with rfl | ⟨si, q, r, _, hsp, _, _, _, _, _, _, _, _, _, hr, happ⟩
  · exact hx
  have hqmem := List.mem_of_getElem? hsp.2.1
  have hqm : 0 < q.m.val := hmat.mass _ hqmem
  have hc := C108_collision_partial hA rcpr x.particle_1 q gk.1 o r hx.1.mass hqm (hx.1.apart _ hqmem)
    hx.1.energy hr
  have hEy : 0 ≤ y.particle_1.E.val := by
    have e : y.particle_1.E = x.particle_1.E + -r.recoil_energy := by rw [happ.moving]
    rw [e, Dbl.val_add, Dbl.val_neg]
    exact rnd_nonneg (by have := hc.2.1; linarith)
  have hmy : y.particle_1.m = x.particle_1.m := by rw [happ.moving]
  have hsy : y.particle_1.Es = x.particle_1.Es := by rw [happ.moving]
  refine ⟨⟨hmy ▸ hx.1.mass, hmy ▸ hx.1.apart, hEy, hsy ▸ hx.1.binding⟩, ?_⟩
  obtain ⟨new, hn1, hn2, _⟩ := hce.stack
  rw [hn1]
  intro r' hr'
  rcases List.mem_append.mp hr' with hr' | hr'
  · exact hx.2 r' hr'
  · have hf := hn2 r' hr'
    obtain ⟨i, hZ, hmm, hEc, hEs, _, _⟩ := hf.species
    refine ⟨hmat.mass _ (List.mem_of_getElem? hmm), hmat.apart _ (List.mem_of_getElem? hmm), ?_,
      hmat.binding _ (List.mem_of_getElem? hEs)⟩
    have h1 := (Dbl.lt_iff _ _).1 hf.above
    have h2 := hmat.cutoff _ (List.mem_of_getElem? hEc)
    have h3 := congrArg Dbl.val hf.energy
    linarith

theorem fsum_nonneg_dbl {l : List (Dbl A)} (h : ∀ d ∈ l, 0 ≤ d.val) : 0 ≤ (fsum l).val :=
  (fold_bounds l 0.0 zero_val.ge h).2.2

theorem weighted_nonneg_dbl {l c : List (Dbl A)} (hl : ∀ d ∈ l, 0 ≤ d.val)
    (hc : ∀ d ∈ c, 0 ≤ d.val) : 0 ≤ (Material.weighted_sum l c).val := by
  unfold Material.weighted_sum
  refine fsum_nonneg_dbl fun d hd => ?_
  obtain ⟨⟨a, b⟩, hab, rfl⟩ := List.mem_map.mp hd
  have := List.of_mem_zip hab
  exact rnd_nonneg (mul_nonneg (hl _ this.1) (hc _ this.2))

theorem half_nonneg {x : Dbl A} (h : 0 ≤ x.val) : 0 ≤ (0.5*x : Dbl A).val := by
  rw [Dbl.val_mul]
  refine rnd_nonneg (mul_nonneg ?_ h)
  rw [Dbl.val_scientific]
  exact rnd_nonneg (by norm_num)

/-- Surface binding energies are not negative. -/
theorem surface_energy_nonneg {mat : Material (Dbl A)} (hmat : SoundDoubles mat)
    {p : Particle (Dbl A)} (hp : 0 ≤ p.Es.val) (x y z : Dbl A) :
    RSat (mat.actual_surface_binding_energy p x y z) (fun Es => 0 ≤ Es.val) (fun _ => True) := by
  unfold Material.actual_surface_binding_energy
  simp only [rsat_bind]
  refine rsat_mono (rsat_eq _) (fun cs hcs => ?_) (fun _ _ => trivial)
  have h0 : 0 ≤ (0.0 : Dbl A).val := zero_val.ge
  have h1 := weighted_nonneg_dbl hmat.binding (hmat.concentrations _ _ _ _ hcs)
  have h2 : 0 ≤ (0.5*(p.Es + Material.weighted_sum mat.Es cs) : Dbl A).val :=
    half_nonneg (rnd_nonneg (add_nonneg hp h1))
  cases mat.surface_binding_model with
  | TARGET => dsimp only; split <;> simp only [rsat_pure] <;> assumption
  | INDIVIDUAL => simp only [rsat_pure]; exact hp
  | AVERAGE => dsimp only; split <;> simp only [rsat_pure] <;> assumption
  | ISOTROPIC c =>
    cases c with
    | TARGET => dsimp only; split <;> simp only [rsat_pure] <;> assumption
    | INDIVIDUAL => simp only [rsat_pure]; exact hp
    | AVERAGE => dsimp only; split <;> simp only [rsat_pure] <;> assumption
  | PLANAR c =>
    cases c with
    | TARGET => dsimp only; split <;> simp only [rsat_pure] <;> assumption
    | INDIVIDUAL => simp only [rsat_pure]; exact hp
    | AVERAGE => dsimp only; split <;> simp only [rsat_pure] <;> assumption

/-- Electronic stopping leaves no negative energy. -/
theorem stopping_energy_nonneg (p : Particle (Dbl A)) (mat : Material (Dbl A)) (d x0 Z : Dbl A)
    (i : Nat) (o : Options (Dbl A)) (hE : 0 ≤ p.E.val) :
    RSat (subtract_electronic_stopping_energy p mat d x0 Z i o) (fun r => 0 ≤ r.1.E.val)
      (fun _ => True) := by
  unfold subtract_electronic_stopping_energy
  simp only [rsat_bind, rsat_assert]
  refine ⟨fun _ => ?_, fun _ => trivial⟩
  refine rsat_mono (rsat_trivial _) (fun ins _ => ?_) (fun _ _ => trivial)
  split
  · simp only [rsat_bind, rsat_assert]
    refine rsat_mono (rsat_trivial _) (fun row _ => ?_) (fun _ _ => trivial)
    refine rsat_mono (rsat_trivial _) (fun ti _ => ?_) (fun _ _ => trivial)
    refine rsat_mono (rsat_trivial _) (fun V _ => ?_) (fun _ _ => trivial)
    refine rsat_mono (rsat_trivial _) (fun S _ => ?_) (fun _ _ => trivial)
    refine rsat_mono (rsat_trivial _) (fun n _ => ?_) (fun _ _ => trivial)
    refine rsat_mono (rsat_trivial _) (fun de _ => ?_) (fun _ _ => trivial)
    refine ⟨fun _ => ?_, fun _ => trivial⟩
    simp only [rsat_pure]
    split
    · exact zero_val.ge
    · rename_i h
      rw [Dbl.lt_iff, zero_val] at h
      exact not_lt.mp h
  · simp only [rsat_pure]; exact hE

/-- Nor does the surface, if it is ISOTROPIC or not crossed. -/
theorem boundary_energy_nonneg {mat : Material (Dbl A)} (hmat : SoundDoubles mat)
    (hsurf : (∃ c, mat.surface_binding_model = .ISOTROPIC c) ∨
      ∀ x y z, mat.geometry.inside_energy_barrier x y z = .ok true)
    {p : Particle (Dbl A)} (hE : 0 ≤ p.E.val) (hEs : 0 ≤ p.Es.val) :
    RSat (boundary_condition_planar p mat) (fun q => 0 ≤ q.E.val) (fun _ => True) := by
  unfold boundary_condition_planar
  simp only [rsat_bind]
  refine rsat_mono (rsat_trivial _) (fun sim _ => ?_) (fun _ _ => trivial)
  refine rsat_mono (rsat_trivial _) (fun bar _ => ?_) (fun _ _ => trivial)
  have h1 : ∃ lf tr, (if (!sim) = true then
      { p with left := true }.update_trajectory_tracker else p) =
      { p with left := lf, trajectory := tr } := by
    split
    · unfold Particle.update_trajectory_tracker
      split
      · exact ⟨_, _, rfl⟩
      · exact ⟨_, _, rfl⟩
    · exact ⟨p.left, p.trajectory, rfl⟩
  obtain ⟨lf, tr, h1⟩ := h1
  rw [h1]
  have h2 : ∃ st tr', (if ((p.E <. p.Ec) && !lf && bar) = true then
      { p with left := lf, trajectory := tr, stopped := true }.update_trajectory_tracker
      else { p with left := lf, trajectory := tr }) =
      { p with left := lf, trajectory := tr', stopped := st } := by
    split
    · unfold Particle.update_trajectory_tracker
      split
      · exact ⟨_, _, rfl⟩
      · exact ⟨_, _, rfl⟩
    · exact ⟨p.stopped, tr, rfl⟩
  obtain ⟨st, tr', h2⟩ := h2
  simp only [h2]
  split
  · obtain ⟨q, hq⟩ : ∃ q : Particle (Dbl A), q = { p with left := lf, trajectory := tr', stopped := st } :=
      ⟨_, rfl⟩
    have hqE : 0 ≤ q.E.val := by rw [hq]; exact hE
    have hqs : 0 ≤ q.Es.val := by rw [hq]; exact hEs
    rw [← hq]
    unfold surface_binding_energy
    simp only [rsat_bind]
    refine rsat_mono (surface_energy_nonneg hmat hqs _ _ _) (fun Es hEs' => ?_) (fun _ _ => trivial)
    refine rsat_mono (rsat_eq _) (fun now hnow => ?_) (fun _ _ => trivial)
    refine rsat_mono (rsat_eq _) (fun old hold => ?_) (fun _ _ => trivial)
    rcases hsurf with ⟨c, hc⟩ | hin
    · have enter : RSat (if (now && !old) = true then surface_entering q mat Es
          else pure q : Res (Particle (Dbl A))) (fun q => 0 ≤ q.E.val) (fun _ => True) := by
        split
        · unfold surface_entering
          split
          · simp only [rsat_pure]; exact hqE
          · simp only [rsat_bind]
            refine rsat_mono (rsat_trivial _) (fun x _ => ?_) (fun _ _ => trivial)
            obtain ⟨x2, y2, z2⟩ := x
            simp only [hc, rsat_pure]
            exact rnd_nonneg (add_nonneg hqE hEs')
        · simp only [rsat_pure]; exact hqE
      refine rsat_mono enter (fun q' hq' => ?_) (fun _ _ => trivial)
      split
      · unfold surface_leaving
        simp only [rsat_bind]
        refine rsat_mono (rsat_trivial _) (fun x _ => ?_) (fun _ _ => trivial)
        obtain ⟨x2, y2, z2⟩ := x
        simp only [hc]
        split
        · split
          · rename_i hl
            simp only [rsat_pure]
            have := (Dbl.lt_iff _ _).1 hl
            rw [Dbl.val_add, Dbl.val_neg]
            exact rnd_nonneg (by linarith)
          · simp only [rsat_pure]; exact hq'
        · simp only [rsat_pure]; exact hq'
      · simp only [rsat_pure]; exact hq'
    · have e1 : now = true := by
        have h3 : mat.geometry.inside_energy_barrier q.pos.x q.pos.y q.pos.z = .ok now := hnow
        rw [hin] at h3; injection h3 with h3; exact h3.symm
      have e2 : old = true := by
        have h3 : mat.geometry.inside_energy_barrier q.pos_old.x q.pos_old.y q.pos_old.z
          = .ok old := hold
        rw [hin] at h3; injection h3 with h3; exact h3.symm
      subst e1 e2
      simp only [Bool.not_true, Bool.and_false, Bool.false_and, Bool.false_eq_true, if_false,
        rsat_pure]
      exact hqE
  · simp only [rsat_pure]; exact hE

/-- A pass of the loop keeps energies from becoming negative. -/
theorem C108_pass_partial (hA : RegularArith A) (rcpr : Rcpr (Dbl A)) {mat : Material (Dbl A)}
    (o : Options (Dbl A)) (hmat : SoundDoubles mat)
    (hsurf : (∃ c, mat.surface_binding_model = .ISOTROPIC c) ∨
      ∀ x y z, mat.geometry.inside_energy_barrier x y z = .ok true)
    (p q : Particle (Dbl A)) (new : List (Particle (Dbl A))) (t t1 : Tape (Dbl A))
    (hp : SoundDouble mat p) (h : trajectory_step rcpr mat o p [] t = .ok ((q, new), t1)) :
    SoundDouble mat q ∧ ∀ r ∈ new, SoundDouble mat r := by
  obtain ⟨tr⟩ := sat_of_ok (pass_trace rcpr mat o p [] t) h
  obtain ⟨b, hp1⟩ := tr.p1_eq
  have hd1 : SoundDouble mat tr.p1 := by
    rw [hp1]; exact ⟨hp.mass, hp.apart, hp.energy, hp.binding⟩
  have hc := sat_of_ok (collisions_energies hA rcpr o hmat _ ⟨tr.p1, [], 0.0, 0.0, 0.0, 0.0, 0⟩ tr.t1
    hd1 (by simp)) tr.hloop
  refine ⟨?_, ?_⟩
  · have adv : ∀ (x : Particle (Dbl A)) (a b : Dbl A), (x.advance a b).1.E = x.E ∧
        (x.advance a b).1.m = x.m ∧ (x.advance a b).1.Es = x.Es := by
      intro x a b
      unfold Particle.advance Particle.update_trajectory_tracker
      simp only
      split
      · split <;> exact ⟨rfl, rfl, rfl⟩
      · exact ⟨rfl, rfl, rfl⟩
    obtain ⟨a1, a2, a3⟩ := adv tr.s.particle_1 tr.g0.mfp tr.s.total_asymptotic_deflection
    have h3 : 0 ≤ tr.p3.E.val := rsat_of_ok (Q := fun r : Particle (Dbl A) × Dbl A => 0 ≤ r.1.E.val)
      (stopping_energy_nonneg _ mat _ _ _ _ o (by rw [a1]; exact hc.1.energy)) tr.hstop
    obtain ⟨E, hE⟩ := tr.p3_eq
    have m3 : tr.p3.m = tr.s.particle_1.m := (congrArg Particle.m hE).trans a2
    have s3 : tr.p3.Es = tr.s.particle_1.Es := (congrArg Particle.Es hE).trans a3
    have upd : ∀ (x : Particle (Dbl A)) (a b : Dbl A),
        (x.update_energy_loss_tracker o a b).E = x.E ∧
        (x.update_energy_loss_tracker o a b).m = x.m ∧
        (x.update_energy_loss_tracker o a b).Es = x.Es := by
      intro x a b
      unfold Particle.update_energy_loss_tracker
      split <;> exact ⟨rfl, rfl, rfl⟩
    obtain ⟨u1, u2, u3⟩ := upd tr.p3 tr.s.total_energy_lost_to_recoils tr.el
    have hqE : 0 ≤ q.E.val := rsat_of_ok (Q := fun q : Particle (Dbl A) => 0 ≤ q.E.val)
      (boundary_energy_nonneg hmat hsurf (by rw [u1]; exact h3)
        (by rw [u3, s3]; exact hc.1.binding)) tr.hbound
    obtain ⟨E', dir', b', st', lf', l', hq⟩ := tr.q_eq
    have hqm : q.m = tr.s.particle_1.m := (congrArg Particle.m hq).trans (u2.trans m3)
    have hqs : q.Es = tr.s.particle_1.Es := (congrArg Particle.Es hq).trans (u3.trans s3)
    exact ⟨by rw [hqm]; exact hc.1.mass, by rw [hqm]; exact hc.1.apart, hqE,
      by rw [hqs]; exact hc.1.binding⟩
  · have hqs : new = tr.s.particles := tr.hqs
    rw [hqs]; exact hc.2

/-- **C108** (a run; missing: almost equal masses, refuted below, and the crossing of a surface whose
model is not ISOTROPIC) In double precision, whatever the random numbers, the potential, the stopping
and the geometry: no particle returned by `single_ion_bca` has a negative energy. -/
theorem C108_run_partial (hA : RegularArith A) (rcpr : Rcpr (Dbl A)) (mat : Material (Dbl A))
    (o : Options (Dbl A)) (fuel : Nat) (ion : Particle (Dbl A)) (t t' : Tape (Dbl A))
    (out : List (Particle (Dbl A))) (hmat : SoundDoubles mat) (hion : SoundDouble mat ion)
    (hs : ion.stopped = false) (hl : ion.left = false)
    (hsurf : (∃ c, mat.surface_binding_model = .ISOTROPIC c) ∨
      ∀ x y z, mat.geometry.inside_energy_barrier x y z = .ok true)
    (h : single_ion_bca rcpr fuel ion mat o t = .ok (out, t')) :
    ∀ q ∈ out, 0 ≤ q.E.val := by
  have hcas := (C81_depth_first rcpr mat o ion t t' out hs hl).mp ⟨fuel, h⟩
  have path : ∀ {p t q rec t1}, Path rcpr mat o p t q rec t1 → SoundDouble mat p →
      SoundDouble mat q ∧ ∀ r ∈ rec, SoundDouble mat r := by
    intro p t q rec t1 hp
    induction hp with
    | finished _ => intro h; exact ⟨h, by simp⟩
    | step _ _ hst _ ih =>
      intro h
      have h1 := C108_pass_partial hA rcpr o hmat hsurf _ _ _ _ _ h hst
      have h2 := ih h1.1
      refine ⟨h2.1, fun r hr => ?_⟩
      rcases List.mem_append.mp hr with hr | hr
      · exact h1.2 r hr
      · exact h2.2 r hr
  have cas : ∀ {ps t out t'}, Cascades rcpr mat o ps t out t' → (∀ p ∈ ps, SoundDouble mat p) →
      ∀ q ∈ out, SoundDouble mat q := by
    intro ps t out t' hc
    induction hc with
    | nil => intro _ q hq; cases hq
    | cons hp _ _ ih1 ih2 =>
      intro hps q hq
      have h1 := path hp (hps _ (by simp))
      rcases List.mem_cons.mp hq with hq | hq
      · rw [hq]; exact h1.1
      · rcases List.mem_append.mp hq with hq | hq
        · exact ih1 (fun r hr => h1.2 r (List.mem_reverse.mp hr)) q hq
        · exact ih2 (fun r hr => hps r (by simp [hr])) q hq
  intro q hq
  exact (cas hcas (by simpa using hion) q hq).energy

/-- **C108** (refuted for masses that are almost equal) With ties rounded to even, as IEEE 754 does
by default, two masses that differ in their last binary digit, `2^53 - 1` and `2^53 - 2` (in some
unit), and a head-on collision: more energy is transferred than the particle has, and what is left
is negative. -/
theorem C108_refuted (hA : RegularArith A) (heven : A.rnd (2^54 - 3) = 2^54 - 4)
    (Ma Mb E a x0 theta : Dbl A) (V : InteractionPotential (Dbl A)) (ha : Ma.val = 2^53 - 1)
    (hb : Mb.val = 2^53 - 2) (hE : E.val = 1) (hθ : |(sin (theta/2.0) : Dbl A).val| = 1) :
    (E - (collision_result Ma Mb E a x0 theta V).recoil_energy).val = -1/2^52 := by
  have e1 : (Ma*Mb).val = ((2^53 - 3 : ℤ):ℝ)*(2:ℝ)^(53:ℤ) := by
    rw [Dbl.val_mul, ha, hb]
    refine rnd_eq A _ _ (by norm_num) (by norm_num) ?_
    rw [abs_lt]; constructor <;> norm_num
  have e2 : (4.0*(Ma*Mb) : Dbl A).val = ((2^53 - 3 : ℤ):ℝ)*(2:ℝ)^(55:ℤ) := by
    rw [Dbl.val_mul, four_val, rnd_double A (isDouble_four (Ma*Mb).double), e1]
    norm_num
  have e3 : (Ma + Mb).val = 2^54 - 4 := by
    rw [Dbl.val_add, ha, hb, ← heven]
    congr 1; norm_num
  have e4 : (powi (Ma + Mb) 2 : Dbl A).val = ((2^53 - 4 : ℤ):ℝ)*(2:ℝ)^(55:ℤ) := by
    have : (powi (Ma + Mb) 2 : Dbl A).val = A.rnd ((Ma + Mb).val*(Ma + Mb).val) := by
      show A.rnd (A.powi (Ma + Mb).val 2) = _
      rw [hA.square]
    rw [this, e3]
    refine rnd_eq A _ _ (by norm_num) (by norm_num) ?_
    rw [abs_lt]; constructor <;> norm_num
  have e5 : (4.0*(Ma*Mb)/powi (Ma + Mb) 2 : Dbl A).val = ((2^52 + 1 : ℤ):ℝ)*(2:ℝ)^(-52:ℤ) := by
    rw [Dbl.val_div, e2, e4]
    refine rnd_eq A _ _ (by norm_num) (by norm_num) ?_
    rw [abs_lt]; constructor <;> norm_num
  have d5 : IsDouble (((2^52 + 1 : ℤ):ℝ)*(2:ℝ)^(-52:ℤ)) := ⟨_, _, by norm_num, rfl⟩
  have e6 : (4.0*(Ma*Mb)/powi (Ma + Mb) 2*E : Dbl A).val = ((2^52 + 1 : ℤ):ℝ)*(2:ℝ)^(-52:ℤ) := by
    rw [Dbl.val_mul, e5, hE, mul_one, rnd_double A d5]
  have e7 : (powi (sin (theta/2.0)) 2 : Dbl A).val = 1 := by
    have : (powi (sin (theta/2.0)) 2 : Dbl A).val
        = A.rnd ((sin (theta/2.0) : Dbl A).val*(sin (theta/2.0) : Dbl A).val) := by
      show A.rnd (A.powi (sin (theta/2.0) : Dbl A).val 2) = _
      rw [hA.square]
    rw [this, ← abs_mul_abs_self, hθ, one_mul, rnd_double A isDouble_one]
  have e8 : (collision_result Ma Mb E a x0 theta V).recoil_energy.val
      = ((2^52 + 1 : ℤ):ℝ)*(2:ℝ)^(-52:ℤ) := by
    show (4.0*(Ma*Mb)/powi (Ma + Mb) 2*E*powi (sin (theta/2.0)) 2 : Dbl A).val = _
    rw [Dbl.val_mul, e6, e7, mul_one, rnd_double A d5]
  rw [Dbl.val_sub, e8, hE]
  have : (1:ℝ) - ((2^52 + 1 : ℤ):ℝ)*(2:ℝ)^(-52:ℤ) = -1/2^52 := by norm_num
  rw [this]
  exact rnd_double A ⟨-1, -52, by norm_num, by norm_num⟩

end RustBCA
