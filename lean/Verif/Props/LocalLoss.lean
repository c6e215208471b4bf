import Verif.Spec.Stopping
import Verif.Props.Stopping
import Verif.Proofs.Screening
import Verif.Proofs.PassTrace
import Mathlib.MeasureTheory.Integral.Gamma

/-!
# C82: how much energy electronic stopping takes
-/

set_option linter.unusedSectionVars false
set_option linter.unusedSimpArgs false

namespace RustBCA
open Scalar Spec

theorem S_low_spec (E m Za Zb : ℝ) : Material.S_low E m Za Zb = lindhardScharff E m Za Zb := by
  unfold Material.S_low lindhardScharff LINDHARD_SCHARFF_PREFACTOR
  simp only [powf_real, sqrt_real]
  have e1 : ((7.0:ℝ)/6.0) = 7/6 := by norm_num
  have e2 : ((2.0:ℝ)/3.0) = 2/3 := by norm_num
  have e3 : ((3.0:ℝ)/2.0) = 3/2 := by norm_num
  rw [e1, e2, e3]
  have : E/Q ℝ/m*AMU ℝ = E/Q ℝ/(m/AMU ℝ) := by rw [div_div_eq_mul_div, div_mul_eq_mul_div]
  rw [this, pow_two]
  generalize (1.212:ℝ) = c
  ring

theorem beta_spec (E m : ℝ) : Material.stopping_beta E m = relativisticBeta E m := by
  unfold Material.stopping_beta relativisticBeta
  simp only [powf_real, sqrt_real]
  rw [powi_real, show (2:ℤ) = ((2:ℕ):ℤ) from rfl, zpow_natCast]
  have e1 : (-2.0:ℝ) = ((-2:ℤ):ℝ) := by norm_num
  have e2 : (1.0:ℝ) = 1 := by norm_num
  rw [e1, Real.rpow_intCast, e2, div_div, zpow_neg, one_div]
  rfl

theorem S_high_spec (E m Za Zb : ℝ) :
    Material.S_high E m Za Zb = betheBiersack (relativisticBeta E m) Za Zb := by
  unfold Material.S_high betheBiersack BETHE_BLOCH_PREFACTOR
  simp only [powf_real, ln_real, beta_spec, pi_real]
  have h13 : (13.0:ℝ) = 13 := by norm_num
  have h3 : (3.0:ℝ) = 3 := by norm_num
  have h12 : (12.0:ℝ) = 12 := by norm_num
  have h7 : (7.0:ℝ) = 7 := by norm_num
  have h100 : (100.0:ℝ) = 100 := by norm_num
  have h5 : (5.0:ℝ) = 5 := by norm_num
  have h2 : (2.0:ℝ) = 2 := by norm_num
  have h4 : (4.0:ℝ) = 4 := by norm_num
  have h1 : (1.0:ℝ) = 1 := by norm_num
  simp only [lt_real, h13, h3, h12, h7, h100, h5, h2, h4, h1]
  have hv : ∀ I : ℝ, 2*ME ℝ*(relativisticBeta E m*C ℝ)*(relativisticBeta E m*C ℝ)/I
      = 2*ME ℝ*(relativisticBeta E m*C ℝ)^2/I := fun I => by ring
  rw [hv]
  congr 1
  have hQ := Q_pos.ne'
  have hM := ME_pos.ne'
  have hC := C_pos.ne'
  have he := EPS0_pos.ne'
  have hp := Real.pi_ne_zero
  by_cases hb : relativisticBeta E m = 0
  · rw [hb]; simp
  · field_simp

theorem oen_spec (Za Zb Se x0 : ℝ) (V : InteractionPotential ℝ) :
    oen_robinson_loss Za Zb Se x0 V
      = oenRobinson (first_screening_radius V) (screening_length Za Zb V) Se x0 := by
  unfold oen_robinson_loss oenRobinson
  simp only [exp_real, pi_real]
  have h2 : (2.0:ℝ) = 2 := by norm_num
  rw [h2, neg_mul]
  ring

theorem bragg_spec (S ns : List ℝ) (d : ℝ) : bragg_sum S ns*d = braggLoss S ns d := by
  unfold bragg_sum braggLoss
  rw [fsum_real, List.zip, List.map_zipWith]

/-- **C82, cross sections.** One stopping cross section per species: the Lindhard-Scharff one times
the correction factor in the low-energy modes, and in INTERPOLATED mode the harmonic sum of the
Bethe-Biersack and the Lindhard-Scharff one, the latter divided by the correction factor. -/
theorem C82_cross_sections (mat : Material ℝ) (p : Particle ℝ) (mode : ElectronicStoppingMode)
    (ck : ℝ) (ns : List ℝ) (hgk : mat.geometry.get_ck p.pos.x p.pos.y p.pos.y = .ok ck)
    (hgd : mat.geometry.get_densities p.pos.x p.pos.y p.pos.y = .ok ns)
    (hlen : ns.length = mat.Z.length) :
    mat.electronic_stopping_cross_sections p mode = .ok (mat.Z.map fun Zb =>
      match mode with
      | .INTERPOLATED => 1/(1/betheBiersack (relativisticBeta p.E p.m) p.Z Zb
          + 1/lindhardScharff p.E p.m p.Z Zb*ck)
      | _ => lindhardScharff p.E p.m p.Z Zb*ck) := by
  unfold Material.electronic_stopping_cross_sections Material.electronic_stopping_correction_factor
    Material.number_densities
  simp only [hgk, hgd, bind, Except.bind, pure, Except.pure, Except.ok.injEq]
  have h : mat.Z = (ns.zip mat.Z).map Prod.snd := by
    rw [List.map_snd_zip]; omega
  conv_rhs => rw [h, List.map_map]
  refine List.map_congr_left fun x _ => ?_
  obtain ⟨n, Zb⟩ := x
  have h1 : (1.0:ℝ) = 1 := by norm_num
  cases mode <;> simp only [Material.stopping_power, S_low_spec, S_high_spec, h1, Function.comp]

/-- **C82.** Inside the material, with cross sections `S` and densities `ns`, the energy lost in a
step is: over the distance travelled, `d Σ n S` for INTERPOLATED and LOW_ENERGY_NONLOCAL; Oen and
Robinson's loss in the collision for LOW_ENERGY_LOCAL; and half of each for
LOW_ENERGY_EQUIPARTITION. The particle keeps `E - loss`, or nothing if that is negative. -/
theorem C82_loss (p q : Particle ℝ) (mat : Material ℝ) (d x0 sz loss : ℝ) (si ti : Nat)
    (o : Options ℝ) (S ns : List ℝ) (row : List (InteractionPotential ℝ))
    (V : InteractionPotential ℝ) (se : ℝ)
    (hin : mat.geometry.inside p.pos.x p.pos.y p.pos.z = .ok true)
    (hS : mat.electronic_stopping_cross_sections p o.electronic_stopping_mode = .ok S)
    (hns : mat.geometry.get_densities p.pos.x p.pos.y p.pos.z = .ok ns)
    (hrow : o.interaction_potential[p.interaction_index]? = some row)
    (hti : mat.interaction_index[si]? = some ti) (hV : row[ti]? = some V) (hse : S[si]? = some se)
    (run : subtract_electronic_stopping_energy p mat d x0 sz si o = .ok (q, loss)) :
    q = { p with E := max 0 (p.E - loss) } ∧
    loss = match o.electronic_stopping_mode with
      | .INTERPOLATED => braggLoss S ns d
      | .LOW_ENERGY_NONLOCAL => braggLoss S ns d
      | .LOW_ENERGY_LOCAL =>
          oenRobinson (first_screening_radius V) (screening_length p.Z sz V) se x0
      | .LOW_ENERGY_EQUIPARTITION =>
          (oenRobinson (first_screening_radius V) (screening_length p.Z sz V) se x0
            + braggLoss S ns d)/2 := by
  have h0 : (0.0 : ℝ) = 0 := by norm_num
  have h5 : (0.5 : ℝ) = 1/2 := by norm_num
  have hmax : ∀ x : ℝ, (if (x <. 0.0) = true then 0.0 else x) = max 0 x := by
    intro x
    rw [h0]
    by_cases hc : x < 0
    · rw [if_pos ((lt_real _ _).2 hc), max_eq_left hc.le]
    · rw [if_neg (by rw [lt_real]; exact hc), max_eq_right (not_lt.mp hc)]
  unfold subtract_electronic_stopping_energy Material.inside Material.number_densities at run
  cases hm : o.electronic_stopping_mode <;>
    simp only [hin, hm ▸ hS, hns, vget, hrow, hti, hV, hse, isNaN_real, rassert, Bool.not_false,
      if_true, bind, Except.bind, pure, Except.pure, Except.ok.injEq, Prod.mk.injEq, hm,
      bragg_spec, oen_spec, hmax, ← sub_eq_add_neg] at run ⊢ <;>
    obtain ⟨h1, h2⟩ := run <;> subst h2 <;> refine ⟨h1.symm, ?_⟩
  all_goals try rfl
  rw [h5]; ring

/-- **C82** The range `1/d` (in screening lengths) of Oen and Robinson's loss for the potentials that
have no screening function to take it from: one screening length, and Molière's first term for the
Coulomb potential. -/
theorem C82_unscreened (V : InteractionPotential ℝ) (hV : ¬ Screened V) :
    first_screening_radius V = 1 ∨ (∃ Za Zb, V = .COULOMB Za Zb) ∧
      first_screening_radius V = first_screening_radius (.MOLIERE : InteractionPotential ℝ) := by
  have h1 : (1.0:ℝ) = 1 := by norm_num
  cases V <;> first
    | exact .inl h1
    | exact .inr ⟨⟨_, _, rfl⟩, rfl⟩
    | exact absurd (by constructor) hV

/-- **C82, local losses add up.** Oen and Robinson's loss, integrated over all impact parameters
(with the straight line's distance of closest approach `p/a`), is the stopping cross section; it is
positive and decreases with the distance. -/
theorem C82_oen_robinson_normalised (V : InteractionPotential ℝ) (Za Zb S : ℝ)
    (ha : 0 < screening_length Za Zb V) :
    ∫ b in Set.Ioi (0:ℝ), oen_robinson_loss Za Zb S (b/screening_length Za Zb V) V*(2*Real.pi*b)
      = S := by
  have hd : 0 < first_screening_radius V := by
    cases V <;> simp only [first_screening_radius] <;> norm_num
  obtain ⟨a, hae⟩ : ∃ a, a = screening_length Za Zb V := ⟨_, rfl⟩
  obtain ⟨d, hde⟩ : ∃ d, d = first_screening_radius V := ⟨_, rfl⟩
  simp only [oen_spec, ← hae, ← hde] at ha hd ⊢
  have hr : 0 < d/a := div_pos hd ha
  have key := Real.integral_rpow_mul_exp_neg_mul_Ioi (a := 2) (r := d/a) (by norm_num) hr
  have e : ∀ b ∈ Set.Ioi (0:ℝ), oenRobinson d a S (b/a)*(2*Real.pi*b)
      = (d/a)^2*S*(b^((2:ℝ)-1)*Real.exp (-(d/a*b))) := by
    intro b _
    unfold oenRobinson
    have : ((2:ℝ) - 1) = 1 := by norm_num
    rw [this, Real.rpow_one]
    have h2 : d*(b/a) = d/a*b := by ring
    rw [h2]
    have := ha.ne'
    have := Real.pi_ne_zero
    field_simp
  rw [MeasureTheory.setIntegral_congr_fun measurableSet_Ioi e, MeasureTheory.integral_const_mul, key]
  have hg : Real.Gamma 2 = 1 := by
    rw [show (2:ℝ) = ((1:ℕ):ℝ) + 1 by norm_num, Real.Gamma_nat_eq_factorial 1]
    simp
  rw [hg, mul_one, show (2:ℝ) = ((2:ℕ):ℝ) by norm_num, Real.rpow_natCast]
  have := ha.ne'
  have := hd.ne'
  field_simp

/-- **C82, decay rate.** For the screened potentials the rate used is the one at which the screening
function itself decays: `phi(x) exp(d x)` tends to a positive limit. -/
theorem C82_decay_rate (V : InteractionPotential ℝ) (h : Screened V) (f : ℝ → ℝ)
    (hf : ∀ x, phi x V = .ok (f x)) :
    ∃ c, 0 < c ∧ Filter.Tendsto (fun x => f x*Real.exp (first_screening_radius V*x)) Filter.atTop
      (nhds c) := by
  have hfe : f = expsum (screening_terms V) := by
    funext x
    have := hf x
    rw [phi_expsum V h] at this
    injection this with this
    exact this.symm
  have hz : ∀ c d : ℝ, 0 < d → Filter.Tendsto (fun x : ℝ => c*Real.exp (-(d*x))) Filter.atTop
      (nhds 0) := by
    intro c d hd
    have h1 : Filter.Tendsto (fun x : ℝ => d*x) Filter.atTop Filter.atTop :=
      Filter.tendsto_id.const_mul_atTop hd
    have := (Real.tendsto_exp_neg_atTop_nhds_zero.comp h1).const_mul c
    rw [mul_zero] at this
    exact this
  have hterm : ∀ c d e x : ℝ, c*Real.exp (-d*x)*Real.exp (e*x) = c*Real.exp (-((d - e)*x)) := by
    intro c d e x
    rw [mul_assoc, ← Real.exp_add]
    congr 2; ring
  rw [hfe]
  cases h
  · refine ⟨0.35, by norm_num, ?_⟩
    have := ((hz 0.55 (1.2 - 0.3) (by norm_num)).add (hz 0.10 (6.0 - 0.3) (by norm_num))).const_add
      0.35
    simp only [add_zero] at this
    refine this.congr fun x => ?_
    simp only [screening_terms, expsum_cons, expsum_nil, first_screening_radius, add_zero, add_mul,
      hterm, sub_self, zero_mul, neg_zero, Real.exp_zero, mul_one]
  · refine ⟨0.190945, by norm_num, ?_⟩
    have := ((hz 0.473674 (0.637174 - 0.278544) (by norm_num)).add
      (hz 0.335381 (1.919249 - 0.278544) (by norm_num))).const_add 0.190945
    simp only [add_zero] at this
    refine this.congr fun x => ?_
    simp only [screening_terms, expsum_cons, expsum_nil, first_screening_radius, add_zero, add_mul,
      hterm, sub_self, zero_mul, neg_zero, Real.exp_zero, mul_one]
  · refine ⟨0.02817, by norm_num, ?_⟩
    have := ((hz 0.28022 (0.40290 - 0.20162) (by norm_num)).add
      ((hz 0.50986 (0.94229 - 0.20162) (by norm_num)).add
        (hz 0.18175 (3.1998 - 0.20162) (by norm_num)))).const_add 0.02817
    simp only [add_zero] at this
    refine this.congr fun x => ?_
    simp only [screening_terms, expsum_cons, expsum_nil, first_screening_radius, add_zero, add_mul,
      hterm, sub_self, zero_mul, neg_zero, Real.exp_zero, mul_one]
  · refine ⟨0.01018, by norm_num, ?_⟩
    have := ((hz 0.24330 (0.3876 - 0.206) (by norm_num)).add
      (hz 0.7466 (1.038 - 0.206) (by norm_num))).const_add 0.01018
    simp only [add_zero] at this
    refine this.congr fun x => ?_
    simp only [screening_terms, expsum_cons, expsum_nil, first_screening_radius, add_zero, add_mul,
      hterm, sub_self, zero_mul, neg_zero, Real.exp_zero, mul_one]
  · refine ⟨0.190945, by norm_num, ?_⟩
    have := ((hz 0.473674 (0.637174 - 0.278544) (by norm_num)).add
      (hz 0.335381 (1.919249 - 0.278544) (by norm_num))).const_add 0.190945
    simp only [add_zero] at this
    refine this.congr fun x => ?_
    simp only [screening_terms, expsum_cons, expsum_nil, first_screening_radius, add_zero, add_mul,
      hterm, sub_self, zero_mul, neg_zero, Real.exp_zero, mul_one]

end RustBCA
