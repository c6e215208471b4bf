import Verif.Proofs.SpecialLift

/-! # Queries of the target and electronic stopping over numbers with special values (helper lemmas for C95) -/

namespace RustBCA
open Scalar Spec

set_option linter.unusedSimpArgs false
set_option linter.unusedVariables false

def Species.lift (s : Species ℝ) : Species XReal :=
  ⟨s.species_index, .fin s.Z, .fin s.m, .fin s.Ec, .fin s.Es, .fin s.Ed, s.interaction_index⟩

namespace XReal

section
variable {mat : Material ℝ} {mat' : Material XReal} (h : SameMaterial mat mat') (x y z : ℝ)
include h

theorem densities_fin : RLift (List.map fin) (mat.number_densities x y z)
    (mat'.number_densities (fin x) (fin y) (fin z)) := RLift.of_map (h.geometry.densities x y z)

theorem ck_fin : RLift fin (mat.electronic_stopping_correction_factor x y z)
    (mat'.electronic_stopping_correction_factor (fin x) (fin y) (fin z)) := RLift.of_map (h.geometry.ck x y z)

theorem total_fin : RLift fin (mat.total_number_density x y z)
    (mat'.total_number_density (fin x) (fin y) (fin z)) :=
  RLift.map (densities_fin h x y z) fun l _ => fsum_fin l

theorem total_pos (hm : RegularTarget mat) {n : ℝ} (hn : mat.total_number_density x y z = .ok n) : 0 < n := by
  unfold Material.total_number_density at hn
  cases hd : mat.geometry.get_densities x y z with
  | error e => rw [hd] at hn; cases hn
  | ok ns =>
    rw [hd] at hn
    cases hn
    rw [fsum_real]
    exact hm.density x y z ns hd

theorem mfp_fin (hm : RegularTarget mat) : RLift fin (mat.mfp x y z) (mat'.mfp (fin x) (fin y) (fin z)) := by
  refine RLift.map (total_fin h x y z) fun n hn => ?_
  have h3 : (3.0:ℝ) ≠ 0 := by norm_num
  simp only [fin_lit, fin_neg, fin_div h3, fin_powf (total_pos h x y z hm hn)]
  rfl

theorem concentrations_fin : RLift (List.map fin) (mat.geometry.get_concentrations x y z)
    (mat'.geometry.get_concentrations (fin x) (fin y) (fin z)) := RLift.of_map (h.geometry.concentrations x y z)

theorem average_Z_fin : RLift fin (mat.average_Z x y z) (mat'.average_Z (fin x) (fin y) (fin z)) := by
  refine RLift.map (concentrations_fin h x y z) fun l _ => ?_
  rw [h.Z, weighted_sum_fin]

theorem average_mass_fin : RLift fin (mat.average_mass x y z) (mat'.average_mass (fin x) (fin y) (fin z)) := by
  refine RLift.map (concentrations_fin h x y z) fun l _ => ?_
  rw [h.m, weighted_sum_fin]

theorem average_Eb_fin : RLift fin (mat.average_bulk_binding_energy x y z)
    (mat'.average_bulk_binding_energy (fin x) (fin y) (fin z)) := by
  refine RLift.map (concentrations_fin h x y z) fun l _ => ?_
  rw [h.Eb, weighted_sum_fin]

theorem species_fin (i : Nat) : RLift Species.lift (mat.species i) (mat'.species i) := by
  unfold Material.species
  rw [h.Z, h.m, h.Ec, h.Es, h.Ed, h.interaction_index]
  refine RLift.bind (RLift.vget _ _) fun Z _ => ?_
  refine RLift.bind (RLift.vget _ _) fun m _ => ?_
  refine RLift.bind (RLift.vget _ _) fun Ec _ => ?_
  refine RLift.bind (RLift.vget _ _) fun Es _ => ?_
  refine RLift.bind (RLift.vget _ _) fun Ed _ => ?_
  intro s hs
  cases hv : vget mat.interaction_index i with
  | error e => rw [hv] at hs; cases hs
  | ok j => rw [hv] at hs; cases hs; rfl

theorem choose_fin (t : Tape ℝ) : MLift Species.lift (mat.choose x y z) (mat'.choose (fin x) (fin y) (fin z)) t := by
  unfold Material.choose Material.get_cumulative_concentrations
  refine MLift.bind MLift.random fun r t1 _ => ?_
  refine MLift.bind (MLift.lift (RLift.bind (concentrations_fin h x y z)
    fun l _ => RLift.pure (f := List.map fin) (cumulative_fin l _))) fun l t2 _ => ?_
  rw [choose_index_fin]
  cases Material.choose_index r l with
  | none => intro a t3 ha; cases ha
  | some i => exact MLift.lift (species_fin h i)

theorem fin_eq (a b : ℝ) : (fin a ==. fin b) = (a ==. b) := by
  show decide (a = b) = _
  by_cases hab : a = b
  · rw [decide_eq_true hab]
    exact ((eq_real _ _).2 hab).symm
  · rw [decide_eq_false hab]
    exact ((eq_real_false _ _).2 hab).symm

theorem actual_Es_fin (p : Particle ℝ) : RLift fin (mat.actual_surface_binding_energy p x y z)
    (mat'.actual_surface_binding_energy p.lift (fin x) (fin y) (fin z)) := by
  unfold Material.actual_surface_binding_energy
  refine RLift.bind (concentrations_fin h x y z) fun l _ => ?_
  rw [h.surface_binding_model, h.Es, fsum_fin, weighted_sum_fin]
  have e1 : (fin p.Es ==. (0.0:XReal)) = (p.Es ==. 0.0) := fin_eq h _ _
  have e2 : (fin (fsum mat.Es) ==. (0.0:XReal)) = (fsum mat.Es ==. 0.0) := fin_eq h _ _
  have e3 : p.lift.Es = fin p.Es := rfl
  rw [e3, e1, e2]
  cases mat.surface_binding_model with
  | ISOTROPIC c => cases c <;> first | exact RLift.pure rfl | exact RLift.ite rfl (fun _ => RLift.pure rfl) (fun _ => RLift.pure rfl)
  | PLANAR c => cases c <;> first | exact RLift.pure rfl | exact RLift.ite rfl (fun _ => RLift.pure rfl) (fun _ => RLift.pure rfl)
  | _ => first | exact RLift.pure rfl | exact RLift.ite rfl (fun _ => RLift.pure rfl) (fun _ => RLift.pure rfl)

end

/-! ## Stopping -/

theorem S_low_fin {E Ma Za Zb : ℝ} (hE : 0 ≤ E) (hM : 0 < Ma) (ha : 0 < Za) (hb : 0 < Zb) :
    Material.S_low (fin E) (fin Ma) (fin Za) (fin Zb) = fin (Material.S_low E Ma Za Zb) := by
  have h3 : (3.0:ℝ) ≠ 0 := by norm_num
  have h6 : (6.0:ℝ) ≠ 0 := by norm_num
  have h2 : (2.0:ℝ) ≠ 0 := by norm_num
  have h4 : 0 < Za ^ ((2.0:ℝ)/3.0) + Zb ^ ((2.0:ℝ)/3.0) :=
    add_pos (Real.rpow_pos_of_pos ha _) (Real.rpow_pos_of_pos hb _)
  have h5 : (Za ^ ((2.0:ℝ)/3.0) + Zb ^ ((2.0:ℝ)/3.0)) ^ ((3.0:ℝ)/2.0) ≠ 0 := (Real.rpow_pos_of_pos h4 _).ne'
  have h7 : 0 ≤ E/Q ℝ/Ma*AMU ℝ := by
    have := Q_pos; have := AMU_pos
    positivity
  unfold Material.S_low
  simp only [scharff_fin, Q_fin, AMU_fin, fin_lit, fin_div h3, fin_div h6, fin_div h2, fin_powf ha, fin_powf hb,
    fin_add, fin_powf h4, fin_mul, fin_div h5, fin_div Q_pos.ne', fin_div hM.ne', fin_sqrt h7]
  rfl

theorem fin_rpow_neg2 {a : ℝ} (h : 0 < a) : Scalar.powf (fin a) (-2.0) = fin (a ^ (-2.0:ℝ)) := fin_powf h

theorem beta_fin {E Ma : ℝ} (hE : 0 ≤ E) (hM : 0 < Ma) :
    Material.stopping_beta (fin E) (fin Ma) = fin (Material.stopping_beta E Ma) := by
  have hC : C ℝ ^ (2:ℤ) ≠ 0 := zpow_ne_zero _ C_pos.ne'
  have hp : 0 < 1.0 + E/Ma/C ℝ ^ (2:ℤ) := by
    have : 0 ≤ E/Ma/C ℝ ^ (2:ℤ) := by
      have := C_pos
      positivity
    have : (0:ℝ) < 1.0 := by norm_num
    linarith
  have hs : 0 ≤ 1.0 - (1.0 + E/Ma/C ℝ ^ (2:ℤ)) ^ (-2.0:ℝ) := by
    have : (1.0 + E/Ma/C ℝ ^ (2:ℤ)) ^ (-2.0:ℝ) ≤ 1 := by
      apply Real.rpow_le_one_of_one_le_of_nonpos
      · have : 0 ≤ E/Ma/C ℝ ^ (2:ℤ) := by
          have := C_pos
          positivity
        have : (1.0:ℝ) = 1 := by norm_num
        linarith
      · norm_num
    have : (1.0:ℝ) = 1 := by norm_num
    linarith
  unfold Material.stopping_beta
  simp only [C_fin, fin_powi (Or.inl (by norm_num : (0:ℤ) ≤ 2)), fin_div hM.ne', fin_div hC, fin_lit, fin_add,
    fin_neg, fin_powf hp, fin_sub, fin_sqrt hs]
  rfl

theorem S_high_fin {E Ma Za Zb : ℝ} (hE : 0 < E) (hM : 0 < Ma) (ha : 0 < Za) (hb : 0 < Zb) :
    Material.S_high (fin E) (fin Ma) (fin Za) (fin Zb) = fin (Material.S_high E Ma Za Zb) := by
  obtain ⟨hb0, hb1⟩ := beta_pos hE hM
  unfold Material.S_high
  rw [beta_fin hE.le hM]
  simp only [powf_real, ln_real]
  generalize Material.stopping_beta E Ma = beta at *
  obtain ⟨I0, hI0⟩ : ∃ I0, I0 = (if (Zb <. 13.0) = true then 12.0 + 7.0/Zb
    else 9.76 + 58.5*Zb ^ (-1.19 : ℝ)) := ⟨_, rfl⟩
  have hI : 0 < I0 := by
    have h1 : 0 < Zb ^ (-1.19 : ℝ) := Real.rpow_pos_of_pos hb _
    rw [hI0]; split
    · have : 0 < 7.0/Zb := div_pos (by norm_num) hb
      have : (0 : ℝ) < 12.0 := by norm_num
      linarith
    · have : 0 < 58.5*Zb ^ (-1.19 : ℝ) := mul_pos (by norm_num) h1
      have : (0 : ℝ) < 9.76 := by norm_num
      linarith
  have hI0' : (if (fin Zb <. (13.0:XReal)) = true then (12.0:XReal) + 7.0/fin Zb
      else 9.76 + 58.5*Scalar.powf (fin Zb) (-1.19)) = fin I0 := by
    rw [hI0]
    simp only [fin_lit, fin_neg, fin_lt, fin_div hb.ne', fin_add, fin_powf hb, fin_mul]
    by_cases hc : Zb < 13.0
    · rw [if_pos (decide_eq_true hc), if_pos ((lt_real _ _).2 hc)]
    · rw [if_neg (fun hh => hc (of_decide_eq_true hh)), if_neg (fun hh => hc ((lt_real _ _).1 hh))]
  rw [← hI0, hI0']
  obtain ⟨B, hB⟩ : ∃ B, B = (if (Zb <. 3.0) = true then 100.0*Za/Zb else (5.0 : ℝ)) := ⟨_, rfl⟩
  have hB0 : 0 < B := by
    rw [hB]; split
    · exact div_pos (mul_pos (by norm_num) ha) hb
    · norm_num
  have hB' : (if (fin Zb <. (3.0:XReal)) = true then (100.0:XReal)*fin Za/fin Zb else 5.0) = fin B := by
    rw [hB]
    simp only [fin_lit, fin_lt, fin_mul, fin_div hb.ne']
    by_cases hc : Zb < 3.0
    · rw [if_pos (decide_eq_true hc), if_pos ((lt_real _ _).2 hc)]
    · rw [if_neg (fun hh => hc (of_decide_eq_true hh)), if_neg (fun hh => hc ((lt_real _ _).1 hh))]
  rw [← hB, hB']
  have hIne : Zb*I0*Q ℝ ≠ 0 := by
    have := Q_pos
    positivity
  have heb0 : 0 < 2.0*ME ℝ*(beta*C ℝ)*(beta*C ℝ)/(Zb*I0*Q ℝ) := by
    have := ME_pos; have := C_pos; have := Q_pos
    have h2 : (0 : ℝ) < 2.0 := by norm_num
    positivity
  have hl : 0 < 2.0*ME ℝ*(beta*C ℝ)*(beta*C ℝ)/(Zb*I0*Q ℝ) + 1.0 +
      B/(2.0*ME ℝ*(beta*C ℝ)*(beta*C ℝ)/(Zb*I0*Q ℝ)) := by
    have h1 : (0:ℝ) < 1.0 := by norm_num
    positivity
  simp only [bethe_fin, Q_fin, C_fin, ME_fin, fin_lit, fin_mul, fin_div hb0.ne', fin_div hIne, fin_div heb0.ne',
    fin_add, fin_ln hl]

/-- The cross section, at rest too. -/
theorem stopping_power_fin (mode : ElectronicStoppingMode) {E Ma Za Zb ck : ℝ} (hE : 0 ≤ E) (hM : 0 < Ma)
    (ha : 0 < Za) (hb : 0 < Zb) (hck : 0 < ck) :
    Material.stopping_power mode (fin ck) (Material.S_high (fin E) (fin Ma) (fin Za) (fin Zb))
      (Material.S_low (fin E) (fin Ma) (fin Za) (fin Zb)) =
    fin (Material.stopping_power mode ck (Material.S_high E Ma Za Zb) (Material.S_low E Ma Za Zb)) := by
  cases mode with
  | INTERPOLATED =>
    rcases hE.lt_or_eq with h0 | h0
    · have h1 := S_high_pos h0 hM ha hb
      have h2 := S_low_pos h0 hM ha hb
      have h3 : 1.0/Material.S_high E Ma Za Zb + 1.0/Material.S_low E Ma Za Zb*ck ≠ 0 := by
        have : (0:ℝ) < 1.0 := by norm_num
        positivity
      unfold Material.stopping_power
      simp only [S_high_fin h0 hM ha hb, S_low_fin hE hM ha hb, fin_lit, fin_div h1.ne', fin_div h2.ne', fin_mul,
        fin_add, fin_div h3]
    · subst h0
      have hlow : Material.S_low 0 Ma Za Zb = 0 := by
        unfold Material.S_low
        simp
      have hbeta : Material.stopping_beta (0:ℝ) Ma = 0 := by
        unfold Material.stopping_beta
        simp only [sqrt_real, powf_real, powi_real, zero_div]
        norm_num
      have hhigh : Material.S_high 0 Ma Za Zb = 0 := by
        unfold Material.S_high
        simp only [hbeta]
        simp
      have hx : Material.S_high (fin 0) (fin Ma) (fin Za) (fin Zb) = pinf := by
        have hk := bethe_pos
        have h1 : BETHE_BLOCH_PREFACTOR XReal*fin Zb*fin Za*fin Za/fin 0/fin 0 = pinf := by
          rw [bethe_fin]
          simp only [fin_mul]
          have : fin (BETHE_BLOCH_PREFACTOR ℝ*Zb*Za*Za)/fin 0 = pinf := by
            show (if (0:ℝ) = 0 then signInf _ else _) = _
            rw [if_pos rfl, signInf, if_pos (by positivity)]
          rw [this]
          show (if (0:ℝ) < 0 then ninf else pinf) = _
          rw [if_neg (lt_irrefl _)]
        have hI : ∃ I0, (if (fin Zb <. (13.0:XReal)) = true then (12.0:XReal) + 7.0/fin Zb
            else 9.76 + 58.5*Scalar.powf (fin Zb) (-1.19)) = fin I0 ∧ 0 < I0 := by
          simp only [fin_lit, fin_neg, fin_lt, fin_div hb.ne', fin_add, fin_powf hb, fin_mul]
          by_cases hc : Zb < 13.0
          · rw [if_pos (decide_eq_true hc)]
            refine ⟨_, rfl, ?_⟩
            have : 0 < 7.0/Zb := div_pos (by norm_num) hb
            have : (0 : ℝ) < 12.0 := by norm_num
            linarith
          · rw [if_neg (fun hh => hc (of_decide_eq_true hh))]
            refine ⟨_, rfl, ?_⟩
            have : 0 < 58.5*Zb ^ (-1.19 : ℝ) := mul_pos (by norm_num) (Real.rpow_pos_of_pos hb _)
            have : (0 : ℝ) < 9.76 := by norm_num
            linarith
        obtain ⟨I0, hI1, hI2⟩ := hI
        have hB : ∃ B, (if (fin Zb <. (3.0:XReal)) = true then (100.0:XReal)*fin Za/fin Zb else 5.0) = fin B ∧
            0 < B := by
          simp only [fin_lit, fin_lt, fin_mul, fin_div hb.ne']
          by_cases hc : Zb < 3.0
          · rw [if_pos (decide_eq_true hc)]
            exact ⟨_, rfl, div_pos (mul_pos (by norm_num) ha) hb⟩
          · rw [if_neg (fun hh => hc (of_decide_eq_true hh))]
            exact ⟨_, rfl, by norm_num⟩
        obtain ⟨B, hB1, hB2⟩ := hB
        unfold Material.S_high
        have hx := beta_fin (E := 0) le_rfl hM
        rw [hx, hbeta, hI1, hB1]
        simp only [h1]
        have hIne : Zb*I0*Q ℝ ≠ 0 := by
          have := Q_pos
          positivity
        have he : (2.0:XReal)*ME XReal*(fin 0*C XReal)*(fin 0*C XReal)/(fin Zb*fin I0*Q XReal) = fin 0 := by
          simp only [fin_lit, ME_fin, C_fin, Q_fin, fin_mul, fin_div hIne]
          norm_num
        rw [he]
        have hBe : fin B/fin 0 = pinf := by
          show (if (0:ℝ) = 0 then signInf _ else _) = _
          rw [if_pos rfl, signInf, if_pos hB2]
        rw [hBe]
        rfl
      unfold Material.stopping_power
      simp only [hx, S_low_fin le_rfl hM ha hb, hlow, hhigh]
      have h1 : (1.0:XReal)/pinf = fin 0 := rfl
      have h2 : (1.0:XReal)/fin 0 = pinf := by
        show (if (0:ℝ) = 0 then signInf (1.0) else _) = _
        rw [if_pos rfl, signInf, if_pos (by norm_num)]
      have h3 : pinf*fin ck = pinf := by
        show signInf ck = _
        rw [signInf, if_pos hck]
      rw [h1, h2, h3]
      show fin 0 = _
      norm_num
  | LOW_ENERGY_LOCAL => unfold Material.stopping_power; simp only [S_low_fin hE hM ha hb, fin_mul]
  | LOW_ENERGY_NONLOCAL => unfold Material.stopping_power; simp only [S_low_fin hE hM ha hb, fin_mul]
  | LOW_ENERGY_EQUIPARTITION => unfold Material.stopping_power; simp only [S_low_fin hE hM ha hb, fin_mul]

theorem stopping_fin {mat : Material ℝ} {mat' : Material XReal} (h : SameMaterial mat mat') (hm : RegularTarget mat)
    {p : Particle ℝ} (hp : RegularParticle p) (mode : ElectronicStoppingMode) :
    RLift (List.map fin) (mat.electronic_stopping_cross_sections p mode)
      (mat'.electronic_stopping_cross_sections p.lift mode) := by
  unfold Material.electronic_stopping_cross_sections
  refine RLift.bind (ck_fin h p.pos.x p.pos.y p.pos.y) fun ck hck => ?_
  refine RLift.bind (densities_fin h p.pos.x p.pos.y p.pos.y) fun l _ => RLift.pure ?_
  rw [h.Z, List.zip_map, List.map_map, List.map_map]
  refine List.map_congr_left fun x hx => ?_
  obtain ⟨n, Zb⟩ := x
  exact stopping_power_fin mode hp.E_nonneg hp.m_pos hp.Z_pos (hm.Z_pos Zb (List.of_mem_zip hx).2)
    (hm.ck_pos _ _ _ _ hck)

theorem first_radius_fin (V : InteractionPotential ℝ) (hV : Screened V) :
    first_screening_radius V.lift = fin (first_screening_radius V) := by
  cases hV <;> rfl

theorem screening_length_fin' (V : InteractionPotential ℝ) (hV : Screened V) {Za Zb : ℝ} (hA : 0 < Za)
    (hB : 0 ≤ Zb) : screening_length (fin Za) (fin Zb) V.lift = fin (screening_length Za Zb V) ∧
      0 < screening_length Za Zb V := by
  have hA0 := A0_pos
  have h1 : 0 < Real.sqrt Za + Real.sqrt Zb := add_pos_of_pos_of_nonneg (Real.sqrt_pos.2 hA) (Real.sqrt_nonneg _)
  have h2 : (0:ℝ) < Za ^ (0.23:ℝ) + Zb ^ (0.23:ℝ) :=
    add_pos_of_pos_of_nonneg (Real.rpow_pos_of_pos hA _) (Real.rpow_nonneg hB _)
  have h3 : (3.0:ℝ) ≠ 0 := by norm_num
  have h23 : (0:ℝ) < 0.23 := by norm_num
  refine ⟨?_, ?_⟩
  · cases hV <;> simp only [InteractionPotential.lift, screening_length, fin_lit, A0_fin, fin_mul, fin_sqrt hA.le,
      fin_sqrt hB, fin_add, fin_neg, fin_div h3, fin_powf h1, fin_powf hA, fin_powf' hB h23, fin_div h2.ne'] <;> rfl
  · have e1 : (0:ℝ) < 0.8853 := by norm_num
    have e2 : (0:ℝ) < 0.88534 := by norm_num
    have e3 : 0 < (Real.sqrt Za + Real.sqrt Zb) ^ ((-2.0:ℝ)/3.0) := Real.rpow_pos_of_pos h1 _
    cases hV <;> simp only [screening_length, powf_real, sqrt_real] <;> positivity

theorem oen_fin (V : InteractionPotential ℝ) (hV : Screened V) {Za Zb : ℝ} (S x0 : ℝ) (hA : 0 < Za)
    (hB : 0 ≤ Zb) : oen_robinson_loss (fin Za) (fin Zb) (fin S) (fin x0) V.lift =
      fin (oen_robinson_loss Za Zb S x0 V) := by
  obtain ⟨h1, h2⟩ := screening_length_fin' V hV hA hB
  have h3 : (2.0:ℝ) ≠ 0 := by norm_num
  unfold oen_robinson_loss
  simp only [h1, first_radius_fin V hV, fin_lit, fin_pi, fin_mul, fin_div h3, fin_div Real.pi_pos.ne', fin_neg,
    fin_exp, fin_div h2.ne']
  rfl

end XReal
end RustBCA
