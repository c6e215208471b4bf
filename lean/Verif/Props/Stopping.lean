import Verif.Props.Materials
import Verif.Proofs.Screened
import Verif.Proofs.PassTrace
import Mathlib.Tactic.Positivity
import Mathlib.Analysis.SpecialFunctions.Exp
import Mathlib.Analysis.Complex.ExponentialBounds

/-!
# C32, C34: electronic stopping
-/

set_option linter.unusedSectionVars false
set_option linter.unusedSimpArgs false

namespace RustBCA
open Scalar Spec

/-! ## C34: cross sections -/

theorem AMU_pos : (0 : ℝ) < AMU ℝ := by unfold AMU; norm_num
theorem C_pos : (0 : ℝ) < C ℝ := by unfold C; norm_num
theorem ME_pos : (0 : ℝ) < ME ℝ := by unfold ME; norm_num

theorem bethe_pos : (0 : ℝ) < BETHE_BLOCH_PREFACTOR ℝ := by
  unfold BETHE_BLOCH_PREFACTOR
  have := Q_pos; have := EPS0_pos; have := ME_pos; have := C_pos; have := pi_pos'
  have h4 : (0 : ℝ) < 4.0 := by norm_num
  positivity

theorem scharff_pos : (0 : ℝ) < LINDHARD_SCHARFF_PREFACTOR ℝ := by
  unfold LINDHARD_SCHARFF_PREFACTOR
  have := Q_pos; have := ANGSTROM_pos
  have h4 : (0 : ℝ) < 1.212 := by norm_num
  positivity

theorem beta_pos {E Ma : ℝ} (hE : 0 < E) (hM : 0 < Ma) :
    0 < Material.stopping_beta E Ma ∧ Material.stopping_beta E Ma ≤ 1 := by
  unfold Material.stopping_beta
  simp only [sqrt_real, powf_real, powi_real]
  have hc : 0 < E/Ma/C ℝ ^ (2:ℤ) := div_pos (div_pos hE hM) (zpow_pos C_pos _)
  have h1 : (1.0 : ℝ) = 1 := by norm_num
  rw [h1]
  have hlt : (1 + E/Ma/C ℝ ^ (2:ℤ)) ^ (-2.0 : ℝ) < 1 :=
    Real.rpow_lt_one_of_one_lt_of_neg (by linarith) (by norm_num)
  have hpos : 0 < (1 + E/Ma/C ℝ ^ (2:ℤ)) ^ (-2.0 : ℝ) := Real.rpow_pos_of_pos (by linarith) _
  refine ⟨Real.sqrt_pos.mpr (by linarith), ?_⟩
  exact Real.sqrt_le_iff.mpr ⟨by norm_num, by linarith⟩

theorem S_low_pos {E Ma Za Zb : ℝ} (hE : 0 < E) (hM : 0 < Ma) (ha : 0 < Za) (hb : 0 < Zb) :
    0 < Material.S_low E Ma Za Zb := by
  unfold Material.S_low
  simp only [sqrt_real, powf_real]
  have := scharff_pos; have := Q_pos; have := AMU_pos
  have h1 : 0 < Za ^ ((7.0 : ℝ)/6.0) := Real.rpow_pos_of_pos ha _
  have h2 : 0 < Za ^ ((2.0 : ℝ)/3.0) := Real.rpow_pos_of_pos ha _
  have h3 : 0 < Zb ^ ((2.0 : ℝ)/3.0) := Real.rpow_pos_of_pos hb _
  have h4 : 0 < (Za ^ ((2.0 : ℝ)/3.0) + Zb ^ ((2.0 : ℝ)/3.0)) ^ ((3.0 : ℝ)/2.0) :=
    Real.rpow_pos_of_pos (by linarith) _
  have h5 : 0 < Real.sqrt (E/Q ℝ/Ma*AMU ℝ) := Real.sqrt_pos.mpr (by positivity)
  exact mul_pos (div_pos (mul_pos scharff_pos (mul_pos h1 hb)) h4) h5

/-- A lower bound for the Bethe-like cross section. -/
theorem S_high_ge {E Ma Za Zb : ℝ} (hE : 0 < E) (hM : 0 < Ma) (ha : 0 < Za) (hb : 0 < Zb) :
    ∃ L, 1 < L ∧ BETHE_BLOCH_PREFACTOR ℝ*Zb*Za*Za*Real.log L ≤ Material.S_high E Ma Za Zb ∧
      (Zb < 3 → 1 + 2*Real.sqrt (100*Za/Zb) ≤ L) := by
  obtain ⟨hb0, hb1⟩ := beta_pos hE hM
  unfold Material.S_high
  simp only [powf_real, ln_real]
  obtain ⟨beta, hbeta⟩ : ∃ beta, beta = Material.stopping_beta E Ma := ⟨_, rfl⟩
  rw [← hbeta] at hb0 hb1 ⊢
  obtain ⟨I0, hI0⟩ : ∃ I0, I0 = (if (Zb <. 13.0) = true then 12.0 + 7.0/Zb
    else 9.76 + 58.5*Zb ^ (-1.19 : ℝ)) := ⟨_, rfl⟩
  rw [← hI0]
  have hI : 0 < I0 := by
    have h1 : 0 < Zb ^ (-1.19 : ℝ) := Real.rpow_pos_of_pos hb _
    rw [hI0]; split
    · have : 0 < 7.0/Zb := div_pos (by norm_num) hb
      have : (0 : ℝ) < 12.0 := by norm_num
      linarith
    · have : 0 < 58.5*Zb ^ (-1.19 : ℝ) := mul_pos (by norm_num) h1
      have : (0 : ℝ) < 9.76 := by norm_num
      linarith
  obtain ⟨B, hB⟩ : ∃ B, B = (if (Zb <. 3.0) = true then 100.0*Za/Zb else (5.0 : ℝ)) := ⟨_, rfl⟩
  rw [← hB]
  have hB0 : 0 < B := by
    rw [hB]; split
    · exact div_pos (mul_pos (by norm_num) ha) hb
    · norm_num
  obtain ⟨eb, heb⟩ : ∃ eb, eb = 2.0*ME ℝ*(beta*C ℝ)*(beta*C ℝ)/(Zb*I0*Q ℝ) := ⟨_, rfl⟩
  rw [← heb]
  have heb0 : 0 < eb := by
    rw [heb]
    have := ME_pos; have := C_pos; have := Q_pos
    have h2 : (0 : ℝ) < 2.0 := by norm_num
    positivity
  have hBeb : 0 < B/eb := div_pos hB0 heb0
  have h10 : (1.0 : ℝ) = 1 := by norm_num
  refine ⟨eb + 1.0 + B/eb, by rw [h10]; linarith, ?_, ?_⟩
  · have hlog : 0 ≤ Real.log (eb + 1.0 + B/eb) := Real.log_nonneg (by rw [h10]; linarith)
    refine mul_le_mul_of_nonneg_right ?_ hlog
    have hp : 0 < BETHE_BLOCH_PREFACTOR ℝ*Zb*Za*Za := by
      have := bethe_pos; positivity
    rw [div_div, le_div_iff₀ (by positivity)]
    have : beta*beta ≤ 1 := by nlinarith
    nlinarith
  · intro h3
    have hB3 : B = 100*Za/Zb := by
      have h30 : (3.0 : ℝ) = 3 := by norm_num
      have h100 : (100.0 : ℝ) = 100 := by norm_num
      rw [hB, if_pos (by rw [lt_real, h30]; exact h3), h100]
    rw [← hB3, h10]
    have hs : Real.sqrt B^2 = B := Real.sq_sqrt hB0.le
    have hs0 : 0 ≤ Real.sqrt B := Real.sqrt_nonneg _
    have : 2*Real.sqrt B ≤ eb + B/eb := by
      rw [← sub_nonneg]
      have : eb + B/eb - 2*Real.sqrt B = (eb - Real.sqrt B)^2/eb := by
        field_simp; rw [sub_sq, hs]; ring
      rw [this]; positivity
    linarith

theorem S_high_pos {E Ma Za Zb : ℝ} (hE : 0 < E) (hM : 0 < Ma) (ha : 0 < Za) (hb : 0 < Zb) :
    0 < Material.S_high E Ma Za Zb := by
  obtain ⟨L, hL, hle, _⟩ := S_high_ge hE hM ha hb
  refine lt_of_lt_of_le ?_ hle
  have := bethe_pos
  have := Real.log_pos hL
  positivity

/-- Target species with positive nuclear charge, and a particle of positive energy, mass and
charge. -/
structure Physical (mat : Material ℝ) (p : Particle ℝ) : Prop where
  target : ∀ Zb ∈ mat.Z, 0 < Zb
  E : 0 < p.E
  m : 0 < p.m
  Z : 0 < p.Z

/-- The modes of Lindhard-Scharff type. -/
def LowEnergy (mode : ElectronicStoppingMode) : Prop := mode ≠ .INTERPOLATED

/-- **C34, positive.** For physical inputs and a positive correction factor there is one cross
section per species with a density, and every one is positive. -/
theorem C34_positive (mat : Material ℝ) (p : Particle ℝ) (mode : ElectronicStoppingMode) (ck : ℝ)
    (ns : List ℝ) (h : Physical mat p) (hck : 0 < ck)
    (hgk : mat.geometry.get_ck p.pos.x p.pos.y p.pos.y = .ok ck)
    (hgd : mat.geometry.get_densities p.pos.x p.pos.y p.pos.y = .ok ns) :
    ∃ S, mat.electronic_stopping_cross_sections p mode = .ok S ∧
      S.length = min ns.length mat.Z.length ∧ ∀ s ∈ S, 0 < s := by
  unfold Material.electronic_stopping_cross_sections Material.electronic_stopping_correction_factor
    Material.number_densities
  simp only [hgk, hgd, bind, Except.bind, pure, Except.pure, Except.ok.injEq, exists_eq_left']
  refine ⟨by simp, fun s hs => ?_⟩
  obtain ⟨⟨n, Zb⟩, hm, rfl⟩ := List.mem_map.mp hs
  have hb := h.target Zb (List.of_mem_zip hm).2
  have h1 := S_high_pos h.E h.m h.Z hb
  have h2 := S_low_pos h.E h.m h.Z hb
  have h10 : (1.0 : ℝ) = 1 := by norm_num
  cases mode <;> simp only [Material.stopping_power, h10]
  case INTERPOLATED =>
    exact one_div_pos.mpr (add_pos (one_div_pos.mpr h1) (mul_pos (one_div_pos.mpr h2) hck))
  all_goals exact mul_pos h2 hck

/-- **C34, order (partial).** The low-energy modes give the Lindhard-Scharff cross section times the
correction factor. The interpolated cross section is below the Bethe-like one, and below
the Lindhard-Scharff one divided by the correction factor, hence below both whenever the factor
is at least 1. Missing: correction factors below 1, see `C34_refuted`. -/
theorem C34_order_partial (mat : Material ℝ) (p : Particle ℝ) (mode : ElectronicStoppingMode)
    (ck : ℝ) (ns : List ℝ) (h : Physical mat p) (hck : 0 < ck)
    (hgk : mat.geometry.get_ck p.pos.x p.pos.y p.pos.y = .ok ck)
    (hgd : mat.geometry.get_densities p.pos.x p.pos.y p.pos.y = .ok ns)
    (i : Nat) (Zb s : ℝ) (S : List ℝ) (hi : i < ns.length) (hZ : mat.Z[i]? = some Zb)
    (run : mat.electronic_stopping_cross_sections p mode = .ok S) (hs : S[i]? = some s) :
    (LowEnergy mode → s = ck*Material.S_low p.E p.m p.Z Zb) ∧
    (mode = .INTERPOLATED → s < Material.S_high p.E p.m p.Z Zb ∧
      s < Material.S_low p.E p.m p.Z Zb/ck ∧ (1 ≤ ck → s < Material.S_low p.E p.m p.Z Zb)) := by
  unfold Material.electronic_stopping_cross_sections Material.electronic_stopping_correction_factor
    Material.number_densities at run
  simp only [hgk, hgd, bind, Except.bind, pure, Except.pure, Except.ok.injEq] at run
  subst run
  have hb := h.target Zb (List.mem_of_getElem? hZ)
  have h1 := S_high_pos h.E h.m h.Z hb
  have h2 := S_low_pos h.E h.m h.Z hb
  have h10 : (1.0 : ℝ) = 1 := by norm_num
  have hz : (ns.zip mat.Z)[i]? = some (ns[i], Zb) := by
    rw [List.getElem?_zip_eq_some]
    exact ⟨List.getElem?_eq_getElem hi, hZ⟩
  rw [List.getElem?_map, hz] at hs
  simp only [Option.map_some, Option.some.injEq] at hs
  subst hs
  constructor
  · intro hm
    cases mode <;> simp only [Material.stopping_power, mul_comm]
    exact absurd rfl hm
  · rintro rfl
    simp only [Material.stopping_power, h10]
    generalize Material.S_high p.E p.m p.Z Zb = H at h1 ⊢
    generalize Material.S_low p.E p.m p.Z Zb = L at h2 ⊢
    have hlt : 1/(1/H + 1/L*ck) < L/ck := by
      rw [div_lt_div_iff₀ (by positivity) hck]
      have : L*(1/H + 1/L*ck) = L/H + ck := by field_simp
      rw [this]
      have : 0 < L/H := by positivity
      linarith
    refine ⟨?_, hlt, fun hc => lt_of_lt_of_le hlt ?_⟩
    · rw [div_lt_iff₀ (by positivity)]
      have : H*(1/H + 1/L*ck) = 1 + H/L*ck := by field_simp
      rw [this]
      have : 0 < H/L*ck := by positivity
      linarith
    · rw [div_le_iff₀ hck]; nlinarith

/-- **C34 is false of the code for correction factors below 1.** A hydrogen target and projectile,
correction factor 1/2, and an energy for which the interpolated cross section exceeds the
Lindhard-Scharff one (which the correction factor was meant to halve). -/
theorem C34_refuted : ∃ (mat : Material ℝ) (p : Particle ℝ) (s : ℝ), Physical mat p ∧
    mat.Z = [1] ∧ mat.geometry.get_ck p.pos.x p.pos.y p.pos.y = .ok (1/2) ∧
    mat.electronic_stopping_cross_sections p .INTERPOLATED = .ok [s] ∧
    Material.S_low p.E p.m p.Z 1 < s := by
  have hB := bethe_pos
  have hK := scharff_pos
  have hA := AMU_pos
  have hQ := Q_pos
  obtain ⟨K, hKd⟩ : ∃ K, K = LINDHARD_SCHARFF_PREFACTOR ℝ*((1:ℝ) ^ ((7.0 : ℝ)/6.0)*1)/
    ((1:ℝ) ^ ((2.0 : ℝ)/3.0) + (1:ℝ) ^ ((2.0 : ℝ)/3.0)) ^ ((3.0 : ℝ)/2.0) := ⟨_, rfl⟩
  have hK0 : 0 < K := by
    rw [hKd]
    have h4 : 0 < ((1:ℝ) ^ ((2.0 : ℝ)/3.0) + (1:ℝ) ^ ((2.0 : ℝ)/3.0)) ^ ((3.0 : ℝ)/2.0) := by
      refine Real.rpow_pos_of_pos ?_ _
      rw [Real.one_rpow]; norm_num
    refine div_pos (mul_pos hK ?_) h4
    rw [Real.one_rpow]; norm_num
  let E : ℝ := (BETHE_BLOCH_PREFACTOR ℝ/(4*K))^2*Q ℝ/AMU ℝ
  have hE : 0 < E := by positivity
  let geom : Geom ℝ := (⟨[1], [1], 1/2, 1⟩ : Mesh0D ℝ).toGeom
  let mat : Material ℝ := ⟨[1], [1], [0], [0], [0], [0], [0], geom, .INDIVIDUAL, .INDIVIDUAL⟩
  let p : Particle ℝ := { (Particle.new 1 1 1 0 0 0 0 0 0 1 0 0 true false 0 : Particle ℝ) with
    E := E }
  have hph : Physical mat p := ⟨by simp [mat], hE, by simp [p, Particle.new],
    by simp [p, Particle.new]⟩
  have hlow : Material.S_low E 1 1 1 = BETHE_BLOCH_PREFACTOR ℝ/4 := by
    unfold Material.S_low
    simp only [powf_real, sqrt_real]
    rw [← hKd]
    have : E/Q ℝ/1*AMU ℝ = (BETHE_BLOCH_PREFACTOR ℝ/(4*K))^2 := by
      simp only [E]; field_simp
    rw [this, Real.sqrt_sq (by positivity)]
    field_simp
  have hhigh : BETHE_BLOCH_PREFACTOR ℝ ≤ Material.S_high E 1 1 1 := by
    obtain ⟨L, hL, hle, h3⟩ := S_high_ge hE (one_pos) (one_pos) (one_pos : (0:ℝ) < 1)
    have h3 := h3 (by norm_num)
    have hs : Real.sqrt (100*1/1) = 10 := by
      rw [show (100*1/1 : ℝ) = 10^2 by norm_num]; exact Real.sqrt_sq (by norm_num)
    rw [hs] at h3
    have : 1 ≤ Real.log L := by
      rw [Real.le_log_iff_exp_le (by linarith)]
      linarith [Real.exp_one_lt_d9]
    calc BETHE_BLOCH_PREFACTOR ℝ ≤ BETHE_BLOCH_PREFACTOR ℝ*1*1*1*Real.log L := by nlinarith
      _ ≤ _ := hle
  have h10 : (1.0 : ℝ) = 1 := by norm_num
  refine ⟨mat, p, _, hph, rfl, rfl, rfl, ?_⟩
  show Material.S_low E 1 1 1 < Material.stopping_power .INTERPOLATED (1/2)
    (Material.S_high E 1 1 1) (Material.S_low E 1 1 1)
  simp only [Material.stopping_power, h10]
  rw [hlow]
  have hp := S_high_pos hE (one_pos) (one_pos) (one_pos : (0:ℝ) < 1)
  rw [lt_div_iff₀ (by positivity)]
  have : BETHE_BLOCH_PREFACTOR ℝ/4*(1/Material.S_high E 1 1 1
      + 1/(BETHE_BLOCH_PREFACTOR ℝ/4)*(1/2))
      = BETHE_BLOCH_PREFACTOR ℝ/Material.S_high E 1 1 1/4 + 1/2 := by field_simp
  rw [this]
  have : BETHE_BLOCH_PREFACTOR ℝ/Material.S_high E 1 1 1 ≤ 1 := by
    rw [div_le_one hp]; exact hhigh
  linarith

/-- The Lindhard-Scharff cross section is proportional to the velocity: four times the energy,
twice the cross section; and it is symmetric in nothing else but linear in the square root. -/
theorem C34_velocity_proportional (E Ma Za Zb k : ℝ) (hk : 0 ≤ k) :
    Material.S_low (k^2*E) Ma Za Zb = k*Material.S_low E Ma Za Zb := by
  unfold Material.S_low
  simp only [sqrt_real]
  have : k^2*E/Q ℝ/Ma*AMU ℝ = k^2*(E/Q ℝ/Ma*AMU ℝ) := by ring
  rw [this, Real.sqrt_mul (sq_nonneg k), Real.sqrt_sq hk]
  ring

/-! ## C32: the energy lost -/

section
variable {F : Type} [Scalar F]

/-- **C32, outside.** For every scalar: outside the material nothing is lost and nothing changes. -/
theorem C32_outside (p q : Particle F) (mat : Material F) (d x0 sz loss : F) (si : Nat)
    (o : Options F) (hin : mat.geometry.inside p.pos.x p.pos.y p.pos.z = .ok false)
    (run : subtract_electronic_stopping_energy p mat d x0 sz si o = .ok (q, loss)) :
    q = p ∧ loss = 0.0 := by
  have h : RSat (subtract_electronic_stopping_energy p mat d x0 sz si o)
      (fun r => r.1 = p ∧ r.2 = 0.0) (fun _ => True) := by
    unfold subtract_electronic_stopping_energy Material.inside
    simp [hin]
  have := rsat_of_ok h run
  exact this

/-- What stopping does inside the material. -/
theorem stopping_inside (p : Particle F) (mat : Material F) (d x0 sz : F) (si : Nat)
    (o : Options F) :
    RSat (subtract_electronic_stopping_energy p mat d x0 sz si o)
      (fun r => isNaN p.E = false ∧ ((mat.geometry.inside p.pos.x p.pos.y p.pos.z = .ok false ∧
          r = (p, 0.0)) ∨
        (mat.geometry.inside p.pos.x p.pos.y p.pos.z = .ok true ∧
          isNaN (p.E + -r.2) = false ∧
          r.1 = { p with E := if (p.E + -r.2) <. 0.0 then 0.0 else p.E + -r.2 })))
      (fun _ => True) := by
  unfold subtract_electronic_stopping_energy Material.inside
  simp only [rsat_bind, rsat_assert, implies_true, and_true]
  intro hn
  refine rsat_mono (rsat_eq _) (fun b hb => ?_) (fun _ _ => trivial)
  cases b
  · simp [hb]; simpa using hn
  · simp only [if_true, rsat_bind]
    refine rsat_mono (rsat_trivial _) (fun row _ => ?_) (fun _ _ => trivial)
    refine rsat_mono (rsat_trivial _) (fun ti _ => ?_) (fun _ _ => trivial)
    refine rsat_mono (rsat_trivial _) (fun V _ => ?_) (fun _ _ => trivial)
    refine rsat_mono (rsat_trivial _) (fun S _ => ?_) (fun _ _ => trivial)
    refine rsat_mono (rsat_trivial _) (fun n _ => ?_) (fun _ _ => trivial)
    refine rsat_mono (rsat_trivial _) (fun loss _ => ?_) (fun _ _ => trivial)
    simp only [rsat_assert, rsat_pure, implies_true, and_true]
    intro h2
    exact ⟨by simpa using hn, Or.inr ⟨hb, by simpa using h2⟩⟩

/-- **C32, never negative.** For every scalar with IEEE comparisons: inside the material the energy
left is not below zero, and nothing but the energy changes. -/
theorem C32_not_negative [ScalarOrd F] (p q : Particle F) (mat : Material F) (d x0 sz loss : F)
    (si : Nat) (o : Options F) (hin : mat.geometry.inside p.pos.x p.pos.y p.pos.z = .ok true)
    (run : subtract_electronic_stopping_energy p mat d x0 sz si o = .ok (q, loss)) :
    (q.E <. 0.0) = false ∧ q = { p with E := q.E } := by
  have h := (rsat_of_ok (stopping_inside p mat d x0 sz si o) run).2
  rcases h with ⟨h, _⟩ | ⟨_, _, h⟩
  · rw [hin] at h; cases h
  · simp only at h
    subst h
    refine ⟨?_, rfl⟩
    simp only
    split
    · exact ScalarOrd.lt_irrefl _
    · rename_i h; simpa using h

/-- **C32, no NaN.** For every scalar in which 0 is not NaN: a run that does not fail starts from and
returns an energy that is not NaN. -/
theorem C32_no_nan (p q : Particle F) (mat : Material F) (d x0 sz loss : F) (si : Nat)
    (o : Options F) (h0 : isNaN (0.0 : F) = false)
    (run : subtract_electronic_stopping_energy p mat d x0 sz si o = .ok (q, loss)) :
    isNaN p.E = false ∧ isNaN q.E = false := by
  obtain ⟨h1, h⟩ := rsat_of_ok (stopping_inside p mat d x0 sz si o) run
  refine ⟨h1, ?_⟩
  rcases h with ⟨_, h⟩ | ⟨_, hn, h⟩
  · cases h; exact h1
  · simp only at h hn
    subst h
    simp only
    split
    · exact h0
    · exact hn

end

theorem bragg_nonneg (S n : List ℝ) (hS : ∀ s ∈ S, 0 ≤ s) (hn : ∀ s ∈ n, 0 ≤ s) :
    0 ≤ bragg_sum S n := by
  unfold bragg_sum
  rw [fsum_real]
  refine List.sum_nonneg fun x hx => ?_
  obtain ⟨⟨a, b⟩, hm, rfl⟩ := List.mem_map.mp hx
  exact mul_nonneg (hS a (List.of_mem_zip hm).1) (hn b (List.of_mem_zip hm).2)

theorem oen_nonneg (Za Zb Se x0 : ℝ) (V : InteractionPotential ℝ) (h : 0 ≤ Se) :
    0 ≤ oen_robinson_loss Za Zb Se x0 V := by
  unfold oen_robinson_loss
  simp only [exp_real, pi_real]
  have hp := Real.pi_pos
  have h2 : (0:ℝ) < 2.0 := by norm_num
  rw [div_div _ (screening_length Za Zb V)]
  refine div_nonneg ?_ (mul_self_nonneg _)
  have := mul_self_nonneg (first_screening_radius V)
  positivity

/-- **C32.** For physical inputs, non-negative densities and a non-negative distance: inside the
material the energy becomes `max 0 (E - loss)` with a loss that is not negative; so it does not grow
and is not negative. In all modes. -/
theorem C32_only_removes (p q : Particle ℝ) (mat : Material ℝ) (d x0 sz loss ck : ℝ) (si : Nat)
    (o : Options ℝ) (ns ns' : List ℝ) (hph : Physical mat p) (hck : 0 < ck) (hd : 0 ≤ d)
    (hin : mat.geometry.inside p.pos.x p.pos.y p.pos.z = .ok true)
    (hgk : mat.geometry.get_ck p.pos.x p.pos.y p.pos.y = .ok ck)
    (hgd : mat.geometry.get_densities p.pos.x p.pos.y p.pos.y = .ok ns')
    (hns : mat.geometry.get_densities p.pos.x p.pos.y p.pos.z = .ok ns) (hnn : ∀ n ∈ ns, 0 ≤ n)
    (run : subtract_electronic_stopping_energy p mat d x0 sz si o = .ok (q, loss)) :
    0 ≤ loss ∧ q = { p with E := max 0 (p.E - loss) } ∧ 0 ≤ q.E ∧ q.E ≤ p.E := by
  obtain ⟨S, hS, _, hSp⟩ := C34_positive mat p o.electronic_stopping_mode ck ns' hph hck hgk hgd
  have hloss : 0 ≤ loss := by
    have h : RSat (subtract_electronic_stopping_energy p mat d x0 sz si o)
        (fun r => 0 ≤ r.2) (fun _ => True) := by
      have hSn : ∀ s ∈ S, 0 ≤ s := fun s hs => (hSp s hs).le
      have hb := mul_nonneg (bragg_nonneg S ns hSn hnn) hd
      unfold subtract_electronic_stopping_energy Material.inside
      simp only [rsat_bind, rsat_assert, implies_true, and_true, hin, rsat_ok, if_true, hS,
        Material.number_densities, hns]
      intro _
      refine rsat_mono (rsat_trivial _) (fun row _ => ?_) (fun _ _ => trivial)
      refine rsat_mono (rsat_trivial _) (fun ti _ => ?_) (fun _ _ => trivial)
      refine rsat_mono (rsat_trivial _) (fun V _ => ?_) (fun _ _ => trivial)
      cases hm : o.electronic_stopping_mode <;>
        simp only [rsat_bind, rsat_pure, rsat_vget, implies_true, and_true]
      · intro _; exact hb
      · intro se hse _
        exact oen_nonneg _ _ _ _ _ (hSn se (List.mem_of_getElem? hse))
      · intro _; exact hb
      · intro se hse _
        have := oen_nonneg p.Z sz se x0 V (hSn se (List.mem_of_getElem? hse))
        have h5 : (0:ℝ) < 0.5 := by norm_num
        nlinarith
    have := rsat_of_ok h run
    exact this
  have h := (rsat_of_ok (stopping_inside p mat d x0 sz si o) run).2
  have hq : q = { p with E := max 0 (p.E - loss) } := by
    rcases h with ⟨h, _⟩ | ⟨_, _, h⟩
    · rw [hin] at h; cases h
    · simp only at h
      rw [h]
      have h0 : (0.0 : ℝ) = 0 := by norm_num
      congr 1
      rw [h0, ← sub_eq_add_neg]
      by_cases hc : p.E - loss < 0
      · rw [if_pos (by simpa using hc), max_eq_left hc.le]
      · rw [if_neg (by simpa using hc), max_eq_right (not_lt.mp hc)]
  refine ⟨hloss, hq, ?_, ?_⟩
  · rw [hq]; exact le_max_left _ _
  · rw [hq]; exact max_le hph.E.le (by linarith)

end RustBCA
