import Verif.Props.TurningPoints
import Verif.Spec.Polynomial

/-!
# C24-C26: Coulomb scattering, polynomial root finding, scattering integrals
-/

set_option linter.unusedVariables false

namespace RustBCA
open Scalar Spec

/-! ## C24 -/

/-- **C24.** For a COULOMB pair the distance of closest approach exists, is positive, and is the
unique positive turning point of the Coulomb energy. -/
theorem C24_coulomb_closest_approach (rcpr : Rcpr ℝ) (p1 p2 : Particle ℝ)
    (g : BinaryCollisionGeometry ℝ) (o : Options ℝ) (row : List (InteractionPotential ℝ))
    (Z1 Z2 : ℝ)
    (hrow : o.interaction_potential[p1.interaction_index]? = some row)
    (hcell : row[p2.interaction_index]? = some (.COULOMB Z1 Z2))
    (hE : 0 < p1.E) (hm1 : 0 < p1.m) (hm2 : 0 < p2.m) (h1 : 0 < Z1) (h2 : 0 < Z2) :
    ∃ x r, distance_of_closest_approach rcpr p1 p2 g o = .ok x ∧
      r = x*screening_length p1.Z p2.Z (.COULOMB Z1 Z2) ∧ 0 < r ∧
      (∀ U, interaction_potential r (screening_length p1.Z p2.Z (.COULOMB Z1 Z2)) p1.Z p2.Z
        (.COULOMB Z1 Z2) = .ok U →
        TurningPoint U (p1.E*p2.m/(p1.m + p2.m)) g.impact_parameter r) ∧
      (∀ s U, 0 < s → interaction_potential s (screening_length p1.Z p2.Z (.COULOMB Z1 Z2))
        p1.Z p2.Z (.COULOMB Z1 Z2) = .ok U →
        TurningPoint U (p1.E*p2.m/(p1.m + p2.m)) g.impact_parameter s → s = r) := by
  set E := p1.E*p2.m/(p1.m + p2.m) with hEdef
  have hE' : 0 < E := by positivity
  set p := g.impact_parameter
  have hpi := Real.pi_pos; have hQ := Q_pos; have he0 := EPS0_pos
  have ha : 0 < screening_length p1.Z p2.Z (.COULOMB Z1 Z2) := by
    simp only [screening_length, powf_real]
    have h0 := A0_pos
    exact div_pos (mul_pos (by norm_num) h0)
      (add_pos (Real.rpow_pos_of_pos h1 _) (Real.rpow_pos_of_pos h2 _))
  have ha2 : screening_length Z1 Z2 (.COULOMB Z1 Z2)
      = screening_length p1.Z p2.Z (.COULOMB Z1 Z2) := rfl
  set a := screening_length p1.Z p2.Z (.COULOMB Z1 Z2)
  set k := Z1*Z2*Q ℝ*Q ℝ with hk
  set c := 8*Real.pi*EPS0 ℝ*E with hc
  have hk0 : 0 < k := by positivity
  have hc0 : 0 < c := by positivity
  set R := Real.sqrt (c^2*p^2 + k^2) with hR
  have hR2 : R^2 = c^2*p^2 + k^2 := Real.sq_sqrt (by positivity)
  have hRnn : 0 ≤ R := Real.sqrt_nonneg _
  have hRpos : 0 < (k + R)/c := by positivity
  have hrun : distance_of_closest_approach rcpr p1 p2 g o = .ok ((k + R)/c/a) := by
    unfold distance_of_closest_approach
    simp only [vget, hrow, hcell, bind, Except.bind, pure, Except.pure, powi_real, sqrt_real,
      pi_real, Except.ok.injEq]
    rw [show (2 : ℤ) = ((2 : ℕ) : ℤ) from rfl, zpow_natCast, zpow_natCast, ha2]
    rw [show (8.0 : ℝ) = 8 by norm_num, show (64.0 : ℝ) = 64 by norm_num]
    have e1 : 64*(p1.E*p2.m/(p1.m + p2.m)*Real.pi*g.impact_parameter*EPS0 ℝ)^2
        + (Z1*Z2*Q ℝ*Q ℝ)^2 = c^2*p^2 + k^2 := by rw [hc, ← hEdef]; ring
    rw [e1, ← hR, ← hEdef, ← hk]
    rw [hc]
    field_simp
  have hcoul : ∀ s, 0 < s → coulomb s Z1 Z2/E = 2*k/(c*s) := by
    intro s hs
    unfold coulomb
    rw [pi_real, show (4.0 : ℝ) = 4 by norm_num, ← hk, hc]
    field_simp
    norm_num
  have hturn : ∀ s, 0 < s → (TurningPoint (coulomb s Z1 Z2) E p s ↔
      (c*s - k)^2 = R^2) := by
    intro s hs
    unfold TurningPoint
    rw [hcoul s hs, hR2]
    have e : 1 - 2*k/(c*s) - p^2/s^2 = ((c*s - k)^2 - (c^2*p^2 + k^2))/(c^2*s^2) := by
      field_simp; ring
    rw [e, div_eq_zero_iff]
    constructor
    · rintro (h | h)
      · linarith
      · exact absurd h (by positivity)
    · intro h; left; linarith
  refine ⟨(k + R)/c/a, (k + R)/c, hrun, by field_simp, hRpos, ?_, ?_⟩
  · intro U hU
    rw [← Except.ok.inj hU, hturn _ hRpos]
    have : c*((k + R)/c) - k = R := by field_simp; ring
    rw [this]
  · intro s U hs hU ht
    rw [← Except.ok.inj hU, hturn _ hs] at ht
    rcases sq_eq_sq_iff_eq_or_eq_neg.mp ht with h | h
    · rw [eq_div_iff hc0.ne']; linarith
    · have hRk : k ≤ R := by
        rw [hR]; apply Real.le_sqrt_of_sq_le; nlinarith [sq_nonneg (c*p)]
      have : c*s ≤ 0 := by linarith
      have := mul_pos hc0 hs
      linarith

/-! ## C25 -/

/-- The inverse-power potentials, with parameters for which they make sense. -/
inductive InversePower : InteractionPotential ℝ → Prop
  | lj (sigma epsilon) : 0 < sigma → InversePower (.LENNARD_JONES_12_6 sigma epsilon)
  | lj65 (sigma epsilon) : 0 < sigma → InversePower (.LENNARD_JONES_65_6 sigma epsilon)
  | four_eight (alpha beta) : 0 ≤ alpha → 0 ≤ beta → InversePower (.FOUR_EIGHT alpha beta)

theorem poly_lj (sigma epsilon E p y : ℝ) (hs : 0 < sigma) (hE : 0 < E) (hy : 0 < y) :
    ∃ cs, polynomial_coefficients E p (.LENNARD_JONES_12_6 sigma epsilon) = .ok cs ∧
      polyValue cs y = y^6*(1 - lennard_jones (Real.sqrt y) sigma epsilon/E
        - p^2/(Real.sqrt y)^2) := by
  refine ⟨_, rfl, ?_⟩
  have hev := EV_pos
  have hq : Real.sqrt y^2 = y := Real.sq_sqrt hy.le
  have hq0 : 0 < Real.sqrt y := Real.sqrt_pos.mpr hy
  have e12 : (12.0 : ℝ) = ((12 : ℕ) : ℝ) := by norm_num
  have e6 : (6.0 : ℝ) = ((6 : ℕ) : ℝ) := by norm_num
  have e2 : (2 : ℤ) = ((2 : ℕ) : ℤ) := rfl
  unfold lennard_jones
  simp only [powf_real, powi_real, polyValue, List.length_cons, List.length_nil]
  rw [e12, e6, e2]
  simp only [Real.rpow_natCast, zpow_natCast, div_pow]
  rw [show Real.sqrt y^12 = y^6 by
      rw [show Real.sqrt y^12 = (Real.sqrt y^2)^6 by ring, hq], show Real.sqrt y^6 = y^3 by
      rw [show Real.sqrt y^6 = (Real.sqrt y^2)^3 by ring, hq], hq,
    show (4.0 : ℝ) = 4 by norm_num, show (1.0 : ℝ) = 1 by norm_num,
    show (0.0 : ℝ) = 0 by norm_num]
  field_simp
  ring

theorem poly_lj65 (sigma epsilon E p y : ℝ) (hs : 0 < sigma) (hE : 0 < E) (hy : 0 < y) :
    ∃ cs, polynomial_coefficients E p (.LENNARD_JONES_65_6 sigma epsilon) = .ok cs ∧
      polyValue cs y = y^13*(1 - lennard_jones_65_6 (y*y) sigma epsilon/E - p^2/(y*y)^2) := by
  refine ⟨_, rfl, ?_⟩
  have hev := EV_pos
  have e6 : (6.0 : ℝ) = ((6 : ℕ) : ℝ) := by norm_num
  have e2 : (2 : ℤ) = ((2 : ℕ) : ℤ) := rfl
  have e65 : (y*y)^(6.5 : ℝ) = y^13 := by
    rw [← pow_two, ← Real.rpow_natCast, ← Real.rpow_mul hy.le]
    rw [show ((2 : ℕ) : ℝ)*6.5 = ((13 : ℕ) : ℝ) by norm_num, Real.rpow_natCast]
  unfold lennard_jones_65_6
  simp only [powf_real, powi_real, polyValue, List.length_cons, List.length_nil]
  rw [e6, e2]
  simp only [Real.rpow_natCast, zpow_natCast, div_pow]
  rw [Real.div_rpow hs.le (by positivity : (0:ℝ) ≤ y*y), e65,
    show (4.0 : ℝ) = 4 by norm_num, show (1.0 : ℝ) = 1 by norm_num,
    show (0.0 : ℝ) = 0 by norm_num]
  generalize sigma^(6.5 : ℝ) = w
  field_simp
  ring

theorem poly_four_eight (alpha beta E p y : ℝ) (ha : 0 ≤ alpha) (hb : 0 ≤ beta) (hE : 0 < E)
    (hy : 0 < y) :
    ∃ cs, polynomial_coefficients E p (.FOUR_EIGHT alpha beta) = .ok cs ∧
      polyValue cs y = y^4*(1 - RustBCA.four_eight (Real.sqrt y*ANGSTROM ℝ) alpha beta/E
        - p^2/(Real.sqrt y*ANGSTROM ℝ)^2) := by
  refine ⟨_, rfl, ?_⟩
  have hA := ANGSTROM_pos
  have hq : Real.sqrt y^2 = y := Real.sq_sqrt hy.le
  have hq0 : 0 < Real.sqrt y := Real.sqrt_pos.mpr hy
  have e4 : (4 : ℤ) = ((4 : ℕ) : ℤ) := rfl
  have e8 : (8 : ℤ) = ((8 : ℕ) : ℤ) := rfl
  have e2 : (2 : ℤ) = ((2 : ℕ) : ℤ) := rfl
  have h4 : (alpha^(1.0/4.0 : ℝ))^4 = alpha := by
    rw [← Real.rpow_natCast, ← Real.rpow_mul ha]; norm_num
  have h8 : (beta^(1.0/8.0 : ℝ))^8 = beta := by
    rw [← Real.rpow_natCast, ← Real.rpow_mul hb]; norm_num
  unfold RustBCA.four_eight
  simp only [powf_real, powi_real, polyValue, List.length_cons, List.length_nil]
  rw [e4, e8, e2]
  simp only [zpow_natCast, div_pow, h4, h8, mul_pow]
  rw [show Real.sqrt y^8 = y^4 by
      rw [show Real.sqrt y^8 = (Real.sqrt y^2)^4 by ring, hq], show Real.sqrt y^4 = y^2 by
      rw [show Real.sqrt y^4 = (Real.sqrt y^2)^2 by ring, hq], hq,
    show (1.0 : ℝ) = 1 by norm_num, show (0.0 : ℝ) = 0 by norm_num]
  field_simp
  ring

/-- **C25.** For the inverse-power potentials: the coefficients exist; `inverse_transform` maps
positive numbers one-to-one and increasingly onto positive distances; and a positive number is a
root of the polynomial exactly when the distance it is mapped to is a turning point. -/
theorem C25_polynomial_roots_are_turning_points (V : InteractionPotential ℝ) (hV : InversePower V)
    (Za Zb E p : ℝ) (hE : 0 < E) :
    ∃ cs T, polynomial_coefficients E p V = .ok cs ∧
      (∀ y, inverse_transform y V = .ok (T y)) ∧
      (∀ y, 0 < y → 0 < T y) ∧ StrictMonoOn T (Set.Ioi 0) ∧ (∀ r, 0 < r → ∃ y, 0 < y ∧ T y = r) ∧
      ∀ y U, 0 < y → interaction_potential (T y) (screening_length Za Zb V) Za Zb V = .ok U →
        (polyValue cs y = 0 ↔ TurningPoint U E p (T y)) := by
  have hA := ANGSTROM_pos
  cases hV with
  | lj sigma epsilon hs =>
    refine ⟨_, Real.sqrt, rfl, fun y => rfl, fun y => Real.sqrt_pos.mpr,
      fun x hx y _ h => Real.sqrt_lt_sqrt (le_of_lt hx) h,
      fun r hr => ⟨r^2, by positivity, Real.sqrt_sq hr.le⟩, fun y U hy hU => ?_⟩
    obtain ⟨cs, h1, h2⟩ := poly_lj sigma epsilon E p y hs hE hy
    rw [← Except.ok.inj hU, Except.ok.inj h1, h2]
    exact zero_iff_turning (by positivity)
  | lj65 sigma epsilon hs =>
    refine ⟨_, fun y => y*y, rfl, fun y => rfl, fun y hy => mul_pos hy hy,
      fun x hx y hy h => mul_self_lt_mul_self (le_of_lt hx) h,
      fun r hr => ⟨Real.sqrt r, Real.sqrt_pos.mpr hr, Real.mul_self_sqrt hr.le⟩,
      fun y U hy hU => ?_⟩
    obtain ⟨cs, h1, h2⟩ := poly_lj65 sigma epsilon E p y hs hE hy
    rw [← Except.ok.inj hU, Except.ok.inj h1, h2]
    exact zero_iff_turning (by positivity)
  | four_eight alpha beta ha hb =>
    refine ⟨_, fun y => Real.sqrt y*ANGSTROM ℝ, rfl, fun y => rfl,
      fun y hy => mul_pos (Real.sqrt_pos.mpr hy) hA,
      fun x hx y hy h => mul_lt_mul_of_pos_right (Real.sqrt_lt_sqrt (le_of_lt hx) h) hA,
      fun r hr => ⟨(r/ANGSTROM ℝ)^2, by positivity, ?_⟩, fun y U hy hU => ?_⟩
    · show Real.sqrt ((r/ANGSTROM ℝ)^2)*ANGSTROM ℝ = r
      rw [Real.sqrt_sq (by positivity)]; field_simp
    · obtain ⟨cs, h1, h2⟩ := poly_four_eight alpha beta E p y ha hb hE hy
      rw [← Except.ok.inj hU, Except.ok.inj h1, h2]
      exact zero_iff_turning (by positivity)

theorem max_root_real (l : List ℝ) (a : ℝ) : max_root (a :: l) = some (l.foldl max a) := by
  unfold max_root
  rw [List.foldl_cons]
  simp only [isNaN_real]
  simp only [Bool.false_eq_true, if_false]
  induction l generalizing a with
  | nil => rfl
  | cons b l ih =>
    rw [List.foldl_cons, List.foldl_cons, ← ih (max a b)]
    congr 1
    by_cases h : a < b
    · simp only [(lt_real a b).mpr h, if_true, max_eq_right h.le]
    · simp only [(lt_real_false a b).mpr (not_lt.mp h), Bool.false_eq_true, if_false,
        max_eq_left (not_lt.mp h)]

theorem foldl_max_mem (l : List ℝ) (a : ℝ) : l.foldl max a ∈ a :: l ∧ ∀ b ∈ a :: l, b ≤ l.foldl max a := by
  induction l generalizing a with
  | nil => simp
  | cons c l ih =>
    obtain ⟨h1, h2⟩ := ih (max a c)
    simp only [List.foldl_cons]
    constructor
    · rcases List.mem_cons.mp h1 with h | h
      · rw [h]
        rcases max_choice a c with h' | h' <;> rw [h'] <;> simp
      · simp [h]
    · intro b hb
      have hm := h2 (max a c) (by simp)
      rcases List.mem_cons.mp hb with rfl | hb
      · exact le_trans (le_max_left _ _) hm
      · rcases List.mem_cons.mp hb with rfl | hb
        · exact le_trans (le_max_right _ _) hm
        · exact h2 b (by simp [hb])

/-- **C25, the root finder.** If the external polynomial solver returns real roots only and misses
no positive one, then `polynomial_rootfinder` returns the outermost turning point (in units of the
screening length), whenever there is a turning point at all. -/
theorem C25_polynomial_rootfinder (rcpr : Rcpr ℝ) (V : InteractionPotential ℝ)
    (hV : InversePower V) (Za Zb Ma Mb E0 p thr : ℝ) (hA : 0 < Za) (hB : 0 < Zb) (hMa : 0 < Ma)
    (hMb : 0 < Mb) (hE : 0 < E0) (U : ℝ → ℝ)
    (hU : ∀ r, interaction_potential r (screening_length Za Zb V) Za Zb V = .ok (U r))
    (roots : List ℝ) (cs : List ℝ)
    (hcs : polynomial_coefficients (E0*Mb/(Ma + Mb)) p V = .ok cs)
    (hroots : rcpr.real_polynomial_roots cs thr = .ok roots)
    (sound : ∀ y ∈ roots, polyValue cs y = 0)
    (complete : ∀ y, 0 < y → polyValue cs y = 0 → y ∈ roots)
    (hex : ∃ r, 0 < r ∧ TurningPoint (U r) (E0*Mb/(Ma + Mb)) p r) :
    ∃ x, polynomial_rootfinder rcpr Za Zb Ma Mb E0 p V thr = .ok (.ok x) ∧
      0 < x*screening_length Za Zb V ∧
      TurningPoint (U (x*screening_length Za Zb V)) (E0*Mb/(Ma + Mb)) p
        (x*screening_length Za Zb V) ∧
      ∀ r, 0 < r → TurningPoint (U r) (E0*Mb/(Ma + Mb)) p r → r ≤ x*screening_length Za Zb V := by
  have hEr : 0 < E0*Mb/(Ma + Mb) := by positivity
  have ha : 0 < screening_length Za Zb V := by
    have h0 := A0_pos
    have h1 : 0 < Real.sqrt Za := Real.sqrt_pos.mpr hA
    have h2 : 0 < Real.sqrt Zb := Real.sqrt_pos.mpr hB
    cases hV <;> simp only [screening_length, powf_real, sqrt_real] <;>
      exact mul_pos (mul_pos (by norm_num) h0) (Real.rpow_pos_of_pos (by linarith) _)
  obtain ⟨cs', T, hcs', hT, hTpos, hmono, hsurj, hiff⟩ :=
    C25_polynomial_roots_are_turning_points V hV Za Zb (E0*Mb/(Ma + Mb)) p hEr
  rw [hcs] at hcs'
  obtain rfl := Except.ok.inj hcs'
  obtain ⟨r1, hr1, ht1⟩ := hex
  obtain ⟨y1, hy1, rfl⟩ := hsurj r1 hr1
  have hy1m := complete y1 hy1 ((hiff y1 _ hy1 (hU _)).mpr ht1)
  cases roots with
  | nil => simp at hy1m
  | cons a l =>
    obtain ⟨hmem, hmax⟩ := foldl_max_mem l a
    set m := l.foldl max a with hm
    have hm0 : 0 < m := lt_of_lt_of_le hy1 (hmax y1 hy1m)
    have hrun : polynomial_rootfinder rcpr Za Zb Ma Mb E0 p V thr
        = .ok (.ok (T m/screening_length Za Zb V)) := by
      unfold polynomial_rootfinder
      simp only [hcs, hroots, unwrapA, bind, Except.bind]
      have : max_root (a :: l) = some m := max_root_real l a
      rw [this]
      simp only [hT, isNaN_real, Bool.false_eq_true, if_false]
      rfl
    have hx : T m/screening_length Za Zb V*screening_length Za Zb V = T m := by field_simp
    refine ⟨_, hrun, ?_, ?_, ?_⟩
    · rw [hx]; exact hTpos m hm0
    · rw [hx]; exact (hiff m _ hm0 (hU _)).mp (sound m hmem)
    · intro r hr ht
      rw [hx]
      obtain ⟨y, hy, rfl⟩ := hsurj r hr
      have hym := hmax y (complete y hy ((hiff y _ hy (hU _)).mpr ht))
      exact hmono.monotoneOn hy hm0 hym

end RustBCA
