import Verif.Props.Potentials
import Verif.Props.Magic

/-!
# C83: the W-W potential between 1.1 and 2.1 Angstrom
-/

namespace RustBCA
open Scalar Spec

theorem tq_deriv_neg (x : ℝ) (h1 : 1.1 ≤ x) (h2 : x ≤ 2.1001) :
    -35969.12431628216 + 2*37392.06756369099*x - 3*19337.48081656593*x^2 + 4*4955.16793802426*x^3
      - 5*502.64585985867*x^4 < 0 := by
  rcases le_total x 1.6 with h | h
  · have a : 0 ≤ x - 1.1 := by linarith
    have b : 0 ≤ 1.6 - x := by linarith
    have k0 : 0 ≤ (1.6 - x)^4 := by positivity
    have k1 : 0 ≤ (x - 1.1)*(1.6 - x)^3 := by positivity
    have k2 : 0 ≤ (x - 1.1)^2*(1.6 - x)^2 := by positivity
    have k3 : 0 ≤ (x - 1.1)^3*(1.6 - x) := by positivity
    have k4 : 0 ≤ (x - 1.1)^4 := by positivity
    nlinarith
  · have a : 0 ≤ x - 1.6 := by linarith
    have b : 0 ≤ 2.1001 - x := by linarith
    have k0 : 0 ≤ (2.1001 - x)^4 := by positivity
    have k1 : 0 ≤ (x - 1.6)*(2.1001 - x)^3 := by positivity
    have k2 : 0 ≤ (x - 1.6)^2*(2.1001 - x)^2 := by positivity
    have k3 : 0 ≤ (x - 1.6)^3*(2.1001 - x) := by positivity
    have k4 : 0 ≤ (x - 1.6)^4 := by positivity
    nlinarith

theorem tq_hasDerivAt (x : ℝ) : HasDerivAt tungstenQuintic (-35969.12431628216 + 2*37392.06756369099*x - 3*19337.48081656593*x^2 + 4*4955.16793802426*x^3
      - 5*502.64585985867*x^4) x := by
  have h1 := (hasDerivAt_id' x)
  have := (((((hasDerivAt_const x (13896.53276380862:ℝ)).fun_sub (h1.const_mul 35969.12431628216)).fun_add ((h1.fun_pow 2).const_mul 37392.06756369099)).fun_sub
    ((h1.fun_pow 3).const_mul 19337.48081656593)).fun_add ((h1.fun_pow 4).const_mul 4955.16793802426)).fun_sub ((h1.fun_pow 5).const_mul 502.64585985867)
  refine HasDerivAt.congr_deriv this ?_
  push_cast
  norm_num
  ring

theorem tq_anti : StrictAntiOn tungstenQuintic (Set.Icc 1.1 2.1001) := by
  refine strictAntiOn_of_deriv_neg (convex_Icc _ _) (fun x _ => (tq_hasDerivAt x).continuousAt.continuousWithinAt) ?_
  intro x hx
  rw [interior_Icc] at hx
  rw [(tq_hasDerivAt x).deriv]
  exact tq_deriv_neg x hx.1.le hx.2.le

theorem tq_end : |tungstenQuintic 2.10004200084 - (tungstenSpline.map fun ad => ad.1*max 0 (ad.2 - 2.10004200084)^3).sum| ≤ 1e-9 := by
  unfold tungstenQuintic
  simp only [tungstenSpline, List.map_cons, List.map_nil, List.sum_cons, List.sum_nil]
  rw [max_eq_right (by norm_num), max_eq_right (by norm_num), max_eq_right (by norm_num), max_eq_right (by norm_num), max_eq_right (by norm_num), max_eq_right (by norm_num), max_eq_right (by norm_num), max_eq_right (by norm_num), max_eq_right (by norm_num)]
  rw [abs_le]
  constructor <;> norm_num
theorem tq_start : 282.02 < tungstenQuintic 1.10002200044 := by unfold tungstenQuintic; norm_num
theorem exp_neg_le (n : ℕ) (t y u : ℝ) (ht : 0 ≤ t) (ht1 : t ≤ 1) (hy : (n:ℝ) + t ≤ y)
    (hu : 0.3678794413^n ≤ u*(1 + t + t^2/2 + t^3/6 + t^4/24)) : Real.exp (-y) ≤ u := by
  have hpos := Real.exp_pos t
  obtain ⟨b1, -⟩ := exp_bounds t ht ht1
  have h1 : Real.exp (-y) ≤ Real.exp (-(n:ℝ))*Real.exp (-t) := by
    rw [← Real.exp_add]
    exact Real.exp_le_exp.2 (by linarith)
  have h2 : Real.exp (-(n:ℝ)) ≤ 0.3678794413^n := by
    rw [show -(n:ℝ) = n*(-1) by ring, Real.exp_nat_mul]
    exact pow_le_pow_left₀ (Real.exp_pos _).le (by linarith [Real.exp_neg_one_lt_d9]) n
  refine h1.trans ?_
  rw [Real.exp_neg t, ← div_eq_mul_inv, div_le_iff₀ hpos]
  have hu0 : 0 ≤ u := by
    by_contra hc
    have : (0:ℝ) < 0.3678794413^n := by positivity
    have : 0 ≤ 1 + t + t^2/2 + t^3/6 + t^4/24 := by positivity
    nlinarith
  exact h2.trans (hu.trans (mul_le_mul_of_nonneg_left b1 hu0))

theorem zbl_start (v : ℝ) (hv : interaction_potential (1.10002200044*ANGSTROM ℝ) (screening_length 74 74 .ZBL) 74 74 .ZBL = .ok v) :
    v ≤ 281.9*EV ℝ := by
  rw [potential_screened .ZBL .zbl] at hv
  have hv' := (Except.ok.inj hv).symm
  have hb : (2.69105:ℝ) ≤ (74:ℝ)^(0.23:ℝ) := by
    have h1 : (2.69105:ℝ)^100 ≤ ((74:ℝ)^(0.23:ℝ))^100 := by
      rw [← Real.rpow_natCast ((74:ℝ)^(0.23:ℝ)), ← Real.rpow_mul (by norm_num),
        show (0.23:ℝ)*((100:ℕ):ℝ) = ((23:ℕ):ℝ) by norm_num, Real.rpow_natCast]
      norm_num
    exact (pow_le_pow_iff_left₀ (by norm_num) (by positivity) (by norm_num)).1 h1
  obtain ⟨b, hbd⟩ : ∃ b, b = (74:ℝ)^(0.23:ℝ) := ⟨_, rfl⟩
  rw [← hbd] at hb
  have hxi : (12.6369:ℝ) ≤ 1.10002200044*ANGSTROM ℝ/screening_length 74 74 (.ZBL : InteractionPotential ℝ) := by
    have e : screening_length 74 74 (.ZBL : InteractionPotential ℝ) = 0.88534*5.29177210903e-11/(b + b) := by
      rw [hbd]; rfl
    rw [e, show ANGSTROM ℝ = 1e-10 from rfl, le_div_iff₀ (by have : 0 < b := by linarith
                                                             positivity),
      ← mul_div_assoc, div_le_iff₀ (by linarith)]
    norm_num
    linarith
  obtain ⟨xi, hx⟩ : ∃ xi, xi = 1.10002200044*ANGSTROM ℝ/screening_length 74 74 (.ZBL : InteractionPotential ℝ) := ⟨_, rfl⟩
  rw [← hx] at hxi hv'
  have a1 := exp_neg_le 2 0.54785 (0.20162*xi) 0.078275 (by norm_num) (by norm_num) (by push_cast; linarith) (by norm_num)
  have a2 := exp_neg_le 5 0.0914 (0.40290*xi) 0.0061500 (by norm_num) (by norm_num) (by push_cast; linarith) (by norm_num)
  have a3 := exp_neg_le 11 0.907 (0.94229*xi) 0.0000068 (by norm_num) (by norm_num) (by push_cast; linarith) (by norm_num)
  have a4 := exp_neg_le 40 0.4 (3.1998*xi) 0.0000001 (by norm_num) (by norm_num) (by push_cast; linarith) (by norm_num)
  have hphi : expsum (screening_terms .ZBL) xi ≤ 0.003932 := by
    simp only [screening_terms, expsum_cons, expsum_nil, neg_mul]
    linarith
  have hpi := Real.pi_gt_d4
  have hpos : 0 ≤ expsum (screening_terms .ZBL) xi := (expsum_pos _ (screening_terms_pos _) (screening_terms_ne _ .zbl) _).le
  rw [hv']
  have e2 : (74:ℝ)*74*Q ℝ*Q ℝ/4/Real.pi/EPS0 ℝ/(1.10002200044*ANGSTROM ℝ) = EV ℝ*(74*74*1.602176634e-19/(4*8.8541878128e-12*1.10002200044e-10)/Real.pi) := by
    unfold EV Q EPS0 ANGSTROM
    field_simp
    norm_num
  have hEV : 0 < EV ℝ := by unfold EV Q; norm_num
  rw [e2, mul_assoc, mul_comm (281.9:ℝ)]
  refine mul_le_mul_of_nonneg_left ?_ hEV.le
  have h1 : (74*74*1.602176634e-19/(4*8.8541878128e-12*1.10002200044e-10)/Real.pi : ℝ) ≤ 71690 := by
    rw [div_le_iff₀ Real.pi_pos]
    norm_num
    linarith
  calc _ ≤ (71690:ℝ)*0.003932 := by gcongr
    _ ≤ _ := by norm_num
/-- the quintic as the code writes it -/
theorem ww_middle (r a Za Zb : ℝ) (h1 : 1.10002200044 < r/ANGSTROM ℝ) (h2 : r/ANGSTROM ℝ ≤ 2.10004200084) :
    interaction_potential r a Za Zb .WW = .ok (EV ℝ*tungstenQuintic (r/ANGSTROM ℝ)) := by
  simp only [interaction_potential, tungsten_tungsten_cubic_spline]
  rw [if_neg (by rw [le_real]; linarith), if_pos ((le_real _ _).2 h2)]
  generalize r/ANGSTROM ℝ = x
  simp only [powi_real, powf_real]
  rw [show (2:ℤ) = ((2:ℕ):ℤ) from rfl, show (3:ℤ) = ((3:ℕ):ℤ) from rfl, zpow_natCast, zpow_natCast,
    show (4.0:ℝ) = ((4:ℕ):ℝ) by norm_num, show (5.0:ℝ) = ((5:ℕ):ℝ) by norm_num, Real.rpow_natCast,
    Real.rpow_natCast]
  unfold tungstenQuintic
  norm_num
  ring

/-- **C83, tungsten in between.** Between 1.1 and 2.1 Angstrom the W-W energy is the published quintic
polynomial (eV); it decreases strictly there, so that the atoms repel each other, and meets the spline
that follows to within `1e-9` eV. -/
theorem C83_tungsten_middle (a Za Zb : ℝ) :
    (∀ r, 1.10002200044 < r/ANGSTROM ℝ → r/ANGSTROM ℝ ≤ 2.10004200084 →
      interaction_potential r a Za Zb .WW = .ok (EV ℝ*tungstenQuintic (r/ANGSTROM ℝ))) ∧
    (∀ r r' u u', 1.10002200044 < r/ANGSTROM ℝ → r < r' → r'/ANGSTROM ℝ ≤ 2.10004200084 →
      interaction_potential r a Za Zb .WW = .ok u → interaction_potential r' a Za Zb .WW = .ok u' →
      u' < u) ∧
    |tungstenQuintic 2.10004200084
      - (tungstenSpline.map fun ad => ad.1*max 0 (ad.2 - 2.10004200084)^3).sum| ≤ 1e-9 := by
  refine ⟨fun r h1 h2 => ww_middle r a Za Zb h1 h2, ?_, tq_end⟩
  intro r r' u u' h1 h2 h3 hu hu'
  have hA := ANGSTROM_pos
  have h4 : r/ANGSTROM ℝ < r'/ANGSTROM ℝ := by gcongr
  rw [ww_middle r a Za Zb h1 (by linarith)] at hu
  rw [ww_middle r' a Za Zb (by linarith) h3] at hu'
  have e := (Except.ok.inj hu).symm
  have e' := (Except.ok.inj hu').symm
  rw [e, e']
  have hEV : 0 < EV ℝ := by unfold EV Q; norm_num
  refine mul_lt_mul_of_pos_left (tq_anti ⟨?_, ?_⟩ ⟨?_, ?_⟩ h4) hEV <;> norm_num at * <;> linarith

/-- **C83, tungsten's jump.** (A finding.) Where ZBL gives way to the quintic, at 1.1 Angstrom, the
W-W energy jumps up by more than 0.1 eV: arbitrarily close distances `r < r'` have energies that differ
by that much, the larger distance having the larger energy. -/
theorem C83_tungsten_jump (a Za Zb : ℝ) : ∃ r u, 0 < r ∧ interaction_potential r a Za Zb .WW = .ok u ∧
    ∀ ε, 0 < ε → ∃ r' u', r < r' ∧ r' < r + ε ∧ interaction_potential r' a Za Zb .WW = .ok u' ∧
      u + 0.1*EV ℝ < u' := by
  have hA := ANGSTROM_pos
  have hEV : 0 < EV ℝ := by unfold EV Q; norm_num
  have hx : 1.10002200044*ANGSTROM ℝ/ANGSTROM ℝ = 1.10002200044 := by field_simp
  obtain ⟨v, hv⟩ : ∃ v, interaction_potential (1.10002200044*ANGSTROM ℝ) (screening_length 74 74 .ZBL)
      74 74 .ZBL = .ok v := ⟨_, potential_screened .ZBL .zbl _ _ _ _⟩
  have hz := zbl_start v hv
  refine ⟨1.10002200044*ANGSTROM ℝ, v, by positivity, ?_, ?_⟩
  · rw [(C83_tungsten _ a Za Zb).1 (by rw [hx]), hv]
  intro ε hε
  have hc := (tq_hasDerivAt 1.10002200044).continuousAt
  have hs := tq_start
  obtain ⟨δ, hδ, hn⟩ := Metric.continuousAt_iff.1 hc (tungstenQuintic 1.10002200044 - 282.02) (by linarith)
  obtain ⟨d, hd⟩ : ∃ d, d = min (min (δ/2) (ε/ANGSTROM ℝ/2)) 0.5 := ⟨_, rfl⟩
  have hd0 : 0 < d := by
    rw [hd]
    exact lt_min (lt_min (by positivity) (by positivity)) (by norm_num)
  have hd1 : d ≤ δ/2 := by rw [hd]; exact (min_le_left _ _).trans (min_le_left _ _)
  have hd2 : d ≤ ε/ANGSTROM ℝ/2 := by rw [hd]; exact (min_le_left _ _).trans (min_le_right _ _)
  have hd3 : d ≤ 0.5 := by rw [hd]; exact min_le_right _ _
  have hx' : (1.10002200044 + d)*ANGSTROM ℝ/ANGSTROM ℝ = 1.10002200044 + d := by field_simp
  refine ⟨(1.10002200044 + d)*ANGSTROM ℝ, _, ?_, ?_, ww_middle _ a Za Zb ?_ ?_, ?_⟩
  · gcongr; linarith
  · have : d*ANGSTROM ℝ < ε := by
      have h1 := mul_le_mul_of_nonneg_right hd2 hA.le
      have h2 : ε/ANGSTROM ℝ/2*ANGSTROM ℝ = ε/2 := by field_simp
      rw [h2] at h1
      linarith
    rw [add_mul]
    linarith
  · rw [hx']; linarith
  · rw [hx']; norm_num at *; linarith
  · rw [hx']
    have h3 := hn (x := 1.10002200044 + d) (by
      rw [Real.dist_eq, add_sub_cancel_left, abs_of_pos hd0]; linarith)
    rw [Real.dist_eq] at h3
    have h4 := (abs_lt.1 h3).1
    have h5 : 282.02 < tungstenQuintic (1.10002200044 + d) := by linarith
    have h6 := mul_lt_mul_of_pos_left h5 hEV
    norm_num at *
    linarith

end RustBCA
