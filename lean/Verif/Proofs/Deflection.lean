import Verif.Spec.Deflection
import Verif.Proofs.Quadrature

/-!
# The scattering integral after the substitution `r = r0/cos t` (helper lemmas)
-/

namespace RustBCA
open Filter Topology MeasureTheory Spec

/-- The integrand after the substitution. -/
noncomputable def gmIntegrand (U : ℝ → ℝ) (E p r0 t : ℝ) : ℝ :=
  Real.sin t/Real.sqrt (radial U E p (r0/Real.cos t))

theorem cos_pos_of {t : ℝ} (h : t ∈ Set.Ioo 0 (Real.pi/2)) : 0 < Real.cos t :=
  Real.cos_pos_of_mem_Ioo ⟨by have := h.1; have := Real.pi_pos; linarith, h.2⟩

theorem sin_pos_of {t : ℝ} (h : t ∈ Set.Ioo 0 (Real.pi/2)) : 0 < Real.sin t :=
  Real.sin_pos_of_pos_of_lt_pi h.1 (by have := h.2; have := Real.pi_pos; linarith)

theorem cos_lt_one_of {t : ℝ} (h : t ∈ Set.Ioo 0 (Real.pi/2)) : Real.cos t < 1 := by
  have h1 := Real.sin_sq_add_cos_sq t
  have h2 := sin_pos_of h
  have h3 := cos_pos_of h
  nlinarith

theorem beyond_of {r0 t : ℝ} (hr : 0 < r0) (h : t ∈ Set.Ioo 0 (Real.pi/2)) : r0 < r0/Real.cos t := by
  rw [lt_div_iff₀ (cos_pos_of h)]
  have := cos_lt_one_of h
  nlinarith

variable {U : ℝ → ℝ} {E p r0 : ℝ}

theorem radial_continuousOn (h : ClosestApproach U E p r0) :
    ContinuousOn (radial U E p) (Set.Ici r0) := by
  unfold radial
  refine (continuousOn_const.sub (h.continuous.div_const E)).sub
    (continuousOn_const.div (continuousOn_id.pow 2) fun r hr => ?_)
  have : 0 < r := lt_of_lt_of_le h.pos hr
  exact pow_ne_zero 2 this.ne'

theorem integrand_continuousOn (h : ClosestApproach U E p r0) :
    ContinuousOn (gmIntegrand U E p r0) (Set.Ioo 0 (Real.pi/2)) := by
  unfold gmIntegrand
  refine Real.continuous_sin.continuousOn.div (Real.continuous_sqrt.comp_continuousOn ?_) ?_
  · refine (radial_continuousOn h).comp
      (continuousOn_const.div Real.continuous_cos.continuousOn fun t ht => (cos_pos_of ht).ne') ?_
    intro t ht
    exact (beyond_of h.pos ht).le
  · intro t ht
    exact (Real.sqrt_pos.2 (h.beyond _ (beyond_of h.pos ht))).ne'

/-- at the outer end (`r → ∞`) the integrand tends to 1 -/
theorem integrand_right (h : ClosestApproach U E p r0) :
    Tendsto (gmIntegrand U E p r0) (𝓝[<] (Real.pi/2)) (𝓝 1) := by
  have hc : Tendsto Real.cos (𝓝[<] (Real.pi/2)) (𝓝[>] 0) := by
    rw [tendsto_nhdsWithin_iff]
    constructor
    · have := Real.continuous_cos.tendsto (Real.pi/2)
      rw [Real.cos_pi_div_two] at this
      exact this.mono_left nhdsWithin_le_nhds
    · filter_upwards [Ioo_mem_nhdsLT (show (0:ℝ) < Real.pi/2 by positivity)] with t ht
      exact cos_pos_of ht
  have hr : Tendsto (fun t => r0/Real.cos t) (𝓝[<] (Real.pi/2)) atTop := by
    simp only [div_eq_mul_inv]
    exact (tendsto_inv_nhdsGT_zero.comp hc).const_mul_atTop h.pos
  have hrad : Tendsto (radial U E p) atTop (𝓝 1) := by
    have h1 := h.vanishes.div_const E
    have h2 : Tendsto (fun r : ℝ => p^2/r^2) atTop (𝓝 0) :=
      tendsto_const_nhds.div_atTop (tendsto_pow_atTop two_ne_zero)
    have := (h1.const_sub 1).sub h2
    simp only [zero_div, sub_zero] at this
    exact this
  have h3 := (Real.continuous_sqrt.tendsto 1).comp (hrad.comp hr)
  have h4 := (Real.continuous_sin.tendsto (Real.pi/2)).mono_left
    (nhdsWithin_le_nhds (s := Set.Iio (Real.pi/2)))
  rw [Real.sin_pi_div_two] at h4
  rw [Real.sqrt_one] at h3
  have := h4.div h3 one_ne_zero
  rw [div_one] at this
  exact this

/-- at the turning point it tends to a finite value too -/
theorem integrand_left_eq (h : ClosestApproach U E p r0) (d : ℝ) (hd : 0 < d)
    (hder : HasDerivAt (radial U E p) d r0) :
    Tendsto (gmIntegrand U E p r0) (𝓝[>] 0) (𝓝 (Real.sqrt (2/(d*r0)))) := by
  -- difference quotient of `radial` at `r0`
  have hq : Tendsto (fun r => radial U E p r/(r - r0)) (𝓝[>] r0) (𝓝 d) := by
    have := hasDerivAt_iff_tendsto_slope.1 hder
    have h2 := this.mono_left (nhdsWithin_mono r0 (fun r (hr : r0 < r) => hr.ne'))
    refine h2.congr fun r => ?_
    rw [slope_def_field, h.zero, sub_zero]
  have hr : Tendsto (fun t => r0/Real.cos t) (𝓝[>] (0:ℝ)) (𝓝[>] r0) := by
    rw [tendsto_nhdsWithin_iff]
    constructor
    · have := (tendsto_const_nhds (x := r0)).div (Real.continuous_cos.tendsto 0)
        (by rw [Real.cos_zero]; exact one_ne_zero)
      rw [Real.cos_zero, div_one] at this
      exact this.mono_left nhdsWithin_le_nhds
    · filter_upwards [Ioo_mem_nhdsGT (show (0:ℝ) < Real.pi/2 by positivity)] with t ht
      exact beyond_of h.pos ht
  have h1 := hq.comp hr
  -- (1 + cos t) cos t / r0 → 2/r0
  have h2 : Tendsto (fun t => (1 + Real.cos t)*Real.cos t/r0) (𝓝[>] (0:ℝ)) (𝓝 (2/r0)) := by
    have : ContinuousAt (fun t => (1 + Real.cos t)*Real.cos t/r0) 0 := by fun_prop
    have := this.tendsto.mono_left (nhdsWithin_le_nhds (s := Set.Ioi 0))
    simp only [Real.cos_zero] at this
    norm_num at this
    exact this
  have h3 := (h2.div h1 hd.ne')
  have h4 := (Real.continuous_sqrt.tendsto _).comp h3
  have e : 2/r0/d = 2/(d*r0) := by rw [div_div, mul_comm]
  rw [e] at h4
  refine h4.congr' ?_
  filter_upwards [Ioo_mem_nhdsGT (show (0:ℝ) < Real.pi/2 by positivity)] with t ht
  simp only [Function.comp, Pi.div_apply]
  unfold gmIntegrand
  have hc := cos_pos_of ht
  have hs := sin_pos_of ht
  have hR := h.beyond _ (beyond_of h.pos ht)
  have hc1 := cos_lt_one_of ht
  have hr0 := h.pos
  have e2 : (1 + Real.cos t)*Real.cos t/r0/(radial U E p (r0/Real.cos t)/(r0/Real.cos t - r0))
      = Real.sin t^2/radial U E p (r0/Real.cos t) := by
    have hs2 : Real.sin t^2 = (1 - Real.cos t)*(1 + Real.cos t) := by
      rw [Real.sin_sq]; ring
    rw [hs2]
    generalize radial U E p (r0/Real.cos t) = R at hR ⊢
    have e3 : r0/Real.cos t - r0 = r0*(1 - Real.cos t)/Real.cos t := by field_simp
    rw [e3]
    have : 1 - Real.cos t ≠ 0 := by linarith
    field_simp
  rw [e2, Real.sqrt_div (sq_nonneg _), Real.sqrt_sq hs.le]

/-- The continuous function on `[0, pi/2]` the integrand extends to. -/
theorem integrand_left (h : ClosestApproach U E p r0) :
    ∃ l, Tendsto (gmIntegrand U E p r0) (𝓝[>] 0) (𝓝 l) := by
  obtain ⟨d, hd, hder⟩ := h.simple
  exact ⟨_, integrand_left_eq h d hd hder⟩

theorem integrand_extends (h : ClosestApproach U E p r0) :
    ∃ G, ContinuousOn G (Set.Icc 0 (Real.pi/2)) ∧
      ∀ t ∈ Set.Ioo 0 (Real.pi/2), G t = gmIntegrand U E p r0 t := by
  obtain ⟨l, hl⟩ := integrand_left h
  refine ⟨extendFrom (Set.Ioo 0 (Real.pi/2)) (gmIntegrand U E p r0),
    continuousOn_Icc_extendFrom_Ioo (integrand_continuousOn h) hl
      (integrand_right h), fun t ht => ?_⟩
  have hc : ContinuousAt (gmIntegrand U E p r0) t :=
    (integrand_continuousOn h).continuousAt (isOpen_Ioo.mem_nhds ht)
  refine extendFrom_eq ?_ (hc.tendsto.mono_left nhdsWithin_le_nhds)
  exact subset_closure ht

theorem image_sub (hr : 0 < r0) :
    (fun t => r0/Real.cos t) '' Set.Ioo 0 (Real.pi/2) = Set.Ioi r0 := by
  ext r
  constructor
  · rintro ⟨t, ht, rfl⟩
    exact beyond_of hr ht
  · intro h
    have h' : r0 < r := h
    have hrp : 0 < r := hr.trans h'
    have hlt : r0/r < 1 := (div_lt_one hrp).2 h'
    have hpos : 0 < r0/r := by positivity
    refine ⟨Real.arccos (r0/r), ⟨Real.arccos_pos.2 hlt, Real.arccos_lt_pi_div_two.2 hpos⟩, ?_⟩
    simp only
    rw [Real.cos_arccos (by linarith) hlt.le]
    field_simp

theorem sub_deriv (t : ℝ) (ht : t ∈ Set.Ioo 0 (Real.pi/2)) :
    HasDerivWithinAt (fun t => r0/Real.cos t) (r0*Real.sin t/Real.cos t^2) (Set.Ioo 0 (Real.pi/2)) t
    := by
  have := ((hasDerivAt_const t r0).div (Real.hasDerivAt_cos t) (cos_pos_of ht).ne').hasDerivWithinAt
    (s := Set.Ioo 0 (Real.pi/2))
  have e : (0*Real.cos t - r0*-Real.sin t)/Real.cos t^2 = r0*Real.sin t/Real.cos t^2 := by ring
  rwa [e] at this

theorem sub_inj (hr : 0 < r0) : Set.InjOn (fun t => r0/Real.cos t) (Set.Ioo 0 (Real.pi/2)) := by
  intro s hs t ht he
  have hcs := cos_pos_of hs
  have hct := cos_pos_of ht
  simp only at he
  rw [div_eq_div_iff hcs.ne' hct.ne'] at he
  have : Real.cos s = Real.cos t := by
    have := mul_left_cancel₀ hr.ne' he
    exact this.symm
  exact Real.injOn_cos ⟨hs.1.le, by have := hs.2; have := Real.pi_pos; linarith⟩
    ⟨ht.1.le, by have := ht.2; have := Real.pi_pos; linarith⟩ this

theorem sub_integrand (hr : 0 < r0) (t : ℝ) (ht : t ∈ Set.Ioo 0 (Real.pi/2)) :
    |r0*Real.sin t/Real.cos t^2| • (1/((r0/Real.cos t)^2*Real.sqrt (radial U E p (r0/Real.cos t))))
      = 1/r0*gmIntegrand U E p r0 t := by
  have hc := cos_pos_of ht
  have hs := sin_pos_of ht
  rw [abs_of_pos (by positivity), smul_eq_mul]
  unfold gmIntegrand
  generalize Real.sqrt (radial U E p (r0/Real.cos t)) = R
  by_cases hR : R = 0
  · simp [hR]
  · field_simp

/-- The scattering integral exists, and is the integral of the continuous function. -/
theorem deflection_eq (h : ClosestApproach U E p r0) (G : ℝ → ℝ)
    (hG : ContinuousOn G (Set.Icc 0 (Real.pi/2)))
    (hGe : ∀ t ∈ Set.Ioo 0 (Real.pi/2), G t = gmIntegrand U E p r0 t) :
    IntegrableOn (fun r => 1/(r^2*Real.sqrt (radial U E p r))) (Set.Ioi r0) ∧
    deflection U E p r0 = Real.pi - 2*p/r0*∫ t in (0:ℝ)..(Real.pi/2), G t := by
  have hpi : (0:ℝ) ≤ Real.pi/2 := by positivity
  have hcongr : Set.EqOn (fun t => |r0*Real.sin t/Real.cos t^2| •
      (1/((r0/Real.cos t)^2*Real.sqrt (radial U E p (r0/Real.cos t)))))
      (fun t => 1/r0*G t) (Set.Ioo 0 (Real.pi/2)) := by
    intro t ht
    simp only
    rw [sub_integrand h.pos t ht, hGe t ht]
  have hGi : IntegrableOn (fun t => 1/r0*G t) (Set.Ioo 0 (Real.pi/2)) :=
    ((hG.integrableOn_Icc).mono_set Set.Ioo_subset_Icc_self).const_mul _
  constructor
  · rw [← image_sub h.pos, integrableOn_image_iff_integrableOn_abs_deriv_smul measurableSet_Ioo
      (sub_deriv (r0 := r0)) (sub_inj h.pos)]
    exact hGi.congr_fun hcongr.symm measurableSet_Ioo
  · unfold deflection
    rw [← image_sub h.pos, integral_image_eq_integral_abs_deriv_smul measurableSet_Ioo
      (sub_deriv (r0 := r0)) (sub_inj h.pos), setIntegral_congr_fun measurableSet_Ioo hcongr,
      integral_const_mul, intervalIntegral.integral_of_le hpi,
      ← integral_Ioc_eq_integral_Ioo]
    ring

end RustBCA
