import Verif.Props.Stopping

/-!
# C16, C17: path lengths and impact parameters
-/

set_option linter.unusedSectionVars false
set_option linter.unusedSimpArgs false
set_option linter.unusedVariables false

namespace RustBCA
open Scalar Spec

theorem collect_random {F α : Type} (f : Nat → F → α) : ∀ (n : Nat) (t : Tape F),
    (collectN (fun k => do let r ← random; pure (f k r)) n : M F (List α)) t
      = Except.ok ((List.range n).map (fun k => f k (t k)), fun k => t (n + k)) := by
  intro n
  induction n with
  | zero => intro t; simp [collectN, pure, StateT.pure, Except.pure]
  | succ n ih =>
    intro t
    have h := ih t
    unfold collectN
    simp only [bind, StateT.bind, Except.bind, pure, StateT.pure, Except.pure, random] at h ⊢
    rw [h]
    simp only [List.range_succ, List.map_append, List.map_cons, List.map_nil, Except.ok.injEq,
      Prod.mk.injEq, add_zero]
    refine ⟨trivial, ?_⟩
    funext k
    congr 1; omega

theorem SQRTPI_real : SQRTPI ℝ = Real.sqrt Real.pi := by
  unfold SQRTPI FRAC_2_SQRT_PI
  rw [sqrt_real, pi_real, show (2.0 : ℝ) = 2 by norm_num]
  have : 0 < Real.sqrt Real.pi := Real.sqrt_pos.mpr Real.pi_pos
  field_simp

/-- The interatomic spacing of a material of `n` atoms per unit volume. -/
def IsSpacing (n s : ℝ) : Prop := 0 < s ∧ s^3*n = 1

theorem spacing_exists (n : ℝ) (hn : 0 < n) : IsSpacing n (n ^ ((-1.0 : ℝ)/3.0)) := by
  have h1 : 0 < n ^ ((-1.0 : ℝ)/3.0) := Real.rpow_pos_of_pos hn _
  refine ⟨h1, ?_⟩
  rw [← Real.rpow_natCast, ← Real.rpow_mul hn.le]
  have : (-1.0 : ℝ)/3.0*((3:ℕ):ℝ) = -1 := by norm_num
  rw [this, Real.rpow_neg_one]
  exact inv_mul_cancel₀ hn.ne'

theorem spacing_unique {n s s' : ℝ} (hn : 0 < n) (h : IsSpacing n s) (h' : IsSpacing n s') :
    s = s' := by
  have : s^3 = s'^3 := by
    have := h.2.trans h'.2.symm
    exact mul_right_cancel₀ hn.ne' this
  exact (pow_left_inj₀ h.1.le h'.1.le (by norm_num)).mp this

/-- `u` lies in `[0, 1)`, like every number `rand::random::<f64>()` returns. -/
def UnitInterval (t : Tape ℝ) : Prop := ∀ k, 0 ≤ t k ∧ t k < 1

theorem mfp_eq (mat : Material ℝ) (x y z s : ℝ) (ns : List ℝ)
    (hd : mat.geometry.get_densities x y z = .ok ns) (hn : 0 < ns.sum) (hs : IsSpacing ns.sum s) :
    mat.mfp x y z = .ok s := by
  unfold Material.mfp Material.total_number_density
  rw [hd, spacing_unique hn hs (spacing_exists _ hn)]
  show Except.ok _ = Except.ok _
  rw [fsum_real]; rfl

/-- C16 with the random numbers left over. -/
theorem annuli_rest (p : Particle ℝ) (mat : Material ℝ) (o : Options ℝ) (t : Tape ℝ) (ns : List ℝ)
    (s : ℝ) (hd : mat.geometry.get_densities p.pos.x p.pos.y p.pos.z = .ok ns) (hn : 0 < ns.sum)
    (hs : IsSpacing ns.sum s) (hff : o.high_energy_free_flight_paths = false)
    (hu : UnitInterval t) :
    ∃ gs t', determine_mfp_phi_impact_parameter p mat o t
        = .ok (({ p with first_step := false }, gs), t') ∧
      t' = (fun k => t (2*(o.weak_collision_order + 1) + (if p.first_step then 1 else 0) +
        (if o.mean_free_path_model.isGaseous then 1 else 0) + k)) ∧
      gs.length = o.weak_collision_order + 1 ∧
      (∃ f e, (∀ g ∈ gs, g.mfp = s*f*e) ∧
        (f = if p.first_step then t (2*(o.weak_collision_order + 1)) else 1) ∧
        (e = if o.mean_free_path_model.isGaseous then
          -Real.log (t (2*(o.weak_collision_order + 1) + if p.first_step then 1 else 0)) else 1)) ∧
      ∀ k g, gs[k]? = some g →
        Real.pi*g.impact_parameter^2 = s^2*(t (o.weak_collision_order + 1 + k) + k) ∧
        (∀ pmax, 0 ≤ pmax → Real.pi*pmax^2 = s^2 →
          pmax*Real.sqrt k ≤ g.impact_parameter ∧ g.impact_parameter < pmax*Real.sqrt (k + 1)) ∧
        g.phi_azimuthal = 2*Real.pi*t k ∧ 0 ≤ g.phi_azimuthal ∧ g.phi_azimuthal < 2*Real.pi := by
  obtain ⟨n, hnd⟩ : ∃ n, n = o.weak_collision_order + 1 := ⟨_, rfl⟩
  have hphi : (draw_phis n : M ℝ (List ℝ)) t
      = .ok ((List.range n).map (fun k => 2.0*pi*t k), fun k => t (n + k)) :=
    collect_random (fun _ r => 2.0*pi*r) n t
  have himp := collect_random (fun k r => s/SQRTPI ℝ*Real.sqrt (r + (k : ℝ))) n
    (fun k => t (n + k))
  obtain ⟨path, f, e, t', hrest, hpath, hf, he, hrun⟩ : ∃ path f e t',
      t' = (fun k => t (2*n + (if p.first_step then 1 else 0) +
        (if o.mean_free_path_model.isGaseous then 1 else 0) + k)) ∧ path = s*f*e ∧
      (f = if p.first_step then t (2*n) else 1) ∧
      (e = if o.mean_free_path_model.isGaseous then
        -Real.log (t (2*n + if p.first_step then 1 else 0)) else 1) ∧
      determine_mfp_phi_impact_parameter p mat o t = .ok (({ p with first_step := false },
        (((List.range n).map (fun k => 2.0*pi*t k)).zip
          ((List.range n).map (fun k => s/SQRTPI ℝ*Real.sqrt (t (n + k) + (k : ℝ))))).map
          fun (phi, p) => ⟨phi, p, path⟩), t') := by
    unfold determine_mfp_phi_impact_parameter
    simp only [bind, StateT.bind, Except.bind, liftM, monadLift, MonadLift.monadLift, StateT.lift,
      mfp_eq mat _ _ _ s ns hd hn hs, pure, Except.pure, StateT.pure, ← hnd, hphi, hff,
      Bool.false_eq_true, if_false]
    simp only [bind, StateT.bind, Except.bind, pure, Except.pure, StateT.pure] at himp
    simp only [sqrt_real, ofNat_real, himp]
    have e1 : 2*n = n + n := by omega
    cases hfs : p.first_step <;> cases hg : o.mean_free_path_model.isGaseous
    · refine ⟨s, 1, 1, fun k => t (n + (n + k)), by funext k; congr 1; simp; omega, by ring, rfl, rfl, ?_⟩
      simp only [if_false, Bool.false_eq_true, pure, StateT.pure, Except.pure]
      rw [← hfs]
    · refine ⟨s*-Real.log (t (2*n)), 1, _, fun k => t (n + (n + (k + 1))),
        by funext k; congr 1; simp; omega, ?_, rfl, rfl, ?_⟩
      · simp
      simp only [if_false, Bool.false_eq_true, if_true, exponential, random, bind, StateT.bind,
        Except.bind, pure, StateT.pure, Except.pure, ln_real, add_zero, e1]
      rw [← hfs]
    · refine ⟨s*t (2*n), _, 1, fun k => t (n + (n + (k + 1))),
        by funext k; congr 1; simp; omega, ?_, rfl, rfl, ?_⟩
      · simp
      simp only [if_false, Bool.false_eq_true, if_true, exponential, random, bind, StateT.bind,
        Except.bind, pure, StateT.pure, Except.pure, ln_real, add_zero, e1]
    · refine ⟨s*t (2*n)*-Real.log (t (2*n + 1)), _, _, fun k => t (n + (n + (k + 1 + 1))),
        by funext k; congr 1; simp; omega, ?_, rfl, rfl, ?_⟩
      · simp
      simp only [if_false, Bool.false_eq_true, if_true, exponential, random, bind, StateT.bind,
        Except.bind, pure, StateT.pure, Except.pure, ln_real, add_zero, e1, add_assoc]
  have hpi := Real.pi_pos
  have hsp : 0 < Real.sqrt Real.pi := Real.sqrt_pos.mpr hpi
  have hsp2 : Real.sqrt Real.pi^2 = Real.pi := Real.sq_sqrt hpi.le
  refine ⟨_, t', hrun, by rw [hrest, hnd], by simp [hnd], ⟨f, e, ?_, by rw [← hnd]; exact hf, by rw [← hnd]; exact he⟩,
    ?_⟩
  · intro g hg
    obtain ⟨⟨a, b⟩, _, rfl⟩ := List.mem_map.mp hg
    exact hpath
  · intro k g hg
    have hk : k < n := by
      have := (List.getElem?_eq_some_iff.mp hg).1
      simpa using this
    have hz : (((List.range n).map (fun k => 2.0*pi*t k)).zip
          ((List.range n).map (fun k => s/SQRTPI ℝ*Real.sqrt (t (n + k) + (k : ℝ)))))[k]?
        = some (2.0*pi*t k, s/SQRTPI ℝ*Real.sqrt (t (n + k) + (k : ℝ))) := by
      rw [List.getElem?_zip_eq_some, List.getElem?_map, List.getElem?_map, List.getElem?_range hk]
      exact ⟨rfl, rfl⟩
    rw [List.getElem?_map, hz] at hg
    simp only [Option.map_some, Option.some.injEq] at hg
    subst hg
    simp only [SQRTPI_real, pi_real, ← hnd]
    obtain ⟨h0, h1⟩ := hu (n + k)
    obtain ⟨g0, g1⟩ := hu k
    have hk0 : (0 : ℝ) ≤ (k : ℝ) := Nat.cast_nonneg k
    have h2 : (2.0 : ℝ) = 2 := by norm_num
    rw [h2]
    refine ⟨?_, ?_, rfl, by positivity, ?_⟩
    · rw [mul_pow, div_pow, hsp2, Real.sq_sqrt (by linarith)]
      field_simp
    · intro pmax hp0 hp
      have hpm : pmax = s/Real.sqrt Real.pi := by
        have : pmax^2 = (s/Real.sqrt Real.pi)^2 := by
          rw [div_pow, hsp2, ← hp]; field_simp
        exact (pow_left_inj₀ hp0 (div_nonneg hs.1.le hsp.le) (by norm_num)).mp this
      rw [hpm]
      have hpos : 0 < s/Real.sqrt Real.pi := div_pos hs.1 hsp
      exact ⟨mul_le_mul_of_nonneg_left (Real.sqrt_le_sqrt (by linarith)) hpos.le,
        mul_lt_mul_of_pos_left (Real.sqrt_lt_sqrt (by linarith) (by linarith)) hpos⟩
    · nlinarith

/-- **C16.** Without free-flight paths, in a material of positive density with interatomic spacing
`s`, for random numbers in [0, 1): the call succeeds and gives `weak_collision_order + 1` collision
geometries sharing one path length; the `k`-th impact parameter sweeps the area
`pi p^2 = s^2 (k + u)`, `u` being the random number drawn for it, so it lies in the `k`-th of the
annuli of equal area around the path; its azimuth is `2 pi` times a random number. The path
length is `s`, times a random number for an ion's first step, times an exponential deviate for
GASEOUS. -/
theorem C16_annuli (p : Particle ℝ) (mat : Material ℝ) (o : Options ℝ) (t : Tape ℝ) (ns : List ℝ)
    (s : ℝ) (hd : mat.geometry.get_densities p.pos.x p.pos.y p.pos.z = .ok ns) (hn : 0 < ns.sum)
    (hs : IsSpacing ns.sum s) (hff : o.high_energy_free_flight_paths = false)
    (hu : UnitInterval t) :
    ∃ gs t', determine_mfp_phi_impact_parameter p mat o t
        = .ok (({ p with first_step := false }, gs), t') ∧
      gs.length = o.weak_collision_order + 1 ∧
      (∃ f e, (∀ g ∈ gs, g.mfp = s*f*e) ∧
        (f = if p.first_step then t (2*(o.weak_collision_order + 1)) else 1) ∧
        (e = if o.mean_free_path_model.isGaseous then
          -Real.log (t (2*(o.weak_collision_order + 1) + if p.first_step then 1 else 0)) else 1)) ∧
      ∀ k g, gs[k]? = some g →
        Real.pi*g.impact_parameter^2 = s^2*(t (o.weak_collision_order + 1 + k) + k) ∧
        (∀ pmax, 0 ≤ pmax → Real.pi*pmax^2 = s^2 →
          pmax*Real.sqrt k ≤ g.impact_parameter ∧ g.impact_parameter < pmax*Real.sqrt (k + 1)) ∧
        g.phi_azimuthal = 2*Real.pi*t k ∧ 0 ≤ g.phi_azimuthal ∧ g.phi_azimuthal < 2*Real.pi := by
  obtain ⟨gs, t', h1, -, h2⟩ := annuli_rest p mat o t ns s hd hn hs hff hu
  exact ⟨gs, t', h1, h2⟩

/-! ## C17 -/

/-- The electronic energy loss over a path of length `L`: what the INTERPOLATED stopping model takes
from the particle (number density times cross section, summed over the species, times length). -/
noncomputable def electronicLoss (S ns : List ℝ) (L : ℝ) : ℝ := (List.zipWith (· * ·) S ns).sum*L

theorem bragg_eq (S ns : List ℝ) (L : ℝ) : bragg_sum S ns*L = electronicLoss S ns L := by
  unfold bragg_sum electronicLoss
  rw [fsum_real, List.zip_eq_zipWith, List.map_zipWith]

/-- The data the free-flight path computation reads, all physical: densities, concentrations,
correction factor, cross sections. -/
structure FlightData (mat : Material ℝ) (p : Particle ℝ) (ns cs S : List ℝ) (ck : ℝ) : Prop where
  densities : mat.geometry.get_densities p.pos.x p.pos.y p.pos.z = .ok ns
  total : 0 < ns.sum
  concentrations : mat.geometry.get_concentrations p.pos.x p.pos.y p.pos.z = .ok cs
  conc : Concentrations cs
  factor : mat.geometry.get_ck p.pos.x p.pos.y p.pos.z = .ok ck
  factor_pos : 0 < ck
  stopping : mat.electronic_stopping_cross_sections p .INTERPOLATED = .ok S
  loss_nonneg : 0 ≤ electronicLoss S ns 1
  lengths : cs.length ≤ mat.Z.length ∧ cs.length ≤ mat.m.length
  masses : ∀ m ∈ mat.m, 0 < m
  physical : Physical mat p
  cutoff : 0 < p.Ec

theorem average_pos (cs vs : List ℝ) (hc : Concentrations cs) (hl : cs.length ≤ vs.length)
    (hv : ∀ v ∈ vs, 0 < v) : 0 < average cs vs := by
  obtain ⟨hnn, hsum⟩ := hc
  have key : ∀ (cs vs : List ℝ), (∀ c ∈ cs, 0 ≤ c) → cs.length ≤ vs.length → (∀ v ∈ vs, 0 < v) →
      0 ≤ average cs vs ∧ (0 < cs.sum → 0 < average cs vs) := by
    intro cs
    induction cs with
    | nil => intro vs _ _ _; simp [average]
    | cons c cs ih =>
      intro vs hc hl hv
      cases vs with
      | nil => simp at hl
      | cons v vs =>
        obtain ⟨h1, h2⟩ := ih vs (fun x hx => hc x (by simp [hx])) (by simpa using hl)
          (fun x hx => hv x (by simp [hx]))
        have hv0 := hv v (by simp)
        have hc0 := hc c (by simp)
        simp only [average, List.zipWith_cons_cons, List.sum_cons] at *
        have := mul_nonneg hv0.le hc0
        refine ⟨by linarith, fun h => ?_⟩
        rcases hc0.eq_or_lt with h0 | h0
        · have := h2 (by linarith)
          linarith [mul_nonneg hv0.le hc0]
        · have := mul_pos hv0 h0
          linarith
  exact (key cs vs hnn hl hv).2 (by rw [hsum]; norm_num)

/-- Free-flight limits in closed form. -/
theorem ffp_limits_eq (mat : Material ℝ) (p : Particle ℝ) (ns cs S : List ℝ) (ck : ℝ)
    (h : FlightData mat p ns cs S ck) :
    ∃ pm ep a, 0 < a ∧ 0 < ep ∧ 0 < pm ∧ pm = a/(ep + Real.sqrt ep + 0.125*ep ^ (0.1:ℝ)) ∧
      a = screening_length p.Z (average cs mat.Z) (.MOLIERE : InteractionPotential ℝ) ∧
      ep = Real.sqrt (LINDHARD_REDUCED_ENERGY_PREFACTOR ℝ*a*average cs mat.m
          /(p.m + average cs mat.m)/p.Z/average cs mat.Z*p.E
        *(LINDHARD_REDUCED_ENERGY_PREFACTOR ℝ*a*average cs mat.m
          /(p.m + average cs mat.m)/p.Z/average cs mat.Z
          *(p.Ec*(p.m + average cs mat.m)*(p.m + average cs mat.m)/4.0/p.m/average cs mat.m))) ∧
      ffp_limits p mat = .ok
        (if 0.05*p.E < electronicLoss S ns (1/(ns.sum*pm*pm*Real.pi))*ck then
          (Real.sqrt (1/(ns.sum*Real.pi*(1/(ns.sum*pm*pm*Real.pi)*(0.05*p.E/
            (electronicLoss S ns (1/(ns.sum*pm*pm*Real.pi))*ck))))),
            1/(ns.sum*pm*pm*Real.pi)*(0.05*p.E/
            (electronicLoss S ns (1/(ns.sum*pm*pm*Real.pi))*ck)))
        else (pm, 1/(ns.sum*pm*pm*Real.pi))) := by
  have hZ := average_pos cs mat.Z h.conc h.lengths.1 h.physical.target
  have hM := average_pos cs mat.m h.conc h.lengths.2 h.masses
  have hE := h.physical.E
  have hm := h.physical.m
  have hZa := h.physical.Z
  have hEc := h.cutoff
  have ha := screening_length_pos (.MOLIERE : InteractionPotential ℝ) .moliere hZa hZ
  have hL := lindhard_pos
  have h4 : (0:ℝ) < 4.0 := by norm_num
  obtain ⟨a, haq⟩ : ∃ a, a = screening_length p.Z (average cs mat.Z)
    (.MOLIERE : InteractionPotential ℝ) := ⟨_, rfl⟩
  rw [← haq] at ha
  obtain ⟨ep, hepq⟩ : ∃ ep, ep = Real.sqrt (LINDHARD_REDUCED_ENERGY_PREFACTOR ℝ*a*average cs mat.m
          /(p.m + average cs mat.m)/p.Z/average cs mat.Z*p.E
        *(LINDHARD_REDUCED_ENERGY_PREFACTOR ℝ*a*average cs mat.m
          /(p.m + average cs mat.m)/p.Z/average cs mat.Z
          *(p.Ec*(p.m + average cs mat.m)*(p.m + average cs mat.m)/4.0/p.m/average cs mat.m))) :=
    ⟨_, rfl⟩
  have hep : 0 < ep := by rw [hepq]; exact Real.sqrt_pos.mpr (by positivity)
  obtain ⟨pm, hpmq⟩ : ∃ pm, pm = a/(ep + Real.sqrt ep + 0.125*ep ^ (0.1:ℝ)) := ⟨_, rfl⟩
  have hpm : 0 < pm := by
    rw [hpmq]
    have := Real.rpow_pos_of_pos hep 0.1
    have h125 : (0:ℝ) < 0.125 := by norm_num
    have := Real.sqrt_nonneg ep
    positivity
  refine ⟨pm, ep, a, ha, hep, hpm, hpmq, haq, hepq, ?_⟩
  have h1 : (1.0 : ℝ) = 1 := by norm_num
  unfold ffp_limits Material.average_mass Material.average_Z Material.number_densities
    Material.electronic_stopping_correction_factor Material.total_number_density
  have hb : ∀ L, fsum ((S.zip ns).map fun (se, number_density) => se*number_density)*L
      = electronicLoss S ns L := fun L => bragg_eq S ns L
  simp only [h.densities, h.concentrations, h.factor, h.stopping, bind, Except.bind, Functor.map,
    Except.map, pure, Except.pure, weighted_sum_eq, hb,
    sqrt_real, powf_real, pi_real, h1, lt_real, ← haq, ← hepq, ← hpmq]
  simp only [fsum_real]
  generalize electronicLoss S ns (1/(ns.sum*pm*pm*Real.pi))*ck = d
  by_cases hd : 0.05*p.E < d
  · rw [if_pos hd, if_pos hd]
  · rw [if_neg hd, if_neg hd]

/-- Bounds on the free-flight limits. -/
theorem ffp_limits_bounds (mat : Material ℝ) (p : Particle ℝ) (ns cs S : List ℝ) (ck : ℝ)
    (h : FlightData mat p ns cs S ck) :
    ∃ pmax ffp, ffp_limits p mat = .ok (pmax, ffp) ∧ 0 < pmax ∧ 0 < ffp ∧
      ns.sum*(Real.pi*pmax^2)*ffp = 1 ∧ electronicLoss S ns ffp*ck ≤ 0.05*p.E := by
  obtain ⟨pm, ep, a, _, _, hpm, _, _, _, hlim⟩ := ffp_limits_eq mat p ns cs S ck h
  have hn := h.total
  have hpi := Real.pi_pos
  have hE := h.physical.E
  have h05 : (0:ℝ) < 0.05 := by norm_num
  have hf0 : 0 < 1/(ns.sum*pm*pm*Real.pi) := by positivity
  have hlin : ∀ k L, electronicLoss S ns (L*k) = electronicLoss S ns L*k := by
    intro k L; unfold electronicLoss; ring
  generalize hf : 1/(ns.sum*pm*pm*Real.pi) = f0 at hlim hf0
  by_cases hc : 0.05*p.E < electronicLoss S ns f0*ck
  · rw [if_pos hc] at hlim
    have hd : 0 < electronicLoss S ns f0*ck := by
      have : 0 < 0.05*p.E := mul_pos h05 hE
      linarith
    have hk : 0 < 0.05*p.E/(electronicLoss S ns f0*ck) := div_pos (mul_pos h05 hE) hd
    have hff : 0 < f0*(0.05*p.E/(electronicLoss S ns f0*ck)) := mul_pos hf0 hk
    refine ⟨_, _, hlim, Real.sqrt_pos.mpr (by positivity), hff, ?_, ?_⟩
    · rw [Real.sq_sqrt (by positivity)]
      generalize f0*(0.05*p.E/(electronicLoss S ns f0*ck)) = f at hff
      field_simp
    · rw [hlin]
      have hne : electronicLoss S ns f0*ck ≠ 0 := hd.ne'
      have : electronicLoss S ns f0*(0.05*p.E/(electronicLoss S ns f0*ck))*ck = 0.05*p.E := by
        have : electronicLoss S ns f0 ≠ 0 := left_ne_zero_of_mul hne
        have : ck ≠ 0 := h.factor_pos.ne'
        field_simp
      exact this.le
  · rw [if_neg hc] at hlim
    refine ⟨_, _, hlim, hpm, hf0, ?_, not_lt.mp hc⟩
    rw [← hf]; field_simp

/-- What the free-flight branch returns for given limits `pmax`, `ffp`, spacing `s`. -/
structure FlightGeometry (p : Particle ℝ) (o : Options ℝ) (t : Tape ℝ) (n s pmax ffp : ℝ)
    (g : BinaryCollisionGeometry ℝ) : Prop where
  /-- azimuth from the first random number -/
  azimuth : g.phi_azimuthal = 2*Real.pi*t 0
  /-- fallback: uniform over the disc `pi r^2 = s^2` -/
  short : ffp < s → 0 ≤ g.impact_parameter ∧
    Real.pi*g.impact_parameter^2 = s^2*t (o.weak_collision_order + 1)
  /-- long path: `p^2 = pmax^2 (-ln u)` -/
  long : s ≤ ffp → g.impact_parameter
    = pmax*Real.sqrt (-Real.log (t (o.weak_collision_order + 1)))
  /-- path length -/
  path : ∃ e, g.mfp = (if p.first_step then s*t (o.weak_collision_order + 2) else max s ffp)*e ∧
    (match o.mean_free_path_model with
    | .LIQUID => e = 1
    | .GASEOUS => e = -Real.log (t (o.weak_collision_order + 2 + if p.first_step then 1 else 0))
    | .THRESHOLD d => (ffp < s ∧ n < d → e = -Real.log
          (t (o.weak_collision_order + 2 + if p.first_step then 1 else 0))) ∧
        (¬ (ffp < s ∧ n < d) → e = 1))

theorem determine_ffp (mat : Material ℝ) (p : Particle ℝ) (o : Options ℝ) (t : Tape ℝ)
    (ns : List ℝ) (s pmax ffp : ℝ)
    (hd : mat.geometry.get_densities p.pos.x p.pos.y p.pos.z = .ok ns) (hn : 0 < ns.sum)
    (hs : IsSpacing ns.sum s) (hff : o.high_energy_free_flight_paths = true)
    (hl : ffp_limits p mat = .ok (pmax, ffp)) (hu : UnitInterval t) :
    ∃ g t', determine_mfp_phi_impact_parameter p mat o t
        = .ok (({ p with first_step := false }, [g]), t') ∧
      FlightGeometry p o t ns.sum s pmax ffp g := by
  obtain ⟨n, hnd⟩ : ∃ n, n = o.weak_collision_order + 1 := ⟨_, rfl⟩
  have hphi : (draw_phis n : M ℝ (List ℝ)) t
      = .ok ((List.range n).map (fun k => 2.0*pi*t k), fun k => t (n + k)) :=
    collect_random (fun _ r => 2.0*pi*r) n t
  have h2 : (2.0:ℝ) = 2 := by norm_num
  have h1 : (1.0:ℝ) = 1 := by norm_num
  have hv : vget ((List.range n).map (fun k => 2.0*pi*t k)) 0 = .ok (2*Real.pi*t 0) := by
    unfold vget
    rw [List.getElem?_map, List.getElem?_range (by omega), h2]
    rfl
  have hpi := Real.pi_pos
  have hsp : 0 < Real.sqrt Real.pi := Real.sqrt_pos.mpr hpi
  have hsp2 : Real.sqrt Real.pi^2 = Real.pi := Real.sq_sqrt hpi.le
  have harea : 0 ≤ s/SQRTPI ℝ*Real.sqrt (t n) ∧
      Real.pi*(s/SQRTPI ℝ*Real.sqrt (t n))^2 = s^2*t n := by
    rw [SQRTPI_real, mul_pow, div_pow, hsp2, Real.sq_sqrt (hu n).1]
    refine ⟨mul_nonneg (div_nonneg hs.1.le hsp.le) (Real.sqrt_nonneg _), ?_⟩
    field_simp
  have e2 : o.weak_collision_order + 2 = n + 1 := by omega
  have hpf : p.first_step = false → { p with first_step := false } = p := by
    intro h; cases p; simp_all
  unfold determine_mfp_phi_impact_parameter
  simp only [bind, StateT.bind, Except.bind, liftM, monadLift, MonadLift.monadLift, StateT.lift,
    mfp_eq mat _ _ _ s ns hd hn hs, pure, Except.pure, StateT.pure, ← hnd, hphi, hff, if_true, hl,
    lt_real, fsum_real]
  by_cases hfs : ffp < s
  · rw [if_pos hfs]
    have hmax : max s ffp = s := max_eq_left hfs.le
    simp only [StateT.bind, random, StateT.pure, bind, Except.bind, pure, Except.pure, sqrt_real,
      add_zero]
    cases hp : p.first_step <;> cases hmodel : o.mean_free_path_model <;>
      simp only [if_false, if_true, Bool.false_eq_true, hv, hd, exponential, random, StateT.bind,
        StateT.pure, bind, Except.bind, pure, Except.pure, ln_real, h1, StateT.lift, lt_real,
        fsum_real]
    case false.THRESHOLD d =>
      by_cases hden : ns.sum < d
      · simp only [hden, if_true, StateT.bind, random, StateT.pure, bind, Except.bind, pure,
          Except.pure]
        rw [hpf hp]
        refine ⟨_, _, rfl, ⟨rfl, fun _ => by rw [← hnd]; exact harea,
          fun h => absurd hfs (not_lt.mpr h), ⟨-Real.log (t (n + 1)), ?_, ?_⟩⟩⟩
        · simp [hp, hmax]
        · rw [hmodel]; exact ⟨fun _ => by rw [e2, hp]; rfl, fun h => absurd ⟨hfs, hden⟩ h⟩
      · simp only [hden, if_false, StateT.bind, random, StateT.pure, bind, Except.bind, pure,
          Except.pure]
        rw [hpf hp]
        refine ⟨_, _, rfl, ⟨rfl, fun _ => by rw [← hnd]; exact harea,
          fun h => absurd hfs (not_lt.mpr h), ⟨1, ?_, ?_⟩⟩⟩
        · simp [hp, hmax]
        · rw [hmodel]; exact ⟨fun h => absurd h.2 hden, fun _ => rfl⟩
    case true.THRESHOLD d =>
      by_cases hden : ns.sum < d
      · simp only [hden, if_true, StateT.bind, random, StateT.pure, bind, Except.bind, pure,
          Except.pure]
        refine ⟨_, _, rfl, ⟨rfl, fun _ => by rw [← hnd]; exact harea,
          fun h => absurd hfs (not_lt.mpr h), ⟨-Real.log (t (n + 1 + 1)), ?_, ?_⟩⟩⟩
        · simp [hp, e2, add_assoc]
        · rw [hmodel]; exact ⟨fun _ => by rw [e2, hp]; rfl, fun h => absurd ⟨hfs, hden⟩ h⟩
      · simp only [hden, if_false, StateT.bind, random, StateT.pure, bind, Except.bind, pure,
          Except.pure]
        refine ⟨_, _, rfl, ⟨rfl, fun _ => by rw [← hnd]; exact harea,
          fun h => absurd hfs (not_lt.mpr h), ⟨1, ?_, ?_⟩⟩⟩
        · simp [hp, e2]
        · rw [hmodel]; exact ⟨fun h => absurd h.2 hden, fun _ => rfl⟩
    case false.LIQUID =>
      rw [hpf hp]
      refine ⟨_, _, rfl, ⟨rfl, fun _ => by rw [← hnd]; exact harea,
          fun h => absurd hfs (not_lt.mpr h), ⟨1, ?_, ?_⟩⟩⟩
      · simp [hp, hmax]
      · rw [hmodel]
    case true.LIQUID =>
      refine ⟨_, _, rfl, ⟨rfl, fun _ => by rw [← hnd]; exact harea,
          fun h => absurd hfs (not_lt.mpr h), ⟨1, ?_, ?_⟩⟩⟩
      · simp [hp, e2]
      · rw [hmodel]
    case false.GASEOUS =>
      rw [hpf hp]
      refine ⟨_, _, rfl, ⟨rfl, fun _ => by rw [← hnd]; exact harea,
          fun h => absurd hfs (not_lt.mpr h), ⟨-Real.log (t (n + 1)), ?_, ?_⟩⟩⟩
      · simp [hp, hmax]
      · rw [hmodel]; simp [e2, hp]
    case true.GASEOUS =>
      refine ⟨_, _, rfl, ⟨rfl, fun _ => by rw [← hnd]; exact harea,
          fun h => absurd hfs (not_lt.mpr h), ⟨-Real.log (t (n + 1 + 1)), ?_, ?_⟩⟩⟩
      · simp [hp, e2, add_assoc]
      · rw [hmodel]; simp [e2, hp]
  · rw [if_neg hfs]
    have hmax : max s ffp = ffp := max_eq_right (not_lt.mp hfs)
    simp only [StateT.bind, random, StateT.pure, bind, Except.bind, pure, Except.pure, sqrt_real,
      add_zero, ln_real]
    cases hp : p.first_step <;> cases hmodel : o.mean_free_path_model <;>
      simp only [if_false, if_true, Bool.false_eq_true, hv, hd, exponential, random, StateT.bind,
        StateT.pure, bind, Except.bind, pure, Except.pure, ln_real, h1, StateT.lift, lt_real,
        fsum_real, MeanFreePathModel.isGaseous]
    case false.GASEOUS =>
      rw [hpf hp]
      refine ⟨_, _, rfl, ⟨rfl, fun h => absurd h hfs, fun _ => by rw [← hnd],
        ⟨-Real.log (t (n + 1)), ?_, ?_⟩⟩⟩
      · simp [hp, hmax]
      · rw [hmodel]; simp [e2, hp]
    case true.GASEOUS =>
      refine ⟨_, _, rfl, ⟨rfl, fun h => absurd h hfs, fun _ => by rw [← hnd],
        ⟨-Real.log (t (n + 1 + 1)), ?_, ?_⟩⟩⟩
      · simp [hp, e2, add_assoc]
      · rw [hmodel]; simp [e2, hp]
    case false.LIQUID =>
      rw [hpf hp]
      refine ⟨_, _, rfl, ⟨rfl, fun h => absurd h hfs, fun _ => by rw [← hnd],
        ⟨1, ?_, ?_⟩⟩⟩
      · simp [hp, hmax]
      · rw [hmodel]
    case true.LIQUID =>
      refine ⟨_, _, rfl, ⟨rfl, fun h => absurd h hfs, fun _ => by rw [← hnd], ⟨1, ?_, ?_⟩⟩⟩
      · simp [hp, e2]
      · rw [hmodel]
    case false.THRESHOLD d =>
      rw [hpf hp]
      refine ⟨_, _, rfl, ⟨rfl, fun h => absurd h hfs, fun _ => by rw [← hnd],
        ⟨1, ?_, ?_⟩⟩⟩
      · simp [hp, hmax]
      · rw [hmodel]; exact ⟨fun h => absurd h.1 hfs, fun _ => rfl⟩
    case true.THRESHOLD d =>
      refine ⟨_, _, rfl, ⟨rfl, fun h => absurd h hfs, fun _ => by rw [← hnd], ⟨1, ?_, ?_⟩⟩⟩
      · simp [hp, e2]
      · rw [hmodel]; exact ⟨fun h => absurd h.1 hfs, fun _ => rfl⟩

/-- **C17 (partial).** With free-flight paths on and physical data: the call succeeds with exactly one
collision geometry, determined by a pair `pmax`, `ffp` of one collision per cylinder,
`n pi pmax^2 ffp = 1`, whose electronic loss over `ffp` times the correction factor is at most
5 percent of the energy; hence the loss itself is, whenever the correction factor is at least 1; and
by the interatomic spacing `s`, to which it falls back when `ffp < s`.
Missing: the limit for correction factors below 1; it fails, `C17_refuted`. -/
theorem C17_free_flight_partial (mat : Material ℝ) (p : Particle ℝ) (o : Options ℝ) (t : Tape ℝ)
    (ns cs S : List ℝ) (ck s : ℝ) (h : FlightData mat p ns cs S ck) (hs : IsSpacing ns.sum s)
    (hff : o.high_energy_free_flight_paths = true) (hu : UnitInterval t) :
    ∃ pmax ffp g t', 0 < pmax ∧ 0 < ffp ∧ ns.sum*(Real.pi*pmax^2)*ffp = 1 ∧
      electronicLoss S ns ffp*ck ≤ 0.05*p.E ∧ (1 ≤ ck → electronicLoss S ns ffp ≤ 0.05*p.E) ∧
      determine_mfp_phi_impact_parameter p mat o t
        = .ok (({ p with first_step := false }, [g]), t') ∧
      FlightGeometry p o t ns.sum s pmax ffp g := by
  obtain ⟨pmax, ffp, hl, h1, h2, h3, h4⟩ := ffp_limits_bounds mat p ns cs S ck h
  obtain ⟨g, t', h5, h6⟩ := determine_ffp mat p o t ns s pmax ffp h.densities h.total hs hff hl hu
  refine ⟨pmax, ffp, g, t', h1, h2, h3, h4, fun hc => ?_, h5, h6⟩
  have : 0 ≤ electronicLoss S ns ffp := by
    have := h.loss_nonneg
    unfold electronicLoss at *
    nlinarith
  nlinarith

set_option maxHeartbeats 1000000 in
/-- The 5 percent limit fails for a correction factor below 1: the correction factor is applied a
second time to cross sections that already contain it. A hydrogen-like target with correction factor
1/2: the free-flight path returned is at least the atomic spacing, and over it the particle loses more
than 5 percent of its energy, whatever the random numbers. -/
theorem C17_refuted : ∃ (mat : Material ℝ) (p : Particle ℝ) (o : Options ℝ) (ns cs S : List ℝ)
    (ck s : ℝ), FlightData mat p ns cs S ck ∧ IsSpacing ns.sum s ∧
    o.high_energy_free_flight_paths = true ∧ ∀ t, UnitInterval t → ∃ g t',
      determine_mfp_phi_impact_parameter p mat o t
        = .ok (({ p with first_step := false }, [g]), t') ∧
      s ≤ g.mfp ∧ 0.05*p.E < electronicLoss S ns g.mfp := by
  have hB := bethe_pos
  have hK := scharff_pos
  have hA := AMU_pos
  have hQ := Q_pos
  have hL := lindhard_pos
  have hpi := Real.pi_pos
  obtain ⟨K, hKd⟩ : ∃ K, K = LINDHARD_SCHARFF_PREFACTOR ℝ*((1:ℝ) ^ ((7.0 : ℝ)/6.0)*1)/
    ((1:ℝ) ^ ((2.0 : ℝ)/3.0) + (1:ℝ) ^ ((2.0 : ℝ)/3.0)) ^ ((3.0 : ℝ)/2.0) := ⟨_, rfl⟩
  have hK0 : 0 < K := by
    rw [hKd]
    have h4 : 0 < ((1:ℝ) ^ ((2.0 : ℝ)/3.0) + (1:ℝ) ^ ((2.0 : ℝ)/3.0)) ^ ((3.0 : ℝ)/2.0) := by
      refine Real.rpow_pos_of_pos ?_ _
      rw [Real.one_rpow]; norm_num
    refine div_pos (mul_pos hK ?_) h4
    rw [Real.one_rpow]; norm_num
  obtain ⟨a, haq⟩ : ∃ a, a = screening_length 1 1 (.MOLIERE : InteractionPotential ℝ) := ⟨_, rfl⟩
  have ha : 0 < a := haq ▸ screening_length_pos (.MOLIERE : InteractionPotential ℝ) .moliere
    one_pos one_pos
  obtain ⟨kap, hkap⟩ : ∃ kap, kap = LINDHARD_REDUCED_ENERGY_PREFACTOR ℝ*a/2 := ⟨_, rfl⟩
  have hkap0 : 0 < kap := by rw [hkap]; positivity
  obtain ⟨B, hBd⟩ : ∃ B, B = BETHE_BLOCH_PREFACTOR ℝ := ⟨_, rfl⟩
  rw [← hBd] at hB
  obtain ⟨E, hEd⟩ : ∃ E, E = (B/K)^2*Q ℝ/AMU ℝ + 3*Real.pi*a^2/(20*B*kap^2) := ⟨_, rfl⟩
  have hE : 0 < E := by rw [hEd]; positivity
  have hE1 : (B/K)^2*Q ℝ/AMU ℝ ≤ E := by
    have : 0 < 3*Real.pi*a^2/(20*B*kap^2) := by positivity
    linarith
  have hE2 : 3*Real.pi*a^2/(20*B*kap^2) < E := by
    have : 0 < (B/K)^2*Q ℝ/AMU ℝ := by positivity
    linarith
  have hlow : B ≤ Material.S_low E 1 1 1 := by
    unfold Material.S_low
    simp only [powf_real, sqrt_real]
    rw [← hKd]
    have : B/K ≤ Real.sqrt (E/Q ℝ/1*AMU ℝ) := by
      apply Real.le_sqrt_of_sq_le
      have h := mul_le_mul_of_nonneg_right hE1 (div_pos hA hQ).le
      have e : (B/K)^2*Q ℝ/AMU ℝ*(AMU ℝ/Q ℝ) = (B/K)^2 := by field_simp
      rw [e] at h
      calc (B/K)^2 ≤ E*(AMU ℝ/Q ℝ) := h
        _ = E/Q ℝ/1*AMU ℝ := by field_simp
    calc B = K*(B/K) := by field_simp
      _ ≤ K*Real.sqrt (E/Q ℝ/1*AMU ℝ) := mul_le_mul_of_nonneg_left this hK0.le
  have hhigh : B ≤ Material.S_high E 1 1 1 := by
    rw [hBd]
    obtain ⟨L, hL, hle, h3⟩ := S_high_ge hE (one_pos) (one_pos) (one_pos : (0:ℝ) < 1)
    have h3 := h3 (by norm_num)
    have hs : Real.sqrt (100*1/1) = 10 := by
      rw [show (100*1/1 : ℝ) = 10^2 by norm_num]; exact Real.sqrt_sq (by norm_num)
    rw [hs] at h3
    have : 1 ≤ Real.log L := by
      rw [Real.le_log_iff_exp_le (by linarith)]
      linarith [Real.exp_one_lt_d9]
    have := bethe_pos
    calc BETHE_BLOCH_PREFACTOR ℝ ≤ BETHE_BLOCH_PREFACTOR ℝ*1*1*1*Real.log L := by nlinarith
      _ ≤ _ := hle
  obtain ⟨S, hSd⟩ : ∃ S, S = Material.stopping_power .INTERPOLATED (1/2)
    (Material.S_high E 1 1 1) (Material.S_low E 1 1 1) := ⟨_, rfl⟩
  have h10 : (1.0 : ℝ) = 1 := by norm_num
  have hS : 2*B/3 ≤ S := by
    rw [hSd]
    simp only [Material.stopping_power, h10]
    have p1 : 0 < Material.S_high E 1 1 1 := by linarith
    have p2 : 0 < Material.S_low E 1 1 1 := by linarith
    rw [le_div_iff₀ (by positivity)]
    have q1 : B*(1/Material.S_high E 1 1 1) ≤ 1 := by
      rw [mul_one_div, div_le_one p1]; exact hhigh
    have q2 : B*(1/Material.S_low E 1 1 1) ≤ 1 := by
      rw [mul_one_div, div_le_one p2]; exact hlow
    nlinarith
  have hS0 : 0 < S := by linarith
  obtain ⟨s, hsd⟩ : ∃ s, s = Real.sqrt (10*S/E) := ⟨_, rfl⟩
  have hs0 : 0 < s := by rw [hsd]; exact Real.sqrt_pos.mpr (by positivity)
  have hs2 : s^2 = 10*S/E := by rw [hsd]; exact Real.sq_sqrt (by positivity)
  obtain ⟨N, hNd⟩ : ∃ N, N = 1/s^3 := ⟨_, rfl⟩
  have hN : 0 < N := by rw [hNd]; positivity
  let geom : Geom ℝ := (⟨[N], [1], 1/2, 1⟩ : Mesh0D ℝ).toGeom
  let mat : Material ℝ := ⟨[1], [1], [0], [0], [0], [0], [0], geom, .INDIVIDUAL, .INDIVIDUAL⟩
  let p : Particle ℝ := { (Particle.new 1 1 1 0 0 0 0 0 0 1 0 0 true false 0 : Particle ℝ) with
    E := E
    Ec := E
    first_step := false }
  let o : Options ℝ := { Options.default_options true with high_energy_free_flight_paths := true }
  have hph : Physical mat p := ⟨by simp [mat], hE, by simp [p, Particle.new],
    by simp [p, Particle.new]⟩
  have hfd : FlightData mat p [N] [1] [S] (1/2) := by
    refine ⟨rfl, by simpa using hN, rfl, ⟨by simp, by simp⟩, rfl, by norm_num, ?_, ?_, by simp [mat],
      by simp [mat], hph, hE⟩
    · rw [hSd]; rfl
    · simp [electronicLoss]; positivity
  have hsp : IsSpacing ([N] : List ℝ).sum s := by
    refine ⟨hs0, ?_⟩
    rw [List.sum_singleton, hNd]; field_simp
  obtain ⟨pm, ep, a', ha', hep, hpm, hpmq, haq', hepq, hlim⟩ := ffp_limits_eq mat p _ _ _ _ hfd
  have av : average [1] ([1] : List ℝ) = 1 := by simp [average]
  have hmZ : mat.Z = [1] := rfl
  have hmm : mat.m = [1] := rfl
  have hpZ : p.Z = 1 := rfl
  have hpm1 : p.m = 1 := rfl
  have hpE : p.E = E := rfl
  have hpEc : p.Ec = E := rfl
  rw [hmZ, av, hpZ, ← haq] at haq'
  subst haq'
  have h4 : (4.0:ℝ) = 4 := by norm_num
  rw [hmZ, hmm, av, hpZ, hpm1, hpE, hpEc, h4] at hepq
  have hepv : ep = kap*E := by
    rw [hepq]
    have : LINDHARD_REDUCED_ENERGY_PREFACTOR ℝ*a'*1/(1 + 1)/1/1*E
        *(LINDHARD_REDUCED_ENERGY_PREFACTOR ℝ*a'*1/(1 + 1)/1/1*(E*(1 + 1)*(1 + 1)/4/1/1))
        = (kap*E)^2 := by rw [hkap]; ring
    rw [this, Real.sqrt_sq (by positivity)]
  have hple : pm ≤ a'/(kap*E) := by
    rw [hpmq, ← hepv]
    have := Real.rpow_pos_of_pos hep 0.1
    have h125 : (0:ℝ) < 0.125 := by norm_num
    have := Real.sqrt_nonneg ep
    apply div_le_div_of_nonneg_left ha'.le hep
    have : 0 < 0.125*ep ^ (0.1:ℝ) := by positivity
    linarith
  have hsumN : ([N] : List ℝ).sum = N := by simp
  rw [hsumN, hpE] at hlim
  have hloss : ∀ L, electronicLoss [S] [N] L = S*N*L := by intro L; simp [electronicLoss]
  have hlossf : electronicLoss [S] [N] (1/(N*pm*pm*Real.pi)) = S/(Real.pi*pm^2) := by
    rw [hloss]; field_simp
  have h05 : (0.05 : ℝ) = 1/20 := by norm_num
  have hc : 0.05*E < electronicLoss [S] [N] (1/(N*pm*pm*Real.pi))*(1/2) := by
    rw [hlossf, h05]
    have hp2 : pm^2 ≤ (a'/(kap*E))^2 := pow_le_pow_left₀ hpm.le hple 2
    have hq : S/(Real.pi*(a'/(kap*E))^2) ≤ S/(Real.pi*pm^2) := by
      apply div_le_div_of_nonneg_left hS0.le (by positivity)
      exact mul_le_mul_of_nonneg_left hp2 hpi.le
    have hq2 : S/(Real.pi*(a'/(kap*E))^2) = S*kap^2*E^2/(Real.pi*a'^2) := by
      field_simp
    rw [hq2] at hq
    have hx : 3*Real.pi*a'^2 < E*(20*B*kap^2) := by
      rwa [div_lt_iff₀ (by positivity)] at hE2
    have hw : Real.pi*a'^2/10 < S*kap^2*E := by
      have : 2*B/3*(kap^2*E) ≤ S*(kap^2*E) := mul_le_mul_of_nonneg_right hS (by positivity)
      have e1 : 2*B/3*(kap^2*E) = E*(20*B*kap^2)/30 := by ring
      have e2 : S*(kap^2*E) = S*kap^2*E := by ring
      rw [e1, e2] at this
      linarith
    have hy : E/10 < S*kap^2*E^2/(Real.pi*a'^2) := by
      rw [lt_div_iff₀ (by positivity)]
      have := mul_lt_mul_of_pos_left hw hE
      calc E/10*(Real.pi*a'^2) = E*(Real.pi*a'^2/10) := by ring
        _ < E*(S*kap^2*E) := this
        _ = S*kap^2*E^2 := by ring
    linarith
  rw [if_pos hc] at hlim
  have hd : 0 < electronicLoss [S] [N] (1/(N*pm*pm*Real.pi)) := by rw [hlossf]; positivity
  have hff : 1/(N*pm*pm*Real.pi)*(0.05*E/(electronicLoss [S] [N] (1/(N*pm*pm*Real.pi))*(1/2)))
      = E/(10*S*N) := by
    rw [hlossf, h05]; field_simp; norm_num
  have hge : E/(10*S*N) = s := by
    have : E*s^2 = 10*S := by rw [hs2]; field_simp
    rw [hNd]; field_simp; linarith
  rw [hff] at hlim
  refine ⟨mat, p, o, [N], [1], [S], 1/2, s, hfd, hsp, rfl, fun t hu => ?_⟩
  obtain ⟨g, t', h1, h2⟩ := determine_ffp mat p o t [N] s _ _ rfl (by simpa using hN) hsp rfl hlim hu
  refine ⟨g, t', h1, ?_⟩
  obtain ⟨e, he1, he2⟩ := h2.path
  have he2 : e = 1 := he2
  rw [he2, mul_one, hge] at he1
  have hmf : g.mfp = s := by rw [he1]; simp [p]
  rw [hmf, hloss, hpE]
  refine ⟨le_rfl, ?_⟩
  rw [h05]
  have : S*N*s = E/10 := by rw [← hge]; field_simp
  linarith

end RustBCA
