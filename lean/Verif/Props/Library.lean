import Verif.Spec.Library
import Verif.Props.Lib
import Verif.Props.Potentials
import Verif.Props.NewtonSpeed
import Verif.Props.LocalLoss
import Verif.Props.Recoils
import Verif.Props.FreePaths

/-!
# C110: the physics library calls use
-/

set_option linter.unusedSectionVars false
set_option linter.unusedSimpArgs false
set_option linter.unusedVariables false

namespace RustBCA
open Scalar Spec

theorem krC_expsum (x : ℝ) : expsum (screening_terms .KR_C) x = krC x := by
  simp only [screening_terms, expsum_cons, expsum_nil, krC, neg_mul]
  ring

theorem krC_deriv (x : ℝ) : deriv krC x = dexpsum (screening_terms .KR_C) x := by
  have h : HasDerivAt krC (0.190945*(Real.exp (-(0.278544*x))*(-(0.278544*1)))
      + 0.473674*(Real.exp (-(0.637174*x))*(-(0.637174*1)))
      + 0.335381*(Real.exp (-(1.919249*x))*(-(1.919249*1)))) x := by
    have t : ∀ c d : ℝ, HasDerivAt (fun x => c*Real.exp (-(d*x))) (c*(Real.exp (-(d*x))*(-(d*1)))) x :=
      fun c d => ((((hasDerivAt_id' x).const_mul d).fun_neg).exp).const_mul c
    exact ((t _ _).fun_add (t _ _)).fun_add (t _ _)
  rw [h.deriv]
  simp only [screening_terms, dexpsum, List.map_cons, List.map_nil, List.sum_cons, List.sum_nil, neg_mul]
  ring

/-- `v^(-1/2)` and `1/√v` are the same, also for negative `v`. -/
theorem rpow_neg_half (v : ℝ) : v^(-(1/2):ℝ) = 1/Real.sqrt v := by
  rcases le_or_gt 0 v with h | h
  · rw [Real.rpow_neg h, Real.sqrt_eq_rpow]; norm_num
  · rw [Real.rpow_def_of_neg h, Real.sqrt_eq_zero_of_nonpos h.le,
      show -(1/2:ℝ)*Real.pi = -(Real.pi/2) by ring, Real.cos_neg, Real.cos_pi_div_two]
    simp

theorem firsov_krC (Za Zb : ℝ) (hA : 0 < Za) (hB : 0 < Zb) :
    screening_length Za Zb (.KR_C : InteractionPotential ℝ) = firsovLength Za Zb :=
  (C19_screening_length Za Zb hA hB .KR_C).2.2.2 ⟨nofun, nofun, nofun⟩

/-- The angle of the Mendenhall-Weller quadrature for the Kr-C potential. -/
theorem mw_krC (Za Zb Ma Mb E0 p x0 : ℝ) (hA : 0 < Za) (hB : 0 < Zb) (hMa : 0 < Ma) (hMb : 0 < Mb) :
    scattering_angle .MENDENHALL_WELLER Za Zb Ma Mb E0 p x0 .KR_C = .ok (lobattoAngle krC
      (E0*Mb/(Ma + Mb)*firsovLength Za Zb/coulombConstant Za Zb) (p/firsovLength Za Zb) x0) := by
  have he : LINDHARD_REDUCED_ENERGY_PREFACTOR ℝ*firsovLength Za Zb*Mb/(Ma + Mb)/Za/Zb*E0
      = E0*Mb/(Ma + Mb)*firsovLength Za Zb/coulombConstant Za Zb := by
    have h := reduced_energy_eq .KR_C .kr_c Za Zb (E0*Mb/(Ma + Mb)) hA hB
    unfold reduced_energy at h
    rw [firsov_krC _ _ hA hB] at h
    have h2 : LINDHARD_REDUCED_ENERGY_PREFACTOR ℝ*firsovLength Za Zb*Mb/(Ma + Mb)/Za/Zb*E0
        = LINDHARD_REDUCED_ENERGY_PREFACTOR ℝ*firsovLength Za Zb/Za/Zb*(E0*Mb/(Ma + Mb)) := by
      field_simp
    rw [h2, h]
    rw [div_div_eq_mul_div]
  show mendenhall_weller Za Zb Ma Mb E0 p x0 .KR_C = _
  unfold mendenhall_weller scattering_integral_mw
  simp only [phi_expsum .KR_C .kr_c, dphi_dexpsum .KR_C .kr_c, bind, Except.bind, pure, Except.pure,
    Except.ok.injEq, powf_real, pi_real, firsov_krC _ _ hA hB, krC_expsum, ← krC_deriv]
  rw [he]
  generalize E0*Mb/(Ma + Mb)*firsovLength Za Zb/coulombConstant Za Zb = e
  generalize p/firsovLength Za Zb = b
  simp only [lobattoAngle]
  have c1 : (-1.0/2.0:ℝ) = -(1/2) := by norm_num
  have c2 : (-0.5:ℝ) = -(1/2) := by norm_num
  have c3 : (1.0:ℝ) = 1 := by norm_num
  have c4 : (2.0:ℝ) = 2 := by norm_num
  have c5 : (5.0:ℝ) = 5 := by norm_num
  have c6 : (12.0:ℝ) = 12 := by norm_num
  have c7 : (0.5:ℝ) = 1/2 := by norm_num
  rw [c1, c2, c3, c4, c5, c6, c7]
  simp only [rpow_neg_half]
  have e1 : 1/2 + b*b/x0/x0/2 - deriv krC x0/2/e = 1/2 + (b/x0)^2/2 - deriv krC x0/(2*e) := by
    rw [div_div (deriv krC x0), div_pow, div_div (b*b), pow_two, pow_two]
  have e2 : ∀ x : ℝ, 1 - krC x/x/e - b*b/x/x = 1 - krC x/(x*e) - (b/x)^2 := by
    intro x
    rw [div_div (krC x), div_pow, div_div (b*b), pow_two, pow_two]
  rw [e1, e2, e2]
  ring

/-- **C110, collisions.** In a library call, a collision of an ion (or recoil) with a target atom at
impact parameter `p` is the collision in the Kr-C potential with Firsov's screening length: the
distance of closest approach `r0` is that of this potential (found to 0.2 per cent, C92), the
centre-of-mass angle is Mendenhall and Weller's, and the energy passed on is that of the elastic
collision. -/
theorem C110_collision (rcpr : Rcpr ℝ) (recoils : Bool) (ion atom : Particle ℝ)
    (g : BinaryCollisionGeometry ℝ) (h1 : ion.interaction_index = 0) (h2 : atom.interaction_index = 0)
    (hA : 0 < ion.Z) (hB : 0 < atom.Z) (hm1 : 0 < ion.m) (hm2 : 0 < atom.m) (hp : 0 < g.impact_parameter)
    (hE : 1e-25*(coulombConstant ion.Z atom.Z/firsovLength ion.Z atom.Z) ≤ ion.E*atom.m/(ion.m + atom.m)) :
    ∃ a r0 r, a = firsovLength ion.Z atom.Z ∧
      calculate_binary_collision rcpr ion atom g (Options.default_options recoils) = .ok (.ok r) ∧
      (∀ R, 0 < R → TurningPoint (krCPotential ion.Z atom.Z R) (ion.E*atom.m/(ion.m + atom.m))
        g.impact_parameter R → 0.998*R ≤ r0 ∧ r0 ≤ R) ∧ 0 < r0 ∧
      r.theta = lobattoAngle krC (ion.E*atom.m/(ion.m + atom.m)*a/coulombConstant ion.Z atom.Z)
        (g.impact_parameter/a) (r0/a) ∧
      r.recoil_energy = 4*(ion.m*atom.m)/(ion.m + atom.m)^2*ion.E*Real.sin (r.theta/2)^2 := by
  have hs := screening_length_pos .KR_C .kr_c hA hB
  have hfl := firsov_krC _ _ hA hB
  have hU : ∀ r, interaction_potential r (screening_length ion.Z atom.Z .KR_C) ion.Z atom.Z .KR_C
      = .ok (krCPotential ion.Z atom.Z r) := by
    intro r
    rw [potential_screened .KR_C .kr_c, krC_expsum, hfl]
    congr 2
    unfold coulombConstant Q EPS0
    have := Real.pi_pos
    rw [pow_two]
    field_simp
  have hrow : (Options.default_options (F := ℝ) recoils).interaction_potential[ion.interaction_index]?
      = some [.KR_C] := by rw [h1]; rfl
  have hcell : ([.KR_C] : List (InteractionPotential ℝ))[atom.interaction_index]? = some .KR_C := by
    rw [h2]; rfl
  have hE' : 1e-25*(coulombConstant ion.Z atom.Z/screening_length ion.Z atom.Z .KR_C)
      ≤ ion.E*atom.m/(ion.m + atom.m) := by rw [hfl]; exact hE
  obtain ⟨x, hx, hx0, hacc⟩ := C92_distance_of_closest_approach rcpr ion atom g
    (Options.default_options recoils) [.KR_C] .KR_C .kr_c hrow hcell hA hB hm1 hm2 hp hE' _ hU
  rw [hfl] at hs hacc
  have hth := mw_krC ion.Z atom.Z ion.m atom.m ion.E g.impact_parameter x hA hB hm1 hm2
  refine ⟨_, x*firsovLength ion.Z atom.Z, collision_result ion.m atom.m ion.E (firsovLength ion.Z atom.Z) x
      (lobattoAngle krC (ion.E*atom.m/(ion.m + atom.m)*firsovLength ion.Z atom.Z/coulombConstant ion.Z atom.Z)
        (g.impact_parameter/firsovLength ion.Z atom.Z) x) .KR_C, rfl, ?_, hacc, mul_pos hx0 hs, ?_, ?_⟩
  · unfold calculate_binary_collision
    have hsi : (Options.default_options (F := ℝ) recoils).scattering_integral[ion.interaction_index]?
        = some [.MENDENHALL_WELLER] := by rw [h1]; rfl
    have hsc : ([.MENDENHALL_WELLER] : List ScatteringIntegral)[atom.interaction_index]?
        = some .MENDENHALL_WELLER := by rw [h2]; rfl
    simp only [vget, hrow, hcell, hsi, hsc, bind, Except.bind, hx, hth, isNaN_real, hfl, Bool.false_eq_true,
      if_false, pure, Except.pure]
  · rw [mul_div_cancel_right₀ x hs.ne']
    rfl
  · simp only [collision_result, powi_real, sin_real]
    rw [show (4.0:ℝ) = 4 by norm_num, show (2.0:ℝ) = 2 by norm_num, show (2:ℤ) = ((2:ℕ):ℤ) from rfl,
      zpow_natCast, zpow_natCast]

/-- **C110, free paths.** In a library call there is one collision per step; the path before it is one
interatomic spacing (a random part of it for the first step of an ion), the impact parameter uniform
in the area of one spacing squared. -/
theorem C110_path (p : Particle ℝ) (mat : Material ℝ) (recoils : Bool) (t : Tape ℝ) (ns : List ℝ)
    (s : ℝ) (hd : mat.geometry.get_densities p.pos.x p.pos.y p.pos.z = .ok ns) (hn : 0 < ns.sum)
    (hs : 0 < s) (hs3 : s^3*ns.sum = 1) (hu : UnitInterval t) :
    ∃ g t', determine_mfp_phi_impact_parameter p mat (Options.default_options recoils) t
        = .ok (({ p with first_step := false }, [g]), t') ∧
      g.mfp = (if p.first_step then t 2*s else s) ∧
      g.phi_azimuthal = 2*Real.pi*t 0 ∧ Real.pi*g.impact_parameter^2 = t 1*s^2 ∧
      0 ≤ g.impact_parameter := by
  obtain ⟨gs, t', h1, h2, ⟨f, e, h3, hf, he⟩, h4⟩ := C16_annuli p mat (Options.default_options recoils) t ns s
    hd hn ⟨hs, hs3⟩ rfl hu
  obtain ⟨g, rfl⟩ : ∃ g, gs = [g] := List.length_eq_one_iff.mp h2
  obtain ⟨k1, k2, k3, -, -⟩ := h4 0 g rfl
  have hpm := k2 (s/Real.sqrt Real.pi) (by positivity) (by
    rw [div_pow, Real.sq_sqrt Real.pi_pos.le]; field_simp)
  refine ⟨g, t', h1, ?_, k3, ?_, ?_⟩
  · rw [h3 g (by simp), hf, he]
    have : (Options.default_options (F := ℝ) recoils).mean_free_path_model.isGaseous = false := rfl
    rw [this]
    have h2' : 2*((Options.default_options (F := ℝ) recoils).weak_collision_order + 1) = 2 := rfl
    rw [h2']
    cases p.first_step <;> simp [mul_comm]
  · rw [k1]
    have : (Options.default_options (F := ℝ) recoils).weak_collision_order = 0 := rfl
    rw [this]
    simp [mul_comm]
  · have := hpm.1
    simpa using this

/-- **C110, electronic stopping.** In a library call a particle in the target loses, over the distance
`d` travelled, `d Σ n S` with Lindhard and Scharff's cross sections, or all it has. -/
theorem C110_stopping (p : Particle ℝ) (mat : Material ℝ) (Z m Ec Es Eb n : List ℝ) (u : ℝ)
    (model : SurfaceBindingModel) (recoils : Bool) (d x0 sz : ℝ) (si : Nat)
    (ht : HalfSpace mat Z m Ec Es Eb n u model) (hlen : n.length = Z.length)
    (hidx : mat.interaction_index[si]? = some 0) (hp : p.interaction_index = 0) (hsi : si < Z.length)
    (hin : 0 < p.pos.x) :
    ∃ loss, loss = (List.zipWith (fun Zb n => lindhardScharff p.E p.m p.Z Zb*(n/u^3)) Z n).sum*d ∧
      subtract_electronic_stopping_energy p mat d x0 sz si (Options.default_options recoils)
        = .ok ({ p with E := max 0 (p.E - loss) }, loss) := by
  have hcs := C82_cross_sections mat p .LOW_ENERGY_NONLOCAL 1 (n.map (· / powi u 3))
    (by rw [ht.correction]; norm_num) (ht.densities _ _ _) (by rw [List.length_map, ht.Z, hlen])
  rw [ht.Z] at hcs
  simp only [mul_one] at hcs
  have hinside : mat.geometry.inside p.pos.x p.pos.y p.pos.z = .ok true := by
    rw [ht.inside]
    congr 1
    rw [lt_real]
    norm_num
    exact hin
  have hsome : (Z.map fun Zb => lindhardScharff p.E p.m p.Z Zb)[si]?
      = some (lindhardScharff p.E p.m p.Z Z[si]) := by
    rw [List.getElem?_map, List.getElem?_eq_getElem hsi]; rfl
  have hrow : (Options.default_options (F := ℝ) recoils).interaction_potential[p.interaction_index]?
      = some [.KR_C] := by rw [hp]; rfl
  have hmode : (Options.default_options (F := ℝ) recoils).electronic_stopping_mode = .LOW_ENERGY_NONLOCAL := rfl
  obtain ⟨q, loss, run⟩ : ∃ q loss, subtract_electronic_stopping_energy p mat d x0 sz si
      (Options.default_options recoils) = .ok (q, loss) := by
    unfold subtract_electronic_stopping_energy Material.inside Material.number_densities
    simp only [hinside, hmode, hcs, ht.densities, vget, hrow, hidx, hsome, isNaN_real, rassert, Bool.not_false,
      if_true, bind, Except.bind, pure, Except.pure, List.getElem?_cons_zero]
    exact ⟨_, _, rfl⟩
  obtain ⟨h1, h2⟩ := C82_loss p q mat d x0 sz loss si 0 (Options.default_options recoils) _ _ [.KR_C] .KR_C
    (lindhardScharff p.E p.m p.Z Z[si]) hinside hcs (ht.densities _ _ _) hrow hidx rfl hsome run
  refine ⟨loss, ?_, by rw [run, h1]⟩
  have h2' : loss = braggLoss (Z.map fun Zb => lindhardScharff p.E p.m p.Z Zb) (n.map (· / powi u 3)) d := h2
  rw [h2']
  unfold braggLoss
  rw [List.zipWith_map]
  simp only [powi_real]
  rw [show (3:ℤ) = ((3:ℕ):ℤ) from rfl]
  simp only [zpow_natCast]

/-- **C110, recoils.** In a library call that asks for recoils, an atom set in motion is followed
exactly if its energy is above its cutoff energy, wherever it is; in one that does not, none is. -/
theorem C110_recoils (mat : Material ℝ) (p q : Particle ℝ) :
    (ToFollow mat (Options.default_options true) p q ↔ q.Ec < q.E) ∧
    ¬ ToFollow mat (Options.default_options false) p q := by
  refine ⟨⟨fun h => h.2.1, fun h => ⟨rfl, h, nofun⟩⟩, fun h => ?_⟩
  have := h.1
  exact nomatch this

end RustBCA
