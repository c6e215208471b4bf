import Verif.Props.Lib

/-!
# C58: what the yield functions simulate
-/

set_option linter.unusedSectionVars false
set_option linter.unusedSimpArgs false
set_option linter.unusedVariables false

namespace RustBCA
open Scalar Spec
variable {F : Type} [Scalar F]

theorem run_samples_sampled {rcpr : Rcpr F} {fuel : Nat} {m : Material F} {options : Options F}
    {d : PyDict F} {i : IonDict F} {energy x ux uy uz : F} {tapes : Nat → Tape F} {n : Nat}
    {outs : List (List (Particle F))} (hi : unpack_ion d = .ok i)
    (h : run_samples rcpr fuel m options i energy x ux uy uz tapes n = .ok outs) :
    Sampled rcpr fuel m options d energy x ⟨ux, uy, uz⟩ n tapes outs := by
  obtain ⟨h1, h2⟩ := collectN_length h
  refine ⟨h1, i.Z, i.m, i.Ec, i.Es, unpack_ion_ok hi, fun k out ho => ?_⟩
  have := h2 k out ho
  simp only [bind, Except.bind, pure, Except.pure] at this
  split at this
  · simp at this
  · rename_i p hp
    split at this
    · simp at this
    · rename_i o hrun
      simp only [Except.ok.injEq] at this
      subst this
      exact ⟨p, o.2, (default_incident_ok hp).1, hrun⟩

theorem check_angle_ok {angle : F} {u : Unit} (h : check_angle angle = .ok u) :
    (abs angle <=. 90.0) = true := by
  unfold check_angle at h
  by_contra hc
  simp [rassert, hc] at h

/-- **C58** `sputtering_yield` returns the number of sputtered atoms divided by the number of
samples, whatever the schedule (as long as the 32-bit counter does not overflow). The samples are
complete cascades of fresh ions of the given species, energy and angle to the surface normal, on a
half space of the given species; sample `k` uses random stream `k`. -/
theorem C58_sputtering_yield {rcpr : Rcpr F} {fuel : Nat} {ext : Ext F} {ion target : PyDict F}
    {energy angle : F} {n : Nat} {tapes : Nat → Tape F} {r : F}
    (h : sputtering_yield rcpr fuel ext ion target energy angle n tapes r) :
    (abs angle <=. 90.0) = true ∧ ∃ Z2 m2 Ec2 Es2 Eb2 n2 mat outs,
      TargetEntries target Z2 m2 Ec2 Es2 Eb2 n2 ∧
      HalfSpace mat [Z2] [m2] [Ec2] [Es2] [Eb2] [n2] 1.0 .AVERAGE ∧
      Sampled rcpr fuel mat (Options.default_options true) ion energy
        (-barrier_thickness (fsum [n2/powi 1.0 3]))
        ⟨cos (angle/180.0*pi) + 1e-6, sin (angle/180.0*pi) - 1e-6, 0.0⟩ n tapes outs ∧
      (howMany SputteredAway outs.flatten < 2^31 →
        r = ofNat (howMany SputteredAway outs.flatten) / ofNat n) := by
  obtain ⟨outs, h1, -, h2⟩ := sputtering_yield_value h
  unfold sputtering_samples at h1
  simp only [bind, Except.bind] at h1
  split at h1; · simp at h1
  rename_i ha
  split at h1; · simp at h1
  rename_i i hi
  split at h1; · simp at h1
  rename_i t ht
  split at h1; · simp at h1
  rename_i mm hm
  obtain ⟨mat, mesh⟩ := mm
  obtain ⟨hmat, -, -, hb⟩ := mesh0d_material_ok (u := (1.0:F)) rfl hm
  have hs := run_samples_sampled hi h1
  simp only [hb] at hs
  exact ⟨check_angle_ok ha, t.Z, t.m, t.Ec, t.Es, t.Eb, t.n, mat, outs, unpack_target_ok ht, hmat, hs, h2⟩

/-- **C58** `reflection_coefficient` returns the number of reflected ions over the number of samples
and the sum of their energies, added in some order, over the incident energy; the samples are as for
`sputtering_yield`, without recoils. -/
theorem C58_reflection_coefficient {rcpr : Rcpr F} {fuel : Nat} {ext : Ext F}
    {ion target : PyDict F} {energy angle : F} {n : Nat} {tapes : Nat → Tape F} {r : F × F}
    (h : reflection_coefficient rcpr fuel ext ion target energy angle n tapes r) :
    (abs angle <=. 90.0) = true ∧ ∃ Z2 m2 Ec2 Es2 Eb2 n2 mat outs,
      TargetEntries target Z2 m2 Ec2 Es2 Eb2 n2 ∧
      HalfSpace mat [Z2] [m2] [Ec2] [Es2] [Eb2] [n2] 1.0 .AVERAGE ∧
      Sampled rcpr fuel mat (Options.default_options false) ion energy
        (-barrier_thickness (fsum [n2/powi 1.0 3]))
        ⟨cos (angle/180.0*pi) + 1e-6, sin (angle/180.0*pi) - 1e-6, 0.0⟩ n tapes outs ∧
      (howMany ReflectedBack outs.flatten < 2^31 →
        r.1 = ofNat (howMany ReflectedBack outs.flatten) / ofNat n ∧
        ∃ l, List.Perm l (energiesOf ReflectedBack outs.flatten) ∧
          r.2 = fsum l / EV F / energy / ofNat n) := by
  obtain ⟨outs, h1, -, h2⟩ := reflection_coefficient_value h
  unfold reflection_samples at h1
  simp only [bind, Except.bind] at h1
  split at h1; · simp at h1
  rename_i ha
  split at h1; · simp at h1
  rename_i i hi
  split at h1; · simp at h1
  rename_i t ht
  split at h1; · simp at h1
  rename_i mm hm
  obtain ⟨mat, mesh⟩ := mm
  obtain ⟨hmat, -, -, hb⟩ := mesh0d_material_ok (u := (1.0:F)) rfl hm
  have hs := run_samples_sampled hi h1
  simp only [hb] at hs
  exact ⟨check_angle_ok ha, t.Z, t.m, t.Ec, t.Es, t.Eb, t.n, mat, outs, unpack_target_ok ht, hmat, hs, h2⟩

theorem mapM_unpack_ok {targets : List (PyDict F)} {key : String} {l : List F}
    (h : unpack_all targets key = .ok l) :
    List.Forall₂ (fun t x => t key = some (.float x)) targets l := by
  unfold unpack_all at h
  induction targets generalizing l with
  | nil =>
    simp only [List.mapM_nil, pure, Except.pure, Except.ok.injEq] at h
    subst h; exact .nil
  | cons t ts ih =>
    simp only [List.mapM_cons, bind, Except.bind, pure, Except.pure] at h
    split at h; · simp at h
    rename_i x hx
    split at h; · simp at h
    rename_i xs hxs
    simp only [Except.ok.injEq] at h
    subst h
    exact .cons (unpack_ok hx) (ih hxs)

/-- **C58** The same for `compound_reflection_coefficient`: the target has one species per dictionary,
with number densities given separately. -/
theorem C58_compound_reflection_coefficient {rcpr : Rcpr F} {fuel : Nat} {ext : Ext F}
    {ion : PyDict F} {targets : List (PyDict F)} {ns : List F}
    {energy angle : F} {n : Nat} {tapes : Nat → Tape F} {r : F × F}
    (h : compound_reflection_coefficient rcpr fuel ext ion targets ns energy angle n tapes r) :
    (abs angle <=. 90.0) = true ∧ ∃ Z2 m2 Ec2 Es2 Eb2 mat outs,
      List.Forall₂ (fun t x => t "Z" = some (.float x)) targets Z2 ∧
      List.Forall₂ (fun t x => t "m" = some (.float x)) targets m2 ∧
      List.Forall₂ (fun t x => t "Ec" = some (.float x)) targets Ec2 ∧
      List.Forall₂ (fun t x => t "Es" = some (.float x)) targets Es2 ∧
      List.Forall₂ (fun t x => t "Eb" = some (.float x)) targets Eb2 ∧
      HalfSpace mat Z2 m2 Ec2 Es2 Eb2 ns 1.0 .AVERAGE ∧
      Sampled rcpr fuel mat (Options.default_options false) ion energy
        (-barrier_thickness (fsum (ns.map (· / powi 1.0 3))))
        ⟨cos (angle/180.0*pi) + 1e-6, sin (angle/180.0*pi) - 1e-6, 0.0⟩ n tapes outs ∧
      (howMany ReflectedBack outs.flatten < 2^31 →
        r.1 = ofNat (howMany ReflectedBack outs.flatten) / ofNat n ∧
        ∃ l, List.Perm l (energiesOf ReflectedBack outs.flatten) ∧
          r.2 = fsum l / EV F / energy / ofNat n) := by
  obtain ⟨outs, h1, -, h2⟩ := compound_reflection_coefficient_value h
  unfold compound_reflection_samples at h1
  simp only [bind, Except.bind] at h1
  split at h1; · simp at h1
  rename_i ha
  split at h1; · simp at h1
  rename_i i hi
  split at h1; · simp at h1
  rename_i Z2 hZ
  split at h1; · simp at h1
  rename_i m2 hm2
  split at h1; · simp at h1
  rename_i Ec2 hEc
  split at h1; · simp at h1
  rename_i Es2 hEs
  split at h1; · simp at h1
  rename_i Eb2 hEb
  split at h1; · simp at h1
  rename_i mm hm
  obtain ⟨mat, mesh⟩ := mm
  obtain ⟨hmat, -, -, hb⟩ := mesh0d_material_ok (u := (1.0:F)) rfl hm
  have hs := run_samples_sampled hi h1
  simp only [hb] at hs
  exact ⟨check_angle_ok ha, Z2, m2, Ec2, Es2, Eb2, mat, outs, mapM_unpack_ok hZ, mapM_unpack_ok hm2,
    mapM_unpack_ok hEc, mapM_unpack_ok hEs, mapM_unpack_ok hEb, hmat, hs, h2⟩

/-- **C58** Over the reals the direction of incidence the yield functions use makes the given angle
with the surface normal, up to a few millionths of a radian, and lies in the plane `z = 0`. -/
theorem C58_incidence (angle : ℝ) :
    ∀ d : Vec3 ℝ, d = ⟨Real.cos (angle/180*Real.pi) + 1e-6, Real.sin (angle/180*Real.pi) - 1e-6, 0⟩ →
    |d.x/Real.sqrt (d.x*d.x + d.y*d.y + d.z*d.z) - Real.cos (angle/180*Real.pi)| ≤ 1e-5 ∧
    |d.y/Real.sqrt (d.x*d.x + d.y*d.y + d.z*d.z) - Real.sin (angle/180*Real.pi)| ≤ 1e-5 ∧
    d.z/Real.sqrt (d.x*d.x + d.y*d.y + d.z*d.z) = 0 := by
  intro d hd
  have hdx : d.x = Real.cos (angle/180*Real.pi) + 1e-6 := by rw [hd]
  have hdy : d.y = Real.sin (angle/180*Real.pi) - 1e-6 := by rw [hd]
  have hdz : d.z = 0 := by rw [hd]
  have hcs := Real.sin_sq_add_cos_sq (angle/180*Real.pi)
  have c1 := Real.cos_le_one (angle/180*Real.pi)
  have c2 := Real.neg_one_le_cos (angle/180*Real.pi)
  have s1 := Real.sin_le_one (angle/180*Real.pi)
  have s2 := Real.neg_one_le_sin (angle/180*Real.pi)
  rw [hdx, hdy, hdz]
  generalize Real.cos (angle/180*Real.pi) = c at *
  generalize Real.sin (angle/180*Real.pi) = s at *
  obtain ⟨R, hR⟩ : ∃ R, R = Real.sqrt ((c + 1e-6)*(c + 1e-6) + (s - 1e-6)*(s - 1e-6) + 0*0) := ⟨_, rfl⟩
  rw [← hR]
  have e : (c + 1e-6)*(c + 1e-6) + (s - 1e-6)*(s - 1e-6) + 0*0 = 1 + 2e-6*(c - s) + 2e-12 := by
    norm_num
    linear_combination hcs
  have hR2 : R ≤ 1 + 3e-6 := by
    rw [hR, e, Real.sqrt_le_left (by norm_num)]
    norm_num
    nlinarith
  have hR1 : 1 - 3e-6 ≤ R := by
    rw [hR, e]
    refine Real.le_sqrt_of_sq_le ?_
    norm_num
    nlinarith
  have hR0 : 0 < R := lt_of_lt_of_le (by norm_num) hR1
  refine ⟨?_, ?_, by simp⟩
  · rw [div_sub' hR0.ne', abs_div, abs_of_pos hR0, div_le_iff₀ hR0, abs_le]
    constructor <;> norm_num at * <;> nlinarith
  · rw [div_sub' hR0.ne', abs_div, abs_of_pos hR0, div_le_iff₀ hR0, abs_le]
    constructor <;> norm_num at * <;> nlinarith

end RustBCA
