import Verif.Proofs.SpecialTarget
import Verif.Props.Energy

/-! # Free paths and collision partners over numbers with special values (helper lemmas for C95) -/

namespace RustBCA
open Scalar Spec

set_option linter.unusedSimpArgs false
set_option linter.unusedVariables false

def BinaryCollisionGeometry.lift (g : BinaryCollisionGeometry ℝ) : BinaryCollisionGeometry XReal :=
  ⟨.fin g.phi_azimuthal, .fin g.impact_parameter, .fin g.mfp⟩

theorem Spec.OpenUnit.shift {t : Tape ℝ} (h : OpenUnit t) (k : Nat) : OpenUnit (fun n => t (k + n)) := fun n => h _

theorem Spec.OpenUnit.next {t : Tape ℝ} (h : OpenUnit t) : OpenUnit (fun n => t (n + 1)) := fun n => h _

theorem Spec.OpenUnit.unit {t : Tape ℝ} (h : OpenUnit t) : UnitInterval t := fun n => ⟨(h n).1.le, (h n).2⟩

theorem random_ok {t t1 : Tape ℝ} {a : ℝ} (h : (random : M ℝ ℝ) t = .ok (a, t1)) :
    a = t 0 ∧ t1 = fun n => t (n + 1) := by
  cases h
  exact ⟨rfl, rfl⟩

namespace XReal

theorem zipWith_pos_eq (l cs : List ℝ) : Material.weighted_sum l cs = (List.zipWith (· * ·) l cs).sum := by
  unfold Material.weighted_sum
  rw [fsum_real, List.zip_eq_zipWith, List.map_zipWith]

theorem ffp_limits_fin {mat : Material ℝ} {mat' : Material XReal} (h : SameMaterial mat mat') (hm : RegularTarget mat)
    {p : Particle ℝ} (hp : RegularParticle p) {pmax ffp : ℝ} (run : ffp_limits p mat = .ok (pmax, ffp)) :
    (0 < p.E → ffp_limits p.lift mat' = .ok (fin pmax, fin ffp) ∧ 0 < pmax) ∧
    (p.E = 0 → ffp = 0 ∧ ffp_limits p.lift mat' = .ok (pinf, fin 0)) := by
  unfold ffp_limits at run
  simp only [bind, Except.bind] at run
  cases h1 : mat.average_mass p.pos.x p.pos.y p.pos.z with
  | error e => rw [h1] at run; cases run
  | ok Mb =>
  rw [h1] at run
  simp only at run
  cases h2 : mat.average_Z p.pos.x p.pos.y p.pos.z with
  | error e => rw [h2] at run; cases run
  | ok Zb =>
  rw [h2] at run
  simp only at run
  cases h3 : mat.number_densities p.pos.x p.pos.y p.pos.z with
  | error e => rw [h3] at run; cases run
  | ok ns =>
  rw [h3] at run
  simp only at run
  cases h4 : mat.electronic_stopping_correction_factor p.pos.x p.pos.y p.pos.z with
  | error e => rw [h4] at run; cases run
  | ok ck =>
  rw [h4] at run
  simp only at run
  cases h5 : mat.total_number_density p.pos.x p.pos.y p.pos.z with
  | error e => rw [h5] at run; cases run
  | ok total =>
  rw [h5] at run
  simp only at run
  cases h6 : mat.electronic_stopping_cross_sections p .INTERPOLATED with
  | error e => rw [h6] at run; cases run
  | ok S =>
  rw [h6] at run
  simp only at run
  have g1 := average_mass_fin h p.pos.x p.pos.y p.pos.z _ h1
  have g2 := average_Z_fin h p.pos.x p.pos.y p.pos.z _ h2
  have g3 := densities_fin h p.pos.x p.pos.y p.pos.z _ h3
  have g4 := ck_fin h p.pos.x p.pos.y p.pos.z _ h4
  have g5 := total_fin h p.pos.x p.pos.y p.pos.z _ h5
  have g6 := stopping_fin h hm hp .INTERPOLATED _ h6
  have hN := total_pos h _ _ _ hm h5
  have hck := hm.ck_pos _ _ _ _ h4
  have hpos : 0 < Mb ∧ 0 < Zb := by
    unfold Material.average_mass at h1
    unfold Material.average_Z at h2
    cases hc : mat.geometry.get_concentrations p.pos.x p.pos.y p.pos.z with
    | error e => rw [hc] at h1; cases h1
    | ok cs =>
      rw [hc] at h1 h2
      cases h1
      cases h2
      obtain ⟨a, b⟩ := hm.atoms _ _ _ _ hc
      rw [zipWith_pos_eq, zipWith_pos_eq]
      exact ⟨b, a⟩
  obtain ⟨hMb, hZb⟩ := hpos
  have hMa := hp.m_pos
  have hZa := hp.Z_pos
  have hEc := hp.Ec_pos
  obtain ⟨ga, ha⟩ := screening_length_fin' (.MOLIERE : InteractionPotential ℝ) .moliere hZa hZb.le
  have ga' : screening_length (fin p.Z) (fin Zb) (.MOLIERE : InteractionPotential XReal) =
    fin (screening_length p.Z Zb (.MOLIERE : InteractionPotential ℝ)) := ga
  obtain ⟨a, hadef⟩ : ∃ a, a = screening_length p.Z Zb (.MOLIERE : InteractionPotential ℝ) := ⟨_, rfl⟩
  rw [← hadef] at ga' ha run
  have hL : 0 < LINDHARD_REDUCED_ENERGY_PREFACTOR ℝ := by
    unfold LINDHARD_REDUCED_ENERGY_PREFACTOR
    have := EPS0_pos; have := Q_pos; have := Real.pi_pos
    have h4 : (0:ℝ) < 4.0 := by norm_num
    simp only [pi_real]
    positivity
  have hM : p.m + Mb ≠ 0 := by positivity
  have h40 : (4.0:ℝ) ≠ 0 := by norm_num
  have h40' : (0:ℝ) < 4.0 := by norm_num
  obtain ⟨red, hred⟩ : ∃ red, red = LINDHARD_REDUCED_ENERGY_PREFACTOR ℝ*a*Mb/(p.m + Mb)/p.Z/Zb*p.E := ⟨_, rfl⟩
  obtain ⟨rmin, hrmin⟩ : ∃ rmin, rmin = LINDHARD_REDUCED_ENERGY_PREFACTOR ℝ*a*Mb/(p.m + Mb)/p.Z/Zb*
    (p.Ec*(p.m + Mb)*(p.m + Mb)/4.0/p.m/Mb) := ⟨_, rfl⟩
  have hE0 := hp.E_nonneg
  have hred0 : 0 ≤ red := by rw [hred]; positivity
  have hrmin0 : 0 < rmin := by rw [hrmin]; positivity
  have hprod : 0 ≤ red*rmin := by positivity
  obtain ⟨ep, hep⟩ : ∃ ep, ep = Real.sqrt (red*rmin) := ⟨_, rfl⟩
  have hep0 : 0 ≤ ep := by rw [hep]; exact Real.sqrt_nonneg _
  have hden : 0 ≤ ep + Real.sqrt ep + 0.125*ep ^ (0.1:ℝ) := by
    have := Real.sqrt_nonneg ep
    have := Real.rpow_nonneg hep0 (0.1:ℝ)
    have : (0:ℝ) < 0.125 := by norm_num
    positivity
  rw [← hred, ← hrmin] at run
  simp only [sqrt_real, powf_real, pi_real] at run
  rw [← hep] at run
  have h01 : (0:ℝ) < 0.1 := by norm_num
  have e0 : p.lift.E = fin p.E := rfl
  have e1 : p.lift.pos.x = fin p.pos.x := rfl
  have e2 : p.lift.pos.y = fin p.pos.y := rfl
  have e3 : p.lift.pos.z = fin p.pos.z := rfl
  have e4 : p.lift.m = fin p.m := rfl
  have e5 : p.lift.Z = fin p.Z := rfl
  have e6 : p.lift.Ec = fin p.Ec := rfl
  have g7 : ((S.map fin).zip (ns.map fin)).map (fun (x : XReal × XReal) =>
      match x with | (se, number_density) => se*number_density) =
      ((S.zip ns).map (fun (x : ℝ × ℝ) => match x with | (se, number_density) => se*number_density)).map fin :=
    zip_fin S ns
  have hpi := Real.pi_pos
  constructor
  · intro hE
    have hred1 : 0 < red := by rw [hred]; positivity
    have hep1 : 0 < ep := by rw [hep]; exact Real.sqrt_pos.2 (by positivity)
    have hden1 : 0 < ep + Real.sqrt ep + 0.125*ep ^ (0.1:ℝ) := by
      have := Real.sqrt_nonneg ep
      have := Real.rpow_nonneg hep0 (0.1:ℝ)
      have : (0:ℝ) < 0.125 := by norm_num
      positivity
    obtain ⟨pm, hpm⟩ : ∃ pm, pm = a/(ep + Real.sqrt ep + 0.125*ep ^ (0.1:ℝ)) := ⟨_, rfl⟩
    have hpm0 : 0 < pm := by rw [hpm]; positivity
    rw [← hpm] at run
    have hf : total*pm*pm*Real.pi ≠ 0 := by positivity
    obtain ⟨fp, hfp⟩ : ∃ fp, fp = 1.0/(total*pm*pm*Real.pi) := ⟨_, rfl⟩
    have hfp0 : 0 < fp := by
      rw [hfp]
      have : (0:ℝ) < 1.0 := by norm_num
      positivity
    rw [← hfp] at run
    unfold ffp_limits
    simp only [e0, e1, e2, e3, e4, e5, e6, g1, g2, g3, g4, g5, g6, bind, Except.bind, pure, Except.pure, ga',
      lindhard_fin, fin_mul, fin_add, fin_div hM, fin_div hZa.ne', fin_div hZb.ne', fin_lit, fin_div h40,
      fin_div hMa.ne', fin_div hMb.ne', ← hred, ← hrmin, fin_sqrt hprod, ← hep, fin_sqrt hep0,
      fin_powf' hep0 h01, fin_div hden1.ne', ← hpm, fin_pi, fin_div hf, ← hfp, g7, fsum_fin, fin_lt]
    obtain ⟨delta, hdelta⟩ : ∃ delta, delta = fsum ((S.zip ns).map (fun (x : ℝ × ℝ) => match x with
      | (se, number_density) => se*number_density))*fp*ck := ⟨_, rfl⟩
    rw [← hdelta] at run ⊢
    by_cases hc : 0.05*p.E < delta
    · have hd0 : 0 < delta := lt_trans (by
        have : (0:ℝ) < 0.05 := by norm_num
        positivity) hc
      rw [if_pos ((lt_real _ _).2 hc)] at run
      simp only [pure, Except.pure] at run
      cases run
      rw [if_pos (decide_eq_true hc)]
      have h05 : (0:ℝ) < 0.05 := by norm_num
      have h10 : (0:ℝ) < 1.0 := by norm_num
      have hq : total*Real.pi*(fp*(0.05*p.E/delta)) ≠ 0 := by positivity
      have hr : 0 < 1.0/(total*Real.pi*(fp*(0.05*p.E/delta))) := by positivity
      simp only [fin_div hd0.ne', fin_mul, fin_div hq, fin_sqrt hr.le]
      exact ⟨trivial, Real.sqrt_pos.2 hr⟩
    · rw [if_neg (fun hh => hc ((lt_real _ _).1 hh))] at run
      cases run
      rw [if_neg (fun hh => hc (of_decide_eq_true hh))]
      exact ⟨rfl, hpm0⟩
  · intro hE
    have hred1 : red = 0 := by rw [hred, hE, mul_zero]
    have hep1 : ep = 0 := by rw [hep, hred1, zero_mul, Real.sqrt_zero]
    rw [hep1, hE] at run
    have hz : (0:ℝ) + Real.sqrt 0 + 0.125*0 ^ (0.1:ℝ) = 0 := by
      rw [Real.sqrt_zero, Real.zero_rpow h01.ne']; norm_num
    simp only [hz, div_zero, mul_zero, zero_mul] at run
    rw [if_neg (fun hh => lt_irrefl _ ((lt_real _ _).1 hh))] at run
    cases run
    refine ⟨rfl, ?_⟩
    have hz' : fin a/fin (ep + Real.sqrt ep + 0.125*ep ^ (0.1:ℝ)) = pinf := by
      rw [hep1, hz]
      show (if (0:ℝ) = 0 then signInf a else _) = _
      rw [if_pos rfl, signInf, if_pos ha]
    have hk : fin total*pinf*pinf*fin Real.pi = pinf := by
      have k1 : fin total*pinf = pinf := by
        show signInf total = _
        rw [signInf, if_pos hN]
      have k2 : pinf*fin Real.pi = pinf := by
        show signInf Real.pi = _
        rw [signInf, if_pos hpi]
      rw [k1]
      exact k2
    have hone : fin (1.0)/pinf = fin 0 := rfl
    have hE1 : (0.05:ℝ)*p.E = 0 := by rw [hE, mul_zero]
    unfold ffp_limits
    simp only [e0, e1, e2, e3, e4, e5, e6, g1, g2, g3, g4, g5, g6, bind, Except.bind, pure, Except.pure, ga',
      lindhard_fin, fin_mul, fin_add, fin_div hM, fin_div hZa.ne', fin_div hZb.ne', fin_lit, fin_div h40,
      fin_div hMa.ne', fin_div hMb.ne', ← hred, ← hrmin, fin_sqrt hprod, ← hep, fin_sqrt hep0,
      fin_powf' hep0 h01, hz', fin_pi, hk, hone, g7, fsum_fin, fin_lt, mul_zero, zero_mul, hE1]
    rw [if_neg (by simp)]

theorem sqrt_draw {r pmax : ℝ} (k : Nat) (h : 0 ≤ r) :
    fin pmax*Scalar.sqrt (fin r + Scalar.ofNat k) = fin (pmax*Real.sqrt (r + k)) := by
  rw [fin_ofNat, fin_add, fin_sqrt (by positivity), fin_mul]

theorem exponential_fin {t : Tape ℝ} (h : OpenUnit t) :
    MLift fin (exponential : M ℝ ℝ) (exponential : M XReal XReal) t := by
  unfold exponential
  refine MLift.bind MLift.random fun r t1 hr => MLift.pure ?_
  obtain ⟨rfl, _⟩ := random_ok hr
  rw [fin_ln (h 0).1, fin_neg]
  rfl

theorem draw_phis_fin (n : Nat) (t : Tape ℝ) :
    MLift (List.map fin) (draw_phis n : M ℝ (List ℝ)) (draw_phis n : M XReal (List XReal)) t := by
  unfold draw_phis
  refine (MLift.collectN (P := fun _ => True) (fun k t _ => ?_) (fun _ _ _ _ _ _ => trivial) n t trivial).1
  refine MLift.bind MLift.random fun r t1 _ => MLift.pure ?_
  rw [fin_pi, fin_lit, fin_mul, fin_mul]
  rfl

theorem draw_phis_rest (n : Nat) (t : Tape ℝ) {l : List ℝ} {t1 : Tape ℝ}
    (h : (draw_phis n : M ℝ (List ℝ)) t = .ok (l, t1)) : t1 = fun k => t (n + k) := by
  unfold draw_phis at h
  rw [collect_random (fun _ r => 2.0*pi*r) n t] at h
  cases h
  rfl

/-- shortening the first path -/
theorem first_fin {p : Particle ℝ} (mfp ffp : ℝ) {t : Tape ℝ} :
    MLift (fun x : Particle ℝ × ℝ => (x.1.lift, fin x.2))
      (if p.first_step = true then do
          let r ← random
          pure ({ p with first_step := false }, mfp*r)
        else pure (p, ffp) : M ℝ (Particle ℝ × ℝ))
      (if p.lift.first_step = true then do
          let r ← random
          pure ({ p.lift with first_step := false }, fin mfp*r)
        else pure (p.lift, fin ffp) : M XReal (Particle XReal × XReal)) t := by
  refine MLift.ite rfl (fun _ => ?_) (fun _ => MLift.pure rfl)
  exact MLift.bind MLift.random fun r t1 _ => MLift.pure rfl

theorem first_rest {p : Particle ℝ} (mfp ffp : ℝ) {t t1 : Tape ℝ} {x : Particle ℝ × ℝ} (ht : OpenUnit t)
    (h : (if p.first_step = true then do
          let r ← random
          pure ({ p with first_step := false }, mfp*r)
        else pure (p, ffp) : M ℝ (Particle ℝ × ℝ)) t = .ok (x, t1)) : OpenUnit t1 := by
  by_cases hf : p.first_step = true
  · rw [if_pos hf] at h
    cases h
    exact ht.next
  · rw [if_neg hf] at h
    cases h
    exact ht

theorem fin_lt' (a b : ℝ) : (fin a <. fin b) = (a <. b) := by
  rw [fin_lt]
  by_cases h : a < b
  · rw [decide_eq_true h]; exact ((lt_real _ _).2 h).symm
  · rw [decide_eq_false h]; exact (Bool.eq_false_iff.2 fun hh => h ((lt_real _ _).1 hh)).symm

theorem determine_fin {mat : Material ℝ} {mat' : Material XReal} (h : SameMaterial mat mat') (hm : RegularTarget mat)
    {p : Particle ℝ} (hp : RegularParticle p) (o : Options ℝ) {t : Tape ℝ} (ht : OpenUnit t) :
    MLift (fun x : Particle ℝ × List (BinaryCollisionGeometry ℝ) => (x.1.lift, x.2.map (·.lift)))
      (determine_mfp_phi_impact_parameter p mat o) (determine_mfp_phi_impact_parameter p.lift mat' o.lift) t := by
  have hs : SQRTPI ℝ ≠ 0 := by rw [SQRTPI_real]; exact (Real.sqrt_pos.2 Real.pi_pos).ne'
  unfold determine_mfp_phi_impact_parameter
  refine MLift.bind (MLift.lift (mfp_fin h p.pos.x p.pos.y p.pos.z hm)) fun mfp t0 hmfp => ?_
  obtain ⟨hmf, rfl⟩ : mat.mfp p.pos.x p.pos.y p.pos.z = .ok mfp ∧ t0 = t := by
    cases hq : mat.mfp p.pos.x p.pos.y p.pos.z with
    | error e => rw [hq] at hmfp; cases hmfp
    | ok a => rw [hq] at hmfp; cases hmfp; exact ⟨rfl, rfl⟩
  have hmfp0 : 0 < mfp := by
    unfold Material.mfp at hmf
    cases hq : mat.total_number_density p.pos.x p.pos.y p.pos.z with
    | error e => rw [hq] at hmf; cases hmf
    | ok n =>
      rw [hq] at hmf
      cases hmf
      exact Real.rpow_pos_of_pos (total_pos h _ _ _ hm hq) _
  refine MLift.bind (draw_phis_fin _ _) fun phis t1 hphi => ?_
  have ht1 : OpenUnit t1 := by rw [draw_phis_rest _ _ hphi]; exact ht.shift _
  clear hphi
  refine MLift.ite rfl (fun _ => ?_) (fun _ => ?_)
  · -- long paths
    refine MLift.lift_bind fun x hl => ?_
    obtain ⟨pmax, ffp⟩ := x
    obtain ⟨l1, l2⟩ := ffp_limits_fin h hm hp hl
    obtain ⟨pm', hl', hpm'⟩ : ∃ pm', ffp_limits p.lift mat' = .ok (pm', fin ffp) ∧ (mfp ≤ ffp → pm' = fin pmax) := by
      rcases hp.E_nonneg.lt_or_eq with hE | hE
      · exact ⟨_, (l1 hE).1, fun _ => rfl⟩
      · obtain ⟨e1, e2⟩ := l2 hE.symm
        subst e1
        exact ⟨_, e2, fun hh => by linarith⟩
    refine ⟨_, hl', ?_⟩
    simp only
    refine MLift.ite (fin_lt' _ _) (fun _ => ?_) (fun hc => ?_)
    · have hpm : fin mfp/SQRTPI XReal = fin (mfp/SQRTPI ℝ) := by rw [sqrtpi_fin, fin_div hs]
      rw [hpm]
      refine MLift.bind MLift.random fun r t2 hr => ?_
      obtain ⟨rfl, rfl⟩ := random_ok hr
      refine MLift.bind (first_fin mfp mfp) fun x t3 hx => ?_
      have ht3 := first_rest mfp mfp ht1.next hx
      obtain ⟨p1, ffp1⟩ := x
      simp only
      refine MLift.bind (f := fin) ?_ fun e t4 _ => ?_
      · have ho : o.lift.mean_free_path_model = o.mean_free_path_model.lift := rfl
        rw [ho]
        cases o.mean_free_path_model with
        | GASEOUS => exact exponential_fin ht3
        | LIQUID => exact MLift.pure rfl
        | THRESHOLD density =>
          refine MLift.lift_bind fun ns hns => ⟨_, densities_fin h _ _ _ ns hns, ?_⟩
          rw [fsum_fin]
          exact MLift.ite (fin_lt' _ _) (fun _ => exponential_fin ht3) (fun _ => MLift.pure rfl)
      · refine MLift.bind (MLift.lift (RLift.vget _ _)) fun phi t5 _ => MLift.pure ?_
        rw [fin_sqrt (ht1 0).1.le]
        rfl
    · have hle : mfp ≤ ffp := (lt_real_false _ _).1 hc
      rw [hpm' hle]
      refine MLift.bind MLift.random fun r t2 hr => ?_
      obtain ⟨rfl, rfl⟩ := random_ok hr
      refine MLift.bind (first_fin mfp ffp) fun x t3 hx => ?_
      have ht3 := first_rest mfp ffp ht1.next hx
      obtain ⟨p1, ffp1⟩ := x
      simp only
      refine MLift.bind (f := fin) ?_ fun e t4 _ => ?_
      · refine MLift.ite ?_ (fun _ => MLift.bind (exponential_fin ht3) fun e t4 _ => MLift.pure rfl)
          (fun _ => MLift.pure rfl)
        show o.mean_free_path_model.lift.isGaseous = _
        cases o.mean_free_path_model <;> rfl
      · refine MLift.bind (MLift.lift (RLift.vget _ _)) fun phi t5 _ => MLift.pure ?_
        have hlog : 0 ≤ -Real.log (t1 0) := by
          have := Real.log_nonpos (ht1 0).1.le (ht1 0).2.le
          linarith
        rw [fin_ln (ht1 0).1, fin_neg, fin_sqrt hlog]
        rfl
  · have hpm : fin mfp/SQRTPI XReal = fin (mfp/SQRTPI ℝ) := by rw [sqrtpi_fin, fin_div hs]
    simp only [hpm]
    obtain ⟨c1, c2⟩ := MLift.collectN (P := OpenUnit) (f := fin)
        (step := fun k => do
          let random_number ← random
          pure (mfp/SQRTPI ℝ*Scalar.sqrt (random_number + ofNat k)))
        (step' := fun k => do
          let random_number ← random
          pure (fin (mfp/SQRTPI ℝ)*Scalar.sqrt (random_number + ofNat k)))
      (fun k t ht => MLift.bind MLift.random fun r t1 hr => MLift.pure (by
        obtain ⟨rfl, _⟩ := random_ok hr
        exact sqrt_draw k (ht 0).1.le))
      (fun k t a t1 ht hrun => by
        cases hrun
        exact ht.next)
      (o.weak_collision_order + 1) t1 ht1
    refine MLift.bind c1 fun ps t2 hps => ?_
    have ht2 := c2 ps t2 hps
    refine MLift.bind (first_fin mfp mfp) fun x t3 hx => ?_
    have ht3 := first_rest mfp mfp ht2 hx
    obtain ⟨p1, mfp1⟩ := x
    simp only
    refine MLift.bind (f := fin) ?_ fun mfp2 t4 _ => MLift.pure ?_
    · refine MLift.ite ?_ (fun _ => MLift.bind (exponential_fin ht3) fun e t4 _ => MLift.pure rfl)
        (fun _ => MLift.pure rfl)
      show o.mean_free_path_model.lift.isGaseous = _
      cases o.mean_free_path_model <;> rfl
    · rw [List.zip_map, List.map_map, List.map_map]
      rfl

end XReal
end RustBCA
