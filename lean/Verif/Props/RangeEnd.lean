import Verif.Props.Range
import Verif.Props.NewtonSpeed
import Verif.Spec.SpecialRun
import Mathlib.Analysis.SpecialFunctions.Integrals.Basic

/-!
# C100 in the low-energy modes; C88: how many passes a particle can make inside the material
-/

set_option linter.unusedSimpArgs false
set_option linter.unusedVariables false

namespace RustBCA
open Scalar Spec

/-! ## The low-energy modes -/

theorem lindhard_scaling (E m Za Zb : ℝ) (hE : 0 ≤ E) : lindhardScharff E m Za Zb = Real.sqrt E*lindhardScharff 1 m Za Zb := by
  unfold lindhardScharff
  have : (E/Q ℝ)/(m/AMU ℝ) = E*((1/Q ℝ)/(m/AMU ℝ)) := by ring
  rw [this, Real.sqrt_mul hE]; ring

theorem stopping_one_pos (m Za Zb : ℝ) (hm : 0 < m) (hA : 0 < Za) (hB : 0 < Zb) : 0 < lindhardScharff 1 m Za Zb := by
  unfold lindhardScharff
  have h1 : (0:ℝ) < ANGSTROM ℝ := by unfold ANGSTROM; norm_num
  have h2 : (0:ℝ) < Q ℝ := by unfold Q; norm_num
  have h4 : (0:ℝ) < AMU ℝ := by unfold AMU; norm_num
  have h3 : 0 < Real.sqrt ((1/Q ℝ)/(m/AMU ℝ)) := Real.sqrt_pos.2 (by positivity)
  positivity

theorem zip_scale (Zs ns : List ℝ) (f : ℝ → ℝ) (c ck : ℝ) :
    (List.zipWith (fun Zb n => c*f Zb*ck*n) Zs ns).sum = c*(List.zipWith (fun Zb n => f Zb*ck*n) Zs ns).sum := by
  induction Zs generalizing ns with
  | nil => simp
  | cons a Zs ih =>
    cases ns with
    | nil => simp
    | cons b ns => simp only [List.zipWith_cons_cons, List.sum_cons, ih]; ring

theorem zip_pos (Zs ns : List ℝ) (f : ℝ → ℝ) (ck : ℝ) (hf : ∀ Z ∈ Zs, 0 < f Z) (hck : 0 < ck) (hn : ∀ n ∈ ns, 0 ≤ n)
    (hl : ns.length = Zs.length) :
    0 ≤ (List.zipWith (fun Zb n => f Zb*ck*n) Zs ns).sum ∧
      (0 < ns.sum → 0 < (List.zipWith (fun Zb n => f Zb*ck*n) Zs ns).sum) := by
  induction Zs generalizing ns with
  | nil =>
    have : ns = [] := List.length_eq_zero_iff.1 hl
    subst this; simp
  | cons a Zs ih =>
    cases ns with
    | nil => simp
    | cons b ns =>
      obtain ⟨i1, i2⟩ := ih ns (fun Z hZ => hf Z (List.mem_cons_of_mem _ hZ)) (fun n h => hn n (List.mem_cons_of_mem _ h))
        (by simpa using hl)
      have ha := hf a (by simp)
      have hb := hn b (by simp)
      simp only [List.zipWith_cons_cons, List.sum_cons]
      have h1 : 0 ≤ f a*ck*b := by positivity
      refine ⟨by linarith, fun h => ?_⟩
      rcases hb.lt_or_eq with hb | hb
      · have : 0 < f a*ck*b := by positivity
        linarith
      · have := i2 (by linarith)
        linarith

/-- **C100, the low-energy modes.** The part of Lindhard and Scharff's stopping power lost along the path goes with the
square root of the energy: it grows, and slowing down from `E0` to `E1` takes the path `2(√E0 − √E1)/k`, at most
`2*E0/S(E0)`, with `S(E) = k√E`. -/
theorem C100_low_energy (mode : ElectronicStoppingMode) (hmode : mode = .LOW_ENERGY_NONLOCAL ∨ mode = .LOW_ENERGY_EQUIPARTITION)
    (ck : ℝ) (hck : 0 < ck) (Zs ns : List ℝ) (hl : ns.length = Zs.length) (hZ : ∀ Z ∈ Zs, 0 < Z) (hn : ∀ n ∈ ns, 0 ≤ n)
    (hs : 0 < ns.sum) (Za m : ℝ) (hA : 0 < Za) (hm : 0 < m) :
    (∀ Emax, Growing (pathStopping mode ck Zs ns Za m) Emax) ∧
    ∃ k, 0 < k ∧ (∀ E, 0 ≤ E → pathStopping mode ck Zs ns Za m E = k*Real.sqrt E) ∧
      ∀ E0 E1, 0 < E1 → E1 ≤ E0 → slowingDown (pathStopping mode ck Zs ns Za m) E0 E1 = 2*(Real.sqrt E0 - Real.sqrt E1)/k ∧
        slowingDown (pathStopping mode ck Zs ns Za m) E0 E1 ≤ 2*E0/pathStopping mode ck Zs ns Za m E0 := by
  have hk0 := (zip_pos Zs ns (fun Zb => lindhardScharff 1 m Za Zb) ck (fun Z h => stopping_one_pos m Za Z hm hA (hZ Z h)) hck hn hl).2 hs
  obtain ⟨k, hk, hS⟩ : ∃ k, 0 < k ∧ ∀ E, 0 ≤ E → pathStopping mode ck Zs ns Za m E = k*Real.sqrt E := by
    have e : ∀ E, 0 ≤ E → (List.zipWith (fun Zb n => lindhardScharff E m Za Zb*ck*n) Zs ns).sum =
        Real.sqrt E*(List.zipWith (fun Zb n => lindhardScharff 1 m Za Zb*ck*n) Zs ns).sum := by
      intro E hE
      rw [← zip_scale]
      have hf : (fun Zb => lindhardScharff E m Za Zb) = fun Zb => Real.sqrt E*lindhardScharff 1 m Za Zb :=
        funext fun Zb => lindhard_scaling E m Za Zb hE
      simp only [congrFun hf]
    rcases hmode with rfl | rfl
    · exact ⟨_, hk0, fun E hE => by simp only [pathStopping]; rw [e E hE, mul_comm]⟩
    · exact ⟨_, half_pos hk0, fun E hE => by simp only [pathStopping]; rw [e E hE]; ring⟩
  have hG : ∀ Emax, Growing (pathStopping mode ck Zs ns Za m) Emax := fun Emax =>
    ⟨fun e he _ => by rw [hS e he.le]; exact mul_pos hk (Real.sqrt_pos.2 he),
      fun e e' he hee _ => by
        rw [hS e he.le, hS e' (he.le.trans hee)]
        exact mul_le_mul_of_nonneg_left (Real.sqrt_le_sqrt hee) hk.le⟩
  refine ⟨hG, k, hk, hS, fun E0 E1 h1 h2 => ?_⟩
  have h0 := lt_of_lt_of_le h1 h2
  have hint : slowingDown (pathStopping mode ck Zs ns Za m) E0 E1 = 2*(Real.sqrt E0 - Real.sqrt E1)/k := by
    unfold slowingDown
    have hd : ∀ e ∈ Set.uIcc E1 E0, HasDerivAt (fun x => 2*Real.sqrt x/k) (1/pathStopping mode ck Zs ns Za m e) e := by
      intro e he
      rw [Set.uIcc_of_le h2] at he
      have he0 : 0 < e := lt_of_lt_of_le h1 he.1
      refine (((Real.hasDerivAt_sqrt he0.ne').const_mul 2).div_const k).congr_deriv ?_
      rw [hS e he0.le]
      have := Real.sqrt_pos.2 he0
      field_simp
    rw [intervalIntegral.integral_eq_sub_of_hasDerivAt hd (inv_integrable (hG E0) h1 h0 h2 le_rfl)]
    ring
  refine ⟨hint, ?_⟩
  rw [hint, hS E0 h0.le]
  have hsq := Real.sqrt_pos.2 h0
  have e : 2*E0/(k*Real.sqrt E0) = 2*Real.sqrt E0/k := by
    have : E0 = Real.sqrt E0*Real.sqrt E0 := (Real.mul_self_sqrt h0.le).symm
    rw [div_eq_div_iff (by positivity) hk.ne']
    nlinarith
  rw [e]
  have := Real.sqrt_nonneg E1
  gcongr
  linarith

/-! ## The asymptotic deflection -/

theorem expsum_le_two (V : InteractionPotential ℝ) (hV : Screened V) (x : ℝ) (hx : 0 ≤ x) : expsum (screening_terms V) x ≤ 2 := by
  have h := (expsum_strictAnti _ (screening_terms_pos V) (screening_terms_ne V hV)).antitone hx
  refine h.trans ?_
  cases hV <;> simp only [screening_terms, expsum_cons, expsum_nil, mul_zero, Real.exp_zero] <;> norm_num

/-- The distance of closest approach `newton_rootfinder` finds is at most twice the Coulomb distance plus the impact
parameter. -/
theorem newton_result_le (V : InteractionPotential ℝ) (hV : Screened V) (Za Zb Ma Mb E0 p tol x : ℝ) (n : ℕ) (hA : 0 < Za)
    (hB : 0 < Zb) (hMa : 0 < Ma) (hMb : 0 < Mb) (hE : 0 < E0) (hp : 0 < p)
    (run : newton_rootfinder Za Zb Ma Mb E0 p V n tol = .ok (.ok x)) :
    0 < x ∧ x*screening_length Za Zb V ≤ 2*coulombConstant Za Zb/(E0*Mb/(Ma + Mb)) + p := by
  obtain ⟨F, dF, root, prev, hF, _, hr, hr0, hx, hle, _⟩ :=
    C21_newton_accuracy V hV Za Zb Ma Mb E0 p tol x n hA hB hMa hMb hE hp run
  have hs := screening_length_pos V hV hA hB
  have hEr : 0 < E0*Mb/(Ma + Mb) := by positivity
  have h1 := hF root
  rw [doca_screened V hV, hr0] at h1
  have hR : 0 < root*screening_length Za Zb V := mul_pos hr hs
  have h2 := closest_eq V hV (p := p) hA hB hEr hR
  rw [Except.ok.inj h1] at h2
  have hRa : root*screening_length Za Zb V/screening_length Za Zb V = root := by field_simp
  rw [hRa] at h2
  generalize hR' : root*screening_length Za Zb V = R at *
  have h3 := (mul_eq_zero.1 h2.symm).resolve_left hr.ne'
  have hphi := expsum_le_two V hV root hr.le
  have hphi0 := expsum_nonneg (screening_terms V) (screening_terms_pos V) root
  generalize expsum (screening_terms V) root = phi at *
  generalize E0*Mb/(Ma + Mb) = Er at *
  have hk : Za*Zb*Q ℝ*Q ℝ/4/Real.pi/EPS0 ℝ = coulombConstant Za Zb := by
    unfold coulombConstant Q EPS0
    ring
  rw [hk] at h3
  have hk0 : 0 < coulombConstant Za Zb := by
    unfold coulombConstant
    have := Real.pi_pos
    positivity
  generalize coulombConstant Za Zb = K at *
  refine ⟨hx, le_trans (mul_le_mul_of_nonneg_right hle hs.le) ?_⟩
  rw [hR']
  have h4 : R^2 = K*phi/Er*R + p^2 := by
    have := h3
    field_simp at this ⊢
    linarith
  by_contra hc
  push Not at hc
  have h5 : K*phi/Er ≤ 2*K/Er := by
    rw [mul_comm 2 K]
    gcongr
  have h6 : 0 < 2*K/Er := by positivity
  nlinarith

set_option maxHeartbeats 1000000 in
/-- After a pass without weak collisions, in a target where all potentials are screened, the asymptotic deflection is
bounded. -/
theorem screened_deflection (rcpr : Rcpr ℝ) {mat : Material ℝ} (o : Options ℝ) {ns : List ℝ} {ck : ℝ}
    (hu : SameEverywhere mat ns ck) (hm : SoundTarget mat) (hV : AllScreened o) (hw : o.weak_collision_order = 0)
    (hff : o.high_energy_free_flight_paths = false) {s : ℝ} (hn : 0 < ns.sum) (hs : IsSpacing ns.sum s)
    {p q : Particle ℝ} (hp : SoundParticle p) (hE : 0 < p.E) {ps qs : List (Particle ℝ)} {t t' : Tape ℝ} (ht : OpenUnit t)
    (run : trajectory_step rcpr mat o p ps t = .ok ((q, qs), t')) (K : ℝ) (hK0 : 0 ≤ K)
    (hK : ∀ Zb ∈ mat.Z, ∀ Mb ∈ mat.m, 2*coulombConstant p.Z Zb/(p.E*Mb/(p.m + Mb)) ≤ K) :
    q.asymptotic_deflection ≤ K + s := by
  have hs0 := hs.1
  have hun : UnitInterval t := fun k => ⟨(ht k).1.le, (ht k).2⟩
  obtain ⟨tr⟩ := sat_of_ok (pass_trace rcpr mat o p ps t) run
  simp only at tr
  obtain ⟨gs', t2, hdet', _, hlen, _, himp⟩ := annuli_rest p mat o t ns s (hu.densities _ _ _) hn hs hff hun
  have hmfp := tr.hmfp
  rw [hdet'] at hmfp
  simp only [Except.ok.injEq, Prod.mk.injEq] at hmfp
  obtain ⟨⟨hp1, hgs⟩, _⟩ := hmfp
  have hloop := tr.hloop
  rw [← hgs, hw] at hloop
  rw [hw] at hlen
  obtain ⟨g, rfl⟩ : ∃ g, gs' = [g] := List.length_eq_one_iff.1 hlen
  simp only [List.zipIdx_cons, List.zipIdx_nil, zero_add, List.take_succ_cons, List.take_nil, forFold, bind, StateT.bind,
    Except.bind, pure, StateT.pure, Except.pure] at hloop
  cases hc : collision_step rcpr mat o ⟨tr.p1, ps, 0.0, 0.0, 0.0, 0.0, 0⟩ (g, 0) tr.t1 with
  | error e => rw [hc] at hloop; cases hloop
  | ok v =>
    obtain ⟨s', t3⟩ := v
    rw [hc] at hloop
    simp only [Except.ok.injEq, Prod.mk.injEq] at hloop
    have hasy : q.asymptotic_deflection = tr.s.total_asymptotic_deflection := by
      obtain ⟨E, d, b, st, lf, l, hq⟩ := tr.q_eq
      obtain ⟨E3, h3⟩ := tr.p3_eq
      have h1 := congrArg Particle.asymptotic_deflection hq
      have h2 : (tr.p3.update_energy_loss_tracker o tr.s.total_energy_lost_to_recoils
          tr.el).asymptotic_deflection = tr.p3.asymptotic_deflection := by
        obtain ⟨⟨l', hl'⟩, _⟩ := tracker_same tr.p3 o tr.s.total_energy_lost_to_recoils tr.el
        rw [hl']
      have h4 := (advance_same tr.s.particle_1 tr.g0.mfp tr.s.total_asymptotic_deflection).2.2.2.2.2.2.2.1
      have h5 : tr.p3.asymptotic_deflection = tr.s.total_asymptotic_deflection := by
        have := congrArg Particle.asymptotic_deflection h3
        exact this.trans h4
      exact h1.trans (h2.trans h5)
    rw [hasy, ← hloop.1]
    have e0 : (0.0:ℝ) = 0 := by norm_num
    rcases sat_of_ok (collision_step_cases rcpr mat o _ _ _) hc with h | ⟨si, b, r, hP, hsp, _, _, _, _, _, _, _, _, _, hbc, hA⟩
    · rw [h]; simp only [e0]; linarith
    · simp only at hbc hA
      obtain ⟨row, V, x0, theta, hrow, hcell, hx0, _, hr⟩ := binary_collision_ok hbc
      have hVs := hV row (List.mem_of_getElem? hrow) V (List.mem_of_getElem? hcell)
      have q1 : tr.p1.m = p.m := by rw [← hp1]
      have q2 : tr.p1.Z = p.Z := by rw [← hp1]
      have q3 : tr.p1.E = p.E := by rw [← hp1]
      have bm : b.m ∈ mat.m := List.mem_of_getElem? hsp.2.1
      have bZ : b.Z ∈ mat.Z := List.mem_of_getElem? hsp.1
      rw [C21_distance_of_closest_approach rcpr tr.p1 b g o row V hVs hrow hcell (by rw [q3]; exact hE.le) (by rw [q1]; exact hp.m)
        (hm.m _ bm)] at hx0
      have hip := himp 0 g rfl
      have hsq : Real.pi*g.impact_parameter^2 = s^2*t (o.weak_collision_order + 1 + 0) := by
        have := hip.1; simpa using this
      have hpi := Real.pi_pos
      have hpi3 := Real.two_le_pi
      have ht1 := ht (o.weak_collision_order + 1 + 0)
      have hipn : 0 ≤ g.impact_parameter := by
        have hpm : 0 ≤ s/Real.sqrt Real.pi := by positivity
        have := (hip.2.1 (s/Real.sqrt Real.pi) hpm (by
          rw [div_pow, Real.sq_sqrt hpi.le]; field_simp)).1
        simpa using this
      have hip0 : 0 < g.impact_parameter := by
        rcases hipn.lt_or_eq with h | h
        · exact h
        · rw [← h] at hsq
          have : 0 < s^2*t (o.weak_collision_order + 1 + 0) := mul_pos (by positivity) ht1.1
          simp only [ne_eq, OfNat.ofNat_ne_zero, not_false_eq_true, zero_pow, mul_zero] at hsq
          linarith
      have hips : g.impact_parameter ≤ s := by
        by_contra hlt
        push Not at hlt
        have h1 : s^2 < g.impact_parameter^2 := by nlinarith
        have h2 : s^2*t (o.weak_collision_order + 1 + 0) ≤ s^2 := by nlinarith [sq_nonneg s]
        nlinarith [sq_nonneg s]
      cases hnew : newton_rootfinder tr.p1.Z b.Z tr.p1.m b.m tr.p1.E g.impact_parameter V 100 1e-6 with
      | error e => rw [hnew] at hx0; cases hx0
      | ok v =>
        cases v with
        | error e => rw [hnew] at hx0; cases hx0
        | ok x =>
          rw [hnew] at hx0
          have hxx : x = x0 := by
            have := hx0
            simp only [bind, Except.bind, unwrapA] at this
            exact Except.ok.inj this
          subst hxx
          rw [q1, q2, q3] at hnew
          obtain ⟨hx, hle⟩ := newton_result_le V hVs _ _ _ _ _ _ _ _ _ hp.Z (hm.Z _ bZ) hp.m (hm.m _ bm) hE hip0 hnew
          have hb := hK b.Z bZ b.m bm
          rw [hA.deflection, hr]
          have hval : (collision_result tr.p1.m b.m tr.p1.E (screening_length tr.p1.Z b.Z V) x theta V).asymptotic_deflection =
              x*screening_length tr.p1.Z b.Z V*Real.sin (theta/2.0) := by
            cases hVs <;> rfl
          simp only [e0, zero_add]
          rw [hval, q2]
          have hpos : 0 < x*screening_length p.Z b.Z V := mul_pos hx (screening_length_pos V hVs hp.Z (hm.Z _ bZ))
          have hsin := Real.sin_le_one (theta/2.0)
          nlinarith

/-! ## The number of passes -/

/-- The energies along a path have a largest one. -/
theorem stays_bounded {rcpr : Rcpr ℝ} {mat : Material ℝ} {o : Options ℝ} {G : Tape ℝ → Particle ℝ → Particle ℝ → Prop}
    {p q : Particle ℝ} {n : ℕ} {L : ℝ} (h : StaysInside rcpr mat o G p n L q) :
    ∃ Emax, p.E ≤ Emax ∧ p.Ec ≤ Emax ∧ StaysInside rcpr mat o (fun t x r => G t x r ∧ r.E ≤ Emax) p n L q := by
  have mono : ∀ {n L q} (E E' : ℝ), E ≤ E' → StaysInside rcpr mat o (fun t x r => G t x r ∧ r.E ≤ E) p n L q →
      StaysInside rcpr mat o (fun t x r => G t x r ∧ r.E ≤ E') p n L q := by
    intro n L q E E' hE h
    induction h with
    | start hin => exact .start hin
    | pass h hst hlf run hG hin ih => exact .pass ih hst hlf run ⟨hG.1, hG.2.trans hE⟩ hin
  induction h with
  | start hin => exact ⟨max p.E p.Ec, le_max_left _ _, le_max_right _ _, .start hin⟩
  | @pass n L q ps t r qs t' h hst hlf run hG hin ih =>
    obtain ⟨E, h1, h2, h3⟩ := ih
    exact ⟨max E r.E, h1.trans (le_max_left _ _), h2.trans (le_max_left _ _),
      .pass (mono E _ (le_max_left _ _) h3) hst hlf run ⟨hG, le_max_right _ _⟩ hin⟩

theorem stays_mono {rcpr : Rcpr ℝ} {mat : Material ℝ} {o : Options ℝ} {G G' : Tape ℝ → Particle ℝ → Particle ℝ → Prop}
    {p q : Particle ℝ} {n : ℕ} {L : ℝ} (hG : ∀ t x r, G t x r → G' t x r) (h : StaysInside rcpr mat o G p n L q) :
    StaysInside rcpr mat o G' p n L q := by
  induction h with
  | start hin => exact .start hin
  | pass h hst hlf run hg hin ih => exact .pass ih hst hlf run (hG _ _ _ hg) hin

section
variable (rcpr : Rcpr ℝ) {mat : Material ℝ} (o : Options ℝ) {ns : List ℝ} {ck : ℝ} (hu : SameEverywhere mat ns ck)
  (hm : SoundTarget mat) (hnest : BarrierEncloses mat.geometry) {p : Particle ℝ} (hp : SoundParticle p)
  (hmode : o.electronic_stopping_mode = .LOW_ENERGY_NONLOCAL ∨ o.electronic_stopping_mode = .LOW_ENERGY_EQUIPARTITION)
  (hck : 0 < ck) (hns : ∀ n ∈ ns, 0 ≤ n) (hn : 0 < ns.sum) {s : ℝ} (hs : IsSpacing ns.sum s)
  (hff : o.high_energy_free_flight_paths = false) (hliq : o.mean_free_path_model.isGaseous = false) (hEc : 0 < p.Ec) (hp0 : 0 < p.E)
include hu hm hnest hp hmode hck hns hn hs hff hliq hEc hp0

/-- In the low-energy modes the bound of `C88_inside` needs no bound on the energies. -/
theorem inside_low_energy (n : ℕ) (L : ℝ) (q : Particle ℝ)
    (h : StaysInside rcpr mat o (fun t _ r => Unit01 t ∧ r.stopped = false ∧ r.left = false) p n L q) :
    n*s ≤ p.E/pathStopping o.electronic_stopping_mode ck mat.Z ns p.Z p.m p.Ec + s + q.asymptotic_deflection -
      p.asymptotic_deflection := by
  obtain ⟨Emax, h1, h2, h3⟩ := stays_bounded h
  exact C88_inside rcpr o hu hm hnest hp hn hs hff hliq Emax h1 hEc h2
    ((C100_low_energy _ hmode ck hck mat.Z ns hu.length hm.Z hns hn p.Z p.m hp.Z hp.m).1 Emax) n L q
    (stays_mono (fun t x r hg => ⟨hg.1.1, hg.2, hg.1.2⟩) h3) hp0

/-- **C88, inside, Coulomb potentials.** In the low-energy modes, without free-flight paths, a particle that is followed
and stays inside makes at most `E/(S(Ec) s) + 1` passes after which it is still followed, whatever the random numbers. -/
theorem C88_inside_coulomb (hC : AllCoulomb o) (hasy : p.asymptotic_deflection = 0) (n : ℕ) (L : ℝ) (q : Particle ℝ)
    (h : StaysInside rcpr mat o (fun t _ r => Unit01 t ∧ r.stopped = false ∧ r.left = false) p n L q) :
    (n : ℝ) ≤ p.E/(pathStopping o.electronic_stopping_mode ck mat.Z ns p.Z p.m p.Ec*s) + 1 := by
  have hq : q.asymptotic_deflection = 0 := by
    cases h with
    | start hin => exact hasy
    | pass h hst hlf run hG hin => exact (sat_of_ok (coulomb_pass hC _ _ _) run).1
  have := inside_low_energy rcpr o hu hm hnest hp hmode hck hns hn hs hff hliq hEc hp0 n L q h
  rw [hq, hasy, add_zero, sub_zero] at this
  have hs0 := hs.1
  have e : p.E/(pathStopping o.electronic_stopping_mode ck mat.Z ns p.Z p.m p.Ec*s) + 1 =
      (p.E/pathStopping o.electronic_stopping_mode ck mat.Z ns p.Z p.m p.Ec + s)/s := by
    rw [add_div, div_self hs0.ne', div_div]
  rw [e, le_div_iff₀ hs0]
  exact this

/-- **C88, inside, screened potentials.** With screened potentials and no weak collisions too: `K` is twice the largest
distance of closest approach of a head-on Coulomb collision with a target atom at the cutoff energy. -/
theorem C88_inside_screened (hV : AllScreened o) (hw : o.weak_collision_order = 0) (hEp : p.Ec ≤ p.E)
    (hasy : 0 ≤ p.asymptotic_deflection) (K : ℝ) (hK0 : 0 ≤ K)
    (hK : ∀ Zb ∈ mat.Z, ∀ Mb ∈ mat.m, 2*coulombConstant p.Z Zb/(p.Ec*Mb/(p.m + Mb)) ≤ K) (n : ℕ) (L : ℝ) (q : Particle ℝ)
    (h : StaysInside rcpr mat o (fun t _ r => OpenUnit t ∧ r.stopped = false ∧ r.left = false) p n L q) :
    (n : ℝ) ≤ p.E/(pathStopping o.electronic_stopping_mode ck mat.Z ns p.Z p.m p.Ec*s) + K/s + 2 := by
  have hs0 := hs.1
  have key : ∀ n L q, StaysInside rcpr mat o (fun t _ r => OpenUnit t ∧ r.stopped = false ∧ r.left = false) p n L q →
      SoundParticle q ∧ IsInside mat q ∧ q.Z = p.Z ∧ q.m = p.m ∧ q.Ec = p.Ec ∧ p.Ec ≤ q.E ∧
      (q.asymptotic_deflection - p.asymptotic_deflection ≤ K + s) := by
    intro n L q h
    induction h with
    | start hin => exact ⟨hp, hin, rfl, rfl, rfl, hEp, by linarith⟩
    | @pass n L q ps t r qs t' h hst hlf run hG hin ih =>
      obtain ⟨i1, i2, i3, i4, i5, i6, i7⟩ := ih
      obtain ⟨hun, hrs, hrl⟩ := hG
      have hP := inside_pass rcpr o hu hm hnest i1 run i2 hin
      have hr := hP.running hst hlf hrs hrl
      rw [i5] at hr
      have hq0 : 0 < q.E := lt_of_lt_of_le hEc i6
      have := screened_deflection rcpr o hu hm hV hw hff hn hs i1 hq0 hun run K hK0 (fun Zb hZb Mb hMb => by
        refine le_trans ?_ (hK Zb hZb Mb hMb)
        rw [i3, i4]
        have hMb0 := hm.m Mb hMb
        have hpm := hp.m
        have hk0 : 0 < coulombConstant p.Z Zb := by
          unfold coulombConstant
          have := Real.pi_pos
          have := hp.Z
          have := hm.Z Zb hZb
          positivity
        gcongr)
      exact ⟨hP.sound, hin, hP.Z.trans i3, hP.m.trans i4, hP.Ec.trans i5, hr, by linarith⟩
  have hq := (key n L q h).2.2.2.2.2.2
  have := inside_low_energy rcpr o hu hm hnest hp hmode hck hns hn hs hff hliq hEc hp0 n L q
    (stays_mono (fun t x r hg => ⟨fun k => ⟨(hg.1 k).1.le, (hg.1 k).2⟩, hg.2⟩) h)
  have e : p.E/(pathStopping o.electronic_stopping_mode ck mat.Z ns p.Z p.m p.Ec*s) + K/s + 2 =
      (p.E/pathStopping o.electronic_stopping_mode ck mat.Z ns p.Z p.m p.Ec + s + (K + s))/s := by
    field_simp
    ring
  rw [e, le_div_iff₀ hs0]
  linarith

end

end RustBCA
