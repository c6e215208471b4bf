import Verif.Spec.LocalEnds
import Verif.Props.BulkScreened
import Verif.Props.AlmostSurelyScreened
import Verif.Props.LocalLoss

/-!
# C127: with local stopping every run ends
-/

set_option linter.unusedSimpArgs false
set_option linter.unusedVariables false
set_option linter.unusedSectionVars false

namespace RustBCA
open Scalar Spec

/-! ## A least loss exists -/

theorem exists_common_bound {α : Type} (l : List α) (P : α → ℝ → Prop) (anti : ∀ a c c', c' ≤ c → P a c → P a c')
    (h : ∀ a ∈ l, ∃ c, 0 < c ∧ P a c) : ∃ c, 0 < c ∧ ∀ a ∈ l, P a c := by
  induction l with
  | nil => exact ⟨1, one_pos, fun a h => nomatch h⟩
  | cons x l ih =>
    obtain ⟨c1, h1, h2⟩ := h x List.mem_cons_self
    obtain ⟨c2, h3, h4⟩ := ih fun a ha => h a (List.mem_cons_of_mem _ ha)
    refine ⟨min c1 c2, lt_min h1 h3, fun a ha => ?_⟩
    rcases List.mem_cons.1 ha with rfl | ha
    · exact anti _ _ _ (min_le_left _ _) h2
    · exact anti _ _ _ (min_le_right _ _) (h4 a ha)

theorem screening_length_pos' (V : InteractionPotential ℝ) (hV : Screened V) {Za Zb : ℝ} (ha : 0 < Za) (hb : 0 ≤ Zb) :
    0 < screening_length Za Zb V := by
  have h0 := A0_pos
  have h1 : 0 < Real.sqrt Za := Real.sqrt_pos.mpr ha
  have h2 : 0 ≤ Real.sqrt Zb := Real.sqrt_nonneg _
  have hz : ∀ y : ℝ, 0 < Za ^ y := fun y => Real.rpow_pos_of_pos ha y
  have hz2 : ∀ y : ℝ, 0 ≤ Zb ^ y := fun y => Real.rpow_nonneg hb y
  cases hV <;> simp only [screening_length, powf_real, sqrt_real]
  case zbl => exact div_pos (mul_pos (by norm_num) h0) (add_pos_of_pos_of_nonneg (hz _) (hz2 _))
  all_goals exact mul_pos (mul_pos (by norm_num) h0) (Real.rpow_pos_of_pos (by linarith) _)

theorem screening_radius_pos (V : InteractionPotential ℝ) : 0 < (first_screening_radius V : ℝ) := by
  cases V <;> simp only [first_screening_radius] <;> norm_num

/-- The loss in a collision falls with the distance and grows with the cross section. -/
theorem oen_least {d a S S' x0 b : ℝ} (hd : 0 < d) (ha : 0 < a) (hS : 0 ≤ S) (hSS : S ≤ S') (hx : x0*a ≤ b) :
    oenRobinson d a S (b/a) ≤ oenRobinson d a S' x0 := by
  unfold oenRobinson
  have h1 : x0 ≤ b/a := by rw [le_div_iff₀ ha]; exact hx
  have h2 : Real.exp (-(d*(b/a))) ≤ Real.exp (-(d*x0)) := by
    rw [Real.exp_le_exp]
    nlinarith
  have := Real.pi_pos
  have h3 : d^2*S/(2*Real.pi*a^2) ≤ d^2*S'/(2*Real.pi*a^2) := by gcongr
  exact mul_le_mul h3 h2 (Real.exp_pos _).le (by have : 0 ≤ S' := hS.trans hSS; positivity)

/-- A least loss. -/
theorem loses_locally {mat : Material ℝ} (hm : SoundTarget mat) {o : Options ℝ} (hV : AllScreened o) {ck b Z m Ec : ℝ}
    (hck : 0 < ck) (hZ : 0 < Z) (hm0 : 0 < m) (hEc : 0 < Ec) : ∃ c, 0 < c ∧ LosesLocally mat o ck c b Z m Ec := by
  have h1 : ∃ c, 0 < c ∧ ∀ row ∈ o.interaction_potential, ∀ V ∈ row, ∀ Zb ∈ mat.Z, ∀ Zs ∈ (0:ℝ) :: mat.Z,
      c ≤ oenRobinson (first_screening_radius V) (screening_length Z Zs V) (lindhardScharff Ec m Z Zb*ck)
        (b/screening_length Z Zs V) := by
    refine exists_common_bound _ _ (fun a c c' h h' V hV' Zb hZb Zs hZs => h.trans (h' V hV' Zb hZb Zs hZs)) fun row hrow => ?_
    refine exists_common_bound _ _ (fun a c c' h h' Zb hZb Zs hZs => h.trans (h' Zb hZb Zs hZs)) fun V hVr => ?_
    refine exists_common_bound _ _ (fun a c c' h h' Zs hZs => h.trans (h' Zs hZs)) fun Zb hZb => ?_
    refine exists_common_bound _ _ (fun a c c' h h' => h.trans h') fun Zs hZs => ⟨_, ?_, le_rfl⟩
    have hs : 0 ≤ Zs := by
      rcases List.mem_cons.1 hZs with rfl | h
      · exact le_rfl
      · exact (hm.Z _ h).le
    have ha := screening_length_pos' V (hV row hrow V hVr) hZ hs
    have hd := screening_radius_pos V
    have hS : 0 < lindhardScharff Ec m Z Zb := by
      rw [lindhard_scaling _ _ _ _ hEc.le]
      exact mul_pos (Real.sqrt_pos.2 hEc) (stopping_one_pos m Z Zb hm0 hZ (hm.Z _ hZb))
    unfold oenRobinson
    have := Real.pi_pos
    exact mul_pos (div_pos (mul_pos (by positivity) (mul_pos hS hck)) (by positivity)) (Real.exp_pos _)
  obtain ⟨c, hc, h⟩ := h1
  refine ⟨c, hc, fun row hrow V hVr Zb hZb Zs hZs E x0 hE hx => ?_⟩
  have hmem : Zs ∈ (0:ℝ) :: mat.Z := by
    rcases hZs with rfl | h
    · exact List.mem_cons_self
    · exact List.mem_cons_of_mem _ h
  have hs : 0 ≤ Zs := by
    rcases hZs with rfl | h
    · exact le_rfl
    · exact (hm.Z _ h).le
  refine (h row hrow V hVr Zb hZb Zs hmem).trans ?_
  have hS : lindhardScharff Ec m Z Zb ≤ lindhardScharff E m Z Zb := by
    rw [lindhard_scaling _ _ _ _ hEc.le, lindhard_scaling _ _ _ _ (hEc.le.trans hE)]
    exact mul_le_mul_of_nonneg_right (Real.sqrt_le_sqrt hE) (stopping_one_pos m Z Zb hm0 hZ (hm.Z _ hZb)).le
  refine oen_least (screening_radius_pos V) (screening_length_pos' V (hV row hrow V hVr) hZ hs)
    (mul_nonneg (lindhard_nonneg _ _ _ _ hZ (hm.Z _ hZb)) hck.le) (mul_le_mul_of_nonneg_right hS hck.le) hx

/-! ## The strong collision of a pass -/

/-- What the electronic stopping is told about the first collision of a pass. -/
structure Strong (mat : Material ℝ) (o : Options ℝ) (b Z : ℝ) (i : ℕ) (x : StepState ℝ) : Prop where
  partner : x.strong_collision_Z = 0 ∨ x.strong_collision_Z ∈ mat.Z
  close : ∀ row V ti, o.interaction_potential[i]? = some row → mat.interaction_index[x.strong_collision_index]? = some ti →
    row[ti]? = some V → x.normalized_distance_of_closest_approach*screening_length Z x.strong_collision_Z V ≤ b

set_option maxHeartbeats 1000000 in
theorem strong_collision (rcpr : Rcpr ℝ) {mat : Material ℝ} (o : Options ℝ) (hm : SoundTarget mat) (hV : AllScreened o)
    (hff : o.high_energy_free_flight_paths = false) {p : Particle ℝ} (hp : SoundParticle p) (hE : 0 < p.E)
    {ns : List ℝ} (hd : mat.geometry.get_densities p.pos.x p.pos.y p.pos.z = .ok ns) {s smax : ℝ} (hn : 0 < ns.sum)
    (hs : IsSpacing ns.sum s) (hsm : s ≤ smax) {K : ℝ} (hK0 : 0 ≤ K)
    (hK : ∀ Zb ∈ mat.Z, ∀ Mb ∈ mat.m, 2*coulombConstant p.Z Zb/(p.E*Mb/(p.m + Mb)) ≤ K)
    {ps qs : List (Particle ℝ)} {q : Particle ℝ} {t : Tape ℝ} (ht : OpenUnit t) (tr : PassTrace rcpr mat o p ps t q qs) :
    Strong mat o (K + smax) p.Z p.interaction_index tr.s := by
  have hs0 := hs.1
  have hun : UnitInterval t := fun k => ⟨(ht k).1.le, (ht k).2⟩
  obtain ⟨gs', t2, hdet', _, hlen, _, himp⟩ := annuli_rest p mat o t ns s hd hn hs hff hun
  have hmfp := tr.hmfp
  rw [hdet'] at hmfp
  simp only [Except.ok.injEq, Prod.mk.injEq] at hmfp
  obtain ⟨⟨hp1, hgs⟩, _⟩ := hmfp
  have hloop := tr.hloop
  rw [← hgs] at hloop
  obtain ⟨g, gs'', rfl⟩ : ∃ g gs'', gs' = g :: gs'' := by
    cases gs' with
    | nil => simp at hlen
    | cons g l => exact ⟨g, l, rfl⟩
  have e0 : (0.0:ℝ) = 0 := by norm_num
  rw [List.zipIdx_cons, List.take_succ_cons] at hloop
  unfold forFold at hloop
  obtain ⟨s1, t3, hc, hrest⟩ := m_bind_ok.1 hloop
  -- the first collision
  have h1 : Strong mat o (K + smax) p.Z p.interaction_index s1 := by
    rcases sat_of_ok (collision_step_cases rcpr mat o _ _ _) hc with h | ⟨si, b, r, hP, hsp, _, _, _, _, _, _, _, _, _, hbc, hA⟩
    · rw [h]
      refine ⟨Or.inl e0, fun row V ti _ _ _ => ?_⟩
      simp only [e0, zero_mul]
      linarith
    · have hst := hA.strong
      rw [if_pos rfl] at hst
      have st1 := (Prod.mk.inj hst).1
      have st2 := (Prod.mk.inj (Prod.mk.inj hst).2).1
      have st3 := (Prod.mk.inj (Prod.mk.inj hst).2).2
      have bm : b.m ∈ mat.m := List.mem_of_getElem? hsp.2.1
      have bZ : b.Z ∈ mat.Z := List.mem_of_getElem? hsp.1
      simp only at hbc
      obtain ⟨row, V, x0, theta, hrow, hcell, hx0, _, hr⟩ := binary_collision_ok hbc
      have hVs := hV row (List.mem_of_getElem? hrow) V (List.mem_of_getElem? hcell)
      have q1 : tr.p1.m = p.m := by rw [← hp1]
      have q2 : tr.p1.Z = p.Z := by rw [← hp1]
      have q3 : tr.p1.E = p.E := by rw [← hp1]
      have q4 : tr.p1.interaction_index = p.interaction_index := by rw [← hp1]
      refine ⟨Or.inr (by rw [st2]; exact bZ), fun row' V' ti hrow' hti hcell' => ?_⟩
      rw [st3] at hti
      have hti' := hsp.2.2.2.2.2
      rw [hti'] at hti
      have hti2 : b.interaction_index = ti := Option.some.inj hti
      rw [q4] at hrow
      have e1 : row = row' := Option.some.inj (hrow.symm.trans hrow')
      subst e1
      rw [hti2] at hcell
      have e2 : V = V' := Option.some.inj (hcell.symm.trans hcell')
      subst e2
      rw [← hti2] at hcell
      rw [← q4] at hrow
      rw [st1, st2, hr]
      show x0*screening_length p.Z b.Z V ≤ _
      rw [C21_distance_of_closest_approach rcpr tr.p1 b g o row V hVs hrow hcell (by rw [q3]; exact hE.le) (by rw [q1]; exact hp.m)
        (hm.m _ bm)] at hx0
      have hip := himp 0 g rfl
      have hsq : Real.pi*g.impact_parameter^2 = s^2*t (o.weak_collision_order + 1 + 0) := by
        have := hip.1; simpa using this
      have hpi := Real.pi_pos
      have hpi3 := Real.two_le_pi
      have ht1 := ht (o.weak_collision_order + 1 + 0)
      have hipn : 0 ≤ g.impact_parameter := by
        have hpm : 0 ≤ s/Real.sqrt Real.pi := by positivity
        have := (hip.2.1 (s/Real.sqrt Real.pi) hpm (by
          rw [div_pow, Real.sq_sqrt hpi.le]; field_simp)).1
        simpa using this
      have hip0 : 0 < g.impact_parameter := by
        rcases hipn.lt_or_eq with h | h
        · exact h
        · rw [← h] at hsq
          have : 0 < s^2*t (o.weak_collision_order + 1 + 0) := mul_pos (by positivity) ht1.1
          simp only [ne_eq, OfNat.ofNat_ne_zero, not_false_eq_true, zero_pow, mul_zero] at hsq
          linarith
      have hips : g.impact_parameter ≤ s := by
        by_contra hlt
        push Not at hlt
        have h1 : s^2 < g.impact_parameter^2 := by nlinarith
        have h2 : s^2*t (o.weak_collision_order + 1 + 0) ≤ s^2 := by nlinarith [sq_nonneg s]
        nlinarith [sq_nonneg s]
      cases hnew : newton_rootfinder tr.p1.Z b.Z tr.p1.m b.m tr.p1.E g.impact_parameter V 100 1e-6 with
      | error e => rw [hnew] at hx0; cases hx0
      | ok v =>
        cases v with
        | error e => rw [hnew] at hx0; cases hx0
        | ok x =>
          rw [hnew] at hx0
          have hxx : x = x0 := by
            have := hx0
            simp only [bind, Except.bind, unwrapA] at this
            exact Except.ok.inj this
          subst hxx
          rw [q1, q2, q3] at hnew
          obtain ⟨hx, hle⟩ := newton_result_le V hVs _ _ _ _ _ _ _ _ _ hp.Z (hm.Z _ bZ) hp.m (hm.m _ bm) hE hip0 hnew
          have hb := hK b.Z bZ b.m bm
          linarith
  -- the others
  have key := sat_forFold (E := fun _ => True) (body := collision_step rcpr mat o)
    (fun (x : StepState ℝ) _ => Strong mat o (K + smax) p.Z p.interaction_index x) ((gs''.zipIdx (0 + 1)).take o.weak_collision_order)
    (by
      rintro ⟨g', k⟩ hg' x t1 hx
      have hk : k ≠ 0 := by
        have := List.mem_of_mem_take hg'
        have := List.le_snd_of_mem_zipIdx this
        simp only at this
        omega
      refine sat_mono (collision_step_cases rcpr mat o x (g', k) t1) (fun y _ hy => ?_) (fun _ _ => trivial)
      rcases hy with rfl | ⟨si, b, r, _, _, _, _, _, _, _, _, _, _, _, _, hA⟩
      · exact hx
      · have hst := hA.strong
        rw [if_neg hk] at hst
        have st1 := (Prod.mk.inj hst).1
        have st2 := (Prod.mk.inj (Prod.mk.inj hst).2).1
        have st3 := (Prod.mk.inj (Prod.mk.inj hst).2).2
        exact ⟨by rw [st2]; exact hx.partner, by rw [st1, st2, st3]; exact hx.close⟩) s1 t3 h1
  exact sat_of_ok key hrest

/-! ## A pass -/

/-- The loss of a pass with local stopping. -/
theorem local_loss {mat : Material ℝ} (o : Options ℝ) (hmode : o.electronic_stopping_mode = .LOW_ENERGY_LOCAL) {p : Particle ℝ}
    (hin : IsInside mat p) {ck : ℝ} {ns : List ℝ} (hck : mat.geometry.get_ck p.pos.x p.pos.y p.pos.y = .ok ck)
    (hns : mat.geometry.get_densities p.pos.x p.pos.y p.pos.y = .ok ns) (hl : ns.length = mat.Z.length) (d x0 sz : ℝ) (si : ℕ) :
    RSat (subtract_electronic_stopping_energy p mat d x0 sz si o) (fun r => ∃ row V ti Zb,
      o.interaction_potential[p.interaction_index]? = some row ∧ mat.interaction_index[si]? = some ti ∧ row[ti]? = some V ∧
      Zb ∈ mat.Z ∧ r.1.E = max 0 (p.E - oenRobinson (first_screening_radius V) (screening_length p.Z sz V)
        (lindhardScharff p.E p.m p.Z Zb*ck) x0)) (fun _ => True) := by
  have hcs := C82_cross_sections mat p o.electronic_stopping_mode ck ns hck hns hl
  rw [hmode] at hcs
  unfold subtract_electronic_stopping_energy Material.inside Material.number_densities
  unfold IsInside at hin
  simp only [rsat_bind, rsat_assert, implies_true, and_true, hin, hcs, rsat_ok, if_true, hmode]
  intro hn
  refine rsat_mono (rsat_vget_some _ _) (fun row hrow => ?_) (fun _ _ => trivial)
  refine rsat_mono (rsat_vget_some _ _) (fun ti hti => ?_) (fun _ _ => trivial)
  refine rsat_mono (rsat_vget_some _ _) (fun V hV => ?_) (fun _ _ => trivial)
  refine rsat_mono (rsat_trivial _) (fun n' _ => ?_) (fun _ _ => trivial)
  refine rsat_mono (rsat_vget_some _ _) (fun se hse => ?_) (fun _ _ => trivial)
  simp only [rsat_pure, rsat_assert, implies_true, and_true]
  intro _
  rw [List.getElem?_map] at hse
  obtain ⟨Zb, hZ, rfl⟩ := Option.map_eq_some_iff.1 hse
  refine ⟨row, V, ti, Zb, hrow, hti, hV, List.mem_of_getElem? hZ, ?_⟩
  have e0 : (0.0:ℝ) = 0 := by norm_num
  rw [e0, oen_spec, ← sub_eq_add_neg]
  by_cases h : ((p.E - oenRobinson (first_screening_radius V) (screening_length p.Z sz V) (lindhardScharff p.E p.m p.Z Zb*ck) x0)
      <. (0:ℝ)) = true
  · rw [if_pos h, max_eq_left ((lt_real _ _).1 h).le]
  · rw [if_neg h, max_eq_right (not_lt.1 (by rw [lt_real] at h; exact h))]

set_option maxHeartbeats 1000000 in
/-- **C127, a pass.** With local stopping a pass inside the material after which the particle is still followed costs at least
`c`. -/
theorem local_pass (rcpr : Rcpr ℝ) {mat : Material ℝ} {n : ℕ} (hr : ReadyTarget mat n) (o : Options ℝ) (hm : SoundTarget mat)
    (hnest : BarrierEncloses mat.geometry) (hV : AllScreened o) (hff : o.high_energy_free_flight_paths = false)
    (hmode : o.electronic_stopping_mode = .LOW_ENERGY_LOCAL) {nmin ck smax : ℝ} (hthin : NowhereThin mat nmin ck) (hn : 0 < nmin)
    (hck : 0 ≤ ck) (hsm : IsSpacing nmin smax) {p q : Particle ℝ} (hp : SoundParticle p) (hEc : 0 < p.Ec) (hE : p.Ec ≤ p.E) {K c : ℝ}
    (hK0 : 0 ≤ K) (hK : ClosestBelow mat K p.Z p.m p.Ec) (hc : LosesLocally mat o ck c (K + smax) p.Z p.m p.Ec) (hc0 : 0 < c)
    (hst : p.stopped = false) (hlf : p.left = false) {ps qs : List (Particle ℝ)} {t t' : Tape ℝ} (ht : OpenUnit t)
    (run : trajectory_step rcpr mat o p ps t = .ok ((q, qs), t')) (hin : IsInside mat p) (hin' : IsInside mat q)
    (hst' : q.stopped = false) (hlf' : q.left = false) : q.E + c ≤ p.E ∧ p.Ec ≤ q.E ∧ SoundParticle q ∧ q.Z = p.Z ∧ q.m = p.m ∧
      q.Ec = p.Ec ∧ q.interaction_index = p.interaction_index := by
  obtain ⟨tr⟩ := sat_of_ok (pass_trace rcpr mat o p ps t) run
  simp only at tr
  have hPE := sat_of_ok (trajectory_step_sat rcpr mat o p ps t hst hlf) run
  have hPS := sat_of_ok (pass_sound rcpr o hm hp ps t) run
  obtain ⟨ns, hns, _⟩ := hr.densities p.pos.x p.pos.y p.pos.z
  obtain ⟨_, hnmin⟩ := hthin.densities _ _ _ _ hns
  have hn0 : 0 < ns.sum := hn.trans_le hnmin
  obtain ⟨s, hs⟩ : ∃ s, IsSpacing ns.sum s := ⟨_, spacing_exists _ hn0⟩
  have hss : s ≤ smax := by
    by_contra h
    push Not at h
    have h1 := hs.2
    have h2 := hsm.2
    have h3 := hsm.1
    have h4 : smax^3 < s^3 := by gcongr
    have h5 : 0 < s^3 := by have := hs.1; positivity
    nlinarith
  have hp0 : 0 < p.E := hEc.trans_le hE
  have hS := strong_collision rcpr o hm hV hff hp hp0 hns hn0 hs hss hK0 (fun Zb hZb Mb hMb => by
    refine le_trans ?_ (hK Zb hZb Mb hMb)
    have hMb0 := hm.m Mb hMb
    have hpm := hp.m
    have hk0 : 0 < coulombConstant p.Z Zb := by
      unfold coulombConstant
      have := Real.pi_pos
      have := hp.Z
      have := hm.Z Zb hZb
      positivity
    gcongr) ht tr
  obtain ⟨b, hp1⟩ := tr.p1_eq
  have hp1s : SoundParticle tr.p1 := by
    rw [hp1]; exact ⟨hp.m, hp.Z, hp.E, hp.Es, hp.dir⟩
  have hC := sat_of_ok (collide_sound rcpr o hm _ _ tr.t1 (by exact hp1s)) tr.hloop
  have hE1 := (C11_energy_through_collision_loop rcpr mat o _ _ _ _ _ hp1s.m hp1s.E hm.m tr.hloop)
  obtain ⟨E1, d1, n1, hs1, _, _⟩ := tr.s_eq.particle
  obtain ⟨a1, a2, a3, a4, a5, a6, a7, a8, a9, a10⟩ :=
    advance_same tr.s.particle_1 tr.g0.mfp tr.s.total_asymptotic_deflection
  have hadv : ∀ (x : Particle ℝ) (a c : ℝ), (x.advance a c).1.Ec = x.Ec ∧ (x.advance a c).1.interaction_index = x.interaction_index ∧
      ((x.advance a c).1.stopped = x.stopped ∧ (x.advance a c).1.left = x.left) := by
    intro x a c
    unfold Particle.advance
    by_cases h : (x.E >. x.Ec) = true
    · obtain ⟨l, hl⟩ := utt_same x
      simp only [h, if_true, hl, and_self]
    · simp only [h, Bool.false_eq_true, if_false, and_self]
  obtain ⟨c3, c4, c5⟩ := hadv tr.s.particle_1 tr.g0.mfp tr.s.total_asymptotic_deflection
  have hq := tr.q_eq
  have hstop := tr.hstop
  have hbound := tr.hbound
  generalize (tr.s.particle_1.advance tr.g0.mfp tr.s.total_asymptotic_deflection).2 = d at *
  generalize (tr.s.particle_1.advance tr.g0.mfp tr.s.total_asymptotic_deflection).1 = pa at *
  have hpa : SoundParticle pa :=
    ⟨a2 ▸ hC.moving.m, a3 ▸ hC.moving.Z, a1 ▸ hC.moving.E, a4 ▸ hC.moving.Es,
      by rw [a5]; exact hC.moving.dir⟩
  obtain ⟨⟨E3, hp3⟩, b1, b2, b3, b4⟩ := rsat_of_ok (subtract_sound hm hpa d _ _ _ o) hstop
  simp only at hp3 b1 b2 b3 b4
  obtain ⟨⟨l, hl⟩, hen⟩ := tracker_same tr.p3 o tr.s.total_energy_lost_to_recoils tr.el
  rw [hl] at hen hbound hq
  have hB := rsat_of_ok (boundary_sound (p := { tr.p3 with energies := l }) hm b1
    (by rw [hp3]; exact hpa.dir) (by rw [hp3]; exact hpa.Es)) hbound
  obtain ⟨Eq', dq, bq, stq, lfq, lq, hqe⟩ := hq
  have f1 : tr.s.particle_1.m = p.m := by rw [hs1, hp1]
  have f2 : tr.s.particle_1.Z = p.Z := by rw [hs1, hp1]
  have f4 : tr.s.particle_1.pos = p.pos := by rw [hs1, hp1]
  have f7 : tr.s.particle_1.Ec = p.Ec := by rw [hs1, hp1]
  have f9 : tr.s.particle_1.interaction_index = p.interaction_index := by rw [hs1, hp1]
  have f8 : tr.p1.E = p.E := by rw [hp1]
  have g1 : tr.p3.m = p.m := by rw [hp3, ← f1]; exact a2
  have g2 : tr.p3.Z = p.Z := by rw [hp3, ← f2]; exact a3
  have g4 : tr.p3.pos_old = p.pos := by rw [hp3, ← f4]; exact a6
  have g6 : tr.p3.pos = pa.pos := by rw [hp3]
  have hqpos : q.pos = tr.p3.pos := by have h := congrArg Particle.pos hqe; exact h
  have hqEc : q.Ec = p.Ec := (congrArg Particle.Ec hqe).trans (by rw [hp3]; exact c3.trans f7)
  have hpain : IsInside mat pa := by
    unfold IsInside at hin' ⊢
    rw [hqpos, g6] at hin'; exact hin'
  -- the energy after the boundary is that before
  have hge : p.Ec ≤ q.E := by
    have e1 : tr.p3.stopped = false := by
      rw [hp3]
      exact (c5.1.trans (by rw [hs1, hp1]; exact hst))
    have e2 : tr.p3.left = false := by
      rw [hp3]
      exact (c5.2.trans (by rw [hs1, hp1]; exact hlf))
    have hbar : mat.geometry.inside_energy_barrier pa.pos.x pa.pos.y pa.pos.z = .ok true := hnest _ _ _ hpain
    obtain ⟨sim, hsim⟩ : ∃ b, mat.geometry.inside_simulation_boundary pa.pos.x pa.pos.y pa.pos.z = .ok b := by
      cases hb : mat.geometry.inside_simulation_boundary pa.pos.x pa.pos.y pa.pos.z with
      | ok b => exact ⟨b, rfl⟩
      | error e =>
        have hb' : mat.geometry.inside_simulation_boundary tr.p3.pos.x tr.p3.pos.y tr.p3.pos.z = .error e := by
          rw [g6]; exact hb
        unfold boundary_condition_planar Material.inside_simulation_boundary at hbound
        simp only [hb', bind, Except.bind] at hbound
        cases hbound
    obtain ⟨k1, k2, k3, k4, _⟩ := C33_boundary { tr.p3 with energies := l } q mat sim true (by simp only [g6]; exact hsim)
      (by simp only [g6]; exact hbar) e2 e1 hbound
    have hsimt : sim = true := by
      by_contra hc
      have := k1.2 (by simpa using hc)
      rw [hlf'] at this; cases this
    have hge : ¬ ((tr.p3.E <. tr.p3.Ec) = true) := by
      intro h
      have := k2.2 ⟨hsimt, h, rfl⟩
      rw [hst'] at this; cases this
    have hsurf := (k4 hlf' hst').1
    have hsame : ({ tr.p3 with energies := l } : Particle ℝ) = q := by
      cases hEs : mat.actual_surface_binding_energy { tr.p3 with energies := l } tr.p3.pos_old.x tr.p3.pos_old.y tr.p3.pos_old.z with
      | error e =>
        unfold surface_binding_energy at hsurf
        simp only [hEs, bind, Except.bind] at hsurf
        cases hsurf
      | ok Es =>
        rw [C31_no_crossing { tr.p3 with energies := l } mat Es true
          ⟨by simp only [g4]; exact hnest _ _ _ hin, by simp only [g6]; exact hbar⟩ hEs] at hsurf
        exact Except.ok.inj hsurf
    have hE : q.E = tr.p3.E := (congrArg Particle.E hsame).symm
    rw [hE, ← f7, ← c3, show pa.Ec = tr.p3.Ec by rw [hp3]]
    exact (lt_real_false _ _).1 (by simpa using hge)
  have hqE : q.E ≤ tr.p3.E := by
    rcases hB.gain with h | ⟨Es, _, _, h4, _⟩
    · exact h
    · simp only [g4] at h4
      rw [hnest _ _ _ hin] at h4; cases h4
  -- the loss
  obtain ⟨ns', hns', _⟩ := hr.densities pa.pos.x pa.pos.y pa.pos.y
  obtain ⟨ck', hck'⟩ := hr.ck pa.pos.x pa.pos.y pa.pos.y
  obtain ⟨hl', _⟩ := hthin.densities _ _ _ _ hns'
  have hckle := hthin.ck _ _ _ _ hck'
  obtain ⟨row, V, ti, Zb, hrow, hti, hVr, hZb, hloss⟩ := rsat_of_ok (local_loss o hmode hpain hck' hns' hl' d _ _ _) hstop
  simp only at hloss
  have hpai : pa.interaction_index = p.interaction_index := c4.trans f9
  have hpaZ : pa.Z = p.Z := a3.trans f2
  have hpam : pa.m = p.m := a2.trans f1
  have hVs := hV row (List.mem_of_getElem? hrow) V (List.mem_of_getElem? hVr)
  have hnonneg : ∀ S, 0 ≤ S → 0 ≤ oenRobinson (first_screening_radius V) (screening_length pa.Z tr.s.strong_collision_Z V) S
      tr.s.normalized_distance_of_closest_approach := by
    intro S hS
    unfold oenRobinson
    have := Real.pi_pos
    positivity
  have hS0 : 0 ≤ lindhardScharff pa.E pa.m pa.Z Zb := lindhard_nonneg _ _ _ _ hpa.Z (hm.Z _ hZb)
  have hpaE : pa.E = tr.s.particle_1.E := a1
  have hsE : tr.s.particle_1.E ≤ p.E := by
    have h1 := hE1.2.1
    have h2 := hC.ledger
    simp only at h1 h2
    rw [← f8]
    linarith
  have hpos : 0 < tr.p3.E := hEc.trans_le (hge.trans hqE)
  have hloss' : tr.p3.E = pa.E - oenRobinson (first_screening_radius V) (screening_length pa.Z tr.s.strong_collision_Z V)
      (lindhardScharff pa.E pa.m pa.Z Zb*ck') tr.s.normalized_distance_of_closest_approach := by
    rcases max_cases (0:ℝ) (pa.E - oenRobinson (first_screening_radius V) (screening_length pa.Z tr.s.strong_collision_Z V)
      (lindhardScharff pa.E pa.m pa.Z Zb*ck') tr.s.normalized_distance_of_closest_approach) with h | h
    · rw [hloss, h.1] at hpos; exact absurd hpos (lt_irrefl _)
    · rw [hloss, h.1]
  have hpaEc : p.Ec ≤ pa.E := by
    have := hnonneg (lindhardScharff pa.E pa.m pa.Z Zb*ck') (mul_nonneg hS0 (hck.trans hckle))
    linarith
  have hleast : c ≤ oenRobinson (first_screening_radius V) (screening_length pa.Z tr.s.strong_collision_Z V)
      (lindhardScharff pa.E pa.m pa.Z Zb*ck') tr.s.normalized_distance_of_closest_approach := by
    have hclose := hS.close row V ti (hpai ▸ hrow) hti hVr
    have h1 := hc row (List.mem_of_getElem? hrow) V (List.mem_of_getElem? hVr) Zb hZb tr.s.strong_collision_Z hS.partner pa.E
      tr.s.normalized_distance_of_closest_approach hpaEc hclose
    rw [← hpaZ, ← hpam] at h1
    refine h1.trans ?_
    unfold oenRobinson
    have := Real.pi_pos
    have h2 : lindhardScharff pa.E pa.m pa.Z Zb*ck ≤ lindhardScharff pa.E pa.m pa.Z Zb*ck' := mul_le_mul_of_nonneg_left hckle hS0
    gcongr
  exact ⟨by linarith, hge, hPS.moving, by rw [hB.Z]; exact g2, by rw [hB.m]; exact g1, hqEc, hPE.same.interaction_index⟩

/-! ## The run -/

/-- A particle whose trajectory ends. -/
structure BoundLocal (mat : Material ℝ) (o : Options ℝ) (ck c smax : ℝ) (r : Particle ℝ) : Prop where
  sound : SoundParticle r
  Ec : 0 < r.Ec
  E : r.Ec ≤ r.E
  loses : ∃ K, 0 ≤ K ∧ ClosestBelow mat K r.Z r.m r.Ec ∧ LosesLocally mat o ck c (K + smax) r.Z r.m r.Ec
  stopped : r.stopped = false
  left : r.left = false
  inside : IsInside mat r
  tables : ScreenedWithAll mat o r.interaction_index

theorem loses_anti {mat : Material ℝ} {o : Options ℝ} {ck c c' b Z m Ec : ℝ} (h : c' ≤ c) (hc : LosesLocally mat o ck c b Z m Ec) :
    LosesLocally mat o ck c' b Z m Ec := fun row h1 V h2 Zb h3 Zs h4 E x0 h5 h6 => h.trans (hc row h1 V h2 Zb h3 Zs h4 E x0 h5 h6)

/-- One constant for the ion and for the recoils. -/
theorem one_loss {mat : Material ℝ} (hm : SoundTarget mat) (hmEc : ∀ E ∈ mat.Ec, 0 < E) {o : Options ℝ} (hV : AllScreened o)
    {ck smax Z m Ec : ℝ} (hck : 0 < ck) (hZ : 0 < Z) (hm0 : 0 < m) (hEc : 0 < Ec) : ∃ c, 0 < c ∧
    (∃ K, 0 ≤ K ∧ ClosestBelow mat K Z m Ec ∧ LosesLocally mat o ck c (K + smax) Z m Ec) ∧
    ∀ Z' ∈ mat.Z, ∀ m' ∈ mat.m, ∀ Ec' ∈ mat.Ec,
      ∃ K, 0 ≤ K ∧ ClosestBelow mat K Z' m' Ec' ∧ LosesLocally mat o ck c (K + smax) Z' m' Ec' := by
  have key : ∀ Z m Ec : ℝ, 0 < Z → 0 < m → 0 < Ec → ∃ c, 0 < c ∧
      ∃ K, 0 ≤ K ∧ ClosestBelow mat K Z m Ec ∧ LosesLocally mat o ck c (K + smax) Z m Ec := by
    intro Z m Ec h1 h2 h3
    obtain ⟨K, hK0, hK⟩ := closest_exists_screened mat Z m Ec
    obtain ⟨c, hc, h⟩ := loses_locally hm hV (b := K + smax) hck h1 h2 h3
    exact ⟨c, hc, K, hK0, hK, h⟩
  have anti : ∀ (Z m Ec c c' : ℝ), c' ≤ c → (∃ K, 0 ≤ K ∧ ClosestBelow mat K Z m Ec ∧ LosesLocally mat o ck c (K + smax) Z m Ec) →
      ∃ K, 0 ≤ K ∧ ClosestBelow mat K Z m Ec ∧ LosesLocally mat o ck c' (K + smax) Z m Ec :=
    fun Z m Ec c c' h ⟨K, h1, h2, h3⟩ => ⟨K, h1, h2, loses_anti h h3⟩
  obtain ⟨c1, h1, h2⟩ := key Z m Ec hZ hm0 hEc
  obtain ⟨c2, h3, h4⟩ : ∃ c, 0 < c ∧ ∀ Z' ∈ mat.Z, ∀ m' ∈ mat.m, ∀ Ec' ∈ mat.Ec,
      ∃ K, 0 ≤ K ∧ ClosestBelow mat K Z' m' Ec' ∧ LosesLocally mat o ck c (K + smax) Z' m' Ec' := by
    refine exists_common_bound _ _ (fun Z c c' h h' m hm Ec hEc => anti _ _ _ _ _ h (h' m hm Ec hEc)) fun Z' hZ' => ?_
    refine exists_common_bound _ _ (fun m c c' h h' Ec hEc => anti _ _ _ _ _ h (h' Ec hEc)) fun m' hm' => ?_
    refine exists_common_bound _ _ (fun Ec c c' h h' => anti _ _ _ _ _ h h') fun Ec' hEc' => ?_
    exact key _ _ _ (hm.Z _ hZ') (hm.m _ hm') (hmEc _ hEc')
  refine ⟨min c1 c2, lt_min h1 h3, anti _ _ _ _ _ (min_le_left _ _) h2, fun Z' a m' b Ec' d => anti _ _ _ _ _ (min_le_right _ _) (h4 Z' a m' b Ec' d)⟩

/-- The number of passes of a particle. -/
theorem local_passes (rcpr : Rcpr ℝ) {mat : Material ℝ} {n : ℕ} (hr : ReadyTarget mat n) (o : Options ℝ) (hm : SoundTarget mat)
    (hnest : BarrierEncloses mat.geometry) (hV : AllScreened o) (hff : o.high_energy_free_flight_paths = false)
    (hmode : o.electronic_stopping_mode = .LOW_ENERGY_LOCAL) {nmin ck smax c : ℝ} (hthin : NowhereThin mat nmin ck) (hn : 0 < nmin)
    (hck : 0 ≤ ck) (hsm : IsSpacing nmin smax) (hc0 : 0 < c) {p : Particle ℝ} (hp : BoundLocal mat o ck c smax p) (k : ℕ) (L : ℝ)
    (q : Particle ℝ) (h : StaysInside rcpr mat o (fun t _ r => OpenUnit t ∧ r.stopped = false ∧ r.left = false) p k L q) :
    q.E + c*k ≤ p.E ∧ p.Ec ≤ q.E ∧ SoundParticle q ∧ q.Z = p.Z ∧ q.m = p.m ∧ q.Ec = p.Ec ∧ IsInside mat q := by
  induction h with
  | start hin => exact ⟨by simp, hp.E, hp.sound, rfl, rfl, rfl, hin⟩
  | @pass k L q ps t r qs t' h hst hlf run hG hin ih =>
    obtain ⟨i1, i2, i3, i4, i5, i6, i7⟩ := ih
    obtain ⟨K, hK0, hK, hl⟩ := hp.loses
    obtain ⟨j1, j2, j3, j4, j5, j6, _⟩ := local_pass rcpr hr o hm hnest hV hff hmode hthin hn hck hsm i3 (by rw [i6]; exact hp.Ec)
      (by rw [i6]; exact i2) hK0 (by rw [i4, i5, i6]; exact hK) (by rw [i4, i5, i6]; exact hl) hc0 hst hlf hG.1 run i7 hin hG.2.1 hG.2.2
    refine ⟨?_, by rw [← i6]; exact j2, j3, j4.trans i4, j5.trans i5, j6.trans i6, hin⟩
    push_cast
    linarith

section
variable (rcpr : Rcpr ℝ) {mat : Material ℝ} (o : Options ℝ) {n : ℕ} {nmin ck eb : ℝ} {ion : Particle ℝ}

/-- **C127.** In a target that is nowhere thin and whose simulated volume ends with the material, with local electronic
stopping and screened potentials and without free-flight paths, in solids and in gases, with and without weak collisions and
recoils: there is a number of passes after which the run of the ion has ended, whatever the random numbers. -/
theorem C127_run_ends (hr : ReadyTarget mat n) (hm : SoundTarget mat) (hthin : NowhereThin mat nmin ck) (hn : 0 < nmin) (hck : 0 < ck)
    (hnest : BarrierEncloses mat.geometry) (hend : EndsWithMaterial mat) (hff : o.high_energy_free_flight_paths = false)
    (hmode : o.electronic_stopping_mode = .LOW_ENERGY_LOCAL) (hV : AllScreened o) (hmEc : ∀ E ∈ mat.Ec, 0 < E)
    (hrec : o.track_recoils = false ∨ (BoundBy mat eb ∧ 0 < eb))
    (htab : ScreenedWithAll mat o ion.interaction_index) (htab' : ∀ j ∈ mat.interaction_index, ScreenedWithAll mat o j)
    (hion : SoundParticle ion) (hEc : 0 < ion.Ec) (hE : ion.Ec ≤ ion.E) (hin : IsInside mat ion) (hst : ion.stopped = false)
    (hlf : ion.left = false) :
    ∃ N, ∀ fuel, N ≤ fuel → ∀ tape, OpenUnit tape → single_ion_bca rcpr fuel ion mat o tape ≠ .error .fuel := by
  obtain ⟨smax, hsm⟩ : ∃ s, IsSpacing nmin s := ⟨_, spacing_exists _ hn⟩
  obtain ⟨c, hc0, hc, hc'⟩ := one_loss (smax := smax) hm hmEc hV hck hion.Z hion.m hEc
  obtain ⟨N, hN⟩ := exists_nat_ge (ion.E/c + 2 + (|ion.E/eb| + 2))
  refine ⟨N, fun fuel hfuel tape ht => ?_⟩
  have hNf : ion.E/c + 2 + (|ion.E/eb| + 2) ≤ fuel := hN.trans (by exact_mod_cast hfuel)
  have hE0 : 0 < ion.E := hEc.trans_le hE
  have hB0 : 0 ≤ ion.E/c := by positivity
  have habs := abs_nonneg (ion.E/eb)
  have hvac : NoVacuum mat := ⟨fun x y z h => hnest x y z (hend x y z h), fun x y z h => hnest x y z h⟩
  have hfree : NoSurfaceBinding mat ion ∨ (NoVacuum mat ∧ WithinBarrier mat ion) := Or.inr ⟨hvac, hnest _ _ _ hin⟩
  obtain ⟨C, hCf, hC⟩ : ∃ C : ℝ, C + 2 ≤ fuel ∧ ∀ st t, AtHead rcpr mat o fuel ion tape st t → st.particle_index = st.particles.length →
      0 < st.particle_index → (st.particle_output.length : ℝ) ≤ C ∧ ∀ r ∈ st.particles, r.E ≤ ion.E := by
    rcases hrec with htr | ⟨heb, heb0⟩
    · refine ⟨0, by linarith, fun st t hat hidx hpos => ?_⟩
      obtain ⟨h1, h2⟩ := head_alone htr hst hlf st t hat hidx hpos
      rw [h1, h2]
      simp
    · have := le_abs_self (ion.E/eb)
      exact ⟨ion.E/eb, by linarith, head_count hm hion (Or.inl hmode) heb heb0 hfree⟩
  have hmain := run_ends (rcpr := rcpr) (o := o) (fuel := fuel) hm hend OpenUnit (BoundLocal mat o ck c smax) (fun e => e ≠ .fuel)
    (ion.E/c) C ion.E (fun r h => ⟨h.sound, h.stopped, h.left, h.inside⟩)
    (fun p x ps t hp hx hxs ht => screened_pass_ends rcpr hr hm o x hxs ps (by rw [hx]; exact hp.tables) t ht) ?_ ?_
    hC ⟨hion, hEc, hE, hc, hst, hlf, hin, htab⟩ ht hB0 (by linarith) hCf
  · intro hcon
    unfold Sat at hmain
    rw [hcon] at hmain
    exact hmain rfl
  · intro x ps t q qs t' hxs hx1 hx2 hut hps hq r hrs
    have hP := sat_of_ok (pass_sound rcpr o hm hxs ps t) hq
    have hPE := sat_of_ok (trajectory_step_sat rcpr mat o x ps t hx1 hx2) hq
    simp only at hP hPE
    have hrs0 : r ∈ qs := hrs
    obtain ⟨new, hnew, hfr, _⟩ := hPE.stack
    rw [hnew, List.mem_append] at hrs
    rcases hrs with hrs | hrs
    · exact hps r hrs
    · have h1 := hfr r hrs
      obtain ⟨i, hi⟩ := h1.species
      have hab : r.Ec < r.energy_origin := (lt_real _ _).1 h1.above
      have hEcr : r.Ec ∈ mat.Ec := List.mem_of_getElem? hi.2.2.1
      refine ⟨hP.stack (fun x' h => (hps x' h).sound) r hrs0, hmEc _ hEcr, ?_,
        hc' _ (List.mem_of_getElem? hi.1) _ (List.mem_of_getElem? hi.2.1) _ hEcr, h1.stopped, h1.left, ?_,
        htab' _ (List.mem_of_getElem? hi.2.2.2.2.2)⟩
      · rw [h1.energy]; exact hab.le
      · have := h1.inside
        rw [← h1.pos] at this
        exact this
  · intro p k L q hpB hpE hL
    obtain ⟨h1, h2, _⟩ := local_passes rcpr hr o hm hnest hV hff hmode hthin hn hck.le hsm hc0 hpB k L q hL
    have h3 := hpB.Ec
    rw [le_div_iff₀ hc0]
    nlinarith

/-- **C127, the result.** Without weak collisions: if moreover every particle can meet every species (C96) and no particle of the run moves exactly along
the x axis or lands exactly on the surface, the run returns. -/
theorem C127_result (hr : ReadyTarget mat n) (hm : RegularTarget mat) (hthin : NowhereThin mat nmin ck) (hn : 0 < nmin) (hck : 0 < ck)
    (hnest : BarrierEncloses mat.geometry) (hend : EndsWithMaterial mat) (hff : o.high_energy_free_flight_paths = false)
    (hmode : o.electronic_stopping_mode = .LOW_ENERGY_LOCAL) (hw : o.weak_collision_order = 0) (hV : AllScreened o)
    (hrec : o.track_recoils = false ∨ (BoundBy mat eb ∧ 0 < eb))
    (htab : ScreenedWithAll mat o ion.interaction_index) (htab' : ∀ j ∈ mat.interaction_index, ScreenedWithAll mat o j)
    (hsp : ∀ q i, IsSpecies mat i q → MeetsAll mat o q) (hmeet : MeetsAll mat o ion)
    (hion : RegularParticle ion) (hE : ion.Ec ≤ ion.E) (hin : IsInside mat ion) (hst : ion.stopped = false) (hlf : ion.left = false) :
    ∃ N, ∀ fuel, N ≤ fuel → ∀ tape, OpenUnit tape → Generic rcpr mat o ion tape →
      ∃ out tape', single_ion_bca rcpr fuel ion mat o tape = .ok (out, tape') := by
  obtain ⟨N, hN⟩ := C127_run_ends rcpr o hr hm.sound hthin hn hck hnest hend hff hmode hV hm.Ec_pos hrec htab htab' hion.sound hion.Ec_pos
    hE hin hst hlf
  refine ⟨N, fun fuel hfuel tape ht gen => ?_⟩
  obtain ⟨mat', hmat'⟩ := same_material_exists mat
  obtain ⟨rcpr', _⟩ : ∃ r : Rcpr XReal, True := ⟨⟨false, fun _ _ => .ok [], fun _ _ _ _ _ => .ok (.ok []), fun _ _ _ _ _ _ => .ok (.ok [])⟩, trivial⟩
  rcases C96_never_panics rcpr rcpr' mat mat' hmat' n hr hm o hV hw hsp ion hion hmeet hE hst hlf tape ht gen fuel with
    ⟨out, t', h, _⟩ | ⟨h, _⟩
  · exact ⟨out, t', h⟩
  · exact absurd h (hN fuel hfuel tape ht)

end

end RustBCA
