import Verif.Proofs.SpecialFinish
import Verif.Props.Recoils

/-!
# C95: a whole pass and a whole run computes only numbers
-/

namespace RustBCA
open Scalar Spec

set_option linter.unusedSimpArgs false
set_option linter.unusedVariables false

theorem draws_open {α : Type} {m : M ℝ α} (hm : DrawsInOrder m) {t t' : Tape ℝ} {a : α}
    (h : m t = .ok (a, t')) (hu : OpenUnit t) : OpenUnit t' := by
  obtain ⟨k, rfl, _⟩ := hm t a t' h
  exact hu.shift k

/-- the collision loop -/
theorem XReal.loop_fin (rcpr : Rcpr ℝ) (rcpr' : Rcpr XReal) {mat : Material ℝ} {mat' : Material XReal}
    (h : SameMaterial mat mat') (hm : RegularTarget mat) (o : Options ℝ)
    (gs : List (BinaryCollisionGeometry ℝ)) (hg : ∀ g ∈ gs, 0 < g.impact_parameter) (n : Nat)
    (s0 : StepState ℝ) (t : Tape ℝ) (hp : RegularParticle s0.particle_1) (hz : 0 ≤ s0.strong_collision_Z)
    (hl : ∀ r ∈ s0.particles, RegularParticle r)
    (hsafe : ∀ (k : ℕ) s t'', k < n → k < gs.length →
      forFold (collision_step rcpr mat o) (gs.zipIdx.take k) s0 t = .ok (s, t'') → MayCollide mat o s.particle_1) :
    MLift StepState.lift (forFold (collision_step rcpr mat o) (gs.zipIdx.take n) s0)
      (forFold (collision_step rcpr' mat' o.lift) ((gs.map (·.lift)).zipIdx.take n) s0.lift) t ∧
    ∀ s t'', forFold (collision_step rcpr mat o) (gs.zipIdx.take n) s0 t = .ok (s, t'') →
      RegularParticle s.particle_1 ∧ (∀ r ∈ s.particles, RegularParticle r) ∧ 0 ≤ s.strong_collision_Z := by
  have hmap : (gs.map (·.lift)).zipIdx.take n =
      (gs.zipIdx.take n).map fun x : BinaryCollisionGeometry ℝ × ℕ => (x.1.lift, x.2) := by
    rw [List.map_take, List.zipIdx_map]
    rfl
  rw [hmap]
  refine MLift.forFold (fun s _ => RegularParticle s.particle_1 ∧ (∀ r ∈ s.particles, RegularParticle r) ∧
    0 ≤ s.strong_collision_Z) (gs.zipIdx.take n) s0 t ⟨hp, hl, hz⟩ ?_
  intro k i s' t' hi hrun hI
  obtain ⟨g, j⟩ := i
  have hk : k < (gs.zipIdx.take n).length := (List.getElem?_eq_some_iff.1 hi).1
  have hk1 : k < gs.length := by
    rw [List.length_take, List.length_zipIdx] at hk
    omega
  have hk2 : k < n := by
    rw [List.length_take] at hk
    omega
  rw [List.take_take, min_eq_left hk2.le] at hrun
  have hmay := hsafe k s' t' hk2 hk1 hrun
  have hmem : g ∈ gs := by
    have := List.mem_of_mem_take (List.mem_of_getElem? hi)
    exact List.fst_mem_of_mem_zipIdx this
  refine ⟨collision_step_fin rcpr rcpr' h hm o s' hI.1 hmay g (hg g hmem) j t', fun s'' t'' hs => ?_⟩
  exact sat_of_ok (collision_step_regular rcpr hm o s' hI.1 hmay.1 hI.2.1 hI.2.2 (g, j) t') hs

/-- **C95, one pass.** A pass of the trajectory loop that is safe (`SafePass`), by a regular particle in a regular
target with screened potentials and random numbers strictly between 0 and 1, does the same over
numbers with infinities and NaN as over the real numbers: it does not fail, and every number in the particle and
in the recoils it sets in motion is the real number the model over the reals computes.  Particle and recoils are
regular again. -/
theorem C95_pass (rcpr : Rcpr ℝ) (rcpr' : Rcpr XReal) (mat : Material ℝ) (mat' : Material XReal)
    (h : SameMaterial mat mat') (hm : RegularTarget mat) (o : Options ℝ) (ho : AllScreened o)
    (p : Particle ℝ) (hp : RegularParticle p) (t : Tape ℝ) (ht : OpenUnit t)
    (q : Particle ℝ) (new : List (Particle ℝ)) (t1 : Tape ℝ)
    (run : trajectory_step rcpr mat o p [] t = .ok ((q, new), t1)) (hsafe : SafePass rcpr mat o p t q) :
    trajectory_step rcpr' mat' o.lift p.lift [] (liftTape t) = .ok ((q.lift, new.map (·.lift)), liftTape t1) ∧
      RegularParticle q ∧ (∀ r ∈ new, RegularParticle r) ∧ OpenUnit t1 := by
  obtain ⟨hsafe1, hoff⟩ := hsafe
  have hs := sat_of_ok (pass_sound rcpr o hm.sound hp.sound [] t) run
  have hfr := sat_of_ok (pass_trace rcpr mat o p [] t) run
  have ht1 := draws_open (draws_trajectory_step rcpr mat o p []) run ht
  obtain ⟨tr⟩ := hfr
  have e0 : (0.0:ℝ) = 0 := by norm_num
  -- the particle before the boundary
  have hp1r : RegularParticle tr.p1 := by
    obtain ⟨b, hb⟩ := tr.p1_eq
    rw [hb]
    exact ⟨⟨hp.sound.m, hp.sound.Z, hp.sound.E, hp.sound.Es, hp.sound.dir⟩, hp.Ec_pos, hp.unit⟩
  obtain ⟨hgpos, htt1⟩ := sat_of_ok (determine_pos h hm hp o ht) tr.hmfp
  have hdet := XReal.determine_fin h hm hp o ht _ _ tr.hmfp
  obtain ⟨l1, l2⟩ := XReal.loop_fin rcpr rcpr' h hm o tr.gs hgpos (o.weak_collision_order + 1)
    ⟨tr.p1, [], 0.0, 0.0, 0.0, 0.0, 0⟩ tr.t1 hp1r e0.ge (fun r hr => by cases hr)
    (fun k s t'' hk0 hk hrun => hsafe1 tr.p1 tr.gs tr.t1 tr.hmfp k s t'' (by omega) hk (by rw [e0] at hrun; exact hrun))
  have l1' := l1 _ _ tr.hloop
  obtain ⟨r1, r2, r3⟩ := l2 _ _ tr.hloop
  have hadv := XReal.advance_fin tr.s.particle_1 tr.g0.mfp tr.s.total_asymptotic_deflection
  obtain ⟨a1, a2, a3, a4, a5, a6, a7, a8, a9, a10⟩ :=
    advance_same tr.s.particle_1 tr.g0.mfp tr.s.total_asymptotic_deflection
  have aEc : (tr.s.particle_1.advance tr.g0.mfp tr.s.total_asymptotic_deflection).1.Ec = tr.s.particle_1.Ec := by
    unfold Particle.advance
    by_cases hc : (tr.s.particle_1.E >. tr.s.particle_1.Ec) = true
    · obtain ⟨l, hl⟩ := utt_same tr.s.particle_1
      simp only [hc, if_true, hl]
    · simp only [hc, Bool.false_eq_true, if_false]
  have hstop := tr.hstop
  have hpar : RegularParticle (tr.s.particle_1.advance tr.g0.mfp tr.s.total_asymptotic_deflection).1 :=
    ⟨⟨a2 ▸ r1.sound.m, a3 ▸ r1.sound.Z, a1 ▸ r1.sound.E, a4 ▸ r1.sound.Es, by rw [a5]; exact r1.sound.dir⟩,
      aEc ▸ r1.Ec_pos, by rw [a5]; exact r1.unit⟩
  have hsub := XReal.subtract_fin h hm hpar ho
    (tr.s.particle_1.advance tr.g0.mfp tr.s.total_asymptotic_deflection).2
    tr.s.normalized_distance_of_closest_approach r3 tr.s.strong_collision_index _ tr.hstop
  obtain ⟨⟨E3, hp3⟩, b1, _⟩ := rsat_of_ok (subtract_sound hm.sound hpar.sound _ _ _ _ o) tr.hstop
  simp only at hp3 b1
  obtain ⟨⟨l, hl⟩, _⟩ := tracker_same tr.p3 o tr.s.total_energy_lost_to_recoils tr.el
  have hupd := XReal.uel_fin tr.p3 o tr.s.total_energy_lost_to_recoils tr.el
  have hb := tr.hbound
  obtain ⟨p4, hp4⟩ : ∃ p4, p4 = tr.p3.update_energy_loss_tracker o tr.s.total_energy_lost_to_recoils tr.el := ⟨_, rfl⟩
  rw [← hp4] at hupd hb hl
  have c1 : Spec.IsUnit p4.dir := by rw [hl, hp3]; exact hpar.unit
  have c2 : 0 ≤ p4.E := by rw [hl]; exact b1
  have c3 : 0 ≤ p4.Es := by rw [hl, hp3]; exact hpar.sound.Es
  have c4 : 0 < p4.Ec := by rw [hl, hp3]; exact hpar.Ec_pos
  obtain ⟨E, d, b, st, lf, tj, hq⟩ := rsat_of_ok (boundary_frame p4 mat) hb
  dsimp only at hq
  have c5 : OffSurface mat p4 := by
    have e1 : q.pos = p4.pos := (congrArg Particle.pos hq).trans rfl
    have e2 : q.pos_old = p4.pos_old := (congrArg Particle.pos_old hq).trans rfl
    unfold OffSurface at hoff ⊢
    rw [e1, e2] at hoff
    exact hoff
  obtain ⟨d1, d2⟩ := XReal.boundary_fin h hm c1 c2 c3 c4 c5
  have hb' := d1 q hb
  refine ⟨?_, ⟨hs.moving, ?_, d2 q hb⟩, ?_, ht1⟩
  · have hg0 : vget (tr.gs.map (·.lift)) 0 = .ok tr.g0.lift :=
      RLift.vget (f := BinaryCollisionGeometry.lift) tr.gs 0 tr.g0 (by unfold RustBCA.vget; rw [tr.hg0])
    have hnew : new = tr.s.particles := tr.hqs
    have hfin : finish_step mat' o.lift (tr.gs.map (·.lift)) tr.s.lift = .ok (q.lift, new.map (·.lift)) := by
      unfold finish_step
      simp only [hg0, bind, Except.bind]
      have k1 : tr.s.lift.particle_1.advance tr.g0.lift.mfp tr.s.lift.total_asymptotic_deflection = _ := hadv
      simp only [k1]
      have k2 : subtract_electronic_stopping_energy
        (tr.s.particle_1.advance tr.g0.mfp tr.s.total_asymptotic_deflection).1.lift mat'
        (XReal.fin (tr.s.particle_1.advance tr.g0.mfp tr.s.total_asymptotic_deflection).2)
        tr.s.lift.normalized_distance_of_closest_approach tr.s.lift.strong_collision_Z
        tr.s.lift.strong_collision_index o.lift = _ := hsub
      simp only [k2]
      have k3 : tr.p3.lift.update_energy_loss_tracker o.lift tr.s.lift.total_energy_lost_to_recoils
        (XReal.fin tr.el) = p4.lift := hupd
      simp only [k3, hb', pure, Except.pure]
      exact congrArg (fun l : List (Particle ℝ) => Except.ok (q.lift, l.map (·.lift))) hnew.symm
    have hrun : trajectory_step rcpr mat o p [] t = (finish_step mat o tr.gs tr.s >>= fun x => Except.ok (x, tr.t2)) := by
      unfold trajectory_step
      simp only [bind, StateT.bind, Except.bind, tr.hmfp, tr.hloop]
      cases finish_step mat o tr.gs tr.s <;> rfl
    have ht2 : tr.t2 = t1 := by
      rw [run] at hrun
      cases hf : finish_step mat o tr.gs tr.s with
      | error e => rw [hf] at hrun; cases hrun
      | ok x => rw [hf] at hrun; exact (Prod.mk.inj (Except.ok.inj hrun)).2.symm
    unfold trajectory_step
    have l1'' : forFold (collision_step rcpr' mat' o.lift)
        ((tr.gs.map (·.lift)).zipIdx.take (o.lift.weak_collision_order + 1))
        (⟨tr.p1.lift, [], 0.0, 0.0, 0.0, 0.0, 0⟩ : StepState XReal) (liftTape tr.t1) =
        .ok (tr.s.lift, liftTape tr.t2) := l1'
    simp only [bind, StateT.bind, Except.bind, hdet, l1'']
    simp only [hfin, ht2, liftM, monadLift, MonadLift.monadLift, StateT.lift, bind, Except.bind, pure, Except.pure]
  · have e1 : q.Ec = p4.Ec := (congrArg Particle.Ec hq).trans rfl
    rw [e1]; exact c4
  · intro r hr
    have hnew : new = tr.s.particles := tr.hqs
    rw [hnew] at hr
    exact r2 r hr

/-- Following a particle to its end. -/
theorem C95_path (rcpr : Rcpr ℝ) (rcpr' : Rcpr XReal) (mat : Material ℝ) (mat' : Material XReal)
    (h : SameMaterial mat mat') (hm : RegularTarget mat) (o : Options ℝ) (ho : AllScreened o)
    {p q : Particle ℝ} {recoils : List (Particle ℝ)} {t t' : Tape ℝ} (run : SafePath rcpr mat o p t q recoils t')
    (hp : RegularParticle p) (ht : OpenUnit t) :
    Path rcpr mat o p t q recoils t' ∧
      Path rcpr' mat' o.lift p.lift (liftTape t) q.lift (recoils.map (·.lift)) (liftTape t') ∧
      RegularParticle q ∧ (∀ r ∈ recoils, RegularParticle r) ∧ OpenUnit t' := by
  induction run with
  | finished hf => exact ⟨.finished hf, .finished hf, hp, (fun r hr => by cases hr), ht⟩
  | step h1 h2 hrun hsafe _ ih =>
    obtain ⟨a1, a2, a3, a4⟩ := C95_pass rcpr rcpr' mat mat' h hm o ho _ hp _ ht _ _ _ hrun hsafe
    obtain ⟨b1, b2, b3, b4, b5⟩ := ih a2 a4
    refine ⟨.step h1 h2 hrun b1, ?_, b3, ?_, b5⟩
    · rw [List.map_append]
      exact .step h1 h2 a1 b2
    · intro r hr
      rcases List.mem_append.1 hr with hr | hr
      · exact a3 r hr
      · exact b4 r hr

/-- Following a list of particles with all their recoils. -/
theorem C95_cascades (rcpr : Rcpr ℝ) (rcpr' : Rcpr XReal) (mat : Material ℝ) (mat' : Material XReal)
    (h : SameMaterial mat mat') (hm : RegularTarget mat) (o : Options ℝ) (ho : AllScreened o)
    {ps out : List (Particle ℝ)} {t t' : Tape ℝ} (run : SafeCascades rcpr mat o ps t out t')
    (hp : ∀ p ∈ ps, RegularParticle p) (ht : OpenUnit t) :
    Cascades rcpr mat o ps t out t' ∧
      Cascades rcpr' mat' o.lift (ps.map (·.lift)) (liftTape t) (out.map (·.lift)) (liftTape t') ∧
      (∀ r ∈ out, RegularParticle r) ∧ OpenUnit t' := by
  induction run with
  | nil => exact ⟨.nil, .nil, (fun r hr => by cases hr), ht⟩
  | cons hpath _ _ ih1 ih2 =>
    obtain ⟨a1, a2, a3, a4, a5⟩ := C95_path rcpr rcpr' mat mat' h hm o ho hpath (hp _ List.mem_cons_self) ht
    obtain ⟨b1, b2, b3, b4⟩ := ih1 (fun r hr => a4 r (List.mem_reverse.1 hr)) a5
    obtain ⟨c1, c2, c3, c4⟩ := ih2 (fun r hr => hp r (List.mem_cons_of_mem _ hr)) b4
    refine ⟨.cons a1 b1 c1, ?_, ?_, c4⟩
    · rw [List.map_cons, List.map_cons, List.map_append]
      rw [List.map_reverse] at b2
      exact .cons a2 b2 c2
    · intro r hr
      rcases List.mem_cons.1 hr with rfl | hr
      · exact a3
      · rcases List.mem_append.1 hr with hr | hr
        · exact b3 r hr
        · exact c3 r hr

/-- **C95, the fate of an ion.** Let every pass of an ion and of all the recoils of its cascade be safe.  Then
`single_ion_bca` over numbers with infinities and NaN returns; every number in every particle it returns is a real
number, and these are the particles that `single_ion_bca` over the real numbers returns. -/
theorem C95_run (rcpr : Rcpr ℝ) (rcpr' : Rcpr XReal) (mat : Material ℝ) (mat' : Material XReal)
    (h : SameMaterial mat mat') (hm : RegularTarget mat) (o : Options ℝ) (ho : AllScreened o)
    (ion : Particle ℝ) (hion : RegularParticle ion) (hs : ion.stopped = false) (hl : ion.left = false)
    (t t' : Tape ℝ) (ht : OpenUnit t) (out : List (Particle ℝ)) (run : SafeCascades rcpr mat o [ion] t out t') :
    (∃ fuel, single_ion_bca rcpr fuel ion mat o t = .ok (out, t')) ∧
    (∃ fuel, single_ion_bca rcpr' fuel ion.lift mat' o.lift (liftTape t)
      = .ok (out.map (·.lift), liftTape t')) ∧
    ∀ r ∈ out, RegularParticle r := by
  obtain ⟨a1, a2, a3, _⟩ := C95_cascades rcpr rcpr' mat mat' h hm o ho run
    (fun p hp => by rw [List.mem_singleton] at hp; subst hp; exact hion) ht
  exact ⟨(C81_depth_first rcpr mat o ion t t' out hs hl).2 a1,
    (C81_depth_first rcpr' mat' o.lift ion.lift (liftTape t) (liftTape t') _ hs hl).2 a2, a3⟩

end RustBCA
