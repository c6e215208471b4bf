import Verif.Spec.RecoilCount
import Verif.Props.Energy
import Verif.Props.Recoils

/-!
# C101: the number of recoils
-/

set_option linter.unusedSimpArgs false
set_option linter.unusedVariables false

namespace RustBCA
open Scalar Spec

theorem weighted_zip (l cs : List ℝ) : Material.weighted_sum l cs = (List.zipWith (fun E c => E*c) l cs).sum := by
  unfold Material.weighted_sum
  rw [fsum_real]
  congr 1
  induction l generalizing cs with
  | nil => simp
  | cons a l ih =>
    cases cs with
    | nil => simp
    | cons c cs => simp [ih]

theorem bound_by {mat : Material ℝ} {eb : ℝ} (h : BoundBy mat eb) {x y z E : ℝ}
    (hE : mat.average_bulk_binding_energy x y z = .ok E) : eb ≤ E := by
  unfold Material.average_bulk_binding_energy at hE
  cases hc : mat.geometry.get_concentrations x y z with
  | error e => rw [hc] at hE; exact absurd hE (by simp)
  | ok cs =>
    rw [hc] at hE
    have hE' : Material.weighted_sum mat.Eb cs = E := by injection hE
    rw [← hE', weighted_zip]
    exact h x y z cs hc

/-- What the collisions of a pass cost. -/
theorem collide_cost (rcpr : Rcpr ℝ) {mat : Material ℝ} (o : Options ℝ) (hm : SoundTarget mat) {eb : ℝ} (heb : BoundBy mat eb)
    (heb0 : 0 ≤ eb) (l : List (BinaryCollisionGeometry ℝ × Nat)) (s : StepState ℝ) (t : Tape ℝ) (hs : SoundParticle s.particle_1) :
    Sat (forFold (collision_step rcpr mat o) l s) t (fun x _ => SoundParticle x.particle_1 ∧
      totalEnergy x.particles + eb*x.particles.length + x.particle_1.E ≤
        totalEnergy s.particles + eb*s.particles.length + s.particle_1.E) (fun _ => True) := by
  refine sat_mono (sat_and (collide_sound rcpr o hm l s t hs) (sat_forFold (E := fun _ => True) (body := collision_step rcpr mat o)
    (fun (x : StepState ℝ) _ => SoundParticle x.particle_1 ∧ totalEnergy x.particles + eb*x.particles.length + x.particle_1.E ≤
        totalEnergy s.particles + eb*s.particles.length + s.particle_1.E) l ?_ s t ⟨hs, le_refl _⟩)) (fun x _ h => h.2) (fun _ _ => trivial)
  rintro gk _ x t1 ⟨hx, hle⟩
  refine sat_mono (collision_step_cases rcpr mat o x gk t1) (fun y _ hy => ?_) (fun _ _ => trivial)
  rcases hy with rfl | ⟨si, q, r, _, hsp, _, _, _, _, _, _, _, _, _, hr, hA⟩
  · exact ⟨hx, hle⟩
  have hqm : 0 < q.m := hm.m _ (List.mem_of_getElem? hsp.2.1)
  obtain ⟨b1, b2, b3⟩ := C11_recoil_energy_bounds rcpr x.particle_1 q gk.1 o r hx.m hqm hx.E hr
  have hEy : y.particle_1.E = x.particle_1.E + -r.recoil_energy := by rw [hA.moving]
  obtain ⟨eb', heb', hstk⟩ := hA.stack
  have h1 := bound_by heb heb'
  refine ⟨⟨by rw [hA.moving]; exact hx.m, by rw [hA.moving]; exact hx.Z, by rw [hEy]; linarith, by rw [hA.moving]; exact hx.Es,
    by rw [hA.moving]; exact normalize_le_one _⟩, ?_⟩
  rw [hEy]
  rcases hstk with hstk | hstk
  · rw [hstk]; linarith
  · rw [hstk, totalEnergy_append, totalEnergy_one, List.length_append, List.length_singleton]
    push_cast
    linarith

set_option maxHeartbeats 1000000 in
/-- What a pass costs. -/
theorem pass_cost (rcpr : Rcpr ℝ) {mat : Material ℝ} (o : Options ℝ) (hm : SoundTarget mat) {eb : ℝ} (heb : BoundBy mat eb)
    (heb0 : 0 ≤ eb) {p : Particle ℝ} (hp : SoundParticle p) (ps : List (Particle ℝ)) (t : Tape ℝ) :
    Sat (trajectory_step rcpr mat o p ps) t (fun r _ =>
      (o.electronic_stopping_mode = .LOW_ENERGY_LOCAL ∨ Forwards mat o t p r.1) → (NoSurfaceBinding mat p ∨ WithinBarrier mat p) →
      r.1.E ≤ p.E ∧ totalEnergy r.2 + eb*r.2.length + r.1.E ≤ totalEnergy ps + eb*ps.length + p.E) (fun _ => True) := by
  refine sat_mono (sat_and (pass_trace rcpr mat o p ps t) (pass_sound rcpr o hm hp ps t)) (fun r _ hr => ?_) (fun _ _ => trivial)
  obtain ⟨q, qs⟩ := r
  obtain ⟨⟨tr⟩, hsound⟩ := hr
  simp only at tr hsound ⊢
  obtain ⟨b, hp1⟩ := tr.p1_eq
  have hp1s : SoundParticle tr.p1 := by
    rw [hp1]; exact ⟨hp.m, hp.Z, hp.E, hp.Es, hp.dir⟩
  obtain ⟨hmov, hcost⟩ := sat_of_ok (collide_cost rcpr o hm heb heb0 _ _ tr.t1 (by exact hp1s)) tr.hloop
  have hE1 := (C11_energy_through_collision_loop rcpr mat o _ _ _ _ _ hp1s.m hp1s.E hm.m tr.hloop)
  have hledger := (sat_of_ok (collide_sound rcpr o hm _ _ tr.t1 (by exact hp1s)) tr.hloop).ledger
  obtain ⟨E1, d1, n1, hs1, _, _⟩ := tr.s_eq.particle
  obtain ⟨a1, a2, a3, a4, a5, a6, a7, a8, a9, a10⟩ :=
    advance_same tr.s.particle_1 tr.g0.mfp tr.s.total_asymptotic_deflection
  have hq := tr.q_eq
  have hstop := tr.hstop
  have hbound := tr.hbound
  generalize (tr.s.particle_1.advance tr.g0.mfp tr.s.total_asymptotic_deflection).2 = d at *
  generalize (tr.s.particle_1.advance tr.g0.mfp tr.s.total_asymptotic_deflection).1 = pa at *
  have hpa : SoundParticle pa :=
    ⟨a2 ▸ hmov.m, a3 ▸ hmov.Z, a1 ▸ hmov.E, a4 ▸ hmov.Es, by rw [a5]; exact hmov.dir⟩
  obtain ⟨⟨E3, hp3⟩, b1, b2, b3, b4⟩ := rsat_of_ok (subtract_sound hm hpa d _ _ _ o) hstop
  simp only at hp3 b1 b2 b3 b4
  obtain ⟨⟨l, hl⟩, hen⟩ := tracker_same tr.p3 o tr.s.total_energy_lost_to_recoils tr.el
  rw [hl] at hen hbound hq
  have hB := rsat_of_ok (boundary_sound (p := { tr.p3 with energies := l }) hm b1
    (by rw [hp3]; exact hpa.dir) (by rw [hp3]; exact hpa.Es)) hbound
  obtain ⟨E', dq, bq, stq, lfq, lq, hqe⟩ := hq
  have f3 : tr.s.particle_1.Es = p.Es := by rw [hs1, hp1]
  have f4 : tr.s.particle_1.pos = p.pos := by rw [hs1, hp1]
  have f5 : tr.s.particle_1.asymptotic_deflection = p.asymptotic_deflection := by rw [hs1, hp1]
  have f8 : tr.p1.E = p.E := by rw [hp1]
  have g3 : tr.p3.Es = p.Es := by rw [hp3, ← f3]; exact a4
  have g4 : tr.p3.pos_old = p.pos := by rw [hp3, ← f4]; exact a6
  have g5 : tr.p3.asymptotic_deflection = tr.s.total_asymptotic_deflection := by rw [hp3]; exact a8
  have hqasy : q.asymptotic_deflection = tr.s.total_asymptotic_deflection :=
    (congrArg Particle.asymptotic_deflection hqe).trans g5
  intro hfw hsurf
  have hel : 0 ≤ tr.el := by
    refine b4 (hfw.imp_right fun h => ?_)
    have := h tr.p1 tr.gs tr.t1 tr.g0 tr.hmfp tr.hg0
    rw [a7, f5, ← hqasy]; exact this
  have h3 : tr.p3.E ≤ tr.s.particle_1.E := by
    by_cases h3 : 0 < tr.p3.E
    · have := b3 h3; linarith
    · have h3' : tr.p3.E = 0 := le_antisymm (not_lt.1 h3) b1
      have := hmov.E
      linarith
  have hqE : q.E ≤ tr.p3.E := by
    rcases hsurf with hf | hf
    · have := hB.free ⟨by simp only [g3]; exact hf.1, hf.2⟩
      simp only at this
      exact this.le
    · rcases hB.gain with h | ⟨Es, _, _, h4, _⟩
      · exact h
      · simp only [g4] at h4
        unfold WithinBarrier at hf
        rw [hf] at h4; cases h4
  have hsE : tr.s.particle_1.E ≤ p.E := by
    have := hE1.2.1
    simp only at hledger this
    rw [← f8]
    linarith
  have hqs : qs = tr.s.particles := tr.hqs
  refine ⟨by linarith, ?_⟩
  rw [hqs]
  simp only [f8] at hcost
  linarith

section
variable {rcpr : Rcpr ℝ} {mat : Material ℝ} {o : Options ℝ} {fuel : Nat} {ion : Particle ℝ} {tape : Tape ℝ}

/-- What a trajectory costs, from the particle `p` and the stack `ps` on. -/
structure TrajCost (mat : Material ℝ) (eb : ℝ) (p : Particle ℝ) (ps : List (Particle ℝ)) (x : TrajState ℝ) : Prop where
  moving : SoundParticle x.particle_1
  stack : (∀ r ∈ ps, SoundParticle r) → ∀ r ∈ x.particles, SoundParticle r
  free : NoSurfaceBinding mat p → NoSurfaceBinding mat x.particle_1
  freeStack : (∀ E ∈ mat.Es, E = 0) → (∀ r ∈ ps, NoSurfaceBinding mat r) → ∀ r ∈ x.particles, NoSurfaceBinding mat r
  bar : NoVacuum mat → WithinBarrier mat p → x.running = true → WithinBarrier mat x.particle_1
  barStack : NoVacuum mat → (∀ r ∈ ps, WithinBarrier mat r) → ∀ r ∈ x.particles, WithinBarrier mat r
  falls : x.particle_1.E ≤ p.E
  cost : totalEnergy x.particles + eb*x.particles.length + x.particle_1.E ≤ totalEnergy ps + eb*ps.length + p.E

theorem traj_cost (hm : SoundTarget mat) (hl : LossNeverNegative rcpr mat o fuel ion tape) {eb : ℝ} (heb : BoundBy mat eb)
    (heb0 : 0 ≤ eb) {s : CascadeState ℝ} {t : Tape ℝ} {p : Particle ℝ} {ps : List (Particle ℝ)}
    (hreach : AtHead rcpr mat o fuel ion tape s t) (hpos : 0 < s.particle_index) (hpop : popLast s.particles = .ok (p, ps))
    (hp : SoundParticle p) (hfree : NoSurfaceBinding mat p ∨ (NoVacuum mat ∧ WithinBarrier mat p)) :
    Sat (whileFuel TrajState.running (traj_body rcpr mat o) fuel ⟨p, ps, s.particle_index⟩) t
      (fun x _ => TrajCost mat eb p ps x) (fun _ => True) := by
  have := sat_whileFuel (E := fun _ => True) (cond := TrajState.running) (body := traj_body rcpr mat o)
    (fun x t' => InTrajectory rcpr mat o fuel ion tape x t' ∧ TrajCost mat eb p ps x) trivial ?_ fuel ⟨p, ps, s.particle_index⟩ t
    ⟨.start hreach hpos hpop, hp, fun h => h, fun h => h, fun _ h => h, fun _ h _ => h, fun _ h => h, le_refl _, le_refl _⟩
  · exact sat_mono this (fun x _ h => h.1.2) (fun _ _ => trivial)
  rintro x t1 ⟨hx, hT⟩ hrun
  rw [sat_iff]
  refine ⟨fun y t2 hy => ?_, fun _ _ => trivial⟩
  have hbody := hy
  refine ⟨.next hx hrun hy, ?_⟩
  have hstep : ∃ q qs, trajectory_step rcpr mat o x.particle_1 x.particles t1 = .ok ((q, qs), t2) ∧
      y.particle_1 = q ∧ y.particles = qs := by
    have h := sat_of_ok (R := fun (y : TrajState ℝ) t2 =>
      ∃ q qs, trajectory_step rcpr mat o x.particle_1 x.particles t1 = .ok ((q, qs), t2) ∧
      y.particle_1 = q ∧ y.particles = qs) (E := fun _ => True) ?_ hy
    · exact h
    · unfold traj_body
      simp only [sat_bind, sat_pure]
      refine sat_mono (sat_eq _ _) (fun r t3 hr => ?_) (fun _ _ => trivial)
      exact ⟨r.1, r.2, hr, rfl, rfl⟩
  obtain ⟨q, qs, hq, hy1, hy2⟩ := hstep
  have hP := sat_of_ok (pass_sound rcpr o hm hT.moving x.particles t1) hq
  simp only at hP
  have hrun' : x.particle_1.stopped = false ∧ x.particle_1.left = false := by
    unfold TrajState.running at hrun
    simpa using hrun
  have hPE := sat_of_ok (trajectory_step_sat rcpr mat o x.particle_1 x.particles t1 hrun'.1 hrun'.2) hq
  simp only at hPE
  have hc := sat_of_ok (pass_cost rcpr o hm heb heb0 hT.moving x.particles t1) hq
    (hl.imp_right fun h => hy1 ▸ h x t1 y t2 hx hrun hbody) (hfree.imp hT.free fun h => hT.bar h.1 h.2 hrun)
  simp only at hc
  refine ⟨hy1 ▸ hP.moving, fun h => hy2 ▸ hP.stack (hT.stack h), fun h => hy1 ▸ hP.free (hT.free h),
    fun hz h => hy2 ▸ hP.freeStack hz (hT.freeStack hz h), ?_, ?_, ?_, ?_⟩
  · intro hv _ hr
    rw [hy1]
    have hr' : q.stopped = false ∧ q.left = false := by
      unfold TrajState.running at hr
      rw [hy1] at hr
      simpa using hr
    exact hv.volume _ _ _ (hPE.running hr'.2)
  · intro hv h r hr
    obtain ⟨new, hn, hf, _⟩ := hPE.stack
    rw [hy2, hn, List.mem_append] at hr
    rcases hr with hr | hr
    · exact hT.barStack hv h r hr
    · have := (hf r hr).inside
      rw [← (hf r hr).pos] at this
      exact hv.material _ _ _ this
  · rw [hy1]; exact hc.1.trans hT.falls
  · rw [hy1, hy2]; exact hc.2.trans hT.cost

/-- The invariant of a run. -/
structure CostOK (mat : Material ℝ) (ion : Particle ℝ) (eb : ℝ) (s : CascadeState ℝ) : Prop where
  sound : ∀ r ∈ s.particles, SoundParticle r
  out : ∀ r ∈ s.particle_output, 0 ≤ r.E
  free : ((∀ E ∈ mat.Es, E = 0) ∧ ∀ r ∈ s.particles, NoSurfaceBinding mat r) ∨ (NoVacuum mat ∧ ∀ r ∈ s.particles, WithinBarrier mat r)
  cost : totalEnergy s.particle_output + totalEnergy s.particles + eb*(s.particle_output.length + s.particles.length) ≤ ion.E + eb

theorem head_cost (hm : SoundTarget mat) (hion : SoundParticle ion) (hl : LossNeverNegative rcpr mat o fuel ion tape) {eb : ℝ}
    (heb : BoundBy mat eb) (heb0 : 0 ≤ eb) (hfree : NoSurfaceBinding mat ion ∨ (NoVacuum mat ∧ WithinBarrier mat ion)) {s : CascadeState ℝ} {t : Tape ℝ}
    (h : AtHead rcpr mat o fuel ion tape s t) : CostOK mat ion eb s := by
  induction h with
  | start =>
    refine ⟨by simpa using hion, by simp, hfree.imp (fun h => ⟨h.2, by simpa using h⟩) (fun h => ⟨h.1, by simpa using h.2⟩), ?_⟩
    simp [totalEnergy]
  | @next s s' t t' hr hpos hs' hI =>
    have hbody : Sat (cascade_body rcpr mat o fuel s) t (fun s' _ => ∃ p ps x,
        s.particles = ps ++ [p] ∧ TrajCost mat eb p ps x ∧
        s' = ⟨x.particles, s.particle_output ++ [x.particle_1], x.particle_index⟩) (fun _ => True) := by
      unfold cascade_body
      simp only [sat_bind, sat_lift, sat_pure]
      refine rsat_mono (rsat_eq _) (fun a ha => ?_) (fun _ _ => trivial)
      obtain ⟨p, ps⟩ := a
      have hsp := popLast_ok ha
      have hp : SoundParticle p := hI.sound p (by rw [hsp]; simp)
      refine sat_mono (traj_cost hm hl heb heb0 hr hpos ha hp (hI.free.imp (fun h => h.2 p (by rw [hsp]; simp)) fun h => ⟨h.1, h.2 p (by rw [hsp]; simp)⟩))
        (fun x _ hx => ?_) (fun _ _ => trivial)
      exact ⟨p, ps, x, hsp, hx, rfl⟩
    obtain ⟨p, ps, x, hsp, hx, rfl⟩ := sat_of_ok hbody hs'
    have hps : ∀ r ∈ ps, SoundParticle r := fun r h => hI.sound r (by rw [hsp]; simp [h])
    refine ⟨hx.stack hps, ?_, hI.free.imp (fun h => ⟨h.1, hx.freeStack h.1 fun r hr => h.2 r (by rw [hsp]; simp [hr])⟩)
      (fun h => ⟨h.1, hx.barStack h.1 fun r hr => h.2 r (by rw [hsp]; simp [hr])⟩), ?_⟩
    · intro r hr'
      rcases List.mem_append.mp hr' with hr' | hr'
      · exact hI.out r hr'
      · rw [List.mem_singleton.mp hr']; exact hx.moving.E
    · have h1 := hI.cost
      have h2 := hx.cost
      rw [hsp] at h1
      simp only [totalEnergy_append, totalEnergy_one, List.length_append, List.length_singleton] at h1 ⊢
      push_cast at h1 ⊢
      linarith

theorem total_nonneg (l : List (Particle ℝ)) (h : ∀ r ∈ l, 0 ≤ r.E) : 0 ≤ totalEnergy l := by
  unfold totalEnergy
  refine List.sum_nonneg fun e he => ?_
  obtain ⟨r, hr, rfl⟩ := List.mem_map.mp he
  exact h r hr

end

section
variable (rcpr : Rcpr ℝ) (mat : Material ℝ) (o : Options ℝ) (fuel : Nat) (ion : Particle ℝ) (tape tape' : Tape ℝ) (out : List (Particle ℝ))

/-- **C101, the balance.** When no energy is created (no surface binding energy, or no vacuum to come back from; no
negative electronic losses),
the energies of the particles reported and the binding energy of every recoil add up to no more than the energy of the ion. -/
theorem C101_balance (hm : SoundTarget mat) (hion : SoundParticle ion) (eb : ℝ) (heb : BoundBy mat eb) (heb0 : 0 ≤ eb)
    (hfree : NoSurfaceBinding mat ion ∨ (NoVacuum mat ∧ WithinBarrier mat ion)) (hl : LossNeverNegative rcpr mat o fuel ion tape)
    (run : single_ion_bca rcpr fuel ion mat o tape = .ok (out, tape')) :
    totalEnergy out + eb*(out.length - 1) ≤ ion.E := by
  have h : Sat (single_ion_bca rcpr fuel ion mat o) tape (fun out _ => ∃ s : CascadeState ℝ, out = s.particle_output ∧
      CostOK mat ion eb s) (fun _ => True) := by
    unfold single_ion_bca
    simp only [sat_bind, sat_pure]
    refine sat_mono (sat_whileFuel (E := fun _ => True) (cond := fun s : CascadeState ℝ => decide (0 < s.particle_index))
      (body := cascade_body rcpr mat o fuel) (fun s t' => AtHead rcpr mat o fuel ion tape s t') trivial ?_ fuel ⟨[ion], [], 1⟩ tape .start)
      (fun s _ h => ⟨s, rfl, head_cost hm hion hl heb heb0 hfree h.1⟩) (fun _ _ => trivial)
    intro s t hs hc
    rw [sat_iff]
    exact ⟨fun s' t' hs' => .next hs (by simpa using hc) hs', fun _ _ => trivial⟩
  obtain ⟨s, rfl, hs⟩ := sat_of_ok h run
  have h1 := hs.cost
  have h2 := total_nonneg _ fun r hr => (hs.sound r hr).E
  have h3 : 0 ≤ eb*(s.particles.length : ℝ) := by positivity
  nlinarith

/-- **C101.** The number of recoils of an ion is at most its energy divided by the bulk binding energy. -/
theorem C101_count (hm : SoundTarget mat) (hion : SoundParticle ion) (eb : ℝ) (heb : BoundBy mat eb) (heb0 : 0 < eb)
    (hfree : NoSurfaceBinding mat ion ∨ (NoVacuum mat ∧ WithinBarrier mat ion)) (hl : LossNeverNegative rcpr mat o fuel ion tape)
    (run : single_ion_bca rcpr fuel ion mat o tape = .ok (out, tape')) :
    (out.length : ℝ) - 1 ≤ ion.E/eb := by
  have h := C101_balance rcpr mat o fuel ion tape tape' out hm hion eb heb heb0.le hfree hl run
  have h2 := total_nonneg out fun r hr => (C71_energies_and_directions rcpr mat o fuel ion tape out tape' hm hion run r hr).1
  rw [le_div_iff₀ heb0]
  linarith

/-- **C101, Coulomb potentials.** With Coulomb potentials and without free-flight paths the bound holds whatever the random
numbers. -/
theorem C101_coulomb (hm : SoundTarget mat) (hion : SoundParticle ion) (eb : ℝ) (heb : BoundBy mat eb) (heb0 : 0 < eb)
    (hfree : NoSurfaceBinding mat ion ∨ (NoVacuum mat ∧ WithinBarrier mat ion)) (hC : AllCoulomb o)
    (hff : o.high_energy_free_flight_paths = false) (hu : UnitInterval tape) (h0 : ion.asymptotic_deflection = 0)
    (run : single_ion_bca rcpr fuel ion mat o tape = .ok (out, tape')) :
    totalEnergy out + eb*(out.length - 1) ≤ ion.E ∧ (out.length : ℝ) - 1 ≤ ion.E/eb := by
  have hl : LossNeverNegative rcpr mat o fuel ion tape := Or.inr (coulomb_always_forwards rcpr mat o fuel ion tape hm hC hff hu h0)
  exact ⟨C101_balance rcpr mat o fuel ion tape tape' out hm hion eb heb heb0.le hfree hl run,
    C101_count rcpr mat o fuel ion tape tape' out hm hion eb heb heb0 hfree hl run⟩

/-- **C101, local stopping.** In the mode LOW_ENERGY_LOCAL the bound holds for every potential. -/
theorem C101_local (hm : SoundTarget mat) (hion : SoundParticle ion) (eb : ℝ) (heb : BoundBy mat eb) (heb0 : 0 < eb)
    (hfree : NoSurfaceBinding mat ion ∨ (NoVacuum mat ∧ WithinBarrier mat ion))
    (hmode : o.electronic_stopping_mode = .LOW_ENERGY_LOCAL)
    (run : single_ion_bca rcpr fuel ion mat o tape = .ok (out, tape')) :
    totalEnergy out + eb*(out.length - 1) ≤ ion.E ∧ (out.length : ℝ) - 1 ≤ ion.E/eb :=
  ⟨C101_balance rcpr mat o fuel ion tape tape' out hm hion eb heb heb0.le hfree (Or.inl hmode) run,
    C101_count rcpr mat o fuel ion tape tape' out hm hion eb heb heb0 hfree (Or.inl hmode) run⟩

end

end RustBCA
