import Verif.Props.DoubleSurface
import Verif.Props.Streams
import Verif.Spec.DoubleBalance

/-!
# C114: in double precision, energy is created by rounding only
-/

set_option linter.unusedSectionVars false
set_option linter.unusedSimpArgs false
set_option linter.unusedVariables false

namespace RustBCA
open Scalar Spec

variable {A : DoubleArith}

theorem roundoff_pos : 0 < unitRoundoff := by unfold unitRoundoff; positivity

theorem after_after {F : Type} (k l : Nat) (t : Tape F) : after l (after k t) = after (k + l) t := by
  funext i; simp only [after]; congr 1; omega

/-- Pure arithmetic: growth factors multiply. -/
theorem balance_arith {w w' w'' eq er es eo ep eps : ℝ} (h1 : 1 ≤ w) (h2 : 1 ≤ w') (h3 : 1 ≤ w'')
    (hq : 0 ≤ eq) (hr : 0 ≤ er) (hps : 0 ≤ eps) (hp : 0 ≤ ep) (a : eq + er ≤ ep*w)
    (b : es ≤ er*w') (c : eo ≤ eps*w'') : eq + (es + eo) ≤ (ep + eps)*(w*w'*w'') := by
  have ww : w ≤ w*w' := le_mul_of_one_le_right (by linarith) h2
  have w0 : 0 ≤ w*w' := by nlinarith
  have www : w*w' ≤ w*w'*w'' := le_mul_of_one_le_right w0 h3
  have w4 : w'' ≤ w*w'*w'' := le_mul_of_one_le_left (by linarith) (by nlinarith)
  have s1 : eq + es ≤ (eq + er)*w' := by nlinarith
  have s2 : (eq + er)*w' ≤ ep*w*w' := mul_le_mul_of_nonneg_right a (by linarith)
  have s3 : ep*(w*w') ≤ ep*(w*w'*w'') := mul_le_mul_of_nonneg_left www hp
  have s4 : eps*w'' ≤ eps*(w*w'*w'') := mul_le_mul_of_nonneg_left w4 hps
  nlinarith

/-! ## One random number for each collision -/

theorem collision_step_draws (rcpr : Rcpr (Dbl A)) (mat : Material (Dbl A)) (o : Options (Dbl A))
    (s : StepState (Dbl A)) (gk : BinaryCollisionGeometry (Dbl A) × Nat) (t : Tape (Dbl A)) :
    Sat (collision_step rcpr mat o s gk) t (fun _ t' => t' = after 1 t) (fun _ => True) := by
  obtain ⟨g, k⟩ := gk
  have e1 : (fun n => t (n + 1)) = after 1 t := by funext n; simp only [after]; congr 1; omega
  unfold collision_step choose_collision_partner Material.choose
  simp only [sat_bind, sat_random]
  simp only [sat_lift]
  refine rsat_mono (rsat_trivial _) (fun cs _ => ?_) (fun _ _ => trivial)
  split
  · simp only [sat_lift]
    refine rsat_mono (rsat_trivial _) (fun sp _ => ?_) (fun _ _ => trivial)
    simp only [sat_pure, sat_lift, sat_bind]
    refine rsat_mono (rsat_trivial _) (fun _ _ => ?_) (fun _ _ => trivial)
    refine rsat_mono (rsat_trivial _) (fun _ _ => ?_) (fun _ _ => trivial)
    split
    · simp only [sat_pure, sat_lift, sat_bind]
      refine rsat_mono (rsat_trivial _) (fun _ _ => ?_) (fun _ _ => trivial)
      refine rsat_mono (rsat_trivial _) (fun _ _ => ?_) (fun _ _ => trivial)
      refine rsat_mono (rsat_trivial _) (fun _ _ => e1) (fun _ _ => trivial)
    · simp only [sat_pure]; exact e1
  · simp only [sat_lift]
    refine rsat_mono (rsat_trivial _) (fun sp _ => ?_) (fun _ _ => trivial)
    simp only [sat_pure, sat_lift, sat_bind]
    refine rsat_mono (rsat_trivial _) (fun _ _ => ?_) (fun _ _ => trivial)
    refine rsat_mono (rsat_trivial _) (fun _ _ => ?_) (fun _ _ => trivial)
    split
    · simp only [sat_pure, sat_lift, sat_bind]
      refine rsat_mono (rsat_trivial _) (fun _ _ => ?_) (fun _ _ => trivial)
      refine rsat_mono (rsat_trivial _) (fun _ _ => ?_) (fun _ _ => trivial)
      refine rsat_mono (rsat_trivial _) (fun _ _ => e1) (fun _ _ => trivial)
    · simp only [sat_pure]; exact e1

/-! ## The collisions of a pass -/

/-- A particle of sound data that is not bound to the surface. -/
structure Fine (mat : Material (Dbl A)) (p : Particle (Dbl A)) : Prop where
  sound : SoundDouble mat p
  charge : 0 ≤ p.Z.val
  free : p.Es.val = 0

theorem total_append_dbl (l l' : List (Particle (Dbl A))) :
    totalEnergyDbl (l ++ l') = totalEnergyDbl l + totalEnergyDbl l' := by
  simp [totalEnergyDbl]

theorem total_nonneg_dbl {mat : Material (Dbl A)} {l : List (Particle (Dbl A))}
    (h : ∀ r ∈ l, Fine mat r) : 0 ≤ totalEnergyDbl l := by
  refine List.sum_nonneg fun e he => ?_
  obtain ⟨r, hr, rfl⟩ := List.mem_map.mp he
  exact (h r hr).sound.energy

theorem bulk_nonneg {mat : Material (Dbl A)} (hmat : SoundDoubles mat) (hb : SoundBulk mat)
    {x y z eb : Dbl A} (h : mat.average_bulk_binding_energy x y z = .ok eb) : 0 ≤ eb.val := by
  unfold Material.average_bulk_binding_energy at h
  refine rsat_of_ok (Q := fun e : Dbl A => 0 ≤ e.val) (E := fun _ => True) ?_ h
  rw [rsat_map]
  refine rsat_mono (rsat_eq _) (fun cs hcs => ?_) (fun _ _ => trivial)
  exact weighted_nonneg_dbl hb.bulk (hmat.concentrations _ _ _ _ hcs)

/-- The collisions of a pass create energy by rounding only. -/
theorem collisions_balance (hA : RegularArith A) (rcpr : Rcpr (Dbl A)) {mat : Material (Dbl A)}
    (o : Options (Dbl A)) (hmat : SoundDoubles mat) (hb : SoundBulk mat)
    (hes : ∀ E ∈ mat.Es, E.val = 0)
    (l : List (BinaryCollisionGeometry (Dbl A) × Nat)) (s : StepState (Dbl A)) (t : Tape (Dbl A))
    (hp : Fine mat s.particle_1) (hs : ∀ r ∈ s.particles, Fine mat r) :
    Sat (forFold (collision_step rcpr mat o) l s) t
      (fun s' t' => Fine mat s'.particle_1 ∧ (∀ r ∈ s'.particles, Fine mat r) ∧
        ∃ k, t' = after k t ∧ s'.particle_1.E.val + totalEnergyDbl s'.particles ≤
          (s.particle_1.E.val + totalEnergyDbl s.particles)*(1 + unitRoundoff)^k)
      (fun _ => True) := by
  refine sat_forFold (fun (s' : StepState (Dbl A)) t' => Fine mat s'.particle_1 ∧
    (∀ r ∈ s'.particles, Fine mat r) ∧
    ∃ k, t' = after k t ∧ s'.particle_1.E.val + totalEnergyDbl s'.particles ≤
          (s.particle_1.E.val + totalEnergyDbl s.particles)*(1 + unitRoundoff)^k) l ?_ s t
    ⟨hp, hs, 0, by funext i; simp [after], by simp⟩
  intro gk _ x t1 hx
  refine sat_mono (sat_and (collision_step_draws rcpr mat o x gk t1)
    (sat_and (collision_step_cases rcpr mat o x gk t1)
    (collision_step_sat rcpr mat o x gk t1))) (fun y t2 hy => ?_) (fun _ _ => trivial)
  obtain ⟨ht, hy, hce⟩ := hy
  obtain ⟨hx1, hx2, k, hk, hle⟩ := hx
  have hu := roundoff_pos
  have tot0 := total_nonneg_dbl hx2
  have grow : ∀ e : ℝ, e ≤ (x.particle_1.E.val + totalEnergyDbl x.particles)*(1 + unitRoundoff) →
      e ≤ (s.particle_1.E.val + totalEnergyDbl s.particles)*(1 + unitRoundoff)^(k + 1) := by
    intro e he
    refine he.trans ?_
    rw [pow_succ, ← mul_assoc]
    exact mul_le_mul_of_nonneg_right hle (by linarith)
  have htape : t2 = after (k + 1) t := by rw [ht, hk, after_after]
  rcases hy with rfl | ⟨si, q, r, _, hsp, _, _, _, _, _, _, _, _, _, hr, happ⟩
  · refine ⟨hx1, hx2, k + 1, htape, grow _ ?_⟩
    have := hx1.sound.energy
    nlinarith [mul_nonneg (add_nonneg this tot0) hu.le]
  have hqmem := List.mem_of_getElem? hsp.2.1
  have hqm : 0 < q.m.val := hmat.mass _ hqmem
  have hc := C108_collision_partial hA rcpr x.particle_1 q gk.1 o r hx1.sound.mass hqm
    (hx1.sound.apart _ hqmem) hx1.sound.energy hr
  have e : y.particle_1.E.val = A.rnd (x.particle_1.E.val - r.recoil_energy.val) := by
    have e : y.particle_1.E = x.particle_1.E + -r.recoil_energy := by rw [happ.moving]
    rw [e, Dbl.val_add, Dbl.val_neg, sub_eq_add_neg]
  have hEy : 0 ≤ y.particle_1.E.val := by
    rw [e]; exact rnd_nonneg (by have := hc.2.1; linarith)
  have hEy' : y.particle_1.E.val ≤
      (1 + unitRoundoff)*(x.particle_1.E.val - r.recoil_energy.val) := by
    rw [e]
    exact (rnd_bounds A (by have := hc.2.1; linarith)).2
  have hmy : y.particle_1.m = x.particle_1.m := by rw [happ.moving]
  have hzy : y.particle_1.Z = x.particle_1.Z := by rw [happ.moving]
  have hsy : y.particle_1.Es = x.particle_1.Es := by rw [happ.moving]
  have fine1 : Fine mat y.particle_1 := ⟨⟨hmy ▸ hx1.sound.mass, hmy ▸ hx1.sound.apart, hEy,
    hsy ▸ hx1.sound.binding⟩, hzy ▸ hx1.charge, hsy ▸ hx1.free⟩
  have fine2 : ∀ r ∈ y.particles, Fine mat r := by
    obtain ⟨new, hn1, hn2, _⟩ := hce.stack
    rw [hn1]
    intro r' hr'
    rcases List.mem_append.mp hr' with hr' | hr'
    · exact hx2 r' hr'
    · have hf := hn2 r' hr'
      obtain ⟨i, hZ, hmm, hEc, hEs, _, _⟩ := hf.species
      refine ⟨⟨hmat.mass _ (List.mem_of_getElem? hmm), hmat.apart _ (List.mem_of_getElem? hmm), ?_,
        hmat.binding _ (List.mem_of_getElem? hEs)⟩, hb.charge _ (List.mem_of_getElem? hZ),
        hes _ (List.mem_of_getElem? hEs)⟩
      have h1 := (Dbl.lt_iff _ _).1 hf.above
      have h2 := hmat.cutoff _ (List.mem_of_getElem? hEc)
      have h3 := congrArg Dbl.val hf.energy
      linarith
  refine ⟨fine1, fine2, k + 1, htape, grow _ ?_⟩
  obtain ⟨eb, heb, hst⟩ := happ.stack
  have heb0 := bulk_nonneg hmat hb heb
  have hT := hc.1
  have hTE := hc.2.1
  have p1 := mul_nonneg hu.le tot0
  have p2 := mul_nonneg hu.le hT
  rcases hst with hst | hst
  · rw [hst]; nlinarith
  · rw [hst, total_append_dbl]
    have h1 : (r.recoil_energy - eb).val ≤ r.recoil_energy.val := by
      have := rnd_mono A (show r.recoil_energy.val - eb.val ≤ r.recoil_energy.val by linarith)
      rw [rnd_double A r.recoil_energy.double] at this
      rwa [Dbl.val_sub]
    simp only [totalEnergyDbl, List.map_cons, List.map_nil, List.sum_cons, List.sum_nil, add_zero]
      at p1 ⊢
    nlinarith

/-! ## The surface -/

theorem weighted_zero_dbl {l c : List (Dbl A)} (hl : ∀ d ∈ l, d.val = 0) :
    (Material.weighted_sum l c).val = 0 := by
  unfold Material.weighted_sum fsum
  have : ∀ (m : List (Dbl A)) (a : Dbl A), a.val = 0 → (∀ d ∈ m, d.val = 0) →
      (m.foldl (· + ·) a).val = 0 := by
    intro m
    induction m with
    | nil => intro a ha _; exact ha
    | cons b m ih =>
      intro a ha hm
      refine ih _ ?_ (fun d hd => hm d (by simp [hd]))
      rw [Dbl.val_add, ha, hm b (by simp), add_zero]
      exact rnd_double A isDouble_zero
  refine this _ _ zero_val fun d hd => ?_
  obtain ⟨⟨a, b⟩, hab, rfl⟩ := List.mem_map.mp hd
  have := List.of_mem_zip hab
  show (a*b).val = 0
  rw [Dbl.val_mul, hl _ this.1, zero_mul]
  exact rnd_double A isDouble_zero

/-- Without surface binding the binding energy applied is zero in every model. -/
theorem surface_energy_zero {mat : Material (Dbl A)} (hes : ∀ E ∈ mat.Es, E.val = 0)
    {p : Particle (Dbl A)} (hp : p.Es.val = 0) (x y z : Dbl A) :
    RSat (mat.actual_surface_binding_energy p x y z) (fun Es => Es.val = 0) (fun _ => True) := by
  unfold Material.actual_surface_binding_energy
  simp only [rsat_bind]
  refine rsat_mono (rsat_eq _) (fun cs hcs => ?_) (fun _ _ => trivial)
  have h0 : (0.0 : Dbl A).val = 0 := zero_val
  have h1 := weighted_zero_dbl (c := cs) hes
  have h2 : (0.5*(p.Es + Material.weighted_sum mat.Es cs) : Dbl A).val = 0 := by
    rw [Dbl.val_mul, Dbl.val_add, hp, h1, add_zero, rnd_double A isDouble_zero, mul_zero,
      rnd_double A isDouble_zero]
  cases mat.surface_binding_model with
  | TARGET => dsimp only; split <;> simp only [rsat_pure] <;> assumption
  | INDIVIDUAL => simp only [rsat_pure]; exact hp
  | AVERAGE => dsimp only; split <;> simp only [rsat_pure] <;> assumption
  | ISOTROPIC c =>
    cases c with
    | TARGET => dsimp only; split <;> simp only [rsat_pure] <;> assumption
    | INDIVIDUAL => simp only [rsat_pure]; exact hp
    | AVERAGE => dsimp only; split <;> simp only [rsat_pure] <;> assumption
  | PLANAR c =>
    cases c with
    | TARGET => dsimp only; split <;> simp only [rsat_pure] <;> assumption
    | INDIVIDUAL => simp only [rsat_pure]; exact hp
    | AVERAGE => dsimp only; split <;> simp only [rsat_pure] <;> assumption

/-- Without surface binding, crossing the surface leaves the energy as it is. -/
theorem boundary_energy_same {mat : Material (Dbl A)} (hes : ∀ E ∈ mat.Es, E.val = 0)
    {p : Particle (Dbl A)} (hEs : p.Es.val = 0) :
    RSat (boundary_condition_planar p mat) (fun q => q.E.val = p.E.val) (fun _ => True) := by
  unfold boundary_condition_planar
  simp only [rsat_bind]
  refine rsat_mono (rsat_trivial _) (fun sim _ => ?_) (fun _ _ => trivial)
  refine rsat_mono (rsat_trivial _) (fun bar _ => ?_) (fun _ _ => trivial)
  have h1 : ∃ lf tr, (if (!sim) = true then
      { p with left := true }.update_trajectory_tracker else p) =
      { p with left := lf, trajectory := tr } := by
    split
    · unfold Particle.update_trajectory_tracker
      split
      · exact ⟨_, _, rfl⟩
      · exact ⟨_, _, rfl⟩
    · exact ⟨p.left, p.trajectory, rfl⟩
  obtain ⟨lf, tr, h1⟩ := h1
  rw [h1]
  have h2 : ∃ st tr', (if ((p.E <. p.Ec) && !lf && bar) = true then
      { p with left := lf, trajectory := tr, stopped := true }.update_trajectory_tracker
      else { p with left := lf, trajectory := tr }) =
      { p with left := lf, trajectory := tr', stopped := st } := by
    split
    · unfold Particle.update_trajectory_tracker
      split
      · exact ⟨_, _, rfl⟩
      · exact ⟨_, _, rfl⟩
    · exact ⟨p.stopped, tr, rfl⟩
  obtain ⟨st, tr', h2⟩ := h2
  simp only [h2]
  split
  · obtain ⟨q, hq⟩ : ∃ q : Particle (Dbl A), q = { p with left := lf, trajectory := tr', stopped := st } :=
      ⟨_, rfl⟩
    have hqE : q.E = p.E := by rw [hq]
    have hqs : q.Es.val = 0 := by rw [hq]; exact hEs
    rw [← hq, ← hqE]
    unfold surface_binding_energy
    simp only [rsat_bind]
    refine rsat_mono (surface_energy_zero hes hqs _ _ _) (fun Es hEs' => ?_) (fun _ _ => trivial)
    refine rsat_mono (rsat_trivial _) (fun now _ => ?_) (fun _ _ => trivial)
    refine rsat_mono (rsat_trivial _) (fun old _ => ?_) (fun _ _ => trivial)
    have plus : ∀ x : Dbl A, (x + Es).val = x.val := fun x => by
      rw [Dbl.val_add, hEs', add_zero]; exact rnd_double A x.double
    have minus : ∀ x : Dbl A, (x + -Es).val = x.val := fun x => by
      rw [Dbl.val_add, Dbl.val_neg, hEs', neg_zero, add_zero]; exact rnd_double A x.double
    have enter : RSat (if (now && !old) = true then surface_entering q mat Es
        else pure q : Res (Particle (Dbl A))) (fun q' => q'.E.val = q.E.val) (fun _ => True) := by
      split
      · unfold surface_entering
        split
        · simp only [rsat_pure]
        · simp only [rsat_bind]
          refine rsat_mono (rsat_trivial _) (fun x _ => ?_) (fun _ _ => trivial)
          obtain ⟨x2, y2, z2⟩ := x
          cases mat.surface_binding_model <;> simp only [rsat_pure, surface_refraction, plus]
      · simp only [rsat_pure]
    refine rsat_mono enter (fun q' hq' => ?_) (fun _ _ => trivial)
    split
    · unfold surface_leaving
      simp only [rsat_bind]
      refine rsat_mono (rsat_trivial _) (fun x _ => ?_) (fun _ _ => trivial)
      obtain ⟨x2, y2, z2⟩ := x
      cases mat.surface_binding_model <;> simp only <;> split <;> (try split) <;>
        simp only [rsat_pure, surface_refraction, minus] <;> exact hq'
    · simp only [rsat_pure]; exact hq'
  · simp only [rsat_pure]

/-! ## A pass, and a run -/

/-- **C114** (one pass) In double precision and without surface binding, a pass multiplies the energy
carried by the moving particle and its recoils by at most `(1 + u)^k`, with `k` the number of random
numbers drawn. -/
theorem C114_pass (hA : RegularArith A) (rcpr : Rcpr (Dbl A)) {mat : Material (Dbl A)}
    (o : Options (Dbl A)) (hmat : SoundDoubles mat) (hb : SoundBulk mat)
    (hel : ElectronsTake mat o) (p q : Particle (Dbl A)) (new : List (Particle (Dbl A)))
    (t t1 : Tape (Dbl A)) (hp : SoundDouble mat p) (hz : 0 ≤ p.Z.val)
    (hfree : NoSurfaceBindingDbl mat p)
    (h : trajectory_step rcpr mat o p [] t = .ok ((q, new), t1)) :
    Fine mat q ∧ (∀ r ∈ new, Fine mat r) ∧ ∃ k, t1 = after k t ∧
      q.E.val + totalEnergyDbl new ≤ p.E.val*(1 + unitRoundoff)^k := by
  obtain ⟨tr⟩ := sat_of_ok (pass_trace rcpr mat o p [] t) h
  obtain ⟨b, hp1⟩ := tr.p1_eq
  have hd1 : Fine mat tr.p1 := by
    rw [hp1]; exact ⟨⟨hp.mass, hp.apart, hp.energy, hp.binding⟩, hz, hfree.1⟩
  obtain ⟨k1, hk1, _⟩ := draws_determine p mat o t _ _ tr.hmfp
  obtain ⟨f1, f2, k2, hk2, hle⟩ := sat_of_ok (collisions_balance hA rcpr o hmat hb hfree.2 _
    ⟨tr.p1, [], 0.0, 0.0, 0.0, 0.0, 0⟩ tr.t1 hd1 (by simp)) tr.hloop
  have ht1 : t1 = tr.t2 := by
    unfold trajectory_step at h
    simp only [bind, StateT.bind, tr.hmfp, Except.bind, tr.hloop, liftM, monadLift,
      MonadLift.monadLift, StateT.lift] at h
    revert h
    split
    · intro h; cases h
    · intro h
      simp only [pure, Except.pure, Except.ok.injEq, Prod.mk.injEq] at h
      exact h.2.symm
  have adv : ∀ (x : Particle (Dbl A)) (a b : Dbl A), (x.advance a b).1.E = x.E ∧
      (x.advance a b).1.m = x.m ∧ (x.advance a b).1.Es = x.Es ∧ (x.advance a b).1.Z = x.Z := by
    intro x a b
    unfold Particle.advance Particle.update_trajectory_tracker
    simp only
    split
    · split <;> exact ⟨rfl, rfl, rfl, rfl⟩
    · exact ⟨rfl, rfl, rfl, rfl⟩
  obtain ⟨a1, a2, a3, a4⟩ := adv tr.s.particle_1 tr.g0.mfp tr.s.total_asymptotic_deflection
  have h3 : 0 ≤ tr.p3.E.val := rsat_of_ok (Q := fun r : Particle (Dbl A) × Dbl A => 0 ≤ r.1.E.val)
    (stopping_energy_nonneg _ mat _ _ _ _ o (by rw [a1]; exact f1.sound.energy)) tr.hstop
  have h4 := hel _ _ _ _ _ _ _ (show SoundDouble mat (tr.s.particle_1.advance tr.g0.mfp
    tr.s.total_asymptotic_deflection).1 from ⟨by rw [a2]; exact f1.sound.mass,
      by rw [a2]; exact f1.sound.apart, by rw [a1]; exact f1.sound.energy,
      by rw [a3]; exact f1.sound.binding⟩) (by rw [a4]; exact f1.charge) tr.hstop
  rw [a1] at h4
  obtain ⟨E, hE⟩ := tr.p3_eq
  have m3 : tr.p3.m = tr.s.particle_1.m := (congrArg Particle.m hE).trans a2
  have s3 : tr.p3.Es = tr.s.particle_1.Es := (congrArg Particle.Es hE).trans a3
  have z3 : tr.p3.Z = tr.s.particle_1.Z := (congrArg Particle.Z hE).trans a4
  have upd : ∀ (x : Particle (Dbl A)) (a b : Dbl A),
      (x.update_energy_loss_tracker o a b).E = x.E ∧
      (x.update_energy_loss_tracker o a b).m = x.m ∧
      (x.update_energy_loss_tracker o a b).Es = x.Es ∧
      (x.update_energy_loss_tracker o a b).Z = x.Z := by
    intro x a b
    unfold Particle.update_energy_loss_tracker
    split <;> exact ⟨rfl, rfl, rfl, rfl⟩
  obtain ⟨u1, u2, u3, u4⟩ := upd tr.p3 tr.s.total_energy_lost_to_recoils tr.el
  have hqE : q.E.val = tr.p3.E.val := by
    have := rsat_of_ok (boundary_energy_same hfree.2 (p := tr.p3.update_energy_loss_tracker o
      tr.s.total_energy_lost_to_recoils tr.el) (by rw [u3, s3]; exact f1.free)) tr.hbound
    rw [this, u1]
  obtain ⟨E', dir', b', st', lf', l', hq⟩ := tr.q_eq
  have hqm : q.m = tr.s.particle_1.m := (congrArg Particle.m hq).trans (u2.trans m3)
  have hqs : q.Es = tr.s.particle_1.Es := (congrArg Particle.Es hq).trans (u3.trans s3)
  have hqz : q.Z = tr.s.particle_1.Z := (congrArg Particle.Z hq).trans (u4.trans z3)
  have hnew : new = tr.s.particles := tr.hqs
  refine ⟨⟨⟨by rw [hqm]; exact f1.sound.mass, by rw [hqm]; exact f1.sound.apart, by rw [hqE]; exact h3,
      by rw [hqs]; exact f1.sound.binding⟩, by rw [hqz]; exact f1.charge, by rw [hqs]; exact f1.free⟩,
    by rw [hnew]; exact f2, k1 + k2, by rw [ht1, hk2, hk1, after_after], ?_⟩
  have hp1E : tr.p1.E = p.E := by rw [hp1]
  have h0 : totalEnergyDbl ([] : List (Particle (Dbl A))) = 0 := rfl
  dsimp only at hle
  rw [h0, add_zero, hp1E] at hle
  rw [hnew, hqE]
  have hmono : (1 + unitRoundoff)^k2 ≤ (1 + unitRoundoff)^(k1 + k2) :=
    pow_le_pow_right₀ (by have := roundoff_pos; linarith) (by omega)
  have := mul_le_mul_of_nonneg_left hmono hp.energy
  linarith

/-- **C114** In double precision, without surface binding and as long as electronic stopping gives
no energy away: the energies of all the particles returned by `single_ion_bca` together exceed that
of the ion by rounding only, at most by a factor `1 + u` for each random number drawn. No energy is
negative. -/
theorem C114_run (hA : RegularArith A) (rcpr : Rcpr (Dbl A)) (mat : Material (Dbl A))
    (o : Options (Dbl A)) (fuel : Nat) (ion : Particle (Dbl A)) (t t' : Tape (Dbl A))
    (out : List (Particle (Dbl A))) (hmat : SoundDoubles mat) (hb : SoundBulk mat)
    (hel : ElectronsTake mat o) (hion : SoundDouble mat ion) (hz : 0 ≤ ion.Z.val)
    (hfree : NoSurfaceBindingDbl mat ion) (hs : ion.stopped = false) (hl : ion.left = false)
    (h : single_ion_bca rcpr fuel ion mat o t = .ok (out, t')) :
    (∀ q ∈ out, 0 ≤ q.E.val) ∧
    ∃ n, t' = after n t ∧ totalEnergyDbl out ≤ ion.E.val*(1 + unitRoundoff)^n := by
  have hcas := (C81_depth_first rcpr mat o ion t t' out hs hl).mp ⟨fuel, h⟩
  have hu : (1:ℝ) ≤ 1 + unitRoundoff := by have := roundoff_pos; linarith
  have hw : ∀ k : Nat, (1:ℝ) ≤ (1 + unitRoundoff)^k := fun k => one_le_pow₀ hu
  have path : ∀ {p t q rec t1}, Path rcpr mat o p t q rec t1 → Fine mat p →
      Fine mat q ∧ (∀ r ∈ rec, Fine mat r) ∧ ∃ k, t1 = after k t ∧
        q.E.val + totalEnergyDbl rec ≤ p.E.val*(1 + unitRoundoff)^k := by
    intro p t q rec t1 hp
    induction hp with
    | finished _ =>
      intro h
      exact ⟨h, by simp, 0, by funext i; simp [after], by simp [totalEnergyDbl]⟩
    | step _ _ hst _ ih =>
      intro h
      obtain ⟨h1, h2, k, hk, hle⟩ := C114_pass hA rcpr o hmat hb hel _ _ _ _ _ h.sound h.charge
        ⟨h.free, hfree.2⟩ hst
      obtain ⟨h3, h4, k', hk', hle'⟩ := ih h1
      refine ⟨h3, fun r hr => ?_, k + k', by rw [hk', hk, after_after], ?_⟩
      · rcases List.mem_append.mp hr with hr | hr
        · exact h2 r hr
        · exact h4 r hr
      · rw [total_append_dbl, pow_add, ← mul_assoc]
        have a := total_nonneg_dbl h2
        have b := mul_le_mul_of_nonneg_right hle (le_trans zero_le_one (hw k'))
        have c := le_mul_of_one_le_right a (hw k')
        rw [add_mul] at b
        linarith
  have cas : ∀ {ps t out t'}, Cascades rcpr mat o ps t out t' → (∀ p ∈ ps, Fine mat p) →
      (∀ q ∈ out, Fine mat q) ∧ ∃ k, t' = after k t ∧
        totalEnergyDbl out ≤ totalEnergyDbl ps*(1 + unitRoundoff)^k := by
    intro ps t out t' hc
    induction hc with
    | nil => intro _; exact ⟨by simp, 0, by funext i; simp [after], by simp⟩
    | @cons p ps t q recoils t1 sub t2 out t3 hp _ _ ih1 ih2 =>
      intro hps
      obtain ⟨h1, h2, k, hk, hle⟩ := path hp (hps _ (by simp))
      obtain ⟨h3, k', hk', hle'⟩ := ih1 (fun r hr => h2 r (List.mem_reverse.mp hr))
      obtain ⟨h4, k'', hk'', hle''⟩ := ih2 (fun r hr => hps r (by simp [hr]))
      refine ⟨fun q hq => ?_, k + k' + k'', by
        rw [hk'', hk', hk, after_after, after_after, Nat.add_assoc], ?_⟩
      · rcases List.mem_cons.mp hq with hq | hq
        · rw [hq]; exact h1
        · rcases List.mem_append.mp hq with hq | hq
          · exact h3 q hq
          · exact h4 q hq
      · have erev : totalEnergyDbl recoils.reverse = totalEnergyDbl recoils := by
          simp [totalEnergyDbl]
        rw [erev] at hle'
        have c1 : ∀ (x : Particle (Dbl A)) l, totalEnergyDbl (x :: l) = x.E.val + totalEnergyDbl l :=
          fun _ _ => by simp [totalEnergyDbl]
        rw [c1, c1, total_append_dbl]
        have a0 := h1.sound.energy
        have a1 := total_nonneg_dbl h2
        have a2 := total_nonneg_dbl (fun r hr => hps r (List.mem_cons_of_mem _ hr))
        have a3 := (hps _ List.mem_cons_self).sound.energy
        have a4 := total_nonneg_dbl h3
        obtain ⟨w, hwk⟩ : ∃ w, w = (1 + unitRoundoff)^k := ⟨_, rfl⟩
        obtain ⟨w', hwk'⟩ : ∃ w, w = (1 + unitRoundoff)^k' := ⟨_, rfl⟩
        obtain ⟨w'', hwk''⟩ : ∃ w, w = (1 + unitRoundoff)^k'' := ⟨_, rfl⟩
        have w1 : 1 ≤ w := hwk ▸ hw k
        have w2 : 1 ≤ w' := hwk' ▸ hw k'
        have w3 : 1 ≤ w'' := hwk'' ▸ hw k''
        rw [pow_add, pow_add, ← hwk, ← hwk', ← hwk'']
        rw [← hwk] at hle
        rw [← hwk'] at hle'
        rw [← hwk''] at hle''
        exact balance_arith w1 w2 w3 a0 a1 a2 a3 hle hle' hle''
  obtain ⟨h1, n, hn, hle⟩ := cas hcas (by simpa using ⟨hion, hz, hfree.1⟩)
  refine ⟨fun q hq => (h1 q hq).sound.energy, n, hn, ?_⟩
  simpa [totalEnergyDbl] using hle

/-! ## When electrons take energy -/

theorem mul_nonneg_dbl {a b : Dbl A} (ha : 0 ≤ a.val) (hb : 0 ≤ b.val) : 0 ≤ (a*b).val :=
  rnd_nonneg (mul_nonneg ha hb)

theorem div_nonneg_dbl {a b : Dbl A} (ha : 0 ≤ a.val) (hb : 0 ≤ b.val) : 0 ≤ (a/b).val :=
  rnd_nonneg (div_nonneg ha hb)

theorem add_nonneg_dbl {a b : Dbl A} (ha : 0 ≤ a.val) (hb : 0 ≤ b.val) : 0 ≤ (a + b).val :=
  rnd_nonneg (add_nonneg ha hb)

theorem literal_nonneg (m e : Nat) (b : Bool) : 0 ≤ (OfScientific.ofScientific m b e : Dbl A).val := by
  rw [Dbl.val_scientific]
  refine rnd_nonneg ?_
  rw [show (OfScientific.ofScientific m b e : ℝ) = ((OfScientific.ofScientific m b e : ℚ):ℝ) by
    norm_cast]
  have : (0:ℚ) ≤ OfScientific.ofScientific m b e := by
    show (0:ℚ) ≤ Rat.ofScientific m b e
    unfold Rat.ofScientific
    split
    · rw [Rat.normalize_eq_mkRat, Rat.mkRat_eq_divInt]
      exact Rat.divInt_nonneg (by omega) (by positivity)
    · exact_mod_cast Nat.zero_le _
  exact_mod_cast this

theorem sqrt_nonneg_dbl (a : Dbl A) : 0 ≤ (sqrt a : Dbl A).val := rnd_nonneg (Real.sqrt_nonneg _)

theorem powf_nonneg_dbl (hP : PositivePowers A) {a : Dbl A} (b : Dbl A) (ha : 0 ≤ a.val) :
    0 ≤ (powf a b : Dbl A).val := rnd_nonneg (hP.powf _ _ ha)

theorem S_low_nonneg_dbl (hP : PositivePowers A) {E Ma Za Zb : Dbl A} (hZa : 0 ≤ Za.val)
    (hZb : 0 ≤ Zb.val) : 0 ≤ (Material.S_low E Ma Za Zb).val := by
  unfold Material.S_low LINDHARD_SCHARFF_PREFACTOR ANGSTROM Q
  refine mul_nonneg_dbl (div_nonneg_dbl (mul_nonneg_dbl ?_ (mul_nonneg_dbl
    (powf_nonneg_dbl hP _ hZa) hZb)) (powf_nonneg_dbl hP _ (add_nonneg_dbl
    (powf_nonneg_dbl hP _ hZa) (powf_nonneg_dbl hP _ hZb)))) (sqrt_nonneg_dbl _)
  exact mul_nonneg_dbl (mul_nonneg_dbl (mul_nonneg_dbl (literal_nonneg _ _ _)
    (literal_nonneg _ _ _)) (literal_nonneg _ _ _)) (literal_nonneg _ _ _)

theorem oen_nonneg_dbl (hP : PositivePowers A) (Za Zb Se x0 : Dbl A)
    (V : InteractionPotential (Dbl A)) (hS : 0 ≤ Se.val) :
    0 ≤ (oen_robinson_loss Za Zb Se x0 V).val := by
  unfold oen_robinson_loss
  obtain ⟨a, ha⟩ : ∃ a, a = screening_length Za Zb V := ⟨_, rfl⟩
  obtain ⟨d, hd⟩ : ∃ d, d = first_screening_radius V := ⟨_, rfl⟩
  simp only [← ha, ← hd]
  have h0 : 0 ≤ (d*d/2.0/pi*Se*exp (-d*x0) : Dbl A).val := by
    refine mul_nonneg_dbl (mul_nonneg_dbl (div_nonneg_dbl (div_nonneg_dbl
      (rnd_nonneg (mul_self_nonneg _)) (literal_nonneg _ _ _)) (rnd_nonneg Real.pi_pos.le)) hS)
      (rnd_nonneg (hP.exp _))
  rcases le_total 0 a.val with h | h
  · exact div_nonneg_dbl (div_nonneg_dbl h0 h) h
  · rw [Dbl.val_div]
    refine rnd_nonneg (div_nonneg_of_nonpos ?_ h)
    rw [Dbl.val_div]
    have := rnd_mono A (div_nonpos_of_nonneg_of_nonpos h0 h)
    rwa [rnd_double A isDouble_zero] at this

/-- Electronic stopping in the low-energy modes takes energy, if the loss does not depend on the
distance or the distance is not negative. -/
theorem C114_electrons (hP : PositivePowers A) {mat : Material (Dbl A)} (o : Options (Dbl A))
    (hb : SoundBulk mat)
    (hck : ∀ x y z ck, mat.geometry.get_ck x y z = .ok ck → 0 ≤ ck.val)
    (hn : ∀ x y z ns, mat.geometry.get_densities x y z = .ok ns → ∀ n ∈ ns, 0 ≤ n.val)
    (hmode : o.electronic_stopping_mode ≠ .INTERPOLATED) (p : Particle (Dbl A)) (d x0 Z : Dbl A)
    (i : Nat) (hE : 0 ≤ p.E.val) (hZ : 0 ≤ p.Z.val)
    (hd : o.electronic_stopping_mode = .LOW_ENERGY_LOCAL ∨ 0 ≤ d.val) :
    RSat (subtract_electronic_stopping_energy p mat d x0 Z i o) (fun r => r.1.E.val ≤ p.E.val)
      (fun _ => True) := by
  unfold subtract_electronic_stopping_energy
  simp only [rsat_bind, rsat_assert]
  refine ⟨fun _ => ?_, fun _ => trivial⟩
  refine rsat_mono (rsat_trivial _) (fun ins _ => ?_) (fun _ _ => trivial)
  split
  · simp only [rsat_bind, rsat_assert]
    refine rsat_mono (rsat_trivial _) (fun row _ => ?_) (fun _ _ => trivial)
    refine rsat_mono (rsat_trivial _) (fun ti _ => ?_) (fun _ _ => trivial)
    refine rsat_mono (rsat_trivial _) (fun V _ => ?_) (fun _ _ => trivial)
    have hSn : RSat (mat.electronic_stopping_cross_sections p o.electronic_stopping_mode)
        (fun S => ∀ s ∈ S, 0 ≤ s.val) (fun _ => True) := by
      unfold Material.electronic_stopping_cross_sections
        Material.electronic_stopping_correction_factor
      simp only [rsat_bind]
      refine rsat_mono (rsat_eq _) (fun ck hck' => ?_) (fun _ _ => trivial)
      refine rsat_mono (rsat_trivial _) (fun ns _ => ?_) (fun _ _ => trivial)
      simp only [rsat_pure]
      intro s hs
      obtain ⟨⟨n, Zb⟩, hab, rfl⟩ := List.mem_map.mp hs
      have hZb := hb.charge _ (List.of_mem_zip hab).2
      have h1 := mul_nonneg_dbl (S_low_nonneg_dbl hP (E := p.E) (Ma := p.m) hZ hZb)
        (hck _ _ _ _ hck')
      unfold Material.stopping_power
      revert hmode
      cases o.electronic_stopping_mode <;> intro hmode
      · exact absurd rfl hmode
      all_goals exact h1
    refine rsat_mono hSn (fun S hS => ?_) (fun _ _ => trivial)
    have hns : RSat (mat.number_densities p.pos.x p.pos.y p.pos.z)
        (fun ns => ∀ n ∈ ns, 0 ≤ n.val) (fun _ => True) := by
      unfold Material.number_densities
      exact rsat_mono (rsat_eq _) (fun ns h => hn _ _ _ _ h) (fun _ _ => trivial)
    refine rsat_mono hns (fun ns hns => ?_) (fun _ _ => trivial)
    have hbr : 0 ≤ (bragg_sum S ns).val := by
      unfold bragg_sum
      refine fsum_nonneg_dbl fun e he => ?_
      obtain ⟨⟨a, b⟩, hab, rfl⟩ := List.mem_map.mp he
      have := List.of_mem_zip hab
      exact mul_nonneg_dbl (hS _ this.1) (hns _ this.2)
    have hδ : RSat (match o.electronic_stopping_mode with
        | .INTERPOLATED => pure (bragg_sum S ns*d)
        | .LOW_ENERGY_NONLOCAL => pure (bragg_sum S ns*d)
        | .LOW_ENERGY_LOCAL => do
          let se ← vget S i
          pure (oen_robinson_loss p.Z Z se x0 V)
        | .LOW_ENERGY_EQUIPARTITION => do
          let se ← vget S i
          pure (0.5*oen_robinson_loss p.Z Z se x0 V + 0.5*(bragg_sum S ns*d)) : Res (Dbl A))
        (fun δ => 0 ≤ δ.val) (fun _ => True) := by
      revert hd
      cases o.electronic_stopping_mode <;>
        simp only [rsat_bind, rsat_pure, reduceCtorEq, false_or] <;> intro hd
      · exact mul_nonneg_dbl hbr hd
      · refine rsat_mono (rsat_vget_some _ _) (fun se hse => ?_) (fun _ _ => trivial)
        exact oen_nonneg_dbl hP _ _ _ _ _ (hS se (List.mem_of_getElem? hse))
      · exact mul_nonneg_dbl hbr hd
      · refine rsat_mono (rsat_vget_some _ _) (fun se hse => ?_) (fun _ _ => trivial)
        exact add_nonneg_dbl (mul_nonneg_dbl (literal_nonneg _ _ _)
          (oen_nonneg_dbl hP _ _ _ _ _ (hS se (List.mem_of_getElem? hse))))
          (mul_nonneg_dbl (literal_nonneg _ _ _) (mul_nonneg_dbl hbr hd))
    refine rsat_mono hδ (fun δ hδ0 => ?_) (fun _ _ => trivial)
    refine ⟨fun _ => ?_, fun _ => trivial⟩
    simp only [rsat_pure]
    split
    · rw [zero_val]; exact hE
    · rw [Dbl.val_add, Dbl.val_neg]
      have := rnd_mono A (show p.E.val + -δ.val ≤ p.E.val by linarith)
      rwa [rnd_double A p.E.double] at this
  · simp only [rsat_pure]; exact le_refl _

/-- With local losses electrons take energy. -/
theorem C114_local (hP : PositivePowers A) {mat : Material (Dbl A)} {o : Options (Dbl A)}
    (hb : SoundBulk mat)
    (hck : ∀ x y z ck, mat.geometry.get_ck x y z = .ok ck → 0 ≤ ck.val)
    (hn : ∀ x y z ns, mat.geometry.get_densities x y z = .ok ns → ∀ n ∈ ns, 0 ≤ n.val)
    (hmode : o.electronic_stopping_mode = .LOW_ENERGY_LOCAL) : ElectronsTake mat o := by
  intro p d x0 Z i q el hp hZ h
  exact rsat_of_ok (Q := fun r : Particle (Dbl A) × Dbl A => r.1.E.val ≤ p.E.val)
    (C114_electrons hP o hb hck hn (by rw [hmode]; exact (nomatch ·)) p d x0 Z i hp.energy hZ
      (.inl hmode)) h

theorem rnd_zero : A.rnd 0 = 0 := rnd_double A isDouble_zero

/-- Without electronic stopping (correction factor 0) electrons take nothing and give nothing, in
the modes that scale the low-energy stopping by the correction factor, wherever the particle
goes. -/
theorem C114_no_electrons {mat : Material (Dbl A)} {o : Options (Dbl A)}
    (hck : ∀ x y z ck, mat.geometry.get_ck x y z = .ok ck → ck.val = 0)
    (hmode : o.electronic_stopping_mode ≠ .INTERPOLATED) : ElectronsTake mat o := by
  intro p d x0 Z i q el hp hZ h
  refine rsat_of_ok (Q := fun r : Particle (Dbl A) × Dbl A => r.1.E.val ≤ p.E.val)
    (E := fun _ => True) ?_ h
  unfold subtract_electronic_stopping_energy
  simp only [rsat_bind, rsat_assert]
  refine ⟨fun _ => ?_, fun _ => trivial⟩
  refine rsat_mono (rsat_trivial _) (fun ins _ => ?_) (fun _ _ => trivial)
  split
  · simp only [rsat_bind, rsat_assert]
    refine rsat_mono (rsat_trivial _) (fun row _ => ?_) (fun _ _ => trivial)
    refine rsat_mono (rsat_trivial _) (fun ti _ => ?_) (fun _ _ => trivial)
    refine rsat_mono (rsat_trivial _) (fun V _ => ?_) (fun _ _ => trivial)
    have hSn : RSat (mat.electronic_stopping_cross_sections p o.electronic_stopping_mode)
        (fun S => ∀ s ∈ S, s.val = 0) (fun _ => True) := by
      unfold Material.electronic_stopping_cross_sections
        Material.electronic_stopping_correction_factor
      simp only [rsat_bind]
      refine rsat_mono (rsat_eq _) (fun ck hck' => ?_) (fun _ _ => trivial)
      refine rsat_mono (rsat_trivial _) (fun ns _ => ?_) (fun _ _ => trivial)
      simp only [rsat_pure]
      intro s hs
      obtain ⟨⟨n, Zb⟩, hab, rfl⟩ := List.mem_map.mp hs
      have h1 : (Material.S_low p.E p.m p.Z Zb*ck : Dbl A).val = 0 := by
        rw [Dbl.val_mul, hck _ _ _ _ hck', mul_zero, rnd_zero]
      unfold Material.stopping_power
      revert hmode
      cases o.electronic_stopping_mode <;> intro hmode
      · exact absurd rfl hmode
      all_goals exact h1
    refine rsat_mono hSn (fun S hS => ?_) (fun _ _ => trivial)
    refine rsat_mono (rsat_trivial _) (fun ns _ => ?_) (fun _ _ => trivial)
    have hbr : (bragg_sum S ns).val = 0 := weighted_zero_dbl (c := ns) hS
    have hoen : ∀ se ∈ S, (oen_robinson_loss p.Z Z se x0 V).val = 0 := by
      intro se hse
      unfold oen_robinson_loss
      simp only [Dbl.val_mul, Dbl.val_div, hS se hse, mul_zero, zero_mul, zero_div, rnd_zero]
    have hδ : RSat (match o.electronic_stopping_mode with
        | .INTERPOLATED => pure (bragg_sum S ns*d)
        | .LOW_ENERGY_NONLOCAL => pure (bragg_sum S ns*d)
        | .LOW_ENERGY_LOCAL => do
          let se ← vget S i
          pure (oen_robinson_loss p.Z Z se x0 V)
        | .LOW_ENERGY_EQUIPARTITION => do
          let se ← vget S i
          pure (0.5*oen_robinson_loss p.Z Z se x0 V + 0.5*(bragg_sum S ns*d)) : Res (Dbl A))
        (fun δ => δ.val = 0) (fun _ => True) := by
      cases o.electronic_stopping_mode <;> simp only [rsat_bind, rsat_pure]
      · rw [Dbl.val_mul, hbr, zero_mul, rnd_zero]
      · refine rsat_mono (rsat_vget_some _ _) (fun se hse => ?_) (fun _ _ => trivial)
        exact hoen se (List.mem_of_getElem? hse)
      · rw [Dbl.val_mul, hbr, zero_mul, rnd_zero]
      · refine rsat_mono (rsat_vget_some _ _) (fun se hse => ?_) (fun _ _ => trivial)
        simp only [Dbl.val_add, Dbl.val_mul, hoen se (List.mem_of_getElem? hse), hbr, mul_zero,
          zero_mul, rnd_zero, add_zero]
    refine rsat_mono hδ (fun δ hδ0 => ?_) (fun _ _ => trivial)
    refine ⟨fun _ => ?_, fun _ => trivial⟩
    simp only [rsat_pure]
    split
    · rw [zero_val]; exact hp.energy
    · rw [Dbl.val_add, Dbl.val_neg, hδ0, neg_zero, add_zero, rnd_double A p.E.double]
  · simp only [rsat_pure]; exact le_refl _

end RustBCA
