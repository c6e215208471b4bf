import Verif.Proofs.Energy
import Verif.Proofs.PassTrace
import Verif.Props.Collision

/-! # Energies and directions through a pass and through a cascade (helper lemmas, over the reals) -/

set_option linter.unusedVariables false
set_option linter.unusedSimpArgs false

namespace RustBCA
open Scalar Spec

theorem totalEnergy_append (l l' : List (Particle ℝ)) :
    totalEnergy (l ++ l') = totalEnergy l + totalEnergy l' := by
  unfold totalEnergy; rw [List.map_append, List.sum_append]

theorem totalEnergy_one (p : Particle ℝ) : totalEnergy [p] = p.E := by
  simp [totalEnergy]

theorem totalEnergy_nil : totalEnergy [] = 0 := by simp [totalEnergy]

/-- What a recoil is when it is put on the stack. -/
theorem fresh_sound {mat : Material ℝ} {o : Options ℝ} {p q : Particle ℝ} (hm : SoundTarget mat)
    (h : FreshRecoil mat o p q) (hd : Spec.inner q.dir q.dir ≤ 1) : SoundParticle q := by
  obtain ⟨i, hZ, hmm, hEc, hEs, _, _⟩ := h.species
  refine ⟨hm.m _ (List.mem_of_getElem? hmm), hm.Z _ (List.mem_of_getElem? hZ), ?_,
    hm.Es _ (List.mem_of_getElem? hEs), hd⟩
  have h1 := (lt_real _ _).1 h.above
  have h2 := hm.Ec _ (List.mem_of_getElem? hEc)
  rw [h.energy]; linarith

theorem fresh_free {mat : Material ℝ} {o : Options ℝ} {p q : Particle ℝ}
    (hm : ∀ E ∈ mat.Es, E = 0) (h : FreshRecoil mat o p q) : NoSurfaceBinding mat q := by
  obtain ⟨i, _, _, _, hEs, _, _⟩ := h.species
  exact ⟨hm _ (List.mem_of_getElem? hEs), hm⟩

/-- Invariant of the collision loop. -/
structure CollideSound (s x : StepState ℝ) : Prop where
  moving : SoundParticle x.particle_1
  stack : (∀ r ∈ s.particles, SoundParticle r) → ∀ r ∈ x.particles, SoundParticle r
  total : totalEnergy x.particles + x.particle_1.E ≤ totalEnergy s.particles + s.particle_1.E
  ledger : s.particle_1.E - x.particle_1.E
    = x.total_energy_lost_to_recoils - s.total_energy_lost_to_recoils

theorem collide_sound (rcpr : Rcpr ℝ) {mat : Material ℝ} (o : Options ℝ) (hm : SoundTarget mat)
    (l : List (BinaryCollisionGeometry ℝ × Nat)) (s : StepState ℝ) (t : Tape ℝ)
    (hs : SoundParticle s.particle_1) :
    Sat (forFold (collision_step rcpr mat o) l s) t (fun x _ => CollideSound s x)
      (fun _ => True) := by
  refine sat_forFold (E := fun _ => True) (body := collision_step rcpr mat o)
    (fun (x : StepState ℝ) _ => CollideSound s x) l ?_ s t ⟨hs, fun h => h, le_refl _, by ring⟩
  intro gk _ x t1 hx
  refine sat_mono (sat_and (collision_step_cases rcpr mat o x gk t1)
    (collision_step_sat rcpr mat o x gk t1)) (fun y _ hy => ?_) (fun _ _ => trivial)
  obtain ⟨hy, hce⟩ := hy
  rcases hy with rfl | ⟨si, q, r, _, hsp, _, _, _, _, _, _, _, _, _, hr, hA⟩
  · exact hx
  have hqm : 0 < q.m := hm.m _ (List.mem_of_getElem? hsp.2.1)
  obtain ⟨b1, b2, b3⟩ :=
    C11_recoil_energy_bounds rcpr x.particle_1 q gk.1 o r hx.moving.m hqm hx.moving.E hr
  have hEy : y.particle_1.E = x.particle_1.E + -r.recoil_energy := by rw [hA.moving]
  have hmy : y.particle_1.m = x.particle_1.m := by rw [hA.moving]
  have hZy : y.particle_1.Z = x.particle_1.Z := by rw [hA.moving]
  have hsy : y.particle_1.Es = x.particle_1.Es := by rw [hA.moving]
  have hdy : Spec.inner y.particle_1.dir y.particle_1.dir ≤ 1 := by
    rw [hA.moving]; exact normalize_le_one _
  obtain ⟨eb, heb, hstk⟩ := hA.stack
  have heb0 : 0 ≤ eb := by
    unfold Material.average_bulk_binding_energy at heb
    cases hc : mat.geometry.get_concentrations q.pos.x q.pos.y q.pos.z with
    | error e => rw [hc] at heb; exact absurd heb (by simp)
    | ok cs =>
      rw [hc] at heb
      have heb' : Material.weighted_sum mat.Eb cs = eb := by
        injection heb
      rw [← heb']
      exact weighted_nonneg _ _ hm.Eb (hm.concentrations _ _ _ _ hc)
  obtain ⟨new, hn1, hn2, _⟩ := hce.stack
  refine ⟨⟨hmy ▸ hx.moving.m, hZy ▸ hx.moving.Z, by rw [hEy]; linarith, hsy ▸ hx.moving.Es, hdy⟩,
    fun h0 => ?_, ?_, by rw [hEy, hA.lost]; linarith [hx.ledger]⟩
  · intro r' hr'
    rcases hstk with hstk | hstk
    · rw [hstk] at hr'; exact hx.stack h0 r' hr'
    · have hnew := hn1
      rw [hstk] at hnew
      have e := List.append_cancel_left hnew
      rw [hstk, List.mem_append] at hr'
      rcases hr' with hr' | hr'
      · exact hx.stack h0 r' hr'
      · refine fresh_sound hm (hn2 r' (by rw [← e]; exact hr')) ?_
        rw [List.mem_singleton] at hr'
        rw [hr']; exact normalize_le_one _
  · rw [hEy]
    have := hx.total
    rcases hstk with hstk | hstk
    · rw [hstk]; linarith
    · rw [hstk, totalEnergy_append, totalEnergy_one]
      simp only
      linarith

/-- What a pass does to the energies. -/
structure PassSound (mat : Material ℝ) (o : Options ℝ) (t : Tape ℝ) (p : Particle ℝ)
    (ps : List (Particle ℝ)) (q : Particle ℝ) (qs : List (Particle ℝ)) : Prop where
  moving : SoundParticle q
  stack : (∀ r ∈ ps, SoundParticle r) → ∀ r ∈ qs, SoundParticle r
  free : NoSurfaceBinding mat p → NoSurfaceBinding mat q
  freeStack : (∀ E ∈ mat.Es, E = 0) → (∀ r ∈ ps, NoSurfaceBinding mat r) →
    ∀ r ∈ qs, NoSurfaceBinding mat r
  total : (o.electronic_stopping_mode = .LOW_ENERGY_LOCAL ∨ Forwards mat o t p q) →
    q.E + totalEnergy qs ≤ p.E + totalEnergy ps ∨
    ∃ x Es, mat.actual_surface_binding_energy x x.pos_old.x x.pos_old.y x.pos_old.z = .ok Es ∧
      x.Es = p.Es ∧ x.pos_old = p.pos ∧ x.pos = q.pos ∧
      mat.geometry.inside_energy_barrier p.pos.x p.pos.y p.pos.z = .ok false ∧
      mat.geometry.inside_energy_barrier q.pos.x q.pos.y q.pos.z = .ok true ∧
      q.E + totalEnergy qs ≤ p.E + totalEnergy ps + Es
  totalFree : (o.electronic_stopping_mode = .LOW_ENERGY_LOCAL ∨ Forwards mat o t p q) →
    NoSurfaceBinding mat p → q.E + totalEnergy qs ≤ p.E + totalEnergy ps
  ledger : (p.incident && o.track_energy_losses) = true → NoSurfaceBinding mat p →
    ∃ e, q.energies = p.energies ++ [e] ∧ p.E - q.E ≤ e.En + e.Ee ∧
      (0 < q.E → p.E - q.E = e.En + e.Ee) ∧ 0 ≤ e.En ∧
      (o.electronic_stopping_mode = .LOW_ENERGY_LOCAL ∨ Forwards mat o t p q → 0 ≤ e.Ee)

theorem advance_same (p : Particle ℝ) (mfp d : ℝ) : (p.advance mfp d).1.E = p.E ∧
    (p.advance mfp d).1.m = p.m ∧ (p.advance mfp d).1.Z = p.Z ∧ (p.advance mfp d).1.Es = p.Es ∧
    (p.advance mfp d).1.dir = p.dir ∧ (p.advance mfp d).1.pos_old = p.pos ∧
    (p.advance mfp d).2 = mfp + p.asymptotic_deflection - d ∧
    (p.advance mfp d).1.asymptotic_deflection = d ∧ (p.advance mfp d).1.energies = p.energies ∧
    (p.advance mfp d).1.incident = p.incident := by
  unfold Particle.advance
  by_cases h : (p.E >. p.Ec) = true
  · obtain ⟨l, hl⟩ := utt_same p
    simp only [h, if_true, hl, and_self]
  · simp only [h, Bool.false_eq_true, if_false, and_self]

theorem tracker_same (p : Particle ℝ) (o : Options ℝ) (En Ee : ℝ) :
    (∃ l, p.update_energy_loss_tracker o En Ee = { p with energies := l }) ∧
    ((p.incident && o.track_energy_losses) = true →
      (p.update_energy_loss_tracker o En Ee).energies
        = p.energies ++ [⟨En, Ee, p.pos.x, p.pos.y, p.pos.z⟩]) := by
  unfold Particle.update_energy_loss_tracker
  by_cases h : (p.incident && o.track_energy_losses) = true
  · rw [if_pos h]; exact ⟨⟨_, rfl⟩, fun _ => rfl⟩
  · rw [if_neg h]; exact ⟨⟨p.energies, rfl⟩, fun h' => absurd h' h⟩

set_option maxHeartbeats 1000000 in
theorem pass_sound (rcpr : Rcpr ℝ) {mat : Material ℝ} (o : Options ℝ) (hm : SoundTarget mat)
    {p : Particle ℝ} (hp : SoundParticle p) (ps : List (Particle ℝ)) (t : Tape ℝ) :
    Sat (trajectory_step rcpr mat o p ps) t
      (fun r _ => PassSound mat o t p ps r.1 r.2) (fun _ => True) := by
  refine sat_mono (pass_trace rcpr mat o p ps t) (fun r _ hr => ?_) (fun _ _ => trivial)
  obtain ⟨q, qs⟩ := r
  obtain ⟨tr⟩ := hr
  simp only at tr ⊢
  have e0 : (0.0 : ℝ) = 0 := by norm_num
  obtain ⟨b, hp1⟩ := tr.p1_eq
  have hp1s : SoundParticle tr.p1 := by
    rw [hp1]; exact ⟨hp.m, hp.Z, hp.E, hp.Es, hp.dir⟩
  have hC := sat_of_ok (collide_sound rcpr o hm _ _ tr.t1 (by exact hp1s)) tr.hloop
  obtain ⟨E1, d1, n1, hs1, _, _⟩ := tr.s_eq.particle
  have hstk := tr.s_eq.stack
  obtain ⟨a1, a2, a3, a4, a5, a6, a7, a8, a9, a10⟩ :=
    advance_same tr.s.particle_1 tr.g0.mfp tr.s.total_asymptotic_deflection
  have hq := tr.q_eq
  have hstop := tr.hstop
  have hbound := tr.hbound
  generalize (tr.s.particle_1.advance tr.g0.mfp tr.s.total_asymptotic_deflection).2 = d at *
  generalize (tr.s.particle_1.advance tr.g0.mfp tr.s.total_asymptotic_deflection).1 = pa at *
  have hpa : SoundParticle pa :=
    ⟨a2 ▸ hC.moving.m, a3 ▸ hC.moving.Z, a1 ▸ hC.moving.E, a4 ▸ hC.moving.Es,
      by rw [a5]; exact hC.moving.dir⟩
  obtain ⟨⟨E3, hp3⟩, b1, b2, b3, b4⟩ :=
    rsat_of_ok (subtract_sound hm hpa d _ _ _ o) hstop
  simp only at hp3 b1 b2 b3 b4
  obtain ⟨⟨l, hl⟩, hen⟩ := tracker_same tr.p3 o tr.s.total_energy_lost_to_recoils tr.el
  rw [hl] at hen hbound hq
  have hB := rsat_of_ok (boundary_sound (p := { tr.p3 with energies := l }) hm b1
    (by rw [hp3]; exact hpa.dir) (by rw [hp3]; exact hpa.Es)) hbound
  obtain ⟨Eq, dq, bq, stq, lfq, lq, hqe⟩ := hq
  -- fields of the moving particle along the way
  have f1 : tr.s.particle_1.m = p.m := by rw [hs1, hp1]
  have f2 : tr.s.particle_1.Z = p.Z := by rw [hs1, hp1]
  have f3 : tr.s.particle_1.Es = p.Es := by rw [hs1, hp1]
  have f4 : tr.s.particle_1.pos = p.pos := by rw [hs1, hp1]
  have f5 : tr.s.particle_1.asymptotic_deflection = p.asymptotic_deflection := by rw [hs1, hp1]
  have f6 : tr.s.particle_1.energies = p.energies := by rw [hs1, hp1]
  have f7 : tr.s.particle_1.incident = p.incident := by rw [hs1, hp1]
  have f8 : tr.p1.E = p.E := by rw [hp1]
  have g1 : tr.p3.m = p.m := by rw [hp3, ← f1]; exact a2
  have g2 : tr.p3.Z = p.Z := by rw [hp3, ← f2]; exact a3
  have g3 : tr.p3.Es = p.Es := by rw [hp3, ← f3]; exact a4
  have g4 : tr.p3.pos_old = p.pos := by rw [hp3, ← f4]; exact a6
  have g5 : tr.p3.asymptotic_deflection = tr.s.total_asymptotic_deflection := by rw [hp3]; exact a8
  have g6 : tr.p3.energies = p.energies := by rw [hp3, ← f6]; exact a9
  have g7 : tr.p3.incident = p.incident := by rw [hp3, ← f7]; exact a10
  have hqpos : q.pos = tr.p3.pos := by have h := congrArg Particle.pos hqe; exact h
  have hqasy : q.asymptotic_deflection = tr.s.total_asymptotic_deflection :=
    (congrArg Particle.asymptotic_deflection hqe).trans g5
  have hqen : q.energies = l := congrArg Particle.energies hqe
  have hqs : totalEnergy qs = totalEnergy tr.s.particles := congrArg totalEnergy tr.hqs
  have hsound : SoundParticle q :=
    ⟨by rw [hB.m]; exact g1 ▸ hp.m, by rw [hB.Z]; exact g2 ▸ hp.Z, hB.E,
      by rw [hB.Es]; exact g3 ▸ hp.Es, hB.dir⟩
  have hfw : (o.electronic_stopping_mode = .LOW_ENERGY_LOCAL ∨ Forwards mat o t p q) →
      0 ≤ tr.el := by
    intro h
    refine b4 (h.imp_right fun h => ?_)
    have := h tr.p1 tr.gs tr.t1 tr.g0 tr.hmfp tr.hg0
    rw [a7, f5, ← hqasy]; exact this
  have htot := hC.total
  have hled := hC.ledger
  simp only [f8, e0] at htot hled
  have hfree : NoSurfaceBinding mat p → NoSurfaceBinding mat { tr.p3 with energies := l } :=
    fun h => ⟨by simp only [g3]; exact h.1, h.2⟩
  have hE : (o.electronic_stopping_mode = .LOW_ENERGY_LOCAL ∨ Forwards mat o t p q) →
      tr.p3.E + totalEnergy qs ≤ p.E + totalEnergy ps := by
    intro h
    have h0 := hfw h
    rw [hqs]
    by_cases h3 : 0 < tr.p3.E
    · have := b3 h3; linarith
    · have h3' : tr.p3.E = 0 := le_antisymm (not_lt.1 h3) b1
      have := hC.moving.E
      linarith
  refine ⟨hsound, fun h => ?_, fun h => ⟨by rw [hB.Es]; simp only [g3]; exact h.1, h.2⟩, ?_, ?_, ?_, ?_⟩
  · rw [tr.hqs]; exact hC.stack h
  · intro hz h r hr
    obtain ⟨new, hn1, hn2, _⟩ := hstk
    rw [tr.hqs, hn1, List.mem_append] at hr
    rcases hr with hr | hr
    · exact h r hr
    · exact fresh_free hz (hn2 r hr)
  · intro h
    have h1 := hE h
    rcases hB.gain with h2 | ⟨Es, h2, h3, h4, h5⟩
    · left; simp only at h2; linarith
    · right
      refine ⟨{ tr.p3 with energies := l }, Es, h3, g3, g4, hqpos.symm, ?_, ?_, ?_⟩
      · simp only [g4] at h4; exact h4
      · rw [hqpos]; exact h5
      · simp only at h2; linarith
  · intro h hf
    have h1 := hE h
    have := hB.free (hfree hf)
    simp only at this
    linarith
  · intro hi hf
    have hi3 : (tr.p3.incident && o.track_energy_losses) = true := by rw [g7]; exact hi
    have h1 := hen hi3
    simp only at h1
    have hqE := hB.free (hfree hf)
    simp only at hqE
    refine ⟨_, by rw [hqen, h1, g6], ?_, ?_, ?_, fun h => hfw h⟩
    · simp only; linarith
    · intro h; rw [hqE] at h; have := b3 h; simp only; linarith
    · simp only
      have := (C11_energy_through_collision_loop rcpr mat o _ _ _ _ _ hp1s.m hp1s.E hm.m tr.hloop).2.1
      simp only [f8] at this
      linarith

end RustBCA
