import Verif.Spec.Bulk
import Verif.Props.RecoilCount
import Verif.Props.RangeEnd
import Verif.Props.NoPanic
import Verif.Props.Streams

/-!
# C88: runs that end
-/

set_option linter.unusedSimpArgs false
set_option linter.unusedVariables false
set_option linter.unusedSectionVars false

namespace RustBCA
open Scalar Spec

/-- A loop whose invariant counts the passes, and bounds their number while the loop goes on, ends. -/
theorem while_ends {σ : Type} {cond : σ → Bool} {body : σ → M ℝ σ} {Er : Err → Prop} (N : ℕ) (J : ℕ → σ → Tape ℝ → Prop)
    (hb : ∀ n a t, J n a t → cond a = true → Sat (body a) t (J (n + 1)) Er)
    (hN : ∀ n a t, J n a t → cond a = true → n < N) :
    ∀ (fuel n : ℕ) (a : σ) (t : Tape ℝ), n ≤ N → N < fuel + n → J n a t →
      Sat (whileFuel cond body fuel a) t (fun b t' => (∃ n, J n b t') ∧ cond b = false) Er := by
  intro fuel
  induction fuel with
  | zero => intro n a t h1 h2 _; omega
  | succ f ih =>
    intro n a t h1 h2 hJ
    unfold whileFuel
    by_cases hc : cond a = true
    · simp only [hc, if_true, sat_bind]
      have := hN n a t hJ hc
      exact sat_mono (hb n a t hJ hc) (fun b t' h => ih (n + 1) b t' (by omega) (by omega) h) (fun _ h => h)
    · simp only [hc]
      simp only [Bool.not_eq_true] at hc
      exact ⟨⟨n, hJ⟩, hc⟩

/-! ## A pass with Coulomb potentials does not fail -/

section
variable {mat : Material ℝ} {n : ℕ}

theorem quadrature_total (g : ℝ → Res (Anyhow ℝ)) (hg : ∀ x, ∃ y, g x = .ok (.ok y)) (l : List (ℝ × ℝ)) :
    ∃ y, quadrature g l = .ok y := by
  unfold quadrature
  generalize (0.0:ℝ) = a
  induction l generalizing a with
  | nil => exact ⟨_, rfl⟩
  | cons x l ih =>
    obtain ⟨y, hy⟩ := hg x.1
    unfold forFold
    simp only [hy, unwrapA, bind, Except.bind, pure, Except.pure]
    exact ih _

theorem coulomb_collision_total (rcpr : Rcpr ℝ) (o : Options ℝ) (p q : Particle ℝ) (g : BinaryCollisionGeometry ℝ)
    (h : ∃ row row' si, o.interaction_potential[p.interaction_index]? = some row ∧
      (∃ Z1 Z2, row[q.interaction_index]? = some (.COULOMB Z1 Z2)) ∧ o.scattering_integral[p.interaction_index]? = some row' ∧
      row'[q.interaction_index]? = some si ∧ (si = .GAUSS_LEGENDRE ∨ ∃ n, si = .GAUSS_MEHLER n)) :
    ∃ r, calculate_binary_collision rcpr p q g o = .ok (.ok r) := by
  obtain ⟨row, row', si, h1, ⟨Z1, Z2, h2⟩, h3, h4, h5⟩ := h
  have v1 : vget o.interaction_potential p.interaction_index = .ok row := by unfold vget; rw [h1]
  have v2 : vget row q.interaction_index = .ok (.COULOMB Z1 Z2) := by unfold vget; rw [h2]
  have v3 : vget o.scattering_integral p.interaction_index = .ok row' := by unfold vget; rw [h3]
  have v4 : vget row' q.interaction_index = .ok si := by unfold vget; rw [h4]
  obtain ⟨x, hx⟩ : ∃ x, distance_of_closest_approach rcpr p q g o = .ok x := by
    unfold distance_of_closest_approach
    simp only [v1, v2, bind, Except.bind, pure, Except.pure]
    exact ⟨_, rfl⟩
  have hth : ∃ th, scattering_angle si p.Z q.Z p.m q.m p.E g.impact_parameter x (.COULOMB Z1 Z2) = .ok th := by
    rcases h5 with rfl | ⟨k, rfl⟩
    · obtain ⟨y, hy⟩ := quadrature_total (fun u => scattering_function_gl u g.impact_parameter
        (x*screening_length p.Z q.Z (.COULOMB Z1 Z2)) (p.E*q.m/(p.m + q.m))
        (fun r => interaction_potential r (screening_length p.Z q.Z (.COULOMB Z1 Z2)) p.Z q.Z (.COULOMB Z1 Z2))) (fun u => by
          unfold scattering_function_gl interaction_potential
          simp only [bind, Except.bind, pure, Except.pure, isNaN_real, Bool.false_eq_true, if_false]
          exact ⟨_, rfl⟩) gl_nodes
      unfold scattering_angle gauss_legendre scattering_integral_gauss_legendre
      simp only [hy, bind, Except.bind, pure, Except.pure]
      exact ⟨_, rfl⟩
    · obtain ⟨y, hy⟩ := quadrature_total (fun u => scattering_function_gm u g.impact_parameter
        (x*screening_length p.Z q.Z (.COULOMB Z1 Z2)) (p.E*q.m/(p.m + q.m))
        (fun r => interaction_potential r (screening_length p.Z q.Z (.COULOMB Z1 Z2)) p.Z q.Z (.COULOMB Z1 Z2))) (fun u => by
          unfold scattering_function_gm interaction_potential
          simp only [bind, Except.bind, pure, Except.pure, isNaN_real, Bool.false_eq_true, if_false]
          exact ⟨_, rfl⟩) (gm_nodes k)
      unfold scattering_angle gauss_mehler scattering_integral_gauss_mehler
      simp only [hy, bind, Except.bind, pure, Except.pure]
      exact ⟨_, rfl⟩
  obtain ⟨th, hth⟩ := hth
  unfold calculate_binary_collision
  simp only [v1, v2, v3, v4, hx, hth, bind, Except.bind, pure, Except.pure, isNaN_real, Bool.false_eq_true, if_false]
  exact ⟨_, rfl⟩

theorem unit01_after {t : Tape ℝ} (h : Unit01 t) (k : ℕ) : Unit01 (after k t) := fun i => h _

theorem coulomb_collision_step (rcpr : Rcpr ℝ) (hr : ReadyTarget mat n) (o : Options ℝ) (s : StepState ℝ)
    (hc : CoulombWithAll mat o s.particle_1.interaction_index) (hi : s.strong_collision_index < n)
    (gk : BinaryCollisionGeometry ℝ × ℕ) (t : Tape ℝ) (ht : Unit01 t) :
    Sat (collision_step rcpr mat o s gk) t (fun s' t' => s'.strong_collision_index < n ∧
      s'.particle_1.interaction_index = s.particle_1.interaction_index ∧ Unit01 t') (fun _ => False) := by
  obtain ⟨g, k⟩ := gk
  have hpart : Sat (choose_collision_partner s.particle_1 mat g o) t
      (fun x t1 => x.1 < n ∧ Unit01 t1) (fun _ => False) := by
    obtain ⟨r, hrr⟩ : ∃ r, r = recoil_position s.particle_1.pos s.particle_1.dir g := ⟨_, rfl⟩
    unfold choose_collision_partner
    simp only [← hrr]
    obtain ⟨cs, hcs, hl, hc⟩ := hr.concentrations r.x r.y r.z
    obtain ⟨sp, h1, _, ⟨c, h2, _⟩, _⟩ := C27_choose mat r.x r.y r.z t cs hcs hc (hl ▸ hr.tabulated) (ht 0).1 (ht 0).2
    rw [sat_bind, sat_iff, h1]
    refine ⟨fun sp' t1 h => ?_, fun e he => by cases he⟩
    cases h
    refine ⟨?_, fun i => ht _⟩
    rw [← hl]
    exact (List.getElem?_eq_some_iff.1 h2).1
  unfold collision_step
  simp only [sat_bind]
  refine sat_mono (sat_and hpart (sat_mono (partner_exact s.particle_1 mat g o t) (fun _ _ h => h)
    (fun _ _ => trivial))) (fun x t1 hx => ?_) (fun _ h => h.1)
  obtain ⟨si, q⟩ := x
  obtain ⟨⟨hsi, ht1⟩, hP, hsp, hpos, hdir, _⟩ := hx
  simp only at hP hsp hpos hdir hsi ⊢
  obtain ⟨b1, hb1⟩ := hr.inside q.pos.x q.pos.y q.pos.z
  obtain ⟨b2, hb2⟩ := hr.barrier s.particle_1.pos.x s.particle_1.pos.y s.particle_1.pos.z
  have hb1' : mat.inside q.pos.x q.pos.y q.pos.z = .ok b1 := hb1
  have hb2' : mat.inside_energy_barrier s.particle_1.pos.x s.particle_1.pos.y s.particle_1.pos.z = .ok b2 := hb2
  simp only [sat_lift, hb1', hb2', rsat_ok]
  by_cases hcond : (b1 && b2) = true
  · rw [if_pos hcond]
    obtain ⟨r, run'⟩ := coulomb_collision_total rcpr o s.particle_1 q g (hc si q.interaction_index hsp.2.2.2.2.2)
    simp only [sat_bind, sat_lift, run', rsat_ok]
    obtain ⟨s', hs'⟩ := apply_total hr o k g si q r s
    simp only [unwrapA, rsat_ok, hs']
    have hA := rsat_of_ok (apply_collision_applied mat o k g si q _ s) hs'
    have hA1 := hA.strong
    refine ⟨?_, by rw [hA.moving], ht1⟩
    by_cases hk : k = 0
    · rw [if_pos hk] at hA1
      rw [(Prod.mk.inj (Prod.mk.inj hA1).2).2]
      exact hsi
    · rw [if_neg hk] at hA1
      rw [(Prod.mk.inj (Prod.mk.inj hA1).2).2]
      exact hi
  · rw [if_neg hcond]
    exact ⟨hi, rfl, ht1⟩

theorem coulomb_pass_total (rcpr : Rcpr ℝ) (hr : ReadyTarget mat n) (o : Options ℝ) (p : Particle ℝ) (ps : List (Particle ℝ))
    (hc : CoulombWithAll mat o p.interaction_index) (t : Tape ℝ) (ht : Unit01 t) :
    Sat (trajectory_step rcpr mat o p ps) t (fun _ t' => Unit01 t') (fun _ => False) := by
  have hcov : Covered mat o p n := by
    intro i hi
    have hI := hi.trans_le hr.tabulated.interaction_index
    obtain ⟨row, row', si, h1, ⟨Z1, Z2, h2⟩, _⟩ := hc i _ (List.getElem?_eq_getElem hI)
    exact ⟨row, _, _, h1, List.getElem?_eq_getElem hI, h2⟩
  unfold trajectory_step
  rw [sat_bind]
  refine sat_mono (sat_and (determine_total hr p o t) (sat_and (sat_mono (mfp_frame p mat o t) (fun _ _ h => h) (fun _ _ => trivial))
    (sat_mono (sat_eq _ _) (fun _ _ h => h) (fun _ _ => trivial)))) ?_ (fun _ h => h.1)
  rintro ⟨p1, gs⟩ t1 ⟨hne, ⟨b, hb⟩, hrun⟩
  simp only at hne hb hrun ⊢
  have ht1 : Unit01 t1 := by
    obtain ⟨k, hk, _⟩ := draws_determine p mat o t _ t1 hrun
    rw [hk]; exact unit01_after ht k
  rw [sat_bind]
  have hloop := sat_forFold (E := fun _ => False) (body := collision_step rcpr mat o) (fun s t' => s.strong_collision_index < n ∧
      s.particle_1.interaction_index = p.interaction_index ∧ Unit01 t')
    (gs.zipIdx.take (o.weak_collision_order + 1)) (by
      rintro gk _ s t' ⟨i1, i2, i3⟩
      exact sat_mono (coulomb_collision_step rcpr hr o s (by rw [i2]; exact hc) i1 gk t' i3)
        (fun s' t'' h => ⟨h.1, h.2.1.trans i2, h.2.2⟩) (fun _ h => h)) ⟨p1, ps, 0.0, 0.0, 0.0, 0.0, 0⟩ t1
    ⟨hr.pos, (by rw [hb]), ht1⟩
  refine sat_mono hloop (fun s t2 hs => ?_) (fun _ h => h)
  obtain ⟨i1, i2, i3⟩ := hs
  obtain ⟨r, hr'⟩ := finish_total hr o gs hne s i1 (by unfold Covered; rw [i2]; exact hcov)
  rw [sat_lift, hr']
  exact i3

end

/-! ## The run -/

section
variable {rcpr : Rcpr ℝ} {mat : Material ℝ} {o : Options ℝ} {fuel : ℕ} {ion : Particle ℝ} {tape : Tape ℝ}

/-- The invariant of a trajectory after `k` passes: `U` holds of the random numbers, `G` of the particles waiting. -/
structure TrajEnds (rcpr : Rcpr ℝ) (mat : Material ℝ) (o : Options ℝ) (fuel : ℕ) (ion : Particle ℝ) (tape : Tape ℝ)
    (U : Tape ℝ → Prop) (G : Particle ℝ → Prop) (p : Particle ℝ) (k : ℕ) (x : TrajState ℝ) (t : Tape ℝ) : Prop where
  reached : InTrajectory rcpr mat o fuel ion tape x t
  unit : U t
  index : x.particle_1.interaction_index = p.interaction_index
  path : x.running = true → ∃ L, StaysInside rcpr mat o (fun t _ r => U t ∧ r.stopped = false ∧ r.left = false) p k L x.particle_1
  sound : SoundParticle x.particle_1
  stack : ∀ r ∈ x.particles, G r
  waiting : 0 < k → x.particle_index = x.particles.length
  start : k = 0 → x.particle_1 = p

set_option maxHeartbeats 1000000 in
/-- The argument for every kind of run: `G` holds of the particles waiting, their trajectories make at most `B` passes and
there are at most `C` of them. -/
theorem run_ends (hm : SoundTarget mat) (hend : EndsWithMaterial mat) (U : Tape ℝ → Prop) (G : Particle ℝ → Prop)
    (Er : Err → Prop) (B C Emax : ℝ)
    (hG : ∀ r, G r → SoundParticle r ∧ r.stopped = false ∧ r.left = false ∧ IsInside mat r)
    (hpass : ∀ p x ps t, G p → x.interaction_index = p.interaction_index → SoundParticle x → U t →
      Sat (trajectory_step rcpr mat o x ps) t (fun _ t' => U t') Er)
    (hnew : ∀ x ps t q qs t', SoundParticle x → x.stopped = false → x.left = false → U t → (∀ r ∈ ps, G r) →
      trajectory_step rcpr mat o x ps t = .ok ((q, qs), t') → ∀ r ∈ qs, G r)
    (hB : ∀ p k L q, G p → p.E ≤ Emax →
      StaysInside rcpr mat o (fun t _ r => U t ∧ r.stopped = false ∧ r.left = false) p k L q → (k : ℝ) ≤ B)
    (hC : ∀ st t, AtHead rcpr mat o fuel ion tape st t → st.particle_index = st.particles.length → 0 < st.particle_index →
      (st.particle_output.length : ℝ) ≤ C ∧ ∀ r ∈ st.particles, r.E ≤ Emax)
    (hion : G ion) (ht : U tape) (hB0 : 0 ≤ B) (hf1 : B + 2 ≤ fuel) (hf2 : C + 2 ≤ fuel) :
    Sat (single_ion_bca rcpr fuel ion mat o) tape (fun _ _ => True) Er := by
  obtain ⟨N, hN⟩ : ∃ N : ℕ, fuel = N + 1 := ⟨fuel - 1, by
    have : (2:ℝ) ≤ fuel := by linarith
    have : 2 ≤ fuel := by exact_mod_cast this
    omega⟩
  have hNr : (fuel : ℝ) = N + 1 := by rw [hN]; push_cast; ring
  -- one trajectory
  have traj : ∀ (st : CascadeState ℝ) (t : Tape ℝ) (p : Particle ℝ) (ps : List (Particle ℝ)), AtHead rcpr mat o fuel ion tape st t →
      0 < st.particle_index → popLast st.particles = .ok (p, ps) → U t → p.E ≤ Emax → (∀ r ∈ st.particles, G r) →
      Sat (whileFuel TrajState.running (traj_body rcpr mat o) fuel ⟨p, ps, st.particle_index⟩) t
        (fun x t' => U t' ∧ (∀ r ∈ x.particles, G r) ∧ x.particle_index = x.particles.length) Er := by
    intro st t p ps hat hpos hpop hut hpE hall
    have hsp := popLast_ok hpop
    have hpG : G p := hall p (by rw [hsp]; simp)
    obtain ⟨g1, g2, g3, g4⟩ := hG p hpG
    have hend' := while_ends (cond := TrajState.running) (body := traj_body rcpr mat o) (Er := Er) N
      (TrajEnds rcpr mat o fuel ion tape U G p) ?_ ?_ fuel 0 ⟨p, ps, st.particle_index⟩ t (Nat.zero_le _) (by omega)
      ⟨.start hat hpos hpop, hut, rfl, fun _ => ⟨0, .start g4⟩, g1, fun r h => hall r (by rw [hsp]; simp [h]),
        fun h => absurd h (lt_irrefl _), fun _ => rfl⟩
    · refine sat_mono hend' (fun x t' hx => ?_) (fun _ h => h)
      obtain ⟨⟨k, hk⟩, hnr⟩ := hx
      refine ⟨hk.unit, hk.stack, hk.waiting (Nat.pos_of_ne_zero fun h0 => ?_)⟩
      have := hk.start h0
      unfold TrajState.running at hnr
      rw [this, g2, g3] at hnr
      exact absurd hnr (by decide)
    · intro k x t1 hx hrun
      have hrun' : x.particle_1.stopped = false ∧ x.particle_1.left = false := by
        unfold TrajState.running at hrun
        simpa using hrun
      have htot := hpass p x.particle_1 x.particles t1 hpG hx.index hx.sound hx.unit
      have hstep : Sat (traj_body rcpr mat o x) t1 (fun y t2 => U t2 ∧ ∃ q qs,
          trajectory_step rcpr mat o x.particle_1 x.particles t1 = .ok ((q, qs), t2) ∧ y = ⟨q, qs, qs.length⟩) Er := by
        unfold traj_body
        simp only [sat_bind, sat_pure]
        refine sat_mono (sat_and htot (sat_mono (sat_eq _ _) (fun _ _ h => h) (fun _ _ => trivial))) (fun r t3 hr => ?_)
          (fun _ h => h.1)
        exact ⟨hr.1, r.1, r.2, hr.2, rfl⟩
      refine sat_mono (sat_and hstep (sat_mono (sat_eq _ _) (fun _ _ h => h) (fun _ _ => trivial))) (fun y t2 hy => ?_)
        (fun _ h => h.1)
      obtain ⟨⟨hu2, q, qs, hq, rfl⟩, hbody⟩ := hy
      have hP := sat_of_ok (pass_sound rcpr o hm hx.sound x.particles t1) hq
      have hPE := sat_of_ok (trajectory_step_sat rcpr mat o x.particle_1 x.particles t1 hrun'.1 hrun'.2) hq
      simp only at hP hPE
      obtain ⟨L, hL⟩ := hx.path hrun
      refine ⟨.next hx.reached hrun hbody, hu2, ?_, ?_, hP.moving, ?_, fun _ => rfl, fun h => absurd h (Nat.succ_ne_zero _)⟩
      · exact hPE.same.interaction_index.trans hx.index
      · intro hy
        have hy' : q.stopped = false ∧ q.left = false := by
          unfold TrajState.running at hy
          simpa using hy
        exact ⟨_, .pass hL hrun'.1 hrun'.2 hq ⟨hx.unit, hy'⟩ (hend _ _ _ (hPE.running hy'.2))⟩
      · exact hnew _ _ _ _ _ _ hx.sound hrun'.1 hrun'.2 hx.unit hx.stack hq
    · intro k x t1 hx hrun
      obtain ⟨L, hL⟩ := hx.path hrun
      have h1 := hB p k L _ hpG hpE hL
      have : (k : ℝ) < N := by linarith
      exact_mod_cast this
  -- the particles one after the other
  have houter := while_ends (cond := fun st : CascadeState ℝ => decide (0 < st.particle_index)) (body := cascade_body rcpr mat o fuel)
    (Er := Er) N
    (fun k st t => AtHead rcpr mat o fuel ion tape st t ∧ U t ∧ st.particle_output.length = k ∧
      st.particle_index = st.particles.length ∧ ∀ r ∈ st.particles, G r) ?_ ?_ fuel 0 ⟨[ion], [], 1⟩ tape
    (Nat.zero_le _) (by omega) ⟨.start, ht, rfl, rfl, by simpa using hion⟩
  · unfold single_ion_bca
    simp only [sat_bind, sat_pure]
    exact sat_mono houter (fun _ _ _ => trivial) (fun _ h => h)
  · rintro k st t ⟨hat, hut, hk, hidx, hall⟩ hc
    have hpos : 0 < st.particle_index := by simpa using hc
    have hb : Sat (cascade_body rcpr mat o fuel st) t (fun st' t' => U t' ∧ st'.particle_output.length = k + 1 ∧
        st'.particle_index = st'.particles.length ∧ ∀ r ∈ st'.particles, G r) Er := by
      unfold cascade_body
      simp only [sat_bind, sat_lift, sat_pure]
      have hpl : ∃ a, popLast st.particles = .ok a := by
        unfold popLast
        cases hg : st.particles.getLast? with
        | none =>
          rw [List.getLast?_eq_none_iff] at hg
          rw [hidx, hg] at hpos
          exact absurd hpos (by simp)
        | some a => exact ⟨_, rfl⟩
      obtain ⟨⟨p, ps⟩, hpop⟩ := hpl
      have hpE : p.E ≤ Emax := (hC st t hat hidx hpos).2 p (by rw [popLast_ok hpop]; simp)
      have htr := traj st t p ps hat hpos hpop hut hpE hall
      rw [hpop]
      simp only [rsat_ok]
      refine sat_mono htr (fun x t' hx => ?_) (fun _ h => h)
      exact ⟨hx.1, by simp [hk], hx.2.2, hx.2.1⟩
    refine sat_mono (sat_and hb (sat_mono (sat_eq _ _) (fun _ _ h => h) (fun _ _ => trivial))) (fun st' t' h => ?_) (fun _ h => h.1)
    exact ⟨.next hat hpos h.2, h.1⟩
  · rintro k st t ⟨hat, hut, hk, hidx, hall⟩ hc
    have hpos : 0 < st.particle_index := by simpa using hc
    have h1 := (hC st t hat hidx hpos).1
    rw [hk] at h1
    have : (k : ℝ) < N := by linarith
    exact_mod_cast this

/-- At most `E/Eb` particles have been reported while others are waiting, none of which has more energy than the ion. -/
theorem head_count (hm : SoundTarget mat) (hion : SoundParticle ion) (hl : LossNeverNegative rcpr mat o fuel ion tape) {eb : ℝ}
    (heb : BoundBy mat eb) (heb0 : 0 < eb) (hfree : NoSurfaceBinding mat ion ∨ (NoVacuum mat ∧ WithinBarrier mat ion))
    (st : CascadeState ℝ) (t : Tape ℝ) (hat : AtHead rcpr mat o fuel ion tape st t) (hidx : st.particle_index = st.particles.length)
    (hpos : 0 < st.particle_index) : (st.particle_output.length : ℝ) ≤ ion.E/eb ∧ ∀ r ∈ st.particles, r.E ≤ ion.E := by
  have hcost := head_cost hm hion hl heb heb0.le hfree hat
  have h1 := hcost.cost
  have h2 := total_nonneg _ hcost.out
  have h3 := total_nonneg _ fun r h => (hcost.sound r h).E
  have h4 : (1:ℝ) ≤ st.particles.length := by
    rw [hidx] at hpos
    exact_mod_cast hpos
  have h0 : (0:ℝ) ≤ st.particle_output.length := Nat.cast_nonneg _
  have h5 : eb*st.particle_output.length ≤ ion.E := by nlinarith
  refine ⟨by rw [le_div_iff₀ heb0]; linarith, fun r hr => ?_⟩
  have h6 : r.E ≤ totalEnergy st.particles := by
    unfold totalEnergy
    refine List.single_le_sum (fun e he => ?_) _ (List.mem_map_of_mem hr)
    obtain ⟨r', hr', rfl⟩ := List.mem_map.mp he
    exact (hcost.sound r' hr').E
  nlinarith

/-- Without recoils there is only the ion. -/
theorem head_alone (htr : o.track_recoils = false) (hst : ion.stopped = false) (hlf : ion.left = false)
    (st : CascadeState ℝ) (t : Tape ℝ) (hat : AtHead rcpr mat o fuel ion tape st t) (hidx : st.particle_index = st.particles.length)
    (hpos : 0 < st.particle_index) : st.particle_output = [] ∧ st.particles = [ion] := by
  have key : (st.particle_output = [] ∧ st.particles = [ion]) ∨ st.particles = [] := by
    clear hidx hpos
    induction hat with
    | start => exact Or.inl ⟨rfl, rfl⟩
    | @next st st' t t' hr hpos hs' ih =>
      right
      rcases ih with ⟨ho, hp⟩ | hp
      · have hb : Sat (cascade_body rcpr mat o fuel st) t (fun st' _ => st'.particles = []) (fun _ => True) := by
          unfold cascade_body
          simp only [sat_bind, sat_lift, sat_pure]
          refine rsat_mono (rsat_eq _) (fun a ha => ?_) (fun _ _ => trivial)
          obtain ⟨p, ps⟩ := a
          have hsp := popLast_ok ha
          rw [hp] at hsp
          have hps : ps = [] := by
            have := congrArg List.length hsp
            simp at this
            exact this
          subst hps
          refine sat_mono (sat_whileFuel (E := fun _ => True) (cond := TrajState.running) (body := traj_body rcpr mat o)
            (fun x _ => x.particles = []) trivial ?_ fuel _ t rfl) (fun x _ h => h.1) (fun _ _ => trivial)
          intro x t1 hx hrun
          have hrun' : x.particle_1.stopped = false ∧ x.particle_1.left = false := by
            unfold TrajState.running at hrun
            simpa using hrun
          unfold traj_body
          simp only [sat_bind, sat_pure]
          refine sat_mono (trajectory_step_sat rcpr mat o x.particle_1 x.particles t1 hrun'.1 hrun'.2) (fun r _ h => ?_)
            (fun _ _ => trivial)
          obtain ⟨new, h1, _, h2⟩ := h.stack
          rw [h1, hx, h2 htr]; rfl
        exact sat_of_ok hb hs'
      · exfalso
        have hb : Sat (cascade_body rcpr mat o fuel st) t (fun st' _ => False) (fun _ => True) := by
          unfold cascade_body
          simp only [sat_bind, sat_lift, sat_pure]
          rw [hp]
          unfold popLast
          exact trivial
        exact sat_of_ok hb hs'
  rcases key with h | h
  · exact h
  · rw [hidx, h] at hpos
    exact absurd hpos (by simp)

/-- A particle whose trajectory ends, with Coulomb potentials. -/
structure Bound (mat : Material ℝ) (o : Options ℝ) (ck : ℝ) (ns : List ℝ) (σ : ℝ) (r : Particle ℝ) : Prop where
  sound : SoundParticle r
  E : 0 < r.E
  slowed : Slowed o ck mat.Z ns σ r.Z r.m r.Ec
  asym : r.asymptotic_deflection = 0
  stopped : r.stopped = false
  left : r.left = false
  inside : IsInside mat r
  tables : CoulombWithAll mat o r.interaction_index

end

section
variable (rcpr : Rcpr ℝ) {mat : Material ℝ} (o : Options ℝ) {n : ℕ} {ns : List ℝ} {ck s σ eb : ℝ} {ion : Particle ℝ}

/-- **C88, a whole run, Coulomb potentials.** In a target of uniform composition whose simulated volume ends with the
material, in the low-energy path-dependent stopping modes and without free-flight paths, the run of every ion ends with a
result, whatever the random numbers: it takes no more than `E/(σ s) + 3` passes for each of at most `E/Eb + 1` particles,
where `s` is the spacing of the atoms and `σ` the least stopping power a particle can have at its cutoff energy. -/
theorem C88_run_coulomb (hr : ReadyTarget mat n) (hm : SoundTarget mat) (hu : SameEverywhere mat ns ck) (hck : 0 < ck)
    (hn : 0 < ns.sum) (hs : IsSpacing ns.sum s) (hnest : BarrierEncloses mat.geometry) (hend : EndsWithMaterial mat)
    (heb : BoundBy mat eb) (heb0 : 0 < eb) (hff : o.high_energy_free_flight_paths = false)
    (hliq : o.mean_free_path_model.isGaseous = false)
    (hmode : o.electronic_stopping_mode = .LOW_ENERGY_NONLOCAL ∨ o.electronic_stopping_mode = .LOW_ENERGY_EQUIPARTITION)
    (hC : AllCoulomb o) (hσ : 0 < σ) (hslow : Slowed o ck mat.Z ns σ ion.Z ion.m ion.Ec)
    (hslow' : ∀ (i : ℕ) (Z m Ec : ℝ), mat.Z[i]? = some Z → mat.m[i]? = some m → mat.Ec[i]? = some Ec → Slowed o ck mat.Z ns σ Z m Ec)
    (htab : CoulombWithAll mat o ion.interaction_index) (htab' : ∀ j ∈ mat.interaction_index, CoulombWithAll mat o j)
    (hion : SoundParticle ion) (hE : 0 < ion.E) (hin : IsInside mat ion) (hst : ion.stopped = false) (hlf : ion.left = false)
    (hasy : ion.asymptotic_deflection = 0) (fuel : ℕ) (hf1 : ion.E/(σ*s) + 3 ≤ fuel) (hf2 : ion.E/eb + 2 ≤ fuel)
    (tape : Tape ℝ) (ht : Unit01 tape) :
    ∃ out tape', single_ion_bca rcpr fuel ion mat o tape = .ok (out, tape') ∧ (out.length : ℝ) ≤ ion.E/eb + 1 := by
  have hs0 := hs.1
  have hns : ∀ a ∈ ns, 0 ≤ a := hm.densities 0 0 0 ns (hu.densities 0 0 0)
  have hl : LossNeverNegative rcpr mat o fuel ion tape := Or.inr (coulomb_always_forwards rcpr mat o fuel ion tape hm hC hff ht hasy)
  have hvac : NoVacuum mat := ⟨fun x y z h => hnest x y z (hend x y z h), fun x y z h => hnest x y z h⟩
  have hfree : NoSurfaceBinding mat ion ∨ (NoVacuum mat ∧ WithinBarrier mat ion) := Or.inr ⟨hvac, hnest _ _ _ hin⟩
  have hσs : 0 < σ*s := mul_pos hσ hs0
  have hmain := run_ends (rcpr := rcpr) (o := o) (fuel := fuel) hm hend Unit01 (Bound mat o ck ns σ) (fun _ => False) (ion.E/(σ*s) + 1)
    (ion.E/eb) ion.E (fun r h => ⟨h.sound, h.stopped, h.left, h.inside⟩)
    (fun p x ps t hp hx _ ht => coulomb_pass_total rcpr hr o x ps (by rw [hx]; exact hp.tables) t ht) ?_ ?_
    (head_count hm hion hl heb heb0 hfree) ⟨hion, hE, hslow, hasy, hst, hlf, hin, htab⟩ ht (by positivity) (by linarith) hf2
  · cases hrun : single_ion_bca rcpr fuel ion mat o tape with
    | error e => unfold Sat at hmain; rw [hrun] at hmain; exact hmain.elim
    | ok x =>
      refine ⟨x.1, x.2, rfl, ?_⟩
      have := C101_count rcpr mat o fuel ion tape x.2 x.1 hm hion eb heb heb0 hfree hl hrun
      linarith
  · intro x ps t q qs t' hxs hx1 hx2 hut hps hq r hrs
    have hP := sat_of_ok (pass_sound rcpr o hm hxs ps t) hq
    have hPE := sat_of_ok (trajectory_step_sat rcpr mat o x ps t hx1 hx2) hq
    have hA := sat_of_ok (coulomb_pass hC x ps t) hq
    simp only at hP hPE hA
    have hrs0 : r ∈ qs := hrs
    obtain ⟨new, hnew, hfr, _⟩ := hPE.stack
    rw [hnew, List.mem_append] at hrs
    rcases hrs with hrs | hrs
    · exact hps r hrs
    · have h1 := hfr r hrs
      obtain ⟨i, hi⟩ := h1.species
      have hEc : 0 ≤ r.Ec := hm.Ec _ (List.mem_of_getElem? hi.2.2.1)
      have hab : r.Ec < r.energy_origin := (lt_real _ _).1 h1.above
      refine ⟨hP.stack (fun x' h => (hps x' h).sound) r hrs0, ?_, hslow' i _ _ _ hi.1 hi.2.1 hi.2.2.1,
        hA.2 (fun x' h => (hps x' h).asym) r hrs0, h1.stopped, h1.left, ?_, htab' _ (List.mem_of_getElem? hi.2.2.2.2.2)⟩
      · rw [h1.energy]; linarith
      · have := h1.inside
        rw [← h1.pos] at this
        exact this
  · intro p k L q hpB hpE hL
    have h1 := C88_inside_coulomb rcpr o hu hm hnest hpB.sound hmode hck hns hn hs hff hliq hpB.slowed.1 hpB.E hC hpB.asym k L _ hL
    have h2 : p.E/(pathStopping o.electronic_stopping_mode ck mat.Z ns p.Z p.m p.Ec*s) ≤ ion.E/(σ*s) := by
      refine div_le_div₀ hE.le hpE hσs (mul_le_mul_of_nonneg_right hpB.slowed.2 hs0.le)
    linarith

end

end RustBCA
