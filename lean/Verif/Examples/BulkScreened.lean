import Verif.Props.BulkScreened
import Verif.Examples.Bulk
import Verif.Examples.SpecialRun

/-! # C88: screened potentials

A hydrogen ion of any energy in an infinite medium of hydrogen. -/

set_option linter.unusedSimpArgs false
set_option linter.unusedVariables false

namespace RustBCA.BulkScreenedExample
open Scalar Spec SpecialExample

noncomputable def geom : Geom ℝ where
  get_densities _ _ _ := .ok [1]
  get_ck _ _ _ := .ok 1
  get_total_density _ _ _ := .ok 1
  get_concentrations _ _ _ := .ok [1]
  inside _ _ _ := .ok true
  inside_simulation_boundary _ _ _ := .ok true
  inside_energy_barrier _ _ _ := .ok true
  closest_point x y z := .ok (x, y, z)

noncomputable def mat : Material ℝ := { SpecialRunExample.mat with geometry := geom }

noncomputable def options : Options ℝ :=
  { SpecialRunExample.options false with
    electronic_stopping_mode := .LOW_ENERGY_NONLOCAL }

noncomputable def ion (E : ℝ) : Particle ℝ := { SpecialRunExample.ion with E := E }

theorem target_sound : SoundTarget mat where
  m := SpecialRunExample.target_sound.m
  Z := SpecialRunExample.target_sound.Z
  Ec := SpecialRunExample.target_sound.Ec
  Es := SpecialRunExample.target_sound.Es
  Eb := SpecialRunExample.target_sound.Eb
  concentrations := SpecialRunExample.target_sound.concentrations
  densities := SpecialRunExample.target_sound.densities
  ck := SpecialRunExample.target_sound.ck

theorem target_regular : RegularTarget mat where
  sound := target_sound
  Ec_pos := SpecialRunExample.target_regular.Ec_pos
  density := SpecialRunExample.target_regular.density
  atoms := SpecialRunExample.target_regular.atoms
  ck_pos := SpecialRunExample.target_regular.ck_pos

theorem target_ready : ReadyTarget mat 1 where
  tabulated := by constructor <;> simp [mat, SpecialRunExample.mat, CascadeExample.mat]
  densities := fun _ _ _ => ⟨[1], rfl, rfl⟩
  concentrations := fun _ _ _ => ⟨[1], rfl, rfl, by simp [Concentrations]⟩
  ck := fun _ _ _ => ⟨1, rfl⟩
  inside := fun _ _ _ => ⟨_, rfl⟩
  boundary := fun _ _ _ => ⟨_, rfl⟩
  barrier := fun _ _ _ => ⟨_, rfl⟩
  closest := fun _ _ _ => ⟨_, rfl⟩

theorem same : SameEverywhere mat [1] 1 := ⟨fun _ _ _ => rfl, fun _ _ _ => rfl, rfl⟩

theorem nested : BarrierEncloses mat.geometry := fun _ _ _ h => h

theorem ends : EndsWithMaterial mat := fun x y z h => h

noncomputable def σ : ℝ := pathStopping .LOW_ENERGY_NONLOCAL 1 [1] [1] 1 1 unit

theorem σ_pos : 0 < σ :=
  ((C100_low_energy .LOW_ENERGY_NONLOCAL (Or.inl rfl) 1 one_pos [1] [1] rfl (by simp) (by simp) (by simp) 1 1 one_pos
    one_pos).1 unit).pos unit unit_pos le_rfl

theorem tables : ScreenedWithAll mat options 0 := by
  intro k j h
  have : j = 0 := by
    have := List.mem_of_getElem? h
    simpa [mat, SpecialRunExample.mat, CascadeExample.mat] using this
  subst this
  exact ⟨[.ZBL], [.MENDENHALL_WELLER], .ZBL, .MENDENHALL_WELLER, rfl, rfl, .zbl, rfl, rfl⟩

noncomputable def K : ℝ := 2*coulombConstant 1 1/(unit*1/(1 + 1))

theorem K_nonneg : 0 ≤ K := by
  have := unit_pos
  unfold K coulombConstant
  have := Real.pi_pos
  positivity

theorem closest : ClosestBelow mat K 1 1 unit := by
  intro Zb hZ Mb hM
  simp only [mat, SpecialRunExample.mat, CascadeExample.mat, List.mem_singleton] at hZ hM
  subst hZ hM
  exact le_rfl

theorem each {P : ℝ → ℝ → ℝ → Prop} (h : P 1 1 unit) (i : ℕ) (Z m Ec : ℝ) (h1 : mat.Z[i]? = some Z) (h2 : mat.m[i]? = some m)
    (h3 : mat.Ec[i]? = some Ec) : P Z m Ec := by
  have h1 : Z = 1 := by simpa [mat, SpecialRunExample.mat, CascadeExample.mat] using List.mem_of_getElem? h1
  have h2 : m = 1 := by simpa [mat, SpecialRunExample.mat, CascadeExample.mat] using List.mem_of_getElem? h2
  have h3 : Ec = unit := by simpa [mat, SpecialRunExample.mat, CascadeExample.mat] using List.mem_of_getElem? h3
  subst h1 h2 h3
  exact h

theorem tables' (j : ℕ) (hj : j ∈ mat.interaction_index) : ScreenedWithAll mat options j := by
  have : j = 0 := by simpa [mat, SpecialRunExample.mat, CascadeExample.mat] using hj
  subst this
  exact tables

theorem slowed : Slowed options 1 mat.Z [1] σ 1 1 unit := ⟨unit_pos, le_rfl⟩

theorem ion_regular (E : ℝ) (hE : unit ≤ E) : RegularParticle (ion E) where
  sound := ⟨EnergyExample.ion_sound.m, EnergyExample.ion_sound.Z, unit_pos.le.trans hE, EnergyExample.ion_sound.Es,
    EnergyExample.ion_sound.dir⟩
  Ec_pos := unit_pos
  unit := SpecialRunExample.ion_regular.unit

/-- Nothing happens at the boundaries of an infinite medium. -/
theorem boundary_dir (p q : Particle ℝ) (h : boundary_condition_planar p mat = .ok q) : q.dir = p.dir := by
  have hsb : ∀ p q : Particle ℝ, surface_binding_energy p mat = .ok q → q = p := by
    intro p q h
    cases hEs : mat.actual_surface_binding_energy p p.pos_old.x p.pos_old.y p.pos_old.z with
    | error e =>
      unfold surface_binding_energy at h
      simp only [hEs, bind, Except.bind] at h
      cases h
    | ok Es =>
      rw [C31_no_crossing p mat Es true ⟨rfl, rfl⟩ hEs] at h
      exact (Except.ok.inj h).symm
  have key : ∀ p', p'.dir = p.dir → (if (!p'.stopped && !p'.left) = true then surface_binding_energy p' mat else pure p') = Except.ok q →
      q.dir = p.dir := by
    intro p' hp' h
    split at h
    · rw [hsb _ _ h, hp']
    · rw [← Except.ok.inj h, hp']
  have key2 : ∀ (c : Bool) (p' : Particle ℝ), p'.dir = p.dir →
      (if c = true then ({ p' with stopped := true } : Particle ℝ).update_trajectory_tracker else p').dir = p.dir := by
    intro c p' hp'
    split
    · obtain ⟨l, hl⟩ := utt_same ({ p' with stopped := true })
      rw [hl]; exact hp'
    · exact hp'
  exact key _ (key2 _ _ rfl) h

theorem pass (rcpr : Rcpr ℝ) (p : Particle ℝ) (hx : p.dir.x = 0) (q : Particle ℝ) (new : List (Particle ℝ)) (t1 : Tape ℝ)
    (run : trajectory_step rcpr mat options p [] SpecialRunExample.quarters = .ok ((q, new), t1)) :
    q.dir.x = 0 ∧ (∀ r ∈ new, r.dir.x = 0) ∧
      t1 = SpecialRunExample.quarters := by
  obtain ⟨k, hk, _⟩ := draws_trajectory_step rcpr mat options p [] _ _ _ run
  obtain ⟨tr⟩ := sat_of_ok (pass_trace rcpr mat options p [] SpecialRunExample.quarters) run
  obtain ⟨gs, t', hd, _, _, _, hgs⟩ := annuli_rest p mat options SpecialRunExample.quarters [1] _ rfl (by norm_num)
    (spacing_exists _ (by norm_num)) rfl (fun k => ⟨(SpecialRunExample.quarters_open k).1.le, (SpecialRunExample.quarters_open k).2⟩)
  have e := tr.hmfp
  rw [hd] at e
  simp only [Except.ok.injEq, Prod.mk.injEq] at e
  obtain ⟨⟨e1, e2⟩, e3⟩ := e
  have hloop := tr.hloop
  rw [← e1, ← e2] at hloop
  have key := sat_forFold (body := collision_step rcpr mat options) (E := fun _ => True)
    (fun (s : StepState ℝ) _ => s.particle_1.dir.x = 0 ∧ ∀ r ∈ s.particles, r.dir.x = 0)
    (gs.zipIdx.take (options.weak_collision_order + 1)) (by
      rintro ⟨g, j⟩ hg s t ⟨h1, h2⟩
      have hphi : g.phi_azimuthal = 2*Real.pi*(1/4) := by
        have := List.mem_of_mem_take hg
        obtain ⟨i, hi⟩ := List.mem_iff_getElem?.1 this
        rw [List.getElem?_zipIdx] at hi
        cases hgi : gs[i]? with
        | none => rw [hgi] at hi; cases hi
        | some g' =>
          rw [hgi] at hi
          simp only [Option.map_some, Option.some.injEq, Prod.mk.injEq] at hi
          rw [← hi.1]
          exact (hgs i g' hgi).2.2.1
      refine sat_mono (collision_step_cases rcpr mat options s (g, j) t) ?_ (fun _ h => h)
      rintro s' t' (rfl | ⟨si, q', r, _, _, _, hqd, _, _, _, _, _, _, _, _, ha⟩)
      · exact ⟨h1, h2⟩
      · have hq : q'.dir.x = 0 := by rw [hqd]; simp [h1]
        constructor
        · rw [ha.moving]
          simp only [hphi]
          exact SpecialRunExample.rotated_plane _ _ h1
        · obtain ⟨eb, _, hs⟩ := ha.stack
          rcases hs with hs | hs
          · rw [hs]; exact h2
          · rw [hs]
            intro r' hr'
            rcases List.mem_append.1 hr' with hr' | hr'
            · exact h2 r' hr'
            · rw [List.mem_singleton] at hr'
              subst hr'
              simp only [hphi]
              exact SpecialRunExample.rotated_plane _ _ hq)
  have h3 := sat_of_ok (key _ _ ⟨hx, fun r hr => by cases hr⟩) hloop
  refine ⟨?_, fun r hr => ?_, hk.trans rfl⟩
  · have h4 := boundary_dir _ _ tr.hbound
    have h5 : (tr.p3.update_energy_loss_tracker options tr.s.total_energy_lost_to_recoils tr.el).dir = tr.p3.dir := by
      obtain ⟨⟨l', hl'⟩, _⟩ := tracker_same tr.p3 options tr.s.total_energy_lost_to_recoils tr.el
      rw [hl']
    obtain ⟨E3, h6⟩ := tr.p3_eq
    have h7 : tr.p3.dir = tr.s.particle_1.dir :=
      (congrArg Particle.dir h6).trans (advance_same tr.s.particle_1 tr.g0.mfp tr.s.total_asymptotic_deflection).2.2.2.2.1
    have h8 : q.dir = tr.s.particle_1.dir := h4.trans (h5.trans h7)
    rw [h8]; exact h3.1
  · have hq : new = tr.s.particles := tr.hqs
    exact h3.2 r (hq ▸ hr)

theorem followed (rcpr : Rcpr ℝ) (E : ℝ) (ps : List (Particle ℝ)) (p : Particle ℝ) (t : Tape ℝ)
    (h : Followed rcpr mat options (ion E) SpecialRunExample.quarters ps p t) :
    t = SpecialRunExample.quarters ∧ (∀ r ∈ ps, r.dir.x = 0) ∧ p.dir.x = 0 := by
  induction h with
  | start => exact ⟨rfl, (fun r hr => by cases hr), rfl⟩
  | pass _ h1 h2 hrun ih =>
    obtain ⟨i1, i2, i3⟩ := ih
    subst i1
    obtain ⟨j1, j2, j3⟩ := pass rcpr _ i3 _ _ _ hrun
    refine ⟨j3, ?_, j1⟩
    intro r hr
    rcases List.mem_append.1 hr with hr | hr
    · exact i2 r hr
    · exact j2 r hr
  | next _ _ ih =>
    obtain ⟨i1, i2, i3⟩ := ih
    exact ⟨i1, fun r hr => i2 r (List.mem_append_left _ hr), i2 _ (List.mem_append_right _ List.mem_cons_self)⟩

theorem generic (rcpr : Rcpr ℝ) (E : ℝ) : Generic rcpr mat options (ion E) SpecialRunExample.quarters := by
  intro ps p t h hs hl
  obtain ⟨h1, h2, h3⟩ := followed rcpr E ps p t h
  refine ⟨by rw [h3]; norm_num, ?_⟩
  intro q new t1 _ c c' x y z hb hb' hne
  have hb : Except.ok true = Except.ok c := hb
  have hb' : Except.ok true = Except.ok c' := hb'
  injection hb with hb
  injection hb' with hb'
  exact absurd (hb.symm.trans hb') hne

/-- C88: the run returns for every energy when all random numbers are 1/4. -/
example (rcpr : Rcpr ℝ) (E : ℝ) (hE : unit ≤ E) : ∃ fuel out tape',
    single_ion_bca rcpr fuel (ion E) mat options SpecialRunExample.quarters = .ok (out, tape') := by
  obtain ⟨f1, h1⟩ := exists_nat_ge (E/(σ*1) + K/1 + 4)
  refine ⟨f1, ?_⟩
  refine C88_run_screened_result (ion := ion E) (n := 1) (ns := [1]) (ck := 1) (s := 1) (σ := σ) (K := K) (eb := 1) rcpr options target_ready
    target_regular same ?_ nested ends rfl rfl rfl (Or.inl rfl) (SpecialRunExample.screened false) σ_pos slowed (each slowed) K_nonneg
    closest (each closest) tables tables' ?_ ?_ (ion_regular E hE) hE rfl rfl rfl ?_ SpecialRunExample.quarters
    SpecialRunExample.quarters_open (generic rcpr E) f1 (Or.inl rfl) h1
  · exact ⟨one_pos, by norm_num⟩
  · intro q i h
    exact SpecialRunExample.species_meet q i h false
  · exact SpecialRunExample.meets (ion E) rfl rfl rfl rfl false
  · show (0:ℝ) ≤ (ion E).asymptotic_deflection
    simp [ion, SpecialRunExample.ion, CascadeExample.ion]

/-- C88: the run ends for every energy and all random numbers. -/
example (rcpr : Rcpr ℝ) (E : ℝ) (hE : unit ≤ E) : ∃ fuel, ∀ tape, OpenUnit tape →
    single_ion_bca rcpr fuel (ion E) mat options tape ≠ .error .fuel := by
  obtain ⟨f1, h1⟩ := exists_nat_ge (E/(σ*1) + K/1 + 4)
  refine ⟨f1, fun tape ht => ?_⟩
  refine C88_run_screened (ion := ion E) (n := 1) (ns := [1]) (ck := 1) (s := 1) (σ := σ) (K := K) (eb := 1) rcpr options target_ready target_sound same
    one_pos ?_ ?_ nested ends rfl rfl rfl (Or.inl rfl) (SpecialRunExample.screened false) σ_pos slowed (each slowed) K_nonneg closest
    (each closest) tables tables' (ion_regular E hE).sound hE rfl rfl rfl ?_ tape ht f1 (Or.inl rfl) h1
  · simp
  · exact ⟨one_pos, by norm_num⟩
  · show (0:ℝ) ≤ (ion E).asymptotic_deflection
    simp [ion, SpecialRunExample.ion, CascadeExample.ion]

end RustBCA.BulkScreenedExample
