import Verif.Props.NoPanic
import Verif.Examples.Special
import Verif.Examples.Energy

/-!
# C95 and C96 at work

A hydrogen ion of energy `2*unit` in a slab of hydrogen, recoils followed, every random number 1/4.
-/

set_option linter.unusedSimpArgs false
set_option linter.unusedVariables false

namespace RustBCA.SpecialRunExample
open Scalar Spec SpecialExample

/-- The slab of `CascadeExample` with the cutoff energy `unit`. -/
noncomputable def mat : Material ℝ := { CascadeExample.mat with Ec := [unit] }

noncomputable def options (recoils : Bool) : Options ℝ :=
  { Options.default_options recoils with
    interaction_potential := [[.ZBL]]
    scattering_integral := [[.MENDENHALL_WELLER]]
    track_energy_losses := true }

noncomputable def ion : Particle ℝ :=
  { CascadeExample.ion with
    E := 2*unit
    Ec := unit }

/-- All random numbers are 1/4. -/
noncomputable def quarters : Tape ℝ := fun _ => 1/4

theorem quarters_open : OpenUnit quarters := fun k => by
  show (0:ℝ) < 1/4 ∧ (1/4:ℝ) < 1
  norm_num

theorem target_sound : SoundTarget mat where
  m := EnergyExample.target_sound.m
  Z := EnergyExample.target_sound.Z
  Ec := by
    have := unit_pos.le
    simpa [mat] using this
  Es := EnergyExample.target_sound.Es
  Eb := EnergyExample.target_sound.Eb
  concentrations := EnergyExample.target_sound.concentrations
  densities := EnergyExample.target_sound.densities
  ck := EnergyExample.target_sound.ck

theorem target_regular : RegularTarget mat where
  sound := target_sound
  Ec_pos := by
    have := unit_pos
    simpa [mat] using this
  density := by
    intro x y z ns h
    have : [(1:ℝ)] = ns := by injection h
    subst this; simp
  atoms := by
    intro x y z cs h
    have : [(1:ℝ)] = cs := by injection h
    subst this; simp [mat, CascadeExample.mat]
  ck_pos := by
    intro x y z c h
    have : (1:ℝ) = c := by injection h
    subst this; norm_num

theorem target_ready : ReadyTarget mat 1 where
  tabulated := by constructor <;> simp [mat, CascadeExample.mat]
  densities := fun _ _ _ => ⟨[1], rfl, rfl⟩
  concentrations := fun _ _ _ => ⟨[1], rfl, rfl, by simp [Concentrations]⟩
  ck := fun _ _ _ => ⟨1, rfl⟩
  inside := fun _ _ _ => ⟨_, rfl⟩
  boundary := fun _ _ _ => ⟨_, rfl⟩
  barrier := fun _ _ _ => ⟨_, rfl⟩
  closest := fun _ _ _ => ⟨_, rfl⟩

theorem screened (b : Bool) : AllScreened (options b) := by
  intro row hr V hV
  simp only [options, List.mem_singleton] at hr
  subst hr
  simp only [List.mem_singleton] at hV
  subst hV
  exact .zbl

/-- Any hydrogen atom with the cutoff energy `unit` can meet the atoms of the slab. -/
theorem meets (p : Particle ℝ) (hZ : p.Z = 1) (hm : p.m = 1) (hi : p.interaction_index = 0) (hE : p.Ec = unit)
    (b : Bool) : MeetsAll mat (options b) p := by
  intro i Z m j h1 h2 h3 E hEc
  have hu := unit_pos
  have h1 : [(1:ℝ)][i]? = some Z := h1
  have h2 : [(1:ℝ)][i]? = some m := h2
  have h3 : [0][i]? = some j := h3
  cases i with
  | succ i => simp at h1
  | zero =>
    simp only [List.getElem?_cons_zero, Option.some.injEq] at h1 h2 h3
    subst h1 h2 h3
    refine ⟨[.ZBL], .ZBL, [.MENDENHALL_WELLER], .MENDENHALL_WELLER, by simp [options, hi], rfl, by simp [options, hi], rfl,
      .zbl, ?_, Or.inl rfl⟩
    show 1e-25*(coulombConstant p.Z 1/screening_length p.Z 1 (.ZBL : InteractionPotential ℝ)) ≤ E*1/(p.m + 1)
    rw [hZ, hm]
    show 1e-25*unit ≤ E*1/(1 + 1)
    rw [hE] at hEc
    linarith

theorem species_meet (q : Particle ℝ) (i : ℕ) (h : IsSpecies mat i q) (b : Bool) : MeetsAll mat (options b) q := by
  obtain ⟨h1, h2, h3, _, _, h4⟩ := h
  have h1 : [(1:ℝ)][i]? = some q.Z := h1
  have h2 : [(1:ℝ)][i]? = some q.m := h2
  have h3 : [unit][i]? = some q.Ec := h3
  have h4 : [0][i]? = some q.interaction_index := h4
  cases i with
  | succ i => simp at h1
  | zero =>
    simp only [List.getElem?_cons_zero, Option.some.injEq] at h1 h2 h3 h4
    exact meets q h1.symm h2.symm h4.symm h3.symm b

theorem ion_regular : RegularParticle ion where
  sound := ⟨EnergyExample.ion_sound.m, EnergyExample.ion_sound.Z, by
    have := unit_pos
    show 0 ≤ 2*unit
    linarith, EnergyExample.ion_sound.Es, EnergyExample.ion_sound.dir⟩
  Ec_pos := unit_pos
  unit := by simp [Spec.IsUnit, ion, CascadeExample.ion, Spec.inner, Spec.norm]

/-- Every direction stays in the plane x = 0. -/
theorem rotated_plane (d : Vec3 ℝ) (psi : ℝ) (hd : d.x = 0) :
    (Particle.rotated_dir d psi (2*Real.pi*(1/4))).normalize.x = 0 := by
  have : Real.cos (2*Real.pi*(1/4)) = 0 := by
    rw [show 2*Real.pi*(1/4) = Real.pi/2 by ring, Real.cos_pi_div_two]
  simp only [Vec3.normalize, Particle.rotated_dir, cos_real, sin_real, hd, this]
  simp

theorem after_quarters (k : ℕ) : after k quarters = quarters := rfl

/-- A pass in this slab: the particle leaves, its recoils move in the plane x = 0. -/
theorem pass (rcpr : Rcpr ℝ) (b : Bool) (p : Particle ℝ) (hx : p.dir.x = 0) (q : Particle ℝ) (new : List (Particle ℝ)) (t1 : Tape ℝ)
    (run : trajectory_step rcpr mat (options b) p [] quarters = .ok ((q, new), t1)) :
    q.left = true ∧ (∀ r ∈ new, r.dir.x = 0) ∧ t1 = quarters := by
  obtain ⟨k, hk, _⟩ := draws_trajectory_step rcpr mat (options b) p [] _ _ _ run
  obtain ⟨tr⟩ := sat_of_ok (pass_trace rcpr mat (options b) p [] quarters) run
  refine ⟨?_, ?_, hk.trans rfl⟩
  · have h1 := tr.hbound
    have h2 := rsat_of_ok (CascadeExample.boundary_ok _) (Q := fun q => q.left = true ∧ _) (a := q) h1
    exact h2.1
  · obtain ⟨gs, t', hd, _, _, _, hgs⟩ := annuli_rest p mat (options b) quarters [1] _ rfl (by norm_num)
      (spacing_exists _ (by norm_num)) rfl (fun k => ⟨(quarters_open k).1.le, (quarters_open k).2⟩)
    have e := tr.hmfp
    rw [hd] at e
    simp only [Except.ok.injEq, Prod.mk.injEq] at e
    obtain ⟨⟨e1, e2⟩, e3⟩ := e
    have hloop := tr.hloop
    rw [← e1, ← e2] at hloop
    have key := sat_forFold (body := collision_step rcpr mat (options b)) (E := fun _ => True)
      (fun (s : StepState ℝ) _ => s.particle_1.dir.x = 0 ∧ ∀ r ∈ s.particles, r.dir.x = 0)
      (gs.zipIdx.take ((options b).weak_collision_order + 1)) (by
        rintro ⟨g, j⟩ hg s t ⟨h1, h2⟩
        have hphi : g.phi_azimuthal = 2*Real.pi*(1/4) := by
          have := List.mem_of_mem_take hg
          obtain ⟨i, hi⟩ := List.mem_iff_getElem?.1 this
          rw [List.getElem?_zipIdx] at hi
          cases hgi : gs[i]? with
          | none => rw [hgi] at hi; cases hi
          | some g' =>
            rw [hgi] at hi
            simp only [Option.map_some, Option.some.injEq, Prod.mk.injEq] at hi
            rw [← hi.1]
            exact (hgs i g' hgi).2.2.1
        refine sat_mono (collision_step_cases rcpr mat (options b) s (g, j) t) ?_ (fun _ h => h)
        rintro s' t' (rfl | ⟨si, q', r, _, _, _, hqd, _, _, _, _, _, _, _, _, ha⟩)
        · exact ⟨h1, h2⟩
        · have hq : q'.dir.x = 0 := by rw [hqd]; simp [h1]
          constructor
          · rw [ha.moving]
            simp only [hphi]
            exact rotated_plane _ _ h1
          · obtain ⟨eb, _, hs⟩ := ha.stack
            rcases hs with hs | hs
            · rw [hs]; exact h2
            · rw [hs]
              intro r' hr'
              rcases List.mem_append.1 hr' with hr' | hr'
              · exact h2 r' hr'
              · rw [List.mem_singleton] at hr'
                subst hr'
                simp only [hphi]
                exact rotated_plane _ _ hq)
    have h3 := sat_of_ok (key _ _ ⟨hx, fun r hr => by cases hr⟩) hloop
    have hq : new = tr.s.particles := tr.hqs
    intro r hr
    exact h3.2 r (hq ▸ hr)

theorem followed (rcpr : Rcpr ℝ) (b : Bool) (ps : List (Particle ℝ)) (p : Particle ℝ) (t : Tape ℝ)
    (h : Followed rcpr mat (options b) ion quarters ps p t) :
    t = quarters ∧ (∀ r ∈ ps, r.dir.x = 0) ∧ (p.left = true ∨ p.dir.x = 0) := by
  induction h with
  | start => exact ⟨rfl, (fun r hr => by cases hr), Or.inr rfl⟩
  | pass _ h1 h2 hrun ih =>
    obtain ⟨i1, i2, i3⟩ := ih
    subst i1
    rcases i3 with i3 | i3
    · rw [h2] at i3; cases i3
    · obtain ⟨j1, j2, j3⟩ := pass rcpr b _ i3 _ _ _ hrun
      refine ⟨j3, ?_, Or.inl j1⟩
      intro r hr
      rcases List.mem_append.1 hr with hr | hr
      · exact i2 r hr
      · exact j2 r hr
  | next _ _ ih =>
    obtain ⟨i1, i2, i3⟩ := ih
    exact ⟨i1, fun r hr => i2 r (List.mem_append_left _ hr), Or.inr (i2 _ (List.mem_append_right _ List.mem_cons_self))⟩

theorem generic (rcpr : Rcpr ℝ) (b : Bool) : Generic rcpr mat (options b) ion quarters := by
  intro ps p t h hs hl
  obtain ⟨h1, h2, h3⟩ := followed rcpr b ps p t h
  rcases h3 with h3 | h3
  · rw [hl] at h3; cases h3
  · refine ⟨by rw [h3]; norm_num, ?_⟩
    intro q new t1 _ c c' x y z hb hb' hne
    have hb : Except.ok true = Except.ok c := hb
    have hb' : Except.ok true = Except.ok c' := hb'
    injection hb with hb
    injection hb' with hb'
    exact absurd (hb.symm.trans hb') hne

end SpecialRunExample

open SpecialRunExample SpecialExample Spec

/-- C96: all the hypotheses are met, so the run never panics; C95: it is the run over the real numbers. -/
example (rcpr : Rcpr ℝ) (rcpr' : Rcpr XReal) : ∃ mat' : Material XReal, SameMaterial mat mat' ∧ ∀ fuel : ℕ,
    (∃ out t', single_ion_bca rcpr fuel ion mat (SpecialRunExample.options true) quarters = .ok (out, t') ∧
      single_ion_bca rcpr' fuel ion.lift mat' (SpecialRunExample.options true).lift (liftTape quarters)
        = .ok (out.map (·.lift), liftTape t') ∧ ∀ q ∈ out, RegularParticle q) ∨
    (single_ion_bca rcpr fuel ion mat (SpecialRunExample.options true) quarters = .error .fuel ∧
      single_ion_bca rcpr' fuel ion.lift mat' (SpecialRunExample.options true).lift (liftTape quarters) = .error .fuel) := by
  obtain ⟨mat', h⟩ := same_material_exists mat
  exact ⟨mat', h, fun fuel => C96_never_panics rcpr rcpr' mat mat' h 1 target_ready target_regular _ (screened true) rfl
    (fun q i h => species_meet q i h true) ion ion_regular (meets _ rfl rfl rfl rfl true) (by
      have := unit_pos
      show unit ≤ 2*unit
      linarith) rfl rfl quarters quarters_open (generic rcpr true) fuel⟩

/-- C95: the ion of that run, without recoils: the run with infinities and NaN returns one particle, all of whose
numbers are ordinary. -/
example (rcpr : Rcpr ℝ) (rcpr' : Rcpr XReal) : ∃ (mat' : Material XReal) (q : Particle ℝ) (t1 : Tape ℝ),
    SameMaterial mat mat' ∧ q.left = true ∧ RegularParticle q ∧
    (∃ fuel, single_ion_bca rcpr fuel ion mat (SpecialRunExample.options false) quarters = .ok ([q], t1)) ∧
    ∃ fuel, single_ion_bca rcpr' fuel ion.lift mat' (SpecialRunExample.options false).lift (liftTape quarters)
      = .ok ([q.lift], liftTape t1) := by
  obtain ⟨mat', h⟩ := same_material_exists mat
  have hfit : FitParticle mat (SpecialRunExample.options false) ion := ⟨ion_regular, meets _ rfl rfl rfl rfl false, fun _ => by
    have := unit_pos
    show unit ≤ 2*unit
    linarith⟩
  have hgen := generic rcpr false _ _ _ .start rfl rfl
  obtain ⟨q, new, t1, hrun, _⟩ := fit_pass rcpr rcpr' h target_ready target_regular _ (screened false) rfl
    (fun q i h => species_meet q i h false) ion hfit rfl rfl hgen.1 quarters quarters_open hgen.2
  have hnew : new = [] := by
    obtain ⟨new', e1, _, e2⟩ := (sat_of_ok (trajectory_step_sat rcpr mat (SpecialRunExample.options false) ion [] quarters
      rfl rfl) hrun).stack
    rw [e2 rfl] at e1
    simpa using e1
  subst hnew
  obtain ⟨hleft, _, _⟩ := pass rcpr false ion rfl _ _ _ hrun
  have hsafe : SafePass rcpr mat (SpecialRunExample.options false) ion quarters q := by
    refine ⟨?_, hgen.2 _ _ _ hrun⟩
    intro p' gs t' hdet k s t'' hk _ hrun
    have hk0 : k = 0 := by
      have : k ≤ 0 := hk
      omega
    subst hk0
    cases hrun
    obtain ⟨b, hb⟩ := sat_of_ok (mfp_frame ion mat (SpecialRunExample.options false) quarters) hdet
    simp only at hb
    subst hb
    exact ⟨hgen.1, fun hbar i Z m j hZ hM hj => hfit.meets i Z m j hZ hM hj _ (hfit.cutoff hbar)⟩
  have hcas : SafeCascades rcpr mat (SpecialRunExample.options false) [ion] quarters [q] t1 :=
    .cons (.step rfl rfl hrun hsafe (.finished (Or.inr hleft))) .nil .nil
  obtain ⟨r1, r2, r3⟩ := C95_run rcpr rcpr' mat mat' h target_regular _ (screened false) ion ion_regular rfl rfl quarters t1
    quarters_open [q] hcas
  exact ⟨mat', q, t1, h, hleft, r3 q List.mem_cons_self, r1, r2⟩

end RustBCA
