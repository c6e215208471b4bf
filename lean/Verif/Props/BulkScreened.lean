import Verif.Props.Bulk

/-!
# C88: runs with screened potentials that end
-/

set_option linter.unusedSimpArgs false
set_option linter.unusedVariables false
set_option linter.unusedSectionVars false

namespace RustBCA
open Scalar Spec

/-! ## A collision with a screened potential ends -/

/-- A computation that does not go on for ever. -/
def Ends {α : Type} (x : Res α) : Prop := RSat x (fun _ => True) (fun e => e ≠ .fuel)

theorem ends_ok {α : Type} (a : α) : Ends (.ok a : Res α) := trivial
theorem ends_pure {α : Type} (a : α) : Ends (pure a : Res α) := trivial
theorem ends_panic {α : Type} (m : String) : Ends (rpanic m : Res α) := by
  show Err.panic m ≠ .fuel
  exact fun h => nomatch h

theorem ends_bind {α β : Type} {x : Res α} {f : α → Res β} (h : Ends x) (hf : ∀ a, Ends (f a)) : Ends (x >>= f) := by
  unfold Ends at *
  rw [rsat_bind]
  exact rsat_mono h (fun a _ => hf a) (fun _ h => h)

theorem ends_ite {α : Type} {c : Prop} [Decidable c] {x y : Res α} (h1 : Ends x) (h2 : Ends y) : Ends (if c then x else y) := by
  split <;> assumption

theorem ends_unwrap {α : Type} (a : Anyhow α) : Ends (unwrapA a) := by
  cases a
  · exact ends_panic _
  · exact ends_ok _

theorem ends_quadrature {F : Type} [Scalar F] {g : F → Res (Anyhow F)} (hg : ∀ x, Ends (g x)) (l : List (F × F)) :
    Ends (quadrature g l) := by
  unfold quadrature
  generalize (0.0:F) = a
  induction l generalizing a with
  | nil => exact ends_ok _
  | cons x l ih =>
    unfold forFold
    refine ends_bind (ends_bind (hg _) fun r => ends_bind (ends_unwrap r) fun v => ends_pure _) fun a => ih a

theorem ends_newton {F : Type} [Scalar F] {f df : F → Res F} (hf : ∀ x, Ends (f x)) (hdf : ∀ x, Ends (df x)) (a tol : F) :
    ∀ (n : ℕ) (x : F), Ends (newton_loop f df a tol n x) := by
  intro n
  induction n with
  | zero => intro x; exact ends_pure _
  | succ n ih =>
    intro x
    unfold newton_loop
    exact ends_bind (hf _) fun _ => ends_bind (hdf _) fun _ => ends_ite (ends_pure _) (ih _)

section
variable {F : Type} [Scalar F] {V : InteractionPotential F} (hV : Screened V)
include hV

theorem ends_phi (x : F) : Ends (phi x V) := by cases hV <;> exact ends_ok _
theorem ends_dphi (x : F) : Ends (dphi x V) := by cases hV <;> exact ends_ok _

theorem ends_potential (r a Za Zb : F) : Ends (interaction_potential r a Za Zb V) := by
  have h : Ends (screened_coulomb r a Za Zb V) := by
    unfold screened_coulomb
    exact ends_bind (ends_phi hV _) fun _ => ends_pure _
  cases hV <;> exact h

theorem ends_doca (r a Za Zb E p : F) : Ends (distance_of_closest_approach_function r a Za Zb E p V) := by
  have h : ∀ x b e, Ends (doca_function x b e V) := by
    intro x b e
    unfold doca_function
    exact ends_bind (ends_phi hV _) fun _ => ends_pure _
  cases hV <;> exact h _ _ _

theorem ends_diff_doca (r a Za Zb E p : F) : Ends (diff_distance_of_closest_approach_function r a Za Zb E p V) := by
  have h : ∀ x b e, Ends (diff_doca_function x b e V) := by
    intro x b e
    unfold diff_doca_function
    exact ends_bind (ends_dphi hV _) fun _ => ends_pure _
  cases hV <;> exact h _ _ _

theorem ends_angle (si : ScatteringIntegral) (Za Zb Ma Mb E p x : F) : Ends (scattering_angle si Za Zb Ma Mb E p x V) := by
  unfold scattering_angle
  cases si with
  | MENDENHALL_WELLER =>
    have h : ∀ x b e, Ends (scattering_integral_mw x b e V) := by
      intro x b e
      unfold scattering_integral_mw
      exact ends_bind (ends_phi hV _) fun _ => ends_pure _
    show Ends (mendenhall_weller Za Zb Ma Mb E p x V)
    unfold mendenhall_weller
    exact ends_bind (ends_dphi hV _) fun _ => ends_bind (h _ _ _) fun _ => ends_bind (h _ _ _) fun _ => ends_pure _
  | GAUSS_MEHLER n =>
    refine ends_bind (ends_quadrature (fun u => ?_) _) fun _ => ends_pure _
    exact ends_bind (ends_potential hV _ _ _ _) fun _ => ends_ite (ends_pure _) (ends_pure _)
  | GAUSS_LEGENDRE =>
    refine ends_bind (ends_quadrature (fun u => ?_) _) fun _ => ends_pure _
    exact ends_bind (ends_potential hV _ _ _ _) fun _ => ends_ite (ends_pure _) (ends_pure _)
  | MAGIC =>
    have h : Ends (magic_constants V) := by
      cases hV <;> first | exact ends_ok _ | exact ends_panic _
    show Ends (magic Za Zb Ma Mb E p x V)
    unfold magic
    exact ends_bind h fun _ => ends_bind (ends_phi hV _) fun _ => ends_bind (ends_dphi hV _) fun _ => ends_pure _

end

theorem screened_collision_ends (rcpr : Rcpr ℝ) (o : Options ℝ) (p q : Particle ℝ) (g : BinaryCollisionGeometry ℝ)
    (hE : 0 ≤ p.E*q.m/(p.m + q.m))
    (h : ∃ row row' V si, o.interaction_potential[p.interaction_index]? = some row ∧ row[q.interaction_index]? = some V ∧
      Screened V ∧ o.scattering_integral[p.interaction_index]? = some row' ∧ row'[q.interaction_index]? = some si) :
    Ends (calculate_binary_collision rcpr p q g o) := by
  obtain ⟨row, row', V, si, h1, h2, hV, h3, h4⟩ := h
  have v1 : vget o.interaction_potential p.interaction_index = .ok row := by unfold vget; rw [h1]
  have v2 : vget row q.interaction_index = .ok V := by unfold vget; rw [h2]
  have v3 : vget o.scattering_integral p.interaction_index = .ok row' := by unfold vget; rw [h3]
  have v4 : vget row' q.interaction_index = .ok si := by unfold vget; rw [h4]
  have hd : Ends (distance_of_closest_approach rcpr p q g o) := by
    have hn : Ends (newton_rootfinder p.Z q.Z p.m q.m p.E g.impact_parameter V 100 1e-6) :=
      ends_newton (fun x => ends_doca hV _ _ _ _ _ _) (fun x => ends_diff_doca hV _ _ _ _ _ _) _ _ _ _
    have hthr : (p.E*q.m/(p.m + q.m) <. (0.0:ℝ)) = false := by
      rw [lt_real_false]
      have e0 : (0.0:ℝ) = 0 := by norm_num
      rw [e0]; exact hE
    unfold distance_of_closest_approach
    simp only [v1, v2, bind, Except.bind, pure, Except.pure]
    have hb : Ends (newton_rootfinder p.Z q.Z p.m q.m p.E g.impact_parameter V 100 1e-6 >>= fun r => unwrapA r) :=
      ends_bind hn fun r => ends_unwrap r
    cases hV <;>
    · simp only [energy_threshold_single_root, hthr, Bool.false_eq_true, if_false]
      exact hb
  have e : calculate_binary_collision rcpr p q g o = (distance_of_closest_approach rcpr p q g o >>= fun x0 =>
      scattering_angle si p.Z q.Z p.m q.m p.E g.impact_parameter x0 V >>= fun theta =>
      if isNaN theta then pure (.error "Numerical error: CoM deflection angle is NaN.")
      else pure (.ok (collision_result p.m q.m p.E (screening_length p.Z q.Z V) x0 theta V))) := by
    unfold calculate_binary_collision
    simp only [v1, v2, v3, v4, bind, Except.bind]
  rw [e]
  exact ends_bind hd fun x0 => ends_bind (ends_angle hV si _ _ _ _ _ _ _) fun theta => ends_ite (ends_pure _) (ends_pure _)

/-! ## A pass ends -/

section
variable {mat : Material ℝ} {n : ℕ}

theorem screened_collision_step (rcpr : Rcpr ℝ) (hr : ReadyTarget mat n) (hm : SoundTarget mat) (o : Options ℝ) (s : StepState ℝ)
    (hp : SoundParticle s.particle_1) (hc : ScreenedWithAll mat o s.particle_1.interaction_index) (hi : s.strong_collision_index < n)
    (gk : BinaryCollisionGeometry ℝ × ℕ) (t : Tape ℝ) (ht : OpenUnit t) :
    Sat (collision_step rcpr mat o s gk) t (fun s' t' => s'.strong_collision_index < n ∧
      s'.particle_1.interaction_index = s.particle_1.interaction_index ∧ OpenUnit t') (fun e => e ≠ .fuel) := by
  obtain ⟨g, k⟩ := gk
  have hpart : Sat (choose_collision_partner s.particle_1 mat g o) t
      (fun x t1 => x.1 < n ∧ OpenUnit t1) (fun _ => False) := by
    obtain ⟨r, hrr⟩ : ∃ r, r = recoil_position s.particle_1.pos s.particle_1.dir g := ⟨_, rfl⟩
    unfold choose_collision_partner
    simp only [← hrr]
    obtain ⟨cs, hcs, hl, hc⟩ := hr.concentrations r.x r.y r.z
    obtain ⟨sp, h1, _, ⟨c, h2, _⟩, _⟩ := C27_choose mat r.x r.y r.z t cs hcs hc (hl ▸ hr.tabulated) (ht 0).1.le (ht 0).2
    rw [sat_bind, sat_iff, h1]
    refine ⟨fun sp' t1 h => ?_, fun e he => by cases he⟩
    cases h
    refine ⟨?_, fun i => ht _⟩
    rw [← hl]
    exact (List.getElem?_eq_some_iff.1 h2).1
  unfold collision_step
  simp only [sat_bind]
  refine sat_mono (sat_and hpart (sat_mono (partner_exact s.particle_1 mat g o t) (fun _ _ h => h)
    (fun _ _ => trivial))) (fun x t1 hx => ?_) (fun _ h => h.1.elim)
  obtain ⟨si, q⟩ := x
  obtain ⟨⟨hsi, ht1⟩, hP, hsp, hpos, hdir, _⟩ := hx
  simp only at hP hsp hpos hdir hsi ⊢
  obtain ⟨b1, hb1⟩ := hr.inside q.pos.x q.pos.y q.pos.z
  obtain ⟨b2, hb2⟩ := hr.barrier s.particle_1.pos.x s.particle_1.pos.y s.particle_1.pos.z
  have hb1' : mat.inside q.pos.x q.pos.y q.pos.z = .ok b1 := hb1
  have hb2' : mat.inside_energy_barrier s.particle_1.pos.x s.particle_1.pos.y s.particle_1.pos.z = .ok b2 := hb2
  simp only [sat_lift, hb1', hb2', rsat_ok]
  by_cases hcond : (b1 && b2) = true
  · rw [if_pos hcond]
    have hqm : 0 < q.m := hm.m _ (List.mem_of_getElem? hsp.2.1)
    have hpm := hp.m
    have hpE := hp.E
    have run' := screened_collision_ends rcpr o s.particle_1 q g (by positivity) (hc si q.interaction_index hsp.2.2.2.2.2)
    simp only [sat_bind, sat_lift]
    refine rsat_mono run' (fun r _ => ?_) (fun _ h => h)
    refine rsat_mono (ends_unwrap r) (fun r' _ => ?_) (fun _ h => h)
    obtain ⟨s', hs'⟩ := apply_total hr o k g si q r' s
    simp only [rsat_ok, hs']
    have hA := rsat_of_ok (apply_collision_applied mat o k g si q _ s) hs'
    have hA1 := hA.strong
    refine ⟨?_, by rw [hA.moving], ht1⟩
    by_cases hk : k = 0
    · rw [if_pos hk] at hA1
      rw [(Prod.mk.inj (Prod.mk.inj hA1).2).2]
      exact hsi
    · rw [if_neg hk] at hA1
      rw [(Prod.mk.inj (Prod.mk.inj hA1).2).2]
      exact hi
  · rw [if_neg hcond]
    exact ⟨hi, rfl, ht1⟩

theorem step_sound (rcpr : Rcpr ℝ) (hm : SoundTarget mat) (o : Options ℝ) (s : StepState ℝ) (hp : SoundParticle s.particle_1)
    (gk : BinaryCollisionGeometry ℝ × ℕ) (t : Tape ℝ) :
    Sat (collision_step rcpr mat o s gk) t (fun s' _ => CollideSound s s') (fun _ => True) := by
  have := collide_sound rcpr o hm [gk] s t hp
  simp only [forFold, sat_bind, sat_pure] at this
  exact this

theorem screened_pass_ends (rcpr : Rcpr ℝ) (hr : ReadyTarget mat n) (hm : SoundTarget mat) (o : Options ℝ) (p : Particle ℝ)
    (hp : SoundParticle p) (ps : List (Particle ℝ)) (hc : ScreenedWithAll mat o p.interaction_index) (t : Tape ℝ) (ht : OpenUnit t) :
    Sat (trajectory_step rcpr mat o p ps) t (fun _ t' => OpenUnit t') (fun e => e ≠ .fuel) := by
  have hcov : Covered mat o p n := by
    intro i hi
    have hI := hi.trans_le hr.tabulated.interaction_index
    obtain ⟨row, row', V, si, h1, h2, _⟩ := hc i _ (List.getElem?_eq_getElem hI)
    exact ⟨row, _, _, h1, List.getElem?_eq_getElem hI, h2⟩
  unfold trajectory_step
  rw [sat_bind]
  refine sat_mono (sat_and (determine_total hr p o t) (sat_and (sat_mono (mfp_frame p mat o t) (fun _ _ h => h) (fun _ _ => trivial))
    (sat_mono (sat_eq _ _) (fun _ _ h => h) (fun _ _ => trivial)))) ?_ (fun _ h => h.1.elim)
  rintro ⟨p1, gs⟩ t1 ⟨hne, ⟨b, hb⟩, hrun⟩
  simp only at hne hb hrun ⊢
  have ht1 : OpenUnit t1 := by
    obtain ⟨k, hk, _⟩ := draws_determine p mat o t _ t1 hrun
    rw [hk]; exact fun i => ht _
  have hp1 : SoundParticle p1 := by
    rw [hb]
    exact ⟨hp.m, hp.Z, hp.E, hp.Es, hp.dir⟩
  rw [sat_bind]
  have hloop := sat_forFold (E := fun e => e ≠ .fuel) (body := collision_step rcpr mat o) (fun s t' => s.strong_collision_index < n ∧
      s.particle_1.interaction_index = p.interaction_index ∧ SoundParticle s.particle_1 ∧ OpenUnit t')
    (gs.zipIdx.take (o.weak_collision_order + 1)) (by
      rintro gk _ s t' ⟨i1, i2, i4, i3⟩
      refine sat_mono (sat_and (screened_collision_step rcpr hr hm o s i4 (by rw [i2]; exact hc) i1 gk t' i3)
        (step_sound rcpr hm o s i4 gk t'))
        (fun s' t'' h => ⟨h.1.1, h.1.2.1.trans i2, h.2.moving, h.1.2.2⟩) (fun _ h => h.1)) ⟨p1, ps, 0.0, 0.0, 0.0, 0.0, 0⟩ t1
    ⟨hr.pos, (by rw [hb]), hp1, ht1⟩
  refine sat_mono hloop (fun s t2 hs => ?_) (fun _ h => h)
  obtain ⟨i1, i2, _, i3⟩ := hs
  obtain ⟨r, hr'⟩ := finish_total hr o gs hne s i1 (by unfold Covered; rw [i2]; exact hcov)
  rw [sat_lift, hr']
  exact i3

/-- The atoms set in motion start with no asymptotic deflection. -/
theorem pass_recoils (rcpr : Rcpr ℝ) (o : Options ℝ) (p : Particle ℝ) (ps : List (Particle ℝ)) (t : Tape ℝ) :
    Sat (trajectory_step rcpr mat o p ps) t (fun r _ => (∀ x ∈ ps, 0 ≤ x.asymptotic_deflection) →
      ∀ x ∈ r.2, 0 ≤ x.asymptotic_deflection) (fun _ => True) := by
  refine sat_mono (pass_trace rcpr mat o p ps t) (fun r _ hr => ?_) (fun _ _ => trivial)
  obtain ⟨tr⟩ := hr
  have e0 : (0.0 : ℝ) = 0 := by norm_num
  have key := sat_forFold (E := fun _ => True) (body := collision_step rcpr mat o)
    (fun (x : StepState ℝ) _ => (∀ y ∈ ps, 0 ≤ y.asymptotic_deflection) → ∀ y ∈ x.particles, 0 ≤ y.asymptotic_deflection)
    (tr.gs.zipIdx.take (o.weak_collision_order + 1)) ?_ ⟨tr.p1, ps, 0.0, 0.0, 0.0, 0.0, 0⟩ tr.t1
    (fun h => h)
  · have k2 := sat_of_ok key tr.hloop
    intro h x hx
    exact k2 h x (by have h6 := tr.hqs; exact h6 ▸ hx)
  · intro gk _ x t1 h2
    refine sat_mono (collision_step_cases rcpr mat o x gk t1) (fun y _ hy => ?_)
      (fun _ _ => trivial)
    rcases hy with rfl | ⟨si, q, r, _, hsp, _, _, _, _, _, hasy, _, _, _, hr, hA⟩
    · exact h2
    · intro h0
      obtain ⟨eb, _, hst⟩ := hA.stack
      rcases hst with hst | hst
      · rw [hst]; exact h2 h0
      · rw [hst]
        intro z hz
        rcases List.mem_append.mp hz with hz | hz
        · exact h2 h0 z hz
        · rw [List.mem_singleton.mp hz]; exact (hasy.trans e0).ge

end

/-- A particle whose trajectory ends, with screened potentials. -/
structure BoundScreened (mat : Material ℝ) (o : Options ℝ) (ck : ℝ) (ns : List ℝ) (σ K : ℝ) (r : Particle ℝ) : Prop where
  sound : SoundParticle r
  E : r.Ec ≤ r.E
  slowed : Slowed o ck mat.Z ns σ r.Z r.m r.Ec
  closest : ClosestBelow mat K r.Z r.m r.Ec
  asym : 0 ≤ r.asymptotic_deflection
  stopped : r.stopped = false
  left : r.left = false
  inside : IsInside mat r
  tables : ScreenedWithAll mat o r.interaction_index

section
variable (rcpr : Rcpr ℝ) {mat : Material ℝ} (o : Options ℝ) {n : ℕ} {ns : List ℝ} {ck s σ K eb : ℝ} {ion : Particle ℝ}

/-- **C88, a whole run, screened potentials.** In a target of uniform composition whose simulated volume ends with the
material, in the low-energy path-dependent stopping modes, without free-flight paths and weak collisions, the run of every
ion ends, whatever the random numbers, if recoils are not followed or no pass goes backwards: it takes no more than
`E/(σ s) + K/s + 4` passes for each of at most `E/Eb + 1` particles. -/
theorem C88_run_screened (hr : ReadyTarget mat n) (hm : SoundTarget mat) (hu : SameEverywhere mat ns ck) (hck : 0 < ck)
    (hn : 0 < ns.sum) (hs : IsSpacing ns.sum s) (hnest : BarrierEncloses mat.geometry) (hend : EndsWithMaterial mat)
    (hff : o.high_energy_free_flight_paths = false) (hliq : o.mean_free_path_model.isGaseous = false)
    (hw : o.weak_collision_order = 0)
    (hmode : o.electronic_stopping_mode = .LOW_ENERGY_NONLOCAL ∨ o.electronic_stopping_mode = .LOW_ENERGY_EQUIPARTITION)
    (hV : AllScreened o) (hσ : 0 < σ) (hslow : Slowed o ck mat.Z ns σ ion.Z ion.m ion.Ec)
    (hslow' : ∀ (i : ℕ) (Z m Ec : ℝ), mat.Z[i]? = some Z → mat.m[i]? = some m → mat.Ec[i]? = some Ec → Slowed o ck mat.Z ns σ Z m Ec)
    (hK0 : 0 ≤ K) (hK : ClosestBelow mat K ion.Z ion.m ion.Ec)
    (hK' : ∀ (i : ℕ) (Z m Ec : ℝ), mat.Z[i]? = some Z → mat.m[i]? = some m → mat.Ec[i]? = some Ec → ClosestBelow mat K Z m Ec)
    (htab : ScreenedWithAll mat o ion.interaction_index) (htab' : ∀ j ∈ mat.interaction_index, ScreenedWithAll mat o j)
    (hion : SoundParticle ion) (hE : ion.Ec ≤ ion.E) (hin : IsInside mat ion) (hst : ion.stopped = false) (hlf : ion.left = false)
    (hasy : 0 ≤ ion.asymptotic_deflection) (tape : Tape ℝ) (ht : OpenUnit tape) (fuel : ℕ)
    (hrec : o.track_recoils = false ∨ (BoundBy mat eb ∧ 0 < eb ∧ ion.E/eb + 2 ≤ fuel ∧ AlwaysForwards rcpr mat o fuel ion tape))
    (hf1 : ion.E/(σ*s) + K/s + 4 ≤ fuel) :
    single_ion_bca rcpr fuel ion mat o tape ≠ .error .fuel := by
  have hs0 := hs.1
  have hns : ∀ a ∈ ns, 0 ≤ a := hm.densities 0 0 0 ns (hu.densities 0 0 0)
  have hvac : NoVacuum mat := ⟨fun x y z h => hnest x y z (hend x y z h), fun x y z h => hnest x y z h⟩
  have hfree : NoSurfaceBinding mat ion ∨ (NoVacuum mat ∧ WithinBarrier mat ion) := Or.inr ⟨hvac, hnest _ _ _ hin⟩
  have hσs : 0 < σ*s := mul_pos hσ hs0
  have hE0 : 0 < ion.E := lt_of_lt_of_le hslow.1 hE
  have hB0 : 0 ≤ ion.E/(σ*s) + K/s + 2 := by positivity
  obtain ⟨C, hCf, hC⟩ : ∃ C : ℝ, C + 2 ≤ fuel ∧ ∀ st t, AtHead rcpr mat o fuel ion tape st t → st.particle_index = st.particles.length →
      0 < st.particle_index → (st.particle_output.length : ℝ) ≤ C ∧ ∀ r ∈ st.particles, r.E ≤ ion.E := by
    rcases hrec with htr | ⟨heb, heb0, hf2, hfw⟩
    · refine ⟨0, by linarith, fun st t hat hidx hpos => ?_⟩
      obtain ⟨h1, h2⟩ := head_alone htr hst hlf st t hat hidx hpos
      rw [h1, h2]
      simp
    · exact ⟨_, hf2, head_count hm hion (Or.inr hfw) heb heb0 hfree⟩
  have hmain := run_ends (rcpr := rcpr) (o := o) (fuel := fuel) hm hend OpenUnit (BoundScreened mat o ck ns σ K) (fun e => e ≠ .fuel)
    (ion.E/(σ*s) + K/s + 2) C ion.E (fun r h => ⟨h.sound, h.stopped, h.left, h.inside⟩)
    (fun p x ps t hp hx hxs ht => screened_pass_ends rcpr hr hm o x hxs ps (by rw [hx]; exact hp.tables) t ht) ?_ ?_
    hC ⟨hion, hE, hslow, hK, hasy, hst, hlf, hin, htab⟩ ht hB0 (by linarith) hCf
  · intro hcon
    unfold Sat at hmain
    rw [hcon] at hmain
    exact hmain rfl
  · intro x ps t q qs t' hxs hx1 hx2 hut hps hq r hrs
    have hP := sat_of_ok (pass_sound rcpr o hm hxs ps t) hq
    have hPE := sat_of_ok (trajectory_step_sat rcpr mat o x ps t hx1 hx2) hq
    have hA := sat_of_ok (pass_recoils rcpr o x ps t) hq
    simp only at hP hPE hA
    have hrs0 : r ∈ qs := hrs
    obtain ⟨new, hnew, hfr, _⟩ := hPE.stack
    rw [hnew, List.mem_append] at hrs
    rcases hrs with hrs | hrs
    · exact hps r hrs
    · have h1 := hfr r hrs
      obtain ⟨i, hi⟩ := h1.species
      have hab : r.Ec < r.energy_origin := (lt_real _ _).1 h1.above
      refine ⟨hP.stack (fun x' h => (hps x' h).sound) r hrs0, ?_, hslow' i _ _ _ hi.1 hi.2.1 hi.2.2.1,
        hK' i _ _ _ hi.1 hi.2.1 hi.2.2.1,
        hA (fun x' h => (hps x' h).asym) r hrs0, h1.stopped, h1.left, ?_, htab' _ (List.mem_of_getElem? hi.2.2.2.2.2)⟩
      · rw [h1.energy]; exact hab.le
      · have := h1.inside
        rw [← h1.pos] at this
        exact this
  · intro p k L q hpB hpE hL
    have hp0 : 0 < p.E := lt_of_lt_of_le hpB.slowed.1 hpB.E
    have h1 := C88_inside_screened rcpr o hu hm hnest hpB.sound hmode hck hns hn hs hff hliq hpB.slowed.1 hp0 hV hw hpB.E hpB.asym K hK0
      hpB.closest k L _ hL
    have h2 : p.E/(pathStopping o.electronic_stopping_mode ck mat.Z ns p.Z p.m p.Ec*s) ≤ ion.E/(σ*s) := by
      refine div_le_div₀ hE0.le hpE hσs (mul_le_mul_of_nonneg_right hpB.slowed.2 hs0.le)
    linarith

/-- **C88, a whole run, screened potentials: the result.** If moreover every particle can meet every species (C96) and
no particle of the run moves exactly along the x axis or lands exactly on the surface, the run returns. -/
theorem C88_run_screened_result (hr : ReadyTarget mat n) (hm : RegularTarget mat) (hu : SameEverywhere mat ns ck)
    (hs : IsSpacing ns.sum s) (hnest : BarrierEncloses mat.geometry) (hend : EndsWithMaterial mat)
    (hff : o.high_energy_free_flight_paths = false) (hliq : o.mean_free_path_model.isGaseous = false)
    (hw : o.weak_collision_order = 0)
    (hmode : o.electronic_stopping_mode = .LOW_ENERGY_NONLOCAL ∨ o.electronic_stopping_mode = .LOW_ENERGY_EQUIPARTITION)
    (hV : AllScreened o) (hσ : 0 < σ) (hslow : Slowed o ck mat.Z ns σ ion.Z ion.m ion.Ec)
    (hslow' : ∀ (i : ℕ) (Z m Ec : ℝ), mat.Z[i]? = some Z → mat.m[i]? = some m → mat.Ec[i]? = some Ec → Slowed o ck mat.Z ns σ Z m Ec)
    (hK0 : 0 ≤ K) (hK : ClosestBelow mat K ion.Z ion.m ion.Ec)
    (hK' : ∀ (i : ℕ) (Z m Ec : ℝ), mat.Z[i]? = some Z → mat.m[i]? = some m → mat.Ec[i]? = some Ec → ClosestBelow mat K Z m Ec)
    (htab : ScreenedWithAll mat o ion.interaction_index) (htab' : ∀ j ∈ mat.interaction_index, ScreenedWithAll mat o j)
    (hsp : ∀ q i, IsSpecies mat i q → MeetsAll mat o q) (hmeet : MeetsAll mat o ion)
    (hion : RegularParticle ion) (hE : ion.Ec ≤ ion.E) (hin : IsInside mat ion) (hst : ion.stopped = false) (hlf : ion.left = false)
    (hasy : 0 ≤ ion.asymptotic_deflection) (tape : Tape ℝ) (ht : OpenUnit tape) (gen : Generic rcpr mat o ion tape) (fuel : ℕ)
    (hrec : o.track_recoils = false ∨ (BoundBy mat eb ∧ 0 < eb ∧ ion.E/eb + 2 ≤ fuel ∧ AlwaysForwards rcpr mat o fuel ion tape))
    (hf1 : ion.E/(σ*s) + K/s + 4 ≤ fuel) :
    ∃ out tape', single_ion_bca rcpr fuel ion mat o tape = .ok (out, tape') := by
  have h1 := C88_run_screened rcpr o hr hm.sound hu (hm.ck_pos 0 0 0 ck (hu.ck 0 0 0)) (hm.density 0 0 0 ns (hu.densities 0 0 0)) hs hnest
    hend hff hliq hw hmode hV hσ hslow hslow' hK0 hK hK' htab htab' hion.sound hE hin hst hlf hasy tape ht fuel hrec hf1
  obtain ⟨mat', hmat'⟩ := same_material_exists mat
  obtain ⟨rcpr', _⟩ : ∃ r : Rcpr XReal, True := ⟨⟨false, fun _ _ => .ok [], fun _ _ _ _ _ => .ok (.ok []), fun _ _ _ _ _ _ => .ok (.ok [])⟩, trivial⟩
  rcases C96_never_panics rcpr rcpr' mat mat' hmat' n hr hm o hV hw hsp ion hion hmeet hE hst hlf tape ht gen fuel with
    ⟨out, t', h, _⟩ | ⟨h, _⟩
  · exact ⟨out, t', h⟩
  · exact absurd h h1

end

end RustBCA
