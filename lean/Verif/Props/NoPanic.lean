import Verif.Props.SpecialRun
import Verif.Props.FreePaths
import Verif.Spec.NoPanic

/-!
# C96: a run does not fail
-/

namespace RustBCA
open Scalar Spec

set_option linter.unusedSimpArgs false
set_option linter.unusedVariables false

/-- Every target can be read over the extended numbers. -/
theorem same_material_exists (mat : Material ℝ) : ∃ mat', SameMaterial mat mat' := by
  let v : XReal → ℝ := fun a => match a with
    | .fin x => x
    | _ => 0
  refine ⟨{
    m := mat.m.map .fin
    Z := mat.Z.map .fin
    Eb := mat.Eb.map .fin
    Es := mat.Es.map .fin
    Ec := mat.Ec.map .fin
    Ed := mat.Ed.map .fin
    interaction_index := mat.interaction_index
    surface_binding_model := mat.surface_binding_model
    bulk_binding_model := mat.bulk_binding_model
    geometry := {
      get_densities := fun x y z => (mat.geometry.get_densities (v x) (v y) (v z)).map (·.map .fin)
      get_ck := fun x y z => (mat.geometry.get_ck (v x) (v y) (v z)).map .fin
      get_total_density := fun x y z => (mat.geometry.get_total_density (v x) (v y) (v z)).map .fin
      get_concentrations := fun x y z => (mat.geometry.get_concentrations (v x) (v y) (v z)).map (·.map .fin)
      inside := fun x y z => mat.geometry.inside (v x) (v y) (v z)
      inside_simulation_boundary := fun x y z => mat.geometry.inside_simulation_boundary (v x) (v y) (v z)
      inside_energy_barrier := fun x y z => mat.geometry.inside_energy_barrier (v x) (v y) (v z)
      closest_point := fun x y z => (mat.geometry.closest_point (v x) (v y) (v z)).map
        fun c => (.fin c.1, .fin c.2.1, .fin c.2.2) } }, ?_⟩
  exact ⟨rfl, rfl, rfl, rfl, rfl, rfl, rfl, rfl, rfl, ⟨fun _ _ _ => rfl, fun _ _ _ => rfl, fun _ _ _ => rfl,
    fun _ _ _ => rfl, fun _ _ _ => rfl, fun _ _ _ => rfl, fun _ _ _ => rfl, fun _ _ _ => rfl⟩⟩

section
variable {mat : Material ℝ} {n : ℕ}

theorem Spec.ReadyTarget.average (hr : ReadyTarget mat n) (l : List ℝ) (x y z : ℝ) :
    ∃ a, (Material.weighted_sum l <$> mat.geometry.get_concentrations x y z) = .ok a := by
  obtain ⟨cs, hcs, _⟩ := hr.concentrations x y z
  rw [hcs]
  exact ⟨_, rfl⟩

theorem Spec.ReadyTarget.total (hr : ReadyTarget mat n) (x y z : ℝ) :
    ∃ a, mat.total_number_density x y z = .ok a := by
  obtain ⟨cs, hcs, _⟩ := hr.densities x y z
  unfold Material.total_number_density
  rw [hcs]
  exact ⟨_, rfl⟩

theorem Spec.ReadyTarget.mfp (hr : ReadyTarget mat n) (x y z : ℝ) : ∃ a, mat.mfp x y z = .ok a := by
  obtain ⟨a, ha⟩ := hr.total x y z
  unfold Material.mfp
  rw [ha]
  exact ⟨_, rfl⟩

theorem Spec.ReadyTarget.pos (hr : ReadyTarget mat n) : 0 < n := by
  obtain ⟨cs, _, h1, h2⟩ := hr.concentrations 0 0 0
  rw [← h1, List.length_pos_iff]
  rintro rfl
  have := h2.2
  simp at this

theorem Spec.ReadyTarget.stopping (hr : ReadyTarget mat n) (p : Particle ℝ) (mode : ElectronicStoppingMode) :
    ∃ ss, mat.electronic_stopping_cross_sections p mode = .ok ss ∧ ss.length = n := by
  obtain ⟨ck, hck⟩ := hr.ck p.pos.x p.pos.y p.pos.y
  obtain ⟨ds, hds, hl⟩ := hr.densities p.pos.x p.pos.y p.pos.y
  unfold Material.electronic_stopping_cross_sections Material.electronic_stopping_correction_factor
    Material.number_densities
  simp only [hck, hds, bind, Except.bind, pure, Except.pure]
  refine ⟨_, rfl, ?_⟩
  rw [List.length_map, List.length_zip, hl]
  exact min_eq_left hr.tabulated.Z

theorem ffp_limits_total (hr : ReadyTarget mat n) (p : Particle ℝ) : ∃ r, ffp_limits p mat = .ok r := by
  obtain ⟨a, ha⟩ := hr.average mat.m p.pos.x p.pos.y p.pos.z
  obtain ⟨b, hb⟩ := hr.average mat.Z p.pos.x p.pos.y p.pos.z
  obtain ⟨ds, hds, _⟩ := hr.densities p.pos.x p.pos.y p.pos.z
  obtain ⟨ck, hck⟩ := hr.ck p.pos.x p.pos.y p.pos.z
  obtain ⟨tt, htt⟩ := hr.total p.pos.x p.pos.y p.pos.z
  obtain ⟨ss, hss, _⟩ := hr.stopping p .INTERPOLATED
  unfold ffp_limits Material.average_mass Material.average_Z Material.number_densities
    Material.electronic_stopping_correction_factor
  simp only [ha, hb, hds, hck, htt, hss, bind, Except.bind, pure, Except.pure]
  split <;> exact ⟨_, rfl⟩

/-- Drawing the collision geometries never fails. -/
theorem determine_total (hr : ReadyTarget mat n) (p : Particle ℝ) (o : Options ℝ) (t : Tape ℝ) :
    Sat (determine_mfp_phi_impact_parameter p mat o) t (fun r _ => r.2 ≠ []) (fun _ => False) := by
  obtain ⟨mfp, hmfp⟩ := hr.mfp p.pos.x p.pos.y p.pos.z
  obtain ⟨⟨pmax, ffp⟩, hl⟩ := ffp_limits_total hr p
  obtain ⟨ds, hds, _⟩ := hr.densities p.pos.x p.pos.y p.pos.z
  have key : ∀ (c : Particle ℝ) (m n : ℝ) (tt : Tape ℝ),
      Sat (if c.first_step then do
          let r ← random
          pure ({ c with first_step := false }, m*r)
        else pure (c, n) : M ℝ (Particle ℝ × ℝ)) tt (fun _ t1 => True) (fun _ => False) := by
    intro c m n tt
    by_cases hf : c.first_step = true
    · rw [if_pos hf]
      simp only [sat_bind, sat_random, sat_pure]
    · rw [if_neg hf]
      exact trivial
  have key2 : ∀ (tt : Tape ℝ), Sat (exponential : M ℝ ℝ) tt (fun _ t1 => True) (fun _ => False) := by
    intro tt
    unfold exponential
    simp only [sat_bind, sat_random, sat_pure]
  have key3 : ∀ (f1 : ℝ) (tt : Tape ℝ), Sat (if o.mean_free_path_model.isGaseous then do
          let e ← exponential
          pure (f1*e)
        else pure f1 : M ℝ ℝ) tt (fun _ t3 => True) (fun _ => False) := by
    intro f1 tt
    split
    · simp only [sat_bind, sat_pure]
      exact key2 _
    · exact trivial
  unfold determine_mfp_phi_impact_parameter
  rw [sat_bind, sat_lift, hmfp, rsat_ok]
  rw [sat_bind]
  unfold draw_phis
  rw [sat_iff]
  rw [collect_random (fun k r => 2.0*pi*r) _ t]
  refine ⟨fun phis t1 hphi => ?_, fun e he => by cases he⟩
  have hp := Prod.mk.inj (Except.ok.inj hphi)
  have hlen : phis.length = o.weak_collision_order + 1 := by
    rw [← hp.1, List.length_map, List.length_range]
  obtain ⟨phi0, hphi0⟩ : ∃ a, vget phis 0 = .ok a := ⟨_, vget_ok (by omega : 0 < phis.length)⟩
  by_cases hff : o.high_energy_free_flight_paths = true
  · rw [if_pos hff, sat_bind, sat_lift, hl, rsat_ok]
    simp only
    by_cases hc : (ffp <. mfp) = true
    · rw [if_pos hc]
      simp only [sat_bind, sat_random]
      refine sat_mono (key _ _ _ _) (fun x t2 _ => ?_) (fun _ h => h)
      obtain ⟨p1, f1⟩ := x
      simp only [sat_bind]
      refine sat_mono (R := fun _ t3 => True) (E := fun _ => False) ?_ (fun e t3 _ => ?_) (fun _ h => h)
      · cases o.mean_free_path_model with
        | GASEOUS => exact key2 _
        | LIQUID => exact trivial
        | THRESHOLD d =>
          simp only [sat_bind, sat_lift, hds, rsat_ok]
          split
          · exact key2 _
          · exact trivial
      · simp only [sat_lift, hphi0, rsat_ok, sat_pure]
        exact List.cons_ne_nil _ _
    · rw [if_neg hc]
      simp only [sat_bind, sat_random]
      refine sat_mono (key _ _ _ _) (fun x t2 _ => ?_) (fun _ h => h)
      obtain ⟨p1, f1⟩ := x
      simp only [sat_bind]
      refine sat_mono (key3 _ _) (fun e t3 _ => ?_) (fun _ h => h)
      simp only [sat_lift, hphi0, rsat_ok, sat_pure]
      exact List.cons_ne_nil _ _
  · rw [if_neg hff]
    rw [sat_bind, sat_iff]
    rw [collect_random (fun k r => mfp/SQRTPI ℝ*Scalar.sqrt (r + ofNat k)) _ t1]
    refine ⟨fun ps t2 hps => ?_, fun e he => by cases he⟩
    have hps' := Prod.mk.inj (Except.ok.inj hps)
    rw [sat_bind]
    refine sat_mono (key _ _ _ _) (fun x t3 _ => ?_) (fun _ h => h)
    obtain ⟨p1, f1⟩ := x
    simp only [sat_bind]
    refine sat_mono (key3 _ _) (fun e t4 _ => ?_) (fun _ h => h)
    simp only [sat_pure]
    rw [← List.length_pos_iff, List.length_map, List.length_zip, hlen, ← hps'.1, List.length_map, List.length_range]
    omega

theorem keep_total (hr : ReadyTarget mat n) (p q : Particle ℝ) (o : Options ℝ) :
    ∃ b, keep_recoil p q mat o = .ok b := by
  obtain ⟨tt, htt⟩ := hr.total q.pos.x q.pos.y q.pos.z
  obtain ⟨⟨c1, c2, c3⟩, hc⟩ := hr.closest q.pos.x q.pos.y q.pos.z
  unfold keep_recoil Material.closest_point
  split
  · simp only [htt, hc, bind, Except.bind, pure, Except.pure]
    exact ⟨_, rfl⟩
  · exact ⟨_, rfl⟩

theorem apply_total (hr : ReadyTarget mat n) (o : Options ℝ) (k : Nat) (g : BinaryCollisionGeometry ℝ) (si : Nat)
    (q : Particle ℝ) (r : BinaryCollisionResult ℝ) (s : StepState ℝ) :
    ∃ s', apply_collision mat o k g si q r s = .ok s' := by
  obtain ⟨eb, heb⟩ := hr.average mat.Eb q.pos.x q.pos.y q.pos.z
  have h : RSat (apply_collision mat o k g si q r s) (fun _ => True) (fun _ => False) := by
    unfold apply_collision
    have heb' : mat.average_bulk_binding_energy q.pos.x q.pos.y q.pos.z = .ok eb := heb
    simp only [rsat_bind, heb', rsat_ok]
    rw [rsat_iff]
    exact ⟨fun b _ => trivial, fun e he => by obtain ⟨b, hb⟩ := keep_total hr _ _ o; rw [hb] at he; cases he⟩
  cases hx : apply_collision mat o k g si q r s with
  | ok s' => exact ⟨s', rfl⟩
  | error e => rw [hx] at h; exact h.elim

/-- One pass of the collision loop never fails. -/
theorem collision_step_total (rcpr : Rcpr ℝ) (hr : ReadyTarget mat n) (hm : RegularTarget mat) (o : Options ℝ)
    (s : StepState ℝ) (hp : RegularParticle s.particle_1) (hs : MayCollide mat o s.particle_1)
    (hi : s.strong_collision_index < n)
    (g : BinaryCollisionGeometry ℝ) (hg : 0 < g.impact_parameter) (k : Nat) (t : Tape ℝ) (ht : OpenUnit t) :
    Sat (collision_step rcpr mat o s (g, k)) t (fun s' t' => s'.strong_collision_index < n ∧ OpenUnit t')
      (fun _ => False) := by
  have hpart : Sat (choose_collision_partner s.particle_1 mat g o) t
      (fun x t1 => x.1 < n ∧ OpenUnit t1) (fun _ => False) := by
    obtain ⟨r, hrr⟩ : ∃ r, r = recoil_position s.particle_1.pos s.particle_1.dir g := ⟨_, rfl⟩
    unfold choose_collision_partner
    simp only [← hrr]
    obtain ⟨cs, hcs, hl, hc⟩ := hr.concentrations r.x r.y r.z
    obtain ⟨sp, h1, _, ⟨c, h2, _⟩, _⟩ := C27_choose mat r.x r.y r.z t cs hcs hc (hl ▸ hr.tabulated) (ht 0).1.le (ht 0).2
    rw [sat_bind, sat_iff, h1]
    refine ⟨fun sp' t1 h => ?_, fun e he => by cases he⟩
    cases h
    refine ⟨?_, ht.next⟩
    rw [← hl]
    exact (List.getElem?_eq_some_iff.1 h2).1
  unfold collision_step
  simp only [sat_bind]
  refine sat_mono (sat_and hpart (sat_mono (partner_exact s.particle_1 mat g o t) (fun _ _ h => h)
    (fun _ _ => trivial))) (fun x t1 hx => ?_) (fun _ h => h.1)
  obtain ⟨si, q⟩ := x
  obtain ⟨⟨hsi, ht1⟩, hP, hsp, hpos, hdir, _⟩ := hx
  simp only at hP hsp hpos hdir hsi ⊢
  obtain ⟨b1, hb1⟩ := hr.inside q.pos.x q.pos.y q.pos.z
  obtain ⟨b2, hb2⟩ := hr.barrier s.particle_1.pos.x s.particle_1.pos.y s.particle_1.pos.z
  have hb1' : mat.inside q.pos.x q.pos.y q.pos.z = .ok b1 := hb1
  have hb2' : mat.inside_energy_barrier s.particle_1.pos.x s.particle_1.pos.y s.particle_1.pos.z = .ok b2 := hb2
  simp only [sat_lift, hb1', hb2', rsat_ok]
  by_cases hc : (b1 && b2) = true
  · rw [if_pos hc]
    rw [Bool.and_eq_true] at hc
    obtain ⟨hc1, hc2⟩ := hc
    subst hc2
    have hZ : 0 < q.Z := hm.Z_pos _ (List.mem_of_getElem? hsp.1)
    have hM : 0 < q.m := hm.m_pos _ (List.mem_of_getElem? hsp.2.1)
    obtain ⟨row, V, row', sint, h1, h2, h3, h4, hV, hE, hI⟩ :=
      hs.2 hb2 si q.Z q.m q.interaction_index hsp.1 hsp.2.1 hsp.2.2.2.2.2
    have enc : Encounter XReal.fin V.lift sint s.particle_1.Z q.Z s.particle_1.m q.m s.particle_1.E g.impact_parameter
        s.lift.particle_1 q.lift g.lift o.lift :=
      ⟨rfl, rfl, rfl, rfl, rfl, rfl, XReal.lift_row h1 h2, ⟨row', h3, h4⟩⟩
    have enc' : Encounter id V sint s.particle_1.Z q.Z s.particle_1.m q.m s.particle_1.E g.impact_parameter
        s.particle_1 q g o :=
      ⟨rfl, rfl, rfl, rfl, rfl, rfl, ⟨row, h1, h2⟩, ⟨row', h3, h4⟩⟩
    obtain ⟨theta, psi, psi', T, d, x, run, _, _, _, _, _, _, hT, _, hreal⟩ := C93_collision_partial
      ⟨false, fun _ _ => .error "", fun _ _ _ _ _ => .ok (.error ""), fun _ _ _ _ _ _ => .ok (.error "")⟩
      s.lift.particle_1 q.lift g.lift o.lift V hV sint s.particle_1.Z q.Z s.particle_1.m q.m s.particle_1.E
      g.impact_parameter enc hp.Z_pos hZ hp.m_pos hM hg hE hI
    have run' := hreal rcpr s.particle_1 q g o enc'
    simp only [sat_bind, sat_lift, run', rsat_ok]
    obtain ⟨s', hs'⟩ := apply_total hr o k g si q
      { theta := theta
        psi := psi
        psi_recoil := psi'
        recoil_energy := T
        asymptotic_deflection := d
        normalized_distance_of_closest_approach := x } s
    simp only [unwrapA, rsat_ok, hs']
    have hA := (rsat_of_ok (apply_collision_applied mat o k g si q _ s) hs').strong
    refine ⟨?_, ht1⟩
    by_cases hk : k = 0
    · rw [if_pos hk] at hA
      rw [(Prod.mk.inj (Prod.mk.inj hA).2).2]
      exact hsi
    · rw [if_neg hk] at hA
      rw [(Prod.mk.inj (Prod.mk.inj hA).2).2]
      exact hi
  · rw [if_neg hc]
    exact ⟨hi, ht1⟩

theorem forFold_total {σ α : Type} {body : σ → α → M ℝ σ} (I : σ → Tape ℝ → Prop) : ∀ (l : List α) (s : σ) (t : Tape ℝ),
    I s t → (∀ k i s' t', l[k]? = some i → forFold body (l.take k) s t = .ok (s', t') → I s' t' →
      Sat (body s' i) t' I (fun _ => False)) → Sat (forFold body l s) t I (fun _ => False) := by
  intro l
  induction l with
  | nil => intro s t hI _; exact hI
  | cons i l ih =>
    intro s t hI h
    unfold forFold
    rw [sat_bind, sat_iff]
    have h0 := h 0 i s t rfl rfl hI
    refine ⟨fun s1 t1 h1 => ?_, fun e he => by unfold Sat at h0; rw [he] at h0; exact h0⟩
    refine ih s1 t1 (sat_of_ok (sat_mono h0 (fun _ _ h => h) (fun _ _ => trivial)) h1) fun k j s' t' hj hrun => ?_
    refine h (k + 1) j s' t' hj ?_
    show (body s i >>= forFold body (l.take k)) t = _
    simp only [Bind.bind, StateT.bind, Except.bind, h1]
    exact hrun

theorem surface_total (hr : ReadyTarget mat n) (p : Particle ℝ) : ∃ q, surface_binding_energy p mat = .ok q := by
  obtain ⟨cs, hcs, _⟩ := hr.concentrations p.pos_old.x p.pos_old.y p.pos_old.z
  obtain ⟨b1, hb1⟩ := hr.barrier p.pos.x p.pos.y p.pos.z
  obtain ⟨b2, hb2⟩ := hr.barrier p.pos_old.x p.pos_old.y p.pos_old.z
  obtain ⟨⟨c1, c2, c3⟩, hc⟩ := hr.closest p.pos.x p.pos.y p.pos.z
  have hEs : ∃ Es, mat.actual_surface_binding_energy p p.pos_old.x p.pos_old.y p.pos_old.z = .ok Es := by
    unfold Material.actual_surface_binding_energy
    simp only [hcs, bind, Except.bind]
    cases mat.surface_binding_model with
    | TARGET => simp only; split <;> exact ⟨_, rfl⟩
    | INDIVIDUAL => exact ⟨_, rfl⟩
    | AVERAGE => simp only; split <;> exact ⟨_, rfl⟩
    | ISOTROPIC c => cases c <;> simp only <;> (try split) <;> exact ⟨_, rfl⟩
    | PLANAR c => cases c <;> simp only <;> (try split) <;> exact ⟨_, rfl⟩
  obtain ⟨Es, hEs⟩ := hEs
  unfold surface_binding_energy Material.inside_energy_barrier
  simp only [hEs, hb1, hb2, bind, Except.bind]
  cases b1 <;> cases b2
  · exact ⟨_, rfl⟩
  · simp only [Bool.not_false, Bool.and_self, Bool.false_eq_true, if_false, if_true, Bool.not_true, Bool.and_false, pure,
      Except.pure]
    unfold surface_leaving Material.closest_point
    simp only [hc, bind, Except.bind]
    cases mat.surface_binding_model <;> (repeat' split) <;> exact ⟨_, rfl⟩
  · simp only [Bool.not_false, Bool.and_self, Bool.false_eq_true, if_false, if_true, Bool.not_true, Bool.and_false, pure,
      Except.pure]
    have : ∃ q, surface_entering p mat Es = .ok q := by
      unfold surface_entering Material.closest_point
      split
      · exact ⟨_, rfl⟩
      · simp only [hc, bind, Except.bind]
        cases mat.surface_binding_model <;> exact ⟨_, rfl⟩
    obtain ⟨q, hq⟩ := this
    simp only [hq]
    exact ⟨_, rfl⟩
  · exact ⟨_, rfl⟩

theorem boundary_total (hr : ReadyTarget mat n) (p : Particle ℝ) : ∃ q, boundary_condition_planar p mat = .ok q := by
  obtain ⟨b1, hb1⟩ := hr.boundary p.pos.x p.pos.y p.pos.z
  obtain ⟨b2, hb2⟩ := hr.barrier p.pos.x p.pos.y p.pos.z
  have h : RSat (boundary_condition_planar p mat) (fun _ => True) (fun _ => False) := by
    unfold boundary_condition_planar Material.inside_simulation_boundary Material.inside_energy_barrier
    simp only [rsat_bind, hb1, hb2, rsat_ok]
    have key : ∀ (c : Prop) [Decidable c] (P : Particle ℝ), RSat (if c then surface_binding_energy P mat else pure P)
        (fun _ => True) (fun _ => False) := by
      intro c _ P
      split
      · obtain ⟨q, hq⟩ := surface_total hr P
        rw [hq]
        exact trivial
      · exact trivial
    exact key _ _
  cases hx : boundary_condition_planar p mat with
  | ok s' => exact ⟨s', rfl⟩
  | error e => rw [hx] at h; exact h.elim

/-- The options have an interaction potential for the particle and every species. -/
def Covered (mat : Material ℝ) (o : Options ℝ) (p : Particle ℝ) (n : ℕ) : Prop :=
  ∀ i < n, ∃ row j V, o.interaction_potential[p.interaction_index]? = some row ∧
    mat.interaction_index[i]? = some j ∧ row[j]? = some V

theorem subtract_total (hr : ReadyTarget mat n) (p : Particle ℝ) (d x0 Z : ℝ) (i : ℕ) (hi : i < n) (o : Options ℝ)
    (hc : Covered mat o p n) : ∃ r, subtract_electronic_stopping_energy p mat d x0 Z i o = .ok r := by
  obtain ⟨b1, hb1⟩ := hr.inside p.pos.x p.pos.y p.pos.z
  obtain ⟨ds, hds, _⟩ := hr.densities p.pos.x p.pos.y p.pos.z
  obtain ⟨ss, hss, hsl⟩ := hr.stopping p o.electronic_stopping_mode
  obtain ⟨row, j, V, h1, h2, h3⟩ := hc i hi
  have hs : ss[i]? = some (ss[i]'(by omega)) := List.getElem?_eq_getElem _
  have h : RSat (subtract_electronic_stopping_energy p mat d x0 Z i o) (fun _ => True) (fun _ => False) := by
    have hb1' : mat.inside p.pos.x p.pos.y p.pos.z = .ok b1 := hb1
    have hds' : mat.number_densities p.pos.x p.pos.y p.pos.z = .ok ds := hds
    have v1 : vget o.interaction_potential p.interaction_index = .ok row := by unfold vget; rw [h1]
    have v2 : vget mat.interaction_index i = .ok j := by unfold vget; rw [h2]
    have v3 : vget row j = .ok V := by unfold vget; rw [h3]
    have v4 : vget ss i = .ok (ss[i]'(by omega)) := by unfold vget; rw [hs]
    unfold subtract_electronic_stopping_energy
    simp only [rsat_bind, rassert, isNaN_real, Bool.not_false, if_true, rsat_pure, hb1', hss, hds', v1, v2, v3, rsat_ok]
    split
    · simp only [rsat_bind, rsat_ok, hss]
      cases hmode : o.electronic_stopping_mode <;>
        simp only [v3, v4, bind, Except.bind, rsat_ok, rsat_pure]
    · exact trivial
  cases hx : subtract_electronic_stopping_energy p mat d x0 Z i o with
  | ok s' => exact ⟨s', rfl⟩
  | error e => rw [hx] at h; exact h.elim

theorem finish_total (hr : ReadyTarget mat n) (o : Options ℝ) (gs : List (BinaryCollisionGeometry ℝ)) (hg : gs ≠ [])
    (s : StepState ℝ) (hi : s.strong_collision_index < n) (hc : Covered mat o s.particle_1 n) :
    ∃ r, finish_step mat o gs s = .ok r := by
  obtain ⟨g0, hg0⟩ : ∃ g0, vget gs 0 = .ok g0 := ⟨_, vget_ok (List.length_pos_iff.2 hg)⟩
  have hadv : (s.particle_1.advance g0.mfp s.total_asymptotic_deflection).1.interaction_index
      = s.particle_1.interaction_index := by
    unfold Particle.advance
    by_cases hc : (s.particle_1.E >. s.particle_1.Ec) = true
    · obtain ⟨l, hl⟩ := utt_same s.particle_1
      simp only [hc, if_true, hl]
    · simp only [hc, Bool.false_eq_true, if_false]
  obtain ⟨⟨p3, el⟩, h3⟩ := subtract_total hr (s.particle_1.advance g0.mfp s.total_asymptotic_deflection).1
    (s.particle_1.advance g0.mfp s.total_asymptotic_deflection).2 s.normalized_distance_of_closest_approach
    s.strong_collision_Z s.strong_collision_index hi o (by unfold Covered; rw [hadv]; exact hc)
  unfold finish_step
  simp only [hg0, bind, Except.bind, h3]
  obtain ⟨q, hq⟩ := boundary_total hr (p3.update_energy_loss_tracker o s.total_energy_lost_to_recoils el)
  simp only [hq]
  exact ⟨_, rfl⟩

/-- **C96, one pass.** In a target in which every question has an answer, a pass of a regular particle that can meet
the species of the target whenever it looks for a collision partner never fails. -/
theorem C96_pass (rcpr : Rcpr ℝ) (hr : ReadyTarget mat n) (hm : RegularTarget mat) (o : Options ℝ)
    (p : Particle ℝ) (hp : RegularParticle p) (hc : Covered mat o p n) (ps : List (Particle ℝ)) (t : Tape ℝ)
    (ht : OpenUnit t)
    (hsafe : ∀ p' gs t', determine_mfp_phi_impact_parameter p mat o t = .ok ((p', gs), t') →
      ∀ (k : ℕ) s t'', k ≤ o.weak_collision_order → k < gs.length →
        forFold (collision_step rcpr mat o) (gs.zipIdx.take k) ⟨p', [], 0, 0, 0, 0, 0⟩ t' = .ok (s, t'') → MayCollide mat o s.particle_1) :
    ∃ q new t1, trajectory_step rcpr mat o p ps t = .ok ((q, ps ++ new), t1) := by
  obtain ⟨mat', h⟩ := same_material_exists mat
  suffices hmain : Sat (trajectory_step rcpr mat o p []) t (fun _ _ => True) (fun _ => False) by
    cases hx : trajectory_step rcpr mat o p [] t with
    | error e => unfold Sat at hmain; rw [hx] at hmain; exact hmain.elim
    | ok x =>
      obtain ⟨⟨q, new⟩, t1⟩ := x
      exact ⟨q, new, t1, step_below ps hx⟩
  have e0 : (0.0:ℝ) = 0 := by norm_num
  unfold trajectory_step
  rw [sat_bind]
  refine sat_mono (sat_and (determine_total hr p o t) (sat_and (sat_mono (determine_pos h hm hp o ht) (fun _ _ h => h)
    (fun _ _ => trivial)) (sat_and (sat_mono (mfp_frame p mat o t) (fun _ _ h => h) (fun _ _ => trivial))
    (sat_mono (sat_eq _ _) (fun _ _ h => h) (fun _ _ => trivial))))) ?_ (fun _ h => h.1)
  rintro ⟨p1, gs⟩ t1 ⟨hne, ⟨hg, ht1⟩, ⟨b, hb⟩, hrun⟩
  simp only at hne hg hb hrun ⊢
  have hp1 : RegularParticle p1 := by
    rw [hb]
    exact ⟨⟨hp.sound.m, hp.sound.Z, hp.sound.E, hp.sound.Es, hp.sound.dir⟩, hp.Ec_pos, hp.unit⟩
  rw [sat_bind]
  have hloop := forFold_total (body := collision_step rcpr mat o) (fun s t' => RegularParticle s.particle_1 ∧
      (∀ r ∈ s.particles, RegularParticle r) ∧ 0 ≤ s.strong_collision_Z ∧ s.strong_collision_index < n ∧
      s.particle_1.interaction_index = p.interaction_index ∧ OpenUnit t')
    (gs.zipIdx.take (o.weak_collision_order + 1)) ⟨p1, [], 0.0, 0.0, 0.0, 0.0, 0⟩ t1
    ⟨hp1, (fun r hr => by cases hr), e0.ge, hr.pos, (by rw [hb]), ht1⟩ (by
      intro k i s' t' hi hrun' hI
      obtain ⟨i1, i2, i3, i4, i5, i6⟩ := hI
      obtain ⟨g, j⟩ := i
      have hk : k < (gs.zipIdx.take (o.weak_collision_order + 1)).length := (List.getElem?_eq_some_iff.1 hi).1
      have hk1 : k < gs.length := by
        rw [List.length_take, List.length_zipIdx] at hk
        omega
      have hk2 : k < o.weak_collision_order + 1 := by
        rw [List.length_take] at hk
        omega
      rw [List.take_take, min_eq_left hk2.le] at hrun'
      have hmay := hsafe p1 gs t1 hrun k s' t' (by omega) hk1 (by rw [e0] at hrun'; exact hrun')
      have hmem : g ∈ gs := by
        have := List.mem_of_mem_take (List.mem_of_getElem? hi)
        exact List.fst_mem_of_mem_zipIdx this
      refine sat_mono (sat_and (collision_step_total rcpr hr hm o s' i1 hmay i4 g (hg g hmem) j t' i6)
        (sat_and (sat_mono (XReal.collision_step_regular rcpr hm o s' i1 hmay.1 i2 i3 (g, j) t') (fun _ _ h => h)
          (fun _ _ => trivial)) (sat_mono (collision_step_sat rcpr mat o s' (g, j) t') (fun _ _ h => h)
          (fun _ _ => trivial)))) (fun s'' t'' hh => ?_) (fun _ h => h.1)
      obtain ⟨⟨j1, j2⟩, ⟨j3, j4, j5⟩, j6⟩ := hh
      obtain ⟨E, dir, nn, j7, _⟩ := j6.particle
      exact ⟨j3, j4, j5, j1, (congrArg Particle.interaction_index j7).trans i5, j2⟩)
  refine sat_mono hloop (fun s t2 hs => ?_) (fun _ h => h)
  obtain ⟨i1, i2, i3, i4, i5, i6⟩ := hs
  obtain ⟨r, hr'⟩ := finish_total hr o gs hne s i4 (by unfold Covered; rw [i5]; exact hc)
  rw [sat_lift, hr']
  exact trivial

/-! ### The whole run -/

theorem binding_gain (hm : RegularTarget mat) {p q : Particle ℝ} (hEs : 0 ≤ p.Es)
    (hbar : mat.geometry.inside_energy_barrier p.pos.x p.pos.y p.pos.z = .ok true)
    (run : surface_binding_energy p mat = .ok q) : p.E ≤ q.E := by
  cases h1 : mat.actual_surface_binding_energy p p.pos_old.x p.pos_old.y p.pos_old.z with
  | error e =>
    unfold surface_binding_energy at run
    simp only [h1, bind, Except.bind] at run
    cases run
  | ok Es =>
    cases h2 : mat.geometry.inside_energy_barrier p.pos_old.x p.pos_old.y p.pos_old.z with
    | error e =>
      unfold surface_binding_energy Material.inside_energy_barrier at run
      simp only [h1, hbar, h2, bind, Except.bind] at run
      cases run
    | ok b =>
      have hEs0 := (rsat_of_ok (actual_Es_sound hm.sound hEs p.pos_old.x p.pos_old.y p.pos_old.z) h1).1
      cases b with
      | true =>
        rw [C31_no_crossing p mat Es true ⟨h2, hbar⟩ h1] at run
        cases run
        exact le_rfl
      | false =>
        rw [binding_entering p mat Es ⟨h2, hbar⟩ h1] at run
        have key : RSat (surface_entering p mat Es) (fun q => p.E ≤ q.E) (fun _ => True) := by
          unfold surface_entering
          split
          · exact le_rfl
          · simp only [rsat_bind]
            refine rsat_mono (rsat_trivial _) (fun c _ => ?_) (fun _ _ => trivial)
            obtain ⟨x2, y2, z2⟩ := c
            have h3 : p.E ≤ p.E + Es := by linarith
            cases mat.surface_binding_model <;> exact h3
        exact rsat_of_ok (Q := fun q => p.E ≤ q.E) key run

/-- A particle that is followed on, within the energy barrier, is not below its cutoff energy. -/
theorem pass_cutoff (rcpr : Rcpr ℝ) (hm : RegularTarget mat) (hr : ReadyTarget mat n) (o : Options ℝ)
    {p q : Particle ℝ} {ps qs : List (Particle ℝ)} {t t1 : Tape ℝ} (hp : RegularParticle p)
    (hs : p.stopped = false) (hl : p.left = false)
    (run : trajectory_step rcpr mat o p ps t = .ok ((q, qs), t1)) (hs' : q.stopped = false) (hl' : q.left = false)
    (hbar : mat.geometry.inside_energy_barrier q.pos.x q.pos.y q.pos.z = .ok true) : q.Ec ≤ q.E := by
  obtain ⟨tr⟩ := sat_of_ok (pass_trace rcpr mat o p ps t) run
  obtain ⟨b, hb⟩ := tr.p1_eq
  obtain ⟨E1, d1, n1, hs1, _⟩ := tr.s_eq.particle
  obtain ⟨E3, hp3⟩ := tr.p3_eq
  obtain ⟨⟨l, hl4⟩, _⟩ := tracker_same tr.p3 o tr.s.total_energy_lost_to_recoils tr.el
  have hbd := tr.hbound
  obtain ⟨p4, hp4⟩ : ∃ p4, p4 = tr.p3.update_energy_loss_tracker o tr.s.total_energy_lost_to_recoils tr.el := ⟨_, rfl⟩
  rw [← hp4] at hbd hl4
  have hadv : ∀ (x : Particle ℝ) (m d : ℝ), (x.advance m d).1.left = x.left ∧ (x.advance m d).1.stopped = x.stopped ∧
      (x.advance m d).1.Es = x.Es := by
    intro x m d
    unfold Particle.advance
    by_cases hc : (x.E >. x.Ec) = true
    · obtain ⟨l, hl⟩ := utt_same x
      simp only [hc, if_true, hl, and_self]
    · simp only [hc, Bool.false_eq_true, if_false, and_self]
  obtain ⟨a1, a2, a3⟩ := hadv tr.s.particle_1 tr.g0.mfp tr.s.total_asymptotic_deflection
  have e1 : p4.left = false := by rw [hl4, hp3]; exact (a1.trans (((congrArg Particle.left hs1).trans rfl).trans ((congrArg Particle.left hb).trans rfl))).trans hl
  have e2 : p4.stopped = false := by
    rw [hl4, hp3]
    exact (a2.trans (((congrArg Particle.stopped hs1).trans rfl).trans ((congrArg Particle.stopped hb).trans rfl))).trans hs
  have e3 : p4.Es = p.Es := by
    rw [hl4, hp3]
    exact a3.trans (((congrArg Particle.Es hs1).trans rfl).trans ((congrArg Particle.Es hb).trans rfl))
  obtain ⟨sim, hsim⟩ := hr.boundary p4.pos.x p4.pos.y p4.pos.z
  obtain ⟨E5, d5, b5, st5, lf5, tj5, hq⟩ := rsat_of_ok (boundary_frame p4 mat) hbd
  dsimp only at hq
  have e4 : q.pos = p4.pos := (congrArg Particle.pos hq).trans rfl
  have e5 : q.Ec = p4.Ec := (congrArg Particle.Ec hq).trans rfl
  rw [e4] at hbar
  obtain ⟨c1, c2, _, c4, _⟩ := C33_boundary p4 q mat sim true hsim hbar e1 e2 hbd
  have hsimt : sim = true := by
    by_contra hc
    have := c1.2 (by simpa using hc)
    have hl'' : q.left = false := hl'
    rw [hl''] at this
    cases this
  have hge : p4.Ec ≤ p4.E := by
    by_contra hc
    push Not at hc
    have := c2.2 ⟨hsimt, (lt_real _ _).2 hc, rfl⟩
    have hs'' : q.stopped = false := hs'
    rw [hs''] at this
    cases this
  rw [e5]
  exact hge.trans (binding_gain hm (by rw [e3]; exact hp.sound.Es) hbar (c4 hl' hs').1)

/-- What holds of every particle about to make a pass. -/
structure FitParticle (mat : Material ℝ) (o : Options ℝ) (p : Particle ℝ) : Prop where
  regular : RegularParticle p
  meets : MeetsAll mat o p
  cutoff : mat.geometry.inside_energy_barrier p.pos.x p.pos.y p.pos.z = .ok true → p.Ec ≤ p.E

theorem meets_same {o : Options ℝ} {p q : Particle ℝ} (h : MeetsAll mat o p) (h1 : q.Z = p.Z) (h2 : q.m = p.m)
    (h3 : q.Ec = p.Ec) (h4 : q.interaction_index = p.interaction_index) : MeetsAll mat o q := by
  intro i Z m j hZ hm hj E hE
  have := h i Z m j hZ hm hj E (h3 ▸ hE)
  unfold CanMeet at this ⊢
  simp only [h1, h2, h4] at this ⊢
  exact this

theorem covered_of_meets (hr : ReadyTarget mat n) {o : Options ℝ} {p : Particle ℝ} (h : MeetsAll mat o p) :
    Covered mat o p n := by
  intro i hi
  have hZ := hi.trans_le hr.tabulated.Z
  have hM := hi.trans_le hr.tabulated.m
  have hI := hi.trans_le hr.tabulated.interaction_index
  obtain ⟨row, V, _, _, h1, h2, _⟩ := h i _ _ _ (List.getElem?_eq_getElem hZ) (List.getElem?_eq_getElem hM)
    (List.getElem?_eq_getElem hI) p.Ec le_rfl
  exact ⟨row, _, V, h1, List.getElem?_eq_getElem hI, h2⟩

/-- A pass of a fit particle, in both arithmetics. -/
theorem fit_pass (rcpr : Rcpr ℝ) (rcpr' : Rcpr XReal) {mat' : Material XReal} (h : SameMaterial mat mat')
    (hr : ReadyTarget mat n) (hm : RegularTarget mat) (o : Options ℝ) (ho : AllScreened o)
    (ho0 : o.weak_collision_order = 0) (hsp : ∀ q i, IsSpecies mat i q → MeetsAll mat o q)
    (p : Particle ℝ) (hp : FitParticle mat o p) (hs : p.stopped = false) (hl : p.left = false)
    (hx : |p.dir.x| ≠ 1) (t : Tape ℝ) (ht : OpenUnit t)
    (hoff : ∀ q new t1, trajectory_step rcpr mat o p [] t = .ok ((q, new), t1) → OffSurface mat q) :
    ∃ q new t1, trajectory_step rcpr mat o p [] t = .ok ((q, new), t1) ∧
      trajectory_step rcpr' mat' o.lift p.lift [] (liftTape t) = .ok ((q.lift, new.map (·.lift)), liftTape t1) ∧
      OpenUnit t1 ∧ RegularParticle q ∧ (q.stopped = false → q.left = false → FitParticle mat o q) ∧
      ∀ r ∈ new, FitParticle mat o r ∧ r.stopped = false ∧ r.left = false := by
  have hsafe : ∀ p' gs t', determine_mfp_phi_impact_parameter p mat o t = .ok ((p', gs), t') →
      ∀ (k : ℕ) s t'', k ≤ o.weak_collision_order → k < gs.length →
        forFold (collision_step rcpr mat o) (gs.zipIdx.take k) ⟨p', [], 0, 0, 0, 0, 0⟩ t' = .ok (s, t'') →
        MayCollide mat o s.particle_1 := by
    intro p' gs t' hdet k s t'' hk _ hrun
    have hk0 : k = 0 := by omega
    subst hk0
    cases hrun
    obtain ⟨b, hb⟩ := sat_of_ok (mfp_frame p mat o t) hdet
    simp only at hb
    subst hb
    refine ⟨hx, fun hbar i Z m j hZ hM hj => ?_⟩
    exact hp.meets i Z m j hZ hM hj p.E (hp.cutoff hbar)
  obtain ⟨q, new, t1, run⟩ := C96_pass rcpr hr hm o p hp.regular (covered_of_meets hr hp.meets) [] t ht hsafe
  rw [List.nil_append] at run
  obtain ⟨b1, b2, b3, b4⟩ := C95_pass rcpr rcpr' mat mat' h hm o ho p hp.regular t ht q new t1 run
    ⟨hsafe, hoff q new t1 run⟩
  have heff := sat_of_ok (trajectory_step_sat rcpr mat o p [] t hs hl) run
  obtain ⟨new', hn1, hn2, _⟩ := heff.stack
  refine ⟨q, new, t1, run, b1, b4, b2, fun hs' hl' => ⟨b2, ?_, ?_⟩, fun r hr' => ?_⟩
  · exact meets_same hp.meets heff.same.Z heff.same.m heff.same.Ec heff.same.interaction_index
  · exact fun hbar => pass_cutoff rcpr hm hr o hp.regular hs hl run hs' hl' hbar
  · have hn : new = new' := hn1
    have hf := hn2 r (hn ▸ hr')
    obtain ⟨i, hi⟩ := hf.species
    refine ⟨⟨b3 r hr', hsp r i hi, fun _ => ?_⟩, hf.stopped, hf.left⟩
    rw [hf.energy]
    exact ((lt_real _ _).1 hf.above).le

end

def TrajState.lift (s : TrajState ℝ) : TrajState XReal := ⟨s.particle_1.lift, s.particles.map (·.lift), s.particle_index⟩

def CascadeState.lift (s : CascadeState ℝ) : CascadeState XReal :=
  ⟨s.particles.map (·.lift), s.particle_output.map (·.lift), s.particle_index⟩

/-- Both runs return, the same, and `I` holds; or both run out of fuel. -/
def Agree {α β : Type} (f : α → β) (m : M ℝ α) (m' : M XReal β) (t : Tape ℝ) (I : α → Tape ℝ → Prop) : Prop :=
  (∃ a t', m t = .ok (a, t') ∧ m' (liftTape t) = .ok (f a, liftTape t') ∧ I a t') ∨
    (m t = .error .fuel ∧ m' (liftTape t) = .error .fuel)

theorem Agree.whileFuel {α β : Type} {f : α → β} {cond : α → Bool} {cond' : β → Bool} {body : α → M ℝ α}
    {body' : β → M XReal β} (I : α → Tape ℝ → Prop) (hc : ∀ a, cond' (f a) = cond a)
    (hb : ∀ a t, I a t → cond a = true → Agree f (body a) (body' (f a)) t I) :
    ∀ (n : ℕ) (a : α) (t : Tape ℝ), I a t →
      Agree f (RustBCA.whileFuel cond body n a) (RustBCA.whileFuel cond' body' n (f a)) t
        (fun b t' => I b t' ∧ cond b = false) := by
  intro n
  induction n with
  | zero => intro a t _; exact Or.inr ⟨rfl, rfl⟩
  | succ n ih =>
    intro a t hI
    unfold Agree
    rw [whileFuel_succ_run, whileFuel_succ_run, hc]
    by_cases h : cond a = true
    · rw [if_pos h, if_pos h]
      rcases hb a t hI h with ⟨a1, t1, h1, h2, h3⟩ | ⟨h1, h2⟩
      · rw [h1, h2]
        exact ih a1 t1 h3
      · rw [h1, h2]
        exact Or.inr ⟨rfl, rfl⟩
    · rw [if_neg h, if_neg h]
      exact Or.inl ⟨a, t, rfl, rfl, hI, by simpa using h⟩

/-- **C96.** A run does not fail.  Let every question about the target have an answer, let the ion and the target be
regular, let every particle, whatever its energy above its cutoff, be able to meet every species, let there be no weak
collisions, and let no particle of the run move exactly along the x axis or land exactly on the surface.
Then, for every stream of random numbers strictly between 0 and 1, `single_ion_bca` over numbers with infinities
and NaN does not panic: unless it runs out of the passes the model grants it, it returns, and all the numbers
it returns are the real numbers the model over the reals computes. -/
theorem C96_never_panics (rcpr : Rcpr ℝ) (rcpr' : Rcpr XReal) (mat : Material ℝ) (mat' : Material XReal)
    (h : SameMaterial mat mat') (n : ℕ) (hr : ReadyTarget mat n) (hm : RegularTarget mat) (o : Options ℝ)
    (ho : AllScreened o) (ho0 : o.weak_collision_order = 0) (hsp : ∀ q i, IsSpecies mat i q → MeetsAll mat o q)
    (ion : Particle ℝ) (hion : RegularParticle ion) (hmeet : MeetsAll mat o ion) (hEc : ion.Ec ≤ ion.E)
    (hs : ion.stopped = false) (hl : ion.left = false) (t : Tape ℝ) (ht : OpenUnit t)
    (gen : Generic rcpr mat o ion t) (fuel : ℕ) :
    (∃ out t', single_ion_bca rcpr fuel ion mat o t = .ok (out, t') ∧
      single_ion_bca rcpr' fuel ion.lift mat' o.lift (liftTape t) = .ok (out.map (·.lift), liftTape t') ∧
      ∀ q ∈ out, RegularParticle q) ∨
    (single_ion_bca rcpr fuel ion mat o t = .error .fuel ∧
      single_ion_bca rcpr' fuel ion.lift mat' o.lift (liftTape t) = .error .fuel) := by
  have inner : ∀ (p : Particle ℝ) (ps : List (Particle ℝ)) (i : ℕ) (t1 : Tape ℝ), OpenUnit t1 →
      Followed rcpr mat o ion t ps p t1 → FitParticle mat o p → p.stopped = false → p.left = false →
      (∀ r ∈ ps, FitParticle mat o r ∧ r.stopped = false ∧ r.left = false) →
      Agree TrajState.lift (whileFuel TrajState.running (traj_body rcpr mat o) fuel ⟨p, ps, i⟩)
        (whileFuel TrajState.running (traj_body rcpr' mat' o.lift) fuel (TrajState.lift ⟨p, ps, i⟩)) t1
        (fun s t2 => (OpenUnit t2 ∧ Followed rcpr mat o ion t s.particles s.particle_1 t2 ∧
          RegularParticle s.particle_1 ∧ (s.running = true → FitParticle mat o s.particle_1) ∧
          (∀ r ∈ s.particles, FitParticle mat o r ∧ r.stopped = false ∧ r.left = false) ∧
          (s.particle_index = s.particles.length ∨ s.running = true)) ∧ s.running = false) := by
    intro p ps i t1 ht1 hf hp hps hpl hst
    refine Agree.whileFuel (f := TrajState.lift) (cond := TrajState.running) (cond' := TrajState.running)
      (body := traj_body rcpr mat o) (body' := traj_body rcpr' mat' o.lift) (fun (s : TrajState ℝ) t2 => OpenUnit t2 ∧ Followed rcpr mat o ion t s.particles s.particle_1 t2 ∧
          RegularParticle s.particle_1 ∧ (s.running = true → FitParticle mat o s.particle_1) ∧
          (∀ r ∈ s.particles, FitParticle mat o r ∧ r.stopped = false ∧ r.left = false) ∧
          (s.particle_index = s.particles.length ∨ s.running = true)) (fun _ => rfl) ?_ fuel ⟨p, ps, i⟩ t1
      ⟨ht1, hf, hp.regular, fun _ => hp, hst, Or.inr (by simp [TrajState.running, hps, hpl])⟩
    intro s t2 hI hrun
    obtain ⟨j1, j2, j3, j4, j5, _⟩ := hI
    have hun : s.particle_1.stopped = false ∧ s.particle_1.left = false := by
      simpa [TrajState.running] using hrun
    obtain ⟨g1, g2⟩ := gen _ _ _ j2 hun.1 hun.2
    obtain ⟨q, new, t3, r1, r2, r3, r4, r5, r6⟩ := fit_pass rcpr rcpr' h hr hm o ho ho0 hsp s.particle_1 (j4 hrun)
      hun.1 hun.2 g1 t2 j1 g2
    refine Or.inl ⟨⟨q, s.particles ++ new, (s.particles ++ new).length⟩, t3, ?_, ?_, r3, ?_, r4, ?_, ?_, Or.inl rfl⟩
    · rw [traj_body_run, step_below s.particles r1]
      rfl
    · rw [traj_body_run]
      have := step_below (s.particles.map (·.lift)) r2
      have e : trajectory_step rcpr' mat' o.lift s.lift.particle_1 s.lift.particles (liftTape t2) = _ := this
      rw [e]
      show Except.ok (_, _) = Except.ok (_, _)
      unfold TrajState.lift
      simp only [List.map_append, List.length_append, List.length_map]
    · exact .pass j2 hun.1 hun.2 r1
    · intro hrun'
      have : q.stopped = false ∧ q.left = false := by simpa [TrajState.running] using hrun'
      exact r5 this.1 this.2
    · intro r hr'
      rcases List.mem_append.1 hr' with hr' | hr'
      · exact j5 r hr'
      · exact r6 r hr'
  have outer := Agree.whileFuel (f := CascadeState.lift) (cond := fun s : CascadeState ℝ => decide (0 < s.particle_index))
    (cond' := fun s : CascadeState XReal => decide (0 < s.particle_index)) (body := cascade_body rcpr mat o fuel)
    (body' := cascade_body rcpr' mat' o.lift fuel)
    (fun s t2 => OpenUnit t2 ∧ (∀ ps r, s.particles = ps ++ [r] → Followed rcpr mat o ion t ps r t2) ∧
      (∀ r ∈ s.particles, FitParticle mat o r ∧ r.stopped = false ∧ r.left = false) ∧
      (∀ r ∈ s.particle_output, RegularParticle r) ∧ s.particle_index = s.particles.length)
    (fun _ => rfl) (by
      intro s t2 hI hc
      obtain ⟨j1, j2, j3, j4, j5⟩ := hI
      obtain ⟨particles, output, i⟩ := s
      simp only at j2 j3 j4 j5 hc ⊢
      subst j5
      rw [decide_eq_true_eq] at hc
      have hne : particles ≠ [] := List.length_pos_iff.1 hc
      obtain ⟨ps, r, hps⟩ : ∃ ps r, particles = ps ++ [r] := ⟨_, _, (List.dropLast_concat_getLast hne).symm⟩
      subst hps
      obtain ⟨hfit, hs', hl'⟩ := j3 r (by simp)
      have hin := inner r ps (ps ++ [r]).length t2 j1 (j2 ps r rfl) hfit hs' hl'
        (fun x hx => j3 x (List.mem_append_left _ hx))
      have e2 : cascade_body rcpr' mat' o.lift fuel (CascadeState.lift ⟨ps ++ [r], output, (ps ++ [r]).length⟩) (liftTape t2)
          = whileFuel TrajState.running (traj_body rcpr' mat' o.lift) fuel
              (TrajState.lift ⟨r, ps, (ps ++ [r]).length⟩) (liftTape t2) >>= fun x =>
            .ok (⟨x.1.particles, output.map (·.lift) ++ [x.1.particle_1], x.1.particle_index⟩, x.2) := by
        have e3 : CascadeState.lift ⟨ps ++ [r], output, (ps ++ [r]).length⟩ =
            ⟨ps.map (·.lift) ++ [r.lift], output.map (·.lift), (ps ++ [r]).length⟩ := by
          unfold CascadeState.lift
          simp only [List.map_append, List.map_cons, List.map_nil]
        rw [e3, cascade_body_run]
        rfl
      unfold Agree
      rw [cascade_body_run, e2]
      rcases hin with ⟨s', t3, a1, a2, ⟨a3, a4, a5, a6, a7, a8⟩, a9⟩ | ⟨a1, a2⟩
      · rw [a1, a2]
        refine Or.inl ⟨_, t3, rfl, ?_, a3, ?_, a7, ?_, ?_⟩
        · show Except.ok (_, _) = Except.ok (_, _)
          unfold TrajState.lift CascadeState.lift
          simp only [List.map_append, List.map_cons, List.map_nil]
        · intro ps' r' hps'
          simp only at hps'
          rw [hps'] at a4
          refine .next a4 ?_
          by_contra hcon
          push Not at hcon
          simp [TrajState.running, hcon.1, hcon.2] at a9
        · intro x hx
          rcases List.mem_append.1 hx with hx | hx
          · exact j4 x hx
          · rw [List.mem_singleton] at hx
            rw [hx]
            exact a5
        · rcases a8 with a8 | a8
          · exact a8
          · rw [a9] at a8
            cases a8
      · rw [a1, a2]
        exact Or.inr ⟨rfl, rfl⟩) fuel ⟨[ion], [], 1⟩ t
    ⟨ht, (by
      intro ps r hps
      cases ps with
      | nil => cases hps; exact .start
      | cons a l => simp at hps), (by
      intro r hr'
      rw [List.mem_singleton] at hr'
      subst hr'
      exact ⟨⟨hion, hmeet, fun _ => hEc⟩, hs, hl⟩), (fun r hr' => by cases hr'), rfl⟩
  unfold single_ion_bca
  rcases outer with ⟨s, t', a1, a2, ⟨_, _, _, a3, _⟩, _⟩ | ⟨a1, a2⟩
  · refine Or.inl ⟨s.particle_output, t', ?_, ?_, a3⟩
    · simp only [bind, StateT.bind, Except.bind, a1, pure, StateT.pure, Except.pure]
    · have a2' : whileFuel (fun s : CascadeState XReal => decide (0 < s.particle_index))
        (cascade_body rcpr' mat' o.lift fuel) fuel ⟨[ion.lift], [], 1⟩ (liftTape t) = _ := a2
      simp only [bind, StateT.bind, Except.bind, a2', pure, StateT.pure, Except.pure]
      rfl
  · refine Or.inr ⟨?_, ?_⟩
    · simp only [bind, StateT.bind, Except.bind, a1]
    · have a2' : whileFuel (fun s : CascadeState XReal => decide (0 < s.particle_index))
        (cascade_body rcpr' mat' o.lift fuel) fuel ⟨[ion.lift], [], 1⟩ (liftTape t) = _ := a2
      simp only [bind, StateT.bind, Except.bind, a2']

end RustBCA
