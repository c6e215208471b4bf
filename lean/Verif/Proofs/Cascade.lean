import Verif.Proofs.ParticleLemmas

/-! Helper lemmas for the cascade properties: what each piece of the step can change. -/

set_option linter.unusedSectionVars false
set_option linter.unusedSimpArgs false

namespace RustBCA
open Scalar
variable {F : Type} [Scalar F]

/-! ## Particles through one pass -/

theorem surface_entering_frame (p : Particle F) (mat : Material F) (Es : F) :
    RSat (surface_entering p mat Es)
      (fun q => ∃ E dir b, q = { p with E := E, dir := dir, backreflected := b }) (fun _ => True) := by
  unfold surface_entering
  split
  · exact ⟨p.E, p.dir, false, rfl⟩
  · simp only [rsat_bind]
    refine rsat_mono (rsat_trivial _) (fun a _ => ?_) (fun _ _ => trivial)
    split
    · exact ⟨_, p.dir, p.backreflected, rfl⟩
    · exact ⟨_, _, p.backreflected, rfl⟩

theorem surface_leaving_frame (p : Particle F) (mat : Material F) (Es : F) :
    RSat (surface_leaving p mat Es)
      (fun q => ∃ E dir b, q = { p with E := E, dir := dir, backreflected := b }) (fun _ => True) := by
  unfold surface_leaving
  simp only [rsat_bind]
  refine rsat_mono (rsat_trivial _) (fun a _ => ?_) (fun _ _ => trivial)
  repeat' split
  all_goals exact ⟨_, _, _, rfl⟩

theorem surface_binding_energy_frame (p : Particle F) (mat : Material F) :
    RSat (surface_binding_energy p mat)
      (fun q => ∃ E dir b, q = { p with E := E, dir := dir, backreflected := b }) (fun _ => True) := by
  unfold surface_binding_energy
  simp only [rsat_bind]
  refine rsat_mono (rsat_trivial _) (fun Es _ => ?_) (fun _ _ => trivial)
  refine rsat_mono (rsat_trivial _) (fun now _ => ?_) (fun _ _ => trivial)
  refine rsat_mono (rsat_trivial _) (fun old _ => ?_) (fun _ _ => trivial)
  refine rsat_mono (Q := fun q : Particle F =>
      ∃ E dir b, q = { p with E := E, dir := dir, backreflected := b }) (E := fun _ => True) ?_ ?_
      (fun _ _ => trivial)
  · split
    · exact surface_entering_frame p mat Es
    · exact ⟨p.E, p.dir, p.backreflected, rfl⟩
  · rintro q ⟨E, dir, b, rfl⟩
    split
    · refine rsat_mono (surface_leaving_frame _ mat Es) (fun q hq => ?_) (fun _ _ => trivial)
      obtain ⟨E', dir', b', rfl⟩ := hq
      exact ⟨_, _, _, rfl⟩
    · exact ⟨_, _, _, rfl⟩

theorem subtract_frame (p : Particle F) (mat : Material F) (d x0 Z : F) (i : Nat) (o : Options F) :
    RSat (subtract_electronic_stopping_energy p mat d x0 Z i o)
      (fun q => ∃ E, q.1 = { p with E := E }) (fun _ => True) := by
  unfold subtract_electronic_stopping_energy
  simp only [rsat_bind, rsat_assert]
  refine ⟨fun _ => ?_, fun _ => trivial⟩
  refine rsat_mono (rsat_trivial _) (fun ins _ => ?_) (fun _ _ => trivial)
  split
  · simp only [rsat_bind]
    refine rsat_mono (rsat_trivial _) (fun _ _ => ?_) (fun _ _ => trivial)
    refine rsat_mono (rsat_trivial _) (fun _ _ => ?_) (fun _ _ => trivial)
    refine rsat_mono (rsat_trivial _) (fun _ _ => ?_) (fun _ _ => trivial)
    refine rsat_mono (rsat_trivial _) (fun _ _ => ?_) (fun _ _ => trivial)
    refine rsat_mono (rsat_trivial _) (fun _ _ => ?_) (fun _ _ => trivial)
    refine rsat_mono (rsat_trivial _) (fun _ _ => ?_) (fun _ _ => trivial)
    simp only [rsat_assert]
    exact ⟨fun _ => ⟨_, rfl⟩, fun _ => trivial⟩
  · exact ⟨p.E, rfl⟩

theorem mfp_frame (p : Particle F) (mat : Material F) (o : Options F) (t : Tape F) :
    Sat (determine_mfp_phi_impact_parameter p mat o) t
      (fun r _ => ∃ b, r.1 = { p with first_step := b }) (fun _ => True) := by
  unfold determine_mfp_phi_impact_parameter
  simp only [sat_bind]
  refine sat_mono (sat_trivial _) (fun _ t1 _ => ?_) (fun _ _ => trivial)
  refine sat_mono (sat_trivial _) (fun _ t2 _ => ?_) (fun _ _ => trivial)
  have key : ∀ (c : Particle F) (m : F) (n : F) (tt : Tape F),
      Sat (if c.first_step then do
          let r ← random
          pure ({ c with first_step := false }, m*r)
        else pure (c, n) : M F (Particle F × F)) tt (fun r _ => ∃ b, r.1 = { c with first_step := b })
        (fun _ => True) := by
    intro c m n tt
    split
    · simp only [sat_bind, sat_random, sat_pure]; exact ⟨false, rfl⟩
    · simp only [sat_pure]; exact ⟨c.first_step, rfl⟩
  split
  · simp only [sat_bind]
    refine sat_mono (sat_trivial _) (fun a t3 _ => ?_) (fun _ _ => trivial)
    split
    · simp only [sat_bind, sat_random]
      refine sat_mono (key p _ _ _) (fun r t4 hr => ?_) (fun _ _ => trivial)
      obtain ⟨b, hb⟩ := hr
      refine sat_mono (sat_trivial _) (fun _ t5 _ => ?_) (fun _ _ => trivial)
      refine sat_mono (sat_trivial _) (fun _ t6 _ => ?_) (fun _ _ => trivial)
      exact ⟨b, hb⟩
    · simp only [sat_bind, sat_random]
      refine sat_mono (key p _ _ _) (fun r t4 hr => ?_) (fun _ _ => trivial)
      obtain ⟨b, hb⟩ := hr
      refine sat_mono (sat_trivial _) (fun _ t5 _ => ?_) (fun _ _ => trivial)
      refine sat_mono (sat_trivial _) (fun _ t6 _ => ?_) (fun _ _ => trivial)
      exact ⟨b, hb⟩
  · simp only [sat_bind]
    refine sat_mono (sat_trivial _) (fun a t3 _ => ?_) (fun _ _ => trivial)
    refine sat_mono (key p _ _ _) (fun r t4 hr => ?_) (fun _ _ => trivial)
    obtain ⟨b, hb⟩ := hr
    refine sat_mono (sat_trivial _) (fun _ t5 _ => ?_) (fun _ _ => trivial)
    exact ⟨b, hb⟩

/-- What is known of a recoil when it is created by the collision of the moving particle `p`. -/
structure FreshRecoil (mat : Material F) (options : Options F) (p q : Particle F) : Prop where
  species : ∃ i, IsSpecies mat i q
  incident : q.incident = false
  stopped : q.stopped = false
  left : q.left = false
  track : q.track_trajectories = options.track_recoil_trajectories
  tag : q.tag = p.tag
  weight : q.weight = p.weight
  tracked_vector : q.tracked_vector = p.tracked_vector
  inside : mat.geometry.inside q.pos_origin.x q.pos_origin.y q.pos_origin.z = .ok true
  above : (q.energy_origin >. q.Ec) = true
  energy : q.E = q.energy_origin
  pos : q.pos = q.pos_origin
  trajectory : q.trajectory = []
  energies : q.energies = [⟨0.0, 0.0, q.pos_origin.x, q.pos_origin.y, q.pos_origin.z⟩]
  count : q.number_collision_events = 0

theorem rsat_vget_some {α : Type} (v : List α) (i : Nat) :
    RSat (vget v i) (fun a => v[i]? = some a) (fun _ => True) := by
  rw [rsat_vget]; exact ⟨fun a h => h, fun _ => trivial⟩

theorem species_sat (mat : Material F) (i : Nat) :
    RSat (mat.species i) (fun s => mat.Z[i]? = some s.Z ∧ mat.m[i]? = some s.m ∧
      mat.Ec[i]? = some s.Ec ∧ mat.Es[i]? = some s.Es ∧ mat.Ed[i]? = some s.Ed ∧
      mat.interaction_index[i]? = some s.interaction_index ∧ s.species_index = i)
      (fun _ => True) := by
  unfold Material.species
  simp only [rsat_bind]
  refine rsat_mono (rsat_vget_some _ _) (fun _ h1 => ?_) (fun _ _ => trivial)
  refine rsat_mono (rsat_vget_some _ _) (fun _ h2 => ?_) (fun _ _ => trivial)
  refine rsat_mono (rsat_vget_some _ _) (fun _ h3 => ?_) (fun _ _ => trivial)
  refine rsat_mono (rsat_vget_some _ _) (fun _ h4 => ?_) (fun _ _ => trivial)
  refine rsat_mono (rsat_vget_some _ _) (fun _ h5 => ?_) (fun _ _ => trivial)
  refine rsat_mono (rsat_vget_some _ _) (fun _ h6 => ?_) (fun _ _ => trivial)
  exact ⟨h1, h2, h3, h4, h5, h6, rfl⟩

/-- What `choose_collision_partner` returns. -/
structure Partner (mat : Material F) (options : Options F) (p q : Particle F) : Prop where
  species : ∃ i, IsSpecies mat i q
  incident : q.incident = false
  stopped : q.stopped = false
  left : q.left = false
  track : q.track_trajectories = options.track_recoil_trajectories
  tag : q.tag = p.tag
  weight : q.weight = p.weight
  tracked_vector : q.tracked_vector = p.tracked_vector
  pos : q.pos = q.pos_origin
  trajectory : q.trajectory = []
  energies : q.energies = [⟨0.0, 0.0, q.pos_origin.x, q.pos_origin.y, q.pos_origin.z⟩]
  count : q.number_collision_events = 0

theorem partner_sat (p : Particle F) (mat : Material F) (g : BinaryCollisionGeometry F)
    (o : Options F) (t : Tape F) :
    Sat (choose_collision_partner p mat g o) t (fun r _ => Partner mat o p r.2)
      (fun _ => True) := by
  unfold choose_collision_partner Material.choose
  simp only [sat_bind, sat_random, sat_lift]
  refine rsat_mono (rsat_trivial _) (fun cc _ => ?_) (fun _ _ => trivial)
  split
  · simp only [sat_lift]
    refine rsat_mono (species_sat mat _) (fun s hs => ?_) (fun _ _ => trivial)
    obtain ⟨h1, h2, h3, h4, h5, h6, h7⟩ := hs
    exact ⟨⟨_, h1, h2, h3, h4, h5, h6⟩, rfl, rfl, rfl, rfl, rfl, rfl, rfl, rfl, rfl, rfl, rfl⟩
  · simp

theorem keep_recoil_sat (p q : Particle F) (mat : Material F) (o : Options F) :
    RSat (keep_recoil p q mat o)
      (fun b => b = true → o.track_recoils = true ∧ (q.E >. q.Ec) = true) (fun _ => True) := by
  unfold keep_recoil
  split
  · rename_i h
    simp only [rsat_bind]
    refine rsat_mono (rsat_trivial _) (fun _ _ => ?_) (fun _ _ => trivial)
    refine rsat_mono (rsat_trivial _) (fun _ _ => ?_) (fun _ _ => trivial)
    simp only [rsat_pure, Bool.and_eq_true]
    simp only [Bool.and_eq_true] at h
    exact fun hh => ⟨h.1, hh.2⟩
  · simp only [rsat_pure, Bool.and_eq_true]; exact fun h => h

/-- The effect of a collision pass on the moving particle and on the stack. -/
structure CollisionEffect (mat : Material F) (options : Options F) (k : Nat)
    (s s' : StepState F) : Prop where
  particle : ∃ E dir n, s'.particle_1 =
    { s.particle_1 with E := E, dir := dir, number_collision_events := n } ∧
    s.particle_1.number_collision_events ≤ n ∧
    n ≤ s.particle_1.number_collision_events + (if k = 0 then 1 else 0)
  stack : ∃ new, s'.particles = s.particles ++ new ∧
    (∀ q ∈ new, FreshRecoil mat options s.particle_1 q) ∧
    (options.track_recoils = false → new = [])

theorem apply_collision_sat (mat : Material F) (o : Options F) (k : Nat)
    (g : BinaryCollisionGeometry F) (si : Nat) (q : Particle F) (r : BinaryCollisionResult F)
    (s : StepState F) (hr : Partner mat o s.particle_1 q)
    (hin : mat.geometry.inside q.pos_origin.x q.pos_origin.y q.pos_origin.z = .ok true) :
    RSat (apply_collision mat o k g si q r s) (fun s' => CollisionEffect mat o k s s')
      (fun _ => True) := by
  unfold apply_collision
  obtain ⟨s1, hs1, h1, h2⟩ : ∃ s1, (if (k == 0) = true then { s with
      normalized_distance_of_closest_approach := r.normalized_distance_of_closest_approach
      strong_collision_Z := q.Z
      strong_collision_index := si } else s) = s1 ∧ s1.particle_1 = s.particle_1 ∧
      s1.particles = s.particles := ⟨_, rfl, by split <;> rfl, by split <;> rfl⟩
  simp only [hs1, rsat_bind]
  refine rsat_mono (rsat_trivial _) (fun eb _ => ?_) (fun _ _ => trivial)
  refine rsat_mono (keep_recoil_sat _ _ _ _) (fun keep hk => ?_) (fun _ _ => trivial)
  simp only [rsat_pure]
  constructor
  · rw [h1]
    by_cases hpk : ((r.psi >. 0.0) && (k == 0)) = true
    · simp only [hpk, if_true]
      simp only [Bool.and_eq_true, beq_iff_eq] at hpk
      refine ⟨_, _, _, rfl, Nat.le_succ _, ?_⟩
      simp [hpk.2, Particle.rotate]
    · simp only [hpk]
      exact ⟨_, _, s.particle_1.number_collision_events, rfl, le_refl _, by omega⟩
  · rw [h2]
    cases keep with
    | false => exact ⟨[], by simp, by simp, fun _ => rfl⟩
    | true =>
      obtain ⟨htr, hab⟩ := hk rfl
      refine ⟨[_], rfl, ?_, fun h => ?_⟩
      · intro q' hq'
        rw [List.mem_singleton] at hq'
        subst hq'
        exact ⟨hr.species, hr.incident, hr.stopped, hr.left, hr.track, hr.tag, hr.weight,
          hr.tracked_vector, hin, hab, rfl, hr.pos, hr.trajectory, hr.energies, hr.count⟩
      · rw [htr] at h; exact absurd h (by decide)

theorem collision_step_sat (rcpr : Rcpr F) (mat : Material F) (o : Options F) (s : StepState F)
    (gk : BinaryCollisionGeometry F × Nat) (t : Tape F) :
    Sat (collision_step rcpr mat o s gk) t (fun s' _ => CollisionEffect mat o gk.2 s s')
      (fun _ => True) := by
  obtain ⟨g, k⟩ := gk
  unfold collision_step
  simp only [sat_bind]
  refine sat_mono (partner_sat _ _ _ _ _) (fun r t1 hr => ?_) (fun _ _ => trivial)
  obtain ⟨si, q⟩ := r
  simp only [sat_bind, sat_lift] at hr ⊢
  refine rsat_mono (Q := fun b => mat.inside q.pos.x q.pos.y q.pos.z = .ok b) (E := fun _ => True)
    ?_ (fun ins hins => ?_) (fun _ _ => trivial)
  · cases h : mat.inside q.pos.x q.pos.y q.pos.z <;> simp
  refine rsat_mono (rsat_trivial _) (fun ib _ => ?_) (fun _ _ => trivial)
  split
  · rename_i hc
    simp only [Bool.and_eq_true] at hc
    simp only [sat_bind, sat_lift]
    refine rsat_mono (rsat_trivial _) (fun res _ => ?_) (fun _ _ => trivial)
    refine rsat_mono (rsat_trivial _) (fun r _ => ?_) (fun _ _ => trivial)
    have hin := hins
    unfold Material.inside at hin
    rw [hc.1, hr.pos] at hin
    exact apply_collision_sat mat o k g si q r s hr hin
  · exact ⟨⟨s.particle_1.E, s.particle_1.dir, s.particle_1.number_collision_events, rfl,
      le_refl _, by omega⟩, ⟨[], by simp, by simp, fun _ => rfl⟩⟩

/-- Effect of the whole collision loop on the particle and the stack. -/
structure LoopEffect (mat : Material F) (options : Options F) (any : Bool)
    (p : Particle F) (ps : List (Particle F)) (s' : StepState F) : Prop where
  particle : ∃ E dir n, s'.particle_1 =
    { p with E := E, dir := dir, number_collision_events := n } ∧
    p.number_collision_events ≤ n ∧
    n ≤ p.number_collision_events + (if any then 1 else 0)
  stack : ∃ new, s'.particles = ps ++ new ∧
    (∀ q ∈ new, FreshRecoil mat options p q) ∧ (options.track_recoils = false → new = [])

theorem FreshRecoil.congr {mat : Material F} {o : Options F} {p p' q : Particle F}
    (h : FreshRecoil mat o p q) (h1 : p.tag = p'.tag) (h2 : p.weight = p'.weight)
    (h3 : p.tracked_vector = p'.tracked_vector) : FreshRecoil mat o p' q :=
  { h with tag := h.tag.trans h1, weight := h.weight.trans h2,
           tracked_vector := h.tracked_vector.trans h3 }

theorem zipIdx_split {α : Type} {l : List α} {n : Nat} {d r : List (α × Nat)} {a : α × Nat}
    (h : (l.zipIdx.take n) = d ++ a :: r) : a.2 = d.length := by
  have h1 : (l.zipIdx.take n)[d.length]? = some a := by
    rw [h]; simp
  rw [List.getElem?_take] at h1
  split at h1
  · rw [List.getElem?_zipIdx] at h1
    cases hl : l[d.length]? with
    | none => simp [hl] at h1
    | some x => simp [hl] at h1; rw [← h1]
  · simp at h1

theorem collision_loop_sat (rcpr : Rcpr F) (mat : Material F) (o : Options F)
    (gs : List (BinaryCollisionGeometry F)) (n : Nat) (s : StepState F) (t : Tape F) :
    Sat (forFold (collision_step rcpr mat o) (gs.zipIdx.take n) s) t
      (fun s' _ => LoopEffect mat o true s.particle_1 s.particles s') (fun _ => True) := by
  have := sat_forFold_idx (E := fun _ => True) (body := collision_step rcpr mat o)
    (fun d s' _ => LoopEffect mat o (!d.isEmpty) s.particle_1 s.particles s')
    (gs.zipIdx.take n) [] ?_ s t ?_
  · refine sat_mono this (fun s' _ h => ?_) (fun _ _ => trivial)
    refine ⟨?_, h.stack⟩
    obtain ⟨E, dir, m, h1, h2, h3⟩ := h.particle
    exact ⟨E, dir, m, h1, h2, le_trans h3 (by split <;> simp)⟩
  · intro d a r e x t' hI
    rw [List.nil_append] at e
    have hk := zipIdx_split e
    refine sat_mono (collision_step_sat rcpr mat o x a t') (fun y _ hy => ?_) (fun _ _ => trivial)
    obtain ⟨E, dir, m, h1, h2, h3⟩ := hI.particle
    obtain ⟨E', dir', m', h1', h2', h3'⟩ := hy.particle
    obtain ⟨new, hn1, hn2, hn3⟩ := hI.stack
    obtain ⟨new', hn1', hn2', hn3'⟩ := hy.stack
    refine ⟨⟨E', dir', m', ?_, ?_, ?_⟩, ⟨new ++ new', ?_, ?_, ?_⟩⟩
    · rw [h1', h1]
    · rw [h1] at h2'; exact le_trans h2 h2'
    · rw [h1] at h3'
      simp only at h3'
      rw [hk] at h3'
      cases d with
      | nil => simp at h3 h3' ⊢; omega
      | cons y ys => simp at h3 h3' ⊢; omega
    · rw [hn1', hn1, List.append_assoc]
    · intro q hq
      rcases List.mem_append.mp hq with hq | hq
      · exact hn2 q hq
      · exact (hn2' q hq).congr (by rw [h1]) (by rw [h1]) (by rw [h1])
    · intro h; rw [hn3 h, hn3' h]; rfl
  · exact ⟨⟨s.particle_1.E, s.particle_1.dir, _, rfl, le_refl _, by simp⟩,
      ⟨[], by simp, by simp, fun _ => rfl⟩⟩

/-! ## Boundary condition -/

/-- What `boundary_condition_planar` does to an unfinished particle. -/
theorem boundary_sat (p : Particle F) (mat : Material F) (hs : p.stopped = false)
    (hl : p.left = false) :
    RSat (boundary_condition_planar p mat) (fun q =>
      ∃ sim bar, mat.geometry.inside_simulation_boundary p.pos.x p.pos.y p.pos.z = .ok sim ∧
        mat.geometry.inside_energy_barrier p.pos.x p.pos.y p.pos.z = .ok bar ∧
        ((sim = false ∧ q = { p with left := true }.update_trajectory_tracker) ∨
         (sim = true ∧ bar = true ∧ (p.E <. p.Ec) = true ∧
            q = { p with stopped := true }.update_trajectory_tracker) ∨
         (sim = true ∧ ¬((p.E <. p.Ec) = true ∧ bar = true) ∧
            ∃ E dir b, q = { p with E := E, dir := dir, backreflected := b })))
      (fun _ => True) := by
  unfold boundary_condition_planar
  simp only [rsat_bind, Material.inside_simulation_boundary, Material.inside_energy_barrier]
  refine rsat_mono (Q := fun b =>
    mat.geometry.inside_simulation_boundary p.pos.x p.pos.y p.pos.z = .ok b) (E := fun _ => True)
    ?_ (fun sim hsim => ?_) (fun _ _ => trivial)
  · cases h : mat.geometry.inside_simulation_boundary p.pos.x p.pos.y p.pos.z <;> simp
  refine rsat_mono (Q := fun b =>
    mat.geometry.inside_energy_barrier p.pos.x p.pos.y p.pos.z = .ok b) (E := fun _ => True)
    ?_ (fun bar hbar => ?_) (fun _ _ => trivial)
  · cases h : mat.geometry.inside_energy_barrier p.pos.x p.pos.y p.pos.z <;> simp
  cases sim with
  | false =>
    simp only [Bool.not_false, if_true, Particle.utt_left, Bool.not_true, Bool.and_false, Bool.false_and,
      Bool.false_eq_true, if_false]
    exact ⟨false, bar, hsim, hbar, Or.inl ⟨rfl, rfl⟩⟩
  | true =>
    simp only [Bool.not_true, Bool.false_eq_true, if_false]
    by_cases hc : ((p.E <. p.Ec) = true ∧ bar = true)
    · have hc' : ((p.E <. p.Ec) && !p.left && bar) = true := by rw [hc.1, hc.2, hl]; rfl
      simp only [hc', if_true, Particle.utt_stopped, Bool.not_true, Bool.false_and, Bool.false_eq_true, if_false]
      exact ⟨true, bar, hsim, hbar, Or.inr (Or.inl ⟨rfl, hc.2, hc.1, rfl⟩)⟩
    · have hc' : ((p.E <. p.Ec) && !p.left && bar) = false := by
        cases h1 : (p.E <. p.Ec) <;> cases bar <;> simp_all
      have hc2 : (!p.stopped && !p.left) = true := by rw [hs, hl]; rfl
      simp only [hc', Bool.false_eq_true, if_false, hc2, if_true]
      refine rsat_mono (surface_binding_energy_frame p mat) (fun q hq => ?_) (fun _ _ => trivial)
      exact ⟨true, bar, hsim, hbar, Or.inr (Or.inr ⟨rfl, hc, hq⟩)⟩

/-! ## One pass -/

/-- What one pass of the trajectory loop does to an unfinished moving particle and the stack. -/
structure PassEffect (mat : Material F) (options : Options F) (p : Particle F)
    (ps : List (Particle F)) (q : Particle F) (qs : List (Particle F)) : Prop where
  same : SameParticle p q
  not_both : q.stopped = true → q.left = false
  left : q.left = true →
    mat.geometry.inside_simulation_boundary q.pos.x q.pos.y q.pos.z = .ok false
  running : q.left = false →
    mat.geometry.inside_simulation_boundary q.pos.x q.pos.y q.pos.z = .ok true
  stopped : q.stopped = true → (q.E <. q.Ec) = true ∧
    mat.geometry.inside_energy_barrier q.pos.x q.pos.y q.pos.z = .ok true
  untracked : p.track_trajectories = false → q.trajectory = p.trajectory
  extends_ : p.trajectory <+: q.trajectory
  final : p.track_trajectories = true → (q.stopped = true ∨ q.left = true) →
    q.trajectory.getLast? = some (finalElement q)
  energies_none : (p.incident && options.track_energy_losses) = false → q.energies = p.energies
  energies_one : (p.incident && options.track_energy_losses) = true →
    ∃ En Ee, q.energies = p.energies ++ [⟨En, Ee, q.pos.x, q.pos.y, q.pos.z⟩]
  count_ge : p.number_collision_events ≤ q.number_collision_events
  count_le : q.number_collision_events ≤ p.number_collision_events + 1
  stack : ∃ new, qs = ps ++ new ∧ (∀ r ∈ new, FreshRecoil mat options p r) ∧
    (options.track_recoils = false → new = [])

theorem trajectory_step_sat (rcpr : Rcpr F) (mat : Material F) (o : Options F) (p : Particle F)
    (ps : List (Particle F)) (t : Tape F) (hs : p.stopped = false) (hl : p.left = false) :
    Sat (trajectory_step rcpr mat o p ps) t (fun r _ => PassEffect mat o p ps r.1 r.2)
      (fun _ => True) := by
  unfold trajectory_step
  simp only [sat_bind]
  refine sat_mono (mfp_frame p mat o t) (fun r t1 hr => ?_) (fun _ _ => trivial)
  obtain ⟨p1, gs⟩ := r
  obtain ⟨fs, hfs⟩ := hr
  simp only at hfs
  subst hfs
  simp only [sat_bind]
  refine sat_mono (collision_loop_sat rcpr mat o gs _ _ t1) (fun s t2 hsx => ?_) (fun _ _ => trivial)
  simp only [sat_lift]
  obtain ⟨E, dir, n, hp, hn1, hn2⟩ := hsx.particle
  obtain ⟨new, hnew1, hnew2, hnew3⟩ := hsx.stack
  unfold finish_step
  simp only [rsat_bind]
  refine rsat_mono (rsat_trivial _) (fun g0 _ => ?_) (fun _ _ => trivial)
  rw [hp]
  clear hp
  simp only
  refine rsat_mono (subtract_frame _ mat _ _ _ _ o) (fun r hr => ?_) (fun _ _ => trivial)
  obtain ⟨p3, el⟩ := r
  obtain ⟨E3, hE3⟩ := hr
  simp only at hE3
  simp only [rsat_bind]
  -- the particle handed to the boundary condition
  obtain ⟨p4, hp4⟩ : ∃ p4, p4 = p3.update_energy_loss_tracker o s.total_energy_lost_to_recoils el :=
    ⟨_, rfl⟩
  rw [← hp4]
  have h4s : p4.stopped = false := by simp [hp4, hE3, hs]
  have h4l : p4.left = false := by simp [hp4, hE3, hl]
  have h4same : SameParticle p p4 := by
    constructor <;> simp [hp4, hE3]
  have h4n : p4.number_collision_events = n := by simp [hp4, hE3]
  have h4un : p.track_trajectories = false → p4.trajectory = p.trajectory := by
    intro h
    simp [hp4, hE3, Particle.advance_trajectory, h]
  have h4ext : p.trajectory <+: p4.trajectory := by
    simp [hp4, hE3, Particle.advance_trajectory]
  have h4e0 : (p.incident && o.track_energy_losses) = false → p4.energies = p.energies := by
    intro h
    rw [hp4, Particle.uelt_energies, hE3]
    simp only [Particle.advance_incident, h, Particle.advance_energies]
    simp
  have h4e1 : (p.incident && o.track_energy_losses) = true →
      ∃ En Ee, p4.energies = p.energies ++ [⟨En, Ee, p4.pos.x, p4.pos.y, p4.pos.z⟩] := by
    intro h
    rw [hp4, Particle.uelt_energies, hE3]
    simp only [Particle.advance_incident, h, Particle.advance_energies, Particle.uelt_pos]
    exact ⟨_, _, rfl⟩
  clear hp4 hE3
  refine rsat_mono (boundary_sat p4 mat h4s h4l) (fun q hq => ?_) (fun _ _ => trivial)
  obtain ⟨sim, bar, hsim, hbar, hq⟩ := hq
  have hstack : ∃ new, s.particles = ps ++ new ∧ (∀ r ∈ new, FreshRecoil mat o p r) ∧
      (o.track_recoils = false → new = []) :=
    ⟨new, hnew1, fun r hr => (hnew2 r hr).congr rfl rfl rfl, hnew3⟩
  simp only at hn1 hn2
  simp only [rsat_pure]
  rcases hq with ⟨hsimf, hq⟩ | ⟨hsimt, hbart, hE, hq⟩ | ⟨hsimt, hn, E', dir', b', hq⟩
  · subst hsimf
    have : p.track_trajectories = p4.track_trajectories := h4same.track_trajectories.symm
    unfold Particle.update_trajectory_tracker at hq
    simp only at hq
    split at hq
    · rename_i htr
      subst hq
      obtain ⟨⟩ := h4same
      refine ⟨⟨‹_›, ‹_›, ‹_›, ‹_›, ‹_›, ‹_›, ‹_›, ‹_›, ‹_›, ‹_›, ‹_›, ‹_›, ‹_›⟩, ?_, fun _ => hsim,
        ?_, ?_, ?_, ?_, ?_, h4e0, h4e1, by simp only; omega, ?_, hstack⟩
      · simp [h4s]
      · simp
      · simp [h4s]
      · intro h; rw [this, htr] at h; exact absurd h (by decide)
      · exact h4ext.trans (List.prefix_append _ _)
      · intro _ _; simp [finalElement]
      · simp only; simp only [if_true] at hn2; omega
    · rename_i htr
      subst hq
      obtain ⟨⟩ := h4same
      refine ⟨⟨‹_›, ‹_›, ‹_›, ‹_›, ‹_›, ‹_›, ‹_›, ‹_›, ‹_›, ‹_›, ‹_›, ‹_›, ‹_›⟩, ?_, fun _ => hsim,
        ?_, ?_, h4un, h4ext, ?_, h4e0, h4e1, by simp only; omega, ?_, hstack⟩
      · simp [h4s]
      · simp
      · simp [h4s]
      · intro h; rw [this] at h; exact absurd h htr
      · simp only; simp only [if_true] at hn2; omega
  · subst hsimt
    have : p.track_trajectories = p4.track_trajectories := h4same.track_trajectories.symm
    unfold Particle.update_trajectory_tracker at hq
    simp only at hq
    split at hq
    · rename_i htr
      subst hq
      obtain ⟨⟩ := h4same
      refine ⟨⟨‹_›, ‹_›, ‹_›, ‹_›, ‹_›, ‹_›, ‹_›, ‹_›, ‹_›, ‹_›, ‹_›, ‹_›, ‹_›⟩, fun _ => h4l, ?_,
        fun _ => hsim, fun _ => ⟨hE, hbart ▸ hbar⟩, ?_, ?_, ?_, h4e0, h4e1, by simp only; omega, ?_, hstack⟩
      · simp [h4l]
      · intro h; rw [this, htr] at h; exact absurd h (by decide)
      · exact h4ext.trans (List.prefix_append _ _)
      · intro _ _; simp [finalElement]
      · simp only; simp only [if_true] at hn2; omega
    · rename_i htr
      subst hq
      obtain ⟨⟩ := h4same
      refine ⟨⟨‹_›, ‹_›, ‹_›, ‹_›, ‹_›, ‹_›, ‹_›, ‹_›, ‹_›, ‹_›, ‹_›, ‹_›, ‹_›⟩, fun _ => h4l, ?_,
        fun _ => hsim, fun _ => ⟨hE, hbart ▸ hbar⟩, h4un, h4ext, ?_, h4e0, h4e1, by simp only; omega, ?_, hstack⟩
      · simp [h4l]
      · intro h; rw [this] at h; exact absurd h htr
      · simp only; simp only [if_true] at hn2; omega
  · subst hsimt
    subst hq
    obtain ⟨⟩ := h4same
    refine ⟨⟨‹_›, ‹_›, ‹_›, ‹_›, ‹_›, ‹_›, ‹_›, ‹_›, ‹_›, ‹_›, ‹_›, ‹_›, ‹_›⟩, fun _ => h4l, ?_,
      fun _ => hsim, ?_, h4un, h4ext, ?_, h4e0, h4e1, by simp only; omega, ?_, hstack⟩
    · simp [h4l]
    · simp [h4s]
    · simp [h4l, h4s]
    · simp only; simp only [if_true] at hn2; omega

end RustBCA
