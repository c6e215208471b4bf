import Verif.Proofs.Cascade

/-! Helper lemmas for the cascade properties: the two loops of `single_ion_bca`. -/

set_option linter.unusedSectionVars false
set_option linter.unusedSimpArgs false

namespace RustBCA
open Scalar
variable {F : Type} [Scalar F]

/-- What `n` passes do to a particle that starts unfinished. -/
structure LifeEffect (mat : Material F) (options : Options F) (n : Nat) (p q : Particle F) :
    Prop where
  same : SameParticle p q
  not_both : q.stopped = true → q.left = false
  left : q.left = true →
    mat.geometry.inside_simulation_boundary q.pos.x q.pos.y q.pos.z = .ok false
  running : 0 < n → q.left = false →
    mat.geometry.inside_simulation_boundary q.pos.x q.pos.y q.pos.z = .ok true
  stopped : q.stopped = true → (q.E <. q.Ec) = true ∧
    mat.geometry.inside_energy_barrier q.pos.x q.pos.y q.pos.z = .ok true
  untracked : p.track_trajectories = false → q.trajectory = p.trajectory
  extends_ : p.trajectory <+: q.trajectory
  final : p.track_trajectories = true → (q.stopped = true ∨ q.left = true) →
    q.trajectory.getLast? = some (finalElement q)
  energies_none : (p.incident && options.track_energy_losses) = false → q.energies = p.energies
  energies_some : (p.incident && options.track_energy_losses) = true →
    ∃ records, q.energies = p.energies ++ records ∧ records.length = n
  count_ge : p.number_collision_events ≤ q.number_collision_events
  count_le : q.number_collision_events ≤ p.number_collision_events + n

theorem LifeEffect.zero (mat : Material F) (o : Options F) (p : Particle F)
    (hs : p.stopped = false) (hl : p.left = false) : LifeEffect mat o 0 p p where
  same := by constructor <;> rfl
  not_both := by simp [hs]
  left := by simp [hl]
  running := by simp
  stopped := by simp [hs]
  untracked := fun _ => rfl
  extends_ := List.prefix_rfl
  final := by simp [hs, hl]
  energies_none := fun _ => rfl
  energies_some := fun _ => ⟨[], by simp, rfl⟩
  count_ge := le_refl _
  count_le := by omega

theorem SameParticle.trans {p q r : Particle F} (h : SameParticle p q) (h' : SameParticle q r) :
    SameParticle p r :=
  ⟨h'.m.trans h.m, h'.Z.trans h.Z, h'.Ec.trans h.Ec, h'.Es.trans h.Es, h'.Ed.trans h.Ed,
   h'.interaction_index.trans h.interaction_index, h'.weight.trans h.weight, h'.tag.trans h.tag,
   h'.tracked_vector.trans h.tracked_vector, h'.pos_origin.trans h.pos_origin,
   h'.energy_origin.trans h.energy_origin, h'.track_trajectories.trans h.track_trajectories,
   h'.incident.trans h.incident⟩

theorem LifeEffect.step {mat : Material F} {o : Options F} {n : Nat} {p q r : Particle F}
    {ps qs : List (Particle F)} (h : LifeEffect mat o n p q) (h' : PassEffect mat o q ps r qs) :
    LifeEffect mat o (n + 1) p r where
  same := h.same.trans h'.same
  not_both := h'.not_both
  left := h'.left
  running := fun _ => h'.running
  stopped := h'.stopped
  untracked := fun ht => by
    rw [h'.untracked (by rw [h.same.track_trajectories, ht]), h.untracked ht]
  extends_ := h.extends_.trans h'.extends_
  final := fun ht => h'.final (by rw [h.same.track_trajectories, ht])
  energies_none := fun hi => by
    rw [h'.energies_none (by rw [h.same.incident]; exact hi), h.energies_none hi]
  energies_some := fun hi => by
    obtain ⟨rec, h1, h2⟩ := h.energies_some hi
    obtain ⟨En, Ee, h3⟩ := h'.energies_one (by rw [h.same.incident]; exact hi)
    exact ⟨rec ++ [⟨En, Ee, r.pos.x, r.pos.y, r.pos.z⟩], by rw [h3, h1, List.append_assoc],
      by simp [h2]⟩
  count_ge := le_trans h.count_ge h'.count_ge
  count_le := by have := h.count_le; have := h'.count_le; omega

/-- Invariant of the trajectory loop started with particle `p`, stack `ps`, index `i`. -/
structure TrajInv (rcpr : Rcpr F) (mat : Material F) (o : Options F) (p : Particle F)
    (ps : List (Particle F)) (i : Nat) (n : Nat) (s : TrajState F) : Prop where
  passes : Passes rcpr mat o n p s.particle_1
  life : LifeEffect mat o n p s.particle_1
  stack : ∃ new, s.particles = ps ++ new ∧ (∀ r ∈ new, FreshRecoil mat o p r) ∧
    (o.track_recoils = false → new = [])
  index : s.particle_index = if n = 0 then i else s.particles.length

theorem traj_loop_sat (rcpr : Rcpr F) (mat : Material F) (o : Options F) (fuel : Nat)
    (p : Particle F) (ps : List (Particle F)) (i : Nat) (t : Tape F)
    (hs : p.stopped = false) (hl : p.left = false) :
    Sat (whileFuel TrajState.running (traj_body rcpr mat o) fuel ⟨p, ps, i⟩) t
      (fun s _ => ∃ n, TrajInv rcpr mat o p ps i n s ∧ TrajState.running s = false)
      (fun _ => True) := by
  have := sat_whileFuel (E := fun _ => True) (cond := TrajState.running)
    (body := traj_body rcpr mat o)
    (fun s _ => ∃ n, TrajInv rcpr mat o p ps i n s) trivial ?_ fuel ⟨p, ps, i⟩ t
    ⟨0, .refl p, .zero mat o p hs hl, ⟨[], by simp, by simp, fun _ => rfl⟩, rfl⟩
  · refine sat_mono this (fun s _ h => ?_) (fun _ _ => trivial)
    obtain ⟨⟨n, hn⟩, hr⟩ := h
    exact ⟨n, hn, hr⟩
  · rintro s t' ⟨n, hI⟩ hrun
    unfold TrajState.running at hrun
    simp only [Bool.and_eq_true, Bool.not_eq_true'] at hrun
    unfold traj_body
    simp only [sat_bind, sat_pure]
    have h1 := trajectory_step_sat rcpr mat o s.particle_1 s.particles t' hrun.1 hrun.2
    rw [sat_iff] at h1 ⊢
    refine ⟨fun a t'' ha => ?_, fun _ _ => trivial⟩
    obtain ⟨q, qs⟩ := a
    have he := h1.1 _ _ ha
    refine ⟨n + 1, .step hI.passes ⟨_, _, _, _, ha⟩, hI.life.step he, ?_, by simp⟩
    obtain ⟨new, hn1, hn2, hn3⟩ := hI.stack
    obtain ⟨new', hn1', hn2', hn3'⟩ := he.stack
    refine ⟨new ++ new', ?_, ?_, ?_⟩
    · simp only at hn1' ⊢; rw [hn1', hn1, List.append_assoc]
    · intro r hr
      rcases List.mem_append.mp hr with hr | hr
      · exact hn2 r hr
      · exact (hn2' r hr).congr hI.life.same.tag hI.life.same.weight hI.life.same.tracked_vector
    · intro h; rw [hn3 h, hn3' h]; rfl

theorem Passes.zero_eq {rcpr : Rcpr F} {mat : Material F} {o : Options F} {p q : Particle F}
    (h : Passes rcpr mat o 0 p q) : q = p := by
  cases h; rfl

/-- A particle's complete life: at least one pass from `p` to a finished `q`. -/
def Lived (rcpr : Rcpr F) (mat : Material F) (o : Options F) (p q : Particle F) : Prop :=
  ∃ n, 0 < n ∧ Passes rcpr mat o n p q ∧ LifeEffect mat o n p q ∧
    (q.stopped = true ∨ q.left = true)

/-- Invariant of the outer loop. -/
structure CascadeInv (rcpr : Rcpr F) (mat : Material F) (o : Options F) (ion : Particle F)
    (s : CascadeState F) : Prop where
  index : s.particle_index = s.particles.length
  state : (s.particles = [ion] ∧ s.particle_output = []) ∨
    ((∃ q rest, s.particle_output = q :: rest ∧ Lived rcpr mat o ion q ∧
        (∀ x ∈ rest, ∃ r, FreshRecoil mat o ion r ∧ Lived rcpr mat o r x) ∧
        (o.track_recoils = false → rest = [])) ∧
      (∀ r ∈ s.particles, FreshRecoil mat o ion r) ∧
      (o.track_recoils = false → s.particles = []))

theorem cascade_body_sat (rcpr : Rcpr F) (mat : Material F) (o : Options F) (fuel : Nat)
    (ion : Particle F) (hs : ion.stopped = false) (hl : ion.left = false)
    (s : CascadeState F) (t : Tape F) (hI : CascadeInv rcpr mat o ion s)
    (hpos : 0 < s.particle_index) :
    Sat (cascade_body rcpr mat o fuel s) t (fun s' _ => CascadeInv rcpr mat o ion s')
      (fun _ => True) := by
  unfold cascade_body popLast
  have hne : s.particles ≠ [] := by
    intro h; rw [hI.index, h] at hpos; simp at hpos
  rw [List.getLast?_eq_some_getLast hne]
  simp only [sat_bind, sat_lift, rsat_ok]
  set p := s.particles.getLast hne with hp
  have hsplit : s.particles.dropLast ++ [p] = s.particles := List.dropLast_append_getLast hne
  have hborn : (p = ion ∧ s.particles.dropLast = [] ∧ s.particle_output = []) ∨
      (FreshRecoil mat o ion p ∧ s.particle_output ≠ []) := by
    rcases hI.state with ⟨h1, h2⟩ | ⟨⟨q, rest, h0, _⟩, h1, _⟩
    · left
      refine ⟨?_, by rw [h1]; rfl, h2⟩
      have : s.particles.getLast? = some p := by rw [List.getLast?_eq_some_getLast hne]
      rw [h1] at this
      simpa using this.symm
    · right
      exact ⟨h1 p (List.getLast_mem hne), by rw [h0]; simp⟩
  have hps : p.stopped = false := by
    rcases hborn with ⟨h, _⟩ | ⟨h, _⟩
    · rw [h, hs]
    · exact h.stopped
  have hpl : p.left = false := by
    rcases hborn with ⟨h, _⟩ | ⟨h, _⟩
    · rw [h, hl]
    · exact h.left
  refine sat_mono (traj_loop_sat rcpr mat o fuel p s.particles.dropLast s.particle_index t hps hpl)
    (fun ts t' h => ?_) (fun _ _ => trivial)
  obtain ⟨n, hT, hrun⟩ := h
  simp only [sat_pure]
  have hfin : ts.particle_1.stopped = true ∨ ts.particle_1.left = true := by
    unfold TrajState.running at hrun
    cases h1 : ts.particle_1.stopped <;> cases h2 : ts.particle_1.left <;> simp_all
  have hn : 0 < n := by
    rcases Nat.eq_zero_or_pos n with h | h
    · subst h
      rw [hT.passes.zero_eq] at hfin
      rcases hfin with h | h
      · rw [hps] at h; cases h
      · rw [hpl] at h; cases h
    · exact h
  have hlived : Lived rcpr mat o p ts.particle_1 := ⟨n, hn, hT.passes, hT.life, hfin⟩
  obtain ⟨new, hn1, hn2, hn3⟩ := hT.stack
  have hfresh : ∀ r ∈ new, FreshRecoil mat o ion r := by
    intro r hr
    rcases hborn with ⟨h, _⟩ | ⟨h, _⟩
    · rw [← h]; exact hn2 r hr
    · exact (hn2 r hr).congr h.tag h.weight h.tracked_vector
  constructor
  · have := hT.index
    simp only [Nat.ne_of_gt hn, if_false] at this
    exact this
  · right
    rcases hborn with ⟨h1, h2, h3⟩ | ⟨h1, h2⟩
    · refine ⟨⟨ts.particle_1, [], by rw [h3]; rfl, h1 ▸ hlived, by simp, fun _ => rfl⟩, ?_, ?_⟩
      · rw [h2, List.nil_append] at hn1
        simp only; rw [hn1]; exact hfresh
      · intro h; rw [h2, List.nil_append] at hn1
        simp only; rw [hn1]; exact hn3 h
    · rcases hI.state with ⟨_, h⟩ | ⟨⟨q, rest, g0, g1, g2, g3⟩, g4, g5⟩
      · exact absurd h h2
      · refine ⟨⟨q, rest ++ [ts.particle_1], by simp only; rw [g0]; rfl, g1, ?_, ?_⟩, ?_, ?_⟩
        · intro x hx
          rcases List.mem_append.mp hx with hx | hx
          · exact g2 x hx
          · rw [List.mem_singleton] at hx; subst hx; exact ⟨p, h1, hlived⟩
        · intro h; rw [g5 h] at hne; exact absurd rfl hne
        · simp only; rw [hn1]
          intro r hr
          rcases List.mem_append.mp hr with hr | hr
          · exact g4 r (List.mem_of_mem_dropLast hr)
          · exact hfresh r hr
        · intro h; rw [g5 h] at hne; exact absurd rfl hne

theorem CascadeInv.init (rcpr : Rcpr F) (mat : Material F) (o : Options F) (ion : Particle F) :
    CascadeInv rcpr mat o ion ⟨[ion], [], 1⟩ := ⟨rfl, Or.inl ⟨rfl, rfl⟩⟩

/-- What `single_ion_bca` returns. -/
structure CascadeResult (rcpr : Rcpr F) (mat : Material F) (o : Options F) (ion : Particle F)
    (out : List (Particle F)) : Prop where
  ion_first : ∃ q rest, out = q :: rest ∧ Lived rcpr mat o ion q ∧
    (∀ x ∈ rest, ∃ r, FreshRecoil mat o ion r ∧ Lived rcpr mat o r x) ∧
    (o.track_recoils = false → rest = [])

theorem single_ion_bca_sat (rcpr : Rcpr F) (mat : Material F) (o : Options F) (fuel : Nat)
    (ion : Particle F) (t : Tape F) (hs : ion.stopped = false) (hl : ion.left = false) :
    Sat (single_ion_bca rcpr fuel ion mat o) t (fun out _ => CascadeResult rcpr mat o ion out)
      (fun _ => True) := by
  unfold single_ion_bca
  simp only [sat_bind, sat_pure]
  refine sat_mono (sat_whileFuel (E := fun _ => True)
    (fun s _ => CascadeInv rcpr mat o ion s) trivial ?_ fuel _ t (.init rcpr mat o ion))
    (fun s t' h => ?_) (fun _ _ => trivial)
  · intro s t' hI hc
    exact cascade_body_sat rcpr mat o fuel ion hs hl s t' hI (of_decide_eq_true hc)
  · obtain ⟨hI, hc⟩ := h
    rw [decide_eq_false_iff_not] at hc
    rcases hI.state with ⟨h1, _⟩ | ⟨h1, _⟩
    · rw [hI.index, h1] at hc; simp at hc
    · exact ⟨h1⟩

theorem atLoopHead_inv {rcpr : Rcpr F} {mat : Material F} {o : Options F} {fuel : Nat}
    {ion : Particle F} (hs : ion.stopped = false) (hl : ion.left = false) {s : CascadeState F}
    (h : AtLoopHead rcpr mat o fuel ion s) : CascadeInv rcpr mat o ion s := by
  induction h with
  | start => exact .init rcpr mat o ion
  | next _ hpos hb ih =>
    exact sat_of_ok (cascade_body_sat rcpr mat o fuel ion hs hl _ _ ih hpos) hb

/-- Members of a cascade: the ion's life or a recoil's life. -/
theorem CascadeResult.mem {rcpr : Rcpr F} {mat : Material F} {o : Options F} {ion : Particle F}
    {out : List (Particle F)} (h : CascadeResult rcpr mat o ion out) {q : Particle F}
    (hq : q ∈ out) : ∃ p, Lived rcpr mat o p q := by
  obtain ⟨q0, rest, h0, h1, h2, _⟩ := h.ion_first
  rw [h0] at hq
  rcases List.mem_cons.mp hq with rfl | hq
  · exact ⟨_, h1⟩
  · obtain ⟨r, _, hr⟩ := h2 q hq; exact ⟨r, hr⟩

end RustBCA
