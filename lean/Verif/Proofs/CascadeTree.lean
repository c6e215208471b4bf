import Verif.Proofs.CollisionFacts
import Verif.Proofs.Relational
import Verif.Spec.Recoils

/-! # The stack machine of `single_ion_bca` and the recursive description (helper lemmas) -/

set_option linter.unusedSectionVars false

namespace RustBCA
open Scalar Spec
variable {F : Type} [Scalar F] {rcpr : Rcpr F} {mat : Material F} {o : Options F}

/-- The same state, with `ps` below the stack of the first. -/
structure Below (ps : List (Particle F)) (s s' : StepState F) : Prop where
  particle_1 : s'.particle_1 = s.particle_1
  particles : s'.particles = ps ++ s.particles
  lost : s'.total_energy_lost_to_recoils = s.total_energy_lost_to_recoils
  asy : s'.total_asymptotic_deflection = s.total_asymptotic_deflection
  dist : s'.normalized_distance_of_closest_approach = s.normalized_distance_of_closest_approach
  Z : s'.strong_collision_Z = s.strong_collision_Z
  idx : s'.strong_collision_index = s.strong_collision_index

theorem apply_below (k : Nat) (g : BinaryCollisionGeometry F) (si : Nat) (q : Particle F)
    (r : BinaryCollisionResult F) {ps : List (Particle F)} {s s' : StepState F}
    (h : Below ps s s') :
    RRel (Below ps) (apply_collision mat o k g si q r s) (apply_collision mat o k g si q r s') := by
  obtain ⟨p1, l1, a1, b1, c1, d1, e1⟩ := s
  obtain ⟨p2, l2, a2, b2, c2, d2, e2⟩ := s'
  obtain ⟨h1, h2, h3, h4, h5, h6, h7⟩ := h
  simp only at h1 h2 h3 h4 h5 h6 h7
  subst h1 h2 h3 h4 h5 h6 h7
  unfold apply_collision
  by_cases hk : (k == 0) = true <;> simp only [hk, if_true, Bool.false_eq_true, if_false] <;>
  · refine RRel.bind_same rfl fun eb => ?_
    refine RRel.bind_same rfl fun keep => ?_
    refine RRel.pure ⟨rfl, ?_, rfl, rfl, rfl, rfl, rfl⟩
    cases keep <;> simp

theorem collision_below (gk : BinaryCollisionGeometry F × Nat) {ps : List (Particle F)}
    {s s' : StepState F} (h : Below ps s s') :
    MRel (Below ps) (collision_step rcpr mat o s gk) (collision_step rcpr mat o s' gk) := by
  unfold collision_step
  rw [h.particle_1]
  refine MRel.bind_same rfl fun a => ?_
  refine MRel.bind_same rfl fun ins => ?_
  refine MRel.bind_same rfl fun ib => ?_
  refine MRel.ite rfl ?_ (MRel.pure h)
  refine MRel.bind_same rfl fun res => ?_
  refine MRel.bind_same rfl fun r => ?_
  exact MRel.lift (apply_below _ _ _ _ _ h)

/-- A pass does the same whatever lies on the stack below. -/
theorem trajectory_below (p : Particle F) (ps : List (Particle F)) :
    MRel (fun a b => b.1 = a.1 ∧ b.2 = ps ++ a.2) (trajectory_step rcpr mat o p [])
      (trajectory_step rcpr mat o p ps) := by
  unfold trajectory_step
  refine MRel.bind_same rfl fun a => ?_
  obtain ⟨p1, gs⟩ := a
  refine MRel.bind (MRel.forFold (I := Below ps) (fun x y a hxy => collision_below a hxy) _ _ _
    ⟨rfl, by simp, rfl, rfl, rfl, rfl, rfl⟩) fun s s' h => ?_
  refine MRel.lift ?_
  unfold finish_step
  rw [h.particle_1, h.asy, h.lost, h.dist, h.Z, h.idx, h.particles]
  refine RRel.bind_same rfl fun g0 => ?_
  refine RRel.bind_same rfl fun r => ?_
  refine RRel.bind_same rfl fun q => ?_
  exact RRel.pure ⟨rfl, rfl⟩

theorem step_below {p q : Particle F} {new : List (Particle F)} {t t' : Tape F}
    (ps : List (Particle F)) (h : trajectory_step rcpr mat o p [] t = .ok ((q, new), t')) :
    trajectory_step rcpr mat o p ps t = .ok ((q, ps ++ new), t') := by
  have hr := trajectory_below (rcpr := rcpr) (mat := mat) (o := o) p ps t
  rw [h] at hr
  cases hx : trajectory_step rcpr mat o p ps t with
  | error e => rw [hx] at hr; exact hr.elim
  | ok x =>
    rw [hx] at hr
    obtain ⟨⟨h1, h2⟩, h3⟩ := hr
    obtain ⟨⟨a, b⟩, c⟩ := x
    simp only at h1 h2 h3
    rw [h1, h2, h3]

theorem step_alone {p q : Particle F} {ps qs : List (Particle F)} {t t' : Tape F}
    (h : trajectory_step rcpr mat o p ps t = .ok ((q, qs), t')) :
    ∃ new, qs = ps ++ new ∧ trajectory_step rcpr mat o p [] t = .ok ((q, new), t') := by
  have hr := trajectory_below (rcpr := rcpr) (mat := mat) (o := o) p ps t
  rw [h] at hr
  cases hx : trajectory_step rcpr mat o p [] t with
  | error e => rw [hx] at hr; exact hr.elim
  | ok x =>
    rw [hx] at hr
    obtain ⟨⟨h1, h2⟩, h3⟩ := hr
    obtain ⟨⟨a, b⟩, c⟩ := x
    simp only at h1 h2 h3
    exact ⟨b, h2, by rw [h1, h3]⟩

/-- One step of a `while` loop over runs. -/
theorem whileFuel_succ_run {σ : Type} {cond : σ → Bool} {body : σ → M F σ} (n : Nat) (s : σ)
    (t : Tape F) : whileFuel cond body (n + 1) s t =
      if cond s then body s t >>= fun x => whileFuel cond body n x.1 x.2 else .ok (s, t) := by
  conv_lhs => unfold whileFuel
  by_cases h : cond s = true
  · simp only [h, if_true]; rfl
  · simp only [h]; rfl

theorem traj_body_run (s : TrajState F) (t : Tape F) : traj_body rcpr mat o s t =
    trajectory_step rcpr mat o s.particle_1 s.particles t >>= fun x =>
      .ok (⟨x.1.1, x.1.2, x.1.2.length⟩, x.2) := rfl

/-- The trajectory loop follows the path. -/
theorem path_of_loop : ∀ (fuel : Nat) (p : Particle F) (ps : List (Particle F)) (i : Nat)
    (t t' : Tape F) (s : TrajState F),
    whileFuel TrajState.running (traj_body rcpr mat o) fuel ⟨p, ps, i⟩ t = .ok (s, t') →
    ∃ recoils, s.particles = ps ++ recoils ∧ Path rcpr mat o p t s.particle_1 recoils t' ∧
      (s.particle_index = s.particles.length ∨ s.particle_index = i ∧ s.particle_1 = p) := by
  intro fuel
  induction fuel with
  | zero => intro p ps i t t' s h; cases h
  | succ n ih =>
    intro p ps i t t' s h
    rw [whileFuel_succ_run] at h
    by_cases hc : TrajState.running (⟨p, ps, i⟩ : TrajState F) = true
    · rw [if_pos hc, traj_body_run] at h
      cases hx : trajectory_step rcpr mat o p ps t with
      | error e => rw [hx] at h; cases h
      | ok x =>
        obtain ⟨⟨q, qs⟩, t1⟩ := x
        rw [hx] at h
        obtain ⟨new, hqs, halone⟩ := step_alone hx
        obtain ⟨more, h1, h2, h3⟩ := ih q qs qs.length t1 t' s h
        unfold TrajState.running at hc
        simp only [Bool.and_eq_true, Bool.not_eq_true'] at hc
        refine ⟨new ++ more, ?_, .step hc.1 hc.2 halone h2, ?_⟩
        · rw [h1, hqs, List.append_assoc]
        · rcases h3 with h3 | ⟨h3, h4⟩
          · exact Or.inl h3
          · left
            have hmore : more = [] := by
              cases h2 with
              | finished _ => rfl
              | step hs hl hst hp =>
                -- the loop ended at its start, so it made no pass
                exfalso
                cases n with
                | zero => cases h
                | succ n =>
                  have h' : whileFuel TrajState.running (traj_body rcpr mat o) (n + 1)
                    ⟨q, qs, qs.length⟩ t1 = .ok (s, t') := h
                  rw [whileFuel_succ_run] at h'
                  by_cases hc' : TrajState.running (⟨q, qs, qs.length⟩ : TrajState F) = true
                  · clear h'
                    have hend : TrajState.running s = false := by
                      have := sat_of_ok (sat_whileFuel (E := fun _ => True)
                        (cond := TrajState.running) (body := traj_body rcpr mat o)
                        (fun _ _ => True) trivial (fun _ _ _ _ => sat_mono (sat_trivial _)
                          (fun _ _ _ => trivial) (fun _ _ => trivial)) _ _ t1 trivial) h
                      exact this.2
                    unfold TrajState.running at hend
                    rw [h4, hs, hl] at hend
                    simp at hend
                  · unfold TrajState.running at hc'
                    rw [hs, hl] at hc'
                    simp at hc'
            rw [h3, h1, hmore, List.append_nil]
    · rw [if_neg hc] at h
      injection h with h
      injection h with h1 h2
      subst h1 h2
      refine ⟨[], by simp, .finished ?_, Or.inr ⟨rfl, rfl⟩⟩
      unfold TrajState.running at hc
      cases hs : p.stopped <;> cases hl : p.left <;> simp_all

/-- The trajectory loop completes a path. -/
theorem loop_of_path {p q : Particle F} {recoils : List (Particle F)} {t t' : Tape F}
    (h : Path rcpr mat o p t q recoils t') : ∃ N, ∀ fuel, N ≤ fuel →
    ∀ ps i, (p.stopped = false ∧ p.left = false ∨ i = ps.length) →
      whileFuel TrajState.running (traj_body rcpr mat o) fuel ⟨p, ps, i⟩ t
        = .ok (⟨q, ps ++ recoils, (ps ++ recoils).length⟩, t') := by
  induction h with
  | @finished p t hf =>
    refine ⟨1, fun fuel hfu ps i hi => ?_⟩
    obtain ⟨n, rfl⟩ : ∃ n, fuel = n + 1 := ⟨fuel - 1, by omega⟩
    rw [whileFuel_succ_run, if_neg]
    · have : i = ps.length := by
        rcases hi with ⟨h1, h2⟩ | hi
        · rcases hf with hf | hf
          · rw [h1] at hf; cases hf
          · rw [h2] at hf; cases hf
        · exact hi
      rw [this]; simp
    · unfold TrajState.running
      rcases hf with hf | hf <;> simp [hf]
  | @step p t q new t1 r more t2 hs hl hstep _ ih =>
    obtain ⟨N, hN⟩ := ih
    refine ⟨N + 1, fun fuel hfu ps i _ => ?_⟩
    obtain ⟨n, rfl⟩ : ∃ n, fuel = n + 1 := ⟨fuel - 1, by omega⟩
    rw [whileFuel_succ_run, if_pos (by simp [TrajState.running, hs, hl]), traj_body_run]
    have := step_below ps hstep
    rw [this]
    have h2 := hN n (by omega) (ps ++ new) (ps ++ new).length (Or.inr rfl)
    rw [List.append_assoc] at h2
    exact h2

theorem cascades_append {a b out : List (Particle F)} {t t' : Tape F} :
    Cascades rcpr mat o (a ++ b) t out t' ↔ ∃ x y t1, out = x ++ y ∧
      Cascades rcpr mat o a t x t1 ∧ Cascades rcpr mat o b t1 y t' := by
  induction a generalizing t out with
  | nil =>
    constructor
    · intro h; exact ⟨[], out, t, rfl, .nil, h⟩
    · rintro ⟨x, y, t1, rfl, h1, h2⟩; cases h1; exact h2
  | cons p a ih =>
    constructor
    · intro h
      cases h with
      | @cons _ _ _ q rec t1 sub t2 rest _ hp hsub hrest =>
        obtain ⟨x, y, t3, rfl, h1, h2⟩ := ih.1 hrest
        exact ⟨q :: (sub ++ x), y, t3, by simp, .cons hp hsub h1, h2⟩
    · rintro ⟨x, y, t1, rfl, h1, h2⟩
      cases h1 with
      | @cons _ _ _ q rec t2 sub t3 rest _ hp hsub hrest =>
        have := Cascades.cons hp hsub (ih.2 ⟨rest, y, t1, rfl, hrest, h2⟩)
        simpa using this

theorem path_recoils_fresh {p q : Particle F} {recoils : List (Particle F)} {t t' : Tape F}
    (h : Path rcpr mat o p t q recoils t') :
    ∀ r ∈ recoils, r.stopped = false ∧ r.left = false := by
  induction h with
  | finished _ => intro r hr; cases hr
  | @step p t q new t1 r more t2 hs hl hstep _ ih =>
    intro r hr
    rcases List.mem_append.mp hr with hr | hr
    · obtain ⟨n, h1, h2, _⟩ := (sat_of_ok (trajectory_step_sat rcpr mat o p [] t hs hl) hstep).stack
      simp only [List.nil_append] at h1
      subst h1
      exact ⟨(h2 r hr).stopped, (h2 r hr).left⟩
    · exact ih r hr

theorem path_unfinished_left {p q : Particle F} {recoils : List (Particle F)} {t t' : Tape F}
    (h : Path rcpr mat o p t q recoils t') : q.stopped = true ∨ q.left = true := by
  induction h with
  | finished h => exact h
  | step _ _ _ _ ih => exact ih

theorem cascade_body_run (fuel : Nat) (below : List (Particle F)) (p : Particle F)
    (acc : List (Particle F)) (i : Nat) (t : Tape F) :
    cascade_body rcpr mat o fuel ⟨below ++ [p], acc, i⟩ t =
      whileFuel TrajState.running (traj_body rcpr mat o) fuel ⟨p, below, i⟩ t >>= fun x =>
        .ok (⟨x.1.particles, acc ++ [x.1.particle_1], x.1.particle_index⟩, x.2) := by
  unfold cascade_body popLast
  simp only [List.getLast?_append, List.getLast?_singleton, Option.some_or, List.dropLast_concat]
  rfl

/-- The outer loop follows the cascades of the particles on its stack, the last first. -/
theorem cascades_of_loop (fuel : Nat) : ∀ (n : Nat) (ps acc : List (Particle F)) (t t' : Tape F)
    (s : CascadeState F), (∀ p ∈ ps, p.stopped = false ∧ p.left = false) →
    whileFuel (fun s : CascadeState F => decide (0 < s.particle_index))
      (cascade_body rcpr mat o fuel) n ⟨ps, acc, ps.length⟩ t = .ok (s, t') →
    ∃ out, s.particle_output = acc ++ out ∧ Cascades rcpr mat o ps.reverse t out t' := by
  intro n
  induction n with
  | zero => intro ps acc t t' s _ h; cases h
  | succ n ih =>
    intro ps acc t t' s hfr h
    rw [whileFuel_succ_run] at h
    rcases List.eq_nil_or_concat ps with rfl | ⟨below, p, rfl⟩
    · simp only [List.length_nil, lt_irrefl, decide_false, Bool.false_eq_true, if_false] at h
      injection h with h
      injection h with h1 h2
      subst h1 h2
      exact ⟨[], by simp, .nil⟩
    · rw [List.concat_eq_append] at h hfr ⊢
      rw [if_pos (by simp), cascade_body_run] at h
      cases hx : whileFuel TrajState.running (traj_body rcpr mat o) fuel
          ⟨p, below, (below ++ [p]).length⟩ t with
      | error e => rw [hx] at h; cases h
      | ok x =>
        obtain ⟨ts, t1⟩ := x
        rw [hx] at h
        obtain ⟨rec, h1, h2, h3⟩ := path_of_loop _ _ _ _ _ _ _ hx
        have hp := hfr p (by simp)
        have hidx : ts.particle_index = ts.particles.length := by
          rcases h3 with h3 | ⟨_, h3⟩
          · exact h3
          · have := path_unfinished_left h2
            rw [h3, hp.1, hp.2] at this
            simp at this
        have h' : whileFuel (fun s : CascadeState F => decide (0 < s.particle_index))
          (cascade_body rcpr mat o fuel) n ⟨ts.particles, acc ++ [ts.particle_1],
            ts.particle_index⟩ t1 = .ok (s, t') := h
        rw [hidx] at h'
        obtain ⟨out, ho1, ho2⟩ := ih _ _ _ _ _ (by
          rw [h1]
          intro r hr
          rcases List.mem_append.mp hr with hr | hr
          · exact hfr r (by simp [hr])
          · exact path_recoils_fresh h2 r hr) h'
        rw [h1, List.reverse_append] at ho2
        obtain ⟨x, y, t2, rfl, hc1, hc2⟩ := cascades_append.1 ho2
        refine ⟨ts.particle_1 :: (x ++ y), by rw [ho1]; simp, ?_⟩
        rw [List.reverse_append]
        exact .cons h2 hc1 hc2

/-- The outer loop completes the cascades. -/
theorem loop_of_cascades {ps out : List (Particle F)} {t t' : Tape F}
    (h : Cascades rcpr mat o ps t out t') (hfr : ∀ p ∈ ps, p.stopped = false ∧ p.left = false) :
    ∃ N, ∀ fuel, N ≤ fuel → ∀ n below acc,
      whileFuel (fun s : CascadeState F => decide (0 < s.particle_index))
        (cascade_body rcpr mat o fuel) (n + out.length)
        ⟨below ++ ps.reverse, acc, (below ++ ps.reverse).length⟩ t
      = whileFuel (fun s : CascadeState F => decide (0 < s.particle_index))
        (cascade_body rcpr mat o fuel) n ⟨below, acc ++ out, below.length⟩ t' := by
  induction h with
  | nil => exact ⟨0, fun fuel _ n below acc => by simp⟩
  | @cons p ps t q rec t1 sub t2 out t3 hp hsub hrest ih1 ih2 =>
    obtain ⟨N0, h0⟩ := loop_of_path hp
    obtain ⟨N1, h1⟩ := ih1 (fun r hr => path_recoils_fresh hp r (List.mem_reverse.1 hr))
    obtain ⟨N2, h2⟩ := ih2 (fun r hr => hfr r (List.mem_cons_of_mem _ hr))
    refine ⟨max N0 (max N1 N2), fun fuel hfu n below acc => ?_⟩
    have e1 : below ++ (p :: ps).reverse = (below ++ ps.reverse) ++ [p] := by simp
    have e2 : n + (q :: (sub ++ out)).length = (n + out.length + sub.length) + 1 := by
      simp; omega
    rw [e1, e2, whileFuel_succ_run, if_pos (by simp), cascade_body_run,
      h0 fuel (by omega) _ _ (Or.inl (hfr p (by simp)))]
    have g1 := h1 fuel (by omega) (n + out.length) (below ++ ps.reverse) (acc ++ [q])
    have g2 := h2 fuel (by omega) n below (acc ++ [q] ++ sub)
    rw [List.reverse_reverse] at g1
    have e3 : acc ++ q :: (sub ++ out) = acc ++ [q] ++ sub ++ out := by simp
    rw [e3, ← g2, ← g1]
    rfl

end RustBCA
