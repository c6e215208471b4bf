import Verif.Spec.Streams
import Verif.Model.Bca

/-!
# Property C74: the random stream, and the fuel of the model's loops

For every scalar type, geometry and material.
-/

set_option linter.unusedSectionVars false

namespace RustBCA
open Scalar Spec
variable {F : Type} [Scalar F]

section
variable {α β σ : Type}

theorem draws_pure (a : α) : DrawsInOrder (pure a : M F α) := by
  intro t b t' h
  have h' : (Except.ok (a, t) : Res (α × Tape F)) = .ok (b, t') := h
  injection h' with h'; injection h' with h1 h2; subst h1 h2
  refine ⟨0, ?_, fun u _ => ?_⟩
  · funext i; simp [after]
  · show (Except.ok (a, u) : Res (α × Tape F)) = _
    congr 2; funext i; simp [after]

theorem draws_lift (r : Res α) : DrawsInOrder (liftM r : M F α) := by
  intro t b t' h
  cases r with
  | error e => exact absurd h (by intro h; cases h)
  | ok a => exact draws_pure a t b t' h

theorem draws_random : DrawsInOrder (random : M F F) := by
  intro t b t' h
  unfold random at h
  injection h with h; injection h with h1 h2; subst h1 h2
  refine ⟨1, ?_, fun u hu => ?_⟩
  · funext i; simp [after, Nat.add_comm]
  · unfold random
    rw [hu 0 (by omega)]
    congr 2; funext i; simp [after, Nat.add_comm]

theorem draws_bind {m : M F α} {f : α → M F β} (hm : DrawsInOrder m)
    (hf : ∀ a, DrawsInOrder (f a)) : DrawsInOrder (m >>= f) := by
  intro t b t2 h
  have h' : (m t >>= fun p => f p.1 p.2) = .ok (b, t2) := h
  cases h1 : m t with
  | error e => rw [h1] at h'; exact absurd h' (by intro h; cases h)
  | ok p =>
    obtain ⟨a, t1⟩ := p
    rw [h1] at h'
    have h2 : f a t1 = .ok (b, t2) := h'
    obtain ⟨k1, e1, hk1⟩ := hm t a t1 h1
    obtain ⟨k2, e2, hk2⟩ := hf a t1 b t2 h2
    refine ⟨k1 + k2, ?_, fun u hu => ?_⟩
    · rw [e2, e1]; funext i; simp [after, Nat.add_assoc]
    · show (m u >>= fun p => f p.1 p.2) = _
      rw [hk1 u (fun i hi => hu i (by omega))]
      show f a (after k1 u) = _
      rw [hk2 (after k1 u) (fun i hi => by rw [e1]; exact hu (k1 + i) (by omega))]
      congr 2; funext i; simp [after, Nat.add_assoc]

theorem draws_ite {c : Prop} [Decidable c] {m m' : M F α} (h : DrawsInOrder m)
    (h' : DrawsInOrder m') : DrawsInOrder (if c then m else m') := by
  split
  · exact h
  · exact h'

theorem draws_forFold {body : σ → α → M F σ} (h : ∀ s a, DrawsInOrder (body s a)) :
    ∀ (l : List α) (s : σ), DrawsInOrder (forFold body l s) := by
  intro l
  induction l with
  | nil => intro s; exact draws_pure s
  | cons a l ih => intro s; exact draws_bind (h s a) ih

theorem draws_collectN {f : Nat → M F α} (h : ∀ k, DrawsInOrder (f k)) :
    ∀ n, DrawsInOrder (collectN f n) := by
  intro n
  induction n with
  | zero => exact draws_pure []
  | succ n ih => exact draws_bind ih fun l => draws_bind (h n) fun a => draws_pure _

theorem draws_whileFuel {cond : σ → Bool} {body : σ → M F σ} (h : ∀ s, DrawsInOrder (body s)) :
    ∀ (n : Nat) (s : σ), DrawsInOrder (whileFuel cond body n s) := by
  intro n
  induction n with
  | zero => intro s t b t' h; exact absurd h (by intro h; cases h)
  | succ n ih => intro s; unfold whileFuel; exact draws_ite (draws_bind (h s) ih) (draws_pure s)

end

/-! ## The simulation -/

theorem draws_exponential : DrawsInOrder (exponential : M F F) :=
  draws_bind draws_random fun _ => draws_pure _

theorem draws_phis (n : Nat) : DrawsInOrder (draw_phis n : M F (List F)) :=
  draws_collectN (fun _ => draws_bind draws_random fun _ => draws_pure _) n

theorem draws_determine (p : Particle F) (mat : Material F) (o : Options F) :
    DrawsInOrder (determine_mfp_phi_impact_parameter p mat o) := by
  have hfs : ∀ (p : Particle F) (a b : F), DrawsInOrder ((if p.first_step then do
      let r ← random
      pure ({ p with first_step := false }, a*r)
      else pure (p, b)) : M F (Particle F × F)) := fun p a b =>
    draws_ite (draws_bind draws_random fun _ => draws_pure _) (draws_pure _)
  unfold determine_mfp_phi_impact_parameter
  refine draws_bind (draws_lift _) fun mfp => draws_bind (draws_phis _) fun phis => ?_
  refine draws_ite ?_ ?_
  · refine draws_bind (draws_lift _) fun lim => draws_ite ?_ ?_
    · refine draws_bind draws_random fun r => draws_bind (hfs _ _ _) fun pf => draws_bind ?_ fun e =>
        draws_bind (draws_lift _) fun ph => draws_pure _
      cases o.mean_free_path_model with
      | GASEOUS => exact draws_exponential
      | LIQUID => exact draws_pure _
      | THRESHOLD d =>
        exact draws_bind (draws_lift _) fun _ => draws_ite draws_exponential (draws_pure _)
    · exact draws_bind draws_random fun r => draws_bind (hfs _ _ _) fun pf =>
        draws_bind (draws_ite (draws_bind draws_exponential fun _ => draws_pure _) (draws_pure _))
          fun e => draws_bind (draws_lift _) fun ph => draws_pure _
  · exact draws_bind (draws_collectN (fun k => draws_bind draws_random fun _ => draws_pure _) _)
      fun ips => draws_bind (hfs _ _ _) fun pf =>
        draws_bind (draws_ite (draws_bind draws_exponential fun _ => draws_pure _) (draws_pure _))
          fun e => draws_pure _

theorem draws_partner (p : Particle F) (mat : Material F) (g : BinaryCollisionGeometry F)
    (o : Options F) : DrawsInOrder (choose_collision_partner p mat g o) := by
  unfold choose_collision_partner Material.choose
  refine draws_bind (draws_bind draws_random fun r => draws_bind (draws_lift _) fun cs => ?_)
    fun s => draws_pure _
  split
  · exact draws_lift _
  · exact draws_lift _

theorem draws_collision_step (rcpr : Rcpr F) (mat : Material F) (o : Options F) (s : StepState F)
    (gk : BinaryCollisionGeometry F × Nat) : DrawsInOrder (collision_step rcpr mat o s gk) := by
  obtain ⟨g, k⟩ := gk
  exact draws_bind (draws_partner _ _ _ _) fun sq => draws_bind (draws_lift _) fun i =>
    draws_bind (draws_lift _) fun b => draws_ite (draws_bind (draws_lift _) fun r =>
      draws_bind (draws_lift _) fun r => draws_lift _) (draws_pure _)

theorem draws_trajectory_step (rcpr : Rcpr F) (mat : Material F) (o : Options F) (p : Particle F)
    (ps : List (Particle F)) : DrawsInOrder (trajectory_step rcpr mat o p ps) :=
  draws_bind (draws_determine p mat o) fun r => draws_bind
    (draws_forFold (draws_collision_step rcpr mat o) _ _) fun s => draws_lift _

theorem draws_traj_body (rcpr : Rcpr F) (mat : Material F) (o : Options F) (s : TrajState F) :
    DrawsInOrder (traj_body rcpr mat o s) :=
  draws_bind (draws_trajectory_step rcpr mat o _ _) fun _ => draws_pure _

theorem draws_cascade_body (rcpr : Rcpr F) (mat : Material F) (o : Options F) (fuel : Nat)
    (s : CascadeState F) : DrawsInOrder (cascade_body rcpr mat o fuel s) :=
  draws_bind (draws_lift _) fun _ => draws_bind
    (draws_whileFuel (draws_traj_body rcpr mat o) _ _) fun _ => draws_pure _

/-- **C74.** A simulation of one ion draws its random numbers one after the other: it uses up the
first `k` numbers of the stream, each once, leaves exactly the rest to the next ion, and its result
depends on no other number. -/
theorem C74_stream (rcpr : Rcpr F) (fuel : Nat) (ion : Particle F) (mat : Material F)
    (o : Options F) : DrawsInOrder (single_ion_bca rcpr fuel ion mat o) :=
  draws_bind (draws_whileFuel (draws_cascade_body rcpr mat o fuel) _ _) fun _ => draws_pure _

/-! ## Fuel -/

theorem whileFuel_mono {σ : Type} {cond : σ → Bool} {body body' : σ → M F σ}
    (hb : ∀ s t, body s t ≠ .error .fuel → body' s t = body s t) :
    ∀ (n n' : Nat) (s : σ) (t : Tape F), n ≤ n' → whileFuel cond body n s t ≠ .error .fuel →
      whileFuel cond body' n' s t = whileFuel cond body n s t := by
  intro n
  induction n with
  | zero => intro n' s t _ h; exact absurd rfl h
  | succ n ih =>
    intro n' s t hn h
    cases n' with
    | zero => omega
    | succ n' =>
      unfold whileFuel at h ⊢
      by_cases hc : cond s = true
      · simp only [hc, if_true] at h ⊢
        have h' : (body s t >>= fun p => whileFuel cond body n p.1 p.2) ≠ .error .fuel := h
        show (body' s t >>= fun p => whileFuel cond body' n' p.1 p.2)
          = (body s t >>= fun p => whileFuel cond body n p.1 p.2)
        cases hr : body s t with
        | error e =>
          rw [hr] at h'
          rw [hb s t (by rw [hr]; exact h'), hr]
          rfl
        | ok p =>
          rw [hr] at h'
          rw [hb s t (by rw [hr]; intro hh; cases hh), hr]
          exact ih n' p.1 p.2 (by omega) h'
      · simp only [hc, Bool.false_eq_true, if_false] at h ⊢

/-- **C74, fuel.** The bound the model puts on its loops has no influence: a run that did not
exhaust it has the same outcome (result, stream left, or panic) with every larger bound. -/
theorem C74_fuel (rcpr : Rcpr F) (fuel fuel' : Nat) (ion : Particle F) (mat : Material F)
    (o : Options F) (tape : Tape F) (hle : fuel ≤ fuel')
    (h : single_ion_bca rcpr fuel ion mat o tape ≠ .error .fuel) :
    single_ion_bca rcpr fuel' ion mat o tape = single_ion_bca rcpr fuel ion mat o tape := by
  have hbody : ∀ (s : CascadeState F) (t : Tape F),
      cascade_body rcpr mat o fuel s t ≠ .error .fuel →
      cascade_body rcpr mat o fuel' s t = cascade_body rcpr mat o fuel s t := by
    intro s t hs
    unfold cascade_body at hs ⊢
    cases hp : popLast s.particles with
    | error e => rfl
    | ok p =>
      rw [hp] at hs
      obtain ⟨p1, ps⟩ := p
      obtain ⟨W, hW⟩ : ∃ W, W = whileFuel TrajState.running (traj_body rcpr mat o) fuel
        ⟨p1, ps, s.particle_index⟩ t := ⟨_, rfl⟩
      have hne : W ≠ .error .fuel := by
        intro hh
        apply hs
        show ((whileFuel TrajState.running (traj_body rcpr mat o) fuel
          ⟨p1, ps, s.particle_index⟩ t) >>= _) = _
        rw [← hW, hh]; rfl
      have hm := whileFuel_mono (body := traj_body rcpr mat o) (body' := traj_body rcpr mat o)
        (cond := TrajState.running) (fun _ _ _ => rfl) fuel fuel' ⟨p1, ps, s.particle_index⟩ t hle
        (hW ▸ hne)
      show ((whileFuel TrajState.running (traj_body rcpr mat o) fuel'
          ⟨p1, ps, s.particle_index⟩ t) >>= _) = ((whileFuel TrajState.running
          (traj_body rcpr mat o) fuel ⟨p1, ps, s.particle_index⟩ t) >>= _)
      rw [hm]
  unfold single_ion_bca at h ⊢
  obtain ⟨W, hW⟩ : ∃ W, W = whileFuel (fun s : CascadeState F => decide (0 < s.particle_index))
    (cascade_body rcpr mat o fuel) fuel ⟨[ion], [], 1⟩ tape := ⟨_, rfl⟩
  have hne : W ≠ .error .fuel := by
    intro hh
    apply h
    show ((whileFuel (fun s : CascadeState F => decide (0 < s.particle_index))
      (cascade_body rcpr mat o fuel) fuel ⟨[ion], [], 1⟩ tape) >>= _) = _
    rw [← hW, hh]; rfl
  have hm := whileFuel_mono (cond := fun s : CascadeState F => decide (0 < s.particle_index))
    hbody fuel fuel' ⟨[ion], [], 1⟩ tape hle (hW ▸ hne)
  show ((whileFuel (fun s : CascadeState F => decide (0 < s.particle_index))
      (cascade_body rcpr mat o fuel') fuel' ⟨[ion], [], 1⟩ tape) >>= _)
    = ((whileFuel (fun s : CascadeState F => decide (0 < s.particle_index))
      (cascade_body rcpr mat o fuel) fuel ⟨[ion], [], 1⟩ tape) >>= _)
  rw [hm]

end RustBCA
