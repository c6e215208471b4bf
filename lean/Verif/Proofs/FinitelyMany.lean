import Verif.Model.Bca
import Verif.Spec.Statistics
import Mathlib.Data.Set.Finite.Lattice

/-!
# A computation with finitely many random numbers to draw from has finitely many results (helper lemmas)
-/

set_option linter.unusedSectionVars false

namespace RustBCA
open Scalar Spec
variable {F : Type} [Scalar F]

/-- On the streams of numbers from `V` the computation has finitely many results. -/
def FinitelyMany {β : Type} (V : Set F) (m : M F β) : Prop :=
  ∃ S : Set β, S.Finite ∧ ∀ t, (∀ n, t n ∈ V) → ∀ b t', m t = .ok (b, t') → b ∈ S ∧ ∀ n, t' n ∈ V

section
variable {α β σ : Type} {V : Set F}

theorem finitely_pure (a : α) : FinitelyMany V (pure a : M F α) := by
  refine ⟨{a}, Set.finite_singleton a, fun t ht b t' h => ?_⟩
  have h' : (Except.ok (a, t) : Res (α × Tape F)) = .ok (b, t') := h
  injection h' with h'; injection h' with h1 h2; subst h1 h2
  exact ⟨rfl, ht⟩

theorem finitely_lift (r : Res α) : FinitelyMany V (liftM r : M F α) := by
  cases r with
  | error e => exact ⟨∅, Set.finite_empty, fun t ht b t' h => absurd h (by intro h; cases h)⟩
  | ok a => exact finitely_pure a

theorem finitely_random (hV : V.Finite) : FinitelyMany V (random : M F F) := by
  refine ⟨V, hV, fun t ht b t' h => ?_⟩
  unfold random at h
  injection h with h; injection h with h1 h2; subst h1 h2
  exact ⟨ht 0, fun n => ht _⟩

theorem finitely_bind {m : M F α} {f : α → M F β} (hm : FinitelyMany V m) (hf : ∀ a, FinitelyMany V (f a)) :
    FinitelyMany V (m >>= f) := by
  obtain ⟨S, hS, h1⟩ := hm
  choose T hT h2 using hf
  refine ⟨⋃ a ∈ S, T a, hS.biUnion fun a _ => hT a, fun t ht b t2 h => ?_⟩
  have h' : (m t >>= fun p => f p.1 p.2) = .ok (b, t2) := h
  cases hmt : m t with
  | error e => rw [hmt] at h'; exact absurd h' (by intro h; cases h)
  | ok p =>
    obtain ⟨a, t1⟩ := p
    rw [hmt] at h'
    have h3 : f a t1 = .ok (b, t2) := h'
    obtain ⟨ha, ht1⟩ := h1 t ht a t1 hmt
    obtain ⟨hb, ht2⟩ := h2 a t1 ht1 b t2 h3
    exact ⟨Set.mem_biUnion ha hb, ht2⟩

theorem finitely_ite {c : Prop} [Decidable c] {m m' : M F α} (h : FinitelyMany V m) (h' : FinitelyMany V m') :
    FinitelyMany V (if c then m else m') := by
  split
  · exact h
  · exact h'

theorem finitely_forFold {body : σ → α → M F σ} (h : ∀ s a, FinitelyMany V (body s a)) :
    ∀ (l : List α) (s : σ), FinitelyMany V (forFold body l s) := by
  intro l
  induction l with
  | nil => intro s; exact finitely_pure s
  | cons a l ih => intro s; exact finitely_bind (h s a) ih

theorem finitely_collectN {f : Nat → M F α} (h : ∀ k, FinitelyMany V (f k)) :
    ∀ n, FinitelyMany V (collectN f n) := by
  intro n
  induction n with
  | zero => exact finitely_pure []
  | succ n ih => exact finitely_bind ih fun l => finitely_bind (h n) fun a => finitely_pure _

theorem finitely_whileFuel {cond : σ → Bool} {body : σ → M F σ} (h : ∀ s, FinitelyMany V (body s)) :
    ∀ (n : Nat) (s : σ), FinitelyMany V (whileFuel cond body n s) := by
  intro n
  induction n with
  | zero => intro s; exact ⟨∅, Set.finite_empty, fun t ht b t' h => absurd h (by intro h; cases h)⟩
  | succ n ih => intro s; unfold whileFuel; exact finitely_ite (finitely_bind (h s) ih) (finitely_pure s)

end

variable {V : Set F} (hV : V.Finite)
include hV

theorem finitely_exponential : FinitelyMany V (exponential : M F F) :=
  finitely_bind (finitely_random hV) fun _ => finitely_pure _

theorem finitely_phis (n : Nat) : FinitelyMany V (draw_phis n : M F (List F)) :=
  finitely_collectN (fun _ => finitely_bind (finitely_random hV) fun _ => finitely_pure _) n

theorem finitely_determine (p : Particle F) (mat : Material F) (o : Options F) :
    FinitelyMany V (determine_mfp_phi_impact_parameter p mat o) := by
  have hr := finitely_random hV
  have he := finitely_exponential hV
  have hfs : ∀ (p : Particle F) (a b : F), FinitelyMany V ((if p.first_step then do
      let r ← random
      pure ({ p with first_step := false }, a*r)
      else pure (p, b)) : M F (Particle F × F)) := fun p a b =>
    finitely_ite (finitely_bind hr fun _ => finitely_pure _) (finitely_pure _)
  unfold determine_mfp_phi_impact_parameter
  refine finitely_bind (finitely_lift _) fun mfp => finitely_bind (finitely_phis hV _) fun phis => ?_
  refine finitely_ite ?_ ?_
  · refine finitely_bind (finitely_lift _) fun lim => finitely_ite ?_ ?_
    · refine finitely_bind hr fun r => finitely_bind (hfs _ _ _) fun pf => finitely_bind ?_ fun e =>
        finitely_bind (finitely_lift _) fun ph => finitely_pure _
      cases o.mean_free_path_model with
      | GASEOUS => exact he
      | LIQUID => exact finitely_pure _
      | THRESHOLD d =>
        exact finitely_bind (finitely_lift _) fun _ => finitely_ite he (finitely_pure _)
    · exact finitely_bind hr fun r => finitely_bind (hfs _ _ _) fun pf =>
        finitely_bind (finitely_ite (finitely_bind he fun _ => finitely_pure _) (finitely_pure _))
          fun e => finitely_bind (finitely_lift _) fun ph => finitely_pure _
  · exact finitely_bind (finitely_collectN (fun k => finitely_bind hr fun _ => finitely_pure _) _)
      fun ips => finitely_bind (hfs _ _ _) fun pf =>
        finitely_bind (finitely_ite (finitely_bind he fun _ => finitely_pure _) (finitely_pure _))
          fun e => finitely_pure _

theorem finitely_partner (p : Particle F) (mat : Material F) (g : BinaryCollisionGeometry F)
    (o : Options F) : FinitelyMany V (choose_collision_partner p mat g o) := by
  unfold choose_collision_partner Material.choose
  refine finitely_bind (finitely_bind (finitely_random hV) fun r => finitely_bind (finitely_lift _) fun cs => ?_)
    fun s => finitely_pure _
  split
  · exact finitely_lift _
  · exact finitely_lift _

theorem finitely_collision_step (rcpr : Rcpr F) (mat : Material F) (o : Options F) (s : StepState F)
    (gk : BinaryCollisionGeometry F × Nat) : FinitelyMany V (collision_step rcpr mat o s gk) := by
  obtain ⟨g, k⟩ := gk
  exact finitely_bind (finitely_partner hV _ _ _ _) fun sq => finitely_bind (finitely_lift _) fun i =>
    finitely_bind (finitely_lift _) fun b => finitely_ite (finitely_bind (finitely_lift _) fun r =>
      finitely_bind (finitely_lift _) fun r => finitely_lift _) (finitely_pure _)

theorem finitely_single_ion (rcpr : Rcpr F) (fuel : Nat) (ion : Particle F) (mat : Material F)
    (o : Options F) : FinitelyMany V (single_ion_bca rcpr fuel ion mat o) := by
  have h1 : ∀ s, FinitelyMany V (traj_body rcpr mat o s) := fun s =>
    finitely_bind (finitely_bind (finitely_determine hV _ mat o) fun r => finitely_bind
      (finitely_forFold (finitely_collision_step hV rcpr mat o) _ _) fun s => finitely_lift _) fun _ => finitely_pure _
  have h2 : ∀ s, FinitelyMany V (cascade_body rcpr mat o fuel s) := fun s =>
    finitely_bind (finitely_lift _) fun _ => finitely_bind (finitely_whileFuel h1 _ _) fun _ => finitely_pure _
  exact finitely_bind (finitely_whileFuel h2 _ _) fun _ => finitely_pure _

theorem finitely_simulation (rcpr : Rcpr F) (fuel : Nat) (mat : Material F) (o : Options F) (input : ParticleInput F) :
    FinitelyMany V (simulation rcpr fuel mat o input) :=
  finitely_bind (finitely_lift _) fun _ => finitely_single_ion hV _ _ _ _ _

end RustBCA
