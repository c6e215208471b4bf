import Verif.Model.Physics

/-!
# A target that answers more questions

`RLe a b`: if `a` succeeds, so does `b`, with the same result.  A simulation in a target `g` that succeeds
succeeds in every target that gives the same answers wherever `g` gives one.
-/

namespace RustBCA
open Scalar

/-- If the first succeeds, so does the second, with the same result. -/
def RLe {α : Type} (a b : Res α) : Prop := ∀ x, a = .ok x → b = .ok x

/-- The same on every stream of random numbers. -/
def MLe {F α : Type} (m m' : M F α) : Prop := ∀ t, RLe (m t) (m' t)

section
variable {F α β σ : Type}

theorem rle_refl (a : Res α) : RLe a a := fun _ h => h

theorem rle_bind {a a' : Res α} {f f' : α → Res β} (h : RLe a a') (hf : ∀ x, RLe (f x) (f' x)) :
    RLe (a >>= f) (a' >>= f') := by
  intro y hy
  cases ha : a with
  | error e => rw [ha] at hy; cases hy
  | ok x =>
    rw [ha] at hy
    rw [h x ha]
    exact hf x y hy

theorem rle_map {a a' : Res α} (f : α → β) (h : RLe a a') : RLe (f <$> a) (f <$> a') := by
  intro y hy
  cases ha : a with
  | error e => rw [ha] at hy; cases hy
  | ok x =>
    rw [ha] at hy
    rw [h x ha]
    exact hy

theorem rle_ite {c : Prop} [Decidable c] {a a' b b' : Res α} (h : RLe a a') (h' : RLe b b') :
    RLe (if c then a else b) (if c then a' else b') := by
  split
  · exact h
  · exact h'

theorem rle_forFold {body body' : σ → α → Res σ} (h : ∀ s a, RLe (body s a) (body' s a)) :
    ∀ (l : List α) (s : σ), RLe (forFold body l s) (forFold body' l s) := by
  intro l
  induction l with
  | nil => intro s; exact rle_refl _
  | cons a l ih => intro s; exact rle_bind (h s a) ih

theorem mle_refl (m : M F α) : MLe m m := fun _ => rle_refl _

theorem mle_bind {m m' : M F α} {f f' : α → M F β} (h : MLe m m') (hf : ∀ x, MLe (f x) (f' x)) :
    MLe (m >>= f) (m' >>= f') := fun t => rle_bind (h t) fun p => hf p.1 p.2

theorem mle_lift {a a' : Res α} (h : RLe a a') : MLe (liftM a : M F α) (liftM a') := by
  intro t x hx
  cases ha : a with
  | error e => rw [ha] at hx; cases hx
  | ok y =>
    rw [ha] at hx
    rw [h y ha]
    exact hx

theorem mle_ite {c : Prop} [Decidable c] {a a' b b' : M F α} (h : MLe a a') (h' : MLe b b') :
    MLe (if c then a else b) (if c then a' else b') := by
  split
  · exact h
  · exact h'

theorem mle_forFold {body body' : σ → α → M F σ} (h : ∀ s a, MLe (body s a) (body' s a)) :
    ∀ (l : List α) (s : σ), MLe (forFold body l s) (forFold body' l s) := by
  intro l
  induction l with
  | nil => intro s; exact mle_refl _
  | cons a l ih => intro s; exact mle_bind (h s a) ih

theorem mle_whileFuel {cond : σ → Bool} {body body' : σ → M F σ} (h : ∀ s, MLe (body s) (body' s)) :
    ∀ (n : Nat) (s : σ), MLe (whileFuel cond body n s) (whileFuel cond body' n s) := by
  intro n
  induction n with
  | zero => intro s; exact mle_refl _
  | succ n ih => intro s; unfold whileFuel; exact mle_ite (mle_bind (h s) ih) (mle_refl _)

end

variable {F : Type} [Scalar F]

/-- The second geometry answers whatever the first answers, alike. -/
structure GeomLe (g g' : Geom F) : Prop where
  densities : ∀ x y z, RLe (g.get_densities x y z) (g'.get_densities x y z)
  ck : ∀ x y z, RLe (g.get_ck x y z) (g'.get_ck x y z)
  total : ∀ x y z, RLe (g.get_total_density x y z) (g'.get_total_density x y z)
  concentrations : ∀ x y z, RLe (g.get_concentrations x y z) (g'.get_concentrations x y z)
  inside : ∀ x y z, RLe (g.inside x y z) (g'.inside x y z)
  boundary : ∀ x y z, RLe (g.inside_simulation_boundary x y z) (g'.inside_simulation_boundary x y z)
  barrier : ∀ x y z, RLe (g.inside_energy_barrier x y z) (g'.inside_energy_barrier x y z)
  closest : ∀ x y z, RLe (g.closest_point x y z) (g'.closest_point x y z)

/-- The same material in another geometry. -/
abbrev Material.on (mat : Material F) (g : Geom F) : Material F := { mat with geometry := g }

section
variable {g g' : Geom F} (h : GeomLe g g') (mat : Material F)
include h

theorem mono_surface_Es (p : Particle F) (x y z : F) :
    RLe ((mat.on g).actual_surface_binding_energy p x y z) ((mat.on g').actual_surface_binding_energy p x y z) :=
  rle_bind (h.concentrations x y z) fun _ => rle_refl _

theorem mono_stopping (p : Particle F) (mode : ElectronicStoppingMode) :
    RLe ((mat.on g).electronic_stopping_cross_sections p mode)
      ((mat.on g').electronic_stopping_cross_sections p mode) :=
  rle_bind (h.ck _ _ _) fun _ => rle_bind (h.densities _ _ _) fun _ => rle_refl _

theorem mono_entering (p : Particle F) (Es : F) :
    RLe (surface_entering p (mat.on g) Es) (surface_entering p (mat.on g') Es) :=
  rle_ite (rle_refl _) (rle_bind (h.closest _ _ _) fun _ => rle_refl _)

theorem mono_leaving (p : Particle F) (Es : F) :
    RLe (surface_leaving p (mat.on g) Es) (surface_leaving p (mat.on g') Es) :=
  rle_bind (h.closest _ _ _) fun _ => rle_refl _

theorem mono_surface (p : Particle F) :
    RLe (surface_binding_energy p (mat.on g)) (surface_binding_energy p (mat.on g')) := by
  unfold surface_binding_energy
  exact rle_bind (mono_surface_Es h mat _ _ _ _) fun _ => rle_bind (h.barrier _ _ _) fun _ =>
    rle_bind (h.barrier _ _ _) fun _ => rle_bind (rle_ite (mono_entering h mat _ _) (rle_refl _)) fun _ =>
      rle_ite (mono_leaving h mat _ _) (rle_refl _)

theorem mono_boundary (p : Particle F) :
    RLe (boundary_condition_planar p (mat.on g)) (boundary_condition_planar p (mat.on g')) := by
  unfold boundary_condition_planar
  exact rle_bind (h.boundary _ _ _) fun _ => rle_bind (h.barrier _ _ _) fun _ =>
    rle_ite (mono_surface h mat _) (rle_refl _)

theorem mono_ffp (p : Particle F) : RLe (ffp_limits p (mat.on g)) (ffp_limits p (mat.on g')) := by
  unfold ffp_limits
  exact rle_bind (rle_map _ (h.concentrations _ _ _)) fun _ => rle_bind (rle_map _ (h.concentrations _ _ _)) fun _ =>
    rle_bind (h.densities _ _ _) fun _ => rle_bind (h.ck _ _ _) fun _ =>
    rle_bind (rle_map _ (h.densities _ _ _)) fun _ => rle_bind (mono_stopping h mat _ _) fun _ =>
    rle_bind (h.densities _ _ _) fun _ =>
    rle_ite (rle_bind (rle_map _ (h.densities _ _ _)) fun _ => rle_refl _) (rle_refl _)

theorem mono_determine (p : Particle F) (o : Options F) :
    MLe (determine_mfp_phi_impact_parameter p (mat.on g) o) (determine_mfp_phi_impact_parameter p (mat.on g') o) := by
  unfold determine_mfp_phi_impact_parameter
  refine mle_bind (mle_lift (rle_map _ (rle_map _ (h.densities _ _ _)))) fun mfp => mle_bind (mle_refl _) fun phis => ?_
  refine mle_ite (mle_bind (mle_lift (mono_ffp h mat _)) fun lim => mle_ite ?_ (mle_refl _)) (mle_refl _)
  refine mle_bind (mle_refl _) fun _ => mle_bind (mle_refl _) fun _ => mle_bind ?_ fun _ => mle_refl _
  cases o.mean_free_path_model with
  | GASEOUS => exact mle_refl _
  | LIQUID => exact mle_refl _
  | THRESHOLD d => exact mle_bind (mle_lift (h.densities _ _ _)) fun _ => mle_refl _

theorem mono_partner (p : Particle F) (b : BinaryCollisionGeometry F) (o : Options F) :
    MLe (choose_collision_partner p (mat.on g) b o) (choose_collision_partner p (mat.on g') b o) := by
  unfold choose_collision_partner Material.choose
  exact mle_bind (mle_bind (mle_refl _) fun _ => mle_bind
    (mle_lift (rle_bind (h.concentrations _ _ _) fun _ => rle_refl _)) fun _ => mle_refl _) fun _ => mle_refl _

theorem mono_electronic (p : Particle F) (d x0 Z : F) (i : Nat) (o : Options F) :
    RLe (subtract_electronic_stopping_energy p (mat.on g) d x0 Z i o)
      (subtract_electronic_stopping_energy p (mat.on g') d x0 Z i o) := by
  unfold subtract_electronic_stopping_energy
  exact rle_bind (rle_refl _) fun _ => rle_bind (h.inside _ _ _) fun _ => rle_ite
    (rle_bind (rle_refl _) fun _ => rle_bind (rle_refl _) fun _ => rle_bind (rle_refl _) fun _ =>
      rle_bind (mono_stopping h mat _ _) fun _ => rle_bind (h.densities _ _ _) fun _ => rle_refl _) (rle_refl _)

theorem mono_keep (p q : Particle F) (o : Options F) :
    RLe (keep_recoil p q (mat.on g) o) (keep_recoil p q (mat.on g') o) :=
  rle_ite (rle_bind (rle_map _ (h.densities _ _ _)) fun _ => rle_bind (h.closest _ _ _) fun _ => rle_refl _) (rle_refl _)

theorem mono_apply (o : Options F) (k : Nat) (b : BinaryCollisionGeometry F) (i : Nat) (q : Particle F)
    (r : BinaryCollisionResult F) (s : StepState F) :
    RLe (apply_collision (mat.on g) o k b i q r s) (apply_collision (mat.on g') o k b i q r s) := by
  unfold apply_collision
  exact rle_bind (rle_map _ (h.concentrations _ _ _)) fun _ => rle_bind (mono_keep h mat _ _ _) fun _ => rle_refl _

theorem mono_collision (rcpr : Rcpr F) (o : Options F) (s : StepState F) (gk : BinaryCollisionGeometry F × Nat) :
    MLe (collision_step rcpr (mat.on g) o s gk) (collision_step rcpr (mat.on g') o s gk) := by
  unfold collision_step
  exact mle_bind (mono_partner h mat _ _ _) fun _ => mle_bind (mle_lift (h.inside _ _ _)) fun _ =>
    mle_bind (mle_lift (h.barrier _ _ _)) fun _ => mle_ite (mle_bind (mle_refl _) fun _ =>
      mle_bind (mle_refl _) fun _ => mle_lift (mono_apply h mat _ _ _ _ _ _ _)) (mle_refl _)

theorem mono_finish (o : Options F) (bs : List (BinaryCollisionGeometry F)) (s : StepState F) :
    RLe (finish_step (mat.on g) o bs s) (finish_step (mat.on g') o bs s) := by
  unfold finish_step
  exact rle_bind (rle_refl _) fun _ => rle_bind (mono_electronic h mat _ _ _ _ _ _) fun _ =>
    rle_bind (mono_boundary h mat _) fun _ => rle_refl _

theorem mono_trajectory (rcpr : Rcpr F) (o : Options F) (p : Particle F) (ps : List (Particle F)) :
    MLe (trajectory_step rcpr (mat.on g) o p ps) (trajectory_step rcpr (mat.on g') o p ps) :=
  mle_bind (mono_determine h mat _ _) fun _ => mle_bind
    (mle_forFold (mono_collision h mat rcpr o) _ _) fun _ => mle_lift (mono_finish h mat _ _ _)

/-- A simulation that succeeds in `g` has the same result in `g'`. -/
theorem mono_cascade (rcpr : Rcpr F) (fuel : Nat) (ion : Particle F) (o : Options F) :
    MLe (single_ion_bca rcpr fuel ion (mat.on g) o) (single_ion_bca rcpr fuel ion (mat.on g') o) :=
  mle_bind (mle_whileFuel (fun _ => mle_bind (mle_refl _) fun _ => mle_bind
    (mle_whileFuel (fun _ => mle_bind (mono_trajectory h mat rcpr o _ _) fun _ => mle_refl _) _ _)
      fun _ => mle_refl _) _ _) fun _ => mle_refl _

end

/-! ## Runs -/

section
variable {α β : Type} {f f' : α → Res (List β)}

theorem rle_seq (h : ∀ a, RLe (f a) (f' a)) : ∀ l, RLe (seq_collect f l) (seq_collect f' l) := by
  intro l
  induction l with
  | nil => exact rle_refl _
  | cons a l ih => exact rle_bind (h a) fun _ => rle_bind ih fun _ => rle_refl _

theorem rle_par (h : ∀ a, RLe (f a) (f' a)) : ∀ s l, RLe (par_collect f s l) (par_collect f' s l) := by
  intro s
  induction s with
  | leaf => exact rle_seq h
  | node mid l r ihl ihr => intro xs; exact rle_bind (ihl _) fun _ => rle_bind (ihr _) fun _ => rle_refl _

end

/-- A run that succeeds with `sim` has the same outcome with `sim'`. -/
theorem rle_physics_loop {α : Type} {sim sim' : α → Res (List (Particle F))} (h : ∀ a, RLe (sim a) (sim' a))
    (cfg : OutputConfig F) (o : Options F) (splits : List Split) (ions : List α) :
    RLe (physics_loop cfg o sim splits ions) (physics_loop cfg o sim' splits ions) := by
  unfold physics_loop
  refine rle_bind (rle_refl _) fun _ => rle_bind (rle_refl _) fun _ => rle_forFold (fun s c => ?_) _ _
  unfold process_chunk
  exact rle_bind (rle_ite (rle_par h _ _) (rle_seq h _)) fun _ => rle_refl _

theorem mono_run {g g' : Geom F} (h : GeomLe g g') (mat : Material F) (rcpr : Rcpr F) (fuel : Nat)
    (cfg : OutputConfig F) (o : Options F) (splits : List Split) (tapes : Nat → Tape F)
    (inputs : List (ParticleInput F)) :
    RLe (physics_loop_run rcpr fuel cfg (mat.on g) o splits tapes inputs)
      (physics_loop_run rcpr fuel cfg (mat.on g') o splits tapes inputs) :=
  rle_physics_loop (fun _ => rle_bind (rle_refl _) fun _ => rle_bind (mono_cascade h mat rcpr fuel _ o _)
    fun _ => rle_refl _) cfg o splits _

end RustBCA
