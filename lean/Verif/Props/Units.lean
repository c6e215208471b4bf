import Verif.Spec.Units
import Verif.Proofs.Relational
import Verif.Props.Input
import Verif.Props.Run

/-!
# C104: the units of the input file do not matter
-/

namespace RustBCA
open Scalar Spec

set_option linter.unusedSimpArgs false

/-- Ions that differ only in the length of the direction they were given. -/
def SameIon (c : ℝ) (q q' : ParticleInput ℝ) : Prop :=
  q' = { q with ux := c*q.ux, uy := c*q.uy, uz := c*q.uz }

theorem RRel.forFold {α σ σ' : Type} {I : σ → σ' → Prop} {body : σ → α → Res σ}
    {body' : σ' → α → Res σ'} (h : ∀ x y a, I x y → RRel I (body x a) (body' y a)) :
    ∀ (l : List α) (x : σ) (y : σ'), I x y → RRel I (forFold body l x) (forFold body' l y) := by
  intro l
  induction l with
  | nil => intro x y hI; exact RRel.pure hI
  | cons a l ih => intro x y hI; exact RRel.bind (h x y a hI) (fun b c hb => ih b c hb)

theorem MRel.collectN {F α β : Type} {R : α → β → Prop} {f : Nat → M F α} {g : Nat → M F β}
    (h : ∀ n, MRel R (f n) (g n)) : ∀ n, MRel (List.Forall₂ R) (collectN f n) (collectN g n) := by
  intro n
  induction n with
  | zero => exact MRel.pure List.Forall₂.nil
  | succ n ih =>
    unfold RustBCA.collectN
    refine MRel.bind ih fun l l' hl => MRel.bind (h n) fun a b hab => MRel.pure ?_
    exact List.rel_append hl (List.Forall₂.cons hab List.Forall₂.nil)

theorem vget_rel {α β : Type} {R : α → β → Prop} {l : List α} {l' : List β} (h : List.Forall₂ R l l')
    (i : Nat) : RRel R (vget l i) (vget l' i) := by
  induction h generalizing i with
  | nil => exact (rfl : _ = _)
  | cons ha _ ih =>
    cases i with
    | zero => exact ha
    | succ i => exact ih i

theorem same_values_rel {u u' : ℝ} {l l' : List ℝ} (h : SameValues u u' l l') :
    List.Forall₂ (fun a b => a*u = b*u') l l' := by
  unfold SameValues at h
  induction l generalizing l' with
  | nil => cases l' with
    | nil => exact .nil
    | cons b l' => simp at h
  | cons a l ih => cases l' with
    | nil => simp at h
    | cons b l' =>
      simp only [List.map_cons, List.cons.injEq] at h
      exact .cons h.1 (ih h.2)

theorem same_values_of {u u' : ℝ} {l l' : List ℝ} (h : List.Forall₂ (fun a b => a*u = b*u') l l') :
    SameValues u u' l l' := by
  unfold SameValues
  induction h with
  | nil => rfl
  | cons ha _ ih => simp only [List.map_cons, ha, ih]

/-- A drawn value does not depend on the unit. -/
theorem draw_same {sampler : Sampler ℝ} (hs : ScaleFree sampler) {u u' : ℝ} (hu : 0 < u) (hu' : 0 < u')
    {d d' : Distr ℝ} (h : SameQuantity u u' d d') : MRel Eq (draw sampler u d) (draw sampler u' d') := by
  have key : ∀ (f : ℝ → ℝ → M ℝ ℝ) (a b a' b' : ℝ)
      (_ : ∀ c a b t, 0 < c → f (c*a) (c*b) t = (f a b t).map fun r => (c*r.1, r.2))
      (_ : a*u = a'*u') (_ : b*u = b'*u'),
      MRel Eq (do let v ← f a b; pure (v*u) : M ℝ ℝ) (do let v ← f a' b'; pure (v*u') : M ℝ ℝ) := by
    intro f a b a' b' hf ha hb t
    have e1 : a = (u'/u)*a' := by field_simp; linarith
    have e2 : b = (u'/u)*b' := by field_simp; linarith
    have h1 := hf (u'/u) a' b' t (div_pos hu' hu)
    simp only [bind, StateT.bind, Except.bind]
    rw [e1, e2, h1]
    cases f a' b' t with
    | error e => exact (rfl : e = e)
    | ok r =>
      refine ⟨?_, rfl⟩
      show u'/u*r.1*u = r.1*u'
      field_simp
  cases d <;> cases d' <;> simp only [SameQuantity] at h
  · exact key sampler.uniform _ _ _ _ hs.uniform h.1 h.2
  · exact key sampler.normal _ _ _ _ hs.normal h.1 h.2
  · exact MRel.pure h

/-- A drawn direction component is scaled by the unit. -/
theorem draw_scaled (sampler : Sampler ℝ) {u u' : ℝ} (hu : 0 < u) (d : Distr ℝ) :
    MRel (fun a b => b = u'/u*a) (draw sampler u d) (draw sampler u' d) := by
  have key : ∀ m : M ℝ ℝ, MRel (fun a b => b = u'/u*a) (do let v ← m; pure (v*u) : M ℝ ℝ)
      (do let v ← m; pure (v*u') : M ℝ ℝ) := fun m =>
    MRel.bind_same rfl fun a => MRel.pure (by field_simp)
  cases d with
  | UNIFORM a b => exact key _
  | NORMAL a b => exact key _
  | POINT x => exact MRel.pure (by field_simp)

theorem draw_ux_scaled (sampler : Sampler ℝ) {u u' : ℝ} (hu : 0 < u) (d : Distr ℝ) :
    MRel (fun a b => b = u'/u*a) (draw_ux sampler u d) (draw_ux sampler u' d) := by
  cases d with
  | UNIFORM a b => exact draw_scaled sampler hu (.UNIFORM a b)
  | NORMAL a b => exact draw_scaled sampler hu (.NORMAL a b)
  | POINT x => exact MRel.bind_same rfl fun _ => MRel.pure (by field_simp)

section
variable {ext : Ext ℝ} {sampler : Sampler ℝ} {lu eu mu lu' eu' mu' : ℝ}
  {p p' : ParticleParameters ℝ}

theorem inputs_same (hs : ScaleFree sampler) (hl : 0 < lu) (he : 0 < eu) (hl' : 0 < lu')
    (he' : 0 < eu') (h : SameIons ext lu eu mu lu' eu' mu' p p') :
    MRel (List.Forall₂ (SameIon (lu'/lu))) (make_particle_inputs sampler lu eu mu p)
      (make_particle_inputs sampler lu' eu' mu' p') := by
  unfold make_particle_inputs
  rw [h.Z]
  refine MRel.forFold (I := List.Forall₂ (SameIon (lu'/lu))) ?_ _ _ _ List.Forall₂.nil
  intro acc acc' i hacc
  rw [h.N, h.dir, h.interaction_index]
  refine MRel.bind_same rfl fun N_ => ?_
  refine MRel.bind (MRel.lift (vget_rel (same_values_rel h.m) i)) fun m m' hm => ?_
  refine MRel.bind_same rfl fun Z => ?_
  refine MRel.bind (MRel.lift (vget_rel h.E i)) fun E E' hE => ?_
  refine MRel.bind (MRel.lift (vget_rel (same_values_rel h.Ec) i)) fun Ec Ec' hEc => ?_
  refine MRel.bind (MRel.lift (vget_rel (same_values_rel h.Es) i)) fun Es Es' hEs => ?_
  refine MRel.bind_same rfl fun idx => ?_
  refine MRel.bind (MRel.lift (vget_rel h.pos i)) fun pos pos' hpos => ?_
  refine MRel.bind_same rfl fun dir => ?_
  refine MRel.bind (R := List.Forall₂ (SameIon (lu'/lu))) (MRel.collectN (fun _ => ?_) N_)
    fun l l' hl => MRel.pure (List.rel_append hacc hl)
  unfold make_particle_input
  refine MRel.bind (draw_same hs he he' hE) fun e e' h0 => ?_
  refine MRel.bind (draw_same hs hl hl' hpos.1) fun x x' h1 => ?_
  refine MRel.bind (draw_same hs hl hl' hpos.2.1) fun y y' h2 => ?_
  refine MRel.bind (draw_same hs hl hl' hpos.2.2) fun z z' h3 => ?_
  refine MRel.bind (draw_ux_scaled (u' := lu') sampler hl dir.1) fun a a' h4 => ?_
  refine MRel.bind (draw_scaled (u' := lu') sampler hl dir.2.1) fun b b' h5 => ?_
  refine MRel.bind (draw_scaled (u' := lu') sampler hl dir.2.2) fun c c' h6 => MRel.pure ?_
  subst h0 h1 h2 h3 h4 h5 h6
  simp only [SameIon, hm, hEc, hEs]

/-- Two accepted inputs that describe the same run. -/
structure SameAccepted (lu eu lu' eu' : ℝ) (a a' : Accepted ℝ) : Prop where
  ions : List.Forall₂ (SameIon (lu'/lu)) a.particle_input_array a'.particle_input_array
  material : a'.material = a.material
  options : a'.options = a.options
  length : a.output_units.length_unit = lu ∧ a'.output_units.length_unit = lu'
  energy : a.output_units.energy_unit = eu ∧ a'.output_units.energy_unit = eu'

theorem complete_same (h : SameIons ext lu eu mu lu' eu' mu' p p') :
    RRel (SameIons ext lu eu mu lu' eu' mu') (complete_particles p) (complete_particles p') := by
  have e1 : p'.m.length = p.m.length := (same_values_rel h.m).length_eq.symm
  have e2 : p'.E.length = p.E.length := h.E.length_eq.symm
  have e3 : p'.pos.length = p.pos.length := h.pos.length_eq.symm
  unfold complete_particles
  rw [h.Z, h.dir, e1, e2, e3, h.interaction_index]
  refine RRel.bind_same rfl fun _ => RRel.bind_same rfl fun _ => RRel.bind_same rfl fun _ =>
    RRel.bind_same rfl fun _ => RRel.pure ?_
  by_cases hi : p.interaction_index.length ≤ 1
  · rw [if_pos hi, if_pos hi]
    exact ⟨h.units, h.units', h.N, rfl, h.m, h.E, h.Ec, h.Es, h.pos, rfl, rfl⟩
  · rw [if_neg hi, if_neg hi]
    exact h

theorem input_same (hs : ScaleFree sampler) (hl : 0 < lu) (he : 0 < eu) (hl' : 0 < lu')
    (he' : 0 < eu') (h : SameIons ext lu eu mu lu' eu' mu' p p') (cpr : Bool) (o : Options ℝ)
    {mat mat' : Res (Material ℝ)} (hm : mat' = mat) :
    MRel (SameAccepted lu eu lu' eu') (input ext sampler cpr o mat p)
      (input ext sampler cpr o mat' p') := by
  subst hm
  unfold input
  refine MRel.bind_same rfl fun _ => MRel.bind_same rfl fun _ => MRel.bind_same rfl fun _ =>
    MRel.bind_same rfl fun m => MRel.bind_same rfl fun _ => MRel.bind_same rfl fun _ =>
    MRel.bind_same rfl fun _ => ?_
  refine MRel.bind (MRel.lift (complete_same h)) fun p p' h => ?_
  refine MRel.bind_same rfl fun _ => MRel.bind_same rfl fun _ => ?_
  refine MRel.bind_same (by rw [h.interaction_index]) fun _ => MRel.bind_same rfl fun _ => ?_
  obtain ⟨u1, u2, u3⟩ := h.units
  obtain ⟨v1, v2, v3⟩ := h.units'
  rw [u1, u2, u3, v1, v2, v3]
  have ok : ∀ (a : ℝ) {β : Type} (f : ℝ → M ℝ β), (liftM (Except.ok a : Res ℝ) : M ℝ ℝ) >>= f = f a :=
    fun _ _ _ => rfl
  rw [ok, ok, ok, ok, ok, ok]
  refine MRel.ite rfl ?_ ?_
  · exact fun t => (rfl : _ = _)
  · exact MRel.bind (inputs_same hs hl he hl' he' h) fun a a' ha => MRel.pure
      ⟨ha, rfl, rfl, ⟨rfl, rfl⟩, ⟨rfl, rfl⟩⟩

end

/-! ## The run -/

theorem from_input_units {c : ℝ} (hc : 0 < c) {q q' : ParticleInput ℝ} (h : SameIon c q q')
    (o : Options ℝ) : Particle.from_input q' o = Particle.from_input q o := by
  rw [h]; exact C46_scaling q o c hc

theorem seq_collect_same {α α' β : Type} {R : α → α' → Prop} {f : α → Res (List β)}
    {f' : α' → Res (List β)} (hf : ∀ a b, R a b → f' b = f a) {l : List α} {l' : List α'}
    (h : List.Forall₂ R l l') : seq_collect f' l' = seq_collect f l := by
  induction h with
  | nil => rfl
  | cons ha _ ih => simp only [seq_collect, hf _ _ ha, ih]

theorem forall₂_take {α α' : Type} {R : α → α' → Prop} (n : Nat) {l : List α} {l' : List α'}
    (h : List.Forall₂ R l l') : List.Forall₂ R (l.take n) (l'.take n) := by
  induction h generalizing n with
  | nil => simp
  | cons ha _ ih => cases n with
    | zero => simp
    | succ n => exact .cons ha (ih n)

theorem forall₂_drop {α α' : Type} {R : α → α' → Prop} (n : Nat) {l : List α} {l' : List α'}
    (h : List.Forall₂ R l l') : List.Forall₂ R (l.drop n) (l'.drop n) := by
  induction h generalizing n with
  | nil => simp
  | cons ha hl ih => cases n with
    | zero => exact .cons ha hl
    | succ n => exact ih n

theorem par_collect_same {α α' β : Type} {R : α → α' → Prop} {f : α → Res (List β)}
    {f' : α' → Res (List β)} (hf : ∀ a b, R a b → f' b = f a) (sp : Split) :
    ∀ {l : List α} {l' : List α'}, List.Forall₂ R l l' → par_collect f' sp l' = par_collect f sp l := by
  induction sp with
  | leaf => intro l l' h; exact seq_collect_same hf h
  | node mid a b iha ihb =>
    intro l l' h
    simp only [par_collect, iha (forall₂_take mid h), ihb (forall₂_drop mid h)]

theorem chunks_same {α α' : Type} {R : α → α' → Prop} (n : Nat) :
    ∀ (k : Nat) {l : List α} {l' : List α'}, l.length = k → List.Forall₂ R l l' →
      List.Forall₂ (List.Forall₂ R) (chunks n l) (chunks n l') := by
  intro k
  induction k using Nat.strong_induction_on with
  | _ k ih =>
    intro l l' hk h
    have hnil : l = [] ↔ l' = [] := by
      rw [← List.length_eq_zero_iff, ← List.length_eq_zero_iff, h.length_eq]
    unfold chunks
    by_cases hn : n = 0 ∨ l = []
    · rw [dif_pos hn, dif_pos (by rw [← hnil]; exact hn)]
      exact .nil
    · rw [dif_neg hn, dif_neg (by rw [← hnil]; exact hn)]
      refine .cons (forall₂_take n h) (ih _ ?_ rfl (forall₂_drop n h))
      simp only [not_or] at hn
      have : l.length ≠ 0 := fun e => hn.2 (List.eq_nil_of_length_eq_zero e)
      simp only [List.length_drop]; omega

theorem zipIdx_same {α α' : Type} {R : α → α' → Prop} {l : List α} {l' : List α'}
    (h : List.Forall₂ R l l') (k : Nat) :
    List.Forall₂ (fun a b => R a.1 b.1 ∧ b.2 = a.2) (l.zipIdx k) (l'.zipIdx k) := by
  induction h generalizing k with
  | nil => exact .nil
  | cons ha _ ih => exact .cons ⟨ha, rfl⟩ (ih (k + 1))

theorem forFold_rel₂ {α α' σ σ' : Type} {R : α → α' → Prop} {I : σ → σ' → Prop} {body : σ → α → Res σ}
    {body' : σ' → α' → Res σ'} (h : ∀ x y a b, I x y → R a b → RRel I (body x a) (body' y b))
    {l : List α} {l' : List α'} (hl : List.Forall₂ R l l') :
    ∀ (x : σ) (y : σ'), I x y → RRel I (forFold body l x) (forFold body' l' y) := by
  induction hl with
  | nil => intro x y hI; exact RRel.pure hI
  | cons ha _ ih => intro x y hI; exact RRel.bind (h x y _ _ hI ha) (fun b c hb => ih b c hb)

/-! ## Histograms -/

section
variable {lu eu lu' eu' : ℝ}

/-- The same axis in two units. -/
abbrev Axis (u u' : ℝ) (l l' : List ℝ) : Prop := List.Forall₂ (fun a b : ℝ => a*u = b*u') l l'

/-- The same histograms on the same axes. -/
structure SameDist (lu eu lu' eu' : ℝ) (d d' : Distributions ℝ) : Prop where
  energies : Axis eu eu' d.energies d'.energies
  angles : d'.angles = d.angles
  x : Axis lu lu' d.x_range d'.x_range
  y : Axis lu lu' d.y_range d'.y_range
  z : Axis lu lu' d.z_range d'.z_range
  same : SameHistograms lu eu lu' eu' d d'

theorem linspace_same {u u' : ℝ} (hu : 0 < u) (hu' : 0 < u') {a b a' b' : ℝ} (ha : a*u = a'*u')
    (hb : b*u = b'*u') (n : Nat) : Axis u u' (linspace a b n) (linspace a' b' n) := by
  unfold linspace
  rw [Axis, List.forall₂_map_left_iff, List.forall₂_map_right_iff]
  refine List.forall₂_same.2 fun i _ => ?_
  have e : a' = a*u/u' := by field_simp; linarith
  have e' : b' = b*u/u' := by field_simp; linarith
  subst e e'
  split
  · field_simp
  · have h0 : (0.0:ℝ) = 0 := by norm_num
    rw [h0, zero_mul]; field_simp
    ring

theorem new_same (hl : 0 < lu) (he : 0 < eu) (hl' : 0 < lu') (he' : 0 < eu') {g g' : GridOptions ℝ}
    (h : SameAxes lu eu lu' eu' g g') :
    SameDist lu eu lu' eu' (Distributions.new g) (Distributions.new g') := by
  obtain ⟨⟨a1, a2, a3⟩, ⟨b1, b2, b3⟩, ⟨c1, c2, c3⟩, ⟨d1, d2, d3⟩, ⟨e1, e2, e3⟩⟩ := h
  have hz : ∀ n, SameValues (eu/lu) (eu'/lu') (List.replicate n (0.0:ℝ)) (List.replicate n 0.0) := by
    intro n
    unfold SameValues
    have h0 : (0.0:ℝ) = 0 := by norm_num
    simp only [List.map_replicate, h0, zero_mul]
  unfold Distributions.new
  rw [a3, b1, b2, b3, c3, d3, e3]
  exact ⟨linspace_same he he' a1 a2 _, rfl, linspace_same hl hl' c1 c2 _,
    linspace_same hl hl' d1 d2 _, linspace_same hl hl' e1 e2 _,
    ⟨rfl, rfl, ⟨rfl, rfl, rfl⟩, hz _, hz _⟩⟩

theorem ratio_same {u u' v r0 r1 r0' r1' : ℝ} (hu : 0 < u) (hu' : 0 < u') (h0 : r0*u = r0'*u')
    (h1 : r1*u = r1'*u') : (v/u' - r0')/(r1' - r0') = (v/u - r0)/(r1 - r0) := by
  have e0 : r0' = r0*u/u' := by field_simp; linarith
  have e1 : r1' = r1*u/u' := by field_simp; linarith
  subst e0 e1
  rw [← sub_div, ← sub_div, div_div_div_cancel_right₀ hu'.ne', ← sub_mul,
    show v - r0*u = (v/u - r0)*u by field_simp, mul_div_mul_right _ _ hu.ne']

theorem bin_floor_same {u u' v : ℝ} (hu : 0 < u) (hu' : 0 < u') {l l' : List ℝ} (h : Axis u u' l l') :
    RRel Eq (Distributions.bin_floor l (v/u)) (Distributions.bin_floor l' (v/u')) := by
  unfold Distributions.bin_floor
  refine RRel.bind (vget_rel h 1) fun r1 r1' h1 => RRel.bind (vget_rel h 0) fun r0 r0' h0 =>
    RRel.pure ?_
  rw [ratio_same hu hu' h0 h1]

theorem bin_trunc_same {u u' v : ℝ} (hu : 0 < u) (hu' : 0 < u') {l l' : List ℝ} (h : Axis u u' l l') :
    RRel Eq (Distributions.bin_trunc l (v/u)) (Distributions.bin_trunc l' (v/u')) := by
  unfold Distributions.bin_trunc
  refine RRel.bind (vget_rel h 1) fun r1 r1' h1 => RRel.bind (vget_rel h 0) fun r0 r0' h0 =>
    RRel.pure ?_
  rw [ratio_same hu hu' h0 h1]

theorem forall₂_set {α β : Type} {R : α → β → Prop} {l : List α} {l' : List β}
    (h : List.Forall₂ R l l') {a : α} {b : β} (hab : R a b) (i : Nat) :
    List.Forall₂ R (l.set i a) (l'.set i b) := by
  induction h generalizing i with
  | nil => exact .nil
  | cons hx hl ih => cases i with
    | zero => exact .cons hab hl
    | succ i => exact .cons hx (ih i)

theorem bump_same {u u' : ℝ} (c : Bool) {h h' : List ℝ} (hh : SameValues u u' h h') (i : Int) {e e' : ℝ}
    (he : e*u = e'*u') :
    RRel (SameValues u u') (Distributions.bump c h i (· + e)) (Distributions.bump c h' i (· + e')) := by
  unfold Distributions.bump
  refine RRel.ite rfl ?_ (RRel.pure hh)
  have hr := same_values_rel hh
  have hv := vget_rel hr i.toNat
  unfold vget at hv
  unfold vmodify
  cases h1 : h[i.toNat]? with
  | none =>
    cases h2 : h'[i.toNat]? with
    | none => exact (rfl : _ = _)
    | some b => rw [h1, h2] at hv; exact hv.elim
  | some a =>
    cases h2 : h'[i.toNat]? with
    | none => rw [h1, h2] at hv; exact hv.elim
    | some b =>
      rw [h1, h2] at hv
      have hab : a*u = b*u' := hv
      exact same_values_of (forall₂_set hr (by show (a + e)*u = (b + e')*u'; linarith) _)

theorem update_loss_same (hl : 0 < lu) (he : 0 < eu) (hl' : 0 < lu') (he' : 0 < eu') (mu mu' : ℝ) (n : Nat)
    (loss : EnergyLoss ℝ) {d d' : Distributions ℝ} (h : SameDist lu eu lu' eu' d d') :
    RRel (SameDist lu eu lu' eu') (Distributions.update_loss ⟨lu, eu, mu⟩ n d loss)
      (Distributions.update_loss ⟨lu', eu', mu'⟩ n d' loss) := by
  unfold Distributions.update_loss
  refine RRel.bind (vget_rel h.x 1) fun r1 r1' h1 => RRel.bind (vget_rel h.x 0) fun r0 r0' h0 => ?_
  have hv : ∀ v : ℝ, v/eu/(ofNat n : ℝ)/(r1 - r0)*(eu/lu) = v/eu'/(ofNat n : ℝ)/(r1' - r0')*(eu'/lu') := by
    intro v
    have e0 : r0' = r0*lu/lu' := by field_simp; linarith
    have e1 : r1' = r1*lu/lu' := by field_simp; linarith
    rw [e0, e1, ← sub_div, ← sub_mul]
    by_cases hd : r1 - r0 = 0
    · simp [hd]
    · field_simp
  refine RRel.bind (bin_trunc_same hl hl' h.x) fun i i' hi => ?_
  subst hi
  rw [← h.x.length_eq]
  refine RRel.bind (bump_same _ h.same.electronic _ (hv loss.Ee)) fun e e' he => ?_
  refine RRel.bind (bump_same _ h.same.nuclear _ (hv loss.En)) fun k k' hk => RRel.pure ?_
  exact ⟨h.energies, h.angles, h.x, h.y, h.z, ⟨h.same.reflected, h.same.sputtered, h.same.implanted, he, hk⟩⟩

theorem update_units (hl : 0 < lu) (he : 0 < eu) (hl' : 0 < lu') (he' : 0 < eu') (mu mu' : ℝ) (n : Nat)
    (track : Bool) (q : Particle ℝ) {d d' : Distributions ℝ} (h : SameDist lu eu lu' eu' d d') :
    RRel (SameDist lu eu lu' eu') (d.update q ⟨lu, eu, mu⟩ track n) (d'.update q ⟨lu', eu', mu'⟩ track n) := by
  unfold Distributions.update energy_angle_from_particle
  dsimp only
  refine RRel.bind (bin_floor_same he he' h.energies) fun i i' hi => ?_
  subst hi
  rw [h.angles]
  refine RRel.bind_same rfl fun j => ?_
  rw [← h.energies.length_eq]
  refine RRel.bind (R := SameDist lu eu lu' eu') ?_ fun d d' h => ?_
  · refine RRel.ite rfl (RRel.ite rfl ?_ (RRel.pure h)) (RRel.pure h)
    rw [h.same.reflected]
    refine RRel.bind_same rfl fun m => RRel.pure ?_
    exact ⟨h.energies, rfl, h.x, h.y, h.z, ⟨rfl, h.same.sputtered, h.same.implanted,
      h.same.electronic, h.same.nuclear⟩⟩
  refine RRel.bind (R := SameDist lu eu lu' eu') ?_ fun d d' h => ?_
  · refine RRel.ite rfl (RRel.ite rfl ?_ (RRel.pure h)) (RRel.pure h)
    rw [h.same.sputtered]
    refine RRel.bind_same rfl fun m => RRel.pure ?_
    exact ⟨h.energies, h.angles, h.x, h.y, h.z, ⟨h.same.reflected, rfl, h.same.implanted,
      h.same.electronic, h.same.nuclear⟩⟩
  refine RRel.bind (R := SameDist lu eu lu' eu') ?_ fun d d' h => ?_
  · refine RRel.ite rfl ?_ (RRel.pure h)
    refine RRel.bind (bin_trunc_same hl hl' h.x) fun a a' ha => ?_
    refine RRel.bind (bin_trunc_same hl hl' h.y) fun b b' hb => ?_
    refine RRel.bind (bin_trunc_same hl hl' h.z) fun c c' hc => ?_
    subst ha hb hc
    rw [← h.x.length_eq, ← h.y.length_eq, ← h.z.length_eq, h.same.implanted.1, h.same.implanted.2.1,
      h.same.implanted.2.2]
    refine RRel.bind_same rfl fun _ => RRel.bind_same rfl fun _ => RRel.bind_same rfl fun _ =>
      RRel.pure ?_
    exact ⟨h.energies, h.angles, h.x, h.y, h.z, ⟨h.same.reflected, h.same.sputtered, ⟨rfl, rfl, rfl⟩,
      h.same.electronic, h.same.nuclear⟩⟩
  refine RRel.ite rfl ?_ (RRel.pure h)
  exact RRel.forFold (fun x y a hxy => update_loss_same hl he hl' he' mu mu' n a hxy) _ _ _ h

/-- Runs that differ only in the units their outputs are written in. -/
structure SameRun (lu eu lu' eu' : ℝ) (s s' : RunState ℝ) : Prop where
  processed : s'.processed = s.processed
  summary : s'.summary = s.summary
  distributions : match s.distributions, s'.distributions with
    | none, none => True
    | some d, some d' => SameDist lu eu lu' eu' d d'
    | _, _ => False

theorem process_same (hl : 0 < lu) (he : 0 < eu) (hl' : 0 < lu') (he' : 0 < eu')
    {cfg cfg' : OutputConfig ℝ} (hc : cfg.units.length_unit = lu ∧ cfg.units.energy_unit = eu)
    (hc' : cfg'.units.length_unit = lu' ∧ cfg'.units.energy_unit = eu') (o : Options ℝ) (n : Nat)
    (q : Particle ℝ) {s s' : RunState ℝ} (h : SameRun lu eu lu' eu' s s') :
    RRel (SameRun lu eu lu' eu') (process_particle cfg o n s q) (process_particle cfg' o n s' q) := by
  unfold process_particle
  rw [h.summary]
  refine RRel.bind_same rfl fun sm => ?_
  refine RRel.bind (R := fun d d' => match d, d' with
    | none, none => True
    | some d, some d' => SameDist lu eu lu' eu' d d'
    | _, _ => False) ?_ fun d d' hd => RRel.pure ?_
  · have h3 := h.distributions
    cases hd : s.distributions <;> cases hd' : s'.distributions <;> rw [hd, hd'] at h3
    · exact RRel.pure trivial
    · exact h3.elim
    · exact h3.elim
    · refine RRel.bind (R := SameDist lu eu lu' eu') ?_ fun e e' he => RRel.pure he
      have := update_units hl he hl' he' cfg.units.mass_unit cfg'.units.mass_unit n
        o.track_energy_losses q h3
      have e1 : cfg.units = ⟨lu, eu, cfg.units.mass_unit⟩ := by rw [← hc.1, ← hc.2]
      have e2 : cfg'.units = ⟨lu', eu', cfg'.units.mass_unit⟩ := by rw [← hc'.1, ← hc'.2]
      rw [e1, e2]
      exact this
  · exact ⟨by simp only [h.processed], rfl, hd⟩

theorem withSplits_same {α α' : Type} {R : α → α' → Prop} (splits : List Split) {l : List (List α)}
    {l' : List (List α')} (h : List.Forall₂ (List.Forall₂ R) l l') :
    List.Forall₂ (fun a b => List.Forall₂ R a.1 b.1 ∧ b.2 = a.2) (withSplits splits l)
      (withSplits splits l') := by
  unfold withSplits
  rw [List.forall₂_map_left_iff, List.forall₂_map_right_iff]
  refine List.Forall₂.imp ?_ (zipIdx_same h 0)
  rintro ⟨a, i⟩ ⟨b, j⟩ ⟨h1, h2⟩
  simp only at h1 h2
  subst h2
  exact ⟨h1, rfl⟩

theorem loop_same (hl : 0 < lu) (he : 0 < eu) (hl' : 0 < lu') (he' : 0 < eu')
    {cfg cfg' : OutputConfig ℝ} (hc : cfg.units.length_unit = lu ∧ cfg.units.energy_unit = eu)
    (hc' : cfg'.units.length_unit = lu' ∧ cfg'.units.energy_unit = eu')
    (hg : match cfg.grid, cfg'.grid with
      | none, none => True
      | some g, some g' => SameAxes lu eu lu' eu' g g'
      | _, _ => False)
    (rcpr : Rcpr ℝ) (fuel : Nat) (mat : Material ℝ) (o : Options ℝ) (splits : List Split)
    (tapes : Nat → Tape ℝ) {l l' : List (ParticleInput ℝ)} (h : List.Forall₂ (SameIon (lu'/lu)) l l') :
    RRel (SameRun lu eu lu' eu') (physics_loop_run rcpr fuel cfg mat o splits tapes l)
      (physics_loop_run rcpr fuel cfg' mat o splits tapes l') := by
  unfold physics_loop_run physics_loop
  have hlen : l'.length = l.length := h.length_eq.symm
  simp only [List.length_zipIdx, hlen]
  refine RRel.bind_same rfl fun _ => RRel.bind_same rfl fun _ => ?_
  refine forFold_rel₂ (R := fun a b => List.Forall₂ (fun (a b : ParticleInput ℝ × Nat) =>
    SameIon (lu'/lu) a.1 b.1 ∧ b.2 = a.2) a.1 b.1 ∧ b.2 = a.2) ?_
    (withSplits_same splits (chunks_same _ _ rfl (zipIdx_same h 0))) _ _ ?_
  · intro s s' a b hs hab
    have hf : ∀ a b : ParticleInput ℝ × Nat, SameIon (lu'/lu) a.1 b.1 ∧ b.2 = a.2 →
        run_ion rcpr fuel mat o b.1 (tapes b.2) = run_ion rcpr fuel mat o a.1 (tapes a.2) := by
      intro a b hab
      unfold run_ion
      rw [hab.2, from_input_units (div_pos hl' hl) hab.1]
    unfold process_chunk
    refine RRel.bind (R := Eq) (RRel.of_eq ?_) fun ps ps' hps => ?_
    · rw [hab.2]
      split
      · exact (par_collect_same hf _ hab.1).symm
      · exact (seq_collect_same hf hab.1).symm
    · subst hps
      refine RRel.bind (RRel.forFold (fun x y q hxy => process_same hl he hl' he' hc hc' o _ q hxy)
        _ _ _ hs) fun x y hxy => RRel.pure ⟨hxy.processed, hxy.summary, hxy.distributions⟩
  · refine ⟨rfl, rfl, ?_⟩
    cases h1 : cfg.grid <;> cases h2 : cfg'.grid <;> rw [h1, h2] at hg
    · trivial
    · exact hg.elim
    · exact hg.elim
    · exact new_same hl he hl' he' hg

end

/-- The material is the same in other units. -/
theorem material_same {ext : Ext ℝ} {q q' : MaterialParameters ℝ} (h : SameParameters ext q q')
    (g : Res (Geom ℝ)) : Material.new ext q' g = Material.new ext q g := by
  obtain ⟨⟨eu, eu', h1, h2, h3, h4, h5, h6⟩, ⟨mu, mu', k1, k2, k3⟩, hz, hi, hs, hb⟩ := h
  unfold Material.new
  rw [h1, h2, k1, k2, hz, hi, hs, hb]
  unfold SameValues at *
  simp only [bind, Except.bind, h3, h4, h5, h6, k3]

/-- **C104** The units of the input file do not matter: two input records that describe the same
options, material, target and ions in different units (lengths, energies and masses; those of the
material, of the geometry and of the ions may all differ) give the same run.  On the same random
numbers either both stop with the same panic, or both finish, the particles handed to the outputs
(positions, directions, energies, trajectories, fates) are the same in the same order, the summary
is the same, and so are the histograms if their axes describe the same intervals: the same counts,
and the same energy losses per length. -/
theorem C104_units {G G' : Type} (w w' : World ℝ) (r : InputRecord ℝ G) (r' : InputRecord ℝ G')
    (geometry : G → Res (Geom ℝ)) (geometry' : G' → Res (Geom ℝ)) (lu eu mu lu' eu' mu' : ℝ)
    (hw : w' = { w with grid := w'.grid }) (hs : ScaleFree w.sampler)
    (hl : 0 < lu) (he : 0 < eu) (hl' : 0 < lu') (he' : 0 < eu')
    (hi : SameIons w.ext lu eu mu lu' eu' mu' r.particle_parameters r'.particle_parameters)
    (hm : SameParameters w.ext r.material_parameters r'.material_parameters)
    (hg : geometry' r'.geometry_input = geometry r.geometry_input) (ho : r'.options = r.options)
    (hgrid : (w.grid = none ∧ w'.grid = none) ∨
      ∃ g g', w.grid = some g ∧ w'.grid = some g' ∧ SameAxes lu eu lu' eu' g g') :
    (∀ e, run_file w (some r) geometry = .error e ↔ run_file w' (some r') geometry' = .error e) ∧
    (∀ s s', run_file w (some r) geometry = .ok s → run_file w' (some r') geometry' = .ok s' →
      s'.processed = s.processed ∧ s'.summary = s.summary ∧
      ((s.distributions = none ∧ s'.distributions = none) ∨
        ∃ d d', s.distributions = some d ∧ s'.distributions = some d' ∧
          SameHistograms lu eu lu' eu' d d')) := by
  have key : RRel (SameRun lu eu lu' eu') (run_file w (some r) geometry)
      (run_file w' (some r') geometry') := by
    rw [hw]
    unfold run_file
    refine RRel.bind (R := fun a b => a = r ∧ b = r') (RRel.pure ⟨rfl, rfl⟩) ?_
    rintro a b ⟨rfl, rfl⟩
    rw [ho]
    refine RRel.bind (input_same hs hl he hl' he' hi w.rcpr.enabled a.options
      (by rw [hg]; exact material_same hm _) w.tape) ?_
    rintro ⟨acc, t1⟩ ⟨acc', t1'⟩ ⟨h, -⟩
    simp only at h ⊢
    rw [h.material, h.options]
    refine loop_same hl he hl' he' ⟨h.length.1, h.energy.1⟩ ⟨h.length.2, h.energy.2⟩ ?_ _ _ _ _ _ _ h.ions
    rcases hgrid with ⟨g1, g2⟩ | ⟨g, g', g1, g2, g3⟩
    · simp only [g1, g2]
    · simp only [g1, g2]; exact g3
  constructor
  · intro e
    cases h1 : run_file w (some r) geometry <;> cases h2 : run_file w' (some r') geometry' <;>
      rw [h1, h2] at key
    · have : _ = _ := key
      rw [this]
    · exact key.elim
    · exact key.elim
    · simp
  · intro s s' h1 h2
    rw [h1, h2] at key
    have k : SameRun lu eu lu' eu' s s' := key
    refine ⟨k.processed, k.summary, ?_⟩
    have h3 := k.distributions
    cases hd : s.distributions <;> cases hd' : s'.distributions <;> rw [hd, hd'] at h3
    · exact Or.inl ⟨rfl, rfl⟩
    · exact h3.elim
    · exact h3.elim
    · exact Or.inr ⟨_, _, rfl, rfl, h3.same⟩

/-! ## The build with feature `hdf5_input` -/

/-- In the default build one ion is generated like this in every unit: the particle made from it does
not depend on the unit. -/
theorem C104_one_ion {sampler : Sampler ℝ} (hs : ScaleFree sampler) {lu eu mu lu' eu' mu' : ℝ}
    (hl : 0 < lu) (he : 0 < eu) (hl' : 0 < lu') (he' : 0 < eu') {m m' Ec Ec' Es Es' : ℝ} (Z : ℝ)
    {E E' : Distr ℝ} {pos pos' : Distr ℝ × Distr ℝ × Distr ℝ} (dir : Distr ℝ × Distr ℝ × Distr ℝ)
    (i : Nat) (o : Options ℝ) (hm : m*mu = m'*mu') (hE : SameQuantity eu eu' E E')
    (hEc : Ec*eu = Ec'*eu') (hEs : Es*eu = Es'*eu')
    (hpos : SameQuantity lu lu' pos.1 pos'.1 ∧ SameQuantity lu lu' pos.2.1 pos'.2.1 ∧
      SameQuantity lu lu' pos.2.2 pos'.2.2) :
    (do let q ← make_particle_input sampler lu eu mu m Z Ec Es E pos dir i
        liftM (Particle.from_input q o) : M ℝ (Particle ℝ)) =
    (do let q ← make_particle_input sampler lu' eu' mu' m' Z Ec' Es' E' pos' dir i
        liftM (Particle.from_input q o) : M ℝ (Particle ℝ)) := by
  have key : MRel (SameIon (lu'/lu)) (make_particle_input sampler lu eu mu m Z Ec Es E pos dir i)
      (make_particle_input sampler lu' eu' mu' m' Z Ec' Es' E' pos' dir i) := by
    unfold make_particle_input
    refine MRel.bind (draw_same hs he he' hE) fun e e' h0 => ?_
    refine MRel.bind (draw_same hs hl hl' hpos.1) fun x x' h1 => ?_
    refine MRel.bind (draw_same hs hl hl' hpos.2.1) fun y y' h2 => ?_
    refine MRel.bind (draw_same hs hl hl' hpos.2.2) fun z z' h3 => ?_
    refine MRel.bind (draw_ux_scaled (u' := lu') sampler hl dir.1) fun a a' h4 => ?_
    refine MRel.bind (draw_scaled (u' := lu') sampler hl dir.2.1) fun b b' h5 => ?_
    refine MRel.bind (draw_scaled (u' := lu') sampler hl dir.2.2) fun c c' h6 => MRel.pure ?_
    subst h0 h1 h2 h3 h4 h5 h6
    simp only [SameIon, hm, hEc, hEs]
  funext t
  have h : RRel _ _ _ := MRel.bind (S := Eq) key (fun q q' h => MRel.lift (RRel.of_eq
    (from_input_units (div_pos hl' hl) h o).symm)) t
  refine RRel.eq (h.mono ?_)
  rintro ⟨a, s⟩ ⟨b, s'⟩ ⟨h1, h2⟩
  simp only at h1 h2
  rw [h1, h2]

/-- **C104 refuted** for the build with feature `hdf5_input` (and `use_hdf5 = false`): there a drawn
direction component is multiplied by the length unit but a fixed one is not.  For a direction with a
fixed x component and a y component drawn between 1/2 and 1, every ion is accepted, and moves at less
than 60 degrees from the y axis, if lengths are given in metres; and every ion is refused, because it
seems to move along the x axis, if they are given in Ångström. -/
theorem C104_refuted_hdf5 (sampler : Sampler ℝ) (eu mu m Z Ec Es E x y z : ℝ) (i : Nat) (o : Options ℝ)
    (hE : 0 < E*eu) (t t' : Tape ℝ) (v : ℝ) (hv : 1/2 ≤ v ∧ v ≤ 1)
    (hd : sampler.uniform (1/2) 1 t = .ok (v, t')) :
    (∃ q b, make_particle_input_hdf5 sampler 1 eu mu m Z Ec Es (.POINT E) (.POINT x, .POINT y, .POINT z)
        (.POINT (1/2), .UNIFORM (1/2) 1, .POINT 0) i t = .ok (q, t') ∧
      Particle.from_input q o = .ok b ∧ 1/2 < b.dir.y) ∧
    (∃ q e, make_particle_input_hdf5 sampler (ANGSTROM ℝ) eu mu m Z Ec Es (.POINT E)
        (.POINT x, .POINT y, .POINT z) (.POINT (1/2), .UNIFORM (1/2) 1, .POINT 0) i t = .ok (q, t') ∧
      Particle.from_input q o = .error e) := by
  have hne : (((1/2:ℝ)) ==. 1.0) = false := by rw [eq_real_false]; norm_num
  have run : ∀ u : ℝ, make_particle_input_hdf5 sampler u eu mu m Z Ec Es (.POINT E)
      (.POINT x, .POINT y, .POINT z) (.POINT (1/2), .UNIFORM (1/2) 1, .POINT 0) i t =
      .ok (⟨m*mu, Z, E*eu, Ec*eu, Es*eu, x*u, y*u, z*u, 1/2, v*u, 0, i, 1.0, 0⟩, t') := by
    intro u
    simp only [make_particle_input_hdf5, draw, draw_ux_hdf5, draw_dir_hdf5, bind, StateT.bind, liftM,
      monadLift, MonadLift.monadLift, StateT.lift, Except.bind, pure, Except.pure, StateT.pure, hne,
      rassert, Bool.not_false, if_true, hd]
  have hn : ∀ u : ℝ, norm (inputDir (⟨m*mu, Z, E*eu, Ec*eu, Es*eu, x*u, y*u, z*u, 1/2, v*u, 0, i, 1.0, 0⟩ :
      ParticleInput ℝ)) = Real.sqrt (1/4 + (v*u)^2) := by
    intro u
    show Real.sqrt (1/2*(1/2) + v*u*(v*u) + 0*0) = _
    congr 1; ring
  constructor
  · have hs : Real.sqrt (1/4 + (v*1)^2) < 2*v := by
      rw [Real.sqrt_lt' (by linarith)]; nlinarith [hv.1]
    have hs1 : (7/10:ℝ) ≤ Real.sqrt (1/4 + (v*1)^2) := Real.le_sqrt_of_sq_le (by nlinarith [hv.1])
    have hacc := (C46_accepts_iff (⟨m*mu, Z, E*eu, Ec*eu, Es*eu, x*1, y*1, z*1, 1/2, v*1, 0, i, 1.0, 0⟩ :
      ParticleInput ℝ) o).2 ⟨hE, by
        rw [hn, abs_of_pos (div_pos (by norm_num) (by linarith)), div_lt_iff₀ (by linarith)]
        have h2 : (2:ℝ)^(-52:ℤ) ≤ 1/10 := by norm_num
        nlinarith⟩
    obtain ⟨b, hb⟩ := hacc
    refine ⟨_, b, run 1, hb, ?_⟩
    rw [(from_input_fields hb).1]
    show 1/2 < v*1/Real.sqrt (1/2*(1/2) + v*1*(v*1) + 0*0)
    rw [show (1/2*(1/2) + v*1*(v*1) + 0*0 : ℝ) = 1/4 + (v*1)^2 by ring, lt_div_iff₀ (by linarith)]
    linarith
  · have hbad : ∃ e, Particle.from_input (⟨m*mu, Z, E*eu, Ec*eu, Es*eu, x*ANGSTROM ℝ, y*ANGSTROM ℝ,
          z*ANGSTROM ℝ, 1/2, v*ANGSTROM ℝ, 0, i, 1.0, 0⟩ : ParticleInput ℝ) o = .error e := by
      cases hf : Particle.from_input (⟨m*mu, Z, E*eu, Ec*eu, Es*eu, x*ANGSTROM ℝ, y*ANGSTROM ℝ,
          z*ANGSTROM ℝ, 1/2, v*ANGSTROM ℝ, 0, i, 1.0, 0⟩ : ParticleInput ℝ) o with
      | error e => exact ⟨e, rfl⟩
      | ok b =>
        exfalso
        have h := ((C46_accepts_iff _ o).1 ⟨b, hf⟩).2
        rw [hn] at h
        have hs : Real.sqrt (1/4 + (v*ANGSTROM ℝ)^2) ≤ 1/2 + (1/10)^18 := by
          rw [Real.sqrt_le_left (by norm_num)]
          have hA : ANGSTROM ℝ = 1/10^10 := by unfold ANGSTROM; norm_num
          rw [hA]
          nlinarith [hv.1, hv.2]
        have hp : 0 < Real.sqrt (1/4 + (v*ANGSTROM ℝ)^2) := Real.sqrt_pos.2 (by positivity)
        rw [abs_of_pos (div_pos (by norm_num) hp), div_lt_iff₀ hp] at h
        have h52 : (1/10:ℝ)^16 ≤ (2:ℝ)^(-52:ℤ) := by
          rw [zpow_neg, ← one_div, div_pow, one_pow]
          exact one_div_le_one_div_of_le (by positivity) (by norm_num)
        have h53 : (2:ℝ)^(-52:ℤ) ≤ 1 := by norm_num
        nlinarith
    obtain ⟨e, he⟩ := hbad
    exact ⟨_, e, run _, he⟩

end RustBCA
