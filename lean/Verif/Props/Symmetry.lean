import Verif.Proofs.Simulation
import Verif.Props.Output
import Verif.Props.Histograms
import Mathlib.Tactic.Ring

/-!
# C69, C70: what the physics does not depend on

C69: what is recorded and how particles are labelled has no influence on what happens.
C70: moving the ion and the target together moves the result and changes nothing else.
-/

set_option linter.unusedSectionVars false
set_option linter.unusedVariables false

namespace RustBCA
open Scalar Spec

variable {F : Type} [Scalar F]

/-- Two computations on random streams agree: whenever the first succeeds so does the second, with
related results and having drawn equally many numbers; and they fail in the same way. -/
theorem mrel_iff {α β : Type} {R : α → β → Prop} {m : M F α} {m' : M F β} (h : MRel R m m')
    (tape : Tape F) :
    (∀ a rest, m tape = .ok (a, rest) → ∃ b, m' tape = .ok (b, rest) ∧ R a b) ∧
    (∀ b rest, m' tape = .ok (b, rest) → ∃ a, m tape = .ok (a, rest) ∧ R a b) ∧
    ∀ e, m tape = .error e ↔ m' tape = .error e := by
  have h1 := h tape
  cases hm : m tape with
  | ok x =>
    cases hm' : m' tape with
    | ok y =>
      rw [hm, hm'] at h1
      obtain ⟨a, s⟩ := x
      obtain ⟨b, s'⟩ := y
      obtain ⟨h2, h3⟩ := h1
      simp only at h2 h3
      subst h3
      refine ⟨fun a' r e => ?_, fun a' r e => ?_, fun e => by simp⟩
      · simp only [Except.ok.injEq, Prod.mk.injEq] at e
        obtain ⟨rfl, rfl⟩ := e
        exact ⟨b, rfl, h2⟩
      · simp only [Except.ok.injEq, Prod.mk.injEq] at e
        obtain ⟨rfl, rfl⟩ := e
        exact ⟨a, rfl, h2⟩
    | error e => rw [hm, hm'] at h1; exact absurd h1 id
  | error e =>
    cases hm' : m' tape with
    | ok y => rw [hm, hm'] at h1; exact absurd h1 id
    | error e' =>
      rw [hm, hm'] at h1
      have : e = e' := h1
      subst this
      exact ⟨fun _ _ h => by simp at h, fun _ _ h => by simp at h, fun _ => by simp⟩

/-! ## C69 -/

/-- A correspondence of positions alone that respects movements is rigid. -/
theorem rigid_of_shift {P : Bool → Vec3 F → Vec3 F → Prop}
    (move : ∀ {b : Bool} {p q : Vec3 F}, P b p q → ∀ (d : Vec3 F) (s : F),
      P b ⟨p.x + d.x*s, p.y + d.y*s, p.z + d.z*s⟩ ⟨q.x + d.x*s, q.y + d.y*s, q.z + d.z*s⟩)
    (recoil : ∀ {b : Bool} {p q : Vec3 F}, P b p q → ∀ (d : Vec3 F)
      (g : BinaryCollisionGeometry F), P false (recoil_position p d g) (recoil_position q d g)) :
    Rigid P id where
  move := move
  recoil := recoil
  deflect _ _ _ := rfl
  length _ := rfl
  cosine _ _ _ := rfl
  dot _ _ := rfl
  scale _ _ := rfl
  scale_neg _ _ := rfl
  combine _ _ _ _ := rfl
  reflect _ _ _ _ := rfl

theorem rigid_id : Rigid (F := F) AtSamePlace id := by
  refine rigid_of_shift ?_ ?_
  · rintro b p q rfl d s; rfl
  · rintro b p q rfl d g; rfl

theorem same_target_id (mat : Material F) : SameTarget AtSamePlace id mat mat where
  m := rfl
  Z := rfl
  Eb := rfl
  Es := rfl
  Ec := rfl
  Ed := rfl
  interaction_index := rfl
  surface_binding_model := rfl
  bulk_binding_model := rfl
  densities := by rintro b p q rfl; rfl
  ck := by rintro b p q rfl; rfl
  total := by rintro b p q rfl; rfl
  concentrations := by rintro b p q rfl; rfl
  inside := by rintro b p q rfl; rfl
  boundary := by rintro b p q rfl; rfl
  barrier := by rintro b p q rfl; rfl
  closest := by
    rintro b p q rfl
    cases mat.geometry.closest_point q.x q.y q.z with
    | ok c => exact .inl ⟨c, c, rfl, rfl, rfl⟩
    | error e => exact .inr ⟨e, rfl, rfl⟩
  ck_yy := by rintro b p q rfl; rfl
  densities_yy := by rintro b p q rfl; rfl

theorem samePhysics_refl (p : Particle F) : SamePhysics AtSamePlace id p p := by
  constructor <;> rfl

/-- **C69** Whatever is tracked and however particles are labelled, on the same random numbers the
same particles come out in the same order with the same physical state, as many random numbers are
drawn, and a run that fails fails in the same way. -/
theorem C69_records_do_not_change_physics (rcpr : Rcpr F) (fuel : Nat) (mat : Material F)
    {o o' : Options F} (ho : SamePhysicsOptions o o') {p q : Particle F}
    (hp : SamePhysics AtSamePlace id p q) (tape : Tape F) :
    (∀ out rest, single_ion_bca rcpr fuel p mat o tape = .ok (out, rest) →
      ∃ out', single_ion_bca rcpr fuel q mat o' tape = .ok (out', rest) ∧
        List.Forall₂ (SamePhysics AtSamePlace id) out out') ∧
    (∀ out' rest, single_ion_bca rcpr fuel q mat o' tape = .ok (out', rest) →
      ∃ out, single_ion_bca rcpr fuel p mat o tape = .ok (out, rest) ∧
        List.Forall₂ (SamePhysics AtSamePlace id) out out') ∧
    ∀ e, single_ion_bca rcpr fuel p mat o tape = .error e ↔
      single_ion_bca rcpr fuel q mat o' tape = .error e :=
  mrel_iff (cascade_rel rcpr rigid_id (same_target_id mat) ho fuel hp) tape

theorem from_input_same (inp : ParticleInput F) (o o' : Options F) :
    RRel (SamePhysics AtSamePlace id) (Particle.from_input inp o) (Particle.from_input inp o') := by
  unfold Particle.from_input
  refine RRel.bind_same rfl fun _ => ?_
  refine RRel.bind_same rfl fun _ => ?_
  exact RRel.pure (by constructor <;> rfl)

theorem run_ion_same (rcpr : Rcpr F) (fuel : Nat) (mat : Material F) {o o' : Options F}
    (ho : SamePhysicsOptions o o') (inp : ParticleInput F) (tape : Tape F) :
    RRel (List.Forall₂ (SamePhysics AtSamePlace id)) (run_ion rcpr fuel mat o inp tape)
      (run_ion rcpr fuel mat o' inp tape) := by
  unfold run_ion
  refine RRel.bind (from_input_same inp o o') fun p q hp => ?_
  refine RRel.bind (cascade_rel rcpr rigid_id (same_target_id mat) ho fuel hp tape)
    fun a b hab => RRel.pure hab.1

theorem update_same {p q : Particle F} (h : SamePhysics AtSamePlace id p q) (s : SummaryPerSpecies F) :
    s.update p = s.update q := by
  unfold SummaryPerSpecies.update
  rw [h.m, h.incident, h.left]

theorem summary_same {ps qs : List (Particle F)} (h : List.Forall₂ (SamePhysics AtSamePlace id) ps qs)
    (s : SummaryPerSpecies F) :
    forFold SummaryPerSpecies.update ps s = forFold SummaryPerSpecies.update qs s := by
  induction h generalizing s with
  | nil => rfl
  | cons h1 h2 ih =>
    simp only [forFold, update_same h1]
    exact congrArg _ (funext fun s => ih s)

theorem simulated_same {α : Type} {f g : α → Res (List (Particle F))}
    (h : ∀ a, RRel (List.Forall₂ (SamePhysics AtSamePlace id)) (f a) (g a)) (ions : List α) :
    ∀ {outs outs' : List (List (Particle F))}, Simulated f ions outs → Simulated g ions outs' →
      List.Forall₂ (SamePhysics AtSamePlace id) outs.flatten outs'.flatten := by
  induction ions with
  | nil =>
    intro outs outs' h1 h2
    cases h1; cases h2; exact .nil
  | cons a ions ih =>
    intro outs outs' h1 h2
    cases h1 with
    | cons e1 r1 =>
      cases h2 with
      | cons e2 r2 =>
        rw [List.flatten_cons, List.flatten_cons]
        refine List.rel_append ?_ (ih r1 r2)
        have := h a
        rw [e1, e2] at this
        exact this

/-- The line a particle contributes to each of the three main list files does not depend on what
is recorded. -/
theorem lines_same {p q : Particle F} (h : SamePhysics AtSamePlace id p q) (fmt : F → String)
    (o o' : Options F) (units : OutputUnits F) (f : OutFile)
    (hf : f = .reflected ∨ f = .sputtered ∨ f = .deposited) :
    linesOf f (output_lists fmt p o units) = linesOf f (output_lists fmt q o' units) := by
  have hpos : q.pos = p.pos := h.pos
  have hpo : q.pos_origin = p.pos_origin := h.pos_origin
  have hdir : q.dir = p.dir := h.dir
  have key : ∀ (r : Particle F) (oo : Options F), linesOf f (output_lists fmt r oo units) =
      linesOf f ((if r.incident && r.left then
    [OutOp.write .reflected (csv [fmt (r.m/units.mass_unit), fmt r.Z, fmt (r.E/units.energy_unit),
      fmt (r.pos.x/units.length_unit), fmt (r.pos.y/units.length_unit),
      fmt (r.pos.z/units.length_unit),
      fmt r.dir.x, fmt r.dir.y, fmt r.dir.z,
      toString r.number_collision_events])] else [])
  ++ (if r.incident && r.stopped then
    [.write .deposited (csv [fmt (r.m/units.mass_unit), fmt r.Z,
      fmt (r.pos.x/units.length_unit), fmt (r.pos.y/units.length_unit),
      fmt (r.pos.z/units.length_unit),
      toString r.number_collision_events])] else [])
  ++ (if !r.incident && r.left then
    [.write .sputtered (csv [fmt (r.m/units.mass_unit), fmt r.Z, fmt (r.E/units.energy_unit),
      fmt (r.pos.x/units.length_unit), fmt (r.pos.y/units.length_unit),
      fmt (r.pos.z/units.length_unit),
      fmt r.dir.x, fmt r.dir.y, fmt r.dir.z,
      toString r.number_collision_events,
      fmt (r.pos_origin.x/units.length_unit), fmt (r.pos_origin.y/units.length_unit),
      fmt (r.pos_origin.z/units.length_unit)])] else [])) := by
    intro r oo
    have e1 : ∀ c : Prop, [Decidable c] → ∀ s,
        linesOf f (if c then [OutOp.write .displacements s] else []) = [] := by
      intro c _ s
      split <;> rcases hf with rfl | rfl | rfl <;> simp [linesOf]
    have e2 : ∀ (c : Prop) [Decidable c] (n : String) (l : List (TrajectoryElement F))
        (w : TrajectoryElement F → String),
        linesOf f (if c then OutOp.write .trajectory_data n :: l.map fun e =>
          .write .trajectory (w e) else []) = [] := by
      intro c _ n l w
      split
      · rcases hf with rfl | rfl | rfl <;> simp [linesOf]
      · rfl
    have e3 : ∀ (c : Prop) [Decidable c] (l : List (EnergyLoss F)) (w : EnergyLoss F → String),
        linesOf f (if c then l.map fun e => OutOp.write .energy_loss (w e) else []) = [] := by
      intro c _ l w
      split
      · rcases hf with rfl | rfl | rfl <;> simp [linesOf]
      · rfl
    have ha : ∀ a b : List OutOp, linesOf f (a ++ b) = linesOf f a ++ linesOf f b := by
      intro a b; simp [linesOf]
    simp only [output_lists, ha, e1, e2, e3, List.nil_append, List.append_nil]
  rw [key p o, key q o', h.m, h.Z, h.E, hpos, hpo, hdir, h.incident, h.left, h.stopped,
    h.number_collision_events]

theorem all_lines_same {ps qs : List (Particle F)} (h : List.Forall₂ (SamePhysics AtSamePlace id) ps qs)
    (fmt : F → String) (o o' : Options F) (units : OutputUnits F) (f : OutFile)
    (hf : f = .reflected ∨ f = .sputtered ∨ f = .deposited) :
    (ps.map fun p => linesOf f (output_lists fmt p o units)) =
      qs.map fun p => linesOf f (output_lists fmt p o' units) := by
  induction h with
  | nil => rfl
  | cons h1 h2 ih => simp only [List.map_cons, ih, lines_same h1 fmt o o' units f hf]

/-- **C69** A whole run: tracking options, the number of chunks and threads, the output name, and
whether distributions are collected have no influence on the finished particles, on the summary or
on the lists of reflected, sputtered and deposited particles. -/
theorem C69_whole_run {rcpr : Rcpr F} {fuel : Nat} {cfg cfg' : OutputConfig F} {mat : Material F}
    {o o' : Options F} {splits splits' : List Split} {tapes : Nat → Tape F}
    {inputs : List (ParticleInput F)} {s s' : RunState F} (ho : SamePhysicsOptions o o')
    (run : physics_loop_run rcpr fuel cfg mat o splits tapes inputs = .ok s)
    (run' : physics_loop_run rcpr fuel cfg' mat o' splits' tapes inputs = .ok s') :
    List.Forall₂ (SamePhysics AtSamePlace id) s.processed s'.processed ∧ s'.summary = s.summary ∧
    (cfg.list_output = true → cfg'.list_output = true → cfg'.units = cfg.units →
      cfg'.fmt = cfg.fmt → ∀ f, f = .reflected ∨ f = .sputtered ∨ f = .deposited →
        linesOf f s'.ops = linesOf f s.ops) := by
  obtain ⟨⟨outs, h1, h2⟩, h3, h4⟩ := run_outputs run
  obtain ⟨⟨outs', h1', h2'⟩, h3', h4'⟩ := run_outputs run'
  have hp : List.Forall₂ (SamePhysics AtSamePlace id) s.processed s'.processed := by
    rw [h2, h2']
    exact simulated_same (fun a : ParticleInput F × Nat =>
      run_ion_same rcpr fuel mat ho a.1 (tapes a.2)) _ h1 h1'
  refine ⟨hp, ?_, ?_⟩
  · rw [summary_same hp, h3'] at h3
    simpa using h3
  · intro l1 l2 hu hfm f hf
    rw [h4, h4', if_pos l1, if_pos l2, hu, hfm, all_lines_same hp cfg.fmt o o' cfg.units f hf]

/-- **C69** and asking for other records never makes a run fail: the second run succeeds whenever
the first does, if its number of chunks is admissible and its histogram grids have two points. -/
theorem C69_other_records_succeed {rcpr : Rcpr F} {fuel : Nat} {cfg cfg' : OutputConfig F}
    {mat : Material F} {o o' : Options F} {splits : List Split} {tapes : Nat → Tape F}
    {inputs : List (ParticleInput F)} {s : RunState F} (ho : SamePhysicsOptions o o')
    (run : physics_loop_run rcpr fuel cfg mat o splits tapes inputs = .ok s)
    (hg : ∀ g, cfg'.grid = some g → TwoPoints g) (hc : 0 < o'.num_chunks) (hn : o'.num_chunks ≤ inputs.length)
    (splits' : List Split) :
    ∃ s', physics_loop_run rcpr fuel cfg' mat o' splits' tapes inputs = .ok s' := by
  refine (C65_fails_only_in_physics hg _ splits' _).2 ⟨hc, by simpa using hn, ?_⟩
  intro a ha
  obtain ⟨⟨outs, ho', -⟩, -, -⟩ := run_outputs run
  obtain ⟨i, hi, rfl⟩ := List.getElem_of_mem ha
  have hl := ho'.length_eq
  have e := List.forall₂_iff_get.1 ho' |>.2 i hi (by omega)
  have := run_ion_same rcpr fuel mat ho (inputs.zipIdx[i]).1 (tapes (inputs.zipIdx[i]).2)
  simp only [List.get_eq_getElem] at e
  rw [e] at this
  cases h : run_ion rcpr fuel mat o' (inputs.zipIdx[i]).1 (tapes (inputs.zipIdx[i]).2) with
  | ok out => exact ⟨out, rfl⟩
  | error e => rw [h] at this; exact absurd this id

/-! ## C70 -/

/-- The target `g` moved by `a`. -/
noncomputable def movedGeom (a : Vec3 ℝ) (g : Geom ℝ) : Geom ℝ where
  get_densities x y z := g.get_densities (x - a.x) (y - a.y) (z - a.z)
  get_ck x y z := g.get_ck (x - a.x) (y - a.y) (z - a.z)
  get_total_density x y z := g.get_total_density (x - a.x) (y - a.y) (z - a.z)
  get_concentrations x y z := g.get_concentrations (x - a.x) (y - a.y) (z - a.z)
  inside x y z := g.inside (x - a.x) (y - a.y) (z - a.z)
  inside_simulation_boundary x y z := g.inside_simulation_boundary (x - a.x) (y - a.y) (z - a.z)
  inside_energy_barrier x y z := g.inside_energy_barrier (x - a.x) (y - a.y) (z - a.z)
  closest_point x y z := (fun c => (c.1 + a.x, c.2.1 + a.y, c.2.2 + a.z)) <$>
    g.closest_point (x - a.x) (y - a.y) (z - a.z)

theorem rigid_shift (a : Vec3 ℝ) : Rigid (MovedBy a) id := by
  refine rigid_of_shift ?_ ?_
  · rintro b p q rfl d s
    simp only [MovedBy, Vec3.mk.injEq]
    exact ⟨by ring, by ring, by ring⟩
  · rintro b p q rfl d g
    simp only [MovedBy, recoil_position, Vec3.mk.injEq]
    exact ⟨by ring, by ring, by ring⟩

/-- The composition does not depend on `z` (true of every geometry of the program). -/
def CompositionIgnoresZ (g : Geom ℝ) : Prop :=
  ∀ x y z z', g.get_densities x y z = g.get_densities x y z' ∧ g.get_ck x y z = g.get_ck x y z'

theorem same_target_moved (a : Vec3 ℝ) (mat : Material ℝ) (hz : CompositionIgnoresZ mat.geometry) :
    SameTarget (MovedBy a) id mat { mat with geometry := movedGeom a mat.geometry } where
  m := rfl
  Z := rfl
  Eb := rfl
  Es := rfl
  Ec := rfl
  Ed := rfl
  interaction_index := rfl
  surface_binding_model := rfl
  bulk_binding_model := rfl
  densities := by rintro b p q rfl; simp only [movedGeom, add_sub_cancel_right]
  ck := by rintro b p q rfl; simp only [movedGeom, add_sub_cancel_right]
  total := by rintro b p q rfl; simp only [movedGeom, add_sub_cancel_right]
  concentrations := by rintro b p q rfl; simp only [movedGeom, add_sub_cancel_right]
  inside := by rintro b p q rfl; simp only [movedGeom, add_sub_cancel_right]
  boundary := by rintro b p q rfl; simp only [movedGeom, add_sub_cancel_right]
  barrier := by rintro b p q rfl; simp only [movedGeom, add_sub_cancel_right]
  closest := by
    rintro b p q rfl
    simp only [movedGeom, add_sub_cancel_right]
    cases mat.geometry.closest_point p.x p.y p.z with
    | ok c =>
      refine .inl ⟨c, _, rfl, rfl, ?_⟩
      simp only [id, Vec3.mk.injEq]
      exact ⟨by ring, by ring, by ring⟩
    | error e => exact .inr ⟨e, rfl, rfl⟩
  ck_yy := by
    rintro b p q rfl
    simp only [movedGeom, add_sub_cancel_right]
    exact (hz _ _ _ _).2
  densities_yy := by
    rintro b p q rfl
    simp only [movedGeom, add_sub_cancel_right]
    exact (hz _ _ _ _).1

/-- **C70** Move the ion and the target by the same vector: the same particles come out in the same
order, every position moved by that vector and everything else unchanged, and as many random
numbers are drawn. -/
theorem C70_translation (rcpr : Rcpr ℝ) (fuel : Nat) (mat : Material ℝ) (o : Options ℝ)
    (a : Vec3 ℝ) (hz : CompositionIgnoresZ mat.geometry) {p q : Particle ℝ}
    (hp : SamePhysics (MovedBy a) id p q) (tape : Tape ℝ) :
    (∀ out rest, single_ion_bca rcpr fuel p mat o tape = .ok (out, rest) →
      ∃ out', single_ion_bca rcpr fuel q { mat with geometry := movedGeom a mat.geometry } o tape =
          .ok (out', rest) ∧ List.Forall₂ (SamePhysics (MovedBy a) id) out out') ∧
    ∀ e, single_ion_bca rcpr fuel p mat o tape = .error e →
      single_ion_bca rcpr fuel q { mat with geometry := movedGeom a mat.geometry } o tape =
        .error e := by
  have h := mrel_iff (cascade_rel rcpr (rigid_shift a) (same_target_moved a mat hz)
    (o := o) (o' := o) (by constructor <;> rfl) fuel hp) tape
  exact ⟨h.1, fun e he => (h.2.2 e).1 he⟩

/-- The geometry looks the same from everywhere in the directions `y` and `z`. -/
theorem moved_mesh0d (g : Mesh0D ℝ) (a : Vec3 ℝ) (ha : a.x = 0) :
    movedGeom a g.toGeom = g.toGeom := by
  unfold movedGeom Mesh0D.toGeom
  simp only [ha, sub_zero, Functor.map, Except.map, add_zero, sub_add_cancel]

theorem moved_mesh1d (g : Mesh1D ℝ) (a : Vec3 ℝ) (ha : a.x = 0) :
    movedGeom a g.toGeom = g.toGeom := by
  have hl : ∀ x y z y' z', g.find_layer x y z = g.find_layer x y' z' := fun _ _ _ _ _ => rfl
  have hc : ∀ x y z, ((g.closest_point x (y - a.y) (z - a.z)).1 + 0,
      (g.closest_point x (y - a.y) (z - a.z)).2.1 + a.y,
      (g.closest_point x (y - a.y) (z - a.z)).2.2 + a.z) = g.closest_point x y z := by
    intro x y z
    unfold Mesh1D.closest_point
    simp only
    split <;> simp
  unfold movedGeom Mesh1D.toGeom
  simp only [ha, sub_zero, Functor.map, Except.map, hc]
  congr 1

theorem moved_homogeneous (ext : Ext ℝ) (g : HomogeneousMesh2D ℝ) (a : Vec3 ℝ) (ha : a.x = 0)
    (hy : a.y = 0) : movedGeom a (g.toGeom ext) = g.toGeom ext := by
  unfold movedGeom HomogeneousMesh2D.toGeom
  simp only [ha, hy, sub_zero, add_zero]
  congr 1
  funext x y z
  cases ext.polygon_closest_point g.boundary (x, y) with
  | none => rfl
  | some c => simp [Functor.map, Except.map]

theorem moved_mesh2d (ext : Ext ℝ) (g : Mesh2D ℝ) (a : Vec3 ℝ) (ha : a.x = 0) (hy : a.y = 0) :
    movedGeom a (g.toGeom ext) = g.toGeom ext := by
  unfold movedGeom Mesh2D.toGeom
  simp only [ha, hy, sub_zero, add_zero]
  congr 1
  funext x y z
  cases ext.polygon_closest_point g.boundary (x, y) with
  | none => rfl
  | some c => simp [Functor.map, Except.map]

/-- **C70** For the layered targets the starting point in the plane of the surface is irrelevant,
and for the two-dimensional ones the starting height `z`: only the positions of the results move. -/
theorem C70_lateral_position (rcpr : Rcpr ℝ) (fuel : Nat) (mat : Material ℝ) (o : Options ℝ)
    (a : Vec3 ℝ) (ha : a.x = 0)
    (hg : (∃ g : Mesh0D ℝ, mat.geometry = g.toGeom) ∨ (∃ g : Mesh1D ℝ, mat.geometry = g.toGeom) ∨
      (a.y = 0 ∧ ((∃ ext, ∃ g : HomogeneousMesh2D ℝ, mat.geometry = g.toGeom ext) ∨
        ∃ ext, ∃ g : Mesh2D ℝ, mat.geometry = g.toGeom ext)))
    {p q : Particle ℝ} (hp : SamePhysics (MovedBy a) id p q) (tape : Tape ℝ) :
    (∀ out rest, single_ion_bca rcpr fuel p mat o tape = .ok (out, rest) →
      ∃ out', single_ion_bca rcpr fuel q mat o tape = .ok (out', rest) ∧
        List.Forall₂ (SamePhysics (MovedBy a) id) out out') ∧
    ∀ e, single_ion_bca rcpr fuel p mat o tape = .error e →
      single_ion_bca rcpr fuel q mat o tape = .error e := by
  have hz : CompositionIgnoresZ mat.geometry := by
    rcases hg with ⟨g, hg⟩ | ⟨g, hg⟩ | ⟨-, ⟨ext, g, hg⟩ | ⟨ext, g, hg⟩⟩ <;> rw [hg] <;>
      exact fun x y z z' => ⟨rfl, rfl⟩
  have hm : movedGeom a mat.geometry = mat.geometry := by
    rcases hg with ⟨g, hg⟩ | ⟨g, hg⟩ | ⟨hy, ⟨ext, g, hg⟩ | ⟨ext, g, hg⟩⟩ <;> rw [hg]
    · exact moved_mesh0d g a ha
    · exact moved_mesh1d g a ha
    · exact moved_homogeneous ext g a ha hy
    · exact moved_mesh2d ext g a ha hy
  have h := C70_translation rcpr fuel mat o a hz hp tape
  rw [hm] at h
  exact h

/-! ## C85 -/

theorem turn_length (α : ℝ) (v : Vec3 ℝ) : (turn α v).x*(turn α v).x + (turn α v).y*(turn α v).y
    + (turn α v).z*(turn α v).z = v.x*v.x + v.y*v.y + v.z*v.z := by
  have h := Real.sin_sq_add_cos_sq α
  simp only [turn]
  linear_combination (v.y^2 + v.z^2)*h

theorem turn_normalize (α : ℝ) (v : Vec3 ℝ) : (turn α v).normalize = turn α v.normalize := by
  unfold Vec3.normalize Vec3.magnitude
  rw [turn_length]
  simp only [turn, Vec3.mk.injEq]
  refine ⟨trivial, by ring, by ring⟩

theorem rigid_turn (α : ℝ) : Rigid (TurnedBy α) (turn α) where
  move := by
    rintro b p q ⟨h1, h2⟩ d s
    refine ⟨by simp only [turn, h1], fun hb => ?_⟩
    rw [h2 hb]
    simp only [turn, Vec3.mk.injEq]
    exact ⟨trivial, by ring, by ring⟩
  recoil := by
    rintro b p q ⟨h1, h2⟩ d g
    refine ⟨by simp only [recoil_position, turn, h1], fun hb => absurd hb (by simp)⟩
  deflect d psi phi := by
    rw [← turn_normalize]
    congr 1
    simp only [turn, Particle.rotated_dir, Vec3.mk.injEq]
    exact ⟨trivial, by ring, by ring⟩
  length v := turn_length α v
  cosine v d m := by
    have h := Real.sin_sq_add_cos_sq α
    simp only [turn]
    linear_combination (v.y*d.y/m + v.z*d.z/m)*h
  dot u v := by
    have h := Real.sin_sq_add_cos_sq α
    simp only [turn, Vec3.dot]
    linear_combination (u.y*v.y + u.z*v.z)*h
  scale v m := by
    simp only [turn, Vec3.mk.injEq]
    exact ⟨trivial, by ring, by ring⟩
  scale_neg v m := by
    simp only [turn, Vec3.mk.injEq]
    exact ⟨trivial, by ring, by ring⟩
  combine a b d n := by
    simp only [turn, Vec3.mk.injEq]
    exact ⟨trivial, by ring, by ring⟩
  reflect c m v d := by
    simp only [turn, Vec3.mk.injEq]
    exact ⟨trivial, by ring, by ring⟩

theorem same_target_turned (α : ℝ) (mat : Material ℝ)
    (hg : (∃ g : Mesh0D ℝ, mat.geometry = g.toGeom) ∨ ∃ g : Mesh1D ℝ, mat.geometry = g.toGeom) :
    SameTarget (TurnedBy α) (turn α) mat mat := by
  rcases hg with ⟨g, hg⟩ | ⟨g, hg⟩
  · constructor <;> first | rfl | skip
    all_goals
      rintro b p q ⟨h, -⟩
      rw [hg]
      simp only [Mesh0D.toGeom, h]
    refine .inl ⟨_, _, rfl, rfl, ?_⟩
    simp [turn]
  · constructor <;> first | rfl | skip
    all_goals
      rintro b p q ⟨h, -⟩
      rw [hg]
      simp only [Mesh1D.toGeom, h]
    all_goals first | rfl | skip
    refine .inl ⟨_, _, rfl, rfl, ?_⟩
    unfold Mesh1D.closest_point
    simp only
    split <;> simp [turn]

/-- **C85** For flat and layered targets the azimuth of the incoming ions is irrelevant: turn an ion
about the surface normal, and on the same random numbers the same particles come out in the same
order with the same energies, species, fates and depths; all directions, and all positions of the
ion itself, are turned by the same angle; as many random numbers are drawn; and a run that fails
fails in the same way. -/
theorem C85_azimuth (rcpr : Rcpr ℝ) (fuel : Nat) (mat : Material ℝ) (o : Options ℝ) (α : ℝ)
    (hg : (∃ g : Mesh0D ℝ, mat.geometry = g.toGeom) ∨ ∃ g : Mesh1D ℝ, mat.geometry = g.toGeom)
    {p q : Particle ℝ} (hp : SamePhysics (TurnedBy α) (turn α) p q) (tape : Tape ℝ) :
    (∀ out rest, single_ion_bca rcpr fuel p mat o tape = .ok (out, rest) →
      ∃ out', single_ion_bca rcpr fuel q mat o tape = .ok (out', rest) ∧
        List.Forall₂ (SamePhysics (TurnedBy α) (turn α)) out out') ∧
    ∀ e, single_ion_bca rcpr fuel p mat o tape = .error e ↔
      single_ion_bca rcpr fuel q mat o tape = .error e := by
  have h := mrel_iff (cascade_rel rcpr (rigid_turn α) (same_target_turned α mat hg)
    (o := o) (o' := o) (by constructor <;> rfl) fuel hp) tape
  exact ⟨h.1, fun e => h.2.2 e⟩

/-- **C85** (what is not turned) The places where recoils are set going are not turned: for an ion at
the origin flying in the direction `(3/5, 4/5, 0)`, a recoil at impact parameter 1 and azimuth 0
starts elsewhere than the turned recoil of the turned ion. The depth of the recoil agrees. -/
theorem C85_recoil_places_refuted :
    ∃ (α : ℝ) (d : Vec3 ℝ) (g : BinaryCollisionGeometry ℝ), d.x^2 + d.y^2 + d.z^2 = 1 ∧
      recoil_position ⟨0, 0, 0⟩ (turn α d) g ≠ turn α (recoil_position ⟨0, 0, 0⟩ d g) := by
  refine ⟨Real.pi/2, ⟨3/5, 4/5, 0⟩, { phi_azimuthal := 0, impact_parameter := 1, mfp := 0 },
    by norm_num, fun h => ?_⟩
  have hs : √((1.0 : ℝ) - 3/5*(3/5)) = 4/5 := by
    rw [show ((1.0 : ℝ) - 3/5*(3/5)) = (4/5)^2 by norm_num, Real.sqrt_sq (by norm_num)]
  simp [turn, recoil_position] at h
  rw [hs] at h
  norm_num at h

end RustBCA
