import Verif.Proofs.Monotone
import Verif.Props.DividedLayers

/-!
# C120: only the part of the target that is reached matters
-/

namespace RustBCA
open Scalar

/-! ## Specification -/

section
variable {F : Type} [Scalar F]

open Classical in
/-- The target `g` as far as the places in `R` go: a question about any other place is a failure.  A
simulation succeeds in this target when it asks about no place outside `R`. -/
noncomputable def Spec.onlyAt (R : F → F → F → Prop) (g : Geom F) : Geom F where
  get_densities x y z := if R x y z then g.get_densities x y z else rpanic "elsewhere"
  get_ck x y z := if R x y z then g.get_ck x y z else rpanic "elsewhere"
  get_total_density x y z := if R x y z then g.get_total_density x y z else rpanic "elsewhere"
  get_concentrations x y z := if R x y z then g.get_concentrations x y z else rpanic "elsewhere"
  inside x y z := if R x y z then g.inside x y z else rpanic "elsewhere"
  inside_simulation_boundary x y z := if R x y z then g.inside_simulation_boundary x y z else rpanic "elsewhere"
  inside_energy_barrier x y z := if R x y z then g.inside_energy_barrier x y z else rpanic "elsewhere"
  closest_point x y z := if R x y z then g.closest_point x y z else rpanic "elsewhere"

/-- The two targets answer alike about every place in `R`. -/
structure Spec.AlikeAt (R : F → F → F → Prop) (g g' : Geom F) : Prop where
  densities : ∀ x y z, R x y z → g'.get_densities x y z = g.get_densities x y z
  ck : ∀ x y z, R x y z → g'.get_ck x y z = g.get_ck x y z
  total : ∀ x y z, R x y z → g'.get_total_density x y z = g.get_total_density x y z
  concentrations : ∀ x y z, R x y z → g'.get_concentrations x y z = g.get_concentrations x y z
  inside : ∀ x y z, R x y z → g'.inside x y z = g.inside x y z
  boundary : ∀ x y z, R x y z → g'.inside_simulation_boundary x y z = g.inside_simulation_boundary x y z
  barrier : ∀ x y z, R x y z → g'.inside_energy_barrier x y z = g.inside_energy_barrier x y z
  closest : ∀ x y z, R x y z → g'.closest_point x y z = g.closest_point x y z

open Spec

/-! ## Proof -/

omit [Scalar F] in
theorem only_le {R : F → F → F → Prop} {g g' : Geom F} (h : AlikeAt R g g') : GeomLe (onlyAt R g) g' := by
  classical
  have key : ∀ {α : Type} (q q' : F → F → F → Res α) (_ : ∀ x y z, R x y z → q' x y z = q x y z) (x y z : F)
      [Decidable (R x y z)], RLe (if R x y z then q x y z else rpanic "elsewhere") (q' x y z) := by
    intro α q q' hq x y z _ r hr
    split at hr
    · rename_i hR
      rw [hq x y z hR, hr]
    · cases hr
  exact ⟨fun x y z => key _ _ h.densities x y z, fun x y z => key _ _ h.ck x y z, fun x y z => key _ _ h.total x y z,
    fun x y z => key _ _ h.concentrations x y z, fun x y z => key _ _ h.inside x y z,
    fun x y z => key _ _ h.boundary x y z, fun x y z => key _ _ h.barrier x y z, fun x y z => key _ _ h.closest x y z⟩

/-- **C120.** What a target is like at places the simulation never asks about has no influence: if the
simulation of an ion in one target asks only about places in `R`, its result is the same in every target
that is alike in `R`. -/
theorem C120_elsewhere {R : F → F → F → Prop} {g g' : Geom F} (alike : AlikeAt R g g') (rcpr : Rcpr F) (fuel : Nat)
    (ion : Particle F) (mat : Material F) (o : Options F) (tape : Tape F) (r : List (Particle F) × Tape F)
    (run : single_ion_bca rcpr fuel ion { mat with geometry := onlyAt R g } o tape = .ok r) :
    single_ion_bca rcpr fuel ion { mat with geometry := g } o tape = .ok r ∧
    single_ion_bca rcpr fuel ion { mat with geometry := g' } o tape = .ok r :=
  ⟨mono_cascade (only_le ⟨fun _ _ _ _ => rfl, fun _ _ _ _ => rfl, fun _ _ _ _ => rfl, fun _ _ _ _ => rfl,
    fun _ _ _ _ => rfl, fun _ _ _ _ => rfl, fun _ _ _ _ => rfl, fun _ _ _ _ => rfl⟩) mat rcpr fuel ion o tape r run,
  mono_cascade (only_le alike) mat rcpr fuel ion o tape r run⟩

/-- **C120, whole runs.** -/
theorem C120_run {R : F → F → F → Prop} {g g' : Geom F} (alike : AlikeAt R g g') (rcpr : Rcpr F) (fuel : Nat)
    (cfg : OutputConfig F) (mat : Material F) (o : Options F) (splits : List Split) (tapes : Nat → Tape F)
    (inputs : List (ParticleInput F)) (s : RunState F)
    (run : physics_loop_run rcpr fuel cfg { mat with geometry := onlyAt R g } o splits tapes inputs = .ok s) :
    physics_loop_run rcpr fuel cfg { mat with geometry := g } o splits tapes inputs = .ok s ∧
    physics_loop_run rcpr fuel cfg { mat with geometry := g' } o splits tapes inputs = .ok s :=
  ⟨mono_run (only_le ⟨fun _ _ _ _ => rfl, fun _ _ _ _ => rfl, fun _ _ _ _ => rfl, fun _ _ _ _ => rfl,
    fun _ _ _ _ => rfl, fun _ _ _ _ => rfl, fun _ _ _ _ => rfl, fun _ _ _ _ => rfl⟩) mat rcpr fuel cfg o splits tapes inputs s run,
  mono_run (only_le alike) mat rcpr fuel cfg o splits tapes inputs s run⟩

end

/-! ## Layered targets -/

open Spec

theorem layersFrom_append (u : ℝ) (b : List LayerRow) : ∀ (a : List LayerRow) (top : ℝ),
    layersFrom u top (a ++ b) = layersFrom u top a ++ layersFrom u (depthAfter u top a) b := by
  intro a
  induction a with
  | nil => intro top; rfl
  | cons r a ih => intro top; simp only [List.cons_append, layersFrom, depthAfter, ih]

theorem depthAfter_append (u : ℝ) (b : List LayerRow) : ∀ (a : List LayerRow) (top : ℝ),
    depthAfter u top (a ++ b) = depthAfter u (depthAfter u top a) b := by
  intro a
  induction a with
  | nil => intro top; rfl
  | cons r a ih => intro top; simp only [List.cons_append, depthAfter, ih]

theorem depthAfter_sum (u : ℝ) : ∀ (a : List LayerRow) (top : ℝ),
    depthAfter u top a = top + (a.map (·.thickness)).sum*u := by
  intro a
  induction a with
  | nil => intro top; simp [depthAfter]
  | cons r a ih => intro top; simp only [depthAfter, ih, List.map_cons, List.sum_cons]; ring

theorem find_some (u : ℝ) (x y z : ℝ) : ∀ (a : List LayerRow) (top : ℝ), (∀ r ∈ a, 0 < r.thickness) →
    top < x → x ≤ depthAfter u top a → ∃ l, (layersFrom u top a).find? (·.contains x y z) = some l := by
  intro a
  induction a with
  | nil => intro top _ h1 h2; exact absurd (lt_of_lt_of_le h1 h2) (lt_irrefl _)
  | cons r a ih =>
    intro top hpos h1 h2
    simp only [layersFrom, List.find?_cons]
    by_cases hx : x ≤ top + r.thickness*u
    · have : Layer1D.contains (⟨top, top + r.thickness*u, convert_densities u r.densities,
          concentrations_of (convert_densities u r.densities), r.correction⟩ : Layer1D ℝ) x y z = true := by
        unfold Layer1D.contains
        rw [Bool.and_eq_true, lt_real, le_real]; exact ⟨h1, hx⟩
      rw [this]
      exact ⟨_, rfl⟩
    · have : Layer1D.contains (⟨top, top + r.thickness*u, convert_densities u r.densities,
          concentrations_of (convert_densities u r.densities), r.correction⟩ : Layer1D ℝ) x y z = false := by
        unfold Layer1D.contains
        rw [Bool.eq_false_iff, ne_eq, Bool.and_eq_true, lt_real, le_real]; exact fun h => hx h.2
      rw [this]
      exact ih _ (fun q hq => hpos q (List.mem_cons_of_mem _ hq)) (not_le.1 hx) h2

theorem thickness_nonneg (n : ℝ) (hn : 0 ≤ n) : 0 ≤ barrier_thickness n := by
  unfold barrier_thickness SQRTPI FRAC_2_SQRT_PI
  rw [powf_real]
  have : (0:ℝ) ≤ n ^ ((-1.0:ℝ)/3.0) := Real.rpow_nonneg hn _
  rw [sqrt_real]
  positivity

/-- The layers of the input, in metres, of positive thickness and with densities that add up to no less
than nothing. -/
def Spec.SensibleLayers (rows : List LayerRow) : Prop :=
  ∀ r ∈ rows, 0 < r.thickness ∧ 0 ≤ r.densities.sum

/-- Places that are not exactly at the surface, outside the target or not deeper than half of `depth`. -/
def Spec.UpperHalf (depth : ℝ) (x _y _z : ℝ) : Prop := x ≠ 0 ∧ x ≤ depth/2

theorem built_layers {ext : Ext ℝ} {unit : String} {rows : List LayerRow} {u : ℝ} (hu : 0 < u)
    (hunit : length_unit_of ext unit = .ok u) (hrows : SensibleLayers rows) {g : Mesh1D ℝ}
    (hg : Mesh1D.new ext (layersInput unit rows) = .ok g) :
    g.layers = layersFrom u 0 rows ∧ g.top = 0 ∧ g.bottom = (rows.map (·.thickness)).sum*u ∧
      0 ≤ g.bottom_energy_barrier_thickness ∧
      ∃ first, (layersFrom u 0 rows)[0]? = some first ∧
        g.top_energy_barrier_thickness = barrier_thickness (fsum first.densities) := by
  rw [new_layers ext unit rows u hu hunit fun r hr => (hrows r hr).1] at hg
  have hpos : ∀ (rows : List LayerRow) (top : ℝ), SensibleLayers rows → ∀ l ∈ layersFrom u top rows,
      0 ≤ fsum l.densities := by
    intro rows
    induction rows with
    | nil => intro top _ l hl; cases hl
    | cons r rows ih =>
      intro top h l hl
      rcases List.mem_cons.1 hl with rfl | hl
      · rw [fsum_real, convert_sum]
        exact div_nonneg (h r List.mem_cons_self).2 (by positivity)
      · exact ih _ (fun q hq => h q (List.mem_cons_of_mem _ hq)) l hl
  have hd := depthAfter_sum u rows 0
  rw [zero_add] at hd
  have h00 : (0.0 : ℝ) = 0 := by norm_num
  cases ha : rassert ((rows.map fun r => convert_densities u r.densities).all fun row =>
        row.length == ((rows.map fun r => convert_densities u r.densities).headD []).length)
        "Input error: all layer density lists must be the same size." with
  | error e => rw [ha] at hg; cases hg
  | ok _ =>
    rw [ha] at hg
    unfold vget at hg
    cases h1 : (layersFrom u 0 rows)[0]? with
    | none => rw [h1] at hg; cases hg
    | some first =>
      cases h2 : (layersFrom u 0 rows)[(layersFrom u 0 rows).length - 1]? with
      | none => rw [h1, h2] at hg; cases hg
      | some last =>
        rw [h1, h2] at hg
        have e := (Except.ok.inj hg).symm
        subst e
        exact ⟨rfl, h00, hd, thickness_nonneg _ (hpos rows 0 hrows last (List.mem_of_getElem? h2)), first, rfl, rfl⟩

/-- What the queries of a layered target say about the upper half of its first layers. -/
theorem upper_queries {ext : Ext ℝ} {unit : String} {top rest : List LayerRow} {u : ℝ} (hu : 0 < u)
    (hunit : length_unit_of ext unit = .ok u) (hrows : SensibleLayers (top ++ rest)) (hne : top ≠ []) {g : Mesh1D ℝ}
    (hg : Mesh1D.new ext (layersInput unit (top ++ rest)) = .ok g) :
    ∃ first, (layersFrom u 0 top)[0]? = some first ∧ ∀ x y z, UpperHalf ((top.map (·.thickness)).sum*u) x y z →
      g.find_layer x y z = (if 0 < x then
        (match (layersFrom u 0 top).find? (·.contains x y z) with
          | some l => .ok l
          | none => rpanic "Geometry error: method inside() is returning true for points outside all layers. Check geometry.")
        else .ok first) ∧
      g.inside x = (0.0 <. x) ∧
      g.inside_simulation_boundary x = (-10.0*barrier_thickness (fsum first.densities) <. x) ∧
      g.inside_energy_barrier x = (-barrier_thickness (fsum first.densities) <. x) ∧
      g.closest_point x y z = (0.0, y, z) := by
  obtain ⟨h1, h2, h3, h4, first, h5, h6⟩ := built_layers hu hunit hrows hg
  have hpos : ∀ r ∈ top, 0 < r.thickness := fun r hr => (hrows r (List.mem_append_left _ hr)).1
  have hfirst : (layersFrom u 0 top)[0]? = some first := by
    rw [layersFrom_append] at h5
    obtain ⟨r, l, rfl⟩ := List.exists_cons_of_ne_nil hne
    exact h5
  refine ⟨first, hfirst, fun x y z hx => ?_⟩
  obtain ⟨hx0, hx1⟩ := hx
  have hD : 0 < (top.map (·.thickness)).sum*u := by
    refine mul_pos ?_ hu
    obtain ⟨r, l, rfl⟩ := List.exists_cons_of_ne_nil hne
    rw [List.map_cons, List.sum_cons]
    have := hpos r List.mem_cons_self
    have : 0 ≤ (l.map (·.thickness)).sum := List.sum_nonneg fun a ha => by
      obtain ⟨q, hq, rfl⟩ := List.mem_map.1 ha
      exact (hpos q (List.mem_cons_of_mem _ hq)).le
    linarith
  have hB : (top.map (·.thickness)).sum*u ≤ g.bottom := by
    rw [h3, List.map_append, List.sum_append, add_mul]
    have : 0 ≤ (rest.map (·.thickness)).sum*u := mul_nonneg (List.sum_nonneg fun a ha => by
      obtain ⟨q, hq, rfl⟩ := List.mem_map.1 ha
      exact (hrows q (List.mem_append_right _ hq)).1.le) hu.le
    linarith
  have h00 : (0.0 : ℝ) = 0 := by norm_num
  have hin : g.inside x = (0.0 <. x) := by
    unfold Mesh1D.inside
    rw [h2, h00, Bool.eq_iff_iff, Bool.and_eq_true, lt_real, lt_real]
    exact ⟨fun h => h.1, fun h => ⟨h, by linarith⟩⟩
  refine ⟨?_, hin, ?_, ?_, ?_⟩
  · unfold Mesh1D.find_layer
    rw [hin, h00, h1, h2]
    by_cases h : 0 < x
    · have hb : ((0:ℝ) <. x) = true := by rw [lt_real]; exact h
      rw [hb, if_pos rfl, if_pos h, layersFrom_append, List.find?_append]
      obtain ⟨l, hl⟩ := find_some u x y z top 0 hpos h (by rw [depthAfter_sum, zero_add]; linarith)
      rw [hl]
      rfl
    · have hb : ((0:ℝ) <. x) = false := by rw [lt_real_false]; exact not_lt.1 h
      have hb' : (x <. (0:ℝ)) = true := by rw [lt_real]; exact lt_of_le_of_ne (not_lt.1 h) hx0
      rw [hb, hb', if_neg h]
      simp only [Bool.false_eq_true, if_false, if_true]
      unfold vget
      rw [h5]
  · unfold Mesh1D.inside_simulation_boundary
    rw [h2, h6, Bool.eq_iff_iff, Bool.and_eq_true, lt_real, lt_real, lt_real]
    have h10 : (10.0:ℝ) = 10 := by norm_num
    rw [h10]
    constructor
    · rintro ⟨h, -⟩; linarith
    · intro h; exact ⟨by linarith, by linarith⟩
  · unfold Mesh1D.inside_energy_barrier
    rw [h2, h6, Bool.eq_iff_iff, Bool.and_eq_true, lt_real, lt_real, lt_real]
    constructor
    · rintro ⟨h, -⟩; linarith
    · intro h; exact ⟨by linarith, by linarith⟩
  · unfold Mesh1D.closest_point
    have : (Scalar.abs (x - g.bottom) <. Scalar.abs (x - g.top)) = false := by
      rw [lt_real_false, h2]
      show |x - 0| ≤ |x - g.bottom|
      rw [sub_zero, abs_sub_comm, abs_of_nonneg (a := g.bottom - x) (by linarith)]
      exact abs_le.2 ⟨by linarith, by linarith⟩
    simp only [this, Bool.false_eq_true, if_false]
    rw [h2, h00]

/-- **C120, deep layers.** Two layered targets with the same upper layers are alike down to half the depth
of these layers (except exactly at the surface, where a layered target takes the density of its last
layer: C63): an ion that stays there cannot tell what lies below. -/
theorem C120_deep_layers {ext : Ext ℝ} {unit : String} {top below below' : List LayerRow} {u : ℝ} (hu : 0 < u)
    (hunit : length_unit_of ext unit = .ok u) (hne : top ≠ []) (hrows : SensibleLayers (top ++ below))
    (hrows' : SensibleLayers (top ++ below')) {g g' : Mesh1D ℝ}
    (hg : Mesh1D.new ext (layersInput unit (top ++ below)) = .ok g)
    (hg' : Mesh1D.new ext (layersInput unit (top ++ below')) = .ok g') :
    AlikeAt (UpperHalf ((top.map (·.thickness)).sum*u)) g.toGeom g'.toGeom := by
  obtain ⟨f, hf, h⟩ := upper_queries hu hunit hrows hne hg
  obtain ⟨f', hf', h'⟩ := upper_queries hu hunit hrows' hne hg'
  rw [hf] at hf'
  obtain rfl := Option.some.inj hf'
  constructor <;> intro x y z hx <;> obtain ⟨a, b, c, d, e⟩ := h x y z hx <;> obtain ⟨a', b', c', d', e'⟩ := h' x y z hx <;>
    simp only [Mesh1D.toGeom, a, b, c, d, e, a', b', c', d', e']

/-- **C120, thick layers.** A layered target whose first layer has the composition of a homogeneous target
is like it down to half the thickness of that layer (except exactly at the surface): an ion that stays
there cannot tell that the target is not infinitely thick. -/
theorem C120_thick_layer {ext : Ext ℝ} {unit : String} {r : LayerRow} {below : List LayerRow} {u : ℝ} (hu : 0 < u)
    (hunit : length_unit_of ext unit = .ok u) (hrows : SensibleLayers (r :: below)) {g : Mesh0D ℝ} {g' : Mesh1D ℝ}
    (hg : Mesh0D.new ext ⟨unit, r.densities, r.correction⟩ = .ok g)
    (hg' : Mesh1D.new ext (layersInput unit (r :: below)) = .ok g') :
    AlikeAt (UpperHalf (r.thickness*u)) g.toGeom g'.toGeom := by
  obtain ⟨f, hf, h⟩ := upper_queries (top := [r]) hu hunit hrows (by simp) hg'
  unfold Mesh0D.new at hg
  rw [hunit] at hg
  obtain rfl := Except.ok.inj hg
  obtain rfl := Option.some.inj hf
  simp only [List.map_cons, List.map_nil, List.sum_cons, List.sum_nil, add_zero] at h
  have hfind : ∀ x y z, UpperHalf (r.thickness*u) x y z → g'.find_layer x y z = .ok
      ⟨0, 0 + r.thickness*u, convert_densities u r.densities, concentrations_of (convert_densities u r.densities), r.correction⟩ := by
    intro x y z hx
    rw [(h x y z hx).1]
    split
    · rename_i hx0
      obtain ⟨l, hl⟩ := find_some u x y z [r] 0 (fun q hq => by
        rw [List.mem_singleton.1 hq]; exact (hrows r List.mem_cons_self).1) hx0
        (by
          have := hx.2
          simp only [depthAfter]
          linarith)
      rw [hl]
      obtain rfl := List.mem_singleton.1 (List.mem_of_find?_eq_some hl)
      rfl
    · rfl
  constructor <;> intro x y z hx <;> obtain ⟨a, b, c, d, e⟩ := h x y z hx <;>
    simp only [Mesh1D.toGeom, Mesh0D.toGeom, hfind x y z hx, b, c, d, e] <;> rfl

end RustBCA
