import Verif.Props.Geometry
import Verif.Model.Main

/-!
# C119: dividing a layer into thinner ones of the same composition changes nothing
-/

namespace RustBCA
open Scalar

/-! ## Specification -/

/-- One layer of a layered target as the input file lists it. -/
structure Spec.LayerRow where
  thickness : ℝ
  densities : List ℝ
  correction : ℝ

/-- The geometry section of an input file that lists these layers, top layer first. -/
def Spec.layersInput (unit : String) (rows : List Spec.LayerRow) : Mesh1DInput ℝ where
  length_unit := unit
  layer_thicknesses := rows.map (·.thickness)
  densities := rows.map (·.densities)
  electronic_stopping_correction_factors := rows.map (·.correction)

/-- The second list describes the layers of the first, each divided into one or more layers of the same
composition whose thicknesses are positive and add up. -/
inductive Spec.Divided : List Spec.LayerRow → List Spec.LayerRow → Prop
  | none : Spec.Divided [] []
  | layer (r : Spec.LayerRow) (parts : List ℝ) (rows rows' : List Spec.LayerRow) (some_part : parts ≠ [])
      (positive : ∀ t ∈ parts, 0 < t) (add_up : parts.sum = r.thickness) (others : Spec.Divided rows rows') :
      Spec.Divided (r :: rows) (parts.map (fun t => { r with thickness := t }) ++ rows')

open Spec

/-! ## Proof -/

/-- The layers built from the depth `top` on. -/
noncomputable def layersFrom (u top : ℝ) : List LayerRow → List (Layer1D ℝ)
  | [] => []
  | r :: rs => ⟨top, top + r.thickness*u, convert_densities u r.densities,
      concentrations_of (convert_densities u r.densities), r.correction⟩ ::
        layersFrom u (top + r.thickness*u) rs

noncomputable def depthAfter (u top : ℝ) : List LayerRow → ℝ
  | [] => top
  | r :: rs => depthAfter u (top + r.thickness*u) rs

noncomputable def asRow (u : ℝ) (r : LayerRow) : (ℝ × List ℝ) × ℝ :=
  ((r.thickness, convert_densities u r.densities), r.correction)

theorem build_layers (u : ℝ) (hu : 0 < u) : ∀ (rs : List LayerRow) (acc : List (Layer1D ℝ)) (top : ℝ),
    (∀ r ∈ rs, 0 < r.thickness) →
    forFold (Mesh1D.layerStep u) (rs.map (asRow u)) (acc, top, top)
      = .ok (acc ++ layersFrom u top rs, depthAfter u top rs, depthAfter u top rs) := by
  intro rs
  induction rs with
  | nil => intro acc top _; simp [forFold, layersFrom, depthAfter, pure, Except.pure]
  | cons r rs ih =>
    intro acc top h
    have h1 : 0 < r.thickness*u := mul_pos (h r List.mem_cons_self) hu
    have h2 : (top <. top + r.thickness*u) = true := by rw [lt_real]; linarith
    simp only [List.map_cons, forFold, asRow, Mesh1D.layerStep, Layer1D.new, rassert, h2, if_true, bind,
      Except.bind, pure, Except.pure]
    rw [ih _ _ fun x hx => h x (List.mem_cons_of_mem _ hx)]
    simp only [layersFrom, depthAfter, List.append_assoc, List.singleton_append]

/-- What a query reads off a layer. -/
def layerData (l : Layer1D ℝ) : List ℝ × List ℝ × ℝ :=
  (l.densities, l.concentrations, l.electronic_stopping_correction_factor)

theorem parts_find (u : ℝ) (hu : 0 < u) (r : LayerRow) (x y z : ℝ) (rest : List LayerRow) :
    ∀ (parts : List ℝ) (top : ℝ), parts ≠ [] → (∀ t ∈ parts, 0 < t) →
    ((layersFrom u top (parts.map (fun t => { r with thickness := t }) ++ rest)).find?
        (·.contains x y z)).map layerData
      = if top < x ∧ x ≤ top + parts.sum*u then
          some (convert_densities u r.densities, concentrations_of (convert_densities u r.densities), r.correction)
        else ((layersFrom u (top + parts.sum*u) rest).find? (·.contains x y z)).map layerData := by
  intro parts
  induction parts with
  | nil => intro top h; exact absurd rfl h
  | cons t parts ih =>
    intro top _ hpos
    have ht : 0 < t*u := mul_pos (hpos t List.mem_cons_self) hu
    have hsum : 0 ≤ parts.sum*u := mul_nonneg (List.sum_nonneg fun a ha => (hpos a (List.mem_cons_of_mem _ ha)).le) hu.le
    simp only [List.map_cons, List.cons_append, layersFrom, List.find?_cons, List.sum_cons]
    by_cases hc : top < x ∧ x ≤ top + t*u
    · have hcb : Layer1D.contains (⟨top, top + t*u, convert_densities u r.densities,
          concentrations_of (convert_densities u r.densities), r.correction⟩ : Layer1D ℝ) x y z = true := by
        unfold Layer1D.contains
        rw [Bool.and_eq_true, lt_real, le_real]; exact hc
      have hx : top < x ∧ x ≤ top + (t + parts.sum)*u := ⟨hc.1, by nlinarith [hc.2]⟩
      rw [hcb]
      simp only [hx, and_self, if_true]
      rfl
    · have hcb : Layer1D.contains (⟨top, top + t*u, convert_densities u r.densities,
          concentrations_of (convert_densities u r.densities), r.correction⟩ : Layer1D ℝ) x y z = false := by
        unfold Layer1D.contains
        rw [Bool.eq_false_iff, ne_eq, Bool.and_eq_true, lt_real, le_real]; exact hc
      rw [hcb]
      by_cases hp : parts = []
      · subst hp
        simp only [List.map_nil, List.nil_append, List.sum_nil, add_zero]
        rw [if_neg hc]
      · rw [ih _ hp fun a ha => hpos a (List.mem_cons_of_mem _ ha)]
        have e : top + t*u + parts.sum*u = top + (t + parts.sum)*u := by ring
        rw [e]
        refine if_congr ?_ rfl rfl
        constructor
        · rintro ⟨h1, h2⟩; exact ⟨by linarith, h2⟩
        · rintro ⟨h1, h2⟩; exact ⟨by by_contra h3; exact hc ⟨h1, not_lt.1 h3⟩, h2⟩

theorem parts_depth (u : ℝ) (r : LayerRow) (rest : List LayerRow) : ∀ (parts : List ℝ) (top : ℝ),
    depthAfter u top (parts.map (fun t => { r with thickness := t }) ++ rest)
      = depthAfter u (top + parts.sum*u) rest := by
  intro parts
  induction parts with
  | nil => intro top; simp
  | cons t parts ih =>
    intro top
    simp only [List.map_cons, List.cons_append, depthAfter, ih, List.sum_cons]
    congr 1; ring

theorem divided_positive {rows rows' : List LayerRow} (h : Divided rows rows') :
    (∀ r ∈ rows, 0 < r.thickness) ∧ ∀ r ∈ rows', 0 < r.thickness := by
  induction h with
  | none => simp
  | layer r parts rows rows' hne hpos hsum h ih =>
    constructor
    · intro x hx
      rcases List.mem_cons.1 hx with rfl | hx
      · rw [← hsum]
        obtain ⟨t, l, rfl⟩ := List.exists_cons_of_ne_nil hne
        rw [List.sum_cons]
        have := List.sum_nonneg fun a (ha : a ∈ l) => (hpos a (List.mem_cons_of_mem _ ha)).le
        have := hpos t List.mem_cons_self
        linarith
      · exact ih.1 x hx
    · intro x hx
      rcases List.mem_append.1 hx with hx | hx
      · obtain ⟨t, ht, rfl⟩ := List.mem_map.1 hx
        exact hpos t ht
      · exact ih.2 x hx

theorem divided_depth (u : ℝ) {rows rows' : List LayerRow} (h : Divided rows rows') (top : ℝ) :
    depthAfter u top rows' = depthAfter u top rows := by
  induction h generalizing top with
  | none => rfl
  | layer r parts rows rows' hne hpos hsum h ih => rw [parts_depth, ih, hsum]; rfl

theorem divided_find (u : ℝ) (hu : 0 < u) (x y z : ℝ) {rows rows' : List LayerRow} (h : Divided rows rows') (top : ℝ) :
    ((layersFrom u top rows').find? (·.contains x y z)).map layerData
      = ((layersFrom u top rows).find? (·.contains x y z)).map layerData := by
  induction h generalizing top with
  | none => rfl
  | layer r parts rows rows' hne hpos hsum h ih =>
    have h1 := parts_find u hu r x y z rows [r.thickness] top (by simp)
      (fun t ht => by
        rw [List.mem_singleton.1 ht, ← hsum]
        obtain ⟨a, l, rfl⟩ := List.exists_cons_of_ne_nil hne
        rw [List.sum_cons]
        have := List.sum_nonneg fun b (hb : b ∈ l) => (hpos b (List.mem_cons_of_mem _ hb)).le
        have := hpos a List.mem_cons_self
        linarith)
    simp only [List.map_cons, List.map_nil, List.cons_append, List.nil_append, List.sum_cons, List.sum_nil, add_zero] at h1
    rw [h1, parts_find u hu r x y z rows' parts top hne hpos, hsum, ih]

noncomputable def rowData (u : ℝ) (r : LayerRow) : List ℝ × List ℝ × ℝ :=
  (convert_densities u r.densities, concentrations_of (convert_densities u r.densities), r.correction)

theorem layers_data (u : ℝ) (rows : List LayerRow) : ∀ top,
    (layersFrom u top rows).map layerData = rows.map (rowData u) := by
  induction rows with
  | nil => intro; rfl
  | cons r rows ih => intro top; simp only [layersFrom, List.map_cons, ih]; rfl

theorem divided_ends (u : ℝ) {rows rows' : List LayerRow} (h : Divided rows rows') :
    (rows'.map (rowData u)).head? = (rows.map (rowData u)).head? ∧
    (rows'.map (rowData u)).getLast? = (rows.map (rowData u)).getLast? := by
  induction h with
  | none => exact ⟨rfl, rfl⟩
  | layer r parts rows rows' hne hpos hsum h ih =>
    have hm : (parts.map fun t => { r with thickness := t }).map (rowData u) = parts.map fun _ => rowData u r := by
      rw [List.map_map]; rfl
    rw [List.map_append, hm]
    obtain ⟨a, l, rfl⟩ := List.exists_cons_of_ne_nil hne
    refine ⟨rfl, ?_⟩
    rw [List.getLast?_append, ih.2, List.map_cons (f := rowData u) (a := r), List.getLast?_cons]
    have hl : (List.map (fun _ => rowData u r) (a :: l)).getLast? = some (rowData u r) := by
      rw [List.map_const', List.getLast?_replicate]; simp
    rw [hl]
    cases (rows.map (rowData u)).getLast? <;> rfl

theorem vget_data {ls ls' : List (Layer1D ℝ)} {i i' : Nat} (h : ls'[i']?.map layerData = ls[i]?.map layerData)
    {l : Layer1D ℝ} (hl : ls[i]? = some l) : ∃ l', ls'[i']? = some l' ∧ layerData l' = layerData l := by
  rw [hl] at h
  cases hl' : ls'[i']? with
  | none => simp [hl'] at h
  | some l' => exact ⟨l', rfl, by simpa [hl'] using h⟩

theorem layers_last (u top : ℝ) (rows : List LayerRow) :
    (layersFrom u top rows)[(layersFrom u top rows).length - 1]?.map layerData = (rows.map (rowData u)).getLast? := by
  rw [← List.getLast?_eq_getElem?, ← List.getLast?_map, layers_data]

theorem layers_head (u top : ℝ) (rows : List LayerRow) :
    (layersFrom u top rows)[0]?.map layerData = (rows.map (rowData u)).head? := by
  rw [← List.head?_eq_getElem?, ← List.head?_map, layers_data]

/-- What `Mesh1D.new` makes of a list of layers. -/
theorem new_layers (ext : Ext ℝ) (unit : String) (rows : List LayerRow) (u : ℝ) (hu : 0 < u)
    (hunit : length_unit_of ext unit = .ok u) (hpos : ∀ r ∈ rows, 0 < r.thickness) :
    Mesh1D.new ext (layersInput unit rows) = (do
      rassert ((rows.map fun r => convert_densities u r.densities).all fun row =>
        row.length == ((rows.map fun r => convert_densities u r.densities).headD []).length)
        "Input error: all layer density lists must be the same size."
      let first ← vget (layersFrom u 0 rows) 0
      let last ← vget (layersFrom u 0 rows) ((layersFrom u 0 rows).length - 1)
      pure {
        layers := layersFrom u 0 rows
        top := 0.0
        bottom := depthAfter u 0 rows
        top_energy_barrier_thickness := barrier_thickness (fsum first.densities)
        bottom_energy_barrier_thickness := barrier_thickness (fsum last.densities) }) := by
  unfold Mesh1D.new layersInput
  simp only [hunit, List.map_map, bind, Except.bind]
  have hz : (((rows.map (·.thickness)).zip (rows.map (convert_densities u ∘ (·.densities)))).zip
      (rows.map (·.correction))) = rows.map (asRow u) := by
    rw [List.zip_map', List.zip_map']; rfl
  have hl : ((rows.map (·.thickness)).length == (rows.map (convert_densities u ∘ (·.densities))).length) = true := by
    simp
  have h0 : (0.0 : ℝ) = 0 := by norm_num
  rw [hz, hl, h0, build_layers u hu rows [] 0 hpos]
  rfl

theorem divided_mem {rows rows' : List LayerRow} (h : Divided rows rows') (d : List ℝ) :
    d ∈ rows'.map (·.densities) ↔ d ∈ rows.map (·.densities) := by
  induction h with
  | none => rfl
  | layer r parts rows rows' hne hpos hsum h ih =>
    rw [List.map_append, List.mem_append, ih, List.map_cons, List.mem_cons]
    refine or_congr ?_ Iff.rfl
    obtain ⟨a, l, rfl⟩ := List.exists_cons_of_ne_nil hne
    simp only [List.map_map, List.mem_map, Function.comp]
    constructor
    · rintro ⟨t, -, rfl⟩; rfl
    · rintro rfl; exact ⟨a, List.mem_cons_self, rfl⟩

theorem divided_lengths (u : ℝ) {rows rows' : List LayerRow} (h : Divided rows rows') :
    ((rows'.map fun r => convert_densities u r.densities).all fun row =>
        row.length == ((rows'.map fun r => convert_densities u r.densities).headD []).length) =
    ((rows.map fun r => convert_densities u r.densities).all fun row =>
        row.length == ((rows.map fun r => convert_densities u r.densities).headD []).length) := by
  have hh : (rows'.map fun r => convert_densities u r.densities).headD [] =
      (rows.map fun r => convert_densities u r.densities).headD [] := by
    cases h with
    | none => rfl
    | layer r parts rows rows' hne =>
      obtain ⟨a, l, rfl⟩ := List.exists_cons_of_ne_nil hne
      rfl
  rw [hh, Bool.eq_iff_iff, List.all_eq_true, List.all_eq_true]
  have e : ∀ rs : List LayerRow, (rs.map fun r => convert_densities u r.densities) =
      (rs.map (·.densities)).map (convert_densities u) := fun rs => by rw [List.map_map]; rfl
  rw [e, e]
  constructor
  · intro h1 x hx
    obtain ⟨d, hd, rfl⟩ := List.mem_map.1 hx
    exact h1 _ (List.mem_map_of_mem ((divided_mem h d).2 hd))
  · intro h1 x hx
    obtain ⟨d, hd, rfl⟩ := List.mem_map.1 hx
    exact h1 _ (List.mem_map_of_mem ((divided_mem h d).1 hd))

theorem find_layer_data {g g' : Mesh1D ℝ} (htop : g'.top = g.top) (hbottom : g'.bottom = g.bottom)
    (hfind : ∀ x y z, (g'.layers.find? (·.contains x y z)).map layerData
      = (g.layers.find? (·.contains x y z)).map layerData)
    (hfirst : g'.layers[0]?.map layerData = g.layers[0]?.map layerData)
    (hlast : g'.layers[g'.layers.length - 1]?.map layerData = g.layers[g.layers.length - 1]?.map layerData)
    (x y z : ℝ) : layerData <$> g'.find_layer x y z = layerData <$> g.find_layer x y z := by
  unfold Mesh1D.find_layer
  have hin : g'.inside x = g.inside x := by unfold Mesh1D.inside; rw [htop, hbottom]
  rw [hin, htop]
  have hv : ∀ {ls ls' : List (Layer1D ℝ)} {i i' : Nat}, ls'[i']?.map layerData = ls[i]?.map layerData →
      layerData <$> vget ls' i' = layerData <$> vget ls i := by
    intro ls ls' i i' h
    unfold vget
    cases h1 : ls[i]? <;> cases h2 : ls'[i']? <;> simp [h1, h2] at h
    · rfl
    · show Except.ok _ = Except.ok _
      rw [h]
  split
  · have h := hfind x y z
    cases h1 : g.layers.find? (·.contains x y z) <;> cases h2 : g'.layers.find? (·.contains x y z) <;>
      simp [h1, h2] at h
    · rfl
    · show Except.ok _ = Except.ok _
      rw [h]
  · split
    · exact hv hfirst
    · exact hv hlast

theorem of_data {α : Type} (f : List ℝ × List ℝ × ℝ → α) {r r' : Res (Layer1D ℝ)}
    (h : layerData <$> r' = layerData <$> r) : (fun l => f (layerData l)) <$> r' = (fun l => f (layerData l)) <$> r := by
  cases r <;> cases r' <;> simp only [Functor.map, Except.map, Except.ok.injEq, Except.error.injEq, reduceCtorEq] at h ⊢
  · exact h
  · rw [h]

/-- **C119.** Dividing layers of a layered target into thinner ones of the same composition gives the
same target: every query has the same answer at every point (and what is refused is refused alike). -/
theorem C119_same_target (ext : Ext ℝ) (unit : String) (rows rows' : List LayerRow) (h : Divided rows rows')
    (positive : ∀ u, length_unit_of ext unit = .ok u → 0 < u) :
    Mesh1D.toGeom <$> Mesh1D.new ext (layersInput unit rows') =
      Mesh1D.toGeom <$> Mesh1D.new ext (layersInput unit rows) := by
  cases hunit : length_unit_of ext unit with
  | error e =>
    unfold Mesh1D.new layersInput
    simp only [hunit]
    rfl
  | ok u =>
    have hu := positive u hunit
    obtain ⟨hp, hp'⟩ := divided_positive h
    rw [new_layers ext unit rows u hu hunit hp, new_layers ext unit rows' u hu hunit hp', divided_lengths u h]
    have hfirst : (layersFrom u 0 rows')[0]?.map layerData = (layersFrom u 0 rows)[0]?.map layerData := by
      rw [layers_head, layers_head, (divided_ends u h).1]
    have hlast : (layersFrom u 0 rows')[(layersFrom u 0 rows').length - 1]?.map layerData
        = (layersFrom u 0 rows)[(layersFrom u 0 rows).length - 1]?.map layerData := by
      rw [layers_last, layers_last, (divided_ends u h).2]
    have hfind := fun x y z => divided_find u hu x y z h 0
    rw [divided_depth u h]
    generalize layersFrom u 0 rows = L at *
    generalize layersFrom u 0 rows' = L' at *
    cases rassert ((rows.map fun r => convert_densities u r.densities).all fun row =>
        row.length == ((rows.map fun r => convert_densities u r.densities).headD []).length)
        "Input error: all layer density lists must be the same size." with
    | error e => rfl
    | ok _ =>
    unfold vget
    cases h1 : L[0]? <;> cases h1' : L'[0]? <;> simp [h1, h1'] at hfirst
    · rfl
    cases h2 : L[L.length - 1]? <;> cases h2' : L'[L'.length - 1]? <;> simp [h2, h2'] at hlast
    · rfl
    rename_i a a' b b'
    have ha : a'.densities = a.densities := congrArg (·.1) hfirst
    have hb : b'.densities = b.densities := congrArg (·.1) hlast
    simp only [bind, Except.bind, pure, Except.pure, Functor.map, Except.map, ha, hb]
    congr 1
    have key := find_layer_data (g := ⟨L, 0.0, depthAfter u 0 rows, barrier_thickness (fsum a.densities),
      barrier_thickness (fsum b.densities)⟩) (g' := ⟨L', 0.0, depthAfter u 0 rows, barrier_thickness (fsum a.densities),
      barrier_thickness (fsum b.densities)⟩) rfl rfl hfind (by rw [h1, h1']; exact congrArg some hfirst)
      (by rw [h2, h2']; exact congrArg some hlast)
    unfold Mesh1D.toGeom
    congr 1
    · funext x y z; exact of_data (fun d => d.1) (key x y z)
    · funext x y z; exact of_data (fun d => d.2.2) (key x y z)
    · funext x y z; exact of_data (fun d => fsum d.1) (key x y z)
    · funext x y z; exact of_data (fun d => d.2.1) (key x y z)

/-- **C119, whole runs.** A run of the program with a layered target gives the same result when layers are
divided into thinner ones of the same composition: same random numbers, same particles, same outputs. -/
theorem C119_run (w : World ℝ) (r : InputRecord ℝ (Mesh1DInput ℝ)) (unit : String) (rows rows' : List LayerRow)
    (h : Divided rows rows') (positive : ∀ u, length_unit_of w.ext unit = .ok u → 0 < u) :
    run_file w (some { r with geometry_input := layersInput unit rows' })
        (fun g => Mesh1D.toGeom <$> Mesh1D.new w.ext g) =
      run_file w (some { r with geometry_input := layersInput unit rows })
        (fun g => Mesh1D.toGeom <$> Mesh1D.new w.ext g) := by
  unfold run_file
  simp only [pure, Except.pure, bind, Except.bind, C119_same_target w.ext unit rows rows' h positive]

end RustBCA
