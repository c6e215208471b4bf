import Verif.Model.Bca


/-!
# Specification vocabulary for C112: the same mixture, listed in another way
-/

namespace RustBCA.Spec

/-- One species of the target: a row of the material's table. -/
structure Row where
  Z : ℝ
  m : ℝ
  Eb : ℝ
  Es : ℝ
  Ec : ℝ
  Ed : ℝ
  interaction_index : ℕ

/-- The species of the material, in order. -/
structure HasSpecies (mat : Material ℝ) (rows : List Row) : Prop where
  Z : mat.Z = rows.map Row.Z
  m : mat.m = rows.map Row.m
  Eb : mat.Eb = rows.map Row.Eb
  Es : mat.Es = rows.map Row.Es
  Ec : mat.Ec = rows.map Row.Ec
  Ed : mat.Ed = rows.map Row.Ed
  interaction_index : mat.interaction_index = rows.map Row.interaction_index

/-- Two lists of species with their amounts describe the same mixture: a species may be listed several
times in a row, with parts of its amount, and species of which there is nothing may be added. -/
inductive Relisted : List (Row × ℝ) → List (Row × ℝ) → Prop
  | nil : Relisted [] []
  | same (r : Row) (x : ℝ) {l l'} : 0 ≤ x → Relisted l l' → Relisted ((r, x) :: l) ((r, x) :: l')
  | part (r : Row) (x y : ℝ) {l l'} : 0 ≤ x → 0 ≤ y → Relisted ((r, y) :: l) l' →
      Relisted ((r, x + y) :: l) ((r, x) :: l')
  | nothing (r : Row) {l l'} : Relisted l l' → Relisted l ((r, 0) :: l')

/-- Two answers, one for each list: the same mixture, or the same failure. -/
def SameAmounts (rows rows' : List Row) (a a' : Res (List ℝ)) : Prop :=
  (∃ d d', a = .ok d ∧ a' = .ok d' ∧ d.length = rows.length ∧ d'.length = rows'.length ∧
    Relisted (rows.zip d) (rows'.zip d')) ∨ ∃ e, a = .error e ∧ a' = .error e

/-- The two targets differ only in how their species are listed; the first species stays the first. -/
structure SameMixture (mat mat' : Material ℝ) (rows rows' : List Row) : Prop where
  species : HasSpecies mat rows
  species' : HasSpecies mat' rows'
  first : rows'.head? = rows.head?
  no_binding : (rows'.map Row.Es).sum = 0 ↔ (rows.map Row.Es).sum = 0
  surface_binding_model : mat'.surface_binding_model = mat.surface_binding_model
  densities : ∀ x y z,
    SameAmounts rows rows' (mat.geometry.get_densities x y z) (mat'.geometry.get_densities x y z)
  concentrations : ∀ x y z,
    SameAmounts rows rows' (mat.geometry.get_concentrations x y z) (mat'.geometry.get_concentrations x y z)
  ck : ∀ x y z, mat'.geometry.get_ck x y z = mat.geometry.get_ck x y z
  inside : ∀ x y z, mat'.geometry.inside x y z = mat.geometry.inside x y z
  boundary : ∀ x y z, mat'.geometry.inside_simulation_boundary x y z =
    mat.geometry.inside_simulation_boundary x y z
  barrier : ∀ x y z, mat'.geometry.inside_energy_barrier x y z = mat.geometry.inside_energy_barrier x y z
  closest : ∀ x y z, mat'.geometry.closest_point x y z = mat.geometry.closest_point x y z

/-- The species of the `[material_parameters]` section of the input file, in order. -/
structure ListsSpecies (p : MaterialParameters ℝ) (rows : List Row) : Prop where
  Z : p.Z = rows.map Row.Z
  m : p.m = rows.map Row.m
  Eb : p.Eb = rows.map Row.Eb
  Es : p.Es = rows.map Row.Es
  Ec : p.Ec = rows.map Row.Ec
  Ed : p.Ed = rows.map Row.Ed
  interaction_index : p.interaction_index = rows.map Row.interaction_index

/-- Two input sections that differ only in how the species are listed. -/
structure SameParametersRelisted (p p' : MaterialParameters ℝ) (rows rows' : List Row) : Prop where
  lists : ListsSpecies p rows
  lists' : ListsSpecies p' rows'
  energy_unit : p'.energy_unit = p.energy_unit
  mass_unit : p'.mass_unit = p.mass_unit
  surface_binding_model : p'.surface_binding_model = p.surface_binding_model
  first : rows'.head? = rows.head?
  no_binding : (rows'.map Row.Es).sum = 0 ↔ (rows.map Row.Es).sum = 0

/-- Densities for the two lists: the same mixture. -/
def SameDensities (rows rows' : List Row) (d d' : List ℝ) : Prop :=
  d.length = rows.length ∧ d'.length = rows'.length ∧ Relisted (rows.zip d) (rows'.zip d')

end RustBCA.Spec
