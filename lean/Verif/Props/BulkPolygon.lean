import Verif.Props.LocalEnds
import Verif.Props.AlmostSurelyScreened
import Verif.Props.GeometryLift
import Verif.Props.MeshLift

/-!
# C88, C125, C127 in a geometry of the program

The whole-run theorems suppose that the simulated volume ends with the material.  Of the geometries of the program the 2D
meshes can be like that: there the user draws the boundary of the simulation, and may draw it inside the material.
-/

set_option linter.unusedVariables false

namespace RustBCA
open Scalar Spec

section
variable {parse : String → Option ℝ} {g : HomogeneousMesh2D ℝ} {mat : Material ℝ} {n : ℕ}

/-- A material of `n` species in a homogeneous 2D target as the input file can give it: at least two different corners, a
barrier of positive thickness, tables of positive masses, charges and cutoff energies, a positive density; and the
polygon that bounds the simulation lies in the material. -/
structure CutOut (parse : String → Option ℝ) (g : HomogeneousMesh2D ℝ) (mat : Material ℝ) (n : ℕ) : Prop where
  geometry : mat.geometry = g.toGeom (Geo.ext parse)
  tabulated : Tabulated mat n
  species : mat.Z.length = n
  corners : TwoCorners g.boundary
  thick : 0 < g.energy_barrier_thickness
  densities : g.densities.length = n ∧ (∀ d ∈ g.densities, 0 ≤ d) ∧ 0 < g.densities.sum
  concentrations : g.concentrations.length = n ∧ Concentrations g.concentrations
  ck : 0 < g.electronic_stopping_correction_factor
  m : ∀ m ∈ mat.m, 0 < m
  Z : ∀ Z ∈ mat.Z, 0 < Z
  Ec : ∀ E ∈ mat.Ec, 0 < E
  Es : ∀ E ∈ mat.Es, 0 ≤ E
  Eb : ∀ E ∈ mat.Eb, 0 ≤ E
  within : ∀ P, Geo.polygon_contains g.simulation_boundary P = true → Geo.polygon_contains g.boundary P = true

theorem CutOut.ready (h : CutOut parse g mat n) : ReadyTarget mat n :=
  C96_homogeneous parse g mat n h.geometry h.tabulated h.corners h.thick h.densities.1 h.concentrations.1 h.concentrations.2

theorem CutOut.sound (h : CutOut parse g mat n) : SoundTarget mat where
  m := h.m
  Z := h.Z
  Ec := fun E hE => (h.Ec E hE).le
  Es := h.Es
  Eb := h.Eb
  concentrations := by
    intro x y z cs hcs
    rw [h.geometry] at hcs
    obtain rfl := Except.ok.inj hcs
    exact h.concentrations.2.1
  densities := by
    intro x y z ns hns
    rw [h.geometry] at hns
    obtain rfl := Except.ok.inj hns
    exact h.densities.2.1
  ck := by
    intro x y z c hc
    rw [h.geometry] at hc
    obtain rfl := Except.ok.inj hc
    exact h.ck.le

theorem CutOut.same (h : CutOut parse g mat n) : SameEverywhere mat g.densities g.electronic_stopping_correction_factor where
  densities _ _ _ := by rw [h.geometry]; rfl
  ck _ _ _ := by rw [h.geometry]; rfl
  length := by rw [h.densities.1, h.species]

theorem CutOut.thin (h : CutOut parse g mat n) : NowhereThin mat g.densities.sum g.electronic_stopping_correction_factor where
  densities := by
    intro x y z ns hns
    obtain rfl := Except.ok.inj ((h.same.densities x y z).symm.trans hns)
    exact ⟨h.same.length, le_refl _⟩
  ck := by
    intro x y z c hc
    obtain rfl := Except.ok.inj ((h.same.ck x y z).symm.trans hc)
    exact le_refl _

theorem CutOut.encloses (h : CutOut parse g mat n) : BarrierEncloses mat.geometry := by
  intro x y z
  rw [h.geometry]
  exact (C35_meshes2D (Geo.ext parse) x y z).2 g

theorem CutOut.ends (h : CutOut parse g mat n) : EndsWithMaterial mat := by
  intro x y z
  rw [h.geometry]
  intro hs
  have hs' : (Except.ok (Geo.polygon_contains g.simulation_boundary (x, y)) : Res Bool) = .ok true := hs
  show (Except.ok (Geo.polygon_contains g.boundary (x, y)) : Res Bool) = .ok true
  rw [h.within _ (Except.ok.inj hs')]

variable (rcpr : Rcpr ℝ) (o : Options ℝ) {eb : ℝ} {ion : Particle ℝ}

/-- **C127 in a homogeneous 2D target** whose simulated part is cut out of the material: with local stopping every run
ends, after a number of passes that can be named before the random numbers are drawn. -/
theorem C127_homogeneous2D (h : CutOut parse g mat n) (hff : o.high_energy_free_flight_paths = false)
    (hmode : o.electronic_stopping_mode = .LOW_ENERGY_LOCAL) (hV : AllScreened o)
    (hrec : o.track_recoils = false ∨ (BoundBy mat eb ∧ 0 < eb))
    (htab : ScreenedWithAll mat o ion.interaction_index) (htab' : ∀ j ∈ mat.interaction_index, ScreenedWithAll mat o j)
    (hion : SoundParticle ion) (hEc : 0 < ion.Ec) (hE : ion.Ec ≤ ion.E)
    (hin : Geo.polygon_contains g.boundary (ion.pos.x, ion.pos.y) = true)
    (hst : ion.stopped = false) (hlf : ion.left = false) :
    ∃ N, ∀ fuel, N ≤ fuel → ∀ tape, OpenUnit tape → single_ion_bca rcpr fuel ion mat o tape ≠ .error .fuel :=
  C127_run_ends rcpr o h.ready h.sound h.thin h.densities.2.2 h.ck h.encloses h.ends hff hmode hV h.Ec hrec htab htab' hion hEc hE
    (by unfold IsInside; rw [h.geometry]; exact congrArg Except.ok hin) hst hlf

/-- **C125 in a homogeneous 2D target, Coulomb potentials.** Whatever the electronic stopping (nonlocal or equipartition), with
probability one the run returns a result. -/
theorem C125_homogeneous2D (h : CutOut parse g mat n) (hrec : o.track_recoils = false ∨ BoundBy mat eb) (heb0 : 0 < eb)
    (hmode : o.electronic_stopping_mode ≠ .LOW_ENERGY_LOCAL) (hC : AllCoulomb o) (hEc : 0 < ion.Ec)
    (htab : CoulombWithAll mat o ion.interaction_index) (htab' : ∀ j ∈ mat.interaction_index, CoulombWithAll mat o j)
    (hion : SoundParticle ion) (hin : Geo.polygon_contains g.boundary (ion.pos.x, ion.pos.y) = true)
    (hst : ion.stopped = false) (hlf : ion.left = false) (hasy : ion.asymptotic_deflection = 0) :
    ∀ᵐ tape ∂randomTape, ∃ fuel out tape', single_ion_bca rcpr fuel ion mat o tape = .ok (out, tape') :=
  C125_almost_surely rcpr o h.ready h.sound h.same h.ck h.densities.2.2 h.encloses h.ends hrec heb0 hmode hC hEc h.Ec htab htab'
    hion (by unfold IsInside; rw [h.geometry]; exact congrArg Except.ok hin) hst hlf hasy

/-- **C125 in a homogeneous 2D target, screened potentials.** With probability one the run ends. -/
theorem C125_homogeneous2D_screened (h : CutOut parse g mat n)
    (hff : o.high_energy_free_flight_paths = false) (hw : o.weak_collision_order = 0) (htr : o.track_recoils = false)
    (hmode : o.electronic_stopping_mode = .LOW_ENERGY_NONLOCAL ∨ o.electronic_stopping_mode = .LOW_ENERGY_EQUIPARTITION)
    (hV : AllScreened o) (hEc : 0 < ion.Ec) (htab : ScreenedWithAll mat o ion.interaction_index)
    (hion : SoundParticle ion) (hE : ion.Ec ≤ ion.E) (hin : Geo.polygon_contains g.boundary (ion.pos.x, ion.pos.y) = true)
    (hst : ion.stopped = false) (hlf : ion.left = false) :
    ∀ᵐ tape ∂randomTape, ∃ fuel, single_ion_bca rcpr fuel ion mat o tape ≠ .error .fuel :=
  C125_screened_almost_surely rcpr o h.ready h.sound h.same h.ck h.densities.2.2 h.encloses h.ends hff hw htr hmode hV hEc htab
    hion hE (by unfold IsInside; rw [h.geometry]; exact congrArg Except.ok hin) hst hlf

end

/-! ## Triangles -/

/-- What the mesh answers with is one of its cells. -/
theorem find_cell_mem {ext : Ext ℝ} {g : Mesh2D ℝ} {x y z : ℝ} {c : Cell2D ℝ} (h : g.find_cell ext x y z = .ok c) : c ∈ g.mesh := by
  unfold Mesh2D.find_cell at h
  split at h
  · cases hf : g.mesh.find? (fun c => c.contains x y z) with
    | none => rw [hf] at h; cases h
    | some c' =>
      rw [hf] at h
      cases h
      exact List.mem_of_find?_eq_some hf
  · unfold Mesh2D.nearest_to at h
    cases hr : forFold (Mesh2D.nearestStep x y z) g.mesh.zipIdx (maxVal, 0) with
    | error e => simp only [hr, bind, Except.bind] at h; cases h
    | ok r =>
      simp only [hr, bind, Except.bind] at h
      unfold vget at h
      cases hi : g.mesh[r.2]? with
      | none => simp only [hi] at h; cases h
      | some d =>
        simp only [hi] at h
        cases h
        exact List.mem_of_getElem? hi

section
variable {parse : String → Option ℝ} {g : Mesh2D ℝ} {mat : Material ℝ} {n : ℕ} {d ck : ℝ}

/-- A material of `n` species in a target of triangles as the input file can give it: triangles with areas that cover the
polygon of the boundary, each with a density of at least `d` in all and a stopping factor of at least `ck`; tables of
positive masses, charges and cutoff energies; and the polygon that bounds the simulation lies in the material. -/
structure CutOutMesh (parse : String → Option ℝ) (g : Mesh2D ℝ) (mat : Material ℝ) (n : ℕ) (d ck : ℝ) : Prop where
  geometry : mat.geometry = g.toGeom (Geo.ext parse)
  tabulated : Tabulated mat n
  species : mat.Z.length = n
  corners : TwoCorners g.boundary
  cells : g.mesh ≠ []
  proper : ∀ c ∈ g.mesh, ProperCell c
  cover : ∀ X : ℝ × ℝ, Geo.polygon_contains g.boundary X = true →
    ∃ c ∈ g.mesh, ∃ A B C, c.triangle = triangle A B C ∧ InTriangle A B C X
  densities : ∀ c ∈ g.mesh, c.densities.length = n ∧ (∀ d ∈ c.densities, 0 ≤ d) ∧ d ≤ c.densities.sum
  concentrations : ∀ c ∈ g.mesh, c.concentrations.length = n ∧ Concentrations c.concentrations
  factor : ∀ c ∈ g.mesh, ck ≤ c.electronic_stopping_correction_factor
  m : ∀ m ∈ mat.m, 0 < m
  Z : ∀ Z ∈ mat.Z, 0 < Z
  Ec : ∀ E ∈ mat.Ec, 0 < E
  Es : ∀ E ∈ mat.Es, 0 ≤ E
  Eb : ∀ E ∈ mat.Eb, 0 ≤ E
  within : ∀ P, Geo.polygon_contains g.simulation_boundary P = true → Geo.polygon_contains g.boundary P = true

/-- An answer of the mesh about a point comes from one of its cells. -/
theorem answer_mem {β : Type} {ext : Ext ℝ} {f : Cell2D ℝ → β} {x y z : ℝ} {b : β} (h : f <$> g.find_cell ext x y z = .ok b) :
    ∃ c ∈ g.mesh, b = f c := by
  cases hc : g.find_cell ext x y z with
  | error e => rw [hc] at h; cases h
  | ok c =>
    rw [hc] at h
    cases h
    exact ⟨c, find_cell_mem hc, rfl⟩

theorem CutOutMesh.ready (h : CutOutMesh parse g mat n d ck) : ReadyTarget mat n :=
  C96_mesh2d parse g mat n h.geometry h.tabulated h.corners h.cells h.proper h.cover
    (fun c hc => ⟨(h.densities c hc).1, (h.concentrations c hc).1, (h.concentrations c hc).2⟩)

theorem CutOutMesh.sound (h : CutOutMesh parse g mat n d ck) (hck : 0 ≤ ck) : SoundTarget mat where
  m := h.m
  Z := h.Z
  Ec := fun E hE => (h.Ec E hE).le
  Es := h.Es
  Eb := h.Eb
  concentrations := by
    intro x y z cs hcs
    rw [h.geometry] at hcs
    obtain ⟨c, hc, rfl⟩ := answer_mem hcs
    exact (h.concentrations c hc).2.1
  densities := by
    intro x y z ns hns
    rw [h.geometry] at hns
    obtain ⟨c, hc, rfl⟩ := answer_mem hns
    exact (h.densities c hc).2.1
  ck := by
    intro x y z k hk
    rw [h.geometry] at hk
    obtain ⟨c, hc, rfl⟩ := answer_mem hk
    exact hck.trans (h.factor c hc)

theorem CutOutMesh.thin (h : CutOutMesh parse g mat n d ck) : NowhereThin mat d ck where
  densities := by
    intro x y z ns hns
    rw [h.geometry] at hns
    obtain ⟨c, hc, rfl⟩ := answer_mem hns
    exact ⟨(h.densities c hc).1.trans h.species.symm, (h.densities c hc).2.2⟩
  ck := by
    intro x y z k hk
    rw [h.geometry] at hk
    obtain ⟨c, hc, rfl⟩ := answer_mem hk
    exact h.factor c hc

theorem CutOutMesh.encloses (h : CutOutMesh parse g mat n d ck) : BarrierEncloses mat.geometry := by
  intro x y z
  rw [h.geometry]
  exact (C35_meshes2D (Geo.ext parse) x y z).1 g

theorem CutOutMesh.ends (h : CutOutMesh parse g mat n d ck) : EndsWithMaterial mat := by
  intro x y z
  rw [h.geometry]
  intro hs
  have hs' : (Except.ok (Geo.polygon_contains g.simulation_boundary (x, y)) : Res Bool) = .ok true := hs
  show (Except.ok (Geo.polygon_contains g.boundary (x, y)) : Res Bool) = .ok true
  rw [h.within _ (Except.ok.inj hs')]

/-- **C127 in a target of triangles** whose simulated part is cut out of the material: with local stopping every run ends,
however the density varies from triangle to triangle, after a number of passes that can be named before the random
numbers are drawn. -/
theorem C127_mesh2D (rcpr : Rcpr ℝ) (o : Options ℝ) {eb : ℝ} {ion : Particle ℝ} (h : CutOutMesh parse g mat n d ck)
    (hd : 0 < d) (hck : 0 < ck) (hff : o.high_energy_free_flight_paths = false)
    (hmode : o.electronic_stopping_mode = .LOW_ENERGY_LOCAL) (hV : AllScreened o)
    (hrec : o.track_recoils = false ∨ (BoundBy mat eb ∧ 0 < eb))
    (htab : ScreenedWithAll mat o ion.interaction_index) (htab' : ∀ j ∈ mat.interaction_index, ScreenedWithAll mat o j)
    (hion : SoundParticle ion) (hEc : 0 < ion.Ec) (hE : ion.Ec ≤ ion.E)
    (hin : Geo.polygon_contains g.boundary (ion.pos.x, ion.pos.y) = true)
    (hst : ion.stopped = false) (hlf : ion.left = false) :
    ∃ N, ∀ fuel, N ≤ fuel → ∀ tape, OpenUnit tape → single_ion_bca rcpr fuel ion mat o tape ≠ .error .fuel :=
  C127_run_ends rcpr o h.ready (h.sound hck.le) h.thin hd hck h.encloses h.ends hff hmode hV h.Ec hrec htab htab' hion hEc hE
    (by unfold IsInside; rw [h.geometry]; exact congrArg Except.ok hin) hst hlf

end

end RustBCA
