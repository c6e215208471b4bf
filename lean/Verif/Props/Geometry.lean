import Verif.Spec.Geometry
import Verif.Props.FreePaths

/-!
# C35-C41: geometries
-/

set_option linter.unusedSectionVars false
set_option linter.unusedSimpArgs false
set_option linter.unusedVariables false

namespace RustBCA
open Scalar Spec

variable {F : Type} [Scalar F]

/-! ## C35 -/

theorem barrier_pos (n : ℝ) (hn : 0 < n) : 0 < barrier_thickness n := by
  unfold barrier_thickness
  rw [SQRTPI_real, powf_real]
  have h1 := Real.rpow_pos_of_pos hn (-1.0/3.0)
  have h2 : 0 < Real.sqrt Real.pi := Real.sqrt_pos.mpr Real.pi_pos
  have h3 : (0:ℝ) < 2.0 := by norm_num
  positivity

theorem convert_sum (u : ℝ) (ds : List ℝ) : (convert_densities u ds).sum = ds.sum/u^3 := by
  unfold convert_densities
  induction ds with
  | nil => simp
  | cons d ds ih =>
    rw [List.map_cons, List.sum_cons, List.sum_cons, ih, powi_real]
    rw [show (3:ℤ) = ((3:ℕ):ℤ) from rfl, zpow_natCast]; ring

theorem convert_pos (u : ℝ) (hu : 0 < u) (ds : List ℝ) (h : 0 < ds.sum) :
    0 < fsum (convert_densities u ds) := by
  rw [fsum_real, convert_sum]; positivity

/-- **C35** for the 0D mesh. -/
theorem C35_mesh0D (ext : Ext ℝ) (input : Mesh0DInput ℝ) (u : ℝ) (g : Mesh0D ℝ)
    (hu : length_unit_of ext input.length_unit = .ok u) (hu0 : 0 < u)
    (hd : 0 < input.densities.sum) (run : Mesh0D.new ext input = .ok g) : Nested g.toGeom := by
  unfold Mesh0D.new at run
  simp only [hu, bind, Except.bind, pure, Except.pure, Except.ok.injEq] at run
  have ht := barrier_pos _ (convert_pos u hu0 _ hd)
  subst run
  have h10 : (-10.0:ℝ) = -10 := by norm_num
  have h0 : (0.0:ℝ) = 0 := by norm_num
  intro x y z
  simp only [Mesh0D.toGeom, Except.ok.injEq, lt_real, h0, h10]
  constructor <;> intro h <;> nlinarith

/-- The energy barriers of a 1D mesh with positive densities are positive. -/
theorem mesh1D_barriers (ext : Ext ℝ) (input : Mesh1DInput ℝ) (g : Mesh1D ℝ)
    (run : Mesh1D.new ext input = .ok g) (hd : ∀ l ∈ g.layers, 0 < l.densities.sum) :
    0 < g.top_energy_barrier_thickness ∧ 0 < g.bottom_energy_barrier_thickness := by
  have key : RSat (Mesh1D.new ext input) (fun g => (∀ l ∈ g.layers, 0 < l.densities.sum) →
      0 < g.top_energy_barrier_thickness ∧ 0 < g.bottom_energy_barrier_thickness)
      (fun _ => True) := by
    unfold Mesh1D.new
    simp only [rsat_bind, rsat_pure]
    refine rsat_mono (rsat_trivial _) (fun _ _ => ?_) (fun _ _ => trivial)
    refine rsat_mono (rsat_trivial _) (fun _ _ => ?_) (fun _ _ => trivial)
    refine rsat_mono (rsat_trivial _) (fun _ _ => ?_) (fun _ _ => trivial)
    refine rsat_mono (rsat_trivial _) (fun s _ => ?_) (fun _ _ => trivial)
    rw [rsat_vget]
    refine ⟨fun a ha => ?_, fun _ => trivial⟩
    rw [rsat_vget]
    refine ⟨fun b hb => ?_, fun _ => trivial⟩
    intro h
    rw [fsum_real, fsum_real]
    exact ⟨barrier_pos _ (h a (List.mem_of_getElem? ha)), barrier_pos _ (h b (List.mem_of_getElem? hb))⟩
  exact rsat_of_ok key run hd

/-- **C35** for the 1D mesh with positive density in its first and last layer. -/
theorem C35_mesh1D (ext : Ext ℝ) (input : Mesh1DInput ℝ) (g : Mesh1D ℝ)
    (run : Mesh1D.new ext input = .ok g) (hd : ∀ l ∈ g.layers, 0 < l.densities.sum) :
    Nested g.toGeom := by
  obtain ⟨h1, h2⟩ := mesh1D_barriers ext input g run hd
  intro x y z
  have h10 : (10.0:ℝ) = 10 := by norm_num
  simp only [Mesh1D.toGeom, Mesh1D.inside, Mesh1D.inside_energy_barrier,
    Mesh1D.inside_simulation_boundary, Except.ok.injEq, Bool.and_eq_true, lt_real, h10]
  constructor <;> rintro ⟨a, b⟩ <;> constructor <;> nlinarith

/-- **C35** for the sphere. -/
theorem C35_sphere (ext : Ext ℝ) (input : SphereInput ℝ) (u : ℝ) (g : Sphere ℝ)
    (hu : length_unit_of ext input.length_unit = .ok u) (hu0 : 0 < u)
    (hd : 0 < input.densities.sum) (run : Sphere.new ext input = .ok g) : Nested g.toGeom := by
  unfold Sphere.new at run
  simp only [hu, bind, Except.bind, pure, Except.pure, Except.ok.injEq] at run
  have ht := barrier_pos _ (convert_pos u hu0 _ hd)
  subst run
  have h10 : (10.0:ℝ) = 10 := by norm_num
  intro x y z
  simp only [Sphere.toGeom, Except.ok.injEq, lt_real, h10]
  constructor <;> intro h <;> nlinarith

/-- **C35** for the 2D meshes: the material is inside the energy barrier. -/
theorem C35_meshes2D (ext : Ext F) (x y z : F) :
    (∀ g : Mesh2D F, (g.toGeom ext).inside x y z = .ok true →
      (g.toGeom ext).inside_energy_barrier x y z = .ok true) ∧
    (∀ g : HomogeneousMesh2D F, (g.toGeom ext).inside x y z = .ok true →
      (g.toGeom ext).inside_energy_barrier x y z = .ok true) := by
  constructor
  · intro g h
    simp only [Mesh2D.toGeom, Except.ok.injEq] at h
    simp only [Mesh2D.toGeom, Mesh2D.inside_energy_barrier, h, if_true]
  · intro g h
    simp only [HomogeneousMesh2D.toGeom, Except.ok.injEq] at h
    simp only [HomogeneousMesh2D.toGeom, HomogeneousMesh2D.inside_energy_barrier, h, if_true]

/-! ## C36 -/

theorem rsat_forFold {α σ : Type} {E : Err → Prop} (body : σ → α → Res σ) (I : List α → σ → Prop)
    (step : ∀ xs x s, I (x :: xs) s → RSat (body s x) (fun s' => I xs s') E) :
    ∀ (l : List α) (s : σ), I l s → RSat (forFold body l s) (fun s' => I [] s') E := by
  intro l
  induction l with
  | nil => intro s h; exact h
  | cons x xs ih =>
    intro s h
    unfold forFold
    rw [rsat_bind]
    exact rsat_mono (step xs x s h) (fun s' h' => ih s' h') (fun _ h => h)

theorem Tiles_append (ls : List (Layer1D F)) (l : Layer1D F) : ∀ a b, Tiles ls a b → l.top = b →
    (l.top <. l.bottom) = true → Tiles (ls ++ [l]) a l.bottom := by
  induction ls with
  | nil => intro a b h h1 h2; exact ⟨by rw [h1, h], h2, rfl⟩
  | cons k ls ih => intro a b h h1 h2; exact ⟨h.1, h.2.1, ih _ _ h.2.2 h1 h2⟩

/-- What the layer loop has built after the rows `done`. -/
structure LayersBuilt (u : F) (rows rest : List ((F × List F) × F))
    (s : List (Layer1D F) × F × F) : Prop where
  same : s.2.1 = s.2.2
  tiles : Tiles s.1 0.0 s.2.2
  split : ∃ done, rows = done ++ rest ∧ done.length = s.1.length ∧
    s.2.2 = fsum (done.map fun r => r.1.1*u)
  layers : ∀ k l, s.1[k]? = some l → ∃ row, rows[k]? = some row ∧
    l.bottom = fsum ((rows.take (k + 1)).map fun r => r.1.1*u) ∧
    l.densities = row.1.2 ∧ l.concentrations = concentrations_of row.1.2 ∧
    l.electronic_stopping_correction_factor = row.2

theorem layer_loop (u : F) (rows : List ((F × List F) × F)) :
    RSat (forFold (Mesh1D.layerStep u) rows ([], 0.0, 0.0)) (LayersBuilt u rows [])
      (fun _ => True) := by
  refine rsat_forFold _ (LayersBuilt u rows) ?_ rows _ ?_
  · rintro xs ⟨⟨th, ds⟩, ck⟩ ⟨layers, top, bottom⟩ h
    unfold Mesh1D.layerStep Layer1D.new
    simp only [rsat_bind, rsat_assert, rsat_pure, implies_true, and_true]
    intro hlt
    obtain ⟨hs, ht, ⟨done, hd1, hd2, hd3⟩, hl⟩ := h
    simp only at hs ht hd2 hd3 hl
    subst hs
    have hb : top + th*u = fsum ((done ++ [((th, ds), ck)]).map fun r => r.1.1*u) := by
      rw [hd3]
      simp only [fsum, List.map_append, List.foldl_append, List.map_cons, List.map_nil,
        List.foldl_cons, List.foldl_nil]
    refine ⟨rfl, ?_, ⟨done ++ [((th, ds), ck)], by simp [hd1], by simp [hd2], hb⟩, ?_⟩
    · exact Tiles_append layers ⟨top, top + th*u, ds, concentrations_of ds, ck⟩ _ _ ht rfl hlt
    · intro k l hk
      rw [List.getElem?_append] at hk
      split at hk
      · exact hl k l hk
      · rename_i hge
        have hk0 : k - layers.length = 0 := by
          by_contra hne
          rw [List.getElem?_eq_none (by simp; omega)] at hk
          cases hk
        have hkl : k = layers.length := by omega
        rw [hk0] at hk
        simp only [List.getElem?_cons_zero, Option.some.injEq] at hk
        refine ⟨((th, ds), ck), ?_, ?_, ?_⟩
        · rw [hd1, hkl, ← hd2, List.getElem?_append_right le_rfl]; simp
        · rw [← hk, hd1, hkl, ← hd2]
          have : (done ++ ((th, ds), ck) :: xs).take (done.length + 1)
              = done ++ [((th, ds), ck)] := by
            rw [List.take_append]; simp
          rw [this, hb]
        · rw [← hk]; exact ⟨rfl, rfl, rfl⟩
  · exact ⟨rfl, rfl, ⟨[], by simp, rfl, rfl⟩, by simp⟩

/-- **C36**, first part: the layers of a 1D mesh tile the material from 0 to its total thickness, one
layer per thickness (as long as there are correction factors), each with its own data. -/
theorem C36_layers (ext : Ext F) (input : Mesh1DInput F) (u : F) (g : Mesh1D F)
    (hu : length_unit_of ext input.length_unit = .ok u) (run : Mesh1D.new ext input = .ok g) :
    g.top = 0.0 ∧ g.layers ≠ [] ∧ Tiles g.layers g.top g.bottom ∧
    g.layers.length = min input.layer_thicknesses.length
      input.electronic_stopping_correction_factors.length ∧
    g.bottom = fsum ((input.layer_thicknesses.take g.layers.length).map (· * u)) ∧
    ∀ k l, g.layers[k]? = some l →
      l.bottom = fsum ((input.layer_thicknesses.take (k + 1)).map (· * u)) ∧
      (∃ ds, input.densities[k]? = some ds ∧ l.densities = convert_densities u ds) ∧
      l.concentrations = concentrations_of l.densities ∧
      input.electronic_stopping_correction_factors[k]?
        = some l.electronic_stopping_correction_factor := by
  obtain ⟨rows, hrows⟩ : ∃ rows, rows = (input.layer_thicknesses.zip
      (input.densities.map (convert_densities u))).zip
      input.electronic_stopping_correction_factors := ⟨_, rfl⟩
  have key : RSat (Mesh1D.new ext input) (fun g => input.layer_thicknesses.length
      = input.densities.length ∧ g.top = 0.0 ∧ g.layers ≠ [] ∧
      LayersBuilt u rows [] (g.layers, g.bottom, g.bottom)) (fun _ => True) := by
    unfold Mesh1D.new
    simp only [hu, rsat_bind, rsat_ok, rsat_pure, rsat_assert, implies_true, and_true]
    intro _ hlen
    rw [← hrows]
    refine rsat_mono (layer_loop u rows) (fun s hs => ?_) (fun _ _ => trivial)
    rw [rsat_vget]
    refine ⟨fun a ha => ?_, fun _ => trivial⟩
    rw [rsat_vget]
    refine ⟨fun b hb => ?_, fun _ => trivial⟩
    refine ⟨by simpa using hlen, trivial, ?_, ?_⟩
    · intro h; rw [h] at ha; simp at ha
    · exact ⟨rfl, hs.tiles, hs.split, hs.layers⟩
  obtain ⟨hlen, htop, hne, hb⟩ := rsat_of_ok key run
  obtain ⟨_, ht, ⟨done, hd1, hd2, hd3⟩, hl⟩ := hb
  simp only [List.append_nil] at hd1 hd2 hd3
  subst hd1
  have hth : ∀ n, n ≤ rows.length → (rows.take n).map (fun r => r.1.1*u)
      = (input.layer_thicknesses.take n).map (· * u) := by
    intro n hn
    apply List.ext_getElem?
    intro i
    have hrl : rows.length = min input.layer_thicknesses.length
      input.electronic_stopping_correction_factors.length := by
      rw [hrows]; simp; omega
    by_cases hi : i < n
    · have h1 : i < rows.length := by omega
      have h2 : i < input.layer_thicknesses.length := by omega
      simp only [List.getElem?_map, List.getElem?_take, hi, if_true]
      rw [List.getElem?_eq_getElem h1, List.getElem?_eq_getElem h2]
      simp [hrows]
    · simp only [List.getElem?_map, List.getElem?_take, hi, if_false]
      rfl
  refine ⟨htop, hne, by rw [htop]; exact ht, ?_, ?_, ?_⟩
  · rw [← hd2, hrows]; simp; omega
  · rw [← hd2, ← hth _ le_rfl, List.take_length, hd3]
  · intro k l hk
    obtain ⟨row, h1, h2, h3, h4, h5⟩ := hl k l hk
    have hk' : k < rows.length := (List.getElem?_eq_some_iff.mp h1).1
    refine ⟨by rw [h2, hth _ (by omega)], ?_, by rw [h4, h3], ?_⟩
    · rw [hrows] at h1
      rw [List.getElem?_eq_some_iff] at h1
      obtain ⟨h6, h7⟩ := h1
      simp only [List.length_zip, List.length_map] at h6
      refine ⟨input.densities[k]'(by omega), List.getElem?_eq_getElem _, ?_⟩
      rw [h3, ← h7]; simp
    · rw [hrows, List.getElem?_eq_some_iff] at h1
      obtain ⟨h6, h7⟩ := h1
      simp only [List.length_zip, List.length_map] at h6
      rw [List.getElem?_eq_getElem (by omega), h5, ← h7]; simp

theorem Tiles_contains [ScalarOrd F] (x y z : F) : ∀ (ls : List (Layer1D F)) (a b : F),
    Tiles ls a b → (a <. x) = true → (x <. b) = true → ∃ l ∈ ls, l.contains x y z = true := by
  intro ls
  induction ls with
  | nil =>
    intro a b h h1 h2
    have h : a = b := h
    subst h
    have := ScalarOrd.lt_trans _ _ _ h1 h2
    rw [ScalarOrd.lt_irrefl] at this; cases this
  | cons l ls ih =>
    rintro a b ⟨h, h', h''⟩ h1 h2
    by_cases hc : (x <=. l.bottom) = true
    · refine ⟨l, by simp, ?_⟩
      simp [Layer1D.contains, hc, h, h1]
    · have hb := (ScalarOrd.nan_lt _ _ h').2
      have hx := (ScalarOrd.nan_lt _ _ h1).2
      rw [ScalarOrd.le_iff] at hc
      push Not at hc
      rcases ScalarOrd.trichotomy x l.bottom hx hb with h3 | h3 | h3
      · exact absurd h3 hc.1
      · exact absurd h3 hc.2
      · obtain ⟨l', h4, h5⟩ := ih _ _ h'' h3 h2
        exact ⟨l', by simp [h4], h5⟩

theorem Tiles_after [ScalarOrd F] (x y z : F) : ∀ (ls : List (Layer1D F)) (a b : F),
    Tiles ls a b → (x <=. a) = true → ∀ l ∈ ls, l.contains x y z = false := by
  intro ls
  induction ls with
  | nil => simp
  | cons l ls ih =>
    rintro a b ⟨h, h', h''⟩ hx l' hl'
    have hlt : (x <. l.bottom) = true := by
      rw [ScalarOrd.le_iff] at hx
      rw [h] at h'
      rcases hx with hx | hx
      · exact ScalarOrd.lt_trans _ _ _ hx h'
      · exact ScalarOrd.eq_lt_trans _ _ _ hx h'
    rcases List.mem_cons.mp hl' with h1 | h1
    · subst h1
      unfold Layer1D.contains
      rw [Bool.and_eq_false_iff]
      left
      by_contra hc
      rw [Bool.not_eq_false, h] at hc
      rw [ScalarOrd.le_iff] at hx
      rcases hx with hx | hx
      · have := ScalarOrd.lt_trans _ _ _ hx hc
        rw [ScalarOrd.lt_irrefl] at this; cases this
      · have := ScalarOrd.eq_lt_trans _ _ _ hx hc
        rw [ScalarOrd.lt_irrefl] at this; cases this
    · exact ih _ _ h'' ((ScalarOrd.le_iff _ _).mpr (Or.inl hlt)) l' h1

theorem Tiles_unique [ScalarOrd F] (x y z : F) : ∀ (ls : List (Layer1D F)) (a b : F),
    Tiles ls a b → ∀ (i j : Nat) (l l' : Layer1D F), ls[i]? = some l → ls[j]? = some l' →
      l.contains x y z = true → l'.contains x y z = true → i = j := by
  intro ls
  induction ls with
  | nil => simp
  | cons k ls ih =>
    rintro a b ⟨h, h', h''⟩ i j l l' hi hj hl hl'
    have hafter : ∀ m ∈ ls, k.contains x y z = true → m.contains x y z = false := by
      intro m hm hk
      unfold Layer1D.contains at hk
      rw [Bool.and_eq_true] at hk
      exact Tiles_after x y z ls _ _ h'' hk.2 m hm
    cases i with
    | zero =>
      cases j with
      | zero => rfl
      | succ j =>
        simp only [List.getElem?_cons_zero, Option.some.injEq, List.getElem?_cons_succ] at hi hj
        subst hi
        rw [hafter l' (List.mem_of_getElem? hj) hl] at hl'; cases hl'
    | succ i =>
      cases j with
      | zero =>
        simp only [List.getElem?_cons_zero, Option.some.injEq, List.getElem?_cons_succ] at hi hj
        subst hj
        rw [hafter l (List.mem_of_getElem? hi) hl'] at hl; cases hl
      | succ j =>
        simp only [List.getElem?_cons_succ] at hi hj
        rw [ih _ _ h'' i j l l' hi hj hl hl']

/-- **C36**, second part: for every point, number or not, inside or outside, the four lookups succeed
and answer from one and the same layer: the only layer containing the point when it is inside the
material, the first layer for points before the front, the last layer otherwise. -/
theorem C36_lookup [ScalarOrd F] (ext : Ext F) (input : Mesh1DInput F) (g : Mesh1D F)
    (run : Mesh1D.new ext input = .ok g) (x y z : F) :
    ∃ k l, g.layers[k]? = some l ∧
      AnswersFrom g.toGeom x y z l.densities l.concentrations
        l.electronic_stopping_correction_factor ∧
      (g.toGeom.inside x y z = .ok true → ∀ j l', g.layers[j]? = some l' →
        ((l'.top <. x) = true ∧ (x <=. l'.bottom) = true ↔ j = k)) ∧
      ((x <. g.top) = true → k = 0) ∧
      (g.toGeom.inside x y z = .ok false → (x <. g.top) = false → k + 1 = g.layers.length) := by
  obtain ⟨u, hu⟩ : ∃ u, length_unit_of ext input.length_unit = .ok u := by
    unfold Mesh1D.new at run
    cases h : length_unit_of ext input.length_unit with
    | ok u => exact ⟨u, rfl⟩
    | error e => rw [h] at run; cases run
  obtain ⟨_, hne, ht, _⟩ := C36_layers ext input u g hu run
  have hlen : 0 < g.layers.length := List.length_pos_iff.mpr hne
  have answers : ∀ l, g.find_layer x y z = .ok l → AnswersFrom g.toGeom x y z l.densities
      l.concentrations l.electronic_stopping_correction_factor := by
    intro l hl
    simp only [AnswersFrom, Mesh1D.toGeom, hl]
    exact ⟨rfl, rfl, rfl, rfl⟩
  simp only [show g.toGeom.inside x y z = .ok (g.inside x) from rfl, Except.ok.injEq]
  by_cases hin : g.inside x = true
  · have hin' := hin
    unfold Mesh1D.inside at hin'
    rw [Bool.and_eq_true] at hin'
    obtain ⟨l0, hl0, hc0⟩ := Tiles_contains x y z _ _ _ ht hin'.1 hin'.2
    have hsome : (g.layers.find? (fun l => l.contains x y z)).isSome = true := by
      rw [List.find?_isSome]; exact ⟨l0, hl0, hc0⟩
    obtain ⟨l, hl⟩ := Option.isSome_iff_exists.mp hsome
    have hlc : l.contains x y z = true := by
      have := List.find?_some (p := fun l : Layer1D F => l.contains x y z) hl
      exact this
    obtain ⟨k, hk⟩ := List.mem_iff_getElem?.mp (List.mem_of_find?_eq_some hl)
    refine ⟨k, l, hk, answers l ?_, ?_, ?_, ?_⟩
    · simp only [Mesh1D.find_layer, hin, if_true, hl]
    · intro _ j l' hj
      constructor
      · rintro ⟨h1, h2⟩
        exact Tiles_unique x y z _ _ _ ht j k l' l hj hk (by simp [Layer1D.contains, h1, h2]) hlc
      · intro h
        subst h
        rw [hk] at hj; cases hj
        unfold Layer1D.contains at hlc
        rwa [Bool.and_eq_true] at hlc
    · intro h
      have := ScalarOrd.lt_trans _ _ _ h hin'.1
      rw [ScalarOrd.lt_irrefl] at this; cases this
    · intro h; rw [hin] at h; cases h
  · by_cases htop : (x <. g.top) = true
    · refine ⟨0, g.layers[0], List.getElem?_eq_getElem hlen, answers _ ?_, fun h => absurd h hin,
        fun _ => rfl, fun _ h => ?_⟩
      · simp only [Mesh1D.find_layer, hin, htop, if_true, Bool.false_eq_true, if_false, vget,
          List.getElem?_eq_getElem hlen]
      · rw [htop] at h; cases h
    · have hlt : g.layers.length - 1 < g.layers.length := by omega
      refine ⟨g.layers.length - 1, g.layers[g.layers.length - 1],
        List.getElem?_eq_getElem hlt, answers _ ?_, fun h => absurd h hin, fun h => absurd h htop,
        fun _ _ => by omega⟩
      simp only [Mesh1D.find_layer, hin, htop, if_false, Bool.false_eq_true, vget,
        List.getElem?_eq_getElem hlt]

end RustBCA
