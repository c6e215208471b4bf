import Verif.Props.DividedLayers
import Verif.Examples.Geometry

/-!
Example for C119: a target of two layers, the first 10 thick and the second 20, and the same target with the
first layer given as 4 and 6.
-/

namespace RustBCA.DividedExample
open Spec

noncomputable def rows : List LayerRow := [⟨10, [5, 1], 1⟩, ⟨20, [1, 2], 2⟩]
noncomputable def rows' : List LayerRow := [⟨4, [5, 1], 1⟩, ⟨6, [5, 1], 1⟩, ⟨20, [1, 2], 2⟩]

theorem divided : Divided rows rows' :=
  .layer ⟨10, [5, 1], 1⟩ [4, 6] [⟨20, [1, 2], 2⟩] [⟨20, [1, 2], 2⟩] (List.cons_ne_nil _ _)
    (by intro t ht; simp only [List.mem_cons, List.not_mem_nil, or_false] at ht; rcases ht with rfl | rfl <;> norm_num)
    (by norm_num)
    (.layer ⟨20, [1, 2], 2⟩ [20] [] [] (List.cons_ne_nil _ _)
      (by intro t ht; rw [List.mem_singleton.1 ht]; norm_num) (by norm_num) .none)

/-- Both are accepted, the divided target has one more layer, and both answer alike. -/
example (ext : Ext ℝ) : ∃ g g', Mesh1D.new ext (layersInput "M" rows) = .ok g ∧
    Mesh1D.new ext (layersInput "M" rows') = .ok g' ∧ g.layers.length = 2 ∧ g'.layers.length = 3 ∧
    g'.toGeom = g.toGeom := by
  have hu : length_unit_of ext "M" = .ok 1 := by
    unfold length_unit_of
    norm_num
  obtain ⟨hp, hp'⟩ := divided_positive divided
  have h1 := new_layers ext "M" rows 1 one_pos hu hp
  have h2 := new_layers ext "M" rows' 1 one_pos hu hp'
  have h := C119_same_target ext "M" rows rows' divided
    (fun u h => by rw [hu] at h; rw [← Except.ok.inj h]; exact one_pos)
  have e1 : ∃ g, Mesh1D.new ext (layersInput "M" rows) = .ok g ∧ g.layers.length = 2 := by
    rw [h1]
    exact ⟨_, rfl, rfl⟩
  have e2 : ∃ g, Mesh1D.new ext (layersInput "M" rows') = .ok g ∧ g.layers.length = 3 := by
    rw [h2]
    exact ⟨_, rfl, rfl⟩
  obtain ⟨g, hg, hl⟩ := e1
  obtain ⟨g', hg', hl'⟩ := e2
  rw [hg, hg'] at h
  exact ⟨g, g', hg, hg', hl, hl', Except.ok.inj h⟩

end RustBCA.DividedExample
