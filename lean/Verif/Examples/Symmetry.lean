import Verif.Props.Symmetry
import Verif.Examples.Run
import Verif.Examples.Lib

/-!
# Non-vacuity of C69, C70 and C85
-/

namespace RustBCA.SymmetryExample
open Scalar Spec CascadeExample RunExample

/-- The options of the example with everything recorded. -/
noncomputable def everything : Options ℝ :=
  { options with
    name := "other"
    track_trajectories := true
    track_recoil_trajectories := true
    track_energy_losses := false
    track_displacements := true
    num_threads := 4 }

theorem same_options : SamePhysicsOptions options everything := by constructor <;> rfl

/-- C69 on the cascade of two particles, with a weighted, tagged and tracked ion. -/
example : ∃ out out' rest, single_ion_bca rcpr 3 ion mat options zeros = .ok (out, rest) ∧
    single_ion_bca rcpr 3 { ion with weight := 7, tag := 5, track_trajectories := true } mat
      everything zeros = .ok (out', rest) ∧ out.length = 2 ∧
    List.Forall₂ (SamePhysics AtSamePlace id) out out' := by
  obtain ⟨out, rest, h1, h2⟩ := CascadeExample.run
  obtain ⟨out', h3, h4⟩ := (C69_records_do_not_change_physics rcpr 3 mat same_options
    (p := ion) (q := { ion with weight := 7, tag := 5, track_trajectories := true })
    (by constructor <;> rfl) zeros).1 out rest h1
  exact ⟨out, out', rest, h1, h3, h2.1, h4⟩

/-- C69 on a whole run of three ions. -/
example : ∃ s s', physics_loop_run rcpr 3 cfg mat { options with num_chunks := 1 } []
      (fun _ => zeros) [inp, inp, inp] = .ok s ∧
    physics_loop_run rcpr 3 cfg mat { everything with num_chunks := 3 } [] (fun _ => zeros)
      [inp, inp, inp] = .ok s' ∧ s'.summary = s.summary := by
  obtain ⟨s, hs⟩ := run3 1 (by norm_num) (by norm_num) []
  obtain ⟨s', hs'⟩ := C69_other_records_succeed (cfg' := cfg)
    (o' := { everything with num_chunks := 3 })
    (by constructor <;> rfl) hs (by simp [cfg]) (by show 0 < 3; norm_num)
    (by show 3 ≤ 3; norm_num) []
  exact ⟨s, s', hs, hs', (C69_whole_run (by constructor <;> rfl) hs hs').2.1⟩

/-- C70 on the cascade of two particles: the slab and the ion moved by `(1, 2, 3)`. -/
example : ∃ out out' rest, single_ion_bca rcpr 3 ion mat options zeros = .ok (out, rest) ∧
    single_ion_bca rcpr 3 { ion with pos := ⟨1, 2, 3⟩, pos_old := ⟨1, 2, 3⟩,
                                     pos_origin := ⟨1, 2, 3⟩ }
      { mat with geometry := movedGeom ⟨1, 2, 3⟩ mat.geometry } options zeros = .ok (out', rest) ∧
    out.length = 2 ∧ List.Forall₂ (SamePhysics (MovedBy ⟨1, 2, 3⟩) id) out out' := by
  obtain ⟨out, rest, h1, h2⟩ := CascadeExample.run
  have hz : CompositionIgnoresZ mat.geometry := fun _ _ _ _ => ⟨rfl, rfl⟩
  have hv : MovedBy ⟨1, 2, 3⟩ true ⟨0, 0, 0⟩ ⟨1, 2, 3⟩ := by simp [MovedBy]
  obtain ⟨out', h3, h4⟩ := (C70_translation rcpr 3 mat options ⟨1, 2, 3⟩ hz (p := ion)
    (q := { ion with pos := ⟨1, 2, 3⟩, pos_old := ⟨1, 2, 3⟩, pos_origin := ⟨1, 2, 3⟩ })
    (by constructor <;> first | rfl | exact hv) zeros).1 out rest h1
  exact ⟨out, out', rest, h1, h3, h2.1, h4⟩

/-- The layered targets meet the hypothesis of `C70_lateral_position`. -/
example (g : Mesh1D ℝ) (m : Material ℝ) : ∃ g' : Mesh1D ℝ,
    ({ m with geometry := g.toGeom } : Material ℝ).geometry = g'.toGeom := ⟨g, rfl⟩

/-- A flat target of density 1. -/
noncomputable def flat : Material ℝ := { mat with geometry := (⟨[1], [1], 1, 1⟩ : Mesh0D ℝ).toGeom }

/-- An ion above it, flying away obliquely. -/
noncomputable def oblique : Particle ℝ := ion_literal 1 1 2 1 1 (-9.5) 1 2 (-0.6) 0.8 0 1 0 ⟨0, 0, 0⟩

noncomputable def draws : Tape ℝ := fun k => if k = 2 then 1 else 0

theorem oblique_run : ∃ q, single_ion_bca rcpr 2 oblique flat (Options.default_options true) draws =
    .ok ([q], fun k => draws (k + 4)) ∧ q.left = true := by
  obtain ⟨q, h1, -, h2, -⟩ := LibExample.one_pass rcpr oblique flat true draws 1 1 ⟨0, 1, 1, 1/2, 0, 0, 0⟩
    ⟨-10.1, 1.8, 2⟩ false false rfl rfl (by simp [oblique, ion_literal]; norm_num) ⟨_, rfl⟩ rfl rfl
    (fun _ _ _ => rfl) (fun _ _ _ => by simp [flat, Mesh0D.toGeom, fsum]; norm_num)
    (fun _ _ _ => rfl) (by simp [draws]) (by rfl) (by simp [draws])
    (by simp [oblique, ion_literal, draws]; norm_num)
    (by simp [flat, Mesh0D.toGeom]; norm_num) (by simp [flat, Mesh0D.toGeom]; norm_num)
    (by simp [flat, Mesh0D.toGeom]; norm_num) (.inl rfl)
  exact ⟨q, h1, h2⟩

/-- C85 on that ion: turned by a quarter turn about the surface normal it leaves as well, at the
turned place. -/
example : ∃ q q' rest, single_ion_bca rcpr 2 oblique flat (Options.default_options true) draws =
      .ok ([q], rest) ∧
    single_ion_bca rcpr 2 { oblique with
        dir := turn (Real.pi/2) oblique.dir
        dir_old := turn (Real.pi/2) oblique.dir_old
        pos := turn (Real.pi/2) oblique.pos
        pos_old := turn (Real.pi/2) oblique.pos_old
        pos_origin := turn (Real.pi/2) oblique.pos_origin }
      flat (Options.default_options true) draws = .ok ([q'], rest) ∧
    q.left = true ∧ SamePhysics (TurnedBy (Real.pi/2)) (turn (Real.pi/2)) q q' := by
  obtain ⟨q, h1, h2⟩ := oblique_run
  have hv : ∀ b v, TurnedBy (Real.pi/2) b v (turn (Real.pi/2) v) := fun b v => ⟨rfl, fun _ => rfl⟩
  obtain ⟨out', h3, h4⟩ := (C85_azimuth rcpr 2 flat (Options.default_options true) (Real.pi/2)
    (.inl ⟨_, rfl⟩) (p := oblique)
    (q := { oblique with
        dir := turn (Real.pi/2) oblique.dir
        dir_old := turn (Real.pi/2) oblique.dir_old
        pos := turn (Real.pi/2) oblique.pos
        pos_old := turn (Real.pi/2) oblique.pos_old
        pos_origin := turn (Real.pi/2) oblique.pos_origin })
    (by constructor <;> first | rfl | exact hv _ _) draws).1 _ _ h1
  cases h4 with
  | cons h5 h6 =>
    cases h6
    exact ⟨q, _, _, h1, h3, h2, h5⟩

end RustBCA.SymmetryExample
