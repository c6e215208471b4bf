import Verif.Props.HistogramRun
import Verif.Examples.Run

/-!
# A run with histograms

Non-vacuity of C102: two ions, one reflected with energy 5 at angle 0, one stopped at depth 3/2
after a recorded loss at depth 1/2.
-/

namespace RustBCA.HistogramExample
open Scalar Spec CascadeExample

noncomputable def grid : GridOptions ℝ := ⟨0, 10, 11, 0, 10, 11, 0, 10, 11, 0, 10, 11, 0, 10, 11⟩

theorem good : GoodGrid grid := by
  constructor <;> exact ⟨by norm_num [grid], by norm_num [grid], by norm_num [grid]⟩

noncomputable def cfg : OutputConfig ℝ := ⟨some grid, true, ⟨1, 1, 1⟩, fun _ => "1"⟩

noncomputable def opts : Options ℝ := { options with num_chunks := 1, track_energy_losses := true }

noncomputable def reflected : Particle ℝ :=
  { ion with
    E := 5
    dir := ⟨-1, 0, 0⟩
    incident := true
    left := true
    stopped := false
    energies := [] }

noncomputable def implanted : Particle ℝ :=
  { ion with
    pos := ⟨3/2, 0, 0⟩
    incident := true
    left := false
    stopped := true
    energies := [⟨6, 4, 1/2, 0, 0⟩] }

noncomputable def sim : Bool → Res (List (Particle ℝ))
  | true => .ok [reflected]
  | false => .ok [implanted]

/-- The run succeeds; cell (5, 0) of the reflected histogram counts one ion and cell (5, 1) none;
bin 1 of the implantation profile counts one and bin 0 none; bin 0 of the electronic loss
profile holds 4/2 (two ions, bins of length one) and bin 1 nothing. -/
example : ∃ s d, physics_loop cfg opts sim [] [true, false] = .ok s ∧ s.distributions = some d ∧
    (∃ row, d.reflected_ead[5]? = some row ∧ row[0]? = some 1 ∧ row[1]? = some 0) ∧
    d.implanted_x[1]? = some 1 ∧ d.implanted_x[0]? = some 0 ∧
    d.electronic_energy_loss_x[0]? = some 2 ∧ d.electronic_energy_loss_x[1]? = some 0 ∧
    d.nuclear_energy_loss_x[0]? = some 3 := by
  obtain ⟨s, hs⟩ := (C65_fails_only_in_physics (cfg := cfg) (options := opts)
    (fun o h => by obtain rfl := Option.some.inj h; exact good.two) sim [] [true, false]).2
    ⟨by norm_num [opts], by norm_num [opts], fun a _ => by cases a <;> exact ⟨_, rfl⟩⟩
  obtain ⟨outs, d, h1, h2, h3, h4⟩ := C102_histograms hs rfl good
  have ho : outs = [[reflected], [implanted]] := by
    unfold Simulated at h1
    cases h1 with
    | cons a h1 => cases h1 with
      | cons b h1 => cases h1; cases a; cases b; rfl
  subst ho
  have hr : (energy_angle_from_particle reflected cfg.units).2 = 0 :=
    (C54_cardinal reflected cfg.units).1 rfl
  have e0 : ∀ v : ℝ, ∀ k, InCell 0 10 11 k v ↔ k < 11 ∧ (k:ℝ) ≤ v ∧ v < k + 1 := by
    intro v k
    unfold InCell
    norm_num
  have emitted : ∀ j, EmittedIn grid cfg.units 5 j reflected ↔ j < 11 ∧ (j:ℝ) ≤ 0 ∧ (0:ℝ) < j + 1 := by
    intro j
    unfold EmittedIn
    rw [hr]
    show InCell 0 10 11 5 (5/1) ∧ InCell 0 10 11 j 0 ↔ _
    rw [e0, e0]
    norm_num
  have b0 : ∀ v : ℝ, ∀ k, InBin 0 10 11 k v ↔
      (k < 11 ∧ (k:ℝ) ≤ v ∧ v < k + 1) ∨ (k = 0 ∧ -1 < v ∧ v < 0) := by
    intro v k
    unfold InBin
    rw [e0]
    norm_num
  have hm : ∀ (P : Particle ℝ → Prop) (a b : Nat), ((P reflected ↔ a = 1) ∧ (a = 0 ∨ a = 1)) →
      ((P implanted ↔ b = 1) ∧ (b = 0 ∨ b = 1)) →
      howMany P [[reflected], [implanted]].flatten = a + b := by
    classical
    rintro P a b ⟨ha, ha'⟩ ⟨hb, hb'⟩
    unfold howMany
    by_cases h1 : P reflected <;> by_cases h2 : P implanted <;>
      simp [h1, h2] at ha hb ⊢ <;> omega
  have hI : ∀ k, howMany (fun p => p.incident = true ∧ p.stopped = true ∧
      InBin grid.x_min grid.x_max grid.x_num k (p.pos.x/cfg.units.length_unit))
      [[reflected], [implanted]].flatten = 0 + (if k = 1 then 1 else 0) := by
    intro k
    refine hm _ 0 _ ⟨by simp [reflected], .inl rfl⟩ ⟨?_, by split <;> simp⟩
    have : implanted.incident = true ∧ implanted.stopped = true ∧
        InBin grid.x_min grid.x_max grid.x_num k (implanted.pos.x/cfg.units.length_unit) ↔
        InBin 0 10 11 k ((3/2)/1) := ⟨fun h => h.2.2, fun h => ⟨rfl, rfl, h⟩⟩
    rw [this, b0]
    constructor
    · rintro (⟨h1, h2, h3⟩ | ⟨-, -, h3⟩)
      · have h4 : (k:ℝ) < 2 := by linarith
        have h5 : (0:ℝ) < k := by linarith
        have h6 : k < 2 := by exact_mod_cast h4
        have h7 : 0 < k := by exact_mod_cast h5
        rw [if_pos (by omega)]
      · norm_num at h3
    · intro h
      have : k = 1 := by by_contra hk; rw [if_neg hk] at h; omega
      subst this
      left; norm_num
  have hR : ∀ k, howMany (fun p => p.incident = true ∧ p.left = true ∧
      EmittedIn grid cfg.units 5 k p) [[reflected], [implanted]].flatten =
      (if k = 0 then 1 else 0) + 0 := by
    intro k
    refine hm _ _ 0 ⟨?_, by split <;> simp⟩ ⟨by simp [implanted], .inl rfl⟩
    have : reflected.incident = true ∧ reflected.left = true ∧
        EmittedIn grid cfg.units 5 k reflected ↔ EmittedIn grid cfg.units 5 k reflected :=
      ⟨fun h => h.2.2, fun h => ⟨rfl, rfl, h⟩⟩
    rw [this, emitted]
    constructor
    · rintro ⟨-, h2, -⟩
      have : k = 0 := by have h3 : k ≤ 0 := by exact_mod_cast h2
                         omega
      rw [if_pos this]
    · intro h
      have : k = 0 := by by_contra hk; rw [if_neg hk] at h; omega
      subst this
      norm_num
  have hL : ∀ (k : Nat) (kind : EnergyLoss ℝ → ℝ), lossIn grid cfg.units 2 k kind
      [[reflected], [implanted]].flatten = if k = 0 then kind ⟨6, 4, 1/2, 0, 0⟩/2 else 0 := by
    classical
    intro k kind
    have : InBin grid.x_min grid.x_max grid.x_num k ((1/2)/cfg.units.length_unit) ↔ k = 0 := by
      show InBin 0 10 11 k ((1/2)/1) ↔ _
      rw [b0]
      constructor
      · rintro (⟨-, h2, -⟩ | ⟨h, -⟩)
        · have h4 : (k:ℝ) < 1 := by linarith
          have h6 : k < 1 := by exact_mod_cast h4
          omega
        · exact h
      · rintro rfl; left; norm_num
    have hu : cfg.units.energy_unit = 1 := rfl
    have hw : (grid.x_max - grid.x_min)/((grid.x_num:ℝ) - 1) = 1 := by norm_num [grid]
    unfold lossIn
    rw [hw, hu]
    by_cases hk : k = 0
    · rw [if_pos hk]
      simp [reflected, implanted, List.filter_cons]
      rw [if_pos (by have := this.2 hk; simpa using this)]
      simp
    · rw [if_neg hk]
      simp [reflected, implanted, List.filter_cons]
      rw [if_neg (by have := mt this.1 hk; simpa using this)]
      simp
  have ht : opts.track_energy_losses = true := rfl
  refine ⟨s, d, hs, h3, ?_, ?_, ?_, ?_, ?_, ?_⟩
  · obtain ⟨row, r1, r2⟩ := h4.reflected 5 0 (by norm_num [grid]) (by norm_num [grid])
    obtain ⟨row', r1', r2'⟩ := h4.reflected 5 1 (by norm_num [grid]) (by norm_num [grid])
    rw [r1] at r1'; obtain rfl := Option.some.inj r1'
    rw [hR] at r2 r2'
    exact ⟨row, r1, r2, r2'⟩
  · have := h4.implanted_x 1 (by norm_num [grid])
    rw [hI] at this; exact this
  · have := h4.implanted_x 0 (by norm_num [grid])
    rw [hI] at this; exact this
  · have := h4.electronic 0 (by norm_num [grid])
    rw [ht, if_pos rfl] at this
    rw [this]
    refine congrArg some ((hL 0 _).trans ?_)
    norm_num
  · have := h4.electronic 1 (by norm_num [grid])
    rw [ht, if_pos rfl] at this
    rw [this]
    exact congrArg some ((hL 1 _).trans (by norm_num))
  · have := h4.nuclear 0 (by norm_num [grid])
    rw [ht, if_pos rfl] at this
    rw [this]
    refine congrArg some ((hL 0 _).trans ?_)
    norm_num

end RustBCA.HistogramExample
