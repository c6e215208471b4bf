import Verif.Props.Means
import Verif.Examples.Campaign

/-!
# C116: the hypotheses are met
-/

namespace RustBCA.MeansExample
open Scalar Spec MeasureTheory ProbabilityTheory StatisticsExample MainExample LibExample

/-- A generator with two outcomes. -/
noncomputable def coin : Measure Bool := (PMF.uniformOfFintype Bool).toMeasure

noncomputable instance : IsProbabilityMeasure coin := by unfold coin; infer_instance

def face (b : Bool) : ℝ := if b then 1 else 0

theorem coin_mean (g : Bool → ℝ) : ∫ b, g b ∂coin = (g true + g false)/2 := by
  have h : ∀ b, coin.real {b} = 1/2 := by
    intro b
    unfold coin
    rw [measureReal_def, PMF.toMeasure_apply_singleton _ _ (measurableSet_singleton _), PMF.uniformOfFintype_apply]
    simp
  rw [integral_fintype (Integrable.of_finite), Fintype.sum_bool, h, h]
  simp only [smul_eq_mul]
  ring

theorem one_number (g : Bool → ℝ) :
    ∫ ω : ℕ → Bool, g (ω 0) ∂cond (Measure.infinitePi fun _ : ℕ => coin) (returning face (random : M ℝ ℝ)) =
      (g true + g false)/2 := by
  have e : returning face (random : M ℝ ℝ) = Set.univ := by
    ext ω
    exact ⟨fun _ => trivial, fun _ => ⟨_, _, rfl⟩⟩
  rw [e, cond_univ]
  have h := measurePreserving_eval_infinitePi (fun _ : ℕ => coin) 0
  have h2 := integral_map (μ := Measure.infinitePi fun _ : ℕ => coin) (f := g) h.measurable.aemeasurable
    (Measurable.of_discrete).aestronglyMeasurable
  rw [h.map_eq, coin_mean] at h2
  exact h2.symm

/-- The mean of one number drawn is 1/2. -/
example : meanOf coin face (random : M ℝ ℝ) id = 1/2 := by
  have : quantityOn face (random : M ℝ ℝ) id = fun ω => face (ω 0) := rfl
  unfold meanOf
  rw [this, one_number face]
  simp [face]

theorem two_faces (ω : ℕ → Bool) (r : ℝ) (t' : Tape ℝ) (h : (random : M ℝ ℝ) (fun n => face (ω n)) = .ok (r, t')) :
    0 ≤ id r ∧ id r ≤ 1 := by
  unfold random at h
  injection h with h
  injection h with h _
  subst h
  unfold face
  show 0 ≤ (if ω 0 then (1:ℝ) else 0) ∧ (if ω 0 then (1:ℝ) else 0) ≤ 1
  split <;> norm_num

/-- Its variance is 1/4. -/
example : varianceOf coin face (random : M ℝ ℝ) id = 1/4 := by
  have : quantityOn face (random : M ℝ ℝ) id = fun ω => face (ω 0) := rfl
  have hv := (bounded_quantity coin face draws_random two_faces).1
  unfold FiniteVariance at hv
  unfold varianceOf
  rw [this] at hv ⊢
  have e : returning face (random : M ℝ ℝ) = Set.univ := by
    ext ω
    exact ⟨fun _ => trivial, fun _ => ⟨_, _, rfl⟩⟩
  have : IsProbabilityMeasure (cond (Measure.infinitePi fun _ : ℕ => coin) (returning face (random : M ℝ ℝ))) := by
    rw [e, cond_univ]; infer_instance
  rw [variance_eq_sub hv, one_number face]
  have h2 := one_number fun b => face b^2
  have e2 : (∫ ω : ℕ → Bool, ((fun ω : ℕ → Bool => face (ω 0))^2) ω
      ∂cond (Measure.infinitePi fun _ : ℕ => coin) (returning face (random : M ℝ ℝ))) = (face true^2 + face false^2)/2 := h2
  rw [e2]
  norm_num [face]

/-- **C116** The average of 100 numbers drawn by two threads is off 1/2 by 1/4 or more with probability at most 4 %. -/
example : threadStreams Bool coin {ω | ∃ h, Execution face (fun _ : Fin 100 => (random : M ℝ ℝ)) turns [] ω h ∧
    1/4 ≤ |(h.map fun e => id e.2.2).sum/(100:ℕ) - (∑ _i : Fin 100, meanOf coin face (random : M ℝ ℝ) id)/(100:ℕ)|} ≤
    ENNReal.ofReal (4/100) := by
  have hb := bounded_quantity coin face draws_random two_faces
  refine (C116_statistical_error coin face (n := 100) (by norm_num) (fun _ => draws_random) id (fun _ => hb.1) turns
    turns_once (1/4) (by norm_num)).trans (ENNReal.ofReal_le_ofReal ?_)
  rw [Finset.sum_const, Finset.card_univ, Fintype.card_fin, nsmul_eq_mul]
  have := hb.2
  norm_num at this ⊢
  linarith

/-- **C116** The energy carried away in a run that happens (two ions, two threads). -/
example (rcpr : Rcpr ℝ) (units : OutputUnits ℝ) (splits : List Split) : ∃ mat : Material ℝ,
    threadStreams Bool bits {ω | ∃ h tapes s,
        Execution number (fun i : Fin [one, one].length =>
          simulation rcpr 2 mat (Options.default_options true) [one, one][i]) turns [] ω h ∧
        Given number h tapes ∧
        physics_loop_run rcpr 2 ⟨none, true, units, fun _ => "1"⟩ mat (Options.default_options true) splits tapes
          [one, one] = .ok s} ≠ 0 ∧
    ∀ ε : ℝ, 0 < ε →
      threadStreams Bool bits {ω | ∃ h tapes s,
        Execution number (fun i : Fin [one, one].length =>
          simulation rcpr 2 mat (Options.default_options true) [one, one][i]) turns [] ω h ∧
        Given number h tapes ∧
        physics_loop_run rcpr 2 ⟨none, true, units, fun _ => "1"⟩ mat (Options.default_options true) splits tapes
          [one, one] = .ok s ∧
        ε ≤ |totalOf (fun q => if q.left then q.E else 0) s.processed/[one, one].length -
          (∑ i : Fin [one, one].length, meanOf bits number
            (simulation rcpr 2 mat (Options.default_options true) [one, one][i])
              (totalOf fun q => if q.left then q.E else 0))/[one, one].length|} ≤
      ENNReal.ofReal ((∑ i : Fin [one, one].length, varianceOf bits number
            (simulation rcpr 2 mat (Options.default_options true) [one, one][i])
              (totalOf fun q => if q.left then q.E else 0))/[one, one].length/([one, one].length*ε^2)) := by
  obtain ⟨mat, h1, -⟩ := RunStatisticsExample.runs rcpr units splits
  exact ⟨mat, h1, fun ε hε => (C116_run bits number rcpr 2 _ mat _ splits [one, one] (by simp) _ turns turns_once ε hε).2⟩

/-- **C116** A beam of two ions whose energies are drawn; counted are the particles that left (a bounded quantity). -/
example (rcpr : Rcpr ℝ) (units : OutputUnits ℝ) (splits : List Split) : ∃ mat : Material ℝ, ∃ gs,
    gs = beam CampaignExample.scaled (ANGSTROM ℝ) (EV ℝ) (AMU ℝ) CampaignExample.spread ∧ gs.length = 2 ∧
    ∀ ε : ℝ, 0 < ε →
      programStreams Bool bits {ω | ∃ acc t' h tapes s, ∃ hi : acc.particle_input_array ≠ [],
        input InputExample.ext CampaignExample.scaled rcpr.enabled (Options.default_options true) (.ok mat)
          CampaignExample.spread (fun n => number (ω.1 n)) = .ok (acc, t') ∧
        Execution number (fun i => simulation rcpr 2 acc.material acc.options acc.particle_input_array[i])
          (CampaignExample.turn acc.particle_input_array hi) [] ω.2 h ∧ Given number h tapes ∧
        physics_loop_run rcpr 2 ⟨none, true, units, fun _ => "1"⟩ acc.material acc.options splits tapes
          acc.particle_input_array = .ok s ∧
        ε ≤ |totalOf (fun q => if q.left then 1 else 0) s.processed/gs.length -
          (∑ i : Fin gs.length, meanOf bits number (drawnAndFollowed rcpr 2 mat (Options.default_options true) gs[i])
            (totalOf fun q => if q.left then 1 else 0))/gs.length|} ≤
      ENNReal.ofReal ((∑ i : Fin gs.length, varianceOf bits number
        (drawnAndFollowed rcpr 2 mat (Options.default_options true) gs[i])
            (totalOf fun q => if q.left then 1 else 0))/gs.length/(gs.length*ε^2)) := by
  obtain ⟨mat, gs, hin, hgs, hlen, -, -⟩ := CampaignExample.runs rcpr units splits
  obtain ⟨acc, t', h1, h2, h3⟩ := hin zeros
  have hne : gs ≠ [] := by intro h; rw [h] at hlen; cases hlen
  have hgs' : gs = beam CampaignExample.scaled acc.output_units.length_unit acc.output_units.energy_unit
      acc.output_units.mass_unit CampaignExample.spread := by rw [h3]; exact hgs
  have hd : ∀ g ∈ gs, DrawsInOrder g := by rw [hgs]; exact draws_beam CampaignExample.scaled_draws _ _ _ _
  refine ⟨mat, gs, hgs, hlen, fun ε hε => ?_⟩
  have := C116_beam_run bits number rcpr 2 ⟨none, true, units, fun _ => "1"⟩ splits CampaignExample.scaled_draws
    (p' := CampaignExample.spread) rfl h1 hgs' hne (fun q => if q.left then 1 else 0) (fun i =>
      beam_variance bits number rcpr 2 _ _ (hd _ (List.getElem_mem _)) (C := 1) (fun q => by
          split <;> norm_num)) CampaignExample.turn CampaignExample.turn_once ε hε
  rw [h2] at this
  exact this

/-- **C116** `reflection_coefficient` does not refuse the arguments of `LibExample`, and its ion comes to an end with
positive probability. -/
example (rcpr : Rcpr ℝ) (ext : Ext ℝ) : ∃ mat p,
    chance bits number (single_ion_bca rcpr 2 p mat (Options.default_options false)) Set.univ ≠ 0 ∧
    ∀ ε : ℝ, 0 < ε →
        threadStreams Bool bits {ω | ∃ h tapes r,
          Execution number (fun _ : Fin 2 => single_ion_bca rcpr 2 p mat (Options.default_options false)) turns [] ω h ∧
          Given number h tapes ∧ reflection_coefficient rcpr 2 ext LibExample.ones LibExample.ones (1/2) 30 2 tapes r ∧
          ε ≤ |r.2 - meanOf bits number (single_ion_bca rcpr 2 p mat (Options.default_options false))
            (energyReturned (1/2))|} ≤
          ENNReal.ofReal (varianceOf bits number (single_ion_bca rcpr 2 p mat (Options.default_options false))
            (energyReturned (1/2))/((2:ℕ)*ε^2)) := by
  obtain ⟨q, -, hl, h, -⟩ := LibExample.samples_ok rcpr ext false
  obtain ⟨f, hf, hfin⟩ := C58_finishes reflected_particle true [[q], [q]]
  have hr : reflection_coefficient rcpr 2 ext LibExample.ones LibExample.ones (1/2) 30 2 (fun _ => LibExample.half)
      (coefficients f (1/2) 2) := ⟨_, f, h rfl, hf, hfin, rfl⟩
  rcases C116_reflection_coefficient bits number rcpr 2 ext LibExample.ones LibExample.ones (1/2) 30 2 (by norm_num)
    (by norm_num) with h0 | ⟨Z2, m2, Ec2, Es2, Eb2, n2, mat, p, ht, hp, hs, -, hb⟩
  · exact absurd hr (h0 _ _)
  obtain ⟨out, t', hrun⟩ := hs _ _ hr 0 (by norm_num)
  refine ⟨mat, p, ?_, hb Bool turns turns_once⟩
  refine chance_pos (C74_stream _ _ _ _ _) (ω := halfBits) (b := out) (t' := t') ?_
  rw [half_bits]
  exact hrun

end RustBCA.MeansExample
