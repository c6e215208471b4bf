import Verif.Props.Means
import Verif.Props.HistogramRun

/-!
# C117: the statistical error of the distribution files
-/

namespace RustBCA
open Scalar Spec MeasureTheory ProbabilityTheory

section
variable {F α Thread : Type} [Scalar F] [Countable α] [MeasurableSpace α] [MeasurableSingletonClass α]
  (μ : Measure α) [IsProbabilityMeasure μ] (value : α → F)

/-- Ions counted: at most one per cascade, so the bound needs no variance. -/
theorem incident_count (rcpr : Rcpr F) (fuel : ℕ) (cfg : OutputConfig F) (mat : Material F) (o : Options F)
    (splits : List Split) (inputs : List (ParticleInput F)) (hne : inputs ≠ []) {P : Particle F → Prop}
    (hP : ∀ q, P q → q.incident = true)
    (next : List (Fin inputs.length × List α × List (Particle F)) → Thread × Fin inputs.length)
    (hnext : EachOnce next) (ε : ℝ) (hε : 0 < ε) :
    threadStreams Thread μ {ω | ∃ h tapes s,
        Execution value (fun i => simulation rcpr fuel mat o inputs[i]) next [] ω h ∧ Given value h tapes ∧
        physics_loop_run rcpr fuel cfg mat o splits tapes inputs = .ok s ∧
        ε ≤ |(howMany P s.processed : ℝ)/inputs.length -
          (∑ i : Fin inputs.length,
            (chance μ value (simulation rcpr fuel mat o inputs[i]) {out | ∃ q ∈ out, P q}/
              chance μ value (simulation rcpr fuel mat o inputs[i]) Set.univ).toReal)/inputs.length|} ≤
      ENNReal.ofReal (1/(4*inputs.length*ε^2)) := by
  classical
  have hn0 : (0:ℝ) < inputs.length := by exact_mod_cast List.length_pos_of_ne_nil hne
  have hone : ∀ (i : Fin inputs.length) t out t', simulation rcpr fuel mat o inputs[i] t = .ok (out, t') →
      howMany P out ≤ 1 := by
    intro i t out t' h
    rw [← (run_ion_incident (simulation_run h)).1]
    unfold howMany
    exact List.countP_mono_left fun q _ hq => hP q (of_decide_eq_true hq)
  have hlaw := fun i : Fin inputs.length =>
    binary_law μ value (draws_simulation rcpr fuel mat o inputs[i]) (howMany P) (hone i)
  have hset : ∀ i : Fin inputs.length, chance μ value (simulation rcpr fuel mat o inputs[i]) {b | howMany P b = 1} =
      chance μ value (simulation rcpr fuel mat o inputs[i]) {out | ∃ q ∈ out, P q} := by
    intro i
    unfold chance
    congr 1
    ext ω
    simp only [Set.mem_ofPred_eq]
    constructor
    · rintro ⟨b, t', hb, hc⟩
      refine ⟨b, t', hb, ?_⟩
      have : 0 < howMany P b := by omega
      unfold howMany at this
      rw [List.countP_pos_iff] at this
      obtain ⟨q, hq, hd⟩ := this
      exact ⟨q, hq, of_decide_eq_true hd⟩
    · rintro ⟨b, t', hb, q, hq, hr⟩
      refine ⟨b, t', hb, ?_⟩
      have h5 := hone i _ _ _ hb
      have : 0 < howMany P b := by
        unfold howMany
        rw [List.countP_pos_iff]
        exact ⟨q, hq, decide_eq_true hr⟩
      omega
  refine (measure_mono ?_).trans ((C107_run μ value rcpr fuel cfg mat o splits inputs hne P next hnext ε hε).2.trans ?_)
  · rintro ω ⟨h, tapes, s, h1, h2, h3, h4⟩
    refine ⟨h, tapes, s, h1, h2, h3, ?_⟩
    rw [Finset.sum_congr rfl fun i _ => (hlaw i).2.2.trans (by rw [hset i])]
    exact h4
  · apply ENNReal.ofReal_le_ofReal
    have hle : (∑ i : Fin inputs.length, countVariance μ value (simulation rcpr fuel mat o inputs[i]) (howMany P)) ≤
        inputs.length*(1/4) := by
      refine (Finset.sum_le_sum fun i _ => (hlaw i).2.1).trans ?_
      rw [Finset.sum_const, Finset.card_univ, Fintype.card_fin, nsmul_eq_mul]
    have h1 : (∑ i : Fin inputs.length, countVariance μ value (simulation rcpr fuel mat o inputs[i]) (howMany P))
        /inputs.length ≤ 1/4 := by
      rw [div_le_iff₀ hn0]; linarith
    refine (div_le_div_of_nonneg_right h1 (by positivity)).trans (le_of_eq ?_)
    field_simp

end

section
variable {α Thread : Type} [Finite α] [MeasurableSpace α] [MeasurableSingletonClass α]
  (μ : Measure α) [IsProbabilityMeasure μ] (value : α → ℝ)

theorem run_histograms {rcpr : Rcpr ℝ} {fuel : ℕ} {cfg : OutputConfig ℝ} {mat : Material ℝ} {o : Options ℝ}
    {splits : List Split} {inputs : List (ParticleInput ℝ)} {tapes : ℕ → Tape ℝ} {s : RunState ℝ} {g : GridOptions ℝ}
    (hgrid : cfg.grid = some g) (hg : GoodGrid g)
    (run : physics_loop_run rcpr fuel cfg mat o splits tapes inputs = .ok s) :
    ∃ d, s.distributions = some d ∧ HistogramsOf g cfg.units o.track_energy_losses inputs.length s.processed d := by
  obtain ⟨outs, d, -, h2, h3, h4⟩ := C102_histograms run hgrid hg
  rw [List.length_zipIdx] at h4
  exact ⟨d, h3, h2 ▸ h4⟩

/-- **C117, reflected ions.** Each cell of the energy-angle distribution of the reflected ions, over the number of ions,
differs from the ions' average probability of being reflected into the cell (among the cascades that end) by `ε` or more
with probability at most `1/(4nε²)`. -/
theorem C117_reflected (rcpr : Rcpr ℝ) (fuel : ℕ) (cfg : OutputConfig ℝ) (mat : Material ℝ) (o : Options ℝ)
    (splits : List Split) (inputs : List (ParticleInput ℝ)) (hne : inputs ≠ []) {g : GridOptions ℝ}
    (hgrid : cfg.grid = some g) (hg : GoodGrid g) (i j : ℕ) (hi : i < g.energy_num) (hj : j < g.angle_num)
    (next : List (Fin inputs.length × List α × List (Particle ℝ)) → Thread × Fin inputs.length)
    (hnext : EachOnce next) (ε : ℝ) (hε : 0 < ε) :
    threadStreams Thread μ {ω | ∃ h tapes s d row k,
        Execution value (fun i => simulation rcpr fuel mat o inputs[i]) next [] ω h ∧ Given value h tapes ∧
        physics_loop_run rcpr fuel cfg mat o splits tapes inputs = .ok s ∧
        s.distributions = some d ∧ d.reflected_ead[i]? = some row ∧ row[j]? = some k ∧
        ε ≤ |(k:ℝ)/inputs.length -
          (∑ l : Fin inputs.length, (chance μ value (simulation rcpr fuel mat o inputs[l])
              {out | ∃ q ∈ out, q.incident = true ∧ q.left = true ∧ EmittedIn g cfg.units i j q}/
              chance μ value (simulation rcpr fuel mat o inputs[l]) Set.univ).toReal)/inputs.length|} ≤
      ENNReal.ofReal (1/(4*inputs.length*ε^2)) := by
  refine (measure_mono ?_).trans (incident_count (Thread := Thread) μ value rcpr fuel cfg mat o splits inputs hne
    (P := fun q => q.incident = true ∧ q.left = true ∧ EmittedIn g cfg.units i j q) (fun q h => h.1) next hnext ε hε)
  rintro ω ⟨h, tapes, s, d, row, k, h1, h2, h3, h4, h5, h6, h7⟩
  obtain ⟨d', hd, hh⟩ := run_histograms hgrid hg h3
  obtain rfl := Option.some.inj (h4.symm.trans hd)
  obtain ⟨row', hr, hk⟩ := hh.reflected i j hi hj
  obtain rfl := Option.some.inj (h5.symm.trans hr)
  obtain rfl := Option.some.inj (h6.symm.trans hk)
  exact ⟨h, tapes, s, h1, h2, h3, h7⟩

/-- **C117, sputtered atoms.** Likewise for the energy-angle distribution of the sputtered atoms and their expected
number, with the variance (which is finite). -/
theorem C117_sputtered (rcpr : Rcpr ℝ) (fuel : ℕ) (cfg : OutputConfig ℝ) (mat : Material ℝ) (o : Options ℝ)
    (splits : List Split) (inputs : List (ParticleInput ℝ)) (hne : inputs ≠ []) {g : GridOptions ℝ}
    (hgrid : cfg.grid = some g) (hg : GoodGrid g) (i j : ℕ) (hi : i < g.energy_num) (hj : j < g.angle_num)
    {P : Particle ℝ → Prop} (hP : P = fun q => q.incident = false ∧ q.left = true ∧ EmittedIn g cfg.units i j q)
    (next : List (Fin inputs.length × List α × List (Particle ℝ)) → Thread × Fin inputs.length)
    (hnext : EachOnce next) (ε : ℝ) (hε : 0 < ε) :
    (∀ l : Fin inputs.length, MemLp (fun k : ℕ => (k : ℝ)) 2
      (countLaw μ value (simulation rcpr fuel mat o inputs[l]) (howMany P))) ∧
    threadStreams Thread μ {ω | ∃ h tapes s d row k,
        Execution value (fun i => simulation rcpr fuel mat o inputs[i]) next [] ω h ∧ Given value h tapes ∧
        physics_loop_run rcpr fuel cfg mat o splits tapes inputs = .ok s ∧
        s.distributions = some d ∧ d.sputtered_ead[i]? = some row ∧ row[j]? = some k ∧
        ε ≤ |(k:ℝ)/inputs.length -
          (∑ l : Fin inputs.length, expectedCount μ value (simulation rcpr fuel mat o inputs[l]) (howMany P))
            /inputs.length|} ≤
      ENNReal.ofReal ((∑ l : Fin inputs.length,
          countVariance μ value (simulation rcpr fuel mat o inputs[l]) (howMany P))/inputs.length
        /(inputs.length*ε^2)) := by
  have hmain := C107_run (Thread := Thread) μ value rcpr fuel cfg mat o splits inputs hne P next hnext ε hε
  refine ⟨hmain.1, (measure_mono ?_).trans hmain.2⟩
  rintro ω ⟨h, tapes, s, d, row, k, h1, h2, h3, h4, h5, h6, h7⟩
  obtain ⟨d', hd, hh⟩ := run_histograms hgrid hg h3
  obtain rfl := Option.some.inj (h4.symm.trans hd)
  obtain ⟨row', hr, hk⟩ := hh.sputtered i j hi hj
  obtain rfl := Option.some.inj (h5.symm.trans hr)
  obtain rfl := Option.some.inj (h6.symm.trans hk)
  rw [hP]
  rw [hP] at h7
  exact ⟨h, tapes, s, h1, h2, h3, h7⟩

/-- **C117, implanted ions.** Each bin of the implantation profiles, over the number of ions, differs from the ions'
average probability of coming to rest in the bin by `ε` or more with probability at most `1/(4nε²)`. -/
theorem C117_implanted (rcpr : Rcpr ℝ) (fuel : ℕ) (cfg : OutputConfig ℝ) (mat : Material ℝ) (o : Options ℝ)
    (splits : List Split) (inputs : List (ParticleInput ℝ)) (hne : inputs ≠ []) {g : GridOptions ℝ}
    (hgrid : cfg.grid = some g) (hg : GoodGrid g) (i : ℕ)
    (next : List (Fin inputs.length × List α × List (Particle ℝ)) → Thread × Fin inputs.length)
    (hnext : EachOnce next) (ε : ℝ) (hε : 0 < ε) :
    ∀ (profile : Distributions ℝ → List ℕ) (inBin : Particle ℝ → Prop),
      ((profile = fun d => d.implanted_x) ∧ i < g.x_num ∧
        (inBin = fun q => InBin g.x_min g.x_max g.x_num i (q.pos.x/cfg.units.length_unit)) ∨
       (profile = fun d => d.implanted_y) ∧ i < g.y_num ∧
        (inBin = fun q => InBin g.y_min g.y_max g.y_num i (q.pos.y/cfg.units.length_unit)) ∨
       (profile = fun d => d.implanted_z) ∧ i < g.z_num ∧
        (inBin = fun q => InBin g.z_min g.z_max g.z_num i (q.pos.z/cfg.units.length_unit))) →
    threadStreams Thread μ {ω | ∃ h tapes s d k,
        Execution value (fun i => simulation rcpr fuel mat o inputs[i]) next [] ω h ∧ Given value h tapes ∧
        physics_loop_run rcpr fuel cfg mat o splits tapes inputs = .ok s ∧
        s.distributions = some d ∧ (profile d)[i]? = some k ∧
        ε ≤ |(k:ℝ)/inputs.length -
          (∑ l : Fin inputs.length, (chance μ value (simulation rcpr fuel mat o inputs[l])
              {out | ∃ q ∈ out, q.incident = true ∧ q.stopped = true ∧ inBin q}/
              chance μ value (simulation rcpr fuel mat o inputs[l]) Set.univ).toReal)/inputs.length|} ≤
      ENNReal.ofReal (1/(4*inputs.length*ε^2)) := by
  intro profile inBin hcase
  refine (measure_mono ?_).trans (incident_count (Thread := Thread) μ value rcpr fuel cfg mat o splits inputs hne
    (P := fun q => q.incident = true ∧ q.stopped = true ∧ inBin q) (fun q h => h.1) next hnext ε hε)
  rintro ω ⟨h, tapes, s, d, k, h1, h2, h3, h4, h5, h7⟩
  obtain ⟨d', hd, hh⟩ := run_histograms hgrid hg h3
  obtain rfl := Option.some.inj (h4.symm.trans hd)
  refine ⟨h, tapes, s, h1, h2, h3, ?_⟩
  rcases hcase with ⟨rfl, hi, rfl⟩ | ⟨rfl, hi, rfl⟩ | ⟨rfl, hi, rfl⟩
  · obtain rfl := Option.some.inj (h5.symm.trans (hh.implanted_x i hi))
    exact h7
  · obtain rfl := Option.some.inj (h5.symm.trans (hh.implanted_y i hi))
    exact h7
  · obtain rfl := Option.some.inj (h5.symm.trans (hh.implanted_z i hi))
    exact h7

/-- The losses recorded in a bin, as a total over the particles. -/
theorem lossIn_total (g : GridOptions ℝ) (u : OutputUnits ℝ) (n i : ℕ) (kind : EnergyLoss ℝ → ℝ) (ps : List (Particle ℝ)) :
    lossIn g u n i kind ps = totalOf (fun p => lossIn g u 1 i kind [p]) ps/n := by
  induction ps using List.reverseRecOn with
  | nil => simp [lossIn, totalOf]
  | append_singleton ps p ih =>
    have e : totalOf (fun p => lossIn g u 1 i kind [p]) (ps ++ [p]) =
        totalOf (fun p => lossIn g u 1 i kind [p]) ps + lossIn g u 1 i kind [p] := by simp [totalOf]
    rw [lossIn_snoc, ih, e, add_div]
    congr 1
    have h1 := lossIn_snoc g u 1 i kind [] p
    rw [List.nil_append] at h1
    rw [h1]
    have h0 : lossIn g u 1 i kind [] = 0 := by simp [lossIn]
    rw [h0, zero_add]
    split
    · unfold lossesIn
      generalize List.filter _ p.energies = L
      induction L with
      | nil => simp
      | cons a l ih =>
        rw [List.map_cons, List.map_cons, List.sum_cons, List.sum_cons, ih, add_div]
        congr 1
        rw [Nat.cast_one, div_one, div_right_comm]
    · rw [zero_div]

/-- **C117, energy losses.** Each bin of the energy-loss profiles (energy lost to the electrons or to the nuclei, per ion
and length), differs from the ions' average of the mean loss in the bin by `ε` or more with probability at most
the average variance (which is finite) over `nε²`. -/
theorem C117_losses (rcpr : Rcpr ℝ) (fuel : ℕ) (cfg : OutputConfig ℝ) (mat : Material ℝ) (o : Options ℝ)
    (splits : List Split) (inputs : List (ParticleInput ℝ)) (hne : inputs ≠ []) {g : GridOptions ℝ}
    (hgrid : cfg.grid = some g) (hg : GoodGrid g) (htrack : o.track_energy_losses = true) (i : ℕ) (hi : i < g.x_num)
    (next : List (Fin inputs.length × List α × List (Particle ℝ)) → Thread × Fin inputs.length)
    (hnext : EachOnce next) (ε : ℝ) (hε : 0 < ε) :
    ∀ (profile : Distributions ℝ → List ℝ) (kind : EnergyLoss ℝ → ℝ),
      ((profile = fun d => d.electronic_energy_loss_x) ∧ (kind = fun l => l.Ee) ∨
       (profile = fun d => d.nuclear_energy_loss_x) ∧ (kind = fun l => l.En)) →
    (∀ l : Fin inputs.length, FiniteVariance μ value (simulation rcpr fuel mat o inputs[l])
      (lossIn g cfg.units 1 i kind)) ∧
    threadStreams Thread μ {ω | ∃ h tapes s d x,
        Execution value (fun i => simulation rcpr fuel mat o inputs[i]) next [] ω h ∧ Given value h tapes ∧
        physics_loop_run rcpr fuel cfg mat o splits tapes inputs = .ok s ∧
        s.distributions = some d ∧ (profile d)[i]? = some x ∧
        ε ≤ |x - (∑ l : Fin inputs.length, meanOf μ value (simulation rcpr fuel mat o inputs[l])
          (lossIn g cfg.units 1 i kind))/inputs.length|} ≤
      ENNReal.ofReal ((∑ l : Fin inputs.length, varianceOf μ value (simulation rcpr fuel mat o inputs[l])
          (lossIn g cfg.units 1 i kind))/inputs.length/(inputs.length*ε^2)) := by
  intro profile kind hcase
  have e : totalOf (fun p => lossIn g cfg.units 1 i kind [p]) = lossIn g cfg.units 1 i kind := by
    funext ps
    rw [lossIn_total g cfg.units 1, Nat.cast_one, div_one]
  have hmain := C116_run (Thread := Thread) μ value rcpr fuel cfg mat o splits inputs hne
    (fun p => lossIn g cfg.units 1 i kind [p]) next hnext ε hε
  rw [e] at hmain
  refine ⟨hmain.1, (measure_mono ?_).trans hmain.2⟩
  rintro ω ⟨h, tapes, s, d, x, h1, h2, h3, h4, h5, h7⟩
  obtain ⟨d', hd, hh⟩ := run_histograms hgrid hg h3
  obtain rfl := Option.some.inj (h4.symm.trans hd)
  refine ⟨h, tapes, s, h1, h2, h3, ?_⟩
  have hx : x = lossIn g cfg.units 1 i kind s.processed/inputs.length := by
    rw [← e, ← lossIn_total]
    rcases hcase with ⟨rfl, rfl⟩ | ⟨rfl, rfl⟩
    · have := h5.symm.trans (hh.electronic i hi)
      rw [if_pos htrack] at this
      exact Option.some.inj this
    · have := h5.symm.trans (hh.nuclear i hi)
      rw [if_pos htrack] at this
      exact Option.some.inj this
  rw [← hx]
  exact h7

end
end RustBCA
