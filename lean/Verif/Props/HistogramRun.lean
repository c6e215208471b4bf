import Verif.Spec.HistogramRun
import Verif.Props.Histograms

/-!
# C102: the histograms of a whole run
-/

namespace RustBCA
open Scalar Spec

set_option linter.unusedSectionVars false
set_option linter.unusedSimpArgs false

theorem howMany_snoc {α : Type} (P : α → Prop) (l : List α) (a : α) [Decidable (P a)] :
    howMany P (l ++ [a]) = howMany P l + (if P a then 1 else 0) := by
  classical
  unfold howMany
  rw [List.countP_append, List.countP_singleton]
  by_cases h : P a <;> simp [h]

/-- One count in a one-dimensional histogram, cell by cell. -/
theorem hist_after_cell (a b v : ℝ) (m : Nat) (k : ℤ) (hg : GoodAxis a b m) (h : List Nat)
    (hl : h.length = m) (hk : Distributions.bin_trunc (linspace a b m) v = .ok k) (i c : Nat)
    (hc : h[i]? = some c) [Decidable (InBin a b m i v)] :
    (hist_after h m k)[i]? = some (c + (if InBin a b m i v then 1 else 0)) := by
  have key := bin_trunc_cell a b m hg v k hk i
  rcases hist_after_cases hl k with ⟨g1, x, hx, g2⟩ | ⟨g1, g2⟩
  · rw [g2, List.getElem?_set]
    by_cases hi : k.toNat = i
    · have : InBin a b m i v := key.2 ⟨g1, hi⟩
      rw [if_pos hi, if_pos this]
      rw [hi, hc] at hx
      obtain rfl := Option.some.inj hx
      have := (List.getElem?_eq_some_iff.1 hc).1
      rw [hi, if_pos this]
    · have : ¬ InBin a b m i v := fun hb => hi (key.1 hb).2
      rw [if_neg hi, if_neg this, hc, add_zero]
  · have : ¬ InBin a b m i v := fun hb => by
      have := (key.1 hb).1; rw [g1] at this; simp at this
    rw [g2, if_neg this, hc, add_zero]

/-- One count in an energy-angle histogram, cell by cell. -/
theorem ead_after_cell (o : GridOptions ℝ) (ho : GoodGrid o) (v w : ℝ) (ei ai : ℤ)
    (he : Distributions.bin_floor (linspace o.energy_min o.energy_max o.energy_num) v = .ok ei)
    (ha : Distributions.bin_floor (linspace o.angle_min o.angle_max o.angle_num) w = .ok ai)
    (m : List (List Nat))
    (hm : m.length = o.energy_num ∧ ∀ r ∈ m, r.length = o.angle_num) (i j c : Nat)
    (hc : ∃ row, m[i]? = some row ∧ row[j]? = some c)
    [Decidable (InCell o.energy_min o.energy_max o.energy_num i v ∧
      InCell o.angle_min o.angle_max o.angle_num j w)] :
    ∃ row, (ead_after m o.energy_num o.angle_num ei ai)[i]? = some row ∧
      row[j]? = some (c + (if InCell o.energy_min o.energy_max o.energy_num i v ∧
        InCell o.angle_min o.angle_max o.angle_num j w then 1 else 0)) := by
  have ke := bin_floor_cell _ _ _ ho.energy v ei he i
  have ka := bin_floor_cell _ _ _ ho.angle w ai ha j
  obtain ⟨row, hrow, hcj⟩ := hc
  rcases ead_after_cases ei ai hm with ⟨g1, g2, r, r', hr, ⟨x, hx, hr'⟩, g3⟩ | ⟨g1, g2⟩
  · rw [g3, List.getElem?_set]
    by_cases hi : ei.toNat = i
    · have hlen := (List.getElem?_eq_some_iff.1 hrow).1
      rw [if_pos hi, hi, if_pos hlen]
      rw [hi, hrow] at hr
      obtain rfl := Option.some.inj hr
      refine ⟨r', rfl, ?_⟩
      rw [hr', List.getElem?_set]
      by_cases hj : ai.toNat = j
      · have hlen' := (List.getElem?_eq_some_iff.1 hcj).1
        rw [if_pos hj, hj, if_pos hlen', if_pos ⟨ke.2 ⟨g1, hi⟩, ka.2 ⟨g2, hj⟩⟩]
        rw [hj, hcj] at hx
        obtain rfl := Option.some.inj hx
        rfl
      · rw [if_neg hj, if_neg (fun hb => hj (ka.1 hb.2).2), hcj, add_zero]
    · rw [if_neg hi, if_neg (fun hb => hi (ke.1 hb.1).2)]
      exact ⟨row, hrow, by rw [hcj, add_zero]⟩
  · rw [g2, if_neg (fun hb => g1 ⟨(ke.1 hb.1).1, (ka.1 hb.2).1⟩)]
    exact ⟨row, hrow, by rw [hcj, add_zero]⟩

open Classical in
/-- One recorded loss, cell by cell. -/
theorem update_loss_cell (o : GridOptions ℝ) (ho : GoodGrid o) (d d' : Distributions ℝ)
    (hd : OnGrid o d) (l : EnergyLoss ℝ) (u : OutputUnits ℝ) (n : Nat)
    (h : d.update_loss u n l = .ok d') :
    OnGrid o d' ∧
    (∀ i x, d.electronic_energy_loss_x[i]? = some x → d'.electronic_energy_loss_x[i]? =
      some (x + if InBin o.x_min o.x_max o.x_num i (l.x/u.length_unit) then
        l.Ee/u.energy_unit/n/((o.x_max - o.x_min)/(o.x_num - 1)) else 0)) ∧
    (∀ i x, d.nuclear_energy_loss_x[i]? = some x → d'.nuclear_energy_loss_x[i]? =
      some (x + if InBin o.x_min o.x_max o.x_num i (l.x/u.length_unit) then
        l.En/u.energy_unit/n/((o.x_max - o.x_min)/(o.x_num - 1)) else 0)) := by
  obtain ⟨d2, h2, h3, h4, h5⟩ := C55_energy_loss_cell_partial o ho d hd l u n
  rw [h] at h2
  obtain rfl := Except.ok.inj h2
  have hx : d.x_range.length = o.x_num := by rw [hd.x_range, linspace_length]
  obtain ⟨k, hk⟩ := bin_trunc_ok d.x_range (l.x/u.length_unit) (by rw [hx]; exact ho.x.2.1)
  have key := bin_trunc_cell _ _ _ ho.x (l.x/u.length_unit) k (by rw [← hd.x_range]; exact hk)
  have uniq : ∀ i j, InBin o.x_min o.x_max o.x_num i (l.x/u.length_unit) →
      InBin o.x_min o.x_max o.x_num j (l.x/u.length_unit) → i = j :=
    fun i j hi hj => ((key i).1 hi).2.symm.trans ((key j).1 hj).2
  refine ⟨h3, ?_⟩
  by_cases hex : ∃ i, InBin o.x_min o.x_max o.x_num i (l.x/u.length_unit)
  · obtain ⟨i0, hi0⟩ := hex
    obtain ⟨⟨x1, a1, a2⟩, x2, b1, b2⟩ := h4 i0 hi0
    constructor
    · intro i x hix
      rw [a2, List.getElem?_set]
      by_cases hi : i0 = i
      · subst hi
        rw [a1] at hix; obtain rfl := Option.some.inj hix
        rw [if_pos rfl, if_pos (List.getElem?_eq_some_iff.1 a1).1, if_pos hi0]
      · rw [if_neg hi, if_neg (fun hb => hi (uniq _ _ hi0 hb)), hix, add_zero]
    · intro i x hix
      rw [b2, List.getElem?_set]
      by_cases hi : i0 = i
      · subst hi
        rw [b1] at hix; obtain rfl := Option.some.inj hix
        rw [if_pos rfl, if_pos (List.getElem?_eq_some_iff.1 b1).1, if_pos hi0]
      · rw [if_neg hi, if_neg (fun hb => hi (uniq _ _ hi0 hb)), hix, add_zero]
  · rw [h5 hex]
    constructor <;>
    · intro i x hix
      rw [if_neg (fun hb => hex ⟨i, hb⟩), hix, add_zero]

open Classical in
/-- The losses of one particle, cell by cell. -/
noncomputable def lossesIn (o : GridOptions ℝ) (u : OutputUnits ℝ) (n i : Nat)
    (kind : EnergyLoss ℝ → ℝ) (ls : List (EnergyLoss ℝ)) : ℝ :=
  ((ls.filter (fun l => decide (InBin o.x_min o.x_max o.x_num i (l.x/u.length_unit)))).map
    (fun l => kind l/u.energy_unit/n/((o.x_max - o.x_min)/(o.x_num - 1)))).sum

open Classical in
theorem lossesIn_cons (o : GridOptions ℝ) (u : OutputUnits ℝ) (n i : Nat)
    (kind : EnergyLoss ℝ → ℝ) (l : EnergyLoss ℝ) (ls : List (EnergyLoss ℝ)) :
    lossesIn o u n i kind (l :: ls) =
      (if InBin o.x_min o.x_max o.x_num i (l.x/u.length_unit) then
        kind l/u.energy_unit/n/((o.x_max - o.x_min)/(o.x_num - 1)) else 0) +
      lossesIn o u n i kind ls := by
  unfold lossesIn
  by_cases h : InBin o.x_min o.x_max o.x_num i (l.x/u.length_unit)
  · rw [List.filter_cons_of_pos (by simpa using h), if_pos h, List.map_cons, List.sum_cons]
  · rw [List.filter_cons_of_neg (by simpa using h), if_neg h, zero_add]

theorem lossesIn_append (o : GridOptions ℝ) (u : OutputUnits ℝ) (n i : Nat)
    (kind : EnergyLoss ℝ → ℝ) (l ls : List (EnergyLoss ℝ)) :
    lossesIn o u n i kind (l ++ ls) = lossesIn o u n i kind l + lossesIn o u n i kind ls := by
  unfold lossesIn
  rw [List.filter_append, List.map_append, List.sum_append]

theorem lossIn_snoc (o : GridOptions ℝ) (u : OutputUnits ℝ) (n i : Nat)
    (kind : EnergyLoss ℝ → ℝ) (ps : List (Particle ℝ)) (p : Particle ℝ) :
    lossIn o u n i kind (ps ++ [p]) = lossIn o u n i kind ps +
      (if p.incident then lossesIn o u n i kind p.energies else 0) := by
  show lossesIn o u n i kind _ = lossesIn o u n i kind _ + _
  rw [List.filter_append, List.flatMap_append, lossesIn_append]
  congr 1
  cases hp : p.incident <;> simp [hp, lossesIn]

theorem losses_cell (o : GridOptions ℝ) (ho : GoodGrid o) (u : OutputUnits ℝ) (n : Nat)
    (ls : List (EnergyLoss ℝ)) : ∀ (d d' : Distributions ℝ), OnGrid o d →
    forFold (Distributions.update_loss u n) ls d = .ok d' →
    OnGrid o d' ∧
    (∀ i x, d.electronic_energy_loss_x[i]? = some x → d'.electronic_energy_loss_x[i]? =
      some (x + lossesIn o u n i (·.Ee) ls)) ∧
    (∀ i x, d.nuclear_energy_loss_x[i]? = some x → d'.nuclear_energy_loss_x[i]? =
      some (x + lossesIn o u n i (·.En) ls)) := by
  induction ls with
  | nil =>
    intro d d' hd h
    obtain rfl : d = d' := by simpa [forFold, pure, Except.pure] using h
    exact ⟨hd, fun i x hx => by simpa [lossesIn] using hx, fun i x hx => by simpa [lossesIn] using hx⟩
  | cons l ls ih =>
    intro d d' hd h
    obtain ⟨m, h1, h2⟩ := forFold_ok_cons.1 h
    obtain ⟨a1, a2, a3⟩ := update_loss_cell o ho d m hd l u n h1
    obtain ⟨b1, b2, b3⟩ := ih m d' a1 h2
    refine ⟨b1, fun i x hx => ?_, fun i x hx => ?_⟩
    · rw [b2 i _ (a2 i x hx), lossesIn_cons, add_assoc]
    · rw [b3 i _ (a3 i x hx), lossesIn_cons, add_assoc]

/-- One more particle. -/
theorem histograms_snoc (o : GridOptions ℝ) (ho : GoodGrid o) (u : OutputUnits ℝ) (track : Bool)
    (n : Nat) (ps : List (Particle ℝ)) (p : Particle ℝ) (d d' : Distributions ℝ)
    (hd : HistogramsOf o u track n ps d) (h : d.update p u track n = .ok d') :
    HistogramsOf o u track n (ps ++ [p]) d' := by
  classical
  have hg := hd.on_grid
  obtain ⟨dd, ei, ai, xi, yi, zi, h1, h2, he, ha, hx, hy, hz, b1, b2, b3, b4, b5⟩ :=
    update_facts ho.two u n track d hg p
  rw [h] at h1; obtain rfl := Except.ok.inj h1
  rw [hg.energies, (C54_emission_angle p u).1] at he
  rw [hg.angles] at ha
  rw [hg.x_range] at hx
  rw [hg.y_range] at hy
  rw [hg.z_range] at hz
  have ead : ∀ (c : Bool) (m m' : List (List Nat)),
      (m.length = o.energy_num ∧ ∀ r ∈ m, r.length = o.angle_num) →
      m' = (if c = true then ead_after m o.energy_num o.angle_num ei ai else m) →
      ∀ i j k, (∃ row, m[i]? = some row ∧ row[j]? = some k) →
      ∃ row, m'[i]? = some row ∧ row[j]? = some (k + if c = true ∧ EmittedIn o u i j p then 1 else 0) := by
    intro c m m' hm e i j k hk
    by_cases hc : c = true
    · rw [e, if_pos hc]
      obtain ⟨row, r1, r2⟩ := ead_after_cell o ho _ _ ei ai he ha m hm i j k hk
      refine ⟨row, r1, r2.trans ?_⟩
      by_cases hE : EmittedIn o u i j p
      · rw [if_pos (show _ ∧ _ from hE), if_pos ⟨hc, hE⟩]
      · rw [if_neg (show ¬ (_ ∧ _) from hE), if_neg (fun hb => hE hb.2)]
    · rw [e, if_neg hc, if_neg (fun hb => hc hb.1)]
      simpa using hk
  have imp : ∀ (a b v : ℝ) (m : Nat) (k : ℤ) (hs hs' : List Nat), GoodAxis a b m → hs.length = m →
      Distributions.bin_trunc (linspace a b m) v = .ok k →
      hs' = (if (p.incident && p.stopped) = true then hist_after hs m k else hs) →
      ∀ i c, hs[i]? = some c → hs'[i]? = some (c +
        if p.incident = true ∧ p.stopped = true ∧ InBin a b m i v then 1 else 0) := by
    intro a b v m k hs hs' hga hl hk e i c hc
    by_cases hcc : (p.incident && p.stopped) = true
    · rw [e, if_pos hcc, hist_after_cell a b v m k hga hs hl hk i c hc]
      rw [Bool.and_eq_true] at hcc
      by_cases hb : InBin a b m i v
      · rw [if_pos hb, if_pos ⟨hcc.1, hcc.2, hb⟩]
      · rw [if_neg hb, if_neg (fun hb' => hb hb'.2.2)]
    · rw [e, if_neg hcc, if_neg (fun hb => hcc (by rw [hb.1, hb.2.1]; rfl)), hc, add_zero]
  obtain ⟨d1, _, _, _, _, _, g1, -, -, -, -, -, l1, l2, -, -, -, -, -, hup⟩ :=
    update_stage ho.two u n track d hg p
  rw [h] at hup
  have loss : (∀ i x, d.electronic_energy_loss_x[i]? = some x → d'.electronic_energy_loss_x[i]? =
        some (x + if track = true ∧ p.incident = true then lossesIn o u n i (·.Ee) p.energies else 0)) ∧
      (∀ i x, d.nuclear_energy_loss_x[i]? = some x → d'.nuclear_energy_loss_x[i]? =
        some (x + if track = true ∧ p.incident = true then lossesIn o u n i (·.En) p.energies else 0)) := by
    by_cases hc : track = true ∧ p.incident = true
    · rw [if_pos (by rw [hc.1, hc.2]; rfl)] at hup
      obtain ⟨-, c1, c2⟩ := losses_cell o ho u n p.energies d1 d' g1 hup.symm
      rw [l1] at c1
      rw [l2] at c2
      simp only [if_pos hc]
      exact ⟨c1, c2⟩
    · rw [if_neg (by simpa using hc)] at hup
      obtain rfl := Except.ok.inj hup
      simp only [if_neg hc, add_zero]
      rw [l1, l2]
      exact ⟨fun _ _ h => h, fun _ _ h => h⟩
  refine ⟨h2, ?_, ?_, ?_, ?_, ?_, ?_, ?_⟩
  · intro i j hi hj
    obtain ⟨row, r1, r2⟩ := ead _ _ _ hg.reflected_ead b1 i j _ (hd.reflected i j hi hj)
    refine ⟨row, r1, ?_⟩
    rw [r2, howMany_snoc]
    simp only [Bool.and_eq_true, and_assoc]
  · intro i j hi hj
    obtain ⟨row, r1, r2⟩ := ead _ _ _ hg.sputtered_ead b2 i j _ (hd.sputtered i j hi hj)
    refine ⟨row, r1, ?_⟩
    rw [r2, howMany_snoc]
    simp only [Bool.and_eq_true, and_assoc, Bool.not_eq_true']
  · intro i hi
    rw [imp _ _ _ _ _ _ _ ho.x hg.implanted_x hx b3 i _ (hd.implanted_x i hi), howMany_snoc]
  · intro i hi
    rw [imp _ _ _ _ _ _ _ ho.y hg.implanted_y hy b4 i _ (hd.implanted_y i hi), howMany_snoc]
  · intro i hi
    rw [imp _ _ _ _ _ _ _ ho.z hg.implanted_z hz b5 i _ (hd.implanted_z i hi), howMany_snoc]
  · intro i hi
    rw [loss.1 i _ (hd.electronic i hi), lossIn_snoc]
    cases track <;> cases p.incident <;> simp
  · intro i hi
    rw [loss.2 i _ (hd.nuclear i hi), lossIn_snoc]
    cases track <;> cases p.incident <;> simp

/-- Before the first particle. -/
theorem histograms_new (o : GridOptions ℝ) (ho : GoodGrid o) (u : OutputUnits ℝ) (track : Bool)
    (n : Nat) : HistogramsOf o u track n [] (Distributions.new o) := by
  have h0 : (0.0:ℝ) = 0 := by norm_num
  refine ⟨(C55_never_out_of_range o ho.two).1, ?_, ?_, ?_, ?_, ?_, ?_, ?_⟩
  · intro i j hi hj
    exact ⟨List.replicate o.angle_num 0, by simp [Distributions.new, hi], by simp [hj, howMany]⟩
  · intro i j hi hj
    exact ⟨List.replicate o.angle_num 0, by simp [Distributions.new, hi], by simp [hj, howMany]⟩
  · intro i hi; simp [Distributions.new, hi, howMany]
  · intro i hi; simp [Distributions.new, hi, howMany]
  · intro i hi; simp [Distributions.new, hi, howMany]
  · intro i hi; simp [Distributions.new, hi, lossIn, h0]
  · intro i hi; simp [Distributions.new, hi, lossIn, h0]

theorem histograms_all {cfg : OutputConfig ℝ} {options : Options ℝ} {n : Nat} (o : GridOptions ℝ)
    (ho : GoodGrid o) (ps : List (Particle ℝ)) : ∀ (s s' : RunState ℝ) (d : Distributions ℝ),
    s.distributions = some d →
    HistogramsOf o cfg.units options.track_energy_losses n s.processed d →
    forFold (process_particle cfg options n) ps s = .ok s' →
    ∃ d', s'.distributions = some d' ∧
      HistogramsOf o cfg.units options.track_energy_losses n s'.processed d' := by
  induction ps with
  | nil =>
    intro s s' d hs hd h
    obtain rfl : s = s' := by simpa [forFold, pure, Except.pure] using h
    exact ⟨d, hs, hd⟩
  | cons p ps ih =>
    intro s s' d hs hd h
    obtain ⟨m, h1, h2⟩ := forFold_ok_cons.1 h
    obtain ⟨a1, -, a3, -⟩ := process_particle_ok h1
    rw [hs] at a3
    obtain ⟨d', b1, b2⟩ := a3
    refine ih m s' d' b2 ?_ h2
    rw [a1]
    exact histograms_snoc o ho cfg.units _ n _ p d d' hd b1

/-- **C102** The histograms of a run that finishes are the histograms of exactly the particles of
all the ions' cascades (one cascade per ion): every cell counts the particles whose values belong to
it, however the ions were split into chunks and over threads. -/
theorem C102_histograms {α : Type} {cfg : OutputConfig ℝ} {options : Options ℝ}
    {sim : α → Res (List (Particle ℝ))} {splits : List Split} {ions : List α} {s : RunState ℝ}
    (run : physics_loop cfg options sim splits ions = .ok s) {o : GridOptions ℝ}
    (hgrid : cfg.grid = some o) (ho : GoodGrid o) :
    ∃ outs d, Simulated sim ions outs ∧ s.processed = outs.flatten ∧ s.distributions = some d ∧
      HistogramsOf o cfg.units options.track_energy_losses ions.length outs.flatten d := by
  obtain ⟨h1, h2, h3⟩ := physics_loop_ok.1 run
  obtain ⟨ps, t', h4, h5, hv⟩ := chunks_to_one _ h3 (SameView.refl _)
  rw [withSplits_fst, (C47_chunks_partition _ h2 ions).1] at h4
  obtain ⟨outs, hout, rfl⟩ := (seq_collect_ok _ _ _).1 h4
  have hp : s.processed = outs.flatten := by
    rw [← hv.processed, forFold_processed _ h5]; simp
  obtain ⟨d, e1, e2⟩ := histograms_all (cfg := cfg) (options := options) (n := ions.length) o ho _ _ _
    (Distributions.new o) (by rw [hgrid]; rfl)
    (histograms_new o ho cfg.units options.track_energy_losses ions.length) h5
  refine ⟨outs, d, hout, hp, ?_, ?_⟩
  · rw [← hv.distributions]; exact e1
  · rw [← hp, ← hv.processed]; exact e2

end RustBCA
