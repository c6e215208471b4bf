import Verif.Props.Output
import Verif.Spec.Histograms
import Mathlib.Analysis.SpecialFunctions.Complex.Arg
import Mathlib.Tactic.Linarith
import Mathlib.Tactic.FieldSimp
import Mathlib.Tactic.Positivity

/-!
# Emission angles and histograms (C54, C55)
-/

set_option linter.unusedSectionVars false
set_option linter.unusedVariables false
set_option linter.unusedSimpArgs false

namespace RustBCA
open Scalar Spec

/-! ## C54 -/

/-- **C54** The reported angle lies between 0 and 180 degrees, and for a unit direction its cosine is
the component of the direction along the outward normal `-x`: it is the emission angle.  The
reported energy is the particle's energy in the output unit. -/
theorem C54_emission_angle (p : Particle ℝ) (u : OutputUnits ℝ) :
    let ea := energy_angle_from_particle p u
    ea.1 = p.E/u.energy_unit ∧ 0 ≤ ea.2 ∧ ea.2 ≤ 180 ∧
    (p.dir.x^2 + p.dir.y^2 + p.dir.z^2 = 1 → Real.cos (ea.2 * Real.pi/180) = -p.dir.x) := by
  have h180 : (180.0:ℝ) = 180 := by norm_num
  simp only [energy_angle_from_particle, powi_real, sqrt_real, atan2_real, pi_real, h180]
  have hy : 0 ≤ Real.sqrt (p.dir.y^(2:ℤ) + p.dir.z^(2:ℤ)) := Real.sqrt_nonneg _
  set z : ℂ := ⟨-p.dir.x, Real.sqrt (p.dir.y^(2:ℤ) + p.dir.z^(2:ℤ))⟩ with hz
  have h0 : 0 ≤ z.arg := Complex.arg_nonneg_iff.2 hy
  have h1 : z.arg ≤ Real.pi := Complex.arg_le_pi z
  have hpi := Real.pi_pos
  refine ⟨trivial, by positivity, ?_, ?_⟩
  · rw [div_le_iff₀ hpi]; nlinarith
  · intro hu
    have : z.arg*180/Real.pi*Real.pi/180 = z.arg := by field_simp
    rw [this]
    have hsq : Real.sqrt (p.dir.y^(2:ℤ) + p.dir.z^(2:ℤ))^2 = p.dir.y^2 + p.dir.z^2 := by
      rw [Real.sq_sqrt]
      · norm_cast
      · positivity
    have hn : ‖z‖ = 1 := by
      have : Complex.normSq z = 1 := by
        rw [Complex.normSq_apply, hz]
        simp only
        nlinarith [hsq]
      rw [Complex.norm_def, this, Real.sqrt_one]
    have hz0 : z ≠ 0 := by
      intro e; rw [e] at hn; simp at hn
    rw [Complex.cos_arg hz0, hn, div_one]

/-- **C54** the angle depends on the direction alone: 0 along `-x`, 180 along `+x`, 90 along the
surface. -/
theorem C54_cardinal (p : Particle ℝ) (u : OutputUnits ℝ) :
    (p.dir = ⟨-1, 0, 0⟩ → (energy_angle_from_particle p u).2 = 0) ∧
    (p.dir = ⟨1, 0, 0⟩ → (energy_angle_from_particle p u).2 = 180) ∧
    (p.dir = ⟨0, 1, 0⟩ → (energy_angle_from_particle p u).2 = 90) := by
  have h180 : (180.0:ℝ) = 180 := by norm_num
  have hpi := Real.pi_pos.ne'
  have e2 : ((0:ℝ)^(2:ℤ)) = 0 := by norm_num
  have e1 : ((1:ℝ)^(2:ℤ)) = 1 := by norm_num
  refine ⟨?_, ?_, ?_⟩ <;> intro h <;>
    simp only [energy_angle_from_particle, powi_real, sqrt_real, atan2_real, pi_real, h180, h, e1,
      e2, add_zero, Real.sqrt_zero, Real.sqrt_one, neg_neg, neg_zero]
  · have : (⟨1, 0⟩ : ℂ) = 1 := rfl
    rw [this, Complex.arg_one]; simp
  · have : (⟨-1, 0⟩ : ℂ) = -1 := by apply Complex.ext <;> simp
    rw [this, Complex.arg_neg_one]; field_simp
  · have : (⟨0, 1⟩ : ℂ) = Complex.I := rfl
    rw [this, Complex.arg_I]; field_simp; norm_num

/-! ## C55 -/

section
variable {F : Type} [Scalar F]

theorem linspace_length (a b : F) (n : Nat) : (linspace a b n).length = n := by
  simp [linspace]

theorem vget_of_lt {α : Type} (v : List α) (i : Nat) (h : i < v.length) : vget v i = .ok v[i] := by
  unfold vget; rw [List.getElem?_eq_getElem h]

theorem bump_ok {α : Type} (h : List α) (i : Int) (g : α → α) (n : Nat) (hn : h.length = n) :
    Distributions.bump (Distributions.index_inside i n) h i g =
      .ok (if Distributions.index_inside i n then h.modify i.toNat g else h) := by
  unfold Distributions.bump
  split
  · rename_i hin
    simp only [Distributions.index_inside, Bool.and_eq_true, decide_eq_true_eq] at hin
    exact vmodify_ok _ _ _ (by omega)
  · rfl

theorem vmodify2_ok {α : Type} (m : List (List α)) (i j : Nat) (g : α → α) (hi : i < m.length)
    (hj : ∀ r ∈ m, j < r.length) :
    vmodify2 m i j g = .ok (m.set i (m[i].modify j g)) := by
  unfold vmodify2
  rw [List.getElem?_eq_getElem hi]
  simp only [vmodify_ok _ _ _ (hj _ (List.getElem_mem hi)), bind, Except.bind, pure, Except.pure]

theorem bin_floor_ok (range : List F) (v : F) (h : 2 ≤ range.length) :
    ∃ i, Distributions.bin_floor range v = .ok i := by
  unfold Distributions.bin_floor
  rw [vget_of_lt _ 1 (by omega), vget_of_lt _ 0 (by omega)]
  exact ⟨_, rfl⟩

theorem bin_trunc_ok (range : List F) (v : F) (h : 2 ≤ range.length) :
    ∃ i, Distributions.bin_trunc range v = .ok i := by
  unfold Distributions.bin_trunc
  rw [vget_of_lt _ 1 (by omega), vget_of_lt _ 0 (by omega)]
  exact ⟨_, rfl⟩

/-- One recorded energy loss: only the two energy-loss histograms change. -/
theorem update_loss_ok {o : GridOptions F} (ho : TwoPoints o) (u : OutputUnits F) (n : Nat)
    (d : Distributions F) (hd : OnGrid o d) (l : EnergyLoss F) :
    ∃ d', d.update_loss u n l = .ok d' ∧ OnGrid o d' ∧
      d'.reflected_ead = d.reflected_ead ∧ d'.sputtered_ead = d.sputtered_ead ∧
      d'.implanted_x = d.implanted_x ∧ d'.implanted_y = d.implanted_y ∧
      d'.implanted_z = d.implanted_z := by
  have hx : d.x_range.length = o.x_num := by rw [hd.x_range, linspace_length]
  have h2 : 2 ≤ d.x_range.length := by rw [hx]; exact ho.x
  unfold Distributions.update_loss
  obtain ⟨i, hi⟩ := bin_trunc_ok d.x_range (l.x/u.length_unit) h2
  simp only [vget_of_lt _ 1 (show 1 < d.x_range.length by omega),
    vget_of_lt _ 0 (show 0 < d.x_range.length by omega), bind, Except.bind, pure, Except.pure, hi,
    bump_ok _ _ _ _ (hd.electronic_energy_loss_x.trans hx.symm),
    bump_ok _ _ _ _ (hd.nuclear_energy_loss_x.trans hx.symm)]
  refine ⟨_, rfl, ?_, rfl, rfl, rfl, rfl, rfl⟩
  refine { hd with electronic_energy_loss_x := ?_, nuclear_energy_loss_x := ?_ }
  · dsimp only; split
    · rw [List.length_modify]; exact hd.electronic_energy_loss_x
    · exact hd.electronic_energy_loss_x
  · dsimp only; split
    · rw [List.length_modify]; exact hd.nuclear_energy_loss_x
    · exact hd.nuclear_energy_loss_x

theorem update_losses_ok {o : GridOptions F} (ho : TwoPoints o) (u : OutputUnits F) (n : Nat)
    (ls : List (EnergyLoss F)) : ∀ (d : Distributions F), OnGrid o d →
    ∃ d', forFold (Distributions.update_loss u n) ls d = .ok d' ∧ OnGrid o d' ∧
      d'.reflected_ead = d.reflected_ead ∧ d'.sputtered_ead = d.sputtered_ead ∧
      d'.implanted_x = d.implanted_x ∧ d'.implanted_y = d.implanted_y ∧
      d'.implanted_z = d.implanted_z := by
  induction ls with
  | nil => exact fun d hd => ⟨d, rfl, hd, rfl, rfl, rfl, rfl, rfl⟩
  | cons l ls ih =>
    intro d hd
    obtain ⟨m, h1, hm, a1, a2, a3, a4, a5⟩ := update_loss_ok ho u n d hd l
    obtain ⟨d', h2, hd', b1, b2, b3, b4, b5⟩ := ih m hm
    exact ⟨d', forFold_ok_cons.2 ⟨m, h1, h2⟩, hd', b1.trans a1, b2.trans a2, b3.trans a3,
      b4.trans a4, b5.trans a5⟩

/-- The effect of a (possible) count in an energy-angle histogram. -/
def ead_after (m : List (List Nat)) (ne na : Nat) (ei ai : Int) : List (List Nat) :=
  if Distributions.index_inside ei ne && Distributions.index_inside ai na then
    m.set ei.toNat ((m.getD ei.toNat []).modify ai.toNat (· + 1)) else m

theorem ead_stage (d : Distributions F) (m : List (List Nat)) (ne na : Nat) (ei ai : Int)
    (hm : m.length = ne ∧ ∀ r ∈ m, r.length = na) (k : List (List Nat) → Distributions F)
    (hk : k m = d) :
    (if Distributions.index_inside ei ne && Distributions.index_inside ai na then do
        let m ← vmodify2 m ei.toNat ai.toNat (· + 1)
        pure (k m)
      else pure d : Res (Distributions F)) = .ok (k (ead_after m ne na ei ai)) := by
  unfold ead_after
  split
  · rename_i h
    simp only [Distributions.index_inside, Bool.and_eq_true, decide_eq_true_eq] at h
    have hi : ei.toNat < m.length := by omega
    rw [vmodify2_ok _ _ _ _ hi (fun r hr => by rw [hm.2 r hr]; omega)]
    simp only [bind, Except.bind, pure, Except.pure]
    rw [List.getD_eq_getElem?_getD, List.getElem?_eq_getElem hi]; rfl
  · rw [hk]; rfl

theorem ead_after_sized {m : List (List Nat)} {ne na : Nat} (ei ai : Int)
    (hm : m.length = ne ∧ ∀ r ∈ m, r.length = na) :
    (ead_after m ne na ei ai).length = ne ∧ ∀ r ∈ ead_after m ne na ei ai, r.length = na := by
  unfold ead_after
  split
  · rename_i h
    simp only [Distributions.index_inside, Bool.and_eq_true, decide_eq_true_eq] at h
    have hi : ei.toNat < m.length := by omega
    refine ⟨by simp [hm.1], fun r hr => ?_⟩
    rcases List.mem_or_eq_of_mem_set hr with hr | rfl
    · exact hm.2 r hr
    · rw [List.length_modify, List.getD_eq_getElem?_getD, List.getElem?_eq_getElem hi]
      exact hm.2 _ (List.getElem_mem hi)
  · exact hm

/-- A (possible) count in a one-dimensional histogram. -/
def hist_after (h : List Nat) (n : Nat) (i : Int) : List Nat :=
  if Distributions.index_inside i n then h.modify i.toNat (· + 1) else h

/-- `update` counts the particle, then records its energy losses. -/
theorem update_stage {o : GridOptions F} (ho : TwoPoints o) (u : OutputUnits F) (n : Nat)
    (track : Bool) (d : Distributions F) (hd : OnGrid o d) (p : Particle F) :
    ∃ d1 ei ai xi yi zi, OnGrid o d1 ∧
      Distributions.bin_floor d.energies (energy_angle_from_particle p u).1 = .ok ei ∧
      Distributions.bin_floor d.angles (energy_angle_from_particle p u).2 = .ok ai ∧
      Distributions.bin_trunc d.x_range (p.pos.x/u.length_unit) = .ok xi ∧
      Distributions.bin_trunc d.y_range (p.pos.y/u.length_unit) = .ok yi ∧
      Distributions.bin_trunc d.z_range (p.pos.z/u.length_unit) = .ok zi ∧
      d1.electronic_energy_loss_x = d.electronic_energy_loss_x ∧
      d1.nuclear_energy_loss_x = d.nuclear_energy_loss_x ∧
      d1.reflected_ead = (if p.incident && p.left then
        ead_after d.reflected_ead o.energy_num o.angle_num ei ai else d.reflected_ead) ∧
      d1.sputtered_ead = (if !p.incident && p.left then
        ead_after d.sputtered_ead o.energy_num o.angle_num ei ai else d.sputtered_ead) ∧
      d1.implanted_x = (if p.incident && p.stopped then hist_after d.implanted_x o.x_num xi
        else d.implanted_x) ∧
      d1.implanted_y = (if p.incident && p.stopped then hist_after d.implanted_y o.y_num yi
        else d.implanted_y) ∧
      d1.implanted_z = (if p.incident && p.stopped then hist_after d.implanted_z o.z_num zi
        else d.implanted_z) ∧
      d.update p u track n = (if track && p.incident then
        forFold (Distributions.update_loss u n) p.energies d1 else pure d1) := by
  have le : d.energies.length = o.energy_num := by rw [hd.energies, linspace_length]
  have la : d.angles.length = o.angle_num := by rw [hd.angles, linspace_length]
  have lx : d.x_range.length = o.x_num := by rw [hd.x_range, linspace_length]
  have ly : d.y_range.length = o.y_num := by rw [hd.y_range, linspace_length]
  have lz : d.z_range.length = o.z_num := by rw [hd.z_range, linspace_length]
  obtain ⟨ei, hei⟩ := bin_floor_ok d.energies (energy_angle_from_particle p u).1
    (by rw [le]; exact ho.energy)
  obtain ⟨ai, hai⟩ := bin_floor_ok d.angles (energy_angle_from_particle p u).2
    (by rw [la]; exact ho.angle)
  obtain ⟨xi, hxi⟩ := bin_trunc_ok d.x_range (p.pos.x/u.length_unit) (by rw [lx]; exact ho.x)
  obtain ⟨yi, hyi⟩ := bin_trunc_ok d.y_range (p.pos.y/u.length_unit) (by rw [ly]; exact ho.y)
  obtain ⟨zi, hzi⟩ := bin_trunc_ok d.z_range (p.pos.z/u.length_unit) (by rw [lz]; exact ho.z)
  have stage : ∃ d1, OnGrid o d1 ∧
      d1.electronic_energy_loss_x = d.electronic_energy_loss_x ∧
      d1.nuclear_energy_loss_x = d.nuclear_energy_loss_x ∧
      d1.reflected_ead = (if p.incident && p.left then
        ead_after d.reflected_ead o.energy_num o.angle_num ei ai else d.reflected_ead) ∧
      d1.sputtered_ead = (if !p.incident && p.left then
        ead_after d.sputtered_ead o.energy_num o.angle_num ei ai else d.sputtered_ead) ∧
      d1.implanted_x = (if p.incident && p.stopped then hist_after d.implanted_x o.x_num xi
        else d.implanted_x) ∧
      d1.implanted_y = (if p.incident && p.stopped then hist_after d.implanted_y o.y_num yi
        else d.implanted_y) ∧
      d1.implanted_z = (if p.incident && p.stopped then hist_after d.implanted_z o.z_num zi
        else d.implanted_z) ∧
      d.update p u track n = (if track && p.incident then
        forFold (Distributions.update_loss u n) p.energies d1 else pure d1) := by
    unfold Distributions.update
    have okb : ∀ {α β : Type} (a : α) (f : α → Res β), ((Except.ok a : Res α) >>= f) = f a :=
      fun _ _ => rfl
    have purb : ∀ {α β : Type} (a : α) (f : α → Res β), ((pure a : Res α) >>= f) = f a :=
      fun _ _ => rfl
    have R := ead_stage d d.reflected_ead _ _ ei ai hd.reflected_ead
      (fun m => { d with reflected_ead := m }) rfl
    have S := ead_stage d d.sputtered_ead _ _ ei ai hd.sputtered_ead
      (fun m => { d with sputtered_ead := m }) rfl
    have X := bump_ok d.implanted_x xi (· + 1) _ hd.implanted_x
    have Y := bump_ok d.implanted_y yi (· + 1) _ hd.implanted_y
    have Z := bump_ok d.implanted_z zi (· + 1) _ hd.implanted_z
    have XR := bump_ok d.implanted_x xi (· + 1) _ hd.implanted_x
    have sz : ∀ (h : List Nat) (k : Nat) (i : Int), h.length = k → (hist_after h k i).length = k := by
      intro h k i hh; unfold hist_after; split
      · rw [List.length_modify, hh]
      · exact hh
    cases hi : p.incident <;> cases hl : p.left <;> cases hs : p.stopped <;>
      simp only [hei, hai, okb, purb, le, la, lx, ly, lz, R, S, X, Y, Z, hxi, hyi, hzi,
        Bool.and_true, Bool.and_false, Bool.not_true, Bool.not_false, if_true, if_false,
        Bool.false_eq_true, Bool.and_self]
    · exact ⟨_, hd, rfl, rfl, rfl, rfl, rfl, rfl, rfl, rfl⟩
    · exact ⟨_, hd, rfl, rfl, rfl, rfl, rfl, rfl, rfl, rfl⟩
    · exact ⟨{ d with
        sputtered_ead := ead_after d.sputtered_ead o.energy_num o.angle_num ei ai }, { hd with sputtered_ead := ead_after_sized ei ai hd.sputtered_ead },
        rfl, rfl, rfl, rfl, rfl, rfl, rfl, rfl⟩
    · exact ⟨{ d with
        sputtered_ead := ead_after d.sputtered_ead o.energy_num o.angle_num ei ai }, { hd with sputtered_ead := ead_after_sized ei ai hd.sputtered_ead },
        rfl, rfl, rfl, rfl, rfl, rfl, rfl, rfl⟩
    · exact ⟨_, hd, rfl, rfl, rfl, rfl, rfl, rfl, rfl, rfl⟩
    · refine ⟨{ d with
        implanted_x := hist_after d.implanted_x o.x_num xi
        implanted_y := hist_after d.implanted_y o.y_num yi
        implanted_z := hist_after d.implanted_z o.z_num zi }, ?_, rfl, rfl, rfl, rfl, rfl, rfl, rfl, rfl⟩
      exact { hd with
        implanted_x := sz _ _ _ hd.implanted_x
        implanted_y := sz _ _ _ hd.implanted_y
        implanted_z := sz _ _ _ hd.implanted_z }
    · exact ⟨{ d with
        reflected_ead := ead_after d.reflected_ead o.energy_num o.angle_num ei ai }, { hd with reflected_ead := ead_after_sized ei ai hd.reflected_ead },
        rfl, rfl, rfl, rfl, rfl, rfl, rfl, rfl⟩
    · refine ⟨{ d with
        reflected_ead := ead_after d.reflected_ead o.energy_num o.angle_num ei ai
        implanted_x := hist_after d.implanted_x o.x_num xi
        implanted_y := hist_after d.implanted_y o.y_num yi
        implanted_z := hist_after d.implanted_z o.z_num zi }, ?_, rfl, rfl, rfl, rfl, rfl, rfl, rfl, rfl⟩
      exact { hd with
        reflected_ead := ead_after_sized ei ai hd.reflected_ead
        implanted_x := sz _ _ _ hd.implanted_x
        implanted_y := sz _ _ _ hd.implanted_y
        implanted_z := sz _ _ _ hd.implanted_z }
  obtain ⟨d1, h1, l1, l2, a1, a2, a3, a4, a5, e⟩ := stage
  exact ⟨d1, ei, ai, xi, yi, zi, h1, hei, hai, hxi, hyi, hzi, l1, l2, a1, a2, a3, a4, a5, e⟩

/-- Everything `update` does to the count histograms. -/
theorem update_facts {o : GridOptions F} (ho : TwoPoints o) (u : OutputUnits F) (n : Nat)
    (track : Bool) (d : Distributions F) (hd : OnGrid o d) (p : Particle F) :
    ∃ d' ei ai xi yi zi, d.update p u track n = .ok d' ∧ OnGrid o d' ∧
      Distributions.bin_floor d.energies (energy_angle_from_particle p u).1 = .ok ei ∧
      Distributions.bin_floor d.angles (energy_angle_from_particle p u).2 = .ok ai ∧
      Distributions.bin_trunc d.x_range (p.pos.x/u.length_unit) = .ok xi ∧
      Distributions.bin_trunc d.y_range (p.pos.y/u.length_unit) = .ok yi ∧
      Distributions.bin_trunc d.z_range (p.pos.z/u.length_unit) = .ok zi ∧
      d'.reflected_ead = (if p.incident && p.left then
        ead_after d.reflected_ead o.energy_num o.angle_num ei ai else d.reflected_ead) ∧
      d'.sputtered_ead = (if !p.incident && p.left then
        ead_after d.sputtered_ead o.energy_num o.angle_num ei ai else d.sputtered_ead) ∧
      d'.implanted_x = (if p.incident && p.stopped then hist_after d.implanted_x o.x_num xi
        else d.implanted_x) ∧
      d'.implanted_y = (if p.incident && p.stopped then hist_after d.implanted_y o.y_num yi
        else d.implanted_y) ∧
      d'.implanted_z = (if p.incident && p.stopped then hist_after d.implanted_z o.z_num zi
        else d.implanted_z) := by
  obtain ⟨d1, ei, ai, xi, yi, zi, h1, hei, hai, hxi, hyi, hzi, -, -, a1, a2, a3, a4, a5, e⟩ :=
    update_stage ho u n track d hd p
  by_cases ht : (track && p.incident) = true
  · obtain ⟨d', h2, h3, b1, b2, b3, b4, b5⟩ := update_losses_ok ho u n p.energies d1 h1
    exact ⟨d', ei, ai, xi, yi, zi, by rw [e, if_pos ht, h2], h3, hei, hai, hxi, hyi, hzi,
      b1.trans a1, b2.trans a2, b3.trans a3, b4.trans a4, b5.trans a5⟩
  · exact ⟨d1, ei, ai, xi, yi, zi, by rw [e, if_neg ht]; rfl, h1, hei, hai, hxi, hyi, hzi,
      a1, a2, a3, a4, a5⟩

/-- **C55** With at least two grid points per axis, `update` never fails, whatever the particle
(NaN and infinite values included: this holds for every arithmetic), and keeps the histograms on
the grid; and a new set of distributions is on its grid. -/
theorem C55_never_out_of_range (o : GridOptions F) (ho : TwoPoints o) :
    OnGrid o (Distributions.new o) ∧
    ∀ (d : Distributions F), OnGrid o d → ∀ (p : Particle F) (u : OutputUnits F) (track : Bool)
      (n : Nat), ∃ d', d.update p u track n = .ok d' ∧ OnGrid o d' := by
  constructor
  · refine ⟨rfl, rfl, rfl, rfl, rfl, ⟨?_, ?_⟩, ⟨?_, ?_⟩, ?_, ?_, ?_, ?_, ?_⟩ <;>
      simp [Distributions.new] <;> omega
  · intro d hd p u track n
    obtain ⟨d', _, _, _, _, _, h1, h2, _⟩ := update_facts ho u n track d hd p
    exact ⟨d', h1, h2⟩

theorem countedAt_modify {h : List Nat} {i : Nat} (hi : i < h.length) :
    CountedAt h (h.modify i (· + 1)) i := by
  refine ⟨h[i], List.getElem?_eq_getElem hi, ?_⟩
  apply List.ext_getElem?
  intro j
  rw [List.getElem?_modify, List.getElem?_set]
  by_cases hij : i = j
  · subst hij; simp [hi]
  · simp [hij]

theorem hist_after_cases {h : List Nat} {n : Nat} (hn : h.length = n) (i : Int) :
    (Distributions.index_inside i n = true ∧ CountedAt h (hist_after h n i) i.toNat) ∨
    (Distributions.index_inside i n = false ∧ hist_after h n i = h) := by
  unfold hist_after
  cases hin : Distributions.index_inside i n with
  | false => right; simp
  | true =>
    left
    refine ⟨rfl, ?_⟩
    rw [if_pos rfl]
    simp only [Distributions.index_inside, Bool.and_eq_true, decide_eq_true_eq] at hin
    exact countedAt_modify (by omega)

theorem ead_after_cases {m : List (List Nat)} {ne na : Nat} (ei ai : Int)
    (hm : m.length = ne ∧ ∀ r ∈ m, r.length = na) :
    (Distributions.index_inside ei ne = true ∧ Distributions.index_inside ai na = true ∧
      CountedAt2 m (ead_after m ne na ei ai) ei.toNat ai.toNat) ∨
    (¬ (Distributions.index_inside ei ne = true ∧ Distributions.index_inside ai na = true) ∧
      ead_after m ne na ei ai = m) := by
  unfold ead_after
  cases he : Distributions.index_inside ei ne with
  | false => right; simp
  | true =>
    cases ha : Distributions.index_inside ai na with
    | false => right; simp
    | true =>
      left
      refine ⟨rfl, rfl, ?_⟩
      simp only [Bool.and_self, if_true]
      simp only [Distributions.index_inside, Bool.and_eq_true, decide_eq_true_eq] at he ha
      have hi : ei.toNat < m.length := by omega
      rw [List.getD_eq_getElem?_getD, List.getElem?_eq_getElem hi]
      refine ⟨m[ei.toNat], _, List.getElem?_eq_getElem hi, countedAt_modify ?_, rfl⟩
      rw [hm.2 _ (List.getElem_mem hi)]; omega

/-- **C55** every particle is counted at most once: each histogram is unchanged or has exactly one
cell raised by one, and only the histograms of the particle's own fate can change. -/
theorem C55_at_most_one_cell (o : GridOptions F) (ho : TwoPoints o) (d d' : Distributions F)
    (hd : OnGrid o d) (p : Particle F) (u : OutputUnits F) (track : Bool) (n : Nat)
    (h : d.update p u track n = .ok d') :
    (d'.reflected_ead = d.reflected_ead ∨
      (p.incident = true ∧ p.left = true ∧ ∃ i j, CountedAt2 d.reflected_ead d'.reflected_ead i j)) ∧
    (d'.sputtered_ead = d.sputtered_ead ∨
      (p.incident = false ∧ p.left = true ∧
        ∃ i j, CountedAt2 d.sputtered_ead d'.sputtered_ead i j)) ∧
    (d'.implanted_x = d.implanted_x ∨ (p.incident = true ∧ p.stopped = true ∧
      ∃ i, CountedAt d.implanted_x d'.implanted_x i)) ∧
    (d'.implanted_y = d.implanted_y ∨ (p.incident = true ∧ p.stopped = true ∧
      ∃ i, CountedAt d.implanted_y d'.implanted_y i)) ∧
    (d'.implanted_z = d.implanted_z ∨ (p.incident = true ∧ p.stopped = true ∧
      ∃ i, CountedAt d.implanted_z d'.implanted_z i)) := by
  obtain ⟨d2, ei, ai, xi, yi, zi, h1, h2, -, -, -, -, -, b1, b2, b3, b4, b5⟩ :=
    update_facts ho u n track d hd p
  rw [h] at h1; obtain rfl := Except.ok.inj h1
  have H : ∀ (h h' : List Nat) (k : Nat) (i : Int), h.length = k →
      h' = (if (p.incident && p.stopped) = true then hist_after h k i else h) →
      h' = h ∨ (p.incident = true ∧ p.stopped = true ∧ ∃ i, CountedAt h h' i) := by
    intro h h' k i hk e
    by_cases hc : (p.incident && p.stopped) = true
    · rw [if_pos hc] at e
      rcases hist_after_cases hk i with ⟨_, hh⟩ | ⟨_, hh⟩
      · simp only [Bool.and_eq_true] at hc
        exact .inr ⟨hc.1, hc.2, _, by rw [e]; exact hh⟩
      · exact .inl (e.trans hh)
    · rw [if_neg hc] at e; exact .inl e
  have E : ∀ (m m' : List (List Nat)) (c : Bool), (m.length = o.energy_num ∧
      ∀ r ∈ m, r.length = o.angle_num) →
      m' = (if c = true then ead_after m o.energy_num o.angle_num ei ai else m) →
      m' = m ∨ (c = true ∧ ∃ i j, CountedAt2 m m' i j) := by
    intro m m' c hm e
    by_cases hc : c = true
    · rw [if_pos hc] at e
      rcases ead_after_cases ei ai hm with ⟨_, _, hh⟩ | ⟨_, hh⟩
      · exact .inr ⟨hc, _, _, by rw [e]; exact hh⟩
      · exact .inl (e.trans hh)
    · rw [if_neg hc] at e; exact .inl e
  refine ⟨?_, ?_, H _ _ _ _ hd.implanted_x b3, H _ _ _ _ hd.implanted_y b4,
    H _ _ _ _ hd.implanted_z b5⟩
  · rcases E _ _ _ hd.reflected_ead b1 with h | ⟨hc, h⟩
    · exact .inl h
    · simp only [Bool.and_eq_true] at hc; exact .inr ⟨hc.1, hc.2, h⟩
  · rcases E _ _ _ hd.sputtered_ead b2 with h | ⟨hc, h⟩
    · exact .inl h
    · simp only [Bool.and_eq_true, Bool.not_eq_true'] at hc; exact .inr ⟨hc.1, hc.2, h⟩

end

/-! ### Which cell -/

theorem linspace_get (a b : ℝ) (n : Nat) (hn : 2 ≤ n) (i : Nat) (hi : i < n) :
    vget (linspace a b n) i = .ok (a + (b - a)/(n - 1)*i) := by
  have h1 : 1 < n := hn
  unfold linspace vget
  simp only [h1, if_true, List.getElem?_map, List.getElem?_range hi, Option.map_some, ofNat_real]
  rw [Nat.cast_sub (by omega), Nat.cast_one]

theorem toI32_int (q : ℤ) : (Scalar.toI32 (q : ℝ) : ℤ) = max (-2147483648) (min 2147483647 q) := by
  show max (-2147483648) (min 2147483647 (if (q : ℝ) < 0 then ⌈(q : ℝ)⌉ else ⌊(q : ℝ)⌋)) = _
  simp

theorem inside_clamp (q : ℤ) (n : Nat) (hn : n ≤ 2147483647) :
    (Distributions.index_inside (max (-2147483648) (min 2147483647 q)) n = true ↔ 0 ≤ q ∧ q < n) ∧
    (0 ≤ q → q < n → (max (-2147483648) (min 2147483647 q)).toNat = q.toNat) := by
  constructor
  · simp only [Distributions.index_inside, Bool.and_eq_true, decide_eq_true_eq]
    omega
  · intro h1 h2; omega

/-- `bin_floor` finds exactly the cell that contains the value. -/
theorem bin_floor_cell (a b : ℝ) (n : Nat) (hg : GoodAxis a b n) (v : ℝ) (k : ℤ)
    (h : Distributions.bin_floor (linspace a b n) v = .ok k) (i : Nat) :
    InCell a b n i v ↔ Distributions.index_inside k n = true ∧ k.toNat = i := by
  obtain ⟨hab, h2, h3⟩ := hg
  unfold Distributions.bin_floor at h
  rw [linspace_get a b n h2 1 (by omega), linspace_get a b n h2 0 (by omega)] at h
  simp only [bind, Except.bind, pure, Except.pure, Except.ok.injEq, floor_real, toI32_int] at h
  have hn1 : (0:ℝ) < n - 1 := by
    have : (2:ℝ) ≤ n := by exact_mod_cast h2
    linarith
  have hst : 0 < (b - a)/(n - 1) := div_pos (by linarith) hn1
  set st := (b - a)/((n:ℝ) - 1) with hst'
  have e : (v - (a + st*((0:ℕ):ℝ)))/(a + st*((1:ℕ):ℝ) - (a + st*((0:ℕ):ℝ))) = (v - a)/st := by
    push_cast
    rw [show a + st*1 - (a + st*0) = st by ring, show v - (a + st*0) = v - a by ring]
  rw [e] at h
  set q := ⌊(v - a)/st⌋ with hq
  have hcell : InCell a b n i v ↔ i < n ∧ q = i := by
    unfold InCell
    rw [← hst']
    refine and_congr_right fun _ => ?_
    rw [hq, Int.floor_eq_iff, le_div_iff₀ hst, div_lt_iff₀ hst]
    push_cast
    constructor
    · rintro ⟨x, y⟩; constructor <;> linarith
    · rintro ⟨x, y⟩; constructor <;> linarith
  obtain ⟨c1, c2⟩ := inside_clamp q n h3
  rw [hcell, ← h, c1]
  constructor
  · rintro ⟨hi, hqi⟩
    refine ⟨⟨by omega, by omega⟩, ?_⟩
    rw [c2 (by omega) (by omega)]; omega
  · rintro ⟨⟨g1, g2⟩, g3⟩
    rw [c2 g1 g2] at g3
    omega

/-- `bin_trunc` finds the cell that contains the value, except that it puts the values up to one
cell width below the axis in the first cell. -/
theorem bin_trunc_cell (a b : ℝ) (n : Nat) (hg : GoodAxis a b n) (v : ℝ) (k : ℤ)
    (h : Distributions.bin_trunc (linspace a b n) v = .ok k) (i : Nat) :
    (InCell a b n i v ∨ (i = 0 ∧ a - (b - a)/(n - 1) < v ∧ v < a)) ↔
      Distributions.index_inside k n = true ∧ k.toNat = i := by
  obtain ⟨hab, h2, h3⟩ := hg
  unfold Distributions.bin_trunc at h
  rw [linspace_get a b n h2 1 (by omega), linspace_get a b n h2 0 (by omega)] at h
  simp only [bind, Except.bind, pure, Except.pure, Except.ok.injEq] at h
  have hn1 : (0:ℝ) < n - 1 := by
    have : (2:ℝ) ≤ n := by exact_mod_cast h2
    linarith
  have hst : 0 < (b - a)/(n - 1) := div_pos (by linarith) hn1
  set st := (b - a)/((n:ℝ) - 1) with hst'
  have e : (v - (a + st*((0:ℕ):ℝ)))/(a + st*((1:ℕ):ℝ) - (a + st*((0:ℕ):ℝ))) = (v - a)/st := by
    push_cast
    rw [show a + st*1 - (a + st*0) = st by ring, show v - (a + st*0) = v - a by ring]
  rw [e] at h
  by_cases hv : v < a
  · have hneg : (v - a)/st < 0 := div_neg_of_neg_of_pos (by linarith) hst
    have hk : k = max (-2147483648) (min 2147483647 ⌈(v - a)/st⌉) := by
      rw [← h]
      show max (-2147483648) (min 2147483647 (if (v - a)/st < 0 then _ else _)) = _
      rw [if_pos hneg]
    set q := ⌈(v - a)/st⌉ with hq
    have hq0 : q ≤ 0 := by rw [hq, Int.ceil_le]; push_cast; exact hneg.le
    have hq1 : q = 0 ↔ a - st < v := by
      constructor
      · intro h0
        have := (Int.ceil_eq_iff.1 (hq.symm.trans h0)).1
        push_cast at this
        rw [lt_div_iff₀ hst] at this; linarith
      · intro h0
        have : (-1:ℝ) < (v - a)/st := by rw [lt_div_iff₀ hst]; linarith
        have : (-1:ℤ) < q := by
          rw [hq, Int.lt_ceil]; push_cast; exact this
        omega
    have hno : ¬ InCell a b n i v := by
      rintro ⟨_, h4, _⟩
      have : (0:ℝ) ≤ (b - a)/(n - 1)*i := by positivity
      linarith
    obtain ⟨c1, c2⟩ := inside_clamp q n h3
    rw [hk, c1]
    constructor
    · rintro (h4 | ⟨rfl, h4, -⟩)
      · exact absurd h4 hno
      · have := hq1.2 h4
        refine ⟨⟨by omega, by omega⟩, ?_⟩
        rw [c2 (by omega) (by omega)]; omega
    · rintro ⟨⟨g1, g2⟩, g3⟩
      rw [c2 g1 g2] at g3
      exact .inr ⟨by omega, hq1.1 (by omega), hv⟩
  · have hpos : ¬ (v - a)/st < 0 := not_lt.2 (div_nonneg (by linarith) hst.le)
    have hk : k = max (-2147483648) (min 2147483647 ⌊(v - a)/st⌋) := by
      rw [← h]
      show max (-2147483648) (min 2147483647 (if (v - a)/st < 0 then _ else _)) = _
      rw [if_neg hpos]
    have hf : Distributions.bin_floor (linspace a b n) v = .ok k := by
      unfold Distributions.bin_floor
      rw [linspace_get a b n h2 1 (by omega), linspace_get a b n h2 0 (by omega)]
      simp only [bind, Except.bind, pure, Except.pure, Except.ok.injEq, floor_real, toI32_int]
      rw [← hst', e, hk]
    rw [← bin_floor_cell a b n ⟨hab, h2, h3⟩ v k hf i]
    constructor
    · rintro (h4 | ⟨-, -, h4⟩)
      · exact h4
      · exact absurd h4 hv
    · exact .inl

/-- All axes are usable. -/
structure GoodGrid (o : GridOptions ℝ) : Prop where
  energy : GoodAxis o.energy_min o.energy_max o.energy_num
  angle : GoodAxis o.angle_min o.angle_max o.angle_num
  x : GoodAxis o.x_min o.x_max o.x_num
  y : GoodAxis o.y_min o.y_max o.y_num
  z : GoodAxis o.z_min o.z_max o.z_num

theorem GoodGrid.two {o : GridOptions ℝ} (h : GoodGrid o) : TwoPoints o :=
  ⟨h.energy.2.1, h.angle.2.1, h.x.2.1, h.y.2.1, h.z.2.1⟩

/-- **C55** the energy-angle histograms: a reflected (sputtered) particle is counted in the cell whose
half-open energy and angle intervals contain its energy and angle, and not at all if there is
no such cell. -/
theorem C55_energy_angle_cell (o : GridOptions ℝ) (ho : GoodGrid o) (d d' : Distributions ℝ)
    (hd : OnGrid o d) (p : Particle ℝ) (u : OutputUnits ℝ) (track : Bool) (n : Nat)
    (h : d.update p u track n = .ok d') (hleft : p.left = true) :
    let ea := energy_angle_from_particle p u
    let before := if p.incident then d.reflected_ead else d.sputtered_ead
    let after := if p.incident then d'.reflected_ead else d'.sputtered_ead
    (∀ i j, InCell o.energy_min o.energy_max o.energy_num i ea.1 →
      InCell o.angle_min o.angle_max o.angle_num j ea.2 → CountedAt2 before after i j) ∧
    ((¬ ∃ i j, InCell o.energy_min o.energy_max o.energy_num i ea.1 ∧
      InCell o.angle_min o.angle_max o.angle_num j ea.2) → after = before) := by
  obtain ⟨d2, ei, ai, xi, yi, zi, h1, h2, e1, e2, -, -, -, b1, b2, -⟩ :=
    update_facts ho.two u n track d hd p
  rw [h] at h1; obtain rfl := Except.ok.inj h1
  rw [hd.energies] at e1
  rw [hd.angles] at e2
  have ce := bin_floor_cell _ _ _ ho.energy _ _ e1
  have ca := bin_floor_cell _ _ _ ho.angle _ _ e2
  have key : ∀ m : List (List Nat), (m.length = o.energy_num ∧ ∀ r ∈ m, r.length = o.angle_num) →
      (∀ i j, InCell o.energy_min o.energy_max o.energy_num i (energy_angle_from_particle p u).1 →
        InCell o.angle_min o.angle_max o.angle_num j (energy_angle_from_particle p u).2 →
        CountedAt2 m (ead_after m o.energy_num o.angle_num ei ai) i j) ∧
      ((¬ ∃ i j, InCell o.energy_min o.energy_max o.energy_num i (energy_angle_from_particle p u).1 ∧
        InCell o.angle_min o.angle_max o.angle_num j (energy_angle_from_particle p u).2) →
        ead_after m o.energy_num o.angle_num ei ai = m) := by
    intro m hm
    rcases ead_after_cases ei ai hm with ⟨g1, g2, g3⟩ | ⟨g1, g2⟩
    · refine ⟨fun i j hi hj => ?_, fun hno => ?_⟩
      · rw [← ((ce i).1 hi).2, ← ((ca j).1 hj).2]; exact g3
      · exact absurd ⟨_, _, (ce _).2 ⟨g1, rfl⟩, (ca _).2 ⟨g2, rfl⟩⟩ hno
    · exact ⟨fun i j hi hj => absurd ⟨((ce i).1 hi).1, ((ca j).1 hj).1⟩ g1, fun _ => g2⟩
  cases hi : p.incident with
  | true =>
    simp only [hi, hleft, Bool.and_self, if_true] at b1
    simp only [if_true, b1]
    exact key _ hd.reflected_ead
  | false =>
    simp only [hi, hleft, Bool.not_false, Bool.and_self, if_true] at b2
    simp only [if_false, b2, Bool.false_eq_true]
    exact key _ hd.sputtered_ead

/-- **C55 (partial)** the implantation histograms: an ion that stopped is counted in the cell that
contains its coordinate, except that positions up to one cell width below the axis are counted in
the first cell; otherwise it is not counted.  (The property demands no exception: it is false, see
`C55_refuted`.) -/
theorem C55_implantation_cell_partial (o : GridOptions ℝ) (ho : GoodGrid o) (d d' : Distributions ℝ)
    (hd : OnGrid o d) (p : Particle ℝ) (u : OutputUnits ℝ) (track : Bool) (n : Nat)
    (h : d.update p u track n = .ok d') (hinc : p.incident = true) (hst : p.stopped = true) :
    (∀ i, CountedAt d.implanted_x d'.implanted_x i ↔
      InCell o.x_min o.x_max o.x_num i (p.pos.x/u.length_unit) ∨
      (i = 0 ∧ o.x_min - (o.x_max - o.x_min)/(o.x_num - 1) < p.pos.x/u.length_unit ∧
        p.pos.x/u.length_unit < o.x_min)) ∧
    (∀ i, CountedAt d.implanted_y d'.implanted_y i ↔
      InCell o.y_min o.y_max o.y_num i (p.pos.y/u.length_unit) ∨
      (i = 0 ∧ o.y_min - (o.y_max - o.y_min)/(o.y_num - 1) < p.pos.y/u.length_unit ∧
        p.pos.y/u.length_unit < o.y_min)) ∧
    (∀ i, CountedAt d.implanted_z d'.implanted_z i ↔
      InCell o.z_min o.z_max o.z_num i (p.pos.z/u.length_unit) ∨
      (i = 0 ∧ o.z_min - (o.z_max - o.z_min)/(o.z_num - 1) < p.pos.z/u.length_unit ∧
        p.pos.z/u.length_unit < o.z_min)) := by
  obtain ⟨d2, ei, ai, xi, yi, zi, h1, h2, -, -, e3, e4, e5, -, -, b3, b4, b5⟩ :=
    update_facts ho.two u n track d hd p
  rw [h] at h1; obtain rfl := Except.ok.inj h1
  rw [hd.x_range] at e3
  rw [hd.y_range] at e4
  rw [hd.z_range] at e5
  simp only [hinc, hst, Bool.and_self, if_true] at b3 b4 b5
  have uniq : ∀ {h h' : List Nat} {i j : Nat}, CountedAt h h' i → CountedAt h h' j → i = j := by
    rintro h h' i j ⟨n, hn, e⟩ ⟨m, hm, e'⟩
    by_contra hij
    have h4 : h'[i]? = some (n + 1) := by
      rw [e, List.getElem?_set]
      have := (List.getElem?_eq_some_iff.1 hn).1
      simp [this]
    rw [e', List.getElem?_set, if_neg (Ne.symm hij), hn] at h4
    simp at h4
  have noself : ∀ {h : List Nat} {i : Nat}, ¬ CountedAt h h i := by
    rintro h i ⟨n, hn, e⟩
    have := congrArg (·[i]?) e
    beta_reduce at this
    have h5 := (List.getElem?_eq_some_iff.1 hn).1
    rw [hn, List.getElem?_set] at this
    simp [h5] at this
  have key : ∀ (hst : List Nat) (a b v : ℝ) (m : Nat) (k : ℤ), GoodAxis a b m → hst.length = m →
      Distributions.bin_trunc (linspace a b m) v = .ok k →
      ∀ i, CountedAt hst (hist_after hst m k) i ↔
        InCell a b m i v ∨ (i = 0 ∧ a - (b - a)/(m - 1) < v ∧ v < a) := by
    intro hst a b v m k hg hl hk i
    rw [bin_trunc_cell a b m hg v k hk i]
    rcases hist_after_cases hl k with ⟨g1, g2⟩ | ⟨g1, g2⟩
    · exact ⟨fun hc => ⟨g1, uniq g2 hc⟩, fun ⟨_, e⟩ => e ▸ g2⟩
    · rw [g2, g1]
      exact ⟨fun hc => absurd hc noself, fun ⟨e, _⟩ => by simp at e⟩
  rw [b3, b4, b5]
  exact ⟨key _ _ _ _ _ _ ho.x hd.implanted_x e3, key _ _ _ _ _ _ ho.y hd.implanted_y e4,
    key _ _ _ _ _ _ ho.z hd.implanted_z e5⟩

/-- `h'` is `h` with `e` added to cell `i`. -/
def AddedAt (h h' : List ℝ) (i : Nat) (e : ℝ) : Prop := ∃ x, h[i]? = some x ∧ h' = h.set i (x + e)

theorem addedAt_modify {h : List ℝ} {i : Nat} (hi : i < h.length) (e : ℝ) :
    AddedAt h (h.modify i (· + e)) i e := by
  refine ⟨h[i], List.getElem?_eq_getElem hi, ?_⟩
  apply List.ext_getElem?
  intro j
  rw [List.getElem?_modify, List.getElem?_set]
  by_cases hij : i = j
  · subst hij; simp [hi]
  · simp [hij]

/-- **C55 (partial)** the energy-loss histograms: a recorded loss adds its energies (per ion and per
length) to the cell containing its position, with the same exception as the implantation
histograms. -/
theorem C55_energy_loss_cell_partial (o : GridOptions ℝ) (ho : GoodGrid o) (d : Distributions ℝ)
    (hd : OnGrid o d) (l : EnergyLoss ℝ) (u : OutputUnits ℝ) (n : Nat) :
    ∃ d', d.update_loss u n l = .ok d' ∧ OnGrid o d' ∧
      (∀ i, (InCell o.x_min o.x_max o.x_num i (l.x/u.length_unit) ∨
          (i = 0 ∧ o.x_min - (o.x_max - o.x_min)/(o.x_num - 1) < l.x/u.length_unit ∧
            l.x/u.length_unit < o.x_min)) →
        AddedAt d.electronic_energy_loss_x d'.electronic_energy_loss_x i
          (l.Ee/u.energy_unit/n/((o.x_max - o.x_min)/(o.x_num - 1))) ∧
        AddedAt d.nuclear_energy_loss_x d'.nuclear_energy_loss_x i
          (l.En/u.energy_unit/n/((o.x_max - o.x_min)/(o.x_num - 1)))) ∧
      ((¬ ∃ i, InCell o.x_min o.x_max o.x_num i (l.x/u.length_unit) ∨
          (i = 0 ∧ o.x_min - (o.x_max - o.x_min)/(o.x_num - 1) < l.x/u.length_unit ∧
            l.x/u.length_unit < o.x_min)) → d' = d) := by
  have hx : d.x_range.length = o.x_num := by rw [hd.x_range, linspace_length]
  have h2 : 2 ≤ d.x_range.length := by rw [hx]; exact ho.x.2.1
  obtain ⟨d', hok, hgrid, -⟩ := update_loss_ok ho.two u n d hd l
  refine ⟨d', hok, hgrid, ?_⟩
  obtain ⟨k, hk⟩ := bin_trunc_ok d.x_range (l.x/u.length_unit) h2
  have hcell := bin_trunc_cell _ _ _ ho.x (l.x/u.length_unit) k (by rw [← hd.x_range]; exact hk)
  have g1 := linspace_get o.x_min o.x_max o.x_num ho.x.2.1 1 (by have := ho.x.2.1; omega)
  have g0 := linspace_get o.x_min o.x_max o.x_num ho.x.2.1 0 (by have := ho.x.2.1; omega)
  rw [← hd.x_range] at g0 g1
  unfold Distributions.update_loss at hok
  simp only [g0, g1, bind, Except.bind, pure, Except.pure, hk,
    bump_ok _ _ _ _ (hd.electronic_energy_loss_x.trans hx.symm),
    bump_ok _ _ _ _ (hd.nuclear_energy_loss_x.trans hx.symm), Except.ok.injEq, ofNat_real] at hok
  have hst : o.x_min + (o.x_max - o.x_min)/((o.x_num:ℝ) - 1)*((1:ℕ):ℝ) -
      (o.x_min + (o.x_max - o.x_min)/((o.x_num:ℝ) - 1)*((0:ℕ):ℝ)) =
      (o.x_max - o.x_min)/((o.x_num:ℝ) - 1) := by push_cast; ring
  rw [hst, hx] at hok
  refine ⟨fun i hi => ?_, fun hno => ?_⟩
  · obtain ⟨k1, k2⟩ := (hcell i).1 hi
    have hlt : k.toNat < o.x_num := by
      simp only [Distributions.index_inside, Bool.and_eq_true, decide_eq_true_eq] at k1; omega
    rw [k1] at hok
    simp only [if_true] at hok
    rw [← hok, ← k2]
    exact ⟨addedAt_modify (by rw [hd.electronic_energy_loss_x]; exact hlt) _,
      addedAt_modify (by rw [hd.nuclear_energy_loss_x]; exact hlt) _⟩
  · have : Distributions.index_inside k o.x_num = false := by
      cases hc : Distributions.index_inside k o.x_num with
      | false => rfl
      | true => exact absurd ⟨_, (hcell _).2 ⟨hc, rfl⟩⟩ hno
    rw [this] at hok
    simp only [Bool.false_eq_true, if_false] at hok
    rw [← hok]

/-- **C55 refuted** for implantation profiles: on the axis from 0 to 10 with 11 points an ion that
comes to rest at depth -1/2, outside every cell, is counted in the cell from 0 to 1. -/
theorem C55_refuted (p : Particle ℝ) (hinc : p.incident = true) (hst : p.stopped = true)
    (hx : p.pos.x = -(1/2)) :
    ∃ (o : GridOptions ℝ) (u : OutputUnits ℝ) (d' : Distributions ℝ), GoodGrid o ∧
      (Distributions.new o).update p u false 1 = .ok d' ∧
      (∀ i, ¬ InCell o.x_min o.x_max o.x_num i (p.pos.x/u.length_unit)) ∧
      CountedAt (Distributions.new o).implanted_x d'.implanted_x 0 := by
  have ho : GoodGrid (⟨0, 10, 11, 0, 10, 11, 0, 10, 11, 0, 10, 11, 0, 10, 11⟩ : GridOptions ℝ) := by
    constructor <;> exact ⟨by norm_num, by norm_num, by norm_num⟩
  obtain ⟨hnew, hup⟩ := C55_never_out_of_range _ ho.two
  obtain ⟨d', h1, h2⟩ := hup _ hnew p ⟨1, 1, 1⟩ false 1
  refine ⟨_, ⟨1, 1, 1⟩, d', ho, h1, ?_, ?_⟩
  · rintro i ⟨_, h3, _⟩
    rw [hx] at h3
    have : (0:ℝ) ≤ i := Nat.cast_nonneg i
    norm_num at h3
    linarith
  · refine ((C55_implantation_cell_partial _ ho _ _ hnew p ⟨1, 1, 1⟩ false 1 h1 hinc hst).1 0).2 ?_
    right
    rw [hx]
    norm_num

/-! ## C65 -/

section
variable {F : Type} [Scalar F]

theorem process_all_ok {cfg : OutputConfig F} {options : Options F} {n : Nat}
    (hgrid : ∀ o, cfg.grid = some o → TwoPoints o) (ps : List (Particle F)) (s : RunState F)
    (hs : s.summary.Even)
    (hd : ∀ d, s.distributions = some d → ∃ o, cfg.grid = some o ∧ OnGrid o d) :
    ∃ s', forFold (process_particle cfg options n) ps s = .ok s' := by
  induction ps generalizing s with
  | nil => exact ⟨s, rfl⟩
  | cons p ps ih =>
    obtain ⟨sm, h1⟩ := summary_update_ok s.summary p hs
    have hev := summary_update_even hs h1
    cases hsd : s.distributions with
    | none =>
      obtain ⟨s', h2⟩ := ih ⟨s.processed ++ [p], sm, none,
        if cfg.list_output then s.ops ++ output_lists cfg.fmt p options cfg.units else s.ops⟩ hev
        (by simp)
      refine ⟨s', forFold_ok_cons.2 ⟨_, ?_, h2⟩⟩
      unfold process_particle
      rw [h1, hsd]; rfl
    | some d =>
      obtain ⟨o, ho, hon⟩ := hd d hsd
      obtain ⟨d', h3, h4⟩ := (C55_never_out_of_range o (hgrid o ho)).2 d hon p cfg.units
        options.track_energy_losses n
      obtain ⟨s', h2⟩ := ih ⟨s.processed ++ [p], sm, some d',
        if cfg.list_output then s.ops ++ output_lists cfg.fmt p options cfg.units else s.ops⟩ hev
        (by intro d2 e; obtain rfl := Option.some.inj e; exact ⟨o, ho, h4⟩)
      refine ⟨s', forFold_ok_cons.2 ⟨_, ?_, h2⟩⟩
      unfold process_particle
      rw [h1, hsd]
      simp only [bind, Except.bind, pure, Except.pure]
      rw [h3]

/-- **C65** The bookkeeping never makes a run fail: a run succeeds exactly when there are at least
as many ions as chunks and the simulation of every single ion succeeds (given, if histograms are
built, two points on every axis). -/
theorem C65_fails_only_in_physics {α : Type} {cfg : OutputConfig F} {options : Options F}
    (hgrid : ∀ o, cfg.grid = some o → TwoPoints o) (sim : α → Res (List (Particle F)))
    (splits : List Split) (ions : List α) :
    (∃ s, physics_loop cfg options sim splits ions = .ok s) ↔
      0 < options.num_chunks ∧ options.num_chunks ≤ ions.length ∧
        ∀ a ∈ ions, ∃ out, sim a = .ok out := by
  constructor
  · rintro ⟨s, run⟩
    obtain ⟨h1, h2, -⟩ := physics_loop_ok.1 run
    refine ⟨h1, (Nat.div_pos_iff.1 h2).2, fun a ha => ?_⟩
    obtain ⟨outs, ho, -⟩ := C47_every_ion_once run
    obtain ⟨i, hi, rfl⟩ := List.getElem_of_mem ha
    have hl := ho.length_eq
    exact ⟨_, List.forall₂_iff_get.1 ho |>.2 i hi (by omega)⟩
  · rintro ⟨h1, h2, h3⟩
    have hcol : ∃ ps, seq_collect sim ions = .ok ps := by
      clear h2
      induction ions with
      | nil => exact ⟨[], rfl⟩
      | cons a l ih =>
        obtain ⟨ps, hp⟩ := ih (fun b hb => h3 b (by simp [hb]))
        obtain ⟨o, ho⟩ := h3 a (by simp)
        exact ⟨o ++ ps, by simp only [seq_collect, ho, hp, bind, Except.bind, pure, Except.pure]⟩
    obtain ⟨ps, hps⟩ := hcol
    obtain ⟨t', ht⟩ := process_all_ok (cfg := cfg) (options := options) (n := ions.length) hgrid ps
      ⟨[], SummaryPerSpecies.new, cfg.grid.map Distributions.new, []⟩ new_even (by
        intro d e
        obtain ⟨o, ho, rfl⟩ := Option.map_eq_some_iff.1 e
        exact ⟨o, ho, (C55_never_out_of_range o (hgrid o ho)).1⟩)
    have hn : 0 < ions.length/options.num_chunks := Nat.div_pos h2 h1
    obtain ⟨s, hs, -⟩ := one_to_chunks (cfg := cfg) (options := options) (n := ions.length)
      (sim := sim) (withSplits splits (chunks (ions.length/options.num_chunks) ions))
      (by rw [withSplits_fst, (C47_chunks_partition _ hn ions).1]; exact hps) ht (SameView.refl _)
    exact ⟨s, physics_loop_ok.2 ⟨h1, hn, hs⟩⟩

end

end RustBCA
