import Verif.Spec.Cpr
import Verif.Props.Scattering
import Verif.Props.Potentials
import Verif.Props.Tungsten
import Verif.Props.RootFinding

/-!
# C87: the Chebyshev-proxy root finder searches where the turning points are
-/

set_option linter.unusedVariables false

namespace RustBCA
open Scalar Spec

/-- Where the potential energy is not positive beyond `c`, no turning point is further out than
`p + c`. -/
theorem turning_bound {U : ℝ → ℝ} {E p c r : ℝ} (hE : 0 < E) (hp : 0 ≤ p) (hc : 0 ≤ c)
    (hU : ∀ r, 0 < r → c < r → U r ≤ 0) (hr : 0 < r) (ht : TurningPoint (U r) E p r) : r ≤ p + c := by
  by_contra h
  push Not at h
  have h1 : U r ≤ 0 := hU r hr (by linarith)
  have h2 : U r/E ≤ 0 := div_nonpos_of_nonpos_of_nonneg h1 hE.le
  have h3 : p^2/r^2 < 1 := by
    rw [div_lt_one (by positivity)]
    have : p < r := by linarith
    nlinarith
  unfold TurningPoint at ht
  linarith

/-- The well potentials are defined at every distance and not positive beyond a crossing point. -/
theorem well_nonpos (V : InteractionPotential ℝ) (hV : Well V) (a Za Zb : ℝ) :
    0 ≤ crossing_point_doca V ∧
    ∃ U : ℝ → ℝ, (∀ r, interaction_potential r a Za Zb V = .ok (U r)) ∧
      ∀ r, 0 < r → crossing_point_doca V < r → U r ≤ 0 := by
  cases hV with
  | @lennard_jones_12_6 sigma epsilon hs he =>
    refine ⟨hs.le, fun r => lennard_jones r sigma epsilon, fun r => rfl, fun r hr hc => ?_⟩
    obtain ⟨U, h1, _, h2, _⟩ := C83_lennard_jones r sigma epsilon hr hs he
    have e := Except.ok.inj (h1 a Za Zb)
    have hc' : sigma < r := hc
    have : ¬ 0 < U := fun h => absurd (h2.1 h) (by linarith)
    show lennard_jones r sigma epsilon ≤ 0
    rw [e]; exact not_lt.1 this
  | @lennard_jones_65_6 sigma epsilon hs he =>
    refine ⟨hs.le, fun r => lennard_jones_65_6 r sigma epsilon, fun r => rfl, fun r hr hc => ?_⟩
    obtain ⟨U, h1, _, h2, _⟩ := C83_lennard_jones_65_6 r sigma epsilon hr hs he
    have e := Except.ok.inj (h1 a Za Zb)
    have hc' : sigma < r := hc
    have : ¬ 0 < U := fun h => absurd (h2.1 h) (by linarith)
    show lennard_jones_65_6 r sigma epsilon ≤ 0
    rw [e]; exact not_lt.1 this
  | @morse D alpha r0 hD ha hl =>
    have hcp : crossing_point_doca (.MORSE D alpha r0) = (alpha*r0 - Real.log 2)/alpha := by
      simp only [crossing_point_doca, ln_real]
      rw [show (2.0:ℝ) = 2 by norm_num]
    refine ⟨by rw [hcp]; exact div_nonneg (by linarith) ha.le, ?_⟩
    obtain ⟨U, h1, h2, _⟩ := C83_morse D alpha r0 hD ha
    refine ⟨U, fun r => h1 r a Za Zb, fun r hr hc => ?_⟩
    rw [hcp, div_lt_iff₀ ha] at hc
    rw [h2]
    have h3 : Real.exp (-(alpha*(r - r0))) ≤ 2 := by
      rw [show (2:ℝ) = Real.exp (Real.log 2) from (Real.exp_log (by norm_num)).symm]
      apply Real.exp_le_exp.2
      nlinarith
    have h4 := Real.exp_pos (-(alpha*(r - r0)))
    apply mul_nonpos_of_nonneg_of_nonpos hD.le
    nlinarith
  | tungsten =>
    have hA := ANGSTROM_pos
    refine ⟨by simp only [crossing_point_doca]; positivity, ?_⟩
    have hdef : ∀ r, ∃ u, interaction_potential r a Za Zb .WW = .ok u := by
      intro r
      by_cases h1 : r/ANGSTROM ℝ ≤ 1.10002200044
      · exact ⟨_, ((C83_tungsten r a Za Zb).1 h1).trans (potential_screened .ZBL .zbl _ _ _ _)⟩
      · by_cases h2 : 2.10004200084 < r/ANGSTROM ℝ
        · exact ⟨_, (C83_tungsten r a Za Zb).2.1 h2⟩
        · exact ⟨_, (C83_tungsten_middle a Za Zb).1 r (not_le.1 h1) (not_lt.1 h2)⟩
    choose U hU using hdef
    refine ⟨U, hU, fun r hr hc => ?_⟩
    have h1 : (4.2689:ℝ) ≤ r/ANGSTROM ℝ := by
      rw [le_div_iff₀ hA]
      have : (50.0:ℝ)*ANGSTROM ℝ < r := hc
      have h50 : (50.0:ℝ) = 50 := by norm_num
      rw [h50] at this
      have : (4.2689:ℝ)*ANGSTROM ℝ ≤ 50*ANGSTROM ℝ := by
        apply mul_le_mul_of_nonneg_right _ hA.le; norm_num
      linarith
    have := (C83_tungsten r a Za Zb).2.2 h1
    rw [hU] at this
    exact (Except.ok.inj this).le

/-- **C87, the interval.** For the two Lennard-Jones forms, Morse and W-W no turning point lies
beyond the end of the interval the root finder searches: impact parameter plus crossing point. -/
theorem C87_interval (V : InteractionPotential ℝ) (hV : Well V) (Za Zb E p : ℝ) (hE : 0 < E)
    (hp : 0 ≤ p) (U : ℝ → ℝ)
    (hU : ∀ r, interaction_potential r (screening_length Za Zb V) Za Zb V = .ok (U r))
    (r : ℝ) (hr : 0 < r) (ht : TurningPoint (U r) E p r) : r ≤ p + crossing_point_doca V := by
  obtain ⟨hc, U', hU', hn⟩ := well_nonpos V hV (screening_length Za Zb V) Za Zb
  have e : U = U' := by
    funext r
    have := (hU r).symm.trans (hU' r)
    exact Except.ok.inj this
  subst e
  exact turning_bound hE hp hc hn hr ht

/-- What the root finder does with the solver's answer. -/
theorem cpr_answer (roots : List ℝ) (a x : ℝ) (P : ℝ → Prop) (hP : ∀ y, y ∈ roots ↔ P y) :
    (∀ m, max_root roots = some m → P m ∧ ∀ y, P y → y ≤ m) ∧
    (max_root roots = none → ∀ y, ¬ P y) := by
  cases roots with
  | nil =>
    refine ⟨fun m h => by simp [max_root] at h, fun _ y hy => ?_⟩
    have := (hP y).2 hy
    simp at this
  | cons b l =>
    have hm : max_root (b :: l) = some (l.foldl max b) := max_root_real l b
    obtain ⟨hmem, hmax⟩ := foldl_max_mem l b
    refine ⟨fun m h => ?_, fun h => by rw [hm] at h; cases h⟩
    rw [hm] at h
    obtain rfl := Option.some.inj h
    exact ⟨(hP _).1 hmem, fun y hy => hmax y ((hP y).2 hy)⟩

/-- Potentials the root finder can be used with: their functions are defined everywhere and the
scaling function is positive. -/
structure Scaled (V : InteractionPotential ℝ) (Za Zb E p : ℝ) (F G : ℝ → ℝ) : Prop where
  plain : ∀ r, distance_of_closest_approach_function r (screening_length Za Zb V) Za Zb E p V
    = .ok (F r)
  free : ∀ r, distance_of_closest_approach_function_singularity_free r (screening_length Za Zb V)
    Za Zb E p V = .ok (F r)
  scaling : ∀ r, scaling_function r p V = .ok (G r)
  pos : ∀ r, 0 < r → 0 < G r

theorem cpr_core (rcpr : Rcpr ℝ) (V : InteractionPotential ℝ) (Za Zb Ma Mb E0 p : ℝ)
    (U F G : ℝ → ℝ) (hS : Scaled V Za Zb (E0*Mb/(Ma + Mb)) p F G)
    (ha : screening_length Za Zb V ≠ 0)
    (hz : ∀ r, 0 < r → (F r = 0 ↔ TurningPoint (U r) (E0*Mb/(Ma + Mb)) p r))
    (hb : ∀ r, 0 < r → TurningPoint (U r) (E0*Mb/(Ma + Mb)) p r → r ≤ p + crossing_point_doca V)
    (rf : Rootfinder ℝ) (df : Bool)
    (hfind : if df then FindsAllRoots fun g f lb ub => rcpr.find_roots_with_secant_polishing g f lb ub rf
      else FindsAllRootsNewton fun g f d lb ub => rcpr.find_roots_with_newton_polishing g f d lb ub rf)
    (hd : df = false → ∃ dF : ℝ → ℝ, (∀ r, 0 < r → diff_distance_of_closest_approach_function r
      (screening_length Za Zb V) Za Zb (E0*Mb/(Ma + Mb)) p V = .ok (dF r)) ∧
      ∀ r, 0 < r → HasDerivAt F (dF r) r) :
    (∀ x, cpr_rootfinder rcpr Za Zb Ma Mb E0 p V rf df = .ok (.ok x) →
      OutermostTurningPoint U (E0*Mb/(Ma + Mb)) p (x*screening_length Za Zb V)) ∧
    (∀ e, cpr_rootfinder rcpr Za Zb Ma Mb E0 p V rf df = .ok (.error e) →
      ∀ r, 1e-15 ≤ r → ¬ TurningPoint (U r) (E0*Mb/(Ma + Mb)) p r) := by
  have h15 : ∀ r : ℝ, 1e-15 ≤ r → 0 < r := fun r hr => lt_of_lt_of_le (by norm_num) hr
  have key : ∀ roots : List ℝ, (∀ y, y ∈ roots ↔ 1e-15 ≤ y ∧ y ≤ p + crossing_point_doca V ∧ F y = 0) →
      ∀ y, y ∈ roots ↔ 1e-15 ≤ y ∧ TurningPoint (U y) (E0*Mb/(Ma + Mb)) p y := by
    intro roots h y
    rw [h y]
    constructor
    · rintro ⟨h1, _, h2⟩; exact ⟨h1, (hz y (h15 y h1)).1 h2⟩
    · rintro ⟨h1, h2⟩; exact ⟨h1, hb y (h15 y h1) h2, (hz y (h15 y h1)).2 h2⟩
  have hg : ∀ r, 0 < r → (do
      let u ← distance_of_closest_approach_function_singularity_free r (screening_length Za Zb V)
        Za Zb (E0*Mb/(Ma + Mb)) p V
      let w ← scaling_function r p V
      pure (u*w) : Res ℝ) = .ok (F r*G r) := by
    intro r _
    rw [hS.free r, hS.scaling r]
    rfl
  have hzz : ∀ r, 1e-15 ≤ r → r ≤ p + crossing_point_doca V → (F r*G r = 0 ↔ F r = 0) := by
    intro r hr _
    have := (hS.pos r (h15 r hr)).ne'
    simp [this]
  have fin : ∀ (R : Res (Anyhow ℝ)) (roots : List ℝ),
      (∀ y, y ∈ roots ↔ 1e-15 ≤ y ∧ TurningPoint (U y) (E0*Mb/(Ma + Mb)) p y) →
      (max_root roots = none → ∃ e, R = .ok (.error e)) →
      (∀ m, max_root roots = some m → R = .ok (.ok (m/screening_length Za Zb V))) →
      (∀ x, R = .ok (.ok x) →
        OutermostTurningPoint U (E0*Mb/(Ma + Mb)) p (x*screening_length Za Zb V)) ∧
      (∀ e, R = .ok (.error e) → ∀ r, 1e-15 ≤ r → ¬ TurningPoint (U r) (E0*Mb/(Ma + Mb)) p r) := by
    intro R roots h hn hs
    obtain ⟨h1, h2⟩ := cpr_answer roots 0 0 _ h
    cases hm : max_root roots with
    | none =>
      obtain ⟨e', he'⟩ := hn hm
      rw [he']
      exact ⟨fun x hx => by simp at hx, fun e _ r hr ht => h2 hm r ⟨hr, ht⟩⟩
    | some m =>
      obtain ⟨⟨hm0, hmt⟩, hmax⟩ := h1 m hm
      rw [hs m hm]
      refine ⟨fun x hx => ?_, fun e he => by simp at he⟩
      have hx' := Except.ok.inj (Except.ok.inj hx)
      have e1 : x*screening_length Za Zb V = m := by rw [← hx']; field_simp
      rw [e1]
      refine ⟨h15 m hm0, hmt, fun r hr ht => ?_⟩
      by_cases hr15 : 1e-15 ≤ r
      · exact hmax r ⟨hr15, ht⟩
      · exact (not_le.1 hr15).le.trans hm0
  unfold cpr_rootfinder
  cases df with
  | true =>
    simp only [if_true] at hfind ⊢
    have hc := fun roots => hfind _ _ _ F 1e-15 (p + crossing_point_doca V) roots hg
      (fun r _ => hS.plain r) (by norm_num) hzz
    cases hcall : rcpr.find_roots_with_secant_polishing _ _ 1e-15 (p + crossing_point_doca V) rf with
    | error e => simp [bind, Except.bind]
    | ok res =>
      cases res with
      | error e => simp [bind, Except.bind, unwrapA, rpanic]
      | ok roots =>
        simp only [bind, Except.bind, unwrapA, pure, Except.pure]
        refine fin _ roots (key roots (hc roots hcall)) (fun hm => ?_) (fun m hm => ?_)
        · rw [hm]; exact ⟨_, rfl⟩
        · rw [hm]; simp only [isNaN_real, Bool.false_eq_true, if_false]
  | false =>
    simp only [Bool.false_eq_true, if_false] at hfind ⊢
    obtain ⟨dF, hd1, hd2⟩ := hd rfl
    have hc := fun roots => hfind _ _ _ _ F dF 1e-15 (p + crossing_point_doca V) roots hg
      (fun r _ => hS.plain r) hd1 hd2 (by norm_num) hzz
    cases hcall : rcpr.find_roots_with_newton_polishing _ _ _ 1e-15 (p + crossing_point_doca V) rf with
    | error e => simp [bind, Except.bind]
    | ok res =>
      cases res with
      | error e => simp [bind, Except.bind, unwrapA, rpanic]
      | ok roots =>
        simp only [bind, Except.bind, unwrapA, pure, Except.pure]
        refine fin _ roots (key roots (hc roots hcall)) (fun hm => ?_) (fun m hm => ?_)
        · rw [hm]; exact ⟨_, rfl⟩
        · rw [hm]; simp only [isNaN_real, Bool.false_eq_true, if_false]

/-! ### The potentials -/

theorem inv_pos_of_nonneg {x : ℝ} (hx : 0 ≤ x) : 0 < 1.0/(1.0 + x) := by
  rw [show (1.0:ℝ) = 1 by norm_num]; positivity

theorem free_eq (V : InteractionPotential ℝ) (hV : ¬ Screened V) (r a Za Zb E p : ℝ) :
    distance_of_closest_approach_function_singularity_free r a Za Zb E p V
      = distance_of_closest_approach_function r a Za Zb E p V := by
  unfold distance_of_closest_approach_function_singularity_free
  rw [isNaN_real]
  simp only [Bool.false_eq_true, if_false]
  cases V <;> first | rfl | exact absurd (by constructor) hV

theorem well_not_screened (V : InteractionPotential ℝ) (hV : Well V) : ¬ Screened V := by
  intro h; cases hV <;> cases h

theorem firsov_length_pos {Za Zb : ℝ} (hA : 0 < Za) :
    0 < 0.8853*A0 ℝ*powf (sqrt Za + sqrt Zb) (-2.0/3.0 : ℝ) := by
  have h0 := A0_pos
  have h1 : 0 < Real.sqrt Za := Real.sqrt_pos.mpr hA
  have h2 : 0 ≤ Real.sqrt Zb := Real.sqrt_nonneg Zb
  simp only [powf_real, sqrt_real]
  exact mul_pos (mul_pos (by norm_num) h0) (Real.rpow_pos_of_pos (by linarith) _)

theorem well_length (V : InteractionPotential ℝ) (hV : Well V) {Za Zb : ℝ} (hA : 0 < Za) :
    screening_length Za Zb V ≠ 0 := by
  cases hV with
  | lennard_jones_12_6 => exact (firsov_length_pos hA).ne'
  | lennard_jones_65_6 => exact (firsov_length_pos hA).ne'
  | morse _ ha _ => exact ha.ne'
  | tungsten => exact (firsov_length_pos hA).ne'

theorem powi_two_nonneg (x : ℝ) : 0 ≤ powi x 2 := by
  rw [powi_real, show (2:ℤ) = ((2:ℕ):ℤ) from rfl, zpow_natCast]; positivity

/-- **C87, weighting.** The weight the root finder multiplies the function with is, at every distance
and for every potential with parameters that make sense, positive and at most one: it adds no zero, and
removes none. -/
theorem C87_weight (V : InteractionPotential ℝ) (hC : ∀ z1 z2, V ≠ .COULOMB z1 z2)
    (hs : ∀ sigma epsilon, V = .LENNARD_JONES_12_6 sigma epsilon ∨ V = .LENNARD_JONES_65_6 sigma epsilon →
      0 < sigma)
    (hb : ∀ al be, V = .FOUR_EIGHT al be → 0 < be) (r p : ℝ) (hr : 0 ≤ r) :
    ∃ w, scaling_function r p V = .ok w ∧ 0 < w ∧ w ≤ 1 := by
  have key : ∀ x : ℝ, 0 ≤ x → 0 < 1.0/(1.0 + x) ∧ 1.0/(1.0 + x) ≤ 1 := fun x hx =>
    ⟨inv_pos_of_nonneg hx, by
      rw [show (1.0:ℝ) = 1 by norm_num, div_le_one (by linarith)]; linarith⟩
  cases V with
  | COULOMB z1 z2 => exact absurd rfl (hC z1 z2)
  | LENNARD_JONES_12_6 sigma epsilon =>
    have := hs sigma epsilon (.inl rfl)
    exact ⟨_, rfl, key _ (by rw [powf_real]; exact Real.rpow_nonneg (by positivity) _)⟩
  | LENNARD_JONES_65_6 sigma epsilon =>
    have := hs sigma epsilon (.inr rfl)
    exact ⟨_, rfl, key _ (by rw [powf_real]; exact Real.rpow_nonneg (by positivity) _)⟩
  | FOUR_EIGHT al be =>
    have := hb al be rfl
    refine ⟨_, rfl, key _ ?_⟩
    rw [powi_real, show (8:ℤ) = ((8:ℕ):ℤ) from rfl, zpow_natCast]
    positivity
  | WW => exact ⟨_, rfl, by norm_num, by norm_num⟩
  | _ => exact ⟨_, rfl, key _ (powi_two_nonneg _)⟩

theorem well_scaled (V : InteractionPotential ℝ) (hV : Well V) (Za Zb E p : ℝ) :
    ∃ F G : ℝ → ℝ, Scaled V Za Zb E p F G := by
  have hns := well_not_screened V hV
  have hF : ∃ F : ℝ → ℝ, ∀ r, distance_of_closest_approach_function r (screening_length Za Zb V) Za Zb
      E p V = .ok (F r) := by
    cases hV with
    | lennard_jones_12_6 => exact ⟨_, fun r => rfl⟩
    | lennard_jones_65_6 => exact ⟨_, fun r => rfl⟩
    | morse => exact ⟨_, fun r => rfl⟩
    | tungsten =>
      have : ∀ r, ∃ f, distance_of_closest_approach_function r (screening_length Za Zb .WW) Za Zb E p .WW
          = .ok f := by
        intro r
        obtain ⟨_, U, hU, _⟩ := well_nonpos .WW .tungsten (screening_length Za Zb .WW) Za Zb
        have hU' : tungsten_tungsten_cubic_spline r = .ok (U r) := hU r
        have h3 : ∃ f, screened_doca_singularity_free r (74.0:ℝ) 74.0 E p .ZBL = .ok f := by
          have h := phi_expsum .ZBL .zbl (r/screening_length 74.0 74.0 .ZBL)
          simp only [screened_doca_singularity_free, doca_function_transformed, h, bind, Except.bind,
            pure, Except.pure]
          exact ⟨_, rfl⟩
        obtain ⟨f, hf⟩ := h3
        simp only [distance_of_closest_approach_function, doca_tungsten_tungsten_cubic_spline, isNaN_real,
          Bool.false_eq_true, if_false, hU', hf, bind, Except.bind, pure, Except.pure]
        by_cases hx : (r/ANGSTROM ℝ <=. (1.10002200044 : ℝ)) = true
        · exact ⟨_, if_pos hx⟩
        · exact ⟨_, if_neg hx⟩
      choose F hF using this
      exact ⟨F, hF⟩
  obtain ⟨F, hF⟩ := hF
  have hG : ∃ G : ℝ → ℝ, (∀ r, scaling_function r p V = .ok (G r)) ∧ ∀ r, 0 < r → 0 < G r := by
    cases hV with
    | @lennard_jones_12_6 sigma _ hs _ =>
      exact ⟨_, fun r => rfl, fun r hr => inv_pos_of_nonneg (by
        rw [powf_real]; exact Real.rpow_nonneg (by positivity) _)⟩
    | @lennard_jones_65_6 sigma _ hs _ =>
      exact ⟨_, fun r => rfl, fun r hr => inv_pos_of_nonneg (by
        rw [powf_real]; exact Real.rpow_nonneg (by positivity) _)⟩
    | morse => exact ⟨_, fun r => rfl, fun r hr => inv_pos_of_nonneg (powi_two_nonneg _)⟩
    | tungsten => exact ⟨fun _ => 1.0, fun r => rfl, fun r hr => by norm_num⟩
  obtain ⟨G, hG, hp⟩ := hG
  exact ⟨F, G, ⟨hF, fun r => by rw [free_eq V hns]; exact hF r, hG, hp⟩⟩

theorem well_good (V : InteractionPotential ℝ) (hV : Well V) :
    GoodParameters V ∧ ∀ al be, V ≠ .FOUR_EIGHT al be := by
  cases hV with
  | lennard_jones_12_6 hs => exact ⟨hs, fun _ _ h => by cases h⟩
  | lennard_jones_65_6 hs => exact ⟨hs, fun _ _ h => by cases h⟩
  | morse _ ha _ => exact ⟨ha.ne', fun _ _ h => by cases h⟩
  | tungsten => exact ⟨trivial, fun _ _ h => by cases h⟩

/-- **C87.** For the Lennard-Jones, Morse and W-W potentials, with a solver that honours its contract:
what the Chebyshev-proxy root finder returns is the outermost turning point (in units of the screening
length), and it reports failure only if there is no turning point at or beyond `10^-15` metres, where
the search starts. -/
theorem C87_cpr (rcpr : Rcpr ℝ) (V : InteractionPotential ℝ) (hV : Well V)
    (Za Zb Ma Mb E0 p : ℝ) (hA : 0 < Za) (hB : 0 < Zb) (hMa : 0 < Ma) (hMb : 0 < Mb) (hE : 0 < E0)
    (hp : 0 ≤ p) (U : ℝ → ℝ)
    (hU : ∀ r, interaction_potential r (screening_length Za Zb V) Za Zb V = .ok (U r))
    (rf : Rootfinder ℝ)
    (hfind : FindsAllRoots fun g f lb ub => rcpr.find_roots_with_secant_polishing g f lb ub rf) :
    (∀ x, cpr_rootfinder rcpr Za Zb Ma Mb E0 p V rf true = .ok (.ok x) →
      OutermostTurningPoint U (E0*Mb/(Ma + Mb)) p (x*screening_length Za Zb V)) ∧
    (∀ e, cpr_rootfinder rcpr Za Zb Ma Mb E0 p V rf true = .ok (.error e) →
      ∀ r, 1e-15 ≤ r → ¬ TurningPoint (U r) (E0*Mb/(Ma + Mb)) p r) := by
  have hEr : 0 < E0*Mb/(Ma + Mb) := by positivity
  obtain ⟨F, G, hS⟩ := well_scaled V hV Za Zb (E0*Mb/(Ma + Mb)) p
  obtain ⟨hg, h48⟩ := well_good V hV
  exact cpr_core rcpr V Za Zb Ma Mb E0 p U F G hS (well_length V hV hA)
    (fun r hr => (C23_zeros_are_turning_points_partial V Za Zb _ p r _ _ _ h48 hg hA hB hEr hr (hU r)
      (hS.plain r) (hS.free r)).1)
    (fun r hr ht => C87_interval V hV Za Zb _ p hEr hp U hU r hr ht) rf true (by simpa using hfind)
    (fun h => by simp at h)

/-- **C87, Newton polishing.** The same for the two Lennard-Jones forms when the roots are polished
with Newton's method. -/
theorem C87_cpr_newton (rcpr : Rcpr ℝ) (V : InteractionPotential ℝ) (sigma epsilon : ℝ)
    (hV : V = .LENNARD_JONES_12_6 sigma epsilon ∨ V = .LENNARD_JONES_65_6 sigma epsilon)
    (hs : 0 < sigma) (he : 0 < epsilon)
    (Za Zb Ma Mb E0 p : ℝ) (hA : 0 < Za) (hB : 0 < Zb) (hMa : 0 < Ma) (hMb : 0 < Mb) (hE : 0 < E0)
    (hp : 0 ≤ p) (U : ℝ → ℝ)
    (hU : ∀ r, interaction_potential r (screening_length Za Zb V) Za Zb V = .ok (U r))
    (rf : Rootfinder ℝ)
    (hfind : FindsAllRootsNewton fun g f d lb ub => rcpr.find_roots_with_newton_polishing g f d lb ub rf) :
    (∀ x, cpr_rootfinder rcpr Za Zb Ma Mb E0 p V rf false = .ok (.ok x) →
      OutermostTurningPoint U (E0*Mb/(Ma + Mb)) p (x*screening_length Za Zb V)) ∧
    (∀ e, cpr_rootfinder rcpr Za Zb Ma Mb E0 p V rf false = .ok (.error e) →
      ∀ r, 1e-15 ≤ r → ¬ TurningPoint (U r) (E0*Mb/(Ma + Mb)) p r) := by
  have hEr : 0 < E0*Mb/(Ma + Mb) := by positivity
  have hW : Well V := by
    rcases hV with rfl | rfl
    · exact .lennard_jones_12_6 hs he
    · exact .lennard_jones_65_6 hs he
  obtain ⟨F, G, hS⟩ := well_scaled V hW Za Zb (E0*Mb/(Ma + Mb)) p
  obtain ⟨hg, h48⟩ := well_good V hW
  refine cpr_core rcpr V Za Zb Ma Mb E0 p U F G hS (well_length V hW hA)
    (fun r hr => (C23_zeros_are_turning_points_partial V Za Zb _ p r _ _ _ h48 hg hA hB hEr hr (hU r)
      (hS.plain r) (hS.free r)).1)
    (fun r hr ht => C87_interval V hW Za Zb _ p hEr hp U hU r hr ht) rf false (by simpa using hfind)
    (fun _ => ?_)
  rcases hV with rfl | rfl
  · have e : F = fun r => doca_lennard_jones r p (E0*Mb/(Ma + Mb)) sigma epsilon :=
      funext fun r => (Except.ok.inj (hS.plain r)).symm
    rw [e]
    exact ⟨_, fun r _ => rfl, fun r hr => (C23_derivative_lennard_jones_partial 0 Za Zb _ p sigma epsilon
      r hr hs).1⟩
  · have e : F = fun r => doca_lennard_jones_65_6 r p (E0*Mb/(Ma + Mb)) sigma epsilon :=
      funext fun r => (Except.ok.inj (hS.plain r)).symm
    rw [e]
    exact ⟨_, fun r _ => rfl, fun r hr => (C23_derivative_lennard_jones_partial 0 Za Zb _ p sigma epsilon
      r hr hs).2.1⟩

/-- **C87, KRC_MORSE.** The same for the Kr-C/Morse potential, whose search interval ends 10 Angstrom
beyond the impact parameter, if the Morse part is attractive beyond 10 Angstrom and the Kr-C energy
there does not exceed the energy of the radial motion. -/
theorem C87_cpr_krc_morse (rcpr : Rcpr ℝ) (D alpha r0 k x0 : ℝ) (hD : 0 < D) (ha : 0 < alpha)
    (Za Zb Ma Mb E0 p : ℝ) (hA : 0 < Za) (hB : 0 < Zb) (hMa : 0 < Ma) (hMb : 0 < Mb) (hE : 0 < E0)
    (hp : 0 ≤ p) (U K : ℝ → ℝ) (a : ℝ) (haeq : a = screening_length Za Zb (.KRC_MORSE D alpha r0 k x0))
    (hU : ∀ r, interaction_potential r a Za Zb (.KRC_MORSE D alpha r0 k x0) = .ok (U r))
    (hK : ∀ r, interaction_potential r a Za Zb .KR_C = .ok (K r))
    (hM : alpha*(r0 - 1e-9) ≤ Real.log 2)
    (hlow : K (p + 1e-9) ≤ E0*Mb/(Ma + Mb)*(1 - p^2/(p + 1e-9)^2))
    (rf : Rootfinder ℝ)
    (hfind : FindsAllRoots fun g f lb ub => rcpr.find_roots_with_secant_polishing g f lb ub rf) :
    (∀ x, cpr_rootfinder rcpr Za Zb Ma Mb E0 p (.KRC_MORSE D alpha r0 k x0) rf true = .ok (.ok x) →
      OutermostTurningPoint U (E0*Mb/(Ma + Mb)) p (x*a)) ∧
    (∀ e, cpr_rootfinder rcpr Za Zb Ma Mb E0 p (.KRC_MORSE D alpha r0 k x0) rf true = .ok (.error e) →
      ∀ r, 1e-15 ≤ r → ¬ TurningPoint (U r) (E0*Mb/(Ma + Mb)) p r) := by
  have hEr : 0 < E0*Mb/(Ma + Mb) := by positivity
  generalize hEe : E0*Mb/(Ma + Mb) = E at *
  have hapos : 0 < a := by rw [haeq]; exact firsov_length_pos hA
  have hcp : crossing_point_doca (.KRC_MORSE D alpha r0 k x0) = (1e-9 : ℝ) := by
    simp only [crossing_point_doca, ANGSTROM]; norm_num
  have hdef : ∀ r, krc_morse r a Za Zb D alpha r0 k x0 = .ok (U r) := hU
  have hns : ¬ Screened (.KRC_MORSE D alpha r0 k x0 : InteractionPotential ℝ) := fun h => by cases h
  have hS : Scaled (.KRC_MORSE D alpha r0 k x0) Za Zb E p
      (fun r => powi (r*alpha) 2 - powi (r*alpha) 2/E*U r - powi (p*alpha) 2)
      (fun r => 1.0/(1.0 + powi (r*alpha) 2)) := by
    have hpl : ∀ r, distance_of_closest_approach_function r a Za Zb E p (.KRC_MORSE D alpha r0 k x0)
        = .ok (powi (r*alpha) 2 - powi (r*alpha) 2/E*U r - powi (p*alpha) 2) := by
      intro r
      simp only [distance_of_closest_approach_function, doca_krc_morse, hdef, bind, Except.bind, pure,
        Except.pure]
    rw [haeq] at hpl
    exact ⟨hpl, fun r => by rw [free_eq _ hns]; exact hpl r, fun r => rfl,
      fun r _ => inv_pos_of_nonneg (powi_two_nonneg _)⟩
  have hU' := hU
  rw [haeq] at hU'
  obtain ⟨U1, K1, hU1, hK1, hmix, _⟩ := C83_krc_morse a Za Zb D alpha r0 k x0
  have eU : U1 = U := funext fun r => Except.ok.inj ((hU1 r).symm.trans (hU r))
  have eK : K1 = K := funext fun r => Except.ok.inj ((hK1 r).symm.trans (hK r))
  subst eU eK
  obtain ⟨K2, hK2, hanti, hpos⟩ := C19_repulsive .KR_C .kr_c a Za Zb hapos hA hB
  have eK2 : K2 = K1 := funext fun r => Except.ok.inj ((hK2 r).symm.trans (hK r))
  subst eK2
  have hbound : ∀ r, 0 < r → TurningPoint (U1 r) E p r →
      r ≤ p + crossing_point_doca (.KRC_MORSE D alpha r0 k x0) := by
    intro r hr ht
    rw [hcp]
    by_contra hlt
    push Not at hlt
    obtain ⟨w, hw0, hw1, _, hmixr⟩ := hmix r
    have hmorse : morse r D alpha r0 ≤ 0 := by
      obtain ⟨M, hM1, hM2, _⟩ := C83_morse D alpha r0 hD ha
      have : morse r D alpha r0 = M r := Except.ok.inj (hM1 r 0 0 0)
      rw [this, hM2]
      have h3 : Real.exp (-(alpha*(r - r0))) ≤ 2 := by
        rw [show (2:ℝ) = Real.exp (Real.log 2) from (Real.exp_log (by norm_num)).symm]
        apply Real.exp_le_exp.2
        have : alpha*1e-9 ≤ alpha*r := by
          apply mul_le_mul_of_nonneg_left _ ha.le; linarith
        nlinarith
      have h4 := Real.exp_pos (-(alpha*(r - r0)))
      apply mul_nonpos_of_nonneg_of_nonpos hD.le
      nlinarith
    have hK0 := (hpos r hr).1
    have h9 : (0:ℝ) < p + 1e-9 := by positivity
    have hKr : K2 r < K2 (p + 1e-9) := hanti h9 hr hlt
    have h1 : U1 r ≤ K2 r := by
      rw [hmixr]
      nlinarith [mul_nonneg hw0.le hK0.le, mul_nonpos_of_nonneg_of_nonpos hw0.le hmorse]
    have h2 : U1 r = E*(1 - p^2/r^2) := by
      unfold TurningPoint at ht
      have : U1 r/E = 1 - p^2/r^2 := by linarith
      rw [← this]; field_simp
    have h3 : p^2/r^2 ≤ p^2/(p + 1e-9)^2 := by
      apply div_le_div_of_nonneg_left (by positivity) (by positivity)
      exact pow_le_pow_left₀ h9.le hlt.le 2
    have h4 : E*(1 - p^2/(p + 1e-9)^2) ≤ E*(1 - p^2/r^2) :=
      mul_le_mul_of_nonneg_left (by linarith) hEr.le
    linarith
  have := cpr_core rcpr (.KRC_MORSE D alpha r0 k x0) Za Zb Ma Mb E0 p U1 _ _ (by rw [hEe]; exact hS)
    (by rw [← haeq]; exact hapos.ne')
    (fun r hr => by
      rw [hEe]
      exact (C23_zeros_are_turning_points_partial (.KRC_MORSE D alpha r0 k x0) Za Zb E p r _ _ _
      (fun _ _ h => by cases h) ha.ne' hA hB hEr hr (hU' r) (hS.plain r) (hS.free r)).1)
    (fun r hr ht => hbound r hr (by rw [hEe] at ht; exact ht)) rf true (by simpa using hfind)
    (fun h => by simp at h)
  rw [hEe, ← haeq] at this
  exact this

/-- **C87, in a run.** What a collision gets as its distance of closest approach when the options
select the derivative-free Chebyshev-proxy root finder for a well potential: the outermost turning
point, in units of the screening length. -/
theorem C87_distance_of_closest_approach (rcpr : Rcpr ℝ) (hen : rcpr.enabled = true)
    (V : InteractionPotential ℝ) (hV : Well V) (particle_1 particle_2 : Particle ℝ)
    (geom : BinaryCollisionGeometry ℝ) (options : Options ℝ)
    (hA : 0 < particle_1.Z) (hB : 0 < particle_2.Z) (hMa : 0 < particle_1.m) (hMb : 0 < particle_2.m)
    (hE : 0 < particle_1.E) (hp : 0 ≤ geom.impact_parameter)
    (hfin : particle_1.E*particle_2.m/(particle_1.m + particle_2.m) < 10^300)
    (hpot : (vget options.interaction_potential particle_1.interaction_index >>= fun row =>
      vget row particle_2.interaction_index) = .ok V)
    (n0 nmax : Nat) (eps ct tt fz il : ℝ)
    (hroot : (vget options.root_finder particle_1.interaction_index >>= fun row =>
      vget row particle_2.interaction_index) = .ok (.CPR n0 nmax eps ct tt fz il true))
    (hfind : FindsAllRoots fun g f lb ub => rcpr.find_roots_with_secant_polishing g f lb ub
      (.CPR n0 nmax eps ct tt fz il true))
    (U : ℝ → ℝ) (hU : ∀ r, interaction_potential r (screening_length particle_1.Z particle_2.Z V)
      particle_1.Z particle_2.Z V = .ok (U r))
    (x : ℝ) (run : distance_of_closest_approach rcpr particle_1 particle_2 geom options = .ok x) :
    OutermostTurningPoint U (particle_1.E*particle_2.m/(particle_1.m + particle_2.m))
      geom.impact_parameter (x*screening_length particle_1.Z particle_2.Z V) := by
  have h := (C87_cpr rcpr V hV particle_1.Z particle_2.Z particle_1.m particle_2.m particle_1.E
    geom.impact_parameter hA hB hMa hMb hE hp U hU _ hfind).1 x
  apply h
  have hthr : (particle_1.E*particle_2.m/(particle_1.m + particle_2.m) <.
      energy_threshold_single_root V) = true := by
    rw [lt_real]
    have : energy_threshold_single_root V = infinity := by cases hV <;> rfl
    rw [this]
    refine lt_trans hfin ?_
    exact pow_lt_pow_right₀ (by norm_num : (1:ℝ) < 10) (by norm_num)
  unfold distance_of_closest_approach at run
  cases h1 : vget options.interaction_potential particle_1.interaction_index with
  | error e => rw [h1] at hpot; simp [bind, Except.bind] at hpot
  | ok row =>
    rw [h1] at hpot
    have hpot' : vget row particle_2.interaction_index = .ok V := hpot
    cases h2 : vget options.root_finder particle_1.interaction_index with
    | error e => rw [h2] at hroot; simp [bind, Except.bind] at hroot
    | ok row2 =>
      rw [h2] at hroot
      have hroot' : vget row2 particle_2.interaction_index
        = .ok (.CPR n0 nmax eps ct tt fz il true) := hroot
      simp only [h1, hpot', h2, hroot', bind, Except.bind, hthr, if_true, hen] at run
      cases hc : cpr_rootfinder rcpr particle_1.Z particle_2.Z particle_1.m particle_2.m
          particle_1.E geom.impact_parameter V (.CPR n0 nmax eps ct tt fz il true) true with
      | error e =>
        rw [hc] at run
        cases hV <;> simp at run
      | ok r =>
        rw [hc] at run
        cases r with
        | error e => cases hV <;> simp [unwrapA, rpanic] at run
        | ok y => cases hV <;> (simp only [unwrapA] at run; rw [← Except.ok.inj run])

end RustBCA
