import Verif.Ieee
import Verif.Proofs.Ieee
import Verif.Props.NotNaN
import Verif.Props.Yields

/-!
# C123: the yields and coefficients Python gets, as doubles

What the functions of lib.rs return in Rust's `f64`, with rounding, overflow and special values.
-/

namespace RustBCA
open Scalar Spec

/-! ## Counts and their ratios -/

theorem natCast_onGrid {k : Nat} (hk : k ≤ 2^53) : OnGrid (k:ℝ) :=
  ⟨k, 0, by rw [abs_of_nonneg (by positivity)]; exact_mod_cast hk, by norm_num, by simp⟩

theorem small_in_range {x : ℝ} (h : |x| ≤ 2^(64:ℤ)) : |x| < 2^(1024:ℤ) :=
  lt_of_le_of_lt h (zpow_lt_zpow_right₀ (by norm_num) (by norm_num))

theorem toX_ofNat (L : Libm) {k : Nat} (hk : k ≤ 2^53) : B64.toX (ofNat k : Ieee L) = .fin k := by
  have h := B64.toX_ofReal (neg := false) (x := (k:ℝ)) (by
    rw [ieeeRound_exact (natCast_onGrid hk)]
    apply small_in_range
    rw [abs_of_nonneg (by positivity)]
    calc (k:ℝ) ≤ 2^53 := by exact_mod_cast hk
      _ ≤ 2^(64:ℤ) := by norm_num)
  rw [ieeeRound_exact (natCast_onGrid hk)] at h
  exact h

/-- Division by a number that is not zero. -/
theorem toX_div (L : Libm) (a b : Ieee L) {y : ℝ} (hb : B64.toX b = .fin y) (hy : y ≠ 0) :
    ∃ neg, B64.toX (a/b : Ieee L) = B64.toX (B64.ofX neg (XReal.div (B64.toX a) (.fin y))) := by
  have key : ∀ b : B64, b.toX = .fin y → ∃ neg, B64.toX (B64.div a b) = B64.toX (B64.ofX neg (XReal.div (B64.toX a) (.fin y))) := by
    intro b hb
    cases b with
    | num x => exact ⟨_, by rw [← hb]; rfl⟩
    | negZero =>
      injection hb with hb
      exact absurd hb.symm hy
    | pinf => cases hb
    | ninf => cases hb
    | nan => cases hb
  exact key b hb

theorem xdiv_fin (a : ℝ) {b : ℝ} (hb : b ≠ 0) : XReal.div (.fin a) (.fin b) = .fin (a/b) := by
  show (if b = 0 then _ else _) = _
  rw [if_neg hb]

theorem xdiv_pinf {b : ℝ} (hb : 0 < b) : XReal.div .pinf (.fin b) = .pinf := by
  show (if b < 0 then _ else _) = _
  rw [if_neg (not_lt.2 hb.le)]

/-- The quotient of two counts. -/
theorem toX_ratio (L : Libm) {k n : Nat} (hk : k < 2^31) (hn : 0 < n) (hn2 : n ≤ 2^53) :
    B64.toX (ofNat k/ofNat n : Ieee L) = .fin (ieeeRound ((k:ℝ)/n)) := by
  have hn' : (n:ℝ) ≠ 0 := by positivity
  obtain ⟨neg, h⟩ := toX_div L (ofNat k) (ofNat n) (toX_ofNat L hn2) hn'
  rw [h, toX_ofNat L (by omega)]
  rw [xdiv_fin _ hn']
  refine B64.toX_ofReal ?_
  have h1 : |ieeeRound ((k:ℝ)/n)| ≤ 2^31 := by
    have hg : OnGrid ((2:ℝ)^31) := by
      have := natCast_onGrid (k := 2^31) (by norm_num)
      exact_mod_cast this
    have h0 : 0 ≤ ieeeRound ((k:ℝ)/n) := by
      have := ieeeRound_mono (show (0:ℝ) ≤ (k:ℝ)/n by positivity)
      rwa [ieeeRound_zero] at this
    rw [abs_of_nonneg h0, ← ieeeRound_exact hg]
    apply ieeeRound_mono
    rw [div_le_iff₀ (by positivity)]
    have h1 : (k:ℝ) ≤ 2^31 := by exact_mod_cast hk.le
    have h2 : (1:ℝ) ≤ n := by exact_mod_cast hn
    nlinarith
  exact small_in_range (h1.trans (by norm_num))

/-- A count over a number of samples: the double nearest to the ratio. -/
structure Spec.RoundedRatio (L : Libm) (k n : Nat) (r : Ieee L) : Prop where
  value : B64.toX r = .fin (ieeeRound ((k:ℝ)/n))
  nearest : ∀ d : ℝ, IsF64 d → |ieeeRound ((k:ℝ)/n) - (k:ℝ)/n| ≤ |d - (k:ℝ)/n|
  error : |ieeeRound ((k:ℝ)/n) - (k:ℝ)/n| ≤ 2^(-53:ℤ)*((k:ℝ)/n)
  zero : ieeeRound ((k:ℝ)/n) = 0 ↔ k = 0

theorem rounded_ratio (L : Libm) {k n : Nat} (hk : k < 2^31) (hn : 0 < n) (hn2 : n ≤ 2^53) :
    RoundedRatio L k n (ofNat k/ofNat n) := by
  have hn' : (0:ℝ) < n := by exact_mod_cast hn
  have h0 : (0:ℝ) ≤ (k:ℝ)/n := by positivity
  have herr : |ieeeRound ((k:ℝ)/n) - (k:ℝ)/n| ≤ 2^(-53:ℤ)*((k:ℝ)/n) := by
    rcases Nat.eq_zero_or_pos k with rfl | hkp
    · simp [ieeeRound_zero]
    · have h1 := ieeeRound_error (x := (k:ℝ)/n) (by
        rw [abs_of_nonneg h0, le_div_iff₀ hn']
        have h1 : (1:ℝ) ≤ k := by exact_mod_cast hkp
        have h2 : (n:ℝ) ≤ 2^(53:ℤ) := by exact_mod_cast hn2
        calc (2:ℝ)^(-1022:ℤ)*n ≤ 2^(-1022:ℤ)*2^(53:ℤ) := mul_le_mul_of_nonneg_left h2 (by positivity)
          _ = 2^(-969:ℤ) := by rw [← zpow_add₀ (by norm_num)]; norm_num
          _ ≤ 2^(0:ℤ) := zpow_le_zpow_right₀ (by norm_num) (by norm_num)
          _ ≤ k := by simpa using h1)
      rwa [abs_of_nonneg h0] at h1
  refine ⟨toX_ratio L hk hn hn2, fun d hd => ieeeRound_nearest _ _ hd.1, herr, fun h => ?_, fun h => ?_⟩
  · rw [h, zero_sub, abs_neg, abs_of_nonneg h0] at herr
    by_contra hk0
    have hkp : (0:ℝ) < (k:ℝ)/n := by
      have : (0:ℝ) < k := by exact_mod_cast Nat.pos_of_ne_zero hk0
      positivity
    have : (2:ℝ)^(-53:ℤ) < 1 := by norm_num
    nlinarith
  · rw [h]; simp [ieeeRound_zero]

theorem one_onGrid : OnGrid 1 := ⟨1, 0, by norm_num, by norm_num, by norm_num⟩

theorem ratio_le_one {k n : Nat} (hkn : k ≤ n) (hn : 0 < n) (hn2 : n < 2^31) :
    0 ≤ ieeeRound ((k:ℝ)/n) ∧ ieeeRound ((k:ℝ)/n) ≤ 1 ∧ (ieeeRound ((k:ℝ)/n) = 1 ↔ k = n) := by
  have hn' : (0:ℝ) < n := by exact_mod_cast hn
  have hk' : (k:ℝ) ≤ n := by exact_mod_cast hkn
  have h0 := ieeeRound_mono (show (0:ℝ) ≤ (k:ℝ)/n by positivity)
  rw [ieeeRound_zero] at h0
  have h1 := ieeeRound_mono (show (k:ℝ)/n ≤ 1 from (div_le_one hn').2 hk')
  rw [ieeeRound_exact one_onGrid] at h1
  refine ⟨h0, h1, fun h => ?_, fun h => ?_⟩
  · by_contra hne
    have hlt : k + 1 ≤ n := by omega
    have herr := (rounded_ratio ⟨id, id, id, id, id, id, fun a _ => a, fun a _ => a, fun a _ => a⟩
      (k := k) (by omega) hn (by omega)).error
    rw [h] at herr
    have h3 : (k:ℝ)/n ≤ 1 - 1/2^31 := by
      rw [div_le_iff₀ hn']
      have a1 : (k:ℝ) + 1 ≤ n := by exact_mod_cast hlt
      have a2 : (n:ℝ) ≤ 2^31 := by exact_mod_cast hn2.le
      have : (1/2^31:ℝ)*n ≤ 1 := by rw [div_mul_eq_mul_div, one_mul]; exact (div_le_one (by positivity)).2 a2
      linarith
    have h4 : (1:ℝ)/2^31 ≤ |1 - (k:ℝ)/n| := by rw [le_abs]; left; linarith
    have h5 : (2:ℝ)^(-53:ℤ)*((k:ℝ)/n) ≤ 2^(-53:ℤ)*1 :=
      mul_le_mul_of_nonneg_left (by linarith [show (0:ℝ) < 1/2^31 by positivity]) (by positivity)
    have h6 : (2:ℝ)^(-53:ℤ)*1 < 1/2^31 := by norm_num
    linarith
  · rw [h, div_self hn'.ne', ieeeRound_exact one_onGrid]

/-- **C123** (sputtering yield) As long as the 32-bit counter does not overflow, `sputtering_yield` returns the double
nearest to the number of sputtered atoms per sample; it is zero exactly if no atom is sputtered. -/
theorem C123_sputtering_yield (L : Libm) {rcpr : Rcpr (Ieee L)} {fuel : Nat} {ext : Ext (Ieee L)}
    {ion target : PyDict (Ieee L)} {energy angle : Ieee L} {n : Nat} {tapes : Nat → Tape (Ieee L)} {r : Ieee L}
    (hn : 0 < n) (hn2 : n ≤ 2^53) (h : sputtering_yield rcpr fuel ext ion target energy angle n tapes r) :
    ∃ outs, sputtering_samples rcpr fuel ext ion target energy angle n tapes = .ok outs ∧ outs.length = n ∧
      (howMany SputteredAway outs.flatten < 2^31 → RoundedRatio L (howMany SputteredAway outs.flatten) n r) := by
  obtain ⟨outs, h1, h2, h3⟩ := sputtering_yield_value h
  refine ⟨outs, h1, h2, fun hk => ?_⟩
  rw [h3 hk]
  exact rounded_ratio L hk hn hn2

/-! ## Energies -/

/-- A number that is not negative, or positive infinity. -/
def Spec.NotBelowZero (a : B64) : Prop := a.toX = .pinf ∨ ∃ x : ℝ, 0 ≤ x ∧ a.toX = .fin x

theorem ofReal_not_below {neg : Bool} {x : ℝ} (hx : 0 ≤ x) : NotBelowZero (B64.ofReal neg x) := by
  by_cases h : |ieeeRound x| < 2^(1024:ℤ)
  · right
    refine ⟨ieeeRound x, ?_, B64.toX_ofReal h⟩
    have := ieeeRound_mono hx
    rwa [ieeeRound_zero] at this
  · left
    rw [B64.toX_overflow (not_lt.1 h), if_neg (not_lt.2 hx)]

theorem add_not_below {L : Libm} {a b : Ieee L} (ha : NotBelowZero a) (hb : NotBelowZero b) :
    NotBelowZero (a + b : Ieee L) := by
  show NotBelowZero (B64.ofX _ (XReal.add (B64.toX a) (B64.toX b)))
  rcases ha with ha | ⟨x, hx, ha⟩ <;> rcases hb with hb | ⟨y, hy, hb⟩ <;> rw [ha, hb]
  · exact .inl rfl
  · exact .inl rfl
  · exact .inl rfl
  · exact ofReal_not_below (add_nonneg hx hy)

theorem div_not_below {L : Libm} {a b : Ieee L} {y : ℝ} (ha : NotBelowZero a) (hb : B64.toX b = .fin y) (hy : 0 < y) :
    NotBelowZero (a/b : Ieee L) := by
  obtain ⟨neg, h⟩ := toX_div L a b hb hy.ne'
  unfold NotBelowZero
  rw [h]
  show NotBelowZero (B64.ofX neg _)
  rcases ha with ha | ⟨x, hx, ha⟩ <;> rw [ha]
  · left
    rw [xdiv_pinf hy]
    rfl
  · rw [xdiv_fin _ hy.ne']
    exact ofReal_not_below (div_nonneg hx hy.le)

theorem positive_not_below {L : Libm} {a : Ieee L} (h : ((0.0 : Ieee L) <. a) = true) : NotBelowZero a := by
  have h2 : B64.toX (0.0 : Ieee L) = .fin 0 := by
    have := B64.toX_ofReal (neg := false) (x := (0.0:ℝ)) (by
      rw [show (0.0:ℝ) = 0 by norm_num, ieeeRound_zero, abs_zero]; positivity)
    rw [show (0.0:ℝ) = 0 by norm_num, ieeeRound_zero] at this
    rw [← this, ← show (0.0:ℝ) = 0 by norm_num]
    rfl
  have h1 : XReal.lt (.fin 0) (B64.toX a) = true := by rw [← h2]; exact h
  unfold NotBelowZero
  cases ha : B64.toX a with
  | fin x =>
    rw [ha] at h1
    simp only [XReal.lt, decide_eq_true_eq] at h1
    exact .inr ⟨x, h1.le, rfl⟩
  | pinf => exact .inl rfl
  | ninf => rw [ha] at h1; simp [XReal.lt] at h1
  | nan => rw [ha] at h1; simp [XReal.lt] at h1

theorem fsum_not_below {L : Libm} : ∀ (l : List (Ieee L)) (a : Ieee L), NotBelowZero a → (∀ x ∈ l, NotBelowZero x) →
    NotBelowZero (l.foldl (· + ·) a : Ieee L)
  | [], _, ha, _ => ha
  | x :: l, a, ha, hl => fsum_not_below l (a + x) (add_not_below ha (hl x (by simp))) (fun y hy => hl y (by simp [hy]))

theorem ev_f64 (L : Libm) : ∃ x : ℝ, 0 < x ∧ B64.toX (EV (Ieee L)) = .fin x := by
  have hpos : (2:ℝ)^(-1022:ℤ) ≤ |(1.602176634e-19:ℝ)| := by
    rw [abs_of_pos (by norm_num)]
    calc (2:ℝ)^(-1022:ℤ) ≤ 2^(-63:ℤ) := zpow_le_zpow_right₀ (by norm_num) (by norm_num)
      _ ≤ _ := by norm_num
  have h := ieeeRound_error hpos
  rw [abs_of_pos (show (0:ℝ) < 1.602176634e-19 by norm_num), abs_le] at h
  have h53 : (2:ℝ)^(-53:ℤ) ≤ 1/2 := by norm_num
  have hm : (2:ℝ)^(-53:ℤ)*1.602176634e-19 ≤ 1/2*1.602176634e-19 := mul_le_mul_of_nonneg_right h53 (by norm_num)
  refine ⟨ieeeRound 1.602176634e-19, ?_, B64.toX_ofReal ?_⟩
  · norm_num at h hm ⊢
    linarith [h.1]
  · apply small_in_range
    rw [abs_le]
    norm_num at h hm ⊢
    constructor <;> linarith [h.1, h.2]

/-- What C123 says of the pair of coefficients: the fraction of ions reflected, rounded, between 0 and 1 in doubles
too, exactly 0 or 1 only if none or all are; and a fraction of energy that is neither NaN nor below zero. -/
structure Spec.SoundCoefficients (L : Libm) (k n : Nat) (r : Ieee L × Ieee L) : Prop where
  ratio : RoundedRatio L k n r.1
  bounds : 0 ≤ ieeeRound ((k:ℝ)/n) ∧ ieeeRound ((k:ℝ)/n) ≤ 1
  all : ieeeRound ((k:ℝ)/n) = 1 ↔ k = n
  energy : NotBelowZero r.2

theorem sound_coefficients (L : Libm) {outs : List (List (Particle (Ieee L)))} {energy : Ieee L} {e : ℝ} {n : Nat}
    {r : Ieee L × Ieee L} {l : List (Ieee L)} (hn : 0 < n) (hn2 : n < 2^31)
    (he : B64.toX energy = .fin e) (he0 : 0 < e) (hle : howMany ReflectedBack outs.flatten ≤ n)
    (h3 : r.1 = ofNat (howMany ReflectedBack outs.flatten) / ofNat n)
    (hp : List.Perm l (energiesOf ReflectedBack outs.flatten))
    (h4 : r.2 = fsum l / EV (Ieee L) / energy / ofNat n) :
    SoundCoefficients L (howMany ReflectedBack outs.flatten) n r := by
  obtain ⟨b1, b2, b3⟩ := ratio_le_one hle hn hn2
  refine ⟨by rw [h3]; exact rounded_ratio L (by omega) hn (by omega), ⟨b1, b2⟩, b3, ?_⟩
  rw [h4]
  obtain ⟨ev, hev0, hev⟩ := ev_f64 L
  refine div_not_below (div_not_below (div_not_below ?_ hev hev0) he he0) (toX_ofNat L (by omega)) (by exact_mod_cast hn)
  refine fsum_not_below l _ (ofReal_not_below (by norm_num)) (fun x hx => ?_)
  have hx' := hp.mem_iff.1 hx
  unfold energiesOf at hx'
  simp only [List.mem_map, List.mem_filter, decide_eq_true_eq] at hx'
  obtain ⟨q, ⟨_, hq⟩, rfl⟩ := hx'
  exact positive_not_below hq.2.2.2

/-- **C123** (reflection coefficient) For fewer than `2^31` samples and a positive finite energy. -/
theorem C123_reflection_coefficient (L : Libm) {rcpr : Rcpr (Ieee L)} {fuel : Nat} {ext : Ext (Ieee L)}
    {ion target : PyDict (Ieee L)} {energy angle : Ieee L} {e : ℝ} {n : Nat} {tapes : Nat → Tape (Ieee L)}
    {r : Ieee L × Ieee L} (hn : 0 < n) (hn2 : n < 2^31) (he : B64.toX energy = .fin e) (he0 : 0 < e)
    (h : reflection_coefficient rcpr fuel ext ion target energy angle n tapes r) :
    ∃ outs, reflection_samples rcpr fuel ext ion target energy angle n tapes = .ok outs ∧ outs.length = n ∧
      SoundCoefficients L (howMany ReflectedBack outs.flatten) n r := by
  obtain ⟨outs, h1, hlen, h2⟩ := reflection_coefficient_value h
  obtain ⟨-, m, hm⟩ := reflection_samples_ok h1
  have hle := reflected_le hm
  rw [hlen] at hle
  obtain ⟨h3, l, hp, h4⟩ := h2 (by omega)
  exact ⟨outs, h1, hlen, sound_coefficients L hn hn2 he he0 hle h3 hp h4⟩

/-- **C123** (compound reflection coefficient) The same. -/
theorem C123_compound_reflection_coefficient (L : Libm) {rcpr : Rcpr (Ieee L)} {fuel : Nat} {ext : Ext (Ieee L)}
    {ion : PyDict (Ieee L)} {targets : List (PyDict (Ieee L))} {ns : List (Ieee L)} {energy angle : Ieee L} {e : ℝ} {n : Nat}
    {tapes : Nat → Tape (Ieee L)} {r : Ieee L × Ieee L} (hn : 0 < n) (hn2 : n < 2^31) (he : B64.toX energy = .fin e)
    (he0 : 0 < e) (h : compound_reflection_coefficient rcpr fuel ext ion targets ns energy angle n tapes r) :
    ∃ outs, compound_reflection_samples rcpr fuel ext ion targets ns energy angle n tapes = .ok outs ∧ outs.length = n ∧
      SoundCoefficients L (howMany ReflectedBack outs.flatten) n r := by
  obtain ⟨outs, h1, hlen, h2⟩ := compound_reflection_coefficient_value h
  obtain ⟨-, m, hm⟩ := compound_reflection_samples_ok h1
  have hle := reflected_le hm
  rw [hlen] at hle
  obtain ⟨h3, l, hp, h4⟩ := h2 (by omega)
  exact ⟨outs, h1, hlen, sound_coefficients L hn hn2 he he0 hle h3 hp h4⟩

/-! ## Schedules -/

section
variable {F : Type} [Scalar F]

/-- The pool with the counters changed and worker `i` at the head of its loop with `rest` to do. -/
def Pool.served (s : Pool F) (i : Nat) (rest : List (Particle F)) (num : Int) (energy : F) : Pool F :=
  { s.set i ⟨rest, .scan⟩ with num := num, energy := energy }

/-- One worker that is left alone works off its sample. -/
theorem pool_serve (counted : Particle F → Bool) (n i : Nat) (hi : i < n) : ∀ (todo : List (Particle F)) (s : Pool F),
    s.workers i = ⟨todo, .scan⟩ → s.numLock = none → s.energyLock = none →
    ∃ num, Pool.Reaches counted true n s
      (s.served i [] num (((todo.filter counted).map (·.E)).foldl (· + ·) s.energy))
  | [], s, hw, _, _ => ⟨s.num, by
      have : s.served i [] s.num s.energy = s := by
        obtain ⟨w, a, b, c, d⟩ := s
        simp only [Pool.served, Pool.set, Pool.mk.injEq, and_self, and_true]
        rw [← hw]
        exact Function.update_eq_self i w
      simp only [List.filter_nil, List.map_nil, List.foldl_nil, this]
      exact .refl⟩
  | p :: rest, s, hw, hn, he => by
    by_cases hc : counted p = true
    · obtain ⟨num, hrest⟩ := pool_serve counted n i hi rest (s.served i rest (i32_add s.num 1) (s.energy + p.E))
        (by simp [Pool.served, Pool.set]) hn he
      refine ⟨num, ?_⟩
      have hfold : (((p :: rest).filter counted).map (·.E)).foldl (· + ·) s.energy =
          ((rest.filter counted).map (·.E)).foldl (· + ·) (s.energy + p.E) := by
        simp [hc]
      rw [hfold]
      have hend : (s.served i rest (i32_add s.num 1) (s.energy + p.E)).served i [] num
          (((rest.filter counted).map (·.E)).foldl (· + ·) (s.energy + p.E)) =
          s.served i [] num (((rest.filter counted).map (·.E)).foldl (· + ·) (s.energy + p.E)) := by
        simp [Pool.served, Pool.set]
      have hrest' : Pool.Reaches counted true n (s.served i rest (i32_add s.num 1) (s.energy + p.E))
          (s.served i [] num (((rest.filter counted).map (·.E)).foldl (· + ·) (s.energy + p.E))) := by
        rw [← hend]; exact hrest
      refine Relation.ReflTransGen.trans ?_ hrest'
      have st : ∀ {a b : Pool F}, a.step counted true i = some b → Pool.Step counted true n a b :=
        fun h => ⟨i, hi, h⟩
      refine .head (b := s.set i ⟨rest, .wantNum p⟩) (st (by simp [Pool.step, hw, hc])) ?_
      refine .head (b := { s.set i ⟨rest, .haveNum p⟩ with numLock := some i })
        (st (by simp [Pool.step, Pool.set, hn])) ?_
      refine .head (b := { s.set i ⟨rest, .storeNum p s.num⟩ with numLock := some i })
        (st (by simp [Pool.step, Pool.set])) ?_
      refine .head (b := { s.set i ⟨rest, .wantEnergy p⟩ with num := i32_add s.num 1, numLock := some i })
        (st (by simp [Pool.step, Pool.set])) ?_
      refine .head (b := { s.set i ⟨rest, .haveEnergy p⟩ with
          num := i32_add s.num 1, numLock := some i, energyLock := some i })
        (st (by simp [Pool.step, Pool.set, he])) ?_
      refine .head (b := { s.set i ⟨rest, .storeEnergy p s.energy⟩ with
          num := i32_add s.num 1, numLock := some i, energyLock := some i })
        (st (by simp [Pool.step, Pool.set])) ?_
      refine .head (b := { s.set i ⟨rest, .dropEnergy⟩ with
          num := i32_add s.num 1, energy := s.energy + p.E, numLock := some i, energyLock := some i })
        (st (by simp [Pool.step, Pool.set])) ?_
      refine .head (b := { s.set i ⟨rest, .dropNum⟩ with
          num := i32_add s.num 1, energy := s.energy + p.E, numLock := some i, energyLock := none })
        (st (by simp [Pool.step, Pool.set])) ?_
      refine .single (st ?_)
      simp [Pool.step, Pool.set, Pool.served, hn, he]
    · obtain ⟨num, hrest⟩ := pool_serve counted n i hi rest (s.set i ⟨rest, .scan⟩)
        (by simp [Pool.set]) hn he
      refine ⟨num, .head (b := s.set i ⟨rest, .scan⟩) ⟨i, hi, by simp [Pool.step, hw, hc]⟩ ?_⟩
      have hend : (s.set i ⟨rest, .scan⟩).served i [] num
          (((rest.filter counted).map (·.E)).foldl (· + ·) s.energy) =
          s.served i [] num ((((p :: rest).filter counted).map (·.E)).foldl (· + ·) s.energy) := by
        simp [Pool.served, Pool.set, hc]
      rw [← hend]
      exact hrest

/-- The workers of a list, one after the other. -/
theorem pool_serve_all (counted : Particle F → Bool) (outs : List (List (Particle F))) (n : Nat) :
    ∀ (order : List Nat), order.Nodup → (∀ i ∈ order, i < n) → ∀ s : Pool F,
    (∀ i ∈ order, s.workers i = ⟨outs.getD i [], .scan⟩) → s.numLock = none → s.energyLock = none →
    ∃ f, Pool.Reaches counted true n s f ∧ (∀ i ∈ order, f.workers i = ⟨[], .scan⟩) ∧
      (∀ i, i ∉ order → f.workers i = s.workers i) ∧
      f.energy = ((((order.map fun i => outs.getD i []).flatten).filter counted).map (·.E)).foldl (· + ·) s.energy
  | [], _, _, s, _, _, _ => ⟨s, .refl, by simp, by simp, rfl⟩
  | i :: order, hnd, hlt, s, hs, hn, he => by
    obtain ⟨num, h1⟩ := pool_serve counted n i (hlt i (by simp)) _ s (hs i (by simp)) hn he
    obtain ⟨hni, hnd'⟩ := List.nodup_cons.1 hnd
    obtain ⟨f, h2, h3, h4, h5⟩ := pool_serve_all counted outs n order hnd' (fun j hj => hlt j (by simp [hj]))
      (s.served i [] num ((((outs.getD i []).filter counted).map (·.E)).foldl (· + ·) s.energy))
      (fun j hj => by
        have : j ≠ i := fun h => hni (h ▸ hj)
        simp only [Pool.served, Pool.set, Function.update_of_ne this]
        exact hs j (by simp [hj])) hn he
    refine ⟨f, h1.trans h2, ?_, ?_, ?_⟩
    · intro j hj
      rcases List.mem_cons.1 hj with rfl | hj
      · rw [h4 _ hni]; simp [Pool.served, Pool.set]
      · exact h3 j hj
    · intro j hj
      simp only [List.mem_cons, not_or] at hj
      rw [h4 j hj.2]
      simp [Pool.served, Pool.set, Function.update_of_ne hj.1]
    · rw [h5]
      simp [Pool.served, List.filter_append, List.foldl_append]

/-- **C123** (every order of the samples occurs) For every order of the samples some schedule of the threads adds the
reflected energies in that order. -/
theorem C123_every_order (counted : Particle F → Bool) (outs : List (List (Particle F))) (order : List Nat)
    (horder : order.Perm (List.range outs.length)) :
    ∃ f, Pool.Reaches counted true outs.length (Pool.initial outs) f ∧ f.finished outs.length ∧
      f.energy = fsum ((((order.map fun i => outs.getD i []).flatten).filter counted).map (·.E)) := by
  obtain ⟨f, h1, h2, -, h3⟩ := pool_serve_all counted outs outs.length order
    (horder.nodup_iff.2 List.nodup_range) (fun i hi => List.mem_range.1 (horder.mem_iff.1 hi)) (Pool.initial outs)
    (fun i _ => rfl) rfl rfl
  refine ⟨f, h1, fun i hi => ?_, h3⟩
  rw [h2 i (horder.mem_iff.2 (List.mem_range.2 hi))]
  exact ⟨rfl, rfl⟩

/-- **C123** (every order of the samples occurs) The same for the value `reflection_coefficient` returns. -/
theorem C123_every_order_value {rcpr : Rcpr F} {fuel : Nat} {ext : Ext F} {ion target : PyDict F}
    {energy angle : F} {n : Nat} {tapes : Nat → Tape F} {outs : List (List (Particle F))}
    (h : reflection_samples rcpr fuel ext ion target energy angle n tapes = .ok outs) (order : List Nat)
    (horder : order.Perm (List.range n)) :
    ∃ r, reflection_coefficient rcpr fuel ext ion target energy angle n tapes r ∧
      r.2 = fsum (energiesOf ReflectedBack (order.map fun i => outs.getD i []).flatten) / EV F / energy / ofNat n := by
  obtain ⟨hlen, -⟩ := reflection_samples_ok h
  subst hlen
  obtain ⟨f, h1, h2, h3⟩ := C123_every_order reflected_particle outs order horder
  refine ⟨coefficients f energy outs.length, ⟨outs, f, h, h1, h2, rfl⟩, ?_⟩
  rw [energiesOf_eq reflected_iff]
  unfold coefficients
  simp only
  rw [h3]

end

/-! ## The order matters in doubles -/

theorem tie_down : ieeeRound (2^53 + 1) = 2^53 := by
  have hl : Int.log 2 |(2:ℝ)^53 + 1| = 53 := by
    rw [abs_of_pos (by positivity)]
    apply le_antisymm
    · have : Int.log 2 ((2:ℝ)^53 + 1) < 54 := by
        rw [← Int.lt_zpow_iff_log_lt (b := 2) (by norm_num) (by positivity)]
        norm_num
      omega
    · rw [← Int.zpow_le_iff_le_log (b := 2) (by norm_num) (by positivity)]
      norm_num
  have hd : lastDigit ((2:ℝ)^53 + 1) = 1 := by
    unfold lastDigit
    rw [hl]; norm_num
  have hf : ⌊((2:ℝ)^53 + 1)/2^(1:ℤ)⌋ = 2^52 := by
    rw [Int.floor_eq_iff]
    constructor <;> norm_num
  have hfr : Int.fract (((2:ℝ)^53 + 1)/2^(1:ℤ)) = 1/2 := by
    unfold Int.fract
    rw [hf]; norm_num
  unfold ieeeRound
  rw [hd]
  unfold nearestEven
  rw [hfr, if_neg (lt_irrefl _), if_neg (lt_irrefl _), hf, if_pos ⟨2^51, by norm_num⟩]
  norm_num

theorem toX_add_fin (L : Libm) {a b : Ieee L} {x y : ℝ} (ha : B64.toX a = .fin x) (hb : B64.toX b = .fin y)
    (h : |ieeeRound (x + y)| ≤ 2^(64:ℤ)) : B64.toX (a + b : Ieee L) = .fin (ieeeRound (x + y)) := by
  show B64.toX (B64.ofX _ (XReal.add (B64.toX a) (B64.toX b))) = _
  rw [ha, hb]
  exact B64.toX_ofReal (small_in_range h)

theorem toX_zero (L : Libm) : B64.toX (0.0 : Ieee L) = .fin 0 := by
  have := B64.toX_ofReal (neg := false) (x := (0.0:ℝ)) (by
    rw [show (0.0:ℝ) = 0 by norm_num, ieeeRound_zero, abs_zero]; positivity)
  rw [show (0.0:ℝ) = 0 by norm_num, ieeeRound_zero] at this
  rw [← this, ← show (0.0:ℝ) = 0 by norm_num]
  rfl

/-- **C123** (refuted: the energy coefficient does not depend on the schedule) Three samples with one reflected ion
each, of energies `2^53`, 1 and 1 (in some unit): one schedule of the threads ends with the sum `2^53`, another with
`2^53 + 2`. -/
theorem C123_schedule_matters (L : Libm) (a b c : Particle (Ieee L)) (counted : Particle (Ieee L) → Bool)
    (hc : counted a = true ∧ counted b = true ∧ counted c = true)
    (ha : B64.toX a.E = .fin (2^53)) (hb : B64.toX b.E = .fin 1) (hc' : B64.toX c.E = .fin 1) :
    ∃ f f', Pool.Reaches counted true 3 (Pool.initial [[a], [b], [c]]) f ∧ f.finished 3 ∧
      Pool.Reaches counted true 3 (Pool.initial [[a], [b], [c]]) f' ∧ f'.finished 3 ∧
      B64.toX f.energy = .fin (2^53) ∧ B64.toX f'.energy = .fin (2^53 + 2) := by
  obtain ⟨f, h1, h2, h3⟩ := C123_every_order counted [[a], [b], [c]] [0, 1, 2]
    (show List.Perm [0, 1, 2] (List.range 3) by decide)
  obtain ⟨f', h1', h2', h3'⟩ := C123_every_order counted [[a], [b], [c]] [1, 2, 0]
    (show List.Perm [1, 2, 0] (List.range 3) by decide)
  refine ⟨f, f', h1, h2, h1', h2', ?_, ?_⟩
  · rw [h3]
    have e : ((([0, 1, 2].map fun i => [[a], [b], [c]].getD i []).flatten).filter counted).map (·.E) = [a.E, b.E, c.E] := by
      simp [hc.1, hc.2.1, hc.2.2]
    rw [e]
    show B64.toX (0.0 + a.E + b.E + c.E : Ieee L) = _
    have g1 : ieeeRound (0 + (2:ℝ)^53) = 2^53 := by
      rw [zero_add]
      have := natCast_onGrid (k := 2^53) le_rfl
      exact ieeeRound_exact (by exact_mod_cast this)
    have s1 := toX_add_fin L (toX_zero L) ha (by rw [g1]; norm_num)
    rw [g1] at s1
    have s2 := toX_add_fin L s1 hb (by rw [tie_down]; norm_num)
    rw [tie_down] at s2
    have s3 := toX_add_fin L s2 hc' (by rw [tie_down]; norm_num)
    rwa [tie_down] at s3
  · rw [h3']
    have e : ((([1, 2, 0].map fun i => [[a], [b], [c]].getD i []).flatten).filter counted).map (·.E) = [b.E, c.E, a.E] := by
      simp [hc.1, hc.2.1, hc.2.2]
    rw [e]
    show B64.toX (0.0 + b.E + c.E + a.E : Ieee L) = _
    have g1 : ieeeRound (0 + (1:ℝ)) = 1 := by rw [zero_add]; exact ieeeRound_exact one_onGrid
    have g2 : ieeeRound (1 + (1:ℝ)) = 2 := by
      rw [show (1:ℝ) + 1 = 2 by norm_num]
      exact ieeeRound_exact ⟨2, 0, by norm_num, by norm_num, by norm_num⟩
    have g3 : ieeeRound (2 + (2:ℝ)^53) = 2^53 + 2 := by
      rw [add_comm]
      exact ieeeRound_exact ⟨2^52 + 1, 1, by norm_num, by norm_num, by norm_num⟩
    have s1 := toX_add_fin L (toX_zero L) hb (by rw [g1]; norm_num)
    rw [g1] at s1
    have s2 := toX_add_fin L s1 hc' (by rw [g2]; norm_num)
    rw [g2] at s2
    have s3 := toX_add_fin L s2 ha (by rw [g3]; norm_num)
    rwa [g3] at s3

end RustBCA
