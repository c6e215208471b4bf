import Verif.Spec.Polygon
import Verif.Scalar
import Mathlib.Topology.Order.IntermediateValue
import Mathlib.Tactic.Linarith
import Mathlib.Tactic.Abel
import Mathlib.Tactic.FieldSimp
import Mathlib.Tactic.LinearCombination

/-!
# Winding numbers of polygons
-/

set_option linter.unusedVariables false
set_option linter.unusedSimpArgs false

namespace RustBCA
open Spec Scalar

theorem orient2d_real (A B P : ℝ × ℝ) : Geo.orient2d A B P = leftOf A B P := rfl

theorem value_in_between_iff (v a b : ℝ) :
    Geo.value_in_between v a b = true ↔ (a ≤ v ∧ v ≤ b) ∨ (b ≤ v ∧ v ≤ a) := by
  unfold Geo.value_in_between
  by_cases h : a < b
  · rw [if_pos ((lt_real _ _).2 h), Bool.and_eq_true, le_real, le_real]
    constructor
    · rintro ⟨h1, h2⟩; exact .inl ⟨h1, h2⟩
    · rintro (⟨h1, h2⟩ | ⟨h1, h2⟩)
      · exact ⟨h1, h2⟩
      · constructor <;> linarith
  · rw [if_neg (by rw [lt_real]; exact h), Bool.and_eq_true, le_real, le_real]
    push Not at h
    constructor
    · rintro ⟨h1, h2⟩; exact .inr ⟨h1, h2⟩
    · rintro (⟨h1, h2⟩ | ⟨h1, h2⟩)
      · constructor <;> linarith
      · exact ⟨h1, h2⟩

/-- A point is on a segment if it is on the line and between the ends. -/
theorem onSegment_iff (A B P : ℝ × ℝ) : OnSegment A B P ↔ leftOf A B P = 0 ∧
    ((A.1 ≤ P.1 ∧ P.1 ≤ B.1) ∨ (B.1 ≤ P.1 ∧ P.1 ≤ A.1)) ∧ ((A.2 ≤ P.2 ∧ P.2 ≤ B.2) ∨ (B.2 ≤ P.2 ∧ P.2 ≤ A.2)) := by
  unfold OnSegment leftOf
  constructor
  · rintro ⟨t, h0, h1, hx, hy⟩
    refine ⟨by rw [hx, hy]; ring, ?_, ?_⟩
    · rw [hx]
      rcases le_total A.1 B.1 with h | h
      · left; constructor <;> nlinarith
      · right; constructor <;> nlinarith
    · rw [hy]
      rcases le_total A.2 B.2 with h | h
      · left; constructor <;> nlinarith
      · right; constructor <;> nlinarith
  · rintro ⟨h, hx, hy⟩
    by_cases hdx : B.1 = A.1
    · by_cases hdy : B.2 = A.2
      · refine ⟨0, le_rfl, zero_le_one, ?_, ?_⟩
        · rw [hdx] at hx ⊢
          rcases hx with ⟨a, b⟩ | ⟨a, b⟩ <;> linarith
        · rw [hdy] at hy ⊢
          rcases hy with ⟨a, b⟩ | ⟨a, b⟩ <;> linarith
      · have hd : B.2 - A.2 ≠ 0 := sub_ne_zero.2 hdy
        refine ⟨(P.2 - A.2)/(B.2 - A.2), ?_, ?_, ?_, ?_⟩
        · rcases hy with ⟨a, b⟩ | ⟨a, b⟩
          · exact div_nonneg (by linarith) (by linarith)
          · exact div_nonneg_of_nonpos (by linarith) (by linarith)
        · rcases hy with ⟨a, b⟩ | ⟨a, b⟩
          · have : 0 < B.2 - A.2 := lt_of_le_of_ne (by linarith) (Ne.symm hd)
            rw [div_le_one this]; linarith
          · have : B.2 - A.2 < 0 := lt_of_le_of_ne (by linarith) hd
            rw [div_le_one_of_neg this]; linarith
        · rw [hdx] at hx ⊢
          rcases hx with ⟨a, b⟩ | ⟨a, b⟩ <;> linarith
        · field_simp
          ring
    · have hd : B.1 - A.1 ≠ 0 := sub_ne_zero.2 hdx
      refine ⟨(P.1 - A.1)/(B.1 - A.1), ?_, ?_, ?_, ?_⟩
      · rcases hx with ⟨a, b⟩ | ⟨a, b⟩
        · exact div_nonneg (by linarith) (by linarith)
        · exact div_nonneg_of_nonpos (by linarith) (by linarith)
      · rcases hx with ⟨a, b⟩ | ⟨a, b⟩
        · have : 0 < B.1 - A.1 := lt_of_le_of_ne (by linarith) (Ne.symm hd)
          rw [div_le_one this]; linarith
        · have : B.1 - A.1 < 0 := lt_of_le_of_ne (by linarith) hd
          rw [div_le_one_of_neg this]; linarith
      · field_simp
        ring
      · field_simp
        linear_combination h

/-- How often the segment from `A` to `B` crosses the ray that goes from `P` to the right, upwards. -/
noncomputable def crossings (P A B : ℝ × ℝ) : ℤ :=
  open Classical in
  if A.2 ≤ P.2 ∧ P.2 < B.2 ∧ 0 < leftOf A B P then 1
  else if B.2 ≤ P.2 ∧ P.2 < A.2 ∧ leftOf A B P < 0 then -1 else 0

theorem windingStep_eq (P : ℝ × ℝ) (w : ℤ) (A B : ℝ × ℝ) : Geo.windingStep P (some w) (A, B) =
    if (A.2 <=. P.2) = true then
      if (P.2 <=. B.2) = true then
        if ((leftOf A B P >. 0.0) && !(B.2 ==. P.2)) = true then some (w + 1)
        else if ((leftOf A B P ==. 0.0) && Geo.value_in_between P.1 A.1 B.1) = true then none
        else some w
      else some w
    else if (B.2 <=. P.2) = true then
      if (leftOf A B P <. 0.0) = true then some (w - 1)
      else if ((leftOf A B P ==. 0.0) && Geo.value_in_between P.1 A.1 B.1) = true then none
      else some w
    else some w := rfl

/-- When a pass of the loop finds the point on the segment: not if it is the upper end and comes first. -/
def Detected (P A B : ℝ × ℝ) : Prop := OnSegment A B P ∧ (A.2 ≤ P.2 → P.2 ≤ B.2)

/-- One pass of the loop. -/
theorem windingStep_on (P : ℝ × ℝ) (w : ℤ) (A B : ℝ × ℝ) (h : Detected P A B) :
    Geo.windingStep P (some w) (A, B) = none := by
  obtain ⟨h, hab⟩ := h
  obtain ⟨h0, hx, hy⟩ := (onSegment_iff A B P).1 h
  rw [windingStep_eq]
  have e0 : (leftOf A B P >. 0.0) = false := by rw [lt_real_false, h0]; norm_num
  have e1 : (leftOf A B P <. 0.0) = false := by rw [lt_real_false, h0]; norm_num
  have e2 : (leftOf A B P ==. 0.0) = true := by rw [eq_real, h0]; norm_num
  have e3 := (value_in_between_iff P.1 A.1 B.1).2 hx
  by_cases ha : A.2 ≤ P.2
  · rw [if_pos ((le_real _ _).2 ha), if_pos ((le_real _ _).2 (hab ha)), e0, e2, e3]
    rfl
  · rw [if_neg (by rw [le_real]; exact ha)]
    push Not at ha
    have hb : B.2 ≤ P.2 := by rcases hy with ⟨a, b⟩ | ⟨a, b⟩ <;> linarith
    rw [if_pos ((le_real _ _).2 hb), e1, e2, e3]
    rfl

theorem windingStep_off (P : ℝ × ℝ) (w : ℤ) (A B : ℝ × ℝ) (h : ¬ Detected P A B) :
    Geo.windingStep P (some w) (A, B) = some (w + crossings P A B) := by
  unfold Detected at h
  rw [onSegment_iff] at h
  rw [windingStep_eq]
  unfold crossings
  have h00 : (0.0:ℝ) = 0 := by norm_num
  by_cases ha : A.2 ≤ P.2
  · rw [if_pos ((le_real _ _).2 ha), if_neg (c := B.2 ≤ P.2 ∧ _) (by rintro ⟨_, h2, _⟩; linarith)]
    by_cases hb : P.2 ≤ B.2
    · rw [if_pos ((le_real _ _).2 hb)]
      by_cases hc : 0 < leftOf A B P ∧ B.2 ≠ P.2
      · have hlt : P.2 < B.2 := lt_of_le_of_ne hb (Ne.symm hc.2)
        rw [if_pos (c := A.2 ≤ P.2 ∧ _) ⟨ha, hlt, hc.1⟩, if_pos]
        rw [Bool.and_eq_true, lt_real, h00, Bool.not_eq_true', eq_real_false]
        exact hc
      · rw [if_neg (by
          rw [Bool.and_eq_true, lt_real, h00, Bool.not_eq_true', eq_real_false]
          exact hc)]
        rw [if_neg (by
          rw [Bool.and_eq_true, eq_real, h00, value_in_between_iff]
          rintro ⟨h1, h2⟩
          exact h ⟨⟨h1, h2, .inl ⟨ha, hb⟩⟩, fun _ => hb⟩)]
        rw [if_neg (by rintro ⟨_, h2, h3⟩; exact hc ⟨h3, by intro h4; linarith⟩)]
        simp
    · rw [if_neg (by rw [le_real]; exact hb), if_neg (by rintro ⟨_, h2, _⟩; linarith)]
      simp
  · rw [if_neg (by rw [le_real]; exact ha), if_neg (c := A.2 ≤ P.2 ∧ _) (by rintro ⟨h1, _⟩; exact ha h1)]
    have ha' := ha
    push Not at ha'
    by_cases hb : B.2 ≤ P.2
    · rw [if_pos ((le_real _ _).2 hb)]
      by_cases hc : leftOf A B P < 0
      · rw [if_pos (by rw [lt_real, h00]; exact hc), if_pos ⟨hb, ha', hc⟩]
        rfl
      · rw [if_neg (by rw [lt_real, h00]; exact hc), if_neg (c := _ ∧ _) (by rintro ⟨_, _, h3⟩; exact hc h3)]
        rw [if_neg (by
          rw [Bool.and_eq_true, eq_real, h00, value_in_between_iff]
          rintro ⟨h1, h2⟩
          exact h ⟨⟨h1, h2, .inr ⟨hb, ha'.le⟩⟩, fun h4 => absurd h4 ha⟩)]
        simp
    · rw [if_neg (by rw [le_real]; exact hb), if_neg (by rintro ⟨h1, _⟩; exact hb h1)]
      simp

/-- The sum over the lines. -/
noncomputable def winding (P : ℝ × ℝ) (ls : List ((ℝ × ℝ) × (ℝ × ℝ))) : ℤ :=
  (ls.map fun l => crossings P l.1 l.2).sum

theorem winding_none (P : ℝ × ℝ) (ls : List ((ℝ × ℝ) × (ℝ × ℝ))) : ls.foldl (Geo.windingStep P) none = none := by
  induction ls with
  | nil => rfl
  | cons l ls ih => exact ih

theorem winding_fold (P : ℝ × ℝ) (ls : List ((ℝ × ℝ) × (ℝ × ℝ))) (w : ℤ) :
    ((∃ l ∈ ls, Detected P l.1 l.2) ∧ ls.foldl (Geo.windingStep P) (some w) = none) ∨
    ((∀ l ∈ ls, ¬ Detected P l.1 l.2) ∧ ls.foldl (Geo.windingStep P) (some w) = some (w + winding P ls)) := by
  induction ls generalizing w with
  | nil => exact .inr ⟨(fun _ h => by cases h), by simp [winding]⟩
  | cons l ls ih =>
    obtain ⟨A, B⟩ := l
    rw [List.foldl_cons]
    by_cases h : Detected P A B
    · left
      exact ⟨⟨(A, B), List.mem_cons_self, h⟩, by rw [windingStep_on P w A B h, winding_none]⟩
    · rw [windingStep_off P w A B h]
      rcases ih (w + crossings P A B) with ⟨⟨l, hl, h1⟩, h2⟩ | ⟨h1, h2⟩
      · exact .inl ⟨⟨l, List.mem_cons_of_mem _ hl, h1⟩, h2⟩
      · refine .inr ⟨fun l hl => ?_, ?_⟩
        · rcases List.mem_cons.1 hl with rfl | hl
          · exact h
          · exact h1 l hl
        · rw [h2]
          simp [winding, add_assoc]

/-! ## Moving the point -/

/-- The point of the line through `A` and `B` at height `y`. -/
theorem onSegment_at {A B : ℝ × ℝ} {y : ℝ} (h : A.2 < B.2) (h1 : A.2 ≤ y) (h2 : y ≤ B.2) :
    OnSegment A B (A.1 + (y - A.2)/(B.2 - A.2)*(B.1 - A.1), y) := by
  have hd : 0 < B.2 - A.2 := by linarith
  refine ⟨(y - A.2)/(B.2 - A.2), div_nonneg (by linarith) hd.le, by rw [div_le_one hd]; linarith, rfl, ?_⟩
  dsimp only
  field_simp
  ring

/-- Two segments, seen along the heights both reach, that change sides meet. -/
theorem meet_of_sides {A B P Q : ℝ × ℝ} (hAB : A.2 < B.2) (hPQ : P.2 < Q.2) {y1 y2 : ℝ} (h12 : y1 ≤ y2)
    (a1 : A.2 ≤ y1) (a2 : y2 ≤ B.2) (p1 : P.2 ≤ y1) (p2 : y2 ≤ Q.2)
    (hs : ∀ f : ℝ → ℝ, (∀ y, f y = A.1 + (y - A.2)/(B.2 - A.2)*(B.1 - A.1) - (P.1 + (y - P.2)/(Q.2 - P.2)*(Q.1 - P.1))) →
      (0 ≤ f y1 ∧ f y2 ≤ 0) ∨ (f y1 ≤ 0 ∧ 0 ≤ f y2)) :
    ∃ X, OnSegment A B X ∧ OnSegment P Q X := by
  obtain ⟨f, hf⟩ : ∃ f : ℝ → ℝ, f = fun y =>
    A.1 + (y - A.2)/(B.2 - A.2)*(B.1 - A.1) - (P.1 + (y - P.2)/(Q.2 - P.2)*(Q.1 - P.1)) := ⟨_, rfl⟩
  have hc : ContinuousOn f (Set.Icc y1 y2) := by rw [hf]; fun_prop
  obtain ⟨y, hy, hy0⟩ : ∃ y ∈ Set.Icc y1 y2, f y = 0 := by
    rcases hs f (fun y => by rw [hf]) with ⟨h1, h2⟩ | ⟨h1, h2⟩
    · exact intermediate_value_Icc' h12 hc ⟨h2, h1⟩
    · exact intermediate_value_Icc h12 hc ⟨h1, h2⟩
  refine ⟨_, onSegment_at hAB (a1.trans hy.1) (hy.2.trans a2), ?_⟩
  have e : A.1 + (y - A.2)/(B.2 - A.2)*(B.1 - A.1) = P.1 + (y - P.2)/(Q.2 - P.2)*(Q.1 - P.1) := by
    rw [hf] at hy0
    linarith
  rw [e]
  exact onSegment_at hPQ (p1.trans hy.1) (hy.2.trans p2)

/-- The side of a point, from the horizontal distance. -/
theorem leftOf_at {A B X : ℝ × ℝ} (h : A.2 < B.2) :
    leftOf A B X = (B.2 - A.2)*(A.1 + (X.2 - A.2)/(B.2 - A.2)*(B.1 - A.1) - X.1) := by
  have hd : B.2 - A.2 ≠ 0 := by intro h0; linarith
  unfold leftOf
  field_simp
  ring

/-- The point is in the strip to the right of the segment from `P` up to `Q`. -/
noncomputable def inStrip (P Q X : ℝ × ℝ) : ℤ :=
  open Classical in if P.2 < X.2 ∧ X.2 ≤ Q.2 ∧ leftOf P Q X < 0 then 1 else 0

theorem crossings_swap (P A B : ℝ × ℝ) : crossings P B A = -crossings P A B := by
  have e : leftOf B A P = -leftOf A B P := by unfold leftOf; ring
  unfold crossings
  rw [e]
  by_cases h1 : A.2 ≤ P.2 ∧ P.2 < B.2 ∧ 0 < leftOf A B P
  · rw [if_pos h1, if_neg (by rintro ⟨h2, h3, _⟩; linarith [h1.2.1]), if_pos ⟨h1.1, h1.2.1, by linarith [h1.2.2]⟩]
  · rw [if_neg h1]
    by_cases h2 : B.2 ≤ P.2 ∧ P.2 < A.2 ∧ leftOf A B P < 0
    · rw [if_pos h2, if_pos ⟨h2.1, h2.2.1, by linarith [h2.2.2]⟩]
      rfl
    · rw [if_neg h2, if_neg (by rintro ⟨h3, h4, h5⟩; exact h2 ⟨h3, h4, by linarith⟩),
        if_neg (by rintro ⟨h3, h4, h5⟩; exact h1 ⟨h3, h4, by linarith⟩)]
      rfl

/-- How the crossings change from `P` to `Q` if the way does not meet the segment. -/
theorem crossings_change_up {P Q A B : ℝ × ℝ} (hPQ : P.2 ≤ Q.2) (hAB : A.2 ≤ B.2)
    (hm : ¬ ∃ X, OnSegment A B X ∧ OnSegment P Q X) :
    crossings P A B - crossings Q A B = inStrip P Q B - inStrip P Q A := by
  -- downward crossings do not occur
  have uP : crossings P A B = open Classical in if A.2 ≤ P.2 ∧ P.2 < B.2 ∧ 0 < leftOf A B P then 1 else 0 := by
    unfold crossings
    rw [if_neg (c := B.2 ≤ P.2 ∧ _) (by rintro ⟨h1, h2, _⟩; linarith)]
  have uQ : crossings Q A B = open Classical in if A.2 ≤ Q.2 ∧ Q.2 < B.2 ∧ 0 < leftOf A B Q then 1 else 0 := by
    unfold crossings
    rw [if_neg (c := B.2 ≤ Q.2 ∧ _) (by rintro ⟨h1, h2, _⟩; linarith)]
  rw [uP, uQ]
  unfold inStrip
  rcases le_or_gt B.2 P.2 with hb | hb
  · -- both low
    rw [if_neg (by rintro ⟨_, h, _⟩; linarith), if_neg (by rintro ⟨_, h, _⟩; linarith),
      if_neg (by rintro ⟨h, _⟩; linarith), if_neg (by rintro ⟨h, _⟩; linarith)]
  rcases le_or_gt A.2 Q.2 with ha | ha
  swap
  · -- both high
    rw [if_neg (by rintro ⟨h, _⟩; linarith), if_neg (by rintro ⟨h, _⟩; linarith),
      if_neg (by rintro ⟨_, h, _⟩; linarith), if_neg (by rintro ⟨_, h, _⟩; linarith)]
  rcases le_or_gt A.2 P.2 with hap | hap
  · have hlt : A.2 < B.2 := by linarith
    rcases le_or_gt B.2 Q.2 with hbq | hbq
    · -- low, mid
      have hpq : P.2 < Q.2 := by linarith
      rw [if_neg (c := A.2 ≤ Q.2 ∧ _) (by rintro ⟨_, h, _⟩; linarith), if_neg (c := P.2 < A.2 ∧ _) (by rintro ⟨h, _⟩; linarith)]
      have key : 0 < leftOf A B P ↔ leftOf P Q B < 0 := by
        by_contra hne
        apply hm
        refine meet_of_sides hlt hpq hb.le hap le_rfl le_rfl hbq fun f hf => ?_
        have e1 : leftOf A B P = (B.2 - A.2)*f P.2 := by rw [leftOf_at hlt, hf]; simp
        have e2 : leftOf P Q B = -(Q.2 - P.2)*f B.2 := by
          rw [leftOf_at hpq, hf, div_self (by linarith : B.2 - A.2 ≠ 0)]; ring
        rw [e1, e2, mul_pos_iff_of_pos_left (by linarith)] at hne
        have e3 : -(Q.2 - P.2)*f B.2 < 0 ↔ 0 < f B.2 := by
          rw [neg_mul, neg_lt_zero, mul_pos_iff_of_pos_left (by linarith)]
        rw [e3] at hne
        by_cases h1 : 0 < f P.2
        · exact .inl ⟨h1.le, by by_contra h2; exact hne ⟨fun _ => by linarith, fun _ => h1⟩⟩
        · exact .inr ⟨by linarith, by by_contra h2; exact hne ⟨fun h => absurd h h1, fun h => by linarith⟩⟩
      by_cases h : 0 < leftOf A B P
      · rw [if_pos ⟨hap, hb, h⟩, if_pos ⟨hb, hbq, key.1 h⟩]
      · rw [if_neg (by rintro ⟨_, _, h2⟩; exact h h2), if_neg (by rintro ⟨_, _, h2⟩; exact h (key.2 h2))]
    · -- low, high
      rw [if_neg (c := P.2 < A.2 ∧ _) (by rintro ⟨h, _⟩; linarith), if_neg (c := P.2 < B.2 ∧ _) (by rintro ⟨_, h, _⟩; linarith)]
      have key : 0 < leftOf A B P ↔ 0 < leftOf A B Q := by
        by_contra hne
        apply hm
        rcases hPQ.lt_or_eq with hpq | hpq
        · refine meet_of_sides hlt hpq hPQ hap hbq.le le_rfl le_rfl fun f hf => ?_
          have e1 : leftOf A B P = (B.2 - A.2)*f P.2 := by rw [leftOf_at hlt, hf]; simp
          have e2 : leftOf A B Q = (B.2 - A.2)*f Q.2 := by
            rw [leftOf_at hlt, hf, div_self (by linarith : Q.2 - P.2 ≠ 0)]; ring
          rw [e1, e2, mul_pos_iff_of_pos_left (by linarith), mul_pos_iff_of_pos_left (by linarith)] at hne
          by_cases h1 : 0 < f P.2
          · exact .inl ⟨h1.le, by by_contra h2; exact hne ⟨fun _ => by linarith, fun _ => h1⟩⟩
          · exact .inr ⟨by linarith, by by_contra h2; exact hne ⟨fun h => absurd h h1, fun h => by linarith⟩⟩
        · refine ⟨_, onSegment_at hlt hap hb.le, ?_⟩
          rw [leftOf_at hlt, leftOf_at hlt, mul_pos_iff_of_pos_left (by linarith), mul_pos_iff_of_pos_left (by linarith),
            ← hpq] at hne
          generalize A.1 + (P.2 - A.2)/(B.2 - A.2)*(B.1 - A.1) = x at hne ⊢
          rw [onSegment_iff]
          unfold leftOf
          refine ⟨?_, ?_, .inl ⟨le_rfl, hPQ⟩⟩
          · rw [← hpq]; ring
          · dsimp only
            by_cases h1 : 0 < x - P.1
            · left; refine ⟨by linarith, ?_⟩
              by_contra h2; exact hne ⟨fun _ => by linarith, fun _ => h1⟩
            · right; refine ⟨?_, by linarith⟩
              by_contra h2; exact hne ⟨fun h => absurd h h1, fun h => by linarith⟩
      by_cases h : 0 < leftOf A B P
      · rw [if_pos ⟨hap, hb, h⟩, if_pos ⟨ha, hbq, key.1 h⟩]; rfl
      · rw [if_neg (by rintro ⟨_, _, h2⟩; exact h h2), if_neg (by rintro ⟨_, _, h2⟩; exact h (key.2 h2))]
  · have hpq : P.2 < Q.2 := by linarith
    rw [if_neg (c := A.2 ≤ P.2 ∧ _) (by rintro ⟨h, _⟩; linarith)]
    rcases le_or_gt B.2 Q.2 with hbq | hbq
    · -- mid, mid
      rw [if_neg (c := A.2 ≤ Q.2 ∧ _) (by rintro ⟨_, h, _⟩; linarith)]
      have key : leftOf P Q A < 0 ↔ leftOf P Q B < 0 := by
        by_contra hne
        apply hm
        rcases hAB.lt_or_eq with hlt | hab
        · refine meet_of_sides hlt hpq hAB le_rfl le_rfl hap.le hbq fun f hf => ?_
          have e1 : leftOf P Q A = -(Q.2 - P.2)*f A.2 := by rw [leftOf_at hpq, hf, sub_self, zero_div]; ring
          have e2 : leftOf P Q B = -(Q.2 - P.2)*f B.2 := by
            rw [leftOf_at hpq, hf, div_self (by linarith : B.2 - A.2 ≠ 0)]; ring
          have e3 : ∀ z, -(Q.2 - P.2)*z < 0 ↔ 0 < z := by
            intro z
            rw [neg_mul, neg_lt_zero, mul_pos_iff_of_pos_left (by linarith)]
          rw [e1, e2, e3, e3] at hne
          by_cases h1 : 0 < f A.2
          · exact .inl ⟨h1.le, by by_contra h2; exact hne ⟨fun _ => by linarith, fun _ => h1⟩⟩
          · exact .inr ⟨by linarith, by by_contra h2; exact hne ⟨fun h => absurd h h1, fun h => by linarith⟩⟩
        · refine ⟨_, ?_, onSegment_at hpq hap.le ha⟩
          rw [leftOf_at hpq, leftOf_at hpq, ← hab] at hne
          have e3 : ∀ z, (Q.2 - P.2)*z < 0 ↔ z < 0 := by
            intro z
            have hp : 0 < Q.2 - P.2 := by linarith
            exact ⟨fun h => by by_contra h2; push Not at h2; nlinarith, fun h => mul_neg_of_pos_of_neg hp h⟩
          rw [e3, e3] at hne
          generalize P.1 + (A.2 - P.2)/(Q.2 - P.2)*(Q.1 - P.1) = x at hne ⊢
          rw [onSegment_iff]
          unfold leftOf
          refine ⟨?_, ?_, .inl ⟨le_rfl, hAB⟩⟩
          · rw [← hab]; ring
          · dsimp only
            by_cases h1 : x - A.1 < 0
            · right; refine ⟨?_, by linarith⟩
              by_contra h2; exact hne ⟨fun _ => by linarith, fun _ => h1⟩
            · left; refine ⟨by linarith, ?_⟩
              by_contra h2; exact hne ⟨fun h => absurd h h1, fun h => by linarith⟩
      by_cases h : leftOf P Q A < 0
      · rw [if_pos ⟨hb, hbq, key.1 h⟩, if_pos ⟨hap, ha, h⟩]; rfl
      · rw [if_neg (by rintro ⟨_, _, h2⟩; exact h (key.2 h2)), if_neg (by rintro ⟨_, _, h2⟩; exact h h2)]
    · -- mid, high
      have hlt : A.2 < B.2 := by linarith
      rw [if_neg (c := P.2 < B.2 ∧ _) (by rintro ⟨_, h, _⟩; linarith)]
      have key : 0 < leftOf A B Q ↔ leftOf P Q A < 0 := by
        by_contra hne
        apply hm
        refine meet_of_sides hlt hpq ha le_rfl hbq.le hap.le le_rfl fun f hf => ?_
        have e1 : leftOf A B Q = (B.2 - A.2)*f Q.2 := by
          rw [leftOf_at hlt, hf, div_self (by linarith : Q.2 - P.2 ≠ 0)]; ring
        have e2 : leftOf P Q A = -(Q.2 - P.2)*f A.2 := by rw [leftOf_at hpq, hf, sub_self, zero_div]; ring
        have e3 : ∀ z, -(Q.2 - P.2)*z < 0 ↔ 0 < z := by
          intro z
          rw [neg_mul, neg_lt_zero, mul_pos_iff_of_pos_left (by linarith)]
        rw [e1, e2, e3, mul_pos_iff_of_pos_left (by linarith)] at hne
        by_cases h1 : 0 < f A.2
        · exact .inl ⟨h1.le, by by_contra h2; exact hne ⟨fun _ => h1, fun _ => by linarith⟩⟩
        · exact .inr ⟨by linarith, by by_contra h2; exact hne ⟨fun h => by linarith, fun h => absurd h h1⟩⟩
      by_cases h : 0 < leftOf A B Q
      · rw [if_pos ⟨ha, hbq, h⟩, if_pos ⟨hap, ha, key.1 h⟩]
      · rw [if_neg (by rintro ⟨_, _, h2⟩; exact h h2), if_neg (by rintro ⟨_, _, h2⟩; exact h (key.2 h2))]

theorem onSegment_swap {A B X : ℝ × ℝ} : OnSegment A B X ↔ OnSegment B A X := by
  have : ∀ {A B X : ℝ × ℝ}, OnSegment A B X → OnSegment B A X := by
    rintro A B X ⟨t, h0, h1, hx, hy⟩
    exact ⟨1 - t, by linarith, by linarith, by rw [hx]; ring, by rw [hy]; ring⟩
  exact ⟨this, this⟩

theorem crossings_change {P Q A B : ℝ × ℝ} (hPQ : P.2 ≤ Q.2) (hm : ¬ ∃ X, OnSegment A B X ∧ OnSegment P Q X) :
    crossings P A B - crossings Q A B = inStrip P Q B - inStrip P Q A := by
  rcases le_total A.2 B.2 with h | h
  · exact crossings_change_up hPQ h hm
  · have := crossings_change_up (A := B) (B := A) hPQ h (by
      rintro ⟨X, h1, h2⟩
      exact hm ⟨X, onSegment_swap.1 h1, h2⟩)
    rw [crossings_swap, crossings_swap Q] at this
    linarith

/-- Sums along a ring telescope. -/
theorem lines_telescope {G : Type} [AddCommGroup G] (g : ℝ × ℝ → G) : ∀ (ring : List (ℝ × ℝ)) (a b : ℝ × ℝ), ring.head? = some a →
    ring.getLast? = some b → ((Geo.lines ring).map fun l => g l.2 - g l.1).sum = g b - g a := by
  intro ring
  induction ring with
  | nil => intro a b h; cases h
  | cons x xs ih =>
    intro a b ha hb
    cases ha
    cases xs with
    | nil =>
      cases hb
      simp [Geo.lines]
    | cons y ys =>
      have hb' : (y :: ys).getLast? = some b := by rw [List.getLast?_cons_cons] at hb; exact hb
      have := ih y b rfl hb'
      have e : Geo.lines (x :: y :: ys) = (x, y) :: Geo.lines (y :: ys) := rfl
      rw [e, List.map_cons, List.sum_cons, this]
      dsimp only
      abel

/-- **The winding number of a closed ring does not change along a way that does not meet it.** -/
theorem winding_change {ring : List (ℝ × ℝ)} (hclosed : ring.head? = ring.getLast?) {P Q : ℝ × ℝ}
    (hm : ∀ l ∈ Geo.lines ring, ∀ X, OnSegment P Q X → ¬ OnSegment l.1 l.2 X) :
    winding P (Geo.lines ring) = winding Q (Geo.lines ring) := by
  have up : ∀ P Q : ℝ × ℝ, P.2 ≤ Q.2 → (∀ l ∈ Geo.lines ring, ∀ X, OnSegment P Q X → ¬ OnSegment l.1 l.2 X) →
      winding P (Geo.lines ring) = winding Q (Geo.lines ring) := by
    intro P Q hPQ hm
    have e : winding P (Geo.lines ring) - winding Q (Geo.lines ring) =
        ((Geo.lines ring).map fun l => inStrip P Q l.2 - inStrip P Q l.1).sum := by
      unfold winding
      have : ∀ ls : List ((ℝ × ℝ) × (ℝ × ℝ)), (∀ l ∈ ls, ∀ X, OnSegment P Q X → ¬ OnSegment l.1 l.2 X) →
          (ls.map fun l => crossings P l.1 l.2).sum - (ls.map fun l => crossings Q l.1 l.2).sum =
            (ls.map fun l => inStrip P Q l.2 - inStrip P Q l.1).sum := by
        intro ls
        induction ls with
        | nil => intro _; simp
        | cons l ls ih =>
          intro h
          have h1 := ih fun l hl => h l (List.mem_cons_of_mem _ hl)
          have h2 := crossings_change (A := l.1) (B := l.2) hPQ (by
            rintro ⟨X, hx1, hx2⟩
            exact h l List.mem_cons_self X hx2 hx1)
          simp only [List.map_cons, List.sum_cons]
          linarith
      exact this _ hm
    cases hr : ring.head? with
    | none =>
      rw [List.head?_eq_none_iff] at hr
      subst hr
      rfl
    | some a =>
      have := lines_telescope (inStrip P Q) ring a a hr (by rw [← hclosed, hr])
      rw [this, sub_self] at e
      linarith
  rcases le_total P.2 Q.2 with h | h
  · exact up P Q h hm
  · exact (up Q P h fun l hl X hX => hm l hl X (onSegment_swap.1 hX)).symm

end RustBCA
