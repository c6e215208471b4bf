import Verif.Proofs.PolygonRing

/-!
# Crossing one edge; the nearest point of a polygon
-/

set_option linter.unusedVariables false
set_option linter.unusedSimpArgs false

namespace RustBCA
open Spec Scalar

/-! ## Crossing -/

theorem sides_change (A B P Q : ℝ × ℝ) : leftOf A B Q - leftOf A B P = leftOf P Q A - leftOf P Q B := by
  unfold leftOf; ring

theorem meet_height (A B P Q : ℝ × ℝ) :
    A.2*(-leftOf P Q B) + B.2*leftOf P Q A = P.2*leftOf A B Q + Q.2*(-leftOf A B P) := by
  unfold leftOf; ring

/-- Crossing segments overlap in height. -/
theorem cross_heights {A B P Q : ℝ × ℝ} (hAB : A.2 ≤ B.2) (hPQ : P.2 ≤ Q.2) (h : Cross A B P Q) :
    A.2 ≤ Q.2 ∧ P.2 < B.2 := by
  obtain ⟨h1, h2⟩ := h
  have e := sides_change A B P Q
  have m := meet_height A B P Q
  have gen : ∀ a b p q x y : ℝ, 0 < x → 0 < y → 0 < p → 0 < q → x + y = p + q → a ≤ b → ∀ c d : ℝ, c ≤ d →
      a*x + b*y = c*p + d*q → a ≤ d ∧ (c < b ∨ (a = b ∧ c = d)) := by
    intro a b p q x y hx hy hp hq hs hab c d hcd he
    have e1 : a*(x + y) + (b - a)*y = c*p + d*q := by linarith
    have e2 : a*(x + y) + (b - a)*y = d*(x + y) - (d - c)*p := by rw [e1, hs]; ring
    have e3 : b*(x + y) - (b - a)*x = c*(x + y) + (d - c)*q := by
      have : c*(x + y) = c*p + c*q := by rw [hs]; ring
      linarith
    have p1 : 0 ≤ (b - a)*y := mul_nonneg (by linarith) hy.le
    have p2 : 0 ≤ (d - c)*p := mul_nonneg (by linarith) hp.le
    have p3 : 0 ≤ (b - a)*x := mul_nonneg (by linarith) hx.le
    have p4 : 0 ≤ (d - c)*q := mul_nonneg (by linarith) hq.le
    have hw : 0 < x + y := by linarith
    refine ⟨?_, ?_⟩
    · by_contra hlt
      push Not at hlt
      nlinarith
    · by_contra hne
      push Not at hne
      obtain ⟨hbc, hne⟩ := hne
      have hz : (c - b)*(x + y) + (b - a)*x + (d - c)*q = 0 := by linarith
      have p5 : 0 ≤ (c - b)*(x + y) := mul_nonneg (by linarith) hw.le
      have z1 : (b - a)*x = 0 := by linarith
      have z2 : (d - c)*q = 0 := by linarith
      have z3 : b = a := by
        rcases mul_eq_zero.1 z1 with h | h
        · linarith
        · exact absurd h hx.ne'
      have z4 : d = c := by
        rcases mul_eq_zero.1 z2 with h | h
        · linarith
        · exact absurd h hq.ne'
      exact hne z3.symm z4.symm
  have fin : A.2 ≤ Q.2 ∧ (P.2 < B.2 ∨ (A.2 = B.2 ∧ P.2 = Q.2)) := by
    rcases mul_neg_iff.1 h1 with ⟨a1, a2⟩ | ⟨a1, a2⟩
    · have b1 : leftOf P Q A < 0 ∧ 0 < leftOf P Q B := by
        rcases mul_neg_iff.1 h2 with ⟨b1, b2⟩ | h
        · exfalso; linarith
        · exact h
      exact gen A.2 B.2 (-leftOf A B Q) (leftOf A B P) (leftOf P Q B) (-leftOf P Q A) b1.2 (by linarith [b1.1])
        (by linarith) a1 (by linarith) hAB P.2 Q.2 hPQ (by linarith)
    · have b1 : 0 < leftOf P Q A ∧ leftOf P Q B < 0 := by
        rcases mul_neg_iff.1 h2 with h | ⟨b1, b2⟩
        · exact h
        · exfalso; linarith
      exact gen A.2 B.2 (leftOf A B Q) (-leftOf A B P) (-leftOf P Q B) (leftOf P Q A) (by linarith [b1.2]) b1.1
        a2 (by linarith) (by linarith) hAB P.2 Q.2 hPQ (by linarith)
  refine ⟨fin.1, ?_⟩
  rcases fin.2 with h | ⟨e1, e2⟩
  · exact h
  · exfalso
    have : leftOf A B Q = leftOf A B P := by unfold leftOf; rw [e1, e2]; ring
    rw [this] at h1
    nlinarith [mul_self_nonneg (leftOf A B P)]

/-- How the crossings change from `P` to `Q` if the way crosses the segment. -/
theorem crossings_cross_up {P Q A B : ℝ × ℝ} (hPQ : P.2 ≤ Q.2) (hAB : A.2 ≤ B.2) (h : Cross A B P Q) :
    ∃ s : ℤ, (s = 1 ∨ s = -1) ∧ crossings P A B - crossings Q A B = inStrip P Q B - inStrip P Q A + s := by
  obtain ⟨k1, k2⟩ := cross_heights hAB hPQ h
  have uP : crossings P A B = open Classical in if A.2 ≤ P.2 ∧ P.2 < B.2 ∧ 0 < leftOf A B P then 1 else 0 := by
    unfold crossings
    rw [if_neg (c := B.2 ≤ P.2 ∧ _) (by rintro ⟨h1, h2, _⟩; linarith)]
  have uQ : crossings Q A B = open Classical in if A.2 ≤ Q.2 ∧ Q.2 < B.2 ∧ 0 < leftOf A B Q then 1 else 0 := by
    unfold crossings
    rw [if_neg (c := B.2 ≤ Q.2 ∧ _) (by rintro ⟨h1, h2, _⟩; linarith)]
  rw [uP, uQ]
  unfold inStrip
  obtain ⟨h1, h2⟩ := h
  have e := sides_change A B P Q
  rcases mul_neg_iff.1 h1 with ⟨a1, a2⟩ | ⟨a1, a2⟩
  · have b1 : leftOf P Q A < 0 ∧ 0 < leftOf P Q B := by
      rcases mul_neg_iff.1 h2 with ⟨b1, b2⟩ | h
      · exfalso; linarith
      · exact h
    refine ⟨1, .inl rfl, ?_⟩
    rw [if_neg (c := A.2 ≤ Q.2 ∧ _) (by rintro ⟨_, _, h⟩; linarith),
      if_neg (c := P.2 < B.2 ∧ _) (by rintro ⟨_, _, h⟩; linarith [b1.2])]
    rcases le_or_gt A.2 P.2 with hap | hap
    · rw [if_pos ⟨hap, k2, a1⟩, if_neg (by rintro ⟨h, _⟩; linarith)]
      rfl
    · rw [if_neg (by rintro ⟨h, _⟩; linarith), if_pos ⟨hap, k1, b1.1⟩]
      rfl
  · have b1 : 0 < leftOf P Q A ∧ leftOf P Q B < 0 := by
      rcases mul_neg_iff.1 h2 with h | ⟨b1, b2⟩
      · exact h
      · exfalso; linarith
    refine ⟨-1, .inr rfl, ?_⟩
    rw [if_neg (c := A.2 ≤ P.2 ∧ _) (by rintro ⟨_, _, h⟩; linarith),
      if_neg (c := P.2 < A.2 ∧ _) (by rintro ⟨_, _, h⟩; linarith [b1.1])]
    rcases le_or_gt B.2 Q.2 with hbq | hbq
    · rw [if_neg (by rintro ⟨_, h, _⟩; linarith), if_pos ⟨k2, hbq, b1.2⟩]
      rfl
    · rw [if_pos ⟨k1, hbq, a2⟩, if_neg (by rintro ⟨_, h, _⟩; linarith)]
      rfl

theorem Spec.Cross.swap {A B P Q : ℝ × ℝ} (h : Cross A B P Q) : Cross B A P Q := by
  have e : ∀ X, leftOf B A X = -leftOf A B X := by intro X; unfold leftOf; ring
  refine ⟨?_, ?_⟩
  · rw [e, e, neg_mul_neg]; exact h.1
  · rw [mul_comm]; exact h.2

theorem Spec.Cross.swap' {A B P Q : ℝ × ℝ} (h : Cross A B P Q) : Cross A B Q P := by
  have e : ∀ X, leftOf Q P X = -leftOf P Q X := by intro X; unfold leftOf; ring
  refine ⟨?_, ?_⟩
  · rw [mul_comm]; exact h.1
  · rw [e, e, neg_mul_neg]; exact h.2

theorem crossings_cross {P Q A B : ℝ × ℝ} (hPQ : P.2 ≤ Q.2) (h : Cross A B P Q) :
    ∃ s : ℤ, (s = 1 ∨ s = -1) ∧ crossings P A B - crossings Q A B = inStrip P Q B - inStrip P Q A + s := by
  rcases le_total A.2 B.2 with hab | hab
  · exact crossings_cross_up hPQ hab h
  · obtain ⟨s, hs, e⟩ := crossings_cross_up (A := B) (B := A) hPQ hab h.swap
    rw [crossings_swap, crossings_swap Q] at e
    exact ⟨-s, by rcases hs with rfl | rfl <;> simp, by linarith⟩

/-- The winding number changes by one if the way crosses one line and meets no other. -/
theorem winding_cross {ring : List (ℝ × ℝ)} (hclosed : ring.head? = ring.getLast?) {P Q A B : ℝ × ℝ} {i : ℕ}
    (hA : ring[i]? = some A) (hB : ring[i + 1]? = some B) (hcross : Cross A B P Q)
    (hm : ∀ (j : ℕ) (C D : ℝ × ℝ), j ≠ i → ring[j]? = some C → ring[j + 1]? = some D →
      ∀ X, OnSegment P Q X → ¬ OnSegment C D X) :
    winding P (Geo.lines ring) = winding Q (Geo.lines ring) + 1 ∨
      winding P (Geo.lines ring) = winding Q (Geo.lines ring) - 1 := by
  have up : ∀ P Q : ℝ × ℝ, P.2 ≤ Q.2 → Cross A B P Q → (∀ (j : ℕ) (C D : ℝ × ℝ), j ≠ i → ring[j]? = some C →
      ring[j + 1]? = some D → ∀ X, OnSegment P Q X → ¬ OnSegment C D X) →
      winding P (Geo.lines ring) = winding Q (Geo.lines ring) + 1 ∨
      winding P (Geo.lines ring) = winding Q (Geo.lines ring) - 1 := by
    intro P Q hPQ hcross hm
    obtain ⟨s, hs, hx⟩ := crossings_cross hPQ hcross
    have hline : ∀ j l, (Geo.lines ring)[j]? = some l → ring[j]? = some l.1 ∧ ring[j + 1]? = some l.2 := by
      intro j l hl
      unfold Geo.lines at hl
      obtain ⟨C, D⟩ := l
      simpa only [List.getElem?_zip_eq_some, List.getElem?_tail] using hl
    have hi : (Geo.lines ring)[i]? = some (A, B) := by
      unfold Geo.lines
      simp only [List.getElem?_zip_eq_some, List.getElem?_tail]
      exact ⟨hA, hB⟩
    -- every line but the one
    have sum : ∀ (ls : List ((ℝ × ℝ) × (ℝ × ℝ))) (i : ℕ), ls[i]? = some (A, B) →
        (∀ (j : ℕ) l, j ≠ i → ls[j]? = some l → ¬ ∃ X, OnSegment l.1 l.2 X ∧ OnSegment P Q X) →
        (ls.map fun l => crossings P l.1 l.2).sum - (ls.map fun l => crossings Q l.1 l.2).sum =
          (ls.map fun l => inStrip P Q l.2 - inStrip P Q l.1).sum + s := by
      have rest : ∀ (ls : List ((ℝ × ℝ) × (ℝ × ℝ))), (∀ (j : ℕ) l, ls[j]? = some l → ¬ ∃ X, OnSegment l.1 l.2 X ∧ OnSegment P Q X) →
        (ls.map fun l => crossings P l.1 l.2).sum - (ls.map fun l => crossings Q l.1 l.2).sum =
          (ls.map fun l => inStrip P Q l.2 - inStrip P Q l.1).sum := by
        intro ls
        induction ls with
        | nil => intro _; simp
        | cons l ls ih =>
          intro h
          have h1 := ih fun j l hl => h (j + 1) l hl
          have h2 := crossings_change (A := l.1) (B := l.2) hPQ (h 0 l rfl)
          simp only [List.map_cons, List.sum_cons]
          linarith
      intro ls
      induction ls with
      | nil => intro i h; simp at h
      | cons l ls ih =>
        intro i h0 h
        cases i with
        | zero =>
          have e : l = (A, B) := by simpa using h0
          have h1 := rest ls fun j l' hl => h (j + 1) l' (by omega) hl
          subst e
          simp only [List.map_cons, List.sum_cons]
          linarith
        | succ k =>
          have h1 := ih k h0 fun j l' hj hl => h (j + 1) l' (by omega) hl
          have h2 := crossings_change (A := l.1) (B := l.2) hPQ (h 0 l (by omega) rfl)
          simp only [List.map_cons, List.sum_cons]
          linarith
    have e := sum _ i hi fun j l hj hl => by
      rintro ⟨X, h1, h2⟩
      obtain ⟨g1, g2⟩ := hline j l hl
      exact hm j l.1 l.2 hj g1 g2 X h2 h1
    have hpos : 0 < ring.length := by
      by_contra h0
      have : ring = [] := List.length_eq_zero_iff.1 (by omega)
      subst this
      simp at hA
    obtain ⟨a, ha⟩ : ∃ a, ring.head? = some a := by
      rw [List.head?_eq_getElem?]
      exact ⟨_, List.getElem?_eq_getElem hpos⟩
    have t := lines_telescope (inStrip P Q) ring a a ha (by rw [← hclosed, ha])
    unfold winding
    rcases hs with rfl | rfl
    · left; linarith
    · right; linarith
  rcases le_total P.2 Q.2 with h | h
  · exact up P Q h hcross hm
  · rcases up Q P h hcross.swap' fun j C D hj hC hD X hX => hm j C D hj hC hD X (onSegment_swap.1 hX) with h | h
    · right; linarith
    · left; linarith

/-! ## Nearest points -/

/-- The nearest point of a line. -/
theorem line_nearest {A B : ℝ × ℝ} (h : A ≠ B) (P : ℝ × ℝ) : ∃ q f, Geo.line_closest_point (A, B) P = some (q, f) ∧
    OnSegment A B q ∧ (∀ X, OnSegment A B X → planeDist P q ≤ planeDist P X) ∧ (f = true → OnSegment A B P) := by
  have hd : 0 < (B.1 - A.1)*(B.1 - A.1) + (B.2 - A.2)*(B.2 - A.2) := by
    by_contra hle
    have h1 : B.1 - A.1 = 0 := by nlinarith [mul_self_nonneg (B.1 - A.1), mul_self_nonneg (B.2 - A.2)]
    have h2 : B.2 - A.2 = 0 := by nlinarith [mul_self_nonneg (B.1 - A.1), mul_self_nonneg (B.2 - A.2)]
    exact h (Prod.ext (by linarith) (by linarith))
  obtain ⟨t, ht⟩ : ∃ t, t = ((P.1 - A.1)*(B.1 - A.1) + (P.2 - A.2)*(B.2 - A.2))/
    ((B.1 - A.1)*(B.1 - A.1) + (B.2 - A.2)*(B.2 - A.2)) := ⟨_, rfl⟩
  have e : Geo.line_closest_point (A, B) P =
      if (Geo.hypot (B.1 - A.1) (B.2 - A.2) ==. 0.0) = true then none
      else if (t <. 0.0) = true then some (A, false)
      else if (1.0 <. t) = true then some (B, false)
      else some ((A.1 + t*(B.1 - A.1), A.2 + t*(B.2 - A.2)), Geo.line_intersects (A, B) P) := by
    rw [ht]; rfl
  have h00 : (0.0:ℝ) = 0 := by norm_num
  have h11 : (1.0:ℝ) = 1 := by norm_num
  rw [e, if_neg (by
    rw [eq_real, h00]
    have : (0:ℝ) < Geo.hypot (B.1 - A.1) (B.2 - A.2) := Real.sqrt_pos.2 hd
    exact this.ne')]
  rw [h00, h11]
  have hmul : t*((B.1 - A.1)*(B.1 - A.1) + (B.2 - A.2)*(B.2 - A.2)) =
      (P.1 - A.1)*(B.1 - A.1) + (P.2 - A.2)*(B.2 - A.2) := by rw [ht]; exact div_mul_cancel₀ _ hd.ne'
  -- the distance at parameter s
  have dist : ∀ s : ℝ, (P.1 - (A.1 + s*(B.1 - A.1)))^2 + (P.2 - (A.2 + s*(B.2 - A.2)))^2 =
      (P.1 - A.1)^2 + (P.2 - A.2)^2 - t^2*((B.1 - A.1)*(B.1 - A.1) + (B.2 - A.2)*(B.2 - A.2)) +
        (s - t)^2*((B.1 - A.1)*(B.1 - A.1) + (B.2 - A.2)*(B.2 - A.2)) := by
    intro s
    linear_combination (2*s)*hmul
  have near : ∀ s0 : ℝ, (∀ s, 0 ≤ s → s ≤ 1 → (s0 - t)^2 ≤ (s - t)^2) →
      ∀ X, OnSegment A B X → planeDist P (A.1 + s0*(B.1 - A.1), A.2 + s0*(B.2 - A.2)) ≤ planeDist P X := by
    rintro s0 hs X ⟨s, s0', s1, hx, hy⟩
    unfold planeDist
    apply Real.sqrt_le_sqrt
    dsimp only
    rw [hx, hy, dist, dist]
    have := mul_le_mul_of_nonneg_right (hs s s0' s1) hd.le
    linarith
  by_cases c1 : t < 0
  · rw [if_pos ((lt_real _ _).2 c1)]
    refine ⟨A, false, rfl, onSegment_start _ _, ?_, fun h => (nomatch h)⟩
    have := near 0 (by
      intro s s0 s1
      nlinarith)
    simpa using this
  · rw [if_neg (by rw [lt_real]; exact c1)]
    by_cases c2 : 1 < t
    · rw [if_pos ((lt_real _ _).2 c2)]
      refine ⟨B, false, rfl, onSegment_end _ _, ?_, fun h => (nomatch h)⟩
      have := near 1 (by
        intro s s0 s1
        nlinarith)
      simpa using this
    · rw [if_neg (by rw [lt_real]; exact c2)]
      push Not at c1 c2
      refine ⟨_, _, rfl, ⟨t, c1, c2, rfl, rfl⟩, near t ?_, ?_⟩
      · intro s _ _
        nlinarith [sq_nonneg (s - t)]
      · intro hf
        unfold Geo.line_intersects at hf
        rw [Bool.and_eq_true, Bool.and_eq_true, value_in_between_iff, value_in_between_iff, eq_real, h00] at hf
        rw [onSegment_iff]
        exact ⟨hf.1.1, hf.1.2, hf.2⟩

theorem line_degenerate (A P : ℝ × ℝ) : Geo.line_closest_point (A, A) P = none := by
  have e : Geo.line_closest_point (A, A) P =
      if (Geo.hypot (A.1 - A.1) (A.2 - A.2) ==. 0.0) = true then none
      else Geo.line_closest_point (A, A) P := by
    by_cases h : (Geo.hypot (A.1 - A.1) (A.2 - A.2) ==. 0.0) = true
    · rw [if_pos h]
      unfold Geo.line_closest_point
      dsimp only
      rw [if_pos h]
    · rw [if_neg h]
  rw [e, if_pos]
  rw [eq_real]
  unfold Geo.hypot
  rw [sqrt_real]
  norm_num

theorem planeDist_eq (P Q : ℝ × ℝ) : Geo.euclidean_distance P Q = planeDist P Q := by
  unfold Geo.euclidean_distance Geo.hypot planeDist
  rw [sqrt_real, pow_two, pow_two]

theorem planeDist_comm (P Q : ℝ × ℝ) : planeDist P Q = planeDist Q P := by
  unfold planeDist
  congr 1
  ring

/-- The search of `closest_of` over lines the point is not on. -/
theorem closest_fold (P : ℝ × ℝ) (ls : List ((ℝ × ℝ) × (ℝ × ℝ))) (best : Geo.Closest ℝ)
    (hoff : ∀ l ∈ ls, ¬ OnSegment l.1 l.2 P) (hb : ∀ q f, best = some (q, f) → f = false) :
    (ls.foldl (Geo.closestStep P) best = best ∧ ∀ l ∈ ls, l.1 = l.2) ∨
    ∃ q, ls.foldl (Geo.closestStep P) best = some (q, false) ∧
      ((∃ l ∈ ls, OnSegment l.1 l.2 q) ∨ best = some (q, false)) ∧
      (∀ l ∈ ls, l.1 ≠ l.2 → ∀ X, OnSegment l.1 l.2 X → planeDist P q ≤ planeDist P X) ∧
      (∀ q', best = some (q', false) → planeDist P q ≤ planeDist P q') := by
  induction ls generalizing best with
  | nil => exact .inl ⟨rfl, fun _ h => by cases h⟩
  | cons l ls ih =>
    obtain ⟨A, B⟩ := l
    rw [List.foldl_cons]
    have hstep : Geo.closestStep P best (A, B) = Geo.best_of_two (Geo.line_closest_point (A, B) P) best P := by
      unfold Geo.closestStep
      match best, hb with
      | none, _ => rfl
      | some (q, false), _ => rfl
      | some (q, true), hb => exact absurd (hb q true rfl) (by simp)
    have hoff' : ∀ l ∈ ls, ¬ OnSegment l.1 l.2 P := fun l hl => hoff l (List.mem_cons_of_mem _ hl)
    rw [hstep]
    by_cases hAB : A = B
    · subst hAB
      rw [line_degenerate]
      have : Geo.best_of_two none best P = best := rfl
      rw [this]
      rcases ih best hoff' hb with ⟨h1, h2⟩ | ⟨q, h1, h2, h3, h4⟩
      · left
        refine ⟨h1, fun l hl => ?_⟩
        rcases List.mem_cons.1 hl with rfl | hl
        · rfl
        · exact h2 l hl
      · right
        refine ⟨q, h1, ?_, ?_, h4⟩
        · rcases h2 with ⟨l, hl, h⟩ | h
          · exact .inl ⟨l, List.mem_cons_of_mem _ hl, h⟩
          · exact .inr h
        · intro l hl hne
          rcases List.mem_cons.1 hl with rfl | hl
          · exact absurd rfl hne
          · exact h3 l hl hne
    · right
      obtain ⟨q0, f, hq, hon, hnear, hf⟩ := line_nearest hAB P
      have hf0 : f = false := by
        cases f with
        | false => rfl
        | true => exact absurd (hf rfl) (hoff (A, B) List.mem_cons_self)
      subst hf0
      rw [hq]
      -- the better of the two
      obtain ⟨q1, hq1, hor, hle, hle'⟩ : ∃ q1, Geo.best_of_two (some (q0, false)) best P = some (q1, false) ∧
          (q1 = q0 ∨ best = some (q1, false)) ∧ planeDist P q1 ≤ planeDist P q0 ∧
          (∀ q', best = some (q', false) → planeDist P q1 ≤ planeDist P q') := by
        match best, hb with
        | none, _ => exact ⟨q0, rfl, .inl rfl, le_rfl, fun q' h => (nomatch h)⟩
        | some (q, true), hb => exact absurd (hb q true rfl) (by simp)
        | some (q, false), _ =>
          have e : Geo.best_of_two (some (q0, false)) (some (q, false)) P =
              if (Geo.euclidean_distance q0 P <=. Geo.euclidean_distance q P) = true then some (q0, false)
              else some (q, false) := rfl
          rw [e]
          by_cases hc : planeDist P q0 ≤ planeDist P q
          · rw [if_pos (by rw [le_real, planeDist_eq, planeDist_eq, planeDist_comm, planeDist_comm q]; exact hc)]
            refine ⟨q0, rfl, .inl rfl, le_rfl, fun q' h => ?_⟩
            have : q = q' := by simpa using h
            rw [← this]; exact hc
          · rw [if_neg (by rw [le_real, planeDist_eq, planeDist_eq, planeDist_comm, planeDist_comm q]; exact hc)]
            push Not at hc
            refine ⟨q, rfl, .inr rfl, hc.le, fun q' h => ?_⟩
            have : q = q' := by simpa using h
            rw [← this]
      rw [hq1]
      rcases ih (some (q1, false)) hoff' (by rintro q f h; simp at h; exact h.2) with ⟨h1, h2⟩ | ⟨q, h1, h2, h3, h4⟩
      · refine ⟨q1, h1, ?_, ?_, hle'⟩
        · rcases hor with rfl | h
          · exact .inl ⟨(A, B), List.mem_cons_self, hon⟩
          · exact .inr h
        · intro l hl hne X hX
          rcases List.mem_cons.1 hl with rfl | hl
          · exact hle.trans (hnear X hX)
          · exact absurd (h2 l hl) hne
      · have hqq := h4 q1 rfl
        refine ⟨q, h1, ?_, ?_, fun q' h => hqq.trans (hle' q' h)⟩
        · rcases h2 with ⟨l, hl, h⟩ | h
          · exact .inl ⟨l, List.mem_cons_of_mem _ hl, h⟩
          · have : q1 = q := by simpa using h
            subst this
            rcases hor with rfl | h
            · exact .inl ⟨(A, B), List.mem_cons_self, hon⟩
            · exact .inr h
        · intro l hl hne X hX
          rcases List.mem_cons.1 hl with rfl | hl
          · exact (hqq.trans hle).trans (hnear X hX)
          · exact h3 l hl hne X hX

/-- In a list with two different elements, every element is an end of a line of positive length. -/
theorem end_of_line (v : ℝ × ℝ) : ∀ (xs : List (ℝ × ℝ)) (w : ℝ × ℝ), v ∈ xs → w ∈ xs → w ≠ v →
    ∃ l ∈ Geo.lines xs, l.1 ≠ l.2 ∧ (l.1 = v ∨ l.2 = v) := by
  intro xs
  induction xs with
  | nil => intro w h; cases h
  | cons x ys ih =>
    intro w hv hw hne
    cases ys with
    | nil =>
      rw [List.mem_singleton] at hv hw
      exact absurd (hw.trans hv.symm) hne
    | cons y zs =>
      have e : Geo.lines (x :: y :: zs) = (x, y) :: Geo.lines (y :: zs) := rfl
      rw [e]
      by_cases hv2 : v ∈ y :: zs
      · by_cases hy : y = v
        · by_cases hx : x = v
          · have hw2 : w ∈ y :: zs := by
              rcases List.mem_cons.1 hw with h | h
              · exact absurd (h.trans hx) hne
              · exact h
            obtain ⟨l, hl, h⟩ := ih w hv2 hw2 hne
            exact ⟨l, List.mem_cons_of_mem _ hl, h⟩
          · exact ⟨(x, y), List.mem_cons_self, by rw [hy]; exact hx, .inr hy⟩
        · obtain ⟨l, hl, h⟩ := ih y hv2 List.mem_cons_self hy
          exact ⟨l, List.mem_cons_of_mem _ hl, h⟩
      · have hx : x = v := by
          rcases List.mem_cons.1 hv with h | h
          · exact h.symm
          · exact absurd h hv2
        refine ⟨(x, y), List.mem_cons_self, ?_, .inl hx⟩
        intro hxy
        have hxy : x = y := hxy
        exact hv2 (by rw [← hx, hxy]; exact List.mem_cons_self)

end RustBCA
