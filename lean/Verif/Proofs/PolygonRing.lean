import Verif.Proofs.Polygon
import Mathlib.Analysis.LocallyConvex.Separation
import Mathlib.Analysis.Convex.Topology
import Mathlib.Tactic.Linarith

/-!
# Closed rings of corners
-/

set_option linter.unusedVariables false
set_option linter.unusedSimpArgs false

namespace RustBCA
open Spec Scalar

theorem mem_lines {ring : List (ℝ × ℝ)} {A B : ℝ × ℝ} :
    (A, B) ∈ Geo.lines ring ↔ ∃ i, ring[i]? = some A ∧ ring[i + 1]? = some B := by
  unfold Geo.lines
  rw [List.mem_iff_getElem?]
  simp only [List.getElem?_zip_eq_some, List.getElem?_tail]

theorem close_eq (pts : List (ℝ × ℝ)) : (pts.head? = pts.getLast? ∧ Geo.close pts = pts) ∨
    ∃ a, pts.head? = some a ∧ pts.getLast? ≠ some a ∧ Geo.close pts = pts ++ [a] := by
  unfold Geo.close
  cases hh : pts.head? with
  | none =>
    rw [List.head?_eq_none_iff] at hh
    subst hh
    exact .inl ⟨rfl, rfl⟩
  | some a =>
    cases hl : pts.getLast? with
    | none =>
      rw [List.getLast?_eq_none_iff] at hl
      subst hl
      cases hh
    | some b =>
      dsimp only
      by_cases h : a = b
      · left
        subst h
        refine ⟨rfl, if_pos ?_⟩
        rw [Bool.and_eq_true, eq_real, eq_real]
        exact ⟨rfl, rfl⟩
      · right
        refine ⟨a, rfl, by intro h2; exact h (Option.some.inj h2).symm, if_neg ?_⟩
        rw [Bool.and_eq_true, eq_real, eq_real]
        rintro ⟨h1, h2⟩
        exact h (Prod.ext h1 h2)

theorem close_closed (pts : List (ℝ × ℝ)) : (Geo.close pts).head? = (Geo.close pts).getLast? := by
  rcases close_eq pts with ⟨h, e⟩ | ⟨a, ha, _, e⟩
  · rw [e, h]
  · rw [e, List.getLast?_concat, List.head?_append, ha]
    rfl

/-- The edges of the polygon are the lines of the closed ring, but for an edge of length zero. -/
theorem edge_or_point {pts : List (ℝ × ℝ)} {i : ℕ} {A B : ℝ × ℝ} (hA : pts[i]? = some A)
    (hB : pts[(i + 1) % pts.length]? = some B) :
    ((Geo.close pts)[i]? = some A ∧ (Geo.close pts)[i + 1]? = some B) ∨
      (A = B ∧ Geo.close pts = pts ∧ i + 1 = pts.length) := by
  have hi : i < pts.length := by
    rw [List.getElem?_eq_some_iff] at hA
    exact hA.1
  rcases Nat.lt_or_ge (i + 1) pts.length with hlt | hge
  · rw [Nat.mod_eq_of_lt hlt] at hB
    left
    rcases close_eq pts with ⟨_, e⟩ | ⟨a, _, _, e⟩
    · rw [e]; exact ⟨hA, hB⟩
    · rw [e, List.getElem?_append_left hi, List.getElem?_append_left hlt]
      exact ⟨hA, hB⟩
  · have hn : i + 1 = pts.length := by omega
    rw [hn, Nat.mod_self, ← List.head?_eq_getElem?] at hB
    have hl : pts.getLast? = some A := by
      rw [List.getLast?_eq_getElem?, ← hA]
      congr 1
      omega
    rcases close_eq pts with ⟨h, e⟩ | ⟨a, h1, h2, e⟩
    · right
      rw [hl, hB] at h
      exact ⟨(Option.some.inj h).symm, e, hn⟩
    · left
      rw [h1] at hB
      rw [e, List.getElem?_append_left hi, hn, List.getElem?_concat_length]
      exact ⟨hA, hB⟩

/-- A line of the closed ring is an edge of the polygon. -/
theorem edge_of_line {pts : List (ℝ × ℝ)} {i : ℕ} {A B : ℝ × ℝ} (hA : (Geo.close pts)[i]? = some A)
    (hB : (Geo.close pts)[i + 1]? = some B) : pts[i]? = some A ∧ pts[(i + 1) % pts.length]? = some B := by
  rcases close_eq pts with ⟨h, e⟩ | ⟨a, h1, h2, e⟩
  · rw [e] at hA hB
    have hi : i + 1 < pts.length := by
      rw [List.getElem?_eq_some_iff] at hB
      exact hB.1
    rw [Nat.mod_eq_of_lt hi]
    exact ⟨hA, hB⟩
  · rw [e] at hA hB
    have hi : i + 1 < (pts ++ [a]).length := by
      rw [List.getElem?_eq_some_iff] at hB
      exact hB.1
    rw [List.length_append, List.length_singleton] at hi
    have hi1 : i < pts.length := by omega
    rw [List.getElem?_append_left hi1] at hA
    refine ⟨hA, ?_⟩
    rcases Nat.lt_or_ge (i + 1) pts.length with hlt | hge
    · rw [Nat.mod_eq_of_lt hlt]
      rw [List.getElem?_append_left hlt] at hB
      exact hB
    · have hn : i + 1 = pts.length := by omega
      rw [hn, Nat.mod_self, ← List.head?_eq_getElem?, h1]
      rw [hn, List.getElem?_concat_length] at hB
      exact hB

theorem onSegment_start (A B : ℝ × ℝ) : OnSegment A B A := ⟨0, le_rfl, zero_le_one, by ring, by ring⟩
theorem onSegment_end (A B : ℝ × ℝ) : OnSegment A B B := ⟨1, zero_le_one, le_rfl, by ring, by ring⟩
theorem onSegment_point {A X : ℝ × ℝ} (h : OnSegment A A X) : X = A := by
  obtain ⟨t, _, _, hx, hy⟩ := h
  exact Prod.ext (by rw [hx]; ring) (by rw [hy]; ring)

/-- With two or more corners, the points of the polygon are those of the lines. -/
theorem onPolygon_lines {pts : List (ℝ × ℝ)} (hn : 2 ≤ (Geo.close pts).length) (X : ℝ × ℝ) :
    OnPolygon pts X ↔ ∃ l ∈ Geo.lines (Geo.close pts), OnSegment l.1 l.2 X := by
  constructor
  · rintro ⟨i, A, B, hA, hB, hX⟩
    rcases edge_or_point hA hB with ⟨h1, h2⟩ | ⟨rfl, e, hi⟩
    · exact ⟨(A, B), mem_lines.2 ⟨i, h1, h2⟩, hX⟩
    · have hX := onSegment_point hX
      subst hX
      rw [e] at hn ⊢
      have hj : i - 1 < pts.length := by omega
      refine ⟨(pts[i - 1], X), mem_lines.2 ⟨i - 1, List.getElem?_eq_getElem hj, ?_⟩, onSegment_end _ _⟩
      rw [show i - 1 + 1 = i by omega]
      exact hA
  · rintro ⟨⟨A, B⟩, hl, hX⟩
    obtain ⟨i, h1, h2⟩ := mem_lines.1 hl
    obtain ⟨h3, h4⟩ := edge_of_line h1 h2
    exact ⟨i, A, B, h3, h4, hX⟩

/-- A point on a line of a closed ring is found. -/
theorem detected_iff {ring : List (ℝ × ℝ)} (hclosed : ring.head? = ring.getLast?) (P : ℝ × ℝ) :
    (∃ l ∈ Geo.lines ring, Detected P l.1 l.2) ↔ ∃ l ∈ Geo.lines ring, OnSegment l.1 l.2 P := by
  constructor
  · rintro ⟨l, hl, h⟩
    exact ⟨l, hl, h.1⟩
  · rintro ⟨⟨A, B⟩, hl, h⟩
    by_cases hd : A.2 ≤ P.2 → P.2 ≤ B.2
    · exact ⟨_, hl, h, hd⟩
    · push Not at hd
      obtain ⟨h1, h2⟩ := hd
      obtain ⟨_, _, hy⟩ := (onSegment_iff A B P).1 h
      have hA2 : P.2 = A.2 := by rcases hy with ⟨a, b⟩ | ⟨a, b⟩ <;> linarith
      have hPA : P = A := by
        obtain ⟨t, t0, t1, hx, hy⟩ := h
        have ht : t = 0 := by
          have : t*(B.2 - A.2) = 0 := by linarith
          rcases mul_eq_zero.1 this with h | h
          · exact h
          · exfalso; linarith
        subst ht
        exact Prod.ext (by rw [hx]; ring) hA2
      subst hPA
      obtain ⟨i, hi1, hi2⟩ := mem_lines.1 hl
      have hlen : i + 1 < ring.length := by
        rw [List.getElem?_eq_some_iff] at hi2
        exact hi2.1
      have key : ∃ C, (C, P) ∈ Geo.lines ring := by
        cases i with
        | zero =>
          have hlast : ring[ring.length - 1]? = some P := by
            rw [← List.getLast?_eq_getElem?, ← hclosed, List.head?_eq_getElem?, hi1]
          refine ⟨ring[ring.length - 2]'(by omega), mem_lines.2 ⟨ring.length - 2, List.getElem?_eq_getElem _, ?_⟩⟩
          rw [← hlast]
          congr 1
          omega
        | succ k =>
          exact ⟨ring[k]'(by omega), mem_lines.2 ⟨k, List.getElem?_eq_getElem _, hi1⟩⟩
      obtain ⟨C, hC⟩ := key
      exact ⟨(C, P), hC, onSegment_end _ _, fun _ => le_rfl⟩

/-- The verdict of the code on a closed ring. -/
theorem coord_pos_eq (pts : List (ℝ × ℝ)) (P : ℝ × ℝ) :
    (OnPolygon pts P ∧ Geo.coord_pos_relative_to_ring P (Geo.close pts) = .OnBoundary) ∨
    (¬ OnPolygon pts P ∧ Geo.coord_pos_relative_to_ring P (Geo.close pts) =
      if winding P (Geo.lines (Geo.close pts)) = 0 then .Outside else .Inside) := by
  rcases Nat.lt_or_ge (Geo.close pts).length 2 with hn | hn
  · -- at most one corner
    have e : Geo.close pts = pts := by
      rcases close_eq pts with ⟨_, e⟩ | ⟨a, h1, _, e⟩
      · exact e
      · rw [e, List.length_append, List.length_singleton] at hn
        have : pts = [] := List.length_eq_zero_iff.1 (by omega)
        subst this
        cases h1
    rw [e] at hn ⊢
    match pts, hn with
    | [], _ =>
      right
      refine ⟨?_, ?_⟩
      · rintro ⟨i, A, B, h, _⟩
        simp at h
      · simp [Geo.coord_pos_relative_to_ring, Geo.lines, winding]
    | [p], _ =>
      have hp : OnPolygon [p] P ↔ P = p := by
        constructor
        · rintro ⟨i, A, B, h1, h2, h3⟩
          have h1' := List.mem_of_getElem? h1
          have h2' := List.mem_of_getElem? h2
          rw [List.mem_singleton] at h1' h2'
          subst h1'; subst h2'
          exact onSegment_point h3
        · rintro rfl
          exact ⟨0, P, P, by simp, by simp, onSegment_start _ _⟩
      have hc : Geo.coord_pos_relative_to_ring P [p] =
          if ((P.1 ==. p.1) && (P.2 ==. p.2)) = true then .OnBoundary else .Outside := rfl
      by_cases h : P = p
      · left
        refine ⟨hp.2 h, ?_⟩
        rw [hc, if_pos]
        rw [Bool.and_eq_true, eq_real, eq_real, h]
        exact ⟨rfl, rfl⟩
      · right
        refine ⟨fun h2 => h (hp.1 h2), ?_⟩
        rw [hc, if_neg, if_pos (by simp [Geo.lines, winding])]
        rw [Bool.and_eq_true, eq_real, eq_real]
        rintro ⟨h1, h2⟩
        exact h (Prod.ext h1 h2)
  · obtain ⟨ring, hr⟩ : ∃ ring, ring = Geo.close pts := ⟨_, rfl⟩
    have hcl := close_closed pts
    have hon := onPolygon_lines hn P
    rw [← hr] at hn hon hcl ⊢
    have e : Geo.coord_pos_relative_to_ring P ring =
        match (Geo.lines ring).foldl (Geo.windingStep P) (some 0) with
        | none => .OnBoundary
        | some w => if w == 0 then .Outside else .Inside := by
      match ring, hn with
      | _ :: _ :: _, _ => rfl
    rw [hon, ← detected_iff hcl, e]
    rcases winding_fold P (Geo.lines ring) 0 with ⟨h1, h2⟩ | ⟨h1, h2⟩
    · left
      exact ⟨h1, by rw [h2]⟩
    · right
      refine ⟨by rintro ⟨l, hl, h⟩; exact h1 l hl h, ?_⟩
      rw [h2, zero_add]
      by_cases hw : winding P (Geo.lines ring) = 0
      · simp [hw]
      · simp [hw]

theorem contains_iff (pts : List (ℝ × ℝ)) (P : ℝ × ℝ) : Geo.polygon_contains pts P = true ↔
    ¬ OnPolygon pts P ∧ winding P (Geo.lines (Geo.close pts)) ≠ 0 := by
  unfold Geo.polygon_contains
  rw [beq_iff_eq]
  rcases coord_pos_eq pts P with ⟨h1, h2⟩ | ⟨h1, h2⟩
  · rw [h2]
    exact ⟨fun h => (nomatch h), fun h => absurd h1 h.1⟩
  · rw [h2]
    by_cases hw : winding P (Geo.lines (Geo.close pts)) = 0
    · rw [if_pos hw]
      exact ⟨fun h => (nomatch h), fun h => absurd hw h.2⟩
    · rw [if_neg hw]
      exact ⟨fun _ => ⟨h1, hw⟩, fun _ => rfl⟩

theorem outside_iff (pts : List (ℝ × ℝ)) (P : ℝ × ℝ) :
    (Geo.coord_pos_relative_to_ring P (Geo.close pts) == .Outside) = true ↔
      ¬ OnPolygon pts P ∧ Geo.polygon_contains pts P = false := by
  rw [beq_iff_eq, ← Bool.not_eq_true, contains_iff]
  rcases coord_pos_eq pts P with ⟨h1, h2⟩ | ⟨h1, h2⟩
  · rw [h2]
    exact ⟨fun h => (nomatch h), fun h => absurd h1 h.1⟩
  · rw [h2]
    by_cases hw : winding P (Geo.lines (Geo.close pts)) = 0
    · rw [if_pos hw]
      exact ⟨fun _ => ⟨h1, fun h => h.2 hw⟩, fun _ => rfl⟩
    · rw [if_neg hw]
      exact ⟨fun h => (nomatch h), fun h => absurd ⟨h1, hw⟩ h.2⟩

theorem edge_onPolygon {pts : List (ℝ × ℝ)} {l : (ℝ × ℝ) × (ℝ × ℝ)} (hl : l ∈ Geo.lines (Geo.close pts)) {X : ℝ × ℝ}
    (h : OnSegment l.1 l.2 X) : OnPolygon pts X := by
  obtain ⟨A, B⟩ := l
  obtain ⟨i, h1, h2⟩ := mem_lines.1 hl
  obtain ⟨h3, h4⟩ := edge_of_line h1 h2
  exact ⟨i, A, B, h3, h4, h⟩

/-- The answer does not change along a way that does not meet the polygon. -/
theorem contains_along {pts : List (ℝ × ℝ)} {P Q : ℝ × ℝ} (h : ∀ X, OnSegment P Q X → ¬ OnPolygon pts X) :
    Geo.polygon_contains pts P = Geo.polygon_contains pts Q := by
  have hw := winding_change (close_closed pts) (P := P) (Q := Q)
    (fun l hl X hX hX2 => h X hX (edge_onPolygon hl hX2))
  have hP := h P (onSegment_start _ _)
  have hQ := h Q (onSegment_end _ _)
  rw [Bool.eq_iff_iff, contains_iff, contains_iff, hw]
  exact ⟨fun h => ⟨hQ, h.2⟩, fun h => ⟨hP, h.2⟩⟩

/-- Above and below all corners, the winding number is zero. -/
theorem winding_far {pts : List (ℝ × ℝ)} {P : ℝ × ℝ} (h : (∀ X ∈ pts, X.2 ≤ P.2) ∨ (∀ X ∈ pts, P.2 < X.2)) :
    winding P (Geo.lines (Geo.close pts)) = 0 := by
  unfold winding
  apply List.sum_eq_zero
  intro n hn
  obtain ⟨⟨A, B⟩, hl, rfl⟩ := List.mem_map.1 hn
  obtain ⟨i, h1, h2⟩ := mem_lines.1 hl
  obtain ⟨h3, h4⟩ := edge_of_line h1 h2
  have hA := List.mem_of_getElem? h3
  have hB := List.mem_of_getElem? h4
  unfold crossings
  dsimp only
  rcases h with h | h
  · rw [if_neg (by rintro ⟨_, h5, _⟩; linarith [h B hB]), if_neg (by rintro ⟨_, h5, _⟩; linarith [h A hA])]
  · rw [if_neg (by rintro ⟨h5, _⟩; linarith [h A hA]), if_neg (by rintro ⟨h5, _⟩; linarith [h B hB])]

theorem contains_far {pts : List (ℝ × ℝ)} {P : ℝ × ℝ} (h : (∀ X ∈ pts, X.2 ≤ P.2) ∨ (∀ X ∈ pts, P.2 < X.2)) :
    Geo.polygon_contains pts P = false := by
  rw [← Bool.not_eq_true, contains_iff]
  exact fun h2 => h2.2 (winding_far h)

/-- A point on the other side of a line than all corners is not contained. -/
theorem contains_separated {pts : List (ℝ × ℝ)} {P : ℝ × ℝ} (a b c : ℝ) (h : ∀ X ∈ pts, a*X.1 + b*X.2 ≤ c)
    (hP : c < a*P.1 + b*P.2) : Geo.polygon_contains pts P = false := by
  have hpoly : ∀ X, OnPolygon pts X → a*X.1 + b*X.2 ≤ c := by
    rintro X ⟨i, A, B, hA, hB, t, t0, t1, hx, hy⟩
    have h1 := h A (List.mem_of_getElem? hA)
    have h2 := h B (List.mem_of_getElem? hB)
    rw [hx, hy]
    have : a*(A.1 + t*(B.1 - A.1)) + b*(A.2 + t*(B.2 - A.2)) = (1 - t)*(a*A.1 + b*A.2) + t*(a*B.1 + b*B.2) := by ring
    rw [this]
    nlinarith
  have bound : ∀ l : List (ℝ × ℝ), ∃ M, 0 ≤ M ∧ ∀ X ∈ l, |X.2| ≤ M := by
    intro l
    induction l with
    | nil => exact ⟨0, le_rfl, fun _ h => by cases h⟩
    | cons x xs ih =>
      obtain ⟨M, hM0, hM⟩ := ih
      refine ⟨max M |x.2|, le_max_of_le_left hM0, fun X hX => ?_⟩
      rcases List.mem_cons.1 hX with rfl | hX
      · exact le_max_right _ _
      · exact le_max_of_le_left (hM X hX)
  obtain ⟨M, hM0, hM⟩ := bound pts
  rcases le_total 0 b with hb | hb
  · -- upwards
    have := contains_along (pts := pts) (P := P) (Q := (P.1, P.2 + (M + |P.2|))) (by
      rintro X ⟨t, t0, t1, hx, hy⟩ hX
      have h1 := hpoly X hX
      dsimp only at hx hy
      rw [hx, hy] at h1
      have h2 : 0 ≤ b*(t*(M + |P.2|)) := by positivity
      nlinarith)
    rw [this]
    apply contains_far
    left
    intro X hX
    have h1 := (abs_le.1 (hM X hX)).2
    have h2 := neg_abs_le P.2
    dsimp only
    linarith
  · have := contains_along (pts := pts) (P := P) (Q := (P.1, P.2 - (M + |P.2| + 1))) (by
      rintro X ⟨t, t0, t1, hx, hy⟩ hX
      have h1 := hpoly X hX
      dsimp only at hx hy
      rw [hx, hy] at h1
      have h2 : 0 ≤ (-b)*(t*(M + |P.2| + 1)) := by
        have : 0 ≤ -b := by linarith
        positivity
      nlinarith)
    rw [this]
    apply contains_far
    right
    intro X hX
    have h1 := (abs_le.1 (hM X hX)).1
    have h2 := le_abs_self P.2
    dsimp only
    linarith

end RustBCA
