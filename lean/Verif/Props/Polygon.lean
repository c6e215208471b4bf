import Verif.Proofs.PolygonNearest
import Verif.Props.Meshes
import Mathlib.Topology.Connected.TotallyDisconnected
import Mathlib.Topology.MetricSpace.ProperSpace
import Mathlib.Algebra.Order.BigOperators.Group.List

/-!
# C99: the polygons of 2D targets
-/

set_option linter.unusedVariables false
set_option linter.unusedSimpArgs false

namespace RustBCA
open Spec Scalar

/-- **C99**, the boundary: a point on an edge is not inside. -/
theorem C99_boundary (corners : List (ℝ × ℝ)) (P : ℝ × ℝ) (h : OnPolygon corners P) :
    Geo.polygon_contains corners P = false := by
  rw [← Bool.not_eq_true, contains_iff]
  exact fun h2 => h2.1 h

/-! ## Regions -/

theorem segment_closed (A B : ℝ × ℝ) : IsClosed {X | OnSegment A B X} := by
  have e : {X | OnSegment A B X} =
      (fun t : ℝ => ((A.1 + t*(B.1 - A.1), A.2 + t*(B.2 - A.2)) : ℝ × ℝ)) '' Set.Icc 0 1 := by
    ext X
    constructor
    · rintro ⟨t, h0, h1, hx, hy⟩
      exact ⟨t, ⟨h0, h1⟩, Prod.ext hx.symm hy.symm⟩
    · rintro ⟨t, ⟨h0, h1⟩, rfl⟩
      exact ⟨t, h0, h1, rfl, rfl⟩
  rw [e]
  exact (isCompact_Icc.image (by fun_prop)).isClosed

theorem polygon_closed (corners : List (ℝ × ℝ)) : IsClosed {X | OnPolygon corners X} := by
  have e : {X | OnPolygon corners X} = ⋃ l ∈ {l : (ℝ × ℝ) × (ℝ × ℝ) | Edge corners l.1 l.2}, {X | OnSegment l.1 l.2 X} := by
    ext X
    simp only [Set.mem_iUnion, Set.mem_ofPred_eq]
    constructor
    · rintro ⟨i, A, B, h1, h2, h3⟩
      exact ⟨(A, B), ⟨i, h1, h2⟩, h3⟩
    · rintro ⟨⟨A, B⟩, ⟨i, h1, h2⟩, h3⟩
      exact ⟨i, A, B, h1, h2, h3⟩
  rw [e]
  refine Set.Finite.isClosed_biUnion ?_ fun l _ => segment_closed _ _
  refine Set.Finite.subset ((List.finite_toSet corners).prod (List.finite_toSet corners)) ?_
  rintro ⟨A, B⟩ ⟨i, h1, h2⟩
  exact ⟨List.mem_of_getElem? h1, List.mem_of_getElem? h2⟩

/-- **C99**, regions: two points that can be joined without meeting an edge get the same answer — here for any
connected set that meets no edge. -/
theorem C99_regions (corners : List (ℝ × ℝ)) (S : Set (ℝ × ℝ)) (hS : IsPreconnected S)
    (h : ∀ X ∈ S, ¬ OnPolygon corners X) (P Q : ℝ × ℝ) (hP : P ∈ S) (hQ : Q ∈ S) :
    Geo.polygon_contains corners P = Geo.polygon_contains corners Q := by
  refine hS.constant (f := Geo.polygon_contains corners) ?_ hP hQ
  intro X hX
  have hopen := (polygon_closed corners).isOpen_compl
  obtain ⟨ε, hε, hball⟩ := Metric.isOpen_iff.1 hopen X (h X hX)
  refine ContinuousAt.continuousWithinAt ?_
  refine (continuousAt_const (y := Geo.polygon_contains corners X)).congr ?_
  filter_upwards [Metric.ball_mem_nhds X hε] with Y hY
  apply contains_along
  rintro Z ⟨t, t0, t1, hx, hy⟩
  refine hball ?_
  have hc := convex_ball X ε
  have : Z = (1 - t) • X + t • Y := by
    refine Prod.ext ?_ ?_
    · simp only [Prod.fst_add, Prod.smul_fst, smul_eq_mul]
      rw [hx]; ring
    · simp only [Prod.snd_add, Prod.smul_snd, smul_eq_mul]
      rw [hy]; ring
  rw [this]
  exact hc (Metric.mem_ball_self hε) hY (by linarith) t0 (by ring)

/-- **C99**, far away: a point outside the convex hull of the corners is not inside. -/
theorem C99_hull (corners : List (ℝ × ℝ)) (P : ℝ × ℝ) (h : P ∉ convexHull ℝ {X | X ∈ corners}) :
    Geo.polygon_contains corners P = false := by
  have hfin : {X | X ∈ corners}.Finite := List.finite_toSet corners
  have hcl : IsClosed (convexHull ℝ {X | X ∈ corners}) := (hfin.isCompact_convexHull ℝ).isClosed
  obtain ⟨f, u, hf, hu⟩ := geometric_hahn_banach_closed_point (convex_convexHull ℝ _) hcl h
  have key : ∀ X : ℝ × ℝ, f X = f (1, 0)*X.1 + f (0, 1)*X.2 := by
    intro X
    have : X = X.1 • ((1, 0) : ℝ × ℝ) + X.2 • ((0, 1) : ℝ × ℝ) := by
      refine Prod.ext ?_ ?_ <;> simp
    conv_lhs => rw [this]
    rw [map_add, map_smul, map_smul, smul_eq_mul, smul_eq_mul]
    ring
  refine contains_separated (f (1, 0)) (f (0, 1)) u ?_ ?_
  · intro X hX
    rw [← key]
    exact (hf X (subset_convexHull ℝ _ hX)).le
  · rw [← key]
    exact hu

/-- **C99**, crossing: from a point outside, across one edge and meeting no other, one comes inside; and from
inside across one edge, if the point was not wound around more than once, to the outside. -/
theorem C99_crossing (corners : List (ℝ × ℝ)) (P Q A B : ℝ × ℝ) (i : ℕ) (hA : corners[i]? = some A)
    (hB : corners[(i + 1) % corners.length]? = some B) (hcross : Cross A B P Q)
    (hP : ¬ OnPolygon corners P) (hQ : ¬ OnPolygon corners Q)
    (hm : ∀ (j : ℕ) (C D : ℝ × ℝ), j ≠ i → corners[j]? = some C → corners[(j + 1) % corners.length]? = some D →
      ∀ X, OnSegment P Q X → ¬ OnSegment C D X)
    (hout : Geo.polygon_contains corners P = false) : Geo.polygon_contains corners Q = true := by
  have hne : A ≠ B := by
    rintro rfl
    have h1 := hcross.1
    have : leftOf A A P = 0 := by unfold leftOf; ring
    rw [this] at h1
    simp at h1
  rcases edge_or_point hA hB with ⟨h1, h2⟩ | ⟨h, _⟩
  swap
  · exact absurd h hne
  have hw := winding_cross (close_closed corners) h1 h2 hcross fun j C D hj hC hD X hX => by
    obtain ⟨h3, h4⟩ := edge_of_line hC hD
    exact hm j C D hj h3 h4 X hX
  rw [← Bool.not_eq_true, contains_iff] at hout
  have h0 : winding P (Geo.lines (Geo.close corners)) = 0 := by
    by_contra hn
    exact hout ⟨hP, hn⟩
  rw [contains_iff]
  refine ⟨hQ, ?_⟩
  rw [h0] at hw
  omega

/-! ## Convex polygons -/

/-- The angle of a vector pointing down, as a number that grows counterclockwise. -/
theorem angle_lt {a b c d : ℝ} (hb : b ≤ 0) (hd : d ≤ 0) (h : 0 < a*d - b*c) :
    a/(|a| + |b|) < c/(|c| + |d|) := by
  have ha : 0 < |a| + |b| := by
    by_contra hn
    have h1 : a = 0 := abs_eq_zero.1 (le_antisymm (by linarith [abs_nonneg b]) (abs_nonneg a))
    have h2 : b = 0 := abs_eq_zero.1 (le_antisymm (by linarith [abs_nonneg a]) (abs_nonneg b))
    rw [h1, h2] at h
    simp at h
  have hc : 0 < |c| + |d| := by
    by_contra hn
    have h1 : c = 0 := abs_eq_zero.1 (le_antisymm (by linarith [abs_nonneg d]) (abs_nonneg c))
    have h2 : d = 0 := abs_eq_zero.1 (le_antisymm (by linarith [abs_nonneg c]) (abs_nonneg d))
    rw [h1, h2] at h
    simp at h
  rw [div_lt_div_iff₀ ha hc, abs_of_nonpos hb, abs_of_nonpos hd]
  have : a*|c| - c*|a| < a*d - b*c := by
    rcases le_total 0 a with h1 | h1 <;> rcases le_total 0 c with h2 | h2
    · rw [abs_of_nonneg h1, abs_of_nonneg h2]; linarith [mul_comm a c]
    · exfalso
      nlinarith [mul_nonneg h1 (neg_nonneg.2 hd), mul_nonneg (neg_nonneg.2 hb) (neg_nonneg.2 h2)]
    · rw [abs_of_nonpos h1, abs_of_nonneg h2]
      nlinarith [mul_nonneg (neg_nonneg.2 h1) h2]
    · rw [abs_of_nonpos h1, abs_of_nonpos h2]; linarith [mul_comm a c]
  linarith

/-- A closed ring without a step from `p` to not `p` is all `p` or all not `p`. -/
theorem no_step {ring : List (ℝ × ℝ)} (hclosed : ring.head? = ring.getLast?) (p : ℝ × ℝ → Prop)
    (h : ∀ l ∈ Geo.lines ring, p l.1 → p l.2) : (∀ X ∈ ring, p X) ∨ (∀ X ∈ ring, ¬ p X) := by
  have all : ∀ (xs : List (ℝ × ℝ)) (a : ℝ × ℝ), xs.head? = some a → p a → (∀ l ∈ Geo.lines xs, p l.1 → p l.2) →
      ∀ X ∈ xs, p X := by
    intro xs
    induction xs with
    | nil => intro a h; cases h
    | cons x ys ih =>
      intro a ha hpa hs X hX
      cases ha
      rcases List.mem_cons.1 hX with rfl | hX
      · exact hpa
      · cases ys with
        | nil => cases hX
        | cons y zs =>
          have e : Geo.lines (x :: y :: zs) = (x, y) :: Geo.lines (y :: zs) := rfl
          rw [e] at hs
          exact ih y rfl (hs (x, y) List.mem_cons_self hpa) (fun l hl => hs l (List.mem_cons_of_mem _ hl)) X hX
  have last : ∀ (xs : List (ℝ × ℝ)) (b X : ℝ × ℝ), xs.getLast? = some b → X ∈ xs → p X →
      (∀ l ∈ Geo.lines xs, p l.1 → p l.2) → p b := by
    intro xs
    induction xs with
    | nil => intro b X h; cases h
    | cons x ys ih =>
      intro b X hb hX hpX hs
      cases ys with
      | nil =>
        cases hb
        rw [List.mem_singleton] at hX
        rw [← hX]; exact hpX
      | cons y zs =>
        have e : Geo.lines (x :: y :: zs) = (x, y) :: Geo.lines (y :: zs) := rfl
        rw [e] at hs
        have hb' : (y :: zs).getLast? = some b := by rw [List.getLast?_cons_cons] at hb; exact hb
        rcases List.mem_cons.1 hX with rfl | hX
        · exact ih b y hb' List.mem_cons_self (hs (X, y) List.mem_cons_self hpX) fun l hl => hs l (List.mem_cons_of_mem _ hl)
        · exact ih b X hb' hX hpX fun l hl => hs l (List.mem_cons_of_mem _ hl)
  by_cases hex : ∃ X ∈ ring, p X
  · left
    obtain ⟨X, hX, hpX⟩ := hex
    cases hl : ring.getLast? with
    | none =>
      rw [List.getLast?_eq_none_iff] at hl
      subst hl
      intro X hX
      cases hX
    | some b =>
      have hpb := last ring b X hl hX hpX h
      exact all ring b (by rw [hclosed, hl]) hpb h
  · right
    intro X hX hpX
    exact hex ⟨X, hX, hpX⟩

theorem mem_close {corners : List (ℝ × ℝ)} {X : ℝ × ℝ} : X ∈ Geo.close corners ↔ X ∈ corners := by
  rcases close_eq corners with ⟨_, e⟩ | ⟨a, h, _, e⟩
  · rw [e]
  · rw [e, List.mem_append, List.mem_singleton]
    constructor
    · rintro (h1 | rfl)
      · exact h1
      · exact List.mem_of_mem_head? h
    · exact .inl

theorem edge_of_mem {corners : List (ℝ × ℝ)} {l : (ℝ × ℝ) × (ℝ × ℝ)} (hl : l ∈ Geo.lines (Geo.close corners)) :
    Edge corners l.1 l.2 := by
  obtain ⟨A, B⟩ := l
  obtain ⟨i, h1, h2⟩ := mem_lines.1 hl
  obtain ⟨h3, h4⟩ := edge_of_line h1 h2
  exact ⟨i, h3, h4⟩

theorem Spec.Edge.mem {corners : List (ℝ × ℝ)} {A B : ℝ × ℝ} (h : Edge corners A B) (hne : A ≠ B) :
    (A, B) ∈ Geo.lines (Geo.close corners) := by
  obtain ⟨i, h1, h2⟩ := h
  rcases edge_or_point h1 h2 with ⟨h3, h4⟩ | ⟨h, _⟩
  · exact mem_lines.2 ⟨i, h3, h4⟩
  · exact absurd h hne

/-- Around a point on the inner side of all edges, the corners are not all below, nor all above. -/
theorem not_one_sided {corners : List (ℝ × ℝ)} {turn : ℝ} (ht : turn = 1 ∨ turn = -1) (h2 : TwoCorners corners) {P : ℝ × ℝ}
    (h : ∀ A B, Edge corners A B → A ≠ B → 0 < turn*leftOf A B P) (s : ℝ) (hs : s = 1 ∨ s = -1) :
    ¬ ∀ X ∈ corners, s*(X.2 - P.2) ≤ 0 := by
  intro hall
  obtain ⟨g, hg⟩ : ∃ g : ℝ × ℝ → ℝ, g = fun X => (s*(X.1 - P.1))/(|s*(X.1 - P.1)| + |s*(X.2 - P.2)|) := ⟨_, rfl⟩
  have hss : s*s = 1 := by rcases hs with rfl | rfl <;> norm_num
  obtain ⟨a, haM, b, hbM, hab⟩ := h2
  -- along every line the angle grows
  have grow : ∀ l ∈ Geo.lines (Geo.close corners), l.1 ≠ l.2 → 0 < turn*(g l.2 - g l.1) := by
    intro l hl hne
    have hE := edge_of_mem hl
    have hpos := h _ _ hE hne
    obtain ⟨i, h1, h2⟩ := hE
    have hA := hall _ (List.mem_of_getElem? h1)
    have hB := hall _ (List.mem_of_getElem? h2)
    have e : ∀ A B : ℝ × ℝ, leftOf A B P = (s*(A.1 - P.1))*(s*(B.2 - P.2)) - (s*(A.2 - P.2))*(s*(B.1 - P.1)) := by
      intro A B
      unfold leftOf
      linear_combination ((A.2 - P.2)*(B.1 - P.1) - (A.1 - P.1)*(B.2 - P.2))*hss
    rw [hg]
    rcases ht with rfl | rfl
    · rw [one_mul, e] at hpos
      have := angle_lt hA hB hpos
      dsimp only
      linarith
    · rw [e] at hpos
      have := angle_lt hB hA (a := s*(l.2.1 - P.1)) (c := s*(l.1.1 - P.1)) (by linarith)
      dsimp only
      linarith
  -- but the ring is closed
  obtain ⟨c, hc⟩ : ∃ c, (Geo.close corners).head? = some c := by
    cases hh : (Geo.close corners).head? with
    | some c => exact ⟨c, rfl⟩
    | none =>
      rw [List.head?_eq_none_iff] at hh
      have := mem_close.2 haM
      rw [hh] at this
      cases this
  have tel := lines_telescope g _ c c hc (by rw [← close_closed, hc])
  obtain ⟨l, hl, hne, _⟩ := end_of_line a _ b (mem_close.2 haM) (mem_close.2 hbM) (Ne.symm hab)
  have nonneg : ∀ x ∈ (Geo.lines (Geo.close corners)).map fun l => turn*(g l.2 - g l.1), 0 ≤ x := by
    intro x hx
    obtain ⟨l, hl, rfl⟩ := List.mem_map.1 hx
    by_cases hne : l.1 = l.2
    · rw [hne]; simp
    · exact (grow l hl hne).le
  have hle := List.single_le_sum nonneg _ (List.mem_map_of_mem (f := fun l => turn*(g l.2 - g l.1)) hl)
  have hsum : ((Geo.lines (Geo.close corners)).map fun l => turn*(g l.2 - g l.1)).sum =
      turn*((Geo.lines (Geo.close corners)).map fun l => g l.2 - g l.1).sum := List.sum_map_mul_left _ _ _
  rw [hsum, tel, sub_self, mul_zero] at hle
  linarith [grow l hl hne]

/-- **C99**, convex polygons: the points inside are those strictly on the inner side of every edge. -/
theorem C99_convex (corners : List (ℝ × ℝ)) (turn : ℝ) (ht : turn = 1 ∨ turn = -1)
    (hconv : ConvexPolygon corners turn) (h2 : TwoCorners corners) (P : ℝ × ℝ) :
    Geo.polygon_contains corners P = true ↔ ∀ A B, Edge corners A B → A ≠ B → 0 < turn*leftOf A B P := by
  have htt : turn*turn = 1 := by rcases ht with rfl | rfl <;> norm_num
  constructor
  · intro hin A B hE hne
    by_contra hle
    push Not at hle
    -- the points of the polygon are on the inner side of the line
    have side : ∀ X, OnPolygon corners X → 0 ≤ turn*leftOf A B X := by
      rintro X ⟨i, C, D, hC, hD, t, t0, t1, hx, hy⟩
      have h3 := hconv A B C hE (List.mem_of_getElem? hC)
      have h4 := hconv A B D hE (List.mem_of_getElem? hD)
      have : turn*leftOf A B X = (1 - t)*(turn*leftOf A B C) + t*(turn*leftOf A B D) := by
        unfold leftOf; rw [hx, hy]; ring
      rw [this]
      nlinarith
    have outer : ∀ Q : ℝ × ℝ, turn*leftOf A B Q < 0 → Geo.polygon_contains corners Q = false := by
      intro Q hQ
      refine contains_separated (turn*(B.2 - A.2)) (-turn*(B.1 - A.1)) (turn*((B.2 - A.2)*A.1 - (B.1 - A.1)*A.2)) ?_ ?_
      · intro X hX
        have := hconv A B X hE hX
        unfold leftOf at this
        linarith
      · unfold leftOf at hQ
        linarith
    rcases hle.lt_or_eq with hlt | heq
    · rw [outer P hlt] at hin
      cases hin
    · have hP := ((contains_iff corners P).1 hin).1
      have hd : 0 < (B.1 - A.1)^2 + (B.2 - A.2)^2 := by
        by_contra hn
        have e1 : B.1 - A.1 = 0 := by nlinarith [sq_nonneg (B.1 - A.1), sq_nonneg (B.2 - A.2)]
        have e2 : B.2 - A.2 = 0 := by nlinarith [sq_nonneg (B.1 - A.1), sq_nonneg (B.2 - A.2)]
        exact hne (Prod.ext (by linarith) (by linarith))
      have hmove : ∀ t : ℝ, turn*leftOf A B (P.1 + t*(turn*(B.2 - A.2)), P.2 + t*(-turn*(B.1 - A.1))) =
          -t*((B.1 - A.1)^2 + (B.2 - A.2)^2) := by
        intro t
        unfold leftOf at heq ⊢
        linear_combination heq - t*((B.1 - A.1)^2 + (B.2 - A.2)^2)*htt
      have := contains_along (pts := corners) (P := P) (Q := (P.1 + 1*(turn*(B.2 - A.2)), P.2 + 1*(-turn*(B.1 - A.1)))) (by
        rintro X ⟨t, t0, t1, hx, hy⟩ hX
        dsimp only at hx hy
        have e : X = (P.1 + t*(turn*(B.2 - A.2)), P.2 + t*(-turn*(B.1 - A.1))) :=
          Prod.ext (by rw [hx]; ring) (by rw [hy]; ring)
        have h5 := side X hX
        rw [e, hmove] at h5
        have ht0 : t = 0 := by
          by_contra hn
          have : 0 < t := lt_of_le_of_ne t0 (Ne.symm hn)
          nlinarith
        subst ht0
        apply hP
        rw [e] at hX
        simpa using hX)
      rw [this, outer _ (by rw [hmove]; linarith)] at hin
      cases hin
  · intro h
    rw [contains_iff]
    have hon : ¬ OnPolygon corners P := by
      rintro ⟨i, A, B, hA, hB, hX⟩
      by_cases hne : A = B
      · subst hne
        have hX := onSegment_point hX
        subst hX
        obtain ⟨C, hC, D, hD, hCD⟩ := h2
        have hmem := List.mem_of_getElem? hA
        have : ∃ w ∈ corners, w ≠ P := by
          by_cases hc : C = P
          · exact ⟨D, hD, fun hd => hCD (hc.trans hd.symm)⟩
          · exact ⟨C, hC, hc⟩
        obtain ⟨w, hw, hwP⟩ := this
        obtain ⟨l, hl, hln, hor⟩ := end_of_line P _ w (mem_close.2 hmem) (mem_close.2 hw) hwP
        have h3 := h _ _ (edge_of_mem hl) hln
        have h4 := ((onSegment_iff l.1 l.2 P).1 (by
          rcases hor with e | e
          · rw [← e]; exact onSegment_start _ _
          · rw [← e]; exact onSegment_end _ _)).1
        rw [h4] at h3
        simp at h3
      · have h3 := h A B ⟨i, hA, hB⟩ hne
        rw [((onSegment_iff A B P).1 hX).1] at h3
        simp at h3
    refine ⟨hon, ?_⟩
    have hcl := close_closed corners
    have step : ∀ l ∈ Geo.lines (Geo.close corners), 0 ≤ turn*(crossings P l.1 l.2 : ℝ) := by
      intro l hl
      by_cases hne : l.1 = l.2
      · have : crossings P l.1 l.2 = 0 := by
          unfold crossings
          rw [hne, if_neg (by rintro ⟨h1, h2, _⟩; linarith), if_neg (by rintro ⟨h1, h2, _⟩; linarith)]
        rw [this]; simp
      · have h3 := h _ _ (edge_of_mem hl) hne
        unfold crossings
        split
        · rename_i h4
          have : 0 < turn := by
            by_contra hn
            nlinarith [h4.2.2]
          push_cast; linarith
        · split
          · rename_i h4
            have : turn < 0 := by
              by_contra hn
              nlinarith [h4.2.2]
            push_cast; linarith
          · simp
    intro hw0
    have hsum : (((Geo.lines (Geo.close corners)).map fun l => turn*(crossings P l.1 l.2 : ℝ))).sum = 0 := by
      rw [List.sum_map_mul_left]
      have : ((Geo.lines (Geo.close corners)).map fun l => (crossings P l.1 l.2 : ℝ)).sum =
          ((winding P (Geo.lines (Geo.close corners)) : ℤ) : ℝ) := by
        unfold winding
        rw [Int.cast_list_sum, List.map_map]
        rfl
      rw [this, hw0]; simp
    have zero : ∀ l ∈ Geo.lines (Geo.close corners), crossings P l.1 l.2 = 0 := by
      intro l hl
      have h3 := List.single_le_sum (l := (Geo.lines (Geo.close corners)).map fun l => turn*(crossings P l.1 l.2 : ℝ)) (by
        intro x hx
        obtain ⟨l, hl, rfl⟩ := List.mem_map.1 hx
        exact step l hl) _ (List.mem_map_of_mem (f := fun l => turn*(crossings P l.1 l.2 : ℝ)) hl)
      rw [hsum] at h3
      have h4 := le_antisymm h3 (step l hl)
      rcases mul_eq_zero.1 h4 with h5 | h5
      · rw [h5] at htt; simp at htt
      · exact_mod_cast h5
    -- so no line goes up (counterclockwise) or down (clockwise) through the height of the point
    rcases ht with rfl | rfl
    · rcases no_step hcl (fun X => X.2 ≤ P.2) (by
        intro l hl h1
        by_contra h2
        push Not at h2
        have h3 := h _ _ (edge_of_mem hl) (by intro e; rw [e] at h1; linarith)
        rw [one_mul] at h3
        have h4 := zero l hl
        unfold crossings at h4
        rw [if_pos ⟨h1, h2, h3⟩] at h4
        cases h4) with hall | hall
      · exact not_one_sided (.inl rfl) h2 h 1 (.inl rfl) fun X hX => by linarith [hall X (mem_close.2 hX)]
      · exact not_one_sided (.inl rfl) h2 h (-1) (.inr rfl) fun X hX => by
          have := hall X (mem_close.2 hX)
          linarith
    · rcases no_step hcl (fun X => P.2 < X.2) (by
        intro l hl h1
        by_contra h2
        push Not at h2
        have h3 := h _ _ (edge_of_mem hl) (by intro e; rw [e] at h1; linarith)
        have h4 := zero l hl
        unfold crossings at h4
        rw [if_neg (by rintro ⟨h5, _⟩; linarith), if_pos ⟨h2, h1, by linarith⟩] at h4
        cases h4) with hall | hall
      · exact not_one_sided (.inr rfl) h2 h (-1) (.inr rfl) fun X hX => by
          have := hall X (mem_close.2 hX)
          linarith
      · exact not_one_sided (.inr rfl) h2 h 1 (.inl rfl) fun X hX => by
          have := hall X (mem_close.2 hX)
          linarith

/-! ## Nearest points -/

/-- **C99**, nearest points: for a point outside, the nearest point of the polygon; a point inside or on an edge is
returned itself. -/
theorem C99_nearest (corners : List (ℝ × ℝ)) (h2 : TwoCorners corners) (P : ℝ × ℝ) :
    (Geo.polygon_contains corners P = false → ¬ OnPolygon corners P →
      ∃ q, Geo.polygon_closest_point corners P = some (q, false) ∧ OnPolygon corners q ∧
        ∀ X, OnPolygon corners X → planeDist P q ≤ planeDist P X) ∧
    (Geo.polygon_contains corners P = true ∨ OnPolygon corners P →
      Geo.polygon_closest_point corners P = some (P, true)) := by
  have e : Geo.polygon_closest_point corners P =
      if (Geo.coord_pos_relative_to_ring P (Geo.close corners) == .Outside) = true then
        (Geo.lines (Geo.close corners)).foldl (Geo.closestStep P) none
      else some (P, true) := rfl
  constructor
  · intro hout hoff
    rw [e, if_pos ((outside_iff corners P).2 ⟨hoff, hout⟩)]
    obtain ⟨a, ha, b, hb, hab⟩ := h2
    obtain ⟨l0, hl0, hn0, _⟩ := end_of_line a _ b (mem_close.2 ha) (mem_close.2 hb) (Ne.symm hab)
    rcases closest_fold P (Geo.lines (Geo.close corners)) none
      (fun l hl h => hoff (edge_onPolygon hl h)) (fun q f h => (nomatch h)) with ⟨_, h3⟩ | ⟨q, h3, h4, h5, _⟩
    · exact absurd (h3 l0 hl0) hn0
    · refine ⟨q, h3, ?_, ?_⟩
      · rcases h4 with ⟨l, hl, h⟩ | h
        · exact edge_onPolygon hl h
        · cases h
      · rintro X ⟨i, A, B, hA, hB, hX⟩
        by_cases hne : A = B
        · subst hne
          have hX := onSegment_point hX
          subst hX
          have hmem := List.mem_of_getElem? hA
          have : ∃ w ∈ corners, w ≠ X := by
            by_cases hc : a = X
            · exact ⟨b, hb, fun hd => hab (hc.trans hd.symm)⟩
            · exact ⟨a, ha, hc⟩
          obtain ⟨w, hw, hwX⟩ := this
          obtain ⟨l, hl, hln, hor⟩ := end_of_line X _ w (mem_close.2 hmem) (mem_close.2 hw) hwX
          refine h5 l hl hln X ?_
          rcases hor with e | e
          · rw [← e]; exact onSegment_start _ _
          · rw [← e]; exact onSegment_end _ _
        · exact h5 (A, B) (Spec.Edge.mem ⟨i, hA, hB⟩ hne) hne X hX
  · intro h
    rw [e, if_neg]
    rw [outside_iff]
    rintro ⟨h3, h4⟩
    rcases h with h | h
    · rw [h4] at h; cases h
    · exact h3 h

/-! ## The geometries -/

/-- **C99**, the queries of the two kinds of 2D target: both ask whether the point `(x, y)` is inside the polygon of
the material, or of the simulation boundary. -/
theorem C99_queries (parse : String → Option ℝ) (x y z : ℝ) :
    (∀ g : HomogeneousMesh2D ℝ, (g.toGeom (Geo.ext parse)).inside x y z = .ok (Geo.polygon_contains g.boundary (x, y)) ∧
      (g.toGeom (Geo.ext parse)).inside_simulation_boundary x y z = .ok (Geo.polygon_contains g.simulation_boundary (x, y))) ∧
    (∀ g : Mesh2D ℝ, (g.toGeom (Geo.ext parse)).inside x y z = .ok (Geo.polygon_contains g.boundary (x, y)) ∧
      (g.toGeom (Geo.ext parse)).inside_simulation_boundary x y z = .ok (Geo.polygon_contains g.simulation_boundary (x, y))) :=
  ⟨fun g => ⟨rfl, rfl⟩, fun g => ⟨rfl, rfl⟩⟩

/-- What the geometries return as the nearest point, given what the polygon query returned. -/
theorem nearest_point_of {corners : List (ℝ × ℝ)} (h2 : TwoCorners corners) (x y z : ℝ) (r : Res (ℝ × ℝ × ℝ))
    (hr : ∀ p f, Geo.polygon_closest_point corners (x, y) = some (p, f) → r = .ok (p.1, p.2, z)) :
    (Geo.polygon_contains corners (x, y) = false → ∃ q, r = .ok q ∧
      NearestOn {p | OnPolygon corners (p.1, p.2.1)} x y z q) ∧
    (Geo.polygon_contains corners (x, y) = true → r = .ok (x, y, z)) := by
  obtain ⟨h3, h4⟩ := C99_nearest corners h2 (x, y)
  constructor
  · intro hout
    by_cases hoff : OnPolygon corners (x, y)
    · refine ⟨(x, y, z), hr _ _ (h4 (.inr hoff)), hoff, ?_⟩
      rintro ⟨a, b, c⟩ _
      unfold sqDist
      dsimp only
      nlinarith [sq_nonneg (x - a), sq_nonneg (y - b), sq_nonneg (z - c)]
    · obtain ⟨q, e, hq, hnear⟩ := h3 hout hoff
      refine ⟨_, hr _ _ e, hq, ?_⟩
      rintro ⟨a, b, c⟩ hp
      have h5 := hnear (a, b) hp
      unfold planeDist at h5
      rw [Real.sqrt_le_sqrt_iff (by positivity)] at h5
      unfold sqDist
      dsimp only at h5 ⊢
      nlinarith [sq_nonneg (z - c)]
  · intro hin
    exact hr _ _ (h4 (.inl hin))

/-- **C99**, the nearest surface point of a 2D target: for a point that is not inside the material it is the nearest
point of the side surface; for a point inside, it is the point itself. -/
theorem C99_closest_point (parse : String → Option ℝ) (x y z : ℝ) :
    (∀ g : HomogeneousMesh2D ℝ, TwoCorners g.boundary →
      ((g.toGeom (Geo.ext parse)).inside x y z = .ok false → ∃ q, (g.toGeom (Geo.ext parse)).closest_point x y z = .ok q ∧
        NearestOn {p | OnPolygon g.boundary (p.1, p.2.1)} x y z q) ∧
      ((g.toGeom (Geo.ext parse)).inside x y z = .ok true →
        (g.toGeom (Geo.ext parse)).closest_point x y z = .ok (x, y, z))) ∧
    (∀ g : Mesh2D ℝ, TwoCorners g.boundary →
      ((g.toGeom (Geo.ext parse)).inside x y z = .ok false → ∃ q, (g.toGeom (Geo.ext parse)).closest_point x y z = .ok q ∧
        NearestOn {p | OnPolygon g.boundary (p.1, p.2.1)} x y z q) ∧
      ((g.toGeom (Geo.ext parse)).inside x y z = .ok true →
        (g.toGeom (Geo.ext parse)).closest_point x y z = .ok (x, y, z))) := by
  constructor
  · intro g h2
    obtain ⟨h3, h4⟩ := nearest_point_of h2 x y z ((g.toGeom (Geo.ext parse)).closest_point x y z) (by
      intro p f h
      simp only [HomogeneousMesh2D.toGeom, Geo.ext, h])
    exact ⟨fun h => h3 (Except.ok.inj h), fun h => h4 (Except.ok.inj h)⟩
  · intro g h2
    obtain ⟨h3, h4⟩ := nearest_point_of h2 x y z ((g.toGeom (Geo.ext parse)).closest_point x y z) (by
      intro p f h
      simp only [Mesh2D.toGeom, Geo.ext, h])
    exact ⟨fun h => h3 (Except.ok.inj h), fun h => h4 (Except.ok.inj h)⟩

/-- **C99**, what is built from the input of a homogeneous 2D target: polygons with the corners given, in metres, and a
barrier of positive thickness. -/
theorem C99_built (ext : Ext ℝ) (input : HomogeneousMesh2DInput ℝ) (g : HomogeneousMesh2D ℝ) (u : ℝ)
    (hu : length_unit_of ext input.length_unit = .ok u) (hu0 : 0 < u) (hn : 0 < input.densities.sum)
    (h : HomogeneousMesh2D.new ext input = .ok g) :
    g.boundary = input.points.map (fun p => (p.1*u, p.2*u)) ∧
    g.simulation_boundary = input.simulation_boundary_points.map (fun p => (p.1*u, p.2*u)) ∧
    0 < g.energy_barrier_thickness := by
  unfold HomogeneousMesh2D.new at h
  simp only [hu, bind, Except.bind, pure, Except.pure] at h
  cases h
  refine ⟨rfl, rfl, ?_⟩
  exact barrier_pos _ (convert_pos u hu0 _ hn)

/-- **C99**, the energy barrier of a homogeneous 2D target: the material and the points nearer to it than the
thickness of the barrier. -/
theorem C99_homogeneous_barrier (parse : String → Option ℝ) (g : HomogeneousMesh2D ℝ) (h2 : TwoCorners g.boundary)
    (ht : 0 < g.energy_barrier_thickness) (x y z : ℝ) :
    ∃ b, (g.toGeom (Geo.ext parse)).inside_energy_barrier x y z = .ok b ∧
      (b = true ↔ Geo.polygon_contains g.boundary (x, y) = true ∨
        ∃ X, OnPolygon g.boundary X ∧ planeDist (x, y) X < g.energy_barrier_thickness) := by
  obtain ⟨h3, h4⟩ := C99_nearest g.boundary h2 (x, y)
  have gen : ∀ ext : Ext ℝ,
      (ext.polygon_contains g.boundary (x, y) = true → g.inside_energy_barrier ext x y = .ok true) ∧
      (∀ p, ext.polygon_contains g.boundary (x, y) = false → ext.polygon_closest_point g.boundary (x, y) = some (p, true) →
        g.inside_energy_barrier ext x y = .ok true) ∧
      (∀ p, ext.polygon_contains g.boundary (x, y) = false → ext.polygon_closest_point g.boundary (x, y) = some (p, false) →
        g.inside_energy_barrier ext x y =
          .ok (sqrt (powf (x - p.1) 2.0 + powf (y - p.2) 2.0) <. g.energy_barrier_thickness)) := by
    intro ext
    unfold HomogeneousMesh2D.inside_energy_barrier
    refine ⟨fun h => if_pos h, fun p h h5 => ?_, fun p h h5 => ?_⟩
    · rw [if_neg (by rw [h]; exact Bool.false_ne_true), h5]
    · rw [if_neg (by rw [h]; exact Bool.false_ne_true), h5]
  obtain ⟨g1, g2, g3⟩ := gen (Geo.ext parse)
  by_cases hin : Geo.polygon_contains g.boundary (x, y) = true
  · exact ⟨true, g1 hin, fun _ => .inl hin, fun _ => rfl⟩
  · rw [Bool.not_eq_true] at hin
    by_cases hon : OnPolygon g.boundary (x, y)
    · refine ⟨true, g2 _ hin (h4 (.inr hon)), fun _ => .inr ⟨(x, y), hon, ?_⟩, fun _ => rfl⟩
      unfold planeDist
      simpa using ht
    · obtain ⟨q, hq, hqon, hnear⟩ := h3 hin hon
      refine ⟨_, g3 q hin hq, ?_⟩
      have hd : sqrt (powf (x - q.1) 2.0 + powf (y - q.2) 2.0) = planeDist (x, y) q := by
        unfold planeDist
        rw [sqrt_real, powf_real, powf_real]
        have : (2.0:ℝ) = ((2:ℕ):ℝ) := by norm_num
        rw [this, Real.rpow_natCast, Real.rpow_natCast]
      rw [hd, lt_real]
      constructor
      · intro h
        exact .inr ⟨q, hqon, h⟩
      · rintro (h | ⟨X, hX, h⟩)
        · rw [hin] at h; cases h
        · exact lt_of_le_of_lt (hnear X hX) h

/-- **C99**, the energy barrier of a 2D mesh of triangles: the material, and the points nearer than the barrier's
thickness to an edge of some triangle. -/
theorem C99_mesh_barrier (parse : String → Option ℝ) (g : Mesh2D ℝ) (x y z : ℝ) (hne : g.mesh ≠ [])
    (hcells : ∀ c ∈ g.mesh, ∃ A B C : ℝ × ℝ, c.triangle = triangle A B C ∧ A ≠ B ∧ B ≠ C ∧ C ≠ A ∧
      planeDist (x, y) A < maxVal) :
    ∃ b, (g.toGeom (Geo.ext parse)).inside_energy_barrier x y z = .ok b ∧
      (b = true ↔ Geo.polygon_contains g.boundary (x, y) = true ∨
        ∃ c ∈ g.mesh, ∃ A B C X : ℝ × ℝ, c.triangle = triangle A B C ∧ OnEdges A B C X ∧
          planeDist (x, y) X < g.energy_barrier_thickness) := by
  have e : (g.toGeom (Geo.ext parse)).inside_energy_barrier x y z =
      if Geo.polygon_contains g.boundary (x, y) = true then .ok true
      else (do
        let nearest_cell ← g.nearest_to x y z
        let distance ← nearest_cell.distance_to x y z
        pure (distance <. g.energy_barrier_thickness)) := rfl
  rw [e]
  by_cases hin : Geo.polygon_contains g.boundary (x, y) = true
  · rw [if_pos hin]
    exact ⟨true, rfl, fun _ => .inl hin, fun _ => rfl⟩
  · rw [if_neg hin]
    have hdist : ∀ c ∈ g.mesh, ∃ d, c.distance_to x y z = .ok d ∧ d < maxVal ∧
        (∃ A B C X : ℝ × ℝ, c.triangle = triangle A B C ∧ OnEdges A B C X ∧ planeDist (x, y) X = d) ∧
        ∀ A B C X : ℝ × ℝ, c.triangle = triangle A B C → OnEdges A B C X → d ≤ planeDist (x, y) X := by
      intro c hc
      obtain ⟨A, B, C, hT, h1, h2, h3, h4⟩ := hcells c hc
      obtain ⟨d, h5, ⟨X, h6, h7⟩, h8⟩ := C39_edge_distance A B C (x, y) h1 h2 h3 h4
      refine ⟨d, ?_, ?_, ⟨A, B, C, X, hT, h6, h7⟩, ?_⟩
      · unfold Cell2D.distance_to
        rw [hT]
        exact h5
      · exact lt_of_le_of_lt (h8 A (.inl (onSegment_start _ _))) h4
      · intro A' B' C' X' hT' hX'
        have : A' = A ∧ B' = B ∧ C' = C := by
          rw [hT] at hT'
          exact ⟨Prod.ext (congrArg Triangle2D.x1 hT').symm (congrArg Triangle2D.y1 hT').symm,
            Prod.ext (congrArg Triangle2D.x2 hT').symm (congrArg Triangle2D.y2 hT').symm,
            Prod.ext (congrArg Triangle2D.x3 hT').symm (congrArg Triangle2D.y3 hT').symm⟩
        obtain ⟨rfl, rfl, rfl⟩ := this
        exact h8 X' hX'
    obtain ⟨c0, hc0⟩ : ∃ c, c ∈ g.mesh := List.exists_mem_of_ne_nil _ hne
    obtain ⟨d0, hd0, hm0, _⟩ := hdist c0 hc0
    obtain ⟨i, c, hnear, hci, d, hd, hleast, _⟩ := nearest_first g x y z
      (fun c hc => by obtain ⟨d, h, _⟩ := hdist c hc; exact ⟨d, h⟩) ⟨c0, hc0, d0, hd0, (lt_real _ _).2 hm0⟩
    have hcm := List.mem_of_getElem? hci
    obtain ⟨d', hd', _, ⟨A, B, C, X, hT, hX, hXd⟩, _⟩ := hdist c hcm
    rw [hd] at hd'
    cases hd'
    simp only [hnear, hd, bind, Except.bind, pure, Except.pure]
    refine ⟨_, rfl, ?_⟩
    rw [lt_real]
    constructor
    · intro h
      exact .inr ⟨c, hcm, A, B, C, X, hT, hX, by rw [hXd]; exact h⟩
    · rintro (h | ⟨c', hc', A', B', C', X', hT', hX', h⟩)
      · exact absurd h hin
      · obtain ⟨d', hd', _, _, hle⟩ := hdist c' hc'
        obtain ⟨j, hj⟩ := List.mem_iff_getElem?.1 hc'
        have h1 := (lt_real_false _ _).1 (hleast j c' d' hj hd')
        exact lt_of_le_of_lt (h1.trans (hle A' B' C' X' hT' hX')) h

end RustBCA
