import Verif.Props.Geometry

/-!
# C37-C41, C63: nearest points, triangles, 2D meshes, units
-/

set_option linter.unusedSectionVars false
set_option linter.unusedSimpArgs false
set_option linter.unusedVariables false

namespace RustBCA
open Scalar Spec

variable {F : Type} [Scalar F]

/-! ## C37 -/

/-- **C37** for the 0D mesh, whose surface is the plane `x = 0`. -/
theorem C37_mesh0D (g : Mesh0D ℝ) (x y z : ℝ) :
    ∃ q, g.toGeom.closest_point x y z = .ok q ∧ NearestOn {p | p.1 = 0} x y z q := by
  have h0 : (0.0:ℝ) = 0 := by norm_num
  refine ⟨(0.0, y, z), rfl, h0, ?_⟩
  rintro ⟨a, b, c⟩ h
  have h : a = 0 := h
  subst h
  simp only [sqDist, h0]
  nlinarith [sq_nonneg (y - b), sq_nonneg (z - c)]

/-- **C37** for the 1D mesh, whose surface consists of its front and back planes. -/
theorem C37_mesh1D (g : Mesh1D ℝ) (x y z : ℝ) :
    ∃ q, g.toGeom.closest_point x y z = .ok q ∧
      NearestOn {p | p.1 = g.top ∨ p.1 = g.bottom} x y z q := by
  refine ⟨g.closest_point x y z, rfl, ?_⟩
  unfold Mesh1D.closest_point
  by_cases h : |x - g.bottom| < |x - g.top|
  · have hq : (x - g.bottom)^2 ≤ (x - g.top)^2 := sq_le_sq.mpr h.le
    simp only [abs_real, lt_real, h, if_true]
    refine ⟨Or.inr rfl, ?_⟩
    rintro ⟨a, b, c⟩ (ha | ha) <;> simp only at ha <;> subst ha <;> simp only [sqDist] <;>
      nlinarith [sq_nonneg (y - b), sq_nonneg (z - c)]
  · have hq : (x - g.top)^2 ≤ (x - g.bottom)^2 := sq_le_sq.mpr (not_lt.mp h)
    simp only [abs_real, lt_real, h, if_false]
    refine ⟨Or.inl rfl, ?_⟩
    rintro ⟨a, b, c⟩ (ha | ha) <;> simp only at ha <;> subst ha <;> simp only [sqDist] <;>
      nlinarith [sq_nonneg (y - b), sq_nonneg (z - c)]

/-- **C37** for the sphere, at every point but its centre. -/
theorem C37_sphere (g : Sphere ℝ) (x y z : ℝ) (hR : 0 ≤ g.radius) (hp : x^2 + y^2 + z^2 ≠ 0) :
    ∃ q, g.toGeom.closest_point x y z = .ok q ∧
      NearestOn {p | p.1^2 + p.2.1^2 + p.2.2^2 = g.radius^2} x y z q := by
  obtain ⟨r, hr⟩ : ∃ r, r = Real.sqrt (x^2 + y^2 + z^2) := ⟨_, rfl⟩
  have hpos : 0 < x^2 + y^2 + z^2 := lt_of_le_of_ne (by positivity) (Ne.symm hp)
  have hr0 : 0 < r := by rw [hr]; exact Real.sqrt_pos.mpr hpos
  have hr2 : r^2 = x^2 + y^2 + z^2 := by rw [hr]; exact Real.sq_sqrt hpos.le
  have hrad : Sphere.rad x y z = r := by
    unfold Sphere.rad
    simp only [powi_real, sqrt_real]
    rw [show (2:ℤ) = ((2:ℕ):ℤ) from rfl, zpow_natCast, zpow_natCast, zpow_natCast, hr]
  refine ⟨(x/r*g.radius, y/r*g.radius, z/r*g.radius), ?_, ?_, ?_⟩
  · simp only [Sphere.toGeom, hrad]
  · show (x/r*g.radius)^2 + (y/r*g.radius)^2 + (z/r*g.radius)^2 = g.radius^2
    have : (x/r*g.radius)^2 + (y/r*g.radius)^2 + (z/r*g.radius)^2
        = (x^2 + y^2 + z^2)/r^2*g.radius^2 := by ring
    rw [this, ← hr2, div_self (by positivity), one_mul]
  · rintro ⟨a, b, c⟩ h
    have h : a^2 + b^2 + c^2 = g.radius^2 := h
    have hdot : x*a + y*b + z*c ≤ r*g.radius := by
      refine le_trans (le_abs_self _) (abs_le_of_sq_le_sq ?_ (by positivity))
      rw [mul_pow, hr2, ← h]
      nlinarith [sq_nonneg (x*b - y*a), sq_nonneg (y*c - z*b), sq_nonneg (z*a - x*c)]
    have e1 : sqDist x y z (x/r*g.radius, y/r*g.radius, z/r*g.radius) = (r - g.radius)^2 := by
      simp only [sqDist]
      have : (x - x/r*g.radius)^2 + (y - y/r*g.radius)^2 + (z - z/r*g.radius)^2
          = (x^2 + y^2 + z^2)*(1 - g.radius/r)^2 := by ring
      rw [this, ← hr2]; field_simp
    rw [e1]
    simp only [sqDist]
    nlinarith

/-! ## C38 -/

/-- **C38.** -/
theorem C38_contains (A B C X : ℝ × ℝ) (h : NotCollinear A B C) :
    (triangle A B C).contains X.1 X.2 = true ↔ InTriangle A B C X := by
  obtain ⟨x1, y1⟩ := A
  obtain ⟨x2, y2⟩ := B
  obtain ⟨x3, y3⟩ := C
  obtain ⟨x, y⟩ := X
  have hD : (y2 - y3)*(x1 - x3) + (x3 - x2)*(y1 - y3) ≠ 0 := by
    intro h0; apply h; simp only; linarith
  have h0 : (0.0:ℝ) = 0 := by norm_num
  have h1 : (1.0:ℝ) = 1 := by norm_num
  simp only [triangle, Triangle2D.contains, Triangle2D.new, Bool.and_eq_true, le_real, h0, h1]
  generalize hDd : (y2 - y3)*(x1 - x3) + (x3 - x2)*(y1 - y3) = D at hD
  constructor
  · rintro ⟨⟨⟨⟨⟨ha, ha1⟩, hb⟩, hb1⟩, hc⟩, hc1⟩
    refine ⟨_, _, _, ha, hb, hc, by ring, ?_, ?_⟩
    · simp only
      field_simp
      rw [← hDd]; ring
    · simp only
      field_simp
      rw [← hDd]; ring
  · rintro ⟨a, b, c, ha, hb, hc, hs, hx, hy⟩
    simp only at hx hy
    have hc' : c = 1 - a - b := by linarith
    have ea : ((y2 - y3)*(x - x3) + (x3 - x2)*(y - y3))/D = a := by
      rw [div_eq_iff hD, ← hDd, hx, hy, hc']; ring
    have eb : ((y3 - y1)*(x - x3) + (x1 - x3)*(y - y3))/D = b := by
      rw [div_eq_iff hD, ← hDd, hx, hy, hc']; ring
    rw [ea, eb, ← hc']
    exact ⟨⟨⟨⟨⟨ha, by linarith⟩, hb⟩, by linarith⟩, hc⟩, by linarith⟩

/-- **C38**, relabelling: two generators of the permutations of the corners. -/
theorem C38_relabelling (A B C X : ℝ × ℝ) (h : NotCollinear A B C) :
    ((triangle B A C).contains X.1 X.2 = (triangle A B C).contains X.1 X.2) ∧
    ((triangle B C A).contains X.1 X.2 = (triangle A B C).contains X.1 X.2) := by
  have h2 : NotCollinear B A C := by
    unfold NotCollinear at h ⊢; intro h0; apply h; linarith
  have h3 : NotCollinear B C A := by
    unfold NotCollinear at h ⊢; intro h0; apply h; linarith
  constructor
  · rw [Bool.eq_iff_iff, C38_contains B A C X h2, C38_contains A B C X h]
    constructor <;> rintro ⟨a, b, c, ha, hb, hc, hs, hx, hy⟩ <;>
      exact ⟨b, a, c, hb, ha, hc, by linarith, by linarith, by linarith⟩
  · rw [Bool.eq_iff_iff, C38_contains B C A X h3, C38_contains A B C X h]
    constructor
    · rintro ⟨a, b, c, ha, hb, hc, hs, hx, hy⟩
      exact ⟨c, a, b, hc, ha, hb, by linarith, by linarith, by linarith⟩
    · rintro ⟨a, b, c, ha, hb, hc, hs, hx, hy⟩
      exact ⟨b, c, a, hb, hc, ha, by linarith, by linarith, by linarith⟩

/-! ## C39 -/

theorem segment_distance_eq (A B X : ℝ × ℝ) (h : A ≠ B) :
    ∃ d, Triangle2D.segment_distance (A.1, A.2, B.1, B.2) X.1 X.2 = .ok d ∧
      (∃ P, OnSegment A B P ∧ planeDist X P = d) ∧ ∀ P, OnSegment A B P → d ≤ planeDist X P := by
  obtain ⟨a1, a2⟩ := A
  obtain ⟨b1, b2⟩ := B
  obtain ⟨x, y⟩ := X
  have hL : 0 < (b1 - a1)*(b1 - a1) + (b2 - a2)*(b2 - a2) := by
    rcases eq_or_ne a1 b1 with e | e
    · have e' : a2 ≠ b2 := fun h' => h (by rw [e, h'])
      have : 0 < (b2 - a2)*(b2 - a2) := mul_self_pos.mpr (sub_ne_zero.mpr e'.symm)
      nlinarith [mul_self_nonneg (b1 - a1)]
    · have : 0 < (b1 - a1)*(b1 - a1) := mul_self_pos.mpr (sub_ne_zero.mpr e.symm)
      nlinarith [mul_self_nonneg (b2 - a2)]
  have h0 : (0.0:ℝ) = 0 := by norm_num
  have h1 : (1.0:ℝ) = 1 := by norm_num
  have hne : ((b1 - a1)*(b1 - a1) + (b2 - a2)*(b2 - a2) ==. (0:ℝ)) = false := by
    rw [eq_real_false]; exact hL.ne'
  generalize hLd : (b1 - a1)*(b1 - a1) + (b2 - a2)*(b2 - a2) = L at hL hne
  obtain ⟨u, hu⟩ : ∃ u, u = ((x - a1)*(b1 - a1) + (y - a2)*(b2 - a2))/L := ⟨_, rfl⟩
  have huL : u*L = (x - a1)*(b1 - a1) + (y - a2)*(b2 - a2) := by rw [hu]; field_simp
  have hq : ∀ t s, (x - (a1 + t*(b1 - a1)))^2 + (y - (a2 + t*(b2 - a2)))^2
      = (x - (a1 + s*(b1 - a1)))^2 + (y - (a2 + s*(b2 - a2)))^2 + L*((t - u)^2 - (s - u)^2) := by
    intro t s
    have : L*((t - u)^2 - (s - u)^2) = L*(t^2 - s^2) - 2*(u*L)*(t - s) := by ring
    rw [this, huL, ← hLd]; ring
  have hmin : ∀ s, 0 ≤ s → s ≤ 1 → (∀ t, 0 ≤ t → t ≤ 1 → (s - u)^2 ≤ (t - u)^2) →
      ∀ P, OnSegment (a1, a2) (b1, b2) P →
        planeDist (x, y) (a1 + s*(b1 - a1), a2 + s*(b2 - a2)) ≤ planeDist (x, y) P := by
    rintro s _ _ hs ⟨p1, p2⟩ ⟨t, ht0, ht1, e1, e2⟩
    simp only at e1 e2
    unfold planeDist
    apply Real.sqrt_le_sqrt
    simp only [e1, e2]
    rw [hq t s]
    have := hs t ht0 ht1
    nlinarith
  unfold Triangle2D.segment_distance
  simp only [hLd, rassert, h0, hne, Bool.not_false, if_true, bind, Except.bind, pure, Except.pure, ← hu,
    lt_real, h0, h1]
  refine ⟨_, rfl, ?_⟩
  have hpd : ∀ s, planeDist (x, y) (a1 + s*(b1 - a1), a2 + s*(b2 - a2)) = sqrt
      ((x - (a1 + s*(b1 - a1)))*(x - (a1 + s*(b1 - a1)))
        + (y - (a2 + s*(b2 - a2)))*(y - (a2 + s*(b2 - a2)))) := by
    intro s; simp only [planeDist, sqrt_real, sq]
  by_cases c1 : u < 0
  · have hm := hmin 0 le_rfl zero_le_one (fun t ht _ => by nlinarith)
    have hp := hpd 0
    simp only [zero_mul, add_zero] at hm hp
    rw [if_pos c1, ← hp]
    exact ⟨⟨(a1, a2), ⟨0, le_rfl, zero_le_one, by simp, by simp⟩, rfl⟩, hm⟩
  · rw [if_neg c1]
    by_cases c2 : 1 < u
    · have hm := hmin 1 zero_le_one le_rfl (fun t _ ht => by nlinarith)
      have hp := hpd 1
      simp only [one_mul, add_sub_cancel] at hm hp
      rw [if_pos c2, ← hp]
      exact ⟨⟨(b1, b2), ⟨1, zero_le_one, le_rfl, by simp, by simp⟩, rfl⟩, hm⟩
    · have hm := hmin u (not_lt.mp c1) (not_lt.mp c2) (fun t _ _ => by
        rw [sub_self]; nlinarith [sq_nonneg (t - u)])
      rw [if_neg c2, ← hpd u]
      exact ⟨⟨_, ⟨u, not_lt.mp c1, not_lt.mp c2, rfl, rfl⟩, rfl⟩, hm⟩

/-- **C39, the centroid.** The centroid reported is the barycentre of the corners, and the distance to
the centre is the distance to it. -/
theorem C39_centroid (A B C X : ℝ × ℝ) :
    (triangle A B C).centroid = ((A.1 + B.1 + C.1)/3, (A.2 + B.2 + C.2)/3) ∧
    (triangle A B C).distance_to_center X.1 X.2
      = planeDist X ((A.1 + B.1 + C.1)/3, (A.2 + B.2 + C.2)/3) := by
  have h3 : (3.0:ℝ) = 3 := by norm_num
  have h : (triangle A B C).centroid = ((A.1 + B.1 + C.1)/3, (A.2 + B.2 + C.2)/3) := by
    simp only [triangle, Triangle2D.new, Triangle2D.centroid, h3]
  refine ⟨h, ?_⟩
  simp only [Triangle2D.distance_to_center, h, sqrt_real, planeDist]
  congr 1
  ring

/-- **C39.** For every triangle with distinct corners and every point nearer than the largest number
to a corner, the distance returned is attained on the edges and is the least distance to them. -/
theorem C39_edge_distance (A B C X : ℝ × ℝ) (hAB : A ≠ B) (hBC : B ≠ C) (hCA : C ≠ A)
    (hX : planeDist X A < maxVal) :
    ∃ d, (triangle A B C).distance_to X.1 X.2 = .ok d ∧
      (∃ P, OnEdges A B C P ∧ planeDist X P = d) ∧ ∀ P, OnEdges A B C P → d ≤ planeDist X P := by
  obtain ⟨d1, h1, ⟨P1, hP1, e1⟩, m1⟩ := segment_distance_eq A B X hAB
  obtain ⟨d2, h2, ⟨P2, hP2, e2⟩, m2⟩ := segment_distance_eq B C X hBC
  obtain ⟨d3, h3, ⟨P3, hP3, e3⟩, m3⟩ := segment_distance_eq C A X hCA
  have hd1 : d1 < maxVal := lt_of_le_of_lt (m1 A ⟨0, le_rfl, zero_le_one, by simp, by simp⟩) hX
  refine ⟨min d3 (min d2 d1), ?_, ?_, ?_⟩
  · unfold Triangle2D.distance_to
    simp only [triangle, Triangle2D.new, forFold, h1, h2, h3, bind, Except.bind, pure, Except.pure,
      lt_real]
    rw [if_pos hd1]
    congr 1
    by_cases c : d2 < d1
    · rw [if_pos c, min_eq_left c.le]
      by_cases c' : d3 < d2
      · rw [if_pos c', min_eq_left c'.le]
      · rw [if_neg c', min_eq_right (not_lt.mp c')]
    · rw [if_neg c, min_eq_right (not_lt.mp c)]
      by_cases c' : d3 < d1
      · rw [if_pos c', min_eq_left c'.le]
      · rw [if_neg c', min_eq_right (not_lt.mp c')]
  · rcases min_choice d3 (min d2 d1) with e | e
    · exact ⟨P3, Or.inr (Or.inr hP3), by rw [e, e3]⟩
    · rcases min_choice d2 d1 with e' | e'
      · exact ⟨P2, Or.inr (Or.inl hP2), by rw [e, e', e2]⟩
      · exact ⟨P1, Or.inl hP1, by rw [e, e', e1]⟩
  · rintro P (hP | hP | hP)
    · exact le_trans (le_trans (min_le_right _ _) (min_le_right _ _)) (m1 P hP)
    · exact le_trans (le_trans (min_le_right _ _) (min_le_left _ _)) (m2 P hP)
    · exact le_trans (min_le_left _ _) (m3 P hP)

theorem planeDist_line (X P : ℝ × ℝ) (t : ℝ) (h0 : 0 ≤ t) (h1 : t ≤ 1) :
    planeDist X (P.1 + t*(X.1 - P.1), P.2 + t*(X.2 - P.2)) ≤ planeDist X P := by
  unfold planeDist
  apply Real.sqrt_le_sqrt
  simp only
  have : (X.1 - (P.1 + t*(X.1 - P.1)))^2 + (X.2 - (P.2 + t*(X.2 - P.2)))^2
      = (1 - t)^2*((X.1 - P.1)^2 + (X.2 - P.2)^2) := by ring
  rw [this]
  have h2 : (1 - t)^2 ≤ 1 := by nlinarith
  have h3 : 0 ≤ (X.1 - P.1)^2 + (X.2 - P.2)^2 := by positivity
  nlinarith

/-- A point of the triangle with one zero coordinate lies on an edge. -/
theorem edge_of_zero (A B C P : ℝ × ℝ) (a b c : ℝ) (ha : 0 ≤ a) (hb : 0 ≤ b) (hc : 0 ≤ c)
    (hs : a + b + c = 1) (hx : P.1 = a*A.1 + b*B.1 + c*C.1) (hy : P.2 = a*A.2 + b*B.2 + c*C.2)
    (hz : a = 0 ∨ b = 0 ∨ c = 0) : OnEdges A B C P := by
  rcases hz with h | h | h
  · right; left
    refine ⟨c, hc, by linarith, ?_, ?_⟩
    · rw [hx, h, show b = 1 - c by linarith]; ring
    · rw [hy, h, show b = 1 - c by linarith]; ring
  · right; right
    refine ⟨a, ha, by linarith, ?_, ?_⟩
    · rw [hx, h, show c = 1 - a by linarith]; ring
    · rw [hy, h, show c = 1 - a by linarith]; ring
  · left
    refine ⟨b, hb, by linarith, ?_, ?_⟩
    · rw [hx, h, show a = 1 - b by linarith]; ring
    · rw [hy, h, show a = 1 - b by linarith]; ring

/-- First time a coordinate reaches zero on the way from `q` to `p`. -/
theorem first_zero (q1 q2 q3 p1 p2 p3 : ℝ) (h1 : 0 ≤ q1) (h2 : 0 ≤ q2) (h3 : 0 ≤ q3)
    (hp : p1 < 0 ∨ p2 < 0 ∨ p3 < 0) : ∃ t, 0 ≤ t ∧ t ≤ 1 ∧ 0 ≤ q1 + t*(p1 - q1) ∧
      0 ≤ q2 + t*(p2 - q2) ∧ 0 ≤ q3 + t*(p3 - q3) ∧
      (q1 + t*(p1 - q1) = 0 ∨ q2 + t*(p2 - q2) = 0 ∨ q3 + t*(p3 - q3) = 0) := by
  -- the times at which the single coordinates vanish (1 if they do not)
  have single : ∀ q p : ℝ, 0 ≤ q → ∃ t, 0 ≤ t ∧ t ≤ 1 ∧
      (∀ s, 0 ≤ s → s ≤ t → 0 ≤ q + s*(p - q)) ∧ (p < 0 → q + t*(p - q) = 0) := by
    intro q p hq
    by_cases h : p < 0
    · have hd : 0 < q - p := by linarith
      refine ⟨q/(q - p), by positivity, by rw [div_le_one hd]; linarith, ?_, fun _ => ?_⟩
      · intro s hs hst
        rw [le_div_iff₀ hd] at hst
        nlinarith
      · have : q/(q - p)*(q - p) = q := by field_simp
        linarith
    · refine ⟨1, zero_le_one, le_rfl, ?_, fun h' => absurd h' h⟩
      intro s hs hs1
      have : 0 ≤ p := not_lt.mp h
      nlinarith
  obtain ⟨t1, a1, b1, c1, d1⟩ := single q1 p1 h1
  obtain ⟨t2, a2, b2, c2, d2⟩ := single q2 p2 h2
  obtain ⟨t3, a3, b3, c3, d3⟩ := single q3 p3 h3
  -- among the coordinates that end negative take the earliest zero
  have pick : ∃ t, 0 ≤ t ∧ t ≤ 1 ∧ (p1 < 0 → t ≤ t1) ∧ (p2 < 0 → t ≤ t2) ∧ (p3 < 0 → t ≤ t3) ∧
      ((p1 < 0 ∧ t = t1) ∨ (p2 < 0 ∧ t = t2) ∨ (p3 < 0 ∧ t = t3)) := by
    by_cases n1 : p1 < 0 <;> by_cases n2 : p2 < 0 <;> by_cases n3 : p3 < 0
    · rcases le_total t1 t2 with o | o <;> rcases le_total t1 t3 with o' | o' <;>
        rcases le_total t2 t3 with o'' | o''
      all_goals first
        | exact ⟨t1, a1, b1, fun _ => le_rfl, fun _ => by linarith, fun _ => by linarith,
            Or.inl ⟨n1, rfl⟩⟩
        | exact ⟨t2, a2, b2, fun _ => by linarith, fun _ => le_rfl, fun _ => by linarith,
            Or.inr (Or.inl ⟨n2, rfl⟩)⟩
        | exact ⟨t3, a3, b3, fun _ => by linarith, fun _ => by linarith, fun _ => le_rfl,
            Or.inr (Or.inr ⟨n3, rfl⟩)⟩
    · rcases le_total t1 t2 with o | o
      · exact ⟨t1, a1, b1, fun _ => le_rfl, fun _ => o, fun h => absurd h n3, Or.inl ⟨n1, rfl⟩⟩
      · exact ⟨t2, a2, b2, fun _ => o, fun _ => le_rfl, fun h => absurd h n3,
          Or.inr (Or.inl ⟨n2, rfl⟩)⟩
    · rcases le_total t1 t3 with o | o
      · exact ⟨t1, a1, b1, fun _ => le_rfl, fun h => absurd h n2, fun _ => o, Or.inl ⟨n1, rfl⟩⟩
      · exact ⟨t3, a3, b3, fun _ => o, fun h => absurd h n2, fun _ => le_rfl,
          Or.inr (Or.inr ⟨n3, rfl⟩)⟩
    · exact ⟨t1, a1, b1, fun _ => le_rfl, fun h => absurd h n2, fun h => absurd h n3,
        Or.inl ⟨n1, rfl⟩⟩
    · rcases le_total t2 t3 with o | o
      · exact ⟨t2, a2, b2, fun h => absurd h n1, fun _ => le_rfl, fun _ => o,
          Or.inr (Or.inl ⟨n2, rfl⟩)⟩
      · exact ⟨t3, a3, b3, fun h => absurd h n1, fun _ => o, fun _ => le_rfl,
          Or.inr (Or.inr ⟨n3, rfl⟩)⟩
    · exact ⟨t2, a2, b2, fun h => absurd h n1, fun _ => le_rfl, fun h => absurd h n3,
        Or.inr (Or.inl ⟨n2, rfl⟩)⟩
    · exact ⟨t3, a3, b3, fun h => absurd h n1, fun h => absurd h n2, fun _ => le_rfl,
        Or.inr (Or.inr ⟨n3, rfl⟩)⟩
    · exact absurd hp (by tauto)
  obtain ⟨t, ht0, ht1, e1, e2, e3, e4⟩ := pick
  have nonneg : ∀ q p s : ℝ, 0 ≤ q → (∀ r, 0 ≤ r → r ≤ s → 0 ≤ q + r*(p - q)) → (p < 0 → t ≤ s) →
      0 ≤ q + t*(p - q) := by
    intro q p s hq hc hp
    by_cases h : p < 0
    · exact hc t ht0 (hp h)
    · have : 0 ≤ p := not_lt.mp h
      nlinarith
  refine ⟨t, ht0, ht1, nonneg q1 p1 t1 h1 c1 e1, nonneg q2 p2 t2 h2 c2 e2, nonneg q3 p3 t3 h3 c3 e3,
    ?_⟩
  rcases e4 with ⟨n, e⟩ | ⟨n, e⟩ | ⟨n, e⟩
  · left; rw [e]; exact d1 n
  · right; left; rw [e]; exact d2 n
  · right; right; rw [e]; exact d3 n

/-- **C39**, second part: for a point outside the triangle the distance returned is the distance to
the whole triangle. -/
theorem C39_outside (A B C X : ℝ × ℝ) (h : NotCollinear A B C) (hX : planeDist X A < maxVal)
    (hout : ¬ InTriangle A B C X) :
    ∃ d, (triangle A B C).distance_to X.1 X.2 = .ok d ∧
      (∃ P, InTriangle A B C P ∧ planeDist X P = d) ∧
      ∀ P, InTriangle A B C P → d ≤ planeDist X P := by
  have hAB : A ≠ B := by rintro rfl; apply h; ring
  have hBC : B ≠ C := by rintro rfl; apply h; ring
  have hCA : C ≠ A := by rintro rfl; apply h; ring
  obtain ⟨d, h1, ⟨P, hP, e⟩, hmin⟩ := C39_edge_distance A B C X hAB hBC hCA hX
  refine ⟨d, h1, ⟨P, ?_, e⟩, ?_⟩
  · rcases hP with ⟨t, t0, t1, e1, e2⟩ | ⟨t, t0, t1, e1, e2⟩ | ⟨t, t0, t1, e1, e2⟩
    · exact ⟨1 - t, t, 0, by linarith, t0, le_rfl, by ring, by rw [e1]; ring, by rw [e2]; ring⟩
    · exact ⟨0, 1 - t, t, le_rfl, by linarith, t0, by ring, by rw [e1]; ring, by rw [e2]; ring⟩
    · exact ⟨t, 0, 1 - t, t0, le_rfl, by linarith, by ring, by rw [e1]; ring, by rw [e2]; ring⟩
  · rintro Q ⟨q1, q2, q3, g1, g2, g3, gs, gx, gy⟩
    obtain ⟨D, hD⟩ : ∃ D, D = (B.2 - C.2)*(A.1 - C.1) + (C.1 - B.1)*(A.2 - C.2) := ⟨_, rfl⟩
    have hD0 : D ≠ 0 := by
      rw [hD]; intro h0; apply h; linarith
    obtain ⟨p1, hp1⟩ : ∃ p, p = ((B.2 - C.2)*(X.1 - C.1) + (C.1 - B.1)*(X.2 - C.2))/D := ⟨_, rfl⟩
    obtain ⟨p2, hp2⟩ : ∃ p, p = ((C.2 - A.2)*(X.1 - C.1) + (A.1 - C.1)*(X.2 - C.2))/D := ⟨_, rfl⟩
    have hpx : X.1 = p1*A.1 + p2*B.1 + (1 - p1 - p2)*C.1 := by
      rw [hp1, hp2]; field_simp; rw [hD]; ring
    have hpy : X.2 = p1*A.2 + p2*B.2 + (1 - p1 - p2)*C.2 := by
      rw [hp1, hp2]; field_simp; rw [hD]; ring
    have hneg : p1 < 0 ∨ p2 < 0 ∨ 1 - p1 - p2 < 0 := by
      by_contra hc
      push Not at hc
      exact hout ⟨p1, p2, 1 - p1 - p2, hc.1, hc.2.1, hc.2.2, by ring, hpx, hpy⟩
    obtain ⟨t, t0, t1, z1, z2, z3, z⟩ := first_zero q1 q2 q3 p1 p2 (1 - p1 - p2) g1 g2 g3 hneg
    refine le_trans (hmin _ ?_) (planeDist_line X Q t t0 t1)
    refine edge_of_zero A B C _ _ _ _ z1 z2 z3 ?_ ?_ ?_ z
    · rw [show q3 = 1 - q1 - q2 by linarith]; ring
    · simp only; rw [gx]; nth_rewrite 1 [hpx]; ring
    · simp only; rw [gy]; nth_rewrite 1 [hpy]; ring

/-! ## C40 -/

/-- The state of the search for the nearest cell after the first `n` cells. -/
structure Searched (cells : List (Cell2D F)) (x y z : F) (n : Nat) (s : F × Nat) : Prop where
  none : s.1 = maxVal ∧ s.2 = 0 ∧ (∀ j c d, j < n → cells[j]? = some c →
      c.distance_to x y z = .ok d → (d <. maxVal) = false) ∨
    (s.2 < n ∧ (s.1 <. maxVal) = true ∧
      (∃ c, cells[s.2]? = some c ∧ c.distance_to x y z = .ok s.1) ∧
      (∀ j c d, j < n → cells[j]? = some c → c.distance_to x y z = .ok d → (d <. s.1) = false) ∧
      (∀ j c d, j < s.2 → cells[j]? = some c → c.distance_to x y z = .ok d →
        (d <=. s.1) = false))

theorem nearest_first [ScalarOrd F] (g : Mesh2D F) (x y z : F)
    (hd : ∀ c ∈ g.mesh, ∃ d, c.distance_to x y z = .ok d)
    (hfin : ∃ c ∈ g.mesh, ∃ d, c.distance_to x y z = .ok d ∧ (d <. maxVal) = true) :
    ∃ i c, g.nearest_to x y z = .ok c ∧ FirstNearest g.mesh x y z i c := by
  have loop : RSat (forFold (Mesh2D.nearestStep x y z) g.mesh.zipIdx (maxVal, 0)) (Searched g.mesh x y z g.mesh.length)
      (fun _ => False) := by
    have := rsat_forFold (E := fun _ => False) (Mesh2D.nearestStep x y z)
      (fun rest s => ∃ n, n + rest.length = g.mesh.length ∧ rest = (g.mesh.drop n).zipIdx n ∧
        Searched g.mesh x y z n s) ?_ g.mesh.zipIdx (maxVal, 0) ?_
    · refine rsat_mono this ?_ (fun _ h => h)
      rintro s ⟨n, h1, _, h2⟩
      simp only [List.length_nil, add_zero] at h1
      rw [h1] at h2; exact h2
    · rintro xs ⟨c, i⟩ ⟨m, idx⟩ ⟨n, h1, h2, h3⟩
      simp only [List.length_cons] at h1
      have hn : n < g.mesh.length := by omega
      rw [List.drop_eq_getElem_cons hn, List.zipIdx_cons] at h2
      simp only [List.cons.injEq, Prod.mk.injEq] at h2
      obtain ⟨⟨hc, hi⟩, hxs⟩ := h2
      subst hi
      have hget : g.mesh[i]? = some c := by rw [List.getElem?_eq_getElem hn, hc]
      obtain ⟨d, hcd⟩ := hd c (List.mem_of_getElem? hget)
      unfold Mesh2D.nearestStep
      simp only [hcd, bind, Except.bind, pure, Except.pure, rsat_ok]
      refine ⟨i + 1, by omega, hxs, ⟨?_⟩⟩
      have step : ∀ (P : Nat → Cell2D F → F → Prop),
          (∀ j c d, j < i → g.mesh[j]? = some c → c.distance_to x y z = .ok d → P j c d) →
          P i c d → ∀ j c d, j < i + 1 → g.mesh[j]? = some c → c.distance_to x y z = .ok d →
            P j c d := by
        intro P h4 h5 j c' d' hj hc' hd'
        rcases Nat.lt_succ_iff_lt_or_eq.mp hj with h | h
        · exact h4 j c' d' h hc' hd'
        · subst h
          rw [hget] at hc'; cases hc'
          rw [hcd] at hd'; cases hd'
          exact h5
      rcases h3.none with ⟨e1, e2, e3⟩ | ⟨e1, e2, e3, e4, e5⟩
      · simp only at e1 e2
        subst e1; subst e2
        by_cases hlt : (d <. maxVal) = true
        · right
          rw [if_pos hlt]
          refine ⟨Nat.lt_succ_self _, hlt, ⟨c, hget, hcd⟩,
            step (fun _ _ d' => (d' <. d) = false) ?_ (ScalarOrd.lt_irrefl _), ?_⟩
          · intro j c' d' hj hc' hd'
            by_contra hh
            rw [Bool.not_eq_false] at hh
            have := ScalarOrd.lt_trans _ _ _ hh hlt
            rw [e3 j c' d' hj hc' hd'] at this; cases this
          · intro j c' d' hj hc' hd'
            by_contra hh
            rw [Bool.not_eq_false, ScalarOrd.le_iff] at hh
            have : (d' <. maxVal) = true := by
              rcases hh with hh | hh
              · exact ScalarOrd.lt_trans _ _ _ hh hlt
              · exact ScalarOrd.eq_lt_trans _ _ _ hh hlt
            rw [e3 j c' d' hj hc' hd'] at this; cases this
        · left
          rw [if_neg hlt]
          exact ⟨rfl, rfl, step (fun _ _ d' => (d' <. maxVal) = false) e3
            (Bool.not_eq_true _ ▸ hlt)⟩
      · simp only at e1 e2 e3 e4 e5
        by_cases hlt : (d <. m) = true
        · right
          rw [if_pos hlt]
          refine ⟨Nat.lt_succ_self _, ScalarOrd.lt_trans _ _ _ hlt e2, ⟨c, hget, hcd⟩,
            step (fun _ _ d' => (d' <. d) = false) ?_ (ScalarOrd.lt_irrefl _), ?_⟩
          · intro j c' d' hj hc' hd'
            by_contra hh
            rw [Bool.not_eq_false] at hh
            have := ScalarOrd.lt_trans _ _ _ hh hlt
            rw [e4 j c' d' hj hc' hd'] at this; cases this
          · intro j c' d' hj hc' hd'
            by_contra hh
            rw [Bool.not_eq_false, ScalarOrd.le_iff] at hh
            have : (d' <. m) = true := by
              rcases hh with hh | hh
              · exact ScalarOrd.lt_trans _ _ _ hh hlt
              · exact ScalarOrd.eq_lt_trans _ _ _ hh hlt
            rw [e4 j c' d' hj hc' hd'] at this; cases this
        · right
          rw [if_neg hlt]
          exact ⟨Nat.lt_succ_of_lt e1, e2, e3, step (fun _ _ d' => (d' <. m) = false) e4
            (Bool.not_eq_true _ ▸ hlt), e5⟩
    · exact ⟨0, by simp, by simp, ⟨Or.inl ⟨rfl, rfl, by intro j c d hj; omega⟩⟩⟩
  cases hrun : forFold (Mesh2D.nearestStep x y z) g.mesh.zipIdx (maxVal, 0) with
  | error e => rw [hrun] at loop; exact loop.elim
  | ok s =>
    rw [hrun, rsat_ok] at loop
    rcases loop.none with ⟨_, _, e3⟩ | ⟨e1, e2, ⟨c, hc, hcd⟩, e4, e5⟩
    · exfalso
      obtain ⟨c, hc, d, hcd, hlt⟩ := hfin
      obtain ⟨j, hj⟩ := List.mem_iff_getElem?.mp hc
      have := e3 j c d (List.getElem?_eq_some_iff.mp hj).1 hj hcd
      rw [hlt] at this; cases this
    · refine ⟨s.2, c, ?_, hc, s.1, hcd, ?_, e5⟩
      · unfold Mesh2D.nearest_to
        rw [hrun]
        simp only [bind, Except.bind, vget, hc]
      · intro j c' d' hj hd'
        exact e4 j c' d' (List.getElem?_eq_some_iff.mp hj).1 hj hd'

/-- **C40.** For a 2D mesh of any size: at a point inside the boundary all four lookups answer from the
first cell containing it, and panic if there is none; elsewhere they answer from the first of the
nearest cells. -/
theorem C40_one_cell [ScalarOrd F] (g : Mesh2D F) (ext : Ext F) (x y z : F)
    (hd : ∀ c ∈ g.mesh, ∃ d, c.distance_to x y z = .ok d)
    (hfin : ∃ c ∈ g.mesh, ∃ d, c.distance_to x y z = .ok d ∧ (d <. maxVal) = true) :
    ((g.toGeom ext).inside x y z = .ok true → (∀ c ∈ g.mesh, c.contains x y z = false) →
      ∃ e, (g.toGeom ext).get_densities x y z = .error e) ∧
    ((g.toGeom ext).inside x y z = .ok true → (∃ c ∈ g.mesh, c.contains x y z = true) →
      ∃ (i : Nat) (c : Cell2D F), g.mesh[i]? = some c ∧ c.contains x y z = true ∧
        (∀ (j : Nat) (c' : Cell2D F), j < i → g.mesh[j]? = some c' → c'.contains x y z = false) ∧
        AnswersFrom (g.toGeom ext) x y z c.densities c.concentrations
          c.electronic_stopping_correction_factor) ∧
    ((g.toGeom ext).inside x y z = .ok false →
      ∃ i c, FirstNearest g.mesh x y z i c ∧
        AnswersFrom (g.toGeom ext) x y z c.densities c.concentrations
          c.electronic_stopping_correction_factor) := by
  have answers : ∀ c, g.find_cell ext x y z = .ok c → AnswersFrom (g.toGeom ext) x y z c.densities
      c.concentrations c.electronic_stopping_correction_factor := by
    intro l hl
    simp only [AnswersFrom, Mesh2D.toGeom, hl]
    exact ⟨rfl, rfl, rfl, rfl⟩
  simp only [show (g.toGeom ext).inside x y z = .ok (g.inside ext x y) from rfl, Except.ok.injEq]
  refine ⟨fun hin hno => ?_, fun hin hex => ?_, fun hin => ?_⟩
  · have : g.mesh.find? (fun c => c.contains x y z) = none := by
      rw [List.find?_eq_none]
      intro c hc; rw [hno c hc]; exact Bool.false_ne_true
    simp only [Mesh2D.toGeom, Mesh2D.find_cell, hin, if_true, this]
    exact ⟨_, rfl⟩
  · have hsome : (g.mesh.find? (fun c => c.contains x y z)).isSome = true := by
      rw [List.find?_isSome]; exact hex
    obtain ⟨c, hc⟩ := Option.isSome_iff_exists.mp hsome
    obtain ⟨h1, i, hi, h2, h3⟩ := List.find?_eq_some_iff_getElem.mp hc
    refine ⟨i, c, by rw [List.getElem?_eq_getElem hi, h2], h1, ?_, answers c ?_⟩
    · intro j c' hj hc'
      have := h3 j hj
      rw [List.getElem?_eq_getElem (by omega)] at hc'
      cases hc'
      simpa using this
    · simp only [Mesh2D.find_cell, hin, if_true, hc]
  · obtain ⟨i, c, h1, h2⟩ := nearest_first g x y z hd hfin
    refine ⟨i, c, h2, answers c ?_⟩
    simp only [Mesh2D.find_cell, hin, if_false, Bool.false_eq_true, h1]

/-! ## C41 -/

theorem convert_unit (u c : ℝ) (hu : 0 < u) (hc : 0 < c) (ds : List ℝ) :
    convert_densities (u/c) (ds.map (· / c^3)) = convert_densities u ds := by
  unfold convert_densities
  rw [List.map_map]
  apply List.map_congr_left
  intro d _
  simp only [Function.comp, powi_real]
  rw [show (3:ℤ) = ((3:ℕ):ℤ) from rfl, zpow_natCast, zpow_natCast]
  field_simp

theorem length_unit (u c a : ℝ) (hc : 0 < c) : a*c*(u/c) = a*u := by field_simp

/-- **C41** for the 0D mesh: the same target described in units of `u` and of `u/c`. -/
theorem C41_mesh0D (ext : Ext ℝ) (i j : Mesh0DInput ℝ) (u c : ℝ) (hu : 0 < u) (hc : 0 < c)
    (hi : length_unit_of ext i.length_unit = .ok u)
    (hj : length_unit_of ext j.length_unit = .ok (u/c))
    (hd : j.densities = i.densities.map (· / c^3))
    (hk : j.electronic_stopping_correction_factor = i.electronic_stopping_correction_factor) :
    Mesh0D.new ext j = Mesh0D.new ext i := by
  unfold Mesh0D.new
  simp only [hi, hj, hd, hk, bind, Except.bind, convert_unit u c hu hc]

/-- **C41** for the sphere. -/
theorem C41_sphere (ext : Ext ℝ) (i j : SphereInput ℝ) (u c : ℝ) (hu : 0 < u) (hc : 0 < c)
    (hi : length_unit_of ext i.length_unit = .ok u)
    (hj : length_unit_of ext j.length_unit = .ok (u/c))
    (hd : j.densities = i.densities.map (· / c^3)) (hr : j.radius = i.radius*c)
    (hk : j.electronic_stopping_correction_factor = i.electronic_stopping_correction_factor) :
    Sphere.new ext j = Sphere.new ext i := by
  unfold Sphere.new
  simp only [hi, hj, hd, hk, hr, bind, Except.bind, convert_unit u c hu hc, length_unit u c _ hc]

theorem points_unit (u c : ℝ) (hc : 0 < c) (ps : List (ℝ × ℝ)) :
    (ps.map fun p => (p.1*c, p.2*c)).map (fun p => (p.1*(u/c), p.2*(u/c)))
      = ps.map fun p => (p.1*u, p.2*u) := by
  rw [List.map_map]
  apply List.map_congr_left
  intro p _
  simp only [Function.comp, length_unit u c _ hc]

/-- **C41** for the homogeneous 2D mesh. -/
theorem C41_homogeneous (ext : Ext ℝ) (i j : HomogeneousMesh2DInput ℝ) (u c : ℝ) (hu : 0 < u)
    (hc : 0 < c) (hi : length_unit_of ext i.length_unit = .ok u)
    (hj : length_unit_of ext j.length_unit = .ok (u/c))
    (hd : j.densities = i.densities.map (· / c^3))
    (hp : j.points = i.points.map fun p => (p.1*c, p.2*c))
    (hs : j.simulation_boundary_points = i.simulation_boundary_points.map fun p => (p.1*c, p.2*c))
    (hk : j.electronic_stopping_correction_factor = i.electronic_stopping_correction_factor) :
    HomogeneousMesh2D.new ext j = HomogeneousMesh2D.new ext i := by
  unfold HomogeneousMesh2D.new
  simp only [hi, hj, hd, hk, hp, hs, bind, Except.bind, convert_unit u c hu hc,
    points_unit u c hc]

theorem forFold_map {m : Type → Type} [Monad m] {α β σ : Type} (f : σ → β → m σ) (g : α → β)
    (l : List α) : ∀ s, forFold f (l.map g) s = forFold (fun s a => f s (g a)) l s := by
  induction l with
  | nil => intro s; rfl
  | cons a l ih =>
    intro s
    have e : forFold f (l.map g) = forFold (fun s a => f s (g a)) l := funext ih
    simp only [List.map_cons, forFold, e]

theorem densities_unit (u c : ℝ) (hu : 0 < u) (hc : 0 < c) (ds : List (List ℝ)) :
    (ds.map fun l => l.map (· / c^3)).map (convert_densities (u/c))
      = ds.map (convert_densities u) := by
  rw [List.map_map]
  apply List.map_congr_left
  intro d _
  exact convert_unit u c hu hc d

/-- **C41** for the 1D mesh. -/
theorem C41_mesh1D (ext : Ext ℝ) (i j : Mesh1DInput ℝ) (u c : ℝ) (hu : 0 < u) (hc : 0 < c)
    (hi : length_unit_of ext i.length_unit = .ok u)
    (hj : length_unit_of ext j.length_unit = .ok (u/c))
    (hd : j.densities = i.densities.map fun l => l.map (· / c^3))
    (ht : j.layer_thicknesses = i.layer_thicknesses.map (· * c))
    (hk : j.electronic_stopping_correction_factors = i.electronic_stopping_correction_factors) :
    Mesh1D.new ext j = Mesh1D.new ext i := by
  have hrows : ((i.layer_thicknesses.map (· * c)).zip (i.densities.map (convert_densities u))).zip
      i.electronic_stopping_correction_factors
      = ((i.layer_thicknesses.zip (i.densities.map (convert_densities u))).zip
      i.electronic_stopping_correction_factors).map fun r => ((r.1.1*c, r.1.2), r.2) := by
    rw [List.zip_map_left, List.zip_map_left]
    apply List.map_congr_left
    intro r _; rfl
  have hstep : (fun (s : List (Layer1D ℝ) × ℝ × ℝ) (r : (ℝ × List ℝ) × ℝ) =>
      Mesh1D.layerStep (u/c) s ((r.1.1*c, r.1.2), r.2)) = Mesh1D.layerStep u := by
    funext s r
    unfold Mesh1D.layerStep
    simp only [length_unit u c _ hc]
  unfold Mesh1D.new
  simp only [hi, hj, bind, Except.bind, hd, ht, hk, densities_unit u c hu hc, hrows, forFold_map,
    hstep, List.length_map]

/-- **C41** for the 2D mesh (the energy barrier thickness is a length). -/
theorem C41_mesh2D (ext : Ext ℝ) (i j : Mesh2DInput ℝ) (u c : ℝ) (hu : 0 < u) (hc : 0 < c)
    (hi : length_unit_of ext i.length_unit = .ok u)
    (hj : length_unit_of ext j.length_unit = .ok (u/c))
    (hd : j.densities = i.densities.map fun l => l.map (· / c^3))
    (hp : j.points = i.points.map fun p => (p.1*c, p.2*c))
    (hs : j.simulation_boundary_points = i.simulation_boundary_points.map fun p => (p.1*c, p.2*c))
    (hb : j.energy_barrier_thickness = i.energy_barrier_thickness*c)
    (ht : j.triangles = i.triangles) (hbd : j.boundary = i.boundary)
    (hk : j.electronic_stopping_correction_factors = i.electronic_stopping_correction_factors) :
    Mesh2D.new ext j = Mesh2D.new ext i := by
  have hget : ∀ (ps : List (ℝ × ℝ)) (k : Nat), vget (ps.map fun p => (p.1*c, p.2*c)) k
      = (vget ps k).map (fun p => (p.1*c, p.2*c)) := by
    intro ps k
    unfold vget
    rw [List.getElem?_map]
    cases ps[k]? <;> rfl
  have hcell : Mesh2D.cellStep (u/c) (i.points.map fun p => (p.1*c, p.2*c))
      = Mesh2D.cellStep u i.points := by
    funext cells r
    unfold Mesh2D.cellStep
    simp only [hget]
    cases vget i.points r.1.1.1 <;> try rfl
    cases vget i.points r.1.1.2.1 <;> try rfl
    cases vget i.points r.1.1.2.2 <;> try rfl
    simp only [Except.map, bind, Except.bind, length_unit u c _ hc]
  have hbound : (fun (acc : List (ℝ × ℝ)) (index : Nat) => (do
        let p ← vget (i.points.map fun p => (p.1*c, p.2*c)) index
        pure (acc ++ [(p.1*(u/c), p.2*(u/c))]) : Res (List (ℝ × ℝ))))
      = fun acc index => (do
        let p ← vget i.points index
        pure (acc ++ [(p.1*u, p.2*u)]) : Res (List (ℝ × ℝ))) := by
    funext acc index
    simp only [hget]
    cases vget i.points index <;> try rfl
    simp only [Except.map, bind, Except.bind, length_unit u c _ hc]
  unfold Mesh2D.new
  rw [hi, hj]
  simp only [bind, Except.bind] at hbound ⊢
  simp only [hd, ht, hk, hp, hs, hb, hbd, densities_unit u c hu hc, hcell, hbound,
    length_unit u c _ hc, points_unit u c hc]

/-- **C41**, concentrations: they are the densities of the input divided by their sum, whatever the
unit, and add up to one. -/
theorem C41_concentrations (u : ℝ) (hu : 0 < u) (ds : List ℝ) :
    concentrations_of (convert_densities u ds) = ds.map (· / ds.sum) ∧
    (ds.sum ≠ 0 → (concentrations_of (convert_densities u ds)).sum = 1) := by
  have e : concentrations_of (convert_densities u ds) = ds.map (· / ds.sum) := by
    unfold concentrations_of
    rw [fsum_real, convert_sum]
    unfold convert_densities
    rw [List.map_map]
    apply List.map_congr_left
    intro d _
    simp only [Function.comp, powi_real]
    rw [show (3:ℤ) = ((3:ℕ):ℤ) from rfl, zpow_natCast]
    have : u^3 ≠ 0 := by positivity
    rw [div_div_div_cancel_right₀ this]
  refine ⟨e, fun h => ?_⟩
  rw [e]
  have : ∀ (l : List ℝ) (t : ℝ), (l.map (· / t)).sum = l.sum/t := by
    intro l t
    induction l with
    | nil => simp
    | cons a l ih => rw [List.map_cons, List.sum_cons, List.sum_cons, ih, add_div]
  rw [this, div_self h]

/-- **C41**, densities: number per cubic metre, for a length unit of `u` metres. -/
theorem C41_densities (u : ℝ) (ds : List ℝ) :
    convert_densities u ds = ds.map (· / u^3) := by
  unfold convert_densities
  apply List.map_congr_left
  intro d _
  rw [powi_real, show (3:ℤ) = ((3:ℕ):ℤ) from rfl, zpow_natCast]

/-! ## C63 -/

/-- The layer nearest to a point outside a layered target: the first for points at or before the
front, the last for points at or behind the back. -/
def NearestLayer (g : Mesh1D ℝ) (x : ℝ) (k : Nat) : Prop :=
  (x ≤ g.top → k = 0) ∧ (g.bottom ≤ x → k + 1 = g.layers.length)

/-- **C63 (partial).** Outside a layered target the composition is that of the nearest layer.
Missing: the front surface itself, where it fails (`C63_refuted`). -/
theorem C63_outside_partial (ext : Ext ℝ) (input : Mesh1DInput ℝ) (g : Mesh1D ℝ)
    (run : Mesh1D.new ext input = .ok g) (x y z : ℝ) (hx : x ≠ g.top)
    (hout : g.toGeom.inside x y z = .ok false) :
    ∃ k l, g.layers[k]? = some l ∧ AnswersFrom g.toGeom x y z l.densities l.concentrations
        l.electronic_stopping_correction_factor ∧ NearestLayer g x k := by
  obtain ⟨k, l, h1, h2, _, h3, h4⟩ := C36_lookup ext input g run x y z
  have hu : ∃ u, length_unit_of ext input.length_unit = .ok u := by
    unfold Mesh1D.new at run
    cases h : length_unit_of ext input.length_unit with
    | ok u => exact ⟨u, rfl⟩
    | error e => rw [h] at run; cases run
  obtain ⟨u, hu⟩ := hu
  obtain ⟨_, hne, ht, _⟩ := C36_layers ext input u g hu run
  have hpos : ∀ (ls : List (Layer1D ℝ)) (a b : ℝ), Tiles ls a b → a ≤ b := by
    intro ls
    induction ls with
    | nil => intro a b h; exact le_of_eq h
    | cons l ls ih =>
      rintro a b ⟨e1, e2, e3⟩
      rw [lt_real, e1] at e2
      exact le_trans e2.le (ih _ _ e3)
  have htb := hpos _ _ _ ht
  refine ⟨k, l, h1, h2, ?_, ?_⟩
  · intro h
    exact h3 ((lt_real _ _).mpr (lt_of_le_of_ne h hx))
  · intro h
    exact h4 hout ((lt_real_false _ _).mpr (le_trans htb h))

/-- At the front surface of a target of two layers the composition is that of the last layer. -/
theorem C63_refuted : ∃ (ext : Ext ℝ) (input : Mesh1DInput ℝ) (g : Mesh1D ℝ),
    Mesh1D.new ext input = .ok g ∧ g.top = 0 ∧ g.layers.map (·.densities) = [[1, 0], [0, 1]] ∧
    ∀ y z, g.toGeom.get_densities 0 y z = .ok [0, 1] := by
  have h0 : (0.0:ℝ) = 0 := by norm_num
  have h1 : (1.0:ℝ) = 1 := by norm_num
  let l1 : Layer1D ℝ := ⟨0, 1, [1, 0], [1, 0], 1⟩
  let l2 : Layer1D ℝ := ⟨1, 2, [0, 1], [0, 1], 1⟩
  refine ⟨⟨fun _ => none, fun _ _ => false, fun _ _ => none⟩,
    ⟨"M", [1, 1], [[1, 0], [0, 1]], [1, 1]⟩,
    ⟨[l1, l2], 0, 2, barrier_thickness 1, barrier_thickness 1⟩, ?_, rfl, rfl, ?_⟩
  · simp only [Mesh1D.new, length_unit_of, bind, Except.bind, pure, Except.pure, convert_densities,
      powi_real, h1, h0, List.map, div_one, one_zpow, rassert, List.all, List.headD, List.length,
      beq_self_eq_true, Bool.and_self, Bool.and_true, if_true, List.zip, List.zipWith, forFold, Mesh1D.layerStep,
      Layer1D.new, lt_real, concentrations_of, fsum_real, vget]
    norm_num [l1, l2, vget, fsum_real, Scalar.lt]
  · intro y z
    simp only [Mesh1D.toGeom, Mesh1D.find_layer, Mesh1D.inside]
    norm_num [vget, l2, Scalar.lt, Functor.map, Except.map]

end RustBCA
