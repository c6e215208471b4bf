import Verif.Props.ParryAlmost
import Verif.Examples.Parry

/-!
# C77 for a mesh that is not convex: two separate tetrahedra
-/

set_option linter.unusedSimpArgs false
set_option linter.unusedVariables false

namespace RustBCA.SolidExample
open Scalar Spec

/-- A tetrahedron with edge `a` on the axes, moved by `d` in direction x, oriented outwards. -/
def faces (d a : ℝ) : List Tri :=
  [((d, 0, 0), (d, 0, a), (d, a, 0)), ((d, 0, 0), (d + a, 0, 0), (d, 0, a)),
   ((d, 0, 0), (d, a, 0), (d + a, 0, 0)), ((d + a, 0, 0), (d, a, 0), (d, 0, a))]

/-- The tetrahedron itself. -/
def body (d a : ℝ) : Set Point := {q | d ≤ q.1 ∧ 0 ≤ q.2.1 ∧ 0 ≤ q.2.2 ∧ (q.1 - d) + q.2.1 + q.2.2 ≤ a}

theorem body_closed (d a : ℝ) : IsClosed (body d a) := by
  have e : body d a = {q | d ≤ q.1} ∩ ({q | 0 ≤ q.2.1} ∩ ({q | 0 ≤ q.2.2} ∩ {q | (q.1 - d) + q.2.1 + q.2.2 ≤ a})) := rfl
  rw [e]
  refine (isClosed_le (by fun_prop) (by fun_prop)).inter ((isClosed_le (by fun_prop) (by fun_prop)).inter
    ((isClosed_le (by fun_prop) (by fun_prop)).inter (isClosed_le (by fun_prop) (by fun_prop))))

theorem body_interior (d a : ℝ) (q : Point) (h : d < q.1 ∧ 0 < q.2.1 ∧ 0 < q.2.2 ∧ (q.1 - d) + q.2.1 + q.2.2 < a) :
    q ∈ interior (body d a) := by
  have ho : IsOpen ({q : Point | d < q.1} ∩ ({q | 0 < q.2.1} ∩ ({q | 0 < q.2.2} ∩ {q | (q.1 - d) + q.2.1 + q.2.2 < a}))) :=
    (isOpen_lt (by fun_prop) (by fun_prop)).inter ((isOpen_lt (by fun_prop) (by fun_prop)).inter
      ((isOpen_lt (by fun_prop) (by fun_prop)).inter (isOpen_lt (by fun_prop) (by fun_prop))))
  refine interior_maximal ?_ ho h
  rintro r ⟨h1, h2, h3, h4⟩
  exact ⟨le_of_lt h1, le_of_lt h2, le_of_lt h3, le_of_lt h4⟩

/-- The coordinates of a point near `q`. -/
theorem near {p q : Point} {ε : ℝ} (h : dist p q < ε) :
    |p.1 - q.1| < ε ∧ |p.2.1 - q.2.1| < ε ∧ |p.2.2 - q.2.2| < ε := by
  rw [Prod.dist_eq, max_lt_iff, Prod.dist_eq, max_lt_iff] at h
  exact ⟨h.1, h.2.1, h.2.2⟩

theorem solid {d a : ℝ} (ha : 0 < a) : SolidSurface (faces d a) (body d a) := by
  have h2 : 0 < a*a := mul_pos ha ha
  refine ⟨?_, ?_, ?_⟩
  · refine (Metric.isBounded_Icc ((d, 0, 0) : Point) (d + a, a, a)).subset ?_
    rintro ⟨x, y, z⟩ ⟨h1, h2, h3, h4⟩
    simp only at h1 h2 h3 h4
    exact ⟨⟨h1, h2, h3⟩, ⟨by show x ≤ d + a; linarith, by show y ≤ a; linarith, by show z ≤ a; linarith⟩⟩
  · rintro ⟨x, y, z⟩ hq
    have hmem : (x, y, z) ∈ body d a := (body_closed d a).frontier_subset hq
    obtain ⟨h3, h4, h5, h6⟩ := hmem
    simp only at h3 h4 h5 h6
    have hnot : ¬ (d < x ∧ 0 < y ∧ 0 < z ∧ (x - d) + y + z < a) := fun h => hq.2 (body_interior d a (x, y, z) h)
    have hane := ha.ne'
    by_cases e1 : x = d
    · refine ⟨_, List.mem_cons_self, 1 - z/a - y/a, z/a, y/a, ?_, div_nonneg h5 ha.le, div_nonneg h4 ha.le, by ring, ?_⟩
      · rw [show 1 - z/a - y/a = (a - z - y)/a by field_simp]
        exact div_nonneg (by linarith) ha.le
      · subst e1
        refine Prod.ext ?_ (Prod.ext ?_ ?_) <;> simp only <;> field_simp <;> ring
    by_cases e2 : y = 0
    · refine ⟨_, List.mem_cons_of_mem _ List.mem_cons_self, 1 - (x - d)/a - z/a, (x - d)/a, z/a, ?_, div_nonneg (by linarith) ha.le,
        div_nonneg h5 ha.le, by ring, ?_⟩
      · rw [show 1 - (x - d)/a - z/a = (a - (x - d) - z)/a by field_simp]
        exact div_nonneg (by linarith) ha.le
      · subst e2
        refine Prod.ext ?_ (Prod.ext ?_ ?_) <;> simp only <;> field_simp <;> ring
    by_cases e3 : z = 0
    · refine ⟨_, List.mem_cons_of_mem _ (List.mem_cons_of_mem _ List.mem_cons_self), 1 - (x - d)/a - y/a, y/a, (x - d)/a, ?_,
        div_nonneg h4 ha.le, div_nonneg (by linarith) ha.le, by ring, ?_⟩
      · rw [show 1 - (x - d)/a - y/a = (a - (x - d) - y)/a by field_simp]
        exact div_nonneg (by linarith) ha.le
      · subst e3
        refine Prod.ext ?_ (Prod.ext ?_ ?_) <;> simp only <;> field_simp <;> ring
    · have e4 : (x - d) + y + z = a := by
        by_contra hne
        exact hnot ⟨lt_of_le_of_ne h3 (Ne.symm e1), lt_of_le_of_ne h4 (Ne.symm e2), lt_of_le_of_ne h5 (Ne.symm e3),
          lt_of_le_of_ne h6 hne⟩
      refine ⟨_, List.mem_cons_of_mem _ (List.mem_cons_of_mem _ (List.mem_cons_of_mem _ List.mem_cons_self)),
        (x - d)/a, y/a, z/a, div_nonneg (by linarith) ha.le, div_nonneg h4 ha.le, div_nonneg h5 ha.le, ?_, ?_⟩
      · field_simp; linarith
      · refine Prod.ext ?_ (Prod.ext ?_ ?_) <;> simp only <;> field_simp
        · linear_combination (-d)*e4
        · ring
        · ring
  · intro t ht q hin
    obtain ⟨α, β, γ, hα, hβ, hγ, hsum, rfl⟩ := hin
    simp only [faces, List.mem_cons, List.not_mem_nil, or_false] at ht
    have hαa := mul_pos hα ha
    have hβa := mul_pos hβ ha
    have hγa := mul_pos hγ ha
    refine ⟨min (α*a) (min (β*a) (γ*a))/4, by positivity, ?_⟩
    rintro ⟨x, y, z⟩ hd
    obtain ⟨n1, n2, n3⟩ := near hd
    simp only [abs_lt] at n1 n2 n3
    obtain ⟨m, hm⟩ : ∃ m, m = min (α*a) (min (β*a) (γ*a)) := ⟨_, rfl⟩
    rw [← hm] at n1 n2 n3
    have m1 : m ≤ α*a := hm ▸ min_le_left _ _
    have m2 : m ≤ β*a := hm ▸ (min_le_right _ _).trans (min_le_left _ _)
    have m3 : m ≤ γ*a := hm ▸ (min_le_right _ _).trans (min_le_right _ _)
    have hsa : α*a + β*a + γ*a = a := by rw [← add_mul, ← add_mul, hsum, one_mul]
    have hsd : α*d + β*d + γ*d = d := by rw [← add_mul, ← add_mul, hsum, one_mul]
    have hm0 : 0 < m := hm ▸ lt_min hαa (lt_min hβa hγa)
    rcases ht with rfl | rfl | rfl | rfl <;> simp only [mul_zero, zero_add, add_zero, mul_add] at n1 n2 n3 <;>
      simp only [StrictlyBehind, dot, normal, body, Set.mem_ofPred_eq]
    · refine ⟨fun h => ?_, fun h hb => ?_⟩
      · have : d < x := by by_contra hle; nlinarith [mul_nonneg h2.le (sub_nonneg.2 (not_lt.1 hle))]
        refine ⟨?_, ?_, ?_, ?_⟩ <;> linarith
      · nlinarith [mul_nonneg h2.le (sub_nonneg.2 hb.1)]
    · refine ⟨fun h => ?_, fun h hb => ?_⟩
      · have : 0 < y := by by_contra hle; nlinarith [mul_nonneg h2.le (sub_nonneg.2 (not_lt.1 hle))]
        refine ⟨?_, ?_, ?_, ?_⟩ <;> linarith
      · nlinarith [mul_nonneg h2.le (sub_nonneg.2 hb.2.1)]
    · refine ⟨fun h => ?_, fun h hb => ?_⟩
      · have : 0 < z := by by_contra hle; nlinarith [mul_nonneg h2.le (sub_nonneg.2 (not_lt.1 hle))]
        refine ⟨?_, ?_, ?_, ?_⟩ <;> linarith
      · nlinarith [mul_nonneg h2.le (sub_nonneg.2 hb.2.2.1)]
    · refine ⟨fun h => ?_, fun h hb => ?_⟩
      · have : (x - d) + y + z < a := by by_contra hle; nlinarith [mul_nonneg h2.le (sub_nonneg.2 (not_lt.1 hle))]
        refine ⟨?_, ?_, ?_, ?_⟩ <;> linarith
      · nlinarith [mul_nonneg h2.le (sub_nonneg.2 hb.2.2.2)]

/-- Two separate solids together. -/
theorem solid_union {t1 t2 : List Tri} {b1 b2 : Set Point} (h1 : SolidSurface t1 b1) (h2 : SolidSurface t2 b2)
    (a1 : ∀ t ∈ t1, ∀ q, InTri t q → q ∉ closure b2) (a2 : ∀ t ∈ t2, ∀ q, InTri t q → q ∉ closure b1) :
    SolidSurface (t1 ++ t2) (b1 ∪ b2) := by
  have side : ∀ {t : Tri} {q : Point} {b b' : Set Point}, q ∉ closure b' →
      (∃ ε > 0, ∀ p : Point, dist p q < ε →
        (StrictlyBehind t p → p ∈ b) ∧ (dot (normal t) t.1 < dot (normal t) p → p ∉ b)) →
      ∃ ε > 0, ∀ p : Point, dist p q < ε → (StrictlyBehind t p → p ∈ b ∨ p ∈ b') ∧
        (dot (normal t) t.1 < dot (normal t) p → ¬ (p ∈ b ∨ p ∈ b')) := by
    rintro t q b b' hq ⟨ε, hε, h⟩
    obtain ⟨δ, hδ, hball⟩ := Metric.isOpen_iff.1 isClosed_closure.isOpen_compl q hq
    refine ⟨min ε δ, lt_min hε hδ, fun p hp => ?_⟩
    obtain ⟨h3, h4⟩ := h p (lt_of_lt_of_le hp (min_le_left _ _))
    have hout : p ∉ b' := fun hb => hball (Metric.mem_ball.2 (lt_of_lt_of_le hp (min_le_right _ _))) (subset_closure hb)
    exact ⟨fun hs => .inl (h3 hs), fun hs hb => hb.elim (h4 hs) hout⟩
  refine ⟨h1.bounded.union h2.bounded, ?_, ?_⟩
  · intro q hq
    rcases frontier_union_subset b1 b2 hq with ⟨hq, _⟩ | ⟨_, hq⟩
    · obtain ⟨t, ht, hon⟩ := h1.covered q hq
      exact ⟨t, List.mem_append_left _ ht, hon⟩
    · obtain ⟨t, ht, hon⟩ := h2.covered q hq
      exact ⟨t, List.mem_append_right _ ht, hon⟩
  · intro t ht q hin
    rcases List.mem_append.1 ht with ht | ht
    · exact side (a1 t ht q hin) (h1.sides t ht q hin)
    · obtain ⟨ε, hε, h⟩ := side (b' := b1) (a2 t ht q hin) (h2.sides t ht q hin)
      exact ⟨ε, hε, fun p hp => ⟨fun hs => ((h p hp).1 hs).symm, fun hs hb => (h p hp).2 hs hb.symm⟩⟩

/-- The points of the faces are between `d` and `d + a`. -/
theorem face_range {d a : ℝ} (ha : 0 < a) {t : Tri} (ht : t ∈ faces d a) {q : Point} (h : InTri t q) :
    d ≤ q.1 ∧ q.1 ≤ d + a := by
  obtain ⟨α, β, γ, hα, hβ, hγ, hsum, rfl⟩ := h
  have hαa := mul_pos hα ha
  have hβa := mul_pos hβ ha
  have hγa := mul_pos hγ ha
  have hsa : α*a + β*a + γ*a = a := by rw [← add_mul, ← add_mul, hsum, one_mul]
  have hsd : α*d + β*d + γ*d = d := by rw [← add_mul, ← add_mul, hsum, one_mul]
  simp only [faces, List.mem_cons, List.not_mem_nil, or_false] at ht
  rcases ht with rfl | rfl | rfl | rfl <;> simp only [mul_add] <;> constructor <;> linarith

/-- Two tetrahedra of edge 1/4, half a metre apart: together not convex. -/
noncomputable def pair : List Tri := faces 0 (1/4) ++ faces (1/2) (1/4)

def both : Set Point := body 0 (1/4) ∪ body (1/2) (1/4)

theorem pair_solid : SolidSurface pair both := by
  refine solid_union (solid (by norm_num)) (solid (by norm_num)) ?_ ?_
  · intro t ht q hin hq
    have h1 := (face_range (by norm_num) ht hin).2
    rw [(body_closed _ _).closure_eq] at hq
    have h2 := hq.1
    linarith
  · intro t ht q hin hq
    have h1 := (face_range (by norm_num) ht hin).1
    rw [(body_closed _ _).closure_eq] at hq
    obtain ⟨h2, h3, h4, h5⟩ := hq
    linarith

/-- Rays at height y = 1/20, z = 1/25 are clear. -/
theorem faces_clear {d : ℝ} {x : ℝ} (hd : x ≠ d) (hs : x ≠ d + 4/25) :
    ClearRay (faces d (1/4)) (x, 1/20, 1/25) := by
  intro t ht s h0 hon
  obtain ⟨α, β, γ, hα, hβ, hγ, hsum, heq⟩ := hon
  rw [alongX, Prod.mk.injEq, Prod.mk.injEq] at heq
  obtain ⟨e1, e2, e3⟩ := heq
  simp only [faces, List.mem_cons, List.not_mem_nil, or_false] at ht
  rcases ht with rfl | rfl | rfl | rfl <;> simp only [mul_zero, zero_add, add_zero] at e1 e2 e3
  · refine ⟨?_, ?_, α, β, γ, ?_, ?_, ?_, hsum, ?_⟩
    · rcases h0.lt_or_eq with h | h
      · exact h
      · exfalso; apply hd
        rw [← h] at e1
        have : α*d + β*d + γ*d = d := by rw [← add_mul, ← add_mul, hsum, one_mul]
        linarith
    · simp only [normal]; norm_num
    · linarith
    · linarith
    · linarith
    · refine Prod.ext ?_ (Prod.ext ?_ ?_) <;> simp only [alongX] <;> linarith
  · norm_num at e2
  · norm_num at e3
  · refine ⟨?_, ?_, α, β, γ, ?_, ?_, ?_, hsum, ?_⟩
    · rcases h0.lt_or_eq with h | h
      · exact h
      · exfalso; apply hs
        rw [← h] at e1
        have : α*d + β*d + γ*d = d := by rw [← add_mul, ← add_mul, hsum, one_mul]
        linarith
    · simp only [normal]; ring_nf; norm_num
    · linarith
    · linarith
    · linarith
    · refine Prod.ext ?_ (Prod.ext ?_ ?_) <;> simp only [alongX] <;> linarith

theorem clear {x : ℝ} (h1 : x ≠ 0) (h2 : x ≠ 4/25) (h3 : x ≠ 1/2) (h4 : x ≠ 33/50) : ClearRay pair (x, 1/20, 1/25) := by
  intro t ht
  rcases List.mem_append.1 ht with h | h
  · exact faces_clear (x := x) h1 (by norm_num; exact h2) t h
  · exact faces_clear (x := x) h3 (by norm_num; exact h4) t h

/-- The target. -/
noncomputable def target : ParryTriMesh ℝ ParryExample.parry := ⟨[1], [1], 1, 1, pair⟩

/-- A point in the first tetrahedron is inside. -/
example : target.toGeom.inside (1/10) (1/20) (1/25) = .ok true := by
  obtain ⟨b, hb, h⟩ := C77_any_shape target (ParryExample.meshContract pair) pair_solid (1/10) (1/20) (1/25)
    (clear (by norm_num) (by norm_num) (by norm_num) (by norm_num))
  rw [hb, h.2]
  refine ⟨.inl ⟨by norm_num, by norm_num, by norm_num, by norm_num⟩, _,
    List.mem_append_left _ (List.mem_cons_of_mem _ (List.mem_cons_of_mem _ (List.mem_cons_of_mem _ List.mem_cons_self))),
    3/50, by norm_num, by norm_num, 16/25, 1/5, 4/25, by norm_num, by norm_num, by norm_num, by norm_num, ?_⟩
  refine Prod.ext ?_ (Prod.ext ?_ ?_) <;> norm_num

/-- A point between the two is not. -/
example : target.toGeom.inside (1/4) (1/20) (1/25) = .ok false := by
  obtain ⟨b, hb, h⟩ := C77_any_shape target (ParryExample.meshContract pair) pair_solid (1/4) (1/20) (1/25)
    (clear (by norm_num) (by norm_num) (by norm_num) (by norm_num))
  rw [hb]
  congr 1
  rw [← Bool.not_eq_true, h]
  rintro ⟨h1 | h1, _⟩
  · have := h1.2.2.2
    norm_num at this
  · have := h1.1
    norm_num at this

/-- And so for almost every point. -/
example : ∀ᵐ p : Point, target.toGeom.inside p.1 p.2.1 p.2.2 = .ok true ↔ p ∈ both := by
  refine C77_almost_every_point target (ParryExample.meshContract pair) pair_solid ?_
  intro p hp hq
  have hq := interior_subset hq
  have h1 : 0 ≤ p.1 := by
    rcases hp with h | h
    · exact h.1
    · have := h.1
      linarith
  rcases hq with ⟨a1, a2, a3, a4⟩ | ⟨a1, a2, a3, a4⟩ <;> simp only at a1 a2 a3 a4 <;> linarith

end RustBCA.SolidExample
