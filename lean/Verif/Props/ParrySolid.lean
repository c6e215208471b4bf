import Verif.Spec.Solid
import Verif.Props.Parry
import Mathlib.Topology.Connected.Basic
import Mathlib.Analysis.Convex.Topology
import Mathlib.Analysis.Normed.Module.Convex

/-!
# C77 for meshes of any shape
-/

set_option linter.unusedSimpArgs false
set_option linter.unusedVariables false

namespace RustBCA
open Scalar Spec

/-- A connected set that meets no boundary point of `S` is inside or outside. -/
theorem stays {S C : Set Point} (hC : IsPreconnected C) (h : ∀ q ∈ C, q ∉ frontier S) {p q : Point} (hp : p ∈ C)
    (hq : q ∈ C) (hpS : p ∈ S) : q ∈ S := by
  have hsub : C ⊆ interior S ∪ (closure S)ᶜ := by
    intro r hr
    by_cases h1 : r ∈ interior S
    · exact .inl h1
    · right
      intro h2
      exact h r hr ⟨h2, h1⟩
  have hd : Disjoint (interior S) (closure S)ᶜ :=
    Set.disjoint_left.2 fun r h1 h2 => h2 (subset_closure (interior_subset h1))
  have hp1 : p ∈ interior S := by
    rcases hsub hp with h1 | h1
    · exact h1
    · exact absurd (subset_closure hpS) h1
  have := hC.subset_left_of_subset_union isOpen_interior isClosed_closure.isOpen_compl hd hsub ⟨p, hp, hp1⟩
  exact interior_subset (this hq)

/-- The points of a segment. -/
def along (p v : Point) (s : ℝ) : Point := (p.1 + s*v.1, p.2.1 + s*v.2.1, p.2.2 + s*v.2.2)

theorem along_connected (p v : Point) (I : Set ℝ) (hI : IsPreconnected I) : IsPreconnected (along p v '' I) :=
  hI.image _ (Continuous.continuousOn (by unfold along; fun_prop))

/-- In every direction a bounded body has boundary points ahead of a point of it. -/
theorem boundary_ahead {S : Set Point} (hS : Bornology.IsBounded S) {p v : Point} (hp : p ∈ S) (hv : v ≠ 0) :
    ∃ s : ℝ, 0 ≤ s ∧ along p v s ∈ frontier S := by
  obtain ⟨B, hB⟩ := hS.subset_closedBall p
  by_contra hno
  push Not at hno
  have hpos : 0 < ‖v‖ := norm_pos_iff.2 hv
  have hall : along p v ((|B| + 1)/‖v‖) ∈ S := by
    refine stays (along_connected p v (Set.Ici 0) isPreconnected_Ici) ?_ (p := p) ?_ ?_ hp
    · rintro q ⟨s, hs, rfl⟩
      exact hno s hs
    · exact ⟨0, Set.mem_Ici.2 le_rfl, by simp [along]⟩
    · exact ⟨_, Set.mem_Ici.2 (div_nonneg (by positivity) hpos.le), rfl⟩
  have h1 := hB hall
  rw [Metric.mem_closedBall, dist_eq_norm] at h1
  have e : along p v ((|B| + 1)/‖v‖) - p = ((|B| + 1)/‖v‖) • v := by
    simp only [along]
    refine Prod.ext ?_ (Prod.ext ?_ ?_) <;> simp
  rw [e, norm_smul, Real.norm_eq_abs, abs_of_nonneg (div_nonneg (by positivity) hpos.le), div_mul_cancel₀ _ hpos.ne'] at h1
  linarith [le_abs_self B]

/-- A point of a triangle is not beyond all its corners, in any of the three coordinates, up or down. -/
theorem corner_beyond {t : Tri} {q : Point} (h : OnTri t q) (f : Point → ℝ)
    (hf : ∀ a b c : ℝ, f (a*t.1.1 + b*t.2.1.1 + c*t.2.2.1, a*t.1.2.1 + b*t.2.1.2.1 + c*t.2.2.2.1,
      a*t.1.2.2 + b*t.2.1.2.2 + c*t.2.2.2.2) = a*f t.1 + b*f t.2.1 + c*f t.2.2) :
    ∃ v ∈ [t.1, t.2.1, t.2.2], f q ≤ f v := by
  obtain ⟨a, b, c, ha, hb, hc, hs, rfl⟩ := h
  rw [hf]
  by_contra hno
  push Not at hno
  have h1 := hno t.1 (by simp)
  have h2 := hno t.2.1 (by simp)
  have h3 := hno t.2.2 (by simp)
  obtain ⟨m, hm⟩ : ∃ m, m = a*f t.1 + b*f t.2.1 + c*f t.2.2 := ⟨_, rfl⟩
  rw [← hm] at h1 h2 h3
  have : m = a*m + b*m + c*m := by rw [← add_mul, ← add_mul, hs, one_mul]
  rcases ha.lt_or_eq with ha' | ha'
  · nlinarith [mul_lt_mul_of_pos_left h1 ha', mul_le_mul_of_nonneg_left h2.le hb, mul_le_mul_of_nonneg_left h3.le hc]
  · rcases hb.lt_or_eq with hb' | hb'
    · nlinarith [mul_le_mul_of_nonneg_left h1.le ha, mul_lt_mul_of_pos_left h2 hb', mul_le_mul_of_nonneg_left h3.le hc]
    · have hc' : c = 1 := by rw [← ha', ← hb'] at hs; linarith
      rw [← ha', ← hb', hc'] at hm
      linarith

/-- The body lies in the box of the corners. -/
theorem body_in_box {parry : Parry ℝ} {mesh : parry.Mesh} {tris : List Tri} {body : Set Point}
    (hm : MeshContract parry mesh tris) (hs : SolidSurface tris body) {p : Point} (hp : p ∈ body) :
    parry.aabb_contains mesh p = true := by
  rw [hm.box]
  -- with the direction v in which the coordinate f grows
  have key : ∀ (f : Point → ℝ) (v : Point), v ≠ 0 → (∀ s : ℝ, 0 ≤ s → f p ≤ f (along p v s)) →
      (∀ (t : Tri) (a b c : ℝ), f (a*t.1.1 + b*t.2.1.1 + c*t.2.2.1, a*t.1.2.1 + b*t.2.1.2.1 + c*t.2.2.2.1,
        a*t.1.2.2 + b*t.2.1.2.2 + c*t.2.2.2.2) = a*f t.1 + b*f t.2.1 + c*f t.2.2) →
      ∃ t ∈ tris, ∃ w ∈ [t.1, t.2.1, t.2.2], f p ≤ f w := by
    intro f v hv hgrow hlin
    obtain ⟨s, h0, hb⟩ := boundary_ahead hs.bounded hp hv
    obtain ⟨t, ht, hon⟩ := hs.covered _ hb
    obtain ⟨w, hw, hle⟩ := corner_beyond hon f (hlin t)
    exact ⟨t, ht, w, hw, (hgrow s h0).trans hle⟩
  have neg : ∀ (f : Point → ℝ), (∃ t ∈ tris, ∃ w ∈ [t.1, t.2.1, t.2.2], -f p ≤ -f w) →
      ∃ t ∈ tris, ∃ w ∈ [t.1, t.2.1, t.2.2], f w ≤ f p := by
    rintro f ⟨t, ht, w, hw, h⟩
    exact ⟨t, ht, w, hw, by linarith⟩
  intro coord hc
  simp only [List.mem_cons, List.not_mem_nil, or_false] at hc
  rcases hc with rfl | rfl | rfl
  · exact ⟨neg (fun q => q.1) (key (fun q => -q.1) (-1, 0, 0) (by simp) (fun s h => by simp [along]; linarith) fun t a b c => by ring),
      key (fun q => q.1) (1, 0, 0) (by simp) (fun s h => by simp [along]; linarith) fun t a b c => by ring⟩
  · exact ⟨neg (fun q => q.2.1) (key (fun q => -q.2.1) (0, -1, 0) (by simp) (fun s h => by simp [along]; linarith) fun t a b c => by ring),
      key (fun q => q.2.1) (0, 1, 0) (by simp) (fun s h => by simp [along]; linarith) fun t a b c => by ring⟩
  · exact ⟨neg (fun q => q.2.2) (key (fun q => -q.2.2) (0, 0, -1) (by simp) (fun s h => by simp [along]; linarith) fun t a b c => by ring),
      key (fun q => q.2.2) (0, 0, 1) (by simp) (fun s h => by simp [along]; linarith) fun t a b c => by ring⟩

/-- **C77**, any shape: for a mesh that is the outward-oriented surface of a body — convex or not, of any number of
pieces, with or without cavities — and a point whose ray in direction +x meets no edge and no face along its plane:
the point is reported inside exactly if it belongs to the body and the surface is at most 1 metre away in
direction +x. -/
theorem C77_any_shape {parry : Parry ℝ} (g : ParryTriMesh ℝ parry) {tris : List Tri} {body : Set Point}
    (hm : MeshContract parry g.trimesh tris) (hs : SolidSurface tris body) (x y z : ℝ)
    (hr : ClearRay tris (x, y, z)) :
    ∃ b, g.toGeom.inside x y z = .ok b ∧
      (b = true ↔ (x, y, z) ∈ body ∧ ∃ t ∈ tris, ∃ s, 0 ≤ s ∧ s ≤ 1 ∧ OnTri t (x + s, y, z)) := by
  refine ⟨inside_trimesh parry g.trimesh x y z, rfl, ?_⟩
  unfold inside_trimesh
  by_cases hbox : parry.aabb_contains g.trimesh (x, y, z) = true
  swap
  · have : ¬ (x, y, z) ∈ body := fun h => hbox (body_in_box hm hs h)
    simp [hbox, this]
  rw [hbox, ray_dir, show ((1.0:ℝ)) = 1 by norm_num]
  simp only [Bool.not_true, Bool.false_eq_true, if_false]
  cases hcast : parry.trimesh_cast_ray g.trimesh (x, y, z) (1, 0, 0) 1 false with
  | none =>
    simp only [Bool.false_eq_true, false_iff]
    rintro ⟨_, t, ht, s, h0, h1, hon⟩
    have hon : OnTri t (alongX (x, y, z) s) := hon
    exact absurd (hm.miss _ _ hcast t ht s ⟨h0, (hr t ht s h0 hon).2.1, hon⟩) (not_lt.2 h1)
  | some f =>
    obtain ⟨t, ht, s, hs1, hcr, hback, hmin⟩ := hm.hit _ _ _ hcast
    obtain ⟨hs0, hn, hin⟩ := hr t ht s hcr.1 hcr.2.2
    -- before the crossing there is no surface
    have hclear : ∀ q ∈ along (x, y, z) (1, 0, 0) '' Set.Ico 0 s, q ∉ frontier body := by
      rintro q ⟨s', ⟨h0, hlt⟩, rfl⟩ hq
      obtain ⟨t', ht', hon⟩ := hs.covered _ hq
      have e : along (x, y, z) (1, 0, 0) s' = alongX (x, y, z) s' := by simp [along, alongX]
      rw [e] at hon
      exact absurd (hmin t' ht' s' ⟨h0, (hr t' ht' s' h0 hon).2.1, hon⟩) (not_le.2 hlt)
    obtain ⟨ε, hε, hside⟩ := hs.sides t ht _ hin
    obtain ⟨s', h0', hlt', hnear⟩ : ∃ s', 0 ≤ s' ∧ s' < s ∧ s - s' < ε := by
      refine ⟨max 0 (s - ε/2), le_max_left _ _, max_lt hs0 (by linarith), ?_⟩
      have := le_max_right 0 (s - ε/2)
      linarith
    have hd : dist (alongX (x, y, z) s') (alongX (x, y, z) s) < ε := by
      simp only [alongX, Prod.dist_eq, dist_self, Real.dist_eq]
      rw [max_lt_iff]
      refine ⟨?_, by simpa using hε⟩
      rw [abs_lt]
      constructor <;> linarith
    have hconn := along_connected (x, y, z) (1, 0, 0) (Set.Ico 0 s) isPreconnected_Ico
    have hp0 : (x, y, z) ∈ along (x, y, z) (1, 0, 0) '' Set.Ico 0 s := ⟨0, ⟨le_rfl, hs0⟩, by simp [along]⟩
    have hp1 : alongX (x, y, z) s' ∈ along (x, y, z) (1, 0, 0) '' Set.Ico 0 s :=
      ⟨s', ⟨h0', hlt'⟩, by simp [along, alongX]⟩
    have hpl := onTri_plane hcr.2.2
    rw [dot_alongX] at hpl
    simp only
    rw [hback]
    constructor
    · intro hpos
      refine ⟨?_, t, ht, s, hcr.1, hs1, hcr.2.2⟩
      refine stays hconn hclear hp1 hp0 ((hside _ hd).1 ?_)
      unfold StrictlyBehind
      rw [dot_alongX]
      nlinarith [mul_pos (sub_pos.2 hlt') hpos]
    · rintro ⟨hbody, _⟩
      by_contra hneg
      have hneg : (normal t).1 < 0 := lt_of_le_of_ne (not_lt.1 hneg) hn
      refine (hside _ hd).2 ?_ (stays hconn hclear hp0 hp1 hbody)
      rw [dot_alongX]
      nlinarith [mul_pos (sub_pos.2 hlt') (neg_pos.2 hneg)]

end RustBCA
