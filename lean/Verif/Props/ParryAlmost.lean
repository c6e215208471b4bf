import Verif.Props.ParrySolid
import Mathlib.MeasureTheory.Measure.Lebesgue.EqHaar
import Mathlib.MeasureTheory.Constructions.BorelSpace.Real

/-!
# C77: almost every point
-/

set_option linter.unusedSimpArgs false
set_option linter.unusedVariables false

namespace RustBCA
open Scalar Spec MeasureTheory

/-- A plane has no volume. -/
theorem plane_null (n : Point) (c : ℝ) (hn : n ≠ 0) : volume {p : Point | dot n p = c} = 0 := by
  let f : Point →ₗ[ℝ] ℝ :=
    { toFun := fun p => dot n p
      map_add' := fun p q => by simp only [dot, Prod.fst_add, Prod.snd_add]; ring
      map_smul' := fun a p => by simp only [dot, Prod.smul_fst, Prod.smul_snd, smul_eq_mul, RingHom.id_apply]; ring }
  have hpos : dot n n ≠ 0 := by
    intro h0
    apply hn
    have h1 : n.1*n.1 + n.2.1*n.2.1 + n.2.2*n.2.2 = 0 := h0
    have a1 : n.1 = 0 := by nlinarith [mul_self_nonneg n.1, mul_self_nonneg n.2.1, mul_self_nonneg n.2.2]
    have a2 : n.2.1 = 0 := by nlinarith [mul_self_nonneg n.1, mul_self_nonneg n.2.1, mul_self_nonneg n.2.2]
    have a3 : n.2.2 = 0 := by nlinarith [mul_self_nonneg n.1, mul_self_nonneg n.2.1, mul_self_nonneg n.2.2]
    exact Prod.ext a1 (Prod.ext a2 a3)
  obtain ⟨q, hq⟩ : ∃ q : Point, f q = c := by
    refine ⟨(c/dot n n) • n, ?_⟩
    rw [map_smul, smul_eq_mul]
    exact div_mul_cancel₀ c hpos
  have hne : AffineSubspace.mk' q (LinearMap.ker f) ≠ ⊤ := by
    intro htop
    have hd : LinearMap.ker f = ⊤ := by
      have := congrArg AffineSubspace.direction htop
      rwa [AffineSubspace.direction_mk', AffineSubspace.direction_top] at this
    have : n ∈ LinearMap.ker f := hd ▸ Submodule.mem_top
    exact hpos (LinearMap.mem_ker.1 this)
  haveI h1 : (volume : Measure (ℝ × ℝ)).IsAddHaarMeasure :=
    Measure.prod.instIsAddHaarMeasure (volume : Measure ℝ) (volume : Measure ℝ)
  haveI h2 : (volume : Measure Point).IsAddHaarMeasure :=
    Measure.prod.instIsAddHaarMeasure (volume : Measure ℝ) (volume : Measure (ℝ × ℝ))
  have hz := Measure.addHaar_affineSubspace (volume : Measure Point) _ hne
  refine measure_mono_null ?_ hz
  intro p hp
  rw [SetLike.mem_coe, AffineSubspace.mem_mk', vsub_eq_sub, LinearMap.mem_ker, map_sub, hq]
  have : f p = c := hp
  rw [this, sub_self]

/-- Points whose ray grazes an edge from `A` to `B` are in a plane. -/
theorem edge_plane (A B : Point) : ∃ n : Point, n ≠ 0 ∧ ∃ c, ∀ (p : Point) (s a b : ℝ), a + b = 1 →
    alongX p s = (a*A.1 + b*B.1, a*A.2.1 + b*B.2.1, a*A.2.2 + b*B.2.2) → dot n p = c := by
  by_cases h : B.2.1 = A.2.1 ∧ B.2.2 = A.2.2
  · refine ⟨(0, 1, 0), by simp, A.2.1, ?_⟩
    intro p s a b hab he
    rw [alongX, Prod.mk.injEq, Prod.mk.injEq] at he
    obtain ⟨_, e2, _⟩ := he
    rw [h.1, ← add_mul, hab, one_mul] at e2
    simp [dot, e2]
  · refine ⟨(0, B.2.2 - A.2.2, -(B.2.1 - A.2.1)), ?_, (B.2.2 - A.2.2)*A.2.1 - (B.2.1 - A.2.1)*A.2.2, ?_⟩
    · intro h0
      rw [Prod.mk_eq_zero, Prod.mk_eq_zero] at h0
      exact h ⟨by linarith [h0.2.2], by linarith [h0.2.1]⟩
    · intro p s a b hab he
      rw [alongX, Prod.mk.injEq, Prod.mk.injEq] at he
      obtain ⟨_, e2, e3⟩ := he
      simp only [dot]
      rw [e2, e3, show a = 1 - b by linarith]
      ring

/-- Points whose ray runs in the plane of a triangle are in a plane. -/
theorem parallel_plane (t : Tri) (h : (normal t).1 = 0) : ∃ n : Point, n ≠ 0 ∧ ∃ c, ∀ (p : Point) (s : ℝ),
    OnTri t (alongX p s) → dot n p = c := by
  by_cases h0 : normal t = 0
  · -- a triangle without area is a segment, seen along x too
    have hall : ∀ (y1 y2 z1 z2 : ℝ), y1*z2 - z1*y2 = 0 → ∃ a b : ℝ, (a ≠ 0 ∨ b ≠ 0) ∧ a*y1 + b*z1 = 0 ∧ a*y2 + b*z2 = 0 := by
      intro y1 y2 z1 z2 h
      by_cases h1 : y1 = 0 ∧ z1 = 0
      · by_cases h2 : y2 = 0 ∧ z2 = 0
        · exact ⟨1, 0, .inl one_ne_zero, by simp [h1.1], by simp [h2.1]⟩
        · refine ⟨z2, -y2, ?_, by simp [h1.1, h1.2], by ring⟩
          by_contra hn
          push Not at hn
          exact h2 ⟨by linarith [hn.2], hn.1⟩
      · refine ⟨z1, -y1, ?_, by ring, by linarith⟩
        by_contra hn
        push Not at hn
        exact h1 ⟨by linarith [hn.2], hn.1⟩
    obtain ⟨a, b, hab, ha, hb⟩ := hall (t.2.1.2.1 - t.1.2.1) (t.2.2.2.1 - t.1.2.1) (t.2.1.2.2 - t.1.2.2) (t.2.2.2.2 - t.1.2.2) (by
      have : (normal t).1 = 0 := h
      simpa only [normal] using this)
    refine ⟨(0, a, b), ?_, a*t.1.2.1 + b*t.1.2.2, ?_⟩
    · intro he
      rw [Prod.mk_eq_zero, Prod.mk_eq_zero] at he
      rcases hab with h1 | h1
      · exact h1 he.2.1
      · exact h1 he.2.2
    · rintro p s ⟨α, β, γ, _, _, _, hs, he⟩
      rw [alongX, Prod.mk.injEq, Prod.mk.injEq] at he
      obtain ⟨_, e2, e3⟩ := he
      simp only [dot]
      rw [e2, e3, show α = 1 - β - γ by linarith]
      linear_combination β*ha + γ*hb
  · refine ⟨normal t, h0, dot (normal t) t.1, ?_⟩
    intro p s hon
    have := onTri_plane hon
    rw [dot_alongX, h, mul_zero, add_zero] at this
    exact this

/-- **C77**, almost every point: the points whose ray grazes an edge or a face have no volume. -/
theorem C77_almost_every_ray (tris : List Tri) : ∀ᵐ p : Point, ClearRay tris p := by
  have one : ∀ t : Tri, ∀ᵐ p : Point, ∀ s : ℝ, 0 ≤ s → OnTri t (alongX p s) → 0 < s ∧ (normal t).1 ≠ 0 ∧ InTri t (alongX p s) := by
    intro t
    by_cases hn : (normal t).1 = 0
    · obtain ⟨n, hne, c, h⟩ := parallel_plane t hn
      have hz := plane_null n c hne
      filter_upwards [compl_mem_ae_iff.2 hz] with p hp s h0 hon
      exact absurd (h p s hon) hp
    · have hnn : normal t ≠ 0 := fun h0 => hn (by rw [h0]; rfl)
      obtain ⟨n1, hne1, c1, g1⟩ := edge_plane t.1 t.2.1
      obtain ⟨n2, hne2, c2, g2⟩ := edge_plane t.1 t.2.2
      obtain ⟨n3, hne3, c3, g3⟩ := edge_plane t.2.1 t.2.2
      filter_upwards [compl_mem_ae_iff.2 (plane_null _ (dot (normal t) t.1) hnn), compl_mem_ae_iff.2 (plane_null n1 c1 hne1),
        compl_mem_ae_iff.2 (plane_null n2 c2 hne2), compl_mem_ae_iff.2 (plane_null n3 c3 hne3)] with p hp hp1 hp2 hp3 s h0 hon
      refine ⟨?_, hn, ?_⟩
      · rcases h0.lt_or_eq with h | h
        · exact h
        · exfalso
          apply hp
          have := onTri_plane hon
          rw [dot_alongX, ← h, zero_mul, add_zero] at this
          exact this
      · obtain ⟨α, β, γ, hα, hβ, hγ, hs, he⟩ := hon
        refine ⟨α, β, γ, lt_of_le_of_ne hα ?_, lt_of_le_of_ne hβ ?_, lt_of_le_of_ne hγ ?_, hs, he⟩
        · rintro rfl
          exact hp3 (g3 p s β γ (by linarith) (by rw [he]; simp))
        · rintro rfl
          exact hp2 (g2 p s α γ (by linarith) (by rw [he]; simp))
        · rintro rfl
          exact hp1 (g1 p s α β (by linarith) (by rw [he]; simp))
  have : ∀ᵐ p : Point, ∀ t ∈ {t | t ∈ tris}, ∀ s : ℝ, 0 ≤ s → OnTri t (alongX p s) → 0 < s ∧ (normal t).1 ≠ 0 ∧ InTri t (alongX p s) :=
    (ae_ball_iff (List.finite_toSet tris).countable).2 fun t _ => one t
  exact this

/-- **C77**, almost every point: a mesh target whose body is at most 1 metre long in direction x reports exactly its
points as inside — for all points but a set of volume zero. -/
theorem C77_almost_every_point {parry : Parry ℝ} (g : ParryTriMesh ℝ parry) {tris : List Tri} {body : Set Point}
    (hm : MeshContract parry g.trimesh tris) (hs : SolidSurface tris body)
    (hlen : ∀ p ∈ body, (p.1 + 1, p.2.1, p.2.2) ∉ interior body) :
    ∀ᵐ p : Point, g.toGeom.inside p.1 p.2.1 p.2.2 = .ok true ↔ p ∈ body := by
  filter_upwards [C77_almost_every_ray tris] with p hp
  obtain ⟨x, y, z⟩ := p
  obtain ⟨b, hb, h⟩ := C77_any_shape g hm hs x y z hp
  show g.toGeom.inside x y z = .ok true ↔ _
  rw [hb]
  have e : (Except.ok b : Res Bool) = .ok true ↔ b = true := ⟨fun h => Except.ok.inj h, fun h => congrArg _ h⟩
  rw [e, h]
  constructor
  · exact fun h => h.1
  · intro hbody
    refine ⟨hbody, ?_⟩
    by_contra hno
    push Not at hno
    apply hlen _ hbody
    have hstay : ∀ q ∈ along (x, y, z) (1, 0, 0) '' Set.Icc 0 1, q ∉ frontier body := by
      rintro q ⟨s, ⟨h0, h1⟩, rfl⟩ hq
      obtain ⟨t, ht, hon⟩ := hs.covered _ hq
      refine hno t ht s h0 h1 ?_
      simpa [along] using hon
    have hmem : ((x + 1, y, z) : Point) ∈ along (x, y, z) (1, 0, 0) '' Set.Icc 0 1 :=
      ⟨1, ⟨zero_le_one, le_rfl⟩, by simp [along]⟩
    have hin : ((x + 1, y, z) : Point) ∈ body :=
      stays (along_connected _ _ (Set.Icc 0 1) isPreconnected_Icc) hstay
        (p := (x, y, z)) ⟨0, ⟨le_rfl, zero_le_one⟩, by simp [along]⟩ hmem hbody
    by_contra hni
    exact hstay _ hmem ⟨subset_closure hin, hni⟩

end RustBCA
