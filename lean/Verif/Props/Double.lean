import Verif.Double
import Verif.Props.Materials
import Verif.Model.Geometry

/-!
# C89: choosing the collision partner in double precision
-/

set_option linter.unusedSectionVars false
set_option linter.unusedSimpArgs false
set_option linter.unusedVariables false

namespace RustBCA
open Scalar Spec
variable {A : DoubleArith}

/-- The real numbers a list of doubles stands for. -/
def Dbl.vals (l : List (Dbl A)) : List ℝ := l.map Dbl.val

theorem zero_val : (0.0 : Dbl A).val = 0 := by
  rw [Dbl.val_scientific]
  have : (OfScientific.ofScientific 0 true 1 : ℝ) = 0 := by norm_num
  rw [this]
  exact rnd_double A ⟨0, 0, by norm_num, by norm_num⟩

theorem rnd_nonneg {x : ℝ} (h : 0 ≤ x) : 0 ≤ A.rnd x := by
  have := rnd_mono A h
  rwa [rnd_double A ⟨0, 0, by norm_num, by norm_num⟩] at this

theorem sum_nonneg_vals {l : List (Dbl A)} (h : ∀ d ∈ l, 0 ≤ d.val) : 0 ≤ (Dbl.vals l).sum := by
  refine List.sum_nonneg fun x hx => ?_
  obtain ⟨d, hd, rfl⟩ := List.mem_map.mp hx
  exact h d hd

/-- A sum of non-negative doubles, each addition being rounded. -/
theorem fold_bounds (l : List (Dbl A)) : ∀ (a : Dbl A), 0 ≤ a.val → (∀ d ∈ l, 0 ≤ d.val) →
    (1 - 2^(-53:ℤ))^l.length*(a.val + (Dbl.vals l).sum) ≤ (l.foldl (· + ·) a).val ∧
    (l.foldl (· + ·) a).val ≤ (1 + 2^(-53:ℤ))^l.length*(a.val + (Dbl.vals l).sum) ∧
    0 ≤ (l.foldl (· + ·) a).val := by
  induction l with
  | nil => intro a ha _; simp [Dbl.vals, ha]
  | cons d l ih =>
    intro a ha hl
    have hd := hl d (by simp)
    have hl' : ∀ d ∈ l, 0 ≤ d.val := fun x hx => hl x (by simp [hx])
    have hs := sum_nonneg_vals hl'
    have h0 : 0 ≤ (a + d).val := rnd_nonneg (by linarith)
    obtain ⟨h1, h2, h3⟩ := ih (a + d) h0 hl'
    have hb := rnd_bounds A (x := a.val + d.val) (by linarith)
    rw [← Dbl.val_add] at hb
    obtain ⟨u, hu⟩ : ∃ u : ℝ, u = 2^(-53:ℤ) := ⟨_, rfl⟩
    have hu0 : 0 < u := by rw [hu]; positivity
    have hu1 : u < 1 := by rw [hu]; norm_num
    rw [← hu] at h1 h2 hb ⊢
    simp only [List.foldl_cons, List.length_cons, pow_succ, Dbl.vals, List.map_cons, List.sum_cons]
      at h1 h2 h3 hs ⊢
    refine ⟨le_trans ?_ h1, h2.trans ?_, h3⟩
    · rw [mul_assoc]
      refine mul_le_mul_of_nonneg_left ?_ (pow_nonneg (by linarith) _)
      nlinarith
    · rw [mul_assoc]
      refine mul_le_mul_of_nonneg_left ?_ (pow_nonneg (by linarith) _)
      nlinarith

theorem cumulative_get (l : List (Dbl A)) : ∀ (a : Dbl A) (i : Nat), i < l.length →
    (Material.cumulative a l)[i]? = some ((l.take (i + 1)).foldl (· + ·) a) := by
  induction l with
  | nil => intro a i h; simp at h
  | cons d l ih =>
    intro a i h
    cases i with
    | zero => simp [Material.cumulative]
    | succ i =>
      simp only [Material.cumulative, List.getElem?_cons_succ, List.take_succ_cons, List.foldl_cons]
      exact ih (a + d) i (by simpa using h)

theorem cumulative_length (l : List (Dbl A)) : ∀ a : Dbl A,
    (Material.cumulative a l).length = l.length := by
  induction l with
  | nil => intro a; rfl
  | cons d l ih => intro a; simp [Material.cumulative, ih]

/-- The search finds the first entry above the random number. -/
theorem choose_index_spec (r : Dbl A) : ∀ (l : List (Dbl A)),
    (∀ i, Material.choose_index r l = some i ↔ (∃ c, l[i]? = some c ∧ r.val < c.val) ∧
      ∀ (j : Nat) (c : Dbl A), j < i → l[j]? = some c → c.val ≤ r.val) ∧
    (Material.choose_index r l = none ↔ ∀ c ∈ l, c.val ≤ r.val) := by
  intro l
  induction l with
  | nil => exact ⟨fun i => by simp [Material.choose_index], by simp [Material.choose_index]⟩
  | cons c l ih =>
    obtain ⟨ih1, ih2⟩ := ih
    by_cases h : r.val < c.val
    · have hif : (r <. c) = true := (Dbl.lt_iff _ _).2 h
      constructor
      · intro i
        simp only [Material.choose_index, hif, if_true, Option.some.injEq]
        constructor
        · rintro rfl
          exact ⟨⟨c, by simp, h⟩, fun j _ hj => by omega⟩
        · rintro ⟨-, h2⟩
          by_contra hc
          exact absurd (h2 0 c (by omega) (by simp)) (not_le.mpr h)
      · simp only [Material.choose_index, hif, if_true, reduceCtorEq, false_iff]
        intro hall
        exact absurd (hall c (by simp)) (not_le.mpr h)
    · have hif : ¬ (r <. c) = true := fun hc => h ((Dbl.lt_iff _ _).1 hc)
      push Not at h
      constructor
      · intro i
        simp only [Material.choose_index, hif, Bool.false_eq_true, if_false]
        cases i with
        | zero => 
          constructor
          · intro hx
            cases hy : Material.choose_index r l <;> rw [hy] at hx <;> simp at hx
          · rintro ⟨⟨d, hd, hlt⟩, -⟩
            simp only [List.getElem?_cons_zero, Option.some.injEq] at hd
            subst hd
            linarith
        | succ i =>
          rw [Option.map_eq_some_iff]
          constructor
          · rintro ⟨j, hj, hji⟩
            obtain rfl : j = i := by omega
            obtain ⟨h1, h2⟩ := (ih1 j).mp hj
            refine ⟨by simpa using h1, fun k d hk hd => ?_⟩
            cases k with
            | zero =>
              simp only [List.getElem?_cons_zero, Option.some.injEq] at hd
              subst hd; exact h
            | succ k => exact h2 k d (by omega) (by simpa using hd)
          · rintro ⟨h1, h2⟩
            refine ⟨i, (ih1 i).mpr ⟨by simpa using h1, fun k d hk hd => ?_⟩, rfl⟩
            exact h2 (k + 1) d (by omega) (by simpa using hd)
      · simp only [Material.choose_index, hif, Bool.false_eq_true, if_false, Option.map_eq_none_iff,
          List.mem_cons, forall_eq_or_imp]
        rw [ih2]
        exact ⟨fun hall => ⟨h, hall⟩, fun hall => hall.2⟩

/-- The running sum of the concentrations of the first `k` of the densities `ds`, against the exact
one: `n` densities, `2n + 1` roundings. -/
theorem cumulated_concentration (ds : List (Dbl A)) (hpos : ∀ d ∈ ds, 0 < d.val) (k : Nat)
    (hk : k ≤ ds.length) (hne : ds ≠ []) :
    (1 - 2^(-53:ℤ))^(2*ds.length + 1)*(((Dbl.vals ds).take k).sum/(Dbl.vals ds).sum) ≤
      (((concentrations_of ds).take k).foldl (· + ·) (0.0 : Dbl A)).val ∧
    (1 - 2^(-53:ℤ))^(2*ds.length + 1)*
      (((concentrations_of ds).take k).foldl (· + ·) (0.0 : Dbl A)).val ≤
      ((Dbl.vals ds).take k).sum/(Dbl.vals ds).sum := by
  obtain ⟨u, hu⟩ : ∃ u : ℝ, u = 2^(-53:ℤ) := ⟨_, rfl⟩
  have hu0 : 0 < u := by rw [hu]; positivity
  have hu1 : u < 1 := by rw [hu]; norm_num
  have hnn : ∀ d ∈ ds, 0 ≤ d.val := fun d hd => (hpos d hd).le
  -- the total
  obtain ⟨T, hT⟩ : ∃ T, T = (fsum ds).val := ⟨_, rfl⟩
  obtain ⟨D, hD⟩ : ∃ D, D = (Dbl.vals ds).sum := ⟨_, rfl⟩
  have hD0 : 0 < D := by
    rw [hD]
    cases ds with
    | nil => exact absurd rfl hne
    | cons a l =>
      have h1 := hpos a (by simp)
      have h2 := sum_nonneg_vals (l := l) (fun x hx => hnn x (by simp [hx]))
      simp only [Dbl.vals, List.map_cons, List.sum_cons] at h2 ⊢
      linarith
  obtain ⟨t1, t2, -⟩ := fold_bounds ds (0.0 : Dbl A) (by rw [zero_val]) hnn
  have t1' : (1 - u)^ds.length*D ≤ T := by
    rw [hT, hD, hu]; unfold fsum; rw [zero_val, zero_add] at t1; exact t1
  have t2' : T ≤ (1 + u)^ds.length*D := by
    rw [hT, hD, hu]; unfold fsum; rw [zero_val, zero_add] at t2; exact t2
  have hp1 : 0 < (1 - u)^ds.length := pow_pos (by linarith) _
  have hp2 : 0 < (1 + u)^ds.length := pow_pos (by linarith) _
  have hT0 : 0 < T := lt_of_lt_of_le (by positivity) t1'
  -- the concentrations
  have hcs : ∀ l : List (Dbl A), (∀ d ∈ l, 0 ≤ d.val) →
      (∀ c ∈ l.map (· / fsum ds), 0 ≤ c.val) ∧
      (1 - u)*((Dbl.vals l).sum/T) ≤ (Dbl.vals (l.map (· / fsum ds))).sum ∧
      (Dbl.vals (l.map (· / fsum ds))).sum ≤ (1 + u)*((Dbl.vals l).sum/T) := by
    intro l
    induction l with
    | nil => intro _; simp [Dbl.vals]
    | cons a l ih =>
      intro hl
      obtain ⟨i1, i2, i3⟩ := ih (fun x hx => hl x (by simp [hx]))
      have ha := hl a (by simp)
      have hb := rnd_bounds A (x := a.val/T) (by positivity)
      rw [← hu] at hb
      have hv : (a/fsum ds).val = A.rnd (a.val/T) := by rw [Dbl.val_div, hT]
      refine ⟨?_, ?_, ?_⟩
      · intro c hc
        rw [List.map_cons, List.mem_cons] at hc
        rcases hc with rfl | hc
        · rw [hv]; exact rnd_nonneg (by positivity)
        · exact i1 c hc
      · simp only [Dbl.vals, List.map_cons, List.sum_cons] at i2 ⊢
        rw [hv, add_div, mul_add]
        linarith [hb.1]
      · simp only [Dbl.vals, List.map_cons, List.sum_cons] at i3 ⊢
        rw [hv, add_div, mul_add]
        linarith [hb.2]
  have htake : (concentrations_of ds).take k = (ds.take k).map (· / fsum ds) := by
    simp only [concentrations_of, List.map_take]
  obtain ⟨c0, c1, c2⟩ := hcs (ds.take k) (fun d hd => hnn d (List.mem_of_mem_take hd))
  obtain ⟨s1, s2, s3⟩ := fold_bounds ((ds.take k).map (· / fsum ds)) (0.0 : Dbl A)
    (by rw [zero_val]) c0
  rw [zero_val, zero_add, ← hu] at s1 s2
  rw [htake, ← hD, ← hu]
  obtain ⟨R, hR⟩ : ∃ R, R = (((ds.take k).map (· / fsum ds)).foldl (· + ·) (0.0 : Dbl A)).val :=
    ⟨_, rfl⟩
  rw [← hR] at s1 s2 s3 ⊢
  have hlen : ((ds.take k).map (· / fsum ds)).length = k := by simp [hk]
  rw [hlen] at s1 s2
  obtain ⟨P, hP⟩ : ∃ P, P = ((Dbl.vals ds).take k).sum := ⟨_, rfl⟩
  have hPv : (Dbl.vals (ds.take k)).sum = P := by
    rw [hP]; unfold Dbl.vals; rw [List.map_take]
  rw [hPv] at c1 c2
  rw [← hP]
  have hP0 : 0 ≤ P := by
    rw [← hPv]; exact sum_nonneg_vals (fun d hd => hnn d (List.mem_of_mem_take hd))
  obtain ⟨n, hn⟩ : ∃ n, n = ds.length := ⟨_, rfl⟩
  rw [← hn] at hk t1' t2' hp1 hp2 ⊢
  have hv0 : 0 < 1 - u := by linarith
  have hv1 : 1 - u ≤ 1 := by linarith
  have hpk : (1 - u)^n ≤ (1 - u)^k := pow_le_pow_of_le_one hv0.le hv1 hk
  have hwk : (1 + u)^k ≤ (1 + u)^n := pow_le_pow_right₀ (by linarith) hk
  -- (1 - u)^n (1 + u)^n ≤ 1
  have hprod : (1 - u)^n*(1 + u)^n ≤ 1 := by
    rw [← mul_pow]
    exact pow_le_one₀ (mul_nonneg hv0.le (by linarith)) (by nlinarith)
  have hPT : 0 ≤ P/T := by positivity
  have hPD : 0 ≤ P/D := by positivity
  -- P/T against P/D
  have q1 : (1 - u)^n*(P/D) ≤ P/T := by
    have hTinv : T*(1 - u)^n ≤ D := by
      calc T*(1 - u)^n ≤ (1 + u)^n*D*(1 - u)^n := mul_le_mul_of_nonneg_right t2' hp1.le
        _ = ((1 - u)^n*(1 + u)^n)*D := by ring
        _ ≤ 1*D := mul_le_mul_of_nonneg_right hprod hD0.le
        _ = D := one_mul D
    rw [mul_div_assoc', div_le_div_iff₀ hD0 hT0]
    calc (1 - u)^n*P*T = P*(T*(1 - u)^n) := by ring
      _ ≤ P*D := mul_le_mul_of_nonneg_left hTinv hP0
  have q2 : (1 - u)^n*(P/T) ≤ P/D := by
    rw [mul_div_assoc', div_le_div_iff₀ hT0 hD0]
    calc (1 - u)^n*P*D = P*((1 - u)^n*D) := by ring
      _ ≤ P*T := mul_le_mul_of_nonneg_left t1' hP0
  have e1 : (1 - u)^(2*n + 1) = (1 - u)^n*((1 - u)*(1 - u)^n) := by
    rw [show 2*n + 1 = n + (n + 1) by ring, pow_add, pow_succ]; ring
  constructor
  · calc (1 - u)^(2*n + 1)*(P/D) = (1 - u)^n*((1 - u)*((1 - u)^n*(P/D))) := by rw [e1]; ring
      _ ≤ (1 - u)^n*((1 - u)*(P/T)) :=
          mul_le_mul_of_nonneg_left (mul_le_mul_of_nonneg_left q1 hv0.le) hp1.le
      _ ≤ (1 - u)^k*((1 - u)*(P/T)) := mul_le_mul_of_nonneg_right hpk (by positivity)
      _ ≤ (1 - u)^k*(Dbl.vals ((ds.take k).map (· / fsum ds))).sum :=
          mul_le_mul_of_nonneg_left c1 (pow_nonneg hv0.le _)
      _ ≤ R := s1
  · have hRle : R ≤ (1 + u)^n*((1 + u)*(P/T)) := by
      calc R ≤ (1 + u)^k*(Dbl.vals ((ds.take k).map (· / fsum ds))).sum := s2
        _ ≤ (1 + u)^k*((1 + u)*(P/T)) := mul_le_mul_of_nonneg_left c2 (pow_nonneg (by linarith) _)
        _ ≤ (1 + u)^n*((1 + u)*(P/T)) := mul_le_mul_of_nonneg_right hwk (by positivity)
    have h11 : (1 - u)*(1 + u) ≤ 1 := by nlinarith
    calc (1 - u)^(2*n + 1)*R
        ≤ (1 - u)^(2*n + 1)*((1 + u)^n*((1 + u)*(P/T))) :=
          mul_le_mul_of_nonneg_left hRle (pow_nonneg hv0.le _)
      _ = ((1 - u)^n*(1 + u)^n)*(((1 - u)*(1 + u))*((1 - u)^n*(P/T))) := by rw [e1]; ring
      _ ≤ 1*(1*(P/D)) := by
          refine mul_le_mul hprod ?_ (by positivity) (by norm_num)
          exact mul_le_mul h11 q2 (by positivity) (by norm_num)
      _ = P/D := by ring

theorem species_total {mat : Material (Dbl A)} {n i : Nat} (htab : Tabulated mat n) (hlt : i < n) :
    ∃ s, mat.species i = .ok s ∧ s.species_index = i := by
  refine ⟨⟨i, mat.Z[i]'(hlt.trans_le htab.Z), mat.m[i]'(hlt.trans_le htab.m),
      mat.Ec[i]'(hlt.trans_le htab.Ec), mat.Es[i]'(hlt.trans_le htab.Es),
      mat.Ed[i]'(hlt.trans_le htab.Ed),
      mat.interaction_index[i]'(hlt.trans_le htab.interaction_index)⟩, ?_, rfl⟩
  unfold Material.species
  rw [vget_ok (hlt.trans_le htab.Z), vget_ok (hlt.trans_le htab.m),
    vget_ok (hlt.trans_le htab.Ec), vget_ok (hlt.trans_le htab.Es),
    vget_ok (hlt.trans_le htab.Ed), vget_ok (hlt.trans_le htab.interaction_index)]
  rfl

theorem mesh0d_concentrations {ext : Ext (Dbl A)} {input : Mesh0DInput (Dbl A)} {g : Mesh0D (Dbl A)}
    (hg : Mesh0D.new ext input = .ok g) : g.concentrations = concentrations_of g.densities := by
  unfold Mesh0D.new at hg
  simp only [bind, Except.bind, pure, Except.pure] at hg
  split at hg
  · cases hg
  · injection hg with hg; subst hg; rfl

theorem choose_run {mat : Material (Dbl A)} {g : Mesh0D (Dbl A)} (hm : mat.geometry = g.toGeom)
    (x y z : Dbl A) (t : Tape (Dbl A)) {i : Nat} {s : Species (Dbl A)}
    (hi : Material.choose_index (t 0) (Material.cumulative 0.0 g.concentrations) = some i)
    (hs : mat.species i = .ok s) : mat.choose x y z t = .ok (s, fun n => t (n + 1)) := by
  unfold Material.choose Material.get_cumulative_concentrations
  rw [hm]
  simp only [Mesh0D.toGeom, bind, StateT.bind, Except.bind, random, liftM, monadLift,
    MonadLift.monadLift, StateT.lift, pure, Except.pure, hi, hs]

/-- **C89** (partial) In double precision, for a homogeneous target of `n` species of positive
density: for every random number below `1 - (2n + 1)/2^53` a species is chosen, and it is the one
whose interval of the exact concentrations the random number lies in, up to a relative error of
`(2n + 1)/2^53`. Missing: random numbers nearer to 1; there it can fail (`C89_refuted`). -/
theorem C89_choose_double_partial (ext : Ext (Dbl A)) (input : Mesh0DInput (Dbl A))
    (g : Mesh0D (Dbl A)) (hg : Mesh0D.new ext input = .ok g) (mat : Material (Dbl A))
    (hm : mat.geometry = g.toGeom) (hpos : ∀ d ∈ g.densities, 0 < d.val) (hne : g.densities ≠ [])
    (htab : Tabulated mat g.densities.length) (x y z : Dbl A) (t : Tape (Dbl A))
    (h0 : 0 ≤ (t 0).val) (h1 : (t 0).val < 1 - (2*g.densities.length + 1)/2^53) :
    ∃ s, mat.choose x y z t = .ok (s, fun n => t (n + 1)) ∧ s.species_index < g.densities.length ∧
      (1 - (2*g.densities.length + 1)/2^53)*
        (((g.densities.map Dbl.val).take s.species_index).sum/(g.densities.map Dbl.val).sum)
        ≤ (t 0).val ∧
      (1 - (2*g.densities.length + 1)/2^53)*(t 0).val
        < ((g.densities.map Dbl.val).take (s.species_index + 1)).sum/(g.densities.map Dbl.val).sum
      := by
  have hcon := mesh0d_concentrations hg
  obtain ⟨n, hn⟩ : ∃ n, n = g.densities.length := ⟨_, rfl⟩
  have hcum := fun k hk => cumulated_concentration g.densities hpos k hk hne
  rw [← hcon, ← hn] at hcum
  have hlen : g.concentrations.length = n := by rw [hcon, concentrations_of, List.length_map, hn]
  have hn0 : 0 < n := by rw [hn]; exact List.length_pos_iff.mpr hne
  have hbern : 1 - (2*n + 1)/2^53 ≤ (1 - (2:ℝ)^(-53:ℤ))^(2*n + 1) := by
    have := one_add_mul_le_pow (a := -(2:ℝ)^(-53:ℤ)) (by norm_num) (2*n + 1)
    have e : (1 : ℝ) + ((2*n + 1 : ℕ) : ℝ)*(-(2:ℝ)^(-53:ℤ)) = 1 - (2*n + 1)/2^53 := by
      push_cast
      rw [show (2:ℝ)^(-53:ℤ) = 1/2^53 by norm_num]
      ring
    rw [e] at this
    rwa [← sub_eq_add_neg] at this
  obtain ⟨sp, si⟩ := choose_index_spec (t 0) (Material.cumulative (0.0 : Dbl A) g.concentrations)
  rw [← hn] at h1
  obtain ⟨i, hi⟩ : ∃ i, Material.choose_index (t 0)
      (Material.cumulative (0.0 : Dbl A) g.concentrations) = some i := by
    cases hx : Material.choose_index (t 0) (Material.cumulative (0.0 : Dbl A) g.concentrations) with
    | some i => exact ⟨i, rfl⟩
    | none =>
      have hall := si.mp hx
      have hget := cumulative_get g.concentrations (0.0 : Dbl A) (n - 1) (by omega)
      rw [Nat.sub_add_cancel hn0] at hget
      have hle := hall _ (List.mem_of_getElem? hget)
      have hc := (hcum n (by omega)).1
      have hv : ((Dbl.vals g.densities).take n) = Dbl.vals g.densities := by
        rw [List.take_of_length_le]; simp [Dbl.vals, hn]
      have hD : (Dbl.vals g.densities).sum ≠ 0 := by
        have : 0 < (Dbl.vals g.densities).sum := by
          cases hd : g.densities with
          | nil => exact absurd hd hne
          | cons a l =>
            rw [hd] at hpos
            have h1 := hpos a (by simp)
            have h2 := sum_nonneg_vals (l := l) (fun x hx => (hpos x (by simp [hx])).le)
            simp only [Dbl.vals, List.map_cons, List.sum_cons] at h2 ⊢
            linarith
        exact this.ne'
      rw [hv, div_self hD, mul_one] at hc
      linarith
  obtain ⟨⟨c, hc, hlt⟩, hprev⟩ := (sp i).mp hi
  have hin : i < n := by
    have := (List.getElem?_eq_some_iff.mp hc).1
    rwa [cumulative_length, hlen] at this
  obtain ⟨s, hs, hsi⟩ := species_total htab (hn ▸ hin)
  refine ⟨s, choose_run hm x y z t hi hs, by rw [hsi, ← hn]; exact hin, ?_, ?_⟩
  · rw [hsi, ← hn]
    cases i with
    | zero => simp; exact h0
    | succ i =>
      have hget := cumulative_get g.concentrations (0.0 : Dbl A) i (by omega)
      have hle := hprev i _ (by omega) hget
      have hb := (hcum (i + 1) (by omega)).1
      have hq : 0 ≤ ((Dbl.vals g.densities).take (i + 1)).sum/(Dbl.vals g.densities).sum := by
        refine div_nonneg ?_ (sum_nonneg_vals fun d hd => (hpos d hd).le)
        rw [Dbl.vals, ← List.map_take]
        exact sum_nonneg_vals fun d hd => (hpos d (List.mem_of_mem_take hd)).le
      exact (mul_le_mul_of_nonneg_right hbern hq).trans (hb.trans hle)
  · rw [hsi, ← hn]
    have hget := cumulative_get g.concentrations (0.0 : Dbl A) i (by omega)
    rw [hget] at hc
    injection hc with hc
    rw [← hc] at hlt
    have hb := (hcum (i + 1) (by omega)).2
    have hpp : 0 < (1 - (2:ℝ)^(-53:ℤ))^(2*n + 1) := pow_pos (by norm_num) _
    calc (1 - (2*n + 1)/2^53)*(t 0).val ≤ (1 - (2:ℝ)^(-53:ℤ))^(2*n + 1)*(t 0).val :=
          mul_le_mul_of_nonneg_right hbern h0
      _ < _ := mul_lt_mul_of_pos_left hlt hpp
      _ ≤ _ := hb

/-- **C89** (one species) For a target of one species, choosing never fails. -/
theorem C89_single_species (ext : Ext (Dbl A)) (input : Mesh0DInput (Dbl A))
    (g : Mesh0D (Dbl A)) (hg : Mesh0D.new ext input = .ok g) (mat : Material (Dbl A))
    (hm : mat.geometry = g.toGeom) (d : Dbl A) (hd : g.densities = [d]) (hpos : 0 < d.val)
    (htab : Tabulated mat 1) (x y z : Dbl A) (t : Tape (Dbl A)) (h1 : (t 0).val < 1) :
    ∃ s, mat.choose x y z t = .ok (s, fun n => t (n + 1)) ∧ s.species_index = 0 := by
  have hcon := mesh0d_concentrations hg
  rw [hd] at hcon
  have hone : A.rnd 1 = 1 := rnd_double A ⟨1, 0, by norm_num, by norm_num⟩
  have hsum : (0.0 + d : Dbl A).val = d.val := by
    rw [Dbl.val_add, zero_val, zero_add]
    exact rnd_double A d.2
  have hc : (0.0 + d/(0.0 + d) : Dbl A).val = 1 := by
    rw [Dbl.val_add, zero_val, zero_add, Dbl.val_div, hsum, div_self hpos.ne', hone, hone]
  obtain ⟨s, hs, hsi⟩ := species_total htab (i := 0) (by norm_num)
  refine ⟨s, choose_run hm x y z t (i := 0) ?_ hs, hsi⟩
  rw [hcon]
  simp only [concentrations_of, fsum, List.foldl_cons, List.foldl_nil, List.map_cons, List.map_nil,
    Material.cumulative, Material.choose_index]
  rw [if_pos]
  rw [Dbl.lt_iff, hc]
  exact h1

end RustBCA
