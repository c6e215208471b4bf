import Verif.Props.LocalLoss
import Verif.Props.Stopping

/-!
# C118: what the electronic stopping correction factor does

Two targets that differ at a place only in the correction factor are compared.
-/

namespace RustBCA
open Scalar Spec

/-- At the place of `p` the targets `mat` and `mat'` differ in nothing but the electronic stopping
correction factor: `c` for `mat` and `c'` for `mat'`. -/
structure Spec.OnlyFactorDiffers (mat mat' : Material ℝ) (p : Particle ℝ) (c c' : ℝ) : Prop where
  before : mat.geometry.get_ck p.pos.x p.pos.y p.pos.y = .ok c
  after : mat'.geometry.get_ck p.pos.x p.pos.y p.pos.y = .ok c'
  species : mat'.Z = mat.Z
  index : mat'.interaction_index = mat.interaction_index
  inside : mat'.geometry.inside p.pos.x p.pos.y p.pos.z = mat.geometry.inside p.pos.x p.pos.y p.pos.z
  densities : mat'.geometry.get_densities = mat.geometry.get_densities

theorem cross_sections_factor {mat mat' : Material ℝ} {p : Particle ℝ} {c c' : ℝ} {ns : List ℝ}
    (h : OnlyFactorDiffers mat mat' p c c')
    (hgd : mat.geometry.get_densities p.pos.x p.pos.y p.pos.y = .ok ns)
    (mode : ElectronicStoppingMode) :
    mat.electronic_stopping_cross_sections p mode =
      .ok ((ns.zip mat.Z).map fun x => Material.stopping_power mode c
        (Material.S_high p.E p.m p.Z x.2) (Material.S_low p.E p.m p.Z x.2)) ∧
    mat'.electronic_stopping_cross_sections p mode =
      .ok ((ns.zip mat.Z).map fun x => Material.stopping_power mode c'
        (Material.S_high p.E p.m p.Z x.2) (Material.S_low p.E p.m p.Z x.2)) := by
  unfold Material.electronic_stopping_cross_sections Material.electronic_stopping_correction_factor
    Material.number_densities
  simp only [h.before, h.after, h.densities, h.species, hgd, bind, Except.bind, pure, Except.pure]
  exact ⟨trivial, trivial⟩

/-- **C118 (partial)** In the three low-energy modes the correction factor multiplies the electronic
energy loss of a step: with the factor `c'` instead of `c` the loss is `c'/c` times what it was.
Missing: INTERPOLATED, for which it is false (`C118_refuted_interpolated`). -/
theorem C118_factor_multiplies_partial (mat mat' : Material ℝ) (p q : Particle ℝ) (o : Options ℝ)
    (c c' d x0 sz loss : ℝ) (si : Nat) (ns : List ℝ) (h : OnlyFactorDiffers mat mat' p c c') (hc : c ≠ 0)
    (hgd : mat.geometry.get_densities p.pos.x p.pos.y p.pos.y = .ok ns)
    (hmode : LowEnergy o.electronic_stopping_mode)
    (run : subtract_electronic_stopping_energy p mat d x0 sz si o = .ok (q, loss)) :
    ∃ q', subtract_electronic_stopping_energy p mat' d x0 sz si o = .ok (q', c'/c*loss) := by
  obtain ⟨h1, h2⟩ := cross_sections_factor h hgd o.electronic_stopping_mode
  have hS : (ns.zip mat.Z).map (fun x => Material.stopping_power o.electronic_stopping_mode c'
        (Material.S_high p.E p.m p.Z x.2) (Material.S_low p.E p.m p.Z x.2))
      = ((ns.zip mat.Z).map fun x => Material.stopping_power o.electronic_stopping_mode c
        (Material.S_high p.E p.m p.Z x.2) (Material.S_low p.E p.m p.Z x.2)).map (c'/c*·) := by
    rw [List.map_map]
    refine List.map_congr_left fun x _ => ?_
    cases hm : o.electronic_stopping_mode
    case INTERPOLATED => exact absurd hm hmode
    all_goals
      simp only [Material.stopping_power, Function.comp]
      field_simp
  rw [hS] at h2
  generalize (ns.zip mat.Z).map (fun x => Material.stopping_power o.electronic_stopping_mode c
        (Material.S_high p.E p.m p.Z x.2) (Material.S_low p.E p.m p.Z x.2)) = S at h1 h2
  have hb : ∀ ns' : List ℝ, bragg_sum (S.map (c'/c*·)) ns' = c'/c*bragg_sum S ns' := by
    intro ns'
    unfold bragg_sum
    rw [fsum_real, fsum_real, ← List.sum_map_mul_left, List.zip_map_left, List.map_map]
    congr 1
    refine List.map_congr_left fun x _ => ?_
    simp only [Function.comp, Prod.map, id]
    ring
  have hv : vget (S.map (c'/c*·)) si = (vget S si).map (c'/c*·) := by
    unfold vget
    rw [List.getElem?_map]
    cases S[si]? <;> rfl
  unfold subtract_electronic_stopping_energy Material.inside Material.number_densities at run ⊢
  simp only [h.inside, h.index, h.densities, h2]
  simp only [h1] at run
  simp only [isNaN_real, rassert, Bool.not_false, if_true, bind, Except.bind, pure, Except.pure] at run ⊢
  cases hin : mat.geometry.inside p.pos.x p.pos.y p.pos.z with
  | error e => simp [hin] at run
  | ok b =>
    cases b with
    | false =>
      simp only [hin, Bool.false_eq_true, if_false, Except.ok.injEq, Prod.mk.injEq] at run ⊢
      obtain ⟨-, rfl⟩ := run
      exact ⟨p, rfl, by norm_num⟩
    | true =>
      simp only [hin, if_true] at run ⊢
      cases hr : vget o.interaction_potential p.interaction_index with
      | error e => simp [hr] at run
      | ok row =>
      simp only [hr] at run ⊢
      cases ht : vget mat.interaction_index si with
      | error e => simp [ht] at run
      | ok ti =>
      simp only [ht] at run ⊢
      cases hV : vget row ti with
      | error e => simp [hV] at run
      | ok V =>
      simp only [hV] at run ⊢
      cases hd : mat.geometry.get_densities p.pos.x p.pos.y p.pos.z with
      | error e => simp [hd] at run
      | ok ns' =>
      simp only [hd] at run ⊢
      cases hm : o.electronic_stopping_mode
      case INTERPOLATED => exact absurd hm hmode
      case LOW_ENERGY_NONLOCAL =>
        simp only [hm, Except.ok.injEq, Prod.mk.injEq] at run ⊢
        obtain ⟨-, rfl⟩ := run
        exact ⟨_, rfl, by rw [hb]; ring⟩
      case LOW_ENERGY_LOCAL =>
        simp only [hm, hv] at run ⊢
        cases hs : vget S si with
        | error e => simp [hs] at run
        | ok se =>
          simp only [hs, Except.map, Except.ok.injEq, Prod.mk.injEq] at run ⊢
          obtain ⟨-, rfl⟩ := run
          refine ⟨_, rfl, ?_⟩
          rw [oen_spec, oen_spec]
          unfold oenRobinson
          ring
      case LOW_ENERGY_EQUIPARTITION =>
        simp only [hm, hv] at run ⊢
        cases hs : vget S si with
        | error e => simp [hs] at run
        | ok se =>
          simp only [hs, Except.map, Except.ok.injEq, Prod.mk.injEq] at run ⊢
          obtain ⟨-, rfl⟩ := run
          refine ⟨_, rfl, ?_⟩
          rw [oen_spec, oen_spec, hb]
          unfold oenRobinson
          generalize (0.5 : ℝ) = w
          ring

/-- **C118 is false of the code** for INTERPOLATED stopping: there a *larger* correction factor always
means a *smaller* electronic energy loss.  For every target (with some atoms of positive charge at the
place), every particle of positive energy, mass and charge inside it, every distance travelled and every
two correction factors `c < c'`, the loss with `c'` is below the loss with `c`. -/
theorem C118_refuted_interpolated (mat mat' : Material ℝ) (p q : Particle ℝ) (o : Options ℝ)
    (c c' d x0 sz loss : ℝ) (si : Nat) (ns ns' : List ℝ) (h : OnlyFactorDiffers mat mat' p c c')
    (hph : Physical mat p) (hc : 0 ≤ c) (hcc : c < c') (hd : 0 < d)
    (hgd : mat.geometry.get_densities p.pos.x p.pos.y p.pos.y = .ok ns)
    (hgd' : mat.geometry.get_densities p.pos.x p.pos.y p.pos.z = .ok ns')
    (hlen : ns.length = mat.Z.length) (hne : mat.Z ≠ []) (hlen' : ns'.length = mat.Z.length)
    (hpos : ∀ n ∈ ns', 0 < n)
    (hin : mat.geometry.inside p.pos.x p.pos.y p.pos.z = .ok true)
    (hmode : o.electronic_stopping_mode = .INTERPOLATED)
    (run : subtract_electronic_stopping_energy p mat d x0 sz si o = .ok (q, loss)) :
    ∃ q' loss', subtract_electronic_stopping_energy p mat' d x0 sz si o = .ok (q', loss') ∧
      0 < loss' ∧ loss' < loss ∧ q.E ≤ q'.E := by
  obtain ⟨h1, h2⟩ := cross_sections_factor h hgd .INTERPOLATED
  have h10 : (1.0 : ℝ) = 1 := by norm_num
  have hterm : ∀ Zb ∈ mat.Z, 0 < Material.stopping_power .INTERPOLATED c'
        (Material.S_high p.E p.m p.Z Zb) (Material.S_low p.E p.m p.Z Zb) ∧
      Material.stopping_power .INTERPOLATED c'
        (Material.S_high p.E p.m p.Z Zb) (Material.S_low p.E p.m p.Z Zb)
      < Material.stopping_power .INTERPOLATED c
        (Material.S_high p.E p.m p.Z Zb) (Material.S_low p.E p.m p.Z Zb) := by
    intro Zb hZ
    have hH := S_high_pos hph.E hph.m hph.Z (hph.target Zb hZ)
    have hL := S_low_pos hph.E hph.m hph.Z (hph.target Zb hZ)
    simp only [Material.stopping_power, h10]
    generalize Material.S_high p.E p.m p.Z Zb = H at hH ⊢
    generalize Material.S_low p.E p.m p.Z Zb = L at hL ⊢
    have hL' : 0 < 1/L := by positivity
    have hH' : 0 < 1/H := by positivity
    have hlt : 1/L*c < 1/L*c' := mul_lt_mul_of_pos_left hcc hL'
    have h0 : 0 ≤ 1/L*c := by positivity
    exact ⟨one_div_pos.2 (by linarith), one_div_lt_one_div_of_lt (by linarith) (by linarith)⟩
  have key : ∀ (Zs as bs : List ℝ), as.length = Zs.length → bs.length = Zs.length → Zs ≠ [] →
      (∀ Z ∈ Zs, Z ∈ mat.Z) → (∀ n ∈ bs, 0 < n) →
      ∀ S S', S = ((as.zip Zs).map fun x => Material.stopping_power .INTERPOLATED c
        (Material.S_high p.E p.m p.Z x.2) (Material.S_low p.E p.m p.Z x.2)) →
      S' = ((as.zip Zs).map fun x => Material.stopping_power .INTERPOLATED c'
        (Material.S_high p.E p.m p.Z x.2) (Material.S_low p.E p.m p.Z x.2)) →
      0 < (List.zipWith (·*·) S' bs).sum ∧
        (List.zipWith (·*·) S' bs).sum < (List.zipWith (·*·) S bs).sum := by
    intro Zs
    induction Zs with
    | nil => intro _ _ _ _ hn; exact absurd rfl hn
    | cons Z Zs ih =>
      intro as bs ha hb _ hmem hp S S' hS hS'
      cases as with
      | nil => simp at ha
      | cons a as =>
      cases bs with
      | nil => simp at hb
      | cons b bs =>
      simp only [List.length_cons, Nat.add_right_cancel_iff] at ha hb
      simp only [List.zip_cons_cons, List.map_cons] at hS hS'
      subst hS hS'
      simp only [List.zipWith_cons_cons, List.sum_cons]
      obtain ⟨t1, t2⟩ := hterm Z (hmem Z (by simp))
      have hb0 : 0 < b := hp b (by simp)
      have u1 := mul_pos t1 hb0
      have u2 := mul_lt_mul_of_pos_right t2 hb0
      by_cases hz : Zs = []
      · subst hz
        have : as = [] := List.length_eq_zero_iff.1 ha
        subst this
        simp only [List.zip_nil_left, List.map_nil, List.zipWith_nil_left, List.sum_nil, add_zero]
        exact ⟨u1, u2⟩
      · obtain ⟨v1, v2⟩ := ih as bs ha hb hz (fun Z hZ => hmem Z (by simp [hZ]))
          (fun n hn => hp n (by simp [hn])) _ _ rfl rfl
        exact ⟨by linarith, by linarith⟩
  obtain ⟨k1, k2⟩ := key mat.Z ns ns' hlen hlen' hne (fun _ h => h) hpos _ _ rfl rfl
  have hB : ∀ (S : List ℝ) (w : ℝ), bragg_sum S ns'*w = (List.zipWith (·*·) S ns').sum*w :=
    fun S w => bragg_spec S ns' w
  generalize (ns.zip mat.Z).map (fun x => Material.stopping_power .INTERPOLATED c
        (Material.S_high p.E p.m p.Z x.2) (Material.S_low p.E p.m p.Z x.2)) = S at h1 k2
  generalize (ns.zip mat.Z).map (fun x => Material.stopping_power .INTERPOLATED c'
        (Material.S_high p.E p.m p.Z x.2) (Material.S_low p.E p.m p.Z x.2)) = S' at h2 k1 k2
  unfold subtract_electronic_stopping_energy Material.inside Material.number_densities at run ⊢
  simp only [h.inside, h.index, h.densities, hmode, h2]
  simp only [hmode, h1] at run
  simp only [isNaN_real, rassert, Bool.not_false, if_true, bind, Except.bind, pure, Except.pure, hin] at run ⊢
  cases hr : vget o.interaction_potential p.interaction_index with
  | error e => simp [hr] at run
  | ok row =>
  simp only [hr] at run ⊢
  cases ht : vget mat.interaction_index si with
  | error e => simp [ht] at run
  | ok ti =>
  simp only [ht] at run ⊢
  cases hV : vget row ti with
  | error e => simp [hV] at run
  | ok V =>
  simp only [hV, hgd', Except.ok.injEq, Prod.mk.injEq] at run ⊢
  obtain ⟨rfl, rfl⟩ := run
  refine ⟨_, _, ⟨rfl, rfl⟩, ?_⟩
  rw [hB, hB]
  refine ⟨mul_pos k1 hd, mul_lt_mul_of_pos_right k2 hd, ?_⟩
  have hlt := mul_lt_mul_of_pos_right k2 hd
  have h00 : (0.0 : ℝ) = 0 := by norm_num
  simp only [lt_real, h00]
  split_ifs <;> linarith

end RustBCA
