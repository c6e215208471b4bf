import Verif.Model.Output
import Mathlib.Data.Real.Basic

/-!
# Histograms (C55)
-/

namespace RustBCA.Spec
open Scalar

/-- `h'` is `h` with the count of cell `i` raised by one. -/
def CountedAt (h h' : List Nat) (i : Nat) : Prop :=
  ∃ n, h[i]? = some n ∧ h' = h.set i (n + 1)

/-- `m'` is `m` with the count of cell `(i, j)` raised by one. -/
def CountedAt2 (m m' : List (List Nat)) (i j : Nat) : Prop :=
  ∃ row row', m[i]? = some row ∧ CountedAt row row' j ∧ m' = m.set i row'

/-- `v` lies in cell `i` of the axis from `a` to `b` with `n` equidistant points: the half-open
interval that starts at the `i`-th point and is as long as the distance of two points. -/
def InCell (a b : ℝ) (n i : Nat) (v : ℝ) : Prop :=
  i < n ∧ a + (b - a)/(n - 1)*i ≤ v ∧ v < a + (b - a)/(n - 1)*(i + 1)

/-- A usable axis: increasing, at least two points (and fewer than 2^31, the range of the index
type). -/
def GoodAxis (a b : ℝ) (n : Nat) : Prop := a < b ∧ 2 ≤ n ∧ n ≤ 2147483647

variable {F : Type} [Scalar F]

/-- The distributions belong to the grid `o`: its axes, and histograms of matching sizes. -/
structure OnGrid (o : GridOptions F) (d : Distributions F) : Prop where
  energies : d.energies = linspace o.energy_min o.energy_max o.energy_num
  angles : d.angles = linspace o.angle_min o.angle_max o.angle_num
  x_range : d.x_range = linspace o.x_min o.x_max o.x_num
  y_range : d.y_range = linspace o.y_min o.y_max o.y_num
  z_range : d.z_range = linspace o.z_min o.z_max o.z_num
  reflected_ead : d.reflected_ead.length = o.energy_num ∧
    ∀ r ∈ d.reflected_ead, r.length = o.angle_num
  sputtered_ead : d.sputtered_ead.length = o.energy_num ∧
    ∀ r ∈ d.sputtered_ead, r.length = o.angle_num
  implanted_x : d.implanted_x.length = o.x_num
  implanted_y : d.implanted_y.length = o.y_num
  implanted_z : d.implanted_z.length = o.z_num
  electronic_energy_loss_x : d.electronic_energy_loss_x.length = o.x_num
  nuclear_energy_loss_x : d.nuclear_energy_loss_x.length = o.x_num

/-- At least two points on every axis. -/
structure TwoPoints (o : GridOptions F) : Prop where
  energy : 2 ≤ o.energy_num
  angle : 2 ≤ o.angle_num
  x : 2 ≤ o.x_num
  y : 2 ≤ o.y_num
  z : 2 ≤ o.z_num

end RustBCA.Spec
