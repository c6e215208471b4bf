import Verif.Spec.Histograms
import Verif.Spec.Lib

/-!
# The histograms of a whole run (C102)

`u` are the output units, `o` the grid of the histograms, `ps` the finished particles of the run and
`n` the number of incident ions.
-/

namespace RustBCA.Spec
open Scalar

/-- Bin `i` of the depth axes: cell `i`, and for `i = 0` also the values up to one cell width below
the axis (the code counts them there, see C55). -/
def InBin (a b : ℝ) (n i : Nat) (v : ℝ) : Prop :=
  InCell a b n i v ∨ (i = 0 ∧ a - (b - a)/(n - 1) < v ∧ v < a)

/-- The particle's energy and emission angle (C54) belong to the cell `(i, j)`. -/
def EmittedIn (o : GridOptions ℝ) (u : OutputUnits ℝ) (i j : Nat) (p : Particle ℝ) : Prop :=
  InCell o.energy_min o.energy_max o.energy_num i (p.E/u.energy_unit) ∧
  InCell o.angle_min o.angle_max o.angle_num j (energy_angle_from_particle p u).2

open Classical in
/-- The energy losses of kind `kind` recorded in bin `i` of the depth axis along the trajectories of
the incident particles among `ps`: energy per ion and per length, in output units. -/
noncomputable def lossIn (o : GridOptions ℝ) (u : OutputUnits ℝ) (n i : Nat)
    (kind : EnergyLoss ℝ → ℝ) (ps : List (Particle ℝ)) : ℝ :=
  ((((ps.filter (·.incident)).flatMap (·.energies)).filter
      (fun l => decide (InBin o.x_min o.x_max o.x_num i (l.x/u.length_unit)))).map
    (fun l => kind l/u.energy_unit/n/((o.x_max - o.x_min)/(o.x_num - 1)))).sum

/-- The histograms `d` are those of the particles `ps`. -/
structure HistogramsOf (o : GridOptions ℝ) (u : OutputUnits ℝ) (track_energy_losses : Bool)
    (n : Nat) (ps : List (Particle ℝ)) (d : Distributions ℝ) : Prop where
  /-- The axes are those asked for, and every histogram has one cell per axis point. -/
  on_grid : OnGrid o d
  /-- Energy and angle of the ions that came back. -/
  reflected : ∀ i j, i < o.energy_num → j < o.angle_num → ∃ row, d.reflected_ead[i]? = some row ∧
    row[j]? = some (howMany
      (fun p => p.incident = true ∧ p.left = true ∧ EmittedIn o u i j p) ps)
  /-- Energy and angle of the target atoms that were sputtered. -/
  sputtered : ∀ i j, i < o.energy_num → j < o.angle_num → ∃ row, d.sputtered_ead[i]? = some row ∧
    row[j]? = some (howMany
      (fun p => p.incident = false ∧ p.left = true ∧ EmittedIn o u i j p) ps)
  /-- Where the implanted ions came to rest. -/
  implanted_x : ∀ i, i < o.x_num → d.implanted_x[i]? = some (howMany
    (fun p => p.incident = true ∧ p.stopped = true ∧
      InBin o.x_min o.x_max o.x_num i (p.pos.x/u.length_unit)) ps)
  implanted_y : ∀ i, i < o.y_num → d.implanted_y[i]? = some (howMany
    (fun p => p.incident = true ∧ p.stopped = true ∧
      InBin o.y_min o.y_max o.y_num i (p.pos.y/u.length_unit)) ps)
  implanted_z : ∀ i, i < o.z_num → d.implanted_z[i]? = some (howMany
    (fun p => p.incident = true ∧ p.stopped = true ∧
      InBin o.z_min o.z_max o.z_num i (p.pos.z/u.length_unit)) ps)
  /-- Energy lost to the electrons and to the nuclei, by depth: all zero unless energy losses are
  tracked. -/
  electronic : ∀ i, i < o.x_num → d.electronic_energy_loss_x[i]? =
    some (if track_energy_losses then lossIn o u n i (·.Ee) ps else 0)
  nuclear : ∀ i, i < o.x_num → d.nuclear_energy_loss_x[i]? =
    some (if track_energy_losses then lossIn o u n i (·.En) ps else 0)

end RustBCA.Spec
