import Verif.Model.Input

/-! # Specification vocabulary for accepted inputs -/

namespace RustBCA.Spec

/-- Entry `(i, j)` of a matrix stored as a list of rows is in range and equals `v`. -/
def Entry {α : Type} (m : List (List α)) (i j : Nat) (v : α) : Prop :=
  ∃ row, m[i]? = some row ∧ row[j]? = some v

/-- A value described by an input distribution: a point value is itself, any other value is one the
sampler returned for the stated parameters; both are then scaled by the unit. -/
def Drawn {F : Type} [Scalar F] (sampler : Sampler F) (unit : F) : Distr F → F → Prop
  | .POINT x, v => v = x*unit
  | .NORMAL mean std, v => ∃ t r t', sampler.normal mean std t = .ok (r, t') ∧ v = r*unit
  | .UNIFORM min max, v => ∃ t r t', sampler.uniform min max t = .ok (r, t') ∧ v = r*unit

/-- The interaction index the program uses for entry `i` of a list of user-given indices: the
given one, except that lists with at most one entry count as "all zero" (input.rs:406-408). -/
def indexOf (given : List Nat) (i : Nat) : Option Nat :=
  if given.length ≤ 1 then some 0 else given[i]?

/-- `q` is an ion of species `i` of the particle parameters `p`, in the given units. -/
structure IonOf {F : Type} [Scalar F] (sampler : Sampler F) (lu eu mu : F)
    (p : ParticleParameters F) (i : Nat) (q : ParticleInput F) : Prop where
  m : ∃ m, p.m[i]? = some m ∧ q.m = m*mu
  Z : p.Z[i]? = some q.Z
  E : ∃ d, p.E[i]? = some d ∧ Drawn sampler eu d q.E
  Ec : ∃ e, p.Ec[i]? = some e ∧ q.Ec = e*eu
  Es : ∃ e, p.Es[i]? = some e ∧ q.Es = e*eu
  pos : ∃ dx dy dz, p.pos[i]? = some (dx, dy, dz) ∧ Drawn sampler lu dx q.x ∧
    Drawn sampler lu dy q.y ∧ Drawn sampler lu dz q.z
  dir : ∃ dx dy dz, p.dir[i]? = some (dx, dy, dz) ∧ Drawn sampler lu dx q.ux ∧
    Drawn sampler lu dy q.uy ∧ Drawn sampler lu dz q.uz
  interaction_index : indexOf p.interaction_index i = some q.interaction_index

/-- The panics that say that something is not implemented for the chosen combination of potential
and root finder. -/
def NotImplemented : Err → Prop
  | .panic m => m ∈ ["Input error: unimplemented root-finder.",
      "Input error: potential does not have an implemented derivative.",
      "Coulombic potential cannot be used with rootfinder.",
      "Input error: non-polynomial interaction potential used with polynomial root-finder.",
      "Input error: non-polynomial potential used with polynomial root-finder transformation.",
      "Input error: Screened Coulomb cannot be used with this potential"]
  | .fuel => False

/-- Which root finders have everything they need for which potential: Newton needs a derivative
(the attractive potentials WW, KRC_MORSE and FOUR_EIGHT have none), Newton-polished CPR too, and
POLYNOMIAL needs a polynomial; Coulomb is solved in closed form. -/
def CanSolve {F : Type} : InteractionPotential F → Rootfinder F → Prop
  | .COULOMB .., _ => True
  | .LENNARD_JONES_12_6 .., .POLYNOMIAL _ => True
  | .LENNARD_JONES_65_6 .., .POLYNOMIAL _ => True
  | .FOUR_EIGHT .., .POLYNOMIAL _ => True
  | _, .POLYNOMIAL _ => False
  | .FOUR_EIGHT .., .CPR _ _ _ _ _ _ _ derivative_free => derivative_free = true
  | .WW, .CPR _ _ _ _ _ _ _ derivative_free => derivative_free = true
  | .KRC_MORSE .., .CPR _ _ _ _ _ _ _ derivative_free => derivative_free = true
  | .FOUR_EIGHT .., _ => False
  | .WW, _ => False
  | .KRC_MORSE .., _ => False
  | _, _ => True

/-- The pairs that must be refused: an attractive power-law or Morse potential, whose distance
function can have several roots, with a Newton-type root finder (which finds some root, not the
outermost), and the polynomial root finder with a potential that is not a polynomial in 1/r. -/
def MustRefuse {F : Type} (V : InteractionPotential F) (rf : Rootfinder F) : Prop :=
  ((∃ s e, V = .LENNARD_JONES_12_6 s e) ∨ (∃ s e, V = .LENNARD_JONES_65_6 s e) ∨
      (∃ D a r0, V = .MORSE D a r0)) ∧ (rf = .DEFAULTNEWTON ∨ ∃ n tol, rf = .NEWTON n tol) ∨
  (∃ thr, rf = .POLYNOMIAL thr) ∧ ¬ (∃ s e, V = .LENNARD_JONES_12_6 s e) ∧
    ¬ (∃ s e, V = .LENNARD_JONES_65_6 s e) ∧ ¬ (∃ a b, V = .FOUR_EIGHT a b)

/-- The crate `rcpr` calls the functions it is given and reports its own failures; it never
produces one of RustBCA's "not implemented" messages itself. -/
structure OnlyPropagates {F : Type} (rcpr : Rcpr F) : Prop where
  polynomial : ∀ c thr m, rcpr.real_polynomial_roots c thr = .error m → ¬ NotImplemented (.panic m)
  secant : ∀ g f lb ub rf,
    (∀ r, RSat (g r) (fun _ => True) (fun e => ¬ NotImplemented e)) →
    (∀ r, RSat (f r) (fun _ => True) (fun e => ¬ NotImplemented e)) →
    RSat (rcpr.find_roots_with_secant_polishing g f lb ub rf)
      (fun res => ∀ m, res = .error m → ¬ NotImplemented (.panic m)) (fun e => ¬ NotImplemented e)
  newton : ∀ g f df lb ub rf,
    (∀ r, RSat (g r) (fun _ => True) (fun e => ¬ NotImplemented e)) →
    (∀ r, RSat (f r) (fun _ => True) (fun e => ¬ NotImplemented e)) →
    (∀ r, RSat (df r) (fun _ => True) (fun e => ¬ NotImplemented e)) →
    RSat (rcpr.find_roots_with_newton_polishing g f df lb ub rf)
      (fun res => ∀ m, res = .error m → ¬ NotImplemented (.panic m)) (fun e => ¬ NotImplemented e)

end RustBCA.Spec
