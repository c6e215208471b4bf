import Verif.Spec.Streams
import Mathlib.Probability.ProductMeasure

/-!
# Vocabulary for C97: a random number generator, threads, and the order in which samples are run

The generator has countably many outcomes (`rand::random::<f64>()` has 2^53); `value` says which number an
outcome stands for and `μ` how likely it is.
-/

namespace RustBCA.Spec
open MeasureTheory

section
variable {F α β Thread : Type}

/-- Independent outcomes of the generator: an endless stream for every thread. -/
noncomputable def threadStreams [MeasurableSpace α] (Thread : Type) (μ : Measure α) [IsProbabilityMeasure μ] :
    Measure (Thread × ℕ → α) :=
  Measure.infinitePi fun _ => μ

/-- The probability that the computation `m`, given a fresh stream of random numbers, returns a result
in `A`. -/
noncomputable def chance [MeasurableSpace α] (μ : Measure α) [IsProbabilityMeasure μ] (value : α → F) (m : M F β)
    (A : Set β) : ENNReal :=
  (Measure.infinitePi fun _ : ℕ => μ) {ω | ∃ b t', m (fun n => value (ω n)) = .ok (b, t') ∧ b ∈ A}

/-- The stream begins with the outcomes `w`. -/
def BeginsWith (ω : ℕ → α) (w : List α) : Prop := ∀ (k : ℕ) (a : α), w[k]? = some a → ω k = a

/-- On every stream that begins with `w` the computation returns `b` and leaves the rest of the stream. -/
def ReturnsOn (value : α → F) (m : M F β) (w : List α) (b : β) : Prop :=
  ∀ ω : ℕ → α, BeginsWith ω w → m (fun n => value (ω n)) = .ok (b, fun n => value (ω (w.length + n)))

/-- The computation draws the outcomes `w`, no more and no less, and returns `b`. -/
def DrawsAndReturns (value : α → F) (m : M F β) (w : List α) (b : β) : Prop :=
  ReturnsOn value m w b ∧ ∀ (v : List α) (b' : β), v <+: w → ReturnsOn value m v b' → v = w

/-- The streams after `k` outcomes have been drawn from that of thread `j`. -/
noncomputable def drawn (j : Thread) (k : ℕ) (ω : Thread × ℕ → α) : Thread × ℕ → α :=
  open Classical in fun x => if x.1 = j then ω (j, k + x.2) else ω x

/-- `n` samples are run by threads, each with its own stream, that take one sample after the other.
`h` lists the samples started so far, with the outcomes drawn and the result; `next h` says which thread
starts which sample next.  The choice may depend on all that happened before. -/
inductive Execution {n : ℕ} (value : α → F) (prog : Fin n → M F β)
    (next : List (Fin n × List α × β) → Thread × Fin n) :
    List (Fin n × List α × β) → (Thread × ℕ → α) → List (Fin n × List α × β) → Prop
  | done {h ω} : n ≤ h.length → Execution value prog next h ω h
  | start {h ω w b h'} : h.length < n → DrawsAndReturns value (prog (next h).2) w b →
      BeginsWith (fun k => ω ((next h).1, k)) w →
      Execution value prog next (h ++ [((next h).2, w, b)]) (drawn (next h).1 w.length ω) h' →
      Execution value prog next h ω h'

/-- No sample is started twice. -/
def EachOnce {n : ℕ} (next : List (Fin n × List α × β) → Thread × Fin n) : Prop :=
  ∀ h, (h.map (·.1)).Nodup → h.length < n → (next h).2 ∉ h.map (·.1)

/-- `tapes i` is the stream of random numbers that sample `i` was given. -/
def Given {n : ℕ} (value : α → F) (h : List (Fin n × List α × β)) (tapes : ℕ → Tape F) : Prop :=
  ∀ e ∈ h, ∃ ω : ℕ → α, BeginsWith ω e.2.1 ∧ tapes e.1 = fun n => value (ω n)

end
end RustBCA.Spec
