import Verif.Spec.Pairs
import Mathlib.Order.Lattice

/-!
# Specification vocabulary for the correlation API
-/

namespace Cddm
namespace Spec
variable {α M : Type}

/-- The time-stamped signal meant by data `f` and an optional time array: without a time array
the samples are regular. -/
def stream (f : List α) : Option (List Int) → Stream α
  | none => regular f
  | some t => t.zip f

/-- Meaningful arguments of a cross function: equally long signals, and either no time arrays or
two time arrays as long as the (non-empty) signals. -/
def ValidCross (N1 N2 : Nat) : Option (List Int) → Option (List Int) → Prop
  | none, none => N1 = N2
  | some t1, some t2 => N1 = N2 ∧ t1.length = N1 ∧ t2.length = N2 ∧ N1 ≠ 0
  | _, _ => False

/-- Meaningful arguments of an auto function. -/
def ValidAuto (N : Nat) : Option (List Int) → Prop
  | none => True
  | some t => t.length = N ∧ N ≠ 0

/-- Times of the other stream of `cross_sum`. -/
def otherStream (N : Nat) : Option (List Int) → Stream Unit
  | none => regular (List.replicate N ())
  | some t => stamps t

/-- Meaningful arguments of `cross_sum`: the other time array may have any positive length. -/
def ValidSum (N : Nat) : Option (List Int) → Option (List Int) → Prop
  | none, none => True
  | some t1, some t2 => t1.length = N ∧ N ≠ 0 ∧ t2 ≠ []
  | _, _ => False

/-- Number of delays computed by default: the number of samples for regular data ... -/
def defaultN (N : Nat) : Option (List Int) → Option (List Int) → Nat
  | some t1, some t2 =>
    -- ... and one more than the largest distance between a time of each array otherwise
    1 + ((t1.flatMap fun a => t2.map fun b => (b - a).natAbs).foldl max 0)
  | _, _ => N

/-- No time stamp occurs twice. -/
def Distinct (t : Option (List Int)) : Prop := ∀ l, t = some l → l.Nodup

/-- Length of the result of a real-valued function: `aout` wins over `n`, `n` over the default. -/
def outLen (n : Option Nat) (aout : Option (List M)) (dflt : Nat) : Nat :=
  match aout, n with
  | some o, _ => o.length
  | none, some n => n
  | none, none => dflt

/-- Length of the result of a complex (signed delay) function: `2n-1`. -/
def outLenFull (n : Option Nat) (aout : Option (List M)) (dflt : Nat) : Nat :=
  match aout, n with
  | some o, _ => o.length
  | none, some n => 2 * n - 1
  | none, none => 2 * dflt - 1

/-- Starting value of cell `k`: what `aout` contains, or zero. -/
def start [Zero M] (aout : Option (List M)) (k : Nat) : M :=
  match aout with
  | some o => o.getD k 0
  | none => 0

end Spec
end Cddm
