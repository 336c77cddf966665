import Verif.Spec.Api

/-!
# Specification vocabulary for `ccorr` and `acorr`
-/

namespace Cddm
namespace Spec
variable {α β M : Type}

/-- The sum of `g` over the pairs filed in cell `k` of an array of length `L`: pairs at time
distance `k`, or, in a full-size array, pairs at the signed delay of that cell. -/
def cellSum [AddCommMonoid M] (full : Bool) (g : α → β → M) (s1 : Stream α) (s2 : Stream β)
    (L k : Nat) : M :=
  if full then pairSumAt g s1 s2 (cellDelay L k) else pairSum g s1 s2 k

/-- Number of delays of one call: `n` if given, else that of the given correlation array, else
the full number. -/
def delays (full : Bool) (n : Option Nat) (corLen : Option Nat) (dflt : Nat) : Nat :=
  n.getD (match corLen with
    | some L => if full then (L + 1) / 2 else L
    | none => dflt)

/-- Length of one field for `n` delays. -/
def fieldLen (full : Bool) (n : Nat) (aout : Option (List M)) : Nat :=
  match aout with
  | some o => o.length
  | none => if full then 2 * n - 1 else n

/-- `out` is the given array (or zeros for `n` delays) with `δ L k` added to each cell `k`, where
`L` is its length. -/
def Added [AddCommMonoid M] (full : Bool) (n : Nat) (aout : Option (List M)) (δ : Nat → Nat → M)
    (out : List M) : Prop :=
  out.length = fieldLen full n aout ∧
    ∀ k (hk : k < out.length), out[k] = start aout k + δ out.length k

/-- The method used: the one asked for; by default FFT for a full and 'corr' for a partial range. -/
def effMethod (method : Option String) (n : Option Nat) : String :=
  method.getD (if n = none then "fft" else "corr")

/-- The norms a method can prepare data for. -/
def SupportedNorm (method : String) (cross : Bool) (norm : Int) : Prop :=
  if method = "diff" then norm = 2 ∨ (cross = true ∧ norm = 6)
  else norm = 1 ∨ norm = 2 ∨ norm = 3 ∨ norm = 5 ∨ norm = 6 ∨ norm = 7

/-- The norm used: the one asked for, by default the most general one. -/
def effNorm (norm : Option Int) (method : String) (cross : Bool) : Int :=
  norm.getD (if method = "diff" then (if cross then 6 else 2) else 7)

/-- Array lengths for which the kernels stay inside their arrays and the FFT does not alias: odd
length for full-size arrays; at most one delay more than the data span, for method 'fft' and for
regular data. -/
def SafeLen (full : Bool) (method : String) (t : Option (List Int)) (D L : Nat) : Prop :=
  (full = true → L % 2 = 1) ∧ (method = "fft" → 1 ≤ L) ∧
    (method = "fft" ∨ t = none → (if full then (L + 1) / 2 else L) ≤ D + 1)

/-- Does the norm compare with mean squares (structured, weighted, alone or subtracted)? -/
def WantsSquares (norm : Int) : Prop := norm = 2 ∨ norm = 3 ∨ norm = 6 ∨ norm = 7
/-- Does the norm subtract the background? -/
def WantsSums (norm : Int) : Prop := norm = 5 ∨ norm = 6 ∨ norm = 7

end Spec
end Cddm
