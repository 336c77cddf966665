import Verif.Spec.Pairs
import Mathlib.Data.Real.Basic

/-!
# Specification vocabulary: delays between real times

A correlation function has one entry per whole delay.  With real time stamps the delay of a pair has to be
put to one of the whole numbers next to it.
-/

namespace Cddm
namespace Spec
variable {α β M : Type}

/-- A rule that assigns a whole signed delay to a pair of times (from `a` to `b`) out of the times `T`: a
whole time difference is its own delay, and no delay is off by one or more. -/
structure FairDelay (T : Set ℝ) (δ : ℝ → ℝ → Int) : Prop where
  whole : ∀ a ∈ T, ∀ b ∈ T, ∀ d : Int, b - a = d → δ a b = d
  near : ∀ a ∈ T, ∀ b ∈ T, |(b - a) - δ a b| < 1

/-- Sum of `g` over the pairs (sample of `s1`, sample of `s2`) whose whole delay is `k` or `-k`. -/
def realPairSum [AddCommMonoid M] (δ : ℝ → ℝ → Int) (g : α → β → M) (s1 : List (ℝ × α)) (s2 : List (ℝ × β)) (k : Nat) : M :=
  (((s1 ×ˢ s2).filter fun p => |δ p.1.1 p.2.1| = k).map fun p => g p.1.2 p.2.2).sum

/-- Sum of `g` over the pairs whose whole signed delay is `d`. -/
def realPairSumAt [AddCommMonoid M] (δ : ℝ → ℝ → Int) (g : α → β → M) (s1 : List (ℝ × α)) (s2 : List (ℝ × β)) (d : Int) : M :=
  (((s1 ×ˢ s2).filter fun p => δ p.1.1 p.2.1 = d).map fun p => g p.1.2 p.2.2).sum

/-- Sum of `g` over the unordered pairs of samples of one signal whose whole delay is `k` or `-k`. -/
def realSelfSum [AddCommMonoid M] (δ : ℝ → ℝ → Int) (g : α → α → M) (s : List (ℝ × α)) (k : Nat) : M :=
  (((selfPairs s).filter fun p => |δ p.1.1 p.2.1| = k).map fun p => g p.1.2 p.2.2).sum

/-- The same with the sample that comes first, by the whole delay, as first argument of `g`. -/
def realSelfSumFwd [AddCommMonoid M] (δ : ℝ → ℝ → Int) (g : α → α → M) (s : List (ℝ × α)) (k : Nat) : M :=
  (((selfPairs s).filter fun p => |δ p.1.1 p.2.1| = k).map fun p => if δ p.1.1 p.2.1 < 0 then g p.2.2 p.1.2 else g p.1.2 p.2.2).sum

/-- Times that all lie on the same side of the origin of time. -/
def OneSided (l : List ℝ) : Prop := (∀ a ∈ l, 0 ≤ a) ∨ ∀ a ∈ l, a ≤ 0

end Spec
end Cddm
