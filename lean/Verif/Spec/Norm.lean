import Verif.Spec.Ccorr
import Verif.Model.Norm

/-!
# Specification vocabulary for normalization

Everything is said in terms of the pairs of samples found at a delay and of means over these pairs.
-/

namespace Cddm

/-- First background (a single background serves for both signals). -/
def Background.fst : Background → Cx ℝ
  | .one b => b
  | .two b _ => b
/-- Second background. -/
def Background.snd : Background → Cx ℝ
  | .one b => b
  | .two _ b => b
/-- The variance offset: the variance, or the mean of the two variances. -/
noncomputable def Variance.offset : Variance → ℝ
  | .one v => v
  | .two v w => (v + w) / 2

namespace Spec
variable {α β M : Type}

/-- The pairs of samples (first signal, second signal) filed in cell `k` of an array of length
`L`. -/
def pairsAt (full : Bool) (s1 : Stream α) (s2 : Stream β) (L k : Nat) : List (α × β) :=
  (if full then (s1 ×ˢ s2).filter fun p => delay p = cellDelay L k
    else (s1 ×ˢ s2).filter fun p => |delay p| = k).map fun p => (p.1.2, p.2.2)

/-- The unordered pairs of samples of one signal at time distance `k`. -/
def selfPairsAt (s : Stream α) (k : Nat) : List (α × α) :=
  ((selfPairs s).filter fun p => |delay p| = k).map fun p => (p.1.2, p.2.2)

/-- The same pairs, the earlier sample first. -/
def selfPairsFwdAt (s : Stream α) (k : Nat) : List (α × α) :=
  ((selfPairs s).filter fun p => |delay p| = k).map
    fun p => ((forward p).1.2, (forward p).2.2)

/-- Sum over pairs. -/
def total [AddCommMonoid M] (g : α → β → M) (P : List (α × β)) : M :=
  (P.map fun p => g p.1 p.2).sum

/-- Mean over pairs. -/
noncomputable def mean [AddCommMonoid M] [SMul ℝ M] (g : α → β → M) (P : List (α × β)) : M :=
  (1 / (P.length : ℝ)) • total g P

/-- A curve over `n` delays computed from the pairs `P k` at each delay `k`: `F (P k)` where there
are pairs, not a number where there are none. -/
def IsCurve (n : Nat) (P : Nat → List (α × β)) (F : List (α × β) → M) (out : List (Option M)) :
    Prop :=
  out.length = n ∧ ∀ k < n, (P k = [] → out[k]? = some none) ∧
    (P k ≠ [] → out[k]? = some (some (F (P k))))

end Spec
end Cddm
