import Verif.Spec.Ccorr
import Verif.Model.Ccorr

/-!
# Specification vocabulary for multiple tau

The arrays a (cross- or auto-) correlation produces, written as sums over pairs of samples, and the
block averages that make up the slow levels.
-/

namespace Cddm
namespace Spec

/-- An array of `L` cells, cell `k` holding `δ L k`. -/
def cells {M : Type} (L : Nat) (δ : Nat → Nat → M) : List M := (List.range L).map (δ L)

instance (v : Int) : Decidable (WantsSquares v) := by unfold WantsSquares; infer_instance
instance (v : Int) : Decidable (WantsSums v) := by unfold WantsSums; infer_instance

/-- The cross-correlation arrays of length `L` (method `m`, norm `v`) of two streams: sums over all
pairs of samples filed in each cell.  `q1`, `q2` are the streams of squares. -/
noncomputable def crossData {C : Type} [AddCommMonoid C] (full : Bool) (g : Cx ℝ → Cx ℝ → C)
    (m : String) (v : Int) (L : Nat) (s1 s2 : Stream (Cx ℝ)) (q1 q2 : Stream ℝ) : CorrAout C where
  cor := some (cells L (cellSum full g s1 s2))
  count := some (cells L (cellSum full (fun _ _ => 1) s1 s2))
  sq := if WantsSquares v ∧ m ≠ "diff" then some (cells L (cellSum full (· + ·) q1 q2)) else none
  ds1 := if WantsSums v then some (cells L (cellSum full (fun a _ => a) s1 s2)) else none
  ds2 := if WantsSums v then some (cells L (cellSum full (fun _ b => b) s1 s2)) else none

/-- The auto-correlation arrays of length `L` of one stream, `g` being the product summed over the
unordered pairs at each delay: the square sum adds `|a|² + |b|²`, the signal sum `(a + b)/2`. -/
noncomputable def autoData (g : Cx ℝ → Cx ℝ → ℝ) (m : String) (v : Int) (L : Nat)
    (s : Stream (Cx ℝ)) (q : Stream ℝ) : CorrAout ℝ where
  cor := some (cells L fun _ => selfSum g s)
  count := some (cells L fun _ => selfSum (fun _ _ => 1) s)
  sq := if WantsSquares v ∧ m ≠ "diff" then some (cells L fun _ => selfSum (· + ·) q) else none
  ds1 := if WantsSums v then
    some (cells L fun _ => selfSum (fun a b => (1 / 2 : ℝ) • (a + b)) s) else none
  ds2 := none

/-- What is summed: `|b - a|²` for method 'diff', else the real part of `conj(a) b`. -/
noncomputable def productOf (m : String) : Cx ℝ → Cx ℝ → ℝ := if m = "diff" then dist2 else reProd

variable {V : Type} [AddCommGroup V] [Module ℝ V]

/-- Mean of block number `b` of `m` consecutive samples. -/
noncomputable def blockMean (m : Nat) (x : List V) (b : Nat) : V :=
  (1 / m : ℝ) • ((x.drop (b * m)).take m).sum

/-- The means of all complete blocks of `m` consecutive samples. -/
noncomputable def blockMeans (m : Nat) (x : List V) : List V :=
  (List.range (x.length / m)).map (blockMean m x)

/-- The first samples of all blocks of `m` samples, the last block possibly incomplete. -/
def blockFirsts {α : Type} (m : Nat) (x : List α) : List α :=
  (List.range ((x.length + m - 1) / m)).filterMap fun b => x[b * m]?

/-- Arguments of `ccorr_multi` for `L` linear delays: valid arguments, and, for regular data or method 'fft', delays within
the data span. -/
structure CrossArgs (m : String) (v : Int) (N1 N2 : Nat) (t1 t2 : Option (List Int)) (L : Nat) :
    Prop where
  method : m = "corr" ∨ m = "fft" ∨ m = "diff"
  norm : SupportedNorm m true v
  valid : ValidCross N1 N2 t1 t2
  span : m = "fft" ∨ t1 = none → L ≤ defaultN N1 t1 t2 + 1
  fft : m = "fft" → 1 ≤ L ∧ Distinct t1 ∧ Distinct t2

/-- Likewise for `acorr_multi`; no time stamp is repeated. -/
structure AutoArgs (m : String) (v : Int) (N : Nat) (t : Option (List Int)) (L : Nat) : Prop where
  method : m = "corr" ∨ m = "fft" ∨ m = "diff"
  norm : SupportedNorm m false v
  valid : ValidAuto N t
  distinct : Distinct t
  span : m = "fft" ∨ t = none → L ≤ defaultN N t t + 1
  fft : m = "fft" → 1 ≤ L

/-- One sample of each complete block of `m` samples: the one at offset `o`. -/
def blockPicks {α : Type} (m o : Nat) (x : List α) : List α :=
  (List.range (x.length / m)).filterMap fun b => x[b * m + o]?

end Spec
end Cddm
