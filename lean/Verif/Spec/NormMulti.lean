import Verif.Spec.Norm
import Verif.Spec.Multitau
import Verif.Model.NormMulti

/-!
# Specification vocabulary: normalised multiple tau data

The normalised value is a formula of the pairs of samples found at a delay.  In a slow level these are all the pairs of
samples taken from two blocks at the given distance.
-/

namespace Cddm
namespace Spec

/-- The complete blocks of `m` consecutive samples. -/
def blocks {α : Type} (m : Nat) (x : List α) : List (List α) :=
  (List.range (x.length / m)).map fun b => (x.drop (b * m)).take m

/-- All pairs of samples out of two blocks at block distance `k`. -/
def finePairs {α : Type} (m : Nat) (f1 f2 : List α) (n k : Nat) : List (α × α) :=
  (pairsAt false (regular (blocks m f1)) (regular (blocks m f2)) n k).flatMap fun p => p.1 ×ˢ p.2

/-- All pairs of samples out of two blocks of one signal at block distance `k` (or out of one block, for `k = 0`). -/
def selfFinePairs {α : Type} (m : Nat) (f : List α) (k : Nat) : List (α × α) :=
  (selfPairsAt (regular (blocks m f)) k).flatMap fun p => p.1 ×ˢ p.2

/-- The norms which are not weighted. -/
def PlainNorm (z : Int) : Prop := z ∈ [1, 2, 5, 6, 9, 10, 13, 14]

/-- Mean of the pairs' first / second members, and of both. -/
noncomputable def fstMean (P : List (Cx ℝ × Cx ℝ)) : Cx ℝ := mean (fun a _ => a) P
noncomputable def sndMean (P : List (Cx ℝ × Cx ℝ)) : Cx ℝ := mean (fun _ b => b) P
noncomputable def bothMean (P : List (Cx ℝ × Cx ℝ)) : Cx ℝ := mean (fun a b => (1 / 2 : ℝ) • (a + b)) P

/-- What each norm makes of the pairs at a delay: the mean product less that of the backgrounds (1), the same for the
deviations from the backgrounds (5, 13) or from the means (9); the structured norms compare the mean square distances
with the variance `v` instead (2; 6, 14; 10). -/
noncomputable def normFormula (b1 b2 c1 c2 : Cx ℝ) (v : ℝ) (z : Int) (P : List (Cx ℝ × Cx ℝ)) : ℝ :=
  if z = 1 then mean reProd P - reProd b1 b2
  else if z = 2 then v - (1 / 2) * mean dist2 P + (1 / 2) * dist2 b1 b2
  else if z = 5 ∨ z = 13 then mean (fun a b => reProd (a - b1) (b - b2)) P
  else if z = 6 ∨ z = 14 then v - (1 / 2) * mean (fun a b => dist2 (a - b1) (b - b2)) P
  else if z = 9 then mean (fun a b => reProd (a - c1) (b - c2)) P
  else v - (1 / 2) * mean (fun a b => dist2 (a - c1) (b - c2)) P

/-- Cross-correlation: two backgrounds, two means. -/
noncomputable def crossFormula (bg : Background) (v : ℝ) (z : Int) (P : List (Cx ℝ × Cx ℝ)) : ℝ :=
  normFormula bg.fst bg.snd (fstMean P) (sndMean P) v z P

/-- Auto-correlation: one mean. -/
noncomputable def autoFormula (bg : Background) (v : ℝ) (z : Int) (P : List (Cx ℝ × Cx ℝ)) : ℝ :=
  normFormula bg.fst bg.snd (bothMean P) (bothMean P) v z P

/-- The data contain the arrays the norm `z` needs, if they were computed for the norm `v`. -/
def Prepared (v z : Int) : Prop :=
  ((z = 2 ∨ z = 6 ∨ z = 10 ∨ z = 14) → WantsSquares v) ∧ (z ≠ 1 → z ≠ 2 → WantsSums v)

/-- Two data tuples of the same form: the same entries are None. -/
def SameForm {C : Type} : NormData C → NormData C → Prop
  | .corr _ _ sq s1 s2, .corr _ _ sq' s1' s2' =>
    sq.isSome = sq'.isSome ∧ s1.isSome = s1'.isSome ∧ s2.isSome = s2'.isSome
  | .diff _ _ s1 s2, .diff _ _ s1' s2' => s1.isSome = s1'.isSome ∧ s2.isSome = s2'.isSome
  | .other, .other => True
  | _, _ => False

end Spec

/-- `normalize` with a norm given by number or string. -/
noncomputable def normalizeArg {C : Type} [AddCommGroup C] [Module ℝ C] (ops : NormOps C) (data : NormData C)
    (background : Option Background) (variance : Option Variance) (norm : NormArg) (mode : String) (scale : Bool) :
    Py (List (Option C)) := do
  let r ← (match norm with
    | .num z => normalize ops data background variance z mode scale none
    | .str s => normalizeStr ops data background variance s mode scale none)
  .ok r.1

/-- `normalize_multi(ccorr_multi(f1, f2, ...), ...)`. -/
noncomputable def ccorrMultiNormalized (f1 f2 : List (Cx ℝ)) (t1 t2 : Option (List Int)) (levelSize : Nat)
    (norm : Option Int) (method : Option String) (period : Nat) (binning nlevel : Option Int) (al : Nat → Bool)
    (r : Nat → ℚ) (bg : Background) (var : Option Variance) (z : Int) (mode : String) (scale : Bool) :
    Py (List (Option ℝ) × List (List (Option ℝ))) := do
  let d ← ccorrMulti f1 f2 t1 t2 levelSize norm method period binning nlevel al r
  let m := method.getD "corr"
  normalizeMulti normOpsR (d.1.toData m) (d.2.map (CorrAout.toData m)) (some bg) var (.num (some z)) mode scale

/-- `normalize_multi(acorr_multi(f, ...), ...)`. -/
noncomputable def acorrMultiNormalized (f : List (Cx ℝ)) (t : Option (List Int)) (levelSize : Nat)
    (norm : Option Int) (method : Option String) (period : Nat) (binning nlevel : Option Int) (al : Nat → Bool)
    (r : Nat → ℚ) (bg : Background) (var : Option Variance) (z : Int) (mode : String) (scale : Bool) :
    Py (List (Option ℝ) × List (List (Option ℝ))) := do
  let d ← acorrMulti f t levelSize norm method period binning nlevel al r
  let m := method.getD "corr"
  normalizeMulti normOpsR (d.1.toData m) (d.2.map (CorrAout.toData m)) (some bg) var (.num (some z)) mode scale

end Cddm
