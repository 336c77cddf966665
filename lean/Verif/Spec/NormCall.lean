import Verif.Spec.Norm
import Verif.Props.Ccorr

/-!
# Specification vocabulary: correlating and normalising in a row
-/

namespace Cddm
open Spec

/-- `normalize(ccorr(f1, f2, ...), ...)`. -/
noncomputable def ccorrNormalized (f1 f2 : List (Cx ℝ)) (t1 t2 : Option (List Int))
    (n : Option Nat) (norm : Option Int) (method : Option String) (aligned : Bool)
    (bg : Background) (var : Option Variance) (z : Int) (mode : String) (scale : Bool) :
    Py (List (Option ℝ)) := do
  let r ← ccorr f1 f2 t1 t2 n norm method aligned none none {}
  let out ← normalize normOpsR (r.toData (effMethod method n)) (some bg) var (some z) mode scale none
  .ok out.1

/-- `normalize(ccorr(f1, f2, ..., complex = True), ...)`. -/
noncomputable def ccorrNormalizedC (f1 f2 : List (Cx ℝ)) (t1 t2 : Option (List Int))
    (n : Option Nat) (norm : Option Int) (method : Option String) (aligned : Bool)
    (bg : Background) (var : Option Variance) (z : Int) (mode : String) (scale : Bool) :
    Py (List (Option (Cx ℝ))) := do
  let r ← ccorrComplex f1 f2 t1 t2 n norm method aligned none none {}
  let out ← normalize normOpsC (r.toData (effMethod method n)) (some bg) var (some z) mode scale none
  .ok out.1

/-- `normalize(acorr(f, ...), ...)`. -/
noncomputable def acorrNormalized (f : List (Cx ℝ)) (t : Option (List Int))
    (n : Option Nat) (norm : Option Int) (method : Option String) (aligned : Bool)
    (bg : Background) (var : Option Variance) (z : Int) (mode : String) (scale : Bool) :
    Py (List (Option ℝ)) := do
  let r ← acorr f t n norm method aligned none {}
  let out ← normalize normOpsR (r.toData (effMethod method n)) (some bg) var (some z) mode scale none
  .ok out.1

/-- `normalize(acorr(f, ..., complex = True), ...)`. -/
noncomputable def acorrNormalizedC (f : List (Cx ℝ)) (t : Option (List Int))
    (n : Option Nat) (norm : Option Int) (method : Option String) (aligned : Bool)
    (bg : Background) (var : Option Variance) (z : Int) (mode : String) (scale : Bool) :
    Py (List (Option (Cx ℝ))) := do
  let r ← acorrComplex f t n norm method aligned none {}
  let out ← normalize normOpsC (r.toData (effMethod method n)) (some bg) var (some z) mode scale none
  .ok out.1

/-- A call of `ccorr` for `n'` delays which is accepted and whose array lengths the kernels can
handle (see C18). -/
structure CrossCall (full : Bool) (N1 N2 : Nat) (t1 t2 : Option (List Int)) (n : Option Nat)
    (norm : Option Int) (method : Option String) (n' : Nat) : Prop where
  number : n' = n.getD (defaultN N1 t1 t2)
  accepted : ¬ CcorrRefused full method norm n N1 N2 t1 t2
  lengths : SafeLen full (effMethod method n) t1 (defaultN N1 t1 t2)
    (if full then 2 * n' - 1 else n')
  fft : effMethod method n = "fft" → Distinct t1 ∧ Distinct t2 ∧ N1 ≠ 0

/-- A call of `acorr` for `n'` delays: likewise, and no time stamp is repeated. -/
structure AutoCall (N : Nat) (t : Option (List Int)) (n : Option Nat)
    (norm : Option Int) (method : Option String) (n' : Nat) : Prop where
  number : n' = n.getD (defaultN N t t)
  accepted : ¬ AcorrRefused method norm n N t
  lengths : SafeLen false (effMethod method n) t (defaultN N t t) n'
  distinct : Distinct t
  fft : effMethod method n = "fft" → N ≠ 0

/-- The norm requested from `ccorr` makes it return the mean squares. -/
def AskSquares (norm : Option Int) (method : Option String) (n : Option Nat) (cross : Bool) : Prop :=
  WantsSquares (effNorm norm (effMethod method n) cross)
/-- The norm requested from `ccorr` makes it return the sums. -/
def AskSums (norm : Option Int) (method : Option String) (n : Option Nat) (cross : Bool) : Prop :=
  WantsSums (effNorm norm (effMethod method n) cross)

end Cddm
