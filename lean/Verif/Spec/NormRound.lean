import Verif.Model.NormRound
import Verif.Spec.Fastmath
import Verif.Spec.NormMulti

/-! # Specification vocabulary: rounding in normalization -/

namespace Cddm
namespace Spec

/-- Both parts replaced by their moduli. -/
noncomputable def moduli (a : Cx ℝ) : Cx ℝ := ⟨|a.re|, |a.im|⟩

/-- The formula of each norm (`normFormula`) with all numbers replaced by their moduli and all signs by plus; `V` in place of the variance. -/
noncomputable def normSize (b1 b2 : Cx ℝ) (V : ℝ) (z : Int) (P : List (Cx ℝ × Cx ℝ)) : ℝ :=
  if z = 1 then mean absProd P + absProd b1 b2
  else if z = 2 then V + (1 / 2) * mean absDist P + (1 / 2) * absDist b1 b2
  else if z = 5 ∨ z = 13 then mean (fun a b => absProd (moduli a + moduli b1) (moduli b + moduli b2)) P
  else if z = 6 ∨ z = 14 then V + (1 / 2) * mean (fun a b => absDist (moduli a + moduli b1) (moduli b + moduli b2)) P
  else if z = 9 then mean absProd P + absProd (mean (fun a _ => moduli a) P) (mean (fun _ b => moduli b) P)
  else V + (1 / 2) * mean absDist P + (1 / 2) * absDist (mean (fun a _ => moduli a) P) (mean (fun _ b => moduli b) P)

/-- The same for autocorrelations, with one background and one mean. -/
noncomputable def selfSize (b : Cx ℝ) (V : ℝ) (z : Int) (P : List (Cx ℝ × Cx ℝ)) : ℝ :=
  let μ := mean (fun a b => (1 / 2 : ℝ) • (moduli a + moduli b)) P
  if z = 9 then mean absProd P + absProd μ μ
  else if z = 10 then V + (1 / 2) * mean absDist P + (1 / 2) * absDist μ μ
  else normSize b b V z P

end Spec
end Cddm
