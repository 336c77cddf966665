import Verif.Model.MaskAny
import Verif.Spec.AnyAxisCcorr

/-! # What it means to compute on selected pixels only -/

namespace Cddm
namespace Spec
variable {C α : Type}

/-- Pixel `p` is selected. -/
def Selected (mask : Tensor Bool) (p : List Nat) : Prop := InShape p mask.shape ∧ mask.get p = true

/-- An array, if there is one, has the shape of the mask and one more axis, and is NaN at all pixels that are not selected. -/
def NanElsewhere (mask : Tensor Bool) (x : Option (Tensor (Option α))) : Prop :=
  ∀ y, x = some y → (∃ L, y.shape = mask.shape ++ [L]) ∧
    ∀ p, InShape p mask.shape → mask.get p = false → ∀ v ∈ along y mask.shape.length p, v = none

/-- The same of all arrays but the count. -/
def AllNanElsewhere (mask : Tensor Bool) (a : CorrMasked C) : Prop :=
  NanElsewhere mask a.cor ∧ NanElsewhere mask a.sq ∧ NanElsewhere mask a.ds1 ∧ NanElsewhere mask a.ds2

/-- The arrays hold at pixel `p` the rows of `b`, no NaN among them; the counts are those of `b`. -/
def HoldsAt (mask : Tensor Bool) (p : List Nat) (a : CorrMasked C) (b : CorrAout C) : Prop :=
  outAt mask.shape a.cor p = b.cor.map (List.map some) ∧ a.count = b.count ∧ outAt mask.shape a.sq p = b.sq.map (List.map some) ∧
  outAt mask.shape a.ds1 p = b.ds1.map (List.map some) ∧ outAt mask.shape a.ds2 p = b.ds2.map (List.map some)

/-- The function raises what it raises for any one selected pixel; or its arrays, linear and of each level, hold for each selected pixel what
it returns for that pixel, and NaN for all others. -/
def MaskedMulti (mask : Tensor Bool) (res : Py (CorrMasked C × List (CorrMasked C)))
    (one : List Nat → Py (CorrAout C × List (CorrAout C))) : Prop :=
  match res with
  | .error e => ∀ p, Selected mask p → one p = .error e
  | .ok r => AllNanElsewhere mask r.1 ∧ (∀ l ∈ r.2, AllNanElsewhere mask l) ∧
      ∀ p, Selected mask p → ∃ o, one p = .ok o ∧ HoldsAt mask p r.1 o.1 ∧ List.Forall₂ (HoldsAt mask p) r.2 o.2

/-- The mean and the variance have the shape of the mask and are NaN at all pixels that are not selected. -/
def StatNanElsewhere (mask : Tensor Bool) (s : Option (Tensor (Option (Cx ℝ)) × Tensor (Option ℝ))) : Prop :=
  ∀ m v, s = some (m, v) → m.shape = mask.shape ∧ v.shape = mask.shape ∧
    ∀ p, InShape p mask.shape → mask.get p = false → m.get p = none ∧ v.get p = none

/-- They hold at pixel `p` the mean and the variance `b`. -/
def StatHoldsAt (p : List Nat) (s : Option (Tensor (Option (Cx ℝ)) × Tensor (Option ℝ))) (b : Option (Cx ℝ × ℝ)) : Prop :=
  (s.map fun s => (s.1.get p, s.2.get p)) = b.map fun b => (some b.1, some b.2)

/-- The same as `MaskedMulti` for the iterative functions: as many items are taken as for any one selected pixel, and the statistics too hold
what is returned for the selected pixels and NaN for the others. -/
def MaskedIter (mask : Tensor Bool) (res : Py (Nat × IterOutMask C)) (one : List Nat → Py (Nat × IterOut C)) : Prop :=
  match res with
  | .error e => ∀ p, Selected mask p → one p = .error e
  | .ok r => AllNanElsewhere mask r.2.fast ∧ (∀ l ∈ r.2.slow, AllNanElsewhere mask l) ∧ (∀ s ∈ r.2.stats, StatNanElsewhere mask s) ∧
      ∀ p, Selected mask p → ∃ o, one p = .ok (r.1, o) ∧ HoldsAt mask p r.2.fast o.fast ∧
        List.Forall₂ (HoldsAt mask p) r.2.slow o.slow ∧ List.Forall₂ (StatHoldsAt p) r.2.stats o.stats

/-- The same for the functions that return the linear data only. -/
def MaskedLinear (mask : Tensor Bool)
    (res : Py (Nat × CorrMasked C × List (Option (Tensor (Option (Cx ℝ)) × Tensor (Option ℝ)))))
    (one : List Nat → Py (Nat × CorrAout C × List (Option (Cx ℝ × ℝ)))) : Prop :=
  match res with
  | .error e => ∀ p, Selected mask p → one p = .error e
  | .ok r => AllNanElsewhere mask r.2.1 ∧ (∀ s ∈ r.2.2, StatNanElsewhere mask s) ∧
      ∀ p, Selected mask p → ∃ o, one p = .ok (r.1, o) ∧ HoldsAt mask p r.2.1 o.1 ∧ List.Forall₂ (StatHoldsAt p) r.2.2 o.2

end Spec
end Cddm
