import Verif.Model.Arr2

/-!
# Specification vocabulary: discrete frequencies
-/

namespace Cddm
namespace Spec

/-- The place of the (possibly negative) frequency `d` in an array of length `n`. -/
def wrap (n : Nat) (d : Int) : Nat := (d % (n : Int)).toNat

/-- Same shape and same values. -/
def SameArr {α : Type} (a b : Arr2 α) : Prop :=
  a.h = b.h ∧ a.w = b.w ∧ ∀ i j : Nat, i < a.h → j < a.w → a.get i j = b.get i j

/-- Spectrum of a real image: opposite wave vectors carry conjugate values. -/
def Hermitian {α : Type} (conj : α → α) (a : Arr2 α) : Prop :=
  ∀ i j : Nat, i < a.h → j < a.w →
    a.get (wrap a.h (-(i : Int))) (wrap a.w (-(j : Int))) = conj (a.get i j)

/-- A cutoff on an axis of `n` positive and negative frequencies: the frequencies `|d| ≤ K` are kept,
in an axis of length `N`.  No cutoff keeps everything. -/
def SignedCut (n : Nat) (kmax : Option Int) (K N : Nat) : Prop :=
  (kmax = none ∧ K = n / 2 ∧ N = n) ∨ (kmax = some (K : Int) ∧ K ≤ n / 2 ∧ N = 2 * K + 1)

/-- A cutoff on an axis of `n` non-negative frequencies. -/
def HalfCut (n : Nat) (kmax : Option Int) (K N : Nat) : Prop :=
  (kmax = none ∧ K + 1 = n ∧ N = n) ∨ (kmax = some (K : Int) ∧ K + 1 ≤ n ∧ N = K + 1)

end Spec
end Cddm
