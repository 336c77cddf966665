import Verif.Model.ParallelKernel

/-! # Specification vocabulary: kernels in parallel -/

namespace Cddm
namespace Spec

/-- The content of the `L` cells of item `p`. -/
def cellsOf {A V : Type} {P : Nat} (addr : Fin P → Nat → A) (L : Nat) (mem : A → V) (p : Fin P) : List V :=
  (List.range L).map fun k => mem (addr p k)

/-- Different cells, of one item or of two, have different addresses. -/
def SeparateCells {A : Type} {P : Nat} (addr : Fin P → Nat → A) (L : Nat) : Prop :=
  ∀ p q k l, k < L → l < L → addr p k = addr q l → p = q ∧ k = l

/-- `b` is the address of a cell of some item. -/
def IsCell {A : Type} {P : Nat} (addr : Fin P → Nat → A) (L : Nat) (b : A) : Prop := ∃ p k, k < L ∧ b = addr p k

end Spec
end Cddm
