import Verif.Model.Reshape

/-!
# Specification vocabulary: computations on every pixel
-/

namespace Cddm
namespace Spec

/-- The number of elements agrees with the shape. -/
def WellFormed {α : Type} (x : NdArr α) : Prop := x.data.length = x.shape.prod

/-- The time series of pixel `p` of an array of `n` times, when `inner` pixels are contiguous for each time: element
`t` is at `(p / inner * n + t) * inner + p % inner` in C order. -/
def series {α : Type} [Inhabited α] (data : List α) (n inner p : Nat) : List α :=
  (List.range n).map fun (t : Nat) => data.getD ((p / inner * n + t) * inner + p % inner) default

/-- A computation done for every pixel along axis `k`: for each of `lead` parts (levels) the results `g b` of
length `m` for the time series of every pixel, in an array of shape `lead`, pixels, `m`. -/
def perPixel {α β : Type} [Inhabited α] (lead : List Nat) (m : Nat) (g : Nat → List α → List β) (k : Nat)
    (x : NdArr α) : NdArr β :=
  ⟨lead ++ x.shape.eraseIdx k ++ [m], (List.range lead.prod).flatMap fun (b : Nat) =>
    (List.range (x.shape.eraseIdx k).prod).flatMap fun (p : Nat) =>
      g b (series x.data (x.shape.getD k 0) (x.shape.drop (k + 1)).prod p)⟩

/-- The same with `nan` for the pixels outside the mask (axis 0). -/
def perPixelMasked {α β : Type} [Inhabited α] (lead : List Nat) (m : Nat) (g : Nat → List α → List β) (nan : β)
    (mask : NdArr Bool) (x : NdArr α) : NdArr β :=
  ⟨lead ++ mask.shape ++ [m], (List.range lead.prod).flatMap fun (b : Nat) =>
    (List.range mask.shape.prod).flatMap fun (p : Nat) =>
      if mask.data.getD p false then g b (series x.data (x.shape.getD 0 0) mask.shape.prod p) else List.replicate m nan⟩

end Spec
end Cddm
