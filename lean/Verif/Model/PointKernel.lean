import Verif.Model.Fft2

/-!
# The kernel of one wave vector (`cddm/map.py`)
-/

namespace Cddm

/-- `k_window = np.zeros(...)` and `k_window[ki,kj] = 1` (cddm/map.py:338-339); indices count from the end when
negative, and IndexError is raised beyond either end. -/
noncomputable def kWindow (h w : Nat) (ki kj : Int) : Py (Arr2 (Cx ℝ)) :=
  match resolveIdx h ki, resolveIdx w kj with
  | some i0, some j0 => .ok ⟨h, w, fun i j => if i = i0 ∧ j = j0 then 1 else 0⟩
  | _, _ => .error .indexError

/-- `k_point_kernel` (cddm/map.py:336-343).  Simplified: the window is a two-dimensional array (the assignment
`height, width = window.shape` raises ValueError for others), and the transform is exact. -/
noncomputable def kPointKernel (window : Arr2 (Cx ℝ)) (ki kj : Int) : Py (Arr2 (Cx ℝ)) := do
  let k ← kWindow window.h window.w ki kj
  let r ← npFft2 k
  .ok ⟨window.h, window.w, fun i j => r.get i j * window.get i j⟩

end Cddm
