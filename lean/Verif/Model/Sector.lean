import Verif.Model.Rfft2
import Mathlib.Analysis.SpecialFunctions.Complex.Arg
import Mathlib.Algebra.Order.Floor.Defs

/-!
# Sector index maps (cddm/map.py)

Floating point numbers are real numbers; `kmap` and `anglemap` have the same shape (that of `kmap`).
-/

namespace Cddm

/-- Python's `x % m` of floats (cddm/map.py:80, 83, 143, 146): the result has the sign of `m`. -/
noncomputable def pyModR (x m : ℝ) : ℝ := x - m * ⌊x / m⌋

/-- All entries of an array (cddm/map.py:67, 130). -/
def Arr2.entries {α : Type} (a : Arr2 α) : List α :=
  (List.range a.h).flatMap fun i => (List.range a.w).map fun j => a.get i j

/-- `kmap.max()` (cddm/map.py:67, 130); ValueError for an empty array. -/
noncomputable def arrMax (a : Arr2 ℝ) : Py ℝ :=
  match a.entries with
  | [] => .error .valueError
  | x :: l => .ok (l.foldl max x)

/-- `np.arange(0, stop, step)` (cddm/map.py:68, 131).  What happens for `step = 0` depends on the
version of numpy and is not modelled. -/
noncomputable def arange0 (stop step : ℝ) : Py (List ℝ) :=
  if step = 0 then .error .notModelled
  else .ok ((List.range ⌈stop / step⌉₊).map fun (i : Nat) => i * step)

/-- The mask of directions (cddm/map.py:73-90 with `m = pi/2`, 136-153 with `m = pi`). -/
noncomputable def sectorMask (m angle sector : ℝ) (a : ℝ) : Prop :=
  let high := Real.pi / 180 * (angle + sector / 2)
  let low := Real.pi / 180 * (angle - sector / 2)
  if high > m then
    let low' := pyModR high (-m)
    let high' := low
    ¬ (a ≤ high' ∧ a > low')
  else if low < -m then
    let high' := pyModR low m
    let low' := high
    ¬ (a ≤ high' ∧ a > low')
  else a < high ∧ a ≥ low

open Classical in
/-- The loop over the rings (cddm/map.py:92-95, 155-158) at one cell of size `k`, direction mask
`f`: the last ring that contains `k` wins. -/
noncomputable def ringLoop (kstep k : ℝ) (f : Prop) : List ℝ → Nat → Int → Int
  | [], _, out => out
  | q :: qs, i, out =>
    ringLoop kstep k f qs (i + 1)
      (if (k ≤ q + kstep / 2 ∧ k > q - kstep / 2) ∧ f then (i : Int) else out)

/-- `fft2_sector_indexmap` (cddm/map.py:103-162). -/
noncomputable def fft2SectorIndexmap (kmap anglemap : Arr2 ℝ) (angle sector kstep : ℝ) :
    Py (Arr2 Int) :=
  if angle < -180 ∨ angle > 180 then .error .valueError
  else if sector ≤ 0 ∨ sector > 180 then .error .valueError
  else do
    let kmax ← arrMax kmap
    let ks ← arange0 (kmax + kstep) kstep
    .ok ⟨kmap.h, kmap.w, fun i j =>
      if i = 0 ∧ j = 0 then 0
      else ringLoop kstep (kmap.get i j) (sectorMask Real.pi angle sector (anglemap.get i j)) ks 0 (-1)⟩

/-- `sector_indexmap` (cddm/map.py:39-101). -/
noncomputable def sectorIndexmap (kmap anglemap : Arr2 ℝ) (angle sector kstep : ℝ) :
    Py (Arr2 Int) :=
  if angle < -90 ∨ angle > 90 then .error .valueError
  else if sector ≤ 0 ∨ sector > 180 then .error .valueError
  else do
    let kmax ← arrMax kmap
    let ks ← arange0 (kmax + kstep) kstep
    let half : Nat := kmap.h / 2 + 1
    .ok ⟨kmap.h, kmap.w, fun i j =>
      if i = 0 ∧ j = 0 then 0
      else if half ≤ i ∧ j = 0 then -1
      else ringLoop kstep (kmap.get i j) (sectorMask (Real.pi / 2) angle sector (anglemap.get i j))
        ks 0 (-1)⟩

/-- `_get_steps_size_half` and `_get_steps_size_full` (cddm/map.py:164-191) with `kisize` and
`kjsize` given: the steps along the two axes. -/
noncomputable def gridSteps (shape : Option (Nat × Nat)) : Py (ℝ × ℝ) :=
  match shape with
  | none => .ok (1, 1)
  | some (height, width) =>
    if height > width then
      if width = 0 then .error .zeroDivisionError else .ok (1, (height : ℝ) / width)
    else if height = 0 then .error .zeroDivisionError else .ok ((width : ℝ) / height, 1)

/-- `np.fft.fftfreq(n)*n` at index `i` (cddm/map.py:242, 247). -/
def fftfreqN (n i : Nat) : Int := if i < (n + 1) / 2 then i else i - n

/-- `np.arctan2(-y, x)` (cddm/map.py:196).  The grid never holds a negative zero, so `-y` is the
negative zero for `y = 0` and the result is -pi for `x < 0`. -/
noncomputable def arctan2Neg (y x : ℝ) : ℝ :=
  if y = 0 ∧ x < 0 then -Real.pi else Complex.arg ⟨x, -y⟩

/-- `_kangle` (cddm/map.py:193-196). -/
noncomputable def kangle (ki kj : ℝ) : ℝ × ℝ := (Real.sqrt (kj ^ 2 + ki ^ 2), arctan2Neg ki kj)

/-- `rfft2_kangle` (cddm/map.py:198-217, 240-243, 250-270), sizes given.  `np.fft.fftfreq(0)` divides
by zero. -/
noncomputable def rfft2Kangle (kisize kjsize : Nat) (shape : Option (Nat × Nat)) :
    Py (Arr2 ℝ × Arr2 ℝ) := do
  let (si, sj) ← gridSteps shape
  if kisize = 0 then .error .zeroDivisionError
  else
    let ki (i : Nat) : ℝ := fftfreqN kisize i * si
    let kj (j : Nat) : ℝ := j * sj
    .ok (⟨kisize, kjsize, fun i j => (kangle (ki i) (kj j)).1⟩,
      ⟨kisize, kjsize, fun i j => (kangle (ki i) (kj j)).2⟩)

/-- `fft2_kangle` (cddm/map.py:219-238, 245-248, 272-292), sizes given.  `np.fft.fftfreq` divides by
zero for size 0 and raises ValueError for a negative size. -/
noncomputable def fft2Kangle (kisize : Nat) (kjsize : Int) (shape : Option (Nat × Nat)) :
    Py (Arr2 ℝ × Arr2 ℝ) := do
  let (si, sj) ← gridSteps shape
  if kisize = 0 then .error .zeroDivisionError
  else if kjsize < 0 then .error .valueError
  else if kjsize = 0 then .error .zeroDivisionError
  else
    let w : Nat := kjsize.toNat
    let ki (i : Nat) : ℝ := fftfreqN kisize i * si
    let kj (j : Nat) : ℝ := fftfreqN w j * sj
    .ok (⟨kisize, w, fun i j => (kangle (ki i) (kj j)).1⟩,
      ⟨kisize, w, fun i j => (kangle (ki i) (kj j)).2⟩)

/-- `k_indexmap` (cddm/map.py:345-374). -/
noncomputable def kIndexmap (kisize kjsize : Nat) (angle sector kstep : ℝ)
    (shape : Option (Nat × Nat)) : Py (Arr2 Int) := do
  let (kmap, anglemap) ← rfft2Kangle kisize kjsize shape
  sectorIndexmap kmap anglemap angle sector kstep

/-- `fft2_k_indexmap` (cddm/map.py:558-591); `rfft2` tells whether `mode == "rfft2"`. -/
noncomputable def fft2KIndexmap (kisize kjsize : Nat) (angle sector kstep : ℝ)
    (shape : Option (Nat × Nat)) (rfft2 : Bool) : Py (Arr2 Int) := do
  let (h, w) ←
    if rfft2 then asFft2Shape (some kisize) (some kjsize) shape else .ok (kisize, (kjsize : Int))
  let (kmap, anglemap) ← fft2Kangle h w shape
  fft2SectorIndexmap kmap anglemap angle sector kstep

end Cddm
