import Verif.Model.Kernels
import Verif.Model.Regular

/-!
# The kernels with `target = "parallel"`

With `NUMBA_PARALLEL` the kernels of cddm/_core_nb.py are compiled with `target = "parallel"` (cddm/conf.py:94-100): numba divides
the items (pixels) among workers that share the memory of the output array.  A kernel is a loop of executions of `out[m] += v`, which
is not atomic: the cell is read, then written.
-/

namespace Cddm

/-- The executions of `out[m] += v` of one call of a kernel, in this order (cddm/_core_nb.py:239-568); `none` if one of them is
outside of the array. -/
def runUpdates {V : Type} [Add V] (ups : List (Int × V)) (out : List V) : Option (List V) :=
  ups.foldlM (fun out u => addAt out u.1 u.2) out

/-- The memory and the workers that run the kernels with `target=NUMBA_TARGET` (cddm/_core_nb.py:245-568, cddm/conf.py:95-99). -/
structure KernState (A V : Type) (P T : Nat) where
  /-- the memory of the output array (cddm/_core_nb.py:300-308), by address -/
  mem : A → V
  /-- what is left to do for each item -/
  todo : Fin P → List (Int × V)
  /-- the value that a worker has read for its next update -/
  reg : Fin T → Option V
  /-- the items left to each worker; it works on the first -/
  queue : Fin T → List (Fin P)

section
variable {A V : Type} [DecidableEq A] [Add V] {P T : Nat}

/-- One step of worker `t` (cddm/_core_nb.py:308): go on to the next item, read a cell, or write the sum to it.  `addr p k` is the
address of cell `k` of the `L` cells of item `p`.  A complex cell is read and written as one value.  A worker that is done does nothing; an access outside of the cells of the item is
undefined, here the worker stops for ever. -/
def kernStep (addr : Fin P → Nat → A) (L : Nat) (s : KernState A V P T) (t : Fin T) : KernState A V P T :=
  match s.queue t with
  | [] => s
  | p :: rest =>
    match s.todo p with
    | [] => { s with queue := Function.update s.queue t rest }
    | (m, v) :: ups =>
      match pyIdx L m with
      | none => s
      | some k =>
        match s.reg t with
        | none => { s with reg := Function.update s.reg t (some (s.mem (addr p k))) }
        | some a => { s with
            mem := Function.update s.mem (addr p k) (a + v), todo := Function.update s.todo p ups,
            reg := Function.update s.reg t none }

/-- The steps of the workers in the order `sched` (cddm/_core_nb.py:300-308). -/
def kernRun (addr : Fin P → Nat → A) (L : Nat) (sched : List (Fin T)) (s : KernState A V P T) : KernState A V P T :=
  sched.foldl (kernStep addr L) s

/-- The start: item `p` is given to worker `share p` (numba gives every worker a range of items; here the division is arbitrary),
`ups p` are the updates that its kernel executes (cddm/_core_nb.py:239-568). -/
def kernStart (mem : A → V) (ups : Fin P → List (Int × V)) (share : Fin P → Fin T) : KernState A V P T :=
  ⟨mem, ups, fun _ => none, fun t => (List.finRange P).filter fun p => decide (share p = t)⟩

/-- A kernel with `target = "parallel"` (cddm/conf.py:94-100): the memory after the steps `sched`, or `none` as long as some worker
is not done (the function returns when all are). -/
def kernParallel (addr : Fin P → Nat → A) (L : Nat) (mem : A → V) (ups : Fin P → List (Int × V)) (share : Fin P → Fin T)
    (sched : List (Fin T)) : Option (A → V) :=
  let fin := kernRun addr L sched (kernStart mem ups share)
  if ∀ t, fin.queue t = [] then some fin.mem else none

end

section
variable {R : Type} [Add R] [Sub R] [Neg R] [Mul R]

/-- The updates of `_cross_corr` (cddm/_core_nb.py:300-308) on an array of `L` cells. -/
def crossCorrUpdates (L : Nat) (x y : List (Cx R)) (t1 t2 : List Int) : List (Int × R) :=
  (List.range x.length).flatMap fun i => (List.range y.length).flatMap fun j =>
    (do
      let m : Int := |(← t2[j]?) - (← t1[i]?)|
      let xi ← x[i]?
      let yj ← y[j]?
      some (if m < L then [(m, xi.re * yj.re + xi.im * yj.im)] else [])).getD []

/-- The updates of `_cross_corr_complex` (cddm/_core_nb.py:310-317). -/
def crossCorrComplexUpdates (L : Nat) (x y : List (Cx R)) (t1 t2 : List Int) : List (Int × Cx R) :=
  (List.range x.length).flatMap fun i => (List.range y.length).flatMap fun j =>
    (do
      let m : Int := (← t2[j]?) - (← t1[i]?)
      let xi ← x[i]?
      let yj ← y[j]?
      some (if |m| < ((L + 1) / 2 : Nat) then [(m, xi.conj * yj)] else [])).getD []

/-- The updates of `_auto_corr` (cddm/_core_nb.py:391-398). -/
def autoCorrUpdates (L : Nat) (f : List (Cx R)) (t : List Int) : List (Int × R) :=
  (List.range f.length).flatMap fun i => (List.range' i (f.length - i)).flatMap fun j =>
    (do
      let m : Int := |(← t[j]?) - (← t[i]?)|
      let fi ← f[i]?
      let fj ← f[j]?
      some (if m < L then [(m, fi.re * fj.re + fi.im * fj.im)] else [])).getD []

/-- The updates of `_auto_corr_complex` (cddm/_core_nb.py:400-413). -/
def autoCorrComplexUpdates (L : Nat) (f : List (Cx R)) (t : List Int) : List (Int × Cx R) :=
  (List.range f.length).flatMap fun i => (List.range' i (f.length - i)).flatMap fun j =>
    (do
      let m : Int := (← t[j]?) - (← t[i]?)
      let fi ← f[i]?
      let fj ← f[j]?
      some (if m ≥ 0 then (if m < L then [(m, fi.conj * fj)] else []) else (if |m| < L then [(|m|, fi * fj.conj)] else []))).getD []

/-- The updates of `_cross_diff` (cddm/_core_nb.py:435-444). -/
def crossDiffUpdates (L : Nat) (x y : List (Cx R)) (t1 t2 : List Int) : List (Int × R) :=
  (List.range x.length).flatMap fun i => (List.range y.length).flatMap fun j =>
    (do
      let m : Int := |(← t2[j]?) - (← t1[i]?)|
      let xi ← x[i]?
      let yj ← y[j]?
      some (if m < L then [(m, (yj - xi).re * (yj - xi).re + (yj - xi).im * (yj - xi).im)] else [])).getD []

/-- The updates of `_auto_diff` (cddm/_core_nb.py:476-484). -/
def autoDiffUpdates (L : Nat) (f : List (Cx R)) (t : List Int) : List (Int × R) :=
  (List.range f.length).flatMap fun i => (List.range' i (f.length - i)).flatMap fun j =>
    (do
      let m : Int := |(← t[j]?) - (← t[i]?)|
      let fi ← f[i]?
      let fj ← f[j]?
      some (if m < L then [(m, (fj - fi).re * (fj - fi).re + (fj - fi).im * (fj - fi).im)] else [])).getD []

/-- The updates of `_cross_sum` (cddm/_core_nb.py:502-508). -/
def crossSumUpdates {M : Type} (L : Nat) (f : List M) (t1 t2 : List Int) : List (Int × M) :=
  (List.range t1.length).flatMap fun i => (List.range t2.length).flatMap fun j =>
    (do
      let m : Int := |(← t2[j]?) - (← t1[i]?)|
      let fi ← f[i]?
      some (if m < L then [(m, fi)] else [])).getD []

/-- The updates of `_cross_sum_complex` (cddm/_core_nb.py:510-516). -/
def crossSumComplexUpdates {M : Type} (L : Nat) (f : List M) (t1 t2 : List Int) : List (Int × M) :=
  (List.range t1.length).flatMap fun i => (List.range t2.length).flatMap fun j =>
    (do
      let m : Int := (← t2[j]?) - (← t1[i]?)
      let fi ← f[i]?
      some (if |m| < ((L + 1) / 2 : Nat) then [(m, fi)] else [])).getD []

/-- The updates of `_cross_corr_add` (cddm/_core_nb.py:319-327) on cell `c`. -/
def crossCorrAddUpdates (xv yv : List (Cx R)) (c : Nat) : List (Int × R) :=
  (List.range xv.length).flatMap fun j =>
    (do
      let x ← xv[j]?
      let y ← yv[j]?
      some [((c : Int), x.re * y.re + x.im * y.im)]).getD []

/-- The updates of `_cross_corr_complex_add` (cddm/_core_nb.py:329-337) on cell `c`. -/
def crossCorrComplexAddUpdates (xv yv : List (Cx R)) (c : Nat) : List (Int × Cx R) :=
  (List.range xv.length).flatMap fun j =>
    (do
      let x ← xv[j]?
      let y ← yv[j]?
      some [((c : Int), y * x.conj)]).getD []

/-- The updates of `_cross_diff_add` (cddm/_core_nb.py:446-451) on cell `c`. -/
def crossDiffAddUpdates (xv yv : List (Cx R)) (c : Nat) : List (Int × R) :=
  (List.range xv.length).flatMap fun j =>
    (do
      let x ← xv[j]?
      let y ← yv[j]?
      some [((c : Int), (x - y).re * (x - y).re + (x - y).im * (x - y).im)]).getD []

/-- The updates of `_cross_corr_regular` (cddm/_core_nb.py:339-345). -/
def crossCorrRegularUpdates (L : Nat) (x y : List (Cx R)) : List (Int × R) :=
  (List.range L).flatMap fun (i : Nat) =>
    crossCorrAddUpdates (pyTake x ((x.length : Int) - i)) (pyDrop y i) i
      ++ if i > 0 then crossCorrAddUpdates (pyTake y ((x.length : Int) - i)) (pyDrop x i) i else []

/-- The updates of `_cross_corr_complex_regular` (cddm/_core_nb.py:347-354). -/
def crossCorrComplexRegularUpdates (L : Nat) (x y : List (Cx R)) : List (Int × Cx R) :=
  (List.range ((L + 1) / 2)).flatMap fun (i : Nat) =>
    crossCorrComplexAddUpdates (pyTake x ((x.length : Int) - i)) (pyDrop y i) i
      ++ if i > 0 then crossCorrComplexAddUpdates (pyDrop x i) (pyTake y ((x.length : Int) - i)) (L - i) else []

/-- The updates of `_auto_corr_regular` (cddm/_core_nb.py:356-360). -/
def autoCorrRegularUpdates (L : Nat) (x : List (Cx R)) : List (Int × R) :=
  (List.range L).flatMap fun (i : Nat) => crossCorrAddUpdates (pyDrop x i) (pyTake x ((x.length : Int) - i)) i

/-- The updates of `_auto_corr_complex_regular` (cddm/_core_nb.py:362-366). -/
def autoCorrComplexRegularUpdates (L : Nat) (x : List (Cx R)) : List (Int × Cx R) :=
  (List.range L).flatMap fun (i : Nat) => crossCorrComplexAddUpdates (pyTake x ((x.length : Int) - i)) (pyDrop x i) i

/-- The updates of `_cross_diff_regular` (cddm/_core_nb.py:453-459). -/
def crossDiffRegularUpdates (L : Nat) (x y : List (Cx R)) : List (Int × R) :=
  (List.range L).flatMap fun (i : Nat) =>
    crossDiffAddUpdates (pyDrop y i) (pyTake x ((x.length : Int) - i)) i
      ++ if i > 0 then crossDiffAddUpdates (pyTake y ((x.length : Int) - i)) (pyDrop x i) i else []

/-- The updates of `_auto_diff_regular` (cddm/_core_nb.py:470-474). -/
def autoDiffRegularUpdates (L : Nat) (x : List (Cx R)) : List (Int × R) :=
  (List.range L).flatMap fun (i : Nat) => crossDiffAddUpdates (pyDrop x i) (pyTake x ((x.length : Int) - i)) i

end

section
variable {M : Type} [Zero M] [Add M] [Sub M]

/-- The updates of `_cross_sum_regular` (cddm/_core_nb.py:519-532).  State: the updates so far, `prev`. -/
def crossSumRegularUpdates (L : Nat) (x : List M) : List (Int × M) :=
  ((forRange L (([] : List (Int × M)), (0 : M)) fun (ups, prev) i => do
    let n : Int := (x.length : Int) - i
    if i = 0 then
      let tmp ← plainSum x
      some (ups ++ [(0, tmp)], tmp + tmp)
    else
      let a ← pyGet x ((i : Int) - 1)
      let b ← pyGet x n
      let prev := prev - a - b
      some (ups ++ [((i : Int), prev)], prev)).map (·.1)).getD []

/-- The updates of `_cross_sum_complex_regular_inverted` (cddm/_core_nb.py:534-550).  State: the updates so far, `prev1`, `prev2`. -/
def crossSumComplexRegularInvertedUpdates (L : Nat) (x : List M) : List (Int × M) :=
  ((forRange ((L + 1) / 2) (([] : List (Int × M)), (0 : M), (0 : M)) fun (ups, prev1, prev2) i => do
    let n : Int := (x.length : Int) - i
    if i = 0 then
      let tmp ← plainSum x
      some (ups ++ [(0, tmp)], tmp, tmp)
    else
      let a ← pyGet x ((i : Int) - 1)
      let prev1 := prev1 - a
      let b ← pyGet x n
      let prev2 := prev2 - b
      some (ups ++ [((i : Int), prev1), (-(i : Int), prev2)], prev1, prev2)).map (·.1)).getD []

/-- The updates of `_cross_sum_complex_regular` (cddm/_core_nb.py:552-568).  State: the updates so far, `prev1`, `prev2`. -/
def crossSumComplexRegularUpdates (L : Nat) (x : List M) : List (Int × M) :=
  ((forRange ((L + 1) / 2) (([] : List (Int × M)), (0 : M), (0 : M)) fun (ups, prev1, prev2) i => do
    let n : Int := (x.length : Int) - i
    if i = 0 then
      let tmp ← plainSum x
      some (ups ++ [(0, tmp)], tmp, tmp)
    else
      let a ← pyGet x ((i : Int) - 1)
      let prev1 := prev1 - a
      let b ← pyGet x n
      let prev2 := prev2 - b
      some (ups ++ [((i : Int), prev2), (-(i : Int), prev1)], prev1, prev2)).map (·.1)).getD []

end

end Cddm
