import Verif.Model.Multitau

/-!
# Iterative multiple tau: `_compute_multi_iter` (`cddm/multitau.py`)

One pixel, exact arithmetic over `ℝ`, as in `Model/Multitau`.  The iterable is a list of frames (or
of pairs of frames); its `len` is an argument, since iterators need not have one.  Random numbers
are an argument: `r i` is the number drawn for frame `i` (also with `auto_background`, where the
numbers for the first chunk are drawn when that chunk is complete), `r (nframes + k)` the one drawn
for round `k` of the loop that processes the rest.  New arrays of `np.empty` hold arbitrary values,
given by the argument `junk`.  Not modelled: masks, printing; frames of many pixels, `thread_divisor` and
reshaping are in `Model/IterAny`.  The
intermediate yields, the viewer and `stats = False` are in `Model/IterYield`.
-/

namespace Cddm

/-! ### Buffers -/

section buffer
variable {V : Type} [AddCommGroup V] [Module ℝ V]

/-- `out[j, k, ...] = x` for an array of shape `(n_decades, chunk_size)` (cddm/multitau.py:407-443). -/
def setBuf (out : List (List V)) (j : Nat) (k : Nat) (x : V) : Py (List (List V)) :=
  match out[j]? with
  | none => .error .indexError
  | some row => if k < row.length then .ok (out.set j (row.set k x)) else .error .indexError

/-- `out[j, k, ...]` (cddm/multitau.py:424-439); a negative `k` counts from the end. -/
def getBuf (out : List (List V)) (j : Nat) (k : Int) : Py V :=
  match out[j]? with
  | none => .error .indexError
  | some row =>
    match pyGet row k with
    | none => .error .indexError
    | some v => .ok v

/-- The value written to level `j` (cddm/multitau.py:424-439): `x` is the later, `out[j-1, top-1]`
the earlier of the two samples of level `j-1`; `_mean` is `0.5*(a+b)` (cddm/_core_nb.py:27-35). -/
noncomputable def combineBin (binning : Int) (r : ℚ) (out : List (List V)) (j top : Nat) (x : V) :
    Py V :=
  if binning = 1 then do
    let y ← getBuf out (j - 1) (top - 1 : Int)
    .ok ((1 / 2 : ℝ) • (x + y))
  else if binning = 2 then
    if r > 1 / 2 then .ok x else getBuf out (j - 1) (top - 1 : Int)
  else .ok x

/-- The loop over levels of `_add_data1` (cddm/multitau.py:418-443), `k` levels to go, the next one
is `j`; `c` is the length of the buffer. -/
noncomputable def addLevels (binning : Int) (r : ℚ) (i c : Nat) :
    Nat → Nat → Nat → V → List (List V) → Py (List (List V))
  | 0, _, _, _, out => .ok out
  | k + 1, j, top, x, out =>
    if (i + 1) % 2 ^ j = 0 then do
      let low := (i / 2 ^ j) % c
      let y ← combineBin binning r out j top x
      let out ← setBuf out j low y
      addLevels binning r i c k (j + 1) low y out
    else .ok out

/-- `_add_data1` (cddm/multitau.py:407-443) with `OPTIMIZE_LAYOUT = False` (cddm/multitau.py:405).
`_add_data2` (cddm/multitau.py:446-495) does the same for two signals with the same random number
and is modelled as two calls. -/
noncomputable def addData (i : Nat) (x : V) (out : List (List V)) (binning : Int) (r : ℚ) :
    Py (List (List V)) := do
  let c := (out.headD []).length
  if c = 0 then .error .zeroDivisionError
  else
    let out ← setBuf out 0 (i % c) x
    addLevels binning r i c (out.length - 1) 1 (i % c) x out

/-- `np.empty((rows, len))` (cddm/multitau.py:649-657): arbitrary values. -/
def junkBuf (junk : Nat → Nat → V) (rows len : Nat) : List (List V) :=
  (List.range rows).map fun j => (List.range len).map (junk j)

/-- `_sliced_data(data, j, start, start + len)` (cddm/multitau.py:684-688). -/
def bufSlice (out : List (List V)) (j start len : Nat) : Py (List V) :=
  match out[j]? with
  | none => .error .indexError
  | some row => .ok ((row.drop start).take len)

end buffer

/-! ### What one frame does to one channel -/

/-- The variables of one of the two signals: `fdata1`, `sq1`, `bg1`, `sum1`, `sqsum1` and
`(out_bg1, out_var1)` (`none` until first written) (cddm/multitau.py:805-817). -/
structure Chan where
  f : List (List (Cx ℝ))
  sq : Option (List (List ℝ))
  bg : Option (Cx ℝ)
  sum : Cx ℝ
  sqsum : ℝ
  stat : Option (Cx ℝ × ℝ)

/-- `_add_data1(i, x, fdata)` and `_add_sq1(i, x, sq)` (cddm/multitau.py:846-855, 700-708,
710-714). -/
noncomputable def addBoth (i : Nat) (x : Cx ℝ) (binning : Int) (r : ℚ) (ch : Chan) : Py Chan := do
  let f ← addData i x ch.f binning r
  match ch.sq with
  | none => .ok { ch with f := f }
  | some sq => do
    let sq ← addData i x.abs2 sq binning r
    .ok { ch with f := f, sq := some sq }

/-- `_remove_background` (cddm/multitau.py:691-708), from frame `i` on, `k` frames to go. -/
noncomputable def removeBackground (bg : Cx ℝ) (binning : Int) (r : Nat → ℚ) :
    Nat → Nat → Chan → Py Chan
  | 0, _, ch => .ok ch
  | k + 1, i, ch => do
    let y ← getBuf ch.f 0 i
    let ch ← addBoth i (y - bg) binning (r i) ch
    removeBackground bg binning r k (i + 1) ch

/-- `x1 - bg1` if there is a background (cddm/multitau.py:838-841). -/
noncomputable def subtractBg (bg : Option (Cx ℝ)) (x : Cx ℝ) : Cx ℝ :=
  match bg with
  | none => x
  | some bg => x - bg

/-- Store one frame, subtracting the background (cddm/multitau.py:824-855);
`_calculate_background` is the mean of the first half-chunk (cddm/multitau.py:677-682). -/
noncomputable def storeFrame (autoBackground : Bool) (half : Nat) (binning : Int) (r : Nat → ℚ)
    (i : Nat) (x : Cx ℝ) (ch : Chan) : Py Chan :=
  if i < half ∧ autoBackground = true then do
    let f ← setBuf ch.f 0 i x
    let ch := { ch with f := f }
    if i = half - 1 then do
      let s ← bufSlice f 0 0 half
      let bg : Cx ℝ := (1 / (half : ℝ)) • s.sum
      removeBackground bg binning r half 0 { ch with bg := some bg }
    else .ok ch
  else
    addBoth i (subtractBg ch.bg x) binning (r i) ch

/-- `_calc_stats` and the following lines (cddm/multitau.py:549-553, 873-887;
`_calc_stats_vec`, cddm/_core_nb.py:279-282), at the end of half-chunk number `ichunk`. -/
noncomputable def chunkStats (half ichunk : Nat) (ch : Chan) : Py Chan := do
  let s ← bufSlice ch.f 0 (half * (ichunk % 2)) half
  let sum := ch.sum + s.sum
  let sqsum := ch.sqsum + (s.map Cx.abs2).sum
  let divisor : ℝ := ((ichunk + 1) * half : Nat)
  let mean := (1 / divisor) • sum
  .ok { ch with sum := sum, sqsum := sqsum, stat := some (mean, sqsum / divisor - mean.abs2) }

/-- One frame of one channel, with the statistics if it completes a half-chunk
(cddm/multitau.py:824-887). -/
noncomputable def feedChan (autoBackground : Bool) (half : Nat) (binning : Int) (r : Nat → ℚ)
    (i : Nat) (x : Cx ℝ) (ch : Chan) : Py Chan := do
  let ch ← storeFrame autoBackground half binning r i x ch
  if i % half = half - 1 then chunkStats half (i / half) ch else .ok ch

/-- `_init_data_f`, `_init_data_sq`, `_init_data_stats` (cddm/multitau.py:636-667). -/
def initChan (junk : Nat → Nat → Cx ℝ) (junkSq : Nat → Nat → ℝ) (nDecades half : Nat)
    (squares : Bool) : Chan :=
  let rows := if nDecades > 0 then nDecades else 1
  let len := if nDecades > 0 then half * 2 else half
  { f := junkBuf junk rows len
    sq := if squares then some (junkBuf junkSq rows len) else none
    bg := none, sum := 0, sqsum := 0, stat := none }

/-! ### Correlating the chunks -/

/-- What does not change during the run (set in cddm/multitau.py:716-775). -/
structure IterCfg where
  half : Nat
  nDecades : Nat
  nframes : Nat
  nlevel : Nat
  nFast : Nat
  nSlow : Nat
  norm : Nat
  method : String
  binning : Int
  full : Bool
  autoBackground : Bool

/-- `x[start:start+len]` of the times (cddm/multitau.py:886-949). -/
def sliceT (x : List Int) (start len : Nat) : List Int := (x.drop start).take len

/-- A half-chunk of one signal, and of its squares (absent if there are none) (cddm/multitau.py:889-895). -/
structure Half where
  f : List (Cx ℝ)
  sq : Option (List ℝ)

/-- `_sliced_data(fdata, j, start, start + len)` and the same for the squares
(cddm/multitau.py:889-890, 895 and others). -/
def readHalf (ch : Chan) (j start len : Nat) : Py Half := do
  let f ← bufSlice ch.f j start len
  match ch.sq with
  | none => .ok ⟨f, none⟩
  | some sq => do
    let s ← bufSlice sq j start len
    .ok ⟨f, some s⟩

/-- Start of half-chunk `q` in the buffer (cddm/multitau.py:861-862, 959-960). -/
def chunkStart (half q : Nat) : Nat := half * (q % 2)
/-- Start of the half-chunk before `q` (cddm/multitau.py:864-865, 962-963). -/
def chunkStartPrev (half q : Nat) : Nat := half * ((q - 1 : Int) % 2).toNat

/-- The calls of `ccorr` for half-chunk `q` of level `j`: `cur` with itself and, if `prev` is given,
with the previous half-chunk, both orders, added to the arrays `row`
(cddm/multitau.py:886-949 for level 0, 979-1027 for the others). -/
noncomputable def crossCalls {C : Type} (cc : CrossFn C) (cfg : IterCfg) (t1 t2 : List Int)
    (al : Bool) (j q : Nat) (cur : Half × Half) (prev : Option (Half × Half)) (row : CorrAout C) :
    Py (CorrAout C) := do
  let h := cfg.half
  let self1 := if j = 0 then some (sliceT t1 (q * h) h) else none
  let self2 := if j = 0 then some (sliceT t2 (q * h) h) else none
  let n := if j = 0 then cfg.nFast else cfg.nSlow
  let d ← cc cur.1.f cur.2.f self1 self2 (some n) (some cfg.norm) (some cfg.method) al
    cur.1.sq cur.2.sq row
  let row := d.into row
  match prev with
  | none => .ok row
  | some prev => do
    let tt1 := if j = 0 then t1 else arange cfg.nframes
    let tt2 := if j = 0 then t2 else arange cfg.nframes
    let d ← cc cur.1.f prev.2.f (some (sliceT tt1 (q * h) h)) (some (sliceT tt2 (q * h - h) h))
      (some cfg.nFast) (some cfg.norm) (some cfg.method) al cur.1.sq prev.2.sq row
    let row := d.into row
    let d ← cc prev.1.f cur.2.f (some (sliceT tt1 (q * h - h) h)) (some (sliceT tt2 (q * h) h))
      (some cfg.nFast) (some cfg.norm) (some cfg.method) al prev.1.sq cur.2.sq row
    .ok (d.into row)

/-- Cross-correlation of half-chunk `q` of level `j` (cddm/multitau.py:857-949 for level 0, 954-1027
for the others): the previous half-chunk is used in mode 'full', if there is one. -/
noncomputable def crossOp {C : Type} (cc : CrossFn C) (cfg : IterCfg) (t1 t2 : List Int) (al : Bool)
    (ch : Chan × Chan) (j q : Nat) (row : CorrAout C) : Py (CorrAout C) := do
  let h := cfg.half
  let cur1 ← readHalf ch.1 j (chunkStart h q) h
  let cur2 ← readHalf ch.2 j (chunkStart h q) h
  if q ≥ 1 ∧ cfg.full = true then do
    let prev1 ← readHalf ch.1 j (chunkStartPrev h q) h
    let prev2 ← readHalf ch.2 j (chunkStartPrev h q) h
    crossCalls cc cfg t1 t2 al j q (cur1, cur2) (some (prev1, prev2)) row
  else crossCalls cc cfg t1 t2 al j q (cur1, cur2) none row

/-- `a += b` for arrays of the same length (cddm/multitau.py:933-943, 1003-1013); numpy would also accept a `b` of length 1, which is not
modelled. -/
def npAdd {M : Type} [Add M] (a b : List M) : Py (List M) :=
  if a.length = b.length then .ok (List.zipWith (· + ·) a b)
  else if b.length = 1 then .error .notModelled
  else .error .valueError

/-- `if a is not None: a += b` where `b` is another part of a tuple (cddm/multitau.py:933-943). -/
def npAddOpt {M : Type} [Add M] (a b : Option (List M)) : Py (Option (List M)) :=
  match a, b with
  | none, _ => .ok none
  | some _, none => .error .typeError
  | some a, some b => do
    let s ← npAdd a b
    .ok (some s)

/-- The result of the cross-correlation of a half-chunk with the previous one is added to the
arrays of an auto-correlation, the first `n` cells of each (cddm/multitau.py:933-943,
1003-1013). -/
noncomputable def addCrossToAuto {C : Type} [Add C] (n : Nat) (row : CorrAout C) (d : CorrTuple C) :
    Py (CorrAout C) := do
  let cor ← npAddOpt row.cor (some (d.cor.take n))
  let count ← npAddOpt row.count (some (d.count.take n))
  let sq ← npAddOpt row.sq (d.sq.map (·.take n))
  let ds1 ← npAddOpt row.ds1 (d.ds1.map fun x => (x.take n).map ((1 / 2 : ℝ) • ·))
  let ds1 ← npAddOpt ds1 (d.ds2.map fun x => (x.take n).map ((1 / 2 : ℝ) • ·))
  .ok ⟨cor, count, sq, ds1, row.ds2⟩

/-- The calls for half-chunk `q` of level `j`, auto-correlation: `acorr` of `cur` and, if `prev` is
given, `ccorr` of `cur` with it (cddm/multitau.py:886-943 for level 0, 979-1013 for the others). -/
noncomputable def autoCalls {C : Type} [Add C] (ac : AutoFn C) (cc : CrossFn C) (cfg : IterCfg)
    (t : List Int) (al : Bool) (j q : Nat) (cur : Half) (prev : Option Half) (row : CorrAout C) :
    Py (CorrAout C) := do
  let h := cfg.half
  let self := if j = 0 then some (sliceT t (q * h) h) else none
  let n := if j = 0 then cfg.nFast else cfg.nSlow
  let d ← ac cur.f self (some n) (some cfg.norm) (some cfg.method) al cur.sq row
  let row := d.into row
  match prev with
  | none => .ok row
  | some prev => do
    let tt := if j = 0 then t else arange cfg.nframes
    let d ← cc cur.f prev.f (some (sliceT tt (q * h) h)) (some (sliceT tt (q * h - h) h))
      (some cfg.nFast) (some cfg.norm) (some cfg.method) al cur.sq prev.sq {}
    addCrossToAuto n row d

/-- Auto-correlation of half-chunk `q` of level `j` (cddm/multitau.py:857-943 for level 0, 954-1013
for the others). -/
noncomputable def autoOp {C : Type} [Add C] (ac : AutoFn C) (cc : CrossFn C) (cfg : IterCfg)
    (t : List Int) (al : Bool) (ch : Chan) (j q : Nat) (row : CorrAout C) : Py (CorrAout C) := do
  let h := cfg.half
  let cur ← readHalf ch j (chunkStart h q) h
  if q ≥ 1 ∧ cfg.full = true then do
    let prev ← readHalf ch j (chunkStartPrev h q) h
    autoCalls ac cc cfg t al j q cur (some prev) row
  else autoCalls ac cc cfg t al j q cur none row

/-! ### The main loop -/

/-- The arrays `data_fast` and `data_slow` (one entry per level) (cddm/multitau.py:558-634). -/
structure IterAcc (C : Type) where
  fast : CorrAout C
  slow : List (CorrAout C)

/-- The loop over levels at the end of a half-chunk (cddm/multitau.py:952-1029): `k` levels to go,
the next is `j`.  `op j q` correlates half-chunk `q` of level `j`. -/
noncomputable def slowLevels {C : Type} (op : Nat → Nat → CorrAout C → Py (CorrAout C))
    (half i : Nat) : Nat → Nat → List (CorrAout C) → Py (List (CorrAout C))
  | 0, _, slow => .ok slow
  | k + 1, j, slow =>
    if i % (half * 2 ^ j) = half * 2 ^ j - 1 then
      match slow[j - 1]? with
      | none => .error .indexError
      | some row => do
        let row ← op j (i / (half * 2 ^ j)) row
        slowLevels op half i k (j + 1) (slow.set (j - 1) row)
    else .ok slow

/-- One round of the main loop (cddm/multitau.py:772-1043): `feed` stores the frame. -/
noncomputable def iterStep {C B D : Type} (cfg : IterCfg) (feed : Nat → D → B → Py B)
    (op : B → Nat → Nat → CorrAout C → Py (CorrAout C)) (i : Nat) (x : D) (s : B × IterAcc C) :
    Py (B × IterAcc C) := do
  let b ← feed i x s.1
  if i % cfg.half = cfg.half - 1 then do
    let fast ← op b 0 (i / cfg.half) s.2.fast
    let slow ← slowLevels (op b) cfg.half i (cfg.nDecades - 1) 1 s.2.slow
    .ok (b, ⟨fast, slow⟩)
  else .ok (b, s.2)

/-- `for i, d in enumerate(data): if i == nframes: break; ...` (cddm/multitau.py:772-774): the
number of items taken from the iterator, and the final state. -/
def enumLoop {D S : Type} (nframes : Nat) (step : Nat → D → S → Py S) :
    Nat → List D → S → Py (Nat × S)
  | i, [], s => .ok (i, s)
  | i, d :: ds, s =>
    if i = nframes then .ok (i + 1, s)
    else do
      let s ← step i d s
      enumLoop nframes step (i + 1) ds s

/-- The loop processing the rest, cross-correlation (cddm/multitau.py:1051-1072): `k` levels to go,
the next is `j`. -/
noncomputable def restCross {C : Type} (cc : CrossFn C) (cfg : IterCfg) (al : Bool) (r : Nat → ℚ) :
    Nat → Nat → Nat → List (Cx ℝ) → List (Cx ℝ) → Option (List ℝ) → Option (List ℝ) →
      List (CorrAout C) → Py (List (CorrAout C))
  | 0, _, _, _, _, _, _, slow => .ok slow
  | k + 1, j, d, f1, f2, sq1, sq2, slow => do
    let f1 := binData cfg.binning (r d) f1
    let f2 := binData cfg.binning (r d) f2
    let sq1 := sq1.map (binData cfg.binning (r d))
    let sq2 := sq2.map (binData cfg.binning (r d))
    match slow[j - 1]? with
    | none => .error .indexError
    | some row => do
      let c ← cc f1 f2 none none (some cfg.nSlow) (some cfg.norm) (some cfg.method) al sq1 sq2 row
      restCross cc cfg al r k (j + 1) (d + 1) f1 f2 sq1 sq2 (slow.set (j - 1) (c.into row))

/-- The loop processing the rest, auto-correlation (cddm/multitau.py:1051-1074). -/
noncomputable def restAuto {C : Type} (ac : AutoFn C) (cfg : IterCfg) (al : Bool) (r : Nat → ℚ) :
    Nat → Nat → Nat → List (Cx ℝ) → Option (List ℝ) → List (CorrAout C) → Py (List (CorrAout C))
  | 0, _, _, _, _, slow => .ok slow
  | k + 1, j, d, f, sq, slow => do
    let f := binData cfg.binning (r d) f
    let sq := sq.map (binData cfg.binning (r d))
    match slow[j - 1]? with
    | none => .error .indexError
    | some row => do
      let c ← ac f none (some cfg.nSlow) (some cfg.norm) (some cfg.method) al sq row
      restAuto ac cfg al r k (j + 1) (d + 1) f sq (slow.set (j - 1) (c.into row))

/-! ### Parameters -/

/-- The loop of `_default_chunk_size` (cddm/multitau.py:519-521). -/
def halveChunk (levelSize c : Nat) : Nat :=
  if h : c / 2 ≥ levelSize ∧ c > 128 then halveChunk levelSize (c / 2) else c
termination_by c

/-- `_default_chunk_size` (cddm/multitau.py:513-526). -/
def defaultChunkSize (chunkSize : Option Nat) (count levelSize : Nat) : Py Nat :=
  if levelSize > count then .error .valueError
  else
    let c := chunkSize.getD (halveChunk levelSize count)
    if c > count then .error .valueError
    else if c < levelSize then .error .valueError
    else .ok c

/-- `_inspect_t1_t2_count` (cddm/multitau.py:528-546); `dataLen` is `len(data)`, `none` if the
iterable has none. -/
def inspectT1T2Count (t1 t2 : Option (List Int)) (count dataLen : Option Nat) :
    Py (List Int × List Int × Nat) :=
  let r : Py (List Int × Option Nat) :=
    match t1 with
    | none =>
      match count, dataLen with
      | some c, _ => .ok (arange c, some c)
      | none, some c => .ok (arange c, some c)
      | none, none => .error .valueError
    | some t1 => .ok (t1, count)
  match r with
  | .error e => .error e
  | .ok (t1, count) =>
    let count := count.getD t1.length
    let t2 := t2.getD t1
    if count > t1.length then .error .valueError
    else if t1.length ≠ t2.length then .error .valueError
    else .ok (t1, t2, count)

/-- The number of levels held in the buffers, the number of frames and the number of slow levels
(cddm/multitau.py:740-766).  For level size 0 the loop over `n_decades_max` does not end (or the
one before divides by zero): not modelled. -/
def iterSizes (count half levelSize : Nat) (nlevel : Option Int) : Py (Nat × Nat × Nat) :=
  if levelSize = 0 then .error .notModelled
  else
    let nd := whileUp (fun d => decide (count / (2 * half * 2 ^ d) > 0)) (count + 1) 0
    let nframes := if nd = 0 then half else 2 ^ (nd - 1) * (2 * half)
    let ndMax := whileUp (fun d => decide (nframes / 2 ^ d ≥ levelSize)) (nframes + 1) 0
    match nlevel with
    | none => .ok (nd, nframes, ndMax - 1)
    | some l =>
      let nd : Int := min (l + 1) ndMax
      if nd < 1 then .error .valueError
      else .ok (nd.toNat, nframes, (min l (ndMax - 1)).toNat)

/-- All parameters but the norm (cddm/multitau.py:722-768). -/
def iterParams (t1 t2 : Option (List Int)) (dataLen : Option Nat) (period levelSize : Nat)
    (chunkSize : Option Nat) (binning : Option Int) (method : Option String) (count : Option Nat)
    (autoBackground : Bool) (nlevel : Option Int) (mode : String) :
    Py (List Int × List Int × IterCfg) := do
  if mode ≠ "full" ∧ mode ≠ "chunk" then .error .valueError
  else do
    let (method, binning) ← defaultMethodBinning method binning
    let (t1, t2, count) ← inspectT1T2Count t1 t2 count dataLen
    let half ← defaultChunkSize chunkSize count levelSize
    let (nd, nframes, nlevel) ← iterSizes count half levelSize nlevel
    let cfg : IterCfg :=
      { half := half
        nDecades := nd
        nframes := nframes
        nlevel := nlevel
        nFast := period * levelSize
        nSlow := levelSize
        norm := 0
        method := method
        binning := binning
        full := decide (mode = "full")
        autoBackground := autoBackground }
    .ok (t1, t2, cfg)

/-- `2*n - 1` cells if `complex and cross` (cddm/multitau.py:555-569, 597-607), else `n`. -/
def iterLen (full : Bool) (n : Nat) : Nat := if full then 2 * n - 1 else n

/-- What the iterators return (cddm/multitau.py:1078-1087): the two sets of arrays and `(mean, variance)` of each
signal. -/
structure IterOut (C : Type) where
  fast : CorrAout C
  slow : List (CorrAout C)
  stats : List (Option (Cx ℝ × ℝ))

/-- `_compute_multi_iter(cross = True)` (cddm/multitau.py:716-1087); `complex` says whether `cc` is
the complex version.  An empty iterator that passes the length check (one frame wanted) ends in an
UnboundLocalError. -/
noncomputable def crossIter {C : Type} [Zero C] (complex : Bool) (cc : CrossFn C)
    (data : List (Cx ℝ × Cx ℝ)) (dataLen : Option Nat) (t1 t2 : Option (List Int))
    (period levelSize : Nat) (chunkSize : Option Nat) (binning : Option Int)
    (method : Option String) (count : Option Nat) (autoBackground : Bool) (nlevel : Option Int)
    (norm : Option Int) (mode : String) (junk : Nat → Nat → Cx ℝ × Cx ℝ)
    (junkSq : Nat → Nat → ℝ × ℝ) (al al' : Bool) (r : Nat → ℚ) : Py (Nat × IterOut C) := do
  let (t1, t2, cfg) ← iterParams t1 t2 dataLen period levelSize chunkSize binning method count
    autoBackground nlevel mode
  if data.isEmpty then
    if 0 < cfg.nframes - 1 then .error .valueError else .error .nameError
  else do
    let norm ← defaultNorm norm cfg.method true
    let cfg := { cfg with norm := norm }
    let correlate : Bool := cfg.method ≠ "diff"
    let squares := needsSquares norm && correlate
    let lf := iterLen complex cfg.nFast
    let ls := iterLen complex cfg.nSlow
    let fast := zeroArrays norm true correlate lf lf
    let slow := List.replicate cfg.nlevel (zeroArrays norm true correlate ls ls)
    let ch1 := initChan (fun j k => (junk j k).1) (fun j k => (junkSq j k).1) cfg.nDecades cfg.half
      squares
    let ch2 := initChan (fun j k => (junk j k).2) (fun j k => (junkSq j k).2) cfg.nDecades cfg.half
      squares
    let feed : Nat → Cx ℝ × Cx ℝ → Chan × Chan → Py (Chan × Chan) := fun i x ch => do
      let c1 ← feedChan autoBackground cfg.half cfg.binning r i x.1 ch.1
      let c2 ← feedChan autoBackground cfg.half cfg.binning r i x.2 ch.2
      .ok (c1, c2)
    let op := crossOp cc cfg t1 t2 al
    let (taken, ch, acc) ← enumLoop cfg.nframes (iterStep cfg feed op) 0 data ((ch1, ch2), ⟨fast, slow⟩)
    if taken - 1 < cfg.nframes - 1 then .error .valueError
    else do
      let f1 := ch.1.f.getLastD []
      let f2 := ch.2.f.getLastD []
      let sq1 := ch.1.sq.map (·.getLastD [])
      let sq2 := ch.2.sq.map (·.getLastD [])
      let j := max cfg.nDecades 1
      let slow ← restCross cc cfg al' r (cfg.nlevel + 1 - j) j cfg.nframes f1 f2 sq1 sq2 acc.slow
      .ok (taken, ⟨acc.fast, slow, [ch.1.stat, ch.2.stat]⟩)

/-- `_compute_multi_iter(cross = False)` (cddm/multitau.py:716-1087); the arrays have `n` cells also
with `complex = True`, `cc` is used for the correlation with the previous chunk. -/
noncomputable def autoIter {C : Type} [Zero C] [Add C] (ac : AutoFn C) (cc : CrossFn C)
    (data : List (Cx ℝ)) (dataLen : Option Nat) (t : Option (List Int))
    (period levelSize : Nat) (chunkSize : Option Nat) (binning : Option Int)
    (method : Option String) (count : Option Nat) (autoBackground : Bool) (nlevel : Option Int)
    (norm : Option Int) (mode : String) (junk : Nat → Nat → Cx ℝ)
    (junkSq : Nat → Nat → ℝ) (al al' : Bool) (r : Nat → ℚ) : Py (Nat × IterOut C) := do
  let (t, _, cfg) ← iterParams t none dataLen period levelSize chunkSize binning method count
    autoBackground nlevel mode
  if data.isEmpty then
    if 0 < cfg.nframes - 1 then .error .valueError else .error .nameError
  else do
    let norm ← defaultNorm norm cfg.method false
    let cfg := { cfg with norm := norm }
    let correlate : Bool := cfg.method ≠ "diff"
    let squares := needsSquares norm && correlate
    let fast := zeroArrays norm false correlate cfg.nFast cfg.nFast
    let slow := List.replicate cfg.nlevel (zeroArrays norm false correlate cfg.nSlow cfg.nSlow)
    let ch := initChan junk junkSq cfg.nDecades cfg.half squares
    let feed := feedChan autoBackground cfg.half cfg.binning r
    let op := autoOp ac cc cfg t al
    let (taken, ch, acc) ← enumLoop cfg.nframes (iterStep cfg feed op) 0 data (ch, ⟨fast, slow⟩)
    if taken - 1 < cfg.nframes - 1 then .error .valueError
    else do
      let f := ch.f.getLastD []
      let sq := ch.sq.map (·.getLastD [])
      let j := max cfg.nDecades 1
      let slow ← restAuto ac cfg al' r (cfg.nlevel + 1 - j) j cfg.nframes f sq acc.slow
      .ok (taken, ⟨acc.fast, slow, [ch.stat]⟩)

end Cddm
