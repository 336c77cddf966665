import Verif.Model.IterApi
import Verif.Model.MultiAny

/-!
# `iccorr_multi`, `iacorr_multi`, `iccorr` and `iacorr` on frames of any number of axes (`cddm/multitau.py`)

`_compute_multi_iter` for frames of any shape, with `thread_divisor`; `OPTIMIZE_LAYOUT` is False, as set at cddm/multitau.py:405.  A frame in the buffers is a function of the position, of which the
values inside its shape matter; the buffers are the lists of `Verif.Model.MultitauIter`, with such functions as their cells.
Simplified: as in `Verif.Model.MultitauIter`; `mask` is absent (see `Verif.Model.MaskAny`); the level axis of the slow data is a list of arrays; whether data are
contiguous in memory is an argument of `ccorr` and `acorr`, `flags j` for the calls on level `j`; the reshaping of the results yielded
before the last ones is omitted (it is that of the last ones, for arrays of the same shapes).
-/

namespace Cddm

/-- `fdata[j, start:stop, ...]` as an array (cddm/multitau.py:684-688): frames of the given shape, the first axis is the time. -/
def stackFrames {V : Type} [Zero V] (shape : List Nat) (l : List (List Nat → V)) : Tensor V :=
  ⟨l.length :: shape, fun p => (l.getD (p.headD 0) fun _ => 0) p.tail⟩

/-! ### What one frame does to one channel -/

/-- The variables of one of the two signals (cddm/multitau.py:805-817), see `Chan`. -/
structure ChanAny where
  f : List (List (List Nat → Cx ℝ))
  sq : Option (List (List (List Nat → ℝ)))
  bg : Option (List Nat → Cx ℝ)
  sum : List Nat → Cx ℝ
  sqsum : List Nat → ℝ
  stat : Option ((List Nat → Cx ℝ) × (List Nat → ℝ))

/-- `_add_data1(i, x, fdata)` and `_add_sq1(i, x, sq)` (cddm/multitau.py:846-855, 700-708, 710-714). -/
noncomputable def addBothAny (i : Nat) (x : List Nat → Cx ℝ) (binning : Int) (r : ℚ) (ch : ChanAny) : Py ChanAny := do
  let f ← addData i x ch.f binning r
  match ch.sq with
  | none => .ok { ch with f := f }
  | some sq => do
    let sq ← addData i (fun p => (x p).abs2) sq binning r
    .ok { ch with f := f, sq := some sq }

/-- `_remove_background` (cddm/multitau.py:691-708), from frame `i` on, `k` frames to go. -/
noncomputable def removeBackgroundAny (bg : List Nat → Cx ℝ) (binning : Int) (r : Nat → ℚ) :
    Nat → Nat → ChanAny → Py ChanAny
  | 0, _, ch => .ok ch
  | k + 1, i, ch => do
    let y ← getBuf ch.f 0 i
    let ch ← addBothAny i (y - bg) binning (r i) ch
    removeBackgroundAny bg binning r k (i + 1) ch

/-- `x1 - bg1` if there is a background (cddm/multitau.py:838-841). -/
noncomputable def subtractBgAny (bg : Option (List Nat → Cx ℝ)) (x : List Nat → Cx ℝ) : List Nat → Cx ℝ :=
  match bg with
  | none => x
  | some bg => x - bg

/-- Store one frame, subtracting the background (cddm/multitau.py:824-855, 677-682), see `storeFrame`. -/
noncomputable def storeFrameAny (autoBackground : Bool) (half : Nat) (binning : Int) (r : Nat → ℚ)
    (i : Nat) (x : List Nat → Cx ℝ) (ch : ChanAny) : Py ChanAny :=
  if i < half ∧ autoBackground = true then do
    let f ← setBuf ch.f 0 i x
    let ch := { ch with f := f }
    if i = half - 1 then do
      let s ← bufSlice f 0 0 half
      let bg : List Nat → Cx ℝ := (1 / (half : ℝ)) • s.sum
      removeBackgroundAny bg binning r half 0 { ch with bg := some bg }
    else .ok ch
  else
    addBothAny i (subtractBgAny ch.bg x) binning (r i) ch

/-- `_calc_stats` and the following lines (cddm/multitau.py:549-553, 873-887), at the end of half-chunk number `ichunk`. -/
noncomputable def chunkStatsAny (half ichunk : Nat) (ch : ChanAny) : Py ChanAny := do
  let s ← bufSlice ch.f 0 (half * (ichunk % 2)) half
  let sum := ch.sum + s.sum
  let sqsum := ch.sqsum + (s.map fun x p => (x p).abs2).sum
  let divisor : ℝ := ((ichunk + 1) * half : Nat)
  let mean := (1 / divisor) • sum
  .ok { ch with sum := sum, sqsum := sqsum, stat := some (mean, fun p => sqsum p / divisor - (mean p).abs2) }

/-- One frame of one channel (cddm/multitau.py:824-887). -/
noncomputable def feedChanAny (autoBackground : Bool) (half : Nat) (binning : Int) (r : Nat → ℚ)
    (i : Nat) (x : List Nat → Cx ℝ) (ch : ChanAny) : Py ChanAny := do
  let ch ← storeFrameAny autoBackground half binning r i x ch
  if i % half = half - 1 then chunkStatsAny half (i / half) ch else .ok ch

/-- `_init_data_f`, `_init_data_sq`, `_init_data_stats` (cddm/multitau.py:636-667). -/
def initChanAny (junk : Nat → Nat → List Nat → Cx ℝ) (junkSq : Nat → Nat → List Nat → ℝ) (nDecades half : Nat)
    (squares : Bool) : ChanAny :=
  let rows := if nDecades > 0 then nDecades else 1
  let len := if nDecades > 0 then half * 2 else half
  { f := junkBuf junk rows len
    sq := if squares then some (junkBuf junkSq rows len) else none
    bg := none, sum := 0, sqsum := 0, stat := none }

/-! ### Correlating the chunks -/

/-- A half-chunk of one signal, and of its squares (cddm/multitau.py:889-895). -/
structure HalfAny where
  f : Tensor (Cx ℝ)
  sq : Option (Tensor ℝ)

/-- `_sliced_data(fdata, j, start, start + len)` and the same for the squares (cddm/multitau.py:889-890, 895 and others). -/
def readHalfAny (shape : List Nat) (ch : ChanAny) (j start len : Nat) : Py HalfAny := do
  let f ← bufSlice ch.f j start len
  match ch.sq with
  | none => .ok ⟨stackFrames shape f, none⟩
  | some sq => do
    let s ← bufSlice sq j start len
    .ok ⟨stackFrames shape f, some (stackFrames shape s)⟩

/-- The calls of `ccorr` for half-chunk `q` of level `j` (cddm/multitau.py:886-949, 979-1027), along axis 0
(cddm/multitau.py:405, 822), see `crossCalls`. -/
noncomputable def crossCallsAny {C : Type} (cc : CrossFnAny C) (cfg : IterCfg) (t1 t2 : List Int)
    (j q : Nat) (cur : HalfAny × HalfAny) (prev : Option (HalfAny × HalfAny)) (row : CorrAoutAny C) :
    Py (CorrAoutAny C) := do
  let h := cfg.half
  let self1 := if j = 0 then some (sliceT t1 (q * h) h) else none
  let self2 := if j = 0 then some (sliceT t2 (q * h) h) else none
  let n := if j = 0 then cfg.nFast else cfg.nSlow
  let d ← cc j cur.1.f cur.2.f self1 self2 (some n) (some cfg.norm) (some cfg.method) 0 cur.1.sq cur.2.sq row
  let row := d.into row
  match prev with
  | none => .ok row
  | some prev => do
    let tt1 := if j = 0 then t1 else arange cfg.nframes
    let tt2 := if j = 0 then t2 else arange cfg.nframes
    let d ← cc j cur.1.f prev.2.f (some (sliceT tt1 (q * h) h)) (some (sliceT tt2 (q * h - h) h))
      (some cfg.nFast) (some cfg.norm) (some cfg.method) 0 cur.1.sq prev.2.sq row
    let row := d.into row
    let d ← cc j prev.1.f cur.2.f (some (sliceT tt1 (q * h - h) h)) (some (sliceT tt2 (q * h) h))
      (some cfg.nFast) (some cfg.norm) (some cfg.method) 0 prev.1.sq cur.2.sq row
    .ok (d.into row)

/-- Cross-correlation of half-chunk `q` of level `j` (cddm/multitau.py:857-949, 954-1027), see `crossOp`. -/
noncomputable def crossOpAny {C : Type} (cc : CrossFnAny C) (cfg : IterCfg) (shape : List Nat) (t1 t2 : List Int)
    (ch : ChanAny × ChanAny) (j q : Nat) (row : CorrAoutAny C) : Py (CorrAoutAny C) := do
  let h := cfg.half
  let cur1 ← readHalfAny shape ch.1 j (chunkStart h q) h
  let cur2 ← readHalfAny shape ch.2 j (chunkStart h q) h
  if q ≥ 1 ∧ cfg.full = true then do
    let prev1 ← readHalfAny shape ch.1 j (chunkStartPrev h q) h
    let prev2 ← readHalfAny shape ch.2 j (chunkStartPrev h q) h
    crossCallsAny cc cfg t1 t2 j q (cur1, cur2) (some (prev1, prev2)) row
  else crossCallsAny cc cfg t1 t2 j q (cur1, cur2) none row

/-- `x[..., 0:n]` (cddm/multitau.py:933-943). -/
def takeLast {M : Type} (n : Nat) (x : Tensor M) : Tensor M := pickLast x (sliceBy (x.shape.getLastD 0) 0 n 1)

/-- `a += b` for arrays of the same shape (cddm/multitau.py:933-943, 1003-1013); see `npAdd`. -/
def npAddAny {M : Type} [Add M] (a b : Tensor M) : Py (Tensor M) :=
  if a.shape = b.shape then .ok (a.zipWith (· + ·) b)
  else if b.shape.getLastD 0 = 1 then .error .notModelled
  else .error .valueError

/-- `if a is not None: a += b` (cddm/multitau.py:933-943). -/
def npAddOptAny {M : Type} [Add M] (a b : Option (Tensor M)) : Py (Option (Tensor M)) :=
  match a, b with
  | none, _ => .ok none
  | some _, none => .error .typeError
  | some a, some b => do
    let s ← npAddAny a b
    .ok (some s)

/-- The result of the cross-correlation of a half-chunk with the previous one is added to the arrays of an auto-correlation
(cddm/multitau.py:933-943, 1003-1013), see `addCrossToAuto`. -/
noncomputable def addCrossToAutoAny {C : Type} [Add C] (n : Nat) (row : CorrAoutAny C) (d : CorrTupleAny C) :
    Py (CorrAoutAny C) := do
  let cor ← npAddOptAny row.cor (some (takeLast n d.cor))
  let count ← npAddOpt row.count (some (d.count.take n))
  let sq ← npAddOptAny row.sq (d.sq.map (takeLast n))
  let ds1 ← npAddOptAny row.ds1 (d.ds1.map fun x => (takeLast n x).map ((1 / 2 : ℝ) • ·))
  let ds1 ← npAddOptAny ds1 (d.ds2.map fun x => (takeLast n x).map ((1 / 2 : ℝ) • ·))
  .ok ⟨cor, count, sq, ds1, row.ds2⟩

/-- The calls for half-chunk `q` of level `j`, auto-correlation (cddm/multitau.py:886-943, 979-1013), see `autoCalls`. -/
noncomputable def autoCallsAny {C : Type} [Add C] (ac : AutoFnAny C) (cc : CrossFnAny C) (cfg : IterCfg)
    (t : List Int) (j q : Nat) (cur : HalfAny) (prev : Option HalfAny) (row : CorrAoutAny C) : Py (CorrAoutAny C) := do
  let h := cfg.half
  let self := if j = 0 then some (sliceT t (q * h) h) else none
  let n := if j = 0 then cfg.nFast else cfg.nSlow
  let d ← ac j cur.f self (some n) (some cfg.norm) (some cfg.method) 0 cur.sq row
  let row := d.into row
  match prev with
  | none => .ok row
  | some prev => do
    let tt := if j = 0 then t else arange cfg.nframes
    let d ← cc j cur.f prev.f (some (sliceT tt (q * h) h)) (some (sliceT tt (q * h - h) h))
      (some cfg.nFast) (some cfg.norm) (some cfg.method) 0 cur.sq prev.sq {}
    addCrossToAutoAny n row d

/-- Auto-correlation of half-chunk `q` of level `j` (cddm/multitau.py:857-943, 954-1013), see `autoOp`. -/
noncomputable def autoOpAny {C : Type} [Add C] (ac : AutoFnAny C) (cc : CrossFnAny C) (cfg : IterCfg) (shape : List Nat)
    (t : List Int) (ch : ChanAny) (j q : Nat) (row : CorrAoutAny C) : Py (CorrAoutAny C) := do
  let h := cfg.half
  let cur ← readHalfAny shape ch j (chunkStart h q) h
  if q ≥ 1 ∧ cfg.full = true then do
    let prev ← readHalfAny shape ch j (chunkStartPrev h q) h
    autoCallsAny ac cc cfg t j q cur (some prev) row
  else autoCallsAny ac cc cfg t j q cur none row

/-! ### The main loop -/

/-- The arrays `data_fast` and `data_slow` (cddm/multitau.py:558-634). -/
structure IterAccAny (C : Type) where
  fast : CorrAoutAny C
  slow : List (CorrAoutAny C)

/-- The loop over levels at the end of a half-chunk (cddm/multitau.py:952-1029), see `slowLevels`. -/
noncomputable def slowLevelsAny {C : Type} (op : Nat → Nat → CorrAoutAny C → Py (CorrAoutAny C))
    (half i : Nat) : Nat → Nat → List (CorrAoutAny C) → Py (List (CorrAoutAny C))
  | 0, _, slow => .ok slow
  | k + 1, j, slow =>
    if i % (half * 2 ^ j) = half * 2 ^ j - 1 then
      match slow[j - 1]? with
      | none => .error .indexError
      | some row => do
        let row ← op j (i / (half * 2 ^ j)) row
        slowLevelsAny op half i k (j + 1) (slow.set (j - 1) row)
    else .ok slow

/-- One round of the main loop (cddm/multitau.py:772-1043), see `iterStep`. -/
noncomputable def iterStepAny {C B D : Type} (cfg : IterCfg) (feed : Nat → D → B → Py B)
    (op : B → Nat → Nat → CorrAoutAny C → Py (CorrAoutAny C)) (i : Nat) (x : D) (s : B × IterAccAny C) :
    Py (B × IterAccAny C) := do
  let b ← feed i x s.1
  if i % cfg.half = cfg.half - 1 then do
    let fast ← op b 0 (i / cfg.half) s.2.fast
    let slow ← slowLevelsAny (op b) cfg.half i (cfg.nDecades - 1) 1 s.2.slow
    .ok (b, ⟨fast, slow⟩)
  else .ok (b, s.2)

/-- The loop processing the rest, cross-correlation (cddm/multitau.py:1051-1072), along axis 0, see `restCross`. -/
noncomputable def restCrossAny {C : Type} (cc : CrossFnAny C) (cfg : IterCfg) (r : Nat → ℚ) :
    Nat → Nat → Nat → Tensor (Cx ℝ) → Tensor (Cx ℝ) → Option (Tensor ℝ) → Option (Tensor ℝ) →
      List (CorrAoutAny C) → Py (List (CorrAoutAny C))
  | 0, _, _, _, _, _, _, slow => .ok slow
  | k + 1, j, d, f1, f2, sq1, sq2, slow => do
    let f1 := binAny cfg.binning (r d) 0 f1
    let f2 := binAny cfg.binning (r d) 0 f2
    let sq1 := sq1.map (binAny cfg.binning (r d) 0)
    let sq2 := sq2.map (binAny cfg.binning (r d) 0)
    match slow[j - 1]? with
    | none => .error .indexError
    | some row => do
      let c ← cc j f1 f2 none none (some cfg.nSlow) (some cfg.norm) (some cfg.method) 0 sq1 sq2 row
      restCrossAny cc cfg r k (j + 1) (d + 1) f1 f2 sq1 sq2 (slow.set (j - 1) (c.into row))

/-- The loop processing the rest, auto-correlation (cddm/multitau.py:1051-1074). -/
noncomputable def restAutoAny {C : Type} (ac : AutoFnAny C) (cfg : IterCfg) (r : Nat → ℚ) :
    Nat → Nat → Nat → Tensor (Cx ℝ) → Option (Tensor ℝ) → List (CorrAoutAny C) → Py (List (CorrAoutAny C))
  | 0, _, _, _, _, slow => .ok slow
  | k + 1, j, d, f, sq, slow => do
    let f := binAny cfg.binning (r d) 0 f
    let sq := sq.map (binAny cfg.binning (r d) 0)
    match slow[j - 1]? with
    | none => .error .indexError
    | some row => do
      let c ← ac j f none (some cfg.nSlow) (some cfg.norm) (some cfg.method) 0 sq row
      restAutoAny ac cfg r k (j + 1) (d + 1) f sq (slow.set (j - 1) (c.into row))

/-- What the iterators return (cddm/multitau.py:1078-1087): the two sets of arrays and `(mean, variance)` of each signal. -/
structure IterOutAny (C : Type) where
  fast : CorrAoutAny C
  slow : List (CorrAoutAny C)
  stats : List (Option (Tensor (Cx ℝ) × Tensor ℝ))

/-- What is kept of one run before the results are reshaped (cddm/multitau.py:1076): the number of items taken, the shapes of the
linear data and of one level, the data, and the statistics of each signal. -/
structure IterRaw (C : Type) where
  taken : Nat
  fastShape : List Nat
  slowShape : List Nat
  fast : CorrAoutAny C
  slow : List (CorrAoutAny C)
  stats : List (Option ((List Nat → Cx ℝ) × (List Nat → ℝ)))

/-- `shape = thread_frame_shape(original_shape, thread_divisor, force_2d)` without a mask (cddm/multitau.py:782-785); negative sizes are
refused by numpy when the arrays are allocated (cddm/multitau.py:805). -/
def iterFrameShape (original : List Nat) (divisor : Option Int) : Py (List Nat) := do
  let new ← threadFrameShape original divisor true
  if new.any (· < 0) then .error .valueError else .ok (new.map Int.toNat)

/-- The initial data, the loops and the final check of `_compute_multi_iter(cross = True)` (cddm/multitau.py:772-1076), see
`crossIter`; `shape` is that of the reshaped frames. -/
noncomputable def crossIterCore {C : Type} [Zero C] (complex : Bool) (cc : CrossFnAny C) (cfg : IterCfg) (t1 t2 : List Int)
    (shape : List Nat) (junk : Nat → Nat → List Nat → Cx ℝ × Cx ℝ) (junkSq : Nat → Nat → List Nat → ℝ × ℝ) (r : Nat → ℚ)
    (data : List (Tensor (Cx ℝ) × Tensor (Cx ℝ))) : Py (IterRaw C) := do
  let correlate : Bool := cfg.method ≠ "diff"
  let squares := needsSquares cfg.norm && correlate
  let lf := iterLen complex cfg.nFast
  let ls := iterLen complex cfg.nSlow
  let fast := zeroArraysAny cfg.norm true correlate shape lf lf
  let slow := List.replicate cfg.nlevel (zeroArraysAny cfg.norm true correlate shape ls ls)
  let ch1 := initChanAny (fun j k p => (junk j k p).1) (fun j k p => (junkSq j k p).1) cfg.nDecades cfg.half squares
  let ch2 := initChanAny (fun j k p => (junk j k p).2) (fun j k p => (junkSq j k p).2) cfg.nDecades cfg.half squares
  let feed : Nat → Tensor (Cx ℝ) × Tensor (Cx ℝ) → ChanAny × ChanAny → Py (ChanAny × ChanAny) := fun i x ch => do
    let x1 ← reshapeAny x.1 shape
    let x2 ← reshapeAny x.2 shape
    let c1 ← feedChanAny cfg.autoBackground cfg.half cfg.binning r i x1.get ch.1
    let c2 ← feedChanAny cfg.autoBackground cfg.half cfg.binning r i x2.get ch.2
    .ok (c1, c2)
  let op := crossOpAny cc cfg shape t1 t2
  let (taken, ch, acc) ← enumLoop cfg.nframes (iterStepAny cfg feed op) 0 data ((ch1, ch2), ⟨fast, slow⟩)
  if taken - 1 < cfg.nframes - 1 then .error .valueError
  else do
    let f1 := stackFrames shape (ch.1.f.getLastD [])
    let f2 := stackFrames shape (ch.2.f.getLastD [])
    let sq1 := ch.1.sq.map fun s => stackFrames shape (s.getLastD [])
    let sq2 := ch.2.sq.map fun s => stackFrames shape (s.getLastD [])
    let j := max cfg.nDecades 1
    let slow ← restCrossAny cc cfg r (cfg.nlevel + 1 - j) j cfg.nframes f1 f2 sq1 sq2 acc.slow
    .ok ⟨taken, shape ++ [lf], shape ++ [ls], acc.fast, slow, [ch.1.stat, ch.2.stat]⟩

/-- The same for `_compute_multi_iter(cross = False)` (cddm/multitau.py:772-1076), see `autoIter`. -/
noncomputable def autoIterCore {C : Type} [Zero C] [Add C] (ac : AutoFnAny C) (cc : CrossFnAny C) (cfg : IterCfg) (t : List Int)
    (shape : List Nat) (junk : Nat → Nat → List Nat → Cx ℝ) (junkSq : Nat → Nat → List Nat → ℝ) (r : Nat → ℚ)
    (data : List (Tensor (Cx ℝ))) : Py (IterRaw C) := do
  let correlate : Bool := cfg.method ≠ "diff"
  let squares := needsSquares cfg.norm && correlate
  let fast := zeroArraysAny cfg.norm false correlate shape cfg.nFast cfg.nFast
  let slow := List.replicate cfg.nlevel (zeroArraysAny cfg.norm false correlate shape cfg.nSlow cfg.nSlow)
  let ch := initChanAny junk junkSq cfg.nDecades cfg.half squares
  let feed : Nat → Tensor (Cx ℝ) → ChanAny → Py ChanAny := fun i x ch => do
    let x ← reshapeAny x shape
    feedChanAny cfg.autoBackground cfg.half cfg.binning r i x.get ch
  let op := autoOpAny ac cc cfg shape t
  let (taken, ch, acc) ← enumLoop cfg.nframes (iterStepAny cfg feed op) 0 data (ch, ⟨fast, slow⟩)
  if taken - 1 < cfg.nframes - 1 then .error .valueError
  else do
    let f := stackFrames shape (ch.f.getLastD [])
    let sq := ch.sq.map fun s => stackFrames shape (s.getLastD [])
    let j := max cfg.nDecades 1
    let slow ← restAutoAny ac cfg r (cfg.nlevel + 1 - j) j cfg.nframes f sq acc.slow
    .ok ⟨taken, shape ++ [cfg.nFast], shape ++ [cfg.nSlow], acc.fast, slow, [ch.stat]⟩

/-- `reshape_frame` without a mask (cddm/core.py:324-331) of the mean and the variance of one signal. -/
def reshapeStat (original shape : List Nat) :
    Option ((List Nat → Cx ℝ) × (List Nat → ℝ)) → Py (Option (Tensor (Cx ℝ) × Tensor ℝ))
  | none => .ok none
  | some s => do
    let m ← reshapeAny ⟨shape, s.1⟩ original
    let v ← reshapeAny ⟨shape, s.2⟩ original
    .ok (some (m, v))

/-- The last yield (cddm/multitau.py:1076-1087): the results in the shape of the frames as given. -/
def reshapeIter {C : Type} (original shape : List Nat) (raw : IterRaw C) : Py (Nat × IterOutAny C) := do
  let out ← reshapeMulti original raw.fastShape raw.slowShape (raw.fast, raw.slow)
  let stats ← raw.stats.mapM (reshapeStat original shape)
  .ok (raw.taken, ⟨out.1, out.2, stats⟩)

/-- What a call depends on besides its arguments (cddm/multitau.py:716-1087): the `len` of the data, the content of new arrays and the random
numbers. -/
structure IterEnvAny where
  dataLen : Option Nat
  junk : Nat → Nat → List Nat → Cx ℝ × Cx ℝ
  junkSq : Nat → Nat → List Nat → ℝ × ℝ
  rand : Nat → ℚ

/-- `_compute_multi_iter(cross = True)` (cddm/multitau.py:716-1087, 1160-1162), see `crossIter`. -/
noncomputable def crossIterAny {C : Type} [Zero C] (complex : Bool) (cc : CrossFnAny C)
    (data : List (Tensor (Cx ℝ) × Tensor (Cx ℝ))) (t1 t2 : Option (List Int)) (o : MultiOpts) (divisor : Option Int)
    (env : IterEnvAny) : Py (Nat × IterOutAny C) := do
  let (t1, t2, cfg) ← iterParams t1 t2 env.dataLen o.period o.levelSize o.chunkSize o.binning o.method o.count
    o.autoBackground o.nlevel o.mode
  match data with
  | [] => if 0 < cfg.nframes - 1 then .error .valueError else .error .nameError
  | d :: _ => do
    let shape ← iterFrameShape d.1.shape divisor
    let norm ← defaultNorm o.norm cfg.method true
    let raw ← crossIterCore complex cc { cfg with norm := norm } t1 t2 shape env.junk env.junkSq env.rand data
    reshapeIter d.1.shape shape raw

/-- `_compute_multi_iter(cross = False)` (cddm/multitau.py:716-1087, 1241-1243), see `autoIter`. -/
noncomputable def autoIterAny {C : Type} [Zero C] [Add C] (ac : AutoFnAny C) (cc : CrossFnAny C)
    (data : List (Tensor (Cx ℝ))) (t : Option (List Int)) (o : MultiOpts) (divisor : Option Int)
    (env : IterEnvAny) : Py (Nat × IterOutAny C) := do
  let (t, _, cfg) ← iterParams t none env.dataLen o.period o.levelSize o.chunkSize o.binning o.method o.count
    o.autoBackground o.nlevel o.mode
  match data with
  | [] => if 0 < cfg.nframes - 1 then .error .valueError else .error .nameError
  | d :: _ => do
    let shape ← iterFrameShape d.shape divisor
    let norm ← defaultNorm o.norm cfg.method false
    let raw ← autoIterCore ac cc { cfg with norm := norm } t shape (fun j k p => (env.junk j k p).1)
      (fun j k p => (env.junkSq j k p).1) env.rand data
    reshapeIter d.shape shape raw

/-! ### The functions called by the user -/

/-- `ccorr` on arrays, as called by these functions (cddm/multitau.py:901, 910). -/
noncomputable def ccorrCall (flags : Nat → Bool × Bool) : CrossFnAny ℝ := fun i f1 f2 t1 t2 n norm method axis f1s f2s aout =>
  ccorrAny f1 f2 t1 t2 n norm method false (flags i).1 (flags i).2 axis f1s f2s aout
/-- `ccorr(complex = True)` on arrays, as called by these functions (cddm/multitau.py:901, 910). -/
noncomputable def ccorrComplexCall (flags : Nat → Bool × Bool) : CrossFnAny (Cx ℝ) :=
  fun i f1 f2 t1 t2 n norm method axis f1s f2s aout =>
  ccorrComplexAny f1 f2 t1 t2 n norm method false (flags i).1 (flags i).2 axis f1s f2s aout
/-- `acorr` on arrays, as called by these functions (cddm/multitau.py:903). -/
noncomputable def acorrCall (flags : Nat → Bool × Bool) : AutoFnAny ℝ := fun i f t n norm method axis fs aout =>
  acorrAny f t n norm method false (flags i).1 (flags i).2 axis fs aout
/-- `acorr(complex = True)` on arrays, as called by these functions (cddm/multitau.py:903). -/
noncomputable def acorrComplexCall (flags : Nat → Bool × Bool) : AutoFnAny (Cx ℝ) := fun i f t n norm method axis fs aout =>
  acorrComplexAny f t n norm method false (flags i).1 (flags i).2 axis fs aout

/-- `iccorr_multi` (cddm/multitau.py:1089-1173), see `iccorrMultiOf`. -/
noncomputable def iccorrMultiAnyOf {C : Type} [Zero C] (complex : Bool) (cc : CrossFnAny C)
    (data : List (Tensor (Cx ℝ) × Tensor (Cx ℝ))) (t1 t2 : Option (List Int)) (o : MultiOpts) (divisor : Option Int)
    (env : IterEnvAny) : Py (Nat × IterOutAny C) :=
  if (t1.isNone ∧ t2.isSome) ∨ (t2.isNone ∧ t1.isSome) then .error .valueError
  else crossIterAny complex cc data t1 t2 o divisor env

/-- `iccorr_multi(complex = False)` (cddm/multitau.py:1089-1173). -/
noncomputable def iccorrMultiAny (flags : Nat → Bool × Bool) := iccorrMultiAnyOf false (ccorrCall flags)
/-- `iccorr_multi(complex = True)` (cddm/multitau.py:1089-1173). -/
noncomputable def iccorrMultiComplexAny (flags : Nat → Bool × Bool) := iccorrMultiAnyOf true (ccorrComplexCall flags)
/-- `iacorr_multi(complex = False)` (cddm/multitau.py:1176-1254). -/
noncomputable def iacorrMultiAny (flags : Nat → Bool × Bool) := autoIterAny (acorrCall flags) (ccorrCall flags)
/-- `iacorr_multi(complex = True)` (cddm/multitau.py:1176-1254). -/
noncomputable def iacorrMultiComplexAny (flags : Nat → Bool × Bool) := autoIterAny (acorrComplexCall flags) (ccorrComplexCall flags)

/-- `iccorr` (cddm/core.py:1299-1393), see `iccorrOf`. -/
noncomputable def iccorrAnyOf {C : Type} [Zero C] (complex : Bool) (cc : CrossFnAny C)
    (data : List (Tensor (Cx ℝ) × Tensor (Cx ℝ))) (t1 t2 : Option (List Int)) (o : IccorrOpts) (divisor : Option Int) (env : IterEnvAny) :
    Py (Nat × CorrAoutAny C × List (Option (Tensor (Cx ℝ) × Tensor ℝ))) :=
  if (t1.isNone ∧ t2.isSome) ∨ (t2.isNone ∧ t1.isSome) then .error .valueError
  else do
    let norm ← defaultNormOpt o.norm o.method true
    match o.n with
    | none => noLevelSize t1 t2 env.dataLen o.method o.count o.mode
    | some n => do
      let (taken, d) ← crossIterAny complex cc data t1 t2
        { levelSize := n, norm := some norm, method := o.method, count := o.count, period := 1
          binning := none, nlevel := some 0, chunkSize := o.chunkSize
          autoBackground := o.autoBackground, mode := o.mode } divisor env
      .ok (taken, d.fast, d.stats)

/-- `iacorr` (cddm/core.py:1395-1480), see `iacorrOf`. -/
noncomputable def iacorrAnyOf {C : Type} [Zero C] [Add C] (ac : AutoFnAny C) (cc : CrossFnAny C)
    (data : List (Tensor (Cx ℝ))) (t : Option (List Int)) (o : IacorrOpts) (divisor : Option Int) (env : IterEnvAny) :
    Py (Nat × CorrAoutAny C × List (Option (Tensor (Cx ℝ) × Tensor ℝ))) := do
  let norm ← defaultNormOpt o.norm o.method false
  match o.n with
  | none => noLevelSize t none env.dataLen o.method o.count o.mode
  | some n => do
    let (taken, d) ← autoIterAny ac cc data t
      { levelSize := n, norm := some norm, method := o.method, count := o.count, period := 1
        binning := none, nlevel := some 0, chunkSize := o.chunkSize
        autoBackground := o.autoBackground, mode := o.mode } divisor env
    .ok (taken, d.fast, d.stats)

/-- `iccorr(complex = False)` (cddm/core.py:1299-1393). -/
noncomputable def iccorrAny (flags : Nat → Bool × Bool) := iccorrAnyOf false (ccorrCall flags)
/-- `iccorr(complex = True)` (cddm/core.py:1299-1393). -/
noncomputable def iccorrComplexAny (flags : Nat → Bool × Bool) := iccorrAnyOf true (ccorrComplexCall flags)
/-- `iacorr(complex = False)` (cddm/core.py:1395-1480). -/
noncomputable def iacorrAny (flags : Nat → Bool × Bool) := iacorrAnyOf (acorrCall flags) (ccorrCall flags)
/-- `iacorr(complex = True)` (cddm/core.py:1395-1480). -/
noncomputable def iacorrComplexAny (flags : Nat → Bool × Bool) := iacorrAnyOf (acorrComplexCall flags) (ccorrComplexCall flags)

end Cddm
