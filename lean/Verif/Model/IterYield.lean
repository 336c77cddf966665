import Verif.Model.IterApi

/-!
# What the iterative functions show while they run

`_compute_multi_iter` is a generator: it yields after every half-chunk and at the end; the functions
that call it pass some of these results to a viewer and return the last one.  A yield is modelled as
the content of the arrays at that time (the code yields the arrays themselves, which change later;
`viewer.plot` is called before that).  Not modelled: what the viewer does, `_VIEWERS`, `mask`,
`thread_divisor`, the printed messages.
-/

namespace Cddm

/-- The main loop (cddm/multitau.py:767-1043) as a generator: `emit i s` is what is yielded at the
end of round `i` with the arrays `s`.  All the yields, and how the loop ends: as `enumLoop`. -/
def yieldLoop {D S Y : Type} (nframes : Nat) (step : Nat → D → S → Py S) (emit : Nat → S → List Y) :
    Nat → List D → S → List Y × Py (Nat × S)
  | i, [], s => ([], .ok (i, s))
  | i, d :: ds, s =>
    if i = nframes then ([], .ok (i + 1, s))
    else match step i d s with
      | .error e => ([], .error e)
      | .ok s =>
        let r := yieldLoop nframes step emit (i + 1) ds s
        (emit i s ++ r.1, r.2)

/-- The `yield` in the main loop (cddm/multitau.py:857, 1030-1043): at the end of a half-chunk only.
-/
def emitAt {C B : Type} (half : Nat) (stats : B → List (Option (Cx ℝ × ℝ))) (i : Nat)
    (s : B × IterAcc C) : List (IterOut C) :=
  if i % half = half - 1 then [⟨s.2.fast, s.2.slow, stats s.1⟩] else []

/-- The end of the generator (cddm/multitau.py:1045-1087): the length check, the remaining levels
(`rest`), the last `yield`. -/
def finishGen {C B : Type} (nframes : Nat)
    (rest : B → IterAcc C → Py (List (CorrAout C))) (stats : B → List (Option (Cx ℝ × ℝ)))
    (r : List (IterOut C) × Py (Nat × B × IterAcc C)) : List (IterOut C) × Py Nat :=
  match r.2 with
  | .error e => (r.1, .error e)
  | .ok (taken, ch, acc) =>
    if taken - 1 < nframes - 1 then (r.1, .error .valueError)
    else match rest ch acc with
      | .error e => (r.1, .error e)
      | .ok slow => (r.1 ++ [⟨acc.fast, slow, stats ch⟩], .ok taken)

/-- `_compute_multi_iter(cross = True)` as a generator (cddm/multitau.py:716-1087): the yields, and
the number of items taken from the iterator or the exception that ends it. -/
noncomputable def crossGen {C : Type} [Zero C] (complex : Bool) (cc : CrossFn C)
    (data : List (Cx ℝ × Cx ℝ)) (t1 t2 : Option (List Int)) (o : MultiOpts) (env : IterEnv) :
    List (IterOut C) × Py Nat :=
  match iterParams t1 t2 env.dataLen o.period o.levelSize o.chunkSize o.binning o.method o.count
    o.autoBackground o.nlevel o.mode with
  | .error e => ([], .error e)
  | .ok (t1, t2, cfg) =>
    if data.isEmpty then
      ([], if 0 < cfg.nframes - 1 then .error .valueError else .error .nameError)
    else
      match defaultNorm o.norm cfg.method true with
      | .error e => ([], .error e)
      | .ok norm =>
        let cfg := { cfg with norm := norm }
        let correlate : Bool := cfg.method ≠ "diff"
        let squares := needsSquares norm && correlate
        let lf := iterLen complex cfg.nFast
        let ls := iterLen complex cfg.nSlow
        let fast := zeroArrays norm true correlate lf lf
        let slow := List.replicate cfg.nlevel (zeroArrays norm true correlate ls ls)
        let ch1 := initChan (fun j k => (env.junk j k).1) (fun j k => (env.junkSq j k).1)
          cfg.nDecades cfg.half squares
        let ch2 := initChan (fun j k => (env.junk j k).2) (fun j k => (env.junkSq j k).2)
          cfg.nDecades cfg.half squares
        let feed : Nat → Cx ℝ × Cx ℝ → Chan × Chan → Py (Chan × Chan) := fun i x ch => do
          let c1 ← feedChan o.autoBackground cfg.half cfg.binning env.rand i x.1 ch.1
          let c2 ← feedChan o.autoBackground cfg.half cfg.binning env.rand i x.2 ch.2
          .ok (c1, c2)
        let op := crossOp cc cfg t1 t2 env.aligned
        let stats : Chan × Chan → List (Option (Cx ℝ × ℝ)) := fun ch => [ch.1.stat, ch.2.stat]
        let j := max cfg.nDecades 1
        finishGen cfg.nframes
          (fun (ch : Chan × Chan) acc => restCross cc cfg env.aligned' env.rand
            (cfg.nlevel + 1 - j) j cfg.nframes (ch.1.f.getLastD []) (ch.2.f.getLastD [])
            (ch.1.sq.map (·.getLastD [])) (ch.2.sq.map (·.getLastD [])) acc.slow) stats
          (yieldLoop cfg.nframes (iterStep cfg feed op) (emitAt cfg.half stats) 0 data
            ((ch1, ch2), ⟨fast, slow⟩))

/-- `_compute_multi_iter(cross = False)` as a generator (cddm/multitau.py:716-1087). -/
noncomputable def autoGen {C : Type} [Zero C] [Add C] (ac : AutoFn C) (cc : CrossFn C)
    (data : List (Cx ℝ)) (t : Option (List Int)) (o : MultiOpts) (env : IterEnv) :
    List (IterOut C) × Py Nat :=
  match iterParams t none env.dataLen o.period o.levelSize o.chunkSize o.binning o.method o.count
    o.autoBackground o.nlevel o.mode with
  | .error e => ([], .error e)
  | .ok (t, _, cfg) =>
    if data.isEmpty then
      ([], if 0 < cfg.nframes - 1 then .error .valueError else .error .nameError)
    else
      match defaultNorm o.norm cfg.method false with
      | .error e => ([], .error e)
      | .ok norm =>
        let cfg := { cfg with norm := norm }
        let correlate : Bool := cfg.method ≠ "diff"
        let squares := needsSquares norm && correlate
        let fast := zeroArrays norm false correlate cfg.nFast cfg.nFast
        let slow := List.replicate cfg.nlevel (zeroArrays norm false correlate cfg.nSlow cfg.nSlow)
        let ch := initChan (fun j k => (env.junk j k).1) (fun j k => (env.junkSq j k).1)
          cfg.nDecades cfg.half squares
        let stats : Chan → List (Option (Cx ℝ × ℝ)) := fun ch => [ch.stat]
        let j := max cfg.nDecades 1
        finishGen cfg.nframes
          (fun (ch : Chan) acc => restAuto ac cfg env.aligned' env.rand
            (cfg.nlevel + 1 - j) j cfg.nframes (ch.f.getLastD []) (ch.sq.map (·.getLastD []))
            acc.slow) stats
          (yieldLoop cfg.nframes
            (iterStep cfg (feedChan o.autoBackground cfg.half cfg.binning env.rand)
              (autoOp ac cc cfg t env.aligned)) (emitAt cfg.half stats) 0 data (ch, ⟨fast, slow⟩))

/-- With `stats = False` no statistics are computed and yielded
(cddm/multitau.py:873-887, 1036-1043, 1080-1087). -/
def withStats {C : Type} (stats : Bool) (y : IterOut C) : IterOut C :=
  if stats then y else { y with stats := [] }

/-- `for i, data in enumerate(generator)` with the calls of the viewer, and `return data`
(cddm/multitau.py:1160-1173, 1241-1254; cddm/core.py:1372-1393, 1463-1483).  `viewer` is
`viewer_interval`, or none without a viewer.  What the viewer is given, in the order of the calls;
what is returned: the last `data` and the number of items taken.  A generator that yields nothing
and raises nothing does not exist (`crossGen`, `autoGen`); it is given a NameError here. -/
def watchLoop {Y : Type} (viewer : Option Int) (ends : Py Nat) :
    Nat → Option Y → List Y → List Y × Py (Nat × Y)
  | _, none, [] => ([], ends.bind fun _ => .error .nameError)
  | _, some y, [] => ([], ends.bind fun taken => .ok (taken, y))
  | i, _, y :: ys =>
    match viewer with
    | none => watchLoop viewer ends (i + 1) (some y) ys
    | some v =>
      if v = 0 then ([], .error .zeroDivisionError)
      else
        let r := watchLoop viewer ends (i + 1) (some y) ys
        (if (i : Int) % v = 0 then y :: r.1 else r.1, r.2)

/-- The loop over the generator (cddm/multitau.py:1160-1173, 1241-1254). -/
def watch {Y : Type} (viewer : Option Int) (gen : List Y × Py Nat) : List Y × Py (Nat × Y) :=
  watchLoop viewer gen.2 0 none gen.1

/-- `iccorr_multi` with `viewer` and `stats` (cddm/multitau.py:1089-1173): what the viewer is given,
and what is returned. -/
noncomputable def iccorrMultiView {C : Type} [Zero C] (complex : Bool) (cc : CrossFn C)
    (data : List (Cx ℝ × Cx ℝ)) (t1 t2 : Option (List Int)) (o : MultiOpts) (env : IterEnv)
    (stats : Bool) (viewer : Option Int) : List (IterOut C) × Py (Nat × IterOut C) :=
  if (t1.isNone ∧ t2.isSome) ∨ (t2.isNone ∧ t1.isSome) then ([], .error .valueError)
  else
    let gen := crossGen complex cc data t1 t2 o env
    watch viewer (gen.1.map (withStats stats), gen.2)

/-- `iacorr_multi` with `viewer` and `stats` (cddm/multitau.py:1176-1254). -/
noncomputable def iacorrMultiView {C : Type} [Zero C] [Add C] (ac : AutoFn C) (cc : CrossFn C)
    (data : List (Cx ℝ)) (t : Option (List Int)) (o : MultiOpts) (env : IterEnv)
    (stats : Bool) (viewer : Option Int) : List (IterOut C) × Py (Nat × IterOut C) :=
  let gen := autoGen ac cc data t o env
  watch viewer (gen.1.map (withStats stats), gen.2)

/-- `iccorr` with `viewer` and `stats` (cddm/core.py:1299-1393): as `iccorrOf`; the viewer is given
the data and the statistics. -/
noncomputable def iccorrView {C : Type} [Zero C] (complex : Bool) (cc : CrossFn C)
    (data : List (Cx ℝ × Cx ℝ)) (t1 t2 : Option (List Int)) (o : IccorrOpts) (env : IterEnv)
    (stats : Bool) (viewer : Option Int) :
    List (CorrAout C × List (Option (Cx ℝ × ℝ))) ×
      Py (Nat × CorrAout C × List (Option (Cx ℝ × ℝ))) :=
  if (t1.isNone ∧ t2.isSome) ∨ (t2.isNone ∧ t1.isSome) then ([], .error .valueError)
  else
    match defaultNormOpt o.norm o.method true with
    | .error e => ([], .error e)
    | .ok norm =>
      match o.n with
      | none => ([], noLevelSize t1 t2 env.dataLen o.method o.count o.mode)
      | some n =>
        let gen := crossGen complex cc data t1 t2
          { levelSize := n, norm := some norm, method := o.method, count := o.count, period := 1
            binning := none, nlevel := some 0, chunkSize := o.chunkSize
            autoBackground := o.autoBackground, mode := o.mode } env
        watch viewer (gen.1.map fun y => ((withStats stats y).fast, (withStats stats y).stats), gen.2)

/-- `iacorr` with `viewer` and `stats` (cddm/core.py:1395-1483): as `iacorrOf`. -/
noncomputable def iacorrView {C : Type} [Zero C] [Add C] (ac : AutoFn C) (cc : CrossFn C)
    (data : List (Cx ℝ)) (t : Option (List Int)) (o : IacorrOpts) (env : IterEnv)
    (stats : Bool) (viewer : Option Int) :
    List (CorrAout C × List (Option (Cx ℝ × ℝ))) ×
      Py (Nat × CorrAout C × List (Option (Cx ℝ × ℝ))) :=
  match defaultNormOpt o.norm o.method false with
  | .error e => ([], .error e)
  | .ok norm =>
    match o.n with
    | none => ([], noLevelSize t none env.dataLen o.method o.count o.mode)
    | some n =>
      let gen := autoGen ac cc data t
        { levelSize := n, norm := some norm, method := o.method, count := o.count, period := 1
          binning := none, nlevel := some 0, chunkSize := o.chunkSize
          autoBackground := o.autoBackground, mode := o.mode } env
      watch viewer (gen.1.map fun y => ((withStats stats y).fast, (withStats stats y).stats), gen.2)

end Cddm
