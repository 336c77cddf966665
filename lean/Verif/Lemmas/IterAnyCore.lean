import Verif.Lemmas.IterAnyLoop
import Verif.Lemmas.IterIdeal
import Verif.Lemmas.MultiReshape
import Verif.Spec.IterAny
import Verif.Model.IterApi

/-! # The iterative functions as a whole, pixel by pixel -/

namespace Cddm
open Spec

/-! ### The one-pixel functions, cut where the shape of the frames is used -/

/-- `crossIter` after the parameters are known. -/
noncomputable def crossIterBody {C : Type} [Zero C] (complex : Bool) (cc : CrossFn C) (cfg : IterCfg) (t1 t2 : List Int)
    (junk : Nat → Nat → Cx ℝ × Cx ℝ) (junkSq : Nat → Nat → ℝ × ℝ) (al al' : Bool) (r : Nat → ℚ) (data : List (Cx ℝ × Cx ℝ)) :
    Py (Nat × IterOut C) := do
  let correlate : Bool := cfg.method ≠ "diff"
  let squares := needsSquares cfg.norm && correlate
  let lf := iterLen complex cfg.nFast
  let ls := iterLen complex cfg.nSlow
  let fast := zeroArrays cfg.norm true correlate lf lf
  let slow := List.replicate cfg.nlevel (zeroArrays cfg.norm true correlate ls ls)
  let ch1 := initChan (fun j k => (junk j k).1) (fun j k => (junkSq j k).1) cfg.nDecades cfg.half squares
  let ch2 := initChan (fun j k => (junk j k).2) (fun j k => (junkSq j k).2) cfg.nDecades cfg.half squares
  let feed : Nat → Cx ℝ × Cx ℝ → Chan × Chan → Py (Chan × Chan) := fun i x ch => do
    let c1 ← feedChan cfg.autoBackground cfg.half cfg.binning r i x.1 ch.1
    let c2 ← feedChan cfg.autoBackground cfg.half cfg.binning r i x.2 ch.2
    .ok (c1, c2)
  let op := crossOp cc cfg t1 t2 al
  let (taken, ch, acc) ← enumLoop cfg.nframes (iterStep cfg feed op) 0 data ((ch1, ch2), ⟨fast, slow⟩)
  if taken - 1 < cfg.nframes - 1 then .error .valueError
  else do
    let f1 := ch.1.f.getLastD []
    let f2 := ch.2.f.getLastD []
    let sq1 := ch.1.sq.map (·.getLastD [])
    let sq2 := ch.2.sq.map (·.getLastD [])
    let j := max cfg.nDecades 1
    let slow ← restCross cc cfg al' r (cfg.nlevel + 1 - j) j cfg.nframes f1 f2 sq1 sq2 acc.slow
    .ok (taken, ⟨acc.fast, slow, [ch.1.stat, ch.2.stat]⟩)

/-- `autoIter` after the parameters are known. -/
noncomputable def autoIterBody {C : Type} [Zero C] [Add C] (ac : AutoFn C) (cc : CrossFn C) (cfg : IterCfg) (t : List Int)
    (junk : Nat → Nat → Cx ℝ) (junkSq : Nat → Nat → ℝ) (al al' : Bool) (r : Nat → ℚ) (data : List (Cx ℝ)) : Py (Nat × IterOut C) := do
  let correlate : Bool := cfg.method ≠ "diff"
  let squares := needsSquares cfg.norm && correlate
  let fast := zeroArrays cfg.norm false correlate cfg.nFast cfg.nFast
  let slow := List.replicate cfg.nlevel (zeroArrays cfg.norm false correlate cfg.nSlow cfg.nSlow)
  let ch := initChan junk junkSq cfg.nDecades cfg.half squares
  let feed := feedChan cfg.autoBackground cfg.half cfg.binning r
  let op := autoOp ac cc cfg t al
  let (taken, ch, acc) ← enumLoop cfg.nframes (iterStep cfg feed op) 0 data (ch, ⟨fast, slow⟩)
  if taken - 1 < cfg.nframes - 1 then .error .valueError
  else do
    let f := ch.f.getLastD []
    let sq := ch.sq.map (·.getLastD [])
    let j := max cfg.nDecades 1
    let slow ← restAuto ac cfg al' r (cfg.nlevel + 1 - j) j cfg.nframes f sq acc.slow
    .ok (taken, ⟨acc.fast, slow, [ch.stat]⟩)

/-! ### The frames -/

/-- The value of a frame at the place where the reshaped frame has pixel `p`. -/
def frameGet (new p : List Nat) (x : Tensor (Cx ℝ)) : Cx ℝ := x.get (unravel x.shape (ravel new p))

theorem reshapeAny_get {new : List Nat} {x : Tensor (Cx ℝ)} (h : x.shape.prod = new.prod) :
    reshapeAny x new = .ok ⟨new, fun p => frameGet new p x⟩ := by
  unfold reshapeAny
  rw [if_neg (by rw [h]; simp)]
  rfl

theorem lastRow_len {V : Type} {D c : Nat} {out : List (List V)} (h : Shape D c out) (hD : 0 < D) : (out.getLastD []).length = c := by
  have hl := h.rows
  have hne : out ≠ [] := by
    rintro rfl
    simp at hl
    omega
  rw [List.getLastD_eq_getLast?, List.getLast?_eq_some_getLast hne]
  have := List.getLast_eq_getElem hne
  exact h.cols (out.length - 1) _ (by rw [List.getElem?_eq_getElem (by omega)]; simp [this])

theorem bufAt_last {V : Type} (p : List Nat) (out : List (List (List Nat → V))) :
    (bufAt p out).getLastD [] = (out.getLastD []).map fun x => x p := by
  unfold bufAt
  rcases List.eq_nil_or_concat out with rfl | ⟨l, x, rfl⟩
  · rfl
  · simp

theorem zero_len {C : Type} [Zero C] (norm : Nat) (cross correlate : Bool) (frame : List Nat) (len clen : Nat) :
    AoutLen frame len (zeroArraysAny (C := C) norm cross correlate frame len clen) := by
  have e : ∀ {M : Type} [Zero M] (b : Bool) (o : Tensor M), (if b = true then some (⟨frame ++ [len], fun _ => (0 : M)⟩ : Tensor M)
      else none) = some o → o.shape = frame ++ [len] := by
    intro M _ b o ho
    cases b
    · cases ho
    · cases ho
      rfl
  exact ⟨fun o ho => by cases ho; rfl, e _, e _, e _⟩

/-- What is returned for one pixel of the reshaped frames. -/
def rawAt {C : Type} (frame p : List Nat) (r : IterRaw C) : Nat × IterOut C :=
  (r.taken, ⟨aoutAt frame r.fast p, r.slow.map fun a => aoutAt frame a p, r.stats.map fun s => s.map fun s => (s.1 p, s.2 p)⟩)

/-- The shapes of what is returned. -/
def RawFits {C : Type} (frame : List Nat) (r : IterRaw C) : Prop :=
  (∃ L, r.fastShape = frame ++ [L]) ∧ (∃ L, r.slowShape = frame ++ [L]) ∧ AoutFits frame r.fast ∧ ∀ a ∈ r.slow, AoutFits frame a

/-- What the parameters have to satisfy. -/
structure CfgOK (cfg : IterCfg) : Prop where
  slow : 0 < cfg.nSlow
  half : cfg.nSlow ≤ cfg.half
  dims : Dims (max cfg.nDecades 1) (if cfg.nDecades > 0 then cfg.half * 2 else cfg.half) cfg.half cfg.nframes
  rest : ∀ m, 1 ≤ m → m ≤ cfg.nlevel + 1 - max cfg.nDecades 1 →
    cfg.nSlow ≤ (binCount cfg.binning)^[m] (if cfg.nDecades > 0 then cfg.half * 2 else cfg.half)

theorem ParamsOK.cfgOK {t1 t2 : Option (List Int)} {dataLen : Option Nat} {period levelSize : Nat}
    {chunkSize : Option Nat} {binning : Option Int} {method : Option String} {count : Option Nat}
    {autoBackground : Bool} {nlevel : Option Int} {mode : String} {T1 T2 : List Int} {cfg : IterCfg} {cnt k : Nat}
    (h : ParamsOK t1 t2 dataLen period levelSize chunkSize binning method count autoBackground nlevel mode T1 T2 cfg cnt k) (norm : Nat) :
    CfgOK { cfg with norm := norm } := by
  refine ⟨by show 0 < cfg.nSlow; rw [h.slow]; exact h.level, by show cfg.nSlow ≤ cfg.half; rw [h.slow]; exact h.half_pos.2.1, h.dims,
    fun m m1 mk => ?_⟩
  dsimp only at mk ⊢
  obtain ⟨-, e⟩ := h.lastRow (by omega)
  rw [← e, h.slow]
  refine le_trans ?_ (div_le_binCount _ _ _)
  rw [Nat.div_div_eq_div_mul, ← pow_add]
  exact le_trans h.sizes.enough (div_pow_anti (by omega))

theorem rowsOK_slow (complex : Bool) {cfg : IterCfg} (h : CfgOK cfg) {N : Nat} (hN : cfg.nSlow ≤ N) :
    NotTooLong N complex (iterLen complex cfg.nSlow) := by
  have := h.slow
  unfold NotTooLong iterLen
  cases complex
  · simp only [Bool.false_eq_true, if_false]
    omega
  · simp only [if_true]
    constructor <;> omega

theorem cell_choice {cfg : IterCfg} (h : CfgOK cfg) {i d : Nat} (hi : i < cfg.nframes) (hd : cfg.half ≤ d) :
    (if cfg.nDecades > 0 then cfg.half * 2 else cfg.half) = cfg.half * 2 ∨
      (if cfg.nDecades > 0 then cfg.half * 2 else cfg.half) = cfg.half ∧ i / d = 0 := by
  rcases h.dims.cols with e | ⟨-, e, e2⟩
  · left
    rw [e]
    ring
  · exact Or.inr ⟨e, Nat.div_eq_of_lt (by omega)⟩

theorem half_le_pow (half j : Nat) : half ≤ half * 2 ^ j := Nat.le_mul_of_pos_right _ (Nat.two_pow_pos j)

theorem max_one (nd : Nat) : (if nd > 0 then nd else 1) = max nd 1 := by
  split <;> omega

theorem crossIterCore_pw {C : Type} [Zero C] {frame : List Nat} {complex : Bool} {cc : CrossFnAny C} {cc1 : CrossFn C}
    (hcc : CrossAt0 frame complex cc cc1) {p0 : List Nat} (hp0 : InShape p0 frame) {cfg : IterCfg} (hcfg : CfgOK cfg)
    (t1 t2 : List Int) (junk : Nat → Nat → List Nat → Cx ℝ × Cx ℝ) (junkSq : Nat → Nat → List Nat → ℝ × ℝ) (r : Nat → ℚ)
    (data : List (Tensor (Cx ℝ) × Tensor (Cx ℝ))) (hdata : ∀ x ∈ data, x.1.shape.prod = frame.prod ∧ x.2.shape.prod = frame.prod) :
    PW frame (rawAt frame) (RawFits frame) (crossIterCore complex cc cfg t1 t2 frame junk junkSq r data) fun p =>
      crossIterBody complex cc1 cfg t1 t2 (fun j k => junk j k p) (fun j k => junkSq j k p) false false r
        (data.map fun x => (frameGet frame p x.1, frameGet frame p x.2)) := by
  unfold crossIterCore crossIterBody
  have hc1 := initChanAny_ok (fun j k p => (junk j k p).1) (fun j k p => (junkSq j k p).1) cfg.nDecades cfg.half
    (needsSquares cfg.norm && decide (cfg.method ≠ "diff"))
  have hc2 := initChanAny_ok (fun j k p => (junk j k p).2) (fun j k p => (junkSq j k p).2) cfg.nDecades cfg.half
    (needsSquares cfg.norm && decide (cfg.method ≠ "diff"))
  have loop := enumLoop_pw (frame := frame) (nframes := cfg.nframes)
    (step := iterStepAny (C := C) cfg (fun i (x : Tensor (Cx ℝ) × Tensor (Cx ℝ)) (ch : ChanAny × ChanAny) => do
      let x1 ← reshapeAny x.1 frame
      let x2 ← reshapeAny x.2 frame
      let c1 ← feedChanAny cfg.autoBackground cfg.half cfg.binning r i x1.get ch.1
      let c2 ← feedChanAny cfg.autoBackground cfg.half cfg.binning r i x2.get ch.2
      .ok (c1, c2)) (crossOpAny cc cfg frame t1 t2))
    (step1 := iterStep (C := C) cfg (fun i (x : Cx ℝ × Cx ℝ) (ch : Chan × Chan) => do
      let c1 ← feedChan cfg.autoBackground cfg.half cfg.binning r i x.1 ch.1
      let c2 ← feedChan cfg.autoBackground cfg.half cfg.binning r i x.2 ch.2
      .ok (c1, c2)) (crossOp cc1 cfg t1 t2 false))
    (sel := fun p s => ((chanAt p s.1.1, chanAt p s.1.2), accPix frame p s.2))
    (P := fun s => (ChanSized _ _ s.1.1 ∧ ChanSized _ _ s.1.2) ∧
      AccLen frame (iterLen complex cfg.nFast) (iterLen complex cfg.nSlow) s.2)
    (dsel := fun p x => (frameGet frame p x.1, frameGet frame p x.2))
    (Q := fun x => x.1.shape.prod = frame.prod ∧ x.2.shape.prod = frame.prod)
    (fun i x s hi hx hs => ?_) data 0
    ((initChanAny (fun j k p => (junk j k p).1) (fun j k p => (junkSq j k p).1) cfg.nDecades cfg.half
        (needsSquares cfg.norm && decide (cfg.method ≠ "diff")),
      initChanAny (fun j k p => (junk j k p).2) (fun j k p => (junkSq j k p).2) cfg.nDecades cfg.half
        (needsSquares cfg.norm && decide (cfg.method ≠ "diff"))),
      ⟨zeroArraysAny cfg.norm true (decide (cfg.method ≠ "diff")) frame (iterLen complex cfg.nFast) (iterLen complex cfg.nFast),
        List.replicate cfg.nlevel (zeroArraysAny cfg.norm true (decide (cfg.method ≠ "diff")) frame (iterLen complex cfg.nSlow)
          (iterLen complex cfg.nSlow))⟩) (Nat.zero_le _) hdata
    ⟨⟨hc1, hc2⟩, zero_len _ _ _ _ _ _, fun a ha => by rw [List.eq_of_mem_replicate ha]; exact zero_len _ _ _ _ _ _⟩
  · refine PW.bind (PW.congr loop fun p hp => ?_) fun a _ ha => ?_
    · simp only [initChan_at, accPix, aoutAt_zero, List.map_replicate]
    · obtain ⟨taken, ⟨ch1, ch2⟩, acc⟩ := a
      obtain ⟨⟨l1, l2⟩, l3, l4⟩ := ha
      rw [max_one] at l1 l2
      dsimp only at l1 l2 l3 l4 ⊢
      by_cases ht : taken - 1 < cfg.nframes - 1
      · simp only [if_pos ht]
        exact fun p _ => rfl
      · simp only [if_neg ht]
        refine PW.bind (PW.congr (restCross_pw hcc hp0 cfg r (fun N hN => rowsOK_slow complex hcfg hN) _ _ _ _ _ _ _ _ _
          (by simp only [stackFrames, lastRow_len l1.1 hcfg.dims.rows]) (by simp only [stackFrames, lastRow_len l2.1 hcfg.dims.rows])
          (fun s hs => ?_) (fun s hs => ?_) hcfg.rest l4) fun p hp => ?_) fun slow _ hslow => ?_
        · rcases hq : ch1.sq with _ | q
          · rw [hq] at hs
            cases hs
          · rw [hq] at hs
            cases hs
            simp only [stackFrames, lastRow_len (l1.2 q hq) hcfg.dims.rows]
        · rcases hq : ch2.sq with _ | q
          · rw [hq] at hs
            cases hs
          · rw [hq] at hs
            cases hs
            simp only [stackFrames, lastRow_len (l2.2 q hq) hcfg.dims.rows]
        · simp only [along_stack, chanAt, bufAt_last, Option.map_map, Function.comp_def, accPix]
        · exact PW.ok ⟨⟨_, rfl⟩, ⟨_, rfl⟩, l3.fits, fun a ha => (hslow a ha).fits⟩ fun p _ => rfl
  · refine iterStep_pw (selB := fun p b => (chanAt p b.1, chanAt p b.2)) (dsel := fun p x => (frameGet frame p x.1, frameGet frame p x.2))
      (PB := fun b => ChanSized _ _ b.1 ∧ ChanSized _ _ b.2) cfg i x s ?_ (fun b row hb hr => ?_) (fun b j row hb hj hr => ?_) hs.2
    · simp only [reshapeAny_get hx.1, reshapeAny_get hx.2]
      show PW _ _ _ (feedChanAny _ _ _ _ _ _ _ >>= _) _
      refine PW.bind (PW.of_map (P := ChanSized _ _) (sel := chanAt)
        (fun p => feedChan_at _ _ _ _ _ (fun p => frameGet frame p x.1) _ p) fun a ha => feedChanAny_ok hs.1.1 ha) fun c1 _ h1 => ?_
      refine PW.bind (PW.of_map (P := ChanSized _ _) (sel := chanAt)
        (fun p => feedChan_at _ _ _ _ _ (fun p => frameGet frame p x.2) _ p) fun a ha => feedChanAny_ok hs.1.2 ha) fun c2 _ h2 => ?_
      exact PW.ok ⟨h1, h2⟩ fun p _ => rfl
    · exact crossOp_pw hcc hp0 cfg t1 t2 0 _ hb.1 hb.2 (cell_choice hcfg hi le_rfl) hr (fun h => absurd rfl h)
    · exact crossOp_pw hcc hp0 cfg t1 t2 j _ hb.1 hb.2 (cell_choice hcfg hi (half_le_pow _ j)) hr
        (fun _ => ⟨rowsOK_slow complex hcfg hcfg.half, by have := hcfg.half; omega⟩)

theorem autoIterCore_pw {C : Type} [Zero C] [Add C] {frame : List Nat} {complex : Bool} {ac : AutoFnAny C} {ac1 : AutoFn C}
    {cc : CrossFnAny C} {cc1 : CrossFn C} (hac : AutoAt0 frame ac ac1) (hcc : CrossAt0 frame complex cc cc1) {p0 : List Nat}
    (hp0 : InShape p0 frame) {cfg : IterCfg} (hcfg : CfgOK cfg) (t : List Int) (junk : Nat → Nat → List Nat → Cx ℝ)
    (junkSq : Nat → Nat → List Nat → ℝ) (r : Nat → ℚ) (data : List (Tensor (Cx ℝ)))
    (hdata : ∀ x ∈ data, x.shape.prod = frame.prod) :
    PW frame (rawAt frame) (RawFits frame) (autoIterCore ac cc cfg t frame junk junkSq r data) fun p =>
      autoIterBody ac1 cc1 cfg t (fun j k => junk j k p) (fun j k => junkSq j k p) false false r (data.map (frameGet frame p)) := by
  unfold autoIterCore autoIterBody
  have hc1 := initChanAny_ok junk junkSq cfg.nDecades cfg.half (needsSquares cfg.norm && decide (cfg.method ≠ "diff"))
  have loop := enumLoop_pw (frame := frame) (nframes := cfg.nframes)
    (step := iterStepAny (C := C) cfg (fun i (x : Tensor (Cx ℝ)) (ch : ChanAny) => do
      let x ← reshapeAny x frame
      feedChanAny cfg.autoBackground cfg.half cfg.binning r i x.get ch) (autoOpAny ac cc cfg frame t))
    (step1 := iterStep (C := C) cfg (feedChan cfg.autoBackground cfg.half cfg.binning r) (autoOp ac1 cc1 cfg t false))
    (sel := fun p s => (chanAt p s.1, accPix frame p s.2))
    (P := fun s => ChanSized _ _ s.1 ∧ AccLen frame cfg.nFast cfg.nSlow s.2)
    (dsel := frameGet frame) (Q := fun x => x.shape.prod = frame.prod) (fun i x s hi hx hs => ?_) data 0
    (initChanAny junk junkSq cfg.nDecades cfg.half (needsSquares cfg.norm && decide (cfg.method ≠ "diff")),
      ⟨zeroArraysAny cfg.norm false (decide (cfg.method ≠ "diff")) frame cfg.nFast cfg.nFast,
        List.replicate cfg.nlevel (zeroArraysAny cfg.norm false (decide (cfg.method ≠ "diff")) frame cfg.nSlow cfg.nSlow)⟩)
    (Nat.zero_le _) hdata
    ⟨hc1, zero_len _ _ _ _ _ _, fun a ha => by rw [List.eq_of_mem_replicate ha]; exact zero_len _ _ _ _ _ _⟩
  · refine PW.bind (PW.congr loop fun p hp => ?_) fun a _ ha => ?_
    · simp only [initChan_at, accPix, aoutAt_zero, List.map_replicate]
    · obtain ⟨taken, ch, acc⟩ := a
      obtain ⟨l1, l3, l4⟩ := ha
      rw [max_one] at l1
      dsimp only at l1 l3 l4 ⊢
      by_cases ht : taken - 1 < cfg.nframes - 1
      · simp only [if_pos ht]
        exact fun p _ => rfl
      · simp only [if_neg ht]
        refine PW.bind (PW.congr (restAuto_pw hac hp0 cfg r (fun N hN => rowsOK_slow false hcfg hN) _ _ _ _ _ _ _
          (by simp only [stackFrames, lastRow_len l1.1 hcfg.dims.rows]) (fun s hs => ?_) hcfg.rest l4) fun p hp => ?_)
          fun slow _ hslow => ?_
        · rcases hq : ch.sq with _ | q
          · rw [hq] at hs
            cases hs
          · rw [hq] at hs
            cases hs
            simp only [stackFrames, lastRow_len (l1.2 q hq) hcfg.dims.rows]
        · simp only [along_stack, chanAt, bufAt_last, Option.map_map, Function.comp_def, accPix]
        · exact PW.ok ⟨⟨_, rfl⟩, ⟨_, rfl⟩, l3.fits, fun a ha => (hslow a ha).fits⟩ fun p _ => rfl
  · refine iterStep_pw (selB := chanAt) (dsel := frameGet frame) (PB := ChanSized _ _) cfg i x s ?_ (fun b row hb hr => ?_)
      (fun b j row hb hj hr => ?_) hs.2
    · simp only [reshapeAny_get hx]
      show PW _ _ _ (feedChanAny _ _ _ _ _ _ _) _
      exact PW.of_map (P := ChanSized _ _) (sel := chanAt)
        (fun p => feedChan_at _ _ _ _ _ (fun p => frameGet frame p x) _ p) fun a ha => feedChanAny_ok hs.1 ha
    · exact autoOp_pw hac hcc hp0 cfg t 0 _ hb (cell_choice hcfg hi le_rfl) hr (fun h => absurd rfl h)
    · exact autoOp_pw hac hcc hp0 cfg t j _ hb (cell_choice hcfg hi (half_le_pow _ j)) hr
        (fun _ => ⟨rowsOK_slow false hcfg hcfg.half, by have := hcfg.half; omega⟩)

/-! ### The last reshaping -/

theorem reshapeStat_get {F new : List Nat} (h : F.prod = new.prod) (s : Option ((List Nat → Cx ℝ) × (List Nat → ℝ))) :
    reshapeStat F new s = .ok (s.map fun s => (⟨F, fun p => s.1 (movedPixel F new p)⟩, ⟨F, fun p => s.2 (movedPixel F new p)⟩)) := by
  rcases s with _ | s
  · rfl
  · unfold reshapeStat reshapeAny
    simp only [h, ne_eq, not_true, if_false]
    rfl

theorem mapM_total {α β : Type} {f : α → Py β} {g : α → β} (h : ∀ a, f a = .ok (g a)) : ∀ l : List α, l.mapM f = .ok (l.map g)
  | [] => rfl
  | a :: l => by
    rw [List.mapM_cons, h, mapM_total h l]
    rfl

theorem reshapeIter_pw {C : Type} {F new G : List Nat} {place : List Nat → List Nat} (hlead : LeadGives F new G)
    (hF : F.prod = new.prod) (hG : G.prod = new.prod) (hplace : ∀ p, InShape p F → InShape (place p) G ∧ ravel G (place p) = ravel F p)
    {p0 : List Nat} (hp0 : InShape p0 F) {res : Py (IterRaw C)} {one one' : List Nat → Py (Nat × IterOut C)}
    (hres : PW new (rawAt new) (RawFits new) res one) (hone : ∀ p, InShape p F → one' p = one (movedPixel F new p)) :
    PixelWiseIterIn F G place (res >>= reshapeIter F new) one' := by
  rcases res with e | raw
  · intro p hp
    rw [hone p hp]
    exact hres _ (movedPixel_in hF hp).1
  · obtain ⟨⟨h1, h2, h3, h4⟩, hr⟩ := hres
    have key := reshapeMulti_ok (C := C) hlead hG (res := .ok ((raw.fastShape, raw.slowShape), raw.fast, raw.slow))
      (one := fun q => .ok (aoutAt new raw.fast q, raw.slow.map fun a => aoutAt new a q))
      (one' := fun p => .ok (aoutAt new raw.fast (movedPixel G new p), raw.slow.map fun a => aoutAt new a (movedPixel G new p)))
      ⟨⟨h1, h2, h3, h4⟩, fun p _ => rfl⟩ fun p _ => rfl
    change PixelWiseMulti G (reshapeMulti F raw.fastShape raw.slowShape (raw.fast, raw.slow)) _ at key
    show PixelWiseIterIn F G place (reshapeIter F new raw) one'
    unfold reshapeIter
    rcases hm : reshapeMulti F raw.fastShape raw.slowShape (raw.fast, raw.slow) with e | ⟨fast, slow⟩
    · rw [hm] at key
      have := key _ (hplace p0 hp0).1
      cases this
    · rw [hm] at key
      obtain ⟨k1, k2, k3⟩ := key
      rw [mapM_total (reshapeStat_get hF)]
      refine ⟨k1, k2, fun m v hmv => ?_, fun p hp => ?_⟩
      · obtain ⟨s, -, hs⟩ := List.mem_map.1 hmv
        rcases s with _ | s
        · cases hs
        · cases hs
          exact ⟨rfl, rfl⟩
      · have e : movedPixel G new (place p) = movedPixel F new p := by
          unfold movedPixel
          rw [(hplace p hp).2]
        have := k3 _ (hplace p hp).1
        beta_reduce at this
        rw [e] at this
        injection this with this
        rw [hone p hp, hr _ (movedPixel_in hF hp).1]
        unfold rawAt
        rw [(Prod.mk.inj this).1, (Prod.mk.inj this).2]
        simp only [List.map_map]
        refine congrArg Except.ok (congrArg (Prod.mk _) (congrArg (IterOut.mk _ _) (List.map_congr_left fun s _ => ?_)))
        rcases s with _ | s <;> rfl

/-! ### The whole -/

theorem frameGet_moved {F new p : List Nat} (h : F.prod = new.prod) (hp : InShape p F) {x : Tensor (Cx ℝ)} (hx : x.shape = F) :
    frameGet new (movedPixel F new p) x = x.get p := by
  unfold frameGet
  rw [(movedPixel_in h hp).2, hx, unravel_ravel hp]

theorem iterFrameShape_ok {F new : List Nat} {divisor : Option Int}
    (h : threadFrameShape F divisor true = .ok (new.map fun (n : Nat) => (n : Int))) : iterFrameShape F divisor = .ok new := by
  unfold iterFrameShape
  rw [h]
  show (if _ then _ else _) = _
  rw [if_neg (by simp)]
  have : (new.map fun (n : Nat) => (n : Int)).map Int.toNat = new := by
    rw [List.map_map]
    exact (List.map_congr_left fun a _ => by simp).trans (List.map_id _)
  rw [this]

/-- The pixel values in new arrays, at the places of the frame as given. -/
def movedEnv (env : IterEnvAny) (F new p : List Nat) : IterEnv :=
  ⟨env.dataLen, fun j k => env.junk j k (movedPixel F new p), fun j k => env.junkSq j k (movedPixel F new p), false, false, env.rand⟩

theorem crossIterAny_pw {C : Type} [Zero C] {complex : Bool} {cc : CrossFnAny C} {cc1 : CrossFn C} {F new G : List Nat}
    {place : List Nat → List Nat} (data : List (Tensor (Cx ℝ) × Tensor (Cx ℝ))) (t1 t2 : Option (List Int)) (o : MultiOpts)
    (divisor : Option Int) (env : IterEnvAny) (hcc : CrossAt0 new complex cc cc1)
    (hnew : iterFrameShape F divisor = .ok new) (hlead : LeadGives F new G) (hF : F.prod = new.prod) (hG : G.prod = new.prod)
    (hplace : ∀ p, InShape p F → InShape (place p) G ∧ ravel G (place p) = ravel F p) {p0 : List Nat} (hp0 : InShape p0 F)
    (hdata : ∀ x ∈ data, x.1.shape = F ∧ x.2.shape = F) :
    PixelWiseIterIn F G place (crossIterAny complex cc data t1 t2 o divisor env) fun p =>
      crossIterOf complex cc1 (data.map fun x => (x.1.get p, x.2.get p)) t1 t2 o (movedEnv env F new p) := by
  unfold crossIterAny crossIterOf crossIter
  simp only [movedEnv]
  cases hpar : iterParams t1 t2 env.dataLen o.period o.levelSize o.chunkSize o.binning o.method o.count o.autoBackground o.nlevel
    o.mode with
  | error e => exact fun p _ => rfl
  | ok par =>
    obtain ⟨T1, T2, cfg⟩ := par
    obtain ⟨cnt, k, hok⟩ := iterParams_ok hpar
    rcases data with _ | ⟨x, data⟩
    · show PixelWiseIterIn F G place (if 0 < cfg.nframes - 1 then .error .valueError else .error .nameError) fun p =>
        (if 0 < cfg.nframes - 1 then .error .valueError else .error .nameError)
      by_cases hn : 0 < cfg.nframes - 1
      · simp only [if_pos hn]
        exact fun p _ => rfl
      · simp only [if_neg hn]
        exact fun p _ => rfl
    · have hsh : x.1.shape = F := (hdata x (by simp)).1
      show PixelWiseIterIn F G place (iterFrameShape x.1.shape divisor >>= _) _
      rw [hsh, hnew]
      show PixelWiseIterIn F G place (defaultNorm o.norm cfg.method true >>= _) fun p => defaultNorm o.norm cfg.method true >>= _
      cases hN : defaultNorm o.norm cfg.method true with
      | error e => exact fun p _ => rfl
      | ok norm =>
        have hmp := movedPixel_in hF hp0
        refine reshapeIter_pw hlead hF hG hplace hp0 (crossIterCore_pw hcc hmp.1 (hok.cfgOK norm) T1 T2 env.junk env.junkSq env.rand
          (x :: data) fun y hy => ?_) fun p hp => ?_
        · obtain ⟨y1, y2⟩ := hdata y hy
          rw [y1, y2]
          exact ⟨hF, hF⟩
        · have e : ((x :: data).map fun x => (frameGet new (movedPixel F new p) x.1, frameGet new (movedPixel F new p) x.2))
              = (x :: data).map fun x => (x.1.get p, x.2.get p) := List.map_congr_left fun y hy => by
            rw [frameGet_moved hF hp (hdata y hy).1, frameGet_moved hF hp (hdata y hy).2]
          rw [e]
          unfold crossIterBody
          simp only [hok.auto]
          rfl

theorem autoIterAny_pw {C : Type} [Zero C] [Add C] {complex : Bool} {ac : AutoFnAny C} {ac1 : AutoFn C} {cc : CrossFnAny C}
    {cc1 : CrossFn C} {F new G : List Nat} {place : List Nat → List Nat} (data : List (Tensor (Cx ℝ))) (t : Option (List Int))
    (o : MultiOpts) (divisor : Option Int) (env : IterEnvAny) (hac : AutoAt0 new ac ac1) (hcc : CrossAt0 new complex cc cc1)
    (hnew : iterFrameShape F divisor = .ok new) (hlead : LeadGives F new G) (hF : F.prod = new.prod) (hG : G.prod = new.prod)
    (hplace : ∀ p, InShape p F → InShape (place p) G ∧ ravel G (place p) = ravel F p) {p0 : List Nat} (hp0 : InShape p0 F)
    (hdata : ∀ x ∈ data, x.shape = F) :
    PixelWiseIterIn F G place (autoIterAny ac cc data t o divisor env) fun p =>
      autoIterOf ac1 cc1 (data.map fun x => x.get p) t o (movedEnv env F new p) := by
  unfold autoIterAny autoIterOf autoIter
  simp only [movedEnv]
  cases hpar : iterParams t none env.dataLen o.period o.levelSize o.chunkSize o.binning o.method o.count o.autoBackground o.nlevel
    o.mode with
  | error e => exact fun p _ => rfl
  | ok par =>
    obtain ⟨T1, T2, cfg⟩ := par
    obtain ⟨cnt, k, hok⟩ := iterParams_ok hpar
    rcases data with _ | ⟨x, data⟩
    · show PixelWiseIterIn F G place (if 0 < cfg.nframes - 1 then .error .valueError else .error .nameError) fun p =>
        (if 0 < cfg.nframes - 1 then .error .valueError else .error .nameError)
      by_cases hn : 0 < cfg.nframes - 1
      · simp only [if_pos hn]
        exact fun p _ => rfl
      · simp only [if_neg hn]
        exact fun p _ => rfl
    · have hsh : x.shape = F := hdata x (by simp)
      show PixelWiseIterIn F G place (iterFrameShape x.shape divisor >>= _) _
      rw [hsh, hnew]
      show PixelWiseIterIn F G place (defaultNorm o.norm cfg.method false >>= _) fun p => defaultNorm o.norm cfg.method false >>= _
      cases hN : defaultNorm o.norm cfg.method false with
      | error e => exact fun p _ => rfl
      | ok norm =>
        have hmp := movedPixel_in hF hp0
        refine reshapeIter_pw hlead hF hG hplace hp0 (autoIterCore_pw hac hcc hmp.1 (hok.cfgOK norm) T1 (fun j k p => (env.junk j k p).1)
          (fun j k p => (env.junkSq j k p).1) env.rand (x :: data) fun y hy => ?_) fun p hp => ?_
        · rw [hdata y hy]
          exact hF
        · have e : (x :: data).map (frameGet new (movedPixel F new p)) = (x :: data).map fun x => x.get p :=
            List.map_congr_left fun y hy => frameGet_moved hF hp (hdata y hy)
          rw [e]
          unfold autoIterBody
          simp only [hok.auto]
          rfl

end Cddm
