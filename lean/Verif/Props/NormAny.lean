import Verif.Lemmas.NormAny
import Verif.Props.AnyAxisCcorr

/-! # C119: `normalize` acts on every wave vector by itself -/

namespace Cddm
open Spec
variable {C : Type} [AddCommGroup C] [Module ℝ C]

omit [AddCommGroup C] [Module ℝ C] in
theorem unpackTwo_fits {α : Type} {s : List Nat} {x : FrameArg α} (h : ArgFits s x) : unpackTwo x = x := by
  cases x with
  | pair x y => rfl
  | arr x =>
    obtain ⟨h1, h2⟩ := h
    simp only [unpackTwo]
    rw [h1]
    rcases s with _ | ⟨k, s⟩
    · rfl
    · match k, h2 with
      | 0, _ => rfl
      | 1, _ => rfl
      | 2, h2 => simp at h2
      | k + 3, _ => rfl

theorem inspectFrames_none {α : Type} {s : List Nat} {x : FrameArg α} (h : ArgFits s x) : inspectFrames none x = .ok x := by
  unfold inspectFrames
  rw [unpackTwo_fits h]
  cases x <;> rfl

/-- `x[mask]` of both arrays of a pair. -/
def chosenArg {α : Type} (sel : List (List Nat)) (x : FrameArg α) : FrameArg α :=
  let f (x : Tensor α) : Tensor α := ⟨[sel.length], fun p => x.get (sel.getD (p.headD 0) [] ++ p.tail)⟩
  match x with
  | .arr x => .arr (f x)
  | .pair x y => .pair (f x) (f y)

theorem inspectFrames_mask {α : Type} {x : FrameArg α} (m : Tensor Bool) (h : ArgFits m.shape x) :
    inspectFrames (some m) x = .ok (chosenArg (selectedBy m) x) := by
  unfold inspectFrames
  rw [unpackTwo_fits h]
  cases x with
  | arr x => simp [maskedFrame, h.1, chosenArg, bind, Except.bind]
  | pair x y => simp [maskedFrame, h.1, h.2, chosenArg, bind, Except.bind]

/-- `data[..., mask, :]` of an array of `k` levels. -/
def chosenData {α : Type} (k n : Nat) (lev : List Nat) (sel : List (List Nat)) (x : Tensor α) : Tensor α :=
  ⟨lev ++ [sel.length] ++ [n], fun p => x.get (p.take k ++ sel.getD (p.getD k 0) [] ++ p.drop (k + 1))⟩

theorem maskData_some {α : Type} (m : Tensor Bool) (x : Tensor α) (lev : List Nat) (n : Nat)
    (h : x.shape = lev ++ m.shape ++ [n]) :
    maskData (some m) x = .ok (chosenData lev.length n lev (selectedBy m) x) := by
  have hd : (lev ++ m.shape ++ [n]).length - 1 - m.shape.length = lev.length := by simp
  have e1 : ((lev ++ m.shape ++ [n]).drop lev.length).dropLast = m.shape := by
    rw [List.append_assoc, List.drop_left, List.dropLast_concat]
  have e2 : (lev ++ m.shape ++ [n]).take lev.length = lev := by rw [List.append_assoc, List.take_left]
  unfold maskData
  simp only [h, hd, e1, e2]
  rw [if_pos ⟨by simp, trivial⟩]
  simp [chosenData]

theorem maskDataOpt_some {α : Type} (m : Tensor Bool) (x : Option (Tensor α)) (lev : List Nat) (n : Nat)
    (h : ∀ y, x = some y → y.shape = lev ++ m.shape ++ [n]) :
    maskDataOpt (some m) x = .ok (x.map (chosenData lev.length n lev (selectedBy m))) := by
  cases x with
  | none => rfl
  | some x => simp only [maskDataOpt, maskData_some m x lev n (h x rfl)]; rfl

theorem curveAt_chosen {α : Type} (n : Nat) (lev S : List Nat) (sel : List (List Nat)) (x : Tensor α)
    (h : x.shape = lev ++ S ++ [n]) {a : List Nat} (ha : InShape a lev) (i : Nat) :
    curveAt (chosenData lev.length n lev sel x) (a ++ [i]) = curveAt x (a ++ sel.getD i []) := by
  unfold curveAt chosenData
  rw [h]
  simp only [List.getLastD_concat]
  refine List.map_congr_left fun j _ => ?_
  rw [← inShape_length ha]
  congr 1
  simp [List.getD_eq_getElem?_getD]

/-- C119 without a mask.  For data of any number of levels and any frame, and any background and variance that have the shape of the
frame (or are numbers), `normalize` returns at every level and wave vector what it returns for that level and wave vector
alone, and raises only what it raises for one of them.  Missing from the full statement: a single background or variance whose
first axis has length two, for which it is false. -/
theorem C119_each_wave_partial (ops : NormOps C) (data : DataAny C) (bg : Option (FrameArg (Cx ℝ))) (var : Option (FrameArg ℝ))
    (norm : Option Int) (mode : String) (scale : Bool) (weight : Option (Tensor C)) (lev frame : List Nat) (n : Nat)
    (hne : 0 ∉ lev ++ frame) (hd : DataFits lev frame n data)
    (hb : ∀ x, bg = some x → ArgFits frame x ∨ ArgFits [] x) (hv : ∀ x, var = some x → ArgFits frame x ∨ ArgFits [] x)
    (hw : ∀ x, weight = some x → x.shape = lev ++ frame ++ [n]) :
    WaveWise (lev ++ frame) n (normalizeAny ops data bg var norm mode scale none weight) fun q =>
      normalize ops (dataAt data (q.take lev.length) (q.drop lev.length))
        (bg.map (backgroundAt · (q.drop lev.length))) (var.map (varianceAt · (q.drop lev.length))) norm mode scale
        (weight.map (curveAt · q)) := by
  obtain ⟨q0, hq0⟩ : ∃ q, InShape q (lev ++ frame) := by
    refine ⟨(lev ++ frame).map fun _ => 0, ?_⟩
    have : ∀ s : List Nat, 0 ∉ s → InShape (s.map fun _ => 0) s := by
      intro s
      induction s with
      | nil => intro _; exact List.Forall₂.nil
      | cons k s ih =>
        intro h
        simp only [List.mem_cons, not_or] at h
        exact List.Forall₂.cons (Nat.pos_of_ne_zero (Ne.symm h.1)) (ih h.2)
    exact this _ hne
  have taken : ∀ {α : Type} (x : FrameArg α), ArgFits frame x ∨ ArgFits [] x →
      inspectFrames none x = .ok x ∧ TakenFits frame x := by
    rintro α x (h | h)
    · refine ⟨inspectFrames_none h, ?_⟩
      cases x with
      | arr x => exact .inl h.1
      | pair x y => exact ⟨h.2.trans h.1.symm, .inl h.1⟩
    · refine ⟨inspectFrames_none h, ?_⟩
      cases x with
      | arr x => exact .inr h.1
      | pair x y => exact ⟨h.2.trans h.1.symm, .inr h.1⟩
  have ob : inspectOpt none bg = .ok bg := by
    cases bg with
    | none => rfl
    | some x => simp only [inspectOpt, (taken x (hb x rfl)).1]; rfl
  have ov : inspectOpt none var = .ok var := by
    cases var with
    | none => rfl
    | some x => simp only [inspectOpt, (taken x (hv x rfl)).1]; rfl
  cases hm : inspectMode mode with
  | error e =>
    have e1 : normalizeAny ops data bg var norm mode scale none weight = .error e := by
      unfold normalizeAny; rw [hm]; rfl
    rw [e1]
    exact ⟨q0, hq0, by unfold normalize; rw [hm]; rfl⟩
  | ok mode' =>
    have hmode : mode' = mode := by
      unfold inspectMode at hm
      split_ifs at hm
      cases hm; rfl
    subst hmode
    cases hz : normOf (dataRow data 0 []) norm with
    | error e =>
      have e1 : normalizeAny ops data bg var norm mode' scale none weight = .error e := by
        unfold normalizeAny; rw [hm, hz]; rfl
      rw [e1]
      refine ⟨q0, hq0, ?_⟩
      simp only [normalize, hm, normOf_dataAt, hz]; rfl
    | ok z =>
      have ho : data ≠ .other := by rintro rfl; cases hz
      have e2 : takeDataAny none data = .ok data := by
        cases data with
        | corr cor count sq s1 s2 => cases sq <;> cases s1 <;> cases s2 <;> rfl
        | diff dif count s1 s2 => cases s1 <;> cases s2 <;> rfl
        | other => exact absurd rfl ho
      have e1 : normalizeAny ops data bg var norm mode' scale none weight =
          normalizeTaken ops data bg var norm mode' scale weight := by
        unfold normalizeAny
        rw [hm, hz, ob, ov, e2]; rfl
      rw [e1]
      exact normalizeTaken_ok ops data bg var norm mode' scale weight lev frame n hd ho
        (fun x hx => (taken x (hb x hx)).2) (fun x hx => (taken x (hv x hx)).2) hw ⟨q0, hq0⟩

/-- C119 with a mask: the result has one axis in place of those of the frame, along which the selected wave vectors are in the order
of numpy, and each holds what `normalize` returns for that wave vector alone. -/
theorem C119_mask_partial (ops : NormOps C) (data : DataAny C) (bg : Option (FrameArg (Cx ℝ))) (var : Option (FrameArg ℝ))
    (norm : Option Int) (mode : String) (scale : Bool) (m : Tensor Bool) (weight : Option (Tensor C)) (lev : List Nat) (n : Nat)
    (sel : List (List Nat)) (hsel : MaskOrder m sel) (hne : 0 ∉ lev) (hne' : sel ≠ []) (hd : DataFits lev m.shape n data)
    (hb : ∀ x, bg = some x → ArgFits m.shape x) (hv : ∀ x, var = some x → ArgFits m.shape x)
    (hw : ∀ x, weight = some x → x.shape = lev ++ [sel.length] ++ [n]) :
    WaveWise (lev ++ [sel.length]) n (normalizeAny ops data bg var norm mode scale (some m) weight) fun q =>
      normalize ops (dataAt data (q.take lev.length) (sel.getD (q.getLastD 0) []))
        (bg.map (backgroundAt · (sel.getD (q.getLastD 0) []))) (var.map (varianceAt · (sel.getD (q.getLastD 0) []))) norm mode
        scale (weight.map (curveAt · q)) := by
  have hs := maskOrder_unique m hsel (selectedBy_order m)
  obtain ⟨q0, hq0⟩ : ∃ q, InShape q (lev ++ [sel.length]) := by
    refine ⟨(lev.map fun _ => 0) ++ [0], inShape_snoc ?_ (List.length_pos_iff.2 hne')⟩
    have : ∀ s : List Nat, 0 ∉ s → InShape (s.map fun _ => 0) s := by
      intro s
      induction s with
      | nil => intro _; exact List.Forall₂.nil
      | cons k s ih =>
        intro h
        simp only [List.mem_cons, not_or] at h
        exact List.Forall₂.cons (Nat.pos_of_ne_zero (Ne.symm h.1)) (ih h.2)
    exact this _ hne
  have taken : ∀ {α : Type} (x : FrameArg α), TakenFits [sel.length] (chosenArg sel x) := by
    intro α x
    cases x with
    | arr x => exact .inl rfl
    | pair x y => exact ⟨rfl, .inl rfl⟩
  have ob : inspectOpt (some m) bg = .ok (bg.map (chosenArg sel)) := by
    cases bg with
    | none => rfl
    | some x => simp only [inspectOpt, inspectFrames_mask m (hb x rfl), hs]; rfl
  have ov : inspectOpt (some m) var = .ok (var.map (chosenArg sel)) := by
    cases var with
    | none => rfl
    | some x => simp only [inspectOpt, inspectFrames_mask m (hv x rfl), hs]; rfl
  cases hm : inspectMode mode with
  | error e =>
    have e1 : normalizeAny ops data bg var norm mode scale (some m) weight = .error e := by
      unfold normalizeAny; rw [hm]; rfl
    rw [e1]
    exact ⟨q0, hq0, by unfold normalize; rw [hm]; rfl⟩
  | ok mode' =>
    have hmode : mode' = mode := by
      unfold inspectMode at hm
      split_ifs at hm
      cases hm; rfl
    subst hmode
    cases hz : normOf (dataRow data 0 []) norm with
    | error e =>
      have e1 : normalizeAny ops data bg var norm mode' scale (some m) weight = .error e := by
        unfold normalizeAny; rw [hm, hz]; rfl
      rw [e1]
      refine ⟨q0, hq0, ?_⟩
      simp only [normalize, hm, normOf_dataAt, hz]; rfl
    | ok z =>
      have ho : data ≠ .other := by rintro rfl; cases hz
      obtain ⟨data', e2, hd', ho', hrow⟩ : ∃ data', takeDataAny (some m) data = .ok data' ∧
          DataFits lev [sel.length] n data' ∧ data' ≠ .other ∧
          ∀ a i, InShape a lev → dataAt data' a [i] = dataAt data a (sel.getD i []) := by
        have opt : ∀ {α : Type} (x : Option (Tensor α)), ∀ y, x.map (chosenData lev.length n lev sel) = some y →
            y.shape = lev ++ [sel.length] ++ [n] := by
          intro α x y hy
          obtain ⟨z, -, rfl⟩ := Option.map_eq_some_iff.1 hy
          rfl
        have rows : ∀ {α : Type} (x : Option (Tensor α)), (∀ y, x = some y → y.shape = lev ++ m.shape ++ [n]) →
            ∀ a i, InShape a lev → (x.map (chosenData lev.length n lev sel)).map (curveAt · (a ++ [i])) =
              x.map (curveAt · (a ++ sel.getD i [])) := by
          intro α x hx a i ha
          cases x with
          | none => rfl
          | some x => simp only [Option.map_some, curveAt_chosen n lev m.shape sel x (hx x rfl) ha]
        cases data with
        | corr cor count sq s1 s2 =>
          obtain ⟨h1, h2, h3, h4, h5⟩ := hd
          refine ⟨.corr (chosenData lev.length n lev sel cor) count (sq.map (chosenData lev.length n lev sel))
            (s1.map (chosenData lev.length n lev sel)) (s2.map (chosenData lev.length n lev sel)), ?_,
            ⟨rfl, h2, opt sq, opt s1, opt s2⟩, by simp, fun a i ha => ?_⟩
          · simp only [takeDataAny, maskData_some m cor lev n h1, maskDataOpt_some m _ lev n h3, maskDataOpt_some m _ lev n h4,
              maskDataOpt_some m _ lev n h5, ← hs]; rfl
          · simp only [dataAt, curveAt_chosen n lev m.shape sel cor h1 ha, rows _ h3 a i ha, rows _ h4 a i ha, rows _ h5 a i ha]
        | diff dif count s1 s2 =>
          obtain ⟨h1, h2, h4, h5⟩ := hd
          refine ⟨.diff (chosenData lev.length n lev sel dif) count
            (s1.map (chosenData lev.length n lev sel)) (s2.map (chosenData lev.length n lev sel)), ?_,
            ⟨rfl, h2, opt s1, opt s2⟩, by simp, fun a i ha => ?_⟩
          · simp only [takeDataAny, maskData_some m dif lev n h1, maskDataOpt_some m _ lev n h4,
              maskDataOpt_some m _ lev n h5, ← hs]; rfl
          · simp only [dataAt, curveAt_chosen n lev m.shape sel dif h1 ha, rows _ h4 a i ha, rows _ h5 a i ha]
        | other => exact absurd rfl ho
      have e1 : normalizeAny ops data bg var norm mode' scale (some m) weight =
          normalizeTaken ops data' (bg.map (chosenArg sel)) (var.map (chosenArg sel)) norm mode' scale weight := by
        unfold normalizeAny
        rw [hm, hz, ob, ov, e2]; rfl
      rw [e1]
      refine waveWise_congr ?_ (normalizeTaken_ok ops data' _ _ norm mode' scale weight lev [sel.length] n hd' ho'
        (fun x hx => ?_) (fun x hx => ?_) hw ⟨q0, hq0⟩)
      · intro q hq
        obtain ⟨a, i, rfl, ha, hi⟩ := inShape_snoc_cases hq
        have hlen := inShape_length ha
        rw [← hlen, List.take_left, List.drop_left, List.getLastD_concat, hrow a i ha]
        have hin : InShape (sel.getD i []) m.shape := by
          rw [List.getD_eq_getElem?_getD, List.getElem?_eq_getElem hi]
          exact ((hsel.2 _).1 (List.getElem_mem hi)).1
        have val : ∀ {α : Type} (x : Tensor α), x.shape = m.shape →
            valueAt ⟨[sel.length], fun p => x.get (sel.getD (p.headD 0) [] ++ p.tail)⟩ [i] = valueAt x (sel.getD i []) := by
          intro α x hx
          simp only [valueAt, List.cons_ne_nil, if_false, List.headD_cons, List.tail_cons, List.append_nil]
          split_ifs with h0
          · have := inShape_length hin
            rw [← hx, h0] at this
            rw [List.length_eq_zero_iff.1 this]
          · rfl
        have b1 : (bg.map (chosenArg sel)).map (backgroundAt · [i]) = bg.map (backgroundAt · (sel.getD i [])) := by
          cases bg with
          | none => rfl
          | some x =>
            cases x with
            | arr x => simp only [Option.map_some, chosenArg, backgroundAt, val x (hb _ rfl).1]
            | pair x y => simp only [Option.map_some, chosenArg, backgroundAt, val x (hb _ rfl).1, val y (hb _ rfl).2]
        have b2 : (var.map (chosenArg sel)).map (varianceAt · [i]) = var.map (varianceAt · (sel.getD i [])) := by
          cases var with
          | none => rfl
          | some x =>
            cases x with
            | arr x => simp only [Option.map_some, chosenArg, varianceAt, val x (hv _ rfl).1]
            | pair x y => simp only [Option.map_some, chosenArg, varianceAt, val x (hv _ rfl).1, val y (hv _ rfl).2]
        rw [b1, b2]
      · obtain ⟨y, -, rfl⟩ := Option.map_eq_some_iff.1 hx
        exact taken y
      · obtain ⟨y, -, rfl⟩ := Option.map_eq_some_iff.1 hx
        exact taken y

/-- A mask only selects: under the hypotheses of both theorems, the curve of the `i`-th selected wave vector is the curve of that
wave vector without the mask. -/
theorem C119_mask_selects_partial (ops : NormOps C) (data : DataAny C) (bg : Option (FrameArg (Cx ℝ))) (var : Option (FrameArg ℝ))
    (norm : Option Int) (mode : String) (scale : Bool) (m : Tensor Bool) (lev : List Nat) (n : Nat)
    (sel : List (List Nat)) (hsel : MaskOrder m sel) (hne : 0 ∉ lev) (hne' : sel ≠ []) (hd : DataFits lev m.shape n data)
    (hb : ∀ x, bg = some x → ArgFits m.shape x) (hv : ∀ x, var = some x → ArgFits m.shape x)
    (r : Tensor (Option C) × Option (Tensor C)) (hr : normalizeAny ops data bg var norm mode scale none none = .ok r) :
    ∃ r', normalizeAny ops data bg var norm mode scale (some m) none = .ok r' ∧
      r'.1.shape = lev ++ [sel.length] ++ [n] ∧
      ∀ l i (hi : i < sel.length), InShape l lev → curveAt r'.1 (l ++ [i]) = curveAt r.1 (l ++ sel[i]) := by
  obtain ⟨p0, hp0⟩ : ∃ p, InShape p m.shape := by
    obtain ⟨p, l, rfl⟩ := List.exists_cons_of_ne_nil hne'
    exact ⟨p, ((hsel.2 p).1 (by simp)).1⟩
  have hz : 0 ∉ lev ++ m.shape := by
    intro h
    rcases List.mem_append.1 h with h | h
    · exact hne h
    · have : ∀ {p s : List Nat}, InShape p s → 0 ∉ s := by
        intro p s hps
        unfold InShape at hps
        induction hps with
        | nil => simp
        | cons hi _ ih => simp only [List.mem_cons, not_or]; exact ⟨by omega, ih⟩
      exact this hp0 h
  have h1 := C119_each_wave_partial ops data bg var norm mode scale none lev m.shape n hz hd (fun x hx => .inl (hb x hx))
    (fun x hx => .inl (hv x hx)) (by simp)
  have h2 := C119_mask_partial ops data bg var norm mode scale m none lev n sel hsel hne hne' hd hb hv (by simp)
  rw [hr] at h1
  obtain ⟨-, -, h1⟩ := h1
  have key : ∀ l i (hi : i < sel.length), InShape l lev → normalize ops (dataAt data l (sel.getD i []))
      (bg.map (backgroundAt · (sel.getD i []))) (var.map (varianceAt · (sel.getD i []))) norm mode scale none =
      .ok (curveAt r.1 (l ++ sel[i]), r.2.map (curveAt · (l ++ sel[i]))) := by
    intro l i hi hl
    have e : sel.getD i [] = sel[i] := by rw [List.getD_eq_getElem?_getD, List.getElem?_eq_getElem hi]; rfl
    have := h1 (l ++ sel[i]) (inShape_append hl ((hsel.2 _).1 (List.getElem_mem hi)).1)
    simp only [← inShape_length hl, List.take_left, List.drop_left, Option.map_none] at this
    rw [e]
    exact this
  cases hres : normalizeAny ops data bg var norm mode scale (some m) none with
  | error e =>
    rw [hres] at h2
    obtain ⟨q, hq, he⟩ := h2
    obtain ⟨a, i, rfl, ha, hi⟩ := inShape_snoc_cases hq
    simp only [← inShape_length ha, List.take_left, List.getLastD_concat, Option.map_none] at he
    have := (key a i hi ha).symm.trans he
    cases this
  | ok r' =>
    rw [hres] at h2
    obtain ⟨h3, -, h4⟩ := h2
    refine ⟨r', rfl, h3, fun l i hi hl => ?_⟩
    have h5 := h4 (l ++ [i]) (inShape_snoc hl hi)
    simp only [← inShape_length hl, List.take_left, List.getLastD_concat, Option.map_none] at h5
    have := (key l i hi hl).symm.trans h5
    simp only [Except.ok.injEq, Prod.mk.injEq] at this
    exact this.1.symm

/-- What happens instead: a single array whose first axis has length two is taken for the pair of its two halves. -/
theorem C119_taken_for_a_pair (ops : NormOps C) (data : DataAny C) (b b1 b2 : Tensor (Cx ℝ)) (var : Option (FrameArg ℝ))
    (norm : Option Int) (mode : String) (scale : Bool) (mask : Option (Tensor Bool)) (weight : Option (Tensor C)) (s : List Nat)
    (h : b.shape = 2 :: s) (h1 : b1 = ⟨s, fun p => b.get (0 :: p)⟩) (h2 : b2 = ⟨s, fun p => b.get (1 :: p)⟩) :
    normalizeAny ops data (some (.arr b)) var norm mode scale mask weight =
      normalizeAny ops data (some (.pair b1 b2)) var norm mode scale mask weight := by
  have : unpackTwo (.arr b) = .pair b1 b2 := by
    subst h1 h2
    simp only [unpackTwo]
    rw [h]; rfl
  have h3 : inspectFrames mask (.arr b) = inspectFrames mask (.pair b1 b2) := by
    unfold inspectFrames
    rw [this]; rfl
  unfold normalizeAny inspectOpt
  simp only [h3]

/-! ### `normalize` after `ccorr` -/

omit [AddCommGroup C] [Module ℝ C] in
theorem along_curveAt {α : Type} (x : Tensor α) {s p : List Nat} {L : Nat} (hs : x.shape = s ++ [L]) (hp : InShape p s) :
    along x s.length p = curveAt x p := by
  rw [along_eq_rowAt x hs (inShape_length hp), curveAt_row x s L hs]

/-- All arrays of the tuple have the shape of the frame and `n` delays. -/
def TupleFits (frame : List Nat) (n : Nat) (r : CorrTupleAny C) : Prop :=
  r.cor.shape = frame ++ [n] ∧ r.count.length = n ∧ (∀ x, r.sq = some x → x.shape = frame ++ [n]) ∧
  (∀ x, r.ds1 = some x → x.shape = frame ++ [n]) ∧ ∀ x, r.ds2 = some x → x.shape = frame ++ [n]

/-- C119 for the tuples of `ccorr` and `acorr`: normalizing the arrays is normalizing the tuple of each pixel. -/
theorem C119_tuple_partial (ops : NormOps C) (r : CorrTupleAny C) (method : String) (bg : Option (FrameArg (Cx ℝ)))
    (var : Option (FrameArg ℝ)) (norm : Option Int) (mode : String) (scale : Bool) (frame : List Nat) (n : Nat)
    (hne : 0 ∉ frame) (hr : TupleFits frame n r)
    (hb : ∀ x, bg = some x → ArgFits frame x ∨ ArgFits [] x) (hv : ∀ x, var = some x → ArgFits frame x ∨ ArgFits [] x) :
    WaveWise frame n (normalizeAny ops (r.toData method) bg var norm mode scale none none) fun p =>
      normalize ops ((tupleAt frame r p).toData method) (bg.map (backgroundAt · p)) (var.map (varianceAt · p)) norm mode
        scale none := by
  obtain ⟨h1, h2, h3, h4, h5⟩ := hr
  have hc : (countArray r.count).shape = [] ++ [n] := by simp [countArray, h2]
  have hd : DataFits [] frame n (r.toData method) := by
    unfold CorrTupleAny.toData
    split_ifs
    · exact ⟨h1, hc, h4, h5⟩
    · exact ⟨h1, hc, h3, h4, h5⟩
  have h := C119_each_wave_partial ops (r.toData method) bg var norm mode scale none [] frame n (by simpa using hne) hd hb hv
    (by simp)
  refine waveWise_congr (fun p hp => ?_) h
  have row : ∀ {α : Type} (x : Option (Tensor α)), (∀ y, x = some y → y.shape = frame ++ [n]) →
      x.map (curveAt · p) = outAt frame x p := by
    intro α x hx
    cases x with
    | none => rfl
    | some x => simp only [outAt, Option.map_some, along_curveAt x (hx x rfl) hp]
  have e : dataAt (r.toData method) [] p = (tupleAt frame r p).toData method := by
    have ec : curveAt (countArray r.count) [] = r.count := by
      show (List.range r.count.length).map (fun i => r.count.getD i 0) = _
      exact map_getD_range' 0 rfl
    unfold CorrTupleAny.toData CorrTuple.toData
    split_ifs
    · simp only [dataAt, tupleAt, List.nil_append, ec, row _ h4, row _ h5, along_curveAt r.cor h1 hp]
    · simp only [dataAt, tupleAt, List.nil_append, ec, row _ h3, row _ h4, row _ h5, along_curveAt r.cor h1 hp]
  simp only [List.length_nil, List.take_zero, List.drop_zero, e, Option.map_none]

/-- Both steps together: for two videos of any shape and any computation axis, the normalized array holds at each pixel the
normalized correlation of the signals of that pixel. -/
theorem C119_ccorr_partial (f1 f2 : Tensor (Cx ℝ)) (t1 t2 : Option (List Int)) (n : Option Nat) (norm : Option Int)
    (method : Option String) (align contiguous moved : Bool) (axis : Int) (ax : Nat) (hs : f2.shape = f1.shape)
    (hax : NamesAxis f1.shape.length axis ax) (hne : 0 ∉ frameShape f1.shape ax)
    (N : Nat) (hN : f1.shape.getD ax 0 = N) (m : String) (v : Int) (n' : Nat)
    (hm : m = effMethod method n) (hv : v = effNorm norm m true) (hn' : n' = n.getD (defaultN N t1 t2))
    (h : ¬ CcorrRefused false method norm n N N t1 t2) (hsafe : Manageable false m N N t1 t2 n' none none ({} : CorrAout ℝ))
    (hshort : t1 = none → ∀ k, n = some k → k ≤ N + 1)
    (bg : Option (FrameArg (Cx ℝ))) (var : Option (FrameArg ℝ)) (z : Option Int) (mode : String) (scale : Bool)
    (hb : ∀ x, bg = some x → ArgFits (frameShape f1.shape ax) x ∨ ArgFits [] x)
    (hvar : ∀ x, var = some x → ArgFits (frameShape f1.shape ax) x ∨ ArgFits [] x) :
    ∃ aligned, WaveWise (frameShape f1.shape ax) n'
      (ccorrAny f1 f2 t1 t2 n norm method align contiguous moved axis none none {} >>= fun r =>
        normalizeAny normOpsR (r.toData m) bg var z mode scale none none)
      fun p => ccorr (along f1 ax p) (along f2 ax p) t1 t2 n norm method aligned none none {} >>= fun r =>
        normalize normOpsR (r.toData m) (bg.map (backgroundAt · p)) (var.map (varianceAt · p)) z mode scale none := by
  have hfit : AoutFits (frameShape f1.shape ax) ({} : CorrAoutAny ℝ) := by
    refine ⟨?_, ?_, ?_, ?_⟩ <;> intro o ho <;> simp at ho
  obtain ⟨al, hpw⟩ := C117_ccorr f1 f2 t1 t2 n norm method align contiguous moved axis none none {} ax hs hax hfit
    (by simp) (by simp) (fun e => ⟨by rw [hN]; exact hshort e, by simp, by simp, by simp, by simp⟩)
  refine ⟨al, ?_⟩
  have l1 : ∀ p, (along f1 ax p).length = N := fun p => by rw [along_length, hN]
  have l2 : ∀ p, (along f2 ax p).length = N := fun p => by rw [along_length, hs, hN]
  have hone : ∀ p, _ := fun p => C18_ccorr_fields (along f1 ax p) (along f2 ax p) t1 t2 n norm method al none none {} m v n'
    hm hv (by rw [hn', l1]; rfl) (by rw [l1, l2]; exact h) (by rw [l1, l2]; exact hsafe)
  set frame := frameShape f1.shape ax with hframe
  obtain ⟨p0, hp0⟩ : ∃ p, InShape p frame := by
    refine ⟨frame.map fun _ => 0, ?_⟩
    have : ∀ s : List Nat, 0 ∉ s → InShape (s.map fun _ => 0) s := by
      intro s
      induction s with
      | nil => intro _; exact List.Forall₂.nil
      | cons k s ih =>
        intro h
        simp only [List.mem_cons, not_or] at h
        exact List.Forall₂.cons (Nat.pos_of_ne_zero (Ne.symm h.1)) (ih h.2)
    exact this _ hne
  obtain ⟨r0, hr0, g1, g2, g3, g3', g3'', g4, g5, g6⟩ := hone p0
  unfold PixelWiseTuple at hpw
  rcases hres : ccorrAny f1 f2 t1 t2 n norm method align contiguous moved axis none none {} with e | r
  · rw [hres] at hpw
    have := hpw p0 hp0
    simp only [Option.map_none, aoutAt, outAt] at this
    rw [hr0] at this
    cases this
  rw [hres] at hpw
  obtain ⟨q0, q1, q2, q3, hval⟩ := hpw
  have hval' : ∀ p, InShape p frame → ccorr (along f1 ax p) (along f2 ax p) t1 t2 n norm method al none none {} =
      .ok (tupleAt frame r p) := by
    intro p hp
    have e := hval p hp
    simpa only [Option.map_none, aoutAt, outAt] using e
  have e0 : r0 = tupleAt frame r p0 := by
    have := hval' p0 hp0
    rw [hr0, Except.ok.injEq] at this
    exact this
  subst e0
  have len : ∀ {M : Type} [AddCommMonoid M] (s : Tensor M) (δ : Nat → Nat → M), OutFits frame (some s) →
      Added false n' none δ (along s frame.length p0) → s.shape = frame ++ [n'] := by
    intro M _ s δ hs' hadd
    obtain ⟨L, hL⟩ := hs' s rfl
    have ha := hadd.1
    rw [along_length, hL, getD_end] at ha
    simp only [fieldLen, Bool.false_eq_true, if_false] at ha
    rw [hL, ha]
  have hfits : TupleFits frame n' r := by
    refine ⟨len r.cor _ q0 g1, ?_, ?_, ?_, ?_⟩
    · have ha := g2.1
      simpa only [tupleAt, fieldLen, Bool.false_eq_true, if_false] using ha
    · intro x hx
      have hsome : (tupleAt frame r p0).sq = some (along x frame.length p0) := by simp [tupleAt, outAt, hx]
      by_cases hd : m = "diff"
      · rw [g3'' hd] at hsome; cases hsome
      · by_cases hw : WantsSquares v
        · obtain ⟨s, e1, e2⟩ := g3 ⟨hw, hd⟩
          rw [hsome, Option.some.injEq] at e1
          rw [← e1] at e2
          exact len x _ (by rw [← hx]; exact q1) e2
        · rw [g3' hw hd] at hsome; cases hsome
    · intro x hx
      have hsome : (tupleAt frame r p0).ds1 = some (along x frame.length p0) := by simp [tupleAt, outAt, hx]
      by_cases hw : WantsSums v
      · obtain ⟨s, e1, e2⟩ := g4 hw
        rw [hsome, Option.some.injEq] at e1
        rw [← e1] at e2
        exact len x _ (by rw [← hx]; exact q2) e2
      · rw [(g6 hw).1] at hsome; cases hsome
    · intro x hx
      have hsome : (tupleAt frame r p0).ds2 = some (along x frame.length p0) := by simp [tupleAt, outAt, hx]
      by_cases hw : WantsSums v
      · obtain ⟨s, e1, e2⟩ := g5 hw
        rw [hsome, Option.some.injEq] at e1
        rw [← e1] at e2
        exact len x _ (by rw [← hx]; exact q3) e2
      · rw [(g6 hw).2] at hsome; cases hsome
  refine waveWise_congr (fun p hp => ?_) (C119_tuple_partial normOpsR r m bg var z mode scale frame n' hne hfits hb hvar)
  show _ = ccorr (along f1 ax p) (along f2 ax p) t1 t2 n norm method al none none {} >>= _
  rw [hval' p hp]
  rfl

/-! ### The single array with two rows -/

/-- Two wave vectors, one delay, one pair of frames. -/
def twoWaves : DataAny ℝ := .corr ⟨[2, 1], fun _ => 0⟩ ⟨[1], fun _ => 1⟩ none none none

/-- Their background: 1 and 3. -/
def twoBackgrounds : Tensor (Cx ℝ) := ⟨[2], fun p => if p = [0] then ⟨1, 0⟩ else ⟨3, 0⟩⟩

/-- The full statement is false: with two wave vectors and a single background array, one value for each wave vector, the result is
not that of each wave vector with its own background. -/
theorem C119_two_wave_vectors_false :
    ¬ ∀ (data : DataAny ℝ) (b : Tensor (Cx ℝ)) (frame : List Nat) (n : Nat), 0 ∉ frame → DataFits [] frame n data →
      b.shape = frame →
      WaveWise frame n (normalizeAny normOpsR data (some (.arr b)) none (some 1) "corr" false none none) fun q =>
        normalize normOpsR (dataAt data [] q) (some (backgroundAt (.arr b) q)) none (some 1) "corr" false none := by
  intro hall
  have h := hall twoWaves twoBackgrounds [2] 1 (by simp) ⟨rfl, rfl, by simp, by simp, by simp⟩ rfl
  rw [C119_taken_for_a_pair normOpsR twoWaves twoBackgrounds ⟨[], fun p => twoBackgrounds.get (0 :: p)⟩
    ⟨[], fun p => twoBackgrounds.get (1 :: p)⟩ none (some 1) "corr" false none none [] rfl rfl rfl] at h
  have h' := C119_each_wave_partial normOpsR twoWaves (some (.pair ⟨[], fun p => twoBackgrounds.get (0 :: p)⟩
    ⟨[], fun p => twoBackgrounds.get (1 :: p)⟩)) none (some 1) "corr" false none [] [2] 1 (by simp)
    ⟨rfl, rfl, by simp, by simp, by simp⟩ (by rintro x hx; cases hx; exact .inr ⟨rfl, rfl⟩) (by simp) (by simp)
  have hin : InShape [0] [2] := List.Forall₂.cons (by norm_num) List.Forall₂.nil
  have v1 : normalize normOpsR (dataAt twoWaves [] [0]) (some (backgroundAt (.arr twoBackgrounds) [0])) none (some 1) "corr" false
      none = .ok ([some (-1)], none) := by
    simp [normalize, inspectMode, dataAt, twoWaves, normOf, normFromCcorrData, ccorrNorms, allNorms, bind, Except.bind,
      normalizePlain, inspectBackground, backgroundAt, valueAt, twoBackgrounds, curveAt, normCorr, needArray, finishCorr,
      normOpsR, corrBaselineR, divCount, finishScale]
  have v2 : normalize normOpsR (dataAt twoWaves [] [0]) (some (backgroundAt (.pair ⟨[], fun p => twoBackgrounds.get (0 :: p)⟩
      ⟨[], fun p => twoBackgrounds.get (1 :: p)⟩) [0])) none (some 1) "corr" false none = .ok ([some (-3)], none) := by
    simp [normalize, inspectMode, dataAt, twoWaves, normOf, normFromCcorrData, ccorrNorms, allNorms, bind, Except.bind,
      normalizePlain, inspectBackground, backgroundAt, valueAt, twoBackgrounds, curveAt, normCorr, needArray, finishCorr,
      normOpsR, corrBaselineR, divCount, finishScale]
  cases hres : normalizeAny normOpsR twoWaves (some (.pair ⟨[], fun p => twoBackgrounds.get (0 :: p)⟩
      ⟨[], fun p => twoBackgrounds.get (1 :: p)⟩)) none (some 1) "corr" false none none with
  | error e =>
    rw [hres] at h'
    obtain ⟨q, hq, he⟩ := h'
    rcases hq with _ | ⟨hi, hq⟩
    cases hq
    simp [normalize, inspectMode, dataAt, twoWaves, normOf, normFromCcorrData, ccorrNorms, allNorms, bind, Except.bind,
      normalizePlain, inspectBackground, backgroundAt, valueAt, twoBackgrounds, curveAt, normCorr, needArray, finishCorr,
      normOpsR, corrBaselineR, divCount, finishScale] at he
  | ok r =>
    rw [hres] at h h'
    have h1 := h.2.2 [0] hin
    have h2 := h'.2.2 [0] hin
    simp only [Option.map_some, Option.map_none, List.length_nil, List.take_zero, List.drop_zero] at h1 h2
    rw [v1] at h1
    rw [v2] at h2
    rw [Except.ok.injEq, Prod.mk.injEq] at h1 h2
    have h3 := h1.1.trans h2.1.symm
    simp at h3

/-! ### Cases -/

/-- Two levels, three by two wave vectors, two delays. -/
noncomputable def someWaves : DataAny ℝ :=
  .corr ⟨[2, 3, 2, 2], fun p => (p.sum : ℝ)⟩ ⟨[2, 2], fun p => 1 + p.sum⟩ none
    (some ⟨[2, 3, 2, 2], fun p => ⟨p.sum, 1⟩⟩) (some ⟨[2, 3, 2, 2], fun p => ⟨1, p.sum⟩⟩)

-- The hypotheses of the theorems without and with a mask are met, with one array for the background and two for the variance.
example : 0 ∉ [2] ++ [3, 2] ∧ DataFits [2] [3, 2] 2 someWaves ∧
    ArgFits [3, 2] (FrameArg.arr ⟨[3, 2], fun p => (⟨p.sum, 0⟩ : Cx ℝ)⟩) ∧
    ArgFits [3, 2] (FrameArg.pair ⟨[3, 2], fun p => (p.sum : ℝ)⟩ ⟨[3, 2], fun _ => 1⟩) ∧ ArgFits [] (FrameArg.arr ⟨[], fun _ => (1 : ℝ)⟩) := by
  refine ⟨by decide, ⟨rfl, rfl, by simp, ?_, ?_⟩, ⟨rfl, by decide⟩, ⟨rfl, rfl⟩, rfl, by decide⟩ <;>
  · intro x hx
    cases hx
    rfl

-- A mask of three by two wave vectors that selects two.
example : MaskOrder ⟨[3, 2], fun p => p == [0, 1] || p == [2, 0]⟩ [[0, 1], [2, 0]] := by
  have := selectedBy_order ⟨[3, 2], fun p => p == [0, 1] || p == [2, 0]⟩
  have e : selectedBy ⟨[3, 2], fun p => p == [0, 1] || p == [2, 0]⟩ = [[0, 1], [2, 0]] := by decide
  rwa [e] at this

end Cddm
