import Verif.Lemmas.IterAnyBuf
import Verif.Lemmas.CcorrAny

/-! # The calls of `ccorr` and `acorr` in the iterative functions, pixel by pixel -/

namespace Cddm
open Spec

/-! ### The arrays that are added to -/

/-- The arrays have the shape of the frame and rows of `L` cells. -/
def AoutLen {C : Type} (frame : List Nat) (L : Nat) (a : CorrAoutAny C) : Prop :=
  (∀ o, a.cor = some o → o.shape = frame ++ [L]) ∧ (∀ o, a.sq = some o → o.shape = frame ++ [L]) ∧
  (∀ o, a.ds1 = some o → o.shape = frame ++ [L]) ∧ ∀ o, a.ds2 = some o → o.shape = frame ++ [L]

theorem AoutLen.fits {C : Type} {frame : List Nat} {L : Nat} {a : CorrAoutAny C} (h : AoutLen frame L a) : AoutFits frame a :=
  ⟨fun o ho => ⟨L, h.1 o ho⟩, fun o ho => ⟨L, h.2.1 o ho⟩, fun o ho => ⟨L, h.2.2.1 o ho⟩, fun o ho => ⟨L, h.2.2.2 o ho⟩⟩

theorem AoutLen.short {C : Type} {frame : List Nat} {L N n : Nat} {complex : Bool} {a : CorrAoutAny C} (h : AoutLen frame L a)
    (hL : NotTooLong N complex L) (hn : n ≤ N + 1) : AoutNotTooLong N complex (some n) a := by
  have key : ∀ {M : Type} (o : Tensor M), o.shape = frame ++ [L] → NotTooLong N complex (o.shape.getLastD 0) := by
    intro M o ho
    rw [ho, List.getLastD_concat]
    exact hL
  exact ⟨fun k hk => by cases hk; exact hn, fun o ho => key o (h.1 o ho), fun o ho => key o (h.2.1 o ho),
    fun o ho => key o (h.2.2.1 o ho), fun o ho => key o (h.2.2.2 o ho)⟩

theorem along_row {M : Type} {frame : List Nat} {L : Nat} {o : Tensor M} (h : o.shape = frame ++ [L]) (p : List Nat) :
    (along o frame.length p).length = L := by
  rw [along_length, h, getD_end]

theorem sameLen_shape {M : Type} {frame : List Nat} {L : Nat} {p : List Nat} {a b : Option (Tensor M)} {o : Tensor M}
    (ha : ∀ x, a = some x → x.shape = frame ++ [L]) (hs : a.isSome) (hb : b = some o) (hfit : OutFits frame b)
    (hk : SameLen (outAt frame a p) (outAt frame b p)) : o.shape = frame ++ [L] := by
  rcases a with _ | x
  · cases hs
  · obtain ⟨L', hL'⟩ := hfit o hb
    subst hb
    have := hk _ _ rfl rfl
    rw [along_row hL', along_row (ha x rfl)] at this
    rw [hL', this]

theorem into_len {C : Type} {frame : List Nat} {L : Nat} {p : List Nat} {row : CorrAoutAny C} {d : CorrTupleAny C}
    (hrow : AoutLen frame L row)
    (hd : OutFits frame (some d.cor) ∧ OutFits frame d.sq ∧ OutFits frame d.ds1 ∧ OutFits frame d.ds2)
    (hk : KeepsLen (aoutAt frame row p) (.ok (tupleAt frame d p))) : AoutLen frame L (d.into row) := by
  obtain ⟨k1, k2, k3, k4⟩ := hk _ rfl
  obtain ⟨d1, d2, d3, d4⟩ := hd
  refine ⟨fun o ho => ?_, fun o ho => ?_, fun o ho => ?_, fun o ho => ?_⟩
  · have hs : row.cor.isSome = true := by
      rcases hr : row.cor with _ | x
      · simp [CorrTupleAny.into, hr] at ho
      · rfl
    have hb : some d.cor = some o := by
      rcases hr : row.cor with _ | x
      · rw [hr] at hs
        cases hs
      · simpa [CorrTupleAny.into, hr] using ho
    exact sameLen_shape hrow.1 hs hb d1 k1
  · have hs : row.sq.isSome = true := by
      by_contra hc
      simp [CorrTupleAny.into, hc] at ho
    exact sameLen_shape hrow.2.1 hs (by simpa [CorrTupleAny.into, hs] using ho) d2 k2
  · have hs : row.ds1.isSome = true := by
      by_contra hc
      simp [CorrTupleAny.into, hc] at ho
    exact sameLen_shape hrow.2.2.1 hs (by simpa [CorrTupleAny.into, hs] using ho) d3 k3
  · have hs : row.ds2.isSome = true := by
      by_contra hc
      simp [CorrTupleAny.into, hc] at ho
    exact sameLen_shape hrow.2.2.2 hs (by simpa [CorrTupleAny.into, hs] using ho) d4 k4

/-! ### `ccorr` and `acorr` along the first axis -/

/-- `ccorr` of frames along their first axis, against that of one signal. -/
structure CrossAt0 {C : Type} (frame : List Nat) (complex : Bool) (cc : CrossFnAny C) (cc1 : CrossFn C) : Prop where
  fits : ∀ (i : Nat) (g1 g2 : Tensor (Cx ℝ)) (N : Nat), g1.shape = N :: frame → g2.shape = N :: frame →
    ∀ (t1 t2 : Option (List Int)) (n : Option Nat) (norm : Option Int) (method : Option String) (s1 s2 : Option (Tensor ℝ))
      (aout : CorrAoutAny C), (∀ s, s1 = some s → s.shape = N :: frame) → (∀ s, s2 = some s → s.shape = N :: frame) →
      AoutFits frame aout → (t1 = none → AoutNotTooLong N complex n aout) →
    PixelWiseTuple frame (cc i g1 g2 t1 t2 n norm method 0 s1 s2 aout) fun p =>
      cc1 (along g1 0 p) (along g2 0 p) t1 t2 n norm method false (s1.map fun s => along s 0 p) (s2.map fun s => along s 0 p)
        (aoutAt frame aout p)
  keeps : ∀ f1 f2 t1 t2 n norm method al s1 s2 a, KeepsLen a (cc1 f1 f2 t1 t2 n norm method al s1 s2 a)

/-- `acorr` of frames along their first axis, against that of one signal. -/
structure AutoAt0 {C : Type} (frame : List Nat) (ac : AutoFnAny C) (ac1 : AutoFn C) : Prop where
  fits : ∀ (i : Nat) (g : Tensor (Cx ℝ)) (N : Nat), g.shape = N :: frame →
    ∀ (t : Option (List Int)) (n : Option Nat) (norm : Option Int) (method : Option String) (s : Option (Tensor ℝ))
      (aout : CorrAoutAny C), (∀ x, s = some x → x.shape = N :: frame) →
      AoutFits frame aout → (t = none → AoutNotTooLong N false n aout) →
    PixelWiseTuple frame (ac i g t n norm method 0 s aout) fun p =>
      ac1 (along g 0 p) t n norm method false (s.map fun s => along s 0 p) (aoutAt frame aout p)
  keeps : ∀ f t n norm method al s a, KeepsLen a (ac1 f t n norm method al s a)

theorem notAligned0 {n : Nat} (hn : 0 < n) (b contiguous moved : Bool) :
    isAligned (n + 1) ((newAxis (n + 1) (b && isAligned (n + 1) 0 contiguous false) : Int) - (n + 1 : Nat)) moved false = false := by
  have h0 : isAligned (n + 1) 0 contiguous false = false := by
    have : ((0 : Int) == ((n + 1 : Nat) : Int) - 1) = false := by
      rw [beq_eq_false_iff_ne]
      push_cast
      omega
    simp only [isAligned, this]
    simp
  rw [h0, Bool.and_false]
  have h1 : newAxis (n + 1) false = n - 1 := by
    unfold newAxis
    rw [if_neg (by simp; omega)]
    omega
  rw [h1]
  have e1 : ((((n - 1 : Nat) : Int) - ((n + 1 : Nat) : Int)) == -1) = false := by
    rw [beq_eq_false_iff_ne]
    push_cast
    omega
  have e2 : ((((n - 1 : Nat) : Int) - ((n + 1 : Nat) : Int)) == ((n + 1 : Nat) : Int) - 1) = false := by
    rw [beq_eq_false_iff_ne]
    push_cast
    omega
  simp only [isAligned, e1, e2]
  rfl

theorem frameShape_cons (N : Nat) (frame : List Nat) : frameShape (N :: frame) 0 = frame := rfl

theorem crossAt0_ccorr (flags : Nat → Bool × Bool) {frame : List Nat} (hf : frame ≠ []) :
    CrossAt0 frame false (ccorrCall flags) ccorr := by
  refine ⟨fun i g1 g2 N h1 h2 t1 t2 n norm method s1 s2 aout hs1 hs2 hfit hlen => ?_, ccorr_keeps⟩
  have hp : 0 < frame.length := List.length_pos_iff.2 hf
  have h := ccorrAny_pixelWise g1 g2 t1 t2 n norm method false (flags i).1 (flags i).2 0 s1 s2 aout 0 (by rw [h1, h2])
    (by rw [h1]; exact ⟨by simp, Or.inl rfl⟩) (by rw [h1]; exact hfit) (fun s hs => by rw [h1, hs1 s hs])
    (fun s hs => by rw [h1, hs2 s hs]) (fun e => by rw [h1]; exact hlen e)
  rw [h1] at h
  simp only [List.length_cons, notAligned0 hp, frameShape_cons] at h
  exact h

theorem crossAt0_ccorrComplex (flags : Nat → Bool × Bool) {frame : List Nat} (hf : frame ≠ []) :
    CrossAt0 frame true (ccorrComplexCall flags) ccorrComplex := by
  refine ⟨fun i g1 g2 N h1 h2 t1 t2 n norm method s1 s2 aout hs1 hs2 hfit hlen => ?_, ccorrComplex_keeps⟩
  have hp : 0 < frame.length := List.length_pos_iff.2 hf
  have h := ccorrComplexAny_pixelWise g1 g2 t1 t2 n norm method false (flags i).1 (flags i).2 0 s1 s2 aout 0 (by rw [h1, h2])
    (by rw [h1]; exact ⟨by simp, Or.inl rfl⟩) (by rw [h1]; exact hfit) (fun s hs => by rw [h1, hs1 s hs])
    (fun s hs => by rw [h1, hs2 s hs]) (fun e => by rw [h1]; exact hlen e)
  rw [h1] at h
  simp only [List.length_cons, notAligned0 hp, frameShape_cons] at h
  exact h

theorem autoAt0_acorr (flags : Nat → Bool × Bool) {frame : List Nat} (hf : frame ≠ []) : AutoAt0 frame (acorrCall flags) acorr := by
  refine ⟨fun i g N h1 t n norm method s aout hs hfit hlen => ?_, acorr_keeps⟩
  have hp : 0 < frame.length := List.length_pos_iff.2 hf
  have h := acorrAny_pixelWise g t n norm method false (flags i).1 (flags i).2 0 s aout 0
    (by rw [h1]; exact ⟨by simp, Or.inl rfl⟩) (by rw [h1]; exact hfit) (fun s' hs' => by rw [h1, hs s' hs'])
    (fun e => by rw [h1]; exact hlen e)
  rw [h1] at h
  simp only [List.length_cons, notAligned0 hp, frameShape_cons] at h
  exact h

theorem autoAt0_acorrComplex (flags : Nat → Bool × Bool) {frame : List Nat} (hf : frame ≠ []) :
    AutoAt0 frame (acorrComplexCall flags) acorrComplex := by
  refine ⟨fun i g N h1 t n norm method s aout hs hfit hlen => ?_, acorrComplex_keeps⟩
  have hp : 0 < frame.length := List.length_pos_iff.2 hf
  have h := acorrComplexAny_pixelWise g t n norm method false (flags i).1 (flags i).2 0 s aout 0
    (by rw [h1]; exact ⟨by simp, Or.inl rfl⟩) (by rw [h1]; exact hfit) (fun s' hs' => by rw [h1, hs s' hs'])
    (fun e => by rw [h1]; exact hlen e)
  rw [h1] at h
  simp only [List.length_cons, notAligned0 hp, frameShape_cons] at h
  exact h

/-! ### One half-chunk -/

/-- The half-chunk of one pixel. -/
def halfAt (p : List Nat) (h : HalfAny) : Half := ⟨along h.f 0 p, h.sq.map fun s => along s 0 p⟩

/-- It has `N` frames. -/
def HalfLen (frame : List Nat) (N : Nat) (h : HalfAny) : Prop := h.f.shape = N :: frame ∧ ∀ s, h.sq = some s → s.shape = N :: frame

theorem bufSlice_len {V : Type} {D c j start len : Nat} {out : List (List V)} {l : List V} (h : Shape D c out)
    (e : bufSlice out j start len = .ok l) : l.length = min len (c - start) := by
  unfold bufSlice at e
  rcases hj : out[j]? with _ | row
  · rw [hj] at e
    cases e
  · rw [hj] at e
    cases e
    rw [List.length_take, List.length_drop, h.cols j row hj]

theorem readHalf_pw {frame : List Nat} {D c : Nat} {ch : ChanAny} (h : ChanSized D c ch) (j start len : Nat) :
    PW frame halfAt (HalfLen frame (min len (c - start))) (readHalfAny frame ch j start len)
      fun p => readHalf (chanAt p ch) j start len := by
  refine PW.of_map (fun p => ?_) fun a ha => ?_
  · unfold readHalf readHalfAny
    refine bind_at (bufSlice_at _ _ _ _ _) fun f _ => ?_
    rcases ch with ⟨f0, _ | sq, bg, sm, ss, st⟩
    · show _ = Except.ok (halfAt p _)
      unfold halfAt
      rw [along_stack]
      rfl
    · refine bind_at (bufSlice_at _ _ _ _ _) fun s _ => ?_
      show _ = Except.ok (halfAt p _)
      unfold halfAt
      simp only [along_stack, Option.map_some]
  · unfold readHalfAny at ha
    obtain ⟨f, hf, ha⟩ := bind_ok ha
    have l1 := bufSlice_len h.1 hf
    rcases ch with ⟨f0, _ | sq, bg, sm, ss, st⟩
    · cases ha
      exact ⟨by simp only [stackFrames, l1], fun s hs => by cases hs⟩
    · obtain ⟨s, hs, ha⟩ := bind_ok ha
      cases ha
      have l2 := bufSlice_len (h.2 sq rfl) hs
      exact ⟨by simp only [stackFrames, l1], fun s' hs' => by cases hs'; simp only [stackFrames, l2]⟩

theorem PW.imp {A B : Type} {frame : List Nat} {sel : List Nat → A → B} {P P' : A → Prop} {res : Py A} {one : List Nat → Py B}
    (h : PW frame sel P res one) (hP : ∀ a, (∀ p, InShape p frame → one p = .ok (sel p a)) → P a → P' a) : PW frame sel P' res one := by
  unfold PW at *
  rcases res with e | a
  · exact h
  · exact ⟨hP a h.2 h.1, h.2⟩

theorem crossCall_pw {C : Type} {frame : List Nat} {complex : Bool} {cc : CrossFnAny C} {cc1 : CrossFn C}
    (hcc : CrossAt0 frame complex cc cc1) {p0 : List Nat} (hp0 : InShape p0 frame) {N L : Nat} (i : Nat) {h1 h2 : HalfAny}
    (l1 : HalfLen frame N h1) (l2 : HalfLen frame N h2) (t1 t2 : Option (List Int)) (n : Option Nat) (norm : Option Int)
    (method : Option String) {row : CorrAoutAny C} (hrow : AoutLen frame L row) (hlen : t1 = none → AoutNotTooLong N complex n row) :
    PW frame (fun p d => tupleAt frame d p) (fun d => AoutLen frame L (d.into row))
      (cc i h1.f h2.f t1 t2 n norm method 0 h1.sq h2.sq row) fun p =>
      cc1 (halfAt p h1).f (halfAt p h2).f t1 t2 n norm method false (halfAt p h1).sq (halfAt p h2).sq (aoutAt frame row p) := by
  have h := hcc.fits i h1.f h2.f N l1.1 l2.1 t1 t2 n norm method h1.sq h2.sq row l1.2 l2.2 hrow.fits hlen
  rw [pixelWiseTuple_iff] at h
  refine PW.imp h fun d hd hP => into_len (p := p0) hrow hP ?_
  have := hcc.keeps (halfAt p0 h1).f (halfAt p0 h2).f t1 t2 n norm method false (halfAt p0 h1).sq (halfAt p0 h2).sq
    (aoutAt frame row p0)
  rwa [hd p0 hp0] at this

theorem autoCall_pw {C : Type} {frame : List Nat} {ac : AutoFnAny C} {ac1 : AutoFn C}
    (hac : AutoAt0 frame ac ac1) {p0 : List Nat} (hp0 : InShape p0 frame) {N L : Nat} (i : Nat) {h1 : HalfAny}
    (l1 : HalfLen frame N h1) (t : Option (List Int)) (n : Option Nat) (norm : Option Int)
    (method : Option String) {row : CorrAoutAny C} (hrow : AoutLen frame L row) (hlen : t = none → AoutNotTooLong N false n row) :
    PW frame (fun p d => tupleAt frame d p) (fun d => AoutLen frame L (d.into row))
      (ac i h1.f t n norm method 0 h1.sq row) fun p =>
      ac1 (halfAt p h1).f t n norm method false (halfAt p h1).sq (aoutAt frame row p) := by
  have h := hac.fits i h1.f N l1.1 t n norm method h1.sq row l1.2 hrow.fits hlen
  rw [pixelWiseTuple_iff] at h
  refine PW.imp h fun d hd hP => into_len (p := p0) hrow hP ?_
  have := hac.keeps (halfAt p0 h1).f t n norm method false (halfAt p0 h1).sq (aoutAt frame row p0)
  rwa [hd p0 hp0] at this

/-- What the rows of a level have to satisfy for calls without times. -/
def RowsOK (complex : Bool) (N n L : Nat) : Prop := NotTooLong N complex L ∧ n ≤ N + 1

theorem crossCalls_pw {C : Type} {frame : List Nat} {complex : Bool} {cc : CrossFnAny C} {cc1 : CrossFn C}
    (hcc : CrossAt0 frame complex cc cc1) {p0 : List Nat} (hp0 : InShape p0 frame) (cfg : IterCfg) (t1 t2 : List Int) (j q : Nat)
    {N L : Nat} {cur : HalfAny × HalfAny} (l1 : HalfLen frame N cur.1) (l2 : HalfLen frame N cur.2) {prev : Option (HalfAny × HalfAny)}
    (lp : ∀ x, prev = some x → HalfLen frame N x.1 ∧ HalfLen frame N x.2) {row : CorrAoutAny C} (hrow : AoutLen frame L row)
    (hlen : j ≠ 0 → RowsOK complex N cfg.nSlow L) :
    PW frame (fun p a => aoutAt frame a p) (AoutLen frame L) (crossCallsAny cc cfg t1 t2 j q cur prev row) fun p =>
      crossCalls cc1 cfg t1 t2 false j q (halfAt p cur.1, halfAt p cur.2) (prev.map fun x => (halfAt p x.1, halfAt p x.2))
        (aoutAt frame row p) := by
  unfold crossCallsAny crossCalls
  refine PW.bind (crossCall_pw hcc hp0 j l1 l2 _ _ _ _ _ hrow fun e => ?_) fun d _ hd => ?_
  · have hj : j ≠ 0 := by
      rintro rfl
      simp at e
    rw [if_neg hj]
    exact hrow.short (hlen hj).1 (hlen hj).2
  · rcases prev with _ | x
    · refine PW.ok hd fun p hp => ?_
      simp only [tupleAt_into]
      rfl
    · obtain ⟨x1, x2⟩ := lp x rfl
      simp only [Option.map_some, ← tupleAt_into]
      refine PW.bind (crossCall_pw hcc hp0 j l1 x2 _ _ _ _ _ hd (by simp)) fun d' _ hd' => ?_
      simp only [← tupleAt_into]
      refine PW.bind (crossCall_pw hcc hp0 j x1 l2 _ _ _ _ _ hd' (by simp)) fun d'' _ hd'' => ?_
      refine PW.ok hd'' fun p hp => ?_
      simp only [tupleAt_into]

theorem crossOp_pw {C : Type} {frame : List Nat} {complex : Bool} {cc : CrossFnAny C} {cc1 : CrossFn C}
    (hcc : CrossAt0 frame complex cc cc1) {p0 : List Nat} (hp0 : InShape p0 frame) (cfg : IterCfg) (t1 t2 : List Int) (j q : Nat)
    {D c L : Nat} {ch : ChanAny × ChanAny} (h1 : ChanSized D c ch.1) (h2 : ChanSized D c ch.2)
    (hc : c = cfg.half * 2 ∨ c = cfg.half ∧ q = 0) {row : CorrAoutAny C} (hrow : AoutLen frame L row)
    (hlen : j ≠ 0 → RowsOK complex cfg.half cfg.nSlow L) :
    PW frame (fun p a => aoutAt frame a p) (AoutLen frame L) (crossOpAny cc cfg frame t1 t2 ch j q row) fun p =>
      crossOp cc1 cfg t1 t2 false (chanAt p ch.1, chanAt p ch.2) j q (aoutAt frame row p) := by
  have e1 : min cfg.half (c - chunkStart cfg.half q) = cfg.half := by
    unfold chunkStart
    rcases hc with rfl | ⟨rfl, rfl⟩
    · rcases Nat.mod_two_eq_zero_or_one q with e | e <;> rw [e] <;> omega
    · simp
  have e2 : q ≥ 1 → min cfg.half (c - chunkStartPrev cfg.half q) = cfg.half := by
    intro hq
    unfold chunkStartPrev
    rcases hc with rfl | ⟨-, rfl⟩
    · have : ((q - 1 : Int) % 2).toNat = 0 ∨ ((q - 1 : Int) % 2).toNat = 1 := by omega
      rcases this with e | e <;> rw [e] <;> omega
    · omega
  unfold crossOpAny crossOp
  refine PW.bind (readHalf_pw h1 j _ _) fun c1 _ l1 => ?_
  refine PW.bind (readHalf_pw h2 j _ _) fun c2 _ l2 => ?_
  rw [e1] at l1 l2
  by_cases hq : q ≥ 1 ∧ cfg.full = true
  · simp only [if_pos hq]
    refine PW.bind (readHalf_pw h1 j _ _) fun b1 _ m1 => ?_
    refine PW.bind (readHalf_pw h2 j _ _) fun b2 _ m2 => ?_
    rw [e2 hq.1] at m1 m2
    exact crossCalls_pw hcc hp0 cfg t1 t2 j q (cur := (c1, c2)) l1 l2 (prev := some (b1, b2))
      (fun x hx => by cases hx; exact ⟨m1, m2⟩) hrow hlen
  · simp only [if_neg hq]
    exact crossCalls_pw hcc hp0 cfg t1 t2 j q (cur := (c1, c2)) l1 l2 (prev := none) (fun x hx => by cases hx) hrow hlen

end Cddm
