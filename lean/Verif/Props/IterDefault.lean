import Verif.Lemmas.IterPlain
import Verif.Props.IterFull

/-!
# C67: `iccorr` and `iacorr` with their default arguments

False of the code: without the number of delays `n` neither function returns anything, and `iacorr`
refuses its own default norm.  With these arguments given they compute the correlation.
-/

namespace Cddm
open Spec

/-- Without `n`: never a result. -/
theorem C67_iccorr_no_result (data : List (Cx ℝ × Cx ℝ)) (t1 t2 : Option (List Int))
    (o : IccorrOpts) (env : IterEnv) (hn : o.n = none) (r) : iccorr data t1 t2 o env ≠ .ok r := by
  unfold iccorr iccorrOf noLevelSize
  split
  · simp
  · simp only [bind, Except.bind]
    cases defaultNormOpt o.norm o.method true with
    | error e => simp
    | ok v =>
      simp only [hn]
      split
      · simp
      · cases defaultMethodBinning o.method none with
        | error e => simp
        | ok v => cases inspectT1T2Count t1 t2 o.count env.dataLen <;> simp

theorem C67_iccorr_complex_no_result (data : List (Cx ℝ × Cx ℝ)) (t1 t2 : Option (List Int))
    (o : IccorrOpts) (env : IterEnv) (hn : o.n = none) (r) :
    iccorrComplex data t1 t2 o env ≠ .ok r := by
  unfold iccorrComplex iccorrOf noLevelSize
  split
  · simp
  · simp only [bind, Except.bind]
    cases defaultNormOpt o.norm o.method true with
    | error e => simp
    | ok v =>
      simp only [hn]
      split
      · simp
      · cases defaultMethodBinning o.method none with
        | error e => simp
        | ok v => cases inspectT1T2Count t1 t2 o.count env.dataLen <;> simp

/-- The call `iccorr(data)`: a type error if the length of the data is known, otherwise a value
error. -/
theorem C67_iccorr_default_false (data : List (Cx ℝ × Cx ℝ)) (env : IterEnv) :
    iccorr data none none {} env
      = .error (if env.dataLen = none then .valueError else .typeError) := by
  unfold iccorr iccorrOf noLevelSize
  simp only [Option.isNone_none, Option.isSome_none, Bool.false_eq_true, and_false, or_self,
    if_false, bind, Except.bind]
  rw [defaultNormOpt_ok (m := "corr") rfl (by simp [SupportedNorm, effNorm])]
  unfold inspectT1T2Count defaultMethodBinning
  cases env.dataLen <;> simp [arange]

/-- The default norm of `iacorr` is refused, whatever the other arguments. -/
theorem C67_iacorr_default_false (data : List (Cx ℝ)) (t : Option (List Int)) (o : IacorrOpts)
    (env : IterEnv) (h : o.norm = ({} : IacorrOpts).norm) :
    iacorr data t o env = .error .valueError := by
  have h : o.norm = some 0 := h
  unfold iacorr iacorrOf defaultNormOpt defaultNorm supportedNorms
  rw [h]
  split <;> simp [bind, Except.bind]

theorem C67_iacorr_complex_default_false (data : List (Cx ℝ)) (t : Option (List Int))
    (o : IacorrOpts) (env : IterEnv) (h : o.norm = ({} : IacorrOpts).norm) :
    iacorrComplex data t o env = .error .valueError := by
  have h : o.norm = some 0 := h
  unfold iacorrComplex iacorrOf defaultNormOpt defaultNorm supportedNorms
  rw [h]
  split <;> simp [bind, Except.bind]

/-- With another norm, but without `n`: never a result. -/
theorem C67_iacorr_no_result (data : List (Cx ℝ)) (t : Option (List Int))
    (o : IacorrOpts) (env : IterEnv) (hn : o.n = none) (r) : iacorr data t o env ≠ .ok r := by
  unfold iacorr iacorrOf noLevelSize
  simp only [bind, Except.bind]
  cases defaultNormOpt o.norm o.method false with
  | error e => simp
  | ok v =>
    simp only [hn]
    split
    · simp
    · cases defaultMethodBinning o.method none with
      | error e => simp
      | ok v => cases inspectT1T2Count t none o.count env.dataLen <;> simp

/-- With `n`, the result is that of `ccorr`. -/
theorem C67_iccorr_partial (data : List (Cx ℝ × Cx ℝ)) (t1 t2 : Option (List Int))
    (o : IccorrOpts) (n : Nat) (env : IterEnv) (e : Eff) (hn : o.n = some n)
    (h : IterCall true false t1 t2 env.dataLen (iccorrAsMulti o n) e)
    (hmode : o.mode = "full") (hsp : Spaced e.chunk e.frames n e.T1 e.T2)
    (hlen : e.frames ≤ data.length) (y1 y2 : List (Cx ℝ)) (al : Bool)
    (hy1 : y1 = processed o.autoBackground e.chunk e.frames (data.map Prod.fst))
    (hy2 : y2 = processed o.autoBackground e.chunk e.frames (data.map Prod.snd)) :
    ∃ taken stats r, iccorr data t1 t2 o env = .ok (taken, r.arrays, stats) ∧
      ccorr y1 y2 (some (e.T1.take e.frames)) (some (e.T2.take e.frames))
        (some n) (some e.norm) (some e.method) al none none {} = .ok r := by
  obtain ⟨taken, slow, stats, r, h1, h2⟩ := C31_iccorr_multi_full_eq_ccorr data t1 t2
    { iccorrAsMulti o n with norm := some e.norm } env e (IterCall.withNorm h) hmode
    (by rw [← Nat.one_mul n] at hsp; exact hsp) hlen y1 y2 al hy1 hy2
  rw [iccorrMulti, iccorrMultiOf, if_neg (by have := h.pair rfl; cases t1 <;> cases t2 <;> simp_all)]
    at h1
  have h3 := iccorr_as_multi ccorr (data := data) hn h
  rw [h1] at h3
  refine ⟨taken, stats, r, h3, ?_⟩
  rw [← Nat.one_mul n]
  exact h2

theorem C67_iccorr_complex_partial (data : List (Cx ℝ × Cx ℝ)) (t1 t2 : Option (List Int))
    (o : IccorrOpts) (n : Nat) (env : IterEnv) (e : Eff) (hn : o.n = some n)
    (h : IterCall true true t1 t2 env.dataLen (iccorrAsMulti o n) e)
    (hmode : o.mode = "full") (hsp : Spaced e.chunk e.frames n e.T1 e.T2)
    (hlen : e.frames ≤ data.length) (y1 y2 : List (Cx ℝ)) (al : Bool)
    (hy1 : y1 = processed o.autoBackground e.chunk e.frames (data.map Prod.fst))
    (hy2 : y2 = processed o.autoBackground e.chunk e.frames (data.map Prod.snd)) :
    ∃ taken stats r, iccorrComplex data t1 t2 o env = .ok (taken, r.arrays, stats) ∧
      ccorrComplex y1 y2 (some (e.T1.take e.frames)) (some (e.T2.take e.frames))
        (some n) (some e.norm) (some e.method) al none none {} = .ok r := by
  obtain ⟨taken, slow, stats, r, h1, h2⟩ := C31_iccorr_multi_full_complex_eq_ccorr data t1 t2
    { iccorrAsMulti o n with norm := some e.norm } env e (IterCall.withNorm h) hmode
    (by rw [← Nat.one_mul n] at hsp; exact hsp) hlen y1 y2 al hy1 hy2
  rw [iccorrMultiComplex, iccorrMultiOf,
    if_neg (by have := h.pair rfl; cases t1 <;> cases t2 <;> simp_all)] at h1
  have h3 := iccorr_as_multi ccorrComplex (data := data) hn h
  rw [h1] at h3
  refine ⟨taken, stats, r, h3, ?_⟩
  rw [← Nat.one_mul n]
  exact h2

/-- With `n` and a supported norm, the result is that of `acorr`. -/
theorem C67_iacorr_partial (data : List (Cx ℝ)) (t : Option (List Int))
    (o : IacorrOpts) (n : Nat) (env : IterEnv) (e : Eff) (hn : o.n = some n)
    (h : IterCall false false t none env.dataLen (iacorrAsMulti o n) e)
    (hmode : o.mode = "full") (hsp : Spaced e.chunk e.frames n e.T1 e.T1)
    (hlen : e.frames ≤ data.length) (y : List (Cx ℝ)) (al : Bool)
    (hy : y = processed o.autoBackground e.chunk e.frames data) :
    ∃ taken stats r, iacorr data t o env = .ok (taken, r.arrays, stats) ∧
      acorr y (some (e.T1.take e.frames)) (some n) (some e.norm)
        (some e.method) al none {} = .ok r := by
  obtain ⟨taken, slow, stats, r, h1, h2⟩ := C31_iacorr_multi_full_eq_acorr data t
    { iacorrAsMulti o n with norm := some e.norm } env e (IterCall.withNorm h) hmode
    (by rw [← Nat.one_mul n] at hsp; exact hsp) hlen y al hy
  have h3 := iacorr_as_multi acorr ccorr (data := data) hn h
  rw [show autoIterOf acorr ccorr data t { iacorrAsMulti o n with norm := some e.norm } env = _
    from h1] at h3
  refine ⟨taken, stats, r, h3, ?_⟩
  rw [← Nat.one_mul n]
  exact h2

/-- Non-trivial case: 20 pairs of frames, four delays, chunks of four; other arguments default. -/
example : IterCall true false none none (some 20)
    (iccorrAsMulti { n := some 4, chunkSize := some 4 } 4)
    ⟨upTo 20, upTo 20, 20, 4, 2, 16, 0, "corr", 1, 7⟩ where
  pair := fun _ => rfl
  mode := .inl rfl
  times := ⟨.inr ⟨rfl, by simp, fun _ => rfl⟩, rfl, rfl, by decide, rfl⟩
  frames := ⟨.inl rfl, by decide, by decide, by decide, by decide, by decide⟩
  levels := ⟨2, by decide, by decide, by simp [iccorrAsMulti], by simp [iccorrAsMulti]⟩
  binning := ⟨rfl, rfl, .inl ⟨.inl rfl, .inr (.inl rfl)⟩⟩
  norm := rfl
  args := ⟨.inl rfl, by simp [SupportedNorm], by simp, by decide, by decide, by simp, by simp⟩
  period := by decide
  fft := by simp

/-- The same for `iacorr`, with a norm. -/
example : IterCall false false none none (some 20)
    (iacorrAsMulti { n := some 4, norm := some 7, chunkSize := some 4 } 4)
    ⟨upTo 20, upTo 20, 20, 4, 2, 16, 0, "corr", 1, 7⟩ where
  pair := fun _ => rfl
  mode := .inl rfl
  times := ⟨.inr ⟨rfl, by simp, fun _ => rfl⟩, rfl, rfl, by decide, rfl⟩
  frames := ⟨.inl rfl, by decide, by decide, by decide, by decide, by decide⟩
  levels := ⟨2, by decide, by decide, by simp [iacorrAsMulti], by simp [iacorrAsMulti]⟩
  binning := ⟨rfl, rfl, .inl ⟨.inl rfl, .inr (.inl rfl)⟩⟩
  norm := rfl
  args := ⟨.inl rfl, by simp [SupportedNorm], by simp, by decide, by decide, by simp, by decide⟩
  period := by decide
  fft := by simp [iacorrAsMulti]

end Cddm
