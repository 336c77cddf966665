import Verif.Lemmas.IterFwd
import Verif.Lemmas.IterPlain
import Verif.Props.IterChunk
import Mathlib.Tactic.IntervalCases

/-!
# C37: complex auto-correlation of a stream of frames

False of the code.  If the frame times increase from each chunk to the next one, the result of mode 'full' is that of mode 'chunk': the
pairs of frames in different chunks are not in it.  It equals the in-memory result if there is one
chunk only.
-/

namespace Cddm
open Spec

theorem C37_iacorr_multi_complex_full_is_chunk (data : List (Cx ℝ)) (t : Option (List Int))
    (o : MultiOpts) (env : IterEnv) (e : Eff) (h : IterCall false true t none env.dataLen o e)
    (hT : ∀ i j : Nat, i / e.chunk + 1 = j / e.chunk → j < e.frames →
      e.T1.getD i 0 < e.T1.getD j 0)
    (hlen : e.frames ≤ data.length) :
    iacorrMultiComplex data t { o with mode := "full" } env
      = iacorrMultiComplex data t { o with mode := "chunk" } env :=
  auto_modes_same ccorrComplex_CrossOK acorrComplex_AutoOK
    (fun _ _ _ => funext (selfSumFwd_shift _ _ _)) h hT hlen

theorem C37_iacorr_complex_full_is_chunk (data : List (Cx ℝ)) (t : Option (List Int))
    (o : IacorrOpts) (n : Nat) (env : IterEnv) (e : Eff) (hn : o.n = some n)
    (h : IterCall false true t none env.dataLen (iacorrAsMulti o n) e)
    (hT : ∀ i j : Nat, i / e.chunk + 1 = j / e.chunk → j < e.frames →
      e.T1.getD i 0 < e.T1.getD j 0)
    (hlen : e.frames ≤ data.length) :
    iacorrComplex data t { o with mode := "full" } env
      = iacorrComplex data t { o with mode := "chunk" } env := by
  have hf := iacorr_as_multi acorrComplex ccorrComplex (data := data) (o := { o with mode := "full" })
    (n := n) hn (IterCall.withMode h "full" (.inl rfl))
  have hc := iacorr_as_multi acorrComplex ccorrComplex (data := data)
    (o := { o with mode := "chunk" }) (n := n) hn (IterCall.withMode h "chunk" (.inr rfl))
  refine hf.trans (Eq.trans ?_ hc.symm)
  have := auto_modes_same ccorrComplex_CrossOK acorrComplex_AutoOK
    (fun _ _ _ => funext (selfSumFwd_shift _ _ _)) (IterCall.withNorm h) hT hlen
  exact congrArg _ this

/-- Non-trivial case: irregular increasing times, two chunks of two frames. -/
theorem C37_case : IterCall false true (some [0, 3, 4, 6]) none none
    { levelSize := 2, chunkSize := some 2, norm := some 1, nlevel := some 0 }
    ⟨[0, 3, 4, 6], [0, 3, 4, 6], 4, 2, 1, 4, 0, "corr", 1, 1⟩ where
  pair := by simp
  mode := .inl rfl
  times := ⟨.inr ⟨rfl, by simp, by simp⟩, rfl, rfl, by decide, rfl⟩
  frames := ⟨.inl rfl, by decide, by decide, by decide, by decide, by decide⟩
  levels := ⟨1, by decide, by decide, by simp, by simp⟩
  binning := ⟨rfl, rfl, .inl ⟨.inl rfl, .inr (.inl rfl)⟩⟩
  norm := rfl
  args := ⟨.inl rfl, by simp [SupportedNorm], by simp, by decide, by decide, by simp, by decide⟩
  period := by decide
  fft := by decide

example : ∀ i j : Nat, i / 2 + 1 = j / 2 → j < 4 →
    ([0, 3, 4, 6] : List Int).getD i 0 < ([0, 3, 4, 6] : List Int).getD j 0 := by
  intro i j h1 h2
  have h3 : i < 4 := by omega
  interval_cases j <;> interval_cases i <;> first | decide | simp at h1

theorem C37_case_regular : IterCall false true none none none
    (iacorrAsMulti { n := some 2, norm := some 1, count := some 4, chunkSize := some 2 } 2)
    ⟨upTo 4, upTo 4, 4, 2, 1, 4, 0, "corr", 1, 1⟩ where
  pair := by simp
  mode := .inl rfl
  times := ⟨.inl rfl, rfl, rfl, by decide, rfl⟩
  frames := ⟨.inl rfl, by decide, by decide, by decide, by decide, by decide⟩
  levels := ⟨1, by decide, by decide, by simp [iacorrAsMulti], by simp [iacorrAsMulti]⟩
  binning := ⟨rfl, rfl, .inl ⟨.inl rfl, .inr (.inl rfl)⟩⟩
  norm := rfl
  args := ⟨.inl rfl, by simp [SupportedNorm], by simp, by decide, by decide, by simp, by decide⟩
  period := by decide
  fft := by decide

theorem list_of_four {α : Type} : ∀ {l : List α}, l.length = 4 → ∃ a b c d, l = [a, b, c, d]
  | [a, b, c, d], _ => ⟨a, b, c, d, rfl⟩

/-- Any four frames at times 0, 1, 2, 3, in chunks of two: `iacorr` in mode 'full' counts two pairs
at delay 1, `acorr` three. -/
theorem C37_iacorr_complex_false (data : List (Cx ℝ)) (hd : data.length = 4) (env : IterEnv)
    (hl : env.dataLen = none) (al : Bool) :
    ∃ taken fast stats r,
      iacorrComplex data none { n := some 2, norm := some 1, count := some 4, chunkSize := some 2 }
        env = .ok (taken, fast, stats) ∧
      acorrComplex data none (some 2) (some 1) (some "corr") al none {} = .ok r ∧
      fast.count = some [4, 2] ∧ r.arrays.count = some [4, 3] := by
  have hcase := C37_case_regular
  rw [← hl] at hcase
  have h1 := C37_iacorr_complex_full_is_chunk data none
    { n := some 2, norm := some 1, count := some 4, chunkSize := some 2 } 2 env _ rfl hcase
    (by
      intro i j h1 h2
      have h1 : i / 2 + 1 = j / 2 := h1
      have h2 : j < 4 := h2
      have h3 : i < 4 := by omega
      interval_cases j <;> interval_cases i <;> first | decide | simp at h1)
    (by rw [hd])
  obtain ⟨slow, h2, -⟩ := auto_chunk ccorrComplex_CrossOK acorrComplex_AutoOK
    (fun _ _ _ => funext (selfSumFwd_shift _ _ _))
    (IterCall.withNorm (IterCall.withMode hcase "chunk" (.inr rfl))) rfl (by rw [hd]) rfl
  have h3 := iacorr_as_multi acorrComplex ccorrComplex (data := data)
    (o := { n := some 2, norm := some 1, count := some 4, chunkSize := some 2, mode := "chunk" })
    (n := 2) rfl (IterCall.withMode hcase "chunk" (.inr rfl))
  have h4 := h3.trans (congrArg _ h2)
  obtain ⟨r, e1, e2⟩ := acorrComplex_AutoOK.new (f := data) (al := al) (fs := none) (m := "corr")
    (v := 1) (t := none) (n := 2)
    ⟨.inl rfl, by simp [SupportedNorm], by simp [ValidAuto], by simp, by simp [Distinct],
      by simp, ⟨by simp, by simp, by simp [defaultN, hd]⟩⟩ (by simp)
  obtain ⟨a, b, c, d, hdata⟩ := list_of_four hd
  refine ⟨_, _, _, r, h1.trans h4, e1, ?_, ?_⟩
  · subst hdata
    rfl
  · rw [e2]
    subst hdata
    rfl

/-- With a single chunk the result is that of the in-memory function. -/
theorem C37_iacorr_multi_complex_partial (data : List (Cx ℝ)) (t : Option (List Int))
    (o : MultiOpts) (env : IterEnv) (e : Eff) (h : IterCall false true t none env.dataLen o e)
    (hone : e.frames = e.chunk)
    (hlen : e.frames ≤ data.length) (y : List (Cx ℝ)) (al : Bool)
    (hy : y = processed o.autoBackground e.chunk e.frames data) :
    ∃ taken slow stats r, iacorrMultiComplex data t o env = .ok (taken, ⟨r.arrays, slow, stats⟩) ∧
      acorrComplex y (some (e.T1.take e.frames)) (some (o.period * o.levelSize)) (some e.norm)
        (some e.method) al none {} = .ok r := by
  have hyl : y.length = e.frames := by rw [hy, processed_length _ _ _ hlen]
  have hpos := IterCall.pos h
  obtain ⟨r, e1, e2⟩ := acorrComplex_AutoOK.new (f := y) (al := al) (fs := none) (m := e.method)
    (v := e.norm) (t := some (e.T1.take e.frames)) (n := o.period * o.levelSize)
    ⟨h.args.method, h.args.norm, ⟨by have := h.args.times1; simp [this, hyl], by omega⟩, by simp,
      fun l hl => by rw [← Option.some.inj hl]; exact h.args.distinct rfl, fun _ => by omega,
      ⟨by simp, fun hm => (h.args.fft hm).pos, by
        rintro (hm | hm)
        · have := chunk_span h.args (h.frames.level.trans_le h.frames.lo) (IterCall.chunk_le h) hm
            y.length
          rw [show e.T2 = e.T1 from h.times.second] at this
          simpa using this.2
        · simp at hm⟩⟩ h.args.diff
  obtain ⟨slow, h2, -⟩ := auto_chunk ccorrComplex_CrossOK acorrComplex_AutoOK
    (fun _ _ _ => funext (selfSumFwd_shift _ _ _)) (IterCall.withMode h "chunk" (.inr rfl)) rfl hlen
    hy
  have hT : ∀ i j : Nat, i / e.chunk + 1 = j / e.chunk → j < e.frames →
      e.T1.getD i 0 < e.T1.getD j 0 := by
    intro i j h1 h2
    rw [hone] at h2
    rw [Nat.div_eq_of_lt h2] at h1
    exact absurd h1 (Nat.succ_ne_zero _)
  have hmodes := C37_iacorr_multi_complex_full_is_chunk data t o env e h hT hlen
  have hsame : iacorrMultiComplex data t o env
      = iacorrMultiComplex data t { o with mode := "chunk" } env := by
    rcases h.mode with hm | hm
    · rw [← hmodes, ← hm]
    · rw [← hm]
  refine ⟨min data.length (e.frames + 1), slow, [some (meanOf y, varianceOf y)], r, hsame.trans h2 |>.trans ?_, e1⟩
  rw [autoDataSum_eq _ h.args.norm, e2]
  have hq : e.frames / e.chunk = 1 := by rw [hone]; exact Nat.div_self (by omega)
  rw [hq, Finset.sum_range_one, piece_zero (by omega), piece_zero (by simp; omega),
    piece_zero (by simp; omega)]
  rfl

end Cddm
