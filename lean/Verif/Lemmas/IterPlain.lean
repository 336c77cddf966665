import Verif.Lemmas.IterMain

/-!
# `iccorr` and `iacorr` as multiple-tau calls
-/

namespace Cddm
open Spec

theorem defaultNormOpt_ok {norm : Option Int} {method : Option String} {m : String} {cross : Bool}
    (hm : m = method.getD "corr") (h : SupportedNorm m cross (effNorm norm m cross)) :
    defaultNormOpt norm method cross = .ok (effNorm norm m cross).toNat := by
  cases method with
  | none =>
    have hm : m = "corr" := hm
    subst hm
    exact defaultNorm_ok h
  | some s =>
    have hm : m = s := hm
    subst hm
    exact defaultNorm_ok h

theorem supported_toNat {m : String} {cross : Bool} {v : Int} (h : SupportedNorm m cross v) :
    ((v.toNat : Nat) : Int) = v := by
  unfold SupportedNorm at h
  split at h <;> omega

/-- The call with the norm filled in. -/
theorem IterCall.withNorm {cross cplx : Bool} {t1 t2 : Option (List Int)} {dataLen : Option Nat}
    {o : MultiOpts} {e : Eff} (h : IterCall cross cplx t1 t2 dataLen o e) :
    IterCall cross cplx t1 t2 dataLen { o with norm := some e.norm } e :=
  ⟨h.pair, h.mode, h.times, h.frames, h.levels, h.binning, rfl, h.args, h.period, h.fft⟩

theorem iccorr_as_multi {C : Type} [Zero C] {cplx : Bool} (cc : CrossFn C)
    {data : List (Cx ℝ × Cx ℝ)} {t1 t2 : Option (List Int)} {o : IccorrOpts} {n : Nat}
    {env : IterEnv} {e : Eff} (hn : o.n = some n)
    (h : IterCall true cplx t1 t2 env.dataLen (iccorrAsMulti o n) e) :
    iccorrOf cplx cc data t1 t2 o env = (crossIterOf cplx cc data t1 t2
      { iccorrAsMulti o n with norm := some e.norm } env).map
        fun r => (r.1, r.2.fast, r.2.stats) := by
  have hp := h.pair rfl
  have hnorm : e.norm = effNorm o.norm e.method true := h.norm
  have hs := h.args.norm
  rw [hnorm] at hs
  have hdn := defaultNormOpt_ok (method := o.method) h.binning.method hs
  rw [← hnorm] at hdn hs
  unfold iccorrOf
  rw [if_neg (by cases t1 <;> cases t2 <;> simp_all)]
  simp only [hdn, hn, bind, Except.bind]
  rw [supported_toNat hs]
  unfold iccorrAsMulti
  dsimp only
  cases crossIterOf cplx cc data t1 t2
    { levelSize := n, norm := some e.norm, method := o.method, count := o.count, nlevel := some 0
      chunkSize := o.chunkSize, autoBackground := o.autoBackground, mode := o.mode } env <;> rfl

theorem iacorr_as_multi {C : Type} [Zero C] [Add C] {cplx : Bool} (ac : AutoFn C) (cc : CrossFn C)
    {data : List (Cx ℝ)} {t : Option (List Int)} {o : IacorrOpts} {n : Nat}
    {env : IterEnv} {e : Eff} (hn : o.n = some n)
    (h : IterCall false cplx t none env.dataLen (iacorrAsMulti o n) e) :
    iacorrOf ac cc data t o env = (autoIterOf ac cc data t
      { iacorrAsMulti o n with norm := some e.norm } env).map
        fun r => (r.1, r.2.fast, r.2.stats) := by
  have hnorm : e.norm = effNorm o.norm e.method false := h.norm
  have hs := h.args.norm
  rw [hnorm] at hs
  have hdn := defaultNormOpt_ok (method := o.method) h.binning.method hs
  rw [← hnorm] at hdn hs
  unfold iacorrOf
  simp only [hdn, hn, bind, Except.bind]
  rw [supported_toNat hs]
  unfold iacorrAsMulti
  dsimp only
  cases autoIterOf ac cc data t
    { levelSize := n, norm := some e.norm, method := o.method, count := o.count, nlevel := some 0
      chunkSize := o.chunkSize, autoBackground := o.autoBackground, mode := o.mode } env <;> rfl

end Cddm
