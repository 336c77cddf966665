import Verif.Lemmas.RoundingSum
import Verif.Props.Laws

/-! # `auto_sum` over any arithmetic -/

namespace Cddm
open Spec

section
variable {M N : Type} [Zero M] [Add M] [Sub M] [AddCommMonoid N] {Q : M → N → Prop}

theorem autoSumWith_tracks (half : M → M) (f : List M) (t : List Int) (n : Option Nat) (aout : Option (List M))
    (hv : ValidAuto f.length (some t)) (g : M → N) (hg : ∀ a ∈ f, Steps Q a (g a)) (h0 : Q 0 0) :
    ∃ out0 : List M, autoSumWith half f (some t) n aout
        = .ok (List.zipWith (· + ·) (startOut aout (outLen n aout (defaultN f.length (some t) (some t))))
            (out0.mapIdx fun k v => if k = 0 then v else half v))
      ∧ out0.length = outLen n aout (defaultN f.length (some t) (some t))
      ∧ ∀ k (hk : k < out0.length), Q out0[k] (pairSum (fun a _ => g a) (stream f (some t)) (otherStream f.length (some t)) k) := by
  obtain ⟨h1, h2⟩ := hv
  obtain ⟨c, hc⟩ := inspectAuto_some (a := t) f.length (by rintro rfl; simp at h1; omega) n (aout.map List.length)
  unfold autoSumWith
  rw [hc]
  simp only [bind, Except.bind]
  rw [defaultOut_auto]
  simp only [List.length_map, h1, decide_true, checkDims, if_true, startOut_length]
  have T := crossSum_tracks (Q := Q) (L := outLen n aout (defaultN f.length (some t) (some t))) f (t.map (· - c)) (t.map (· - c)) g
    (by simp [h1]) hg
  rw [zip_map_sub, stamps_map_sub] at T
  simp only [pairSum_shift] at T
  obtain ⟨out, e1, e2, e3⟩ := T (List.replicate (outLen n aout (defaultN f.length (some t) (some t))) 0) (fun _ => 0) (by simp)
    (by intro k hk; simpa using h0)
  refine ⟨out, ?_, e2, fun k hk => ?_⟩
  · simp only at e1
    rw [e1]; rfl
  · simpa [stream, otherStream] using e3 k hk

end

section
variable {M V S : Type} [Zero M] [Add M] [Sub M] [AddCommGroup V] [AddCommMonoid S] [PartialOrder S] [IsOrderedAddMonoid S]
variable {P : Nat → M → V → S → Prop} (c : Calc P)
include c

theorem autoSumWith_calc (half : M → M) (f : List M) (n : Option Nat) (aout : Option (List M)) (ex : M → V) (sz : M → S)
    (hfast : outLen n aout f.length ≤ f.length + 1) (hx : ∀ a ∈ f, P 0 a (ex a) (sz a)) (hz : ∀ a ∈ f, 0 ≤ sz a) :
    ∃ out0 : List M, autoSumWith half f none n aout
        = .ok (List.zipWith (· + ·) (startOut aout (outLen n aout f.length)) (out0.mapIdx fun k v => if k = 0 then v else half v))
      ∧ out0.length = outLen n aout f.length
      ∧ ∀ k (hk : k < out0.length), P (f.length + 2 * k + 2) out0[k]
          (pairSum (fun a _ => a) (stream (f.map ex) none) (otherStream f.length none) k) (4 • (f.map sz).sum) := by
  unfold autoSumWith
  rw [inspectAuto_none]
  simp only [bind, Except.bind]
  rw [defaultOut_auto]
  simp only [startOut_length]
  obtain ⟨out, h1, h2, h3⟩ := crossSumRegular_calc c f ex sz hx hz (List.replicate (outLen n aout f.length) 0)
    (by simpa using hfast) (fun _ => 0) (fun _ => 0) (fun k hk => by simpa using c.zero)
  refine ⟨out, ?_, by simpa using h2, fun k hk => ?_⟩
  · rw [h1]; rfl
  · simpa [stream, otherStream] using h3 k hk

end

/-- Half the sums of the signal over ordered pairs are the sums of the means over unordered pairs. -/
theorem auto_halves (x : List ℝ) (t : Option (List Int)) (hv : ValidAuto x.length t) (hd : ∀ u, t = some u → u.Nodup) (k : Nat)
    (hk : t = none → k ≤ x.length) :
    (if k = 0 then pairSum (fun a _ => a) (stream x t) (otherStream x.length t) k
      else (1 / 2 : ℝ) • pairSum (fun a _ => a) (stream x t) (otherStream x.length t) k)
      = selfSum (fun a b => (a + b) / 2) (stream x t) k := by
  have hf : t = none → outLen (some (k + 1)) (none : Option (List ℝ)) x.length ≤ x.length + 1 := by
    intro h
    have := hk h
    simp [outLen]
    omega
  obtain ⟨out, h1, h2, h3⟩ := C16_auto_sum ℝ (by norm_num) x t (some (k + 1)) none hv hd hf
  have e := autoSumApi_ok ℝ x t (some (k + 1)) none hv hf
  rw [h1] at e
  have hk' : k < out.length := by rw [h2]; simp [outLen]
  have h4 := h3 k hk'
  obtain ⟨o, o1, o2, o3⟩ := ok_entries e.symm.symm (startOut_length _ _ _)
  cases o1
  rw [o3 k hk'] at h4
  simp only [start] at h4
  have h5 : ∀ {a b c : ℝ}, a + b = a + c → b = c := fun h => add_left_cancel h
  have := h5 h4
  rw [this]
  congr 1
  funext a b
  simp
  ring

end Cddm
