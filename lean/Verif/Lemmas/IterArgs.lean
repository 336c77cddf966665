import Verif.Spec.MultitauIter
import Verif.Lemmas.IterIdeal

/-!
# The parameters of the iterative algorithms from their arguments
-/

namespace Cddm
open Spec

theorem halveChunk_default (levelSize c : Nat) : DefaultChunk levelSize c (halveChunk levelSize c) := by
  induction c using Nat.strong_induction_on with
  | _ c ih =>
    unfold halveChunk
    split
    · next hc =>
      obtain ⟨h, e1, e2, e3⟩ := ih (c / 2) (by omega)
      refine ⟨h + 1, ?_, e2, ?_⟩
      · rw [e1, Nat.div_div_eq_div_mul, pow_succ, mul_comm]
      · intro i hi
        cases i with
        | zero => simp; omega
        | succ i =>
          have := e3 i (by omega)
          rw [Nat.div_div_eq_div_mul, Nat.div_div_eq_div_mul] at this
          rwa [pow_succ, mul_comm, pow_succ 2 (i + 1), mul_comm _ 2]
    · next hc =>
      refine ⟨0, by simp, by omega, by simp⟩

theorem defaultChunk_unique {levelSize count c c' : Nat} (h : DefaultChunk levelSize count c)
    (h' : DefaultChunk levelSize count c') : c = c' := by
  obtain ⟨a, e1, e2, e3⟩ := h
  obtain ⟨b, f1, f2, f3⟩ := h'
  have key : ∀ {a b c : Nat}, c = count / 2 ^ a → (c ≤ 128 ∨ c / 2 < levelSize) →
      (∀ i, i < b → 128 < count / 2 ^ i ∧ levelSize ≤ count / 2 ^ (i + 1)) → b ≤ a := by
    intro a b c e1 e2 e3
    by_contra hlt
    have := e3 a (by omega)
    rw [pow_succ, ← Nat.div_div_eq_div_mul, ← e1] at this
    omega
  have h1 : b ≤ a := key e1 e2 f3
  have h2 : a ≤ b := key f1 f2 e3
  rw [e1, f1, Nat.le_antisymm h1 h2]

theorem inspect_ok {t1 t2 : Option (List Int)} {count dataLen : Option Nat} {T1 T2 : List Int}
    {cnt : Nat} (h : EffTimes t1 t2 count dataLen T1 T2 cnt) :
    inspectT1T2Count t1 t2 count dataLen = .ok (T1, T2, cnt) := by
  obtain ⟨hc, rfl, rfl, he, hs⟩ := h
  unfold inspectT1T2Count
  cases t1 with
  | none =>
    have hT : (none : Option (List Int)).getD (upTo cnt) = arange cnt := rfl
    rw [hT] at he hs ⊢
    rcases hc with rfl | ⟨rfl, -, h2⟩
    · simp only [Option.getD_some]
      rw [if_neg (by omega), if_neg (not_not_intro hs)]
    · rw [h2 rfl]
      simp only [Option.getD_some]
      rw [if_neg (by omega), if_neg (not_not_intro hs)]
  | some t =>
    simp only [Option.getD_some] at he hs ⊢
    rcases hc with rfl | ⟨rfl, h1, -⟩
    · simp only [Option.getD_some]
      rw [if_neg (by omega), if_neg (not_not_intro hs)]
    · simp only [Option.getD_none]
      rw [h1 t rfl, if_neg (by omega), if_neg (not_not_intro hs)]

/-- and conversely. -/
theorem inspect_spec {t1 t2 : Option (List Int)} {count dataLen : Option Nat} {T1 T2 : List Int}
    {cnt : Nat} (h : inspectT1T2Count t1 t2 count dataLen = .ok (T1, T2, cnt)) :
    EffTimes t1 t2 count dataLen T1 T2 cnt := by
  unfold inspectT1T2Count at h
  cases t1 with
  | none =>
    cases count with
    | some c =>
      simp only [Option.getD_some] at h
      split at h
      · simp at h
      · split at h
        · simp at h
        · next h1 h2 =>
          simp only [Except.ok.injEq, Prod.mk.injEq] at h
          obtain ⟨rfl, rfl, rfl⟩ := h
          exact ⟨.inl rfl, rfl, rfl, by omega, not_not.1 h2⟩
    | none =>
      cases dataLen with
      | none => simp at h
      | some c =>
        simp only [Option.getD_some] at h
        split at h
        · simp at h
        · split at h
          · simp at h
          · next h1 h2 =>
            simp only [Except.ok.injEq, Prod.mk.injEq] at h
            obtain ⟨rfl, rfl, rfl⟩ := h
            exact ⟨.inr ⟨rfl, by simp, by simp⟩, rfl, rfl, by omega, not_not.1 h2⟩
  | some t =>
    simp only at h
    split at h
    · simp at h
    · split at h
      · simp at h
      · next h1 h2 =>
        simp only [Except.ok.injEq, Prod.mk.injEq] at h
        obtain ⟨rfl, rfl, rfl⟩ := h
        refine ⟨?_, rfl, rfl, by omega, not_not.1 h2⟩
        cases count with
        | some c => exact .inl rfl
        | none =>
          refine .inr ⟨rfl, fun t' ht => ?_, by simp⟩
          rw [← Option.some.inj ht]; rfl

theorem chunk_ok {levelSize : Nat} {chunkSize : Option Nat} {cnt c k N : Nat}
    (h : EffFrames levelSize chunkSize cnt c k N) :
    defaultChunkSize chunkSize cnt levelSize = .ok c := by
  have hc : c ≤ cnt := by
    refine le_trans ?_ h.le
    rw [h.frames]
    exact Nat.le_mul_of_pos_right _ (Nat.two_pow_pos k)
  rcases h.chunk with rfl | ⟨rfl, hd⟩
  · rw [defaultChunkSize_some, if_pos ⟨h.lo, hc⟩]
  · rw [defaultChunkSize_none (h.lo.trans hc), defaultChunk_unique (halveChunk_default levelSize cnt) hd]

theorem pow_unique {c a b n : Nat} (h1 : c * 2 ^ a ≤ n) (h2 : n < 2 * (c * 2 ^ a))
    (h3 : c * 2 ^ b ≤ n) (h4 : n < 2 * (c * 2 ^ b)) : a = b := by
  have key : ∀ {a b : Nat}, n < 2 * (c * 2 ^ a) → c * 2 ^ b ≤ n → b ≤ a := by
    intro a b h2 h3
    by_contra hlt
    have : 2 ^ (a + 1) ≤ 2 ^ b := Nat.pow_le_pow_right (by norm_num) (by omega)
    have := Nat.mul_le_mul_left c this
    rw [pow_succ, ← mul_assoc] at this
    omega
  exact Nat.le_antisymm (key h4 h1) (key h2 h3)

theorem level_unique {n l a b : Nat} (h1 : l ≤ n / 2 ^ a) (h2 : n / 2 ^ (a + 1) < l)
    (h3 : l ≤ n / 2 ^ b) (h4 : n / 2 ^ (b + 1) < l) : a = b := by
  have key : ∀ {a b : Nat}, n / 2 ^ (a + 1) < l → l ≤ n / 2 ^ b → b ≤ a := by
    intro a b h2 h3
    by_contra hlt
    have := div_pow_anti (n := n) (show a + 1 ≤ b by omega)
    omega
  exact Nat.le_antisymm (key h4 h1) (key h2 h3)

theorem binning_ok {method : Option String} {binning : Option Int} {m : String} {b : Int}
    (h : EffBinning method binning m b) : defaultMethodBinning method binning = .ok (m, b) := by
  obtain ⟨rfl, rfl, hk⟩ := h
  unfold defaultMethodBinning
  rcases hk with ⟨h1, h2⟩ | ⟨h1, h2⟩
  · have hd : method.getD "corr" ≠ "diff" := by rcases h1 with h1 | h1 <;> rw [h1] <;> decide
    simp only [hd, if_false] at h2 ⊢
    rw [if_pos h1, if_pos]
    rcases h2 with h2 | h2 | h2 <;> rw [h2] <;> decide
  · simp only [h1, if_true] at h2 ⊢
    rw [if_neg (by decide), if_pos]
    rcases h2 with h2 | h2 <;> rw [h2] <;> decide

/-- The configuration that the arguments mean. -/
def cfgOf (c nd N nl period levelSize : Nat) (m : String) (b : Int) (full ab : Bool) : IterCfg where
  half := c
  nDecades := nd
  nframes := N
  nlevel := nl
  nFast := period * levelSize
  nSlow := levelSize
  norm := 0
  method := m
  binning := b
  full := full
  autoBackground := ab

theorem sizes_ok {levelSize : Nat} {chunkSize : Option Nat} {cnt c k N nl : Nat}
    {nlevel : Option Int} (h : EffFrames levelSize chunkSize cnt c k N)
    (hl : EffLevels levelSize N nlevel nl) :
    ∃ nd, iterSizes cnt c levelSize nlevel = .ok (nd, N, nl) ∧ (nlevel = none → nd = k) ∧
      (nlevel ≠ none → nd = nl + 1) := by
  have hc := (defaultChunkSize_ok (chunk_ok h)).2
  obtain ⟨nl0, a1, a2, a3, a4⟩ := hl
  have hN := h.frames
  have h1 := h.le
  have h2 := h.lt
  subst hN
  cases nlevel with
  | none =>
    obtain ⟨k', nl', e, s⟩ := iterSizes_none h.lo hc h.level
    obtain rfl : k = k' := pow_unique h1 h2 s.le s.lt
    have hnl : nl0 = nl' := level_unique a1 a2 s.enough (s.auto rfl).2.2
    refine ⟨k, ?_, fun _ => rfl, by simp⟩
    rw [e, a3 rfl, hnl]
  | some l =>
    rcases iterSizes_some h.lo hc h.level l with ⟨hneg, -⟩ | ⟨hpos, k', nl', e, s⟩
    · have := a4 l rfl; omega
    · obtain rfl : k = k' := pow_unique h1 h2 s.le s.lt
      obtain ⟨-, nl1, b1, b2, b3⟩ := s.explicit l rfl
      have hnl : nl0 = nl1 := level_unique a1 a2 b1 b2
      have hnn : nl = nl' := by
        have := a4 l rfl
        subst hnl
        omega
      subst hnn
      exact ⟨nl + 1, e, by simp, fun _ => rfl⟩

theorem params_ok {t1 t2 : Option (List Int)} {dataLen : Option Nat} {period levelSize : Nat}
    {chunkSize : Option Nat} {binning : Option Int} {method : Option String} {count : Option Nat}
    (autoBackground : Bool) {nlevel : Option Int} {mode : String} {T1 T2 : List Int}
    {cnt c k N nl : Nat} {m : String} {b : Int}
    (ht : EffTimes t1 t2 count dataLen T1 T2 cnt) (hf : EffFrames levelSize chunkSize cnt c k N)
    (hl : EffLevels levelSize N nlevel nl) (hb : EffBinning method binning m b)
    (hm : mode = "full" ∨ mode = "chunk") :
    ∃ nd, iterParams t1 t2 dataLen period levelSize chunkSize binning method count autoBackground
      nlevel mode = .ok (T1, T2, cfgOf c nd N nl period levelSize m b (decide (mode = "full"))
        autoBackground) ∧ (nlevel = none → nd = k) ∧ (nlevel ≠ none → nd = nl + 1) := by
  obtain ⟨nd, e, h1, h2⟩ := sizes_ok hf hl
  refine ⟨nd, ?_, h1, h2⟩
  unfold iterParams
  rw [if_neg (by rintro ⟨h3, h4⟩; rcases hm with hm | hm <;> contradiction)]
  simp only [binning_ok hb, inspect_ok ht, chunk_ok hf, e, bind, Except.bind]
  rfl

end Cddm
