import Verif.Model.Multitau
import Verif.Spec.Multitau
import Verif.Lemmas.Ccorr

/-!
# Rows of correlation data as sums, and `ccorr`/`acorr` adding to a row
-/

namespace Cddm
open Spec

/-- The five sequences (correlation, count, squares, two signal sums) a row of data holds. -/
abbrev RowFns (C : Type) := (Nat → C) × (Nat → Nat) × (Nat → ℝ) × (Nat → Cx ℝ) × (Nat → Cx ℝ)

/-- First `L` values of a sequence. -/
def upto {M : Type} (L : Nat) (δ : Nat → M) : List M := (List.range L).map δ

theorem upto_length {M : Type} (L : Nat) (δ : Nat → M) : (upto L δ).length = L := by simp [upto]

theorem cells_eq {M : Type} (L : Nat) (δ : Nat → Nat → M) : cells L δ = upto L (δ L) := rfl

theorem addSeq_upto {M : Type} [AddCommMonoid M] (L : Nat) (δ ε : Nat → M) :
    addSeq (upto L δ) ε = upto L (δ + ε) := by
  apply List.ext_getElem
  · simp [upto]
  · intro k h1 h2
    simp [addSeq, upto]

theorem replicate_upto {M : Type} [Zero M] (L : Nat) : List.replicate L (0 : M) = upto L 0 := by
  apply List.ext_getElem
  · simp [upto]
  · intro k h1 h2
    simp [upto]

/-- The arrays holding the five sequences, those present for the norm and method. -/
noncomputable def rowOf {C : Type} (nm : Nat) (m : String) (cross : Bool) (L Lc : Nat)
    (d : RowFns C) : CorrAout C where
  cor := some (upto L d.1)
  count := some (upto Lc d.2.1)
  sq := if needsSquares nm = true ∧ m ≠ "diff" then some (upto L d.2.2.1) else none
  ds1 := if needsSums nm = true then some (upto L d.2.2.2.1) else none
  ds2 := if needsSums nm = true ∧ cross = true then some (upto L d.2.2.2.2) else none

theorem zeroArrays_eq {C : Type} [Zero C] (nm : Nat) (m : String) (cross : Bool) (L Lc : Nat)
    (correlate : Bool) (hc : correlate = true ↔ m ≠ "diff") :
    zeroArrays (C := C) nm cross correlate L Lc = rowOf nm m cross L Lc 0 := by
  unfold zeroArrays rowOf
  simp only [replicate_upto, Bool.and_eq_true, hc]
  rfl

/-- The sums over pairs of two streams. -/
noncomputable def crossFns {C : Type} [AddCommMonoid C] (full : Bool) (g : Cx ℝ → Cx ℝ → C)
    (L Lc : Nat) (s1 s2 : Stream (Cx ℝ)) (q1 q2 : Stream ℝ) : RowFns C :=
  (cellSum full g s1 s2 L, cellSum full (fun _ _ => 1) s1 s2 Lc,
    cellSum full (fun a b => a + b) q1 q2 L, cellSum full (fun a _ => a) s1 s2 L,
    cellSum full (fun _ b => b) s1 s2 L)

/-- A cross-correlation function meets its closed form. -/
structure CrossOK {C : Type} [AddCommMonoid C] (full : Bool) (g : String → Cx ℝ → Cx ℝ → C)
    (cc : CrossFn C) : Prop where
  ok : ∀ (f1 f2 : List (Cx ℝ)) (t1 t2 : Option (List Int)) (n : Nat) (v : Int) (m : String)
    (al : Bool) (f1s f2s : Option (List ℝ)) (aout : CorrAout C),
    (m = "corr" ∨ m = "fft" ∨ m = "diff") → SupportedNorm m true v →
    (full = true → m ≠ "diff") → ValidCross f1.length f2.length t1 t2 →
    (∀ g, f1s = some g → g.length = f1.length) → (∀ g, f2s = some g → g.length = f2.length) →
    (m = "fft" → Distinct t1 ∧ Distinct t2 ∧ f1 ≠ []) →
    SafeLen full m t1 (defaultN f1.length t1 t2) (fieldLen full n aout.cor) →
    (full = true → fieldLen full n aout.count % 2 = 1) →
    (needsSquares v.toNat → m ≠ "diff" →
      SafeLen full m t1 (defaultN f1.length t1 t2) (fieldLen full n aout.sq)) →
    (needsSums v.toNat →
      SafeLen full m t1 (defaultN f1.length t1 t2) (fieldLen full n aout.ds1)) →
    (needsSums v.toNat →
      SafeLen full m t1 (defaultN f1.length t1 t2) (fieldLen full n aout.ds2)) →
    cc f1 f2 t1 t2 (some n) (some v) (some m) al f1s f2s aout
      = .ok (ccorrSpec full (g m) m v.toNat n (stream f1 t1)
          (stream f2 t2) (stream (f1s.getD (f1.map Cx.abs2)) t1)
          (stream (f2s.getD (f2.map Cx.abs2)) t2) aout)

theorem defaultMethod_some {m : String} (n : Option Nat)
    (h : m = "corr" ∨ m = "fft" ∨ m = "diff") : defaultMethod (some m) n = .ok m := by
  rcases h with rfl | rfl | rfl <;> rfl

theorem ccorr_CrossOK : CrossOK false productOf ccorr := by
  refine ⟨fun f1 f2 t1 t2 n v m al f1s f2s aout hm hv hf hvc h1 h2 hd hc _ hsq hd1 hd2 => ?_⟩
  exact ccorr_ok f1 f2 t1 t2 (some n) (some v) (some m) al f1s f2s aout m v.toNat n _
    (defaultMethod_some _ hm) (defaultNorm_ok (norm := some v) hv) hvc rfl rfl h1 h2
    (fun h => ⟨(hd h).1, (hd h).2.1⟩) (fun h => (hd h).2.2) hc hsq hd1 hd2

theorem ccorrComplex_CrossOK : CrossOK true (fun _ => cxProd) ccorrComplex := by
  refine ⟨fun f1 f2 t1 t2 n v m al f1s f2s aout hm hv hf hvc h1 h2 hd hc hcount hsq hd1 hd2 => ?_⟩
  exact ccorrComplex_ok f1 f2 t1 t2 (some n) (some v) (some m) al f1s f2s aout m v.toNat n _
    (defaultMethod_some _ hm) (defaultNorm_ok (norm := some v) hv) (hf rfl) hvc rfl rfl h1 h2
    (fun h => ⟨(hd h).1, (hd h).2.1⟩) (fun h => (hd h).2.2) hc (hcount rfl) hsq hd1 hd2

/-- What a call of a cross-correlation function needs: valid input and safe lengths. -/
structure CallOK (full : Bool) (m : String) (v : Int) (N1 N2 : Nat)
    (t1 t2 : Option (List Int)) (f1s f2s : Option (List ℝ)) (L Lc : Nat) : Prop where
  method : m = "corr" ∨ m = "fft" ∨ m = "diff"
  norm : SupportedNorm m true v
  diff : full = true → m ≠ "diff"
  valid : ValidCross N1 N2 t1 t2
  sq1 : ∀ g, f1s = some g → g.length = N1
  sq2 : ∀ g, f2s = some g → g.length = N2
  fft : m = "fft" → Distinct t1 ∧ Distinct t2 ∧ N1 ≠ 0
  len : SafeLen full m t1 (defaultN N1 t1 t2) L
  clen : full = true → Lc % 2 = 1

theorem CrossOK.into {C : Type} [AddCommMonoid C] {full : Bool} {g : String → Cx ℝ → Cx ℝ → C}
    {cc : CrossFn C} (K : CrossOK full g cc) {f1 f2 : List (Cx ℝ)} {t1 t2 : Option (List Int)}
    {n : Nat} {v : Int} {m : String} {al : Bool} {f1s f2s : Option (List ℝ)} {L Lc : Nat}
    (d : RowFns C) (h : CallOK full m v f1.length f2.length t1 t2 f1s f2s L Lc) :
    ∃ r, cc f1 f2 t1 t2 (some n) (some v) (some m) al f1s f2s (rowOf v.toNat m true L Lc d) = .ok r ∧
      r.into (rowOf v.toNat m true L Lc d) = rowOf v.toNat m true L Lc
        (d + crossFns full (g m) L Lc (stream f1 t1) (stream f2 t2)
          (stream (f1s.getD (f1.map Cx.abs2)) t1) (stream (f2s.getD (f2.map Cx.abs2)) t2)) := by
  refine ⟨_, K.ok f1 f2 t1 t2 n v m al f1s f2s _ h.method h.norm h.diff h.valid h.sq1 h.sq2
    (fun e => ⟨(h.fft e).1, (h.fft e).2.1, fun e' => (h.fft e).2.2 (by simp [e'])⟩)
    (by simpa [rowOf, fieldLen, upto_length] using h.len)
    (by simpa [rowOf, fieldLen, upto_length] using h.clen)
    (fun e1 e2 => by simpa [rowOf, fieldLen, upto_length, e1, e2] using h.len)
    (fun e1 => by simpa [rowOf, fieldLen, upto_length, e1] using h.len)
    (fun e1 => by simpa [rowOf, fieldLen, upto_length, e1] using h.len), ?_⟩
  unfold CorrTuple.into ccorrSpec rowOf
  by_cases hs : needsSums v.toNat = true <;>
  by_cases hq : needsSquares v.toNat = true ∧ m ≠ "diff" <;>
    simp [hs, hq, startOut, fieldLen, upto_length, addSeq_upto, crossFns]

theorem CrossOK.new {C : Type} [AddCommMonoid C] {full : Bool} {g : String → Cx ℝ → Cx ℝ → C}
    {cc : CrossFn C} (K : CrossOK full g cc) {f1 f2 : List (Cx ℝ)} {t1 t2 : Option (List Int)}
    {n : Nat} {v : Int} {m : String} {al : Bool} {f1s f2s : Option (List ℝ)} {L : Nat}
    (hL : L = if full then 2 * n - 1 else n)
    (h : CallOK full m v f1.length f2.length t1 t2 f1s f2s L L) :
    ∃ r, cc f1 f2 t1 t2 (some n) (some v) (some m) al f1s f2s {} = .ok r ∧
      r.arrays = rowOf v.toNat m true L L
        (crossFns full (g m) L L (stream f1 t1) (stream f2 t2)
          (stream (f1s.getD (f1.map Cx.abs2)) t1) (stream (f2s.getD (f2.map Cx.abs2)) t2)) := by
  have hf : ∀ M : Type, fieldLen full n (none : Option (List M)) = L := fun M => by
    rw [hL]; rfl
  refine ⟨_, K.ok f1 f2 t1 t2 n v m al f1s f2s _ h.method h.norm h.diff h.valid h.sq1 h.sq2
    (fun e => ⟨(h.fft e).1, (h.fft e).2.1, fun e' => (h.fft e).2.2 (by simp [e'])⟩)
    (by rw [hf]; exact h.len) (by rw [hf]; exact h.clen) (fun _ _ => by rw [hf]; exact h.len)
    (fun _ => by rw [hf]; exact h.len) (fun _ => by rw [hf]; exact h.len), ?_⟩
  unfold CorrTuple.arrays ccorrSpec rowOf
  simp only [hf, startOut, Option.getD_none, replicate_upto, addSeq_upto, zero_add, crossFns]
  by_cases hs : needsSums v.toNat = true <;>
  by_cases hq : needsSquares v.toNat = true ∧ m ≠ "diff" <;>
    simp [hs, hq]

/-- The sums over unordered pairs of one stream. -/
noncomputable def autoFns {C : Type} (cor : Stream (Cx ℝ) → Nat → C) (s : Stream (Cx ℝ))
    (q : Stream ℝ) : RowFns C :=
  (cor s, selfSum (fun _ _ => 1) s, selfSum (fun a b => a + b) q,
    selfSum (fun a b => (1 / 2 : ℝ) • (a + b)) s, 0)

/-- What a call of an auto-correlation function needs. -/
structure AutoCallOK (m : String) (v : Int) (N : Nat) (t : Option (List Int))
    (fs : Option (List ℝ)) (L : Nat) : Prop where
  method : m = "corr" ∨ m = "fft" ∨ m = "diff"
  norm : SupportedNorm m false v
  valid : ValidAuto N t
  sq : ∀ g, fs = some g → g.length = N
  times : Distinct t
  fft : m = "fft" → N ≠ 0
  len : SafeLen false m t (defaultN N t t) L

/-- An auto-correlation function meets its closed form. -/
structure AutoOK {C : Type} [AddCommMonoid C] (cplx : Bool)
    (cor : String → Stream (Cx ℝ) → Nat → C) (ac : AutoFn C) : Prop where
  ok : ∀ (f : List (Cx ℝ)) (t : Option (List Int)) (n : Nat) (v : Int) (m : String)
    (al : Bool) (fs : Option (List ℝ)) (aout : CorrAout C) (L : Nat),
    AutoCallOK m v f.length t fs L → (cplx = true → m ≠ "diff") →
    fieldLen false n aout.cor = L →
    (needsSquares v.toNat → m ≠ "diff" → fieldLen false n aout.sq = L) →
    (needsSums v.toNat → fieldLen false n aout.ds1 = L) →
    ac f t (some n) (some v) (some m) al fs aout
      = .ok (acorrSpec (cor m (stream f t)) m v.toNat n
          (stream f t) (stream ((fs.getD (f.map Cx.abs2)).map (2 * ·)) t) aout)

theorem acorr_AutoOK : AutoOK false (fun m => selfSum (productOf m)) acorr := by
  refine ⟨fun f t n v m al fs aout L h _ h1 h2 h3 => ?_⟩
  exact acorr_ok f t (some n) (some v) (some m) al fs aout m v.toNat n _
    (defaultMethod_some _ h.method) (defaultNorm_ok (norm := some v) h.norm) h.valid rfl rfl h.sq
    (fun _ => h.times) (fun e e' => h.fft e (by simp [e'])) (fun _ => h1 ▸ h.len)
    (fun e1 e2 => h2 e1 e2 ▸ h.len) (fun e1 _ => h3 e1 ▸ h.len)

theorem acorrComplex_AutoOK : AutoOK true (fun _ => selfSumFwd cxProd) acorrComplex := by
  refine ⟨fun f t n v m al fs aout L h hd h1 h2 h3 => ?_⟩
  exact acorrComplex_ok f t (some n) (some v) (some m) al fs aout m v.toNat n _
    (defaultMethod_some _ h.method) (defaultNorm_ok (norm := some v) h.norm) h.valid rfl rfl h.sq
    (hd rfl) (fun _ => h.times) (fun e e' => h.fft e (by simp [e'])) (h1 ▸ h.len)
    (fun e1 e2 => h2 e1 e2 ▸ h.len) (fun e1 _ => h3 e1 ▸ h.len)

theorem stream_nodup {α : Type} {f : List α} {t : Option (List Int)} (hv : ValidAuto f.length t)
    (hd : Distinct t) : ((stream f t).map Prod.fst).Nodup := by
  cases t with
  | none =>
    have e : (stream f none).map Prod.fst = (List.range f.length).map Int.ofNat := by
      apply List.ext_getElem
      · simp [stream, regular]
      · intro k h1 h2
        simp [stream, regular]
    rw [e]
    exact List.nodup_range.map (fun a b h => by simpa using h)
  | some t =>
    simp only [stream]
    rw [List.map_fst_zip (by rw [hv.1])]
    exact hd t rfl

theorem autoTau_double {f : List ℝ} {t : Option (List Int)} (hv : ValidAuto f.length t)
    (hd : Distinct t) :
    autoTau (stream (f.map (2 * ·)) t) = selfSum (fun a b => a + b) (stream f t) := by
  funext k
  have hv' : ValidAuto (f.map (2 * ·)).length t := by simpa using hv
  rw [autoTau_eq _ (stream_nodup hv' hd), stream_map]
  refine Eq.trans (selfSum_map _ _ _ _) ?_
  apply selfSum_congr
  intro a b
  simp only [smul_eq_mul]
  ring

theorem not_sums_diff {v : Int} (h : SupportedNorm "diff" false v) : needsSums v.toNat = false := by
  have : v = 2 := by simpa [SupportedNorm] using h
  subst this
  rfl

theorem AutoOK.into {C : Type} [AddCommMonoid C] {cplx : Bool}
    {cor : String → Stream (Cx ℝ) → Nat → C} {ac : AutoFn C} (K : AutoOK cplx cor ac)
    {f : List (Cx ℝ)} {t : Option (List Int)}
    {n : Nat} {v : Int} {m : String} {al : Bool} {fs : Option (List ℝ)} {L Lc : Nat}
    (d : RowFns C) (h : AutoCallOK m v f.length t fs L) (hd : cplx = true → m ≠ "diff") :
    ∃ r, ac f t (some n) (some v) (some m) al fs (rowOf v.toNat m false L Lc d) = .ok r ∧
      r.into (rowOf v.toNat m false L Lc d) = rowOf v.toNat m false L Lc
        (d + autoFns (cor m) (stream f t) (stream (fs.getD (f.map Cx.abs2)) t)) := by
  have hl : (fs.getD (f.map Cx.abs2)).length = f.length := by
    cases fs with
    | none => simp
    | some g => exact h.sq g rfl
  refine ⟨_, K.ok f t n v m al fs _ L h hd
    (by simp [rowOf, fieldLen, upto_length])
    (fun e1 e2 => by simp [rowOf, fieldLen, upto_length, e1, e2])
    (fun e1 => by simp [rowOf, fieldLen, upto_length, e1]), ?_⟩
  unfold CorrTuple.into acorrSpec rowOf
  rw [autoTau_double (hl ▸ h.valid) h.times]
  have e2 : autoTau (stream f t) = selfSum (fun a b => (1 / 2 : ℝ) • (a + b)) (stream f t) := by
    funext k; exact autoTau_eq _ (stream_nodup h.valid h.times) k
  rw [e2]
  by_cases hm : m = "diff"
  · subst hm
    simp [not_sums_diff h.norm, startOut, fieldLen, upto_length, addSeq_upto, autoFns]
  · by_cases hs : needsSums v.toNat = true <;>
    by_cases hq : needsSquares v.toNat = true <;>
      simp [hs, hq, hm, startOut, fieldLen, upto_length, addSeq_upto, autoFns]

theorem AutoOK.new {C : Type} [AddCommMonoid C] {cplx : Bool}
    {cor : String → Stream (Cx ℝ) → Nat → C} {ac : AutoFn C} (K : AutoOK cplx cor ac)
    {f : List (Cx ℝ)} {t : Option (List Int)}
    {n : Nat} {v : Int} {m : String} {al : Bool} {fs : Option (List ℝ)}
    (h : AutoCallOK m v f.length t fs n) (hd : cplx = true → m ≠ "diff") :
    ∃ r, ac f t (some n) (some v) (some m) al fs {} = .ok r ∧
      r.arrays = rowOf v.toNat m false n n
        (autoFns (cor m) (stream f t) (stream (fs.getD (f.map Cx.abs2)) t)) := by
  have hl : (fs.getD (f.map Cx.abs2)).length = f.length := by
    cases fs with
    | none => simp
    | some g => exact h.sq g rfl
  refine ⟨_, K.ok f t n v m al fs _ n h hd rfl (fun _ _ => rfl) (fun _ => rfl), ?_⟩
  unfold CorrTuple.arrays acorrSpec rowOf
  rw [autoTau_double (hl ▸ h.valid) h.times]
  have e2 : autoTau (stream f t) = selfSum (fun a b => (1 / 2 : ℝ) • (a + b)) (stream f t) := by
    funext k; exact autoTau_eq _ (stream_nodup h.valid h.times) k
  rw [e2]
  simp only [startOut, Option.getD_none, replicate_upto, addSeq_upto, zero_add, autoFns, fieldLen,
    Bool.false_eq_true, if_false]
  by_cases hm : m = "diff"
  · subst hm
    simp [not_sums_diff h.norm]
  · by_cases hs : needsSums v.toNat = true <;>
    by_cases hq : needsSquares v.toNat = true <;>
      simp [hs, hq, hm]

theorem crossData_eq {C : Type} [AddCommMonoid C] (full : Bool) (g : Cx ℝ → Cx ℝ → C)
    {m : String} {v : Int} (h : SupportedNorm m true v) (L : Nat) (s1 s2 : Stream (Cx ℝ))
    (q1 q2 : Stream ℝ) :
    crossData full g m v L s1 s2 q1 q2 =
      rowOf v.toNat m true L L (crossFns full g L L s1 s2 q1 q2) := by
  obtain ⟨e1, e2⟩ := supported_cases h
  unfold crossData rowOf
  simp only [e1, e2, cells_eq, and_true, crossFns]

theorem autoData_eq (g : Cx ℝ → Cx ℝ → ℝ) {m : String} {v : Int} (h : SupportedNorm m false v)
    (L : Nat) (s : Stream (Cx ℝ)) (q : Stream ℝ) :
    autoData g m v L s q = rowOf v.toNat m false L L (autoFns (selfSum g) s q) := by
  obtain ⟨e1, e2⟩ := supported_cases h
  unfold autoData rowOf
  simp only [e1, e2, cells_eq, autoFns, Bool.false_eq_true, and_false, if_false]

end Cddm
