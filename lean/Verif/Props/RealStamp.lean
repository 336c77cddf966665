import Verif.Model.RealStamp
import Verif.Spec.RealStamp
import Verif.Props.Correlation
import Verif.Props.Laws
import Mathlib.Algebra.Order.Floor.Ring
import Mathlib.Tactic.NormNum

/-! # C114: time stamps that are not whole numbers -/

namespace Cddm
open Spec

section truncation

theorem truncInt_nonneg {x : ℝ} (h : 0 ≤ x) : truncInt x = ⌊x⌋ := by unfold truncInt; rw [if_pos h]

theorem truncInt_nonpos {x : ℝ} (h : x ≤ 0) : truncInt x = ⌈x⌉ := by
  unfold truncInt
  split_ifs with h'
  · have : x = 0 := le_antisymm h h'
    simp [this]
  · rfl

theorem floor_sub_near (a b : ℝ) : |(b - a) - ((⌊b⌋ - ⌊a⌋ : Int) : ℝ)| < 1 := by
  have h1 := Int.floor_le a; have h2 := Int.lt_floor_add_one a
  have h3 := Int.floor_le b; have h4 := Int.lt_floor_add_one b
  push_cast
  rw [abs_lt]; constructor <;> linarith

theorem ceil_sub_near (a b : ℝ) : |(b - a) - ((⌈b⌉ - ⌈a⌉ : Int) : ℝ)| < 1 := by
  have h1 := Int.le_ceil a; have h2 := Int.ceil_lt_add_one a
  have h3 := Int.le_ceil b; have h4 := Int.ceil_lt_add_one b
  push_cast
  rw [abs_lt]; constructor <;> linarith

/-- Truncated times of one sign are a fair rule. -/
theorem trunc_fair (l : List ℝ) (h : OneSided l) : FairDelay {x | x ∈ l} fun a b => truncInt b - truncInt a := by
  rcases h with h | h
  · constructor
    · intro a ha b hb d hd
      rw [truncInt_nonneg (h a ha), truncInt_nonneg (h b hb), show b = a + d by linarith, Int.floor_add_intCast]
      omega
    · intro a ha b hb
      rw [truncInt_nonneg (h a ha), truncInt_nonneg (h b hb)]
      exact floor_sub_near a b
  · constructor
    · intro a ha b hb d hd
      rw [truncInt_nonpos (h a ha), truncInt_nonpos (h b hb), show b = a + d by linarith, Int.ceil_add_intCast]
      omega
    · intro a ha b hb
      rw [truncInt_nonpos (h a ha), truncInt_nonpos (h b hb)]
      exact ceil_sub_near a b

end truncation

section sums
variable {α β M : Type} [AddCommMonoid M]

theorem map_product {α β γ δ : Type} (f : α → γ) (g : β → δ) (l : List α) (m : List β) :
    (l.map f) ×ˢ (m.map g) = (l ×ˢ m).map fun p => (f p.1, g p.2) := by
  induction l with
  | nil => rfl
  | cons a l ih => simp [List.product_cons, ih, Function.comp_def]

theorem asStamps_zip (t : List ℝ) (f : List α) : (asStamps t).zip f = (t.zip f).map fun p => (truncInt p.1, p.2) := by
  unfold asStamps
  rw [List.zip_map_left]
  apply List.map_congr_left
  rintro ⟨a, b⟩ _
  rfl

theorem pairSum_trunc (g : α → β → M) (t1 t2 : List ℝ) (f1 : List α) (f2 : List β) (k : Nat) :
    pairSum g ((asStamps t1).zip f1) ((asStamps t2).zip f2) k
      = realPairSum (fun a b => truncInt b - truncInt a) g (t1.zip f1) (t2.zip f2) k := by
  unfold pairSum realPairSum
  rw [asStamps_zip, asStamps_zip, map_product, List.filter_map, List.map_map]
  rfl

theorem pairSumAt_trunc (g : α → β → M) (t1 t2 : List ℝ) (f1 : List α) (f2 : List β) (d : Int) :
    pairSumAt g ((asStamps t1).zip f1) ((asStamps t2).zip f2) d
      = realPairSumAt (fun a b => truncInt b - truncInt a) g (t1.zip f1) (t2.zip f2) d := by
  unfold pairSumAt realPairSumAt
  rw [asStamps_zip, asStamps_zip, map_product, List.filter_map, List.map_map]
  rfl

theorem selfSum_trunc (g : α → α → M) (t : List ℝ) (f : List α) (k : Nat) :
    selfSum g ((asStamps t).zip f) k = realSelfSum (fun a b => truncInt b - truncInt a) g (t.zip f) k := by
  unfold selfSum realSelfSum
  rw [asStamps_zip, selfPairs_map, List.filter_map, List.map_map]
  rfl

theorem selfSumFwd_trunc (g : α → α → M) (t : List ℝ) (f : List α) (k : Nat) :
    selfSumFwd g ((asStamps t).zip f) k = realSelfSumFwd (fun a b => truncInt b - truncInt a) g (t.zip f) k := by
  unfold selfSumFwd realSelfSumFwd
  rw [asStamps_zip, selfPairs_map, List.filter_map, List.map_map]
  congr 1
  apply List.map_congr_left
  rintro ⟨⟨a, x⟩, b, y⟩ _
  by_cases h : truncInt b - truncInt a < 0
  · have h' : delay (Prod.map (fun p : ℝ × α => (truncInt p.1, p.2)) (fun p : ℝ × α => (truncInt p.1, p.2)) ((a, x), b, y)) < 0 := h
    simp only [Function.comp_apply, forward]
    rw [if_pos h', if_pos h]
    rfl
  · have h' : ¬ delay (Prod.map (fun p : ℝ × α => (truncInt p.1, p.2)) (fun p : ℝ × α => (truncInt p.1, p.2)) ((a, x), b, y)) < 0 := h
    simp only [Function.comp_apply, forward]
    rw [if_neg h', if_neg h]
    rfl

theorem stamps_trunc (t : List ℝ) : stamps (asStamps t) = (asStamps t).zip (List.replicate t.length ()) := by
  unfold stamps asStamps
  apply List.ext_getElem <;> simp

end sums

section
variable {R : Type} [CommRing R]

/-- **C114.** `cross_correlate` with real time stamps: entry `k` is the sum over the pairs whose time difference
is `k` or rounded to `k`, where whole differences are kept and no difference is changed by one or more.
Missing: times on both sides of the origin, see `C114_refuted`. -/
theorem C114_cross_correlate_partial (f1 f2 : List (Cx R)) (t1 t2 : List ℝ) (n : Option Nat) (aligned : Bool)
    (aout : Option (List R)) (h1 : t1.length = f1.length) (h2 : t2.length = f2.length) (hl : f1.length = f2.length)
    (h0 : f1 ≠ []) (hs : OneSided (t1 ++ t2)) :
    ∃ δ, FairDelay {x | x ∈ t1 ++ t2} δ ∧ ∃ out, crossCorrelateReal f1 f2 t1 t2 n aligned aout = .ok out
      ∧ ∀ k (hk : k < out.length), out[k] = start aout k + realPairSum δ reProd (t1.zip f1) (t2.zip f2) k := by
  refine ⟨_, trunc_fair _ hs, ?_⟩
  obtain ⟨out, e, -, ho⟩ := C01_cross_correlate f1 f2 (some (asStamps t1)) (some (asStamps t2)) n aligned aout
    ⟨hl, by simp [asStamps, h1], by simp [asStamps, h2], by simpa using h0⟩ (by simp)
  refine ⟨out, e, fun k hk => ?_⟩
  rw [ho k hk, stream, stream, pairSum_trunc]

/-- C114: `cross_correlate(complex=True)`, signed delays.  Missing: times on both sides of the origin. -/
theorem C114_cross_correlate_complex_partial (f1 f2 : List (Cx R)) (t1 t2 : List ℝ) (n : Nat) (hn : 1 ≤ n) (aligned : Bool)
    (aout : Option (List (Cx R))) (haout : ∀ o, aout = some o → o.length = 2 * n - 1)
    (h1 : t1.length = f1.length) (h2 : t2.length = f2.length) (hl : f1.length = f2.length)
    (h0 : f1 ≠ []) (hs : OneSided (t1 ++ t2)) :
    ∃ δ, FairDelay {x | x ∈ t1 ++ t2} δ ∧ ∃ out, crossCorrelateComplexReal f1 f2 t1 t2 (some n) aligned aout = .ok out
      ∧ out.length = 2 * n - 1
      ∧ ∀ d : Int, |d| < n → ∃ k, pyIdx out.length d = some k ∧
          pyGet out d = some (start aout k + realPairSumAt δ cxProd (t1.zip f1) (t2.zip f2) d) := by
  refine ⟨_, trunc_fair _ hs, ?_⟩
  obtain ⟨out, e, hlen, ho⟩ := C02_cross_correlate_complex f1 f2 (some (asStamps t1)) (some (asStamps t2)) n hn aligned aout haout
    ⟨hl, by simp [asStamps, h1], by simp [asStamps, h2], by simpa using h0⟩ (by simp)
  refine ⟨out, e, hlen, fun d hd => ?_⟩
  obtain ⟨k, hk, hv⟩ := ho d hd
  exact ⟨k, hk, by rw [hv, stream, stream, pairSumAt_trunc]⟩

/-- C114: `cross_difference`.  Missing: times on both sides of the origin. -/
theorem C114_cross_difference_partial (f1 f2 : List (Cx R)) (t1 t2 : List ℝ) (n : Option Nat) (aligned : Bool)
    (aout : Option (List R)) (h1 : t1.length = f1.length) (h2 : t2.length = f2.length) (hl : f1.length = f2.length)
    (h0 : f1 ≠ []) (hs : OneSided (t1 ++ t2)) :
    ∃ δ, FairDelay {x | x ∈ t1 ++ t2} δ ∧ ∃ out, crossDifferenceReal f1 f2 t1 t2 n aligned aout = .ok out
      ∧ ∀ k (hk : k < out.length), out[k] = start aout k + realPairSum δ dist2 (t1.zip f1) (t2.zip f2) k := by
  refine ⟨_, trunc_fair _ hs, ?_⟩
  obtain ⟨out, e, -, ho⟩ := C04_cross_difference f1 f2 (some (asStamps t1)) (some (asStamps t2)) n aligned aout
    ⟨hl, by simp [asStamps, h1], by simp [asStamps, h2], by simpa using h0⟩ (by simp)
  refine ⟨out, e, fun k hk => ?_⟩
  rw [ho k hk, stream, stream, pairSum_trunc]

/-- C114: `auto_correlate`.  Missing: times on both sides of the origin. -/
theorem C114_auto_correlate_partial (f : List (Cx R)) (t : List ℝ) (n : Option Nat) (aligned : Bool)
    (aout : Option (List R)) (h1 : t.length = f.length) (h0 : f ≠ []) (hs : OneSided t) :
    ∃ δ, FairDelay {x | x ∈ t} δ ∧ ∃ out, autoCorrelateReal f t n aligned aout = .ok out
      ∧ ∀ k (hk : k < out.length), out[k] = start aout k + realSelfSum δ reProd (t.zip f) k := by
  refine ⟨_, trunc_fair _ hs, ?_⟩
  obtain ⟨out, e, -, ho⟩ := C03_auto_correlate f (some (asStamps t)) n aligned aout
    ⟨by simp [asStamps, h1], by simpa using h0⟩
  refine ⟨out, e, fun k hk => ?_⟩
  rw [ho k hk, stream, selfSum_trunc]

/-- C114: `auto_correlate(complex=True)`.  Missing: times on both sides of the origin. -/
theorem C114_auto_correlate_complex_partial (f : List (Cx R)) (t : List ℝ) (n : Option Nat) (aligned : Bool)
    (aout : Option (List (Cx R))) (h1 : t.length = f.length) (h0 : f ≠ []) (hs : OneSided t) :
    ∃ δ, FairDelay {x | x ∈ t} δ ∧ ∃ out, autoCorrelateComplexReal f t n aligned aout = .ok out
      ∧ ∀ k (hk : k < out.length), out[k] = start aout k + realSelfSumFwd δ cxProd (t.zip f) k := by
  refine ⟨_, trunc_fair _ hs, ?_⟩
  obtain ⟨out, e, -, ho⟩ := C03_auto_correlate_complex f (some (asStamps t)) n aligned aout
    ⟨by simp [asStamps, h1], by simpa using h0⟩ (by simp)
  refine ⟨out, e, fun k hk => ?_⟩
  rw [ho k hk, stream, selfSumFwd_trunc]

/-- C114: `cross_sum` sums over the pairs that the correlation uses.  Missing: times on both sides of the origin. -/
theorem C114_cross_sum_partial {M : Type} [AddCommGroup M] (f : List M) (t tOther : List ℝ) (n : Option Nat) (timeInversion : Bool)
    (aout : Option (List M)) (h1 : t.length = f.length) (h0 : f ≠ []) (h2 : tOther ≠ []) (hs : OneSided (t ++ tOther)) :
    ∃ δ, FairDelay {x | x ∈ t ++ tOther} δ ∧ ∃ out, crossSumReal f t tOther n false timeInversion aout = .ok out
      ∧ ∀ k (hk : k < out.length), out[k] = start aout k
          + realPairSum δ (fun a _ => a) (t.zip f) (tOther.zip (List.replicate tOther.length ())) k := by
  refine ⟨_, trunc_fair _ hs, ?_⟩
  obtain ⟨out, e, -, ho⟩ := C05_cross_sum f (some (asStamps t)) (some (asStamps tOther)) n timeInversion aout
    ⟨by simp [asStamps, h1], by simpa using h0, by simpa [asStamps] using h2⟩ (by simp)
  refine ⟨out, e, fun k hk => ?_⟩
  rw [ho k hk, stream, otherStream, stamps_trunc, pairSum_trunc]

/-- C114: `cross_sum(complex=True)`, signed delays.  Missing: times on both sides of the origin. -/
theorem C114_cross_sum_complex_partial {M : Type} [AddCommGroup M] (f : List M) (t tOther : List ℝ) (n : Nat) (hn : 1 ≤ n)
    (timeInversion : Bool) (aout : Option (List M)) (haout : ∀ o, aout = some o → o.length = 2 * n - 1)
    (h1 : t.length = f.length) (h0 : f ≠ []) (h2 : tOther ≠ []) (hs : OneSided (t ++ tOther)) :
    ∃ δ, FairDelay {x | x ∈ t ++ tOther} δ ∧ ∃ out, crossSumReal f t tOther (some n) true timeInversion aout = .ok out
      ∧ out.length = 2 * n - 1
      ∧ ∀ d : Int, |d| < n → ∃ k, pyIdx out.length d = some k ∧ pyGet out d = some (start aout k
          + realPairSumAt δ (fun a _ => a) (t.zip f) (tOther.zip (List.replicate tOther.length ()))
              (if timeInversion then -d else d)) := by
  refine ⟨_, trunc_fair _ hs, ?_⟩
  obtain ⟨out, e, hl, ho⟩ := C05_cross_sum_complex f (some (asStamps t)) (some (asStamps tOther)) n hn timeInversion aout haout
    ⟨by simp [asStamps, h1], by simpa using h0, by simpa [asStamps] using h2⟩ (by simp)
  refine ⟨out, e, hl, fun d hd => ?_⟩
  obtain ⟨k, hk, hv⟩ := ho d hd
  exact ⟨k, hk, by rw [hv, stream, otherStream, stamps_trunc, pairSumAt_trunc]⟩

/-- C114: `auto_sum` of frames that are at least one unit of time apart.  Missing: times on both sides of the origin, and frames that are
closer together, see `C114_auto_sum_refuted`. -/
theorem C114_auto_sum_partial {M : Type} [AddCommGroup M] (K : Type) [Field K] [Module K M] (h2 : (2 : K) ≠ 0) (f : List M) (t : List ℝ)
    (n : Option Nat) (aout : Option (List M)) (h1 : t.length = f.length) (h0 : f ≠ []) (hs : OneSided t)
    (ha : t.Pairwise fun a b => 1 ≤ |b - a|) :
    ∃ δ, FairDelay {x | x ∈ t} δ ∧ ∃ out, autoSumReal K f t n aout = .ok out
      ∧ ∀ k (hk : k < out.length), out[k] = start aout k + realSelfSum δ (fun a b => (1 / 2 : K) • (a + b)) (t.zip f) k := by
  have hF := trunc_fair _ hs
  refine ⟨_, hF, ?_⟩
  have hn : (asStamps t).Nodup := by
    unfold asStamps List.Nodup
    rw [List.pairwise_map]
    refine List.Pairwise.imp_of_mem (fun {a b} ha hb h e => ?_) ha
    have := hF.near a ha b hb
    rw [e, sub_self, Int.cast_zero, sub_zero] at this
    linarith
  obtain ⟨out, e, -, ho⟩ := C16_auto_sum K h2 f (some (asStamps t)) n aout ⟨by simp [asStamps, h1], by simpa using h0⟩
    (by rintro u ⟨⟩; exact hn) (by simp)
  refine ⟨out, e, fun k hk => ?_⟩
  rw [ho k hk, stream, selfSum_trunc]

/-- C114: `auto_difference`.  Missing: times on both sides of the origin. -/
theorem C114_auto_difference_partial (f : List (Cx R)) (t : List ℝ) (n : Option Nat) (aligned : Bool)
    (aout : Option (List R)) (h1 : t.length = f.length) (h0 : f ≠ []) (hs : OneSided t) :
    ∃ δ, FairDelay {x | x ∈ t} δ ∧ ∃ out, autoDifferenceReal f t n aligned aout = .ok out
      ∧ ∀ k (hk : k < out.length), out[k] = start aout k + realSelfSum δ dist2 (t.zip f) k := by
  refine ⟨_, trunc_fair _ hs, ?_⟩
  obtain ⟨out, e, -, ho⟩ := C04_auto_difference f (some (asStamps t)) n aligned aout
    ⟨by simp [asStamps, h1], by simpa using h0⟩
  refine ⟨out, e, fun k hk => ?_⟩
  rw [ho k hk, stream, selfSum_trunc]

end

/-- C114: `cross_count` counts the pairs that the correlation uses.  Missing: times on both sides of the origin. -/
theorem C114_cross_count_partial (t1 t2 : List ℝ) (n : Option Nat) (aout : Option (List Nat)) (h1 : t1 ≠ []) (h2 : t2 ≠ [])
    (hs : OneSided (t1 ++ t2)) :
    ∃ δ, FairDelay {x | x ∈ t1 ++ t2} δ ∧ ∃ out, crossCountReal t1 t2 n false aout = .ok out
      ∧ ∀ k (hk : k < out.length), out[k] = start aout k + ((t1 ×ˢ t2).filter fun p => (δ p.1 p.2).natAbs = k).length := by
  refine ⟨_, trunc_fair _ hs, ?_⟩
  obtain ⟨out, e, -, ho⟩ := C06_cross_count (.array (asStamps t1)) (some (.array (asStamps t2))) n aout
    fun _ _ => ⟨by simpa [TimeArg.times, asStamps] using h1, by simpa [TimeArg.times, asStamps] using h2⟩
  refine ⟨out, e, fun k hk => ?_⟩
  rw [ho k hk]
  simp only [TimeArg.times, Option.getD_some, asStamps]
  rw [map_product, List.filter_map, List.length_map]
  rfl

/-- C114: `auto_count`.  Missing: times on both sides of the origin. -/
theorem C114_auto_count_partial (t : List ℝ) (n : Option Nat) (aout : Option (List Nat)) (h1 : t ≠ []) (hs : OneSided t) :
    ∃ δ, FairDelay {x | x ∈ t} δ ∧ ∃ out, autoCountReal t n aout = .ok out
      ∧ ∀ k (hk : k < out.length), out[k] = start aout k + ((selfPairs t).filter fun p => (δ p.1 p.2).natAbs = k).length := by
  refine ⟨_, trunc_fair _ hs, ?_⟩
  obtain ⟨out, e, -, ho⟩ := C06_auto_count (.array (asStamps t)) n aout fun _ _ => by simpa [TimeArg.times, asStamps] using h1
  refine ⟨out, e, fun k hk => ?_⟩
  rw [ho k hk]
  simp only [TimeArg.times, asStamps]
  rw [selfPairs_map, List.filter_map, List.length_map]
  rfl

/-- Times of one sign, not whole. -/
example : OneSided ([1 / 2, 3 / 2] ++ [7 / 4]) := by
  left
  intro a ha
  simp at ha
  rcases ha with rfl | rfl | rfl <;> norm_num

theorem trunc_half : truncInt (-(1 / 2)) = 0 ∧ truncInt (1 / 2) = 0 ∧ truncInt 0 = 0 ∧ truncInt 1 = 1
    ∧ truncInt (3 / 5) = 0 ∧ truncInt (11 / 10) = 1 := by
  refine ⟨?_, ?_, ?_, ?_, ?_, ?_⟩
  · rw [truncInt_nonpos (by norm_num), Int.ceil_eq_iff]; norm_num
  · rw [truncInt_nonneg (by norm_num), Int.floor_eq_iff]; norm_num
  · rw [truncInt_nonneg le_rfl]; simp
  · rw [truncInt_nonneg (by norm_num)]; simp
  · rw [truncInt_nonneg (by norm_num), Int.floor_eq_iff]; norm_num
  · rw [truncInt_nonneg (by norm_num), Int.floor_eq_iff]; norm_num

/-- C114 fails for times on both sides of the origin: frames at -1/2 and 1/2, one unit of time apart, are
correlated at delay 0. -/
theorem C114_refuted : autoCorrelateReal (R := Int) [⟨1, 0⟩, ⟨10, 0⟩] [-(1 / 2), 1 / 2] (some 2) true none = .ok [111, 0]
    ∧ ¬ ∃ δ, FairDelay {x | x ∈ [-(1 / 2), (1 / 2 : ℝ)]} δ ∧ ∃ out,
        autoCorrelateReal (R := Int) [⟨1, 0⟩, ⟨10, 0⟩] [-(1 / 2), 1 / 2] (some 2) true none = .ok out
        ∧ ∀ k (hk : k < out.length), out[k] = start none k + realSelfSum δ reProd ([-(1 / 2), (1 / 2 : ℝ)].zip [⟨1, 0⟩, ⟨10, 0⟩]) k := by
  have e : autoCorrelateReal (R := Int) [⟨1, 0⟩, ⟨10, 0⟩] [-(1 / 2), 1 / 2] (some 2) true none = .ok [111, 0] := by
    unfold autoCorrelateReal asStamps
    rw [List.map_cons, List.map_cons, List.map_nil, trunc_half.1, trunc_half.2.1]
    decide
  refine ⟨e, ?_⟩
  rintro ⟨δ, hδ, out, h, ho⟩
  rw [e] at h
  obtain rfl := Except.ok.inj h
  have hab : δ (-(1 / 2)) (1 / 2) = 1 := hδ.whole _ (by simp) _ (by simp) 1 (by norm_num)
  have haa : δ (-(1 / 2)) (-(1 / 2)) = 0 := hδ.whole _ (by simp) _ (by simp) 0 (by norm_num)
  have hbb : δ (1 / 2) (1 / 2) = 0 := hδ.whole _ (by simp) _ (by simp) 0 (by norm_num)
  have h1 := ho 1 (by simp)
  rw [one_div] at hab haa hbb
  simp [realSelfSum, selfPairs, start, List.filter_cons, hab, haa, hbb, reProd, Cx.conj] at h1

/-- C114 fails for `auto_sum` of frames less than one unit of time apart, even though their times are of one sign: of the frames 1 and 3 at the
times 0 and 3/5 the pairs at delay 0 have the mean values 1, 2 and 3, which sum to 6; the result is 8, a sum over four pairs, where `auto_count`
counts three. -/
theorem C114_auto_sum_refuted : autoSumReal ℚ ([1, 3] : List ℚ) [0, 3 / 5] (some 1) none = .ok [8]
    ∧ autoCountReal [0, 3 / 5] (some 1) none = .ok [3] := by
  obtain ⟨h1, h2, h3, h4, h5, h6⟩ := trunc_half
  unfold autoSumReal autoCountReal asStamps
  rw [List.map_cons, List.map_cons, List.map_nil, h3, h5]
  exact ⟨C16_auto_sum_repeated_time, by decide⟩

/-- Frames at least one unit of time apart. -/
example : OneSided [0, 3 / 2, 5] ∧ ([0, 3 / 2, 5] : List ℝ).Pairwise fun a b => 1 ≤ |b - a| := by
  refine ⟨.inl (by simp; norm_num), ?_⟩
  simp only [List.pairwise_cons, List.mem_cons, List.not_mem_nil, or_false, forall_eq_or_imp, forall_eq, List.Pairwise.nil, and_true]
  refine ⟨⟨?_, ?_⟩, ?_, ?_⟩ <;> first | (rw [abs_of_nonneg] <;> norm_num) | simp

/-- C114: the result depends on the origin of time: the same two frames 3/5 apart are correlated at delay 0 when
the first is at time 0 and at delay 1 when the first is at time 1/2. -/
theorem C114_origin_refuted : autoCorrelateReal (R := Int) [⟨1, 0⟩, ⟨10, 0⟩] [0, 3 / 5] (some 2) true none = .ok [111, 0]
    ∧ autoCorrelateReal (R := Int) [⟨1, 0⟩, ⟨10, 0⟩] [1 / 2, 11 / 10] (some 2) true none = .ok [101, 10] := by
  obtain ⟨h1, h2, h3, h4, h5, h6⟩ := trunc_half
  unfold autoCorrelateReal asStamps
  constructor
  · rw [List.map_cons, List.map_cons, List.map_nil, h3, h5]; decide
  · rw [List.map_cons, List.map_cons, List.map_nil, h2, h6]; decide

end Cddm
