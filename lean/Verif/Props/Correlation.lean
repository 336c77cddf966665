import Verif.Lemmas.Laws
import Mathlib.Data.List.Nodup

/-!
# C01-C06: what the correlation, difference, sum and count functions compute
-/

namespace Cddm
open Spec

section
variable {R : Type} [CommRing R]

/-- **C01.** `cross_correlate` (real): whatever the signals, time stamps, memory layout, `n` and
`aout`, entry `k` of the result is the initial entry plus the sum of `Re(conj(a) b)` over all pairs
of samples at time distance `k`; nothing outside the arrays is touched (`.ok`, not
`.error .undefined`).  `hfast` only concerns regular aligned data, see C08. -/
theorem C01_cross_correlate (f1 f2 : List (Cx R)) (t1 t2 : Option (List Int)) (n : Option Nat)
    (aligned : Bool) (aout : Option (List R))
    (hv : ValidCross f1.length f2.length t1 t2)
    (hfast : t1 = none → aligned = true → outLen n aout f1.length ≤ f1.length + 1) :
    ∃ out, crossCorrelate f1 f2 t1 t2 n aligned aout = .ok out
      ∧ out.length = outLen n aout (defaultN f1.length t1 t2)
      ∧ ∀ k (hk : k < out.length),
          out[k] = start aout k + pairSum reProd (stream f1 t1) (stream f2 t2) k :=
  ok_entries (crossCorrelate_ok f1 f2 t1 t2 n aligned aout hv hfast) (startOut_length _ _ _)

example : ValidCross 2 2 (some [0, 7]) (some [5, -3]) := by simp [ValidCross]
example : crossCorrelate (R := Int) [⟨1, 2⟩, ⟨3, 4⟩] [⟨5, 6⟩, ⟨0, 1⟩] (some [0, 7]) (some [5, -3])
    (some 6) false none = .ok [0, 0, 39, 2, 0, 17] := rfl

/-- C01, the complementary case: exactly the meaningless argument combinations are rejected. -/
theorem C01_cross_correlate_rejects (f1 f2 : List (Cx R)) (t1 t2 : Option (List Int))
    (n : Option Nat) (aligned : Bool) (aout : Option (List R))
    (hv : ¬ ValidCross f1.length f2.length t1 t2) :
    crossCorrelate f1 f2 t1 t2 n aligned aout = .error .valueError := by
  refine crossApi_reject f1.length f2.length t1 t2 n false aout _ _ hv ?_
  intro a b out h
  have : ¬ (a.length = f1.length ∧ b.length = f2.length) := by tauto
  simp [checkDims, this, bind, Except.bind]

example : ¬ ValidCross 2 2 (some [0, 7]) none := by simp [ValidCross]

/-- **C02.** `cross_correlate(complex=True)`: `2n-1` entries, Python index `d` (negative `d` from
the end) holds delay `d` for every `|d| < n`. -/
theorem C02_cross_correlate_complex (f1 f2 : List (Cx R)) (t1 t2 : Option (List Int))
    (n : Nat) (hn : 1 ≤ n) (aligned : Bool) (aout : Option (List (Cx R)))
    (haout : ∀ o, aout = some o → o.length = 2 * n - 1)
    (hv : ValidCross f1.length f2.length t1 t2)
    (hfast : t1 = none → aligned = true → n ≤ f1.length + 1) :
    ∃ out, crossCorrelateComplex f1 f2 t1 t2 (some n) aligned aout = .ok out
      ∧ out.length = 2 * n - 1
      ∧ ∀ d : Int, |d| < n →
          ∃ k, pyIdx out.length d = some k ∧
            pyGet out d = some (start aout k + pairSumAt cxProd (stream f1 t1) (stream f2 t2) d) := by
  have hL : ∀ D, outLenFull (some n) aout D = 2 * n - 1 := by
    intro D
    rcases aout with _ | o
    · rfl
    · exact haout o rfl
  have h := crossCorrelateComplex_ok f1 f2 t1 t2 (some n) aligned aout hv
    (by rw [hL]; omega) (fun h1 h2 => by rw [hL]; have := hfast h1 h2; omega)
  have h' := ok_entries_full (fun d => pairSumAt cxProd (stream f1 t1) (stream f2 t2) d) h
    (startOut_length_full _ _ _) (fun k _ => rfl) (by rw [hL]; omega)
  rw [hL] at h'
  rwa [show (2 * n - 1 + 1) / 2 = n by omega] at h'

/-- C02: two different delays below `n` never share a cell of the `2n-1` entries. -/
theorem C02_cells_distinct (n : Nat) (d e : Int) (hd : |d| < n) (he : |e| < n)
    (h : pyIdx (2 * n - 1) d = pyIdx (2 * n - 1) e) : d = e := by
  rw [abs_lt] at hd he
  unfold pyIdx at h
  split_ifs at h <;> first | omega | (simp only [Option.some.injEq] at h; omega)

example : crossCorrelateComplex (R := Int) [⟨1, 2⟩, ⟨3, 4⟩] [⟨5, 6⟩, ⟨0, 1⟩] (some [0, 7])
    (some [5, 1]) (some 3) false none = .ok [0, ⟨2, 1⟩, 0, ⟨39, -2⟩, 0] := rfl
example : ∀ o : List (Cx Int), (none : Option (List (Cx Int))) = some o → o.length = 2 * 3 - 1 := by
  simp

/-- **C03.** `auto_correlate` (real): each unordered pair of frames once. -/
theorem C03_auto_correlate (f : List (Cx R)) (t : Option (List Int)) (n : Option Nat)
    (aligned : Bool) (aout : Option (List R)) (hv : ValidAuto f.length t) :
    ∃ out, autoCorrelate f t n aligned aout = .ok out
      ∧ out.length = outLen n aout (defaultN f.length t t)
      ∧ ∀ k (hk : k < out.length), out[k] = start aout k + selfSum reProd (stream f t) k :=
  ok_entries (autoCorrelate_ok f t n aligned aout hv) (startOut_length _ _ _)

/-- **C03.** `auto_correlate(complex=True)`: each unordered pair once, as `conj(earlier) later`. -/
theorem C03_auto_correlate_complex (f : List (Cx R)) (t : Option (List Int)) (n : Option Nat)
    (aligned : Bool) (aout : Option (List (Cx R))) (hv : ValidAuto f.length t)
    (hfast : t = none → aligned = true → outLen n aout f.length ≤ f.length + 1) :
    ∃ out, autoCorrelateComplex f t n aligned aout = .ok out
      ∧ out.length = outLen n aout (defaultN f.length t t)
      ∧ ∀ k (hk : k < out.length), out[k] = start aout k + selfSumFwd cxProd (stream f t) k :=
  ok_entries (autoCorrelateComplex_ok f t n aligned aout hv hfast) (startOut_length _ _ _)

/-- C03: meaningless arguments are rejected. -/
theorem C03_auto_correlate_rejects (f : List (Cx R)) (t : Option (List Int)) (n : Option Nat)
    (aligned : Bool) (aout : Option (List R)) (hv : ¬ ValidAuto f.length t) :
    autoCorrelate f t n aligned aout = .error .valueError := by
  refine autoApi_reject f.length t n aout _ _ hv ?_
  intro a out h
  simp [checkDims, h, bind, Except.bind]

example : ValidAuto 3 (some [4, 0, 1]) ∧ ¬ ValidAuto 3 (some [4]) := by simp [ValidAuto]
example : autoCorrelateComplex (R := Int) [⟨1, 2⟩, ⟨3, 4⟩, ⟨5, 6⟩] (some [4, 0, 1]) none false none
    = .ok [⟨91, 0⟩, ⟨39, -2⟩, 0, ⟨17, 4⟩, ⟨11, 2⟩] := rfl

/-- **C04.** `cross_difference`. -/
theorem C04_cross_difference (f1 f2 : List (Cx R)) (t1 t2 : Option (List Int)) (n : Option Nat)
    (aligned : Bool) (aout : Option (List R))
    (hv : ValidCross f1.length f2.length t1 t2)
    (hfast : t1 = none → aligned = true → outLen n aout f1.length ≤ f1.length + 1) :
    ∃ out, crossDifference f1 f2 t1 t2 n aligned aout = .ok out
      ∧ out.length = outLen n aout (defaultN f1.length t1 t2)
      ∧ ∀ k (hk : k < out.length),
          out[k] = start aout k + pairSum dist2 (stream f1 t1) (stream f2 t2) k :=
  ok_entries (crossDifference_ok f1 f2 t1 t2 n aligned aout hv hfast) (startOut_length _ _ _)

/-- **C04.** `auto_difference`. -/
theorem C04_auto_difference (f : List (Cx R)) (t : Option (List Int)) (n : Option Nat)
    (aligned : Bool) (aout : Option (List R)) (hv : ValidAuto f.length t) :
    ∃ out, autoDifference f t n aligned aout = .ok out
      ∧ out.length = outLen n aout (defaultN f.length t t)
      ∧ ∀ k (hk : k < out.length), out[k] = start aout k + selfSum dist2 (stream f t) k :=
  ok_entries (autoDifference_ok f t n aligned aout hv) (startOut_length _ _ _)

example : crossDifference (R := Int) [⟨1, 2⟩, ⟨3, 4⟩] [⟨5, 6⟩, ⟨0, 1⟩] none none none true none
    = .ok [50, 10] := rfl
example : autoDifference (R := Int) [⟨1, 2⟩, ⟨3, 4⟩] (some [5, -1]) none true none
    = .ok [0, 0, 0, 0, 0, 0, 8] := rfl

end

section ordered
variable {R : Type} [CommRing R] [LinearOrder R] [IsStrictOrderedRing R]

theorem dist2_nonneg (a b : Cx R) : 0 ≤ dist2 a b := by
  simp only [dist2, Cx.abs2]
  nlinarith [mul_self_nonneg (b - a).re, mul_self_nonneg (b - a).im]

theorem sum_nonneg' {α : Type} (l : List α) (F : α → R) (h : ∀ a ∈ l, 0 ≤ F a) :
    0 ≤ (l.map F).sum := by
  induction l with
  | nil => simp
  | cons a l ih =>
    rw [List.map_cons, List.sum_cons]
    exact add_nonneg (h a (by simp)) (ih fun b hb => h b (by simp [hb]))

/-- **C04.** A difference function never lowers an entry. -/
theorem C04_cross_difference_ge (f1 f2 : List (Cx R)) (t1 t2 : Option (List Int))
    (n : Option Nat) (aligned : Bool) (aout : Option (List R))
    (hv : ValidCross f1.length f2.length t1 t2)
    (hfast : t1 = none → aligned = true → outLen n aout f1.length ≤ f1.length + 1) :
    ∃ out, crossDifference f1 f2 t1 t2 n aligned aout = .ok out
      ∧ ∀ k (hk : k < out.length), start aout k ≤ out[k] := by
  obtain ⟨out, h1, -, h3⟩ := C04_cross_difference f1 f2 t1 t2 n aligned aout hv hfast
  refine ⟨out, h1, fun k hk => ?_⟩
  rw [h3 k hk]
  have : 0 ≤ pairSum dist2 (stream f1 t1) (stream f2 t2) k :=
    sum_nonneg' _ _ fun p _ => dist2_nonneg _ _
  linarith

/-- **C04.** ... and the same for `auto_difference`. -/
theorem C04_auto_difference_ge (f : List (Cx R)) (t : Option (List Int)) (n : Option Nat)
    (aligned : Bool) (aout : Option (List R)) (hv : ValidAuto f.length t) :
    ∃ out, autoDifference f t n aligned aout = .ok out
      ∧ ∀ k (hk : k < out.length), start aout k ≤ out[k] := by
  obtain ⟨out, h1, -, h3⟩ := C04_auto_difference f t n aligned aout hv
  refine ⟨out, h1, fun k hk => ?_⟩
  rw [h3 k hk]
  have : 0 ≤ selfSum dist2 (stream f t) k := sum_nonneg' _ _ fun p _ => dist2_nonneg _ _
  linarith

end ordered

section
variable {R : Type} [CommRing R]

theorem stream_times {α : Type} (f : List α) (t : Option (List Int)) (hv : ValidAuto f.length t) :
    (stream f t).map Prod.fst = t.getD (arange f.length) := by
  rcases t with _ | a
  · simp only [stream, Option.getD_none]
    rw [← arange_zip, List.map_fst_zip]
    simp [arange]
  · simp only [stream, Option.getD_some]
    rw [List.map_fst_zip]
    simp [hv.1]

theorem arange_nodup (n : Nat) : (arange n).Nodup := by
  unfold arange
  exact List.Nodup.map (fun a b h => by simpa using h) List.nodup_range

/-- **C04.** `auto_difference` leaves entry 0 unchanged when no two frames share a time. -/
theorem C04_auto_difference_zero (f : List (Cx R)) (t : Option (List Int)) (n : Option Nat)
    (aligned : Bool) (aout : Option (List R)) (hv : ValidAuto f.length t)
    (hd : ∀ a, t = some a → a.Nodup) :
    ∃ out, autoDifference f t n aligned aout = .ok out
      ∧ ∀ (hk : 0 < out.length), out[0] = start aout 0 := by
  obtain ⟨out, h1, -, h3⟩ := C04_auto_difference f t n aligned aout hv
  refine ⟨out, h1, fun hk => ?_⟩
  rw [h3 0 hk, selfSum_zero]
  · rw [sum_map_zero]
    · simp
    · intro a _
      simp [dist2, Cx.abs2]
  · rw [stream_times f t hv]
    rcases t with _ | a
    · exact arange_nodup _
    · exact hd a rfl

example : ∀ a, some [5, -1] = some a → a.Nodup := by
  intro a h
  obtain rfl := Option.some.inj h
  decide

end

section sums
variable {M : Type} [AddCommGroup M]

/-- **C05.** `cross_sum` (real delays): each sample of `f` counted once for every sample of the
other stream at distance `k`; time inversion does not matter. -/
theorem C05_cross_sum (f : List M) (t tOther : Option (List Int)) (n : Option Nat)
    (timeInversion : Bool) (aout : Option (List M)) (hv : ValidSum f.length t tOther)
    (hfast : t = none → outLen n aout f.length ≤ f.length + 1) :
    ∃ out, crossSumApi f t tOther n false timeInversion aout = .ok out
      ∧ out.length = outLen n aout (defaultN f.length t tOther)
      ∧ ∀ k (hk : k < out.length), out[k] = start aout k
          + pairSum (fun a _ => a) (stream f t) (otherStream f.length tOther) k :=
  ok_entries (crossSumApi_real_ok f t tOther n timeInversion aout hv hfast) (startOut_length _ _ _)

example : ValidSum 2 (some [0, 7]) (some [5, -3, 1]) := by simp [ValidSum]
example : crossSumApi (M := Int) [10, 1] (some [0, 7]) (some [5, -3, 1]) (some 6) false false none
    = .ok [0, 10, 1, 10, 0, 10] := rfl

/-- **C05.** `cross_sum(complex=True)`: per signed delay `t_other - t`, reversed by
`time_inversion`. -/
theorem C05_cross_sum_complex (f : List M) (t tOther : Option (List Int)) (n : Nat) (hn : 1 ≤ n)
    (timeInversion : Bool) (aout : Option (List M))
    (haout : ∀ o, aout = some o → o.length = 2 * n - 1)
    (hv : ValidSum f.length t tOther) (hfast : t = none → n ≤ f.length + 1) :
    ∃ out, crossSumApi f t tOther (some n) true timeInversion aout = .ok out
      ∧ out.length = 2 * n - 1
      ∧ ∀ d : Int, |d| < n →
          ∃ k, pyIdx out.length d = some k ∧
            pyGet out d = some (start aout k
              + pairSumAt (fun a _ => a) (stream f t) (otherStream f.length tOther)
                  (if timeInversion then -d else d)) := by
  have hL : ∀ D, outLenFull (some n) aout D = 2 * n - 1 := by
    intro D
    rcases aout with _ | o
    · rfl
    · exact haout o rfl
  have h := crossSumApi_full_ok f t tOther (some n) timeInversion aout hv
    (by rw [hL]; omega) (fun h1 => by rw [hL]; have := hfast h1; omega)
  have h' := ok_entries_full (fun d => pairSumAt (fun a _ => a) (stream f t)
      (otherStream f.length tOther) (if timeInversion then -d else d)) h
    (startOut_length_full _ _ _) (fun k _ => rfl) (by rw [hL]; omega)
  rw [hL] at h'
  rwa [show (2 * n - 1 + 1) / 2 = n by omega] at h'

/-- **C05.** Pairs used by the tau sums of the second stream: summing `f2` with time inversion is
summing the second member over exactly the pairs (first, second) with delay `d` that
`cross_correlate(complex=True)` uses (C02). -/
theorem C05_same_pairs (f1 f2 : List M) (t1 t2 : Option (List Int))
    (hv : ValidCross f1.length f2.length t1 t2) (n : Nat) (hn : 1 ≤ n)
    (hfast : t1 = none → n ≤ f1.length + 1) :
    ∃ out, crossSumApi f2 t2 t1 (some n) true true none = .ok out
      ∧ out.length = 2 * n - 1
      ∧ ∀ d : Int, |d| < n →
        pyGet out d = some (pairSumAt (fun _ b => b) (stream f1 t1) (stream f2 t2) d) := by
  have hvs : ValidSum f2.length t2 t1 := by
    rcases t1 with _ | a <;> rcases t2 with _ | b <;> simp only [ValidCross, ValidSum] at hv ⊢
    obtain ⟨h, h1, h2, h0⟩ := hv
    refine ⟨h2, by omega, ?_⟩
    rintro rfl
    simp at h1; omega
  have hlen : f1.length = f2.length := by
    rcases t1 with _ | a <;> rcases t2 with _ | b <;> simp only [ValidCross] at hv
    · exact hv
    · exact hv.1
  obtain ⟨out, h1, h2, h3⟩ := C05_cross_sum_complex f2 t2 t1 n hn true none (by simp) hvs
    (fun h => by
      rw [← hlen]; apply hfast
      rcases t1 with _ | a
      · rfl
      · subst h; simp [ValidCross] at hv)
  refine ⟨out, h1, h2, fun d hd => ?_⟩
  obtain ⟨k, -, h4⟩ := h3 d hd
  rw [h4]
  simp only [start, zero_add, if_true]
  rw [pairSumAt_swap, neg_neg, ← hlen, otherStream_eq f1 t1]
  · simp [pairSumAt_eq, Function.comp_def]
  · rintro a rfl
    rcases t2 with _ | b
    · simp [ValidCross] at hv
    · exact hv.2.1

example : crossSumApi (M := Int) [10, 1] (some [5, -3]) (some [0, 7]) (some 6) true true none
    = .ok [0, 0, 0, 0, 0, 10, 0, 0, 1, 10, 0] := rfl

end sums

/-- **C06.** `cross_count`: the number of pairs at time distance `k`. -/
theorem C06_cross_count (t1 : TimeArg) (t2 : Option TimeArg) (n : Option Nat)
    (aout : Option (List Nat))
    (h : aout = none → n = none → t1.times ≠ [] ∧ (t2.getD t1).times ≠ []) :
    ∃ out, crossCount t1 t2 n false aout = .ok out
      ∧ out.length = outLen n aout (defaultN 0 (some t1.times) (some (t2.getD t1).times))
      ∧ ∀ k (hk : k < out.length), out[k] = start aout k
          + ((t1.times ×ˢ (t2.getD t1).times).filter fun p => (p.2 - p.1).natAbs = k).length := by
  obtain ⟨out, h1, h2, h3⟩ := ok_entries (crossCount_ok t1 t2 n aout h) (startOut_length _ _ _)
  refine ⟨out, h1, h2, fun k hk => ?_⟩
  rw [h3 k hk, pairSum_stamps]

/-- **C06.** `cross_count(complex=True)`: the number of pairs per signed delay. -/
theorem C06_cross_count_complex (t1 : TimeArg) (t2 : Option TimeArg) (n : Nat) (hn : 1 ≤ n)
    (aout : Option (List Nat)) (haout : ∀ o, aout = some o → o.length = 2 * n - 1) :
    ∃ out, crossCount t1 t2 (some n) true aout = .ok out
      ∧ out.length = 2 * n - 1
      ∧ ∀ d : Int, |d| < n →
          ∃ k, pyIdx out.length d = some k ∧
            pyGet out d = some (start aout k
              + ((t1.times ×ˢ (t2.getD t1).times).filter fun p => p.2 - p.1 = d).length) := by
  have hL : ∀ D, outLenFull (some n) aout D = 2 * n - 1 := by
    intro D
    rcases aout with _ | o
    · rfl
    · exact haout o rfl
  have h := crossCountComplex_ok t1 t2 (some n) aout (by simp) (by rw [hL]; omega)
  have h' := ok_entries_full (fun d => pairSumAt (fun _ _ => 1) (stamps t1.times)
      (stamps (t2.getD t1).times) d) h
    (startOut_length_full _ _ _) (fun k _ => rfl) (by rw [hL]; omega)
  rw [hL] at h'
  rw [show (2 * n - 1 + 1) / 2 = n by omega] at h'
  simpa only [pairSumAt_stamps] using h'

/-- **C06.** `auto_count`: the number of unordered pairs (a frame with itself included). -/
theorem C06_auto_count (t : TimeArg) (n : Option Nat) (aout : Option (List Nat))
    (h : aout = none → n = none → t.times ≠ []) :
    ∃ out, autoCount t n aout = .ok out
      ∧ out.length = outLen n aout (defaultN 0 (some t.times) (some t.times))
      ∧ ∀ k (hk : k < out.length), out[k] = start aout k
          + ((selfPairs t.times).filter fun p => (p.2 - p.1).natAbs = k).length := by
  obtain ⟨out, h1, h2, h3⟩ := ok_entries (autoCount_ok t n aout h) (startOut_length _ _ _)
  refine ⟨out, h1, h2, fun k hk => ?_⟩
  rw [h3 k hk, selfSum_stamps]

example : crossCount (.scalar 10) none (some 5) false none = .ok [10, 18, 16, 14, 12] := rfl
example : crossCount (.array [1, 3, 6]) (some (.array [0, 2, 6])) (some 5) false none
    = .ok [1, 3, 0, 2, 1] := rfl
example : autoCount (.array [0, 2, 4, 5]) none none = .ok [4, 1, 2, 1, 1, 1] := rfl

theorem natCast_sum (l : List Nat) : ((l.sum : Nat) : Int) = (l.map Nat.cast).sum := by
  induction l with
  | nil => simp
  | cons a l ih => simp [ih]

/-- **C06.** Correlating data that are all 1 reproduces the counts. -/
theorem C06_count_is_correlation_of_ones (t1 t2 : List Int) (h : t1.length = t2.length)
    (h0 : t1 ≠ []) (n : Option Nat) (aligned : Bool) :
    ∃ out cnt, crossCorrelate (R := Int) (List.replicate t1.length 1) (List.replicate t2.length 1)
        (some t1) (some t2) n aligned none = .ok out
      ∧ crossCount (.array t1) (some (.array t2)) n false none = .ok cnt
      ∧ out = cnt.map Int.ofNat := by
  have hl : t1.length ≠ 0 := by simpa using h0
  have hv : ValidCross (List.replicate t1.length (1 : Cx Int)).length
      (List.replicate t2.length (1 : Cx Int)).length (some t1) (some t2) := by
    simp [ValidCross, h]; rintro rfl; simp [h] at hl
  obtain ⟨out, h1, h2, h3⟩ := C01_cross_correlate (List.replicate t1.length (1 : Cx Int))
    (List.replicate t2.length 1) (some t1) (some t2) n aligned none hv (by simp)
  obtain ⟨cnt, g1, g2, g3⟩ := ok_entries (crossCount_ok (.array t1) (some (.array t2)) n none
    (fun _ _ => ⟨h0, by rintro h'; simp [TimeArg.times] at h'; simp [h'] at h; exact hl (by simp [h])⟩))
    (startOut_length _ _ _)
  refine ⟨out, cnt, h1, g1, ?_⟩
  apply List.ext_getElem
  · rw [h2, List.length_map, g2]; cases n <;> rfl
  · intro k hk1 hk2
    rw [h3 k hk1, List.getElem_map, g3 k (by simpa using hk2)]
    simp only [start, zero_add, stream, TimeArg.times, Option.getD_some, pairSum_eq]
    have e : ∀ t : List Int, t.zip (List.replicate t.length (1 : Cx Int)) = t.map fun a => (a, 1) := by
      intro t
      apply List.ext_getElem <;> simp
    simp only [e, stamps, List.map_map, Function.comp_def, Int.ofNat_eq_natCast]
    rw [natCast_sum, List.map_map]
    congr 1
    apply List.map_congr_left
    intro a _
    simp only [Function.comp_apply]
    rw [natCast_sum, List.map_map]
    congr 1
    apply List.map_congr_left
    intro b _
    simp [reProd]

end Cddm
