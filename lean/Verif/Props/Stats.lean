import Verif.Model.Stats
import Verif.Spec.Stats
import Verif.Props.Norm
import Verif.Props.Laws
import Verif.Props.Compensated
import Verif.Lemmas.MultiRow
import Verif.Lemmas.IterMain

/-!
# C78: means, variances and background of a data set
-/

namespace Cddm
open Spec

theorem firstAxis_ok {axis : Int} {first : Bool} (h : AxisIs axis first) : firstAxis axis = .ok first := by
  cases first <;> rcases h with rfl | rfl <;> rfl

theorem signals_eq {α : Type} (x : Arr2 α) (first : Bool) :
    signals x first = (List.range (pixels x first)).map (samplesAt x first) := by
  cases first <;> rfl

theorem samplesAt_length {α : Type} (x : Arr2 α) (first : Bool) (k : Nat) :
    (samplesAt x first k).length = samples x first := by
  cases first <;> simp [samplesAt, samples]

theorem npMean_some {y : List (Cx ℝ)} (h : y ≠ []) : npMean y = some (meanOf y) := by
  rw [npMean, if_neg h]; rfl

theorem npVar_some {y : List (Cx ℝ)} (h : y ≠ []) : npVar y = some (varianceOf y) := by
  rw [npVar, npMean_some h, varianceOf, one_div_mul_eq_div]; rfl

theorem isStats_signals (x : Arr2 (Cx ℝ)) (first : Bool) :
    IsStats x first ((signals x first).map npMean) ((signals x first).map npVar) := by
  rw [signals_eq]
  refine ⟨by simp, by simp, fun k hk => ⟨fun h0 => ?_, fun h0 => ?_⟩⟩
  · have : samplesAt x first k = [] := List.length_eq_zero_iff.1 (by rw [samplesAt_length, h0])
    simp [hk, this, npMean, npVar]
  · have : samplesAt x first k ≠ [] := by
      intro e
      have := samplesAt_length x first k
      rw [e] at this
      simp at this
      omega
    simp [hk, npMean_some this, npVar_some this]

/-- **C78, one data set.**  `stats` returns mean and variance of each pixel, along either axis. -/
theorem C78_stats (x : Arr2 (Cx ℝ)) (axis : Int) (first : Bool) (h : AxisIs axis first) :
    ∃ m v, stats x none axis = .ok (.one m v) ∧ IsStats x first m v := by
  refine ⟨_, _, ?_, isStats_signals x first⟩
  unfold stats
  rw [firstAxis_ok h]
  rfl

/-- **C78, two data sets.** -/
theorem C78_stats_two (x y : Arr2 (Cx ℝ)) (axis : Int) (first : Bool) (h : AxisIs axis first) :
    ∃ m1 m2 v1 v2, stats x (some y) axis = .ok (.two m1 m2 v1 v2) ∧ IsStats x first m1 v1 ∧ IsStats y first m2 v2 := by
  refine ⟨_, _, _, _, ?_, isStats_signals x first, isStats_signals y first⟩
  unfold stats
  rw [firstAxis_ok h]
  rfl

theorem sum_sub_mean (y : List (Cx ℝ)) (h : y ≠ []) (c : Cx ℝ) :
    spread y c = varianceOf y + (c - meanOf y).abs2 := by
  have hl : (y.length : ℝ) ≠ 0 := by
    rw [Nat.cast_ne_zero]
    exact (List.length_pos_of_ne_nil h).ne'
  rw [varianceOf_eq y h, spread, abs2_sub_mean]
  have e1 : (meanOf y).re = y.sum.re / y.length := by
    unfold meanOf
    simp [div_eq_inv_mul]
  have e2 : (meanOf y).im = y.sum.im / y.length := by
    unfold meanOf
    simp [div_eq_inv_mul]
  simp only [Cx.abs2, e1, e2, Cx.sub_re, Cx.sub_im]
  field_simp
  ring

theorem abs2_nonneg' (a : Cx ℝ) : 0 ≤ a.abs2 := by
  simp only [Cx.abs2]
  nlinarith [sq_nonneg a.re, sq_nonneg a.im]

theorem abs2_zero_iff (a : Cx ℝ) : a.abs2 = 0 ↔ a = 0 := by
  constructor
  · intro h
    simp only [Cx.abs2] at h
    have h1 : a.re = 0 := by nlinarith [sq_nonneg a.re, sq_nonneg a.im]
    have h2 : a.im = 0 := by nlinarith [sq_nonneg a.re, sq_nonneg a.im]
    exact Cx.ext h1 h2
  · rintro rfl
    simp [Cx.abs2]

/-- **C78, meaning.**  The mean is the point from which the samples have the smallest mean square distance, and that
distance is the variance. -/
theorem C78_best (y : List (Cx ℝ)) (h : y ≠ []) (c : Cx ℝ) :
    varianceOf y = spread y (meanOf y) ∧ varianceOf y ≤ spread y c ∧ (spread y c = varianceOf y ↔ c = meanOf y) := by
  have hc := sum_sub_mean y h c
  have hm := sum_sub_mean y h (meanOf y)
  have h0 : (0 : Cx ℝ).abs2 = 0 := (abs2_zero_iff 0).2 rfl
  rw [sub_self, h0] at hm
  refine ⟨by linarith, by linarith [abs2_nonneg' (c - meanOf y)], ?_⟩
  rw [hc, add_eq_left, abs2_zero_iff, sub_eq_zero]

/-- **C78, zero variance.**  Exactly constant signals have variance zero. -/
theorem C78_constant (y : List (Cx ℝ)) : varianceOf y = 0 ↔ ∀ a ∈ y, ∀ b ∈ y, a = b := by
  by_cases h : y = []
  · subst h; simp [varianceOf]
  have hl : (0 : ℝ) < (y.length : ℝ) := by exact_mod_cast List.length_pos_of_ne_nil h
  have key : varianceOf y = 0 ↔ ∀ a ∈ y, a = meanOf y := by
    unfold varianceOf
    rw [mul_eq_zero, or_iff_right (by positivity)]
    have : ∀ l : List (Cx ℝ), (l.map fun a => (a - meanOf y).abs2).sum = 0 ↔ ∀ a ∈ l, a = meanOf y := by
      intro l
      induction l with
      | nil => simp
      | cons a l ih =>
        have h1 := abs2_nonneg' (a - meanOf y)
        have h2 : 0 ≤ (l.map fun a => (a - meanOf y).abs2).sum :=
          List.sum_nonneg (by simp only [List.mem_map]; rintro _ ⟨b, -, rfl⟩; exact abs2_nonneg' _)
        rw [List.map_cons, List.sum_cons, add_eq_zero_iff_of_nonneg h1 h2, ih, abs2_zero_iff, sub_eq_zero]
        simp
    exact this y
  rw [key]
  constructor
  · intro hk a ha b hb
    rw [hk a ha, hk b hb]
  · intro hk a ha
    have hs : ∀ l : List (Cx ℝ), (∀ b ∈ l, b = a) → l.sum = (l.length : ℝ) • a := by
      intro l
      induction l with
      | nil => simp
      | cons b l ih =>
        intro hb
        rw [List.sum_cons, ih fun c hc => hb c (List.mem_cons_of_mem _ hc), hb b List.mem_cons_self, List.length_cons]
        push_cast
        rw [add_smul, one_smul, add_comm]
    unfold meanOf
    rw [hs y fun b hb => hk b hb a ha, smul_smul, one_div, inv_mul_cancel₀ hl.ne', one_smul]

/-- The pixel a cell belongs to. -/
def pixelOf (first : Bool) (i j : Nat) : Nat := if first then j else i

theorem subtract_given (x : Arr2 (Cx ℝ)) (axis : Int) (first : Bool) (h : AxisIs axis first)
    (bg : List (Option (Cx ℝ))) (hb : bg.length = pixels x first) :
    ∃ r, npSub2 x (expandBg bg first) = .ok r ∧ r.h = x.h ∧ r.w = x.w ∧
      ∀ i < x.h, ∀ j < x.w, r.get i j = (bg.getD (pixelOf first i j) none).map fun y => x.get i j - y := by
  have hl : ∀ n, broadcastLen n 1 = some n := by
    intro n; unfold broadcastLen; split_ifs <;> simp_all
  have hs : ∀ n, broadcastLen n n = some n := by
    intro n; unfold broadcastLen; simp
  have hi : ∀ {i n : Nat}, i < n → (if n = 1 then 0 else i) = i := by
    intro i n h; split_ifs <;> omega
  cases first with
  | true =>
    have hb' : bg.length = x.w := hb
    unfold npSub2 expandBg
    simp only [if_true, hb', hl, hs]
    refine ⟨_, rfl, rfl, rfl, fun i hi' j hj => ?_⟩
    simp only [hi hi', hi hj, pixelOf, if_true]
  | false =>
    have hb' : bg.length = x.h := hb
    unfold npSub2 expandBg
    simp only [hb', hl, hs, Bool.false_eq_true, if_false]
    refine ⟨_, rfl, rfl, rfl, fun i hi' j hj => ?_⟩
    simp only [hi hi', hi hj, pixelOf, Bool.false_eq_true, if_false]

/-- **C78, given background.**  It is subtracted from every sample of its pixel. -/
theorem C78_given (x : Arr2 (Cx ℝ)) (axis : Int) (first : Bool) (h : AxisIs axis first) (bg : List (Cx ℝ))
    (hb : bg.length = pixels x first) :
    ∃ r, subtractBackground x axis (some bg) = .ok (r, bg.map some) ∧
      SameNumbers r ⟨x.h, x.w, fun i j => x.get i j - bg.getD (if first then j else i) 0⟩ := by
  obtain ⟨r, hr, r1, r2, r3⟩ := subtract_given x axis first h (bg.map some) (by simpa using hb)
  refine ⟨r, ?_, r1, r2, fun i hi j hj => ?_⟩
  · unfold subtractBackground
    simp only [firstAxis_ok h, bind, Except.bind, hr]
  · rw [r3 i hi j hj]
    have hp : pixelOf first i j < bg.length := by
      cases first <;> simp [pixelOf, hb, pixels] <;> assumption
    change _ = some (x.get i j - bg.getD (pixelOf first i j) 0)
    simp [List.getD_eq_getElem?_getD, hp]

theorem subtract_mean (x : Arr2 (Cx ℝ)) (axis : Int) (first : Bool) (h : AxisIs axis first) :
    ∃ r, subtractBackground x axis none = .ok (r, (signals x first).map npMean) ∧
      SameNumbers r ⟨x.h, x.w, fun i j => x.get i j - meanOf (samplesAt x first (if first then j else i))⟩ := by
  obtain ⟨r, hr, r1, r2, r3⟩ := subtract_given x axis first h ((signals x first).map npMean)
    (by rw [signals_eq]; simp)
  refine ⟨r, ?_, r1, r2, fun i hi j hj => ?_⟩
  · unfold subtractBackground
    simp only [firstAxis_ok h, bind, Except.bind, hr]
  · rw [r3 i hi j hj]
    have hp : pixelOf first i j < pixels x first := by
      cases first <;> simp [pixelOf, pixels] <;> assumption
    dsimp only at hi hj
    have hs : 0 < samples x first := by
      cases first <;> simp [samples] <;> omega
    have := ((isStats_signals x first).2.2 _ hp).2 hs |>.1
    rw [List.getD_eq_getElem?_getD, this]
    rfl

/-- **C78, background.**  Without a given background, the mean of each pixel is subtracted from its samples, and
returned. -/
theorem C78_subtract (x : Arr2 (Cx ℝ)) (axis : Int) (first : Bool) (h : AxisIs axis first)
    (hs : 0 < samples x first) :
    ∃ r bg, subtractBackground x axis none = .ok (r, bg) ∧
      bg = (List.range (pixels x first)).map (fun k => some (meanOf (samplesAt x first k))) ∧
      SameNumbers r ⟨x.h, x.w, fun i j => x.get i j - meanOf (samplesAt x first (if first then j else i))⟩ := by
  obtain ⟨r, hr, hn⟩ := subtract_mean x axis first h
  refine ⟨r, _, hr, ?_, hn⟩
  apply List.ext_getElem?
  intro k
  rw [List.getElem?_map, List.getElem?_map]
  by_cases hk : k < pixels x first
  · have := ((isStats_signals x first).2.2 _ hk).2 hs |>.1
    rw [List.getElem?_map] at this
    rw [this]
    simp [hk]
  · rw [signals_eq]
    simp [hk]

theorem meanOf_sub (y : List (Cx ℝ)) (h : y ≠ []) (c : Cx ℝ) : meanOf (y.map (· - c)) = meanOf y - c := by
  have hl : (y.length : ℝ) ≠ 0 := by
    rw [Nat.cast_ne_zero]
    exact (List.length_pos_of_ne_nil h).ne'
  have hs : ∀ l : List (Cx ℝ), (l.map (· - c)).sum = l.sum - (l.length : ℝ) • c := by
    intro l
    induction l with
    | nil => simp
    | cons b l ih =>
      rw [List.map_cons, List.sum_cons, List.sum_cons, ih, List.length_cons]
      push_cast
      rw [add_smul, one_smul]
      abel
  unfold meanOf
  rw [hs, List.length_map, smul_sub, smul_smul, one_div, inv_mul_cancel₀ hl, one_smul]

theorem varianceOf_sub (y : List (Cx ℝ)) (h : y ≠ []) (c : Cx ℝ) : varianceOf (y.map (· - c)) = varianceOf y := by
  unfold varianceOf
  rw [meanOf_sub y h, List.length_map, List.map_map]
  congr 2
  apply List.map_congr_left
  intro a _
  simp

/-- **C78, after the subtraction.**  Every pixel has mean zero and the same variance as before; subtracting once more
changes nothing. -/
theorem C78_zero_mean (x y : Arr2 (Cx ℝ)) (axis : Int) (first : Bool) (h : AxisIs axis first)
    (hs : 0 < samples x first) (r : Arr2 (Option (Cx ℝ))) (bg : List (Option (Cx ℝ)))
    (hr : subtractBackground x axis none = .ok (r, bg)) (hy : SameNumbers r y) :
    (∀ k < pixels x first, meanOf (samplesAt y first k) = 0 ∧
      varianceOf (samplesAt y first k) = varianceOf (samplesAt x first k)) ∧
    ∃ r' bg', subtractBackground y axis none = .ok (r', bg') ∧ SameNumbers r' y ∧ ∀ b ∈ bg', b = some 0 := by
  obtain ⟨r0, bg0, h0, hb0, q1, q2, q3⟩ := C78_subtract x axis first h hs
  rw [hr] at h0
  obtain ⟨rfl, rfl⟩ : r = r0 ∧ bg = bg0 := by simpa using h0
  obtain ⟨p1, p2, p3⟩ := hy
  dsimp only at q1 q2 q3
  have e1 : y.h = x.h := by omega
  have e2 : y.w = x.w := by omega
  have hv : ∀ i < x.h, ∀ j < x.w, y.get i j = x.get i j - meanOf (samplesAt x first (if first then j else i)) := by
    intro i hi j hj
    have := p3 i (by omega) j (by omega)
    rw [q3 i hi j hj] at this
    exact (Option.some.inj this).symm
  have hsy : samples y first = samples x first := by cases first <;> simp [samples, e1, e2]
  have hpy : pixels y first = pixels x first := by cases first <;> simp [pixels, e1, e2]
  have hne : ∀ k, samplesAt x first k ≠ [] := by
    intro k e
    have := samplesAt_length x first k
    rw [e] at this
    simp at this
    omega
  have hk : ∀ k < pixels x first,
      samplesAt y first k = (samplesAt x first k).map (· - meanOf (samplesAt x first k)) := by
    intro k hk
    cases first with
    | true =>
      simp only [samplesAt, List.map_map, e1]
      refine List.map_congr_left fun i hi => ?_
      exact hv i (List.mem_range.1 hi) k hk
    | false =>
      simp only [samplesAt, List.map_map, e2]
      refine List.map_congr_left fun j hj => ?_
      exact hv k hk j (List.mem_range.1 hj)
  have hm : ∀ k < pixels x first, meanOf (samplesAt y first k) = 0 := by
    intro k hk'
    rw [hk k hk', meanOf_sub _ (hne k), sub_self]
  refine ⟨fun k hk' => ⟨hm k hk', by rw [hk k hk', varianceOf_sub _ (hne k)]⟩, ?_⟩
  obtain ⟨r', bg', h', hb', s1, s2, s3⟩ := C78_subtract y axis first h (by omega)
  refine ⟨r', bg', h', ⟨s1, s2, fun i hi j hj => ?_⟩, ?_⟩
  · rw [s3 i hi j hj]
    dsimp only
    rw [hm _ (by cases first <;> simp [pixels] <;> omega), sub_zero]
  · rw [hb']
    intro b hb
    obtain ⟨k, hk', rfl⟩ := List.mem_map.1 hb
    rw [hm k (by rw [← hpy]; exact List.mem_range.1 hk')]

/-- **C78, refusals.**  An axis which the array does not have, and a background which does not fit, raise
ValueError. -/
theorem C78_rejects (x : Arr2 (Cx ℝ)) (axis : Int) :
    ((axis < -2 ∨ 1 < axis) → (∀ y, stats x y axis = .error .valueError) ∧
      ∀ bg, subtractBackground x axis bg = .error .valueError) ∧
    ∀ first, AxisIs axis first → ∀ bg : List (Cx ℝ), bg.length ≠ pixels x first → bg.length ≠ 1 →
      pixels x first ≠ 1 → subtractBackground x axis (some bg) = .error .valueError := by
  refine ⟨fun ha => ?_, fun first h bg h1 h2 h3 => ?_⟩
  · have hf : firstAxis axis = .error .valueError := by
      unfold firstAxis
      rw [if_neg (by omega), if_neg (by omega)]
    exact ⟨fun y => by unfold stats; rw [hf]; rfl, fun bg => by unfold subtractBackground; rw [hf]; rfl⟩
  · unfold subtractBackground
    simp only [firstAxis_ok h, bind, Except.bind]
    have hl : ∀ n, broadcastLen n 1 = some n := by
      intro n; unfold broadcastLen; split_ifs <;> simp_all
    have hb : broadcastLen (pixels x first) bg.length = none := by
      unfold broadcastLen
      rw [if_neg (Ne.symm h1), if_neg h3, if_neg h2]
    cases first <;> simp only [pixels] at hb <;> simp [npSub2, expandBg, hb]

theorem acorrNormalized_scale (f : List (Cx ℝ)) (t : Option (List Int)) (n : Option Nat) (norm : Option Int)
    (method : Option String) (aligned : Bool) (bg : Background) (v : Variance) (z : Int) (hz : z = 5 ∨ z = 13)
    (mode : String) :
    acorrNormalized f t n norm method aligned bg (some v) z mode true
      = (acorrNormalized f t n norm method aligned bg (some v) z mode false).map
          (List.map fun x => x.bind fun x => if v.offset = 0 then none else some (x / v.offset)) := by
  unfold acorrNormalized
  cases acorr f t n norm method aligned none {} with
  | error => rfl
  | ok r =>
    simp only [bind, Except.bind]
    rw [C23_scale (some bg) v z (by omega)]
    cases normalize normOpsR (r.toData (effMethod method n)) (some bg) (some v) (some z) mode false none <;> rfl

theorem acorrNormalized_mode (f : List (Cx ℝ)) (t : Option (List Int)) (n : Option Nat) (norm : Option Int)
    (method : Option String) (aligned : Bool) (bg : Background) (v : Variance) (z : Int) (hz : z = 5 ∨ z = 13) :
    acorrNormalized f t n norm method aligned bg (some v) z "diff" false
      = (acorrNormalized f t n norm method aligned bg (some v) z "corr" false).map
          (List.map (Option.map fun x => 2 * (v.offset - x))) := by
  unfold acorrNormalized
  cases acorr f t n norm method aligned none {} with
  | error => rfl
  | ok r =>
    simp only [bind, Except.bind]
    rw [C23_modes (some bg) v z (by omega)]
    cases normalize normOpsR (r.toData (effMethod method n)) (some bg) (some v) (some z) "corr" false none <;> rfl

/-- The mean over the pairs at delay zero is the mean over the samples. -/
theorem mean_delay_zero {f : List (Cx ℝ)} {t : Option (List Int)} (hv : ValidAuto f.length t) (hd : Distinct t)
    (g : Cx ℝ → Cx ℝ → ℝ) :
    mean g (selfPairsAt (stream f t) 0) = (f.map fun a => g a a).sum / f.length ∧
      (selfPairsAt (stream f t) 0).length = f.length := by
  have ht : ∀ u, t = some u → u.length = f.length := by
    rintro u rfl
    exact hv.1
  have h1 : ∀ {M : Type} [AddCommMonoid M] (g : Cx ℝ → Cx ℝ → M),
      total g (selfPairsAt (stream f t) 0) = (f.map fun a => g a a).sum := by
    intro M _ g
    rw [← stream_sum f t (fun a => g a a) ht, ← selfSum_zero _ _ (stream_nodup hv hd)]
    unfold total selfPairsAt selfSum
    rw [List.map_map]
    rfl
  have h2 : (selfPairsAt (stream f t) 0).length = f.length := by
    have := h1 (M := Nat) fun _ _ => 1
    simpa [total] using this
  refine ⟨?_, h2⟩
  unfold mean
  rw [h1, h2, smul_eq_mul, one_div_mul_eq_div]

/-- **C78, why it matters.**  With the background and the variance taken from `stats`, the scaled correlation of a
signal which is not constant starts at one, and the scaled difference at zero, whatever the method (FFT or
correlation) and the time stamps (subtracted norms). -/
theorem C78_unit (f : List (Cx ℝ)) (t : Option (List Int)) (n : Option Nat) (norm : Option Int)
    (method : Option String) (aligned : Bool) (n' : Nat) (call : AutoCall f.length t n norm method n')
    (hd : effMethod method n ≠ "diff") (hs : AskSums norm method n false) (z : Int) (hz : z = 5 ∨ z = 13)
    (hn : 0 < n') (hv : ∃ a ∈ f, ∃ b ∈ f, a ≠ b) :
    (∃ out, acorrNormalized f t n norm method aligned (.one (meanOf f)) (some (.one (varianceOf f))) z "corr" true
      = .ok out ∧ out[0]? = some (some 1)) ∧
    ∃ out, acorrNormalized f t n norm method aligned (.one (meanOf f)) (some (.one (varianceOf f))) z "diff" true
      = .ok out ∧ out[0]? = some (some 0) := by
  obtain ⟨out, e, -, ho⟩ := C21_auto f t n norm method aligned n' (some (.one (varianceOf f))) (meanOf f) call hd hs z hz
  obtain ⟨-, -, hva⟩ := not_refused_auto call.accepted
  obtain ⟨m1, m2⟩ := mean_delay_zero hva call.distinct
    (fun x y => reProd (x - meanOf f) (y - meanOf f))
  have hne : f ≠ [] := by
    rintro rfl
    simp at hv
  have h0 := (ho 0 hn).2 (by
    intro e
    rw [e] at m2
    exact hne (List.length_eq_zero_iff.1 m2.symm))
  have hvar : mean (fun x y => reProd (x - meanOf f) (y - meanOf f)) (selfPairsAt (stream f t) 0) = varianceOf f := by
    rw [m1, varianceOf, one_div_mul_eq_div]
    congr 3
    funext a
    simp only [reProd, Cx.abs2, Cx.conj, Cx.mul_re]
    ring
  rw [hvar] at h0
  have hpos : varianceOf f ≠ 0 := by
    intro e0
    obtain ⟨a, ha, b, hb, hab⟩ := hv
    exact hab ((C78_constant f).1 e0 a ha b hb)
  constructor
  · rw [acorrNormalized_scale _ _ _ _ _ _ _ _ _ hz, e]
    refine ⟨_, rfl, ?_⟩
    rw [List.getElem?_map, h0]
    simp [Variance.offset, hpos]
  · rw [acorrNormalized_scale _ _ _ _ _ _ _ _ _ hz, acorrNormalized_mode _ _ _ _ _ _ _ _ _ hz, e]
    refine ⟨_, rfl, ?_⟩
    rw [List.getElem?_map, List.getElem?_map, h0]
    simp [Variance.offset, hpos]

/-! Examples: a signal of two different samples; two pixels with samples along the second axis; the hypotheses of
`C78_unit`. -/
example : meanOf [⟨1, 2⟩, ⟨3, 0⟩] = ⟨2, 1⟩ ∧ varianceOf [⟨1, 2⟩, ⟨3, 0⟩] = 2 := by
  constructor
  · refine Cx.ext ?_ ?_
    · simp [meanOf]
      norm_num
    · simp [meanOf]
  · simp [varianceOf, meanOf, Cx.abs2]
    norm_num
example : AxisIs (-1) false ∧ 0 < samples (⟨2, 3, fun i j => ⟨i, j⟩⟩ : Arr2 (Cx ℝ)) false ∧
    [(0 : Cx ℝ), 1].length = pixels (⟨2, 3, fun i j => ⟨i, j⟩⟩ : Arr2 (Cx ℝ)) false := by
  simp [AxisIs, samples, pixels]
example : AutoCall [(⟨1, 2⟩ : Cx ℝ), ⟨3, 0⟩].length none (some 2) none (some "corr") 2 ∧
    AskSums none (some "corr") (some 2) false ∧ effMethod (some "corr") (some 2) ≠ "diff" :=
  ⟨autoCall_example 2 (by decide), by simp [AskSums, WantsSums, effNorm, effMethod], by decide⟩

end Cddm
