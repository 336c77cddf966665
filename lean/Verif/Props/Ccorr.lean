import Verif.Lemmas.CcorrReject

/-!
# C18, C19: `ccorr` and `acorr`

`SafeLen` (Spec/Ccorr) collects the length conditions of C08-C10: odd full-size arrays, and not
more than one delay beyond the data span for method 'fft' and regular data.
-/

namespace Cddm
open Spec

/-- What `ccorr` does not accept: an unknown method, a norm the method has no data for, method
'diff' with complex output, or signals and time stamps which do not match. -/
def CcorrRefused (full : Bool) (method : Option String) (norm : Option Int) (n : Option Nat)
    (N1 N2 : Nat) (t1 t2 : Option (List Int)) : Prop :=
  (effMethod method n ≠ "corr" ∧ effMethod method n ≠ "fft" ∧ effMethod method n ≠ "diff") ∨
  ¬ SupportedNorm (effMethod method n) true (effNorm norm (effMethod method n) true) ∨
  (effMethod method n = "diff" ∧ full = true) ∨
  ¬ ValidCross N1 N2 t1 t2

/-- What `acorr` does not accept. -/
def AcorrRefused (method : Option String) (norm : Option Int) (n : Option Nat)
    (N : Nat) (t : Option (List Int)) : Prop :=
  (effMethod method n ≠ "corr" ∧ effMethod method n ≠ "fft" ∧ effMethod method n ≠ "diff") ∨
  ¬ SupportedNorm (effMethod method n) false (effNorm norm (effMethod method n) false) ∨
  ¬ ValidAuto N t

/-- The arrays of a call, given or new, have lengths the kernels can handle, given squares have the
length of the signal, and for method 'fft' no time stamp is repeated and there is data. -/
structure Manageable {C : Type} (full : Bool) (m : String) (N1 N2 : Nat)
    (t1 t2 : Option (List Int)) (n : Nat) (f1s f2s : Option (List ℝ)) (aout : CorrAout C) :
    Prop where
  cor : SafeLen full m t1 (defaultN N1 t1 t2) (fieldLen full n aout.cor)
  count : SafeLen full m t1 (defaultN N1 t1 t2) (fieldLen full n aout.count)
  sq : SafeLen full m t1 (defaultN N1 t1 t2) (fieldLen full n aout.sq)
  ds1 : SafeLen full m t1 (defaultN N1 t1 t2) (fieldLen full n aout.ds1)
  ds2 : SafeLen full m t1 (defaultN N1 t1 t2) (fieldLen full n aout.ds2)
  sq1 : ∀ g, f1s = some g → g.length = N1
  sq2 : ∀ g, f2s = some g → g.length = N2
  fft : m = "fft" → Distinct t1 ∧ Distinct t2 ∧ N1 ≠ 0

/-! ### C18 -/

/-- Refused arguments raise ValueError. -/
theorem C18_ccorr_refuses (f1 f2 : List (Cx ℝ)) (t1 t2 : Option (List Int)) (n : Option Nat)
    (norm : Option Int) (method : Option String) (aligned : Bool) (f1s f2s : Option (List ℝ))
    (aout : CorrAout ℝ)
    (h : CcorrRefused false method norm n f1.length f2.length t1 t2) :
    ccorr f1 f2 t1 t2 n norm method aligned f1s f2s aout = .error .valueError := by
  refine ccorrBody_reject false _ _ _ f1 f2 t1 t2 n norm method f1s f2s aout ?_ ?_
  · intro a b n ha hb hN hlen
    have hv : ¬ ValidCross f1.length f2.length (some a) (some b) := fun h => hlen ⟨h.2.1, h.2.2.1⟩
    exact ⟨C09_rejects f1 f2 _ _ _ _ hv, C01_cross_correlate_rejects f1 f2 _ _ _ _ _ hv,
      crossDifference_reject f1 f2 _ _ _ _ _ hv⟩
  · unfold CcorrRefused at h
    tauto

/-- The same with complex output. -/
theorem C18_ccorr_complex_refuses (f1 f2 : List (Cx ℝ)) (t1 t2 : Option (List Int))
    (n : Option Nat) (norm : Option Int) (method : Option String) (aligned : Bool)
    (f1s f2s : Option (List ℝ)) (aout : CorrAout (Cx ℝ))
    (h : CcorrRefused true method norm n f1.length f2.length t1 t2) :
    ccorrComplex f1 f2 t1 t2 n norm method aligned f1s f2s aout = .error .valueError := by
  refine ccorrBody_reject true _ _ _ f1 f2 t1 t2 n norm method f1s f2s aout ?_ ?_
  · intro a b n ha hb hN hlen
    have hv : ¬ ValidCross f1.length f2.length (some a) (some b) := fun h => hlen ⟨h.2.1, h.2.2.1⟩
    exact ⟨crossCorrelateComplexFft_mismatch f1 f2 ha hb hN hlen n _,
      crossCorrelateComplex_reject f1 f2 _ _ _ _ _ hv, rfl⟩
  · unfold CcorrRefused at h
    tauto

/-- Refused arguments of `acorr` raise ValueError. -/
theorem C18_acorr_refuses (f : List (Cx ℝ)) (t : Option (List Int)) (n : Option Nat)
    (norm : Option Int) (method : Option String) (aligned : Bool) (fs : Option (List ℝ))
    (aout : CorrAout ℝ) (h : AcorrRefused method norm n f.length t) :
    acorr f t n norm method aligned fs aout = .error .valueError := by
  refine acorrBody_reject _ _ _ f t n norm method fs aout ?_ ?_
  · intro a n ha hlen
    have hv : ¬ ValidAuto f.length (some a) := fun h => hlen h.1
    exact ⟨autoCorrelateFft_mismatch f ha hlen n _, C03_auto_correlate_rejects f _ _ _ _ hv,
      autoDifference_reject f _ _ _ _ hv⟩
  · unfold AcorrRefused at h
    tauto

theorem C18_acorr_complex_refuses (f : List (Cx ℝ)) (t : Option (List Int)) (n : Option Nat)
    (norm : Option Int) (method : Option String) (aligned : Bool) (fs : Option (List ℝ))
    (aout : CorrAout (Cx ℝ)) (h : AcorrRefused method norm n f.length t) :
    acorrComplex f t n norm method aligned fs aout = .error .valueError := by
  refine acorrBody_reject _ _ _ f t n norm method fs aout ?_ ?_
  · intro a n ha hlen
    have hv : ¬ ValidAuto f.length (some a) := fun h => hlen h.1
    refine ⟨autoCorrelateComplexFft_mismatch f ha hlen n _, autoCorrelateComplex_reject f _ _ _ _ hv,
      ?_⟩
    rw [autoDifference_reject f _ _ _ _ hv]
    rfl
  · unfold AcorrRefused at h
    tauto

theorem not_refused {full : Bool} {method : Option String} {norm : Option Int} {n : Option Nat}
    {N1 N2 : Nat} {t1 t2 : Option (List Int)}
    (h : ¬ CcorrRefused full method norm n N1 N2 t1 t2) :
    defaultMethod method n = .ok (effMethod method n) ∧
    SupportedNorm (effMethod method n) true (effNorm norm (effMethod method n) true) ∧
    ¬ (effMethod method n = "diff" ∧ full = true) ∧ ValidCross N1 N2 t1 t2 := by
  unfold CcorrRefused at h
  push Not at h
  obtain ⟨h1, h2, h3, h4⟩ := h
  refine ⟨(defaultMethod_ok_iff method n _).mpr ⟨rfl, ?_⟩, h2, fun h => h3 h.1 h.2, h4⟩
  by_contra hc
  push Not at hc
  exact hc.2.2 (h1 hc.1 hc.2.1)

theorem not_refused_auto {method : Option String} {norm : Option Int} {n : Option Nat}
    {N : Nat} {t : Option (List Int)} (h : ¬ AcorrRefused method norm n N t) :
    defaultMethod method n = .ok (effMethod method n) ∧
    SupportedNorm (effMethod method n) false (effNorm norm (effMethod method n) false) ∧
    ValidAuto N t := by
  unfold AcorrRefused at h
  push Not at h
  obtain ⟨h1, h2, h4⟩ := h
  refine ⟨(defaultMethod_ok_iff method n _).mpr ⟨rfl, ?_⟩, h2, h4⟩
  by_contra hc
  push Not at hc
  exact hc.2.2 (h1 hc.1 hc.2.1)

/-- The whole tuple of `ccorr`: an accepted call succeeds; the data and the count are summed over
all pairs of samples at each delay; the sum of squares is present exactly when the norm wants it
(never for method 'diff') and sums `|a|² + |b|²` over the same pairs; the two signal sums are
present exactly when the norm subtracts the background and sum `a` and `b` over the same pairs.
Fields not wanted are returned as given. -/
theorem C18_ccorr_fields (f1 f2 : List (Cx ℝ)) (t1 t2 : Option (List Int)) (n : Option Nat)
    (norm : Option Int) (method : Option String) (aligned : Bool) (f1s f2s : Option (List ℝ))
    (aout : CorrAout ℝ) (m : String) (v : Int) (n' : Nat)
    (hm : m = effMethod method n) (hnv : v = effNorm norm m true)
    (hn' : n' = delays false n (aout.cor.map List.length) (defaultN f1.length t1 t2))
    (h : ¬ CcorrRefused false method norm n f1.length f2.length t1 t2)
    (hs : Manageable false m f1.length f2.length t1 t2 n' f1s f2s aout) :
    ∃ r, ccorr f1 f2 t1 t2 n norm method aligned f1s f2s aout = .ok r ∧
      Added false n' aout.cor (cellSum false (if m = "diff" then dist2 else reProd)
        (stream f1 t1) (stream f2 t2)) r.cor ∧
      Added false n' aout.count (cellSum false (fun _ _ => 1) (stream f1 t1) (stream f2 t2))
        r.count ∧
      (WantsSquares v ∧ m ≠ "diff" → ∃ s, r.sq = some s ∧
        Added false n' aout.sq (cellSum false (fun a b => a + b)
          (stream (f1s.getD (f1.map Cx.abs2)) t1) (stream (f2s.getD (f2.map Cx.abs2)) t2)) s) ∧
      (¬ WantsSquares v → m ≠ "diff" → r.sq = aout.sq) ∧ (m = "diff" → r.sq = none) ∧
      (WantsSums v → ∃ s, r.ds1 = some s ∧
        Added false n' aout.ds1 (cellSum false (fun a _ => a) (stream f1 t1) (stream f2 t2)) s) ∧
      (WantsSums v → ∃ s, r.ds2 = some s ∧
        Added false n' aout.ds2 (cellSum false (fun _ b => b) (stream f1 t1) (stream f2 t2)) s) ∧
      (¬ WantsSums v → r.ds1 = aout.ds1 ∧ r.ds2 = aout.ds2) := by
  subst hm hnv
  obtain ⟨h1, h2, -, h4⟩ := not_refused h
  obtain ⟨e1, e2⟩ := supported_cases h2
  refine ⟨_, ccorr_ok f1 f2 t1 t2 n norm method aligned f1s f2s aout _ _ n' _ h1 (defaultNorm_ok h2)
    h4 rfl hn' hs.sq1 hs.sq2 (fun e => ⟨(hs.fft e).1, (hs.fft e).2.1⟩)
    (fun e => by rintro rfl; exact (hs.fft e).2.2 rfl) hs.cor (fun _ _ => hs.sq)
    (fun _ => hs.ds1) (fun _ => hs.ds2), added_of false n' _ _, added_of false n' _ _,
    ?_, ?_, ?_, ?_, ?_, ?_⟩
  · rintro ⟨hw, hd⟩
    simp only [ccorrSpec, if_pos (show needsSquares _ = true ∧ _ from ⟨e1.mp hw, hd⟩)]
    exact ⟨_, rfl, added_of false n' _ _⟩
  · intro hw hd
    have : ¬ needsSquares _ = true := fun h => hw (e1.mpr h)
    simp only [ccorrSpec, this, if_neg hd]
    simp
  · intro hd
    simp only [ccorrSpec, hd, ne_eq, not_true, and_false, if_false, if_true]
  · intro hw
    simp only [ccorrSpec, if_pos (e2.mp hw)]
    exact ⟨_, rfl, added_of false n' _ _⟩
  · intro hw
    simp only [ccorrSpec, if_pos (e2.mp hw)]
    exact ⟨_, rfl, added_of false n' _ _⟩
  · intro hw
    have : ¬ needsSums _ = true := fun h => hw (e2.mpr h)
    simp only [ccorrSpec, if_neg this]
    simp

/-- The same for complex output: sums over the pairs at each signed delay. -/
theorem C18_ccorr_complex_fields (f1 f2 : List (Cx ℝ)) (t1 t2 : Option (List Int)) (n : Option Nat)
    (norm : Option Int) (method : Option String) (aligned : Bool) (f1s f2s : Option (List ℝ))
    (aout : CorrAout (Cx ℝ)) (m : String) (v : Int) (n' : Nat)
    (hm : m = effMethod method n) (hnv : v = effNorm norm m true)
    (hn' : n' = delays true n (aout.cor.map List.length) (defaultN f1.length t1 t2))
    (h : ¬ CcorrRefused true method norm n f1.length f2.length t1 t2)
    (hs : Manageable true m f1.length f2.length t1 t2 n' f1s f2s aout) :
    ∃ r, ccorrComplex f1 f2 t1 t2 n norm method aligned f1s f2s aout = .ok r ∧
      Added true n' aout.cor (cellSum true cxProd (stream f1 t1) (stream f2 t2)) r.cor ∧
      Added true n' aout.count (cellSum true (fun _ _ => 1) (stream f1 t1) (stream f2 t2))
        r.count ∧
      (WantsSquares v → ∃ s, r.sq = some s ∧
        Added true n' aout.sq (cellSum true (fun a b => a + b)
          (stream (f1s.getD (f1.map Cx.abs2)) t1) (stream (f2s.getD (f2.map Cx.abs2)) t2)) s) ∧
      (¬ WantsSquares v → r.sq = aout.sq) ∧
      (WantsSums v → ∃ s, r.ds1 = some s ∧
        Added true n' aout.ds1 (cellSum true (fun a _ => a) (stream f1 t1) (stream f2 t2)) s) ∧
      (WantsSums v → ∃ s, r.ds2 = some s ∧
        Added true n' aout.ds2 (cellSum true (fun _ b => b) (stream f1 t1) (stream f2 t2)) s) ∧
      (¬ WantsSums v → r.ds1 = aout.ds1 ∧ r.ds2 = aout.ds2) := by
  subst hm hnv
  obtain ⟨h1, h2, h3, h4⟩ := not_refused h
  obtain ⟨e1, e2⟩ := supported_cases h2
  have hd : effMethod method n ≠ "diff" := fun e => h3 ⟨e, rfl⟩
  refine ⟨_, ccorrComplex_ok f1 f2 t1 t2 n norm method aligned f1s f2s aout _ _ n' _ h1
    (defaultNorm_ok h2) hd
    h4 rfl hn' hs.sq1 hs.sq2 (fun e => ⟨(hs.fft e).1, (hs.fft e).2.1⟩)
    (fun e => by rintro rfl; exact (hs.fft e).2.2 rfl) hs.cor (hs.count.1 rfl) (fun _ _ => hs.sq)
    (fun _ => hs.ds1) (fun _ => hs.ds2), added_of true n' _ _, added_of true n' _ _,
    ?_, ?_, ?_, ?_, ?_⟩
  · intro hw
    simp only [ccorrSpec, if_pos (show needsSquares _ = true ∧ _ from ⟨e1.mp hw, hd⟩)]
    exact ⟨_, rfl, added_of true n' _ _⟩
  · intro hw
    have : ¬ needsSquares _ = true := fun h => hw (e1.mpr h)
    simp only [ccorrSpec, this, if_neg hd]
    simp
  · intro hw
    simp only [ccorrSpec, if_pos (e2.mp hw)]
    exact ⟨_, rfl, added_of true n' _ _⟩
  · intro hw
    simp only [ccorrSpec, if_pos (e2.mp hw)]
    exact ⟨_, rfl, added_of true n' _ _⟩
  · intro hw
    have : ¬ needsSums _ = true := fun h => hw (e2.mpr h)
    simp only [ccorrSpec, if_neg this]
    simp

/-- The whole tuple of `acorr` (times without repetition): sums over unordered pairs of samples,
with `|a|² + |b|²` for the squares and the mean of `a` and `b` for the signal sum. -/
theorem C18_acorr_fields (f : List (Cx ℝ)) (t : Option (List Int)) (n : Option Nat)
    (norm : Option Int) (method : Option String) (aligned : Bool) (fs : Option (List ℝ))
    (aout : CorrAout ℝ) (m : String) (v : Int) (n' : Nat)
    (hm : m = effMethod method n) (hnv : v = effNorm norm m false)
    (hn' : n' = delays false n (aout.cor.map List.length) (defaultN f.length t t))
    (h : ¬ AcorrRefused method norm n f.length t) (hd : Distinct t)
    (hs : Manageable false m f.length f.length t t n' fs fs aout) :
    ∃ r, acorr f t n norm method aligned fs aout = .ok r ∧
      Added false n' aout.cor (fun _ => selfSum (if m = "diff" then dist2 else reProd)
        (stream f t)) r.cor ∧
      Added false n' aout.count (fun _ => selfSum (fun _ _ => 1) (stream f t)) r.count ∧
      (WantsSquares v ∧ m ≠ "diff" → ∃ s, r.sq = some s ∧
        Added false n' aout.sq (fun _ => selfSum (fun a b => a + b)
          (stream (fs.getD (f.map Cx.abs2)) t)) s) ∧
      (¬ WantsSquares v → m ≠ "diff" → r.sq = aout.sq) ∧
      (WantsSums v ∧ m ≠ "diff" → ∃ s, r.ds1 = some s ∧
        Added false n' aout.ds1 (fun _ => selfSum (fun a b => (1 / 2 : ℝ) • (a + b))
          (stream f t)) s) ∧
      (¬ WantsSums v → m ≠ "diff" → r.ds1 = aout.ds1) ∧
      (m = "diff" → r.sq = none ∧ r.ds1 = none) ∧ r.ds2 = none := by
  subst hm hnv
  obtain ⟨h1, h2, h4⟩ := not_refused_auto h
  obtain ⟨e1, e2⟩ := supported_cases h2
  have hnd : ∀ {α : Type} (g : List α), ((stream g t).map Prod.fst).Nodup := by
    intro α g
    cases t with
    | none => exact regular_nodup g
    | some a => exact nodup_zip (hd a rfl) g
  refine ⟨_, acorr_ok f t n norm method aligned fs aout _ _ n' _ h1 (defaultNorm_ok h2)
    h4 rfl hn' hs.sq1 (fun e => (hs.fft e).1)
    (fun e => by rintro rfl; exact (hs.fft e).2.2 rfl) (fun _ => hs.cor) (fun _ _ => hs.sq)
    (fun _ _ => hs.ds1), added_of false n' _ (fun _ => _), added_of false n' _ (fun _ => _),
    ?_, ?_, ?_, ?_, ?_, rfl⟩
  · rintro ⟨hw, hd'⟩
    simp only [acorrSpec, if_pos (show needsSquares _ = true ∧ _ from ⟨e1.mp hw, hd'⟩)]
    refine ⟨_, rfl, ?_⟩
    have : autoTau (stream ((fs.getD (f.map Cx.abs2)).map (2 * ·)) t)
        = selfSum (fun a b => a + b) (stream (fs.getD (f.map Cx.abs2)) t) := by
      funext k
      rw [autoTau_eq _ (hnd _)]
      have e : stream ((fs.getD (f.map Cx.abs2)).map (2 * ·)) t
          = (stream (fs.getD (f.map Cx.abs2)) t).map fun p => (p.1, 2 * p.2) := by
        cases t with
        | none => simp [stream, regular, List.mapIdx_eq_zipIdx_map, List.zipIdx_map, Function.comp_def]
        | some a => simp only [stream]; rw [List.zip_map_right]; rfl
      rw [e]
      simp only [selfSum_eq, selfPairs_map, List.map_map, Function.comp_def, Prod.map]
      congr 1
      apply List.map_congr_left
      intro p _
      congr 1
      simp only [smul_eq_mul]
      ring
    rw [this]
    exact added_of false n' _ (fun _ => _)
  · intro hw hd
    have : ¬ needsSquares _ = true := fun h => hw (e1.mpr h)
    simp only [acorrSpec, this, if_neg hd]
    simp
  · rintro ⟨hw, hd'⟩
    simp only [acorrSpec, if_pos (show needsSums _ = true ∧ _ from ⟨e2.mp hw, hd'⟩)]
    refine ⟨_, rfl, ?_⟩
    have : autoTau (stream f t) = selfSum (fun a b => (1 / 2 : ℝ) • (a + b)) (stream f t) := by
      funext k
      exact autoTau_eq _ (hnd _) k
    rw [this]
    exact added_of false n' _ (fun _ => _)
  · intro hw hd
    have : ¬ needsSums _ = true := fun h => hw (e2.mpr h)
    simp only [acorrSpec, this, if_neg hd]
    simp
  · intro hd
    simp only [acorrSpec, hd, ne_eq, not_true, and_false, if_false, if_true]
    simp

/-- The same for complex output. -/
theorem C18_acorr_complex_fields (f : List (Cx ℝ)) (t : Option (List Int)) (n : Option Nat)
    (norm : Option Int) (method : Option String) (aligned : Bool) (fs : Option (List ℝ))
    (aout : CorrAout (Cx ℝ)) (m : String) (v : Int) (n' : Nat)
    (hm : m = effMethod method n) (hnv : v = effNorm norm m false) (hdiff : m ≠ "diff")
    (hn' : n' = delays false n (aout.cor.map List.length) (defaultN f.length t t))
    (h : ¬ AcorrRefused method norm n f.length t)
    (hs : Manageable false m f.length f.length t t n' fs fs aout) :
    ∃ r, acorrComplex f t n norm method aligned fs aout = .ok r ∧
      Added false n' aout.cor (fun _ => selfSumFwd cxProd (stream f t)) r.cor ∧
      Added false n' aout.count (fun _ => selfSum (fun _ _ => 1) (stream f t)) r.count ∧
      (r.sq.isSome ↔ WantsSquares v ∨ aout.sq.isSome) ∧
      (r.ds1.isSome ↔ WantsSums v ∨ aout.ds1.isSome) ∧ r.ds2 = none := by
  subst hm hnv
  obtain ⟨h1, h2, h4⟩ := not_refused_auto h
  obtain ⟨e1, e2⟩ := supported_cases h2
  refine ⟨_, acorrComplex_ok f t n norm method aligned fs aout _ _ n' _ h1 (defaultNorm_ok h2)
    h4 rfl hn' hs.sq1 hdiff (fun e => (hs.fft e).1)
    (fun e => by rintro rfl; exact (hs.fft e).2.2 rfl) hs.cor (fun _ _ => hs.sq)
    (fun _ _ => hs.ds1), added_of false n' _ (fun _ => _), added_of false n' _ (fun _ => _),
    ?_, ?_, rfl⟩
  · rw [e1]
    simp only [acorrSpec, hdiff, ne_eq, not_false_eq_true, and_true, if_false]
    split <;> simp_all
  · rw [e2]
    simp only [acorrSpec, hdiff, ne_eq, not_false_eq_true, and_true, if_false]
    split <;> simp_all

/-- The sums returned with complex output (times without repetition): `|a|² + |b|²` and the mean of
`a` and `b` over unordered pairs, as for real output. -/
theorem C18_acorr_complex_sums (f : List (Cx ℝ)) (t : Option (List Int)) (n : Option Nat)
    (norm : Option Int) (method : Option String) (aligned : Bool) (fs : Option (List ℝ))
    (aout : CorrAout (Cx ℝ)) (m : String) (v : Int) (n' : Nat)
    (hm : m = effMethod method n) (hnv : v = effNorm norm m false) (hdiff : m ≠ "diff")
    (hn' : n' = delays false n (aout.cor.map List.length) (defaultN f.length t t))
    (h : ¬ AcorrRefused method norm n f.length t) (hd : Distinct t)
    (hs : Manageable false m f.length f.length t t n' fs fs aout) :
    ∃ r, acorrComplex f t n norm method aligned fs aout = .ok r ∧
      (WantsSquares v → ∃ s, r.sq = some s ∧
        Added false n' aout.sq (fun _ => selfSum (fun a b => a + b)
          (stream (fs.getD (f.map Cx.abs2)) t)) s) ∧
      (¬ WantsSquares v → r.sq = aout.sq) ∧
      (WantsSums v → ∃ s, r.ds1 = some s ∧
        Added false n' aout.ds1 (fun _ => selfSum (fun a b => (1 / 2 : ℝ) • (a + b))
          (stream f t)) s) ∧
      (¬ WantsSums v → r.ds1 = aout.ds1) := by
  -- the sums are those of `acorr` called with the same arrays
  obtain ⟨r', hr', -, -, h3, h4, h5, h6, -, -⟩ := C18_acorr_fields f t n norm method aligned fs
    ⟨aout.cor.map (List.map Cx.re), aout.count, aout.sq, aout.ds1, aout.ds2⟩ m v n' hm hnv
    (by rw [hn']; cases aout.cor <;> simp) h hd
    ⟨by have := hs.cor; cases e : aout.cor <;> simpa [e, fieldLen] using this,
      hs.count, hs.sq, hs.ds1, hs.ds2, hs.sq1, hs.sq2, hs.fft⟩
  have hkeep := h
  subst hm hnv
  obtain ⟨h1, h2, hva⟩ := not_refused_auto h
  have e1 := acorr_ok f t n norm method aligned fs
    ⟨aout.cor.map (List.map Cx.re), aout.count, aout.sq, aout.ds1, aout.ds2⟩ _ _ n' _ h1
    (defaultNorm_ok h2)
    hva rfl (by rw [hn']; cases aout.cor <;> simp) hs.sq1 (fun e => (hs.fft e).1)
    (fun e => by rintro rfl; exact (hs.fft e).2.2 rfl)
    (fun _ => by have := hs.cor; cases e : aout.cor <;> simpa [e, fieldLen] using this)
    (fun _ _ => hs.sq) (fun _ _ => hs.ds1)
  rw [hr'] at e1
  have e1 := Except.ok.inj e1
  refine ⟨_, acorrComplex_ok f t n norm method aligned fs aout _ _ n' _ h1 (defaultNorm_ok h2)
    hva rfl hn' hs.sq1 hdiff (fun e => (hs.fft e).1)
    (fun e => by rintro rfl; exact (hs.fft e).2.2 rfl) hs.cor (fun _ _ => hs.sq)
    (fun _ _ => hs.ds1), ?_, ?_, ?_, ?_⟩
  · intro hw
    have := h3 ⟨hw, hdiff⟩
    rw [e1] at this
    exact this
  · intro hw
    have := h4 hw hdiff
    rw [e1] at this
    exact this
  · intro hw
    have := h5 ⟨hw, hdiff⟩
    rw [e1] at this
    exact this
  · intro hw
    have := h6 hw hdiff
    rw [e1] at this
    exact this

/-- For manageable arrays `ccorr` raises ValueError exactly for the refused arguments. -/
theorem C18_ccorr_refuses_iff (f1 f2 : List (Cx ℝ)) (t1 t2 : Option (List Int)) (n : Option Nat)
    (norm : Option Int) (method : Option String) (aligned : Bool) (f1s f2s : Option (List ℝ))
    (aout : CorrAout ℝ)
    (hs : Manageable false (effMethod method n) f1.length f2.length t1 t2
      (delays false n (aout.cor.map List.length) (defaultN f1.length t1 t2)) f1s f2s aout) :
    ccorr f1 f2 t1 t2 n norm method aligned f1s f2s aout = .error .valueError ↔
      CcorrRefused false method norm n f1.length f2.length t1 t2 := by
  constructor
  · intro he
    by_contra h
    obtain ⟨r, hr, -⟩ := C18_ccorr_fields f1 f2 t1 t2 n norm method aligned f1s f2s aout _ _ _ rfl
      rfl rfl h hs
    rw [hr] at he
    exact absurd he (by simp)
  · exact C18_ccorr_refuses f1 f2 t1 t2 n norm method aligned f1s f2s aout

/-- Without `aout`: each sum field of an accepted call is present exactly when wanted. -/
theorem C18_ccorr_presence (f1 f2 : List (Cx ℝ)) (t1 t2 : Option (List Int)) (n : Option Nat)
    (norm : Option Int) (method : Option String) (aligned : Bool) (f1s f2s : Option (List ℝ))
    (m : String) (v : Int) (hm : m = effMethod method n) (hnv : v = effNorm norm m true)
    (h : ¬ CcorrRefused false method norm n f1.length f2.length t1 t2)
    (hs : Manageable false m f1.length f2.length t1 t2
      (n.getD (defaultN f1.length t1 t2)) f1s f2s ({} : CorrAout ℝ)) :
    ∃ r, ccorr f1 f2 t1 t2 n norm method aligned f1s f2s {} = .ok r ∧
      (r.sq.isSome ↔ WantsSquares v ∧ m ≠ "diff") ∧
      (r.ds1.isSome ↔ WantsSums v) ∧ (r.ds2.isSome ↔ WantsSums v) := by
  obtain ⟨r, hr, -, -, h1, h2, h3, h4, h5, h6⟩ := C18_ccorr_fields f1 f2 t1 t2 n norm method aligned
    f1s f2s {} m v _ hm hnv rfl h hs
  refine ⟨r, hr, ?_, ?_, ?_⟩
  · constructor
    · intro hsome
      by_contra hc
      by_cases hd : m = "diff"
      · rw [h3 hd] at hsome; simp at hsome
      · rw [h2 (fun hw => hc ⟨hw, hd⟩) hd] at hsome; simp at hsome
    · intro hw
      obtain ⟨s, e, -⟩ := h1 hw
      rw [e]; rfl
  · constructor
    · intro hsome
      by_contra hc
      rw [(h6 hc).1] at hsome; simp at hsome
    · intro hw
      obtain ⟨s, e, -⟩ := h4 hw
      rw [e]; rfl
  · constructor
    · intro hsome
      by_contra hc
      rw [(h6 hc).2] at hsome; simp at hsome
    · intro hw
      obtain ⟨s, e, -⟩ := h5 hw
      rw [e]; rfl

/-- Any default call (no `n`, no `aout`) on non-empty data without repeated times has manageable
arrays, whatever the method. -/
theorem manageable_default {C : Type} (full : Bool) (m : String) (N : Nat)
    (t1 t2 : Option (List Int)) (hN : N ≠ 0) (hd1 : Distinct t1) (hd2 : Distinct t2) :
    Manageable full m N N t1 t2 (defaultN N t1 t2) none none ({} : CorrAout C) := by
  have hpos : 1 ≤ defaultN N t1 t2 := by
    rcases t1 with _ | a <;> rcases t2 with _ | b <;> simp [defaultN] <;> omega
  have hL : SafeLen full m t1 (defaultN N t1 t2) (if full then 2 * defaultN N t1 t2 - 1
      else defaultN N t1 t2) := by
    refine ⟨?_, ?_, ?_⟩
    · rintro rfl; simp; omega
    · intro _; cases full <;> simp <;> omega
    · intro _; cases full
      · simp
      · simp; omega
  exact ⟨hL, hL, hL, hL, hL, by simp, by simp, fun _ => ⟨hd1, hd2, hN⟩⟩

example : Manageable false "fft" 3 3 (some [4, 0, 1]) (some [1, 5, 2]) 6 none none
    ({} : CorrAout ℝ) :=
  manageable_default false "fft" 3 (some [4, 0, 1]) (some [1, 5, 2]) (by decide)
    (by intro l h; rw [← Option.some.inj h]; decide) (by intro l h; rw [← Option.some.inj h]; decide)
example : ¬ CcorrRefused false none none none 3 3 (some [4, 0, 1]) (some [1, 5, 2]) := by
  simp [CcorrRefused, effMethod, effNorm, SupportedNorm, ValidCross]
example : CcorrRefused false (some "diff") (some 3) none 3 3 none none := by
  simp [CcorrRefused, effMethod, effNorm, SupportedNorm]
example : CcorrRefused false (some "fftt") none none 3 3 none none := by
  simp [CcorrRefused, effMethod]
example : CcorrRefused true (some "diff") (some 2) none 3 3 none none := by
  simp [CcorrRefused, effMethod]
example : AcorrRefused (some "diff") (some 6) none 3 none := by
  simp [AcorrRefused, effMethod, effNorm, SupportedNorm]
example : ¬ AcorrRefused none (some 7) (some 2) 3 (some [2, 0, 9]) := by
  simp [AcorrRefused, effMethod, effNorm, SupportedNorm, ValidAuto]

/-! ### C19 -/

theorem Spec.SafeLen.corr {full : Bool} {t : Option (List Int)} {D L : Nat}
    (h : SafeLen full "fft" t D L) : SafeLen full "corr" t D L :=
  ⟨h.1, by simp, fun _ => h.2.2 (Or.inl rfl)⟩

/-- `ccorr(method='fft')` and `ccorr(method='corr')` give the same result: the same five-tuple,
or the same refusal, for every norm. -/
theorem C19_ccorr (f1 f2 : List (Cx ℝ)) (t1 t2 : Option (List Int)) (n : Option Nat)
    (norm : Option Int) (al al' : Bool) (f1s f2s : Option (List ℝ)) (aout : CorrAout ℝ)
    (hs : Manageable false "fft" f1.length f2.length t1 t2
      (delays false n (aout.cor.map List.length) (defaultN f1.length t1 t2)) f1s f2s aout) :
    ccorr f1 f2 t1 t2 n norm (some "fft") al f1s f2s aout
      = ccorr f1 f2 t1 t2 n norm (some "corr") al' f1s f2s aout := by
  by_cases h : CcorrRefused false (some "fft") norm n f1.length f2.length t1 t2
  · rw [C18_ccorr_refuses _ _ _ _ _ _ _ _ _ _ _ h, C18_ccorr_refuses]
    simpa [CcorrRefused, effMethod, effNorm, SupportedNorm] using h
  · obtain ⟨h1, h2, -, h4⟩ := not_refused h
    rw [ccorr_ok f1 f2 t1 t2 n norm (some "fft") al f1s f2s aout "fft" _ _ _ rfl (defaultNorm_ok h2)
        h4 rfl rfl hs.sq1 hs.sq2 (fun _ => ⟨(hs.fft rfl).1, (hs.fft rfl).2.1⟩)
        (fun _ => by rintro rfl; exact (hs.fft rfl).2.2 rfl) hs.cor (fun _ _ => hs.sq)
        (fun _ => hs.ds1) (fun _ => hs.ds2),
      ccorr_ok f1 f2 t1 t2 n norm (some "corr") al' f1s f2s aout "corr" _ _ _ rfl (defaultNorm_ok h2)
        h4 rfl rfl hs.sq1 hs.sq2 (by simp) (by simp) hs.cor.corr (fun _ _ => hs.sq.corr)
        (fun _ => hs.ds1.corr) (fun _ => hs.ds2.corr)]
    simp [ccorrSpec, effNorm]

/-- The same for complex output. -/
theorem C19_ccorr_complex (f1 f2 : List (Cx ℝ)) (t1 t2 : Option (List Int)) (n : Option Nat)
    (norm : Option Int) (al al' : Bool) (f1s f2s : Option (List ℝ)) (aout : CorrAout (Cx ℝ))
    (hs : Manageable true "fft" f1.length f2.length t1 t2
      (delays true n (aout.cor.map List.length) (defaultN f1.length t1 t2)) f1s f2s aout) :
    ccorrComplex f1 f2 t1 t2 n norm (some "fft") al f1s f2s aout
      = ccorrComplex f1 f2 t1 t2 n norm (some "corr") al' f1s f2s aout := by
  by_cases h : CcorrRefused true (some "fft") norm n f1.length f2.length t1 t2
  · rw [C18_ccorr_complex_refuses _ _ _ _ _ _ _ _ _ _ _ h, C18_ccorr_complex_refuses]
    simpa [CcorrRefused, effMethod, effNorm, SupportedNorm] using h
  · obtain ⟨h1, h2, -, h4⟩ := not_refused h
    rw [ccorrComplex_ok f1 f2 t1 t2 n norm (some "fft") al f1s f2s aout "fft" _ _ _ rfl
        (defaultNorm_ok h2) (by decide)
        h4 rfl rfl hs.sq1 hs.sq2 (fun _ => ⟨(hs.fft rfl).1, (hs.fft rfl).2.1⟩)
        (fun _ => by rintro rfl; exact (hs.fft rfl).2.2 rfl) hs.cor (hs.count.1 rfl)
        (fun _ _ => hs.sq) (fun _ => hs.ds1) (fun _ => hs.ds2),
      ccorrComplex_ok f1 f2 t1 t2 n norm (some "corr") al' f1s f2s aout "corr" _ _ _ rfl
        (defaultNorm_ok h2) (by decide)
        h4 rfl rfl hs.sq1 hs.sq2 (by simp) (by simp) hs.cor.corr (hs.count.1 rfl)
        (fun _ _ => hs.sq.corr) (fun _ => hs.ds1.corr) (fun _ => hs.ds2.corr)]
    simp [ccorrSpec, effNorm]

/-- `acorr`: the two methods give the same result. -/
theorem C19_acorr (f : List (Cx ℝ)) (t : Option (List Int)) (n : Option Nat)
    (norm : Option Int) (al al' : Bool) (fs : Option (List ℝ)) (aout : CorrAout ℝ)
    (hs : Manageable false "fft" f.length f.length t t
      (delays false n (aout.cor.map List.length) (defaultN f.length t t)) fs fs aout) :
    acorr f t n norm (some "fft") al fs aout = acorr f t n norm (some "corr") al' fs aout := by
  by_cases h : AcorrRefused (some "fft") norm n f.length t
  · rw [C18_acorr_refuses _ _ _ _ _ _ _ _ h, C18_acorr_refuses]
    simpa [AcorrRefused, effMethod, effNorm, SupportedNorm] using h
  · obtain ⟨h1, h2, h4⟩ := not_refused_auto h
    rw [acorr_ok f t n norm (some "fft") al fs aout "fft" _ _ _ rfl (defaultNorm_ok h2)
        h4 rfl rfl hs.sq1 (fun _ => (hs.fft rfl).1)
        (fun _ => by rintro rfl; exact (hs.fft rfl).2.2 rfl) (fun _ => hs.cor) (fun _ _ => hs.sq)
        (fun _ _ => hs.ds1),
      acorr_ok f t n norm (some "corr") al' fs aout "corr" _ _ _ rfl (defaultNorm_ok h2)
        h4 rfl rfl hs.sq1 (by simp) (by simp) (by simp) (fun _ _ => hs.sq.corr)
        (fun _ _ => hs.ds1.corr)]
    simp [acorrSpec, effNorm]

theorem C19_acorr_complex (f : List (Cx ℝ)) (t : Option (List Int)) (n : Option Nat)
    (norm : Option Int) (al al' : Bool) (fs : Option (List ℝ)) (aout : CorrAout (Cx ℝ))
    (hs : Manageable false "fft" f.length f.length t t
      (delays false n (aout.cor.map List.length) (defaultN f.length t t)) fs fs aout) :
    acorrComplex f t n norm (some "fft") al fs aout
      = acorrComplex f t n norm (some "corr") al' fs aout := by
  by_cases h : AcorrRefused (some "fft") norm n f.length t
  · rw [C18_acorr_complex_refuses _ _ _ _ _ _ _ _ h, C18_acorr_complex_refuses]
    simpa [AcorrRefused, effMethod, effNorm, SupportedNorm] using h
  · obtain ⟨h1, h2, h4⟩ := not_refused_auto h
    rw [acorrComplex_ok f t n norm (some "fft") al fs aout "fft" _ _ _ rfl (defaultNorm_ok h2)
        h4 rfl rfl hs.sq1 (by decide) (fun _ => (hs.fft rfl).1)
        (fun _ => by rintro rfl; exact (hs.fft rfl).2.2 rfl) hs.cor (fun _ _ => hs.sq)
        (fun _ _ => hs.ds1),
      acorrComplex_ok f t n norm (some "corr") al' fs aout "corr" _ _ _ rfl (defaultNorm_ok h2)
        h4 rfl rfl hs.sq1 (by decide) (by simp) (by simp) hs.cor.corr (fun _ _ => hs.sq.corr)
        (fun _ _ => hs.ds1.corr)]
    simp [acorrSpec, effNorm]

/-- A call without optional arguments, whose method is chosen automatically, equals the direct
computation. -/
theorem C19_default (f1 f2 : List (Cx ℝ)) (t1 t2 : Option (List Int)) (al : Bool)
    (hlen : f1.length = f2.length) (hne : f1 ≠ []) (hd1 : Distinct t1) (hd2 : Distinct t2) :
    ccorr f1 f2 t1 t2 none none none al none none {}
      = ccorr f1 f2 t1 t2 none none (some "corr") al none none {} := by
  have := C19_ccorr f1 f2 t1 t2 none none al al none none {} (by
    rw [← hlen]
    exact manageable_default false "fft" f1.length t1 t2
      (fun h => hne (List.length_eq_zero_iff.mp h)) hd1 hd2)
  rw [← this]
  rfl

example : Distinct (some [4, 0, 1]) := by intro l h; rw [← Option.some.inj h]; decide

end Cddm
