import Verif.Spec.Conf
import Mathlib.Tactic.Common

/-!
# C63, C64: message levels and library selection
-/

namespace Cddm
open Spec

/-! ### C63 -/

theorem exec_natAbs (p : PrintCode) (v : Int) : (p.exec v).1.natAbs = v.natAbs := by
  induction p generalizing v with
  | stop => rfl
  | fail => rfl
  | message k next ih => exact ih v
  | region body next ihb ihn =>
    unfold PrintCode.exec
    dsimp only
    split
    · dsimp only
      rw [ihn]
      simp only [enablePrints, Int.natAbs_natCast]
      rw [ihb]
      simp [disablePrints]
    · rw [ihb]
      simp [disablePrints]

theorem exec_ok (p : PrintCode) (h : NoFail p) (v : Int) : (p.exec v).2.2 = true := by
  induction p generalizing v with
  | stop => rfl
  | fail => cases h
  | message k next ih => exact ih h v
  | region body next ihb ihn =>
    unfold PrintCode.exec
    dsimp only
    rw [if_pos (ihb h.1 _)]
    exact ihn h.2 _

/-- **C63** (the level is restored): after any code of properly nested regions that raises nothing, started at a
level `v ≥ 0`, the level is `v` again. -/
theorem C63_restored (p : PrintCode) (h : NoFail p) (v : Int) (hv : 0 ≤ v) : (p.exec v).1 = v := by
  induction p generalizing v with
  | stop => rfl
  | fail => cases h
  | message k next ih => exact ih h v hv
  | region body next ihb ihn =>
    unfold PrintCode.exec
    dsimp only
    rw [if_pos (exec_ok body h.1 _)]
    have e : (enablePrints (some (disablePrints v).1) (body.exec (disablePrints v).2).1).2 = v := by
      simp only [enablePrints]
      rw [exec_natAbs]
      simp only [disablePrints]
      omega
    simp only [e]
    exact ihn h.2 v hv

theorem exec_silent (p : PrintCode) (h : NoRegion p) (hl : Levels p) (v : Int) (hv : v ≤ 0) : (p.exec v).2.1 = [] := by
  induction p with
  | stop => rfl
  | fail => rfl
  | message k next ih =>
    unfold PrintCode.exec
    dsimp only
    have := hl.1
    rw [if_neg (by omega)]
    exact ih h hl.2
  | region body next ihb ihn => cases h

/-- **C63** (silence, for regions without regions inside): nothing is printed in them, at any level. -/
theorem C63_silent (body : PrintCode) (h : NoRegion body) (hl : Levels body) (hf : NoFail body) (v : Int) :
    (PrintCode.exec (.region body .stop) v).2.1 = [] := by
  unfold PrintCode.exec
  dsimp only
  rw [if_pos (exec_ok body hf _)]
  simp only [PrintCode.exec, List.append_nil]
  exact exec_silent body h hl _ (by simp [disablePrints])

/-- **C63** (the part that is true): for code whose regions are not nested and that raises nothing, from a level
`v ≥ 0`, the messages printed are exactly those outside the regions up to that level, and the level is restored.
Missing: nested regions, for which it is false (`C63_nested_refuted`). -/
theorem C63_flat_partial (p : PrintCode) (h : Flat p) (hl : Levels p) (hf : NoFail p) (v : Int) (hv : 0 ≤ v) :
    (p.exec v).2.1 = intended p v ∧ (p.exec v).1 = v := by
  refine ⟨?_, C63_restored p hf v hv⟩
  induction p with
  | stop => rfl
  | fail => rfl
  | message k next ih =>
    unfold PrintCode.exec intended
    dsimp only
    rw [ih h hl.2 hf]
  | region body next ihb ihn =>
    have h0 := C63_silent body h.1 hl.1 hf.1 v
    unfold PrintCode.exec at h0 ⊢
    unfold intended
    dsimp only at h0 ⊢
    rw [if_pos (exec_ok body hf.1 _)] at h0 ⊢
    have e : (enablePrints (some (disablePrints v).1) (body.exec (disablePrints v).2).1).2 = v := by
      simp only [enablePrints]
      rw [exec_natAbs]
      simp only [disablePrints]
      omega
    simp only [PrintCode.exec, List.append_nil] at h0
    simp only [e, h0, List.nil_append]
    exact ihn h.2 hl.2 hf.2

/-- **C63** (refuted for nested regions): after the inner region, the rest of the outer one prints, at every level
that prints. -/
theorem C63_nested_refuted (inner rest after : PrintCode) (hi : NoFail inner) (hr : NoFail rest) (v : Int)
    (k : Nat) (hk : (k : Int) ≤ v) :
    k ∈ (PrintCode.exec (.region (.region inner (.message k rest)) after) v).2.1 := by
  unfold PrintCode.exec
  dsimp only
  rw [if_pos (exec_ok (.region inner (.message k rest)) ⟨hi, hr⟩ _)]
  dsimp only
  apply List.mem_append_left
  unfold PrintCode.exec
  dsimp only
  rw [if_pos (exec_ok _ hi _)]
  dsimp only
  apply List.mem_append_right
  unfold PrintCode.exec
  dsimp only
  have e : (enablePrints (some (disablePrints (disablePrints v).2).1)
      (inner.exec (disablePrints (disablePrints v).2).2).1).2 = v := by
    simp only [enablePrints]
    rw [exec_natAbs]
    have : 0 ≤ v := by omega
    simp only [disablePrints]
    omega
  rw [e, if_pos hk]
  exact List.mem_cons_self

/-- **C63** (refuted for negative levels): a region started at a level below zero, as after an outer
`disable_prints`, ends at the opposite level. -/
theorem C63_negative_refuted (body : PrintCode) (hf : NoFail body) (v : Int) (hv : v < 0) :
    (PrintCode.exec (.region body .stop) v).1 = -v ∧ -v ≠ v := by
  refine ⟨?_, by omega⟩
  unfold PrintCode.exec
  dsimp only
  rw [if_pos (exec_ok body hf _)]
  simp only [PrintCode.exec, enablePrints]
  rw [exec_natAbs]
  simp only [disablePrints]
  omega

/-- **C63** (refuted with exceptions): an exception inside a region leaves the messages switched off. -/
theorem C63_exception_refuted (v : Int) (hv : 0 < v) : (PrintCode.exec (.region .fail .stop) v).1 = -v ∧ -v ≠ v := by
  refine ⟨?_, by omega⟩
  show -(v.natAbs : Int) = -v
  omega

/-- **C63** (`enable_prints(level)`): the argument is returned and otherwise ignored. -/
theorem C63_level_ignored (level v : Int) :
    (enablePrints (some level) v).1 = level ∧ (enablePrints (some level) v).2 = (enablePrints none v).2 :=
  ⟨rfl, rfl⟩

/-- **C63** (`set_verbose`): the old level is returned, the new one is never negative, and setting a level that
was not negative back restores it. -/
theorem C63_set_verbose (level v : Int) :
    (setVerbose level v).1 = v ∧ 0 ≤ (setVerbose level v).2 ∧ (0 ≤ level → (setVerbose level v).2 = level) ∧
    (0 ≤ v → (setVerbose (setVerbose level v).1 (setVerbose level v).2).2 = v) := by
  simp only [setVerbose]
  refine ⟨trivial, ?_, fun h => ?_, fun h => ?_⟩ <;> omega

/-- Two regions one after the other, with messages around them, at level 2. -/
example : (PrintCode.exec (.message 1 (.region (.message 1 (.message 2 .stop)) (.message 2
    (.region (.message 1 .stop) .stop)))) 2).2.1 = [1, 2] ∧
    (PrintCode.exec (.message 1 (.region (.message 1 (.message 2 .stop)) (.message 2
      (.region (.message 1 .stop) .stop)))) 2).1 = 2 :=
  C63_flat_partial (.message 1 (.region (.message 1 (.message 2 .stop)) (.message 2
    (.region (.message 1 .stop) .stop)))) (by simp [Flat, NoRegion]) (by simp [Levels]) (by simp [NoFail]) 2 (by decide)

/-- A nested region at level 1: the message after the inner one is printed. -/
example : 1 ∈ (PrintCode.exec (.region (.region .stop (.message 1 .stop)) .stop) 1).2.1 :=
  C63_nested_refuted .stop .stop .stop trivial trivial 1 1 (by decide)

/-! ### C64 -/

theorem fftlibFor_installed {inst : Installed} {name lib : String} (h : fftlibFor inst name = .ok (some lib)) :
    FftInstalled inst lib := by
  unfold fftlibFor at h
  unfold FftInstalled
  split_ifs at h with h1 h2 h3 h4 h5 h6 h7 <;> simp_all

theorem showlibFor_installed {inst : Installed} {name lib : String} (h : showlibFor inst name = .ok (some lib)) :
    ShowInstalled inst lib := by
  unfold showlibFor at h
  unfold ShowInstalled
  split_ifs at h with h1 h2 h3
  · cases h
  · cases h
  cases h
  by_cases a : name = "matplotlib"
  · exact Or.inl a
  · by_cases b : name = "cv2"
    · refine Or.inr (Or.inl ⟨b, ?_⟩)
      by_contra c
      exact h2 ⟨b, c⟩
    · have d : name = "pyqtgraph" := by
        by_contra d
        exact h1 ⟨a, b, d⟩
      refine Or.inr (Or.inr ⟨d, ?_⟩)
      by_contra c
      exact h3 ⟨d, c⟩

/-- **C64** (the selected libraries are installed): after every sequence of calls, whatever is installed. -/
theorem C64_installed (inst : Installed) (calls : List ConfCall) :
    let c := calls.foldl (ConfCall.run inst) Config.initial
    FftInstalled inst c.fftlib ∧ FftInstalled inst c.rfft2lib ∧ ShowInstalled inst c.showlib := by
  have key : ∀ (calls : List ConfCall) (c : Config),
      FftInstalled inst c.fftlib ∧ FftInstalled inst c.rfft2lib ∧ ShowInstalled inst c.showlib →
      FftInstalled inst (calls.foldl (ConfCall.run inst) c).fftlib ∧
      FftInstalled inst (calls.foldl (ConfCall.run inst) c).rfft2lib ∧
      ShowInstalled inst (calls.foldl (ConfCall.run inst) c).showlib := by
    intro calls
    induction calls with
    | nil => exact fun c h => h
    | cons a calls ih =>
      intro c h
      refine ih _ ?_
      obtain ⟨h1, h2, h3⟩ := h
      cases a with
      | fftlib name =>
        simp only [ConfCall.run, setFftlib]
        rcases e : fftlibFor inst name with e' | _ | lib
        · exact ⟨h1, h2, h3⟩
        · exact ⟨h1, h2, h3⟩
        · exact ⟨fftlibFor_installed e, h2, h3⟩
      | rfft2lib name =>
        simp only [ConfCall.run, setRfft2lib]
        rcases e : fftlibFor inst name with e' | _ | lib
        · exact ⟨h1, h2, h3⟩
        · exact ⟨h1, h2, h3⟩
        · exact ⟨h1, fftlibFor_installed e, h3⟩
      | showlib name =>
        simp only [ConfCall.run, setShowlib]
        rcases e : showlibFor inst name with e' | _ | lib
        · exact ⟨h1, h2, h3⟩
        · exact ⟨h1, h2, h3⟩
        · exact ⟨h1, h2, showlibFor_installed e⟩
      | verbose level => exact ⟨h1, h2, h3⟩
  exact key calls Config.initial ⟨Or.inl rfl, Or.inl rfl, Or.inl rfl⟩

/-- **C64** (the transforms and the display use the selected library): with an installed library every function finds
its branch, and no name is missing. -/
theorem C64_dispatch (inst : Installed) (calls : List ConfCall) :
    let c := calls.foldl (ConfCall.run inst) Config.initial
    fftBranch inst c.fftlib = .ok (some c.fftlib) ∧ ifftBranch inst c.fftlib = .ok (some c.fftlib) ∧
    rfft2Branch inst c.rfft2lib = .ok (some c.rfft2lib) ∧ showBranch inst c.showlib = .ok c.showlib ∧
    pauseBranch inst c.showlib = .ok c.showlib := by
  intro c
  obtain ⟨h1, h2, h3⟩ : FftInstalled inst c.fftlib ∧ FftInstalled inst c.rfft2lib ∧ ShowInstalled inst c.showlib :=
    C64_installed inst calls
  refine ⟨?_, ?_, ?_, ?_, ?_⟩
  · rcases h1 with h | ⟨h, i⟩ | ⟨h, i⟩ | ⟨h, i⟩ <;> rw [h] <;> simp [fftBranch, *]
  · rcases h1 with h | ⟨h, i⟩ | ⟨h, i⟩ | ⟨h, i⟩ <;> rw [h] <;> simp [ifftBranch, *]
  · rcases h2 with h | ⟨h, i⟩ | ⟨h, i⟩ | ⟨h, i⟩ <;> rw [h] <;> simp [rfft2Branch, *]
  · rcases h3 with h | ⟨h, i⟩ | ⟨h, i⟩ <;> rw [h] <;> simp [showBranch, *]
  · rcases h3 with h | ⟨h, i⟩ | ⟨h, i⟩ <;> rw [h] <;> simp [pauseBranch, *]

/-- **C64** (invalid names): a name that is none of those accepted raises `ValueError` and changes nothing. -/
theorem C64_invalid (inst : Installed) (c : Config) (name : String) :
    (name ∉ fftNames → setFftlib inst c name = (c, .error .valueError) ∧
      setRfft2lib inst c name = (c, .error .valueError)) ∧
    (name ∉ showNames → setShowlib inst c name = (c, .error .valueError)) := by
  refine ⟨fun h => ?_, fun h => ?_⟩
  · have : fftlibFor inst name = .error .valueError := by
      simp only [fftNames, List.mem_cons, List.not_mem_nil, or_false, not_or] at h
      unfold fftlibFor
      simp [h]
    unfold setFftlib setRfft2lib
    rw [this]
    exact ⟨rfl, rfl⟩
  · have : showlibFor inst name = .error .valueError := by
      simp only [showNames, List.mem_cons, List.not_mem_nil, or_false, not_or] at h
      unfold showlibFor
      simp [h]
    unfold setShowlib
    rw [this]

/-- **C64** (valid names): every accepted name gives no exception, returns the previous value, and either selects the
library of that name or, if it is not installed, warns and changes nothing. -/
theorem C64_fftlib (inst : Installed) (c : Config) (name : String) (h : name ∈ fftNames) :
    ∃ lib, (name = "mkl_fft" ∧ lib = "mkl_fft" ∨ (name = "scipy.fftpack" ∨ name = "scipy") ∧ lib = "scipy" ∨
        (name = "numpy.fft" ∨ name = "numpy") ∧ lib = "numpy" ∨ name = "pyfftw" ∧ lib = "pyfftw") ∧
      (FftInstalled inst lib → setFftlib inst c name = ({ c with fftlib := lib }, .ok (c.fftlib, false)) ∧
        setRfft2lib inst c name = ({ c with rfft2lib := lib }, .ok (c.rfft2lib, false))) ∧
      (¬ FftInstalled inst lib → setFftlib inst c name = (c, .ok (c.fftlib, true)) ∧
        setRfft2lib inst c name = (c, .ok (c.rfft2lib, true))) := by
  simp only [fftNames, List.mem_cons, List.not_mem_nil, or_false] at h
  rcases h with rfl | rfl | rfl | rfl | rfl | rfl
  · refine ⟨"mkl_fft", Or.inl ⟨rfl, rfl⟩, fun hi => ?_, fun hi => ?_⟩ <;> simp [FftInstalled] at hi <;>
      simp [setFftlib, setRfft2lib, fftlibFor, hi]
  · refine ⟨"scipy", by simp, fun hi => ?_, fun hi => ?_⟩ <;> simp [FftInstalled] at hi <;>
      simp [setFftlib, setRfft2lib, fftlibFor, hi]
  · refine ⟨"scipy", by simp, fun hi => ?_, fun hi => ?_⟩ <;> simp [FftInstalled] at hi <;>
      simp [setFftlib, setRfft2lib, fftlibFor, hi]
  · refine ⟨"numpy", by simp, fun hi => ?_, fun hi => ?_⟩
    · simp [setFftlib, setRfft2lib, fftlibFor]
    · simp [FftInstalled] at hi
  · refine ⟨"numpy", by simp, fun hi => ?_, fun hi => ?_⟩
    · simp [setFftlib, setRfft2lib, fftlibFor]
    · simp [FftInstalled] at hi
  · refine ⟨"pyfftw", by simp, fun hi => ?_, fun hi => ?_⟩ <;> simp [FftInstalled] at hi <;>
      simp [setFftlib, setRfft2lib, fftlibFor, hi]

/-- **C64** (valid names of display libraries). -/
theorem C64_showlib (inst : Installed) (c : Config) (name : String) (h : name ∈ showNames) :
    (ShowInstalled inst name → setShowlib inst c name = ({ c with showlib := name }, .ok (c.showlib, false))) ∧
    (¬ ShowInstalled inst name → setShowlib inst c name = (c, .ok (c.showlib, true))) := by
  simp only [showNames, List.mem_cons, List.not_mem_nil, or_false] at h
  rcases h with rfl | rfl | rfl
  · refine ⟨fun hi => ?_, fun hi => ?_⟩
    · simp [setShowlib, showlibFor]
    · simp [ShowInstalled] at hi
  · refine ⟨fun hi => ?_, fun hi => ?_⟩ <;> simp [ShowInstalled] at hi <;> simp [setShowlib, showlibFor, hi]
  · refine ⟨fun hi => ?_, fun hi => ?_⟩ <;> simp [ShowInstalled] at hi <;> simp [setShowlib, showlibFor, hi]

/-- **C64** (restoring): if a setter returns `old` then calling it again with `old` gives back the configuration there
was before, for every configuration that can be reached. -/
theorem C64_restore (inst : Installed) (calls : List ConfCall) (name old : String) (w : Bool) :
    let c := calls.foldl (ConfCall.run inst) Config.initial
    ((setFftlib inst c name).2 = .ok (old, w) → (setFftlib inst (setFftlib inst c name).1 old).1 = c) ∧
    ((setRfft2lib inst c name).2 = .ok (old, w) → (setRfft2lib inst (setRfft2lib inst c name).1 old).1 = c) ∧
    ((setShowlib inst c name).2 = .ok (old, w) → (setShowlib inst (setShowlib inst c name).1 old).1 = c) := by
  intro c
  obtain ⟨h1, h2, h3⟩ : FftInstalled inst c.fftlib ∧ FftInstalled inst c.rfft2lib ∧ ShowInstalled inst c.showlib :=
    C64_installed inst calls
  generalize c = c at h1 h2 h3
  have fix : ∀ lib, FftInstalled inst lib → fftlibFor inst lib = .ok (some lib) := by
    intro lib h
    rcases h with h | ⟨h, i⟩ | ⟨h, i⟩ | ⟨h, i⟩ <;> rw [h] <;> simp [fftlibFor, *]
  have fixs : ∀ lib, ShowInstalled inst lib → showlibFor inst lib = .ok (some lib) := by
    intro lib h
    rcases h with h | ⟨h, i⟩ | ⟨h, i⟩ <;> rw [h] <;> simp [showlibFor, *]
  refine ⟨fun h => ?_, fun h => ?_, fun h => ?_⟩
  · have ho : old = c.fftlib := by
      unfold setFftlib at h
      rcases e : fftlibFor inst name with e' | _ | lib <;> rw [e] at h <;> simp at h
      · exact h.1.symm
      · exact h.1.symm
    subst ho
    unfold setFftlib
    rw [fix _ h1]
    rcases fftlibFor inst name with e' | _ | lib <;> rfl
  · have ho : old = c.rfft2lib := by
      unfold setRfft2lib at h
      rcases e : fftlibFor inst name with e' | _ | lib <;> rw [e] at h <;> simp at h
      · exact h.1.symm
      · exact h.1.symm
    subst ho
    unfold setRfft2lib
    rw [fix _ h2]
    rcases fftlibFor inst name with e' | _ | lib <;> rfl
  · have ho : old = c.showlib := by
      unfold setShowlib at h
      rcases e : showlibFor inst name with e' | _ | lib <;> rw [e] at h <;> simp at h
      · exact h.1.symm
      · exact h.1.symm
    subst ho
    unfold setShowlib
    rw [fixs _ h3]
    rcases showlibFor inst name with e' | _ | lib <;> rfl

/-- **C64** (verbosity): never negative after any sequence of these calls. -/
theorem C64_verbose (inst : Installed) (calls : List ConfCall) :
    0 ≤ (calls.foldl (ConfCall.run inst) Config.initial).verbose := by
  have key : ∀ (calls : List ConfCall) (c : Config), 0 ≤ c.verbose →
      0 ≤ (calls.foldl (ConfCall.run inst) c).verbose := by
    intro calls
    induction calls with
    | nil => exact fun c h => h
    | cons a calls ih =>
      intro c h
      refine ih _ ?_
      cases a with
      | fftlib name => simp only [ConfCall.run, setFftlib]; rcases fftlibFor inst name with e' | _ | lib <;> exact h
      | rfft2lib name => simp only [ConfCall.run, setRfft2lib]; rcases fftlibFor inst name with e' | _ | lib <;> exact h
      | showlib name => simp only [ConfCall.run, setShowlib]; rcases showlibFor inst name with e' | _ | lib <;> exact h
      | verbose level => exact (C63_set_verbose level c.verbose).2.1
  exact key calls _ (Int.le_refl _)

/-- A history in which only scipy is installed. -/
example : ([ConfCall.fftlib "mkl_fft", .fftlib "scipy.fftpack", .rfft2lib "pyfftw", .showlib "cv2", .fftlib "nonsense",
    .verbose 2].foldl (ConfCall.run ⟨false, true, false, false, false⟩) Config.initial) =
    ⟨"numpy", "scipy", 2, "matplotlib"⟩ := by decide

/-- And the setting made there can be taken back. -/
example : (setFftlib ⟨false, true, false, false, false⟩ Config.initial "scipy").2 = .ok ("numpy", false) ∧
    (setFftlib ⟨false, true, false, false, false⟩ (setFftlib ⟨false, true, false, false, false⟩ Config.initial
      "scipy").1 "numpy").1 = Config.initial := ⟨rfl, (C64_restore ⟨false, true, false, false, false⟩ [] "scipy" "numpy" false).1 rfl⟩

end Cddm
