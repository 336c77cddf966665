import Verif.Props.Conf
import Verif.Spec.ConfStart

/-!
# C104-C106: what the import of the configuration decides
-/

namespace Cddm
open Spec

/-! ### C104: compile-time settings -/

theorem decided_readEnviron (v : EnvVar) (opt : Option Bool) (dflt : Bool) :
    Decided v opt dflt (readEnviron v (readConfig opt dflt) != 0) := by
  unfold Decided readEnviron readConfig
  cases v <;> cases opt <;> cases dflt <;> simp
  all_goals rename_i b; cases b <;> simp

/-- A switch has one value. -/
theorem decided_unique {v : EnvVar} {opt : Option Bool} {dflt b c : Bool} (h : Decided v opt dflt b)
    (h' : Decided v opt dflt c) : b = c := by
  unfold Decided at h h'
  cases v <;> cases opt <;> cases b <;> cases c <;> simp_all

/-- **C104** (switches): parallel compilation, fast mathematics and double precision are each decided by the environment, else
by the file, else by the default (no, no, yes); the target agrees with the parallel switch. -/
theorem C104_switches (env : Environ) (ini : IniFile) :
    Decided env.parallel ini.parallel false (numbaParallel env ini) ∧
    (numbaTarget env ini = if numbaParallel env ini then "parallel" else "cpu") ∧
    Decided env.fastmath ini.fastmath false (numbaFastmath env ini) ∧
    Decided env.double ini.double true ((arrayTypes env ini).2 == "double") := by
  have a := decided_readEnviron env.parallel ini.parallel false
  have b := decided_readEnviron env.fastmath ini.fastmath false
  have c := decided_readEnviron env.double ini.double true
  refine ⟨?_, ?_, ?_, ?_⟩
  · unfold numbaParallel wantsParallel
    convert a using 1
    split_ifs with h
    · exact h.symm
    · exact (Bool.not_eq_true _ ▸ h).symm
  · unfold numbaTarget numbaParallel
    split_ifs <;> simp_all
  · unfold numbaFastmath
    convert b using 1
    split_ifs with h <;> simp [h]
    simpa using h
  · unfold arrayTypes
    convert c using 1
    split_ifs with h <;> simp [h]
    simpa using h

/-- **C104** (precision): the types of arrays and those of the compiled functions, decided at two places, agree; they are all
double or all single, a complex number having two floats. -/
theorem C104_precision (env : Environ) (ini : IniFile) :
    let t := (arrayTypes env ini).1
    compiledTypes env ini = t ∧ t.complex = 2 * t.float ∧ t.unsigned = t.float ∧ t.signed = t.float ∧
    ((arrayTypes env ini).2 = "double" ∧ t.float = 64 ∨ (arrayTypes env ini).2 = "single" ∧ t.float = 32) := by
  unfold arrayTypes compiledTypes
  split_ifs <;> simp

/-- **C104** (cache): compiled functions are cached if that is asked for and, with parallel compilation, numba is of a version
0.45 to 0.x; versions from 1.0 are missing (`C104_cache_refuted`). -/
theorem C104_cache_partial (env : Environ) (ini : IniFile) (version : Option (Nat × Nat)) :
    ∃ asked, Decided env.cache ini.cache true asked ∧
      (numbaCache env ini version = true ↔
        asked = true ∧ (numbaParallel env ini = false ∨
          ∃ major minor, version = some (major, minor) ∧ AtLeast045 major minor ∧ major = 0)) := by
  refine ⟨_, decided_readEnviron env.cache ini.cache true, ?_⟩
  unfold numbaCache numba045 AtLeast045
  rcases version with _ | ⟨major, minor⟩ <;> cases numbaParallel env ini <;> simp

/-- **C104** (cache, full statement refuted): numba 1.0 counts as older than 0.45. -/
theorem C104_cache_refuted :
    ¬ ∀ (env : Environ) (ini : IniFile) (major minor : Nat) (asked : Bool), Decided env.cache ini.cache true asked →
      (numbaCache env ini (some (major, minor)) = true ↔
        asked = true ∧ (numbaParallel env ini = false ∨ AtLeast045 major minor)) := by
  intro h
  have := (h ⟨.number 1, .missing, .missing, .missing⟩ ⟨none, none, none, none, none, none, none, none, none, none⟩ 1 0 true
    (Or.inr ⟨by simp, Or.inr ⟨rfl, rfl⟩⟩)).2 ⟨rfl, Or.inr (Or.inl (by decide))⟩
  revert this
  decide

/-- A file that asks for parallel compilation and an environment that forbids it. -/
example :
    let env : Environ := ⟨.number 0, .notInteger, .missing, .number 0⟩
    let ini : IniFile := ⟨some true, some false, none, some true, none, none, none, none, none, none⟩
    numbaTarget env ini = "cpu" ∧ numbaCache env ini (some (0, 50)) = false ∧ (arrayTypes env ini).2 = "single" := by
  decide

/-! ### C105: run-time settings -/

theorem setFftlib_ok {inst : Installed} {c : Config} {name : String} :
    (∃ r, (setFftlib inst c name).2 = .ok r) ↔ name ∈ fftNames := by
  constructor
  · rintro ⟨r, h⟩
    by_contra hn
    rw [((C64_invalid inst c name).1 hn).1] at h
    cases h
  · intro h
    obtain ⟨lib, _, h1, h2⟩ := C64_fftlib inst c name h
    by_cases hi : FftInstalled inst lib
    · exact ⟨_, by rw [(h1 hi).1]⟩
    · exact ⟨_, by rw [(h2 hi).1]⟩

theorem setRfft2lib_ok {inst : Installed} {c : Config} {name : String} :
    (∃ r, (setRfft2lib inst c name).2 = .ok r) ↔ name ∈ fftNames := by
  constructor
  · rintro ⟨r, h⟩
    by_contra hn
    rw [((C64_invalid inst c name).1 hn).2] at h
    cases h
  · intro h
    obtain ⟨lib, _, h1, h2⟩ := C64_fftlib inst c name h
    by_cases hi : FftInstalled inst lib
    · exact ⟨_, by rw [(h1 hi).2]⟩
    · exact ⟨_, by rw [(h2 hi).2]⟩

theorem setShowlib_ok {inst : Installed} {c : Config} {name : String} :
    (∃ r, (setShowlib inst c name).2 = .ok r) ↔ name ∈ showNames := by
  constructor
  · rintro ⟨r, h⟩
    by_contra hn
    rw [(C64_invalid inst c name).2 hn] at h
    cases h
  · intro h
    by_cases hi : ShowInstalled inst name
    · exact ⟨_, by rw [(C64_showlib inst c name h).1 hi]⟩
    · exact ⟨_, by rw [(C64_showlib inst c name h).2 hi]⟩

theorem readConfig_fft_mem {opt : Option String} {d : String} (hd : d ∈ fftNames) :
    readConfig opt d ∈ fftNames ↔ NameAccepted fftNames opt := by
  unfold readConfig NameAccepted
  cases opt <;> simp [hd]

theorem readConfig_show_mem {opt : Option String} {d : String} (hd : d ∈ showNames) :
    readConfig opt d ∈ showNames ↔ NameAccepted showNames opt := by
  unfold readConfig NameAccepted
  cases opt <;> simp [hd]

theorem dfltFft_mem (inst : Installed) : (if inst.mkl then "mkl_fft" else "numpy") ∈ fftNames := by
  cases inst.mkl <;> decide

theorem dfltShow_mem (inst : Installed) : (if inst.cv2 then "cv2" else "matplotlib") ∈ showNames := by
  cases inst.cv2 <;> decide

/-- **C105.** The number of cores found is at least one: what the system reports, if that is positive; otherwise what the variable
`NUMBER_OF_PROCESSORS` says, if that is positive; otherwise one. -/
theorem C105_cores (m : Machine) :
    (∀ n, detectCores m = .ok n → 1 ≤ n) ∧
    (m.hasSysconf = true → m.knowsOnline = true → 0 < m.online → detectCores m = .ok m.online) ∧
    (m.hasSysconf = false ∨ (m.knowsOnline = true ∧ m.online ≤ 0) → ∀ k, m.processors = .number k →
      detectCores m = .ok (max k 1)) ∧
    (m.hasSysconf = false ∨ (m.knowsOnline = true ∧ m.online ≤ 0) → m.processors = .missing → detectCores m = .ok 1) ∧
    (m.hasSysconf = false ∨ (m.knowsOnline = true ∧ m.online ≤ 0) → m.processors = .notInteger →
      detectCores m = .error .valueError) ∧
    (m.hasSysconf = true → m.knowsOnline = false → detectCores m = .error .attributeError) := by
  have key : ∀ k : Int, (if 0 < k then k else 1) = max k 1 := by
    intro k
    split_ifs <;> omega
  refine ⟨?_, ?_, ?_, ?_, ?_, ?_⟩
  · intro n h
    unfold detectCores at h
    split_ifs at h with h1 h2
    · cases h
      omega
    · split at h
      · cases h; omega
      · cases h
      · cases h
        rw [key]
        omega
  · intro h1 h2 h3
    simp [detectCores, h1, h2, h3]
  all_goals intro h
  · intro k hk
    rcases h with h | ⟨h, h'⟩
    · simp [detectCores, h, hk, key]
    · have : ¬ 0 < m.online := by omega
      simp [detectCores, h, hk, key, this]
  · intro hk
    rcases h with h | ⟨h, h'⟩
    · simp [detectCores, h, hk]
    · have : ¬ 0 < m.online := by omega
      simp [detectCores, h, hk, this]
  · intro hk
    rcases h with h | ⟨h, h'⟩
    · simp [detectCores, h, hk]
    · have : ¬ 0 < m.online := by omega
      simp [detectCores, h, hk, this]
  · intro h2
    simp [detectCores, h, h2]

/-- The number of threads: out of range is an AttributeError. -/
theorem startNumba_ok {m : Machine} {most : Int} {opt : Option Int} {cores : Int} (h : detectCores m = .ok cores) :
    startNumba m most opt = if 1 ≤ readConfig opt cores ∧ readConfig opt cores ≤ most then .ok (readConfig opt cores)
      else .error .attributeError := by
  unfold startNumba numbaSetThreads
  rw [h]
  dsimp only
  by_cases hc : readConfig opt cores < 1 ∨ most < readConfig opt cores
  · rw [if_pos hc, if_neg (by omega)]
  · rw [if_neg hc, if_pos (by omega)]

/-- **C105** (when the import succeeds): exactly if the names in the file are among those accepted, the number of processors
can be determined, and the number of threads for numba is between 1 and the number that numba has started. -/
theorem C105_succeeds (inst : Installed) (m : Machine) (most : Int) (ini : IniFile) :
    (∃ s, startSettings inst m most ini = .ok s) ↔
      NameAccepted fftNames ini.fftlib ∧ NameAccepted fftNames ini.rfft2lib ∧ NameAccepted showNames ini.showlib ∧
      ∃ cores, detectCores m = .ok cores ∧ 1 ≤ ini.numbaThreads.getD cores ∧ ini.numbaThreads.getD cores ≤ most := by
  rw [← readConfig_fft_mem (opt := ini.fftlib) (dfltFft_mem inst),
    ← readConfig_fft_mem (opt := ini.rfft2lib) (d := "numpy") (by decide),
    ← readConfig_show_mem (opt := ini.showlib) (dfltShow_mem inst)]
  constructor
  · rintro ⟨s, h⟩
    unfold startSettings at h
    dsimp only at h
    split at h
    · cases h
    rename_i r1 h1
    split at h
    · cases h
    rename_i r2 h2
    split at h
    · cases h
    rename_i r3 h3
    split at h
    · cases h
    rename_i cores hc
    refine ⟨setFftlib_ok.1 ⟨_, h1⟩, setRfft2lib_ok.1 ⟨_, h2⟩, setShowlib_ok.1 ⟨_, h3⟩, cores, hc, ?_⟩
    rw [startNumba_ok hc] at h
    by_cases hn : 1 ≤ readConfig ini.numbaThreads cores ∧ readConfig ini.numbaThreads cores ≤ most
    · exact hn
    · rw [if_neg hn] at h
      cases h
  · rintro ⟨h1, h2, h3, cores, hc, hn⟩
    obtain ⟨r1, e1⟩ := setFftlib_ok (c := Config.initial).2 h1
    unfold startSettings
    dsimp only
    rw [e1]
    dsimp only
    obtain ⟨r2, e2⟩ := setRfft2lib_ok
      (c := (setFftlib inst Config.initial (readConfig ini.fftlib (if inst.mkl then "mkl_fft" else "numpy"))).1).2 h2
    rw [e2]
    dsimp only
    obtain ⟨r3, e3⟩ := setShowlib_ok (inst := inst) (c := { (setRfft2lib inst (setFftlib inst Config.initial
      (readConfig ini.fftlib (if inst.mkl then "mkl_fft" else "numpy"))).1 (readConfig ini.rfft2lib "numpy")).1 with
      verbose := (setVerbose (readConfig ini.verbose 0) (setRfft2lib inst (setFftlib inst Config.initial
      (readConfig ini.fftlib (if inst.mkl then "mkl_fft" else "numpy"))).1
        (readConfig ini.rfft2lib "numpy")).1.verbose).2 }).2 h3
    rw [e3]
    dsimp only
    rw [startNumba_ok hc]
    have hn' : 1 ≤ readConfig ini.numbaThreads cores ∧ readConfig ini.numbaThreads cores ≤ most := hn
    rw [if_pos hn', hc]
    exact ⟨_, rfl⟩

/-- The library after one call of a setter. -/
theorem setFftlib_lib {inst : Installed} {c : Config} {name lib : String} (hl : NamesFft name lib) :
    (FftInstalled inst lib → (setFftlib inst c name).1 = { c with fftlib := lib } ∧
      (setRfft2lib inst c name).1 = { c with rfft2lib := lib }) ∧
    (¬ FftInstalled inst lib → (setFftlib inst c name).1 = c ∧ (setRfft2lib inst c name).1 = c) := by
  have hm : name ∈ fftNames := by
    unfold NamesFft at hl
    rcases hl with ⟨rfl, _⟩ | ⟨rfl | rfl, _⟩ | ⟨rfl | rfl, _⟩ | ⟨rfl, _⟩ <;> decide
  obtain ⟨lib', hl', h1, h2⟩ := C64_fftlib inst c name hm
  have e : lib' = lib := by
    unfold NamesFft at hl
    rcases hl with ⟨rfl, rfl⟩ | ⟨rfl | rfl, rfl⟩ | ⟨rfl | rfl, rfl⟩ | ⟨rfl, rfl⟩ <;> simpa using hl'
  subst e
  exact ⟨fun h => ⟨by rw [(h1 h).1], by rw [(h1 h).2]⟩, fun h => ⟨by rw [(h2 h).1], by rw [(h2 h).2]⟩⟩

/-- The setter of one library leaves the other settings alone. -/
theorem setters_frame (inst : Installed) (c : Config) (name : String) :
    ((setFftlib inst c name).1.rfft2lib = c.rfft2lib ∧ (setFftlib inst c name).1.showlib = c.showlib) ∧
    ((setRfft2lib inst c name).1.fftlib = c.fftlib ∧ (setRfft2lib inst c name).1.showlib = c.showlib) ∧
    ((setShowlib inst c name).1.fftlib = c.fftlib ∧ (setShowlib inst c name).1.rfft2lib = c.rfft2lib ∧
      (setShowlib inst c name).1.verbose = c.verbose) := by
  refine ⟨?_, ?_, ?_⟩
  · unfold setFftlib
    rcases fftlibFor inst name with e | _ | l <;> simp
  · unfold setRfft2lib
    rcases fftlibFor inst name with e | _ | l <;> simp
  · unfold setShowlib
    rcases showlibFor inst name with e | _ | l <;> simp

/-- **C105** (the settings after the import): a library that the file names is used if it is installed, and numpy or matplotlib
if not; with no name in the file the FFT is that of `mkl_fft` and the display `cv2` where installed.  The level of messages is
not negative, and the numbers of threads are those of the file or that of the processors. -/
theorem C105_settings (inst : Installed) (m : Machine) (most : Int) (ini : IniFile) (s : Started)
    (h : startSettings inst m most ini = .ok s) :
    (ini.fftlib = none → s.libs.fftlib = if inst.mkl then "mkl_fft" else "numpy") ∧
    (∀ name lib, ini.fftlib = some name → NamesFft name lib →
      (FftInstalled inst lib → s.libs.fftlib = lib) ∧ (¬ FftInstalled inst lib → s.libs.fftlib = "numpy")) ∧
    (ini.rfft2lib = none → s.libs.rfft2lib = "numpy") ∧
    (∀ name lib, ini.rfft2lib = some name → NamesFft name lib →
      (FftInstalled inst lib → s.libs.rfft2lib = lib) ∧ (¬ FftInstalled inst lib → s.libs.rfft2lib = "numpy")) ∧
    (ini.showlib = none → s.libs.showlib = if inst.cv2 then "cv2" else "matplotlib") ∧
    (∀ name, ini.showlib = some name →
      (ShowInstalled inst name → s.libs.showlib = name) ∧ (¬ ShowInstalled inst name → s.libs.showlib = "matplotlib")) ∧
    (0 ≤ s.libs.verbose ∧ (∀ k, ini.verbose = some k → 0 ≤ k → s.libs.verbose = k) ∧
      (ini.verbose = none → s.libs.verbose = 0)) ∧
    ∃ cores, detectCores m = .ok cores ∧
      (∀ k, ini.fftThreads = some k → s.fftThreads = k) ∧ (ini.fftThreads = none → s.fftThreads = cores) ∧
      (∀ k, ini.numbaThreads = some k → s.numbaThreads = k) ∧ (ini.numbaThreads = none → s.numbaThreads = cores) := by
  have hsome := (C105_succeeds inst m most ini).1 ⟨s, h⟩
  obtain ⟨-, -, hshow, -⟩ := hsome
  unfold startSettings at h
  dsimp only at h
  split at h
  · cases h
  split at h
  · cases h
  split at h
  · cases h
  split at h
  · cases h
  rename_i cores hc
  rw [startNumba_ok hc] at h
  by_cases hn : 1 ≤ readConfig ini.numbaThreads cores ∧ readConfig ini.numbaThreads cores ≤ most
  swap
  · rw [if_neg hn] at h
    cases h
  rw [if_pos hn] at h
  obtain rfl := Except.ok.inj h
  refine ⟨fun e => ?_, fun name lib e hl => ?_, fun e => ?_, fun name lib e hl => ?_, fun e => ?_, fun name e => ?_,
    ⟨?_, fun k e hk => ?_, fun e => ?_⟩, cores, hc, fun k e => ?_, fun e => ?_, fun k e => ?_, fun e => ?_⟩
  · rw [(setters_frame inst _ _).2.2.1]
    show (setRfft2lib _ _ _).1.fftlib = _
    rw [(setters_frame inst _ _).2.1.1, e]
    show (setFftlib inst Config.initial (if inst.mkl then "mkl_fft" else "numpy")).1.fftlib = _
    cases hm : inst.mkl <;> simp [setFftlib, fftlibFor, hm]
  · rw [(setters_frame inst _ _).2.2.1]
    show ((_ → (setRfft2lib _ _ _).1.fftlib = _) ∧ (_ → (setRfft2lib _ _ _).1.fftlib = _))
    rw [(setters_frame inst _ _).2.1.1, e]
    show ((_ → (setFftlib inst Config.initial name).1.fftlib = _) ∧ (_ → (setFftlib inst Config.initial name).1.fftlib = _))
    exact ⟨fun hi => by rw [((setFftlib_lib hl).1 hi).1], fun hi => by rw [((setFftlib_lib hl).2 hi).1]; rfl⟩
  · rw [(setters_frame inst _ _).2.2.2.1, e]
    simp [readConfig, setRfft2lib, fftlibFor]
  · rw [(setters_frame inst _ _).2.2.2.1, e]
    simp only [readConfig, Option.getD_some]
    refine ⟨fun hi => by rw [((setFftlib_lib hl).1 hi).2], fun hi => ?_⟩
    rw [((setFftlib_lib hl).2 hi).2, (setters_frame inst _ _).1.1]
    rfl
  · rw [e]
    cases hm : inst.cv2 <;> simp [readConfig, setShowlib, showlibFor, hm]
  · have hmem := hshow name e
    rw [e]
    simp only [readConfig, Option.getD_some]
    refine ⟨fun hi => by rw [(C64_showlib inst _ name hmem).1 hi], fun hi => ?_⟩
    rw [(C64_showlib inst _ name hmem).2 hi]
    show (setRfft2lib _ _ _).1.showlib = _
    rw [(setters_frame inst _ _).2.1.2, (setters_frame inst _ _).1.2]
    rfl
  · rw [(setters_frame inst _ _).2.2.2.2]
    show 0 ≤ max 0 (readConfig ini.verbose 0)
    omega
  · rw [(setters_frame inst _ _).2.2.2.2, e]
    show max 0 k = k
    omega
  · rw [(setters_frame inst _ _).2.2.2.2, e]
    rfl
  all_goals
    show readConfig _ _ = _
    rw [e]
    rfl

/-- **C105** (the libraries selected are installed), whatever the file says. -/
theorem C105_installed (inst : Installed) (m : Machine) (most : Int) (ini : IniFile) (s : Started)
    (h : startSettings inst m most ini = .ok s) :
    FftInstalled inst s.libs.fftlib ∧ FftInstalled inst s.libs.rfft2lib ∧ ShowInstalled inst s.libs.showlib := by
  have key := C64_installed inst
    [.fftlib (readConfig ini.fftlib (if inst.mkl then "mkl_fft" else "numpy")), .rfft2lib (readConfig ini.rfft2lib "numpy"),
      .verbose (readConfig ini.verbose 0), .showlib (readConfig ini.showlib (if inst.cv2 then "cv2" else "matplotlib"))]
  unfold startSettings at h
  dsimp only at h
  split at h
  · cases h
  split at h
  · cases h
  split at h
  · cases h
  split at h
  · cases h
  split at h
  · cases h
  obtain rfl := Except.ok.inj h
  exact key

/-- **C105** (errors): a name not among those accepted is a ValueError; a number of threads out of range is an
AttributeError. -/
theorem C105_errors (inst : Installed) (m : Machine) (most : Int) (ini : IniFile) :
    (¬ (NameAccepted fftNames ini.fftlib ∧ NameAccepted fftNames ini.rfft2lib ∧ NameAccepted showNames ini.showlib) →
      startSettings inst m most ini = .error .valueError) ∧
    (NameAccepted fftNames ini.fftlib → NameAccepted fftNames ini.rfft2lib → NameAccepted showNames ini.showlib →
      ∀ cores, detectCores m = .ok cores →
        (ini.numbaThreads.getD cores < 1 ∨ most < ini.numbaThreads.getD cores) →
        startSettings inst m most ini = .error .attributeError) := by
  rw [← readConfig_fft_mem (opt := ini.fftlib) (dfltFft_mem inst),
    ← readConfig_fft_mem (opt := ini.rfft2lib) (d := "numpy") (by decide),
    ← readConfig_show_mem (opt := ini.showlib) (dfltShow_mem inst)]
  constructor
  · intro h
    unfold startSettings
    dsimp only
    by_cases h1 : readConfig ini.fftlib (if inst.mkl then "mkl_fft" else "numpy") ∈ fftNames
    swap
    · rw [((C64_invalid inst _ _).1 h1).1]
    obtain ⟨r1, e1⟩ := setFftlib_ok (inst := inst) (c := Config.initial).2 h1
    rw [e1]
    dsimp only
    by_cases h2 : readConfig ini.rfft2lib "numpy" ∈ fftNames
    swap
    · rw [((C64_invalid inst _ _).1 h2).2]
    obtain ⟨r2, e2⟩ := setRfft2lib_ok (inst := inst)
      (c := (setFftlib inst Config.initial (readConfig ini.fftlib (if inst.mkl then "mkl_fft" else "numpy"))).1).2 h2
    rw [e2]
    dsimp only
    have h3 : readConfig ini.showlib (if inst.cv2 then "cv2" else "matplotlib") ∉ showNames := fun h3 => h ⟨h1, h2, h3⟩
    rw [(C64_invalid inst _ _).2 h3]
  · intro h1 h2 h3 cores hc hn
    obtain ⟨r1, e1⟩ := setFftlib_ok (c := Config.initial).2 h1
    unfold startSettings
    dsimp only
    rw [e1]
    dsimp only
    obtain ⟨r2, e2⟩ := setRfft2lib_ok
      (c := (setFftlib inst Config.initial (readConfig ini.fftlib (if inst.mkl then "mkl_fft" else "numpy"))).1).2 h2
    rw [e2]
    dsimp only
    obtain ⟨r3, e3⟩ := setShowlib_ok (inst := inst) (c := { (setRfft2lib inst (setFftlib inst Config.initial
      (readConfig ini.fftlib (if inst.mkl then "mkl_fft" else "numpy"))).1 (readConfig ini.rfft2lib "numpy")).1 with
      verbose := (setVerbose (readConfig ini.verbose 0) (setRfft2lib inst (setFftlib inst Config.initial
      (readConfig ini.fftlib (if inst.mkl then "mkl_fft" else "numpy"))).1
        (readConfig ini.rfft2lib "numpy")).1.verbose).2 }).2 h3
    rw [e3]
    dsimp only
    have hn' : ¬ (1 ≤ readConfig ini.numbaThreads cores ∧ readConfig ini.numbaThreads cores ≤ most) := by
      unfold readConfig
      omega
    rw [startNumba_ok hc, if_neg hn', hc]

/-- A machine with `n` processors online (cddm/conf.py:160-165). -/
def machineWith (n : Int) : Machine := ⟨true, true, n, .missing⟩

/-- The file that the package installs (cddm/cddm.ini:1-28). -/
def shippedIni : IniFile :=
  ⟨some false, some true, some false, some true, none, some "numpy", some 0, none, none, none⟩

/-- **C105** (the file as installed): the import succeeds as long as numba starts at least as many threads as there are
processors. -/
theorem C105_shipped_partial (inst : Installed) (n most : Int) (hn : 1 ≤ n) (hm : n ≤ most) :
    ∃ s, startSettings inst (machineWith n) most shippedIni = .ok s ∧ s.fftThreads = n ∧ s.numbaThreads = n := by
  have hc : detectCores (machineWith n) = .ok n := by
    have : 0 < n := by omega
    simp [detectCores, machineWith, this]
  obtain ⟨s, hs⟩ := (C105_succeeds inst (machineWith n) most shippedIni).2
    ⟨by simp [NameAccepted, shippedIni], by simp [NameAccepted, shippedIni, fftNames], by simp [NameAccepted, shippedIni], n, hc,
      hn, hm⟩
  obtain ⟨-, -, -, -, -, -, -, cores, hcores, -, hf, -, hnb⟩ := C105_settings _ _ _ _ _ hs
  rw [hc] at hcores
  obtain rfl := Except.ok.inj hcores
  exact ⟨s, hs, hf rfl, hnb rfl⟩

/-- **C105** (full statement refuted): with the file as installed, a machine of 8 processors on which numba is limited to 4
threads (`NUMBA_NUM_THREADS=4`) cannot import the package. -/
theorem C105_shipped_refuted :
    ¬ ∀ (inst : Installed) (n most : Int), 1 ≤ n → 1 ≤ most →
      ∃ s, startSettings inst (machineWith n) most shippedIni = .ok s := by
  intro h
  obtain ⟨s, hs⟩ := h ⟨false, false, false, false, false⟩ 8 4 (by decide) (by decide)
  have := (C105_errors ⟨false, false, false, false, false⟩ (machineWith 8) 4 shippedIni).2 (by simp [NameAccepted, shippedIni])
    (by simp [NameAccepted, shippedIni, fftNames]) (by simp [NameAccepted, shippedIni]) 8 (by decide) (Or.inr (by decide))
  rw [this] at hs
  cases hs

/-- A file that names a library not installed: the import succeeds, with numpy. -/
example :
    startSettings ⟨false, false, false, false, false⟩ (machineWith 8) 8
      { shippedIni with fftlib := some "pyfftw", fftThreads := some 2, verbose := some (-3) } =
      .ok ⟨⟨"numpy", "numpy", 0, "matplotlib"⟩, 2, 8⟩ := by
  decide

/-! ### C106: home directory -/

/-- **C106** (which directory): the first directory among the expansion of `~`, `HOME` and `USERPROFILE`; if there is none the
value of `TMP`, and RuntimeError if that is missing or empty. -/
theorem C106_home (isDir : String → Bool) (env : String → Option String) (expanded : Option String)
    (h0 : isDir "" = false) :
    let found := ([expanded, env "HOME", env "USERPROFILE"].filterMap id).find? isDir
    (∀ p, found = some p → getHomeDir isDir env expanded = .ok p) ∧
    (found = none → ∀ t, env "TMP" = some t → t ≠ "" → getHomeDir isDir env expanded = .ok t) ∧
    (found = none → (env "TMP" = none ∨ env "TMP" = some "") → getHomeDir isDir env expanded = .error .runtimeError) := by
  intro found
  have hd : ∀ p, isDir p = true → p ≠ "" := by
    rintro p hp rfl
    rw [h0] at hp
    cases hp
  have e : homeLoop isDir env ["HOME", "USERPROFILE", "TMP"] (expanded.getD "") =
      found.getD ((env "TMP").getD "") := by
    simp only [homeLoop, found]
    rcases expanded with _ | x <;> rcases env "HOME" with _ | y <;> rcases env "USERPROFILE" with _ | z <;>
      simp [h0, List.find?_cons]
    all_goals
      try (cases hx : isDir x)
    all_goals
      try (cases hy : isDir y)
    all_goals
      try (cases hz : isDir z)
    all_goals simp
  refine ⟨fun p hp => ?_, fun hf t ht hne => ?_, fun hf ht => ?_⟩
  · unfold getHomeDir
    rw [e, hp]
    exact if_pos (hd p (List.find?_some hp))
  · unfold getHomeDir
    rw [e, hf, ht]
    exact if_pos hne
  · unfold getHomeDir
    rw [e, hf]
    rcases ht with ht | ht <;> rw [ht] <;> rfl

/-- **C106** (the result is a directory), unless it is the value of `TMP`; that value is not tested
(`C106_directory_refuted`). -/
theorem C106_directory_partial (isDir : String → Bool) (env : String → Option String) (expanded : Option String)
    (h0 : isDir "" = false) (p : String) (h : getHomeDir isDir env expanded = .ok p) :
    p ≠ "" ∧ (isDir p = true ∨ env "TMP" = some p) := by
  obtain ⟨h1, h2, h3⟩ := C106_home isDir env expanded h0
  rcases hf : ([expanded, env "HOME", env "USERPROFILE"].filterMap id).find? isDir with _ | q
  · rcases ht : env "TMP" with _ | t
    · rw [h3 hf (Or.inl ht)] at h
      cases h
    · by_cases hne : t = ""
      · rw [h3 hf (Or.inr (by rw [ht, hne]))] at h
        cases h
      · rw [h2 hf t ht hne] at h
        obtain rfl := Except.ok.inj h
        exact ⟨hne, Or.inr rfl⟩
  · rw [h1 q hf] at h
    obtain rfl := Except.ok.inj h
    refine ⟨?_, Or.inl (List.find?_some hf)⟩
    rintro rfl
    have := List.find?_some hf
    rw [h0] at this
    cases this

/-- **C106** (full statement refuted): a `TMP` that does not exist is returned as home directory. -/
theorem C106_directory_refuted :
    ¬ ∀ (isDir : String → Bool) (env : String → Option String) (expanded : Option String) (p : String), isDir "" = false →
      getHomeDir isDir env expanded = .ok p → isDir p = true := by
  intro h
  have := h (fun _ => false) (fun v => if v = "TMP" then some "/gone" else none) none "/gone" rfl (by decide)
  cases this

/-- No `~`, `HOME` not a directory, `USERPROFILE` a directory. -/
example : getHomeDir (fun p => p == "/u" || p == "/t")
    (fun v => if v = "HOME" then some "/h" else if v = "USERPROFILE" then some "/u" else some "/t") none = .ok "/u" := by
  decide

end Cddm
