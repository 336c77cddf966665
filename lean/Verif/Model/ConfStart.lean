import Verif.Model.Conf

/-!
# What `import cddm.conf` decides (cddm/conf.py:26-125, 146-202, 321-381)

Environment variables and the options of the configuration file enter as what Python makes of them.
-/

namespace Cddm

/-! ### Home directory -/

/-- The loop of `get_home_dir` (cddm/conf.py:42-45): an environment variable is used only while the path is not a
directory, and its value is looked at in the next round. -/
def homeLoop (isDir : String → Bool) (env : String → Option String) : List String → String → String
  | [], path => path
  | v :: vs, path => if isDir path then path else homeLoop isDir env vs ((env v).getD "")

/-- `get_home_dir` (cddm/conf.py:34-49).  `expanded` is the result of `expanduser('~')`, `none` if it raises. -/
def getHomeDir (isDir : String → Bool) (env : String → Option String) (expanded : Option String) : Py String :=
  let path := homeLoop isDir env ["HOME", "USERPROFILE", "TMP"] (expanded.getD "")
  if path ≠ "" then .ok path else .error .runtimeError

/-! ### Switches -/

/-- An environment variable: not set, set to a text that `int` rejects, or set to a text that it reads as a number
(cddm/conf.py:29).  What `int` makes of a text is not modelled. -/
inductive EnvVar where
  | missing
  | notInteger
  | number (k : Int)
deriving DecidableEq

/-- `_read_environ_variable` for a boolean default (cddm/conf.py:26-32). -/
def readEnviron (v : EnvVar) (dflt : Bool) : Int :=
  match v with
  | .missing => if dflt then 1 else 0
  | .notInteger => if dflt then 1 else 0
  | .number k => k

/-- `_readconfig` (cddm/conf.py:82-86): `none` is an option on which the reader raises. -/
def readConfig {α : Type} (opt : Option α) (dflt : α) : α := opt.getD dflt

/-- The four environment variables read (cddm/conf.py:94, 116, 125, 190). -/
structure Environ where
  parallel : EnvVar
  cache : EnvVar
  fastmath : EnvVar
  double : EnvVar

/-- The options read from the configuration file (cddm/conf.py:94-372); `none` if reading raises: the option is missing,
or it is not of the right kind. -/
structure IniFile where
  parallel : Option Bool
  cache : Option Bool
  fastmath : Option Bool
  double : Option Bool
  fftlib : Option String
  rfft2lib : Option String
  verbose : Option Int
  showlib : Option String
  fftThreads : Option Int
  numbaThreads : Option Int

/-- The condition at cddm/conf.py:94-95. -/
def wantsParallel (env : Environ) (ini : IniFile) : Bool :=
  readEnviron env.parallel (readConfig ini.parallel false) != 0

/-- `NUMBA_TARGET` (cddm/conf.py:96, 99). -/
def numbaTarget (env : Environ) (ini : IniFile) : String :=
  if wantsParallel env ini then "parallel" else "cpu"

/-- `NUMBA_PARALLEL` (cddm/conf.py:97, 100). -/
def numbaParallel (env : Environ) (ini : IniFile) : Bool :=
  if wantsParallel env ini then true else false

/-- `_numba_0_45_or_greater` (cddm/conf.py:105-113).  The version is `none` if it is not of two numbers. -/
def numba045 (version : Option (Nat × Nat)) : Bool :=
  match version with
  | none => false
  | some (major, minor) => if major = 0 ∧ 45 ≤ minor then true else false

/-- `NUMBA_CACHE` (cddm/conf.py:102, 116-123). -/
def numbaCache (env : Environ) (ini : IniFile) (version : Option (Nat × Nat)) : Bool :=
  if readEnviron env.cache (readConfig ini.cache true) ≠ 0 then
    if numbaParallel env ini = false then true
    else if numba045 version then true else false
  else false

/-- `NUMBA_FASTMATH` (cddm/conf.py:125-129). -/
def numbaFastmath (env : Environ) (ini : IniFile) : Bool :=
  if readEnviron env.fastmath (readConfig ini.fastmath false) ≠ 0 then true else false

/-- The numbers of bits of the types `FDTYPE, CDTYPE, UDTYPE, IDTYPE` of arrays, or `F, C, U, I` of
compiled functions (cddm/conf.py:175-202, 359-381). -/
structure Widths where
  float : Nat
  complex : Nat
  unsigned : Nat
  signed : Nat
deriving DecidableEq

/-- `FDTYPE, CDTYPE, UDTYPE, IDTYPE, PRECISION` (cddm/conf.py:190-202). -/
def arrayTypes (env : Environ) (ini : IniFile) : Widths × String :=
  if readEnviron env.double (readConfig ini.double true) ≠ 0 then (⟨64, 128, 64, 64⟩, "double")
  else (⟨32, 64, 32, 32⟩, "single")

/-- `F, C, U, I` (cddm/conf.py:371-381). -/
def compiledTypes (env : Environ) (ini : IniFile) : Widths :=
  if readEnviron env.double (readConfig ini.double true) ≠ 0 then ⟨64, 128, 64, 64⟩ else ⟨32, 64, 32, 32⟩

/-! ### Threads and libraries -/

/-- What the operating system says about processors (cddm/conf.py:160-172). -/
structure Machine where
  /-- `os.sysconf` exists -/
  hasSysconf : Bool
  /-- it knows `SC_NPROCESSORS_ONLN` -/
  knowsOnline : Bool
  /-- its answer -/
  online : Int
  /-- the environment variable `NUMBER_OF_PROCESSORS` -/
  processors : EnvVar

/-- `detect_number_of_cores` (cddm/conf.py:146-173).  `os.popen2` does not exist in Python 3. -/
def detectCores (m : Machine) : Py Int :=
  if m.hasSysconf ∧ ¬ m.knowsOnline then .error .attributeError
  else if m.hasSysconf ∧ m.knowsOnline ∧ 0 < m.online then .ok m.online
  else
    match m.processors with
    | .missing => .ok 1
    | .notInteger => .error .valueError
    | .number k => .ok (if 0 < k then k else 1)

/-- `numba.set_num_threads` (called at cddm/conf.py:342): ValueError outside of 1 to the number `most` of threads that numba
has started (its `NUMBA_NUM_THREADS`).  The new number is the one `numba.get_num_threads` returns. -/
def numbaSetThreads (most n : Int) : Py Int :=
  if n < 1 ∨ most < n then .error .valueError else .ok n

/-- The settings after the import (cddm/conf.py:220-238): `CDDMConfig`. -/
structure Started where
  libs : Config
  fftThreads : Int
  numbaThreads : Int
deriving DecidableEq

/-- The setting of the number of numba threads on import (cddm/conf.py:353-357).  The fallback asks for
`numba.get_numba_threads`, which does not exist: AttributeError. -/
def startNumba (m : Machine) (most : Int) (opt : Option Int) : Py Int :=
  match detectCores m with
  | .error .valueError => .error .attributeError
  | .error e => .error e
  | .ok cores =>
    match numbaSetThreads most (readConfig opt cores) with
    | .error .valueError => .error .attributeError
    | r => r

/-- The calls of the setters on import (cddm/conf.py:347-357), in their order.  The number of threads of the FFT (line 351) is
stored as it is; handing it to `mkl` and `pyfftw` (lines 325-334) is not modelled. -/
def startSettings (inst : Installed) (m : Machine) (most : Int) (ini : IniFile) : Py Started :=
  let r1 := setFftlib inst Config.initial (readConfig ini.fftlib (if inst.mkl then "mkl_fft" else "numpy"))
  match r1.2 with
  | .error e => .error e
  | .ok _ =>
    let r2 := setRfft2lib inst r1.1 (readConfig ini.rfft2lib "numpy")
    match r2.2 with
    | .error e => .error e
    | .ok _ =>
      let c3 : Config := { r2.1 with verbose := (setVerbose (readConfig ini.verbose 0) r2.1.verbose).2 }
      let r4 := setShowlib inst c3 (readConfig ini.showlib (if inst.cv2 then "cv2" else "matplotlib"))
      match r4.2 with
      | .error e => .error e
      | .ok _ =>
        match detectCores m with
        | .error e => .error e
        | .ok cores =>
          match startNumba m most ini.numbaThreads with
          | .error e => .error e
          | .ok n => .ok ⟨r4.1, readConfig ini.fftThreads cores, n⟩

end Cddm
