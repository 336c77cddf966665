import Verif.Model.Err

/-!
# Configuration and messages (cddm/conf.py, cddm/print_tools.py, the dispatch in cddm/fft.py and cddm/video.py)
-/

namespace Cddm

/-! ### Messages -/

/-- `disable_prints` (cddm/print_tools.py:43-48): the value returned and the new level. -/
def disablePrints (v : Int) : Int × Int := (v, -(v.natAbs : Int))

/-- `enable_prints` (cddm/print_tools.py:50-55): the value returned and the new level.  `level` is an integer
here; other values go through `int()`. -/
def enablePrints (level : Option Int) (v : Int) : Int × Int :=
  ((match level with | none => v | some l => l), (v.natAbs : Int))

/-- `set_verbose` (cddm/conf.py:250-254), for an integer level. -/
def setVerbose (level v : Int) : Int × Int := (v, max 0 level)

/-- Code that prints: the end, an exception, a message of level `k` (`print1`, `print2`, cddm/print_tools.py:11-41),
or a region `v = disable_prints(); body; enable_prints(v)` as written at cddm/norm.py:564-619,
cddm/multitau.py:222-262, 894-1033, 1685-1737 and cddm/viewer.py:373-375, 782-784. -/
inductive PrintCode where
  | stop
  | fail
  | message (k : Nat) (next : PrintCode)
  | region (body next : PrintCode)

/-- Execution of such code (cddm/print_tools.py:22-55): the level afterwards, the messages printed, and whether it has
ended without an exception.  An exception
in the body of a region skips its `enable_prints` (there is no `try`). -/
def PrintCode.exec : PrintCode → Int → Int × List Nat × Bool
  | .stop, v => (v, [], true)
  | .fail, v => (v, [], false)
  | .message k next, v =>
    let r := next.exec v
    (r.1, (if (k : Int) ≤ v then k :: r.2.1 else r.2.1), r.2.2)
  | .region body next, v =>
    let d := disablePrints v
    let b := body.exec d.2
    if b.2.2 then
      let r := next.exec (enablePrints (some d.1) b.1).2
      (r.1, b.2.1 ++ r.2.1, r.2.2)
    else (b.1, b.2.1, false)

/-! ### Libraries -/

/-- The `*_INSTALLED` constants (cddm/conf.py:139-144). -/
structure Installed where
  mkl : Bool
  scipy : Bool
  cv2 : Bool
  pyqtgraph : Bool
  pyfftw : Bool

/-- `CDDMConfig` (cddm/conf.py:220-238), without the numbers of threads. -/
structure Config where
  rfft2lib : String
  fftlib : String
  verbose : Int
  showlib : String
deriving DecidableEq

/-- `CDDMConfig.__init__` (cddm/conf.py:223-227). -/
def Config.initial : Config := ⟨"numpy", "numpy", 0, "matplotlib"⟩

/-- The common decision of `set_fftlib` and `set_rfft2lib` (cddm/conf.py:272-294, 296-319): the new value, `none` if
there is only a warning.  (`set_rfft2lib` tests `pyfftw` before `numpy`, which makes no difference.) -/
def fftlibFor (inst : Installed) (name : String) : Py (Option String) :=
  if name = "mkl_fft" then .ok (if inst.mkl then some name else none)
  else if name = "scipy.fftpack" ∨ name = "scipy" then .ok (if inst.scipy then some "scipy" else none)
  else if name = "numpy.fft" ∨ name = "numpy" then .ok (some "numpy")
  else if name = "pyfftw" then .ok (if inst.pyfftw then some "pyfftw" else none)
  else .error .valueError

/-- The decision of `set_showlib` (cddm/conf.py:256-270). -/
def showlibFor (inst : Installed) (name : String) : Py (Option String) :=
  if name ≠ "matplotlib" ∧ name ≠ "cv2" ∧ name ≠ "pyqtgraph" then .error .valueError
  else if name = "cv2" ∧ ¬ inst.cv2 then .ok none
  else if name = "pyqtgraph" ∧ ¬ inst.pyqtgraph then .ok none
  else .ok (some name)

/-- `set_fftlib` (cddm/conf.py:272-294): the configuration afterwards, and the value returned with whether there was
a warning, or the exception. -/
def setFftlib (inst : Installed) (c : Config) (name : String) : Config × Py (String × Bool) :=
  match fftlibFor inst name with
  | .error e => (c, .error e)
  | .ok none => (c, .ok (c.fftlib, true))
  | .ok (some lib) => ({ c with fftlib := lib }, .ok (c.fftlib, false))

/-- `set_rfft2lib` (cddm/conf.py:296-319). -/
def setRfft2lib (inst : Installed) (c : Config) (name : String) : Config × Py (String × Bool) :=
  match fftlibFor inst name with
  | .error e => (c, .error e)
  | .ok none => (c, .ok (c.rfft2lib, true))
  | .ok (some lib) => ({ c with rfft2lib := lib }, .ok (c.rfft2lib, false))

/-- `set_showlib` (cddm/conf.py:256-270). -/
def setShowlib (inst : Installed) (c : Config) (name : String) : Config × Py (String × Bool) :=
  match showlibFor inst name with
  | .error e => (c, .error e)
  | .ok none => (c, .ok (c.showlib, true))
  | .ok (some lib) => ({ c with showlib := lib }, .ok (c.showlib, false))

/-- A call of one of the setters (cddm/conf.py:250, 256, 272, 296). -/
inductive ConfCall where
  | fftlib (name : String)
  | rfft2lib (name : String)
  | showlib (name : String)
  | verbose (level : Int)

/-- The configuration after a call (cddm/conf.py:250-318); a call that raises is one whose exception is caught by the caller. -/
def ConfCall.run (inst : Installed) (c : Config) : ConfCall → Config
  | .fftlib name => (setFftlib inst c name).1
  | .rfft2lib name => (setRfft2lib inst c name).1
  | .showlib name => (setShowlib inst c name).1
  | .verbose level => { c with verbose := (setVerbose level c.verbose).2 }

/-- The library used by `_fft` (cddm/fft.py:26-35); `none` if no branch is taken and `None` is returned, `NameError`
if the module was not imported (lines 14-24). -/
def fftBranch (inst : Installed) (lib : String) : Py (Option String) :=
  if lib = "mkl_fft" then (if inst.mkl then .ok (some "mkl_fft") else .error .nameError)
  else if lib = "scipy" then (if inst.scipy then .ok (some "scipy") else .error .nameError)
  else if lib = "numpy" then .ok (some "numpy")
  else if lib = "pyfftw" then (if inst.pyfftw then .ok (some "pyfftw") else .error .nameError)
  else .ok none

/-- The library used by `_ifft` (cddm/fft.py:37-46). -/
def ifftBranch (inst : Installed) (lib : String) : Py (Option String) :=
  if lib = "mkl_fft" then (if inst.mkl then .ok (some "mkl_fft") else .error .nameError)
  else if lib = "scipy" then (if inst.scipy then .ok (some "scipy") else .error .nameError)
  else if lib = "pyfftw" then (if inst.pyfftw then .ok (some "pyfftw") else .error .nameError)
  else if lib = "numpy" then .ok (some "numpy")
  else .ok none

/-- The library used by `_rfft2` (cddm/fft.py:70-86): without a branch `out` is unbound. -/
def rfft2Branch (inst : Installed) (lib : String) : Py (Option String) :=
  if lib = "mkl_fft" then (if inst.mkl then .ok (some "mkl_fft") else .error .nameError)
  else if lib = "scipy" then (if inst.scipy then .ok (some "scipy") else .error .nameError)
  else if lib = "numpy" then .ok (some "numpy")
  else if lib = "pyfftw" then (if inst.pyfftw then .ok (some "pyfftw") else .error .nameError)
  else .error .nameError

/-- The library used by `ImageShow.show` (cddm/video.py:382-395). -/
def showBranch (inst : Installed) (lib : String) : Py String :=
  if lib = "cv2" then (if inst.cv2 then .ok "cv2" else .error .nameError)
  else if lib = "pyqtgraph" then (if inst.pyqtgraph then .ok "pyqtgraph" else .error .nameError)
  else .ok "matplotlib"

/-- The library used by `pause` (cddm/video.py:406-417). -/
def pauseBranch (inst : Installed) (lib : String) : Py String :=
  if lib = "cv2" then (if inst.cv2 then .ok "cv2" else .error .nameError)
  else if lib = "matplotlib" then .ok "matplotlib"
  else (if inst.pyqtgraph then .ok "pyqtgraph" else .error .nameError)

end Cddm
