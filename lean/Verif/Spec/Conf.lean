import Verif.Model.Conf

/-!
# Specification vocabulary: configuration
-/

namespace Cddm
namespace Spec

/-- What code should print at level `v`: everything up to that level outside the regions, up to the first
exception. -/
def intended : PrintCode → Int → List Nat
  | .stop, _ => []
  | .fail, _ => []
  | .message k next, v => if (k : Int) ≤ v then k :: intended next v else intended next v
  | .region _ next, v => intended next v

/-- No exception. -/
def NoFail : PrintCode → Prop
  | .stop => True
  | .fail => False
  | .message _ next => NoFail next
  | .region body next => NoFail body ∧ NoFail next

/-- No region. -/
def NoRegion : PrintCode → Prop
  | .stop => True
  | .fail => True
  | .message _ next => NoRegion next
  | .region _ _ => False

/-- Regions are not nested. -/
def Flat : PrintCode → Prop
  | .stop => True
  | .fail => True
  | .message _ next => Flat next
  | .region body next => NoRegion body ∧ Flat next

/-- Every message has a level of at least 1 (the code has `print1` and `print2`). -/
def Levels : PrintCode → Prop
  | .stop => True
  | .fail => True
  | .message k next => 1 ≤ k ∧ Levels next
  | .region body next => Levels body ∧ Levels next

/-- An FFT library that is installed, by the name under which it is stored. -/
def FftInstalled (inst : Installed) (lib : String) : Prop :=
  lib = "numpy" ∨ lib = "mkl_fft" ∧ inst.mkl = true ∨ lib = "scipy" ∧ inst.scipy = true ∨
    lib = "pyfftw" ∧ inst.pyfftw = true

/-- A display library that is installed. -/
def ShowInstalled (inst : Installed) (lib : String) : Prop :=
  lib = "matplotlib" ∨ lib = "cv2" ∧ inst.cv2 = true ∨ lib = "pyqtgraph" ∧ inst.pyqtgraph = true

/-- The names accepted for an FFT library. -/
def fftNames : List String := ["mkl_fft", "scipy.fftpack", "scipy", "numpy.fft", "numpy", "pyfftw"]

/-- The names accepted for a display library. -/
def showNames : List String := ["matplotlib", "cv2", "pyqtgraph"]

end Spec
end Cddm
