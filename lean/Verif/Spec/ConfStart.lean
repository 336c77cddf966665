import Verif.Spec.Conf
import Verif.Model.ConfStart

/-!
# Specification vocabulary: configuration on import
-/

namespace Cddm
namespace Spec

/-- The value of a switch: the environment variable counts if it is a whole number (true unless zero), else the option in
the file, else the default. -/
def Decided (v : EnvVar) (opt : Option Bool) (dflt b : Bool) : Prop :=
  (∃ k : Int, v = .number k ∧ (b = true ↔ k ≠ 0)) ∨
  ((∀ k : Int, v ≠ .number k) ∧ (opt = some b ∨ opt = none ∧ b = dflt))

/-- A version of at least 0.45. -/
def AtLeast045 (major minor : Nat) : Prop := 0 < major ∨ 45 ≤ minor

/-- The library that a name in the configuration file stands for. -/
def NamesFft (name lib : String) : Prop :=
  name = "mkl_fft" ∧ lib = "mkl_fft" ∨ (name = "scipy.fftpack" ∨ name = "scipy") ∧ lib = "scipy" ∨
    (name = "numpy.fft" ∨ name = "numpy") ∧ lib = "numpy" ∨ name = "pyfftw" ∧ lib = "pyfftw"

/-- A name in the file, if there is one, is among those accepted. -/
def NameAccepted (accepted : List String) (opt : Option String) : Prop := ∀ name, opt = some name → name ∈ accepted

end Spec
end Cddm
