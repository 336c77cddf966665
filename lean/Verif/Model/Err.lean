/-!
# Python exceptions as values

`Py α` is the result of a Python call: a value or the class of the exception raised.
`undefined` stands for compiled (numba, no bounds check) code touching memory outside an array,
where Python raises nothing and the behaviour is undefined.
-/

namespace Cddm

/-- Exception classes that occur in the modelled code (cddm/core.py:78, 98, 104, 187;
cddm/norm.py:503; cddm/multitau.py and cddm/map.py raise the same classes; cddm/video.py:79, 85, 697;
`self.kshape` at cddm/viewer.py:754 does not exist before `set_data`). -/
inductive PyErr
  | valueError | typeError | indexError | zeroDivisionError | assertionError | runtimeError
  | undefined
  /-- NameError, of which UnboundLocalError is a subclass -/
  | nameError
  | attributeError
  | stopIteration
  /-- queue.Full -/
  | queueFull
  /-- the model gives no answer (see the definition that returns it) -/
  | notModelled
  deriving DecidableEq, Repr

/-- Result of a Python call: a value or an exception (e.g. cddm/core.py:78, 98). -/
abbrev Py (α : Type) := Except PyErr α

/-- Result of a compiled kernel: an access outside an array is undefined behaviour
(numba compiles cddm/_core_nb.py:300-824 without bounds checks). -/
def orUB {α : Type} : Option α → Py α
  | some a => .ok a
  | none => .error .undefined

end Cddm
