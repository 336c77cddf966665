/-!
# Specification vocabulary for norm strings and flags
-/

namespace Cddm
namespace Spec

/-- The flag values a word stands for. -/
def normWords : List (String × Nat) :=
  [("NONE", 0), ("BASELINE", 0), ("STANDARD", 1), ("STRUCTURED", 2), ("WEIGHTED", 3),
   ("SUBTRACTED", 4), ("COMPENSATED", 8)]

/-- ASCII white space: tab, line feed, vertical tab, form feed, return, the four separators
28-31, and blank. -/
def blanks : List Char :=
  [' ', '\t', '\n', '\r', Char.ofNat 11, Char.ofNat 12, Char.ofNat 28, Char.ofNat 29,
   Char.ofNat 30, Char.ofNat 31]

/-- The text `p` is the word with flag value `v`, in any case, with any blanks around it. -/
def IsPart (p : List Char) (v : Nat) : Prop :=
  ∃ pre word post name, p = pre ++ word ++ post ∧ (∀ c ∈ pre, c ∈ blanks) ∧
    (∀ c ∈ post, c ∈ blanks) ∧ word.map Char.toUpper = String.toList name ∧ (name, v) ∈ normWords

/-- Parts joined with `|`. -/
def joinBar : List (List Char) → List Char
  | [] => []
  | [p] => p
  | p :: ps => p ++ '|' :: joinBar ps

/-- The supported norms. -/
def SupportedValue (v : Nat) : Prop :=
  v = 1 ∨ v = 2 ∨ v = 3 ∨ v = 5 ∨ v = 6 ∨ v = 7 ∨ v = 9 ∨ v = 10 ∨ v = 11 ∨ v = 13 ∨ v = 14 ∨ v = 15

/-- Bit `i` of the norm: 0 standard, 1 structured, 2 subtracted, 3 compensated.  A bit is set if
some part sets it; if neither standard nor structured is, standard is. -/
def NormBits (vs : List Nat) (v : Nat) : Prop :=
  ∀ i, v.testBit i = true ↔ (∃ w ∈ vs, w.testBit i = true) ∨
    (i = 0 ∧ ∀ w ∈ vs, w.testBit 0 = false ∧ w.testBit 1 = false)

end Spec
end Cddm
