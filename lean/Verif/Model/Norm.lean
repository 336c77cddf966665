import Verif.Model.Ccorr
import Verif.Model.Filters

/-!
# Normalization (`cddm/norm.py`, `cddm/_core_nb.py:826-1240`)

One wave vector at a time: all arrays are lists over delay, background and variance are numbers
(the code applies the same formulas elementwise over the frame axes by broadcasting; `mask` selects
wave vectors and is modelled in `takeData` only).  Arithmetic is exact over `ℝ`.  A floating point
value that is not finite (division by a zero count, `CINF`) is modelled as `none`.  `out`,
printing and `fastmath` are not modelled.
-/

namespace Cddm

/-! ### Norm strings and flags -/

/-- Characters removed by `str.strip()` (cddm/norm.py:85). -/
def isSpaceChar (c : Char) : Bool :=
  let n := c.toNat
  (9 ≤ n ∧ n ≤ 13) ∨ (28 ≤ n ∧ n ≤ 32) ∨ n = 0x85 ∨ n = 0xA0 ∨ n = 0x1680 ∨
    (0x2000 ≤ n ∧ n ≤ 0x200A) ∨ n = 0x2028 ∨ n = 0x2029 ∨ n = 0x202F ∨ n = 0x205F ∨ n = 0x3000

/-- `str.upper()` of one character (cddm/norm.py:85).  ASCII letters and those other characters
whose upper case consists of ASCII letters only; any other character is left alone (Python gives a
string with at least one non-ASCII character, which occurs in no norm name). -/
def upperChar (c : Char) : List Char :=
  let n := c.toNat
  if 97 ≤ n ∧ n ≤ 122 then [c.toUpper]
  else if n = 0xDF then ['S', 'S']
  else if n = 0x131 then ['I']
  else if n = 0x17F then ['S']
  else if n = 0xFB00 then ['F', 'F']
  else if n = 0xFB01 then ['F', 'I']
  else if n = 0xFB02 then ['F', 'L']
  else if n = 0xFB03 then ['F', 'F', 'I']
  else if n = 0xFB04 then ['F', 'F', 'L']
  else if n = 0xFB05 ∨ n = 0xFB06 then ['S', 'T']
  else [c]

/-- `value.strip()` (cddm/norm.py:85). -/
def stripChars (s : List Char) : List Char :=
  ((s.dropWhile isSpaceChar).reverse.dropWhile isSpaceChar).reverse

/-- `value.split("|")` (cddm/norm.py:82). -/
def splitBar (s : List Char) : List (List Char) := s.splitOn '|'

/-- `getattr(_thismodule, "NORM_" + name)` (cddm/norm.py:34-53, 85-87): the module's attributes
whose names start with `NORM_`. -/
def normAttr (name : List Char) : Option Nat :=
  if name = "NONE".toList then some 0
  else if name = "BASELINE".toList then some 0
  else if name = "STANDARD".toList then some 1
  else if name = "STRUCTURED".toList then some 2
  else if name = "WEIGHTED".toList then some (1 ||| 2)
  else if name = "SUBTRACTED".toList then some 4
  else if name = "COMPENSATED".toList then some 8
  else none

/-- The loop of `norm_from_string` (cddm/norm.py:83-89). -/
def normParts (norm : Nat) : List (List Char) → Py Nat
  | [] => .ok norm
  | p :: ps =>
    match normAttr ((stripChars p).flatMap upperChar) with
    | some v => normParts (norm ||| v) ps
    | none => .error .valueError

/-- `norm_from_string` (cddm/norm.py:59-92); a string is its list of characters. -/
def normFromString (value : List Char) : Py Nat := do
  let norm ← normParts 0 (splitBar value)
  .ok (if norm % 4 = 0 then norm ||| 1 else norm)

/-- `norm_flags` (cddm/norm.py:94-132). -/
def normFlags (structured subtracted weighted compensated : Bool) : Nat :=
  let standard : Bool := structured = false ∧ weighted = false
  let norm := 0
  let norm := if standard then norm ||| 1 else norm
  let norm := if structured then norm ||| 2 else norm
  let norm := if compensated then norm ||| 8 else norm
  let norm := if subtracted then norm ||| 4 else norm
  if weighted then norm ||| 3 else norm

/-! ### Which norm -/

/-- `norm not in (1,2,3,5,6,7,9,10,11,13,14,15)` (cddm/norm.py:391). -/
def allNorms : List Nat := [1, 2, 3, 5, 6, 7, 9, 10, 11, 13, 14, 15]

/-- `default_norm, available_norm` of `_norm_from_ccorr_data` (cddm/norm.py:372-385), depending on
which of `sq` and `s1` is present. -/
def ccorrNorms (sq s1 : Bool) : Nat × Nat :=
  if s1 = false then (if sq = false then (1, 1) else (3, 3))
  else (if sq = false then (1 ||| 4, 1 ||| 8 ||| 4) else (3 ||| 4, 3 ||| 8 ||| 4))

/-- `_norm_from_ccorr_data` (cddm/norm.py:365-396); `norm` already converted from a string. -/
def normFromCcorrData (sq s1 : Bool) (norm : Option Int) : Py Nat :=
  match norm with
  | none => .ok (ccorrNorms sq s1).1
  | some v =>
    if v ∉ allNorms.map Int.ofNat then .error .valueError
    else if v.toNat &&& (ccorrNorms sq s1).2 = v.toNat then .ok v.toNat
    else .error .valueError

/-- `_norm_from_cdiff_data` (cddm/norm.py:398-419). -/
def normFromCdiffData (s1 s2 : Bool) (norm : Option Int) : Py Nat :=
  let dflt := if s1 = false ∨ s2 = false then 2 else (2 ||| 4)
  match norm with
  | none => .ok dflt
  | some v =>
    if v ∉ [2, 2 ||| 4].map Int.ofNat then .error .valueError
    else if v.toNat &&& dflt = v.toNat then .ok v.toNat
    else .error .valueError

/-! ### Elementwise formulas -/

/-- Division by a count (cddm/_core_nb.py:834-1065); a zero count gives a value that is not finite. -/
noncomputable def divCount {M : Type} [SMul ℝ M] (x : M) (count : Nat) : Option M :=
  if count = 0 then none else some ((1 / (count : ℝ)) • x)

/-- The imaginary unit `1j` (cddm/_core_nb.py:838-841). -/
def Cx.I : Cx ℝ := ⟨0, 1⟩

/-- `_normalize_corr_baseline_real` (cddm/_core_nb.py:832-834). -/
noncomputable def corrBaselineR (data : ℝ) (count : Nat) (bg1 bg2 : Cx ℝ) : Option ℝ :=
  (divCount data count).map fun x => x - (bg1.re * bg2.re + bg1.im * bg2.im)

/-- `_normalize_corr_baseline_complex` (cddm/_core_nb.py:836-841). -/
noncomputable def corrBaselineC (data : Cx ℝ) (count : Nat) (bg1 bg2 : Cx ℝ) : Option (Cx ℝ) :=
  (divCount data count).map fun x => x - bg2 * bg1.conj

/-- `_normalize_struct_baseline_real` (cddm/_core_nb.py:850-861). -/
noncomputable def structBaselineR (data : ℝ) (count : Nat) (bg1 bg2 : Cx ℝ) (var sq : ℝ) :
    Option ℝ :=
  let tmp := data - (1 / 2) * sq
  (divCount tmp count).map fun tmp =>
    let d := bg1.re - bg2.re
    let d2 := d * d
    let d := bg1.im - bg2.im
    let d2 := d2 + d * d
    tmp + ((1 / 2) * d2) + var

/-- `_normalize_struct_baseline_complex` (cddm/_core_nb.py:863-887). -/
noncomputable def structBaselineC (data : Cx ℝ) (count : Nat) (bg1 bg2 : Cx ℝ) (var sq : ℝ) :
    Option (Cx ℝ) :=
  let tmp := data - ((1 / 2) * sq) • (1 + Cx.I)
  (divCount tmp count).map fun tmp =>
    let d := bg1.re - bg2.re
    let d2 := d * d
    let d := bg1.im - bg2.im
    let d2 := d2 + d * d
    let real := ((1 / 2) * d2) + var
    let d := bg1.im + bg2.re
    let d2 := d * d
    let d := bg1.re - bg2.im
    let d2 := d2 + d * d
    let imag := ((1 / 2) * d2) + var
    tmp + Cx.ofR real + imag • Cx.I

/-- `_normalize_corr_compensated_real` (cddm/_core_nb.py:895-900). -/
noncomputable def corrCompensatedR (data : ℝ) (count : Nat) (m1 m2 : Cx ℝ) : Option ℝ :=
  (divCount (m1.re * m2.re + m1.im * m2.im) count).bind fun tmp => divCount (data - tmp) count

/-- `_normalize_corr_compensated_complex` (cddm/_core_nb.py:902-910). -/
noncomputable def corrCompensatedC (data : Cx ℝ) (count : Nat) (m1 m2 : Cx ℝ) : Option (Cx ℝ) :=
  (divCount (m2 * m1.conj) count).bind fun tmp => divCount (data - tmp) count

/-- `_normalize_corr_compensated_subtracted_real` (cddm/_core_nb.py:918-927). -/
noncomputable def corrCompensatedSubtractedR (data : ℝ) (count : Nat) (bg1 bg2 m1 m2 : Cx ℝ) :
    Option ℝ :=
  (divCount (m1.re * m2.re + m1.im * m2.im) count).bind fun tmp =>
  (divCount (data - tmp) count).bind fun tmp =>
  (divCount m1 count).bind fun a => (divCount m2 count).map fun b =>
    tmp + (a.re - bg1.re) * (b.re - bg2.re) + (a.im - bg1.im) * (b.im - bg2.im)

/-- `_normalize_corr_compensated_subtracted_complex` (cddm/_core_nb.py:929-939). -/
noncomputable def corrCompensatedSubtractedC (data : Cx ℝ) (count : Nat) (bg1 bg2 m1 m2 : Cx ℝ) :
    Option (Cx ℝ) :=
  (divCount (m2 * m1.conj) count).bind fun tmp =>
  (divCount (data - tmp) count).bind fun tmp =>
  (divCount m1 count).bind fun a => (divCount m2 count).map fun b =>
    tmp + (a - bg1).conj * (b - bg2)

/-- `_normalize_struct_compensated_real` (cddm/_core_nb.py:949-957). -/
noncomputable def structCompensatedR (data : ℝ) (count : Nat) (var sq : ℝ) (m1 m2 : Cx ℝ) :
    Option ℝ :=
  let tmp := (m1.re - m2.re) * (m1.re - m2.re)
  let tmp := tmp + (m1.im - m2.im) * (m1.im - m2.im)
  (divCount ((1 / 2) * tmp) count).bind fun tmp =>
    (divCount (data + tmp - (1 / 2) * sq) count).map fun tmp => tmp + var

/-- `_normalize_struct_compensated_complex` (cddm/_core_nb.py:959-976). -/
noncomputable def structCompensatedC (data : Cx ℝ) (count : Nat) (var sq : ℝ) (m1 m2 : Cx ℝ) :
    Option (Cx ℝ) :=
  let real := (m1.re - m2.re) * (m1.re - m2.re)
  let real := real + (m1.im - m2.im) * (m1.im - m2.im)
  let imag := (m1.im + m2.re) * (m1.im + m2.re)
  let imag := imag + (m1.re - m2.im) * (m1.re - m2.im)
  (divCount ((1 / 2) * real) count).bind fun real =>
  (divCount (real - (1 / 2) * sq) count).bind fun real =>
  (divCount ((1 / 2) * imag) count).bind fun imag =>
  (divCount (imag - (1 / 2) * sq) count).bind fun imag =>
  (divCount data count).map fun x => x + (Cx.ofR (real + var) + (imag + var) • Cx.I)

/-- `_normalize_corr_subtracted_real` (cddm/_core_nb.py:985-990). -/
noncomputable def corrSubtractedR (data : ℝ) (count : Nat) (bg1 bg2 m1 m2 : Cx ℝ) : Option ℝ :=
  let tmp := data
  let tmp := tmp - bg1.re * m2.re - bg1.im * m2.im
  let tmp := tmp - bg2.re * m1.re - bg2.im * m1.im
  (divCount tmp count).map fun x => x + bg1.re * bg2.re + bg1.im * bg2.im

/-- `_normalize_corr_subtracted_complex` (cddm/_core_nb.py:993-1002). -/
noncomputable def corrSubtractedC (data : Cx ℝ) (count : Nat) (bg1 bg2 m1 m2 : Cx ℝ) :
    Option (Cx ℝ) :=
  let tmp := data
  let tmp := tmp - bg1.conj * m2 - m1.conj * bg2
  (divCount tmp count).map fun x => x + bg1.conj * bg2

/-- `_normalize_struct_subtracted_real` (cddm/_core_nb.py:1012-1026). -/
noncomputable def structSubtractedR (data : ℝ) (count : Nat) (bg1 bg2 : Cx ℝ) (var sq : ℝ)
    (m1 m2 : Cx ℝ) : Option ℝ :=
  let tmp := data - (1 / 2) * sq
  let tmp := tmp + (m1.re - m2.re) * (bg1.re - bg2.re)
  let tmp := tmp + (m1.im - m2.im) * (bg1.im - bg2.im)
  (divCount tmp count).map fun tmp =>
    let d := bg1.re - bg2.re
    let d2 := d * d
    let d := bg1.im - bg2.im
    let d2 := d2 + d * d
    tmp - ((1 / 2) * d2) + var

/-- `_normalize_struct_subtracted_complex` (cddm/_core_nb.py:1028-1065). -/
noncomputable def structSubtractedC (data : Cx ℝ) (count : Nat) (bg1 bg2 : Cx ℝ) (var sq : ℝ)
    (m1 m2 : Cx ℝ) : Option (Cx ℝ) :=
  let tmp := data - ((1 / 2) * sq) • (1 + Cx.I)
  let real := (m1.re - m2.re) * (bg1.re - bg2.re)
  let real := real + (m1.im - m2.im) * (bg1.im - bg2.im)
  let imag := (m1.im + m2.re) * (bg1.im + bg2.re)
  let imag := imag + (m1.re - m2.im) * (bg1.re - bg2.im)
  let tmp := tmp + Cx.ofR real + imag • Cx.I
  (divCount tmp count).map fun tmp =>
    let d := bg2.re - bg1.re
    let d2 := d * d
    let d := bg1.im - bg2.im
    let d2 := d2 + d * d
    let real := ((1 / 2) * d2) - var
    let d := bg1.im + bg2.re
    let d2 := d * d
    let d := bg1.re - bg2.im
    let d2 := d2 + d * d
    let imag := ((1 / 2) * d2) - var
    let c := Cx.ofR real + imag • Cx.I
    tmp - c

/-- `_normalize_cdiff_1` (cddm/_core_nb.py:1079-1081). -/
noncomputable def cdiff1 (data : ℝ) (count : Nat) (d : Cx ℝ) : Option ℝ :=
  (divCount data count).map fun x => x - (d.re * d.re + d.im * d.im)

/-- `_normalize_cdiff_3` (cddm/_core_nb.py:1097-1101). -/
noncomputable def cdiff3 (data : ℝ) (count : Nat) (dm m1 m2 : Cx ℝ) : Option ℝ :=
  let ds := m2 - m1
  let tmp := data - 2 * (dm.re * ds.re + dm.im * ds.im)
  (divCount tmp count).map fun x => x + (dm.re * dm.re + dm.im * dm.im)

/-! ### Weights -/

/-- `weight_from_g` for real `g` (cddm/_core_nb.py:1151-1158). -/
noncomputable def weightFromG (g delta : ℝ) : ℝ :=
  let tmp1 := 2 * g
  let g2 := g ^ 2 + 0 ^ 2
  let tmp2 := g2 + 1 + delta ^ 2
  tmp1 / tmp2

/-- `weight_from_g` for complex `g` (cddm/_core_nb.py:1151-1158). -/
noncomputable def weightFromGC (g : Cx ℝ) (delta : ℝ) : Cx ℝ :=
  let tmp1 := (2 : ℝ) • g
  let g2 := g.re ^ 2 + g.im ^ 2
  let tmp2 := g2 + 1 + delta ^ 2
  (1 / tmp2) • tmp1

/-- `weight_prime_from_g` (cddm/_core_nb.py:1161-1181); a zero denominator gives a value that is
not finite. -/
noncomputable def weightPrimeFromG (g : Cx ℝ) (delta : ℝ) (b1 b2 : Cx ℝ) : Option ℝ :=
  let s1 := b1.re * b1.re + b1.im * b1.im
  let s2 := b2.re * b2.re + b2.im * b2.im
  let r := b1.re * b2.re + b1.im * b2.im
  let i := b2.re * b1.im - b2.im * b1.re
  let d2 := delta ^ 2
  let g2 := g.re ^ 2 + g.im ^ 2
  let tmp1 := 2 * g.re + 2 * r + (s1 + s2) * g.re
  let tmp2 := g2 + 1 + d2 + s1 + s2 + (s2 - s1) * delta + 2 * r * g.re + 2 * i * g.im
  fdiv tmp1 tmp2

/-- `weight_from_d` (cddm/_core_nb.py:1187-1189). -/
noncomputable def weightFromD (d delta : ℝ) : ℝ := weightFromG (1 - d / 2) delta

/-- `weight_from_d` for complex data (cddm/_core_nb.py:1187-1189). -/
noncomputable def weightFromDC (d : Cx ℝ) (delta : ℝ) : Cx ℝ :=
  weightFromGC (1 - (1 / 2 : ℝ) • d) delta

/-- Radicand of `sigma_weighted` (cddm/_core_nb.py:1195-1198). -/
noncomputable def sigmaArg (w : ℝ) (g : Cx ℝ) (delta : ℝ) : ℝ :=
  let g2 := g.re ^ 2
  let c2 := g2 + g.im ^ 2
  let d2 := delta ^ 2
  (1 / 2) * (w ^ 2 * (c2 + 1 + d2) - 4 * w * g.re + 2 * g2 - c2 + 1 - d2)

/-- `sigma_weighted` (cddm/_core_nb.py:1192-1198); `**0.5` of a negative number is NaN (`none`). -/
noncomputable def sigmaWeighted (w : ℝ) (g : Cx ℝ) (delta : ℝ) : Option ℝ :=
  if sigmaArg w g delta < 0 then none else some (Real.sqrt (sigmaArg w g delta))

/-- Radicand of `sigma_prime_weighted` (cddm/_core_nb.py:1203-1217). -/
noncomputable def sigmaPrimeArg (w : ℝ) (g : Cx ℝ) (delta : ℝ) (b1 b2 : Cx ℝ) : ℝ :=
  let g2 := g.re ^ 2
  let c2 := g2 + g.im ^ 2
  let d2 := delta ^ 2
  let s1 := b1.re * b1.re + b1.im * b1.im
  let s2 := b2.re * b2.re + b2.im * b2.im
  let r := b1.re * b2.re + b1.im * b2.im
  let i := b2.re * b1.im - b2.im * b1.re
  (1 / 2) * (w ^ 2 * (c2 + 1 + d2 + s1 + s2 + (s2 - s1) * delta + 2 * r * g.re + 2 * i * g.im)
    - 4 * w * (g.re + r + (1 / 2) * (s1 + s2) * g.re)
    + 2 * g2 - c2 + 1 - d2 + s1 + s2 - (s2 - s1) * delta + 2 * r * g.re - 2 * i * g.im)

/-- `sigma_prime_weighted` (cddm/_core_nb.py:1201-1217). -/
noncomputable def sigmaPrimeWeighted (w : ℝ) (g : Cx ℝ) (delta : ℝ) (b1 b2 : Cx ℝ) : Option ℝ :=
  if sigmaPrimeArg w g delta b1 b2 < 0 then none
  else some (Real.sqrt (sigmaPrimeArg w g delta b1 b2))

/-- `_weighted_sum_real` (cddm/_core_nb.py:173-175). -/
def weightedSumR (x y weight : ℝ) : ℝ := x * weight + (1 - weight) * y

/-- `_weighted_sum_complex` (cddm/_core_nb.py:177-181). -/
def weightedSumC (x y weight : Cx ℝ) : Cx ℝ :=
  ⟨x.re * weight.re + (1 - weight.re) * y.re, x.im * weight.im + (1 - weight.im) * y.im⟩

/-! ### Background and variance -/

/-- The argument `variance`: one number or a pair (cddm/norm.py:155-159). -/
inductive Variance
  | one (v : ℝ)
  | two (v1 v2 : ℝ)

/-- The argument `background`: one value or a pair (cddm/norm.py:448-451). -/
inductive Background
  | one (b : Cx ℝ)
  | two (b1 b2 : Cx ℝ)

/-- `scale_factor` (cddm/norm.py:134-163). -/
noncomputable def scaleFactor (variance : Option Variance) : Py ℝ :=
  match variance with
  | none => .error .valueError
  | some (.one v) => .ok v
  | some (.two v1 v2) => .ok ((v1 + v2) / 2)

/-- `noise_delta` (cddm/norm.py:232-262); zero divisor: `none`.  `variance` is present when this is
called. -/
noncomputable def noiseDelta (variance : Variance) (scale : Bool) : Option ℝ :=
  match variance with
  | .one _ => some 0
  | .two v1 v2 => fdiv (v2 - v1) (if scale then v1 + v2 else 2)

/-- `_inspect_background` (cddm/norm.py:446-463). -/
noncomputable def inspectBackground (background : Option Background) (norm : Nat) :
    Py (Cx ℝ × Cx ℝ) :=
  match background with
  | some (.one b) => .ok (b, b)
  | some (.two b1 b2) => .ok (b1, b2)
  | none => if norm > 0 then .error .valueError else .ok (0, 0)

/-! ### normalize -/

/-- The argument `data`: a 5-tuple, a 4-tuple or something else (cddm/norm.py:466-475). -/
inductive NormData (C : Type)
  | corr (cor : List C) (count : List Nat) (sq : Option (List ℝ)) (s1 s2 : Option (List (Cx ℝ)))
  | diff (dif : List C) (count : List Nat) (s1 s2 : Option (List (Cx ℝ)))
  | other

/-- The functions selected by the type of the data, `np.iscomplexobj(data)` (cddm/_core_nb.py:843-847,
889-893, 912-916, 978-982, 1005-1009, 1067-1071, 183-192).  `cdiff` is `none` for complex data
(the ufunc has no complex loop: TypeError). -/
structure NormOps (C : Type) where
  corrBaseline : C → Nat → Cx ℝ → Cx ℝ → Option C
  structBaseline : C → Nat → Cx ℝ → Cx ℝ → ℝ → ℝ → Option C
  corrSubtracted : C → Nat → Cx ℝ → Cx ℝ → Cx ℝ → Cx ℝ → Option C
  corrCompensated : C → Nat → Cx ℝ → Cx ℝ → Option C
  structSubtracted : C → Nat → Cx ℝ → Cx ℝ → ℝ → ℝ → Cx ℝ → Cx ℝ → Option C
  structCompensated : C → Nat → ℝ → ℝ → Cx ℝ → Cx ℝ → Option C
  cdiff1 : Option (C → Nat → Cx ℝ → Option C)
  cdiff3 : Option (C → Nat → Cx ℝ → Cx ℝ → Cx ℝ → Option C)
  ofReal : ℝ → C
  denoise : List C → Py (List C)
  weightFromG : C → ℝ → C
  weightFromD : C → ℝ → C
  weightedSum : C → C → C → C

/-- Real data (cddm/_core_nb.py, the `_real` functions; `denoise` with its default 3 passes,
cddm/avg.py:7). -/
noncomputable def normOpsR : NormOps ℝ :=
  { corrBaseline := corrBaselineR
    structBaseline := structBaselineR
    corrSubtracted := corrSubtractedR
    corrCompensated := corrCompensatedR
    structSubtracted := structSubtractedR
    structCompensated := structCompensatedR
    cdiff1 := some cdiff1
    cdiff3 := some cdiff3
    ofReal := fun r => r
    denoise := fun x => denoise x 3
    weightFromG := weightFromG
    weightFromD := weightFromD
    weightedSum := weightedSumR }

/-- Complex data: the `_complex` functions (cddm/_core_nb.py:838-1065). -/
noncomputable def normOpsC : NormOps (Cx ℝ) :=
  { corrBaseline := corrBaselineC
    structBaseline := structBaselineC
    corrSubtracted := corrSubtractedC
    corrCompensated := corrCompensatedC
    structSubtracted := structSubtractedC
    structCompensated := structCompensatedC
    cdiff1 := none
    cdiff3 := none
    ofReal := Cx.ofR
    denoise := fun x => denoiseCx x 3
    weightFromG := weightFromGC
    weightFromD := weightFromDC
    weightedSum := weightedSumC }

section normalize
variable {C : Type} [AddCommGroup C] [Module ℝ C]

/-- `_corr2diff` (cddm/norm.py:435-439): `data * (-2) + 2 * offset`. -/
noncomputable def corr2diff (ops : NormOps C) (offset : ℝ) (x : C) : C :=
  (-2 : ℝ) • x + ops.ofReal (offset * 2)

/-- `_diff2corr` (cddm/norm.py:429-433): `data * (-0.5) + offset`. -/
noncomputable def diff2corr (ops : NormOps C) (offset : ℝ) (x : C) : C :=
  (-(1 / 2) : ℝ) • x + ops.ofReal offset

/-- An entry of the data tuple used in a formula (cddm/norm.py:629-700): `None` makes the ufunc raise TypeError, an array
of another length a broadcasting ValueError (broadcasting of length 1 is not modelled). -/
def needArray {α : Type} (x : Option (List α)) (n : Nat) : Py (List α) :=
  match x with
  | none => .error .typeError
  | some x => if x.length = n then .ok x else .error .valueError

/-- A ufunc without a loop for the type of the data raises TypeError (cddm/_core_nb.py:1078,
1096). -/
def needLoop {α : Type} (f : Option α) : Py α :=
  match f with
  | none => .error .typeError
  | some f => .ok f

/-- `if mode == "diff": result = _corr2diff(result, variance, mask)` (cddm/norm.py:647-648, 656-657,
670-671, 687-688, 699-700, 715-716). -/
noncomputable def finishCorr (ops : NormOps C) (variance : Option Variance) (mode : String)
    (r : List (Option C)) : Py (List (Option C)) :=
  if mode = "diff" then do
    let offset ← scaleFactor variance
    .ok (r.map (Option.map (corr2diff ops offset)))
  else .ok r

/-- `if mode == "corr": result = _diff2corr(result, variance, mask)` (cddm/norm.py:662-663,
705-706). -/
noncomputable def finishDiff (ops : NormOps C) (variance : Option Variance) (mode : String)
    (r : List (Option C)) : Py (List (Option C)) :=
  if mode = "corr" then do
    let offset ← scaleFactor variance
    .ok (r.map (Option.map (diff2corr ops offset)))
  else .ok r

/-- The part of `normalize` after the weighted branch, for correlation data
(cddm/norm.py:644-718). -/
noncomputable def normCorr (ops : NormOps C) (cor : List C) (count : List Nat)
    (sq : Option (List ℝ)) (s1 s2 : Option (List (Cx ℝ))) (bg1 bg2 : Cx ℝ)
    (variance : Option Variance) (norm : Nat) (mode : String) : Py (List (Option C)) := do
  let n := cor.length
  let count ← needArray (some count) n
  let dc := cor.zip count
  -- `m2 = data[4] if data[4] is not None else m1`
  let s2 := if s2.isSome then s2 else s1
  if norm = 1 then
    finishCorr ops variance mode (dc.map fun (d, c) => ops.corrBaseline d c bg1 bg2)
  else if norm = 2 then do
    let offset ← scaleFactor variance
    let sq ← needArray sq n
    finishCorr ops variance mode
      (List.zipWith (fun (d, c) q => ops.structBaseline d c bg1 bg2 offset q) dc sq)
  else if norm = 4 ||| 1 ∨ norm = 4 ||| 1 ||| 8 then do
    let m1 ← needArray s1 n
    let m2 ← needArray s2 n
    finishCorr ops variance mode
      (List.zipWith (fun (d, c) (m1, m2) => ops.corrSubtracted d c bg1 bg2 m1 m2) dc (m1.zip m2))
  else if norm = 1 ||| 8 then do
    let m1 ← needArray s1 n
    let m2 ← needArray s2 n
    finishCorr ops variance mode
      (List.zipWith (fun (d, c) (m1, m2) => ops.corrCompensated d c m1 m2) dc (m1.zip m2))
  else if norm = 2 ||| 4 ∨ norm = 4 ||| 2 ||| 8 then do
    let offset ← scaleFactor variance
    let m1 ← needArray s1 n
    let m2 ← needArray s2 n
    let sq ← needArray sq n
    finishCorr ops variance mode
      (List.zipWith (fun (d, c) (q, m1, m2) => ops.structSubtracted d c bg1 bg2 offset q m1 m2)
        dc (sq.zip (m1.zip m2)))
  else if norm = 2 ||| 8 then do
    let offset ← scaleFactor variance
    let m1 ← needArray s1 n
    let m2 ← needArray s2 n
    let sq ← needArray sq n
    finishCorr ops variance mode
      (List.zipWith (fun (d, c) (q, m1, m2) => ops.structCompensated d c offset q m1 m2)
        dc (sq.zip (m1.zip m2)))
  else .error .valueError

/-- The same for difference data, whose norm is 2 or 6 (cddm/norm.py:659-663, 701-706). -/
noncomputable def normDiff (ops : NormOps C) (dif : List C) (count : List Nat)
    (s1 s2 : Option (List (Cx ℝ))) (bg1 bg2 : Cx ℝ) (variance : Option Variance) (norm : Nat)
    (mode : String) : Py (List (Option C)) := do
  let n := dif.length
  let count ← needArray (some count) n
  let dc := dif.zip count
  let d := bg2 - bg1
  if norm = 2 then do
    let f ← needLoop ops.cdiff1
    finishDiff ops variance mode (dc.map fun (x, c) => f x c d)
  else if norm = 2 ||| 4 then do
    let m1 ← needArray s1 n
    let m2 ← needArray s2 n
    let f ← needLoop ops.cdiff3
    finishDiff ops variance mode
      (List.zipWith (fun (x, c) (m1, m2) => f x c d m1 m2) dc (m1.zip m2))
  else .error .valueError

/-- `if scale == True: result /= _scale_factor` (cddm/norm.py:720-721). -/
noncomputable def finishScale (variance : Option Variance) (scale : Bool)
    (r : List (Option C)) : Py (List (Option C)) :=
  if scale = true then do
    let s ← scaleFactor variance
    .ok (r.map fun x => x.bind fun x => if s = 0 then none else some ((1 / s) • x))
  else .ok r

/-- Which norm: `_default_norm_from_data` (cddm/norm.py:421-426, 466-475). -/
def normOf (data : NormData C) (norm : Option Int) : Py Nat :=
  match data with
  | .corr _ _ sq s1 _ => normFromCcorrData sq.isSome s1.isSome norm
  | .diff _ _ s1 s2 => normFromCdiffData s1.isSome s2.isSome norm
  | .other => .error .valueError

/-- `_inspect_mode` (cddm/norm.py:477-481). -/
def inspectMode (mode : String) : Py String :=
  if mode = "corr" ∨ mode = "diff" then .ok mode else .error .valueError

/-- `normalize` with a norm that is not weighted (cddm/norm.py:534-561, 626-726). -/
noncomputable def normalizePlain (ops : NormOps C) (data : NormData C)
    (background : Option Background) (variance : Option Variance) (norm : Nat) (mode : String)
    (scale : Bool) : Py (List (Option C)) := do
  let (bg1, bg2) ← inspectBackground background norm
  match data with
  | .corr cor count sq s1 s2 => do
    let r ← normCorr ops cor count sq s1 s2 bg1 bg2 variance norm mode
    finishScale variance scale r
  | .diff dif count s1 s2 => do
    let r ← normDiff ops dif count s1 s2 bg1 bg2 variance norm mode
    finishScale variance scale r
  | .other => .error .valueError

/-- The input of the smoothing (cddm/norm.py:265-312): all values finite, or no answer from the model.  The smoothing of curves containing inf or NaN
is not modelled. -/
def allFinite {α : Type} (x : List (Option α)) : Py (List α) :=
  match x.mapM id with
  | some y => .ok y
  | none => .error .notModelled

/-- `weight_from_data` (cddm/norm.py:265-312), `pre_filter = True`. -/
noncomputable def weightFromData (ops : NormOps C) (corr : List C) (delta scale : ℝ)
    (mode : String) : Py (List C) :=
  if mode = "corr" ∨ mode = "diff" then do
    let corr ← ops.denoise corr
    if scale = 0 then .error .notModelled else
    .ok (corr.map fun x =>
      if mode = "corr" then ops.weightFromG ((1 / scale) • x) delta
      else ops.weightFromD ((1 / scale) • x) delta)
  else .error .valueError

/-- `weighted_sum` of whole curves (cddm/_core_nb.py:183-192); with a term that is not finite the sum is not finite.
Arrays of length one, which are stretched, are not modelled. -/
def weightedCurve (ops : NormOps C) (comp base : List (Option C)) (weight : List C) : Py (List (Option C)) :=
  if comp.length = weight.length ∧ base.length = weight.length then
    .ok (List.zipWith (fun x (y, w) => x.bind fun x => y.map fun y => ops.weightedSum x y w) comp (base.zip weight))
  else if weight.length = 1 ∨ comp.length = 1 then .error .notModelled
  else .error .valueError

/-- The weighted branch (cddm/norm.py:563-624): the structured and the standard curve are combined
with the given weight, or with one computed from the data in three rounds.  Returns the curve and
the weight.  A weight of another type (real weight for complex data) is not modelled. -/
noncomputable def normalizeWeighted (ops : NormOps C) (data : NormData C)
    (background : Option Background) (variance : Option Variance) (norm : Nat) (mode : String)
    (scale : Bool) (weight : Option (List C)) : Py (List (Option C) × List C) := do
  let _ ← inspectBackground background norm
  let normComp ← normOf data (some ((norm &&& (4 ||| 8)) ||| 2 : Nat))
  let comp ← normalizePlain ops data background variance normComp mode scale
  let normBase ← normOf data (some ((norm &&& (4 ||| 8)) ||| 1 : Nat))
  let base ← normalizePlain ops data background variance normBase mode scale
  let s ← (if scale then .ok 1 else scaleFactor variance)
  match weight with
  | some w => do
    let r ← weightedCurve ops comp base w
    .ok (r, w)
  | none =>
    match variance with
    | none => .error .valueError
    | some v =>
      match noiseDelta v scale with
      | none => .error .notModelled
      | some delta => do
        let x ← allFinite base
        let w ← weightFromData ops x delta s mode
        let r ← weightedCurve ops comp base w
        let x ← allFinite r
        let w ← weightFromData ops x delta s mode
        let r ← weightedCurve ops comp base w
        let x ← allFinite r
        let w ← weightFromData ops x delta s mode
        let r ← weightedCurve ops comp base w
        .ok (r, w)

/-- `normalize` (cddm/norm.py:489-726).  The result is the curve and, for a weighted norm, the
weight used. -/
noncomputable def normalize (ops : NormOps C) (data : NormData C)
    (background : Option Background) (variance : Option Variance) (norm : Option Int)
    (mode : String) (scale : Bool) (weight : Option (List C)) :
    Py (List (Option C) × Option (List C)) := do
  let mode ← inspectMode mode
  let norm ← normOf data norm
  let _ ← (if scale then (scaleFactor variance).map some else .ok none)
  if norm &&& 3 = 3 then do
    let (r, w) ← normalizeWeighted ops data background variance norm mode scale weight
    .ok (r, some w)
  else do
    let r ← normalizePlain ops data background variance norm mode scale
    .ok (r, weight)

/-- `normalize` with a norm given as a string (cddm/norm.py:540-541). -/
noncomputable def normalizeStr (ops : NormOps C) (data : NormData C)
    (background : Option Background) (variance : Option Variance) (norm : List Char)
    (mode : String) (scale : Bool) (weight : Option (List C)) :
    Py (List (Option C) × Option (List C)) := do
  let _ ← (match data with
    | .other => .error .valueError
    | _ => .ok () : Py Unit)
  let mode ← inspectMode mode
  let norm ← normFromString norm
  normalize ops data background variance (some (norm : Int)) mode scale weight

end normalize

/-- The tuple returned by `ccorr` and `acorr`, as seen by `normalize`: a 4-tuple for method 'diff',
else a 5-tuple (cddm/core.py:1132-1135, 1293-1296). -/
def CorrTuple.toData {C : Type} (method : String) (r : CorrTuple C) : NormData C :=
  if method = "diff" then .diff r.cor r.count r.ds1 r.ds2
  else .corr r.cor r.count r.sq r.ds1 r.ds2

end Cddm
