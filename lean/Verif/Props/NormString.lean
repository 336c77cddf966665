import Verif.Model.Norm
import Verif.Spec.NormString
import Mathlib.Data.Nat.Bitwise

/-!
# C20: normalization strings and flags
-/

namespace Cddm
open Spec

/-! ### Auxiliary facts -/

theorem char_ofNat_toNat (c : Char) : Char.ofNat c.toNat = c := Char.ofNat_toNat c

theorem toUpper_of_not (c : Char) (h : ¬ (97 ≤ c.toNat ∧ c.toNat ≤ 122)) : c.toUpper = c := by
  unfold Char.toUpper
  rw [dif_neg]
  simp only [Char.toNat, UInt32.le_iff_toNat_le] at *
  exact h

theorem upperChar_ascii (c : Char) (h : c.toNat < 128) : upperChar c = [c.toUpper] := by
  unfold upperChar
  dsimp only
  split
  · rfl
  · rename_i hn
    rw [toUpper_of_not c hn]
    repeat' split
    all_goals first | omega | rfl

theorem isSpace_ascii_aux : ∀ n < 128, isSpaceChar (Char.ofNat n) = true ↔ Char.ofNat n ∈ blanks := by
  decide

theorem isSpace_ascii (c : Char) (h : c.toNat < 128) : isSpaceChar c = true ↔ c ∈ blanks := by
  have := isSpace_ascii_aux c.toNat h
  rwa [char_ofNat_toNat] at this

theorem blank_ascii : ∀ c ∈ blanks, c.toNat < 128 := by decide
theorem blank_space : ∀ c ∈ blanks, isSpaceChar c = true := by decide
theorem blank_not_bar : '|' ∉ blanks := by decide

theorem ascii_letter_aux : ∀ n < 128, 65 ≤ (Char.ofNat n).toUpper.toNat →
    (Char.ofNat n).toUpper.toNat ≤ 90 → isSpaceChar (Char.ofNat n) = false ∧ Char.ofNat n ≠ '|' := by
  decide

/-- A character whose upper case is a capital letter is an ASCII character, not blank, not a bar. -/
theorem letter_facts (c : Char) (h1 : 65 ≤ c.toUpper.toNat) (h2 : c.toUpper.toNat ≤ 90) :
    c.toNat < 128 ∧ isSpaceChar c = false ∧ c ≠ '|' := by
  have h : c.toNat < 128 := by
    by_cases hl : 97 ≤ c.toNat ∧ c.toNat ≤ 122
    · omega
    · rw [toUpper_of_not c hl] at h2; omega
  have := ascii_letter_aux c.toNat h
  rw [char_ofNat_toNat] at this
  exact ⟨h, this h1 h2⟩

theorem normWords_capital : ∀ p ∈ normWords, p.1.toList ≠ [] ∧
    ∀ c ∈ p.1.toList, 65 ≤ c.toNat ∧ c.toNat ≤ 90 := by decide

theorem normAttr_words (name : List Char) (v : Nat) :
    normAttr name = some v ↔ ∃ w, (w, v) ∈ normWords ∧ String.toList w = name := by
  unfold normAttr normWords
  constructor
  · intro h
    split at h
    · next e => exact ⟨"NONE", by simp_all, e.symm⟩
    split at h
    · next e => exact ⟨"BASELINE", by simp_all, e.symm⟩
    split at h
    · next e => exact ⟨"STANDARD", by simp_all, e.symm⟩
    split at h
    · next e => exact ⟨"STRUCTURED", by simp_all, e.symm⟩
    split at h
    · next e => exact ⟨"WEIGHTED", by simp_all, e.symm⟩
    split at h
    · next e => exact ⟨"SUBTRACTED", by simp_all, e.symm⟩
    split at h
    · next e => exact ⟨"COMPENSATED", by simp_all, e.symm⟩
    · simp at h
  · rintro ⟨w, hw, rfl⟩
    simp only [List.mem_cons, Prod.mk.injEq, List.not_mem_nil, or_false] at hw
    rcases hw with ⟨rfl, rfl⟩ | ⟨rfl, rfl⟩ | ⟨rfl, rfl⟩ | ⟨rfl, rfl⟩ | ⟨rfl, rfl⟩ | ⟨rfl, rfl⟩ |
      ⟨rfl, rfl⟩ <;> decide

theorem word_facts {word : List Char} {name : String} {v : Nat}
    (h : word.map Char.toUpper = name.toList) (hm : (name, v) ∈ normWords) :
    word ≠ [] ∧ ∀ c ∈ word, c.toNat < 128 ∧ isSpaceChar c = false ∧ c ≠ '|' := by
  obtain ⟨h1, h2⟩ := normWords_capital _ hm
  refine ⟨by rintro rfl; exact h1 h.symm, fun c hc => ?_⟩
  have : c.toUpper ∈ name.toList := by rw [← h]; exact List.mem_map_of_mem hc
  exact letter_facts c (h2 _ this).1 (h2 _ this).2

theorem strip_eq (pre word post : List Char) (h1 : ∀ c ∈ pre, isSpaceChar c = true)
    (h2 : ∀ c ∈ post, isSpaceChar c = true) (hne : word ≠ [])
    (hw : ∀ c ∈ word, isSpaceChar c = false) : stripChars (pre ++ word ++ post) = word := by
  have key : ∀ (a b : List Char), (∀ c ∈ a, isSpaceChar c = true) → b ≠ [] →
      (∀ c, b.head? = some c → isSpaceChar c = false) → (a ++ b).dropWhile isSpaceChar = b := by
    intro a b ha hb hh
    rw [List.dropWhile_append_of_pos ha]
    cases b with
    | nil => exact absurd rfl hb
    | cons x xs =>
      rw [List.dropWhile_cons, hh x rfl]
      simp
  unfold stripChars
  rw [List.append_assoc, key pre (word ++ post) h1 (by simp [hne])]
  · rw [List.reverse_append, key post.reverse word.reverse (by simpa using h2) (by simpa using hne),
      List.reverse_reverse]
    intro c hc
    exact hw c (by simpa using List.mem_of_mem_head? hc)
  · intro c hc
    cases word with
    | nil => exact absurd rfl hne
    | cons x xs =>
      simp at hc
      exact hw c (by simp [hc])

theorem flatMap_ascii (l : List Char) (h : ∀ c ∈ l, c.toNat < 128) :
    l.flatMap upperChar = l.map Char.toUpper := by
  induction l with
  | nil => rfl
  | cons c l ih =>
    rw [List.flatMap_cons, upperChar_ascii c (h c (by simp)), ih fun c hc => h c (by simp [hc])]
    rfl

/-- A part is a word with blanks around it: the code finds its value. -/
theorem part_attr {p : List Char} {v : Nat} (h : IsPart p v) :
    normAttr ((stripChars p).flatMap upperChar) = some v := by
  obtain ⟨pre, word, post, name, rfl, h1, h2, h3, h4⟩ := h
  obtain ⟨w1, w2⟩ := word_facts h3 h4
  rw [strip_eq pre word post (fun c hc => blank_space c (h1 c hc))
      (fun c hc => blank_space c (h2 c hc)) w1 (fun c hc => (w2 c hc).2.1),
    flatMap_ascii _ fun c hc => (w2 c hc).1, h3]
  exact (normAttr_words _ _).mpr ⟨name, h4, rfl⟩

theorem part_no_bar {p : List Char} {v : Nat} (h : IsPart p v) : '|' ∉ p := by
  obtain ⟨pre, word, post, name, rfl, h1, h2, h3, h4⟩ := h
  obtain ⟨-, w2⟩ := word_facts h3 h4
  simp only [List.mem_append, not_or]
  exact ⟨⟨fun hc => blank_not_bar (h1 _ hc), fun hc => (w2 _ hc).2.2 rfl⟩,
    fun hc => blank_not_bar (h2 _ hc)⟩

theorem dropWhile_decomp (p : List Char) : ∃ pre, p = pre ++ p.dropWhile isSpaceChar ∧
    ∀ c ∈ pre, isSpaceChar c = true :=
  ⟨p.takeWhile isSpaceChar, by simp, fun c hc => by
    have := List.all_takeWhile (p := isSpaceChar) (l := p)
    exact List.all_eq_true.mp this c hc⟩

theorem strip_decomp (p : List Char) : ∃ pre post, p = pre ++ stripChars p ++ post ∧
    (∀ c ∈ pre, isSpaceChar c = true) ∧ ∀ c ∈ post, isSpaceChar c = true := by
  obtain ⟨pre, h1, h2⟩ := dropWhile_decomp p
  obtain ⟨post, h3, h4⟩ := dropWhile_decomp (p.dropWhile isSpaceChar).reverse
  refine ⟨pre, post.reverse, ?_, h2, by simpa using h4⟩
  have := congrArg List.reverse h3
  rw [List.reverse_reverse, List.reverse_append] at this
  unfold stripChars
  rw [List.append_assoc, ← this]
  exact h1

/-- For ASCII text the converse holds too. -/
theorem part_iff {p : List Char} {v : Nat} (ha : ∀ c ∈ p, c.toNat < 128) :
    normAttr ((stripChars p).flatMap upperChar) = some v ↔ IsPart p v := by
  refine ⟨fun h => ?_, part_attr⟩
  obtain ⟨pre, post, e, h1, h2⟩ := strip_decomp p
  have hmem : ∀ c, c ∈ pre ∨ c ∈ stripChars p ∨ c ∈ post → c ∈ p := by
    intro c hc
    rw [e]
    simpa [List.mem_append] using hc
  rw [flatMap_ascii _ fun c hc => ha c (hmem c (by tauto)), normAttr_words] at h
  obtain ⟨w, hw, hn⟩ := h
  exact ⟨pre, stripChars p, post, w, e,
    fun c hc => (isSpace_ascii c (ha c (hmem c (by tauto)))).mp (h1 c hc),
    fun c hc => (isSpace_ascii c (ha c (hmem c (by tauto)))).mp (h2 c hc), hn.symm, hw⟩

theorem splitBar_join : ∀ (ps : List (List Char)), ps ≠ [] → (∀ p ∈ ps, '|' ∉ p) →
    splitBar (joinBar ps) = ps
  | [], h, _ => absurd rfl h
  | [p], _, h => List.splitOn_eq_singleton (h p (by simp))
  | p :: q :: ps, _, h => by
    rw [joinBar, splitBar, List.splitOn_append_cons_self_of_not_mem (h p (by simp))]
    · have := splitBar_join (q :: ps) (by simp) (fun x hx => h x (by simp [hx]))
      rw [splitBar] at this
      rw [this]
    · simp

theorem normParts_ok (ps : List (List Char)) (vs : List Nat) (acc : Nat)
    (h : List.Forall₂ (fun p v => normAttr ((stripChars p).flatMap upperChar) = some v) ps vs) :
    normParts acc ps = .ok (vs.foldl (· ||| ·) acc) := by
  induction h generalizing acc with
  | nil => rfl
  | cons h1 _ ih => rw [normParts, h1]; exact ih _

theorem normParts_total (ps : List (List Char)) (acc : Nat) :
    (normParts acc ps = .error .valueError ∧
      ∃ p ∈ ps, normAttr ((stripChars p).flatMap upperChar) = none) ∨
    ∃ vs, List.Forall₂ (fun p v => normAttr ((stripChars p).flatMap upperChar) = some v) ps vs := by
  induction ps generalizing acc with
  | nil => exact Or.inr ⟨[], .nil⟩
  | cons p ps ih =>
    cases hp : normAttr ((stripChars p).flatMap upperChar) with
    | none => exact Or.inl ⟨by rw [normParts, hp], p, by simp, hp⟩
    | some v =>
      rcases ih (acc ||| v) with ⟨h, q, hq, hn⟩ | ⟨vs, h⟩
      · exact Or.inl ⟨by rw [normParts, hp]; exact h, q, by simp [hq], hn⟩
      · exact Or.inr ⟨v :: vs, .cons hp h⟩

theorem foldl_or_testBit (vs : List Nat) (acc i : Nat) :
    (vs.foldl (· ||| ·) acc).testBit i = true ↔
      acc.testBit i = true ∨ ∃ w ∈ vs, w.testBit i = true := by
  induction vs generalizing acc with
  | nil => simp
  | cons v vs ih =>
    rw [List.foldl_cons, ih, Nat.testBit_or]
    simp only [Bool.or_eq_true, List.mem_cons, exists_eq_or_imp]
    tauto

theorem mod_four_bits (v : Nat) : v % 4 = 0 ↔ v.testBit 0 = false ∧ v.testBit 1 = false := by
  rw [Nat.testBit_zero, Nat.testBit_succ, Nat.testBit_zero]
  simp only [decide_eq_false_iff_not]
  omega

/-- What the code makes of the flags of the parts. -/
def decodeFlags (vs : List Nat) : Nat :=
  let v := vs.foldl (· ||| ·) 0
  if v % 4 = 0 then v ||| 1 else v

theorem decodeFlags_bits (vs : List Nat) : NormBits vs (decodeFlags vs) := by
  intro i
  have hb : ∀ i, (vs.foldl (· ||| ·) 0).testBit i = true ↔ ∃ w ∈ vs, w.testBit i = true := by
    intro i; rw [foldl_or_testBit]; simp
  have hf : ∀ i, (vs.foldl (· ||| ·) 0).testBit i = false ↔ ∀ w ∈ vs, w.testBit i = false := by
    intro i
    rw [← Bool.not_eq_true, hb]
    simp
  unfold decodeFlags
  dsimp only
  split
  · next h =>
    rw [mod_four_bits, hf, hf] at h
    rw [Nat.testBit_or, Bool.or_eq_true, hb, Nat.testBit_one_eq_true_iff_self_eq_zero]
    constructor
    · rintro (h' | h')
      · exact Or.inl h'
      · exact Or.inr ⟨h', fun w hw => ⟨h.1 w hw, h.2 w hw⟩⟩
    · rintro (h' | h')
      · exact Or.inl h'
      · exact Or.inr h'.1
  · next h =>
    rw [mod_four_bits, hf, hf] at h
    rw [hb]
    constructor
    · exact Or.inl
    · rintro (h' | h')
      · exact h'
      · exact absurd ⟨fun w hw => (h'.2 w hw).1, fun w hw => (h'.2 w hw).2⟩ h

theorem normBits_unique {vs : List Nat} {a b : Nat} (ha : NormBits vs a) (hb : NormBits vs b) :
    a = b := by
  apply Nat.eq_of_testBit_eq
  intro i
  rw [Bool.eq_iff_iff, ha i, hb i]

theorem normBits_supported {vs : List Nat} {v : Nat} (h : NormBits vs v)
    (hv : ∀ w ∈ vs, w < 16) : SupportedValue v := by
  have h16 : v < 2 ^ 4 := by
    apply Nat.lt_pow_two_of_testBit
    intro i hi
    rw [← Bool.not_eq_true, h i]
    rintro (⟨w, hw, hb⟩ | ⟨h0, -⟩)
    · rw [Nat.testBit_lt_two_pow (lt_of_lt_of_le (hv w hw) (Nat.pow_le_pow_right (n := 2) (by omega) hi))] at hb
      exact absurd hb (by simp)
    · omega
  have h4 : v % 4 ≠ 0 := by
    rw [Ne, mod_four_bits]
    rintro ⟨h0, h1⟩
    rw [← Bool.not_eq_true, h] at h0 h1
    simp only [not_or, not_exists, not_and, true_and] at h0 h1
    exact h0.2 fun w hw => ⟨by simpa using h0.1 w hw, by simpa using h1.1 w hw⟩
  unfold SupportedValue
  omega

theorem normAttr_lt {name : List Char} {v : Nat} (h : normAttr name = some v) : v < 16 := by
  obtain ⟨w, hw, -⟩ := (normAttr_words _ _).mp h
  revert hw
  unfold normWords
  simp only [List.mem_cons, Prod.mk.injEq, List.not_mem_nil, or_false]
  omega

/-! ### C20 -/

/-- Parts joined by `|` decode to the union of their flags; standard is added when neither standard
nor structured occurs.  Case and surrounding blanks do not matter (`IsPart`). -/
theorem C20_string_value (ps : List (List Char)) (vs : List Nat) (hne : ps ≠ [])
    (h : List.Forall₂ IsPart ps vs) :
    ∃ v, normFromString (joinBar ps) = .ok v ∧ NormBits vs v ∧ SupportedValue v := by
  have hs : splitBar (joinBar ps) = ps := by
    refine splitBar_join ps hne ?_
    intro p hp
    obtain ⟨hl, hg⟩ := List.forall₂_iff_get.mp h
    obtain ⟨i, hi, rfl⟩ := List.getElem_of_mem hp
    exact part_no_bar (hg i hi (hl ▸ hi))
  have hok := normParts_ok ps vs 0 (h.imp fun _ _ => part_attr)
  refine ⟨decodeFlags vs, ?_, decodeFlags_bits vs, normBits_supported (decodeFlags_bits vs) ?_⟩
  · rw [normFromString, hs, hok]
    rfl
  · intro w hw
    obtain ⟨hl, hg⟩ := List.forall₂_iff_get.mp h
    obtain ⟨i, hi, rfl⟩ := List.getElem_of_mem hw
    exact normAttr_lt (part_attr (hg i (hl ▸ hi) hi))

/-- Order and repetition of the parts do not matter. -/
theorem C20_string_order (ps ps' : List (List Char)) (vs vs' : List Nat) (hne : ps ≠ [])
    (hne' : ps' ≠ []) (h : List.Forall₂ IsPart ps vs) (h' : List.Forall₂ IsPart ps' vs')
    (hset : ∀ w, w ∈ vs ↔ w ∈ vs') :
    normFromString (joinBar ps) = normFromString (joinBar ps') := by
  obtain ⟨v, e, b, -⟩ := C20_string_value ps vs hne h
  obtain ⟨v', e', b', -⟩ := C20_string_value ps' vs' hne' h'
  rw [e, e', normBits_unique b (b := v') (fun i => by rw [b' i]; simp only [hset])]

/-- Any string at all: either a supported norm or ValueError. -/
theorem C20_string_range (s : List Char) :
    normFromString s = .error .valueError ∨
      ∃ v, normFromString s = .ok v ∧ SupportedValue v := by
  rcases normParts_total (splitBar s) 0 with ⟨h, -⟩ | ⟨vs, h⟩
  · left; rw [normFromString, h]; rfl
  · right
    refine ⟨decodeFlags vs, ?_, normBits_supported (decodeFlags_bits vs) ?_⟩
    · rw [normFromString, normParts_ok _ _ _ h]; rfl
    · intro w hw
      obtain ⟨hl, hg⟩ := List.forall₂_iff_get.mp h
      obtain ⟨i, hi, rfl⟩ := List.getElem_of_mem hw
      exact normAttr_lt (hg i (hl ▸ hi) hi)

/-- An ASCII string is refused exactly when some part is not a known word. -/
theorem C20_string_unknown (ps : List (List Char)) (hne : ps ≠ [])
    (hb : ∀ p ∈ ps, '|' ∉ p) (ha : ∀ p ∈ ps, ∀ c ∈ p, c.toNat < 128) :
    normFromString (joinBar ps) = .error .valueError ↔ ∃ p ∈ ps, ∀ v, ¬ IsPart p v := by
  constructor
  · intro he
    rcases normParts_total ps 0 with ⟨-, p, hp, hn⟩ | ⟨vs, h⟩
    · refine ⟨p, hp, fun v hv => ?_⟩
      rw [part_attr hv] at hn
      exact absurd hn (by simp)
    · rw [normFromString, splitBar_join ps hne hb, normParts_ok _ _ _ h] at he
      exact absurd he (by simp [bind, Except.bind])
  · rintro ⟨p, hp, hn⟩
    rcases normParts_total ps 0 with ⟨h, -⟩ | ⟨vs, h⟩
    · rw [normFromString, splitBar_join ps hne hb, h]; rfl
    · obtain ⟨hl, hg⟩ := List.forall₂_iff_get.mp h
      obtain ⟨i, hi, rfl⟩ := List.getElem_of_mem hp
      exact absurd ((part_iff (ha _ hp)).mp (hg i hi (hl ▸ hi))) (hn _)

/-- Every string is some parts joined by bars, so the two theorems above cover all ASCII strings. -/
theorem C20_string_parts (s : List Char) : ∃ ps, ps ≠ [] ∧ (∀ p ∈ ps, '|' ∉ p) ∧ joinBar ps = s := by
  induction s with
  | nil => exact ⟨[[]], by simp, by simp, rfl⟩
  | cons c s ih =>
    obtain ⟨ps, h1, h2, rfl⟩ := ih
    cases ps with
    | nil => exact absurd rfl h1
    | cons p ps =>
      by_cases hc : c = '|'
      · subst hc
        exact ⟨[] :: p :: ps, by simp, by simpa using h2, rfl⟩
      · refine ⟨(c :: p) :: ps, by simp, ?_, by cases ps <;> rfl⟩
        intro q hq
        rcases List.mem_cons.mp hq with rfl | hq
        · simp [Ne.symm hc, h2 p (by simp)]
        · exact h2 q (by simp [hq])

/-- All flag combinations: the requested bits, standard when neither structured nor weighted is
requested, weighted meaning both; a supported norm. -/
theorem C20_flags (structured subtracted weighted compensated : Bool) :
    SupportedValue (normFlags structured subtracted weighted compensated) ∧
    NormBits ((if structured then [2] else []) ++ (if subtracted then [4] else []) ++
      (if weighted then [3] else []) ++ (if compensated then [8] else []))
      (normFlags structured subtracted weighted compensated) := by
  have e : ∀ a b c d : Bool, normFlags a b c d = decodeFlags ((if a then [2] else []) ++
      (if b then [4] else []) ++ (if c then [3] else []) ++ (if d then [8] else [])) := by decide
  refine ⟨?_, ?_⟩
  · rw [e]
    refine normBits_supported (decodeFlags_bits _) ?_
    revert structured subtracted weighted compensated
    decide
  · rw [e]
    exact decodeFlags_bits _

/-! Cases. -/

example : IsPart " sUbtracted\t".toList 4 :=
  ⟨[' '], "sUbtracted".toList, ['\t'], "SUBTRACTED", by decide, by decide, by decide, by decide,
    by decide⟩
example : IsPart "structured".toList 2 :=
  ⟨[], "structured".toList, [], "STRUCTURED", by decide, by decide, by decide, by decide, by decide⟩
example : normFromString "structured| sUbtracted\t|STRUCTURED".toList = .ok 6 := by decide
example : normFromString "compensated".toList = .ok 9 := by decide
example : normFromString "standart".toList = .error .valueError := by decide
example : normFromString "".toList = .error .valueError := by decide
example : normFlags true false false true = 10 := by decide
/-- A letter outside ASCII whose upper case is an ASCII letter is accepted by the code. -/
example : normFromString "ſtandard".toList = .ok 1 := by decide

end Cddm
