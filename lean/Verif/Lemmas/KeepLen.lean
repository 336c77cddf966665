import Verif.Model.Ccorr

/-! # The arrays given to the correlation functions keep their length -/

namespace Cddm

/-- Whatever is returned has `n` cells. -/
def LenIs {M : Type} (n : Nat) (r : Option (List M)) : Prop := ∀ l, r = some l → l.length = n

/-- The same for a function that may raise. -/
def PyLenIs {M : Type} (n : Nat) (r : Py (List M)) : Prop := ∀ l, r = .ok l → l.length = n

namespace LenIs
variable {M : Type} {n : Nat}

theorem some' {l : List M} (h : l.length = n) : LenIs n (some l) := by
  intro l' h'
  cases h'
  exact h

theorem seq1 {α : Type} {o : Option α} {k : α → Option (List M)} (h : ∀ a, LenIs n (k a)) : LenIs n (o >>= k) := by
  intro l hl
  rcases o with _ | a
  · cases hl
  · exact h a l hl

theorem bindList {N : Type} {o : Option (List N)} {m : Nat} (ho : LenIs m o) {k : List N → Option (List M)}
    (h : ∀ a, a.length = m → LenIs n (k a)) : LenIs n (o >>= k) := by
  intro l hl
  rcases o with _ | a
  · cases hl
  · exact h a (ho a rfl) l hl

theorem cond1 {c : Prop} [Decidable c] {a b : Option (List M)} (ha : LenIs n a) (hb : LenIs n b) : LenIs n (if c then a else b) := by
  split
  · exact ha
  · exact hb

theorem add1 [Add M] {out : List M} (h : out.length = n) (m : Int) (v : M) : LenIs n (addAt out m v) := by
  intro l hl
  unfold addAt at hl
  rcases hk : pyIdx out.length m with _ | k
  · rw [hk] at hl
    cases hl
  · rw [hk] at hl
    cases hl
    rw [List.length_modify, h]

end LenIs

theorem foldlM_inv {σ : Type} (P : σ → Prop) {body : σ → Nat → Option σ} (h : ∀ s i s', P s → body s i = some s' → P s') :
    ∀ (l : List Nat) (s s' : σ), P s → l.foldlM body s = some s' → P s' := by
  intro l
  induction l with
  | nil =>
    intro s s' hs e
    cases e
    exact hs
  | cons i l ih =>
    intro s s' hs e
    rw [List.foldlM_cons] at e
    rcases hb : body s i with _ | s1
    · rw [hb] at e
      cases e
    · rw [hb] at e
      exact ih s1 s' (h s i s1 hs hb) e

theorem LenIs.loop {M : Type} {n N : Nat} {s : List M} {body : List M → Nat → Option (List M)} (hs : s.length = n)
    (h : ∀ s i, s.length = n → LenIs n (body s i)) : LenIs n (forRange N s body) := fun l hl =>
  foldlM_inv (fun s => s.length = n) (fun s i s' hs e => h s i hs s' e) _ s l hs hl

theorem LenIs.loop' {M : Type} {n a N : Nat} {s : List M} {body : List M → Nat → Option (List M)} (hs : s.length = n)
    (h : ∀ s i, s.length = n → LenIs n (body s i)) : LenIs n (forRange' a N s body) := fun l hl =>
  foldlM_inv (fun s => s.length = n) (fun s i s' hs e => h s i hs s' e) _ s l hs hl

section kernels
variable {R : Type} [Add R] [Sub R] [Neg R] [Mul R]
open LenIs

theorem crossCorr_len (x y : List (Cx R)) (t1 t2 : List Int) (out : List R) : LenIs out.length (crossCorr x y t1 t2 out) :=
  loop rfl fun _ _ hs => loop hs fun _ _ hs => seq1 fun _ => seq1 fun _ => cond1 (seq1 fun _ => seq1 fun _ => add1 hs _ _) (some' hs)

theorem crossCorrComplex_len (x y : List (Cx R)) (t1 t2 : List Int) (out : List (Cx R)) :
    LenIs out.length (crossCorrComplex x y t1 t2 out) :=
  loop rfl fun _ _ hs => loop hs fun _ _ hs => seq1 fun _ => seq1 fun _ => cond1 (seq1 fun _ => seq1 fun _ => add1 hs _ _) (some' hs)

theorem crossDiff_len (x y : List (Cx R)) (t1 t2 : List Int) (out : List R) : LenIs out.length (crossDiff x y t1 t2 out) :=
  loop rfl fun _ _ hs => loop hs fun _ _ hs => seq1 fun _ => seq1 fun _ => cond1 (seq1 fun _ => seq1 fun _ => add1 hs _ _) (some' hs)

theorem autoCorr_len (x : List (Cx R)) (t : List Int) (out : List R) : LenIs out.length (autoCorr x t out) :=
  loop rfl fun _ _ hs => loop' hs fun _ _ hs => seq1 fun _ => seq1 fun _ => cond1 (seq1 fun _ => seq1 fun _ => add1 hs _ _) (some' hs)

theorem autoDiff_len (x : List (Cx R)) (t : List Int) (out : List R) : LenIs out.length (autoDiff x t out) :=
  loop rfl fun _ _ hs => loop' hs fun _ _ hs => seq1 fun _ => seq1 fun _ => cond1 (seq1 fun _ => seq1 fun _ => add1 hs _ _) (some' hs)

theorem autoCorrComplex_len (x : List (Cx R)) (t : List Int) (out : List (Cx R)) : LenIs out.length (autoCorrComplex x t out) :=
  loop rfl fun _ _ hs => loop' hs fun _ _ hs => seq1 fun _ => seq1 fun _ => cond1
    (cond1 (seq1 fun _ => seq1 fun _ => add1 hs _ _) (some' hs)) (cond1 (seq1 fun _ => seq1 fun _ => add1 hs _ _) (some' hs))

theorem crossSum_len {M : Type} [Add M] (f : List M) (t1 t2 : List Int) (out : List M) : LenIs out.length (crossSum f t1 t2 out) :=
  loop rfl fun _ _ hs => loop hs fun _ _ hs => seq1 fun _ => seq1 fun _ => cond1 (seq1 fun _ => add1 hs _ _) (some' hs)

theorem crossSumComplex_len {M : Type} [Add M] (f : List M) (t1 t2 : List Int) (out : List M) :
    LenIs out.length (crossSumComplex f t1 t2 out) :=
  loop rfl fun _ _ hs => loop hs fun _ _ hs => seq1 fun _ => seq1 fun _ => cond1 (seq1 fun _ => add1 hs _ _) (some' hs)

theorem crossCorrAdd_len {n : Nat} (xv yv : List (Cx R)) {out : List R} (h : out.length = n) (c : Nat) :
    LenIs n (crossCorrAdd xv yv out c) := loop h fun _ _ hs => seq1 fun _ => seq1 fun _ => add1 hs _ _

theorem crossCorrComplexAdd_len {n : Nat} (xv yv : List (Cx R)) {out : List (Cx R)} (h : out.length = n) (c : Nat) :
    LenIs n (crossCorrComplexAdd xv yv out c) := loop h fun _ _ hs => seq1 fun _ => seq1 fun _ => add1 hs _ _

theorem crossDiffAdd_len {n : Nat} (xv yv : List (Cx R)) {out : List R} (h : out.length = n) (c : Nat) :
    LenIs n (crossDiffAdd xv yv out c) := loop h fun _ _ hs => seq1 fun _ => seq1 fun _ => add1 hs _ _

theorem crossCorrRegular_len (x y : List (Cx R)) (out : List R) : LenIs out.length (crossCorrRegular x y out) :=
  loop rfl fun _ _ hs => bindList (crossCorrAdd_len _ _ hs _) fun _ h => cond1 (crossCorrAdd_len _ _ h _) (some' h)

theorem crossCorrComplexRegular_len (x y : List (Cx R)) (out : List (Cx R)) : LenIs out.length (crossCorrComplexRegular x y out) :=
  loop rfl fun _ _ hs => bindList (crossCorrComplexAdd_len _ _ hs _) fun _ h => cond1 (crossCorrComplexAdd_len _ _ h _) (some' h)

theorem crossDiffRegular_len (x y : List (Cx R)) (out : List R) : LenIs out.length (crossDiffRegular x y out) :=
  loop rfl fun _ _ hs => bindList (crossDiffAdd_len _ _ hs _) fun _ h => cond1 (crossDiffAdd_len _ _ h _) (some' h)

theorem autoCorrRegular_len (x : List (Cx R)) (out : List R) : LenIs out.length (autoCorrRegular x out) :=
  loop rfl fun _ _ hs => crossCorrAdd_len _ _ hs _

theorem autoCorrComplexRegular_len (x : List (Cx R)) (out : List (Cx R)) : LenIs out.length (autoCorrComplexRegular x out) :=
  loop rfl fun _ _ hs => crossCorrComplexAdd_len _ _ hs _

theorem autoDiffRegular_len (x : List (Cx R)) (out : List R) : LenIs out.length (autoDiffRegular x out) :=
  loop rfl fun _ _ hs => crossDiffAdd_len _ _ hs _

theorem bind_some {α β : Type} {o : Option α} {k : α → Option β} {b : β} (h : (o >>= k) = some b) : ∃ a, o = some a ∧ k a = some b := by
  rcases o with _ | a
  · cases h
  · exact ⟨a, rfl, h⟩

variable {M : Type} [Zero M] [Add M] [Sub M]

theorem crossSumRegular_len (x out : List M) : LenIs out.length (crossSumRegular x out) := by
  intro l hl
  obtain ⟨r, hr, h⟩ := bind_some hl
  cases h
  refine foldlM_inv (fun s => s.1.length = out.length) ?_ _ _ _ rfl hr
  rintro ⟨s, a⟩ i ⟨s', a'⟩ hs e
  dsimp only at e hs ⊢
  split at e
  · obtain ⟨_, -, e⟩ := bind_some e
    obtain ⟨o, ho, e⟩ := bind_some e
    cases e
    exact add1 hs _ _ _ ho
  · obtain ⟨_, -, e⟩ := bind_some e
    obtain ⟨_, -, e⟩ := bind_some e
    obtain ⟨o, ho, e⟩ := bind_some e
    cases e
    exact add1 hs _ _ _ ho

theorem crossSumComplexRegular_len (x out : List M) : LenIs out.length (crossSumComplexRegular x out) := by
  intro l hl
  obtain ⟨r, hr, h⟩ := bind_some hl
  cases h
  refine foldlM_inv (fun s => s.1.length = out.length) ?_ _ _ _ rfl hr
  rintro ⟨s, a, b⟩ i ⟨s', a', b'⟩ hs e
  dsimp only at e hs ⊢
  split at e
  · obtain ⟨_, -, e⟩ := bind_some e
    obtain ⟨o, ho, e⟩ := bind_some e
    cases e
    exact add1 hs _ _ _ ho
  · obtain ⟨_, -, e⟩ := bind_some e
    obtain ⟨_, -, e⟩ := bind_some e
    obtain ⟨o, ho, e⟩ := bind_some e
    obtain ⟨o', ho', e⟩ := bind_some e
    cases e
    exact add1 (add1 hs _ _ _ ho) _ _ _ ho'

theorem crossSumComplexRegularInverted_len (x out : List M) : LenIs out.length (crossSumComplexRegularInverted x out) := by
  intro l hl
  obtain ⟨r, hr, h⟩ := bind_some hl
  cases h
  refine foldlM_inv (fun s => s.1.length = out.length) ?_ _ _ _ rfl hr
  rintro ⟨s, a, b⟩ i ⟨s', a', b'⟩ hs e
  dsimp only at e hs ⊢
  split at e
  · obtain ⟨_, -, e⟩ := bind_some e
    obtain ⟨o, ho, e⟩ := bind_some e
    cases e
    exact add1 hs _ _ _ ho
  · obtain ⟨_, -, e⟩ := bind_some e
    obtain ⟨_, -, e⟩ := bind_some e
    obtain ⟨o, ho, e⟩ := bind_some e
    obtain ⟨o', ho', e⟩ := bind_some e
    cases e
    exact add1 (add1 hs _ _ _ ho) _ _ _ ho'

end kernels

namespace PyLenIs
variable {M : Type} {n : Nat}

theorem seq2 {α : Type} {o : Py α} {k : α → Py (List M)} (h : ∀ a, o = .ok a → PyLenIs n (k a)) : PyLenIs n (o >>= k) := by
  intro l hl
  rcases o with e | a
  · cases hl
  · exact h a rfl l hl

theorem err (e : PyErr) : PyLenIs (M := M) n (.error e) := fun _ h => by cases h

theorem ub {r : Option (List M)} (h : LenIs n r) : PyLenIs n (orUB r) := by
  intro l hl
  rcases r with _ | x
  · cases hl
  · cases hl
    exact h _ rfl

theorem cond2 {c : Prop} [Decidable c] {a b : Py (List M)} (ha : PyLenIs n a) (hb : PyLenIs n b) : PyLenIs n (if c then a else b) := by
  split
  · exact ha
  · exact hb

theorem iadd [Add M] {a : List M} (h : a.length = n) (b : List M) : PyLenIs n (npIadd a b) := by
  intro l hl
  unfold npIadd at hl
  split at hl
  · cases hl
    rw [List.length_zipWith, ‹b.length = _›, Nat.min_self, h]
  · split at hl
    · cases hl
      rw [List.length_map, h]
    · cases hl

theorem head [Add M] {a : List M} (h : a.length = n) (m : Nat) (b : List M) : PyLenIs n (iaddHead a m b) := by
  refine seq2 fun l hl => ?_
  intro l' hl'
  cases hl'
  rw [List.length_append, iadd rfl b l hl, ← h, ← List.length_append, List.take_append_drop]

theorem tail [Add M] {a : List M} (h : a.length = n) (b : List M) : PyLenIs n (iaddTail a b) := by
  refine seq2 fun l hl => ?_
  intro l' hl'
  cases hl'
  rw [List.length_append, iadd rfl b l hl, ← h, ← List.length_append, List.take_append_drop]

theorem rev [Add M] {a : List M} (h : a.length = n) (m : Nat) (b : List M) : PyLenIs n (iaddRev a m b) := by
  refine seq2 fun l hl => ?_
  intro l' hl'
  cases hl'
  rw [List.length_reverse, List.length_append, iadd rfl b l hl, ← List.length_append, List.take_append_drop,
    List.length_reverse, h]

end PyLenIs

open PyLenIs

theorem PyLenIs.given {M : Type} [Zero M] {n m : Nat} {c : Bool} {o : List M} {k : List M → Py (List M)} (h : PyLenIs n (k o)) :
    PyLenIs n (defaultOut (some o) m c >>= k) := h

theorem foldReal_len (o : List (Cx ℝ)) (out : List ℝ) : PyLenIs out.length (foldReal o out) :=
  seq2 fun _ h => tail (iadd rfl _ _ h) _

theorem foldFull_len (o : List (Cx ℝ)) (out : List (Cx ℝ)) : PyLenIs out.length (foldFull o out) :=
  seq2 fun _ h => rev (head rfl _ _ _ h) _ _

theorem crossSumFftR_len (x : List ℝ) (y : List (Cx ℝ)) (t : List Int) (len : Nat) (out : List ℝ) :
    PyLenIs out.length (crossSumFftR x y t len out) :=
  seq2 fun _ _ => seq2 fun _ _ => seq2 fun _ _ => seq2 fun _ h => tail (iadd rfl _ _ h) _

theorem crossSumFftC_len (x y : List (Cx ℝ)) (t : List Int) (len : Nat) (out : List (Cx ℝ)) :
    PyLenIs out.length (crossSumFftC x y t len out) :=
  seq2 fun _ _ => seq2 fun _ _ => seq2 fun _ _ => seq2 fun _ h => tail (iadd rfl _ _ h) _

theorem crossSumComplexFftR_len (x : List ℝ) (y : List (Cx ℝ)) (t : List Int) (len : Nat) (out : List ℝ) :
    PyLenIs out.length (crossSumComplexFftR x y t len out) :=
  seq2 fun _ _ => seq2 fun _ _ => seq2 fun _ _ => seq2 fun _ h => rev (head rfl _ _ _ h) _ _

theorem crossSumComplexFftC_len (x y : List (Cx ℝ)) (t : List Int) (len : Nat) (out : List (Cx ℝ)) :
    PyLenIs out.length (crossSumComplexFftC x y t len out) :=
  seq2 fun _ _ => seq2 fun _ _ => seq2 fun _ _ => seq2 fun _ h => rev (head rfl _ _ _ h) _ _

/-! ### The functions of the API -/

theorem bind_ok {α β : Type} {o : Py α} {k : α → Py β} {b : β} (h : (o >>= k) = .ok b) : ∃ a, o = .ok a ∧ k a = .ok b := by
  rcases o with _ | a
  · cases h
  · exact ⟨a, rfl, h⟩

/-- The shape common to the functions of two signals. -/
theorem crossCorrelate_len (f1 f2 : List (Cx ℝ)) (t1 t2 : Option (List Int)) (n : Option Nat) (al : Bool) (o : List ℝ) :
    PyLenIs o.length (crossCorrelate f1 f2 t1 t2 n al (some o)) := by
  refine seq2 fun tn _ => ?_
  rcases tn with ⟨_ | ⟨a, b⟩, n⟩
  · exact given (cond2 (ub (crossCorrRegular_len _ _ _)) (ub (crossCorr_len _ _ _ _ _)))
  · exact given (seq2 fun _ _ => ub (crossCorr_len _ _ _ _ _))

theorem crossCorrelateComplex_len (f1 f2 : List (Cx ℝ)) (t1 t2 : Option (List Int)) (n : Option Nat) (al : Bool) (o : List (Cx ℝ)) :
    PyLenIs o.length (crossCorrelateComplex f1 f2 t1 t2 n al (some o)) := by
  refine seq2 fun tn _ => ?_
  rcases tn with ⟨_ | ⟨a, b⟩, n⟩
  · exact given (cond2 (ub (crossCorrComplexRegular_len _ _ _)) (ub (crossCorrComplex_len _ _ _ _ _)))
  · exact given (seq2 fun _ _ => ub (crossCorrComplex_len _ _ _ _ _))

theorem crossDifference_len (f1 f2 : List (Cx ℝ)) (t1 t2 : Option (List Int)) (n : Option Nat) (al : Bool) (o : List ℝ) :
    PyLenIs o.length (crossDifference f1 f2 t1 t2 n al (some o)) := by
  refine seq2 fun tn _ => ?_
  rcases tn with ⟨_ | ⟨a, b⟩, n⟩
  · exact given (cond2 (ub (crossDiffRegular_len _ _ _)) (ub (crossDiff_len _ _ _ _ _)))
  · exact given (seq2 fun _ _ => ub (crossDiff_len _ _ _ _ _))

theorem autoCorrelate_len (f : List (Cx ℝ)) (t : Option (List Int)) (n : Option Nat) (al : Bool) (o : List ℝ) :
    PyLenIs o.length (autoCorrelate f t n al (some o)) := by
  refine seq2 fun tn _ => ?_
  rcases tn with ⟨_ | a, n⟩
  · exact given (cond2 (ub (autoCorrRegular_len _ _)) (ub (autoCorr_len _ _ _)))
  · exact given (seq2 fun _ _ => ub (autoCorr_len _ _ _))

theorem autoCorrelateComplex_len (f : List (Cx ℝ)) (t : Option (List Int)) (n : Option Nat) (al : Bool) (o : List (Cx ℝ)) :
    PyLenIs o.length (autoCorrelateComplex f t n al (some o)) := by
  refine seq2 fun tn _ => ?_
  rcases tn with ⟨_ | a, n⟩
  · exact given (cond2 (ub (autoCorrComplexRegular_len _ _)) (ub (autoCorrComplex_len _ _ _)))
  · exact given (seq2 fun _ _ => ub (autoCorrComplex_len _ _ _))

theorem autoDifference_len (f : List (Cx ℝ)) (t : Option (List Int)) (n : Option Nat) (al : Bool) (o : List ℝ) :
    PyLenIs o.length (autoDifference f t n al (some o)) := by
  refine seq2 fun tn _ => ?_
  rcases tn with ⟨_ | a, n⟩
  · exact given (cond2 (ub (autoDiffRegular_len _ _)) (ub (autoDiff_len _ _ _)))
  · exact given (seq2 fun _ _ => ub (autoDiff_len _ _ _))

theorem crossCorrelateFft_len (f1 f2 : List (Cx ℝ)) (t1 t2 : Option (List Int)) (n : Option Nat) (o : List ℝ) :
    PyLenIs o.length (crossCorrelateFft f1 f2 t1 t2 n (some o)) := by
  refine seq2 fun tn _ => ?_
  rcases tn with ⟨_ | ⟨a, b⟩, n⟩
  · exact seq2 fun _ _ => given (seq2 fun _ _ => foldReal_len _ _)
  · exact seq2 fun _ _ => given (seq2 fun _ _ => seq2 fun _ _ => seq2 fun _ _ => seq2 fun _ _ => foldReal_len _ _)

theorem crossCorrelateComplexFft_len (f1 f2 : List (Cx ℝ)) (t1 t2 : Option (List Int)) (n : Option Nat) (o : List (Cx ℝ)) :
    PyLenIs o.length (crossCorrelateComplexFft f1 f2 t1 t2 n (some o)) := by
  refine seq2 fun tn _ => ?_
  rcases tn with ⟨_ | ⟨a, b⟩, n⟩
  · exact seq2 fun _ _ => given (seq2 fun _ _ => foldFull_len _ _)
  · exact seq2 fun _ _ => given (seq2 fun _ _ => seq2 fun _ _ => seq2 fun _ _ => seq2 fun _ _ => foldFull_len _ _)

theorem autoCorrelateFft_len (f : List (Cx ℝ)) (t : Option (List Int)) (n : Option Nat) (o : List ℝ) :
    PyLenIs o.length (autoCorrelateFft f t n (some o)) := by
  refine seq2 fun tn _ => ?_
  rcases tn with ⟨_ | a, n⟩
  · exact seq2 fun _ _ => given (seq2 fun _ _ => iadd rfl _)
  · exact seq2 fun _ _ => given (seq2 fun _ _ => seq2 fun _ _ => seq2 fun _ _ => iadd rfl _)

theorem autoCorrelateComplexFft_len (f : List (Cx ℝ)) (t : Option (List Int)) (n : Option Nat) (o : List (Cx ℝ)) :
    PyLenIs o.length (autoCorrelateComplexFft f t n (some o)) := by
  refine seq2 fun tn _ => ?_
  rcases tn with ⟨_ | a, n⟩
  · exact seq2 fun _ _ => given (seq2 fun _ _ => iadd rfl _)
  · exact seq2 fun _ _ => given (seq2 fun _ _ => seq2 fun _ _ => seq2 fun _ _ => iadd rfl _)

theorem crossSumApi_len {M : Type} [Zero M] [Add M] [Sub M] (f : List M) (t t' : Option (List Int)) (n : Option Nat) (complex inv : Bool)
    (o : List M) : PyLenIs o.length (crossSumApi f t t' n complex inv (some o)) := by
  refine seq2 fun tn _ => ?_
  rcases tn with ⟨_ | ⟨a, b⟩, n⟩
  · exact given (cond2 (cond2 (ub (crossSumComplexRegularInverted_len _ _)) (ub (crossSumComplexRegular_len _ _))) (ub (crossSumRegular_len _ _)))
  · exact given (seq2 fun _ _ => cond2 (ub (crossSumComplex_len _ _ _ _)) (ub (crossSum_len _ _ _ _)))

theorem crossSumFftApi_len {M : Type} [Zero M] {kR kC : List M → List (Cx ℝ) → List Int → Nat → List M → Py (List M)}
    (hR : ∀ x y t len out, PyLenIs out.length (kR x y t len out)) (hC : ∀ x y t len out, PyLenIs out.length (kC x y t len out))
    (f : List M) (t t' : Option (List Int)) (n : Option Nat) (complex inv : Bool)
    (o : List M) : PyLenIs o.length (crossSumFftApi kR kC f t t' n complex inv (some o)) := by
  refine seq2 fun tn _ => ?_
  rcases tn with ⟨_ | ⟨a, b⟩, n⟩
  · exact seq2 fun _ _ => given (err _)
  · exact seq2 fun _ _ => given (seq2 fun _ _ => seq2 fun _ _ => seq2 fun _ _ => cond2 (hC _ _ _ _ _) (hR _ _ _ _ _))

theorem autoSumApi_len {M : Type} [AddCommGroup M] [Module ℝ M] (f : List M) (t : Option (List Int)) (n : Option Nat) (o : List M) :
    PyLenIs o.length (autoSumApi ℝ f t n (some o)) := by
  refine seq2 fun tn _ => ?_
  rcases tn with ⟨_ | a, n⟩
  · refine given (seq2 fun x hx => ?_)
    intro l hl
    have := ub (crossSumRegular_len _ _) _ hx
    rw [List.length_replicate] at this
    cases hl
    rw [List.length_zipWith, List.length_mapIdx, this, Nat.min_self]
  · refine given (seq2 fun x hx => ?_)
    intro l hl
    have : x.length = o.length := by
      obtain ⟨_, -, hx⟩ := bind_ok hx
      have := ub (crossSum_len _ _ _ _) _ hx
      rwa [List.length_replicate] at this
    cases hl
    rw [List.length_zipWith, List.length_mapIdx, this, Nat.min_self]

theorem autoSumFftApi_len {M : Type} [AddCommGroup M] [Module ℝ M] {kR : List M → List (Cx ℝ) → List Int → Nat → List M → Py (List M)}
    (hR : ∀ x y t len out, PyLenIs out.length (kR x y t len out)) (f : List M) (t : Option (List Int)) (n : Option Nat) (o : List M) :
    PyLenIs o.length (autoSumFftApi kR f t n (some o)) := by
  refine seq2 fun tn _ => ?_
  rcases tn with ⟨_ | a, n⟩
  · exact seq2 fun _ _ => given (err _)
  · refine seq2 fun _ _ => given (seq2 fun _ _ => seq2 fun _ _ => seq2 fun _ _ => seq2 fun x hx => ?_)
    intro l hl
    have := hR _ _ _ _ _ _ hx
    rw [List.length_replicate] at this
    cases hl
    rw [List.length_zipWith, List.length_mapIdx, this, Nat.min_self]

/-! ### `ccorr` and `acorr` -/

/-- An optional array returned for an optional array given has its length. -/
def SameLen {M : Type} (a b : Option (List M)) : Prop := ∀ o s, a = some o → b = some s → s.length = o.length

theorem SameLen.of_py {M : Type} {a : Option (List M)} {r : Py (List M)} (h : ∀ o, a = some o → PyLenIs o.length r) {b : List M}
    (hb : r = .ok b) : SameLen a (some b) := fun o s ho hs => by
  cases hs
  exact h o ho b hb

theorem SameLen.refl {M : Type} (a : Option (List M)) : SameLen a a := fun o s ho hs => by
  rw [ho] at hs
  cases hs
  rfl

theorem SameLen.none {M : Type} (a : Option (List M)) : SameLen a none := fun _ _ _ hs => by cases hs

theorem SameLen.trans {M : Type} {a : Option (List M)} {b : List M} {c : Option (List M)} (h1 : SameLen a (some b))
    (h2 : SameLen (some b) c) : SameLen a c := fun o s ho hs => by rw [h2 b s rfl hs, h1 o b ho rfl]

/-- The arrays returned have the lengths of those given. -/
def KeepsLen {C : Type} (a : CorrAout C) (r : Py (CorrTuple C)) : Prop :=
  ∀ d, r = .ok d → SameLen a.cor (some d.cor) ∧ SameLen a.sq d.sq ∧ SameLen a.ds1 d.ds1 ∧ SameLen a.ds2 d.ds2

theorem sumSelR_len (useFft : Bool) (g : List ℝ) (ta tb : Option (List Int)) (n : Nat) (complex inv : Bool) (o : List ℝ) :
    PyLenIs o.length (sumSelR useFft g ta tb n complex inv (some o)) :=
  cond2 (crossSumFftApi_len crossSumFftR_len crossSumComplexFftR_len _ _ _ _ _ _ _) (crossSumApi_len _ _ _ _ _ _ _)

theorem sumSelC_len (useFft : Bool) (g : List (Cx ℝ)) (ta tb : Option (List Int)) (n : Nat) (complex inv : Bool) (o : List (Cx ℝ)) :
    PyLenIs o.length (sumSelC useFft g ta tb n complex inv (some o)) :=
  cond2 (crossSumFftApi_len crossSumFftC_len crossSumComplexFftC_len _ _ _ _ _ _ _) (crossSumApi_len _ _ _ _ _ _ _)

theorem ccorrSquares_len {method : String} {norm : Nat} {useFft : Bool} {g1 g2 : List ℝ} {t1 t2 : Option (List Int)} {n : Nat}
    {complex : Bool} {a b : Option (List ℝ)} (h : ccorrSquares method norm useFft g1 g2 t1 t2 n complex a = .ok b) : SameLen a b := by
  unfold ccorrSquares at h
  split at h
  · obtain ⟨s, hs, h⟩ := bind_ok h
    obtain ⟨s', hs', h⟩ := bind_ok h
    cases h
    exact (SameLen.of_py (a := a) (fun o ho => by subst ho; exact sumSelR_len _ _ _ _ _ _ _ _) hs).trans
      (SameLen.of_py (fun o ho => by cases ho; exact sumSelR_len _ _ _ _ _ _ _ _) hs')
  · cases h
    split
    · exact SameLen.none _
    · exact SameLen.refl _

theorem ccorrSums_len {norm : Nat} {useFft : Bool} {f : List (Cx ℝ)} {t1 t2 : Option (List Int)} {n : Nat}
    {complex inv : Bool} {a b : Option (List (Cx ℝ))} (h : ccorrSums norm useFft f t1 t2 n complex inv a = .ok b) : SameLen a b := by
  unfold ccorrSums at h
  split at h
  · rcases hs : sumSelC useFft f t1 t2 n complex inv a with e | s
    · rw [hs] at h
      cases h
    · rw [hs] at h
      cases h
      exact SameLen.of_py (fun o ho => by subst ho; exact sumSelC_len _ _ _ _ _ _ _ _) hs
  · cases h
    exact SameLen.refl _

theorem acorrSum_len {M : Type} [AddCommGroup M] [Module ℝ M] {kR : List M → List (Cx ℝ) → List Int → Nat → List M → Py (List M)}
    (hR : ∀ x y t len out, PyLenIs out.length (kR x y t len out)) {method : String} {needed useFft : Bool} {g : List M}
    {t : Option (List Int)} {n : Nat} {a b : Option (List M)} (h : acorrSum kR method needed useFft g t n a = .ok b) : SameLen a b := by
  unfold acorrSum at h
  split at h
  · rcases hs : (if useFft = true then autoSumFftApi kR g t (some n) a else autoSumApi ℝ g t (some n) a) with e | s
    · rw [hs] at h
      cases h
    · rw [hs] at h
      cases h
      exact SameLen.of_py (fun o ho => by subst ho; exact cond2 (autoSumFftApi_len hR _ _ _ _) (autoSumApi_len _ _ _ _)) hs
  · cases h
    split
    · exact SameLen.none _
    · exact SameLen.refl _

theorem ccorrBody_keeps {C : Type} (complex : Bool)
    {kFft kCorr kDiff : List (Cx ℝ) → List (Cx ℝ) → Option (List Int) → Option (List Int) → Option Nat → Option (List C) → Py (List C)}
    (hF : ∀ f1 f2 t1 t2 n o, PyLenIs o.length (kFft f1 f2 t1 t2 n (some o)))
    (hC : ∀ f1 f2 t1 t2 n o, PyLenIs o.length (kCorr f1 f2 t1 t2 n (some o)))
    (hD : ∀ f1 f2 t1 t2 n o, PyLenIs o.length (kDiff f1 f2 t1 t2 n (some o)))
    (f1 f2 : List (Cx ℝ)) (t1 t2 : Option (List Int)) (n : Option Nat) (norm : Option Int)
    (method : Option String) (f1s f2s : Option (List ℝ)) (aout : CorrAout C) :
    KeepsLen aout (ccorrBody complex kFft kCorr kDiff f1 f2 t1 t2 n norm method f1s f2s aout) := by
  intro d h
  obtain ⟨meth, -, h⟩ := bind_ok h
  obtain ⟨nrm, -, h⟩ := bind_ok h
  split at h
  · cases h
  obtain ⟨tn, -, h⟩ := bind_ok h
  obtain ⟨t, m⟩ := tn
  obtain ⟨cor, hcor, h⟩ := bind_ok h
  obtain ⟨count, -, h⟩ := bind_ok h
  obtain ⟨sq, hsq, h⟩ := bind_ok h
  obtain ⟨ds1, hds1, h⟩ := bind_ok h
  obtain ⟨ds2, hds2, h⟩ := bind_ok h
  cases h
  refine ⟨SameLen.of_py (fun o ho => ?_) hcor, ccorrSquares_len hsq, ccorrSums_len hds1, ccorrSums_len hds2⟩
  rw [ho]
  exact cond2 (hF _ _ _ _ _ _) (cond2 (hC _ _ _ _ _ _) (hD _ _ _ _ _ _))

theorem acorrBody_keeps {C : Type}
    {kFft kCorr kDiff : List (Cx ℝ) → Option (List Int) → Option Nat → Option (List C) → Py (List C)}
    (hF : ∀ f t n o, PyLenIs o.length (kFft f t n (some o)))
    (hC : ∀ f t n o, PyLenIs o.length (kCorr f t n (some o)))
    (hD : ∀ f t n o, PyLenIs o.length (kDiff f t n (some o)))
    (f : List (Cx ℝ)) (t : Option (List Int)) (n : Option Nat) (norm : Option Int)
    (method : Option String) (fs : Option (List ℝ)) (aout : CorrAout C) :
    KeepsLen aout (acorrBody kFft kCorr kDiff f t n norm method fs aout) := by
  intro d h
  obtain ⟨meth, -, h⟩ := bind_ok h
  obtain ⟨nrm, -, h⟩ := bind_ok h
  obtain ⟨tn, -, h⟩ := bind_ok h
  obtain ⟨t, m⟩ := tn
  obtain ⟨cor, hcor, h⟩ := bind_ok h
  obtain ⟨count, -, h⟩ := bind_ok h
  obtain ⟨sq, hsq, h⟩ := bind_ok h
  obtain ⟨ds1, hds1, h⟩ := bind_ok h
  cases h
  refine ⟨SameLen.of_py (fun o ho => ?_) hcor, acorrSum_len crossSumFftR_len hsq, acorrSum_len crossSumFftC_len hds1, SameLen.none _⟩
  rw [ho]
  exact cond2 (hF _ _ _ _) (cond2 (hC _ _ _ _) (hD _ _ _ _))

theorem ccorr_keeps (f1 f2 : List (Cx ℝ)) (t1 t2 : Option (List Int)) (n : Option Nat) (norm : Option Int)
    (method : Option String) (al : Bool) (f1s f2s : Option (List ℝ)) (aout : CorrAout ℝ) :
    KeepsLen aout (ccorr f1 f2 t1 t2 n norm method al f1s f2s aout) :=
  ccorrBody_keeps false crossCorrelateFft_len (fun _ _ _ _ _ _ => crossCorrelate_len _ _ _ _ _ _ _)
    (fun _ _ _ _ _ _ => crossDifference_len _ _ _ _ _ _ _) _ _ _ _ _ _ _ _ _ _

theorem ccorrComplex_keeps (f1 f2 : List (Cx ℝ)) (t1 t2 : Option (List Int)) (n : Option Nat) (norm : Option Int)
    (method : Option String) (al : Bool) (f1s f2s : Option (List ℝ)) (aout : CorrAout (Cx ℝ)) :
    KeepsLen aout (ccorrComplex f1 f2 t1 t2 n norm method al f1s f2s aout) :=
  ccorrBody_keeps true crossCorrelateComplexFft_len (fun _ _ _ _ _ _ => crossCorrelateComplex_len _ _ _ _ _ _ _)
    (fun _ _ _ _ _ _ => err _) _ _ _ _ _ _ _ _ _ _

theorem acorr_keeps (f : List (Cx ℝ)) (t : Option (List Int)) (n : Option Nat) (norm : Option Int)
    (method : Option String) (al : Bool) (fs : Option (List ℝ)) (aout : CorrAout ℝ) :
    KeepsLen aout (acorr f t n norm method al fs aout) :=
  acorrBody_keeps autoCorrelateFft_len (fun _ _ _ _ => autoCorrelate_len _ _ _ _ _)
    (fun _ _ _ _ => autoDifference_len _ _ _ _ _) _ _ _ _ _ _ _

theorem acorrComplex_keeps (f : List (Cx ℝ)) (t : Option (List Int)) (n : Option Nat) (norm : Option Int)
    (method : Option String) (al : Bool) (fs : Option (List ℝ)) (aout : CorrAout (Cx ℝ)) :
    KeepsLen aout (acorrComplex f t n norm method al fs aout) :=
  acorrBody_keeps autoCorrelateComplexFft_len (fun _ _ _ _ => autoCorrelateComplex_len _ _ _ _ _)
    (fun _ _ _ _ => seq2 fun _ hd => fun l hl => by
      cases hl
      have := autoDifference_len _ _ _ _ _ _ hd
      rwa [List.length_map] at this ⊢) _ _ _ _ _ _ _

end Cddm
