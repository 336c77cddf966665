import Verif.Spec.Decorators

/-!
# C132: decorators

Which docstring a method decorated with `doc_inherit` has, what `skip_runtime_error` hides, what a `deprecated` function returns, warns
and leaves behind.
-/

namespace Cddm
open Spec

theorem nearestDoc_of_first {chain : List (Option DocAttr)} {d : String} (h : firstAttr chain = some (.plain d)) :
    nearestDoc chain = some d := by
  induction chain with
  | nil => cases h
  | cons a rest ih =>
    rcases a with _ | (d' | _)
    · simpa [nearestDoc] using ih h
    · simp only [firstAttr, Option.some.injEq, DocAttr.plain.injEq] at h
      simp [nearestDoc, h]
    · simp [firstAttr] at h

theorem nearestDoc_of_none {chain : List (Option DocAttr)} (h : firstAttr chain = none) : nearestDoc chain = none := by
  induction chain with
  | nil => rfl
  | cons a rest ih =>
    rcases a with _ | a
    · simpa [nearestDoc] using ih h
    · simp [firstAttr] at h

theorem parentDoc_eq (chain : List (Option DocAttr)) :
    parentDoc chain = match nearestDoc chain with
      | some d => .doc d
      | none => .nameError := by
  induction chain with
  | nil => rfl
  | cons a rest ih =>
    rcases a with _ | (d | _)
    · have e : nearestDoc (none :: rest) = nearestDoc rest := by simp [nearestDoc]
      rw [e]
      simp only [parentDoc, classStep, firstAttr]
      rcases hf : firstAttr rest with _ | (d | _)
      · exact ih
      · rw [nearestDoc_of_first hf]
      · rw [ih]
        cases nearestDoc rest <;> rfl
    · simp [parentDoc, classStep, firstAttr, nearestDoc]
    · have e : nearestDoc (some .inherit :: rest) = nearestDoc rest := by simp [nearestDoc]
      rw [e]
      simp only [parentDoc, classStep, firstAttr]
      rw [ih]
      cases nearestDoc rest <;> rfl

/-- C132: taken from the class, a decorated method has the docstring of the nearest ordinary method above it; without one NameError is
raised. -/
theorem C132_class_doc (rest : List (Option DocAttr)) :
    classDoc (some .inherit :: rest) = match nearestDoc rest with
      | some d => .doc d
      | none => .nameError :=
  parentDoc_eq rest

/-- C132: also for a class that inherits the decorated method. -/
theorem C132_class_doc_inherited (chain : List (Option DocAttr)) (h : firstAttr chain = some .inherit) :
    classDoc chain = match nearestDoc chain with
      | some d => .doc d
      | none => .nameError := by
  rcases chain with _ | ⟨a, rest⟩
  · cases h
  · have e : nearestDoc (a :: rest) = nearestDoc rest := by
      rcases a with _ | (d | _)
      · simp [nearestDoc]
      · simp [firstAttr] at h
      · simp [nearestDoc]
    rw [e]
    simp only [classDoc, classStep, h]
    exact parentDoc_eq rest

/-- C132 for objects: the same if the class itself has the decorated method and the next definition above is an ordinary one.  Missing:
the other classes, see `C132_instance_refuted`. -/
theorem C132_instance_doc_partial (rest : List (Option DocAttr)) {d : String} (h : firstAttr rest = some (.plain d)) (truthy : Bool)
    {depth : Nat} (hd : 0 < depth) : instDoc (some .inherit :: rest) truthy depth = .doc d ∧ nearestDoc rest = some d := by
  refine ⟨?_, nearestDoc_of_first h⟩
  obtain ⟨k, rfl⟩ : ∃ k, depth = k + 1 := ⟨depth - 1, by omega⟩
  cases truthy
  · simp [instDoc, firstAttr, parentDoc_eq, nearestDoc_of_first h]
  · simp [instDoc, firstAttr, instGet, h]

/-- C132 is false for objects of a class that inherits a decorated method, or decorates it once more: the lookup never ends, whatever
the recursion limit. -/
theorem C132_instance_refuted (a : Option DocAttr) (ha : a = none ∨ a = some .inherit) (rest : List (Option DocAttr))
    (h : firstAttr rest = some .inherit) (depth : Nat) : instDoc (a :: rest) true depth = .recursionError := by
  have hg : ∀ k, instGet (a :: rest) k = .recursionError := by
    intro k
    induction k with
    | zero => rfl
    | succ k ih => simp [instGet, h, ih]
  have hf : firstAttr (a :: rest) = some .inherit := by
    rcases ha with rfl | rfl
    · exact h
    · rfl
  simp [instDoc, hf, hg]

/-- The class of the example in the documentation, and a class derived from it. -/
theorem C132_instance_case : classDoc [some .inherit, some (.plain "Frobber")] = .doc "Frobber" ∧
    instDoc [some .inherit, some (.plain "Frobber")] true 1000 = .doc "Frobber" ∧
    classDoc [none, some .inherit, some (.plain "Frobber")] = .doc "Frobber" ∧
    instDoc [none, some .inherit, some (.plain "Frobber")] true 1000 = .recursionError := by
  refine ⟨rfl, rfl, rfl, ?_⟩
  exact C132_instance_refuted none (.inl rfl) _ rfl _

/-- C132: the method is called with the object and the arguments; false for objects whose truth value is False, such as empty containers:
they are left out. -/
theorem C132_call {A : Type} (obj : A) (args : List A) :
    methodArgs obj true args = obj :: args ∧ methodArgs obj false args = args ∧ methodArgs obj false args ≠ obj :: args := by
  refine ⟨rfl, rfl, ?_⟩
  intro h
  have := congrArg List.length h
  simp [methodArgs] at this

/-- C132: `skip_runtime_error` returns what the function returns, None for a RuntimeError, and passes all other exceptions on. -/
theorem C132_skip {E A B : Type} (isRuntime : E → Bool) (f : A → Except E (Option B)) (x : A) :
    (∀ b, f x = .ok b → skipRuntimeError isRuntime f x = .ok b) ∧
    (∀ e, f x = .error e → isRuntime e = true → skipRuntimeError isRuntime f x = .ok none) ∧
    ∀ e, skipRuntimeError isRuntime f x = .error e ↔ f x = .error e ∧ isRuntime e = false := by
  unfold skipRuntimeError
  rcases f x with e | b
  · by_cases h : isRuntime e = true
    · refine ⟨by simp, by simp [h], fun e' => ?_⟩
      simp only [h, if_true, reduceCtorEq, Except.error.injEq, false_iff, not_and]
      rintro rfl
      simp [h]
    · refine ⟨by simp, fun e' he hr => ?_, fun e' => ?_⟩
      · cases he; exact absurd hr h
      · simp only [h, Bool.false_eq_true, if_false, Except.error.injEq]
        constructor
        · rintro rfl; exact ⟨rfl, by simpa using h⟩
        · exact fun h => h.1
  · simp

theorem warnOnce_always (w : Warn) (h : w.category = "DeprecationWarning") (st : WarnState) :
    warnOnce w (simpleFilter .always st)
      = (false, { simpleFilter .always st with shown := st.shown ++ [w] }) := by
  simp [warnOnce, simpleFilter, WarnFilter.covers, h]

/-- C132: a deprecated function warns exactly once in every call, whatever the filters and whatever was shown before, and then does what
the function does, exceptions included. -/
theorem C132_deprecated {E A B : Type} (raised : Warn → E) (name info : String) (func : A → WarnState → Except E B × WarnState)
    (origin : String) (line : Nat) (args : A) (st : WarnState) :
    ∃ st' : WarnState, deprecatedCall raised name info func origin line args st = func args st' ∧
      st'.shown = st.shown ++ [⟨"DeprecationWarning", origin, line, "Call to deprecated function " ++ name ++ ". " ++ info⟩] := by
  unfold deprecatedCall
  simp only [fun m l t => warnOnce_always ⟨"DeprecationWarning", m, l, t⟩ rfl]
  exact ⟨_, rfl, rfl⟩

/-- C132: so a function that has nothing to do with warnings gives its result. -/
theorem C132_deprecated_result {E A B : Type} (raised : Warn → E) (name info : String) (f : A → Except E B)
    (origin : String) (line : Nat) (args : A) (st : WarnState) :
    (deprecatedCall raised name info (fun a s => (f a, s)) origin line args st).1 = f args ∧
    (deprecatedCall raised name info (fun a s => (f a, s)) origin line args st).2.shown.length = st.shown.length + 1 := by
  obtain ⟨st', e, h⟩ := C132_deprecated raised name info (fun a s => (f a, s)) origin line args st
  rw [e]
  exact ⟨rfl, by simp [h]⟩

/-- C132: filters for other categories keep their effect: a warning of another category has the fate it would have if nothing were
remembered. -/
theorem C132_other_categories {E A B : Type} (raised : Warn → E) (name info : String) (f : A → Except E B)
    (origin : String) (line : Nat) (args : A) (st : WarnState) (w : Warn) (h : w.category ≠ "DeprecationWarning") :
    fate w (deprecatedCall raised name info (fun a s => (f a, s)) origin line args st).2 = fate w { st with seen := [] } := by
  have key : ∀ (l : List WarnFilter) (g : WarnFilter), g.covers w = false → (l.erase g).find? (·.covers w) = l.find? (·.covers w) := by
    intro l g hg
    induction l with
    | nil => rfl
    | cons x l ih =>
      by_cases hx : x = g
      · subst hx; simp [hg]
      · rw [List.erase_cons_tail (by simpa using hx), List.find?_cons, List.find?_cons, ih]
  have h1 : (⟨.always, "DeprecationWarning", none⟩ : WarnFilter).covers w = false := by
    simp [WarnFilter.covers, Ne.symm h]
  have h2 : (⟨.default, "DeprecationWarning", none⟩ : WarnFilter).covers w = false := by
    simp [WarnFilter.covers, Ne.symm h]
  unfold deprecatedCall
  simp only [fun m l t => warnOnce_always ⟨"DeprecationWarning", m, l, t⟩ rfl]
  simp only [Bool.false_eq_true, if_false]
  unfold fate warnOnce
  simp only [simpleFilter, List.not_mem_nil, if_false, List.find?_cons, h2]
  rw [key _ _ h2]
  simp only [List.find?_cons, h1, key _ _ h1]
  cases ((st.filters.find? (·.covers w)).map WarnFilter.action).getD .default <;> simp

/-- A warning of another category that the user ignores is ignored after the call. -/
example : (⟨"UserWarning", "lib", 3, "x"⟩ : Warn).category ≠ "DeprecationWarning" ∧
    fate ⟨"UserWarning", "lib", 3, "x"⟩ ⟨[⟨.ignore, "UserWarning", none⟩], [], []⟩ = .silent := by decide

/-- C132 is false of the filters: after one call every DeprecationWarning is shown, also those the user ignores or turns into
exceptions. -/
theorem C132_filters_refuted {E A B : Type} (raised : Warn → E) (name info : String) (f : A → Except E B)
    (origin : String) (line : Nat) (args : A) (st : WarnState) (w : Warn) (h : w.category = "DeprecationWarning") :
    fate w (deprecatedCall raised name info (fun a s => (f a, s)) origin line args st).2 = .shown := by
  unfold deprecatedCall
  simp only [fun m l t => warnOnce_always ⟨"DeprecationWarning", m, l, t⟩ rfl]
  simp [fate, warnOnce, simpleFilter, WarnFilter.covers, h]

/-- The user ignores deprecation warnings, or has them raised: so they are before the call (`C132_filters_refuted` says what they are
afterwards). -/
theorem C132_filters_case (w : Warn) (h : w.category = "DeprecationWarning") :
    fate w ⟨[⟨.ignore, "DeprecationWarning", none⟩], [], []⟩ = .silent ∧
    fate w ⟨[⟨.error, "Warning", none⟩], [], []⟩ = .raised := by
  simp [fate, warnOnce, WarnFilter.covers, h]

/-- C132: what was remembered is forgotten: a warning already shown, of any category, is shown again after the call. -/
theorem C132_shown_again_refuted : ∃ (st : WarnState) (w : Warn), fate w st = .silent ∧
    fate w (deprecatedCall (E := Unit) (fun _ => ()) "rfft2" "" (fun (a : Nat) s => (.ok a, s)) "main" 1 0 st).2 = .shown :=
  ⟨⟨[], [⟨"UserWarning", "lib", 3, "x"⟩], []⟩, ⟨"UserWarning", "lib", 3, "x"⟩, by decide, by decide⟩

end Cddm
