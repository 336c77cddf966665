import Mathlib.Data.List.Basic

/-!
# `decorators.py`

Docstrings, warnings and errors of the decorated functions.
-/

namespace Cddm

/-! ### `doc_inherit` -/

/-- What a class defines under the name of the method: an ordinary method with its docstring, or one decorated with `doc_inherit`
(cddm/decorators.py:30-32). -/
inductive DocAttr where
  | plain (doc : String)
  | inherit
deriving DecidableEq, Repr

/-- The outcome of looking up the method: its docstring, or an error. -/
inductive DocResult where
  | doc (d : String)
  | missing
  | nameError
  | recursionError
deriving DecidableEq, Repr

/-- The first class of a chain that defines the name.  A class is given with its parents, nearest first, `object` left out; several
parents are not modelled. -/
def firstAttr : List (Option DocAttr) → Option DocAttr
  | [] => none
  | some a :: _ => some a
  | none :: rest => firstAttr rest

/-- `getattr(cls, name)` for the class `a` with the parents `rest`; `above` is what `get_no_inst(cls)` gives (cddm/decorators.py:34-38). -/
def classStep (a : Option DocAttr) (rest : List (Option DocAttr)) (above : DocResult) : DocResult :=
  match firstAttr (a :: rest) with
  | none => .missing
  | some (.plain d) => .doc d
  | some .inherit => above

/-- `get_no_inst` (cddm/decorators.py:50-60, 62-66): the first of the parents that has the method; without one NameError. -/
def parentDoc : List (Option DocAttr) → DocResult
  | [] => .nameError
  | p :: ps =>
    match classStep p ps (parentDoc ps) with
    | .missing => parentDoc ps
    | r => r

/-- `cls.name` (cddm/decorators.py:34-38, 50-60). -/
def classDoc : List (Option DocAttr) → DocResult
  | [] => .missing
  | a :: rest => classStep a rest (parentDoc rest)

/-- `get_with_inst(obj, cls)` (cddm/decorators.py:40-48): `super(cls, obj)` searches the parents of the class of the object, and hands
that class, not the parent, to the descriptor it finds.  `depth` is what is left of the recursion limit. -/
def instGet (chain : List (Option DocAttr)) : Nat → DocResult
  | 0 => .recursionError
  | depth + 1 =>
    match firstAttr chain.tail with
    | none => .nameError
    | some (.plain d) => .doc d
    | some .inherit => instGet chain depth

/-- `obj.name` (cddm/decorators.py:34-38) for an object of the class; `truthy` is `bool(obj)`. -/
def instDoc (chain : List (Option DocAttr)) (truthy : Bool) (depth : Nat) : DocResult :=
  match firstAttr chain with
  | none => .missing
  | some (.plain d) => .doc d
  | some .inherit => if truthy then instGet chain depth else parentDoc chain.tail

/-- The arguments the decorated method gets from `obj.name(*args)` (cddm/decorators.py:34-38, 45-46, 57-58). -/
def methodArgs {A : Type} (obj : A) (truthy : Bool) (args : List A) : List A := if truthy then obj :: args else args

/-! ### `skip_runtime_error` -/

/-- `skip_runtime_error(f)(event)` (cddm/decorators.py:71-78): `none` is Python's None, `isRuntime` says which exceptions are instances
of RuntimeError. -/
def skipRuntimeError {E A B : Type} (isRuntime : E → Bool) (f : A → Except E (Option B)) (event : A) : Except E (Option B) :=
  match f event with
  | .ok b => .ok b
  | .error e => if isRuntime e then .ok none else .error e

/-! ### `deprecated` -/

/-- What a filter does with a warning; `once` and `module` are not needed here. -/
inductive WarnAction where
  | default
  | always
  | ignore
  | error
deriving DecidableEq, Repr

/-- A warning: category, module (`origin`) and line, text. -/
structure Warn where
  category : String
  origin : String
  line : Nat
  text : String
deriving DecidableEq, Repr

/-- A filter of the module `warnings`: the category `Warning` stands for all, `none` for every module.  Patterns for the text are not
modelled, nor other categories with subclasses. -/
structure WarnFilter where
  action : WarnAction
  category : String
  origin : Option String
deriving DecidableEq, Repr

/-- The state of the module `warnings`: filters, warnings remembered by the action `default`, warnings shown. -/
structure WarnState where
  filters : List WarnFilter
  seen : List Warn
  shown : List Warn
deriving DecidableEq, Repr

/-- Whether a filter applies to a warning. -/
def WarnFilter.covers (f : WarnFilter) (w : Warn) : Bool :=
  (f.category = "Warning" || f.category = w.category) && (f.origin = none || f.origin = some w.origin)

/-- `warnings.simplefilter(action, DeprecationWarning)` as called in cddm/decorators.py:90, 94: the filter becomes the first, and the
remembered warnings are forgotten. -/
def simpleFilter (action : WarnAction) (st : WarnState) : WarnState :=
  let f : WarnFilter := ⟨action, "DeprecationWarning", none⟩
  ⟨f :: st.filters.erase f, [], st.shown⟩

/-- `warnings.warn` (as called in cddm/decorators.py:91-93): `true` if the warning is raised as an exception.  Remembered warnings are
passed over, then the first filter that applies decides, without one the action `default`. -/
def warnOnce (w : Warn) (st : WarnState) : Bool × WarnState :=
  if w ∈ st.seen then (false, st)
  else
    match ((st.filters.find? (·.covers w)).map WarnFilter.action).getD .default with
    | .ignore => (false, st)
    | .error => (true, st)
    | .always => (false, { st with shown := st.shown ++ [w] })
    | .default => (false, { st with seen := w :: st.seen, shown := st.shown ++ [w] })

/-- `deprecated(info)(func)(*args)` (cddm/decorators.py:83-98).  The warning is attributed to the module (`origin`) and `line` of the caller
(`stacklevel=2`); `raised` is the exception a warning becomes. -/
def deprecatedCall {E A B : Type} (raised : Warn → E) (name info : String) (func : A → WarnState → Except E B × WarnState)
    (origin : String) (line : Nat) (args : A) (st : WarnState) : Except E B × WarnState :=
  let st := simpleFilter .always st
  let w : Warn := ⟨"DeprecationWarning", origin, line, "Call to deprecated function " ++ name ++ ". " ++ info⟩
  let (raises, st) := warnOnce w st
  if raises then (.error (raised w), st)
  else func args (simpleFilter .default st)

end Cddm
