import Verif.Model.Decorators

/-! # Specification vocabulary: decorators -/

namespace Cddm
namespace Spec

/-- The docstring of the nearest ordinary definition. -/
def nearestDoc (chain : List (Option DocAttr)) : Option String :=
  (chain.filterMap fun a => match a with
    | some (.plain d) => some d
    | _ => none).head?

/-- What becomes of a warning: raised, shown or passed over. -/
inductive Fate where
  | raised
  | shown
  | silent
deriving DecidableEq, Repr

/-- The fate of a warning given now. -/
def fate (w : Warn) (st : WarnState) : Fate :=
  if (warnOnce w st).1 then .raised
  else if (warnOnce w st).2.shown = st.shown then .silent
  else .shown

end Spec
end Cddm
