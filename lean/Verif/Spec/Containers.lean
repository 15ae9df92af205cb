import Verif.Model.Containers
/-
What optionals should hold.
-/
set_option autoImplicit false

namespace Ip.Spec

/-- What an optional holds, from its member functions. -/
def _root_.Ip.Opt.held {T : Type} (o : Opt T) : Option T := if o.hasValue then Option.some o.value else Option.none

/-- What an assignment should leave. -/
def meaning {T : Type} (before : Option T) : Opt.Op T → Option T
  | .null => Option.none
  | .value v => Option.some v
  | .opt o => o.held
  | .self => before

end Ip.Spec
