/-!
# Python exceptions as values

The code under study reports errors by raising.  In the model an operation that may
raise returns `Except PyErr α`; where the partially updated object survives the
exception the new state is returned as well.
-/

namespace Verif

/-- The exception classes raised (explicitly or by the interpreter) in the modelled code.
`componentDefinition` is `ComponentDefinitionError` of `objects/aircraft.py:77-80`; `external` stands
for exception classes of external packages (`TixiException`, `TiglException`). -/
inductive PyErr
  | valueError
  | typeError
  | keyError
  | indexError
  | attributeError
  | runtimeError
  | nameError
  | unboundLocal
  | ioError
  | componentDefinition
  | zeroDivision
  | linAlg
  | external
  deriving DecidableEq, Repr

/-- A `for` loop that replaces each element and stops at the first exception. -/
def mapE.{u, v} {α : Type u} {β : Type v} (f : α → Except PyErr β) : List α → Except PyErr (List β)
  | [] => .ok []
  | a :: rest =>
    match f a with
    | .error e => .error e
    | .ok b =>
      match mapE f rest with
      | .error e => .error e
      | .ok bs => .ok (b :: bs)

end Verif
