/-!
Shared vocabulary of the model: Python exceptions as values.

Every model function that can raise returns `Except PyErr α`. Only the exception class is kept; messages are
modelled only where a property talks about their content.
-/

namespace Verif

/-- The exception classes that the modelled code can raise. -/
inductive PyErr where
  | valueError
  | indexError
  | keyError
  | typeError
  | assertionError
  | runtimeError
  | attributeError
  | arrowInvalid
  | zeroDivision
  | notFound
  deriving DecidableEq, Repr

end Verif
