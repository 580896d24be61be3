/-!
# Python exceptions
-/

namespace Dw

/-- Python exceptions that the modelled code can raise. -/
inductive PyErr
  | valueError | typeError | runtimeError | zeroDivision | assertion | indexError
  deriving DecidableEq, Repr

end Dw
