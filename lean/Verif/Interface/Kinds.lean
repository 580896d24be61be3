import Mathlib.Data.Nat.Notation

/-!
# Kinds of arguments at the boundary between Python and the compiled code

The compiled propagators are called through `ctypes`: Python holds, for each function, a list
of argument types (backend_utils.py lines 37-538) and passes a list of values.  A C function
takes its arguments by position, so list of types, list of values and parameter list have to
agree entry by entry.
-/

namespace Dw.Interface

/-- Argument kinds: pointer (`c_void_p`), `FLOAT_TYPE` / `DW_DTYPE`, `c_int64` / `int64_t`,
`c_size_t` / `size_t`, `c_bool` / `bool`. -/
inductive Kind
  | ptr | real | i64 | size | bool
  deriving DecidableEq, Repr

/-- Parameter list: kind and name of each parameter in order. -/
abbrev Sig := List (Kind × String)

/-- A block of parameters under a preprocessor (or Python) condition. -/
def sec (c : Prop) [Decidable c] (s : Sig) : Sig := if c then s else []

end Dw.Interface
