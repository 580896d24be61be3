import Verif.Interface.CSignatures
import Verif.Interface.Python

/-!
# Selection of the compiled function

Which functions the shared library contains (CMakeLists.txt, the macros `FUNC` of the sources), which
argument types Python assigns to them when it is imported, and which of them it selects for a
call (backend_utils.py lines 505-671).  Names of functions are texts; a function is known by the source
file and the constants with which it was compiled.  Not modelled: the compiler, the other build
options, `restype`.
-/

namespace Dw.Interface

/-- A function of the library: the source file (without its extension, which is given by the device), the
argument of `FUNC`, and `DW_NDIM`, `DW_ACCURACY`, `DW_DTYPE`, `DW_DEVICE`. -/
structure Symbol where
  source : String
  fn : String
  ndim : ℕ
  accuracy : ℕ
  dtype : String
  device : String
  deriving DecidableEq

/-- `FUNC(name)`: scalar.c lines 75-79, scalar.cu 41-45, scalar_born.c 39-43, scalar_born.cu 33-37,
acoustic.c 16-20, acoustic.cu 14-18, elastic.c 62-66, elastic.cu 31-35; the first part of the name is
written out in each file and is in each the name of the file. -/
def Symbol.cname (s : Symbol) : String :=
  s.source ++ "_iso_" ++ toString s.ndim ++ "d_" ++ toString s.accuracy ++ "_" ++ s.dtype ++ "_" ++
    s.fn ++ "_" ++ s.device

/-- The functions declared with `FUNC` in the C and CUDA sources. -/
def sources : List (String × List String) :=
  [("scalar", ["forward", "backward"]), ("scalar_born", ["forward", "backward", "backward_sc"]),
   ("elastic", ["forward", "backward"]), ("acoustic", ["forward", "backward"])]

/-- The object files of one device: CMakeLists.txt lines 144-164 (CPU) and 188-201 (CUDA); those of
`storage_utils` and `simple_compress` hold no function that Python calls. -/
def objects (device : String) : List Symbol :=
  [1, 2, 3].flatMap fun ndim => ["float", "double"].flatMap fun dtype =>
    [2, 4, 6, 8].flatMap fun accuracy => sources.flatMap fun s =>
      s.2.map fun fn => ⟨s.1, fn, ndim, accuracy, dtype, device⟩

/-- The library, built with or without CUDA. -/
def library (cuda : Bool) : List Symbol :=
  objects "cpu" ++ if cuda then objects "cuda" else []

/-- `getattr(dll, name)`; `none` for `AttributeError`. -/
def getattr (cuda : Bool) (name : String) : Option Symbol :=
  (library cuda).find? fun s => s.cname == name

/-- `ctypes` types. -/
inductive CType
  | voidp | float | double | int64 | size | bool
  deriving DecidableEq

/-- `_get_argtypes` (lines 519-538), one entry: the placeholder is replaced by the float type. -/
def CType.of (float : CType) : Kind → CType
  | .ptr => .voidp
  | .real => float
  | .i64 => .int64
  | .size => .size
  | .bool => .bool

/-- The dictionary `templates` (lines 506-516). -/
def templates : List (String × (ℕ → List Kind)) :=
  [("scalar_forward", Template.scalar.forward), ("scalar_backward", Template.scalar.backward),
   ("scalar_born_forward", Template.born.forward),
   ("scalar_born_backward", Template.born.backward),
   ("scalar_born_backward_sc", Template.born.backward_sc),
   ("elastic_forward", Template.elastic.forward),
   ("elastic_backward", Template.elastic.backward),
   ("acoustic_forward", Template.acoustic.forward),
   ("acoustic_backward", Template.acoustic.backward)]

/-- `_assign_argtypes` (lines 541-582): the names to which types are assigned, in order.  A template
that is not in the dictionary would be a `KeyError` (`none`). -/
def assignArgtypes (cuda : Bool) (propagator : String) (ndim accuracy : ℕ)
    (dtype direction extra : String) : Option (List (String × List CType)) :=
  (templates.lookup (propagator ++ "_" ++ direction ++ extra)).map fun t =>
    let floatType := if dtype = "float" then CType.float else CType.double
    ["cpu", "cuda"].filterMap fun device =>
      (getattr cuda (propagator ++ "_iso_" ++ toString ndim ++ "d_" ++ toString accuracy ++ "_" ++
        dtype ++ "_" ++ direction ++ extra ++ "_" ++ device)).map fun s =>
          (s.cname, (t ndim).map (CType.of floatType))

/-- The calls of `_assign_argtypes` in the loop (lines 637-671): propagator, direction, `extra`. -/
def assigned : List (String × String × String) :=
  [("scalar", "forward", ""), ("scalar", "backward", ""), ("scalar_born", "forward", ""),
   ("scalar_born", "backward", ""), ("scalar_born", "backward", "_sc"), ("elastic", "forward", ""),
   ("elastic", "backward", ""), ("acoustic", "forward", ""), ("acoustic", "backward", "")]

/-- The turns of the loop. -/
def turns : List (ℕ × ℕ × String × String × String × String) :=
  [1, 2, 3].flatMap fun ndim => [2, 4, 6, 8].flatMap fun accuracy =>
    ["float", "double"].flatMap fun dtype =>
      assigned.map fun p => (ndim, accuracy, dtype, p.1, p.2.1, p.2.2)

/-- All assignments made on import, in order; `none` if the import fails. -/
def assignments (cuda : Bool) : Option (List (List (String × List CType))) :=
  turns.mapM fun x => assignArgtypes cuda x.2.2.2.1 x.1 x.2.1 x.2.2.1 x.2.2.2.2.1 x.2.2.2.2.2

/-- `func.argtypes` after the import: the last assignment counts. -/
def argtypes (cuda : Bool) (s : Symbol) : Option (List CType) :=
  (assignments cuda).bind fun l => l.flatten.reverse.lookup s.cname

/-- `torch.float32`, `torch.float64`, anything else. -/
inductive TorchDtype
  | float32 | float64 | other
  deriving DecidableEq

inductive SelectError
  | typeError | attributeError
  deriving DecidableEq

/-- `get_backend_function` (lines 585-630). -/
def getBackendFunction (cuda : Bool) (propagator : String) (ndim : ℕ) (passName : String)
    (accuracy : ℕ) (dtype : TorchDtype) (device : String) (extra : String) :
    Except SelectError Symbol :=
  let select := fun dtypeStr : String =>
    match getattr cuda (propagator ++ "_iso_" ++ toString ndim ++ "d_" ++ toString accuracy ++
      "_" ++ dtypeStr ++ "_" ++ passName ++ extra ++ "_" ++ device) with
    | some s => Except.ok s
    | none => .error SelectError.attributeError
  match dtype with
  | .float32 => select "float"
  | .float64 => select "double"
  | .other => .error .typeError

end Dw.Interface
