import Verif.Core.Py

/-!
# The choice of the backend and the options that it supports

`scalar_func`, `scalar_born_func`, `acoustic_func` and `elastic_func` (the argument `python_backend`, the module
variables with the variants of the step functions), the refusals at the start of the Python functions, and the storage
mode of the compiled functions.  A variant of a step function is known by how it was made.  Not modelled: the variants
themselves (scripted, compiled or plain, taken to compute the same) and characters that are not ASCII in
`str.lower()` (none of them becomes a letter of the three names).
-/

namespace Dw.Interface

/-- The argument `python_backend`: a bool, a string, or something else, of which only the truth value is used. -/
inductive BackendArg
  | bool (b : Bool)
  | str (s : String)
  | other (truthy : Bool)

inductive Variant
  | eager | jit | compile
  deriving DecidableEq

/-- The module variables `_…_jit`, `_…_compile` and `_…_opt` of one step function; the first two are `None` until the
variant is first asked for. -/
structure StepVars where
  jit : Option Variant
  compile : Option Variant
  opt : Variant

/-- At import (`scalar.py` 1961-1963, `acoustic.py` 1333-1338). -/
def StepVars.initial : StepVars := ⟨none, none, .eager⟩

/-- The branches on `mode` (`scalar.py` 2131-2142, `scalar_born.py` 1773-1784): the new module variables. -/
def StepVars.select (x : StepVars) (mode : String) : Except PyErr StepVars :=
  if mode = "jit" then
    let x := match x.jit with
      | none => { x with jit := some .jit }
      | some _ => x
    .ok { x with opt := x.jit.getD x.opt }
  else if mode = "compile" then
    let x := match x.compile with
      | none => { x with compile := some .compile }
      | some _ => x
    .ok { x with opt := x.compile.getD x.opt }
  else if mode = "eager" then .ok { x with opt := .eager }
  else .error .valueError

/-- `s.lower()`. -/
def lower (s : String) : String := String.ofList (s.toList.map Char.toLower)

/-- The value of `mode`, or nothing for the compiled backend (`scalar.py` 2121-2129, `scalar_born.py` 1763-1771,
`acoustic.py` 1571-1579, `elastic.py` 2738-2746). -/
def backendMode (openmp : Bool) : BackendArg → Except PyErr (Option String)
  | .bool false => .ok none
  | .bool true => .ok (some (if openmp then "compile" else "jit"))
  | .str s => if s = "" then .ok none else .ok (some (lower s))
  | .other false => .ok none
  | .other true => .error .typeError

/-- `scalar_func` and `scalar_born_func`: the variables after the call, and the variant of the step function with which
the Python backend runs (nothing for the compiled backend). -/
def func1 (openmp : Bool) (x : StepVars) (a : BackendArg) : Except PyErr (StepVars × Option Variant) := do
  match ← backendMode openmp a with
  | none => return (x, none)
  | some mode =>
      let x ← x.select mode
      return (x, some x.opt)

/-- `acoustic_func` (1581-1603) and `elastic_func` (2748-2770): the two step functions are selected in one branch
each. -/
def func2 (openmp : Bool) (x : StepVars × StepVars) (a : BackendArg) :
    Except PyErr ((StepVars × StepVars) × Option (Variant × Variant)) := do
  match ← backendMode openmp a with
  | none => return (x, none)
  | some mode =>
      let x₁ ← x.1.select mode
      let x₂ ← x.2.select mode
      return ((x₁, x₂), some (x₁.opt, x₂.opt))

/-- Calls one after another, each with its own argument. -/
def calls1 (openmp : Bool) : StepVars → List BackendArg → StepVars
  | x, [] => x
  | x, a :: l =>
      match func1 openmp x a with
      | .ok (x, _) => calls1 openmp x l
      | .error _ => calls1 openmp x l

/-- The same for two step functions. -/
def calls2 (openmp : Bool) : StepVars × StepVars → List BackendArg → StepVars × StepVars
  | x, [] => x
  | x, a :: l =>
      match func2 openmp x a with
      | .ok (x, _) => calls2 openmp x l
      | .error _ => calls2 openmp x l

inductive Propagator
  | scalar | born | acoustic | elastic
  deriving DecidableEq

/-- Options that concern the backend. -/
structure BackendOpts where
  backwardCallback : Bool
  storageMode : String
  compression : Bool

/-- The checks at the start of `scalar_python` (1991-2000), `scalar_born_python` (1579-1588), `acoustic_python`
(1359-1364) and `elastic_python` (2161-2170). -/
def pythonChecks (p : Propagator) (o : BackendOpts) : Except PyErr Unit := do
  if o.backwardCallback then throw .runtimeError
  if o.storageMode ≠ "device" then throw .runtimeError
  match p with
  | .acoustic => return
  | _ => if o.compression then throw .runtimeError

inductive StoreMode
  | device | cpu | disk | none
  deriving DecidableEq

/-- The storage mode of the compiled functions (`scalar.py` 668-683, `scalar_born.py` 668-683, `acoustic.py` 805-817,
`elastic.py` 1291-1306). -/
def storeMode (onCpu : Bool) (s : String) : Except PyErr StoreMode :=
  let s := if onCpu ∧ s = "cpu" then "device" else s
  if s = "device" then .ok .device
  else if s = "cpu" then .ok .cpu
  else if s = "disk" then .ok .disk
  else if s = "none" then .ok .none
  else .error .valueError

end Dw.Interface
