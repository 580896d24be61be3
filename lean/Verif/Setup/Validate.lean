import Mathlib.Data.Rat.Floor
import Verif.Core.Py
import Verif.Setup.Survey

/-!
# Argument validation

Models of the validators of `common.py`.  A Python number is an `int` or a finite `float`; everything
on which `float()` raises is `other`.  Infinities and NaN are not modelled.
-/

namespace Dw.Setup

/-- A Python object given as a number. -/
inductive PyNum
  | int (z : ℤ)
  | float (q : ℚ)
  | other

/-- `float(x)`; `none` if it raises. -/
def PyNum.toFloat : PyNum → Option ℚ
  | .int z => some z
  | .float q => some q
  | .other => none

/-- A scalar argument or a sequence. -/
inductive PyArg
  | one (x : PyNum)
  | seq (l : List PyNum)

/-- All conversions succeed. -/
def allSome {α : Type*} : List (Option α) → Option (List α)
  | [] => some []
  | none :: _ => none
  | some a :: l => (allSome l).map (a :: ·)

/-- `set_grid_spacing` (`common.py` 701-743). -/
def setGridSpacing (g : PyArg) (d : ℕ) : Except PyErr (List ℚ) :=
  let r := match g with
    | .one x => x.toFloat.map fun q => List.replicate d q
    | .seq l => allSome (l.map PyNum.toFloat)
  match r with
  | none => .error .typeError
  | some l =>
      if l.any (· ≤ 0) then .error .valueError
      else if l.length ≠ d then .error .runtimeError
      else .ok l

/-- `set_accuracy` (`common.py` 746-764). -/
def setAccuracy (a : PyNum) : Except PyErr ℤ :=
  match a with
  | .int z => if z ∉ [2, 4, 6, 8] then .error .valueError else .ok z
  | _ => .error .typeError

/-- `int(x)` with the check `float(x) == float(int(x))`. -/
def PyNum.toInt (x : PyNum) : Option ℤ :=
  match x.toFloat with
  | none => none
  | some q => if q ≠ (trunc q : ℚ) then none else some (trunc q)

/-- `set_pml_width` (`common.py` 767-810). A scalar that is not an integer is not iterable, so the
second attempt raises too. -/
def setPmlWidth (w : PyArg) (d : ℕ) : Except PyErr (List ℤ) :=
  let r := match w with
    | .one x => x.toInt.map fun z => List.replicate (2 * d) z
    | .seq l => allSome (l.map PyNum.toInt)
  match r with
  | none => .error .typeError
  | some l =>
      if l.any (· < 0) then .error .valueError
      else if l.length ≠ 2 * d then .error .runtimeError
      else .ok l

/-- `set_pml_freq` (`common.py` 813-854). -/
def setPmlFreq (f : Option PyNum) (dt : PyNum) : Except PyErr ℚ :=
  let f' : Except PyErr (Option ℚ) := match f with
    | none => .ok none
    | some x => match x.toFloat with
      | none => .error .typeError
      | some q => .ok (some q)
  match f' with
  | .error e => .error e
  | .ok f => match dt with
    | .float q =>
        if q = 0 then .error .valueError
        else
          let f := f.getD 25
          if f < 0 then .error .valueError else .ok f
    | _ => .error .typeError

/-- `set_max_vel` (`common.py` 857-889). -/
def setMaxVel (v : Option PyNum) (model : PyNum) : Except PyErr ℚ :=
  let v' : Except PyErr (Option ℚ) := match v with
    | none => .ok none
    | some x => match x.toFloat with
      | none => .error .typeError
      | some q => .ok (some q)
  match v' with
  | .error e => .error e
  | .ok v => match model.toFloat with
    | none => .error .typeError
    | some m => match v with
      | none => .ok m
      | some v => if |v| ≤ 0 then .error .valueError else .ok |v|

/-- `set_nt` (`common.py` 892-939); `amps` are the lengths of the time dimension of the source
amplitudes. -/
def setNt (nt : Option PyNum) (amps : List (Option ℕ)) (ratio : ℤ) : Except PyErr ℤ :=
  let nt' : Except PyErr (Option ℤ) := match nt with
    | none => .ok none
    | some (.int z) => .ok (some z)
    | some _ => .error .typeError
  match nt' with
  | .error e => .error e
  | .ok nt =>
    if ratio < 1 then .error .valueError
    else
      let sa : Option ℕ := (amps.filterMap id).head?
      match nt, sa with
      | none, none => .error .runtimeError
      | none, some a => .ok (a * ratio)
      | some n, some a =>
          if n ≠ a then .error .runtimeError
          else if n < 0 then .error .runtimeError else .ok (n * ratio)
      | some n, none => if n < 0 then .error .runtimeError else .ok (n * ratio)

/-- `set_model_gradient_sampling_interval` (`common.py` 942-961). -/
def setInterval (x : PyNum) : Except PyErr ℤ :=
  match x with
  | .int z => if z < 0 then .error .valueError else .ok z
  | _ => .error .typeError

/-- `set_freq_taper_frac` and `set_time_pad_frac` (`common.py` 964-1007). -/
def setFrac (x : PyNum) : Except PyErr ℚ :=
  match x.toFloat with
  | none => .error .typeError
  | some q => if 0 ≤ q ∧ q ≤ 1 then .ok q else .error .valueError

/-- `check_source_amplitudes_locations_match` (`common.py` 1010-1058); the entries are the sizes of
the `n_sources_per_shot` dimension. -/
def checkAmpsMatch (amps locs : List (Option ℕ)) : Except PyErr Unit :=
  if amps.length ≠ locs.length then .error .runtimeError
  else firstErr ((List.zip amps locs).map fun p =>
    match p with
    | (none, none) => .ok ()
    | (some a, some l) => raiseIf (a ≠ l) .runtimeError
    | _ => .error .runtimeError)

/-- Check of `callback_frequency` (`scalar.py` 545-548). -/
def checkCallbackFrequency (x : PyNum) : Except PyErr ℤ :=
  match x with
  | .int z => if z ≤ 0 then .error .valueError else .ok z
  | _ => .error .typeError

/-! ### Number of dimensions -/

/-- `if ndim < 0: ndim = v elif ndim != v: raise`. -/
def ndimStep (v nd : ℤ) : Except PyErr ℤ :=
  if nd < 0 then .ok v else if nd ≠ v then .error .valueError else .ok nd

/-- Loop over the items of one kind (`common.py` 2659-2687). -/
def ndimLoop : List ℤ → ℤ → Except PyErr ℤ
  | [], nd => .ok nd
  | v :: l, nd => match ndimStep v nd with
    | .error e => .error e
    | .ok nd => ndimLoop l nd

/-- Loop over the fields of dimension `dim` (`common.py` 2690-2713). -/
def ndimFieldLoop (dim : ℤ) : List ℤ → ℤ → Except PyErr ℤ
  | [], nd => .ok nd
  | v :: l, nd =>
      if nd < 0 then ndimFieldLoop dim l v
      else if nd ≠ v then .error .valueError
      else if dim + 1 > nd then .error .valueError
      else ndimFieldLoop dim l nd

/-- The arguments of `get_ndim` that are not `None`: `field.ndim - 1` of the wavefields, the last
dimension of the locations, `field.ndim - 1` of the fields of each dimension, and `model.ndim`. -/
structure NdimArgs where
  wavefields : List ℤ
  locations : List ℤ
  x : List ℤ
  y : List ℤ
  z : List ℤ
  models : List ℤ

/-- The part of `get_ndim` after the wavefields and locations (`common.py` 2688-2731). -/
def getNdimRest (A : NdimArgs) (n : ℤ) : Except PyErr ℤ :=
  match ndimFieldLoop 0 A.x n with
  | .error e => .error e
  | .ok n => match ndimFieldLoop 1 A.y n with
    | .error e => .error e
    | .ok n => match ndimFieldLoop 2 A.z n with
      | .error e => .error e
      | .ok n =>
          if A.models.any (fun m => m ≠ n ∧ m ≠ n + 1) then .error .valueError
          else if n < 0 then .error .runtimeError
          else .ok n

/-- `get_ndim` (`common.py` 2631-2731) for tensors. -/
def getNdim (A : NdimArgs) : Except PyErr ℤ :=
  match ndimLoop A.wavefields (-1) with
  | .error e => .error e
  | .ok n => match ndimLoop A.locations n with
    | .error e => .error e
    | .ok n => getNdimRest A n

/-! ### Callback views -/

/-- `_get_view` (`common.py` 375-404) on an array of spatial shape `n`: shape and values of the
returned tensor. -/
def getView {d : ℕ} {R : Type*} (fd0 fd1 w0 w1 n : Fin d → ℤ) (view : String) (u : (Fin d → ℤ) → R) :
    Except PyErr ((Fin d → ℤ) × ((Fin d → ℤ) → R)) :=
  let sl (b e : Fin d → ℤ) : (Fin d → ℤ) × ((Fin d → ℤ) → R) :=
    (fun k => sliceLen (b k) (e k) (n k), fun c => u fun k => c k + b k)
  if view = "full" then .ok (n, u)
  else if view = "pml" then .ok (sl fd0 fun k => n k - fd1 k)
  else if view = "inner" then .ok (sl (fun k => fd0 k + w0 k) fun k => n k - fd1 k - w1 k)
  else .error .valueError

end Dw.Setup
