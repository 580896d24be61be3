import Mathlib.Data.Rat.Floor
import Mathlib.Algebra.BigOperators.Fin
import Mathlib.Algebra.Order.BigOperators.Group.Finset
import Verif.Core.Py
import Verif.Core.Loop

/-!
# Survey extraction: extents, model padding, location indices

Model of `extract_survey` and the functions it calls (`common.py` 1454-2326).  Location coordinates
are rational numbers (every finite floating point or integer tensor entry is one).  Tensors that are
not `None` are taken to be tensors of the right rank; devices and dtypes are not modelled.
-/

namespace Dw.Setup

/-- `IGNORE_LOCATION` (`common.py` 409). -/
def ignoreLocation : ℤ := -2 ^ 31

/-- A location tensor of shape `[nb, n, nd]`. -/
structure LocT where
  nb : ℕ
  n : ℕ
  nd : ℕ
  val : ℕ → ℕ → ℕ → ℚ

/-- `location[..., dim]` without the entries equal to `IGNORE_LOCATION` (e.g. `common.py` 1619-1620),
flattened. -/
def LocT.active (l : LocT) (k : ℕ) : List ℚ :=
  ((List.range l.nb).flatMap fun s => (List.range l.n).map fun i => l.val s i k).filter
    (· ≠ (ignoreLocation : ℚ))

/-- `Tensor.min()` / `Tensor.max()` of a non-empty tensor. -/
def minOf : List ℚ → ℚ
  | [] => 0
  | x :: xs => xs.foldl min x

def maxOf : List ℚ → ℚ
  | [] => 0
  | x :: xs => xs.foldl max x

/-- `Tensor.long()` / `int()`: truncation towards zero. -/
def trunc (q : ℚ) : ℤ := if 0 ≤ q then ⌊q⌋ else ⌈q⌉

/-- Sequence of checks: the first that raises determines the result. -/
def firstErr : List (Except PyErr Unit) → Except PyErr Unit
  | [] => .ok ()
  | x :: xs => match x with
    | .error e => .error e
    | .ok _ => firstErr xs

/-- One `if cond: raise err`. -/
def raiseIf (c : Prop) [Decidable c] (e : PyErr) : Except PyErr Unit := if c then .error e else .ok ()

variable {d : ℕ}

/-- The two checks on `model_shape` (`common.py` 1611-1615, 1714-1718). -/
def checkModelShape (shape : Fin d → ℤ) : Except PyErr Unit :=
  firstErr (raiseIf (d = 0) .runtimeError ::
    (List.ofFn fun k => raiseIf (shape k ≤ 0) .runtimeError))

/-- The checks of one tensor in one dimension in `check_locations_are_within_model`
(`common.py` 1619-1627). -/
def checkDimWithin (shape : Fin d → ℤ) (l : LocT) (k : Fin d) : Except PyErr Unit :=
  if l.nd ≤ k then .error .indexError
  else if (l.active k).isEmpty then .ok ()
  else if minOf (l.active k) < 0 then .error .runtimeError
  else if (shape k : ℚ) ≤ maxOf (l.active k) then .error .runtimeError
  else .ok ()

/-- `check_locations_are_within_model` (`common.py` 1594-1627). -/
def checkLocationsWithinModel (shape : Fin d → ℤ) (locs : List (Option LocT)) : Except PyErr Unit :=
  match checkModelShape shape with
  | .error e => .error e
  | .ok _ => firstErr (locs.flatMap fun o => match o with
      | none => []
      | some l => List.ofFn fun k => checkDimWithin shape l k)

/-- The argument `survey_pad`. -/
inductive SurveyPad
  | none
  | int (p : ℤ)
  | list (l : List (Option ℤ))

/-- An entry of `survey_pad` that is rejected. -/
def isNeg : Option ℤ → Bool
  | some p => decide (p < 0)
  | Option.none => false

/-- `set_survey_pad` (`common.py` 1630-1681). -/
def setSurveyPad (sp : SurveyPad) (d : ℕ) : Except PyErr (List ℤ) :=
  if d = 0 then .error .runtimeError else
  let fin (l : List ℤ) : Except PyErr (List ℤ) :=
    if l.length ≠ 2 * d then .error .runtimeError else .ok l
  match sp with
  | .none => fin (List.replicate (2 * d) (-1))
  | .int p => if p < 0 then .error .runtimeError else fin (List.replicate (2 * d) p)
  | .list l =>
      if l.any isNeg then
        .error .runtimeError
      else fin (l.map fun o => o.getD (-1))

/-- The loop of `get_survey_extents_one_side` over the location tensors (`common.py` 1779-1806);
`left` selects the side. -/
def extremeLoop (left : Bool) (pad : ℤ) (k : ℕ) (shape : ℤ) :
    List (Option LocT) → ℤ → Except PyErr ℤ
  | [], e => .ok e
  | none :: ls, e => extremeLoop left pad k shape ls e
  | some l :: ls, e =>
      if l.nd ≤ k then .error .indexError
      else if (l.active k).isEmpty then extremeLoop left pad k shape ls e
      else if minOf (l.active k) < 0 then .error .runtimeError
      else if (shape : ℚ) ≤ maxOf (l.active k) then .error .runtimeError
      else extremeLoop left pad k shape ls
        (if left then min e (trunc (minOf (l.active k)) - pad)
         else max e (trunc (maxOf (l.active k)) + pad))

/-- `get_survey_extents_one_side` (`common.py` 1738-1813). -/
def extentOneSide (pad : ℤ) (left : Bool) (k : ℕ) (locs : List (Option LocT)) (shape : ℤ) :
    Except PyErr ℤ :=
  if pad < 0 ∨ ¬locs.any Option.isSome then .ok (if left then 0 else shape)
  else match extremeLoop left pad k shape locs (if left then shape else 0) with
    | .error e => .error e
    | .ok e => .ok (min (max (if left then e else e + 1) 0) shape)

/-- A function on `Fin d` whose values may raise; evaluated in the order of the dimensions. -/
def forDims {α : Type*} : {d : ℕ} → (Fin d → Except PyErr α) → Except PyErr (Fin d → α)
  | 0, _ => .ok Fin.elim0
  | _ + 1, f => match f 0 with
      | .error e => .error e
      | .ok a => match forDims fun k => f k.succ with
        | .error e => .error e
        | .ok g => .ok (Fin.cons a g)

/-- `get_survey_extents_from_locations` (`common.py` 1684-1735). -/
def extentsFromLocations (shape : Fin d → ℤ) (locs : List (Option LocT)) (sp : SurveyPad) :
    Except PyErr (Fin d → ℤ × ℤ) :=
  match checkModelShape shape with
  | .error e => .error e
  | .ok _ => match setSurveyPad sp d with
    | .error e => .error e
    | .ok pads => forDims fun k =>
        match extentOneSide (pads.getD (2 * k) 0) true k locs (shape k) with
        | .error e => .error e
        | .ok l => match extentOneSide (pads.getD (2 * k + 1) 0) false k locs (shape k) with
          | .error e => .error e
          | .ok r => .ok (l, r)

/-- `get_survey_extents_from_wavefields` (`common.py` 1816-1882), for wavefields of the right rank;
`wfs` are the spatial shapes of the wavefields. -/
def extentsFromWavefields (wfs : List (Option (Fin d → ℤ))) (origin : Option (List ℤ))
    (w0 w1 : Fin d → ℤ) : Except PyErr (Fin d → ℤ × ℤ) :=
  let check := match origin with
    | none => []
    | some o => [raiseIf (o.length ≠ d) .runtimeError, raiseIf (o.any (· < 0)) .runtimeError]
  match firstErr (check ++ [raiseIf (∃ k, w0 k < 0 ∨ w1 k < 0) .runtimeError]) with
  | .error e => .error e
  | .ok _ => match wfs.filterMap id with
    | [] => .error .runtimeError
    | sh :: _ => forDims fun k =>
        let o := match origin with | none => 0 | some o => o.getD k 0
        let size := sh k - w0 k - w1 k
        if size < 0 then .error .runtimeError else .ok (o, o + size)

/-- `check_extents_within_model` (`common.py` 1885-1907). -/
def checkExtentsWithinModel (ext : Fin d → ℤ × ℤ) (shape : Fin d → ℤ) : Except PyErr Unit :=
  firstErr (List.ofFn fun k => raiseIf ((ext k).1 < 0 ∨ shape k < (ext k).2) .runtimeError)

/-- `check_locations_within_extents` (`common.py` 1910-1942). `min()` of an empty tensor raises. -/
def checkLocationsWithinExtents (ext : Fin d → ℤ × ℤ) (locs : List (Option LocT)) :
    Except PyErr Unit :=
  firstErr (locs.flatMap fun o => match o with
    | none => []
    | some l => (List.range l.nd).map fun k =>
        if (l.active k).isEmpty then .error .runtimeError
        else if h : k < d then
          raiseIf (minOf (l.active k) < ((ext ⟨k, h⟩).1 : ℚ) ∨
            ((ext ⟨k, h⟩).2 : ℚ) ≤ maxOf (l.active k)) .runtimeError
        else .error .indexError)

/-- `check_extents_match_wavefields_shape` (`common.py` 1945-1984). -/
def checkExtentsMatchWavefields (ext : Fin d → ℤ × ℤ) (wfs : List (Option (Fin d → ℤ)))
    (w0 w1 : Fin d → ℤ) : Except PyErr Unit :=
  firstErr (wfs.flatMap fun o => match o with
    | none => []
    | some sh => List.ofFn fun k =>
        raiseIf (sh k ≠ (ext k).2 - (ext k).1 + w1 k + w0 k) .runtimeError)

/-! ### Location indices -/

/-- `shape[dim]` of `_calculate_origin_and_stride` (`common.py` 2134-2138); 1 beyond the list. -/
def paddedShape (ext : Fin d → ℤ × ℤ) (p0 p1 : Fin d → ℤ) (k : Fin d) : ℤ :=
  (ext k).2 - (ext k).1 + p0 k + p1 k

/-- Value of `stride[d - 1 - m]` after the loop (`common.py` 2139-2140). -/
def strideFrom {d : ℕ} (shape : Fin d → ℤ) : ℕ → ℤ
  | 0 => 1
  | m + 1 => strideFrom shape m * (if h : d - 1 - m < d then shape ⟨d - 1 - m, h⟩ else 1)

/-- `stride[k]`. -/
def stride (shape : Fin d → ℤ) (k : Fin d) : ℤ := strideFrom shape (d - 1 - k)

/-- `origin[k]` (`common.py` 2133). -/
def originOf (ext : Fin d → ℤ × ℤ) (p0 : Fin d → ℤ) (k : Fin d) : ℤ := (ext k).1 - p0 k

/-- The one-dimensional index of one location (`common.py` 2154-2172). `x` is the location after
`.long()`. -/
def location1d (origin str : Fin d → ℤ) (x : Fin d → ℤ) : ℤ :=
  let shifted : Fin d → ℤ := fun k =>
    if x k ≠ ignoreLocation then x k - origin k else ignoreLocation
  let base := if h : 0 < d then
    (if shifted ⟨0, h⟩ ≠ ignoreLocation then 0 else ignoreLocation) else 0
  base + ∑ k, if shifted k ≠ ignoreLocation then shifted k * str k else 0

/-- A tensor of indices of shape `[nb, n]`. -/
structure IdxT where
  nb : ℕ
  n : ℕ
  val : ℕ → ℕ → ℤ

/-- Location `(s, i)` of a tensor after `.long()`. -/
def LocT.cell (l : LocT) (d : ℕ) (s i : ℕ) : Fin d → ℤ := fun k => trunc (l.val s i k)

/-- Non-ignored indices of a shot (`common.py` 2175-2176). -/
def activeIdx (t : IdxT) (s : ℕ) : List ℤ :=
  ((List.range t.n).map (t.val s)).filter (· ≠ ignoreLocation)

/-- `_validate_location_tensor` (`common.py` 2090-2122) and `_convert_to_1d_and_check_uniqueness`
(`common.py` 2144-2185) for one tensor. -/
def extractLocation (eps : ℚ) (ext : Fin d → ℤ × ℤ) (p0 p1 : Fin d → ℤ) (nBatch : ℕ) (l : LocT) :
    Except PyErr IdxT :=
  let t : IdxT := ⟨l.nb, l.n, fun s i =>
    location1d (originOf ext p0) (stride (paddedShape ext p0 p1)) (l.cell d s i)⟩
  if ∃ s < l.nb, ∃ i < l.n, ∃ k < l.nd, eps < |l.val s i k - trunc (l.val s i k)| then
    .error .valueError
  else if l.nb ≠ nBatch then .error .runtimeError
  else if l.nd ≠ d then .error .runtimeError
  else if ∃ s < nBatch, ¬(activeIdx t s).Nodup then .error .runtimeError
  else .ok t

/-- `extract_locations` (`common.py` 2188-2245). -/
def extractLocations (eps : ℚ) (ext : Fin d → ℤ × ℤ) (p0 p1 : Fin d → ℤ) (nBatch : ℕ) :
    List (Option LocT) → Except PyErr (List IdxT)
  | [] => .ok []
  | o :: ls =>
      let r : Except PyErr IdxT := match o with
        | none => .ok ⟨nBatch, 0, fun _ _ => 0⟩
        | some l => extractLocation eps ext p0 p1 nBatch l
      match r with
      | .error e => .error e
      | .ok t => match extractLocations eps ext p0 p1 nBatch ls with
        | .error e => .error e
        | .ok ts => .ok (t :: ts)

/-! ### Models -/

/-- A model tensor: optional batch dimension, spatial shape and values. -/
structure ModelT (d : ℕ) (R : Type*) where
  nb : Option ℕ
  shape : Fin d → ℤ
  val : ℕ → (Fin d → ℤ) → R

/-- Padding modes of `torch.nn.functional.pad` that are used. -/
inductive PadMode
  | replicate | constant
  deriving DecidableEq

/-- `reverse_pad` (`common.py` 1987-2009). -/
def reversePad (pad : List ℤ) : List ℤ :=
  (List.range (pad.length / 2)).reverse.flatMap fun k => [pad.getD (2 * k) 0, pad.getD (2 * k + 1) 0]

/-- Padding before and after dimension `k` by `torch.nn.functional.pad`, whose list starts with the
last dimension. -/
def fPadLo (pad : List ℤ) (k : Fin d) : ℤ := pad.getD (2 * (d - 1 - k)) 0
def fPadHi (pad : List ℤ) (k : Fin d) : ℤ := pad.getD (2 * (d - 1 - k) + 1) 0

/-- Values of `torch.nn.functional.pad(u, pad, mode)` on the spatial dimensions of an array of shape
`shape`. -/
def fPad {R : Type*} [Zero R] (mode : PadMode) (pad : List ℤ) (shape : Fin d → ℤ)
    (u : (Fin d → ℤ) → R) : (Fin d → ℤ) → R :=
  match mode with
  | .replicate => fun c => u fun k => min (max (c k - fPadLo pad k) 0) (shape k - 1)
  | .constant => fun c =>
      if ∀ k, 0 ≤ c k - fPadLo pad k ∧ c k - fPadLo pad k < shape k then
        u fun k => c k - fPadLo pad k else 0

/-- Length of the slice `begin:end` of a dimension of size `n`, for `0 ≤ begin`, `0 ≤ end ≤ n`. -/
def sliceLen (b e n : ℤ) : ℤ := max 0 (min e n - min b n)

/-- One model in `extract_models` (`common.py` 2012-2087), given the spatial shape of the first one;
`pad` is in the order `[dim0 begin, dim0 end, dim1 begin, ...]`. Replicate padding raises for an empty
dimension. -/
def extractModel {R : Type*} [Zero R] (m : ModelT d R) (shape0 : Fin d → ℤ) (ext : Fin d → ℤ × ℤ)
    (pad : List ℤ) (mode : PadMode) (nBatch : ℕ) : Except PyErr (ModelT d R) :=
  if m.shape ≠ shape0 then .error .runtimeError
  else
    let nb := m.nb.getD 1
    if nb ≠ 1 ∧ nb ≠ nBatch then .error .runtimeError
    else
      let rsh : Fin d → ℤ := fun k => sliceLen (ext k).1 (ext k).2 (m.shape k)
      if nBatch = 0 then .ok ⟨some 0, rsh, m.val⟩
      else if mode = .replicate ∧ ∃ k, rsh k ≤ 0 then .error .runtimeError
      else .ok ⟨some nb, fun k => rsh k + fPadLo (reversePad pad) k + fPadHi (reversePad pad) k,
        fun s => fPad mode (reversePad pad) rsh fun c => m.val s fun k => c k + (ext k).1⟩

/-! ### The whole of `extract_survey` -/

/-- Padding list `[fd + pml ...]` (`common.py` 1533). -/
def padList (p0 p1 : Fin d → ℤ) : List ℤ := (List.ofFn fun k => [p0 k, p1 k]).flatten

/-- The extents chosen by `extract_survey` (`common.py` 1524-1553), after its checks. -/
def surveyExtents (shape : Fin d → ℤ) (locs : List (Option LocT)) (wfs : List (Option (Fin d → ℤ)))
    (sp : SurveyPad) (origin : Option (List ℤ)) (w0 w1 : Fin d → ℤ) :
    Except PyErr (Fin d → ℤ × ℤ) :=
  let spNone : Bool := match sp with | .none => true | _ => false
  if ¬spNone ∧ origin.isSome then .error .runtimeError
  else match checkLocationsWithinModel shape locs with
    | .error e => .error e
    | .ok _ =>
      if spNone ∧ wfs.any Option.isSome then
        match extentsFromWavefields wfs origin w0 w1 with
        | .error e => .error e
        | .ok ext => match checkExtentsWithinModel ext shape with
          | .error e => .error e
          | .ok _ => match checkLocationsWithinExtents ext locs with
            | .error e => .error e
            | .ok _ => .ok ext
      else match extentsFromLocations shape locs sp with
        | .error e => .error e
        | .ok ext => match checkExtentsMatchWavefields ext wfs w0 w1 with
          | .error e => .error e
          | .ok _ => .ok ext

end Dw.Setup
