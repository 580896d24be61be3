import Mathlib.Algebra.Order.Floor.Ring
import Mathlib.Algebra.Order.Field.Basic
import Mathlib.Data.List.ProdSigma
import Verif.Core.Py

/-!
# Model of `src/deepwave/location_interpolation.py`

Coordinates and weights are elements of an ordered field with floor; floating-point rounding is not
modelled.  The windowed sinc formulas (lines 73-88, with fixed `halfwidth` and `beta`) are a parameter
`ker`, applied to the distance of a cell from the point; `ker true` is the monopole formula and
`ker false` the dipole formula.  A tensor of amplitudes is treated one time sample at a time.
-/

namespace Dw.Hicks

variable {K : Type*} [Field K] [LinearOrder K] [FloorRing K]

/-- `int(x)`, `Tensor.long()`: truncation towards zero. -/
def pyInt (x : K) : ℤ := if 0 ≤ x then ⌊x⌋ else ⌈x⌉

/-- `round(x)`, `Tensor.round()`: nearest integer, halves to even. -/
def pyRound (x : K) : ℤ :=
  if x - ⌊x⌋ < 1 / 2 then ⌊x⌋
  else if 1 / 2 < x - ⌊x⌋ then ⌊x⌋ + 1
  else if ⌊x⌋ % 2 = 0 then ⌊x⌋ else ⌊x⌋ + 1

/-- `math.isclose(a, b)` with the default tolerances. -/
def isclose (a b : K) : Bool := |a - b| ≤ 1 / 10 ^ 9 * max |a| |b|

/-- A bound of a slice of a sequence of length `n`. -/
def bound (n : ℕ) (i : ℤ) : ℕ := if i < 0 then (i + n).toNat else min i.toNat n

/-- `weights[s:e] -= y` on a tensor; a `y` of one element is broadcast. -/
def subSlice (w : List K) (s e : ℤ) (y : List K) : Except PyErr (List K) :=
  let a := bound w.length s
  let n := bound w.length e - a
  let mid := (w.drop a).take n
  if y.length = n then .ok (w.take a ++ List.zipWith (· - ·) mid y ++ w.drop (a + n))
  else if y.length = 1 then .ok (w.take a ++ mid.map (· - y.headD 0) ++ w.drop (a + n))
  else .error .runtimeError

/-- Settings common to all points of a call. -/
structure Params (K : Type*) where
  halfwidth : ℕ
  ker : Bool → K → K
  eps : K

/-- `hicks_weight_cache`; the halfwidth, part of the key, is the same throughout. -/
abbrev Cache (K : Type*) := ℤ × Bool → Option (List K)

/-- Free surfaces of one dimension: their positions, `none` if the edge is not a free surface. -/
structure Surf (K : Type*) where
  lo : Option K
  hi : Option K

/-- Folding at the beginning (lines 91-101).  The tensor is returned in two parts: the part cut off,
and the part that `weights` is a view of afterwards. -/
def foldLo (f : Option K) (locs : List ℤ) (w : List K) :
    Except PyErr (List ℤ × List K × List K) :=
  match f, locs with
  | none, _ => .ok (locs, [], w)
  | some _, [] => .error .indexError
  | some f, l :: _ =>
    if (l : K) < f then
      let idx0 := ⌈f - l⌉
      let idx1 := idx0 + if isclose (pyRound f : K) f then 1 else 0
      let y := (w.take (bound w.length idx1)).reverse
      match subSlice w idx0 (idx0 + y.length) y with
      | .error e => .error e
      | .ok w' => .ok (locs.drop (bound locs.length idx0), w'.take (bound w'.length idx0),
          w'.drop (bound w'.length idx0))
    else .ok (locs, [], w)

/-- Folding at the end (lines 102-112).  Returns the locations, the folded weights and the whole
tensor that `weights` was a view of. -/
def foldHi (f : Option K) (locs : List ℤ) (w : List K) :
    Except PyErr (List ℤ × List K × List K) :=
  match f, locs.getLast? with
  | none, _ => .ok (locs, w, w)
  | some _, none => .error .indexError
  | some f, some l =>
    if f < (l : K) then
      let idx0 : ℤ := w.length - 1 - ⌈l - f⌉
      let idx1 := idx0 - if isclose (pyRound f : K) f then 1 else 0
      let y := (w.drop (bound w.length (idx1 + 1))).reverse
      match subSlice w (idx0 + 1 - y.length) (idx0 + 1) y with
      | .error e => .error e
      | .ok w' => .ok (locs.take (bound locs.length (idx0 + 1)), w'.take (bound w'.length (idx0 + 1)), w')
    else .ok (locs, w, w)

/-- Distances of the cells of the window from the point (lines 60-69). -/
def offsets (P : Params K) (x : K) : List K :=
  (List.range (2 * P.halfwidth)).map fun i : ℕ => (-(P.halfwidth : K) + 1 + i) - x + pyInt x

/-- The key of the cache (line 59). -/
def key (P : Params K) (x : K) (mono : Bool) : ℤ × Bool := (pyInt ((x - pyInt x) / P.eps), mono)

/-- `_get_hicks_for_one_location_dim` (lines 13-113): the cache afterwards, the cells and the weights.
On a miss the tensor put into the cache is the one that the folding then changes in place; on a hit
it is a copy. -/
def oneDim (P : Params K) (cache : Cache K) (x : K) (S : Surf K) (mono : Bool) :
    Except PyErr (Cache K × List ℤ × List K) :=
  if mono ∧ |x - pyRound x| < P.eps then .ok (cache, [pyRound x], [1]) else
  let locs := (offsets P x).map fun y => pyInt (x + y)
  let hit := cache (key P x mono)
  match foldLo S.lo locs (hit.getD ((offsets P x).map (P.ker mono))) with
  | .error e => .error e
  | .ok (locs, cut, w) =>
    match foldHi S.hi locs w with
    | .error e => .error e
    | .ok (locs, w, view) =>
      .ok (if hit.isSome then cache else Function.update cache (key P x mono) (some (cut ++ view)),
        locs, w)

/-- A point: coordinates, monopole or dipole, dipole dimension. -/
structure Point (K : Type*) where
  x : K
  y : K
  mono : Bool
  dim : ℤ

/-- The indices of `ls` among the distinct locations, which are extended as needed (lines 187-194). -/
def indexAll : List (ℤ × ℤ) → List (ℤ × ℤ) → List (ℤ × ℤ) × List ℕ
  | dict, [] => (dict, [])
  | dict, l :: ls =>
    if l ∈ dict then
      let r := indexAll dict ls
      (r.1, dict.idxOf l :: r.2)
    else
      let r := indexAll (dict ++ [l]) ls
      (r.1, dict.length :: r.2)

/-- What is kept of a point: indices of its cells, weights of the two dimensions. -/
structure PointOut (K : Type*) where
  idxs : List ℕ
  w0 : List K
  w1 : List K

/-- The loop over the points of a shot (lines 155-196). -/
def shotLoop (P : Params K) (S0 S1 : Surf K) : Cache K → List (ℤ × ℤ) → List (Point K) →
    Except PyErr (Cache K × List (ℤ × ℤ) × List (PointOut K))
  | cache, dict, [] => .ok (cache, dict, [])
  | cache, dict, p :: ps =>
    match oneDim P cache p.x S0 (p.mono || p.dim == 1) with
    | .error e => .error e
    | .ok (cache, l0, w0) =>
      match oneDim P cache p.y S1 (p.mono || p.dim == 0) with
      | .error e => .error e
      | .ok (cache, l1, w1) =>
        let r := indexAll dict (l0.product l1)
        match shotLoop P S0 S1 cache r.1 ps with
        | .error e => .error e
        | .ok (cache, dict, outs) => .ok (cache, dict, ⟨r.2, w0, w1⟩ :: outs)

/-- A shot: distinct grid locations and the points. -/
structure Shot (K : Type*) where
  locs : List (ℤ × ℤ)
  outs : List (PointOut K)

/-- The loop over the shots, which share the cache (lines 145-201). -/
def shots (P : Params K) (S0 S1 : Surf K) : Cache K → List (List (Point K)) →
    Except PyErr (List (Shot K))
  | _, [] => .ok []
  | cache, ps :: rest =>
    match shotLoop P S0 S1 cache [] ps with
    | .error e => .error e
    | .ok (cache, dict, outs) =>
      match shots P S0 S1 cache rest with
      | .error e => .error e
      | .ok r => .ok (⟨dict, outs⟩ :: r)

/-- `_get_hicks_locations_and_weights` (lines 116-216) from `Hicks.__init__`; the checks of the types
of the arguments are not modelled. -/
def hicks (P : Params K) (S0 S1 : Surf K) (ps : List (List (Point K))) : Except PyErr (List (Shot K)) :=
  if P.halfwidth < 1 ∨ 10 < P.halfwidth then .error .runtimeError
  else shots P S0 S1 (fun _ => none) ps

/-- `get_locations` (lines 197-214, 380-402): row of a shot, padded with `IGNORE_LOCATION` (`none`) to
the largest number of grid locations of any shot. -/
def getLocations (H : List (Shot K)) (s : Shot K) : List (Option (ℤ × ℤ)) :=
  let n := (H.map fun s => s.locs.length).foldl max 0
  s.locs.map some ++ List.replicate (n - s.locs.length) none

/-- `(weights0.reshape(-1, 1) * weights1.reshape(1, -1)).reshape(-1)`. -/
def PointOut.weights (o : PointOut K) : List K := o.w0.flatMap fun a => o.w1.map fun b => a * b

/-- `out[idxs] += vals`: all values are read before any is written. -/
def fancyAdd (out : ℕ → K) (idxs : List ℕ) (vals : List K) : ℕ → K :=
  (idxs.zip vals).foldl (fun o iv => Function.update o iv.1 (out iv.1 + iv.2)) out

/-- `Hicks.source` for a shot (lines 441-458); entry `j` belongs to grid location `j`. -/
def source (s : Shot K) (amps : List K) : ℕ → K :=
  (s.outs.zip amps).foldl (fun out oa => fancyAdd out oa.1.idxs (oa.1.weights.map fun w => oa.2 * w))
    fun _ => 0

/-- `Hicks.receiver` for a shot (lines 495-514); `rec j` is the data of grid location `j`. -/
def receiver (s : Shot K) (rcd : ℕ → K) : List K :=
  s.outs.map fun o => (List.zipWith (fun j w => rcd j * w) o.idxs o.weights).sum

end Dw.Hicks
