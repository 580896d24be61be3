import Mathlib.Data.Nat.Notation
import Verif.Core.Py

/-!
# Passing of tensors through the autograd functions

Models how `scalar`, `scalar_born`, `acoustic` and `elastic` call their autograd functions, how these bind and
split their arguments, what they save for the backward pass and read back, and at which positions they return the
gradients.  The numerical work is a parameter (`K`).  Tensors are elements of `α`, other values are elements of
`γ`; `len` is `len(grid_spacing)`, `store` stands for the storage manager made in the forward pass, and `needs`
for `requires_grad`.  Python's tuple unpacking and argument binding raise if the number of elements is wrong.
-/

namespace Dw.Interface

variable {α γ : Type}

/-- An argument of `apply`: a tensor, a list of tensors, or anything else. -/
inductive Slot (α γ : Type)
  | tensor (a : α)
  | list (l : List α)
  | other (c : γ)

/-- `l[-n:]`. -/
def lastN (n : ℕ) (l : List α) : List α := if n = 0 then l else l.drop (l.length - n)

/-- `l` after `del l[-n:]`. -/
def delLastN (n : ℕ) (l : List α) : List α := if n = 0 then [] else l.take (l.length - n)

/-- `l[a:b]` for indices that are not negative. -/
def sliceOf (a b : ℕ) (l : List α) : List α := (l.take b).drop a

/-- Starred arguments that are all tensors. -/
def allTensors : List (Slot α γ) → Except PyErr (List α)
  | [] => .ok []
  | .tensor a :: l => do return a :: (← allTensors l)
  | _ :: _ => .error .typeError

/-- What the engine of PyTorch does with the values that `backward` returns: as many as inputs of `apply`, `None`
for those that are not tensors; the others are gradients of the tensors at their positions. -/
def collect : List (Slot α γ) → List (Option α) → Except PyErr (List (α × α))
  | [], [] => .ok []
  | .tensor a :: is, some g :: gs => do return (a, g) :: (← collect is gs)
  | _ :: is, none :: gs => collect is gs
  | _, _ => .error .runtimeError

/-- The arguments that all propagators have. -/
structure CallOpts (γ : Type) where
  gridSpacing : γ
  dt : γ
  nt : γ
  stepRatio : γ
  accuracy : γ
  pmlWidth : γ
  nShots : γ
  forwardCallback : γ
  backwardCallback : γ
  callbackFrequency : γ
  storageMode : γ
  storagePath : γ
  storageCompression : γ

/-- Their order at the call (`scalar.py` 557-569, `scalar_born.py` 557-569, `acoustic.py` 608-620, `elastic.py`
1002-1014). -/
def CallOpts.slots (o : CallOpts γ) : List (Slot α γ) :=
  [.other o.gridSpacing, .other o.dt, .other o.nt, .other o.stepRatio, .other o.accuracy, .other o.pmlWidth,
    .other o.nShots, .other o.forwardCallback, .other o.backwardCallback, .other o.callbackFrequency,
    .other o.storageMode, .other o.storagePath, .other o.storageCompression]

/-- Their order as parameters (`scalar.py` 607-619, 1942-1954, `scalar_born.py` 609-621, 1520-1532, `acoustic.py`
741-753, 1343-1355, `elastic.py` 1188-1200, 2144-2156). -/
def takeOpts : List (Slot α γ) → Except PyErr (CallOpts γ × List (Slot α γ))
  | .other gridSpacing :: .other dt :: .other nt :: .other stepRatio :: .other accuracy :: .other pmlWidth ::
      .other nShots :: .other forwardCallback :: .other backwardCallback :: .other callbackFrequency ::
      .other storageMode :: .other storagePath :: .other storageCompression :: rest =>
    .ok ({ gridSpacing := gridSpacing, dt := dt, nt := nt, stepRatio := stepRatio, accuracy := accuracy
           pmlWidth := pmlWidth, nShots := nShots, forwardCallback := forwardCallback
           backwardCallback := backwardCallback, callbackFrequency := callbackFrequency
           storageMode := storageMode, storagePath := storagePath
           storageCompression := storageCompression }, rest)
  | _ => .error .typeError

/-- The attributes of `ctx` that all propagators set (`scalar.py` 725-735, `scalar_born.py` 733-746, `acoustic.py`
848-860, `elastic.py` 1369-1381). -/
structure CtxOpts (γ : Type) where
  gridSpacing : γ
  dt : γ
  nt : γ
  nShots : γ
  stepRatio : γ
  accuracy : γ
  pmlWidth : γ
  backwardCallback : γ
  callbackFrequency : γ
  storage : γ

def CallOpts.ctx (o : CallOpts γ) (storage : γ) : CtxOpts γ :=
  { gridSpacing := o.gridSpacing, dt := o.dt, nt := o.nt, nShots := o.nShots, stepRatio := o.stepRatio
    accuracy := o.accuracy, pmlWidth := o.pmlWidth, backwardCallback := o.backwardCallback
    callbackFrequency := o.callbackFrequency, storage := storage }

/-! ### `scalar` -/

/-- What `scalar` passes on (`scalar.py` 550-571). -/
structure ScalarCall (α γ : Type) where
  models : List α
  amps : List α
  pml : List α
  srcs : List α
  rcvs : List α
  opts : CallOpts γ
  wavefields : List α

/-- `scalar.py` 552-570. -/
def ScalarCall.args (x : ScalarCall α γ) : List (Slot α γ) :=
  x.models.map .tensor ++ x.amps.map .tensor ++ [.list x.pml] ++ x.srcs.map .tensor ++ x.rcvs.map .tensor ++
    x.opts.slots ++ x.wavefields.map .tensor

/-- The parameters of `ScalarForwardFunc.forward` and of `scalar_python`. -/
structure ScalarIn (α γ : Type) where
  v : α
  sourceAmplitudes : α
  pmlProfiles : List α
  sourcesI : α
  receiversI : α
  opts : CallOpts γ
  wavefields : List α

/-- `scalar.py` 600-620, 1936-1956. -/
def scalarBind : List (Slot α γ) → Except PyErr (ScalarIn α γ)
  | .tensor v :: .tensor f :: .list pml :: .tensor si :: .tensor ri :: rest => do
      let (o, rest) ← takeOpts rest
      let wf ← allTensors rest
      return { v := v, sourceAmplitudes := f, pmlProfiles := pml, sourcesI := si, receiversI := ri, opts := o
               wavefields := wf }
  | _ => .error .typeError

/-- The context of `ScalarForwardFunc` after the forward pass. -/
structure ScalarCtx (α γ : Type) where
  saved : List α
  opts : CtxOpts γ
  ampsNeed : Bool

/-- `scalar.py` 712-735; nothing is saved if no gradient is needed. -/
def scalarForwardCtx (needs : α → Bool) (store : CallOpts γ → γ) (x : ScalarIn α γ) : Option (ScalarCtx α γ) :=
  if needs x.v || needs x.sourceAmplitudes || x.wavefields.any needs then
    some { saved := [x.v, x.sourcesI, x.receiversI, x.sourceAmplitudes] ++ x.wavefields ++ x.pmlProfiles
           opts := x.opts.ctx (store x.opts), ampsNeed := needs x.sourceAmplitudes }
  else none

/-- The order of the results of `ScalarForwardFunc.forward` (`scalar.py` 928-934): wavefields, then the
receiver amplitudes. -/
def scalarReturn (wf : List α) (r : α) : List α := wf ++ [r]

/-- The parameters of `ScalarBackwardFunc.forward`. -/
structure ScalarBackIn (α γ : Type) where
  gradR : α
  v : α
  pmlProfiles : List α
  sourcesI : α
  receiversI : α
  sourceAmplitudes : α
  opts : CtxOpts γ
  ampsNeed : Bool
  gradWavefields : List α
  wavefields : List α

/-- The results of `ScalarBackwardFunc.forward`. -/
structure ScalarGrads (α : Type) where
  v : α
  sourceAmplitudes : α
  wavefields : List α

/-- Python's `bool` among the other values. -/
class HasBool (γ : Type) where
  ofBool : Bool → γ
  toBool : γ → Bool
  toBool_ofBool : ∀ b, toBool (ofBool b) = b

/-- `ScalarForwardFunc.backward` up to the call of `ScalarBackwardFunc.apply` (`scalar.py` 951-994). -/
def scalarBackwardArgs [HasBool γ] (len : γ → ℕ) (c : ScalarCtx α γ) (grads : List α) :
    Except PyErr (List (Slot α γ)) :=
  match grads.getLast?, c.saved.take 4 with
  | some gradR, [v, si, ri, f] =>
      .ok ([.tensor gradR, .tensor v,
          .list (sliceOf (6 + 2 * len c.opts.gridSpacing) (6 + 5 * len c.opts.gridSpacing) c.saved),
          .tensor si, .tensor ri, .other c.opts.storage, .tensor f, .other c.opts.gridSpacing, .other c.opts.dt,
          .other c.opts.nt, .other c.opts.nShots, .other c.opts.stepRatio, .other c.opts.accuracy,
          .other c.opts.pmlWidth, .other (HasBool.ofBool c.ampsNeed), .other c.opts.backwardCallback,
          .other c.opts.callbackFrequency] ++
        grads.dropLast.map .tensor ++
        (sliceOf 4 (6 + 2 * len c.opts.gridSpacing) c.saved).map .tensor)
  | none, _ => .error .indexError
  | _, _ => .error .valueError

/-- `ScalarBackwardFunc.forward`: parameters and the two halves of the wavefields (`scalar.py` 1026-1046,
1077-1079). -/
def scalarBackBind [HasBool γ] (len : γ → ℕ) : List (Slot α γ) → Except PyErr (ScalarBackIn α γ)
  | .tensor gradR :: .tensor v :: .list pml :: .tensor si :: .tensor ri :: .other storage :: .tensor f ::
      .other gridSpacing :: .other dt :: .other nt :: .other nShots :: .other stepRatio :: .other accuracy ::
      .other pmlWidth :: .other ampsNeed :: .other backwardCallback :: .other callbackFrequency :: rest => do
      let wf ← allTensors rest
      return { gradR := gradR, v := v, pmlProfiles := pml, sourcesI := si, receiversI := ri, sourceAmplitudes := f
               opts := { gridSpacing := gridSpacing, dt := dt, nt := nt, nShots := nShots, stepRatio := stepRatio
                         accuracy := accuracy, pmlWidth := pmlWidth, backwardCallback := backwardCallback
                         callbackFrequency := callbackFrequency, storage := storage }
               ampsNeed := HasBool.toBool ampsNeed
               gradWavefields := wf.take (2 + 2 * len gridSpacing)
               wavefields := wf.drop (2 + 2 * len gridSpacing) }
  | _ => .error .typeError

/-- The results of `ScalarBackwardFunc.forward` in their order (`scalar.py` 1335-1342). -/
def ScalarGrads.list (g : ScalarGrads α) : List α := [g.v, g.sourceAmplitudes] ++ g.wavefields

/-- The values that `ScalarForwardFunc.backward` returns (`scalar.py` 995-1014). -/
def scalarBackwardReturn : List α → Except PyErr (List (Option α))
  | gv :: gf :: gw => .ok ([some gv, some gf, none, none, none, none, none, none, none, none, none, none, none, none,
      none, none, none, none] ++ gw.map some)
  | _ => .error .indexError

/-- `ScalarForwardFunc.apply` and its backward pass. -/
def scalarAutograd [HasBool γ] (needs : α → Bool) (len : γ → ℕ) (store : CallOpts γ → γ)
    (K : ScalarBackIn α γ → ScalarGrads α) (args : List (Slot α γ)) (grads : List α) :
    Except PyErr (List (α × α)) := do
  let x ← scalarBind args
  match scalarForwardCtx needs store x with
  | none => return []
  | some c =>
      let a ← scalarBackwardArgs len c grads
      let y ← scalarBackBind len a
      collect args (← scalarBackwardReturn (K y).list)

/-- The tensors that `ScalarBackwardFunc.forward` saves (`scalar.py` 1083-1092). -/
def scalarBackSave (y : ScalarBackIn α γ) : List α :=
  [y.v, y.sourcesI, y.receiversI, y.sourceAmplitudes, y.gradR] ++ y.wavefields ++ y.gradWavefields ++ y.pmlProfiles

/-- What `ScalarBackwardFunc.backward` works with: the inputs of `ScalarBackwardFunc.forward` and the gradients
with respect to its results. -/
structure ScalarDoubleIn (α γ : Type) where
  inputs : ScalarBackIn α γ
  ggv : α
  ggf : α
  ggWavefields : List α

/-- `scalar.py` 1396-1430. -/
def scalarDoubleUnpack (len : γ → ℕ) (saved : List α) (o : CtxOpts γ) (ampsNeed : Bool) (grads : List α) :
    Except PyErr (ScalarDoubleIn α γ) :=
  match grads, saved.take 5 with
  | ggv :: ggf :: ggw, [v, si, ri, f, gradR] =>
      .ok { inputs :=
              { gradR := gradR, v := v, sourcesI := si, receiversI := ri, sourceAmplitudes := f, opts := o
                ampsNeed := ampsNeed
                wavefields := sliceOf 5 (7 + 2 * len o.gridSpacing) saved
                gradWavefields := sliceOf (7 + 2 * len o.gridSpacing) (9 + 4 * len o.gridSpacing) saved
                pmlProfiles := sliceOf (9 + 4 * len o.gridSpacing) (9 + 7 * len o.gridSpacing) saved }
            ggv := ggv, ggf := ggf, ggWavefields := ggw }
  | _, _ => .error .indexError

/-- The results of `ScalarBackwardFunc.backward`. -/
structure ScalarDoubleOut (α : Type) where
  gradR : α
  v : α
  sourceAmplitudes : α
  gradWavefields : List α
  wavefields : List α

/-- `scalar.py` 1826-1879 (two returns with the same order). -/
def ScalarDoubleOut.list (g : ScalarDoubleOut α) : List (Option α) :=
  [some g.gradR, some g.v, none, none, none, none, some g.sourceAmplitudes, none, none, none, none, none, none, none,
    none, none, none] ++ g.gradWavefields.map some ++ g.wavefields.map some

/-- `ScalarBackwardFunc.apply` and its backward pass; it is differentiated only if a gradient is asked for, with
the context that `save_for_backward` made in any case. -/
def scalarDoubleAutograd [HasBool γ] (len : γ → ℕ) (K : ScalarDoubleIn α γ → ScalarDoubleOut α)
    (args : List (Slot α γ)) (grads : List α) : Except PyErr (List (α × α)) := do
  let y ← scalarBackBind len args
  let z ← scalarDoubleUnpack len (scalarBackSave y) y.opts y.ampsNeed grads
  collect args (K z).list

/-! ### `scalar_born` -/

/-- What `scalar_born` passes on (`scalar_born.py` 550-571). -/
structure BornCall (α γ : Type) where
  models : List α
  amps : List α
  pml : List α
  srcs : List α
  rcvs : List α
  opts : CallOpts γ
  wavefields : List α

def BornCall.args (x : BornCall α γ) : List (Slot α γ) :=
  x.models.map .tensor ++ x.amps.map .tensor ++ [.list x.pml] ++ x.srcs.map .tensor ++ x.rcvs.map .tensor ++
    x.opts.slots ++ x.wavefields.map .tensor

/-- The parameters of `ScalarBornForwardFunc.forward` and of `scalar_born_python`. -/
structure BornIn (α γ : Type) where
  v : α
  scatter : α
  sourceAmplitudes : α
  sourceAmplitudesSc : α
  pmlProfiles : List α
  sourcesI : α
  unusedTensor : α
  receiversI : α
  receiversScI : α
  opts : CallOpts γ
  wavefields : List α

/-- `scalar_born.py` 598-622, 1510-1534. -/
def bornBind : List (Slot α γ) → Except PyErr (BornIn α γ)
  | .tensor v :: .tensor sc :: .tensor f :: .tensor fsc :: .list pml :: .tensor si :: .tensor un :: .tensor ri ::
      .tensor risc :: rest => do
      let (o, rest) ← takeOpts rest
      let wf ← allTensors rest
      return { v := v, scatter := sc, sourceAmplitudes := f, sourceAmplitudesSc := fsc, pmlProfiles := pml
               sourcesI := si, unusedTensor := un, receiversI := ri, receiversScI := risc, opts := o
               wavefields := wf }
  | _ => .error .typeError

structure BornCtx (α γ : Type) where
  saved : List α
  opts : CtxOpts γ
  ampsNeed : Bool
  ampsScNeed : Bool
  nonSc : Bool

/-- `scalar_born.py` 710-746. -/
def bornForwardCtx (needs : α → Bool) (len : γ → ℕ) (store : CallOpts γ → γ) (x : BornIn α γ) :
    Option (BornCtx α γ) :=
  if needs x.v || needs x.scatter || needs x.sourceAmplitudes || needs x.sourceAmplitudesSc ||
      x.wavefields.any needs then
    some { saved := [x.v, x.scatter, x.sourcesI, x.receiversI, x.receiversScI] ++ x.pmlProfiles
           opts := x.opts.ctx (store x.opts), ampsNeed := needs x.sourceAmplitudes
           ampsScNeed := needs x.sourceAmplitudesSc
           nonSc := needs x.v || needs x.sourceAmplitudes ||
             (x.wavefields.take (2 + 2 * len x.opts.gridSpacing)).any needs }
  else none

/-- `scalar_born.py` 926-937. -/
def bornReturn (wf wfSc : List α) (r rSc : α) : List α := wf ++ wfSc ++ [r, rSc]

/-- What `ScalarBornForwardFunc.backward` works with (`scalar_born.py` 957-1050). -/
structure BornBackIn (α γ : Type) where
  gradR : α
  gradRSc : α
  v : α
  scatter : α
  sourcesI : α
  receiversI : α
  receiversScI : α
  pmlProfiles : List α
  opts : CtxOpts γ
  ampsNeed : Bool
  ampsScNeed : Bool
  nonSc : Bool
  gradWavefields : List α
  gradWavefieldsSc : List α

structure BornGrads (α : Type) where
  v : α
  scatter : α
  sourceAmplitudes : α
  sourceAmplitudesSc : α
  wavefields : List α
  wavefieldsSc : List α

/-- `args[-2]`, `args[-1]`, `args[:-2]` and the unpacking of the saved tensors; the wavefields of the scattered
field are those from `2 + 2 * ndim` on. -/
def bornUnpack (len : γ → ℕ) (c : BornCtx α γ) (grads : List α) : Except PyErr (BornBackIn α γ) :=
  match lastN 2 grads, c.saved with
  | [gradR, gradRSc], v :: sc :: si :: ri :: risc :: pml =>
      .ok { gradR := gradR, gradRSc := gradRSc, v := v, scatter := sc, sourcesI := si, receiversI := ri
            receiversScI := risc, pmlProfiles := pml, opts := c.opts, ampsNeed := c.ampsNeed
            ampsScNeed := c.ampsScNeed, nonSc := c.nonSc
            gradWavefields := (delLastN 2 grads).take (2 + 2 * len c.opts.gridSpacing)
            gradWavefieldsSc := (delLastN 2 grads).drop (2 + 2 * len c.opts.gridSpacing) }
  | _, _ => .error .valueError

/-- `scalar_born.py` 1386-1422. -/
def bornBackwardReturn (n : ℕ) (nonSc : Bool) (g : BornGrads α) : List (Option α) :=
  if nonSc then
    [some g.v, some g.scatter, some g.sourceAmplitudes, some g.sourceAmplitudesSc] ++ List.replicate 18 none ++
      (g.wavefields ++ g.wavefieldsSc).map some
  else
    [none, some g.scatter, none, some g.sourceAmplitudesSc] ++ List.replicate (20 + 2 * n) none ++
      g.wavefieldsSc.map some

def bornAutograd (needs : α → Bool) (len : γ → ℕ) (store : CallOpts γ → γ) (K : BornBackIn α γ → BornGrads α)
    (args : List (Slot α γ)) (grads : List α) : Except PyErr (List (α × α)) := do
  let x ← bornBind args
  match bornForwardCtx needs len store x with
  | none => return []
  | some c =>
      let y ← bornUnpack len c grads
      collect args (bornBackwardReturn (len c.opts.gridSpacing) c.nonSc (K y))

/-! ### `acoustic` and `elastic` -/

/-- What `acoustic` and `elastic` pass on. -/
structure StagCall (α γ : Type) where
  pml : List α
  opts : CallOpts γ
  models : List α
  amps : List α
  srcs : List α
  rcvs : List α
  wavefields : List α

/-- `acoustic.py` 605-627, `elastic.py` 999-1021. -/
def StagCall.args (x : StagCall α γ) : List (Slot α γ) :=
  [.list x.pml] ++ x.opts.slots ++ x.models.map .tensor ++ x.amps.map .tensor ++ x.srcs.map .tensor ++
    x.rcvs.map .tensor ++ x.wavefields.map .tensor

/-- Numbers of tensors. -/
structure Counts where
  models : ℕ
  amps : ℕ
  srcs : ℕ
  rcvs : ℕ
  wavefields : ℕ

/-- `acoustic.py` 763-777, 1370-1373. -/
def acousticCounts (n : ℕ) : Counts := ⟨n + 1, n + 1, n + 1, n + 1, 1 + n + n + n⟩

/-- `elastic.py` 1231-1258, 2162-2168, 2416-2442. -/
def elasticCounts (n : ℕ) : Counts :=
  if n = 3 then ⟨2 + 3 + 3, 4, 4, 4, 14 + 9 + 4⟩
  else if n = 2 then ⟨2 + 1 + 2, 3, 3, 3, 9 + 4⟩
  else ⟨2 + 1, 2, 2, 2, 4⟩

/-- Splitting of the arguments from the end (`acoustic.py` 779-793, 1375-1384, `elastic.py` 1260-1274, 2160-2168,
2416-2443); the forward functions of the autograd functions check that nothing is left. -/
def stagSplit (k : Counts) (check : Bool) (pml : List α) (o : CallOpts γ) (args : List α) :
    Except PyErr (StagCall α γ) :=
  let wf := lastN k.wavefields args
  let args := delLastN k.wavefields args
  let rcvs := lastN k.rcvs args
  let args := delLastN k.rcvs args
  let srcs := lastN k.srcs args
  let args := delLastN k.srcs args
  let amps := lastN k.amps args
  let args := delLastN k.amps args
  let models := lastN k.models args
  let args := delLastN k.models args
  if check = true ∧ args.length ≠ 0 then .error .assertion
  else .ok ⟨pml, o, models, amps, srcs, rcvs, wf⟩

/-- `AcousticForwardFunc.forward`, `acoustic_python`, `ElasticForwardFunc.forward`, `elastic_python`. -/
def stagBind (counts : ℕ → Counts) (check : Bool) (len : γ → ℕ) :
    List (Slot α γ) → Except PyErr (StagCall α γ)
  | .list pml :: rest => do
      let (o, rest) ← takeOpts rest
      let args ← allTensors rest
      stagSplit (counts (len o.gridSpacing)) check pml o args
  | _ => .error .typeError

structure StagCtx (α γ : Type) where
  saved : List α
  opts : CtxOpts γ
  ampsNeed : List Bool

/-- Which models are asked whether they need gradients: all (`acoustic.py` 842) or the first, the second and the
last (`elastic.py` 1317-1319, 1356-1358). -/
def acousticAsked (models : List α) : List α := models
def elasticAsked (models : List α) : List α := models.take 2 ++ models.getLast?.toList

/-- `acoustic.py` 841-860, `elastic.py` 1355-1381. -/
def stagForwardCtx (asked : List α → List α) (needs : α → Bool) (store : CallOpts γ → γ) (x : StagCall α γ) :
    Option (StagCtx α γ) :=
  if (asked x.models).any needs || x.amps.any needs || x.wavefields.any needs then
    some { saved := x.models ++ x.srcs ++ x.rcvs ++ x.amps ++ x.pml, opts := x.opts.ctx (store x.opts)
           ampsNeed := x.amps.map needs }
  else none

/-- The order of the results (`acoustic.py` 1007, `elastic.py` 1564-1567): wavefields, then receiver amplitudes. -/
def stagReturn (wf rcv : List α) : List α := wf ++ rcv

/-- What the backward functions work with. -/
structure StagBackIn (α γ : Type) where
  gradWavefields : List α
  gradR : List α
  models : List α
  srcs : List α
  rcvs : List α
  amps : List α
  pml : List α
  opts : CtxOpts γ
  ampsNeed : List Bool

/-- The numbers of tensors that the backward functions read back (`acoustic.py` 1021-1023, `elastic.py`
1604-1627). -/
structure BackCounts where
  models : ℕ
  srcs : ℕ
  rcvs : ℕ
  amps : ℕ
  /-- all that are left if none -/
  pml : Option ℕ

def acousticBackCounts (n : ℕ) : BackCounts := ⟨n + 1, n + 1, n + 1, n + 1, none⟩

def elasticBackCounts (n : ℕ) : BackCounts :=
  if n = 3 then ⟨8, 4, 4, 4, some 12⟩
  else if n = 2 then ⟨5, 3, 3, 3, some 8⟩
  else ⟨3, 2, 2, 2, some 4⟩

/-- `acoustic.py` 1013-1033, `elastic.py` 1589-1638. -/
def stagUnpack (counts : ℕ → BackCounts) (len : γ → ℕ) (c : StagCtx α γ) (grads : List α) : StagBackIn α γ :=
  let n := len c.opts.gridSpacing
  let k := counts n
  let l := c.saved
  let models := l.take k.models
  let l := l.drop k.models
  let srcs := l.take k.srcs
  let l := l.drop k.srcs
  let rcvs := l.take k.rcvs
  let l := l.drop k.rcvs
  let amps := l.take k.amps
  let l := l.drop k.amps
  { gradWavefields := delLastN (n + 1) grads, gradR := lastN (n + 1) grads, models := models, srcs := srcs
    rcvs := rcvs, amps := amps
    pml := match k.pml with | none => l | some m => l.take m
    opts := c.opts, ampsNeed := c.ampsNeed }

structure StagGrads (α : Type) where
  models : List α
  amps : List α
  wavefields : List α

/-- `acoustic.py` 1250-1258 (with `num_source_types` and `num_receiver_types`), `elastic.py` 1940-1949. -/
def stagBackwardReturn (n : ℕ) (g : StagGrads α) : List (Option α) :=
  List.replicate 14 none ++ g.models.map some ++ g.amps.map some ++ List.replicate (n + 1) none ++
    List.replicate (n + 1) none ++ g.wavefields.map some

def stagAutograd (counts : ℕ → Counts) (backCounts : ℕ → BackCounts) (asked : List α → List α) (needs : α → Bool)
    (len : γ → ℕ) (store : CallOpts γ → γ) (K : StagBackIn α γ → StagGrads α) (args : List (Slot α γ))
    (grads : List α) : Except PyErr (List (α × α)) := do
  let x ← stagBind counts true len args
  match stagForwardCtx asked needs store x with
  | none => return []
  | some c => collect args (stagBackwardReturn (len c.opts.gridSpacing) (K (stagUnpack backCounts len c grads)))

end Dw.Interface
