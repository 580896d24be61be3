import Mathlib.Algebra.BigOperators.Fin
import Mathlib.Data.Fintype.BigOperators
import Verif.Core.Loop
import Verif.Core.Dot
import Verif.Core.Py

/-!
# Model of the scalar propagator (compiled CPU backend and its Python driver)

Models `src/deepwave/scalar.c` and `src/deepwave/scalar.py`
(`ScalarForwardFunc.forward`, `ScalarBackwardFunc.forward`), for one shot.  Several shots
and threads are in `Verif/Scalar/Shots.lean`.

Simplifications, common to all definitions of this file:
* arrays are functions on cells; flat indices are treated in `Verif/Scalar/Flat.lean`;
* the three textual copies of the statements for z, y, x are one sum over `Fin d`;
* a location is `some cell` if its flat index is `≥ 0` and `none` otherwise, as tested by
  `common_cpu.h` 12 and 24;
* snapshots are kept as a function of the step index (storage modes: `Verif/Storage`).
-/

namespace Dw

namespace Scalar

variable {d ns nr : ℕ} {R : Type*} [Field R]

/-- What the driver receives (`scalar.py` 600-621): padded shape, PML widths, grid spacing,
profiles, time step, velocity, source and receiver locations. -/
structure Cfg (d ns nr : ℕ) (R : Type*) where
  acc : Acc
  /-- `model_shape`: padded size -/
  n : Fin d → ℤ
  /-- `pml_width[2*i]` -/
  w0 : Fin d → ℤ
  /-- `pml_width[2*i+1]` -/
  w1 : Fin d → ℤ
  /-- `grid_spacing` -/
  dx : Fin d → R
  /-- internal time step -/
  dt : R
  /-- PML profiles -/
  a : Fin d → ℤ → R
  b : Fin d → ℤ → R
  db : Fin d → ℤ → R
  v : Fld d R
  src : Fin ns → Option (Cell d)
  rcv : Fin nr → Option (Cell d)
  /-- `step_ratio` as passed to the autograd function (`scalar.py` 561) -/
  ratio : ℕ

/-- Arguments of the C functions that are constant during a call (`scalar.c` 149-232 and
421-511).  `m` is `v` for `forward` and `v2dt2` for `backward`. -/
structure CArgs (d ns nr : ℕ) (R : Type*) where
  acc : Acc
  n : Fin d → ℤ
  rdx : Fin d → R
  rdx2 : Fin d → R
  dt2 : R
  a : Fin d → ℤ → R
  b : Fin d → ℤ → R
  db : Fin d → ℤ → R
  m : Fld d R
  src : Fin ns → Option (Cell d)
  rcv : Fin nr → Option (Cell d)
  ratio : ℕ
  pmlB : Fin d → ℤ
  pmlE : Fin d → ℤ

/-- The value of `pml_x` (`pml_y`, `pml_z`): 0, 1, 2 (`scalar.c` 305-314). -/
inductive Region
  | lo | mid | hi
  deriving DecidableEq, Repr

/-- Lower loop bound (`scalar.c` 325-327, 334-336, 342-344, 625-627, ...). -/
def CArgs.loopLo (A : CArgs d ns nr R) (k : Fin d) : Region → ℤ
  | .lo => A.acc.pad
  | .mid => A.pmlB k
  | .hi => A.pmlE k

/-- Upper loop bound (`scalar.c` 328-330, 337-339, 345-347, 628-630, ...). -/
def CArgs.loopHi (A : CArgs d ns nr R) (k : Fin d) : Region → ℤ
  | .lo => A.pmlB k
  | .mid => A.pmlE k
  | .hi => A.n k - A.acc.pad

/-- The (region, cell) pairs in the order the loop nest visits them (`scalar.c` 305-348 and
605-648). -/
def CArgs.visits (A : CArgs d ns nr R) : List ((Fin d → Region) × Cell d) :=
  (nest d fun _ => [Region.lo, Region.mid, Region.hi]).flatMap fun r =>
    (nest d fun k => intRange (A.loopLo k (r k)) (A.loopHi k (r k))).map fun c => (r, c)

/-- The elements written by the forward kernel at one cell. -/
structure FwdCell (d : ℕ) (R : Type*) where
  wfp : R
  psin : Fin d → R
  zeta : Fin d → R
  store : R

/-- Body of the forward kernel (`scalar.c` 349-396). -/
def fwdBody (A : CArgs d ns nr R) (save : Bool) (wfc : Fld d R) (psi : Fin d → Fld d R)
    (r : Fin d → Region) (c : Cell d) (s : FwdCell d R) : FwdCell d R :=
  let d1 := fun k => cDiff1 A.acc (A.rdx k) fun j => wfc (c.shift k j)
  let d2 := fun k => cDiff2 A.acc (A.rdx2 k) fun j => wfc (c.shift k j)
  let tmp := fun k => (1 + A.b k (c k)) * d2 k + A.db k (c k) * d1 k +
    cDiff1 A.acc (A.rdx k) fun j => A.a k (c k + j) * psi k (c.shift k j)
  let wSum := ∑ k, if r k = .mid then d2 k
    else (1 + A.b k (c k)) * tmp k + A.a k (c k) * s.zeta k
  { wfp := A.m c * A.m c * A.dt2 * wSum + 2 * wfc c - s.wfp
    psin := fun k => if r k = .mid then s.psin k
      else A.b k (c k) * d1 k + A.a k (c k) * psi k c
    zeta := fun k => if r k = .mid then s.zeta k
      else A.b k (c k) * tmp k + A.a k (c k) * s.zeta k
    store := if save then 2 * A.m c * A.dt2 * wSum else s.store }

/-- `add_to_wavefield` (`common_cpu.h` 17-26). -/
def addTo {m : ℕ} (w : Fld d R) (loc : Fin m → Option (Cell d)) (amp : Fin m → R) : Fld d R :=
  (List.finRange m).foldl (fun w i => match loc i with
    | some c => Function.update w c (w c + amp i)
    | none => w) w

/-- `record_from_wavefield` (`common_cpu.h` 5-14); `old` is the previous content of
`amplitudes`. -/
def recordFrom {m : ℕ} (w : Fld d R) (loc : Fin m → Option (Cell d)) (old : Fin m → R) :
    Fin m → R :=
  fun i => match loc i with
    | some c => w c
    | none => old i

/-- The wavefield buffers passed to `forward` (`scalar.c` 151-172). -/
structure FwdBufs (d : ℕ) (R : Type*) where
  wfc : Fld d R
  wfp : Fld d R
  psi : Fin d → Fld d R
  psin : Fin d → Fld d R
  zeta : Fin d → Fld d R

/-- Exchange of the ping-pong pairs (`scalar.c` 264-283 for odd `t - start_t`;
`scalar.py` 919-921). -/
def FwdBufs.swap (s : FwdBufs d R) : FwdBufs d R :=
  { s with wfc := s.wfp, wfp := s.wfc, psi := s.psin, psin := s.psi }

/-- Memory the forward call works on. -/
structure FwdMem (d nr : ℕ) (R : Type*) where
  bufs : FwdBufs d R
  /-- snapshots by step index -/
  store : ℕ → Fld d R
  /-- receiver amplitudes by time step -/
  rcd : ℕ → Fin nr → R

/-- One iteration of the time loop of `forward` (`scalar.c` 263-412). -/
def fwdIter (A : CArgs d ns nr R) (grad : Bool) (f : ℕ → Fin ns → R) (start t : ℕ)
    (m : FwdMem d nr R) : FwdMem d nr R :=
  let odd := (t - start) % 2 == 1
  let s := if odd then m.bufs.swap else m.bufs
  let save := grad && t % A.ratio == 0
  let out := foldUpdate (fwdBody A save s.wfc s.psi) A.visits fun c =>
    { wfp := s.wfp c, psin := fun k => s.psin k c, zeta := fun k => s.zeta k c,
      store := m.store (t / A.ratio) c }
  let s' : FwdBufs d R :=
    { s with
      wfp := addTo (fun c => (out c).wfp) A.src (f t)
      psin := fun k c => (out c).psin k
      zeta := fun k c => (out c).zeta k }
  { bufs := if odd then s'.swap else s'
    store := if save then Function.update m.store (t / A.ratio) fun c => (out c).store
      else m.store
    rcd := Function.update m.rcd t (recordFrom s.wfc A.rcv (m.rcd t)) }

/-- `forward` for one shot: `for (t = start_t; t < start_t + nt; ++t)` (`scalar.c` 263). -/
def fwdCall (A : CArgs d ns nr R) (grad : Bool) (f : ℕ → Fin ns → R) (start nt : ℕ)
    (m : FwdMem d nr R) : FwdMem d nr R :=
  (List.range nt).foldl (fun m i => fwdIter A grad f start (start + i) m) m

/-- Python `range(0, N, cf)` (`scalar.py` 851) with the chunk lengths
`min(N - step, cf)` (`scalar.py` 874); a zero step is a `ValueError`. -/
def chunks (N cf : ℕ) : List (ℕ × ℕ) :=
  (List.range ((N + cf - 1) / cf)).map fun i => (i * cf, min (N - i * cf) cf)

/-- `pml_b` of the forward driver (`scalar.py` 786-789); with `extra = 3` of the backward
driver (`scalar.py` 1168-1171). -/
def Cfg.pmlB (C : Cfg d ns nr R) (extra : ℤ) (k : Fin d) : ℤ :=
  min (C.w0 k + extra * C.acc.pad) (C.n k - C.acc.pad)

/-- `pml_e` of the forward driver (`scalar.py` 790-793); with `extra = 3` of the backward
driver (`scalar.py` 1172-1175). -/
def Cfg.pmlE (C : Cfg d ns nr R) (extra : ℤ) (k : Fin d) : ℤ :=
  max (C.pmlB extra k) (C.n k - C.w1 k - extra * C.acc.pad)

/-- Arguments of the call of `forward` (`scalar.py` 786-793, 837-838, 877-911). -/
def Cfg.fwdArgs (C : Cfg d ns nr R) : CArgs d ns nr R :=
  { acc := C.acc, n := C.n, rdx := fun k => 1 / C.dx k, rdx2 := fun k => 1 / C.dx k ^ 2,
    dt2 := C.dt ^ 2, a := C.a, b := C.b, db := C.db, m := C.v, src := C.src, rcv := C.rcv,
    ratio := C.ratio, pmlB := C.pmlB 2, pmlE := C.pmlE 2 }

/-- The cells at least `fd_pad` away from the array edge. -/
def Cfg.Inner (C : Cfg d ns nr R) (c : Cell d) : Prop :=
  ∀ k, (C.acc.pad : ℤ) ≤ c k ∧ c k < C.n k - C.acc.pad

instance (C : Cfg d ns nr R) (c : Cell d) : Decidable (C.Inner c) :=
  inferInstanceAs (Decidable (∀ _, _))

/-- `create_or_pad` with a uniform pad (`common.py` 2557-2591): `none` is an empty tensor. -/
def Cfg.createOrPad (C : Cfg d ns nr R) (u : Option (Fld d R)) : Fld d R :=
  match u with
  | none => fun _ => 0
  | some u => fun c => if C.Inner c then u (fun k => c k - C.acc.pad) else 0

/-- `zero_interior` along dimension `k` (`common.py` 2594-2628). -/
def Cfg.zeroInterior (C : Cfg d ns nr R) (k : Fin d) (u : Fld d R) : Fld d R :=
  fun c => if (C.acc.pad : ℤ) + C.w0 k ≤ c k ∧ c k < C.n k - C.w1 k - C.acc.pad then 0 else u c

/-- The output slice `x[:, fd_pad:-fd_pad, ...]` (`scalar.py` 925, 1327-1330). -/
def Cfg.unpad (C : Cfg d ns nr R) (u : Fld d R) : Fld d R :=
  fun c => u fun k => c k + C.acc.pad

/-- Wavefields as the user passes and receives them: current, previous, psi, zeta
(without the finite-difference padding); `none` means not given. -/
structure Init (d : ℕ) (R : Type*) where
  wfc : Option (Fld d R)
  wfp : Option (Fld d R)
  psi : Fin d → Option (Fld d R)
  zeta : Fin d → Option (Fld d R)

structure Wavefields (d : ℕ) (R : Type*) where
  wfc : Fld d R
  wfp : Fld d R
  psi : Fin d → Fld d R
  zeta : Fin d → Fld d R

/-- Buffers prepared by the forward driver (`scalar.py` 745-776). -/
def Cfg.initBufs (C : Cfg d ns nr R) (w : Init d R) : FwdBufs d R :=
  { wfc := C.createOrPad w.wfc
    wfp := C.createOrPad w.wfp
    psi := fun k => C.zeroInterior k (C.createOrPad (w.psi k))
    psin := fun _ _ => 0
    zeta := fun k => C.zeroInterior k (C.createOrPad (w.zeta k)) }

/-- State shown to a forward callback (`scalar.py` 854-872): step and wavefields. -/
structure Event (d : ℕ) (R : Type*) where
  step : ℕ
  wf : Wavefields d R

def FwdBufs.wavefields (s : FwdBufs d R) : Wavefields d R := ⟨s.wfc, s.wfp, s.psi, s.zeta⟩

/-- One pass of the chunk loop (`scalar.py` 851-921): callback event, backend call, swap after
an odd number of internal steps. -/
def Cfg.fwdChunk (C : Cfg d ns nr R) (grad : Bool) (f : ℕ → Fin ns → R)
    (m : FwdMem d nr R × List (Event d R)) (chunk : ℕ × ℕ) : FwdMem d nr R × List (Event d R) :=
  let events := m.2 ++ [⟨chunk.1, m.1.bufs.wavefields⟩]
  let m' := fwdCall C.fwdArgs grad f (chunk.1 * C.ratio) (chunk.2 * C.ratio) m.1
  (if (chunk.2 * C.ratio) % 2 ≠ 0 then { m' with bufs := m'.bufs.swap } else m', events)

/-- Result of the forward driver. -/
structure FwdResult (d nr : ℕ) (R : Type*) where
  out : Wavefields d R
  rcd : ℕ → Fin nr → R
  store : ℕ → Fld d R
  events : List (Event d R)

/-- `ScalarForwardFunc.forward` (`scalar.py` 600-934) for one shot.  `cb` is the callback
frequency if a forward callback is given.  `nt` is the number of internal steps. -/
def Cfg.forward (C : Cfg d ns nr R) (grad : Bool) (cb : Option ℕ) (nt : ℕ) (f : ℕ → Fin ns → R)
    (w : Init d R) : Except PyErr (FwdResult d nr R) :=
  if C.ratio = 0 then .error .zeroDivision else
  let N := nt / C.ratio
  let cf := cb.getD N
  let m₀ : FwdMem d nr R := ⟨C.initBufs w, fun _ _ => 0, fun _ _ => 0⟩
  if 0 < nt ∧ cf = 0 then .error .valueError else
  let m := if 0 < nt then (chunks N cf).foldl (C.fwdChunk grad f) (m₀, []) else (m₀, [])
  .ok { out := ⟨C.unpad m.1.bufs.wfc, C.unpad m.1.bufs.wfp,
                fun k => C.unpad (m.1.bufs.psi k), fun k => C.unpad (m.1.bufs.zeta k)⟩
        rcd := m.1.rcd, store := m.1.store
        events := if cb.isSome then m.2 else [] }

/-! ### Backward -/

/-- The elements written by the backward kernel at one cell. -/
structure BwdCell (d : ℕ) (R : Type*) where
  wfp : R
  psin : Fin d → R
  zetan : Fin d → R
  grad : R

/-- Body of the backward kernel (`scalar.c` 649-692) with the macros of `scalar.c` 93-144.
`store` is the snapshot loaded for this step. -/
def bwdBody (A : CArgs d ns nr R) (load : Bool) (store wfc : Fld d R) (psi zeta : Fin d → Fld d R)
    (r : Fin d → Region) (c : Cell d) (s : BwdCell d R) : BwdCell d R :=
  -- V2DT2_WFC (93-94)
  let v2dt2wfc := fun (k : Fin d) (j : ℤ) => A.m (c.shift k j) * wfc (c.shift k j)
  -- PSI*_TERM (120-121, 132-133, 143-144)
  let psiTerm := fun (k : Fin d) (j : ℤ) =>
    (1 + A.b k (c k + j)) * v2dt2wfc k j + A.b k (c k + j) * zeta k (c.shift k j)
  -- UT_TERM*1 (113-116, 125-128, 136-139)
  let utTerm1 := fun (k : Fin d) (j : ℤ) =>
    A.db k (c k + j) * ((1 + A.b k (c k + j)) * v2dt2wfc k j
      + A.b k (c k + j) * zeta k (c.shift k j)) + A.b k (c k + j) * psi k (c.shift k j)
  -- UT_TERM*2 (117-119, 129-131, 140-142)
  let utTerm2 := fun (k : Fin d) (j : ℤ) =>
    (1 + A.b k (c k + j)) * ((1 + A.b k (c k + j)) * v2dt2wfc k j
      + A.b k (c k + j) * zeta k (c.shift k j))
  let wSum := ∑ k, if r k = .mid then cDiff2 A.acc (A.rdx2 k) (v2dt2wfc k)
    else -cDiff1 A.acc (A.rdx k) (utTerm1 k) + cDiff2 A.acc (A.rdx2 k) (utTerm2 k)
  { wfp := wSum + 2 * wfc c - s.wfp
    psin := fun k => if r k = .mid then s.psin k
      else -A.a k (c k) * cDiff1 A.acc (A.rdx k) (psiTerm k) + A.a k (c k) * psi k c
    zetan := fun k => if r k = .mid then s.zetan k
      else A.a k (c k) * (A.m c * wfc c) + A.a k (c k) * zeta k c
    grad := if load then s.grad + wfc c * store c * (A.ratio : R) else s.grad }

/-- The gradient wavefield buffers passed to `backward` (`scalar.c` 423-452). -/
structure BwdBufs (d : ℕ) (R : Type*) where
  wfc : Fld d R
  wfp : Fld d R
  psi : Fin d → Fld d R
  psin : Fin d → Fld d R
  zeta : Fin d → Fld d R
  zetan : Fin d → Fld d R

/-- `scalar.c` 544-575 for odd iterations; `scalar.py` 1294-1297. -/
def BwdBufs.swap (s : BwdBufs d R) : BwdBufs d R :=
  { wfc := s.wfp, wfp := s.wfc, psi := s.psin, psin := s.psi, zeta := s.zetan, zetan := s.zeta }

structure BwdMem (d ns : ℕ) (R : Type*) where
  bufs : BwdBufs d R
  /-- gradient of the source amplitudes by time step -/
  gf : ℕ → Fin ns → R
  /-- `grad_v_shot`: this thread's velocity gradient -/
  gv : Fld d R

/-- One iteration of the time loop of `backward` (`scalar.c` 543-701). -/
def bwdIter (A : CArgs d ns nr R) (grad : Bool) (store : ℕ → Fld d R) (gr : ℕ → Fin nr → R)
    (start t : ℕ) (m : BwdMem d ns R) : BwdMem d ns R :=
  let odd := (start - 1 - t) % 2 == 1
  let s := if odd then m.bufs.swap else m.bufs
  let load := grad && t % A.ratio == 0
  let out := foldUpdate (bwdBody A load (store (t / A.ratio)) s.wfc s.psi s.zeta) A.visits fun c =>
    { wfp := s.wfp c, psin := fun k => s.psin k c, zetan := fun k => s.zetan k c, grad := m.gv c }
  let s' : BwdBufs d R :=
    { s with
      wfp := addTo (fun c => (out c).wfp) A.rcv (gr t)
      psin := fun k c => (out c).psin k
      zetan := fun k c => (out c).zetan k }
  { bufs := if odd then s'.swap else s'
    gf := Function.update m.gf t (recordFrom s.wfc A.src (m.gf t))
    gv := fun c => (out c).grad }

/-- `backward` for one shot: `for (t = start_t - 1; t >= start_t - nt; --t)` (`scalar.c` 543). -/
def bwdCall (A : CArgs d ns nr R) (grad : Bool) (store : ℕ → Fld d R) (gr : ℕ → Fin nr → R)
    (start nt : ℕ) (m : BwdMem d ns R) : BwdMem d ns R :=
  (List.range nt).foldl (fun m i => bwdIter A grad store gr start (start - 1 - i) m) m

/-- Arguments of the call of `backward` (`scalar.py` 1168-1175, 1230-1233, 1252-1290). -/
def Cfg.bwdArgs (C : Cfg d ns nr R) : CArgs d ns nr R :=
  { acc := C.acc, n := C.n, rdx := fun k => 1 / C.dx k, rdx2 := fun k => 1 / C.dx k ^ 2,
    dt2 := C.dt ^ 2, a := C.a, b := C.b, db := C.db, m := fun c => C.v c ^ 2 * C.dt ^ 2,
    src := C.src, rcv := C.rcv, ratio := C.ratio, pmlB := C.pmlB 3, pmlE := C.pmlE 3 }

/-- Buffers prepared by the backward driver (`scalar.py` 1123-1152, 1242). -/
def Cfg.initBwdBufs (C : Cfg d ns nr R) (g : Init d R) : BwdBufs d R :=
  { wfc := C.createOrPad g.wfc
    wfp := fun c => -C.createOrPad g.wfp c
    psi := fun k => C.zeroInterior k (C.createOrPad (g.psi k))
    psin := fun _ _ => 0
    zeta := fun k => C.zeroInterior k (C.createOrPad (g.zeta k))
    zetan := fun _ _ => 0 }

/-- State shown to a backward callback (`scalar.py` 1299-1325): step, wavefields, velocity
gradient. -/
structure BwdEvent (d : ℕ) (R : Type*) where
  step : ℕ
  wf : Wavefields d R
  gv : Fld d R

def BwdBufs.wavefields (s : BwdBufs d R) : Wavefields d R := ⟨s.wfc, s.wfp, s.psi, s.zeta⟩

/-- Python `range(N, 0, -cf)` with chunk lengths `min(step, cf)` (`scalar.py` 1250-1251). -/
def bwdChunks (N cf : ℕ) : List (ℕ × ℕ) :=
  (List.range ((N + cf - 1) / cf)).map fun i => (N - i * cf, min (N - i * cf) cf)

/-- One pass of the chunk loop (`scalar.py` 1250-1325) with the thread's gradient buffer being
the returned gradient itself (one thread, or batched model: `scalar.py` 1155-1159). -/
def Cfg.bwdChunk (C : Cfg d ns nr R) (grad : Bool) (store : ℕ → Fld d R) (gr : ℕ → Fin nr → R)
    (m : BwdMem d ns R × List (BwdEvent d R)) (chunk : ℕ × ℕ) :
    BwdMem d ns R × List (BwdEvent d R) :=
  let m' := bwdCall C.bwdArgs grad store gr (chunk.1 * C.ratio) (chunk.2 * C.ratio) m.1
  let m'' := if (chunk.2 * C.ratio) % 2 ≠ 0 then { m' with bufs := m'.bufs.swap } else m'
  (m'', m.2 ++ [⟨chunk.1 - chunk.2, m''.bufs.wavefields, m''.gv⟩])

structure BwdResult (d ns : ℕ) (R : Type*) where
  gv : Fld d R
  gf : ℕ → Fin ns → R
  out : Wavefields d R
  events : List (BwdEvent d R)

/-- `ScalarBackwardFunc.forward` (`scalar.py` 1026-1342) for one shot. -/
def Cfg.backward (C : Cfg d ns nr R) (grad : Bool) (cb : Option ℕ) (nt : ℕ)
    (store : ℕ → Fld d R) (gr : ℕ → Fin nr → R) (g : Init d R) :
    Except PyErr (BwdResult d ns R) :=
  if C.ratio = 0 then .error .zeroDivision else
  let N := nt / C.ratio
  let cf := cb.getD N
  let m₀ : BwdMem d ns R := ⟨C.initBwdBufs g, fun _ _ => 0, fun _ => 0⟩
  if 0 < nt ∧ cf = 0 then .error .valueError else
  let m := if 0 < nt then (bwdChunks N cf).foldl (C.bwdChunk grad store gr) (m₀, []) else (m₀, [])
  .ok { gv := m.1.gv
        gf := m.1.gf
        out := ⟨C.unpad m.1.bufs.wfc, C.unpad (fun c => -m.1.bufs.wfp c),
                fun k => C.unpad (m.1.bufs.psi k), fun k => C.unpad (m.1.bufs.zeta k)⟩
        events := if cb.isSome then m.2 else [] }

end Scalar
end Dw
