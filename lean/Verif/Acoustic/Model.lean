import Verif.Core.Regions
import Verif.Core.Staggered
import Verif.Core.Driver

/-!
# Model of the variable-density acoustic propagator (compiled CPU backend and its Python driver)

Models `src/deepwave/acoustic.c` and `src/deepwave/acoustic.py` (`AcousticForwardFunc`), for one
shot.  The simplifications of `Verif/Scalar/Model.lean` apply.  Pressure is at the integer points,
velocity component `k` half a cell further along dimension `k`.
-/

namespace Dw.Acoustic

open Dw.Scalar (Region addTo recordFrom)

variable {d np mp : ℕ} {nv mv : Fin d → ℕ} {R : Type*} [Field R]

/-- What the driver receives (`acoustic.py` 738-757): `np`, `nv k` sources and `mp`, `mv k` receivers
of pressure and of velocity component `k`. -/
structure Cfg (d np mp : ℕ) (nv mv : Fin d → ℕ) (R : Type*) where
  acc : Acc
  /-- `model_shape`: padded size -/
  n : Fin d → ℤ
  /-- `pml_width[2*i]` -/
  w0 : Fin d → ℤ
  /-- `pml_width[2*i+1]` -/
  w1 : Fin d → ℤ
  /-- `grid_spacing` -/
  dx : Fin d → R
  dt : R
  /-- PML profiles at integer points (`pml_profiles[::4]`, `[1::4]`) -/
  a : Fin d → ℤ → R
  b : Fin d → ℤ → R
  /-- PML profiles at half points (`pml_profiles[2::4]`, `[3::4]`) -/
  ah : Fin d → ℤ → R
  bh : Fin d → ℤ → R
  /-- bulk modulus -/
  K : Fld d R
  /-- buoyancy at the velocity points -/
  B : Fin d → Fld d R
  srcP : Fin np → Option (Cell d)
  srcV : (k : Fin d) → Fin (nv k) → Option (Cell d)
  rcvP : Fin mp → Option (Cell d)
  rcvV : (k : Fin d) → Fin (mv k) → Option (Cell d)
  ratio : ℕ

/-- Arguments of the C functions that are constant during a call (`acoustic.c` 117-266, 649-822). -/
structure CArgs (d np mp : ℕ) (nv mv : Fin d → ℕ) (R : Type*) extends Cfg d np mp nv mv R where
  rdx : Fin d → R
  pmlB : Fin d → ℤ
  pmlE : Fin d → ℤ

/-- `pml_bounds_z`, `pml_bounds_y`, `pml_bounds_x` (`acoustic.c` 269, 274, 278, 825, 830, 834). -/
def CArgs.bounds (A : CArgs d np mp nv mv R) : Bounds d where
  lo := fun _ => A.acc.pad
  b := A.pmlB
  e := A.pmlE
  hi := fun k => A.n k - A.acc.pad + 1

/-- The bounds of the loops over velocity component `k`: `pml_bounds_*h` for dimension `k`,
`pml_bounds_*` for the others (`acoustic.c` 270-280, 455-458, 476-481, 498-505). -/
def CArgs.boundsV (A : CArgs d np mp nv mv R) (k : Fin d) : Bounds d where
  lo := fun _ => A.acc.pad
  b := A.pmlB
  e := fun j => if j = k then max (A.pmlB j) (A.pmlE j - 1) else A.pmlE j
  hi := fun j => if j = k then A.n j - A.acc.pad else A.n j - A.acc.pad + 1

/-! ### Forward -/

/-- Written by the velocity loop of the forward kernel at a cell. -/
structure VCell (R : Type*) where
  v : R
  psi : R
  store : R

/-- Body of the loop over velocity component `kc.1` (`acoustic.c` 459-470, 482-493, 506-517). -/
def velBody (A : CArgs d np mp nv mv R) (save : Bool) (p : Fld d R) (r : Fin d → Region)
    (kc : Fin d × Cell d) (s : VCell R) : VCell R :=
  let k := kc.1
  let c := kc.2
  let g := cSH1 A.acc (A.rdx k) fun j => p (c.shift k j)
  let psi := if r k = .mid then s.psi else A.bh k (c k) * g + A.ah k (c k) * s.psi
  let term := if r k = .mid then g else g + psi
  { v := s.v - A.dt * A.B k c * term
    psi := psi
    store := if save then term else s.store }

/-- Written by the pressure loop of the forward kernel at a cell. -/
structure PCell (d : ℕ) (R : Type*) where
  p : R
  phi : Fin d → R
  store : R

/-- Body of the pressure loop (`acoustic.c` 571-600). -/
def prsBody (A : CArgs d np mp nv mv R) (save : Bool) (v : Fin d → Fld d R) (r : Fin d → Region)
    (kc : Unit × Cell d) (s : PCell d R) : PCell d R :=
  let c := kc.2
  let dv := fun k => cS1 A.acc (A.rdx k) fun j => v k (c.shift k j)
  let phi := fun k => if r k = .mid then s.phi k
    else A.a k (c k) * s.phi k + A.b k (c k) * dv k
  let div := ∑ k, if r k = .mid then dv k else dv k + phi k
  { p := s.p - A.dt * A.K c * div
    phi := phi
    store := if save then div else s.store }

/-- Memory the forward call works on: wavefields, snapshots by step index, receiver data. -/
structure FMem (d mp : ℕ) (mv : Fin d → ℕ) (R : Type*) where
  p : Fld d R
  v : Fin d → Fld d R
  phi : Fin d → Fld d R
  psi : Fin d → Fld d R
  storeK : ℕ → Fld d R
  storeB : ℕ → Fin d → Fld d R
  rcdP : ℕ → Fin mp → R
  rcdV : (k : Fin d) → ℕ → Fin (mv k) → R

/-- One iteration of the time loop of `forward` (`acoustic.c` 368-629).  `gk`, `gb` are
`k_requires_grad`, `b_requires_grad`. -/
def fStep (A : CArgs d np mp nv mv R) (gk gb : Bool) (fp : ℕ → Fin np → R)
    (fv : (k : Fin d) → ℕ → Fin (nv k) → R) (t : ℕ) (m : FMem d mp mv R) : FMem d mp mv R :=
  let saveK := gk && t % A.ratio == 0
  let saveB := gb && t % A.ratio == 0
  let vel := foldUpdate (velBody A saveB m.p) (regionVisits (List.finRange d) A.boundsV) fun kc =>
    { v := m.v kc.1 kc.2, psi := m.psi kc.1 kc.2, store := m.storeB (t / A.ratio) kc.1 kc.2 }
  let v := fun k => addTo (fun c => (vel (k, c)).v) (A.srcV k) (fv k t)
  let prs := foldUpdate (prsBody A saveK v) (regionVisits [()] fun _ => A.bounds) fun kc =>
    { p := m.p kc.2, phi := fun k => m.phi k kc.2, store := m.storeK (t / A.ratio) kc.2 }
  { p := addTo (fun c => (prs ((), c)).p) A.srcP (fp t)
    v := v
    phi := fun k c => (prs ((), c)).phi k
    psi := fun k c => (vel (k, c)).psi
    storeK := if saveK then Function.update m.storeK (t / A.ratio) fun c => (prs ((), c)).store
      else m.storeK
    storeB := if saveB then Function.update m.storeB (t / A.ratio) fun k c => (vel (k, c)).store
      else m.storeB
    rcdP := Function.update m.rcdP t (recordFrom m.p A.rcvP (m.rcdP t))
    rcdV := fun k => Function.update (m.rcdV k) t (recordFrom (m.v k) (A.rcvV k) (m.rcdV k t)) }

/-- Cells of the pressure array that are updated. -/
def Cfg.Inner (C : Cfg d np mp nv mv R) (c : Cell d) : Prop :=
  ∀ j, (C.acc.pad : ℤ) ≤ c j ∧ c j < C.n j - C.acc.pad + 1

instance (C : Cfg d np mp nv mv R) (c : Cell d) : Decidable (C.Inner c) :=
  inferInstanceAs (Decidable (∀ _, _))

/-- `create_or_pad` with `fd_pad_list = [fd_pad, fd_pad - 1] * ndim` (`common.py` 2557-2591,
`acoustic.py` 842-851): `none` is an empty tensor. -/
def Cfg.createOrPad (C : Cfg d np mp nv mv R) (u : Option (Fld d R)) : Fld d R :=
  match u with
  | none => fun _ => 0
  | some u => fun c => if C.Inner c then u (fun k => c k - C.acc.pad) else 0

/-- `zero_edge` (`acoustic.py` 646-649): zero at index `-fd_pad` of dimension `k`. -/
def Cfg.zeroEdge (C : Cfg d np mp nv mv R) (k : Fin d) (u : Fld d R) : Fld d R :=
  fun c => if c k = C.n k - C.acc.pad then 0 else u c

/-- `zero_interior` along dimension `k` (`common.py` 2594-2628) with trailing finite-difference pad
`e` (`acoustic.py` 722-731). -/
def Cfg.zeroInterior (C : Cfg d np mp nv mv R) (k : Fin d) (e : ℤ) (u : Fld d R) : Fld d R :=
  fun c => if (C.acc.pad : ℤ) + C.w0 k ≤ c k ∧ c k < C.n k - C.w1 k - e then 0 else u c

/-- The output slice (`acoustic.py` 1003-1006). -/
def Cfg.unpad (C : Cfg d np mp nv mv R) (u : Fld d R) : Fld d R := fun c => u fun k => c k + C.acc.pad

/-- Wavefields as the user passes them; `none` means not given. -/
structure Init (d : ℕ) (R : Type*) where
  p : Option (Fld d R)
  v : Fin d → Option (Fld d R)
  phi : Fin d → Option (Fld d R)
  psi : Fin d → Option (Fld d R)

@[ext] structure Wavefields (d : ℕ) (R : Type*) where
  p : Fld d R
  v : Fin d → Fld d R
  phi : Fin d → Fld d R
  psi : Fin d → Fld d R

/-- Wavefields after padding and `zero_edges_and_interiors` (`acoustic.py` 652-731, 846-853,
1086-1095).  Velocities and `psi` are on half points of their dimension. -/
def Cfg.prepare (C : Cfg d np mp nv mv R) (w : Init d R) : Wavefields d R where
  p := C.createOrPad w.p
  v := fun k => C.zeroEdge k (C.createOrPad (w.v k))
  phi := fun k => C.zeroInterior k (C.acc.pad - 1) (C.createOrPad (w.phi k))
  psi := fun k => C.zeroInterior k C.acc.pad (C.zeroEdge k (C.createOrPad (w.psi k)))

/-- Arguments of the call of `forward` (`acoustic.py` 855-860, 896, 950-1000). -/
def Cfg.fwdArgs (C : Cfg d np mp nv mv R) : CArgs d np mp nv mv R :=
  { C with
    rdx := fun k => 1 / C.dx k
    pmlB := fun k => C.w0 k + C.acc.pad
    pmlE := fun k => max (C.w0 k + C.acc.pad) (C.n k - C.w1 k - (C.acc.pad - 1)) }

/-- State shown to a forward callback (`acoustic.py` 934-947). -/
structure Event (d : ℕ) (R : Type*) where
  step : ℕ
  wf : Wavefields d R

structure FResult (d mp : ℕ) (mv : Fin d → ℕ) (R : Type*) where
  out : Wavefields d R
  rcdP : ℕ → Fin mp → R
  rcdV : (k : Fin d) → ℕ → Fin (mv k) → R
  storeK : ℕ → Fld d R
  storeB : ℕ → Fin d → Fld d R
  events : List (Event d R)

def Cfg.unpadAll (C : Cfg d np mp nv mv R) (w : Wavefields d R) : Wavefields d R :=
  ⟨C.unpad w.p, fun k => C.unpad (w.v k), fun k => C.unpad (w.phi k), fun k => C.unpad (w.psi k)⟩

def FMem.wf (m : FMem d mp mv R) : Wavefields d R := ⟨m.p, m.v, m.phi, m.psi⟩

/-- Memory before the first step (`acoustic.py` 838-878). -/
def Cfg.fInit (C : Cfg d np mp nv mv R) (w : Init d R) : FMem d mp mv R :=
  let s := C.prepare w
  ⟨s.p, s.v, s.phi, s.psi, fun _ _ => 0, fun _ _ _ => 0, fun _ _ => 0, fun _ _ _ => 0⟩

/-- `AcousticForwardFunc.forward` (`acoustic.py` 738-1007) for one shot.  The buffers are updated in
place, so nothing is exchanged between chunks. -/
def Cfg.forward (C : Cfg d np mp nv mv R) (gk gb : Bool) (cb : Option ℕ) (nt : ℕ)
    (fp : ℕ → Fin np → R) (fv : (k : Fin d) → ℕ → Fin (nv k) → R) (w : Init d R) :
    Except PyErr (FResult d mp mv R) :=
  if C.ratio = 0 then .error .zeroDivision else
  let N := nt / C.ratio
  let cf := cb.getD N
  if 0 < nt ∧ cf = 0 then .error .valueError else
  let m := if 0 < nt then
      Driver.driveF id (fStep C.fwdArgs gk gb fp fv) C.ratio (fun step m => ⟨step, m.wf⟩) N cf
        (C.fInit w)
    else (C.fInit w, [])
  .ok { out := C.unpadAll m.1.wf, rcdP := m.1.rcdP, rcdV := m.1.rcdV, storeK := m.1.storeK
        storeB := m.1.storeB, events := if cb.isSome then m.2 else [] }

/-! ### Backward -/

/-- Written by the velocity loop of the backward kernel at a cell. -/
structure BVCell (R : Type*) where
  v : R
  psin : R
  grad : R

/-- Body of the loop over velocity component `kc.1` of `backward` (`acoustic.c` 1030-1040, 1052-1062,
1075-1085) with the macros `V*_ADJOINT`, `V*_ADJOINT_PML` (72-88).  `store` is the snapshot loaded
for this step. -/
def bVelBody (A : CArgs d np mp nv mv R) (load : Bool) (store : Fin d → Fld d R) (p : Fld d R)
    (phi psi : Fin d → Fld d R) (r : Fin d → Region) (kc : Fin d × Cell d) (s : BVCell R) :
    BVCell R :=
  let k := kc.1
  let c := kc.2
  let adj := fun j : ℤ => -A.dt * A.K (c.shift k j) * p (c.shift k j)
  let adjPml := fun j : ℤ => A.b k (c k + j) * phi k (c.shift k j)
    - A.dt * (1 + A.b k (c k + j)) * A.K (c.shift k j) * p (c.shift k j)
  let v := s.v + if r k = .mid then -cSH1 A.acc (A.rdx k) adj else -cSH1 A.acc (A.rdx k) adjPml
  { v := v
    psin := A.ah k (c k) * psi k c - A.dt * A.B k c * A.ah k (c k) * v
    grad := if load then s.grad - A.dt * v * store k c * (A.ratio : R) else s.grad }

/-- Written by the pressure loop of the backward kernel at a cell. -/
structure BPCell (d : ℕ) (R : Type*) where
  p : R
  phi : Fin d → R
  grad : R

/-- Body of the pressure loop of `backward` (`acoustic.c` 1143-1178) with the macros
`P_ADJOINT_*`, `P_ADJOINT_*_PML` (90-104). -/
def bPrsBody (A : CArgs d np mp nv mv R) (load : Bool) (store : Fld d R) (v psi : Fin d → Fld d R)
    (r : Fin d → Region) (kc : Unit × Cell d) (s : BPCell d R) : BPCell d R :=
  let c := kc.2
  let adj := fun (k : Fin d) (j : ℤ) => -A.dt * A.B k (c.shift k j) * v k (c.shift k j)
  let adjPml := fun (k : Fin d) (j : ℤ) => A.bh k (c k + j) * psi k (c.shift k j)
    - A.dt * (1 + A.bh k (c k + j)) * A.B k (c.shift k j) * v k (c.shift k j)
  let div := ∑ k, if r k = .mid then -cS1 A.acc (A.rdx k) (adj k)
    else -cS1 A.acc (A.rdx k) (adjPml k)
  { p := s.p + div
    phi := fun k => if r k = .mid then s.phi k
      else A.a k (c k) * s.phi k - A.dt * A.K c * A.a k (c k) * s.p
    grad := if load then s.grad - A.dt * s.p * store c * (A.ratio : R) else s.grad }

/-- Memory the backward call works on. -/
structure BMem (d np : ℕ) (nv : Fin d → ℕ) (R : Type*) where
  p : Fld d R
  v : Fin d → Fld d R
  phi : Fin d → Fld d R
  psi : Fin d → Fld d R
  psin : Fin d → Fld d R
  /-- gradients of the source amplitudes -/
  gfP : ℕ → Fin np → R
  gfV : (k : Fin d) → ℕ → Fin (nv k) → R
  /-- this thread's model gradients -/
  gK : Fld d R
  gB : Fin d → Fld d R

/-- Exchange of `psi` and `psin` (`acoustic.c` 967-982; `acoustic.py` 1225-1232). -/
def BMem.swap (m : BMem d np nv R) : BMem d np nv R := { m with psi := m.psin, psin := m.psi }

/-- One iteration of the time loop of `backward` (`acoustic.c` 938-1211), with the pointers not
exchanged. -/
def bStepC (A : CArgs d np mp nv mv R) (gk gb : Bool) (storeK : ℕ → Fld d R)
    (storeB : ℕ → Fin d → Fld d R) (grP : ℕ → Fin mp → R) (grV : (k : Fin d) → ℕ → Fin (mv k) → R)
    (t : ℕ) (m : BMem d np nv R) : BMem d np nv R :=
  let loadK := gk && t % A.ratio == 0
  let loadB := gb && t % A.ratio == 0
  let vel := foldUpdate (bVelBody A loadB (storeB (t / A.ratio)) m.p m.phi m.psi)
    (regionVisits (List.finRange d) A.boundsV) fun kc =>
      { v := m.v kc.1 kc.2, psin := m.psin kc.1 kc.2, grad := m.gB kc.1 kc.2 }
  let v := fun k c => (vel (k, c)).v
  let prs := foldUpdate (bPrsBody A loadK (storeK (t / A.ratio)) v m.psi)
    (regionVisits [()] fun _ => A.bounds) fun kc =>
      { p := m.p kc.2, phi := fun k => m.phi k kc.2, grad := m.gK kc.2 }
  { p := addTo (fun c => (prs ((), c)).p) A.rcvP (grP t)
    v := fun k => addTo (v k) (A.rcvV k) (grV k t)
    phi := fun k c => (prs ((), c)).phi k
    psi := m.psi
    psin := fun k c => (vel (k, c)).psin
    gfP := Function.update m.gfP t (recordFrom m.p A.srcP (m.gfP t))
    gfV := fun k => Function.update (m.gfV k) t (recordFrom (v k) (A.srcV k) (m.gfV k t))
    gK := fun c => (prs ((), c)).grad
    gB := fun k c => (vel (k, c)).grad }

/-- Arguments of the call of `backward` (`acoustic.py` 1097-1104, 1181-1224). -/
def Cfg.bwdArgs (C : Cfg d np mp nv mv R) : CArgs d np mp nv mv R :=
  { C with
    rdx := fun k => 1 / C.dx k
    pmlB := fun k => min (C.w0 k + 2 * C.acc.pad) (C.n k - (C.acc.pad - 1))
    pmlE := fun k => max (min (C.w0 k + 2 * C.acc.pad) (C.n k - (C.acc.pad - 1)))
      (C.n k - C.w1 k - 2 * C.acc.pad + 1) }

/-- State shown to a backward callback (`acoustic.py` 1233-1245). -/
structure BEvent (d : ℕ) (R : Type*) where
  step : ℕ
  wf : Wavefields d R
  gK : Fld d R
  gB : Fin d → Fld d R

structure BResult (d np : ℕ) (nv : Fin d → ℕ) (R : Type*) where
  out : Wavefields d R
  gfP : ℕ → Fin np → R
  gfV : (k : Fin d) → ℕ → Fin (nv k) → R
  gK : Fld d R
  gB : Fin d → Fld d R
  events : List (BEvent d R)

def BMem.wf (m : BMem d np nv R) : Wavefields d R := ⟨m.p, m.v, m.phi, m.psi⟩

/-- Memory before the first backward step (`acoustic.py` 1062-1095). -/
def Cfg.bInit (C : Cfg d np mp nv mv R) (g : Init d R) : BMem d np nv R :=
  let s := C.prepare g
  ⟨s.p, s.v, s.phi, s.psi, fun _ _ => 0, fun _ _ => 0, fun _ _ _ => 0, fun _ => 0, fun _ _ => 0⟩

/-- `AcousticForwardFunc.backward` (`acoustic.py` 1010-1258) for one shot, with the thread's gradient
buffers being the returned gradients themselves (one thread, or batched models). -/
def Cfg.backward (C : Cfg d np mp nv mv R) (gk gb : Bool) (cb : Option ℕ) (nt : ℕ)
    (storeK : ℕ → Fld d R) (storeB : ℕ → Fin d → Fld d R) (grP : ℕ → Fin mp → R)
    (grV : (k : Fin d) → ℕ → Fin (mv k) → R) (g : Init d R) : Except PyErr (BResult d np nv R) :=
  if C.ratio = 0 then .error .zeroDivision else
  let N := nt / C.ratio
  let cf := cb.getD N
  if 0 < nt ∧ cf = 0 then .error .valueError else
  let m := if 0 < nt then
      Driver.driveB BMem.swap (bStepC C.bwdArgs gk gb storeK storeB grP grV) C.ratio
        (fun step m => ⟨step, m.wf, m.gK, m.gB⟩) N cf (C.bInit g)
    else (C.bInit g, [])
  .ok { out := C.unpadAll m.1.wf, gfP := m.1.gfP, gfV := m.1.gfV, gK := m.1.gK, gB := m.1.gB
        events := if cb.isSome then m.2 else [] }

end Dw.Acoustic
