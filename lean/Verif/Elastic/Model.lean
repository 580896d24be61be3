import Verif.Core.Regions
import Verif.Core.Staggered
import Verif.Core.Driver

/-!
# Model of the elastic propagator (compiled CPU backend and its Python driver)

Models `src/deepwave/elastic.c` and `src/deepwave/elastic.py` (`ElasticForwardFunc`), for one shot.
The simplifications of `Verif/Scalar/Model.lean` apply.

The code is written out for one, two and three dimensions (`z`, `y`, `x`, of which the last `d` are
used); here dimensions are numbered `0, …, d-1` in the same order.  Normal stresses are at the integer
points, velocity component `i` is half a cell further along dimension `i`, shear stress `σ_ij` along
both `i` and `j`.  The memory variable `mv i j` (`m_v{i}{j}`) belongs to the derivative of `v_i` along
`j` and lies at the points of `σ_ij`; `ms i j` belongs to the derivative of `σ_ij` along `j` and lies
at the points of `v_i`.
-/

namespace Dw.Elastic

open Dw.Scalar (Region addTo recordFrom)

variable {d np mp : ℕ} {nv mv : Fin d → ℕ} {R : Type*} [Field R]

/-- The shear components: pairs of dimensions `i < j`. -/
abbrev Sh (d : ℕ) := {p : Fin d × Fin d // p.1 < p.2}

/-- The value for the (ordered) pair of dimensions `i`, `j`, from those for `i = j`, `i < j` and
`j < i`. -/
def pick {α : Type*} (n : Fin d → α) (l r : Sh d → α) (i j : Fin d) : α :=
  if h : i < j then l ⟨(i, j), h⟩ else if h : j < i then r ⟨(j, i), h⟩ else n i

/-- The dimensions in which a quantity lies at half points. -/
abbrev Loc (d : ℕ) := Fin d → Bool

def vLoc (i : Fin d) : Loc d := fun k => k == i

def sLoc (i j : Fin d) : Loc d := fun k => (k == i) != (k == j)

/-- What the driver receives (`elastic.py` 1185-1202): `np`, `nv i` sources and `mp`, `mv i` receivers
of pressure and of velocity component `i`. -/
structure Cfg (d np mp : ℕ) (nv mv : Fin d → ℕ) (R : Type*) where
  acc : Acc
  /-- `model_shape`: padded size -/
  n : Fin d → ℤ
  /-- `pml_width[2*i]` -/
  w0 : Fin d → ℤ
  /-- `pml_width[2*i+1]` -/
  w1 : Fin d → ℤ
  /-- `grid_spacing` -/
  dx : Fin d → R
  dt : R
  /-- PML profiles at integer points (`pml_profiles[::4]`, `[1::4]`) -/
  a : Fin d → ℤ → R
  b : Fin d → ℤ → R
  /-- PML profiles at half points (`pml_profiles[2::4]`, `[3::4]`) -/
  ah : Fin d → ℤ → R
  bh : Fin d → ℤ → R
  lam : Fld d R
  mu : Fld d R
  /-- `mu_yx`, `mu_zx`, `mu_zy`: shear modulus at the points of the shear stresses -/
  muS : Sh d → Fld d R
  /-- buoyancy at the velocity points -/
  B : Fin d → Fld d R
  srcP : Fin np → Option (Cell d)
  srcV : (i : Fin d) → Fin (nv i) → Option (Cell d)
  rcvP : Fin mp → Option (Cell d)
  rcvV : (i : Fin d) → Fin (mv i) → Option (Cell d)
  ratio : ℕ

/-- The profiles for half (`h`) or integer points. -/
def Cfg.pa (C : Cfg d np mp nv mv R) (h : Bool) (k : Fin d) (x : ℤ) : R := if h then C.ah k x else C.a k x

def Cfg.pb (C : Cfg d np mp nv mv R) (h : Bool) (k : Fin d) (x : ℤ) : R := if h then C.bh k x else C.b k x

/-- Arguments of the C functions that are constant during a call. -/
structure CArgs (d np mp : ℕ) (nv mv : Fin d → ℕ) (R : Type*) extends Cfg d np mp nv mv R where
  rdx : Fin d → R
  pmlB : Fin d → ℤ
  pmlE : Fin d → ℤ

/-- The loop bounds for a component at `L`: `pml_bounds_*h` in the dimensions in which it lies at half
points and `pml_bounds_*` in the others (`elastic.c` 613-626; for example 858-861, 1108-1115; the same
in `backward`). -/
def CArgs.bounds (A : CArgs d np mp nv mv R) (L : Loc d) : Bounds d where
  lo := fun _ => A.acc.pad
  b := A.pmlB
  e := fun k => if L k then max (A.pmlB k) (A.pmlE k - 1) else A.pmlE k
  hi := fun k => if L k then A.n k - A.acc.pad else A.n k - A.acc.pad + 1

/-- `DIFF*H1` for a derivative at half points, `DIFF*1` for one at integer points. -/
def cD (acc : Acc) (h : Bool) (rdx : R) (u : ℤ → R) : R := if h then cSH1 acc rdx u else cS1 acc rdx u

/-- The stress loops run for every region: `none` stands for `sigmaii`, followed by `sigmaxy`,
`sigmaxz`, `sigmayz` (`elastic.c` 1037, 1104, 1146, 1186). -/
def stressNests (d : ℕ) : List (Option (Sh d)) :=
  none :: (List.finRange d).reverse.flatMap fun j => (List.finRange d).reverse.filterMap fun i =>
    if h : i < j then some (some ⟨(i, j), h⟩) else none

/-- The points of the components updated by a stress loop. -/
def nestLoc : Option (Sh d) → Loc d
  | none => fun _ => false
  | some p => sLoc p.1.1 p.1.2

/-! ### Forward -/

/-- Written by a velocity loop of the forward kernel at a cell. -/
structure VCell (d : ℕ) (R : Type*) where
  v : R
  m : Fin d → R
  store : R

/-- Body of the loop over velocity component `ic.1` (`elastic.c` 862-899, 912-949, 962-1000). `sig i j`
is the array of `σ_ij`. -/
def velBody (A : CArgs d np mp nv mv R) (save : Bool) (sig : Fin d → Fin d → Fld d R)
    (r : Fin d → Region) (ic : Fin d × Cell d) (s : VCell d R) : VCell d R :=
  let i := ic.1
  let c := ic.2
  let dd := fun j => cD A.acc (vLoc i j) (A.rdx j) fun x => sig i j (c.shift j x)
  let m := fun j => if r j = .mid then s.m j
    else A.pa (vLoc i j) j (c j) * s.m j + A.pb (vLoc i j) j (c j) * dd j
  let w := ∑ j, if r j = .mid then dd j else dd j + m j
  { v := s.v + A.B i c * A.dt * w
    m := m
    store := if save then A.dt * w else s.store }

/-- Written by a stress loop of the forward kernel at a cell: `s`, `m`, `store` by the loop `sigmaii`
(`m i` is `m_v{i}{i}`), `sh`, `ml`, `mr`, `storeS` by that of `σ_ij` (`ml` is `m_v{i}{j}`, `mr` is
`m_v{j}{i}`). -/
structure SCell (d : ℕ) (R : Type*) where
  s : Fin d → R
  m : Fin d → R
  store : Fin d → R
  sh : R
  ml : R
  mr : R
  storeS : R

/-- Body of the stress loops (`elastic.c` 1050-1101, 1116-1141, 1153-1181, 1193-1220).  `saveN`, `saveS`
are `lamb_or_mu_requires_grad_t`, `mu_requires_grad_t`. -/
def strBody (A : CArgs d np mp nv mv R) (saveN saveS : Bool) (v : Fin d → Fld d R)
    (r : Fin d → Region) (kc : Option (Sh d) × Cell d) (s : SCell d R) : SCell d R :=
  let c := kc.2
  match kc.1 with
  | none =>
      let dd := fun i => cD A.acc false (A.rdx i) fun x => v i (c.shift i x)
      let m := fun i => if r i = .mid then s.m i
        else A.pa false i (c i) * s.m i + A.pb false i (c i) * dd i
      let dv := fun i => if r i = .mid then dd i else dd i + m i
      let w := ∑ i, A.lam c * dv i
      { s with
        s := fun i => s.s i + A.dt * (w + 2 * A.mu c * dv i)
        m := m
        store := fun i => if saveN then A.dt * dv i else s.store i }
  | some p =>
      let i := p.1.1
      let j := p.1.2
      let dl := cD A.acc true (A.rdx j) fun x => v i (c.shift j x)
      let dr := cD A.acc true (A.rdx i) fun x => v j (c.shift i x)
      let ml := if r j = .mid then s.ml else A.pa true j (c j) * s.ml + A.pb true j (c j) * dl
      let mr := if r i = .mid then s.mr else A.pa true i (c i) * s.mr + A.pb true i (c i) * dr
      let w := (if r i = .mid then dr else dr + mr) + (if r j = .mid then dl else dl + ml)
      { s with
        sh := s.sh + A.dt * A.muS p c * w
        ml := ml
        mr := mr
        storeS := if saveS then A.dt * w else s.storeS }

@[ext] structure Wavefields (d : ℕ) (R : Type*) where
  v : Fin d → Fld d R
  /-- normal stresses -/
  s : Fin d → Fld d R
  /-- shear stresses -/
  sh : Sh d → Fld d R
  mv : Fin d → Fin d → Fld d R
  ms : Fin d → Fin d → Fld d R

/-- The array of `σ_ij = σ_ji`. -/
def sigOf (s : Fin d → Fld d R) (sh : Sh d → Fld d R) (i j : Fin d) : Fld d R := pick s sh sh i j

/-- Memory the forward call works on: wavefields, snapshots by step index, receiver data. -/
structure FMem (d mp : ℕ) (mv : Fin d → ℕ) (R : Type*) where
  wf : Wavefields d R
  storeB : ℕ → Fin d → Fld d R
  storeN : ℕ → Fin d → Fld d R
  storeS : ℕ → Sh d → Fld d R
  rcdP : ℕ → Fin mp → R
  rcdV : (i : Fin d) → ℕ → Fin (mv i) → R

/-- One iteration of the time loop of `forward` (`elastic.c` 745-1258), with `record_pressure` and
`add_pressure` (321-368).  `gl`, `gm`, `gb` are `lamb_requires_grad`, `mu_requires_grad`,
`buoyancy_requires_grad`. -/
def fStep (A : CArgs d np mp nv mv R) (gl gm gb : Bool) (fp : ℕ → Fin np → R)
    (fv : (i : Fin d) → ℕ → Fin (nv i) → R) (t : ℕ) (m : FMem d mp mv R) : FMem d mp mv R :=
  let on := t % A.ratio == 0
  let saveB := gb && on
  let saveS := gm && on
  let saveN := (gl && on) || saveS
  let w := m.wf
  let vel := foldUpdate (velBody A saveB (sigOf w.s w.sh))
    (regionVisits (List.finRange d) fun i => A.bounds (vLoc i)) fun ic =>
    { v := w.v ic.1 ic.2, m := fun j => w.ms ic.1 j ic.2, store := m.storeB (t / A.ratio) ic.1 ic.2 }
  let v := fun i => addTo (fun c => (vel (i, c)).v) (A.srcV i) (fv i t)
  let str := foldUpdate (strBody A saveN saveS v)
    (regionVisits (stressNests d) fun k => A.bounds (nestLoc k)) fun kc =>
    { s := fun i => w.s i kc.2
      m := fun i => w.mv i i kc.2
      store := fun i => m.storeN (t / A.ratio) i kc.2
      sh := kc.1.elim 0 fun p => w.sh p kc.2
      ml := kc.1.elim 0 fun p => w.mv p.1.1 p.1.2 kc.2
      mr := kc.1.elim 0 fun p => w.mv p.1.2 p.1.1 kc.2
      storeS := kc.1.elim 0 fun p => m.storeS (t / A.ratio) p kc.2 }
  { wf :=
      { v := v
        s := fun i => addTo (fun c => (str (none, c)).s i) A.srcP (fp t)
        sh := fun p c => (str (some p, c)).sh
        mv := fun i j c => pick (fun i => (str (none, c)).m i) (fun p => (str (some p, c)).ml)
          (fun p => (str (some p, c)).mr) i j
        ms := fun i j c => (vel (i, c)).m j }
    storeB := if saveB then Function.update m.storeB (t / A.ratio) fun i c => (vel (i, c)).store
      else m.storeB
    storeN := if saveN then Function.update m.storeN (t / A.ratio) fun i c => (str (none, c)).store i
      else m.storeN
    storeS := if saveS then Function.update m.storeS (t / A.ratio) fun p c => (str (some p, c)).storeS
      else m.storeS
    rcdP := Function.update m.rcdP t (recordFrom (fun c => ∑ i, w.s i c) A.rcvP (m.rcdP t))
    rcdV := fun i => Function.update (m.rcdV i) t (recordFrom (w.v i) (A.rcvV i) (m.rcdV i t)) }

/-- Cells of the arrays of quantities at integer points that are updated. -/
def Cfg.Inner (C : Cfg d np mp nv mv R) (c : Cell d) : Prop :=
  ∀ k, (C.acc.pad : ℤ) ≤ c k ∧ c k < C.n k - C.acc.pad + 1

instance (C : Cfg d np mp nv mv R) (c : Cell d) : Decidable (C.Inner c) :=
  inferInstanceAs (Decidable (∀ _, _))

/-- `create_or_pad` with `fd_pad_list = [fd_pad, fd_pad - 1] * ndim` (`common.py` 2557-2591):
`none` is an empty tensor. -/
def Cfg.createOrPad (C : Cfg d np mp nv mv R) (u : Option (Fld d R)) : Fld d R :=
  match u with
  | none => fun _ => 0
  | some u => fun c => if C.Inner c then u (fun k => c k - C.acc.pad) else 0

/-- `zero_edge` in all dimensions in which the quantity lies at half points (`elastic.py` 1079-1094,
1117-1125, 1142-1147, 1160-1167): zero at index `-fd_pad`. -/
def Cfg.zeroEdges (C : Cfg d np mp nv mv R) (L : Loc d) (u : Fld d R) : Fld d R :=
  fun c => if ∃ k, L k = true ∧ c k = C.n k - C.acc.pad then 0 else u c

/-- `zero_interior` along dimension `k` (`common.py` 2594-2628; `elastic.py` 1131-1139, 1149-1157,
1168-1175): the trailing finite-difference pad is one larger for half points. -/
def Cfg.zeroInterior (C : Cfg d np mp nv mv R) (k : Fin d) (h : Bool) (u : Fld d R) : Fld d R :=
  fun c => if (C.acc.pad : ℤ) + C.w0 k ≤ c k ∧
    c k < C.n k - C.w1 k - (C.acc.pad - 1 + if h then 1 else 0) then 0 else u c

/-- The output slice. -/
def Cfg.unpad (C : Cfg d np mp nv mv R) (u : Fld d R) : Fld d R := fun c => u fun k => c k + C.acc.pad

/-- Wavefields as the user passes them; `none` means not given. -/
structure Init (d : ℕ) (R : Type*) where
  v : Fin d → Option (Fld d R)
  s : Fin d → Option (Fld d R)
  sh : Sh d → Option (Fld d R)
  mv : Fin d → Fin d → Option (Fld d R)
  ms : Fin d → Fin d → Option (Fld d R)

/-- Wavefields after padding and `zero_edges_and_interiors` (`elastic.py` 1096-1175). -/
def Cfg.prepare (C : Cfg d np mp nv mv R) (w : Init d R) : Wavefields d R where
  v := fun i => C.zeroEdges (vLoc i) (C.createOrPad (w.v i))
  s := fun i => C.createOrPad (w.s i)
  sh := fun p => C.zeroEdges (sLoc p.1.1 p.1.2) (C.createOrPad (w.sh p))
  mv := fun i j => C.zeroInterior j (sLoc i j j) (C.zeroEdges (sLoc i j) (C.createOrPad (w.mv i j)))
  ms := fun i j => C.zeroInterior j (vLoc i j) (C.zeroEdges (vLoc i) (C.createOrPad (w.ms i j)))

/-- Arguments of the call of `forward` (`elastic.py` 1290-1568). -/
def Cfg.fwdArgs (C : Cfg d np mp nv mv R) : CArgs d np mp nv mv R :=
  { C with
    rdx := fun k => 1 / C.dx k
    pmlB := fun k => C.w0 k + C.acc.pad
    pmlE := fun k => max (C.w0 k + C.acc.pad) (C.n k - C.w1 k - (C.acc.pad - 1)) }

/-- State shown to a forward callback. -/
structure Event (d : ℕ) (R : Type*) where
  step : ℕ
  wf : Wavefields d R

structure FResult (d mp : ℕ) (mv : Fin d → ℕ) (R : Type*) where
  out : Wavefields d R
  rcdP : ℕ → Fin mp → R
  rcdV : (i : Fin d) → ℕ → Fin (mv i) → R
  storeB : ℕ → Fin d → Fld d R
  storeN : ℕ → Fin d → Fld d R
  storeS : ℕ → Sh d → Fld d R
  events : List (Event d R)

def Cfg.unpadAll (C : Cfg d np mp nv mv R) (w : Wavefields d R) : Wavefields d R :=
  ⟨fun i => C.unpad (w.v i), fun i => C.unpad (w.s i), fun p => C.unpad (w.sh p),
    fun i j => C.unpad (w.mv i j), fun i j => C.unpad (w.ms i j)⟩

/-- Memory before the first step. -/
def Cfg.fInit (C : Cfg d np mp nv mv R) (w : Init d R) : FMem d mp mv R :=
  ⟨C.prepare w, fun _ _ _ => 0, fun _ _ _ => 0, fun _ _ _ => 0, fun _ _ => 0, fun _ _ _ => 0⟩

/-- `ElasticForwardFunc.forward` (`elastic.py` 1185-1568) for one shot.  The buffers are updated in
place, so nothing is exchanged between chunks. -/
def Cfg.forward (C : Cfg d np mp nv mv R) (gl gm gb : Bool) (cb : Option ℕ) (nt : ℕ)
    (fp : ℕ → Fin np → R) (fv : (i : Fin d) → ℕ → Fin (nv i) → R) (w : Init d R) :
    Except PyErr (FResult d mp mv R) :=
  if C.ratio = 0 then .error .zeroDivision else
  let N := nt / C.ratio
  let cf := cb.getD N
  if 0 < nt ∧ cf = 0 then .error .valueError else
  let m := if 0 < nt then
      Driver.driveF id (fStep C.fwdArgs gl gm gb fp fv) C.ratio (fun step m => ⟨step, m.wf⟩) N cf
        (C.fInit w)
    else (C.fInit w, [])
  .ok { out := C.unpadAll m.1.wf, rcdP := m.1.rcdP, rcdV := m.1.rcdV, storeB := m.1.storeB
        storeN := m.1.storeN, storeS := m.1.storeS, events := if cb.isSome then m.2 else [] }

/-! ### Backward -/

/-- The moduli applied to the stresses, without the factor `dt`: for `i = j` the sum
`LAMB * SIGMA.. + LAMB_2MU * SIGMA..`, otherwise `MU_.. * SIGMA..` (macros `V*_*`, `elastic.c`
169-260). -/
def modulus (A : Cfg d np mp nv mv R) (s : Fin d → Fld d R) (sh : Sh d → Fld d R) (i j : Fin d) :
    Fld d R := fun c =>
  pick (fun i => ∑ k, (if k = i then A.lam c + 2 * A.mu c else A.lam c) * s k c)
    (fun p => A.muS p c * sh p c) (fun p => A.muS p c * sh p c) i j

/-- Written by a velocity loop of the backward kernel at a cell. -/
structure BVCell (d : ℕ) (R : Type*) where
  v : R
  mn : Fin d → R
  grad : R

/-- Body of the loop over velocity component `ic.1` of `backward` (`elastic.c` 1775-1805, 1818-1850,
1863-1903) with the macros `V*_*`, `V*_*_PML` (169-262).  `store` is the snapshot loaded for this
step. -/
def bVelBody (A : CArgs d np mp nv mv R) (load : Bool) (store : Fin d → Fld d R) (w : Wavefields d R)
    (r : Fin d → Region) (ic : Fin d × Cell d) (s : BVCell d R) : BVCell d R :=
  let i := ic.1
  let c := ic.2
  let adj := fun (j : Fin d) (x : ℤ) => A.dt * modulus A.toCfg w.s w.sh i j (c.shift j x)
  let adjPml := fun (j : Fin d) (x : ℤ) =>
    A.dt * (1 + A.pb (sLoc i j j) j (c j + x)) * modulus A.toCfg w.s w.sh i j (c.shift j x)
      + A.pb (sLoc i j j) j (c j + x) * w.mv i j (c.shift j x)
  let ws := ∑ j, if r j = .mid then -cD A.acc (vLoc i j) (A.rdx j) (adj j)
    else -cD A.acc (vLoc i j) (A.rdx j) (adjPml j)
  let v := s.v + ws
  { v := v
    mn := fun j => if r j = .mid then s.mn j
      else A.B i c * A.dt * A.pa (vLoc i j) j (c j) * v + A.pa (vLoc i j) j (c j) * w.ms i j c
    grad := if load then s.grad + v * store i c * (A.ratio : R) else s.grad }

/-- Written by a stress loop of the backward kernel at a cell (see `SCell`). -/
structure BSCell (d : ℕ) (R : Type*) where
  s : Fin d → R
  m : Fin d → R
  gl : R
  gm : R
  sh : R
  ml : R
  mr : R
  gs : R

/-- Body of the stress loops of `backward` (`elastic.c` 1953-2047, 2060-2086, 2099-2125, 2138-2164)
with the macros `SIGMA*_*`, `SIGMA*_*_PML` (265-311).  `v` holds the velocities after the velocity
loops, `ms` the memory variables before them. -/
def bStrBody (A : CArgs d np mp nv mv R) (loadL loadM : Bool) (storeN : Fin d → Fld d R)
    (storeS : Sh d → Fld d R) (v : Fin d → Fld d R) (ms : Fin d → Fin d → Fld d R)
    (r : Fin d → Region) (kc : Option (Sh d) × Cell d) (s : BSCell d R) : BSCell d R :=
  let c := kc.2
  let adj := fun (i j : Fin d) (x : ℤ) => A.dt * A.B i (c.shift j x) * v i (c.shift j x)
  let adjPml := fun (i j : Fin d) (x : ℤ) =>
    (1 + A.pb (vLoc i j) j (c j + x)) * A.dt * A.B i (c.shift j x) * v i (c.shift j x)
      + A.pb (vLoc i j) j (c j + x) * ms i j (c.shift j x)
  match kc.1 with
  | none =>
      { s with
        gl := if loadL then s.gl + (∑ i, s.s i) * (∑ i, storeN i c) * (A.ratio : R) else s.gl
        gm := if loadM then s.gm + 2 * (∑ i, s.s i * storeN i c) * (A.ratio : R) else s.gm
        m := fun i => if r i = .mid then s.m i
          else ∑ k, (if k = i then A.lam c + 2 * A.mu c else A.lam c) * A.dt * A.pa false i (c i) * s.s k
            + A.pa false i (c i) * s.m i
        s := fun i => s.s i + if r i = .mid then -cD A.acc false (A.rdx i) (adj i i)
          else -cD A.acc false (A.rdx i) (adjPml i i) }
  | some p =>
      let i := p.1.1
      let j := p.1.2
      { s with
        gs := if loadM then s.gs + s.sh * storeS p c * (A.ratio : R) else s.gs
        ml := if r j = .mid then s.ml
          else A.muS p c * A.dt * A.pa true j (c j) * s.sh + A.pa true j (c j) * s.ml
        mr := if r i = .mid then s.mr
          else A.muS p c * A.dt * A.pa true i (c i) * s.sh + A.pa true i (c i) * s.mr
        sh := s.sh + (if r i = .mid then -cD A.acc true (A.rdx i) (adj j i)
              else -cD A.acc true (A.rdx i) (adjPml j i))
            + (if r j = .mid then -cD A.acc true (A.rdx j) (adj i j)
              else -cD A.acc true (A.rdx j) (adjPml i j)) }

/-- Gradients of the models. -/
@[ext] structure Grads (d : ℕ) (R : Type*) where
  l : Fld d R
  m : Fld d R
  s : Sh d → Fld d R
  b : Fin d → Fld d R

/-- Memory the backward call works on. -/
structure BMem (d np : ℕ) (nv : Fin d → ℕ) (R : Type*) where
  wf : Wavefields d R
  msn : Fin d → Fin d → Fld d R
  /-- gradients of the source amplitudes -/
  gfP : ℕ → Fin np → R
  gfV : (i : Fin d) → ℕ → Fin (nv i) → R
  /-- this thread's model gradients -/
  gr : Grads d R

/-- Exchange of `m_sigma*` and `m_sigma*n` (`elastic.c` 1663-1725; `elastic.py` 1571-1949). -/
def BMem.swap (m : BMem d np nv R) : BMem d np nv R :=
  { m with wf := { m.wf with ms := m.msn }, msn := m.wf.ms }

/-- One iteration of the time loop of `backward` (`elastic.c` 1640-2196), with the pointers not
exchanged. -/
def bStepC (A : CArgs d np mp nv mv R) (gl gm gb : Bool) (storeB storeN : ℕ → Fin d → Fld d R)
    (storeS : ℕ → Sh d → Fld d R) (grP : ℕ → Fin mp → R) (grV : (i : Fin d) → ℕ → Fin (mv i) → R)
    (t : ℕ) (m : BMem d np nv R) : BMem d np nv R :=
  let on := t % A.ratio == 0
  let w := m.wf
  let vel := foldUpdate (bVelBody A (gb && on) (storeB (t / A.ratio)) w)
    (regionVisits (List.finRange d) fun i => A.bounds (vLoc i)) fun ic =>
      { v := w.v ic.1 ic.2, mn := fun j => m.msn ic.1 j ic.2, grad := m.gr.b ic.1 ic.2 }
  let v := fun i c => (vel (i, c)).v
  let str := foldUpdate (bStrBody A (gl && on) (gm && on) (storeN (t / A.ratio)) (storeS (t / A.ratio))
    v w.ms) (regionVisits (stressNests d) fun k => A.bounds (nestLoc k)) fun kc =>
    { s := fun i => w.s i kc.2
      m := fun i => w.mv i i kc.2
      gl := m.gr.l kc.2
      gm := m.gr.m kc.2
      sh := kc.1.elim 0 fun p => w.sh p kc.2
      ml := kc.1.elim 0 fun p => w.mv p.1.1 p.1.2 kc.2
      mr := kc.1.elim 0 fun p => w.mv p.1.2 p.1.1 kc.2
      gs := kc.1.elim 0 fun p => m.gr.s p kc.2 }
  { wf :=
      { v := fun i => addTo (v i) (A.rcvV i) (grV i t)
        s := fun i => addTo (fun c => (str (none, c)).s i) A.rcvP (grP t)
        sh := fun p c => (str (some p, c)).sh
        mv := fun i j c => pick (fun i => (str (none, c)).m i) (fun p => (str (some p, c)).ml)
          (fun p => (str (some p, c)).mr) i j
        ms := w.ms }
    msn := fun i j c => (vel (i, c)).mn j
    gfP := Function.update m.gfP t (recordFrom (fun c => ∑ i, w.s i c) A.srcP (m.gfP t))
    gfV := fun i => Function.update (m.gfV i) t (recordFrom (v i) (A.srcV i) (m.gfV i t))
    gr := { l := fun c => (str (none, c)).gl
            m := fun c => (str (none, c)).gm
            s := fun p c => (str (some p, c)).gs
            b := fun i c => (vel (i, c)).grad } }

/-- Arguments of the call of `backward` (`elastic.py` 1571-1949). -/
def Cfg.bwdArgs (C : Cfg d np mp nv mv R) : CArgs d np mp nv mv R :=
  { C with
    rdx := fun k => 1 / C.dx k
    pmlB := fun k => min (C.w0 k + 2 * C.acc.pad) (C.n k - (C.acc.pad - 1))
    pmlE := fun k => max (min (C.w0 k + 2 * C.acc.pad) (C.n k - (C.acc.pad - 1)))
      (C.n k - C.w1 k - 2 * C.acc.pad + 1) }

/-- State shown to a backward callback. -/
structure BEvent (d : ℕ) (R : Type*) where
  step : ℕ
  wf : Wavefields d R
  gr : Grads d R

structure BResult (d np : ℕ) (nv : Fin d → ℕ) (R : Type*) where
  out : Wavefields d R
  gfP : ℕ → Fin np → R
  gfV : (i : Fin d) → ℕ → Fin (nv i) → R
  gr : Grads d R
  events : List (BEvent d R)

/-- Memory before the first backward step. -/
def Cfg.bInit (C : Cfg d np mp nv mv R) (g : Init d R) : BMem d np nv R :=
  ⟨C.prepare g, fun _ _ _ => 0, fun _ _ => 0, fun _ _ _ => 0,
    ⟨fun _ => 0, fun _ => 0, fun _ _ => 0, fun _ _ => 0⟩⟩

/-- `ElasticForwardFunc.backward` (`elastic.py` 1571-1949) for one shot, with the thread's gradient
buffers being the returned gradients themselves (one thread, or batched models). -/
def Cfg.backward (C : Cfg d np mp nv mv R) (gl gm gb : Bool) (cb : Option ℕ) (nt : ℕ)
    (storeB storeN : ℕ → Fin d → Fld d R) (storeS : ℕ → Sh d → Fld d R) (grP : ℕ → Fin mp → R)
    (grV : (i : Fin d) → ℕ → Fin (mv i) → R) (g : Init d R) : Except PyErr (BResult d np nv R) :=
  if C.ratio = 0 then .error .zeroDivision else
  let N := nt / C.ratio
  let cf := cb.getD N
  if 0 < nt ∧ cf = 0 then .error .valueError else
  let m := if 0 < nt then
      Driver.driveB BMem.swap (bStepC C.bwdArgs gl gm gb storeB storeN storeS grP grV) C.ratio
        (fun step m => ⟨step, m.wf, m.gr⟩) N cf (C.bInit g)
    else (C.bInit g, [])
  .ok { out := C.unpadAll m.1.wf, gfP := m.1.gfP, gfV := m.1.gfV, gr := m.1.gr
        events := if cb.isSome then m.2 else [] }

end Dw.Elastic
