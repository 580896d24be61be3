import Verif.Core.Driver

/-!
# Model of the Born propagator (compiled CPU backend and its Python driver)

Models `src/deepwave/scalar_born.c` and `src/deepwave/scalar_born.py`
(`ScalarBornForwardFunc.forward` and `.backward`) for one shot, with the simplifications listed in
`Verif/Scalar/Model.lean`.  The background and the scattered field each have the buffers of the
scalar propagator.
-/

namespace Dw.Born

open Dw.Scalar

variable {d ns nr nq : ℕ} {R : Type*} [Field R]

/-- What the driver receives (`scalar_born.py` 598-622): the scalar configuration (with the
receivers of the background field), the scattering potential and the receivers of the scattered
field. -/
structure BCfg (d ns nr nq : ℕ) (R : Type*) where
  base : Cfg d ns nr R
  scatter : Fld d R
  rcvsc : Fin nq → Option (Cell d)

/-! ### Source amplitudes -/

/-- `x.gather(1, sources_i_masked)`: the value at the source's cell, index 0 for an ignored source. -/
def gatherAt (x : Fld d R) (loc : Option (Cell d)) : R := x (loc.getD fun _ => 0)

/-- The scaling of source amplitudes in `scalar` (`scalar.py` 518-530) and for the background field in
`scalar_born` (`scalar_born.py` 495-509). -/
def scaleAmp (C : Cfg d ns nr R) (a : ℕ → Fin ns → R) : ℕ → Fin ns → R := fun t i =>
  -a t i * gatherAt C.v (C.src i) ^ 2 * C.dt ^ 2

/-- The scaling of source amplitudes for the scattered field (`scalar_born.py` 510-533). -/
def scaleAmpSc (B : BCfg d ns nr nq R) (a : ℕ → Fin ns → R) : ℕ → Fin ns → R := fun t i =>
  -2 * a t i * gatherAt B.base.v (B.base.src i) * gatherAt B.scatter (B.base.src i) * B.base.dt ^ 2

/-! ### Forward -/

/-- What a forward cell update computes from one of the two fields. -/
structure Terms (d : ℕ) (R : Type*) where
  wSum : R
  psin : Fin d → R
  zeta : Fin d → R

/-- The statements for one field (`scalar_born.c` 448-500); the code has them twice, with and without
the suffix `sc`.  `psin0`, `zeta0` are the previous contents at the cell. -/
def terms (A : CArgs d ns nr R) (wfc : Fld d R) (psi : Fin d → Fld d R) (r : Fin d → Region)
    (c : Cell d) (psin0 zeta0 : Fin d → R) : Terms d R :=
  let d1 := fun k => cDiff1 A.acc (A.rdx k) fun j => wfc (c.shift k j)
  let d2 := fun k => cDiff2 A.acc (A.rdx2 k) fun j => wfc (c.shift k j)
  let tmp := fun k => (1 + A.b k (c k)) * d2 k + A.db k (c k) * d1 k +
    cDiff1 A.acc (A.rdx k) fun j => A.a k (c k + j) * psi k (c.shift k j)
  { wSum := ∑ k, if r k = .mid then d2 k
      else (1 + A.b k (c k)) * tmp k + A.a k (c k) * zeta0 k
    psin := fun k => if r k = .mid then psin0 k
      else A.b k (c k) * d1 k + A.a k (c k) * psi k c
    zeta := fun k => if r k = .mid then zeta0 k
      else A.b k (c k) * tmp k + A.a k (c k) * zeta0 k }

/-- The elements written by the forward kernel at one cell. -/
structure BornCell (d : ℕ) (R : Type*) where
  wfp : R
  psin : Fin d → R
  zeta : Fin d → R
  wfpsc : R
  psinsc : Fin d → R
  zetasc : Fin d → R
  w : R
  wsc : R

/-- Body of the forward kernel (`scalar_born.c` 447-513); `σ` is `scatter`. -/
def bornBody (A : CArgs d ns nr R) (σ : Fld d R) (save saveSc : Bool) (bg sc : FwdBufs d R)
    (r : Fin d → Region) (c : Cell d) (s : BornCell d R) : BornCell d R :=
  let x := terms A bg.wfc bg.psi r c s.psin s.zeta
  let y := terms A sc.wfc sc.psi r c s.psinsc s.zetasc
  { wfp := A.m c * A.m c * A.dt2 * x.wSum + 2 * bg.wfc c - s.wfp
    psin := x.psin
    zeta := x.zeta
    wfpsc := A.m c * A.m c * A.dt2 * y.wSum + 2 * sc.wfc c - s.wfpsc
      + 2 * A.m c * σ c * A.dt2 * x.wSum
    psinsc := y.psin
    zetasc := y.zeta
    w := if save then x.wSum else s.w
    wsc := if saveSc then y.wSum else s.wsc }

/-- Memory the forward call works on. -/
structure FMem (d nr nq : ℕ) (R : Type*) where
  bg : FwdBufs d R
  sc : FwdBufs d R
  /-- snapshots `w_store`, `wsc_store` by step index -/
  w : ℕ → Fld d R
  wsc : ℕ → Fld d R
  /-- receiver amplitudes by time step -/
  rcd : ℕ → Fin nr → R
  rcdsc : ℕ → Fin nq → R

/-- Exchange of the ping-pong pairs (`scalar_born.c` 324-358; `scalar_born.py` 911-922). -/
def FMem.swap (m : FMem d nr nq R) : FMem d nr nq R := { m with bg := m.bg.swap, sc := m.sc.swap }

/-- Buffers of a field after the cell updates `wfp psin zeta`. -/
def FwdBufs.set (s : FwdBufs d R) (wfp : Fld d R) (psin zeta : Fin d → Fld d R) : FwdBufs d R :=
  { s with wfp := wfp, psin := psin, zeta := zeta }

/-- One iteration of the time loop of `forward` (`scalar_born.c` 380-543), with the pointers not
exchanged.  `gv`, `gs` are `v_requires_grad`, `scatter_requires_grad`. -/
def fStep (A : CArgs d ns nr R) (σ : Fld d R) (rcvsc : Fin nq → Option (Cell d)) (gv gs : Bool)
    (f fsc : ℕ → Fin ns → R) (t : ℕ) (m : FMem d nr nq R) : FMem d nr nq R :=
  let saveSc := gv && t % A.ratio == 0
  let save := saveSc || (gs && t % A.ratio == 0)
  let out := foldUpdate (bornBody A σ save saveSc m.bg m.sc) A.visits fun c =>
    { wfp := m.bg.wfp c, psin := fun k => m.bg.psin k c, zeta := fun k => m.bg.zeta k c,
      wfpsc := m.sc.wfp c, psinsc := fun k => m.sc.psin k c, zetasc := fun k => m.sc.zeta k c,
      w := m.w (t / A.ratio) c, wsc := m.wsc (t / A.ratio) c }
  { bg := FwdBufs.set m.bg (addTo (fun c => (out c).wfp) A.src (f t)) (fun k c => (out c).psin k)
      fun k c => (out c).zeta k
    sc := FwdBufs.set m.sc (addTo (fun c => (out c).wfpsc) A.src (fsc t))
      (fun k c => (out c).psinsc k) fun k c => (out c).zetasc k
    w := if save then Function.update m.w (t / A.ratio) fun c => (out c).w else m.w
    wsc := if saveSc then Function.update m.wsc (t / A.ratio) fun c => (out c).wsc else m.wsc
    rcd := Function.update m.rcd t (recordFrom m.bg.wfc A.rcv (m.rcd t))
    rcdsc := Function.update m.rcdsc t (recordFrom m.sc.wfc rcvsc (m.rcdsc t)) }

/-- State shown to a forward callback (`scalar_born.py` 830-860). -/
structure FEvent (d : ℕ) (R : Type*) where
  step : ℕ
  bg : Wavefields d R
  sc : Wavefields d R

structure FResult (d nr nq : ℕ) (R : Type*) where
  out : Wavefields d R
  outsc : Wavefields d R
  rcd : ℕ → Fin nr → R
  rcdsc : ℕ → Fin nq → R
  w : ℕ → Fld d R
  wsc : ℕ → Fld d R
  events : List (FEvent d R)

/-- Buffers without the padding (`scalar_born.py` 926-938). -/
def unpadBufs (C : Cfg d ns nr R) (b : FwdBufs d R) : Wavefields d R :=
  ⟨C.unpad b.wfc, C.unpad b.wfp, fun k => C.unpad (b.psi k), fun k => C.unpad (b.zeta k)⟩

/-- Memory before the first step (`scalar_born.py` 751-804). -/
def BCfg.fInit (B : BCfg d ns nr nq R) (w wsc : Init d R) : FMem d nr nq R :=
  ⟨B.base.initBufs w, B.base.initBufs wsc, fun _ _ => 0, fun _ _ => 0, fun _ _ => 0, fun _ _ => 0⟩

def fView (step : ℕ) (m : FMem d nr nq R) : FEvent d R :=
  ⟨step, m.bg.wavefields, m.sc.wavefields⟩

/-- `ScalarBornForwardFunc.forward` (`scalar_born.py` 598-938) for one shot.  The bounds `pml_b`,
`pml_e` (779-786) and the other arguments are those of the scalar driver. -/
def BCfg.forward (B : BCfg d ns nr nq R) (gv gs : Bool) (cb : Option ℕ) (nt : ℕ)
    (f fsc : ℕ → Fin ns → R) (w wsc : Init d R) : Except PyErr (FResult d nr nq R) :=
  if B.base.ratio = 0 then .error .zeroDivision else
  let N := nt / B.base.ratio
  let cf := cb.getD N
  if 0 < nt ∧ cf = 0 then .error .valueError else
  let m := if 0 < nt then
      Driver.driveF FMem.swap (fStep B.base.fwdArgs B.scatter B.rcvsc gv gs f fsc) B.base.ratio fView
        N cf (B.fInit w wsc)
    else (B.fInit w wsc, [])
  .ok { out := unpadBufs B.base m.1.bg, outsc := unpadBufs B.base m.1.sc
        rcd := m.1.rcd, rcdsc := m.1.rcdsc, w := m.1.w, wsc := m.1.wsc
        events := if cb.isSome then m.2 else [] }

/-! ### Backward -/

/-- What a backward cell update computes from one of the two fields. -/
structure BTerms (d : ℕ) (R : Type*) where
  wSum : R
  psin : Fin d → R

/-- The statements for `w_sum` and `psin` of one field (`scalar_born.c` 857-903 and the macros
98-156); `x` is `V2DT2_WFC` or `V2DT2_WFCSC`. -/
def bTerms (A : CArgs d ns nr R) (x : Fld d R) (psi zeta : Fin d → Fld d R) (r : Fin d → Region)
    (c : Cell d) (psin0 : Fin d → R) : BTerms d R :=
  -- UT_TERM*1
  let ut1 := fun (k : Fin d) (j : ℤ) =>
    A.db k (c k + j) * ((1 + A.b k (c k + j)) * x (c.shift k j)
      + A.b k (c k + j) * zeta k (c.shift k j)) + A.b k (c k + j) * psi k (c.shift k j)
  -- UT_TERM*2
  let ut2 := fun (k : Fin d) (j : ℤ) =>
    (1 + A.b k (c k + j)) * ((1 + A.b k (c k + j)) * x (c.shift k j)
      + A.b k (c k + j) * zeta k (c.shift k j))
  -- PSI*_TERM
  let psiTerm := fun (k : Fin d) (j : ℤ) =>
    (1 + A.b k (c k + j)) * x (c.shift k j) + A.b k (c k + j) * zeta k (c.shift k j)
  { wSum := ∑ k, if r k = .mid then cDiff2 A.acc (A.rdx2 k) fun j => x (c.shift k j)
      else -cDiff1 A.acc (A.rdx k) (ut1 k) + cDiff2 A.acc (A.rdx2 k) (ut2 k)
    psin := fun k => if r k = .mid then psin0 k
      else -A.a k (c k) * cDiff1 A.acc (A.rdx k) (psiTerm k) + A.a k (c k) * psi k c }

/-- The elements written by `backward` at one cell. -/
structure BBCell (d : ℕ) (R : Type*) where
  wfp : R
  psin : Fin d → R
  zetan : Fin d → R
  wfpsc : R
  psinsc : Fin d → R
  zetansc : Fin d → R
  gv : R
  gs : R

/-- Body of the kernel of `backward` (`scalar_born.c` 856-930).  `w`, `wsc` are the loaded snapshots;
here `A.m` is `v`. -/
def bbBody (A : CArgs d ns nr R) (σ : Fld d R) (gv gs : Bool) (w wsc : Fld d R) (bg sc : BwdBufs d R)
    (r : Fin d → Region) (c : Cell d) (s : BBCell d R) : BBCell d R :=
  let V := fun c => A.m c
  let V2DT2 := fun c => V c * V c * A.dt2
  let VDT2 := fun c => V c * A.dt2
  let x := bTerms A (fun c => V2DT2 c * bg.wfc c + 2 * VDT2 c * σ c * sc.wfc c) bg.psi bg.zeta r c
    s.psin
  let y := bTerms A (fun c => V2DT2 c * sc.wfc c) sc.psi sc.zeta r c s.psinsc
  { wfp := x.wSum + 2 * bg.wfc c - s.wfp
    psin := x.psin
    zetan := fun k => if r k = .mid then s.zetan k
      else A.a k (c k) * V2DT2 c * bg.wfc c + A.a k (c k) * 2 * VDT2 c * σ c * sc.wfc c
        + A.a k (c k) * bg.zeta k c
    wfpsc := y.wSum + 2 * sc.wfc c - s.wfpsc
    psinsc := y.psin
    zetansc := fun k => if r k = .mid then s.zetansc k
      else A.a k (c k) * V2DT2 c * sc.wfc c + A.a k (c k) * sc.zeta k c
    gv := if gv then s.gv + (bg.wfc c * 2 * V c * A.dt2 * w c * (A.ratio : R)
        + sc.wfc c * (2 * A.dt2 * σ c * w c + 2 * V c * A.dt2 * wsc c) * (A.ratio : R))
      else s.gv
    gs := if gs then s.gs + sc.wfc c * 2 * V c * A.dt2 * w c * (A.ratio : R) else s.gs }

/-- Memory `backward` works on. -/
structure BMem (d ns : ℕ) (R : Type*) where
  bg : BwdBufs d R
  sc : BwdBufs d R
  gf : ℕ → Fin ns → R
  gfsc : ℕ → Fin ns → R
  /-- this thread's model gradients -/
  gv : Fld d R
  gs : Fld d R

/-- `scalar_born.c` 708-775; `scalar_born.py` 1246-1277. -/
def BMem.swap (m : BMem d ns R) : BMem d ns R := { m with bg := m.bg.swap, sc := m.sc.swap }

def BwdBufs.set (s : BwdBufs d R) (wfp : Fld d R) (psin zetan : Fin d → Fld d R) : BwdBufs d R :=
  { s with wfp := wfp, psin := psin, zetan := zetan }

/-- One iteration of the time loop of `backward` (`scalar_born.c` 777-951), with the pointers not
exchanged. -/
def bStepC (A : CArgs d ns nr R) (σ : Fld d R) (rcvsc : Fin nq → Option (Cell d)) (gv gs : Bool)
    (w wsc : ℕ → Fld d R) (gr : ℕ → Fin nr → R) (grsc : ℕ → Fin nq → R) (t : ℕ) (m : BMem d ns R) :
    BMem d ns R :=
  let out := foldUpdate (bbBody A σ (gv && t % A.ratio == 0) (gs && t % A.ratio == 0)
      (w (t / A.ratio)) (wsc (t / A.ratio)) m.bg m.sc) A.visits fun c =>
    { wfp := m.bg.wfp c, psin := fun k => m.bg.psin k c, zetan := fun k => m.bg.zetan k c,
      wfpsc := m.sc.wfp c, psinsc := fun k => m.sc.psin k c, zetansc := fun k => m.sc.zetan k c,
      gv := m.gv c, gs := m.gs c }
  { bg := BwdBufs.set m.bg (addTo (fun c => (out c).wfp) A.rcv (gr t)) (fun k c => (out c).psin k)
      fun k c => (out c).zetan k
    sc := BwdBufs.set m.sc (addTo (fun c => (out c).wfpsc) rcvsc (grsc t))
      (fun k c => (out c).psinsc k) fun k c => (out c).zetansc k
    gf := Function.update m.gf t (recordFrom m.bg.wfc A.src (m.gf t))
    gfsc := Function.update m.gfsc t (recordFrom m.sc.wfc A.src (m.gfsc t))
    gv := fun c => (out c).gv
    gs := fun c => (out c).gs }

/-- Arguments of the calls of `backward` and `backward_sc` (`scalar_born.py` 1077-1084, 1170-1171):
those of the scalar driver, but with `v` itself instead of `v2dt2`. -/
def BCfg.bwdArgs (B : BCfg d ns nr nq R) : CArgs d ns nr R := { B.base.bwdArgs with m := B.base.v }

/-- State shown to a backward callback (`scalar_born.py` 1278-1318). -/
structure BEvent (d : ℕ) (R : Type*) where
  step : ℕ
  bg : Wavefields d R
  sc : Wavefields d R
  gv : Fld d R
  gs : Fld d R

structure BResult (d ns : ℕ) (R : Type*) where
  gv : Fld d R
  gs : Fld d R
  gf : ℕ → Fin ns → R
  gfsc : ℕ → Fin ns → R
  out : Wavefields d R
  outsc : Wavefields d R
  events : List (BEvent d R)

/-- `scalar_born.py` 1396-1422. -/
def unpadBwd (C : Cfg d ns nr R) (b : BwdBufs d R) : Wavefields d R :=
  ⟨C.unpad b.wfc, C.unpad fun c => -b.wfp c, fun k => C.unpad (b.psi k), fun k => C.unpad (b.zeta k)⟩

/-- `scalar_born.py` 1000-1055, 1173-1175. -/
def BCfg.bInit (B : BCfg d ns nr nq R) (g gsc : Init d R) : BMem d ns R :=
  ⟨B.base.initBwdBufs g, B.base.initBwdBufs gsc, fun _ _ => 0, fun _ _ => 0, fun _ => 0, fun _ => 0⟩

def bView (step : ℕ) (m : BMem d ns R) : BEvent d R :=
  ⟨step, m.bg.wavefields, m.sc.wavefields, m.gv, m.gs⟩

/-- `ScalarBornForwardFunc.backward` (`scalar_born.py` 941-1422) when `non_sc` holds, with the
threads' gradient buffers being the returned gradients. -/
def BCfg.backward (B : BCfg d ns nr nq R) (gv gs : Bool) (cb : Option ℕ) (nt : ℕ)
    (w wsc : ℕ → Fld d R) (gr : ℕ → Fin nr → R) (grsc : ℕ → Fin nq → R) (g gsc : Init d R) :
    Except PyErr (BResult d ns R) :=
  if B.base.ratio = 0 then .error .zeroDivision else
  let N := nt / B.base.ratio
  let cf := cb.getD N
  if 0 < nt ∧ cf = 0 then .error .valueError else
  let m := if 0 < nt then
      Driver.driveB BMem.swap (bStepC B.bwdArgs B.scatter B.rcvsc gv gs w wsc gr grsc) B.base.ratio
        bView N cf (B.bInit g gsc)
    else (B.bInit g gsc, [])
  .ok { gv := m.1.gv, gs := m.1.gs, gf := m.1.gf, gfsc := m.1.gfsc
        out := unpadBwd B.base m.1.bg, outsc := unpadBwd B.base m.1.sc
        events := if cb.isSome then m.2 else [] }

/-- Memory `backward_sc` works on. -/
structure SMem (d ns : ℕ) (R : Type*) where
  sc : BwdBufs d R
  gfsc : ℕ → Fin ns → R
  gs : Fld d R

/-- `scalar_born.c` 1126-1160; `scalar_born.py` 1360-1376. -/
def SMem.swap (m : SMem d ns R) : SMem d ns R := { m with sc := m.sc.swap }

/-- Body of the kernel of `backward_sc` (`scalar_born.c` 1241-1277). -/
def scBody (A : CArgs d ns nr R) (gs : Bool) (w : Fld d R) (sc : BwdBufs d R)
    (r : Fin d → Region) (c : Cell d) (s : BwdCell d R) : BwdCell d R :=
  let V2DT2 := fun c => A.m c * A.m c * A.dt2
  let y := bTerms A (fun c => V2DT2 c * sc.wfc c) sc.psi sc.zeta r c s.psin
  { wfp := y.wSum + 2 * sc.wfc c - s.wfp
    psin := y.psin
    zetan := fun k => if r k = .mid then s.zetan k
      else A.a k (c k) * V2DT2 c * sc.wfc c + A.a k (c k) * sc.zeta k c
    grad := if gs then s.grad + sc.wfc c * 2 * A.m c * A.dt2 * w c * (A.ratio : R) else s.grad }

/-- One iteration of the time loop of `backward_sc` (`scalar_born.c` 1162-1287). -/
def sStepC (A : CArgs d ns nr R) (rcvsc : Fin nq → Option (Cell d)) (gs : Bool)
    (w : ℕ → Fld d R) (grsc : ℕ → Fin nq → R) (t : ℕ) (m : SMem d ns R) : SMem d ns R :=
  let out := foldUpdate (scBody A (gs && t % A.ratio == 0) (w (t / A.ratio)) m.sc) A.visits fun c =>
    { wfp := m.sc.wfp c, psin := fun k => m.sc.psin k c, zetan := fun k => m.sc.zetan k c,
      grad := m.gs c }
  { sc := BwdBufs.set m.sc (addTo (fun c => (out c).wfp) rcvsc (grsc t))
      (fun k c => (out c).psin k) fun k c => (out c).zetan k
    gfsc := Function.update m.gfsc t (recordFrom m.sc.wfc A.src (m.gfsc t))
    gs := fun c => (out c).grad }

structure SEvent (d : ℕ) (R : Type*) where
  step : ℕ
  sc : Wavefields d R
  gs : Fld d R

structure SResult (d ns : ℕ) (R : Type*) where
  gs : Fld d R
  gfsc : ℕ → Fin ns → R
  outsc : Wavefields d R
  events : List (SEvent d R)

def sView (step : ℕ) (m : SMem d ns R) : SEvent d R := ⟨step, m.sc.wavefields, m.gs⟩

/-- `ScalarBornForwardFunc.backward` (`scalar_born.py` 941-1422) when `non_sc` does not hold:
neither the velocity, nor the background source amplitudes, nor a background wavefield requires a
gradient. -/
def BCfg.backwardSc (B : BCfg d ns nr nq R) (gs : Bool) (cb : Option ℕ) (nt : ℕ)
    (w : ℕ → Fld d R) (grsc : ℕ → Fin nq → R) (gsc : Init d R) : Except PyErr (SResult d ns R) :=
  if B.base.ratio = 0 then .error .zeroDivision else
  let N := nt / B.base.ratio
  let cf := cb.getD N
  let m₀ : SMem d ns R := ⟨B.base.initBwdBufs gsc, fun _ _ => 0, fun _ => 0⟩
  if 0 < nt ∧ cf = 0 then .error .valueError else
  let m := if 0 < nt then
      Driver.driveB SMem.swap (sStepC B.bwdArgs B.rcvsc gs w grsc) B.base.ratio sView N cf m₀
    else (m₀, [])
  .ok { gs := m.1.gs, gfsc := m.1.gfsc, outsc := unpadBwd B.base m.1.sc
        events := if cb.isSome then m.2 else [] }

end Dw.Born
