import Verif.Gpu.Batch
import Verif.Born.Shots
import Verif.Born.Forward

/-!
# The Born propagator on the GPU

`scalar_born.cu`: the kernels (220-768), the loops over time steps of `forward` (1044-1188), `backward`
(1482-1632) and `backward_sc` (1868-1962), and the drivers in `scalar_born.py` for a CUDA device.  The
commands of a call are executed in the order in which they are issued (C62).
-/

namespace Dw.Born

open Dw.Scalar (Init Cfg CArgs FwdBufs BwdBufs BwdCell Wavefields Region addTo recordFrom)
open Dw.Gpu

variable {d ns nr nq S : ℕ} {R : Type*} [Field R]

/-! ### Kernels -/

/-- The statements of `forward_kernel` for one of the two fields (`scalar_born.cu` 426-487). -/
def fwdTerms (A : CArgs d ns nr R) (wfc : Fld d R) (psi : Fin d → Fld d R) (c : Cell d)
    (psin zeta : Fin d → R) : Terms d R :=
  let pml := fun k => decide (c k < A.pmlB k) || decide (c k ≥ A.pmlE k)
  let d1 := fun k => cDiff1 A.acc (A.rdx k) fun j => wfc (c.shift k j)
  let d2 := fun k => cDiff2 A.acc (A.rdx2 k) fun j => wfc (c.shift k j)
  let tmp := fun k => (1 + A.b k (c k)) * d2 k + A.db k (c k) * d1 k +
    cDiff1 A.acc (A.rdx k) fun j => A.a k (c k + j) * psi k (c.shift k j)
  { wSum := ∑ k, if !pml k then d2 k
      else (1 + A.b k (c k)) * tmp k + A.a k (c k) * zeta k
    psin := fun k => if !pml k then psin k else A.b k (c k) * d1 k + A.a k (c k) * psi k c
    zeta := fun k => if !pml k then zeta k else A.b k (c k) * tmp k + A.a k (c k) * zeta k }

/-- Body of `forward_kernel` (`scalar_born.cu` 401-505) for one cell of one shot. -/
def fwdThread (A : CArgs d ns nr R) (σ : Fld d R) (storeW storeWsc : Bool) (bg sc : FwdBufs d R)
    (c : Cell d) (s : BornCell d R) : BornCell d R :=
  let x := fwdTerms A bg.wfc bg.psi c s.psin s.zeta
  let y := fwdTerms A sc.wfc sc.psi c s.psinsc s.zetasc
  { wfp := A.m c * A.m c * A.dt2 * x.wSum + 2 * bg.wfc c - s.wfp
    psin := x.psin
    zeta := x.zeta
    wfpsc := A.m c * A.m c * A.dt2 * y.wSum + 2 * sc.wfc c - s.wfpsc
      + 2 * A.m c * σ c * A.dt2 * x.wSum
    psinsc := y.psin
    zetasc := y.zeta
    w := if storeW then x.wSum else s.w
    wsc := if storeWsc then y.wSum else s.wsc }

/-- The statements of the backward kernels for one field (`scalar_born.cu` 584-635 and the macros
55-190). -/
def bwdTerms (A : CArgs d ns nr R) (x : Fld d R) (psi zeta : Fin d → Fld d R) (c : Cell d)
    (psin : Fin d → R) : BTerms d R :=
  let pml := fun k => decide (c k < A.pmlB k) || decide (c k ≥ A.pmlE k)
  let psiTerm := fun (k : Fin d) (j : ℤ) =>
    (1 + A.b k (c k + j)) * x (c.shift k j) + A.b k (c k + j) * zeta k (c.shift k j)
  let ut1 := fun (k : Fin d) (j : ℤ) =>
    A.db k (c k + j) * ((1 + A.b k (c k + j)) * x (c.shift k j)
      + A.b k (c k + j) * zeta k (c.shift k j)) + A.b k (c k + j) * psi k (c.shift k j)
  let ut2 := fun (k : Fin d) (j : ℤ) =>
    (1 + A.b k (c k + j)) * ((1 + A.b k (c k + j)) * x (c.shift k j)
      + A.b k (c k + j) * zeta k (c.shift k j))
  { wSum := ∑ k, if pml k then -cDiff1 A.acc (A.rdx k) (ut1 k) + cDiff2 A.acc (A.rdx2 k) (ut2 k)
      else cDiff2 A.acc (A.rdx2 k) fun j => x (c.shift k j)
    psin := fun k => if pml k then
        -A.a k (c k) * cDiff1 A.acc (A.rdx k) (psiTerm k) + A.a k (c k) * psi k c
      else psin k }

/-- Body of `backward_kernel` (`scalar_born.cu` 572-653); `A.m` is `v`. -/
def bwdThread (A : CArgs d ns nr R) (σ : Fld d R) (gv gs : Bool) (w wsc : Fld d R)
    (bg sc : BwdBufs d R) (c : Cell d) (s : BBCell d R) : BBCell d R :=
  let pml := fun k => decide (c k < A.pmlB k) || decide (c k ≥ A.pmlE k)
  let V := fun c => A.m c
  let V2DT2 := fun c => V c * V c * A.dt2
  let VDT2 := fun c => V c * A.dt2
  let x := bwdTerms A (fun c => V2DT2 c * bg.wfc c + 2 * VDT2 c * σ c * sc.wfc c) bg.psi bg.zeta c
    s.psin
  let y := bwdTerms A (fun c => V2DT2 c * sc.wfc c) sc.psi sc.zeta c s.psinsc
  { wfp := x.wSum + 2 * bg.wfc c - s.wfp
    psin := x.psin
    zetan := fun k => if pml k then A.a k (c k) * V2DT2 c * bg.wfc c
        + A.a k (c k) * 2 * VDT2 c * σ c * sc.wfc c + A.a k (c k) * bg.zeta k c
      else s.zetan k
    wfpsc := y.wSum + 2 * sc.wfc c - s.wfpsc
    psinsc := y.psin
    zetansc := fun k => if pml k then A.a k (c k) * V2DT2 c * sc.wfc c + A.a k (c k) * sc.zeta k c
      else s.zetansc k
    gv := if gv then s.gv + (bg.wfc c * 2 * V c * A.dt2 * w c * (A.ratio : R)
        + sc.wfc c * (2 * A.dt2 * σ c * w c + 2 * V c * A.dt2 * wsc c) * (A.ratio : R))
      else s.gv
    gs := if gs then s.gs + sc.wfc c * 2 * V c * A.dt2 * w c * (A.ratio : R) else s.gs }

/-- Body of `backward_kernel_sc` (`scalar_born.cu` 703-767). -/
def scThread (A : CArgs d ns nr R) (gs : Bool) (w : Fld d R) (sc : BwdBufs d R) (c : Cell d)
    (s : BwdCell d R) : BwdCell d R :=
  let pml := fun k => decide (c k < A.pmlB k) || decide (c k ≥ A.pmlE k)
  let V2DT2 := fun c => A.m c * A.m c * A.dt2
  let y := bwdTerms A (fun c => V2DT2 c * sc.wfc c) sc.psi sc.zeta c s.psin
  { wfp := y.wSum + 2 * sc.wfc c - s.wfp
    psin := y.psin
    zetan := fun k => if pml k then A.a k (c k) * V2DT2 c * sc.wfc c + A.a k (c k) * sc.zeta k c
      else s.zetan k
    grad := if gs then s.grad + sc.wfc c * 2 * A.m c * A.dt2 * w c * (A.ratio : R) else s.grad }

/-! ### Time steps -/

/-- How the threads of the launches of one time step are executed. -/
structure Sched (d m l S : ℕ) where
  /-- order of the threads of `forward_kernel`, `backward_kernel` or `backward_kernel_sc` -/
  order : List (Fin S × Cell d)
  /-- interleavings of the accesses to the two fields by the threads that add sources -/
  add : List (Access (Fin S × Fin m))
  addsc : List (Access (Fin S × Fin l))

structure Sched.Valid {m l : ℕ} (κ : Sched d m l S) (pad : ℕ) (n : Fin d → ℤ) : Prop where
  order : κ.order.Perm (work d S pad n)
  add : Interleaving κ.add
  addsc : Interleaving κ.addsc

/-- One iteration of the loop of `forward` (`scalar_born.cu` 1044-1188), with the pointers not
exchanged.  A thread of `add_sources_both` (221-235) accesses both fields. -/
def gStep (B : Batch d ns nr nq S R) (gv gs : Bool) (f fsc : Fin S → ℕ → Fin ns → R)
    (κ : Sched d ns ns S) (t : ℕ) (m : Fin S → FMem d nr nq R) : Fin S → FMem d nr nq R :=
  let storeStep := t % B.base.base.ratio == 0
  let storeW := storeStep && (gv || gs)
  let storeWsc := storeStep && gv
  let out := runKernel (fun s c => fwdThread (B.cfg s).base.fwdArgs (B.cfg s).scatter storeW storeWsc
      (m s).bg (m s).sc c) κ.order fun s c =>
    { wfp := (m s).bg.wfp c, psin := fun k => (m s).bg.psin k c, zeta := fun k => (m s).bg.zeta k c,
      wfpsc := (m s).sc.wfp c, psinsc := fun k => (m s).sc.psin k c,
      zetasc := fun k => (m s).sc.zeta k c,
      w := (m s).w (t / B.base.base.ratio) c, wsc := (m s).wsc (t / B.base.base.ratio) c }
  let wfp := addSources κ.add (fun s c => (out s c).wfp) B.src fun s => f s t
  let wfpsc := addSources κ.addsc (fun s c => (out s c).wfpsc) B.src fun s => fsc s t
  fun s =>
    { bg := FwdBufs.set (m s).bg (wfp s) (fun k c => (out s c).psin k) fun k c => (out s c).zeta k
      sc := FwdBufs.set (m s).sc (wfpsc s) (fun k c => (out s c).psinsc k)
        fun k c => (out s c).zetasc k
      w := if storeW then Function.update (m s).w (t / B.base.base.ratio) fun c => (out s c).w
        else (m s).w
      wsc := if storeWsc then Function.update (m s).wsc (t / B.base.base.ratio)
        fun c => (out s c).wsc else (m s).wsc
      rcd := Function.update (m s).rcd t (recordFrom (m s).bg.wfc (B.rcv s) ((m s).rcd t))
      rcdsc := Function.update (m s).rcdsc t
        (recordFrom (m s).sc.wfc (B.rcvsc s) ((m s).rcdsc t)) }

/-- One iteration of the loop of `backward` (`scalar_born.cu` 1482-1632), with the pointers not
exchanged. -/
def gBStep (B : Batch d ns nr nq S R) (gv gs : Bool) (w wsc : Fin S → ℕ → Fld d R)
    (gr : Fin S → ℕ → Fin nr → R) (grsc : Fin S → ℕ → Fin nq → R) (κ : Sched d nr nq S) (t : ℕ)
    (m : Fin S → BMem d ns R) : Fin S → BMem d ns R :=
  let loadW := t % B.base.base.ratio == 0 && (gv || gs)
  let out := runKernel (fun s c => bwdThread (B.cfg s).bwdArgs (B.cfg s).scatter (loadW && gv)
      (loadW && gs) (w s (t / B.base.base.ratio)) (wsc s (t / B.base.base.ratio)) (m s).bg (m s).sc c)
      κ.order fun s c =>
    { wfp := (m s).bg.wfp c, psin := fun k => (m s).bg.psin k c,
      zetan := fun k => (m s).bg.zetan k c, wfpsc := (m s).sc.wfp c,
      psinsc := fun k => (m s).sc.psin k c, zetansc := fun k => (m s).sc.zetan k c,
      gv := (m s).gv c, gs := (m s).gs c }
  let wfp := addSources κ.add (fun s c => (out s c).wfp) B.rcv fun s => gr s t
  let wfpsc := addSources κ.addsc (fun s c => (out s c).wfpsc) B.rcvsc fun s => grsc s t
  fun s =>
    { bg := BwdBufs.set (m s).bg (wfp s) (fun k c => (out s c).psin k) fun k c => (out s c).zetan k
      sc := BwdBufs.set (m s).sc (wfpsc s) (fun k c => (out s c).psinsc k)
        fun k c => (out s c).zetansc k
      gf := Function.update (m s).gf t (recordFrom (m s).bg.wfc (B.src s) ((m s).gf t))
      gfsc := Function.update (m s).gfsc t (recordFrom (m s).sc.wfc (B.src s) ((m s).gfsc t))
      gv := fun c => (out s c).gv
      gs := fun c => (out s c).gs }

/-- One iteration of the loop of `backward_sc` (`scalar_born.cu` 1868-1962). -/
def gSStep (B : Batch d ns nr nq S R) (gs : Bool) (w : Fin S → ℕ → Fld d R)
    (grsc : Fin S → ℕ → Fin nq → R) (κ : StepSched d nq S) (t : ℕ)
    (m : Fin S → SMem d ns R) : Fin S → SMem d ns R :=
  let loadW := t % B.base.base.ratio == 0 && gs
  let out := runKernel (fun s c => scThread (B.cfg s).bwdArgs loadW (w s (t / B.base.base.ratio))
      (m s).sc c) κ.order fun s c =>
    { wfp := (m s).sc.wfp c, psin := fun k => (m s).sc.psin k c,
      zetan := fun k => (m s).sc.zetan k c, grad := (m s).gs c }
  let wfp := addSources κ.add (fun s c => (out s c).wfp) B.rcvsc fun s => grsc s t
  fun s =>
    { sc := BwdBufs.set (m s).sc (wfp s) (fun k c => (out s c).psin k) fun k c => (out s c).zetan k
      gfsc := Function.update (m s).gfsc t (recordFrom (m s).sc.wfc (B.src s) ((m s).gfsc t))
      gs := fun c => (out s c).grad }

/-! ### Drivers -/

/-- `ScalarBornForwardFunc.forward` (`scalar_born.py` 598-938) on a CUDA device.  `κ t` is the
execution of the launches of time step `t`. -/
def Batch.gpuForward (B : Batch d ns nr nq S R) (gv gs : Bool) (cb : Option ℕ) (nt : ℕ)
    (f fsc : Fin S → ℕ → Fin ns → R) (w wsc : Fin S → Init d R) (κ : ℕ → Sched d ns ns S) :
    Except PyErr (BatchFResult d nr nq S R) :=
  if B.base.base.ratio = 0 then .error .zeroDivision else
  let cf := cb.getD (nt / B.base.base.ratio)
  if (0 < S ∧ 0 < nt) ∧ cf = 0 then .error .valueError else
  let m := gFwdPass FMem.swap (fun t => gStep B gv gs f fsc (κ t) t) B.base.base.ratio fView nt cf
    fun s => B.base.fInit (w s) (wsc s)
  .ok { out := fun s => unpadBufs B.base.base (m.1 s).bg
        outsc := fun s => unpadBufs B.base.base (m.1 s).sc
        rcd := fun s => (m.1 s).rcd, rcdsc := fun s => (m.1 s).rcdsc
        w := fun s => (m.1 s).w, wsc := fun s => (m.1 s).wsc
        events := if cb.isSome then m.2 else [] }

/-- `ScalarBornForwardFunc.backward` (`scalar_born.py` 941-1422) on a CUDA device, when `non_sc`
holds.  `comb` is the order of the threads of the launches of `combine_grad` (`scalar_born.cu`
314-345), for each call and model. -/
def Batch.gpuBackward (B : Batch d ns nr nq S R) (gv gs : Bool) (cb : Option ℕ) (nt : ℕ)
    (w wsc : Fin S → ℕ → Fld d R) (gr : Fin S → ℕ → Fin nr → R) (grsc : Fin S → ℕ → Fin nq → R)
    (g gsc : Fin S → Init d R) (κ : ℕ → Sched d nr nq S) (comb : ℕ → Bool → List (Cell d)) :
    Except PyErr (BatchBResult d ns S R) :=
  if B.base.base.ratio = 0 then .error .zeroDivision else
  let cf := cb.getD (nt / B.base.base.ratio)
  if (0 < S ∧ 0 < nt) ∧ cf = 0 then .error .valueError else
  let m := gBwdPass (slots d ns R) (B.flags gv gs) BMem.swap
    (fun t => gBStep B gv gs w wsc gr grsc (κ t) t) B.base.base.ratio
    (fun step m => (⟨step, fun s => (m.shots s).bg.wavefields, fun s => (m.shots s).sc.wavefields,
      m.grad false, m.grad true⟩ : BatchBEvent d S R)) comb nt cf fun s => B.base.bInit (g s) (gsc s)
  .ok { gv := m.1.grad false, gs := m.1.grad true
        gf := fun s => (m.1.shots s).gf, gfsc := fun s => (m.1.shots s).gfsc
        out := fun s => unpadBwd B.base.base (m.1.shots s).bg
        outsc := fun s => unpadBwd B.base.base (m.1.shots s).sc
        events := if cb.isSome then m.2 else [] }

/-- `ScalarBornForwardFunc.backward` (`scalar_born.py` 941-1422) on a CUDA device, when `non_sc` does
not hold. -/
def Batch.gpuBackwardSc (B : Batch d ns nr nq S R) (gs : Bool) (cb : Option ℕ) (nt : ℕ)
    (w : Fin S → ℕ → Fld d R) (grsc : Fin S → ℕ → Fin nq → R) (gsc : Fin S → Init d R)
    (κ : ℕ → StepSched d nq S) (comb : ℕ → Unit → List (Cell d)) :
    Except PyErr (BatchSResult d ns S R) :=
  if B.base.base.ratio = 0 then .error .zeroDivision else
  let cf := cb.getD (nt / B.base.base.ratio)
  if (0 < S ∧ 0 < nt) ∧ cf = 0 then .error .valueError else
  let m := gBwdPass (slotsSc d ns R) (B.flagsSc gs) SMem.swap
    (fun t => gSStep B gs w grsc (κ t) t) B.base.base.ratio
    (fun step m => (⟨step, fun s => (m.shots s).sc.wavefields, m.grad ()⟩ : BatchSEvent d S R))
    comb nt cf fun s => B.base.sInit (gsc s)
  .ok { gs := m.1.grad (), gfsc := fun s => (m.1.shots s).gfsc
        outsc := fun s => unpadBwd B.base.base (m.1.shots s).sc
        events := if cb.isSome then m.2 else [] }

/-! ### Equality with the CPU drivers -/

omit [Field R] in
theorem pml_iff (A : CArgs d ns nr R) (c : Cell d) (k : Fin d) :
    ((decide (c k < A.pmlB k) || decide (c k ≥ A.pmlE k)) = true) = ¬(A.regionOf c k = .mid) := by
  rw [← Gpu.pml_eq A c k]
  simp only [Bool.not_eq_true', Bool.not_eq_false]

theorem fwdThread_eq (A : CArgs d ns nr R) (σ : Fld d R) (save saveSc : Bool) (bg sc : FwdBufs d R)
    (c : Cell d) (s : BornCell d R) :
    fwdThread A σ save saveSc bg sc c s = bornBody A σ save saveSc bg sc (A.regionOf c) c s := by
  simp only [fwdThread, fwdTerms, bornBody, terms, Gpu.pml_eq]

theorem bwdThread_eq (A : CArgs d ns nr R) (σ : Fld d R) (gv gs : Bool) (w wsc : Fld d R)
    (bg sc : BwdBufs d R) (c : Cell d) (s : BBCell d R) :
    bwdThread A σ gv gs w wsc bg sc c s = bbBody A σ gv gs w wsc bg sc (A.regionOf c) c s := by
  simp only [bwdThread, bwdTerms, bbBody, bTerms, pml_iff, ite_not]

theorem scThread_eq (A : CArgs d ns nr R) (gs : Bool) (w : Fld d R) (sc : BwdBufs d R) (c : Cell d)
    (s : BwdCell d R) : scThread A gs w sc c s = scBody A gs w sc (A.regionOf c) c s := by
  simp only [scThread, bwdTerms, scBody, bTerms, pml_iff, ite_not]

omit [Field R] in
/-- A launch is the CPU's loop nest. -/
theorem run_visits {σ : Type*} {order : List (Fin S × Cell d)} {A : Fin S → CArgs d ns nr R}
    {pad : ℕ} {n : Fin d → ℤ} (hA : ∀ s, (A s).acc.pad = pad ∧ (A s).n = n)
    (ho : order.Perm (work d S pad n)) (hb : ∀ s, (A s).Ordered)
    (thread : Fin S → Cell d → σ → σ) (body : Fin S → (Fin d → Region) → Cell d → σ → σ)
    (h : ∀ s c x, thread s c x = body s ((A s).regionOf c) c x)
    (m : Fin S → Cell d → σ) (s : Fin S) (c : Cell d) :
    runKernel thread order m s c = foldUpdate (body s) (A s).visits (m s) c := by
  rw [runKernel_eq _ ho, CArgs.fold_visits (hb s), h]
  refine if_congr ?_ rfl rfl
  rw [← (hA s).1, ← (hA s).2]

variable {B : Batch d ns nr nq S R}

theorem gStep_eq (h : ∀ s, (B.cfg s).base.WF) (hs : Distinct B.src) (gv gs : Bool)
    (f fsc : Fin S → ℕ → Fin ns → R) {κ : Sched d ns ns S}
    (hκ : κ.Valid B.base.base.acc.pad B.base.base.n) (t : ℕ) (m : Fin S → FMem d nr nq R)
    (s : Fin S) : gStep B gv gs f fsc κ t m s =
      fStep (B.cfg s).base.fwdArgs (B.cfg s).scatter (B.cfg s).rcvsc gv gs (f s) (fsc s) t (m s) := by
  have hA : ∀ s, ((B.cfg s).base.fwdArgs).acc.pad = B.base.base.acc.pad ∧
      ((B.cfg s).base.fwdArgs).n = B.base.base.n := fun s => ⟨rfl, rfl⟩
  have hk := fun (save saveSc : Bool) (m₀ : Fin S → Cell d → BornCell d R) (s : Fin S) (c : Cell d) =>
    run_visits hA hκ.order (fun s => Cfg.ordered_fwd (h s))
    (fun s c => fwdThread (B.cfg s).base.fwdArgs (B.cfg s).scatter save saveSc (m s).bg (m s).sc c)
    (fun s => bornBody (B.cfg s).base.fwdArgs (B.cfg s).scatter save saveSc (m s).bg (m s).sc)
    (fun s c x => fwdThread_eq _ _ _ _ _ _ _ _) m₀ s c
  have e1 : (t % B.base.base.ratio == 0 && (gv || gs)) =
      ((gv && t % B.base.base.ratio == 0) || (gs && t % B.base.base.ratio == 0)) := by
    cases gv <;> cases gs <;> cases (t % B.base.base.ratio == 0) <;> rfl
  have e2 : (t % B.base.base.ratio == 0 && gv) = (gv && t % B.base.base.ratio == 0) :=
    Bool.and_comm _ _
  simp only [gStep, addSources_eq hκ.add _ hs, addSources_eq hκ.addsc _ hs, hk, e1, e2]
  rfl

theorem gBStep_eq (h : ∀ s, (B.cfg s).base.WF) (hr : Distinct B.rcv) (hq : Distinct B.rcvsc)
    (gv gs : Bool) (w wsc : Fin S → ℕ → Fld d R) (gr : Fin S → ℕ → Fin nr → R)
    (grsc : Fin S → ℕ → Fin nq → R) {κ : Sched d nr nq S}
    (hκ : κ.Valid B.base.base.acc.pad B.base.base.n) (t : ℕ) (m : Fin S → BMem d ns R)
    (s : Fin S) : gBStep B gv gs w wsc gr grsc κ t m s =
      bStepC (B.cfg s).bwdArgs (B.cfg s).scatter (B.cfg s).rcvsc gv gs (w s) (wsc s) (gr s) (grsc s) t
        (m s) := by
  have hA : ∀ s, ((B.cfg s).bwdArgs).acc.pad = B.base.base.acc.pad ∧
      ((B.cfg s).bwdArgs).n = B.base.base.n := fun s => ⟨rfl, rfl⟩
  have hk := fun (g1 g2 : Bool) (w wsc : Fin S → Fld d R) (m₀ : Fin S → Cell d → BBCell d R)
      (s : Fin S) (c : Cell d) =>
    run_visits hA hκ.order (fun s => Cfg.ordered_bwd (h s))
    (fun s c => bwdThread (B.cfg s).bwdArgs (B.cfg s).scatter g1 g2 (w s) (wsc s) (m s).bg (m s).sc c)
    (fun s => bbBody (B.cfg s).bwdArgs (B.cfg s).scatter g1 g2 (w s) (wsc s) (m s).bg (m s).sc)
    (fun s c x => bwdThread_eq _ _ _ _ _ _ _ _ _ _) m₀ s c
  have e1 : (t % B.base.base.ratio == 0 && (gv || gs) && gv) =
      (gv && t % B.base.base.ratio == 0) := by
    cases gv <;> cases gs <;> cases (t % B.base.base.ratio == 0) <;> rfl
  have e2 : (t % B.base.base.ratio == 0 && (gv || gs) && gs) =
      (gs && t % B.base.base.ratio == 0) := by
    cases gv <;> cases gs <;> cases (t % B.base.base.ratio == 0) <;> rfl
  simp only [gBStep, addSources_eq hκ.add _ hr, addSources_eq hκ.addsc _ hq, hk, e1, e2]
  rfl

theorem gSStep_eq (h : ∀ s, (B.cfg s).base.WF) (hq : Distinct B.rcvsc)
    (gs : Bool) (w : Fin S → ℕ → Fld d R) (grsc : Fin S → ℕ → Fin nq → R) {κ : StepSched d nq S}
    (hκ : κ.Valid B.base.base.acc.pad B.base.base.n) (t : ℕ) (m : Fin S → SMem d ns R)
    (s : Fin S) : gSStep B gs w grsc κ t m s =
      sStepC (B.cfg s).bwdArgs (B.cfg s).rcvsc gs (w s) (grsc s) t (m s) := by
  have hA : ∀ s, ((B.cfg s).bwdArgs).acc.pad = B.base.base.acc.pad ∧
      ((B.cfg s).bwdArgs).n = B.base.base.n := fun s => ⟨rfl, rfl⟩
  have hk := fun (g1 : Bool) (w : Fin S → Fld d R) (m₀ : Fin S → Cell d → BwdCell d R)
      (s : Fin S) (c : Cell d) =>
    run_visits hA hκ.order (fun s => Cfg.ordered_bwd (h s))
    (fun s c => scThread (B.cfg s).bwdArgs g1 (w s) (m s).sc c)
    (fun s => scBody (B.cfg s).bwdArgs g1 (w s) (m s).sc)
    (fun s c x => scThread_eq _ _ _ _ _ _) m₀ s c
  have e2 : (t % B.base.base.ratio == 0 && gs) = (gs && t % B.base.base.ratio == 0) :=
    Bool.and_comm _ _
  simp only [gSStep, addSources_eq hκ.add _ hq, hk, e2]
  rfl

theorem bStep_outside {C : BCfg d ns nr nq R} (h : C.base.WF) (gv gs : Bool)
    (w wsc : ℕ → Fld d R) (gr : ℕ → Fin nr → R) (grsc : ℕ → Fin nq → R) (t : ℕ) (m : BMem d ns R)
    (a : Bool) (c : Cell d) (hc : ¬∀ k, (C.base.acc.pad : ℤ) ≤ c k ∧ c k < C.base.n k - C.base.acc.pad) :
    (slots d ns R).get (bStepC C.bwdArgs C.scatter C.rcvsc gv gs w wsc gr grsc t
      ((slots d ns R).set 0 m)) a c = 0 := by
  have ho : C.bwdArgs.Ordered := Cfg.ordered_bwd h
  cases a <;> simp only [slots, bStepC, Pi.zero_apply] <;>
    (rw [CArgs.fold_visits ho, if_neg]; exact hc)

theorem sStep_outside {C : BCfg d ns nr nq R} (h : C.base.WF) (gs : Bool)
    (w : ℕ → Fld d R) (grsc : ℕ → Fin nq → R) (t : ℕ) (m : SMem d ns R)
    (a : Unit) (c : Cell d) (hc : ¬∀ k, (C.base.acc.pad : ℤ) ≤ c k ∧ c k < C.base.n k - C.base.acc.pad) :
    (slotsSc d ns R).get (sStepC C.bwdArgs C.rcvsc gs w grsc t ((slotsSc d ns R).set 0 m)) a c =
      0 := by
  have ho : C.bwdArgs.Ordered := Cfg.ordered_bwd h
  simp only [slotsSc, sStepC, Pi.zero_apply]
  rw [CArgs.fold_visits ho, if_neg]
  exact hc

theorem Batch.gpuForward_eq (h : ∀ s, (B.cfg s).base.WF) (hs : Distinct B.src) (gv gs : Bool)
    (cb : Option ℕ) (nt : ℕ) (f fsc : Fin S → ℕ → Fin ns → R) (w wsc : Fin S → Init d R)
    {κ : ℕ → Sched d ns ns S} (hκ : ∀ t, (κ t).Valid B.base.base.acc.pad B.base.base.n) :
    B.gpuForward gv gs cb nt f fsc w wsc κ = B.forward gv gs cb nt f fsc w wsc
      (lockSteps S B.base.base.ratio (nt / B.base.base.ratio)
        (cb.getD (nt / B.base.base.ratio))) := by
  simp only [Batch.gpuForward, Batch.forward,
    gFwdPass_eq fun t m s => gStep_eq h hs gv gs f fsc (hκ t) t m s]

theorem covers_cells {n : Fin d → ℤ} {pad : ℕ} {l : List (Cell d)} (hl : l.Perm (cells pad n)) :
    Covers (fun c => ∀ k, (pad : ℤ) ≤ c k ∧ c k < n k - pad) l :=
  ⟨hl.nodup_iff.2 (nodup_cells pad _), fun c hi => by
    rw [hl.mem_iff, mem_cells]
    exact hi⟩

theorem Batch.gpuBackward_eq (h : ∀ s, (B.cfg s).base.WF) (hr : Distinct B.rcv)
    (hq : Distinct B.rcvsc) (gv gs : Bool) (cb : Option ℕ) (nt : ℕ)
    (w wsc : Fin S → ℕ → Fld d R) (gr : Fin S → ℕ → Fin nr → R) (grsc : Fin S → ℕ → Fin nq → R)
    (g gsc : Fin S → Init d R) {κ : ℕ → Sched d nr nq S}
    (hκ : ∀ t, (κ t).Valid B.base.base.acc.pad B.base.base.n) {comb : ℕ → Bool → List (Cell d)}
    (hcomb : ∀ step a, (comb step a).Perm (cells B.base.base.acc.pad B.base.base.n)) :
    B.gpuBackward gv gs cb nt w wsc gr grsc g gsc κ comb =
      B.backward gv gs cb nt w wsc gr grsc g gsc
        (lockStepsB S B.base.base.ratio (cb.getD (nt / B.base.base.ratio))) := by
  have key := fun view => gBwdPass_eq (L := slots d ns R) (F := B.flags gv gs) (swap := BMem.swap)
    (gstep := fun t => gBStep B gv gs w wsc gr grsc (κ t) t) (ε := BatchBEvent d S R)
    (step := fun s => bStepC (B.cfg s).bwdArgs (B.cfg s).scatter (B.cfg s).rcvsc gv gs (w s) (wsc s)
      (gr s) (grsc s))
    (ratio := B.base.base.ratio) (fun step a => covers_cells (hcomb step a)) (by simp [Batch.flags])
    (fun t m s => gBStep_eq h hr hq gv gs w wsc gr grsc (hκ t) t m s) keeps_swap
    (fun s t => adds_bStep B (B.cfg s).bwdArgs (B.cfg s).scatter (B.cfg s).rcvsc gv gs (w s) (wsc s)
      (gr s) (grsc s) t)
    (fun s t m a x hx => bStep_outside (h s) _ _ _ _ _ _ _ _ _ _ hx) view nt
    (cb.getD (nt / B.base.base.ratio)) fun s => B.base.bInit (g s) (gsc s)
  simp only [Batch.gpuBackward, Batch.backward, key]

theorem Batch.gpuBackwardSc_eq (h : ∀ s, (B.cfg s).base.WF)
    (hq : Distinct B.rcvsc) (gs : Bool) (cb : Option ℕ) (nt : ℕ)
    (w : Fin S → ℕ → Fld d R) (grsc : Fin S → ℕ → Fin nq → R)
    (gsc : Fin S → Init d R) {κ : ℕ → StepSched d nq S}
    (hκ : ∀ t, (κ t).Valid B.base.base.acc.pad B.base.base.n) {comb : ℕ → Unit → List (Cell d)}
    (hcomb : ∀ step a, (comb step a).Perm (cells B.base.base.acc.pad B.base.base.n)) :
    B.gpuBackwardSc gs cb nt w grsc gsc κ comb =
      B.backwardSc gs cb nt w grsc gsc
        (lockStepsB S B.base.base.ratio (cb.getD (nt / B.base.base.ratio))) := by
  have key := fun view => gBwdPass_eq (L := slotsSc d ns R) (F := B.flagsSc gs) (swap := SMem.swap)
    (gstep := fun t => gSStep B gs w grsc (κ t) t) (ε := BatchSEvent d S R)
    (step := fun s => sStepC (B.cfg s).bwdArgs (B.cfg s).rcvsc gs (w s) (grsc s))
    (ratio := B.base.base.ratio) (fun step a => covers_cells (hcomb step a))
    (by simp [Batch.flagsSc])
    (fun t m s => gSStep_eq h hq gs w grsc (hκ t) t m s) keeps_swapSc
    (fun s t => adds_sStep B (B.cfg s).bwdArgs (B.cfg s).rcvsc gs (w s) (grsc s) t)
    (fun s t m a x hx => sStep_outside (h s) _ _ _ _ _ _ _ hx) view nt
    (cb.getD (nt / B.base.base.ratio)) fun s => B.base.sInit (gsc s)
  simp only [Batch.gpuBackwardSc, Batch.backwardSc, key]

end Dw.Born
