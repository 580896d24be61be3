import Verif.Core.Batch
import Verif.Born.Model

/-!
# The Born propagator with several shots and threads

`scalar_born.c` and `scalar_born.py` for `n_shots` shots (see `Verif/Core/Batch.lean` for the parallel
loops, the thread buffers and the chunk loops).
-/

namespace Dw.Born

open Dw.Scalar (Init Cfg CArgs FwdBufs BwdBufs BwdCell Wavefields Region addTo recordFrom)

variable {d ns nr nq S P : ℕ} {R : Type*} [Field R]

/-- Arguments of the drivers for `S` shots. -/
structure Batch (d ns nr nq S : ℕ) (R : Type*) where
  /-- everything that does not depend on the shot (the models, sources and receivers of `base` are
  not used) -/
  base : BCfg d ns nr nq R
  /-- blocks of the models: block `s` starts at `s * n_grid_points` -/
  v : ℕ → Fld d R
  scatter : ℕ → Fld d R
  /-- `v_batched`, `scatter_batched` (`scalar_born.py` 791-792, 1081-1082) -/
  vBatched : Bool
  scBatched : Bool
  src : Fin S → Fin ns → Option (Cell d)
  rcv : Fin S → Fin nr → Option (Cell d)
  rcvsc : Fin S → Fin nq → Option (Cell d)

/-- What shot `s` sees: `v_shot`, `scatter_shot`, `sources_i + si`, `receivers_i + ri`,
`receiverssc_i + risc` (`scalar_born.c` 287-300, 706-720, 1107-1116). -/
def Batch.cfg (B : Batch d ns nr nq S R) (s : Fin S) : BCfg d ns nr nq R :=
  { base := { B.base.base with
      v := B.v (if B.vBatched then s else 0), src := B.src s, rcv := B.rcv s }
    scatter := B.scatter (if B.scBatched then s else 0)
    rcvsc := B.rcvsc s }

structure BatchFResult (d nr nq S : ℕ) (R : Type*) where
  out : Fin S → Wavefields d R
  outsc : Fin S → Wavefields d R
  rcd : Fin S → ℕ → Fin nr → R
  rcdsc : Fin S → ℕ → Fin nq → R
  w : Fin S → ℕ → Fld d R
  wsc : Fin S → ℕ → Fld d R
  events : List (Fin S → FEvent d R)

/-- `ScalarBornForwardFunc.forward` (`scalar_born.py` 598-938). -/
def Batch.forward (B : Batch d ns nr nq S R) (gv gs : Bool) (cb : Option ℕ) (nt : ℕ)
    (f fsc : Fin S → ℕ → Fin ns → R) (w wsc : Fin S → Init d R) (σ : ℕ → Batch.Exec S P) :
    Except PyErr (BatchFResult d nr nq S R) :=
  if B.base.base.ratio = 0 then .error .zeroDivision else
  let cf := cb.getD (nt / B.base.base.ratio)
  if (0 < S ∧ 0 < nt) ∧ cf = 0 then .error .valueError else
  let m := Batch.fwdPass FMem.swap
    (fun s => fStep (B.cfg s).base.fwdArgs (B.cfg s).scatter (B.cfg s).rcvsc gv gs (f s) (fsc s))
    B.base.base.ratio fView σ nt cf fun s => B.base.fInit (w s) (wsc s)
  .ok { out := fun s => unpadBufs B.base.base (m.1 s).bg
        outsc := fun s => unpadBufs B.base.base (m.1 s).sc
        rcd := fun s => (m.1 s).rcd, rcdsc := fun s => (m.1 s).rcdsc
        w := fun s => (m.1 s).w, wsc := fun s => (m.1 s).wsc
        events := if cb.isSome then m.2 else [] }

/-- The model gradients of `backward`: `false` is `grad_v`, `true` is `grad_scatter`. -/
def slots (d ns : ℕ) (R : Type*) : Batch.Slots (BMem d ns R) Bool (Cell d) R where
  get := fun m a => match a with
    | false => m.gv
    | true => m.gs
  set := fun g m => { m with gv := g false, gs := g true }
  get_set := fun g m => by funext a; cases a <;> rfl
  set_set := fun _ _ _ => rfl
  set_get := fun _ => rfl

/-- The model gradient of `backward_sc`. -/
def slotsSc (d ns : ℕ) (R : Type*) : Batch.Slots (SMem d ns R) Unit (Cell d) R where
  get := fun m _ => m.gs
  set := fun g m => { m with gs := g () }
  get_set := fun _ _ => rfl
  set_set := fun _ _ _ => rfl
  set_get := fun _ => rfl

/-- `combine_grad` adds up all elements (`common_cpu.h` 32-43). -/
def Batch.flags (B : Batch d ns nr nq S R) (gv gs : Bool) : Batch.Flags Bool (Cell d) where
  req := fun a => if a then gs else gv
  batched := fun a => if a then B.scBatched else B.vBatched
  combined := fun _ => true

def Batch.flagsSc (B : Batch d ns nr nq S R) (gs : Bool) : Batch.Flags Unit (Cell d) where
  req := fun _ => gs
  batched := fun _ => B.scBatched
  combined := fun _ => true

/-- State shown to a backward callback (`scalar_born.py` 1278-1318): the wavefields of all shots and
the gradients, by block. -/
structure BatchBEvent (d S : ℕ) (R : Type*) where
  step : ℕ
  bg : Fin S → Wavefields d R
  sc : Fin S → Wavefields d R
  gv : ℕ → Fld d R
  gs : ℕ → Fld d R

structure BatchBResult (d ns S : ℕ) (R : Type*) where
  /-- blocks of the returned gradients; only block 0 exists if the model is not batched -/
  gv : ℕ → Fld d R
  gs : ℕ → Fld d R
  gf : Fin S → ℕ → Fin ns → R
  gfsc : Fin S → ℕ → Fin ns → R
  out : Fin S → Wavefields d R
  outsc : Fin S → Wavefields d R
  events : List (BatchBEvent d S R)

/-- `ScalarBornForwardFunc.backward` (`scalar_born.py` 941-1422) when `non_sc` holds. -/
def Batch.backward (B : Batch d ns nr nq S R) (gv gs : Bool) (cb : Option ℕ) (nt : ℕ)
    (w wsc : Fin S → ℕ → Fld d R) (gr : Fin S → ℕ → Fin nr → R) (grsc : Fin S → ℕ → Fin nq → R)
    (g gsc : Fin S → Init d R) (σ : ℕ → Batch.Exec S P) : Except PyErr (BatchBResult d ns S R) :=
  if B.base.base.ratio = 0 then .error .zeroDivision else
  let cf := cb.getD (nt / B.base.base.ratio)
  if (0 < S ∧ 0 < nt) ∧ cf = 0 then .error .valueError else
  let m := Batch.bwdPass (slots d ns R) (B.flags gv gs) BMem.swap
    (fun s => bStepC (B.cfg s).bwdArgs (B.cfg s).scatter (B.cfg s).rcvsc gv gs (w s) (wsc s) (gr s)
      (grsc s)) B.base.base.ratio
    (fun step m => (⟨step, fun s => (m.shots s).bg.wavefields, fun s => (m.shots s).sc.wavefields,
      m.grad false, m.grad true⟩ : BatchBEvent d S R)) σ nt cf fun s => B.base.bInit (g s) (gsc s)
  .ok { gv := m.1.grad false, gs := m.1.grad true
        gf := fun s => (m.1.shots s).gf, gfsc := fun s => (m.1.shots s).gfsc
        out := fun s => unpadBwd B.base.base (m.1.shots s).bg
        outsc := fun s => unpadBwd B.base.base (m.1.shots s).sc
        events := if cb.isSome then m.2 else [] }

structure BatchSEvent (d S : ℕ) (R : Type*) where
  step : ℕ
  sc : Fin S → Wavefields d R
  gs : ℕ → Fld d R

structure BatchSResult (d ns S : ℕ) (R : Type*) where
  gs : ℕ → Fld d R
  gfsc : Fin S → ℕ → Fin ns → R
  outsc : Fin S → Wavefields d R
  events : List (BatchSEvent d S R)

/-- `scalar_born.py` 1000-1055, 1319-1330. -/
def BCfg.sInit (B : BCfg d ns nr nq R) (gsc : Init d R) : SMem d ns R :=
  ⟨B.base.initBwdBufs gsc, fun _ _ => 0, fun _ => 0⟩

/-- `ScalarBornForwardFunc.backward` (`scalar_born.py` 941-1422) when `non_sc` does not hold. -/
def Batch.backwardSc (B : Batch d ns nr nq S R) (gs : Bool) (cb : Option ℕ) (nt : ℕ)
    (w : Fin S → ℕ → Fld d R) (grsc : Fin S → ℕ → Fin nq → R)
    (gsc : Fin S → Init d R) (σ : ℕ → Batch.Exec S P) : Except PyErr (BatchSResult d ns S R) :=
  if B.base.base.ratio = 0 then .error .zeroDivision else
  let cf := cb.getD (nt / B.base.base.ratio)
  if (0 < S ∧ 0 < nt) ∧ cf = 0 then .error .valueError else
  let m := Batch.bwdPass (slotsSc d ns R) (B.flagsSc gs) SMem.swap
    (fun s => sStepC (B.cfg s).bwdArgs (B.cfg s).rcvsc gs (w s) (grsc s)) B.base.base.ratio
    (fun step m => (⟨step, fun s => (m.shots s).sc.wavefields, m.grad ()⟩ : BatchSEvent d S R))
    σ nt cf fun s => B.base.sInit (gsc s)
  .ok { gs := m.1.grad (), gfsc := fun s => (m.1.shots s).gfsc
        outsc := fun s => unpadBwd B.base.base (m.1.shots s).sc
        events := if cb.isSome then m.2 else [] }

/-! ### The kernels only add to the gradients -/

omit [Field R] in
theorem keeps_swap : Batch.Keeps (slots d ns R) BMem.swap :=
  ⟨fun _ => rfl, fun _ _ => rfl⟩

omit [Field R] in
theorem keeps_swapSc : Batch.Keeps (slotsSc d ns R) SMem.swap :=
  ⟨fun _ => rfl, fun _ _ => rfl⟩

theorem bb_rel (A : CArgs d ns nr R) (σ : Fld d R) (gv gs : Bool) (w wsc : Fld d R)
    (bg sc : BwdBufs d R) (l) (m : Cell d → BBCell d R) (g : Bool → Fld d R) (c : Cell d) :
    let x := foldUpdate (bbBody A σ gv gs w wsc bg sc) l
      (fun c => { m c with gv := g false c, gs := g true c }) c
    let y := foldUpdate (bbBody A σ gv gs w wsc bg sc) l (fun c => { m c with gv := 0, gs := 0 }) c
    (x.wfp = y.wfp ∧ x.psin = y.psin ∧ x.zetan = y.zetan) ∧
      (x.wfpsc = y.wfpsc ∧ x.psinsc = y.psinsc ∧ x.zetansc = y.zetansc) ∧
      (x.gv = g false c + y.gv ∧ (gv = false → y.gv = 0)) ∧
      (x.gs = g true c + y.gs ∧ (gs = false → y.gs = 0)) := by
  refine foldUpdate_rel (Q := fun c (x y : BBCell d R) =>
    (x.wfp = y.wfp ∧ x.psin = y.psin ∧ x.zetan = y.zetan) ∧
      (x.wfpsc = y.wfpsc ∧ x.psinsc = y.psinsc ∧ x.zetansc = y.zetansc) ∧
      (x.gv = g false c + y.gv ∧ (gv = false → y.gv = 0)) ∧
      (x.gs = g true c + y.gs ∧ (gs = false → y.gs = 0))) ?_ ?_ c
  · intro c; simp
  · rintro v - s s' ⟨⟨h1, h2, h3⟩, ⟨h4, h5, h6⟩, ⟨h7, h8⟩, ⟨h9, h10⟩⟩
    refine ⟨⟨?_, ?_, ?_⟩, ⟨?_, ?_, ?_⟩, ⟨?_, ?_⟩, ⟨?_, ?_⟩⟩
    · simp only [bbBody, bTerms, h1]
    · simp only [bbBody, bTerms, h2]
    · simp only [bbBody, bTerms, h3]
    · simp only [bbBody, bTerms, h4]
    · simp only [bbBody, bTerms, h5]
    · simp only [bbBody, bTerms, h6]
    · simp only [bbBody, h7]
      cases gv
      · rfl
      · exact add_assoc _ _ _
    · intro hl; simpa [bbBody, hl] using h8 hl
    · simp only [bbBody, h9]
      cases gs
      · rfl
      · exact add_assoc _ _ _
    · intro hl; simpa [bbBody, hl] using h10 hl

theorem sc_rel (A : CArgs d ns nr R) (gs : Bool) (w : Fld d R) (sc : BwdBufs d R) (l)
    (m : Cell d → BwdCell d R) (g : Fld d R) (c : Cell d) :
    let x := foldUpdate (scBody A gs w sc) l (fun c => { m c with grad := g c }) c
    let y := foldUpdate (scBody A gs w sc) l (fun c => { m c with grad := 0 }) c
    (x.wfp = y.wfp ∧ x.psin = y.psin ∧ x.zetan = y.zetan) ∧
      (x.grad = g c + y.grad ∧ (gs = false → y.grad = 0)) := by
  refine foldUpdate_rel (Q := fun c (x y : BwdCell d R) =>
    (x.wfp = y.wfp ∧ x.psin = y.psin ∧ x.zetan = y.zetan) ∧
      (x.grad = g c + y.grad ∧ (gs = false → y.grad = 0))) ?_ ?_ c
  · intro c; simp
  · rintro v - s s' ⟨⟨h1, h2, h3⟩, h7, h8⟩
    refine ⟨⟨?_, ?_, ?_⟩, ?_, ?_⟩
    · simp only [scBody, bTerms, h1]
    · simp only [scBody, bTerms, h2]
    · simp only [scBody, bTerms, h3]
    · simp only [scBody, h7]
      cases gs
      · rfl
      · exact add_assoc _ _ _
    · intro hl; simpa [scBody, hl] using h8 hl

theorem adds_bStep (B : Batch d ns nr nq S R) (A : CArgs d ns nr R) (σ : Fld d R)
    (rcvsc : Fin nq → Option (Cell d)) (gv gs : Bool)
    (w wsc : ℕ → Fld d R) (gr : ℕ → Fin nr → R) (grsc : ℕ → Fin nq → R) (t : ℕ) :
    Batch.Adds (slots d ns R) (B.flags gv gs) (bStepC A σ rcvsc gv gs w wsc gr grsc t) := by
  have hv := fun (g : Bool → Cell d → R) (m : BMem d ns R) =>
    bb_rel A σ (gv && t % A.ratio == 0) (gs && t % A.ratio == 0) (w (t / A.ratio)) (wsc (t / A.ratio))
      m.bg m.sc A.visits (fun c =>
        { wfp := m.bg.wfp c, psin := fun k => m.bg.psin k c, zetan := fun k => m.bg.zetan k c,
          wfpsc := m.sc.wfp c, psinsc := fun k => m.sc.psin k c,
          zetansc := fun k => m.sc.zetan k c, gv := 0, gs := 0 }) g
  refine ⟨fun g m => ?_, fun g m a c => ?_, fun m a c ha => ?_, fun m a c hc => ?_⟩
  · simp only [slots, bStepC, Pi.zero_apply]
    simp only [fun c => (hv g m c).1.1, fun c => (hv g m c).1.2.1, fun c => (hv g m c).1.2.2,
      fun c => (hv g m c).2.1.1, fun c => (hv g m c).2.1.2.1, fun c => (hv g m c).2.1.2.2]
  · cases a
    · simp only [slots, bStepC, Pi.zero_apply]
      exact (hv g m c).2.2.1.1
    · simp only [slots, bStepC, Pi.zero_apply]
      exact (hv g m c).2.2.2.1
  · cases a
    · simp only [Batch.flags, Bool.false_eq_true, if_false] at ha
      simp only [slots, bStepC, Pi.zero_apply]
      exact (hv 0 m c).2.2.1.2 (by simp [ha])
    · simp only [Batch.flags, if_true] at ha
      simp only [slots, bStepC, Pi.zero_apply]
      exact (hv 0 m c).2.2.2.2 (by simp [ha])
  · simp [Batch.flags] at hc

theorem adds_sStep (B : Batch d ns nr nq S R) (A : CArgs d ns nr R)
    (rcvsc : Fin nq → Option (Cell d)) (gs : Bool)
    (w : ℕ → Fld d R) (grsc : ℕ → Fin nq → R) (t : ℕ) :
    Batch.Adds (slotsSc d ns R) (B.flagsSc gs) (sStepC A rcvsc gs w grsc t) := by
  have hv := fun (g : Cell d → R) (m : SMem d ns R) =>
    sc_rel A (gs && t % A.ratio == 0) (w (t / A.ratio))
      m.sc A.visits (fun c =>
        { wfp := m.sc.wfp c, psin := fun k => m.sc.psin k c, zetan := fun k => m.sc.zetan k c,
          grad := 0 }) g
  refine ⟨fun g m => ?_, fun g m a c => ?_, fun m a c ha => ?_, fun m a c hc => ?_⟩
  · simp only [slotsSc, sStepC, Pi.zero_apply]
    simp only [fun c => (hv (g ()) m c).1.1, fun c => (hv (g ()) m c).1.2.1,
      fun c => (hv (g ()) m c).1.2.2]
  · simp only [slotsSc, sStepC, Pi.zero_apply]
    exact (hv (g ()) m c).2.1
  · simp only [Batch.flagsSc] at ha
    simp only [slotsSc, sStepC, Pi.zero_apply]
    exact (hv 0 m c).2.2 (by simp [ha])
  · simp [Batch.flagsSc] at hc

end Dw.Born
