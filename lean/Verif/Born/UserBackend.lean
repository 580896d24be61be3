import Verif.Setup.Distinct
import Verif.Born.UserGrad
import Verif.Born.Python
import Verif.Props.GpuKernels

/-!
# `scalar_born` on the different backends

`UArgs.born` propagates one shot by the functions compiled for the CPU.  Here are the calls with all shots,
on the CPU with OpenMP threads and on a CUDA device, and the calls with `python_backend`.
-/

namespace Dw.Born

open Setup Resample
open Dw.Scalar (NoElements PmlOk WholeIgnored locAt Init)

variable {d : ℕ}

/-- `cfgOf` with the numbers of sources and receivers given, which are the same for all shots. -/
noncomputable def cfgN (ns nr nq : ℕ) (S : ShotIn d) : BCfg d ns nr nq ℝ :=
  { base :=
      { acc := S.pml.acc, n := S.pml.n, w0 := S.pml.w0, w1 := S.pml.w1, dx := S.pml.dx, dt := S.pml.dt
        a := fun k i => (S.pml.ab 0 k i).1
        b := fun k i => ((S.pml.ab 0 k i).2).getD 0
        db := fun k i => (S.pml.db k i).getD 0
        v := S.model 0
        src := fun i => (S.src 0).getD i none
        rcv := fun i => (S.rcv 0).getD i none
        ratio := S.every }
    scatter := S.model 1
    rcvsc := fun i => (S.rcv 1).getD i none }

/-- What the driver gets for all shots (`v_batched`, `scatter_batched`, `scalar_born.py` 791-792). -/
noncomputable def batch (ns nr nq : ℕ) (P : Plan d) (S : ℕ → ShotIn d) : Batch d ns nr nq P.nb ℝ :=
  { base := cfgN ns nr nq (S 0)
    v := fun s => (S s).model 0
    scatter := fun s => (S s).model 1
    vBatched := P.batched 0
    scBatched := P.batched 1
    src := fun s i => ((S s).src 0).getD i none
    rcv := fun s i => ((S s).rcv 0).getD i none
    rcvsc := fun s i => ((S s).rcv 1).getD i none }

/-- Where and in which order a call is executed: on the CPU with `threads` threads, `σ step` being the execution of
the parallel loop of the chunk that starts at `step`, or on a CUDA device, `κ t` being the execution of the
launches of time step `t`. -/
inductive Device (d ns S : ℕ) where
  | cpu (threads : ℕ) (σ : ℕ → Dw.Batch.Exec S threads)
  | cuda (κ : ℕ → Sched d ns ns S)

section
variable {ns nr nq S : ℕ}

/-- The parallel loops run every shot's time steps in order; the grids of threads are those of
`scalar_born.cu`. -/
def Device.Admissible (D : Device d ns S) (B : Batch d ns nr nq S ℝ) (cb : Option ℕ) (nt : ℕ) : Prop :=
  match D with
  | .cpu _ σ => Dw.Batch.FwdExecs B.base.base.ratio (nt / B.base.base.ratio) (cb.getD (nt / B.base.base.ratio)) σ
  | .cuda κ => Launches B κ

/-- `ScalarBornForwardFunc.forward` (`scalar_born.py` 598-938). -/
noncomputable def Device.forward (D : Device d ns S) (B : Batch d ns nr nq S ℝ) (gv gs : Bool) (cb : Option ℕ)
    (nt : ℕ) (f fsc : Fin S → ℕ → Fin ns → ℝ) (w wsc : Fin S → Init d ℝ) :
    Except PyErr (BatchFResult d nr nq S ℝ) :=
  match D with
  | .cpu _ σ => B.forward gv gs cb nt f fsc w wsc σ
  | .cuda κ => B.gpuForward gv gs cb nt f fsc w wsc κ

open Classical in
/-- The part of `scalar_born` after the setup (`scalar_born.py` 493-590), for all shots. -/
noncomputable def shotsWith (A : UArgs d) (w wsc : ℕ → Init d ℝ) (cf : ℤ) (In : ℕ → ShotIn d) (D : Device d ns S)
    (B : Batch d ns nr nq S ℝ) : Except PyErr (Option (List (UShot d))) := do
  let r ← D.forward B A.gradV A.gradS (A.opts.cb cf) (In 0).nt.toNat
    (fun s => scaleAmp (B.cfg s).base fun t i => (In s).amp 0 t i)
    (fun s => scaleAmpSc (B.cfg s) fun t i => (In s).amp 1 t i) (fun s => w s) (fun s => wsc s)
  return if Scalar.Finite (In 0).pml then
    some (List.ofFn fun s => ⟨r.out s, r.outsc s, (In s).traces (r.rcd s), (In s).traces (r.rcdsc s),
      r.events.map fun e => e s⟩)
  else none

end

open Classical in
/-- `scalar_born` (`scalar_born.py` 357-590) with all shots on the device `D`. -/
noncomputable def UArgs.bornOn (A : UArgs d) (D : (ns S : ℕ) → Device d ns S) :
    Except PyErr (Option (List (UShot d))) := do
  let _ ← raiseIf (NoElements A.v) .runtimeError
  let P ← A.setup.plan
  let cf ← checkCallbackFrequency A.opts.callbackFreq
  shotsWith A A.wf.init A.wfsc.init cf (shotIn A.setup P A.opts.timeTaper) (D _ _)
    (batch (locAt P.srcs 0).n (locAt P.rcvs 0).n (locAt P.rcvs 1).n P (shotIn A.setup P A.opts.timeTaper))

open Classical in
/-- The part of `scalar_born` after the setup with `python_backend` (`scalar_born.py` 493-590, 1742-1793). -/
noncomputable def UArgs.runPy (A : UArgs d) (w wsc : Init d ℝ) (cf : ℤ) (S : ShotIn d) :
    Except PyErr (Option (UShot d)) := do
  let C := cfgOf S
  let r ← C.pyForward (A.opts.cb cf) S.nt.toNat
    (scaleAmp C.base fun t i => S.amp 0 t i) (scaleAmpSc C fun t i => S.amp 1 t i) w wsc
  return if Scalar.Finite S.pml then some ⟨r.out, r.outsc, S.traces r.rcd, S.traces r.rcdsc, r.events⟩ else none

/-- `scalar_born` (`scalar_born.py` 357-590) with `python_backend`: the outputs for shot `s`. -/
noncomputable def UArgs.bornPy (A : UArgs d) (s : ℕ) : Except PyErr (Option (UShot d)) :=
  call (NoElements A.v) A.setup A.opts.timeTaper A.opts.callbackFreq (A.runPy (A.wf.init s) (A.wfsc.init s)) s

/-! ### Relation to the single shots -/

theorem cfgN_eq (S : ShotIn d) : cfgN _ _ _ S = cfgOf S := by
  have key : ∀ l : List (Option (Cell d)), (fun i : Fin l.length => l.getD i none) = l.get := fun l => by
    funext i
    simp
  unfold cfgN cfgOf
  rw [key, key, key]

section
variable {ns nr nq : ℕ} {S : ShotIn d}

theorem runWith_cfgN (A : UArgs d) (w wsc : Init d ℝ) (cf : ℤ) (h1 : ns = (S.src 0).length)
    (h2 : nr = (S.rcv 0).length) (h3 : nq = (S.rcv 1).length) :
    runWith A w wsc cf S (cfgN ns nr nq S) = A.run w wsc cf S := by
  subst h1 h2 h3
  rw [cfgN_eq]
  rfl

theorem cfgN_wf (h1 : ns = (S.src 0).length) (h2 : nr = (S.rcv 0).length) (h3 : nq = (S.rcv 1).length)
    (h : (cfgOf S).WF) : (cfgN ns nr nq S).WF := by
  subst h1 h2 h3
  rw [cfgN_eq]
  exact h

end

theorem batch_cfg {A : UArgs d} {P : Plan d} (h : A.setup.Good P) (ns nr nq : ℕ) (s : Fin P.nb) :
    (batch ns nr nq P (shotIn A.setup P A.opts.timeTaper)).cfg s =
      cfgN ns nr nq (shotIn A.setup P A.opts.timeTaper s) := by
  have hm : ∀ j, (shotIn A.setup P A.opts.timeTaper (if P.batched j then s else 0 : ℕ)).model j =
      (shotIn A.setup P A.opts.timeTaper s).model j := fun j => by
    cases h1 : P.batched j
    · rw [shot_shared h _ s.isLt h1]
      rfl
    · rfl
  show ({ base := {(cfgN ns nr nq (shotIn A.setup P A.opts.timeTaper 0)).base with
      v := (shotIn A.setup P A.opts.timeTaper (if P.batched 0 then s else 0 : ℕ)).model 0, src := _, rcv := _}
          scatter := (shotIn A.setup P A.opts.timeTaper (if P.batched 1 then s else 0 : ℕ)).model 1
          rcvsc := _ } : BCfg d ns nr nq ℝ) = _
  rw [hm, hm]
  rfl

end Dw.Born
