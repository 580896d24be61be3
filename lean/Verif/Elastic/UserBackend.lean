import Verif.Setup.Distinct
import Verif.Elastic.UserGrad
import Verif.Elastic.Python
import Verif.Props.GpuKernels

/-!
# `elastic` on the different backends

`UArgs.elastic` propagates one shot by the functions compiled for the CPU.  Here are the calls with all shots,
on the CPU with OpenMP threads and on a CUDA device, and the calls with `python_backend`.
-/

namespace Dw.Elastic

open Setup Resample
open Dw.Acoustic (Finite)
open Dw.Scalar (NoElements PmlOk WholeIgnored locAt)

variable {d : ℕ}

/-- `cfgOf` with the numbers of sources and receivers given, which are the same for all shots. -/
noncomputable def cfgN (np mp : ℕ) (nv mv : Fin d → ℕ) (rfmax : ℝ) (S : ShotIn d) : Cfg d np mp nv mv ℝ :=
  { acc := S.pml.acc, n := S.pml.n, w0 := S.pml.w0, w1 := S.pml.w1, dx := S.pml.dx, dt := S.pml.dt
    a := fun k i => (S.pml.ab 0 k i).1
    b := fun k i => ((S.pml.ab 0 k i).2).getD 0
    ah := fun k i => (S.pml.ab (1 / 2) k i).1
    bh := fun k i => ((S.pml.ab (1 / 2) k i).2).getD 0
    lam := S.model 0
    mu := S.model 1
    muS := prepareMuS S.pml.n rfmax (S.model 1)
    B := prepareB S.pml.n rfmax (S.model 2)
    srcP := fun i => (S.src d).getD i none
    srcV := fun k i => (S.src k).getD i none
    rcvP := fun i => (S.rcv d).getD i none
    rcvV := fun k i => (S.rcv k).getD i none
    ratio := S.every }

/-- What the driver gets for all shots; the shear moduli at the points of the stresses are batched if the shear
modulus is (`elastic.py` 23-124, 1405-1407). -/
noncomputable def batch (np mp : ℕ) (nv mv : Fin d → ℕ) (rfmax : ℝ) (P : Plan d) (S : ℕ → ShotIn d) :
    Batch d np mp nv mv P.nb ℝ :=
  { base := cfgN np mp nv mv rfmax (S 0)
    lam := fun s => (S s).model 0
    mu := fun s => (S s).model 1
    muS := fun s => prepareMuS (S 0).pml.n rfmax ((S s).model 1)
    B := fun s => prepareB (S 0).pml.n rfmax ((S s).model 2)
    lBatched := P.batched 0
    mBatched := P.batched 1
    bBatched := P.batched 2
    srcP := fun s i => ((S s).src d).getD i none
    srcV := fun s k i => ((S s).src k).getD i none
    rcvP := fun s i => ((S s).rcv d).getD i none
    rcvV := fun s k i => ((S s).rcv k).getD i none }

/-- Where and in which order a call is executed: on the CPU with `threads` threads, `σ step` being the execution of
the parallel loop of the chunk that starts at `step`, or on a CUDA device, `κ t` being the execution of the
launches of time step `t`. -/
inductive Device (d np : ℕ) (nv : Fin d → ℕ) (S : ℕ) where
  | cpu (threads : ℕ) (σ : ℕ → Dw.Batch.Exec S threads)
  | cuda (κ : ℕ → Sched d np nv S)

section
variable {np mp S : ℕ} {nv mv : Fin d → ℕ}

/-- The parallel loops run every shot's time steps in order; the grids of threads are those of `elastic.cu`. -/
def Device.Admissible (D : Device d np nv S) (B : Batch d np mp nv mv S ℝ) (cb : Option ℕ) (nt : ℕ) : Prop :=
  match D with
  | .cpu _ σ => Dw.Batch.FwdExecs B.base.ratio (nt / B.base.ratio) (cb.getD (nt / B.base.ratio)) σ
  | .cuda κ => Launches B κ

/-- `ElasticForwardFunc.forward` (`elastic.py` 1185-1568). -/
noncomputable def Device.forward (D : Device d np nv S) (B : Batch d np mp nv mv S ℝ) (gl gm gb : Bool) (cb : Option ℕ)
    (nt : ℕ) (fp : Fin S → ℕ → Fin np → ℝ) (fv : Fin S → (k : Fin d) → ℕ → Fin (nv k) → ℝ) (w : Fin S → Init d ℝ) :
    Except PyErr (BatchFResult d mp mv S ℝ) :=
  match D with
  | .cpu _ σ => B.forward gl gm gb cb nt fp fv w σ
  | .cuda κ => B.gpuForward gl gm gb cb nt fp fv w κ

open Classical in
/-- The part of `elastic` after the setup (`elastic.py` 914-1085), for all shots. -/
noncomputable def shotsWith (A : UArgs d) (w : ℕ → Init d ℝ) (cf : ℤ) (In : ℕ → ShotIn d) (D : Device d np nv S)
    (B : Batch d np mp nv mv S ℝ) : Except PyErr (Option (List (UShot d))) := do
  let r ← D.forward B A.gradL A.gradM A.gradB (A.opts.cb cf) (In 0).nt.toNat
    (fun s => scaleAmpP (B.cfg s) fun t i => (In s).amp d t i)
    (fun s => scaleAmpV (B.cfg s) fun k t i => (In s).amp k t i) (fun s => w s)
  return if Finite (In 0).pml then
    some (List.ofFn fun s => ⟨r.out s, fun k => (In s).traces (r.rcdV s k),
      fun i => ⟨((In s).traces (r.rcdP s) i).len, fun t => -((In s).traces (r.rcdP s) i).val t / d⟩,
      r.events.map fun e => e s⟩)
  else none

end

open Classical in
/-- `elastic` (`elastic.py` 600-1085) with all shots on the device `D`. -/
noncomputable def UArgs.elasticOn (A : UArgs d) (D : (np : ℕ) → (nv : Fin d → ℕ) → (S : ℕ) → Device d np nv S) :
    Except PyErr (Option (List (UShot d))) := do
  let _ ← raiseIf A.Pre .runtimeError
  let P ← A.setup.plan
  let cf ← checkCallbackFrequency A.opts.callbackFreq
  shotsWith A A.wf.init cf (shotIn A.setup P A.opts.timeTaper) (D _ _ _)
    (batch (locAt P.srcs d).n (locAt P.rcvs d).n (fun k => (locAt P.srcs k).n)
      (fun k => (locAt P.rcvs k).n) A.rfmax P (shotIn A.setup P A.opts.timeTaper))

open Classical in
/-- The part of `elastic` after the setup with `python_backend` (`elastic.py` 914-1085, 2717-2765). -/
noncomputable def UArgs.runPy (A : UArgs d) (w : Init d ℝ) (cf : ℤ) (S : ShotIn d) :
    Except PyErr (Option (UShot d)) := do
  let C := cfgOf A.rfmax S
  let r ← C.pyForward (A.opts.cb cf) S.nt.toNat
    (scaleAmpP C fun t i => S.amp d t i) (scaleAmpV C fun k t i => S.amp k t i) w
  return if Finite S.pml then
    some ⟨r.out, fun k => S.traces (r.rcdV k),
      fun i => ⟨(S.traces r.rcdP i).len, fun t => -(S.traces r.rcdP i).val t / d⟩, r.events⟩
  else none

/-- `elastic` (`elastic.py` 600-1085) with `python_backend`: the outputs for shot `s`. -/
noncomputable def UArgs.elasticPy (A : UArgs d) (s : ℕ) : Except PyErr (Option (UShot d)) :=
  call A.Pre A.setup A.opts.timeTaper A.opts.callbackFreq (A.runPy (A.wf.init s)) s

/-! ### Relation to the single shots -/

theorem cfgN_eq (rfmax : ℝ) (S : ShotIn d) : cfgN _ _ _ _ rfmax S = cfgOf rfmax S := by
  have key : ∀ l : List (Option (Cell d)), (fun i : Fin l.length => l.getD i none) = l.get := fun l => by
    funext i
    simp
  have h : ∀ (f : Fin d → List (Option (Cell d))), (fun k (i : Fin (f k).length) => (f k).getD i none) =
      fun k => (f k).get := fun f => funext fun k => key (f k)
  unfold cfgN cfgOf
  rw [key, key, h fun k => S.src k, h fun k => S.rcv k]

section
variable {np mp : ℕ} {nv mv : Fin d → ℕ} {S : ShotIn d}

theorem runWith_cfgN (A : UArgs d) (w : Init d ℝ) (cf : ℤ) (h1 : np = (S.src d).length) (h2 : mp = (S.rcv d).length)
    (h3 : nv = fun k : Fin d => (S.src k).length) (h4 : mv = fun k : Fin d => (S.rcv k).length) :
    runWith A w cf S (cfgN np mp nv mv A.rfmax S) = A.run w cf S := by
  subst h1 h2 h3 h4
  rw [cfgN_eq]
  rfl

theorem cfgN_wf {rfmax : ℝ} (h1 : np = (S.src d).length) (h2 : mp = (S.rcv d).length)
    (h3 : nv = fun k : Fin d => (S.src k).length) (h4 : mv = fun k : Fin d => (S.rcv k).length)
    (h : (cfgOf rfmax S).WF) : (cfgN np mp nv mv rfmax S).WF := by
  subst h1 h2 h3 h4
  rw [cfgN_eq]
  exact h

end

theorem batch_cfg {A : UArgs d} {P : Plan d} (h : A.setup.Good P) (np mp : ℕ) (nv mv : Fin d → ℕ) (s : Fin P.nb) :
    (batch np mp nv mv A.rfmax P (shotIn A.setup P A.opts.timeTaper)).cfg s =
      cfgN np mp nv mv A.rfmax (shotIn A.setup P A.opts.timeTaper s) := by
  have hm : ∀ j, (shotIn A.setup P A.opts.timeTaper (if P.batched j then s else 0 : ℕ)).model j =
      (shotIn A.setup P A.opts.timeTaper s).model j := fun j => by
    cases h1 : P.batched j
    · rw [shot_shared h _ s.isLt h1]
      rfl
    · rfl
  show ({cfgN np mp nv mv A.rfmax (shotIn A.setup P A.opts.timeTaper 0) with
    lam := (shotIn A.setup P A.opts.timeTaper (if P.batched 0 then s else 0 : ℕ)).model 0
    mu := (shotIn A.setup P A.opts.timeTaper (if P.batched 1 then s else 0 : ℕ)).model 1
    muS := prepareMuS _ A.rfmax ((shotIn A.setup P A.opts.timeTaper (if P.batched 1 then s else 0 : ℕ)).model 1)
    B := prepareB _ A.rfmax ((shotIn A.setup P A.opts.timeTaper (if P.batched 2 then s else 0 : ℕ)).model 2)
    srcP := _, srcV := _, rcvP := _, rcvV := _ } : Cfg d np mp nv mv ℝ) = _
  rw [hm, hm, hm]
  rfl

end Dw.Elastic
