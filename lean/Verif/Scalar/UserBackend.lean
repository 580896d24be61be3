import Verif.Setup.Distinct
import Verif.Scalar.UserWF
import Verif.Scalar.Python
import Verif.Props.GpuScalar

/-!
# `scalar` on the different backends

`UArgs.scalar` propagates one shot by the functions compiled for the CPU.  Here are the calls with all shots,
on the CPU with OpenMP threads and on a CUDA device, and the calls with `python_backend`.
-/

namespace Dw.Scalar

open Setup Resample

variable {d : ℕ}

/-- What the driver gets for all shots: the blocks of the velocity, which is shared if its batch dimension has
size 1 (`v_batched`, `scalar.py` 797). -/
noncomputable def batch (ns nr : ℕ) (P : Plan d) : Batch d ns nr P.nb ℝ :=
  let m := P.models.getD 0 ⟨none, fun _ => 0, fun _ _ => 0⟩
  { base := cfg ns nr P 0
    v := m.val
    batched := 1 < m.nb.getD 1
    src := fun s => (cfg ns nr P s).src
    rcv := fun s => (cfg ns nr P s).rcv }

/-- Where and in which order a call is executed: on the CPU with `threads` threads, `σ step` being the execution of
the parallel loop of the chunk that starts at `step`, or on a CUDA device, `κ t` being the execution of the
launches of time step `t`. -/
inductive Device (d ns S : ℕ) where
  | cpu (threads : ℕ) (σ : ℕ → Sched S threads)
  | cuda (κ : ℕ → Gpu.StepSched d ns S)

/-- The parallel loops run every shot's time steps in order; the grids of threads are those of `scalar.cu`. -/
def Device.Admissible {ns nr S : ℕ} (D : Device d ns S) (B : Batch d ns nr S ℝ) (cb : Option ℕ) (nt : ℕ) : Prop :=
  match D with
  | .cpu _ σ => B.FwdSched cb nt σ
  | .cuda κ => Gpu.Launches B κ

/-- `ScalarForwardFunc.forward` (`scalar.py` 600-934). -/
noncomputable def Device.forward {ns nr S : ℕ} (D : Device d ns S) (B : Batch d ns nr S ℝ) (grad : Bool)
    (cb : Option ℕ) (nt : ℕ) (f : Fin S → ℕ → Fin ns → ℝ) (w : Fin S → Init d ℝ) :
    Except PyErr (BatchFwdResult d nr S ℝ) :=
  match D with
  | .cpu _ σ => B.forward grad cb nt f w σ
  | .cuda κ => Gpu.gpuForward B grad cb nt f w κ

open Classical in
/-- The part of `scalar` after the setup (`scalar.py` 510-590), for all shots. -/
noncomputable def UArgs.shots (A : UArgs d) (P : Plan d) (cf : ℤ) (ns nr : ℕ) (D : Device d ns P.nb) :
    Except PyErr (Option (List (UShot d))) := do
  let r ← D.forward (batch ns nr P) A.grad (if A.callback then some cf.toNat else none) P.nt.toNat
    (fun s => Born.scaleAmp (cfg ns nr P s) fun t i => upAmps P A.timeTaper A.amps s t i) (fun s => A.init s)
  return if Finite (P.pml false) then
    some (List.ofFn fun s => ⟨r.out s, fun i => if h : i < nr then
      downS P A.timeTaper ⟨P.nt.toNat, fun t => r.rcd s t ⟨i, h⟩⟩ else ⟨0, fun _ => 0⟩,
      r.events.map fun e => ⟨e.1, e.2 s⟩⟩)
  else none

open Classical in
/-- `scalar` (`scalar.py` 404-590) with all shots on the device `D`. -/
noncomputable def UArgs.scalarOn (A : UArgs d) (D : (ns S : ℕ) → Device d ns S) :
    Except PyErr (Option (List (UShot d))) := do
  let _ ← raiseIf (NoElements A.v) .runtimeError
  let P ← A.setup.plan
  let cf ← checkCallbackFrequency A.callbackFreq
  A.shots P cf (locAt P.srcs 0).n (locAt P.rcvs 0).n (D _ _)

open Classical in
/-- The part of `scalar` after the setup with `python_backend` (`scalar.py` 510-590, 2101-2150), for shot `s`. -/
noncomputable def UArgs.shotPy (A : UArgs d) (P : Plan d) (cf : ℤ) (ns nr s : ℕ) :
    Except PyErr (Option (UShot d)) := do
  let C := cfg ns nr P s
  let r ← C.pyForward (if A.callback then some cf.toNat else none) P.nt.toNat
    (Born.scaleAmp C fun t i => upAmps P A.timeTaper A.amps s t i) (A.init s)
  return if Finite (P.pml false) then
    some ⟨r.out, fun i => if h : i < nr then
      downS P A.timeTaper ⟨P.nt.toNat, fun t => r.rcd t ⟨i, h⟩⟩ else ⟨0, fun _ => 0⟩, r.events⟩
  else none

open Classical in
/-- `scalar` (`scalar.py` 404-590) with `python_backend`: the outputs for shot `s`. -/
noncomputable def UArgs.scalarPy (A : UArgs d) (s : ℕ) : Except PyErr (Option (UShot d)) := do
  let _ ← raiseIf (NoElements A.v) .runtimeError
  let P ← A.setup.plan
  let cf ← checkCallbackFrequency A.callbackFreq
  A.shotPy P cf (locAt P.srcs 0).n (locAt P.rcvs 0).n s

/-! ### Relation to the single shots -/

theorem batch_alone {A : UArgs d} {P : Plan d} (h : A.setup.Good P) (ns nr : ℕ) (s : Fin P.nb) :
    (batch ns nr P).alone s = cfg ns nr P s := by
  have hnb : 0 < P.nb := s.pos
  obtain ⟨hm, e⟩ := (extractModels_iff hnb).1 h.models
  have hb := (hm (A.v, .replicate) (by simp [UArgs.setup])).batch
  have hnb' : ((P.models.getD 0 ⟨none, fun _ => 0, fun _ _ => 0⟩).nb.getD 1) = A.v.nb.getD 1 := by
    rw [e]
    rfl
  have hv : (if (batch ns nr P).batched then (batch ns nr P).v s else (batch ns nr P).v 0) =
      shotModel P.models 0 s := by
    simp only [batch, shotModel, hnb', decide_eq_true_eq]
    simp only at hb
    by_cases h1 : A.v.nb.getD 1 = 1
    · rw [if_neg (by omega), if_pos h1]
    · rw [if_pos (by omega), if_neg h1]
  show ({cfg ns nr P 0 with v := _, src := _, rcv := _} : Cfg d ns nr ℝ) = _
  rw [hv]
  rfl

theorem src_inj {A : UArgs d} {P : Plan d} (h : A.setup.Good P) {s : ℕ} (hs : s < P.nb)
    (hsrc : ∀ l, A.src = some l → WholeIgnored d l s) (nr : ℕ) (i j : Fin (locAt P.srcs 0).n) (c : Cell d)
    (hi : (cfg (locAt P.srcs 0).n nr P s).src i = some c) (hj : (cfg (locAt P.srcs 0).n nr P s).src j = some c) :
    i = j := by
  have hp := placed h hs A.src (List.mem_append_left _ (by simp [UArgs.setup])) hsrc
  have en : locAt P.srcs 0 = idxOpt P.ext (padBegin P.accZ P.wL) (padEnd false P.accZ P.wL) P.nb A.src := by
    rw [(extractLocations_iff.1 h.srcs).2]
    rfl
  have hl : (locAt P.srcs 0).n = locCount A.src := by
    rw [en]
    cases A.src <;> rfl
  have key : ∀ i : Fin (locAt P.srcs 0).n, (cfg (locAt P.srcs 0).n nr P s).src i = (locCell A.src s i).map P.at := by
    intro i
    have hlt := i.isLt.trans_eq (hl.trans hp.length.symm)
    refine Eq.trans ?_ (hp.get ⟨i, hlt⟩)
    refine Eq.trans ?_ (cells_get _ _ _ ⟨i, hlt⟩).symm
    show cellOf (P.n false) ((locAt P.srcs 0).val s i) = _
    exact congrArg (fun t : IdxT => cellOf (P.n false) (t.val s (i : ℕ))) en
  rw [key, Option.map_eq_some_iff] at hi hj
  obtain ⟨x, hx, rfl⟩ := hi
  obtain ⟨y, hy, e⟩ := hj
  obtain rfl := Plan.at_inj.1 e
  exact Fin.ext (locCell_inj h hs (List.mem_append_left _ (by simp [UArgs.setup])) hsrc (hl ▸ i.isLt) (hl ▸ j.isLt) hx hy)

end Dw.Scalar
