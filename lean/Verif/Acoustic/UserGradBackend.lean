import Verif.Setup.Blocks
import Verif.Acoustic.UserBackend

/-!
# Gradients of `acoustic` on the different backends

`UArgs.backward` is the backward pass of one shot by the functions compiled for the CPU.  Here is the backward pass
of a call with all shots, on the CPU with OpenMP threads and on a CUDA device.
-/

namespace Dw.Acoustic

open Setup Resample
open Born (gatherAt)
open Dw.Scalar (NoElements PmlOk WholeIgnored locAt upAmps)

variable {d : ℕ}

/-- Where and in which order the backward pass is executed: on the CPU with `threads` threads, `σ step` being the
execution of the parallel loop of the chunk that ends at `step`, or on a CUDA device, `κ t` being the execution of
the launches of time step `t` and `comb step` those of `combine_grad` after the chunk. -/
inductive BDevice (d mp : ℕ) (mv : Fin d → ℕ) (S : ℕ) where
  | cpu (threads : ℕ) (σ : ℕ → Dw.Batch.Exec S threads)
  | cuda (κ : ℕ → Sched d mp mv S) (comb : ℕ → Option (Fin d) → List (Cell d))

section
variable {np mp S : ℕ} {nv mv : Fin d → ℕ}

/-- The parallel loops run every shot's time steps in order; the grids of threads are those of `acoustic.cu`. -/
def BDevice.Admissible (E : BDevice d mp mv S) (B : Batch d np mp nv mv S ℝ) (cb : Option ℕ) (nt : ℕ) : Prop :=
  match E with
  | .cpu _ σ => Dw.Batch.BwdExecs B.base.ratio (nt / B.base.ratio) (cb.getD (nt / B.base.ratio)) σ
  | .cuda κ comb => Launches B κ ∧ ∀ step a, (comb step a).Perm (Gpu.cells 0 B.base.n)

/-- The number of copies of the gradients of shared models that are added up in the end: one for each thread, or on
a CUDA device one for each shot. -/
def BDevice.buffers (E : BDevice d mp mv S) : ℕ :=
  match E with
  | .cpu threads _ => threads
  | .cuda _ _ => S

/-- `AcousticForwardFunc.backward` (`acoustic.py` 1010-1258). -/
noncomputable def BDevice.backward (E : BDevice d mp mv S) (B : Batch d np mp nv mv S ℝ) (gk gb : Bool)
    (cb : Option ℕ) (nt : ℕ) (storeK : Fin S → ℕ → Fld d ℝ) (storeB : Fin S → ℕ → Fin d → Fld d ℝ)
    (grP : Fin S → ℕ → Fin mp → ℝ) (grV : Fin S → (k : Fin d) → ℕ → Fin (mv k) → ℝ) (g : Fin S → Init d ℝ) :
    Except PyErr (BatchBResult d np nv S ℝ) :=
  match E with
  | .cpu _ σ => B.backward gk gb cb nt storeK storeB grP grV g σ
  | .cuda κ comb => B.gpuBackward gk gb cb nt storeK storeB grP grV g κ comb

end

/-! ### Through the preparation of the models -/

section
variable {np mp : ℕ} {nv mv : Fin d → ℕ}

open Classical in
/-- The part of the gradient of the bulk modulus that comes from the scaling of the amplitudes `a`, of which the
scaled ones have gradient `gf` (`acoustic.py` 561-570). -/
noncomputable def viaK (C : Cfg d np mp nv mv ℝ) (nt : ℕ) (a gf : ℕ → Fin np → ℝ) : Fld d ℝ := fun p =>
  ∑ t ∈ Finset.range nt, ∑ i, if ((C.srcP i).getD fun _ => 0) = p then gf t i * (a t i * C.dt) else 0

open Classical in
/-- The part of the gradient of a buoyancy that comes from the scaling of the amplitudes (`acoustic.py` 571-585). -/
noncomputable def viaB (C : Cfg d np mp nv mv ℝ) (nt : ℕ) (a gf : (k : Fin d) → ℕ → Fin (nv k) → ℝ) (k : Fin d) :
    Fld d ℝ := fun p =>
  ∑ t ∈ Finset.range nt, ∑ i, if ((C.srcV k i).getD fun _ => 0) = p then gf k t i * (a k t i * C.dt) else 0

/-- The part of the gradient of the density that comes from the buoyancies. -/
noncomputable def viaMeans (n : Fin d → ℤ) (rfmax : ℝ) (rho : Fld d ℝ) (gB : Fin d → Fld d ℝ) : Fld d ℝ := fun p =>
  ∑ k, (buoyT n rfmax rho gB k p / 2 + buoyT n rfmax rho gB k (p.shift k (-1)) / 2)

end

/-! ### A call -/

/-- The gradients of source amplitudes and initial wavefields of a shot. -/
structure UShotGrad (d : ℕ) where
  ampP : ℕ → ℕ → ℝ
  ampV : Fin d → ℕ → ℕ → ℝ
  wf : Wavefields d ℝ

/-- What `backward()` leaves in `v.grad` and `rho.grad` (by batch element) and for each shot. -/
structure UGrads (d : ℕ) where
  v : ℕ → Fld d ℝ
  rho : ℕ → Fld d ℝ
  shots : List (UShotGrad d)

section
variable {np mp : ℕ} {nv mv : Fin d → ℕ}

/-- The gradients from what the driver returns: through the scalings of the source amplitudes, `prepare_models`
(`K = rho * v**2` has as many blocks as the larger of the two), and the slicing and padding of the models. -/
noncomputable def gradsOn (A : UArgs d) (P : Plan d) (In : ℕ → ShotIn d) (B : Batch d np mp nv mv P.nb ℝ)
    (r : BatchBResult d np nv P.nb ℝ) : UGrads d :=
  let aP : ℕ → ℕ → Fin np → ℝ := fun s t i => upAmps P A.opts.timeTaper A.ampP s t i
  let aV : ℕ → (k : Fin d) → ℕ → Fin (nv k) → ℝ := fun s k t i => upAmps P A.opts.timeTaper (A.ampV k) s t i
  let K : ℕ → Fld d ℝ := fun β p => r.gK β p + ∑ s : Fin P.nb, if (if B.kBatched then (s : ℕ) else 0) = β then
    viaK (B.cfg s) P.nt.toNat (aP s) (r.gfP s) p else 0
  let b : ℕ → Fin d → Fld d ℝ := fun β k p => r.gB k β p + ∑ s : Fin P.nb,
    if (if B.bBatched then (s : ℕ) else 0) = β then viaB (B.cfg s) P.nt.toNat (aV s) (r.gfV s) k p else 0
  { v := fun j => extractModelT A.v.shape P.ext (P.padding true) .replicate fun p =>
      ∑ β ∈ Finset.range (if B.kBatched then P.nb else 1), if (if P.batched 0 then β else 0) = j then
        prepareVT ((In β).model 0) ((In β).model 1) (K β) p else 0
    rho := fun j => extractModelT A.rho.shape P.ext (P.padding true) .replicate fun p =>
      (∑ β ∈ Finset.range (if B.kBatched then P.nb else 1), if (if P.batched 1 then β else 0) = j then
        K β p * (In β).model 0 p ^ 2 else 0) + viaMeans (P.n true) A.rfmax ((In j).model 1) (b j) p
    shots := List.ofFn fun s =>
      { ampP := ampGrad P A.opts.timeTaper A.ampP fun t i =>
          r.gfP s t i * gatherAt (B.cfg s).K ((B.cfg s).srcP i) * (B.cfg s).dt
        ampV := fun k => ampGrad P A.opts.timeTaper (A.ampV k) fun t i =>
          r.gfV s k t i * gatherAt ((B.cfg s).B k) ((B.cfg s).srcV k i) * (B.cfg s).dt
        wf := r.out s } }

open Classical in
/-- The backward pass of all shots after the setup: the forward pass on `D`, the backward pass on `E`. -/
noncomputable def backWith (A : UArgs d) (P : Plan d) (cf : ℤ) (In : ℕ → ShotIn d) (bcb : Bool)
    (grP : ℕ → ℕ → ℕ → ℝ) (grV : ℕ → Fin d → ℕ → ℕ → ℝ) (g : ℕ → Wavefields d ℝ) (D : Device d np nv P.nb)
    (E : BDevice d mp mv P.nb) (B : Batch d np mp nv mv P.nb ℝ) : Except PyErr (Option (UGrads d)) := do
  let r ← D.forward B A.gradK A.gradB (A.opts.cb cf) P.nt.toNat
    (fun s => scaleAmpP (B.cfg s) fun t i => upAmps P A.opts.timeTaper A.ampP s t i)
    (fun s => scaleAmpV (B.cfg s) fun k t i => upAmps P A.opts.timeTaper (A.ampV k) s t i) (fun s => A.wf.init s)
  let b ← E.backward B A.gradK A.gradB (if bcb then some cf.toNat else none) P.nt.toNat r.storeK r.storeB
    (fun s t i => downT P A.opts.timeTaper (grP s i) t) (fun s k t i => downT P A.opts.timeTaper (grV s k i) t)
    (fun s => (g s).toInit)
  return if Finite (P.pml true) then some (gradsOn A P In B b) else none

end

open Classical in
/-- The gradients of a call with all shots, the forward pass on `D` and the backward pass on `E`. -/
noncomputable def UArgs.backwardOn (A : UArgs d) (D : (np : ℕ) → (nv : Fin d → ℕ) → (S : ℕ) → Device d np nv S)
    (E : (mp : ℕ) → (mv : Fin d → ℕ) → (S : ℕ) → BDevice d mp mv S) (bcb : Bool) (grP : ℕ → ℕ → ℕ → ℝ)
    (grV : ℕ → Fin d → ℕ → ℕ → ℝ) (g : ℕ → Wavefields d ℝ) : Except PyErr (Option (UGrads d)) := do
  let _ ← raiseIf A.Pre .runtimeError
  let P ← A.setup.plan
  let cf ← checkCallbackFrequency A.opts.callbackFreq
  backWith A P cf (shotIn A.setup P A.opts.timeTaper) bcb grP grV g (D _ _ _) (E _ _ _)
    (batch (locAt P.srcs 0).n (locAt P.rcvs 0).n (fun k => (locAt P.srcs (k + 1)).n)
      (fun k => (locAt P.rcvs (k + 1)).n) A.rfmax P (shotIn A.setup P A.opts.timeTaper))

/-! ### Lemmas -/

section
variable {np mp : ℕ} {nv mv : Fin d → ℕ}

/-- The backward driver on any device, where the defect of C06 has no effect. -/
theorem BDevice.backward_shots {S : ℕ} (E : BDevice d mp mv S) (B : Batch d np mp nv mv S ℝ) (h : ∀ s, (B.alone s).WF)
    (hbig : ∀ s, (B.alone s).Big) (hr : 0 < B.base.ratio) (hS : 0 < S)
    (hP : ∀ s i j c, B.rcvP s i = some c → B.rcvP s j = some c → i = j)
    (hV : ∀ k s i j c, B.rcvV s k i = some c → B.rcvV s k j = some c → i = j)
    (gk gb : Bool) (cb : Option ℕ) (nt : ℕ) (hcf : 0 < nt → 0 < cb.getD (nt / B.base.ratio))
    (hT : cb = none ∨ B.kBatched = true ∧ B.bBatched = true ∨ E.buffers ≤ 1)
    (storeK : Fin S → ℕ → Fld d ℝ) (storeB : Fin S → ℕ → Fin d → Fld d ℝ)
    (grP : Fin S → ℕ → Fin mp → ℝ) (grV : Fin S → (k : Fin d) → ℕ → Fin (mv k) → ℝ) (g : Fin S → Init d ℝ)
    (hE : E.Admissible B cb nt) :
    ∃ r, ∃ b : Fin S → BResult d np nv ℝ, E.backward B gk gb cb nt storeK storeB grP grV g = .ok r ∧
      (∀ s, (B.alone s).backward gk gb cb nt (storeK s) (storeB s) (grP s) (grV s) (g s) = .ok (b s)) ∧
      (∀ s, r.gfP s = (b s).gfP ∧ r.gfV s = (b s).gfV ∧ r.out s = (b s).out) ∧
      (∀ β c, r.gK β c = ∑ s : Fin S, if (if B.kBatched then (s : ℕ) else 0) = β then (b s).gK c else 0) ∧
      ∀ k β c, r.gB k β c = ∑ s : Fin S, if (if B.bBatched then (s : ℕ) else 0) = β then (b s).gB k c else 0 := by
  cases E with
  | cpu threads σ =>
      obtain ⟨r, b, h1, h2, h3, h4, h5⟩ := C70_acoustic_backward B hS hr gk gb cb nt hcf storeK storeB grP grV g σ hE
      refine ⟨r, b, h1, h2, fun s => ⟨(h3 s).1, (h3 s).2.1, (h3 s).2.2.1⟩, fun β c => (h4 β c).trans ?_,
        fun k β c => (h5 k β c).trans ?_⟩ <;>
      · refine sum_if_neg ?_ _ _ _
        rintro ⟨⟨-, h6, h7⟩, h8⟩
        rcases hT with h9 | h9 | h9
        · rw [h9] at h8; cases h8
        · simp_all
        · exact absurd h7 (not_lt.2 h9)
  | cuda κ comb =>
      obtain ⟨r, b, h1, h2, h3, h4, h5⟩ := C71_acoustic_backward B h hbig hS hr hP hV gk gb cb nt hcf storeK storeB
        grP grV g κ hE.1 comb hE.2
      refine ⟨r, b, h1, h2, fun s => ⟨(h3 s).1, (h3 s).2.1, (h3 s).2.2.1⟩, fun β c => (h4 β c).trans ?_,
        fun k β c => (h5 k β c).trans ?_⟩ <;>
      · refine sum_if_neg ?_ _ _ _
        rintro ⟨⟨-, h6, h7⟩, h8⟩
        rcases hT with h9 | h9 | h9
        · rw [h9] at h8; cases h8
        · simp_all
        · exact absurd h7 (not_lt.2 h9)

theorem gradWith_cfgN {A : UArgs d} {P : Plan d} {cf : ℤ} {s : ℕ} {v rho : Fld d ℝ} {bcb : Bool} {grP : ℕ → ℕ → ℝ}
    {grV : Fin d → ℕ → ℕ → ℝ} {g : Wavefields d ℝ} {S : ShotIn d} (h1 : np = (S.src 0).length)
    (h2 : mp = (S.rcv 0).length) (h3 : nv = fun k : Fin d => (S.src (k + 1)).length)
    (h4 : mv = fun k : Fin d => (S.rcv (k + 1)).length) :
    gradWith A P cf s v rho bcb grP grV g (cfgN np mp nv mv A.rfmax S) =
      gradWith A P cf s v rho bcb grP grV g (cfgOf A.rfmax S) := by
  subst h1 h2 h3 h4
  rw [cfgN_eq]

theorem cfgN_big {rfmax : ℝ} {S : ShotIn d} (h : (cfgOf rfmax S).Big) : (cfgN np mp nv mv rfmax S).Big := h

end

/-- `buoyT` is linear in the gradient of the buoyancies. -/
theorem viaMeans_add (n : Fin d → ℤ) (rfmax : ℝ) (rho : Fld d ℝ) (x y : Fin d → Fld d ℝ) (p : Cell d) :
    viaMeans n rfmax rho (x + y) p = viaMeans n rfmax rho x p + viaMeans n rfmax rho y p := by
  have key : ∀ k c, buoyT n rfmax rho (x + y) k c = buoyT n rfmax rho x k c + buoyT n rfmax rho y k c := by
    intro k c
    unfold buoyT
    split_ifs
    · simp only [Pi.add_apply]; ring
    · ring
    · ring
  unfold viaMeans
  rw [← Finset.sum_add_distrib]
  refine Finset.sum_congr rfl fun k _ => ?_
  rw [key, key]
  ring

theorem viaMeans_zero (n : Fin d → ℤ) (rfmax : ℝ) (rho : Fld d ℝ) (p : Cell d) :
    viaMeans n rfmax rho 0 p = 0 := by
  have := viaMeans_add n rfmax rho 0 0 p
  rw [add_zero] at this
  linarith

end Dw.Acoustic
