import Verif.Setup.Blocks
import Verif.Born.UserBackend

/-!
# Gradients of `scalar_born` on the different backends

`UArgs.backward` is the backward pass of one shot by the functions compiled for the CPU.  Here is the backward pass
of a call with all shots, on the CPU with OpenMP threads and on a CUDA device.
-/

namespace Dw.Born

open Setup Resample
open Dw.Scalar (NoElements PmlOk WholeIgnored locAt upAmps Init Wavefields)

variable {d : ℕ}

/-- Where and in which order the backward pass is executed: on the CPU with `threads` threads, `σ step` being the
execution of the parallel loop of the chunk that ends at `step`, or on a CUDA device, `κ t` being the execution of
the launches of time step `t` and `comb step` those of `combine_grad` after the chunk (`κsc` and `combsc` for
`backward_sc`). -/
inductive BDevice (d nr nq S : ℕ) where
  | cpu (threads : ℕ) (σ : ℕ → Dw.Batch.Exec S threads)
  | cuda (κ : ℕ → Sched d nr nq S) (comb : ℕ → Bool → List (Cell d)) (κsc : ℕ → Gpu.StepSched d nq S)
      (combsc : ℕ → Unit → List (Cell d))

section
variable {ns nr nq S : ℕ}

/-- The parallel loops run every shot's time steps in order; the grids of threads are those of
`scalar_born.cu`. -/
def BDevice.Admissible (E : BDevice d nr nq S) (B : Batch d ns nr nq S ℝ) (cb : Option ℕ) (nt : ℕ) : Prop :=
  match E with
  | .cpu _ σ => Dw.Batch.BwdExecs B.base.base.ratio (nt / B.base.base.ratio) (cb.getD (nt / B.base.base.ratio)) σ
  | .cuda κ comb κsc combsc =>
      (Launches B κ ∧ ∀ step a, (comb step a).Perm (Gpu.cells B.base.base.acc.pad B.base.base.n)) ∧
      LaunchesSc B κsc ∧ ∀ step a, (combsc step a).Perm (Gpu.cells B.base.base.acc.pad B.base.base.n)

/-- The number of copies of the gradients of shared models that are added up in the end: one for each thread, or on
a CUDA device one for each shot. -/
def BDevice.buffers (E : BDevice d nr nq S) : ℕ :=
  match E with
  | .cpu threads _ => threads
  | .cuda _ _ _ _ => S

/-- What `backward_sc` leaves: nothing for the background. -/
noncomputable def scResult (b : BatchSResult d ns S ℝ) : BatchBResult d ns S ℝ :=
  ⟨fun _ _ => 0, b.gs, fun _ _ _ => 0, b.gfsc, fun _ => Scalar.Wavefields.zero d, b.outsc, []⟩

/-- `ScalarBornForwardFunc.backward` (`scalar_born.py` 941-1422), with `backward_sc` if only the scattered field
needs to be propagated. -/
noncomputable def BDevice.backward (E : BDevice d nr nq S) (B : Batch d ns nr nq S ℝ) (gv gs full : Bool)
    (cb : Option ℕ) (nt : ℕ) (w wsc : Fin S → ℕ → Fld d ℝ) (gr : Fin S → ℕ → Fin nr → ℝ)
    (grsc : Fin S → ℕ → Fin nq → ℝ) (g gsc : Fin S → Init d ℝ) : Except PyErr (BatchBResult d ns S ℝ) :=
  match E with
  | .cpu _ σ => if gv || full then B.backward gv gs cb nt w wsc gr grsc g gsc σ else do
      let b ← B.backwardSc gs cb nt w grsc gsc σ
      return scResult b
  | .cuda κ comb κsc combsc => if gv || full then B.gpuBackward gv gs cb nt w wsc gr grsc g gsc κ comb else do
      let b ← B.gpuBackwardSc gs cb nt w grsc gsc κsc combsc
      return scResult b

end

/-! ### A call -/

/-- The gradients of source amplitudes and initial wavefields of a shot. -/
structure UShotGrad (d : ℕ) where
  amps : ℕ → ℕ → ℝ
  wf : Wavefields d ℝ
  wfsc : Wavefields d ℝ

/-- What `backward()` leaves in `v.grad` and `scatter.grad` (by batch element) and for each shot. -/
structure UGrads (d : ℕ) where
  v : ℕ → Fld d ℝ
  scatter : ℕ → Fld d ℝ
  shots : List (UShotGrad d)

section
variable {ns nr nq : ℕ}

open Classical in
/-- The part of the gradient of the velocity that comes from the scaling of the amplitudes `a`
(`scalar_born.py` 495-530). -/
noncomputable def viaV (C : BCfg d ns nr nq ℝ) (nt : ℕ) (a gf gfsc : ℕ → Fin ns → ℝ) : Fld d ℝ := fun p =>
  ∑ t ∈ Finset.range nt, ∑ i, if ((C.base.src i).getD fun _ => 0) = p then
    gf t i * (-a t i * (2 * C.base.v p) * C.base.dt ^ 2) + gfsc t i * (-2 * a t i * C.scatter p * C.base.dt ^ 2) else 0

open Classical in
/-- The same for the scattering potential. -/
noncomputable def viaS (C : BCfg d ns nr nq ℝ) (nt : ℕ) (a gfsc : ℕ → Fin ns → ℝ) : Fld d ℝ := fun p =>
  ∑ t ∈ Finset.range nt, ∑ i, if ((C.base.src i).getD fun _ => 0) = p then
    gfsc t i * (-2 * a t i * C.base.v p * C.base.dt ^ 2) else 0

/-- The gradients from what the driver returns: through the scalings of the source amplitudes and the slicing and
padding of the models. -/
noncomputable def gradsOn (A : UArgs d) (P : Plan d) (B : Batch d ns nr nq P.nb ℝ) (r : BatchBResult d ns P.nb ℝ) :
    UGrads d :=
  let a : ℕ → ℕ → Fin ns → ℝ := fun s t i => upAmps P A.opts.timeTaper A.amps s t i
  { v := fun j => extractModelT A.v.shape P.ext (P.padding false) .replicate fun p => r.gv j p +
      ∑ s : Fin P.nb, if (if B.vBatched then (s : ℕ) else 0) = j then
        viaV (B.cfg s) P.nt.toNat (a s) (r.gf s) (r.gfsc s) p else 0
    scatter := fun j => extractModelT A.scatter.shape P.ext (P.padding false) .constant fun p => r.gs j p +
      ∑ s : Fin P.nb, if (if B.scBatched then (s : ℕ) else 0) = j then
        viaS (B.cfg s) P.nt.toNat (a s) (r.gfsc s) p else 0
    shots := List.ofFn fun s =>
      { amps := fun j t =>
          ampGrad P A.opts.timeTaper A.amps (fun t i =>
            -(r.gf s t i * gatherAt (B.cfg s).base.v ((B.cfg s).base.src i) ^ 2 * (B.cfg s).base.dt ^ 2)) j t +
          ampGrad P A.opts.timeTaper A.amps (fun t i =>
            -2 * (r.gfsc s t i * gatherAt (B.cfg s).base.v ((B.cfg s).base.src i) *
              gatherAt (B.cfg s).scatter ((B.cfg s).base.src i) * (B.cfg s).base.dt ^ 2)) j t
        wf := r.out s
        wfsc := r.outsc s } }

open Classical in
/-- The backward pass of all shots after the setup: the forward pass on `D`, the backward pass on `E`. -/
noncomputable def backWith (A : UArgs d) (P : Plan d) (cf : ℤ) (full bcb : Bool)
    (gr grsc : ℕ → ℕ → ℕ → ℝ) (g gsc : ℕ → Wavefields d ℝ) (D : Device d ns P.nb)
    (E : BDevice d nr nq P.nb) (B : Batch d ns nr nq P.nb ℝ) : Except PyErr (Option (UGrads d)) := do
  let r ← D.forward B A.gradV A.gradS (A.opts.cb cf) P.nt.toNat
    (fun s => scaleAmp (B.cfg s).base fun t i => upAmps P A.opts.timeTaper A.amps s t i)
    (fun s => scaleAmpSc (B.cfg s) fun t i => upAmps P A.opts.timeTaper A.amps s t i)
    (fun s => A.wf.init s) (fun s => A.wfsc.init s)
  let b ← E.backward B A.gradV A.gradS full (if bcb then some cf.toNat else none) P.nt.toNat r.w r.wsc
    (fun s t i => downT P A.opts.timeTaper (gr s i) t) (fun s t i => downT P A.opts.timeTaper (grsc s i) t)
    (fun s => (g s).toInit) (fun s => (gsc s).toInit)
  return if Scalar.Finite (P.pml false) then some (gradsOn A P B b) else none

end

open Classical in
/-- The gradients of a call with all shots, the forward pass on `D` and the backward pass on `E`. -/
noncomputable def UArgs.backwardOn (A : UArgs d) (D : (ns S : ℕ) → Device d ns S)
    (E : (nr nq S : ℕ) → BDevice d nr nq S) (full bcb : Bool) (gr grsc : ℕ → ℕ → ℕ → ℝ)
    (g gsc : ℕ → Wavefields d ℝ) : Except PyErr (Option (UGrads d)) := do
  let _ ← raiseIf (NoElements A.v) .runtimeError
  let P ← A.setup.plan
  let cf ← checkCallbackFrequency A.opts.callbackFreq
  backWith A P cf full bcb gr grsc g gsc (D _ _) (E _ _ _)
    (batch (locAt P.srcs 0).n (locAt P.rcvs 0).n (locAt P.rcvs 1).n P (shotIn A.setup P A.opts.timeTaper))

/-! ### Lemmas -/

section
variable {ns nr nq : ℕ}

/-- The backward driver on any device, where the defect of C06 has no effect. -/
theorem BDevice.backward_shots {S : ℕ} (E : BDevice d nr nq S) (B : Batch d ns nr nq S ℝ)
    (h : ∀ s, (B.alone s).base.WF) (hr : 0 < B.base.base.ratio) (hS : 0 < S)
    (hq : ∀ s i j c, B.rcv s i = some c → B.rcv s j = some c → i = j)
    (hqsc : ∀ s i j c, B.rcvsc s i = some c → B.rcvsc s j = some c → i = j)
    (gv gs full : Bool) (cb : Option ℕ) (nt : ℕ) (hcf : 0 < nt → 0 < cb.getD (nt / B.base.base.ratio))
    (hT : cb = none ∨ (B.vBatched = true ∧ B.scBatched = true) ∨ E.buffers ≤ 1)
    (w wsc : Fin S → ℕ → Fld d ℝ) (gr : Fin S → ℕ → Fin nr → ℝ) (grsc : Fin S → ℕ → Fin nq → ℝ)
    (g gsc : Fin S → Init d ℝ) (hE : E.Admissible B cb nt) :
    ∃ r, ∃ b : Fin S → BResult d ns ℝ, E.backward B gv gs full cb nt w wsc gr grsc g gsc = .ok r ∧
      (∀ s, (B.alone s).back gv gs full cb nt (w s) (wsc s) (gr s) (grsc s) (g s) (gsc s) = .ok (b s)) ∧
      (∀ s, r.gf s = (b s).gf ∧ r.gfsc s = (b s).gfsc ∧ r.out s = (b s).out ∧ r.outsc s = (b s).outsc) ∧
      (∀ β c, r.gv β c = ∑ s : Fin S, if (if B.vBatched then (s : ℕ) else 0) = β then (b s).gv c else 0) ∧
      ∀ β c, r.gs β c = ∑ s : Fin S, if (if B.scBatched then (s : ℕ) else 0) = β then (b s).gs c else 0 := by
  unfold BCfg.back
  by_cases hfull : (gv || full) = true
  · simp only [if_pos hfull]
    cases E with
    | cpu threads σ =>
        obtain ⟨r, b, h1, h2, h3, h4, h5⟩ := C70_born_backward B hS hr gv gs cb nt hcf w wsc gr grsc g gsc σ hE
        refine ⟨r, b, (if_pos hfull).trans h1, h2, fun s => ⟨(h3 s).1, (h3 s).2.1, (h3 s).2.2.1, (h3 s).2.2.2.1⟩,
          fun β c => (h4 β c).trans ?_, fun β c => (h5 β c).trans ?_⟩ <;>
        · refine sum_if_neg ?_ _ _ _
          rintro ⟨⟨-, h6, h7⟩, h8⟩
          rcases hT with h9 | h9 | h9
          · rw [h9] at h8; cases h8
          · simp_all
          · exact absurd h7 (not_lt.2 h9)
    | cuda κ comb κsc combsc =>
        obtain ⟨r, b, h1, h2, h3, h4, h5⟩ := C71_born_backward B h hS hr hq hqsc gv gs cb nt hcf w wsc gr grsc g gsc κ
          hE.1.1 comb hE.1.2
        refine ⟨r, b, (if_pos hfull).trans h1, h2, fun s => ⟨(h3 s).1, (h3 s).2.1, (h3 s).2.2.1, (h3 s).2.2.2.1⟩,
          fun β c => (h4 β c).trans ?_, fun β c => (h5 β c).trans ?_⟩ <;>
        · refine sum_if_neg ?_ _ _ _
          rintro ⟨⟨-, h6, h7⟩, h8⟩
          rcases hT with h9 | h9 | h9
          · rw [h9] at h8; cases h8
          · simp_all
          · exact absurd h7 (not_lt.2 h9)
  · simp only [if_neg hfull]
    cases E with
    | cpu threads σ =>
        obtain ⟨r, b, h1, h2, h3, h4⟩ := C70_born_backward_sc B hS hr gs cb nt hcf w grsc gsc σ hE
        refine ⟨scResult r, fun s => ⟨fun _ => 0, (b s).gs, fun _ _ => 0, (b s).gfsc, Scalar.Wavefields.zero d,
          (b s).outsc, []⟩, (if_neg hfull).trans (bind_okay h1 rfl), fun s => bind_okay (h2 s) rfl,
          fun s => ⟨rfl, (h3 s).1, rfl, (h3 s).2.1⟩, fun β c => ?_, fun β c => (h4 β c).trans ?_⟩
        · exact (Finset.sum_eq_zero fun s _ => ite_self _).symm
        · refine sum_if_neg ?_ _ _ _
          rintro ⟨⟨-, h6, h7⟩, h8⟩
          rcases hT with h9 | h9 | h9
          · rw [h9] at h8; cases h8
          · simp_all
          · exact absurd h7 (not_lt.2 h9)
    | cuda κ comb κsc combsc =>
        obtain ⟨r, b, h1, h2, h3, h4⟩ := C71_born_backward_sc B h hS hr hqsc gs cb nt hcf w grsc gsc κsc
          hE.2.1 combsc hE.2.2
        refine ⟨scResult r, fun s => ⟨fun _ => 0, (b s).gs, fun _ _ => 0, (b s).gfsc, Scalar.Wavefields.zero d,
          (b s).outsc, []⟩, (if_neg hfull).trans (bind_okay h1 rfl), fun s => bind_okay (h2 s) rfl,
          fun s => ⟨rfl, (h3 s).1, rfl, (h3 s).2.1⟩, fun β c => ?_, fun β c => (h4 β c).trans ?_⟩
        · exact (Finset.sum_eq_zero fun s _ => ite_self _).symm
        · refine sum_if_neg ?_ _ _ _
          rintro ⟨⟨-, h6, h7⟩, h8⟩
          rcases hT with h9 | h9 | h9
          · rw [h9] at h8; cases h8
          · simp_all
          · exact absurd h7 (not_lt.2 h9)

theorem gradWith_cfgN {A : UArgs d} {P : Plan d} {cf : ℤ} {s : ℕ} {full bcb : Bool} {gr grsc : ℕ → ℕ → ℝ}
    {g gsc : Wavefields d ℝ} {S : ShotIn d} (h1 : ns = (S.src 0).length)
    (h2 : nr = (S.rcv 0).length) (h3 : nq = (S.rcv 1).length) :
    gradWith A P cf s full bcb gr grsc g gsc (cfgN ns nr nq S) = gradWith A P cf s full bcb gr grsc g gsc (cfgOf S) := by
  subst h1 h2 h3
  rw [cfgN_eq]

end

end Dw.Born
