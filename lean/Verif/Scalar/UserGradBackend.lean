import Verif.Scalar.UserBackend
import Verif.Scalar.UserGrad

/-!
# Gradients of `scalar` on the different backends

`UArgs.backward` is the backward pass of one shot by the functions compiled for the CPU.  Here is the backward pass
of a call with all shots, on the CPU with OpenMP threads and on a CUDA device.
-/

namespace Dw.Scalar

open Setup Resample

variable {d : ℕ}

/-- Where and in which order the backward pass is executed: on the CPU with `threads` threads, `σ step` being the
execution of the parallel loop of the chunk that ends at `step`, or on a CUDA device, `κ t` being the execution of
the launches of time step `t` and `comb step` that of `combine_grad` after the chunk. -/
inductive BDevice (d nr S : ℕ) where
  | cpu (threads : ℕ) (σ : ℕ → Sched S threads)
  | cuda (κ : ℕ → Gpu.StepSched d nr S) (comb : ℕ → List (Fin 1 × Cell d))

/-- The parallel loops run every shot's time steps in order; the grids of threads are those of `scalar.cu`. -/
def BDevice.Admissible {ns nr S : ℕ} (D : BDevice d nr S) (B : Batch d ns nr S ℝ) (cb : Option ℕ) (nt : ℕ) : Prop :=
  match D with
  | .cpu _ σ => B.BwdSched cb nt σ
  | .cuda κ comb => Gpu.Launches B κ ∧ ∀ step, (comb step).Perm (Gpu.work d 1 B.base.acc.pad B.base.n)

/-- The number of copies of the gradient of a shared model that are added up in the end (`scalar.py` 1191-1217):
one for each thread, or on a CUDA device one for each shot. -/
def BDevice.buffers {nr S : ℕ} (D : BDevice d nr S) : ℕ :=
  match D with
  | .cpu threads _ => threads
  | .cuda _ _ => S

/-- `ScalarBackwardFunc.forward` (`scalar.py` 1026-1342). -/
noncomputable def BDevice.backward {ns nr S : ℕ} (D : BDevice d nr S) (B : Batch d ns nr S ℝ) (grad : Bool)
    (cb : Option ℕ) (nt : ℕ) (store : Fin S → ℕ → Fld d ℝ) (gr : Fin S → ℕ → Fin nr → ℝ) (g : Fin S → Init d ℝ) :
    Except PyErr (BatchBwdResult d ns S ℝ) :=
  match D with
  | .cpu _ σ => B.backward grad cb nt store gr g σ
  | .cuda κ comb => Gpu.gpuBackward B grad cb nt store gr g κ comb

/-- What `backward()` leaves in `v.grad` (by batch element) and, for each shot, in `source_amplitudes.grad` and
the gradients of the initial wavefields. -/
structure UGrads (d : ℕ) where
  v : ℕ → Fld d ℝ
  shots : List ((ℕ → ℕ → ℝ) × Wavefields d ℝ)

open Classical in
/-- The gradients from what the driver returns: through the scaling of the source amplitudes
(`scalar.py` 518-530), `upsample`, and the slicing, padding and expansion of the model. -/
noncomputable def UArgs.grads (A : UArgs d) (P : Plan d) (ns nr : ℕ) (b : BatchBwdResult d ns P.nb ℝ) : UGrads d where
  v := fun j => extractModelT A.v.shape P.ext
    (padList (d := d) (padBegin P.accZ P.wL) (padEnd false P.accZ P.wL)) .replicate fun p =>
    b.gv j p + shotsT A.v.nb P.nb (fun s p => if hs : s < P.nb then
      ∑ t ∈ Finset.range P.nt.toNat, ∑ i, if (((cfg ns nr P s).src i).getD fun _ => 0) = p then
        b.gf ⟨s, hs⟩ t i * (-upAmps P A.timeTaper A.amps s t i * (2 * (cfg ns nr P s).v p) *
          (cfg ns nr P s).dt ^ 2) else 0
      else 0) j p
  shots := List.ofFn fun s =>
    (fun i => upT P A.timeTaper ((A.amps.map AmpT.nt).getD 0) fun t => if h : i < ns then
      -(b.gf s t ⟨i, h⟩ * Born.gatherAt (cfg ns nr P s).v ((cfg ns nr P s).src ⟨i, h⟩) ^ 2 *
        (cfg ns nr P s).dt ^ 2) else 0,
    b.out s)

open Classical in
/-- The backward pass of all shots after the setup: the forward pass on `D`, the backward pass on `E`, with the
gradients `gr` of the receiver amplitudes (by shot, receiver and time) and `g` of the final wavefields. -/
noncomputable def UArgs.shotGrads (A : UArgs d) (P : Plan d) (cf : ℤ) (ns nr : ℕ) (D : Device d ns P.nb)
    (E : BDevice d nr P.nb) (bcb : Bool) (gr : ℕ → ℕ → ℕ → ℝ) (g : ℕ → Wavefields d ℝ) :
    Except PyErr (Option (UGrads d)) := do
  let r ← D.forward (batch ns nr P) A.grad (if A.callback then some cf.toNat else none) P.nt.toNat
    (fun s => Born.scaleAmp (cfg ns nr P s) fun t i => upAmps P A.timeTaper A.amps s t i) (fun s => A.init s)
  let b ← E.backward (batch ns nr P) A.grad (if bcb then some cf.toNat else none) P.nt.toNat r.store
    (fun s t i => downT P A.timeTaper (gr s i) t) (fun s => (g s).toInit)
  return if Finite (P.pml false) then some (A.grads P ns nr b) else none

open Classical in
/-- The gradients of a call with all shots, the forward pass on `D` and the backward pass on `E`. -/
noncomputable def UArgs.backwardOn (A : UArgs d) (D : (ns S : ℕ) → Device d ns S) (E : (nr S : ℕ) → BDevice d nr S)
    (bcb : Bool) (gr : ℕ → ℕ → ℕ → ℝ) (g : ℕ → Wavefields d ℝ) : Except PyErr (Option (UGrads d)) := do
  let _ ← raiseIf (NoElements A.v) .runtimeError
  let P ← A.setup.plan
  let cf ← checkCallbackFrequency A.callbackFreq
  A.shotGrads P cf (locAt P.srcs 0).n (locAt P.rcvs 0).n (D _ _) (E _ _) bcb gr g

/-! ### The driver -/

section
variable {ns nr S T : ℕ}

/-- The backward driver on the CPU, where the defect of C06 has no effect. -/
theorem Batch.backward_shots (B : Batch d ns nr S ℝ) (h : ∀ s, (B.alone s).WF) (hr : 0 < B.base.ratio) (hS : 0 < S)
    (grad : Bool) (cb : Option ℕ) (nt : ℕ) (hcf : 0 < nt → 0 < cb.getD (nt / B.base.ratio))
    (hT : cb = none ∨ B.batched = true ∨ T ≤ 1)
    (store : Fin S → ℕ → Fld d ℝ) (gr : Fin S → ℕ → Fin nr → ℝ) (g : Fin S → Init d ℝ) (σ : ℕ → Sched S T)
    (hσ : B.BwdSched cb nt σ) :
    ∃ r, ∃ b : Fin S → BwdResult d ns ℝ, B.backward grad cb nt store gr g σ = .ok r ∧
      (∀ s, (B.alone s).backward grad cb nt (store s) (gr s) (g s) = .ok (b s)) ∧
      (∀ s, r.gf s = (b s).gf ∧ r.out s = (b s).out) ∧
      ∀ β, (B.batched = false → β = 0) → ∀ c, r.gv β c = ∑ s : Fin S,
        if (if B.batched then (s : ℕ) else 0) = β then (b s).gv c else 0 := by
  obtain ⟨r, hb, h1⟩ := C07_shots_independent_backward B h hr grad cb nt hcf store gr g σ hσ
  choose b h2 using h1
  refine ⟨r, b, hb, fun s => (h2 s).1, fun s => (h2 s).2, ?_⟩
  simp only [Batch.alone_eq] at h h2
  have hgv : ∀ s c, (b s).gv c = ∑ i ∈ Finset.range (nt / B.base.ratio * B.base.ratio),
      (B.cfg s).bGrad grad (store s) (gr s) (nt / B.base.ratio * B.base.ratio) ((B.cfg s).bStart (g s)) i c := by
    intro s c
    have := (B.cfg s).backward_eq (h s) grad cb nt (store s) (gr s) (g s) hr hcf
    exact congrFun (congrArg BwdResult.gv (Except.ok.inj ((h2 s).1.symm.trans this))) c
  obtain ⟨m, hi, e⟩ := B.backward_inv h hr grad cb nt hcf store gr g σ hσ
  rw [hb] at e
  cases e
  intro β hβ c
  change m.gv β c = _
  simp only [hgv]
  by_cases hu : B.useTmp grad T = true
  · have hbat : B.batched = false := by
      simp only [Batch.useTmp, Bool.and_eq_true, Bool.not_eq_true'] at hu
      exact hu.1.2
    have hT1 : 1 < T := by
      simp only [Batch.useTmp, Bool.and_eq_true, decide_eq_true_eq] at hu
      exact hu.2
    obtain rfl : cb = none := by
      rcases hT with h3 | h3 | h3
      · exact h3
      · rw [hbat] at h3; cases h3
      · omega
    obtain rfl := hβ hbat
    simp only [hbat, Bool.false_eq_true, if_false, if_true]
    rw [hi.gvTmp hu]
    by_cases h0 : 0 < nt
    · have hN := hcf h0
      rw [if_pos ⟨hS, h0⟩]
      simp only [Option.getD_none] at hN ⊢
      have e1 : (nt / B.base.ratio + nt / B.base.ratio - 1) / (nt / B.base.ratio) = 1 := by
        generalize nt / B.base.ratio = N at *
        rw [Nat.div_eq_iff hN]; omega
      rw [e1]
      simp only [List.range_one, List.map_cons, List.map_nil, List.sum_cons, List.sum_nil, add_zero]
      rw [show min (nt / B.base.ratio) ((0 + 1) * (nt / B.base.ratio)) = nt / B.base.ratio by simp]
      rfl
    · obtain rfl : nt = 0 := by omega
      simp
  · rw [hi.gv (by simpa using hu)]
    rfl

/-- The backward driver on any device. -/
theorem BDevice.backward_shots (E : BDevice d nr S) (B : Batch d ns nr S ℝ) (h : ∀ s, (B.alone s).WF)
    (hr : 0 < B.base.ratio) (hS : 0 < S)
    (hrcv : ∀ s i j c, B.rcv s i = some c → B.rcv s j = some c → i = j)
    (grad : Bool) (cb : Option ℕ) (nt : ℕ) (hcf : 0 < nt → 0 < cb.getD (nt / B.base.ratio))
    (hT : cb = none ∨ B.batched = true ∨ E.buffers ≤ 1)
    (store : Fin S → ℕ → Fld d ℝ) (gr : Fin S → ℕ → Fin nr → ℝ) (g : Fin S → Init d ℝ) (hE : E.Admissible B cb nt) :
    ∃ r, ∃ b : Fin S → BwdResult d ns ℝ, E.backward B grad cb nt store gr g = .ok r ∧
      (∀ s, (B.alone s).backward grad cb nt (store s) (gr s) (g s) = .ok (b s)) ∧
      (∀ s, r.gf s = (b s).gf ∧ r.out s = (b s).out) ∧
      ∀ β, (B.batched = false → β = 0) → ∀ c, r.gv β c = ∑ s : Fin S,
        if (if B.batched then (s : ℕ) else 0) = β then (b s).gv c else 0 := by
  cases E with
  | cpu threads σ => exact B.backward_shots h hr hS grad cb nt hcf hT store gr g σ hE
  | cuda κ comb =>
      show ∃ r b, Gpu.gpuBackward B grad cb nt store gr g κ comb = .ok r ∧ _
      rw [Gpu.gpuBackward_eq B (fun s => by rw [← Batch.alone_eq]; exact h s) hrcv grad cb nt store gr g
        hE.1.valid hE.2]
      exact B.backward_shots h hr hS grad cb nt hcf hT store gr g _ (Gpu.lockScheds_valid B cb nt)

end

/-! ### Receivers -/

theorem rcv_inj {A : UArgs d} {P : Plan d} (h : A.setup.Good P) {s : ℕ} (hs : s < P.nb)
    (hrcv : ∀ l, A.rcv = some l → WholeIgnored d l s) (ns : ℕ) (i j : Fin (locAt P.rcvs 0).n) (c : Cell d)
    (hi : (cfg ns (locAt P.rcvs 0).n P s).rcv i = some c) (hj : (cfg ns (locAt P.rcvs 0).n P s).rcv j = some c) :
    i = j := by
  have hp := placed h hs A.rcv (List.mem_append_right _ (by simp [UArgs.setup])) hrcv
  have en : locAt P.rcvs 0 = idxOpt P.ext (padBegin P.accZ P.wL) (padEnd false P.accZ P.wL) P.nb A.rcv := by
    rw [(extractLocations_iff.1 h.rcvs).2]
    rfl
  have hl : (locAt P.rcvs 0).n = locCount A.rcv := by
    rw [en]
    cases A.rcv <;> rfl
  have key : ∀ i : Fin (locAt P.rcvs 0).n, (cfg ns (locAt P.rcvs 0).n P s).rcv i = (locCell A.rcv s i).map P.at := by
    intro i
    have hlt := i.isLt.trans_eq (hl.trans hp.length.symm)
    refine Eq.trans ?_ (hp.get ⟨i, hlt⟩)
    refine Eq.trans ?_ (cells_get _ _ _ ⟨i, hlt⟩).symm
    show cellOf (P.n false) ((locAt P.rcvs 0).val s i) = _
    exact congrArg (fun t : IdxT => cellOf (P.n false) (t.val s (i : ℕ))) en
  rw [key, Option.map_eq_some_iff] at hi hj
  obtain ⟨x, hx, rfl⟩ := hi
  obtain ⟨y, hy, e⟩ := hj
  obtain rfl := Plan.at_inj.1 e
  exact Fin.ext (locCell_inj h hs (List.mem_append_right _ (by simp [UArgs.setup])) hrcv (hl ▸ i.isLt) (hl ▸ j.isLt) hx hy)

end Dw.Scalar
