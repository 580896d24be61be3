import Verif.Gpu.Kernel
import Verif.Scalar.Shots

/-!
# The scalar propagator on the GPU

`scalar.cu`: the kernels (145-390), the loops over time steps of `forward` (440-690) and `backward`
(697-982), and the drivers in `scalar.py` for a CUDA device.  The commands of one call are executed
in the order in which they are issued; that the streams and events have this effect is C62.  Sizes
and launch dimensions are those of `Verif/Gpu/Kernel.lean`; the arrays of shot `s` start at
`s * shot_numel`.
-/

namespace Dw.Gpu

open Dw.Scalar

variable {d ns nr S : ℕ} {R : Type*} [Field R]

/-- Body of `forward_kernel` (`scalar.cu` 244-294) for one cell of one shot.  `pml_k` is
`k < pml_k0 || k >= pml_k1`. -/
def fwdThread (A : CArgs d ns nr R) (save : Bool) (wfc : Fld d R) (psi : Fin d → Fld d R)
    (c : Cell d) (s : FwdCell d R) : FwdCell d R :=
  let pml := fun k => decide (c k < A.pmlB k) || decide (c k ≥ A.pmlE k)
  let d1 := fun k => cDiff1 A.acc (A.rdx k) fun j => wfc (c.shift k j)
  let d2 := fun k => cDiff2 A.acc (A.rdx2 k) fun j => wfc (c.shift k j)
  let tmp := fun k => (1 + A.b k (c k)) * d2 k + A.db k (c k) * d1 k +
    cDiff1 A.acc (A.rdx k) fun j => A.a k (c k + j) * psi k (c.shift k j)
  let wSum := ∑ k, if !pml k then d2 k
    else (1 + A.b k (c k)) * tmp k + A.a k (c k) * s.zeta k
  { wfp := A.m c * A.m c * A.dt2 * wSum + 2 * wfc c - s.wfp
    psin := fun k => if !pml k then s.psin k
      else A.b k (c k) * d1 k + A.a k (c k) * psi k c
    zeta := fun k => if !pml k then s.zeta k
      else A.b k (c k) * tmp k + A.a k (c k) * s.zeta k
    store := if save then 2 * A.m c * A.dt2 * wSum else s.store }

/-- Body of `backward_kernel` (`scalar.cu` 336-389) for one cell of one shot, with the macros of
`scalar.cu` 58-112. -/
def bwdThread (A : CArgs d ns nr R) (load : Bool) (store wfc : Fld d R) (psi zeta : Fin d → Fld d R)
    (c : Cell d) (s : BwdCell d R) : BwdCell d R :=
  let pml := fun k => decide (c k < A.pmlB k) || decide (c k ≥ A.pmlE k)
  let v2dt2wfc := fun (k : Fin d) (j : ℤ) => A.m (c.shift k j) * wfc (c.shift k j)
  let psiTerm := fun (k : Fin d) (j : ℤ) =>
    (1 + A.b k (c k + j)) * v2dt2wfc k j + A.b k (c k + j) * zeta k (c.shift k j)
  let utTerm1 := fun (k : Fin d) (j : ℤ) =>
    A.db k (c k + j) * ((1 + A.b k (c k + j)) * v2dt2wfc k j
      + A.b k (c k + j) * zeta k (c.shift k j)) + A.b k (c k + j) * psi k (c.shift k j)
  let utTerm2 := fun (k : Fin d) (j : ℤ) =>
    (1 + A.b k (c k + j)) * ((1 + A.b k (c k + j)) * v2dt2wfc k j
      + A.b k (c k + j) * zeta k (c.shift k j))
  let wSum := ∑ k, if !pml k then cDiff2 A.acc (A.rdx2 k) (v2dt2wfc k)
    else -cDiff1 A.acc (A.rdx k) (utTerm1 k) + cDiff2 A.acc (A.rdx2 k) (utTerm2 k)
  { wfp := wSum + 2 * wfc c - s.wfp
    psin := fun k => if !pml k then s.psin k
      else -A.a k (c k) * cDiff1 A.acc (A.rdx k) (psiTerm k) + A.a k (c k) * psi k c
    zetan := fun k => if !pml k then s.zetan k
      else A.a k (c k) * (A.m c * wfc c) + A.a k (c k) * zeta k c
    grad := if load then s.grad + wfc c * store c * (A.ratio : R) else s.grad }

/-- How the threads of the launches of one time step are executed. -/
structure StepSched (d m S : ℕ) where
  /-- order of the threads of `forward_kernel` or `backward_kernel` -/
  order : List (Fin S × Cell d)
  /-- interleaving of the threads of `add_sources`: `m` locations for each shot -/
  add : List (Access (Fin S × Fin m))

/-- Threads of a kernel on a grid of shape `n`, and of `add_sources`. -/
structure StepSched.Valid {m : ℕ} (κ : StepSched d m S) (pad : ℕ) (n : Fin d → ℤ) : Prop where
  order : κ.order.Perm (work d S pad n)
  add : Interleaving κ.add

/-- `add_sources` for all shots: thread `(s, i)` addresses element `loc s i` of block `s`. -/
def addSources {m : ℕ} (tr : List (Access (Fin S × Fin m))) (w : Fin S → Fld d R)
    (loc : Fin S → Fin m → Option (Cell d)) (amp : Fin S → Fin m → R) : Fin S → Fld d R :=
  fun s c => runAdd (fun i : Fin S × Fin m => (loc i.1 i.2).map fun c => (i.1, c))
    (fun i => amp i.1 i.2) (fun _ => 0) tr (fun x : Fin S × Cell d => w x.1 x.2) (s, c)

/-- One iteration of the loop of `forward` (`scalar.cu` 606-686).  `sw` tells whether the pointers
have been exchanged an odd number of times. -/
def fwdStep (B : Batch d ns nr S R) (grad : Bool) (f : Fin S → ℕ → Fin ns → R)
    (κ : StepSched d ns S) (t : ℕ) (sw : Bool) (m : Fin S → FwdMem d nr R) :
    Fin S → FwdMem d nr R :=
  let b := fun s => if sw then (m s).bufs.swap else (m s).bufs
  let save := grad && t % B.base.ratio == 0
  let out := runKernel
    (fun s c => fwdThread (B.cfg s).fwdArgs save (b s).wfc (b s).psi c) κ.order fun s c =>
      { wfp := (b s).wfp c, psin := fun k => (b s).psin k c, zeta := fun k => (b s).zeta k c,
        store := (m s).store (t / B.base.ratio) c }
  let wfp := addSources κ.add (fun s c => (out s c).wfp) B.src fun s => f s t
  fun s =>
    let b' : FwdBufs d R :=
      { b s with
        wfp := wfp s
        psin := fun k c => (out s c).psin k
        zeta := fun k c => (out s c).zeta k }
    { bufs := if sw then b'.swap else b'
      store := if save then Function.update (m s).store (t / B.base.ratio) fun c => (out s c).store
        else (m s).store
      rcd := Function.update (m s).rcd t (recordFrom (b s).wfc (B.rcv s) ((m s).rcd t)) }

/-- `forward` of `scalar.cu`: the loop over time steps, the pointers being exchanged at the end of
each (677-685). -/
def gpuFwdCall (B : Batch d ns nr S R) (grad : Bool) (f : Fin S → ℕ → Fin ns → R)
    (κ : ℕ → StepSched d ns S) (start nt : ℕ) (m : Fin S → FwdMem d nr R) :
    Fin S → FwdMem d nr R :=
  ((List.range nt).foldl (fun x i =>
    (!x.1, fwdStep B grad f (κ (start + i)) (start + i) x.1 x.2)) (false, m)).2

/-- The loop over chunks (`scalar.py` 851-921). -/
def gpuFwdChunk (B : Batch d ns nr S R) (grad : Bool) (f : Fin S → ℕ → Fin ns → R)
    (κ : ℕ → StepSched d ns S)
    (m : (Fin S → FwdMem d nr R) × List (ℕ × (Fin S → Wavefields d R)))
    (chunk : ℕ × ℕ) : (Fin S → FwdMem d nr R) × List (ℕ × (Fin S → Wavefields d R)) :=
  let events := m.2 ++ [(chunk.1, fun s => (m.1 s).bufs.wavefields)]
  let m' := gpuFwdCall B grad f κ (chunk.1 * B.base.ratio) (chunk.2 * B.base.ratio) m.1
  (if (chunk.2 * B.base.ratio) % 2 ≠ 0 then fun s => { m' s with bufs := (m' s).bufs.swap }
   else m', events)

/-- `ScalarForwardFunc.forward` (`scalar.py` 600-934) on a CUDA device.  `κ t` is the execution of
the launches of time step `t`. -/
def gpuForward (B : Batch d ns nr S R) (grad : Bool) (cb : Option ℕ) (nt : ℕ)
    (f : Fin S → ℕ → Fin ns → R) (w : Fin S → Init d R) (κ : ℕ → StepSched d ns S) :
    Except PyErr (BatchFwdResult d nr S R) :=
  if B.base.ratio = 0 then .error .zeroDivision else
  let N := nt / B.base.ratio
  let cf := cb.getD N
  let m₀ : Fin S → FwdMem d nr R := fun s => ⟨B.base.initBufs (w s), fun _ _ => 0, fun _ _ => 0⟩
  if (0 < S ∧ 0 < nt) ∧ cf = 0 then .error .valueError else
  let m := if 0 < S ∧ 0 < nt then (chunks N cf).foldl (gpuFwdChunk B grad f κ) (m₀, [])
    else (m₀, [])
  .ok { out := fun s => ⟨B.base.unpad (m.1 s).bufs.wfc, B.base.unpad (m.1 s).bufs.wfp,
                fun k => B.base.unpad ((m.1 s).bufs.psi k), fun k => B.base.unpad ((m.1 s).bufs.zeta k)⟩
        rcd := fun s => (m.1 s).rcd, store := fun s => (m.1 s).store
        events := if cb.isSome then m.2 else [] }

/-! ### Backward -/

/-- Whether `grad_v_tmp` is allocated (`scalar.py` 1192-1203) and `combine_grad_v` launched
(`scalar.cu` 977-981). -/
def perShot (B : Batch d ns nr S R) (grad : Bool) : Bool := grad && !B.batched && 1 < S

/-- One iteration of the loop of `backward` (`scalar.cu` 892-976).  `grad_v_shot` is `grad_v_tmp` or
`grad_v`; a thread addresses the block of its shot. -/
def bwdStep (B : Batch d ns nr S R) (grad : Bool) (store : Fin S → ℕ → Fld d R)
    (gr : Fin S → ℕ → Fin nr → R) (κ : StepSched d nr S) (t : ℕ) (sw : Bool)
    (m : BatchBwdMem d ns S R) : BatchBwdMem d ns S R :=
  let b := fun s => if sw then (m.bufs s).swap else m.bufs s
  let load := grad && t % B.base.ratio == 0
  let shot := if perShot B grad then m.tmp else m.gv
  let out := runKernel
    (fun s c => bwdThread (B.cfg s).bwdArgs load (store s (t / B.base.ratio)) (b s).wfc (b s).psi
      (b s).zeta c) κ.order fun s c =>
      { wfp := (b s).wfp c, psin := fun k => (b s).psin k c, zetan := fun k => (b s).zetan k c,
        grad := shot s c }
  let wfp := addSources κ.add (fun s c => (out s c).wfp) B.rcv fun s => gr s t
  let shot' : ℕ → Fld d R := fun β => if h : β < S then fun c => (out ⟨β, h⟩ c).grad else shot β
  { bufs := fun s =>
      let b' : BwdBufs d R :=
        { b s with
          wfp := wfp s
          psin := fun k c => (out s c).psin k
          zetan := fun k c => (out s c).zetan k }
      if sw then b'.swap else b'
    gf := fun s => Function.update (m.gf s) t (recordFrom (b s).wfc (B.src s) (m.gf s t))
    gv := if perShot B grad then m.gv else shot'
    tmp := if perShot B grad then shot' else m.tmp }

/-- `backward` of `scalar.cu`: the loop over time steps, then `combine_grad_v` (171-203), whose
threads run in the order `comb`. -/
def gpuBwdCall (B : Batch d ns nr S R) (grad : Bool) (store : Fin S → ℕ → Fld d R)
    (gr : Fin S → ℕ → Fin nr → R) (κ : ℕ → StepSched d nr S) (comb : List (Fin 1 × Cell d))
    (start nt : ℕ) (m : BatchBwdMem d ns S R) : BatchBwdMem d ns S R :=
  let m' := ((List.range nt).foldl (fun x i =>
    (!x.1, bwdStep B grad store gr (κ (start - 1 - i)) (start - 1 - i) x.1 x.2)) (false, m)).2
  if perShot B grad then
    { m' with gv := Function.update m'.gv 0 (runKernel (fun _ c g =>
        (List.range S).foldl (fun g s => g + m'.tmp s c) g) comb (fun _ => m'.gv 0) 0) }
  else m'

/-- The loop over chunks (`scalar.py` 1250-1297). -/
def gpuBwdChunk (B : Batch d ns nr S R) (grad : Bool) (store : Fin S → ℕ → Fld d R)
    (gr : Fin S → ℕ → Fin nr → R) (κ : ℕ → StepSched d nr S) (comb : ℕ → List (Fin 1 × Cell d))
    (m : BatchBwdMem d ns S R) (chunk : ℕ × ℕ) : BatchBwdMem d ns S R :=
  let m' := gpuBwdCall B grad store gr κ (comb chunk.1) (chunk.1 * B.base.ratio)
    (chunk.2 * B.base.ratio) m
  if (chunk.2 * B.base.ratio) % 2 ≠ 0 then { m' with bufs := fun s => (m'.bufs s).swap } else m'

/-- `ScalarBackwardFunc.forward` (`scalar.py` 1026-1342) on a CUDA device. -/
def gpuBackward (B : Batch d ns nr S R) (grad : Bool) (cb : Option ℕ) (nt : ℕ)
    (store : Fin S → ℕ → Fld d R) (gr : Fin S → ℕ → Fin nr → R) (g : Fin S → Init d R)
    (κ : ℕ → StepSched d nr S) (comb : ℕ → List (Fin 1 × Cell d)) :
    Except PyErr (BatchBwdResult d ns S R) :=
  if B.base.ratio = 0 then .error .zeroDivision else
  let N := nt / B.base.ratio
  let cf := cb.getD N
  let m₀ : BatchBwdMem d ns S R :=
    ⟨fun s => B.base.initBwdBufs (g s), fun _ _ _ => 0, fun _ _ => 0, fun _ _ => 0⟩
  if (0 < S ∧ 0 < nt) ∧ cf = 0 then .error .valueError else
  let m := if 0 < S ∧ 0 < nt then (bwdChunks N cf).foldl (gpuBwdChunk B grad store gr κ comb) m₀
    else m₀
  .ok { gv := m.gv, gf := m.gf
        out := fun s => ⟨B.base.unpad (m.bufs s).wfc, B.base.unpad (fun c => -(m.bufs s).wfp c),
          fun k => B.base.unpad ((m.bufs s).psi k), fun k => B.base.unpad ((m.bufs s).zeta k)⟩ }

/-! ### One launch -/

omit [Field R] in
theorem pml_eq (A : CArgs d ns nr R) (c : Cell d) (k : Fin d) :
    ((!(decide (c k < A.pmlB k) || decide (c k ≥ A.pmlE k))) = true) = (A.regionOf c k = .mid) := by
  rw [CArgs.regionOf_mid]
  simp

theorem fwdThread_eq (A : CArgs d ns nr R) (save : Bool) (wfc : Fld d R) (psi : Fin d → Fld d R)
    (c : Cell d) (s : FwdCell d R) :
    fwdThread A save wfc psi c s = fwdBody A save wfc psi (A.regionOf c) c s := by
  simp only [fwdThread, fwdBody, pml_eq]

theorem bwdThread_eq (A : CArgs d ns nr R) (load : Bool) (store wfc : Fld d R)
    (psi zeta : Fin d → Fld d R) (c : Cell d) (s : BwdCell d R) :
    bwdThread A load store wfc psi zeta c s =
      bwdBody A load store wfc psi zeta (A.regionOf c) c s := by
  simp only [bwdThread, bwdBody, pml_eq]

/-- No two locations of a shot are the same cell. -/
def Distinct {m : ℕ} (loc : Fin S → Fin m → Option (Cell d)) : Prop :=
  ∀ s i j c, loc s i = some c → loc s j = some c → i = j

theorem addSources_eq {m : ℕ} {tr : List (Access (Fin S × Fin m))} (htr : Interleaving tr)
    (w : Fin S → Fld d R) {loc : Fin S → Fin m → Option (Cell d)} (hl : Distinct loc)
    (amp : Fin S → Fin m → R) (s : Fin S) :
    addSources tr w loc amp s = addTo (w s) (loc s) (amp s) := by
  funext c
  rw [addTo_eq, inject]
  have hinj : ∀ (i j : Fin S × Fin m) (x : Fin S × Cell d),
      ((loc i.1 i.2).map fun c => (i.1, c)) = some x →
      ((loc j.1 j.2).map fun c => (j.1, c)) = some x → i = j := by
    rintro ⟨s1, i⟩ ⟨s2, j⟩ ⟨s3, c⟩ h1 h2
    simp only [Option.map_eq_some_iff, Prod.mk.injEq] at h1 h2
    obtain ⟨c1, h1, rfl, rfl⟩ := h1
    obtain ⟨c2, h2, rfl, rfl⟩ := h2
    rw [hl _ i j _ h1 h2]
  by_cases hx : ∃ i, loc s i = some c
  · obtain ⟨i, hi⟩ := hx
    rw [addSources, runAdd_of_loc _ _ _ htr hinj _ (i := (s, i)) (by simp [hi])]
    congr 1
    rw [Finset.sum_eq_single i]
    · simp [hi]
    · intro j _ hj
      rw [if_neg]
      intro h
      exact hj (hl s j i c h hi)
    · simp
  · rw [addSources, runAdd_of_not_loc, Finset.sum_eq_zero]
    · simp
    · intro i _
      rw [if_neg]
      intro h
      exact hx ⟨i, h⟩
    · rintro ⟨s', i⟩ h
      simp only [Option.map_eq_some_iff, Prod.mk.injEq] at h
      obtain ⟨c', h', rfl, rfl⟩ := h
      exact hx ⟨i, h'⟩

/-! ### Forward -/

theorem fwdStep_eq (B : Batch d ns nr S R) (h : ∀ s, (B.cfg s).WF) (hsrc : Distinct B.src)
    (grad : Bool) (f : Fin S → ℕ → Fin ns → R) {κ : StepSched d ns S}
    (hκ : κ.Valid B.base.acc.pad B.base.n) (start t : ℕ) (m : Fin S → FwdMem d nr R) (s : Fin S) :
    fwdStep B grad f κ t ((t - start) % 2 == 1) m s =
      fwdIter (B.cfg s).fwdArgs grad (f s) start t (m s) := by
  have hr : (B.cfg s).fwdArgs.ratio = B.base.ratio := rfl
  have hsr : (B.cfg s).fwdArgs.src = B.src s := rfl
  have hrc : (B.cfg s).fwdArgs.rcv = B.rcv s := rfl
  simp only [fwdStep, fwdIter, hr, hsr, hrc]
  have hk : ∀ (save : Bool) (wfc : Fin S → Fld d R) (psi : Fin S → Fin d → Fld d R)
      (m₀ : Fin S → Cell d → FwdCell d R) (c : Cell d),
      runKernel (fun s c => fwdThread (B.cfg s).fwdArgs save (wfc s) (psi s) c) κ.order m₀ s c =
        foldUpdate (fwdBody (B.cfg s).fwdArgs save (wfc s) (psi s)) (B.cfg s).fwdArgs.visits
          (m₀ s) c := by
    intro save wfc psi m₀ c
    rw [runKernel_eq _ hκ.order, CArgs.fold_visits (Cfg.ordered_fwd (h s)), fwdThread_eq]
    rfl
  simp only [hk, addSources_eq hκ.add _ hsrc]

theorem gpuFwdCall_eq (B : Batch d ns nr S R) (h : ∀ s, (B.cfg s).WF) (hsrc : Distinct B.src)
    (grad : Bool) (f : Fin S → ℕ → Fin ns → R) {κ : ℕ → StepSched d ns S}
    (hκ : ∀ t, (κ t).Valid B.base.acc.pad B.base.n) (start nt : ℕ) (m : Fin S → FwdMem d nr R)
    (s : Fin S) :
    gpuFwdCall B grad f κ start nt m s =
      Scalar.fwdCall (B.cfg s).fwdArgs grad (f s) start nt (m s) := by
  unfold gpuFwdCall Scalar.fwdCall
  have key : (List.range nt).foldl (fun (x : Bool × (Fin S → FwdMem d nr R)) i =>
      (!x.1, fwdStep B grad f (κ (start + i)) (start + i) x.1 x.2)) (false, m) =
      (nt % 2 == 1, fun s => (List.range nt).foldl (fun m i =>
        fwdIter (B.cfg s).fwdArgs grad (f s) start (start + i) m) (m s)) := by
    induction nt with
    | zero => rfl
    | succ n ih =>
        rw [List.range_succ, List.foldl_append, ih]
        simp only [List.foldl_cons, List.foldl_nil, List.foldl_append]
        congr 1
        · rcases Nat.mod_two_eq_zero_or_one n with h | h <;> simp [Nat.add_mod, h]
        · funext s
          have := fwdStep_eq B h hsrc grad f (hκ (start + n)) start (start + n)
            (fun s => (List.range n).foldl (fun m i =>
              fwdIter (B.cfg s).fwdArgs grad (f s) start (start + i) m) (m s)) s
          rwa [Nat.add_sub_cancel_left] at this
  rw [key]

/-- The GPU driver leaves what the CPU driver leaves, whatever the execution of either. -/
theorem gpuForward_eq {P : ℕ} (B : Batch d ns nr S R) (h : ∀ s, (B.cfg s).WF)
    (hsrc : Distinct B.src) (grad : Bool) (cb : Option ℕ) (nt : ℕ) (f : Fin S → ℕ → Fin ns → R)
    (w : Fin S → Init d R) {κ : ℕ → StepSched d ns S}
    (hκ : ∀ t, (κ t).Valid B.base.acc.pad B.base.n) (σ : ℕ → Sched S P)
    (hσ : ∀ chunk ∈ chunks (nt / B.base.ratio) (cb.getD (nt / B.base.ratio)),
      (σ chunk.1).Valid (fwdSteps (chunk.1 * B.base.ratio) (chunk.2 * B.base.ratio))) :
    gpuForward B grad cb nt f w κ = B.forward grad cb nt f w σ := by
  have hc : ∀ (l : List (ℕ × ℕ)), (∀ chunk ∈ l,
      (σ chunk.1).Valid (fwdSteps (chunk.1 * B.base.ratio) (chunk.2 * B.base.ratio))) →
      ∀ m, l.foldl (gpuFwdChunk B grad f κ) m = l.foldl (B.fwdChunk grad f σ) m := by
    intro l
    induction l with
    | nil => intro _ m; rfl
    | cons c l ih =>
        intro hl m
        rw [List.foldl_cons, List.foldl_cons, ih fun x hx => hl x (List.mem_cons_of_mem _ hx)]
        congr 1
        have e : gpuFwdCall B grad f κ (c.1 * B.base.ratio) (c.2 * B.base.ratio) m.1 =
            B.fwdCall grad f (c.1 * B.base.ratio) (σ c.1) m.1 := by
          funext s
          rw [gpuFwdCall_eq B h hsrc grad f hκ,
            B.fwdCall_apply grad f _ _ _ (hl c List.mem_cons_self)]
        simp only [gpuFwdChunk, Batch.fwdChunk, e]
  unfold gpuForward Batch.forward
  simp only [hc _ hσ]

/-! ### Backward -/

/-- All shots advance by one step, one after the other. -/
theorem foldl_bwdStep (B : Batch d ns nr S R) (grad : Bool) (store : Fin S → ℕ → Fld d R)
    (gr : Fin S → ℕ → Fin nr → R) (start t : ℕ) (l : List (Fin S)) (hl : l.Nodup)
    (m : BatchBwdMem d ns S R) :
    let shot := fun m : BatchBwdMem d ns S R => if perShot B grad then m.tmp else m.gv
    let m' := (l.map fun s => (s, t)).foldl (B.bwdStep grad S store gr start id) m
    let it := fun s : Fin S => bwdIter (B.cfg s).bwdArgs grad (store s) (gr s) start t
      ⟨m.bufs s, m.gf s, shot m s⟩
    (∀ s, m'.bufs s = if s ∈ l then (it s).bufs else m.bufs s) ∧
    (∀ s, m'.gf s = if s ∈ l then (it s).gf else m.gf s) ∧
    (∀ β, shot m' β = if h : β < S then (if (⟨β, h⟩ : Fin S) ∈ l then (it ⟨β, h⟩).gv else shot m β)
      else shot m β) ∧
    (perShot B grad = true → m'.gv = m.gv) ∧ (perShot B grad = false → m'.tmp = m.tmp) := by
  have hu : B.useTmp grad S = perShot B grad := rfl
  have hb : ∀ s : Fin S, B.block id s = s := by intro s; simp [Batch.block]
  induction l generalizing m with
  | nil => simp
  | cons s₀ l ih =>
      rw [List.nodup_cons] at hl
      obtain ⟨h1, h2, h3, h4, h5⟩ := ih hl.2 (B.bwdStep grad S store gr start id m (s₀, t))
      have e1 : ∀ s, s ≠ s₀ → (B.bwdStep grad S store gr start id m (s₀, t)).bufs s = m.bufs s := by
        intro s hs; simp [Batch.bwdStep, Function.update_of_ne hs]
      have e2 : ∀ s, s ≠ s₀ → (B.bwdStep grad S store gr start id m (s₀, t)).gf s = m.gf s := by
        intro s hs; simp [Batch.bwdStep, Function.update_of_ne hs]
      have e3 : ∀ β : ℕ, β ≠ s₀ → (if perShot B grad then
          (B.bwdStep grad S store gr start id m (s₀, t)).tmp else
          (B.bwdStep grad S store gr start id m (s₀, t)).gv) β =
          (if perShot B grad then m.tmp else m.gv) β := by
        intro β hβ
        simp only [Batch.bwdStep, hu, hb]
        split_ifs <;> rw [Function.update_of_ne hβ]
      have hit : (if perShot B grad then m.tmp s₀ else m.gv s₀) =
          (if perShot B grad then m.tmp else m.gv) s₀ := by split_ifs <;> rfl
      refine ⟨fun s => ?_, fun s => ?_, fun β => ?_, fun hp => ?_, fun hp => ?_⟩
      · rw [List.map_cons, List.foldl_cons, h1 s]
        by_cases hs : s = s₀
        · subst hs
          simp only [hl.1, if_false, List.mem_cons, true_or, if_true, Batch.bwdStep, hu, hb, hit,
            Function.update_self]
        · simp only [e1 s hs, e2 s hs, List.mem_cons, hs, false_or,
            e3 s fun h => hs (Fin.ext h)]
      · rw [List.map_cons, List.foldl_cons, h2 s]
        by_cases hs : s = s₀
        · subst hs
          simp only [hl.1, if_false, List.mem_cons, true_or, if_true, Batch.bwdStep, hu, hb, hit,
            Function.update_self]
        · simp only [e1 s hs, e2 s hs, List.mem_cons, hs, false_or,
            e3 s fun h => hs (Fin.ext h)]
      · rw [List.map_cons, List.foldl_cons, h3 β]
        by_cases hβ : β < S
        · simp only [hβ, dif_pos]
          by_cases hs : (⟨β, hβ⟩ : Fin S) = s₀
          · subst hs
            simp only [hl.1, if_false, List.mem_cons, true_or, if_true]
            simp only [Batch.bwdStep, hu, hb]
            by_cases hp : perShot B grad = true
            · simp [hp]
            · simp [hp]
          · have hs' : β ≠ (s₀ : ℕ) := fun h => hs (Fin.ext h)
            simp only [e1 _ hs, e2 _ hs, List.mem_cons, hs, false_or, e3 β hs']
        · simp only [hβ, dif_neg, not_false_eq_true]
          exact e3 β (by omega)
      · rw [List.map_cons, List.foldl_cons, h4 hp]
        simp [Batch.bwdStep, hu, hp]
      · rw [List.map_cons, List.foldl_cons, h5 hp]
        simp [Batch.bwdStep, hu, hp]

theorem bwdStep_eq (B : Batch d ns nr S R) (h : ∀ s, (B.cfg s).WF) (hrcv : Distinct B.rcv)
    (grad : Bool) (store : Fin S → ℕ → Fld d R) (gr : Fin S → ℕ → Fin nr → R)
    {κ : StepSched d nr S} (hκ : κ.Valid B.base.acc.pad B.base.n) (start t : ℕ)
    (m : BatchBwdMem d ns S R) :
    bwdStep B grad store gr κ t ((start - 1 - t) % 2 == 1) m =
      ((List.finRange S).map fun s => (s, t)).foldl (B.bwdStep grad S store gr start id) m := by
  obtain ⟨h1, h2, h3, h4, h5⟩ := foldl_bwdStep B grad store gr start t (List.finRange S)
    (List.nodup_finRange S) m
  simp only [List.mem_finRange, if_true] at h1 h2 h3
  generalize ((List.finRange S).map fun s => (s, t)).foldl
    (B.bwdStep grad S store gr start id) m = m' at h1 h2 h3 h4 h5
  have hk : ∀ (load : Bool) (st wfc : Fin S → Fld d R) (psi zeta : Fin S → Fin d → Fld d R)
      (m₀ : Fin S → Cell d → BwdCell d R) (s : Fin S) (c : Cell d),
      runKernel (fun s c => bwdThread (B.cfg s).bwdArgs load (st s) (wfc s) (psi s) (zeta s) c)
        κ.order m₀ s c =
        foldUpdate (bwdBody (B.cfg s).bwdArgs load (st s) (wfc s) (psi s) (zeta s))
          (B.cfg s).bwdArgs.visits (m₀ s) c := by
    intro load st wfc psi zeta m₀ s c
    rw [runKernel_eq _ hκ.order, CArgs.fold_visits (Cfg.ordered_bwd (h s)), bwdThread_eq]
    rfl
  have hr : ∀ s, (B.cfg s).bwdArgs.ratio = B.base.ratio := fun _ => rfl
  have hsr : ∀ s, (B.cfg s).bwdArgs.src = B.src s := fun _ => rfl
  have hrc : ∀ s, (B.cfg s).bwdArgs.rcv = B.rcv s := fun _ => rfl
  have hshot : (if perShot B grad then m'.tmp else m'.gv) = fun β => if hβ : β < S then
      (bwdIter (B.cfg ⟨β, hβ⟩).bwdArgs grad (store ⟨β, hβ⟩) (gr ⟨β, hβ⟩) start t
        ⟨m.bufs ⟨β, hβ⟩, m.gf ⟨β, hβ⟩, (if perShot B grad then m.tmp else m.gv) β⟩).gv
      else (if perShot B grad then m.tmp else m.gv) β := funext h3
  have ebufs : (bwdStep B grad store gr κ t ((start - 1 - t) % 2 == 1) m).bufs = m'.bufs := by
    funext s
    rw [h1 s]
    simp only [bwdStep, hk, addSources_eq hκ.add _ hrcv, bwdIter, hr, hrc]
  have egf : (bwdStep B grad store gr κ t ((start - 1 - t) % 2 == 1) m).gf = m'.gf := by
    funext s
    rw [h2 s]
    simp only [bwdStep, bwdIter, hsr]
  have eshot : (if perShot B grad then (bwdStep B grad store gr κ t ((start - 1 - t) % 2 == 1) m).tmp
      else (bwdStep B grad store gr κ t ((start - 1 - t) % 2 == 1) m).gv) =
      (if perShot B grad then m'.tmp else m'.gv) := by
    rw [hshot]
    have e0 : (if perShot B grad then (bwdStep B grad store gr κ t ((start - 1 - t) % 2 == 1) m).tmp
        else (bwdStep B grad store gr κ t ((start - 1 - t) % 2 == 1) m).gv) = fun β =>
        if hβ : β < S then fun c => (foldUpdate (bwdBody (B.cfg ⟨β, hβ⟩).bwdArgs
            (grad && t % B.base.ratio == 0) (store ⟨β, hβ⟩ (t / B.base.ratio))
            (if ((start - 1 - t) % 2 == 1) = true then (m.bufs ⟨β, hβ⟩).swap else m.bufs ⟨β, hβ⟩).wfc
            (if ((start - 1 - t) % 2 == 1) = true then (m.bufs ⟨β, hβ⟩).swap else m.bufs ⟨β, hβ⟩).psi
            (if ((start - 1 - t) % 2 == 1) = true then (m.bufs ⟨β, hβ⟩).swap else m.bufs ⟨β, hβ⟩).zeta)
            (B.cfg ⟨β, hβ⟩).bwdArgs.visits (fun c =>
              { wfp := (if ((start - 1 - t) % 2 == 1) = true then (m.bufs ⟨β, hβ⟩).swap
                  else m.bufs ⟨β, hβ⟩).wfp c
                psin := fun k => (if ((start - 1 - t) % 2 == 1) = true then (m.bufs ⟨β, hβ⟩).swap
                  else m.bufs ⟨β, hβ⟩).psin k c
                zetan := fun k => (if ((start - 1 - t) % 2 == 1) = true then (m.bufs ⟨β, hβ⟩).swap
                  else m.bufs ⟨β, hβ⟩).zetan k c
                grad := (if perShot B grad then m.tmp else m.gv) β c }) c).grad
        else (if perShot B grad then m.tmp else m.gv) β := by
      simp only [bwdStep, hk]
      by_cases hp : perShot B grad = true
      · simp only [hp, if_true]
      · simp only [hp, if_false, Bool.false_eq_true]
    rw [e0]
    rfl
  cases hm : bwdStep B grad store gr κ t ((start - 1 - t) % 2 == 1) m with
  | mk b1 g1 v1 t1 =>
  have hv : perShot B grad = true →
      (bwdStep B grad store gr κ t ((start - 1 - t) % 2 == 1) m).gv = m.gv := by
    intro hp; simp [bwdStep, hp]
  have ht : perShot B grad = false →
      (bwdStep B grad store gr κ t ((start - 1 - t) % 2 == 1) m).tmp = m.tmp := by
    intro hp; simp [bwdStep, hp]
  rw [hm] at ebufs egf eshot hv ht
  cases m' with
  | mk b2 g2 v2 t2 =>
  simp only at ebufs egf eshot hv ht h4 h5
  subst ebufs egf
  by_cases hp : perShot B grad = true
  · simp only [hp, if_true] at eshot
    rw [hv hp, eshot, h4 hp]
  · rw [Bool.not_eq_true] at hp
    simp only [hp, Bool.false_eq_true, if_false] at eshot
    rw [ht hp, eshot, h5 hp]

/-- All shots in lockstep, one thread per shot. -/
def lockSched (S : ℕ) (ts : List ℕ) : Sched S S :=
  ⟨id, ts.flatMap fun t => (List.finRange S).map fun s => (s, t)⟩

theorem lockSched_valid (S : ℕ) (ts : List ℕ) : (lockSched S ts).Valid ts := by
  intro s
  simp only [lockSched]
  induction ts with
  | nil => rfl
  | cons t ts ih =>
      rw [List.flatMap_cons, List.filter_append, List.map_append, ih]
      have : ((List.finRange S).map fun s => (s, t)).filter (fun e => e.1 = s) = [(s, t)] := by
        rw [List.filter_map]
        have h2 : (List.finRange S).filter ((fun e : Fin S × ℕ => decide (e.1 = s)) ∘ fun s => (s, t)) =
            [s] := by
          have : ((fun e : Fin S × ℕ => decide (e.1 = s)) ∘ fun s => (s, t)) = fun x => x == s := by
            funext x; exact (beq_eq_decide x s).symm
          rw [this, List.filter_beq, List.count_eq_one_of_mem (List.nodup_finRange S)
            (List.mem_finRange s)]
          rfl
        rw [h2]
        rfl
      rw [this]
      rfl

theorem foldl_lock (B : Batch d ns nr S R) (h : ∀ s, (B.cfg s).WF) (hrcv : Distinct B.rcv)
    (grad : Bool) (store : Fin S → ℕ → Fld d R) (gr : Fin S → ℕ → Fin nr → R)
    {κ : ℕ → StepSched d nr S} (hκ : ∀ t, (κ t).Valid B.base.acc.pad B.base.n) (start nt : ℕ)
    (hst : nt ≤ start) (m : BatchBwdMem d ns S R) :
    (List.range nt).foldl (fun (x : Bool × BatchBwdMem d ns S R) i =>
      (!x.1, bwdStep B grad store gr (κ (start - 1 - i)) (start - 1 - i) x.1 x.2)) (false, m) =
      (nt % 2 == 1, (lockSched S (bwdSteps start nt)).trace.foldl
        (B.bwdStep grad S store gr start id) m) := by
  induction nt with
  | zero => rfl
  | succ n ih =>
      rw [List.range_succ, List.foldl_append, ih (by omega)]
      simp only [List.foldl_cons, List.foldl_nil, lockSched, bwdSteps, List.range_succ,
        List.map_append, List.flatMap_append, List.foldl_append, List.map_cons, List.map_nil,
        List.flatMap_cons, List.flatMap_nil, List.append_nil]
      congr 1
      · rcases Nat.mod_two_eq_zero_or_one n with h | h <;> simp [Nat.add_mod, h]
      · rw [← bwdStep_eq B h hrcv grad store gr (hκ _) start (start - 1 - n),
          show start - 1 - (start - 1 - n) = n by omega]

/-- The gradient buffers of the shots are zero outside the interior. -/
def TmpIn (B : Batch d ns nr S R) (m : BatchBwdMem d ns S R) : Prop :=
  ∀ β c, ¬B.base.Inner c → m.tmp β c = 0

theorem TmpIn.step {B : Batch d ns nr S R} {grad : Bool} {store : Fin S → ℕ → Fld d R}
    {gr : Fin S → ℕ → Fin nr → R} {κ : StepSched d nr S}
    (hκ : κ.Valid B.base.acc.pad B.base.n) {t : ℕ} {sw : Bool} {m : BatchBwdMem d ns S R}
    (hm : TmpIn B m) : TmpIn B (bwdStep B grad store gr κ t sw m) := by
  intro β c hc
  by_cases hp : perShot B grad = true
  · simp only [bwdStep, hp, if_true]
    by_cases hb : β < S
    · simp only [hb, dif_pos]
      rw [runKernel_eq _ hκ.order]
      refine Eq.trans (congrArg BwdCell.grad (if_neg hc)) ?_
      exact hm β c hc
    · simp only [hb, dif_neg, not_false_eq_true]
      exact hm β c hc
  · simp only [bwdStep, hp, Bool.false_eq_true, if_false]
    exact hm β c hc

/-- A call is a call of the CPU function with one thread for each shot, all in lockstep. -/
theorem gpuBwdCall_eq (B : Batch d ns nr S R) (h : ∀ s, (B.cfg s).WF) (hrcv : Distinct B.rcv)
    (grad : Bool) (store : Fin S → ℕ → Fld d R) (gr : Fin S → ℕ → Fin nr → R)
    {κ : ℕ → StepSched d nr S} (hκ : ∀ t, (κ t).Valid B.base.acc.pad B.base.n)
    {comb : List (Fin 1 × Cell d)} (hcomb : comb.Perm (work d 1 B.base.acc.pad B.base.n))
    (start nt : ℕ) (hst : nt ≤ start) (m : BatchBwdMem d ns S R) (hm : TmpIn B m) :
    gpuBwdCall B grad store gr κ comb start nt m =
        B.bwdCall grad store gr start (lockSched S (bwdSteps start nt)) m ∧
      TmpIn B (gpuBwdCall B grad store gr κ comb start nt m) := by
  have hz : TmpIn B ((List.range nt).foldl (fun (x : Bool × BatchBwdMem d ns S R) i =>
      (!x.1, bwdStep B grad store gr (κ (start - 1 - i)) (start - 1 - i) x.1 x.2)) (false, m)).2 := by
    clear hst
    induction nt with
    | zero => exact hm
    | succ n ih =>
        rw [List.range_succ, List.foldl_append]
        exact TmpIn.step (hκ _) ih
  have hu : B.useTmp grad S = perShot B grad := rfl
  have e := foldl_lock B h hrcv grad store gr hκ start nt hst m
  simp only [gpuBwdCall, Batch.bwdCall, hu, e] at hz ⊢
  have hid : (lockSched S (bwdSteps start nt)).thread = id := rfl
  rw [hid]
  generalize (lockSched S (bwdSteps start nt)).trace.foldl
    (B.bwdStep grad S store gr start id) m = m' at hz ⊢
  by_cases hp : perShot B grad = true
  · simp only [hp, if_true]
    refine ⟨?_, hz⟩
    congr 2
    funext c
    rw [runKernel_eq _ hcomb]
    split_ifs with hc
    · rfl
    · rw [foldl_add_eq, Finset.sum_eq_zero fun θ _ => hz θ c hc, add_zero]
  · simp only [hp, Bool.false_eq_true, if_false]
    exact ⟨trivial, hz⟩

/-- Executions of `combine_grad_v`. -/
def CombValid (B : Batch d ns nr S R) (comb : ℕ → List (Fin 1 × Cell d)) : Prop :=
  ∀ step, (comb step).Perm (work d 1 B.base.acc.pad B.base.n)

/-- The lockstep execution of all chunks. -/
def lockScheds (B : Batch d ns nr S R) (cf : ℕ) (step : ℕ) : Sched S S :=
  lockSched S (bwdSteps (step * B.base.ratio) (min step cf * B.base.ratio))

/-- The backward driver on the GPU is the driver on the CPU with a thread for each shot, all in
lockstep. -/
theorem gpuBackward_eq (B : Batch d ns nr S R) (h : ∀ s, (B.cfg s).WF) (hrcv : Distinct B.rcv)
    (grad : Bool) (cb : Option ℕ) (nt : ℕ) (store : Fin S → ℕ → Fld d R)
    (gr : Fin S → ℕ → Fin nr → R) (g : Fin S → Init d R)
    {κ : ℕ → StepSched d nr S} (hκ : ∀ t, (κ t).Valid B.base.acc.pad B.base.n)
    {comb : ℕ → List (Fin 1 × Cell d)} (hcomb : CombValid B comb) :
    gpuBackward B grad cb nt store gr g κ comb =
      B.backward grad cb nt store gr g (lockScheds B (cb.getD (nt / B.base.ratio))) := by
  generalize hcf : cb.getD (nt / B.base.ratio) = cf
  have hc : ∀ (l : List (ℕ × ℕ)), (∀ chunk ∈ l, chunk.2 = min chunk.1 cf) → ∀ m, TmpIn B m →
      l.foldl (gpuBwdChunk B grad store gr κ comb) m =
        l.foldl (B.bwdChunk grad store gr (lockScheds B cf)) m := by
    intro l
    induction l with
    | nil => intro _ m _; rfl
    | cons c l ih =>
        intro hl m hm
        have hc2 := hl c List.mem_cons_self
        obtain ⟨e, hz⟩ := gpuBwdCall_eq B h hrcv grad store gr hκ (hcomb c.1) (c.1 * B.base.ratio)
          (c.2 * B.base.ratio) (Nat.mul_le_mul_right _ (by omega)) m hm
        have hch : gpuBwdChunk B grad store gr κ comb m c =
            B.bwdChunk grad store gr (lockScheds B cf) m c := by
          simp only [gpuBwdChunk, Batch.bwdChunk, e, lockScheds, ← hc2]
        have hz' : TmpIn B (gpuBwdChunk B grad store gr κ comb m c) := by
          simp only [gpuBwdChunk]
          split_ifs
          · exact hz
          · exact hz
        rw [List.foldl_cons, List.foldl_cons, ih (fun x hx => hl x (List.mem_cons_of_mem _ hx)) _ hz',
          hch]
  have hch : ∀ chunk ∈ bwdChunks (nt / B.base.ratio) cf, chunk.2 = min chunk.1 cf := by
    intro chunk hm
    simp only [bwdChunks, List.mem_map] at hm
    obtain ⟨i, _, rfl⟩ := hm
    rfl
  unfold gpuBackward Batch.backward
  simp only [hcf, hc _ hch _ (fun _ _ _ => rfl : TmpIn B
    ⟨fun s => B.base.initBwdBufs (g s), fun _ _ _ => 0, fun _ _ => 0, fun _ _ => 0⟩)]

end Dw.Gpu
