import Verif.Gpu.Batch
import Verif.Acoustic.Shots

/-!
# The acoustic propagator on the GPU

`acoustic.cu`: the kernels (127-648), the loops over time steps of `forward` (700-1178) and `backward`
(1180-1740), and the drivers in `acoustic.py` for a CUDA device.  The commands of a call are executed
in the order in which they are issued (C62).  The grids cover `n - 2 * FD_PAD + 1` points of each
dimension (857-869, 1366-1378).
-/

namespace Dw.Gpu

open Dw.Scalar (addTo recordFrom)

variable {d : ℕ} {R : Type*} [Field R]

/-- Cells of a staggered-grid kernel launch: `FD_PAD ≤ x < nx - FD_PAD + 1` in each dimension. -/
def stagWork (d S pad : ℕ) (n : Fin d → ℤ) : List (Fin S × Cell d) := work d S pad fun k => n k + 1

theorem runKernel_stag {S pad : ℕ} {n : Fin d → ℤ} {σ : Type*} (body : Fin S → Cell d → σ → σ)
    {order : List (Fin S × Cell d)} (h : order.Perm (stagWork d S pad n)) (m : Fin S → Cell d → σ)
    (s : Fin S) (c : Cell d) :
    runKernel body order m s c =
      if ∀ k, (pad : ℤ) ≤ c k ∧ c k < n k - pad + 1 then body s c (m s c) else m s c := by
  rw [runKernel_eq body h]
  refine if_congr ?_ rfl rfl
  refine forall_congr' fun k => and_congr_right fun _ => ?_
  omega

end Dw.Gpu

namespace Dw.Acoustic

open Dw.Scalar (addTo recordFrom)
open Dw.Gpu

variable {d np mp S : ℕ} {nv mv : Fin d → ℕ} {R : Type*} [Field R]

/-- Body of `forward_kernel_v` (`acoustic.cu` 233-304) for one cell of one shot; the state is that of
all velocity components. -/
def velThread (A : CArgs d np mp nv mv R) (save : Bool) (p : Fld d R) (c : Cell d)
    (s : Fin d → VCell R) : Fin d → VCell R := fun k =>
  if c k < A.n k - A.acc.pad then
    let pml := decide (c k < A.pmlB k) || decide (c k ≥ max (A.pmlB k) (A.pmlE k - 1))
    let g := cSH1 A.acc (A.rdx k) fun j => p (c.shift k j)
    let psi := if pml then A.bh k (c k) * g + A.ah k (c k) * (s k).psi else (s k).psi
    let term := if pml then g + psi else g
    { v := (s k).v - A.dt * A.B k c * term
      psi := psi
      store := if save then term else (s k).store }
  else s k

/-- Body of `forward_kernel_p` (`acoustic.cu` 355-398). -/
def prsThread (A : CArgs d np mp nv mv R) (save : Bool) (v : Fin d → Fld d R) (c : Cell d)
    (s : PCell d R) : PCell d R :=
  let pml := fun k => decide (c k < A.pmlB k) || decide (c k ≥ A.pmlE k)
  let dv := fun k => cS1 A.acc (A.rdx k) fun j => v k (c.shift k j)
  let phi := fun k => if pml k then A.a k (c k) * s.phi k + A.b k (c k) * dv k else s.phi k
  let div := ∑ k, if pml k then dv k + phi k else dv k
  { p := s.p - A.dt * A.K c * div
    phi := phi
    store := if save then div else s.store }

/-- Body of `backward_kernel_v` (`acoustic.cu` 470-539). -/
def bVelThread (A : CArgs d np mp nv mv R) (load : Bool) (store : Fin d → Fld d R) (p : Fld d R)
    (phi psi : Fin d → Fld d R) (c : Cell d) (s : Fin d → BVCell R) : Fin d → BVCell R := fun k =>
  if c k < A.n k - A.acc.pad then
    let pml := decide (c k < A.pmlB k) || decide (c k ≥ max (A.pmlB k) (A.pmlE k - 1))
    let adj := fun j : ℤ => -A.dt * A.K (c.shift k j) * p (c.shift k j)
    let adjPml := fun j : ℤ => A.b k (c k + j) * phi k (c.shift k j)
      - A.dt * (1 + A.b k (c k + j)) * A.K (c.shift k j) * p (c.shift k j)
    let v := (s k).v + if pml then -cSH1 A.acc (A.rdx k) adjPml else -cSH1 A.acc (A.rdx k) adj
    { v := v
      psin := A.ah k (c k) * psi k c - A.dt * A.B k c * A.ah k (c k) * v
      grad := if load then (s k).grad - A.dt * v * store k c * (A.ratio : R) else (s k).grad }
  else s k

/-- Body of `backward_kernel_p` (`acoustic.cu` 602-647). -/
def bPrsThread (A : CArgs d np mp nv mv R) (load : Bool) (store : Fld d R)
    (v psi : Fin d → Fld d R) (c : Cell d) (s : BPCell d R) : BPCell d R :=
  let pml := fun k => decide (c k < A.pmlB k) || decide (c k ≥ A.pmlE k)
  let adj := fun (k : Fin d) (j : ℤ) => -A.dt * A.B k (c.shift k j) * v k (c.shift k j)
  let adjPml := fun (k : Fin d) (j : ℤ) => A.bh k (c k + j) * psi k (c.shift k j)
    - A.dt * (1 + A.bh k (c k + j)) * A.B k (c.shift k j) * v k (c.shift k j)
  let div := ∑ k, if pml k then -cS1 A.acc (A.rdx k) (adjPml k) else -cS1 A.acc (A.rdx k) (adj k)
  { p := s.p + div
    phi := fun k => if pml k then A.a k (c k) * s.phi k - A.dt * A.K c * A.a k (c k) * s.p
      else s.phi k
    grad := if load then s.grad - A.dt * s.p * store c * (A.ratio : R) else s.grad }

/-- How the threads of the launches of one time step are executed: `m` locations in the pressure,
`l k` in velocity component `k`. -/
structure Sched (d m : ℕ) (l : Fin d → ℕ) (S : ℕ) where
  /-- orders of the threads of `*_kernel_v` and `*_kernel_p` -/
  vel : List (Fin S × Cell d)
  prs : List (Fin S × Cell d)
  /-- interleavings of the threads of `add_sources` -/
  addP : List (Access (Fin S × Fin m))
  addV : (k : Fin d) → List (Access (Fin S × Fin (l k)))

structure Sched.Valid {m : ℕ} {l : Fin d → ℕ} (κ : Sched d m l S) (pad : ℕ) (n : Fin d → ℤ) :
    Prop where
  vel : κ.vel.Perm (stagWork d S pad n)
  prs : κ.prs.Perm (stagWork d S pad n)
  addP : Interleaving κ.addP
  addV : ∀ k, Interleaving (κ.addV k)

/-- One iteration of the loop of `forward` (`acoustic.cu` 930-1173). -/
def gStep (B : Batch d np mp nv mv S R) (gk gb : Bool) (fp : Fin S → ℕ → Fin np → R)
    (fv : Fin S → (k : Fin d) → ℕ → Fin (nv k) → R) (κ : Sched d np nv S) (t : ℕ)
    (m : Fin S → FMem d mp mv R) : Fin S → FMem d mp mv R :=
  let saveK := gk && t % B.base.ratio == 0
  let saveB := gb && t % B.base.ratio == 0
  let vel := runKernel (fun s c => velThread (B.cfg s).fwdArgs saveB (m s).p c) κ.vel fun s c k =>
    { v := (m s).v k c, psi := (m s).psi k c, store := (m s).storeB (t / B.base.ratio) k c }
  let v := fun k => addSources (κ.addV k) (fun s c => (vel s c k).v) (fun s => B.srcV s k)
    fun s => fv s k t
  let prs := runKernel (fun s c => prsThread (B.cfg s).fwdArgs saveK (fun k => v k s) c) κ.prs
    fun s c =>
    { p := (m s).p c, phi := fun k => (m s).phi k c, store := (m s).storeK (t / B.base.ratio) c }
  let p := addSources κ.addP (fun s c => (prs s c).p) B.srcP fun s => fp s t
  fun s =>
    { p := p s
      v := fun k => v k s
      phi := fun k c => (prs s c).phi k
      psi := fun k c => (vel s c k).psi
      storeK := if saveK then Function.update (m s).storeK (t / B.base.ratio)
        fun c => (prs s c).store else (m s).storeK
      storeB := if saveB then Function.update (m s).storeB (t / B.base.ratio)
        fun k c => (vel s c k).store else (m s).storeB
      rcdP := Function.update (m s).rcdP t (recordFrom (m s).p (B.rcvP s) ((m s).rcdP t))
      rcdV := fun k => Function.update ((m s).rcdV k) t
        (recordFrom ((m s).v k) (B.rcvV s k) ((m s).rcdV k t)) }

/-- One iteration of the loop of `backward` (`acoustic.cu` 1440-1694), with the pointers not
exchanged. -/
def gBStep (B : Batch d np mp nv mv S R) (gk gb : Bool) (storeK : Fin S → ℕ → Fld d R)
    (storeB : Fin S → ℕ → Fin d → Fld d R) (grP : Fin S → ℕ → Fin mp → R)
    (grV : Fin S → (k : Fin d) → ℕ → Fin (mv k) → R) (κ : Sched d mp mv S) (t : ℕ)
    (m : Fin S → BMem d np nv R) : Fin S → BMem d np nv R :=
  let loadK := gk && t % B.base.ratio == 0
  let loadB := gb && t % B.base.ratio == 0
  let vel := runKernel (fun s c => bVelThread (B.cfg s).bwdArgs loadB
    (storeB s (t / B.base.ratio)) (m s).p (m s).phi (m s).psi c) κ.vel fun s c k =>
      { v := (m s).v k c, psin := (m s).psin k c, grad := (m s).gB k c }
  let prs := runKernel (fun s c => bPrsThread (B.cfg s).bwdArgs loadK
    (storeK s (t / B.base.ratio)) (fun k c => (vel s c k).v) (m s).psi c) κ.prs fun s c =>
      { p := (m s).p c, phi := fun k => (m s).phi k c, grad := (m s).gK c }
  let p := addSources κ.addP (fun s c => (prs s c).p) B.rcvP fun s => grP s t
  let v := fun k => addSources (κ.addV k) (fun s c => (vel s c k).v) (fun s => B.rcvV s k)
    fun s => grV s k t
  fun s =>
    { p := p s
      v := fun k => v k s
      phi := fun k c => (prs s c).phi k
      psi := (m s).psi
      psin := fun k c => (vel s c k).psin
      gfP := Function.update (m s).gfP t (recordFrom (m s).p (B.srcP s) ((m s).gfP t))
      gfV := fun k => Function.update ((m s).gfV k) t
        (recordFrom (fun c => (vel s c k).v) (B.srcV s k) ((m s).gfV k t))
      gK := fun c => (prs s c).grad
      gB := fun k c => (vel s c k).grad }

/-- `AcousticForwardFunc.forward` (`acoustic.py` 738-1007) on a CUDA device.  `κ t` is the execution
of the launches of time step `t`. -/
def Batch.gpuForward (B : Batch d np mp nv mv S R) (gk gb : Bool) (cb : Option ℕ) (nt : ℕ)
    (fp : Fin S → ℕ → Fin np → R) (fv : Fin S → (k : Fin d) → ℕ → Fin (nv k) → R)
    (w : Fin S → Init d R) (κ : ℕ → Sched d np nv S) : Except PyErr (BatchFResult d mp mv S R) :=
  if B.base.ratio = 0 then .error .zeroDivision else
  let cf := cb.getD (nt / B.base.ratio)
  if (0 < S ∧ 0 < nt) ∧ cf = 0 then .error .valueError else
  let m := gFwdPass id (fun t => gStep B gk gb fp fv (κ t) t) B.base.ratio
    (fun step m => ⟨step, m.wf⟩) nt cf fun s => B.base.fInit (w s)
  .ok { out := fun s => B.base.unpadAll (m.1 s).wf, rcdP := fun s => (m.1 s).rcdP
        rcdV := fun s => (m.1 s).rcdV, storeK := fun s => (m.1 s).storeK
        storeB := fun s => (m.1 s).storeB, events := if cb.isSome then m.2 else [] }

/-- `AcousticForwardFunc.backward` (`acoustic.py` 1010-1258) on a CUDA device.  `comb` is the order of
the threads of the launches of `combine_grad`, for each call and model. -/
def Batch.gpuBackward (B : Batch d np mp nv mv S R) (gk gb : Bool) (cb : Option ℕ) (nt : ℕ)
    (storeK : Fin S → ℕ → Fld d R) (storeB : Fin S → ℕ → Fin d → Fld d R)
    (grP : Fin S → ℕ → Fin mp → R) (grV : Fin S → (k : Fin d) → ℕ → Fin (mv k) → R)
    (g : Fin S → Init d R) (κ : ℕ → Sched d mp mv S) (comb : ℕ → Option (Fin d) → List (Cell d)) :
    Except PyErr (BatchBResult d np nv S R) :=
  if B.base.ratio = 0 then .error .zeroDivision else
  let cf := cb.getD (nt / B.base.ratio)
  if (0 < S ∧ 0 < nt) ∧ cf = 0 then .error .valueError else
  let m := gBwdPass (slots d np nv R) (B.flags gk gb) BMem.swap
    (fun t => gBStep B gk gb storeK storeB grP grV (κ t) t) B.base.ratio
    (fun step m => (⟨step, fun s => (m.shots s).wf, m.grad none, fun k => m.grad (some k)⟩ :
      BatchBEvent d S R)) comb nt cf fun s => B.base.bInit (g s)
  .ok { out := fun s => B.base.unpadAll (m.1.shots s).wf, gfP := fun s => (m.1.shots s).gfP
        gfV := fun s => (m.1.shots s).gfV, gK := m.1.grad none, gB := fun k => m.1.grad (some k)
        events := if cb.isSome then m.2 else [] }

/-! ### The kernels -/

omit [Field R] in
theorem In_boundsV (A : CArgs d np mp nv mv R) (k : Fin d) (c : Cell d) :
    (A.boundsV k).In c ↔
      (∀ j, (A.acc.pad : ℤ) ≤ c j ∧ c j < A.n j - A.acc.pad + 1) ∧ c k < A.n k - A.acc.pad := by
  simp only [Bounds.In, CArgs.boundsV]
  constructor
  · intro h
    refine ⟨fun j => ⟨(h j).1, ?_⟩, ?_⟩
    · have := (h j).2
      split_ifs at this <;> omega
    · simpa using (h k).2
  · rintro ⟨h1, h2⟩ j
    refine ⟨(h1 j).1, ?_⟩
    split_ifs with hj
    · subst hj; exact h2
    · exact (h1 j).2

omit [Field R] in
theorem pmlV_eq (A : CArgs d np mp nv mv R) (c : Cell d) (k : Fin d) :
    ((decide (c k < A.pmlB k) || decide (c k ≥ max (A.pmlB k) (A.pmlE k - 1))) = true) =
      ¬(A.boundsV k).regionOf c k = .mid := by
  rw [Bounds.regionOf_mid]
  simp only [CArgs.boundsV, if_true, Bool.or_eq_true, decide_eq_true_eq, eq_iff_iff]
  omega

omit [Field R] in
theorem pmlP_eq (A : CArgs d np mp nv mv R) (c : Cell d) (k : Fin d) :
    ((decide (c k < A.pmlB k) || decide (c k ≥ A.pmlE k)) = true) =
      ¬A.bounds.regionOf c k = .mid := by
  rw [Bounds.regionOf_mid]
  simp only [CArgs.bounds, Bool.or_eq_true, decide_eq_true_eq, eq_iff_iff]
  omega

theorem velThread_eq (A : CArgs d np mp nv mv R) (save : Bool) (p : Fld d R) (c : Cell d)
    (s : Fin d → VCell R) (k : Fin d) : velThread A save p c s k =
      if c k < A.n k - A.acc.pad then velBody A save p ((A.boundsV k).regionOf c) (k, c) (s k)
      else s k := by
  simp only [velThread, velBody, pmlV_eq, ite_not]

theorem prsThread_eq (A : CArgs d np mp nv mv R) (save : Bool) (v : Fin d → Fld d R) (c : Cell d)
    (s : PCell d R) : prsThread A save v c s = prsBody A save v (A.bounds.regionOf c) ((), c) s := by
  simp only [prsThread, prsBody, pmlP_eq, ite_not]

theorem bVelThread_eq (A : CArgs d np mp nv mv R) (load : Bool) (store : Fin d → Fld d R)
    (p : Fld d R) (phi psi : Fin d → Fld d R) (c : Cell d) (s : Fin d → BVCell R) (k : Fin d) :
    bVelThread A load store p phi psi c s k = if c k < A.n k - A.acc.pad then
      bVelBody A load store p phi psi ((A.boundsV k).regionOf c) (k, c) (s k) else s k := by
  simp only [bVelThread, bVelBody, pmlV_eq, ite_not]

theorem bPrsThread_eq (A : CArgs d np mp nv mv R) (load : Bool) (store : Fld d R)
    (v psi : Fin d → Fld d R) (c : Cell d) (s : BPCell d R) :
    bPrsThread A load store v psi c s =
      bPrsBody A load store v psi (A.bounds.regionOf c) ((), c) s := by
  simp only [bPrsThread, bPrsBody, pmlP_eq, ite_not]

omit [Field R] in
/-- A launch over all velocity components is the CPU's loop nests over them. -/
theorem run_vel {σ : Type*} {order : List (Fin S × Cell d)} {A : Fin S → CArgs d np mp nv mv R}
    {pad : ℕ} {n : Fin d → ℤ} (hA : ∀ s, (A s).acc.pad = pad ∧ (A s).n = n)
    (ho : order.Perm (stagWork d S pad n)) (hb : ∀ s k, ((A s).boundsV k).Ordered)
    (thread : Fin S → Cell d → (Fin d → σ) → Fin d → σ)
    (body : Fin S → (Fin d → Scalar.Region) → Fin d × Cell d → σ → σ)
    (h : ∀ s c x k, thread s c x k = if c k < n k - pad then
      body s (((A s).boundsV k).regionOf c) (k, c) (x k) else x k)
    (m : Fin S → Cell d → Fin d → σ) (s : Fin S) (c : Cell d) (k : Fin d) :
    runKernel thread order m s c k =
      foldUpdate (body s) (regionVisits (List.finRange d) (A s).boundsV)
        (fun kc => m s kc.2 kc.1) (k, c) := by
  rw [runKernel_stag _ ho, fold_regionVisits (fun k _ => hb s k) (List.nodup_finRange d) _ _ _
    (List.mem_finRange k)]
  by_cases h1 : ∀ j, (pad : ℤ) ≤ c j ∧ c j < n j - pad + 1
  · rw [if_pos h1, h]
    refine if_congr ?_ rfl rfl
    rw [In_boundsV, (hA s).1, (hA s).2, and_iff_right h1]
  · rw [if_neg h1, if_neg]
    rw [In_boundsV, (hA s).1, (hA s).2]
    exact fun h2 => h1 h2.1

omit [Field R] in
theorem run_prs {σ : Type*} {order : List (Fin S × Cell d)} {A : Fin S → CArgs d np mp nv mv R}
    {pad : ℕ} {n : Fin d → ℤ} (hA : ∀ s, (A s).acc.pad = pad ∧ (A s).n = n)
    (ho : order.Perm (stagWork d S pad n)) (hb : ∀ s, (A s).bounds.Ordered)
    (thread : Fin S → Cell d → σ → σ)
    (body : Fin S → (Fin d → Scalar.Region) → Unit × Cell d → σ → σ)
    (h : ∀ s c x, thread s c x = body s ((A s).bounds.regionOf c) ((), c) x)
    (m : Fin S → Cell d → σ) (s : Fin S) (c : Cell d) :
    runKernel thread order m s c =
      foldUpdate (body s) (regionVisits [()] fun _ => (A s).bounds) (fun kc => m s kc.2) ((), c) := by
  rw [runKernel_stag _ ho, fold_regionVisits (fun _ _ => hb s) (List.nodup_singleton ()) _ _ _
    (List.mem_singleton.2 rfl), h]
  refine if_congr ?_ rfl rfl
  simp only [Bounds.In, CArgs.bounds, (hA s).1, (hA s).2]

variable {B : Batch d np mp nv mv S R}

/-- A time step on the GPU is that of the CPU for each shot, whatever the order of the threads. -/
theorem gStep_eq (h : ∀ s, (B.cfg s).WF) (hP : Distinct B.srcP)
    (hV : ∀ k, Distinct fun s => B.srcV s k) (gk gb : Bool) (fp : Fin S → ℕ → Fin np → R)
    (fv : Fin S → (k : Fin d) → ℕ → Fin (nv k) → R) {κ : Sched d np nv S}
    (hκ : κ.Valid B.base.acc.pad B.base.n) (t : ℕ) (m : Fin S → FMem d mp mv R) (s : Fin S) :
    gStep B gk gb fp fv κ t m s = fStep (B.cfg s).fwdArgs gk gb (fp s) (fv s) t (m s) := by
  have hA : ∀ s, ((B.cfg s).fwdArgs).acc.pad = B.base.acc.pad ∧ ((B.cfg s).fwdArgs).n = B.base.n :=
    fun s => ⟨rfl, rfl⟩
  have hv := fun (save : Bool) (m₀ : Fin S → Cell d → Fin d → VCell R) (s : Fin S) (c : Cell d)
      (k : Fin d) => run_vel hA hκ.vel (fun s => fwd_orderedV (h s))
    (fun s c => velThread (B.cfg s).fwdArgs save (m s).p c)
    (fun s => velBody (B.cfg s).fwdArgs save (m s).p)
    (fun s c x k => velThread_eq _ _ _ _ _ _) m₀ s c k
  have hp := fun (save : Bool) (v : Fin S → Fin d → Fld d R) (m₀ : Fin S → Cell d → PCell d R)
      (s : Fin S) (c : Cell d) => run_prs hA hκ.prs (fun s => fwd_ordered (h s))
    (fun s c => prsThread (B.cfg s).fwdArgs save (v s) c)
    (fun s => prsBody (B.cfg s).fwdArgs save (v s))
    (fun s c x => prsThread_eq _ _ _ _ _) m₀ s c
  have ha : ∀ k w s, addSources (κ.addV k) w (fun s => B.srcV s k) (fun s => fv s k t) s =
      addTo (w s) (B.srcV s k) (fv s k t) := fun k w s => addSources_eq (hκ.addV k) w (hV k) _ s
  simp only [gStep, addSources_eq hκ.addP _ hP, ha, hv, hp]
  rfl

theorem gBStep_eq (h : ∀ s, (B.cfg s).WF) (hbig : ∀ s, (B.cfg s).Big) (hP : Distinct B.rcvP)
    (hV : ∀ k, Distinct fun s => B.rcvV s k) (gk gb : Bool) (storeK : Fin S → ℕ → Fld d R)
    (storeB : Fin S → ℕ → Fin d → Fld d R) (grP : Fin S → ℕ → Fin mp → R)
    (grV : Fin S → (k : Fin d) → ℕ → Fin (mv k) → R) {κ : Sched d mp mv S}
    (hκ : κ.Valid B.base.acc.pad B.base.n) (t : ℕ) (m : Fin S → BMem d np nv R) (s : Fin S) :
    gBStep B gk gb storeK storeB grP grV κ t m s =
      bStepC (B.cfg s).bwdArgs gk gb (storeK s) (storeB s) (grP s) (grV s) t (m s) := by
  have hA : ∀ s, ((B.cfg s).bwdArgs).acc.pad = B.base.acc.pad ∧ ((B.cfg s).bwdArgs).n = B.base.n :=
    fun s => ⟨rfl, rfl⟩
  have hv := fun (load : Bool) (st : Fin S → Fin d → Fld d R) (m₀ : Fin S → Cell d → Fin d → BVCell R)
      (s : Fin S) (c : Cell d) (k : Fin d) => run_vel hA hκ.vel (fun s => bwd_orderedV (h s) (hbig s))
    (fun s c => bVelThread (B.cfg s).bwdArgs load (st s) (m s).p (m s).phi (m s).psi c)
    (fun s => bVelBody (B.cfg s).bwdArgs load (st s) (m s).p (m s).phi (m s).psi)
    (fun s c x k => bVelThread_eq _ _ _ _ _ _ _ _ _) m₀ s c k
  have hp := fun (load : Bool) (st : Fin S → Fld d R) (v : Fin S → Fin d → Fld d R)
      (m₀ : Fin S → Cell d → BPCell d R) (s : Fin S) (c : Cell d) =>
    run_prs hA hκ.prs (fun s => bwd_ordered (h s))
    (fun s c => bPrsThread (B.cfg s).bwdArgs load (st s) (v s) (m s).psi c)
    (fun s => bPrsBody (B.cfg s).bwdArgs load (st s) (v s) (m s).psi)
    (fun s c x => bPrsThread_eq _ _ _ _ _ _ _) m₀ s c
  have ha : ∀ k w s, addSources (κ.addV k) w (fun s => B.rcvV s k) (fun s => grV s k t) s =
      addTo (w s) (B.rcvV s k) (grV s k t) := fun k w s => addSources_eq (hκ.addV k) w (hV k) _ s
  simp only [gBStep, addSources_eq hκ.addP _ hP, ha, hv, hp]
  rfl

/-- The kernels add to no gradient outside the updated cells. -/
theorem bStep_outside {C : Cfg d np mp nv mv R} (h : C.WF) (hbig : C.Big)
    (gk gb : Bool) (storeK : ℕ → Fld d R) (storeB : ℕ → Fin d → Fld d R) (grP : ℕ → Fin mp → R)
    (grV : (k : Fin d) → ℕ → Fin (mv k) → R) (t : ℕ) (m : BMem d np nv R) (a : Option (Fin d))
    (c : Cell d) (hc : ¬C.Inner c) :
    (slots d np nv R).get (bStepC C.bwdArgs gk gb storeK storeB grP grV t
      ((slots d np nv R).set 0 m)) a c = 0 := by
  cases a with
  | none =>
      simp only [slots, bStepC, Pi.zero_apply]
      rw [fold_regionVisits (fun _ _ => bwd_ordered h) (List.nodup_singleton ()) _ _ _
        (List.mem_singleton.2 rfl), if_neg]
      exact hc
  | some k =>
      simp only [slots, bStepC, Pi.zero_apply]
      rw [fold_regionVisits (fun k _ => bwd_orderedV h hbig k) (List.nodup_finRange d) _ _ _
        (List.mem_finRange k), if_neg]
      rw [In_boundsV]
      exact fun h2 => hc h2.1

/-- The forward driver on the GPU is that on the CPU. -/
theorem Batch.gpuForward_eq (h : ∀ s, (B.cfg s).WF) (hP : Distinct B.srcP)
    (hV : ∀ k, Distinct fun s => B.srcV s k) (gk gb : Bool) (cb : Option ℕ) (nt : ℕ)
    (fp : Fin S → ℕ → Fin np → R) (fv : Fin S → (k : Fin d) → ℕ → Fin (nv k) → R)
    (w : Fin S → Init d R) {κ : ℕ → Sched d np nv S}
    (hκ : ∀ t, (κ t).Valid B.base.acc.pad B.base.n) :
    B.gpuForward gk gb cb nt fp fv w κ = B.forward gk gb cb nt fp fv w
      (lockSteps S B.base.ratio (nt / B.base.ratio) (cb.getD (nt / B.base.ratio))) := by
  simp only [Batch.gpuForward, Batch.forward,
    gFwdPass_eq fun t m s => gStep_eq h hP hV gk gb fp fv (hκ t) t m s]

theorem Batch.gpuBackward_eq (h : ∀ s, (B.cfg s).WF) (hbig : ∀ s, (B.cfg s).Big)
    (hP : Distinct B.rcvP) (hV : ∀ k, Distinct fun s => B.rcvV s k) (gk gb : Bool) (cb : Option ℕ)
    (nt : ℕ) (storeK : Fin S → ℕ → Fld d R) (storeB : Fin S → ℕ → Fin d → Fld d R)
    (grP : Fin S → ℕ → Fin mp → R) (grV : Fin S → (k : Fin d) → ℕ → Fin (mv k) → R)
    (g : Fin S → Init d R) {κ : ℕ → Sched d mp mv S}
    (hκ : ∀ t, (κ t).Valid B.base.acc.pad B.base.n) {comb : ℕ → Option (Fin d) → List (Cell d)}
    (hcomb : ∀ step a, (comb step a).Perm (cells 0 B.base.n)) :
    B.gpuBackward gk gb cb nt storeK storeB grP grV g κ comb =
      B.backward gk gb cb nt storeK storeB grP grV g
        (lockStepsB S B.base.ratio (cb.getD (nt / B.base.ratio))) := by
  have hc : ∀ step a, Covers B.base.Inner (comb step a) :=
    fun step a => ⟨(hcomb step a).nodup_iff.2 (nodup_cells 0 _), fun c hi => by
      rw [(hcomb step a).mem_iff, mem_cells]
      intro k
      have h1 := hi k
      have h2 := pad_pos B.base.acc
      push_cast
      omega⟩
  have key := fun view => gBwdPass_eq (L := slots d np nv R) (F := B.flags gk gb) (swap := BMem.swap)
    (gstep := fun t => gBStep B gk gb storeK storeB grP grV (κ t) t) (ε := BatchBEvent d S R)
    (step := fun s => bStepC (B.cfg s).bwdArgs gk gb (storeK s) (storeB s) (grP s) (grV s))
    (ratio := B.base.ratio) hc (by simp [Batch.flags])
    (fun t m s => gBStep_eq h hbig hP hV gk gb storeK storeB grP grV (hκ t) t m s) keeps_swap
    (fun s t => adds_bStep B (B.cfg s).bwdArgs gk gb (storeK s) (storeB s) (grP s) (grV s) t)
    (fun s t m a x hx => bStep_outside (h s) (hbig s) _ _ _ _ _ _ _ _ _ _ hx) view nt
    (cb.getD (nt / B.base.ratio)) fun s => B.base.bInit (g s)
  simp only [Batch.gpuBackward, Batch.backward, key]

end Dw.Acoustic
