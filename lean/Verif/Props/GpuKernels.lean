import Verif.Gpu.Acoustic
import Verif.Gpu.Elastic
import Verif.Gpu.Born
import Verif.Props.Shots
import Verif.Props.GpuScalar

/-!
# The acoustic, elastic and Born propagators on the GPU

`B.gpuForward …` and `B.gpuBackward …` are the drivers for a CUDA device; `κ t` is the execution of the
kernel launches of time step `t`: the orders in which the threads of the propagation kernels run, and
the interleavings of the memory accesses of the threads that add the amplitudes; `comb` gives the order
of the threads of `combine_grad`.  `B.alone s` is shot `s` propagated on its own by the CPU functions.
-/

namespace Dw.Gpu

/-- Each thread of a launch reads and then writes its element. -/
def ReadThenWrite {ι : Type*} [DecidableEq ι] (tr : List (Access ι)) : Prop :=
  ∀ i, tr.filter (fun e => e.by i) = [.read i, .write i]

/-- The threads one after the other. -/
def seqAdd (S m : ℕ) : List (Access (Fin S × Fin m)) :=
  ((List.finRange S).product (List.finRange m)).flatMap fun i => [.read i, .write i]

theorem seqAdd_valid (S m : ℕ) : ReadThenWrite (seqAdd S m) := fun i =>
  (filter_seq ((List.finRange S).product (List.finRange m))
    ((List.nodup_finRange S).product (List.nodup_finRange m)) i).trans
    (if_pos (List.pair_mem_product.mpr ⟨List.mem_finRange _, List.mem_finRange _⟩))

/-- All threads read before any writes. -/
def readsFirst (S m : ℕ) : List (Access (Fin S × Fin m)) :=
  ((List.finRange S).product (List.finRange m)).map Access.read ++
    ((List.finRange S).product (List.finRange m)).map Access.write

theorem readsFirst_valid (S m : ℕ) : ReadThenWrite (readsFirst S m) := by
  intro i
  have key : ∀ l : List (Fin S × Fin m), l.Nodup →
      (l.map Access.read).filter (fun e => e.by i) = (if i ∈ l then [.read i] else []) ∧
      (l.map Access.write).filter (fun e => e.by i) = if i ∈ l then [.write i] else [] := by
    intro l hl
    induction l with
    | nil => exact ⟨rfl, rfl⟩
    | cons j l ih =>
        rw [List.nodup_cons] at hl
        obtain ⟨h1, h2⟩ := ih hl.2
        rw [List.map_cons, List.filter_cons, h1, List.map_cons, List.filter_cons, h2]
        by_cases hj : j = i
        · subst hj
          simp [Access.by, hl.1]
        · simp [hj, Ne.symm hj, Access.by]
  obtain ⟨h1, h2⟩ := key ((List.finRange S).product (List.finRange m)) ((List.nodup_finRange S).product (List.nodup_finRange m))
  have hm : i ∈ (List.finRange S).product (List.finRange m) :=
    List.pair_mem_product.mpr ⟨List.mem_finRange _, List.mem_finRange _⟩
  rw [readsFirst, List.filter_append, h1, h2, if_pos hm, if_pos hm]
  rfl

end Dw.Gpu

/-! ## Acoustic -/

namespace Dw.Acoustic

open Dw.Gpu

variable {d np mp S : ℕ} {nv mv : Fin d → ℕ} {R : Type*} [Field R]

/-- The launches of all time steps are executed with the threads of the grids of `acoustic.cu`: each
cell from `FD_PAD` to `n - FD_PAD` (inclusive) of each shot is worked on once, in any order. -/
def Launches {m : ℕ} {l : Fin d → ℕ} (B : Batch d np mp nv mv S R) (κ : ℕ → Sched d m l S) : Prop :=
  ∀ t, (κ t).vel.Perm (stagWork d S B.base.acc.pad B.base.n) ∧
    (κ t).prs.Perm (stagWork d S B.base.acc.pad B.base.n) ∧
    ReadThenWrite (κ t).addP ∧ ∀ k, ReadThenWrite ((κ t).addV k)

omit [Field R] in
theorem Launches.valid {m : ℕ} {l : Fin d → ℕ} {B : Batch d np mp nv mv S R}
    {κ : ℕ → Sched d m l S} (h : Launches B κ) (t : ℕ) : (κ t).Valid B.base.acc.pad B.base.n :=
  ⟨(h t).1, (h t).2.1, (h t).2.2.1, (h t).2.2.2⟩

/-- **C71** acoustic forward: for every order of the threads, each shot's final wavefields, receiver
data, snapshots and callback events are those of the CPU function propagating the shot alone. -/
theorem C71_acoustic_forward (B : Batch d np mp nv mv S R) (h : ∀ s, (B.alone s).WF)
    (hr : 0 < B.base.ratio)
    (hP : ∀ s i j c, B.srcP s i = some c → B.srcP s j = some c → i = j)
    (hV : ∀ k s i j c, B.srcV s k i = some c → B.srcV s k j = some c → i = j) (gk gb : Bool)
    (cb : Option ℕ) (nt : ℕ) (hcf : 0 < nt → 0 < cb.getD (nt / B.base.ratio))
    (fp : Fin S → ℕ → Fin np → R) (fv : Fin S → (k : Fin d) → ℕ → Fin (nv k) → R)
    (w : Fin S → Init d R) (κ : ℕ → Sched d np nv S) (hκ : Launches B κ) :
    ∃ r, B.gpuForward gk gb cb nt fp fv w κ = .ok r ∧
      ∀ s, (B.alone s).forward gk gb cb nt (fp s) (fv s) (w s) =
        .ok ⟨r.out s, r.rcdP s, r.rcdV s, r.storeK s, r.storeB s, r.events.map fun e => e s⟩ := by
  rw [Batch.gpuForward_eq (fun s => by rw [← Batch.alone_eq]; exact h s) hP hV gk gb cb nt fp fv w
    hκ.valid]
  exact C70_acoustic_forward B hr gk gb cb nt hcf fp fv w _ (lockSteps_fwd S _ _ _)

/-- **C71** acoustic backward: each shot's source gradients, initial wavefield gradients and backward
callback wavefields are those of the CPU function for the shot alone, and each block of the model
gradients is the sum over the shots that use it.  With several shots, a shared model and a backward
callback, the gradients accumulated up to each callback are summed (the defect of C06). -/
theorem C71_acoustic_backward (B : Batch d np mp nv mv S R) (h : ∀ s, (B.alone s).WF)
    (hbig : ∀ s, (B.alone s).Big) (hS : 0 < S) (hr : 0 < B.base.ratio)
    (hP : ∀ s i j c, B.rcvP s i = some c → B.rcvP s j = some c → i = j)
    (hV : ∀ k s i j c, B.rcvV s k i = some c → B.rcvV s k j = some c → i = j)
    (gk gb : Bool) (cb : Option ℕ) (nt : ℕ) (hcf : 0 < nt → 0 < cb.getD (nt / B.base.ratio))
    (storeK : Fin S → ℕ → Fld d R) (storeB : Fin S → ℕ → Fin d → Fld d R)
    (grP : Fin S → ℕ → Fin mp → R) (grV : Fin S → (k : Fin d) → ℕ → Fin (mv k) → R)
    (g : Fin S → Init d R) (κ : ℕ → Sched d mp mv S) (hκ : Launches B κ)
    (comb : ℕ → Option (Fin d) → List (Cell d))
    (hcomb : ∀ step a, (comb step a).Perm (cells 0 B.base.n)) :
    ∃ r, ∃ b : Fin S → BResult d np nv R,
      B.gpuBackward gk gb cb nt storeK storeB grP grV g κ comb = .ok r ∧
      (∀ s, (B.alone s).backward gk gb cb nt (storeK s) (storeB s) (grP s) (grV s) (g s) =
        .ok (b s)) ∧
      (∀ s, r.gfP s = (b s).gfP ∧ r.gfV s = (b s).gfV ∧ r.out s = (b s).out ∧
        (r.events.map fun e => (e.step, e.wf s)) = (b s).events.map fun e => (e.step, e.wf)) ∧
      (∀ β c, r.gK β c = ∑ s : Fin S, if (if B.kBatched then (s : ℕ) else 0) = β then
        (if (gk = true ∧ B.kBatched = false ∧ 1 < S) ∧ cb.isSome = true
          then ((b s).events.map fun e => e.gK c).sum else (b s).gK c) else 0) ∧
      ∀ k β c, r.gB k β c = ∑ s : Fin S, if (if B.bBatched then (s : ℕ) else 0) = β then
        (if (gb = true ∧ B.bBatched = false ∧ 1 < S) ∧ cb.isSome = true
          then ((b s).events.map fun e => e.gB k c).sum else (b s).gB k c) else 0 := by
  rw [Batch.gpuBackward_eq (fun s => by rw [← Batch.alone_eq]; exact h s)
    (fun s => by rw [← Batch.alone_eq]; exact hbig s) hP hV gk gb cb nt storeK storeB grP grV g
    hκ.valid hcomb]
  exact C70_acoustic_backward B hS hr gk gb cb nt hcf storeK storeB grP grV g _ (lockSteps_bwd S _ _ _)

/-- Threads in the reverse order; the threads that add amplitudes read everything first. -/
def revSched (d m : ℕ) (l : Fin d → ℕ) (S pad : ℕ) (n : Fin d → ℤ) : Sched d m l S where
  vel := (stagWork d S pad n).reverse
  prs := stagWork d S pad n
  addP := readsFirst S m
  addV := fun k => seqAdd S (l k)

omit [Field R] in
theorem revSched_launches (B : Batch d np mp nv mv S R) (m : ℕ) (l : Fin d → ℕ) :
    Launches B fun _ => revSched d m l S B.base.acc.pad B.base.n :=
  fun _ => ⟨List.reverse_perm _, List.Perm.refl _, readsFirst_valid S m, fun k => seqAdd_valid S (l k)⟩

theorem exAB_wf (s : Fin 2) : (exAB.alone s).WF := by
  rw [Batch.alone_eq]
  exact { exA_wf ℚ with }

theorem exAB_big (s : Fin 2) : (exAB.alone s).Big := by
  rw [Batch.alone_eq]
  exact exA_big ℚ

/-- C71 applies to the example, forward with callbacks and backward without. -/
example : (∃ r, exAB.gpuForward true true (some 2) 4 (fun _ _ _ => 1) (fun _ _ _ _ => 2)
      (fun _ => ⟨none, fun _ => none, fun _ => none, fun _ => none⟩)
      (fun _ => revSched 2 2 (fun _ => 1) 2 exAB.base.acc.pad exAB.base.n) = .ok r) ∧
    (∃ r, exAB.gpuBackward true true none 4 (fun _ _ _ => 1) (fun _ _ _ _ => 2) (fun _ _ _ => 3)
      (fun _ _ _ _ => 4) (fun _ => ⟨none, fun _ => none, fun _ => none, fun _ => none⟩)
      (fun _ => revSched 2 1 (fun _ => 1) 2 exAB.base.acc.pad exAB.base.n)
      (fun _ _ => (cells 0 exAB.base.n).reverse) = .ok r) := by
  refine ⟨?_, ?_⟩
  · obtain ⟨r, h, -⟩ := C71_acoustic_forward exAB exAB_wf (by decide)
      (fun s i j c hi hj => by
        simp only [exAB, exA] at hi hj
        split_ifs at hi hj with h1 h2
        rw [h1, h2])
      (fun _ _ _ _ _ _ _ => Subsingleton.elim _ _) true true (some 2) 4 (by decide)
      (fun _ _ _ => 1) (fun _ _ _ _ => 2)
      (fun _ => ⟨none, fun _ => none, fun _ => none, fun _ => none⟩) _ (revSched_launches exAB _ _)
    exact ⟨r, h⟩
  · obtain ⟨r, b, h, -⟩ := C71_acoustic_backward exAB exAB_wf exAB_big (by decide) (by decide)
      (fun _ _ _ _ _ _ => Subsingleton.elim _ _) (fun _ _ _ _ _ _ _ => Subsingleton.elim _ _)
      true true none 4 (by decide) (fun _ _ _ => 1) (fun _ _ _ _ => 2) (fun _ _ _ => 3)
      (fun _ _ _ _ => 4) (fun _ => ⟨none, fun _ => none, fun _ => none, fun _ => none⟩) _
      (revSched_launches exAB _ _) _ (fun _ _ => List.reverse_perm _)
    exact ⟨r, h⟩

end Dw.Acoustic

/-! ## Elastic -/

namespace Dw.Elastic

open Dw.Gpu

variable {d np mp S : ℕ} {nv mv : Fin d → ℕ} {R : Type*} [Field R]

/-- The launches of all time steps are executed with the threads of the grids of `elastic.cu`: each
cell from `FD_PAD` to `n - FD_PAD` (inclusive) of each shot is worked on once, in any order. -/
def Launches {m : ℕ} {l : Fin d → ℕ} (B : Batch d np mp nv mv S R) (κ : ℕ → Sched d m l S) : Prop :=
  ∀ t, (κ t).vel.Perm (stagWork d S B.base.acc.pad B.base.n) ∧
    (κ t).str.Perm (stagWork d S B.base.acc.pad B.base.n) ∧
    (∀ i, ReadThenWrite ((κ t).addP i)) ∧ ∀ i, ReadThenWrite ((κ t).addV i)

omit [Field R] in
theorem Launches.valid {m : ℕ} {l : Fin d → ℕ} {B : Batch d np mp nv mv S R}
    {κ : ℕ → Sched d m l S} (h : Launches B κ) (t : ℕ) : (κ t).Valid B.base.acc.pad B.base.n :=
  ⟨(h t).1, (h t).2.1, (h t).2.2.1, (h t).2.2.2⟩

/-- **C71** elastic forward: for every order of the threads, each shot's final wavefields, receiver
data, snapshots and callback events are those of the CPU function propagating the shot alone. -/
theorem C71_elastic_forward (B : Batch d np mp nv mv S R) (h : ∀ s, (B.alone s).WF)
    (hr : 0 < B.base.ratio)
    (hP : ∀ s i j c, B.srcP s i = some c → B.srcP s j = some c → i = j)
    (hV : ∀ k s i j c, B.srcV s k i = some c → B.srcV s k j = some c → i = j) (gl gm gb : Bool)
    (cb : Option ℕ) (nt : ℕ) (hcf : 0 < nt → 0 < cb.getD (nt / B.base.ratio))
    (fp : Fin S → ℕ → Fin np → R) (fv : Fin S → (k : Fin d) → ℕ → Fin (nv k) → R)
    (w : Fin S → Init d R) (κ : ℕ → Sched d np nv S) (hκ : Launches B κ) :
    ∃ r, B.gpuForward gl gm gb cb nt fp fv w κ = .ok r ∧
      ∀ s, (B.alone s).forward gl gm gb cb nt (fp s) (fv s) (w s) =
        .ok ⟨r.out s, r.rcdP s, r.rcdV s, r.storeB s, r.storeN s, r.storeS s,
          r.events.map fun e => e s⟩ := by
  rw [Batch.gpuForward_eq (fun s => by rw [← Batch.alone_eq]; exact h s) hP hV gl gm gb cb nt fp fv w
    hκ.valid]
  exact C70_elastic_forward B hr gl gm gb cb nt hcf fp fv w _ (lockSteps_fwd S _ _ _)

/-- **C71** elastic backward: each shot's source gradients, initial wavefield gradients and backward
callback wavefields are those of the CPU function for the shot alone, and each block of the model
gradients is the sum over the shots that use it.  With several shots, a shared model and a backward
callback, the gradients accumulated up to each callback are summed (the defect of C06). -/
theorem C71_elastic_backward (B : Batch d np mp nv mv S R) (h : ∀ s, (B.alone s).WF)
    (hbig : ∀ s, (B.alone s).Big) (hS : 0 < S) (hr : 0 < B.base.ratio)
    (hP : ∀ s i j c, B.rcvP s i = some c → B.rcvP s j = some c → i = j)
    (hV : ∀ k s i j c, B.rcvV s k i = some c → B.rcvV s k j = some c → i = j)
    (gl gm gb : Bool) (cb : Option ℕ) (nt : ℕ) (hcf : 0 < nt → 0 < cb.getD (nt / B.base.ratio))
    (storeB storeN : Fin S → ℕ → Fin d → Fld d R) (storeS : Fin S → ℕ → Sh d → Fld d R)
    (grP : Fin S → ℕ → Fin mp → R) (grV : Fin S → (k : Fin d) → ℕ → Fin (mv k) → R)
    (g : Fin S → Init d R) (κ : ℕ → Sched d mp mv S) (hκ : Launches B κ)
    (comb : ℕ → GIx d → List (Cell d))
    (hcomb : ∀ step a, (comb step a).Perm (cells 0 B.base.n)) :
    ∃ r, ∃ b : Fin S → BResult d np nv R,
      B.gpuBackward gl gm gb cb nt storeB storeN storeS grP grV g κ comb = .ok r ∧
      (∀ s, (B.alone s).backward gl gm gb cb nt (storeB s) (storeN s) (storeS s) (grP s) (grV s)
        (g s) = .ok (b s)) ∧
      (∀ s, r.gfP s = (b s).gfP ∧ r.gfV s = (b s).gfV ∧ r.out s = (b s).out ∧
        (r.events.map fun e => (e.step, e.wf s)) = (b s).events.map fun e => (e.step, e.wf)) ∧
      (∀ β c, r.gr .l β c = ∑ s : Fin S, if (if B.lBatched then (s : ℕ) else 0) = β then
        (if (gl = true ∧ B.lBatched = false ∧ 1 < S) ∧ cb.isSome = true
          then ((b s).events.map fun e => e.gr.l c).sum else (b s).gr.l c) else 0) ∧
      (∀ β c, r.gr .m β c = ∑ s : Fin S, if (if B.mBatched then (s : ℕ) else 0) = β then
        (if (gm = true ∧ B.mBatched = false ∧ 1 < S) ∧ cb.isSome = true
          then ((b s).events.map fun e => e.gr.m c).sum else (b s).gr.m c) else 0) ∧
      (∀ p β c, r.gr (.s p) β c = ∑ s : Fin S, if (if B.mBatched then (s : ℕ) else 0) = β then
        (if (gm = true ∧ B.mBatched = false ∧ 1 < S) ∧ cb.isSome = true
          then ((b s).events.map fun e => e.gr.s p c).sum else (b s).gr.s p c) else 0) ∧
      ∀ i β c, r.gr (.b i) β c = ∑ s : Fin S, if (if B.bBatched then (s : ℕ) else 0) = β then
        (if (gb = true ∧ B.bBatched = false ∧ 1 < S) ∧ cb.isSome = true
          then ((b s).events.map fun e => e.gr.b i c).sum else (b s).gr.b i c) else 0 := by
  rw [Batch.gpuBackward_eq (fun s => by rw [← Batch.alone_eq]; exact h s)
    (fun s => by rw [← Batch.alone_eq]; exact hbig s) hP hV gl gm gb cb nt storeB storeN storeS grP
    grV g hκ.valid hcomb]
  exact C70_elastic_backward B h hS hr gl gm gb cb nt hcf storeB storeN storeS grP grV g _
    (lockSteps_bwd S _ _ _)

/-- Threads in the reverse order; the threads that add to the stresses read everything first. -/
def revSched (d m : ℕ) (l : Fin d → ℕ) (S pad : ℕ) (n : Fin d → ℤ) : Sched d m l S where
  vel := (stagWork d S pad n).reverse
  str := stagWork d S pad n
  addP := fun _ => readsFirst S m
  addV := fun k => seqAdd S (l k)

omit [Field R] in
theorem revSched_launches (B : Batch d np mp nv mv S R) (m : ℕ) (l : Fin d → ℕ) :
    Launches B fun _ => revSched d m l S B.base.acc.pad B.base.n :=
  fun _ => ⟨List.reverse_perm _, List.Perm.refl _, fun _ => readsFirst_valid S m,
    fun k => seqAdd_valid S (l k)⟩

theorem exEB_big (s : Fin 2) : (exEB.alone s).Big := by
  rw [Batch.alone_eq]
  exact exE_big ℚ

/-- C71 applies to the example, forward with callbacks and backward without. -/
example : (∃ r, exEB.gpuForward true true true (some 2) 4 (fun _ _ _ => 1) (fun _ _ _ _ => 2)
      (fun _ => exEBInit)
      (fun _ => revSched 2 2 (fun _ => 1) 2 exEB.base.acc.pad exEB.base.n) = .ok r) ∧
    (∃ r, exEB.gpuBackward true true true none 4 (fun _ _ _ _ => 1) (fun _ _ _ _ => 2)
      (fun _ _ _ _ => 5) (fun _ _ _ => 3) (fun _ _ _ _ => 4) (fun _ => exEBInit)
      (fun _ => revSched 2 1 (fun _ => 1) 2 exEB.base.acc.pad exEB.base.n)
      (fun _ _ => (cells 0 exEB.base.n).reverse) = .ok r) := by
  refine ⟨?_, ?_⟩
  · obtain ⟨r, h, -⟩ := C71_elastic_forward exEB exEB_wf (by decide)
      (fun s i j c hi hj => by
        simp only [exEB, exE] at hi hj
        split_ifs at hi hj with h1 h2
        rw [h1, h2])
      (fun _ _ _ _ _ _ _ => Subsingleton.elim _ _) true true true (some 2) 4 (by decide)
      (fun _ _ _ => 1) (fun _ _ _ _ => 2) (fun _ => exEBInit) _ (revSched_launches exEB _ _)
    exact ⟨r, h⟩
  · obtain ⟨r, b, h, -⟩ := C71_elastic_backward exEB exEB_wf exEB_big (by decide) (by decide)
      (fun _ _ _ _ _ _ => Subsingleton.elim _ _) (fun _ _ _ _ _ _ _ => Subsingleton.elim _ _)
      true true true none 4 (by decide) (fun _ _ _ _ => 1) (fun _ _ _ _ => 2) (fun _ _ _ _ => 5)
      (fun _ _ _ => 3) (fun _ _ _ _ => 4) (fun _ => exEBInit) _ (revSched_launches exEB _ _) _
      (fun _ _ => List.reverse_perm _)
    exact ⟨r, h⟩

end Dw.Elastic

/-! ## Born -/

namespace Dw.Born

open Dw.Scalar (Init Wavefields exCfgOf exCfgOf_wf)
open Dw.Gpu

variable {d ns nr nq S : ℕ} {R : Type*} [Field R]

/-- The launches of all time steps are executed with the threads of the grids of `scalar_born.cu`: each
interior cell of each shot is worked on once, in any order. -/
def Launches {m l : ℕ} (B : Batch d ns nr nq S R) (κ : ℕ → Sched d m l S) : Prop :=
  ∀ t, (κ t).order.Perm (work d S B.base.base.acc.pad B.base.base.n) ∧
    ReadThenWrite (κ t).add ∧ ReadThenWrite (κ t).addsc

/-- The same for `backward_sc`. -/
def LaunchesSc {m : ℕ} (B : Batch d ns nr nq S R) (κ : ℕ → StepSched d m S) : Prop :=
  ∀ t, (κ t).order.Perm (work d S B.base.base.acc.pad B.base.base.n) ∧ ReadThenWrite (κ t).add

omit [Field R] in
theorem Launches.valid {m l : ℕ} {B : Batch d ns nr nq S R} {κ : ℕ → Sched d m l S}
    (h : Launches B κ) (t : ℕ) : (κ t).Valid B.base.base.acc.pad B.base.base.n :=
  ⟨(h t).1, (h t).2.1, (h t).2.2⟩

omit [Field R] in
theorem LaunchesSc.valid {m : ℕ} {B : Batch d ns nr nq S R} {κ : ℕ → StepSched d m S}
    (h : LaunchesSc B κ) (t : ℕ) : (κ t).Valid B.base.base.acc.pad B.base.base.n :=
  ⟨(h t).1, (h t).2⟩

/-- **C71** Born forward: for every order of the threads, each shot's final wavefields, receiver data,
snapshots and callback events are those of the CPU function propagating the shot alone. -/
theorem C71_born_forward (B : Batch d ns nr nq S R) (h : ∀ s, (B.alone s).base.WF)
    (hr : 0 < B.base.base.ratio)
    (hs : ∀ s i j c, B.src s i = some c → B.src s j = some c → i = j) (gv gs : Bool)
    (cb : Option ℕ) (nt : ℕ) (hcf : 0 < nt → 0 < cb.getD (nt / B.base.base.ratio))
    (f fsc : Fin S → ℕ → Fin ns → R) (w wsc : Fin S → Init d R) (κ : ℕ → Sched d ns ns S)
    (hκ : Launches B κ) :
    ∃ r, B.gpuForward gv gs cb nt f fsc w wsc κ = .ok r ∧
      ∀ s, (B.alone s).forward gv gs cb nt (f s) (fsc s) (w s) (wsc s) =
        .ok ⟨r.out s, r.outsc s, r.rcd s, r.rcdsc s, r.w s, r.wsc s, r.events.map fun e => e s⟩ := by
  rw [Batch.gpuForward_eq (fun s => by rw [← Batch.alone_eq]; exact h s) hs gv gs cb nt f fsc w wsc
    hκ.valid]
  exact C70_born_forward B hr gv gs cb nt hcf f fsc w wsc _ (lockSteps_fwd S _ _ _)

/-- **C71** Born backward: each shot's source gradients, initial wavefield gradients and backward
callback wavefields are those of the CPU function for the shot alone, and each block of the gradients
of the velocity and of the scattering potential is the sum over the shots that use it.  With several
shots, a shared model and a backward callback, the gradients accumulated up to each callback are
summed (the defect of C06). -/
theorem C71_born_backward (B : Batch d ns nr nq S R) (h : ∀ s, (B.alone s).base.WF) (hS : 0 < S)
    (hr : 0 < B.base.base.ratio)
    (hq : ∀ s i j c, B.rcv s i = some c → B.rcv s j = some c → i = j)
    (hqsc : ∀ s i j c, B.rcvsc s i = some c → B.rcvsc s j = some c → i = j)
    (gv gs : Bool) (cb : Option ℕ) (nt : ℕ) (hcf : 0 < nt → 0 < cb.getD (nt / B.base.base.ratio))
    (w wsc : Fin S → ℕ → Fld d R) (gr : Fin S → ℕ → Fin nr → R) (grsc : Fin S → ℕ → Fin nq → R)
    (g gsc : Fin S → Init d R) (κ : ℕ → Sched d nr nq S) (hκ : Launches B κ)
    (comb : ℕ → Bool → List (Cell d))
    (hcomb : ∀ step a, (comb step a).Perm (cells B.base.base.acc.pad B.base.base.n)) :
    ∃ r, ∃ b : Fin S → BResult d ns R,
      B.gpuBackward gv gs cb nt w wsc gr grsc g gsc κ comb = .ok r ∧
      (∀ s, (B.alone s).backward gv gs cb nt (w s) (wsc s) (gr s) (grsc s) (g s) (gsc s) =
        .ok (b s)) ∧
      (∀ s, r.gf s = (b s).gf ∧ r.gfsc s = (b s).gfsc ∧ r.out s = (b s).out ∧
        r.outsc s = (b s).outsc ∧ (r.events.map fun e => (e.step, e.bg s, e.sc s)) =
          (b s).events.map fun e => (e.step, e.bg, e.sc)) ∧
      (∀ β c, r.gv β c = ∑ s : Fin S, if (if B.vBatched then (s : ℕ) else 0) = β then
        (if (gv = true ∧ B.vBatched = false ∧ 1 < S) ∧ cb.isSome = true
          then ((b s).events.map fun e => e.gv c).sum else (b s).gv c) else 0) ∧
      ∀ β c, r.gs β c = ∑ s : Fin S, if (if B.scBatched then (s : ℕ) else 0) = β then
        (if (gs = true ∧ B.scBatched = false ∧ 1 < S) ∧ cb.isSome = true
          then ((b s).events.map fun e => e.gs c).sum else (b s).gs c) else 0 := by
  rw [Batch.gpuBackward_eq (fun s => by rw [← Batch.alone_eq]; exact h s) hq hqsc gv gs cb nt w wsc gr
    grsc g gsc hκ.valid hcomb]
  exact C70_born_backward B hS hr gv gs cb nt hcf w wsc gr grsc g gsc _ (lockSteps_bwd S _ _ _)

/-- **C71** Born backward when only the scattered field is propagated. -/
theorem C71_born_backward_sc (B : Batch d ns nr nq S R) (h : ∀ s, (B.alone s).base.WF) (hS : 0 < S)
    (hr : 0 < B.base.base.ratio)
    (hqsc : ∀ s i j c, B.rcvsc s i = some c → B.rcvsc s j = some c → i = j)
    (gs : Bool) (cb : Option ℕ) (nt : ℕ) (hcf : 0 < nt → 0 < cb.getD (nt / B.base.base.ratio))
    (w : Fin S → ℕ → Fld d R) (grsc : Fin S → ℕ → Fin nq → R) (gsc : Fin S → Init d R)
    (κ : ℕ → StepSched d nq S) (hκ : LaunchesSc B κ) (comb : ℕ → Unit → List (Cell d))
    (hcomb : ∀ step a, (comb step a).Perm (cells B.base.base.acc.pad B.base.base.n)) :
    ∃ r, ∃ b : Fin S → SResult d ns R, B.gpuBackwardSc gs cb nt w grsc gsc κ comb = .ok r ∧
      (∀ s, (B.alone s).backwardSc gs cb nt (w s) (grsc s) (gsc s) = .ok (b s)) ∧
      (∀ s, r.gfsc s = (b s).gfsc ∧ r.outsc s = (b s).outsc ∧
        (r.events.map fun e => (e.step, e.sc s)) = (b s).events.map fun e => (e.step, e.sc)) ∧
      ∀ β c, r.gs β c = ∑ s : Fin S, if (if B.scBatched then (s : ℕ) else 0) = β then
        (if (gs = true ∧ B.scBatched = false ∧ 1 < S) ∧ cb.isSome = true
          then ((b s).events.map fun e => e.gs c).sum else (b s).gs c) else 0 := by
  rw [Batch.gpuBackwardSc_eq (fun s => by rw [← Batch.alone_eq]; exact h s) hqsc gs cb nt w grsc gsc
    hκ.valid hcomb]
  exact C70_born_backward_sc B hS hr gs cb nt hcf w grsc gsc _ (lockSteps_bwd S _ _ _)

/-- Threads in the reverse order; the accesses to one of the fields interleaved. -/
def revSched (d m l S pad : ℕ) (n : Fin d → ℤ) : Sched d m l S where
  order := (work d S pad n).reverse
  add := readsFirst S m
  addsc := seqAdd S l

omit [Field R] in
theorem revSched_launches (B : Batch d ns nr nq S R) (m l : ℕ) :
    Launches B fun _ => revSched d m l S B.base.base.acc.pad B.base.base.n :=
  fun _ => ⟨List.reverse_perm _, readsFirst_valid S m, seqAdd_valid S l⟩

theorem exBB_wf (s : Fin 2) : (exBB.alone s).base.WF := by
  rw [Batch.alone_eq]
  exact { exCfgOf_wf ℚ with }

/-- C71 applies to the example, forward with callbacks and backward. -/
example : (∃ r, exBB.gpuForward true true (some 2) 4 (fun _ _ _ => 1) (fun _ _ _ => 2)
      (fun _ => Scalar.exInit ℚ) (fun _ => Scalar.exInit ℚ)
      (fun _ => revSched 2 2 2 2 exBB.base.base.acc.pad exBB.base.base.n) = .ok r) ∧
    (∃ r, exBB.gpuBackward true true none 4 (fun _ _ _ => 1) (fun _ _ _ => 2) (fun _ _ _ => 3)
      (fun _ _ _ => 4) (fun _ => Scalar.exInit ℚ) (fun _ => Scalar.exInit ℚ)
      (fun _ => revSched 2 1 1 2 exBB.base.base.acc.pad exBB.base.base.n)
      (fun _ _ => (cells exBB.base.base.acc.pad exBB.base.base.n).reverse) = .ok r) ∧
    (∃ r, exBB.gpuBackwardSc true (some 2) 4 (fun _ _ _ => 1) (fun _ _ _ => 3)
      (fun _ => Scalar.exInit ℚ)
      (fun _ => ⟨(work 2 2 exBB.base.base.acc.pad exBB.base.base.n).reverse, readsFirst 2 1⟩)
      (fun _ _ => cells exBB.base.base.acc.pad exBB.base.base.n) = .ok r) := by
  refine ⟨?_, ?_, ?_⟩
  · obtain ⟨r, h, -⟩ := C71_born_forward exBB exBB_wf (by decide)
      (fun s i j c hi hj => by
        simp only [exBB, exCfgOf] at hi hj
        split_ifs at hi hj with h1 h2
        rw [h1, h2]) true true (some 2) 4 (by decide)
      (fun _ _ _ => 1) (fun _ _ _ => 2) (fun _ => Scalar.exInit ℚ) (fun _ => Scalar.exInit ℚ) _
      (revSched_launches exBB 2 2)
    exact ⟨r, h⟩
  · obtain ⟨r, b, h, -⟩ := C71_born_backward exBB exBB_wf (by decide) (by decide)
      (fun _ _ _ _ _ _ => Subsingleton.elim _ _) (fun _ _ _ _ _ _ => Subsingleton.elim _ _)
      true true none 4 (by decide) (fun _ _ _ => 1) (fun _ _ _ => 2) (fun _ _ _ => 3) (fun _ _ _ => 4)
      (fun _ => Scalar.exInit ℚ) (fun _ => Scalar.exInit ℚ) _ (revSched_launches exBB 1 1) _
      (fun _ _ => List.reverse_perm _)
    exact ⟨r, h⟩
  · obtain ⟨r, b, h, -⟩ := C71_born_backward_sc exBB exBB_wf (by decide) (by decide)
      (fun _ _ _ _ _ _ => Subsingleton.elim _ _) true (some 2) 4
      (by decide) (fun _ _ _ => 1) (fun _ _ _ => 3) (fun _ => Scalar.exInit ℚ)
      (fun _ => ⟨(work 2 2 exBB.base.base.acc.pad exBB.base.base.n).reverse, readsFirst 2 1⟩)
      (fun _ => ⟨List.reverse_perm _, readsFirst_valid 2 1⟩) _ (fun _ _ => List.Perm.refl _)
    exact ⟨r, h⟩

end Dw.Born
