import Verif.Gpu.Scalar
import Verif.Props.ScalarShots

/-!
# The scalar propagator on the GPU

`gpuForward B grad cb nt f w κ` and `gpuBackward B grad cb nt store gr g κ comb` are the drivers for a
CUDA device; `κ t` is the execution of the kernel launches of time step `t`: the order in which the
threads of the propagation kernel run, and the interleaving of the memory accesses of the threads
that add the amplitudes.  `B.alone s` is shot `s` propagated on its own by the CPU functions.
-/

namespace Dw.Gpu

open Dw.Scalar

variable {d ns nr S : ℕ} {R : Type*} [Field R]

/-- The launches of all time steps are executed with the threads of the grids of `scalar.cu`: each
interior cell of each shot is worked on once, in any order, and each thread of `add_sources` reads
and then writes its element. -/
def Launches {m : ℕ} (B : Batch d ns nr S R) (κ : ℕ → StepSched d m S) : Prop :=
  ∀ t, (κ t).order.Perm (work d S B.base.acc.pad B.base.n) ∧
    ∀ i, (κ t).add.filter (fun e => e.by i) = [.read i, .write i]

omit [Field R] in
theorem Launches.valid {m : ℕ} {B : Batch d ns nr S R} {κ : ℕ → StepSched d m S}
    (h : Launches B κ) (t : ℕ) : (κ t).Valid B.base.acc.pad B.base.n :=
  ⟨(h t).1, (h t).2⟩

omit [Field R] in
theorem lockScheds_valid (B : Batch d ns nr S R) (cb : Option ℕ) (nt : ℕ) :
    B.BwdSched cb nt (lockScheds B (cb.getD (nt / B.base.ratio))) := by
  intro chunk hc s
  have h2 : chunk.2 = min chunk.1 (cb.getD (nt / B.base.ratio)) := by
    simp only [bwdChunks, List.mem_map] at hc
    obtain ⟨i, _, rfl⟩ := hc
    rfl
  rw [h2]
  exact lockSched_valid S (bwdSteps (chunk.1 * B.base.ratio) _) s

/-! ## C63 -/

/-- **C63**, forward: for every order of the threads, each shot's final wavefields, receiver data,
snapshots and callback events are those of the CPU function propagating the shot alone. -/
theorem C63_forward (B : Batch d ns nr S R) (h : ∀ s, (B.alone s).WF) (hr : 0 < B.base.ratio)
    (hsrc : ∀ s i j c, B.src s i = some c → B.src s j = some c → i = j) (grad : Bool)
    (cb : Option ℕ) (nt : ℕ) (hcf : 0 < nt → 0 < cb.getD (nt / B.base.ratio))
    (f : Fin S → ℕ → Fin ns → R) (w : Fin S → Init d R) (κ : ℕ → StepSched d ns S)
    (hκ : Launches B κ) :
    ∃ r, gpuForward B grad cb nt f w κ = .ok r ∧ ∀ s, (B.alone s).forward grad cb nt (f s) (w s) =
      .ok ⟨r.out s, r.rcd s, r.store s, r.events.map fun e => ⟨e.1, e.2 s⟩⟩ := by
  let cf := cb.getD (nt / B.base.ratio)
  let σ : ℕ → Sched S S := fun step =>
    lockSched S (fwdSteps (step * B.base.ratio) (min (nt / B.base.ratio - step) cf * B.base.ratio))
  have hσ : B.FwdSched cb nt σ := by
    intro chunk hc s
    have h2 : chunk.2 = min (nt / B.base.ratio - chunk.1) cf := by
      simp only [chunks, List.mem_map] at hc
      obtain ⟨i, _, rfl⟩ := hc
      rfl
    rw [h2]
    exact lockSched_valid S (fwdSteps (chunk.1 * B.base.ratio) _) s
  rw [gpuForward_eq B (fun s => by rw [← Batch.alone_eq]; exact h s) hsrc grad cb nt f w hκ.valid σ hσ]
  exact C07_shots_independent_forward B hr grad cb nt hcf f w σ hσ

/-- **C63**, backward: each shot's gradients of the source amplitudes and of the initial wavefields
are those of the CPU function for the shot alone. -/
theorem C63_backward (B : Batch d ns nr S R) (h : ∀ s, (B.alone s).WF) (hr : 0 < B.base.ratio)
    (hrcv : ∀ s i j c, B.rcv s i = some c → B.rcv s j = some c → i = j) (grad : Bool)
    (cb : Option ℕ) (nt : ℕ) (hcf : 0 < nt → 0 < cb.getD (nt / B.base.ratio))
    (store : Fin S → ℕ → Fld d R) (gr : Fin S → ℕ → Fin nr → R) (g : Fin S → Init d R)
    (κ : ℕ → StepSched d nr S) (hκ : Launches B κ) (comb : ℕ → List (Fin 1 × Cell d))
    (hcomb : ∀ step, (comb step).Perm (work d 1 B.base.acc.pad B.base.n)) :
    ∃ r, gpuBackward B grad cb nt store gr g κ comb = .ok r ∧ ∀ s, ∃ b,
      (B.alone s).backward grad cb nt (store s) (gr s) (g s) = .ok b ∧
      r.gf s = b.gf ∧ r.out s = b.out := by
  rw [gpuBackward_eq B (fun s => by rw [← Batch.alone_eq]; exact h s) hrcv grad cb nt store gr g
    hκ.valid hcomb]
  exact C07_shots_independent_backward B h hr grad cb nt hcf store gr g _ (lockScheds_valid B cb nt)

/-- **C63**, model gradient of a model shared by all shots, without a backward callback: the sum
over the shots of the gradients of the CPU function. -/
theorem C63_gradient (B : Batch d ns nr S R) (h : ∀ s, (B.alone s).WF) (hr : 0 < B.base.ratio)
    (hrcv : ∀ s i j c, B.rcv s i = some c → B.rcv s j = some c → i = j)
    (hb : B.batched = false) (grad : Bool) (nt : ℕ) (hnt : 0 < nt → B.base.ratio ≤ nt)
    (store : Fin S → ℕ → Fld d R) (gr : Fin S → ℕ → Fin nr → R) (g : Fin S → Init d R)
    (κ : ℕ → StepSched d nr S) (hκ : Launches B κ) (comb : ℕ → List (Fin 1 × Cell d))
    (hcomb : ∀ step, (comb step).Perm (work d 1 B.base.acc.pad B.base.n)) :
    ∃ r, gpuBackward B grad none nt store gr g κ comb = .ok r ∧ ∃ b : Fin S → BwdResult d ns R,
      (∀ s, (B.alone s).backward grad none nt (store s) (gr s) (g s) = .ok (b s)) ∧
      ∀ c, r.gv 0 c = ∑ s, (b s).gv c := by
  rw [gpuBackward_eq B (fun s => by rw [← Batch.alone_eq]; exact h s) hrcv grad none nt store gr g
    hκ.valid hcomb]
  exact C08_gradient_is_sum_over_shots B h hr hb grad nt hnt store gr g _ (lockScheds_valid B none nt)

/-- **C63**, model gradient of a model given for each shot, or of a single shot, for any backward
callback: block `β` holds the gradient of the CPU function for shot `β`. -/
theorem C63_gradient_per_shot (B : Batch d ns nr S R) (h : ∀ s, (B.alone s).WF)
    (hr : 0 < B.base.ratio) (hrcv : ∀ s i j c, B.rcv s i = some c → B.rcv s j = some c → i = j)
    (hb : B.batched = true ∨ S ≤ 1) (grad : Bool) (cb : Option ℕ) (nt : ℕ)
    (hnt : 0 < nt → B.base.ratio ≤ nt) (hcf : 0 < nt → 0 < cb.getD (nt / B.base.ratio))
    (store : Fin S → ℕ → Fld d R) (gr : Fin S → ℕ → Fin nr → R) (g : Fin S → Init d R)
    (κ : ℕ → StepSched d nr S) (hκ : Launches B κ) (comb : ℕ → List (Fin 1 × Cell d))
    (hcomb : ∀ step, (comb step).Perm (work d 1 B.base.acc.pad B.base.n)) :
    ∃ r, gpuBackward B grad cb nt store gr g κ comb = .ok r ∧ ∃ b : Fin S → BwdResult d ns R,
      (∀ s, (B.alone s).backward grad none nt (store s) (gr s) (g s) = .ok (b s)) ∧
      ∀ (s : Fin S) c, r.gv s c = (b s).gv c := by
  rw [gpuBackward_eq B (fun s => by rw [← Batch.alone_eq]; exact h s) hrcv grad cb nt store gr g
    hκ.valid hcomb]
  obtain ⟨r, e, b, h1, h2⟩ := C06_backward_callback_independent_partial B h hr hb grad cb nt hnt hcf
    store gr g _ (lockScheds_valid B cb nt)
  refine ⟨r, e, b, h1, fun s c => ?_⟩
  rw [h2, Finset.sum_eq_single s]
  · rw [if_pos]
    split_ifs with hbat
    · rfl
    · rcases hb with hb | hb
      · exact absurd hb hbat
      · have := s.2; omega
  · intro s' _ hs
    rw [if_neg]
    intro hh
    apply hs
    split_ifs at hh with hbat
    · exact Fin.ext hh
    · rcases hb with hb | hb
      · exact absurd hb hbat
      · exact Fin.ext (by have := s.2; have := s'.2; omega)
  · simp

/-- **C06** on the GPU: with a backward callback, several shots and a shared model the returned
gradient is the sum of all the gradients the callback should have seen, because
`grad_v_tmp` is added to `grad_v` in every call and never cleared. -/
theorem C06_gpu_gradient_with_callback (B : Batch d ns nr S R) (h : ∀ s, (B.alone s).WF)
    (hr : 0 < B.base.ratio) (hrcv : ∀ s i j c, B.rcv s i = some c → B.rcv s j = some c → i = j)
    (hb : B.batched = false) (hS : 1 < S) (cf : ℕ) (hcf : 0 < cf) (nt : ℕ)
    (store : Fin S → ℕ → Fld d R) (gr : Fin S → ℕ → Fin nr → R) (g : Fin S → Init d R)
    (κ : ℕ → StepSched d nr S) (hκ : Launches B κ) (comb : ℕ → List (Fin 1 × Cell d))
    (hcomb : ∀ step, (comb step).Perm (work d 1 B.base.acc.pad B.base.n)) :
    ∃ r, gpuBackward B true (some cf) nt store gr g κ comb = .ok r ∧
      ∃ b : Fin S → BwdResult d ns R,
      (∀ s, (B.alone s).backward true (some cf) nt (store s) (gr s) (g s) = .ok (b s)) ∧
      ∀ c, r.gv 0 c = ∑ s, ((b s).events.map fun e => e.gv c).sum := by
  rw [gpuBackward_eq B (fun s => by rw [← Batch.alone_eq]; exact h s) hrcv true (some cf) nt store gr
    g hκ.valid hcomb]
  exact C06_gradient_with_several_threads B h hr hb hS cf hcf nt store gr g _
    (lockScheds_valid B (some cf) nt)

/-- The threads in the order of the grid, each completing before the next. -/
def seqSched (d m S pad : ℕ) (n : Fin d → ℤ) : StepSched d m S where
  order := work d S pad n
  add := ((List.finRange S).product (List.finRange m)).flatMap fun i => [.read i, .write i]

theorem filter_seq {ι : Type*} [DecidableEq ι] (l : List ι) (hl : l.Nodup) (i : ι) :
    (l.flatMap fun i => [Access.read i, Access.write i]).filter
      (fun e => e.by i) =
      if i ∈ l then [.read i, .write i] else [] := by
  induction l with
  | nil => rfl
  | cons j l ih =>
      rw [List.nodup_cons] at hl
      rw [List.flatMap_cons, List.filter_append, ih hl.2]
      by_cases hj : j = i
      · subst hj
        simp [hl.1, Access.by]
      · simp [hj, Ne.symm hj, Access.by]

omit [Field R] in
theorem seqSched_launches {m : ℕ} (B : Batch d ns nr S R) :
    Launches B fun _ => seqSched d m S B.base.acc.pad B.base.n := by
  refine fun _ => ⟨List.Perm.refl _, fun i => ?_⟩
  refine (filter_seq ((List.finRange S).product (List.finRange m))
    ((List.nodup_finRange S).product (List.nodup_finRange m)) i).trans (if_pos ?_)
  exact List.pair_mem_product.mpr ⟨List.mem_finRange _, List.mem_finRange _⟩

/-- **C06** is false on the GPU: two shots, two time steps, a callback at every step. -/
theorem C06_fails_on_gpu :
    ∃ (B : Batch 2 2 1 2 ℚ) (store : Fin 2 → ℕ → Fld 2 ℚ) (gr : Fin 2 → ℕ → Fin 1 → ℚ)
      (g : Fin 2 → Init 2 ℚ) (κ : ℕ → StepSched 2 1 2) (comb : ℕ → List (Fin 1 × Cell 2))
      (r r' : BatchBwdResult 2 2 2 ℚ),
      (∀ s, (B.alone s).WF) ∧ Launches B κ ∧
      (∀ step, (comb step).Perm (work 2 1 B.base.acc.pad B.base.n)) ∧
      gpuBackward B true none 2 store gr g κ comb = .ok r ∧
      gpuBackward B true (some 1) 2 store gr g κ comb = .ok r' ∧ r.gv 0 ≠ r'.gv 0 := by
  obtain ⟨store, gr, g, r, r', e, e', hne⟩ := exBatch_gradients_differ _ _
    (lockScheds_valid exBatch none 2) (lockScheds_valid exBatch (some 1) 2)
  have hrcv : Distinct exBatch.rcv := fun _ _ _ _ _ _ => Subsingleton.elim _ _
  have hκ := seqSched_launches (m := 1) exBatch
  refine ⟨exBatch, store, gr, g, _, fun _ => work 2 1 exBatch.base.acc.pad exBatch.base.n, r, r',
    exBatch_wf, hκ, fun _ => List.Perm.refl _, ?_, ?_, hne⟩
  · rw [gpuBackward_eq exBatch exBatch_wf' hrcv true none 2 store gr g hκ.valid
      fun _ => List.Perm.refl _]
    exact e
  · rw [gpuBackward_eq exBatch exBatch_wf' hrcv true (some 1) 2 store gr g hκ.valid
      fun _ => List.Perm.refl _]
    exact e'

/-- The condition on the sources is needed: with two sources in one cell there is an execution of
`add_sources` that loses one of the amplitudes, while the CPU function adds both.  (Such sources
are rejected: C16.) -/
theorem C63_duplicate_sources_race :
    ∃ (tr : List (Access (Fin 1 × Fin 2))) (loc : Fin 1 → Fin 2 → Option (Cell 1))
      (amp : Fin 1 → Fin 2 → ℚ), Interleaving tr ∧
      addSources tr (fun _ _ => 0) loc amp 0 ≠ addTo (fun _ => 0) (loc 0) (amp 0) := by
  refine ⟨[.read (0, 0), .read (0, 1), .write (0, 0), .write (0, 1)], fun _ _ => some fun _ => 3,
    fun _ _ => 1, ?_, fun h => ?_⟩
  · rintro ⟨s, i⟩
    fin_cases s
    fin_cases i <;> decide
  · have h1 := congrFun h fun _ => 3
    rw [addTo_eq, inject] at h1
    simp [addSources, runAdd, Access.step] at h1

/-! ### Examples -/

/-- The threads in the reverse order; `add_sources` reads everything first. -/
def revSched (d m S pad : ℕ) (n : Fin d → ℤ) : StepSched d m S where
  order := (work d S pad n).reverse
  add := ((List.finRange S).product (List.finRange m)).map Access.read ++
    ((List.finRange S).product (List.finRange m)).map Access.write

theorem revSched_add : ∀ i : Fin 2 × Fin 2,
    (revSched 2 2 2 1 exN).add.filter
      (fun e => e.by i) = [.read i, .write i] := by
  decide

theorem revSched_launches :
    Launches exBatch fun _ => revSched 2 2 2 exBatch.base.acc.pad exBatch.base.n := by
  exact fun _ => ⟨List.reverse_perm _, revSched_add⟩

/-- Two shots, sources and receivers, forward with a callback at each step, reversed threads. -/
example : ∃ r, gpuForward exBatch true (some 1) 2 (fun _ => exAmp ℚ) (fun _ => exInit ℚ)
    (fun _ => revSched 2 2 2 exBatch.base.acc.pad exBatch.base.n) = .ok r := by
  obtain ⟨r, h, -⟩ := C63_forward exBatch exBatch_wf (by decide)
    (fun s i j c hi hj => by
      simp only [exBatch, exCfgOf] at hi hj
      split_ifs at hi hj with h1 h2
      rw [h1, h2]) true (some 1) 2 (by decide) (fun _ => exAmp ℚ) (fun _ => exInit ℚ) _
    revSched_launches
  exact ⟨r, h⟩

/-- Backward for the same shots, and with a model for each shot. -/
example : (∃ r, gpuBackward exBatch true none 2 (fun _ _ _ => 1) (fun _ _ _ => 3)
      (fun _ => exInit ℚ) (fun _ => seqSched 2 1 2 exBatch.base.acc.pad exBatch.base.n)
      (fun _ => work 2 1 exBatch.base.acc.pad exBatch.base.n) = .ok r) ∧
    ∃ r, gpuBackward { exBatch with batched := true } true (some 1) 2 (fun _ _ _ => 1)
      (fun _ _ _ => 3) (fun _ => exInit ℚ)
      (fun _ => seqSched 2 1 2 exBatch.base.acc.pad exBatch.base.n)
      (fun _ => work 2 1 exBatch.base.acc.pad exBatch.base.n) = .ok r := by
  refine ⟨?_, ?_⟩
  · obtain ⟨r, h, -⟩ := C63_gradient exBatch exBatch_wf (by decide)
      (fun _ _ _ _ _ _ => Subsingleton.elim _ _) rfl true 2 (by decide) (fun _ _ _ => 1)
      (fun _ _ _ => 3) (fun _ => exInit ℚ) _ (seqSched_launches exBatch) _
      (fun _ => List.Perm.refl _)
    exact ⟨r, h⟩
  · obtain ⟨r, h, -⟩ := C63_gradient_per_shot { exBatch with batched := true } exBatch_wf (by decide)
      (fun _ _ _ _ _ _ => Subsingleton.elim _ _) (Or.inl rfl) true (some 1) 2 (by decide)
      (by decide) (fun _ _ _ => 1) (fun _ _ _ => 3) (fun _ => exInit ℚ) _
      (seqSched_launches (m := 1) { exBatch with batched := true }) _ (fun _ => List.Perm.refl _)
    exact ⟨r, h⟩

/-- The grid of the example: 10 x 11 interior cells, from 3 x 1 blocks of 4 x 32 threads. -/
example : (cells (d := 2) 1 exN).length = 110 ∧ ceilDiv 10 4 = 3 ∧ ceilDiv 11 32 = 1 := by
  decide +kernel

end Dw.Gpu
