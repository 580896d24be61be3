import Verif.Gpu.Stream
import Mathlib.Logic.Function.Basic

/-!
# Commands of the exported CUDA functions

`forward` and `backward` of scalar.cu, scalar_born.cu, acoustic.cu and elastic.cu enqueue for
each step their kernels on `stream_compute` and, if the snapshots are double buffered, the
copies and (de)compressions of the snapshots on a second stream of the call. The kernels are
parameters here (`Job`): each is one atomic operation. The order of the commands, the choice of
the buffers and of the events is that of the code.

`CHECK_KERNEL_ERROR` and the error returns are not modelled; `STORAGE_DISK` (stream
synchronisation and `fwrite` / `fread` by the host) is an operation of `stream_compute` here, as
the host waits for it. With `STORAGE_DEVICE` and no compression the kernels write the slot
directly; here they write the staging buffer, which is copied by an operation of the same
stream.
-/

namespace Dw.Gpu

/-- `stream_compute` and the `stream_storage` of each call of an exported function. -/
inductive Str where
  | comp
  | stor (call : ℕ)
deriving DecidableEq

/-- Events of a call: `event_storage_done_a/b` and `event_compute_done_a/b`
(scalar.cu lines 585-600). -/
inductive Ev where
  | storageDone (call : ℕ) (odd : Bool)
  | computeDone (call : ℕ) (odd : Bool)
deriving DecidableEq

/-- Device operations. `C` is the memory used by `stream_compute` only (wavefields, gradients,
receiver data), `Q` the stored quantities (`w`; `w`, `wsc`; `k_grad`, `bx_grad`, …), `X` their
snapshots. The Boolean is the staging buffer: `store_1a` or `store_1b`. -/
inductive Op (C Q X : Type*) where
  /-- kernel that uses no staging buffer -/
  | comp (f : C → C)
  /-- forward kernel that also writes the snapshots `out` -/
  | kernW (f : C → C) (out : C → Q → Option X) (b : Bool)
  /-- backward kernel that reads the snapshots -/
  | kernR (f : (Q → X) → C → C) (b : Bool)
  /-- copy (or compression on the device) of `store_1` to slot `k` -/
  | save (q : Q) (k : ℕ) (b : Bool)
  /-- compression of `store_1` to `store_2` -/
  | enc (q : Q) (b : Bool)
  /-- copy of `store_2` to slot `k` of `store_3` -/
  | put (q : Q) (k : ℕ)
  /-- copy (or decompression on the device) of slot `k` to `store_1` -/
  | load (q : Q) (k : ℕ) (b : Bool)
  /-- copy of slot `k` of `store_3` to `store_2` -/
  | get (q : Q) (k : ℕ)
  /-- decompression of `store_2` to `store_1` -/
  | dec (q : Q) (b : Bool)

/-- Memory: that of `stream_compute`, `store_1a/b`, `store_2` if it is a single buffer, and the
slots of the steps. -/
@[ext] structure Mem (C Q X Y : Type*) where
  c : C
  buf : Q → Bool → X
  tmp : Q → Y
  slot : Q → ℕ → Y

/-- A forward kernel: its effect and the snapshots that it writes at store steps. -/
structure FKern (C Q X : Type*) where
  f : C → C
  out : C → Q → Option X

/-- What the exported functions are called with. -/
structure Job (C Q X Y : Type*) where
  /-- `step_ratio_h` -/
  ratio : ℕ
  /-- `use_double_buffering` -/
  dbl : Bool
  /-- events are used in all steps (acoustic.cu, elastic.cu), not only in store steps
  (scalar.cu, scalar_born.cu) -/
  every : Bool
  /-- the same for `backward` (scalar_born.cu, acoustic.cu, elastic.cu) -/
  bevery : Bool
  /-- `STORAGE_CPU` with compression: the slots are copies of `store_2` -/
  staged : Bool
  /-- stored quantities -/
  qs : List Q
  /-- compression (`enc`) and decompression (`dec`), or the identity -/
  enc : Q → X → Y
  dec : Q → Y → X
  /-- kernels of a forward step up to `cudaEventRecord(event_compute_done, …)` -/
  fkern : ℕ → List (FKern C Q X)
  /-- kernels of a forward step after the snapshots were enqueued -/
  fpost : ℕ → List (C → C)
  /-- kernels of a backward step before the loads -/
  bpre : ℕ → List (C → C)
  /-- kernels of a backward step after the loads; they get the snapshots at load steps -/
  bkern : ℕ → List (Option (Q → X) → C → C)
  /-- kernels of a backward step after `cudaEventRecord(event_compute_done, …)` -/
  bpost : ℕ → List (C → C)
  /-- kernels at the end of a backward call (`combine_grad`) -/
  bfin : List (C → C)

variable {C Q X Y : Type*} [DecidableEq Q]

/-- Effect of an operation. -/
def Job.sem (J : Job C Q X Y) : Op C Q X → Mem C Q X Y → Mem C Q X Y
  | .comp f, m => { m with c := f m.c }
  | .kernW f out b, m =>
    { m with
      c := f m.c
      buf := fun q b' => if b' = b then (out m.c q).getD (m.buf q b') else m.buf q b' }
  | .kernR f b, m => { m with c := f (fun q => m.buf q b) m.c }
  | .save q k b, m =>
    { m with slot := fun q' k' => if q' = q ∧ k' = k then J.enc q' (m.buf q' b) else m.slot q' k' }
  | .enc q b, m => { m with tmp := fun q' => if q' = q then J.enc q' (m.buf q' b) else m.tmp q' }
  | .put q k, m =>
    { m with slot := fun q' k' => if q' = q ∧ k' = k then m.tmp q' else m.slot q' k' }
  | .load q k b, m =>
    { m with
      buf := fun q' b' => if q' = q ∧ b' = b then J.dec q' (m.slot q' k) else m.buf q' b' }
  | .get q k, m => { m with tmp := fun q' => if q' = q then m.slot q' k else m.tmp q' }
  | .dec q b, m =>
    { m with buf := fun q' b' => if q' = q ∧ b' = b then J.dec q' (m.tmp q') else m.buf q' b' }

/-- Commands on the streams and events of the calls. -/
abbrev Command (C Q X : Type*) := Cmd Str Ev (Op C Q X)

/-- Stream of the snapshots: `use_double_buffering ? stream_storage : stream_compute`. -/
def Job.storStream (J : Job C Q X Y) (call : ℕ) : Str := if J.dbl then .stor call else .comp

/-- `save_snapshot_gpu` of all quantities (storage_utils.cu lines 13-63). -/
def Job.saves (J : Job C Q X Y) (call k : ℕ) (b : Bool) : List (Command C Q X) :=
  J.qs.flatMap fun q =>
    if J.staged then [.launch (J.storStream call) (.enc q b), .launch (J.storStream call) (.put q k)]
    else [.launch (J.storStream call) (.save q k b)]

/-- `load_snapshot_gpu` of all quantities (storage_utils.cu lines 65-112). -/
def Job.loads (J : Job C Q X Y) (call k : ℕ) (b : Bool) : List (Command C Q X) :=
  J.qs.flatMap fun q =>
    if J.staged then [.launch (J.storStream call) (.get q k), .launch (J.storStream call) (.dec q b)]
    else [.launch (J.storStream call) (.load q k b)]

/-- `(t % step_ratio_h) == 0`. -/
def Job.store (J : Job C Q X Y) (t : ℕ) : Bool := t % J.ratio == 0

/-- Whether the second buffer and the events `_b` are used in step `t`, given that events are
used in this step (`step_idx % 2 != 0`). -/
def Job.odd (J : Job C Q X Y) (uses : Bool) (t : ℕ) : Bool := uses && (t / J.ratio) % 2 != 0

/-- Whether step `t` of `forward` uses events. -/
def Job.fwdUses (J : Job C Q X Y) (t : ℕ) : Bool := J.dbl && (J.every || J.store t)

/-- Whether step `t` of `backward` uses events for its loads. -/
def Job.bwdUses (J : Job C Q X Y) (t : ℕ) : Bool := J.dbl && (J.bevery || J.store t)

/-- Kernels that use no snapshots. -/
def launches (fs : List (C → C)) : List (Command C Q X) := fs.map fun f => .launch .comp (.comp f)

/-- Kernels of a forward step. -/
def Job.fwdKernels (J : Job C Q X Y) (t : ℕ) (b : Bool) : List (Command C Q X) :=
  (J.fkern t).map fun κ =>
    .launch .comp (if J.store t then .kernW κ.f κ.out b else .comp κ.f)

/-- One iteration of the time loop of `forward` (scalar.cu lines 606-685, acoustic.cu
lines 934-1173). -/
def Job.fwdStep (J : Job C Q X Y) (call t : ℕ) : List (Command C Q X) :=
  let uses := J.fwdUses t
  let b := J.odd uses t
  (if uses then [.wait .comp (.storageDone call b)] else [])
  ++ J.fwdKernels t b
  ++ (if uses then [.record (.computeDone call b) .comp, .wait (.stor call) (.computeDone call b)]
      else [])
  ++ (if J.store t then J.saves call (t / J.ratio) b else [])
  ++ (if uses then [.record (.storageDone call b) (.stor call)] else [])
  ++ launches (J.fpost t)

/-- Value of the variable `event_storage_done` after the loop: `event_storage_done_a` before the
first step, else that of the last step. -/
def Job.lastOdd (J : Job C Q X Y) (start nt : ℕ) : Bool :=
  if nt = 0 then false else J.odd (J.fwdUses (start + nt - 1)) (start + nt - 1)

/-- `forward` (scalar.cu lines 580-690): steps `start, …, start + nt - 1`. -/
def Job.fwdCall (J : Job C Q X Y) (call start nt : ℕ) : List (Command C Q X) :=
  (if J.dbl then [.record (.storageDone call false) (.stor call),
      .record (.storageDone call true) (.stor call)] else [])
  ++ (List.range nt).flatMap (fun i => J.fwdStep call (start + i))
  ++ (if J.dbl then [.wait .comp (.storageDone call (J.lastOdd start nt))] else [])

/-- Kernels of a backward step. -/
def Job.bwdKernels (J : Job C Q X Y) (t : ℕ) (b : Bool) : List (Command C Q X) :=
  (J.bkern t).map fun κ =>
    .launch .comp (if J.store t then .kernR (fun x => κ (some x)) b else .comp (κ none))

/-- One iteration of the time loop of `backward` (scalar.cu lines 892-976, acoustic.cu
lines 1442-1690). `event_compute_done` is recorded in all steps. -/
def Job.bwdStep (J : Job C Q X Y) (call t : ℕ) : List (Command C Q X) :=
  let uses := J.bwdUses t
  let b := J.odd uses t
  (if uses then [.wait (.stor call) (.computeDone call b)] else [])
  ++ launches (J.bpre t)
  ++ (if J.store t then J.loads call (t / J.ratio) b else [])
  ++ (if uses then [.record (.storageDone call b) (.stor call), .wait .comp (.storageDone call b)]
      else [])
  ++ J.bwdKernels t b
  ++ (if J.dbl then [.record (.computeDone call b) .comp] else [])
  ++ launches (J.bpost t)

/-- `backward` (scalar.cu lines 868-982): steps `start - 1, …, start - nt`. -/
def Job.bwdCall (J : Job C Q X Y) (call start nt : ℕ) : List (Command C Q X) :=
  (if J.dbl then [.record (.computeDone call false) .comp, .record (.computeDone call true) .comp]
    else [])
  ++ (List.range nt).flatMap (fun i => J.bwdStep call (start - 1 - i))
  ++ launches J.bfin

/-- The calls of `forward` for the chunks of the Python driver, the operations between, and the
calls of `backward`. Each call has its own stream and events. -/
def Job.program (J : Job C Q X Y) (fcalls : List (ℕ × ℕ)) (mid : List (C → C))
    (bcalls : List (ℕ × ℕ)) : List (Command C Q X) :=
  (fcalls.zipIdx.flatMap fun p => J.fwdCall p.2 p.1.1 p.1.2)
  ++ launches mid
  ++ (bcalls.zipIdx.flatMap fun p => J.bwdCall (fcalls.length + p.2) p.1.1 p.1.2)

/-! ## Commuting operations -/

/-- Operation of `save_snapshot_gpu`. -/
def Op.isSave : Op C Q X → Prop
  | .save _ _ _ => True
  | .enc _ _ => True
  | .put _ _ => True
  | _ => False

/-- Operation of `load_snapshot_gpu`. -/
def Op.isLoad : Op C Q X → Prop
  | .load _ _ _ => True
  | .get _ _ => True
  | .dec _ _ => True
  | _ => False

/-- Kernel. -/
def Op.isComp : Op C Q X → Prop
  | .comp _ => True
  | .kernW _ _ _ => True
  | .kernR _ _ => True
  | _ => False

/-- Operation of `save_snapshot_gpu` that reads the buffer `b`. -/
def Op.touches (b : Bool) : Op C Q X → Prop
  | .save _ _ b' => b' = b
  | .enc _ b' => b' = b
  | _ => False

/-- Kernel of `backward` that does not read the buffer `b`. -/
def Op.avoids (b : Bool) : Op C Q X → Prop
  | .comp _ => True
  | .kernR _ b' => b' ≠ b
  | _ => False

omit [DecidableEq Q] in
theorem Op.isSave.not_comp {o : Op C Q X} (h : o.isSave) (h' : o.isComp) : False := by
  cases o <;> simp_all [Op.isSave, Op.isComp]

omit [DecidableEq Q] in
theorem Op.isLoad.not_comp {o : Op C Q X} (h : o.isLoad) (h' : o.isComp) : False := by
  cases o <;> simp_all [Op.isLoad, Op.isComp]

theorem comm_comp (J : Job C Q X Y) {o : Op C Q X} (h : o.isSave) (f : C → C) :
    Comm J.sem o (.comp f) := by
  intro m
  cases o <;> simp_all [Op.isSave, Job.sem]

theorem comm_kernW (J : Job C Q X Y) {o : Op C Q X} (h : o.isSave) (b : Bool)
    (ht : ¬ o.touches b) (f : C → C) (out : C → Q → Option X) :
    Comm J.sem o (.kernW f out b) := by
  intro m
  cases o with
  | save q k b' => simp only [Op.touches] at ht; simp [Job.sem, ht]
  | enc q b' => simp only [Op.touches] at ht; simp [Job.sem, ht]
  | put q k => simp [Job.sem]
  | _ => simp [Op.isSave] at h

theorem comm_load (J : Job C Q X Y) {o : Op C Q X} (b : Bool) (h : o.avoids b) (q : Q) (k : ℕ) :
    Comm J.sem o (.load q k b) ∧ Comm J.sem o (.get q k) ∧ Comm J.sem o (.dec q b) := by
  cases o with
  | comp f => exact ⟨fun m => by simp [Job.sem], fun m => by simp [Job.sem], fun m => by simp [Job.sem]⟩
  | kernR f b' =>
    simp only [Op.avoids] at h
    exact ⟨fun m => by simp [Job.sem, h], fun m => by simp [Job.sem], fun m => by simp [Job.sem, h]⟩
  | _ => simp [Op.avoids] at h

/-! ## Pending operations -/

/-- No operation is pending for `stream_compute`. -/
def Quiet (K : Pend Str Ev (Op C Q X)) : Prop := ∀ o, ¬ K.str .comp o

omit [DecidableEq Q] in
/-- Pending operations after launches on one stream. -/
theorem after_launches (K : Pend Str Ev (Op C Q X)) (s : Str) (os : List (Op C Q X)) :
    (∀ s' o, (K.after (os.map fun o => .launch s o)).str s' o ↔ K.str s' o ∨ (s' ≠ s ∧ o ∈ os)) ∧
    (∀ e o, (K.after (os.map fun o => .launch s o)).ev e o ↔ K.ev e o ∨ o ∈ os) := by
  induction os generalizing K with
  | nil => simp [Pend.after]
  | cons a os ih =>
    obtain ⟨h1, h2⟩ := ih (K.next (.launch s a))
    constructor
    · intro s' o
      refine (h1 s' o).trans ?_
      simp only [Pend.next, List.mem_cons]
      tauto
    · intro e o
      refine (h2 e o).trans ?_
      simp only [Pend.next, List.mem_cons]
      tauto

omit [DecidableEq Q] in
theorem safe_launches {sem : Op C Q X → Mem C Q X Y → Mem C Q X Y}
    (K : Pend Str Ev (Op C Q X)) (s : Str) (os : List (Op C Q X))
    (h : ∀ o', K.str s o' → ∀ o ∈ os, Comm sem o' o) :
    Safe sem K (os.map fun o => .launch s o) := by
  induction os generalizing K with
  | nil => trivial
  | cons a os ih =>
    refine ⟨fun o' ho' => h o' ho' a List.mem_cons_self, ih _ fun o' ho' o ho => ?_⟩
    simp only [Pend.next] at ho'
    rcases ho' with ho' | ho'
    · exact h o' ho' o (List.mem_cons_of_mem _ ho)
    · exact absurd rfl ho'.1

/-- Operations of `saves`. -/
def Job.saveOps (J : Job C Q X Y) (k : ℕ) (b : Bool) : List (Op C Q X) :=
  J.qs.flatMap fun q => if J.staged then [.enc q b, .put q k] else [.save q k b]

/-- Operations of `loads`. -/
def Job.loadOps (J : Job C Q X Y) (k : ℕ) (b : Bool) : List (Op C Q X) :=
  J.qs.flatMap fun q => if J.staged then [.get q k, .dec q b] else [.load q k b]

omit [DecidableEq Q] in
theorem Job.saves_eq (J : Job C Q X Y) (call k : ℕ) (b : Bool) :
    J.saves call k b = (J.saveOps k b).map fun o => .launch (J.storStream call) o := by
  unfold Job.saves Job.saveOps
  rw [List.map_flatMap]
  congr 1
  funext q
  split_ifs <;> rfl

omit [DecidableEq Q] in
theorem Job.loads_eq (J : Job C Q X Y) (call k : ℕ) (b : Bool) :
    J.loads call k b = (J.loadOps k b).map fun o => .launch (J.storStream call) o := by
  unfold Job.loads Job.loadOps
  rw [List.map_flatMap]
  congr 1
  funext q
  split_ifs <;> rfl

omit [DecidableEq Q] in
theorem Job.isSave_of_mem (J : Job C Q X Y) {k : ℕ} {b : Bool} {o : Op C Q X}
    (h : o ∈ J.saveOps k b) : o.isSave ∧ ∀ b', b' ≠ b → ¬ o.touches b' := by
  simp only [Job.saveOps, List.mem_flatMap] at h
  obtain ⟨q, _, h⟩ := h
  split_ifs at h
  · simp only [List.mem_cons, List.not_mem_nil, or_false] at h
    rcases h with rfl | rfl
    · exact ⟨trivial, fun b' hb h => hb h.symm⟩
    · exact ⟨trivial, fun b' _ h => h⟩
  · simp only [List.mem_cons, List.not_mem_nil, or_false] at h
    subst h
    exact ⟨trivial, fun b' hb h => hb h.symm⟩

theorem Job.isLoad_of_mem (J : Job C Q X Y) {k : ℕ} {b : Bool} {o : Op C Q X}
    (h : o ∈ J.loadOps k b) : o.isLoad ∧ ∀ o' : Op C Q X, o'.avoids b → Comm J.sem o' o := by
  simp only [Job.loadOps, List.mem_flatMap] at h
  obtain ⟨q, _, h⟩ := h
  split_ifs at h
  · simp only [List.mem_cons, List.not_mem_nil, or_false] at h
    rcases h with rfl | rfl
    · exact ⟨trivial, fun o' ho => (comm_load J b ho q k).2.1⟩
    · exact ⟨trivial, fun o' ho => (comm_load J b ho q k).2.2⟩
  · simp only [List.mem_cons, List.not_mem_nil, or_false] at h
    subst h
    exact ⟨trivial, fun o' ho => (comm_load J b ho q k).1⟩

end Dw.Gpu
