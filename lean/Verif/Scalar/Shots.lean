import Verif.Scalar.Forward
import Verif.Scalar.Backward

/-!
# Several shots and threads

Models the `omp parallel for` loop over shots in `scalar.c` (forward 234-418, backward 520-703),
the thread buffers of the model gradient and their combination (`common_cpu.h` 32-43,
`scalar.c` 704-708), and the drivers in `scalar.py` for `n_shots` shots.

An execution of one parallel loop is given by the thread each shot runs on and a *trace*: the
order in which the (shot, time step) iterations of all threads happen.  Any interleaving is
allowed in which each shot runs its own time steps in order.  One iteration of the time loop of
one shot is an atomic step of the model; that this is adequate needs that concurrent iterations do
not access the same memory, which is `C07_no_race`.
-/

namespace Dw.Scalar

variable {d ns nr S P : ℕ} {R : Type*} [Field R]

/-- Arguments of the drivers for `S` shots. -/
structure Batch (d ns nr S : ℕ) (R : Type*) where
  /-- everything that does not depend on the shot (`v`, `src`, `rcv` of `base` are not used) -/
  base : Cfg d ns nr R
  /-- blocks of `v`: block `s` starts at `s * n_grid_points` -/
  v : ℕ → Fld d R
  /-- `v.ndim == ndim + 1 and v.shape[0] > 1` (`scalar.py` 797, 1177) -/
  batched : Bool
  src : Fin S → Fin ns → Option (Cell d)
  rcv : Fin S → Fin nr → Option (Cell d)

/-- What shot `s` sees: `v_shot = v_batched ? v + shot_i : v`, `sources_i + si`,
`receivers_i + ri` (`scalar.c` 246-249, 400-411, 520-536). -/
def Batch.cfg (B : Batch d ns nr S R) (s : Fin S) : Cfg d ns nr R :=
  { B.base with v := B.v (if B.batched then s else 0), src := B.src s, rcv := B.rcv s }

/-- How one parallel loop is executed. -/
structure Sched (S P : ℕ) where
  thread : Fin S → Fin P
  trace : List (Fin S × ℕ)

/-- Each shot runs the time steps `ts` in order. -/
def Sched.Valid (σ : Sched S P) (ts : List ℕ) : Prop :=
  ∀ s, (σ.trace.filter fun e => e.1 = s).map Prod.snd = ts

/-- The parallel loop of `forward` (`scalar.c` 234-418): shot `s` works on the blocks at
`shot_i`, `si`, `ri` of the arrays. -/
def Batch.fwdCall (B : Batch d ns nr S R) (grad : Bool) (f : Fin S → ℕ → Fin ns → R) (start : ℕ)
    (σ : Sched S P) (m : Fin S → FwdMem d nr R) : Fin S → FwdMem d nr R :=
  σ.trace.foldl (fun m e => Function.update m e.1
    (fwdIter (B.cfg e.1).fwdArgs grad (f e.1) start e.2 (m e.1))) m

/-- The loop over chunks (`scalar.py` 851-921) on the buffers of all shots. -/
def Batch.fwdChunk (B : Batch d ns nr S R) (grad : Bool) (f : Fin S → ℕ → Fin ns → R)
    (σ : ℕ → Sched S P) (m : (Fin S → FwdMem d nr R) × List (ℕ × (Fin S → Wavefields d R)))
    (chunk : ℕ × ℕ) : (Fin S → FwdMem d nr R) × List (ℕ × (Fin S → Wavefields d R)) :=
  let events := m.2 ++ [(chunk.1, fun s => (m.1 s).bufs.wavefields)]
  let m' := B.fwdCall grad f (chunk.1 * B.base.ratio) (σ chunk.1) m.1
  (if (chunk.2 * B.base.ratio) % 2 ≠ 0 then fun s => { m' s with bufs := (m' s).bufs.swap }
   else m', events)

structure BatchFwdResult (d nr S : ℕ) (R : Type*) where
  out : Fin S → Wavefields d R
  rcd : Fin S → ℕ → Fin nr → R
  store : Fin S → ℕ → Fld d R
  events : List (ℕ × (Fin S → Wavefields d R))

/-- `ScalarForwardFunc.forward` (`scalar.py` 600-934).  `σ step` is the execution of the parallel
loop of the chunk that starts at outer step `step`. -/
def Batch.forward (B : Batch d ns nr S R) (grad : Bool) (cb : Option ℕ) (nt : ℕ)
    (f : Fin S → ℕ → Fin ns → R) (w : Fin S → Init d R) (σ : ℕ → Sched S P) :
    Except PyErr (BatchFwdResult d nr S R) :=
  if B.base.ratio = 0 then .error .zeroDivision else
  let N := nt / B.base.ratio
  let cf := cb.getD N
  let m₀ : Fin S → FwdMem d nr R := fun s => ⟨B.base.initBufs (w s), fun _ _ => 0, fun _ _ => 0⟩
  if (0 < S ∧ 0 < nt) ∧ cf = 0 then .error .valueError else
  let m := if 0 < S ∧ 0 < nt then (chunks N cf).foldl (B.fwdChunk grad f σ) (m₀, []) else (m₀, [])
  .ok { out := fun s => ⟨B.base.unpad (m.1 s).bufs.wfc, B.base.unpad (m.1 s).bufs.wfp,
                fun k => B.base.unpad ((m.1 s).bufs.psi k), fun k => B.base.unpad ((m.1 s).bufs.zeta k)⟩
        rcd := fun s => (m.1 s).rcd, store := fun s => (m.1 s).store
        events := if cb.isSome then m.2 else [] }

/-! ### Backward -/

/-- Memory of the backward pass. -/
structure BatchBwdMem (d ns S : ℕ) (R : Type*) where
  bufs : Fin S → BwdBufs d R
  gf : Fin S → ℕ → Fin ns → R
  /-- blocks of `grad_v` -/
  gv : ℕ → Fld d R
  /-- blocks of `grad_v_tmp` -/
  tmp : ℕ → Fld d R

/-- Whether `grad_v_thread` points to `grad_v_tmp` (`scalar.py` 1206-1220, with OpenMP) and
`combine_grad` is called (`scalar.c` 705). -/
def Batch.useTmp (B : Batch d ns nr S R) (grad : Bool) (P : ℕ) : Bool :=
  grad && !B.batched && 1 < P

/-- Block of `grad_v_thread` used by a shot: `v_batched ? shot_i : threadi`
(`scalar.c` 525-533). -/
def Batch.block (B : Batch d ns nr S R) (th : Fin S → Fin P) (s : Fin S) : ℕ :=
  if B.batched then s else th s

/-- One iteration of the time loop of one shot, on the memory of all shots. -/
def Batch.bwdStep (B : Batch d ns nr S R) (grad : Bool) (P : ℕ) (store : Fin S → ℕ → Fld d R)
    (gr : Fin S → ℕ → Fin nr → R) (start : ℕ) (th : Fin S → Fin P) (m : BatchBwdMem d ns S R)
    (e : Fin S × ℕ) : BatchBwdMem d ns S R :=
  let β := B.block th e.1
  let slot := if B.useTmp grad P then m.tmp β else m.gv β
  let m' := bwdIter (B.cfg e.1).bwdArgs grad (store e.1) (gr e.1) start e.2
    ⟨m.bufs e.1, m.gf e.1, slot⟩
  { bufs := Function.update m.bufs e.1 m'.bufs
    gf := Function.update m.gf e.1 m'.gf
    gv := if B.useTmp grad P then m.gv else Function.update m.gv β m'.gv
    tmp := if B.useTmp grad P then Function.update m.tmp β m'.gv else m.tmp }

/-- `backward` (`scalar.c` 520-708): the parallel loop, then `combine_grad`
(`common_cpu.h` 32-43). -/
def Batch.bwdCall (B : Batch d ns nr S R) (grad : Bool) (store : Fin S → ℕ → Fld d R)
    (gr : Fin S → ℕ → Fin nr → R) (start : ℕ) (σ : Sched S P) (m : BatchBwdMem d ns S R) :
    BatchBwdMem d ns S R :=
  let m' := σ.trace.foldl (B.bwdStep grad P store gr start σ.thread) m
  if B.useTmp grad P then
    { m' with gv := Function.update m'.gv 0 fun c =>
        (List.range P).foldl (fun g θ => g + m'.tmp θ c) (m'.gv 0 c) }
  else m'

/-- The loop over chunks (`scalar.py` 1250-1297). -/
def Batch.bwdChunk (B : Batch d ns nr S R) (grad : Bool) (store : Fin S → ℕ → Fld d R)
    (gr : Fin S → ℕ → Fin nr → R) (σ : ℕ → Sched S P) (m : BatchBwdMem d ns S R)
    (chunk : ℕ × ℕ) : BatchBwdMem d ns S R :=
  let m' := B.bwdCall grad store gr (chunk.1 * B.base.ratio) (σ chunk.1) m
  if (chunk.2 * B.base.ratio) % 2 ≠ 0 then { m' with bufs := fun s => (m'.bufs s).swap } else m'

structure BatchBwdResult (d ns S : ℕ) (R : Type*) where
  /-- blocks of the returned `grad_v`; only block 0 exists if the model is not batched -/
  gv : ℕ → Fld d R
  gf : Fin S → ℕ → Fin ns → R
  out : Fin S → Wavefields d R

/-- `ScalarBackwardFunc.forward` (`scalar.py` 1026-1342). -/
def Batch.backward (B : Batch d ns nr S R) (grad : Bool) (cb : Option ℕ) (nt : ℕ)
    (store : Fin S → ℕ → Fld d R) (gr : Fin S → ℕ → Fin nr → R) (g : Fin S → Init d R)
    (σ : ℕ → Sched S P) : Except PyErr (BatchBwdResult d ns S R) :=
  if B.base.ratio = 0 then .error .zeroDivision else
  let N := nt / B.base.ratio
  let cf := cb.getD N
  let m₀ : BatchBwdMem d ns S R :=
    ⟨fun s => B.base.initBwdBufs (g s), fun _ _ _ => 0, fun _ _ => 0, fun _ _ => 0⟩
  if (0 < S ∧ 0 < nt) ∧ cf = 0 then .error .valueError else
  let m := if 0 < S ∧ 0 < nt then (bwdChunks N cf).foldl (B.bwdChunk grad store gr σ) m₀ else m₀
  .ok { gv := m.gv, gf := m.gf
        out := fun s => ⟨B.base.unpad (m.bufs s).wfc, B.base.unpad (fun c => -(m.bufs s).wfp c),
          fun k => B.base.unpad ((m.bufs s).psi k), fun k => B.base.unpad ((m.bufs s).zeta k)⟩ }

/-! ### Forward: every shot as if alone -/

theorem foldl_update_apply {ι τ M : Type*} [DecidableEq ι] (step : ι → τ → M → M)
    (l : List (ι × τ)) (m : ι → M) (s : ι) :
    (l.foldl (fun m e => Function.update m e.1 (step e.1 e.2 (m e.1))) m) s =
      ((l.filter fun e => e.1 = s).map Prod.snd).foldl (fun x t => step s t x) (m s) := by
  induction l generalizing m with
  | nil => rfl
  | cons e l ih =>
      rw [List.foldl_cons, ih]
      by_cases he : e.1 = s
      · subst he
        simp
      · rw [Function.update_of_ne (Ne.symm he)]
        simp [he]

/-- Time steps of a forward chunk. -/
def fwdSteps (start nt : ℕ) : List ℕ := (List.range nt).map fun i => start + i

/-- Time steps of a backward chunk. -/
def bwdSteps (start nt : ℕ) : List ℕ := (List.range nt).map fun i => start - 1 - i

theorem Batch.fwdCall_apply (B : Batch d ns nr S R) (grad : Bool) (f : Fin S → ℕ → Fin ns → R)
    (start nt : ℕ) (σ : Sched S P) (hσ : σ.Valid (fwdSteps start nt)) (m : Fin S → FwdMem d nr R)
    (s : Fin S) :
    B.fwdCall grad f start σ m s = Scalar.fwdCall (B.cfg s).fwdArgs grad (f s) start nt (m s) := by
  rw [Batch.fwdCall, foldl_update_apply
    (fun s t x => fwdIter (B.cfg s).fwdArgs grad (f s) start t x), hσ s, fwdSteps,
    List.foldl_map]
  rfl

theorem Batch.fwdChunk_apply (B : Batch d ns nr S R) (grad : Bool) (f : Fin S → ℕ → Fin ns → R)
    (σ : ℕ → Sched S P) (m : (Fin S → FwdMem d nr R) × List (ℕ × (Fin S → Wavefields d R)))
    (e : List (Event d R)) (chunk : ℕ × ℕ)
    (hσ : (σ chunk.1).Valid (fwdSteps (chunk.1 * B.base.ratio) (chunk.2 * B.base.ratio)))
    (s : Fin S) (he : m.2.map (fun x => (⟨x.1, x.2 s⟩ : Event d R)) = e) :
    ((B.fwdChunk grad f σ m chunk).1 s,
      (B.fwdChunk grad f σ m chunk).2.map (fun x => (⟨x.1, x.2 s⟩ : Event d R))) =
      (B.cfg s).fwdChunk grad (f s) (m.1 s, e) chunk := by
  simp only [Batch.fwdChunk, Cfg.fwdChunk]
  have hr : (B.cfg s).ratio = B.base.ratio := rfl
  rw [hr, ← B.fwdCall_apply grad f _ _ _ hσ]
  congr 1
  · split_ifs <;> rfl
  · simp [he]

theorem Batch.fwdChunks_apply (B : Batch d ns nr S R) (grad : Bool) (f : Fin S → ℕ → Fin ns → R)
    (σ : ℕ → Sched S P) (l : List (ℕ × ℕ))
    (hσ : ∀ chunk ∈ l,
      (σ chunk.1).Valid (fwdSteps (chunk.1 * B.base.ratio) (chunk.2 * B.base.ratio)))
    (m : (Fin S → FwdMem d nr R) × List (ℕ × (Fin S → Wavefields d R))) (e : List (Event d R))
    (s : Fin S) (he : m.2.map (fun x => (⟨x.1, x.2 s⟩ : Event d R)) = e) :
    ((l.foldl (B.fwdChunk grad f σ) m).1 s,
      (l.foldl (B.fwdChunk grad f σ) m).2.map (fun x => (⟨x.1, x.2 s⟩ : Event d R))) =
      l.foldl ((B.cfg s).fwdChunk grad (f s)) (m.1 s, e) := by
  induction l generalizing m e with
  | nil => simp [he]
  | cons c l ih =>
      rw [List.foldl_cons, List.foldl_cons]
      have h1 := B.fwdChunk_apply grad f σ m e c (hσ c List.mem_cons_self) s he
      rw [← h1]
      exact ih (fun x hx => hσ x (List.mem_cons_of_mem _ hx)) _ _ rfl

/-! ### Backward -/

/-- `Cfg.BInv` without the model gradient. -/
structure Cfg.BPart (C : Cfg d ns nr R) (gr : ℕ → Fin nr → R)
    (T : ℕ) (s₀ : St d R) (n : ℕ) (odd : Bool) (b : BwdBufs d R) (gf : ℕ → Fin ns → R) : Prop where
  ok : C.BOk (bBufsAt odd b)
  st : (bBufsAt odd b).st = C.bRun gr T s₀ n
  gf : ∀ t, gf t = if t < T ∧ T ≤ t + n then sample C.src (C.bRun gr T s₀ (T - 1 - t)).u
    else fun _ => 0

theorem Cfg.BPart.step {C : Cfg d ns nr R} (h : C.WF) {grad : Bool} {store : ℕ → Fld d R}
    {gr : ℕ → Fin nr → R} {T : ℕ} {s₀ : St d R} {n : ℕ} {odd : Bool} {m : BwdMem d ns R}
    (hi : C.BPart gr T s₀ n odd m.bufs m.gf) (hn : n < T) (start : ℕ)
    (ho : odd = ((start - 1 - (T - 1 - n)) % 2 == 1)) :
    let m' := bwdIter C.bwdArgs grad store gr start (T - 1 - n) m
    C.BPart gr T s₀ (n + 1) (!odd) m'.bufs m'.gf ∧
      m'.gv = fun c => m.gv c + C.bGrad grad store gr T s₀ n c := by
  obtain ⟨h1, h2, h3, h4⟩ := bwdIter_eq h grad store gr start (T - 1 - n) m odd ho hi.ok
  refine ⟨⟨h1, ?_, ?_⟩, ?_⟩
  · rw [h2, hi.st, Cfg.bRun]
  · intro t
    rw [h3]
    by_cases ht : t = T - 1 - n
    · subst ht
      rw [Function.update_self, hi.gf, if_neg (by omega), recordFrom_zero, hi.st,
        if_pos (by omega)]
      congr 3; omega
    · rw [Function.update_of_ne ht, hi.gf t]
      have : (t < T ∧ T ≤ t + (n + 1)) ↔ (t < T ∧ T ≤ t + n) := by omega
      simp only [this]
  · rw [h4, hi.st]
    rfl

/-- Number of iterations of shot `s` in a trace. -/
def cnt (l : List (Fin S × ℕ)) (s : Fin S) : ℕ := (l.filter fun e => e.1 = s).length

theorem cnt_append (l : List (Fin S × ℕ)) (e : Fin S × ℕ) (s : Fin S) :
    cnt (l ++ [e]) s = cnt l s + if e.1 = s then 1 else 0 := by
  unfold cnt
  rw [List.filter_append, List.length_append]
  congr 1
  by_cases h : e.1 = s <;> simp [h]

/-- The slots of `grad_v_thread`. -/
def Batch.slots (B : Batch d ns nr S R) (grad : Bool) (P : ℕ) (m : BatchBwdMem d ns S R) :
    ℕ → Fld d R := if B.useTmp grad P then m.tmp else m.gv

/-- The state in the middle of a parallel loop, after the part `l` of the trace. -/
theorem Batch.bwdTrace (B : Batch d ns nr S R) (h : ∀ s, (B.cfg s).WF) (grad : Bool)
    (store : Fin S → ℕ → Fld d R) (gr : Fin S → ℕ → Fin nr → R) (T n₀ n : ℕ)
    (hn : n₀ + n ≤ T) (th : Fin S → Fin P) (s₀ : Fin S → St d R) (m : BatchBwdMem d ns S R)
    (hm : ∀ s, (B.cfg s).BPart (gr s) T (s₀ s) n₀ false (m.bufs s) (m.gf s))
    (l : List (Fin S × ℕ))
    (hl : ∀ s, (l.filter fun e => e.1 = s).map Prod.snd <+: bwdSteps (T - n₀) n) :
    let m' := l.foldl (B.bwdStep grad P store gr (T - n₀) th) m
    (∀ s, (B.cfg s).BPart (gr s) T (s₀ s) (n₀ + cnt l s) (cnt l s % 2 == 1) (m'.bufs s)
      (m'.gf s)) ∧
    (∀ β c, B.slots grad P m' β c = B.slots grad P m β c + ∑ s, if B.block th s = β then
      ∑ i ∈ Finset.range (cnt l s), (B.cfg s).bGrad grad (store s) (gr s) T (s₀ s) (n₀ + i) c
      else 0) ∧
    (B.useTmp grad P = true → m'.gv = m.gv) := by
  induction l using List.reverseRecOn with
  | nil =>
      refine ⟨fun s => by simpa [cnt] using hm s, fun β c => ?_, fun _ => rfl⟩
      simp [cnt]
  | append_singleton l e ih =>
      obtain ⟨s, t⟩ := e
      have hl' : ∀ s, (l.filter fun e => e.1 = s).map Prod.snd <+: bwdSteps (T - n₀) n := by
        intro s'
        refine List.IsPrefix.trans ?_ (hl s')
        rw [List.filter_append, List.map_append]
        exact List.prefix_append _ _
      rw [List.foldl_append, List.foldl_cons, List.foldl_nil]
      obtain ⟨h1, h2, h3⟩ := ih hl'
      clear ih
      generalize l.foldl (B.bwdStep grad P store gr (T - n₀) th) m = m1 at h1 h2 h3 ⊢
      -- the time step of the new event
      have ht : cnt l s < n ∧ t = T - n₀ - 1 - cnt l s := by
        have hp := hl s
        rw [List.filter_append, List.map_append] at hp
        simp only [decide_true, List.filter_cons_of_pos, List.filter_nil, List.map_cons,
          List.map_nil] at hp
        have hlen := hp.length_le
        simp only [List.length_append, List.length_map, List.length_singleton, bwdSteps,
          List.length_range] at hlen
        have hlt : cnt l s < n := by unfold cnt; omega
        refine ⟨hlt, ?_⟩
        obtain ⟨suf, hsuf⟩ := hp
        have hk : cnt l s = ((l.filter fun e => e.1 = s).map Prod.snd).length := by simp [cnt]
        generalize (l.filter fun e => e.1 = s).map Prod.snd = L at hsuf hk
        have hg := congrArg (fun x => x[cnt l s]?) hsuf
        simp only [hk, List.append_assoc, List.getElem?_append_right le_rfl] at hg
        rw [← hk] at hg
        simp only [Nat.sub_self, List.singleton_append, List.getElem?_cons_zero, bwdSteps,
          List.getElem?_map, List.getElem?_range hlt, Option.map_some, Option.some.injEq] at hg
        exact hg
      have hstep := (h1 s).step (h s) (grad := grad) (store := store s) (n := n₀ + cnt l s)
        (m := ⟨m1.bufs s, m1.gf s, B.slots grad P m1 (B.block th s)⟩) (by omega) (T - n₀) (by
          rw [show T - n₀ - 1 - (T - 1 - (n₀ + cnt l s)) = cnt l s by omega])
      have et : T - 1 - (n₀ + cnt l s) = t := by omega
      rw [et] at hstep
      obtain ⟨hp, hgv⟩ := hstep
      have hslot : (if B.useTmp grad P then m1.tmp (B.block th s) else m1.gv (B.block th s)) =
          B.slots grad P m1 (B.block th s) := by unfold Batch.slots; split_ifs <;> rfl
      have hslots' : B.slots grad P (B.bwdStep grad P store gr (T - n₀) th m1 (s, t)) =
          Function.update (B.slots grad P m1) (B.block th s) fun c =>
            B.slots grad P m1 (B.block th s) c
              + (B.cfg s).bGrad grad (store s) (gr s) T (s₀ s) (n₀ + cnt l s) c := by
        simp only [Batch.bwdStep, hslot, hgv]
        unfold Batch.slots
        split_ifs <;> rfl
      refine ⟨fun s' => ?_, fun β c => ?_, fun hu => ?_⟩
      · rw [cnt_append]
        by_cases hs : s = s'
        · subst hs
          simp only [if_true, Batch.bwdStep, Function.update_self, hslot]
          have e : ((cnt l s + 1) % 2 == 1) = !(cnt l s % 2 == 1) := by
            rcases Nat.mod_two_eq_zero_or_one (cnt l s) with h | h <;> simp [Nat.add_mod, h]
          rw [e]
          exact hp
        · simp only [hs, if_false, Nat.add_zero, Batch.bwdStep]
          rw [Function.update_of_ne (Ne.symm hs), Function.update_of_ne (Ne.symm hs)]
          exact h1 s'
      · rw [hslots']
        have key : ∀ s', (∑ i ∈ Finset.range (cnt (l ++ [(s, t)]) s'),
            (B.cfg s').bGrad grad (store s') (gr s') T (s₀ s') (n₀ + i) c) =
            (∑ i ∈ Finset.range (cnt l s'),
              (B.cfg s').bGrad grad (store s') (gr s') T (s₀ s') (n₀ + i) c) +
            if s = s' then (B.cfg s).bGrad grad (store s) (gr s) T (s₀ s) (n₀ + cnt l s) c
              else 0 := by
          intro s'
          rw [cnt_append]
          by_cases hs : s = s'
          · subst hs; simp [Finset.sum_range_succ]
          · simp [hs]
        simp only [key]
        have split : ∀ s', (if B.block th s' = β then
            (∑ i ∈ Finset.range (cnt l s'),
              (B.cfg s').bGrad grad (store s') (gr s') T (s₀ s') (n₀ + i) c) +
            (if s = s' then (B.cfg s).bGrad grad (store s) (gr s) T (s₀ s) (n₀ + cnt l s) c
              else 0) else 0) =
            (if B.block th s' = β then ∑ i ∈ Finset.range (cnt l s'),
              (B.cfg s').bGrad grad (store s') (gr s') T (s₀ s') (n₀ + i) c else 0) +
            (if s = s' then (if B.block th s = β then
              (B.cfg s).bGrad grad (store s) (gr s) T (s₀ s) (n₀ + cnt l s) c else 0) else 0) := by
          intro s'
          by_cases hs : s = s'
          · subst hs; simp only [if_true]; split_ifs <;> simp
          · simp [hs]
        simp only [split, Finset.sum_add_distrib, Finset.sum_ite_eq, Finset.mem_univ, if_true]
        by_cases hβ : β = B.block th s
        · subst hβ
          rw [Function.update_self, h2]
          simp only [if_true]
          ring
        · rw [Function.update_of_ne hβ, h2, if_neg (Ne.symm hβ)]
          ring
      · rw [← h3 hu]
        simp [Batch.bwdStep, hu]

theorem cnt_of_valid {σ : Sched S P} {start n : ℕ} (hσ : σ.Valid (bwdSteps start n)) (s : Fin S) :
    cnt σ.trace s = n := by
  have := congrArg List.length (hσ s)
  simpa [cnt, bwdSteps] using this

theorem foldl_add_eq (n : ℕ) (x : ℕ → R) (g : R) :
    (List.range n).foldl (fun g θ => g + x θ) g = g + ∑ θ ∈ Finset.range n, x θ := by
  induction n with
  | zero => simp
  | succ n ih =>
      rw [List.range_succ, List.foldl_append, ih, Finset.sum_range_succ, List.foldl_cons,
        List.foldl_nil, add_assoc]

/-- Sum of the contributions of all shots to the model gradient in the first `n` backward steps. -/
def Batch.cum (B : Batch d ns nr S R) (grad : Bool) (store : Fin S → ℕ → Fld d R)
    (gr : Fin S → ℕ → Fin nr → R) (T : ℕ) (s₀ : Fin S → St d R) (n : ℕ) : Fld d R := fun c =>
  ∑ s, ∑ i ∈ Finset.range n, (B.cfg s).bGrad grad (store s) (gr s) T (s₀ s) i c

/-- One backend call. -/
theorem Batch.bwdCall_spec (B : Batch d ns nr S R) (h : ∀ s, (B.cfg s).WF) (grad : Bool)
    (store : Fin S → ℕ → Fld d R) (gr : Fin S → ℕ → Fin nr → R) (T n₀ n : ℕ)
    (hn : n₀ + n ≤ T) (σ : Sched S P) (hσ : σ.Valid (bwdSteps (T - n₀) n))
    (s₀ : Fin S → St d R) (m : BatchBwdMem d ns S R)
    (hm : ∀ s, (B.cfg s).BPart (gr s) T (s₀ s) n₀ false (m.bufs s) (m.gf s)) :
    let m' := B.bwdCall grad store gr (T - n₀) σ m
    (∀ s, (B.cfg s).BPart (gr s) T (s₀ s) (n₀ + n) (n % 2 == 1) (m'.bufs s) (m'.gf s)) ∧
    (∀ β c, B.slots grad P m β c + (∑ s, if B.block σ.thread s = β then
      ∑ i ∈ Finset.range n, (B.cfg s).bGrad grad (store s) (gr s) T (s₀ s) (n₀ + i) c else 0) =
        B.slots grad P m' β c) ∧
    (B.useTmp grad P = true → ∀ c, m'.gv 0 c = m.gv 0 c + ∑ θ ∈ Finset.range P, m'.tmp θ c) := by
  intro m'
  obtain ⟨h1, h2, h3⟩ := B.bwdTrace h grad store gr T n₀ n hn σ.thread s₀ m hm σ.trace
    fun s => by rw [hσ s]
  simp only [cnt_of_valid hσ] at h1 h2
  have hm' : m' = B.bwdCall grad store gr (T - n₀) σ m := rfl
  simp only [Batch.bwdCall] at hm'
  generalize σ.trace.foldl (B.bwdStep grad P store gr (T - n₀) σ.thread) m = m1 at h1 h2 h3 hm'
  by_cases hu : B.useTmp grad P = true
  · rw [if_pos hu] at hm'
    refine ⟨fun s => by rw [hm']; exact h1 s, fun β c => ?_, fun _ c => ?_⟩
    · rw [← h2 β c, hm']
      simp [Batch.slots, hu]
    · rw [hm']
      simp only [Function.update_self]
      rw [foldl_add_eq, h3 hu]
  · rw [if_neg hu] at hm'
    rw [hm']
    exact ⟨h1, fun β c => (h2 β c).symm, fun hu' => absurd hu' hu⟩

theorem Cfg.bGrad_false (C : Cfg d ns nr R) (store : ℕ → Fld d R) (gr : ℕ → Fin nr → R) (T : ℕ)
    (s₀ : St d R) (n : ℕ) (c : Cell d) : C.bGrad false store gr T s₀ n c = 0 := by
  simp [Cfg.bGrad]

/-- Block of the returned gradient to which a shot contributes. -/
def Batch.outBlock (B : Batch d ns nr S R) (s : Fin S) : ℕ := if B.batched then s else 0

/-- State of the driver after `n` outer steps, the last of the chunks having brought the
counts `ends`. -/
structure Batch.Inv (B : Batch d ns nr S R) (grad : Bool) (P : ℕ) (store : Fin S → ℕ → Fld d R)
    (gr : Fin S → ℕ → Fin nr → R) (T : ℕ) (s₀ : Fin S → St d R) (n : ℕ) (ends : List ℕ)
    (m : BatchBwdMem d ns S R) : Prop where
  part : ∀ s, (B.cfg s).BPart (gr s) T (s₀ s) n false (m.bufs s) (m.gf s)
  tmp : B.useTmp grad P = true → ∀ c, ∑ θ ∈ Finset.range P, m.tmp θ c = B.cum grad store gr T s₀ n c
  gvTmp : B.useTmp grad P = true → ∀ c, m.gv 0 c =
    (ends.map fun e => B.cum grad store gr T s₀ e c).sum
  gv : B.useTmp grad P = false → ∀ β c, m.gv β c = ∑ s, if B.outBlock s = β then
    ∑ i ∈ Finset.range n, (B.cfg s).bGrad grad (store s) (gr s) T (s₀ s) i c else 0

theorem Batch.Inv.chunk {B : Batch d ns nr S R} (h : ∀ s, (B.cfg s).WF) {grad : Bool}
    {store : Fin S → ℕ → Fld d R} {gr : Fin S → ℕ → Fin nr → R} {N : ℕ} {s₀ : Fin S → St d R}
    {ends : List ℕ} {m : BatchBwdMem d ns S R} {σ : ℕ → Sched S P} (n₀ n : ℕ) (hn : n₀ + n ≤ N)
    (hσ : (σ (N - n₀)).Valid (bwdSteps ((N - n₀) * B.base.ratio) (n * B.base.ratio)))
    (hi : B.Inv grad P store gr (N * B.base.ratio) s₀ (n₀ * B.base.ratio) ends m) :
    B.Inv grad P store gr (N * B.base.ratio) s₀ ((n₀ + n) * B.base.ratio)
      (ends ++ [(n₀ + n) * B.base.ratio]) (B.bwdChunk grad store gr σ m (N - n₀, n)) := by
  rw [Nat.sub_mul] at hσ
  have hspec := B.bwdCall_spec h grad store gr (N * B.base.ratio) (n₀ * B.base.ratio)
    (n * B.base.ratio) (by rw [← Nat.add_mul]; exact Nat.mul_le_mul_right _ hn) (σ (N - n₀)) hσ s₀ m
    hi.part
  rw [← Nat.add_mul, ← Nat.sub_mul] at hspec
  obtain ⟨h1, h2, h3⟩ := hspec
  have hpart : ∀ s, (B.cfg s).BPart (gr s) (N * B.base.ratio) (s₀ s) ((n₀ + n) * B.base.ratio) false
      ((B.bwdChunk grad store gr σ m (N - n₀, n)).bufs s)
      ((B.bwdChunk grad store gr σ m (N - n₀, n)).gf s) := by
    intro s
    simp only [Batch.bwdChunk]
    have h1 := h1 s
    by_cases ho : n * B.base.ratio % 2 = 0
    · rw [if_neg (by simp [ho])]
      simpa [ho] using h1
    · have ho' : n * B.base.ratio % 2 = 1 := by omega
      rw [if_pos ho]
      rw [ho'] at h1
      exact ⟨h1.ok, h1.st, h1.gf⟩
  have hgv : (B.bwdChunk grad store gr σ m (N - n₀, n)).gv =
      (B.bwdCall grad store gr ((N - n₀) * B.base.ratio) (σ (N - n₀)) m).gv := by
    simp only [Batch.bwdChunk]; split_ifs <;> rfl
  have htmp : (B.bwdChunk grad store gr σ m (N - n₀, n)).tmp =
      (B.bwdCall grad store gr ((N - n₀) * B.base.ratio) (σ (N - n₀)) m).tmp := by
    simp only [Batch.bwdChunk]; split_ifs <;> rfl
  have hrange : ∀ (s : Fin S) (c : Cell d), ∑ i ∈ Finset.range ((n₀ + n) * B.base.ratio),
      (B.cfg s).bGrad grad (store s) (gr s) (N * B.base.ratio) (s₀ s) i c =
      ∑ i ∈ Finset.range (n₀ * B.base.ratio),
        (B.cfg s).bGrad grad (store s) (gr s) (N * B.base.ratio) (s₀ s) i c +
      ∑ i ∈ Finset.range (n * B.base.ratio),
        (B.cfg s).bGrad grad (store s) (gr s) (N * B.base.ratio) (s₀ s) (n₀ * B.base.ratio + i) c := by
    intro s c
    rw [Nat.add_mul, Finset.sum_range_add]
  have htmpsum : B.useTmp grad P = true → ∀ c,
      ∑ θ ∈ Finset.range P, (B.bwdChunk grad store gr σ m (N - n₀, n)).tmp θ c =
        B.cum grad store gr (N * B.base.ratio) s₀ ((n₀ + n) * B.base.ratio) c := by
    intro hu c
    have hb : B.batched = false := by
      simp only [Batch.useTmp, Bool.and_eq_true, Bool.not_eq_true'] at hu
      exact hu.1.2
    have h2' : ∀ β, (B.bwdChunk grad store gr σ m (N - n₀, n)).tmp β c = m.tmp β c +
        ∑ s, if B.block (σ (N - n₀)).thread s = β then
          ∑ i ∈ Finset.range (n * B.base.ratio), (B.cfg s).bGrad grad (store s) (gr s)
            (N * B.base.ratio) (s₀ s) (n₀ * B.base.ratio + i) c else 0 := by
      intro β
      have := h2 β c
      simp only [Batch.slots, hu, if_true] at this
      rw [htmp, ← this]
    simp only [h2', Finset.sum_add_distrib, hi.tmp hu c, Batch.cum, hrange]
    congr 1
    rw [Finset.sum_comm]
    refine Finset.sum_congr rfl fun s _ => ?_
    rw [Finset.sum_ite_eq, if_pos]
    simp [Batch.block, hb]
  refine ⟨hpart, htmpsum, fun hu c => ?_, fun hu β c => ?_⟩
  · rw [hgv, h3 hu c, hi.gvTmp hu c, ← htmp, htmpsum hu c]
    simp
  · rw [hgv]
    have h2' := h2 β c
    simp only [Batch.slots, hu] at h2'
    simp only [Bool.false_eq_true, if_false] at h2'
    rw [← h2', hi.gv hu β c, ← Finset.sum_add_distrib]
    refine Finset.sum_congr rfl fun s _ => ?_
    rw [hrange]
    cases grad with
    | false => simp [Cfg.bGrad_false]
    | true =>
        have hblock : B.block (σ (N - n₀)).thread s = B.outBlock s := by
          simp only [Batch.block, Batch.outBlock]
          by_cases hb : B.batched = true
          · simp [hb]
          · have hP : ¬1 < P := by
              simp only [Batch.useTmp, Bool.and_eq_false_iff, Bool.not_eq_false',
                decide_eq_false_iff_not] at hu
              rcases hu with (h | h) | h
              · exact absurd h (by decide)
              · exact absurd h hb
              · exact h
            simp only [hb]
            have := ((σ (N - n₀)).thread s).2
            simp only [Bool.false_eq_true, if_false]
            omega
        rw [hblock]
        split_ifs <;> simp

theorem Batch.Inv.chunks {B : Batch d ns nr S R} (h : ∀ s, (B.cfg s).WF) {grad : Bool}
    {store : Fin S → ℕ → Fld d R} {gr : Fin S → ℕ → Fin nr → R} {N : ℕ} {s₀ : Fin S → St d R}
    {m : BatchBwdMem d ns S R} {σ : ℕ → Sched S P} (cf : ℕ) (hcf : 0 < cf)
    (hσ : ∀ chunk ∈ bwdChunks N cf,
      (σ chunk.1).Valid (bwdSteps (chunk.1 * B.base.ratio) (chunk.2 * B.base.ratio)))
    (hi : B.Inv grad P store gr (N * B.base.ratio) s₀ 0 [] m) :
    B.Inv grad P store gr (N * B.base.ratio) s₀ (N * B.base.ratio)
      ((List.range ((N + cf - 1) / cf)).map fun i => min N ((i + 1) * cf) * B.base.ratio)
      ((bwdChunks N cf).foldl (B.bwdChunk grad store gr σ) m) := by
  have key : ∀ K, K ≤ (N + cf - 1) / cf →
      B.Inv grad P store gr (N * B.base.ratio) s₀ (min N (K * cf) * B.base.ratio)
        ((List.range K).map fun i => min N ((i + 1) * cf) * B.base.ratio)
        (((List.range K).map fun i => (N - i * cf, min (N - i * cf) cf)).foldl
          (B.bwdChunk grad store gr σ) m) := by
    intro K
    induction K with
    | zero => intro _; simpa using hi
    | succ K ih =>
        intro hK
        have h1 := ih (by omega)
        have hlt : K * cf < N := by
          have h1 : (K + 1) * cf ≤ N + cf - 1 := by
            calc (K + 1) * cf ≤ (N + cf - 1) / cf * cf := Nat.mul_le_mul_right _ hK
              _ ≤ N + cf - 1 := Nat.div_mul_le_self _ _
          rw [Nat.add_mul, Nat.one_mul] at h1
          omega
        rw [List.range_succ, List.map_append, List.map_append, List.foldl_append]
        simp only [List.map_cons, List.map_nil, List.foldl_cons, List.foldl_nil]
        rw [Nat.min_eq_right hlt.le] at h1
        have e : K * cf + min (N - K * cf) cf = min N ((K + 1) * cf) := by
          rw [Nat.add_mul, Nat.one_mul]; omega
        have h3 := h1.chunk h (σ := σ) (K * cf) (min (N - K * cf) cf) (by omega) (by
          refine hσ (N - K * cf, min (N - K * cf) cf) ?_
          simp only [bwdChunks, List.mem_map, List.mem_range]
          exact ⟨K, hK, rfl⟩)
        rw [e] at h3
        exact h3
  have h1 := key _ le_rfl
  rw [Nat.min_eq_left] at h1
  · exact h1
  have h2 := Nat.div_add_mod (N + cf - 1) cf
  have h3 := Nat.mod_lt (N + cf - 1) hcf
  rw [Nat.mul_comm] at h2
  omega

end Dw.Scalar
