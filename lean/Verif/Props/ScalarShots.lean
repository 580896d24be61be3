import Verif.Scalar.Shots
import Verif.Scalar.Example

/-!
# Properties of the scalar propagator with several shots and threads

`B.forward grad cb nt f w σ` and `B.backward grad cb nt store gr g σ` are the drivers for `S` shots;
`σ` gives for each backend call the thread of every shot and the order in which the iterations of
all shots happen (`Verif/Scalar/Shots.lean`).  `B.alone s` is shot `s` on its own.
-/

namespace Dw.Scalar

variable {d ns nr S P : ℕ} {R : Type*} [Field R]

/-- The executions of the parallel loops of a forward pass are admissible. -/
def Batch.FwdSched (B : Batch d ns nr S R) (cb : Option ℕ) (nt : ℕ) (σ : ℕ → Sched S P) : Prop :=
  let N := nt / B.base.ratio
  ∀ chunk ∈ chunks N (cb.getD N), ∀ s,
    ((σ chunk.1).trace.filter fun e => e.1 = s).map Prod.snd =
      (List.range (chunk.2 * B.base.ratio)).map fun i => chunk.1 * B.base.ratio + i

/-- The executions of the parallel loops of a backward pass are admissible. -/
def Batch.BwdSched (B : Batch d ns nr S R) (cb : Option ℕ) (nt : ℕ) (σ : ℕ → Sched S P) : Prop :=
  let N := nt / B.base.ratio
  ∀ chunk ∈ bwdChunks N (cb.getD N), ∀ s,
    ((σ chunk.1).trace.filter fun e => e.1 = s).map Prod.snd =
      (List.range (chunk.2 * B.base.ratio)).map fun i => chunk.1 * B.base.ratio - 1 - i

/-- Shot `s` propagated on its own: its sources and receivers, and its model if there is one per shot,
otherwise the only model. -/
def Batch.alone (B : Batch d ns nr S R) (s : Fin S) : Cfg d ns nr R :=
  { B.base with
    v := if B.batched then B.v s else B.v 0
    src := B.src s
    rcv := B.rcv s }

omit [Field R] in
theorem Batch.alone_eq (B : Batch d ns nr S R) (s : Fin S) : B.alone s = B.cfg s := by
  simp only [Batch.alone, Batch.cfg]
  split_ifs <;> rfl

/-- One shot after the other. -/
def seqTrace (S : ℕ) (ts : List ℕ) : List (Fin S × ℕ) :=
  (List.finRange S).flatMap fun s => ts.map fun t => (s, t)

/-- Two shots in lockstep. -/
def lockTrace (ts : List ℕ) : List (Fin 2 × ℕ) := ts.flatMap fun t => [(1, t), (0, t)]

theorem lockTrace_filter (ts : List ℕ) (s : Fin 2) :
    ((lockTrace ts).filter fun e => e.1 = s).map Prod.snd = ts := by
  induction ts with
  | nil => rfl
  | cons t ts ih =>
      have hs : s = 0 ∨ s = 1 := by omega
      simp only [lockTrace, List.flatMap_cons, List.filter_append, List.map_append] at ih ⊢
      rw [ih]
      rcases hs with rfl | rfl <;> simp

/-! ## C07 -/

/-- **C07**, forward: each shot's receiver data, final wavefields, snapshots and callback events
are those of propagating that shot alone, for every execution of the parallel loops. -/
theorem C07_shots_independent_forward (B : Batch d ns nr S R) (hr : 0 < B.base.ratio) (grad : Bool)
    (cb : Option ℕ) (nt : ℕ) (hcf : 0 < nt → 0 < cb.getD (nt / B.base.ratio))
    (f : Fin S → ℕ → Fin ns → R) (w : Fin S → Init d R) (σ : ℕ → Sched S P)
    (hσ : B.FwdSched cb nt σ) :
    ∃ r, B.forward grad cb nt f w σ = .ok r ∧ ∀ s, (B.alone s).forward grad cb nt (f s) (w s) =
      .ok ⟨r.out s, r.rcd s, r.store s, r.events.map fun e => ⟨e.1, e.2 s⟩⟩ := by
  simp only [Batch.alone_eq]
  have hc : ¬((0 < S ∧ 0 < nt) ∧ cb.getD (nt / B.base.ratio) = 0) := by
    rintro ⟨⟨-, h1⟩, h2⟩
    have := hcf h1
    omega
  refine ⟨_, by rw [Batch.forward, if_neg (by omega)]; simp only; rw [if_neg hc], fun s => ?_⟩
  have hr' : ((B.cfg s).ratio = 0) = False := by
    simp only [eq_iff_iff, iff_false]; change ¬B.base.ratio = 0; omega
  have hS : 0 < S := by have := s.2; omega
  rw [Cfg.forward, if_neg (by simp [hr'])]
  have hc' : ¬(0 < nt ∧ cb.getD (nt / (B.cfg s).ratio) = 0) := by
    rintro ⟨h1, h2⟩
    have := hcf h1
    change cb.getD (nt / B.base.ratio) = 0 at h2
    omega
  simp only
  rw [if_neg hc']
  have hst : ∀ w, (B.cfg s).initBufs w = B.base.initBufs w := fun _ => rfl
  have hu : (B.cfg s).unpad = B.base.unpad := rfl
  by_cases hnt : 0 < nt
  · have key := B.fwdChunks_apply grad f σ (chunks (nt / B.base.ratio) (cb.getD (nt / B.base.ratio)))
      hσ (fun s => ⟨B.base.initBufs (w s), fun _ _ => 0, fun _ _ => 0⟩, []) [] s rfl
    have e : (B.cfg s).ratio = B.base.ratio := rfl
    simp only [e, hnt, hS, and_self, if_true, hst, hu, ← key]
    cases cb <;> simp
  · simp [hnt, hst, hu]

/-- What single-shot facts the batch driver preserves. -/
theorem Batch.backward_inv (B : Batch d ns nr S R) (h : ∀ s, (B.cfg s).WF) (hr : 0 < B.base.ratio)
    (grad : Bool) (cb : Option ℕ) (nt : ℕ) (hcf : 0 < nt → 0 < cb.getD (nt / B.base.ratio))
    (store : Fin S → ℕ → Fld d R) (gr : Fin S → ℕ → Fin nr → R) (g : Fin S → Init d R)
    (σ : ℕ → Sched S P) (hσ : B.BwdSched cb nt σ) :
    ∃ m, B.Inv grad P store gr (nt / B.base.ratio * B.base.ratio) (fun s => (B.cfg s).bStart (g s))
        (nt / B.base.ratio * B.base.ratio)
        (if 0 < S ∧ 0 < nt then (List.range ((nt / B.base.ratio + cb.getD (nt / B.base.ratio) - 1) /
            cb.getD (nt / B.base.ratio))).map fun i =>
          min (nt / B.base.ratio) ((i + 1) * cb.getD (nt / B.base.ratio)) * B.base.ratio else []) m ∧
      B.backward grad cb nt store gr g σ =
        .ok ⟨m.gv, m.gf, fun s => ⟨B.base.unpad (m.bufs s).wfc,
          B.base.unpad (fun c => -(m.bufs s).wfp c), fun k => B.base.unpad ((m.bufs s).psi k),
          fun k => B.base.unpad ((m.bufs s).zeta k)⟩⟩ := by
  have hc : ¬((0 < S ∧ 0 < nt) ∧ cb.getD (nt / B.base.ratio) = 0) := by
    rintro ⟨⟨-, h1⟩, h2⟩
    have := hcf h1
    omega
  have hinit : ∀ T, B.Inv grad P store gr T (fun s => (B.cfg s).bStart (g s)) 0 []
      (⟨fun s => B.base.initBwdBufs (g s), fun _ _ _ => 0, fun _ _ => 0, fun _ _ => 0⟩ :
        BatchBwdMem d ns S R) := by
    intro T
    refine ⟨fun s => ?_, fun _ c => ?_, fun _ c => ?_, fun _ β c => ?_⟩
    · have := (B.cfg s).binv_init grad (store s) (gr s) T (g s)
      exact ⟨this.ok, this.st, this.gf⟩
    · simp [Batch.cum]
    · simp
    · simp
  by_cases hnt : 0 < S ∧ 0 < nt
  · refine ⟨_, ?_, by
      rw [Batch.backward, if_neg (by omega)]; simp only; rw [if_neg hc, if_pos hnt]⟩
    rw [if_pos hnt]
    exact (hinit _).chunks h _ (hcf hnt.2) hσ
  · refine ⟨_, ?_, by
      rw [Batch.backward, if_neg (by omega)]; simp only; rw [if_neg hc, if_neg hnt]⟩
    rw [if_neg hnt]
    rcases Nat.eq_zero_or_pos S with hS | hS
    · subst hS
      refine ⟨fun s => s.elim0, fun _ c => ?_, fun _ c => ?_, fun _ β c => ?_⟩
      · simp [Batch.cum]
      · simp
      · simp
    · have : nt = 0 := by
        by_contra h0
        exact hnt ⟨hS, Nat.pos_of_ne_zero h0⟩
      subst this
      simpa using hinit 0

/-- **C07**, backward: each shot's source gradient and initial wavefield gradients are those of
that shot alone, for every execution of the parallel loops. -/
theorem C07_shots_independent_backward (B : Batch d ns nr S R) (h : ∀ s, (B.alone s).WF)
    (hr : 0 < B.base.ratio) (grad : Bool)
    (cb : Option ℕ) (nt : ℕ) (hcf : 0 < nt → 0 < cb.getD (nt / B.base.ratio))
    (store : Fin S → ℕ → Fld d R) (gr : Fin S → ℕ → Fin nr → R) (g : Fin S → Init d R)
    (σ : ℕ → Sched S P) (hσ : B.BwdSched cb nt σ) :
    ∃ r, B.backward grad cb nt store gr g σ = .ok r ∧ ∀ s, ∃ b,
      (B.alone s).backward grad cb nt (store s) (gr s) (g s) = .ok b ∧
      r.gf s = b.gf ∧ r.out s = b.out := by
  simp only [Batch.alone_eq] at h ⊢
  obtain ⟨m, hi, e⟩ := B.backward_inv h hr grad cb nt hcf store gr g σ hσ
  refine ⟨_, e, fun s => ⟨_, (B.cfg s).backward_eq (h s) grad cb nt (store s) (gr s) (g s) hr hcf,
    ?_, ?_⟩⟩
  · funext t
    change m.gf s t = _
    rw [(hi.part s).gf t]
    have : (t < nt / B.base.ratio * B.base.ratio ∧ nt / B.base.ratio * B.base.ratio ≤
      t + nt / B.base.ratio * B.base.ratio) ↔ t < nt / B.base.ratio * B.base.ratio := by omega
    simp only [this]
    rfl
  · have hst := (hi.part s).st
    simp only [bBufsAt, Bool.false_eq_true, if_false] at hst
    have er : (B.cfg s).ratio = B.base.ratio := rfl
    simp only [er, ← hst]
    rfl

/-- Arrays of the compiled function that are written by the loop over shots. -/
inductive Arr (d : ℕ)
  | wfc | wfp | psi (k : Fin d) | psin (k : Fin d) | zeta (k : Fin d) | zetan (k : Fin d)
  | store | amplitudes | gradThread
  deriving DecidableEq

/-- Offset (in elements) of element `i` of shot `s`'s part of an array at time `t`, running on
thread `th s`: `shot_i + i`, `t / step_ratio * n_shots * n_grid_points + shot_i + i`,
`t * n_shots * n_per_shot + si + i`, `(v_batched ? shot_i : threadi) + i`
(`scalar.c` 246-295, 400-411, 521-533, 576-580, 694-700).  `len` is `n_grid_points` or the
number of sources or receivers per shot. -/
def Batch.offset (B : Batch d ns nr S R) (th : Fin S → Fin P) (len : ℕ) (s : Fin S) (t i : ℕ) :
    Arr d → ℕ
  | .store => t / B.base.ratio * S * len + s * len + i
  | .amplitudes => t * S * len + s * len + i
  | .gradThread => B.block th s * len + i
  | _ => s * len + i

omit [Field R] in
/-- **C07/C08** No data race: iterations that can run at the same time, that is of different shots
on different threads, at whatever time steps, never touch the same element of an array. -/
theorem C07_no_race (B : Batch d ns nr S R) (th : Fin S → Fin P) (len : ℕ) (s s' : Fin S)
    (hs : th s ≠ th s') (t t' i i' : ℕ) (hi : i < len) (hi' : i' < len) (a : Arr d) :
    B.offset th len s t i a ≠ B.offset th len s' t' i' a := by
  have hss : s ≠ s' := fun h => hs (by rw [h])
  have hlen : 0 < len := by omega
  have key : ∀ x y : ℕ, x * len + i = y * len + i' → x = y := by
    intro x y hxy
    have h1 : (x * len + i) / len = x := by
      rw [Nat.add_comm, Nat.add_mul_div_right _ _ hlen, Nat.div_eq_of_lt hi, Nat.zero_add]
    have h2 : (y * len + i') / len = y := by
      rw [Nat.add_comm, Nat.add_mul_div_right _ _ hlen, Nat.div_eq_of_lt hi', Nat.zero_add]
    rw [← h1, hxy, h2]
  have key2 : ∀ x y : ℕ, x * S * len + s * len + i = y * S * len + s' * len + i' → False := by
    intro x y hxy
    rw [← Nat.add_mul, ← Nat.add_mul] at hxy
    have h1 := key _ _ hxy
    have h2 : (x * S + s) % S = s := by
      rw [Nat.add_comm, Nat.add_mul_mod_self_right, Nat.mod_eq_of_lt s.2]
    have h3 : (y * S + s') % S = s' := by
      rw [Nat.add_comm, Nat.add_mul_mod_self_right, Nat.mod_eq_of_lt s'.2]
    rw [h1, h3] at h2
    exact hss (Fin.ext h2.symm)
  cases a <;> intro hEq <;> simp only [Batch.offset] at hEq
  case store => exact key2 _ _ hEq
  case amplitudes => exact key2 _ _ hEq
  case gradThread =>
    have h1 := key _ _ hEq
    simp only [Batch.block] at h1
    split_ifs at h1
    · exact hss (Fin.ext h1)
    · exact hs (Fin.ext h1)
  all_goals exact hss (Fin.ext (key _ _ hEq))

/-! ## C08 and C06 -/

/-- **C08** With a model shared by all shots, the gradient of one backward call (no backward
callback) is the sum of the gradients of the individual shots, for every number of threads,
assignment of shots to threads and order of execution. -/
theorem C08_gradient_is_sum_over_shots (B : Batch d ns nr S R) (h : ∀ s, (B.alone s).WF)
    (hr : 0 < B.base.ratio) (hb : B.batched = false) (grad : Bool) (nt : ℕ)
    (hnt : 0 < nt → B.base.ratio ≤ nt)
    (store : Fin S → ℕ → Fld d R) (gr : Fin S → ℕ → Fin nr → R) (g : Fin S → Init d R)
    (σ : ℕ → Sched S P) (hσ : B.BwdSched none nt σ) :
    ∃ r, B.backward grad none nt store gr g σ = .ok r ∧ ∃ b : Fin S → BwdResult d ns R,
      (∀ s, (B.alone s).backward grad none nt (store s) (gr s) (g s) = .ok (b s)) ∧
      ∀ c, r.gv 0 c = ∑ s, (b s).gv c := by
  simp only [Batch.alone_eq] at h ⊢
  have hcf : 0 < nt → 0 < (none : Option ℕ).getD (nt / B.base.ratio) := fun h0 =>
    Nat.div_pos (hnt h0) hr
  obtain ⟨m, hi, e⟩ := B.backward_inv h hr grad none nt hcf store gr g σ hσ
  refine ⟨_, e, _, fun s => (B.cfg s).backward_eq (h s) grad none nt (store s) (gr s) (g s) hr hcf,
    fun c => ?_⟩
  change m.gv 0 c = _
  by_cases hu : B.useTmp grad P = true
  · rw [hi.gvTmp hu]
    by_cases h0 : 0 < S ∧ 0 < nt
    · have hN := hcf h0.2
      rw [if_pos h0]
      simp only [Option.getD_none] at hN ⊢
      have e1 : (nt / B.base.ratio + nt / B.base.ratio - 1) / (nt / B.base.ratio) = 1 := by
        generalize nt / B.base.ratio = N at *
        rw [Nat.div_eq_iff hN]; omega
      rw [e1]
      simp only [List.range_one, List.map_cons, List.map_nil, List.sum_cons, List.sum_nil, add_zero]
      rw [show min (nt / B.base.ratio) ((0 + 1) * (nt / B.base.ratio)) = nt / B.base.ratio by simp]
      rfl
    · rw [if_neg h0]
      rcases Nat.eq_zero_or_pos S with hS | hS
      · subst hS; simp
      · have : nt = 0 := by
          by_contra h1
          exact h0 ⟨hS, Nat.pos_of_ne_zero h1⟩
        subst this
        simp
  · rw [hi.gv (by simpa using hu)]
    simp only [Batch.outBlock, hb, Bool.false_eq_true, if_false, if_true]
    rfl

/-- **C06**, the part that holds: with one thread, or one model per shot, the model gradient does
not depend on the backward callback schedule: block `β` of the gradient is the sum of the
gradients, computed without callback, of the shots that use block `β` of the model.
Missing: several threads and a shared model, where it is false
(`C06_fails_with_several_threads`). -/
theorem C06_backward_callback_independent_partial (B : Batch d ns nr S R) (h : ∀ s, (B.alone s).WF)
    (hr : 0 < B.base.ratio) (hP : B.batched = true ∨ P ≤ 1) (grad : Bool) (cb : Option ℕ) (nt : ℕ)
    (hnt : 0 < nt → B.base.ratio ≤ nt) (hcf : 0 < nt → 0 < cb.getD (nt / B.base.ratio))
    (store : Fin S → ℕ → Fld d R) (gr : Fin S → ℕ → Fin nr → R) (g : Fin S → Init d R)
    (σ : ℕ → Sched S P) (hσ : B.BwdSched cb nt σ) :
    ∃ r, B.backward grad cb nt store gr g σ = .ok r ∧ ∃ b : Fin S → BwdResult d ns R,
      (∀ s, (B.alone s).backward grad none nt (store s) (gr s) (g s) = .ok (b s)) ∧
      ∀ β c, r.gv β c = ∑ s : Fin S, if (if B.batched then (s : ℕ) else 0) = β then (b s).gv c else 0 := by
  simp only [Batch.alone_eq] at h ⊢
  obtain ⟨m, hi, e⟩ := B.backward_inv h hr grad cb nt hcf store gr g σ hσ
  refine ⟨_, e, _, fun s => (B.cfg s).backward_eq (h s) grad none nt (store s) (gr s) (g s) hr
    (fun h0 => Nat.div_pos (hnt h0) hr), fun β c => ?_⟩
  have hu : B.useTmp grad P = false := by
    rcases hP with hP | hP
    · simp [Batch.useTmp, hP]
    · have : ¬1 < P := by omega
      simp [Batch.useTmp, this]
  change m.gv β c = _
  rw [hi.gv hu]
  rfl

/-- What the code computes with several threads, a shared model and a backward callback: the sum,
over all callback events, of the gradient accumulated up to that event, instead of the gradient at
the last event.  (`combine_grad` adds the thread buffers to the gradient after every chunk
without clearing them.) -/
theorem C06_gradient_with_several_threads (B : Batch d ns nr S R) (h : ∀ s, (B.alone s).WF)
    (hr : 0 < B.base.ratio) (hb : B.batched = false) (hP : 1 < P) (cf : ℕ) (hcf : 0 < cf) (nt : ℕ)
    (store : Fin S → ℕ → Fld d R) (gr : Fin S → ℕ → Fin nr → R) (g : Fin S → Init d R)
    (σ : ℕ → Sched S P) (hσ : B.BwdSched (some cf) nt σ) :
    ∃ r, B.backward true (some cf) nt store gr g σ = .ok r ∧ ∃ b : Fin S → BwdResult d ns R,
      (∀ s, (B.alone s).backward true (some cf) nt (store s) (gr s) (g s) = .ok (b s)) ∧
      ∀ c, r.gv 0 c = ∑ s, ((b s).events.map fun e => e.gv c).sum := by
  simp only [Batch.alone_eq] at h ⊢
  obtain ⟨m, hi, e⟩ := B.backward_inv h hr true (some cf) nt (fun _ => hcf) store gr g σ hσ
  refine ⟨_, e, _, fun s => (B.cfg s).backward_eq (h s) true (some cf) nt (store s) (gr s) (g s) hr
    (fun _ => hcf), fun c => ?_⟩
  have hu : B.useTmp true P = true := by simp [Batch.useTmp, hb, hP]
  change m.gv 0 c = _
  rw [hi.gvTmp hu]
  have swap : ∀ (L : List ℕ) (F : Fin S → ℕ → R),
      (L.map fun n => ∑ s, F s n).sum = ∑ s, (L.map fun n => F s n).sum := by
    intro L F
    induction L with
    | nil => simp
    | cons a L ih => simp only [List.map_cons, List.sum_cons, ih, Finset.sum_add_distrib]
  by_cases h0 : 0 < S ∧ 0 < nt
  · rw [if_pos h0]
    simp only [Option.getD_some, List.map_map]
    exact swap _ fun s n => ∑ i ∈ Finset.range (min (nt / B.base.ratio) ((n + 1) * cf) * B.base.ratio),
      (B.cfg s).bGrad true (store s) (gr s) (nt / B.base.ratio * B.base.ratio)
        ((B.cfg s).bStart (g s)) i c
  · rw [if_neg h0]
    rcases Nat.eq_zero_or_pos S with hS | hS
    · subst hS; simp
    · have : nt = 0 := by
        by_contra h1
        exact h0 ⟨hS, Nat.pos_of_ne_zero h1⟩
      subst this
      have e1 : (cf - 1) / cf = 0 := Nat.div_eq_of_lt (by omega)
      simp [e1]

/-- Two shots with the velocity model of the example. -/
def exBatch : Batch 2 2 1 2 ℚ where
  base := { exCfg with ratio := 1 }
  v := fun _ => exCfg.v
  batched := false
  src := fun _ => exCfg.src
  rcv := fun _ => exCfg.rcv

theorem exBatch_wf (s : Fin 2) : (exBatch.alone s).WF := by
  rw [Batch.alone_eq]
  exact { exCfg_wf with }

theorem exBatch_wf' (s : Fin 2) : (exBatch.cfg s).WF := { exCfg_wf with }

/-- Two threads, one shot each, in lockstep, for chunks of `n` steps. -/
def exSched (n : ℕ) : ℕ → Sched 2 2 := fun step =>
  ⟨fun s => s, lockTrace ((List.range n).map fun i => step - 1 - i)⟩

theorem exSched_one : exBatch.BwdSched (some 1) 2 (exSched 1) := by
  intro chunk hc s
  have : chunk = (2, 1) ∨ chunk = (1, 1) := by
    simpa [bwdChunks, List.range_succ, exBatch] using hc
  rcases this with rfl | rfl
  · exact (lockTrace_filter _ s).trans (by simp [exBatch])
  · exact (lockTrace_filter _ s).trans (by simp [exBatch])

theorem exSched_two : exBatch.BwdSched none 2 (exSched 2) := by
  intro chunk hc s
  have : chunk = (2, 2) := by
    simpa [bwdChunks, List.range_succ, exBatch] using hc
  subst this
  exact (lockTrace_filter _ s).trans (by simp [exBatch])

/-- Two shots, two threads and two time steps of the example: a backward callback at every step
changes the gradient, whatever the executions. -/
theorem exBatch_gradients_differ (σ σ' : ℕ → Sched 2 2) (hσ : exBatch.BwdSched none 2 σ)
    (hσ' : exBatch.BwdSched (some 1) 2 σ') :
    ∃ (store : Fin 2 → ℕ → Fld 2 ℚ) (gr : Fin 2 → ℕ → Fin 1 → ℚ) (g : Fin 2 → Init 2 ℚ)
      (r r' : BatchBwdResult 2 2 2 ℚ), exBatch.backward true none 2 store gr g σ = .ok r ∧
      exBatch.backward true (some 1) 2 store gr g σ' = .ok r' ∧ r.gv 0 ≠ r'.gv 0 := by
  let store : Fin 2 → ℕ → Fld 2 ℚ := fun _ _ _ => 1
  let gr : Fin 2 → ℕ → Fin 1 → ℚ := fun _ _ _ => 0
  let g : Fin 2 → Init 2 ℚ := fun _ => ⟨some fun _ => 1, none, fun _ => none, fun _ => none⟩
  obtain ⟨m, hi, e⟩ := exBatch.backward_inv exBatch_wf' (by decide) true none 2 (by decide) store gr g
    _ hσ
  obtain ⟨m', hi', e'⟩ := exBatch.backward_inv exBatch_wf' (by decide) true (some 1) 2 (by decide)
    store gr g _ hσ'
  refine ⟨store, gr, g, _, _, e, e', ?_⟩
  intro hEq
  have h1 : m.gv 0 ![4, 5] = m'.gv 0 ![4, 5] := congrFun hEq ![4, 5]
  have hu : exBatch.useTmp true 2 = true := rfl
  have hr1 : exBatch.base.ratio = 1 := rfl
  rw [hi.gvTmp hu, hi'.gvTmp hu] at h1
  simp only [hr1, Nat.div_one, Nat.mul_one, Option.getD_none, Option.getD_some] at h1
  have e1 : (2 + 2 - 1) / 2 = 1 := rfl
  have e2 : (2 + 1 - 1) / 1 = 2 := rfl
  simp only [e1, Nat.ofNat_pos, and_self, if_true] at h1
  simp only [List.range_succ, List.range_zero, List.nil_append, List.map_cons, List.map_nil,
    List.cons_append, List.sum_cons, List.sum_nil] at h1
  have hcum : exBatch.cum true store gr 2 (fun s => (exBatch.cfg s).bStart (g s)) 1 ![4, 5] = 2 := by
    have hin : ∀ s, (exBatch.cfg s).Inner ![4, 5] := by
      intro s k
      fin_cases k <;> simp [exBatch, Batch.cfg, exCfgOf, Acc.pad, exN]
    have hin' : (exBatch.cfg 0).Inner (![4, 5] : Cell 2) := hin 0
    have hst : ∀ s, ((exBatch.cfg s).bStart (g s)).u ![4, 5] = 1 := by
      intro s
      simp only [Cfg.bStart, Cfg.createOrPad, g]
      rw [if_pos (hin s)]
    simp only [Batch.cum, Finset.sum_range_one, Cfg.bGrad, Cfg.bRun, hin, hst, store]
    have hrs : ∀ s, (exBatch.cfg s).ratio = 1 := fun _ => rfl
    simp [hrs]
  norm_num at h1
  rw [hcum] at h1
  norm_num at h1

/-- **C06** is false with several threads and a shared model: for two shots, two threads and two
time steps, a backward callback at every step changes the returned gradient. -/
theorem C06_fails_with_several_threads :
    ∃ (B : Batch 2 2 1 2 ℚ) (store : Fin 2 → ℕ → Fld 2 ℚ) (gr : Fin 2 → ℕ → Fin 1 → ℚ)
      (g : Fin 2 → Init 2 ℚ) (σ σ' : ℕ → Sched 2 2) (r r' : BatchBwdResult 2 2 2 ℚ),
      (∀ s, (B.alone s).WF) ∧ B.BwdSched none 2 σ ∧ B.BwdSched (some 1) 2 σ' ∧
      B.backward true none 2 store gr g σ = .ok r ∧
      B.backward true (some 1) 2 store gr g σ' = .ok r' ∧ r.gv 0 ≠ r'.gv 0 := by
  obtain ⟨store, gr, g, r, r', e, e', h⟩ := exBatch_gradients_differ _ _ exSched_two exSched_one
  exact ⟨exBatch, store, gr, g, _, _, r, r', exBatch_wf, exSched_two, exSched_one, e, e', h⟩

/-- C08 applies to the example with two threads. -/
example : ∃ r, exBatch.backward true none 2 (fun _ _ _ => 1) (fun _ _ _ => 3)
    (fun _ => exInit ℚ) (exSched 2) = .ok r := by
  obtain ⟨r, h, -⟩ := C08_gradient_is_sum_over_shots exBatch exBatch_wf (by decide) rfl true 2
    (by decide) (fun _ _ _ => 1) (fun _ _ _ => 3) (fun _ => exInit ℚ) _ exSched_two
  exact ⟨r, h⟩

/-- The forward chunk of the example, two threads in lockstep. -/
def exSchedF (n : ℕ) : ℕ → Sched 2 2 := fun step =>
  ⟨fun s => s, lockTrace ((List.range n).map fun i => step + i)⟩

theorem exSchedF_two : exBatch.FwdSched none 2 (exSchedF 2) := by
  intro chunk hc s
  have : chunk = (0, 2) := by
    simpa [chunks, List.range_succ, exBatch] using hc
  subst this
  exact (lockTrace_filter _ s).trans (by simp [exBatch])

/-- C07 (both directions) and the proved part of C06 apply to the example. -/
example : (∃ r, exBatch.forward true none 2 (fun _ => exAmp ℚ) (fun _ => exInit ℚ) (exSchedF 2) =
      .ok r) ∧
    (∃ r, exBatch.backward true (some 1) 2 (fun _ _ _ => 1) (fun _ _ _ => 3)
      (fun _ => exInit ℚ) (exSched 1) = .ok r) ∧
    ∃ r, ({exBatch with batched := true} : Batch 2 2 1 2 ℚ).backward true (some 1) 2
      (fun _ _ _ => 1) (fun _ _ _ => 3) (fun _ => exInit ℚ) (exSched 1) = .ok r := by
  refine ⟨?_, ?_, ?_⟩
  · obtain ⟨r, h, -⟩ := C07_shots_independent_forward exBatch (by decide) true none 2 (by decide)
      (fun _ => exAmp ℚ) (fun _ => exInit ℚ) _ exSchedF_two
    exact ⟨r, h⟩
  · obtain ⟨r, h, -⟩ := C07_shots_independent_backward exBatch exBatch_wf (by decide) true (some 1) 2
      (by decide) (fun _ _ _ => 1) (fun _ _ _ => 3) (fun _ => exInit ℚ) _ exSched_one
    exact ⟨r, h⟩
  · obtain ⟨r, h, -⟩ := C06_backward_callback_independent_partial
      ({exBatch with batched := true} : Batch 2 2 1 2 ℚ) exBatch_wf (by decide) (.inl rfl) true
      (some 1) 2 (by decide) (by decide) (fun _ _ _ => 1) (fun _ _ _ => 3) (fun _ => exInit ℚ) _
      exSched_one
    exact ⟨r, h⟩

end Dw.Scalar
