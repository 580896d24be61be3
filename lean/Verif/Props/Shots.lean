import Verif.Acoustic.Shots
import Verif.Elastic.Shots
import Verif.Born.Shots
import Verif.Born.Backward
import Verif.Born.Forward
import Verif.Props.Acoustic
import Verif.Props.Elastic
import Verif.Props.Born

/-!
# Several shots and threads: acoustic, elastic and Born propagators

`B.forward …  σ`, `B.backward … σ` are the drivers for `S` shots (`Verif/*/Shots.lean`); `σ` gives for
each backend call the thread of every shot and the order in which the iterations of all shots happen,
`Batch.FwdExecs`, `Batch.BwdExecs` say that every shot makes its iterations in order.  `B.alone s` is
shot `s` on its own.
-/

namespace Dw

/-- Two shots in lockstep, on two threads. -/
def lockExec (n : ℕ) : Batch.Exec 2 2 :=
  ⟨fun s => s, (List.range n).flatMap fun i => [(1, i), (0, i)]⟩

theorem lockExec_valid (n : ℕ) : (lockExec n).Valid n := by
  intro s
  simp only [lockExec]
  induction n with
  | zero => rfl
  | succ n ih =>
      have hs : s = 0 ∨ s = 1 := by omega
      rw [List.range_succ, List.flatMap_append, List.filter_append, List.map_append, ih]
      rcases hs with rfl | rfl <;> simp

/-- Two calls of two steps (outer steps of one internal step). -/
theorem lockExec_fwd : Batch.FwdExecs 1 4 2 fun _ => lockExec 2 := by
  intro chunk hc
  have : chunk = (0, 2) ∨ chunk = (2, 2) := by
    simpa [Scalar.chunks, List.range_succ] using hc
  rcases this with rfl | rfl <;> exact lockExec_valid 2

theorem lockExec_bwd : Batch.BwdExecs 1 4 2 fun _ => lockExec 2 := by
  intro chunk hc
  have : chunk = (4, 2) ∨ chunk = (2, 2) := by
    simpa [Scalar.bwdChunks, List.range_succ] using hc
  rcases this with rfl | rfl <;> exact lockExec_valid 2

theorem lockExec_bwd_one : Batch.BwdExecs 1 4 4 fun _ => lockExec 4 := by
  intro chunk hc
  have : chunk = (4, 4) := by
    simpa [Scalar.bwdChunks, List.range_succ] using hc
  subst this; exact lockExec_valid 4

/-- **C70** No data race: iterations that can run at the same time, that is of different shots on
different threads, at whatever time steps, never access the same element of an array: neither of one
with a block per shot (wavefields), nor of one with a block per time step and shot (amplitudes,
snapshots), nor of one with a block per shot or thread (model gradients). -/
theorem C70_no_race {S P : ℕ} (th : Fin S → Fin P) (len : ℕ) (s s' : Fin S) (hs : th s ≠ th s')
    (t t' i i' : ℕ) (hi : i < len) (hi' : i' < len) (batched : Bool) :
    (s * len + i ≠ s' * len + i') ∧
      (t * S * len + s * len + i ≠ t' * S * len + s' * len + i') ∧
      ((if batched then (s : ℕ) else th s) * len + i ≠
        (if batched then (s' : ℕ) else th s') * len + i') :=
  ⟨Batch.offset_ne th len s s' hs t t' i i' hi hi' .shot,
    Batch.offset_ne th len s s' hs t t' i i' hi hi' .timeShot,
    Batch.offset_ne th len s s' hs t t' i i' hi hi' (.thread batched)⟩

example : (⟨fun s => s, []⟩ : Batch.Exec 2 2).thread 0 ≠ (⟨fun s => s, []⟩ : Batch.Exec 2 2).thread 1 := by
  decide

end Dw

/-! ## Acoustic -/

namespace Dw.Acoustic

variable {d np mp S P : ℕ} {nv mv : Fin d → ℕ} {R : Type*} [Field R]

/-- Shot `s` propagated on its own: its sources and receivers, and its models if there is one per
shot, otherwise the only model. -/
def Batch.alone (B : Batch d np mp nv mv S R) (s : Fin S) : Cfg d np mp nv mv R :=
  { B.base with
    K := if B.kBatched then B.K s else B.K 0
    B := if B.bBatched then B.B s else B.B 0
    srcP := B.srcP s, srcV := B.srcV s, rcvP := B.rcvP s, rcvV := B.rcvV s }

omit [Field R] in
theorem Batch.alone_eq (B : Batch d np mp nv mv S R) (s : Fin S) : B.alone s = B.cfg s := by
  simp only [Batch.alone, Batch.cfg]
  congr 1 <;> split_ifs <;> rfl

/-- **C70** acoustic forward: each shot's receiver data, final wavefields, snapshots and callback
events are those of propagating that shot alone, for every execution of the parallel loops. -/
theorem C70_acoustic_forward (B : Batch d np mp nv mv S R) (hr : 0 < B.base.ratio) (gk gb : Bool)
    (cb : Option ℕ) (nt : ℕ) (hcf : 0 < nt → 0 < cb.getD (nt / B.base.ratio))
    (fp : Fin S → ℕ → Fin np → R) (fv : Fin S → (k : Fin d) → ℕ → Fin (nv k) → R)
    (w : Fin S → Init d R) (σ : ℕ → Batch.Exec S P)
    (hσ : Batch.FwdExecs B.base.ratio (nt / B.base.ratio) (cb.getD (nt / B.base.ratio)) σ) :
    ∃ r, B.forward gk gb cb nt fp fv w σ = .ok r ∧
      ∀ s, (B.alone s).forward gk gb cb nt (fp s) (fv s) (w s) =
        .ok ⟨r.out s, r.rcdP s, r.rcdV s, r.storeK s, r.storeB s, r.events.map fun e => e s⟩ := by
  simp only [Batch.alone_eq]
  have hc : ¬((0 < S ∧ 0 < nt) ∧ cb.getD (nt / B.base.ratio) = 0) := by
    rintro ⟨⟨-, h1⟩, h2⟩
    have := hcf h1
    omega
  refine ⟨_, by rw [Batch.forward, if_neg (by omega)]; simp only; rw [if_neg hc], fun s => ?_⟩
  have er : (B.cfg s).ratio = B.base.ratio := rfl
  have hc' : ¬(0 < nt ∧ cb.getD (nt / B.base.ratio) = 0) := by
    rintro ⟨h1, h2⟩
    have := hcf h1
    omega
  have key := Batch.fwdPass_apply (swap := id) (view := fun step (m : FMem d mp mv R) =>
    (⟨step, m.wf⟩ : Event d R)) (fun s => fStep (B.cfg s).fwdArgs gk gb (fp s) (fv s)) σ nt _ hσ
    (fun s => B.base.fInit (w s)) s
  have ei : (B.cfg s).fInit (w s) = B.base.fInit (w s) := rfl
  have eu : ∀ x, (B.cfg s).unpadAll x = B.base.unpadAll x := fun _ => rfl
  rw [Cfg.forward, er, if_neg (by omega)]
  simp only
  rw [if_neg hc', ei, key]
  simp only [eu]
  cases cb <;> rfl

/-- **C70** acoustic backward: each shot's source gradients, initial wavefield gradients and backward
callback wavefields are those of that shot alone, and each block of the model gradients is the sum
over the shots that use it, for every number of threads and every execution of the parallel loops.
With several threads, a shared model and a backward callback, the gradients accumulated up to each
callback are summed (the defect of C06). -/
theorem C70_acoustic_backward (B : Batch d np mp nv mv S R) (hS : 0 < S) (hr : 0 < B.base.ratio)
    (gk gb : Bool) (cb : Option ℕ) (nt : ℕ) (hcf : 0 < nt → 0 < cb.getD (nt / B.base.ratio))
    (storeK : Fin S → ℕ → Fld d R) (storeB : Fin S → ℕ → Fin d → Fld d R)
    (grP : Fin S → ℕ → Fin mp → R) (grV : Fin S → (k : Fin d) → ℕ → Fin (mv k) → R)
    (g : Fin S → Init d R) (σ : ℕ → Batch.Exec S P)
    (hσ : Batch.BwdExecs B.base.ratio (nt / B.base.ratio) (cb.getD (nt / B.base.ratio)) σ) :
    ∃ r, ∃ b : Fin S → BResult d np nv R, B.backward gk gb cb nt storeK storeB grP grV g σ = .ok r ∧
      (∀ s, (B.alone s).backward gk gb cb nt (storeK s) (storeB s) (grP s) (grV s) (g s) =
        .ok (b s)) ∧
      (∀ s, r.gfP s = (b s).gfP ∧ r.gfV s = (b s).gfV ∧ r.out s = (b s).out ∧
        (r.events.map fun e => (e.step, e.wf s)) = (b s).events.map fun e => (e.step, e.wf)) ∧
      (∀ β c, r.gK β c = ∑ s : Fin S, if (if B.kBatched then (s : ℕ) else 0) = β then
        (if (gk = true ∧ B.kBatched = false ∧ 1 < P) ∧ cb.isSome = true
          then ((b s).events.map fun e => e.gK c).sum else (b s).gK c) else 0) ∧
      ∀ k β c, r.gB k β c = ∑ s : Fin S, if (if B.bBatched then (s : ℕ) else 0) = β then
        (if (gb = true ∧ B.bBatched = false ∧ 1 < P) ∧ cb.isSome = true
          then ((b s).events.map fun e => e.gB k c).sum else (b s).gB k c) else 0 := by
  simp only [Batch.alone_eq]
  have hc : ¬((0 < S ∧ 0 < nt) ∧ cb.getD (nt / B.base.ratio) = 0) := by
    rintro ⟨⟨-, h1⟩, h2⟩
    have := hcf h1
    omega
  have hc' : ¬(0 < nt ∧ cb.getD (nt / B.base.ratio) = 0) := by
    rintro ⟨h1, h2⟩
    have := hcf h1
    omega
  have hx : ∀ s, (slots d np nv R).get (B.base.bInit (g s)) = 0 := by
    intro s; funext a; cases a <;> rfl
  obtain ⟨mem, hI, e⟩ := Batch.bwdPass_inv (L := slots d np nv R) (F := B.flags gk gb)
    (swap := BMem.swap) (ratio := B.base.ratio)
    (step := fun s => bStepC (B.cfg s).bwdArgs gk gb (storeK s) (storeB s) (grP s) (grV s)) hS
    keeps_swap BMem.swap_swap
    (fun s t => adds_bStep B (B.cfg s).bwdArgs gk gb (storeK s) (storeB s) (grP s) (grV s) t) hx
    (fun step m => (⟨step, fun s => (m.shots s).wf, m.grad none, fun k => m.grad (some k)⟩ :
      BatchBEvent d S R)) σ nt _ hcf hσ
  have es := fun s => Batch.single_eq (ratio := B.base.ratio)
    (view := fun step (m : BMem d np nv R) => (⟨step, m.wf, m.gK, m.gB⟩ : BEvent d R))
    (f := bStepC (B.cfg s).bwdArgs gk gb (storeK s) (storeB s) (grP s) (grV s)) BMem.swap_swap
    nt _ hcf (B.base.bInit (g s))
  have hfin := hI _ le_rfl
  refine ⟨_, _, by rw [Batch.backward, if_neg (by omega)]; simp only; rw [if_neg hc, e],
    fun s => by
      have er : (B.cfg s).ratio = B.base.ratio := rfl
      have ei : (B.cfg s).bInit (g s) = B.base.bInit (g s) := rfl
      rw [Cfg.backward, er, if_neg (by omega)]; simp only; rw [if_neg hc', ei, es], ?_, ?_, ?_⟩
  · intro s
    have h1 := hfin.shots s
    rw [Batch.stepsAfter_calls nt _ hcf] at h1
    refine ⟨(congrArg BMem.gfP h1 :), (congrArg BMem.gfV h1 :),
      (congrArg (fun m => B.base.unpadAll (BMem.wf m)) h1 :), ?_⟩
    cases cb with
    | none => rfl
    | some k =>
        simp only [Option.isSome_some, if_true, List.map_map]
        refine List.map_congr_left fun i hi => ?_
        have h2 := (hI (i + 1) (by have := List.mem_range.1 hi; omega)).shots s
        exact Prod.ext rfl (congrArg BMem.wf h2 :)
  · intro β c
    refine (hfin.grad_final hx rfl hcf none β c).trans (Finset.sum_congr rfl fun s _ => ?_)
    simp only [Batch.Flags.outBlock, Batch.Flags.useTmp, Batch.flags, Option.isSome_none,
      Bool.false_eq_true, if_false, Bool.and_eq_true, Bool.not_eq_true', decide_eq_true_eq, and_assoc]
    cases cb with
    | none => simp only [Option.isSome_none, Bool.false_eq_true, and_false, if_false]; rfl
    | some k => simp only [Option.isSome_some, if_true, List.map_map]; rfl
  · intro k β c
    refine (hfin.grad_final hx rfl hcf (some k) β c).trans (Finset.sum_congr rfl fun s _ => ?_)
    simp only [Batch.Flags.outBlock, Batch.Flags.useTmp, Batch.flags, Option.isSome_some, if_true,
      Bool.and_eq_true, Bool.not_eq_true', decide_eq_true_eq, and_assoc]
    cases cb with
    | none => simp only [Option.isSome_none, Bool.false_eq_true, and_false, if_false]; rfl
    | some k => simp only [Option.isSome_some, if_true, List.map_map]; rfl

/-- Two shots with their own bulk modulus and a common buoyancy. -/
def exAB : Batch 2 2 1 (fun _ => 1) (fun _ => 1) 2 ℚ where
  base := { exA ℚ with ratio := 1 }
  K := fun s c => (exA ℚ).K c + s
  B := fun _ => (exA ℚ).B
  kBatched := true
  bBatched := false
  srcP := fun _ => (exA ℚ).srcP
  srcV := fun _ => (exA ℚ).srcV
  rcvP := fun _ => (exA ℚ).rcvP
  rcvV := fun _ => (exA ℚ).rcvV

/-- C70 applies to the example: two threads in lockstep, two calls of two steps. -/
example : (∃ r, exAB.forward true true (some 2) 4 (fun _ _ _ => 1) (fun _ _ _ _ => 2)
      (fun _ => ⟨none, fun _ => none, fun _ => none, fun _ => none⟩) (fun _ => lockExec 2) = .ok r) ∧
    (∃ r, exAB.backward true true (some 2) 4 (fun _ _ _ => 1) (fun _ _ _ _ => 2) (fun _ _ _ => 3)
      (fun _ _ _ _ => 4) (fun _ => ⟨none, fun _ => none, fun _ => none, fun _ => none⟩)
      (fun _ => lockExec 2) = .ok r) := by
  refine ⟨?_, ?_⟩
  · obtain ⟨r, h, -⟩ := C70_acoustic_forward exAB (by decide) true true (some 2) 4 (by decide)
      (fun _ _ _ => 1) (fun _ _ _ _ => 2)
      (fun _ => ⟨none, fun _ => none, fun _ => none, fun _ => none⟩) (fun _ => lockExec 2) lockExec_fwd
    exact ⟨r, h⟩
  · obtain ⟨r, b, h, -⟩ := C70_acoustic_backward exAB (by decide) (by decide) true true (some 2) 4
      (by decide) (fun _ _ _ => 1) (fun _ _ _ _ => 2) (fun _ _ _ => 3) (fun _ _ _ _ => 4)
      (fun _ => ⟨none, fun _ => none, fun _ => none, fun _ => none⟩) (fun _ => lockExec 2) lockExec_bwd
    exact ⟨r, h⟩

end Dw.Acoustic

/-! ## Elastic -/

namespace Dw.Elastic

variable {d np mp S P : ℕ} {nv mv : Fin d → ℕ} {R : Type*} [Field R]

/-- Shot `s` propagated on its own: its sources and receivers, and its models if there is one per
shot, otherwise the only model. -/
def Batch.alone (B : Batch d np mp nv mv S R) (s : Fin S) : Cfg d np mp nv mv R :=
  { B.base with
    lam := if B.lBatched then B.lam s else B.lam 0
    mu := if B.mBatched then B.mu s else B.mu 0
    muS := if B.mBatched then B.muS s else B.muS 0
    B := if B.bBatched then B.B s else B.B 0
    srcP := B.srcP s, srcV := B.srcV s, rcvP := B.rcvP s, rcvV := B.rcvV s }

omit [Field R] in
theorem Batch.alone_eq (B : Batch d np mp nv mv S R) (s : Fin S) : B.alone s = B.cfg s := by
  simp only [Batch.alone, Batch.cfg]
  congr 1 <;> split_ifs <;> rfl

/-- **C70** elastic forward: each shot's receiver data, final wavefields, snapshots and callback
events are those of propagating that shot alone, for every execution of the parallel loops. -/
theorem C70_elastic_forward (B : Batch d np mp nv mv S R) (hr : 0 < B.base.ratio) (gl gm gb : Bool)
    (cb : Option ℕ) (nt : ℕ) (hcf : 0 < nt → 0 < cb.getD (nt / B.base.ratio))
    (fp : Fin S → ℕ → Fin np → R) (fv : Fin S → (k : Fin d) → ℕ → Fin (nv k) → R)
    (w : Fin S → Init d R) (σ : ℕ → Batch.Exec S P)
    (hσ : Batch.FwdExecs B.base.ratio (nt / B.base.ratio) (cb.getD (nt / B.base.ratio)) σ) :
    ∃ r, B.forward gl gm gb cb nt fp fv w σ = .ok r ∧
      ∀ s, (B.alone s).forward gl gm gb cb nt (fp s) (fv s) (w s) =
        .ok ⟨r.out s, r.rcdP s, r.rcdV s, r.storeB s, r.storeN s, r.storeS s, r.events.map fun e => e s⟩ := by
  simp only [Batch.alone_eq]
  have hc : ¬((0 < S ∧ 0 < nt) ∧ cb.getD (nt / B.base.ratio) = 0) := by
    rintro ⟨⟨-, h1⟩, h2⟩
    have := hcf h1
    omega
  refine ⟨_, by rw [Batch.forward, if_neg (by omega)]; simp only; rw [if_neg hc], fun s => ?_⟩
  have er : (B.cfg s).ratio = B.base.ratio := rfl
  have hc' : ¬(0 < nt ∧ cb.getD (nt / B.base.ratio) = 0) := by
    rintro ⟨h1, h2⟩
    have := hcf h1
    omega
  have key := Batch.fwdPass_apply (swap := id) (view := fun step (m : FMem d mp mv R) =>
    (⟨step, m.wf⟩ : Event d R)) (fun s => fStep (B.cfg s).fwdArgs gl gm gb (fp s) (fv s)) σ nt _ hσ
    (fun s => B.base.fInit (w s)) s
  have ei : (B.cfg s).fInit (w s) = B.base.fInit (w s) := rfl
  have eu : ∀ x, (B.cfg s).unpadAll x = B.base.unpadAll x := fun _ => rfl
  rw [Cfg.forward, er, if_neg (by omega)]
  simp only
  rw [if_neg hc', ei, key]
  simp only [eu]
  cases cb <;> rfl

/-- **C70** elastic backward: each shot's source gradients, initial wavefield gradients and backward
callback wavefields are those of that shot alone, and each block of the model gradients is the sum
over the shots that use it, for every number of threads and every execution of the parallel loops.
With several threads, a shared model and a backward callback, the gradients accumulated up to each
callback are summed (the defect of C06). -/
theorem C70_elastic_backward (B : Batch d np mp nv mv S R) (h : ∀ s, (B.alone s).WF) (hS : 0 < S) (hr : 0 < B.base.ratio)
    (gl gm gb : Bool) (cb : Option ℕ) (nt : ℕ) (hcf : 0 < nt → 0 < cb.getD (nt / B.base.ratio))
    (storeB storeN : Fin S → ℕ → Fin d → Fld d R) (storeS : Fin S → ℕ → Sh d → Fld d R)
    (grP : Fin S → ℕ → Fin mp → R) (grV : Fin S → (k : Fin d) → ℕ → Fin (mv k) → R)
    (g : Fin S → Init d R) (σ : ℕ → Batch.Exec S P)
    (hσ : Batch.BwdExecs B.base.ratio (nt / B.base.ratio) (cb.getD (nt / B.base.ratio)) σ) :
    ∃ r, ∃ b : Fin S → BResult d np nv R, B.backward gl gm gb cb nt storeB storeN storeS grP grV g σ = .ok r ∧
      (∀ s, (B.alone s).backward gl gm gb cb nt (storeB s) (storeN s) (storeS s) (grP s) (grV s) (g s) =
        .ok (b s)) ∧
      (∀ s, r.gfP s = (b s).gfP ∧ r.gfV s = (b s).gfV ∧ r.out s = (b s).out ∧
        (r.events.map fun e => (e.step, e.wf s)) = (b s).events.map fun e => (e.step, e.wf)) ∧
      (∀ β c, r.gr .l β c = ∑ s : Fin S, if (if B.lBatched then (s : ℕ) else 0) = β then
        (if (gl = true ∧ B.lBatched = false ∧ 1 < P) ∧ cb.isSome = true
          then ((b s).events.map fun e => e.gr.l c).sum else (b s).gr.l c) else 0) ∧
      (∀ β c, r.gr .m β c = ∑ s : Fin S, if (if B.mBatched then (s : ℕ) else 0) = β then
        (if (gm = true ∧ B.mBatched = false ∧ 1 < P) ∧ cb.isSome = true
          then ((b s).events.map fun e => e.gr.m c).sum else (b s).gr.m c) else 0) ∧
      (∀ p β c, r.gr (.s p) β c = ∑ s : Fin S, if (if B.mBatched then (s : ℕ) else 0) = β then
        (if (gm = true ∧ B.mBatched = false ∧ 1 < P) ∧ cb.isSome = true
          then ((b s).events.map fun e => e.gr.s p c).sum else (b s).gr.s p c) else 0) ∧
      ∀ i β c, r.gr (.b i) β c = ∑ s : Fin S, if (if B.bBatched then (s : ℕ) else 0) = β then
        (if (gb = true ∧ B.bBatched = false ∧ 1 < P) ∧ cb.isSome = true
          then ((b s).events.map fun e => e.gr.b i c).sum else (b s).gr.b i c) else 0 := by
  simp only [Batch.alone_eq] at h ⊢
  have hc : ¬((0 < S ∧ 0 < nt) ∧ cb.getD (nt / B.base.ratio) = 0) := by
    rintro ⟨⟨-, h1⟩, h2⟩
    have := hcf h1
    omega
  have hc' : ¬(0 < nt ∧ cb.getD (nt / B.base.ratio) = 0) := by
    rintro ⟨h1, h2⟩
    have := hcf h1
    omega
  have hx : ∀ s, (slots d np nv R).get (B.base.bInit (g s)) = 0 := by
    intro s; funext a; cases a <;> rfl
  obtain ⟨mem, hI, e⟩ := Batch.bwdPass_inv (L := slots d np nv R) (F := B.flags gl gm gb)
    (swap := BMem.swap) (ratio := B.base.ratio)
    (step := fun s => bStepC (B.cfg s).bwdArgs gl gm gb (storeB s) (storeN s) (storeS s) (grP s) (grV s)) hS
    keeps_swap BMem.swap_swap
    (fun s t => adds_bStep B s (h s) gl gm gb (storeB s) (storeN s) (storeS s) (grP s) (grV s) t) hx
    (fun step m => (⟨step, fun s => (m.shots s).wf, m.grad⟩ :
      BatchBEvent d S R)) σ nt _ hcf hσ
  have es := fun s => Batch.single_eq (ratio := B.base.ratio)
    (view := fun step (m : BMem d np nv R) => (⟨step, m.wf, m.gr⟩ : BEvent d R))
    (f := bStepC (B.cfg s).bwdArgs gl gm gb (storeB s) (storeN s) (storeS s) (grP s) (grV s)) BMem.swap_swap
    nt _ hcf (B.base.bInit (g s))
  have hfin := hI _ le_rfl
  refine ⟨_, _, by rw [Batch.backward, if_neg (by omega)]; simp only; rw [if_neg hc, e],
    fun s => by
      have er : (B.cfg s).ratio = B.base.ratio := rfl
      have ei : (B.cfg s).bInit (g s) = B.base.bInit (g s) := rfl
      rw [Cfg.backward, er, if_neg (by omega)]; simp only; rw [if_neg hc', ei, es], ?_, ?_, ?_, ?_, ?_⟩
  · intro s
    have h1 := hfin.shots s
    rw [Batch.stepsAfter_calls nt _ hcf] at h1
    refine ⟨(congrArg BMem.gfP h1 :), (congrArg BMem.gfV h1 :),
      (congrArg (fun m => B.base.unpadAll (BMem.wf m)) h1 :), ?_⟩
    cases cb with
    | none => rfl
    | some k =>
        simp only [Option.isSome_some, if_true, List.map_map]
        refine List.map_congr_left fun i hi => ?_
        have h2 := (hI (i + 1) (by have := List.mem_range.1 hi; omega)).shots s
        exact Prod.ext rfl (congrArg BMem.wf h2 :)
  · intro β c
    refine (hfin.grad_final hx rfl hcf .l β c).trans (Finset.sum_congr rfl fun s _ => ?_)
    simp only [Batch.Flags.outBlock, Batch.Flags.useTmp, Batch.flags,
      Bool.and_eq_true, Bool.not_eq_true', decide_eq_true_eq, and_assoc]
    cases cb with
    | none => simp only [Option.isSome_none, Bool.false_eq_true, and_false, if_false]; rfl
    | some k => simp only [Option.isSome_some, if_true, List.map_map]; rfl
  · intro β c
    refine (hfin.grad_final hx rfl hcf .m β c).trans (Finset.sum_congr rfl fun s _ => ?_)
    simp only [Batch.Flags.outBlock, Batch.Flags.useTmp, Batch.flags,
      Bool.and_eq_true, Bool.not_eq_true', decide_eq_true_eq, and_assoc]
    cases cb with
    | none => simp only [Option.isSome_none, Bool.false_eq_true, and_false, if_false]; rfl
    | some k => simp only [Option.isSome_some, if_true, List.map_map]; rfl
  · intro p β c
    refine (hfin.grad_final hx rfl hcf (.s p) β c).trans (Finset.sum_congr rfl fun s _ => ?_)
    simp only [Batch.Flags.outBlock, Batch.Flags.useTmp, Batch.flags,
      Bool.and_eq_true, Bool.not_eq_true', decide_eq_true_eq, and_assoc]
    cases cb with
    | none => simp only [Option.isSome_none, Bool.false_eq_true, and_false, if_false]; rfl
    | some k => simp only [Option.isSome_some, if_true, List.map_map]; rfl
  · intro i β c
    refine (hfin.grad_final hx rfl hcf (.b i) β c).trans (Finset.sum_congr rfl fun s _ => ?_)
    simp only [Batch.Flags.outBlock, Batch.Flags.useTmp, Batch.flags,
      Bool.and_eq_true, Bool.not_eq_true', decide_eq_true_eq, and_assoc]
    cases cb with
    | none => simp only [Option.isSome_none, Bool.false_eq_true, and_false, if_false]; rfl
    | some k => simp only [Option.isSome_some, if_true, List.map_map]; rfl

/-- Two shots with their own shear modulus and common other models. -/
def exEB : Batch 2 2 1 (fun _ => 1) (fun _ => 1) 2 ℚ where
  base := { exE ℚ with ratio := 1 }
  lam := fun _ => (exE ℚ).lam
  mu := fun s c => (exE ℚ).mu c + s
  muS := fun s p c => (exE ℚ).muS p c + s
  B := fun _ => (exE ℚ).B
  lBatched := false
  mBatched := true
  bBatched := false
  srcP := fun _ => (exE ℚ).srcP
  srcV := fun _ => (exE ℚ).srcV
  rcvP := fun _ => (exE ℚ).rcvP
  rcvV := fun _ => (exE ℚ).rcvV

theorem exEB_wf (s : Fin 2) : (exEB.alone s).WF := by
  rw [Batch.alone_eq]
  exact { exE_wf ℚ with }

def exEBInit : Init 2 ℚ :=
  ⟨fun _ => none, fun _ => none, fun _ => none, fun _ _ => none, fun _ _ => none⟩

/-- C70 applies to the example: two threads in lockstep, two calls of two steps. -/
example : (∃ r, exEB.forward true true true (some 2) 4 (fun _ _ _ => 1) (fun _ _ _ _ => 2)
      (fun _ => exEBInit) (fun _ => lockExec 2) = .ok r) ∧
    (∃ r, exEB.backward true true true (some 2) 4 (fun _ _ _ _ => 1) (fun _ _ _ _ => 2)
      (fun _ _ _ _ => 5) (fun _ _ _ => 3) (fun _ _ _ _ => 4) (fun _ => exEBInit)
      (fun _ => lockExec 2) = .ok r) := by
  refine ⟨?_, ?_⟩
  · obtain ⟨r, h, -⟩ := C70_elastic_forward exEB (by decide) true true true (some 2) 4 (by decide)
      (fun _ _ _ => 1) (fun _ _ _ _ => 2) (fun _ => exEBInit) (fun _ => lockExec 2) lockExec_fwd
    exact ⟨r, h⟩
  · obtain ⟨r, b, h, -⟩ := C70_elastic_backward exEB exEB_wf (by decide) (by decide) true true true
      (some 2) 4 (by decide) (fun _ _ _ _ => 1) (fun _ _ _ _ => 2) (fun _ _ _ _ => 5)
      (fun _ _ _ => 3) (fun _ _ _ _ => 4) (fun _ => exEBInit) (fun _ => lockExec 2) lockExec_bwd
    exact ⟨r, h⟩

end Dw.Elastic

/-! ## Born -/

namespace Dw.Born

open Dw.Scalar (Init Wavefields exCfgOf)

variable {d ns nr nq S P : ℕ} {R : Type*} [Field R]

/-- Shot `s` propagated on its own: its sources and receivers, and its models if there is one per
shot, otherwise the only model. -/
def Batch.alone (B : Batch d ns nr nq S R) (s : Fin S) : BCfg d ns nr nq R :=
  { base := { B.base.base with
      v := if B.vBatched then B.v s else B.v 0, src := B.src s, rcv := B.rcv s }
    scatter := if B.scBatched then B.scatter s else B.scatter 0
    rcvsc := B.rcvsc s }

omit [Field R] in
theorem Batch.alone_eq (B : Batch d ns nr nq S R) (s : Fin S) : B.alone s = B.cfg s := by
  simp only [Batch.alone, Batch.cfg]
  congr 1
  · congr 1; split_ifs <;> rfl
  · split_ifs <;> rfl

/-- **C70** Born forward: each shot's receiver data, final wavefields, snapshots and callback
events are those of propagating that shot alone, for every execution of the parallel loops. -/
theorem C70_born_forward (B : Batch d ns nr nq S R) (hr : 0 < B.base.base.ratio) (gv gs : Bool)
    (cb : Option ℕ) (nt : ℕ) (hcf : 0 < nt → 0 < cb.getD (nt / B.base.base.ratio))
    (f fsc : Fin S → ℕ → Fin ns → R) (w wsc : Fin S → Init d R) (σ : ℕ → Batch.Exec S P)
    (hσ : Batch.FwdExecs B.base.base.ratio (nt / B.base.base.ratio)
      (cb.getD (nt / B.base.base.ratio)) σ) :
    ∃ r, B.forward gv gs cb nt f fsc w wsc σ = .ok r ∧
      ∀ s, (B.alone s).forward gv gs cb nt (f s) (fsc s) (w s) (wsc s) =
        .ok ⟨r.out s, r.outsc s, r.rcd s, r.rcdsc s, r.w s, r.wsc s, r.events.map fun e => e s⟩ := by
  simp only [Batch.alone_eq]
  have hc : ¬((0 < S ∧ 0 < nt) ∧ cb.getD (nt / B.base.base.ratio) = 0) := by
    rintro ⟨⟨-, h1⟩, h2⟩
    have := hcf h1
    omega
  refine ⟨_, by rw [Batch.forward, if_neg (by omega)]; simp only; rw [if_neg hc], fun s => ?_⟩
  have er : (B.cfg s).base.ratio = B.base.base.ratio := rfl
  have hc' : ¬(0 < nt ∧ cb.getD (nt / B.base.base.ratio) = 0) := by
    rintro ⟨h1, h2⟩
    have := hcf h1
    omega
  have key := Batch.fwdPass_apply (swap := FMem.swap) (view := fView)
    (fun s => fStep (B.cfg s).base.fwdArgs (B.cfg s).scatter (B.cfg s).rcvsc gv gs (f s) (fsc s))
    σ nt _ hσ (fun s => B.base.fInit (w s) (wsc s)) s
  have ei : (B.cfg s).fInit (w s) (wsc s) = B.base.fInit (w s) (wsc s) := rfl
  have eu : ∀ x, unpadBufs (B.cfg s).base x = unpadBufs B.base.base x := fun _ => rfl
  rw [BCfg.forward, er, if_neg (by omega)]
  simp only
  rw [if_neg hc', ei, key]
  simp only [eu]
  cases cb <;> rfl

/-- **C70** Born backward: each shot's source gradients, initial wavefield gradients and backward
callback wavefields are those of that shot alone, and each block of the gradients of the velocity and
of the scattering potential is the sum over the shots that use it, for every number of threads and
every execution of the parallel loops.  With several threads, a shared model and a backward callback,
the gradients accumulated up to each callback are summed (the defect of C06). -/
theorem C70_born_backward (B : Batch d ns nr nq S R) (hS : 0 < S) (hr : 0 < B.base.base.ratio)
    (gv gs : Bool) (cb : Option ℕ) (nt : ℕ) (hcf : 0 < nt → 0 < cb.getD (nt / B.base.base.ratio))
    (w wsc : Fin S → ℕ → Fld d R) (gr : Fin S → ℕ → Fin nr → R) (grsc : Fin S → ℕ → Fin nq → R)
    (g gsc : Fin S → Init d R) (σ : ℕ → Batch.Exec S P)
    (hσ : Batch.BwdExecs B.base.base.ratio (nt / B.base.base.ratio)
      (cb.getD (nt / B.base.base.ratio)) σ) :
    ∃ r, ∃ b : Fin S → BResult d ns R, B.backward gv gs cb nt w wsc gr grsc g gsc σ = .ok r ∧
      (∀ s, (B.alone s).backward gv gs cb nt (w s) (wsc s) (gr s) (grsc s) (g s) (gsc s) =
        .ok (b s)) ∧
      (∀ s, r.gf s = (b s).gf ∧ r.gfsc s = (b s).gfsc ∧ r.out s = (b s).out ∧
        r.outsc s = (b s).outsc ∧ (r.events.map fun e => (e.step, e.bg s, e.sc s)) =
          (b s).events.map fun e => (e.step, e.bg, e.sc)) ∧
      (∀ β c, r.gv β c = ∑ s : Fin S, if (if B.vBatched then (s : ℕ) else 0) = β then
        (if (gv = true ∧ B.vBatched = false ∧ 1 < P) ∧ cb.isSome = true
          then ((b s).events.map fun e => e.gv c).sum else (b s).gv c) else 0) ∧
      ∀ β c, r.gs β c = ∑ s : Fin S, if (if B.scBatched then (s : ℕ) else 0) = β then
        (if (gs = true ∧ B.scBatched = false ∧ 1 < P) ∧ cb.isSome = true
          then ((b s).events.map fun e => e.gs c).sum else (b s).gs c) else 0 := by
  simp only [Batch.alone_eq]
  have hc : ¬((0 < S ∧ 0 < nt) ∧ cb.getD (nt / B.base.base.ratio) = 0) := by
    rintro ⟨⟨-, h1⟩, h2⟩
    have := hcf h1
    omega
  have hc' : ¬(0 < nt ∧ cb.getD (nt / B.base.base.ratio) = 0) := by
    rintro ⟨h1, h2⟩
    have := hcf h1
    omega
  have hx : ∀ s, (slots d ns R).get (B.base.bInit (g s) (gsc s)) = 0 := by
    intro s; funext a; cases a <;> rfl
  obtain ⟨mem, hI, e⟩ := Batch.bwdPass_inv (L := slots d ns R) (F := B.flags gv gs)
    (swap := BMem.swap) (ratio := B.base.base.ratio)
    (step := fun s => bStepC (B.cfg s).bwdArgs (B.cfg s).scatter (B.cfg s).rcvsc gv gs (w s) (wsc s)
      (gr s) (grsc s)) hS keeps_swap BMem.swap_swap
    (fun s t => adds_bStep B _ _ _ gv gs (w s) (wsc s) (gr s) (grsc s) t) hx
    (fun step m => (⟨step, fun s => (m.shots s).bg.wavefields, fun s => (m.shots s).sc.wavefields,
      m.grad false, m.grad true⟩ : BatchBEvent d S R)) σ nt _ hcf hσ
  have es := fun s => Batch.single_eq (ratio := B.base.base.ratio) (view := bView)
    (f := bStepC (B.cfg s).bwdArgs (B.cfg s).scatter (B.cfg s).rcvsc gv gs (w s) (wsc s)
      (gr s) (grsc s)) BMem.swap_swap nt _ hcf (B.base.bInit (g s) (gsc s))
  have hfin := hI _ le_rfl
  refine ⟨_, _, by rw [Batch.backward, if_neg (by omega)]; simp only; rw [if_neg hc, e],
    fun s => by
      have er : (B.cfg s).base.ratio = B.base.base.ratio := rfl
      have ei : (B.cfg s).bInit (g s) (gsc s) = B.base.bInit (g s) (gsc s) := rfl
      rw [BCfg.backward, er, if_neg (by omega)]; simp only; rw [if_neg hc', ei, es], ?_, ?_, ?_⟩
  · intro s
    have h1 := hfin.shots s
    rw [Batch.stepsAfter_calls nt _ hcf] at h1
    refine ⟨(congrArg BMem.gf h1 :), (congrArg BMem.gfsc h1 :),
      (congrArg (fun m => unpadBwd B.base.base (BMem.bg m)) h1 :),
      (congrArg (fun m => unpadBwd B.base.base (BMem.sc m)) h1 :), ?_⟩
    cases cb with
    | none => rfl
    | some k =>
        simp only [Option.isSome_some, if_true, List.map_map]
        refine List.map_congr_left fun i hi => ?_
        have h2 := (hI (i + 1) (by have := List.mem_range.1 hi; omega)).shots s
        exact Prod.ext rfl (congrArg (fun m : BMem d ns R => (m.bg.wavefields, m.sc.wavefields)) h2 :)
  · intro β c
    refine (hfin.grad_final hx rfl hcf false β c).trans (Finset.sum_congr rfl fun s _ => ?_)
    simp only [Batch.Flags.outBlock, Batch.Flags.useTmp, Batch.flags,
      Bool.false_eq_true, if_false, Bool.and_eq_true, Bool.not_eq_true', decide_eq_true_eq, and_assoc]
    cases cb with
    | none => simp only [Option.isSome_none, Bool.false_eq_true, and_false, if_false]; rfl
    | some k => simp only [Option.isSome_some, if_true, List.map_map]; rfl
  · intro β c
    refine (hfin.grad_final hx rfl hcf true β c).trans (Finset.sum_congr rfl fun s _ => ?_)
    simp only [Batch.Flags.outBlock, Batch.Flags.useTmp, Batch.flags, if_true,
      Bool.and_eq_true, Bool.not_eq_true', decide_eq_true_eq, and_assoc]
    cases cb with
    | none => simp only [Option.isSome_none, Bool.false_eq_true, and_false, if_false]; rfl
    | some k => simp only [Option.isSome_some, if_true, List.map_map]; rfl

/-- **C70** Born backward when only the scattered field is propagated. -/
theorem C70_born_backward_sc (B : Batch d ns nr nq S R) (hS : 0 < S) (hr : 0 < B.base.base.ratio)
    (gs : Bool) (cb : Option ℕ) (nt : ℕ) (hcf : 0 < nt → 0 < cb.getD (nt / B.base.base.ratio))
    (w : Fin S → ℕ → Fld d R) (grsc : Fin S → ℕ → Fin nq → R)
    (gsc : Fin S → Init d R) (σ : ℕ → Batch.Exec S P)
    (hσ : Batch.BwdExecs B.base.base.ratio (nt / B.base.base.ratio)
      (cb.getD (nt / B.base.base.ratio)) σ) :
    ∃ r, ∃ b : Fin S → SResult d ns R, B.backwardSc gs cb nt w grsc gsc σ = .ok r ∧
      (∀ s, (B.alone s).backwardSc gs cb nt (w s) (grsc s) (gsc s) = .ok (b s)) ∧
      (∀ s, r.gfsc s = (b s).gfsc ∧ r.outsc s = (b s).outsc ∧
        (r.events.map fun e => (e.step, e.sc s)) = (b s).events.map fun e => (e.step, e.sc)) ∧
      ∀ β c, r.gs β c = ∑ s : Fin S, if (if B.scBatched then (s : ℕ) else 0) = β then
        (if (gs = true ∧ B.scBatched = false ∧ 1 < P) ∧ cb.isSome = true
          then ((b s).events.map fun e => e.gs c).sum else (b s).gs c) else 0 := by
  simp only [Batch.alone_eq]
  have hc : ¬((0 < S ∧ 0 < nt) ∧ cb.getD (nt / B.base.base.ratio) = 0) := by
    rintro ⟨⟨-, h1⟩, h2⟩
    have := hcf h1
    omega
  have hc' : ¬(0 < nt ∧ cb.getD (nt / B.base.base.ratio) = 0) := by
    rintro ⟨h1, h2⟩
    have := hcf h1
    omega
  have hx : ∀ s, (slotsSc d ns R).get (B.base.sInit (gsc s)) = 0 := fun s => rfl
  obtain ⟨mem, hI, e⟩ := Batch.bwdPass_inv (L := slotsSc d ns R) (F := B.flagsSc gs)
    (swap := SMem.swap) (ratio := B.base.base.ratio)
    (step := fun s => sStepC (B.cfg s).bwdArgs (B.cfg s).rcvsc gs (w s) (grsc s)) hS keeps_swapSc
    SMem.swap_swap (fun s t => adds_sStep B _ _ gs (w s) (grsc s) t) hx
    (fun step m => (⟨step, fun s => (m.shots s).sc.wavefields, m.grad ()⟩ : BatchSEvent d S R))
    σ nt _ hcf hσ
  have es := fun s => Batch.single_eq (ratio := B.base.base.ratio) (view := sView)
    (f := sStepC (B.cfg s).bwdArgs (B.cfg s).rcvsc gs (w s) (grsc s)) SMem.swap_swap nt _ hcf
    (B.base.sInit (gsc s))
  have hfin := hI _ le_rfl
  refine ⟨_, _, by rw [Batch.backwardSc, if_neg (by omega)]; simp only; rw [if_neg hc, e],
    fun s => by
      have er : (B.cfg s).base.ratio = B.base.base.ratio := rfl
      have ei : (⟨(B.cfg s).base.initBwdBufs (gsc s), fun _ _ => 0, fun _ => 0⟩ : SMem d ns R) =
        B.base.sInit (gsc s) := rfl
      rw [BCfg.backwardSc, er, if_neg (by omega)]; simp only; rw [if_neg hc', ei, es], ?_, ?_⟩
  · intro s
    have h1 := hfin.shots s
    rw [Batch.stepsAfter_calls nt _ hcf] at h1
    refine ⟨(congrArg SMem.gfsc h1 :),
      (congrArg (fun m => unpadBwd B.base.base (SMem.sc m)) h1 :), ?_⟩
    cases cb with
    | none => rfl
    | some k =>
        simp only [Option.isSome_some, if_true, List.map_map]
        refine List.map_congr_left fun i hi => ?_
        have h2 := (hI (i + 1) (by have := List.mem_range.1 hi; omega)).shots s
        exact Prod.ext rfl (congrArg (fun m : SMem d ns R => m.sc.wavefields) h2 :)
  · intro β c
    refine (hfin.grad_final hx rfl hcf () β c).trans (Finset.sum_congr rfl fun s _ => ?_)
    simp only [Batch.Flags.outBlock, Batch.Flags.useTmp, Batch.flagsSc,
      Bool.and_eq_true, Bool.not_eq_true', decide_eq_true_eq, and_assoc]
    cases cb with
    | none => simp only [Option.isSome_none, Bool.false_eq_true, and_false, if_false]; rfl
    | some k => simp only [Option.isSome_some, if_true, List.map_map]; rfl

/-- Two shots with their own velocity and a common scattering potential. -/
def exBB : Batch 2 2 1 1 2 ℚ where
  base := { exB ℚ with base := { exCfgOf ℚ with ratio := 1 } }
  v := fun s c => (exCfgOf ℚ).v c + s
  scatter := fun _ => (exB ℚ).scatter
  vBatched := true
  scBatched := false
  src := fun _ => (exCfgOf ℚ).src
  rcv := fun _ => (exCfgOf ℚ).rcv
  rcvsc := fun _ => (exB ℚ).rcvsc

/-- C70 applies to the example: two threads in lockstep, one or two calls. -/
example : (∃ r, exBB.forward true true (some 2) 4 (fun _ _ _ => 1) (fun _ _ _ => 2)
      (fun _ => Scalar.exInit ℚ) (fun _ => Scalar.exInit ℚ) (fun _ => lockExec 2) = .ok r) ∧
    (∃ r, exBB.backward true true none 4 (fun _ _ _ => 1) (fun _ _ _ => 2) (fun _ _ _ => 3)
      (fun _ _ _ => 4) (fun _ => Scalar.exInit ℚ) (fun _ => Scalar.exInit ℚ)
      (fun _ => lockExec 4) = .ok r) ∧
    (∃ r, exBB.backwardSc true (some 2) 4 (fun _ _ _ => 1) (fun _ _ _ => 3)
      (fun _ => Scalar.exInit ℚ) (fun _ => lockExec 2) = .ok r) := by
  refine ⟨?_, ?_, ?_⟩
  · obtain ⟨r, h, -⟩ := C70_born_forward exBB (by decide) true true (some 2) 4 (by decide)
      (fun _ _ _ => 1) (fun _ _ _ => 2) (fun _ => Scalar.exInit ℚ) (fun _ => Scalar.exInit ℚ)
      (fun _ => lockExec 2) lockExec_fwd
    exact ⟨r, h⟩
  · obtain ⟨r, b, h, -⟩ := C70_born_backward exBB (by decide) (by decide) true true none 4
      (by decide) (fun _ _ _ => 1) (fun _ _ _ => 2) (fun _ _ _ => 3) (fun _ _ _ => 4)
      (fun _ => Scalar.exInit ℚ) (fun _ => Scalar.exInit ℚ) (fun _ => lockExec 4) lockExec_bwd_one
    exact ⟨r, h⟩
  · obtain ⟨r, b, h, -⟩ := C70_born_backward_sc exBB (by decide) (by decide) true (some 2) 4
      (by decide) (fun _ _ _ => 1) (fun _ _ _ => 3) (fun _ => Scalar.exInit ℚ)
      (fun _ => lockExec 2) lockExec_bwd
    exact ⟨r, h⟩

end Dw.Born
