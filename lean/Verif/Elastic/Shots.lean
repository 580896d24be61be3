import Verif.Core.Batch
import Verif.Elastic.Backward

/-!
# The elastic propagator with several shots and threads

`elastic.c` and `elastic.py` for `n_shots` shots (see `Verif/Core/Batch.lean` for the parallel loops,
the thread buffers and the chunk loops).
-/

namespace Dw.Elastic

open Dw.Scalar (addTo recordFrom Region)
open Dw.Acoustic (pad_pos)

variable {d np mp S P : ℕ} {nv mv : Fin d → ℕ} {R : Type*} [Field R]

/-- Arguments of the drivers for `S` shots. -/
structure Batch (d np mp : ℕ) (nv mv : Fin d → ℕ) (S : ℕ) (R : Type*) where
  /-- everything that does not depend on the shot (the models, sources and receivers of `base` are
  not used) -/
  base : Cfg d np mp nv mv R
  /-- blocks of the models: block `s` starts at `s * n_grid_points` -/
  lam : ℕ → Fld d R
  mu : ℕ → Fld d R
  muS : ℕ → Sh d → Fld d R
  B : ℕ → Fin d → Fld d R
  /-- `lamb_batched`, `mu_batched`, `buoyancy_batched` (`elastic.py` 1405-1407, 1677-1679) -/
  lBatched : Bool
  mBatched : Bool
  bBatched : Bool
  srcP : Fin S → Fin np → Option (Cell d)
  srcV : Fin S → (i : Fin d) → Fin (nv i) → Option (Cell d)
  rcvP : Fin S → Fin mp → Option (Cell d)
  rcvV : Fin S → (i : Fin d) → Fin (mv i) → Option (Cell d)

/-- What shot `s` sees: `lamb_shot`, `mu_shot`, `mu_*_shot`, `buoyancy_*_shot` (`elastic.c` 647-705,
1556-1623) and its sources and receivers. -/
def Batch.cfg (B : Batch d np mp nv mv S R) (s : Fin S) : Cfg d np mp nv mv R :=
  { B.base with
    lam := B.lam (if B.lBatched then s else 0)
    mu := B.mu (if B.mBatched then s else 0)
    muS := B.muS (if B.mBatched then s else 0)
    B := B.B (if B.bBatched then s else 0)
    srcP := B.srcP s, srcV := B.srcV s, rcvP := B.rcvP s, rcvV := B.rcvV s }

structure BatchFResult (d mp : ℕ) (mv : Fin d → ℕ) (S : ℕ) (R : Type*) where
  out : Fin S → Wavefields d R
  rcdP : Fin S → ℕ → Fin mp → R
  rcdV : Fin S → (i : Fin d) → ℕ → Fin (mv i) → R
  storeB : Fin S → ℕ → Fin d → Fld d R
  storeN : Fin S → ℕ → Fin d → Fld d R
  storeS : Fin S → ℕ → Sh d → Fld d R
  events : List (Fin S → Event d R)

/-- `ElasticForwardFunc.forward` (`elastic.py` 1185-1568). -/
def Batch.forward (B : Batch d np mp nv mv S R) (gl gm gb : Bool) (cb : Option ℕ) (nt : ℕ)
    (fp : Fin S → ℕ → Fin np → R) (fv : Fin S → (i : Fin d) → ℕ → Fin (nv i) → R)
    (w : Fin S → Init d R) (σ : ℕ → Batch.Exec S P) : Except PyErr (BatchFResult d mp mv S R) :=
  if B.base.ratio = 0 then .error .zeroDivision else
  let cf := cb.getD (nt / B.base.ratio)
  if (0 < S ∧ 0 < nt) ∧ cf = 0 then .error .valueError else
  let m := Batch.fwdPass id (fun s => fStep (B.cfg s).fwdArgs gl gm gb (fp s) (fv s)) B.base.ratio
    (fun step m => ⟨step, m.wf⟩) σ nt cf fun s => B.base.fInit (w s)
  .ok { out := fun s => B.base.unpadAll (m.1 s).wf, rcdP := fun s => (m.1 s).rcdP
        rcdV := fun s => (m.1 s).rcdV, storeB := fun s => (m.1 s).storeB
        storeN := fun s => (m.1 s).storeN, storeS := fun s => (m.1 s).storeS
        events := if cb.isSome then m.2 else [] }

/-- The model gradients: `grad_lamb`, `grad_mu`, `grad_mu_*`, `grad_buoyancy_*`. -/
inductive GIx (d : ℕ)
  | l | m | s (p : Sh d) | b (i : Fin d)

def slots (d np : ℕ) (nv : Fin d → ℕ) (R : Type*) :
    Batch.Slots (BMem d np nv R) (GIx d) (Cell d) R where
  get := fun m a => match a with
    | .l => m.gr.l
    | .m => m.gr.m
    | .s p => m.gr.s p
    | .b i => m.gr.b i
  set := fun g m => { m with gr := ⟨g .l, g .m, fun p => g (.s p), fun i => g (.b i)⟩ }
  get_set := fun g m => by funext a; cases a <;> rfl
  set_set := fun _ _ _ => rfl
  set_get := fun _ => rfl

/-- `combine_grad_elastic` adds up the elements from `FD_PAD` to `n - FD_PAD` in each dimension
(`elastic.c` 370-419). -/
def Batch.flags (B : Batch d np mp nv mv S R) (gl gm gb : Bool) : Batch.Flags (GIx d) (Cell d) where
  req := fun a => match a with
    | .l => gl
    | .m | .s _ => gm
    | .b _ => gb
  batched := fun a => match a with
    | .l => B.lBatched
    | .m | .s _ => B.mBatched
    | .b _ => B.bBatched
  combined := fun c => decide (∀ k, (B.base.acc.pad : ℤ) ≤ c k ∧ c k < B.base.n k - B.base.acc.pad + 1)

/-- State shown to a backward callback: the wavefields of all shots and the gradients, by block. -/
structure BatchBEvent (d S : ℕ) (R : Type*) where
  step : ℕ
  wf : Fin S → Wavefields d R
  gr : GIx d → ℕ → Fld d R

structure BatchBResult (d np : ℕ) (nv : Fin d → ℕ) (S : ℕ) (R : Type*) where
  out : Fin S → Wavefields d R
  gfP : Fin S → ℕ → Fin np → R
  gfV : Fin S → (i : Fin d) → ℕ → Fin (nv i) → R
  /-- blocks of the returned gradients; only block 0 exists if the model is not batched -/
  gr : GIx d → ℕ → Fld d R
  events : List (BatchBEvent d S R)

/-- `ElasticForwardFunc.backward` (`elastic.py` 1571-1949). -/
def Batch.backward (B : Batch d np mp nv mv S R) (gl gm gb : Bool) (cb : Option ℕ) (nt : ℕ)
    (storeB storeN : Fin S → ℕ → Fin d → Fld d R) (storeS : Fin S → ℕ → Sh d → Fld d R)
    (grP : Fin S → ℕ → Fin mp → R) (grV : Fin S → (i : Fin d) → ℕ → Fin (mv i) → R)
    (g : Fin S → Init d R) (σ : ℕ → Batch.Exec S P) : Except PyErr (BatchBResult d np nv S R) :=
  if B.base.ratio = 0 then .error .zeroDivision else
  let cf := cb.getD (nt / B.base.ratio)
  if (0 < S ∧ 0 < nt) ∧ cf = 0 then .error .valueError else
  let m := Batch.bwdPass (slots d np nv R) (B.flags gl gm gb) BMem.swap
    (fun s => bStepC (B.cfg s).bwdArgs gl gm gb (storeB s) (storeN s) (storeS s) (grP s) (grV s))
    B.base.ratio (fun step m => (⟨step, fun s => (m.shots s).wf, m.grad⟩ : BatchBEvent d S R)) σ nt cf
    fun s => B.base.bInit (g s)
  .ok { out := fun s => B.base.unpadAll (m.1.shots s).wf, gfP := fun s => (m.1.shots s).gfP
        gfV := fun s => (m.1.shots s).gfV, gr := m.1.grad
        events := if cb.isSome then m.2 else [] }

/-! ### The kernels only add to the gradients -/

omit [Field R] in
theorem keeps_swap : Batch.Keeps (slots d np nv R) BMem.swap :=
  ⟨fun _ => rfl, fun _ _ => rfl⟩

/-- The loops of the backward kernel stay among the elements that are combined. -/
theorem bwd_visits_in {C : Cfg d np mp nv mv R} (h : C.WF) {κ : Type*} (ks : List κ) (loc : κ → Loc d)
    {v : (Fin d → Region) × (κ × Cell d)}
    (hv : v ∈ regionVisits ks fun k => C.bwdArgs.bounds (loc k)) (k : Fin d) :
    (C.acc.pad : ℤ) ≤ v.2.2 k ∧ v.2.2 k < C.n k - C.acc.pad + 1 := by
  obtain ⟨r, κ', c⟩ := v
  rw [mem_regionVisits] at hv
  have h0 := hv.2 k
  have h1 := h.w0_nonneg k
  have h2 := h.w1_nonneg k
  have h3 := h.size k
  have h4 := pad_pos C.acc
  simp only [Bounds.fst, Bounds.snd, CArgs.bounds, Cfg.bwdArgs] at h0
  cases hr : r k <;> simp only [hr] at h0 <;> (try split_ifs at h0) <;> constructor <;> dsimp only <;>
    omega

theorem vel_rel (A : CArgs d np mp nv mv R) (load : Bool) (store : Fin d → Fld d R)
    (w : Wavefields d R) (l) (m : Fin d × Cell d → BVCell d R) (g : Fin d → Fld d R)
    {ok : Cell d → Prop} (hok : ∀ v ∈ l, ok v.2.2) (kc : Fin d × Cell d) :
    let x := foldUpdate (bVelBody A load store w) l (fun kc => { m kc with grad := g kc.1 kc.2 }) kc
    let y := foldUpdate (bVelBody A load store w) l (fun kc => { m kc with grad := 0 }) kc
    x.v = y.v ∧ x.mn = y.mn ∧ x.grad = g kc.1 kc.2 + y.grad ∧
      (load = false ∨ ¬ok kc.2 → y.grad = 0) := by
  refine foldUpdate_rel (Q := fun kc (x y : BVCell d R) => x.v = y.v ∧ x.mn = y.mn ∧
    x.grad = g kc.1 kc.2 + y.grad ∧ (load = false ∨ ¬ok kc.2 → y.grad = 0)) ?_ ?_ kc
  · intro c; simp
  · rintro v hv s s' ⟨h1, h2, h3, h4⟩
    refine ⟨?_, ?_, ?_, ?_⟩
    · simp only [bVelBody, h1]
    · simp only [bVelBody, h1, h2]
    · simp only [bVelBody, h1, h3]
      cases load
      · rfl
      · exact add_assoc _ _ _
    · rintro (hl | hl)
      · simpa [bVelBody, hl] using h4 (.inl hl)
      · exact absurd (hok v hv) hl

theorem str_rel (A : CArgs d np mp nv mv R) (loadL loadM : Bool) (storeN : Fin d → Fld d R)
    (storeS : Sh d → Fld d R) (v : Fin d → Fld d R) (ms : Fin d → Fin d → Fld d R) (l)
    (m : Option (Sh d) × Cell d → BSCell d R) (gl gm gs : Option (Sh d) × Cell d → R)
    {ok : Cell d → Prop} (hok : ∀ v ∈ l, ok v.2.2) (kc : Option (Sh d) × Cell d) :
    let x := foldUpdate (bStrBody A loadL loadM storeN storeS v ms) l
      (fun kc => { m kc with gl := gl kc, gm := gm kc, gs := gs kc }) kc
    let y := foldUpdate (bStrBody A loadL loadM storeN storeS v ms) l
      (fun kc => { m kc with gl := 0, gm := 0, gs := 0 }) kc
    x.s = y.s ∧ x.m = y.m ∧ x.sh = y.sh ∧ x.ml = y.ml ∧ x.mr = y.mr ∧
      (x.gl = gl kc + y.gl ∧ x.gm = gm kc + y.gm ∧ x.gs = gs kc + y.gs) ∧
      (loadL = false ∨ ¬ok kc.2 → y.gl = 0) ∧
      (loadM = false ∨ ¬ok kc.2 → y.gm = 0 ∧ y.gs = 0) := by
  refine foldUpdate_rel (Q := fun kc (x y : BSCell d R) => x.s = y.s ∧ x.m = y.m ∧ x.sh = y.sh ∧
    x.ml = y.ml ∧ x.mr = y.mr ∧ (x.gl = gl kc + y.gl ∧ x.gm = gm kc + y.gm ∧ x.gs = gs kc + y.gs) ∧
      (loadL = false ∨ ¬ok kc.2 → y.gl = 0) ∧
      (loadM = false ∨ ¬ok kc.2 → y.gm = 0 ∧ y.gs = 0)) ?_ ?_ kc
  · intro c; simp
  · rintro ⟨r, k, c⟩ hv s s' ⟨h1, h2, h3, h4, h5, ⟨h6, h7, h8⟩, h9, h10⟩
    have hin : ok c := hok _ hv
    simp only [hin, not_true, or_false] at h9 h10 ⊢
    cases k with
    | none =>
        refine ⟨?_, ?_, ?_, ?_, ?_, ⟨?_, ?_, ?_⟩, ?_, ?_⟩
        · simp only [bStrBody, h1]
        · simp only [bStrBody, h1, h2]
        · simp only [bStrBody, h3]
        · simp only [bStrBody, h4]
        · simp only [bStrBody, h5]
        · simp only [bStrBody, h1, h6]
          cases loadL
          · rfl
          · exact add_assoc _ _ _
        · simp only [bStrBody, h1, h7]
          cases loadM
          · rfl
          · exact add_assoc _ _ _
        · simp only [bStrBody, h8]
        · intro hl
          simpa [bStrBody, hl] using h9 hl
        · intro hl
          simpa [bStrBody, hl] using h10 hl
    | some p =>
        refine ⟨?_, ?_, ?_, ?_, ?_, ⟨?_, ?_, ?_⟩, ?_, ?_⟩
        · simp only [bStrBody, h1]
        · simp only [bStrBody, h2]
        · simp only [bStrBody, h3]
        · simp only [bStrBody, h3, h4]
        · simp only [bStrBody, h3, h5]
        · simp only [bStrBody, h6]
        · simp only [bStrBody, h7]
        · simp only [bStrBody, h3, h8]
          cases loadM
          · rfl
          · exact add_assoc _ _ _
        · intro hl
          simpa [bStrBody] using h9 hl
        · intro hl
          simpa [bStrBody, hl] using h10 hl

theorem adds_bStep (B : Batch d np mp nv mv S R) (s : Fin S) (h : (B.cfg s).WF) (gl gm gb : Bool)
    (storeB storeN : ℕ → Fin d → Fld d R) (storeS : ℕ → Sh d → Fld d R) (grP : ℕ → Fin mp → R)
    (grV : (i : Fin d) → ℕ → Fin (mv i) → R) (t : ℕ) :
    Batch.Adds (slots d np nv R) (B.flags gl gm gb)
      (bStepC (B.cfg s).bwdArgs gl gm gb storeB storeN storeS grP grV t) := by
  set A := (B.cfg s).bwdArgs with hA
  set ok : Cell d → Prop := fun c => ∀ k, (B.base.acc.pad : ℤ) ≤ c k ∧
    c k < B.base.n k - B.base.acc.pad + 1 with hok
  have hv := fun (g : GIx d → Cell d → R) (m : BMem d np nv R) =>
    vel_rel A (gb && t % A.ratio == 0) (storeB (t / A.ratio)) m.wf
      (regionVisits (List.finRange d) fun i => A.bounds (vLoc i))
      (fun ic => ⟨m.wf.v ic.1 ic.2, fun j => m.msn ic.1 j ic.2, 0⟩) (fun i => g (.b i)) (ok := ok)
      (fun v hv k => bwd_visits_in h _ vLoc hv k)
  have hp := fun (g : GIx d → Cell d → R) (m : BMem d np nv R) (v : Fin d → Fld d R) =>
    str_rel A (gl && t % A.ratio == 0) (gm && t % A.ratio == 0) (storeN (t / A.ratio))
      (storeS (t / A.ratio)) v m.wf.ms (regionVisits (stressNests d) fun k => A.bounds (nestLoc k))
      (fun kc =>
        { s := fun i => m.wf.s i kc.2
          m := fun i => m.wf.mv i i kc.2
          gl := 0
          gm := 0
          sh := kc.1.elim 0 fun p => m.wf.sh p kc.2
          ml := kc.1.elim 0 fun p => m.wf.mv p.1.1 p.1.2 kc.2
          mr := kc.1.elim 0 fun p => m.wf.mv p.1.2 p.1.1 kc.2
          gs := 0 })
      (fun kc => g .l kc.2) (fun kc => g .m kc.2) (fun kc => kc.1.elim 0 fun p => g (.s p) kc.2)
      (ok := ok) (fun v hv k => bwd_visits_in h _ nestLoc hv k)
  have e0 : ∀ o : Option (Sh d), (o.elim (0 : R) fun _ => 0) = 0 := by intro o; cases o <;> rfl
  refine ⟨fun g m => ?_, fun g m a c => ?_, fun m a c ha => ?_, fun m a c hc => ?_⟩
  · simp only [slots, bStepC, Pi.zero_apply, e0]
    simp only [fun kc => (hv g m kc).1, fun kc => (hv g m kc).2.1, fun v kc => (hp g m v kc).1,
      fun v kc => (hp g m v kc).2.1, fun v kc => (hp g m v kc).2.2.1, fun v kc => (hp g m v kc).2.2.2.1,
      fun v kc => (hp g m v kc).2.2.2.2.1]
  · cases a with
    | l =>
        simp only [slots, bStepC, Pi.zero_apply, e0]
        simp only [fun kc => (hv g m kc).1]
        exact (hp g m _ (none, c)).2.2.2.2.2.1.1
    | m =>
        simp only [slots, bStepC, Pi.zero_apply, e0]
        simp only [fun kc => (hv g m kc).1]
        exact (hp g m _ (none, c)).2.2.2.2.2.1.2.1
    | s p =>
        simp only [slots, bStepC, Pi.zero_apply, e0]
        simp only [fun kc => (hv g m kc).1]
        exact (hp g m _ (some p, c)).2.2.2.2.2.1.2.2
    | b i =>
        simp only [slots, bStepC, Pi.zero_apply]
        exact (hv g m (i, c)).2.2.1
  · cases a with
    | l =>
        simp only [Batch.flags] at ha
        simp only [slots, bStepC, Pi.zero_apply, e0]
        exact (hp 0 m _ (none, c)).2.2.2.2.2.2.1 (.inl (by simp [ha]))
    | m =>
        simp only [Batch.flags] at ha
        simp only [slots, bStepC, Pi.zero_apply, e0]
        exact ((hp 0 m _ (none, c)).2.2.2.2.2.2.2 (.inl (by simp [ha]))).1
    | s p =>
        simp only [Batch.flags] at ha
        simp only [slots, bStepC, Pi.zero_apply, e0]
        exact ((hp 0 m _ (some p, c)).2.2.2.2.2.2.2 (.inl (by simp [ha]))).2
    | b i =>
        simp only [Batch.flags] at ha
        simp only [slots, bStepC, Pi.zero_apply]
        exact (hv 0 m (i, c)).2.2.2 (.inl (by simp [ha]))
  · have hc' : ¬ok c := by simpa [Batch.flags, hok] using hc
    cases a with
    | l =>
        simp only [slots, bStepC, Pi.zero_apply, e0]
        exact (hp 0 m _ (none, c)).2.2.2.2.2.2.1 (.inr hc')
    | m =>
        simp only [slots, bStepC, Pi.zero_apply, e0]
        exact ((hp 0 m _ (none, c)).2.2.2.2.2.2.2 (.inr hc')).1
    | s p =>
        simp only [slots, bStepC, Pi.zero_apply, e0]
        exact ((hp 0 m _ (some p, c)).2.2.2.2.2.2.2 (.inr hc')).2
    | b i =>
        simp only [slots, bStepC, Pi.zero_apply]
        exact (hv 0 m (i, c)).2.2.2 (.inr hc')

end Dw.Elastic
