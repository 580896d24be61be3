import Verif.Core.Batch
import Verif.Acoustic.Backward

/-!
# The acoustic propagator with several shots and threads

`acoustic.c` and `acoustic.py` for `n_shots` shots (see `Verif/Core/Batch.lean` for the parallel
loops, the thread buffers and the chunk loops).
-/

namespace Dw.Acoustic

open Dw.Scalar (addTo recordFrom)

variable {d np mp S P : ℕ} {nv mv : Fin d → ℕ} {R : Type*} [Field R]

/-- Arguments of the drivers for `S` shots. -/
structure Batch (d np mp : ℕ) (nv mv : Fin d → ℕ) (S : ℕ) (R : Type*) where
  /-- everything that does not depend on the shot (the models, sources and receivers of `base` are
  not used) -/
  base : Cfg d np mp nv mv R
  /-- blocks of the models: block `s` starts at `s * n_grid_points` -/
  K : ℕ → Fld d R
  B : ℕ → Fin d → Fld d R
  /-- `model_batched` (`acoustic.py` 882, 1106) -/
  kBatched : Bool
  bBatched : Bool
  srcP : Fin S → Fin np → Option (Cell d)
  srcV : Fin S → (k : Fin d) → Fin (nv k) → Option (Cell d)
  rcvP : Fin S → Fin mp → Option (Cell d)
  rcvV : Fin S → (k : Fin d) → Fin (mv k) → Option (Cell d)

/-- What shot `s` sees: `k_shot`, `buoyancy_*_shot` (`acoustic.c` 314-325, 875-886), `sources_i_* +
src_i_*`, `receivers_i_* + rcv_i_*`. -/
def Batch.cfg (B : Batch d np mp nv mv S R) (s : Fin S) : Cfg d np mp nv mv R :=
  { B.base with
    K := B.K (if B.kBatched then s else 0)
    B := B.B (if B.bBatched then s else 0)
    srcP := B.srcP s, srcV := B.srcV s, rcvP := B.rcvP s, rcvV := B.rcvV s }

structure BatchFResult (d mp : ℕ) (mv : Fin d → ℕ) (S : ℕ) (R : Type*) where
  out : Fin S → Wavefields d R
  rcdP : Fin S → ℕ → Fin mp → R
  rcdV : Fin S → (k : Fin d) → ℕ → Fin (mv k) → R
  storeK : Fin S → ℕ → Fld d R
  storeB : Fin S → ℕ → Fin d → Fld d R
  events : List (Fin S → Event d R)

/-- `AcousticForwardFunc.forward` (`acoustic.py` 738-1007). -/
def Batch.forward (B : Batch d np mp nv mv S R) (gk gb : Bool) (cb : Option ℕ) (nt : ℕ)
    (fp : Fin S → ℕ → Fin np → R) (fv : Fin S → (k : Fin d) → ℕ → Fin (nv k) → R)
    (w : Fin S → Init d R) (σ : ℕ → Batch.Exec S P) : Except PyErr (BatchFResult d mp mv S R) :=
  if B.base.ratio = 0 then .error .zeroDivision else
  let cf := cb.getD (nt / B.base.ratio)
  if (0 < S ∧ 0 < nt) ∧ cf = 0 then .error .valueError else
  let m := Batch.fwdPass id (fun s => fStep (B.cfg s).fwdArgs gk gb (fp s) (fv s)) B.base.ratio
    (fun step m => ⟨step, m.wf⟩) σ nt cf fun s => B.base.fInit (w s)
  .ok { out := fun s => B.base.unpadAll (m.1 s).wf, rcdP := fun s => (m.1 s).rcdP
        rcdV := fun s => (m.1 s).rcdV, storeK := fun s => (m.1 s).storeK
        storeB := fun s => (m.1 s).storeB, events := if cb.isSome then m.2 else [] }

/-- The model gradients: `none` is `grad_k`, `some k` the gradient of the buoyancy at the points of
velocity component `k`. -/
def slots (d np : ℕ) (nv : Fin d → ℕ) (R : Type*) : Batch.Slots (BMem d np nv R) (Option (Fin d)) (Cell d) R where
  get := fun m a => match a with
    | none => m.gK
    | some k => m.gB k
  set := fun g m => { m with gK := g none, gB := fun k => g (some k) }
  get_set := fun g m => by funext a; cases a <;> rfl
  set_set := fun _ _ _ => rfl
  set_get := fun _ => rfl

/-- `combine_grad` adds up all elements (`common_cpu.h` 32-43). -/
def Batch.flags (B : Batch d np mp nv mv S R) (gk gb : Bool) :
    Batch.Flags (Option (Fin d)) (Cell d) where
  req := fun a => if a.isSome then gb else gk
  batched := fun a => if a.isSome then B.bBatched else B.kBatched
  combined := fun _ => true

/-- State shown to a backward callback (`acoustic.py` 1233-1245): the wavefields of all shots and the
gradients, by block. -/
structure BatchBEvent (d S : ℕ) (R : Type*) where
  step : ℕ
  wf : Fin S → Wavefields d R
  gK : ℕ → Fld d R
  gB : Fin d → ℕ → Fld d R

structure BatchBResult (d np : ℕ) (nv : Fin d → ℕ) (S : ℕ) (R : Type*) where
  out : Fin S → Wavefields d R
  gfP : Fin S → ℕ → Fin np → R
  gfV : Fin S → (k : Fin d) → ℕ → Fin (nv k) → R
  /-- blocks of the returned gradients; only block 0 exists if the model is not batched -/
  gK : ℕ → Fld d R
  gB : Fin d → ℕ → Fld d R
  events : List (BatchBEvent d S R)

/-- `AcousticForwardFunc.backward` (`acoustic.py` 1010-1258). -/
def Batch.backward (B : Batch d np mp nv mv S R) (gk gb : Bool) (cb : Option ℕ) (nt : ℕ)
    (storeK : Fin S → ℕ → Fld d R) (storeB : Fin S → ℕ → Fin d → Fld d R)
    (grP : Fin S → ℕ → Fin mp → R) (grV : Fin S → (k : Fin d) → ℕ → Fin (mv k) → R)
    (g : Fin S → Init d R) (σ : ℕ → Batch.Exec S P) : Except PyErr (BatchBResult d np nv S R) :=
  if B.base.ratio = 0 then .error .zeroDivision else
  let cf := cb.getD (nt / B.base.ratio)
  if (0 < S ∧ 0 < nt) ∧ cf = 0 then .error .valueError else
  let m := Batch.bwdPass (slots d np nv R) (B.flags gk gb) BMem.swap
    (fun s => bStepC (B.cfg s).bwdArgs gk gb (storeK s) (storeB s) (grP s) (grV s)) B.base.ratio
    (fun step m => (⟨step, fun s => (m.shots s).wf, m.grad none, fun k => m.grad (some k)⟩ :
      BatchBEvent d S R)) σ nt cf fun s => B.base.bInit (g s)
  .ok { out := fun s => B.base.unpadAll (m.1.shots s).wf, gfP := fun s => (m.1.shots s).gfP
        gfV := fun s => (m.1.shots s).gfV, gK := m.1.grad none, gB := fun k => m.1.grad (some k)
        events := if cb.isSome then m.2 else [] }

/-! ### The kernels only add to the gradients -/

omit [Field R] in
theorem keeps_swap : Batch.Keeps (slots d np nv R) BMem.swap :=
  ⟨fun _ => rfl, fun _ _ => rfl⟩

theorem vel_rel (A : CArgs d np mp nv mv R) (load : Bool) (store : Fin d → Fld d R) (p : Fld d R)
    (phi psi : Fin d → Fld d R) (l) (m : Fin d × Cell d → BVCell R) (g : Fin d → Fld d R)
    (kc : Fin d × Cell d) :
    let x := foldUpdate (bVelBody A load store p phi psi) l (fun kc => { m kc with grad := g kc.1 kc.2 }) kc
    let y := foldUpdate (bVelBody A load store p phi psi) l (fun kc => { m kc with grad := 0 }) kc
    x.v = y.v ∧ x.psin = y.psin ∧ x.grad = g kc.1 kc.2 + y.grad ∧ (load = false → y.grad = 0) := by
  refine foldUpdate_rel (Q := fun kc (x y : BVCell R) => x.v = y.v ∧ x.psin = y.psin ∧
    x.grad = g kc.1 kc.2 + y.grad ∧ (load = false → y.grad = 0)) ?_ ?_ kc
  · intro c; simp
  · rintro v - s s' ⟨h1, h2, h3, h4⟩
    refine ⟨?_, ?_, ?_, ?_⟩
    · simp only [bVelBody, h1]
    · simp only [bVelBody, h1]
    · simp only [bVelBody, h1, h3]
      cases load
      · rfl
      · exact add_sub_assoc _ _ _
    · intro hl
      simpa [bVelBody, hl] using h4 hl

theorem prs_rel (A : CArgs d np mp nv mv R) (load : Bool) (store : Fld d R)
    (v psi : Fin d → Fld d R) (l) (m : Unit × Cell d → BPCell d R) (g : Fld d R) (kc : Unit × Cell d) :
    let x := foldUpdate (bPrsBody A load store v psi) l (fun kc => { m kc with grad := g kc.2 }) kc
    let y := foldUpdate (bPrsBody A load store v psi) l (fun kc => { m kc with grad := 0 }) kc
    x.p = y.p ∧ x.phi = y.phi ∧ x.grad = g kc.2 + y.grad ∧ (load = false → y.grad = 0) := by
  refine foldUpdate_rel (Q := fun kc (x y : BPCell d R) => x.p = y.p ∧ x.phi = y.phi ∧
    x.grad = g kc.2 + y.grad ∧ (load = false → y.grad = 0)) ?_ ?_ kc
  · intro c; simp
  · rintro v - s s' ⟨h1, h2, h3, h4⟩
    refine ⟨?_, ?_, ?_, ?_⟩
    · simp only [bPrsBody, h1]
    · simp only [bPrsBody, h1, h2]
    · simp only [bPrsBody, h1, h3]
      cases load
      · rfl
      · exact add_sub_assoc _ _ _
    · intro hl
      simpa [bPrsBody, hl] using h4 hl

theorem adds_bStep (B : Batch d np mp nv mv S R) (A : CArgs d np mp nv mv R) (gk gb : Bool)
    (storeK : ℕ → Fld d R) (storeB : ℕ → Fin d → Fld d R) (grP : ℕ → Fin mp → R)
    (grV : (k : Fin d) → ℕ → Fin (mv k) → R) (t : ℕ) :
    Batch.Adds (slots d np nv R) (B.flags gk gb) (bStepC A gk gb storeK storeB grP grV t) := by
  have hv := fun (g : Option (Fin d) → Cell d → R) (m : BMem d np nv R) =>
    vel_rel A (gb && t % A.ratio == 0) (storeB (t / A.ratio)) m.p m.phi m.psi
      (regionVisits (List.finRange d) A.boundsV)
      (fun kc => ⟨m.v kc.1 kc.2, m.psin kc.1 kc.2, 0⟩) (fun k => g (some k))
  have hp := fun (g : Option (Fin d) → Cell d → R) (m : BMem d np nv R) (v : Fin d → Fld d R) =>
    prs_rel A (gk && t % A.ratio == 0) (storeK (t / A.ratio)) v m.psi
      (regionVisits [()] fun _ => A.bounds)
      (fun kc => ⟨m.p kc.2, fun k => m.phi k kc.2, 0⟩) (g none)
  refine ⟨fun g m => ?_, fun g m a c => ?_, fun m a c ha => ?_, fun m a c hc => ?_⟩
  · simp only [slots, bStepC, Pi.zero_apply]
    simp only [fun kc => (hv g m kc).1, fun kc => (hv g m kc).2.1, fun v kc => (hp g m v kc).1,
      fun v kc => (hp g m v kc).2.1]
  · cases a with
    | none =>
        simp only [slots, bStepC, Pi.zero_apply]
        simp only [fun kc => (hv g m kc).1]
        exact (hp g m _ ((), c)).2.2.1
    | some k =>
        simp only [slots, bStepC, Pi.zero_apply]
        exact (hv g m (k, c)).2.2.1
  · cases a with
    | none =>
        simp only [Batch.flags, Option.isSome_none, Bool.false_eq_true, if_false] at ha
        simp only [slots, bStepC, Pi.zero_apply]
        exact (hp 0 m _ ((), c)).2.2.2 (by simp [ha])
    | some k =>
        simp only [Batch.flags, Option.isSome_some, if_true] at ha
        simp only [slots, bStepC, Pi.zero_apply]
        exact (hv 0 m (k, c)).2.2.2 (by simp [ha])
  · simp [Batch.flags] at hc

end Dw.Acoustic
