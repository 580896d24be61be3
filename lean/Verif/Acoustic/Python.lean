import Verif.Core.PyLoop
import Verif.Acoustic.Forward

/-!
# Model of the pure Python acoustic propagator

Models `update_velocities`, `update_pressure` and `acoustic_python` (`acoustic.py` 1261-1560), for one
shot.  Tensors are functions on cells; positions outside the array hold zero.  `IGNORE_LOCATION` is
`none`.  Options that the Python backend rejects (backward callback, storage options) and vmap are
not modelled.
-/

namespace Dw.Acoustic

open Dw.Scalar (inject sample pyScatter pyGather pyScatter_eq)

variable {d np mp : ℕ} {nv mv : Fin d → ℕ} {R : Type*} [Field R]

/-- Cells of the padded array. -/
def Cfg.InArr (C : Cfg d np mp nv mv R) (c : Cell d) : Prop := ∀ k, 0 ≤ c k ∧ c k < C.n k

instance (C : Cfg d np mp nv mv R) (c : Cell d) : Decidable (C.InArr c) :=
  inferInstanceAs (Decidable (∀ _, _))

/-- `staggered_grid.diff1(a, dim, ...)` (`staggered_grid.py` 312-321). -/
def Cfg.pyD (C : Cfg d np mp nv mv R) (k : Fin d) (u : Fld d R) : Fld d R := fun c =>
  pyS1 C.acc (C.n k) (1 / C.dx k) (fun x => u (Function.update c k x)) (c k)

/-- `staggered_grid.diff1h(a, dim, ...)` (`staggered_grid.py` 323-332). -/
def Cfg.pyDH (C : Cfg d np mp nv mv R) (k : Fin d) (u : Fld d R) : Fld d R := fun c =>
  pySH1 C.acc (C.n k) (1 / C.dx k) (fun x => u (Function.update c k x)) (c k)

/-- `update_velocities` (`acoustic.py` 1261-1293). -/
def Cfg.pyVel (C : Cfg d np mp nv mv R) (s : Wavefields d R) : Wavefields d R :=
  let gp := fun k => C.pyDH k s.p
  let psi := fun k c => if C.InArr c then C.ah k (c k) * s.psi k c + C.bh k (c k) * gp k c else 0
  { s with
    psi := psi
    v := fun k c => if C.InArr c then s.v k c - C.dt * C.B k c * (gp k c + psi k c) else 0 }

/-- `update_pressure` (`acoustic.py` 1296-1330). -/
def Cfg.pyPrs (C : Cfg d np mp nv mv R) (s : Wavefields d R) : Wavefields d R :=
  let dv := fun k => C.pyD k (s.v k)
  let phi := fun k c => if C.InArr c then C.a k (c k) * s.phi k c + C.b k (c k) * dv k c else 0
  let div := fun c => (List.finRange d).foldl (fun w k => w + dv k c + phi k c) 0
  { s with
    phi := phi
    p := fun c => if C.InArr c then s.p c - C.dt * C.K c * div c else 0 }

structure PyMem (d mp : ℕ) (mv : Fin d → ℕ) (R : Type*) where
  wf : Wavefields d R
  rcdP : ℕ → Fin mp → R
  rcdV : (k : Fin d) → ℕ → Fin (mv k) → R

/-- Body of the inner loop (`acoustic.py` 1482-1543). -/
def Cfg.pyInner (C : Cfg d np mp nv mv R) (fp : ℕ → Fin np → R)
    (fv : (k : Fin d) → ℕ → Fin (nv k) → R) (t : ℕ) (m : PyMem d mp mv R) : PyMem d mp mv R :=
  let s₁ := C.pyVel m.wf
  let s₂ := { s₁ with v := fun k => pyScatter (s₁.v k) (C.srcV k) (fv k t) }
  let s₃ := C.pyPrs s₂
  { wf := { s₃ with p := pyScatter s₃.p C.srcP (fp t) }
    rcdP := Function.update m.rcdP t (pyGather m.wf.p C.rcvP)
    rcdV := fun k => Function.update (m.rcdV k) t (pyGather (m.wf.v k) (C.rcvV k)) }

structure PyResult (d mp : ℕ) (mv : Fin d → ℕ) (R : Type*) where
  out : Wavefields d R
  rcdP : ℕ → Fin mp → R
  rcdV : (k : Fin d) → ℕ → Fin (mv k) → R
  events : List (Event d R)

/-- `acoustic_python` (`acoustic.py` 1341-1560). -/
def Cfg.pyForward (C : Cfg d np mp nv mv R) (cb : Option ℕ) (nt : ℕ) (fp : ℕ → Fin np → R)
    (fv : (k : Fin d) → ℕ → Fin (nv k) → R) (w : Init d R) : Except PyErr (PyResult d mp mv R) :=
  if C.ratio = 0 then .error .zeroDivision else
  let m := Driver.pyDrive (C.pyInner fp fv) C.ratio (fun step m => (⟨step, m.wf⟩ : Event d R)) cb
    (nt / C.ratio) ⟨C.prepare w, fun _ _ => 0, fun _ _ _ => 0⟩
  .ok { out := C.unpadAll m.1.wf
        rcdP := fun t i => if (C.rcvP i).isSome then m.1.rcdP t i else 0
        rcdV := fun k t i => if (C.rcvV k i).isSome then m.1.rcdV k t i else 0
        events := m.2 }

/-! ### Relation to the reference recursion -/

variable {C : Cfg d np mp nv mv R}

theorem update_shift (c : Cell d) (k : Fin d) (j : ℤ) :
    Function.update c k (c k + j) = c.shift k j := by
  funext i
  by_cases hi : i = k
  · subst hi; simp
  · rw [Function.update_of_ne hi, Cell.shift_ne _ _ _ _ hi]

theorem pyD_eq (k : Fin d) (u : Fld d R) (c : Cell d) :
    C.pyD k u c = if (C.acc.pad : ℤ) ≤ c k ∧ c k < C.n k - C.acc.pad + 1 then C.DI k u c else 0 := by
  have e : C.n k - ((C.acc.pad : ℤ) - 1) = C.n k - C.acc.pad + 1 := by ring
  simp only [Cfg.pyD, pyS1_eq, update_shift, e]
  rfl

theorem pyDH_eq (k : Fin d) (u : Fld d R) (c : Cell d) :
    C.pyDH k u c = if (C.acc.pad : ℤ) ≤ c k ∧ c k < C.n k - C.acc.pad then C.DH k u c else 0 := by
  simp only [Cfg.pyDH, pySH1_eq, update_shift]
  rfl

omit [Field R] in
theorem inner_inArr {c : Cell d} (hc : C.Inner c) : C.InArr c := fun k => by
  have := hc k
  have hp := pad_pos C.acc
  omega

theorem pyD_outside (k : Fin d) {u : Fld d R} (hu : ∀ c, ¬C.Inner c → u c = 0) (c : Cell d)
    (hc : ¬C.Inner c) : C.pyD k u c = 0 := by
  rw [pyD_eq]
  split_ifs with hk
  · have hz : ∀ j : ℤ, u (c.shift k j) = 0 := by
      intro j
      refine hu _ fun hi => hc fun i => ?_
      by_cases hik : i = k
      · subst hik; exact hk
      · have := hi i
        rwa [Cell.shift_ne _ _ _ _ hik] at this
    simp [Cfg.DI, DS, hz]
  · rfl

theorem pyDH_outside (k : Fin d) {u : Fld d R} (hu : ∀ c, ¬C.Inner c → u c = 0) (c : Cell d)
    (hc : ¬C.InnerH k c) : C.pyDH k u c = 0 := by
  rw [pyDH_eq]
  split_ifs with hk
  · have hz : ∀ j : ℤ, u (c.shift k j) = 0 := by
      intro j
      refine hu _ fun hi => hc ⟨fun i => ?_, hk.2⟩
      by_cases hik : i = k
      · subst hik; omega
      · have := hi i
        rwa [Cell.shift_ne _ _ _ _ hik] at this
    simp [Cfg.DH, DSH, hz]
  · rfl

theorem pyVel_eq {s : Wavefields d R} (hs : C.Good s) (q : (k : Fin d) → Fin (nv k) → R) :
    { C.pyVel s with v := fun k => pyScatter ((C.pyVel s).v k) (C.srcV k) (q k) } = C.halfV q s := by
  have hin : ∀ k c, C.InnerH k c → C.pyDH k s.p c = C.DH k s.p c := fun k c hc => by
    rw [pyDH_eq, if_pos ⟨(hc.1 k).1, hc.2⟩]
  have hpsi : (C.pyVel s).psi = (C.halfV q s).psi := by
    funext k c
    by_cases hc : C.InnerH k c
    · simp only [Cfg.pyVel, Cfg.halfV, Cfg.psi', hc, inner_inArr hc.1, if_true, hin k c hc]
      ring
    · simp [Cfg.pyVel, Cfg.halfV, Cfg.psi', hc, pyDH_outside k hs.p c hc, hs.psi k c hc]
  ext1
  · rfl
  · funext k c
    simp only [pyScatter_eq]
    simp only [Cfg.halfV]
    congr 1
    have e : (C.pyVel s).v k c = if C.InArr c then
        s.v k c - C.dt * C.B k c * (C.pyDH k s.p c + (C.pyVel s).psi k c) else 0 := rfl
    rw [e, hpsi]
    by_cases hc : C.InnerH k c
    · simp only [Cfg.gradP, Cfg.halfV, hc, inner_inArr hc.1, if_true, hin k c hc]
    · simp [Cfg.gradP, Cfg.halfV, hc, Cfg.psi', pyDH_outside k hs.p c hc, hs.v k c hc]
  · rfl
  · exact hpsi

theorem pyPrs_eq {s : Wavefields d R} (hs : C.Good s) (q : Fin np → R) :
    { C.pyPrs s with p := pyScatter (C.pyPrs s).p C.srcP q } = C.halfP q s := by
  have hv : ∀ k, ∀ c, ¬C.Inner c → s.v k c = 0 := fun k c hc => hs.v k c fun h => hc h.1
  have hin : ∀ k c, C.Inner c → C.pyD k (s.v k) c = C.DI k (s.v k) c := fun k c hc => by
    rw [pyD_eq, if_pos (hc k)]
  have hsum : ∀ x : Fin d → R, ((List.finRange d).map x).sum = ∑ k, x k := fun x => by
    rw [← List.ofFn_eq_map, List.sum_ofFn]
  have hphi : (C.pyPrs s).phi = (C.halfP q s).phi := by
    funext k c
    by_cases hc : C.Inner c
    · simp only [Cfg.pyPrs, Cfg.halfP, Cfg.phi', hc, inner_inArr hc, if_true, hin k c hc]
    · simp [Cfg.pyPrs, Cfg.halfP, Cfg.phi', hc, pyD_outside k (hv k) c hc, hs.phi k c hc]
  ext1
  · funext c
    simp only [pyScatter_eq]
    have e : (C.pyPrs s).p c = if C.InArr c then s.p c - C.dt * C.K c
        * (List.finRange d).foldl (fun w k => w + C.pyD k (s.v k) c + (C.pyPrs s).phi k c) 0 else 0 :=
      rfl
    rw [e, hphi]
    simp only [Cfg.halfP, Dw.Scalar.foldl_add_two, hsum, zero_add]
    congr 1
    by_cases hc : C.Inner c
    · simp only [Cfg.divV, hc, inner_inArr hc, if_true, hin _ c hc]
    · simp [Cfg.divV, hc, Cfg.phi', pyD_outside _ (hv _) c hc, hs.p c hc]
  · rfl
  · exact hphi
  · rfl

/-- Memory after `n` inner steps. -/
structure PyInv (C : Cfg d np mp nv mv R) (fp : ℕ → Fin np → R)
    (fv : (k : Fin d) → ℕ → Fin (nv k) → R) (s : Wavefields d R) (n : ℕ) (m : PyMem d mp mv R) :
    Prop where
  wf : m.wf = C.run fp fv s n
  rcdP : ∀ t i, (C.rcvP i).isSome → m.rcdP t i = if t < n then sample C.rcvP (C.run fp fv s t).p i else 0
  rcdV : ∀ k t i, (C.rcvV k i).isSome →
    m.rcdV k t i = if t < n then sample (C.rcvV k) ((C.run fp fv s t).v k) i else 0

theorem gather_step {m n : ℕ} {loc : Fin m → Option (Cell d)} {u : ℕ → Fld d R}
    {rcd : ℕ → Fin m → R}
    (h : ∀ t i, (loc i).isSome → rcd t i = if t < n then sample loc (u t) i else 0) (t : ℕ) (i : Fin m)
    (hi : (loc i).isSome) : Function.update rcd n (pyGather (u n) loc) t i =
      if t < n + 1 then sample loc (u t) i else 0 := by
  by_cases ht : t = n
  · subst ht
    obtain ⟨c, hc⟩ := Option.isSome_iff_exists.1 hi
    simp [pyGather, sample, hc]
  · rw [Function.update_of_ne ht, h t i hi]
    have : t < n + 1 ↔ t < n := by omega
    simp only [this]

theorem PyInv.step {fp : ℕ → Fin np → R} {fv : (k : Fin d) → ℕ → Fin (nv k) → R}
    {s : Wavefields d R} {n : ℕ} {m : PyMem d mp mv R} (h : C.WF) (hs : C.Good s)
    (hi : PyInv C fp fv s n m) : PyInv C fp fv s (n + 1) (C.pyInner fp fv n m) := by
  have hg := run_good h fp fv hs n
  refine ⟨?_, fun t i hr => ?_, fun k t i hr => ?_⟩
  · have e1 := pyVel_eq (C := C) hg fun k => fv k n
    have e2 := pyPrs_eq (C := C) (halfV_good h (fun k => fv k n) hg) (fp n)
    simp only [Cfg.pyInner, hi.wf]
    rw [e1]
    exact e2
  · simp only [Cfg.pyInner, hi.wf]
    exact gather_step (u := fun t => (C.run fp fv s t).p) hi.rcdP t i hr
  · simp only [Cfg.pyInner, hi.wf]
    exact gather_step (u := fun t => (C.run fp fv s t).v k) (hi.rcdV k) t i hr

/-- The result of the Python driver in terms of the reference recursion. -/
theorem pyForward_eq (h : C.WF) (cb : Option ℕ) (hcb : ∀ cf, cb = some cf → 0 < cf) (nt : ℕ)
    (fp : ℕ → Fin np → R) (fv : (k : Fin d) → ℕ → Fin (nv k) → R) (w : Init d R) (hr : 0 < C.ratio) :
    C.pyForward cb nt fp fv w = .ok
      (let T := nt / C.ratio * C.ratio
       let s := C.prepare w
       { out := C.unpadAll (C.run fp fv s T)
         rcdP := fun t => if t < T then sample C.rcvP (C.run fp fv s t).p else fun _ => 0
         rcdV := fun k t => if t < T then sample (C.rcvV k) ((C.run fp fv s t).v k) else fun _ => 0
         events := match cb with
           | none => []
           | some cf => (List.range ((nt / C.ratio + cf - 1) / cf)).map
               fun i => ⟨i * cf, C.run fp fv s (i * cf * C.ratio)⟩ }) := by
  have inv : ∀ n, PyInv C fp fv (C.prepare w) n (Driver.runF id (C.pyInner fp fv)
      (⟨C.prepare w, fun _ _ => 0, fun _ _ _ => 0⟩ : PyMem d mp mv R) n) :=
    Driver.runF_inv ⟨rfl, fun _ _ _ => by simp, fun _ _ _ _ => by simp⟩
      fun n m hm => hm.step h (prepare_good w)
  have hmask : ∀ {m : ℕ} (loc : Fin m → Option (Cell d)) (T t : ℕ) (u : ℕ → Fld d R)
      (rcd : ℕ → Fin m → R),
      (∀ t i, (loc i).isSome → rcd t i = if t < T then sample loc (u t) i else 0) →
      (fun i => if (loc i).isSome then rcd t i else 0) =
        if t < T then sample loc (u t) else fun _ => 0 := by
    intro m loc T t u rcd hh
    funext i
    by_cases hi : (loc i).isSome
    · rw [if_pos hi, hh t i hi]
      split_ifs <;> rfl
    · have hn : loc i = none := by simpa using hi
      rw [if_neg hi]
      split_ifs <;> simp [sample, hn]
  unfold Cfg.pyForward
  rw [if_neg hr.ne', Driver.pyDrive_eq cb hcb]
  have i1 := inv (nt / C.ratio * C.ratio)
  simp only [i1.wf]
  congr 2
  · funext t
    exact hmask C.rcvP _ t (fun t => (C.run fp fv (C.prepare w) t).p) _ i1.rcdP
  · funext k t
    exact hmask (C.rcvV k) _ t (fun t => (C.run fp fv (C.prepare w) t).v k) _ (i1.rcdV k)
  · cases cb with
    | none => rfl
    | some cf =>
        simp only
        refine List.map_congr_left fun i _ => ?_
        rw [(inv (i * cf * C.ratio)).wf]

end Dw.Acoustic
