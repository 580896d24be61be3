import Verif.Acoustic.Forward
import Verif.Core.Batch

/-!
# The sign of the time step in the acoustic propagator
-/

namespace Dw.Driver

/-- Two chunked loops whose steps correspond. -/
theorem driveF_map {β β' ε ε' : Type*} {step : ℕ → β → β} {step' : ℕ → β' → β'} {φ : β → β'} {ψ : ε → ε'}
    {view : ℕ → β → ε} {view' : ℕ → β' → ε'} (hs : ∀ t m, step' t (φ m) = φ (step t m))
    (hv : ∀ t m, view' t (φ m) = ψ (view t m)) (ratio N : ℕ) {cf : ℕ} (hcf : 0 < cf) (m : β) :
    driveF id step' ratio view' N cf (φ m) =
      (φ (driveF id step ratio view N cf m).1, (driveF id step ratio view N cf m).2.map ψ) := by
  have hr : ∀ n, runF id step' (φ m) n = φ (runF id step m n) := by
    intro n
    induction n with
    | zero => rfl
    | succ n ih => simp only [runF, ih, hs, id]
  rw [driveF_eq (fun _ => rfl) _ _ hcf, driveF_eq (fun _ => rfl) _ _ hcf]
  simp only [hr, List.map_map]
  congr 1
  refine List.map_congr_left fun i _ => ?_
  simp only [Function.comp, hv]

end Dw.Driver

namespace Dw.Scalar

variable {d : ℕ} {R : Type*} [Field R]

theorem addTo_neg {m : ℕ} (w : Fld d R) (loc : Fin m → Option (Cell d)) (amp : Fin m → R) :
    addTo (fun c => -w c) loc (fun i => -amp i) = fun c => -addTo w loc amp c := by
  funext c
  rw [addTo_eq, addTo_eq, neg_add]
  congr 1
  unfold inject
  rw [← Finset.sum_neg_distrib]
  exact Finset.sum_congr rfl fun i _ => by split_ifs <;> simp

theorem recordFrom_neg {m : ℕ} (w : Fld d R) (loc : Fin m → Option (Cell d)) (old : Fin m → R) :
    recordFrom (fun c => -w c) loc (fun i => -old i) = fun i => -recordFrom w loc old i := by
  funext i
  unfold recordFrom
  cases loc i <;> rfl

theorem update_neg {X : Type*} (x : ℕ → X → R) (t : ℕ) (y : X → R) :
    Function.update (fun t i => -x t i) t (fun i => -y i) = fun t' i => -Function.update x t y t' i := by
  funext t' i
  by_cases h : t' = t
  · subst h; simp
  · simp [Function.update_of_ne h]

theorem cSH1_neg (acc : Acc) (rdx : R) (a : ℤ → R) : cSH1 acc rdx (fun j => -a j) = -cSH1 acc rdx a := by
  simpa using cSH1_smul acc rdx (-1) a

theorem cS1_neg (acc : Acc) (rdx : R) (a : ℤ → R) : cS1 acc rdx (fun j => -a j) = -cS1 acc rdx a := by
  simpa using cS1_smul acc rdx (-1) a

end Dw.Scalar

namespace Dw.Acoustic

open Dw.Scalar (addTo recordFrom addTo_neg recordFrom_neg update_neg cSH1_neg cS1_neg)

variable {d np mp : ℕ} {nv mv : Fin d → ℕ} {R : Type*} [Field R]

/-- The same with the opposite time step. -/
def Cfg.negDt (C : Cfg d np mp nv mv R) : Cfg d np mp nv mv R := {C with dt := -C.dt}

/-- Particle velocities reversed, with the auxiliary fields computed from them. -/
def Wavefields.reversed (w : Wavefields d R) : Wavefields d R :=
  ⟨w.p, fun k c => -w.v k c, fun k c => -w.phi k c, w.psi⟩

def Init.reversed (w : Init d R) : Init d R :=
  ⟨w.p, fun k => (w.v k).map fun u c => -u c, fun k => (w.phi k).map fun u c => -u c, w.psi⟩

def FMem.reversed (m : FMem d mp mv R) : FMem d mp mv R :=
  { p := m.p, v := fun k c => -m.v k c, phi := fun k c => -m.phi k c, psi := m.psi
    storeK := fun j c => -m.storeK j c, storeB := m.storeB, rcdP := m.rcdP
    rcdV := fun k t i => -m.rcdV k t i }

def Event.reversed (e : Event d R) : Event d R := ⟨e.step, e.wf.reversed⟩

theorem fStep_negDt (C : Cfg d np mp nv mv R) (gk gb : Bool) (fp : ℕ → Fin np → R)
    (fv : (k : Fin d) → ℕ → Fin (nv k) → R) (t : ℕ) (m : FMem d mp mv R) :
    fStep C.negDt.fwdArgs gk gb fp (fun k t i => -fv k t i) t m.reversed =
      (fStep C.fwdArgs gk gb fp fv t m).reversed := by
  set A := C.fwdArgs with hA
  set A' := C.negDt.fwdArgs with hA'
  have hdt : A'.dt = -A.dt := rfl
  set saveK := gk && t % A.ratio == 0 with hsK
  set saveB := gb && t % A.ratio == 0 with hsB
  set vel := foldUpdate (velBody A saveB m.p) (regionVisits (List.finRange d) A.boundsV) fun kc =>
    (⟨m.v kc.1 kc.2, m.psi kc.1 kc.2, m.storeB (t / A.ratio) kc.1 kc.2⟩ : VCell R) with hvel
  have e1 : ∀ kc, foldUpdate (velBody A' saveB m.p) (regionVisits (List.finRange d) A'.boundsV)
      (fun kc => (⟨-m.v kc.1 kc.2, m.psi kc.1 kc.2, m.storeB (t / A.ratio) kc.1 kc.2⟩ : VCell R)) kc =
      ⟨-(vel kc).v, (vel kc).psi, (vel kc).store⟩ := by
    intro kc
    refine foldUpdate_rel (body := velBody A saveB m.p) (body' := velBody A' saveB m.p)
      (l := regionVisits (List.finRange d) A.boundsV)
      (m := fun kc => (⟨m.v kc.1 kc.2, m.psi kc.1 kc.2, m.storeB (t / A.ratio) kc.1 kc.2⟩ : VCell R))
      (m' := fun kc => (⟨-m.v kc.1 kc.2, m.psi kc.1 kc.2, m.storeB (t / A.ratio) kc.1 kc.2⟩ : VCell R))
      (Q := fun _ (x y : VCell R) => y = ⟨-x.v, x.psi, x.store⟩) (fun _ => rfl) ?_ kc
    rintro ⟨r, k, c⟩ _ s s' rfl
    simp only [velBody, hdt]
    congr 1
    change -s.v - -A.dt * A.B k c * _ = -(s.v - A.dt * A.B k c * _)
    ring!
  set v : Fin d → Fld d R := fun k => addTo (fun c => (vel (k, c)).v) (A.srcV k) (fv k t) with hv
  set prs := foldUpdate (prsBody A saveK v) (regionVisits [()] fun _ => A.bounds) fun kc =>
    (⟨m.p kc.2, fun k => m.phi k kc.2, m.storeK (t / A.ratio) kc.2⟩ : PCell d R) with hprs
  have e2 : ∀ kc, foldUpdate (prsBody A' saveK fun k c => -v k c) (regionVisits [()] fun _ => A'.bounds)
      (fun kc => (⟨m.p kc.2, fun k => -m.phi k kc.2, -m.storeK (t / A.ratio) kc.2⟩ : PCell d R)) kc =
      ⟨(prs kc).p, fun k => -(prs kc).phi k, -(prs kc).store⟩ := by
    intro kc
    refine foldUpdate_rel (body := prsBody A saveK v) (body' := prsBody A' saveK fun k c => -v k c)
      (l := regionVisits [()] fun _ => A.bounds)
      (m := fun kc => (⟨m.p kc.2, fun k => m.phi k kc.2, m.storeK (t / A.ratio) kc.2⟩ : PCell d R))
      (m' := fun kc => (⟨m.p kc.2, fun k => -m.phi k kc.2, -m.storeK (t / A.ratio) kc.2⟩ : PCell d R))
      (Q := fun _ (x y : PCell d R) => y = ⟨x.p, fun k => -x.phi k, -x.store⟩) (fun _ => rfl) ?_ kc
    rintro ⟨r, ⟨⟩, c⟩ _ s s' rfl
    have hd : ∀ k, cS1 A'.acc (A'.rdx k) (fun j => -v k (c.shift k j)) =
        -cS1 A.acc (A.rdx k) fun j => v k (c.shift k j) := fun k => cS1_neg _ _ _
    have hphi : ∀ k, (if r k = .mid then -s.phi k else A'.a k (c k) * -s.phi k +
        A'.b k (c k) * -cS1 A.acc (A.rdx k) fun j => v k (c.shift k j)) =
        -(if r k = .mid then s.phi k else A.a k (c k) * s.phi k +
        A.b k (c k) * cS1 A.acc (A.rdx k) fun j => v k (c.shift k j)) := fun k => by
      split_ifs
      · rfl
      · change A.a k (c k) * _ + A.b k (c k) * _ = _
        ring
    have hsum : ∀ (x y : Fin d → R), (∑ k, if r k = .mid then -x k else -x k + -y k) =
        -∑ k, if r k = .mid then x k else x k + y k := fun x y => by
      rw [← Finset.sum_neg_distrib]
      exact Finset.sum_congr rfl fun k _ => by split_ifs <;> ring
    simp only [prsBody, hdt, hd, hphi, hsum]
    congr 1
    · change s.p - -A.dt * A.K c * _ = s.p - A.dt * A.K c * _
      ring!
    · split_ifs <;> rfl
  have ev : (fun k => addTo (fun c => -(vel (k, c)).v) (A'.srcV k) fun i => -fv k t i) =
      fun k c => -v k c := by
    funext k
    exact addTo_neg _ _ _
  have er : A'.ratio = A.ratio := rfl
  have e3 : A'.rcvP = A.rcvP := rfl
  have e4 : A'.rcvV = A.rcvV := rfl
  have e5 : A'.srcP = A.srcP := rfl
  unfold fStep
  simp only [FMem.reversed, er, ← hsK, ← hsB, e1, ev, e2, ← hvel, ← hv, ← hprs, e3, e4, e5, recordFrom_neg,
    update_neg]
  congr 1
  split_ifs
  · rfl
  · rfl

theorem fInit_reversed (C : Cfg d np mp nv mv R) (w : Init d R) :
    C.negDt.fInit w.reversed = (C.fInit w).reversed := by
  have e1 : ∀ (u : Option (Fld d R)), C.createOrPad (u.map fun u c => -u c) = fun c => -C.createOrPad u c := by
    intro u
    cases u with
    | none => funext c; simp [Cfg.createOrPad]
    | some u =>
        funext c
        simp only [Cfg.createOrPad, Option.map_some]
        split_ifs <;> simp
  have hv : ∀ k, C.negDt.zeroEdge k (C.negDt.createOrPad ((w.v k).map fun u c => -u c)) =
      fun c => -C.zeroEdge k (C.createOrPad (w.v k)) c := fun k => by
    funext c
    change C.zeroEdge k (C.createOrPad _) c = _
    rw [e1]
    simp only [Cfg.zeroEdge]
    split_ifs <;> simp
  have hp : ∀ k, C.negDt.zeroInterior k (C.acc.pad - 1) (C.negDt.createOrPad ((w.phi k).map fun u c => -u c)) =
      fun c => -C.zeroInterior k (C.acc.pad - 1) (C.createOrPad (w.phi k)) c := fun k => by
    funext c
    change C.zeroInterior k (C.acc.pad - 1) (C.createOrPad _) c = _
    rw [e1]
    simp only [Cfg.zeroInterior]
    split_ifs <;> simp
  have hacc : C.negDt.acc = C.acc := rfl
  simp only [Cfg.fInit, FMem.reversed, Cfg.prepare, Init.reversed, hv, hacc, hp, neg_zero]
  rfl

def FResult.reversed (r : FResult d mp mv R) : FResult d mp mv R :=
  { out := r.out.reversed, rcdP := r.rcdP, rcdV := fun k t i => -r.rcdV k t i
    storeK := fun j c => -r.storeK j c, storeB := r.storeB, events := r.events.map Event.reversed }

/-- Reversing the particle velocities and the velocity sources, the propagator with the opposite time step
gives the same with reversed particle velocities. -/
theorem Cfg.forward_negDt (C : Cfg d np mp nv mv R) (gk gb : Bool) (cb : Option ℕ) (nt : ℕ)
    (fp : ℕ → Fin np → R) (fv : (k : Fin d) → ℕ → Fin (nv k) → R) (w : Init d R) :
    C.negDt.forward gk gb cb nt fp (fun k t i => -fv k t i) w.reversed =
      (C.forward gk gb cb nt fp fv w).map FResult.reversed := by
  have er : C.negDt.ratio = C.ratio := rfl
  unfold Cfg.forward
  simp only [er]
  by_cases h1 : C.ratio = 0
  · simp only [h1, if_true, Except.map]
  by_cases h2 : 0 < nt ∧ cb.getD (nt / C.ratio) = 0
  · simp only [h1, if_false, if_pos h2, Except.map]
  simp only [h1, h2, if_false, Except.map, fInit_reversed]
  by_cases h3 : 0 < nt
  · have hcf : 0 < cb.getD (nt / C.ratio) := Nat.pos_of_ne_zero fun h => h2 ⟨h3, h⟩
    simp only [h3, if_true]
    rw [Driver.driveF_map (φ := FMem.reversed) (ψ := Event.reversed)
      (step := fStep C.fwdArgs gk gb fp fv) (view := fun step m => ⟨step, m.wf⟩)
      (fun t m => fStep_negDt C gk gb fp fv t m) (fun _ _ => rfl) _ _ hcf]
    cases cb <;> rfl
  · simp only [h3, if_false]
    cases cb <;> rfl

end Dw.Acoustic
