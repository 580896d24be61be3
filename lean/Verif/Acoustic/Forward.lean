import Verif.Acoustic.Model
import Verif.Born.Forward

/-!
# The acoustic forward driver computes a reference recursion
-/

namespace Dw.Acoustic

open Dw.Scalar (Region addTo recordFrom inject sample addTo_eq recordFrom_zero)
open Dw.Born (updStore updRcd)

variable {d np mp : ℕ} {nv mv : Fin d → ℕ} {R : Type*} [Field R]

/-- Velocity points of component `k` that are updated. -/
def Cfg.InnerH (C : Cfg d np mp nv mv R) (k : Fin d) (c : Cell d) : Prop :=
  C.Inner c ∧ c k < C.n k - C.acc.pad

instance (C : Cfg d np mp nv mv R) (k : Fin d) (c : Cell d) : Decidable (C.InnerH k c) :=
  inferInstanceAs (Decidable (_ ∧ _))

/-- Coordinates outside the PML of dimension `k`, for integer and for half points. -/
def Cfg.Mid (C : Cfg d np mp nv mv R) (k : Fin d) (x : ℤ) : Prop :=
  (C.acc.pad : ℤ) + C.w0 k ≤ x ∧ x < C.n k - C.w1 k - (C.acc.pad - 1)

def Cfg.MidH (C : Cfg d np mp nv mv R) (k : Fin d) (x : ℤ) : Prop :=
  (C.acc.pad : ℤ) + C.w0 k ≤ x ∧ x < C.n k - C.w1 k - C.acc.pad

instance (C : Cfg d np mp nv mv R) (k : Fin d) (x : ℤ) : Decidable (C.Mid k x) :=
  inferInstanceAs (Decidable (_ ∧ _))

instance (C : Cfg d np mp nv mv R) (k : Fin d) (x : ℤ) : Decidable (C.MidH k x) :=
  inferInstanceAs (Decidable (_ ∧ _))

/-- What the setup code guarantees. -/
structure Cfg.WF (C : Cfg d np mp nv mv R) : Prop where
  w0_nonneg : ∀ k, 0 ≤ C.w0 k
  w1_nonneg : ∀ k, 0 ≤ C.w1 k
  /-- at least one model cell -/
  size : ∀ k, 2 * (C.acc.pad : ℤ) + C.w0 k + C.w1 k ≤ C.n k
  a_mid : ∀ k x, C.Mid k x → C.a k x = 0
  b_mid : ∀ k x, C.Mid k x → C.b k x = 0
  ah_mid : ∀ k x, C.MidH k x → C.ah k x = 0
  bh_mid : ∀ k x, C.MidH k x → C.bh k x = 0
  srcP_in : ∀ i c, C.srcP i = some c → C.Inner c
  srcV_in : ∀ k i c, C.srcV k i = some c → C.InnerH k c
  rcvP_in : ∀ i c, C.rcvP i = some c → C.Inner c
  rcvV_in : ∀ k i c, C.rcvV k i = some c → C.InnerH k c

/-- Shape of the wavefields between steps. -/
structure Cfg.Good (C : Cfg d np mp nv mv R) (s : Wavefields d R) : Prop where
  p : ∀ c, ¬C.Inner c → s.p c = 0
  v : ∀ k c, ¬C.InnerH k c → s.v k c = 0
  phi : ∀ k c, ¬C.Inner c → s.phi k c = 0
  psi : ∀ k c, ¬C.InnerH k c → s.psi k c = 0
  phi_mid : ∀ k c, C.Mid k (c k) → s.phi k c = 0
  psi_mid : ∀ k c, C.MidH k (c k) → s.psi k c = 0

/-! ### Reference recursion -/

variable (C : Cfg d np mp nv mv R)

/-- Derivatives along dimension `k`: at half points of integer-point values, and conversely. -/
def Cfg.DH (k : Fin d) (u : Fld d R) : Fld d R := DSH C.acc (1 / C.dx k) k u

def Cfg.DI (k : Fin d) (u : Fld d R) : Fld d R := DS C.acc (1 / C.dx k) k u

/-- Memory variable of the pressure derivative. -/
def Cfg.psi' (k : Fin d) (p psi : Fld d R) : Fld d R := fun c =>
  if C.InnerH k c then C.bh k (c k) * C.DH k p c + C.ah k (c k) * psi c else 0

/-- Stretched pressure gradient. -/
def Cfg.gradP (k : Fin d) (s : Wavefields d R) : Fld d R := fun c =>
  if C.InnerH k c then C.DH k s.p c + C.psi' k s.p (s.psi k) c else 0

/-- Memory variable of the velocity derivative. -/
def Cfg.phi' (k : Fin d) (v phi : Fld d R) : Fld d R := fun c =>
  if C.Inner c then C.a k (c k) * phi c + C.b k (c k) * C.DI k v c else 0

/-- Stretched divergence. -/
def Cfg.divV (s : Wavefields d R) : Fld d R := fun c =>
  if C.Inner c then ∑ k, (C.DI k (s.v k) c + C.phi' k (s.v k) (s.phi k) c) else 0

/-- The velocity half of a step. -/
def Cfg.halfV (q : (k : Fin d) → Fin (nv k) → R) (s : Wavefields d R) : Wavefields d R where
  p := s.p
  v := fun k c => s.v k c - C.dt * C.B k c * C.gradP k s c + inject (C.srcV k) (q k) c
  phi := s.phi
  psi := fun k => C.psi' k s.p (s.psi k)

/-- The pressure half of a step. -/
def Cfg.halfP (q : Fin np → R) (s : Wavefields d R) : Wavefields d R where
  p := fun c => s.p c - C.dt * C.K c * C.divV s c + inject C.srcP q c
  v := s.v
  phi := fun k => C.phi' k (s.v k) (s.phi k)
  psi := s.psi

/-- One step. -/
def Cfg.next (qp : Fin np → R) (qv : (k : Fin d) → Fin (nv k) → R) (s : Wavefields d R) :
    Wavefields d R := C.halfP qp (C.halfV qv s)

/-- `n` steps. -/
def Cfg.run (C : Cfg d np mp nv mv R) (fp : ℕ → Fin np → R) (fv : (k : Fin d) → ℕ → Fin (nv k) → R) (s : Wavefields d R) :
    ℕ → Wavefields d R
  | 0 => s
  | n + 1 => C.next (fp n) (fun k => fv k n) (C.run fp fv s n)

variable {C}

theorem inject_out {P : Cell d → Prop} {n : ℕ} {loc : Fin n → Option (Cell d)}
    (h : ∀ i c, loc i = some c → P c) (q : Fin n → R) (c : Cell d) (hc : ¬P c) :
    inject loc q c = 0 := by
  unfold inject
  refine Finset.sum_eq_zero fun i _ => ?_
  rw [if_neg]
  exact fun e => hc (h i c e)

omit [Field R] in
theorem Cfg.InnerH.inner {k : Fin d} {c : Cell d} (h : C.InnerH k c) : C.Inner c := h.1

theorem halfV_good (h : C.WF) (q : (k : Fin d) → Fin (nv k) → R) {s : Wavefields d R}
    (g : C.Good s) : C.Good (C.halfV q s) where
  p := g.p
  v := fun k c hc => by
    simp [Cfg.halfV, g.v k c hc, Cfg.gradP, hc, inject_out (h.srcV_in k) _ c hc]
  phi := g.phi
  psi := fun k c hc => by simp [Cfg.halfV, Cfg.psi', hc]
  phi_mid := g.phi_mid
  psi_mid := fun k c hc => by simp [Cfg.halfV, Cfg.psi', h.ah_mid k _ hc, h.bh_mid k _ hc]

theorem halfP_good (h : C.WF) (q : Fin np → R) {s : Wavefields d R} (g : C.Good s) :
    C.Good (C.halfP q s) where
  p := fun c hc => by
    simp [Cfg.halfP, g.p c hc, Cfg.divV, hc, inject_out h.srcP_in _ c hc]
  v := g.v
  phi := fun k c hc => by simp [Cfg.halfP, Cfg.phi', hc]
  psi := g.psi
  phi_mid := fun k c hc => by simp [Cfg.halfP, Cfg.phi', h.a_mid k _ hc, h.b_mid k _ hc]
  psi_mid := g.psi_mid

theorem next_good (h : C.WF) (qp : Fin np → R) (qv : (k : Fin d) → Fin (nv k) → R)
    {s : Wavefields d R} (g : C.Good s) : C.Good (C.next qp qv s) :=
  halfP_good h _ (halfV_good h _ g)

theorem run_good (h : C.WF) (fp : ℕ → Fin np → R) (fv : (k : Fin d) → ℕ → Fin (nv k) → R)
    {s : Wavefields d R} (g : C.Good s) : ∀ n, C.Good (C.run fp fv s n)
  | 0 => g
  | n + 1 => next_good h _ _ (run_good h fp fv g n)

theorem prepare_good (w : Init d R) : C.Good (C.prepare w) where
  p := fun c hc => by cases hw : w.p <;> simp [Cfg.prepare, Cfg.createOrPad, hw, hc]
  v := fun k c hc => by
    have : ¬C.Inner c ∨ c k = C.n k - C.acc.pad := by
      by_contra hn
      rw [not_or, not_not] at hn
      have := hn.1 k
      exact hc ⟨hn.1, by omega⟩
    rcases this with h | h <;> cases hw : w.v k <;>
      simp [Cfg.prepare, Cfg.zeroEdge, Cfg.createOrPad, hw, h]
  phi := fun k c hc => by
    cases hw : w.phi k <;> simp [Cfg.prepare, Cfg.zeroInterior, Cfg.createOrPad, hw, hc]
  psi := fun k c hc => by
    have : ¬C.Inner c ∨ c k = C.n k - C.acc.pad := by
      by_contra hn
      rw [not_or, not_not] at hn
      have := hn.1 k
      exact hc ⟨hn.1, by omega⟩
    rcases this with h | h <;> cases hw : w.psi k <;>
      simp [Cfg.prepare, Cfg.zeroInterior, Cfg.zeroEdge, Cfg.createOrPad, hw, h]
  phi_mid := fun k c hc => by
    have : (C.acc.pad : ℤ) + C.w0 k ≤ c k ∧ c k < C.n k - C.w1 k - (C.acc.pad - 1) := hc
    simp [Cfg.prepare, Cfg.zeroInterior, this]
  psi_mid := fun k c hc => by
    have : (C.acc.pad : ℤ) + C.w0 k ≤ c k ∧ c k < C.n k - C.w1 k - C.acc.pad := hc
    simp [Cfg.prepare, Cfg.zeroInterior, this]

/-! ### The kernel -/

theorem pad_pos (acc : Acc) : (1 : ℤ) ≤ acc.pad := by cases acc <;> simp [Acc.pad]

omit [Field R] in
theorem bounds_in {A : CArgs d np mp nv mv R} (c : Cell d) : A.bounds.In c ↔ A.toCfg.Inner c := Iff.rfl

omit [Field R] in
theorem boundsV_in {A : CArgs d np mp nv mv R} (k : Fin d) (c : Cell d) :
    (A.boundsV k).In c ↔ A.toCfg.InnerH k c := by
  constructor
  · intro h
    refine ⟨fun j => ?_, ?_⟩
    · have := h j
      simp only [CArgs.boundsV] at this
      split_ifs at this <;> omega
    · have := h k
      simp only [CArgs.boundsV, if_true] at this
      omega
  · rintro ⟨h, h1⟩ j
    have := h j
    simp only [CArgs.boundsV]
    split_ifs with e
    · subst e; omega
    · omega

theorem fwd_ordered (h : C.WF) : C.fwdArgs.bounds.Ordered := by
  intro k
  have h1 := h.w0_nonneg k
  have h2 := h.w1_nonneg k
  have h3 := h.size k
  have h4 := pad_pos C.acc
  simp only [CArgs.bounds, Cfg.fwdArgs]
  omega

theorem fwd_orderedV (h : C.WF) (k : Fin d) : (C.fwdArgs.boundsV k).Ordered := by
  intro j
  have h1 := h.w0_nonneg j
  have h2 := h.w1_nonneg j
  have h3 := h.size j
  have h4 := pad_pos C.acc
  simp only [CArgs.boundsV, Cfg.fwdArgs]
  split_ifs <;> omega

theorem fwd_mid (k : Fin d) (c : Cell d) :
    C.fwdArgs.bounds.regionOf c k = .mid ↔ C.Mid k (c k) := by
  rw [Bounds.regionOf_mid]
  simp only [CArgs.bounds, Cfg.fwdArgs, Cfg.Mid]
  omega

theorem fwd_midH (k : Fin d) (c : Cell d) :
    (C.fwdArgs.boundsV k).regionOf c k = .mid ↔ C.MidH k (c k) := by
  rw [Bounds.regionOf_mid]
  simp only [CArgs.boundsV, Cfg.fwdArgs, Cfg.MidH, if_true]
  omega

/-- What the velocity loops leave in each cell. -/
theorem fold_velBody (h : C.WF) (save : Bool) {s : Wavefields d R} (g : C.Good s)
    (st : Fin d → Fld d R) (k : Fin d) (c : Cell d) :
    foldUpdate (velBody C.fwdArgs save s.p) (regionVisits (List.finRange d) C.fwdArgs.boundsV)
      (fun kc => ⟨s.v kc.1 kc.2, s.psi kc.1 kc.2, st kc.1 kc.2⟩) (k, c) =
    ⟨s.v k c - C.dt * C.B k c * C.gradP k s c, C.psi' k s.p (s.psi k) c,
      if save = true ∧ C.InnerH k c then C.gradP k s c else st k c⟩ := by
  rw [fold_regionVisits (fun k _ => fwd_orderedV h k) (List.nodup_finRange d) _ _ k
    (List.mem_finRange k)]
  have e : (C.fwdArgs.boundsV k).In c ↔ C.InnerH k c := boundsV_in k c
  by_cases hc : C.InnerH k c
  · rw [if_pos (e.2 hc)]
    have hd : (cSH1 C.fwdArgs.acc (C.fwdArgs.rdx k) fun j => s.p (c.shift k j)) = C.DH k s.p c := rfl
    simp only [velBody, hd]
    simp only [fwd_midH, Cfg.gradP, Cfg.psi', hc, if_true, and_true]
    by_cases hm : C.MidH k (c k)
    · simp only [hm, if_true, h.ah_mid k _ hm, h.bh_mid k _ hm, g.psi_mid k c hm]
      simp [Cfg.fwdArgs]
    · simp only [hm, if_false]
      simp [Cfg.fwdArgs]
  · rw [if_neg (fun h => hc (e.1 h))]
    simp [Cfg.gradP, Cfg.psi', hc, g.psi k c hc]

/-- What the pressure loop leaves in each cell. -/
theorem fold_prsBody (h : C.WF) (save : Bool) {s : Wavefields d R} (g : C.Good s)
    (st : Fld d R) (c : Cell d) :
    foldUpdate (prsBody C.fwdArgs save s.v) (regionVisits [()] fun _ => C.fwdArgs.bounds)
      (fun kc => ⟨s.p kc.2, fun k => s.phi k kc.2, st kc.2⟩) ((), c) =
    ⟨s.p c - C.dt * C.K c * C.divV s c, fun k => C.phi' k (s.v k) (s.phi k) c,
      if save = true ∧ C.Inner c then C.divV s c else st c⟩ := by
  rw [fold_regionVisits (fun _ _ => fwd_ordered h) (List.nodup_singleton _) _ _ ()
    (List.mem_singleton_self _)]
  have e : C.fwdArgs.bounds.In c ↔ C.Inner c := Iff.rfl
  by_cases hc : C.Inner c
  · rw [if_pos (e.2 hc)]
    have hd : ∀ k, (cS1 C.fwdArgs.acc (C.fwdArgs.rdx k) fun j => s.v k (c.shift k j)) =
      C.DI k (s.v k) c := fun _ => rfl
    have hphi : ∀ k, (if C.fwdArgs.bounds.regionOf c k = .mid then s.phi k c
        else C.fwdArgs.a k (c k) * s.phi k c + C.fwdArgs.b k (c k) * C.DI k (s.v k) c) =
        C.phi' k (s.v k) (s.phi k) c := by
      intro k
      simp only [fwd_mid, Cfg.phi', hc, if_true]
      by_cases hm : C.Mid k (c k)
      · simp [hm, h.a_mid k _ hm, h.b_mid k _ hm, g.phi_mid k c hm]
      · simp [hm, Cfg.fwdArgs]
    have hdiv : ∀ k, (if C.fwdArgs.bounds.regionOf c k = .mid then C.DI k (s.v k) c
        else C.DI k (s.v k) c + C.phi' k (s.v k) (s.phi k) c) =
        C.DI k (s.v k) c + C.phi' k (s.v k) (s.phi k) c := by
      intro k
      simp only [fwd_mid, Cfg.phi', hc, if_true]
      by_cases hm : C.Mid k (c k)
      · simp [hm, h.a_mid k _ hm, h.b_mid k _ hm]
      · simp [hm]
    simp only [prsBody, hd, hphi, hdiv, Cfg.divV, hc, if_true, and_true]
    simp [Cfg.fwdArgs]
  · rw [if_neg (fun h => hc (e.1 h))]
    simp [Cfg.divV, Cfg.phi', hc, g.phi _ c hc]

/-- Memory after `n` steps. -/
structure FInv (C : Cfg d np mp nv mv R) (gk gb : Bool) (fp : ℕ → Fin np → R)
    (fv : (k : Fin d) → ℕ → Fin (nv k) → R) (s : Wavefields d R) (n : ℕ) (m : FMem d mp mv R) :
    Prop where
  wf : m.wf = C.run fp fv s n
  rcdP : ∀ t, m.rcdP t = if t < n then sample C.rcvP (C.run fp fv s t).p else fun _ => 0
  rcdV : ∀ k t, m.rcdV k t = if t < n then sample (C.rcvV k) ((C.run fp fv s t).v k) else fun _ => 0
  storeK : ∀ j, m.storeK j = if gk = true ∧ j * C.ratio < n then
    C.divV (C.halfV (fun k => fv k (j * C.ratio)) (C.run fp fv s (j * C.ratio))) else fun _ => 0
  storeB : ∀ k j, m.storeB j k = if gb = true ∧ j * C.ratio < n then
    C.gradP k (C.run fp fv s (j * C.ratio)) else fun _ => 0

theorem FInv.step (h : C.WF) (hr : 0 < C.ratio) {gk gb : Bool} {fp : ℕ → Fin np → R}
    {fv : (k : Fin d) → ℕ → Fin (nv k) → R} {s : Wavefields d R} (gs : C.Good s) {n : ℕ}
    {m : FMem d mp mv R} (hi : FInv C gk gb fp fv s n m) :
    FInv C gk gb fp fv s (n + 1) (fStep C.fwdArgs gk gb fp fv n m) := by
  have er : C.fwdArgs.ratio = C.ratio := rfl
  have g : C.Good m.wf := hi.wf ▸ run_good h fp fv gs n
  have g1 : C.Good (C.halfV (fun k => fv k n) m.wf) := halfV_good h _ g
  have hv := fun save => fold_velBody h save g (m.storeB (n / C.ratio))
  have hvv : ∀ save, (fun k => addTo (fun c => (foldUpdate (velBody C.fwdArgs save m.wf.p)
      (regionVisits (List.finRange d) C.fwdArgs.boundsV)
      (fun kc => ⟨m.wf.v kc.1 kc.2, m.wf.psi kc.1 kc.2, m.storeB (n / C.ratio) kc.1 kc.2⟩)
      (k, c)).v) (C.srcV k) (fv k n)) = (C.halfV (fun k => fv k n) m.wf).v := by
    intro save
    funext k c
    rw [addTo_eq, hv]
    rfl
  have hp := fun save => fold_prsBody h save g1 (m.storeK (n / C.ratio))
  set sK := (gk && n % C.ratio == 0) with hsK
  set sB := (gb && n % C.ratio == 0) with hsB
  have hstep : fStep C.fwdArgs gk gb fp fv n m =
      { p := (C.next (fp n) (fun k => fv k n) m.wf).p
        v := (C.next (fp n) (fun k => fv k n) m.wf).v
        phi := (C.next (fp n) (fun k => fv k n) m.wf).phi
        psi := (C.next (fp n) (fun k => fv k n) m.wf).psi
        storeK := if sK then Function.update m.storeK (n / C.ratio) fun c =>
            if sK = true ∧ C.Inner c then C.divV (C.halfV (fun k => fv k n) m.wf) c
            else m.storeK (n / C.ratio) c else m.storeK
        storeB := if sB then Function.update m.storeB (n / C.ratio) fun k c =>
            if sB = true ∧ C.InnerH k c then C.gradP k m.wf c
            else m.storeB (n / C.ratio) k c else m.storeB
        rcdP := Function.update m.rcdP n (recordFrom m.p C.rcvP (m.rcdP n))
        rcdV := fun k => Function.update (m.rcdV k) n
          (recordFrom (m.v k) (C.rcvV k) (m.rcdV k n)) } := by
    have hv1 := hvv sB
    have hv2 := hv sB
    have hp2 := hp sK
    simp only [FMem.wf] at hv1 hv2 hp2
    unfold fStep
    simp only [er, ← hsK, ← hsB]
    have e1 : C.fwdArgs.srcV = C.srcV := rfl
    have e2 : C.fwdArgs.srcP = C.srcP := rfl
    simp only [e1, e2, hv1]
    have hp3 := hp2
    simp only [Cfg.halfV] at hp3
    simp only [Cfg.halfV, hv2, hp3]
    congr 1
    funext c
    rw [addTo_eq]
    rfl
  rw [hstep]
  refine ⟨?_, ?_, ?_, ?_, ?_⟩
  · rw [Cfg.run, ← hi.wf]
    rfl
  · exact updRcd (x := m.p) hi.rcdP (by rw [← hi.wf]; rfl)
  · intro k
    exact updRcd (x := m.v k) (F := fun t => sample (C.rcvV k) ((C.run fp fv s t).v k)) (hi.rcdV k)
      (by rw [← hi.wf]; rfl)
  · refine updStore hr (F := fun j => C.divV (C.halfV (fun k => fv k j) (C.run fp fv s j)))
      hi.storeK ?_ _ hsK
    intro hon
    rw [← hsK] at hon
    funext c
    by_cases hc : C.Inner c
    · simp [hon, hc, ← hi.wf]
    · simp only [Bool.and_eq_true, beq_iff_eq, hsK] at hon
      rw [if_neg (fun h => hc h.2), hi.storeK, if_neg]
      · simp [Cfg.divV, hc]
      · rintro ⟨-, h2⟩
        rw [Nat.div_mul_cancel (Nat.dvd_of_mod_eq_zero hon.2)] at h2
        omega
  · intro k j
    have := updStore hr (st := fun j => m.storeB j k) (F := fun j => C.gradP k (C.run fp fv s j))
      (new := fun c => if sB = true ∧ C.InnerH k c then C.gradP k m.wf c
            else m.storeB (n / C.ratio) k c) (hi.storeB k) ?_ _ hsB j
    · rw [← this]
      by_cases hb : sB = true
      · simp only [hb, if_true, Function.update_apply]
        split_ifs with hj <;> simp
      · simp [hb]
    · intro hon
      rw [← hsB] at hon
      funext c
      by_cases hc : C.InnerH k c
      · simp [hon, hc, ← hi.wf]
      · simp only [Bool.and_eq_true, beq_iff_eq, hsB] at hon
        rw [if_neg (fun h => hc h.2), hi.storeB, if_neg]
        · simp [Cfg.gradP, hc]
        · rintro ⟨-, h2⟩
          rw [Nat.div_mul_cancel (Nat.dvd_of_mod_eq_zero hon.2)] at h2
          omega

/-- The result of the forward driver in terms of the recursion. -/
theorem forward_eq (h : C.WF) (gk gb : Bool) (cb : Option ℕ) (nt : ℕ) (fp : ℕ → Fin np → R)
    (fv : (k : Fin d) → ℕ → Fin (nv k) → R) (w : Init d R) (hr : 0 < C.ratio)
    (hcf : 0 < nt → 0 < cb.getD (nt / C.ratio)) :
    C.forward gk gb cb nt fp fv w = .ok
      (let T := nt / C.ratio * C.ratio
       let s := C.prepare w
       { out := C.unpadAll (C.run fp fv s T)
         rcdP := fun t => if t < T then sample C.rcvP (C.run fp fv s t).p else fun _ => 0
         rcdV := fun k t => if t < T then sample (C.rcvV k) ((C.run fp fv s t).v k) else fun _ => 0
         storeK := fun j => if gk = true ∧ j < nt / C.ratio then
           C.divV (C.halfV (fun k => fv k (j * C.ratio)) (C.run fp fv s (j * C.ratio)))
           else fun _ => 0
         storeB := fun j k => if gb = true ∧ j < nt / C.ratio then
           C.gradP k (C.run fp fv s (j * C.ratio)) else fun _ => 0
         events := match cb with
           | none => []
           | some cf => (List.range ((nt / C.ratio + cf - 1) / cf)).map
               fun i => ⟨i * cf, C.run fp fv s (i * cf * C.ratio)⟩ }) := by
  have hlt : ∀ j, j * C.ratio < nt / C.ratio * C.ratio ↔ j < nt / C.ratio :=
    fun j => Nat.mul_lt_mul_right hr
  have inv : ∀ n, FInv C gk gb fp fv (C.prepare w) n
      (Driver.runF id (fStep C.fwdArgs gk gb fp fv) (C.fInit w) n) :=
    Driver.runF_inv ⟨rfl, fun _ => by simp [Cfg.fInit], fun _ _ => by simp [Cfg.fInit],
      fun _ => by simp [Cfg.fInit], fun _ _ => by simp [Cfg.fInit]⟩
      fun n m hm => hm.step h hr (prepare_good w)
  unfold Cfg.forward
  rw [if_neg hr.ne']
  by_cases hnt : 0 < nt
  · have hc := hcf hnt
    simp only [hnt, true_and, hc.ne', if_false, if_true]
    rw [Driver.driveF_eq (fun _ => rfl) _ _ hc]
    have i1 := inv (nt / C.ratio * C.ratio)
    congr 1
    congr 1
    · rw [i1.wf]
    · funext t; exact i1.rcdP t
    · funext k t; exact i1.rcdV k t
    · funext j; rw [i1.storeK j]; simp only [hlt]
    · funext j k; rw [i1.storeB k j]; simp only [hlt]
    · cases cb with
      | none => simp
      | some cf => simp [(inv _).wf]
  · have h0 : nt = 0 := by omega
    subst h0
    simp only [lt_irrefl, false_and, if_false, Nat.zero_div, Nat.zero_mul, Nat.not_lt_zero,
      and_false]
    congr 1
    congr 1
    cases cb with
    | none => simp
    | some cf =>
        have : (0 + cf - 1) / cf = 0 := by
          rcases Nat.eq_zero_or_pos cf with h | h
          · subst h; simp
          · exact Nat.div_eq_of_lt (by omega)
        simp only [Option.isSome_some, if_true]
        rw [this]; rfl

end Dw.Acoustic
