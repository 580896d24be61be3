import Verif.Acoustic.Forward
import Verif.Born.Backward

/-!
# The acoustic backward driver computes a reference recursion
-/

namespace Dw.Acoustic

open Dw.Scalar (Region addTo recordFrom inject sample addTo_eq recordFrom_zero)
open Dw.Born (updGf)

variable {d np mp : ℕ} {nv mv : Fin d → ℕ} {R : Type*} [Field R]

/-- The velocity half of a backward step (adjoint of `halfP`). -/
def Cfg.bHalfV (C : Cfg d np mp nv mv R) (l : Wavefields d R) : Wavefields d R where
  p := l.p
  v := fun k c => if C.InnerH k c then l.v k c - C.DH k (fun c => C.b k (c k) * l.phi k c
      - C.dt * (1 + C.b k (c k)) * C.K c * l.p c) c else 0
  phi := fun k c => if C.Inner c then C.a k (c k) * l.phi k c - C.dt * C.K c * C.a k (c k) * l.p c
    else 0
  psi := l.psi

/-- The pressure half of a backward step (adjoint of `halfV`). -/
def Cfg.bHalfP (C : Cfg d np mp nv mv R) (l : Wavefields d R) : Wavefields d R where
  p := fun c => if C.Inner c then l.p c - ∑ k, C.DI k (fun c => C.bh k (c k) * l.psi k c
      - C.dt * (1 + C.bh k (c k)) * C.B k c * l.v k c) c else 0
  v := l.v
  phi := l.phi
  psi := fun k c => if C.InnerH k c then C.ah k (c k) * l.psi k c
    - C.dt * C.B k c * C.ah k (c k) * l.v k c else 0

/-- Adding the receiver gradients. -/
def Cfg.bAdd (C : Cfg d np mp nv mv R) (qp : Fin mp → R) (qv : (k : Fin d) → Fin (mv k) → R)
    (l : Wavefields d R) : Wavefields d R :=
  { l with
    p := fun c => l.p c + inject C.rcvP qp c
    v := fun k c => l.v k c + inject (C.rcvV k) (qv k) c }

/-- One backward step. -/
def Cfg.bNext (C : Cfg d np mp nv mv R) (qp : Fin mp → R) (qv : (k : Fin d) → Fin (mv k) → R)
    (l : Wavefields d R) : Wavefields d R := C.bAdd qp qv (C.bHalfP (C.bHalfV l))

/-- Backward steps `T-1, …, T-n`. -/
def Cfg.bRun (C : Cfg d np mp nv mv R) (grP : ℕ → Fin mp → R)
    (grV : (k : Fin d) → ℕ → Fin (mv k) → R) (T : ℕ) (l : Wavefields d R) : ℕ → Wavefields d R
  | 0 => l
  | n + 1 => C.bNext (grP (T - 1 - n)) (fun k => grV k (T - 1 - n)) (C.bRun grP grV T l n)

variable {C : Cfg d np mp nv mv R}

theorem bHalfV_good (h : C.WF) {l : Wavefields d R} (g : C.Good l) : C.Good (C.bHalfV l) where
  p := g.p
  v := fun k c hc => by simp [Cfg.bHalfV, hc]
  phi := fun k c hc => by simp [Cfg.bHalfV, hc]
  psi := g.psi
  phi_mid := fun k c hc => by simp [Cfg.bHalfV, h.a_mid k _ hc]
  psi_mid := g.psi_mid

theorem bHalfP_good (h : C.WF) {l : Wavefields d R} (g : C.Good l) : C.Good (C.bHalfP l) where
  p := fun c hc => by simp [Cfg.bHalfP, hc]
  v := g.v
  phi := g.phi
  psi := fun k c hc => by simp [Cfg.bHalfP, hc]
  phi_mid := g.phi_mid
  psi_mid := fun k c hc => by simp [Cfg.bHalfP, h.ah_mid k _ hc]

theorem bAdd_good (h : C.WF) (qp : Fin mp → R) (qv : (k : Fin d) → Fin (mv k) → R)
    {l : Wavefields d R} (g : C.Good l) : C.Good (C.bAdd qp qv l) where
  p := fun c hc => by simp [Cfg.bAdd, g.p c hc, inject_out h.rcvP_in _ c hc]
  v := fun k c hc => by simp [Cfg.bAdd, g.v k c hc, inject_out (h.rcvV_in k) _ c hc]
  phi := g.phi
  psi := g.psi
  phi_mid := g.phi_mid
  psi_mid := g.psi_mid

theorem bNext_good (h : C.WF) (qp : Fin mp → R) (qv : (k : Fin d) → Fin (mv k) → R)
    {l : Wavefields d R} (g : C.Good l) : C.Good (C.bNext qp qv l) :=
  bAdd_good h _ _ (bHalfP_good h (bHalfV_good h g))

theorem bRun_good (h : C.WF) (grP : ℕ → Fin mp → R) (grV : (k : Fin d) → ℕ → Fin (mv k) → R) (T : ℕ)
    {l : Wavefields d R} (g : C.Good l) : ∀ n, C.Good (C.bRun grP grV T l n)
  | 0 => g
  | n + 1 => bNext_good h _ _ (bRun_good h grP grV T g n)

/-- The model and the trailing PML together are wider than the finite-difference pad.  Otherwise the
velocity loops of the backward kernel run over the edge. -/
def Cfg.Big (C : Cfg d np mp nv mv R) : Prop := ∀ k, C.w0 k + 3 * (C.acc.pad : ℤ) ≤ C.n k

theorem bwd_ordered (h : C.WF) : C.bwdArgs.bounds.Ordered := by
  intro k
  have h1 := h.w0_nonneg k
  have h2 := h.w1_nonneg k
  have h3 := h.size k
  have h4 := pad_pos C.acc
  simp only [CArgs.bounds, Cfg.bwdArgs]
  omega

theorem bwd_orderedV (h : C.WF) (hb : C.Big) (k : Fin d) : (C.bwdArgs.boundsV k).Ordered := by
  intro j
  have h1 := h.w0_nonneg j
  have h2 := h.w1_nonneg j
  have h3 := h.size j
  have h4 := pad_pos C.acc
  have h5 := hb j
  simp only [CArgs.boundsV, Cfg.bwdArgs]
  split_ifs <;> omega

theorem bwd_mid (h : C.WF) {k : Fin d} {c : Cell d} (hm : C.bwdArgs.bounds.regionOf c k = .mid)
    {j : ℤ} (h1 : -C.acc.pad ≤ j) (h2 : j ≤ C.acc.pad - 1) : C.MidH k (c k + j) := by
  rw [Bounds.regionOf_mid] at hm
  have h3 := h.w1_nonneg k
  have h4 := pad_pos C.acc
  simp only [CArgs.bounds, Cfg.bwdArgs] at hm
  simp only [Cfg.MidH]
  omega

theorem bwd_mid' (h : C.WF) {k : Fin d} {c : Cell d} (hm : C.bwdArgs.bounds.regionOf c k = .mid) :
    C.Mid k (c k) := by
  have h4 := pad_pos C.acc
  have := bwd_mid h hm (j := 0) (by omega) (by omega)
  simp only [Cfg.MidH, Cfg.Mid] at *
  omega

theorem bwd_midH (h : C.WF) {k : Fin d} {c : Cell d}
    (hm : (C.bwdArgs.boundsV k).regionOf c k = .mid)
    {j : ℤ} (h1 : 1 - C.acc.pad ≤ j) (h2 : j ≤ C.acc.pad) : C.Mid k (c k + j) := by
  rw [Bounds.regionOf_mid] at hm
  have h3 := h.w1_nonneg k
  have h4 := pad_pos C.acc
  simp only [CArgs.boundsV, Cfg.bwdArgs, if_true] at hm
  simp only [Cfg.Mid]
  omega

/-- What the velocity loops of the backward kernel leave in each cell. -/
theorem fold_bVelBody (h : C.WF) (hb : C.Big) (load : Bool) {l : Wavefields d R} (g : C.Good l)
    (st gB psin : Fin d → Fld d R) (hpn : ∀ k c, ¬C.InnerH k c → psin k c = 0) (k : Fin d)
    (c : Cell d) :
    foldUpdate (bVelBody C.bwdArgs load st l.p l.phi l.psi)
      (regionVisits (List.finRange d) C.bwdArgs.boundsV)
      (fun kc => ⟨l.v kc.1 kc.2, psin kc.1 kc.2, gB kc.1 kc.2⟩) (k, c) =
    ⟨(C.bHalfV l).v k c, (C.bHalfP (C.bHalfV l)).psi k c,
      gB k c - if load = true ∧ C.InnerH k c then
        C.dt * (C.bHalfV l).v k c * st k c * (C.ratio : R) else 0⟩ := by
  rw [fold_regionVisits (fun k _ => bwd_orderedV h hb k) (List.nodup_finRange d) _ _ k
    (List.mem_finRange k)]
  have e : (C.bwdArgs.boundsV k).In c ↔ C.InnerH k c := boundsV_in k c
  by_cases hc : C.InnerH k c
  · rw [if_pos (e.2 hc)]
    have hd : (if (C.bwdArgs.boundsV k).regionOf c k = .mid then
          -cSH1 C.acc (1 / C.dx k) (fun j : ℤ => -C.dt * C.K (c.shift k j) * l.p (c.shift k j))
        else -cSH1 C.acc (1 / C.dx k) (fun j : ℤ => C.b k (c k + j) * l.phi k (c.shift k j)
          - C.dt * (1 + C.b k (c k + j)) * C.K (c.shift k j) * l.p (c.shift k j))) =
        -C.DH k (fun c => C.b k (c k) * l.phi k c - C.dt * (1 + C.b k (c k)) * C.K c * l.p c) c := by
      have e1 : ∀ j : ℤ, (c.shift k j) k = c k + j := fun j => by simp [Cell.shift]
      simp only [Cfg.DH, DSH, e1]
      split_ifs with hm
      · congr 1
        refine cSH1_congr _ _ fun j h1 h2 => ?_
        rw [h.b_mid k _ (bwd_midH h hm h1 h2)]
        ring
      · rfl
    have hv : l.v k c + (if (C.bwdArgs.boundsV k).regionOf c k = .mid then
          -cSH1 C.acc (1 / C.dx k) (fun j : ℤ => -C.dt * C.K (c.shift k j) * l.p (c.shift k j))
        else -cSH1 C.acc (1 / C.dx k) (fun j : ℤ => C.b k (c k + j) * l.phi k (c.shift k j)
          - C.dt * (1 + C.b k (c k + j)) * C.K (c.shift k j) * l.p (c.shift k j))) =
        (C.bHalfV l).v k c := by
      rw [hd]
      simp only [Cfg.bHalfV, hc, if_true]
      ring
    simp only [bVelBody]
    simp only [Cfg.bwdArgs] at hv ⊢
    simp only [hv]
    simp only [BVCell.mk.injEq, true_and]
    refine ⟨?_, ?_⟩
    · simp only [Cfg.bHalfP, hc, if_true]
      rfl
    · simp only [hc, and_true]
      split_ifs <;> simp
  · rw [if_neg (fun h => hc (e.1 h))]
    simp [Cfg.bHalfV, Cfg.bHalfP, hc, g.v k c hc, hpn k c hc]

/-- What the pressure loop of the backward kernel leaves in each cell. -/
theorem fold_bPrsBody (h : C.WF) (load : Bool) {l : Wavefields d R} (g : C.Good l)
    (st gK : Fld d R) (c : Cell d) :
    foldUpdate (bPrsBody C.bwdArgs load st (C.bHalfV l).v l.psi)
      (regionVisits [()] fun _ => C.bwdArgs.bounds)
      (fun kc => ⟨l.p kc.2, fun k => l.phi k kc.2, gK kc.2⟩) ((), c) =
    ⟨(C.bHalfP (C.bHalfV l)).p c, fun k => (C.bHalfV l).phi k c,
      gK c - if load = true ∧ C.Inner c then C.dt * l.p c * st c * (C.ratio : R) else 0⟩ := by
  rw [fold_regionVisits (fun _ _ => bwd_ordered h) (List.nodup_singleton _) _ _ ()
    (List.mem_singleton_self _)]
  have e : C.bwdArgs.bounds.In c ↔ C.Inner c := Iff.rfl
  by_cases hc : C.Inner c
  · rw [if_pos (e.2 hc)]
    have hd : ∀ k, (if C.bwdArgs.bounds.regionOf c k = .mid then
          -cS1 C.acc (1 / C.dx k) (fun j : ℤ =>
            -C.dt * C.B k (c.shift k j) * (C.bHalfV l).v k (c.shift k j))
        else -cS1 C.acc (1 / C.dx k) (fun j : ℤ => C.bh k (c k + j) * l.psi k (c.shift k j)
          - C.dt * (1 + C.bh k (c k + j)) * C.B k (c.shift k j) * (C.bHalfV l).v k (c.shift k j))) =
        -C.DI k (fun c => C.bh k (c k) * l.psi k c
          - C.dt * (1 + C.bh k (c k)) * C.B k c * (C.bHalfV l).v k c) c := by
      intro k
      have e1 : ∀ j : ℤ, (c.shift k j) k = c k + j := fun j => by simp [Cell.shift]
      simp only [Cfg.DI, DS, e1]
      split_ifs with hm
      · congr 1
        refine cS1_congr _ _ fun j h1 h2 => ?_
        rw [h.bh_mid k _ (bwd_mid h hm h1 h2)]
        ring
      · rfl
    simp only [bPrsBody]
    simp only [Cfg.bwdArgs] at hd ⊢
    simp only [hd]
    simp only [BPCell.mk.injEq]
    refine ⟨?_, ?_, ?_⟩
    · simp only [Cfg.bHalfP, hc, if_true, Finset.sum_neg_distrib, sub_eq_add_neg]
      rfl
    · funext k
      simp only [Cfg.bHalfV, hc, if_true]
      by_cases hm : C.bwdArgs.bounds.regionOf c k = .mid
      · have hm' := bwd_mid' h hm
        refine (if_pos hm).trans ?_
        rw [g.phi_mid k c hm', h.a_mid k _ hm']
        ring
      · exact if_neg hm
    · simp only [hc, and_true]
      split_ifs <;> simp
  · rw [if_neg (fun h => hc (e.1 h))]
    simp [Cfg.bHalfV, Cfg.bHalfP, hc, g.p c hc, g.phi _ c hc]

/-- Contribution of backward step `n` to the gradient of the bulk modulus. -/
def gKAt (C : Cfg d np mp nv mv R) (gk : Bool) (storeK : ℕ → Fld d R) (grP : ℕ → Fin mp → R)
    (grV : (k : Fin d) → ℕ → Fin (mv k) → R) (T : ℕ) (l : Wavefields d R) (n : ℕ) : Fld d R := fun c =>
  if (gk && (T - 1 - n) % C.ratio == 0) = true ∧ C.Inner c then
    C.dt * (C.bRun grP grV T l n).p c * storeK ((T - 1 - n) / C.ratio) c * (C.ratio : R) else 0

/-- Contribution of backward step `n` to the gradient of the buoyancy. -/
def gBAt (C : Cfg d np mp nv mv R) (gb : Bool) (storeB : ℕ → Fin d → Fld d R) (grP : ℕ → Fin mp → R)
    (grV : (k : Fin d) → ℕ → Fin (mv k) → R) (T : ℕ) (l : Wavefields d R) (n : ℕ) (k : Fin d) :
    Fld d R := fun c =>
  if (gb && (T - 1 - n) % C.ratio == 0) = true ∧ C.InnerH k c then
    C.dt * (C.bHalfV (C.bRun grP grV T l n)).v k c * storeB ((T - 1 - n) / C.ratio) k c
      * (C.ratio : R) else 0

/-- Memory after `n` backward steps. -/
structure BInv (C : Cfg d np mp nv mv R) (gk gb : Bool) (storeK : ℕ → Fld d R)
    (storeB : ℕ → Fin d → Fld d R) (grP : ℕ → Fin mp → R) (grV : (k : Fin d) → ℕ → Fin (mv k) → R)
    (T : ℕ) (l : Wavefields d R) (n : ℕ) (m : BMem d np nv R) : Prop where
  wf : m.wf = C.bRun grP grV T l n
  psin : ∀ k c, ¬C.InnerH k c → m.psin k c = 0
  gfP : ∀ t, m.gfP t = if t < T ∧ T ≤ t + n then
    sample C.srcP (C.bRun grP grV T l (T - 1 - t)).p else fun _ => 0
  gfV : ∀ k t, m.gfV k t = if t < T ∧ T ≤ t + n then
    sample (C.srcV k) ((C.bHalfV (C.bRun grP grV T l (T - 1 - t))).v k) else fun _ => 0
  gK : ∀ c, m.gK c = -∑ i ∈ Finset.range n, gKAt C gk storeK grP grV T l i c
  gB : ∀ k c, m.gB k c = -∑ i ∈ Finset.range n, gBAt C gb storeB grP grV T l i k c

theorem BInv.step (h : C.WF) (hb : C.Big) {gk gb : Bool} {storeK : ℕ → Fld d R}
    {storeB : ℕ → Fin d → Fld d R} {grP : ℕ → Fin mp → R} {grV : (k : Fin d) → ℕ → Fin (mv k) → R}
    {T : ℕ} {l : Wavefields d R} (gl : C.Good l) {n : ℕ} {m : BMem d np nv R} (hn : n < T)
    (hi : BInv C gk gb storeK storeB grP grV T l n m) :
    BInv C gk gb storeK storeB grP grV T l (n + 1)
      (bStepC C.bwdArgs gk gb storeK storeB grP grV (T - 1 - n) m).swap := by
  have er : C.bwdArgs.ratio = C.ratio := rfl
  have g : C.Good m.wf := hi.wf ▸ bRun_good h grP grV T gl n
  have hv := fun load st => fold_bVelBody h hb load g st m.gB m.psin hi.psin
  have hp := fun load st => fold_bPrsBody h load g st m.gK
  have e2 : T - 1 - (T - 1 - n) = n := by omega
  have hstep : bStepC C.bwdArgs gk gb storeK storeB grP grV (T - 1 - n) m =
      { p := (C.bNext (grP (T - 1 - n)) (fun k => grV k (T - 1 - n)) m.wf).p
        v := (C.bNext (grP (T - 1 - n)) (fun k => grV k (T - 1 - n)) m.wf).v
        phi := (C.bNext (grP (T - 1 - n)) (fun k => grV k (T - 1 - n)) m.wf).phi
        psi := m.psi
        psin := (C.bNext (grP (T - 1 - n)) (fun k => grV k (T - 1 - n)) m.wf).psi
        gfP := Function.update m.gfP (T - 1 - n) (recordFrom m.p C.srcP (m.gfP (T - 1 - n)))
        gfV := fun k => Function.update (m.gfV k) (T - 1 - n)
          (recordFrom ((C.bHalfV m.wf).v k) (C.srcV k) (m.gfV k (T - 1 - n)))
        gK := fun c => m.gK c - if (gk && (T - 1 - n) % C.ratio == 0) = true ∧ C.Inner c then
          C.dt * m.p c * storeK ((T - 1 - n) / C.ratio) c * (C.ratio : R) else 0
        gB := fun k c => m.gB k c - if (gb && (T - 1 - n) % C.ratio == 0) = true ∧ C.InnerH k c then
          C.dt * (C.bHalfV m.wf).v k c * storeB ((T - 1 - n) / C.ratio) k c * (C.ratio : R)
          else 0 } := by
    have hv2 := hv (gb && (T - 1 - n) % C.ratio == 0) (storeB ((T - 1 - n) / C.ratio))
    have hp2 := hp (gk && (T - 1 - n) % C.ratio == 0) (storeK ((T - 1 - n) / C.ratio))
    simp only [BMem.wf] at hv2 hp2
    unfold bStepC
    simp only [er, hv2]
    have e1 : C.bwdArgs.srcV = C.srcV := rfl
    have e3 : C.bwdArgs.rcvP = C.rcvP := rfl
    have e4 : C.bwdArgs.rcvV = C.rcvV := rfl
    have e5 : C.bwdArgs.srcP = C.srcP := rfl
    simp only [e1, e3, e4, e5, BMem.wf, hp2]
    congr 1
    · funext c; rw [addTo_eq]; rfl
    · funext k c; rw [addTo_eq]; rfl
  rw [hstep]
  refine ⟨?_, ?_, ?_, ?_, ?_, ?_⟩
  · rw [Cfg.bRun, ← hi.wf]
    rfl
  · exact g.psi
  · exact updGf (x := m.p) hn hi.gfP (by rw [e2, ← hi.wf]; rfl)
  · intro k
    exact updGf (x := (C.bHalfV m.wf).v k) (F := fun t => sample (C.srcV k)
      ((C.bHalfV (C.bRun grP grV T l (T - 1 - t))).v k)) hn (hi.gfV k) (by rw [e2, ← hi.wf])
  · intro c
    rw [Finset.sum_range_succ, neg_add, ← hi.gK c]
    simp only [BMem.swap, gKAt, ← hi.wf, BMem.wf, sub_eq_add_neg]
  · intro k c
    rw [Finset.sum_range_succ, neg_add, ← hi.gB k c]
    simp only [BMem.swap, gBAt, ← hi.wf, sub_eq_add_neg]

omit [Field R] in
theorem BMem.swap_swap (m : BMem d np nv R) : m.swap.swap = m := rfl

/-- What a backward callback sees after `n` outer steps have been undone. -/
def bEventAt (C : Cfg d np mp nv mv R) (gk gb : Bool) (storeK : ℕ → Fld d R)
    (storeB : ℕ → Fin d → Fld d R) (grP : ℕ → Fin mp → R) (grV : (k : Fin d) → ℕ → Fin (mv k) → R)
    (N : ℕ) (l : Wavefields d R) (n : ℕ) : BEvent d R :=
  let T := N * C.ratio
  ⟨N - n, C.bRun grP grV T l (n * C.ratio),
    fun c => -∑ i ∈ Finset.range (n * C.ratio), gKAt C gk storeK grP grV T l i c,
    fun k c => -∑ i ∈ Finset.range (n * C.ratio), gBAt C gb storeB grP grV T l i k c⟩

/-- The result of the backward driver in terms of the recursion. -/
theorem backward_eq (h : C.WF) (hb : C.Big) (gk gb : Bool) (cb : Option ℕ) (nt : ℕ)
    (storeK : ℕ → Fld d R) (storeB : ℕ → Fin d → Fld d R) (grP : ℕ → Fin mp → R)
    (grV : (k : Fin d) → ℕ → Fin (mv k) → R) (g : Init d R) (hr : 0 < C.ratio)
    (hcf : 0 < nt → 0 < cb.getD (nt / C.ratio)) :
    C.backward gk gb cb nt storeK storeB grP grV g = .ok
      (let T := nt / C.ratio * C.ratio
       let l := C.prepare g
       { out := C.unpadAll (C.bRun grP grV T l T)
         gfP := fun t => if t < T then sample C.srcP (C.bRun grP grV T l (T - 1 - t)).p
           else fun _ => 0
         gfV := fun k t => if t < T then
           sample (C.srcV k) ((C.bHalfV (C.bRun grP grV T l (T - 1 - t))).v k) else fun _ => 0
         gK := fun c => -∑ i ∈ Finset.range T, gKAt C gk storeK grP grV T l i c
         gB := fun k c => -∑ i ∈ Finset.range T, gBAt C gb storeB grP grV T l i k c
         events := match cb with
           | none => []
           | some cf => (List.range ((nt / C.ratio + cf - 1) / cf)).map fun i =>
               bEventAt C gk gb storeK storeB grP grV (nt / C.ratio) l
                 (min (nt / C.ratio) ((i + 1) * cf)) }) := by
  have inv : ∀ T n, n ≤ T → BInv C gk gb storeK storeB grP grV T (C.prepare g) n
      (Driver.runB BMem.swap (bStepC C.bwdArgs gk gb storeK storeB grP grV) T (C.bInit g) n) :=
    fun T => Driver.runB_inv ⟨rfl, fun _ _ _ => rfl, fun t => by rw [if_neg (by omega)]; rfl,
      fun k t => by rw [if_neg (by omega)]; rfl, fun _ => by simp [Cfg.bInit],
      fun _ _ => by simp [Cfg.bInit]⟩ fun n m hn hm => hm.step h hb (prepare_good g) hn
  have ev : ∀ N n, n ≤ N → (fun (step : ℕ) (m : BMem d np nv R) =>
        (⟨step, m.wf, m.gK, m.gB⟩ : BEvent d R)) (N - n) (Driver.runB BMem.swap
        (bStepC C.bwdArgs gk gb storeK storeB grP grV) (N * C.ratio) (C.bInit g) (n * C.ratio)) =
      bEventAt C gk gb storeK storeB grP grV N (C.prepare g) n := by
    intro N n hn
    have i1 := inv (N * C.ratio) (n * C.ratio) (Nat.mul_le_mul_right _ hn)
    have g1 := funext i1.gK
    have g2 := funext fun k => funext (i1.gB k)
    simp only [bEventAt, i1.wf, ← g1, ← g2]
  unfold Cfg.backward
  rw [if_neg hr.ne']
  by_cases hnt : 0 < nt
  · have hc := hcf hnt
    simp only [hnt, true_and, hc.ne', if_false, if_true]
    rw [Driver.driveB_eq BMem.swap_swap _ _ hc]
    have i1 := inv (nt / C.ratio * C.ratio) _ le_rfl
    congr 1
    congr 1
    · rw [i1.wf]
    · funext t
      rw [i1.gfP t]
      congr 1
      simp only [eq_iff_iff, and_iff_left_iff_imp]
      omega
    · funext k t
      rw [i1.gfV k t]
      congr 1
      simp only [eq_iff_iff, and_iff_left_iff_imp]
      omega
    · funext c; exact i1.gK c
    · funext k c; exact i1.gB k c
    · cases cb with
      | none => simp
      | some cf =>
          simp only [Option.isSome_some, if_true, Option.getD_some]
          refine List.map_congr_left fun i _ => ?_
          exact ev _ _ (Nat.min_le_left _ _)
  · have h0 : nt = 0 := by omega
    subst h0
    simp only [lt_irrefl, false_and, if_false, Nat.zero_div, Nat.zero_mul, Nat.not_lt_zero]
    congr 1
    have hz : C.bInit g = (⟨(C.prepare g).p, (C.prepare g).v, (C.prepare g).phi, (C.prepare g).psi,
      fun _ _ => 0, fun _ _ => 0, fun _ _ _ => 0, fun _ => 0, fun _ _ => 0⟩ : BMem d np nv R) := rfl
    rw [hz]
    simp only [Finset.range_zero, Finset.sum_empty, neg_zero]
    congr 1
    cases cb with
    | none => simp
    | some cf =>
        have : (0 + cf - 1) / cf = 0 := by
          rcases Nat.eq_zero_or_pos cf with h | h
          · subst h; simp
          · exact Nat.div_eq_of_lt (by omega)
        simp only [Option.isSome_some, if_true]
        rw [this]; rfl

end Dw.Acoustic
