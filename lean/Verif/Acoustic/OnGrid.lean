import Verif.Spec.Acoustic
import Verif.Scalar.OnGrid
import Verif.Acoustic.User

/-!
# The acoustic propagator in the coordinates of the models

`OnGrid P C`: the propagator's input `C` has the shape and the profiles of the plan `P`.
-/

namespace Dw.Setup

open Spec

variable {d : ℕ} {P : Plan d}

/-- `x + 1 / 2` is outside the PML in dimension `k`. -/
def Plan.BetweenH (P : Plan d) (k : Fin d) (x : ℤ) : Prop := (P.ext k).1 ≤ x ∧ x + 1 < (P.ext k).2

/-- The number of cells of the arrays on a staggered grid. -/
theorem nStag_eq (P : Plan d) (k : Fin d) :
    P.n true k = (P.ext k).2 - (P.ext k).1 + P.w0 k + P.w1 k + 2 * P.acc.pad - 1 := by
  show paddedShape _ _ _ k = _
  simp only [paddedShape, padBegin, padEnd, fdEnd, if_true, Plan.w0, Plan.w1, Plan.acc]
  ring

theorem grid_mid {k : Fin d} {x : ℝ} (h1 : ((P.ext k).1 : ℝ) ≤ x) (h2 : x ≤ (((P.ext k).2 - 1 : ℤ) : ℝ)) :
    P.grid.a k x = 0 ∧ P.grid.b k x = 0 := by
  have hd : P.grid.depth k x = 0 := by
    unfold Grid.depth
    have e1 : ¬(x < (P.grid.lo k : ℝ) ∧ 0 < P.grid.w0 k) := fun h => absurd h.1 (not_lt.2 h1)
    have e2 : ¬((P.grid.hi k : ℝ) < x ∧ 0 < P.grid.w1 k) := fun h => absurd h.1 (not_lt.2 h2)
    rw [if_neg e1, if_neg e2]
  simp [Grid.a, Grid.b, Grid.sigma, hd]

theorem grid_between {k : Fin d} {x : ℤ} (h : P.Between k x) : P.grid.a k x = 0 ∧ P.grid.b k x = 0 :=
  grid_mid (by exact_mod_cast h.1) (by have := h.2; exact_mod_cast (by omega : x ≤ (P.ext k).2 - 1))

theorem grid_betweenH {k : Fin d} {x : ℤ} (h : P.BetweenH k x) :
    P.grid.a k (x + 1 / 2) = 0 ∧ P.grid.b k (x + 1 / 2) = 0 := by
  have h1 : ((P.ext k).1 : ℝ) ≤ x := by exact_mod_cast h.1
  have h2 : (x : ℝ) + 1 ≤ (((P.ext k).2 - 1 : ℤ) : ℝ) := by
    have := h.2
    exact_mod_cast (by omega : x + 1 ≤ (P.ext k).2 - 1)
  exact grid_mid (by linarith) (by linarith)

end Dw.Setup

namespace Dw.Acoustic

open Setup Resample
open Scalar (PmlOk)

variable {d np mp : ℕ} {nv mv : Fin d → ℕ} {P : Plan d} {C : Cfg d np mp nv mv ℝ}

structure OnGrid (P : Plan d) (C : Cfg d np mp nv mv ℝ) : Prop where
  acc : C.acc = P.acc
  n : C.n = P.n true
  w0 : C.w0 = P.w0
  w1 : C.w1 = P.w1
  dx : C.dx = P.dx
  dt : C.dt = P.dt
  a : C.a = fun k i => ((P.pml true).ab 0 k i).1
  b : C.b = fun k i => (((P.pml true).ab 0 k i).2).getD 0
  ah : C.ah = fun k i => ((P.pml true).ab (1 / 2) k i).1
  bh : C.bh = fun k i => (((P.pml true).ab (1 / 2) k i).2).getD 0

theorem OnGrid.inner (hC : OnGrid P C) (c : Cell d) : C.Inner (P.at c) ↔ P.grid.In c := by
  unfold Cfg.Inner Spec.Grid.In
  refine forall_congr' fun k => ?_
  have hn := nStag_eq P k
  rw [hC.n, hC.acc]
  simp only [Plan.at, Plan.off, Plan.grid]
  omega

theorem OnGrid.innerH (hC : OnGrid P C) (k : Fin d) (c : Cell d) : C.InnerH k (P.at c) ↔ P.grid.InH k c := by
  unfold Cfg.InnerH Spec.Grid.InH
  rw [hC.inner]
  refine and_congr Iff.rfl ?_
  have hn := nStag_eq P k
  rw [hC.n, hC.acc]
  simp only [Plan.at, Plan.off, Plan.grid]
  omega

theorem OnGrid.mid (hC : OnGrid P C) (k : Fin d) (x : ℤ) : C.Mid k (x + P.off k) ↔ P.Between k x := by
  unfold Cfg.Mid Plan.Between
  have hn := nStag_eq P k
  rw [hC.n, hC.acc, hC.w0, hC.w1]
  simp only [Plan.off]
  omega

theorem OnGrid.midH (hC : OnGrid P C) (k : Fin d) (x : ℤ) : C.MidH k (x + P.off k) ↔ P.BetweenH k x := by
  unfold Cfg.MidH Plan.BetweenH
  have hn := nStag_eq P k
  rw [hC.n, hC.acc, hC.w0, hC.w1]
  simp only [Plan.off]
  omega

theorem OnGrid.DH (hC : OnGrid P C) (k : Fin d) (u : Fld d ℝ) (c : Cell d) :
    C.DH k u (P.at c) = P.grid.DH k (fun c => u (P.at c)) c := by
  simp only [Cfg.DH, Spec.Grid.DH, Spec.half1_eq, Dw.DSH, Plan.at_shift, hC.acc, hC.dx]
  rfl

theorem OnGrid.DI (hC : OnGrid P C) (k : Fin d) (u : Fld d ℝ) (c : Cell d) :
    C.DI k u (P.at c) = P.grid.DI k (fun c => u (P.at c)) c := by
  simp only [Cfg.DI, Spec.Grid.DI, Spec.whole1_eq, Dw.DS, Plan.at_shift, hC.acc, hC.dx]
  rfl

section
variable {A : SetupArgs d} (hC : OnGrid P C) (h : A.Good P) (hext : ∀ k, (P.ext k).1 < (P.ext k).2) (hP : PmlOk P)
include hC h hext hP

theorem OnGrid.ab (k : Fin d) (x : ℤ) :
    C.a k (x + P.off k) = P.grid.a k x ∧ C.b k (x + P.off k) = P.grid.b k x := by
  have := ab_grid h hP hext true 0 k x
  rw [hC.a, hC.b]
  simp only [this, zero_add, Option.getD_some, and_self]

theorem OnGrid.abh (k : Fin d) (x : ℤ) :
    C.ah k (x + P.off k) = P.grid.a k (x + 1 / 2) ∧ C.bh k (x + P.off k) = P.grid.b k (x + 1 / 2) := by
  have := ab_grid h hP hext true (1 / 2) k x
  rw [hC.ah, hC.bh]
  simp only [this, Option.getD_some, add_comm (1 / 2 : ℝ), and_self]

/-- The propagator's input is well formed if its locations are within the extents, those of the velocities
before the last half point. -/
theorem OnGrid.wf (hsp : ∀ i c, C.srcP i = some (P.at c) → P.Inside c)
    (hrp : ∀ i c, C.rcvP i = some (P.at c) → P.Inside c)
    (hsv : ∀ k i c, C.srcV k i = some (P.at c) → P.Inside c ∧ c k < P.grid.hi k + P.grid.w1 k)
    (hrv : ∀ k i c, C.rcvV k i = some (P.at c) → P.Inside c ∧ c k < P.grid.hi k + P.grid.w1 k) : C.WF := by
  have hin : ∀ c, P.Inside c → P.grid.In c := fun c hc k => by
    have := hc k
    have := h.widths k
    simp only [Plan.Between, Plan.grid] at *
    omega
  have back := fun c => P.at_sub c
  have bk : ∀ (k : Fin d) (x : ℤ), x = x - P.off k + P.off k := fun k x => by ring
  refine ⟨fun k => ?_, fun k => ?_, fun k => ?_, fun k x hx => ?_, fun k x hx => ?_, fun k x hx => ?_, fun k x hx => ?_,
    fun i c e => ?_, fun k i c e => ?_, fun i c e => ?_, fun k i c e => ?_⟩
  · rw [hC.w0]; exact (h.widths k).1
  · rw [hC.w1]; exact (h.widths k).2
  · have := hext k
    have := nStag_eq P k
    rw [hC.w0, hC.w1, hC.n, hC.acc]
    omega
  · rw [bk k x] at hx ⊢
    rw [(hC.ab h hext hP k _).1, (grid_between ((hC.mid k _).1 hx)).1]
  · rw [bk k x] at hx ⊢
    rw [(hC.ab h hext hP k _).2, (grid_between ((hC.mid k _).1 hx)).2]
  · rw [bk k x] at hx ⊢
    rw [(hC.abh h hext hP k _).1, (grid_betweenH ((hC.midH k _).1 hx)).1]
  · rw [bk k x] at hx ⊢
    rw [(hC.abh h hext hP k _).2, (grid_betweenH ((hC.midH k _).1 hx)).2]
  · rw [← back c] at e ⊢
    exact (hC.inner _).2 (hin _ (hsp i _ e))
  · rw [← back c] at e ⊢
    exact (hC.innerH k _).2 ⟨hin _ (hsv k i _ e).1, (hsv k i _ e).2⟩
  · rw [← back c] at e ⊢
    exact (hC.inner _).2 (hin _ (hrp i _ e))
  · rw [← back c] at e ⊢
    exact (hC.innerH k _).2 ⟨hin _ (hrv k i _ e).1, (hrv k i _ e).2⟩

/-- States of the propagator, step by step, are a solution of the acoustic wave equation. -/
theorem OnGrid.wave (hwf : C.WF) {K : Fld d ℝ} {B : Fin d → Fld d ℝ} {qp : ℕ → Fld d ℝ} {qv : ℕ → Fin d → Fld d ℝ}
    {fp : ℕ → Fin np → ℝ} {fv : (k : Fin d) → ℕ → Fin (nv k) → ℝ} {x : Wavefields d ℝ} (hx : C.Good x)
    (hK : ∀ c, C.K (P.at c) = K c) (hB : ∀ k c, P.grid.InH k c → C.B k (P.at c) = B k c)
    (hqp : ∀ t c, P.grid.In c → Scalar.inject C.srcP (fp t) (P.at c) = P.dt * K c * qp t c)
    (hqv : ∀ t k c, P.grid.InH k c → Scalar.inject (C.srcV k) (fv k t) (P.at c) = P.dt * B k c * qv t k c) :
    P.grid.Acoustic K B qp qv (fun t c => (C.run fp fv x t).p (P.at c)) (fun t k c => (C.run fp fv x t).v k (P.at c))
      (fun t k c => (C.run fp fv x t).phi k (P.at c)) (fun t k c => (C.run fp fv x t).psi k (P.at c)) := by
  have hk : ∀ c k, P.at c k = c k + P.off k := fun _ _ => rfl
  have hab := hC.ab h hext hP
  have habh := hC.abh h hext hP
  have hg := run_good hwf fp fv hx
  have hdt : P.grid.dt = P.dt := rfl
  have hps : ∀ t k c, P.grid.InH k c → C.psi' k (C.run fp fv x t).p ((C.run fp fv x t).psi k) (P.at c) =
      P.grid.b k (c k + 1 / 2) * P.grid.DH k (fun c => (C.run fp fv x t).p (P.at c)) c +
        P.grid.a k (c k + 1 / 2) * (C.run fp fv x t).psi k (P.at c) := fun t k c hc => by
    unfold Cfg.psi'
    rw [if_pos ((hC.innerH k c).2 hc), hk, (habh k _).1, (habh k _).2, hC.DH]
  refine ⟨fun t c => ⟨fun hc => ?_, fun k hc => ?_⟩, fun t k c hc => ?_, fun t k c hc => ?_, fun t k c hc => ?_,
    fun t c hc => ?_⟩
  · have hc' : ¬C.Inner (P.at c) := fun h1 => hc ((hC.inner c).1 h1)
    exact ⟨(hg t).p _ hc', fun k => (hg t).phi k _ hc'⟩
  · have hc' : ¬C.InnerH k (P.at c) := fun h1 => hc ((hC.innerH k c).1 h1)
    exact ⟨(hg t).v k _ hc', (hg t).psi k _ hc'⟩
  · exact hps t k c hc
  · show (C.run fp fv x t).v k (P.at c) - C.dt * C.B k (P.at c) * C.gradP k (C.run fp fv x t) (P.at c) +
      Scalar.inject (C.srcV k) (fv k t) (P.at c) = _
    rw [hqv t k c hc, hB k c hc, hC.dt, hdt]
    unfold Cfg.gradP
    rw [if_pos ((hC.innerH k c).2 hc), hC.DH]
    show _ = _ - P.dt * B k c * (_ + C.psi' k (C.run fp fv x t).p ((C.run fp fv x t).psi k) (P.at c) - _)
    ring
  · show C.phi' k ((C.run fp fv x (t + 1)).v k) ((C.run fp fv x t).phi k) (P.at c) = _
    unfold Cfg.phi'
    rw [if_pos ((hC.inner c).2 hc), hk, (hab k _).1, (hab k _).2, hC.DI, add_comm]
  · show (C.run fp fv x t).p (P.at c) - C.dt * C.K (P.at c) *
      C.divV (C.halfV (fun k => fv k t) (C.run fp fv x t)) (P.at c) + Scalar.inject C.srcP (fp t) (P.at c) = _
    rw [hqp t c hc, hK, hC.dt, hdt]
    unfold Cfg.divV
    rw [if_pos ((hC.inner c).2 hc)]
    have e : ∀ k, C.DI k ((C.halfV (fun k => fv k t) (C.run fp fv x t)).v k) (P.at c) =
        P.grid.DI k (fun c => (C.run fp fv x (t + 1)).v k (P.at c)) c := fun k => hC.DI k _ c
    simp only [e]
    show _ - P.dt * K c * ∑ k, (_ + (C.run fp fv x (t + 1)).phi k (P.at c)) + _ = _
    ring

end

/-! ### Initial and final wavefields -/

theorem OnGrid.given (hC : OnGrid P C) (w : Option (WfT d)) (s : ℕ) (c : Cell d) (hc : P.grid.In c) :
    C.createOrPad (w.map fun w => w.val s) (P.at c) = P.given w s c := by
  cases w with
  | none => rfl
  | some w =>
      simp only [Option.map_some, Cfg.createOrPad, Plan.given]
      rw [if_pos ((hC.inner c).2 hc), hC.acc]
      congr 1
      funext k
      simp only [Plan.at, Plan.off, Plan.index]
      ring

theorem OnGrid.start (hC : OnGrid P C) (w : UWf d) (s : ℕ) (c : Cell d) :
    let x := C.prepare (w.init s)
    (P.grid.In c → x.p (P.at c) = P.given w.p s c ∧ ∀ k,
      (P.Between k (c k) → x.phi k (P.at c) = 0) ∧
      (¬P.Between k (c k) → x.phi k (P.at c) = P.given (w.phi k) s c)) ∧
    ∀ k, P.grid.InH k c → x.v k (P.at c) = P.given (w.v k) s c ∧
      (P.BetweenH k (c k) → x.psi k (P.at c) = 0) ∧
      (¬P.BetweenH k (c k) → x.psi k (P.at c) = P.given (w.psi k) s c) := by
  have hmid : ∀ k, ((C.acc.pad : ℤ) + C.w0 k ≤ P.at c k ∧ P.at c k < C.n k - C.w1 k - (C.acc.pad - 1)) ↔
      P.Between k (c k) := fun k => hC.mid k (c k)
  have hmidH : ∀ k, ((C.acc.pad : ℤ) + C.w0 k ≤ P.at c k ∧ P.at c k < C.n k - C.w1 k - C.acc.pad) ↔
      P.BetweenH k (c k) := fun k => hC.midH k (c k)
  refine ⟨fun hc => ⟨hC.given _ s c hc, fun k => ⟨fun hb => if_pos ((hmid k).2 hb), fun hb => ?_⟩⟩, fun k hc => ?_⟩
  · exact (if_neg fun h1 => hb ((hmid k).1 h1)).trans (hC.given _ s c hc)
  · have hne : ¬P.at c k = C.n k - C.acc.pad := (((hC.innerH k c).2 hc).2).ne
    refine ⟨(if_neg hne).trans (hC.given _ s c hc.1), fun hb => if_pos ((hmidH k).2 hb), fun hb => ?_⟩
    exact (if_neg fun h1 => hb ((hmidH k).1 h1)).trans ((if_neg hne).trans (hC.given _ s c hc.1))

theorem OnGrid.out (hC : OnGrid P C) (x : Wavefields d ℝ) (c : Cell d) :
    (C.unpadAll x).p (P.index c) = x.p (P.at c) ∧ ∀ k, (C.unpadAll x).v k (P.index c) = x.v k (P.at c) ∧
      (C.unpadAll x).phi k (P.index c) = x.phi k (P.at c) ∧ (C.unpadAll x).psi k (P.index c) = x.psi k (P.at c) := by
  have e : (fun k => P.index c k + (C.acc.pad : ℤ)) = P.at c := by
    rw [hC.acc]
    funext k
    simp only [Plan.at, Plan.off, Plan.index]
    ring
  simp only [Cfg.unpadAll, Cfg.unpad, e, and_self, implies_true]

end Dw.Acoustic
