import Verif.Spec.Elastic
import Verif.Acoustic.OnGrid
import Verif.Elastic.User

/-!
# The elastic propagator in the coordinates of the models
-/

namespace Dw.Setup

variable {d : ℕ}

/-- A point in (`h = false`) or after cell `x` is outside the PML in dimension `k`. -/
def Plan.BetweenAt (P : Plan d) (h : Bool) (k : Fin d) (x : ℤ) : Prop :=
  (P.ext k).1 ≤ x ∧ x + (if h then 1 else 0) < (P.ext k).2

theorem grid_betweenAt {P : Plan d} {h : Bool} {k : Fin d} {x : ℤ} (hb : P.BetweenAt h k x) :
    P.grid.a k (Spec.point h x) = 0 ∧ P.grid.b k (Spec.point h x) = 0 := by
  cases h with
  | true => exact grid_betweenH hb
  | false => exact grid_between ⟨hb.1, by simpa using hb.2⟩

end Dw.Setup

namespace Dw.Elastic

open Setup Resample
open Scalar (PmlOk)

variable {d np mp : ℕ} {nv mv : Fin d → ℕ} {P : Plan d} {C : Cfg d np mp nv mv ℝ}

structure OnGrid (P : Plan d) (C : Cfg d np mp nv mv ℝ) : Prop where
  acc : C.acc = P.acc
  n : C.n = P.n true
  w0 : C.w0 = P.w0
  w1 : C.w1 = P.w1
  dx : C.dx = P.dx
  dt : C.dt = P.dt
  a : C.a = fun k i => ((P.pml true).ab 0 k i).1
  b : C.b = fun k i => (((P.pml true).ab 0 k i).2).getD 0
  ah : C.ah = fun k i => ((P.pml true).ab (1 / 2) k i).1
  bh : C.bh = fun k i => (((P.pml true).ab (1 / 2) k i).2).getD 0

theorem atV_eq (i : Fin d) : Spec.atV i = vLoc i := rfl

theorem atS_eq (i j : Fin d) : Spec.atS i j = sLoc i j := by
  funext k
  simp only [Spec.atS, sLoc]
  by_cases h1 : k = i <;> by_cases h2 : k = j <;> by_cases h3 : i = j <;> simp_all

theorem OnGrid.inner (hC : OnGrid P C) (c : Cell d) : C.Inner (P.at c) ↔ P.grid.In c := by
  unfold Cfg.Inner Spec.Grid.In
  refine forall_congr' fun k => ?_
  have hn := nStag_eq P k
  rw [hC.n, hC.acc]
  simp only [Plan.at, Plan.off, Plan.grid]
  omega

theorem OnGrid.innerAt (hC : OnGrid P C) (L : Loc d) (c : Cell d) : C.InnerAt L (P.at c) ↔ P.grid.InAt L c := by
  unfold Cfg.InnerAt Spec.Grid.InAt
  rw [hC.inner]
  refine and_congr Iff.rfl (forall_congr' fun k => imp_congr Iff.rfl ?_)
  have hn := nStag_eq P k
  rw [hC.n, hC.acc]
  simp only [Plan.at, Plan.off, Plan.grid]
  omega

theorem OnGrid.midAt (hC : OnGrid P C) (h : Bool) (k : Fin d) (x : ℤ) :
    C.MidAt h k (x + P.off k) ↔ P.BetweenAt h k x := by
  unfold Cfg.MidAt Plan.BetweenAt
  have hn := nStag_eq P k
  rw [hC.n, hC.acc, hC.w0, hC.w1]
  simp only [Plan.off]
  split_ifs <;> omega

theorem OnGrid.D (hC : OnGrid P C) (h : Bool) (k : Fin d) (u : Fld d ℝ) (c : Cell d) :
    C.D h k u (P.at c) = P.grid.D h k (fun c => u (P.at c)) c := by
  cases h
  · simp only [Cfg.D, cD, Spec.Grid.D, Bool.false_eq_true, if_false, Spec.Grid.DI, Spec.whole1_eq, Plan.at_shift,
      hC.acc, hC.dx]
    rfl
  · simp only [Cfg.D, cD, Spec.Grid.D, if_true, Spec.Grid.DH, Spec.half1_eq, Plan.at_shift, hC.acc, hC.dx]
    rfl

section
variable {A : SetupArgs d} (hC : OnGrid P C) (h : A.Good P) (hext : ∀ k, (P.ext k).1 < (P.ext k).2) (hP : PmlOk P)
include hC h hext hP

theorem OnGrid.pab (hb : Bool) (k : Fin d) (x : ℤ) : C.pa hb k (x + P.off k) = P.grid.a k (Spec.point hb x) ∧
    C.pb hb k (x + P.off k) = P.grid.b k (Spec.point hb x) := by
  unfold Cfg.pa Cfg.pb Spec.point
  cases hb
  · have := ab_grid h hP hext true 0 k x
    rw [hC.a, hC.b]
    simp only [Bool.false_eq_true, if_false, this, zero_add, Option.getD_some, and_self]
  · have := ab_grid h hP hext true (1 / 2) k x
    rw [hC.ah, hC.bh]
    simp only [if_true, this, Option.getD_some, add_comm (1 / 2 : ℝ), and_self]

/-- The propagator's input is well formed if its locations are within the extents, those of the velocities
before the last half point. -/
theorem OnGrid.wf (hsp : ∀ i c, C.srcP i = some (P.at c) → P.Inside c)
    (hrp : ∀ i c, C.rcvP i = some (P.at c) → P.Inside c)
    (hsv : ∀ k i c, C.srcV k i = some (P.at c) → P.Inside c ∧ c k < P.grid.hi k + P.grid.w1 k)
    (hrv : ∀ k i c, C.rcvV k i = some (P.at c) → P.Inside c ∧ c k < P.grid.hi k + P.grid.w1 k) : C.WF := by
  have hin : ∀ c, P.Inside c → P.grid.In c := fun c hc k => by
    have := hc k
    have := h.widths k
    simp only [Plan.Between, Plan.grid] at *
    omega
  have hinV : ∀ k c, P.Inside c ∧ c k < P.grid.hi k + P.grid.w1 k → P.grid.InAt (vLoc k) c := fun k c hc =>
    ⟨hin c hc.1, fun j hj => by
      have : j = k := by simpa [vLoc] using hj
      subst this
      exact hc.2⟩
  have back := fun c => P.at_sub c
  have bk : ∀ (k : Fin d) (x : ℤ), x = x - P.off k + P.off k := fun k x => by ring
  refine ⟨fun k => ?_, fun k => ?_, fun k => ?_, fun hb k x hx => ?_, fun hb k x hx => ?_,
    fun i c e => ?_, fun k i c e => ?_, fun i c e => ?_, fun k i c e => ?_⟩
  · rw [hC.w0]; exact (h.widths k).1
  · rw [hC.w1]; exact (h.widths k).2
  · have := hext k
    have := nStag_eq P k
    rw [hC.w0, hC.w1, hC.n, hC.acc]
    omega
  · rw [bk k x] at hx ⊢
    rw [(hC.pab h hext hP hb k _).1, (grid_betweenAt ((hC.midAt hb k _).1 hx)).1]
  · rw [bk k x] at hx ⊢
    rw [(hC.pab h hext hP hb k _).2, (grid_betweenAt ((hC.midAt hb k _).1 hx)).2]
  · rw [← back c] at e ⊢
    exact (hC.inner _).2 (hin _ (hsp i _ e))
  · rw [← back c] at e ⊢
    exact (hC.innerAt _ _).2 (hinV k _ (hsv k i _ e))
  · rw [← back c] at e ⊢
    exact (hC.inner _).2 (hin _ (hrp i _ e))
  · rw [← back c] at e ⊢
    exact (hC.innerAt _ _).2 (hinV k _ (hrv k i _ e))

theorem OnGrid.mem (L : Loc d) (k : Fin d) (u m : Fld d ℝ) (c : Cell d) (hc : P.grid.InAt L c) :
    C.mem' L k u m (P.at c) = P.grid.b k (Spec.point (L k) (c k)) * P.grid.D (L k) k (fun c => u (P.at c)) c +
      P.grid.a k (Spec.point (L k) (c k)) * m (P.at c) := by
  have hk : P.at c k = c k + P.off k := rfl
  unfold Cfg.mem'
  rw [if_pos ((hC.innerAt L c).2 hc), hk, (hC.pab h hext hP _ k _).1, (hC.pab h hext hP _ k _).2, hC.D, add_comm]

omit h hext hP in
theorem OnGrid.str (L : Loc d) (k : Fin d) (u m : Fld d ℝ) (c : Cell d) (hc : P.grid.InAt L c) :
    C.str L k u m (P.at c) = P.grid.D (L k) k (fun c => u (P.at c)) c + C.mem' L k u m (P.at c) := by
  unfold Cfg.str
  rw [if_pos ((hC.innerAt L c).2 hc), hC.D]

omit hC h hext hP in
theorem sig_symm (w : Wavefields d ℝ) (i j : Fin d) : w.sig i j = w.sig j i := by
  unfold Wavefields.sig sigOf pick
  rcases lt_trichotomy i j with h1 | h1 | h1
  · simp [h1, h1.not_gt]
  · subst h1; rfl
  · simp [h1, h1.not_gt]

omit hC h hext hP in
theorem sig_diag (w : Wavefields d ℝ) (i : Fin d) : w.sig i i = w.s i := pick_self _ _ _ _

omit hC h hext hP in
theorem sig_lt (w : Wavefields d ℝ) (p : Sh d) : w.sig p.1.1 p.1.2 = w.sh p := pick_lt _ _ _ p

/-- States of the propagator, step by step, are a solution of the elastic wave equation. -/
theorem OnGrid.wave (hwf : C.WF) {lam mu : Fld d ℝ} {muS : Fin d → Fin d → Fld d ℝ} {B : Fin d → Fld d ℝ}
    {qp : ℕ → Fld d ℝ} {qv : ℕ → Fin d → Fld d ℝ}
    {fp : ℕ → Fin np → ℝ} {fv : (k : Fin d) → ℕ → Fin (nv k) → ℝ} {x : Wavefields d ℝ} (hx : C.Good x)
    (hlam : ∀ c, C.lam (P.at c) = lam c) (hmu : ∀ c, C.mu (P.at c) = mu c)
    (hmuS : ∀ p c, P.grid.InAt (sLoc p.1.1 p.1.2) c → C.muS p (P.at c) = muS p.1.1 p.1.2 c)
    (hsym : ∀ i j, muS i j = muS j i) (hB : ∀ k c, P.grid.InAt (vLoc k) c → C.B k (P.at c) = B k c)
    (hqp : ∀ t c, P.grid.In c → Scalar.inject C.srcP (fp t) (P.at c) = -(P.dt * qp t c))
    (hqv : ∀ t k c, P.grid.InAt (vLoc k) c →
      Scalar.inject (C.srcV k) (fv k t) (P.at c) = P.dt * B k c * qv t k c) :
    P.grid.Elastic lam mu muS B qp qv (fun t k c => (C.run fp fv x t).v k (P.at c))
      (fun t i j c => (C.run fp fv x t).sig i j (P.at c)) (fun t i j c => (C.run fp fv x t).mv i j (P.at c))
      (fun t i j c => (C.run fp fv x t).ms i j (P.at c)) := by
  have hg := run_good hwf fp fv hx
  have hdt : P.grid.dt = P.dt := rfl
  have hstr := hC.str
  have shear : ∀ t (p : Sh d) c, P.grid.InAt (sLoc p.1.1 p.1.2) c → (C.run fp fv x (t + 1)).sh p (P.at c) =
      (C.run fp fv x t).sh p (P.at c) + P.dt * muS p.1.1 p.1.2 c *
      ((P.grid.D true p.1.2 (fun c => (C.run fp fv x (t + 1)).v p.1.1 (P.at c)) c +
          (C.run fp fv x (t + 1)).mv p.1.1 p.1.2 (P.at c)) +
        (P.grid.D true p.1.1 (fun c => (C.run fp fv x (t + 1)).v p.1.2 (P.at c)) c +
          (C.run fp fv x (t + 1)).mv p.1.2 p.1.1 (P.at c))) := fun t p c hc => by
    have hc' : P.grid.InAt (sLoc p.1.2 p.1.1) c := by rwa [sLoc_comm]
    have e1 : C.gradV (C.halfV (fun k => fv k t) (C.run fp fv x t)) p.1.1 p.1.2 (P.at c) =
        P.grid.D true p.1.2 (fun c => (C.run fp fv x (t + 1)).v p.1.1 (P.at c)) c +
          (C.run fp fv x (t + 1)).mv p.1.1 p.1.2 (P.at c) := by
      refine (hstr _ _ _ _ c hc).trans ?_
      rw [sLoc_lt_right]
      rfl
    have e2 : C.gradV (C.halfV (fun k => fv k t) (C.run fp fv x t)) p.1.2 p.1.1 (P.at c) =
        P.grid.D true p.1.1 (fun c => (C.run fp fv x (t + 1)).v p.1.2 (P.at c)) c +
          (C.run fp fv x (t + 1)).mv p.1.2 p.1.1 (P.at c) := by
      refine (hstr _ _ _ _ c hc').trans ?_
      have hl : sLoc p.1.2 p.1.1 p.1.1 = true := by rw [sLoc_comm, sLoc_lt_left]
      rw [hl]
      rfl
    rw [← e1, ← e2, ← hmuS p c hc, ← hC.dt]
    rfl
  refine ⟨fun t i j => ?_, fun t i c => ⟨fun hc => ?_, fun j hc => ?_⟩, fun t i j c hc => ?_, fun t i c hc => ?_,
    fun t i j c hc => ?_, fun t i c hc => ?_, fun t i j c hij hc => ?_⟩
  · simp only [sig_symm _ i j]
  · have hc' : ¬C.InnerAt (vLoc i) (P.at c) := fun h1 => hc ((hC.innerAt _ c).1 h1)
    exact ⟨(hg t).v i _ hc', fun j => (hg t).ms i j _ hc'⟩
  · rw [atS_eq] at hc
    have hc' : ¬C.InnerAt (sLoc i j) (P.at c) := fun h1 => hc ((hC.innerAt _ c).1 h1)
    refine ⟨?_, (hg t).mv i j _ hc'⟩
    show (C.run fp fv x t).sig i j (P.at c) = 0
    rcases lt_trichotomy i j with h1 | h1 | h1
    · rw [sig_lt _ ⟨(i, j), h1⟩]
      exact (hg t).sh ⟨(i, j), h1⟩ _ hc'
    · subst h1
      rw [sig_diag]
      exact (hg t).s i _ fun h1 => hc' (innerAt_diag.2 h1)
    · rw [sig_symm, sig_lt _ ⟨(j, i), h1⟩]
      exact (hg t).sh ⟨(j, i), h1⟩ _ (by rwa [sLoc_comm])
  · exact hC.mem h hext hP (vLoc i) j _ _ c hc
  · show (C.run fp fv x t).v i (P.at c) + C.B i (P.at c) * C.dt * C.divS (C.run fp fv x t) i (P.at c) +
      Scalar.inject (C.srcV i) (fv i t) (P.at c) = _
    rw [hqv t i c hc, hB i c hc, hC.dt, hdt]
    unfold Cfg.divS
    have e : ∀ j, C.str (vLoc i) j ((C.run fp fv x t).sig i j) ((C.run fp fv x t).ms i j) (P.at c) =
        P.grid.D (Spec.atV i j) j (fun c => (C.run fp fv x t).sig i j (P.at c)) c +
          (C.run fp fv x (t + 1)).ms i j (P.at c) := fun j => hstr _ _ _ _ c hc
    simp only [e]
    ring
  · rw [atS_eq] at hc ⊢
    exact hC.mem h hext hP (sLoc i j) j _ _ c hc
  · show (C.run fp fv x (t + 1)).sig i i (P.at c) = (C.run fp fv x t).sig i i (P.at c) + _
    rw [sig_diag, sig_diag]
    have hd : ∀ k, P.grid.InAt (sLoc k k) c := fun k => by
      rw [← atS_eq]
      exact (Spec.atS_self _ k c).2 hc
    have e : ∀ k, C.gradV (C.halfV (fun k => fv k t) (C.run fp fv x t)) k k (P.at c) =
        P.grid.D false k (fun c => (C.run fp fv x (t + 1)).v k (P.at c)) c +
          (C.run fp fv x (t + 1)).mv k k (P.at c) := fun k => by
      refine (hstr _ _ _ _ c (hd k)).trans ?_
      have : sLoc k k k = false := by simp [sLoc]
      rw [this]
      rfl
    show (C.run fp fv x t).s i (P.at c) + C.dt * (C.lam (P.at c) *
      ∑ k, C.gradV (C.halfV (fun k => fv k t) (C.run fp fv x t)) k k (P.at c) + 2 * C.mu (P.at c) *
        C.gradV (C.halfV (fun k => fv k t) (C.run fp fv x t)) i i (P.at c)) +
      Scalar.inject C.srcP (fp t) (P.at c) = _
    rw [hqp t c hc, hlam, hmu, hC.dt, hdt]
    simp only [e]
    ring
  · rw [atS_eq] at hc
    rcases lt_or_gt_of_ne hij with h1 | h1
    · have := shear t ⟨(i, j), h1⟩ c hc
      rw [← sig_lt, ← sig_lt] at this
      exact this
    · have := shear t ⟨(j, i), h1⟩ c (by rwa [sLoc_comm])
      rw [← sig_lt, ← sig_lt, sig_symm, sig_symm _ j i, hsym j i] at this
      rw [this]
      show _ = _ + P.dt * _ * _
      ring

end

/-! ### Initial and final wavefields -/

theorem OnGrid.given (hC : OnGrid P C) (w : Option (WfT d)) (s : ℕ) (c : Cell d) (hc : P.grid.In c) :
    C.createOrPad (w.map fun w => w.val s) (P.at c) = P.given w s c := by
  cases w with
  | none => rfl
  | some w =>
      simp only [Option.map_some, Cfg.createOrPad, Plan.given]
      rw [if_pos ((hC.inner c).2 hc), hC.acc]
      congr 1
      funext k
      simp only [Plan.at, Plan.off, Plan.index]
      ring

theorem OnGrid.edges (hC : OnGrid P C) (L : Loc d) (u : Fld d ℝ) (c : Cell d) (hc : P.grid.InAt L c) :
    C.zeroEdges L u (P.at c) = u (P.at c) := by
  refine if_neg ?_
  rintro ⟨k, h1, h2⟩
  exact (((hC.innerAt L c).2 hc).2 k h1).ne h2

theorem OnGrid.interior (hC : OnGrid P C) (k : Fin d) (h : Bool) (u : Fld d ℝ) (c : Cell d) :
    (P.BetweenAt h k (c k) → C.zeroInterior k h u (P.at c) = 0) ∧
      (¬P.BetweenAt h k (c k) → C.zeroInterior k h u (P.at c) = u (P.at c)) :=
  ⟨fun hb => if_pos ((hC.midAt h k (c k)).2 hb), fun hb => if_neg fun h1 => hb ((hC.midAt h k (c k)).1 h1)⟩

theorem OnGrid.out (hC : OnGrid P C) (u : Fld d ℝ) (c : Cell d) : C.unpad u (P.index c) = u (P.at c) := by
  have e : (fun k => P.index c k + (C.acc.pad : ℤ)) = P.at c := by
    rw [hC.acc]
    funext k
    simp only [Plan.at, Plan.off, Plan.index]
    ring
  simp only [Cfg.unpad, e]

end Dw.Elastic
