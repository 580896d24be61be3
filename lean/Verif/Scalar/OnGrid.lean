import Verif.Setup.Coords

/-!
# The scalar propagator in the coordinates of the models

`OnGrid P C`: the propagator's input `C` has the shape and the profiles of the plan `P`.
-/

namespace Dw.Setup

variable {d : ℕ}

/-- The number of the cell `c` in a wavefield tensor: those start with the first cell of the PML. -/
def Plan.index (P : Plan d) (c : Cell d) : Cell d := fun k => c k - ((P.ext k).1 - P.w0 k)

/-- The value that the user gave for cell `c`. -/
def Plan.given (P : Plan d) (w : Option (WfT d)) (s : ℕ) (c : Cell d) : ℝ :=
  match w with
  | none => 0
  | some w => w.val s (P.index c)

/-- What a callback sees: the wavefields at the time of the call, in the padded arrays. -/
def Plan.Shows (P : Plan d) (callback : Bool) (cf : ℤ) (es : List (Scalar.Event d ℝ)) (u : ℕ → Fld d ℝ)
    (psi zeta : ℕ → Fin d → Fld d ℝ) : Prop :=
  es.map Scalar.Event.step = (if callback then P.callSteps cf else []) ∧
  ∀ e ∈ es, let t := e.step * (P.ratio * P.interval).toNat
    ∀ c, e.wf.wfc (P.at c) = u (t + 1) c ∧ e.wf.wfp (P.at c) = u t c ∧
      ∀ k, e.wf.psi k (P.at c) = psi t k c ∧ e.wf.zeta k (P.at c) = zeta t k c

/-- `x` is outside the PML in dimension `k`. -/
def Plan.Between (P : Plan d) (k : Fin d) (x : ℤ) : Prop := (P.ext k).1 ≤ x ∧ x < (P.ext k).2

end Dw.Setup

namespace Dw.Scalar

open Setup Resample

variable {d ns nr : ℕ}

def OnGrid (P : Plan d) (C : Cfg d ns nr ℝ) : Prop :=
  ∃ v src rcv ratio, C = {cfg ns nr P 0 with v := v, src := src, rcv := rcv, ratio := ratio}

theorem cfg_onGrid (P : Plan d) (s : ℕ) : OnGrid P (cfg ns nr P s) := ⟨_, _, _, _, rfl⟩

/-- A cell within the extents. -/
def _root_.Dw.Setup.Plan.Inside (P : Plan d) (c : Cell d) : Prop := ∀ k, P.Between k (c k)

variable {P : Plan d} {C : Cfg d ns nr ℝ}

theorem n_eq (P : Plan d) (k : Fin d) :
    P.n false k = (P.ext k).2 - (P.ext k).1 + P.w0 k + P.w1 k + 2 * P.acc.pad := by
  show paddedShape _ _ _ k = _
  simp only [paddedShape, padBegin, padEnd, fdEnd, Bool.false_eq_true, if_false, Plan.w0, Plan.w1, Plan.acc]
  ring

theorem OnGrid.inner (hC : OnGrid P C) (c : Cell d) : C.Inner (P.at c) ↔ P.grid.In c := by
  obtain ⟨v, src, rcv, ratio, rfl⟩ := hC
  unfold Cfg.Inner Spec.Grid.In
  refine forall_congr' fun k => ?_
  have hn := n_eq P k
  simp only [cfg, Plan.at, Plan.off, Plan.grid]
  omega

theorem OnGrid.mid (hC : OnGrid P C) (k : Fin d) (x : ℤ) : C.Mid k (x + P.off k) ↔ P.Between k x := by
  obtain ⟨v, src, rcv, ratio, rfl⟩ := hC
  unfold Cfg.Mid Plan.Between
  have hn := n_eq P k
  simp only [cfg, Plan.off]
  omega

theorem OnGrid.D1 (hC : OnGrid P C) (k : Fin d) (u : Fld d ℝ) (c : Cell d) :
    C.D1 k u (P.at c) = P.grid.D1 k (fun c => u (P.at c)) c := by
  obtain ⟨v, src, rcv, ratio, rfl⟩ := hC
  simp only [Cfg.D1, Spec.Grid.D1, Spec.central1_eq, Dw.D1, Plan.at_shift]
  rfl

theorem OnGrid.D2 (hC : OnGrid P C) (k : Fin d) (u : Fld d ℝ) (c : Cell d) :
    C.D2 k u (P.at c) = P.grid.D2 k (fun c => u (P.at c)) c := by
  obtain ⟨v, src, rcv, ratio, rfl⟩ := hC
  simp only [Cfg.D2, Spec.Grid.D2, Spec.central2_eq, Dw.D2, Plan.at_shift]
  rfl

section
variable {A : SetupArgs d} (hC : OnGrid P C) (h : A.Good P) (hext : ∀ k, (P.ext k).1 < (P.ext k).2) (hP : PmlOk P)
include hC h hext hP

theorem OnGrid.ab (k : Fin d) (x : ℤ) : C.a k (x + P.off k) = P.grid.a k x ∧ C.b k (x + P.off k) = P.grid.b k x := by
  obtain ⟨v, src, rcv, ratio, rfl⟩ := hC
  have := ab_grid h hP hext false 0 k x
  simp only [cfg, this, zero_add, Option.getD_some, and_self]

theorem OnGrid.tmp (x : St d ℝ) (k : Fin d) (c : Cell d) (hc : P.grid.In c) :
    C.tmp x k (P.at c) = P.grid.flux k (fun c => x.u (P.at c)) (fun c => x.psi k (P.at c)) c := by
  have hk : ∀ c, P.at c k = c k + P.off k := fun _ => rfl
  have hab := hC.ab h hext hP k
  have hdb : C.db k (c k + P.off k) = P.grid.D1 k (fun c => P.grid.b k (c k)) c := by
    obtain ⟨v, src, rcv, ratio, rfl⟩ := hC
    simp only [cfg, db_grid h hP hext k c hc, Option.getD_some]
  simp only [Cfg.tmp, Spec.Grid.flux, hC.D1, hC.D2, hk, (hab _).1, (hab _).2, hdb]

theorem OnGrid.lap (x : St d ℝ) (c : Cell d) (hc : P.grid.In c) :
    C.lap x (P.at c) =
      P.grid.lap (fun c => x.u (P.at c)) (fun k c => x.psi k (P.at c)) (fun k c => x.zeta k (P.at c)) c := by
  have hk : ∀ c k, P.at c k = c k + P.off k := fun _ _ => rfl
  simp only [Cfg.lap, Spec.Grid.lap, hC.tmp h hext hP x _ c hc, hk, (hC.ab h hext hP _ _).1,
    (hC.ab h hext hP _ _).2]

/-- The propagator's input is well formed if its locations are within the extents. -/
theorem OnGrid.wf (hsrc : ∀ i c, C.src i = some (P.at c) → P.Inside c)
    (hrcv : ∀ i c, C.rcv i = some (P.at c) → P.Inside c) : C.WF := by
  have hin : ∀ c, P.Inside c → C.Inner (P.at c) := fun c hc => (hC.inner c).2 fun k => by
    have := hc k
    have := h.widths k
    simp only [Plan.Between, Plan.grid] at *
    omega
  have back := fun c => P.at_sub c
  have h1 : ∀ i c, C.src i = some c → C.Inner c := fun i c e => by
    rw [← back c] at e ⊢
    exact hin _ (hsrc i _ e)
  have h2 : ∀ i c, C.rcv i = some c → C.Inner c := fun i c e => by
    rw [← back c] at e ⊢
    exact hin _ (hrcv i _ e)
  obtain ⟨v, src, rcv, ratio, rfl⟩ := hC
  obtain ⟨p1, p2, -⟩ := cfg_profiles h hP ns nr 0
  refine ⟨fun k => (h.widths k).1, fun k => (h.widths k).2, fun k => ?_, fun k x hx => (p1 k x hx).1,
    fun k x hx => (p1 k x hx).2, p2, h1, h2⟩
  have := hext k
  have := n_eq P k
  show 2 * (P.acc.pad : ℤ) + P.w0 k + P.w1 k ≤ P.n false k
  omega

/-- States of the propagator, step by step, are a solution of the wave equation. -/
theorem OnGrid.wave {vel : Fld d ℝ} {q : ℕ → Fld d ℝ} {st : ℕ → St d ℝ} {src : ℕ → Fld d ℝ}
    (hgood : ∀ t, C.Good (st t))
    (hnext : ∀ t, st (t + 1) = {C.refStep (st t) with u := fun c => (C.refStep (st t)).u c + src t c})
    (hsrc : ∀ t c, P.grid.In c → src t (P.at c) = -(vel c ^ 2 * P.dt ^ 2 * q t c))
    (hv : ∀ c, C.v (P.at c) = vel c) :
    P.grid.Wave vel q (fun t c => (st t).p (P.at c)) (fun t k c => (st t).psi k (P.at c))
      (fun t k c => (st t).zeta k (P.at c)) := by
  have hp : ∀ t, (st (t + 1)).p = (st t).u := fun t => by rw [hnext]; rfl
  have hk : ∀ c k, P.at c k = c k + P.off k := fun _ _ => rfl
  have hdt : C.dt = P.dt := by
    obtain ⟨v, src, rcv, ratio, rfl⟩ := hC
    rfl
  have hab := hC.ab h hext hP
  refine ⟨fun t c hc => ?_, fun t c hc => ?_, fun t k c hc => ?_, fun t k c hc => ?_⟩
  · have hc' : ¬C.Inner (P.at c) := fun h1 => hc ((hC.inner c).1 h1)
    exact ⟨(hgood t).p _ hc', fun k => ⟨(hgood t).psi k _ hc', (hgood t).zeta k _ hc'⟩⟩
  · have hl := hC.lap h hext hP (st t) c hc
    simp only [hp]
    rw [hnext]
    simp only [Cfg.refStep]
    rw [if_pos ((hC.inner c).2 hc), hsrc t c hc, hv, hl, hdt]
    show _ * P.dt ^ 2 * _ + _ - _ + _ - _ + _ = _ * P.dt ^ 2 * _
    ring
  · simp only [hp]
    rw [hnext]
    simp only [Cfg.refStep]
    rw [if_pos ((hC.inner c).2 hc), hk, (hab k _).1, (hab k _).2, hC.D1]
  · simp only [hp]
    rw [hnext]
    simp only [Cfg.refStep]
    rw [if_pos ((hC.inner c).2 hc), hk, (hab k _).1, (hab k _).2, hC.tmp h hext hP _ k c hc]

end

/-! ### Initial and final wavefields -/

theorem OnGrid.given (hC : OnGrid P C) (w : Option (WfT d)) (s : ℕ) (c : Cell d) (hc : P.grid.In c) :
    C.createOrPad (w.map fun w => w.val s) (P.at c) = P.given w s c := by
  cases w with
  | none => rfl
  | some w =>
      simp only [Option.map_some, Cfg.createOrPad, Plan.given]
      rw [if_pos ((hC.inner c).2 hc)]
      obtain ⟨v, src, rcv, ratio, rfl⟩ := hC
      congr 1
      funext k
      simp only [Plan.at, Plan.off, Plan.index, cfg]
      ring

theorem OnGrid.start (hC : OnGrid P C) (wfc wfp : Option (WfT d)) (psi zeta : Fin d → Option (WfT d)) (s : ℕ)
    (c : Cell d) (hc : P.grid.In c) :
    let x := C.start ⟨wfc.map fun w => w.val s, wfp.map fun w => w.val s, fun k => (psi k).map fun w => w.val s,
      fun k => (zeta k).map fun w => w.val s⟩
    x.u (P.at c) = P.given wfc s c ∧ x.p (P.at c) = P.given wfp s c ∧ ∀ k,
      (P.Between k (c k) → x.psi k (P.at c) = 0 ∧ x.zeta k (P.at c) = 0) ∧
      (¬P.Between k (c k) → x.psi k (P.at c) = P.given (psi k) s c ∧ x.zeta k (P.at c) = P.given (zeta k) s c) := by
  have hmid : ∀ k, ((C.acc.pad : ℤ) + C.w0 k ≤ P.at c k ∧ P.at c k < C.n k - C.w1 k - C.acc.pad) ↔
      P.Between k (c k) := fun k => hC.mid k (c k)
  refine ⟨hC.given _ s c hc, hC.given _ s c hc, fun k => ⟨fun hb => ?_, fun hb => ?_⟩⟩
  · exact ⟨if_pos ((hmid k).2 hb), if_pos ((hmid k).2 hb)⟩
  · exact ⟨(if_neg fun h1 => hb ((hmid k).1 h1)).trans (hC.given _ s c hc),
      (if_neg fun h1 => hb ((hmid k).1 h1)).trans (hC.given _ s c hc)⟩

theorem OnGrid.out (hC : OnGrid P C) (x : St d ℝ) (c : Cell d) :
    (C.outOf x).wfc (P.index c) = x.u (P.at c) ∧ (C.outOf x).wfp (P.index c) = x.p (P.at c) ∧
      ∀ k, (C.outOf x).psi k (P.index c) = x.psi k (P.at c) ∧ (C.outOf x).zeta k (P.index c) = x.zeta k (P.at c) := by
  have e : (fun k => P.index c k + (C.acc.pad : ℤ)) = P.at c := by
    obtain ⟨v, src, rcv, ratio, rfl⟩ := hC
    funext k
    simp only [Plan.at, Plan.off, Plan.index, cfg]
    ring
  simp only [Cfg.outOf, Cfg.unpad, e, and_self, implies_true]

end Dw.Scalar
