import Verif.Props.UserMirrorMore
import Verif.Props.Validate
import Verif.Props.UserGradScalar

/-!
# C130 What the callback of a call sees

The arrays that a callback gets are those of the padded model. Through the views of `CallbackState` the user sees
the fields of the scheme at the time of the call, on the cells of the survey extent (`inner`) or with the PML (`pml`).
-/

namespace Dw.Setup

variable {d : ℕ}

/-- The views `inner` and `pml` (`_get_view`, `common.py` 375-404, with the paddings of `scalar.py` 863-871,
`scalar_born.py` 847-856, `acoustic.py` 936-961, `elastic.py` 1487-1512) of the array `a` show the field `f`: `inner` has
the shape of the survey extent and starts at its first cell, `pml` starts at the first cell of the PML. -/
def Plan.Views (P : Plan d) (staggered : Bool) (a f : Fld d ℝ) : Prop :=
  (∃ x, getView (fun _ => P.acc.pad) (fun _ => fdEnd staggered P.acc) P.w0 P.w1 (P.n staggered) "inner" a =
      .ok (fun k => (P.ext k).2 - (P.ext k).1, x) ∧ ∀ c, x (fun k => c k - (P.ext k).1) = f c) ∧
  ∃ x, getView (fun _ => P.acc.pad) (fun _ => fdEnd staggered P.acc) P.w0 P.w1 (P.n staggered) "pml" a =
      .ok (fun k => P.w0 k + ((P.ext k).2 - (P.ext k).1) + P.w1 k, x) ∧ ∀ c, x (P.index c) = f c

/-- The callback is called at the outer steps that are multiples of its frequency, once each and in order. -/
def Plan.Called (P : Plan d) (cf : ℤ) (steps : List ℕ) : Prop :=
  steps.Pairwise (· < ·) ∧ ∀ i, i ∈ steps ↔ i < P.nt.toNat / (P.ratio * P.interval).toNat ∧ cf.toNat ∣ i

theorem Plan.called {P : Plan d} {cf : ℤ} (hcf : 0 < cf) : P.Called cf (P.callSteps cf) := by
  have hcf : 0 < cf.toNat := by omega
  refine ⟨List.Pairwise.map _ (fun a b hab => Nat.mul_lt_mul_of_pos_right hab hcf) List.pairwise_lt_range, fun i => ?_⟩
  simp only [Plan.callSteps, List.mem_map, List.mem_range]
  generalize P.nt.toNat / (P.ratio * P.interval).toNat = m
  generalize cf.toNat = q at hcf
  constructor
  · rintro ⟨j, hj, rfl⟩
    refine ⟨?_, Dvd.intro_left _ rfl⟩
    have h1 : (j + 1) * q ≤ m + q - 1 := (Nat.mul_le_mul_right q hj).trans (Nat.div_mul_le_self _ _)
    rw [Nat.add_mul, Nat.one_mul] at h1
    omega
  · rintro ⟨hi, j, rfl⟩
    refine ⟨j, ?_, Nat.mul_comm _ _⟩
    rw [Nat.lt_iff_add_one_le, Nat.le_div_iff_mul_le hcf, Nat.add_mul, Nat.mul_comm j]
    omega

theorem SetupArgs.Good.views {A : SetupArgs d} {P : Plan d} (h : A.Good P) (hext : ∀ k, (P.ext k).1 < (P.ext k).2)
    (staggered : Bool) {a f : Fld d ℝ} (ha : ∀ c, a (P.at c) = f c) : P.Views staggered a f := by
  have hn : P.n staggered = fun k => P.acc.pad + P.w0 k + ((P.ext k).2 - (P.ext k).1) + P.w1 k + fdEnd staggered P.acc := by
    funext k
    simp only [Plan.n, paddedShape, padBegin, padEnd, Plan.acc, Plan.w0, Plan.w1]
    ring
  have hp : 0 ≤ (P.acc.pad : ℤ) ∧ 0 ≤ fdEnd staggered P.acc := by
    unfold fdEnd
    cases P.acc <;> cases staggered <;> decide
  have v := C20_views (fun _ => P.acc.pad) (fun _ => fdEnd staggered P.acc) P.w0 P.w1 (fun k => (P.ext k).2 - (P.ext k).1)
    (fun _ => hp.1) (fun _ => hp.2) (fun k => (h.widths k).1) (fun k => (h.widths k).2)
    (fun k => by have := hext k; omega) a
  rw [← hn] at v
  obtain ⟨x, hx, hv⟩ := (v "inner").1 rfl
  obtain ⟨y, hy, hw⟩ := (v "pml").2.1 rfl
  refine ⟨⟨x, hx, fun c => ?_⟩, y, hy, fun c => ?_⟩
  · rw [hv, ← ha]
    congr 1
    funext k
    simp only [Plan.at, Plan.off]
    ring
  · rw [hw, ← ha]
    congr 1
    funext k
    simp only [Plan.at, Plan.off, Plan.index]
    ring

end Dw.Setup

namespace Dw.Scalar

open Setup Resample

variable {d : ℕ}

/-- **C130** The callback of a call of `scalar` with callback frequency `cf` is called at the outer steps (of `ratio * interval`
time steps) that are multiples of `cf`, in order, and sees through its views the solution of the scheme that starts from
the initial wavefields of the call: the wavefields `wavefield_0` and `wavefield_m1` and the auxiliary fields at that time,
at the cells of the extent (`inner`) and of extent and PML (`pml`). -/
theorem C130_scalar_callbacks (A : UArgs d) (P : Plan d) (s : ℕ) (cf : ℤ) (h : Fwd A P s cf) (hcb : A.callback = true) :
    ∃ r u psi zeta, A.scalar s = .ok (some r) ∧
      P.grid.Wave (P.grid.extend (A.v.shot s)) (fun t => locSum A.src s fun i => upAmps P A.timeTaper A.amps s t i)
        u psi zeta ∧
      P.StartsFrom s ⟨A.wfc, A.wfp, A.psi, A.zeta⟩ u psi zeta ∧
      P.Called cf (r.events.map Event.step) ∧
      ∀ e ∈ r.events, let t := e.step * (P.ratio * P.interval).toNat
        P.Views false e.wf.wfc (u (t + 1)) ∧ P.Views false e.wf.wfp (u t) ∧
        ∀ k, P.Views false (e.wf.psi k) (psi t k) ∧ P.Views false (e.wf.zeta k) (zeta t k) := by
  obtain ⟨r, u, psi, zeta, hr, hs, hw, hi, -⟩ := scheme_events A P s cf (plan_ok.2 h.good) h.lt h.pml h.src h.rcv h.freq
    h.interval h.nt
  have hext := UArgs.Good.ext_lt h.good (by have := h.lt; omega)
  have v {a f} := h.good.views hext false (a := a) (f := f)
  refine ⟨r, u, psi, zeta, hr, hw, hi, ?_, fun e he => ?_⟩
  · rw [hs.1, if_pos hcb]
    exact P.called (Scalar.callback_pos h.freq)
  · have := hs.2 e he
    exact ⟨v fun c => (this c).1, v fun c => (this c).2.1, fun k => ⟨v fun c => ((this c).2.2 k).1,
      v fun c => ((this c).2.2 k).2⟩⟩

theorem exW_fwd : Fwd { exV 3 with callback := true, callbackFreq := .int 2 } (exQ 3) 0 2 :=
  { good := exV_fwd.good, lt := exV_fwd.lt, pml := exV_fwd.pml, src := exV_fwd.src, rcv := exV_fwd.rcv, freq := rfl
    interval := exV_fwd.interval, nt := .inl rfl }

/-- Three outer steps of two time steps and a callback every second outer step: it is called at steps 0 and 2, and sees the
fields of the time steps 0 and 4. -/
example : ∃ r u psi zeta, ({ exV 3 with callback := true, callbackFreq := .int 2 } : UArgs 2).scalar 0 = .ok (some r) ∧
    (exQ 3).grid.Wave ((exQ 3).grid.extend ((exV 3).v.shot 0))
      (fun t => locSum (exV 3).src 0 fun i => upAmps (exQ 3) (exV 3).timeTaper (exV 3).amps 0 t i) u psi zeta ∧
    0 ∈ r.events.map Event.step ∧ 1 ∉ r.events.map Event.step ∧ 2 ∈ r.events.map Event.step ∧
    ∀ e ∈ r.events, e.step = 2 → (exQ 3).Views false e.wf.wfc (u 5) := by
  obtain ⟨r, u, psi, zeta, hr, hw, -, hc, hv⟩ := C130_scalar_callbacks _ _ _ _ exW_fwd rfl
  have hn : (exQ 3).nt.toNat / ((exQ 3).ratio * (exQ 3).interval).toNat = 3 :=
    show (6 : ℤ).toNat / (1 * 2 : ℤ).toNat = 3 from rfl
  have hm : ((exQ 3).ratio * (exQ 3).interval).toNat = 2 := show (1 * 2 : ℤ).toNat = 2 from rfl
  refine ⟨r, u, psi, zeta, hr, hw, (hc.2 0).2 ?_, fun h => ?_, (hc.2 2).2 ?_, fun e he h2 => ?_⟩
  · rw [hn]; decide
  · exact absurd ((hc.2 1).1 h).2 (by decide)
  · rw [hn]; decide
  · have := (hv e he).1
    rwa [h2, hm] at this

end Dw.Scalar

namespace Dw.Born

open Setup Resample
open Scalar (upAmps)

variable {d : ℕ}

/-- **C130** for `scalar_born`: the callback sees the background and the scattered wavefields. -/
theorem C130_born_callbacks (A : UArgs d) (P : Plan d) (s : ℕ) (cf : ℤ) (h : Fwd A P s cf) (hcb : A.opts.callback = true) :
    ∃ r u psi zeta usc psisc zetasc, A.born s = .ok (some r) ∧
      let vel := P.grid.extend (A.v.shot s)
      let q := fun t => locSum A.src s fun i => upAmps P A.opts.timeTaper A.amps s t i
      P.grid.Wave vel q u psi zeta ∧
      P.grid.Scattered vel (P.grid.extendZero (A.scatter.shot s)) q u psi zeta usc psisc zetasc ∧
      P.StartsFrom s A.wf u psi zeta ∧ P.StartsFrom s A.wfsc usc psisc zetasc ∧
      P.Called cf (r.events.map FEvent.step) ∧
      ∀ e ∈ r.events, let t := e.step * (P.ratio * P.interval).toNat
        (P.Views false e.bg.wfc (u (t + 1)) ∧ P.Views false e.bg.wfp (u t) ∧
          ∀ k, P.Views false (e.bg.psi k) (psi t k) ∧ P.Views false (e.bg.zeta k) (zeta t k)) ∧
        P.Views false e.sc.wfc (usc (t + 1)) ∧ P.Views false e.sc.wfp (usc t) ∧
          ∀ k, P.Views false (e.sc.psi k) (psisc t k) ∧ P.Views false (e.sc.zeta k) (zetasc t k) := by
  obtain ⟨r, u, psi, zeta, usc, psisc, zetasc, hr, hs, hs', hw, hw', hi, hi', -⟩ := scheme_events A P s cf
    (plan_ok.2 h.good) h.lt h.pml h.loc h.freq h.interval h.nt
  have hext := h.good.ext_lt (by have := h.lt; omega) ⟨A.v, List.mem_cons_self⟩
  have v {a f} := h.good.views hext false (a := a) (f := f)
  refine ⟨r, u, psi, zeta, usc, psisc, zetasc, hr, hw, hw', hi, hi', ?_, fun e he => ?_⟩
  · have := hs.1
    rw [if_pos hcb, List.map_map] at this
    rw [show r.events.map FEvent.step = _ from this]
    exact P.called (Scalar.callback_pos h.freq)
  · have b := hs.2 ⟨e.step, e.bg⟩ (List.mem_map.2 ⟨e, he, rfl⟩)
    have c := hs'.2 ⟨e.step, e.sc⟩ (List.mem_map.2 ⟨e, he, rfl⟩)
    exact ⟨⟨v fun x => (b x).1, v fun x => (b x).2.1, fun k => ⟨v fun x => ((b x).2.2 k).1, v fun x => ((b x).2.2 k).2⟩⟩,
      v fun x => (c x).1, v fun x => (c x).2.1, fun k => ⟨v fun x => ((c x).2.2 k).1, v fun x => ((c x).2.2 k).2⟩⟩

theorem exCb_fwd (s : ℕ) (hs : s < 2) :
    Fwd { exU .none with opts := { exO .none with callback := true } } (exP ![(0, 7), (0, 9)]) s 1 :=
  have h := exU_fwd s hs
  { good := h.good, lt := h.lt, pml := h.pml, loc := h.loc, freq := rfl, interval := h.interval, nt := .inl rfl }

example : ∃ r, ({ exU .none with opts := { exO .none with callback := true } } : UArgs 2).born 1 = .ok (some r) ∧
    (exP ![(0, 7), (0, 9)]).Called 1 (r.events.map FEvent.step) := by
  obtain ⟨r, _, _, _, _, _, _, hr, -, -, -, -, hc, -⟩ := C130_born_callbacks _ _ _ _ (exCb_fwd 1 (by decide)) rfl
  exact ⟨r, hr, hc⟩

end Dw.Born

namespace Dw.Acoustic

open Setup Resample
open Scalar (upAmps)

variable {d : ℕ}

/-- **C130** for `acoustic`. -/
theorem C130_acoustic_callbacks (A : UArgs d) (P : Plan d) (s : ℕ) (cf : ℤ) (h : Fwd A P s cf)
    (hcb : A.opts.callback = true) :
    ∃ r p v phi psi, A.acoustic s = .ok (some r) ∧
      let rho := P.grid.extend (A.rho.shot s)
      P.grid.Acoustic (fun c => rho c * P.grid.extend (A.v.shot s) c ^ 2)
        (fun k c => Spec.inverse A.rfmax (Spec.mean rho k c))
        (fun t => locSum A.srcP s fun i => upAmps P A.opts.timeTaper A.ampP s t i)
        (fun t k => locSum (A.srcV k) s fun i => upAmps P A.opts.timeTaper (A.ampV k) s t i) p v phi psi ∧
      (∀ c, (P.grid.In c → p 0 c = P.given A.wf.p s c ∧ ∀ k,
          (P.Between k (c k) → phi 0 k c = 0) ∧ (¬P.Between k (c k) → phi 0 k c = P.given (A.wf.phi k) s c)) ∧
        ∀ k, P.grid.InH k c → v 0 k c = P.given (A.wf.v k) s c ∧
          (P.BetweenH k (c k) → psi 0 k c = 0) ∧
          (¬P.BetweenH k (c k) → psi 0 k c = P.given (A.wf.psi k) s c)) ∧
      P.Called cf (r.events.map Event.step) ∧
      ∀ e ∈ r.events, let t := e.step * (P.ratio * P.interval).toNat
        P.Views true e.wf.p (p t) ∧ ∀ k, P.Views true (e.wf.v k) (v t k) ∧ P.Views true (e.wf.phi k) (phi t k) ∧
          P.Views true (e.wf.psi k) (psi t k) := by
  obtain ⟨r, p, v, phi, psi, hr, hs, hw, hi, -⟩ := scheme_events A P s cf
    (plan_ok.2 h.good) h.pre h.lt h.pml h.loc h.last h.freq h.interval h.nt
  have hext := h.good.ext_lt (by have := h.lt; omega) ⟨A.v, List.mem_cons_self⟩
  have w {a f} := h.good.views hext true (a := a) (f := f)
  refine ⟨r, p, v, phi, psi, hr, hw, hi, ?_, fun e he => ?_⟩
  · rw [hs.1, if_pos hcb]
    exact P.called (Scalar.callback_pos h.freq)
  · have b := hs.2 e he
    exact ⟨w fun x => (b x).1, fun k => ⟨w fun x => ((b x).2 k).1, w fun x => ((b x).2 k).2.1,
      w fun x => ((b x).2 k).2.2⟩⟩

theorem exCb_fwd (s : ℕ) (hs : s < 2) :
    Fwd { exU .none with opts := { exO .none with callback := true } } (exP ![(0, 7), (0, 9)]) s 1 :=
  have h := exU_fwd s hs
  { good := h.good, pre := h.pre, lt := h.lt, pml := h.pml, loc := h.loc, last := h.last, freq := rfl, interval := h.interval, nt := .inl rfl }

example : ∃ r, ({ exU .none with opts := { exO .none with callback := true } } : UArgs 2).acoustic 1 = .ok (some r) ∧
    (exP ![(0, 7), (0, 9)]).Called 1 (r.events.map Event.step) := by
  obtain ⟨r, _, _, _, _, hr, -, -, hc, -⟩ := C130_acoustic_callbacks _ _ _ _ (exCb_fwd 1 (by decide)) rfl
  exact ⟨r, hr, hc⟩

end Dw.Acoustic

namespace Dw.Elastic

open Setup Resample
open Scalar (upAmps)

variable {d : ℕ}

/-- **C130** for `elastic`. -/
theorem C130_elastic_callbacks (A : UArgs d) (P : Plan d) (s : ℕ) (cf : ℤ) (h : Fwd A P s cf)
    (hcb : A.opts.callback = true) :
    ∃ r v sig mv ms, A.elastic s = .ok (some r) ∧
      let mu := P.grid.extend (A.mu.shot s)
      let rho := fun c => Spec.inverse A.rfmax (P.grid.extend (A.buoyancy.shot s) c)
      P.grid.Elastic (P.grid.extend (A.lam.shot s)) mu (Spec.harmonic A.rfmax mu)
        (fun k c => Spec.inverse A.rfmax (Spec.mean rho k c))
        (fun t => locSum A.srcP s fun i => upAmps P A.opts.timeTaper A.ampP s t i)
        (fun t k => locSum (A.srcV k) s fun i => upAmps P A.opts.timeTaper (A.ampV k) s t i) v sig mv ms ∧
      (∀ i c, (P.grid.In c → sig 0 i i c = P.given (A.wf.s i) s c) ∧
        (∀ j, (hij : i < j) → P.grid.InAt (Spec.atS i j) c → sig 0 i j c = P.given (A.wf.sh ⟨(i, j), hij⟩) s c) ∧
        (∀ j, P.grid.InAt (Spec.atS i j) c →
          (P.BetweenAt (Spec.atS i j j) j (c j) → mv 0 i j c = 0) ∧
          (¬P.BetweenAt (Spec.atS i j j) j (c j) → mv 0 i j c = P.given (A.wf.mv i j) s c)) ∧
        (P.grid.InAt (Spec.atV i) c → v 0 i c = P.given (A.wf.v i) s c ∧ ∀ j,
          (P.BetweenAt (Spec.atV i j) j (c j) → ms 0 i j c = 0) ∧
          (¬P.BetweenAt (Spec.atV i j) j (c j) → ms 0 i j c = P.given (A.wf.ms i j) s c))) ∧
      P.Called cf (r.events.map Event.step) ∧
      ∀ e ∈ r.events, let t := e.step * (P.ratio * P.interval).toNat
        ∀ i, P.Views true (e.wf.v i) (v t i) ∧ P.Views true (e.wf.s i) (sig t i i) ∧
          (∀ j, (hij : i < j) → P.Views true (e.wf.sh ⟨(i, j), hij⟩) (sig t i j)) ∧
          ∀ j, P.Views true (e.wf.mv i j) (mv t i j) ∧ P.Views true (e.wf.ms i j) (ms t i j) := by
  obtain ⟨r, v, sig, mv, ms, hr, hs, hw, hi, -⟩ := scheme_events A P s cf
    (plan_ok.2 h.good) h.pre h.lt h.pml h.loc h.last h.freq h.interval h.nt
  have hext := h.good.ext_lt (by have := h.lt; omega) ⟨A.lam, List.mem_cons_self⟩
  have w {a f} := h.good.views hext true (a := a) (f := f)
  refine ⟨r, v, sig, mv, ms, hr, hw, hi, ?_, fun e he i => ?_⟩
  · rw [hs.1, if_pos hcb]
    exact P.called (Scalar.callback_pos h.freq)
  · have b := hs.2 e he
    exact ⟨w fun x => (b x i).1, w fun x => (b x i).2.1, fun j hij => w fun x => (b x i).2.2.1 j hij,
      fun j => ⟨w fun x => ((b x i).2.2.2 j).1, w fun x => ((b x i).2.2.2 j).2⟩⟩

theorem exCb_fwd (s : ℕ) (hs : s < 2) :
    Fwd { exU .none with opts := { exO .none with callback := true } } (exP ![(0, 7), (0, 9)]) s 1 :=
  have h := exU_fwd s hs
  { good := h.good, pre := h.pre, lt := h.lt, pml := h.pml, loc := h.loc, last := h.last, freq := rfl, interval := h.interval, nt := .inl rfl }

example : ∃ r, ({ exU .none with opts := { exO .none with callback := true } } : UArgs 2).elastic 1 = .ok (some r) ∧
    (exP ![(0, 7), (0, 9)]).Called 1 (r.events.map Event.step) := by
  obtain ⟨r, _, _, _, _, hr, -, -, hc, -⟩ := C130_elastic_callbacks _ _ _ _ (exCb_fwd 1 (by decide)) rfl
  exact ⟨r, hr, hc⟩

end Dw.Elastic
