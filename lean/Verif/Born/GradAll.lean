import Verif.Props.Born
import Verif.Scalar.GradAll

/-!
# Derivatives of Born modelling with respect to velocity, scattering potential, amplitudes and wavefields together
-/

namespace Dw.Scalar

/-- Amplitudes with one sample. -/
def unitAmp {ns : ℕ} (t : ℕ) (i : Fin ns) : ℕ → Fin ns → ℝ := fun t' i' => if t' = t ∧ i' = i then 1 else 0

theorem traceInner_unit {nt ns t : ℕ} (ht : t < nt) (i : Fin ns) (x : ℕ → Fin ns → ℝ) :
    traceInner nt (unitAmp t i) x = x t i := by
  simp only [traceInner, unitAmp, ite_mul, one_mul, zero_mul]
  rw [Finset.sum_eq_single t, Finset.sum_eq_single i]
  · simp
  · intro j _ hj; simp [hj]
  · simp
  · intro j _ hj
    exact Finset.sum_eq_zero fun i' _ => by simp [hj]
  · intro hn; exact absurd (Finset.mem_range.2 ht) hn

theorem traceInner_deriv {nt ns : ℕ} {f : ℝ → ℕ → Fin ns → ℝ} {f' : ℕ → Fin ns → ℝ}
    (hf' : ∀ t i, HasDerivAt (fun e => f e t i) (f' t i) 0) {G : ℝ → ℕ → Fin ns → ℝ}
    (hG : ∀ t i, t < nt → DifferentiableAt ℝ (fun e => G e t i) 0) :
    HasDerivAt (fun e => traceInner nt (fun t i => f e t i - f 0 t i) (G e)) (traceInner nt f' (G 0)) 0 := by
  refine HasDerivAt.fun_sum fun t ht => HasDerivAt.fun_sum fun i _ => ?_
  rw [Finset.mem_range] at ht
  have := ((hf' t i).sub_const (f 0 t i)).mul (hG t i ht).hasDerivAt
  simp only [sub_self, zero_mul, add_zero] at this
  exact this

theorem hasDerivAt_id_mul {H : ℝ → ℝ} (h : DifferentiableAt ℝ H 0) : HasDerivAt (fun e => e * H e) (H 0) 0 := by
  have := (hasDerivAt_id (0 : ℝ)).mul h.hasDerivAt
  simp only [id, one_mul, zero_mul, add_zero] at this
  exact this

/-- No wavefields. -/
def Wavefields.zero (d : ℕ) : Wavefields d ℝ := ⟨fun _ => 0, fun _ => 0, fun _ _ => 0, fun _ _ => 0⟩

@[simp] theorem Wavefields.zero_inner {d : ℕ} (S : Finset (Cell d)) (x : Wavefields d ℝ) :
    (Wavefields.zero d).inner S x = 0 := by simp [Wavefields.inner, Wavefields.zero]

@[simp] theorem Wavefields.inner_zero {d : ℕ} (S : Finset (Cell d)) (x : Wavefields d ℝ) :
    x.inner S (Wavefields.zero d) = 0 := by simp [Wavefields.inner, Wavefields.zero]

@[simp] theorem traceInner_zero_left {nt ns : ℕ} (x : ℕ → Fin ns → ℝ) : traceInner nt (fun _ _ => 0) x = 0 := by
  simp [traceInner]

@[simp] theorem traceInner_zero_right {nt ns : ℕ} (x : ℕ → Fin ns → ℝ) : traceInner nt x (fun _ _ => 0) = 0 := by
  simp [traceInner]

end Dw.Scalar

namespace Dw.Born

open Dw.Scalar

variable {d ns nr nq : ℕ}

/-- `⟨gr, background receiver data⟩ + ⟨grsc, receiver data⟩ + ⟨g, final background wavefields⟩ +
⟨gsc, final scattered wavefields⟩` -/
noncomputable def BCfg.obj (B : BCfg d ns nr nq ℝ) (nt : ℕ) (gr : ℕ → Fin nr → ℝ) (grsc : ℕ → Fin nq → ℝ)
    (g gsc : Wavefields d ℝ) (f fsc : ℕ → Fin ns → ℝ) (w wsc : Wavefields d ℝ) : ℝ :=
  let T := nt / B.base.ratio * B.base.ratio
  traceInner nt gr (fun t => if t < T then
      sample B.base.rcv (B.base.run f 0 (B.base.start w.toInit) t).u else fun _ => 0) +
    traceInner nt grsc (fun t => if t < T then
      sample B.rcvsc (scRun B f fsc (B.base.start w.toInit) (B.base.start wsc.toInit) t).u else fun _ => 0) +
    (B.base.outOf (B.base.run f 0 (B.base.start w.toInit) T)).inner B.base.userCells g +
    (B.base.outOf (scRun B f fsc (B.base.start w.toInit) (B.base.start wsc.toInit) T)).inner B.base.userCells gsc

variable {B : BCfg d ns nr nq ℝ}

theorem BCfg.obj_eq (h : B.WF) (hr : 0 < B.base.ratio) (nt : ℕ) (gr : ℕ → Fin nr → ℝ) (grsc : ℕ → Fin nq → ℝ)
    (g gsc : Wavefields d ℝ) (f fsc : ℕ → Fin ns → ℝ) (w wsc : Wavefields d ℝ) {gv gs : Bool} {cb : Option ℕ}
    {st stsc : ℕ → Fld d ℝ} {b : BResult d ns ℝ} (hcf : 0 < nt → 0 < cb.getD (nt / B.base.ratio))
    (hb : B.backward gv gs cb nt st stsc gr grsc g.toInit gsc.toInit = .ok b) :
    B.obj nt gr grsc g gsc f fsc w wsc = traceInner nt f b.gf + traceInner nt fsc b.gfsc
      + w.inner B.base.userCells b.out + wsc.inner B.base.userCells b.outsc := by
  obtain ⟨r, b', h1, h2, h3⟩ := C47_born_backward_is_adjoint h hr true true gv gs (some 1) cb nt (fun _ => by simp)
    hcf f fsc w wsc gr grsc g gsc st stsc
  rw [hb] at h2
  cases h2
  rw [forward_eq h.base true true (some 1) nt f fsc _ _ hr (fun _ => by simp)] at h1
  cases h1
  exact h3

theorem BCfg.obj_deriv (h : B.WF) (hr : B.base.ratio = 1) (nt : ℕ) (gr : ℕ → Fin nr → ℝ) (grsc : ℕ → Fin nq → ℝ)
    (g gsc : Wavefields d ℝ) (f fsc : ℕ → Fin ns → ℝ) (w wsc : Wavefields d ℝ) (δ : Fld d ℝ) {gs gs' : Bool}
    {cb cb' : Option ℕ} {b : BResult d ns ℝ} {r : FResult d nr nq ℝ} (hcf : 0 < nt → 0 < cb.getD nt)
    (hcf' : 0 < nt → 0 < cb'.getD nt)
    (hf : B.forward true gs cb nt f fsc w.toInit wsc.toInit = .ok r)
    (hb : B.backward true gs' cb' nt r.w r.wsc gr grsc g.toInit gsc.toInit = .ok b) :
    HasDerivAt (fun e => (B.pert δ e).obj nt gr grsc g gsc f fsc w wsc) (∑ c ∈ B.base.modelCells, δ c * b.gv c) 0 := by
  obtain ⟨r', b', h1, h2, h3⟩ := C48_born_velocity_gradient h hr gs gs' cb cb' nt hcf hcf' f fsc w wsc g gsc gr grsc δ
  have e0 := h1 0
  rw [show ({ B with base := { B.base with v := fun c => B.base.v c + 0 * δ c } } : BCfg d ns nr nq ℝ) = B.pert δ 0
    from rfl, BCfg.pert_zero, hf] at e0
  have e1 : r = r' 0 := by injection e0
  rw [← e1, hb] at h2
  cases h2
  have e2 : (fun e => (B.pert δ e).obj nt gr grsc g gsc f fsc w wsc) = fun e => traceInner nt gr (r' e).rcd +
      traceInner nt grsc (r' e).rcdsc + (r' e).out.inner B.base.userCells g +
      (r' e).outsc.inner B.base.userCells gsc := by
    funext e
    have h4 := h1 e
    rw [show ({ B with base := { B.base with v := fun c => B.base.v c + e * δ c } } : BCfg d ns nr nq ℝ) = B.pert δ e
      from rfl, forward_eq (B.pert_wf h δ e).base true gs cb nt f fsc _ _ (by show 0 < B.base.ratio; omega)
        (by show 0 < nt → 0 < cb.getD (nt / B.base.ratio); rw [hr]; simpa using hcf)] at h4
    injection h4 with h5
    rw [← h5]
    rfl
  rw [e2]
  exact h3

/-- The configuration with another scattering potential. -/
def BCfg.withScatter (B : BCfg d ns nr nq ℝ) (σ : Fld d ℝ) : BCfg d ns nr nq ℝ := {B with scatter := σ}

theorem start_zero (C : Cfg d ns nr ℝ) (w : Wavefields d ℝ) (e : ℝ) :
    (C.start w.toInit).comb 1 e (C.start (Wavefields.zero d).toInit) = C.start w.toInit := by
  rw [← C.start_comb]
  congr 2
  simp [Wavefields.comb, Wavefields.zero]

/-- The objective as a function of the scattering potential. -/
theorem BCfg.obj_scatter (nt : ℕ) (gr : ℕ → Fin nr → ℝ) (grsc : ℕ → Fin nq → ℝ)
    (g gsc : Wavefields d ℝ) (f fsc : ℕ → Fin ns → ℝ) (w wsc : Wavefields d ℝ) (σ : Fld d ℝ) (e : ℝ) :
    (B.withScatter fun c => B.scatter c + e * σ c).obj nt gr grsc g gsc f fsc w wsc =
      B.obj nt gr grsc g gsc f fsc w wsc +
        e * (B.withScatter σ).obj nt (fun _ _ => 0) grsc (Wavefields.zero d) gsc f (fun _ _ => 0) w
          (Wavefields.zero d) := by
  have key : ∀ n, scRun (B.withScatter fun c => B.scatter c + e * σ c) f fsc (B.base.start w.toInit)
      (B.base.start wsc.toInit) n = (scRun B f fsc (B.base.start w.toInit) (B.base.start wsc.toInit) n).comb 1 e
        (scRun (B.withScatter σ) f (fun _ _ => 0) (B.base.start w.toInit)
          (B.base.start (Wavefields.zero d).toInit) n) := fun n => by
    have := scRun_comb (B := B) f (B.base.start w.toInit) 1 e B.scatter σ fsc (fun _ _ => 0)
      (B.base.start wsc.toInit) (B.base.start (Wavefields.zero d).toInit) n
    simp only [one_mul, mul_zero, add_zero, start_zero] at this
    exact this
  have hout : ∀ (s l : St d ℝ), (B.base.outOf (s.comb 1 e l)).inner B.base.userCells gsc =
      (B.base.outOf s).inner B.base.userCells gsc + e * (B.base.outOf l).inner B.base.userCells gsc := fun s l => by
    rw [← Wavefields.inner_plus]
    congr 1
    simp only [Cfg.outOf, St.comb, Wavefields.plus, one_mul]
    rfl
  unfold BCfg.obj
  simp only [traceInner_zero_left, Wavefields.inner_zero]
  show _ + traceInner nt grsc (fun t => if t < nt / B.base.ratio * B.base.ratio then sample B.rcvsc (scRun
    (B.withScatter fun c => B.scatter c + e * σ c) f fsc (B.base.start w.toInit) (B.base.start wsc.toInit) t).u
    else fun _ => 0) + _ + (B.base.outOf (scRun (B.withScatter fun c => B.scatter c + e * σ c) f fsc
    (B.base.start w.toInit) (B.base.start wsc.toInit) (nt / B.base.ratio * B.base.ratio))).inner B.base.userCells gsc = _
  simp only [key, hout]
  have e1 : traceInner nt grsc (fun t => if t < nt / B.base.ratio * B.base.ratio then sample B.rcvsc
      ((scRun B f fsc (B.base.start w.toInit) (B.base.start wsc.toInit) t).comb 1 e
        (scRun (B.withScatter σ) f (fun _ _ => 0) (B.base.start w.toInit)
          (B.base.start (Wavefields.zero d).toInit) t)).u else fun _ => 0) =
      traceInner nt grsc (fun t => if t < nt / B.base.ratio * B.base.ratio then sample B.rcvsc
        (scRun B f fsc (B.base.start w.toInit) (B.base.start wsc.toInit) t).u else fun _ => 0) +
      e * traceInner nt grsc (fun t => if t < nt / B.base.ratio * B.base.ratio then sample B.rcvsc
        (scRun (B.withScatter σ) f (fun _ _ => 0) (B.base.start w.toInit)
          (B.base.start (Wavefields.zero d).toInit) t).u else fun _ => 0) := by
    simp only [traceInner, Finset.mul_sum]
    rw [← Finset.sum_add_distrib]
    refine Finset.sum_congr rfl fun t _ => ?_
    rw [← Finset.sum_add_distrib]
    refine Finset.sum_congr rfl fun i _ => ?_
    split_ifs
    · rw [show sample B.rcvsc ((scRun B f fsc (B.base.start w.toInit) (B.base.start wsc.toInit) t).comb 1 e
        (scRun (B.withScatter σ) f (fun _ _ => 0) (B.base.start w.toInit)
          (B.base.start (Wavefields.zero d).toInit) t)).u i = _ from sample_comb _ _ _ _ _ _]
      ring
    · ring
  rw [e1]
  have alg : ∀ a b c x y z : ℝ, a + (b + e * c) + x + (y + e * z) = (a + b + x + y) + e * (0 + c + 0 + z) := by
    intros
    ring
  exact alg _ _ _ _ _ _

/-- All that can be differentiated changes together. -/
theorem BCfg.obj_deriv_all (h : B.WF) (hr : B.base.ratio = 1) (nt : ℕ) (gr : ℕ → Fin nr → ℝ) (grsc : ℕ → Fin nq → ℝ)
    (g gsc : Wavefields d ℝ) (f fsc : ℝ → ℕ → Fin ns → ℝ) (f' fsc' : ℕ → Fin ns → ℝ)
    (hf' : ∀ t i, HasDerivAt (fun e => f e t i) (f' t i) 0)
    (hfsc' : ∀ t i, HasDerivAt (fun e => fsc e t i) (fsc' t i) 0)
    (w wsc δw δwsc : Wavefields d ℝ) (δ δσ : Fld d ℝ) {gv gs : Bool} (hgv : gv = true ∨ δ = fun _ => 0)
    (hgs : gs = true ∨ δσ = fun _ => 0) {cb cb' : Option ℕ} {b : BResult d ns ℝ} {r : FResult d nr nq ℝ} (hcf : 0 < nt → 0 < cb.getD nt)
    (hcf' : 0 < nt → 0 < cb'.getD nt)
    (hf : B.forward gv gs cb nt (f 0) (fsc 0) w.toInit wsc.toInit = .ok r)
    (hb : B.backward gv gs cb' nt r.w r.wsc gr grsc g.toInit gsc.toInit = .ok b) :
    HasDerivAt (fun e => ((B.withScatter fun c => B.scatter c + e * δσ c).pert δ e).obj nt gr grsc g gsc (f e) (fsc e)
        (w.plus e δw) (wsc.plus e δwsc))
      (∑ c ∈ B.base.modelCells, δ c * b.gv c + ∑ c ∈ B.base.modelCells, δσ c * b.gs c +
        traceInner nt f' b.gf + traceInner nt fsc' b.gfsc + δw.inner B.base.userCells b.out +
        δwsc.inner B.base.userCells b.outsc) 0 := by
  have hr0 : 0 < B.base.ratio := by omega
  have hcf1 : 0 < nt → 0 < (some 1).getD (nt / B.base.ratio) := fun _ => by simp
  have hcf2 : 0 < nt → 0 < cb'.getD (nt / B.base.ratio) := by rw [hr]; simpa using hcf'
  set Be : ℝ → BCfg d ns nr nq ℝ := fun e => (B.withScatter fun c => B.scatter c + e * δσ c).pert δ e with hBe
  have hBe0 : Be 0 = B := by
    simp only [hBe, BCfg.pert_zero, BCfg.withScatter, zero_mul, add_zero]
  have hwf : ∀ e, (Be e).WF := fun e => BCfg.pert_wf (B := B.withScatter fun c => B.scatter c + e * δσ c) ⟨h.base, h.rcvsc_in⟩ δ e
  -- differentiability for fixed input
  have hdv : ∀ (B' : BCfg d ns nr nq ℝ) (_ : B'.WF) (_ : B'.base.ratio = 1) gr grsc g gsc f fsc w wsc,
      DifferentiableAt ℝ (fun e => (B'.pert δ e).obj nt gr grsc g gsc f fsc w wsc) 0 :=
    fun B' h' hr' gr grsc g gsc f fsc w wsc => by
      obtain ⟨r', b', h1, h2, -⟩ := C48_born_velocity_gradient h' hr' true true (some 1) (some 1) nt (fun _ => by simp)
        (fun _ => by simp) f fsc w wsc g gsc gr grsc δ
      have e0 := h1 0
      rw [show ({ B' with base := { B'.base with v := fun c => B'.base.v c + 0 * δ c } } : BCfg d ns nr nq ℝ) =
        B'.pert δ 0 from rfl, BCfg.pert_zero] at e0
      exact (BCfg.obj_deriv h' hr' nt gr grsc g gsc f fsc w wsc δ (fun _ => by simp) (fun _ => by simp) e0
        h2).differentiableAt
  have hsplit : ∀ e f fsc w wsc, (Be e).obj nt gr grsc g gsc f fsc w wsc =
      (B.pert δ e).obj nt gr grsc g gsc f fsc w wsc + e * ((B.withScatter δσ).pert δ e).obj nt (fun _ _ => 0) grsc
        (Wavefields.zero d) gsc f (fun _ _ => 0) w (Wavefields.zero d) := fun e f fsc w wsc =>
    BCfg.obj_scatter (B := B.pert δ e) nt gr grsc g gsc f fsc w wsc δσ e
  have hds : ∀ f w, DifferentiableAt ℝ (fun e => ((B.withScatter δσ).pert δ e).obj nt (fun _ _ => 0) grsc
        (Wavefields.zero d) gsc f (fun _ _ => 0) w (Wavefields.zero d)) 0 := fun f w =>
    hdv (B.withScatter δσ) ⟨h.base, h.rcvsc_in⟩ hr _ _ _ _ _ _ _ _
  have hdiff : ∀ f fsc w wsc, DifferentiableAt ℝ (fun e => (Be e).obj nt gr grsc g gsc f fsc w wsc) 0 :=
    fun f fsc w wsc => by
      simp only [hsplit]
      exact (hdv B h hr _ _ _ _ _ _ _ _).add (hasDerivAt_id_mul (hds f w)).differentiableAt
  -- the transposed operators
  have hq : ∀ e, ∃ q, (Be e).backward true true (some 1) nt (fun _ _ => 0) (fun _ _ => 0) gr grsc g.toInit gsc.toInit =
      .ok q := fun e => ⟨_, backward_eq (hwf e) true true (some 1) nt _ _ gr grsc _ _ hr0 hcf1⟩
  choose q hq using hq
  have hobj : ∀ e f fsc w wsc, (Be e).obj nt gr grsc g gsc f fsc w wsc =
      traceInner nt f (q e).gf + traceInner nt fsc (q e).gfsc + w.inner B.base.userCells (q e).out +
        wsc.inner B.base.userCells (q e).outsc := fun e f fsc w wsc =>
    BCfg.obj_eq (hwf e) hr0 nt gr grsc g gsc f fsc w wsc hcf1 (hq e)
  have hobj0 : ∀ f fsc w wsc, B.obj nt gr grsc g gsc f fsc w wsc =
      traceInner nt f b.gf + traceInner nt fsc b.gfsc + w.inner B.base.userCells b.out +
        wsc.inner B.base.userCells b.outsc := fun f fsc w wsc =>
    BCfg.obj_eq h hr0 nt gr grsc g gsc f fsc w wsc hcf2 hb
  have hz : ∀ f fsc (w wsc : Wavefields d ℝ), traceInner nt f (q 0).gf + traceInner nt fsc (q 0).gfsc +
      w.inner B.base.userCells (q 0).out + wsc.inner B.base.userCells (q 0).outsc =
      traceInner nt f b.gf + traceInner nt fsc b.gfsc + w.inner B.base.userCells b.out +
        wsc.inner B.base.userCells b.outsc := fun f fsc w wsc => by
    rw [← hobj, ← hobj0, hBe0]
  have hG : ∀ t i, t < nt → DifferentiableAt ℝ (fun e => (q e).gf t i) 0 := fun t i ht => by
    have := hdiff (unitAmp t i) (fun _ _ => 0) (Wavefields.zero d) (Wavefields.zero d)
    simpa only [hobj, traceInner_unit ht, traceInner_zero_left, Wavefields.zero_inner, add_zero] using this
  have hGs : ∀ t i, t < nt → DifferentiableAt ℝ (fun e => (q e).gfsc t i) 0 := fun t i ht => by
    have := hdiff (fun _ _ => 0) (unitAmp t i) (Wavefields.zero d) (Wavefields.zero d)
    simpa only [hobj, traceInner_unit ht, traceInner_zero_left, Wavefields.zero_inner, add_zero, zero_add] using this
  have hW : DifferentiableAt ℝ (fun e => δw.inner B.base.userCells (q e).out) 0 := by
    have := hdiff (fun _ _ => 0) (fun _ _ => 0) δw (Wavefields.zero d)
    simpa only [hobj, traceInner_zero_left, Wavefields.zero_inner, add_zero, zero_add] using this
  have hWs : DifferentiableAt ℝ (fun e => δwsc.inner B.base.userCells (q e).outsc) 0 := by
    have := hdiff (fun _ _ => 0) (fun _ _ => 0) (Wavefields.zero d) δwsc
    simpa only [hobj, traceInner_zero_left, Wavefields.zero_inner, add_zero, zero_add] using this
  have hall : (fun e => (Be e).obj nt gr grsc g gsc (f e) (fsc e) (w.plus e δw) (wsc.plus e δwsc)) = fun e =>
      (Be e).obj nt gr grsc g gsc (f 0) (fsc 0) w wsc +
        traceInner nt (fun t i => f e t i - f 0 t i) (q e).gf +
        traceInner nt (fun t i => fsc e t i - fsc 0 t i) (q e).gfsc +
        e * δw.inner B.base.userCells (q e).out + e * δwsc.inner B.base.userCells (q e).outsc := by
    funext e
    simp only [hobj, Wavefields.inner_plus, traceInner, sub_mul, Finset.sum_sub_distrib]
    ring
  -- the part from the models
  have hm : HasDerivAt (fun e => (Be e).obj nt gr grsc g gsc (f 0) (fsc 0) w wsc)
      (∑ c ∈ B.base.modelCells, δ c * b.gv c + ∑ c ∈ B.base.modelCells, δσ c * b.gs c) 0 := by
    simp only [hsplit]
    have h0 : HasDerivAt (fun e => (B.pert δ e).obj nt gr grsc g gsc (f 0) (fsc 0) w wsc)
        (∑ c ∈ B.base.modelCells, δ c * b.gv c) 0 := by
      rcases hgv with rfl | rfl
      · exact BCfg.obj_deriv h hr nt gr grsc g gsc (f 0) (fsc 0) w wsc δ hcf hcf' hf hb
      · simp only [BCfg.pert, Cfg.pert, mul_zero, add_zero, zero_mul, Finset.sum_const_zero]
        exact hasDerivAt_const (0 : ℝ) (B.obj nt gr grsc g gsc (f 0) (fsc 0) w wsc)
    refine h0.add ?_
    have h1 := hasDerivAt_id_mul (hds (f 0) w)
    rw [BCfg.pert_zero] at h1
    rcases hgs with rfl | rfl
    · obtain ⟨r₁, b₁, b₂, k1, k2, -, -, -, -, k3⟩ := C30_scatter_gradient_is_transpose h hr gv gv cb cb' (some 1) nt
        hcf hcf' (fun _ => by simp) (f 0) (fsc 0) w.toInit wsc gr grsc g.toInit gsc
      rw [hf] at k1
      cases k1
      rw [hb] at k2
      cases k2
      obtain ⟨r₂, k4, k5⟩ := k3 δσ (fun _ _ => 0) (Wavefields.zero d)
      simp only [traceInner_zero_left, Wavefields.zero_inner, add_zero] at k5
      rw [← k5]
      rw [show ({ B with scatter := δσ } : BCfg d ns nr nq ℝ) = B.withScatter δσ from rfl,
        forward_eq (B := B.withScatter δσ) h.base gv true cb nt (f 0) _ _ _ hr0
          (by show 0 < nt → 0 < cb.getD (nt / B.base.ratio); rw [hr]; simpa using hcf)] at k4
      injection k4 with k6
      rw [← k6]
      refine h1.congr_deriv ?_
      simp only [BCfg.obj, traceInner_zero_left, Wavefields.inner_zero, zero_add, add_zero]
      rfl
    · refine h1.congr_deriv ?_
      have z := BCfg.obj_scatter (B := B.withScatter fun _ => 0) nt (fun _ _ => 0) grsc (Wavefields.zero d) gsc (f 0)
        (fun _ _ => 0) w (Wavefields.zero d) (fun _ => 0) 1
      simp only [BCfg.withScatter, mul_zero, add_zero, one_mul, zero_mul, Finset.sum_const_zero] at z ⊢
      linarith
  have key := (((hm.add (traceInner_deriv hf' hG)).add (traceInner_deriv hfsc' hGs)).add (hasDerivAt_id_mul hW)).add
    (hasDerivAt_id_mul hWs)
  rw [hall]
  refine HasDerivAt.congr_deriv key ?_
  have z := hz f' fsc' δw δwsc
  linarith

/-- The backward pass of one call (`scalar_born.py` 941-1422): `backward` if the velocity, the source amplitudes or
the background wavefields need gradients (`non_sc`, 744-748), `backward_sc` if not. -/
noncomputable def BCfg.back (B : BCfg d ns nr nq ℝ) (gv gs full : Bool) (cb : Option ℕ) (nt : ℕ) (w wsc : ℕ → Fld d ℝ)
    (gr : ℕ → Fin nr → ℝ) (grsc : ℕ → Fin nq → ℝ) (g gsc : Init d ℝ) : Except PyErr (BResult d ns ℝ) :=
  if gv || full then B.backward gv gs cb nt w wsc gr grsc g gsc else do
    let b ← B.backwardSc gs cb nt w grsc gsc
    return ⟨fun _ => 0, b.gs, fun _ _ => 0, b.gfsc, Wavefields.zero d, b.outsc, []⟩

theorem BCfg.back_ok (h : B.WF) (hr : 0 < B.base.ratio) (gv gs full : Bool) (cb : Option ℕ) (nt : ℕ)
    (w wsc : ℕ → Fld d ℝ) (gr : ℕ → Fin nr → ℝ) (grsc : ℕ → Fin nq → ℝ) (g gsc : Init d ℝ)
    (hcf : 0 < nt → 0 < cb.getD (nt / B.base.ratio)) :
    ∃ b b', B.back gv gs full cb nt w wsc gr grsc g gsc = .ok b ∧
      B.backward gv gs cb nt w wsc gr grsc g gsc = .ok b' ∧
      b.gs = b'.gs ∧ b.gfsc = b'.gfsc ∧ b.outsc = b'.outsc ∧
      ((gv || full) = true → b = b') := by
  have hb := backward_eq h gv gs cb nt w wsc gr grsc g gsc hr hcf
  have hsc := backwardSc_eq h gs cb nt w grsc gsc hr hcf
  by_cases hf : (gv || full) = true
  · exact ⟨_, _, (by rw [BCfg.back, if_pos hf, hb]), hb, rfl, rfl, rfl, fun _ => rfl⟩
  · refine ⟨⟨fun _ => 0, _, fun _ _ => 0, _, Wavefields.zero d, _, []⟩, _, ?_, hb, rfl, rfl, rfl, fun h => absurd h hf⟩
    rw [BCfg.back, if_neg hf, hsc]
    rfl

end Dw.Born
