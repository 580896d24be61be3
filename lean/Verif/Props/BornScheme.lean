import Verif.Spec.Born
import Verif.Scalar.OnGrid
import Verif.Props.UserReturns
import Verif.Props.UserExamples

/-!
# C91: what a call of `scalar_born` computes

From the arguments of the user to the returned tensors, in the coordinates of the model.
-/

namespace Dw.Setup

variable {d : ℕ}

/-! ### Specification -/

/-- `u`, `psi` and `zeta` start from the wavefields the user gave. -/
def Plan.StartsFrom (P : Plan d) (s : ℕ) (w : Born.UWf d) (u : ℕ → Fld d ℝ) (psi zeta : ℕ → Fin d → Fld d ℝ) : Prop :=
  ∀ c, P.grid.In c → u 1 c = P.given w.wfc s c ∧ u 0 c = P.given w.wfp s c ∧ ∀ k,
    (P.Between k (c k) → psi 0 k c = 0 ∧ zeta 0 k c = 0) ∧
    (¬P.Between k (c k) → psi 0 k c = P.given (w.psi k) s c ∧ zeta 0 k c = P.given (w.zeta k) s c)

/-- The returned wavefields are those of step `N`. -/
def Plan.EndsIn (P : Plan d) (N : ℕ) (out : Scalar.Wavefields d ℝ) (u : ℕ → Fld d ℝ)
    (psi zeta : ℕ → Fin d → Fld d ℝ) : Prop :=
  ∀ c, out.wfc (P.index c) = u (N + 1) c ∧ out.wfp (P.index c) = u N c ∧
    ∀ k, out.psi k (P.index c) = psi N k c ∧ out.zeta k (P.index c) = zeta N k c

end Dw.Setup

namespace Dw.Born

open Setup Resample
open Scalar (Cfg St OnGrid PmlOk WholeIgnored inject sample upAmps downS)

variable {d ns nr nq : ℕ}

/-- What a callback sees in a run of `nt` steps from `x` and `y`. -/
noncomputable def eventsOf (B : BCfg d ns nr nq ℝ) (f fsc : ℕ → Fin ns → ℝ) (x y : St d ℝ) (nt : ℕ) : Option ℕ → List (FEvent d ℝ)
  | none => []
  | some cf => (List.range ((nt / B.base.ratio + cf - 1) / cf)).map fun i => fEventAt B f fsc x y (i * cf)

theorem forward_events {B : BCfg d ns nr nq ℝ} (h : B.base.WF) (gv gs : Bool) (cb : Option ℕ) (nt : ℕ)
    (f fsc : ℕ → Fin ns → ℝ) (w wsc : Scalar.Init d ℝ) (hr : 0 < B.base.ratio)
    (hcf : 0 < nt → 0 < cb.getD (nt / B.base.ratio)) : (B.forward gv gs cb nt f fsc w wsc).map (·.events) =
    .ok (eventsOf B f fsc (B.base.start w) (B.base.start wsc) nt cb) := by
  rw [forward_eq h _ _ _ _ _ _ _ _ hr hcf]
  cases cb <;> rfl

theorem runWith_events (A : UArgs d) (w wsc : Scalar.Init d ℝ) (cf : ℤ) (S : ShotIn d) (B : BCfg d ns nr nq ℝ)
    (h : B.base.WF) (hr : 0 < B.base.ratio)
    (hcf : 0 < S.nt.toNat → 0 < (A.opts.cb cf).getD (S.nt.toNat / B.base.ratio)) (hf : Scalar.Finite S.pml) :
    let f := scaleAmp B.base fun t i => S.amp 0 t i
    let fsc := scaleAmpSc B fun t i => S.amp 1 t i
    let T := S.nt.toNat / B.base.ratio * B.base.ratio
    let x := B.base.start w
    let y := B.base.start wsc
    ∃ r, runWith A w wsc cf S B = .ok (some r) ∧ r.out = B.base.outOf (B.base.run f 0 x T) ∧
      r.outsc = B.base.outOf (scRun B f fsc x y T) ∧
      r.bgTraces = S.traces (fun t => if t < T then sample B.base.rcv (B.base.run f 0 x t).u else fun _ => 0) ∧
      r.traces = S.traces (fun t => if t < T then sample B.rcvsc (scRun B f fsc x y t).u else fun _ => 0) ∧
      r.events = eventsOf B f fsc x y S.nt.toNat (A.opts.cb cf) := by
  intro f fsc T x y
  unfold runWith
  have hev := fun gv gs f fsc => forward_events h gv gs (A.opts.cb cf) S.nt.toNat f fsc w wsc hr hcf
  simp only [forward_eq h _ _ _ _ _ _ _ _ hr hcf] at hev ⊢
  simp only [bind, Except.bind, pure, Except.pure, if_pos hf]
  exact ⟨_, rfl, rfl, rfl, rfl, rfl, Except.ok.inj (hev A.gradV A.gradS f fsc)⟩

theorem runWith_spec (A : UArgs d) (w wsc : Scalar.Init d ℝ) (cf : ℤ) (S : ShotIn d) (B : BCfg d ns nr nq ℝ)
    (h : B.base.WF) (hr : 0 < B.base.ratio)
    (hcf : 0 < S.nt.toNat → 0 < (A.opts.cb cf).getD (S.nt.toNat / B.base.ratio)) (hf : Scalar.Finite S.pml) :
    let f := scaleAmp B.base fun t i => S.amp 0 t i
    let fsc := scaleAmpSc B fun t i => S.amp 1 t i
    let T := S.nt.toNat / B.base.ratio * B.base.ratio
    let x := B.base.start w
    let y := B.base.start wsc
    ∃ r, runWith A w wsc cf S B = .ok (some r) ∧ r.out = B.base.outOf (B.base.run f 0 x T) ∧
      r.outsc = B.base.outOf (scRun B f fsc x y T) ∧
      r.bgTraces = S.traces (fun t => if t < T then sample B.base.rcv (B.base.run f 0 x t).u else fun _ => 0) ∧
      r.traces = S.traces (fun t => if t < T then sample B.rcvsc (scRun B f fsc x y t).u else fun _ => 0) := by
  obtain ⟨r, h1, h2, h3, h4, h5, -⟩ := runWith_events A w wsc cf S B h hr hcf hf
  exact ⟨r, h1, h2, h3, h4, h5⟩

/-- C91, and what a callback sees. -/
theorem scheme_events (A : UArgs d) (P : Plan d) (s : ℕ) (cf : ℤ) (hplan : A.setup.plan = .ok P)
    (hs : s < P.nb) (hP : PmlOk P)
    (hloc : ∀ l, A.src = some l ∨ A.rcv = some l ∨ A.bgRcv = some l → WholeIgnored d l s)
    (hcf : checkCallbackFrequency A.opts.callbackFreq = .ok cf) (hi : 0 < P.interval)
    (hnt : A.opts.callback = true ∨ P.ratio * P.interval ≤ P.nt ∨ P.nt ≤ 0) :
    ∃ r u psi zeta usc psisc zetasc, A.born s = .ok (some r) ∧
      P.Shows A.opts.callback cf (r.events.map fun e => ⟨e.step, e.bg⟩) u psi zeta ∧
      P.Shows A.opts.callback cf (r.events.map fun e => ⟨e.step, e.sc⟩) usc psisc zetasc ∧
      let vel := P.grid.extend (A.v.shot s)
      let q := fun t => locSum A.src s fun i => upAmps P A.opts.timeTaper A.amps s t i
      P.grid.Wave vel q u psi zeta ∧
      P.grid.Scattered vel (P.grid.extendZero (A.scatter.shot s)) q u psi zeta usc psisc zetasc ∧
      P.StartsFrom s A.wf u psi zeta ∧ P.StartsFrom s A.wfsc usc psisc zetasc ∧
      P.EndsIn P.steps r.out u psi zeta ∧ P.EndsIn P.steps r.outsc usc psisc zetasc ∧
      (∀ i < locCount A.bgRcv, r.bgTraces i = downS P A.opts.timeTaper ⟨P.nt.toNat, fun t =>
        if t < P.steps then locValue A.bgRcv s i (u (t + 1)) else 0⟩) ∧
      ∀ i < locCount A.rcv, r.traces i = downS P A.opts.timeTaper ⟨P.nt.toNat, fun t =>
        if t < P.steps then locValue A.rcv s i (usc (t + 1)) else 0⟩ := by
  have h := plan_ok.1 hplan
  have hnb : 0 < P.nb := by omega
  have hext := h.ext_lt hnb ⟨A.v, List.mem_cons_self⟩
  have hC : OnGrid P (cfgOf (shotIn A.setup P A.opts.timeTaper s)).base := ⟨_, _, _, _, rfl⟩
  have hv : ∀ c, (cfgOf (shotIn A.setup P A.opts.timeTaper s)).base.v (P.at c) = P.grid.extend (A.v.shot s) c :=
    model_grid h hnb hext _ s 0 A.v rfl
  have hsc : ∀ c, (cfgOf (shotIn A.setup P A.opts.timeTaper s)).scatter (P.at c) =
      P.grid.extendZero (A.scatter.shot s) c := model_grid_zero h hnb hext _ s 1 A.scatter rfl
  have hsrc : Placed P A.src s _ := src_placed h hs A.opts.timeTaper (j := 0) rfl fun l hl => hloc l (.inl hl)
  have hbg : Placed P A.bgRcv s _ := rcv_placed h hs A.opts.timeTaper (j := 0) rfl fun l hl => hloc l (.inr (.inr hl))
  have hrcv : Placed P A.rcv s _ := rcv_placed h hs A.opts.timeTaper (j := 1) rfl fun l hl => hloc l (.inr (.inl hl))
  have hwf := hC.wf h hext hP (fun i c e => hsrc.inside' i c e) (fun i c e => hbg.inside' i c e)
  have hrat : (cfgOf (shotIn A.setup P A.opts.timeTaper s)).base.ratio = (P.ratio * P.interval).toNat := rfl
  have hrp := Scalar.SetupGood.ratio_pos h
  have hr : 0 < (P.ratio * P.interval).toNat := by
    have : 0 < P.ratio * P.interval := mul_pos (by omega) hi
    omega
  have hne : ¬Scalar.NoElements A.v := not_noElements h hnb (m := (A.v, .replicate)) List.mem_cons_self
  have hdt : (cfgOf (shotIn A.setup P A.opts.timeTaper s)).base.dt = P.dt := rfl
  obtain ⟨r, hrun, hout, houtsc, hbt, hrt, hev⟩ := runWith_events A (A.wf.init s) (A.wfsc.init s) cf
    (shotIn A.setup P A.opts.timeTaper s) (cfgOf (shotIn A.setup P A.opts.timeTaper s)) hwf hr
    (cb_pos hcf hr hnt) (Scalar.finite_of_pmlOk h hP false)
  have hcall : A.born s = .ok (some r) := call_ok.2 ⟨hne, P, cf, h, hcf, hrun⟩
  have hj : ∀ t c, locSum A.src s (fun i => upAmps P A.opts.timeTaper A.amps s t i) c =
      inject (cfgOf (shotIn A.setup P A.opts.timeTaper s)).base.src
        (fun i => upAmps P A.opts.timeTaper A.amps s t i) (P.at c) := fun t c => (hsrc.inject _ c).symm
  have hbs : ∀ u i, sample (cfgOf (shotIn A.setup P A.opts.timeTaper s)).base.rcv u i =
      locValue A.bgRcv s i fun c => u (P.at c) := hbg.sample
  have hrs : ∀ u i, sample (cfgOf (shotIn A.setup P A.opts.timeTaper s)).rcvsc u i =
      locValue A.rcv s i fun c => u (P.at c) := hrcv.sample
  have ha0 : (fun (t : ℕ) (i : Fin ((shotIn A.setup P A.opts.timeTaper s).src 0).length) =>
      (shotIn A.setup P A.opts.timeTaper s).amp 0 t i) =
      fun t (i : Fin _) => upAmps P A.opts.timeTaper A.amps s t i := rfl
  have ha1 : (fun (t : ℕ) (i : Fin ((shotIn A.setup P A.opts.timeTaper s).src 0).length) =>
      (shotIn A.setup P A.opts.timeTaper s).amp 1 t i) =
      fun t (i : Fin _) => upAmps P A.opts.timeTaper A.amps s t i := rfl
  rw [ha0] at hout houtsc hbt hrt hev
  rw [ha1] at houtsc hrt hev
  have hbl := hbg.length
  have hrl := hrcv.length
  change A.born s = _ at hcall
  clear hrun hsrc hbg hrcv
  generalize cfgOf (shotIn A.setup P A.opts.timeTaper s) = B at *
  set f := scaleAmp B.base fun t i => upAmps P A.opts.timeTaper A.amps s t i with hf
  set fsc := scaleAmpSc B fun t i => upAmps P A.opts.timeTaper A.amps s t i with hfsc
  set st := B.base.run f 0 (B.base.start (A.wf.init s)) with hst
  set sc := scRun B f fsc (B.base.start (A.wf.init s)) (B.base.start (A.wfsc.init s)) with hscr
  have hgood : ∀ t, B.base.Good (st t) := B.base.run_good hwf f 0 (B.base.start_good _)
  have hgoodsc : ∀ t, B.base.Good (sc t) := scRun_good hwf f fsc _ (B.base.start_good _)
  have hnext : ∀ t, st (t + 1) = B.base.next (f t) (st t) := fun t => by
    simp only [hst, Cfg.run, Nat.zero_add]
  have hnextsc : ∀ t, sc (t + 1) = scNext B (fsc t) (st t) (sc t) := fun t => rfl
  have hp : ∀ t, (st (t + 1)).p = (st t).u := fun t => by rw [hnext]; rfl
  have hpsc : ∀ t, (sc (t + 1)).p = (sc t).u := fun t => by rw [hnextsc]; rfl
  have hN : P.nt.toNat / B.base.ratio * B.base.ratio = P.steps := by rw [hrat]; rfl
  have hq : ∀ t c, inject B.base.src (f t) (P.at c) = -(P.grid.extend (A.v.shot s) c ^ 2 * P.dt ^ 2 *
      locSum A.src s (fun i => upAmps P A.opts.timeTaper A.amps s t i) c) := fun t c => by
    rw [hj, ← hv c]
    unfold inject
    rw [Finset.mul_sum, ← Finset.sum_neg_distrib]
    refine Finset.sum_congr rfl fun i _ => ?_
    split_ifs with hi
    · simp only [hf, scaleAmp, hi, gatherAt, Option.getD_some, hdt]
      ring
    · ring
  have hqsc : ∀ t c, inject B.base.src (fsc t) (P.at c) = -(2 * P.grid.extend (A.v.shot s) c *
      P.grid.extendZero (A.scatter.shot s) c * P.dt ^ 2 *
      locSum A.src s (fun i => upAmps P A.opts.timeTaper A.amps s t i) c) := fun t c => by
    rw [hj, ← hv c, ← hsc c]
    unfold inject
    rw [Finset.mul_sum, ← Finset.sum_neg_distrib]
    refine Finset.sum_congr rfl fun i _ => ?_
    split_ifs with hi
    · simp only [hfsc, scaleAmpSc, hi, gatherAt, Option.getD_some, hdt]
      ring
    · ring
  have hab := hC.ab h hext hP
  have hk : ∀ c k, P.at c k = c k + P.off k := fun _ _ => rfl
  refine ⟨r, fun t c => (st t).p (P.at c), fun t k c => (st t).psi k (P.at c), fun t k c => (st t).zeta k (P.at c),
    fun t c => (sc t).p (P.at c), fun t k c => (sc t).psi k (P.at c), fun t k c => (sc t).zeta k (P.at c),
    hcall, ?_, ?_, hC.wave h hext hP hgood hnext (fun t c _ => hq t c) hv,
    ⟨fun t c hc => ?_, fun t c hc => ?_, fun t k c hc => ?_, fun t k c hc => ?_⟩,
    fun c hc => ?_, fun c hc => ?_, fun c => ?_, fun c => ?_, fun i hi => ?_, fun i hi => ?_⟩
  · unfold Plan.Shows Plan.callSteps
    rw [hev, ← hrat]
    unfold Opts.cb
    cases A.opts.callback with
    | false => exact ⟨rfl, fun e he => (List.not_mem_nil he).elim⟩
    | true =>
        refine ⟨by simp only [if_true, eventsOf, List.map_map]; rfl, fun e he => ?_⟩
        simp only [if_true, eventsOf, List.map_map, List.mem_map, List.mem_range, Function.comp_apply] at he
        obtain ⟨j, -, rfl⟩ := he
        exact fun c => ⟨(congrFun (hp _) _).symm, rfl, fun k => ⟨rfl, rfl⟩⟩
  · unfold Plan.Shows Plan.callSteps
    rw [hev, ← hrat]
    unfold Opts.cb
    cases A.opts.callback with
    | false => exact ⟨rfl, fun e he => (List.not_mem_nil he).elim⟩
    | true =>
        refine ⟨by simp only [if_true, eventsOf, List.map_map]; rfl, fun e he => ?_⟩
        simp only [if_true, eventsOf, List.map_map, List.mem_map, List.mem_range, Function.comp_apply] at he
        obtain ⟨j, -, rfl⟩ := he
        exact fun c => ⟨(congrFun (hpsc _) _).symm, rfl, fun k => ⟨rfl, rfl⟩⟩
  · have hc' : ¬B.base.Inner (P.at c) := fun h1 => hc ((hC.inner c).1 h1)
    exact ⟨(hgoodsc t).p _ hc', fun k => ⟨(hgoodsc t).psi k _ hc', (hgoodsc t).zeta k _ hc'⟩⟩
  · have hl := hC.lap h hext hP (st t) c hc
    have hls := hC.lap h hext hP (sc t) c hc
    simp only [hp, hpsc]
    rw [hnextsc]
    simp only [scNext, Cfg.tNext, Cfg.refStep, Cfg.snap]
    rw [if_pos ((hC.inner c).2 hc), if_pos ((hC.inner c).2 hc), hqsc, hv, hsc, hl, hls, hdt]
    show _ = _ * P.dt ^ 2 * _ + _ * P.dt ^ 2 * _
    ring
  · simp only [hpsc]
    rw [hnextsc]
    simp only [scNext, Cfg.tNext, Cfg.refStep]
    rw [if_pos ((hC.inner c).2 hc), hk, (hab k _).1, (hab k _).2, hC.D1]
  · simp only [hpsc]
    rw [hnextsc]
    simp only [scNext, Cfg.tNext, Cfg.refStep]
    rw [if_pos ((hC.inner c).2 hc), hk, (hab k _).1, (hab k _).2, hC.tmp h hext hP _ k c hc]
  · have := hC.start A.wf.wfc A.wf.wfp A.wf.psi A.wf.zeta s c hc
    exact ⟨(congrFun (hp 0) _).trans this.1, this.2.1, this.2.2⟩
  · have := hC.start A.wfsc.wfc A.wfsc.wfp A.wfsc.psi A.wfsc.zeta s c hc
    exact ⟨(congrFun (hpsc 0) _).trans this.1, this.2.1, this.2.2⟩
  · rw [hout]
    have := hC.out (st P.steps) c
    rw [← hN] at this ⊢
    exact ⟨this.1.trans (congrFun (hp _) _).symm, this.2⟩
  · rw [houtsc]
    have := hC.out (sc P.steps) c
    rw [← hN] at this ⊢
    exact ⟨this.1.trans (congrFun (hpsc _) _).symm, this.2⟩
  · rw [hbt]
    refine traces_eq _ _ (hi.trans_eq hbl.symm) hN fun t => ?_
    simp only [hp]
    exact hbs _ _
  · rw [hrt]
    refine traces_eq _ _ (hi.trans_eq hrl.symm) hN fun t => ?_
    simp only [hpsc]
    exact hrs _ _

/-- **C91** A call of `scalar_born` that passes the checks computes the solution of the discretised wave
equation and the scattered field of `Spec/Born.lean`: the velocity is continued into the PML by its values at
the edge and the scattering potential by zero, and both fields get the sources of the user, the scattered
field as the derivative of the source term. -/
theorem C91_born_scheme (A : UArgs d) (P : Plan d) (s : ℕ) (cf : ℤ) (hplan : A.setup.plan = .ok P)
    (hs : s < P.nb) (hP : PmlOk P)
    (hloc : ∀ l, A.src = some l ∨ A.rcv = some l ∨ A.bgRcv = some l → WholeIgnored d l s)
    (hcf : checkCallbackFrequency A.opts.callbackFreq = .ok cf) (hi : 0 < P.interval)
    (hnt : A.opts.callback = true ∨ P.ratio * P.interval ≤ P.nt ∨ P.nt ≤ 0) :
    ∃ r u psi zeta usc psisc zetasc, A.born s = .ok (some r) ∧
      let vel := P.grid.extend (A.v.shot s)
      let q := fun t => locSum A.src s fun i => upAmps P A.opts.timeTaper A.amps s t i
      P.grid.Wave vel q u psi zeta ∧
      P.grid.Scattered vel (P.grid.extendZero (A.scatter.shot s)) q u psi zeta usc psisc zetasc ∧
      P.StartsFrom s A.wf u psi zeta ∧ P.StartsFrom s A.wfsc usc psisc zetasc ∧
      P.EndsIn P.steps r.out u psi zeta ∧ P.EndsIn P.steps r.outsc usc psisc zetasc ∧
      (∀ i < locCount A.bgRcv, r.bgTraces i = downS P A.opts.timeTaper ⟨P.nt.toNat, fun t =>
        if t < P.steps then locValue A.bgRcv s i (u (t + 1)) else 0⟩) ∧
      ∀ i < locCount A.rcv, r.traces i = downS P A.opts.timeTaper ⟨P.nt.toNat, fun t =>
        if t < P.steps then locValue A.rcv s i (usc (t + 1)) else 0⟩ := by
  obtain ⟨r, u, psi, zeta, w, ps, ze, h1, -, -, h2⟩ := scheme_events A P s cf hplan hs hP hloc hcf hi hnt
  exact ⟨r, u, psi, zeta, w, ps, ze, h1, h2⟩

theorem exLoc_whole {l : LocT} {s : ℕ} (hs : s < 2) (hl : l = exLoc) : WholeIgnored 2 l s := by
  subst hl
  exact Scalar.exLoc_whole s hs

example : ∃ r u psi zeta usc psisc zetasc, (exU .none).born 1 = .ok (some r) ∧
    (exP ![(0, 7), (0, 9)]).grid.Scattered ((exP ![(0, 7), (0, 9)]).grid.extend ((exU .none).v.shot 1))
      ((exP ![(0, 7), (0, 9)]).grid.extendZero ((exU .none).scatter.shot 1))
      (fun t => locSum (exU .none).src 1 fun i => upAmps (exP ![(0, 7), (0, 9)]) (exU .none).opts.timeTaper
        (exU .none).amps 1 t i) u psi zeta usc psisc zetasc := by
  obtain ⟨r, u, psi, zeta, usc, psisc, zetasc, hr, hw⟩ := C91_born_scheme (exU .none) (exP ![(0, 7), (0, 9)]) 1 1
    (plan_ok.2 exU_whole) (by decide) (.inl (by norm_num [exP, exPl])) (fun l hl => by
      refine exLoc_whole (by decide) ?_
      rcases hl with hl | hl | hl <;> simp only [exU, Option.some.injEq, reduceCtorEq] at hl
      · exact hl.symm
      · exact hl.symm) rfl (by norm_num [exP, exPl]) (.inr (.inl (by norm_num [exP, exPl])))
  exact ⟨r, u, psi, zeta, usc, psisc, zetasc, hr, hw.2.1⟩

end Dw.Born
