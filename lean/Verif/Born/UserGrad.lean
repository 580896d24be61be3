import Verif.Setup.AutogradShot
import Verif.Born.GradAll
import Verif.Props.BornScheme

/-!
# Gradients of `scalar_born`

What `backward()` gives for a call of `scalar_born` (`scalar_born.py` 357-590): automatic differentiation goes
through `downsample_and_movedim`, the propagator (`ScalarBornForwardFunc.backward`, 941-1422), the scalings of
the source amplitudes (495-530), `upsample`, and the slicing and padding of velocity and scattering potential.
-/

namespace Dw.Born

open Setup Resample
open Scalar

variable {d ns nr nq : ℕ}

/-- The gradients from one shot: of the padded models, of the source amplitudes, and of the initial
wavefields. -/
structure UGrad (d : ℕ) where
  v : Fld d ℝ
  scatter : Fld d ℝ
  amps : ℕ → ℕ → ℝ
  wf : Wavefields d ℝ
  wfsc : Wavefields d ℝ

open Classical in
/-- What the backward pass `b` of the propagator gives for the arguments of the user; `a` are the upsampled
source amplitudes. -/
noncomputable def gradsOf (A : UArgs d) (P : Plan d) (B : BCfg d ns nr nq ℝ) (a : ℕ → Fin ns → ℝ) (b : BResult d ns ℝ) :
    UGrad d :=
  { v := fun p => b.gv p + ∑ t ∈ Finset.range P.nt.toNat, ∑ i,
      if ((B.base.src i).getD fun _ => 0) = p then b.gf t i * (-a t i * (2 * B.base.v p) * B.base.dt ^ 2) +
        b.gfsc t i * (-2 * a t i * B.scatter p * B.base.dt ^ 2) else 0
    scatter := fun p => b.gs p + ∑ t ∈ Finset.range P.nt.toNat, ∑ i,
      if ((B.base.src i).getD fun _ => 0) = p then b.gfsc t i * (-2 * a t i * B.base.v p * B.base.dt ^ 2) else 0
    amps := fun j t =>
      ampGrad P A.opts.timeTaper A.amps (fun t i =>
        -(b.gf t i * gatherAt B.base.v (B.base.src i) ^ 2 * B.base.dt ^ 2)) j t +
      ampGrad P A.opts.timeTaper A.amps (fun t i => -2 * (b.gfsc t i * gatherAt B.base.v (B.base.src i) *
        gatherAt B.scatter (B.base.src i) * B.base.dt ^ 2)) j t
    wf := b.out
    wfsc := b.outsc }

open Classical in
/-- The backward pass of shot `s`, from the gradients of background receiver amplitudes, receiver amplitudes, and
final wavefields. -/
noncomputable def gradWith (A : UArgs d) (P : Plan d) (cf : ℤ) (s : ℕ) (full bcb : Bool)
    (gr grsc : ℕ → ℕ → ℝ) (g gsc : Wavefields d ℝ) (B : BCfg d ns nr nq ℝ) : Except PyErr (Option (UGrad d)) := do
  let a : ℕ → Fin ns → ℝ := fun t i => upAmps P A.opts.timeTaper A.amps s t i
  let r ← B.forward A.gradV A.gradS (A.opts.cb cf) P.nt.toNat (scaleAmp B.base a) (scaleAmpSc B a) (A.wf.init s)
    (A.wfsc.init s)
  let b ← B.back A.gradV A.gradS full (if bcb then some cf.toNat else none) P.nt.toNat r.w r.wsc
    (fun t i => downT P A.opts.timeTaper (gr i) t) (fun t i => downT P A.opts.timeTaper (grsc i) t) g.toInit gsc.toInit
  return if Scalar.Finite (P.pml false) then some (gradsOf A P B a b) else none

open Classical in
/-- The gradients from shot `s` of a call; `full` says whether source amplitudes or background wavefields need
gradients, `bcb` whether there is a backward callback. -/
noncomputable def UArgs.backward (A : UArgs d) (s : ℕ) (full bcb : Bool) (gr grsc : ℕ → ℕ → ℝ)
    (g gsc : Wavefields d ℝ) : Except PyErr (Option (UGrad d)) := do
  let _ ← raiseIf (NoElements A.v) .runtimeError
  let P ← A.setup.plan
  let cf ← checkCallbackFrequency A.opts.callbackFreq
  gradWith A P cf s full bcb gr grsc g gsc (cfgOf (shotIn A.setup P A.opts.timeTaper s))

/-- `v.grad` and `scatter.grad`, from the gradients of the shots. -/
noncomputable def UArgs.vGrad (A : UArgs d) (P : Plan d) (b : ℕ → UGrad d) : ℕ → Fld d ℝ :=
  modelGrad P false (A.v, .replicate) fun s => (b s).v

noncomputable def UArgs.scatterGrad (A : UArgs d) (P : Plan d) (b : ℕ → UGrad d) : ℕ → Fld d ℝ :=
  modelGrad P false (A.scatter, .constant) fun s => (b s).scatter

/-! ### Directions -/

/-- A direction in which the differentiable arguments of a call can change. -/
structure UDir (d : ℕ) where
  v : ℕ → Fld d ℝ
  scatter : ℕ → Fld d ℝ
  amps : ℕ → ℕ → ℕ → ℝ
  wf : ℕ → Wavefields d ℝ
  wfsc : ℕ → Wavefields d ℝ

def UWf.plus (w : UWf d) (e : ℝ) (δ : ℕ → Wavefields d ℝ) : UWf d :=
  { wfc := w.wfc.map fun x => plusWf e x fun s => (δ s).wfc
    wfp := w.wfp.map fun x => plusWf e x fun s => (δ s).wfp
    psi := fun k => (w.psi k).map fun x => plusWf e x fun s => (δ s).psi k
    zeta := fun k => (w.zeta k).map fun x => plusWf e x fun s => (δ s).zeta k }

/-- The call with arguments `x + e δ`; tensors that are not given stay so. -/
def UArgs.plus (A : UArgs d) (e : ℝ) (D : UDir d) : UArgs d :=
  {A with
    v := plusModel e A.v D.v
    scatter := plusModel e A.scatter D.scatter
    amps := A.amps.map fun a => plusAmp e a D.amps
    wf := A.wf.plus e D.wf
    wfsc := A.wfsc.plus e D.wfsc }

/-- `δ` for the wavefields that are given, zero for the others. -/
def UWf.givenOf (w : UWf d) (δ : Wavefields d ℝ) : Wavefields d ℝ :=
  ⟨if w.wfc.isSome then δ.wfc else fun _ => 0, if w.wfp.isSome then δ.wfp else fun _ => 0,
    fun k => if (w.psi k).isSome then δ.psi k else fun _ => 0,
    fun k => if (w.zeta k).isSome then δ.zeta k else fun _ => 0⟩

/-- `(gr * bg_receiver_amplitudes).sum() + (grsc * receiver_amplitudes).sum() + (g * final background
wavefields).sum() + (gsc * final scattered wavefields).sum()` for one shot. -/
noncomputable def UShot.pair (r : UShot d) (A : UArgs d) (S : Finset (Cell d)) (gr grsc : ℕ → ℕ → ℝ)
    (g gsc : Wavefields d ℝ) : ℝ :=
  tracePair (locCount A.bgRcv) gr r.bgTraces + tracePair (locCount A.rcv) grsc r.traces + r.out.inner S g +
    r.outsc.inner S gsc

/-! ### Lemmas -/

/-- The wavefields with zero for those that are not given. -/
def UWf.zeroed (w : UWf d) (s : ℕ) : Wavefields d ℝ :=
  ⟨((w.init s).wfc).getD fun _ => 0, ((w.init s).wfp).getD fun _ => 0,
    fun k => ((w.init s).psi k).getD fun _ => 0, fun k => ((w.init s).zeta k).getD fun _ => 0⟩

theorem start_zeroed {ns nr : ℕ} (C : Cfg d ns nr ℝ) (w : UWf d) (s : ℕ) :
    C.start (w.zeroed s).toInit = C.start (w.init s) := by
  simp only [Cfg.start, UWf.zeroed, Wavefields.toInit, Cfg.createOrPad_getD]

theorem UWf.plus_zeroed (w : UWf d) (e : ℝ) (δ : ℕ → Wavefields d ℝ) (s : ℕ) :
    (w.plus e δ).zeroed s = (w.zeroed s).plus e (w.givenOf (δ s)) := by
  simp only [UWf.zeroed, UWf.init, UWf.plus, Wavefields.plus, UWf.givenOf, Wavefields.mk.injEq]
  exact ⟨wf_plus _ _ _ _, wf_plus _ _ _ _, funext fun k => wf_plus _ _ _ _, funext fun k => wf_plus _ _ _ _⟩

theorem UWf.plus_list (w : UWf d) (e : ℝ) (δ : ℕ → Wavefields d ℝ) :
    (w.plus e δ).list.map (Option.map WfT.size) = w.list.map (Option.map WfT.size) := by
  simp only [UWf.list, UWf.plus, List.map_append, List.map_cons, List.map_nil, List.map_ofFn,
      Function.comp_def, wf_plus_size]

/-- The plan of the call with arguments `x + e δ`. -/
noncomputable def UArgs.planPlus (A : UArgs d) (P : Plan d) (e : ℝ) (D : UDir d) : Plan d :=
  P.withModels false [((A.plus e D).v, .replicate), ((A.plus e D).scatter, .constant)]

theorem plus_good {A : UArgs d} {P : Plan d} (h : A.setup.Good P) (hnb : 0 < P.nb)
    (hmv : A.opts.maxVel ≠ none) (e : ℝ) (D : UDir d) : (A.plus e D).setup.Good (A.planPlus P e D) := by
  refine ((h.withModels (ms := [((A.plus e D).v, .replicate), ((A.plus e D).scatter, .constant)])
    (mv := maxAbs (A.plus e D).v) hnb rfl ?_).revalue
    (amps := [(A.plus e D).amps, (A.plus e D).amps]) (wfs := (A.plus e D).wf.list ++ (A.plus e D).wfsc.list) ?_ ?_)
  · have := h.maxVel
    unfold setMaxVelR at this ⊢
    cases hm : A.opts.maxVel with
    | none => exact absurd hm hmv
    | some x =>
        simp only [UArgs.setup, Opts.setup, hm] at this ⊢
        exact this
  · simp only [UArgs.setup, Opts.setup, UArgs.plus, List.map_cons, List.map_nil, amp_plus_size]
  · simp only [UArgs.setup, Opts.setup, UArgs.plus, List.map_append, UWf.plus_list]

theorem plus_good_zero {A : UArgs d} {P : Plan d} (h : A.setup.Good P) (e : ℝ)
    (D : UDir d) (hv : D.v = fun _ _ => 0) (hs : D.scatter = fun _ _ => 0) : (A.plus e D).setup.Good P := by
  have hv' : (A.plus e D).v = A.v := by
    simp only [UArgs.plus, plusModel, hv, mul_zero, add_zero]
    rfl
  have hs' : (A.plus e D).scatter = A.scatter := by
    simp only [UArgs.plus, plusModel, hs, mul_zero, add_zero]
    rfl
  have := h.revalue (amps := [(A.plus e D).amps, (A.plus e D).amps])
    (wfs := (A.plus e D).wf.list ++ (A.plus e D).wfsc.list)
    (by simp only [UArgs.setup, Opts.setup, UArgs.plus, List.map_cons, List.map_nil, amp_plus_size])
    (by simp only [UArgs.setup, Opts.setup, UArgs.plus, List.map_append, UWf.plus_list])
  unfold UArgs.setup
  rw [hv', hs']
  exact this

/-- What is needed of a call for its propagator to run. -/
structure Fwd (A : UArgs d) (P : Plan d) (s : ℕ) (cf : ℤ) : Prop where
  good : A.setup.Good P
  lt : s < P.nb
  pml : PmlOk P
  loc : ∀ l, A.src = some l ∨ A.rcv = some l ∨ A.bgRcv = some l → WholeIgnored d l s
  freq : checkCallbackFrequency A.opts.callbackFreq = .ok cf
  interval : 0 < P.interval
  nt : A.opts.callback = true ∨ P.ratio * P.interval ≤ P.nt ∨ P.nt ≤ 0

/-- What is needed of a call for its propagator to run forward and backward. -/
structure Runs (A : UArgs d) (P : Plan d) (s : ℕ) (cf : ℤ) : Prop where
  good : A.setup.Good P
  lt : s < P.nb
  pml : PmlOk P
  loc : ∀ l, A.src = some l ∨ A.rcv = some l ∨ A.bgRcv = some l → WholeIgnored d l s
  freq : checkCallbackFrequency A.opts.callbackFreq = .ok cf
  interval : 0 < P.interval
  nt : P.ratio * P.interval ≤ P.nt ∨ P.nt ≤ 0

theorem Runs.fwd {A : UArgs d} {P : Plan d} {s : ℕ} {cf : ℤ} (h : Runs A P s cf) : Fwd A P s cf :=
  ⟨h.good, h.lt, h.pml, h.loc, h.freq, h.interval, .inr h.nt⟩

theorem Fwd.wf {A : UArgs d} {P : Plan d} {s : ℕ} {cf : ℤ} (h : Fwd A P s cf) :
    (cfgOf (shotIn A.setup P A.opts.timeTaper s)).WF := by
  have hnb : 0 < P.nb := by have := h.lt; omega
  have hext := h.good.ext_lt hnb ⟨A.v, List.mem_cons_self⟩
  have hC : OnGrid P (cfgOf (shotIn A.setup P A.opts.timeTaper s)).base := ⟨_, _, _, _, rfl⟩
  have hsrc : Placed P A.src s _ := src_placed h.good h.lt A.opts.timeTaper (j := 0) rfl fun l hl => h.loc l (.inl hl)
  have hbg : Placed P A.bgRcv s _ := rcv_placed h.good h.lt A.opts.timeTaper (j := 0) rfl fun l hl =>
    h.loc l (.inr (.inr hl))
  have hrcv : Placed P A.rcv s _ := rcv_placed h.good h.lt A.opts.timeTaper (j := 1) rfl fun l hl =>
    h.loc l (.inr (.inl hl))
  refine ⟨hC.wf h.good hext h.pml (fun i c e => hsrc.inside' i c e) (fun i c e => hbg.inside' i c e), ?_⟩
  intro i c e
  rw [← P.at_sub c] at e ⊢
  refine (hC.inner _).2 fun k => ?_
  have h1 := hrcv.inside' i _ e k
  have h2 := h.good.widths k
  simp only [Plan.grid]
  omega

/-- The propagator runs every time step. -/
theorem Fwd.ratio {A : UArgs d} {P : Plan d} {s : ℕ} {cf : ℤ} (h : Fwd A P s cf) :
    0 < (P.ratio * P.interval).toNat := by
  have := SetupGood.ratio_pos h.good
  have : 0 < P.ratio * P.interval := mul_pos (by omega) h.interval
  omega

theorem Runs.wf {A : UArgs d} {P : Plan d} {s : ℕ} {cf : ℤ} (h : Runs A P s cf) :
    (cfgOf (shotIn A.setup P A.opts.timeTaper s)).WF := h.fwd.wf

theorem Runs.ratio {A : UArgs d} {P : Plan d} {s : ℕ} {cf : ℤ} (h : Runs A P s cf) :
    0 < (P.ratio * P.interval).toNat := h.fwd.ratio

theorem cb_pos' {cf : ℤ} {nt r : ℤ} {x : PyNum} (c : Bool) (hcf : checkCallbackFrequency x = .ok cf)
    (hr : 0 < r.toNat) (hnt : r ≤ nt ∨ nt ≤ 0) (h : 0 < nt.toNat) :
    0 < (if c then some cf.toNat else none).getD (nt.toNat / r.toNat) := by
  have hcf0 : 0 < cf := by
    unfold checkCallbackFrequency at hcf
    split at hcf
    · split_ifs at hcf with h1
      cases hcf
      omega
    · cases hcf
  cases c
  · simp only [Bool.false_eq_true, if_false, Option.getD_none]
    exact Nat.div_pos (by omega) hr
  · simp only [if_true, Option.getD_some]; omega

/-- The pairing of the outputs of a call in terms of the propagator. -/
theorem born_pair {A : UArgs d} {P : Plan d} {s : ℕ} {cf : ℤ} (h : Runs A P s cf) (gr grsc : ℕ → ℕ → ℝ)
    (g gsc : Wavefields d ℝ) :
    ∃ r, A.born s = .ok (some r) ∧
      let B := cfgOf (shotIn A.setup P A.opts.timeTaper s)
      r.pair A (outCells P) gr grsc g gsc = B.obj P.nt.toNat (fun t i => downT P A.opts.timeTaper (gr i) t)
        (fun t i => downT P A.opts.timeTaper (grsc i) t) g gsc
        (scaleAmp B.base fun t i => upAmps P A.opts.timeTaper A.amps s t i)
        (scaleAmpSc B fun t i => upAmps P A.opts.timeTaper A.amps s t i) (A.wf.zeroed s) (A.wfsc.zeroed s) := by
  have hnb : 0 < P.nb := by have := h.lt; omega
  obtain ⟨r, hrun, hout, houtsc, hbt, hrt⟩ := runWith_spec A (A.wf.init s) (A.wfsc.init s) cf
    (shotIn A.setup P A.opts.timeTaper s) (cfgOf (shotIn A.setup P A.opts.timeTaper s)) h.wf.base h.ratio
    (cb_pos h.freq h.ratio (.inr h.nt)) (finite_of_pmlOk h.good h.pml false)
  have hcall : A.born s = .ok (some r) := call_ok.2 ⟨not_noElements h.good hnb (m := (A.v, .replicate))
    List.mem_cons_self, P, cf, h.good, h.freq, hrun⟩
  refine ⟨r, hcall, ?_⟩
  have hbl : ((shotIn A.setup P A.opts.timeTaper s).rcv 0).length = locCount A.bgRcv :=
    (rcv_placed h.good h.lt A.opts.timeTaper (j := 0) rfl fun l hl => h.loc l (.inr (.inr hl))).length
  have hrl : ((shotIn A.setup P A.opts.timeTaper s).rcv 1).length = locCount A.rcv :=
    (rcv_placed h.good h.lt A.opts.timeTaper (j := 1) rfl fun l hl => h.loc l (.inr (.inl hl))).length
  have huc : (cfgOf (shotIn A.setup P A.opts.timeTaper s)).base.userCells = outCells P :=
    cfg_userCells 0 0 P s
  dsimp only
  unfold UShot.pair BCfg.obj
  dsimp only
  rw [hout, houtsc, hbt, hrt, huc, start_zeroed, start_zeroed, ← tracePair_eq h.good A.opts.timeTaper s,
    ← tracePair_eq h.good A.opts.timeTaper s, ← hbl, ← hrl]
  rfl

end Dw.Born
