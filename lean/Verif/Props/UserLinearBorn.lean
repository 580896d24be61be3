import Verif.Setup.Linear
import Verif.Born.UserGrad
import Verif.Props.BornMore
import Verif.Props.UserGradBorn

/-!
# Superposition for calls of `scalar_born`
-/

namespace Dw.Born

open Setup Resample
open Dw.Scalar (Cfg St Wavefields PmlOk WholeIgnored upAmps sample sample_comb finite_of_pmlOk)

variable {d : ℕ}

/-- The wavefields that are given with other values. -/
def UWf.give (w : UWf d) (x : ℕ → Wavefields d ℝ) : UWf d :=
  { wfc := wfWith w.wfc fun s => (x s).wfc
    wfp := wfWith w.wfp fun s => (x s).wfp
    psi := fun k => wfWith (w.psi k) fun s => (x s).psi k
    zeta := fun k => wfWith (w.zeta k) fun s => (x s).zeta k }

/-- The values of the amplitudes and initial wavefields of a call. -/
structure UVal (d : ℕ) where
  amps : ℕ → ℕ → ℕ → ℝ
  wf : ℕ → Wavefields d ℝ
  wfsc : ℕ → Wavefields d ℝ

/-- The call with these values in the amplitudes and initial wavefields that `A` has; tensors that are not given
stay so. -/
def UArgs.give (A : UArgs d) (x : UVal d) : UArgs d :=
  { A with
    amps := ampWith A.amps x.amps
    wf := A.wf.give x.wf
    wfsc := A.wfsc.give x.wfsc }

noncomputable def UVal.comb (α β : ℝ) (x y : UVal d) : UVal d :=
  { amps := fun s i t => α * x.amps s i t + β * y.amps s i t
    wf := fun s => (x.wf s).comb α β (y.wf s)
    wfsc := fun s => (x.wfsc s).comb α β (y.wfsc s) }

theorem UWf.give_list (w : UWf d) (x : ℕ → Wavefields d ℝ) :
    (w.give x).list.map (Option.map WfT.size) = w.list.map (Option.map WfT.size) := by
  simp only [UWf.list, UWf.give, List.map_append, List.map_cons, List.map_nil, List.map_ofFn, Function.comp_def,
    wfWith_size]

theorem give_good {A : UArgs d} {P : Plan d} (h : A.setup.Good P) (x : UVal d) : (A.give x).setup.Good P :=
  h.revalue (amps := [(A.give x).amps, (A.give x).amps]) (wfs := (A.give x).wf.list ++ (A.give x).wfsc.list)
    (by simp only [UArgs.setup, Opts.setup, UArgs.give, List.map_cons, List.map_nil, ampWith_size])
    (by simp only [UArgs.setup, Opts.setup, UArgs.give, List.map_append, UWf.give_list])

section
variable {ns nr nq : ℕ}

/-- The states of the background field of shot `s`. -/
noncomputable def UArgs.states (A : UArgs d) (B : BCfg d ns nr nq ℝ) (P : Plan d) (s : ℕ) : ℕ → St d ℝ :=
  B.base.run (scaleAmp B.base fun t i => upAmps P A.opts.timeTaper A.amps s t i) 0 (B.base.start (A.wf.zeroed s).toInit)

/-- The states of the scattered field of shot `s`. -/
noncomputable def UArgs.statesSc (A : UArgs d) (B : BCfg d ns nr nq ℝ) (P : Plan d) (s : ℕ) : ℕ → St d ℝ :=
  scRun B (scaleAmp B.base fun t i => upAmps P A.opts.timeTaper A.amps s t i)
    (scaleAmpSc B fun t i => upAmps P A.opts.timeTaper A.amps s t i) (B.base.start (A.wf.zeroed s).toInit)
    (B.base.start (A.wfsc.zeroed s).toInit)

end

theorem UWf.zeroed_comb (w : UWf d) (α β : ℝ) (x y : ℕ → Wavefields d ℝ) (s : ℕ) :
    (w.give fun s => (x s).comb α β (y s)).zeroed s = ((w.give x).zeroed s).comb α β ((w.give y).zeroed s) := by
  simp only [UWf.zeroed, UWf.init, UWf.give, Wavefields.comb, wfWith_comb]

section
variable {A : UArgs d} {P : Plan d} {s : ℕ} {cf : ℤ} (h : Fwd A P s cf)
include h

theorem Fwd.give (x : UVal d) : Fwd (A.give x) P s cf :=
  ⟨give_good h.good x, h.lt, h.pml, h.loc, h.freq, h.interval, h.nt⟩

/-- The outputs of a call in terms of the propagator. -/
theorem Fwd.result : ∃ r, A.born s = .ok (some r) ∧
    let S := shotIn A.setup P A.opts.timeTaper s
    let B := cfgOf S
    let T := P.nt.toNat / B.base.ratio * B.base.ratio
    r.out = B.base.outOf (A.states B P s T) ∧ r.outsc = B.base.outOf (A.statesSc B P s T) ∧
    r.bgTraces = S.traces (fun t => if t < T then sample B.base.rcv (A.states B P s t).u else fun _ => 0) ∧
    r.traces = S.traces (fun t => if t < T then sample B.rcvsc (A.statesSc B P s t).u else fun _ => 0) := by
  have hnb : 0 < P.nb := by have := h.lt; omega
  obtain ⟨r, hrun, hout, houtsc, hbt, hrt⟩ := runWith_spec A (A.wf.init s) (A.wfsc.init s) cf
    (shotIn A.setup P A.opts.timeTaper s) (cfgOf (shotIn A.setup P A.opts.timeTaper s)) h.wf.base h.ratio
    (cb_pos h.freq h.ratio h.nt) (finite_of_pmlOk h.good h.pml false)
  refine ⟨r, call_ok.2 ⟨not_noElements h.good hnb (m := (A.v, .replicate)) List.mem_cons_self, P, cf, h.good, h.freq,
    hrun⟩, ?_⟩
  unfold UArgs.states UArgs.statesSc
  dsimp only
  rw [start_zeroed, start_zeroed]
  exact ⟨hout, houtsc, hbt, hrt⟩

variable {ns nr nq : ℕ}

/-- The states are linear in the values of the inputs. -/
theorem Fwd.states_comb (B : BCfg d ns nr nq ℝ) (α β : ℝ) (x y : UVal d) (m : ℕ) :
    (A.give (x.comb α β y)).states B P s m = ((A.give x).states B P s m).comb α β ((A.give y).states B P s m) ∧
    (A.give (x.comb α β y)).statesSc B P s m =
      ((A.give x).statesSc B P s m).comb α β ((A.give y).statesSc B P s m) := by
  have e1 : (scaleAmp B.base fun t i => upAmps P A.opts.timeTaper (A.give (x.comb α β y)).amps s t i) = fun t i =>
      α * (scaleAmp B.base fun t i => upAmps P A.opts.timeTaper (A.give x).amps s t i) t i +
        β * (scaleAmp B.base fun t i => upAmps P A.opts.timeTaper (A.give y).amps s t i) t i := by
    funext t i
    simp only [scaleAmp, UArgs.give, UVal.comb, upAmps_comb h.good]
    ring
  have e2 : (scaleAmpSc B fun t i => upAmps P A.opts.timeTaper (A.give (x.comb α β y)).amps s t i) = fun t i =>
      α * (scaleAmpSc B fun t i => upAmps P A.opts.timeTaper (A.give x).amps s t i) t i +
        β * (scaleAmpSc B fun t i => upAmps P A.opts.timeTaper (A.give y).amps s t i) t i := by
    funext t i
    simp only [scaleAmpSc, UArgs.give, UVal.comb, upAmps_comb h.good]
    ring
  have e3 : B.base.start ((A.give (x.comb α β y)).wf.zeroed s).toInit = _ :=
    (congrArg (fun w => B.base.start (Wavefields.toInit w)) (A.wf.zeroed_comb α β x.wf y.wf s)).trans (B.base.start_comb α β _ _)
  have e4 : B.base.start ((A.give (x.comb α β y)).wfsc.zeroed s).toInit = _ :=
    (congrArg (fun w => B.base.start (Wavefields.toInit w)) (A.wfsc.zeroed_comb α β x.wfsc y.wfsc s)).trans
      (B.base.start_comb α β _ _)
  constructor
  · have := B.base.run_comb α β (scaleAmp B.base fun t i => upAmps P A.opts.timeTaper (A.give x).amps s t i)
      (scaleAmp B.base fun t i => upAmps P A.opts.timeTaper (A.give y).amps s t i) 0
      (B.base.start ((A.give x).wf.zeroed s).toInit) (B.base.start ((A.give y).wf.zeroed s).toInit) m
    rw [← e1] at this
    refine Eq.trans ?_ this
    exact congrArg (fun z => B.base.run _ 0 z m) e3
  · have := scRun_comb_all (B := B) α β (scaleAmp B.base fun t i => upAmps P A.opts.timeTaper (A.give x).amps s t i)
      (scaleAmp B.base fun t i => upAmps P A.opts.timeTaper (A.give y).amps s t i)
      (scaleAmpSc B fun t i => upAmps P A.opts.timeTaper (A.give x).amps s t i)
      (scaleAmpSc B fun t i => upAmps P A.opts.timeTaper (A.give y).amps s t i)
      (B.base.start ((A.give x).wf.zeroed s).toInit) (B.base.start ((A.give y).wf.zeroed s).toInit)
      (B.base.start ((A.give x).wfsc.zeroed s).toInit) (B.base.start ((A.give y).wfsc.zeroed s).toInit) m
    rw [← e1, ← e2] at this
    refine Eq.trans ?_ this
    exact congrArg₂ (fun z z' => scRun B _ _ z z' m) e3 e4

end

/-- **C103** If a call of `scalar_born` passes the checks, a linear combination of the values of source amplitudes and
initial wavefields gives the linear combination of the final wavefields and receiver traces, of the background and of
the scattered field. -/
theorem C103_born_superposition (A : UArgs d) (P : Plan d) (s : ℕ) (cf : ℤ) (h : A.setup.plan = .ok P)
    (hs : s < P.nb) (hP : PmlOk P)
    (hloc : ∀ l, A.src = some l ∨ A.rcv = some l ∨ A.bgRcv = some l → WholeIgnored d l s)
    (hcf : checkCallbackFrequency A.opts.callbackFreq = .ok cf) (hi : 0 < P.interval)
    (hnt : A.opts.callback = true ∨ P.ratio * P.interval ≤ P.nt ∨ P.nt ≤ 0) (α β : ℝ) (x y : UVal d) :
    ∃ r r' rc, (A.give x).born s = .ok (some r) ∧ (A.give y).born s = .ok (some r') ∧
      (A.give (x.comb α β y)).born s = .ok (some rc) ∧ rc.out = r.out.comb α β r'.out ∧
      rc.outsc = r.outsc.comb α β r'.outsc ∧
      (∀ i, rc.bgTraces i = (r.bgTraces i).comb α β (r'.bgTraces i) ∧ (r'.bgTraces i).len = (r.bgTraces i).len) ∧
      ∀ i, rc.traces i = (r.traces i).comb α β (r'.traces i) ∧ (r'.traces i).len = (r.traces i).len := by
  rw [plan_ok] at h
  have hF : Fwd A P s cf := ⟨h, hs, hP, hloc, hcf, hi, hnt⟩
  obtain ⟨r, h1, o1, q1, p1, v1⟩ := (hF.give x).result
  obtain ⟨r', h2, o2, q2, p2, v2⟩ := (hF.give y).result
  obtain ⟨rc, h3, o3, q3, p3, v3⟩ := (hF.give (x.comb α β y)).result
  refine ⟨r, r', rc, h1, h2, h3, ?_⟩
  have hu := fun m => (hF.states_comb (cfgOf (shotIn A.setup P A.opts.timeTaper s)) α β x y m).1
  have hu' := fun m => (hF.states_comb (cfgOf (shotIn A.setup P A.opts.timeTaper s)) α β x y m).2
  refine ⟨?_, ?_, fun i => ?_, fun i => ?_⟩
  · rw [o1, o2, o3]
    exact congrArg _ (hu _)
  · rw [q1, q2, q3]
    exact congrArg _ (hu' _)
  · rw [p1, p2, p3]
    exact traces_comb_if h A.opts.timeTaper s α β _ _ _ (fun t i => (congrArg (fun w : St d ℝ =>
      sample _ w.u i) (hu t)).trans (sample_comb _ _ _ _ _ _)) i
  · rw [v1, v2, v3]
    exact traces_comb_if h A.opts.timeTaper s α β _ _ _ (fun t i => (congrArg (fun w : St d ℝ =>
      sample _ w.u i) (hu' t)).trans (sample_comb _ _ _ _ _ _)) i

/-- Twice one pulse minus three times another, with three internal time steps per sample. -/
example : ∃ r r' rc, ((exU .none).give ⟨fun _ _ t => if t = 1 then 1 else 0, fun _ => Wavefields.zero 2,
      fun _ => Wavefields.zero 2⟩).born 1 = .ok (some r) ∧
    ((exU .none).give ⟨fun _ i t => if t = 2 then i else 0, fun _ => Wavefields.zero 2,
      fun _ => Wavefields.zero 2⟩).born 1 = .ok (some r') ∧
    ((exU .none).give (.comb 2 (-3) ⟨fun _ _ t => if t = 1 then 1 else 0, fun _ => Wavefields.zero 2,
      fun _ => Wavefields.zero 2⟩ ⟨fun _ i t => if t = 2 then i else 0, fun _ => Wavefields.zero 2,
      fun _ => Wavefields.zero 2⟩)).born 1 = .ok (some rc) ∧
    rc.traces 0 = (r.traces 0).comb 2 (-3) (r'.traces 0) := by
  obtain ⟨r, r', rc, h1, h2, h3, -, -, -, h4⟩ := C103_born_superposition (exU .none) (exP ![(0, 7), (0, 9)]) 1 1
    (plan_ok.2 exU_whole) (by decide) (.inl (by norm_num [exP, exPl])) (exU_locs (by norm_num))
    rfl (by norm_num [exP, exPl]) (.inr (.inl (by norm_num [exP, exPl]))) 2 (-3) _ _
  exact ⟨r, r', rc, h1, h2, h3, (h4 0).1⟩

end Dw.Born
