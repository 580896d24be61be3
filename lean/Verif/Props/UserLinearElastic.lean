import Verif.Setup.Linear
import Verif.Elastic.UserGrad
import Verif.Props.ElasticLinear
import Verif.Props.UserGradElastic

/-!
# Superposition for calls of `elastic`
-/

namespace Dw.Elastic

open Setup Resample
open Dw.Scalar (PmlOk WholeIgnored upAmps sample sample_comb)

variable {d : ℕ}

/-- The wavefields that are given with other values. -/
def UWf.give (w : UWf d) (x : ℕ → Wavefields d ℝ) : UWf d :=
  { v := fun i => wfWith (w.v i) fun s => (x s).v i
    s := fun i => wfWith (w.s i) fun s => (x s).s i
    sh := fun p => wfWith (w.sh p) fun s => (x s).sh p
    mv := fun i j => wfWith (w.mv i j) fun s => (x s).mv i j
    ms := fun i j => wfWith (w.ms i j) fun s => (x s).ms i j }

/-- The values of the amplitudes and initial wavefields of a call. -/
structure UVal (d : ℕ) where
  ampP : ℕ → ℕ → ℕ → ℝ
  ampV : Fin d → ℕ → ℕ → ℕ → ℝ
  wf : ℕ → Wavefields d ℝ

/-- The call with these values in the amplitudes and initial wavefields that `A` has; tensors that are not given
stay so. -/
def UArgs.give (A : UArgs d) (x : UVal d) : UArgs d :=
  { A with
    ampP := ampWith A.ampP x.ampP
    ampV := fun k => ampWith (A.ampV k) (x.ampV k)
    wf := A.wf.give x.wf }

noncomputable def UVal.comb (α β : ℝ) (x y : UVal d) : UVal d :=
  { ampP := fun s i t => α * x.ampP s i t + β * y.ampP s i t
    ampV := fun k s i t => α * x.ampV k s i t + β * y.ampV k s i t
    wf := fun s => (x.wf s).comb α β (y.wf s) }

theorem give_good {A : UArgs d} {P : Plan d} (h : A.setup.Good P) (x : UVal d) : (A.give x).setup.Good P :=
  h.revalue (amps := List.ofFn (A.give x).ampV ++ [(A.give x).ampP]) (wfs := (A.give x).wf.list)
    (by simp only [UArgs.setup, Opts.setup, UArgs.give, List.map_append, List.map_cons, List.map_nil,
      List.map_ofFn, Function.comp_def, ampWith_size])
    (by simp only [UArgs.setup, Opts.setup, UArgs.give, UWf.list, UWf.give, List.map_append, List.map_flatMap,
      List.map_ofFn, Function.comp_def, wfWith_size, apply_dite (Option.map WfT.size)])

/-- The states of the propagator of shot `s`. -/
noncomputable def UArgs.states {np mp : ℕ} {nv mv : Fin d → ℕ} (A : UArgs d) (C : Cfg d np mp nv mv ℝ) (P : Plan d) (s : ℕ) :
    ℕ → Wavefields d ℝ :=
  C.run (scaleAmpP C fun t i => upAmps P A.opts.timeTaper A.ampP s t i)
    (scaleAmpV C fun k t i => upAmps P A.opts.timeTaper (A.ampV k) s t i) (C.prepare (A.wf.zeroed s).toInit)

section
variable {A : UArgs d} {P : Plan d} {s : ℕ} {cf : ℤ} (h : Fwd A P s cf)
include h

theorem Fwd.give (x : UVal d) : Fwd (A.give x) P s cf :=
  ⟨give_good h.good x, h.pre, h.lt, h.pml, h.loc, h.last, h.freq, h.interval, h.nt⟩

/-- The outputs of a call in terms of the propagator. -/
theorem Fwd.result : ∃ r, A.elastic s = .ok (some r) ∧
    let S := shotIn A.setup P A.opts.timeTaper s
    let C := cfgOf A.rfmax S
    let T := P.nt.toNat / C.ratio * C.ratio
    r.out = C.unpadAll (A.states C P s T) ∧
    let x := S.traces (fun t => if t < T then sample C.rcvP (A.states C P s t).prs else fun _ => 0)
    (r.tracesP = fun i => ⟨(x i).len, fun t => -(x i).val t / d⟩) ∧
    r.tracesV = fun k => S.traces (fun t => if t < T then sample (C.rcvV k) ((A.states C P s t).v k) else fun _ => 0) := by
  obtain ⟨r, hrun, hout, htp, htv⟩ := runWith_spec A (A.wf.init s) cf
    (shotIn A.setup P A.opts.timeTaper s) (cfgOf A.rfmax (shotIn A.setup P A.opts.timeTaper s)) h.wf h.ratio
    (cb_pos h.freq h.ratio h.nt) (finite_of_pmlOk' h.good h.pml true)
  have haV : (fun (k : Fin d) (t : ℕ) (i : Fin ((shotIn A.setup P A.opts.timeTaper s).src k).length) =>
      (shotIn A.setup P A.opts.timeTaper s).amp k t i) =
      fun k t (i : Fin _) => upAmps P A.opts.timeTaper (A.ampV k) s t i := by
    funext k t i
    have e : A.setup.amps[(k : ℕ)]? = some (A.ampV k) := get_v A.ampV A.ampP k
    rw [amp_eq _ _ _ _ e]
  have haP : (fun (t : ℕ) (i : Fin ((shotIn A.setup P A.opts.timeTaper s).src d).length) =>
      (shotIn A.setup P A.opts.timeTaper s).amp d t i) =
      fun t (i : Fin _) => upAmps P A.opts.timeTaper A.ampP s t i := by
    funext t i
    have e : A.setup.amps[d]? = some A.ampP := get_p A.ampV A.ampP
    rw [amp_eq _ _ _ _ e]
  rw [haV, haP] at hout htp htv
  refine ⟨r, call_ok.2 ⟨h.pre, P, cf, h.good, h.freq, hrun⟩, ?_⟩
  unfold UArgs.states
  dsimp only
  rw [prepare_zeroed]
  exact ⟨hout, htp, htv⟩

/-- The states are linear in the values of the inputs. -/
theorem Fwd.states_comb {np mp : ℕ} {nv mv : Fin d → ℕ} (C : Cfg d np mp nv mv ℝ) (α β : ℝ) (x y : UVal d) (m : ℕ) :
    (A.give (x.comb α β y)).states C P s m =
      ((A.give x).states C P s m).comb α β ((A.give y).states C P s m) := by
  unfold UArgs.states
  rw [← run_comb]
  congr 1
  · funext t i
    simp only [scaleAmpP, UArgs.give, UVal.comb, upAmps_comb h.good]
    ring
  · funext k t i
    simp only [scaleAmpV, UArgs.give, UVal.comb, upAmps_comb h.good]
    ring
  · refine Eq.trans ?_ (prepare_comb α β _ _)
    change C.prepare _ = C.prepare (Wavefields.toInit _)
    congr 2
    simp only [UWf.zeroed, UWf.init, UArgs.give, UWf.give, UVal.comb, Wavefields.comb, wfWith_comb]

end

/-- The pressure is a multiple of the recorded sum. -/
theorem comb_mean (α β : ℝ) (n : ℕ) {x y z : Sig ℝ} (h : z = x.comb α β y ∧ y.len = x.len) :
    (⟨z.len, fun t => -z.val t / n⟩ : Sig ℝ) =
      Sig.comb α β ⟨x.len, fun t => -x.val t / n⟩ ⟨y.len, fun t => -y.val t / n⟩ ∧ y.len = x.len := by
  refine ⟨?_, h.2⟩
  rw [h.1]
  unfold Sig.comb
  congr 1
  funext t
  dsimp only
  ring

/-- **C103** If a call of `elastic` passes the checks, with any time step and wavefields, a linear combination of the
values of source amplitudes and initial wavefields gives the linear combination of the final wavefields and
receiver traces. -/
theorem C103_elastic_superposition (A : UArgs d) (P : Plan d) (s : ℕ) (cf : ℤ) (h : A.setup.plan = .ok P)
    (hpre : ¬A.Pre) (hs : s < P.nb) (hP : PmlOk P)
    (hloc : ∀ l, some l ∈ A.setup.srcs ++ A.setup.rcvs → WholeIgnored d l s)
    (hlast : ∀ k, 0 < P.w1 k ∨ (P.ext k).2 = A.lam.shape k ∨ P.BeforeLast k s (A.srcV k) ∧ P.BeforeLast k s (A.rcvV k))
    (hcf : checkCallbackFrequency A.opts.callbackFreq = .ok cf) (hi : 0 < P.interval)
    (hnt : A.opts.callback = true ∨ P.ratio * P.interval ≤ P.nt ∨ P.nt ≤ 0) (α β : ℝ) (x y : UVal d) :
    ∃ r r' rc, (A.give x).elastic s = .ok (some r) ∧ (A.give y).elastic s = .ok (some r') ∧
      (A.give (x.comb α β y)).elastic s = .ok (some rc) ∧ rc.out = r.out.comb α β r'.out ∧
      (∀ i, rc.tracesP i = (r.tracesP i).comb α β (r'.tracesP i) ∧ (r'.tracesP i).len = (r.tracesP i).len) ∧
      ∀ k i, rc.tracesV k i = (r.tracesV k i).comb α β (r'.tracesV k i) ∧
        (r'.tracesV k i).len = (r.tracesV k i).len := by
  rw [plan_ok] at h
  have hF : Fwd A P s cf := ⟨h, hpre, hs, hP, hloc, hlast, hcf, hi, hnt⟩
  obtain ⟨r, h1, o1, p1, v1⟩ := (hF.give x).result
  obtain ⟨r', h2, o2, p2, v2⟩ := (hF.give y).result
  obtain ⟨rc, h3, o3, p3, v3⟩ := (hF.give (x.comb α β y)).result
  refine ⟨r, r', rc, h1, h2, h3, ?_⟩
  have hu := hF.states_comb (cfgOf A.rfmax (shotIn A.setup P A.opts.timeTaper s)) α β x y
  refine ⟨?_, fun i => ?_, fun k i => ?_⟩
  · rw [o1, o2, o3]
    exact congrArg _ (hu _)
  · rw [p1, p2, p3]
    refine comb_mean α β d (traces_comb_if h A.opts.timeTaper s α β _ _ _ (fun t i => (congrArg (fun w : Wavefields d ℝ =>
      sample (cfgOf A.rfmax (shotIn A.setup P A.opts.timeTaper s)).rcvP w.prs i) (hu t)).trans
        ((congrArg (fun f => sample _ f i) (prs_comb α β _ _)).trans (sample_comb _ _ _ _ _ _))) i)
  · rw [v1, v2, v3]
    exact traces_comb_if h A.opts.timeTaper s α β _ _ _ (fun t i => (congrArg (fun w : Wavefields d ℝ =>
      sample _ (w.v k) i) (hu t)).trans (sample_comb _ _ _ _ _ _)) i

/-- Twice the pulse of the pressure source minus three times that of the velocity sources. -/
example : ∃ r r' rc, ((exU .none).give ⟨fun _ _ t => if t = 1 then 1 else 0, fun _ _ _ _ => 0,
      fun _ => ⟨fun _ _ => 0, fun _ _ => 0, fun _ _ => 0, fun _ _ _ => 0, fun _ _ _ => 0⟩⟩).elastic 1 = .ok (some r) ∧
    ((exU .none).give ⟨fun _ _ _ => 0, fun _ _ _ t => if t = 2 then 1 else 0,
      fun _ => ⟨fun _ _ => 0, fun _ _ => 0, fun _ _ => 0, fun _ _ _ => 0, fun _ _ _ => 0⟩⟩).elastic 1 = .ok (some r') ∧
    ((exU .none).give (.comb 2 (-3) ⟨fun _ _ t => if t = 1 then 1 else 0, fun _ _ _ _ => 0,
      fun _ => ⟨fun _ _ => 0, fun _ _ => 0, fun _ _ => 0, fun _ _ _ => 0, fun _ _ _ => 0⟩⟩
      ⟨fun _ _ _ => 0, fun _ _ _ t => if t = 2 then 1 else 0,
      fun _ => ⟨fun _ _ => 0, fun _ _ => 0, fun _ _ => 0, fun _ _ _ => 0, fun _ _ _ => 0⟩⟩)).elastic 1 = .ok (some rc) ∧
    rc.tracesP 0 = (r.tracesP 0).comb 2 (-3) (r'.tracesP 0) := by
  obtain ⟨r, r', rc, h1, h2, h3, -, h4, -⟩ := C103_elastic_superposition (exU .none) (exP ![(0, 7), (0, 9)]) 1 1
    (plan_ok.2 exU_whole) (exU_pre .none) (by decide) (.inl (by norm_num [exP, exPl]))
    (fun l hl => Born.exLoc_whole (by decide) (exU_locs .none l hl))
    (fun k => .inl (by fin_cases k <;> norm_num [exP, exPl, Plan.w1]))
    rfl (by norm_num [exP, exPl]) (.inr (.inl (by norm_num [exP, exPl]))) 2 (-3) _ _
  exact ⟨r, r', rc, h1, h2, h3, (h4 0).1⟩

end Dw.Elastic
