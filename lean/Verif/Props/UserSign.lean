import Verif.Setup.Revalue
import Verif.Born.User
import Verif.Acoustic.User
import Verif.Elastic.User
import Verif.Elastic.NegDt

/-!
# The sign of `dt` in `scalar_born`, `acoustic` and `elastic`
-/

namespace Dw.Setup

open Dw.Scalar (SetupArgs_negDt pml_negDt upAmps)

variable {d : ℕ}

def Opts.negDt (O : Opts) : Opts := {O with dt := -O.dt}

/-- The same with the opposite time step and other amplitudes. -/
def ShotIn.negDt (S : ShotIn d) (amps : List (ℕ → ℕ → ℝ)) : ShotIn d :=
  { S with pml := { S.pml with dt := -S.pml.dt }, amps := amps }

/-- The call with the opposite `dt` and other values of amplitudes and wavefields. -/
theorem call_negDt {α β : Type} {pre : Prop} {A : SetupArgs d} {tt : Bool} {cfq : PyNum}
    {run : ℤ → ShotIn d → Except PyErr α} {run' : ℤ → ShotIn d → Except PyErr β} {s : ℕ} {o : α} {o' : β}
    {amps : List (Option AmpT)} {wfs : List (Option (WfT d))}
    (ha : amps.map (Option.map AmpT.size) = A.amps.map (Option.map AmpT.size))
    (hw : wfs.map (Option.map WfT.size) = A.wfs.map (Option.map WfT.size))
    (hrun : ∀ P cf, A.Good P → ∀ S S', S = shotIn A P tt s →
      S' = S.negDt (amps.map fun a => upAmps P tt a s) →
      S'.pml.ab = S.pml.ab → S'.pml.db = S.pml.db → run cf S = .ok o → run' cf S' = .ok o')
    (h : call pre A tt cfq run s = .ok o) :
    call pre {A with dt := -A.dt, amps := amps, wfs := wfs} tt cfq run' s = .ok o' := by
  obtain ⟨h0, P, cf, hP, hcf, hsh⟩ := call_ok.1 h
  have hG := (SetupArgs_negDt hP).revalue (amps := amps) (wfs := wfs) ha hw
  obtain ⟨e1, e2⟩ := pml_negDt P A.staggered
  exact call_ok.2 ⟨h0, _, cf, hG, hcf, hrun P cf hP _ _ rfl rfl e1 e2 hsh⟩

end Dw.Setup

namespace Dw.Born

open Setup Resample
open Dw.Scalar (Finite)

variable {d : ℕ}

/-- The same with the opposite time step. -/
def BCfg.negDt {ns nr nq : ℕ} (B : BCfg d ns nr nq ℝ) : BCfg d ns nr nq ℝ := {B with base := B.base.negDt}

theorem BCfg.forward_negDt {ns nr nq : ℕ} (B : BCfg d ns nr nq ℝ) (gv gs : Bool) (cb : Option ℕ) (nt : ℕ)
    (f fsc : ℕ → Fin ns → ℝ) (w wsc : Scalar.Init d ℝ) :
    B.negDt.forward gv gs cb nt f fsc w wsc =
      B.forward gv gs cb nt f fsc w wsc := by
  have e : B.base.negDt.fwdArgs = B.base.fwdArgs := by
    simp only [Scalar.Cfg.fwdArgs, Scalar.Cfg.negDt, neg_sq]
    rfl
  unfold BCfg.forward BCfg.negDt
  simp only [e]
  rfl

theorem runWith_negDt {ns nr nq : ℕ} {A A' : UArgs d} {w wsc : Scalar.Init d ℝ} {cf : ℤ} {S S' : ShotIn d}
    {B : BCfg d ns nr nq ℝ} (hA : A' = {A with opts := A.opts.negDt}) (hnt : S'.nt = S.nt)
    (hfin : Scalar.Finite S'.pml = Scalar.Finite S.pml) (ha : ∀ j, S'.amp j = S.amp j)
    (htr : ∀ (m : ℕ) (x : ℕ → Fin m → ℝ), S'.traces x = S.traces x) :
    runWith A' w wsc cf S' B.negDt = runWith A w wsc cf S B := by
  subst hA
  unfold runWith
  rw [BCfg.forward_negDt]
  have e1 : (scaleAmp B.negDt.base fun t i => S'.amp 0 t i) = scaleAmp B.base fun t i => S.amp 0 t i := by
    funext t i
    simp only [ha, scaleAmp, BCfg.negDt, Scalar.Cfg.negDt, neg_sq]
  have e2 : (scaleAmpSc B.negDt fun t i => S'.amp 1 t i) = scaleAmpSc B fun t i => S.amp 1 t i := by
    funext t i
    simp only [ha, scaleAmpSc, BCfg.negDt, Scalar.Cfg.negDt, neg_sq]
  rw [e1, e2, hnt, hfin]
  simp only [htr]
  rfl

/-- **C88** (`scalar_born`) The sign of `dt` has no effect. -/
theorem C88_sign_of_dt (A : UArgs d) (s : ℕ) (r : Option (UShot d)) :
    ({A with opts := A.opts.negDt} : UArgs d).born s = .ok r ↔ A.born s = .ok r := by
  have key : ∀ A : UArgs d, A.born s = .ok r → ({A with opts := A.opts.negDt} : UArgs d).born s = .ok r := by
    intro A h
    refine call_negDt rfl rfl ?_ h
    intro P cf hP S S' hS hS' e1 e2 hr
    have hamps : S'.amps = S.amps := by rw [hS', hS]; rfl
    rw [← hr]
    have hfin : Scalar.Finite S'.pml = Scalar.Finite S.pml := by
      unfold Scalar.Finite
      rw [e1, e2]
    have ha : ∀ j, S'.amp j = S.amp j := fun j => by
      unfold ShotIn.amp
      rw [hamps]
    generalize (A.setup.amps.map fun a => Scalar.upAmps P A.opts.timeTaper a s) = am at hS'
    subst hS'
    set S' := S.negDt am with hS'
    have ec : (cfgOf S' : BCfg d (S.src 0).length (S.rcv 0).length (S.rcv 1).length ℝ) =
        (cfgOf S).negDt := by
      unfold cfgOf
      rw [e1, e2]
      rfl
    change runWith ({A with opts := A.opts.negDt} : UArgs d) (A.wf.init s) (A.wfsc.init s) cf S'
      (cfgOf S' : BCfg d (S.src 0).length (S.rcv 0).length (S.rcv 1).length ℝ) =
        runWith A (A.wf.init s) (A.wfsc.init s) cf S (cfgOf S)
    rw [ec]
    exact runWith_negDt rfl rfl hfin ha fun _ _ => rfl
  refine ⟨fun h => ?_, key A⟩
  have := key _ h
  simpa [Opts.negDt] using this

end Dw.Born

namespace Dw.Acoustic

open Setup Resample

variable {d : ℕ}

/-- Initial particle velocities, and the auxiliary fields computed from them, reversed. -/
def UWf.reversed (w : UWf d) : UWf d :=
  ⟨w.p, fun k => (w.v k).map WfT.neg, fun k => (w.phi k).map WfT.neg, w.psi⟩

/-- The arguments with the opposite time step, the opposite amplitudes of pressure sources and the opposite
initial particle velocities. -/
def UArgs.reversed (A : UArgs d) : UArgs d :=
  { A with opts := A.opts.negDt, ampP := A.ampP.map AmpT.neg, wf := A.wf.reversed }

/-- The outputs with the opposite particle velocities. -/
noncomputable def UShot.reversed (r : UShot d) : UShot d :=
  ⟨r.out.reversed, r.tracesP, fun k i => (r.tracesV k i).neg, r.events.map Event.reversed⟩

theorem UWf.reversed_init (w : UWf d) (s : ℕ) : w.reversed.init s = (w.init s).reversed := by
  simp only [UWf.init, UWf.reversed, Init.reversed, Option.map_map]
  rfl

theorem map_neg_size {α β : Type*} (g : α → α) (f : α → β) (h : ∀ a, f (g a) = f a) (o : Option α) :
    (o.map g).map f = o.map f := by
  cases o
  · rfl
  · simp [h]

theorem runWith_negDt {np mp : ℕ} {nv mv : Fin d → ℕ} {A : UArgs d} {w : Init d ℝ} {cf : ℤ}
    {S S' : ShotIn d} {C : Cfg d np mp nv mv ℝ} {o : Option (UShot d)} (hnt : S'.nt = S.nt)
    (hfin : Finite S'.pml = Finite S.pml) (ha0 : S'.amp 0 = fun t i => -S.amp 0 t i)
    (ha : ∀ j, S'.amp (j + 1) = S.amp (j + 1))
    (htr : ∀ (m : ℕ) (x : ℕ → Fin m → ℝ), (S'.traces fun t i => -x t i) = fun i => (S.traces x i).neg)
    (htr' : ∀ (m : ℕ) (x : ℕ → Fin m → ℝ), S'.traces x = S.traces x)
    (hr : runWith A w cf S C = .ok o) :
    runWith A.reversed w.reversed cf S' C.negDt = .ok (o.map UShot.reversed) := by
  have hsP : (scaleAmpP C.negDt fun t i => S'.amp 0 t i) = scaleAmpP C fun t i => S.amp 0 t i := by
    funext t i
    simp only [scaleAmpP, ha0, Cfg.negDt]
    ring
  have hsV : (scaleAmpV C.negDt fun k t i => S'.amp (k + 1) t i) =
      fun k t i => -scaleAmpV C (fun k t i => S.amp (k + 1) t i) k t i := by
    funext k t i
    simp only [scaleAmpV, ha, Cfg.negDt]
    ring
  unfold runWith at hr ⊢
  rw [hsP, hsV, Cfg.forward_negDt, hnt, hfin]
  cases hf : C.forward A.gradK A.gradB (A.opts.cb cf) S.nt.toNat
    (scaleAmpP C fun t i => S.amp 0 t i) (scaleAmpV C fun k t i => S.amp (k + 1) t i) w with
  | error e => rw [hf] at hr; cases hr
  | ok r =>
      rw [hf] at hr
      simp only [bind, Except.bind, pure, Except.pure, Except.ok.injEq] at hr
      rw [← hr, show A.reversed.gradK = A.gradK from rfl, show A.reversed.gradB = A.gradB from rfl,
        show A.reversed.opts.cb cf = A.opts.cb cf from rfl, hf]
      simp only [Except.map, bind, Except.bind, pure, Except.pure]
      split_ifs
      · simp only [FResult.reversed, htr, htr', Option.map_some, UShot.reversed]
      · rfl

/-- **C88** (`acoustic`) With the opposite `dt`, the opposite amplitudes of pressure sources and the opposite
initial particle velocities, the pressures are the same and the particle velocities the opposite. -/
theorem C88_sign_of_dt (A : UArgs d) (s : ℕ) (o : Option (UShot d)) (h : A.acoustic s = .ok o) :
    A.reversed.acoustic s = .ok (o.map UShot.reversed) := by
  refine call_negDt (A := A.setup) (amps := A.reversed.setup.amps) (wfs := A.reversed.setup.wfs) ?_ ?_ ?_ h
  · show List.map _ (A.ampP.map AmpT.neg :: List.ofFn A.ampV) = List.map _ (A.ampP :: List.ofFn A.ampV)
    simp only [List.map_cons]
    rw [map_neg_size AmpT.neg AmpT.size fun _ => rfl]
  · show List.map _ A.wf.reversed.list = List.map _ A.wf.list
    simp only [UWf.list, UWf.reversed, List.map_append, List.map_ofFn, Function.comp_def,
      map_neg_size WfT.neg WfT.size fun _ => rfl]
  · intro P cf hP S S' hS hS' e1 e2 hr
    have hfin : Finite S'.pml = Finite S.pml := by
      unfold Finite
      rw [e1]
    have ha0 : S'.amp 0 = fun t i => -S.amp 0 t i := by
      rw [hS', hS]
      exact upAmps_neg hP _ _ _
    have ha : ∀ j, S'.amp (j + 1) = S.amp (j + 1) := fun j => by
      rw [hS', hS]
      rfl
    have htr : ∀ (m : ℕ) (x : ℕ → Fin m → ℝ), (S'.traces fun t i => -x t i) = fun i => (S.traces x i).neg := by
      intro m x
      rw [hS', hS]
      funext i
      exact traces_neg hP _ s x i
    have htr' : ∀ (m : ℕ) (x : ℕ → Fin m → ℝ), S'.traces x = S.traces x := by
      intro m x
      rw [hS']
      rfl
    generalize (A.reversed.setup.amps.map fun a => Scalar.upAmps P A.reversed.opts.timeTaper a s) = am at hS'
    subst hS'
    set S' := S.negDt am with hS'
    have ec : (cfgOf A.rfmax S' : Cfg d (S.src 0).length (S.rcv 0).length (fun k => (S.src (k + 1)).length)
        (fun k => (S.rcv (k + 1)).length) ℝ) = (cfgOf A.rfmax S).negDt := by
      unfold cfgOf
      rw [e1]
      rfl
    change runWith A.reversed (A.wf.reversed.init s) cf S' (cfgOf A.rfmax S' : Cfg d (S.src 0).length
      (S.rcv 0).length (fun k => (S.src (k + 1)).length) (fun k => (S.rcv (k + 1)).length) ℝ) = _
    rw [ec, UWf.reversed_init]
    exact runWith_negDt (S := S) (S' := S') rfl hfin ha0 ha htr htr' hr

end Dw.Acoustic

namespace Dw.Elastic

open Setup Resample
open Dw.Acoustic (Finite map_neg_size)

variable {d : ℕ}

/-- Initial particle velocities, and the auxiliary fields computed from them, reversed. -/
def UWf.reversed (w : UWf d) : UWf d :=
  ⟨fun k => (w.v k).map WfT.neg, w.s, w.sh, fun i j => (w.mv i j).map WfT.neg, w.ms⟩

/-- The arguments with the opposite time step, the opposite amplitudes of pressure sources and the opposite
initial particle velocities. -/
def UArgs.reversed (A : UArgs d) : UArgs d :=
  { A with opts := A.opts.negDt, ampP := A.ampP.map AmpT.neg, wf := A.wf.reversed }

/-- The outputs with the opposite particle velocities. -/
noncomputable def UShot.reversed (r : UShot d) : UShot d :=
  ⟨r.out.reversed, fun k i => (r.tracesV k i).neg, r.tracesP, r.events.map Event.reversed⟩

theorem UWf.reversed_init (w : UWf d) (s : ℕ) : w.reversed.init s = (w.init s).reversed := by
  simp only [UWf.init, UWf.reversed, Init.reversed, Option.map_map]
  rfl

theorem runWith_negDt {np mp : ℕ} {nv mv : Fin d → ℕ} {A : UArgs d} {w : Init d ℝ} {cf : ℤ}
    {S S' : ShotIn d} {C : Cfg d np mp nv mv ℝ} {o : Option (UShot d)} (hnt : S'.nt = S.nt)
    (hfin : Finite S'.pml = Finite S.pml) (ha0 : S'.amp d = fun t i => -S.amp d t i)
    (ha : ∀ j < d, S'.amp j = S.amp j)
    (htr : ∀ (m : ℕ) (x : ℕ → Fin m → ℝ), (S'.traces fun t i => -x t i) = fun i => (S.traces x i).neg)
    (htr' : ∀ (m : ℕ) (x : ℕ → Fin m → ℝ), S'.traces x = S.traces x)
    (hr : runWith A w cf S C = .ok o) :
    runWith A.reversed w.reversed cf S' C.negDt = .ok (o.map UShot.reversed) := by
  have hsP : (scaleAmpP C.negDt fun t i => S'.amp d t i) = scaleAmpP C fun t i => S.amp d t i := by
    funext t i
    simp only [scaleAmpP, ha0, Cfg.negDt]
    ring
  have hsV : (scaleAmpV C.negDt fun k t i => S'.amp k t i) =
      fun k t i => -scaleAmpV C (fun k t i => S.amp k t i) k t i := by
    funext k t i
    simp only [scaleAmpV, ha k k.2, Cfg.negDt]
    ring
  unfold runWith at hr ⊢
  rw [hsP, hsV, Cfg.forward_negDt, hnt, hfin]
  cases hf : C.forward A.gradL A.gradM A.gradB (A.opts.cb cf) S.nt.toNat
    (scaleAmpP C fun t i => S.amp d t i) (scaleAmpV C fun k t i => S.amp k t i) w with
  | error e => rw [hf] at hr; cases hr
  | ok r =>
      rw [hf] at hr
      simp only [bind, Except.bind, pure, Except.pure, Except.ok.injEq] at hr
      rw [← hr, show A.reversed.gradL = A.gradL from rfl,
        show A.reversed.gradM = A.gradM from rfl, show A.reversed.gradB = A.gradB from rfl,
        show A.reversed.opts.cb cf = A.opts.cb cf from rfl, hf]
      simp only [Except.map, bind, Except.bind, pure, Except.pure]
      split_ifs
      · simp only [FResult.reversed, htr, htr', Option.map_some, UShot.reversed]
      · rfl

/-- **C88** (`elastic`) With the opposite `dt`, the opposite amplitudes of pressure sources and the opposite
initial particle velocities, the pressures are the same and the particle velocities the opposite. -/
theorem C88_sign_of_dt (A : UArgs d) (s : ℕ) (o : Option (UShot d)) (h : A.elastic s = .ok o) :
    A.reversed.elastic s = .ok (o.map UShot.reversed) := by
  refine call_negDt (A := A.setup) (amps := A.reversed.setup.amps) (wfs := A.reversed.setup.wfs) ?_ ?_ ?_ h
  · show List.map _ (List.ofFn A.ampV ++ [A.ampP.map AmpT.neg]) = List.map _ (List.ofFn A.ampV ++ [A.ampP])
    simp only [List.map_append, List.map_cons]
    rw [map_neg_size AmpT.neg AmpT.size fun _ => rfl]
  · show List.map _ A.wf.reversed.list = List.map _ A.wf.list
    simp only [UWf.list, UWf.reversed, List.map_append, List.map_ofFn, List.map_flatMap, Function.comp_def,
      map_neg_size WfT.neg WfT.size fun _ => rfl]
  · intro P cf hP S S' hS hS' e1 e2 hr
    have hfin : Finite S'.pml = Finite S.pml := by
      unfold Acoustic.Finite
      rw [e1]
    have hS1 : ∀ j, S.amp j = ((List.ofFn A.ampV ++ [A.ampP]).map fun a =>
        Scalar.upAmps P A.opts.timeTaper a s).getD j fun _ _ => 0 := fun j => by
      rw [hS]
      rfl
    have hS2 : ∀ j, S'.amp j = ((List.ofFn A.ampV ++ [A.ampP.map AmpT.neg]).map fun a =>
        Scalar.upAmps P A.opts.timeTaper a s).getD j fun _ _ => 0 := fun j => by
      rw [hS']
      rfl
    have ha0 : S'.amp d = fun t i => -S.amp d t i := by
      rw [hS1, hS2]
      simp only [List.map_append, List.getD_eq_getElem?_getD]
      rw [List.getElem?_append_right (by simp), List.getElem?_append_right (by simp)]
      simpa using upAmps_neg hP A.opts.timeTaper A.ampP s
    have ha : ∀ j < d, S'.amp j = S.amp j := fun j hj => by
      rw [hS1, hS2]
      simp only [List.map_append, List.getD_eq_getElem?_getD]
      rw [List.getElem?_append_left (by simpa using hj), List.getElem?_append_left (by simpa using hj)]
    have htr : ∀ (m : ℕ) (x : ℕ → Fin m → ℝ), (S'.traces fun t i => -x t i) = fun i => (S.traces x i).neg := by
      intro m x
      rw [hS', hS]
      funext i
      exact traces_neg hP _ s x i
    have htr' : ∀ (m : ℕ) (x : ℕ → Fin m → ℝ), S'.traces x = S.traces x := by
      intro m x
      rw [hS']
      rfl
    generalize (A.reversed.setup.amps.map fun a => Scalar.upAmps P A.reversed.opts.timeTaper a s) = am at hS'
    subst hS'
    set S' := S.negDt am with hS'
    have ec : (cfgOf A.rfmax S' : Cfg d (S.src d).length (S.rcv d).length (fun k => (S.src k).length)
        (fun k => (S.rcv k).length) ℝ) = (cfgOf A.rfmax S).negDt := by
      unfold cfgOf
      rw [e1]
      rfl
    change runWith A.reversed (A.wf.reversed.init s) cf S' (cfgOf A.rfmax S' : Cfg d (S.src d).length
      (S.rcv d).length (fun k => (S.src k).length) (fun k => (S.rcv k).length) ℝ) = _
    rw [ec, UWf.reversed_init]
    exact runWith_negDt (S := S) (S' := S') rfl hfin ha0 ha htr htr' hr

end Dw.Elastic
