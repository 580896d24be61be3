import Verif.Born.UserBackend
import Verif.Props.BornMore
import Verif.Props.UserReturns

/-!
# Calls of `scalar_born` do not depend on the backend

`A.born s` are the outputs of shot `s` with the functions compiled for the CPU, `A.bornOn D` those of all
shots on the CPU with several threads or on a CUDA device, `A.bornPy s` those of the Python backend.
-/

namespace Dw.Born

open Setup Resample
open Dw.Scalar (NoElements PmlOk WholeIgnored locAt Init)

variable {d : ℕ}

/-- **C107** `scalar_born` gives every shot the same outputs (final wavefields, traces and what the callback is
shown) on the CPU with any number of threads and any order in which they run, and on a CUDA device with any order
of the threads of its kernels, as when the shot is propagated alone. -/
theorem C107_born_devices (A : UArgs d) (P : Plan d) (cf : ℤ) (hnb : 0 < P.nb) (hne : ¬NoElements A.v)
    (hA : ∀ s < P.nb, Fwd A P s cf) (D : (ns S : ℕ) → Device d ns S)
    (hD : (D _ _).Admissible (batch (locAt P.srcs 0).n (locAt P.rcvs 0).n (locAt P.rcvs 1).n P
      (shotIn A.setup P A.opts.timeTaper)) (A.opts.cb cf) P.nt.toNat) :
    ∃ l, A.bornOn D = .ok (some l) ∧ l.length = P.nb ∧
      ∀ s < P.nb, ∃ r, l[s]? = some r ∧ A.born s = .ok (some r) := by
  classical
  have h := (hA 0 hnb).good
  have hplan := plan_ok.2 h
  have hcf := (hA 0 hnb).freq
  let In := shotIn A.setup P A.opts.timeTaper
  let B := batch (locAt P.srcs 0).n (locAt P.rcvs 0).n (locAt P.rcvs 1).n P In
  have hN : 0 < P.nt.toNat → 0 < (A.opts.cb cf).getD (P.nt.toNat / B.base.base.ratio) :=
    cb_pos hcf (hA 0 hnb).ratio (hA 0 hnb).nt
  have e1 : ∀ s, (locAt P.srcs 0).n = ((In s).src 0).length := fun s => (src_count _ _ _ _ _).symm
  have e2 : ∀ s, (locAt P.rcvs 0).n = ((In s).rcv 0).length := fun s => (rcv_count _ _ _ _ _).symm
  have e3 : ∀ s, (locAt P.rcvs 1).n = ((In s).rcv 1).length := fun s => (rcv_count _ _ _ _ _).symm
  have hal : ∀ s, B.alone s = cfgN _ _ _ (In s) := fun s => (B.alone_eq s).trans (batch_cfg h _ _ _ s)
  have hwf : ∀ s, (B.alone s).WF := fun s => by
    rw [hal]
    exact cfgN_wf (e1 s) (e2 s) (e3 s) (hA s s.isLt).wf
  obtain ⟨q, hq, hall⟩ : ∃ q, (D _ _).forward B A.gradV A.gradS (A.opts.cb cf) P.nt.toNat
      (fun s => scaleAmp (B.cfg s).base fun t i => (In s).amp 0 t i)
      (fun s => scaleAmpSc (B.cfg s) fun t i => (In s).amp 1 t i) (fun s => A.wf.init s) (fun s => A.wfsc.init s) = .ok q ∧
      ∀ s, (B.alone s).forward A.gradV A.gradS (A.opts.cb cf) P.nt.toNat
        (scaleAmp (B.cfg s).base fun t i => (In s).amp 0 t i)
        (scaleAmpSc (B.cfg s) fun t i => (In s).amp 1 t i) (A.wf.init s) (A.wfsc.init s) =
        .ok ⟨q.out s, q.outsc s, q.rcd s, q.rcdsc s, q.w s, q.wsc s, q.events.map fun e => e s⟩ := by
    cases hDD : D (locAt P.srcs 0).n P.nb with
    | cpu n σ =>
        rw [hDD] at hD
        exact C70_born_forward B (hA 0 hnb).ratio A.gradV A.gradS _ _ hN _ _ _ _ σ hD
    | cuda κ =>
        rw [hDD] at hD
        exact C71_born_forward B (fun s => (hwf s).base) (hA 0 hnb).ratio
          (fun s i j c hi hj => Fin.ext (src_distinct h s.isLt A.opts.timeTaper (j := 0) rfl
            (fun l hl => (hA s s.isLt).loc l (.inl hl)) hi hj))
          A.gradV A.gradS _ _ hN _ _ _ _ κ hD
  have hfin : Scalar.Finite (In 0).pml := Scalar.finite_of_pmlOk h (hA 0 hnb).pml false
  refine ⟨_, ?_, List.length_ofFn (f := fun s : Fin P.nb => (⟨q.out s, q.outsc s, (In s).traces (q.rcd s),
      (In s).traces (q.rcdsc s), q.events.map fun e => e s⟩ : UShot d)),
    fun s hs => ⟨_, List.getElem?_ofFn.trans (dif_pos hs), ?_⟩⟩
  · unfold UArgs.bornOn
    have h1 : raiseIf (NoElements A.v) .runtimeError = .ok () := raiseIf_ok.2 hne
    simp only [h1, hplan, hcf, bind, Except.bind]
    unfold shotsWith
    refine (congrArg (fun x : Except PyErr _ => x.bind _) hq).trans ?_
    exact congrArg Except.ok (if_pos hfin)
  · refine call_ok.2 ⟨hne, P, cf, h, hcf, ?_⟩
    have hf := hall ⟨s, hs⟩
    rw [hal, (B.alone_eq _).symm.trans (hal _)] at hf
    refine (runWith_cfgN A (A.wf.init s) (A.wfsc.init s) cf (e1 s) (e2 s) (e3 s)).symm.trans ?_
    unfold runWith
    refine (congrArg (fun x : Except PyErr _ => x.bind _) hf).trans ?_
    exact congrArg Except.ok (if_pos hfin)

/-- **C107** `scalar_born` with `python_backend` returns the same final wavefields and traces as the compiled
functions, and calls the callback at the same steps with the same wavefields; the memory variables shown at step 0
are excluded. -/
theorem C107_born_python (A : UArgs d) (P : Plan d) (s : ℕ) (cf : ℤ) (hne : ¬NoElements A.v) (hA : Fwd A P s cf)
    (hnt : P.ratio * P.interval ≤ P.nt) : ∃ r p, A.born s = .ok (some r) ∧ A.bornPy s = .ok (some p) ∧
      p.out = r.out ∧ p.outsc = r.outsc ∧ p.bgTraces = r.bgTraces ∧ p.traces = r.traces ∧
      List.Forall₂ SameEvent p.events r.events := by
  classical
  have hfin : Scalar.Finite (shotIn A.setup P A.opts.timeTaper s).pml := Scalar.finite_of_pmlOk hA.good hA.pml false
  have hcf0 : 0 < cf := by
    have hcf := hA.freq
    unfold checkCallbackFrequency at hcf
    split at hcf
    · split_ifs at hcf with h2
      cases hcf
      omega
    · cases hcf
  let S := shotIn A.setup P A.opts.timeTaper s
  obtain ⟨r, p, e1, e2, e3, e4, e5, e6, e7⟩ := C72_born_backends_agree hA.wf.base hA.ratio A.gradV A.gradS (A.opts.cb cf)
    (fun c hc => by
      unfold Opts.cb at hc
      split_ifs at hc
      cases hc
      omega) P.nt.toNat (by show (P.ratio * P.interval).toNat ≤ _; omega)
    (scaleAmp (cfgOf S).base fun t i => S.amp 0 t i) (scaleAmpSc (cfgOf S) fun t i => S.amp 1 t i)
    (A.wf.init s) (A.wfsc.init s)
  refine ⟨⟨r.out, r.outsc, S.traces r.rcd, S.traces r.rcdsc, r.events⟩,
    ⟨p.out, p.outsc, S.traces p.rcd, S.traces p.rcdsc, p.events⟩,
    call_ok.2 ⟨hne, P, cf, hA.good, hA.freq, ?_⟩, call_ok.2 ⟨hne, P, cf, hA.good, hA.freq, ?_⟩, e3, e4,
    congrArg S.traces e5, congrArg S.traces e6, e7⟩
  · unfold UArgs.run runWith
    refine (congrArg (fun x : Except PyErr _ => x.bind _) e1).trans ?_
    exact congrArg Except.ok (if_pos hfin)
  · unfold UArgs.runPy
    refine (congrArg (fun x : Except PyErr _ => x.bind _) e2).trans ?_
    exact congrArg Except.ok (if_pos hfin)

end Dw.Born
