import Verif.Acoustic.UserBackend
import Verif.Props.AcousticMore
import Verif.Props.UserReturns

/-!
# Calls of `acoustic` do not depend on the backend

`A.acoustic s` are the outputs of shot `s` with the functions compiled for the CPU, `A.acousticOn D` those of all
shots on the CPU with several threads or on a CUDA device, `A.acousticPy s` those of the Python backend.
-/

namespace Dw.Acoustic

open Setup Resample
open Dw.Scalar (NoElements PmlOk WholeIgnored locAt)

variable {d : ℕ}

/-- **C107** `acoustic` gives every shot the same outputs (final wavefields, traces and what the callback is shown)
on the CPU with any number of threads and any order in which they run, and on a CUDA device with any order of
the threads of its kernels, as when the shot is propagated alone. -/
theorem C107_acoustic_devices (A : UArgs d) (P : Plan d) (cf : ℤ) (hnb : 0 < P.nb)
    (hA : ∀ s < P.nb, Fwd A P s cf) (D : (np : ℕ) → (nv : Fin d → ℕ) → (S : ℕ) → Device d np nv S)
    (hD : (D _ _ _).Admissible (batch (locAt P.srcs 0).n (locAt P.rcvs 0).n (fun k => (locAt P.srcs (k + 1)).n)
      (fun k => (locAt P.rcvs (k + 1)).n) A.rfmax P (shotIn A.setup P A.opts.timeTaper)) (A.opts.cb cf) P.nt.toNat) :
    ∃ l, A.acousticOn D = .ok (some l) ∧ l.length = P.nb ∧
      ∀ s < P.nb, ∃ r, l[s]? = some r ∧ A.acoustic s = .ok (some r) := by
  classical
  have h := (hA 0 hnb).good
  have hplan := plan_ok.2 h
  have hne := (hA 0 hnb).pre
  have hcf := (hA 0 hnb).freq
  let In := shotIn A.setup P A.opts.timeTaper
  let B := batch (locAt P.srcs 0).n (locAt P.rcvs 0).n (fun k : Fin d => (locAt P.srcs (k + 1)).n)
    (fun k : Fin d => (locAt P.rcvs (k + 1)).n) A.rfmax P In
  have hN : 0 < P.nt.toNat → 0 < (A.opts.cb cf).getD (P.nt.toNat / B.base.ratio) :=
    cb_pos hcf (hA 0 hnb).ratio (hA 0 hnb).nt
  have e1 : ∀ s, (locAt P.srcs 0).n = ((In s).src 0).length := fun s => (src_count _ _ _ _ _).symm
  have e2 : ∀ s, (locAt P.rcvs 0).n = ((In s).rcv 0).length := fun s => (rcv_count _ _ _ _ _).symm
  have e3 : ∀ s, (fun k : Fin d => (locAt P.srcs (k + 1)).n) = fun k : Fin d => ((In s).src (k + 1)).length :=
    fun s => funext fun k => (src_count _ _ _ _ _).symm
  have e4 : ∀ s, (fun k : Fin d => (locAt P.rcvs (k + 1)).n) = fun k : Fin d => ((In s).rcv (k + 1)).length :=
    fun s => funext fun k => (rcv_count _ _ _ _ _).symm
  have hal : ∀ s, B.alone s = cfgN _ _ _ _ A.rfmax (In s) := fun s => (B.alone_eq s).trans (batch_cfg h _ _ _ _ s)
  have hwf : ∀ s, (B.alone s).WF := fun s => by
    rw [hal]
    exact cfgN_wf (e1 s) (e2 s) (e3 s) (e4 s) (hA s s.isLt).wf
  obtain ⟨q, hq, hall⟩ : ∃ q, (D _ _ _).forward B A.gradK A.gradB (A.opts.cb cf) P.nt.toNat
      (fun s => scaleAmpP (B.cfg s) fun t i => (In s).amp 0 t i)
      (fun s => scaleAmpV (B.cfg s) fun k t i => (In s).amp (k + 1) t i) (fun s => A.wf.init s) = .ok q ∧
      ∀ s, (B.alone s).forward A.gradK A.gradB (A.opts.cb cf) P.nt.toNat
        (scaleAmpP (B.cfg s) fun t i => (In s).amp 0 t i)
        (scaleAmpV (B.cfg s) fun k t i => (In s).amp (k + 1) t i) (A.wf.init s) =
        .ok ⟨q.out s, q.rcdP s, q.rcdV s, q.storeK s, q.storeB s, q.events.map fun e => e s⟩ := by
    cases hDD : D (locAt P.srcs 0).n (fun k : Fin d => (locAt P.srcs (k + 1)).n) P.nb with
    | cpu n σ =>
        rw [hDD] at hD
        exact C70_acoustic_forward B (hA 0 hnb).ratio A.gradK A.gradB _ _ hN _ _ _ σ hD
    | cuda κ =>
        rw [hDD] at hD
        exact C71_acoustic_forward B hwf (hA 0 hnb).ratio
          (fun s i j c hi hj => Fin.ext (src_distinct h s.isLt A.opts.timeTaper (j := 0) rfl
            ((hA s s.isLt).mem _ (List.mem_append_left _ List.mem_cons_self)) hi hj))
          (fun k s i j c hi hj => Fin.ext (src_distinct h s.isLt A.opts.timeTaper (j := k + 1) (get_succ _ _ k)
            ((hA s s.isLt).mem _ (List.mem_append_left _ (List.mem_of_getElem? (get_succ _ _ k)))) hi hj))
          A.gradK A.gradB _ _ hN _ _ _ κ hD
  have hfin : Finite (In 0).pml := finite_of_pmlOk' h (hA 0 hnb).pml true
  refine ⟨_, ?_, List.length_ofFn (f := fun s : Fin P.nb => (⟨q.out s, (In s).traces (q.rcdP s),
      fun k => (In s).traces (q.rcdV s k), q.events.map fun e => e s⟩ : UShot d)),
    fun s hs => ⟨_, List.getElem?_ofFn.trans (dif_pos hs), ?_⟩⟩
  · unfold UArgs.acousticOn
    have h1 : raiseIf A.Pre .runtimeError = .ok () := raiseIf_ok.2 hne
    simp only [h1, hplan, hcf, bind, Except.bind]
    unfold shotsWith
    refine (congrArg (fun x : Except PyErr _ => x.bind _) hq).trans ?_
    exact congrArg Except.ok (if_pos hfin)
  · refine call_ok.2 ⟨hne, P, cf, h, hcf, ?_⟩
    have hf := hall ⟨s, hs⟩
    rw [hal, (B.alone_eq _).symm.trans (hal _)] at hf
    refine (runWith_cfgN A (A.wf.init s) cf (e1 s) (e2 s) (e3 s) (e4 s)).symm.trans ?_
    unfold runWith
    refine (congrArg (fun x : Except PyErr _ => x.bind _) hf).trans ?_
    exact congrArg Except.ok (if_pos hfin)

/-- **C107** `acoustic` with `python_backend` returns the same final wavefields and traces as the compiled functions,
and calls the callback at the same steps with the same wavefields. -/
theorem C107_acoustic_python (A : UArgs d) (P : Plan d) (s : ℕ) (cf : ℤ) (hA : Fwd A P s cf)
    (hnt : P.ratio * P.interval ≤ P.nt) : ∃ r, A.acoustic s = .ok (some r) ∧ A.acousticPy s = .ok (some r) := by
  classical
  have hfin : Finite (shotIn A.setup P A.opts.timeTaper s).pml := finite_of_pmlOk' hA.good hA.pml true
  have hcf0 : 0 < cf := by
    have hcf := hA.freq
    unfold checkCallbackFrequency at hcf
    split at hcf
    · split_ifs at hcf with h2
      cases hcf
      omega
    · cases hcf
  let S := shotIn A.setup P A.opts.timeTaper s
  obtain ⟨r, p, e1, e2, e3, e4, e5, e6⟩ := C33_acoustic_backends_agree hA.wf hA.ratio A.gradK A.gradB (A.opts.cb cf)
    (fun c hc => by
      unfold Opts.cb at hc
      split_ifs at hc
      cases hc
      omega) P.nt.toNat (by show (P.ratio * P.interval).toNat ≤ _; omega)
    (scaleAmpP (cfgOf A.rfmax S) fun t i => S.amp 0 t i) (scaleAmpV (cfgOf A.rfmax S) fun k t i => S.amp (k + 1) t i)
    (A.wf.init s)
  refine ⟨⟨r.out, S.traces r.rcdP, fun k => S.traces (r.rcdV k), r.events⟩,
    call_ok.2 ⟨hA.pre, P, cf, hA.good, hA.freq, ?_⟩, call_ok.2 ⟨hA.pre, P, cf, hA.good, hA.freq, ?_⟩⟩
  · unfold UArgs.run runWith
    refine (congrArg (fun x : Except PyErr _ => x.bind _) e1).trans ?_
    exact congrArg Except.ok (if_pos hfin)
  · unfold UArgs.runPy
    refine (congrArg (fun x : Except PyErr _ => x.bind _) e2).trans ?_
    refine congrArg Except.ok ((if_pos hfin).trans ?_)
    rw [e3, e4, e5, e6]

end Dw.Acoustic
