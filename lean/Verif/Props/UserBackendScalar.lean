import Verif.Scalar.UserBackend
import Verif.Props.ScalarPython
import Verif.Props.ScalarUserMore
import Verif.Born.UserGrad

/-!
# Calls of `scalar` do not depend on the backend

`A.scalar s` are the outputs of shot `s` with the functions compiled for the CPU, `A.scalarOn D` those of all
shots on the CPU with several threads or on a CUDA device, `A.scalarPy s` those of the Python backend.
-/

namespace Dw.Scalar

open Setup Resample

variable {d : ℕ}

/-- **C107** `scalar` gives every shot the same outputs (final wavefields, traces and what the callback is shown)
on the CPU with any number of threads and any order in which they run, and on a CUDA device with any order of
the threads of its kernels, as when the shot is propagated alone. -/
theorem C107_scalar_devices (A : UArgs d) (P : Plan d) (cf : ℤ) (hplan : A.setup.plan = .ok P) (hnb : 0 < P.nb)
    (hP : PmlOk P) (hsrc : ∀ s < P.nb, ∀ l, A.src = some l → WholeIgnored d l s)
    (hrcv : ∀ s < P.nb, ∀ l, A.rcv = some l → WholeIgnored d l s)
    (hcf : checkCallbackFrequency A.callbackFreq = .ok cf) (hi : 0 < P.interval)
    (hnt : A.callback = true ∨ P.ratio * P.interval ≤ P.nt ∨ P.nt ≤ 0) (D : (ns S : ℕ) → Device d ns S)
    (hD : (D _ _).Admissible (batch (locAt P.srcs 0).n (locAt P.rcvs 0).n P)
      (if A.callback then some cf.toNat else none) P.nt.toNat) :
    ∃ l, A.scalarOn D = .ok (some l) ∧ l.length = P.nb ∧
      ∀ s < P.nb, ∃ r, l[s]? = some r ∧ A.scalar s = .ok (some r) := by
  classical
  have h := plan_ok.1 hplan
  obtain ⟨r0, hr0, -⟩ := scalar_eq h hnb hP (hsrc 0 hnb) (hrcv 0 hnb) hcf hi hnt
  have hne := (scalar_ok.1 hr0).1
  have hr : 0 < (batch (locAt P.srcs 0).n (locAt P.rcvs 0).n P).base.ratio := by
    show 0 < (P.ratio * P.interval).toNat
    have := mul_pos (by have := SetupGood.ratio_pos h; omega : 0 < P.ratio) hi
    omega
  have hN : 0 < P.nt.toNat → 0 < (if A.callback then some cf.toNat else none).getD
      (P.nt.toNat / (batch (locAt P.srcs 0).n (locAt P.rcvs 0).n P).base.ratio) := fun h1 => by
    cases hc : A.callback with
    | true =>
        simp only [if_true, Option.getD_some]
        have : 0 < cf := by
          unfold checkCallbackFrequency at hcf
          split at hcf
          · split_ifs at hcf with h2
            cases hcf
            omega
          · cases hcf
        omega
    | false =>
        simp only [Bool.false_eq_true, if_false, Option.getD_none]
        refine Nat.div_pos ?_ hr
        show (P.ratio * P.interval).toNat ≤ _
        rcases hnt with h2 | h2 | h2
        · rw [hc] at h2; cases h2
        · omega
        · omega
  have hal := batch_alone h (locAt P.srcs 0).n (locAt P.rcvs 0).n
  have hwf : ∀ s, ((batch (locAt P.srcs 0).n (locAt P.rcvs 0).n P).alone s).WF := fun s => by
    rw [hal]
    exact cfg_wf h s.isLt hP (hsrc s s.isLt) (hrcv s s.isLt)
  obtain ⟨q, hq, hall⟩ : ∃ q, (D _ _).forward (batch (locAt P.srcs 0).n (locAt P.rcvs 0).n P) A.grad
      (if A.callback then some cf.toNat else none) P.nt.toNat
      (fun s => Born.scaleAmp (cfg (locAt P.srcs 0).n (locAt P.rcvs 0).n P s) fun t i =>
        upAmps P A.timeTaper A.amps s t i) (fun s => A.init s) = .ok q ∧
      ∀ s, ((batch (locAt P.srcs 0).n (locAt P.rcvs 0).n P).alone s).forward A.grad
        (if A.callback then some cf.toNat else none) P.nt.toNat
        (Born.scaleAmp (cfg (locAt P.srcs 0).n (locAt P.rcvs 0).n P s) fun t i =>
          upAmps P A.timeTaper A.amps s t i) (A.init s) =
        .ok ⟨q.out s, q.rcd s, q.store s, q.events.map fun e => ⟨e.1, e.2 s⟩⟩ := by
    cases hDD : D (locAt P.srcs 0).n P.nb with
    | cpu n σ =>
        rw [hDD] at hD
        exact C07_shots_independent_forward _ hr A.grad _ _ hN _ _ σ hD
    | cuda κ =>
        rw [hDD] at hD
        exact Gpu.C63_forward _ hwf hr (fun s i j c => src_inj h s.isLt (hsrc s s.isLt) (locAt P.rcvs 0).n i j c) A.grad _ _ hN _ _ κ hD
  have hfin := finite_of_pmlOk h hP false
  refine ⟨_, ?_, List.length_ofFn (f := fun s : Fin P.nb => (⟨q.out s, fun i => if h : i < (locAt P.rcvs 0).n then
      downS P A.timeTaper ⟨P.nt.toNat, fun t => q.rcd s t ⟨i, h⟩⟩ else ⟨0, fun _ => 0⟩,
      q.events.map fun e => ⟨e.1, e.2 s⟩⟩ : UShot d)), fun s hs => ⟨_, List.getElem?_ofFn.trans (dif_pos hs), ?_⟩⟩
  · unfold UArgs.scalarOn
    have h1 : raiseIf (NoElements A.v) .runtimeError = .ok () := raiseIf_ok.2 hne
    simp only [h1, hplan, hcf, bind, Except.bind]
    unfold UArgs.shots
    simp only [hq, bind, Except.bind, pure, Except.pure, if_pos hfin]
  · refine scalar_ok.2 ⟨hne, P, cf, h, hcf, ?_⟩
    have hf := hall ⟨s, hs⟩
    rw [hal] at hf
    unfold UArgs.shot
    simp only [hf, bind, Except.bind, pure, Except.pure, if_pos hfin]

/-- **C107** `scalar` with `python_backend` returns the same final wavefields and traces as the compiled functions,
and calls the callback at the same steps with the same wavefields; the memory variables shown at step 0 are
excluded. -/
theorem C107_scalar_python (A : UArgs d) (P : Plan d) (s : ℕ) (cf : ℤ) (hplan : A.setup.plan = .ok P)
    (hs : s < P.nb) (hP : PmlOk P) (hsrc : ∀ l, A.src = some l → WholeIgnored d l s)
    (hrcv : ∀ l, A.rcv = some l → WholeIgnored d l s)
    (hcf : checkCallbackFrequency A.callbackFreq = .ok cf) (hi : 0 < P.interval)
    (hnt : P.ratio * P.interval ≤ P.nt) :
    ∃ r p, A.scalar s = .ok (some r) ∧ A.scalarPy s = .ok (some p) ∧ p.out = r.out ∧ p.traces = r.traces ∧
      List.Forall₂ SameEvent p.events r.events := by
  classical
  have h := plan_ok.1 hplan
  obtain ⟨r0, hr0, -⟩ := scalar_eq h hs hP hsrc hrcv hcf hi (.inr (.inl hnt))
  have hne := (scalar_ok.1 hr0).1
  have hr : 0 < (cfg (locAt P.srcs 0).n (locAt P.rcvs 0).n P s).ratio := by
    show 0 < (P.ratio * P.interval).toNat
    have := mul_pos (by have := SetupGood.ratio_pos h; omega : 0 < P.ratio) hi
    omega
  have hcf0 : 0 < cf := by
    unfold checkCallbackFrequency at hcf
    split at hcf
    · split_ifs at hcf with h2
      cases hcf
      omega
    · cases hcf
  have hfin := finite_of_pmlOk h hP false
  obtain ⟨r, p, e1, e2, e3, e4, e5⟩ := C09_backends_agree (cfg_wf h hs hP hsrc hrcv) hr A.grad
    (if A.callback then some cf.toNat else none) (fun c hc => by
      cases hb : A.callback
      · rw [hb] at hc; cases hc
      · rw [hb] at hc; cases hc; omega) P.nt.toNat
    (by show (P.ratio * P.interval).toNat ≤ _; omega)
    (Born.scaleAmp (cfg (locAt P.srcs 0).n (locAt P.rcvs 0).n P s) fun t i => upAmps P A.timeTaper A.amps s t i)
    (A.init s)
  let tr : (ℕ → Fin (locAt P.rcvs 0).n → ℝ) → ℕ → Sig ℝ := fun x i => if h : i < (locAt P.rcvs 0).n then
    downS P A.timeTaper ⟨P.nt.toNat, fun t => x t ⟨i, h⟩⟩ else ⟨0, fun _ => 0⟩
  refine ⟨⟨r.out, tr r.rcd, r.events⟩, ⟨p.out, tr p.rcd, p.events⟩, scalar_ok.2 ⟨hne, P, cf, h, hcf, ?_⟩, ?_, e3,
    congrArg tr e4, e5⟩
  · unfold UArgs.shot
    simp only [e1, bind, Except.bind, pure, Except.pure, if_pos hfin]
    rfl
  · unfold UArgs.scalarPy
    have h1 : raiseIf (NoElements A.v) .runtimeError = .ok () := raiseIf_ok.2 hne
    simp only [h1, hplan, hcf, bind, Except.bind]
    unfold UArgs.shotPy
    simp only [e2, bind, Except.bind, pure, Except.pure, if_pos hfin]
    rfl

end Dw.Scalar
