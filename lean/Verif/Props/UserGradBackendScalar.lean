import Verif.Scalar.UserGradBackend
import Verif.Props.UserBackendScalar
import Verif.Props.UserGradScalar
import Verif.Props.UserBackendExamples

/-!
# Gradients of `scalar` do not depend on the backend

`A.backward s` are the gradients from shot `s` with the functions compiled for the CPU and `A.vGrad` their sum in
`v.grad`; `A.backwardOn D E` is the backward pass of all shots, on the CPU with several threads or on a CUDA device.
-/

namespace Dw.Scalar

open Setup Resample

variable {d : ℕ}

/-- **C110** `backward()` after a call of `scalar` gives the same gradients of source amplitudes, initial wavefields
and velocity on the CPU with any number of threads and any order in which they run, and on a CUDA device with any
order of the threads of its kernels, as when each shot is propagated alone and the model gradients are added.
With a backward callback, the model must be given for each shot or there must be a single thread (C06). -/
theorem C110_scalar (A : UArgs d) (P : Plan d) (cf : ℤ) (hplan : A.setup.plan = .ok P) (hnb : 0 < P.nb)
    (hP : PmlOk P) (hsrc : ∀ s < P.nb, ∀ l, A.src = some l → WholeIgnored d l s)
    (hrcv : ∀ s < P.nb, ∀ l, A.rcv = some l → WholeIgnored d l s)
    (hcf : checkCallbackFrequency A.callbackFreq = .ok cf) (hi : 0 < P.interval)
    (hnt : P.ratio * P.interval ≤ P.nt ∨ P.nt ≤ 0)
    (D : (ns S : ℕ) → Device d ns S) (E : (nr S : ℕ) → BDevice d nr S) (bcb : Bool)
    (hD : (D _ _).Admissible (batch (locAt P.srcs 0).n (locAt P.rcvs 0).n P)
      (if A.callback then some cf.toNat else none) P.nt.toNat)
    (hE : (E _ _).Admissible (batch (locAt P.srcs 0).n (locAt P.rcvs 0).n P)
      (if bcb then some cf.toNat else none) P.nt.toNat)
    (hb : bcb = false ∨ 1 < A.v.nb.getD 1 ∨ (E (locAt P.rcvs 0).n P.nb).buffers ≤ 1)
    (gr : ℕ → ℕ → ℕ → ℝ) (g : ℕ → Wavefields d ℝ) :
    ∃ u b, A.backwardOn D E bcb gr g = .ok (some u) ∧ u.shots.length = P.nb ∧
      (∀ s < P.nb, A.backward s bcb (gr s) (g s) = .ok (some (b s)) ∧ u.shots[s]? = some ((b s).amps, (b s).wf)) ∧
      ∀ j < A.v.nb.getD 1, u.v j = A.vGrad P b j := by
  classical
  have h := plan_ok.1 hplan
  obtain ⟨r0, hr0, -⟩ := scalar_eq h hnb hP (hsrc 0 hnb) (hrcv 0 hnb) hcf hi (.inr hnt)
  have hne := (scalar_ok.1 hr0).1
  have hr : 0 < (batch (locAt P.srcs 0).n (locAt P.rcvs 0).n P).base.ratio := by
    show 0 < (P.ratio * P.interval).toNat
    have := mul_pos (by have := SetupGood.ratio_pos h; omega : 0 < P.ratio) hi
    omega
  have hN : ∀ cb : Bool, 0 < P.nt.toNat → 0 < (if cb then some cf.toNat else none).getD
      (P.nt.toNat / (batch (locAt P.srcs 0).n (locAt P.rcvs 0).n P).base.ratio) := fun cb h1 => by
    cases cb with
    | true =>
        simp only [if_true, Option.getD_some]
        have : 0 < cf := by
          unfold checkCallbackFrequency at hcf
          split at hcf
          · split_ifs at hcf with h2
            cases hcf
            omega
          · cases hcf
        omega
    | false =>
        simp only [Bool.false_eq_true, if_false, Option.getD_none]
        refine Nat.div_pos ?_ hr
        show (P.ratio * P.interval).toNat ≤ _
        rcases hnt with h2 | h2
        · omega
        · omega
  have hal := batch_alone h (locAt P.srcs 0).n (locAt P.rcvs 0).n
  have hwf : ∀ s, ((batch (locAt P.srcs 0).n (locAt P.rcvs 0).n P).alone s).WF := fun s => by
    rw [hal]
    exact cfg_wf h s.isLt hP (hsrc s s.isLt) (hrcv s s.isLt)
  obtain ⟨hm, em⟩ := (extractModels_iff hnb).1 h.models
  have hbat := (hm (A.v, .replicate) (by simp [UArgs.setup])).batch
  have hnb' : ((P.models.getD 0 ⟨none, fun _ => 0, fun _ _ => 0⟩).nb.getD 1) = A.v.nb.getD 1 := by
    rw [em]
    rfl
  have hbb : (batch (locAt P.srcs 0).n (locAt P.rcvs 0).n P).batched = decide (1 < A.v.nb.getD 1) := by
    simp only [batch, hnb']
  obtain ⟨q, hq, hall⟩ : ∃ q, (D _ _).forward (batch (locAt P.srcs 0).n (locAt P.rcvs 0).n P) A.grad
      (if A.callback then some cf.toNat else none) P.nt.toNat
      (fun s => Born.scaleAmp (cfg (locAt P.srcs 0).n (locAt P.rcvs 0).n P s) fun t i =>
        upAmps P A.timeTaper A.amps s t i) (fun s => A.init s) = .ok q ∧
      ∀ s, ((batch (locAt P.srcs 0).n (locAt P.rcvs 0).n P).alone s).forward A.grad
        (if A.callback then some cf.toNat else none) P.nt.toNat
        (Born.scaleAmp (cfg (locAt P.srcs 0).n (locAt P.rcvs 0).n P s) fun t i =>
          upAmps P A.timeTaper A.amps s t i) (A.init s) =
        .ok ⟨q.out s, q.rcd s, q.store s, q.events.map fun e => ⟨e.1, e.2 s⟩⟩ := by
    cases hDD : D (locAt P.srcs 0).n P.nb with
    | cpu n σ =>
        rw [hDD] at hD
        exact C07_shots_independent_forward _ hr A.grad _ _ (hN _) _ _ σ hD
    | cuda κ =>
        rw [hDD] at hD
        exact Gpu.C63_forward _ hwf hr (fun s i j c => src_inj h s.isLt (hsrc s s.isLt) (locAt P.rcvs 0).n i j c) A.grad _ _ (hN _) _ _ κ hD
  obtain ⟨y, b, hy, hb1, hb2, hb3⟩ := (E _ _).backward_shots (batch (locAt P.srcs 0).n (locAt P.rcvs 0).n P) hwf hr hnb
    (fun s i j c => rcv_inj h s.isLt (hrcv s s.isLt) (locAt P.srcs 0).n i j c) A.grad
    (if bcb then some cf.toNat else none) P.nt.toNat (hN _)
    (by
      rcases hb with h1 | h1 | h1
      · exact .inl (by rw [h1]; rfl)
      · exact .inr (.inl (by rw [hbb]; exact decide_eq_true h1))
      · exact .inr (.inr h1))
    q.store (fun s t i => downT P A.timeTaper (gr s i) t) (fun s => (g s).toInit) hE
  have hfin := finite_of_pmlOk h hP false
  -- the gradients of the shots
  let G : ℕ → UGrad d := fun s => if hs : s < P.nb then
    { v := fun p => (b ⟨s, hs⟩).gv p + ∑ t ∈ Finset.range P.nt.toNat, ∑ i,
        if (((cfg (locAt P.srcs 0).n (locAt P.rcvs 0).n P s).src i).getD fun _ => 0) = p then
          (b ⟨s, hs⟩).gf t i * (-upAmps P A.timeTaper A.amps s t i *
            (2 * (cfg (locAt P.srcs 0).n (locAt P.rcvs 0).n P s).v p) *
              (cfg (locAt P.srcs 0).n (locAt P.rcvs 0).n P s).dt ^ 2) else 0
      amps := fun i => upT P A.timeTaper ((A.amps.map AmpT.nt).getD 0) fun t =>
        if h : i < (locAt P.srcs 0).n then -((b ⟨s, hs⟩).gf t ⟨i, h⟩ *
          Born.gatherAt (cfg (locAt P.srcs 0).n (locAt P.rcvs 0).n P s).v
            ((cfg (locAt P.srcs 0).n (locAt P.rcvs 0).n P s).src ⟨i, h⟩) ^ 2 *
              (cfg (locAt P.srcs 0).n (locAt P.rcvs 0).n P s).dt ^ 2) else 0
      wf := (b ⟨s, hs⟩).out }
    else ⟨fun _ => 0, fun _ _ => 0, ⟨fun _ => 0, fun _ => 0, fun _ _ => 0, fun _ _ => 0⟩⟩
  have h1 : raiseIf (NoElements A.v) .runtimeError = .ok () := raiseIf_ok.2 hne
  refine ⟨A.grads P (locAt P.srcs 0).n (locAt P.rcvs 0).n y, G, ?_, List.length_ofFn, fun s hs => ⟨?_, ?_⟩, ?_⟩
  · unfold UArgs.backwardOn
    simp only [h1, hplan, hcf, bind, Except.bind]
    unfold UArgs.shotGrads
    simp only [hq, hy, bind, Except.bind, pure, Except.pure, if_pos hfin]
  · unfold UArgs.backward
    simp only [h1, hplan, hcf, bind, Except.bind]
    have hf := hall ⟨s, hs⟩
    have hg := hb1 ⟨s, hs⟩
    rw [hal] at hf hg
    unfold UArgs.shotGrad
    simp only [hf, hg, bind, Except.bind, pure, Except.pure, if_pos hfin]
    simp only [G, dif_pos hs]
  · refine List.getElem?_ofFn.trans ((dif_pos hs).trans ?_)
    simp only [G, dif_pos hs, (hb2 ⟨s, hs⟩).1, (hb2 ⟨s, hs⟩).2]
  · intro j hj
    unfold UArgs.vGrad
    refine congrArg (extractModelT A.v.shape P.ext (padList (d := d) (padBegin P.accZ P.wL) (padEnd false P.accZ P.wL))
      .replicate) ?_
    funext p
    beta_reduce
    rw [hb3 j (fun h2 => by
      rw [hbb, decide_eq_false_iff_not] at h2
      omega)]
    have hblk : ∀ s : ℕ, (if (batch (locAt P.srcs 0).n (locAt P.rcvs 0).n P).batched then s else 0) =
        if A.v.nb.getD 1 = 1 then 0 else s := fun s => by
      rw [hbb]
      simp only at hbat
      by_cases h2 : A.v.nb.getD 1 = 1
      · rw [if_neg (by simp [h2]), if_pos h2]
      · rw [if_pos (by simp; omega), if_neg h2]
    simp only [hblk]
    unfold shotsT
    rw [← Fin.sum_univ_eq_sum_range (fun s => if (if A.v.nb.getD 1 = 1 then 0 else s) = j then (G s).v p else 0),
      ← Fin.sum_univ_eq_sum_range, ← Finset.sum_add_distrib]
    refine Finset.sum_congr rfl fun s _ => ?_
    by_cases h2 : (if A.v.nb.getD 1 = 1 then 0 else (s : ℕ)) = j
    · rw [if_pos h2, if_pos h2, if_pos h2]
      simp only [G, dif_pos s.isLt, (hb2 s).1]
    · rw [if_neg h2, if_neg h2, if_neg h2, add_zero]

end Dw.Scalar
