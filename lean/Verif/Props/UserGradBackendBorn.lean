import Verif.Born.UserGradBackend
import Verif.Props.UserBackendBorn

/-!
# Gradients of `scalar_born` do not depend on the backend

`A.backward s` are the gradients from shot `s` with the functions compiled for the CPU, `A.vGrad` and
`A.scatterGrad` their sums in `v.grad` and `scatter.grad`; `A.backwardOn D E` is the backward pass of all shots, on
the CPU with several threads or on a CUDA device.
-/

namespace Dw.Born

open Setup Resample
open Dw.Scalar (NoElements PmlOk WholeIgnored locAt upAmps Init Wavefields)

variable {d : ℕ}

/-- The gradients of shots in terms of the driver for all shots. -/
theorem gradsOn_eq {A : UArgs d} {P : Plan d} (h : A.setup.Good P) (hnb : 0 < P.nb) {ns nr nq : ℕ}
    (B : Batch d ns nr nq P.nb ℝ) (hv : B.vBatched = P.batched 0) (hs : B.scBatched = P.batched 1)
    (r : BatchBResult d ns P.nb ℝ) (b : Fin P.nb → BResult d ns ℝ)
    (h1 : ∀ s, r.gf s = (b s).gf ∧ r.gfsc s = (b s).gfsc ∧ r.out s = (b s).out ∧ r.outsc s = (b s).outsc)
    (h2 : ∀ β c, r.gv β c = ∑ s : Fin P.nb, if (if B.vBatched then (s : ℕ) else 0) = β then (b s).gv c else 0)
    (h3 : ∀ β c, r.gs β c = ∑ s : Fin P.nb, if (if B.scBatched then (s : ℕ) else 0) = β then (b s).gs c else 0)
    (G : ℕ → UGrad d) (hG : ∀ s : Fin P.nb, G s = gradsOf A P (B.cfg s)
      (fun t i => upAmps P A.opts.timeTaper A.amps s t i) (b s)) :
    (gradsOn A P B r).v = A.vGrad P G ∧ (gradsOn A P B r).scatter = A.scatterGrad P G ∧
    ∀ s < P.nb, (gradsOn A P B r).shots[s]? = some ⟨(G s).amps, (G s).wf, (G s).wfsc⟩ := by
  refine ⟨?_, ?_, fun s hs' => ?_⟩
  · funext j
    refine congrArg (extractModelT A.v.shape P.ext (P.padding false) .replicate) ?_
    funext p
    rw [shotsT_eq h hnb (j := 0) (m := (A.v, .replicate)) rfl, h2, ← Finset.sum_add_distrib]
    refine Finset.sum_congr rfl fun s _ => ?_
    rw [hG, hv, (h1 s).1, (h1 s).2.1]
    by_cases hj : (if P.batched 0 then (s : ℕ) else 0) = j
    · rw [if_pos hj, if_pos hj, if_pos hj]
      rfl
    · rw [if_neg hj, if_neg hj, if_neg hj, add_zero]
  · funext j
    refine congrArg (extractModelT A.scatter.shape P.ext (P.padding false) .constant) ?_
    funext p
    rw [shotsT_eq h hnb (j := 1) (m := (A.scatter, .constant)) rfl, h3, ← Finset.sum_add_distrib]
    refine Finset.sum_congr rfl fun s _ => ?_
    rw [hG, hs, (h1 s).2.1]
    by_cases hj : (if P.batched 1 then (s : ℕ) else 0) = j
    · rw [if_pos hj, if_pos hj, if_pos hj]
      rfl
    · rw [if_neg hj, if_neg hj, if_neg hj, add_zero]
  · refine List.getElem?_ofFn.trans ((dif_pos hs').trans ?_)
    obtain ⟨e1, e2, e3, e4⟩ := h1 ⟨s, hs'⟩
    have e := hG ⟨s, hs'⟩
    simp only at e
    rw [e, e1, e2, e3, e4]
    rfl

/-- **C110** `backward()` after a call of `scalar_born` gives the same gradients of source amplitudes, initial
wavefields, velocity and scattering potential on the CPU with any number of threads and any order in which they run,
and on a CUDA device with any order of the threads of its kernels, as when each shot is propagated alone and the
model gradients are added.  With a backward callback, the models must be given for each shot or there must be a
single thread (C06). -/
theorem C110_born (A : UArgs d) (P : Plan d) (cf : ℤ) (hnb : 0 < P.nb) (hne : ¬NoElements A.v)
    (hA : ∀ s < P.nb, Runs A P s cf) (D : (ns S : ℕ) → Device d ns S) (E : (nr nq S : ℕ) → BDevice d nr nq S)
    (full bcb : Bool)
    (hD : (D _ _).Admissible (batch (locAt P.srcs 0).n (locAt P.rcvs 0).n (locAt P.rcvs 1).n P
      (shotIn A.setup P A.opts.timeTaper)) (A.opts.cb cf) P.nt.toNat)
    (hE : (E _ _ _).Admissible (batch (locAt P.srcs 0).n (locAt P.rcvs 0).n (locAt P.rcvs 1).n P
      (shotIn A.setup P A.opts.timeTaper)) (if bcb then some cf.toNat else none) P.nt.toNat)
    (hb : bcb = false ∨ (1 < A.v.nb.getD 1 ∧ 1 < A.scatter.nb.getD 1) ∨
      (E (locAt P.rcvs 0).n (locAt P.rcvs 1).n P.nb).buffers ≤ 1)
    (gr grsc : ℕ → ℕ → ℕ → ℝ) (g gsc : ℕ → Wavefields d ℝ) :
    ∃ u b, A.backwardOn D E full bcb gr grsc g gsc = .ok (some u) ∧ u.shots.length = P.nb ∧
      (∀ s < P.nb, A.backward s full bcb (gr s) (grsc s) (g s) (gsc s) = .ok (some (b s)) ∧
        u.shots[s]? = some ⟨(b s).amps, (b s).wf, (b s).wfsc⟩) ∧
      u.v = A.vGrad P b ∧ u.scatter = A.scatterGrad P b := by
  classical
  have h := (hA 0 hnb).good
  have hplan := plan_ok.2 h
  have hcf := (hA 0 hnb).freq
  let In := shotIn A.setup P A.opts.timeTaper
  let B := batch (locAt P.srcs 0).n (locAt P.rcvs 0).n (locAt P.rcvs 1).n P In
  have hN : 0 < P.nt.toNat → 0 < (A.opts.cb cf).getD (P.nt.toNat / B.base.base.ratio) :=
    cb_pos hcf (hA 0 hnb).ratio (.inr (hA 0 hnb).nt)
  have hN' : 0 < P.nt.toNat → 0 < (if bcb then some cf.toNat else none).getD (P.nt.toNat / B.base.base.ratio) :=
    cb_pos' bcb hcf (hA 0 hnb).ratio (hA 0 hnb).nt
  have e1 : ∀ s, (locAt P.srcs 0).n = ((In s).src 0).length := fun s => (src_count _ _ _ _ _).symm
  have e2 : ∀ s, (locAt P.rcvs 0).n = ((In s).rcv 0).length := fun s => (rcv_count _ _ _ _ _).symm
  have e3 : ∀ s, (locAt P.rcvs 1).n = ((In s).rcv 1).length := fun s => (rcv_count _ _ _ _ _).symm
  have hal : ∀ s, B.alone s = cfgN _ _ _ (In s) := fun s => (B.alone_eq s).trans (batch_cfg h _ _ _ s)
  have hwf : ∀ s, (B.alone s).WF := fun s => by
    rw [hal]
    exact cfgN_wf (e1 s) (e2 s) (e3 s) (hA s s.isLt).wf
  obtain ⟨q, hq, hall⟩ : ∃ q, (D _ _).forward B A.gradV A.gradS (A.opts.cb cf) P.nt.toNat
      (fun s => scaleAmp (B.cfg s).base fun t i => upAmps P A.opts.timeTaper A.amps s t i)
      (fun s => scaleAmpSc (B.cfg s) fun t i => upAmps P A.opts.timeTaper A.amps s t i)
      (fun s => A.wf.init s) (fun s => A.wfsc.init s) = .ok q ∧
      ∀ s, (B.alone s).forward A.gradV A.gradS (A.opts.cb cf) P.nt.toNat
        (scaleAmp (B.cfg s).base fun t i => upAmps P A.opts.timeTaper A.amps s t i)
        (scaleAmpSc (B.cfg s) fun t i => upAmps P A.opts.timeTaper A.amps s t i) (A.wf.init s) (A.wfsc.init s) =
        .ok ⟨q.out s, q.outsc s, q.rcd s, q.rcdsc s, q.w s, q.wsc s, q.events.map fun e => e s⟩ := by
    cases hDD : D (locAt P.srcs 0).n P.nb with
    | cpu n σ =>
        rw [hDD] at hD
        exact C70_born_forward B (hA 0 hnb).ratio A.gradV A.gradS _ _ hN _ _ _ _ σ hD
    | cuda κ =>
        rw [hDD] at hD
        exact C71_born_forward B (fun s => (hwf s).base) (hA 0 hnb).ratio
          (fun s i j c hi hj => Fin.ext (src_distinct h s.isLt A.opts.timeTaper (j := 0) rfl
            (fun l hl => (hA s s.isLt).loc l (.inl hl)) hi hj))
          A.gradV A.gradS _ _ hN _ _ _ _ κ hD
  have hfin : Scalar.Finite (P.pml false) := Scalar.finite_of_pmlOk h (hA 0 hnb).pml false
  obtain ⟨y, b, hy, hb1, hb2, hb3, hb4⟩ := (E _ _ _).backward_shots B (fun s => (hwf s).base) (hA 0 hnb).ratio hnb
    (fun s i j c hi hj => Fin.ext (rcv_distinct h s.isLt A.opts.timeTaper (j := 0) rfl
      (fun l hl => (hA s s.isLt).loc l (.inr (.inr hl))) hi hj))
    (fun s i j c hi hj => Fin.ext (rcv_distinct h s.isLt A.opts.timeTaper (j := 1) rfl
      (fun l hl => (hA s s.isLt).loc l (.inr (.inl hl))) hi hj))
    A.gradV A.gradS full (if bcb then some cf.toNat else none) P.nt.toNat hN'
    (by
      rcases hb with h1 | ⟨h1, h2⟩ | h1
      · exact .inl (by rw [h1]; rfl)
      · exact .inr (.inl ⟨((batched_iff h hnb (j := 0) (m := (A.v, .replicate)) rfl).1).trans (decide_eq_true h1),
          ((batched_iff h hnb (j := 1) (m := (A.scatter, .constant)) rfl).1).trans (decide_eq_true h2)⟩)
      · exact .inr (.inr h1))
    q.w q.wsc (fun s t i => downT P A.opts.timeTaper (gr s i) t) (fun s t i => downT P A.opts.timeTaper (grsc s i) t)
    (fun s => (g s).toInit) (fun s => (gsc s).toInit) hE
  let G : ℕ → UGrad d := fun s => if hs : s < P.nb then gradsOf A P (B.cfg ⟨s, hs⟩)
      (fun t i => upAmps P A.opts.timeTaper A.amps s t i) (b ⟨s, hs⟩)
    else ⟨fun _ => 0, fun _ => 0, fun _ _ => 0, Scalar.Wavefields.zero d, Scalar.Wavefields.zero d⟩
  obtain ⟨g1, g2, g3⟩ := gradsOn_eq h hnb B rfl rfl y b hb2 hb3 hb4 G (fun s => dif_pos s.isLt)
  have h1 : raiseIf (NoElements A.v) .runtimeError = .ok () := raiseIf_ok.2 hne
  refine ⟨gradsOn A P B y, G, ?_, List.length_ofFn, fun s hs => ⟨?_, g3 s hs⟩, g1, g2⟩
  · unfold UArgs.backwardOn
    simp only [h1, hplan, hcf, bind, Except.bind]
    unfold backWith
    refine bind_okay hq (bind_okay hy ?_)
    exact congrArg Except.ok (if_pos hfin)
  · unfold UArgs.backward
    simp only [h1, hplan, hcf, bind, Except.bind]
    refine (gradWith_cfgN (e1 s) (e2 s) (e3 s)).symm.trans ?_
    have hf := hall ⟨s, hs⟩
    have hg := hb1 ⟨s, hs⟩
    have hc : B.cfg ⟨s, hs⟩ = cfgN _ _ _ (In s) := (B.alone_eq _).symm.trans (hal _)
    rw [hal, hc] at hf
    rw [hal] at hg
    unfold gradWith
    refine bind_okay hf (bind_okay hg ?_)
    refine congrArg Except.ok ((if_pos hfin).trans ?_)
    rw [show G s = gradsOf A P (B.cfg ⟨s, hs⟩) _ (b ⟨s, hs⟩) from dif_pos hs, hc]

end Dw.Born
