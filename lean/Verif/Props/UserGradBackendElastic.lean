import Verif.Elastic.UserGradBackend
import Verif.Props.UserBackendElastic

/-!
# Gradients of `elastic` do not depend on the backend

`A.backward s` are the gradients from shot `s` with the functions compiled for the CPU, `A.lamGrad`, `A.muGrad` and
`A.buoyancyGrad` their sums in `lamb.grad`, `mu.grad` and `buoyancy.grad`; `A.backwardOn D E` is the backward pass of
all shots, on the CPU with several threads or on a CUDA device.
-/

namespace Dw.Elastic

open Setup Resample
open Born (gatherAt)
open Acoustic (Finite)
open Dw.Scalar (NoElements PmlOk WholeIgnored locAt upAmps)

variable {d : ℕ}

/-- The gradients of shots in terms of the driver for all shots. -/
theorem gradsOn_eq {A : UArgs d} {P : Plan d} (h : A.setup.Good P) (hnb : 0 < P.nb) {np mp : ℕ} {nv mv : Fin d → ℕ}
    (B : Batch d np mp nv mv P.nb ℝ) (hl : B.lBatched = P.batched 0) (hm : B.mBatched = P.batched 1)
    (hb : B.bBatched = P.batched 2)
    (r : BatchBResult d np nv P.nb ℝ) (b : Fin P.nb → BResult d np nv ℝ)
    (h1 : ∀ s, r.gfP s = (b s).gfP ∧ r.gfV s = (b s).gfV ∧ r.out s = (b s).out)
    (h2 : ∀ β c, r.gr .l β c = ∑ s : Fin P.nb, if (if B.lBatched then (s : ℕ) else 0) = β then (b s).gr.l c else 0)
    (h3 : ∀ β c, r.gr .m β c = ∑ s : Fin P.nb, if (if B.mBatched then (s : ℕ) else 0) = β then (b s).gr.m c else 0)
    (h4 : ∀ p β c, r.gr (.s p) β c =
      ∑ s : Fin P.nb, if (if B.mBatched then (s : ℕ) else 0) = β then (b s).gr.s p c else 0)
    (h5 : ∀ k β c, r.gr (.b k) β c =
      ∑ s : Fin P.nb, if (if B.bBatched then (s : ℕ) else 0) = β then (b s).gr.b k c else 0)
    (G : ℕ → UGrad d) (hG : ∀ s : Fin P.nb, G s = gradsOf A P ((shotIn A.setup P A.opts.timeTaper s).model 1)
      ((shotIn A.setup P A.opts.timeTaper s).model 2) (B.cfg s)
      (fun k t i => upAmps P A.opts.timeTaper (A.ampV k) s t i) (b s)) :
    (gradsOn A P (shotIn A.setup P A.opts.timeTaper) B r).lam = A.lamGrad P G ∧
    (gradsOn A P (shotIn A.setup P A.opts.timeTaper) B r).mu = A.muGrad P G ∧
    (gradsOn A P (shotIn A.setup P A.opts.timeTaper) B r).buoyancy = A.buoyancyGrad P G ∧
    ∀ s < P.nb, (gradsOn A P (shotIn A.setup P A.opts.timeTaper) B r).shots[s]? =
      some ⟨(G s).ampP, (G s).ampV, (G s).wf⟩ := by
  let aV : ℕ → (k : Fin d) → ℕ → Fin (nv k) → ℝ := fun s k t i => upAmps P A.opts.timeTaper (A.ampV k) s t i
  let In := shotIn A.setup P A.opts.timeTaper
  -- blocks of the shear moduli and of the buoyancies
  have hM : ∀ β, ((r.gr .m β, fun p => r.gr (.s p) β) : Fld d ℝ × (Sh d → Fld d ℝ)) =
      ∑ s : Fin P.nb, if (if P.batched 1 then (s : ℕ) else 0) = β then ((b s).gr.m, (b s).gr.s) else 0 := by
    intro β
    rw [← hm]
    refine Prod.ext ?_ ?_
    · rw [Prod.fst_sum]
      funext c
      rw [Finset.sum_apply]
      refine (h3 β c).trans (Finset.sum_congr rfl fun s _ => ?_)
      by_cases hj : (if B.mBatched then (s : ℕ) else 0) = β
      · rw [if_pos hj, if_pos hj]
      · rw [if_neg hj, if_neg hj]
        rfl
    · rw [Prod.snd_sum]
      funext p c
      rw [Finset.sum_apply, Finset.sum_apply]
      refine (h4 p β c).trans (Finset.sum_congr rfl fun s _ => ?_)
      by_cases hj : (if B.mBatched then (s : ℕ) else 0) = β
      · rw [if_pos hj, if_pos hj]
      · rw [if_neg hj, if_neg hj]
        rfl
  have hB : ∀ β, (fun k p => r.gr (.b k) β p + ∑ s : Fin P.nb, if (if B.bBatched then (s : ℕ) else 0) = β then
      viaB (B.cfg s) P.nt.toNat (aV s) (r.gfV s) k p else 0) =
      ∑ s : Fin P.nb, if (if B.bBatched then (s : ℕ) else 0) = β then totB (B.cfg s) P.nt.toNat (aV s) (b s) else 0 := by
    intro β
    funext k p
    rw [h5, ← Finset.sum_add_distrib, Finset.sum_apply, Finset.sum_apply]
    refine Finset.sum_congr rfl fun s _ => ?_
    rw [(h1 s).2.1]
    split_ifs
    · rfl
    · exact add_zero _
    · rfl
    · exact add_zero _
  refine ⟨?_, ?_, ?_, fun s hs => ?_⟩
  · funext j
    refine congrArg (extractModelT A.lam.shape P.ext (P.padding true) .replicate) ?_
    funext p
    rw [shotsT_eq h hnb (j := 0) (m := (A.lam, .replicate)) rfl]
    refine (h2 j p).trans (Finset.sum_congr rfl fun s _ => ?_)
    rw [hG, hl]
    rfl
  · funext j
    refine congrArg (extractModelT A.mu.shape P.ext (P.padding true) .replicate) ?_
    funext p
    rw [shotsT_eq h hnb (j := 1) (m := (A.mu, .replicate)) rfl]
    have t := blk_sum (n := P.nb) (P.batched 1)
      (fun s (x : Fld d ℝ × (Sh d → Fld d ℝ)) => prepareMuT (P.n true) A.rfmax ((In s).model 1) x.1 x.2 p)
      (fun s => prepareMuT_zero _ _ _ _) (fun s x y => prepareMuT_add _ _ _ _ _ _)
      (fun hf s hs => by
        have e1 : (In s).model 1 = (In 0).model 1 := shot_shared h _ hs hf
        simp only [e1]) (fun s => ((b s).gr.m, (b s).gr.s)) j
    rw [← hM j] at t
    refine t.trans (Finset.sum_congr rfl fun s _ => ?_)
    rw [hG]
    rfl
  · funext j
    refine congrArg (extractModelT A.buoyancy.shape P.ext (P.padding true) .replicate) ?_
    funext p
    rw [shotsT_eq h hnb (j := 2) (m := (A.buoyancy, .replicate)) rfl]
    have t := blk_sum (n := P.nb) (P.batched 2) (fun s x => prepareBT (P.n true) A.rfmax ((In s).model 2) x p)
      (fun s => prepareBT_zero _ _ _ _) (fun s x y => prepareBT_add _ _ _ _ _ _)
      (fun hf s hs => by
        have e1 : (In s).model 2 = (In 0).model 2 := shot_shared h _ hs hf
        simp only [e1]) (fun s => totB (B.cfg s) P.nt.toNat (aV s) (b s)) j
    rw [← hb, ← hB j] at t
    refine t.trans (Finset.sum_congr rfl fun s _ => ?_)
    rw [hG, hb]
    rfl
  · refine List.getElem?_ofFn.trans ((dif_pos hs).trans ?_)
    obtain ⟨e1, e2, e3⟩ := h1 ⟨s, hs⟩
    have e := hG ⟨s, hs⟩
    simp only at e
    rw [e, e1, e2, e3]
    rfl

/-- **C110** `backward()` after a call of `elastic` gives the same gradients of source amplitudes, initial
wavefields and models on the CPU with any number of threads and any order in which they run, and on a CUDA device
with any order of the threads of its kernels, as when each shot is propagated alone and the model gradients are
added.  With a backward callback, the models must be given for each shot or there must be a single thread (C06). -/
theorem C110_elastic (A : UArgs d) (P : Plan d) (cf : ℤ) (hnb : 0 < P.nb) (hA : ∀ s < P.nb, Runs A P s cf)
    (D : (np : ℕ) → (nv : Fin d → ℕ) → (S : ℕ) → Device d np nv S)
    (E : (mp : ℕ) → (mv : Fin d → ℕ) → (S : ℕ) → BDevice d mp mv S) (bcb : Bool)
    (hD : (D _ _ _).Admissible (batch (locAt P.srcs d).n (locAt P.rcvs d).n (fun k => (locAt P.srcs k).n)
      (fun k => (locAt P.rcvs k).n) A.rfmax P (shotIn A.setup P A.opts.timeTaper)) (A.opts.cb cf) P.nt.toNat)
    (hE : (E _ _ _).Admissible (batch (locAt P.srcs d).n (locAt P.rcvs d).n (fun k => (locAt P.srcs k).n)
      (fun k => (locAt P.rcvs k).n) A.rfmax P (shotIn A.setup P A.opts.timeTaper))
      (if bcb then some cf.toNat else none) P.nt.toNat)
    (hb : bcb = false ∨ (1 < A.lam.nb.getD 1 ∧ 1 < A.mu.nb.getD 1 ∧ 1 < A.buoyancy.nb.getD 1) ∨
      (E (locAt P.rcvs d).n (fun k => (locAt P.rcvs k).n) P.nb).buffers ≤ 1)
    (grP : ℕ → ℕ → ℕ → ℝ) (grV : ℕ → Fin d → ℕ → ℕ → ℝ) (g : ℕ → Wavefields d ℝ) :
    ∃ u b, A.backwardOn D E bcb grP grV g = .ok (some u) ∧ u.shots.length = P.nb ∧
      (∀ s < P.nb, A.backward s bcb (grP s) (grV s) (g s) = .ok (some (b s)) ∧
        u.shots[s]? = some ⟨(b s).ampP, (b s).ampV, (b s).wf⟩) ∧
      u.lam = A.lamGrad P b ∧ u.mu = A.muGrad P b ∧ u.buoyancy = A.buoyancyGrad P b := by
  classical
  have h := (hA 0 hnb).good
  have hplan := plan_ok.2 h
  have hne := (hA 0 hnb).pre
  have hcf := (hA 0 hnb).freq
  let In := shotIn A.setup P A.opts.timeTaper
  let B := batch (locAt P.srcs d).n (locAt P.rcvs d).n (fun k : Fin d => (locAt P.srcs k).n)
    (fun k : Fin d => (locAt P.rcvs k).n) A.rfmax P In
  have hN : 0 < P.nt.toNat → 0 < (A.opts.cb cf).getD (P.nt.toNat / B.base.ratio) :=
    cb_pos hcf (hA 0 hnb).ratio (.inr (hA 0 hnb).nt)
  have hN' : 0 < P.nt.toNat → 0 < (if bcb then some cf.toNat else none).getD (P.nt.toNat / B.base.ratio) :=
    Born.cb_pos' bcb hcf (hA 0 hnb).ratio (hA 0 hnb).nt
  have e1 : ∀ s, (locAt P.srcs d).n = ((In s).src d).length := fun s => (src_count _ _ _ _ _).symm
  have e2 : ∀ s, (locAt P.rcvs d).n = ((In s).rcv d).length := fun s => (rcv_count _ _ _ _ _).symm
  have e3 : ∀ s, (fun k : Fin d => (locAt P.srcs k).n) = fun k : Fin d => ((In s).src k).length :=
    fun s => funext fun k => (src_count _ _ _ _ _).symm
  have e4 : ∀ s, (fun k : Fin d => (locAt P.rcvs k).n) = fun k : Fin d => ((In s).rcv k).length :=
    fun s => funext fun k => (rcv_count _ _ _ _ _).symm
  have hal : ∀ s, B.alone s = cfgN _ _ _ _ A.rfmax (In s) := fun s => (B.alone_eq s).trans (batch_cfg h _ _ _ _ s)
  have hwf : ∀ s, (B.alone s).WF := fun s => by
    rw [hal]
    exact cfgN_wf (e1 s) (e2 s) (e3 s) (e4 s) (hA s s.isLt).wf
  have hbig : ∀ s, (B.alone s).Big := fun s => by
    rw [hal]
    exact cfgN_big (hA s s.isLt).cfgBig
  obtain ⟨q, hq, hall⟩ : ∃ q, (D _ _ _).forward B A.gradL A.gradM A.gradB (A.opts.cb cf) P.nt.toNat
      (fun s => scaleAmpP (B.cfg s) fun t i => upAmps P A.opts.timeTaper A.ampP s t i)
      (fun s => scaleAmpV (B.cfg s) fun k t i => upAmps P A.opts.timeTaper (A.ampV k) s t i)
      (fun s => A.wf.init s) = .ok q ∧
      ∀ s, (B.alone s).forward A.gradL A.gradM A.gradB (A.opts.cb cf) P.nt.toNat
        (scaleAmpP (B.cfg s) fun t i => upAmps P A.opts.timeTaper A.ampP s t i)
        (scaleAmpV (B.cfg s) fun k t i => upAmps P A.opts.timeTaper (A.ampV k) s t i) (A.wf.init s) =
        .ok ⟨q.out s, q.rcdP s, q.rcdV s, q.storeB s, q.storeN s, q.storeS s, q.events.map fun e => e s⟩ := by
    cases hDD : D (locAt P.srcs d).n (fun k : Fin d => (locAt P.srcs k).n) P.nb with
    | cpu n σ =>
        rw [hDD] at hD
        exact C70_elastic_forward B (hA 0 hnb).ratio A.gradL A.gradM A.gradB _ _ hN _ _ _ σ hD
    | cuda κ =>
        rw [hDD] at hD
        exact C71_elastic_forward B hwf (hA 0 hnb).ratio
          (fun s i j c hi hj => Fin.ext (src_distinct h s.isLt A.opts.timeTaper (j := d) (get_p _ _)
            ((hA s s.isLt).mem _ (List.mem_append_left _ (List.mem_of_getElem? (get_p _ _)))) hi hj))
          (fun k s i j c hi hj => Fin.ext (src_distinct h s.isLt A.opts.timeTaper (j := k) (get_v _ _ k)
            ((hA s s.isLt).mem _ (List.mem_append_left _ (List.mem_of_getElem? (get_v _ _ k)))) hi hj))
          A.gradL A.gradM A.gradB _ _ hN _ _ _ κ hD
  have hfin : Finite (P.pml true) := finite_of_pmlOk' h (hA 0 hnb).pml true
  obtain ⟨y, b, hy, hb1, hb2, hb3, hb4, hb5, hb6⟩ := (E _ _ _).backward_shots B hwf hbig (hA 0 hnb).ratio hnb
    (fun s i j c hi hj => Fin.ext (rcv_distinct h s.isLt A.opts.timeTaper (j := d) (get_p _ _)
      ((hA s s.isLt).mem _ (List.mem_append_right _ (List.mem_of_getElem? (get_p _ _)))) hi hj))
    (fun k s i j c hi hj => Fin.ext (rcv_distinct h s.isLt A.opts.timeTaper (j := k) (get_v _ _ k)
      ((hA s s.isLt).mem _ (List.mem_append_right _ (List.mem_of_getElem? (get_v _ _ k)))) hi hj))
    A.gradL A.gradM A.gradB (if bcb then some cf.toNat else none) P.nt.toNat hN'
    (by
      rcases hb with h1 | ⟨h1, h2, h3⟩ | h1
      · exact .inl (by rw [h1]; rfl)
      · exact .inr (.inl ⟨((batched_iff h hnb (j := 0) (m := (A.lam, .replicate)) rfl).1).trans (decide_eq_true h1),
          ((batched_iff h hnb (j := 1) (m := (A.mu, .replicate)) rfl).1).trans (decide_eq_true h2),
          ((batched_iff h hnb (j := 2) (m := (A.buoyancy, .replicate)) rfl).1).trans (decide_eq_true h3)⟩)
      · exact .inr (.inr h1))
    q.storeB q.storeN q.storeS (fun s t i => downT P A.opts.timeTaper (fun t => -grP s i t / d) t)
    (fun s k t i => downT P A.opts.timeTaper (grV s k i) t) (fun s => (g s).toInit) hE
  let G : ℕ → UGrad d := fun s => if hs : s < P.nb then gradsOf A P ((In s).model 1) ((In s).model 2) (B.cfg ⟨s, hs⟩)
      (fun k t i => upAmps P A.opts.timeTaper (A.ampV k) s t i) (b ⟨s, hs⟩)
    else ⟨fun _ => 0, fun _ => 0, fun _ => 0, fun _ _ => 0, fun _ _ _ => 0,
      ⟨fun _ _ => 0, fun _ _ => 0, fun _ _ => 0, fun _ _ _ => 0, fun _ _ _ => 0⟩⟩
  obtain ⟨g1, g2, g3, g4⟩ := gradsOn_eq h hnb B rfl rfl rfl y b hb2 hb3 hb4 hb5 hb6 G (fun s => dif_pos s.isLt)
  have h1 : raiseIf A.Pre .runtimeError = .ok () := raiseIf_ok.2 hne
  refine ⟨gradsOn A P In B y, G, ?_, List.length_ofFn, fun s hs => ⟨?_, g4 s hs⟩, g1, g2, g3⟩
  · unfold UArgs.backwardOn
    simp only [h1, hplan, hcf, bind, Except.bind]
    unfold backWith
    refine bind_okay hq (bind_okay hy ?_)
    exact congrArg Except.ok (if_pos hfin)
  · unfold UArgs.backward
    simp only [h1, hplan, hcf, bind, Except.bind]
    refine (gradWith_cfgN (e1 s) (e2 s) (e3 s) (e4 s)).symm.trans ?_
    have hf := hall ⟨s, hs⟩
    have hg := hb1 ⟨s, hs⟩
    have hc : B.cfg ⟨s, hs⟩ = cfgN _ _ _ _ A.rfmax (In s) := (B.alone_eq _).symm.trans (hal _)
    rw [hal, hc] at hf
    rw [hal] at hg
    unfold gradWith
    refine bind_okay hf (bind_okay hg ?_)
    refine congrArg Except.ok ((if_pos hfin).trans ?_)
    rw [show G s = gradsOf A P ((In s).model 1) ((In s).model 2) (B.cfg ⟨s, hs⟩) _ (b ⟨s, hs⟩) from dif_pos hs, hc]

end Dw.Elastic
