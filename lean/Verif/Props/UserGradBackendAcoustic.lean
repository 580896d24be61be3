import Verif.Acoustic.UserGradBackend
import Verif.Props.UserBackendAcoustic

/-!
# Gradients of `acoustic` do not depend on the backend

`A.backward s` are the gradients from shot `s` with the functions compiled for the CPU, `A.vGrad` and `A.rhoGrad`
their sums in `v.grad` and `rho.grad`; `A.backwardOn D E` is the backward pass of all shots, on the CPU with several
threads or on a CUDA device.
-/

namespace Dw.Acoustic

open Setup Resample
open Born (gatherAt)
open Dw.Scalar (NoElements PmlOk WholeIgnored locAt upAmps)

variable {d : ℕ}

/-- The gradients of shots in terms of the driver for all shots. -/
theorem gradsOn_eq {A : UArgs d} {P : Plan d} (h : A.setup.Good P) (hnb : 0 < P.nb) {np mp : ℕ} {nv mv : Fin d → ℕ}
    (B : Batch d np mp nv mv P.nb ℝ) (hk : B.kBatched = (P.batched 0 || P.batched 1)) (hb : B.bBatched = P.batched 1)
    (r : BatchBResult d np nv P.nb ℝ) (b : Fin P.nb → BResult d np nv ℝ)
    (h1 : ∀ s, r.gfP s = (b s).gfP ∧ r.gfV s = (b s).gfV ∧ r.out s = (b s).out)
    (h2 : ∀ β c, r.gK β c = ∑ s : Fin P.nb, if (if B.kBatched then (s : ℕ) else 0) = β then (b s).gK c else 0)
    (h3 : ∀ k β c, r.gB k β c = ∑ s : Fin P.nb, if (if B.bBatched then (s : ℕ) else 0) = β then (b s).gB k c else 0)
    (G : ℕ → UGrad d) (hG : ∀ s : Fin P.nb, G s = gradsOf A P ((shotIn A.setup P A.opts.timeTaper s).model 0)
      ((shotIn A.setup P A.opts.timeTaper s).model 1) (B.cfg s)
      (fun t i => upAmps P A.opts.timeTaper A.ampP s t i) (fun k t i => upAmps P A.opts.timeTaper (A.ampV k) s t i) (b s)) :
    (gradsOn A P (shotIn A.setup P A.opts.timeTaper) B r).v = A.vGrad P G ∧
    (gradsOn A P (shotIn A.setup P A.opts.timeTaper) B r).rho = A.rhoGrad P G ∧
    ∀ s < P.nb, (gradsOn A P (shotIn A.setup P A.opts.timeTaper) B r).shots[s]? =
      some ⟨(G s).ampP, (G s).ampV, (G s).wf⟩ := by
  let aP : ℕ → ℕ → Fin np → ℝ := fun s t i => upAmps P A.opts.timeTaper A.ampP s t i
  let aV : ℕ → (k : Fin d) → ℕ → Fin (nv k) → ℝ := fun s k t i => upAmps P A.opts.timeTaper (A.ampV k) s t i
  let In := shotIn A.setup P A.opts.timeTaper
  -- blocks of the bulk modulus and of the buoyancies
  have hK : ∀ β, (fun p => r.gK β p + ∑ s : Fin P.nb, if (if B.kBatched then (s : ℕ) else 0) = β then
      viaK (B.cfg s) P.nt.toNat (aP s) (r.gfP s) p else 0) =
      ∑ s : Fin P.nb, if (if B.kBatched then (s : ℕ) else 0) = β then totK (B.cfg s) P.nt.toNat (aP s) (b s) else 0 := by
    intro β
    funext p
    rw [h2, ← Finset.sum_add_distrib, Finset.sum_apply]
    refine Finset.sum_congr rfl fun s _ => ?_
    rw [(h1 s).1]
    split_ifs
    · rfl
    · exact add_zero _
    · rfl
    · exact add_zero _
  have hB : ∀ β, (fun k p => r.gB k β p + ∑ s : Fin P.nb, if (if B.bBatched then (s : ℕ) else 0) = β then
      viaB (B.cfg s) P.nt.toNat (aV s) (r.gfV s) k p else 0) =
      ∑ s : Fin P.nb, if (if B.bBatched then (s : ℕ) else 0) = β then totB (B.cfg s) P.nt.toNat (aV s) (b s) else 0 := by
    intro β
    funext k p
    rw [h3, ← Finset.sum_add_distrib, Finset.sum_apply, Finset.sum_apply]
    refine Finset.sum_congr rfl fun s _ => ?_
    rw [(h1 s).2.1]
    split_ifs
    · rfl
    · exact add_zero _
    · rfl
    · exact add_zero _
  have hsh : B.kBatched = false → ∀ s < P.nb, In s = In s ∧ (In s).model 0 = (In 0).model 0 ∧
      (In s).model 1 = (In 0).model 1 := by
    intro hf s hs
    rw [hk, Bool.or_eq_false_iff] at hf
    exact ⟨rfl, shot_shared h _ hs hf.1, shot_shared h _ hs hf.2⟩
  refine ⟨?_, ?_, fun s hs => ?_⟩
  · funext j
    refine congrArg (extractModelT A.v.shape P.ext (P.padding true) .replicate) ?_
    funext p
    rw [shotsT_eq h hnb (j := 0) (m := (A.v, .replicate)) rfl]
    have := blocks_sum (n := P.nb) B.kBatched (P.batched 0) (fun hv => by rw [hk, hv]; rfl)
      (fun s x => prepareVT ((In s).model 0) ((In s).model 1) x p) (fun s => by simp [prepareVT])
      (fun s x y => by simp only [prepareVT, Pi.add_apply]; ring)
      (fun hf s hs => by
        obtain ⟨-, e0, e1⟩ := hsh hf s hs
        simp only [e0, e1]) (fun s => totK (B.cfg s) P.nt.toNat (aP s) (b s)) j
    simp only [← hK] at this
    refine this.trans (Finset.sum_congr rfl fun s _ => ?_)
    rw [hG]
    rfl
  · funext j
    refine congrArg (extractModelT A.rho.shape P.ext (P.padding true) .replicate) ?_
    funext p
    rw [shotsT_eq h hnb (j := 1) (m := (A.rho, .replicate)) rfl]
    have t1 := blocks_sum (n := P.nb) B.kBatched (P.batched 1) (fun hv => by rw [hk, hv, Bool.or_true])
      (fun s x => x p * (In s).model 0 p ^ 2) (fun s => by simp)
      (fun s x y => by simp only [Pi.add_apply]; ring)
      (fun hf s hs => by
        obtain ⟨-, e0, -⟩ := hsh hf s hs
        simp only [e0]) (fun s => totK (B.cfg s) P.nt.toNat (aP s) (b s)) j
    have t2 := blk_sum (n := P.nb) (P.batched 1) (fun s x => viaMeans (P.n true) A.rfmax ((In s).model 1) x p)
      (fun s => viaMeans_zero _ _ _ _) (fun s x y => viaMeans_add _ _ _ _ _ _)
      (fun hf s hs => by
        have e1 : (In s).model 1 = (In 0).model 1 := shot_shared h _ hs hf
        simp only [e1]) (fun s => totB (B.cfg s) P.nt.toNat (aV s) (b s)) j
    simp only [← hK] at t1
    rw [← hb, ← hB j] at t2
    refine (congrArg₂ (· + ·) t1 t2).trans ?_
    rw [← Finset.sum_add_distrib]
    refine Finset.sum_congr rfl fun s _ => ?_
    rw [hG]
    rw [hb]
    by_cases hj : (if P.batched 1 then (s : ℕ) else 0) = j
    · rw [if_pos hj, if_pos hj, if_pos hj]
      rfl
    · rw [if_neg hj, if_neg hj, if_neg hj, add_zero]
  · refine List.getElem?_ofFn.trans ((dif_pos hs).trans ?_)
    obtain ⟨e1, e2, e3⟩ := h1 ⟨s, hs⟩
    have e := hG ⟨s, hs⟩
    simp only at e
    rw [e, e1, e2, e3]
    rfl

/-- **C110** `backward()` after a call of `acoustic` gives the same gradients of source amplitudes, initial
wavefields, velocity and density on the CPU with any number of threads and any order in which they run, and on a
CUDA device with any order of the threads of its kernels, as when each shot is propagated alone and the model
gradients are added.  With a backward callback, the density must be given for each shot or there must be a single
thread (C06). -/
theorem C110_acoustic (A : UArgs d) (P : Plan d) (cf : ℤ) (hnb : 0 < P.nb) (hA : ∀ s < P.nb, Runs A P s cf)
    (D : (np : ℕ) → (nv : Fin d → ℕ) → (S : ℕ) → Device d np nv S)
    (E : (mp : ℕ) → (mv : Fin d → ℕ) → (S : ℕ) → BDevice d mp mv S) (bcb : Bool)
    (hD : (D _ _ _).Admissible (batch (locAt P.srcs 0).n (locAt P.rcvs 0).n (fun k => (locAt P.srcs (k + 1)).n)
      (fun k => (locAt P.rcvs (k + 1)).n) A.rfmax P (shotIn A.setup P A.opts.timeTaper)) (A.opts.cb cf) P.nt.toNat)
    (hE : (E _ _ _).Admissible (batch (locAt P.srcs 0).n (locAt P.rcvs 0).n (fun k => (locAt P.srcs (k + 1)).n)
      (fun k => (locAt P.rcvs (k + 1)).n) A.rfmax P (shotIn A.setup P A.opts.timeTaper))
      (if bcb then some cf.toNat else none) P.nt.toNat)
    (hb : bcb = false ∨ 1 < A.rho.nb.getD 1 ∨
      (E (locAt P.rcvs 0).n (fun k => (locAt P.rcvs (k + 1)).n) P.nb).buffers ≤ 1)
    (grP : ℕ → ℕ → ℕ → ℝ) (grV : ℕ → Fin d → ℕ → ℕ → ℝ) (g : ℕ → Wavefields d ℝ) :
    ∃ u b, A.backwardOn D E bcb grP grV g = .ok (some u) ∧ u.shots.length = P.nb ∧
      (∀ s < P.nb, A.backward s bcb (grP s) (grV s) (g s) = .ok (some (b s)) ∧
        u.shots[s]? = some ⟨(b s).ampP, (b s).ampV, (b s).wf⟩) ∧
      u.v = A.vGrad P b ∧ u.rho = A.rhoGrad P b := by
  classical
  have h := (hA 0 hnb).good
  have hplan := plan_ok.2 h
  have hne := (hA 0 hnb).pre
  have hcf := (hA 0 hnb).freq
  let In := shotIn A.setup P A.opts.timeTaper
  let B := batch (locAt P.srcs 0).n (locAt P.rcvs 0).n (fun k : Fin d => (locAt P.srcs (k + 1)).n)
    (fun k : Fin d => (locAt P.rcvs (k + 1)).n) A.rfmax P In
  have hN : 0 < P.nt.toNat → 0 < (A.opts.cb cf).getD (P.nt.toNat / B.base.ratio) :=
    cb_pos hcf (hA 0 hnb).ratio (.inr (hA 0 hnb).nt)
  have hN' : 0 < P.nt.toNat → 0 < (if bcb then some cf.toNat else none).getD (P.nt.toNat / B.base.ratio) :=
    Born.cb_pos' bcb hcf (hA 0 hnb).ratio (hA 0 hnb).nt
  have e1 : ∀ s, (locAt P.srcs 0).n = ((In s).src 0).length := fun s => (src_count _ _ _ _ _).symm
  have e2 : ∀ s, (locAt P.rcvs 0).n = ((In s).rcv 0).length := fun s => (rcv_count _ _ _ _ _).symm
  have e3 : ∀ s, (fun k : Fin d => (locAt P.srcs (k + 1)).n) = fun k : Fin d => ((In s).src (k + 1)).length :=
    fun s => funext fun k => (src_count _ _ _ _ _).symm
  have e4 : ∀ s, (fun k : Fin d => (locAt P.rcvs (k + 1)).n) = fun k : Fin d => ((In s).rcv (k + 1)).length :=
    fun s => funext fun k => (rcv_count _ _ _ _ _).symm
  have hal : ∀ s, B.alone s = cfgN _ _ _ _ A.rfmax (In s) := fun s => (B.alone_eq s).trans (batch_cfg h _ _ _ _ s)
  have hwf : ∀ s, (B.alone s).WF := fun s => by
    rw [hal]
    exact cfgN_wf (e1 s) (e2 s) (e3 s) (e4 s) (hA s s.isLt).wf
  have hbig : ∀ s, (B.alone s).Big := fun s => by
    rw [hal]
    exact cfgN_big (hA s s.isLt).cfgBig
  obtain ⟨q, hq, hall⟩ : ∃ q, (D _ _ _).forward B A.gradK A.gradB (A.opts.cb cf) P.nt.toNat
      (fun s => scaleAmpP (B.cfg s) fun t i => upAmps P A.opts.timeTaper A.ampP s t i)
      (fun s => scaleAmpV (B.cfg s) fun k t i => upAmps P A.opts.timeTaper (A.ampV k) s t i)
      (fun s => A.wf.init s) = .ok q ∧
      ∀ s, (B.alone s).forward A.gradK A.gradB (A.opts.cb cf) P.nt.toNat
        (scaleAmpP (B.cfg s) fun t i => upAmps P A.opts.timeTaper A.ampP s t i)
        (scaleAmpV (B.cfg s) fun k t i => upAmps P A.opts.timeTaper (A.ampV k) s t i) (A.wf.init s) =
        .ok ⟨q.out s, q.rcdP s, q.rcdV s, q.storeK s, q.storeB s, q.events.map fun e => e s⟩ := by
    cases hDD : D (locAt P.srcs 0).n (fun k : Fin d => (locAt P.srcs (k + 1)).n) P.nb with
    | cpu n σ =>
        rw [hDD] at hD
        exact C70_acoustic_forward B (hA 0 hnb).ratio A.gradK A.gradB _ _ hN _ _ _ σ hD
    | cuda κ =>
        rw [hDD] at hD
        exact C71_acoustic_forward B hwf (hA 0 hnb).ratio
          (fun s i j c hi hj => Fin.ext (src_distinct h s.isLt A.opts.timeTaper (j := 0) rfl
            ((hA s s.isLt).mem _ (List.mem_append_left _ List.mem_cons_self)) hi hj))
          (fun k s i j c hi hj => Fin.ext (src_distinct h s.isLt A.opts.timeTaper (j := k + 1) (get_succ _ _ k)
            ((hA s s.isLt).mem _ (List.mem_append_left _ (List.mem_of_getElem? (get_succ _ _ k)))) hi hj))
          A.gradK A.gradB _ _ hN _ _ _ κ hD
  have hfin : Finite (P.pml true) := finite_of_pmlOk' h (hA 0 hnb).pml true
  have hbat : 1 < A.rho.nb.getD 1 → P.batched 1 = true := fun h1 => by
    rw [(batched_iff h hnb (j := 1) (m := (A.rho, .replicate)) rfl).1]
    exact decide_eq_true h1
  obtain ⟨y, b, hy, hb1, hb2, hb3, hb4⟩ := (E _ _ _).backward_shots B hwf hbig (hA 0 hnb).ratio hnb
    (fun s i j c hi hj => Fin.ext (rcv_distinct h s.isLt A.opts.timeTaper (j := 0) rfl
      ((hA s s.isLt).mem _ (List.mem_append_right _ List.mem_cons_self)) hi hj))
    (fun k s i j c hi hj => Fin.ext (rcv_distinct h s.isLt A.opts.timeTaper (j := k + 1) (get_succ _ _ k)
      ((hA s s.isLt).mem _ (List.mem_append_right _ (List.mem_of_getElem? (get_succ _ _ k)))) hi hj))
    A.gradK A.gradB (if bcb then some cf.toNat else none) P.nt.toNat hN'
    (by
      rcases hb with h1 | h1 | h1
      · exact .inl (by rw [h1]; rfl)
      · refine .inr (.inl ⟨?_, hbat h1⟩)
        show (P.batched 0 || P.batched 1) = true
        rw [hbat h1, Bool.or_true]
      · exact .inr (.inr h1))
    q.storeK q.storeB (fun s t i => downT P A.opts.timeTaper (grP s i) t)
    (fun s k t i => downT P A.opts.timeTaper (grV s k i) t) (fun s => (g s).toInit) hE
  let G : ℕ → UGrad d := fun s => if hs : s < P.nb then gradsOf A P ((In s).model 0) ((In s).model 1) (B.cfg ⟨s, hs⟩)
      (fun t i => upAmps P A.opts.timeTaper A.ampP s t i) (fun k t i => upAmps P A.opts.timeTaper (A.ampV k) s t i)
      (b ⟨s, hs⟩)
    else ⟨fun _ => 0, fun _ => 0, fun _ _ => 0, fun _ _ _ => 0, ⟨fun _ => 0, fun _ _ => 0, fun _ _ => 0, fun _ _ => 0⟩⟩
  obtain ⟨g1, g2, g3⟩ := gradsOn_eq h hnb B rfl rfl y b hb2 hb3 hb4 G (fun s => dif_pos s.isLt)
  have h1 : raiseIf A.Pre .runtimeError = .ok () := raiseIf_ok.2 hne
  refine ⟨gradsOn A P In B y, G, ?_, List.length_ofFn, fun s hs => ⟨?_, g3 s hs⟩, g1, g2⟩
  · unfold UArgs.backwardOn
    simp only [h1, hplan, hcf, bind, Except.bind]
    unfold backWith
    refine bind_okay hq (bind_okay hy ?_)
    exact congrArg Except.ok (if_pos hfin)
  · unfold UArgs.backward
    simp only [h1, hplan, hcf, bind, Except.bind]
    refine (gradWith_cfgN (e1 s) (e2 s) (e3 s) (e4 s)).symm.trans ?_
    have hf := hall ⟨s, hs⟩
    have hg := hb1 ⟨s, hs⟩
    have hc : B.cfg ⟨s, hs⟩ = cfgN _ _ _ _ A.rfmax (In s) := (B.alone_eq _).symm.trans (hal _)
    rw [hal, hc] at hf
    rw [hal] at hg
    unfold gradWith
    refine bind_okay hf (bind_okay hg ?_)
    refine congrArg Except.ok ((if_pos hfin).trans ?_)
    rw [show G s = gradsOf A P ((In s).model 0) ((In s).model 1) (B.cfg ⟨s, hs⟩) _ _ (b ⟨s, hs⟩) from dif_pos hs, hc]

end Dw.Acoustic
