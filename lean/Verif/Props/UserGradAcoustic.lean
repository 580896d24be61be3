import Verif.Acoustic.UserGrad

/-!
# The gradients of a call of `acoustic`

C98: with `max_vel` given and a model gradient sampling interval of one time step, the gradients of velocity,
density, source amplitudes and initial wavefields are the derivatives of the outputs.  C99: for any time step,
the gradients of source amplitudes and initial wavefields are exact.
-/

namespace Dw.Acoustic

open Setup Resample
open Born (gatherAt cb_pos' padDir_zero)
open Scalar (upAmps outCells PmlOk WholeIgnored traceInner)

variable {d : ℕ}

/-- The models of the propagator for velocity `v` and density `rho`. -/
theorem cfgOf_plus {A : UArgs d} {P : Plan d} (h : A.setup.Good P) (hnb : 0 < P.nb) (e : ℝ) (D : UDir d) (tt : Bool)
    (s : ℕ) : cfgOf (A.plus e D).rfmax (shotIn (A.plus e D).setup (A.planPlus P e D) tt s) =
      (cfgOf A.rfmax (shotIn A.setup P tt s)).withM
        (prepareK (fun c => (shotIn A.setup P tt s).model 0 c + e * padDir P true (A.v, .replicate) D.v s c)
          fun c => (shotIn A.setup P tt s).model 1 c + e * padDir P true (A.rho, .replicate) D.rho s c)
        (prepareB (P.n true) A.rfmax
          fun c => (shotIn A.setup P tt s).model 1 c + e * padDir P true (A.rho, .replicate) D.rho s c) := by
  have h0 := fun p => model_plus h hnb (j := 0) (m := (A.v, .replicate)) rfl (A' := (A.plus e D).setup)
    (ms := [((A.plus e D).v, .replicate), ((A.plus e D).rho, .replicate)]) (δ := D.v) (e := e) rfl tt s p
  have h1 := fun p => model_plus h hnb (j := 1) (m := (A.rho, .replicate)) rfl (A' := (A.plus e D).setup)
    (ms := [((A.plus e D).v, .replicate), ((A.plus e D).rho, .replicate)]) (δ := D.rho) (e := e) rfl tt s p
  refine Eq.trans (b := (cfgOf A.rfmax (shotIn A.setup P tt s)).withM
    (prepareK ((shotIn (A.plus e D).setup (A.planPlus P e D) tt s).model 0)
      ((shotIn (A.plus e D).setup (A.planPlus P e D) tt s).model 1))
    (prepareB (P.n true) A.rfmax ((shotIn (A.plus e D).setup (A.planPlus P e D) tt s).model 1))) rfl ?_
  have e0 : (shotIn (A.plus e D).setup (A.planPlus P e D) tt s).model 0 = fun c =>
      (shotIn A.setup P tt s).model 0 c + e * padDir P true (A.v, .replicate) D.v s c := funext h0
  have e1 : (shotIn (A.plus e D).setup (A.planPlus P e D) tt s).model 1 = fun c =>
      (shotIn A.setup P tt s).model 1 c + e * padDir P true (A.rho, .replicate) D.rho s c := funext h1
  rw [e0, e1]

theorem backward_ok {A : UArgs d} {P : Plan d} {s : ℕ} {cf : ℤ} (h : Runs A P s cf) {bcb : Bool}
    {grP : ℕ → ℕ → ℝ} {grV : Fin d → ℕ → ℕ → ℝ} {g : Wavefields d ℝ} {q : UGrad d}
    (hq : gradWith A P cf s ((shotIn A.setup P A.opts.timeTaper s).model 0)
      ((shotIn A.setup P A.opts.timeTaper s).model 1) bcb grP grV g
      (cfgOf A.rfmax (shotIn A.setup P A.opts.timeTaper s)) = .ok (some q)) :
    A.backward s bcb grP grV g = .ok (some q) := by
  classical
  unfold UArgs.backward
  rw [raiseIf_ok.2 h.pre, plan_ok.2 h.good, h.freq]
  exact hq

theorem gradWith_ok {np mp : ℕ} {nv mv : Fin d → ℕ} {A : UArgs d} {P : Plan d} {cf : ℤ} {s : ℕ} {bcb : Bool}
    {v rho : Fld d ℝ} {grP : ℕ → ℕ → ℝ} {grV : Fin d → ℕ → ℕ → ℝ} {g : Wavefields d ℝ}
    {C : Cfg d np mp nv mv ℝ} {r : FResult d mp mv ℝ} {b : BResult d np nv ℝ} (hfin : Finite (P.pml true))
    (hf : C.forward A.gradK A.gradB (A.opts.cb cf) P.nt.toNat
      (scaleAmpP C fun t i => upAmps P A.opts.timeTaper A.ampP s t i)
      (scaleAmpV C fun k t i => upAmps P A.opts.timeTaper (A.ampV k) s t i) (A.wf.init s) = .ok r)
    (hb : C.backward A.gradK A.gradB (if bcb then some cf.toNat else none) P.nt.toNat r.storeK r.storeB
      (fun t i => downT P A.opts.timeTaper (grP i) t) (fun k t i => downT P A.opts.timeTaper (grV k i) t)
      g.toInit = .ok b) :
    gradWith A P cf s v rho bcb grP grV g C =
      .ok (some (gradsOf A P v rho C (fun t i => upAmps P A.opts.timeTaper A.ampP s t i)
        (fun k t i => upAmps P A.opts.timeTaper (A.ampV k) s t i) b)) := by
  unfold gradWith
  simp only [bind, Except.bind]
  rw [hf]
  simp only
  rw [hb]
  simp only [pure, Except.pure, if_pos hfin]

theorem out_cells {A : UArgs d} (P : Plan d) (s : ℕ) :
    (cfgOf A.rfmax (shotIn A.setup P A.opts.timeTaper s)).userCells = outCells P := by
  unfold Cfg.userCells outCells
  congr 1
  funext k
  have := nStag_eq P k
  rw [Acc.order_div_two]
  show P.n true k - 2 * (P.acc.pad : ℤ) + 1 = _
  omega

section
variable {A : UArgs d} {P : Plan d} {s : ℕ} {cf : ℤ} (h : Runs A P s cf)
include h

theorem amp_pairP (D : UDir d) (y : ℕ → Fin ((shotIn A.setup P A.opts.timeTaper s).src 0).length → ℝ) :
    traceInner P.nt.toNat (fun t (i : Fin _) => upAmps P A.opts.timeTaper (ampWith A.ampP D.ampP) s t i) y =
      ampPair A.ampP (D.ampP s) (ampGrad P A.opts.timeTaper A.ampP y) :=
  ampPair_eq' h.good A.opts.timeTaper s (j := 0) (a := A.ampP) (o := A.srcP) rfl rfl
    (src_length h.good A.opts.timeTaper s (j := 0) rfl) D.ampP y

theorem amp_pairV (D : UDir d) (k : Fin d)
    (y : ℕ → Fin ((shotIn A.setup P A.opts.timeTaper s).src (k + 1)).length → ℝ) :
    traceInner P.nt.toNat (fun t (i : Fin _) => upAmps P A.opts.timeTaper (ampWith (A.ampV k) (D.ampV k)) s t i) y =
      ampPair (A.ampV k) (D.ampV k s) (ampGrad P A.opts.timeTaper (A.ampV k) y) :=
  ampPair_eq' h.good A.opts.timeTaper s (j := k + 1) (a := A.ampV k) (o := A.srcV k) (get_succ _ _ k) (get_succ _ _ k)
    (src_length h.good A.opts.timeTaper s (j := k + 1) (get_succ _ _ k)) (D.ampV k) y

/-- Where the mask of the buoyancy does not flip, in the padded model. -/
theorem mean_ne (hne : ∀ k c, |Spec.mean (P.grid.extend (A.rho.shot s)) k c| ≠ A.rfmax) (k : Fin d) (c : Cell d)
    (hc : c k + 1 < P.n true k) :
    |meanRho (P.n true) ((shotIn A.setup P A.opts.timeTaper s).model 1) k c| ≠ A.rfmax := by
  have hnb : 0 < P.nb := by have := h.lt; omega
  have hext := h.good.ext_lt hnb ⟨A.v, List.mem_cons_self⟩
  have hrho := model_grid h.good hnb hext A.opts.timeTaper s 1 A.rho rfl
  rw [← P.at_sub c] at hc ⊢
  have := hne k fun j => c j - P.off j
  unfold Spec.mean at this
  rwa [meanRho, if_pos hc, hrho, ← Plan.at_shift, hrho]

/-- The derivative for one shot. -/
theorem shot_deriv (hmv : A.opts.maxVel ≠ none)
    (hr : P.ratio = 1) (hi : P.interval = 1) (hrf : 0 ≤ A.rfmax)
    (hne : ∀ k c, |Spec.mean (P.grid.extend (A.rho.shot s)) k c| ≠ A.rfmax) (bcb : Bool) (grP : ℕ → ℕ → ℝ)
    (grV : Fin d → ℕ → ℕ → ℝ) (g : Wavefields d ℝ) (D : UDir d)
    (hK : A.gradK = true ∨ D.v = (fun _ _ => 0) ∧ D.rho = fun _ _ => 0)
    (hB : A.gradB = true ∨ D.rho = fun _ _ => 0) :
    ∃ (u : ℝ → UShot d) (b : UGrad d), (∀ e, (A.plus e D).acoustic s = .ok (some (u e))) ∧
      A.backward s bcb grP grV g = .ok (some b) ∧
      HasDerivAt (fun e => (u e).pair A (outCells P) grP grV g)
        (∑ p ∈ box (fun _ => 0) (P.n true), padDir P true (A.v, .replicate) D.v s p * b.v p +
          ∑ p ∈ box (fun _ => 0) (P.n true), padDir P true (A.rho, .replicate) D.rho s p * b.rho p +
          (ampPair A.ampP (D.ampP s) b.ampP + ∑ k, ampPair (A.ampV k) (D.ampV k s) (b.ampV k) +
            (A.wf.givenOf (D.wf s)).inner (outCells P) b.wf)) 0 := by
  have hnb : 0 < P.nb := by have := h.lt; omega
  have hwf := h.wf
  have hbig := h.cfgBig
  have hC1 : (cfgOf A.rfmax (shotIn A.setup P A.opts.timeTaper s)).ratio = 1 := by
    show (P.ratio * P.interval).toNat = 1
    rw [hr, hi]
    rfl
  have hcb : ∀ c : Bool, 0 < P.nt.toNat → 0 < (if c then some cf.toNat else none).getD P.nt.toNat := fun c h1 => by
    have := cb_pos' c h.freq h.ratio h.nt h1
    rwa [hr, hi, show ((1 : ℤ) * 1).toNat = 1 from rfl, Nat.div_one] at this
  have hcb' : ∀ c : Bool, 0 < P.nt.toNat → 0 < (if c then some cf.toNat else none).getD
      (P.nt.toNat / (cfgOf A.rfmax (shotIn A.setup P A.opts.timeTaper s)).ratio) := fun c h1 => by
    rw [hC1, Nat.div_one]
    exact hcb c h1
  set v0 := (shotIn A.setup P A.opts.timeTaper s).model 0 with hv0
  set ρ0 := (shotIn A.setup P A.opts.timeTaper s).model 1 with hρ0
  set δv := padDir P true (A.v, .replicate) D.v s with hδv
  set δρ := padDir P true (A.rho, .replicate) D.rho s with hδρ
  set K : ℝ → Fld d ℝ := fun e => prepareK (fun c => v0 c + e * δv c) fun c => ρ0 c + e * δρ c with hKdef
  set B : ℝ → Fin d → Fld d ℝ := fun e => prepareB (P.n true) A.rfmax fun c => ρ0 c + e * δρ c with hBdef
  -- the calls
  have hu : ∀ e, ∃ r, (A.plus e D).acoustic s = .ok (some r) ∧ r.pair A (outCells P) grP grV g =
      ((cfgOf A.rfmax (shotIn A.setup P A.opts.timeTaper s)).withM (K e) (B e)).obj
        P.nt.toNat (fun t i => downT P A.opts.timeTaper (grP i) t)
        (fun k t i => downT P A.opts.timeTaper (grV k i) t) g
        (scaleAmpP ((cfgOf A.rfmax (shotIn A.setup P A.opts.timeTaper s)).withM (K e) (B e))
          fun t (i : Fin _) => upAmps P A.opts.timeTaper A.ampP s t i +
            e * upAmps P A.opts.timeTaper (ampWith A.ampP D.ampP) s t i)
        (scaleAmpV ((cfgOf A.rfmax (shotIn A.setup P A.opts.timeTaper s)).withM (K e) (B e))
          fun k t (i : Fin _) => upAmps P A.opts.timeTaper (A.ampV k) s t i +
            e * upAmps P A.opts.timeTaper (ampWith (A.ampV k) (D.ampV k)) s t i)
        ((A.wf.zeroed s).plus e (A.wf.givenOf (D.wf s))) := fun e => by
    obtain ⟨r, h1, h2⟩ := acoustic_pair (h.plus hmv e D) grP grV g
    refine ⟨r, h1, ?_⟩
    have e1 := cfgOf_plus h.good hnb e D A.opts.timeTaper s
    have e2 : (fun t (i : Fin ((shotIn A.setup P A.opts.timeTaper s).src 0).length) =>
        upAmps (A.planPlus P e D) (A.plus e D).opts.timeTaper (A.plus e D).ampP s t i) = fun t (i : Fin _) =>
          upAmps P A.opts.timeTaper A.ampP s t i + e * upAmps P A.opts.timeTaper (ampWith A.ampP D.ampP) s t i := by
      funext t i
      exact upAmps_plus' h.good A.opts.timeTaper A.ampP e D.ampP s t i
    have e3 : (fun (k : Fin d) t (i : Fin ((shotIn A.setup P A.opts.timeTaper s).src (k + 1)).length) =>
        upAmps (A.planPlus P e D) (A.plus e D).opts.timeTaper ((A.plus e D).ampV k) s t i) = fun k t (i : Fin _) =>
          upAmps P A.opts.timeTaper (A.ampV k) s t i +
            e * upAmps P A.opts.timeTaper (ampWith (A.ampV k) (D.ampV k)) s t i := by
      funext k t i
      exact upAmps_plus' h.good A.opts.timeTaper (A.ampV k) e (D.ampV k) s t i
    rw [← UWf.plus_zeroed, ← e2, ← e3]
    simp only [hKdef, hBdef, hv0, hρ0, hδv, hδρ]
    rw [← e1]
    exact h2
  choose u hu1 hu2 using hu
  -- the backward pass
  have hF := fun w => forward_eq hwf A.gradK A.gradB (A.opts.cb cf) P.nt.toNat
    (scaleAmpP (cfgOf A.rfmax (shotIn A.setup P A.opts.timeTaper s)) fun t i => upAmps P A.opts.timeTaper A.ampP s t i)
    (scaleAmpV (cfgOf A.rfmax (shotIn A.setup P A.opts.timeTaper s))
      fun k t i => upAmps P A.opts.timeTaper (A.ampV k) s t i) w (by omega) (hcb' _)
  obtain ⟨r, hr1⟩ : ∃ r, (cfgOf A.rfmax (shotIn A.setup P A.opts.timeTaper s)).forward A.gradK A.gradB (A.opts.cb cf)
    P.nt.toNat
    (scaleAmpP (cfgOf A.rfmax (shotIn A.setup P A.opts.timeTaper s)) fun t i => upAmps P A.opts.timeTaper A.ampP s t i)
    (scaleAmpV (cfgOf A.rfmax (shotIn A.setup P A.opts.timeTaper s))
      fun k t i => upAmps P A.opts.timeTaper (A.ampV k) s t i) (A.wf.init s) = .ok r := ⟨_, hF _⟩
  obtain ⟨b, hb⟩ : ∃ b, (cfgOf A.rfmax (shotIn A.setup P A.opts.timeTaper s)).backward A.gradK A.gradB
    (if bcb then some cf.toNat else none) P.nt.toNat r.storeK r.storeB
    (fun t i => downT P A.opts.timeTaper (grP i) t) (fun k t i => downT P A.opts.timeTaper (grV k i) t)
    g.toInit = .ok b := ⟨_, backward_eq hwf hbig _ _ _ _ _ _ _ _ _ (by omega) (hcb' _)⟩
  have hq := backward_ok h (gradWith_ok (finite_of_pmlOk' h.good h.pml true) hr1 hb)
  refine ⟨u, _, hu1, hq, ?_⟩
  simp only [hu2]
  have hF' : (cfgOf A.rfmax (shotIn A.setup P A.opts.timeTaper s)).forward A.gradK A.gradB (A.opts.cb cf) P.nt.toNat
    (scaleAmpP (cfgOf A.rfmax (shotIn A.setup P A.opts.timeTaper s)) fun t i => upAmps P A.opts.timeTaper A.ampP s t i)
    (scaleAmpV (cfgOf A.rfmax (shotIn A.setup P A.opts.timeTaper s))
      fun k t i => upAmps P A.opts.timeTaper (A.ampV k) s t i) (A.wf.zeroed s).toInit = .ok r := by
    rw [← hr1, hF, hF, prepare_zeroed]
  have hz : ∀ k c, meanRho (P.n true) (fun _ => (0 : ℝ)) k c = 0 := fun k c => by simp [meanRho]
  have hδK : A.gradK = true ∨ dirK v0 ρ0 δv δρ = fun _ => 0 := hK.imp id fun h0 => by
    have e1 : δv = fun _ => 0 := by rw [hδv, h0.1]; exact padDir_zero _ _ _ _
    have e2 : δρ = fun _ => 0 := by rw [hδρ, h0.2]; exact padDir_zero _ _ _ _
    funext c
    simp [dirK, e1, e2]
  have hδB : A.gradB = true ∨ dirB (P.n true) A.rfmax ρ0 δρ = fun _ _ => 0 := hB.imp id fun h0 => by
    have e2 : δρ = fun _ => 0 := by rw [hδρ, h0]; exact padDir_zero _ _ _ _
    funext k c
    simp [dirB, e2, hz]
  have hd := Cfg.scaled_deriv hwf hbig hC1 P.nt.toNat (fun t i => downT P A.opts.timeTaper (grP i) t)
    (fun k t i => downT P A.opts.timeTaper (grV k i) t) g K B (dirK v0 ρ0 δv δρ)
    (dirB (P.n true) A.rfmax ρ0 δρ)
    (by simp only [hKdef, zero_mul, add_zero]; rfl) (by simp only [hBdef, zero_mul, add_zero]; rfl)
    (fun c => hasDeriv_prepareK v0 ρ0 δv δρ c)
    (fun k c => hasDeriv_prepareB hrf ρ0 δρ k c (mean_ne h hne k c))
    (fun t i => upAmps P A.opts.timeTaper A.ampP s t i)
    (fun t i => upAmps P A.opts.timeTaper (ampWith A.ampP D.ampP) s t i)
    (fun k t i => upAmps P A.opts.timeTaper (A.ampV k) s t i)
    (fun k t i => upAmps P A.opts.timeTaper (ampWith (A.ampV k) (D.ampV k)) s t i)
    (A.wf.zeroed s) (A.wf.givenOf (D.wf s)) hδK hδB (hcb A.opts.callback) (hcb bcb) hF' hb
  refine hd.congr_deriv ?_
  have hmc : (cfgOf A.rfmax (shotIn A.setup P A.opts.timeTaper s)).modelCells = box (fun _ => 0) (P.n true) := rfl
  rw [hmc, out_cells, prepare_adj, amp_pairP h, Finset.sum_congr rfl fun k _ => amp_pairV h D k _]
  simp only [gradsOf]
  ring

end

/-- **C98**: the gradients of a call are the derivatives of its outputs, in every direction in which velocity,
density, source amplitudes and initial wavefields can change together.  `grP`, `grV` and `g` are the gradients of
the receiver amplitudes and of the final wavefields.  The buoyancy is set to zero where the mean of the density is
not larger than `rfmax` (`acoustic.py` 63-85), so there must not be equality.  Models that do not need gradients do
not change. -/
theorem C98_acoustic_gradients_exact (A : UArgs d) (P : Plan d) (cf : ℤ) (h : A.setup.plan = .ok P) (hpre : ¬A.Pre)
    (hmv : A.opts.maxVel ≠ none) (hr : P.ratio = 1) (hi : P.interval = 1) (hP : PmlOk P)
    (hcf : checkCallbackFrequency A.opts.callbackFreq = .ok cf) (hnb : 0 < P.nb)
    (hloc : ∀ s < P.nb, ∀ l, some l ∈ A.setup.srcs ++ A.setup.rcvs → WholeIgnored d l s)
    (hlast : ∀ s < P.nb, ∀ k, 0 < P.w1 k ∨ (P.ext k).2 = A.v.shape k ∨
      P.BeforeLast k s (A.srcV k) ∧ P.BeforeLast k s (A.rcvV k))
    (hbig : ∀ k, (P.acc.pad : ℤ) + 1 ≤ (P.ext k).2 - (P.ext k).1 + P.w1 k) (hrf : 0 ≤ A.rfmax)
    (hne : ∀ s < P.nb, ∀ k c, |Spec.mean (P.grid.extend (A.rho.shot s)) k c| ≠ A.rfmax)
    (bcb : Bool) (grP : ℕ → ℕ → ℕ → ℝ) (grV : ℕ → Fin d → ℕ → ℕ → ℝ) (g : ℕ → Wavefields d ℝ) (D : UDir d)
    (hK : A.gradK = true ∨ D.v = (fun _ _ => 0) ∧ D.rho = fun _ _ => 0)
    (hB : A.gradB = true ∨ D.rho = fun _ _ => 0) :
    ∃ (u : ℝ → ℕ → UShot d) (b : ℕ → UGrad d),
      (∀ e, ∀ s < P.nb, (A.plus e D).acoustic s = .ok (some (u e s))) ∧
      (∀ s < P.nb, A.backward s bcb (grP s) (grV s) (g s) = .ok (some (b s))) ∧
      HasDerivAt (fun e => ∑ s ∈ Finset.range P.nb, (u e s).pair A (outCells P) (grP s) (grV s) (g s))
        (∑ j ∈ Finset.range (A.v.nb.getD 1), ∑ c ∈ box (fun _ => 0) A.v.shape, D.v j c * A.vGrad P b j c +
          ∑ j ∈ Finset.range (A.rho.nb.getD 1), ∑ c ∈ box (fun _ => 0) A.rho.shape, D.rho j c * A.rhoGrad P b j c +
          ∑ s ∈ Finset.range P.nb, (ampPair A.ampP (D.ampP s) (b s).ampP +
            ∑ k, ampPair (A.ampV k) (D.ampV k s) ((b s).ampV k) +
            (A.wf.givenOf (D.wf s)).inner (outCells P) (b s).wf)) 0 := by
  rw [plan_ok] at h
  have hrun : ∀ s < P.nb, Runs A P s cf := fun s hs =>
    ⟨h, hpre, hs, hP, hloc s hs, hlast s hs, hbig, hcf, by omega, by rw [hr, hi]; omega⟩
  have key : ∀ s, ∃ (u : ℝ → UShot d) (b : UGrad d), s < P.nb → (∀ e, (A.plus e D).acoustic s = .ok (some (u e))) ∧
      A.backward s bcb (grP s) (grV s) (g s) = .ok (some b) ∧
      HasDerivAt (fun e => (u e).pair A (outCells P) (grP s) (grV s) (g s))
        (∑ p ∈ box (fun _ => 0) (P.n true), padDir P true (A.v, .replicate) D.v s p * b.v p +
          ∑ p ∈ box (fun _ => 0) (P.n true), padDir P true (A.rho, .replicate) D.rho s p * b.rho p +
          (ampPair A.ampP (D.ampP s) b.ampP + ∑ k, ampPair (A.ampV k) (D.ampV k s) (b.ampV k) +
            (A.wf.givenOf (D.wf s)).inner (outCells P) b.wf)) 0 := fun s => by
    by_cases hs' : s < P.nb
    · obtain ⟨u, b, hub⟩ := shot_deriv (hrun s hs') hmv hr hi hrf (hne s hs') bcb (grP s) (grV s) (g s) D hK hB
      exact ⟨u, b, fun _ => hub⟩
    · obtain ⟨u, b, -⟩ := shot_deriv (hrun 0 hnb) hmv hr hi hrf (hne 0 hnb) bcb (grP 0) (grV 0) (g 0) D hK hB
      exact ⟨u, b, fun h => absurd h hs'⟩
  choose u b hub using key
  refine ⟨fun e s => u s e, b, fun e s hs => (hub s hs).1 e, fun s hs => (hub s hs).2.1, ?_⟩
  have hd : HasDerivAt (fun e => ∑ s ∈ Finset.range P.nb, (u s e).pair A (outCells P) (grP s) (grV s) (g s))
      _ 0 := HasDerivAt.fun_sum fun s hs => (hub s (Finset.mem_range.1 hs)).2.2
  refine hd.congr_deriv ?_
  have hext := h.ext_lt hnb ⟨A.v, List.mem_cons_self⟩
  have m0 := modelGrad_adj h hnb hext (m := (A.v, .replicate)) List.mem_cons_self D.v fun s => (b s).v
  have m1 := modelGrad_adj h hnb hext (m := (A.rho, .replicate)) (List.mem_cons_of_mem _ List.mem_cons_self)
    D.rho fun s => (b s).rho
  rw [Finset.sum_add_distrib, Finset.sum_add_distrib]
  congr 1
  exact congrArg₂ (· + ·) m0.symm m1.symm

/-- **C99**: with any time step, the changes of the outputs from changes of source amplitudes and initial
wavefields are given by their gradients, exactly. -/
theorem C99_acoustic_source_gradients (A : UArgs d) (P : Plan d) (cf : ℤ) (h : A.setup.plan = .ok P) (hpre : ¬A.Pre)
    (hi : 0 < P.interval) (hP : PmlOk P) (hcf : checkCallbackFrequency A.opts.callbackFreq = .ok cf)
    (hnt : P.ratio * P.interval ≤ P.nt ∨ P.nt ≤ 0) (s : ℕ) (hs : s < P.nb)
    (hloc : ∀ l, some l ∈ A.setup.srcs ++ A.setup.rcvs → WholeIgnored d l s)
    (hlast : ∀ k, 0 < P.w1 k ∨ (P.ext k).2 = A.v.shape k ∨ P.BeforeLast k s (A.srcV k) ∧ P.BeforeLast k s (A.rcvV k))
    (hbig : ∀ k, (P.acc.pad : ℤ) + 1 ≤ (P.ext k).2 - (P.ext k).1 + P.w1 k)
    (bcb : Bool) (grP : ℕ → ℕ → ℝ) (grV : Fin d → ℕ → ℕ → ℝ) (g : Wavefields d ℝ) (D : UDir d)
    (hv : D.v = fun _ _ => 0) (hρ : D.rho = fun _ _ => 0) :
    ∃ (u : ℝ → UShot d) (b : UGrad d), (∀ e, (A.plus e D).acoustic s = .ok (some (u e))) ∧
      A.backward s bcb grP grV g = .ok (some b) ∧
      ∀ e, (u e).pair A (outCells P) grP grV g = (u 0).pair A (outCells P) grP grV g +
        e * (ampPair A.ampP (D.ampP s) b.ampP + ∑ k, ampPair (A.ampV k) (D.ampV k s) (b.ampV k) +
          (A.wf.givenOf (D.wf s)).inner (outCells P) b.wf) := by
  rw [plan_ok] at h
  have h : Runs A P s cf := ⟨h, hpre, hs, hP, hloc, hlast, hbig, hcf, hi, hnt⟩
  have hwf := h.wf
  have hr0 : 0 < (cfgOf A.rfmax (shotIn A.setup P A.opts.timeTaper s)).ratio := h.ratio
  have hcb : ∀ c : Bool, 0 < P.nt.toNat → 0 < (if c then some cf.toNat else none).getD
      (P.nt.toNat / (cfgOf A.rfmax (shotIn A.setup P A.opts.timeTaper s)).ratio) := fun c h1 =>
    cb_pos' c h.freq h.ratio h.nt h1
  have hu : ∀ e, ∃ r, (A.plus e D).acoustic s = .ok (some r) ∧ r.pair A (outCells P) grP grV g =
      (cfgOf A.rfmax (shotIn A.setup P A.opts.timeTaper s)).obj
        P.nt.toNat (fun t i => downT P A.opts.timeTaper (grP i) t)
        (fun k t i => downT P A.opts.timeTaper (grV k i) t) g
        (scaleAmpP (cfgOf A.rfmax (shotIn A.setup P A.opts.timeTaper s))
          fun t (i : Fin _) => upAmps P A.opts.timeTaper A.ampP s t i +
            e * upAmps P A.opts.timeTaper (ampWith A.ampP D.ampP) s t i)
        (scaleAmpV (cfgOf A.rfmax (shotIn A.setup P A.opts.timeTaper s))
          fun k t (i : Fin _) => upAmps P A.opts.timeTaper (A.ampV k) s t i +
            e * upAmps P A.opts.timeTaper (ampWith (A.ampV k) (D.ampV k)) s t i)
        ((A.wf.zeroed s).plus e (A.wf.givenOf (D.wf s))) := fun e => by
    obtain ⟨r, h1, h2⟩ := acoustic_pair (h.plus_zero e D hv hρ) grP grV g
    refine ⟨r, h1, ?_⟩
    have e2 : (fun t (i : Fin ((shotIn A.setup P A.opts.timeTaper s).src 0).length) =>
        upAmps P (A.plus e D).opts.timeTaper (A.plus e D).ampP s t i) = fun t (i : Fin _) =>
          upAmps P A.opts.timeTaper A.ampP s t i + e * upAmps P A.opts.timeTaper (ampWith A.ampP D.ampP) s t i := by
      funext t i
      exact upAmps_plus' h.good A.opts.timeTaper A.ampP e D.ampP s t i
    have e3 : (fun (k : Fin d) t (i : Fin ((shotIn A.setup P A.opts.timeTaper s).src (k + 1)).length) =>
        upAmps P (A.plus e D).opts.timeTaper ((A.plus e D).ampV k) s t i) = fun k t (i : Fin _) =>
          upAmps P A.opts.timeTaper (A.ampV k) s t i +
            e * upAmps P A.opts.timeTaper (ampWith (A.ampV k) (D.ampV k)) s t i := by
      funext k t i
      exact upAmps_plus' h.good A.opts.timeTaper (A.ampV k) e (D.ampV k) s t i
    rw [← UWf.plus_zeroed, ← e2, ← e3]
    exact h2
  choose u hu1 hu2 using hu
  obtain ⟨r, hr1⟩ : ∃ r, (cfgOf A.rfmax (shotIn A.setup P A.opts.timeTaper s)).forward A.gradK A.gradB (A.opts.cb cf)
    P.nt.toNat
    (scaleAmpP (cfgOf A.rfmax (shotIn A.setup P A.opts.timeTaper s)) fun t i => upAmps P A.opts.timeTaper A.ampP s t i)
    (scaleAmpV (cfgOf A.rfmax (shotIn A.setup P A.opts.timeTaper s))
      fun k t i => upAmps P A.opts.timeTaper (A.ampV k) s t i) (A.wf.init s) = .ok r :=
    ⟨_, forward_eq hwf _ _ _ _ _ _ _ hr0 (hcb _)⟩
  obtain ⟨b, hb⟩ : ∃ b, (cfgOf A.rfmax (shotIn A.setup P A.opts.timeTaper s)).backward A.gradK A.gradB
    (if bcb then some cf.toNat else none) P.nt.toNat r.storeK r.storeB
    (fun t i => downT P A.opts.timeTaper (grP i) t) (fun k t i => downT P A.opts.timeTaper (grV k i) t)
    g.toInit = .ok b := ⟨_, backward_eq hwf h.cfgBig _ _ _ _ _ _ _ _ _ hr0 (hcb _)⟩
  have hq := backward_ok h (gradWith_ok (finite_of_pmlOk' h.good h.pml true) hr1 hb)
  refine ⟨u, _, hu1, hq, fun e => ?_⟩
  have hobj := fun fp fv w => Cfg.obj_eq hwf h.cfgBig hr0 P.nt.toNat (fun t i => downT P A.opts.timeTaper (grP i) t)
    (fun k t i => downT P A.opts.timeTaper (grV k i) t) g fp fv w (hcb bcb) hb
  rw [hu2, hu2, hobj, hobj, out_cells]
  simp only [gradsOf]
  rw [← amp_pairP h, Finset.sum_congr rfl fun k _ => (amp_pairV h D k _).symm]
  have t1 : ∀ {n : ℕ} (e dt : ℝ) (a a' y : ℕ → Fin n → ℝ) (m : Fin n → ℝ),
      traceInner P.nt.toNat (fun t i => (a t i + e * a' t i) * m i * dt) y =
        traceInner P.nt.toNat (fun t i => a t i * m i * dt) y +
          e * traceInner P.nt.toNat a' fun t i => y t i * m i * dt := by
    intro n e dt a a' y m
    simp only [traceInner, Finset.mul_sum, ← Finset.sum_add_distrib]
    exact Finset.sum_congr rfl fun t _ => Finset.sum_congr rfl fun i _ => by ring
  set C := cfgOf A.rfmax (shotIn A.setup P A.opts.timeTaper s)
  have tP : ∀ e, traceInner P.nt.toNat (scaleAmpP C fun t i => upAmps P A.opts.timeTaper A.ampP s t i +
      e * upAmps P A.opts.timeTaper (ampWith A.ampP D.ampP) s t i) b.gfP = _ := fun e =>
    t1 e C.dt (fun t i => upAmps P A.opts.timeTaper A.ampP s t i)
      (fun t i => upAmps P A.opts.timeTaper (ampWith A.ampP D.ampP) s t i) b.gfP fun i => gatherAt C.K (C.srcP i)
  have tV : ∀ e k, traceInner P.nt.toNat (scaleAmpV C (fun k t i => upAmps P A.opts.timeTaper (A.ampV k) s t i +
      e * upAmps P A.opts.timeTaper (ampWith (A.ampV k) (D.ampV k)) s t i) k) (b.gfV k) = _ := fun e k =>
    t1 e C.dt (fun t i => upAmps P A.opts.timeTaper (A.ampV k) s t i)
      (fun t i => upAmps P A.opts.timeTaper (ampWith (A.ampV k) (D.ampV k)) s t i) (b.gfV k)
      fun i => gatherAt (C.B k) (C.srcV k i)
  rw [tP, tP, Finset.sum_congr rfl fun k _ => tV e k, Finset.sum_congr rfl fun k _ => tV 0 k]
  simp only [Wavefields.inner_plus, Finset.sum_add_distrib, ← Finset.mul_sum]
  have alg : ∀ x y z a b c : ℝ, x + e * a + (y + e * b) + (z + e * c) =
      x + 0 * a + (y + 0 * b) + (z + 0 * c) + e * (a + b + c) := by
    intros
    ring
  exact alg _ _ _ _ _ _

/-! ### Examples -/

/-- `exU` with a time step that is short enough. -/
noncomputable def exG : UArgs 2 := {exU .none with opts := exO1 .none}

noncomputable def exGP : Plan 2 :=
  exPl1 true ![(0, 7), (0, 9)] (exU .none).setup.models (exU .none).setup.srcs (exU .none).setup.rcvs

theorem exG_good : exG.setup.Good exGP :=
  exO1_good (fun a ha => by
    have : some a ∈ [some exAmp, none, some exAmp] := ha
    simpa using this) rfl exU_whole

theorem exRho_mean (P : Plan 2) (s : ℕ) (h0 : ∀ k, (P.ext k).1 = 0 ∧ 0 < (P.ext k).2) (k : Fin 2) (c : Cell 2) :
    |Spec.mean (P.grid.extend (exG.rho.shot s)) k c| ≠ exG.rfmax := by
  have h1 : ∀ c, 2000 ≤ P.grid.extend (exG.rho.shot s) c := fun c => by
    have h2 : ∀ c : Cell 2, 0 ≤ c 1 → 2000 ≤ exG.rho.shot s c := fun c hc => by
      have : (0 : ℝ) ≤ (c 1 : ℤ) := by exact_mod_cast hc
      show (2000 : ℝ) ≤ 2000 + (c 1 : ℤ)
      linarith
    refine h2 _ ?_
    have := h0 1
    simp only [Plan.grid]
    omega
  have h2 := h1 c
  have h3 := h1 (c.shift k 1)
  have h4 : 2000 ≤ Spec.mean (P.grid.extend (exG.rho.shot s)) k c := by
    unfold Spec.mean
    linarith
  have h5 : exG.rfmax < 1 := by norm_num [exG, exU]
  exact ne_of_gt (lt_of_lt_of_le (by linarith) (le_abs_self _))

/-- The gradient of the sum of the last pressure samples, in the direction of a larger velocity in one cell, a larger
density in another one, and a pulse in the second sample of the sources of both kinds. -/
example : ∃ (u : ℝ → ℕ → UShot 2) (b : ℕ → UGrad 2) (x : ℝ),
    (∀ e, ∀ s < 2, (exG.plus e ⟨fun _ c => if c = ![3, 3] then 1 else 0, fun _ c => if c = ![2, 5] then 1 else 0,
      fun _ _ t => if t = 1 then 1 else 0, fun _ _ _ t => if t = 1 then 1 else 0,
      fun _ => ⟨fun _ => 0, fun _ _ => 0, fun _ _ => 0, fun _ _ => 0⟩⟩).acoustic s = .ok (some (u e s))) ∧
    (∀ s < 2, exG.backward s false (fun _ t => if t = 4 then 1 else 0) (fun _ _ _ => 0)
      ⟨fun _ => 0, fun _ _ => 0, fun _ _ => 0, fun _ _ => 0⟩ = .ok (some (b s))) ∧
    HasDerivAt (fun e => ∑ s ∈ Finset.range 2, (u e s).pair exG (outCells exGP) (fun _ t => if t = 4 then 1 else 0)
      (fun _ _ _ => 0) ⟨fun _ => 0, fun _ _ => 0, fun _ _ => 0, fun _ _ => 0⟩) x 0 := by
  obtain ⟨u, b, h1, h2, h3⟩ := C98_acoustic_gradients_exact exG exGP 1 (plan_ok.2 exG_good) (exU_pre .none)
    (by simp [exG, exO1, exO]) rfl rfl (.inl (by norm_num [exGP, exPl1, exPl])) rfl (by norm_num [exGP, exPl1, exPl])
    (fun s hs l hl => Born.exLoc_whole hs (exU_locs .none l hl))
    (fun s _ k => .inl (by fin_cases k <;> norm_num [exGP, exPl1, exPl, Plan.w1]))
    (fun k => by fin_cases k <;> decide +kernel) (by norm_num [exG, exU])
    (fun s _ => exRho_mean exGP s fun k => by fin_cases k <;> decide +kernel)
    false (fun _ _ t => if t = 4 then 1 else 0) (fun _ _ _ _ => 0)
    (fun _ => ⟨fun _ => 0, fun _ _ => 0, fun _ _ => 0, fun _ _ => 0⟩)
    ⟨fun _ c => if c = ![3, 3] then 1 else 0, fun _ c => if c = ![2, 5] then 1 else 0,
      fun _ _ t => if t = 1 then 1 else 0, fun _ _ _ t => if t = 1 then 1 else 0,
      fun _ => ⟨fun _ => 0, fun _ _ => 0, fun _ _ => 0, fun _ _ => 0⟩⟩
    (.inl rfl) (.inl rfl)
  exact ⟨u, b, _, h1, h2, h3⟩

/-- Three internal time steps per sample. -/
example : ∃ (u : ℝ → UShot 2) (b : UGrad 2),
    (exU .none).backward 1 true (fun _ t => if t = 4 then 1 else 0) (fun _ _ _ => 0)
      ⟨fun _ => 0, fun _ _ => 0, fun _ _ => 0, fun _ _ => 0⟩ = .ok (some b) ∧
    (u 2).pair (exU .none) (outCells (exP ![(0, 7), (0, 9)])) (fun _ t => if t = 4 then 1 else 0) (fun _ _ _ => 0)
        ⟨fun _ => 0, fun _ _ => 0, fun _ _ => 0, fun _ _ => 0⟩ =
      (u 0).pair (exU .none) (outCells (exP ![(0, 7), (0, 9)])) (fun _ t => if t = 4 then 1 else 0) (fun _ _ _ => 0)
        ⟨fun _ => 0, fun _ _ => 0, fun _ _ => 0, fun _ _ => 0⟩ +
      2 * (ampPair (exU .none).ampP (fun _ t => if t = 1 then 1 else 0) b.ampP +
        ampPair ((exU .none).ampV 1) (fun _ t => if t = 2 then 1 else 0) (b.ampV 1)) := by
  obtain ⟨u, b, h1, h2, h3⟩ := C99_acoustic_source_gradients (exU .none) (exP ![(0, 7), (0, 9)]) 1 (plan_ok.2 exU_whole)
    (exU_pre .none) (by norm_num [exP, exPl]) (.inl (by norm_num [exP, exPl])) rfl (.inl (by norm_num [exP, exPl])) 1
    (by norm_num [exP, exPl]) (fun l hl => Born.exLoc_whole (by norm_num) (exU_locs .none l hl))
    (fun k => .inl (by fin_cases k <;> norm_num [exP, exPl, Plan.w1]))
    (fun k => by fin_cases k <;> decide +kernel) true (fun _ t => if t = 4 then 1 else 0) (fun _ _ _ => 0)
    ⟨fun _ => 0, fun _ _ => 0, fun _ _ => 0, fun _ _ => 0⟩
    ⟨fun _ _ => 0, fun _ _ => 0, fun _ _ t => if t = 1 then 1 else 0, fun _ _ _ t => if t = 2 then 1 else 0,
      fun _ => ⟨fun _ => 0, fun _ _ => 0, fun _ _ => 0, fun _ _ => 0⟩⟩ rfl rfl
  refine ⟨u, b, h2, (h3 2).trans ?_⟩
  have e0 : ∀ x y, ampPair ((exU .none).ampV 0) x y = 0 := fun x y => rfl
  rw [Fin.sum_univ_two, e0, zero_add]
  congr 2
  simp [Wavefields.inner, UWf.givenOf, exU]

end Dw.Acoustic
