import Verif.Elastic.UserGrad

/-!
# The gradients of a call of `elastic`

C100: with `max_vel` given and a model gradient sampling interval of one time step, the gradients of the Lamé
parameters, the buoyancy, source amplitudes and initial wavefields are the derivatives of the outputs.  C101: for
any time step, the gradients of source amplitudes and initial wavefields are exact.
-/

namespace Dw.Elastic

open Setup Resample
open Born (gatherAt cb_pos' padDir_zero)
open Scalar (upAmps outCells PmlOk WholeIgnored traceInner)
open Acoustic (Finite meanRho dirB)

variable {d : ℕ}

/-- The models of the propagator when those of the user change. -/
theorem cfgOf_plus {A : UArgs d} {P : Plan d} (h : A.setup.Good P) (hnb : 0 < P.nb) (e : ℝ) (D : UDir d) (tt : Bool)
    (s : ℕ) : cfgOf (A.plus e D).rfmax (shotIn (A.plus e D).setup (A.planPlus P e D) tt s) =
      (cfgOf A.rfmax (shotIn A.setup P tt s)).withM (modelsOf (P.n true) A.rfmax
        (fun c => (shotIn A.setup P tt s).model 0 c + e * padDir P true (A.lam, .replicate) D.lam s c)
        (fun c => (shotIn A.setup P tt s).model 1 c + e * padDir P true (A.mu, .replicate) D.mu s c)
        fun c => (shotIn A.setup P tt s).model 2 c + e * padDir P true (A.buoyancy, .replicate) D.buoyancy s c) := by
  have h0 := fun p => model_plus h hnb (j := 0) (m := (A.lam, .replicate)) rfl (A' := (A.plus e D).setup)
    (ms := A.modelsPlus e D) (δ := D.lam) (e := e) rfl tt s p
  have h1 := fun p => model_plus h hnb (j := 1) (m := (A.mu, .replicate)) rfl (A' := (A.plus e D).setup)
    (ms := A.modelsPlus e D) (δ := D.mu) (e := e) rfl tt s p
  have h2 := fun p => model_plus h hnb (j := 2) (m := (A.buoyancy, .replicate)) rfl (A' := (A.plus e D).setup)
    (ms := A.modelsPlus e D) (δ := D.buoyancy) (e := e) rfl tt s p
  refine Eq.trans (b := (cfgOf A.rfmax (shotIn A.setup P tt s)).withM (modelsOf (P.n true) A.rfmax
    ((shotIn (A.plus e D).setup (A.planPlus P e D) tt s).model 0)
    ((shotIn (A.plus e D).setup (A.planPlus P e D) tt s).model 1)
    ((shotIn (A.plus e D).setup (A.planPlus P e D) tt s).model 2))) rfl ?_
  have e0 : (shotIn (A.plus e D).setup (A.planPlus P e D) tt s).model 0 = fun c =>
      (shotIn A.setup P tt s).model 0 c + e * padDir P true (A.lam, .replicate) D.lam s c := funext h0
  have e1 : (shotIn (A.plus e D).setup (A.planPlus P e D) tt s).model 1 = fun c =>
      (shotIn A.setup P tt s).model 1 c + e * padDir P true (A.mu, .replicate) D.mu s c := funext h1
  have e2 : (shotIn (A.plus e D).setup (A.planPlus P e D) tt s).model 2 = fun c =>
      (shotIn A.setup P tt s).model 2 c + e * padDir P true (A.buoyancy, .replicate) D.buoyancy s c := funext h2
  rw [e0, e1, e2]

theorem backward_ok {A : UArgs d} {P : Plan d} {s : ℕ} {cf : ℤ} (h : Runs A P s cf) {bcb : Bool}
    {grP : ℕ → ℕ → ℝ} {grV : Fin d → ℕ → ℕ → ℝ} {g : Wavefields d ℝ} {q : UGrad d}
    (hq : gradWith A P cf s ((shotIn A.setup P A.opts.timeTaper s).model 1)
      ((shotIn A.setup P A.opts.timeTaper s).model 2) bcb grP grV g
      (cfgOf A.rfmax (shotIn A.setup P A.opts.timeTaper s)) = .ok (some q)) :
    A.backward s bcb grP grV g = .ok (some q) := by
  classical
  unfold UArgs.backward
  rw [raiseIf_ok.2 h.pre, plan_ok.2 h.good, h.freq]
  exact hq

theorem gradWith_ok {np mp : ℕ} {nv mv : Fin d → ℕ} {A : UArgs d} {P : Plan d} {cf : ℤ} {s : ℕ} {bcb : Bool}
    {mu bu : Fld d ℝ} {grP : ℕ → ℕ → ℝ} {grV : Fin d → ℕ → ℕ → ℝ} {g : Wavefields d ℝ}
    {C : Cfg d np mp nv mv ℝ} {r : FResult d mp mv ℝ} {b : BResult d np nv ℝ} (hfin : Finite (P.pml true))
    (hf : C.forward A.gradL A.gradM A.gradB (A.opts.cb cf) P.nt.toNat
      (scaleAmpP C fun t i => upAmps P A.opts.timeTaper A.ampP s t i)
      (scaleAmpV C fun k t i => upAmps P A.opts.timeTaper (A.ampV k) s t i) (A.wf.init s) = .ok r)
    (hb : C.backward A.gradL A.gradM A.gradB (if bcb then some cf.toNat else none) P.nt.toNat r.storeB r.storeN r.storeS
      (fun t i => downT P A.opts.timeTaper (fun t => -grP i t / d) t) (fun k t i => downT P A.opts.timeTaper (grV k i) t)
      g.toInit = .ok b) :
    gradWith A P cf s mu bu bcb grP grV g C =
      .ok (some (gradsOf A P mu bu C
        (fun k t i => upAmps P A.opts.timeTaper (A.ampV k) s t i) b)) := by
  unfold gradWith
  simp only [bind, Except.bind]
  rw [hf]
  simp only
  rw [hb]
  simp only [pure, Except.pure, if_pos hfin]

theorem out_cells {A : UArgs d} (P : Plan d) (s : ℕ) :
    (cfgOf A.rfmax (shotIn A.setup P A.opts.timeTaper s)).userCells = outCells P := by
  unfold Cfg.userCells outCells
  congr 1
  funext k
  have := nStag_eq P k
  rw [Acc.order_div_two]
  show P.n true k - 2 * (P.acc.pad : ℤ) + 1 = _
  omega

section
variable {A : UArgs d} {P : Plan d} {s : ℕ} {cf : ℤ} (h : Runs A P s cf)
include h

theorem amp_pairP (D : UDir d) (y : ℕ → Fin ((shotIn A.setup P A.opts.timeTaper s).src d).length → ℝ) :
    traceInner P.nt.toNat (fun t (i : Fin _) => upAmps P A.opts.timeTaper (ampWith A.ampP D.ampP) s t i) y =
      ampPair A.ampP (D.ampP s) (ampGrad P A.opts.timeTaper A.ampP y) :=
  ampPair_eq' h.good A.opts.timeTaper s (j := d) (a := A.ampP) (o := A.srcP) (get_p _ _) (get_p _ _)
    (src_length h.good A.opts.timeTaper s (j := d) (get_p _ _)) D.ampP y

theorem amp_pairV (D : UDir d) (k : Fin d)
    (y : ℕ → Fin ((shotIn A.setup P A.opts.timeTaper s).src k).length → ℝ) :
    traceInner P.nt.toNat (fun t (i : Fin _) => upAmps P A.opts.timeTaper (ampWith (A.ampV k) (D.ampV k)) s t i) y =
      ampPair (A.ampV k) (D.ampV k s) (ampGrad P A.opts.timeTaper (A.ampV k) y) :=
  ampPair_eq' h.good A.opts.timeTaper s (j := k) (a := A.ampV k) (o := A.srcV k) (get_v _ _ k) (get_v _ _ k)
    (src_length h.good A.opts.timeTaper s (j := k) (get_v _ _ k)) (D.ampV k) y

omit h in
/-- Where the masks do not flip and the harmonic means are finite. -/
structure Smooth (A : UArgs d) (P : Plan d) (s : ℕ) : Prop where
  rfmax : 0 ≤ A.rfmax
  mu : ∀ c, |P.grid.extend (A.mu.shot s) c| ≠ A.rfmax
  buoyancy : ∀ c, |P.grid.extend (A.buoyancy.shot s) c| ≠ A.rfmax
  rho : ∀ k c, |Spec.mean (fun c => Spec.inverse A.rfmax (P.grid.extend (A.buoyancy.shot s) c)) k c| ≠ A.rfmax
  sum : ∀ i j c, i < j → let m := P.grid.extend (A.mu.shot s)
    (∀ x ∈ [m c, m (c.shift i 1), m (c.shift j 1), m ((c.shift i 1).shift j 1)], A.rfmax < |x|) →
    1 / m c + 1 / m (c.shift i 1) + 1 / m (c.shift j 1) + 1 / m ((c.shift i 1).shift j 1) ≠ 0

theorem Smooth.mu_ne (hS : Smooth A P s) (c : Cell d) :
    |(shotIn A.setup P A.opts.timeTaper s).model 1 c| ≠ A.rfmax := by
  have hnb : 0 < P.nb := by have := h.lt; omega
  have hext := h.good.ext_lt hnb ⟨A.lam, List.mem_cons_self⟩
  have hm := model_grid h.good hnb hext A.opts.timeTaper s 1 A.mu rfl
  rw [← P.at_sub c, hm]
  exact hS.mu _

theorem Smooth.bu_ne (hS : Smooth A P s) (c : Cell d) :
    |(shotIn A.setup P A.opts.timeTaper s).model 2 c| ≠ A.rfmax := by
  have hnb : 0 < P.nb := by have := h.lt; omega
  have hext := h.good.ext_lt hnb ⟨A.lam, List.mem_cons_self⟩
  have hm := model_grid h.good hnb hext A.opts.timeTaper s 2 A.buoyancy rfl
  rw [← P.at_sub c, hm]
  exact hS.buoyancy _

theorem Smooth.mean_ne (hS : Smooth A P s) (k : Fin d) (c : Cell d) (hc : c k + 1 < P.n true k) :
    |meanRho (P.n true) (prepareRho A.rfmax ((shotIn A.setup P A.opts.timeTaper s).model 2)) k c| ≠ A.rfmax := by
  have hnb : 0 < P.nb := by have := h.lt; omega
  have hext := h.good.ext_lt hnb ⟨A.lam, List.mem_cons_self⟩
  have hm := model_grid h.good hnb hext A.opts.timeTaper s 2 A.buoyancy rfl
  rw [← P.at_sub c] at hc ⊢
  have := hS.rho k fun j => c j - P.off j
  unfold Spec.mean Spec.inverse at this
  rwa [meanRho, if_pos hc, prepareRho, prepareRho, hm, ← Plan.at_shift, hm]

theorem Smooth.sum_ne (hS : Smooth A P s) (p : Sh d) (c : Cell d)
    (hc : MuMask (P.n true) A.rfmax ((shotIn A.setup P A.opts.timeTaper s).model 1) p c) :
    invSum ((shotIn A.setup P A.opts.timeTaper s).model 1) p c ≠ 0 := by
  have hnb : 0 < P.nb := by have := h.lt; omega
  have hext := h.good.ext_lt hnb ⟨A.lam, List.mem_cons_self⟩
  have hm := model_grid h.good hnb hext A.opts.timeTaper s 1 A.mu rfl
  rw [← P.at_sub c] at hc ⊢
  obtain ⟨-, h1, h2, h3, h4⟩ := hc
  simp only [← Plan.at_shift, hm] at h1 h2 h3 h4
  have := hS.sum p.1.1 p.1.2 (fun j => c j - P.off j) p.2 (by
    simp only [List.forall_mem_cons, List.not_mem_nil, false_imp_iff, implies_true, and_true]
    exact ⟨h2, h3, h4, h1⟩)
  simp only [invSum, ← Plan.at_shift, hm]
  intro h5
  refine this ?_
  rw [← h5]
  ring

/-- The derivative for one shot. -/
theorem shot_deriv (hmv : A.opts.maxVel ≠ none) (hr : P.ratio = 1) (hi : P.interval = 1) (hS : Smooth A P s)
    (bcb : Bool) (grP : ℕ → ℕ → ℝ) (grV : Fin d → ℕ → ℕ → ℝ) (g : Wavefields d ℝ) (D : UDir d)
    (hL : A.gradL = true ∨ D.lam = fun _ _ => 0) (hM : A.gradM = true ∨ D.mu = fun _ _ => 0)
    (hB : A.gradB = true ∨ D.buoyancy = fun _ _ => 0) :
    ∃ (u : ℝ → UShot d) (b : UGrad d), (∀ e, (A.plus e D).elastic s = .ok (some (u e))) ∧
      A.backward s bcb grP grV g = .ok (some b) ∧
      HasDerivAt (fun e => (u e).pair A (outCells P) grP grV g)
        (∑ p ∈ box (fun _ => 0) (P.n true), padDir P true (A.lam, .replicate) D.lam s p * b.lam p +
          ∑ p ∈ box (fun _ => 0) (P.n true), padDir P true (A.mu, .replicate) D.mu s p * b.mu p +
          ∑ p ∈ box (fun _ => 0) (P.n true), padDir P true (A.buoyancy, .replicate) D.buoyancy s p * b.buoyancy p +
          (ampPair A.ampP (D.ampP s) b.ampP + ∑ k, ampPair (A.ampV k) (D.ampV k s) (b.ampV k) +
            (A.wf.givenOf (D.wf s)).inner (outCells P) b.wf)) 0 := by
  have hnb : 0 < P.nb := by have := h.lt; omega
  have hwf := h.wf
  have hbig := h.cfgBig
  have hC1 : (cfgOf A.rfmax (shotIn A.setup P A.opts.timeTaper s)).ratio = 1 := by
    show (P.ratio * P.interval).toNat = 1
    rw [hr, hi]
    rfl
  have hcb : ∀ c : Bool, 0 < P.nt.toNat → 0 < (if c then some cf.toNat else none).getD P.nt.toNat := fun c h1 => by
    have := cb_pos' c h.freq h.ratio h.nt h1
    rwa [hr, hi, show ((1 : ℤ) * 1).toNat = 1 from rfl, Nat.div_one] at this
  have hcb' : ∀ c : Bool, 0 < P.nt.toNat → 0 < (if c then some cf.toNat else none).getD
      (P.nt.toNat / (cfgOf A.rfmax (shotIn A.setup P A.opts.timeTaper s)).ratio) := fun c h1 => by
    rw [hC1, Nat.div_one]
    exact hcb c h1
  set l0 := (shotIn A.setup P A.opts.timeTaper s).model 0 with hl0
  set m0 := (shotIn A.setup P A.opts.timeTaper s).model 1 with hm0
  set b0 := (shotIn A.setup P A.opts.timeTaper s).model 2 with hb0
  set δl := padDir P true (A.lam, .replicate) D.lam s with hδl
  set δm := padDir P true (A.mu, .replicate) D.mu s with hδm
  set δb := padDir P true (A.buoyancy, .replicate) D.buoyancy s with hδb
  set M : ℝ → Grads d ℝ := fun e => modelsOf (P.n true) A.rfmax (fun c => l0 c + e * δl c) (fun c => m0 c + e * δm c)
    fun c => b0 c + e * δb c with hMdef
  -- the calls
  have hu : ∀ e, ∃ r, (A.plus e D).elastic s = .ok (some r) ∧ r.pair A (outCells P) grP grV g =
      ((cfgOf A.rfmax (shotIn A.setup P A.opts.timeTaper s)).withM (M e)).obj
        P.nt.toNat (fun t i => downT P A.opts.timeTaper (fun t => -grP i t / d) t)
        (fun k t i => downT P A.opts.timeTaper (grV k i) t) g
        (scaleAmpP ((cfgOf A.rfmax (shotIn A.setup P A.opts.timeTaper s)).withM (M e))
          fun t (i : Fin _) => upAmps P A.opts.timeTaper A.ampP s t i +
            e * upAmps P A.opts.timeTaper (ampWith A.ampP D.ampP) s t i)
        (scaleAmpV ((cfgOf A.rfmax (shotIn A.setup P A.opts.timeTaper s)).withM (M e))
          fun k t (i : Fin _) => upAmps P A.opts.timeTaper (A.ampV k) s t i +
            e * upAmps P A.opts.timeTaper (ampWith (A.ampV k) (D.ampV k)) s t i)
        ((A.wf.zeroed s).plus e (A.wf.givenOf (D.wf s))) := fun e => by
    obtain ⟨r, h1, h2⟩ := elastic_pair (h.plus hmv e D) grP grV g
    refine ⟨r, h1, ?_⟩
    have e1 := cfgOf_plus h.good hnb e D A.opts.timeTaper s
    have e2 : (fun t (i : Fin ((shotIn A.setup P A.opts.timeTaper s).src d).length) =>
        upAmps (A.planPlus P e D) (A.plus e D).opts.timeTaper (A.plus e D).ampP s t i) = fun t (i : Fin _) =>
          upAmps P A.opts.timeTaper A.ampP s t i + e * upAmps P A.opts.timeTaper (ampWith A.ampP D.ampP) s t i := by
      funext t i
      exact upAmps_plus' h.good A.opts.timeTaper A.ampP e D.ampP s t i
    have e3 : (fun (k : Fin d) t (i : Fin ((shotIn A.setup P A.opts.timeTaper s).src k).length) =>
        upAmps (A.planPlus P e D) (A.plus e D).opts.timeTaper ((A.plus e D).ampV k) s t i) = fun k t (i : Fin _) =>
          upAmps P A.opts.timeTaper (A.ampV k) s t i +
            e * upAmps P A.opts.timeTaper (ampWith (A.ampV k) (D.ampV k)) s t i := by
      funext k t i
      exact upAmps_plus' h.good A.opts.timeTaper (A.ampV k) e (D.ampV k) s t i
    rw [← UWf.plus_zeroed, ← e2, ← e3]
    simp only [hMdef, hl0, hm0, hb0, hδl, hδm, hδb]
    rw [← e1]
    exact h2
  choose u hu1 hu2 using hu
  -- the backward pass
  have hF := fun w => forward_eq hwf A.gradL A.gradM A.gradB (A.opts.cb cf) P.nt.toNat
    (scaleAmpP (cfgOf A.rfmax (shotIn A.setup P A.opts.timeTaper s)) fun t i => upAmps P A.opts.timeTaper A.ampP s t i)
    (scaleAmpV (cfgOf A.rfmax (shotIn A.setup P A.opts.timeTaper s))
      fun k t i => upAmps P A.opts.timeTaper (A.ampV k) s t i) w (by omega) (hcb' _)
  obtain ⟨r, hr1⟩ : ∃ r, (cfgOf A.rfmax (shotIn A.setup P A.opts.timeTaper s)).forward A.gradL A.gradM A.gradB (A.opts.cb cf)
    P.nt.toNat
    (scaleAmpP (cfgOf A.rfmax (shotIn A.setup P A.opts.timeTaper s)) fun t i => upAmps P A.opts.timeTaper A.ampP s t i)
    (scaleAmpV (cfgOf A.rfmax (shotIn A.setup P A.opts.timeTaper s))
      fun k t i => upAmps P A.opts.timeTaper (A.ampV k) s t i) (A.wf.init s) = .ok r := ⟨_, hF _⟩
  obtain ⟨b, hb⟩ : ∃ b, (cfgOf A.rfmax (shotIn A.setup P A.opts.timeTaper s)).backward A.gradL A.gradM A.gradB
    (if bcb then some cf.toNat else none) P.nt.toNat r.storeB r.storeN r.storeS
    (fun t i => downT P A.opts.timeTaper (fun t => -grP i t / d) t) (fun k t i => downT P A.opts.timeTaper (grV k i) t)
    g.toInit = .ok b := ⟨_, backward_eq hwf hbig _ _ _ _ _ ⟨_, _, _⟩ _ _ _ (by omega) (hcb' _)⟩
  have hq := backward_ok h (gradWith_ok (finite_of_pmlOk' h.good h.pml true) hr1 hb)
  refine ⟨u, _, hu1, hq, ?_⟩
  simp only [hu2]
  have hF' : (cfgOf A.rfmax (shotIn A.setup P A.opts.timeTaper s)).forward A.gradL A.gradM A.gradB (A.opts.cb cf) P.nt.toNat
    (scaleAmpP (cfgOf A.rfmax (shotIn A.setup P A.opts.timeTaper s)) fun t i => upAmps P A.opts.timeTaper A.ampP s t i)
    (scaleAmpV (cfgOf A.rfmax (shotIn A.setup P A.opts.timeTaper s))
      fun k t i => upAmps P A.opts.timeTaper (A.ampV k) s t i) (A.wf.zeroed s).toInit = .ok r := by
    rw [← hr1, hF, hF, prepare_zeroed]
  have hδL : A.gradL = true ∨ (dirs (P.n true) A.rfmax m0 b0 δl δm δb).l = fun _ => 0 := hL.imp id fun h0 => by
    show δl = _
    rw [hδl, h0]
    exact padDir_zero _ _ _ _
  have hδM : A.gradM = true ∨ ((dirs (P.n true) A.rfmax m0 b0 δl δm δb).m = fun _ => 0) ∧
      (dirs (P.n true) A.rfmax m0 b0 δl δm δb).s = fun _ _ => 0 := hM.imp id fun h0 => by
    have e1 : δm = fun _ => 0 := by rw [hδm, h0]; exact padDir_zero _ _ _ _
    refine ⟨e1, ?_⟩
    funext p c
    simp [dirs, dirS, e1]
  have hz : ∀ k c, meanRho (P.n true) (fun _ => (0 : ℝ)) k c = 0 := fun k c => by simp [meanRho]
  have hδB : A.gradB = true ∨ (dirs (P.n true) A.rfmax m0 b0 δl δm δb).b = fun _ _ => 0 := hB.imp id fun h0 => by
    have e1 : δb = fun _ => 0 := by rw [hδb, h0]; exact padDir_zero _ _ _ _
    have e2 : dirRho A.rfmax b0 δb = fun _ => 0 := by funext c; simp [dirRho, e1]
    funext k c
    simp [dirs, dirB, e2, hz]
  have hMd : Grads.HasDeriv M (dirs (P.n true) A.rfmax m0 b0 δl δm δb) :=
    ⟨fun c => Acoustic.hasDeriv_lin _ _, fun c => Acoustic.hasDeriv_lin _ _,
      fun p c => hasDeriv_prepareMuS hS.rfmax m0 δm (hS.mu_ne h) p c (hS.sum_ne h p c),
      fun k c => hasDeriv_prepareB hS.rfmax b0 δb k c (hS.bu_ne h) (hS.mean_ne h k c)⟩
  have hd := Cfg.scaled_deriv hwf hbig hC1 P.nt.toNat
    (fun t i => downT P A.opts.timeTaper (fun t => -grP i t / d) t)
    (fun k t i => downT P A.opts.timeTaper (grV k i) t) g M (dirs (P.n true) A.rfmax m0 b0 δl δm δb)
    (by simp only [hMdef, zero_mul, add_zero]; rfl) hMd
    (fun t i => upAmps P A.opts.timeTaper A.ampP s t i)
    (fun t i => upAmps P A.opts.timeTaper (ampWith A.ampP D.ampP) s t i)
    (fun k t i => upAmps P A.opts.timeTaper (A.ampV k) s t i)
    (fun k t i => upAmps P A.opts.timeTaper (ampWith (A.ampV k) (D.ampV k)) s t i)
    (A.wf.zeroed s) (A.wf.givenOf (D.wf s)) hδL hδM hδB (hcb A.opts.callback) (hcb bcb) hF' hb
  refine hd.congr_deriv ?_
  have hmc : (cfgOf A.rfmax (shotIn A.setup P A.opts.timeTaper s)).modelCells = box (fun _ => 0) (P.n true) := rfl
  rw [hmc, out_cells, prepare_adj', amp_pairP h, Finset.sum_congr rfl fun k _ => amp_pairV h D k _]
  simp only [gradsOf]
  ring

end

/-- **C100**: the gradients of a call are the derivatives of its outputs, in every direction in which the Lamé
parameters, the buoyancy, source amplitudes and initial wavefields can change together.  `grP`, `grV` and `g` are
the gradients of the receiver amplitudes and of the final wavefields.  `prepare_parameters` (`elastic.py` 23-124)
treats values of at most `rfmax` as zero, so there must not be equality, and takes harmonic means of the shear
modulus, which must be finite.  Models that do not need gradients do not change. -/
theorem C100_elastic_gradients_exact (A : UArgs d) (P : Plan d) (cf : ℤ) (h : A.setup.plan = .ok P) (hpre : ¬A.Pre)
    (hmv : A.opts.maxVel ≠ none) (hr : P.ratio = 1) (hi : P.interval = 1) (hP : PmlOk P)
    (hcf : checkCallbackFrequency A.opts.callbackFreq = .ok cf) (hnb : 0 < P.nb)
    (hloc : ∀ s < P.nb, ∀ l, some l ∈ A.setup.srcs ++ A.setup.rcvs → WholeIgnored d l s)
    (hlast : ∀ s < P.nb, ∀ k, 0 < P.w1 k ∨ (P.ext k).2 = A.lam.shape k ∨
      P.BeforeLast k s (A.srcV k) ∧ P.BeforeLast k s (A.rcvV k))
    (hbig : ∀ k, (P.acc.pad : ℤ) + 1 ≤ (P.ext k).2 - (P.ext k).1 + P.w1 k)
    (hsm : ∀ s < P.nb, Smooth A P s)
    (bcb : Bool) (grP : ℕ → ℕ → ℕ → ℝ) (grV : ℕ → Fin d → ℕ → ℕ → ℝ) (g : ℕ → Wavefields d ℝ) (D : UDir d)
    (hL : A.gradL = true ∨ D.lam = fun _ _ => 0) (hM : A.gradM = true ∨ D.mu = fun _ _ => 0)
    (hB : A.gradB = true ∨ D.buoyancy = fun _ _ => 0) :
    ∃ (u : ℝ → ℕ → UShot d) (b : ℕ → UGrad d),
      (∀ e, ∀ s < P.nb, (A.plus e D).elastic s = .ok (some (u e s))) ∧
      (∀ s < P.nb, A.backward s bcb (grP s) (grV s) (g s) = .ok (some (b s))) ∧
      HasDerivAt (fun e => ∑ s ∈ Finset.range P.nb, (u e s).pair A (outCells P) (grP s) (grV s) (g s))
        (∑ j ∈ Finset.range (A.lam.nb.getD 1), ∑ c ∈ box (fun _ => 0) A.lam.shape, D.lam j c * A.lamGrad P b j c +
          ∑ j ∈ Finset.range (A.mu.nb.getD 1), ∑ c ∈ box (fun _ => 0) A.mu.shape, D.mu j c * A.muGrad P b j c +
          ∑ j ∈ Finset.range (A.buoyancy.nb.getD 1), ∑ c ∈ box (fun _ => 0) A.buoyancy.shape,
            D.buoyancy j c * A.buoyancyGrad P b j c +
          ∑ s ∈ Finset.range P.nb, (ampPair A.ampP (D.ampP s) (b s).ampP +
            ∑ k, ampPair (A.ampV k) (D.ampV k s) ((b s).ampV k) +
            (A.wf.givenOf (D.wf s)).inner (outCells P) (b s).wf)) 0 := by
  rw [plan_ok] at h
  have hrun : ∀ s < P.nb, Runs A P s cf := fun s hs =>
    ⟨h, hpre, hs, hP, hloc s hs, hlast s hs, hbig, hcf, by omega, by rw [hr, hi]; omega⟩
  have key : ∀ s, ∃ (u : ℝ → UShot d) (b : UGrad d), s < P.nb → (∀ e, (A.plus e D).elastic s = .ok (some (u e))) ∧
      A.backward s bcb (grP s) (grV s) (g s) = .ok (some b) ∧
      HasDerivAt (fun e => (u e).pair A (outCells P) (grP s) (grV s) (g s))
        (∑ p ∈ box (fun _ => 0) (P.n true), padDir P true (A.lam, .replicate) D.lam s p * b.lam p +
          ∑ p ∈ box (fun _ => 0) (P.n true), padDir P true (A.mu, .replicate) D.mu s p * b.mu p +
          ∑ p ∈ box (fun _ => 0) (P.n true), padDir P true (A.buoyancy, .replicate) D.buoyancy s p * b.buoyancy p +
          (ampPair A.ampP (D.ampP s) b.ampP + ∑ k, ampPair (A.ampV k) (D.ampV k s) (b.ampV k) +
            (A.wf.givenOf (D.wf s)).inner (outCells P) b.wf)) 0 := fun s => by
    by_cases hs' : s < P.nb
    · obtain ⟨u, b, hub⟩ := shot_deriv (hrun s hs') hmv hr hi (hsm s hs') bcb (grP s) (grV s) (g s) D hL hM hB
      exact ⟨u, b, fun _ => hub⟩
    · obtain ⟨u, b, -⟩ := shot_deriv (hrun 0 hnb) hmv hr hi (hsm 0 hnb) bcb (grP 0) (grV 0) (g 0) D hL hM hB
      exact ⟨u, b, fun h => absurd h hs'⟩
  choose u b hub using key
  refine ⟨fun e s => u s e, b, fun e s hs => (hub s hs).1 e, fun s hs => (hub s hs).2.1, ?_⟩
  have hd : HasDerivAt (fun e => ∑ s ∈ Finset.range P.nb, (u s e).pair A (outCells P) (grP s) (grV s) (g s))
      _ 0 := HasDerivAt.fun_sum fun s hs => (hub s (Finset.mem_range.1 hs)).2.2
  refine hd.congr_deriv ?_
  have hext := h.ext_lt hnb ⟨A.lam, List.mem_cons_self⟩
  have m0 := modelGrad_adj h hnb hext (m := (A.lam, .replicate)) List.mem_cons_self D.lam fun s => (b s).lam
  have m1 := modelGrad_adj h hnb hext (m := (A.mu, .replicate)) (List.mem_cons_of_mem _ List.mem_cons_self)
    D.mu fun s => (b s).mu
  have m2 := modelGrad_adj h hnb hext (m := (A.buoyancy, .replicate))
    (List.mem_cons_of_mem _ (List.mem_cons_of_mem _ List.mem_cons_self)) D.buoyancy fun s => (b s).buoyancy
  rw [Finset.sum_add_distrib, Finset.sum_add_distrib, Finset.sum_add_distrib]
  congr 1
  exact congrArg₂ (· + ·) (congrArg₂ (· + ·) m0.symm m1.symm) m2.symm

/-- **C101**: with any time step, the changes of the outputs from changes of source amplitudes and initial
wavefields are given by their gradients, exactly. -/
theorem C101_elastic_source_gradients (A : UArgs d) (P : Plan d) (cf : ℤ) (h : A.setup.plan = .ok P) (hpre : ¬A.Pre)
    (hi : 0 < P.interval) (hP : PmlOk P) (hcf : checkCallbackFrequency A.opts.callbackFreq = .ok cf)
    (hnt : P.ratio * P.interval ≤ P.nt ∨ P.nt ≤ 0) (s : ℕ) (hs : s < P.nb)
    (hloc : ∀ l, some l ∈ A.setup.srcs ++ A.setup.rcvs → WholeIgnored d l s)
    (hlast : ∀ k, 0 < P.w1 k ∨ (P.ext k).2 = A.lam.shape k ∨ P.BeforeLast k s (A.srcV k) ∧ P.BeforeLast k s (A.rcvV k))
    (hbig : ∀ k, (P.acc.pad : ℤ) + 1 ≤ (P.ext k).2 - (P.ext k).1 + P.w1 k)
    (bcb : Bool) (grP : ℕ → ℕ → ℝ) (grV : Fin d → ℕ → ℕ → ℝ) (g : Wavefields d ℝ) (D : UDir d)
    (hl : D.lam = fun _ _ => 0) (hm : D.mu = fun _ _ => 0) (hb : D.buoyancy = fun _ _ => 0) :
    ∃ (u : ℝ → UShot d) (b : UGrad d), (∀ e, (A.plus e D).elastic s = .ok (some (u e))) ∧
      A.backward s bcb grP grV g = .ok (some b) ∧
      ∀ e, (u e).pair A (outCells P) grP grV g = (u 0).pair A (outCells P) grP grV g +
        e * (ampPair A.ampP (D.ampP s) b.ampP + ∑ k, ampPair (A.ampV k) (D.ampV k s) (b.ampV k) +
          (A.wf.givenOf (D.wf s)).inner (outCells P) b.wf) := by
  rw [plan_ok] at h
  have h : Runs A P s cf := ⟨h, hpre, hs, hP, hloc, hlast, hbig, hcf, hi, hnt⟩
  have hwf := h.wf
  have hr0 : 0 < (cfgOf A.rfmax (shotIn A.setup P A.opts.timeTaper s)).ratio := h.ratio
  have hcb : ∀ c : Bool, 0 < P.nt.toNat → 0 < (if c then some cf.toNat else none).getD
      (P.nt.toNat / (cfgOf A.rfmax (shotIn A.setup P A.opts.timeTaper s)).ratio) := fun c h1 =>
    cb_pos' c h.freq h.ratio h.nt h1
  have hu : ∀ e, ∃ r, (A.plus e D).elastic s = .ok (some r) ∧ r.pair A (outCells P) grP grV g =
      (cfgOf A.rfmax (shotIn A.setup P A.opts.timeTaper s)).obj
        P.nt.toNat (fun t i => downT P A.opts.timeTaper (fun t => -grP i t / d) t)
        (fun k t i => downT P A.opts.timeTaper (grV k i) t) g
        (scaleAmpP (cfgOf A.rfmax (shotIn A.setup P A.opts.timeTaper s))
          fun t (i : Fin _) => upAmps P A.opts.timeTaper A.ampP s t i +
            e * upAmps P A.opts.timeTaper (ampWith A.ampP D.ampP) s t i)
        (scaleAmpV (cfgOf A.rfmax (shotIn A.setup P A.opts.timeTaper s))
          fun k t (i : Fin _) => upAmps P A.opts.timeTaper (A.ampV k) s t i +
            e * upAmps P A.opts.timeTaper (ampWith (A.ampV k) (D.ampV k)) s t i)
        ((A.wf.zeroed s).plus e (A.wf.givenOf (D.wf s))) := fun e => by
    obtain ⟨r, h1, h2⟩ := elastic_pair (h.plus_zero e D hl hm hb) grP grV g
    refine ⟨r, h1, ?_⟩
    have e2 : (fun t (i : Fin ((shotIn A.setup P A.opts.timeTaper s).src d).length) =>
        upAmps P (A.plus e D).opts.timeTaper (A.plus e D).ampP s t i) = fun t (i : Fin _) =>
          upAmps P A.opts.timeTaper A.ampP s t i + e * upAmps P A.opts.timeTaper (ampWith A.ampP D.ampP) s t i := by
      funext t i
      exact upAmps_plus' h.good A.opts.timeTaper A.ampP e D.ampP s t i
    have e3 : (fun (k : Fin d) t (i : Fin ((shotIn A.setup P A.opts.timeTaper s).src k).length) =>
        upAmps P (A.plus e D).opts.timeTaper ((A.plus e D).ampV k) s t i) = fun k t (i : Fin _) =>
          upAmps P A.opts.timeTaper (A.ampV k) s t i +
            e * upAmps P A.opts.timeTaper (ampWith (A.ampV k) (D.ampV k)) s t i := by
      funext k t i
      exact upAmps_plus' h.good A.opts.timeTaper (A.ampV k) e (D.ampV k) s t i
    rw [← UWf.plus_zeroed, ← e2, ← e3]
    exact h2
  choose u hu1 hu2 using hu
  obtain ⟨r, hr1⟩ : ∃ r, (cfgOf A.rfmax (shotIn A.setup P A.opts.timeTaper s)).forward A.gradL A.gradM A.gradB (A.opts.cb cf)
    P.nt.toNat
    (scaleAmpP (cfgOf A.rfmax (shotIn A.setup P A.opts.timeTaper s)) fun t i => upAmps P A.opts.timeTaper A.ampP s t i)
    (scaleAmpV (cfgOf A.rfmax (shotIn A.setup P A.opts.timeTaper s))
      fun k t i => upAmps P A.opts.timeTaper (A.ampV k) s t i) (A.wf.init s) = .ok r :=
    ⟨_, forward_eq hwf _ _ _ _ _ _ _ _ hr0 (hcb _)⟩
  obtain ⟨b, hbk⟩ : ∃ b, (cfgOf A.rfmax (shotIn A.setup P A.opts.timeTaper s)).backward A.gradL A.gradM A.gradB
    (if bcb then some cf.toNat else none) P.nt.toNat r.storeB r.storeN r.storeS
    (fun t i => downT P A.opts.timeTaper (fun t => -grP i t / d) t) (fun k t i => downT P A.opts.timeTaper (grV k i) t)
    g.toInit = .ok b := ⟨_, backward_eq hwf h.cfgBig _ _ _ _ _ ⟨_, _, _⟩ _ _ _ hr0 (hcb _)⟩
  have hq := backward_ok h (gradWith_ok (finite_of_pmlOk' h.good h.pml true) hr1 hbk)
  refine ⟨u, _, hu1, hq, fun e => ?_⟩
  have hobj := fun fp fv w => Cfg.obj_eq hwf h.cfgBig hr0 P.nt.toNat (fun t i => downT P A.opts.timeTaper (fun t => -grP i t / d) t)
    (fun k t i => downT P A.opts.timeTaper (grV k i) t) g fp fv w (st := ⟨_, _, _⟩) (hcb bcb) hbk
  rw [hu2, hu2, hobj, hobj, out_cells]
  simp only [gradsOf]
  rw [← amp_pairP h, Finset.sum_congr rfl fun k _ => (amp_pairV h D k _).symm]
  have t1 : ∀ {n : ℕ} (e dt : ℝ) (a a' y : ℕ → Fin n → ℝ) (m : Fin n → ℝ),
      traceInner P.nt.toNat (fun t i => (a t i + e * a' t i) * m i * dt) y =
        traceInner P.nt.toNat (fun t i => a t i * m i * dt) y +
          e * traceInner P.nt.toNat a' fun t i => y t i * m i * dt := by
    intro n e dt a a' y m
    simp only [traceInner, Finset.mul_sum, ← Finset.sum_add_distrib]
    exact Finset.sum_congr rfl fun t _ => Finset.sum_congr rfl fun i _ => by ring
  set C := cfgOf A.rfmax (shotIn A.setup P A.opts.timeTaper s)
  have t2 : ∀ {n : ℕ} (e dt : ℝ) (a a' y : ℕ → Fin n → ℝ),
      traceInner P.nt.toNat (fun t i => -(a t i + e * a' t i) * dt) y =
        traceInner P.nt.toNat (fun t i => -a t i * dt) y +
          e * traceInner P.nt.toNat a' fun t i => -(y t i * dt) := by
    intro n e dt a a' y
    simp only [traceInner, Finset.mul_sum, ← Finset.sum_add_distrib]
    exact Finset.sum_congr rfl fun t _ => Finset.sum_congr rfl fun i _ => by ring
  have tP : ∀ e, traceInner P.nt.toNat (scaleAmpP C fun t i => upAmps P A.opts.timeTaper A.ampP s t i +
      e * upAmps P A.opts.timeTaper (ampWith A.ampP D.ampP) s t i) b.gfP = _ := fun e =>
    t2 e C.dt (fun t i => upAmps P A.opts.timeTaper A.ampP s t i)
      (fun t i => upAmps P A.opts.timeTaper (ampWith A.ampP D.ampP) s t i) b.gfP
  have tV : ∀ e k, traceInner P.nt.toNat (scaleAmpV C (fun k t i => upAmps P A.opts.timeTaper (A.ampV k) s t i +
      e * upAmps P A.opts.timeTaper (ampWith (A.ampV k) (D.ampV k)) s t i) k) (b.gfV k) = _ := fun e k =>
    t1 e C.dt (fun t i => upAmps P A.opts.timeTaper (A.ampV k) s t i)
      (fun t i => upAmps P A.opts.timeTaper (ampWith (A.ampV k) (D.ampV k)) s t i) (b.gfV k)
      fun i => gatherAt (C.B k) (C.srcV k i)
  rw [tP, tP, Finset.sum_congr rfl fun k _ => tV e k, Finset.sum_congr rfl fun k _ => tV 0 k]
  simp only [Wavefields.inner_plus, Finset.sum_add_distrib, ← Finset.mul_sum]
  have alg : ∀ x y z a b c : ℝ, x + e * a + (y + e * b) + (z + e * c) =
      x + 0 * a + (y + 0 * b) + (z + 0 * c) + e * (a + b + c) := by
    intros
    ring
  exact alg _ _ _ _ _ _

/-! ### Examples -/

/-- `exU` with a time step that is short enough. -/
noncomputable def exG : UArgs 2 := {exU .none with opts := exO1 .none}

noncomputable def exGP : Plan 2 :=
  exPl1 true ![(0, 7), (0, 9)] (exU .none).setup.models (exU .none).setup.srcs (exU .none).setup.rcvs

theorem exG_good : exG.setup.Good exGP :=
  exO1_good (fun a ha => by
    have : some a ∈ [none, some exAmp, some exAmp] := ha
    simpa using this) rfl exU_whole

theorem exSmooth (P : Plan 2) (s : ℕ) (h0 : ∀ k, (P.ext k).1 = 0 ∧ 0 < (P.ext k).2 ∧ (P.ext k).2 ≤ 9) :
    Smooth exG P s := by
  have hrf : exG.rfmax < 1 / 100 ∧ 0 ≤ exG.rfmax := by norm_num [exG, exU]
  have hcl : ∀ c, ∃ c' : Cell 2, (0 ≤ c' 1 ∧ c' 1 ≤ 9) ∧ P.grid.extend (exG.mu.shot s) c = 500 + (c' 1 : ℤ) ∧
      P.grid.extend (exG.buoyancy.shot s) c = 1 + (c' 1 : ℤ) := fun c => by
    refine ⟨fun k => max (P.grid.lo k) (min (P.grid.hi k) (c k)), ?_, rfl, rfl⟩
    have := h0 1
    simp only [Plan.grid]
    omega
  have hmu : ∀ c, 500 ≤ P.grid.extend (exG.mu.shot s) c := fun c => by
    obtain ⟨c', h1, h2, -⟩ := hcl c
    have : (0 : ℝ) ≤ (c' 1 : ℤ) := by exact_mod_cast h1.1
    rw [h2]
    linarith
  have hbu : ∀ c, 1 ≤ P.grid.extend (exG.buoyancy.shot s) c ∧ P.grid.extend (exG.buoyancy.shot s) c ≤ 10 := fun c => by
    obtain ⟨c', h1, -, h2⟩ := hcl c
    have h3 : (0 : ℝ) ≤ (c' 1 : ℤ) := by exact_mod_cast h1.1
    have h4 : ((c' 1 : ℤ) : ℝ) ≤ 9 := by exact_mod_cast h1.2
    rw [h2]
    constructor <;> linarith
  have hrho : ∀ c, 1 / 10 ≤ Spec.inverse exG.rfmax (P.grid.extend (exG.buoyancy.shot s) c) := fun c => by
    have h1 := hbu c
    unfold Spec.inverse
    rw [if_pos (lt_of_lt_of_le (by linarith [hrf.1]) (le_abs_self _))]
    exact one_div_le_one_div_of_le (by linarith) h1.2
  refine ⟨hrf.2, fun c => ?_, fun c => ?_, fun k c => ?_, fun i j c _ => ?_⟩
  · have := hmu c
    exact ne_of_gt (lt_of_lt_of_le (by linarith [hrf.1]) (le_abs_self _))
  · have := hbu c
    exact ne_of_gt (lt_of_lt_of_le (by linarith [hrf.1]) (le_abs_self _))
  · have h1 := hrho c
    have h2 := hrho (c.shift k 1)
    have h3 : 1 / 10 ≤ Spec.mean (fun c => Spec.inverse exG.rfmax (P.grid.extend (exG.buoyancy.shot s) c)) k c := by
      unfold Spec.mean
      linarith
    exact ne_of_gt (lt_of_lt_of_le (by linarith [hrf.1]) (le_abs_self _))
  · intro m _
    have hp : ∀ c, 0 < 1 / m c := fun c => one_div_pos.2 (by have := hmu c; show 0 < P.grid.extend _ _; linarith)
    have h1 := hp c
    have h2 := hp (c.shift i 1)
    have h3 := hp (c.shift j 1)
    have h4 := hp ((c.shift i 1).shift j 1)
    exact ne_of_gt (by linarith)

/-- The gradient of the sum of the last pressure samples, in the direction of a larger shear modulus in one cell, a
larger buoyancy in another one, and a pulse in the second sample of the sources of both kinds. -/
example : ∃ (u : ℝ → ℕ → UShot 2) (b : ℕ → UGrad 2) (x : ℝ),
    (∀ e, ∀ s < 2, (exG.plus e ⟨fun _ _ => 0, fun _ c => if c = ![3, 3] then 1 else 0, fun _ c => if c = ![2, 5] then 1 else 0,
      fun _ _ t => if t = 1 then 1 else 0, fun _ _ _ t => if t = 1 then 1 else 0,
      fun _ => ⟨fun _ _ => 0, fun _ _ => 0, fun _ _ => 0, fun _ _ _ => 0, fun _ _ _ => 0⟩⟩).elastic s = .ok (some (u e s))) ∧
    (∀ s < 2, exG.backward s false (fun _ t => if t = 4 then 1 else 0) (fun _ _ _ => 0)
      ⟨fun _ _ => 0, fun _ _ => 0, fun _ _ => 0, fun _ _ _ => 0, fun _ _ _ => 0⟩ = .ok (some (b s))) ∧
    HasDerivAt (fun e => ∑ s ∈ Finset.range 2, (u e s).pair exG (outCells exGP) (fun _ t => if t = 4 then 1 else 0)
      (fun _ _ _ => 0) ⟨fun _ _ => 0, fun _ _ => 0, fun _ _ => 0, fun _ _ _ => 0, fun _ _ _ => 0⟩) x 0 := by
  obtain ⟨u, b, h1, h2, h3⟩ := C100_elastic_gradients_exact exG exGP 1 (plan_ok.2 exG_good) (exU_pre .none)
    (by simp [exG, exO1, exO]) rfl rfl (.inl (by norm_num [exGP, exPl1, exPl])) rfl (by norm_num [exGP, exPl1, exPl])
    (fun s hs l hl => Born.exLoc_whole hs (exU_locs .none l hl))
    (fun s _ k => .inl (by fin_cases k <;> norm_num [exGP, exPl1, exPl, Plan.w1]))
    (fun k => by fin_cases k <;> decide +kernel) 
    (fun s _ => exSmooth exGP s fun k => by fin_cases k <;> decide +kernel)
    false (fun _ _ t => if t = 4 then 1 else 0) (fun _ _ _ _ => 0)
    (fun _ => ⟨fun _ _ => 0, fun _ _ => 0, fun _ _ => 0, fun _ _ _ => 0, fun _ _ _ => 0⟩)
    ⟨fun _ _ => 0, fun _ c => if c = ![3, 3] then 1 else 0, fun _ c => if c = ![2, 5] then 1 else 0,
      fun _ _ t => if t = 1 then 1 else 0, fun _ _ _ t => if t = 1 then 1 else 0,
      fun _ => ⟨fun _ _ => 0, fun _ _ => 0, fun _ _ => 0, fun _ _ _ => 0, fun _ _ _ => 0⟩⟩
    (.inl rfl) (.inl rfl) (.inl rfl)
  exact ⟨u, b, _, h1, h2, h3⟩

/-- Three internal time steps per sample. -/
example : ∃ (u : ℝ → UShot 2) (b : UGrad 2),
    (exU .none).backward 1 true (fun _ t => if t = 4 then 1 else 0) (fun _ _ _ => 0)
      ⟨fun _ _ => 0, fun _ _ => 0, fun _ _ => 0, fun _ _ _ => 0, fun _ _ _ => 0⟩ = .ok (some b) ∧
    (u 2).pair (exU .none) (outCells (exP ![(0, 7), (0, 9)])) (fun _ t => if t = 4 then 1 else 0) (fun _ _ _ => 0)
        ⟨fun _ _ => 0, fun _ _ => 0, fun _ _ => 0, fun _ _ _ => 0, fun _ _ _ => 0⟩ =
      (u 0).pair (exU .none) (outCells (exP ![(0, 7), (0, 9)])) (fun _ t => if t = 4 then 1 else 0) (fun _ _ _ => 0)
        ⟨fun _ _ => 0, fun _ _ => 0, fun _ _ => 0, fun _ _ _ => 0, fun _ _ _ => 0⟩ +
      2 * (ampPair (exU .none).ampP (fun _ t => if t = 1 then 1 else 0) b.ampP +
        ampPair ((exU .none).ampV 1) (fun _ t => if t = 2 then 1 else 0) (b.ampV 1)) := by
  obtain ⟨u, b, h1, h2, h3⟩ := C101_elastic_source_gradients (exU .none) (exP ![(0, 7), (0, 9)]) 1 (plan_ok.2 exU_whole)
    (exU_pre .none) (by norm_num [exP, exPl]) (.inl (by norm_num [exP, exPl])) rfl (.inl (by norm_num [exP, exPl])) 1
    (by norm_num [exP, exPl]) (fun l hl => Born.exLoc_whole (by norm_num) (exU_locs .none l hl))
    (fun k => .inl (by fin_cases k <;> norm_num [exP, exPl, Plan.w1]))
    (fun k => by fin_cases k <;> decide +kernel) true (fun _ t => if t = 4 then 1 else 0) (fun _ _ _ => 0)
    ⟨fun _ _ => 0, fun _ _ => 0, fun _ _ => 0, fun _ _ _ => 0, fun _ _ _ => 0⟩
    ⟨fun _ _ => 0, fun _ _ => 0, fun _ _ => 0, fun _ _ t => if t = 1 then 1 else 0, fun _ _ _ t => if t = 2 then 1 else 0,
      fun _ => ⟨fun _ _ => 0, fun _ _ => 0, fun _ _ => 0, fun _ _ _ => 0, fun _ _ _ => 0⟩⟩ rfl rfl rfl
  refine ⟨u, b, h2, (h3 2).trans ?_⟩
  have e0 : ∀ x y, ampPair ((exU .none).ampV 0) x y = 0 := fun x y => rfl
  rw [Fin.sum_univ_two, e0, zero_add]
  congr 2
  simp [Wavefields.inner, UWf.givenOf, exU]

end Dw.Elastic
