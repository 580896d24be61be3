import Verif.Born.UserGrad
import Verif.Props.UserGradScalar

/-!
# The gradients of a call of `scalar_born`

C96: with `max_vel` given and a model gradient sampling interval of one time step, the gradients of all
tensors that can be differentiated are the derivatives of the outputs, whichever of them need gradients (if only
the scattering potential and the scattered wavefields do, the code takes a different path).  C97: for any time
step, the gradients of source amplitudes and initial wavefields are exact.
-/

namespace Dw.Born

open Setup Resample
open Scalar

variable {d : ℕ}

theorem cfgOf_plus {A : UArgs d} {P : Plan d} (h : A.setup.Good P) (hnb : 0 < P.nb) (e : ℝ) (D : UDir d) (tt : Bool)
    (s : ℕ) : cfgOf (shotIn (A.plus e D).setup (A.planPlus P e D) tt s) =
      ((cfgOf (shotIn A.setup P tt s)).withScatter fun c => (cfgOf (shotIn A.setup P tt s)).scatter c +
        e * padDir P false (A.scatter, .constant) D.scatter s c).pert (padDir P false (A.v, .replicate) D.v s) e := by
  have h0 := fun p => model_plus h hnb (j := 0) (m := (A.v, .replicate)) rfl (A' := (A.plus e D).setup)
    (ms := [((A.plus e D).v, .replicate), ((A.plus e D).scatter, .constant)]) (δ := D.v) (e := e) rfl tt s p
  have h1 := fun p => model_plus h hnb (j := 1) (m := (A.scatter, .constant)) rfl (A' := (A.plus e D).setup)
    (ms := [((A.plus e D).v, .replicate), ((A.plus e D).scatter, .constant)]) (δ := D.scatter) (e := e) rfl tt s p
  refine Eq.trans (b := ({cfgOf (shotIn A.setup P tt s) with
    base := {(cfgOf (shotIn A.setup P tt s)).base with
      v := (shotIn (A.plus e D).setup (A.planPlus P e D) tt s).model 0 }
    scatter := (shotIn (A.plus e D).setup (A.planPlus P e D) tt s).model 1 } : BCfg d _ _ _ ℝ)) rfl ?_
  have e0 : (shotIn (A.plus e D).setup (A.planPlus P e D) tt s).model 0 = fun c =>
      (shotIn A.setup P tt s).model 0 c + e * padDir P false (A.v, .replicate) D.v s c := funext h0
  have e1 : (shotIn (A.plus e D).setup (A.planPlus P e D) tt s).model 1 = fun c =>
      (shotIn A.setup P tt s).model 1 c + e * padDir P false (A.scatter, .constant) D.scatter s c := funext h1
  rw [e0, e1]
  rfl

theorem Runs.plus {A : UArgs d} {P : Plan d} {s : ℕ} {cf : ℤ} (h : Runs A P s cf) (hmv : A.opts.maxVel ≠ none) (e : ℝ)
    (D : UDir d) : Runs (A.plus e D) (A.planPlus P e D) s cf :=
  ⟨plus_good h.good (by have := h.lt; omega) hmv e D, h.lt, h.pml, h.loc, h.freq, h.interval, h.nt⟩

theorem Runs.plus_zero {A : UArgs d} {P : Plan d} {s : ℕ} {cf : ℤ} (h : Runs A P s cf) (e : ℝ)
    (D : UDir d) (hv : D.v = fun _ _ => 0) (hs : D.scatter = fun _ _ => 0) : Runs (A.plus e D) P s cf :=
  ⟨plus_good_zero h.good e D hv hs, h.lt, h.pml, h.loc, h.freq, h.interval, h.nt⟩

theorem ampPair_add (a : Option AmpT) (δ x y : ℕ → ℕ → ℝ) :
    ampPair a δ (fun i t => x i t + y i t) = ampPair a δ x + ampPair a δ y := by
  cases a with
  | none => simp [ampPair]
  | some a => simp only [ampPair, mul_add, Finset.sum_add_distrib]

theorem traceInner_mul {nt n : ℕ} (x c y : ℕ → Fin n → ℝ) :
    traceInner nt (fun t i => x t i * c t i) y = traceInner nt x fun t i => y t i * c t i := by
  simp only [traceInner]
  exact Finset.sum_congr rfl fun t _ => Finset.sum_congr rfl fun i _ => by ring

theorem traceInner_add_left {nt n : ℕ} (x y z : ℕ → Fin n → ℝ) :
    traceInner nt (fun t i => x t i + y t i) z = traceInner nt x z + traceInner nt y z := by
  simp only [traceInner, add_mul, Finset.sum_add_distrib]

theorem padDir_zero (P : Plan d) (st : Bool) (m : ModelT d ℝ × PadMode) (s : ℕ) :
    padDir P st m (fun _ _ => 0) s = fun _ => 0 := by
  funext p
  have := modelOf_plus P.ext (P.padding st) (m.1.withVal fun _ _ => 0) m.2 (fun _ _ => 0) 1
    (if m.1.nb.getD 1 = 1 then 0 else s) p
  simp only [ModelT.withVal, mul_zero, add_zero, one_mul] at this
  unfold padDir
  simp only [ModelT.withVal]
  linarith

/-- A sum over the sources as a sum over the cells they are in. -/
theorem sum_cells {ns nr : ℕ} {C : Cfg d ns nr ℝ} (S : Finset (Cell d))
    (hS : ∀ i, ((C.src i).getD fun _ => 0) ∈ S)
    {dec : ∀ (i : Fin ns) (x : Cell d), Decidable (((C.src i).getD fun _ => 0) = x)} (nt : ℕ) (δ : Fld d ℝ) (y : ℕ → Fin ns → Cell d → ℝ) :
    ∑ x ∈ S, δ x * (∑ t ∈ Finset.range nt, ∑ i, @ite ℝ (((C.src i).getD fun _ => 0) = x) (dec i x)
      (y t i x) 0) =
      ∑ t ∈ Finset.range nt, ∑ i, gatherAt δ (C.src i) * y t i ((C.src i).getD fun _ => 0) := by
  classical
  simp only [Finset.mul_sum]
  rw [Finset.sum_comm]
  refine Finset.sum_congr rfl fun t _ => ?_
  rw [Finset.sum_comm]
  refine Finset.sum_congr rfl fun i _ => ?_
  rw [Finset.sum_eq_single ((C.src i).getD fun _ => 0)]
  · rw [if_pos rfl]; rfl
  · intro x _ hx
    rw [if_neg (Ne.symm hx), mul_zero]
  · intro hn
    exact absurd (hS i) hn

theorem backward_ok {A : UArgs d} {P : Plan d} {s : ℕ} {cf : ℤ} (h : Runs A P s cf) {full bcb : Bool}
    {gr grsc : ℕ → ℕ → ℝ} {g gsc : Wavefields d ℝ} {q : UGrad d}
    (hq : gradWith A P cf s full bcb gr grsc g gsc (cfgOf (shotIn A.setup P A.opts.timeTaper s)) = .ok (some q)) :
    A.backward s full bcb gr grsc g gsc = .ok (some q) := by
  classical
  have hnb : 0 < P.nb := by have := h.lt; omega
  have hne : ¬NoElements A.v := not_noElements h.good hnb (m := (A.v, .replicate)) List.mem_cons_self
  unfold UArgs.backward
  rw [raiseIf_ok.2 hne, plan_ok.2 h.good, h.freq]
  exact hq

variable {ns nr nq : ℕ}

theorem gradWith_ok {A : UArgs d} {P : Plan d} {cf : ℤ} {s : ℕ} {full bcb : Bool} {gr grsc : ℕ → ℕ → ℝ}
    {g gsc : Wavefields d ℝ} {B : BCfg d ns nr nq ℝ} {r : FResult d nr nq ℝ} {b : BResult d ns ℝ}
    (hfin : Scalar.Finite (P.pml false))
    (hf : B.forward A.gradV A.gradS (A.opts.cb cf) P.nt.toNat
      (scaleAmp B.base fun t i => upAmps P A.opts.timeTaper A.amps s t i)
      (scaleAmpSc B fun t i => upAmps P A.opts.timeTaper A.amps s t i) (A.wf.init s) (A.wfsc.init s) = .ok r)
    (hb : B.back A.gradV A.gradS full (if bcb then some cf.toNat else none) P.nt.toNat r.w r.wsc
      (fun t i => downT P A.opts.timeTaper (gr i) t) (fun t i => downT P A.opts.timeTaper (grsc i) t) g.toInit
      gsc.toInit = .ok b) :
    gradWith A P cf s full bcb gr grsc g gsc B =
      .ok (some (gradsOf A P B (fun t i => upAmps P A.opts.timeTaper A.amps s t i) b)) := by
  unfold gradWith
  simp only [bind, Except.bind]
  rw [hf]
  simp only
  rw [hb]
  simp only [pure, Except.pure, if_pos hfin]

/-- The derivative for one shot. -/
theorem shot_deriv {A : UArgs d} {P : Plan d} {s : ℕ} {cf : ℤ} (h : Runs A P s cf) (hmv : A.opts.maxVel ≠ none)
    (hr : P.ratio = 1) (hi : P.interval = 1) (full bcb : Bool) (gr grsc : ℕ → ℕ → ℝ) (g gsc : Wavefields d ℝ)
    (D : UDir d) (hv : A.gradV = true ∨ D.v = fun _ _ => 0) (hs : A.gradS = true ∨ D.scatter = fun _ _ => 0)
    (hfull : (A.gradV || full) = true ∨ D.amps = (fun _ _ _ => 0) ∧ D.wf = fun _ => Wavefields.zero d) :
    ∃ (u : ℝ → UShot d) (b : UGrad d), (∀ e, (A.plus e D).born s = .ok (some (u e))) ∧
      A.backward s full bcb gr grsc g gsc = .ok (some b) ∧
      HasDerivAt (fun e => (u e).pair A (outCells P) gr grsc g gsc)
        (∑ p ∈ box (fun _ => 0) (P.n false), padDir P false (A.v, .replicate) D.v s p * b.v p +
          ∑ p ∈ box (fun _ => 0) (P.n false), padDir P false (A.scatter, .constant) D.scatter s p * b.scatter p +
          (ampPair A.amps (D.amps s) b.amps + (A.wf.givenOf (D.wf s)).inner (outCells P) b.wf +
            (A.wfsc.givenOf (D.wfsc s)).inner (outCells P) b.wfsc)) 0 := by
  have hnb : 0 < P.nb := by have := h.lt; omega
  have hwf := h.wf
  have hC1 : (cfgOf (shotIn A.setup P A.opts.timeTaper s)).base.ratio = 1 := by
    show (P.ratio * P.interval).toNat = 1
    rw [hr, hi]
    rfl
  have hcb : ∀ c : Bool, 0 < P.nt.toNat → 0 < (if c then some cf.toNat else none).getD P.nt.toNat := fun c h1 => by
    have := cb_pos' c h.freq h.ratio h.nt h1
    rwa [hr, hi, show ((1 : ℤ) * 1).toNat = 1 from rfl, Nat.div_one] at this
  have hcb' : ∀ c : Bool, 0 < P.nt.toNat → 0 < (if c then some cf.toNat else none).getD
      (P.nt.toNat / (cfgOf (shotIn A.setup P A.opts.timeTaper s)).base.ratio) := fun c h1 => by
    rw [hC1, Nat.div_one]
    exact hcb c h1
  -- the calls
  have hu : ∀ e, ∃ r, (A.plus e D).born s = .ok (some r) ∧ r.pair A (outCells P) gr grsc g gsc =
      (((cfgOf (shotIn A.setup P A.opts.timeTaper s)).withScatter fun c =>
        (cfgOf (shotIn A.setup P A.opts.timeTaper s)).scatter c +
        e * padDir P false (A.scatter, .constant) D.scatter s c).pert (padDir P false (A.v, .replicate) D.v s) e).obj
        P.nt.toNat (fun t i => downT P A.opts.timeTaper (gr i) t)
        (fun t i => downT P A.opts.timeTaper (grsc i) t) g gsc
        (scaleAmp (((cfgOf (shotIn A.setup P A.opts.timeTaper s)).withScatter fun c =>
        (cfgOf (shotIn A.setup P A.opts.timeTaper s)).scatter c +
        e * padDir P false (A.scatter, .constant) D.scatter s c).pert (padDir P false (A.v, .replicate) D.v s) e).base
          fun t (i : Fin _) => upAmps P A.opts.timeTaper A.amps s t i +
            e * upAmps P A.opts.timeTaper (ampWith A.amps D.amps) s t i)
        (scaleAmpSc (((cfgOf (shotIn A.setup P A.opts.timeTaper s)).withScatter fun c =>
        (cfgOf (shotIn A.setup P A.opts.timeTaper s)).scatter c +
        e * padDir P false (A.scatter, .constant) D.scatter s c).pert (padDir P false (A.v, .replicate) D.v s) e)
          fun t (i : Fin _) => upAmps P A.opts.timeTaper A.amps s t i +
            e * upAmps P A.opts.timeTaper (ampWith A.amps D.amps) s t i)
        ((A.wf.zeroed s).plus e (A.wf.givenOf (D.wf s))) ((A.wfsc.zeroed s).plus e (A.wfsc.givenOf (D.wfsc s))) :=
    fun e => by
    obtain ⟨r, h1, h2⟩ := born_pair (h.plus hmv e D) gr grsc g gsc
    refine ⟨r, h1, ?_⟩
    have e1 := cfgOf_plus h.good hnb e D A.opts.timeTaper s
    have e2 : (fun t (i : Fin ((shotIn A.setup P A.opts.timeTaper s).src 0).length) =>
        upAmps (A.planPlus P e D) (A.plus e D).opts.timeTaper (A.plus e D).amps s t i) = fun t (i : Fin _) =>
          upAmps P A.opts.timeTaper A.amps s t i + e * upAmps P A.opts.timeTaper (ampWith A.amps D.amps) s t i := by
      funext t i
      exact upAmps_plus' h.good A.opts.timeTaper A.amps e D.amps s t i
    rw [← UWf.plus_zeroed, ← UWf.plus_zeroed, ← e2, ← e1]
    exact h2
  choose u hu1 hu2 using hu
  -- the backward pass
  have hF := forward_eq hwf.base A.gradV A.gradS (A.opts.cb cf) P.nt.toNat
    (scaleAmp (cfgOf (shotIn A.setup P A.opts.timeTaper s)).base fun t i => upAmps P A.opts.timeTaper A.amps s t i)
    (scaleAmpSc (cfgOf (shotIn A.setup P A.opts.timeTaper s)) fun t i => upAmps P A.opts.timeTaper A.amps s t i)
    (A.wf.init s) (A.wfsc.init s) (by omega) (hcb' _)
  obtain ⟨r, hr1⟩ : ∃ r, (cfgOf (shotIn A.setup P A.opts.timeTaper s)).forward A.gradV A.gradS (A.opts.cb cf) P.nt.toNat
    (scaleAmp (cfgOf (shotIn A.setup P A.opts.timeTaper s)).base fun t i => upAmps P A.opts.timeTaper A.amps s t i)
    (scaleAmpSc (cfgOf (shotIn A.setup P A.opts.timeTaper s)) fun t i => upAmps P A.opts.timeTaper A.amps s t i)
    (A.wf.init s) (A.wfsc.init s) = .ok r := ⟨_, hF⟩
  obtain ⟨b, b', hb, hb', bgs, bgf, bout, bfull⟩ := BCfg.back_ok hwf (by omega) A.gradV A.gradS full
    (if bcb then some cf.toNat else none) P.nt.toNat r.w r.wsc
    (fun t i => downT P A.opts.timeTaper (gr i) t) (fun t i => downT P A.opts.timeTaper (grsc i) t) g.toInit gsc.toInit
    (hcb' _)
  have hq := backward_ok h (gradWith_ok (finite_of_pmlOk h.good h.pml false) hr1 hb)
  refine ⟨u, _, hu1, hq, ?_⟩
  simp only [hu2]
  have hF' : (cfgOf (shotIn A.setup P A.opts.timeTaper s)).forward A.gradV A.gradS (A.opts.cb cf) P.nt.toNat
      (scaleAmp (cfgOf (shotIn A.setup P A.opts.timeTaper s)).base fun t i => upAmps P A.opts.timeTaper A.amps s t i)
      (scaleAmpSc (cfgOf (shotIn A.setup P A.opts.timeTaper s)) fun t i => upAmps P A.opts.timeTaper A.amps s t i)
      (A.wf.zeroed s).toInit (A.wfsc.zeroed s).toInit = .ok r := by
    rw [← hr1, hF, forward_eq hwf.base A.gradV A.gradS (A.opts.cb cf) P.nt.toNat _ _ _ _ (by omega) (hcb' _),
      start_zeroed, start_zeroed]
  have hamp := fun y => ampPair_eq' h.good A.opts.timeTaper s (j := 0) (a := A.amps) (o := A.src) rfl rfl
    (src_length h.good A.opts.timeTaper s (j := 0) rfl) D.amps y
  have ha'0 : D.amps = (fun _ _ _ => 0) → ∀ t (i : ℕ), upAmps P A.opts.timeTaper (ampWith A.amps D.amps) s t i = 0 :=
    fun h0 t i => by rw [h0]; exact upAmps_zero h.good _ _ _ _ _
  have huc : (cfgOf (shotIn A.setup P A.opts.timeTaper s)).base.userCells = outCells P := cfg_userCells 0 0 P s
  have hmc : (cfgOf (shotIn A.setup P A.opts.timeTaper s)).base.modelCells = box (fun _ => 0) (P.n false) := rfl
  rw [← huc, ← hmc]
  clear hr1 hF hu1 hu2 hq huc hmc hb
  set δ := padDir P false (A.v, .replicate) D.v s with hδ
  set δσ := padDir P false (A.scatter, .constant) D.scatter s with hδσ
  have hδ0 : A.gradV = true ∨ δ = fun _ => 0 := hv.imp id fun h0 => by rw [hδ, h0]; exact padDir_zero _ _ _ _
  have hδσ0 : A.gradS = true ∨ δσ = fun _ => 0 := hs.imp id fun h0 => by rw [hδσ, h0]; exact padDir_zero _ _ _ _
  generalize cfgOf (shotIn A.setup P A.opts.timeTaper s) = B at *
  generalize ((shotIn A.setup P A.opts.timeTaper s).src 0).length = ns at *
  set a : ℕ → Fin ns → ℝ := fun t i => upAmps P A.opts.timeTaper A.amps s t i with ha
  set a' : ℕ → Fin ns → ℝ := fun t i => upAmps P A.opts.timeTaper (ampWith A.amps D.amps) s t i with ha'
  have h1 : ∀ t i, HasDerivAt (fun e => a t i + e * a' t i) (a' t i) 0 := fun t i => by
    have := ((hasDerivAt_id (0 : ℝ)).mul_const (a' t i)).const_add (a t i)
    simpa only [id, one_mul] using this
  have h2 : ∀ (m n : Fld d ℝ) i, HasDerivAt (fun e => gatherAt m (B.base.src i) + e * gatherAt n (B.base.src i))
      (gatherAt n (B.base.src i)) 0 := fun m n i => by
    have := ((hasDerivAt_id (0 : ℝ)).mul_const (gatherAt n (B.base.src i))).const_add (gatherAt m (B.base.src i))
    simpa only [id, one_mul] using this
  have hd := BCfg.obj_deriv_all hwf hC1 P.nt.toNat (fun t i => downT P A.opts.timeTaper (gr i) t)
    (fun t i => downT P A.opts.timeTaper (grsc i) t) g gsc
    (fun e => scaleAmp ((B.withScatter fun c => B.scatter c + e * δσ c).pert δ e).base fun t i => a t i + e * a' t i)
    (fun e => scaleAmpSc ((B.withScatter fun c => B.scatter c + e * δσ c).pert δ e) fun t i => a t i + e * a' t i)
    (fun t i => a' t i * -(gatherAt B.base.v (B.base.src i) ^ 2 * B.base.dt ^ 2) +
      gatherAt δ (B.base.src i) * (-a t i * (2 * gatherAt B.base.v (B.base.src i)) * B.base.dt ^ 2))
    (fun t i => a' t i * (-2 * (gatherAt B.base.v (B.base.src i) * gatherAt B.scatter (B.base.src i) *
        B.base.dt ^ 2)) +
      gatherAt δ (B.base.src i) * (-2 * a t i * gatherAt B.scatter (B.base.src i) * B.base.dt ^ 2) +
      gatherAt δσ (B.base.src i) * (-2 * a t i * gatherAt B.base.v (B.base.src i) * B.base.dt ^ 2))
    (fun t i => by
      have h3 := ((h1 t i).fun_neg.mul ((h2 B.base.v δ i).fun_pow 2)).mul_const (B.base.dt ^ 2)
      refine HasDerivAt.congr_deriv (f := fun e => scaleAmp ((B.withScatter fun c => B.scatter c + e * δσ c).pert δ e).base
        (fun t i => a t i + e * a' t i) t i) h3 ?_
      norm_num
      ring)
    (fun t i => by
      have h3 := ((((h1 t i).const_mul (-2)).mul (h2 B.base.v δ i)).mul (h2 B.scatter δσ i)).mul_const (B.base.dt ^ 2)
      refine HasDerivAt.congr_deriv (f := fun e => scaleAmpSc ((B.withScatter fun c => B.scatter c + e * δσ c).pert δ e)
        (fun t i => a t i + e * a' t i) t i) h3 ?_
      norm_num
      ring)
    (A.wf.zeroed s) (A.wfsc.zeroed s) (A.wf.givenOf (D.wf s)) (A.wfsc.givenOf (D.wfsc s)) δ δσ hδ0 hδσ0
    (hcb A.opts.callback) (hcb bcb)
    (by
      have e0 : ((B.withScatter fun c => B.scatter c + 0 * δσ c).pert δ 0) = B := by
        simp only [BCfg.pert_zero, BCfg.withScatter, zero_mul, add_zero]
      simp only [e0]
      simp only [zero_mul, add_zero]
      exact hF') hb'
  refine hd.congr_deriv ?_
  -- the terms that are not computed if they are not needed
  have hX : ∑ c ∈ B.base.modelCells, δ c * b'.gv c = ∑ c ∈ B.base.modelCells, δ c * b.gv c := by
    rcases hδ0 with h0 | h0
    · rw [bfull (by rw [h0]; rfl)]
    · simp [h0]
  have hY : traceInner P.nt.toNat (fun t i => a' t i * -(gatherAt B.base.v (B.base.src i) ^ 2 * B.base.dt ^ 2) +
      gatherAt δ (B.base.src i) * (-a t i * (2 * gatherAt B.base.v (B.base.src i)) * B.base.dt ^ 2)) b'.gf =
      traceInner P.nt.toNat (fun t i => a' t i * -(gatherAt B.base.v (B.base.src i) ^ 2 * B.base.dt ^ 2) +
      gatherAt δ (B.base.src i) * (-a t i * (2 * gatherAt B.base.v (B.base.src i)) * B.base.dt ^ 2)) b.gf := by
    rcases hfull with h0 | ⟨h0, -⟩
    · rw [bfull h0]
    · rcases hδ0 with h3 | h3
      · rw [bfull (by rw [h3]; rfl)]
      · have h4 : ∀ t i, a' t i = 0 := fun t i => ha'0 h0 t i
        have h5 : ∀ i, gatherAt (fun _ : Cell d => (0 : ℝ)) (B.base.src i) = 0 := fun _ => rfl
        simp only [h3, h4, h5, zero_mul, add_zero, traceInner_zero_left]
  have hZ : (A.wf.givenOf (D.wf s)).inner B.base.userCells b'.out =
      (A.wf.givenOf (D.wf s)).inner B.base.userCells b.out := by
    rcases hfull with h0 | ⟨-, h0⟩
    · rw [bfull h0]
    · have : A.wf.givenOf (D.wf s) = Wavefields.zero d := by
        simp [h0, UWf.givenOf, Wavefields.zero]
      rw [this, Wavefields.zero_inner, Wavefields.zero_inner]
  rw [hX, hY, hZ, ← bgs, ← bgf, ← bout]
  have hsrc := src_modelCells hwf.base
  have dist : ∀ x y : Fld d ℝ, ∀ z : Fld d ℝ, ∑ p ∈ B.base.modelCells, z p * (x p + y p) =
      ∑ p ∈ B.base.modelCells, z p * x p + ∑ p ∈ B.base.modelCells, z p * y p := fun x y z => by
    simp only [mul_add, Finset.sum_add_distrib]
  have t1 : traceInner P.nt.toNat (fun t i => a' t i * -(gatherAt B.base.v (B.base.src i) ^ 2 * B.base.dt ^ 2) +
      gatherAt δ (B.base.src i) * (-a t i * (2 * gatherAt B.base.v (B.base.src i)) * B.base.dt ^ 2)) b.gf =
      traceInner P.nt.toNat a' (fun t i => -(b.gf t i * gatherAt B.base.v (B.base.src i) ^ 2 * B.base.dt ^ 2)) +
      ∑ t ∈ Finset.range P.nt.toNat, ∑ i, gatherAt δ (B.base.src i) *
        (b.gf t i * (-a t i * (2 * gatherAt B.base.v (B.base.src i)) * B.base.dt ^ 2)) := by
    simp only [traceInner, ← Finset.sum_add_distrib]
    exact Finset.sum_congr rfl fun t _ => Finset.sum_congr rfl fun i _ => by ring
  have t2 : traceInner P.nt.toNat (fun t i => a' t i * (-2 * (gatherAt B.base.v (B.base.src i) *
        gatherAt B.scatter (B.base.src i) * B.base.dt ^ 2)) +
      gatherAt δ (B.base.src i) * (-2 * a t i * gatherAt B.scatter (B.base.src i) * B.base.dt ^ 2) +
      gatherAt δσ (B.base.src i) * (-2 * a t i * gatherAt B.base.v (B.base.src i) * B.base.dt ^ 2)) b.gfsc =
      traceInner P.nt.toNat a' (fun t i => -2 * (b.gfsc t i * gatherAt B.base.v (B.base.src i) *
        gatherAt B.scatter (B.base.src i) * B.base.dt ^ 2)) +
      ∑ t ∈ Finset.range P.nt.toNat, ∑ i, gatherAt δ (B.base.src i) *
        (b.gfsc t i * (-2 * a t i * gatherAt B.scatter (B.base.src i) * B.base.dt ^ 2)) +
      ∑ t ∈ Finset.range P.nt.toNat, ∑ i, gatherAt δσ (B.base.src i) *
        (b.gfsc t i * (-2 * a t i * gatherAt B.base.v (B.base.src i) * B.base.dt ^ 2)) := by
    simp only [traceInner, ← Finset.sum_add_distrib]
    exact Finset.sum_congr rfl fun t _ => Finset.sum_congr rfl fun i _ => by ring
  have t3 : ∑ t ∈ Finset.range P.nt.toNat, ∑ i, gatherAt δ (B.base.src i) *
        (b.gf t i * (-a t i * (2 * gatherAt B.base.v (B.base.src i)) * B.base.dt ^ 2) +
          b.gfsc t i * (-2 * a t i * gatherAt B.scatter (B.base.src i) * B.base.dt ^ 2)) =
      ∑ t ∈ Finset.range P.nt.toNat, ∑ i, gatherAt δ (B.base.src i) *
        (b.gf t i * (-a t i * (2 * gatherAt B.base.v (B.base.src i)) * B.base.dt ^ 2)) +
      ∑ t ∈ Finset.range P.nt.toNat, ∑ i, gatherAt δ (B.base.src i) *
        (b.gfsc t i * (-2 * a t i * gatherAt B.scatter (B.base.src i) * B.base.dt ^ 2)) := by
    simp only [← Finset.sum_add_distrib]
    exact Finset.sum_congr rfl fun t _ => Finset.sum_congr rfl fun i _ => by ring
  rw [t1, t2]
  simp only [gradsOf]
  rw [ampPair_add, ← hamp, ← hamp, dist, dist, sum_cells _ hsrc, sum_cells _ hsrc]
  have alg : ∀ x1 x2 x3 x4 x5 x6 x7 x8 x9 y : ℝ, y = x4 + x6 →
      x1 + x2 + (x3 + x4) + (x5 + x6 + x7) + x8 + x9 = x1 + y + (x2 + x7) + (x3 + x5 + x8 + x9) := by
    intros
    subst_vars
    ring
  exact alg _ _ _ _ _ _ _ _ _ _ t3

/-- **C96**: the gradients of a call are the derivatives of its outputs, in every direction in which velocity,
scattering potential, source amplitudes and initial wavefields can change together.  `gr`, `grsc`, `g` and `gsc`
are the gradients of the background receiver amplitudes, receiver amplitudes, and final wavefields.  Tensors that
do not need gradients do not change. -/
theorem C96_born_gradients_exact (A : UArgs d) (P : Plan d) (cf : ℤ) (h : A.setup.plan = .ok P)
    (hmv : A.opts.maxVel ≠ none) (hr : P.ratio = 1) (hi : P.interval = 1) (hP : PmlOk P)
    (hcf : checkCallbackFrequency A.opts.callbackFreq = .ok cf) (hnb : 0 < P.nb)
    (hloc : ∀ s < P.nb, ∀ l, A.src = some l ∨ A.rcv = some l ∨ A.bgRcv = some l → WholeIgnored d l s)
    (full bcb : Bool) (gr grsc : ℕ → ℕ → ℕ → ℝ) (g gsc : ℕ → Wavefields d ℝ) (D : UDir d)
    (hv : A.gradV = true ∨ D.v = fun _ _ => 0) (hs : A.gradS = true ∨ D.scatter = fun _ _ => 0)
    (hfull : (A.gradV || full) = true ∨ D.amps = (fun _ _ _ => 0) ∧ D.wf = fun _ => Wavefields.zero d) :
    ∃ (u : ℝ → ℕ → UShot d) (b : ℕ → UGrad d),
      (∀ e, ∀ s < P.nb, (A.plus e D).born s = .ok (some (u e s))) ∧
      (∀ s < P.nb, A.backward s full bcb (gr s) (grsc s) (g s) (gsc s) = .ok (some (b s))) ∧
      HasDerivAt (fun e => ∑ s ∈ Finset.range P.nb, (u e s).pair A (outCells P) (gr s) (grsc s) (g s) (gsc s))
        (∑ j ∈ Finset.range (A.v.nb.getD 1), ∑ c ∈ box (fun _ => 0) A.v.shape, D.v j c * A.vGrad P b j c +
          ∑ j ∈ Finset.range (A.scatter.nb.getD 1), ∑ c ∈ box (fun _ => 0) A.scatter.shape,
            D.scatter j c * A.scatterGrad P b j c +
          ∑ s ∈ Finset.range P.nb, (ampPair A.amps (D.amps s) (b s).amps +
            (A.wf.givenOf (D.wf s)).inner (outCells P) (b s).wf +
            (A.wfsc.givenOf (D.wfsc s)).inner (outCells P) (b s).wfsc)) 0 := by
  rw [plan_ok] at h
  have hrun : ∀ s < P.nb, Runs A P s cf := fun s hs =>
    ⟨h, hs, hP, hloc s hs, hcf, by omega, by rw [hr, hi]; omega⟩
  have key : ∀ s, ∃ (u : ℝ → UShot d) (b : UGrad d), s < P.nb → (∀ e, (A.plus e D).born s = .ok (some (u e))) ∧
      A.backward s full bcb (gr s) (grsc s) (g s) (gsc s) = .ok (some b) ∧
      HasDerivAt (fun e => (u e).pair A (outCells P) (gr s) (grsc s) (g s) (gsc s))
        (∑ p ∈ box (fun _ => 0) (P.n false), padDir P false (A.v, .replicate) D.v s p * b.v p +
          ∑ p ∈ box (fun _ => 0) (P.n false), padDir P false (A.scatter, .constant) D.scatter s p * b.scatter p +
          (ampPair A.amps (D.amps s) b.amps + (A.wf.givenOf (D.wf s)).inner (outCells P) b.wf +
            (A.wfsc.givenOf (D.wfsc s)).inner (outCells P) b.wfsc)) 0 := fun s => by
    by_cases hs' : s < P.nb
    · obtain ⟨u, b, hub⟩ := shot_deriv (hrun s hs') hmv hr hi full bcb (gr s) (grsc s) (g s) (gsc s) D hv hs hfull
      exact ⟨u, b, fun _ => hub⟩
    · obtain ⟨u, b, -⟩ := shot_deriv (hrun 0 hnb) hmv hr hi full bcb (gr 0) (grsc 0) (g 0) (gsc 0) D hv hs hfull
      exact ⟨u, b, fun h => absurd h hs'⟩
  choose u b hub using key
  refine ⟨fun e s => u s e, b, fun e s hs => (hub s hs).1 e, fun s hs => (hub s hs).2.1, ?_⟩
  have hd : HasDerivAt (fun e => ∑ s ∈ Finset.range P.nb, (u s e).pair A (outCells P) (gr s) (grsc s) (g s) (gsc s))
      _ 0 := HasDerivAt.fun_sum fun s hs => (hub s (Finset.mem_range.1 hs)).2.2
  refine hd.congr_deriv ?_
  have hext := h.ext_lt hnb ⟨A.v, List.mem_cons_self⟩
  have m0 := modelGrad_adj h hnb hext (m := (A.v, .replicate)) List.mem_cons_self D.v fun s => (b s).v
  have m1 := modelGrad_adj h hnb hext (m := (A.scatter, .constant)) (List.mem_cons_of_mem _ List.mem_cons_self)
    D.scatter fun s => (b s).scatter
  rw [Finset.sum_add_distrib, Finset.sum_add_distrib]
  congr 1
  exact congrArg₂ (· + ·) m0.symm m1.symm

/-- **C97**: with any time step, the changes of the outputs from changes of source amplitudes and initial
wavefields are given by their gradients, exactly. -/
theorem C97_born_source_gradients (A : UArgs d) (P : Plan d) (cf : ℤ) (h : A.setup.plan = .ok P)
    (hi : 0 < P.interval) (hP : PmlOk P) (hcf : checkCallbackFrequency A.opts.callbackFreq = .ok cf)
    (hnt : P.ratio * P.interval ≤ P.nt ∨ P.nt ≤ 0) (s : ℕ) (hs : s < P.nb)
    (hloc : ∀ l, A.src = some l ∨ A.rcv = some l ∨ A.bgRcv = some l → WholeIgnored d l s)
    (full bcb : Bool) (gr grsc : ℕ → ℕ → ℝ) (g gsc : Wavefields d ℝ) (D : UDir d)
    (hv : D.v = fun _ _ => 0) (hsc : D.scatter = fun _ _ => 0)
    (hfull : (A.gradV || full) = true ∨ D.amps = (fun _ _ _ => 0) ∧ D.wf = fun _ => Wavefields.zero d) :
    ∃ (u : ℝ → UShot d) (b : UGrad d), (∀ e, (A.plus e D).born s = .ok (some (u e))) ∧
      A.backward s full bcb gr grsc g gsc = .ok (some b) ∧
      ∀ e, (u e).pair A (outCells P) gr grsc g gsc = (u 0).pair A (outCells P) gr grsc g gsc +
        e * (ampPair A.amps (D.amps s) b.amps + (A.wf.givenOf (D.wf s)).inner (outCells P) b.wf +
            (A.wfsc.givenOf (D.wfsc s)).inner (outCells P) b.wfsc) := by
  rw [plan_ok] at h
  have h : Runs A P s cf := ⟨h, hs, hP, hloc, hcf, hi, hnt⟩
  have hwf := h.wf
  have hr0 : 0 < (cfgOf (shotIn A.setup P A.opts.timeTaper s)).base.ratio := h.ratio
  have hcb : ∀ c : Bool, 0 < P.nt.toNat → 0 < (if c then some cf.toNat else none).getD
      (P.nt.toNat / (cfgOf (shotIn A.setup P A.opts.timeTaper s)).base.ratio) := fun c h1 =>
    cb_pos' c h.freq h.ratio h.nt h1
  have hu : ∀ e, ∃ r, (A.plus e D).born s = .ok (some r) ∧ r.pair A (outCells P) gr grsc g gsc =
      (cfgOf (shotIn A.setup P A.opts.timeTaper s)).obj
        P.nt.toNat (fun t i => downT P A.opts.timeTaper (gr i) t)
        (fun t i => downT P A.opts.timeTaper (grsc i) t) g gsc
        (scaleAmp (cfgOf (shotIn A.setup P A.opts.timeTaper s)).base
          fun t (i : Fin _) => upAmps P A.opts.timeTaper A.amps s t i +
            e * upAmps P A.opts.timeTaper (ampWith A.amps D.amps) s t i)
        (scaleAmpSc (cfgOf (shotIn A.setup P A.opts.timeTaper s))
          fun t (i : Fin _) => upAmps P A.opts.timeTaper A.amps s t i +
            e * upAmps P A.opts.timeTaper (ampWith A.amps D.amps) s t i)
        ((A.wf.zeroed s).plus e (A.wf.givenOf (D.wf s))) ((A.wfsc.zeroed s).plus e (A.wfsc.givenOf (D.wfsc s))) :=
    fun e => by
    obtain ⟨r, h1, h2⟩ := born_pair (h.plus_zero e D hv hsc) gr grsc g gsc
    refine ⟨r, h1, ?_⟩
    have e2 : (fun t (i : Fin ((shotIn A.setup P A.opts.timeTaper s).src 0).length) =>
        upAmps P (A.plus e D).opts.timeTaper (A.plus e D).amps s t i) = fun t (i : Fin _) =>
          upAmps P A.opts.timeTaper A.amps s t i + e * upAmps P A.opts.timeTaper (ampWith A.amps D.amps) s t i := by
      funext t i
      exact upAmps_plus' h.good A.opts.timeTaper A.amps e D.amps s t i
    rw [← UWf.plus_zeroed, ← UWf.plus_zeroed, ← e2]
    exact h2
  choose u hu1 hu2 using hu
  obtain ⟨r, hr1⟩ : ∃ r, (cfgOf (shotIn A.setup P A.opts.timeTaper s)).forward A.gradV A.gradS (A.opts.cb cf) P.nt.toNat
    (scaleAmp (cfgOf (shotIn A.setup P A.opts.timeTaper s)).base fun t i => upAmps P A.opts.timeTaper A.amps s t i)
    (scaleAmpSc (cfgOf (shotIn A.setup P A.opts.timeTaper s)) fun t i => upAmps P A.opts.timeTaper A.amps s t i)
    (A.wf.init s) (A.wfsc.init s) = .ok r := ⟨_, forward_eq hwf.base _ _ _ _ _ _ _ _ hr0 (hcb _)⟩
  obtain ⟨b, b', hb, hb', bgs, bgf, bout, bfull⟩ := BCfg.back_ok hwf hr0 A.gradV A.gradS full
    (if bcb then some cf.toNat else none) P.nt.toNat r.w r.wsc
    (fun t i => downT P A.opts.timeTaper (gr i) t) (fun t i => downT P A.opts.timeTaper (grsc i) t) g.toInit gsc.toInit
    (hcb _)
  have hq := backward_ok h (gradWith_ok (finite_of_pmlOk h.good h.pml false) hr1 hb)
  refine ⟨u, _, hu1, hq, fun e => ?_⟩
  have hobj := fun f fsc w wsc => BCfg.obj_eq hwf hr0 P.nt.toNat (fun t i => downT P A.opts.timeTaper (gr i) t)
    (fun t i => downT P A.opts.timeTaper (grsc i) t) g gsc f fsc w wsc (hcb bcb) hb'
  rw [hu2, hu2, hobj, hobj]
  have hamp := fun y => ampPair_eq' h.good A.opts.timeTaper s (j := 0) (a := A.amps) (o := A.src) rfl rfl
    (src_length h.good A.opts.timeTaper s (j := 0) rfl) D.amps y
  have ha'0 : D.amps = (fun _ _ _ => 0) → ∀ t (i : ℕ), upAmps P A.opts.timeTaper (ampWith A.amps D.amps) s t i = 0 :=
    fun h0 t i => by rw [h0]; exact upAmps_zero h.good _ _ _ _ _
  have huc : (cfgOf (shotIn A.setup P A.opts.timeTaper s)).base.userCells = outCells P := cfg_userCells 0 0 P s
  rw [← huc]
  clear hr1 hu1 hu2 hq huc hb hb' hobj
  generalize cfgOf (shotIn A.setup P A.opts.timeTaper s) = B at *
  generalize ((shotIn A.setup P A.opts.timeTaper s).src 0).length = ns at *
  set a : ℕ → Fin ns → ℝ := fun t i => upAmps P A.opts.timeTaper A.amps s t i with ha
  set a' : ℕ → Fin ns → ℝ := fun t i => upAmps P A.opts.timeTaper (ampWith A.amps D.amps) s t i with ha'
  have t1 : ∀ e, traceInner P.nt.toNat (scaleAmp B.base fun t i => a t i + e * a' t i) b'.gf =
      traceInner P.nt.toNat (scaleAmp B.base a) b'.gf + e * traceInner P.nt.toNat a'
        (fun t i => -(b.gf t i * gatherAt B.base.v (B.base.src i) ^ 2 * B.base.dt ^ 2)) := fun e => by
    have hz : traceInner P.nt.toNat a'
        (fun t i => -(b.gf t i * gatherAt B.base.v (B.base.src i) ^ 2 * B.base.dt ^ 2)) =
        traceInner P.nt.toNat a'
        (fun t i => -(b'.gf t i * gatherAt B.base.v (B.base.src i) ^ 2 * B.base.dt ^ 2)) := by
      rcases hfull with h0 | ⟨h0, -⟩
      · rw [bfull h0]
      · have h4 : a' = fun _ _ => 0 := funext fun t => funext fun i => ha'0 h0 t i
        rw [h4, traceInner_zero_left, traceInner_zero_left]
    rw [hz]
    simp only [traceInner, scaleAmp, Finset.mul_sum, ← Finset.sum_add_distrib]
    exact Finset.sum_congr rfl fun t _ => Finset.sum_congr rfl fun i _ => by ring
  have t2 : ∀ e, traceInner P.nt.toNat (scaleAmpSc B fun t i => a t i + e * a' t i) b'.gfsc =
      traceInner P.nt.toNat (scaleAmpSc B a) b'.gfsc + e * traceInner P.nt.toNat a'
        (fun t i => -2 * (b.gfsc t i * gatherAt B.base.v (B.base.src i) * gatherAt B.scatter (B.base.src i) *
          B.base.dt ^ 2)) := fun e => by
    rw [bgf]
    simp only [traceInner, scaleAmpSc, Finset.mul_sum, ← Finset.sum_add_distrib]
    exact Finset.sum_congr rfl fun t _ => Finset.sum_congr rfl fun i _ => by ring
  have hZ : (A.wf.givenOf (D.wf s)).inner B.base.userCells b'.out =
      (A.wf.givenOf (D.wf s)).inner B.base.userCells b.out := by
    rcases hfull with h0 | ⟨-, h0⟩
    · rw [bfull h0]
    · have : A.wf.givenOf (D.wf s) = Wavefields.zero d := by
        simp [h0, UWf.givenOf, Wavefields.zero]
      rw [this, Wavefields.zero_inner, Wavefields.zero_inner]
  simp only [gradsOf]
  rw [ampPair_add, ← hamp, ← hamp, t1 e, t1 0, t2 e, t2 0]
  simp only [Wavefields.inner_plus, hZ, bout]
  ring

end Dw.Born

/-! ### Examples -/

namespace Dw.Setup

/-- The options of `exO` with a time step that is short enough. -/
def exO1 (sp : SurveyPad) : Opts := {exO sp with dt := 1 / 1000}

noncomputable def exPl1 (st : Bool) (ext : Fin 2 → ℤ × ℤ) (ms : List (ModelT 2 ℝ × PadMode))
    (srcs rcvs : List (Option LocT)) : Plan 2 :=
  {exPl st ext ms srcs rcvs with dt := (1 / 1000 : ℚ) / (1 : ℤ), ratio := 1, nt := 5}

theorem exO1_good {sp : SurveyPad} {ext : Fin 2 → ℤ × ℤ} {st : Bool} {ms : List (ModelT 2 ℝ × PadMode)} {mv : ℝ}
    {amps : List (Option AmpT)} {srcs rcvs : List (Option LocT)} {wfs : List (Option (WfT 2))}
    (ha : ∀ a, some a ∈ amps → a = exAmp) (hnt : setNt none (amps.map (Option.map AmpT.nt)) 1 = .ok 5)
    (h : ((exO sp).setup st ms mv amps srcs rcvs wfs).Good (exPl st ext ms srcs rcvs)) :
    ((exO1 sp).setup st ms mv amps srcs rcvs wfs).Good (exPl1 st ext ms srcs rcvs) :=
  { h with
    cfl := by
      have := Scalar.exV_cfl
      simpa [exPl1, exPl, exO1, exO, Opts.setup] using this
    freq := by simp [exPl1, exPl, exO1, exO, Opts.setup, setPmlFreq]
    nt := hnt
    amps := checkAmps_ok.2 fun a ha' => by
      obtain rfl := ha a ha'
      exact ⟨rfl, rfl, by simp [Resample.validate, exPl1, exPl]⟩ }

end Dw.Setup

namespace Dw.Born

open Setup Resample
open Scalar

/-- `exU` with that time step, with gradients of the velocity or not. -/
noncomputable def exG (gv : Bool) : UArgs 2 := {exU .none with opts := exO1 .none, gradV := gv}

noncomputable def exGP : Plan 2 :=
  exPl1 false ![(0, 7), (0, 9)] (exU .none).setup.models (exU .none).setup.srcs (exU .none).setup.rcvs

theorem exG_good (gv : Bool) : (exG gv).setup.Good exGP :=
  exO1_good (fun a ha => by simpa [exG, exU] using ha) rfl exU_whole

theorem exU_locs {s : ℕ} (hs : s < 2) : ∀ l, (exU .none).src = some l ∨ (exU .none).rcv = some l ∨
    (exU .none).bgRcv = some l → WholeIgnored 2 l s := fun l hl => by
  refine exLoc_whole hs ?_
  rcases hl with hl | hl | hl <;> simp only [exU, Option.some.injEq, reduceCtorEq] at hl
  · exact hl.symm
  · exact hl.symm

/-- The gradient of the sum of the last scattered samples, in the direction of a larger velocity in one cell, a larger
scattering potential in another one, and a pulse in the second sample of the sources. -/
example : ∃ (u : ℝ → ℕ → UShot 2) (b : ℕ → UGrad 2) (x : ℝ),
    (∀ e, ∀ s < 2, ((exG true).plus e ⟨fun _ c => if c = ![3, 3] then 1 else 0, fun _ c => if c = ![2, 5] then 1 else 0,
      fun _ _ t => if t = 1 then 1 else 0, fun _ => Wavefields.zero 2, fun _ => Wavefields.zero 2⟩).born s =
        .ok (some (u e s))) ∧
    (∀ s < 2, (exG true).backward s false false (fun _ _ => 0) (fun _ t => if t = 4 then 1 else 0) (Wavefields.zero 2)
      (Wavefields.zero 2) = .ok (some (b s))) ∧
    HasDerivAt (fun e => ∑ s ∈ Finset.range 2, (u e s).pair (exG true) (outCells exGP) (fun _ _ => 0)
      (fun _ t => if t = 4 then 1 else 0) (Wavefields.zero 2) (Wavefields.zero 2)) x 0 := by
  obtain ⟨u, b, h1, h2, h3⟩ := C96_born_gradients_exact (exG true) exGP 1 (plan_ok.2 (exG_good true))
    (by simp [exG, exO1, exO]) rfl rfl (.inl (by norm_num [exGP, exPl1, exPl])) rfl (by norm_num [exGP, exPl1, exPl])
    (fun s hs => exU_locs hs) false false (fun _ _ _ => 0) (fun _ _ t => if t = 4 then 1 else 0)
    (fun _ => Wavefields.zero 2) (fun _ => Wavefields.zero 2)
    ⟨fun _ c => if c = ![3, 3] then 1 else 0, fun _ c => if c = ![2, 5] then 1 else 0,
      fun _ _ t => if t = 1 then 1 else 0, fun _ => Wavefields.zero 2, fun _ => Wavefields.zero 2⟩
    (.inl rfl) (.inl rfl) (.inl rfl)
  exact ⟨u, b, _, h1, h2, h3⟩

/-- Only the scattering potential needs a gradient. -/
example : ∃ (u : ℝ → ℕ → UShot 2) (b : ℕ → UGrad 2),
    (∀ s < 2, (exG false).backward s false false (fun _ _ => 0) (fun _ t => if t = 4 then 1 else 0) (Wavefields.zero 2)
      (Wavefields.zero 2) = .ok (some (b s))) ∧
    HasDerivAt (fun e => ∑ s ∈ Finset.range 2, (u e s).pair (exG false) (outCells exGP) (fun _ _ => 0)
      (fun _ t => if t = 4 then 1 else 0) (Wavefields.zero 2) (Wavefields.zero 2))
      ((exG false).scatterGrad exGP b 0 ![2, 5]) 0 := by
  obtain ⟨u, b, h1, h2, h3⟩ := C96_born_gradients_exact (exG false) exGP 1 (plan_ok.2 (exG_good false))
    (by simp [exG, exO1, exO]) rfl rfl (.inl (by norm_num [exGP, exPl1, exPl])) rfl (by norm_num [exGP, exPl1, exPl])
    (fun s hs => exU_locs hs) false false (fun _ _ _ => 0) (fun _ _ t => if t = 4 then 1 else 0)
    (fun _ => Wavefields.zero 2) (fun _ => Wavefields.zero 2)
    ⟨fun _ _ => 0, fun _ c => if c = ![2, 5] then 1 else 0,
      fun _ _ _ => 0, fun _ => Wavefields.zero 2, fun _ => Wavefields.zero 2⟩
    (.inr rfl) (.inl rfl) (.inr ⟨rfl, rfl⟩)
  refine ⟨u, b, h2, h3.congr_deriv ?_⟩
  have hz : (exG false).wf.givenOf (Wavefields.zero 2) = Wavefields.zero 2 := rfl
  have hz' : (exG false).wfsc.givenOf (Wavefields.zero 2) = Wavefields.zero 2 := rfl
  have ha : ∀ y, ampPair (exG false).amps (fun _ _ => 0) y = 0 := fun y => by
    simp [ampPair, exG, exU]
  have hm : (![2, 5] : Fin 2 → ℤ) ∈ box (fun _ => 0) (exG false).scatter.shape := mem_box.2 (by
    show ∀ k : Fin 2, 0 ≤ (![2, 5] : Fin 2 → ℤ) k ∧ (![2, 5] : Fin 2 → ℤ) k < (![7, 9] : Fin 2 → ℤ) k
    decide)
  have hn : (exG false).scatter.nb.getD 1 = 1 := rfl
  simp only [hz, hz', ha, Wavefields.zero_inner, zero_mul, Finset.sum_const_zero, zero_add, add_zero, hn,
    Finset.sum_range_one, ite_mul, one_mul, Finset.sum_ite_eq', hm, if_true]

/-- Three internal time steps per sample. -/
example : ∃ (u : ℝ → UShot 2) (b : UGrad 2),
    ((exU .none).plus 2 ⟨fun _ _ => 0, fun _ _ => 0, fun _ _ t => if t = 1 then 1 else 0,
      fun _ => Wavefields.zero 2, fun _ => Wavefields.zero 2⟩).born 1 = .ok (some (u 2)) ∧
    (exU .none).backward 1 false true (fun _ _ => 0) (fun _ t => if t = 4 then 1 else 0) (Wavefields.zero 2)
      (Wavefields.zero 2) = .ok (some b) ∧
    (u 2).pair (exU .none) (outCells (exP ![(0, 7), (0, 9)])) (fun _ _ => 0) (fun _ t => if t = 4 then 1 else 0)
        (Wavefields.zero 2) (Wavefields.zero 2) =
      (u 0).pair (exU .none) (outCells (exP ![(0, 7), (0, 9)])) (fun _ _ => 0) (fun _ t => if t = 4 then 1 else 0)
        (Wavefields.zero 2) (Wavefields.zero 2) +
      2 * ampPair (exU .none).amps (fun _ t => if t = 1 then 1 else 0) b.amps := by
  obtain ⟨u, b, h1, h2, h3⟩ := C97_born_source_gradients (exU .none) (exP ![(0, 7), (0, 9)]) 1 (plan_ok.2 exU_whole)
    (by norm_num [exP, exPl]) (.inl (by norm_num [exP, exPl])) rfl (.inl (by norm_num [exP, exPl])) 1
    (by norm_num [exP, exPl]) (exU_locs (by norm_num)) false true (fun _ _ => 0) (fun _ t => if t = 4 then 1 else 0)
    (Wavefields.zero 2) (Wavefields.zero 2)
    ⟨fun _ _ => 0, fun _ _ => 0, fun _ _ t => if t = 1 then 1 else 0, fun _ => Wavefields.zero 2,
      fun _ => Wavefields.zero 2⟩ rfl rfl (.inl rfl)
  refine ⟨u, b, h1 2, h2, (h3 2).trans ?_⟩
  have hz : (exU .none).wf.givenOf (Wavefields.zero 2) = Wavefields.zero 2 := rfl
  have hz' : (exU .none).wfsc.givenOf (Wavefields.zero 2) = Wavefields.zero 2 := rfl
  simp only [hz, hz', Wavefields.zero_inner, add_zero]

end Dw.Born
