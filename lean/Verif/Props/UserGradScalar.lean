import Verif.Scalar.UserGrad

/-!
# The gradients of a call of `scalar`

C94: with `max_vel` given (otherwise it is taken from the model, outside automatic differentiation) and a model
gradient sampling interval of one time step, the gradients of all tensors that can be differentiated are the
derivatives of the outputs.  C95: for any time step, the gradients of source amplitudes and initial wavefields
are exact.
-/

namespace Dw.Scalar

open Setup Resample

variable {d : ℕ}

/-- The plan of the call with arguments `x + e δ`. -/
noncomputable def UArgs.planPlus (A : UArgs d) (P : Plan d) (e : ℝ) (D : UDir d) : Plan d :=
  {P with models := [modelOf P.ext (padList (d := d) (padBegin P.accZ P.wL) (padEnd false P.accZ P.wL))
    ((A.plus e D).v, .replicate)]}

theorem plus_sizes (A : UArgs d) (e : ℝ) (D : UDir d) :
    [(A.plus e D).amps].map (Option.map AmpT.size) = [A.amps].map (Option.map AmpT.size) ∧
    (A.plus e D).setup.wfs.map (Option.map WfT.size) = A.setup.wfs.map (Option.map WfT.size) := by
  constructor
  · cases h : A.amps <;> simp [UArgs.plus, h, plusAmp, AmpT.size]
  · have key : ∀ (w : Option (WfT d)) (δ : ℕ → Fld d ℝ),
        (w.map fun w => plusWf e w δ).map WfT.size = w.map WfT.size := by
      intro w δ
      cases w <;> simp [plusWf, WfT.size]
    simp only [UArgs.setup, UArgs.plus, List.map_append, List.map_cons, List.map_nil, List.map_ofFn,
      Function.comp_def, key]

theorem plus_good {A : UArgs d} {P : Plan d} (h : A.setup.Good P) (hnb : 0 < P.nb) (hmv : A.maxVel ≠ none) (e : ℝ)
    (D : UDir d) : (A.plus e D).setup.Good (A.planPlus P e D) := by
  obtain ⟨h1, h2⟩ := plus_sizes A e D
  refine ((h.withModels (ms := [((A.plus e D).v, .replicate)]) (mv := maxAbs (A.plus e D).v) hnb rfl ?_).revalue
    (amps := [(A.plus e D).amps]) (wfs := (A.plus e D).setup.wfs) h1 h2)
  have := h.maxVel
  unfold setMaxVelR at this ⊢
  cases hm : A.maxVel with
  | none => exact absurd hm hmv
  | some x =>
      simp only [UArgs.setup, hm] at this ⊢
      exact this

theorem plus_good_zero {A : UArgs d} {P : Plan d} (h : A.setup.Good P) (e : ℝ)
    (D : UDir d) (hD : D.v = fun _ _ => 0) : (A.plus e D).setup.Good P := by
  obtain ⟨h1, h2⟩ := plus_sizes A e D
  have hv : (A.plus e D).v = A.v := by
    simp only [UArgs.plus, hD, mul_zero, add_zero]
    rfl
  have := h.revalue (amps := [(A.plus e D).amps]) (wfs := (A.plus e D).setup.wfs) h1 h2
  rw [show (A.plus e D).setup = {A.setup with amps := [(A.plus e D).amps], wfs := (A.plus e D).setup.wfs} by
    rw [show (A.plus e D).setup = {(A.plus e D).setup with models := [((A.plus e D).v, .replicate)], maxModelVel := maxAbs (A.plus e D).v} from rfl, hv]
    rfl]
  exact this

/-- The direction of the padded model of a shot. -/
noncomputable def UArgs.padDir (A : UArgs d) (P : Plan d) (D : UDir d) (s : ℕ) : Fld d ℝ :=
  (modelOf P.ext (padList (d := d) (padBegin P.accZ P.wL) (padEnd false P.accZ P.wL))
    (A.v.withVal D.v, .replicate)).val (if A.v.nb.getD 1 = 1 then 0 else s)

theorem cfg_plus {A : UArgs d} {P : Plan d} (h : A.setup.Good P) (hnb : 0 < P.nb) (ns nr : ℕ) (e : ℝ) (D : UDir d)
    (s : ℕ) : cfg ns nr (A.planPlus P e D) s = (cfg ns nr P s).pert (A.padDir P D s) e := by
  have h2 := ((extractModels_iff hnb).1 h.models).2
  unfold Cfg.pert cfg
  congr 1
  funext c
  show shotModel _ 0 s c = shotModel P.models 0 s c + e * _
  rw [h2]
  exact modelOf_plus _ _ _ _ _ _ _ _

theorem upAmps_plus {A : SetupArgs d} {P : Plan d} (h : A.Good P) (tt : Bool) (a : Option AmpT) (e : ℝ)
    (δ : ℕ → ℕ → ℕ → ℝ) (s t i : ℕ) :
    upAmps P tt (a.map fun a => plusAmp e a δ) s t i = upAmps P tt a s t i +
      e * upAmps P tt (a.map fun a => {a with val := δ}) s t i := by
  cases a with
  | none => simp [upAmps]
  | some a =>
      have := upS_comb h tt 1 e ⟨a.nt, a.val s i⟩ ⟨a.nt, δ s i⟩ rfl
      have := congrArg (fun x : Sig ℝ => x.val t) this
      simp only [Sig.comb, one_mul] at this
      exact this

theorem amps_n {A : UArgs d} {P : Plan d} (h : A.setup.Good P) {a : AmpT} (ha : A.amps = some a) :
    a.n = (locAt P.srcs 0).n ∧ P.nt = a.nt * P.ratio := by
  constructor
  · have h1 := h.ampsMatch
    have h2 := (extractLocations_iff.1 h.srcs).2
    have e1 : locAt P.srcs 0 = idxOpt P.ext (padBegin P.accZ P.wL) (padEnd false P.accZ P.wL) P.nb A.src := by
      rw [h2]; rfl
    rw [e1]
    unfold checkAmpsMatch at h1
    cases hs : A.src with
    | none => simp [UArgs.setup, ha, hs, firstErr] at h1
    | some l =>
        simp only [UArgs.setup, ha, hs, List.map_cons, Option.map_some, List.map_nil, List.length_cons,
          List.length_nil, ne_eq, not_true_eq_false, if_false, List.zip_cons_cons, List.zip_nil_right,
          firstErr_ok] at h1
        have := raiseIf_ok.1 (h1 _ (List.mem_singleton.2 rfl))
        exact not_not.1 this
  · exact (checkAmps_ok.1 h.amps a (by simp [UArgs.setup, ha])).2.1.symm

/-- The gradient with respect to the amplitudes, through their scaling and `upsample`. -/
theorem ampPair_eq {A : UArgs d} {P : Plan d} (h : A.setup.Good P) (s : ℕ) (δ : ℕ → ℕ → ℕ → ℝ)
    (gf : ℕ → Fin (locAt P.srcs 0).n → ℝ) (X : Fin (locAt P.srcs 0).n → ℝ) (c : ℝ) :
    traceInner P.nt.toNat
      (fun t i => -upAmps P A.timeTaper (A.amps.map fun a => {a with val := δ}) s t i * X i * c) gf =
      A.ampPair (δ s) fun i => upT P A.timeTaper ((A.amps.map AmpT.nt).getD 0) fun t =>
        if h : i < (locAt P.srcs 0).n then -(gf t ⟨i, h⟩ * X ⟨i, h⟩ * c) else 0 := by
  unfold UArgs.ampPair
  cases ha : A.amps with
  | none => simp [traceInner, upAmps]
  | some a =>
      obtain ⟨hn, hnt⟩ := amps_n h ha
      simp only [hn, Option.map_some, Option.getD_some]
      rw [← Fin.sum_univ_eq_sum_range (fun i => ∑ t ∈ Finset.range a.nt, δ s i t * upT P A.timeTaper a.nt (fun t =>
        if h : i < (locAt P.srcs 0).n then -(gf t ⟨i, h⟩ * X ⟨i, h⟩ * c) else 0) t)]
      simp only [traceInner]
      rw [Finset.sum_comm]
      refine Finset.sum_congr rfl fun i _ => ?_
      rw [← upT_adj h A.timeTaper hnt]
      refine Finset.sum_congr rfl fun t _ => ?_
      simp only [i.isLt, dif_pos, upAmps, Fin.eta]
      ring

open Classical in
theorem shotGrad_ok {A : UArgs d} {P : Plan d} {cf : ℤ} {s : ℕ} {bcb : Bool} {gr : ℕ → ℕ → ℝ} {g : Wavefields d ℝ}
    (h : A.setup.Good P) (hs : s < P.nb) (hP : PmlOk P) (hcf : checkCallbackFrequency A.callbackFreq = .ok cf)
    {r : FwdResult d (locAt P.rcvs 0).n ℝ} {b : BwdResult d (locAt P.srcs 0).n ℝ}
    (hf : (cfg (locAt P.srcs 0).n (locAt P.rcvs 0).n P s).forward A.grad
      (if A.callback then some cf.toNat else none) P.nt.toNat
      (Born.scaleAmp (cfg (locAt P.srcs 0).n (locAt P.rcvs 0).n P s) fun t i => upAmps P A.timeTaper A.amps s t i)
      (A.init s) = .ok r)
    (hb : (cfg (locAt P.srcs 0).n (locAt P.rcvs 0).n P s).backward A.grad
      (if bcb then some cf.toNat else none) P.nt.toNat r.store
      (fun t i => downT P A.timeTaper (gr i) t) g.toInit = .ok b) :
    ∃ q, A.backward s bcb gr g = .ok (some q) ∧
      let C := cfg (locAt P.srcs 0).n (locAt P.rcvs 0).n P s
      q = { v := fun p => b.gv p + ∑ t ∈ Finset.range P.nt.toNat, ∑ i,
              if ((C.src i).getD fun _ => 0) = p then b.gf t i * (-upAmps P A.timeTaper A.amps s t i * (2 * C.v p) *
                C.dt ^ 2) else 0
            amps := fun i => upT P A.timeTaper ((A.amps.map AmpT.nt).getD 0) fun t =>
              if h : i < (locAt P.srcs 0).n then -(b.gf t ⟨i, h⟩ * Born.gatherAt C.v (C.src ⟨i, h⟩) ^ 2 * C.dt ^ 2) else 0
            wf := b.out } := by
  have hne : ¬NoElements A.v := by
    have hnb : 0 < P.nb := by omega
    have hm := ((extractModels_iff hnb).1 h.models).1 (A.v, .replicate) (by simp [UArgs.setup])
    rintro (h1 | ⟨k, h1⟩)
    · rcases hm.batch with h2 | h2
      · simp only at h2; omega
      · simp only at h2; omega
    · have := h.shape_pos.2 k
      have h3 : A.setup.shape k = A.v.shape k := rfl
      omega
  refine ⟨_, ?_, rfl⟩
  unfold UArgs.backward
  rw [raiseIf_ok.2 hne, plan_ok.2 h, hcf]
  simp only [bind, Except.bind, UArgs.shotGrad]
  rw [hf]
  simp only
  rw [hb]
  simp only [pure, Except.pure, if_pos (finite_of_pmlOk h hP false)]

theorem callback_pos {x : PyNum} {cf : ℤ} (h : checkCallbackFrequency x = .ok cf) : 0 < cf := by
  unfold checkCallbackFrequency at h
  split at h
  · split_ifs at h with h1
    cases h
    omega
  · cases h

/-- The cell whose velocity scales a source is one of the padded model. -/
theorem src_modelCells {ns nr : ℕ} {C : Cfg d ns nr ℝ} (h : C.WF) (i : Fin ns) :
    ((C.src i).getD fun _ => 0) ∈ C.modelCells := by
  unfold Cfg.modelCells
  rw [mem_box]
  intro k
  have h1 := h.w0_nonneg k
  have h2 := h.w1_nonneg k
  have h3 := h.size k
  have h4 : 0 < (C.acc.pad : ℤ) := by cases C.acc <;> decide
  cases hc : C.src i with
  | none => simp only [Option.getD_none]; omega
  | some c =>
      have := h.src_in i c hc k
      simp only [Option.getD_some]
      omega

/-- The derivative for one shot. -/
theorem shot_deriv {A : UArgs d} {P : Plan d} {cf : ℤ} (h : A.setup.Good P) (hmv : A.maxVel ≠ none)
    (hg : A.grad = true) (hr : P.ratio = 1) (hi : P.interval = 1) (hP : PmlOk P)
    (hcf : checkCallbackFrequency A.callbackFreq = .ok cf) {s : ℕ} (hs : s < P.nb)
    (hsrc : ∀ l, A.src = some l → WholeIgnored d l s) (hrcv : ∀ l, A.rcv = some l → WholeIgnored d l s)
    (bcb : Bool) (gr : ℕ → ℕ → ℝ) (g : Wavefields d ℝ) (D : UDir d) :
    ∃ (u : ℝ → UShot d) (b : UGrad d), (∀ e, (A.plus e D).scalar s = .ok (some (u e))) ∧
      A.backward s bcb gr g = .ok (some b) ∧
      HasDerivAt (fun e => (u e).pair A.nRcv (outCells P) gr g)
        (∑ p ∈ box (fun _ => 0) (P.n false), A.padDir P D s p * b.v p +
          (A.ampPair (D.amps s) b.amps + (A.givenOf (D.wf s)).inner (outCells P) b.wf)) 0 := by
  classical
  have hnb : 0 < P.nb := by omega
  have hwf := cfg_wf h hs hP hsrc hrcv
  have hcf0 := callback_pos hcf
  have hC1 : (cfg (locAt P.srcs 0).n (locAt P.rcvs 0).n P s).ratio = 1 := by
    show (P.ratio * P.interval).toNat = 1
    rw [hr, hi]
    rfl
  have hcb : ∀ c : Bool, 0 < P.nt.toNat → 0 < (if c then some cf.toNat else none).getD P.nt.toNat := fun c h1 => by
    cases c
    · simpa using h1
    · simp only [if_true, Option.getD_some]; omega
  have hcb' : ∀ c : Bool, 0 < P.nt.toNat → 0 < (if c then some cf.toNat else none).getD
      (P.nt.toNat / (cfg (locAt P.srcs 0).n (locAt P.rcvs 0).n P s).ratio) := fun c h1 => by
    rw [hC1, Nat.div_one]
    exact hcb c h1
  -- the calls
  have hu : ∀ e, ∃ r, (A.plus e D).scalar s = .ok (some r) ∧
      r.pair A.nRcv (outCells P) gr g =
        ((cfg (locAt P.srcs 0).n (locAt P.rcvs 0).n P s).pert (A.padDir P D s) e).obj P.nt.toNat
          (fun t i => downT P A.timeTaper (gr i) t) g
          (Born.scaleAmp ((cfg (locAt P.srcs 0).n (locAt P.rcvs 0).n P s).pert (A.padDir P D s) e) fun t (i : Fin _) =>
            upAmps P A.timeTaper A.amps s t i +
              e * upAmps P A.timeTaper (A.amps.map fun a => {a with val := D.amps}) s t i)
          ((A.wf0 s).plus e (A.givenOf (D.wf s))) := fun e => by
    obtain ⟨r, h1, h2⟩ := scalar_pair (A := A.plus e D) (P := A.planPlus P e D) (plus_good h hnb hmv e D) hs hP
      hsrc hrcv hcf (by show 0 < P.interval; omega)
      (by
        right
        show P.ratio * P.interval ≤ P.nt ∨ P.nt ≤ 0
        rw [hr, hi]
        omega) gr g
    refine ⟨r, h1, ?_⟩
    have e1 := cfg_plus h hnb (locAt P.srcs 0).n (locAt P.rcvs 0).n e D s
    have e2 : (fun t (i : Fin (locAt P.srcs 0).n) => upAmps (A.planPlus P e D) (A.plus e D).timeTaper
        (A.plus e D).amps s t i) = fun t (i : Fin _) => upAmps P A.timeTaper A.amps s t i +
          e * upAmps P A.timeTaper (A.amps.map fun a => {a with val := D.amps}) s t i := by
      funext t i
      exact upAmps_plus h A.timeTaper A.amps e D.amps s t i
    rw [← plus_wf0, ← e2, ← e1]
    exact h2
  choose u hu1 hu2 using hu
  -- the backward pass
  have hF := (cfg (locAt P.srcs 0).n (locAt P.rcvs 0).n P s).forward_eq hwf A.grad
    (if A.callback then some cf.toNat else none) P.nt.toNat
    (Born.scaleAmp (cfg (locAt P.srcs 0).n (locAt P.rcvs 0).n P s) fun t i => upAmps P A.timeTaper A.amps s t i)
    (A.init s) (by omega) (hcb' _)
  obtain ⟨r, hr1⟩ : ∃ r, (cfg (locAt P.srcs 0).n (locAt P.rcvs 0).n P s).forward A.grad
    (if A.callback then some cf.toNat else none) P.nt.toNat
    (Born.scaleAmp (cfg (locAt P.srcs 0).n (locAt P.rcvs 0).n P s) fun t i => upAmps P A.timeTaper A.amps s t i)
    (A.init s) = .ok r := ⟨_, hF⟩
  obtain ⟨b, hb⟩ : ∃ b, (cfg (locAt P.srcs 0).n (locAt P.rcvs 0).n P s).backward A.grad
      (if bcb then some cf.toNat else none) P.nt.toNat r.store
      (fun t i => downT P A.timeTaper (gr i) t) g.toInit = .ok b :=
    ⟨_, (cfg (locAt P.srcs 0).n (locAt P.rcvs 0).n P s).backward_eq hwf A.grad _ _ _ _ _ (by omega) (hcb' _)⟩
  obtain ⟨q, hq, eq⟩ := shotGrad_ok h hs hP hcf hr1 hb
  refine ⟨u, q, hu1, hq, ?_⟩
  simp only [hu2]
  have hF' : (cfg (locAt P.srcs 0).n (locAt P.rcvs 0).n P s).forward A.grad
      (if A.callback then some cf.toNat else none) P.nt.toNat
      (Born.scaleAmp (cfg (locAt P.srcs 0).n (locAt P.rcvs 0).n P s) fun t i => upAmps P A.timeTaper A.amps s t i)
      (A.wf0 s).toInit = .ok r := by
    rw [← hr1, hF, (cfg (locAt P.srcs 0).n (locAt P.rcvs 0).n P s).forward_eq hwf A.grad _ _ _ _ (by omega) (hcb' _),
      start_wf0]
  have hamp := fun X c => ampPair_eq h s D.amps b.gf X c
  have huc := cfg_userCells (locAt P.srcs 0).n (locAt P.rcvs 0).n P s
  have hmc : (cfg (locAt P.srcs 0).n (locAt P.rcvs 0).n P s).modelCells = box (fun _ => 0) (P.n false) := rfl
  rw [hg] at hF' hb
  simp only at eq
  rw [← huc, ← hmc]
  clear hr1 hF hu1 hu2 hq huc hmc
  generalize cfg (locAt P.srcs 0).n (locAt P.rcvs 0).n P s = C at *
  set a : ℕ → Fin (locAt P.srcs 0).n → ℝ := fun t i => upAmps P A.timeTaper A.amps s t i with ha
  set a' : ℕ → Fin (locAt P.srcs 0).n → ℝ := fun t i => upAmps P A.timeTaper (A.amps.map fun a => {a with val := D.amps}) s t i with ha'
  set δ := A.padDir P D s with hδ
  have hd := Cfg.obj_deriv_all hwf hC1 P.nt.toNat (fun t i => downT P A.timeTaper (gr i) t) g
    (fun e => Born.scaleAmp (C.pert δ e) fun t i => a t i + e * a' t i)
    (fun t i => -a' t i * Born.gatherAt C.v (C.src i) ^ 2 * C.dt ^ 2 +
      -a t i * (2 * Born.gatherAt C.v (C.src i) * Born.gatherAt δ (C.src i)) * C.dt ^ 2)
    (fun t i => by
      have h1 : HasDerivAt (fun e => -(a t i + e * a' t i)) (-a' t i) 0 := by
        have := (((hasDerivAt_id (0 : ℝ)).mul_const (a' t i)).const_add (a t i)).fun_neg
        simpa only [id, one_mul] using this
      have h2 : HasDerivAt (fun e => (Born.gatherAt C.v (C.src i) + e * Born.gatherAt δ (C.src i)) ^ 2)
          (2 * Born.gatherAt C.v (C.src i) * Born.gatherAt δ (C.src i)) 0 := by
        have := (((hasDerivAt_id (0 : ℝ)).mul_const (Born.gatherAt δ (C.src i))).const_add
          (Born.gatherAt C.v (C.src i))).fun_pow 2
        simpa using this
      have h3 := (h1.mul h2).mul_const (C.dt ^ 2)
      refine HasDerivAt.congr_deriv (f := fun e => Born.scaleAmp (C.pert δ e) (fun t i => a t i + e * a' t i) t i)
        h3 ?_
      ring)
    (A.wf0 s) (A.givenOf (D.wf s)) δ (hcb A.callback) (hcb bcb)
    (by
      have e0 : (Born.scaleAmp (C.pert δ 0) fun t i => a t i + 0 * a' t i) = Born.scaleAmp C a := by
        rw [C.pert_zero]
        simp
      simp only [e0]
      exact hF') hb
  refine hd.congr_deriv ?_
  rw [eq]
  simp only [mul_add, Finset.sum_add_distrib]
  rw [← hamp (fun i => Born.gatherAt C.v (C.src i) ^ 2) (C.dt ^ 2)]
  have e1 : traceInner P.nt.toNat (fun t i => -a' t i * Born.gatherAt C.v (C.src i) ^ 2 * C.dt ^ 2 +
      -a t i * (2 * Born.gatherAt C.v (C.src i) * Born.gatherAt δ (C.src i)) * C.dt ^ 2) b.gf =
      traceInner P.nt.toNat (fun t i => -a' t i * Born.gatherAt C.v (C.src i) ^ 2 * C.dt ^ 2) b.gf +
      traceInner P.nt.toNat (fun t i => -a t i * (2 * Born.gatherAt C.v (C.src i) * Born.gatherAt δ (C.src i)) *
        C.dt ^ 2) b.gf := by
    simp only [traceInner, add_mul, Finset.sum_add_distrib]
  have e2 : ∑ x ∈ C.modelCells, δ x * ∑ t ∈ Finset.range P.nt.toNat, ∑ i,
      (if ((C.src i).getD fun _ => 0) = x then b.gf t i * (-a t i * (2 * C.v x) * C.dt ^ 2) else 0) =
      traceInner P.nt.toNat (fun t i => -a t i * (2 * Born.gatherAt C.v (C.src i) * Born.gatherAt δ (C.src i)) *
        C.dt ^ 2) b.gf := by
    simp only [Finset.mul_sum, traceInner]
    rw [Finset.sum_comm]
    refine Finset.sum_congr rfl fun t _ => ?_
    rw [Finset.sum_comm]
    refine Finset.sum_congr rfl fun i _ => ?_
    simp only [mul_ite, mul_zero]
    rw [Finset.sum_ite_eq, if_pos (src_modelCells hwf i)]
    simp only [Born.gatherAt]
    ring
  rw [e1, e2]
  ring

/-- **C94**: the gradients of a call are the derivatives of its outputs, in every direction in which velocity,
source amplitudes and initial wavefields can change together.  `gr` and `g` are the gradients of the receiver
amplitudes and of the final wavefields. -/
theorem C94_gradients_exact (A : UArgs d) (P : Plan d) (cf : ℤ) (h : A.setup.plan = .ok P)
    (hmv : A.maxVel ≠ none) (hg : A.grad = true) (hr : P.ratio = 1) (hi : P.interval = 1) (hP : PmlOk P)
    (hcf : checkCallbackFrequency A.callbackFreq = .ok cf) (hnb : 0 < P.nb)
    (hsrc : ∀ s < P.nb, ∀ l, A.src = some l → WholeIgnored d l s)
    (hrcv : ∀ s < P.nb, ∀ l, A.rcv = some l → WholeIgnored d l s)
    (bcb : Bool) (gr : ℕ → ℕ → ℕ → ℝ) (g : ℕ → Wavefields d ℝ) (D : UDir d) :
    ∃ (u : ℝ → ℕ → UShot d) (b : ℕ → UGrad d),
      (∀ e, ∀ s < P.nb, (A.plus e D).scalar s = .ok (some (u e s))) ∧
      (∀ s < P.nb, A.backward s bcb (gr s) (g s) = .ok (some (b s))) ∧
      HasDerivAt (fun e => ∑ s ∈ Finset.range P.nb, (u e s).pair A.nRcv (outCells P) (gr s) (g s))
        (∑ j ∈ Finset.range (A.v.nb.getD 1), ∑ c ∈ box (fun _ => 0) A.v.shape, D.v j c * A.vGrad P b j c +
          ∑ s ∈ Finset.range P.nb, (A.ampPair (D.amps s) (b s).amps +
            (A.givenOf (D.wf s)).inner (outCells P) (b s).wf)) 0 := by
  rw [plan_ok] at h
  have key : ∀ s, ∃ (u : ℝ → UShot d) (b : UGrad d), s < P.nb → (∀ e, (A.plus e D).scalar s = .ok (some (u e))) ∧
      A.backward s bcb (gr s) (g s) = .ok (some b) ∧
      HasDerivAt (fun e => (u e).pair A.nRcv (outCells P) (gr s) (g s))
        (∑ p ∈ box (fun _ => 0) (P.n false), A.padDir P D s p * b.v p +
          (A.ampPair (D.amps s) b.amps + (A.givenOf (D.wf s)).inner (outCells P) b.wf)) 0 := fun s => by
    by_cases hs : s < P.nb
    · obtain ⟨u, b, hub⟩ := shot_deriv h hmv hg hr hi hP hcf hs (hsrc s hs) (hrcv s hs) bcb (gr s) (g s) D
      exact ⟨u, b, fun _ => hub⟩
    · obtain ⟨u, b, -⟩ := shot_deriv h hmv hg hr hi hP hcf hnb (hsrc 0 hnb) (hrcv 0 hnb) bcb (gr 0) (g 0) D
      exact ⟨u, b, fun h => absurd h hs⟩
  choose u b hub using key
  refine ⟨fun e s => u s e, b, fun e s hs => (hub s hs).1 e, fun s hs => (hub s hs).2.1, ?_⟩
  have hd : HasDerivAt (fun e => ∑ s ∈ Finset.range P.nb, (u s e).pair A.nRcv (outCells P) (gr s) (g s)) _ 0 :=
    HasDerivAt.fun_sum fun s hs => (hub s (Finset.mem_range.1 hs)).2.2
  refine hd.congr_deriv ?_
  rw [Finset.sum_add_distrib]
  congr 1
  have hbatch := (((extractModels_iff hnb).1 h.models).1 (A.v, .replicate) (by simp [UArgs.setup])).batch
  have e1 := shotsT_adj A.v.nb P.nb hbatch (box (fun _ => 0) (P.n false))
    (modelOf P.ext (padList (d := d) (padBegin P.accZ P.wL) (padEnd false P.accZ P.wL))
      (A.v.withVal D.v, .replicate)).val fun s => (b s).v
  refine Eq.trans ?_ (e1.symm.trans ?_)
  · rfl
  · refine Finset.sum_congr rfl fun j _ => ?_
    exact (extractModelT_adj h hnb (fun k => UArgs.Good.ext_lt h hnb k) (m := A.v) (mode := .replicate)
      (by simp [UArgs.setup]) D.v j _).symm

/-- **C95**: with any time step, the changes of the outputs from changes of source amplitudes and initial
wavefields are given by their gradients, exactly. -/
theorem C95_source_gradients (A : UArgs d) (P : Plan d) (cf : ℤ) (h : A.setup.plan = .ok P)
    (hi : 0 < P.interval) (hP : PmlOk P) (hcf : checkCallbackFrequency A.callbackFreq = .ok cf)
    (hnt : P.ratio * P.interval ≤ P.nt ∨ P.nt ≤ 0) (s : ℕ) (hs : s < P.nb)
    (hsrc : ∀ l, A.src = some l → WholeIgnored d l s) (hrcv : ∀ l, A.rcv = some l → WholeIgnored d l s)
    (bcb : Bool) (gr : ℕ → ℕ → ℝ) (g : Wavefields d ℝ) (D : UDir d) (hD : D.v = fun _ _ => 0) :
    ∃ (u : ℝ → UShot d) (b : UGrad d), (∀ e, (A.plus e D).scalar s = .ok (some (u e))) ∧
      A.backward s bcb gr g = .ok (some b) ∧
      ∀ e, (u e).pair A.nRcv (outCells P) gr g = (u 0).pair A.nRcv (outCells P) gr g +
        e * (A.ampPair (D.amps s) b.amps + (A.givenOf (D.wf s)).inner (outCells P) b.wf) := by
  classical
  rw [plan_ok] at h
  have hwf := cfg_wf h hs hP hsrc hrcv
  have hcf0 := callback_pos hcf
  have hrp := SetupGood.ratio_pos h
  have hC0 : 0 < (cfg (locAt P.srcs 0).n (locAt P.rcvs 0).n P s).ratio := by
    show 0 < (P.ratio * P.interval).toNat
    have : 0 < P.ratio * P.interval := mul_pos (by omega) hi
    omega
  have hcb : ∀ c : Bool, 0 < P.nt.toNat → 0 < (if c then some cf.toNat else none).getD
      (P.nt.toNat / (cfg (locAt P.srcs 0).n (locAt P.rcvs 0).n P s).ratio) := fun c h1 => by
    cases c
    · simp only [Bool.false_eq_true, if_false, Option.getD_none]
      refine Nat.div_pos ?_ hC0
      show (P.ratio * P.interval).toNat ≤ _
      omega
    · simp only [if_true, Option.getD_some]; omega
  have hu : ∀ e, ∃ r, (A.plus e D).scalar s = .ok (some r) ∧
      r.pair A.nRcv (outCells P) gr g =
        (cfg (locAt P.srcs 0).n (locAt P.rcvs 0).n P s).obj P.nt.toNat
          (fun t i => downT P A.timeTaper (gr i) t) g
          (Born.scaleAmp (cfg (locAt P.srcs 0).n (locAt P.rcvs 0).n P s) fun t (i : Fin _) =>
            upAmps P A.timeTaper A.amps s t i +
              e * upAmps P A.timeTaper (A.amps.map fun a => {a with val := D.amps}) s t i)
          ((A.wf0 s).plus e (A.givenOf (D.wf s))) := fun e => by
    obtain ⟨r, h1, h2⟩ := scalar_pair (A := A.plus e D) (plus_good_zero h e D hD) hs hP hsrc hrcv hcf hi
      (.inr hnt) gr g
    refine ⟨r, h1, ?_⟩
    have e2 : (fun t (i : Fin (locAt P.srcs 0).n) => upAmps P (A.plus e D).timeTaper
        (A.plus e D).amps s t i) = fun t (i : Fin _) => upAmps P A.timeTaper A.amps s t i +
          e * upAmps P A.timeTaper (A.amps.map fun a => {a with val := D.amps}) s t i := by
      funext t i
      exact upAmps_plus h A.timeTaper A.amps e D.amps s t i
    rw [← plus_wf0, ← e2]
    exact h2
  choose u hu1 hu2 using hu
  obtain ⟨r, hr1⟩ : ∃ r, (cfg (locAt P.srcs 0).n (locAt P.rcvs 0).n P s).forward A.grad
    (if A.callback then some cf.toNat else none) P.nt.toNat
    (Born.scaleAmp (cfg (locAt P.srcs 0).n (locAt P.rcvs 0).n P s) fun t i => upAmps P A.timeTaper A.amps s t i)
    (A.init s) = .ok r :=
    ⟨_, (cfg (locAt P.srcs 0).n (locAt P.rcvs 0).n P s).forward_eq hwf A.grad _ _ _ _ hC0 (hcb _)⟩
  obtain ⟨b, hb⟩ : ∃ b, (cfg (locAt P.srcs 0).n (locAt P.rcvs 0).n P s).backward A.grad
      (if bcb then some cf.toNat else none) P.nt.toNat r.store
      (fun t i => downT P A.timeTaper (gr i) t) g.toInit = .ok b :=
    ⟨_, (cfg (locAt P.srcs 0).n (locAt P.rcvs 0).n P s).backward_eq hwf A.grad _ _ _ _ _ hC0 (hcb _)⟩
  obtain ⟨q, hq, eq⟩ := shotGrad_ok h hs hP hcf hr1 hb
  refine ⟨u, q, hu1, hq, fun e => ?_⟩
  rw [hu2, hu2]
  have hobj := fun f w => Cfg.obj_eq hwf hC0 P.nt.toNat (fun t i => downT P A.timeTaper (gr i) t) g f w (hcb bcb) hb
  have hamp := ampPair_eq h s D.amps b.gf (fun i => Born.gatherAt (cfg (locAt P.srcs 0).n (locAt P.rcvs 0).n P s).v
    ((cfg (locAt P.srcs 0).n (locAt P.rcvs 0).n P s).src i) ^ 2) ((cfg (locAt P.srcs 0).n (locAt P.rcvs 0).n P s).dt ^ 2)
  rw [hobj, hobj, eq]
  simp only
  rw [← hamp, ← cfg_userCells (locAt P.srcs 0).n (locAt P.rcvs 0).n P s]
  have e1 : ∀ (C : Cfg d (locAt P.srcs 0).n (locAt P.rcvs 0).n ℝ) (a a' : ℕ → Fin (locAt P.srcs 0).n → ℝ) (e : ℝ),
      traceInner P.nt.toNat (Born.scaleAmp C fun t i => a t i + e * a' t i) b.gf =
        traceInner P.nt.toNat (Born.scaleAmp C a) b.gf + e * traceInner P.nt.toNat (fun t i => -a' t i *
          Born.gatherAt C.v (C.src i) ^ 2 * C.dt ^ 2) b.gf := fun C a a' e => by
    simp only [traceInner, Born.scaleAmp, Finset.mul_sum]
    rw [← Finset.sum_add_distrib]
    refine Finset.sum_congr rfl fun t _ => ?_
    rw [← Finset.sum_add_distrib]
    exact Finset.sum_congr rfl fun i _ => by ring
  rw [e1, e1 _ _ _ 0, Wavefields.inner_plus, Wavefields.inner_plus]
  ring

/-! ### Examples -/

/-- `exV` with a PML and the gradient sampled in every time step. -/
noncomputable def exG : UArgs 2 := {exV 3 with interval := .int 1}

noncomputable def exGP : Plan 2 := {exQ 3 with interval := 1}

theorem exG_good : exG.setup.Good exGP := {exV_good 3 (.inr rfl) with interval := rfl}

/-- The derivative of a sum of squares is such a pairing with `gr` twice the amplitudes; here the gradient of the
sum of the last samples, in the direction of a larger velocity in one cell, a pulse in the second sample, and
no wavefield. -/
example : ∃ (u : ℝ → ℕ → UShot 2) (b : ℕ → UGrad 2) (x : ℝ),
    (∀ e, (exG.plus e ⟨fun _ c => if c = ![3, 3] then 1 else 0, fun _ _ t => if t = 1 then 1 else 0,
      fun _ => ⟨fun _ => 0, fun _ => 0, fun _ _ => 0, fun _ _ => 0⟩⟩).scalar 0 = .ok (some (u e 0))) ∧
    exG.backward 0 false (fun _ t => if t = 5 then 1 else 0) ⟨fun _ => 0, fun _ => 0, fun _ _ => 0, fun _ _ => 0⟩ =
      .ok (some (b 0)) ∧
    HasDerivAt (fun e => ∑ s ∈ Finset.range 1, (u e s).pair exG.nRcv (outCells exGP) (fun _ t => if t = 5 then 1 else 0)
      ⟨fun _ => 0, fun _ => 0, fun _ _ => 0, fun _ _ => 0⟩) x 0 := by
  obtain ⟨u, b, h1, h2, h3⟩ := C94_gradients_exact exG exGP 1 (plan_ok.2 exG_good) (by simp [exG, exV, exU]) rfl rfl rfl
    (.inl (by norm_num [exGP, exQ])) rfl one_pos (fun s hs => (exV_accepted 3 (.inr rfl) s hs).src)
    (fun s hs => (exV_accepted 3 (.inr rfl) s hs).rcv) false (fun _ _ t => if t = 5 then 1 else 0)
    (fun _ => ⟨fun _ => 0, fun _ => 0, fun _ _ => 0, fun _ _ => 0⟩)
    ⟨fun _ c => if c = ![3, 3] then 1 else 0, fun _ _ t => if t = 1 then 1 else 0,
      fun _ => ⟨fun _ => 0, fun _ => 0, fun _ _ => 0, fun _ _ => 0⟩⟩
  exact ⟨u, b, _, fun e => h1 e 0 one_pos, h2 0 one_pos, h3⟩

/-- Three internal time steps per sample. -/
example : ∃ (u : ℝ → UShot 2) (b : UGrad 2),
    ((exU .none).plus 2 ⟨fun _ _ => 0, fun _ _ t => if t = 1 then 1 else 0,
      fun _ => ⟨fun _ => 0, fun _ => 0, fun _ _ => 0, fun _ _ => 0⟩⟩).scalar 1 = .ok (some (u 2)) ∧
    (exU .none).backward 1 true (fun _ t => if t = 4 then 1 else 0)
      ⟨fun _ => 1, fun _ => 0, fun _ _ => 0, fun _ _ => 0⟩ = .ok (some b) ∧
    (u 2).pair 2 (outCells (exP ![(0, 7), (0, 9)])) (fun _ t => if t = 4 then 1 else 0)
        ⟨fun _ => 1, fun _ => 0, fun _ _ => 0, fun _ _ => 0⟩ =
      (u 0).pair 2 (outCells (exP ![(0, 7), (0, 9)])) (fun _ t => if t = 4 then 1 else 0)
        ⟨fun _ => 1, fun _ => 0, fun _ _ => 0, fun _ _ => 0⟩ +
      2 * ((exU .none).ampPair (fun _ t => if t = 1 then 1 else 0) b.amps +
        ((exU .none).givenOf ⟨fun _ => 0, fun _ => 0, fun _ _ => 0, fun _ _ => 0⟩).inner
          (outCells (exP ![(0, 7), (0, 9)])) b.wf) := by
  have hl : ∀ l, some exLoc = some l → WholeIgnored 2 l 1 := fun l hl => by
    cases hl
    exact exLoc_whole 1 (by decide)
  obtain ⟨u, b, h1, h2, h3⟩ := C95_source_gradients (exU .none) _ 1 (plan_ok.2 exU_whole) (by norm_num [exP])
    (.inl (by norm_num [exP])) rfl (.inl (by norm_num [exP])) 1 (by decide) hl hl true
    (fun _ t => if t = 4 then 1 else 0) ⟨fun _ => 1, fun _ => 0, fun _ _ => 0, fun _ _ => 0⟩
    ⟨fun _ _ => 0, fun _ _ t => if t = 1 then 1 else 0,
      fun _ => ⟨fun _ => 0, fun _ => 0, fun _ _ => 0, fun _ _ => 0⟩⟩ rfl
  exact ⟨u, b, h1 2, h2, h3 2⟩

end Dw.Scalar
