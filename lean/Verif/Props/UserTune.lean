import Verif.Spec.Reverse
import Verif.Props.UserReverse
import Verif.Props.UserNear

/-!
# C138: without PML, `max_vel` and `pml_freq` only matter through the internal time step
-/

namespace Dw.Spec

variable {d : ℕ} {G : Grid d}

/-- The grid with a PML made for other velocities and frequencies. -/
def Grid.retune (G : Grid d) (v f : ℝ) : Grid d := { G with vmax := v, freq := f }

theorem Grid.NoPml.retune (h : G.NoPml) (v f : ℝ) : (G.retune v f).NoPml := h

theorem Grid.NoPml.retune_ab (h : G.NoPml) (v f : ℝ) : (G.retune v f).a = G.a ∧ (G.retune v f).b = G.b :=
  ⟨funext fun k => funext fun x => by rw [h.a, (h.retune v f).a], funext fun k => funext fun x => by rw [h.b, (h.retune v f).b]⟩

theorem Grid.NoPml.retune_flux (h : G.NoPml) (v f : ℝ) : (G.retune v f).flux = G.flux := by
  unfold Grid.flux
  simp only [(h.retune_ab v f).1, (h.retune_ab v f).2]
  rfl

theorem Grid.NoPml.retune_lap (h : G.NoPml) (v f : ℝ) : (G.retune v f).lap = G.lap := by
  unfold Grid.lap
  simp only [(h.retune_ab v f).1, (h.retune_ab v f).2, h.retune_flux v f]

theorem Grid.Wave.retune (hG : G.NoPml) (v f : ℝ) {vel : Fld d ℝ} {q : ℕ → Fld d ℝ} {u : ℕ → Fld d ℝ}
    {psi zeta : ℕ → Fin d → Fld d ℝ} (h : G.Wave vel q u psi zeta) : (G.retune v f).Wave vel q u psi zeta := by
  refine ⟨h.outside, fun t c hc => ?_, fun t k c hc => ?_, fun t k c hc => ?_⟩
  · rw [hG.retune_lap]
    exact h.wave t c hc
  · rw [(hG.retune_ab v f).1, (hG.retune_ab v f).2]
    exact h.psi_next t k c hc
  · rw [(hG.retune_ab v f).1, (hG.retune_ab v f).2, hG.retune_flux]
    exact h.zeta_next t k c hc

theorem Grid.Scattered.retune (hG : G.NoPml) (v f : ℝ) {vel scat : Fld d ℝ} {q : ℕ → Fld d ℝ} {u : ℕ → Fld d ℝ}
    {psi zeta : ℕ → Fin d → Fld d ℝ} {w : ℕ → Fld d ℝ} {ps ze : ℕ → Fin d → Fld d ℝ}
    (h : G.Scattered vel scat q u psi zeta w ps ze) : (G.retune v f).Scattered vel scat q u psi zeta w ps ze := by
  refine ⟨h.outside, fun t c hc => ?_, fun t k c hc => ?_, fun t k c hc => ?_⟩
  · rw [hG.retune_lap]
    exact h.wave t c hc
  · rw [(hG.retune_ab v f).1, (hG.retune_ab v f).2]
    exact h.psi_next t k c hc
  · rw [(hG.retune_ab v f).1, (hG.retune_ab v f).2, hG.retune_flux]
    exact h.zeta_next t k c hc

theorem Grid.Acoustic.retune (hG : G.NoPml) (vm f : ℝ) {K : Fld d ℝ} {B : Fin d → Fld d ℝ} {qp : ℕ → Fld d ℝ}
    {qv : ℕ → Fin d → Fld d ℝ} {p : ℕ → Fld d ℝ} {v phi psi : ℕ → Fin d → Fld d ℝ} (h : G.Acoustic K B qp qv p v phi psi) :
    (G.retune vm f).Acoustic K B qp qv p v phi psi := by
  refine ⟨h.outside, fun t k c hc => ?_, h.velocity, fun t k c hc => ?_, h.pressure⟩
  · rw [(hG.retune_ab vm f).1, (hG.retune_ab vm f).2]
    exact h.psi_next t k c hc
  · rw [(hG.retune_ab vm f).1, (hG.retune_ab vm f).2]
    exact h.phi_next t k c hc

theorem Grid.Elastic.retune (hG : G.NoPml) (vm f : ℝ) {lam mu : Fld d ℝ} {muS : Fin d → Fin d → Fld d ℝ} {B : Fin d → Fld d ℝ}
    {qp : ℕ → Fld d ℝ} {qv v : ℕ → Fin d → Fld d ℝ} {sig mv ms : ℕ → Fin d → Fin d → Fld d ℝ}
    (h : G.Elastic lam mu muS B qp qv v sig mv ms) : (G.retune vm f).Elastic lam mu muS B qp qv v sig mv ms := by
  refine ⟨h.symm, h.outside, fun t i j c hc => ?_, h.velocity, fun t i j c hc => ?_, h.normal, h.shear⟩
  · rw [(hG.retune_ab vm f).1, (hG.retune_ab vm f).2]
    exact h.ms_next t i j c hc
  · rw [(hG.retune_ab vm f).1, (hG.retune_ab vm f).2]
    exact h.mv_next t i j c hc

end Dw.Spec

namespace Dw.Setup

variable {d : ℕ}

/-- The plan with other velocities and frequencies for the PML. -/
def Plan.retune (P : Plan d) (v : ℝ) (f : ℚ) : Plan d := { P with maxVel := v, freq := f }

theorem cfl_dt {dx : List ℝ} {dt v : ℝ} {r : ℝ × ℤ} (h : cflConditionN dx dt v = .ok r) : r.1 = dt / r.2 := by
  unfold cflConditionN at h
  dsimp only at h
  split_ifs at h
  rw [← Except.ok.inj h]

/-- A call with other `max_vel` and `pml_freq` that has the same number of internal time steps. -/
theorem SetupArgs.Good.retuned {A : SetupArgs d} {P P' : Plan d} {m f : Option PyNum} (h : A.Good P)
    (h' : ({A with maxVel := m, pmlFreq := f} : SetupArgs d).Good P') (hr : P'.ratio = P.ratio) :
    P' = P.retune P'.maxVel P'.freq := by
  obtain ⟨nb, dxL, mv, dt, ratio, accZ, wL, fr, nt, iv, ff, tf, ext, ms, ss, rs⟩ := P
  obtain ⟨nb', dxL', mv', dt', ratio', accZ', wL', fr', nt', iv', ff', tf', ext', ms', ss', rs'⟩ := P'
  dsimp only at hr
  subst hr
  obtain rfl : nb' = nb := Except.ok.inj (h'.nb.symm.trans h.nb)
  obtain rfl : dxL' = dxL := Except.ok.inj (h'.dx.symm.trans h.dx)
  obtain rfl : dt' = dt := (cfl_dt h'.cfl).trans (cfl_dt h.cfl).symm
  obtain rfl : accZ' = accZ := Except.ok.inj (h'.acc.symm.trans h.acc)
  obtain rfl : wL' = wL := Except.ok.inj (h'.width.symm.trans h.width)
  obtain rfl : nt' = nt := Except.ok.inj (h'.nt.symm.trans h.nt)
  obtain rfl : iv' = iv := Except.ok.inj (h'.interval.symm.trans h.interval)
  obtain rfl : ff' = ff := Except.ok.inj (h'.ff.symm.trans h.ff)
  obtain rfl : tf' = tf := Except.ok.inj (h'.tf.symm.trans h.tf)
  obtain rfl : ext' = ext := Except.ok.inj (h'.ext.symm.trans h.ext)
  obtain rfl : ms' = ms := Except.ok.inj (h'.models.symm.trans h.models)
  obtain rfl : ss' = ss := Except.ok.inj (h'.srcs.symm.trans h.srcs)
  obtain rfl : rs' = rs := Except.ok.inj (h'.rcvs.symm.trans h.rcvs)
  rfl

/-- Such calls exist. -/
theorem SetupArgs.Good.retune {A : SetupArgs d} {P : Plan d} (h : A.Good P) {m f : Option PyNum} {v : ℝ} {q : ℚ}
    (hm : setMaxVelR m A.maxModelVel = .ok v)
    (hc : cflConditionN (P.dxL.map fun q : ℚ => (q : ℝ)) A.dt v = .ok (P.dt, P.ratio))
    (hf : setPmlFreq f (.float (A.dt / P.ratio)) = .ok q) :
    ({A with maxVel := m, pmlFreq := f} : SetupArgs d).Good (P.retune v q) :=
  ⟨h.nb, h.dx, hm, hc, h.acc, h.width, hf, h.nt, h.interval, h.ff, h.tf, h.ampsMatch, h.amps, h.ext, h.models, h.srcs, h.rcvs,
    h.wfs⟩

theorem setPmlFreq_seven {q : ℚ} (hq : q ≠ 0) : setPmlFreq (some (.float 7)) (.float q) = .ok 7 := by
  have : ¬ (7 : ℚ) < 0 := by norm_num
  simp [setPmlFreq, PyNum.toFloat, hq, this]

/-- The options with other `max_vel` and `pml_freq`. -/
def Opts.retune (O : Opts) (m f : Option PyNum) : Opts := { O with maxVel := m, pmlFreq := f }

end Dw.Setup

namespace Dw.Scalar

open Setup Resample

variable {d : ℕ}

/-- **C138** Without PML, the traces and final wavefields of `scalar` depend on `max_vel` and `pml_freq` only through the
number of internal time steps. -/
theorem C138_no_pml (A : UArgs d) (P P' : Plan d) (s : ℕ) (cf : ℤ) (h : Fwd A P s cf) (hz : ∀ k, P.w0 k = 0 ∧ P.w1 k = 0)
    (m f : Option PyNum) (h' : ({A with maxVel := m, pmlFreq := f} : UArgs d).setup.plan = .ok P') (hr : P'.ratio = P.ratio) :
    ∃ r r', A.scalar s = .ok (some r) ∧ ({A with maxVel := m, pmlFreq := f} : UArgs d).scalar s = .ok (some r') ∧
      r'.out = r.out ∧ ∀ i < locCount A.rcv, r'.traces i = r.traces i := by
  have hg : ({A.setup with maxVel := m, pmlFreq := f} : SetupArgs d).Good P' := plan_ok.1 h'
  have hP := h.good.retuned hg hr
  obtain ⟨v, q, rfl⟩ : ∃ v q, P' = P.retune v q := ⟨_, _, hP⟩
  obtain ⟨r, u, psi, zeta, hc, hw, hI, he, ht⟩ := C90_scalar_scheme A P s cf (plan_ok.2 h.good) h.lt h.pml h.src h.rcv
    h.freq h.interval h.nt
  obtain ⟨r', u', psi', zeta', hc', hw', hI', he', ht'⟩ := C90_scalar_scheme ({A with maxVel := m, pmlFreq := f} : UArgs d)
    (P.retune v q) s cf h' h.lt (.inr hz) h.src h.rcv h.freq h.interval h.nt
  have hS : (P.retune v q).grid.Wave _ _ u psi zeta := hw.retune (show P.grid.NoPml from hz) v q
  obtain ⟨rfl, rfl, rfl⟩ := hS.unique hw' fun c => startsFrom_zero (P := P.retune v q) (w := ⟨A.wfc, A.wfp, A.psi, A.zeta⟩)
    hw'.outside hS.outside hI' hI c
  exact ⟨r, r', hc, hc', endsIn_unique (P := P) he he', fun i hl => (ht' i hl).trans (ht i hl).symm⟩

theorem exV_cfl_half : cflConditionN [3, 4] ((1 / 1000 : ℚ) : ℝ) 1200 = .ok (((1 / 1000 : ℚ) : ℝ) / (1 : ℤ), 1) := by
  have hs : Real.sqrt ([3, 4].map fun h : ℝ => 1 / h ^ 2).sum = 5 / 12 := by
    rw [show ([3, 4].map fun h : ℝ => 1 / h ^ 2).sum = (5 / 12) ^ 2 by norm_num]
    exact Real.sqrt_sq (by norm_num)
  have hr : ⌈|((1 / 1000 : ℚ) : ℝ)| / maxDt [3, 4] 1200 1e-15 0.6⌉ = 1 := by
    rw [Int.ceil_eq_iff, maxDt, hs]
    push_cast
    rw [abs_of_pos (by norm_num)]
    norm_num
  unfold cflConditionN
  simp only [hr, List.cons_ne_nil, if_false]
  norm_num

/-- `max_vel` 1200 instead of 1000, and the default frequency instead of 25. -/
example : ∃ r r', (exV 0).scalar 0 = .ok (some r) ∧
    ({exV 0 with maxVel := some (.int 1200), pmlFreq := some (.float 7)} : UArgs 2).scalar 0 = .ok (some r') ∧
    r'.out = r.out ∧ r'.traces 0 = r.traces 0 := by
  obtain ⟨r, r', h1, h2, h3, h4⟩ := C138_no_pml (exV 0) (exQ 0) ((exQ 0).retune 1200 7) 0 1 (exV0_fwd 0 one_pos)
    (fun k => by fin_cases k <;> exact ⟨rfl, rfl⟩) (some (.int 1200)) (some (.float 7))
    (plan_ok.2 ((exV_good 0 (.inl rfl)).retune (by simp [setMaxVelR, PyNum.toFloat])
      (by simpa [exQ, exV, UArgs.setup] using exV_cfl_half) (setPmlFreq_seven (by norm_num [exQ, exV, UArgs.setup])))) rfl
  exact ⟨r, r', h1, h2, h3, h4 0 (by decide)⟩

end Dw.Scalar

namespace Dw.Born

open Setup Resample

variable {d : ℕ}

/-- **C138** for `scalar_born`. -/
theorem C138_born_no_pml (A : UArgs d) (P P' : Plan d) (s : ℕ) (cf : ℤ) (h : Fwd A P s cf)
    (hz : ∀ k, P.w0 k = 0 ∧ P.w1 k = 0) (m f : Option PyNum)
    (h' : ({A with opts := A.opts.retune m f} : UArgs d).setup.plan = .ok P') (hr : P'.ratio = P.ratio) :
    ∃ r r', A.born s = .ok (some r) ∧ ({A with opts := A.opts.retune m f} : UArgs d).born s = .ok (some r') ∧
      (r'.out = r.out ∧ r'.outsc = r.outsc) ∧ (∀ i < locCount A.bgRcv, r'.bgTraces i = r.bgTraces i) ∧
      ∀ i < locCount A.rcv, r'.traces i = r.traces i := by
  have hg : ({A.setup with maxVel := m, pmlFreq := f} : SetupArgs d).Good P' := plan_ok.1 h'
  have hP := h.good.retuned hg hr
  obtain ⟨v, q, rfl⟩ : ∃ v q, P' = P.retune v q := ⟨_, _, hP⟩
  obtain ⟨r, u, psi, zeta, w, ps, ze, hc, hw, hsc, hi, hi2, he, he2, hb, ht⟩ := C91_born_scheme A P s cf (plan_ok.2 h.good) h.lt
    h.pml h.loc h.freq h.interval h.nt
  obtain ⟨r', u', psi', zeta', w', ps', ze', hc', hw', hsc', hi', hi2', he', he2', hb', ht'⟩ := C91_born_scheme
    ({A with opts := A.opts.retune m f} : UArgs d) (P.retune v q) s cf h' h.lt (.inr hz) h.loc h.freq h.interval h.nt
  have hS : (P.retune v q).grid.Wave _ _ u psi zeta := hw.retune (show P.grid.NoPml from hz) v q
  have hT : (P.retune v q).grid.Scattered _ _ _ u psi zeta w ps ze := hsc.retune (show P.grid.NoPml from hz) v q
  obtain ⟨rfl, rfl, rfl⟩ := hS.unique hw' fun c => startsFrom_zero (P := P.retune v q) (w := A.wf) hw'.outside hS.outside hi' hi c
  obtain ⟨rfl, rfl, rfl⟩ := hT.unique hsc' fun c => startsFrom_zero (P := P.retune v q) (w := A.wfsc) hsc'.outside hT.outside
    hi2' hi2 c
  exact ⟨r, r', hc, hc', ⟨endsIn_unique (P := P) he he', endsIn_unique (P := P) he2 he2'⟩,
    fun i hl => (hb' i hl).trans (hb i hl).symm, fun i hl => (ht' i hl).trans (ht i hl).symm⟩

/-- Another frequency. -/
example : ∃ r r', exX.born 1 = .ok (some r) ∧
    ({exX with opts := exX.opts.retune exX.opts.maxVel (some (.float 7))} : UArgs 2).born 1 = .ok (some r') ∧
    r'.traces 0 = r.traces 0 := by
  have h := exX_fwds 1 (by norm_num [exXP, exPl0])
  obtain ⟨r, r', h1, h2, -, -, h3⟩ := C138_born_no_pml exX exXP (exXP.retune exXP.maxVel 7) 1 1 h (exPl0_width _ _ _ _ _)
    exX.opts.maxVel (some (.float 7)) (plan_ok.2
      (h.good.retune h.good.maxVel h.good.cfl (setPmlFreq_seven (show ((1 / 1000 : ℚ) / (1 : ℤ)) ≠ 0 by norm_num)))) rfl
  exact ⟨r, r', h1, h2, h3 0 (by decide)⟩

end Dw.Born

namespace Dw.Acoustic

open Setup Resample

variable {d : ℕ}

/-- **C138** for `acoustic`. -/
theorem C138_acoustic_no_pml (A : UArgs d) (P P' : Plan d) (s : ℕ) (cf : ℤ) (h : Fwd A P s cf)
    (hz : ∀ k, P.w0 k = 0 ∧ P.w1 k = 0) (m f : Option PyNum)
    (h' : ({A with opts := A.opts.retune m f} : UArgs d).setup.plan = .ok P') (hr : P'.ratio = P.ratio) :
    ∃ r r', A.acoustic s = .ok (some r) ∧ ({A with opts := A.opts.retune m f} : UArgs d).acoustic s = .ok (some r') ∧
      r'.out = r.out ∧ (∀ i < locCount A.rcvP, r'.tracesP i = r.tracesP i) ∧
      ∀ k, ∀ i < locCount (A.rcvV k), r'.tracesV k i = r.tracesV k i := by
  have hg : ({A.setup with maxVel := m, pmlFreq := f} : SetupArgs d).Good P' := plan_ok.1 h'
  have hP := h.good.retuned hg hr
  obtain ⟨v, q, rfl⟩ : ∃ v q, P' = P.retune v q := ⟨_, _, hP⟩
  obtain ⟨r, p, w, phi, psi, hc, hw, hi, he, ht, htv⟩ := C92_acoustic_scheme A P s cf (plan_ok.2 h.good) h.pre
    h.lt h.pml h.loc h.last h.freq h.interval h.nt
  obtain ⟨r', p', w', phi', psi', hc', hw', hi', he', ht', htv'⟩ := C92_acoustic_scheme
    ({A with opts := A.opts.retune m f} : UArgs d) (P.retune v q) s cf h' h.pre h.lt (.inr hz) h.loc h.last h.freq h.interval
    h.nt
  have hS : (P.retune v q).grid.Acoustic _ _ _ _ p w phi psi := hw.retune (show P.grid.NoPml from hz) v q
  obtain ⟨rfl, rfl, rfl, rfl⟩ := hS.unique hw' (Starts.eq (P := P.retune v q) (w := A.wf) hS.outside hw'.outside hi hi')
  refine ⟨r, r', hc, hc', ?_, fun i hl => (ht' i hl).trans (ht i hl).symm, fun k i hl => (htv' k i hl).trans (htv k i hl).symm⟩
  exact Wavefields.ext (index_ext P fun c => (he' c).1.trans (he c).1.symm)
    (funext fun k => index_ext P fun c => ((he' c).2 k).1.trans ((he c).2 k).1.symm)
    (funext fun k => index_ext P fun c => ((he' c).2 k).2.1.trans ((he c).2 k).2.1.symm)
    (funext fun k => index_ext P fun c => ((he' c).2 k).2.2.trans ((he c).2 k).2.2.symm)

/-- Another frequency. -/
example : ∃ r r', (exX.between 1 2 (exAt 2 3) (exAt 4 5) exCall).acoustic 1 = .ok (some r) ∧
    ({exX.between 1 2 (exAt 2 3) (exAt 4 5) exCall with opts := exX.opts.retune exX.opts.maxVel (some (.float 7))} :
      UArgs 2).acoustic 1 = .ok (some r') ∧ r'.tracesV 1 0 = r.tracesV 1 0 := by
  have h := exX_fwd 1 2
  obtain ⟨r, r', h1, h2, -, -, h3⟩ := C138_acoustic_no_pml _ _ ((exXP 1 2).retune (exXP 1 2).maxVel 7) 1 1 h
    (exPl0_width _ _ _ _ _) exX.opts.maxVel (some (.float 7)) (plan_ok.2
      (h.good.retune h.good.maxVel h.good.cfl (setPmlFreq_seven (show ((1 / 1000 : ℚ) / (1 : ℤ)) ≠ 0 by norm_num)))) rfl
  exact ⟨r, r', h1, h2, h3 1 0 (by decide)⟩

end Dw.Acoustic

namespace Dw.Elastic

open Setup Resample

variable {d : ℕ}

/-- **C138** for `elastic`. -/
theorem C138_elastic_no_pml (A : UArgs d) (P P' : Plan d) (s : ℕ) (cf : ℤ) (h : Fwd A P s cf)
    (hz : ∀ k, P.w0 k = 0 ∧ P.w1 k = 0) (m f : Option PyNum)
    (h' : ({A with opts := A.opts.retune m f} : UArgs d).setup.plan = .ok P') (hr : P'.ratio = P.ratio) :
    ∃ r r', A.elastic s = .ok (some r) ∧ ({A with opts := A.opts.retune m f} : UArgs d).elastic s = .ok (some r') ∧
      r'.out = r.out ∧ (∀ i < locCount A.rcvP, r'.tracesP i = r.tracesP i) ∧
      ∀ k, ∀ i < locCount (A.rcvV k), r'.tracesV k i = r.tracesV k i := by
  have hg : ({A.setup with maxVel := m, pmlFreq := f} : SetupArgs d).Good P' := plan_ok.1 h'
  have hP := h.good.retuned hg hr
  obtain ⟨v, q, rfl⟩ : ∃ v q, P' = P.retune v q := ⟨_, _, hP⟩
  obtain ⟨r, w, sig, mv, ms, hc, hw, hi, he, ht, htv⟩ := C93_elastic_scheme A P s cf (plan_ok.2 h.good) h.pre
    h.lt h.pml h.loc h.last h.freq h.interval h.nt
  obtain ⟨r', w', sig', mv', ms', hc', hw', hi', he', ht', htv'⟩ := C93_elastic_scheme
    ({A with opts := A.opts.retune m f} : UArgs d) (P.retune v q) s cf h' h.pre h.lt (.inr hz) h.loc h.last h.freq h.interval
    h.nt
  have hS : (P.retune v q).grid.Elastic _ _ _ _ _ _ w sig mv ms := hw.retune (show P.grid.NoPml from hz) v q
  obtain ⟨rfl, rfl, rfl, rfl⟩ := hS.unique hw' (Starts.eq (P := P.retune v q) (w := A.wf) hS.symm hw'.symm hS.outside
    hw'.outside hi hi')
  refine ⟨r, r', hc, hc', ?_, fun i hl => (ht' i hl).trans (ht i hl).symm, fun k i hl => (htv' k i hl).trans (htv k i hl).symm⟩
  exact Wavefields.ext (funext fun i => index_ext P fun c => (he' c i).1.trans (he c i).1.symm)
    (funext fun i => index_ext P fun c => (he' c i).2.1.trans (he c i).2.1.symm)
    (funext fun x => index_ext P fun c => ((he' c x.1.1).2.2.1 x.1.2 x.2).trans ((he c x.1.1).2.2.1 x.1.2 x.2).symm)
    (funext fun i => funext fun j => index_ext P fun c => ((he' c i).2.2.2 j).1.trans ((he c i).2.2.2 j).1.symm)
    (funext fun i => funext fun j => index_ext P fun c => ((he' c i).2.2.2 j).2.trans ((he c i).2.2.2 j).2.symm)

/-- Another frequency. -/
example : ∃ r r', (exX.between 0 1 (exAt 2 3) (exAt 4 5) exCall).elastic 1 = .ok (some r) ∧
    ({exX.between 0 1 (exAt 2 3) (exAt 4 5) exCall with opts := exX.opts.retune exX.opts.maxVel (some (.float 7))} :
      UArgs 2).elastic 1 = .ok (some r') ∧ r'.tracesV 1 0 = r.tracesV 1 0 := by
  have h := exX_fwd 0 1
  obtain ⟨r, r', h1, h2, -, -, h3⟩ := C138_elastic_no_pml _ _ ((exXP 0 1).retune (exXP 0 1).maxVel 7) 1 1 h
    (exPl0_width _ _ _ _ _) exX.opts.maxVel (some (.float 7)) (plan_ok.2
      (h.good.retune h.good.maxVel h.good.cfl (setPmlFreq_seven (show ((1 / 1000 : ℚ) / (1 : ℤ)) ≠ 0 by norm_num)))) rfl
  exact ⟨r, r', h1, h2, h3 1 0 (by decide)⟩

end Dw.Elastic
