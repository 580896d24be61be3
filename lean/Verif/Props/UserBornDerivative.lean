import Verif.Props.UserGradBorn
import Verif.Props.UserGradScalar
import Verif.Props.UserExamples

/-!
# `scalar_born` is the derivative of `scalar`, for the user

C29 is about the propagators.  Here both functions are called by a user: `scalar` with `v + e * scatter` and
`scalar_born` with `v` and `scatter`.
-/

namespace Dw.Born

open Setup Resample
open Scalar

variable {d ns nr nq : ℕ}

/-! ### The calls of `scalar` -/

/-- `v + e * x` with broadcasting. -/
def addModel (e : ℝ) (v x : ModelT d ℝ) : ModelT d ℝ :=
  ⟨if x.nb.getD 1 = 1 then v.nb else x.nb, v.shape, fun s c => v.shot s c + e * x.shot s c⟩

/-- `w + e * x`, where a wavefield that is not given is zero. -/
def addWf (e : ℝ) : Option (WfT d) → Option (WfT d) → Option (WfT d)
  | none, none => none
  | some w, none => some w
  | none, some x => some {x with val := fun s c => e * x.val s c}
  | some w, some x => some {w with val := fun s c => w.val s c + e * x.val s c}

def addUWf (e : ℝ) (w x : UWf d) : UWf d :=
  ⟨addWf e w.wfc x.wfc, addWf e w.wfp x.wfp, fun k => addWf e (w.psi k) (x.psi k),
    fun k => addWf e (w.zeta k) (x.zeta k)⟩

/-- A call of `scalar` with the options of a call of `scalar_born`. -/
def UArgs.toScalar (A : UArgs d) (v : ModelT d ℝ) (w : UWf d) (rcv : Option LocT) (grad : Bool) : Scalar.UArgs d :=
  { v := v, gridSpacing := A.opts.gridSpacing, dt := A.opts.dt, amps := A.amps, src := A.src, rcv := rcv
    accuracy := A.opts.accuracy, pmlWidth := A.opts.pmlWidth, pmlFreq := A.opts.pmlFreq
    maxVel := A.opts.maxVel, surveyPad := A.opts.surveyPad, wfc := w.wfc, wfp := w.wfp, psi := w.psi
    zeta := w.zeta, origin := A.opts.origin, nt := A.opts.nt, interval := A.opts.interval
    freqTaperFrac := A.opts.freqTaperFrac, timePadFrac := A.opts.timePadFrac
    timeTaper := A.opts.timeTaper, callback := A.opts.callback, callbackFreq := A.opts.callbackFreq
    grad := grad, eps := A.opts.eps }

/-- `scalar(v + e * scatter, ...)` from the sum of the wavefields, with the receivers of the scattered field. -/
def UArgs.scalarAt (A : UArgs d) (e : ℝ) (grad : Bool) : Scalar.UArgs d :=
  A.toScalar (addModel e A.v A.scatter) (addUWf e A.wf A.wfsc) A.rcv grad

/-- `scalar(v, ...)` from the background wavefields, with the background receivers. -/
def UArgs.background (A : UArgs d) (grad : Bool) : Scalar.UArgs d := A.toScalar A.v A.wf A.bgRcv grad

/-! ### Plans -/

theorem addWf_mem {e : ℝ} {w x : Option (WfT d)} {y : WfT d} (h : addWf e w x = some y) :
    ∃ z, (w = some z ∨ x = some z) ∧ z.size = y.size := by
  cases w <;> cases x <;> simp only [addWf, Option.some.injEq, reduceCtorEq] at h <;> subst h
  · exact ⟨_, .inr rfl, rfl⟩
  · exact ⟨_, .inl rfl, rfl⟩
  · exact ⟨_, .inl rfl, rfl⟩

theorem addWf_size (e e' : ℝ) (w x : Option (WfT d)) :
    (addWf e w x).map WfT.size = (addWf e' w x).map WfT.size := by
  cases w <;> cases x <;> rfl

theorem addUWf_mem {e : ℝ} {w x : UWf d} {y : WfT d} (h : some y ∈ (addUWf e w x).list) :
    ∃ z, some z ∈ w.list ++ x.list ∧ z.size = y.size := by
  simp only [UWf.list, List.mem_append, List.mem_cons, List.mem_ofFn, List.not_mem_nil, or_false,
    addUWf] at h ⊢
  rcases h with ((h | h) | ⟨k, h⟩) | ⟨k, h⟩
  · obtain ⟨z, hz | hz, e⟩ := addWf_mem h.symm
    · exact ⟨z, .inl (.inl (.inl (.inl hz.symm))), e⟩
    · exact ⟨z, .inr (.inl (.inl (.inl hz.symm))), e⟩
  · obtain ⟨z, hz | hz, e⟩ := addWf_mem h.symm
    · exact ⟨z, .inl (.inl (.inl (.inr hz.symm))), e⟩
    · exact ⟨z, .inr (.inl (.inl (.inr hz.symm))), e⟩
  · obtain ⟨z, hz | hz, e⟩ := addWf_mem h
    · exact ⟨z, .inl (.inl (.inr ⟨k, hz⟩)), e⟩
    · exact ⟨z, .inr (.inl (.inr ⟨k, hz⟩)), e⟩
  · obtain ⟨z, hz | hz, e⟩ := addWf_mem h
    · exact ⟨z, .inl (.inr ⟨k, hz⟩), e⟩
    · exact ⟨z, .inr (.inr ⟨k, hz⟩), e⟩

theorem ok_inj {α : Type} {x : Except PyErr α} {a b : α} (h : x = .ok a) (h' : x = .ok b) : a = b :=
  Except.ok.inj (h.symm.trans h')

/-- The plan of the call of `scalar` has the numbers of that of `scalar_born`. -/
theorem toScalar_plan {A : UArgs d} {P Q : Plan d} {v : ModelT d ℝ} {w : UWf d} {rcv : Option LocT} {grad : Bool}
    (h : A.setup.Good P) (hq : (A.toScalar v w rcv grad).setup.Good Q) (hext : Q.ext = P.ext)
    (hv : A.opts.maxVel ≠ none ∨ v = A.v)
    (hw : ∀ y, some y ∈ w.list → ∃ z, some z ∈ A.wf.list ++ A.wfsc.list ∧ z.size = y.size) :
    Q = {P with models := Q.models, srcs := Q.srcs, rcvs := Q.rcvs} := by
  have e1 : Q.nb = P.nb := by
    have hp := h.nb
    have hp' := prepareWavefields_ok.1 h.wfs
    have hn := hq.nb
    unfold getNBatch at hp hn
    change (match [A.src, A.src].filterMap (Option.map LocT.nb) ++
      (A.wf.list ++ A.wfsc.list).filterMap (Option.map WfT.nb) with
      | [] => Except.error PyErr.runtimeError
      | n :: _ => .ok n) = _ at hp
    change (match [A.src].filterMap (Option.map LocT.nb) ++ w.list.filterMap (Option.map WfT.nb) with
      | [] => Except.error PyErr.runtimeError
      | n :: _ => .ok n) = _ at hn
    cases hs : A.src with
    | some l =>
        simp only [hs, List.filterMap_cons, Option.map_some, List.cons_append, Except.ok.injEq] at hp hn
        omega
    | none =>
        simp only [hs, List.filterMap_cons, Option.map_none, List.filterMap_nil, List.nil_append] at hn
        cases hl : w.list.filterMap (Option.map WfT.nb) with
        | nil => rw [hl] at hn; cases hn
        | cons n l =>
            rw [hl] at hn
            have hm : n ∈ w.list.filterMap (Option.map WfT.nb) := by rw [hl]; exact List.mem_cons_self
            obtain ⟨o, ho, e⟩ := List.mem_filterMap.1 hm
            cases o with
            | none => cases e
            | some y =>
                obtain ⟨z, hz, e2⟩ := hw y ho
                have h3 := (hp' z hz).1
                have h4 : z.nb = y.nb := congrArg Prod.fst e2
                have h5 := Except.ok.inj hn
                have h6 : y.nb = n := Option.some.inj e
                omega
  have e2 : Q.dxL = P.dxL := ok_inj hq.dx h.dx
  have e3 : Q.maxVel = P.maxVel := by
    rcases hv with hv | rfl
    · have h1 := hq.maxVel
      have h2 := h.maxVel
      unfold setMaxVelR at h1 h2
      cases hm : A.opts.maxVel with
      | none => exact absurd hm hv
      | some x =>
          simp only [UArgs.toScalar, Scalar.UArgs.setup, UArgs.setup, Opts.setup, hm] at h1 h2
          exact ok_inj h1 h2
    · exact ok_inj hq.maxVel h.maxVel
  have e4 : (Q.dt, Q.ratio) = (P.dt, P.ratio) := by
    have h1 := hq.cfl
    rw [e2, e3] at h1
    exact ok_inj h1 h.cfl
  have e5 : Q.accZ = P.accZ := ok_inj hq.acc h.acc
  have e6 : Q.wL = P.wL := ok_inj hq.width h.width
  have e7 : Q.ratio = P.ratio := congrArg Prod.snd e4
  have e8 : Q.freq = P.freq := by
    have h1 := hq.freq
    rw [e7] at h1
    exact ok_inj h1 h.freq
  have e9 : Q.nt = P.nt := by
    have h1 := hq.nt
    have h2 := h.nt
    rw [e7] at h1
    change setNt A.opts.nt [A.amps.map AmpT.nt] P.ratio = _ at h1
    change setNt A.opts.nt [A.amps.map AmpT.nt, A.amps.map AmpT.nt] P.ratio = _ at h2
    refine ok_inj h1 ?_
    rw [← h2]
    cases A.amps <;> rfl
  have e10 : Q.interval = P.interval := ok_inj hq.interval h.interval
  have e11 : Q.ff = P.ff := ok_inj hq.ff h.ff
  have e12 : Q.tf = P.tf := ok_inj hq.tf h.tf
  cases Q
  cases P
  simp only at e1 e2 e3 e4 e5 e6 e7 e8 e9 e10 e11 e12 hext
  simp only [Prod.mk.injEq] at e4
  obtain ⟨e4, -⟩ := e4
  subst e1 e2 e3 e4 e5 e6 e7 e8 e9 e10 e11 e12 hext
  rfl

/-- The padded model of `v + e * scatter`. -/
theorem addModel_pad {ext : Fin d → ℤ × ℤ} {pad : List ℤ} {v σ : ModelT d ℝ} (hsh : σ.shape = v.shape)
    (hext : ∀ k, 0 ≤ (ext k).1 ∧ (ext k).1 < (ext k).2 ∧ (ext k).2 ≤ v.shape k)
    (hedge : ∀ b x, (∀ k, (ext k).1 ≤ x k ∧ x k < (ext k).2) → (∃ k, x k = (ext k).1 ∨ x k = (ext k).2 - 1) →
      σ.val b x = 0) (e : ℝ) (s : ℕ) (c : Cell d) :
    (modelOf ext pad (addModel e v σ, .replicate)).shot s c =
      (modelOf ext pad (v, .replicate)).shot s c + e * (modelOf ext pad (σ, .constant)).shot s c := by
  have hl : ∀ k, sliceLen (ext k).1 (ext k).2 (v.shape k) = (ext k).2 - (ext k).1 := fun k => by
    have := hext k
    simp only [sliceLen]
    omega
  have hs : ∀ x, (addModel e v σ).val (if (addModel e v σ).nb.getD 1 = 1 then 0 else s) x =
      v.shot s x + e * σ.shot s x := by
    intro x
    simp only [addModel]
    by_cases h1 : σ.nb.getD 1 = 1
    · simp only [if_pos h1, ModelT.shot]
      by_cases h2 : v.nb.getD 1 = 1
      · simp only [if_pos h2]
      · simp only [if_neg h2]
    · simp only [if_neg h1]
  have e1 : (modelOf ext pad (addModel e v σ, .replicate)).shot s c =
      v.shot s (fun k => min (max (c k - fPadLo (reversePad pad) k) 0) ((ext k).2 - (ext k).1 - 1) + (ext k).1) +
      e * σ.shot s (fun k => min (max (c k - fPadLo (reversePad pad) k) 0) ((ext k).2 - (ext k).1 - 1) + (ext k).1) := by
    rw [← hs]
    simp only [← hl]
    rfl
  have e2 : (modelOf ext pad (v, .replicate)).shot s c =
      v.shot s (fun k => min (max (c k - fPadLo (reversePad pad) k) 0) ((ext k).2 - (ext k).1 - 1) + (ext k).1) := by
    simp only [← hl]
    rfl
  have e3 : (modelOf ext pad (σ, .constant)).shot s c =
      if ∀ k, 0 ≤ c k - fPadLo (reversePad pad) k ∧ c k - fPadLo (reversePad pad) k < (ext k).2 - (ext k).1 then
        σ.shot s (fun k => c k - fPadLo (reversePad pad) k + (ext k).1) else 0 := by
    simp only [← hl, ← hsh]
    rfl
  rw [e1, e2, e3]
  congr 2
  split_ifs with hc
  · congr 1
    funext k
    have := hc k
    omega
  · refine hedge _ _ (fun k => ?_) ?_
    · have := hext k
      omega
    · push Not at hc
      obtain ⟨k, hk⟩ := hc
      refine ⟨k, ?_⟩
      have := hext k
      by_cases h1 : 0 ≤ c k - fPadLo (reversePad pad) k
      · have := hk h1; omega
      · omega

/-! ### The propagator of `scalar_born` on the locations of `scalar` -/

/-- The configuration with the locations given as functions. -/
noncomputable def cfgAt (S : ShotIn d) (src : Fin ns → Option (Cell d)) (rcv : Fin nr → Option (Cell d))
    (rcvsc : Fin nq → Option (Cell d)) : BCfg d ns nr nq ℝ :=
  { base :=
      { acc := S.pml.acc, n := S.pml.n, w0 := S.pml.w0, w1 := S.pml.w1, dx := S.pml.dx, dt := S.pml.dt
        a := fun k i => (S.pml.ab 0 k i).1
        b := fun k i => ((S.pml.ab 0 k i).2).getD 0
        db := fun k i => (S.pml.db k i).getD 0
        v := S.model 0
        src := src
        rcv := rcv
        ratio := S.every }
    scatter := S.model 1
    rcvsc := rcvsc }

theorem run_cfgAt (A : UArgs d) (w wsc : Init d ℝ) (cf : ℤ) (S : ShotIn d) {ls lr lq : List (Option (Cell d))}
    (h0 : S.src 0 = ls) (h1 : S.rcv 0 = lr) (h2 : S.rcv 1 = lq) (hns : ls.length = ns) (hnr : lr.length = nr)
    (hnq : lq.length = nq) {src : Fin ns → Option (Cell d)} {rcv : Fin nr → Option (Cell d)}
    {rcvsc : Fin nq → Option (Cell d)} (e0 : ∀ i : Fin ls.length, ls.get i = src (i.cast hns))
    (e1 : ∀ i : Fin lr.length, lr.get i = rcv (i.cast hnr)) (e2 : ∀ i : Fin lq.length, lq.get i = rcvsc (i.cast hnq)) :
    A.run w wsc cf S = runWith A w wsc cf S (cfgAt S src rcv rcvsc) := by
  subst h0 h1 h2 hns hnr hnq
  obtain rfl : (S.src 0).get = src := funext e0
  obtain rfl : (S.rcv 0).get = rcv := funext e1
  obtain rfl : (S.rcv 1).get = rcvsc := funext e2
  rfl

theorem wf_cfgAt {S : ShotIn d} {ls lr lq : List (Option (Cell d))}
    (h0 : S.src 0 = ls) (h1 : S.rcv 0 = lr) (h2 : S.rcv 1 = lq) (hns : ls.length = ns) (hnr : lr.length = nr)
    (hnq : lq.length = nq) {src : Fin ns → Option (Cell d)} {rcv : Fin nr → Option (Cell d)}
    {rcvsc : Fin nq → Option (Cell d)} (e0 : ∀ i : Fin ls.length, ls.get i = src (i.cast hns))
    (e1 : ∀ i : Fin lr.length, lr.get i = rcv (i.cast hnr)) (e2 : ∀ i : Fin lq.length, lq.get i = rcvsc (i.cast hnq))
    (h : (cfgOf S).WF) : (cfgAt S src rcv rcvsc).WF := by
  subst h0 h1 h2 hns hnr hnq
  obtain rfl : (S.src 0).get = src := funext e0
  obtain rfl : (S.rcv 0).get = rcv := funext e1
  obtain rfl : (S.rcv 1).get = rcvsc := funext e2
  exact h

/-! ### Derivatives -/

/-- `downsample` is linear. -/
theorem hasDeriv_downS {A : SetupArgs d} {P : Plan d} (h : A.Good P) (tt : Bool) {x : ℝ → ℕ → ℝ} {x' : ℕ → ℝ}
    (hx : ∀ j, HasDerivAt (fun e => x e j) (x' j) 0) {t : ℕ} (ht : t < (downS P tt ⟨P.nt.toNat, x'⟩).len) :
    HasDerivAt (fun e => (downS P tt ⟨P.nt.toNat, x e⟩).val t) ((downS P tt ⟨P.nt.toNat, x'⟩).val t) 0 := by
  have key : ∀ z : ℕ → ℝ, (downS P tt ⟨P.nt.toNat, z⟩).val t =
      ∑ j ∈ Finset.range P.nt.toNat, downT P tt (fun u => if u = t then 1 else 0) j * z j := fun z => by
    rw [← downT_adj h, downS_len h tt x' z]
    simp only [ite_mul, one_mul, zero_mul]
    rw [Finset.sum_ite_eq', if_pos (Finset.mem_range.2 ht)]
  simp only [key]
  exact HasDerivAt.fun_sum fun j _ => (hx j).const_mul _

theorem hasDeriv_outOf (C : Cfg d ns nr ℝ) {s : ℝ → St d ℝ} {l : St d ℝ} (h : St.HasDeriv s l 0) :
    (∀ c, HasDerivAt (fun e => (C.outOf (s e)).wfc c) ((C.outOf l).wfc c) 0) ∧
    (∀ c, HasDerivAt (fun e => (C.outOf (s e)).wfp c) ((C.outOf l).wfp c) 0) ∧
    (∀ k c, HasDerivAt (fun e => (C.outOf (s e)).psi k c) ((C.outOf l).psi k c) 0) ∧
    ∀ k c, HasDerivAt (fun e => (C.outOf (s e)).zeta k c) ((C.outOf l).zeta k c) 0 :=
  ⟨fun c => h.u _, fun c => h.p _, fun k c => h.psi k _, fun k c => h.zeta k _⟩

theorem hasDeriv_start (C : Cfg d ns nr ℝ) (w x : UWf d) (s : ℕ) :
    St.HasDeriv (fun e => C.start ((addUWf e w x).init s)) (C.start (x.init s)) 0 := by
  have pad : ∀ (u u' : Option (WfT d)) (c : Cell d), HasDerivAt
      (fun e => C.createOrPad ((addWf e u u').map fun y => y.val s) c)
      (C.createOrPad (u'.map fun y => y.val s) c) 0 := by
    intro u u' c
    cases u <;> cases u' <;> simp only [addWf, Option.map_some, Option.map_none, Cfg.createOrPad]
    · exact hasDerivAt_const _ _
    · split_ifs
      · simpa using (hasDerivAt_id (0 : ℝ)).mul_const _
      · exact hasDerivAt_const _ _
    · exact hasDerivAt_const _ _
    · split_ifs
      · exact hasDerivAt_line _ _
      · exact hasDerivAt_const _ _
  refine ⟨fun c => pad _ _ c, fun c => pad _ _ c, fun k c => ?_, fun k c => ?_⟩ <;>
  · simp only [Cfg.start, UWf.init, addUWf, Cfg.zeroInterior]
    split_ifs
    · exact hasDerivAt_const _ _
    · exact pad _ _ c

theorem addUWf_zero (w x : UWf d) (C : Cfg d ns nr ℝ) (s : ℕ) :
    C.start ((addUWf 0 w x).init s) = C.start (w.init s) := by
  have key : ∀ (u u' : Option (WfT d)),
      C.createOrPad ((addWf 0 u u').map fun y => y.val s) = C.createOrPad (u.map fun y => y.val s) := by
    intro u u'
    funext c
    cases u <;> cases u' <;> simp [addWf, Cfg.createOrPad]
  simp only [Cfg.start, UWf.init, addUWf, key]

/-- **C102** `scalar_born` is the derivative of `scalar`.  If the call of `scalar_born` and that of `scalar` with
`v` pass their checks and use the same part of the model, and the scattering potential is zero on the edge of that
part, then every sample that `scalar_born` returns for the receivers and every element of its final scattered
wavefields is the derivative, at `e = 0`, of what `scalar` returns for `v + e * scatter`, the sum of the initial
wavefields and the same receivers. -/
theorem C102_born_is_derivative (A : UArgs d) (P Q : Plan d) (s : ℕ) (cf : ℤ) (grad : Bool)
    (h : A.setup.plan = .ok P) (hq : (A.scalarAt 0 grad).setup.plan = .ok Q) (hext : Q.ext = P.ext)
    (hmv : A.opts.maxVel ≠ none) (hs : s < P.nb) (hP : PmlOk P)
    (hloc : ∀ l, A.src = some l ∨ A.rcv = some l ∨ A.bgRcv = some l → WholeIgnored d l s)
    (hcf : checkCallbackFrequency A.opts.callbackFreq = .ok cf) (hi : 0 < P.interval)
    (hnt : P.ratio * P.interval ≤ P.nt ∨ P.nt ≤ 0)
    (hedge : ∀ b x, (∀ k, (P.ext k).1 ≤ x k ∧ x k < (P.ext k).2) →
      (∃ k, x k = (P.ext k).1 ∨ x k = (P.ext k).2 - 1) → A.scatter.val b x = 0) :
    ∃ (r : ℝ → Scalar.UShot d) (b : UShot d),
      (∀ e, (A.scalarAt e grad).scalar s = .ok (some (r e))) ∧ A.born s = .ok (some b) ∧
      (∀ i < locCount A.rcv, (∀ e, ((r e).traces i).len = (b.traces i).len) ∧
        ∀ t < (b.traces i).len, HasDerivAt (fun e => ((r e).traces i).val t) ((b.traces i).val t) 0) ∧
      (∀ c, HasDerivAt (fun e => (r e).out.wfc c) (b.outsc.wfc c) 0) ∧
      (∀ c, HasDerivAt (fun e => (r e).out.wfp c) (b.outsc.wfp c) 0) ∧
      (∀ k c, HasDerivAt (fun e => (r e).out.psi k c) (b.outsc.psi k c) 0) ∧
      ∀ k c, HasDerivAt (fun e => (r e).out.zeta k c) (b.outsc.zeta k c) 0 := by
  rw [plan_ok] at h hq
  have hnb : 0 < P.nb := by omega
  have hR : Runs A P s cf := ⟨h, hs, hP, hloc, hcf, hi, hnt⟩
  have hQ := toScalar_plan h hq hext (.inl hmv) fun y hy => addUWf_mem hy
  obtain ⟨ms, ss, rs, rfl⟩ : ∃ ms ss rs, Q = {P with models := ms, srcs := ss, rcvs := rs} := ⟨_, _, _, hQ⟩
  clear hQ hext
  have hss := (extractLocations_iff.1 hq.srcs).2
  have hrs := (extractLocations_iff.1 hq.rcvs).2
  simp only at hss hrs
  obtain ⟨hmods, hPm⟩ := (extractModels_iff hnb).1 h.models
  have hPs := (extractLocations_iff.1 h.srcs).2
  have hPr := (extractLocations_iff.1 h.rcvs).2
  have hin := h.in_extents.1
  have hlt := h.ext_lt hnb ⟨A.v, List.mem_cons_self⟩
  have hshσ : A.scatter.shape = A.v.shape := (hmods (A.scatter, .constant) (by
    simp [UArgs.setup, Opts.setup])).shape
  -- the calls of `scalar`
  set Qe : ℝ → Plan d := fun e => {P with
    models := [modelOf P.ext (P.padding false) (addModel e A.v A.scatter, .replicate)], srcs := ss, rcvs := rs} with hQe
  have hgood : ∀ e, (A.scalarAt e grad).setup.Good (Qe e) := fun e => by
    refine ((hq.withModels (ms := [(addModel e A.v A.scatter, .replicate)])
      (mv := maxAbs (addModel e A.v A.scatter)) hnb rfl ?_).revalue (amps := [A.amps])
      (wfs := (addUWf e A.wf A.wfsc).list) rfl ?_)
    · have := hq.maxVel
      unfold setMaxVelR at this ⊢
      cases hm : A.opts.maxVel with
      | none => exact absurd hm hmv
      | some x =>
          simp only [UArgs.scalarAt, UArgs.toScalar, Scalar.UArgs.setup, hm] at this ⊢
          exact this
    · show _ = (addUWf 0 A.wf A.wfsc).list.map (Option.map WfT.size)
      simp only [UWf.list, addUWf, List.map_append, List.map_cons, List.map_nil, List.map_ofFn, Function.comp_def,
        addWf_size e 0]
  have hsc := fun e => scalar_eq (hgood e) hs hP (fun l hl => hloc l (.inl hl)) (fun l hl => hloc l (.inr (.inl hl)))
    hcf hi (.inr hnt)
  choose r hr1 hr2 hr3 using hsc
  -- the call of `scalar_born`
  have l1 : ((shotIn A.setup P A.opts.timeTaper s).src 0) = (locAt ss 0).cells (P.n false) s := by
    rw [hss]
    simp only [ShotIn.src, shotIn, hPs]
    rfl
  have l2 : ((shotIn A.setup P A.opts.timeTaper s).rcv 1) = (locAt rs 0).cells (P.n false) s := by
    rw [hrs]
    simp only [ShotIn.rcv, shotIn, hPr]
    rfl
  have n1 : ((locAt ss 0).cells (P.n false) s).length = (locAt ss 0).n := by simp [IdxT.cells]
  have n2 : ((locAt rs 0).cells (P.n false) s).length = (locAt rs 0).n := by simp [IdxT.cells]
  have g1 := fun i => cells_get (P.n false) (locAt ss 0) s i
  have g2 := fun i => cells_get (P.n false) (locAt rs 0) s i
  have hrun := run_cfgAt A (A.wf.init s) (A.wfsc.init s) cf (shotIn A.setup P A.opts.timeTaper s) l1 rfl l2 n1 rfl n2
    (src := fun i => cellOf (P.n false) ((locAt ss 0).val s i))
    (rcvsc := fun i => cellOf (P.n false) ((locAt rs 0).val s i)) g1 (fun _ => rfl) g2
  have hwf := wf_cfgAt l1 rfl l2 n1 rfl n2
    (src := fun i => cellOf (P.n false) ((locAt ss 0).val s i))
    (rcvsc := fun i => cellOf (P.n false) ((locAt rs 0).val s i)) g1 (fun _ => rfl) g2 hR.wf
  set B := cfgAt (shotIn A.setup P A.opts.timeTaper s) (fun i => cellOf (P.n false) ((locAt ss 0).val s i))
    ((shotIn A.setup P A.opts.timeTaper s).rcv 0).get (fun i => cellOf (P.n false) ((locAt rs 0).val s i)) with hB
  obtain ⟨b, hb1, hb2, hb3, hb4, hb5⟩ := runWith_spec A (A.wf.init s) (A.wfsc.init s) cf
    (shotIn A.setup P A.opts.timeTaper s) B hwf.base hR.ratio
    (cb_pos hcf hR.ratio (.inr hnt)) (finite_of_pmlOk h hP false)
  have hcall : A.born s = .ok (some b) := call_ok.2 ⟨not_noElements h hnb (m := (A.v, .replicate))
    List.mem_cons_self, P, cf, h, hcf, hrun.trans hb1⟩
  refine ⟨r, b, hr1, hcall, ?_⟩
  -- the configurations
  have hC : ∀ e, cfg (locAt ss 0).n (locAt rs 0).n (Qe e) s =
      ({B.base.pert B.scatter e with rcv := B.rcvsc} : Cfg d _ _ ℝ) := fun e => by
    have hv : shotModel (Qe e).models 0 s = fun c => B.base.v c + e * B.scatter c := by
      funext c
      have e1 : B.base.v c = (modelOf P.ext (P.padding false) (A.v, .replicate)).shot s c := by
        show (shotIn A.setup P A.opts.timeTaper s).model 0 c = _
        simp only [ShotIn.model, shotIn, hPm]
        rfl
      have e2 : B.scatter c = (modelOf P.ext (P.padding false) (A.scatter, .constant)).shot s c := by
        show (shotIn A.setup P A.opts.timeTaper s).model 1 c = _
        simp only [ShotIn.model, shotIn, hPm]
        rfl
      rw [e1, e2]
      exact addModel_pad hshσ (fun k => ⟨(hin k).1, hlt k, (hin k).2⟩) hedge e s c
    unfold cfg Cfg.pert
    rw [hv]
    rfl
  set a : ℕ → Fin (locAt ss 0).n → ℝ := fun t i => upAmps P A.opts.timeTaper A.amps s t i with ha
  set T := P.nt.toNat / B.base.ratio * B.base.ratio with hT
  have k1 : ∀ e, (r e).out = B.base.outOf ((B.base.pert B.scatter e).run (scaleAmp (B.base.pert B.scatter e) a) 0
      (B.base.start ((addUWf e A.wf A.wfsc).init s)) T) := fun e => by
    have := hr2 e
    change _ = (cfg (locAt ss 0).n (locAt rs 0).n (Qe e) s).outOf ((cfg (locAt ss 0).n (locAt rs 0).n (Qe e) s).run
      (scaleAmp (cfg (locAt ss 0).n (locAt rs 0).n (Qe e) s) a) 0
      ((cfg (locAt ss 0).n (locAt rs 0).n (Qe e) s).start ((addUWf e A.wf A.wfsc).init s)) T) at this
    rw [hC e, run_rcv] at this
    exact this
  have k2 : ∀ e (i : Fin (locAt rs 0).n), (r e).traces i = downS P A.opts.timeTaper ⟨P.nt.toNat, fun t =>
      if t < T then sample B.rcvsc ((B.base.pert B.scatter e).run (scaleAmp (B.base.pert B.scatter e) a) 0
        (B.base.start ((addUWf e A.wf A.wfsc).init s)) t).u i else 0⟩ := fun e i => by
    have := hr3 e i
    change _ = downS P A.opts.timeTaper ⟨P.nt.toNat, fun t =>
      if t < T then sample (cfg (locAt ss 0).n (locAt rs 0).n (Qe e) s).rcv
        ((cfg (locAt ss 0).n (locAt rs 0).n (Qe e) s).run (scaleAmp (cfg (locAt ss 0).n (locAt rs 0).n (Qe e) s) a) 0
          ((cfg (locAt ss 0).n (locAt rs 0).n (Qe e) s).start ((addUWf e A.wf A.wfsc).init s)) t).u i else 0⟩ at this
    rw [hC e] at this
    simp only [run_rcv] at this
    exact this
  have amp0 : (fun t (i : Fin (locAt ss 0).n) => (shotIn A.setup P A.opts.timeTaper s).amp 0 t i) = a := rfl
  have amp1 : (fun t (i : Fin (locAt ss 0).n) => (shotIn A.setup P A.opts.timeTaper s).amp 1 t i) = a := rfl
  have key := hasDeriv_scRun (B := B) (fun t i => scaleAmp_hasDeriv (B := B) a t i)
    (hasDeriv_start B.base A.wf A.wfsc s)
  simp only [Cfg.pert_zero, addUWf_zero] at key
  refine ⟨fun i hi' => ?_, ?_⟩
  · have hl : (locAt rs 0).n = locCount A.rcv := by
      rw [← n2, ← l2]
      exact (rcv_placed h hs A.opts.timeTaper (j := 1) rfl fun l hl => hloc l (.inr (.inl hl))).length
    rw [← hl] at hi'
    have k3 : b.traces i = downS P A.opts.timeTaper ⟨P.nt.toNat, fun t =>
        if t < T then sample B.rcvsc (scRun B (scaleAmp B.base a) (scaleAmpSc B a) (B.base.start (A.wf.init s))
          (B.base.start (A.wfsc.init s)) t).u ⟨i, hi'⟩ else 0⟩ := by
      rw [hb5, traces_lt _ _ hi']
      show downS P A.opts.timeTaper _ = _
      congr 2
      funext t
      show (if t < T then _ else _ : Fin _ → ℝ) _ = _
      split_ifs <;> rfl
    have k2' := fun e => k2 e ⟨i, hi'⟩
    simp only at k2'
    simp only [k2', k3]
    refine ⟨fun e => downS_len h _ _ _, fun t ht => hasDeriv_downS h _ (fun j => ?_) ht⟩
    split_ifs
    · simp only [sample]
      split
      · exact (key j).u _
      · exact hasDerivAt_const _ _
    · exact hasDerivAt_const _ _
  · simp only [k1, hb3]
    exact hasDeriv_outOf B.base (key T)

/-- **C102** (background) The background outputs of `scalar_born` are those of `scalar`. -/
theorem C102_background (A : UArgs d) (P Q : Plan d) (s : ℕ) (cf : ℤ) (grad : Bool)
    (h : A.setup.plan = .ok P) (hq : (A.background grad).setup.plan = .ok Q) (hext : Q.ext = P.ext)
    (hs : s < P.nb) (hP : PmlOk P)
    (hloc : ∀ l, A.src = some l ∨ A.rcv = some l ∨ A.bgRcv = some l → WholeIgnored d l s)
    (hcf : checkCallbackFrequency A.opts.callbackFreq = .ok cf) (hi : 0 < P.interval)
    (hnt : P.ratio * P.interval ≤ P.nt ∨ P.nt ≤ 0) :
    ∃ (r : Scalar.UShot d) (b : UShot d), (A.background grad).scalar s = .ok (some r) ∧ A.born s = .ok (some b) ∧
      b.out = r.out ∧ ∀ i < locCount A.bgRcv, b.bgTraces i = r.traces i := by
  rw [plan_ok] at h hq
  have hnb : 0 < P.nb := by omega
  have hR : Runs A P s cf := ⟨h, hs, hP, hloc, hcf, hi, hnt⟩
  have hQ := toScalar_plan h hq hext (.inr rfl) fun y hy => ⟨y, List.mem_append_left _ hy, rfl⟩
  obtain ⟨ms, ss, rs, rfl⟩ : ∃ ms ss rs, Q = {P with models := ms, srcs := ss, rcvs := rs} := ⟨_, _, _, hQ⟩
  clear hQ hext
  have hss := (extractLocations_iff.1 hq.srcs).2
  have hrs := (extractLocations_iff.1 hq.rcvs).2
  have hms := ((extractModels_iff hnb).1 hq.models).2
  simp only at hss hrs hms
  obtain ⟨hmods, hPm⟩ := (extractModels_iff hnb).1 h.models
  have hPs := (extractLocations_iff.1 h.srcs).2
  have hPr := (extractLocations_iff.1 h.rcvs).2
  obtain ⟨r, hr1, hr2, hr3⟩ := scalar_eq hq hs hP (fun l hl => hloc l (.inl hl)) (fun l hl => hloc l (.inr (.inr hl)))
    hcf hi (.inr hnt)
  have l1 : ((shotIn A.setup P A.opts.timeTaper s).src 0) = (locAt ss 0).cells (P.n false) s := by
    rw [hss]
    simp only [ShotIn.src, shotIn, hPs]
    rfl
  have l2 : ((shotIn A.setup P A.opts.timeTaper s).rcv 0) = (locAt rs 0).cells (P.n false) s := by
    rw [hrs]
    simp only [ShotIn.rcv, shotIn, hPr]
    rfl
  have n1 : ((locAt ss 0).cells (P.n false) s).length = (locAt ss 0).n := by simp [IdxT.cells]
  have n2 : ((locAt rs 0).cells (P.n false) s).length = (locAt rs 0).n := by simp [IdxT.cells]
  have g1 := fun i => cells_get (P.n false) (locAt ss 0) s i
  have g2 := fun i => cells_get (P.n false) (locAt rs 0) s i
  have hrun := run_cfgAt A (A.wf.init s) (A.wfsc.init s) cf (shotIn A.setup P A.opts.timeTaper s) l1 l2 rfl n1 n2 rfl
    (src := fun i => cellOf (P.n false) ((locAt ss 0).val s i))
    (rcv := fun i => cellOf (P.n false) ((locAt rs 0).val s i)) g1 g2 (fun _ => rfl)
  have hwf := wf_cfgAt l1 l2 rfl n1 n2 rfl
    (src := fun i => cellOf (P.n false) ((locAt ss 0).val s i))
    (rcv := fun i => cellOf (P.n false) ((locAt rs 0).val s i)) g1 g2 (fun _ => rfl) hR.wf
  set B := cfgAt (shotIn A.setup P A.opts.timeTaper s) (fun i => cellOf (P.n false) ((locAt ss 0).val s i))
    (fun i => cellOf (P.n false) ((locAt rs 0).val s i)) ((shotIn A.setup P A.opts.timeTaper s).rcv 1).get with hB
  obtain ⟨b, hb1, hb2, hb3, hb4, hb5⟩ := runWith_spec A (A.wf.init s) (A.wfsc.init s) cf
    (shotIn A.setup P A.opts.timeTaper s) B hwf.base hR.ratio
    (cb_pos hcf hR.ratio (.inr hnt)) (finite_of_pmlOk h hP false)
  have hcall : A.born s = .ok (some b) := call_ok.2 ⟨not_noElements h hnb (m := (A.v, .replicate))
    List.mem_cons_self, P, cf, h, hcf, hrun.trans hb1⟩
  have hC : cfg (locAt ss 0).n (locAt rs 0).n {P with models := ms, srcs := ss, rcvs := rs} s = B.base := by
    have hv : shotModel ms 0 s = B.base.v := by
      show _ = (shotIn A.setup P A.opts.timeTaper s).model 0
      simp only [ShotIn.model, shotIn, hPm, hms]
      rfl
    unfold cfg
    rw [hv]
    rfl
  refine ⟨r, b, hr1, hcall, ?_, fun i hi' => ?_⟩
  · rw [hb2, hr2]
    dsimp only
    rw [hC]
    rfl
  · have hl : (locAt rs 0).n = locCount A.bgRcv := by
      rw [← n2, ← l2]
      exact (rcv_placed h hs A.opts.timeTaper (j := 0) rfl fun l hl => hloc l (.inr (.inr hl))).length
    rw [← hl] at hi'
    have := hr3 ⟨i, hi'⟩
    dsimp only at this
    rw [hC] at this
    rw [this, hb4, traces_lt _ _ hi']
    show downS P A.opts.timeTaper _ = downS P A.opts.timeTaper _
    congr 2
    funext t
    show (if t < P.nt.toNat / B.base.ratio * B.base.ratio then _ else _ : Fin _ → ℝ) _ =
      if t < P.nt.toNat / B.base.ratio * B.base.ratio then _ else _
    by_cases ht : t < P.nt.toNat / B.base.ratio * B.base.ratio
    · rw [if_pos ht, if_pos ht]
      rfl
    · rw [if_neg ht, if_neg ht]

/-! ### Example -/

/-- A scattering potential in one cell. -/
noncomputable def exD : UArgs 2 :=
  {exU .none with scatter := ⟨none, ![7, 9], fun _ c => if c = ![3, 4] then 5 else 0⟩}

noncomputable def exDP : Plan 2 := exPl false ![(0, 7), (0, 9)] exD.setup.models exD.setup.srcs exD.setup.rcvs

noncomputable def exDQ (A : Scalar.UArgs 2) : Plan 2 :=
  exPl false ![(0, 7), (0, 9)] A.setup.models A.setup.srcs A.setup.rcvs

theorem exD_good : exD.setup.Good exDP := by
  refine exO_good (fun l hl => ?_) (fun a ha => ?_) (exU_noWf (sp := .none)) (fun m hm => ?_) (by simp) rfl rfl rfl (by decide)
    (by unfold LocT.Ignored LocT.Inside; decide +kernel) (by decide +kernel)
  · simpa [exD, exU] using hl
  · simpa [exD, exU] using ha
  · simp only [List.mem_cons, List.not_mem_nil, or_false] at hm
    rcases hm with rfl | rfl <;> exact ⟨rfl, rfl⟩

theorem exD_scalar {v : ModelT 2 ℝ} {w : UWf 2} {rcv : Option LocT} (hv : v.nb = none ∧ v.shape = ![7, 9])
    (hw : w = ⟨none, none, fun _ => none, fun _ => none⟩) (hr : rcv = some exLoc ∨ rcv = none) :
    (exD.toScalar v w rcv false).setup.Good (exDQ (exD.toScalar v w rcv false)) := by
  subst hw
  refine exO_good (st := false) (ms := [(v, .replicate)]) (amps := [some exAmp]) (srcs := [some exLoc]) (rcvs := [rcv])
    (wfs := [none, none, none, none, none, none]) (fun l hl => ?_) (fun a ha => ?_) (fun w hw => ?_)
    (fun m hm => ?_) (by simp) rfl rfl rfl (by decide)
    (by unfold LocT.Ignored LocT.Inside; decide +kernel) ?_
  · rcases hr with rfl | rfl <;> simpa using hl
  · simpa using ha
  · simp at hw
  · simp only [List.mem_cons, List.not_mem_nil, or_false] at hm
    subst hm
    exact hv
  · rcases hr with rfl | rfl <;> decide +kernel

example : ∃ (r : ℝ → Scalar.UShot 2) (b : UShot 2), (∀ e, (exD.scalarAt e false).scalar 1 = .ok (some (r e))) ∧
    exD.born 1 = .ok (some b) ∧
    ∀ t < (b.traces 0).len, HasDerivAt (fun e => ((r e).traces 0).val t) ((b.traces 0).val t) 0 := by
  obtain ⟨r, b, h1, h2, h3, -⟩ := C102_born_is_derivative exD exDP _ 1 1 false (plan_ok.2 exD_good)
    (plan_ok.2 (exD_scalar ⟨rfl, rfl⟩ rfl (.inl rfl))) rfl (by simp [exD, exU, exO]) (by norm_num [exDP, exPl])
    (.inl (by norm_num [exDP, exPl])) (exU_locs (by norm_num)) rfl (by norm_num [exDP, exPl])
    (.inl (by norm_num [exDP, exPl])) (by
      rintro b x - ⟨k, hk⟩
      refine if_neg fun e => ?_
      subst e
      revert k
      show ∀ k : Fin 2, (![3, 4] : Fin 2 → ℤ) k = ((![(0, 7), (0, 9)] : Fin 2 → ℤ × ℤ) k).1 ∨
        (![3, 4] : Fin 2 → ℤ) k = ((![(0, 7), (0, 9)] : Fin 2 → ℤ × ℤ) k).2 - 1 → False
      decide)
  exact ⟨r, b, h1, h2, (h3 0 (by decide)).2⟩

example : ∃ (r : Scalar.UShot 2) (b : UShot 2), (exD.background false).scalar 0 = .ok (some r) ∧
    exD.born 0 = .ok (some b) ∧ b.out = r.out := by
  obtain ⟨r, b, h1, h2, h3, -⟩ := C102_background exD exDP _ 0 1 false (plan_ok.2 exD_good)
    (plan_ok.2 (exD_scalar ⟨rfl, rfl⟩ rfl (.inr rfl))) rfl (by norm_num [exDP, exPl])
    (.inl (by norm_num [exDP, exPl])) (exU_locs (by norm_num)) rfl (by norm_num [exDP, exPl])
    (.inl (by norm_num [exDP, exPl]))
  exact ⟨r, b, h1, h2, h3⟩

end Dw.Born
