import Verif.Setup.Crop
import Verif.Scalar.UserWF

/-!
# Properties of the function `scalar`
-/

namespace Dw.Scalar

open Setup Resample

variable {d : ℕ}

/-- Outputs depend on the setup only through what the propagator gets. -/
theorem UArgs.shot_congr' {A A' : UArgs d} {P P' : Plan d} {cf : ℤ} {ns nr s s' : ℕ}
    (hc : ∀ g cb f w, (cfg ns nr P' s').forward g cb P.nt.toNat (Born.scaleAmp (cfg ns nr P' s') f) w =
      (cfg ns nr P s).forward g cb P.nt.toNat (Born.scaleAmp (cfg ns nr P s) f) w)
    (hnt : P'.nt = P.nt) (hp : Finite (P'.pml false) ↔ Finite (P.pml false))
    (hg : A'.grad = A.grad) (hcb : A'.callback = A.callback) (htt : A'.timeTaper = A.timeTaper)
    (hr : P'.ratio = P.ratio) (hff : P'.ff = P.ff) (htf : P'.tf = P.tf)
    (ha : ∀ i < ns, ∀ t, upAmps P' A'.timeTaper A'.amps s' t i = upAmps P A.timeTaper A.amps s t i)
    (hi : A'.init s' = A.init s) :
    A'.shot P' cf ns nr s' = A.shot P cf ns nr s := by
  have hd : ∀ x, downS P' A'.timeTaper x = downS P A.timeTaper x := fun x => by
    simp only [downS, hr, hff, htf, htt]
  have hamp : (fun (t : ℕ) (i : Fin ns) => upAmps P' A'.timeTaper A'.amps s' t i) =
      fun (t : ℕ) (i : Fin ns) => upAmps P A.timeTaper A.amps s t i := by
    funext t i
    exact ha i i.isLt t
  have hp' : Finite (P'.pml false) = Finite (P.pml false) := propext hp
  unfold UArgs.shot
  simp only [hnt, hg, hcb, hi, hd, hamp, hc]
  rw [hp']

theorem UArgs.shot_congr {A A' : UArgs d} {P P' : Plan d} {cf : ℤ} {ns nr s s' : ℕ}
    (hc : cfg ns nr P' s' = cfg ns nr P s) (hnt : P'.nt = P.nt) (hp : P'.pml false = P.pml false)
    (hg : A'.grad = A.grad) (hcb : A'.callback = A.callback) (htt : A'.timeTaper = A.timeTaper)
    (hr : P'.ratio = P.ratio) (hff : P'.ff = P.ff) (htf : P'.tf = P.tf)
    (ha : ∀ i < ns, ∀ t, upAmps P' A'.timeTaper A'.amps s' t i = upAmps P A.timeTaper A.amps s t i)
    (hi : A'.init s' = A.init s) :
    A'.shot P' cf ns nr s' = A.shot P cf ns nr s :=
  UArgs.shot_congr' (fun g cb f w => by rw [hc]) hnt (by rw [hp]) hg hcb htt hr hff htf ha hi

/-! ### Some of the shots -/

/-- The arguments of a call with shots `σ 0, …, σ (nb' - 1)` of `A`. -/
def UArgs.select (A : UArgs d) (σ : ℕ → ℕ) (nb' : ℕ) : UArgs d :=
  { A with
    v := A.v.select σ nb'
    amps := A.amps.map (AmpT.select σ nb')
    src := A.src.map (LocT.select σ nb')
    rcv := A.rcv.map (LocT.select σ nb')
    wfc := A.wfc.map (WfT.select σ nb')
    wfp := A.wfp.map (WfT.select σ nb')
    psi := fun k => (A.psi k).map (WfT.select σ nb')
    zeta := fun k => (A.zeta k).map (WfT.select σ nb') }

theorem UArgs.select_setup (A : UArgs d) (σ : ℕ → ℕ) (nb' : ℕ) :
    (A.select σ nb').setup = A.setup.select σ nb' (maxAbs (A.v.select σ nb')) := by
  simp only [UArgs.setup, UArgs.select, SetupArgs.select, List.map_append, List.map_ofFn,
    List.map_cons, List.map_nil]
  rfl

/-- The call has `nb` shots: that is the size of the first dimension of the sources, or of a wavefield
if there are none. -/
def UArgs.Batch (A : UArgs d) (nb : ℕ) : Prop :=
  (∀ l, A.src = some l → l.nb = nb) ∧
  ∀ w, A.wfc = some w ∨ A.wfp = some w ∨ (∃ k, A.psi k = some w) ∨ (∃ k, A.zeta k = some w) → w.nb = nb

/-- No wavefields are given. -/
def UArgs.NoWavefields (A : UArgs d) : Prop :=
  A.wfc = none ∧ A.wfp = none ∧ ∀ k, A.psi k = none ∧ A.zeta k = none

theorem UArgs.mem_wfs {A : UArgs d} {w : WfT d} : some w ∈ A.setup.wfs ↔
    A.wfc = some w ∨ A.wfp = some w ∨ (∃ k, A.psi k = some w) ∨ ∃ k, A.zeta k = some w := by
  simp only [UArgs.setup, List.mem_append, List.mem_cons, List.not_mem_nil, or_false, List.mem_ofFn]
  rw [eq_comm (a := some w), eq_comm (a := some w)]
  tauto

theorem UArgs.NoWavefields.not_mem {A : UArgs d} (h : A.NoWavefields) (w : WfT d) :
    some w ∉ A.setup.wfs := by
  rw [UArgs.mem_wfs]
  rintro (h1 | h1 | ⟨k, h1⟩ | ⟨k, h1⟩)
  · rw [h.1] at h1; cases h1
  · rw [h.2.1] at h1; cases h1
  · rw [(h.2.2 k).1] at h1; cases h1
  · rw [(h.2.2 k).2] at h1; cases h1

theorem UArgs.Batch.eq {A : UArgs d} {nb n : ℕ} (h : A.Batch nb)
    (hn : getNBatch A.setup.srcs A.setup.wfs = .ok n) : n = nb := by
  have := getNBatch_select hn rfl rfl (nb' := nb)
    (fun l hl => h.1 l (by
      simp only [UArgs.setup, List.mem_cons, List.not_mem_nil, or_false] at hl
      exact hl.symm))
    (fun w hw => h.2 w (UArgs.mem_wfs.1 hw))
  rw [hn] at this
  exact Except.ok.inj this

theorem locAt_select (l : List IdxT) (σ : ℕ → ℕ) (nb' : ℕ) :
    (locAt (l.map (IdxT.select σ nb')) 0).n = (locAt l 0).n ∧
      ∀ s i, (locAt (l.map (IdxT.select σ nb')) 0).val s i = (locAt l 0).val (σ s) i := by
  cases l with
  | nil => exact ⟨rfl, fun _ _ => rfl⟩
  | cons a l => exact ⟨rfl, fun _ _ => rfl⟩

theorem shotModel_select (ms : List (ModelT d ℝ)) (σ : ℕ → ℕ) {nb' s : ℕ} (hs : s < nb') :
    shotModel (ms.map (ModelT.select σ nb')) 0 s = shotModel ms 0 (σ s) := by
  cases ms with
  | nil => simp [shotModel]
  | cons m ms =>
      simp only [shotModel, List.map_cons, List.getD_cons_zero, ModelT.select]
      split_ifs with h1 h3
      · rfl
      · simp only [Option.getD_some] at h3
        obtain rfl : s = 0 := by omega
        rfl
      · rfl

theorem cfg_select (ns nr : ℕ) (P : Plan d) (σ : ℕ → ℕ) {nb' s : ℕ} (hs : s < nb') :
    cfg ns nr (P.select σ nb') s = cfg ns nr P (σ s) := by
  have e1 := shotModel_select P.models σ hs
  have e2 := (locAt_select P.srcs σ nb').2
  have e3 := (locAt_select P.rcvs σ nb').2
  unfold cfg
  simp only [show (P.select σ nb').models = P.models.map (ModelT.select σ nb') from rfl,
    show (P.select σ nb').srcs = P.srcs.map (IdxT.select σ nb') from rfl,
    show (P.select σ nb').rcvs = P.rcvs.map (IdxT.select σ nb') from rfl, e1, e2, e3]
  rfl

theorem upAmps_select (P : Plan d) (tt : Bool) (a : Option AmpT) (σ : ℕ → ℕ) (nb' s : ℕ) :
    upAmps (P.select σ nb') tt (a.map (AmpT.select σ nb')) s = upAmps P tt a (σ s) := by
  cases a <;> rfl

theorem init_select (A : UArgs d) (σ : ℕ → ℕ) (nb' s : ℕ) : (A.select σ nb').init s = A.init (σ s) := by
  have e : ∀ o : Option (WfT d), (o.map (WfT.select σ nb')).map (fun w => w.val s) =
      o.map fun w => w.val (σ s) := fun o => by cases o <;> rfl
  simp only [UArgs.init, UArgs.select, e]

/-- **C79** A call with some of the shots of another call, in any order and possibly repeated, gives for
each of them what the other call gives. -/
theorem C79_shots_of_a_call (A : UArgs d) (σ : ℕ → ℕ) (nb nb' s : ℕ) (r : Option (UShot d))
    (hb : A.Batch nb) (hσ : ∀ s < nb', σ s < nb) (hs : s < nb') (hsp : A.surveyPad = .none)
    (hmv : A.maxVel = none → A.v.nb.getD 1 = 1)
    (hact : A.NoWavefields ∨ ∀ l, A.src = some l ∨ A.rcv = some l → ∀ k < d, ∃ s < nb', ∃ i < l.n,
      l.val (σ s) i k ≠ (ignoreLocation : ℚ))
    (h : A.scalar (σ s) = .ok r) : (A.select σ nb').scalar s = .ok r := by
  obtain ⟨h0, P, cf, hP, hcf, hsh⟩ := scalar_ok.1 h
  have hnb := hb.eq hP.nb
  have hG : (A.select σ nb').setup.Good (P.select σ nb') := by
    rw [A.select_setup]
    refine hP.select (by omega) (fun s hs => by rw [hnb]; exact hσ s hs) hsp (fun hm => ?_) ?_
    · have : A.v.select σ nb' = A.v := if_pos (hmv hm)
      rw [this]
      rfl
    · rintro ⟨w, hw⟩ l hl k hk
      have hl' : A.src = some l ∨ A.rcv = some l := by
        simp only [UArgs.setup, List.cons_append, List.nil_append, List.mem_cons, List.not_mem_nil,
          or_false] at hl
        exact hl.imp Eq.symm Eq.symm
      have hkd : k < d := by
        have e := extractLocations_iff.1 hP.srcs
        have e' := extractLocations_iff.1 hP.rcvs
        rcases List.mem_append.1 hl with hl | hl
        · rw [← (e.1 l hl).nd]; exact hk
        · rw [← (e'.1 l hl).nd]; exact hk
      rcases hact with hn | hact
      · exact absurd hw (hn.not_mem w)
      · obtain ⟨s, hs, i, hi, hv⟩ := hact l hl' k hkd
        exact List.ne_nil_of_mem (LocT.mem_active.2 ⟨s, hs, i, hi, rfl, hv⟩)
  refine scalar_ok.2 ⟨?_, _, cf, hG, hcf, ?_⟩
  · rintro (h1 | ⟨k, h1⟩)
    · refine h0 (.inl ?_)
      simp only [UArgs.select, ModelT.select] at h1
      split_ifs at h1 with h2
      · exact h1
      · simp at h1
        omega
    · refine h0 (.inr ⟨k, ?_⟩)
      rw [show (A.select σ nb').v = A.v.select σ nb' from rfl, A.v.select_shape] at h1
      exact h1
  · rw [show (P.select σ nb').srcs = P.srcs.map (IdxT.select σ nb') from rfl,
      show (P.select σ nb').rcvs = P.rcvs.map (IdxT.select σ nb') from rfl, (locAt_select _ _ _).1,
      (locAt_select _ _ _).1, ← hsh]
    exact UArgs.shot_congr (cfg_select _ _ P σ hs) rfl rfl rfl rfl rfl rfl rfl rfl
      (fun i _ t => by
        rw [show (A.select σ nb').amps = A.amps.map (AmpT.select σ nb') from rfl,
          show (A.select σ nb').timeTaper = A.timeTaper from rfl, upAmps_select])
      (init_select A σ nb' s)

/-! ### The sign of `dt` -/

/-- The same with the opposite time step. -/
def Cfg.negDt {ns nr : ℕ} (C : Cfg d ns nr ℝ) : Cfg d ns nr ℝ := {C with dt := -C.dt}

theorem Cfg.forward_negDt {ns nr : ℕ} (C : Cfg d ns nr ℝ) (g : Bool) (cb : Option ℕ) (nt : ℕ)
    (f : ℕ → Fin ns → ℝ) (w : Init d ℝ) :
    C.negDt.forward g cb nt f w = C.forward g cb nt f w := by
  have e : C.negDt.fwdArgs = C.fwdArgs := by
    simp only [Cfg.fwdArgs, Cfg.negDt, neg_sq]
    rfl
  have e2 : ∀ m c, C.negDt.fwdChunk g f m c = C.fwdChunk g f m c :=
    fun m c => by
      unfold Cfg.fwdChunk
      rw [e]
      rfl
  have e3 : C.negDt.fwdChunk g f = C.fwdChunk g f := by
    funext m c
    exact e2 m c
  unfold Cfg.forward
  simp only [e3]
  rfl

theorem setPmlFreq_neg (f : Option PyNum) (q : ℚ) : setPmlFreq f (.float (-q)) = setPmlFreq f (.float q) := by
  unfold setPmlFreq
  simp only [neg_eq_zero]

theorem cflConditionN_neg (dx : List ℝ) (dt v : ℝ) :
    cflConditionN dx (-dt) v = (cflConditionN dx dt v).map fun c => (-c.1, c.2) := by
  unfold cflConditionN
  simp only [abs_neg]
  split_ifs <;> simp [Except.map, neg_div]

theorem SetupArgs_negDt {A : SetupArgs d} {P : Plan d} (h : A.Good P) :
    ({A with dt := -A.dt} : SetupArgs d).Good {P with dt := -P.dt} :=
  { h with
    cfl := by
      show cflConditionN _ (((-A.dt : ℚ)) : ℝ) _ = _
      rw [Rat.cast_neg, cflConditionN_neg, h.cfl]
      rfl
    freq := by
      have := h.freq
      have e : ((-A.dt : ℚ) / P.ratio) = -(A.dt / P.ratio) := neg_div _ _
      show setPmlFreq A.pmlFreq (.float ((-A.dt : ℚ) / P.ratio)) = _
      rw [e, setPmlFreq_neg]
      exact this }

theorem pml_negDt (P : Plan d) (st : Bool) : (({P with dt := -P.dt} : Plan d).pml st).ab = (P.pml st).ab ∧
    (({P with dt := -P.dt} : Plan d).pml st).db = (P.pml st).db := by
  have e : (({P with dt := -P.dt} : Plan d).pml st).ab = (P.pml st).ab := by
    funext start k i
    simp only [PmlArgs.ab, setupPml, Plan.pml, abs_neg]
    rfl
  refine ⟨e, ?_⟩
  funext k i
  unfold PmlArgs.db
  rw [e]
  rfl

/-- **C80** The sign of `dt` has no effect. -/
theorem C80_sign_of_dt (A : UArgs d) (s : ℕ) (r : Option (UShot d)) :
    ({A with dt := -A.dt} : UArgs d).scalar s = .ok r ↔ A.scalar s = .ok r := by
  have key : ∀ A : UArgs d, A.scalar s = .ok r → ({A with dt := -A.dt} : UArgs d).scalar s = .ok r := by
    intro A h
    obtain ⟨h0, P, cf, hP, hcf, hsh⟩ := scalar_ok.1 h
    refine scalar_ok.2 ⟨h0, {P with dt := -P.dt}, cf, SetupArgs_negDt hP, hcf, ?_⟩
    rw [← hsh]
    obtain ⟨e1, e2⟩ := pml_negDt P false
    have ec : ∀ ns nr, cfg ns nr {P with dt := -P.dt} s = (cfg ns nr P s).negDt := by
      intro ns nr
      unfold cfg
      rw [e1, e2]
      rfl
    refine UArgs.shot_congr' (fun g cb f w => ?_) rfl ?_ rfl rfl rfl rfl rfl rfl (fun _ _ _ => rfl) rfl
    · rw [ec, Cfg.forward_negDt]
      congr 1
      funext t i
      simp only [Born.scaleAmp, Cfg.negDt, neg_sq]
    · unfold Finite
      rw [e1, e2]
  refine ⟨fun h => ?_, key A⟩
  have := key _ h
  simpa using this

/-! ### Cropping -/

/-- The arguments with the model and the locations restricted to `ext`. -/
def UArgs.crop (A : UArgs d) (ext : Fin d → ℤ × ℤ) : UArgs d :=
  { A with
    v := A.v.crop ext
    src := A.src.map (LocT.crop ext)
    rcv := A.rcv.map (LocT.crop ext)
    surveyPad := .none, origin := none }

theorem locAt_crop {A : SetupArgs d} {P : Plan d} (h : A.Good P) {ls : List (Option LocT)}
    (hls : ∀ l, some l ∈ ls → some l ∈ A.srcs ++ A.rcvs ∧ l.nb = P.nb) (p0 p1 : Fin d → ℤ) (j : ℕ) :
    (locAt ((ls.map (Option.map (LocT.crop P.ext))).map (idxOpt (cropExt P.ext) p0 p1 P.nb)) j).n =
      (locAt (ls.map (idxOpt P.ext p0 p1 P.nb)) j).n ∧
    ∀ s < P.nb, ∀ i < (locAt (ls.map (idxOpt P.ext p0 p1 P.nb)) j).n,
      (locAt ((ls.map (Option.map (LocT.crop P.ext))).map (idxOpt (cropExt P.ext) p0 p1 P.nb)) j).val s i =
        (locAt (ls.map (idxOpt P.ext p0 p1 P.nb)) j).val s i := by
  obtain ⟨hext, hin⟩ := h.in_extents
  simp only [locAt, List.getD_eq_getElem?_getD, List.getElem?_map]
  cases hj : ls[j]? with
  | none => simp
  | some o =>
      cases o with
      | none => simp [idxOpt]
      | some l =>
          obtain ⟨h1, h2⟩ := hls l (List.mem_of_getElem? hj)
          simp only [Option.map_some, Option.getD_some, idxOpt]
          exact ⟨rfl, fun s hs i hi => idxOf_crop (fun k => (hext k).1) (hin l h1) p0 p1 (by omega) hi⟩

/-- **C81** The extents that `scalar` chooses (see `C15` and `C18`) restrict the computation to that part of
the model: the call with the model cropped by hand gives the same. -/
theorem C81_cropped_by_hand (A : UArgs d) (P : Plan d) (s : ℕ) (r : Option (UShot d))
    (hP : A.setup.plan = .ok P) (hs : s < P.nb)
    (hmv : A.maxVel = none → maxAbs (A.v.crop P.ext) = maxAbs A.v)
    (hact : A.NoWavefields ∨ ∀ l, A.src = some l ∨ A.rcv = some l → ∀ k < d, ∃ s < l.nb, ∃ i < l.n,
      l.val s i k ≠ (ignoreLocation : ℚ))
    (h : A.scalar s = .ok r) : (A.crop P.ext).scalar s = .ok r := by
  obtain ⟨h0, P', cf, hP', hcf, hsh⟩ := scalar_ok.1 h
  obtain rfl : P = P' := by
    have := plan_ok.2 hP'
    rw [hP] at this
    exact Except.ok.inj this
  have hnb : 0 < P.nb := by omega
  have hG : (A.crop P.ext).setup.Good (P.crop A.setup) := by
    have e : (A.crop P.ext).setup = A.setup.crop P.ext (maxAbs (A.v.crop P.ext)) := rfl
    rw [e]
    refine hP'.crop hnb (UArgs.Good.ext_lt hP' hnb) hmv ?_
    rintro ⟨w, hw⟩ l hl k hk
    have hl' : A.src = some l ∨ A.rcv = some l := by
      simp only [UArgs.setup, List.cons_append, List.nil_append, List.mem_cons, List.not_mem_nil,
        or_false] at hl
      exact hl.imp Eq.symm Eq.symm
    have hkd : k < d := by
      have e := extractLocations_iff.1 hP'.srcs
      have e' := extractLocations_iff.1 hP'.rcvs
      rcases List.mem_append.1 hl with hl | hl
      · rw [← (e.1 l hl).nd]; exact hk
      · rw [← (e'.1 l hl).nd]; exact hk
    rcases hact with hn | hact
    · exact absurd hw (hn.not_mem w)
    · obtain ⟨s, hs, i, hi, hv⟩ := hact l hl' k hkd
      exact List.ne_nil_of_mem (LocT.mem_active.2 ⟨s, hs, i, hi, rfl, hv⟩)
  have hsrc := extractLocations_iff.1 hP'.srcs
  have hrcv := extractLocations_iff.1 hP'.rcvs
  obtain ⟨n1, v1⟩ := locAt_crop hP' (ls := A.setup.srcs)
    (fun l hl => ⟨List.mem_append_left _ hl, (hsrc.1 l hl).batch⟩) (padBegin P.accZ P.wL)
    (padEnd false P.accZ P.wL) 0
  obtain ⟨n2, v2⟩ := locAt_crop hP' (ls := A.setup.rcvs)
    (fun l hl => ⟨List.mem_append_right _ hl, (hrcv.1 l hl).batch⟩) (padBegin P.accZ P.wL)
    (padEnd false P.accZ P.wL) 0
  have e1 : locAt P.srcs 0 = locAt (A.setup.srcs.map (idxOpt P.ext (padBegin P.accZ P.wL)
    (padEnd false P.accZ P.wL) P.nb)) 0 := by rw [hsrc.2]; rfl
  have e2 : locAt P.rcvs 0 = locAt (A.setup.rcvs.map (idxOpt P.ext (padBegin P.accZ P.wL)
    (padEnd false P.accZ P.wL) P.nb)) 0 := by rw [hrcv.2]; rfl
  rw [← e1] at n1 v1
  rw [← e2] at n2 v2
  have hn : (P.crop A.setup).n false = P.n false := paddedShape_crop _ _ _
  refine scalar_ok.2 ⟨?_, _, cf, hG, hcf, ?_⟩
  · rintro (h1 | ⟨k, h1⟩)
    · exact h0 (.inl h1)
    · have := UArgs.Good.ext_lt hP' hnb k
      simp only [UArgs.crop, ModelT.crop] at h1
      omega
  · rw [show (locAt (P.crop A.setup).srcs 0).n = _ from n1, show (locAt (P.crop A.setup).rcvs 0).n = _ from n2,
      ← hsh]
    refine UArgs.shot_congr ?_ rfl ?_ rfl rfl rfl rfl rfl rfl (fun _ _ _ => rfl) rfl
    · have hp : (P.crop A.setup).pml false = P.pml false := by
        unfold Plan.pml
        rw [hn]
        rfl
      unfold cfg
      rw [hn, hp]
      have f1 : (fun i : Fin (locAt P.srcs 0).n => cellOf (P.n false) ((locAt (P.crop A.setup).srcs 0).val s i)) =
          fun i : Fin (locAt P.srcs 0).n => cellOf (P.n false) ((locAt P.srcs 0).val s i) := by
        funext i
        exact congrArg _ (v1 s hs i i.isLt)
      have f2 : (fun i : Fin (locAt P.rcvs 0).n => cellOf (P.n false) ((locAt (P.crop A.setup).rcvs 0).val s i)) =
          fun i : Fin (locAt P.rcvs 0).n => cellOf (P.n false) ((locAt P.rcvs 0).val s i) := by
        funext i
        exact congrArg _ (v2 s hs i i.isLt)
      rw [f1, f2]
      rfl
    · unfold Plan.pml
      rw [hn]
      rfl

/-- **C81** With `max_vel` given, the values of the model outside the extents have no effect. -/
theorem C81_model_outside (A : UArgs d) (v' : ModelT d ℝ) (P : Plan d) (s : ℕ) (r : Option (UShot d))
    (hP : A.setup.plan = .ok P) (hs : s < P.nb) (hmv : A.maxVel ≠ none) (hnb' : v'.nb = A.v.nb)
    (hsh' : v'.shape = A.v.shape)
    (hv : ∀ s c, (∀ k, (P.ext k).1 ≤ c k ∧ c k < (P.ext k).2) → v'.val s c = A.v.val s c)
    (h : A.scalar s = .ok r) : ({A with v := v'} : UArgs d).scalar s = .ok r := by
  obtain ⟨h0, P', cf, hP', hcf, hsh⟩ := scalar_ok.1 h
  obtain rfl : P = P' := by
    have := plan_ok.2 hP'
    rw [hP] at this
    exact Except.ok.inj this
  have hnb : 0 < P.nb := by omega
  have hmod := (extractModels_iff hnb).1 hP'.models
  have hg := hmod.1 (A.v, .replicate) (by simp [UArgs.setup])
  have hext := hP'.in_extents.1
  have hlt := UArgs.Good.ext_lt hP' hnb
  have hG : ({A with v := v'} : UArgs d).setup.Good P :=
    { hP' with
      maxVel := by
        have := hP'.maxVel
        unfold setMaxVelR at this ⊢
        simp only [UArgs.setup] at this ⊢
        cases hm : A.maxVel with
        | none => exact absurd hm hmv
        | some x => rw [hm] at this; exact this
      ext := by
        have := hP'.ext
        simp only [UArgs.setup, SetupArgs.shape] at this ⊢
        rw [hsh']
        exact this
      models := by
        refine (extractModels_iff hnb).2 ⟨fun m hm => ?_, ?_⟩
        · obtain rfl : m = (v', .replicate) := by simpa [UArgs.setup] using hm
          refine ⟨rfl, ?_, fun _ k => ?_⟩
          · simp only [hnb']
            exact hg.batch
          · simp only [hsh']
            exact hg.box rfl k
        · rw [hmod.2]
          simp only [UArgs.setup, List.map_cons, List.map_nil, List.cons.injEq, and_true, modelOf, hnb', hsh',
            ModelT.mk.injEq, true_and]
          funext s c
          simp only [fPad]
          refine (hv s _ fun k => ?_).symm
          have h1 := hlt k
          have h2 := hext k
          have h3 : A.setup.shape k = A.v.shape k := rfl
          simp only [sliceLen]
          omega }
  refine scalar_ok.2 ⟨?_, P, cf, hG, hcf, ?_⟩
  · simp only [NoElements, hnb', hsh']
    exact h0
  · rw [← hsh]
    exact UArgs.shot_congr rfl rfl rfl rfl rfl rfl rfl rfl rfl (fun _ _ _ => rfl) rfl

/-! An instance: two shots in a model of 7 x 9 cells, with two sources and receivers per shot (one of each
ignored in the second shot), a PML of 3 cells and a time step that is too large by a factor between two
and three. -/

noncomputable def exU (sp : SurveyPad) : UArgs 2 :=
  { v := ⟨none, ![7, 9], fun _ c => 990 + c 0⟩, gridSpacing := .seq [.int 3, .int 4], dt := 4 / 1000
    amps := some ⟨2, 2, 5, fun s i t => s + i * t⟩, src := some exLoc, rcv := some exLoc
    accuracy := .int 4, pmlWidth := .one (.int 3), pmlFreq := none, maxVel := some (.int 1000)
    surveyPad := sp, wfc := none, wfp := none, psi := fun _ => none, zeta := fun _ => none
    origin := none, nt := none, interval := .int 1, freqTaperFrac := .float 0, timePadFrac := .float 0
    timeTaper := false, callback := false, callbackFreq := .int 1, grad := true, eps := 1 / 10 }

noncomputable def exP (ext : Fin 2 → ℤ × ℤ) : Plan 2 :=
  { nb := 2, dxL := [3, 4], maxVel := 1000, dt := (4 / 1000 : ℚ) / (3 : ℤ), ratio := 3, accZ := 4
    wL := [3, 3, 3, 3], freq := 25, nt := 15, interval := 1, ff := 0, tf := 0, ext := ext
    models := [modelOf ext (padList (d := 2) (padBegin 4 [3, 3, 3, 3]) (padEnd false 4 [3, 3, 3, 3]))
      (⟨none, ![7, 9], fun _ c => 990 + c 0⟩, .replicate)]
    srcs := [idxOf ext (padBegin 4 [3, 3, 3, 3]) (padEnd false 4 [3, 3, 3, 3]) exLoc]
    rcvs := [idxOf ext (padBegin 4 [3, 3, 3, 3]) (padEnd false 4 [3, 3, 3, 3]) exLoc] }

theorem exU_cfl : cflConditionN [3, 4] ((4 / 1000 : ℚ) : ℝ) 1000 = .ok (((4 / 1000 : ℚ) : ℝ) / (3 : ℤ), 3) := by
  have hs : Real.sqrt ([3, 4].map fun h : ℝ => 1 / h ^ 2).sum = 5 / 12 := by
    rw [show ([3, 4].map fun h : ℝ => 1 / h ^ 2).sum = (5 / 12) ^ 2 by norm_num]
    exact Real.sqrt_sq (by norm_num)
  have hr : ⌈|((4 / 1000 : ℚ) : ℝ)| / maxDt [3, 4] 1000 1e-15 0.6⌉ = 3 := by
    rw [Int.ceil_eq_iff, maxDt, hs]
    push_cast
    rw [abs_of_pos (by norm_num)]
    norm_num
  unfold cflConditionN
  simp only [hr, List.cons_ne_nil, if_false]
  norm_num

theorem exU_good (sp : SurveyPad) (ext : Fin 2 → ℤ × ℤ) (he : ext = ![(1, 7), (0, 8)] ∨ ext = ![(0, 7), (0, 9)])
    (hsp : surveyExtents ![7, 9] [some exLoc, some exLoc] [none, none, none, none, none, none] sp none
      (exP ext).w0 (exP ext).w1 = .ok ext) : (exU sp).setup.Good (exP ext) := by
  have hin : ∀ s < exLoc.nb, ∀ i < exLoc.n, exLoc.Ignored 2 s i ∨ exLoc.Inside ext s i := by
    rcases he with rfl | rfl <;> (unfold LocT.Ignored LocT.Inside; decide +kernel)
  have hdup : ¬exLoc.Duplicates 2 := by unfold LocT.Duplicates LocT.Ignored; decide +kernel
  have h5 : padBegin (d := 2) 4 [3, 3, 3, 3] = fun _ => 2 + 3 := by decide
  have h6 : padEnd (d := 2) false 4 [3, 3, 3, 3] = fun _ => 2 + 3 := by decide
  obtain ⟨t, ht, -⟩ := (C16_rejected_iff_duplicates (d := 2) (1 / 10) ext (by norm_num) (fun _ => 2 + 3)
    (fun _ => 2 + 3) (by decide) (by decide) (by rcases he with rfl | rfl <;> decide) exLoc (by decide +kernel)
    rfl hin).2 hdup
  obtain ⟨g1, g2, g3, g4, rfl⟩ := extractLocation_iff.1 ht
  have hg : ∀ l, some l ∈ [some exLoc] → LocGood (1 / 10) ext (padBegin 4 [3, 3, 3, 3])
      (padEnd false 4 [3, 3, 3, 3]) 2 l := by
    intro l hl
    obtain rfl : l = exLoc := by simpa using hl
    rw [h5, h6]
    exact ⟨g1, g2, g3, g4⟩
  refine ⟨rfl, rfl, ?_, ?_, rfl, rfl, ?_, rfl, rfl, ?_, ?_, rfl, ?_, hsp, ?_, ?_, ?_, ?_⟩
  · simp [exU, UArgs.setup, setMaxVelR, PyNum.toFloat, exP]
  · have := exU_cfl
    simpa [exP, exU, UArgs.setup] using this
  · simp [exP, exU, UArgs.setup, setPmlFreq]
  · simp [exP, exU, UArgs.setup, setFrac, PyNum.toFloat]
  · simp [exP, exU, UArgs.setup, setFrac, PyNum.toFloat]
  · refine checkAmps_ok.2 fun a ha => ?_
    simp only [exU, UArgs.setup, List.mem_singleton, Option.some.injEq] at ha
    subst ha
    exact ⟨rfl, rfl, by simp [Resample.validate, exP]⟩
  · refine (extractModels_iff (by norm_num [exP] : 0 < (exP ext).nb)).2 ⟨fun m hm => ?_, rfl⟩
    simp only [exU, UArgs.setup, List.mem_singleton] at hm
    subst hm
    refine ⟨rfl, .inl rfl, fun _ => ?_⟩
    show ∀ k, 0 < sliceLen (ext k).1 (ext k).2 ((![7, 9] : Fin 2 → ℤ) k)
    rcases he with rfl | rfl <;> decide
  · exact extractLocations_iff.2 ⟨hg, rfl⟩
  · exact extractLocations_iff.2 ⟨hg, rfl⟩
  · exact prepareWavefields_ok.2 fun w hw => by simp [exU, UArgs.setup] at hw

theorem exU_cropped : (exU (.list [some 1, none, some 4, some 2])).setup.Good (exP ![(1, 7), (0, 8)]) :=
  exU_good _ _ (.inl rfl) (by decide +kernel)

theorem exU_whole : (exU .none).setup.Good (exP ![(0, 7), (0, 9)]) :=
  exU_good _ _ (.inr rfl) (by decide +kernel)

theorem exLoc_whole (s : ℕ) (hs : s < 2) : WholeIgnored 2 exLoc s := by
  have : ∀ s < 2, ∀ i < exLoc.n, exLoc.Ignored 2 s i ∨ ∀ k < 2, exLoc.val s i k ≠ (ignoreLocation : ℚ) := by
    unfold LocT.Ignored
    decide +kernel
  exact this s hs

theorem exU_result {sp : SurveyPad} {ext : Fin 2 → ℤ × ℤ} (h : (exU sp).setup.Good (exP ext)) (s : ℕ)
    (hs : s < 2) : ∃ r, (exU sp).scalar s = .ok (some r) := by
  have hl : ∀ l, some exLoc = some l → WholeIgnored 2 l s := fun l hl => by
    cases hl
    exact exLoc_whole s hs
  obtain ⟨r, hr, -⟩ := scalar_eq (cf := 1) h (s := s) hs (.inl (by norm_num [exP])) hl hl rfl
    (by norm_num [exP]) (.inr (.inl (by norm_num [exP])))
  exact ⟨r, hr⟩

/-- The second shot on its own. -/
example : ∃ r, (exU .none).scalar 1 = .ok (some r) ∧
    ((exU .none).select (fun _ => 1) 1).scalar 0 = .ok (some r) := by
  obtain ⟨r, hr⟩ := exU_result exU_whole 1 (by decide)
  refine ⟨r, hr, C79_shots_of_a_call (exU .none) (fun _ => 1) 2 1 0 (some r) ⟨?_, ?_⟩ (by decide) (by decide) rfl
    (fun h => by cases h) (.inl ⟨rfl, rfl, fun _ => ⟨rfl, rfl⟩⟩) hr⟩
  · intro l hl
    cases hl
    rfl
  · rintro w (h | h | ⟨k, h⟩ | ⟨k, h⟩) <;> cases h

/-- With a negative time step. -/
example : ∃ r, ({exU .none with dt := -(exU .none).dt} : UArgs 2).scalar 0 = .ok (some r) := by
  obtain ⟨r, hr⟩ := exU_result exU_whole 0 (by decide)
  exact ⟨r, (C80_sign_of_dt _ 0 _).2 hr⟩

/-- Rows 1 to 6 and columns 0 to 7 of the model. -/
example : ∃ r, (exU (.list [some 1, none, some 4, some 2])).scalar 0 = .ok (some r) ∧
    ((exU (.list [some 1, none, some 4, some 2])).crop ![(1, 7), (0, 8)]).scalar 0 = .ok (some r) := by
  obtain ⟨r, hr⟩ := exU_result exU_cropped 0 (by decide)
  exact ⟨r, hr, C81_cropped_by_hand _ _ 0 _ (plan_ok.2 exU_cropped) (by decide) (fun h => by cases h)
    (.inl ⟨rfl, rfl, fun _ => ⟨rfl, rfl⟩⟩) hr⟩

/-- A model that is different in row 0. -/
example : ∃ r, ({exU (.list [some 1, none, some 4, some 2]) with
    v := ⟨none, ![7, 9], fun _ c => if c 0 = 0 then 10 else 990 + c 0⟩} : UArgs 2).scalar 0 = .ok (some r) := by
  obtain ⟨r, hr⟩ := exU_result exU_cropped 0 (by decide)
  refine ⟨r, C81_model_outside _ _ _ 0 _ (plan_ok.2 exU_cropped) (by decide) (fun h => by cases h) rfl rfl
    (fun s c hc => ?_) hr⟩
  have h1 := hc 0
  refine if_neg fun h => ?_
  rw [h] at h1
  simp [exP] at h1

end Dw.Scalar
