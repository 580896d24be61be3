import Verif.Setup.Crop
import Verif.Scalar.User

/-!
# What a propagator gets for one shot

The part that `scalar_born`, `acoustic` and `elastic` share between `setup_propagator` and their drivers:
the padded model, the amplitudes at the internal time steps, the cells of the sources and receivers and
the arguments of `set_pml_profiles`, for one shot.
-/

namespace Dw.Setup

open Dw.Scalar (cellOf upAmps)
open Dw.Resample (Sig)

variable {d : ℕ}

/-- The results of `setup_propagator` for one shot, without the wavefields. -/
structure ShotIn (d : ℕ) where
  pml : PmlArgs d
  nt : ℤ
  ratio : ℤ
  interval : ℤ
  ff : ℚ
  tf : ℚ
  timeTaper : Bool
  models : List (Fld d ℝ)
  amps : List (ℕ → ℕ → ℝ)
  srcs : List (List (Option (Cell d)))
  rcvs : List (List (Option (Cell d)))

/-- The values of a model for shot `s` (`expand(n_shots, -1)`; the kernels do not advance by shots if the
batch dimension has size 1). -/
def ModelT.shot (m : ModelT d ℝ) (s : ℕ) : Fld d ℝ := m.val (if m.nb.getD 1 = 1 then 0 else s)

/-- The cells of one shot. -/
def IdxT.cells (n : Fin d → ℤ) (t : IdxT) (s : ℕ) : List (Option (Cell d)) :=
  (List.range t.n).map fun i => cellOf n (t.val s i)

/-- `setup_propagator` for shot `s` (`common.py` 551-628). -/
noncomputable def shotIn (A : SetupArgs d) (P : Plan d) (tt : Bool) (s : ℕ) : ShotIn d :=
  { pml := P.pml A.staggered, nt := P.nt, ratio := P.ratio, interval := P.interval, ff := P.ff
    tf := P.tf, timeTaper := tt
    models := P.models.map fun m => m.shot s
    amps := A.amps.map fun a => upAmps P tt a s
    srcs := P.srcs.map fun t => t.cells (P.n A.staggered) s
    rcvs := P.rcvs.map fun t => t.cells (P.n A.staggered) s }

/-- `models[j]`, `source_amplitudes_out[j]`, `sources_i[j]`, `receivers_i[j]`. -/
def ShotIn.model (S : ShotIn d) (j : ℕ) : Fld d ℝ := S.models.getD j fun _ => 0
def ShotIn.amp (S : ShotIn d) (j : ℕ) : ℕ → ℕ → ℝ := S.amps.getD j fun _ _ => 0
def ShotIn.src (S : ShotIn d) (j : ℕ) : List (Option (Cell d)) := S.srcs.getD j []
def ShotIn.rcv (S : ShotIn d) (j : ℕ) : List (Option (Cell d)) := S.rcvs.getD j []

/-- `step_ratio * model_gradient_sampling_interval`. -/
def ShotIn.every (S : ShotIn d) : ℕ := (S.ratio * S.interval).toNat

/-- `downsample` (`common.py` 661-698, 1366-1451) after its arguments have been checked. -/
noncomputable def ShotIn.down (S : ShotIn d) (x : Sig ℝ) : Sig ℝ :=
  match Resample.downsample x S.ratio S.ff S.tf S.timeTaper 0 with
  | .ok u => u
  | .error _ => ⟨0, fun _ => 0⟩

/-- The traces of `m` receivers that recorded `x` (`downsample_and_movedim`, `common.py` 661-698). -/
noncomputable def ShotIn.traces (S : ShotIn d) {m : ℕ} (x : ℕ → Fin m → ℝ) : ℕ → Sig ℝ := fun i =>
  if h : i < m then S.down ⟨S.nt.toNat, fun t => x t ⟨i, h⟩⟩ else ⟨0, fun _ => 0⟩

open Classical in
/-- A call of a propagator: checks before the setup, the setup, the check of `callback_frequency`, and
the rest, for shot `s`. -/
noncomputable def call {α : Type} (pre : Prop) (A : SetupArgs d) (tt : Bool) (cfq : PyNum)
    (run : ℤ → ShotIn d → Except PyErr α) (s : ℕ) : Except PyErr α := do
  let _ ← raiseIf pre .runtimeError
  let P ← A.plan
  let cf ← checkCallbackFrequency cfq
  run cf (shotIn A P tt s)

theorem call_ok {α : Type} {pre : Prop} {A : SetupArgs d} {tt : Bool} {cfq : PyNum}
    {run : ℤ → ShotIn d → Except PyErr α} {s : ℕ} {o : α} :
    call pre A tt cfq run s = .ok o ↔ ¬pre ∧ ∃ P cf, A.Good P ∧
      checkCallbackFrequency cfq = .ok cf ∧ run cf (shotIn A P tt s) = .ok o := by
  classical
  unfold call
  simp only [bind_ok, plan_ok]
  constructor
  · rintro ⟨u, h1, P, h2, cf, h3, h4⟩
    refine ⟨?_, P, cf, h2, h3, h4⟩
    cases u
    convert raiseIf_ok.1 h1
  · rintro ⟨h1, P, cf, h2, h3, h4⟩
    exact ⟨(), raiseIf_ok.2 h1, P, h2, cf, h3, h4⟩

/-- The arguments that the propagators share.  `callback` says whether a forward callback is given. -/
structure Opts where
  gridSpacing : PyArg
  dt : ℚ
  accuracy : PyNum
  pmlWidth : PyArg
  pmlFreq : Option PyNum
  maxVel : Option PyNum
  surveyPad : SurveyPad
  origin : Option (List ℤ)
  nt : Option PyNum
  interval : PyNum
  freqTaperFrac : PyNum
  timePadFrac : PyNum
  timeTaper : Bool
  callback : Bool
  callbackFreq : PyNum
  /-- tolerance of `_validate_location_tensor` -/
  eps : ℚ

/-- Arguments of `setup_propagator`. -/
def Opts.setup (O : Opts) (staggered : Bool) (models : List (ModelT d ℝ × PadMode)) (maxModelVel : ℝ)
    (amps : List (Option AmpT)) (srcs rcvs : List (Option LocT)) (wfs : List (Option (WfT d))) : SetupArgs d :=
  { models := models, gridSpacing := O.gridSpacing, dt := O.dt, amps := amps, srcs := srcs, rcvs := rcvs
    accuracy := O.accuracy, staggered := staggered, pmlWidth := O.pmlWidth, pmlFreq := O.pmlFreq
    maxVel := O.maxVel, maxModelVel := maxModelVel, surveyPad := O.surveyPad, wfs := wfs
    origin := O.origin, nt := O.nt, interval := O.interval, freqTaperFrac := O.freqTaperFrac
    timePadFrac := O.timePadFrac, eps := O.eps }

/-- The argument for the driver's callback frequency. -/
def Opts.cb (O : Opts) (cf : ℤ) : Option ℕ := if O.callback then some cf.toNat else none

/-! ### Some of the shots -/

theorem ModelT.shot_select (m : ModelT d ℝ) (σ : ℕ → ℕ) {nb' s : ℕ} (hs : s < nb') :
    (m.select σ nb').shot s = m.shot (σ s) := by
  simp only [ModelT.shot, ModelT.select]
  split_ifs with h1 h3
  · rfl
  · simp only [Option.getD_some] at h3
    obtain rfl : s = 0 := by omega
    rfl
  · rfl

theorem shotIn_select (A : SetupArgs d) (P : Plan d) (tt : Bool) (σ : ℕ → ℕ) (mv : ℝ) {nb' s : ℕ}
    (hs : s < nb') : shotIn (A.select σ nb' mv) (P.select σ nb') tt s = shotIn A P tt (σ s) := by
  have e1 : (P.models.map (ModelT.select σ nb')).map (fun m => m.shot s) =
      P.models.map fun m => m.shot (σ s) := by
    rw [List.map_map]
    exact List.map_congr_left fun m _ => m.shot_select σ hs
  have e2 : (A.amps.map (Option.map (AmpT.select σ nb'))).map (fun a => upAmps P tt a s) =
      A.amps.map fun a => upAmps P tt a (σ s) := by
    rw [List.map_map]
    exact List.map_congr_left fun a _ => by cases a <;> rfl
  have e3 : ∀ l : List IdxT, (l.map (IdxT.select σ nb')).map (fun t => t.cells (P.n A.staggered) s) =
      l.map fun t => t.cells (P.n A.staggered) (σ s) := fun l => by
    rw [List.map_map]
    exact List.map_congr_left fun a _ => rfl
  unfold shotIn
  simp only [Plan.select, SetupArgs.select]
  congr 1
  · exact e3 _
  · exact e3 _

/-! ### Cropping -/

theorem SetupArgs.Good.ext_lt {A : SetupArgs d} {P : Plan d} (h : A.Good P) (hnb : 0 < P.nb)
    (hm : ∃ m, (m, PadMode.replicate) ∈ A.models) (k : Fin d) : (P.ext k).1 < (P.ext k).2 := by
  obtain ⟨m, hm⟩ := hm
  have := (((extractModels_iff hnb).1 h.models).1 _ hm).box rfl k
  have h0 := (h.in_extents.1 k)
  simp only [sliceLen] at this
  omega

theorem shotIn_crop {A : SetupArgs d} {P : Plan d} (h : A.Good P) (tt : Bool) (mv : ℝ) {s : ℕ}
    (hs : s < P.nb) : shotIn (A.crop P.ext mv) (P.crop A) tt s = shotIn A P tt s := by
  have hsrc := extractLocations_iff.1 h.srcs
  have hrcv := extractLocations_iff.1 h.rcvs
  obtain ⟨hext, hin⟩ := h.in_extents
  have hn : (P.crop A).n A.staggered = P.n A.staggered := paddedShape_crop _ _ _
  have hc : ∀ ls : List (Option LocT), (∀ l, some l ∈ ls → some l ∈ A.srcs ++ A.rcvs ∧ l.nb = P.nb) →
      ∀ p0 p1, ((ls.map (Option.map (LocT.crop P.ext))).map (idxOpt (cropExt P.ext) p0 p1 P.nb)).map
        (fun t => t.cells (P.n A.staggered) s) =
      (ls.map (idxOpt P.ext p0 p1 P.nb)).map fun t => t.cells (P.n A.staggered) s := by
    intro ls hls p0 p1
    simp only [List.map_map]
    refine List.map_congr_left fun o ho => ?_
    cases o with
    | none => rfl
    | some l =>
        obtain ⟨h1, h2⟩ := hls l ho
        simp only [Function.comp, Option.map_some, idxOpt, IdxT.cells]
        refine List.map_congr_left fun i hi => ?_
        exact congrArg _ (idxOf_crop (fun k => (hext k).1) (hin l h1) p0 p1 (by omega) (List.mem_range.1 hi))
  have hp : (P.crop A).pml A.staggered = P.pml A.staggered := by
    unfold Plan.pml
    rw [hn]
    rfl
  unfold shotIn
  congr 1
  · rw [show (P.crop A).n (A.crop P.ext mv).staggered = P.n A.staggered from hn, hsrc.2]
    exact hc A.srcs (fun l hl => ⟨List.mem_append_left _ hl, (hsrc.1 l hl).batch⟩) _ _
  · rw [show (P.crop A).n (A.crop P.ext mv).staggered = P.n A.staggered from hn, hrcv.2]
    exact hc A.rcvs (fun l hl => ⟨List.mem_append_right _ hl, (hrcv.1 l hl).batch⟩) _ _

/-! ### Other models -/

/-- Models that agree inside the extents. -/
def ModelT.Agree (ext : Fin d → ℤ × ℤ) (m m' : ModelT d ℝ) : Prop :=
  m'.nb = m.nb ∧ m'.shape = m.shape ∧
    ∀ s c, (∀ k, (ext k).1 ≤ c k ∧ c k < (ext k).2) → m'.val s c = m.val s c

theorem modelOf_agree {ext : Fin d → ℤ × ℤ} (pad : List ℤ) {m m' : ModelT d ℝ × PadMode} (hm : m'.2 = m.2)
    (h : ∀ k, 0 ≤ (ext k).1 ∧ (ext k).1 < (ext k).2 ∧ (ext k).2 ≤ m.1.shape k) (ha : m.1.Agree ext m'.1) :
    modelOf ext pad m' = modelOf ext pad m := by
  obtain ⟨h1, h2, h3⟩ := ha
  unfold modelOf
  simp only [h1, h2, hm, ModelT.mk.injEq, true_and]
  funext s c
  cases m.2 with
  | replicate =>
      simp only [fPad]
      refine h3 s _ fun k => ?_
      have := h k
      simp only [sliceLen]
      omega
  | constant =>
      simp only [fPad]
      split_ifs with hc
      · refine h3 s _ fun k => ?_
        have := h k
        have := hc k
        simp only [sliceLen] at this
        omega
      · rfl

theorem forall₂_mem {α β : Type} {r : α → β → Prop} {l : List α} {l' : List β} (h : List.Forall₂ r l l') :
    ∀ b ∈ l', ∃ a ∈ l, r a b := by
  induction h with
  | nil => intro b hb; cases hb
  | cons h1 _ ih =>
      intro b hb
      rcases List.mem_cons.1 hb with rfl | hb
      · exact ⟨_, List.mem_cons_self, h1⟩
      · obtain ⟨m, hm, e⟩ := ih b hb
        exact ⟨m, List.mem_cons_of_mem _ hm, e⟩

theorem forall₂_map {α β : Type} {r : α → α → Prop} {f : α → β} {l l' : List α} (h : List.Forall₂ r l l')
    (hf : ∀ a b, a ∈ l → r a b → f b = f a) : l'.map f = l.map f := by
  induction h with
  | nil => rfl
  | cons h1 _ ih =>
      rw [List.map_cons, List.map_cons, hf _ _ List.mem_cons_self h1,
        ih fun a b ha => hf a b (List.mem_cons_of_mem _ ha)]

/-- With `max_vel` given, models that agree inside the extents give the same. -/
theorem SetupArgs.Good.remodel {A : SetupArgs d} {P : Plan d} (h : A.Good P) (hnb : 0 < P.nb)
    (hr : ∃ m, (m, PadMode.replicate) ∈ A.models) (hmv : A.maxVel ≠ none)
    (ms : List (ModelT d ℝ × PadMode)) (mv : ℝ)
    (hms : List.Forall₂ (fun m m' => m'.2 = m.2 ∧ m.1.Agree P.ext m'.1) A.models ms) :
    ({A with models := ms, maxModelVel := mv} : SetupArgs d).Good P := by
  have hmod := (extractModels_iff hnb).1 h.models
  have hext := h.in_extents.1
  have hlt := h.ext_lt hnb hr
  have hshape : ({A with models := ms, maxModelVel := mv} : SetupArgs d).shape = A.shape := by
    unfold SetupArgs.shape
    cases hA : A.models with
    | nil =>
        rw [hA] at hms
        cases hms
        rfl
    | cons m l =>
        rw [hA] at hms
        cases hms with
        | cons h1 _ => exact h1.2.2.1
  have hk : ∀ m ∈ A.models, ∀ k, 0 ≤ (P.ext k).1 ∧ (P.ext k).1 < (P.ext k).2 ∧ (P.ext k).2 ≤ m.1.shape k :=
    fun m hm k => ⟨(hext k).1, hlt k, by rw [(hmod.1 m hm).shape]; exact (hext k).2⟩
  exact
    { h with
      maxVel := by
        have := h.maxVel
        unfold setMaxVelR at this ⊢
        cases hm : A.maxVel with
        | none => exact absurd hm hmv
        | some x =>
            simp only [hm] at this ⊢
            exact this
      ext := by rw [hshape]; exact h.ext
      models := by
        rw [hshape]
        refine (extractModels_iff hnb).2 ⟨fun m' hm' => ?_, ?_⟩
        · obtain ⟨m, hm, e⟩ : ∃ m ∈ A.models, m'.2 = m.2 ∧ m.1.Agree P.ext m'.1 :=
            forall₂_mem hms m' hm'
          have g := hmod.1 m hm
          exact ⟨e.2.2.1.trans g.shape, by rw [e.2.1]; exact g.batch,
            fun hp k => by rw [e.2.2.1]; exact g.box (e.1.symm.trans hp) k⟩
        · rw [hmod.2]
          exact (forall₂_map hms fun m m' hm e => modelOf_agree _ e.1 (hk m hm) e.2).symm }

/-! ### Number of shots -/

/-- The call has `nb` shots: that is the size of the first dimension of the sources and of the
wavefields. -/
def SetupArgs.Batch (A : SetupArgs d) (nb : ℕ) : Prop :=
  (∀ l, some l ∈ A.srcs → l.nb = nb) ∧ ∀ w, some w ∈ A.wfs → w.nb = nb

theorem SetupArgs.Batch.eq {A : SetupArgs d} {nb n : ℕ} (h : A.Batch nb)
    (hn : getNBatch A.srcs A.wfs = .ok n) : n = nb := by
  have := getNBatch_select hn rfl rfl (nb' := nb) h.1 h.2
  rw [hn] at this
  exact Except.ok.inj this

/-- Every tensor of locations has, among shots `σ 0, …, σ (nb' - 1)`, an element that is not ignored in
every dimension. -/
def SetupArgs.Active (A : SetupArgs d) (σ : ℕ → ℕ) (nb' : ℕ) : Prop :=
  ∀ l, some l ∈ A.srcs ++ A.rcvs → ∀ k < d, ∃ s < nb', ∃ i < l.n, l.val (σ s) i k ≠ (ignoreLocation : ℚ)

theorem SetupArgs.Good.nd {A : SetupArgs d} {P : Plan d} (h : A.Good P) {l : LocT}
    (hl : some l ∈ A.srcs ++ A.rcvs) : l.nd = d ∧ l.nb = P.nb := by
  have e := extractLocations_iff.1 h.srcs
  have e' := extractLocations_iff.1 h.rcvs
  rcases List.mem_append.1 hl with hl | hl
  · exact ⟨(e.1 l hl).nd, (e.1 l hl).batch⟩
  · exact ⟨(e'.1 l hl).nd, (e'.1 l hl).batch⟩

/-- A call with some of the shots. -/
theorem call_select {α : Type} {pre pre' : Prop} {A : SetupArgs d} {tt : Bool} {cfq : PyNum}
    {run run' : ℤ → ShotIn d → Except PyErr α} {σ : ℕ → ℕ} {nb nb' s : ℕ} {mv : ℝ} {o : α}
    (hb : A.Batch nb) (hσ : ∀ s < nb', σ s < nb) (hs : s < nb') (hsp : A.surveyPad = .none)
    (hmv : A.maxVel = none → mv = A.maxModelVel)
    (hact : (∀ w, some w ∉ A.wfs) ∨ A.Active σ nb')
    (hpre : (∀ l, some l ∈ A.srcs ++ A.rcvs → l.nb = nb) → ¬pre → ¬pre')
    (hrun : ∀ cf S, run' cf S = run cf S)
    (h : call pre A tt cfq run (σ s) = .ok o) :
    call pre' (A.select σ nb' mv) tt cfq run' s = .ok o := by
  obtain ⟨h0, P, cf, hP, hcf, hsh⟩ := call_ok.1 h
  have hnb := hb.eq hP.nb
  have hG : (A.select σ nb' mv).Good (P.select σ nb') := by
    refine hP.select (by omega) (fun s hs => by rw [hnb]; exact hσ s hs) hsp hmv ?_
    rintro ⟨w, hw⟩ l hl k hk
    rcases hact with hn | hact
    · exact absurd hw (hn w)
    · obtain ⟨s, hs, i, hi, hv⟩ := hact l hl k (by rw [← (hP.nd hl).1]; exact hk)
      exact List.ne_nil_of_mem (LocT.mem_active.2 ⟨s, hs, i, hi, rfl, hv⟩)
  refine call_ok.2 ⟨hpre (fun l hl => by rw [(hP.nd hl).2, hnb]) h0, _, cf, hG, hcf, ?_⟩
  rw [shotIn_select A P tt σ mv hs, hrun]
  exact hsh

/-- A call with the model cropped by hand. -/
theorem call_crop {α : Type} {pre pre' : Prop} {A : SetupArgs d} {P : Plan d} {tt : Bool} {cfq : PyNum}
    {run : ℤ → ShotIn d → Except PyErr α} {s : ℕ} {mv : ℝ} {o : α}
    (hP : A.plan = .ok P) (hs : s < P.nb) (hr : ∃ m, (m, PadMode.replicate) ∈ A.models)
    (hmv : A.maxVel = none → mv = A.maxModelVel)
    (hact : (∀ w, some w ∉ A.wfs) ∨ A.Active id P.nb)
    (hpre : (∀ k, (P.ext k).1 < (P.ext k).2) → ¬pre → ¬pre')
    (h : call pre A tt cfq run s = .ok o) : call pre' (A.crop P.ext mv) tt cfq run s = .ok o := by
  obtain ⟨h0, P', cf, hP', hcf, hsh⟩ := call_ok.1 h
  obtain rfl : P = P' := by
    have := plan_ok.2 hP'
    rw [hP] at this
    exact Except.ok.inj this
  have hnb : 0 < P.nb := by omega
  have hlt := hP'.ext_lt hnb hr
  have hG : (A.crop P.ext mv).Good (P.crop A) := by
    refine hP'.crop hnb hlt hmv ?_
    rintro ⟨w, hw⟩ l hl k hk
    obtain ⟨e1, e2⟩ := hP'.nd hl
    rcases hact with hn | hact
    · exact absurd hw (hn w)
    · obtain ⟨s, hs, i, hi, hv⟩ := hact l hl k (by rw [← e1]; exact hk)
      exact List.ne_nil_of_mem (LocT.mem_active.2 ⟨s, by rw [e2]; exact hs, i, hi, rfl, hv⟩)
  refine call_ok.2 ⟨hpre hlt h0, _, cf, hG, hcf, ?_⟩
  rw [shotIn_crop hP' tt mv hs]
  exact hsh

/-- A call with other values of the models outside the extents. -/
theorem call_remodel {α : Type} {pre pre' : Prop} {A : SetupArgs d} {P : Plan d} {tt : Bool} {cfq : PyNum}
    {run : ℤ → ShotIn d → Except PyErr α} {s : ℕ} {o : α}
    (hP : A.plan = .ok P) (hs : s < P.nb) (hr : ∃ m, (m, PadMode.replicate) ∈ A.models)
    (hmv : A.maxVel ≠ none) (ms : List (ModelT d ℝ × PadMode)) (mv : ℝ)
    (hms : List.Forall₂ (fun m m' => m'.2 = m.2 ∧ m.1.Agree P.ext m'.1) A.models ms)
    (hpre : ¬pre → ¬pre') (h : call pre A tt cfq run s = .ok o) :
    call pre' {A with models := ms, maxModelVel := mv} tt cfq run s = .ok o := by
  obtain ⟨h0, P', cf, hP', hcf, hsh⟩ := call_ok.1 h
  obtain rfl : P = P' := by
    have := plan_ok.2 hP'
    rw [hP] at this
    exact Except.ok.inj this
  exact call_ok.2 ⟨hpre h0, P, cf, hP'.remodel (by omega) hr hmv ms mv hms, hcf, hsh⟩

end Dw.Setup
