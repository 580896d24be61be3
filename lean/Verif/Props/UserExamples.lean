import Verif.Props.UserReturns
import Verif.Props.UserSign
import Verif.Props.UserCrop

/-!
# Calls of `scalar_born`, `acoustic` and `elastic` that satisfy the hypotheses of the theorems

Two-dimensional models of 7 by 9 cells, two shots with two sources and receivers (one of them ignored),
internal time steps three times shorter than `dt`, and PML.
-/

open Dw.Setup

namespace Dw.Setup

def exO (sp : SurveyPad) : Opts :=
  { gridSpacing := .seq [.int 3, .int 4], dt := 4 / 1000, accuracy := .int 4, pmlWidth := .one (.int 3)
    pmlFreq := none, maxVel := some (.int 1000), surveyPad := sp, origin := none, nt := none
    interval := .int 1, freqTaperFrac := .float 0, timePadFrac := .float 0, timeTaper := false
    callback := false, callbackFreq := .int 1, eps := 1 / 10 }

/-- The plan for extents `ext`. -/
noncomputable def exPl (st : Bool) (ext : Fin 2 → ℤ × ℤ) (ms : List (ModelT 2 ℝ × PadMode))
    (srcs rcvs : List (Option LocT)) : Plan 2 :=
  { nb := 2, dxL := [3, 4], maxVel := 1000, dt := (4 / 1000 : ℚ) / (3 : ℤ), ratio := 3, accZ := 4
    wL := [3, 3, 3, 3], freq := 25, nt := 15, interval := 1, ff := 0, tf := 0, ext := ext
    models := ms.map (modelOf ext (padList (d := 2) (padBegin 4 [3, 3, 3, 3]) (padEnd st 4 [3, 3, 3, 3])))
    srcs := srcs.map (idxOpt ext (padBegin 4 [3, 3, 3, 3]) (padEnd st 4 [3, 3, 3, 3]) 2)
    rcvs := rcvs.map (idxOpt ext (padBegin 4 [3, 3, 3, 3]) (padEnd st 4 [3, 3, 3, 3]) 2) }

def exAmp : AmpT := ⟨2, 2, 5, fun s i t => s + i * t⟩

theorem exO_good {sp : SurveyPad} {ext : Fin 2 → ℤ × ℤ} {st : Bool} {ms : List (ModelT 2 ℝ × PadMode)} {mv : ℝ}
    {amps : List (Option AmpT)} {srcs rcvs : List (Option LocT)} {wfs : List (Option (WfT 2))}
    (hl : ∀ l, some l ∈ srcs ++ rcvs → l = exLoc) (ha : ∀ a, some a ∈ amps → a = exAmp)
    (hw : ∀ w, some w ∉ wfs) (hms : ∀ m ∈ ms, m.1.nb = none ∧ m.1.shape = ![7, 9])
    (hms0 : ms ≠ []) (hnb : getNBatch srcs wfs = .ok 2)
    (hnt : setNt none (amps.map (Option.map AmpT.nt)) 3 = .ok 15)
    (hmatch : checkAmpsMatch (amps.map (Option.map AmpT.n)) (srcs.map (Option.map LocT.n)) = .ok ())
    (he : ∀ k, 0 ≤ (ext k).1 ∧ (ext k).1 < (ext k).2 ∧ (ext k).2 ≤ (![7, 9] : Fin 2 → ℤ) k)
    (hin : ∀ s < exLoc.nb, ∀ i < exLoc.n, exLoc.Ignored 2 s i ∨ exLoc.Inside ext s i)
    (hext : surveyExtents ![7, 9] (srcs ++ rcvs) (wfs.map (Option.map WfT.shape)) sp none
      (fun _ => 3) (fun _ => 3) = .ok ext) :
    ((exO sp).setup st ms mv amps srcs rcvs wfs).Good (exPl st ext ms srcs rcvs) := by
  have hdup : ¬exLoc.Duplicates 2 := by unfold LocT.Duplicates LocT.Ignored; decide +kernel
  have h5 : padBegin (d := 2) 4 [3, 3, 3, 3] = fun _ => 2 + 3 := by decide
  have h6 : padEnd (d := 2) st 4 [3, 3, 3, 3] = fun _ => fdEnd st .a4 + 3 := by revert st; decide
  have hshape : ((exO sp).setup st ms mv amps srcs rcvs wfs).shape = ![7, 9] := by
    unfold SetupArgs.shape Opts.setup
    cases ms with
    | nil => exact absurd rfl hms0
    | cons m ms => exact (hms m List.mem_cons_self).2
  have hw0 : (exPl st ext ms srcs rcvs).w0 = fun _ => 3 := by
    show (fun k : Fin 2 => [(3 : ℤ), 3, 3, 3].getD (2 * k) 0) = _
    decide
  have hw1 : (exPl st ext ms srcs rcvs).w1 = fun _ => 3 := by
    show (fun k : Fin 2 => [(3 : ℤ), 3, 3, 3].getD (2 * k + 1) 0) = _
    decide
  obtain ⟨t, ht, -⟩ := (C16_rejected_iff_duplicates (d := 2) (1 / 10) ext (by norm_num) (fun _ => 2 + 3)
    (fun _ => fdEnd st .a4 + 3) (by decide) (fun _ => by cases st <;> decide) (fun k => (he k).1) exLoc
    (by decide +kernel) rfl hin).2 hdup
  obtain ⟨g1, g2, g3, g4, rfl⟩ := extractLocation_iff.1 ht
  have hg : ∀ l, some l ∈ srcs ++ rcvs → LocGood (1 / 10) ext (padBegin 4 [3, 3, 3, 3])
      (padEnd st 4 [3, 3, 3, 3]) 2 l := by
    intro l hl'
    obtain rfl := hl l hl'
    rw [h5, h6]
    exact ⟨g1, g2, g3, g4⟩
  refine ⟨hnb, rfl, ?_, ?_, rfl, rfl, ?_, hnt, rfl, ?_, ?_, hmatch, ?_, ?_, ?_, ?_, ?_, ?_⟩
  · simp [exO, Opts.setup, setMaxVelR, PyNum.toFloat, exPl]
  · have := Scalar.exU_cfl
    simpa [exPl, exO, Opts.setup] using this
  · simp [exPl, exO, Opts.setup, setPmlFreq]
  · simp [exPl, exO, Opts.setup, setFrac, PyNum.toFloat]
  · simp [exPl, exO, Opts.setup, setFrac, PyNum.toFloat]
  · refine checkAmps_ok.2 fun a ha' => ?_
    obtain rfl := ha a ha'
    exact ⟨rfl, rfl, by simp [Resample.validate, exPl]⟩
  · rw [hshape, hw0, hw1]
    exact hext
  · rw [hshape]
    refine (extractModels_iff (by norm_num [exPl] : 0 < (exPl st ext ms srcs rcvs).nb)).2 ⟨fun m hm => ?_, rfl⟩
    obtain ⟨e1, e2⟩ := hms m hm
    refine ⟨e2, .inl (by rw [e1]; rfl), fun _ k => ?_⟩
    rw [e2]
    have := he k
    show 0 < sliceLen (ext k).1 (ext k).2 _
    unfold sliceLen
    omega
  · exact extractLocations_iff.2 ⟨fun l hl' => hg l (List.mem_append_left _ hl'), rfl⟩
  · exact extractLocations_iff.2 ⟨fun l hl' => hg l (List.mem_append_right _ hl'), rfl⟩
  · exact prepareWavefields_ok.2 fun w hw' => absurd hw' (hw w)

end Dw.Setup

namespace Dw.Born

noncomputable def exU (sp : SurveyPad) : UArgs 2 :=
  { v := ⟨none, ![7, 9], fun _ c => 990 + c 0⟩, scatter := ⟨none, ![7, 9], fun _ c => c 1⟩
    amps := some exAmp, src := some exLoc, rcv := some exLoc, bgRcv := none
    wf := ⟨none, none, fun _ => none, fun _ => none⟩, wfsc := ⟨none, none, fun _ => none, fun _ => none⟩
    gradV := true, gradS := true, opts := exO sp }

noncomputable def exP (ext : Fin 2 → ℤ × ℤ) : Plan 2 :=
  exPl false ext (exU .none).setup.models (exU .none).setup.srcs (exU .none).setup.rcvs

theorem exU_noWf {sp : SurveyPad} : ∀ w, some w ∉ (exU sp).setup.wfs := by
  intro w hw
  simp [exU, UArgs.setup, Opts.setup, UWf.list] at hw

theorem exU_good {sp : SurveyPad} {ext : Fin 2 → ℤ × ℤ}
    (he : ∀ k, 0 ≤ (ext k).1 ∧ (ext k).1 < (ext k).2 ∧ (ext k).2 ≤ (![7, 9] : Fin 2 → ℤ) k)
    (hin : ∀ s < exLoc.nb, ∀ i < exLoc.n, exLoc.Ignored 2 s i ∨ exLoc.Inside ext s i)
    (hext : surveyExtents ![7, 9] [some exLoc, some exLoc, none, some exLoc] (List.replicate 12 none) sp none
      (fun _ => 3) (fun _ => 3) = .ok ext) : (exU sp).setup.Good (exP ext) := by
  refine exO_good (fun l hl => ?_) (fun a ha => ?_) exU_noWf (fun m hm => ?_) (by simp) rfl rfl rfl he hin hext
  · simpa [exU] using hl
  · simpa [exU] using ha
  · simp only [List.mem_cons, List.not_mem_nil, or_false] at hm
    rcases hm with rfl | rfl <;> exact ⟨rfl, rfl⟩

theorem exU_whole : (exU .none).setup.Good (exP ![(0, 7), (0, 9)]) :=
  exU_good (by decide) (by unfold LocT.Ignored LocT.Inside; decide +kernel) (by decide +kernel)

theorem exU_cropped : (exU (.list [some 1, none, some 4, some 2])).setup.Good (exP ![(1, 7), (0, 8)]) :=
  exU_good (by decide) (by unfold LocT.Ignored LocT.Inside; decide +kernel) (by decide +kernel)

theorem exU_elements (sp : SurveyPad) : ¬Scalar.NoElements (exU sp).v := by
  rintro (h | ⟨k, h⟩)
  · cases h
  · revert k
    show ∀ k : Fin 2, (![7, 9] : Fin 2 → ℤ) k ≤ 0 → False
    decide

theorem exU_result {sp : SurveyPad} {ext : Fin 2 → ℤ × ℤ} (h : (exU sp).setup.Good (exP ext)) (s : ℕ) :
    ∃ r, (exU sp).born s = .ok (some r) := by
  obtain ⟨o, ho, hs⟩ := (C89_after_the_setup (exU sp) (exP ext) s 1 (exU_elements sp) (plan_ok.2 h) rfl).2.2
    (by norm_num [exP, exPl]) (.inr (.inr (by norm_num [exP, exPl])))
  obtain ⟨r, rfl⟩ := Option.isSome_iff_exists.1 (hs (.inl (by norm_num [exP, exPl])))
  exact ⟨r, ho⟩

/-- The second shot on its own. -/
example : ∃ r, (exU .none).born 1 = .ok (some r) ∧ ((exU .none).select (fun _ => 1) 1).born 0 = .ok (some r) := by
  obtain ⟨r, hr⟩ := exU_result exU_whole 1
  refine ⟨r, hr, C85_shots_of_a_call (exU .none) (fun _ => 1) 2 1 0 (some r) ⟨?_, ?_⟩ (by decide) (by decide) rfl
    (fun h => by cases h) (.inl exU_noWf) hr⟩
  · intro l hl
    obtain rfl : l = exLoc := by simpa [exU, UArgs.setup, Opts.setup] using hl
    rfl
  · exact fun w hw => absurd hw (exU_noWf w)

/-- With a negative time step. -/
example : ∃ r, (exU .none).born 0 = .ok (some r) ∧
    ({exU .none with opts := (exO .none).negDt} : UArgs 2).born 0 = .ok (some r) := by
  obtain ⟨r, hr⟩ := exU_result exU_whole 0
  exact ⟨r, hr, (C88_sign_of_dt (exU .none) 0 _).2 hr⟩

/-- Rows 1 to 6 and columns 0 to 7 of the models. -/
example : ∃ r, (exU (.list [some 1, none, some 4, some 2])).born 0 = .ok (some r) ∧
    ((exU (.list [some 1, none, some 4, some 2])).crop ![(1, 7), (0, 8)]).born 0 = .ok (some r) := by
  obtain ⟨r, hr⟩ := exU_result exU_cropped 0
  exact ⟨r, hr, C86_cropped_by_hand _ _ 0 _ (plan_ok.2 exU_cropped) (by decide) (fun h => by cases h)
    (.inl exU_noWf) hr⟩

/-- Models that are different in row 0. -/
example : ∃ r, (exU (.list [some 1, none, some 4, some 2])).born 0 = .ok (some r) ∧
    ({exU (.list [some 1, none, some 4, some 2]) with
      v := ⟨none, ![7, 9], fun _ c => if c 0 = 0 then 10 else 990 + c 0⟩
      scatter := ⟨none, ![7, 9], fun _ c => if c 0 = 0 then -8 else c 1⟩} : UArgs 2).born 0 = .ok (some r) := by
  obtain ⟨r, hr⟩ := exU_result exU_cropped 0
  refine ⟨r, hr, C86_model_outside _ _ _ _ 0 _ (plan_ok.2 exU_cropped) (by decide) (fun h => by cases h)
    ⟨rfl, rfl, fun s c hc => ?_⟩ ⟨rfl, rfl, fun s c hc => ?_⟩ hr⟩ <;>
  · refine if_neg fun h => ?_
    have h1 := hc 0
    rw [h] at h1
    simp [exP, exPl] at h1

/-- `model_gradient_sampling_interval` longer than the propagation. -/
noncomputable def exI : UArgs 2 := {exU .none with opts := {exO .none with interval := .int 6}}

example : exI.born 0 = .error .valueError := by
  have h : exI.setup.Good {exP ![(0, 7), (0, 9)] with interval := 6} := { exU_whole with interval := rfl }
  have he : ¬Scalar.NoElements exI.v := exU_elements .none
  refine (C89_after_the_setup exI _ 0 1 he (plan_ok.2 h) rfl).2.1 (by norm_num) ?_
  rintro (h1 | h1 | h1)
  · exact Bool.noConfusion h1
  · exact absurd h1 (by decide)
  · exact absurd h1 (by decide)

end Dw.Born

namespace Dw.Acoustic

/-- Sources of pressure and of the second velocity component, receivers of pressure and of the first. -/
noncomputable def exU (sp : SurveyPad) : UArgs 2 :=
  { v := ⟨none, ![7, 9], fun _ c => 990 + c 0⟩, rho := ⟨none, ![7, 9], fun _ c => 2000 + c 1⟩
    ampP := some exAmp, ampV := ![none, some exAmp], srcP := some exLoc, srcV := ![none, some exLoc]
    rcvP := some exLoc, rcvV := ![some exLoc, none]
    wf := ⟨none, fun _ => none, fun _ => none, fun _ => none⟩
    gradK := true, gradB := true, rfmax := 1 / 10 ^ 19, opts := exO sp }

noncomputable def exP (ext : Fin 2 → ℤ × ℤ) : Plan 2 :=
  exPl true ext (exU .none).setup.models (exU .none).setup.srcs (exU .none).setup.rcvs

theorem exU_noWf {sp : SurveyPad} : ∀ w, some w ∉ (exU sp).setup.wfs := by
  intro w hw
  simp [exU, UArgs.setup, Opts.setup, UWf.list] at hw

theorem exU_locs (sp : SurveyPad) (l : LocT) (hl : some l ∈ (exU sp).setup.srcs ++ (exU sp).setup.rcvs) :
    l = exLoc := by
  have : some l ∈ [some exLoc, none, some exLoc, some exLoc, some exLoc, none] := hl
  simpa using this

theorem exU_good {sp : SurveyPad} {ext : Fin 2 → ℤ × ℤ}
    (he : ∀ k, 0 ≤ (ext k).1 ∧ (ext k).1 < (ext k).2 ∧ (ext k).2 ≤ (![7, 9] : Fin 2 → ℤ) k)
    (hin : ∀ s < exLoc.nb, ∀ i < exLoc.n, exLoc.Ignored 2 s i ∨ exLoc.Inside ext s i)
    (hext : surveyExtents ![7, 9] [some exLoc, none, some exLoc, some exLoc, some exLoc, none]
      (List.replicate 7 none) sp none (fun _ => 3) (fun _ => 3) = .ok ext) :
    (exU sp).setup.Good (exP ext) := by
  refine exO_good (exU_locs sp) (fun a ha => ?_) exU_noWf (fun m hm => ?_) (by simp) rfl rfl rfl he hin hext
  · have : some a ∈ [some exAmp, none, some exAmp] := ha
    simpa using this
  · simp only [List.mem_cons, List.not_mem_nil, or_false] at hm
    rcases hm with rfl | rfl <;> exact ⟨rfl, rfl⟩

theorem exU_whole : (exU .none).setup.Good (exP ![(0, 7), (0, 9)]) :=
  exU_good (by decide) (by unfold LocT.Ignored LocT.Inside; decide +kernel) (by decide +kernel)

theorem exU_cropped : (exU (.list [some 1, none, some 4, some 2])).setup.Good (exP ![(1, 7), (0, 8)]) :=
  exU_good (by decide) (by unfold LocT.Ignored LocT.Inside; decide +kernel) (by decide +kernel)

/-- The extents end at the last source in the first dimension. -/
theorem exU_tight : (exU (.list [some 1, some 0, some 4, some 2])).setup.Good (exP ![(1, 5), (0, 8)]) :=
  exU_good (by decide) (by unfold LocT.Ignored LocT.Inside; decide +kernel) (by decide +kernel)

theorem exLoc_beyond : (∀ k : Fin 2, ¬exLoc.Beyond k ((![7, 9] : Fin 2 → ℤ) k)) ∧
    (∀ k : Fin 2, ¬(exLoc.crop ![(1, 7), (0, 8)]).Beyond k ((![6, 8] : Fin 2 → ℤ) k)) ∧
    (exLoc.crop ![(1, 5), (0, 8)]).Beyond 0 4 := by
  unfold LocT.Beyond
  refine ⟨?_, ?_, 0, by decide, 1, by decide, ?_⟩ <;> decide +kernel

theorem exU_pre (sp : SurveyPad) : ¬(exU sp).Pre := by
  rintro ((h | ⟨k, h⟩) | ⟨k, l, hl, h⟩)
  · cases h
  · revert k
    show ∀ k : Fin 2, (![7, 9] : Fin 2 → ℤ) k ≤ 0 → False
    decide
  · obtain rfl := exU_locs sp l (UArgs.mem_loc hl)
    exact exLoc_beyond.1 k h

theorem exU_result {sp : SurveyPad} {ext : Fin 2 → ℤ × ℤ} (h : (exU sp).setup.Good (exP ext)) (s : ℕ) :
    ∃ r, (exU sp).acoustic s = .ok (some r) := by
  obtain ⟨o, ho, hs⟩ := (C89_after_the_setup (exU sp) (exP ext) s 1 (exU_pre sp) (plan_ok.2 h) rfl).2.2
    (by norm_num [exP, exPl]) (.inr (.inr (by norm_num [exP, exPl])))
  obtain ⟨r, rfl⟩ := Option.isSome_iff_exists.1 (hs (.inl (by norm_num [exP, exPl])))
  exact ⟨r, ho⟩

/-- The second shot on its own. -/
example : ∃ r, (exU .none).acoustic 1 = .ok (some r) ∧
    ((exU .none).select (fun _ => 1) 1).acoustic 0 = .ok (some r) := by
  obtain ⟨r, hr⟩ := exU_result exU_whole 1
  refine ⟨r, hr, C85_shots_of_a_call (exU .none) (fun _ => 1) 2 1 0 (some r) ⟨?_, ?_⟩ (by decide) (by decide) rfl
    (fun h => by cases h) (.inl exU_noWf) hr⟩
  · intro l hl
    obtain rfl := exU_locs .none l (List.mem_append_left _ hl)
    rfl
  · exact fun w hw => absurd hw (exU_noWf w)

/-- With a negative time step. -/
example : ∃ r, (exU .none).acoustic 0 = .ok (some r) ∧ (exU .none).reversed.acoustic 0 = .ok (some r.reversed) := by
  obtain ⟨r, hr⟩ := exU_result exU_whole 0
  exact ⟨r, hr, C88_sign_of_dt (exU .none) 0 _ hr⟩

/-- Rows 1 to 6 and columns 0 to 7 of the models. -/
example : ∃ r, (exU (.list [some 1, none, some 4, some 2])).acoustic 0 = .ok (some r) ∧
    ((exU (.list [some 1, none, some 4, some 2])).crop ![(1, 7), (0, 8)]).acoustic 0 = .ok (some r) := by
  obtain ⟨r, hr⟩ := exU_result exU_cropped 0
  refine ⟨r, hr, C87_cropped_by_hand_partial _ _ 0 _ (plan_ok.2 exU_cropped) (by decide) (fun h => by cases h)
    (.inl exU_noWf) (fun k l hl h => ?_) hr⟩
  obtain rfl := exU_locs _ l (UArgs.mem_loc hl)
  refine exLoc_beyond.2.1 k ?_
  have e : ∀ k : Fin 2, ((![(1, 7), (0, 8)] : Fin 2 → ℤ × ℤ) k).2 - ((![(1, 7), (0, 8)] : Fin 2 → ℤ × ℤ) k).1 =
      (![6, 8] : Fin 2 → ℤ) k := by decide
  rw [← e k]
  exact h

/-- Models that are different in row 0. -/
example : ∃ r, (exU (.list [some 1, none, some 4, some 2])).acoustic 0 = .ok (some r) ∧
    ({exU (.list [some 1, none, some 4, some 2]) with
      v := ⟨none, ![7, 9], fun _ c => if c 0 = 0 then 10 else 990 + c 0⟩
      rho := ⟨none, ![7, 9], fun _ c => if c 0 = 0 then -8 else 2000 + c 1⟩} : UArgs 2).acoustic 0 =
      .ok (some r) := by
  obtain ⟨r, hr⟩ := exU_result exU_cropped 0
  refine ⟨r, hr, C86_model_outside _ _ _ _ 0 _ (plan_ok.2 exU_cropped) (by decide) (fun h => by cases h)
    ⟨rfl, rfl, fun s c hc => ?_⟩ ⟨rfl, rfl, fun s c hc => ?_⟩ hr⟩ <;>
  · refine if_neg fun h => ?_
    have h1 := hc 0
    rw [h] at h1
    simp [exP, exPl] at h1

/-- **C87** The statement without the restriction on velocity sources and receivers is false: with
`survey_pad` such that the extents end at a velocity receiver the call returns, while the call with the models
cropped by hand is rejected. -/
theorem C87_not_in_the_last_cell : ∃ (A : UArgs 2) (P : Plan 2) (r : UShot 2), A.setup.plan = .ok P ∧
    A.opts.maxVel ≠ none ∧ (∀ w, some w ∉ A.setup.wfs) ∧ A.acoustic 0 = .ok (some r) ∧
    (A.crop P.ext).acoustic 0 = .error .runtimeError := by
  obtain ⟨r, hr⟩ := exU_result exU_tight 0
  refine ⟨exU (.list [some 1, some 0, some 4, some 2]), exP ![(1, 5), (0, 8)], r, plan_ok.2 exU_tight, nofun,
    exU_noWf, hr, ?_⟩
  unfold UArgs.acoustic call
  have : ((exU (.list [some 1, some 0, some 4, some 2])).crop (exP ![(1, 5), (0, 8)]).ext).Pre :=
    .inr ⟨0, exLoc.crop ![(1, 5), (0, 8)], .inr rfl, exLoc_beyond.2.2⟩
  unfold raiseIf
  rw [if_pos this]
  rfl

end Dw.Acoustic

namespace Dw.Elastic

/-- Sources of pressure and of the second velocity component, receivers of pressure and of the first. -/
noncomputable def exU (sp : SurveyPad) : UArgs 2 :=
  { lam := ⟨none, ![7, 9], fun _ c => 990 + c 0⟩, mu := ⟨none, ![7, 9], fun _ c => 500 + c 1⟩
    buoyancy := ⟨none, ![7, 9], fun _ c => 1 + c 1⟩
    ampP := some exAmp, ampV := ![none, some exAmp], srcP := some exLoc, srcV := ![none, some exLoc]
    rcvP := some exLoc, rcvV := ![some exLoc, none]
    wf := ⟨fun _ => none, fun _ => none, fun _ => none, fun _ _ => none, fun _ _ => none⟩
    gradL := true, gradM := true, gradB := true, rfmax := 1 / 10 ^ 19, opts := exO sp }

noncomputable def exP (ext : Fin 2 → ℤ × ℤ) : Plan 2 :=
  exPl true ext (exU .none).setup.models (exU .none).setup.srcs (exU .none).setup.rcvs

theorem exU_noWf {sp : SurveyPad} : ∀ w, some w ∉ (exU sp).setup.wfs := by
  intro w hw
  simp [exU, UArgs.setup, Opts.setup, UWf.list] at hw

theorem exU_locs (sp : SurveyPad) (l : LocT) (hl : some l ∈ (exU sp).setup.srcs ++ (exU sp).setup.rcvs) :
    l = exLoc := by
  have : some l ∈ [none, some exLoc, some exLoc, some exLoc, none, some exLoc] := hl
  simpa using this

theorem exU_good {sp : SurveyPad} {ext : Fin 2 → ℤ × ℤ}
    (he : ∀ k, 0 ≤ (ext k).1 ∧ (ext k).1 < (ext k).2 ∧ (ext k).2 ≤ (![7, 9] : Fin 2 → ℤ) k)
    (hin : ∀ s < exLoc.nb, ∀ i < exLoc.n, exLoc.Ignored 2 s i ∨ exLoc.Inside ext s i)
    (hext : surveyExtents ![7, 9] [none, some exLoc, some exLoc, some exLoc, none, some exLoc]
      (List.replicate 16 none) sp none (fun _ => 3) (fun _ => 3) = .ok ext) :
    (exU sp).setup.Good (exP ext) := by
  refine exO_good (exU_locs sp) (fun a ha => ?_) exU_noWf (fun m hm => ?_) (by simp) rfl rfl rfl he hin hext
  · have : some a ∈ [none, some exAmp, some exAmp] := ha
    simpa using this
  · simp only [List.mem_cons, List.not_mem_nil, or_false] at hm
    rcases hm with rfl | rfl | rfl <;> exact ⟨rfl, rfl⟩

theorem exU_whole : (exU .none).setup.Good (exP ![(0, 7), (0, 9)]) :=
  exU_good (by decide) (by unfold LocT.Ignored LocT.Inside; decide +kernel) (by decide +kernel)

theorem exU_cropped : (exU (.list [some 1, none, some 4, some 2])).setup.Good (exP ![(1, 7), (0, 8)]) :=
  exU_good (by decide) (by unfold LocT.Ignored LocT.Inside; decide +kernel) (by decide +kernel)

/-- The extents end at the last source in the first dimension. -/
theorem exU_tight : (exU (.list [some 1, some 0, some 4, some 2])).setup.Good (exP ![(1, 5), (0, 8)]) :=
  exU_good (by decide) (by unfold LocT.Ignored LocT.Inside; decide +kernel) (by decide +kernel)

theorem exU_pre (sp : SurveyPad) : ¬(exU sp).Pre := by
  have h0 : ∀ k : Fin 2, (![7, 9] : Fin 2 → ℤ) k ≤ 0 → False := by decide
  rintro (⟨k, l, hl, h⟩ | (h | ⟨k, h⟩) | (h | ⟨k, h⟩) | (h | ⟨k, h⟩))
  · obtain rfl := exU_locs sp l (UArgs.mem_loc hl)
    exact Acoustic.exLoc_beyond.1 k h
  · cases h
  · exact h0 k h
  · cases h
  · exact h0 k h
  · cases h
  · exact h0 k h

theorem exU_result {sp : SurveyPad} {ext : Fin 2 → ℤ × ℤ} (h : (exU sp).setup.Good (exP ext)) (s : ℕ) :
    ∃ r, (exU sp).elastic s = .ok (some r) := by
  obtain ⟨o, ho, hs⟩ := (C89_after_the_setup (exU sp) (exP ext) s 1 (exU_pre sp) (plan_ok.2 h) rfl).2.2
    (by norm_num [exP, exPl]) (.inr (.inr (by norm_num [exP, exPl])))
  obtain ⟨r, rfl⟩ := Option.isSome_iff_exists.1 (hs (.inl (by norm_num [exP, exPl])))
  exact ⟨r, ho⟩

/-- The second shot on its own. -/
example : ∃ r, (exU .none).elastic 1 = .ok (some r) ∧
    ((exU .none).select (fun _ => 1) 1).elastic 0 = .ok (some r) := by
  obtain ⟨r, hr⟩ := exU_result exU_whole 1
  refine ⟨r, hr, C85_shots_of_a_call (exU .none) (fun _ => 1) 2 1 0 (some r) ⟨?_, ?_⟩ (by decide) (by decide) rfl
    (fun h => by cases h) (.inl exU_noWf) hr⟩
  · intro l hl
    obtain rfl := exU_locs .none l (List.mem_append_left _ hl)
    rfl
  · exact fun w hw => absurd hw (exU_noWf w)

/-- With a negative time step. -/
example : ∃ r, (exU .none).elastic 0 = .ok (some r) ∧ (exU .none).reversed.elastic 0 = .ok (some r.reversed) := by
  obtain ⟨r, hr⟩ := exU_result exU_whole 0
  exact ⟨r, hr, C88_sign_of_dt (exU .none) 0 _ hr⟩

/-- Rows 1 to 6 and columns 0 to 7 of the models. -/
example : ∃ r, (exU (.list [some 1, none, some 4, some 2])).elastic 0 = .ok (some r) ∧
    ((exU (.list [some 1, none, some 4, some 2])).crop ![(1, 7), (0, 8)]).elastic 0 = .ok (some r) := by
  obtain ⟨r, hr⟩ := exU_result exU_cropped 0
  refine ⟨r, hr, C87_cropped_by_hand_partial _ _ 0 _ (plan_ok.2 exU_cropped) (by decide) (fun h => by cases h)
    (.inl exU_noWf) (fun k l hl h => ?_) hr⟩
  obtain rfl := exU_locs _ l (UArgs.mem_loc hl)
  refine Acoustic.exLoc_beyond.2.1 k ?_
  have e : ∀ k : Fin 2, ((![(1, 7), (0, 8)] : Fin 2 → ℤ × ℤ) k).2 - ((![(1, 7), (0, 8)] : Fin 2 → ℤ × ℤ) k).1 =
      (![6, 8] : Fin 2 → ℤ) k := by decide
  rw [← e k]
  exact h

/-- Models that are different in row 0. -/
example : ∃ r, (exU (.list [some 1, none, some 4, some 2])).elastic 0 = .ok (some r) ∧
    ({exU (.list [some 1, none, some 4, some 2]) with
      lam := ⟨none, ![7, 9], fun _ c => if c 0 = 0 then 10 else 990 + c 0⟩
      mu := ⟨none, ![7, 9], fun _ c => if c 0 = 0 then -8 else 500 + c 1⟩
      buoyancy := ⟨none, ![7, 9], fun _ c => if c 0 = 0 then -8 else 1 + c 1⟩} : UArgs 2).elastic 0 =
      .ok (some r) := by
  obtain ⟨r, hr⟩ := exU_result exU_cropped 0
  refine ⟨r, hr, C86_model_outside _ _ _ _ _ 0 _ (plan_ok.2 exU_cropped) (by decide) (fun h => by cases h)
    ⟨rfl, rfl, fun s c hc => ?_⟩ ⟨rfl, rfl, fun s c hc => ?_⟩ ⟨rfl, rfl, fun s c hc => ?_⟩ hr⟩ <;>
  · refine if_neg fun h => ?_
    have h1 := hc 0
    rw [h] at h1
    simp [exP, exPl] at h1

/-- **C87** The statement without the restriction on velocity sources and receivers is false: with
`survey_pad` such that the extents end at a velocity receiver the call returns, while the call with the models
cropped by hand is rejected. -/
theorem C87_not_in_the_last_cell : ∃ (A : UArgs 2) (P : Plan 2) (r : UShot 2), A.setup.plan = .ok P ∧
    A.opts.maxVel ≠ none ∧ (∀ w, some w ∉ A.setup.wfs) ∧ A.elastic 0 = .ok (some r) ∧
    (A.crop P.ext).elastic 0 = .error .runtimeError := by
  obtain ⟨r, hr⟩ := exU_result exU_tight 0
  refine ⟨exU (.list [some 1, some 0, some 4, some 2]), exP ![(1, 5), (0, 8)], r, plan_ok.2 exU_tight, nofun,
    exU_noWf, hr, ?_⟩
  unfold UArgs.elastic call
  have : ((exU (.list [some 1, some 0, some 4, some 2])).crop (exP ![(1, 5), (0, 8)]).ext).Pre :=
    .inl ⟨0, exLoc.crop ![(1, 5), (0, 8)], .inr rfl, Acoustic.exLoc_beyond.2.2⟩
  unfold raiseIf
  rw [if_pos this]
  rfl

end Dw.Elastic
