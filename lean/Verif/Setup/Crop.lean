import Verif.Setup.Select
import Verif.Props.Survey
import Verif.Props.Validate

/-!
# Setup of a call with a model cropped to the survey extents
-/

namespace Dw.Setup

variable {d : ℕ}

/-- The locations in the coordinates of the part of the model inside `ext`. -/
def LocT.crop (ext : Fin d → ℤ × ℤ) (l : LocT) : LocT :=
  ⟨l.nb, l.n, l.nd, fun s i k => if l.val s i k = (ignoreLocation : ℚ) then (ignoreLocation : ℚ)
    else l.val s i k - (if h : k < d then ((ext ⟨k, h⟩).1 : ℚ) else 0)⟩

/-- The part of a model inside `ext`. -/
def ModelT.crop (ext : Fin d → ℤ × ℤ) (m : ModelT d ℝ) : ModelT d ℝ :=
  ⟨m.nb, fun k => (ext k).2 - (ext k).1, fun s c => m.val s fun k => c k + (ext k).1⟩

def SetupArgs.crop (A : SetupArgs d) (ext : Fin d → ℤ × ℤ) (mv : ℝ) : SetupArgs d :=
  { A with
    models := A.models.map fun m => (m.1.crop ext, m.2)
    srcs := A.srcs.map (Option.map (LocT.crop ext))
    rcvs := A.rcvs.map (Option.map (LocT.crop ext))
    surveyPad := .none, origin := none
    maxModelVel := mv }

/-- The extents of the cropped model. -/
def cropExt (ext : Fin d → ℤ × ℤ) : Fin d → ℤ × ℤ := fun k => (0, (ext k).2 - (ext k).1)

theorem paddedShape_crop (ext : Fin d → ℤ × ℤ) (p0 p1 : Fin d → ℤ) :
    paddedShape (cropExt ext) p0 p1 = paddedShape ext p0 p1 := by
  funext k
  simp [paddedShape, cropExt]

theorem modelOf_crop {ext : Fin d → ℤ × ℤ} (pad : List ℤ) {m : ModelT d ℝ × PadMode}
    (h : ∀ k, 0 ≤ (ext k).1 ∧ (ext k).1 < (ext k).2 ∧ (ext k).2 ≤ m.1.shape k) :
    modelOf (cropExt ext) pad (m.1.crop ext, m.2) = modelOf ext pad m := by
  have e : (fun k => sliceLen (cropExt ext k).1 (cropExt ext k).2 ((m.1.crop ext).shape k)) =
      fun k => sliceLen (ext k).1 (ext k).2 (m.1.shape k) := by
    funext k
    have := h k
    simp only [sliceLen, cropExt, ModelT.crop]
    omega
  have e' : ∀ k, sliceLen (cropExt ext k).1 (cropExt ext k).2 ((m.1.crop ext).shape k) =
      sliceLen (ext k).1 (ext k).2 (m.1.shape k) := fun k => congrFun e k
  unfold modelOf
  simp only [e']
  simp only [ModelT.crop, cropExt, add_zero]

/-- The coordinates of the locations are in the extents. -/
def LocT.In (ext : Fin d → ℤ × ℤ) (l : LocT) : Prop :=
  ∀ s < l.nb, ∀ i < l.n, ∀ k : Fin d, l.val s i k ≠ (ignoreLocation : ℚ) →
    0 ≤ l.val s i k ∧ (ext k).1 ≤ trunc (l.val s i k) ∧ trunc (l.val s i k) < (ext k).2

theorem trunc_sub {x : ℚ} {e : ℤ} (h0 : 0 ≤ x) (he : 0 ≤ e) (h : e ≤ trunc x) :
    0 ≤ x - e ∧ trunc (x - e) = trunc x - e := by
  have e1 : trunc x = ⌊x⌋ := if_pos h0
  rw [e1] at h ⊢
  have h1 : (e : ℚ) ≤ x := (Int.cast_le.2 h).trans (Int.floor_le x)
  refine ⟨sub_nonneg.2 h1, ?_⟩
  rw [trunc, if_pos (sub_nonneg.2 h1), Int.floor_sub_intCast]

theorem LocT.crop_val {ext : Fin d → ℤ × ℤ} {l : LocT} (he : ∀ k, 0 ≤ (ext k).1) (hl : l.In ext)
    {s i : ℕ} (hs : s < l.nb) (hi : i < l.n) (k : Fin d) (hv : l.val s i k ≠ (ignoreLocation : ℚ)) :
    (l.crop ext).val s i k = l.val s i k - ((ext k).1 : ℚ) ∧ 0 ≤ (l.crop ext).val s i k ∧
      trunc ((l.crop ext).val s i k) = trunc (l.val s i k) - (ext k).1 := by
  have e : (l.crop ext).val s i k = l.val s i k - ((ext k).1 : ℚ) := by
    simp [LocT.crop, hv]
  rw [e]
  obtain ⟨h0, h1, -⟩ := hl s hs i hi k hv
  exact ⟨rfl, trunc_sub h0 (he k) h1⟩

theorem ignore_neg : ((ignoreLocation : ℤ) : ℚ) < 0 := by norm_num [ignoreLocation]

theorem trunc_ne_ignore {x : ℚ} (h : 0 ≤ x) : trunc x ≠ ignoreLocation := by
  rw [trunc, if_pos h]
  have := Int.floor_nonneg.2 h
  unfold ignoreLocation
  omega

theorem idxOf_crop {ext : Fin d → ℤ × ℤ} {l : LocT} (he : ∀ k, 0 ≤ (ext k).1) (hl : l.In ext)
    (p0 p1 : Fin d → ℤ) {s i : ℕ} (hs : s < l.nb) (hi : i < l.n) :
    (idxOf (cropExt ext) p0 p1 (l.crop ext)).val s i = (idxOf ext p0 p1 l).val s i := by
  simp only [idxOf, paddedShape_crop]
  have key : ∀ k, (if (l.crop ext).cell d s i k ≠ ignoreLocation then
      (l.crop ext).cell d s i k - originOf (cropExt ext) p0 k else ignoreLocation) =
      if l.cell d s i k ≠ ignoreLocation then
        l.cell d s i k - originOf ext p0 k else ignoreLocation := fun k => by
    have c1 : (l.crop ext).cell d s i k = trunc ((l.crop ext).val s i k) := rfl
    have c2 : l.cell d s i k = trunc (l.val s i k) := rfl
    rw [c1, c2]
    by_cases hv : l.val s i k = (ignoreLocation : ℚ)
    · have e : (l.crop ext).val s i k = (ignoreLocation : ℚ) := by simp [LocT.crop, hv]
      simp [e, hv, trunc_int]
    · obtain ⟨-, h2, h3⟩ := l.crop_val he hl hs hi k hv
      rw [if_pos (trunc_ne_ignore h2), if_pos (trunc_ne_ignore (hl s hs i hi k hv).1), h3]
      simp only [originOf, cropExt]
      ring
  unfold location1d
  simp only [key]

/-- A tensor of locations is still accepted. -/
theorem LocGood.crop {eps : ℚ} {ext : Fin d → ℤ × ℤ} {p0 p1 : Fin d → ℤ} {nb : ℕ} {l : LocT}
    (g : LocGood eps ext p0 p1 nb l) (he : ∀ k, 0 ≤ (ext k).1) (hl : l.In ext) :
    LocGood eps (cropExt ext) p0 p1 nb (l.crop ext) := by
  refine ⟨fun s hs i hi k hk => ?_, g.batch, g.nd, fun s hs => ?_⟩
  · have hk' : k < d := by rw [← g.nd]; exact hk
    have := g.close s hs i hi k hk
    by_cases hv : l.val s i k = (ignoreLocation : ℚ)
    · have e : (l.crop ext).val s i k = (ignoreLocation : ℚ) := by simp [LocT.crop, hv]
      rw [e, ← hv]
      exact this
    · obtain ⟨h1, -, h3⟩ := l.crop_val he hl hs hi ⟨k, hk'⟩ hv
      simp only at h1 h3
      rw [h3, h1]
      push_cast
      rw [sub_sub_sub_cancel_right]
      exact this
  · have : activeIdx (idxOf (cropExt ext) p0 p1 (l.crop ext)) s = activeIdx (idxOf ext p0 p1 l) s := by
      unfold activeIdx
      congr 1
      refine List.map_congr_left fun i hi => ?_
      exact idxOf_crop he hl p0 p1 (by rw [g.batch]; exact hs) (List.mem_range.1 hi)
    rw [this]
    exact g.nodup s hs

theorem SetupArgs.Good.widths {A : SetupArgs d} {P : Plan d} (h : A.Good P)
    (k : Fin d) : 0 ≤ P.w0 k ∧ 0 ≤ P.w1 k := by
  have hw := ((C35_pml_width _ _ _).1 h.width).2.1
  have : ∀ j, 0 ≤ P.wL.getD j 0 := fun j => by
    rw [List.getD_eq_getElem?_getD]
    cases hj : P.wL[j]? with
    | none => simp
    | some x => exact hw x (List.mem_of_getElem? hj)
  exact ⟨this _, this _⟩

/-- The extents lie in the model and contain the locations. -/
theorem SetupArgs.Good.in_extents {A : SetupArgs d} {P : Plan d} (h : A.Good P) :
    (∀ k, 0 ≤ (P.ext k).1 ∧ (P.ext k).2 ≤ A.shape k) ∧
      ∀ l, some l ∈ A.srcs ++ A.rcvs → l.In P.ext := by
  have hin := C15_locations_in_extents _ _ _ _ _ _ _ _ h.ext
  refine ⟨fun k => ⟨(hin k).1, (hin k).2.1⟩, fun l hl s hs i hi k hv => ?_⟩
  have h1 := (hin k).2.2 _ ⟨l, hl, s, hs, i, hi, hv, rfl⟩
  refine ⟨?_, h1⟩
  by_contra hneg
  have : checkLocationsWithinModel A.shape (A.srcs ++ A.rcvs) = .ok () := by
    have he := h.ext
    unfold surveyExtents at he
    simp only at he
    split_ifs at he <;>
    · cases hc : checkLocationsWithinModel A.shape (A.srcs ++ A.rcvs) with
      | error e => rw [hc] at he; cases he
      | ok u => rfl
  exact hneg (((checkLocationsWithinModel_iff.1 this).2 l hl k).2 _
    (LocT.mem_active.2 ⟨s, hs, i, hi, rfl, hv⟩)).1

theorem SetupArgs.Good.shape_pos {A : SetupArgs d} {P : Plan d} (h : A.Good P) :
    d ≠ 0 ∧ ∀ k, 0 < A.shape k := by
  have : checkLocationsWithinModel A.shape (A.srcs ++ A.rcvs) = .ok () := by
    have he := h.ext
    unfold surveyExtents at he
    simp only at he
    split_ifs at he <;>
    · cases hc : checkLocationsWithinModel A.shape (A.srcs ++ A.rcvs) with
      | error e => rw [hc] at he; cases he
      | ok u => rfl
  exact (checkLocationsWithinModel_iff.1 this).1

/-- The setup for the call with the cropped model. -/
def Plan.crop (P : Plan d) (A : SetupArgs d) : Plan d :=
  { P with
    ext := cropExt P.ext
    srcs := (A.crop P.ext 0).srcs.map
      (idxOpt (cropExt P.ext) (padBegin P.accZ P.wL) (padEnd A.staggered P.accZ P.wL) P.nb)
    rcvs := (A.crop P.ext 0).rcvs.map
      (idxOpt (cropExt P.ext) (padBegin P.accZ P.wL) (padEnd A.staggered P.accZ P.wL) P.nb) }

/-- If the setup accepts a call, it accepts the call with the model cropped to the extents it has chosen. -/
theorem SetupArgs.Good.crop {A : SetupArgs d} {P : Plan d} (h : A.Good P) {mv : ℝ} (hnb : 0 < P.nb)
    (hbox : ∀ k, (P.ext k).1 < (P.ext k).2) (hmv : A.maxVel = none → mv = A.maxModelVel)
    (hact : (∃ w, some w ∈ A.wfs) → ∀ l, some l ∈ A.srcs ++ A.rcvs → ∀ k < l.nd, l.active k ≠ []) :
    (A.crop P.ext mv).Good (P.crop A) := by
  obtain ⟨hext, hin⟩ := h.in_extents
  obtain ⟨hd, hpos⟩ := h.shape_pos
  have he : ∀ k, 0 ≤ (P.ext k).1 := fun k => (hext k).1
  have hsrc := extractLocations_iff.1 h.srcs
  have hrcv := extractLocations_iff.1 h.rcvs
  have hmod := (extractModels_iff hnb).1 h.models
  have hshape : (A.crop P.ext mv).shape = fun k => (P.ext k).2 - (P.ext k).1 := by
    cases hm : A.models with
    | nil =>
        have := hpos ⟨0, Nat.pos_of_ne_zero hd⟩
        simp [SetupArgs.shape, hm] at this
    | cons m ms => simp [SetupArgs.shape, SetupArgs.crop, hm, ModelT.crop]
  have hnd : ∀ l, some l ∈ A.srcs ++ A.rcvs → l.nd = d := fun l hl => by
    rcases List.mem_append.1 hl with hl | hl
    · exact (hsrc.1 l hl).nd
    · exact (hrcv.1 l hl).nd
  have hactive : ∀ l, some l ∈ A.srcs ++ A.rcvs → ∀ k : Fin d, ∀ x ∈ (l.crop P.ext).active k,
      0 ≤ x ∧ x < (((P.ext k).2 - (P.ext k).1 : ℤ) : ℚ) := fun l hl k x hx => by
    obtain ⟨s, hs, i, hi, rfl, hne⟩ := LocT.mem_active.1 hx
    have hv : l.val s i k ≠ (ignoreLocation : ℚ) := fun hv => hne (by simp [LocT.crop, hv])
    obtain ⟨-, h2, h3⟩ := l.crop_val he (hin l hl) hs hi k hv
    refine ⟨h2, ?_⟩
    have h4 := (hin l hl s hs i hi k hv).2.2
    have h5 : trunc ((l.crop P.ext).val s i k) < (P.ext k).2 - (P.ext k).1 := by omega
    rw [trunc, if_pos h2, Int.floor_lt] at h5
    exact h5
  have hlocs : (A.crop P.ext mv).srcs ++ (A.crop P.ext mv).rcvs =
      (A.srcs ++ A.rcvs).map (Option.map (LocT.crop P.ext)) := by
    simp only [SetupArgs.crop, List.map_append]
  exact
    { nb := getNBatch_select h.nb
        (by simp only [SetupArgs.crop, List.map_map]
            exact List.map_congr_left fun o _ => by cases o <;> rfl) rfl
        (fun l hl => by
          obtain ⟨l, hl', rfl⟩ := mem_map_option.1 hl
          exact (hsrc.1 l hl').batch)
        (fun w hw => (prepareWavefields_ok.1 h.wfs w hw).1)
      dx := h.dx
      maxVel := by
        have := h.maxVel
        unfold setMaxVelR at this ⊢
        simp only [SetupArgs.crop]
        cases hm : A.maxVel with
        | none => rw [hm] at this; rw [hmv hm]; exact this
        | some x => rw [hm] at this; exact this
      cfl := h.cfl
      acc := h.acc
      width := h.width
      freq := h.freq
      nt := h.nt
      interval := h.interval
      ff := h.ff
      tf := h.tf
      ampsMatch := by
        have e2 : (A.crop P.ext mv).srcs.map (Option.map LocT.n) = A.srcs.map (Option.map LocT.n) := by
          simp only [SetupArgs.crop, List.map_map]
          exact List.map_congr_left fun o _ => by cases o <;> rfl
        rw [e2]
        exact h.ampsMatch
      amps := h.amps
      ext := by
        rw [hshape, hlocs, show (A.crop P.ext mv).surveyPad = SurveyPad.none from rfl]
        refine surveyExtents_none.2 ⟨?_, ?_⟩
        · refine checkLocationsWithinModel_iff.2 ⟨⟨hd, fun k => by have := hbox k; omega⟩, fun l hl k => ?_⟩
          obtain ⟨l, hl', rfl⟩ := mem_map_option.1 hl
          exact ⟨by have := k.isLt; have := hnd l hl'; simp only [LocT.crop]; omega,
            fun x hx => hactive l hl' k x hx⟩
        · split_ifs with hw
          · have hw' : ∃ w, some w ∈ A.wfs := by
              obtain ⟨o, ho, hs⟩ := List.any_eq_true.1 hw
              obtain ⟨o', ho', rfl⟩ := List.mem_map.1 ho
              cases o' with
              | none => simp at hs
              | some w => exact ⟨w, ho'⟩
            refine ⟨?_, ?_, ?_⟩
            · have hwid := h.widths
              unfold extentsFromWavefields
              have hc : firstErr [raiseIf (∃ k, (P.crop A).w0 k < 0 ∨ (P.crop A).w1 k < 0)
                  .runtimeError] = .ok () := by
                refine firstErr_ok.2 fun x hx => ?_
                rw [List.mem_singleton.1 hx, raiseIf_ok]
                rintro ⟨k, hk⟩
                have := hwid k
                simp only [Plan.w0, Plan.w1, Plan.crop] at hk this
                omega
              simp only [show (A.crop P.ext mv).origin = none from rfl, List.nil_append, hc]
              cases hf : ((A.crop P.ext mv).wfs.map (Option.map WfT.shape)).filterMap id with
              | nil =>
                  obtain ⟨w, hw'⟩ := hw'
                  have : w.shape ∈ ((A.crop P.ext mv).wfs.map (Option.map WfT.shape)).filterMap id :=
                    List.mem_filterMap.2 ⟨some w.shape, List.mem_map.2 ⟨some w, hw', rfl⟩, rfl⟩
                  rw [hf] at this
                  cases this
              | cons sh tl =>
                  have hm : sh ∈ ((A.crop P.ext mv).wfs.map (Option.map WfT.shape)).filterMap id := by
                    rw [hf]; exact List.mem_cons_self
                  obtain ⟨o, ho, ho'⟩ := List.mem_filterMap.1 hm
                  obtain rfl : o = some sh := ho'
                  obtain ⟨w, hw2, rfl⟩ := mem_map_option.1 ho
                  have hsh := (prepareWavefields_ok.1 h.wfs w hw2).2
                  simp only
                  refine forDims_ok.2 fun k => ?_
                  have := hbox k
                  have e : w.shape k - (P.crop A).w0 k - (P.crop A).w1 k = (P.ext k).2 - (P.ext k).1 := by
                    rw [hsh]
                    simp only [Plan.w0, Plan.w1, Plan.crop]
                    ring
                  rw [e, if_neg (by omega)]
                  simp [Plan.crop, cropExt]
            · unfold checkExtentsWithinModel
              refine firstErr_ok.2 fun x hx => ?_
              obtain ⟨k, rfl⟩ := List.mem_ofFn.1 hx
              rw [raiseIf_ok]
              simp [Plan.crop, cropExt]
            · refine checkLocationsWithinExtents_iff.2 fun l hl k hk => ?_
              obtain ⟨l, hl', rfl⟩ := mem_map_option.1 hl
              have hkd : k < d := by rw [← hnd l hl']; exact hk
              refine ⟨?_, hkd, fun x hx => ?_⟩
              · obtain ⟨x, hx⟩ := List.exists_mem_of_ne_nil _ (hact hw' l hl' k hk)
                obtain ⟨s, hs, i, hi, rfl, hv⟩ := LocT.mem_active.1 hx
                obtain ⟨-, h2, -⟩ := l.crop_val he (hin l hl') hs hi ⟨k, hkd⟩ hv
                refine List.ne_nil_of_mem (LocT.mem_active.2 ⟨s, hs, i, hi, rfl, fun hc => ?_⟩)
                have := ignore_neg
                simp only at h2
                rw [hc] at h2
                linarith
              · have := hactive l hl' ⟨k, hkd⟩ x hx
                simpa [Plan.crop, cropExt] using this
          · rfl
      models := by
        refine (extractModels_iff hnb).2 ⟨fun m hm => ?_, ?_⟩
        · obtain ⟨m, hm', rfl⟩ := List.mem_map.1 hm
          have g := hmod.1 m hm'
          refine ⟨by rw [hshape]; rfl, g.batch, fun hr k => ?_⟩
          have := hbox k
          simp only [sliceLen, Plan.crop, cropExt, ModelT.crop]
          omega
        · simp only [Plan.crop, SetupArgs.crop, hmod.2, List.map_map]
          refine List.map_congr_left fun m hm => ?_
          refine (modelOf_crop _ fun k => ⟨he k, hbox k, ?_⟩).symm
          rw [(hmod.1 m hm).shape]
          exact (hext k).2
      srcs := by
        refine extractLocations_iff.2 ⟨fun l hl => ?_, rfl⟩
        obtain ⟨l, hl', rfl⟩ := mem_map_option.1 hl
        exact (hsrc.1 l hl').crop he (hin l (List.mem_append_left _ hl'))
      rcvs := by
        refine extractLocations_iff.2 ⟨fun l hl => ?_, rfl⟩
        obtain ⟨l, hl', rfl⟩ := mem_map_option.1 hl
        exact (hrcv.1 l hl').crop he (hin l (List.mem_append_right _ hl'))
      wfs := prepareWavefields_ok.2 fun w hw => by
        obtain ⟨h1, h2⟩ := prepareWavefields_ok.1 h.wfs w hw
        refine ⟨h1, h2.trans ?_⟩
        funext k
        simp [Plan.crop, cropExt, Plan.w0, Plan.w1] }

end Dw.Setup
