import Verif.Setup.Crop

/-!
# Passing wavefields of the shape a call works with

A call that is accepted is also accepted, with the same plan, when it is given wavefields of the shape
and batch size that the call uses.
-/

namespace Dw.Setup

variable {d : ℕ}

/-- `get_survey_extents_from_wavefields` finds extents again from wavefields of their size. -/
theorem extentsFromWavefields_again {wfs wfs' : List (Option (Fin d → ℤ))} {origin : Option (List ℤ)}
    {w0 w1 : Fin d → ℤ} {ext : Fin d → ℤ × ℤ} (h : extentsFromWavefields wfs origin w0 w1 = .ok ext)
    (hne : ∃ x, some x ∈ wfs')
    (h' : ∀ x, some x ∈ wfs' → x = fun k => (ext k).2 - (ext k).1 + w0 k + w1 k) :
    extentsFromWavefields wfs' origin w0 w1 = .ok ext := by
  unfold extentsFromWavefields at h ⊢
  simp only at h ⊢
  split at h
  · cases h
  · split at h
    · cases h
    · obtain ⟨x, hx⟩ := hne
      obtain ⟨y, l, hy⟩ : ∃ y l, wfs'.filterMap id = y :: l := by
        cases hf : wfs'.filterMap id with
        | nil =>
            have : x ∈ wfs'.filterMap id := List.mem_filterMap.2 ⟨some x, hx, rfl⟩
            rw [hf] at this
            cases this
        | cons y l => exact ⟨y, l, rfl⟩
      have hy' : some y ∈ wfs' := by
        have : y ∈ wfs'.filterMap id := by rw [hy]; exact List.mem_cons_self
        obtain ⟨o, ho, e⟩ := List.mem_filterMap.1 this
        rw [show o = some y from e] at ho
        exact ho
      simp only [hy]
      rw [forDims_ok] at h ⊢
      intro k
      have hk := h k
      simp only [h' y hy'] at hk ⊢
      split_ifs at hk with h1
      have e := (Except.ok.inj hk).symm
      rw [if_neg (by rw [e]; simp only; omega)]
      rw [e]
      simp only [Except.ok.injEq, Prod.mk.injEq, true_and]
      omega

theorem SetupArgs.Good.rewave {A : SetupArgs d} {P : Plan d} (h : A.Good P) {wfs : List (Option (WfT d))}
    (hne : ∃ w, some w ∈ wfs)
    (hw : ∀ w, some w ∈ wfs → w.nb = P.nb ∧
      w.shape = fun k => (P.ext k).2 - (P.ext k).1 + P.w0 k + P.w1 k)
    (hor : A.surveyPad = .none → (∀ w, some w ∉ A.wfs) → A.origin = none)
    (hact : A.surveyPad = .none → ∀ l, some l ∈ A.srcs ++ A.rcvs → ∀ k < l.nd, l.active k ≠ []) :
    ({A with wfs := wfs} : SetupArgs d).Good P := by
  have hne' : ∃ x, some x ∈ wfs.map (Option.map WfT.shape) := by
    obtain ⟨w, hw⟩ := hne
    exact ⟨w.shape, List.mem_map.2 ⟨_, hw, rfl⟩⟩
  have hsh : ∀ x, some x ∈ wfs.map (Option.map WfT.shape) →
      x = fun k => (P.ext k).2 - (P.ext k).1 + P.w0 k + P.w1 k := by
    intro x hx
    obtain ⟨o, ho, e⟩ := List.mem_map.1 hx
    cases o with
    | none => cases e
    | some w =>
        cases e
        exact (hw w ho).2
  have hany : (wfs.map (Option.map WfT.shape)).any Option.isSome = true := by
    obtain ⟨x, hx⟩ := hne'
    exact List.any_eq_true.2 ⟨_, hx, rfl⟩
  refine
    { h with
      nb := ?_
      ext := ?_
      wfs := prepareWavefields_ok.2 hw }
  · have := h.nb
    unfold getNBatch at this ⊢
    cases hs : A.srcs.filterMap (Option.map LocT.nb) with
    | cons n l =>
        simp only [hs, List.cons_append] at this ⊢
        exact this
    | nil =>
        simp only [List.nil_append]
        have hm : ∀ n ∈ wfs.filterMap (Option.map WfT.nb), n = P.nb := by
          intro n hn
          obtain ⟨o, ho, e⟩ := List.mem_filterMap.1 hn
          cases o with
          | none => cases e
          | some w =>
              cases e
              exact (hw w ho).1
        cases hf : wfs.filterMap (Option.map WfT.nb) with
        | nil =>
            obtain ⟨w, hw⟩ := hne
            have : w.nb ∈ wfs.filterMap (Option.map WfT.nb) := List.mem_filterMap.2 ⟨_, hw, rfl⟩
            rw [hf] at this
            cases this
        | cons n l =>
            rw [hf] at hm
            rw [hm n List.mem_cons_self]
  · have he := h.ext
    show surveyExtents A.shape (A.srcs ++ A.rcvs) (wfs.map (Option.map WfT.shape)) A.surveyPad A.origin
      P.w0 P.w1 = .ok P.ext
    by_cases hsp : A.surveyPad = .none
    · rw [hsp] at he ⊢
      obtain ⟨hm, he⟩ := surveyExtents_none.1 he
      refine surveyExtents_none.2 ⟨hm, ?_⟩
      rw [if_pos hany]
      split_ifs at he with ha
      · exact ⟨extentsFromWavefields_again he.1 hne' hsh, he.2⟩
      · have hno : A.origin = none := hor hsp fun w hw => ha
          (List.any_eq_true.2 ⟨some w.shape, List.mem_map.2 ⟨_, hw, rfl⟩, rfl⟩)
        obtain ⟨⟨hd, hpos⟩, hl⟩ := checkLocationsWithinModel_iff.1 hm
        refine ⟨?_, ?_, checkLocationsWithinExtents_iff.2 fun l hl' k hk => ⟨hact hsp l hl' k hk, ?_⟩⟩
        · rw [hno]
          have h0 : extentsFromWavefields [some fun k => A.shape k + P.w0 k + P.w1 k] none P.w0 P.w1 =
              .ok P.ext := by
            unfold extentsFromWavefields
            have hw : ¬∃ k, P.w0 k < 0 ∨ P.w1 k < 0 := by
              rintro ⟨k, hk⟩
              have := h.widths k
              omega
            simp only [List.nil_append, firstErr, raiseIf, if_neg hw, List.filterMap_cons, id]
            rw [forDims_ok]
            intro k
            have := hpos k
            rw [if_neg (by omega), he]
            simp only [Except.ok.injEq, Prod.mk.injEq, true_and]
            omega
          exact extentsFromWavefields_again h0 hne' hsh
        · unfold checkExtentsWithinModel
          rw [firstErr_ok]
          intro x hx
          obtain ⟨k, rfl⟩ := List.mem_ofFn.1 hx
          rw [raiseIf_ok, he]
          simp
        · have hnd : l.nd = d := by
            rcases List.mem_append.1 hl' with hl' | hl'
            · exact ((extractLocations_iff.1 h.srcs).1 l hl').nd
            · exact ((extractLocations_iff.1 h.rcvs).1 l hl').nd
          refine ⟨by omega, fun x hx => ?_⟩
          have := (hl l hl' ⟨k, by omega⟩).2 x hx
          rw [he]
          exact ⟨by simpa using this.1, this.2⟩
    · have hf : (match A.surveyPad with | .none => true | _ => false) = false := by
        cases hs : A.surveyPad <;> first | exact absurd hs hsp | rfl
      unfold surveyExtents at he ⊢
      simp only [hf] at he ⊢
      simp only [Bool.false_eq_true, false_and, if_false, not_false_eq_true, true_and] at he ⊢
      split_ifs at he ⊢
      cases h1 : checkLocationsWithinModel A.shape (A.srcs ++ A.rcvs) with
      | error e => rw [h1] at he; cases he
      | ok u =>
          rw [h1] at he
          simp only at he ⊢
          cases h2 : extentsFromLocations A.shape (A.srcs ++ A.rcvs) A.surveyPad with
          | error e => rw [h2] at he; cases he
          | ok ext =>
              rw [h2] at he
              simp only at he ⊢
              split at he
              · cases he
              · have e := Except.ok.inj he
                have : checkExtentsMatchWavefields ext (wfs.map (Option.map WfT.shape)) P.w0 P.w1 = .ok () := by
                  unfold checkExtentsMatchWavefields
                  rw [firstErr_ok]
                  intro x hx
                  obtain ⟨o, ho, hx⟩ := List.mem_flatMap.1 hx
                  cases o with
                  | none => cases hx
                  | some sh =>
                      obtain ⟨k, rfl⟩ := List.mem_ofFn.1 hx
                      rw [raiseIf_ok, hsh sh ho, e]
                      simp only
                      omega
                rw [this]
                simp only [e]

end Dw.Setup
