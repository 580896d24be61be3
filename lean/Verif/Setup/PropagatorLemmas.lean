import Verif.Setup.Propagator
import Verif.Setup.SurveyLemmas

/-!
# When the steps of `setup_propagator` succeed
-/

namespace Dw.Setup

variable {d : ℕ}

theorem except_unit {x : Except PyErr Unit} {u : Unit} : x = .ok u ↔ x = .ok () := Iff.rfl

theorem checkDimWithin_ok {shape : Fin d → ℤ} {l : LocT} {k : Fin d} :
    checkDimWithin shape l k = .ok () ↔ (k : ℕ) < l.nd ∧ ∀ x ∈ l.active k, 0 ≤ x ∧ x < shape k := by
  unfold checkDimWithin
  by_cases h1 : l.nd ≤ k
  · simp [h1]
  · rw [if_neg h1]
    by_cases h2 : (l.active k).isEmpty = true
    · rw [if_pos h2]
      rw [List.isEmpty_iff] at h2
      simp [h2]
      omega
    · rw [if_neg h2]
      have h2' : l.active k ≠ [] := fun h => h2 (by rw [h]; rfl)
      by_cases h3 : minOf (l.active k) < 0
      · rw [if_pos h3]
        simp only [reduceCtorEq, false_iff]
        exact fun hh => absurd (hh.2 _ (minOf_mem h2')).1 (not_le.2 h3)
      · rw [if_neg h3]
        by_cases h4 : (shape k : ℚ) ≤ maxOf (l.active k)
        · rw [if_pos h4]
          simp only [reduceCtorEq, false_iff]
          exact fun hh => absurd (hh.2 _ (maxOf_mem h2')).2 (not_lt.2 h4)
        · rw [if_neg h4]
          simp only [true_iff]
          exact ⟨by omega, fun x hx => ⟨(not_lt.1 h3).trans (minOf_le hx),
            (le_maxOf hx).trans_lt (not_le.1 h4)⟩⟩

theorem checkModelShape_ok {shape : Fin d → ℤ} :
    checkModelShape shape = .ok () ↔ d ≠ 0 ∧ ∀ k, 0 < shape k := by
  unfold checkModelShape
  rw [firstErr_ok]
  simp only [List.mem_cons, forall_eq_or_imp, raiseIf_ok, List.mem_ofFn,
    forall_exists_index, forall_apply_eq_imp_iff, not_le]

theorem checkLocationsWithinModel_iff {shape : Fin d → ℤ} {locs : List (Option LocT)} :
    checkLocationsWithinModel shape locs = .ok () ↔ (d ≠ 0 ∧ ∀ k, 0 < shape k) ∧
      ∀ l, some l ∈ locs → ∀ k : Fin d, (k : ℕ) < l.nd ∧ ∀ x ∈ l.active k, 0 ≤ x ∧ x < shape k := by
  unfold checkLocationsWithinModel
  rw [← checkModelShape_ok]
  cases h1 : checkModelShape shape with
  | error e => simp
  | ok u =>
      simp only [true_and, firstErr_ok, List.mem_flatMap]
      constructor
      · intro h l hl k
        exact checkDimWithin_ok.1 (h _ ⟨some l, hl, by simp [List.mem_ofFn]⟩)
      · rintro h x ⟨o, ho, hx⟩
        cases o with
        | none => simp at hx
        | some l =>
            simp only [List.mem_ofFn] at hx
            obtain ⟨k, rfl⟩ := hx
            exact checkDimWithin_ok.2 (h l ho k)

theorem checkLocationsWithinExtents_iff {ext : Fin d → ℤ × ℤ} {locs : List (Option LocT)} :
    checkLocationsWithinExtents ext locs = .ok () ↔ ∀ l, some l ∈ locs → ∀ k < l.nd,
      l.active k ≠ [] ∧ ∃ h : k < d, ∀ x ∈ l.active k,
        ((ext ⟨k, h⟩).1 : ℚ) ≤ x ∧ x < ((ext ⟨k, h⟩).2 : ℚ) := by
  unfold checkLocationsWithinExtents
  simp only [firstErr_ok, List.mem_flatMap]
  have key : ∀ (l : LocT) (k : ℕ), ((if (l.active k).isEmpty then .error .runtimeError
        else if h : k < d then
          raiseIf (minOf (l.active k) < ((ext ⟨k, h⟩).1 : ℚ) ∨
            ((ext ⟨k, h⟩).2 : ℚ) ≤ maxOf (l.active k)) .runtimeError
        else .error .indexError : Except PyErr Unit) = .ok ()) ↔
      l.active k ≠ [] ∧ ∃ h : k < d, ∀ x ∈ l.active k,
        ((ext ⟨k, h⟩).1 : ℚ) ≤ x ∧ x < ((ext ⟨k, h⟩).2 : ℚ) := fun l k => by
    by_cases h1 : l.active k = []
    · simp [h1]
    · have : ¬(l.active k).isEmpty = true := fun h => h1 (List.isEmpty_iff.1 h)
      rw [if_neg this]
      by_cases h2 : k < d
      · rw [dif_pos h2, raiseIf_ok, not_or, not_lt, not_le]
        constructor
        · rintro ⟨h3, h4⟩
          exact ⟨h1, h2, fun x hx => ⟨h3.trans (minOf_le hx), (le_maxOf hx).trans_lt h4⟩⟩
        · rintro ⟨-, _, h3⟩
          exact ⟨(h3 _ (minOf_mem h1)).1, (h3 _ (maxOf_mem h1)).2⟩
      · rw [dif_neg h2]
        simp [h2]
  constructor
  · intro h l hl k hk
    exact (key l k).1 (h _ ⟨some l, hl, List.mem_map.2 ⟨k, List.mem_range.2 hk, rfl⟩⟩)
  · rintro h x ⟨o, ho, hx⟩
    cases o with
    | none => simp at hx
    | some l =>
        simp only [List.mem_map, List.mem_range] at hx
        obtain ⟨k, hk, rfl⟩ := hx
        exact (key l k).2 (h l ho k hk)

/-- The indices computed for a tensor of locations. -/
def idxOf (ext : Fin d → ℤ × ℤ) (p0 p1 : Fin d → ℤ) (l : LocT) : IdxT :=
  ⟨l.nb, l.n, fun s i => location1d (originOf ext p0) (stride (paddedShape ext p0 p1)) (l.cell d s i)⟩

theorem extractLocation_iff {eps : ℚ} {ext : Fin d → ℤ × ℤ} {p0 p1 : Fin d → ℤ} {nb : ℕ} {l : LocT}
    {t : IdxT} : extractLocation eps ext p0 p1 nb l = .ok t ↔
      (∀ s < l.nb, ∀ i < l.n, ∀ k < l.nd, |l.val s i k - trunc (l.val s i k)| ≤ eps) ∧ l.nb = nb ∧
      l.nd = d ∧ (∀ s < nb, (activeIdx t s).Nodup) ∧ t = idxOf ext p0 p1 l := by
  unfold extractLocation
  simp only
  by_cases h1 : ∃ s < l.nb, ∃ i < l.n, ∃ k < l.nd, eps < |l.val s i k - trunc (l.val s i k)|
  · rw [if_pos h1]
    simp only [reduceCtorEq, false_iff, not_and]
    obtain ⟨s, hs, i, hi, k, hk, h⟩ := h1
    exact fun hh => absurd (hh s hs i hi k hk) (not_le.2 h)
  · rw [if_neg h1]
    have h1' : ∀ s < l.nb, ∀ i < l.n, ∀ k < l.nd, |l.val s i k - trunc (l.val s i k)| ≤ eps :=
      fun s hs i hi k hk => not_lt.1 fun h => h1 ⟨s, hs, i, hi, k, hk, h⟩
    by_cases h2 : l.nb = nb
    · rw [if_neg (not_not.2 h2)]
      by_cases h3 : l.nd = d
      · rw [if_neg (not_not.2 h3)]
        change (if ∃ s < nb, ¬(activeIdx (idxOf ext p0 p1 l) s).Nodup then _ else _) = _ ↔ _
        split_ifs with h4
        · simp only [false_iff]
          rintro ⟨-, -, -, h5, rfl⟩
          obtain ⟨s, hs, h⟩ := h4
          exact h (h5 s hs)
        · simp only [Except.ok.injEq]
          constructor
          · rintro rfl
            exact ⟨h1', h2, h3, fun s hs => by_contra fun h => h4 ⟨s, hs, h⟩, rfl⟩
          · rintro ⟨-, -, -, -, rfl⟩
            rfl
      · rw [if_pos h3]
        simp [h3]
    · rw [if_pos h2]
      simp [h2]

/-- The extents without `survey_pad` do not depend on the locations. -/
theorem extentsFromLocations_none (shape : Fin d → ℤ) (locs : List (Option LocT)) {ext : Fin d → ℤ × ℤ} :
    extentsFromLocations shape locs .none = .ok ext ↔
      (d ≠ 0 ∧ ∀ k, 0 < shape k) ∧ ext = fun k => (0, shape k) := by
  unfold extentsFromLocations
  rw [← checkModelShape_ok]
  cases h1 : checkModelShape shape with
  | error e => simp
  | ok u =>
      have hd := (checkModelShape_ok.1 (show checkModelShape shape = .ok () from h1)).1
      have hs : setSurveyPad .none d = .ok (List.replicate (2 * d) (-1)) := by
        simp [setSurveyPad, hd]
      simp only [hs, true_and]
      have hg : ∀ j, j < 2 * d → (List.replicate (2 * d) (-1 : ℤ)).getD j 0 = -1 := fun j hj => by
        simp [List.getD_eq_getElem?_getD, hj]
      rw [forDims_ok]
      have key : ∀ k : Fin d, extentOneSide ((List.replicate (2 * d) (-1 : ℤ)).getD (2 * k) 0) true k locs
          (shape k) = .ok 0 ∧ extentOneSide ((List.replicate (2 * d) (-1 : ℤ)).getD (2 * k + 1) 0) false k
          locs (shape k) = .ok (shape k) := fun k => by
        have := k.isLt
        rw [hg _ (by omega), hg _ (by omega)]
        simp [extentOneSide]
      simp only [(key _).1, (key _).2]
      constructor
      · intro h
        funext k
        exact (Except.ok.inj (h k)).symm
      · rintro rfl k
        rfl

/-- `surveyExtents` without `survey_pad`. -/
theorem surveyExtents_none {shape : Fin d → ℤ} {locs : List (Option LocT)}
    {wfs : List (Option (Fin d → ℤ))} {origin : Option (List ℤ)} {w0 w1 : Fin d → ℤ}
    {ext : Fin d → ℤ × ℤ} : surveyExtents shape locs wfs .none origin w0 w1 = .ok ext ↔
      checkLocationsWithinModel shape locs = .ok () ∧
      if wfs.any Option.isSome then extentsFromWavefields wfs origin w0 w1 = .ok ext ∧
        checkExtentsWithinModel ext shape = .ok () ∧ checkLocationsWithinExtents ext locs = .ok ()
      else ext = fun k => (0, shape k) := by
  unfold surveyExtents
  simp only [not_true_eq_false, false_and, if_false, true_and]
  cases h1 : checkLocationsWithinModel shape locs with
  | error e => simp
  | ok u =>
      simp only [true_and]
      split_ifs with hw
      · cases h2 : extentsFromWavefields wfs origin w0 w1 with
        | error e => simp
        | ok x =>
            cases h3 : checkExtentsWithinModel x shape with
            | error e =>
                simp only [h3, reduceCtorEq, Except.ok.injEq, false_iff]
                rintro ⟨rfl, h4, -⟩
                rw [h3] at h4
                cases h4
            | ok u =>
                cases h4 : checkLocationsWithinExtents x locs with
                | error e =>
                    simp only [h3, h4, reduceCtorEq, Except.ok.injEq, false_iff]
                    rintro ⟨rfl, -, h5⟩
                    rw [h4] at h5
                    cases h5
                | ok u =>
                    simp only [h3, h4, Except.ok.injEq]
                    constructor
                    · rintro rfl
                      exact ⟨rfl, h3, h4⟩
                    · exact fun h => h.1
      · have hn : ∀ o ∈ wfs, o = none := fun o ho => by
          cases o with
          | none => rfl
          | some x => exact absurd (List.any_eq_true.2 ⟨_, ho, rfl⟩) hw
        have hm : ∀ ext : Fin d → ℤ × ℤ, checkExtentsMatchWavefields ext wfs w0 w1 = .ok () := fun ext => by
          unfold checkExtentsMatchWavefields
          rw [firstErr_ok]
          intro x hx
          obtain ⟨o, ho, hx⟩ := List.mem_flatMap.1 hx
          rw [hn o ho] at hx
          simp at hx
        have hc := checkLocationsWithinModel_iff.1 (show checkLocationsWithinModel shape locs = .ok () from h1)
        have he := (extentsFromLocations_none shape locs (ext := fun k => (0, shape k))).2 ⟨hc.1, rfl⟩
        rw [he]
        simp only [hm, Except.ok.injEq]
        exact eq_comm

/-- The indices computed for an optional tensor of locations. -/
def idxOpt (ext : Fin d → ℤ × ℤ) (p0 p1 : Fin d → ℤ) (nb : ℕ) : Option LocT → IdxT
  | none => ⟨nb, 0, fun _ _ => 0⟩
  | some l => idxOf ext p0 p1 l

/-- A tensor of locations is accepted. -/
structure LocGood (eps : ℚ) (ext : Fin d → ℤ × ℤ) (p0 p1 : Fin d → ℤ) (nb : ℕ) (l : LocT) : Prop where
  close : ∀ s < l.nb, ∀ i < l.n, ∀ k < l.nd, |l.val s i k - trunc (l.val s i k)| ≤ eps
  batch : l.nb = nb
  nd : l.nd = d
  nodup : ∀ s < nb, (activeIdx (idxOf ext p0 p1 l) s).Nodup

theorem extractLocations_iff {eps : ℚ} {ext : Fin d → ℤ × ℤ} {p0 p1 : Fin d → ℤ} {nb : ℕ} :
    ∀ {ls : List (Option LocT)} {ts : List IdxT}, extractLocations eps ext p0 p1 nb ls = .ok ts ↔
      (∀ l, some l ∈ ls → LocGood eps ext p0 p1 nb l) ∧ ts = ls.map (idxOpt ext p0 p1 nb)
  | [], ts => by
      simp only [extractLocations, Except.ok.injEq, List.not_mem_nil, false_imp_iff, implies_true,
        true_and, List.map_nil]
      exact eq_comm
  | none :: ls, ts => by
      have ih := fun ts => extractLocations_iff (eps := eps) (ext := ext) (p0 := p0) (p1 := p1) (nb := nb)
        (ls := ls) (ts := ts)
      simp only [extractLocations, List.mem_cons, reduceCtorEq, false_or, List.map_cons]
      cases h : extractLocations eps ext p0 p1 nb ls with
      | error e =>
          simp only [reduceCtorEq, false_iff]
          rintro ⟨h1, rfl⟩
          have := (ih _).2 ⟨h1, rfl⟩
          rw [h] at this
          cases this
      | ok us =>
          obtain ⟨h1, h2⟩ := (ih us).1 h
          simp only [Except.ok.injEq]
          constructor
          · rintro rfl
            exact ⟨h1, by rw [h2]; rfl⟩
          · rintro ⟨-, rfl⟩
            rw [h2]; rfl
  | some l :: ls, ts => by
      have ih := fun ts => extractLocations_iff (eps := eps) (ext := ext) (p0 := p0) (p1 := p1) (nb := nb)
        (ls := ls) (ts := ts)
      simp only [extractLocations, List.mem_cons, Option.some.injEq, List.map_cons]
      cases h0 : extractLocation eps ext p0 p1 nb l with
      | error e =>
          simp only [reduceCtorEq, false_iff]
          rintro ⟨h1, -⟩
          have g := h1 l (.inl rfl)
          have := extractLocation_iff.2 ⟨g.close, g.batch, g.nd, g.nodup, rfl⟩
          rw [h0] at this
          cases this
      | ok t =>
          obtain ⟨g1, g2, g3, g4, rfl⟩ := extractLocation_iff.1 h0
          simp only
          cases h : extractLocations eps ext p0 p1 nb ls with
          | error e =>
              simp only [reduceCtorEq, false_iff]
              rintro ⟨h1, rfl⟩
              have := (ih _).2 ⟨fun l hl => h1 l (.inr hl), rfl⟩
              rw [h] at this
              cases this
          | ok us =>
              obtain ⟨h1, h2⟩ := (ih us).1 h
              simp only [Except.ok.injEq]
              constructor
              · rintro rfl
                refine ⟨?_, by rw [h2]; rfl⟩
                rintro l' (rfl | hl)
                · exact ⟨g1, g2, g3, g4⟩
                · exact h1 l' hl
              · rintro ⟨-, rfl⟩
                rw [h2]; rfl

/-- What `extract_models` returns for a model. -/
def modelOf (ext : Fin d → ℤ × ℤ) (pad : List ℤ) (m : ModelT d ℝ × PadMode) : ModelT d ℝ :=
  let rsh : Fin d → ℤ := fun k => sliceLen (ext k).1 (ext k).2 (m.1.shape k)
  ⟨some (m.1.nb.getD 1), fun k => rsh k + fPadLo (reversePad pad) k + fPadHi (reversePad pad) k,
    fun s => fPad m.2 (reversePad pad) rsh fun c => m.1.val s fun k => c k + (ext k).1⟩

/-- A model is accepted. -/
structure ModelGood (shape0 : Fin d → ℤ) (ext : Fin d → ℤ × ℤ) (nb : ℕ) (m : ModelT d ℝ × PadMode) :
    Prop where
  shape : m.1.shape = shape0
  batch : m.1.nb.getD 1 = 1 ∨ m.1.nb.getD 1 = nb
  box : m.2 = .replicate → ∀ k, 0 < sliceLen (ext k).1 (ext k).2 (m.1.shape k)

theorem extractModel_iff {m : ModelT d ℝ × PadMode} {x : ModelT d ℝ} {shape0 : Fin d → ℤ}
    {ext : Fin d → ℤ × ℤ} {pad : List ℤ} {nb : ℕ} (hnb : 0 < nb) :
    extractModel m.1 shape0 ext pad m.2 nb = .ok x ↔
      ModelGood shape0 ext nb m ∧ x = modelOf ext pad m := by
  unfold extractModel
  by_cases h1 : m.1.shape = shape0
  · rw [if_neg (not_not.2 h1)]
    simp only
    by_cases h2 : m.1.nb.getD 1 ≠ 1 ∧ m.1.nb.getD 1 ≠ nb
    · rw [if_pos h2]
      simp only [reduceCtorEq, false_iff]
      exact fun h => h.1.batch.elim h2.1 h2.2
    · rw [if_neg h2, if_neg hnb.ne']
      have h2' : m.1.nb.getD 1 = 1 ∨ m.1.nb.getD 1 = nb := by
        by_contra h
        rw [not_or] at h
        exact h2 h
      by_cases h3 : m.2 = .replicate ∧ ∃ k, sliceLen (ext k).1 (ext k).2 (m.1.shape k) ≤ 0
      · rw [if_pos h3]
        simp only [reduceCtorEq, false_iff]
        obtain ⟨hm, k, hk⟩ := h3
        exact fun h => absurd (h.1.box hm k) (not_lt.2 hk)
      · rw [if_neg h3]
        simp only [Except.ok.injEq]
        constructor
        · rintro rfl
          exact ⟨⟨h1, h2', fun hm k => not_le.1 fun h => h3 ⟨hm, k, h⟩⟩, rfl⟩
        · rintro ⟨-, rfl⟩
          rfl
  · rw [if_pos h1]
    simp only [reduceCtorEq, false_iff]
    exact fun h => h1 h.1.shape

theorem extractModels_iff {shape0 : Fin d → ℤ} {ext : Fin d → ℤ × ℤ} {pad : List ℤ} {nb : ℕ}
    (hnb : 0 < nb) : ∀ {ms : List (ModelT d ℝ × PadMode)} {xs : List (ModelT d ℝ)},
    extractModels shape0 ext pad nb ms = .ok xs ↔
      (∀ m ∈ ms, ModelGood shape0 ext nb m) ∧ xs = ms.map (modelOf ext pad)
  | [], xs => by
      simp only [extractModels, Except.ok.injEq, List.not_mem_nil, false_imp_iff, implies_true,
        true_and, List.map_nil]
      exact eq_comm
  | m :: ms, xs => by
      have ih := fun xs => extractModels_iff (shape0 := shape0) (ext := ext) (pad := pad) hnb (ms := ms)
        (xs := xs)
      simp only [extractModels, bind_ok, pure, Except.pure, Except.ok.injEq, List.mem_cons,
        forall_eq_or_imp, List.map_cons]
      constructor
      · rintro ⟨x, h1, ys, h2, rfl⟩
        obtain ⟨g1, rfl⟩ := (extractModel_iff hnb).1 h1
        obtain ⟨g2, rfl⟩ := (ih ys).1 h2
        exact ⟨⟨g1, g2⟩, rfl⟩
      · rintro ⟨⟨g1, g2⟩, rfl⟩
        exact ⟨_, (extractModel_iff hnb).2 ⟨g1, rfl⟩, _, (ih _).2 ⟨g2, rfl⟩, rfl⟩

theorem checkAmps_ok {amps : List (Option AmpT)} {nb : ℕ} {nt ratio : ℤ} {ff tf : ℚ} :
    checkAmps amps nb nt ratio ff tf = .ok () ↔ ∀ a, some a ∈ amps →
      a.nb = nb ∧ a.nt * ratio = nt ∧ Resample.validate ratio ff tf = .ok () := by
  unfold checkAmps
  rw [firstErr_ok]
  constructor
  · intro h a ha
    have h' := fun x hx => h x (List.mem_flatMap.2 ⟨some a, ha, hx⟩)
    exact ⟨not_not.1 (raiseIf_ok.1 (h' _ (by simp; left; rfl))),
      not_not.1 (raiseIf_ok.1 (h' _ (by simp; right; left; rfl))), h' _ (by simp)⟩
  · intro h x hx
    obtain ⟨o, ho, hx⟩ := List.mem_flatMap.1 hx
    cases o with
    | none => simp at hx
    | some a =>
        obtain ⟨h1, h2, h3⟩ := h a ho
        simp only [List.mem_cons, List.not_mem_nil, or_false] at hx
        rcases hx with rfl | rfl | rfl
        · exact raiseIf_ok.2 (not_not.2 h1)
        · exact raiseIf_ok.2 (not_not.2 h2)
        · exact h3

theorem prepareWavefields_ok {wfs : List (Option (WfT d))} {ext : Fin d → ℤ × ℤ} {w0 w1 : Fin d → ℤ}
    {nb : ℕ} : prepareWavefields wfs ext w0 w1 nb = .ok () ↔ ∀ w, some w ∈ wfs →
      w.nb = nb ∧ w.shape = fun k => (ext k).2 - (ext k).1 + w0 k + w1 k := by
  unfold prepareWavefields
  rw [firstErr_ok]
  constructor
  · intro h w hw
    have h' := fun x hx => h x (List.mem_flatMap.2 ⟨some w, hw, hx⟩)
    exact ⟨not_not.1 (raiseIf_ok.1 (h' _ (by simp; left; rfl))),
      not_not.1 (raiseIf_ok.1 (h' _ (by simp; right; rfl)))⟩
  · intro h x hx
    obtain ⟨o, ho, hx⟩ := List.mem_flatMap.1 hx
    cases o with
    | none => simp at hx
    | some a =>
        obtain ⟨h1, h2⟩ := h a ho
        simp only [List.mem_cons, List.not_mem_nil, or_false] at hx
        rcases hx with rfl | rfl
        · exact raiseIf_ok.2 (not_not.2 h1)
        · exact raiseIf_ok.2 (not_not.2 h2)

/-- The batch size is that of every tensor of sources and wavefields. -/
theorem getNBatch_select {srcs srcs' : List (Option LocT)} {wfs wfs' : List (Option (WfT d))} {nb nb' : ℕ}
    (h : getNBatch srcs wfs = .ok nb)
    (hs : srcs'.map Option.isSome = srcs.map Option.isSome)
    (hw : wfs'.map Option.isSome = wfs.map Option.isSome)
    (h1 : ∀ l, some l ∈ srcs' → l.nb = nb') (h2 : ∀ w, some w ∈ wfs' → w.nb = nb') :
    getNBatch srcs' wfs' = .ok nb' := by
  unfold getNBatch at h ⊢
  have len : ∀ {α β : Type} (f : α → β) (l l' : List (Option α)),
      l'.map Option.isSome = l.map Option.isSome →
      (l'.filterMap (Option.map f)).length = (l.filterMap (Option.map f)).length := by
    intro α β f l
    induction l with
    | nil => intro l' h; simp at h; simp [h]
    | cons a l ih =>
        intro l' h
        cases l' with
        | nil => simp at h
        | cons a' l' =>
            simp only [List.map_cons, List.cons.injEq] at h
            have := ih l' h.2
            cases a <;> cases a' <;> simp_all
  have e1 := len LocT.nb srcs srcs' hs
  have e2 := len WfT.nb wfs wfs' hw
  cases hl' : srcs'.filterMap (Option.map LocT.nb) ++ wfs'.filterMap (Option.map WfT.nb) with
  | nil =>
      exfalso
      cases hl : srcs.filterMap (Option.map LocT.nb) ++ wfs.filterMap (Option.map WfT.nb) with
      | nil => rw [hl] at h; simp at h
      | cons n ns =>
          have e3 := congrArg List.length hl'
          have e4 := congrArg List.length hl
          simp only [List.length_append, List.length_nil, List.length_cons] at e3 e4
          omega
  | cons n ns =>
      have hm : n ∈ srcs'.filterMap (Option.map LocT.nb) ++ wfs'.filterMap (Option.map WfT.nb) := by
        rw [hl']; exact List.mem_cons_self
      simp only [Except.ok.injEq]
      rcases List.mem_append.1 hm with hm | hm
      · obtain ⟨o, ho, he⟩ := List.mem_filterMap.1 hm
        cases o with
        | none => simp at he
        | some l => simp at he; rw [← he]; exact h1 l ho
      · obtain ⟨o, ho, he⟩ := List.mem_filterMap.1 hm
        cases o with
        | none => simp at he
        | some l => simp at he; rw [← he]; exact h2 l ho

end Dw.Setup
