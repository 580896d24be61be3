import Mathlib.Order.Bounds.Basic
import Mathlib.Tactic.NormNum
import Mathlib.Tactic.FinCases
import Verif.Setup.SurveyLemmas

/-!
# Survey extents, padded models and location indices
-/

namespace Dw.Setup

variable {d : ℕ}

/-- The pad the user asked for on side `j` (`2 k` is the beginning, `2 k + 1` the end of dimension
`k`); `none` means up to the edge of the model. -/
def SurveyPad.side : SurveyPad → ℕ → Option ℤ
  | .none, _ => Option.none
  | .int p, _ => some p
  | .list l, j => l.getD j Option.none

theorem setSurveyPad_ok {sp : SurveyPad} {pads : List ℤ} (h : setSurveyPad sp d = .ok pads) {j : ℕ}
    (hj : j < 2 * d) :
    pads.getD j 0 = (sp.side j).getD (-1) ∧ ∀ p, sp.side j = some p → 0 ≤ p := by
  unfold setSurveyPad at h
  split_ifs at h with hd
  cases sp with
  | none =>
      simp only [List.length_replicate, ne_eq, not_true_eq_false, if_false, Except.ok.injEq] at h
      subst h
      simp [SurveyPad.side, List.getD_eq_getElem?_getD, hj]
  | int p =>
      simp only [List.length_replicate, ne_eq, not_true_eq_false, if_false] at h
      split_ifs at h with hp
      simp only [Except.ok.injEq] at h
      subst h
      simp [SurveyPad.side, List.getD_eq_getElem?_getD, hj]
      omega
  | list l =>
      simp only [List.length_map] at h
      split_ifs at h with hneg hlen
      simp only [Except.ok.injEq] at h
      subst h
      simp only [ne_eq, not_not] at hlen
      have hjl : j < l.length := by omega
      simp only [SurveyPad.side, List.getD_eq_getElem?_getD, List.getElem?_map,
        List.getElem?_eq_getElem hjl, Option.map_some, Option.getD_some]
      refine ⟨trivial, fun p hp => ?_⟩
      by_contra hlt
      refine hneg (List.any_eq_true.2 ⟨l[j], List.getElem_mem hjl, ?_⟩)
      rw [hp]
      simpa [isNeg] using hlt

/-- `x` is a coordinate along dimension `k` of a source or receiver that is not ignored. -/
def Occupied (locs : List (Option LocT)) (k : ℕ) (x : ℤ) : Prop :=
  ∃ l, some l ∈ locs ∧ ∃ s < l.nb, ∃ i < l.n, l.val s i k ≠ (ignoreLocation : ℚ) ∧ trunc (l.val s i k) = x

theorem occupied_iff {locs : List (Option LocT)} {k : ℕ} {x : ℤ} :
    Occupied locs k x ↔ ∃ l, some l ∈ locs ∧ ∃ y ∈ l.active k, trunc y = x := by
  unfold Occupied
  constructor
  · rintro ⟨l, hl, s, hs, i, hi, hne, rfl⟩
    exact ⟨l, hl, _, LocT.mem_active.2 ⟨s, hs, i, hi, rfl, hne⟩, rfl⟩
  · rintro ⟨l, hl, y, hy, rfl⟩
    obtain ⟨s, hs, i, hi, rfl, hne⟩ := LocT.mem_active.1 hy
    exact ⟨l, hl, s, hs, i, hi, hne, rfl⟩

/-- Left edges that leave `p` cells before every location, or as many as the model has. -/
def LeftEdges (locs : List (Option LocT)) (k : ℕ) (p : ℤ) : Set ℤ :=
  {l | 0 ≤ l ∧ ∀ x, Occupied locs k x → l ≤ x ∧ (l = 0 ∨ l + p ≤ x)}

/-- Right edges (exclusive) that leave `p` cells after every location, or as many as the model has. -/
def RightEdges (locs : List (Option LocT)) (k : ℕ) (p n : ℤ) : Set ℤ :=
  {r | r ≤ n ∧ ∀ x, Occupied locs k x → x < r ∧ (r = n ∨ x + p < r)}

theorem extentsFromLocations_dim {shape : Fin d → ℤ} {locs : List (Option LocT)} {sp : SurveyPad}
    {ext : Fin d → ℤ × ℤ} (h : extentsFromLocations shape locs sp = .ok ext) (k : Fin d) :
    0 < shape k ∧
    extentOneSide ((sp.side (2 * k)).getD (-1)) true k locs (shape k) = .ok (ext k).1 ∧
    extentOneSide ((sp.side (2 * k + 1)).getD (-1)) false k locs (shape k) = .ok (ext k).2 ∧
    (∀ p, sp.side (2 * k) = some p → 0 ≤ p) ∧ (∀ p, sp.side (2 * k + 1) = some p → 0 ≤ p) := by
  unfold extentsFromLocations at h
  cases h1 : checkModelShape shape with
  | error e => rw [h1] at h; cases h
  | ok u =>
    rw [h1] at h
    simp only at h
    cases h2 : setSurveyPad sp d with
    | error e => rw [h2] at h; cases h
    | ok pads =>
      rw [h2] at h
      simp only at h
      have hk := forDims_ok.1 h k
      have hkd := k.isLt
      have e1 := setSurveyPad_ok h2 (j := 2 * k) (by omega)
      have e2 := setSurveyPad_ok h2 (j := 2 * k + 1) (by omega)
      rw [e1.1, e2.1] at hk
      have hpos : 0 < shape k := by
        have := firstErr_ok.1 (show firstErr _ = .ok () from h1) (raiseIf (shape k ≤ 0) .runtimeError)
          (List.mem_cons_of_mem _ (by simp only [List.mem_ofFn]; exact ⟨k, rfl⟩))
        rw [raiseIf_ok] at this
        omega
      cases h3 : extentOneSide ((sp.side (2 * k)).getD (-1)) true k locs (shape k) with
      | error e => rw [h3] at hk; cases hk
      | ok l =>
        rw [h3] at hk
        simp only at hk
        cases h4 : extentOneSide ((sp.side (2 * k + 1)).getD (-1)) false k locs (shape k) with
        | error e => rw [h4] at hk; cases hk
        | ok r =>
          rw [h4] at hk
          simp only [Except.ok.injEq] at hk
          rw [← hk]
          exact ⟨hpos, rfl, rfl, e1.2, e2.2⟩

/-- **C18** If the extents are determined from the locations, they lie in the model; a side with pad
`None` (or without any location tensor) is the edge of the model; otherwise, if there is a location,
the extent is the tightest one that leaves the requested pad to every location or ends at the edge of
the model. -/
theorem C18_smallest_extents (shape : Fin d → ℤ) (locs : List (Option LocT)) (sp : SurveyPad)
    (ext : Fin d → ℤ × ℤ) (h : extentsFromLocations shape locs sp = .ok ext) (k : Fin d) :
    (0 ≤ (ext k).1 ∧ (ext k).1 ≤ shape k ∧ 0 ≤ (ext k).2 ∧ (ext k).2 ≤ shape k) ∧
    ((sp.side (2 * k) = none ∨ ∀ o ∈ locs, o = none) → (ext k).1 = 0) ∧
    ((sp.side (2 * k + 1) = none ∨ ∀ o ∈ locs, o = none) → (ext k).2 = shape k) ∧
    ((∃ x, Occupied locs k x) →
      (∀ p, sp.side (2 * k) = some p → IsGreatest (LeftEdges locs k p) (ext k).1) ∧
      (∀ p, sp.side (2 * k + 1) = some p → IsLeast (RightEdges locs k p (shape k)) (ext k).2)) := by
  obtain ⟨hpos, hl, hr, hp0, hp1⟩ := extentsFromLocations_dim h k
  have hnone : (∀ o ∈ locs, o = none) → ¬(locs.any Option.isSome) = true := by
    intro hn hany
    obtain ⟨o, ho, hs⟩ := List.any_eq_true.1 hany
    rw [hn o ho] at hs
    cases hs
  unfold extentOneSide at hl hr
  simp only [if_true, Bool.false_eq_true, if_false] at hl hr
  have left : (0 ≤ (ext k).1 ∧ (ext k).1 ≤ shape k) ∧
      ((sp.side (2 * k) = none ∨ ∀ o ∈ locs, o = none) → (ext k).1 = 0) ∧
      ((∃ x, Occupied locs k x) →
        ∀ p, sp.side (2 * k) = some p → IsGreatest (LeftEdges locs k p) (ext k).1) := by
    split_ifs at hl with hc
    · simp only [Except.ok.injEq] at hl
      refine ⟨by omega, fun _ => hl.symm, ?_⟩
      rintro ⟨x, l, hl', -⟩ p hp
      rw [hp] at hc
      have hpp := hp0 p hp
      rcases hc with hc | hc
      · simp at hc; omega
      · exact absurd (List.any_eq_true.2 ⟨_, hl', rfl⟩) hc
    · push Not at hc
      cases he : extremeLoop true ((sp.side (2 * k)).getD (-1)) k (shape k) locs (shape k) with
      | error e => rw [he] at hl; cases hl
      | ok e =>
        rw [he] at hl
        simp only [Except.ok.injEq] at hl
        obtain ⟨hin, hle, hall, hex⟩ := extremeLoop_left he
        refine ⟨by clear hex hall hin; omega, ?_, ?_⟩
        · rintro (hn | hn)
          · rw [hn] at hc; simp at hc
          · exact absurd hc.2 (hnone hn)
        · rintro ⟨x₀, hx₀⟩ p hp
          rw [hp] at hall hex
          simp only [Option.getD_some] at hall hex
          have hpp := hp0 p hp
          have hocc : ∀ x, Occupied locs k x → 0 ≤ x ∧ x < shape k ∧ e ≤ x - p := by
            intro x hx
            obtain ⟨l, hl1, y, hy, rfl⟩ := occupied_iff.1 hx
            have := hin l hl1 y hy
            have := trunc_lt this.1 this.2
            exact ⟨this.1, this.2, hall l hl1 y hy⟩
          constructor
          · refine ⟨by clear hex hall hin; omega, fun x hx => ?_⟩
            have := hocc x hx
            clear hex hall hin
            omega
          · rintro l ⟨hl0, hl1⟩
            rcases hex with hex | ⟨l', hl', y, hy, hex⟩
            · have := hocc x₀ hx₀
              omega
            · have h1 := hl1 (trunc y) (occupied_iff.2 ⟨l', hl', y, hy, rfl⟩)
              have h2 := hocc (trunc y) (occupied_iff.2 ⟨l', hl', y, hy, rfl⟩)
              omega
  have right : (0 ≤ (ext k).2 ∧ (ext k).2 ≤ shape k) ∧
      ((sp.side (2 * k + 1) = none ∨ ∀ o ∈ locs, o = none) → (ext k).2 = shape k) ∧
      ((∃ x, Occupied locs k x) →
        ∀ p, sp.side (2 * k + 1) = some p → IsLeast (RightEdges locs k p (shape k)) (ext k).2) := by
    split_ifs at hr with hc
    · simp only [Except.ok.injEq] at hr
      refine ⟨by omega, fun _ => hr.symm, ?_⟩
      rintro ⟨x, l, hl', -⟩ p hp
      rw [hp] at hc
      have hpp := hp1 p hp
      rcases hc with hc | hc
      · simp at hc; omega
      · exact absurd (List.any_eq_true.2 ⟨_, hl', rfl⟩) hc
    · push Not at hc
      cases he : extremeLoop false ((sp.side (2 * k + 1)).getD (-1)) k (shape k) locs 0 with
      | error e => rw [he] at hr; cases hr
      | ok e =>
        rw [he] at hr
        simp only [Except.ok.injEq] at hr
        obtain ⟨hin, hle, hall, hex⟩ := extremeLoop_right he
        refine ⟨by clear hex hall hin; omega, ?_, ?_⟩
        · rintro (hn | hn)
          · rw [hn] at hc; simp at hc
          · exact absurd hc.2 (hnone hn)
        · rintro ⟨x₀, hx₀⟩ p hp
          rw [hp] at hall hex
          simp only [Option.getD_some] at hall hex
          have hpp := hp1 p hp
          have hocc : ∀ x, Occupied locs k x → 0 ≤ x ∧ x < shape k ∧ x + p ≤ e := by
            intro x hx
            obtain ⟨l, hl1, y, hy, rfl⟩ := occupied_iff.1 hx
            have := hin l hl1 y hy
            have := trunc_lt this.1 this.2
            exact ⟨this.1, this.2, hall l hl1 y hy⟩
          constructor
          · refine ⟨by clear hex hall hin; omega, fun x hx => ?_⟩
            have := hocc x hx
            clear hex hall hin
            omega
          · rintro r ⟨hr0, hr1⟩
            rcases hex with hex | ⟨l', hl', y, hy, hex⟩
            · have := hocc x₀ hx₀
              have := hr1 x₀ hx₀
              omega
            · have h1 := hr1 (trunc y) (occupied_iff.2 ⟨l', hl', y, hy, rfl⟩)
              have h2 := hocc (trunc y) (occupied_iff.2 ⟨l', hl', y, hy, rfl⟩)
              omega
  exact ⟨⟨left.1.1, left.1.2, right.1⟩, left.2.1, right.2.1,
    fun hx => ⟨left.2.2 hx, right.2.2 hx⟩⟩

/-- If there is a location tensor, but every location is ignored, a pad on both sides gives an empty
extent that starts at the end of the model. -/
theorem C18_fails_if_all_ignored (shape : Fin d → ℤ) (locs : List (Option LocT)) (sp : SurveyPad)
    (ext : Fin d → ℤ × ℤ) (h : extentsFromLocations shape locs sp = .ok ext) (k : Fin d)
    (hno : ∀ x, ¬Occupied locs k x) (hsome : ∃ l, some l ∈ locs) (p q : ℤ)
    (hp : sp.side (2 * k) = some p) (hq : sp.side (2 * k + 1) = some q) :
    ext k = (shape k, 1) := by
  obtain ⟨hpos, hl, hr, hp0, hp1⟩ := extentsFromLocations_dim h k
  have hpp := hp0 p hp
  have hqq := hp1 q hq
  obtain ⟨l₀, hl₀⟩ := hsome
  have hany : locs.any Option.isSome = true := List.any_eq_true.2 ⟨_, hl₀, rfl⟩
  rw [hp] at hl
  rw [hq] at hr
  unfold extentOneSide at hl hr
  rw [if_neg (by simp [hany]; omega)] at hl
  rw [if_neg (by simp [hany]; omega)] at hr
  simp only [Option.getD_some, if_true] at hl hr
  refine Prod.ext ?_ ?_
  · cases he : extremeLoop true p k (shape k) locs (shape k) with
    | error e => rw [he] at hl; cases hl
    | ok e =>
      rw [he] at hl
      simp only [Except.ok.injEq] at hl
      obtain ⟨-, -, -, hex⟩ := extremeLoop_left he
      rcases hex with hex | ⟨l', hl', y, hy, -⟩
      · change (ext k).1 = shape k
        omega
      · exact absurd (occupied_iff.2 ⟨l', hl', y, hy, rfl⟩) (hno _)
  · cases he : extremeLoop false q k (shape k) locs 0 with
    | error e => simp [he] at hr
    | ok e =>
      simp only [he, Except.ok.injEq, Bool.false_eq_true, if_false] at hr
      obtain ⟨-, -, -, hex⟩ := extremeLoop_right he
      rcases hex with hex | ⟨l', hl', y, hy, -⟩
      · change (ext k).2 = 1
        omega
      · exact absurd (occupied_iff.2 ⟨l', hl', y, hy, rfl⟩) (hno _)

/-! ### Every location is inside the extents -/

theorem checkLocationsWithinModel_ok {shape : Fin d → ℤ} {locs : List (Option LocT)}
    (h : checkLocationsWithinModel shape locs = .ok ()) (k : Fin d) : InModel locs k (shape k) := by
  unfold checkLocationsWithinModel at h
  cases h1 : checkModelShape shape with
  | error e => rw [h1] at h; cases h
  | ok u =>
    rw [h1] at h
    simp only at h
    intro l hl x hx
    have := firstErr_ok.1 h (checkDimWithin shape l k)
      (List.mem_flatMap.2 ⟨_, hl, by simp only [List.mem_ofFn]; exact ⟨k, rfl⟩⟩)
    unfold checkDimWithin at this
    split_ifs at this with ha hb hc hd
    · have : l.active k = [] := by simpa using hb
      rw [this] at hx
      simp at hx
    · exact ⟨(not_lt.1 hc).trans (minOf_le hx), (le_maxOf hx).trans_lt (not_le.1 hd)⟩

/-- **C15** Whichever way the extents are determined, if `extract_survey` accepts the arguments, they
lie in the model and contain every coordinate that is not ignored. -/
theorem C15_locations_in_extents (shape : Fin d → ℤ) (locs : List (Option LocT))
    (wfs : List (Option (Fin d → ℤ))) (sp : SurveyPad) (origin : Option (List ℤ))
    (w0 w1 : Fin d → ℤ) (ext : Fin d → ℤ × ℤ)
    (h : surveyExtents shape locs wfs sp origin w0 w1 = .ok ext) (k : Fin d) :
    0 ≤ (ext k).1 ∧ (ext k).2 ≤ shape k ∧
    ∀ x, Occupied locs k x → (ext k).1 ≤ x ∧ x < (ext k).2 := by
  unfold surveyExtents at h
  simp only at h
  split_ifs at h with hso hwf
  · cases h1 : checkLocationsWithinModel shape locs with
    | error e => rw [h1] at h; cases h
    | ok u =>
      rw [h1] at h
      simp only at h
      have hin := checkLocationsWithinModel_ok h1 k
      cases h2 : extentsFromWavefields wfs origin w0 w1 with
      | error e => rw [h2] at h; cases h
      | ok ext' =>
        rw [h2] at h
        simp only at h
        cases h3 : checkExtentsWithinModel ext' shape with
        | error e => rw [h3] at h; cases h
        | ok u =>
          rw [h3] at h
          simp only at h
          cases h4 : checkLocationsWithinExtents ext' locs with
          | error e => rw [h4] at h; cases h
          | ok u =>
            rw [h4] at h
            simp only [Except.ok.injEq] at h
            subst h
            have h5 := firstErr_ok.1 h3 _
              (by simp only [List.mem_ofFn]; exact ⟨k, rfl⟩)
            rw [raiseIf_ok] at h5
            push Not at h5
            refine ⟨h5.1, h5.2, fun x hx => ?_⟩
            obtain ⟨l, hl, y, hy, rfl⟩ := occupied_iff.1 hx
            have hnd : (k : ℕ) < l.nd := by
              unfold checkLocationsWithinModel at h1
              cases h1' : checkModelShape shape with
              | error e => rw [h1'] at h1; cases h1
              | ok u =>
                rw [h1'] at h1
                simp only at h1
                have := firstErr_ok.1 h1 (checkDimWithin shape l k)
                  (List.mem_flatMap.2 ⟨_, hl, by simp only [List.mem_ofFn]; exact ⟨k, rfl⟩⟩)
                unfold checkDimWithin at this
                split_ifs at this with ha <;> omega
            have h6 := firstErr_ok.1 h4 _ (List.mem_flatMap.2 ⟨_, hl,
              List.mem_map.2 ⟨(k : ℕ), List.mem_range.2 hnd, rfl⟩⟩)
            split_ifs at h6 with ha hb
            · rw [raiseIf_ok] at h6
              push Not at h6
              refine ⟨le_trunc h5.1 (h6.1.trans (minOf_le hy)), ?_⟩
              exact (trunc_lt (hin l hl y hy).1 ((le_maxOf hy).trans_lt h6.2)).2
  · cases h1 : checkLocationsWithinModel shape locs with
    | error e => rw [h1] at h; cases h
    | ok u =>
      rw [h1] at h
      simp only at h
      have hin := checkLocationsWithinModel_ok h1 k
      cases h2 : extentsFromLocations shape locs sp with
      | error e => rw [h2] at h; cases h
      | ok ext' =>
        rw [h2] at h
        simp only at h
        cases h3 : checkExtentsMatchWavefields ext' wfs w0 w1 with
        | error e => rw [h3] at h; cases h
        | ok u =>
          rw [h3] at h
          simp only [Except.ok.injEq] at h
          subst h
          obtain ⟨hb, h0, h1, hx⟩ := C18_smallest_extents shape locs sp ext' h2 k
          refine ⟨hb.1, hb.2.2.2, fun x hxo => ?_⟩
          obtain ⟨hL, hR⟩ := hx ⟨x, hxo⟩
          have hx0 : 0 ≤ x ∧ x < shape k := by
            obtain ⟨l, hl, y, hy, rfl⟩ := occupied_iff.1 hxo
            exact trunc_lt (hin l hl y hy).1 (hin l hl y hy).2
          constructor
          · cases hs : sp.side (2 * k) with
            | none => rw [h0 (.inl hs)]; exact hx0.1
            | some p => exact ((hL p hs).1.2 x hxo).1
          · cases hs : sp.side (2 * k + 1) with
            | none => rw [h1 (.inl hs)]; exact hx0.2
            | some p => exact ((hR p hs).1.2 x hxo).1

/-- **C15** If `survey_pad` is not given and there is an initial wavefield, the extents begin at
`origin` (0 if not given) and are such that, with the PML on both sides, they have the shape of the
(first) wavefield. -/
theorem C15_extents_of_wavefields (shape : Fin d → ℤ) (locs : List (Option LocT))
    (wfs : List (Option (Fin d → ℤ))) (origin : Option (List ℤ)) (w0 w1 : Fin d → ℤ)
    (ext : Fin d → ℤ × ℤ) (h : surveyExtents shape locs wfs .none origin w0 w1 = .ok ext)
    (i : ℕ) (sh : Fin d → ℤ) (hi : wfs[i]? = some (some sh)) (hf : ∀ j < i, wfs[j]? = some none)
    (k : Fin d) :
    (∀ o, origin = some o → o[(k : ℕ)]? = some (ext k).1) ∧ (origin = none → (ext k).1 = 0) ∧
      w0 k + ((ext k).2 - (ext k).1) + w1 k = sh k := by
  have hfirst : ∃ tl, wfs.filterMap id = sh :: tl := by
    clear h
    induction wfs generalizing i with
    | nil => simp at hi
    | cons a as ih =>
      cases i with
      | zero =>
        simp only [List.getElem?_cons_zero, Option.some.injEq] at hi
        exact ⟨as.filterMap id, by rw [hi]; rfl⟩
      | succ i =>
        have h0 := hf 0 (by omega)
        simp only [List.getElem?_cons_zero, Option.some.injEq] at h0
        obtain ⟨tl, htl⟩ := ih i (by simpa using hi) fun j hj => by
          have := hf (j + 1) (by omega)
          simpa using this
        exact ⟨tl, by rw [h0]; exact htl⟩
  obtain ⟨tl, htl⟩ := hfirst
  have hany : wfs.any Option.isSome = true := by
    rw [List.any_eq_true]
    exact ⟨some sh, List.mem_of_getElem? hi, rfl⟩
  unfold surveyExtents at h
  simp only [hany, not_true_eq_false, false_and, if_false, and_self, if_true] at h
  cases h1 : checkLocationsWithinModel shape locs with
  | error e => rw [h1] at h; cases h
  | ok u =>
    rw [h1] at h
    simp only at h
    cases h2 : extentsFromWavefields wfs origin w0 w1 with
    | error e => rw [h2] at h; cases h
    | ok ext' =>
      rw [h2] at h
      simp only at h
      have hext : ext' = ext := by
        cases h3 : checkExtentsWithinModel ext' shape with
        | error e => rw [h3] at h; cases h
        | ok u =>
          rw [h3] at h
          simp only at h
          cases h4 : checkLocationsWithinExtents ext' locs with
          | error e => rw [h4] at h; cases h
          | ok u =>
            rw [h4] at h
            simpa using h
      subst hext
      unfold extentsFromWavefields at h2
      simp only [htl] at h2
      split at h2
      · cases h2
      · rename_i u hchk
        have h5 := forDims_ok.1 h2 k
        split_ifs at h5 with hs
        simp only [Except.ok.injEq] at h5
        rw [← h5]
        refine ⟨?_, ?_, ?_⟩
        · rintro o rfl
          have h6 := firstErr_ok.1 hchk (raiseIf (o.length ≠ d) .runtimeError) (by simp)
          rw [raiseIf_ok, not_not] at h6
          have : (k : ℕ) < o.length := by rw [h6]; exact k.2
          simp [this]
        · rintro rfl
          rfl
        · simp only
          ring

/-- The hypotheses can be met: a wavefield of size 9 with a PML of 1 and 2 cells at origin 2. -/
example : ∃ ext, surveyExtents (d := 1) (fun _ => 10) [] [none, some fun _ => 9] .none (some [2])
      (fun _ => 1) (fun _ => 2) = .ok ext ∧ ext 0 = (2, 8) :=
  ⟨fun _ => (2, 8), by
    simp [surveyExtents, checkLocationsWithinModel, checkModelShape, firstErr, raiseIf,
      extentsFromWavefields, forDims, checkExtentsWithinModel, checkLocationsWithinExtents]
    funext k
    fin_cases k
    rfl, rfl⟩

/-! ### Indices -/

/-- Index `i` of the propagator stands for: no cell if it is negative, otherwise the cell at that
position of an array of shape `s`. -/
def Addresses (s : Fin d → ℤ) (i : ℤ) : Option (Fin d → ℤ) → Prop
  | none => i < 0
  | some c => InShape s c ∧ i = rowMajor s c

/-- **C15** A location inside the extents becomes the position, in a C-order array of the padded
shape, of the cell `x - begin + pad`, which is in the array and not in its padding. -/
theorem C15_own_cell (ext : Fin d → ℤ × ℤ) (p0 p1 : Fin d → ℤ) (hp0 : ∀ k, 0 ≤ p0 k)
    (hp1 : ∀ k, 0 ≤ p1 k) (x : Fin d → ℤ) (he : ∀ k, 0 ≤ (ext k).1)
    (hx : ∀ k, (ext k).1 ≤ x k ∧ x k < (ext k).2) :
    let i := location1d (originOf ext p0) (stride (paddedShape ext p0 p1)) x
    let c := fun k => x k - (ext k).1 + p0 k
    Addresses (paddedShape ext p0 p1) i (some c) ∧ (0 ≤ i ∧ i < ∏ k, paddedShape ext p0 p1 k) ∧
      ∀ k, p0 k ≤ c k ∧ c k < paddedShape ext p0 p1 k - p1 k := by
  intro i c
  have hne : ∀ k, x k ≠ ignoreLocation := fun k h => by
    have := hx k; have := he k; rw [h] at *; unfold ignoreLocation at *; omega
  have hne' : ∀ k, x k - originOf ext p0 k ≠ ignoreLocation := fun k h => by
    have := hx k; have := hp0 k
    unfold originOf ignoreLocation at *; omega
  have hi : i = rowMajor (paddedShape ext p0 p1) c := by
    rw [← sum_stride]
    simp only [i, location1d, if_pos (hne _), if_pos (hne' _)]
    rw [show (if _ : 0 < d then (0 : ℤ) else 0) = 0 by split_ifs <;> rfl, zero_add]
    refine Finset.sum_congr rfl fun k _ => ?_
    simp only [c, originOf]
    ring
  have hc : InShape (paddedShape ext p0 p1) c := fun k => by
    have := hx k; have := hp0 k; have := hp1 k
    simp only [c, paddedShape]; omega
  refine ⟨⟨hc, hi⟩, ?_, fun k => ?_⟩
  · rw [hi]; exact rowMajor_bound hc
  · have := hx k
    simp only [c, paddedShape]
    omega

/-- **C15** Different locations have different indices. -/
theorem C15_different_cells (ext : Fin d → ℤ × ℤ) (p0 p1 : Fin d → ℤ) (hp0 : ∀ k, 0 ≤ p0 k)
    (hp1 : ∀ k, 0 ≤ p1 k) (x y : Fin d → ℤ) (he : ∀ k, 0 ≤ (ext k).1)
    (hx : ∀ k, (ext k).1 ≤ x k ∧ x k < (ext k).2) (hy : ∀ k, (ext k).1 ≤ y k ∧ y k < (ext k).2) :
    location1d (originOf ext p0) (stride (paddedShape ext p0 p1)) x =
      location1d (originOf ext p0) (stride (paddedShape ext p0 p1)) y ↔ x = y := by
  constructor
  · intro h
    obtain ⟨⟨h1, h2⟩, -, -⟩ := C15_own_cell ext p0 p1 hp0 hp1 x he hx
    obtain ⟨⟨h3, h4⟩, -, -⟩ := C15_own_cell ext p0 p1 hp0 hp1 y he hy
    rw [h2, h4] at h
    have := rowMajor_inj h1 h3 h
    funext k
    have := congrFun this k
    omega
  · rintro rfl; rfl

/-- **C17** A location all of whose coordinates are `IGNORE_LOCATION` gets the index
`IGNORE_LOCATION`, which is negative, so that it addresses no cell. -/
theorem C17_ignored_index (hd : 0 < d) (origin str : Fin d → ℤ) :
    location1d origin str (fun _ => ignoreLocation) = ignoreLocation ∧
    ∀ s : Fin d → ℤ, Addresses s (location1d origin str fun _ => ignoreLocation) none := by
  have : location1d origin str (fun _ => ignoreLocation) = ignoreLocation := by
    simp [location1d, hd]
  refine ⟨this, fun s => ?_⟩
  rw [Addresses, this]
  norm_num [ignoreLocation]

/-- A location of which only some coordinates are `IGNORE_LOCATION` is not rejected and not ignored:
it is placed at padded coordinate 0 of the ignored dimension. -/
theorem C17_partially_ignored :
    location1d (originOf ![(0, 5), (0, 4)] ![2, 2]) (stride (paddedShape ![(0, 5), (0, 4)] ![2, 2] ![2, 2]))
      ![1, ignoreLocation] = rowMajor (paddedShape ![(0, 5), (0, 4)] ![2, 2] ![2, 2]) ![3, 0] := by
  decide

/-! ### Uniqueness -/

/-- Location `(s, i)` is ignored. -/
def LocT.Ignored (l : LocT) (d s i : ℕ) : Prop := ∀ k < d, l.val s i k = (ignoreLocation : ℚ)

/-- Location `(s, i)` is inside the extents. -/
def LocT.Inside (l : LocT) (ext : Fin d → ℤ × ℤ) (s i : ℕ) : Prop :=
  ∀ k : Fin d, l.val s i k ≠ (ignoreLocation : ℚ) ∧
    (ext k).1 ≤ trunc (l.val s i k) ∧ trunc (l.val s i k) < (ext k).2

/-- Two different locations of one shot, not ignored, are in the same cell. -/
def LocT.Duplicates (l : LocT) (d : ℕ) : Prop :=
  ∃ s < l.nb, ∃ i < l.n, ∃ j < l.n, i ≠ j ∧ ¬l.Ignored d s i ∧ ¬l.Ignored d s j ∧
    ∀ k < d, trunc (l.val s i k) = trunc (l.val s j k)

theorem nodup_filter_map_range {n : ℕ} {f : ℕ → ℤ} {z : ℤ} :
    (((List.range n).map f).filter (· ≠ z)).Nodup ↔
      ∀ i < n, ∀ j < n, f i ≠ z → f i = f j → i = j := by
  rw [List.filter_map, List.nodup_map_iff_inj_on (List.Nodup.filter _ List.nodup_range)]
  simp only [List.mem_filter, List.mem_range, Function.comp, decide_eq_true_eq]
  constructor
  · intro h i hi j hj hz e
    exact h i ⟨hi, hz⟩ j ⟨hj, by rwa [← e]⟩ e
  · rintro h i ⟨hi, hz⟩ j ⟨hj, -⟩ e
    exact h i hi j hj hz e

/-- **C16** For a location tensor of the right shape, with (nearly) integer coordinates, each location
either ignored or inside the extents: `extract_locations` fails if and only if two locations of one
shot which are not ignored are in the same cell, and then it raises a `RuntimeError`. -/
theorem C16_rejected_iff_duplicates (eps : ℚ) (ext : Fin d → ℤ × ℤ) (hd : 0 < d) (p0 p1 : Fin d → ℤ)
    (hp0 : ∀ k, 0 ≤ p0 k) (hp1 : ∀ k, 0 ≤ p1 k) (he : ∀ k, 0 ≤ (ext k).1) (l : LocT)
    (hint : ∀ s < l.nb, ∀ i < l.n, ∀ k < l.nd, |l.val s i k - trunc (l.val s i k)| ≤ eps)
    (hnd : l.nd = d) (hin : ∀ s < l.nb, ∀ i < l.n, l.Ignored d s i ∨ l.Inside ext s i) :
    (l.Duplicates d → extractLocation eps ext p0 p1 l.nb l = .error .runtimeError) ∧
    (¬l.Duplicates d → ∃ t, extractLocation eps ext p0 p1 l.nb l = .ok t ∧ t.nb = l.nb ∧ t.n = l.n ∧
      ∀ s < l.nb, ∀ i < l.n,
        (l.Ignored d s i → Addresses (paddedShape ext p0 p1) (t.val s i) none) ∧
        (l.Inside ext s i → Addresses (paddedShape ext p0 p1) (t.val s i)
          (some fun k => trunc (l.val s i k) - (ext k).1 + p0 k))) := by
  have hig : ∀ s i, l.Ignored d s i →
      location1d (originOf ext p0) (stride (paddedShape ext p0 p1)) (l.cell d s i) = ignoreLocation := by
    intro s i h
    have : l.cell d s i = fun _ => ignoreLocation := by
      funext k; unfold LocT.cell; rw [h k k.isLt, trunc_int]
    rw [this]
    exact (C17_ignored_index hd _ _).1
  have hins : ∀ s i, l.Inside ext s i → 
      ¬l.Ignored d s i ∧
      Addresses (paddedShape ext p0 p1)
        (location1d (originOf ext p0) (stride (paddedShape ext p0 p1)) (l.cell d s i))
        (some fun k => trunc (l.val s i k) - (ext k).1 + p0 k) ∧
      0 ≤ location1d (originOf ext p0) (stride (paddedShape ext p0 p1)) (l.cell d s i) := by
    intro s i h
    have := C15_own_cell ext p0 p1 hp0 hp1 (l.cell d s i) he fun k => (h k).2
    exact ⟨fun hh => (h ⟨0, hd⟩).1 (hh 0 hd), this.1, this.2.1.1⟩
  have hdup : (∃ s < l.nb, ¬(activeIdx ⟨l.nb, l.n, fun s i => location1d (originOf ext p0)
      (stride (paddedShape ext p0 p1)) (l.cell d s i)⟩ s).Nodup) ↔ l.Duplicates d := by
    unfold LocT.Duplicates activeIdx
    refine exists_congr fun s => and_congr_right fun hs => ?_
    rw [nodup_filter_map_range]
    push Not
    refine exists_congr fun i => and_congr_right fun hi => exists_congr fun j =>
      and_congr_right fun hj => ?_
    constructor
    · rintro ⟨hz, e, hij⟩
      have hni : ¬l.Ignored d s i := fun hh => hz (hig s i hh)
      have hnj : ¬l.Ignored d s j := fun hh => hz (e.trans (hig s j hh))
      have hIi := (hin s hs i hi).resolve_left hni
      have hIj := (hin s hs j hj).resolve_left hnj
      refine ⟨hij, hni, hnj, fun k hk => ?_⟩
      have := (C15_different_cells ext p0 p1 hp0 hp1 (l.cell d s i) (l.cell d s j) he
        (fun k => (hIi k).2) (fun k => (hIj k).2)).1 e
      exact congrFun this ⟨k, hk⟩
    · rintro ⟨hij, hni, hnj, hk⟩
      have hIi := (hin s hs i hi).resolve_left hni
      have := (hins s i hIi).2.2
      refine ⟨fun hz => ?_, ?_, hij⟩
      · rw [show location1d _ _ _ = _ from hz] at this
        unfold ignoreLocation at this
        omega
      · change location1d _ _ _ = location1d _ _ _
        congr 1
        funext k
        exact hk k k.isLt
  have hnint : ¬∃ s < l.nb, ∃ i < l.n, ∃ k < l.nd, eps < |l.val s i k - trunc (l.val s i k)| := by
    rintro ⟨s, hs, i, hi, k, hk, h⟩
    exact absurd (hint s hs i hi k hk) (not_le.2 h)
  unfold extractLocation
  simp only
  rw [if_neg hnint, if_neg (by simp), if_neg (by simp [hnd])]
  constructor
  · intro h
    rw [if_pos (hdup.2 h)]
  · intro h
    rw [if_neg (fun hh => h (hdup.1 hh))]
    refine ⟨_, rfl, rfl, rfl, fun s hs i hi => ⟨fun hI => ?_, fun hI => (hins s i hI).2.1⟩⟩
    change location1d _ _ _ < 0
    rw [hig s i hI]
    norm_num [ignoreLocation]

/-! ### Models -/

theorem getD_padList (p0 p1 : Fin d → ℤ) (k : Fin d) :
    (padList p0 p1).getD (2 * k) 0 = p0 k ∧ (padList p0 p1).getD (2 * k + 1) 0 = p1 k := by
  induction d with
  | zero => exact k.elim0
  | succ d ih =>
      have e : padList p0 p1 = p0 0 :: p1 0 :: padList (fun k => p0 k.succ) (fun k => p1 k.succ) := by
        simp [padList, List.ofFn_succ]
      rw [e]
      refine Fin.cases ?_ (fun j => ?_) k
      · simp
      · have := ih (fun k => p0 k.succ) (fun k => p1 k.succ) j
        have e1 : 2 * (j.succ : Fin (d + 1)).val = 2 * j.val + 1 + 1 := by simp; ring
        rw [e1]
        simpa using this

theorem length_padList (p0 p1 : Fin d → ℤ) : (padList p0 p1).length = 2 * d := by
  induction d with
  | zero => simp [padList]
  | succ d ih =>
      have e : padList p0 p1 = p0 0 :: p1 0 :: padList (fun k => p0 k.succ) (fun k => p1 k.succ) := by
        simp [padList, List.ofFn_succ]
      rw [e]
      simp [ih]
      ring

theorem getD_flatMap_pair (f g : ℕ → ℤ) (l : List ℕ) (j : ℕ) (hj : j < l.length) :
    (l.flatMap fun k => [f k, g k]).getD (2 * j) 0 = f l[j] ∧
    (l.flatMap fun k => [f k, g k]).getD (2 * j + 1) 0 = g l[j] := by
  induction l generalizing j with
  | nil => simp at hj
  | cons a l ih =>
      cases j with
      | zero => simp
      | succ j =>
          have := ih j (by simpa using hj)
          have e1 : 2 * (j + 1) = 2 * j + 1 + 1 := by ring
          rw [e1]
          simpa using this

/-- `reverse_pad` gives the padding in the order `torch.nn.functional.pad` expects. -/
theorem fPad_reversePad (p0 p1 : Fin d → ℤ) (k : Fin d) :
    fPadLo (reversePad (padList p0 p1)) k = p0 k ∧ fPadHi (reversePad (padList p0 p1)) k = p1 k := by
  have hk := k.isLt
  have hl : (List.range ((padList p0 p1).length / 2)).reverse.length = d := by
    simp [length_padList]
  have := getD_flatMap_pair (fun k => (padList p0 p1).getD (2 * k) 0)
    (fun k => (padList p0 p1).getD (2 * k + 1) 0) (List.range ((padList p0 p1).length / 2)).reverse
    (d - 1 - k) (by rw [hl]; omega)
  have e : (List.range ((padList p0 p1).length / 2)).reverse[d - 1 - k.val]'(by rw [hl]; omega) = k := by
    simp [length_padList]
    omega
  rw [e, (getD_padList p0 p1 k).1, (getD_padList p0 p1 k).2] at this
  exact this

/-- **C19** A model extracted with replicated edges has `extent + pad` cells per dimension; at padded
cell `c` it has the value of the user's model at the cell of the extent nearest to `c - pad + begin`;
the batch dimension is kept. -/
theorem C19_replicate {R : Type*} [Zero R] (m m' : ModelT d R) (ext : Fin d → ℤ × ℤ)
    (p0 p1 : Fin d → ℤ) (nBatch : ℕ) (hnb : nBatch ≠ 0)
    (hext : ∀ k, 0 ≤ (ext k).1 ∧ (ext k).2 ≤ m.shape k)
    (h : extractModel m m.shape ext (padList p0 p1) .replicate nBatch = .ok m') :
    m'.shape = paddedShape ext p0 p1 ∧ m'.nb = some (m.nb.getD 1) ∧
    (∀ k, (ext k).1 < (ext k).2) ∧
    ∀ s c, m'.val s c =
      m.val s fun k => max (ext k).1 (min ((ext k).2 - 1) (c k - p0 k + (ext k).1)) := by
  unfold extractModel at h
  simp only [ne_eq, not_true_eq_false, if_false, true_and, hnb] at h
  split_ifs at h with h1 h2
  push Not at h2
  have hlen : ∀ k, (ext k).1 < (ext k).2 ∧ sliceLen (ext k).1 (ext k).2 (m.shape k) = (ext k).2 - (ext k).1 := by
    intro k
    have := h2 k
    have := hext k
    unfold sliceLen at *
    omega
  simp only [Except.ok.injEq] at h
  subst h
  refine ⟨?_, rfl, fun k => (hlen k).1, fun s c => ?_⟩
  · funext k
    simp only [(fPad_reversePad p0 p1 k).1, (fPad_reversePad p0 p1 k).2, (hlen k).2, paddedShape]
  · simp only [fPad]
    congr 1
    funext k
    simp only [(fPad_reversePad p0 p1 k).1, (hlen k).2]
    have := (hlen k).1
    omega

/-- **C19** A model extracted with constant (zero) padding. -/
theorem C19_constant {R : Type*} [Zero R] (m m' : ModelT d R) (ext : Fin d → ℤ × ℤ)
    (p0 p1 : Fin d → ℤ) (nBatch : ℕ) (hnb : nBatch ≠ 0)
    (hext : ∀ k, 0 ≤ (ext k).1 ∧ (ext k).2 ≤ m.shape k ∧ (ext k).1 ≤ (ext k).2)
    (h : extractModel m m.shape ext (padList p0 p1) .constant nBatch = .ok m') :
    m'.shape = paddedShape ext p0 p1 ∧ m'.nb = some (m.nb.getD 1) ∧
    ∀ s c, m'.val s c =
      if ∀ k, (ext k).1 ≤ c k - p0 k + (ext k).1 ∧ c k - p0 k + (ext k).1 < (ext k).2
      then m.val s fun k => c k - p0 k + (ext k).1 else 0 := by
  unfold extractModel at h
  simp only [ne_eq, not_true_eq_false, if_false, hnb, reduceCtorEq, false_and] at h
  split_ifs at h with h1
  have hlen : ∀ k, sliceLen (ext k).1 (ext k).2 (m.shape k) = (ext k).2 - (ext k).1 := by
    intro k
    have := hext k
    unfold sliceLen
    omega
  simp only [Except.ok.injEq] at h
  subst h
  refine ⟨?_, rfl, fun s c => ?_⟩
  · funext k
    simp only [(fPad_reversePad p0 p1 k).1, (fPad_reversePad p0 p1 k).2, hlen k, paddedShape]
  · simp only [fPad, (fPad_reversePad p0 p1 _).1, hlen]
    refine if_congr ?_ rfl rfl
    refine forall_congr' fun k => ?_
    omega

/-- **C15**, **C19** The cell a location addresses holds the value of the user's model at that
location. -/
theorem C15_model_at_location {R : Type*} [Zero R] (m m' : ModelT d R) (ext : Fin d → ℤ × ℤ)
    (p0 p1 : Fin d → ℤ) (nBatch : ℕ) (hnb : nBatch ≠ 0)
    (hext : ∀ k, 0 ≤ (ext k).1 ∧ (ext k).2 ≤ m.shape k)
    (h : extractModel m m.shape ext (padList p0 p1) .replicate nBatch = .ok m')
    (x : Fin d → ℤ) (hx : ∀ k, (ext k).1 ≤ x k ∧ x k < (ext k).2) (s : ℕ) :
    m'.val s (fun k => x k - (ext k).1 + p0 k) = m.val s x := by
  obtain ⟨-, -, -, hv⟩ := C19_replicate m m' ext p0 p1 nBatch hnb hext h
  rw [hv]
  congr 1
  funext k
  have := hx k
  omega

/-! ### Examples -/

/-- Two shots with two locations each in a 7 x 9 model; one location is ignored. -/
def exLoc : LocT := ⟨2, 2, 2, fun s i k =>
  if s = 1 ∧ i = 1 then (ignoreLocation : ℚ) else ([[[2, 3], [4, 5]], [[3, 3]]].getD s []).getD i [] |>.getD k 0⟩

example : extentsFromLocations ![7, 9] [some exLoc, none] (.list [some 1, none, some 4, some 2]) =
    .ok ![(1, 7), (0, 8)] := by decide +kernel

example : Occupied [some exLoc, none] 0 2 :=
  ⟨exLoc, by simp, 0, by decide, 0, by decide, by decide +kernel, by decide +kernel⟩

example : surveyExtents ![7, 9] [some exLoc, none] [none] (.list [some 1, none, some 4, some 2]) none
    ![3, 3] ![3, 3] = .ok ![(1, 7), (0, 8)] := by decide +kernel

example : surveyExtents ![7, 9] [some exLoc, none] [some ![10, 12]] .none (some [1, 2]) ![3, 3] ![3, 3] =
    .ok ![(1, 5), (2, 8)] := by decide +kernel

/-- The hypotheses of `C16_rejected_iff_duplicates` hold for this tensor, which has no duplicates. -/
example : ¬exLoc.Duplicates 2 ∧
    ∀ s < exLoc.nb, ∀ i < exLoc.n, exLoc.Ignored 2 s i ∨ exLoc.Inside ![(1, 7), (0, 8)] s i := by
  unfold LocT.Duplicates LocT.Ignored LocT.Inside
  decide +kernel

/-- All locations ignored. -/
example : extentsFromLocations ![7, 9] [some ⟨1, 1, 2, fun _ _ _ => (ignoreLocation : ℚ)⟩] (.int 2) =
    .ok ![(7, 1), (9, 1)] := by decide +kernel

example : ∃ m', extractModel (⟨none, ![7, 9], fun _ c => c 0 * 10 + c 1⟩ : ModelT 2 ℤ) ![7, 9]
    ![(1, 7), (0, 8)] (padList ![2, 2] ![3, 3]) .replicate 2 = .ok m' ∧
    m'.shape = ![11, 13] ∧ m'.val 0 ![3, 0] = 20 := by
  refine ⟨_, rfl, ?_, ?_⟩ <;> decide +kernel

end Dw.Setup
