import Verif.Setup.Warnings
import Verif.Elastic.Warnings
import Verif.Props.UserStable

/-!
# C115: what a call without warnings guarantees
-/

namespace Dw.Setup

variable {d : ℕ} {A : SetupArgs d} {P : Plan d} {vmin : ℝ}

/-! ### The check of the number of points per wavelength -/

theorem le_maxList {l : List ℚ} {x : ℚ} (h : x ∈ l) : x ≤ maxList l := by
  induction l with
  | nil => simp at h
  | cons y l ih =>
    rcases List.mem_cons.1 h with rfl | h
    · exact le_max_left _ _
    · exact (ih h).trans (le_max_right _ _)

theorem maxList_mem {l : List ℚ} (hne : l ≠ []) (h0 : ∀ x ∈ l, 0 ≤ x) : maxList l ∈ l := by
  induction l with
  | nil => exact absurd rfl hne
  | cons y l ih =>
    by_cases hl : l = []
    · subst hl
      have : maxList [y] = y := max_eq_left (h0 y (by simp))
      rw [this]
      simp
    · have h1 := ih hl fun x hx => h0 x (by simp [hx])
      show max y (maxList l) ∈ y :: l
      rcases max_choice y (maxList l) with h2 | h2 <;> rw [h2]
      · simp
      · simp [h1]

/-- The check of the number of points per wavelength raises only if its arguments are not valid. -/
theorem checkPoints_ok {freq : ℚ} {dxL : List ℚ} (hv : 0 ≤ vmin) (hf : 0 ≤ freq) (hdx : ∀ g ∈ dxL, 0 < g)
    (hne : dxL ≠ []) :
    ∃ w, checkPoints vmin freq dxL = .ok w ∧ (Warning.pointsSkipped ∈ w ↔ vmin = 0) ∧
      (Warning.fewPoints ∈ w ↔ vmin ≠ 0 ∧ ∃ g ∈ dxL, vmin < 6 * freq * g) ∧
      ∀ x ∈ w, x = .pointsSkipped ∨ x = .fewPoints := by
  unfold checkPoints
  by_cases h0 : vmin = 0
  · rw [if_pos h0]
    exact ⟨_, rfl, by simp [h0], by simp [h0], by simp⟩
  have hv' : 0 < vmin := lt_of_le_of_ne hv (Ne.symm h0)
  rw [if_neg h0, if_neg (not_lt.2 hv), if_neg (not_lt.2 hf), if_neg, if_neg hne]
  swap
  · simp only [List.any_eq_true, decide_eq_true_eq, not_exists, not_and, not_le]
    exact hdx
  by_cases hf0 : freq = 0
  · rw [if_pos hf0]
    refine ⟨_, rfl, by simp [h0], ?_, by simp⟩
    simp [hf0, hv]
  rw [if_neg hf0]
  have hf' : (0 : ℝ) < freq := by
    have : 0 < freq := lt_of_le_of_ne hf (Ne.symm hf0)
    exact_mod_cast this
  refine ⟨_, rfl, by unfold warnIf; split_ifs <;> simp [h0], ?_, by unfold warnIf; split_ifs <;> simp⟩
  have habs : dxL.map abs = dxL := by
    conv_rhs => rw [← List.map_id dxL]
    exact List.map_congr_left fun g hg => abs_of_pos (hdx g hg)
  rw [habs]
  have hm := maxList_mem hne fun g hg => (hdx g hg).le
  have hm0 : (0 : ℝ) < (maxList dxL : ℚ) := by exact_mod_cast hdx _ hm
  have key : |vmin / (freq : ℝ)| / ((maxList dxL : ℚ) : ℝ) < 6 ↔ vmin < 6 * freq * (maxList dxL : ℚ) := by
    rw [abs_of_pos (div_pos hv' hf'), div_lt_iff₀ hm0, div_lt_iff₀ hf']
    constructor <;> intro h <;> linarith
  have : (Warning.fewPoints ∈ warnIf (|vmin / (freq : ℝ)| / ((maxList dxL : ℚ) : ℝ) < 6) .fewPoints) ↔
      |vmin / (freq : ℝ)| / ((maxList dxL : ℚ) : ℝ) < 6 := by
    unfold warnIf
    split_ifs with h <;> simp [h]
  rw [this, key]
  refine ⟨fun h => ⟨h0, _, hm, h⟩, ?_⟩
  rintro ⟨-, g, hg, h⟩
  have h2 : (g : ℝ) ≤ (maxList dxL : ℚ) := by exact_mod_cast le_maxList hg
  nlinarith

/-- The warnings of an accepted call. -/
noncomputable def SetupArgs.warnings (A : SetupArgs d) (vmin : ℝ) (P : Plan d) : List Warning :=
  warnMaxVel A.maxVel A.maxModelVel ++ warnIf (20 ≤ P.ratio) .manySteps ++
    warnFreq A.pmlFreq P.freq (A.dt / P.ratio) ++
    (match checkPoints vmin P.freq P.dxL with | .ok w => w | .error _ => []) ++
    warnOrigin A.surveyPad A.wfs A.origin

theorem pmlFreq_nonneg {f : Option PyNum} {dt : PyNum} {q : ℚ} (h : setPmlFreq f dt = .ok q) : 0 ≤ q := by
  unfold setPmlFreq at h
  simp only at h
  split at h
  · cases h
  · split at h
    · split_ifs at h with h1 h2
      simp only [Except.ok.injEq] at h
      rw [← h]
      exact not_lt.1 h2
    · cases h

theorem cfl_nonempty {l : List ℝ} {dt v : ℝ} {r : ℝ × ℤ} (h : cflConditionN l dt v = .ok r) : l ≠ [] := by
  rintro rfl
  simp [cflConditionN] at h

/-- The check of the number of points per wavelength never rejects a call: the setup with it and with the
warnings is the setup without. -/
theorem planW_eq (A : SetupArgs d) (hv : 0 ≤ vmin) :
    A.planW vmin = A.plan.map fun P => (P, A.warnings vmin P) := by
  unfold SetupArgs.planW SetupArgs.plan
  cases h1 : getNBatch A.srcs A.wfs with
  | error e => rfl
  | ok nb =>
  cases h2 : setGridSpacing A.gridSpacing d with
  | error e => rfl
  | ok dxL =>
  cases h3 : setMaxVelR A.maxVel A.maxModelVel with
  | error e => rfl
  | ok mv =>
  simp only [bind, Except.bind]
  cases h4 : cflConditionN (dxL.map fun q : ℚ => (q : ℝ)) A.dt mv with
  | error e => rfl
  | ok c =>
  dsimp only
  cases h5 : setAccuracy A.accuracy with
  | error e => rfl
  | ok accZ =>
  cases h6 : setPmlWidth A.pmlWidth d with
  | error e => rfl
  | ok wL =>
  dsimp only
  cases h7 : setPmlFreq A.pmlFreq (.float (A.dt / c.2)) with
  | error e => rfl
  | ok freq =>
  dsimp only
  have hne : dxL ≠ [] := by
    have := cfl_nonempty h4
    simpa using this
  obtain ⟨w, hw, -⟩ := checkPoints_ok (freq := freq) (dxL := dxL) hv (pmlFreq_nonneg h7)
    ((C35_grid_spacing _ _ _).1 h2).2 hne
  rw [hw]
  dsimp only
  cases h8 : setNt A.nt (A.amps.map (Option.map AmpT.nt)) c.2 with
  | error e => rfl
  | ok nt =>
  dsimp only
  cases h9 : setInterval A.interval with
  | error e => rfl
  | ok iv =>
  cases h10 : setFrac A.freqTaperFrac with
  | error e => rfl
  | ok ff =>
  cases h11 : setFrac A.timePadFrac with
  | error e => rfl
  | ok tf =>
  dsimp only
  cases h12 : checkAmpsMatch (A.amps.map (Option.map AmpT.n)) (A.srcs.map (Option.map LocT.n)) with
  | error e => rfl
  | ok _ =>
  cases h13 : checkAmps A.amps nb nt c.2 ff tf with
  | error e => rfl
  | ok _ =>
  dsimp only
  cases h14 : surveyExtents A.shape (A.srcs ++ A.rcvs) (A.wfs.map (Option.map WfT.shape)) A.surveyPad
    A.origin (fun k => wL.getD (2 * k) 0) (fun k => wL.getD (2 * k + 1) 0) with
  | error e => rfl
  | ok ext =>
  dsimp only
  cases h15 : extractModels A.shape ext (padList (d := d) (padBegin accZ wL) (padEnd A.staggered accZ wL)) nb
    A.models with
  | error e => rfl
  | ok ms =>
  cases h16 : extractLocations A.eps ext (padBegin accZ wL) (padEnd A.staggered accZ wL) nb A.srcs with
  | error e => rfl
  | ok ss =>
  cases h17 : extractLocations A.eps ext (padBegin accZ wL) (padEnd A.staggered accZ wL) nb A.rcvs with
  | error e => rfl
  | ok rs =>
  dsimp only
  cases h18 : prepareWavefields A.wfs ext (fun k => wL.getD (2 * k) 0) (fun k => wL.getD (2 * k + 1) 0) nb with
  | error e => rfl
  | ok _ =>
  simp only [bind, Except.bind, pure, Except.pure, Except.map, SetupArgs.warnings, hw]

/-! ### Meaning of the warnings -/

theorem mem_warnIf {c : Prop} [Decidable c] {w w' : Warning} : w ∈ warnIf c w' ↔ w = w' ∧ c := by
  unfold warnIf
  split_ifs with h <;> simp [h]

theorem mem_warnMaxVel {w : Warning} (h : setMaxVelR A.maxVel A.maxModelVel = .ok P.maxVel) :
    w ∈ warnMaxVel A.maxVel A.maxModelVel ↔ w = .maxVelLow ∧ P.maxVel < A.maxModelVel := by
  unfold warnMaxVel
  cases hv : A.maxVel with
  | none =>
    rw [hv] at h
    simp only [setMaxVelR, Except.ok.injEq] at h
    simp [h]
  | some x =>
    rw [hv] at h
    unfold setMaxVelR at h
    simp only at h
    cases hx : x.toFloat with
    | none => rw [hx] at h; simp at h
    | some q =>
      rw [hx] at h
      simp only at h
      split_ifs at h with h1
      simp only [Except.ok.injEq] at h
      simp only [Option.bind_some, hx, mem_warnIf, ← h]

theorem mem_warnOrigin {w : Warning} : w ∈ warnOrigin A.surveyPad A.wfs A.origin ↔
    w = .originMissing ∧ A.surveyPad = .none ∧ (∃ x ∈ A.wfs, x ≠ none) ∧ A.origin = none := by
  unfold warnOrigin
  cases hs : A.surveyPad with
  | none =>
    simp only [mem_warnIf, List.any_eq_true, Option.isNone_iff_eq_none, true_and, Option.isSome_iff_ne_none]
  | int _ => simp
  | list _ => simp

/-- **C115** The setup of a call issues each warning exactly if what the warning says is the case: fewer than six
cells of some axis per shortest wavelength at `pml_freq`, a maximum velocity below that of the model, twenty or
more internal steps, `pml_freq` above the Nyquist frequency of the internal steps or not given, and extents
inferred from wavefields without `origin`.  The check of the wavelength itself never rejects a call. -/
theorem C115_warnings (A : SetupArgs d) (P : Plan d) (w : List Warning) (hv : 0 ≤ vmin)
    (h : A.planW vmin = .ok (P, w)) :
    A.plan = .ok P ∧
    (Warning.fewPoints ∈ w ↔ vmin ≠ 0 ∧ ∃ k, vmin < 6 * P.freq * P.dx k) ∧
    (Warning.pointsSkipped ∈ w ↔ vmin = 0) ∧
    (Warning.maxVelLow ∈ w ↔ P.maxVel < A.maxModelVel) ∧
    (Warning.manySteps ∈ w ↔ 20 ≤ P.ratio) ∧
    (Warning.freqNyquist ∈ w ↔ 1 < 2 * P.freq * |P.dt|) ∧
    (Warning.freqDefault ∈ w ↔ A.pmlFreq = none) ∧
    (Warning.originMissing ∈ w ↔ A.surveyPad = .none ∧ (∃ x ∈ A.wfs, x ≠ none) ∧ A.origin = none) := by
  rw [planW_eq A hv] at h
  cases hp : A.plan with
  | error e => rw [hp] at h; simp [Except.map] at h
  | ok Q =>
  rw [hp] at h
  simp only [Except.map, Except.ok.injEq, Prod.mk.injEq] at h
  obtain ⟨rfl, rfl⟩ := h
  have hg := plan_ok.1 hp
  have hne : Q.dxL ≠ [] := by
    have := cfl_nonempty hg.cfl
    simpa using this
  have hdx := (C35_grid_spacing _ _ _).1 hg.dx
  obtain ⟨u, hu, u1, u2, u3⟩ := checkPoints_ok (vmin := vmin) (freq := Q.freq) (dxL := Q.dxL) hv
    (pmlFreq_nonneg hg.freq) hdx.2 hne
  have hmem : ∀ x, x ∈ A.warnings vmin Q ↔
      (x = .maxVelLow ∧ Q.maxVel < A.maxModelVel) ∨ (x = .manySteps ∧ 20 ≤ Q.ratio) ∨
      (x = .freqDefault ∧ A.pmlFreq = none) ∨ (x = .freqNyquist ∧ Q.freq > 0.5 / |A.dt / Q.ratio|) ∨
      x ∈ u ∨ (x = .originMissing ∧ A.surveyPad = .none ∧ (∃ x ∈ A.wfs, x ≠ none) ∧ A.origin = none) := by
    intro x
    simp only [SetupArgs.warnings, hu, warnFreq, List.mem_append, mem_warnMaxVel hg.maxVel, mem_warnIf,
      mem_warnOrigin, Option.isNone_iff_eq_none]
    simp only [or_assoc]
  have hu' : ∀ {x : Warning}, x ≠ .pointsSkipped → x ≠ .fewPoints → x ∉ u := by
    intro x h1 h2 h3
    rcases u3 x h3 with h | h
    · exact h1 h
    · exact h2 h
  have hny : Q.freq > 0.5 / |A.dt / (Q.ratio : ℚ)| ↔ 1 < 2 * (Q.freq : ℝ) * |Q.dt| := by
    have hdt := Scalar.SetupGood.dt_ne hg
    have e := (Scalar.SetupGood.cfl hg).2.2
    have e2 : Q.dt = ((A.dt / (Q.ratio : ℚ) : ℚ) : ℝ) := by rw [e]; push_cast; rfl
    have hne : A.dt / (Q.ratio : ℚ) ≠ 0 := by
      intro h0
      rw [e2, h0] at hdt
      simp at hdt
    have hpos : 0 < |A.dt / (Q.ratio : ℚ)| := abs_pos.2 hne
    rw [gt_iff_lt, div_lt_iff₀ hpos, e2]
    have e3 : |((A.dt / (Q.ratio : ℚ) : ℚ) : ℝ)| = ((|A.dt / (Q.ratio : ℚ)| : ℚ) : ℝ) := by
      rw [Rat.cast_abs]
    rw [e3]
    constructor
    · intro h
      have h' : (((0.5 : ℚ)) : ℝ) < ((Q.freq * |A.dt / (Q.ratio : ℚ)| : ℚ) : ℝ) := by exact_mod_cast h
      push_cast at h' ⊢
      norm_num at h'
      linarith
    · intro h
      have h' : (((0.5 : ℚ)) : ℝ) < ((Q.freq * |A.dt / (Q.ratio : ℚ)| : ℚ) : ℝ) := by
        push_cast at h ⊢
        norm_num
        linarith
      exact_mod_cast h'
  have hk : (∃ g ∈ Q.dxL, vmin < 6 * Q.freq * g) ↔ ∃ k, vmin < 6 * Q.freq * Q.dx k := by
    constructor
    · rintro ⟨g, hg, h⟩
      obtain ⟨i, hi, rfl⟩ := List.getElem_of_mem hg
      refine ⟨⟨i, by rw [hdx.1.1] at hi; exact hi⟩, ?_⟩
      simpa [Plan.dx, List.getD_eq_getElem?_getD, List.getElem?_eq_getElem hi] using h
    · rintro ⟨k, h⟩
      have hi : (k : ℕ) < Q.dxL.length := by rw [hdx.1.1]; exact k.isLt
      refine ⟨Q.dxL[(k : ℕ)], List.getElem_mem hi, ?_⟩
      simpa [Plan.dx, List.getD_eq_getElem?_getD, List.getElem?_eq_getElem hi] using h
  refine ⟨rfl, ?_, ?_, ?_, ?_, ?_, ?_, ?_⟩
  · rw [hmem, ← hk, ← u2]; simp
  · rw [hmem, ← u1]; simp
  · rw [hmem]; simp [hu']
  · rw [hmem]; simp [hu']
  · rw [hmem, ← hny]; simp [hu']
  · rw [hmem]; simp [hu']
  · rw [hmem]; simp [hu']

/-- **C115** A call without warnings keeps every velocity that is at most the maximum of the model stable (Courant
number at most 0.6) and resolves the wavelength of every velocity from the minimum on with six cells on all axes. -/
theorem C115_silent (A : SetupArgs d) (P : Plan d) (hv : 0 ≤ vmin) (h : A.planW vmin = .ok (P, [])) :
    (∀ v, 0 ≤ v → v ≤ A.maxModelVel → courant (List.ofFn P.dx) P.dt v ≤ 6 / 10) ∧
    (∀ v, vmin ≤ v → ∀ k, 6 * P.freq * P.dx k ≤ v) ∧
    2 * (P.freq : ℝ) * |P.dt| ≤ 1 ∧ P.ratio < 20 := by
  obtain ⟨hp, w1, w2, w3, w4, w5, -, -⟩ := C115_warnings A P [] hv h
  simp only [List.not_mem_nil, false_iff] at w1 w2 w3 w4 w5
  have hg := plan_ok.1 hp
  refine ⟨fun v h0 hle => ?_, fun v hle k => ?_, not_lt.1 w5, not_le.1 w4⟩
  · have hc := hg.cfl_ofFn
    have hpos : ∀ g ∈ List.ofFn P.dx, 0 < g := by
      intro g hg'
      obtain ⟨k, rfl⟩ := (List.mem_ofFn' _ _).1 hg'
      exact Scalar.SetupGood.dx_pos hg k
    have hdt : (A.dt : ℝ) ≠ 0 := by
      have := Scalar.SetupGood.dt_ne hg
      rw [(Scalar.SetupGood.cfl hg).2.2] at this
      intro h0
      rw [h0, zero_div] at this
      exact this rfl
    obtain ⟨h', r, e, -, -, -, hcour, -⟩ := C13_internal_time_step _ (cfl_nonempty hc) hpos P.maxVel
      (Scalar.SetupGood.cfl hg).1 (A.dt : ℝ) hdt
    rw [hc] at e
    simp only [Except.ok.injEq, Prod.mk.injEq] at e
    rw [← e.1] at hcour
    refine le_trans ?_ hcour
    unfold courant
    have : v ≤ P.maxVel := hle.trans (not_lt.1 w3)
    gcongr
  · by_contra hc
    exact w1 ⟨w2, k, lt_of_le_of_lt hle (not_le.1 hc)⟩

theorem minNonzero_nonneg (m : ModelT d ℝ) : 0 ≤ minNonzero m := by
  refine Real.sInf_nonneg ?_
  rintro x ⟨s, -, c, -, -, rfl⟩
  exact abs_nonneg _

theorem minNonzero_le (m : ModelT d ℝ) {s : ℕ} (hs : s < m.nb.getD 1) {c : Cell d} (hc : InShape m.shape c)
    (h0 : m.val s c ≠ 0) : minNonzero m ≤ |m.val s c| := by
  refine csInf_le ⟨0, ?_⟩ ⟨s, hs, c, hc, h0, rfl⟩
  rintro x ⟨s, -, c, -, -, rfl⟩
  exact abs_nonneg _

/-- What the absence of warnings says for a velocity model. -/
def Resolved (P : Plan d) (v : ℝ) : Prop :=
  courant (List.ofFn P.dx) P.dt |v| ≤ 6 / 10 ∧ (v ≠ 0 → ∀ k, 6 * P.freq * P.dx k ≤ |v|)

end Dw.Setup

namespace Dw

open Setup

variable {d : ℕ}

/-- **C115** A call of `scalar` without warnings is stable at, and resolves, every velocity of the model. -/
theorem Scalar.C115_scalar_silent (A : Scalar.UArgs d) (P : Plan d)
    (h : A.setup.planW (minNonzero A.v) = .ok (P, [])) (s : ℕ) (hs : s < A.v.nb.getD 1) (c : Cell d)
    (hc : InShape A.v.shape c) : Resolved P (A.v.val s c) := by
  obtain ⟨h1, h2, -⟩ := C115_silent _ P (minNonzero_nonneg _) h
  exact ⟨h1 _ (abs_nonneg _) (le_maxAbs _ hs hc), fun h0 => h2 _ (minNonzero_le _ hs hc h0)⟩

/-- **C115** The same for `scalar_born`. -/
theorem Born.C115_born_silent (A : Born.UArgs d) (P : Plan d)
    (h : A.setup.planW (minNonzero A.v) = .ok (P, [])) (s : ℕ) (hs : s < A.v.nb.getD 1) (c : Cell d)
    (hc : InShape A.v.shape c) : Resolved P (A.v.val s c) := by
  obtain ⟨h1, h2, -⟩ := C115_silent _ P (minNonzero_nonneg _) h
  exact ⟨h1 _ (abs_nonneg _) (le_maxAbs _ hs hc), fun h0 => h2 _ (minNonzero_le _ hs hc h0)⟩

/-- **C115** The same for `acoustic`. -/
theorem Acoustic.C115_acoustic_silent (A : Acoustic.UArgs d) (P : Plan d)
    (h : A.setup.planW (minNonzero A.v) = .ok (P, [])) (s : ℕ) (hs : s < A.v.nb.getD 1) (c : Cell d)
    (hc : InShape A.v.shape c) : Resolved P (A.v.val s c) := by
  obtain ⟨h1, h2, -⟩ := C115_silent _ P (minNonzero_nonneg _) h
  exact ⟨h1 _ (abs_nonneg _) (le_maxAbs _ hs hc), fun h0 => h2 _ (minNonzero_le _ hs hc h0)⟩

namespace Elastic

theorem vels_finite (A : Elastic.UArgs d) (v : ℕ → Cell d → ℝ) :
    {x : ℝ | ∃ s < A.nbs, ∃ c, InShape A.lam.shape c ∧ x = |v s c|}.Finite := by
  have : {x : ℝ | ∃ s < A.nbs, ∃ c, InShape A.lam.shape c ∧ x = |v s c|} ⊆
      (fun p : ℕ × Cell d => |v p.1 p.2|) '' (Set.Iio A.nbs ×ˢ
        (Set.univ.pi fun k => Set.Ico (0 : ℤ) (A.lam.shape k))) := by
    rintro x ⟨s, hs, c, hc, rfl⟩
    exact ⟨(s, c), ⟨hs, fun k _ => hc k⟩, rfl⟩
  exact Set.Finite.subset (Set.Finite.image _ ((Set.finite_Iio _).prod (Set.Finite.pi fun k => Set.finite_Ico _ _))) this

theorem le_maxModelVel (A : Elastic.UArgs d) {s : ℕ} (hs : s < A.nbs) {c : Cell d}
    (hc : InShape A.lam.shape c) : |A.vp s c| ≤ A.maxModelVel ∧ |A.vs s c| ≤ A.maxModelVel := by
  have hb : BddAbove {x | ∃ s c, s < max (A.lam.nb.getD 1) (max (A.mu.nb.getD 1) (A.buoyancy.nb.getD 1)) ∧
      InShape A.lam.shape c ∧
      (x = |(fromLamb (A.lam.shot s c) (A.mu.shot s c) (A.buoyancy.shot s c) 0).1| ∨
        x = |(fromLamb (A.lam.shot s c) (A.mu.shot s c) (A.buoyancy.shot s c) 0).2.1|)} := by
    refine (((vels_finite A A.vp).union (vels_finite A A.vs)).subset ?_).bddAbove
    rintro x ⟨s, c, hs, hc, h | h⟩
    · exact .inl ⟨s, hs, c, hc, h⟩
    · exact .inr ⟨s, hs, c, hc, h⟩
  exact ⟨le_csSup hb ⟨s, c, hs, hc, .inl rfl⟩, le_csSup hb ⟨s, c, hs, hc, .inr rfl⟩⟩

/-- The smallest of the numbers that are not zero is attained. -/
theorem minVel_spec (A : Elastic.UArgs d) (v : ℕ → Cell d → ℝ) {s : ℕ} (hs : s < A.nbs) {c : Cell d}
    (hc : InShape A.lam.shape c) (h0 : v s c ≠ 0) : 0 < A.minVel v ∧ A.minVel v ≤ |v s c| := by
  have hfin : {x | ∃ s < A.nbs, ∃ c, InShape A.lam.shape c ∧ v s c ≠ 0 ∧ x = |v s c|}.Finite :=
    (vels_finite A v).subset fun x ⟨s, hs, c, hc, _, hx⟩ => ⟨s, hs, c, hc, hx⟩
  constructor
  · have hne : {x | ∃ s < A.nbs, ∃ c, InShape A.lam.shape c ∧ v s c ≠ 0 ∧ x = |v s c|}.Nonempty :=
      ⟨_, s, hs, c, hc, h0, rfl⟩
    obtain ⟨s', -, c', -, h', e⟩ := hne.csInf_mem hfin
    unfold UArgs.minVel
    rw [e]
    exact abs_pos.2 h'
  · exact csInf_le hfin.bddBelow ⟨s, hs, c, hc, h0, rfl⟩

theorem minVel_nonneg (A : Elastic.UArgs d) (v : ℕ → Cell d → ℝ) : 0 ≤ A.minVel v := by
  refine Real.sInf_nonneg ?_
  rintro x ⟨s, -, c, -, -, rfl⟩
  exact abs_nonneg _

theorem minNonzero_nonneg (A : Elastic.UArgs d) : 0 ≤ A.minNonzero := by
  unfold UArgs.minNonzero
  split_ifs
  · exact le_rfl
  · exact minVel_nonneg _ _
  · exact minVel_nonneg _ _
  · exact le_min (minVel_nonneg _ _) (minVel_nonneg _ _)

theorem minNonzero_le (A : Elastic.UArgs d) {s : ℕ} (hs : s < A.nbs) {c : Cell d} (hc : InShape A.lam.shape c) :
    (A.vp s c ≠ 0 → A.minNonzero ≤ |A.vp s c|) ∧ (A.vs s c ≠ 0 → A.minNonzero ≤ |A.vs s c|) := by
  constructor <;> intro h0
  · obtain ⟨h1, h2⟩ := minVel_spec A A.vp hs hc h0
    unfold UArgs.minNonzero
    rw [if_neg (fun h => h1.ne' h.1), if_neg h1.ne']
    split_ifs
    · exact h2
    · exact (min_le_left _ _).trans h2
  · obtain ⟨h1, h2⟩ := minVel_spec A A.vs hs hc h0
    unfold UArgs.minNonzero
    rw [if_neg (fun h => h1.ne' h.2)]
    split_ifs with h3 h4
    · exact h2
    · exact absurd h4 h1.ne'
    · exact (min_le_right _ _).trans h2

/-- **C115** A call of `elastic` without warnings is stable at, and resolves, the P and S wave speeds of every cell
of the model. -/
theorem C115_elastic_silent (A : Elastic.UArgs d) (P : Plan d) (h : A.setup.planW A.minNonzero = .ok (P, [])) (s : ℕ)
    (hs : s < A.nbs) (c : Cell d) (hc : InShape A.lam.shape c) :
    Resolved P (A.vp s c) ∧ Resolved P (A.vs s c) := by
  obtain ⟨h1, h2, -⟩ := C115_silent _ P (minNonzero_nonneg _) h
  obtain ⟨m1, m2⟩ := le_maxModelVel A hs hc
  obtain ⟨n1, n2⟩ := minNonzero_le A hs hc
  exact ⟨⟨h1 _ (abs_nonneg _) m1, fun h0 => h2 _ (n1 h0)⟩, ⟨h1 _ (abs_nonneg _) m2, fun h0 => h2 _ (n2 h0)⟩⟩

end Elastic

/-! ### Instances -/

namespace Setup

/-- No warnings, if none of the reasons for one is the case. -/
theorem planW_silent {A : SetupArgs d} {P : Plan d} {vmin : ℝ} (hg : A.Good P) (hv : 0 < vmin)
    (h1 : ∀ k, 6 * P.freq * P.dx k ≤ vmin) (h2 : A.maxModelVel ≤ P.maxVel) (h3 : P.ratio < 20)
    (h4 : 2 * (P.freq : ℝ) * |P.dt| ≤ 1) (h5 : A.pmlFreq ≠ none) (h6 : ∀ w ∈ A.wfs, w = none) :
    A.planW vmin = .ok (P, []) := by
  have h : A.planW vmin = .ok (P, A.warnings vmin P) := by
    rw [planW_eq A hv.le, plan_ok.2 hg]
    rfl
  obtain ⟨-, w1, w2, w3, w4, w5, w6, w7⟩ := C115_warnings A P _ hv.le h
  suffices e : A.warnings vmin P = [] by rw [h, e]
  refine List.eq_nil_iff_forall_not_mem.2 fun x hx => ?_
  cases x with
  | freqDefault => exact h5 (w6.1 hx)
  | freqNyquist => exact absurd (w5.1 hx) (not_lt.2 h4)
  | maxVelLow => exact absurd (w3.1 hx) (not_lt.2 h2)
  | pointsSkipped => exact hv.ne' (w2.1 hx)
  | fewPoints => exact let ⟨k, hk⟩ := (w1.1 hx).2; absurd hk (not_lt.2 (h1 k))
  | originMissing => exact let ⟨w, hw, hn⟩ := (w7.1 hx).2.1; hn (h6 w hw)
  | manySteps => exact absurd (w4.1 hx) (not_le.2 h3)

end Setup

namespace Scalar

/-- A call with a velocity of 990 to 996, cells of 3 and 4, and a `pml_freq` of 25: no warning. -/
noncomputable def exW : UArgs 2 := {exV 0 with pmlFreq := some (.int 25)}

theorem exW_good : exW.setup.Good (exQ 0) :=
  { exV_good 0 (.inl rfl) with
    freq := by simp [exQ, exW, exV, exU, UArgs.setup, setPmlFreq, PyNum.toFloat] }

theorem exW_min : 990 ≤ minNonzero exW.v := by
  refine le_csInf ⟨_, 0, by decide, 0, ?_, ?_, rfl⟩ ?_
  · show ∀ k, (0 : ℤ) ≤ 0 ∧ (0 : ℤ) < (![7, 9] : Fin 2 → ℤ) k
    decide
  · show (990 + ((0 : ℤ) : ℝ)) ≠ 0
    norm_num
  · rintro x ⟨s, -, c, hc, -, rfl⟩
    show _ ≤ |(990 + ((c 0 : ℤ) : ℝ))|
    have : (0 : ℝ) ≤ ((c 0 : ℤ) : ℝ) := by exact_mod_cast (hc 0).1
    rw [abs_of_nonneg (by linarith)]
    linarith

theorem exW_max : maxAbs exW.v ≤ 1000 := by
  refine csSup_le ⟨_, 0, by decide, 0, ?_, rfl⟩ ?_
  · show ∀ k, (0 : ℤ) ≤ 0 ∧ (0 : ℤ) < (![7, 9] : Fin 2 → ℤ) k
    decide
  · rintro x ⟨s, -, c, hc, rfl⟩
    show |(990 + ((c 0 : ℤ) : ℝ))| ≤ _
    have h0 : (0 : ℝ) ≤ ((c 0 : ℤ) : ℝ) := by exact_mod_cast (hc 0).1
    have h7 : ((c 0 : ℤ) : ℝ) < 7 := by
      have : c 0 < 7 := (hc 0).2
      exact_mod_cast this
    rw [abs_of_nonneg (by linarith)]
    linarith

theorem exW_silent : exW.setup.planW (minNonzero exW.v) = .ok (exQ 0, []) := by
  have hm := exW_min
  refine planW_silent exW_good (by linarith) (fun k => ?_) exW_max (by decide) ?_ (by simp [exW, UArgs.setup]) ?_
  · refine le_trans ?_ hm
    revert k
    simp only [Fin.forall_fin_two, Plan.dx, exQ]
    norm_num
  · simp only [exQ]
    norm_num [abs_of_pos]
  · intro w hw
    have : w ∈ [none, none, none, none, none, none] := hw
    simpa using this

example (c : Cell 2) (hc : InShape ![7, 9] c) : Resolved (exQ 0) (990 + (c 0 : ℤ)) :=
  C115_scalar_silent exW (exQ 0) exW_silent 0 (by decide) c hc

/-- The call `exV` with the default `pml_freq`, and a slow model: the warnings say so. -/
example : ∃ w, (exV 0).setup.planW 500 = .ok (exQ 0, w) ∧ Warning.freqDefault ∈ w ∧ Warning.fewPoints ∈ w ∧
    Warning.manySteps ∉ w := by
  have h : (exV 0).setup.planW 500 = .ok (exQ 0, (exV 0).setup.warnings 500 (exQ 0)) := by
    rw [planW_eq _ (by norm_num), plan_ok.2 (exV_good 0 (.inl rfl))]
    rfl
  obtain ⟨-, w1, -, -, w4, -, w6, -⟩ := C115_warnings _ _ _ (by norm_num) h
  refine ⟨_, h, w6.2 rfl, w1.2 ⟨by norm_num, 1, ?_⟩, fun h => absurd (w4.1 h) (by decide)⟩
  norm_num [Plan.dx, exQ]

end Scalar

end Dw
