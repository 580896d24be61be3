import Mathlib.Data.List.GetD
import Mathlib.Data.List.OfFn
import Mathlib.GroupTheory.Perm.Fin
import Verif.Setup.Delay
import Verif.Setup.Resume
import Verif.Spec.Axes

/-!
# Calls with the axes in another order

Axis `k` of the new call is axis `σ k` of the old one.
-/

namespace Dw.Setup

open Scalar (upAmps upS WholeIgnored cellOf cellOf_idx)

variable {d : ℕ} (σ : Equiv.Perm (Fin d))

/-- A list with an entry per axis. -/
def singles {α : Type*} (l : List α) (x : α) : List α := List.ofFn fun k => l.getD (σ k) x

/-- A list with two entries per axis. -/
def pairs {α : Type*} (l : List α) (x : α) : List α :=
  (List.ofFn fun k => [l.getD (2 * σ k) x, l.getD (2 * σ k + 1) x]).flatten

def PyArg.singles : PyArg → PyArg
  | .one x => .one x
  | .seq l => .seq (Setup.singles σ l .other)

def PyArg.pairs : PyArg → PyArg
  | .one x => .one x
  | .seq l => .seq (Setup.pairs σ l .other)

def SurveyPad.axes : SurveyPad → SurveyPad
  | .none => .none
  | .int p => .int p
  | .list l => .list (Setup.pairs σ l Option.none)

def LocT.axes (l : LocT) : LocT :=
  { l with val := fun s i k => if h : k < d then l.val s i (σ ⟨k, h⟩) else l.val s i k }

def ModelT.axes {R : Type*} (m : ModelT d R) : ModelT d R :=
  ⟨m.nb, fun k => m.shape (σ k), fun s => Spec.axes σ (m.val s)⟩

def WfT.axes (w : WfT d) : WfT d := ⟨w.nb, fun k => w.shape (σ k), fun s => Spec.axes σ (w.val s)⟩

/-- The call with the axes in the new order. -/
def SetupArgs.axes (A : SetupArgs d) : SetupArgs d :=
  { A with
    models := A.models.map fun m => (m.1.axes σ, m.2)
    gridSpacing := A.gridSpacing.singles σ
    srcs := A.srcs.map (Option.map (LocT.axes σ))
    rcvs := A.rcvs.map (Option.map (LocT.axes σ))
    pmlWidth := A.pmlWidth.pairs σ
    surveyPad := A.surveyPad.axes σ
    wfs := A.wfs.map (Option.map (WfT.axes σ))
    origin := A.origin.map fun o => singles σ o 0 }

/-! ### Lists -/

section
variable {α β : Type*} {σ}

theorem getD_any {l : List α} {j : ℕ} (hj : j < l.length) (x y : α) : l.getD j x = l.getD j y := by
  rw [List.getD_eq_getElem _ _ hj, List.getD_eq_getElem _ _ hj]

theorem getD_map' (f : α → β) (l : List α) (j : ℕ) (x : α) : (l.map f).getD j (f x) = f (l.getD j x) := by
  simp only [List.getD_eq_getElem?_getD, List.getElem?_map, Option.getD_map]

theorem singles_length (l : List α) (x : α) : (singles σ l x).length = d := List.length_ofFn

theorem singles_getD (l : List α) (x y : α) (k : Fin d) : (singles σ l x).getD k y = l.getD (σ k) x := by
  unfold singles
  rw [List.getD_eq_getElem _ _ (by simp)]
  simp

theorem singles_map (f : α → β) (l : List α) (x : α) : (singles σ l x).map f = singles σ (l.map f) (f x) := by
  unfold singles
  rw [List.map_ofFn]
  simp only [getD_map']
  rfl

theorem singles_any {l : List α} (hl : l.length = d) (x y : α) : singles σ l x = singles σ l y := by
  unfold singles
  refine congrArg _ (funext fun k => getD_any (by omega) x y)

theorem singles_perm {l : List α} (hl : l.length = d) (x : α) : (singles σ l x).Perm l := by
  have e : l = List.ofFn fun k : Fin d => l.getD k x := by
    refine List.ext_getElem (by simp [hl]) fun j h1 h2 => ?_
    rw [List.getElem_ofFn, List.getD_eq_getElem _ _ h1]
  have := Equiv.Perm.ofFn_comp_perm σ fun k : Fin d => l.getD k x
  rw [← e] at this
  exact this

theorem pairs_length (l : List α) (x : α) : (pairs σ l x).length = 2 * d := by
  unfold pairs
  rw [List.length_flatten, List.map_ofFn, List.sum_ofFn]
  simp [mul_comm]

theorem flatten_getD : ∀ {d : ℕ} (p0 p1 : Fin d → α) (y : α) (k : Fin d),
    (List.ofFn fun k => [p0 k, p1 k]).flatten.getD (2 * k) y = p0 k ∧
    (List.ofFn fun k => [p0 k, p1 k]).flatten.getD (2 * k + 1) y = p1 k
  | 0, _, _, _, k => k.elim0
  | d + 1, p0, p1, y, k => by
      have e : (List.ofFn fun k => [p0 k, p1 k]).flatten =
          p0 0 :: p1 0 :: (List.ofFn fun k : Fin d => [p0 k.succ, p1 k.succ]).flatten := by
        simp [List.ofFn_succ]
      rw [e]
      refine Fin.cases ?_ (fun j => ?_) k
      · simp
      · have ih := flatten_getD (fun k => p0 k.succ) (fun k => p1 k.succ) y j
        have e2 : 2 * (j.succ : ℕ) = 2 * j + 1 + 1 := by simp; omega
        rw [e2]
        simpa using ih

theorem pairs_getD (l : List α) (x y : α) (k : Fin d) : (pairs σ l x).getD (2 * k) y = l.getD (2 * σ k) x ∧
    (pairs σ l x).getD (2 * k + 1) y = l.getD (2 * σ k + 1) x :=
  flatten_getD (fun k => l.getD (2 * σ k) x) (fun k => l.getD (2 * σ k + 1) x) y k

theorem pairs_map (f : α → β) (l : List α) (x : α) : (pairs σ l x).map f = pairs σ (l.map f) (f x) := by
  unfold pairs
  rw [List.map_flatten, List.map_ofFn]
  simp only [getD_map']
  rfl

theorem pairs_any {l : List α} (hl : l.length = 2 * d) (x y : α) : pairs σ l x = pairs σ l y := by
  unfold pairs
  refine congrArg _ (congrArg _ (funext fun k => ?_))
  rw [getD_any (by omega) x y, getD_any (by omega) x y]

theorem pairs_mem {l : List α} (hl : l.length = 2 * d) {x y : α} (h : y ∈ pairs σ l x) : y ∈ l := by
  unfold pairs at h
  obtain ⟨a, ha, hy⟩ := List.mem_flatten.1 h
  obtain ⟨k, rfl⟩ := (List.mem_ofFn' _ _).1 ha
  simp only [List.mem_cons, List.not_mem_nil, or_false] at hy
  rcases hy with rfl | rfl
  · rw [List.getD_eq_getElem _ _ (by omega)]
    exact List.getElem_mem _
  · rw [List.getD_eq_getElem _ _ (by omega)]
    exact List.getElem_mem _

theorem list_replicate {l : List α} {n : ℕ} (hl : l.length = n) {y : α} (h : ∀ x ∈ l, x = y) : l = List.replicate n y :=
  List.eq_replicate_iff.2 ⟨hl, h⟩

theorem pairs_replicate (y x : α) : pairs σ (List.replicate (2 * d) y) x = List.replicate (2 * d) y :=
  list_replicate (pairs_length _ _) fun z hz => (List.mem_replicate.1 (pairs_mem (by simp) hz)).2

theorem singles_replicate (y x : α) : singles σ (List.replicate d y) x = List.replicate d y :=
  list_replicate (singles_length _ _) fun z hz =>
    (List.mem_replicate.1 ((singles_perm (σ := σ) (by simp) x).mem_iff.1 hz)).2

end

/-! ### Checks of the arguments -/

variable {σ}

theorem setGridSpacing_axes {g : PyArg} {r : List ℚ} (h : setGridSpacing g d = .ok r) :
    setGridSpacing (g.singles σ) d = .ok (singles σ r 0) := by
  obtain ⟨⟨h1, h2⟩, h3⟩ := (C35_grid_spacing g d r).1 h
  refine (C35_grid_spacing _ _ _).2 ⟨⟨singles_length _ _, ?_⟩, fun q hq => h3 q ((singles_perm h1 0).mem_iff.1 hq)⟩
  cases g with
  | one x =>
      obtain ⟨q, hq, rfl⟩ := h2
      exact ⟨q, hq, singles_replicate _ _⟩
  | seq l =>
      show (singles σ l .other).map PyNum.toFloat = _
      rw [singles_map, h2, singles_map]
      exact singles_any (by simp [h1]) _ _

theorem setPmlWidth_axes {w : PyArg} {r : List ℤ} (h : setPmlWidth w d = .ok r) :
    setPmlWidth (w.pairs σ) d = .ok (pairs σ r 0) := by
  obtain ⟨⟨h1, h2⟩, h3, h4⟩ := (C35_pml_width w d r).1 h
  rw [List.length_map] at h1
  refine (C35_pml_width _ _ _).2 ⟨⟨by rw [List.length_map, pairs_length], ?_⟩, fun z hz => h3 z (pairs_mem h1 hz), ?_⟩
  · cases w with
    | one x =>
        obtain ⟨q, hq, e⟩ := h2
        refine ⟨q, hq, ?_⟩
        rw [pairs_map, e]
        exact pairs_replicate _ _
    | seq l =>
        show (pairs σ l .other).map PyNum.toFloat = _
        rw [pairs_map, h2, pairs_map, pairs_map]
        exact pairs_any (by simp [h1]) _ _
  · intro x hx
    cases w with
    | one y =>
        obtain rfl : y = x := by injection hx
        exact h4 y rfl
    | seq l => cases hx

theorem setSurveyPad_axes {sp : SurveyPad} {r : List ℤ} (h : setSurveyPad sp d = .ok r) :
    setSurveyPad (sp.axes σ) d = .ok (pairs σ r 0) := by
  unfold setSurveyPad at h ⊢
  by_cases hd : d = 0
  · rw [if_pos hd] at h
    cases h
  rw [if_neg hd] at h ⊢
  cases sp with
  | none =>
      simp only [List.length_replicate, ne_eq, not_true_eq_false, if_false, Except.ok.injEq] at h
      subst h
      simp [SurveyPad.axes, pairs_replicate]
  | int p =>
      by_cases hp : p < 0
      · simp [hp] at h
      · simp only [hp, List.length_replicate, ne_eq, not_true_eq_false, if_false, Except.ok.injEq] at h
        subst h
        simp [SurveyPad.axes, pairs_replicate, hp]
  | list l =>
      by_cases hn : l.any isNeg = true
      · simp [hn] at h
      · by_cases hl : l.length = 2 * d
        · simp only [hn, List.length_map, hl, ne_eq, not_true_eq_false, if_false, Bool.false_eq_true, Except.ok.injEq] at h
          subst h
          have hn' : ¬(pairs σ l Option.none).any isNeg = true := fun h => hn (by
            obtain ⟨x, hx, hy⟩ := List.any_eq_true.1 h
            exact List.any_eq_true.2 ⟨x, pairs_mem hl hx, hy⟩)
          simp only [SurveyPad.axes, hn', List.length_map, pairs_length, ne_eq, not_true_eq_false, if_false, Bool.false_eq_true]
          refine congrArg _ ?_
          rw [pairs_map]
          exact pairs_any (by simp [hl]) _ _
        · simp [hn, hl] at h

theorem cfl_perm {l l' : List ℝ} (h : l'.Perm l) (dt v : ℝ) : cflConditionN l' dt v = cflConditionN l dt v := by
  unfold cflConditionN maxDt
  have e1 : l' = [] ↔ l = [] := ⟨fun e => by subst e; exact h.symm.eq_nil, fun e => by subst e; exact h.eq_nil⟩
  have e2 : (∃ g ∈ l', g ≤ 0) ↔ ∃ g ∈ l, g ≤ 0 := by simp only [h.mem_iff]
  rw [(h.map fun x => 1 / x ^ 2).sum_eq]
  simp only [e1, e2]

/-! ### Locations -/

theorem LocT.axes_val (l : LocT) (s i : ℕ) (k : Fin d) : (l.axes σ).val s i k = l.val s i (σ k) := by
  simp [LocT.axes]

theorem LocT.axes_active (l : LocT) (k : Fin d) : (l.axes σ).active k = l.active (σ k) := by
  unfold LocT.active
  simp only [LocT.axes_val]
  rfl

theorem axes_mem {ls : List (Option LocT)} {l' : LocT} :
    some l' ∈ ls.map (Option.map (LocT.axes σ)) ↔ ∃ l, some l ∈ ls ∧ l' = l.axes σ := by
  constructor
  · intro h
    obtain ⟨o, ho, e⟩ := List.mem_map.1 h
    obtain ⟨l, rfl, rfl⟩ := Option.map_eq_some_iff.1 e
    exact ⟨l, ho, rfl⟩
  · rintro ⟨l, hl, rfl⟩
    exact List.mem_map.2 ⟨_, hl, rfl⟩

theorem extremeLoop_axes {left : Bool} {pad : ℤ} {n : ℤ} (k : Fin d) : ∀ {ls : List (Option LocT)} {e : ℤ},
    extremeLoop left pad k n (ls.map (Option.map (LocT.axes σ))) e = extremeLoop left pad (σ k) n ls e ∨
      ∃ l, some l ∈ ls ∧ l.nd ≠ d
  | [], e => .inl rfl
  | none :: ls, e => by
      rcases extremeLoop_axes k (ls := ls) (e := e) with h | ⟨l, h1, h2⟩
      · exact .inl h
      · exact .inr ⟨l, List.mem_cons_of_mem _ h1, h2⟩
  | some l :: ls, e => by
      by_cases hl : l.nd = d
      · by_cases hls : ∃ l, some l ∈ ls ∧ l.nd ≠ d
        · obtain ⟨l, h1, h2⟩ := hls
          exact .inr ⟨l, List.mem_cons_of_mem _ h1, h2⟩
        · left
          have ih := fun e => (extremeLoop_axes (left := left) (pad := pad) (n := n) k (ls := ls) (e := e)).resolve_right hls
          show extremeLoop left pad k n (some (l.axes σ) :: ls.map (Option.map (LocT.axes σ))) e = _
          unfold extremeLoop
          rw [LocT.axes_active, ih, ih]
          have h1 : ¬(l.axes σ).nd ≤ k := not_le.2 (hl ▸ k.isLt)
          have h2 : ¬l.nd ≤ σ k := not_le.2 (hl ▸ (σ k).isLt)
          rw [if_neg h1, if_neg h2]
      · exact .inr ⟨l, List.mem_cons_self, hl⟩

theorem extentOneSide_axes {ls : List (Option LocT)} (hn : ∀ l, some l ∈ ls → l.nd = d) (pad : ℤ) (left : Bool) (k : Fin d)
    (n : ℤ) : extentOneSide pad left k (ls.map (Option.map (LocT.axes σ))) n = extentOneSide pad left (σ k) ls n := by
  unfold extentOneSide
  rw [(extremeLoop_axes k).resolve_right fun ⟨l, h1, h2⟩ => h2 (hn l h1)]
  have : (ls.map (Option.map (LocT.axes σ))).any Option.isSome = ls.any Option.isSome := by
    rw [List.any_map]
    congr 1
    funext o
    simp
  rw [this]

theorem extentsFromLocations_axes {shape : Fin d → ℤ} {ls : List (Option LocT)} (hn : ∀ l, some l ∈ ls → l.nd = d)
    {sp : SurveyPad} {ext : Fin d → ℤ × ℤ} (h : extentsFromLocations shape ls sp = .ok ext) :
    extentsFromLocations (fun k => shape (σ k)) (ls.map (Option.map (LocT.axes σ))) (sp.axes σ) =
      .ok fun k => ext (σ k) := by
  unfold extentsFromLocations at h ⊢
  split at h
  · cases h
  · rename_i u hu
    have := checkModelShape_ok.1 hu
    rw [checkModelShape_ok.2 ⟨this.1, fun k => this.2 (σ k)⟩]
    split at h
    · cases h
    · rename_i pads hp
      rw [setSurveyPad_axes hp]
      rw [forDims_ok] at h
      refine forDims_ok.2 fun k => ?_
      simp only [extentOneSide_axes hn, (pairs_getD pads 0 0 k).1, (pairs_getD pads 0 0 k).2]
      exact h (σ k)

theorem extentsFromWavefields_axes {wfs : List (Option (Fin d → ℤ))} {origin : Option (List ℤ)} {w0 w1 : Fin d → ℤ}
    {ext : Fin d → ℤ × ℤ} (h : extentsFromWavefields wfs origin w0 w1 = .ok ext) :
    extentsFromWavefields (wfs.map (Option.map fun sh k => sh (σ k))) (origin.map fun o => singles σ o 0)
      (fun k => w0 (σ k)) (fun k => w1 (σ k)) = .ok fun k => ext (σ k) := by
  unfold extentsFromWavefields at h ⊢
  simp only at h ⊢
  split at h
  · cases h
  · rename_i u hu
    rw [firstErr_ok] at hu
    have hw := raiseIf_ok.1 (hu (raiseIf (∃ k, w0 k < 0 ∨ w1 k < 0) .runtimeError) (List.mem_append_right _ List.mem_cons_self))
    have hc : firstErr ((match origin.map fun o => singles σ o 0 with
        | none => []
        | some o => [raiseIf (o.length ≠ d) .runtimeError, raiseIf (o.any (· < 0)) .runtimeError]) ++
        [raiseIf (∃ k, w0 (σ k) < 0 ∨ w1 (σ k) < 0) .runtimeError]) = .ok () := by
      rw [firstErr_ok]
      intro x hx
      rcases List.mem_append.1 hx with hx | hx
      · cases origin with
        | none => cases hx
        | some o =>
            have h1 := not_not.1 (raiseIf_ok.1 (hu (raiseIf (o.length ≠ d) .runtimeError)
              (List.mem_append_left _ List.mem_cons_self)))
            have h2 := raiseIf_ok.1 (hu (raiseIf (o.any (· < 0)) .runtimeError)
              (List.mem_append_left _ (List.mem_cons_of_mem _ List.mem_cons_self)))
            simp only [Option.map_some, List.mem_cons, List.not_mem_nil, or_false] at hx
            rcases hx with rfl | rfl
            · exact raiseIf_ok.2 (not_not.2 (singles_length _ _))
            · refine raiseIf_ok.2 fun h => h2 ?_
              obtain ⟨y, hy, hz⟩ := List.any_eq_true.1 h
              exact List.any_eq_true.2 ⟨y, (singles_perm h1 0).mem_iff.1 hy, hz⟩
      · rw [List.mem_singleton.1 hx]
        exact raiseIf_ok.2 fun ⟨k, hk⟩ => hw ⟨σ k, hk⟩
    split
    · rename_i e he
      cases he.symm.trans hc
    · rw [filterMap_map_id]
      split at h
      · cases h
      · rename_i sh l hsh
        rw [hsh, List.map_cons]
        simp only
        rw [forDims_ok] at h ⊢
        intro k
        have := h (σ k)
        cases origin with
        | none => exact this
        | some o =>
            simp only [Option.map_some, singles_getD] at this ⊢
            exact this

/-- The extents if `survey_pad` is given. -/
theorem surveyExtents_pad {shape : Fin d → ℤ} {ls : List (Option LocT)} {wfs : List (Option (Fin d → ℤ))} {sp : SurveyPad}
    {origin : Option (List ℤ)} {w0 w1 : Fin d → ℤ} {ext : Fin d → ℤ × ℤ} (hsp : sp ≠ .none) :
    surveyExtents shape ls wfs sp origin w0 w1 = .ok ext ↔ origin = none ∧ checkLocationsWithinModel shape ls = .ok () ∧
      extentsFromLocations shape ls sp = .ok ext ∧ checkExtentsMatchWavefields ext wfs w0 w1 = .ok () := by
  have e : surveyExtents shape ls wfs sp origin w0 w1 = if origin.isSome then .error .runtimeError else
      match checkLocationsWithinModel shape ls with
      | .error e => .error e
      | .ok _ => match extentsFromLocations shape ls sp with
        | .error e => .error e
        | .ok ext => match checkExtentsMatchWavefields ext wfs w0 w1 with
          | .error e => .error e
          | .ok _ => .ok ext := by
    cases sp with
    | none => exact absurd rfl hsp
    | int p =>
        simp [surveyExtents]
        rfl
    | list l =>
        simp [surveyExtents]
        rfl
  rw [e]
  cases origin with
  | some o => simp
  | none =>
      simp only [Option.isSome_none, Bool.false_eq_true, if_false, true_and]
      constructor
      · intro h
        split at h
        · cases h
        · split at h
          · cases h
          · split at h
            · cases h
            · cases h
              exact ⟨by assumption, by assumption, by assumption⟩
      · rintro ⟨h1, h2, h3⟩
        simp only [h1, h2, h3]

theorem surveyExtents_axes {shape : Fin d → ℤ} {ls : List (Option LocT)} (hn : ∀ l, some l ∈ ls → l.nd = d)
    {wfs : List (Option (Fin d → ℤ))} {sp : SurveyPad} {origin : Option (List ℤ)} {w0 w1 : Fin d → ℤ}
    {ext : Fin d → ℤ × ℤ} (h : surveyExtents shape ls wfs sp origin w0 w1 = .ok ext) :
    surveyExtents (fun k => shape (σ k)) (ls.map (Option.map (LocT.axes σ))) (wfs.map (Option.map fun sh k => sh (σ k)))
      (sp.axes σ) (origin.map fun o => singles σ o 0) (fun k => w0 (σ k)) (fun k => w1 (σ k)) = .ok fun k => ext (σ k) := by
  have hc : ∀ u, checkLocationsWithinModel shape ls = .ok u →
      checkLocationsWithinModel (fun k => shape (σ k)) (ls.map (Option.map (LocT.axes σ))) = .ok u := by
    intro u hu
    have := checkLocationsWithinModel_iff.1 hu
    refine checkLocationsWithinModel_iff.2 ⟨⟨this.1.1, fun k => this.1.2 (σ k)⟩, fun l' hl' k => ?_⟩
    obtain ⟨l, hl, rfl⟩ := axes_mem.1 hl'
    rw [LocT.axes_active]
    exact ⟨by show (k : ℕ) < l.nd; rw [hn l hl]; exact k.isLt, (this.2 l hl (σ k)).2⟩
  have hx : ∀ u, checkLocationsWithinExtents ext ls = .ok u →
      checkLocationsWithinExtents (d := d) (fun k => ext (σ k)) (ls.map (Option.map (LocT.axes σ))) = .ok u := by
    intro u hu
    refine checkLocationsWithinExtents_iff.2 fun l' hl' k hk => ?_
    obtain ⟨l, hl, rfl⟩ := axes_mem.1 hl'
    have hkd : k < d := (show k < l.nd from hk).trans_eq (hn l hl)
    obtain ⟨h1, h2, h3⟩ := checkLocationsWithinExtents_iff.1 hu l hl (σ ⟨k, hkd⟩) (by rw [hn l hl]; exact Fin.isLt _)
    have e := LocT.axes_active (σ := σ) l ⟨k, hkd⟩
    simp only at e
    rw [e]
    exact ⟨h1, hkd, h3⟩
  have he : ∀ u, checkExtentsWithinModel ext shape = .ok u →
      checkExtentsWithinModel (fun k => ext (σ k)) (fun k => shape (σ k)) = .ok u := by
    intro u hu
    unfold checkExtentsWithinModel at hu ⊢
    rw [firstErr_ok] at hu ⊢
    intro x hx
    obtain ⟨k, rfl⟩ := (List.mem_ofFn' _ _).1 hx
    exact hu _ ((List.mem_ofFn' _ _).2 ⟨σ k, rfl⟩)
  have hm : ∀ u, checkExtentsMatchWavefields ext wfs w0 w1 = .ok u →
      checkExtentsMatchWavefields (fun k => ext (σ k)) (wfs.map (Option.map fun sh k => sh (σ k))) (fun k => w0 (σ k))
        (fun k => w1 (σ k)) = .ok u := by
    intro u hu
    unfold checkExtentsMatchWavefields at hu ⊢
    rw [firstErr_ok] at hu ⊢
    intro x hx
    obtain ⟨o, ho, hx⟩ := List.mem_flatMap.1 hx
    obtain ⟨o, ho', rfl⟩ := List.mem_map.1 ho
    cases o with
    | none => cases hx
    | some sh =>
        obtain ⟨k, rfl⟩ := (List.mem_ofFn' _ _).1 hx
        exact hu _ (List.mem_flatMap.2 ⟨_, ho', (List.mem_ofFn' _ _).2 ⟨σ k, rfl⟩⟩)
  have hany : (wfs.map (Option.map fun (sh : Fin d → ℤ) k => sh (σ k))).any Option.isSome = wfs.any Option.isSome := by
    rw [List.any_map]
    congr 1
    funext o
    simp
  by_cases hsp : sp = .none
  · subst hsp
    show surveyExtents _ _ _ .none _ _ _ = _
    rw [surveyExtents_none] at h ⊢
    rw [hany]
    refine ⟨hc _ h.1, ?_⟩
    have h2 := h.2
    by_cases hw : wfs.any Option.isSome = true
    · rw [if_pos hw] at h2 ⊢
      exact ⟨extentsFromWavefields_axes h2.1, he _ h2.2.1, hx _ h2.2.2⟩
    · rw [if_neg hw] at h2 ⊢
      rw [h2]
  · rw [surveyExtents_pad hsp] at h
    rw [surveyExtents_pad fun e => hsp (by cases sp <;> first | rfl | cases e)]
    exact ⟨by rw [h.1]; rfl, hc _ h.2.1, extentsFromLocations_axes hn h.2.2.1, hm _ h.2.2.2⟩

/-! ### The setup -/

theorem LocT.axes_cell (l : LocT) (s i : ℕ) : (l.axes σ).cell d s i = fun k => l.cell d s i (σ k) := by
  funext k
  simp only [LocT.cell, LocT.axes_val]

theorem LocT.axes_ignored (l : LocT) (s i : ℕ) : (l.axes σ).Ignored d s i ↔ l.Ignored d s i := by
  have key : ∀ l : LocT, l.Ignored d s i ↔ ∀ k : Fin d, l.val s i k = (ignoreLocation : ℚ) := fun l =>
    ⟨fun h k => h k k.isLt, fun h k hk => h ⟨k, hk⟩⟩
  rw [key, key, ← σ.forall_congr_right (q := fun k : Fin d => l.val s i k = (ignoreLocation : ℚ))]
  simp only [LocT.axes_val]

theorem LocT.axes_whole {l : LocT} {s : ℕ} (h : WholeIgnored d l s) : WholeIgnored d (l.axes σ) s := by
  intro i hi
  rw [LocT.axes_ignored]
  refine (h i hi).imp id fun h k hk => ?_
  have := LocT.axes_val (σ := σ) l s i ⟨k, hk⟩
  simp only at this
  rw [this]
  exact h _ (Fin.isLt _)

theorem LocT.axes_in {l : LocT} {ext : Fin d → ℤ × ℤ} (h : l.In ext) : (l.axes σ).In fun k => ext (σ k) := by
  intro s hs i hi k
  rw [LocT.axes_val]
  exact h s hs i hi (σ k)

theorem idx_ignored {ext : Fin d → ℤ × ℤ} {p0 p1 : Fin d → ℤ} {l : LocT} {s i : ℕ} (hd : 0 < d) (h : l.Ignored d s i) :
    (idxOf ext p0 p1 l).val s i = ignoreLocation := by
  unfold idxOf LocT.cell location1d
  have : ∀ k : Fin d, l.val s i k = (ignoreLocation : ℚ) := fun k => h k k.isLt
  simp [this, h 0 hd, trunc_int, hd]

/-- Whether locations are different does not depend on the order of the axes. -/
theorem LocGood.axes {eps : ℚ} {ext : Fin d → ℤ × ℤ} {p0 p1 p0' p1' : Fin d → ℤ} {nb : ℕ} {l : LocT}
    (h : LocGood eps ext p0 p1 nb l) (hd : 0 < d) (he : ∀ k, 0 ≤ (ext k).1) (hp0 : ∀ k, 0 ≤ p0 k) (hp1 : ∀ k, 0 ≤ p1 k)
    (hp0' : ∀ k, 0 ≤ p0' k) (hp1' : ∀ k, 0 ≤ p1' k) (hin : l.In ext) (hw : ∀ s < nb, WholeIgnored d l s) :
    LocGood eps (fun k => ext (σ k)) p0' p1' nb (l.axes σ) where
  close := fun s hs i hi k hk => by
    have hkd : k < d := (show k < l.nd from hk).trans_eq h.nd
    have := LocT.axes_val (σ := σ) l s i ⟨k, hkd⟩
    simp only at this
    rw [this]
    exact h.close s hs i hi _ (by rw [h.nd]; exact Fin.isLt _)
  batch := h.batch
  nd := h.nd
  nodup := fun s hs => by
    have hg := activeIdx_nodup.1 (h.nodup s hs)
    have hsl : s < l.nb := h.batch ▸ hs
    refine activeIdx_nodup.2 fun i hi j hj h1 h2 h3 => ?_
    have n1 : ¬l.Ignored d s i := fun hig => h1 (idx_ignored hd ((LocT.axes_ignored l s i).2 hig))
    have n2 : ¬l.Ignored d s j := fun hig => h2 (idx_ignored hd ((LocT.axes_ignored l s j).2 hig))
    have key : ∀ {ext : Fin d → ℤ × ℤ} {p0 p1 : Fin d → ℤ} {l : LocT} (_ : ∀ k, 0 ≤ (ext k).1) (_ : ∀ k, 0 ≤ p0 k)
        (_ : ∀ k, 0 ≤ p1 k) (_ : l.In ext) (_ : s < l.nb) (_ : WholeIgnored d l s) {i : ℕ} (_ : i < l.n)
        (_ : ¬l.Ignored d s i), cellOf (paddedShape ext p0 p1) ((idxOf ext p0 p1 l).val s i) =
          some fun k => l.cell d s i k - (ext k).1 + p0 k := by
      intro ext p0 p1 l he hp0 hp1 hin hsl hw i hi n1
      rw [(cellOf_idx hd he hp0 hp1 hin hsl hi hw).1]
      unfold LocT.target
      rw [if_neg n1]
      rfl
    have c1 := key (fun k => he (σ k)) hp0' hp1' (LocT.axes_in hin) hsl (LocT.axes_whole (hw s hs)) hi
      (fun h => n1 ((LocT.axes_ignored l s i).1 h))
    have c2 := key (fun k => he (σ k)) hp0' hp1' (LocT.axes_in hin) hsl (LocT.axes_whole (hw s hs)) hj
      (fun h => n2 ((LocT.axes_ignored l s j).1 h))
    rw [h3, c2] at c1
    have c3 := Option.some.inj c1
    have ecell : l.cell d s i = l.cell d s j := by
      funext k
      obtain ⟨k, rfl⟩ := σ.surjective k
      have := congrFun c3 k
      rw [LocT.axes_cell, LocT.axes_cell] at this
      simp only at this
      omega
    have e1 := key he hp0 hp1 hin hsl (hw s hs) hi n1
    have e2 := key he hp0 hp1 hin hsl (hw s hs) hj n2
    have hneg : (ignoreLocation : ℤ) < 0 := by decide +kernel
    have pos : ∀ {n : Fin d → ℤ} {x : ℤ} {c : Cell d}, cellOf n x = some c → x ≠ ignoreLocation := by
      intro n x c hx hn
      unfold cellOf at hx
      rw [if_pos (by omega)] at hx
      cases hx
    refine hg i hi j hj (pos e1) (pos e2) ?_
    show location1d _ _ (l.cell d s i) = location1d _ _ (l.cell d s j)
    rw [ecell]

/-- Two plans that differ by the order of the axes. -/
structure Plan.Turned (σ : Equiv.Perm (Fin d)) (P P' : Plan d) : Prop where
  nb : P'.nb = P.nb
  maxVel : P'.maxVel = P.maxVel
  dt : P'.dt = P.dt
  ratio : P'.ratio = P.ratio
  accZ : P'.accZ = P.accZ
  freq : P'.freq = P.freq
  nt : P'.nt = P.nt
  interval : P'.interval = P.interval
  ff : P'.ff = P.ff
  tf : P'.tf = P.tf
  dx : ∀ k, P'.dx k = P.dx (σ k)
  w0 : ∀ k, P'.w0 k = P.w0 (σ k)
  w1 : ∀ k, P'.w1 k = P.w1 (σ k)
  ext : ∀ k, P'.ext k = P.ext (σ k)

/-- The plan for the axes in the new order. -/
noncomputable def Plan.axes (σ : Equiv.Perm (Fin d)) (A : SetupArgs d) (P : Plan d) : Plan d :=
  let ext := fun k => P.ext (σ k)
  let wL := Setup.pairs σ P.wL 0
  { P with
    dxL := Setup.singles σ P.dxL 0
    wL := wL
    ext := ext
    models := (A.axes σ).models.map (modelOf ext (padList (d := d) (padBegin P.accZ wL) (padEnd A.staggered P.accZ wL)))
    srcs := (A.axes σ).srcs.map (idxOpt ext (padBegin P.accZ wL) (padEnd A.staggered P.accZ wL) P.nb)
    rcvs := (A.axes σ).rcvs.map (idxOpt ext (padBegin P.accZ wL) (padEnd A.staggered P.accZ wL) P.nb) }

theorem Plan.axes_turned {A : SetupArgs d} {P : Plan d} (h : A.Good P) : P.Turned σ (P.axes σ A) where
  nb := rfl
  maxVel := rfl
  dt := rfl
  ratio := rfl
  accZ := rfl
  freq := rfl
  nt := rfl
  interval := rfl
  ff := rfl
  tf := rfl
  dx := fun k => congrArg _ (singles_getD _ _ _ k)
  w0 := fun k => (pairs_getD _ _ _ k).1
  w1 := fun k => (pairs_getD _ _ _ k).2
  ext := fun _ => rfl

theorem fdEnd_nonneg (st : Bool) (acc : Acc) : 0 ≤ fdEnd st acc := by
  cases st <;> cases acc <;> decide

theorem good_axes {A : SetupArgs d} {P : Plan d} (h : A.Good P) (hnb : 0 < P.nb)
    (hw : ∀ l, some l ∈ A.srcs ++ A.rcvs → ∀ s < P.nb, WholeIgnored d l s) : (A.axes σ).Good (P.axes σ A) := by
  obtain ⟨hext, hin⟩ := h.in_extents
  have hd : 0 < d := Nat.pos_of_ne_zero h.shape_pos.1
  have hL : ∀ l, some l ∈ A.srcs ++ A.rcvs →
      LocGood A.eps P.ext (padBegin P.accZ P.wL) (padEnd A.staggered P.accZ P.wL) P.nb l := fun l hl => by
    rcases List.mem_append.1 hl with h1 | h1
    · exact (extractLocations_iff.1 h.srcs).1 l h1
    · exact (extractLocations_iff.1 h.rcvs).1 l h1
  have b0 : ∀ k, 0 ≤ padBegin (d := d) P.accZ P.wL k := fun k => add_nonneg (by positivity) (h.widths k).1
  have b1 : ∀ k, 0 ≤ padEnd (d := d) A.staggered P.accZ P.wL k := fun k => add_nonneg (fdEnd_nonneg _ _) (h.widths k).2
  have e0 : ∀ k, padBegin (d := d) P.accZ (pairs σ P.wL 0) k = padBegin P.accZ P.wL (σ k) := fun k => by
    unfold padBegin
    rw [(pairs_getD _ _ _ k).1]
  have e1 : ∀ k, padEnd (d := d) A.staggered P.accZ (pairs σ P.wL 0) k = padEnd A.staggered P.accZ P.wL (σ k) := fun k => by
    unfold padEnd
    rw [(pairs_getD _ _ _ k).2]
  have hL' : ∀ l, some l ∈ A.srcs ++ A.rcvs → LocGood A.eps (fun k => P.ext (σ k)) (padBegin P.accZ (pairs σ P.wL 0))
      (padEnd A.staggered P.accZ (pairs σ P.wL 0)) P.nb (l.axes σ) := fun l hl =>
    (hL l hl).axes hd (fun k => (hext k).1) b0 b1 (fun k => e0 k ▸ b0 _) (fun k => e1 k ▸ b1 _) (hin l hl) (hw l hl)
  have hshape : (A.axes σ).shape = fun k => A.shape (σ k) := by
    unfold SetupArgs.shape SetupArgs.axes
    cases hm : A.models with
    | nil => simp
    | cons m l => simp [ModelT.axes]
  exact
  { nb := by
      have hb := h.nb
      show getNBatch (A.srcs.map _) (A.wfs.map _) = .ok P.nb
      unfold getNBatch at hb ⊢
      rw [List.filterMap_map, List.filterMap_map]
      have i1 : (Option.map LocT.nb ∘ Option.map (LocT.axes σ)) = Option.map LocT.nb := by
        funext o; cases o <;> rfl
      have i2 : (Option.map WfT.nb ∘ Option.map (WfT.axes σ)) = Option.map WfT.nb := by
        funext o; cases o <;> rfl
      rw [i1, i2]
      exact hb
    dx := setGridSpacing_axes h.dx
    maxVel := h.maxVel
    cfl := by
      have hlen := ((C35_grid_spacing _ _ _).1 h.dx).1.1
      show cflConditionN ((singles σ P.dxL 0).map _) A.dt P.maxVel = _
      rw [cfl_perm ((singles_perm hlen 0).map _)]
      exact h.cfl
    acc := h.acc
    width := setPmlWidth_axes h.width
    freq := h.freq
    nt := h.nt
    interval := h.interval
    ff := h.ff
    tf := h.tf
    ampsMatch := by
      have := h.ampsMatch
      show checkAmpsMatch _ ((A.srcs.map (Option.map (LocT.axes σ))).map (Option.map LocT.n)) = _
      rw [List.map_map]
      have i1 : (Option.map LocT.n ∘ Option.map (LocT.axes σ)) = Option.map LocT.n := by
        funext o; cases o <;> rfl
      rw [i1]
      exact this
    amps := h.amps
    ext := by
      have := surveyExtents_axes (σ := σ) (fun l hl => (hL l hl).nd) h.ext
      have j0 : (P.axes σ A).w0 = fun k => P.w0 (σ k) := funext (Plan.axes_turned h).w0
      have j1 : (P.axes σ A).w1 = fun k => P.w1 (σ k) := funext (Plan.axes_turned h).w1
      rw [j0, j1, hshape]
      rw [List.map_append, List.map_map] at this
      show surveyExtents _ _ ((A.wfs.map (Option.map (WfT.axes σ))).map (Option.map WfT.shape)) _ _ _ _ = _
      rw [List.map_map]
      have i2 : (Option.map WfT.shape ∘ Option.map (WfT.axes σ)) =
          ((Option.map fun (sh : Fin d → ℤ) k => sh (σ k)) ∘ Option.map WfT.shape) := by
        funext o; cases o <;> rfl
      rw [i2]
      exact this
    models := by
      refine (extractModels_iff hnb).2 ⟨fun m hm => ?_, rfl⟩
      obtain ⟨m, hm', rfl⟩ := List.mem_map.1 hm
      have := ((extractModels_iff hnb).1 h.models).1 m hm'
      refine ⟨?_, this.batch, fun hr k => this.box hr (σ k)⟩
      rw [hshape, ← this.shape]
      rfl
    srcs := by
      refine extractLocations_iff.2 ⟨fun l' hl' => ?_, rfl⟩
      obtain ⟨l, hl, rfl⟩ := axes_mem.1 hl'
      exact hL' l (List.mem_append_left _ hl)
    rcvs := by
      refine extractLocations_iff.2 ⟨fun l' hl' => ?_, rfl⟩
      obtain ⟨l, hl, rfl⟩ := axes_mem.1 hl'
      exact hL' l (List.mem_append_right _ hl)
    wfs := by
      have hp := prepareWavefields_ok.1 h.wfs
      refine prepareWavefields_ok.2 fun w hw => ?_
      obtain ⟨o, ho, e⟩ := List.mem_map.1 hw
      obtain ⟨w, rfl, rfl⟩ := Option.map_eq_some_iff.1 e
      obtain ⟨p1, p2⟩ := hp w ho
      refine ⟨p1, funext fun k => ?_⟩
      show w.shape (σ k) = _
      rw [(Plan.axes_turned h).w0, (Plan.axes_turned h).w1, p2]
      rfl }

/-! ### The order in the lists -/

theorem surveyExtents_listed {shape : Fin d → ℤ} {ls : List (Option LocT)} {wfs wfs' : List (Option (Fin d → ℤ))}
    (hw : ∀ w, some w ∈ wfs' ↔ some w ∈ wfs) {sp : SurveyPad} {origin : Option (List ℤ)} {w0 w1 : Fin d → ℤ}
    {ext : Fin d → ℤ × ℤ} (he : ∀ w, some w ∈ wfs → w = fun k => (ext k).2 - (ext k).1 + w0 k + w1 k)
    (h : surveyExtents shape ls wfs sp origin w0 w1 = .ok ext) : surveyExtents shape ls wfs' sp origin w0 w1 = .ok ext := by
  have hany : (wfs'.any Option.isSome = true) ↔ (wfs.any Option.isSome = true) := by
    rw [List.any_eq_true, List.any_eq_true]
    constructor
    · rintro ⟨x, h1, h2⟩
      obtain ⟨l, rfl⟩ := Option.isSome_iff_exists.1 h2
      exact ⟨_, (hw l).1 h1, rfl⟩
    · rintro ⟨x, h1, h2⟩
      obtain ⟨l, rfl⟩ := Option.isSome_iff_exists.1 h2
      exact ⟨_, (hw l).2 h1, rfl⟩
  by_cases hsp : sp = .none
  · subst hsp
    rw [surveyExtents_none] at h ⊢
    refine ⟨h.1, ?_⟩
    have h2 := h.2
    by_cases hx : wfs.any Option.isSome = true
    · rw [if_pos hx] at h2
      rw [if_pos (hany.2 hx)]
      obtain ⟨x, h3, h4⟩ := List.any_eq_true.1 hx
      obtain ⟨w, rfl⟩ := Option.isSome_iff_exists.1 h4
      exact ⟨extentsFromWavefields_again h2.1 ⟨w, (hw w).2 h3⟩ fun x hx => he x ((hw x).1 hx), h2.2⟩
    · rw [if_neg hx] at h2
      rw [if_neg fun h => hx (hany.1 h)]
      exact h2
  · rw [surveyExtents_pad hsp] at h ⊢
    refine ⟨h.1, h.2.1, h.2.2.1, ?_⟩
    have := h.2.2.2
    unfold checkExtentsMatchWavefields at this ⊢
    rw [firstErr_ok] at this ⊢
    intro x hx
    obtain ⟨o, ho, hx⟩ := List.mem_flatMap.1 hx
    cases o with
    | none => cases hx
    | some sh => exact this _ (List.mem_flatMap.2 ⟨_, (hw sh).1 ho, hx⟩)

/-- The call with its tensors in another order, sources together with their amplitudes. -/
theorem good_listed {A : SetupArgs d} {P : Plan d} (h : A.Good P) {amps : List (Option AmpT)}
    {srcs rcvs : List (Option LocT)} {wfs : List (Option (WfT d))} (ha : ∀ a, some a ∈ amps ↔ some a ∈ A.amps)
    (hs : ∀ l, some l ∈ srcs ↔ some l ∈ A.srcs) (hr : ∀ l, some l ∈ rcvs ↔ some l ∈ A.rcvs)
    (hw : ∀ w, some w ∈ wfs ↔ some w ∈ A.wfs)
    (hm : checkAmpsMatch (amps.map (Option.map AmpT.n)) (srcs.map (Option.map LocT.n)) = .ok ()) :
    ({ A with amps := amps, srcs := srcs, rcvs := rcvs, wfs := wfs } : SetupArgs d).Good (P.moved A.staggered srcs rcvs) := by
  have hL : ∀ l, some l ∈ srcs ++ rcvs →
      LocGood A.eps P.ext (padBegin P.accZ P.wL) (padEnd A.staggered P.accZ P.wL) P.nb l := fun l hl => by
    rcases List.mem_append.1 hl with h1 | h1
    · exact (extractLocations_iff.1 h.srcs).1 l ((hs l).1 h1)
    · exact (extractLocations_iff.1 h.rcvs).1 l ((hr l).1 h1)
  have hW := prepareWavefields_ok.1 h.wfs
  have hA := checkAmps_ok.1 h.amps
  exact
  { h with
    nb := by
      have hb := h.nb
      show getNBatch srcs wfs = .ok P.nb
      unfold getNBatch at hb ⊢
      have hall : ∀ n ∈ srcs.filterMap (Option.map LocT.nb) ++ wfs.filterMap (Option.map WfT.nb), n = P.nb := by
        intro n hn
        rcases List.mem_append.1 hn with hn | hn
        · obtain ⟨o, ho, e⟩ := List.mem_filterMap.1 hn
          obtain ⟨l, rfl, rfl⟩ := Option.map_eq_some_iff.1 e
          exact (hL l (List.mem_append_left _ ho)).batch
        · obtain ⟨o, ho, e⟩ := List.mem_filterMap.1 hn
          obtain ⟨w, rfl, rfl⟩ := Option.map_eq_some_iff.1 e
          exact (hW w ((hw w).1 ho)).1
      cases hc : srcs.filterMap (Option.map LocT.nb) ++ wfs.filterMap (Option.map WfT.nb) with
      | cons n ns => exact congrArg Except.ok (hall n (by rw [hc]; exact List.mem_cons_self))
      | nil =>
          exfalso
          have hnil : A.srcs.filterMap (Option.map LocT.nb) ++ A.wfs.filterMap (Option.map WfT.nb) = [] := by
            rw [List.append_eq_nil_iff] at hc ⊢
            constructor
            · refine List.eq_nil_iff_forall_not_mem.2 fun n hn => ?_
              obtain ⟨o, ho, e⟩ := List.mem_filterMap.1 hn
              obtain ⟨l, rfl, rfl⟩ := Option.map_eq_some_iff.1 e
              exact List.eq_nil_iff_forall_not_mem.1 hc.1 _ (List.mem_filterMap.2 ⟨_, (hs l).2 ho, rfl⟩)
            · refine List.eq_nil_iff_forall_not_mem.2 fun n hn => ?_
              obtain ⟨o, ho, e⟩ := List.mem_filterMap.1 hn
              obtain ⟨w, rfl, rfl⟩ := Option.map_eq_some_iff.1 e
              exact List.eq_nil_iff_forall_not_mem.1 hc.2 _ (List.mem_filterMap.2 ⟨_, (hw w).2 ho, rfl⟩)
          rw [hnil] at hb
          cases hb
    nt := by
      have hn := h.nt
      show setNt A.nt (amps.map (Option.map AmpT.nt)) P.ratio = .ok P.nt
      unfold setNt at hn ⊢
      have hhead : ((amps.map (Option.map AmpT.nt)).filterMap id).head? =
          ((A.amps.map (Option.map AmpT.nt)).filterMap id).head? ∨ P.ratio < 1 := by
        by_cases hr1 : P.ratio < 1
        · exact .inr hr1
        left
        rw [filterMap_map_id, filterMap_map_id]
        have mem : ∀ {l : List (Option AmpT)} {a : AmpT}, a ∈ l.filterMap id ↔ some a ∈ l := by
          intro l a
          simp
        have hval : ∀ a, some a ∈ A.amps → (a.nt : ℤ) * P.ratio = P.nt := fun a ha => (hA a ha).2.1
        cases h1 : amps.filterMap id with
        | nil =>
            cases h2 : A.amps.filterMap id with
            | nil => rfl
            | cons b l =>
                have : b ∈ A.amps.filterMap id := by rw [h2]; exact List.mem_cons_self
                have : b ∈ amps.filterMap id := mem.2 ((ha b).2 (mem.1 this))
                rw [h1] at this
                cases this
        | cons a l =>
            have ha1 : some a ∈ A.amps := (ha a).1 (mem.1 (by rw [h1]; exact List.mem_cons_self))
            cases h2 : A.amps.filterMap id with
            | nil =>
                have := mem.2 ha1
                rw [h2] at this
                cases this
            | cons b l =>
                have hb1 : some b ∈ A.amps := mem.1 (by rw [h2]; exact List.mem_cons_self)
                have e := (hval a ha1).trans (hval b hb1).symm
                have : (a.nt : ℤ) = b.nt := mul_right_cancel₀ (by omega) e
                simp only [List.map_cons, List.head?_cons, Option.some.injEq]
                exact_mod_cast this
      rcases hhead with e | hr1
      · rw [e]
        exact hn
      · exfalso
        generalize ((A.amps.map (Option.map AmpT.nt)).filterMap id).head? = sa at hn
        cases hA : A.nt with
        | none => simp [hA, hr1] at hn
        | some x => cases x <;> simp [hA, hr1] at hn
    ampsMatch := hm
    amps := checkAmps_ok.2 fun a hx => hA a ((ha a).1 hx)
    ext := by
      have h1 : surveyExtents A.shape (srcs ++ rcvs) (A.wfs.map (Option.map WfT.shape)) A.surveyPad A.origin P.w0 P.w1 =
          .ok P.ext := by
        refine surveyExtents_set (fun l => ?_) h.ext
        rw [List.mem_append, List.mem_append, hs, hr]
      have memw : ∀ {l : List (Option (WfT d))} {x : Fin d → ℤ}, some x ∈ l.map (Option.map WfT.shape) ↔
          ∃ w, some w ∈ l ∧ x = w.shape := by
        intro l x
        constructor
        · intro h
          obtain ⟨o, ho, e⟩ := List.mem_map.1 h
          obtain ⟨w, rfl, rfl⟩ := Option.map_eq_some_iff.1 e
          exact ⟨w, ho, rfl⟩
        · rintro ⟨w, hw, rfl⟩
          exact List.mem_map.2 ⟨_, hw, rfl⟩
      refine surveyExtents_listed (fun x => ?_) (fun x hx => ?_) h1
      · rw [memw, memw]
        simp only [hw]
      · obtain ⟨w, hw, rfl⟩ := memw.1 hx
        exact (hW w hw).2
    srcs := extractLocations_iff.2 ⟨fun l hx => hL l (List.mem_append_left _ hx), rfl⟩
    rcvs := extractLocations_iff.2 ⟨fun l hx => hL l (List.mem_append_right _ hx), rfl⟩
    wfs := prepareWavefields_ok.2 fun w hx => hW w ((hw w).1 hx) }

end Dw.Setup
