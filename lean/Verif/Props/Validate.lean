import Mathlib.Tactic.NormNum
import Verif.Setup.Validate
import Verif.Setup.SurveyLemmas

/-!
# Argument validation accepts exactly the documented inputs
-/

namespace Dw.Setup

/-- The object is a number with this value. -/
def PyNum.Is (x : PyNum) (q : ℚ) : Prop := x.toFloat = some q

theorem PyNum.toInt_iff {x : PyNum} {z : ℤ} : x.toInt = some z ↔ x.Is z := by
  unfold PyNum.toInt PyNum.Is
  cases h : x.toFloat with
  | none => simp
  | some q =>
      simp only [ne_eq, Option.some.injEq]
      constructor
      · intro h1
        split_ifs at h1 with h2
        simp only [Option.some.injEq] at h1
        rw [← h1]; exact h2
      · rintro rfl
        rw [if_neg (by rw [trunc_int]; simp), trunc_int]

theorem allSome_iff {α : Type*} : ∀ {l : List (Option α)} {r : List α},
    allSome l = some r ↔ l = r.map some
  | [], r => by cases r <;> simp [allSome]
  | none :: l, r => by cases r <;> simp [allSome]
  | some a :: l, r => by
      cases r with
      | nil => simp [allSome]
      | cons b r =>
          simp only [allSome, Option.map_eq_some_iff, List.cons.injEq, List.map_cons,
            Option.some.injEq]
          constructor
          · rintro ⟨r', h, rfl, rfl⟩
            exact ⟨rfl, allSome_iff.1 h⟩
          · rintro ⟨rfl, h⟩
            exact ⟨r, allSome_iff.2 h, rfl, rfl⟩

/-- The values of an argument expanded to `m` entries. -/
def PyArg.Expands (g : PyArg) (m : ℕ) (l : List ℚ) : Prop :=
  l.length = m ∧ match g with
    | .one x => ∃ q, x.Is q ∧ l = List.replicate m q
    | .seq xs => xs.map PyNum.toFloat = l.map some

/-- **C35** `grid_spacing` is accepted exactly if it is a number or a sequence of one number per
dimension, all (used) positive; the result is one value per dimension. -/
theorem C35_grid_spacing (g : PyArg) (d : ℕ) (l : List ℚ) :
    setGridSpacing g d = .ok l ↔ g.Expands d l ∧ ∀ q ∈ l, 0 < q := by
  have fin : ∀ l' : List ℚ, ((if l'.any (· ≤ 0) then Except.error PyErr.valueError
      else if l'.length ≠ d then .error .runtimeError else .ok l') = (.ok l : Except PyErr (List ℚ))) ↔
      l' = l ∧ l.length = d ∧ ∀ q ∈ l, 0 < q := by
    intro l'
    by_cases h1 : l'.any (· ≤ 0)
    · rw [if_pos h1]
      simp only [reduceCtorEq, false_iff]
      rintro ⟨rfl, -, h⟩
      obtain ⟨q, hq, hle⟩ := List.any_eq_true.1 h1
      exact absurd (h q hq) (not_lt.2 (by simpa using hle))
    · rw [if_neg h1]
      by_cases h2 : l'.length = d
      · rw [if_neg (by simpa using h2)]
        simp only [Except.ok.injEq]
        constructor
        · rintro rfl
          exact ⟨rfl, h2, fun q hq => by
            by_contra hlt
            exact h1 (List.any_eq_true.2 ⟨q, hq, by simpa using hlt⟩)⟩
        · exact fun h => h.1
      · rw [if_pos h2]
        simp only [reduceCtorEq, false_iff]
        rintro ⟨rfl, h, -⟩
        exact h2 h
  unfold setGridSpacing PyArg.Expands PyNum.Is
  cases g with
  | one x =>
      cases hx : x.toFloat with
      | none => simp [hx]
      | some q =>
          simp only [hx, Option.map_some, fin, Option.some.injEq, exists_eq_left']
          constructor
          · rintro ⟨rfl, h1, h2⟩; exact ⟨⟨h1, rfl⟩, h2⟩
          · rintro ⟨⟨h1, rfl⟩, h2⟩; exact ⟨rfl, h1, h2⟩
  | seq xs =>
      cases hx : allSome (xs.map PyNum.toFloat) with
      | none =>
          simp only [reduceCtorEq, hx, false_iff]
          rintro ⟨⟨-, h⟩, -⟩
          rw [allSome_iff.2 h] at hx
          cases hx
      | some l' =>
          simp only [hx, fin]
          have := allSome_iff.1 hx
          constructor
          · rintro ⟨rfl, h1, h2⟩; exact ⟨⟨h1, this⟩, h2⟩
          · rintro ⟨⟨h1, h3⟩, h2⟩
            rw [h3] at this
            exact ⟨(List.map_injective_iff.2 (Option.some_injective _) this).symm, h1, h2⟩

/-- **C35** `pml_width` is accepted exactly if it is an integer or a sequence of two integers per
dimension, all (used) non-negative. -/
theorem C35_pml_width (w : PyArg) (d : ℕ) (l : List ℤ) :
    setPmlWidth w d = .ok l ↔ w.Expands (2 * d) (l.map (↑)) ∧ (∀ z ∈ l, 0 ≤ z) ∧
      (∀ x, w = .one x → ∃ z : ℤ, x.Is z) := by
  have fin : ∀ l' : List ℤ, ((if l'.any (· < 0) then Except.error PyErr.valueError
      else if l'.length ≠ 2 * d then .error .runtimeError else .ok l') =
        (.ok l : Except PyErr (List ℤ))) ↔ l' = l ∧ l.length = 2 * d ∧ ∀ q ∈ l, 0 ≤ q := by
    intro l'
    by_cases h1 : l'.any (· < 0)
    · rw [if_pos h1]
      simp only [reduceCtorEq, false_iff]
      rintro ⟨rfl, -, h⟩
      obtain ⟨q, hq, hle⟩ := List.any_eq_true.1 h1
      exact absurd (h q hq) (not_le.2 (by simpa using hle))
    · rw [if_neg h1]
      by_cases h2 : l'.length = 2 * d
      · rw [if_neg (by simpa using h2)]
        simp only [Except.ok.injEq]
        constructor
        · rintro rfl
          exact ⟨rfl, h2, fun q hq => by
            by_contra hlt
            exact h1 (List.any_eq_true.2 ⟨q, hq, by simpa using hlt⟩)⟩
        · exact fun h => h.1
      · rw [if_pos h2]
        simp only [reduceCtorEq, false_iff]
        rintro ⟨rfl, h, -⟩
        exact h2 h
  unfold setPmlWidth PyArg.Expands
  cases w with
  | one x =>
      cases hx : x.toInt with
      | none =>
          simp only [hx, Option.map_none, reduceCtorEq, false_iff]
          rintro ⟨-, -, h⟩
          obtain ⟨z, hz⟩ := h x rfl
          rw [PyNum.toInt_iff.2 hz] at hx
          cases hx
      | some z =>
          have hz := PyNum.toInt_iff.1 hx
          simp only [hx, Option.map_some, fin, List.length_map]
          constructor
          · rintro ⟨rfl, h1, h2⟩
            refine ⟨⟨h1, z, hz, by simp⟩, h2, ?_⟩
            rintro y ⟨⟩
            exact ⟨z, hz⟩
          · rintro ⟨⟨h1, q, hq, h3⟩, h2, -⟩
            refine ⟨?_, h1, h2⟩
            unfold PyNum.Is at hz hq
            rw [hz] at hq
            rw [← Option.some.inj hq, ← List.map_replicate] at h3
            exact (List.map_injective_iff.2 Int.cast_injective h3).symm
  | seq xs =>
      have key : ∀ (xs : List PyNum) (l' : List ℤ), xs.map PyNum.toInt = l'.map some ↔
          xs.map PyNum.toFloat = (l'.map (↑) : List ℚ).map some := by
        intro xs
        induction xs with
        | nil => intro l'; cases l' <;> simp
        | cons x xs ih =>
            intro l'
            cases l' with
            | nil => simp
            | cons z l' =>
                simp only [List.map_cons, List.cons.injEq, ih]
                rw [PyNum.toInt_iff]; rfl
      have hone : ∀ x, PyArg.seq xs = .one x → ∃ z : ℤ, x.Is z := fun x h => by cases h
      cases hx : allSome (xs.map PyNum.toInt) with
      | none =>
          simp only [hx, reduceCtorEq, false_iff]
          rintro ⟨⟨-, h⟩, -⟩
          rw [allSome_iff.2 ((key xs l).2 h)] at hx
          cases hx
      | some l' =>
          simp only [hx, fin, List.length_map]
          have := allSome_iff.1 hx
          constructor
          · rintro ⟨rfl, h1, h2⟩; exact ⟨⟨h1, (key _ _).1 this⟩, h2, hone⟩
          · rintro ⟨⟨h1, h3⟩, h2, -⟩
            rw [(key _ _).2 h3] at this
            exact ⟨(List.map_injective_iff.2 (Option.some_injective _) this).symm, h1, h2⟩

/-- **C35** `accuracy` is accepted exactly if it is one of the integers 2, 4, 6, 8. -/
theorem C35_accuracy (a : PyNum) (z : ℤ) :
    setAccuracy a = .ok z ↔ a = .int z ∧ (z = 2 ∨ z = 4 ∨ z = 6 ∨ z = 8) := by
  cases a with
  | int y =>
      unfold setAccuracy
      simp only [PyNum.int.injEq]
      by_cases h : y ∈ [(2 : ℤ), 4, 6, 8]
      · rw [if_neg (not_not.2 h)]
        simp only [Except.ok.injEq]
        constructor
        · rintro rfl; exact ⟨rfl, by simpa using h⟩
        · exact fun h => h.1
      · rw [if_pos h]
        simp only [reduceCtorEq, false_iff]
        rintro ⟨rfl, h'⟩; exact h (by simpa using h')
  | float q => simp [setAccuracy]
  | other => simp [setAccuracy]

/-- **C35** `pml_freq`: a non-negative number, or 25 if it is `None`. -/
theorem C35_pml_freq (f : Option PyNum) (dt : PyNum) (r : ℚ) :
    setPmlFreq f dt = .ok r ↔
      (∃ q, dt = .float q ∧ q ≠ 0) ∧ 0 ≤ r ∧ (match f with | none => r = 25 | some x => x.Is r) := by
  unfold setPmlFreq PyNum.Is
  cases f with
  | none =>
      cases dt with
      | float q =>
          by_cases hq : q = 0
          · simp [hq]
          · simp only [hq, if_false, Option.getD_none, PyNum.float.injEq, exists_eq_left', ne_eq,
              not_false_eq_true, true_and]
            rw [if_neg (by norm_num)]
            simp only [Except.ok.injEq]
            constructor
            · rintro rfl; norm_num
            · exact fun h => h.2.symm
      | int z => simp
      | other => simp
  | some x =>
      cases hx : x.toFloat with
      | none => simp [hx]
      | some v =>
          simp only [hx]
          cases dt with
          | float q =>
              by_cases hq : q = 0
              · simp [hq]
              · simp only [hq, if_false, Option.getD_some, PyNum.float.injEq, exists_eq_left', ne_eq,
                  not_false_eq_true, true_and, Option.some.injEq]
                split_ifs with hv
                · simp only [false_iff]
                  rintro ⟨h0, rfl⟩
                  exact absurd hv (not_lt.2 h0)
                · simp only [Except.ok.injEq]
                  constructor
                  · rintro rfl; exact ⟨not_lt.1 hv, rfl⟩
                  · exact fun h => h.2
          | int z => simp
          | other => simp

/-- **C35** `max_vel`: the absolute value of a non-zero number, or the model's maximum if `None`. -/
theorem C35_max_vel (v : Option PyNum) (m : PyNum) (r : ℚ) :
    setMaxVel v m = .ok r ↔ ∃ mv, m.Is mv ∧
      (match v with | none => r = mv | some x => ∃ q, x.Is q ∧ q ≠ 0 ∧ r = |q|) := by
  unfold setMaxVel PyNum.Is
  cases v with
  | none =>
      cases hm : m.toFloat with
      | none => simp
      | some mv => simp [eq_comm]
  | some x =>
      cases hx : x.toFloat with
      | none => simp [hx]
      | some q =>
          cases hm : m.toFloat with
          | none => simp [hx]
          | some mv =>
              simp only [hx, Option.some.injEq, exists_eq_left', ne_eq]
              by_cases h : q = 0
              · simp [h]
              · rw [if_neg (by simpa using h)]
                simp [h, eq_comm]

/-- **C35**, **C34** `nt`: the number of internal steps is the step ratio times the number of samples
given by `nt` or the source amplitudes, which must agree if both are given. -/
theorem C35_nt (nt : Option PyNum) (amps : List (Option ℕ)) (ratio r : ℤ) :
    setNt nt amps ratio = .ok r ↔ 1 ≤ ratio ∧ ∃ n : ℕ, r = n * ratio ∧
      (nt = none ∨ nt = some (.int n)) ∧
      (match (amps.filterMap id).head? with | none => nt ≠ none | some a => a = n) := by
  unfold setNt
  rcases nt with _ | (z | q | _)
  · by_cases hr : ratio < 1
    · simp only [hr, if_true, reduceCtorEq, false_iff]
      omega
    · simp only [hr, if_false]
      cases h : (amps.filterMap id).head? with
      | none => simp
      | some a =>
          simp only [Except.ok.injEq]
          constructor
          · rintro rfl; exact ⟨by omega, a, rfl, .inl trivial, rfl⟩
          · rintro ⟨-, n, rfl, -, rfl⟩; rfl
  · by_cases hr : ratio < 1
    · simp only [hr, if_true, reduceCtorEq, false_iff]
      omega
    · simp only [hr, if_false]
      cases h : (amps.filterMap id).head? with
      | none =>
          simp only
          split_ifs with hz
          · simp only [false_iff]
            rintro ⟨-, n, -, h2, -⟩
            simp at h2
            omega
          · simp only [Except.ok.injEq]
            constructor
            · rintro rfl
              have e : ((z.toNat : ℕ) : ℤ) = z := Int.toNat_of_nonneg (by omega)
              exact ⟨by omega, z.toNat, by rw [e], .inr (by rw [e]), by simp⟩
            · rintro ⟨-, n, rfl, h2, -⟩
              simp at h2
              rw [h2]
      | some a =>
          simp only
          by_cases hza : z = a
          · subst hza
            simp only [ne_eq, not_true_eq_false, if_false]
            rw [if_neg (by omega)]
            simp only [Except.ok.injEq]
            constructor
            · rintro rfl; exact ⟨by omega, a, rfl, .inr rfl, rfl⟩
            · rintro ⟨-, n, rfl, -, rfl⟩; rfl
          · rw [if_pos (by simpa using hza)]
            simp only [reduceCtorEq, false_iff]
            rintro ⟨-, n, -, h2, rfl⟩
            simp at h2
            exact hza h2
  · simp
  · simp

/-- **C35** `model_gradient_sampling_interval`: any non-negative integer, including 0. -/
theorem C35_interval (x : PyNum) (z : ℤ) : setInterval x = .ok z ↔ x = .int z ∧ 0 ≤ z := by
  cases x with
  | int y =>
      unfold setInterval
      simp only [PyNum.int.injEq]
      split_ifs with h
      · simp only [false_iff]; rintro ⟨rfl, h'⟩; omega
      · simp only [Except.ok.injEq]
        exact ⟨fun e => ⟨e, by omega⟩, fun h => h.1⟩
  | float q => simp [setInterval]
  | other => simp [setInterval]

/-- **C35** Taper and padding fractions: a number in `[0, 1]`. -/
theorem C35_fraction (x : PyNum) (q : ℚ) : setFrac x = .ok q ↔ x.Is q ∧ 0 ≤ q ∧ q ≤ 1 := by
  unfold setFrac PyNum.Is
  cases h : x.toFloat with
  | none => simp
  | some r =>
      simp only [Option.some.injEq]
      split_ifs with hr
      · simp only [Except.ok.injEq]
        constructor
        · rintro rfl; exact ⟨rfl, hr⟩
        · exact fun h => h.1
      · simp only [false_iff]
        rintro ⟨rfl, h'⟩; exact hr h'

/-- **C35** `callback_frequency`: a positive integer. -/
theorem C35_callback_frequency (x : PyNum) (z : ℤ) :
    checkCallbackFrequency x = .ok z ↔ x = .int z ∧ 0 < z := by
  cases x with
  | int y =>
      unfold checkCallbackFrequency
      simp only [PyNum.int.injEq]
      split_ifs with h
      · simp only [false_iff]; rintro ⟨rfl, h'⟩; omega
      · simp only [Except.ok.injEq]
        exact ⟨fun e => ⟨e, by omega⟩, fun h => h.1⟩
  | float q => simp [checkCallbackFrequency]
  | other => simp [checkCallbackFrequency]

/-- **C35** `survey_pad`: `None`, a non-negative integer, or two entries per dimension, each `None`
or a non-negative integer; `None` becomes `-1`. -/
theorem C35_survey_pad (sp : SurveyPad) (d : ℕ) (hd : 0 < d) (l : List ℤ) :
    setSurveyPad sp d = .ok l ↔ match sp with
      | .none => l = List.replicate (2 * d) (-1)
      | .int p => 0 ≤ p ∧ l = List.replicate (2 * d) p
      | .list ps => ps.length = 2 * d ∧ (∀ p, some p ∈ ps → 0 ≤ p) ∧ l = ps.map fun o => o.getD (-1) := by
  unfold setSurveyPad
  rw [if_neg (by omega)]
  cases sp with
  | none => simp [eq_comm]
  | int p =>
      simp only [List.length_replicate, ne_eq, not_true_eq_false, if_false]
      split_ifs with hp
      · simp only [false_iff]; omega
      · simp only [Except.ok.injEq]
        exact ⟨fun h => ⟨by omega, h.symm⟩, fun h => h.2.symm⟩
  | list ps =>
      simp only [List.length_map]
      have hneg : (ps.any isNeg) = true ↔
          ¬∀ p, some p ∈ ps → 0 ≤ p := by
        rw [List.any_eq_true]
        push Not
        constructor
        · rintro ⟨o, ho, h⟩
          cases o with
          | none => simp [isNeg] at h
          | some p => exact ⟨p, ho, by simpa [isNeg] using h⟩
        · rintro ⟨p, hp, h⟩
          exact ⟨some p, hp, by simpa [isNeg] using h⟩
      by_cases h1 : ∀ p, some p ∈ ps → 0 ≤ p
      · rw [if_neg (by rw [hneg]; exact not_not.2 h1)]
        by_cases h2 : ps.length = 2 * d
        · rw [if_neg (by simpa using h2)]
          simp only [Except.ok.injEq]
          exact ⟨fun h => ⟨h2, h1, h.symm⟩, fun h => h.2.2.symm⟩
        · rw [if_pos h2]
          simp only [reduceCtorEq, false_iff]
          exact fun h => h2 h.1
      · rw [if_pos (hneg.2 h1)]
        simp only [reduceCtorEq, false_iff]
        exact fun h => h1 h.2.1

/-- **C35** Amplitudes and locations must come in pairs of the same number of sources. -/
theorem C35_amplitudes_match (amps locs : List (Option ℕ)) :
    checkAmpsMatch amps locs = .ok () ↔ amps = locs := by
  unfold checkAmpsMatch
  by_cases h : amps.length = locs.length
  · rw [if_neg (by simpa using h), firstErr_ok]
    induction amps generalizing locs with
    | nil =>
        cases locs with
        | nil => simp
        | cons => simp at h
    | cons a amps ih =>
        cases locs with
        | nil => simp at h
        | cons l locs =>
            have := ih locs (by simpa using h)
            simp only [List.zip_cons_cons, List.map_cons, List.forall_mem_cons, List.cons.injEq]
            rw [this]
            refine and_congr ?_ Iff.rfl
            cases a <;> cases l <;> simp [raiseIf_ok]
  · rw [if_pos h]
    simp only [reduceCtorEq, false_iff]
    rintro rfl; exact h rfl

/-! ### Number of dimensions -/

theorem ndimLoop_iff : ∀ {l : List ℤ} {nd n : ℤ}, (∀ v ∈ l, 0 ≤ v) →
    (ndimLoop l nd = .ok n ↔ (l = [] ∧ n = nd) ∨
      (l ≠ [] ∧ (∀ v ∈ l, v = n) ∧ (0 ≤ nd → n = nd)))
  | [], nd, n, _ => by simp [ndimLoop, eq_comm]
  | v :: l, nd, n, h => by
      have hv := h v (by simp)
      have hl : ∀ w ∈ l, 0 ≤ w := fun w hw => h w (by simp [hw])
      rw [ndimLoop, ndimStep]
      simp only [reduceCtorEq, false_and, false_or, ne_eq, not_false_eq_true, true_and,
        List.forall_mem_cons]
      by_cases h0 : nd < 0
      · rw [if_pos h0]
        simp only
        rw [ndimLoop_iff hl]
        constructor
        · rintro (⟨rfl, rfl⟩ | ⟨_, h2, h3⟩)
          · exact ⟨⟨rfl, by simp⟩, by omega⟩
          · exact ⟨⟨(h3 hv).symm, h2⟩, by omega⟩
        · rintro ⟨⟨rfl, h2⟩, -⟩
          by_cases hl0 : l = []
          · exact .inl ⟨hl0, rfl⟩
          · exact .inr ⟨hl0, h2, fun _ => rfl⟩
      · rw [if_neg h0]
        by_cases h1 : nd = v
        · subst h1
          simp only [not_true_eq_false, if_false]
          rw [ndimLoop_iff hl]
          constructor
          · rintro (⟨rfl, rfl⟩ | ⟨_, h2, h3⟩)
            · exact ⟨⟨rfl, by simp⟩, fun _ => rfl⟩
            · exact ⟨⟨(h3 hv).symm, h2⟩, h3⟩
          · rintro ⟨⟨rfl, h2⟩, -⟩
            by_cases hl0 : l = []
            · exact .inl ⟨hl0, rfl⟩
            · exact .inr ⟨hl0, h2, fun _ => rfl⟩
        · rw [if_pos h1]
          simp only [reduceCtorEq, false_iff]
          rintro ⟨⟨rfl, -⟩, h3⟩
          exact h1 (h3 (by omega)).symm

theorem ndimFieldLoop_iff {dim : ℤ} : ∀ {l : List ℤ} {nd n : ℤ}, (∀ v ∈ l, 0 ≤ v) → 0 ≤ nd →
    (ndimFieldLoop dim l nd = .ok n ↔ n = nd ∧ (∀ v ∈ l, v = nd) ∧ (l ≠ [] → dim + 1 ≤ nd))
  | [], nd, n, _, _ => by simp [ndimFieldLoop, eq_comm]
  | v :: l, nd, n, h, h0 => by
      have hl : ∀ w ∈ l, 0 ≤ w := fun w hw => h w (by simp [hw])
      rw [ndimFieldLoop, if_neg (by omega)]
      by_cases h1 : nd = v
      · subst h1
        simp only [ne_eq, not_true_eq_false, if_false]
        by_cases h2 : dim + 1 > nd
        · rw [if_pos h2]
          simp only [reduceCtorEq, false_iff]
          rintro ⟨-, -, h⟩
          have := h (by simp)
          omega
        · rw [if_neg h2, ndimFieldLoop_iff hl h0]
          simp only [List.forall_mem_cons, true_and]
          constructor
          · rintro ⟨rfl, h3, -⟩; exact ⟨rfl, h3, fun _ => by omega⟩
          · rintro ⟨rfl, h3, -⟩; exact ⟨rfl, h3, fun _ => by omega⟩
      · rw [if_pos h1]
        simp only [reduceCtorEq, false_iff]
        rintro ⟨-, h2, -⟩
        exact h1 (h2 v (by simp)).symm

/-- **C45** If a wavefield or a location is given (and no tensor is zero-dimensional), `get_ndim`
returns `n` exactly if `n` is the dimension of every wavefield, location and memory variable, memory
variables are only given for existing dimensions, and every model has `n` dimensions or one more. -/
theorem C45_ndim_iff (A : NdimArgs) (hpos : ∀ v ∈ A.wavefields ++ A.locations ++ A.x ++ A.y ++ A.z, 0 ≤ v)
    (hne : A.wavefields ++ A.locations ≠ []) (n : ℤ) :
    getNdim A = .ok n ↔
      (∀ v ∈ A.wavefields ++ A.locations ++ A.x ++ A.y ++ A.z, v = n) ∧
      (A.x ≠ [] → 1 ≤ n) ∧ (A.y ≠ [] → 2 ≤ n) ∧ (A.z ≠ [] → 3 ≤ n) ∧
      (∀ m ∈ A.models, m = n ∨ m = n + 1) := by
  obtain ⟨wf, lo, x, y, z, mo⟩ := A
  simp only [List.mem_append] at hpos ⊢
  simp only at hne
  have hw : ∀ v ∈ wf, 0 ≤ v := fun v h => hpos v (by simp [h])
  have hlo : ∀ v ∈ lo, 0 ≤ v := fun v h => hpos v (by simp [h])
  have hx : ∀ v ∈ x, 0 ≤ v := fun v h => hpos v (by simp [h])
  have hy : ∀ v ∈ y, 0 ≤ v := fun v h => hpos v (by simp [h])
  have hz : ∀ v ∈ z, 0 ≤ v := fun v h => hpos v (by simp [h])
  -- the part that uses the memory variables and the models
  have rest : ∀ n0 : ℤ, 0 ≤ n0 →
      (getNdimRest ⟨wf, lo, x, y, z, mo⟩ n0 = .ok n ↔ n = n0 ∧ (∀ v ∈ x, v = n0) ∧ (∀ v ∈ y, v = n0) ∧ (∀ v ∈ z, v = n0) ∧
        (x ≠ [] → 1 ≤ n0) ∧ (y ≠ [] → 2 ≤ n0) ∧ (z ≠ [] → 3 ≤ n0) ∧
        (∀ m ∈ mo, m = n0 ∨ m = n0 + 1)) := by
    intro n0 h0
    unfold getNdimRest
    simp only
    cases h1 : ndimFieldLoop 0 x n0 with
    | error e =>
        simp only [reduceCtorEq, false_iff]
        rintro ⟨-, hx1, -, -, hx2, -⟩
        rw [(ndimFieldLoop_iff (n := n0) hx h0).2 ⟨rfl, hx1, fun h => by have := hx2 h; omega⟩] at h1
        cases h1
    | ok n1 =>
      obtain ⟨rfl, hx1, hx2⟩ := (ndimFieldLoop_iff hx h0).1 h1
      simp only
      cases h2 : ndimFieldLoop 1 y n1 with
      | error e =>
          simp only [reduceCtorEq, false_iff]
          rintro ⟨-, -, hy1, -, -, hy2, -⟩
          rw [(ndimFieldLoop_iff (n := n1) hy h0).2 ⟨rfl, hy1, fun h => by have := hy2 h; omega⟩] at h2
          cases h2
      | ok n2 =>
        obtain ⟨rfl, hy1, hy2⟩ := (ndimFieldLoop_iff hy h0).1 h2
        simp only
        cases h3 : ndimFieldLoop 2 z n2 with
        | error e =>
            simp only [reduceCtorEq, false_iff]
            rintro ⟨-, -, -, hz1, -, -, hz2, -⟩
            rw [(ndimFieldLoop_iff (n := n2) hz h0).2 ⟨rfl, hz1, fun h => by have := hz2 h; omega⟩] at h3
            cases h3
        | ok n3 =>
          obtain ⟨rfl, hz1, hz2⟩ := (ndimFieldLoop_iff hz h0).1 h3
          simp only
          have hm : (mo.any (fun m => m ≠ n3 ∧ m ≠ n3 + 1)) = true ↔ ¬∀ m ∈ mo, m = n3 ∨ m = n3 + 1 := by
            rw [List.any_eq_true]
            push Not
            simp
          by_cases hmo : ∀ m ∈ mo, m = n3 ∨ m = n3 + 1
          · rw [if_neg (by rw [hm]; exact not_not.2 hmo), if_neg (by omega)]
            simp only [Except.ok.injEq]
            constructor
            · rintro rfl
              exact ⟨rfl, hx1, hy1, hz1, fun h => by have := hx2 h; omega,
                fun h => by have := hy2 h; omega, fun h => by have := hz2 h; omega, hmo⟩
            · exact fun h => h.1.symm
          · rw [if_pos (hm.2 hmo)]
            simp only [reduceCtorEq, false_iff]
            exact fun h => hmo h.2.2.2.2.2.2.2
  unfold getNdim
  simp only
  cases h1 : ndimLoop wf (-1) with
  | error e =>
      simp only [reduceCtorEq, false_iff]
      rintro ⟨hall, -⟩
      have hr : ∀ v ∈ wf, v = n := fun v h => hall v (by simp [h])
      by_cases hw0 : wf = []
      · rw [hw0] at h1; cases h1
      · rw [(ndimLoop_iff (nd := -1) (n := n) hw).2 (.inr ⟨hw0, hr, by omega⟩)] at h1
        cases h1
  | ok n0 =>
    simp only
    have e1 := (ndimLoop_iff hw).1 h1
    cases h2 : ndimLoop lo n0 with
    | error e =>
        simp only [reduceCtorEq, false_iff]
        rintro ⟨hall, -⟩
        have hr : ∀ v ∈ lo, v = n := fun v h => hall v (by simp [h])
        by_cases hl0 : lo = []
        · rw [hl0] at h2; cases h2
        · rw [(ndimLoop_iff (n := n) hlo).2 (.inr ⟨hl0, hr, fun h0 => ?_⟩)] at h2
          · cases h2
          · rcases e1 with ⟨-, rfl⟩ | ⟨hw0, hw1, -⟩
            · omega
            · obtain ⟨v, hv⟩ := List.exists_mem_of_ne_nil _ hw0
              rw [← hw1 v hv]; exact (hall v (by simp [hv])).symm
    | ok n1 =>
      simp only
      have e2 := (ndimLoop_iff hlo).1 h2
      have key : 0 ≤ n1 ∧ ∀ v, v ∈ wf ∨ v ∈ lo → v = n1 := by
        rcases e2 with ⟨rfl, rfl⟩ | ⟨hl0, hl1, hl2⟩
        · have hw0 : wf ≠ [] := by simpa using hne
          obtain ⟨v, hv⟩ := List.exists_mem_of_ne_nil _ hw0
          rcases e1 with ⟨h, -⟩ | ⟨-, hw1, -⟩
          · exact absurd h hw0
          · refine ⟨by rw [← hw1 v hv]; exact hw v hv, fun w h => ?_⟩
            rcases h with h | h
            · exact hw1 w h
            · simp at h
        · obtain ⟨v, hv⟩ := List.exists_mem_of_ne_nil _ hl0
          have hn1 : 0 ≤ n1 := by rw [← hl1 v hv]; exact hlo v hv
          refine ⟨hn1, fun w h => ?_⟩
          rcases h with h | h
          · rcases e1 with ⟨rfl, -⟩ | ⟨-, hw1, -⟩
            · simp at h
            · have := hw1 w h
              rw [this]
              exact (hl2 (by rw [← this]; exact hw w h)).symm
          · exact hl1 w h
      rw [rest n1 key.1]
      constructor
      · rintro ⟨rfl, hx1, hy1, hz1, h⟩
        refine ⟨fun v hv => ?_, h⟩
        rcases hv with (((hv | hv) | hv) | hv) | hv
        · exact key.2 v (.inl hv)
        · exact key.2 v (.inr hv)
        · exact hx1 v hv
        · exact hy1 v hv
        · exact hz1 v hv
      · rintro ⟨hall, h⟩
        have hn : n = n1 := by
          obtain ⟨v, hv⟩ := List.exists_mem_of_ne_nil _ hne
          have hv' := List.mem_append.1 hv
          rw [← key.2 v hv']
          exact (hall v (by rcases hv' with h | h <;> simp [h])).symm
        subst hn
        exact ⟨rfl, fun v h => hall v (by simp [h]), fun v h => hall v (by simp [h]),
          fun v h => hall v (by simp [h]), h⟩

/-- The check that memory variables belong to an existing dimension is not made for the tensor that
determines the dimension: a single `y` field with one spatial dimension is taken for 1D. -/
theorem C45_unchecked_determining_field :
    getNdim { wavefields := [], locations := [], x := [], y := [1], z := [], models := [1] } = .ok 1 := by
  decide

example : getNdim { wavefields := [2], locations := [2, 2], x := [2], y := [2], z := [], models := [2, 3] } =
    .ok 2 := by decide

/-! ### Callback views -/

/-- **C20** The views of an array over a padded model (`e` cells per dimension in the survey extent,
PML of `w0`, `w1` cells, edge of `fd0`, `fd1` cells): `inner` has exactly the cells of the extent, at
position `p` the cell of the model position `p`; `pml` adds the PML, so that position `p` of `inner`
is position `p + w0` of `pml`; `full` is the array; anything else raises. -/
theorem C20_views {d : ℕ} {R : Type*} (fd0 fd1 w0 w1 e : Fin d → ℤ) (h0 : ∀ k, 0 ≤ fd0 k)
    (h1 : ∀ k, 0 ≤ fd1 k) (h2 : ∀ k, 0 ≤ w0 k) (h3 : ∀ k, 0 ≤ w1 k) (he : ∀ k, 0 ≤ e k)
    (u : (Fin d → ℤ) → R) (view : String) :
    let n := fun k => fd0 k + w0 k + e k + w1 k + fd1 k
    (view = "inner" → ∃ v, getView fd0 fd1 w0 w1 n view u = .ok (e, v) ∧
      ∀ p, v p = u fun k => p k + (fd0 k + w0 k)) ∧
    (view = "pml" → ∃ v, getView fd0 fd1 w0 w1 n view u = .ok (fun k => w0 k + e k + w1 k, v) ∧
      ∀ p, v p = u fun k => p k + fd0 k) ∧
    (view = "full" → getView fd0 fd1 w0 w1 n view u = .ok (n, u)) ∧
    (view ≠ "inner" → view ≠ "pml" → view ≠ "full" →
      getView fd0 fd1 w0 w1 n view u = .error .valueError) := by
  intro n
  refine ⟨?_, ?_, ?_, ?_⟩
  · rintro rfl
    refine ⟨fun c => u fun k => c k + (fd0 k + w0 k), ?_, fun p => rfl⟩
    unfold getView
    rw [if_neg (by decide), if_neg (by decide), if_pos rfl]
    refine congrArg Except.ok (Prod.ext (funext fun k => ?_) rfl)
    have := h0 k; have := h1 k; have := h2 k; have := h3 k; have := he k
    simp only [sliceLen, n]
    omega
  · rintro rfl
    refine ⟨fun c => u fun k => c k + fd0 k, ?_, fun p => rfl⟩
    unfold getView
    rw [if_neg (by decide), if_pos rfl]
    refine congrArg Except.ok (Prod.ext (funext fun k => ?_) rfl)
    have := h0 k; have := h1 k; have := h2 k; have := h3 k; have := he k
    simp only [sliceLen, n]
    omega
  · rintro rfl
    rfl
  · intro ha hb hc
    unfold getView
    rw [if_neg hc, if_neg hb, if_neg ha]

example : ∃ v, getView ![2] ![2] ![3] ![4] ![16] "inner" (fun c => c 0) = .ok (![5], v) ∧
    v ![0] = 5 :=
  ⟨_, by
    have := (C20_views ![2] ![2] ![3] ![4] ![5] (by decide) (by decide) (by decide) (by decide)
      (by decide) (fun c => c 0) "inner").1 rfl
    obtain ⟨v, h, hv⟩ := this
    rw [show ![(16 : ℤ)] = (fun k => ![2] k + ![3] k + ![5] k + ![4] k + ![2] k) by decide]
    rw [h, show v = fun p => p 0 + (2 + 3) from funext hv], by decide⟩

/-! ### Examples -/

example : setGridSpacing (.one (.float (5 / 2))) 2 = .ok [5 / 2, 5 / 2] := by decide +kernel
example : setPmlWidth (.seq [.int 20, .float 20, .int 0, .int 5]) 2 = .ok [20, 20, 0, 5] := by
  decide +kernel
example : setPmlFreq (some (.int 0)) (.float (1 / 1000)) = .ok 0 := by decide +kernel
example : setNt none [some 100] 3 = .ok 300 := by decide +kernel

end Dw.Setup
