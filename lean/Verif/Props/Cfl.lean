import Mathlib.Tactic.Positivity
import Mathlib.Tactic.FieldSimp
import Mathlib.Tactic.Linarith
import Mathlib.Tactic.NormNum
import Verif.Setup.Cfl

/-!
# The internal time step
-/

namespace Dw.Setup

theorem sum_pos_of_pos {dx : List ℝ} (hne : dx ≠ []) (hpos : ∀ g ∈ dx, 0 < g) :
    0 < (dx.map fun h => 1 / h ^ 2).sum := by
  cases dx with
  | nil => exact absurd rfl hne
  | cons a l =>
      have h1 : 0 < 1 / a ^ 2 := by
        have := hpos a (by simp)
        positivity
      have h2 : 0 ≤ (l.map fun h => 1 / h ^ 2).sum := by
        refine List.sum_nonneg fun x hx => ?_
        obtain ⟨g, -, rfl⟩ := List.mem_map.1 hx
        positivity
      simp only [List.map_cons, List.sum_cons]
      linarith

/-- The Courant number of a time step `h` at velocity `v`. -/
noncomputable def courant (dx : List ℝ) (h v : ℝ) : ℝ :=
  v * |h| * Real.sqrt (dx.map fun g => 1 / g ^ 2).sum

theorem maxDt_pos {dx : List ℝ} (hne : dx ≠ []) (hpos : ∀ g ∈ dx, 0 < g) {v eps cMax : ℝ} (hv : 0 < v)
    (he : 0 ≤ eps) (hc : 0 < cMax) : 0 < maxDt dx v eps cMax := by
  have := Real.sqrt_pos.2 (sum_pos_of_pos hne hpos)
  unfold maxDt
  positivity

theorem courant_le_iff {dx : List ℝ} (hne : dx ≠ []) (hpos : ∀ g ∈ dx, 0 < g) {v eps cMax : ℝ}
    (hv : 0 < v) (he : 0 ≤ eps) (h : ℝ) :
    |h| ≤ maxDt dx v eps cMax ↔ courant dx h v * (1 + eps / v ^ 2) ≤ cMax := by
  have hs := Real.sqrt_pos.2 (sum_pos_of_pos hne hpos)
  have hD : 0 < Real.sqrt (dx.map fun h => 1 / h ^ 2).sum * (v ^ 2 + eps) / v := by positivity
  have e1 : maxDt dx v eps cMax = cMax / (Real.sqrt (dx.map fun h => 1 / h ^ 2).sum * (v ^ 2 + eps) / v) := by
    unfold maxDt
    field_simp
  have e2 : courant dx h v * (1 + eps / v ^ 2) =
      |h| * (Real.sqrt (dx.map fun h => 1 / h ^ 2).sum * (v ^ 2 + eps) / v) := by
    unfold courant
    field_simp
  rw [e1, e2, le_div_iff₀ hD]

/-- **C13** For positive grid spacings and velocity and non-zero `dt`, the call succeeds; the
internal step divides `dt` into a positive whole number `r` of equal steps of the same sign; its
Courant number is at most 0.6; and `r` is the smallest number of steps for which the bound (with the
code's safety term `eps = 1e-15`) holds. -/
theorem C13_internal_time_step (dx : List ℝ) (hne : dx ≠ []) (hpos : ∀ g ∈ dx, 0 < g) (v : ℝ)
    (hv : 0 < v) (dt : ℝ) (hdt : dt ≠ 0) :
    ∃ h r, cflConditionN dx dt v = .ok (h, r) ∧ 1 ≤ r ∧ h * r = dt ∧ 0 < h * dt ∧
      courant dx h v ≤ 6 / 10 ∧
      ∀ k : ℕ, 0 < k →
        (courant dx (dt / k) v * (1 + 1e-15 / v ^ 2) ≤ 6 / 10 ↔ r ≤ k) := by
  have hM := maxDt_pos (eps := 1e-15) (cMax := 0.6) hne hpos hv (by norm_num) (by norm_num)
  have hdt' : 0 < |dt| := abs_pos.2 hdt
  have hr : 0 < ⌈|dt| / maxDt dx v 1e-15 0.6⌉ := Int.ceil_pos.2 (div_pos hdt' hM)
  have hmin : ∀ k : ℕ, 0 < k →
      (courant dx (dt / k) v * (1 + 1e-15 / v ^ 2) ≤ 6 / 10 ↔ ⌈|dt| / maxDt dx v 1e-15 0.6⌉ ≤ (k : ℤ)) := by
    intro k hk
    have hk' : (0 : ℝ) < k := by exact_mod_cast hk
    rw [show (6 : ℝ) / 10 = 0.6 by norm_num,
      ← courant_le_iff (cMax := 0.6) hne hpos hv (by norm_num : (0 : ℝ) ≤ 1e-15), Int.ceil_le,
      abs_div, abs_of_pos hk', div_le_iff₀ hk', div_le_iff₀ hM, mul_comm]
    norm_cast
  generalize hrr : ⌈|dt| / maxDt dx v 1e-15 0.6⌉ = r at *
  have hr' : (0 : ℝ) < r := by exact_mod_cast hr
  refine ⟨dt / r, r, ?_, hr, div_mul_cancel₀ _ hr'.ne', ?_, ?_, hmin⟩
  · unfold cflConditionN
    rw [if_neg hne, if_neg (by push Not; exact hpos), if_neg (not_le.2 hv), hrr, if_neg hr.ne']
  · rw [div_mul_eq_mul_div]
    exact div_pos (mul_self_pos.2 hdt) hr'
  · have h1 : courant dx (dt / r.toNat) v * (1 + 1e-15 / v ^ 2) ≤ 6 / 10 :=
      (hmin r.toNat (by omega)).2 (by omega)
    have e : ((r.toNat : ℕ) : ℝ) = r := by
      have : ((r.toNat : ℕ) : ℤ) = r := Int.toNat_of_nonneg hr.le
      exact_mod_cast this
    rw [e] at h1
    refine le_trans ?_ h1
    have hc : 0 ≤ courant dx (dt / r) v := by unfold courant; positivity
    have : (1 : ℝ) ≤ 1 + 1e-15 / v ^ 2 := by
      have : (0 : ℝ) ≤ 1e-15 / v ^ 2 := by positivity
      linarith
    nlinarith

/-- **C13** Everything else is rejected: empty or non-positive grid spacing, non-positive velocity,
and `dt = 0`. -/
theorem C13_rejects (dx : List ℝ) (v dt : ℝ)
    (h : dx = [] ∨ (∃ g ∈ dx, g ≤ 0) ∨ v ≤ 0 ∨ dt = 0) :
    ∃ e, cflConditionN dx dt v = .error e := by
  by_cases h1 : dx = []
  · exact ⟨.valueError, by simp [cflConditionN, h1]⟩
  by_cases h2 : ∃ g ∈ dx, g ≤ 0
  · exact ⟨.valueError, by rw [cflConditionN, if_neg h1, if_pos h2]⟩
  by_cases h3 : v ≤ 0
  · exact ⟨.runtimeError, by rw [cflConditionN, if_neg h1, if_neg h2, if_pos h3]⟩
  obtain rfl : dt = 0 := ((h.resolve_left h1).resolve_left h2).resolve_left h3
  exact ⟨.zeroDivision, by rw [cflConditionN, if_neg h1, if_neg h2, if_neg h3]; simp⟩

/-- A 2D case in which the time step has to be split. -/
example : ∃ h r, cflCondition 5 5 (4 / 1000) 1500 = .ok (h, r) ∧ 2 ≤ r ∧
    courant [5, 5] h 1500 ≤ 6 / 10 := by
  obtain ⟨h, r, h1, h2, -, -, h3, h4⟩ := C13_internal_time_step [5, 5] (by simp) (by simp) 1500
    (by norm_num) (4 / 1000) (by norm_num)
  refine ⟨h, r, h1, ?_, h3⟩
  by_contra hlt
  have h5 := (h4 1 one_pos).2 (by push_cast; omega)
  have h6 : (1 : ℝ) / 4 ≤ Real.sqrt (([5, 5] : List ℝ).map fun g => 1 / g ^ 2).sum :=
    Real.le_sqrt_of_sq_le (by norm_num)
  simp only [courant, Nat.cast_one, div_one] at h5
  rw [abs_of_pos (by norm_num : (0 : ℝ) < 4 / 1000)] at h5
  have : (1 : ℝ) ≤ 1 + 1e-15 / 1500 ^ 2 := by norm_num
  nlinarith

end Dw.Setup
