import Mathlib.Tactic.FieldSimp
import Mathlib.Tactic.Positivity
import Mathlib.Tactic.Linarith
import Mathlib.Tactic.Ring
import Mathlib.Tactic.NormNum
import Mathlib.Tactic.LinearCombination
import Mathlib.Analysis.SpecialFunctions.Exp
import Verif.Setup.Convert

/-!
# Parameter conversions are inverse to each other; shape of the Ricker wavelet
-/

namespace Dw.Setup

/-- **C37** Velocities and density are recovered exactly with `eps = 0`. -/
theorem C37_round_trip (vp vs rho : ℝ) (hp : 0 ≤ vp) (hs : 0 ≤ vs) (hr : rho ≠ 0) :
    let l := toLamb vp vs rho 0
    fromLamb l.1 l.2.1 l.2.2 0 = (vp, vs, rho) := by
  simp only [toLamb, fromLamb]
  have e1 : vs ^ 2 * rho * (1 / (rho ^ 2 + 0) * rho) = vs ^ 2 := by field_simp; ring
  have e2 : (vp ^ 2 - 2 * vs ^ 2) * rho * (1 / (rho ^ 2 + 0) * rho) = vp ^ 2 - 2 * vs ^ 2 := by
    field_simp; ring
  rw [e1, e2, Real.sqrt_sq hs, sub_add_cancel, Real.sqrt_sq hp]
  congr 2
  field_simp
  ring

/-- **C37** Lamé parameters and buoyancy are recovered exactly with `eps = 0` wherever they come from
real velocities. -/
theorem C37_round_trip_lame (lamb mu b : ℝ) (hmu : 0 ≤ mu) (hl : 0 ≤ lamb + 2 * mu) (hb : 0 < b) :
    let v := fromLamb lamb mu b 0
    toLamb v.1 v.2.1 v.2.2 0 = (lamb, mu, b) := by
  simp only [toLamb, fromLamb]
  have h1 : 0 ≤ mu * b := by positivity
  have h2 : 0 ≤ lamb * b + 2 * (mu * b) := by nlinarith
  rw [Real.sq_sqrt h1, Real.sq_sqrt h2]
  refine Prod.ext ?_ (Prod.ext ?_ ?_)
  · simp only; field_simp; ring
  · simp only; field_simp; ring
  · simp only; field_simp; ring

/-- **C37** With `eps ≥ 0` (the default is `1e-15`), the velocities are multiplied by
`√(rho² / (rho² + eps))` and the density by a factor that differs from 1 by at most
`eps (1 + (rho² + eps)²) / rho²`. -/
theorem C37_round_trip_eps (vp vs rho eps : ℝ) (hp : 0 ≤ vp) (hs : 0 ≤ vs) (hr : 0 < rho)
    (he : 0 ≤ eps) :
    let l := toLamb vp vs rho eps
    let v := fromLamb l.1 l.2.1 l.2.2 eps
    v.1 = vp * √(rho ^ 2 / (rho ^ 2 + eps)) ∧ v.2.1 = vs * √(rho ^ 2 / (rho ^ 2 + eps)) ∧
    |v.2.2 - rho| ≤ rho * (eps * (1 + (rho ^ 2 + eps) ^ 2) / rho ^ 2) ∧
    |v.1 - vp| ≤ vp * (eps / rho ^ 2) ∧ |v.2.1 - vs| ≤ vs * (eps / rho ^ 2) := by
  intro l v
  have hs0 : 0 < rho ^ 2 + eps := by positivity
  have e1 : vs ^ 2 * rho * (1 / (rho ^ 2 + eps) * rho) = vs ^ 2 * (rho ^ 2 / (rho ^ 2 + eps)) := by
    field_simp
  have e2 : (vp ^ 2 - 2 * vs ^ 2) * rho * (1 / (rho ^ 2 + eps) * rho) =
      (vp ^ 2 - 2 * vs ^ 2) * (rho ^ 2 / (rho ^ 2 + eps)) := by
    field_simp
  have hq : 0 ≤ rho ^ 2 / (rho ^ 2 + eps) := by positivity
  have hq1 : rho ^ 2 / (rho ^ 2 + eps) ≤ 1 := by rw [div_le_one hs0]; linarith
  have hv2 : v.2.1 = vs * √(rho ^ 2 / (rho ^ 2 + eps)) := by
    simp only [v, l, toLamb, fromLamb, e1]
    rw [Real.sqrt_mul (sq_nonneg _), Real.sqrt_sq hs]
  have hv1 : v.1 = vp * √(rho ^ 2 / (rho ^ 2 + eps)) := by
    simp only [v, l, toLamb, fromLamb, e1, e2]
    rw [Real.sq_sqrt (by positivity)]
    have : (vp ^ 2 - 2 * vs ^ 2) * (rho ^ 2 / (rho ^ 2 + eps)) +
        2 * (vs ^ 2 * (rho ^ 2 / (rho ^ 2 + eps))) = vp ^ 2 * (rho ^ 2 / (rho ^ 2 + eps)) := by ring
    rw [this, Real.sqrt_mul (sq_nonneg _), Real.sqrt_sq hp]
  have hfac : |√(rho ^ 2 / (rho ^ 2 + eps)) - 1| ≤ eps / rho ^ 2 := by
    have h1 : √(rho ^ 2 / (rho ^ 2 + eps)) ≤ 1 := Real.sqrt_le_one.2 hq1
    have h2 : rho ^ 2 / (rho ^ 2 + eps) ≤ √(rho ^ 2 / (rho ^ 2 + eps)) := by
      have h3 := Real.sq_sqrt hq
      have h4 := Real.sqrt_nonneg (rho ^ 2 / (rho ^ 2 + eps))
      nlinarith
    rw [abs_of_nonpos (by linarith)]
    have h5 : 1 - rho ^ 2 / (rho ^ 2 + eps) ≤ eps / rho ^ 2 := by
      have : 1 - rho ^ 2 / (rho ^ 2 + eps) = eps / (rho ^ 2 + eps) := by field_simp; ring
      rw [this]
      exact div_le_div_of_nonneg_left he (by positivity) (by linarith)
    linarith
  refine ⟨hv1, hv2, ?_, ?_, ?_⟩
  · have hD : 0 < rho ^ 2 + eps * (rho ^ 2 + eps) ^ 2 := by positivity
    have e3 : v.2.2 - rho = rho * (eps * (1 - (rho ^ 2 + eps) ^ 2) / (rho ^ 2 + eps * (rho ^ 2 + eps) ^ 2)) := by
      simp only [v, l, toLamb, fromLamb]
      have hb : (1 / (rho ^ 2 + eps) * rho) ^ 2 + eps =
          (rho ^ 2 + eps * (rho ^ 2 + eps) ^ 2) / (rho ^ 2 + eps) ^ 2 := by
        field_simp
      rw [hb]
      field_simp
      ring
    rw [e3, abs_mul, abs_of_pos hr]
    refine mul_le_mul_of_nonneg_left ?_ hr.le
    rw [abs_div, abs_of_pos hD]
    refine div_le_div₀ (by positivity) ?_ (by positivity) ?_
    · rw [abs_mul, abs_of_nonneg he]
      refine mul_le_mul_of_nonneg_left ?_ he
      rw [abs_le]
      constructor <;> nlinarith [sq_nonneg (rho ^ 2 + eps)]
    · nlinarith [mul_nonneg he (sq_nonneg (rho ^ 2 + eps))]
  · rw [hv1, ← mul_sub_one, abs_mul, abs_of_nonneg hp]
    exact mul_le_mul_of_nonneg_left hfac hp
  · rw [hv2, ← mul_sub_one, abs_mul, abs_of_nonneg hs]
    exact mul_le_mul_of_nonneg_left hfac hs

example : toLamb 1500 800 2200 0 = ((1500 ^ 2 - 2 * 800 ^ 2) * 2200, 800 ^ 2 * 2200, 1 / 2200) := by
  simp only [toLamb]; norm_num

/-- `(1 - 2 x) exp (-x)` for `x ≥ 0`. -/
theorem ricker_bound {x : ℝ} (hx : 0 ≤ x) :
    (1 - 2 * x) * Real.exp (-x) ≤ 1 ∧ -1 ≤ (1 - 2 * x) * Real.exp (-x) ∧
      (0 < x → (1 - 2 * x) * Real.exp (-x) < 1) := by
  have he : 0 < Real.exp (-x) := Real.exp_pos _
  have he1 : Real.exp (-x) ≤ 1 := by rw [Real.exp_le_one_iff]; linarith
  have hlow : (2 * x - 1) * Real.exp (-x) ≤ 1 := by
    have h1 := Real.add_one_le_exp (x / 2)
    have h2 : Real.exp x = Real.exp (x / 2) * Real.exp (x / 2) := by rw [← Real.exp_add]; ring_nf
    have h3 : 2 * x - 1 ≤ Real.exp x := by
      rw [h2]
      nlinarith [sq_nonneg (x / 2 - 1)]
    calc (2 * x - 1) * Real.exp (-x) ≤ Real.exp x * Real.exp (-x) :=
          mul_le_mul_of_nonneg_right h3 he.le
      _ = 1 := by rw [← Real.exp_add]; simp
  refine ⟨?_, by linarith, fun h => ?_⟩
  · nlinarith
  · nlinarith

/-- **C46** The wavelet has `length` samples; a sample at the peak time is 1; every sample is at most 1
in magnitude, and less than 1 away from the peak; samples at equal distance from the peak are equal;
`dt = 0` is an error. -/
theorem C46_ricker (freq dt peak : ℝ) (length : ℤ) (hlen : 0 ≤ length) :
    (dt = 0 → ricker freq length dt peak = .error .valueError) ∧
    (dt ≠ 0 → ∃ n y, ricker freq length dt peak = .ok (n, y) ∧ (n : ℤ) = length ∧
      (∀ i : ℕ, i * dt = peak → y i = 1) ∧
      (∀ i, |y i| ≤ 1) ∧
      (freq ≠ 0 → ∀ i : ℕ, i * dt ≠ peak → y i < 1) ∧
      (∀ i j : ℕ, i * dt - peak = peak - j * dt → y i = y j)) := by
  unfold ricker
  refine ⟨fun h => by rw [if_pos h], fun h => ?_⟩
  rw [if_neg h, if_neg (by omega)]
  have form : ∀ t : ℝ, (1 - 2 * Real.pi ^ 2 * freq ^ 2 * t ^ 2) * Real.exp (-(Real.pi ^ 2) * freq ^ 2 * t ^ 2)
      = (1 - 2 * (Real.pi * freq * t) ^ 2) * Real.exp (-(Real.pi * freq * t) ^ 2) := by
    intro t
    congr 2 <;> ring
  refine ⟨_, _, rfl, by omega, fun i hi => ?_, fun i => ?_, fun hf i hi => ?_, fun i j hij => ?_⟩
  · simp [hi]
  · simp only [form]
    obtain ⟨h1, h2, -⟩ := ricker_bound (sq_nonneg (Real.pi * freq * (i * dt - peak)))
    exact abs_le.2 ⟨h2, h1⟩
  · simp only [form]
    refine (ricker_bound (sq_nonneg _)).2.2 ?_
    have : i * dt - peak ≠ 0 := sub_ne_zero.2 hi
    have := Real.pi_pos.ne'
    positivity
  · simp only
    rw [hij, show (peak - j * dt) ^ 2 = (j * dt - peak) ^ 2 by ring]

example : ∃ n y, ricker 25 300 (4 / 1000) (60 / 1000) = .ok (n, y) ∧ n = 300 ∧ y 15 = 1 := by
  obtain ⟨n, y, h, hn, h1, -⟩ := (C46_ricker 25 (4 / 1000) (60 / 1000) 300 (by norm_num)).2 (by norm_num)
  exact ⟨n, y, h, by omega, h1 15 (by norm_num)⟩

end Dw.Setup
