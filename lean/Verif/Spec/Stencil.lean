import Mathlib.Analysis.Real.Sqrt
import Mathlib.Data.Nat.Factorial.Basic
import Mathlib.Algebra.BigOperators.Fin
import Mathlib.Tactic.NormNum.NatFactorial
import Verif.Core.Dot
import Verif.Core.Staggered

/-!
# Specification: finite differences of order `2 p`

The weights for any `p` in closed form, independent of the tables in the code.
-/

namespace Dw.Spec

open Nat (factorial)

/-- Weights of the central differences of order `2 p` for the first and the second derivative. -/
noncomputable def weight1 (p j : ℕ) : ℝ :=
  (-1) ^ (j + 1) * (p.factorial : ℝ) ^ 2 / (j * (p - j).factorial * (p + j).factorial)

noncomputable def weight2 (p j : ℕ) : ℝ :=
  2 * (-1) ^ (j + 1) * (p.factorial : ℝ) ^ 2 / ((j : ℝ) ^ 2 * (p - j).factorial * (p + j).factorial)

/-- Weights for the first derivative half way between points. -/
noncomputable def weightHalf (p j : ℕ) : ℝ :=
  (-1) ^ (j + 1) * (∏ i ∈ Finset.range p, (2 * (i : ℝ) + 1)) ^ 2 /
    (2 ^ (2 * p - 2) * (2 * (j : ℝ) - 1) ^ 2 * (p - j).factorial * (p + j - 1).factorial)

/-- First and second derivative at 0. -/
noncomputable def central1 (p : ℕ) (dx : ℝ) (u : ℤ → ℝ) : ℝ :=
  (∑ j ∈ Finset.range p, weight1 p (j + 1) * (u (j + 1) - u (-(j + 1)))) / dx

noncomputable def central2 (p : ℕ) (dx : ℝ) (u : ℤ → ℝ) : ℝ :=
  (∑ j ∈ Finset.range p, weight2 p (j + 1) * (u (j + 1) - 2 * u 0 + u (-(j + 1)))) / dx ^ 2

/-- First derivative at 0 of `u`, where `u i` is the value at `i + 1 / 2`; and at `1 / 2`, where `u i` is the
value at `i`. -/
noncomputable def whole1 (p : ℕ) (dx : ℝ) (u : ℤ → ℝ) : ℝ :=
  (∑ j ∈ Finset.range p, weightHalf p (j + 1) * (u j - u (-(j + 1)))) / dx

noncomputable def half1 (p : ℕ) (dx : ℝ) (u : ℤ → ℝ) : ℝ :=
  (∑ j ∈ Finset.range p, weightHalf p (j + 1) * (u (j + 1) - u (-j))) / dx

/-! ### The tables in the code -/

theorem central1_eq (acc : Acc) (dx : ℝ) (u : ℤ → ℝ) : central1 (acc.order / 2) dx u = cDiff1 acc (1 / dx) u := by
  cases acc <;>
  · simp only [central1, Acc.order, Nat.reduceDiv, Finset.sum_range_succ, Finset.sum_range_zero, weight1, cDiff1]
    norm_num [Nat.factorial]
    ring

theorem central2_eq (acc : Acc) (dx : ℝ) (u : ℤ → ℝ) :
    central2 (acc.order / 2) dx u = cDiff2 acc (1 / dx ^ 2) u := by
  cases acc <;>
  · simp only [central2, Acc.order, Nat.reduceDiv, Finset.sum_range_succ, Finset.sum_range_zero, weight2, cDiff2]
    norm_num [Nat.factorial]
    ring

theorem whole1_eq (acc : Acc) (dx : ℝ) (u : ℤ → ℝ) : whole1 (acc.order / 2) dx u = cS1 acc (1 / dx) u := by
  cases acc <;>
  · simp only [whole1, Acc.order, Nat.reduceDiv, Finset.sum_range_succ, Finset.sum_range_zero,
      Finset.prod_range_succ, Finset.prod_range_zero, weightHalf, cS1]
    norm_num [Nat.factorial]
    try ring

theorem half1_eq (acc : Acc) (dx : ℝ) (u : ℤ → ℝ) : half1 (acc.order / 2) dx u = cSH1 acc (1 / dx) u := by
  cases acc <;>
  · simp only [half1, Acc.order, Nat.reduceDiv, Finset.sum_range_succ, Finset.sum_range_zero,
      Finset.prod_range_succ, Finset.prod_range_zero, weightHalf, cSH1]
    norm_num [Nat.factorial]
    try ring

end Dw.Spec
