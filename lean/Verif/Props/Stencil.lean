import Mathlib.Algebra.Polynomial.Eval.Degree
import Mathlib.Algebra.Polynomial.Derivative
import Mathlib.Tactic.FieldSimp
import Mathlib.Tactic.IntervalCases
import Verif.Core.Staggered

/-!
# Order of accuracy of the finite-difference stencils
-/

namespace Dw

open Polynomial

variable {R : Type*} [Field R]

theorem cDiff1_sum (acc : Acc) (rdx : R) {ι : Type*} (s : Finset ι) (a : ι → ℤ → R) :
    cDiff1 acc rdx (fun j => ∑ i ∈ s, a i j) = ∑ i ∈ s, cDiff1 acc rdx (a i) := by
  classical
  induction s using Finset.induction_on with
  | empty => simp
  | insert i s hi ih => simp only [Finset.sum_insert hi]; rw [cDiff1_add, ih]

theorem cDiff2_sum (acc : Acc) (rdx : R) {ι : Type*} (s : Finset ι) (a : ι → ℤ → R) :
    cDiff2 acc rdx (fun j => ∑ i ∈ s, a i j) = ∑ i ∈ s, cDiff2 acc rdx (a i) := by
  classical
  induction s using Finset.induction_on with
  | empty => simp
  | insert i s hi ih => simp only [Finset.sum_insert hi]; rw [cDiff2_add, ih]

theorem cS1_sum (acc : Acc) (rdx : R) {ι : Type*} (s : Finset ι) (a : ι → ℤ → R) :
    cS1 acc rdx (fun j => ∑ i ∈ s, a i j) = ∑ i ∈ s, cS1 acc rdx (a i) := by
  classical
  induction s using Finset.induction_on with
  | empty => simp
  | insert i s hi ih => simp only [Finset.sum_insert hi]; rw [cS1_add, ih]

theorem cSH1_sum (acc : Acc) (rdx : R) {ι : Type*} (s : Finset ι) (a : ι → ℤ → R) :
    cSH1 acc rdx (fun j => ∑ i ∈ s, a i j) = ∑ i ∈ s, cSH1 acc rdx (a i) := by
  classical
  induction s using Finset.induction_on with
  | empty => simp
  | insert i s hi ih => simp only [Finset.sum_insert hi]; rw [cSH1_add, ih]

theorem eval_sum_range (P : R[X]) {n : ℕ} (h : P.natDegree ≤ n) (x : R) :
    P.eval x = ∑ i ∈ Finset.range (n + 1), P.coeff i * x ^ i := by
  exact eval_eq_sum_range' (by omega) x

theorem derivative_eval_sum (P : R[X]) {n : ℕ} (h : P.natDegree ≤ n) (x : R) :
    (derivative P).eval x = ∑ i ∈ Finset.range (n + 1), P.coeff i * (i * x ^ (i - 1)) := by
  conv_lhs => rw [P.as_sum_range' (n + 1) (by omega)]
  rw [derivative_sum, eval_finsetSum]
  refine Finset.sum_congr rfl fun i _ => ?_
  rw [derivative_monomial, eval_monomial]
  ring

theorem derivative2_eval_sum (P : R[X]) {n : ℕ} (h : P.natDegree ≤ n) (x : R) :
    (derivative (derivative P)).eval x =
      ∑ i ∈ Finset.range (n + 1), P.coeff i * (i * (i - 1 : ℕ) * x ^ (i - 2)) := by
  conv_lhs => rw [P.as_sum_range' (n + 1) (by omega)]
  rw [derivative_sum, derivative_sum, eval_finsetSum]
  refine Finset.sum_congr rfl fun i _ => ?_
  rw [derivative_monomial, derivative_monomial, eval_monomial, Nat.sub_sub]
  ring

variable [CharZero R]

/-- **C28** The first-derivative stencil of accuracy `p` (compiled and Python) is exact on polynomials
of degree at most `p`. -/
theorem C28_first_derivative (acc : Acc) (P : R[X]) (hP : P.natDegree ≤ acc.order) (x h : R)
    (hh : h ≠ 0) :
    cDiff1 acc (1 / h) (fun j => P.eval (x + j * h)) = (derivative P).eval x ∧
    ∀ (n y : ℤ), (acc.pad : ℤ) ≤ y → y < n - acc.pad →
      pyDiff1 acc n (1 / h) (fun j => P.eval (x + j * h)) y = (derivative P).eval (x + y * h) := by
  have key : ∀ x, cDiff1 acc (1 / h) (fun j => P.eval (x + j * h)) = (derivative P).eval x := by
    intro x
    simp only [eval_sum_range P hP]
    rw [derivative_eval_sum P hP, cDiff1_sum]
    refine Finset.sum_congr rfl fun i hi => ?_
    rw [cDiff1_smul]
    congr 1
    have hi := Finset.mem_range.1 hi
    cases acc <;> simp only [Acc.order] at hi <;> simp only [cDiff1] <;> interval_cases i <;>
      push_cast <;> field_simp <;> ring
  refine ⟨key x, fun n y h1 h2 => ?_⟩
  rw [pyDiff1_eq, if_pos ⟨h1, h2⟩, ← key]
  congr 1
  funext j
  congr 1
  push_cast
  ring

/-- **C28** The second-derivative stencil of accuracy `p` is exact on polynomials of degree at most
`p + 1`. -/
theorem C28_second_derivative (acc : Acc) (P : R[X]) (hP : P.natDegree ≤ acc.order + 1) (x h : R)
    (hh : h ≠ 0) :
    cDiff2 acc (1 / h ^ 2) (fun j => P.eval (x + j * h)) = (derivative (derivative P)).eval x ∧
    ∀ (n y : ℤ), (acc.pad : ℤ) ≤ y → y < n - acc.pad →
      pyDiff2 acc n (1 / h ^ 2) (fun j => P.eval (x + j * h)) y =
        (derivative (derivative P)).eval (x + y * h) := by
  have key : ∀ x, cDiff2 acc (1 / h ^ 2) (fun j => P.eval (x + j * h)) =
      (derivative (derivative P)).eval x := by
    intro x
    simp only [eval_sum_range P hP]
    rw [derivative2_eval_sum P hP, cDiff2_sum]
    refine Finset.sum_congr rfl fun i hi => ?_
    rw [cDiff2_smul]
    congr 1
    have hi := Finset.mem_range.1 hi
    cases acc <;> simp only [Acc.order] at hi <;> simp only [cDiff2] <;> interval_cases i <;>
      push_cast <;> field_simp <;> ring
  refine ⟨key x, fun n y h1 h2 => ?_⟩
  rw [pyDiff2_eq, if_pos ⟨h1, h2⟩, ← key]
  congr 1
  funext j
  congr 1
  push_cast
  ring

/-- **C28** The staggered stencils of accuracy `p` are exact on polynomials of degree at most `p`: from
values at half points to integer points and the reverse. -/
theorem C28_staggered (acc : Acc) (P : R[X]) (hP : P.natDegree ≤ acc.order) (x h : R) (hh : h ≠ 0) :
    cS1 acc (1 / h) (fun j => P.eval (x + (j + 1 / 2) * h)) = (derivative P).eval x ∧
    cSH1 acc (1 / h) (fun j => P.eval (x + j * h)) = (derivative P).eval (x + 1 / 2 * h) ∧
    ∀ (n y : ℤ), (acc.pad : ℤ) ≤ y →
      (y ≤ n - acc.pad → pyS1 acc n (1 / h) (fun j => P.eval (x + (j + 1 / 2) * h)) y =
        (derivative P).eval (x + y * h)) ∧
      (y < n - acc.pad → pySH1 acc n (1 / h) (fun j => P.eval (x + j * h)) y =
        (derivative P).eval (x + (y + 1 / 2) * h)) := by
  have key : ∀ x, cS1 acc (1 / h) (fun j => P.eval (x + (j + 1 / 2) * h)) =
      (derivative P).eval x := by
    intro x
    simp only [eval_sum_range P hP]
    rw [derivative_eval_sum P hP, cS1_sum]
    refine Finset.sum_congr rfl fun i hi => ?_
    rw [cS1_smul]
    congr 1
    have hi := Finset.mem_range.1 hi
    cases acc <;> simp only [Acc.order] at hi <;> simp only [cS1] <;> interval_cases i <;>
      push_cast <;> field_simp <;> ring
  have hsh : ∀ (f : ℤ → R), cSH1 acc (1 / h) f = cS1 acc (1 / h) fun j => f (j + 1) := by
    intro f
    cases acc <;> simp only [cS1, cSH1] <;> norm_num
  have keyH : ∀ x, cSH1 acc (1 / h) (fun j => P.eval (x + j * h)) =
      (derivative P).eval (x + 1 / 2 * h) := by
    intro x
    rw [hsh, ← key]
    congr 1
    funext j
    congr 1
    push_cast
    ring
  refine ⟨key x, keyH x, fun n y h1 => ⟨fun h2 => ?_, fun h2 => ?_⟩⟩
  · rw [pyS1_eq, if_pos ⟨h1, by omega⟩, ← key]
    congr 1
    funext j
    congr 1
    push_cast
    ring
  · rw [pySH1_eq, if_pos ⟨h1, h2⟩, add_mul, ← add_assoc, ← keyH]
    congr 1
    funext j
    congr 1
    push_cast
    ring

/-- A polynomial of degree 4 for accuracy 4 at a point of a grid of spacing 1/3. -/
example : (X ^ 4 : ℚ[X]).natDegree ≤ Acc.a4.order ∧ (1 / 3 : ℚ) ≠ 0 ∧
    cDiff1 .a4 (1 / (1 / 3 : ℚ)) (fun j => (2 + j * (1 / 3)) ^ 4) = 4 * 2 ^ 3 := by
  refine ⟨by simp [Acc.order], by norm_num, ?_⟩
  norm_num [cDiff1]

/-- The order is not higher: a polynomial of degree 5 is not differentiated exactly. -/
example : cDiff1 .a4 (1 : ℚ) (fun j => (j : ℚ) ^ 5) ≠ 0 := by norm_num [cDiff1]

end Dw
