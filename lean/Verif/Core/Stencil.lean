import Mathlib.Algebra.Field.Basic
import Mathlib.Algebra.Group.Pi.Basic
import Mathlib.Tactic.Ring

/-!
# Finite-difference stencils of the regular grid

Models `src/deepwave/regular_grid.h` (C macros) and the slice expressions of
`src/deepwave/regular_grid.py`.  Scalars are elements of a field; the casts
`(DW_DTYPE)(p / q)` are exact division.
-/

namespace Dw

/-- The accuracies accepted by `set_accuracy` (`common.py` 746-764). -/
inductive Acc
  | a2 | a4 | a6 | a8
  deriving DecidableEq, Repr

/-- The integer the user passes. -/
def Acc.order : Acc → ℕ
  | .a2 => 2 | .a4 => 4 | .a6 => 6 | .a8 => 8

/-- `FD_PAD` (`regular_grid.h` 19, 50, 87, 130). -/
def Acc.pad : Acc → ℕ
  | .a2 => 1 | .a4 => 2 | .a6 => 3 | .a8 => 4

/-- Python's `accuracy // 2` (`scalar.py` 459, 740) is the C constant `FD_PAD`. -/
theorem Acc.order_div_two (acc : Acc) : acc.order / 2 = acc.pad := by
  cases acc <;> rfl

theorem Acc.pad_pos (acc : Acc) : 0 < acc.pad := by cases acc <;> decide

variable {R : Type*} [Field R]

/-- `DIFFX1(a)`, `DIFFY1(a)`, `DIFFZ1(a)` (`regular_grid.h` 13-15, 23-34, 54-68, 91-108).
`a j` stands for the macro argument at offset `j` along the dimension. -/
def cDiff1 (acc : Acc) (rdx : R) (a : ℤ → R) : R :=
  match acc with
  | .a2 => (1 / 2 * (a 1 - a (-1))) * rdx
  | .a4 => (8 / 12 * (a 1 - a (-1)) + (-1) / 12 * (a 2 - a (-2))) * rdx
  | .a6 => (3 / 4 * (a 1 - a (-1)) + (-3) / 20 * (a 2 - a (-2))
            + 1 / 60 * (a 3 - a (-3))) * rdx
  | .a8 => (4 / 5 * (a 1 - a (-1)) + (-1) / 5 * (a 2 - a (-2))
            + 4 / 105 * (a 3 - a (-3)) + (-1) / 280 * (a 4 - a (-4))) * rdx

/-- `DIFFX2(a)`, `DIFFY2(a)`, `DIFFZ2(a)` (`regular_grid.h` 16-18, 35-49, 69-86, 109-129). -/
def cDiff2 (acc : Acc) (rdx2 : R) (a : ℤ → R) : R :=
  match acc with
  | .a2 => (-2 * a 0 + (a 1 + a (-1))) * rdx2
  | .a4 => ((-5) / 2 * a 0 + 4 / 3 * (a 1 + a (-1)) + (-1) / 12 * (a 2 + a (-2))) * rdx2
  | .a6 => ((-49) / 18 * a 0 + 3 / 2 * (a 1 + a (-1)) + (-3) / 20 * (a 2 + a (-2))
            + 1 / 90 * (a 3 + a (-3))) * rdx2
  | .a8 => ((-205) / 72 * a 0 + 8 / 5 * (a 1 + a (-1)) + (-1) / 5 * (a 2 + a (-2))
            + 8 / 315 * (a 3 + a (-3)) + (-1) / 560 * (a 4 + a (-4))) * rdx2

/-- Value at output position `x` of the slice expression `a[s : s - 2 * pad]` after the
result has been padded by `pad` on the left: slice position `x - pad`. -/
def pySlice (acc : Acc) (a : ℤ → R) (s : ℤ) (x : ℤ) : R := a (x - acc.pad + s)

/-- `diffx1` / `diffy1` / `diffz1` along one dimension of length `n`
(`regular_grid.py` 82-190): interior formula, zero-padded at both ends. -/
def pyDiff1 (acc : Acc) (n : ℤ) (rdx : R) (a : ℤ → R) (x : ℤ) : R :=
  if (acc.pad : ℤ) ≤ x ∧ x < n - acc.pad then
    let s := fun j => pySlice acc a j x
    match acc with
    | .a2 => (1 / 2 * (s 2 - s 0)) * rdx
    | .a4 => (8 / 12 * (s 3 - s 1) + (-1) / 12 * (s 4 - s 0)) * rdx
    | .a6 => (3 / 4 * (s 4 - s 2) + (-3) / 20 * (s 5 - s 1) + 1 / 60 * (s 6 - s 0)) * rdx
    | .a8 => (4 / 5 * (s 5 - s 3) + (-1) / 5 * (s 6 - s 2) + 4 / 105 * (s 7 - s 1)
              + (-1) / 280 * (s 8 - s 0)) * rdx
  else 0

/-- `diffx2` / `diffy2` / `diffz2` along one dimension (`regular_grid.py` 193-313). -/
def pyDiff2 (acc : Acc) (n : ℤ) (rdx2 : R) (a : ℤ → R) (x : ℤ) : R :=
  if (acc.pad : ℤ) ≤ x ∧ x < n - acc.pad then
    let s := fun j => pySlice acc a j x
    match acc with
    | .a2 => (-2 * s 1 + 1 * (s 2 + s 0)) * rdx2
    | .a4 => ((-5) / 2 * s 2 + 4 / 3 * (s 3 + s 1) + (-1) / 12 * (s 4 + s 0)) * rdx2
    | .a6 => ((-49) / 18 * s 3 + 3 / 2 * (s 4 + s 2) + (-3) / 20 * (s 5 + s 1)
              + 1 / 90 * (s 6 + s 0)) * rdx2
    | .a8 => ((-205) / 72 * s 4 + 8 / 5 * (s 5 + s 3) + (-1) / 5 * (s 6 + s 2)
              + 8 / 315 * (s 7 + s 1) + (-1) / 560 * (s 8 + s 0)) * rdx2
  else 0

/-! ### Facts about the stencils -/

theorem cDiff1_congr (acc : Acc) (rdx : R) {a a' : ℤ → R}
    (h : ∀ j : ℤ, -acc.pad ≤ j → j ≤ acc.pad → a j = a' j) : cDiff1 acc rdx a = cDiff1 acc rdx a' := by
  cases acc <;> simp only [Acc.pad] at h <;> simp only [cDiff1] <;>
    simp (disch := omega) only [h]

theorem cDiff2_congr (acc : Acc) (rdx : R) {a a' : ℤ → R}
    (h : ∀ j : ℤ, -acc.pad ≤ j → j ≤ acc.pad → a j = a' j) : cDiff2 acc rdx a = cDiff2 acc rdx a' := by
  cases acc <;> simp only [Acc.pad] at h <;> simp only [cDiff2] <;>
    simp (disch := omega) only [h]

@[simp] theorem cDiff1_zero (acc : Acc) (rdx : R) : cDiff1 acc rdx (fun _ => 0) = 0 := by
  cases acc <;> simp [cDiff1]

@[simp] theorem cDiff2_zero (acc : Acc) (rdx : R) : cDiff2 acc rdx (fun _ => 0) = 0 := by
  cases acc <;> simp [cDiff2]

theorem cDiff1_add (acc : Acc) (rdx : R) (a a' : ℤ → R) :
    cDiff1 acc rdx (fun j => a j + a' j) = cDiff1 acc rdx a + cDiff1 acc rdx a' := by
  cases acc <;> simp only [cDiff1] <;> ring

theorem cDiff2_add (acc : Acc) (rdx : R) (a a' : ℤ → R) :
    cDiff2 acc rdx (fun j => a j + a' j) = cDiff2 acc rdx a + cDiff2 acc rdx a' := by
  cases acc <;> simp only [cDiff2] <;> ring

theorem cDiff1_smul (acc : Acc) (rdx : R) (m : R) (a : ℤ → R) :
    cDiff1 acc rdx (fun j => m * a j) = m * cDiff1 acc rdx a := by
  cases acc <;> simp only [cDiff1] <;> ring

theorem cDiff2_smul (acc : Acc) (rdx : R) (m : R) (a : ℤ → R) :
    cDiff2 acc rdx (fun j => m * a j) = m * cDiff2 acc rdx a := by
  cases acc <;> simp only [cDiff2] <;> ring

/-- The compiled and the Python first-derivative stencils agree on interior cells. -/
theorem pyDiff1_eq (acc : Acc) (n : ℤ) (rdx : R) (a : ℤ → R) (x : ℤ) :
    pyDiff1 acc n rdx a x =
      if (acc.pad : ℤ) ≤ x ∧ x < n - acc.pad then cDiff1 acc rdx (fun j => a (x + j)) else 0 := by
  have e : ∀ p q j : ℤ, q - p = j → x - p + q = x + j := by intros; omega
  unfold pyDiff1
  congr 1
  cases acc <;> simp only [pySlice, cDiff1, Acc.pad]
  · rw [e _ 2 1 (by norm_num), e _ 0 (-1) (by norm_num)]
  · rw [e _ 3 1 (by norm_num), e _ 1 (-1) (by norm_num), e _ 4 2 (by norm_num),
      e _ 0 (-2) (by norm_num)]
  · rw [e _ 4 1 (by norm_num), e _ 2 (-1) (by norm_num), e _ 5 2 (by norm_num),
      e _ 1 (-2) (by norm_num), e _ 6 3 (by norm_num), e _ 0 (-3) (by norm_num)]
  · rw [e _ 5 1 (by norm_num), e _ 3 (-1) (by norm_num), e _ 6 2 (by norm_num),
      e _ 2 (-2) (by norm_num), e _ 7 3 (by norm_num), e _ 1 (-3) (by norm_num),
      e _ 8 4 (by norm_num), e _ 0 (-4) (by norm_num)]

/-- The compiled and the Python second-derivative stencils agree on interior cells. -/
theorem pyDiff2_eq (acc : Acc) (n : ℤ) (rdx : R) (a : ℤ → R) (x : ℤ) :
    pyDiff2 acc n rdx a x =
      if (acc.pad : ℤ) ≤ x ∧ x < n - acc.pad then cDiff2 acc rdx (fun j => a (x + j)) else 0 := by
  have e : ∀ p q j : ℤ, q - p = j → x - p + q = x + j := by intros; omega
  unfold pyDiff2
  congr 1
  cases acc <;> simp only [pySlice, cDiff2, Acc.pad]
  · rw [e _ 1 0 (by norm_num), e _ 2 1 (by norm_num), e _ 0 (-1) (by norm_num), one_mul]
  · rw [e _ 2 0 (by norm_num), e _ 3 1 (by norm_num), e _ 1 (-1) (by norm_num),
      e _ 4 2 (by norm_num), e _ 0 (-2) (by norm_num)]
  · rw [e _ 3 0 (by norm_num), e _ 4 1 (by norm_num), e _ 2 (-1) (by norm_num),
      e _ 5 2 (by norm_num), e _ 1 (-2) (by norm_num), e _ 6 3 (by norm_num),
      e _ 0 (-3) (by norm_num)]
  · rw [e _ 4 0 (by norm_num), e _ 5 1 (by norm_num), e _ 3 (-1) (by norm_num),
      e _ 6 2 (by norm_num), e _ 2 (-2) (by norm_num), e _ 7 3 (by norm_num),
      e _ 1 (-3) (by norm_num), e _ 8 4 (by norm_num), e _ 0 (-4) (by norm_num)]

end Dw
