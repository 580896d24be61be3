import Verif.Core.Dot
import Verif.Setup.SurveyLemmas

/-!
# Flat buffers with bounds

A buffer has a length; reading outside it has no value.  `Buf.rd` is used by the definitions that
restate the C kernels on flat indices.
-/

namespace Dw

open Setup (InShape rowMajor stride)

/-- An allocated array. -/
structure Buf (R : Type*) where
  len : ℤ
  val : ℤ → R

/-- Element `i`; `none` if it is outside the allocation. -/
def Buf.rd {R : Type*} (b : Buf R) (i : ℤ) : Option R := if 0 ≤ i ∧ i < b.len then some (b.val i) else none

/-- All values, if all exist. -/
def allO {d : ℕ} {α : Type*} (f : Fin d → Option α) : Option (Fin d → α) :=
  if h : ∀ k, (f k).isSome then some fun k => (f k).get (h k) else none

theorem allO_of {d : ℕ} {α : Type*} {f : Fin d → Option α} {g : Fin d → α} (h : ∀ k, f k = some (g k)) :
    allO f = some g := by
  unfold allO
  rw [dif_pos fun k => by rw [h]; rfl]
  refine congrArg some (funext fun k => ?_)
  simp [h]

variable {R : Type*} [Field R]

/-- The macros `DIFF*1` on arguments that may be out of bounds. -/
def cDiff1O (acc : Acc) (rdx : R) (a : ℤ → Option R) : Option R :=
  match acc with
  | .a2 => do
      let p1 ← a 1; let m1 ← a (-1)
      return (1 / 2 * (p1 - m1)) * rdx
  | .a4 => do
      let p1 ← a 1; let m1 ← a (-1); let p2 ← a 2; let m2 ← a (-2)
      return (8 / 12 * (p1 - m1) + (-1) / 12 * (p2 - m2)) * rdx
  | .a6 => do
      let p1 ← a 1; let m1 ← a (-1); let p2 ← a 2; let m2 ← a (-2); let p3 ← a 3; let m3 ← a (-3)
      return (3 / 4 * (p1 - m1) + (-3) / 20 * (p2 - m2) + 1 / 60 * (p3 - m3)) * rdx
  | .a8 => do
      let p1 ← a 1; let m1 ← a (-1); let p2 ← a 2; let m2 ← a (-2); let p3 ← a 3; let m3 ← a (-3)
      let p4 ← a 4; let m4 ← a (-4)
      return (4 / 5 * (p1 - m1) + (-1) / 5 * (p2 - m2) + 4 / 105 * (p3 - m3)
        + (-1) / 280 * (p4 - m4)) * rdx

/-- The macros `DIFF*2` on arguments that may be out of bounds. -/
def cDiff2O (acc : Acc) (rdx2 : R) (a : ℤ → Option R) : Option R :=
  match acc with
  | .a2 => do
      let z ← a 0; let p1 ← a 1; let m1 ← a (-1)
      return (-2 * z + (p1 + m1)) * rdx2
  | .a4 => do
      let z ← a 0; let p1 ← a 1; let m1 ← a (-1); let p2 ← a 2; let m2 ← a (-2)
      return ((-5) / 2 * z + 4 / 3 * (p1 + m1) + (-1) / 12 * (p2 + m2)) * rdx2
  | .a6 => do
      let z ← a 0; let p1 ← a 1; let m1 ← a (-1); let p2 ← a 2; let m2 ← a (-2); let p3 ← a 3; let m3 ← a (-3)
      return ((-49) / 18 * z + 3 / 2 * (p1 + m1) + (-3) / 20 * (p2 + m2) + 1 / 90 * (p3 + m3)) * rdx2
  | .a8 => do
      let z ← a 0; let p1 ← a 1; let m1 ← a (-1); let p2 ← a 2; let m2 ← a (-2); let p3 ← a 3; let m3 ← a (-3)
      let p4 ← a 4; let m4 ← a (-4)
      return ((-205) / 72 * z + 8 / 5 * (p1 + m1) + (-1) / 5 * (p2 + m2) + 8 / 315 * (p3 + m3)
        + (-1) / 560 * (p4 + m4)) * rdx2

theorem cDiff1O_of {acc : Acc} {rdx : R} {a : ℤ → Option R} {b : ℤ → R}
    (h : ∀ j : ℤ, -acc.pad ≤ j → j ≤ acc.pad → a j = some (b j)) :
    cDiff1O acc rdx a = some (cDiff1 acc rdx b) := by
  cases acc <;> simp only [Acc.pad] at h <;> simp only [cDiff1O, cDiff1] <;>
    simp (disch := omega) only [h] <;> rfl

theorem cDiff2O_of {acc : Acc} {rdx : R} {a : ℤ → Option R} {b : ℤ → R}
    (h : ∀ j : ℤ, -acc.pad ≤ j → j ≤ acc.pad → a j = some (b j)) :
    cDiff2O acc rdx a = some (cDiff2 acc rdx b) := by
  cases acc <;> simp only [Acc.pad] at h <;> simp only [cDiff2O, cDiff2] <;>
    simp (disch := omega) only [h] <;> rfl

variable {d : ℕ}

/-- `b` holds the arrays `u 0`, ..., `u (m - 1)` of shape `n` one after the other. -/
structure Holds (m : ℕ) (n : Fin d → ℤ) (u : ℕ → Fld d R) (b : Buf R) : Prop where
  len : b.len = m * ∏ k, n k
  val : ∀ s < m, ∀ c, InShape n c → b.val (s * ∏ k, n k + rowMajor n c) = u s c

/-- `b` holds a profile of length `n`. -/
structure HoldsProfile (n : ℤ) (p : ℤ → R) (b : Buf R) : Prop where
  len : b.len = n
  val : ∀ x, 0 ≤ x → x < n → b.val x = p x

omit [Field R] in
theorem Holds.rd {m : ℕ} {n : Fin d → ℤ} {u : ℕ → Fld d R} {b : Buf R} (h : Holds m n u b) {s : ℕ}
    (hs : s < m) {c : Cell d} (hc : InShape n c) :
    b.rd (s * ∏ k, n k + rowMajor n c) = some (u s c) := by
  have hb := Setup.rowMajor_bound hc
  unfold Buf.rd
  rw [if_pos, h.val s hs c hc]
  rw [h.len]
  have h1 : ((s : ℤ) + 1) * ∏ k, n k ≤ m * ∏ k, n k :=
    mul_le_mul_of_nonneg_right (by omega) (by omega)
  have h2 : 0 ≤ (s : ℤ) * ∏ k, n k := mul_nonneg (by omega) (by omega)
  constructor <;> nlinarith

omit [Field R] in
theorem HoldsProfile.rd {n : ℤ} {p : ℤ → R} {b : Buf R} (h : HoldsProfile n p b) {x : ℤ} (h0 : 0 ≤ x)
    (h1 : x < n) : b.rd x = some (p x) := by
  unfold Buf.rd
  rw [if_pos ⟨h0, by rw [h.len]; exact h1⟩, h.val x h0 h1]

/-- Moving `j` along dimension `k` changes the flat index by `j` strides. -/
theorem rowMajor_shift (n : Fin d → ℤ) (c : Cell d) (k : Fin d) (j : ℤ) :
    rowMajor n (c.shift k j) = rowMajor n c + j * stride n k := by
  rw [← Setup.sum_stride, ← Setup.sum_stride]
  simp only [Cell.shift, Pi.add_apply, add_mul, Finset.sum_add_distrib]
  congr 1
  rw [Finset.sum_eq_single k]
  · simp
  · intro i _ hi; simp [hi]
  · simp

end Dw
