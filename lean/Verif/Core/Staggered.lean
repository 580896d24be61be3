import Verif.Core.Dot

/-!
# Finite-difference stencils of the staggered grid

Models `src/deepwave/staggered_grid.h` (C macros) and the slice expressions of
`src/deepwave/staggered_grid.py` 94-313.  Scalars are elements of a field; the casts
`(DW_DTYPE)(p / q)` are exact division.  `FD_PAD` is `Acc.pad` as on the regular grid.
-/

namespace Dw

variable {R : Type*} [Field R]

/-- `DIFFX1(a)`, `DIFFY1(a)`, `DIFFZ1(a)` (`staggered_grid.h` 13-15, 22-33, 51-65, 88-105): derivative
of half-point values at an integer point.  `a j` stands for the macro argument at offset `j`. -/
def cS1 (acc : Acc) (rdx : R) (a : ℤ → R) : R :=
  match acc with
  | .a2 => (a 0 - a (-1)) * rdx
  | .a4 => (9 / 8 * (a 0 - a (-1)) + (-1) / 24 * (a 1 - a (-2))) * rdx
  | .a6 => (75 / 64 * (a 0 - a (-1)) + (-25) / 384 * (a 1 - a (-2))
            + 3 / 640 * (a 2 - a (-3))) * rdx
  | .a8 => (1225 / 1024 * (a 0 - a (-1)) + (-245) / 3072 * (a 1 - a (-2))
            + 49 / 5120 * (a 2 - a (-3)) + (-5) / 7168 * (a 3 - a (-4))) * rdx

/-- `DIFFXH1(a)`, `DIFFYH1(a)`, `DIFFZH1(a)` (`staggered_grid.h` 16-18, 34-45, 66-80, 106-123):
derivative of integer-point values at a half point. -/
def cSH1 (acc : Acc) (rdx : R) (a : ℤ → R) : R :=
  match acc with
  | .a2 => (a 1 - a 0) * rdx
  | .a4 => (9 / 8 * (a 1 - a 0) + (-1) / 24 * (a 2 - a (-1))) * rdx
  | .a6 => (75 / 64 * (a 1 - a 0) + (-25) / 384 * (a 2 - a (-1))
            + 3 / 640 * (a 3 - a (-2))) * rdx
  | .a8 => (1225 / 1024 * (a 1 - a 0) + (-245) / 3072 * (a 2 - a (-1))
            + 49 / 5120 * (a 3 - a (-2)) + (-5) / 7168 * (a 4 - a (-3))) * rdx

/-- `diffx1` / `diffy1` / `diffz1` along one dimension of length `n` (`staggered_grid.py` 94-202),
padded by `(pad, pad - 1)`.  The slices `a[..., :, :-5, :, :]` and `a[..., :, :-7, :, :]` of `diffz1`
(lines 112, 123) index the dimension before z too; with the batch dimension present that is the
same as `a[..., :-5, :, :]`. -/
def pyS1 (acc : Acc) (n : ℤ) (rdx : R) (a : ℤ → R) (x : ℤ) : R :=
  if (acc.pad : ℤ) ≤ x ∧ x < n - (acc.pad - 1) then
    let s := fun j => pySlice acc a j x
    match acc with
    | .a2 => (s 1 - s 0) * rdx
    | .a4 => (9 / 8 * (s 2 - s 1) + (-1) / 24 * (s 3 - s 0)) * rdx
    | .a6 => (75 / 64 * (s 3 - s 2) + (-25) / 384 * (s 4 - s 1) + 3 / 640 * (s 5 - s 0)) * rdx
    | .a8 => (1225 / 1024 * (s 4 - s 3) + (-245) / 3072 * (s 5 - s 2) + 49 / 5120 * (s 6 - s 1)
              + (-5) / 7168 * (s 7 - s 0)) * rdx
  else 0

/-- `diffxh1` / `diffyh1` / `diffzh1` along one dimension (`staggered_grid.py` 205-313), padded by
`(pad, pad)`. -/
def pySH1 (acc : Acc) (n : ℤ) (rdx : R) (a : ℤ → R) (x : ℤ) : R :=
  if (acc.pad : ℤ) ≤ x ∧ x < n - acc.pad then
    let s := fun j => pySlice acc a j x
    match acc with
    | .a2 => (s 2 - s 1) * rdx
    | .a4 => (9 / 8 * (s 3 - s 2) + (-1) / 24 * (s 4 - s 1)) * rdx
    | .a6 => (75 / 64 * (s 4 - s 3) + (-25) / 384 * (s 5 - s 2) + 3 / 640 * (s 6 - s 1)) * rdx
    | .a8 => (1225 / 1024 * (s 5 - s 4) + (-245) / 3072 * (s 6 - s 3) + 49 / 5120 * (s 7 - s 2)
              + (-5) / 7168 * (s 8 - s 1)) * rdx
  else 0

/-! ### Facts about the stencils -/

theorem cS1_congr (acc : Acc) (rdx : R) {a a' : ℤ → R}
    (h : ∀ j : ℤ, -acc.pad ≤ j → j ≤ acc.pad - 1 → a j = a' j) : cS1 acc rdx a = cS1 acc rdx a' := by
  cases acc <;> simp only [Acc.pad] at h <;> simp only [cS1] <;>
    simp (disch := omega) only [h]

theorem cSH1_congr (acc : Acc) (rdx : R) {a a' : ℤ → R}
    (h : ∀ j : ℤ, 1 - acc.pad ≤ j → j ≤ acc.pad → a j = a' j) : cSH1 acc rdx a = cSH1 acc rdx a' := by
  cases acc <;> simp only [Acc.pad] at h <;> simp only [cSH1] <;>
    simp (disch := omega) only [h]

@[simp] theorem cS1_zero (acc : Acc) (rdx : R) : cS1 acc rdx (fun _ => 0) = 0 := by
  cases acc <;> simp [cS1]

@[simp] theorem cSH1_zero (acc : Acc) (rdx : R) : cSH1 acc rdx (fun _ => 0) = 0 := by
  cases acc <;> simp [cSH1]

theorem cS1_add (acc : Acc) (rdx : R) (a a' : ℤ → R) :
    cS1 acc rdx (fun j => a j + a' j) = cS1 acc rdx a + cS1 acc rdx a' := by
  cases acc <;> simp only [cS1] <;> ring

theorem cSH1_add (acc : Acc) (rdx : R) (a a' : ℤ → R) :
    cSH1 acc rdx (fun j => a j + a' j) = cSH1 acc rdx a + cSH1 acc rdx a' := by
  cases acc <;> simp only [cSH1] <;> ring

theorem cS1_smul (acc : Acc) (rdx : R) (m : R) (a : ℤ → R) :
    cS1 acc rdx (fun j => m * a j) = m * cS1 acc rdx a := by
  cases acc <;> simp only [cS1] <;> ring

theorem cSH1_smul (acc : Acc) (rdx : R) (m : R) (a : ℤ → R) :
    cSH1 acc rdx (fun j => m * a j) = m * cSH1 acc rdx a := by
  cases acc <;> simp only [cSH1] <;> ring

/-- The compiled and the Python stencils agree where the latter is not padding. -/
theorem pyS1_eq (acc : Acc) (n : ℤ) (rdx : R) (a : ℤ → R) (x : ℤ) :
    pyS1 acc n rdx a x =
      if (acc.pad : ℤ) ≤ x ∧ x < n - (acc.pad - 1) then cS1 acc rdx (fun j => a (x + j)) else 0 := by
  have e : ∀ p q j : ℤ, q - p = j → x - p + q = x + j := by intros; omega
  unfold pyS1
  congr 1
  cases acc <;> simp only [pySlice, cS1, Acc.pad]
  · rw [e _ 1 0 (by norm_num), e _ 0 (-1) (by norm_num)]
  · rw [e _ 2 0 (by norm_num), e _ 1 (-1) (by norm_num), e _ 3 1 (by norm_num),
      e _ 0 (-2) (by norm_num)]
  · rw [e _ 3 0 (by norm_num), e _ 2 (-1) (by norm_num), e _ 4 1 (by norm_num),
      e _ 1 (-2) (by norm_num), e _ 5 2 (by norm_num), e _ 0 (-3) (by norm_num)]
  · rw [e _ 4 0 (by norm_num), e _ 3 (-1) (by norm_num), e _ 5 1 (by norm_num),
      e _ 2 (-2) (by norm_num), e _ 6 2 (by norm_num), e _ 1 (-3) (by norm_num),
      e _ 7 3 (by norm_num), e _ 0 (-4) (by norm_num)]

theorem pySH1_eq (acc : Acc) (n : ℤ) (rdx : R) (a : ℤ → R) (x : ℤ) :
    pySH1 acc n rdx a x =
      if (acc.pad : ℤ) ≤ x ∧ x < n - acc.pad then cSH1 acc rdx (fun j => a (x + j)) else 0 := by
  have e : ∀ p q j : ℤ, q - p = j → x - p + q = x + j := by intros; omega
  unfold pySH1
  congr 1
  cases acc <;> simp only [pySlice, cSH1, Acc.pad]
  · rw [e _ 2 1 (by norm_num), e _ 1 0 (by norm_num)]
  · rw [e _ 3 1 (by norm_num), e _ 2 0 (by norm_num), e _ 4 2 (by norm_num),
      e _ 1 (-1) (by norm_num)]
  · rw [e _ 4 1 (by norm_num), e _ 3 0 (by norm_num), e _ 5 2 (by norm_num),
      e _ 2 (-1) (by norm_num), e _ 6 3 (by norm_num), e _ 1 (-2) (by norm_num)]
  · rw [e _ 5 1 (by norm_num), e _ 4 0 (by norm_num), e _ 6 2 (by norm_num),
      e _ 3 (-1) (by norm_num), e _ 7 3 (by norm_num), e _ 2 (-2) (by norm_num),
      e _ 8 4 (by norm_num), e _ 1 (-3) (by norm_num)]

variable {d : ℕ}

/-- The stencils applied to arrays along dimension `k`. -/
def DS (acc : Acc) (rdx : R) (k : Fin d) (u : Fld d R) : Fld d R :=
  fun c => cS1 acc rdx fun j => u (c.shift k j)

def DSH (acc : Acc) (rdx : R) (k : Fin d) (u : Fld d R) : Fld d R :=
  fun c => cSH1 acc rdx fun j => u (c.shift k j)

/-- Summation by parts on the staggered grid. -/
theorem dot_DSH {S : Finset (Cell d)} {u w : Fld d R} (hu : SuppIn S u) (hw : SuppIn S w)
    (acc : Acc) (rdx : R) (k : Fin d) :
    dot S (DSH acc rdx k u) w = -dot S u (DS acc rdx k w) := by
  have key : ∀ (m : R) (i j : ℤ),
      dot S (fun c => m * (u (c.shift k i) - u (c.shift k j))) w =
        -dot S u (fun c => m * (w (c.shift k (-j)) - w (c.shift k (-i)))) := by
    intro m i j
    rw [dot_smul_left, dot_sub_left, dot_shift' hu hw, dot_shift' hu hw, dot_smul_right,
      dot_sub_right]
    ring
  have key1 : ∀ (i j : ℤ),
      dot S (fun c => (u (c.shift k i) - u (c.shift k j))) w =
        -dot S u (fun c => (w (c.shift k (-j)) - w (c.shift k (-i)))) := by
    intro i j
    simpa using key 1 i j
  have pull : ∀ (f g : Fld d R), (∀ c, f c = g c * rdx) → dot S f w = rdx * dot S g w := by
    intro f g h
    rw [← dot_smul_left]; exact Finset.sum_congr rfl fun c _ => by rw [h]; ring
  have pull' : ∀ (f g : Fld d R), (∀ c, f c = g c * rdx) → dot S u f = rdx * dot S u g := by
    intro f g h
    rw [← dot_smul_right]; exact Finset.sum_congr rfl fun c _ => by rw [h]; ring
  cases acc
  · rw [pull _ _ (fun c => by simp only [DSH, cSH1]; rfl),
      pull' _ _ (fun c => by simp only [DS, cS1]; rfl), key1]
    simp only [neg_zero]
    ring
  all_goals
    rw [pull _ _ (fun c => by simp only [DSH, cSH1]; rfl),
      pull' _ _ (fun c => by simp only [DS, cS1]; rfl)]
    simp only [dot_add_left, dot_add_right, key, neg_neg, neg_zero]
    ring

theorem dot_DS {S : Finset (Cell d)} {u w : Fld d R} (hu : SuppIn S u) (hw : SuppIn S w)
    (acc : Acc) (rdx : R) (k : Fin d) :
    dot S (DS acc rdx k u) w = -dot S u (DSH acc rdx k w) := by
  rw [dot_comm, dot_comm S u, dot_DSH hw hu, neg_neg]

end Dw
