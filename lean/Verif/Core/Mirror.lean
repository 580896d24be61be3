import Mathlib.Tactic.LinearCombination
import Verif.Core.Staggered

/-!
# Reflection of the grid
-/

namespace Dw

variable {R : Type*} [Field R]

theorem cDiff1_neg_arg (acc : Acc) (rdx : R) (a : ℤ → R) :
    cDiff1 acc rdx (fun j => a (-j)) = -cDiff1 acc rdx a := by
  cases acc <;> simp only [cDiff1, neg_neg] <;> ring

theorem cDiff2_neg_arg (acc : Acc) (rdx : R) (a : ℤ → R) :
    cDiff2 acc rdx (fun j => a (-j)) = cDiff2 acc rdx a := by
  cases acc <;> simp only [cDiff2, neg_neg, neg_zero] <;> ring

/-- Reflection of the coordinates for which `e` is true, where `m k` is the sum of a coordinate and its
image. -/
def flipAt {d : ℕ} (e : Fin d → Bool) (m : Fin d → ℤ) (c : Cell d) : Cell d := fun k =>
  if e k then m k - c k else c k

theorem flipAt_flipAt {d : ℕ} (e : Fin d → Bool) (m : Fin d → ℤ) (c : Cell d) :
    flipAt e m (flipAt e m c) = c := by
  funext k
  unfold flipAt
  split_ifs <;> omega

/-- Sign of a derivative along dimension `k` under the reflection. -/
def flipSgn {d : ℕ} (e : Fin d → Bool) (k : Fin d) : R := if e k then -1 else 1

theorem flipSgn_sq {d : ℕ} (e : Fin d → Bool) (k : Fin d) : (flipSgn e k : R) * flipSgn e k = 1 := by
  unfold flipSgn
  split_ifs <;> ring

theorem flipAt_shift {d : ℕ} (e : Fin d → Bool) (m : Fin d → ℤ) (c : Cell d) (k : Fin d) (j : ℤ) :
    flipAt e m (c.shift k j) = (flipAt e m c).shift k (if e k then -j else j) := by
  funext l
  unfold flipAt
  by_cases h : l = k
  · subst h
    simp only [Cell.shift_same]
    split_ifs <;> ring
  · simp [Cell.shift, h]

theorem D1_flip {d : ℕ} (acc : Acc) (rdx : R) (e : Fin d → Bool) (m : Fin d → ℤ) (k : Fin d)
    (u : Fld d R) (c : Cell d) :
    D1 acc rdx k (fun c => u (flipAt e m c)) c = flipSgn e k * D1 acc rdx k u (flipAt e m c) := by
  unfold D1 flipSgn
  simp only [flipAt_shift]
  split_ifs
  · rw [cDiff1_neg_arg acc rdx fun j => u ((flipAt e m c).shift k j)]; ring
  · ring

theorem D2_flip {d : ℕ} (acc : Acc) (rdx : R) (e : Fin d → Bool) (m : Fin d → ℤ) (k : Fin d)
    (u : Fld d R) (c : Cell d) :
    D2 acc rdx k (fun c => u (flipAt e m c)) c = D2 acc rdx k u (flipAt e m c) := by
  unfold D2
  simp only [flipAt_shift]
  split_ifs
  · exact cDiff2_neg_arg acc rdx fun j => u ((flipAt e m c).shift k j)
  · rfl

/-! ### Staggered grids -/

theorem cS1_neg_arg (acc : Acc) (rdx : R) (a : ℤ → R) :
    cS1 acc rdx (fun j => a (-1 - j)) = -cS1 acc rdx a := by
  cases acc <;> simp only [cS1] <;> norm_num <;> ring

theorem cSH1_neg_arg (acc : Acc) (rdx : R) (a : ℤ → R) :
    cSH1 acc rdx (fun j => a (1 - j)) = -cSH1 acc rdx a := by
  cases acc <;> simp only [cSH1] <;> norm_num <;> ring

/-- Reflection of a staggered grid.  The sum of a coordinate and its image is `n k` for quantities at
integer points and one less for those at half points, the dimensions for which `L` is true. -/
def flipS {d : ℕ} (e : Fin d → Bool) (n : Fin d → ℤ) (L : Fin d → Bool) : Cell d → Cell d :=
  flipAt e fun k => n k - if L k then 1 else 0

theorem flipS_flipS {d : ℕ} (e : Fin d → Bool) (n : Fin d → ℤ) (L : Fin d → Bool) (c : Cell d) :
    flipS e n L (flipS e n L c) = c := flipAt_flipAt _ _ _

theorem flipS_apply {d : ℕ} (e : Fin d → Bool) (n : Fin d → ℤ) (L : Fin d → Bool) (c : Cell d)
    (k : Fin d) : flipS e n L c k = if e k then n k - (if L k then 1 else 0) - c k else c k := rfl

theorem flipS_shift {d : ℕ} (e : Fin d → Bool) (n : Fin d → ℤ) {L L' : Fin d → Bool} {k : Fin d}
    (hk : L' k = !L k) (h : ∀ l, l ≠ k → L' l = L l) (c : Cell d) (j : ℤ) :
    flipS e n L' (c.shift k j) =
      (flipS e n L c).shift k (if e k then (if L k then 1 else -1) - j else j) := by
  funext l
  by_cases hl : l = k
  · subst hl
    simp only [flipS_apply, Cell.shift_same, hk]
    cases L l <;> cases e l <;> simp <;> ring
  · rw [Cell.shift_ne _ _ _ _ hl]
    simp only [flipS_apply, Cell.shift_ne _ _ _ _ hl, h l hl]

theorem DSH_flip {d : ℕ} (acc : Acc) (rdx : R) (e : Fin d → Bool) (n : Fin d → ℤ)
    {L L' : Fin d → Bool} {k : Fin d} (hL : L k = true) (hk : L' k = !L k)
    (h : ∀ l, l ≠ k → L' l = L l) (z : R) (u : Fld d R) (c : Cell d) :
    DSH acc rdx k (fun c => z * u (flipS e n L' c)) c =
      z * flipSgn e k * DSH acc rdx k u (flipS e n L c) := by
  unfold DSH flipSgn
  rw [cSH1_smul]
  simp only [flipS_shift e n hk h, hL, if_true]
  split_ifs
  · rw [cSH1_neg_arg acc rdx fun j => u ((flipS e n L c).shift k j)]; ring
  · ring

theorem DS_flip {d : ℕ} (acc : Acc) (rdx : R) (e : Fin d → Bool) (n : Fin d → ℤ)
    {L L' : Fin d → Bool} {k : Fin d} (hL : L k = false) (hk : L' k = !L k)
    (h : ∀ l, l ≠ k → L' l = L l) (z : R) (u : Fld d R) (c : Cell d) :
    DS acc rdx k (fun c => z * u (flipS e n L' c)) c =
      z * flipSgn e k * DS acc rdx k u (flipS e n L c) := by
  unfold DS flipSgn
  rw [cS1_smul]
  simp only [flipS_shift e n hk h, hL, if_false, Bool.false_eq_true]
  split_ifs
  · rw [cS1_neg_arg acc rdx fun j => u ((flipS e n L c).shift k j)]; ring
  · ring

/-- Reflection of the location of a source or receiver exchanges the cells at which it is. -/
theorem map_flip_eq {d : ℕ} {F : Cell d → Cell d} (hF : ∀ c, F (F c) = c) (o : Option (Cell d))
    (c : Cell d) : o.map F = some c ↔ o = some (F c) := by
  cases o with
  | none => simp
  | some c' =>
      simp only [Option.map_some, Option.some.injEq]
      constructor
      · rintro rfl; exact (hF _).symm
      · rintro rfl; exact hF _

end Dw

