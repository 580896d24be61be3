import Mathlib.Algebra.BigOperators.Finprod
import Mathlib.Algebra.BigOperators.Ring.Finset
import Mathlib.Algebra.BigOperators.Pi
import Mathlib.Data.Fintype.Pi
import Mathlib.Order.Interval.Finset.Basic
import Mathlib.Data.Int.Interval
import Mathlib.Tactic.Ring
import Verif.Core.Stencil

/-!
# Cells, fields, inner products and summation by parts
-/

namespace Dw

/-- A cell of a `d`-dimensional grid, by its coordinates (dimension 0 is the slowest). -/
abbrev Cell (d : ℕ) := Fin d → ℤ

/-- An array over the cells. -/
abbrev Fld (d : ℕ) (R : Type*) := Cell d → R

/-- The cell `j` further along dimension `k`. -/
def Cell.shift {d : ℕ} (c : Cell d) (k : Fin d) (j : ℤ) : Cell d := c + Pi.single k j

@[simp] theorem Cell.shift_same {d : ℕ} (c : Cell d) (k : Fin d) (j : ℤ) :
    c.shift k j k = c k + j := by simp [Cell.shift]

theorem Cell.shift_ne {d : ℕ} (c : Cell d) (k i : Fin d) (j : ℤ) (h : i ≠ k) :
    c.shift k j i = c i := by simp [Cell.shift, h]

@[simp] theorem Cell.shift_zero {d : ℕ} (c : Cell d) (k : Fin d) : c.shift k 0 = c := by
  simp [Cell.shift]

/-- The cells `c` with `lo k ≤ c k < hi k` in every dimension. -/
def box {d : ℕ} (lo hi : Fin d → ℤ) : Finset (Cell d) :=
  Fintype.piFinset fun k => Finset.Ico (lo k) (hi k)

theorem mem_box {d : ℕ} {lo hi : Fin d → ℤ} {c : Cell d} :
    c ∈ box lo hi ↔ ∀ k, lo k ≤ c k ∧ c k < hi k := by
  simp [box]

/-- `u` vanishes off `S`. -/
def SuppIn {d : ℕ} {R : Type*} [Zero R] (S : Finset (Cell d)) (u : Fld d R) : Prop :=
  ∀ c, c ∉ S → u c = 0

/-- The inner product of two arrays over a set of cells. -/
def dot {d : ℕ} {R : Type*} [NonUnitalNonAssocSemiring R] (S : Finset (Cell d))
    (x y : Fld d R) : R := ∑ c ∈ S, x c * y c

section
variable {d : ℕ} {R : Type*} [Field R]

theorem SuppIn.mul_left {S : Finset (Cell d)} {u : Fld d R} (h : SuppIn S u) (m : Fld d R) :
    SuppIn S (fun c => m c * u c) := fun c hc => by simp [h c hc]

theorem SuppIn.add {S : Finset (Cell d)} {u w : Fld d R} (h : SuppIn S u) (h' : SuppIn S w) :
    SuppIn S (fun c => u c + w c) := fun c hc => by simp [h c hc, h' c hc]

theorem SuppIn.neg {S : Finset (Cell d)} {u : Fld d R} (h : SuppIn S u) :
    SuppIn S (fun c => -u c) := fun c hc => by simp [h c hc]

theorem SuppIn.zero (S : Finset (Cell d)) : SuppIn S (fun _ => (0 : R)) := fun _ _ => rfl

theorem dot_comm (S : Finset (Cell d)) (x y : Fld d R) : dot S x y = dot S y x :=
  Finset.sum_congr rfl fun _ _ => mul_comm _ _

theorem dot_shift {S : Finset (Cell d)} {u w : Fld d R} (hu : SuppIn S u) (hw : SuppIn S w)
    (k : Fin d) (j : ℤ) :
    ∑ c ∈ S, u (c.shift k j) * w c = ∑ c ∈ S, u c * w (c.shift k (-j)) := by
  rw [← finsum_eq_sum_of_support_subset (fun c => u (c.shift k j) * w c),
    ← finsum_eq_sum_of_support_subset (fun c => u c * w (c.shift k (-j)))]
  · rw [← finsum_comp_equiv (Equiv.addRight (Pi.single k j : Cell d))
      (f := fun c : Cell d => u c * w (c.shift k (-j)))]
    congr 1
    funext c
    simp only [Equiv.coe_addRight, Cell.shift]
    rw [show c + Pi.single k j + Pi.single k (-j) = c by rw [add_assoc, ← Pi.single_add]; simp]
  · intro c hc
    by_contra h
    exact hc (by simp [hu c h])
  · intro c hc
    by_contra h
    exact hc (by simp [hw c h])

/-- The first-derivative stencil along dimension `k` applied to an array. -/
def D1 (acc : Acc) (rdx : R) (k : Fin d) (u : Fld d R) : Fld d R :=
  fun c => cDiff1 acc rdx fun j => u (c.shift k j)

/-- The second-derivative stencil along dimension `k` applied to an array. -/
def D2 (acc : Acc) (rdx2 : R) (k : Fin d) (u : Fld d R) : Fld d R :=
  fun c => cDiff2 acc rdx2 fun j => u (c.shift k j)

theorem dot_smul_left (S : Finset (Cell d)) (m : R) (x y : Fld d R) :
    dot S (fun c => m * x c) y = m * dot S x y := by
  simp only [dot, Finset.mul_sum, mul_assoc]

theorem dot_add_left (S : Finset (Cell d)) (x x' y : Fld d R) :
    dot S (fun c => x c + x' c) y = dot S x y + dot S x' y := by
  simp only [dot, ← Finset.sum_add_distrib, add_mul]

theorem dot_sub_left (S : Finset (Cell d)) (x x' y : Fld d R) :
    dot S (fun c => x c - x' c) y = dot S x y - dot S x' y := by
  simp only [dot, ← Finset.sum_sub_distrib, sub_mul]

theorem dot_add_right (S : Finset (Cell d)) (x y y' : Fld d R) :
    dot S x (fun c => y c + y' c) = dot S x y + dot S x y' := by
  simp only [dot, ← Finset.sum_add_distrib, mul_add]

theorem dot_sub_right (S : Finset (Cell d)) (x y y' : Fld d R) :
    dot S x (fun c => y c - y' c) = dot S x y - dot S x y' := by
  simp only [dot, ← Finset.sum_sub_distrib, mul_sub]

theorem dot_smul_right (S : Finset (Cell d)) (m : R) (x y : Fld d R) :
    dot S x (fun c => m * y c) = m * dot S x y := by
  rw [dot_comm, dot_smul_left, dot_comm]

theorem dot_mul_assoc (S : Finset (Cell d)) (m x y : Fld d R) :
    dot S (fun c => m c * x c) y = dot S x (fun c => m c * y c) :=
  Finset.sum_congr rfl fun _ _ => by ring

theorem dot_shift' {S : Finset (Cell d)} {u w : Fld d R} (hu : SuppIn S u) (hw : SuppIn S w)
    (k : Fin d) (j : ℤ) :
    dot S (fun c => u (c.shift k j)) w = dot S u (fun c => w (c.shift k (-j))) :=
  dot_shift hu hw k j

/-- Summation by parts: the first-derivative stencil is antisymmetric. -/
theorem dot_D1 {S : Finset (Cell d)} {u w : Fld d R} (hu : SuppIn S u) (hw : SuppIn S w)
    (acc : Acc) (rdx : R) (k : Fin d) :
    dot S (D1 acc rdx k u) w = -dot S u (D1 acc rdx k w) := by
  have key : ∀ (m : R) (j : ℤ),
      dot S (fun c => m * (u (c.shift k j) - u (c.shift k (-j)))) w =
        -dot S u (fun c => m * (w (c.shift k j) - w (c.shift k (-j)))) := by
    intro m j
    rw [dot_smul_left, dot_sub_left, dot_shift' hu hw, dot_shift' hu hw, neg_neg, dot_smul_right,
      dot_sub_right]
    ring
  have pull : ∀ (f g : Fld d R), (∀ c, f c = g c * rdx) → dot S f w = rdx * dot S g w := by
    intro f g h
    rw [← dot_smul_left]; exact Finset.sum_congr rfl fun c _ => by rw [h]; ring
  have pull' : ∀ (f g : Fld d R), (∀ c, f c = g c * rdx) → dot S u f = rdx * dot S u g := by
    intro f g h
    rw [← dot_smul_right]; exact Finset.sum_congr rfl fun c _ => by rw [h]; ring
  cases acc
  · rw [pull _ _ (fun c => by simp only [D1, cDiff1]; rfl),
      pull' _ _ (fun c => by simp only [D1, cDiff1]; rfl), key]
    ring
  · rw [pull _ _ (fun c => by simp only [D1, cDiff1]; rfl),
      pull' _ _ (fun c => by simp only [D1, cDiff1]; rfl)]
    simp only [dot_add_left, dot_add_right, key]
    ring
  · rw [pull _ _ (fun c => by simp only [D1, cDiff1]; rfl),
      pull' _ _ (fun c => by simp only [D1, cDiff1]; rfl)]
    simp only [dot_add_left, dot_add_right, key]
    ring
  · rw [pull _ _ (fun c => by simp only [D1, cDiff1]; rfl),
      pull' _ _ (fun c => by simp only [D1, cDiff1]; rfl)]
    simp only [dot_add_left, dot_add_right, key]
    ring

/-- Summation by parts: the second-derivative stencil is symmetric. -/
theorem dot_D2 {S : Finset (Cell d)} {u w : Fld d R} (hu : SuppIn S u) (hw : SuppIn S w)
    (acc : Acc) (rdx : R) (k : Fin d) :
    dot S (D2 acc rdx k u) w = dot S u (D2 acc rdx k w) := by
  have z : ∀ (m : R), dot S (fun c => m * u (c.shift k 0)) w =
      dot S u (fun c => m * w (c.shift k 0)) := by
    intro m; simp [dot_smul_left, dot_smul_right]
  have s : ∀ (j : ℤ), dot S (fun c => u (c.shift k j) + u (c.shift k (-j))) w =
        dot S u (fun c => w (c.shift k j) + w (c.shift k (-j))) := by
    intro j
    rw [dot_add_left, dot_shift' hu hw, dot_shift' hu hw, neg_neg, dot_add_right]
    ring
  have key : ∀ (m : R) (j : ℤ),
      dot S (fun c => m * (u (c.shift k j) + u (c.shift k (-j)))) w =
        dot S u (fun c => m * (w (c.shift k j) + w (c.shift k (-j)))) := by
    intro m j
    rw [dot_smul_left, s, dot_smul_right]
  have pull : ∀ (f g : Fld d R), (∀ c, f c = g c * rdx) → dot S f w = rdx * dot S g w := by
    intro f g h
    rw [← dot_smul_left]; exact Finset.sum_congr rfl fun c _ => by rw [h]; ring
  have pull' : ∀ (f g : Fld d R), (∀ c, f c = g c * rdx) → dot S u f = rdx * dot S u g := by
    intro f g h
    rw [← dot_smul_right]; exact Finset.sum_congr rfl fun c _ => by rw [h]; ring
  cases acc
  all_goals
    rw [pull _ _ (fun c => by simp only [D2, cDiff2]; rfl),
      pull' _ _ (fun c => by simp only [D2, cDiff2]; rfl)]
    simp only [dot_add_left _ (fun c => _ * u _), dot_add_right _ _ (fun c => _ * w _),
      dot_add_left _ (fun c => _ * u _ + _), dot_add_right _ _ (fun c => _ * w _ + _),
      dot_add_left _ (fun c => _ * u _ + _ + _), dot_add_right _ _ (fun c => _ * w _ + _ + _),
      dot_add_left _ (fun c => _ * u _ + _ + _ + _),
      dot_add_right _ _ (fun c => _ * w _ + _ + _ + _), key, s, z]

end
end Dw
