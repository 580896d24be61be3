import Mathlib.Algebra.Order.BigOperators.Ring.Finset
import Mathlib.Algebra.Order.Chebyshev
import Mathlib.Data.Real.Basic
import Mathlib.Tactic.Linarith
import Mathlib.Tactic.NormNum
import Verif.Core.Dot

/-!
# Positivity and bounds of the second-derivative stencils
-/

namespace Dw

variable {d : ℕ}

theorem Cell.shift_shift (c : Cell d) (k : Fin d) (i j : ℤ) :
    (c.shift k i).shift k j = c.shift k (i + j) := by
  simp only [Cell.shift, add_assoc, ← Pi.single_add]

/-- Correlation of an array with itself shifted by `j` along `k`. -/
def corr (S : Finset (Cell d)) (u : Fld d ℝ) (k : Fin d) (j : ℤ) : ℝ :=
  ∑ c ∈ S, u c * u (c.shift k j)

/-- The cells within `4` of `S` along `k`. -/
def near (S : Finset (Cell d)) (k : Fin d) : Finset (Cell d) :=
  (Finset.Icc (-4 : ℤ) 4).biUnion fun i => S.image fun c => c.shift k (-i)

theorem mem_near {S : Finset (Cell d)} {k : Fin d} {c : Cell d} {i : ℤ} (h1 : -4 ≤ i) (h2 : i ≤ 4)
    (h : c.shift k i ∈ S) : c ∈ near S k := by
  simp only [near, Finset.mem_biUnion, Finset.mem_Icc, Finset.mem_image]
  refine ⟨i, ⟨h1, h2⟩, _, h, ?_⟩
  rw [Cell.shift_shift]
  simp

theorem sum_near {S : Finset (Cell d)} {u : Fld d ℝ} (hu : SuppIn S u) (k : Fin d) (i j : ℤ)
    (h1 : -4 ≤ i) (h2 : i ≤ 4) :
    ∑ c ∈ near S k, u (c.shift k i) * u (c.shift k j) = corr S u k (j - i) := by
  rw [← finsum_eq_sum_of_support_subset (fun c : Cell d => u (c.shift k i) * u (c.shift k j)), corr,
    ← finsum_eq_sum_of_support_subset (fun c : Cell d => u c * u (c.shift k (j - i)))]
  · rw [← finsum_comp_equiv (Equiv.addRight (Pi.single k i : Cell d))
      (f := fun c : Cell d => u c * u (c.shift k (j - i)))]
    congr 1
    funext c
    change _ = u (c.shift k i) * u ((c.shift k i).shift k (j - i))
    rw [Cell.shift_shift]
    congr 3
    ring
  · intro c hc
    by_contra h
    exact hc (by simp [hu c h])
  · intro c hc
    by_contra h
    exact hc (by simp only [hu _ fun hs => h (mem_near h1 h2 hs), zero_mul])

theorem corr_neg {S : Finset (Cell d)} {u : Fld d ℝ} (hu : SuppIn S u) (k : Fin d) (j : ℤ) :
    corr S u k (-j) = corr S u k j := by
  have := dot_shift hu hu k j
  unfold corr
  rw [← this]
  exact Finset.sum_congr rfl fun _ _ => mul_comm _ _

theorem corr_zero (S : Finset (Cell d)) (u : Fld d ℝ) (k : Fin d) :
    corr S u k 0 = ∑ c ∈ S, u c ^ 2 := by
  simp only [corr, Cell.shift_zero, sq]

theorem corr_bound {S : Finset (Cell d)} {u : Fld d ℝ} (hu : SuppIn S u) (k : Fin d) (j : ℤ) :
    |corr S u k j| ≤ corr S u k 0 := by
  have hs : ∑ c ∈ S, u (c.shift k j) ^ 2 ≤ ∑ c ∈ S, u c ^ 2 := by
    classical
    have h1 : SuppIn S (fun c => u c ^ 2) := fun c hc => by simp [hu c hc]
    have h2 : SuppIn S (fun c => if c ∈ S then (1 : ℝ) else 0) := fun c hc => by simp [hc]
    have := dot_shift h1 h2 k j
    calc ∑ c ∈ S, u (c.shift k j) ^ 2
        = ∑ c ∈ S, u (c.shift k j) ^ 2 * (if c ∈ S then (1 : ℝ) else 0) :=
          Finset.sum_congr rfl fun c hc => by simp [hc]
      _ = ∑ c ∈ S, u c ^ 2 * (if c.shift k (-j) ∈ S then (1 : ℝ) else 0) := this
      _ ≤ ∑ c ∈ S, u c ^ 2 := by
          refine Finset.sum_le_sum fun c _ => ?_
          split_ifs
          · simp
          · simpa using sq_nonneg (u c)
  have hp : 0 ≤ ∑ c ∈ S, (u c + u (c.shift k j)) ^ 2 := Finset.sum_nonneg fun _ _ => sq_nonneg _
  have hm : 0 ≤ ∑ c ∈ S, (u c - u (c.shift k j)) ^ 2 := Finset.sum_nonneg fun _ _ => sq_nonneg _
  have ep : ∑ c ∈ S, (u c + u (c.shift k j)) ^ 2 =
      ∑ c ∈ S, u c ^ 2 + 2 * corr S u k j + ∑ c ∈ S, u (c.shift k j) ^ 2 := by
    simp only [corr, Finset.mul_sum, ← Finset.sum_add_distrib]
    exact Finset.sum_congr rfl fun _ _ => by ring
  have em : ∑ c ∈ S, (u c - u (c.shift k j)) ^ 2 =
      ∑ c ∈ S, u c ^ 2 - 2 * corr S u k j + ∑ c ∈ S, u (c.shift k j) ^ 2 := by
    simp only [corr, Finset.mul_sum, ← Finset.sum_add_distrib, ← Finset.sum_sub_distrib]
    exact Finset.sum_congr rfl fun _ _ => by ring
  rw [abs_le, corr_zero]
  constructor <;> linarith

/-- `‖Δu‖²` along `k`. -/
def grad2 (S : Finset (Cell d)) (u : Fld d ℝ) (k : Fin d) : ℝ :=
  ∑ c ∈ near S k, (u (c.shift k 1) - u c) ^ 2

theorem grad2_eq {S : Finset (Cell d)} {u : Fld d ℝ} (hu : SuppIn S u) (k : Fin d) :
    grad2 S u k = 2 * corr S u k 0 - 2 * corr S u k 1 := by
  have h := fun i j h1 h2 => sum_near hu k i j h1 h2
  have e : grad2 S u k = ∑ c ∈ near S k, u (c.shift k 1) * u (c.shift k 1)
      - 2 * ∑ c ∈ near S k, u (c.shift k 0) * u (c.shift k 1)
      + ∑ c ∈ near S k, u (c.shift k 0) * u (c.shift k 0) := by
    simp only [grad2, Finset.mul_sum, ← Finset.sum_add_distrib, ← Finset.sum_sub_distrib]
    exact Finset.sum_congr rfl fun c _ => by rw [Cell.shift_zero]; ring
  rw [e, h 1 1 (by norm_num) (by norm_num), h 0 1 (by norm_num) (by norm_num),
    h 0 0 (by norm_num) (by norm_num)]
  norm_num
  ring

theorem corr_sq2 {S : Finset (Cell d)} {u : Fld d ℝ} (hu : SuppIn S u) (k : Fin d) :
    0 ≤ 6 * corr S u k 0 - 8 * corr S u k 1 + 2 * corr S u k 2 := by
  have h := fun i j h1 h2 => sum_near hu k i j h1 h2
  have e : ∑ c ∈ near S k, (u (c.shift k 1) - 2 * u (c.shift k 0) + u (c.shift k (-1))) ^ 2 =
      ∑ c ∈ near S k, u (c.shift k 1) * u (c.shift k 1)
      + 4 * ∑ c ∈ near S k, u (c.shift k 0) * u (c.shift k 0)
      + ∑ c ∈ near S k, u (c.shift k (-1)) * u (c.shift k (-1))
      - 4 * ∑ c ∈ near S k, u (c.shift k 0) * u (c.shift k 1)
      - 4 * ∑ c ∈ near S k, u (c.shift k (-1)) * u (c.shift k 0)
      + 2 * ∑ c ∈ near S k, u (c.shift k (-1)) * u (c.shift k 1) := by
    simp only [Finset.mul_sum, ← Finset.sum_add_distrib, ← Finset.sum_sub_distrib]
    exact Finset.sum_congr rfl fun c _ => by ring
  have hn : 0 ≤ ∑ c ∈ near S k, (u (c.shift k 1) - 2 * u (c.shift k 0) + u (c.shift k (-1))) ^ 2 :=
    Finset.sum_nonneg fun _ _ => sq_nonneg _
  rw [e] at hn
  simp (disch := norm_num) only [h] at hn
  norm_num at hn
  linarith

theorem corr_sq3 {S : Finset (Cell d)} {u : Fld d ℝ} (hu : SuppIn S u) (k : Fin d) :
    0 ≤ 20 * corr S u k 0 - 30 * corr S u k 1 + 12 * corr S u k 2 - 2 * corr S u k 3 := by
  have h := fun i j h1 h2 => sum_near hu k i j h1 h2
  have e : ∑ c ∈ near S k, (u (c.shift k 2) - 3 * u (c.shift k 1) + 3 * u (c.shift k 0)
        - u (c.shift k (-1))) ^ 2 =
      ∑ c ∈ near S k, u (c.shift k 2) * u (c.shift k 2)
      + 9 * ∑ c ∈ near S k, u (c.shift k 1) * u (c.shift k 1)
      + 9 * ∑ c ∈ near S k, u (c.shift k 0) * u (c.shift k 0)
      + ∑ c ∈ near S k, u (c.shift k (-1)) * u (c.shift k (-1))
      - 6 * ∑ c ∈ near S k, u (c.shift k 1) * u (c.shift k 2)
      - 18 * ∑ c ∈ near S k, u (c.shift k 0) * u (c.shift k 1)
      - 6 * ∑ c ∈ near S k, u (c.shift k (-1)) * u (c.shift k 0)
      + 6 * ∑ c ∈ near S k, u (c.shift k 0) * u (c.shift k 2)
      + 6 * ∑ c ∈ near S k, u (c.shift k (-1)) * u (c.shift k 1)
      - 2 * ∑ c ∈ near S k, u (c.shift k (-1)) * u (c.shift k 2) := by
    simp only [Finset.mul_sum, ← Finset.sum_add_distrib, ← Finset.sum_sub_distrib]
    exact Finset.sum_congr rfl fun c _ => by ring
  have hn : 0 ≤ ∑ c ∈ near S k, (u (c.shift k 2) - 3 * u (c.shift k 1) + 3 * u (c.shift k 0)
        - u (c.shift k (-1))) ^ 2 := Finset.sum_nonneg fun _ _ => sq_nonneg _
  rw [e] at hn
  simp (disch := norm_num) only [h] at hn
  norm_num at hn
  linarith

theorem corr_sq4 {S : Finset (Cell d)} {u : Fld d ℝ} (hu : SuppIn S u) (k : Fin d) :
    0 ≤ 70 * corr S u k 0 - 112 * corr S u k 1 + 56 * corr S u k 2 - 16 * corr S u k 3
      + 2 * corr S u k 4 := by
  have h := fun i j h1 h2 => sum_near hu k i j h1 h2
  have e : ∑ c ∈ near S k, (u (c.shift k 2) - 4 * u (c.shift k 1) + 6 * u (c.shift k 0)
        - 4 * u (c.shift k (-1)) + u (c.shift k (-2))) ^ 2 =
      ∑ c ∈ near S k, u (c.shift k 2) * u (c.shift k 2)
      + 16 * ∑ c ∈ near S k, u (c.shift k 1) * u (c.shift k 1)
      + 36 * ∑ c ∈ near S k, u (c.shift k 0) * u (c.shift k 0)
      + 16 * ∑ c ∈ near S k, u (c.shift k (-1)) * u (c.shift k (-1))
      + ∑ c ∈ near S k, u (c.shift k (-2)) * u (c.shift k (-2))
      - 8 * ∑ c ∈ near S k, u (c.shift k 1) * u (c.shift k 2)
      - 48 * ∑ c ∈ near S k, u (c.shift k 0) * u (c.shift k 1)
      - 48 * ∑ c ∈ near S k, u (c.shift k (-1)) * u (c.shift k 0)
      - 8 * ∑ c ∈ near S k, u (c.shift k (-2)) * u (c.shift k (-1))
      + 12 * ∑ c ∈ near S k, u (c.shift k 0) * u (c.shift k 2)
      + 32 * ∑ c ∈ near S k, u (c.shift k (-1)) * u (c.shift k 1)
      + 12 * ∑ c ∈ near S k, u (c.shift k (-2)) * u (c.shift k 0)
      - 8 * ∑ c ∈ near S k, u (c.shift k (-1)) * u (c.shift k 2)
      - 8 * ∑ c ∈ near S k, u (c.shift k (-2)) * u (c.shift k 1)
      + 2 * ∑ c ∈ near S k, u (c.shift k (-2)) * u (c.shift k 2) := by
    simp only [Finset.mul_sum, ← Finset.sum_add_distrib, ← Finset.sum_sub_distrib]
    exact Finset.sum_congr rfl fun c _ => by ring
  have hn : 0 ≤ ∑ c ∈ near S k, (u (c.shift k 2) - 4 * u (c.shift k 1) + 6 * u (c.shift k 0)
        - 4 * u (c.shift k (-1)) + u (c.shift k (-2))) ^ 2 :=
    Finset.sum_nonneg fun _ _ => sq_nonneg _
  rw [e] at hn
  simp (disch := norm_num) only [h] at hn
  norm_num at hn
  linarith

/-- Sum of the absolute values of the second-derivative weights. -/
noncomputable def Acc.weight2 : Acc → ℝ
  | .a2 => 4 | .a4 => 16 / 3 | .a6 => 272 / 45 | .a8 => 2048 / 315

theorem dot_D2_corr (S : Finset (Cell d)) (u : Fld d ℝ) (acc : Acc) (rdx2 : ℝ)
    (k : Fin d) : dot S u (D2 acc rdx2 k u) = cDiff2 acc rdx2 (corr S u k) := by
  cases acc <;>
  · simp only [dot, D2, cDiff2, corr, Finset.mul_sum, Finset.sum_mul, ← Finset.sum_add_distrib]
    exact Finset.sum_congr rfl fun c _ => by ring

/-- The second-derivative stencil is at least as coercive as the lowest-order one ... -/
theorem D2_coercive {S : Finset (Cell d)} {u : Fld d ℝ} (hu : SuppIn S u) (acc : Acc) {rdx2 : ℝ}
    (h : 0 ≤ rdx2) (k : Fin d) : rdx2 * grad2 S u k ≤ -dot S u (D2 acc rdx2 k u) := by
  have h1 := grad2_eq hu k
  have h2 := corr_sq2 hu k
  have h3 := corr_sq3 hu k
  have h4 := corr_sq4 hu k
  have key : ∀ x : ℝ, 0 ≤ x → -dot S u (D2 acc rdx2 k u) = rdx2 * (grad2 S u k + x) →
      rdx2 * grad2 S u k ≤ -dot S u (D2 acc rdx2 k u) := by
    intro x hx e
    rw [e]
    exact mul_le_mul_of_nonneg_left (by linarith) h
  rw [dot_D2_corr] at *
  have hneg := corr_neg hu k
  cases acc
  · refine key 0 le_rfl ?_
    simp only [cDiff2, hneg, h1]; ring
  · refine key (1 / 12 * (6 * corr S u k 0 - 8 * corr S u k 1 + 2 * corr S u k 2)) (by linarith) ?_
    simp only [cDiff2, hneg, h1]; ring
  · refine key (1 / 12 * (6 * corr S u k 0 - 8 * corr S u k 1 + 2 * corr S u k 2)
      + 1 / 90 * (20 * corr S u k 0 - 30 * corr S u k 1 + 12 * corr S u k 2 - 2 * corr S u k 3))
      (by linarith) ?_
    simp only [cDiff2, hneg, h1]; ring
  · refine key (1 / 12 * (6 * corr S u k 0 - 8 * corr S u k 1 + 2 * corr S u k 2)
      + 1 / 90 * (20 * corr S u k 0 - 30 * corr S u k 1 + 12 * corr S u k 2 - 2 * corr S u k 3)
      + 1 / 560 * (70 * corr S u k 0 - 112 * corr S u k 1 + 56 * corr S u k 2 - 16 * corr S u k 3
      + 2 * corr S u k 4)) (by linarith) ?_
    simp only [cDiff2, hneg, h1]; ring

/-- ... and bounded by the sum of its weights. -/
theorem D2_bounded {S : Finset (Cell d)} {u : Fld d ℝ} (hu : SuppIn S u) (acc : Acc) {rdx2 : ℝ}
    (h : 0 ≤ rdx2) (k : Fin d) :
    -dot S u (D2 acc rdx2 k u) ≤ acc.weight2 * rdx2 * ∑ c ∈ S, u c ^ 2 := by
  rw [dot_D2_corr, ← corr_zero S u k]
  have hneg := corr_neg hu k
  have b := fun j => abs_le.1 (corr_bound hu k j)
  have b1 := b 1
  have b2 := b 2
  have b3 := b 3
  have b4 := b 4
  have key : ∀ x y : ℝ, x ≤ y → ∀ l r, l = rdx2 * x → r = rdx2 * y → l ≤ r := by
    rintro x y hxy l r rfl rfl
    exact mul_le_mul_of_nonneg_left hxy h
  cases acc
  · refine key (2 * corr S u k 0 - 2 * corr S u k 1) (4 * corr S u k 0) (by linarith) _ _ ?_ ?_
    · simp only [cDiff2, hneg]; ring
    · simp only [Acc.weight2]; ring
  · refine key (5 / 2 * corr S u k 0 - 2 * (4 / 3 * corr S u k 1 - 1 / 12 * corr S u k 2))
      (16 / 3 * corr S u k 0) (by linarith) _ _ ?_ ?_
    · simp only [cDiff2, hneg]; ring
    · simp only [Acc.weight2]; ring
  · refine key (49 / 18 * corr S u k 0 - 2 * (3 / 2 * corr S u k 1 - 3 / 20 * corr S u k 2
      + 1 / 90 * corr S u k 3)) (272 / 45 * corr S u k 0) (by linarith) _ _ ?_ ?_
    · simp only [cDiff2, hneg]; ring
    · simp only [Acc.weight2]; ring
  · refine key (205 / 72 * corr S u k 0 - 2 * (8 / 5 * corr S u k 1 - 1 / 5 * corr S u k 2
      + 8 / 315 * corr S u k 3 - 1 / 560 * corr S u k 4)) (2048 / 315 * corr S u k 0)
      (by linarith) _ _ ?_ ?_
    · simp only [cDiff2, hneg]; ring
    · simp only [Acc.weight2]; ring

/-- Discrete Poincaré inequality: the value of an array at a cell is bounded by its differences
along a line of `N` cells that ends outside the support. -/
theorem poincare {S : Finset (Cell d)} {u : Fld d ℝ} (hu : SuppIn S u) (k : Fin d) (c : Cell d)
    (N : ℕ) (hN : c.shift k N ∉ S) : u c ^ 2 ≤ N * grad2 S u k := by
  classical
  have htel : ∀ m : ℕ, ∑ i ∈ Finset.range m, (u (c.shift k (i + 1)) - u (c.shift k i)) =
      u (c.shift k m) - u c := by
    intro m
    have := Finset.sum_range_sub (fun i : ℕ => u (c.shift k i)) m
    simpa using this
  have h1 : u c ^ 2 = (∑ i ∈ Finset.range N, (u (c.shift k (i + 1)) - u (c.shift k i))) ^ 2 := by
    rw [htel, hu _ hN]; ring
  rw [h1]
  refine (sq_sum_le_card_mul_sum_sq (s := Finset.range N)
    (f := fun i : ℕ => u (c.shift k (i + 1)) - u (c.shift k i))).trans ?_
  rw [Finset.card_range]
  refine mul_le_mul_of_nonneg_left ?_ (Nat.cast_nonneg N)
  have hinj : Function.Injective fun i : ℕ => c.shift k i := by
    intro i j hij
    have := congrFun hij k
    simpa using this
  have e : ∑ i ∈ Finset.range N, (u (c.shift k (i + 1)) - u (c.shift k i)) ^ 2 =
      ∑ c' ∈ (Finset.range N).image fun i : ℕ => c.shift k i, (u (c'.shift k 1) - u c') ^ 2 := by
    rw [Finset.sum_image fun i _ j _ h => hinj h]
    exact Finset.sum_congr rfl fun i _ => by rw [Cell.shift_shift]
  rw [e, grad2]
  have e2 : ∑ c' ∈ (Finset.range N).image fun i : ℕ => c.shift k i, (u (c'.shift k 1) - u c') ^ 2 =
      ∑ c' ∈ ((Finset.range N).image fun i : ℕ => c.shift k i).filter (· ∈ near S k),
        (u (c'.shift k 1) - u c') ^ 2 := by
    rw [Finset.sum_filter]
    refine Finset.sum_congr rfl fun c' _ => ?_
    split_ifs with hc
    · rfl
    · have z1 : u (c'.shift k 1) = 0 :=
        hu _ fun hs => hc (mem_near (by norm_num) (by norm_num) hs)
      have z0 : u c' = 0 :=
        hu _ fun hs => hc (mem_near (i := 0) (by norm_num) (by norm_num) (by simpa using hs))
      rw [z1, z0]; norm_num
  rw [e2]
  exact Finset.sum_le_sum_of_subset_of_nonneg (fun x hx => (Finset.mem_filter.1 hx).2)
    fun _ _ _ => sq_nonneg _

end Dw
