import Mathlib.Algebra.Order.Chebyshev
import Mathlib.Algebra.Order.BigOperators.Ring.Finset
import Mathlib.Tactic.FieldSimp
import Verif.Core.Energy
import Verif.Core.Staggered

/-!
# Bounds of the staggered stencils in weighted norms
-/

namespace Dw

variable {d : ℕ}

/-- Weights of the stencil `DIFFXH1` at offsets `-3` to `4`. -/
noncomputable def hwt (acc : Acc) (j : ℤ) : ℝ :=
  match acc with
  | .a2 => if j = 1 then 1 else if j = 0 then -1 else 0
  | .a4 => if j = 1 then 9 / 8 else if j = 0 then -9 / 8 else if j = 2 then -1 / 24
      else if j = -1 then 1 / 24 else 0
  | .a6 => if j = 1 then 75 / 64 else if j = 0 then -75 / 64 else if j = 2 then -25 / 384
      else if j = -1 then 25 / 384 else if j = 3 then 3 / 640 else if j = -2 then -3 / 640 else 0
  | .a8 => if j = 1 then 1225 / 1024 else if j = 0 then -1225 / 1024 else if j = 2 then -245 / 3072
      else if j = -1 then 245 / 3072 else if j = 3 then 49 / 5120 else if j = -2 then -49 / 5120
      else if j = 4 then -5 / 7168 else if j = -3 then 5 / 7168 else 0

theorem sum_offsets (f : ℤ → ℝ) : ∑ j ∈ Finset.Icc (-3 : ℤ) 4, f j =
    f (-3) + f (-2) + f (-1) + f 0 + f 1 + f 2 + f 3 + f 4 := by
  have e : Finset.Icc (-3 : ℤ) 4 = {-3, -2, -1, 0, 1, 2, 3, 4} := by decide
  rw [e]
  simp
  ring

theorem cSH1_eq_sum (acc : Acc) (rdx : ℝ) (a : ℤ → ℝ) :
    cSH1 acc rdx a = rdx * ∑ j ∈ Finset.Icc (-3 : ℤ) 4, hwt acc j * a j := by
  rw [sum_offsets]
  cases acc <;> simp [hwt, cSH1] <;> ring

/-- Sum of the absolute weights. -/
noncomputable def hsum (acc : Acc) : ℝ := ∑ j ∈ Finset.Icc (-3 : ℤ) 4, |hwt acc j|

theorem hsum_val (acc : Acc) : hsum acc = match acc with
    | .a2 => 2 | .a4 => 7 / 3 | .a6 => 149 / 60 | .a8 => 2161 / 840 := by
  unfold hsum
  rw [sum_offsets]
  cases acc <;> simp [hwt, abs_div, abs_neg] <;> norm_num

/-- A nonnegative function that vanishes outside `S` has no larger sum after a shift. -/
theorem sum_shift_le {S : Finset (Cell d)} {f : Fld d ℝ} (hf : SuppIn S f) (h0 : ∀ c, 0 ≤ f c)
    (T : Finset (Cell d)) (k : Fin d) (j : ℤ) : ∑ c ∈ T, f (c.shift k j) ≤ ∑ c ∈ S, f c := by
  classical
  have inj : Set.InjOn (fun c : Cell d => c.shift k j) T := by
    intro c _ c' _ h
    simpa [Cell.shift] using h
  rw [← Finset.sum_image (g := fun c : Cell d => c.shift k j) (f := f) inj]
  have e : ∑ c ∈ T.image (fun c : Cell d => c.shift k j), f c =
      ∑ c ∈ T.image (fun c : Cell d => c.shift k j) ∩ S, f c := by
    symm
    refine Finset.sum_subset Finset.inter_subset_left fun c hc hn => ?_
    exact hf c fun hs => hn (Finset.mem_inter.2 ⟨hc, hs⟩)
  rw [e]
  exact Finset.sum_le_sum_of_subset_of_nonneg Finset.inter_subset_right fun c _ _ => h0 c

/-- Bound of the stencil in the norms weighted with `B` and `1 / rho`. -/
theorem dsh_bound {S T : Finset (Cell d)} {u : Fld d ℝ} (hu : SuppIn S u) (acc : Acc) (rdx : ℝ)
    (k : Fin d) (rho B : Fld d ℝ) (G : ℝ)
    (hrho : ∀ c ∈ T, ∀ j ∈ Finset.Icc (-3 : ℤ) 4, hwt acc j ≠ 0 → 0 < rho (c.shift k j))
    (hrS : ∀ c ∈ S, 0 < rho c) (hB : ∀ c ∈ T, 0 ≤ B c)
    (hG0 : 0 ≤ G) (hG : ∀ c ∈ T, B c * ∑ j ∈ Finset.Icc (-3 : ℤ) 4, |hwt acc j| * rho (c.shift k j) ≤ G) :
    ∑ c ∈ T, B c * DSH acc rdx k u c ^ 2 ≤ rdx ^ 2 * (G * hsum acc) * ∑ c ∈ S, u c ^ 2 / rho c := by
  have hf : SuppIn S fun c => u c ^ 2 / rho c := fun c hc => by simp [hu c hc]
  have h0 : ∀ c, 0 ≤ u c ^ 2 / rho c := by
    intro c
    by_cases hc : c ∈ S
    · have := hrS c hc
      positivity
    · simp [hu c hc]
  have point : ∀ c ∈ T, B c * DSH acc rdx k u c ^ 2 ≤ rdx ^ 2 * G *
      ∑ j ∈ Finset.Icc (-3 : ℤ) 4, |hwt acc j| * (u (c.shift k j) ^ 2 / rho (c.shift k j)) := by
    intro c hc
    have cs := Finset.sum_sq_le_sum_mul_sum_of_sq_eq_mul (Finset.Icc (-3 : ℤ) 4)
      (r := fun j => hwt acc j * u (c.shift k j)) (f := fun j => |hwt acc j| * rho (c.shift k j))
      (g := fun j => |hwt acc j| * (u (c.shift k j) ^ 2 / rho (c.shift k j))) ?_ ?_ ?_
    · have hX : 0 ≤ ∑ j ∈ Finset.Icc (-3 : ℤ) 4,
          |hwt acc j| * (u (c.shift k j) ^ 2 / rho (c.shift k j)) :=
        Finset.sum_nonneg fun j _ => mul_nonneg (abs_nonneg _) (h0 _)
      unfold DSH
      rw [cSH1_eq_sum, mul_pow]
      calc B c * (rdx ^ 2 * (∑ j ∈ Finset.Icc (-3 : ℤ) 4, hwt acc j * u (c.shift k j)) ^ 2)
          ≤ B c * (rdx ^ 2 * _) :=
            mul_le_mul_of_nonneg_left (mul_le_mul_of_nonneg_left cs (sq_nonneg _)) (hB c hc)
        _ = rdx ^ 2 * (B c * ∑ j ∈ Finset.Icc (-3 : ℤ) 4, |hwt acc j| * rho (c.shift k j)) *
              ∑ j ∈ Finset.Icc (-3 : ℤ) 4,
                |hwt acc j| * (u (c.shift k j) ^ 2 / rho (c.shift k j)) := by ring
        _ ≤ _ := mul_le_mul_of_nonneg_right
            (mul_le_mul_of_nonneg_left (hG c hc) (sq_nonneg _)) hX
    · intro j hj
      by_cases hw : hwt acc j = 0
      · simp [hw]
      · exact mul_nonneg (abs_nonneg _) (hrho c hc j hj hw).le
    · intro j _
      exact mul_nonneg (abs_nonneg _) (h0 _)
    · intro j hj
      by_cases hw : hwt acc j = 0
      · simp [hw]
      · have := (hrho c hc j hj hw).ne'
        rw [mul_pow, ← sq_abs (hwt acc j)]
        field_simp
  calc ∑ c ∈ T, B c * DSH acc rdx k u c ^ 2
      ≤ ∑ c ∈ T, rdx ^ 2 * G * ∑ j ∈ Finset.Icc (-3 : ℤ) 4,
          |hwt acc j| * (u (c.shift k j) ^ 2 / rho (c.shift k j)) := Finset.sum_le_sum point
    _ = rdx ^ 2 * G * ∑ j ∈ Finset.Icc (-3 : ℤ) 4,
          |hwt acc j| * ∑ c ∈ T, (u (c.shift k j) ^ 2 / rho (c.shift k j)) := by
        rw [← Finset.mul_sum, Finset.sum_comm]
        simp only [Finset.mul_sum]
    _ ≤ rdx ^ 2 * G * ∑ j ∈ Finset.Icc (-3 : ℤ) 4, |hwt acc j| * ∑ c ∈ S, u c ^ 2 / rho c :=
        mul_le_mul_of_nonneg_left (Finset.sum_le_sum fun j _ =>
          mul_le_mul_of_nonneg_left (sum_shift_le hf h0 T k j) (abs_nonneg _)) (by positivity)
    _ = rdx ^ 2 * (G * hsum acc) * ∑ c ∈ S, u c ^ 2 / rho c := by
        rw [← Finset.sum_mul, hsum]; ring

end Dw
