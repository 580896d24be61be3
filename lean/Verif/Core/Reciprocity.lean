import Mathlib.Algebra.BigOperators.Intervals
import Mathlib.Algebra.BigOperators.Ring.Finset
import Mathlib.Tactic.LinearCombination
import Mathlib.Tactic.Ring

/-!
# Reciprocity of leapfrog schemes

Two runs `A`, `B` of a scheme that alternately updates `y` (from `x`) and `x` (from the new `y`), both
starting at rest.  `xt`, `yt` are `x`, `y` before multiplication by the material parameters.
-/

namespace Dw

/-- Quantities of one run: at step `n`, `g n` is added to `yt n` because of `x n`, `e n` to `xt n`
because of `y (n + 1)`, and `f n`, `s n` are the sources. -/
structure Leap (X Y : Type*) where
  x : ℕ → X
  xt : ℕ → X
  y : ℕ → Y
  yt : ℕ → Y
  e : ℕ → X
  g : ℕ → Y
  s : ℕ → X
  f : ℕ → Y

variable {R X Y : Type*} [CommRing R] [AddCommMonoid X] [AddCommMonoid Y]

/-- The recursion. -/
structure Leap.Run (A : Leap X Y) : Prop where
  x_zero : A.xt 0 = 0
  y_zero : A.yt 0 = 0
  x_succ : ∀ n, A.xt (n + 1) = A.xt n + A.e n + A.s n
  y_succ : ∀ n, A.yt (n + 1) = A.yt n + A.g n + A.f n

/-- Convolution-type reciprocity. -/
theorem Leap.reciprocity {A B : Leap X Y} (hA : A.Run) (hB : B.Run) (bX : X → X → R) (bY : Y → Y → R)
    (hX : ∀ x x' z, bX (x + x') z = bX x z + bX x' z) (hX0 : ∀ z, bX 0 z = 0)
    (hY : ∀ y y' z, bY (y + y') z = bY y z + bY y' z) (hY0 : ∀ z, bY 0 z = 0)
    (symX : ∀ m n, bX (A.xt m) (B.x n) = bX (B.xt n) (A.x m))
    (symY : ∀ m n, bY (A.yt m) (B.y n) = bY (B.yt n) (A.y m))
    (skA : ∀ m n, bX (A.e m) (B.x n) = -bY (B.g n) (A.y (m + 1)))
    (skB : ∀ m n, bX (B.e m) (A.x n) = -bY (A.g n) (B.y (m + 1))) (T : ℕ) :
    ∑ t ∈ Finset.range T, (bX (A.s t) (B.x (T - 1 - t)) - bY (A.f t) (B.y (T - t))) =
      ∑ t ∈ Finset.range T, (bX (B.s t) (A.x (T - 1 - t)) - bY (B.f t) (A.y (T - t))) := by
  let Z : ℕ → R := fun t => bX (A.xt t) (B.x (T - t)) - bY (A.yt t) (B.y (T - t))
  have step : ∀ t, t < T → Z (t + 1) - Z t =
      (bX (A.s t) (B.x (T - 1 - t)) - bY (A.f t) (B.y (T - t))) -
      (bX (B.s (T - 1 - t)) (A.x t) - bY (B.f (T - 1 - t)) (A.y (t + 1))) := by
    intro t ht
    obtain ⟨n, rfl⟩ : ∃ n, T = t + 1 + n := ⟨T - t - 1, by omega⟩
    have e1 : t + 1 + n - (t + 1) = n := by omega
    have e2 : t + 1 + n - t = n + 1 := by omega
    have e3 : t + 1 + n - 1 - t = n := by omega
    simp only [Z, e1, e2, e3]
    have x1 : bX (A.xt (t + 1)) (B.x n) =
        bX (A.xt t) (B.x n) + bX (A.e t) (B.x n) + bX (A.s t) (B.x n) := by rw [hA.x_succ, hX, hX]
    have x2 : bX (B.xt (n + 1)) (A.x t) =
        bX (B.xt n) (A.x t) + bX (B.e n) (A.x t) + bX (B.s n) (A.x t) := by rw [hB.x_succ, hX, hX]
    have y1 : bY (A.yt (t + 1)) (B.y (n + 1)) = bY (A.yt t) (B.y (n + 1)) +
        bY (A.g t) (B.y (n + 1)) + bY (A.f t) (B.y (n + 1)) := by rw [hA.y_succ, hY, hY]
    have y2 : bY (B.yt (n + 1)) (A.y (t + 1)) = bY (B.yt n) (A.y (t + 1)) +
        bY (B.g n) (A.y (t + 1)) + bY (B.f n) (A.y (t + 1)) := by rw [hB.y_succ, hY, hY]
    linear_combination x1 - symX t (n + 1) - x2 + symX t n + skA t n - skB n t
      - symY (t + 1) n - y1 + symY (t + 1) (n + 1) + y2
  have tele := Finset.sum_range_sub Z T
  have z0 : Z 0 = 0 := by simp [Z, hA.x_zero, hA.y_zero, hX0, hY0]
  have zT : Z T = 0 := by
    simp only [Z, symX, symY, Nat.sub_self, hB.x_zero, hB.y_zero, hX0, hY0, sub_self]
  rw [z0, zT, sub_self, Finset.sum_congr rfl fun t ht => step t (Finset.mem_range.1 ht),
    Finset.sum_sub_distrib] at tele
  rw [sub_eq_zero.1 tele,
    ← Finset.sum_range_reflect (fun t => bX (B.s t) (A.x (T - 1 - t)) - bY (B.f t) (A.y (T - t))) T]
  refine Finset.sum_congr rfl fun t ht => ?_
  have := Finset.mem_range.1 ht
  rw [show T - 1 - (T - 1 - t) = t by omega, show T - (T - 1 - t) = t + 1 by omega]

/-- If the responses `P δ` and `Q δ` to a unit impulse are related to those to every wavelet by
reciprocity, the responses to equal wavelets agree. -/
theorem responses_eq {R : Type*} [CommRing R] (P Q : (ℕ → R) → ℕ → R)
    (h : ∀ f g T, ∑ t ∈ Finset.range T, f t * Q g (T - 1 - t) =
      ∑ t ∈ Finset.range T, g t * P f (T - 1 - t)) (f : ℕ → R) (n : ℕ) : P f n = Q f n := by
  let δ : ℕ → R := fun t => if t = 0 then 1 else 0
  have hδ : ∀ (u : ℕ → R) n, ∑ t ∈ Finset.range (n + 1), δ t * u (n + 1 - 1 - t) = u n := by
    intro u n
    rw [Finset.sum_eq_single 0]
    · simp [δ]
    · intro t _ ht; simp [δ, ht]
    · intro h0; simp at h0
  have hP : ∀ f n, P f n = ∑ t ∈ Finset.range (n + 1), f t * Q δ (n + 1 - 1 - t) := fun f n => by
    rw [h f δ (n + 1), hδ]
  have hQ : ∀ f n, Q f n = ∑ t ∈ Finset.range (n + 1), f t * P δ (n + 1 - 1 - t) := fun f n => by
    rw [← h δ f (n + 1), hδ]
  have e : ∀ m, Q δ m = P δ m := fun m => by rw [hQ, hδ]
  rw [hP, hQ]
  simp only [e]

end Dw
