import Mathlib.Data.List.Sort
import Mathlib.Tactic.Ring

/-!
# The steps at which backward callbacks run
-/

namespace Dw.Driver

/-- The steps of the backward callbacks, in order of time: after each chunk of `cf` outer steps. -/
def bSteps (N cf : ℕ) : List ℕ :=
  (List.range ((N + cf - 1) / cf)).map fun i => N - min N ((i + 1) * cf)

theorem bSteps_pairwise (N cf : ℕ) : (bSteps N cf).Pairwise (· > ·) := by
  rw [bSteps, List.pairwise_map]
  refine List.Pairwise.imp_of_mem ?_ List.pairwise_lt_range
  intro a b ha hb hab
  rw [List.mem_range] at ha hb
  have h1 : (b + 1) * cf ≤ N + cf - 1 :=
    (Nat.mul_le_mul_right cf hb).trans (Nat.div_mul_le_self _ _)
  have h2 : (a + 1) * cf ≤ b * cf := Nat.mul_le_mul_right _ hab
  have hc : cf ≠ 0 := by
    rintro rfl
    simp at hb
  rw [Nat.add_mul] at h1 h2 ⊢
  rw [Nat.add_mul]
  omega

theorem mem_bSteps {N cf : ℕ} (hcf : 0 < cf) (j : ℕ) :
    j ∈ bSteps N cf ↔ j < N ∧ (j = 0 ∨ cf ∣ N - j) := by
  simp only [bSteps, List.mem_map, List.mem_range]
  constructor
  · rintro ⟨i, hi, rfl⟩
    have h1 : (i + 1) * cf ≤ N + cf - 1 :=
      (Nat.mul_le_mul_right cf hi).trans (Nat.div_mul_le_self _ _)
    have h2 : 0 < (i + 1) * cf := Nat.mul_pos (Nat.succ_pos _) hcf
    have h3 : i * cf < N := by
      rw [Nat.add_mul] at h1; omega
    refine ⟨by omega, ?_⟩
    by_cases hle : (i + 1) * cf ≤ N
    · right
      rw [Nat.min_eq_right hle, Nat.sub_sub_self hle]
      exact Dvd.intro_left _ rfl
    · left; omega
  · rintro ⟨hj, rfl | hd⟩
    · refine ⟨(N - 1) / cf, ?_, ?_⟩
      · rw [Nat.lt_iff_add_one_le, Nat.le_div_iff_mul_le hcf, Nat.add_mul]
        have := Nat.div_mul_le_self (N - 1) cf
        omega
      · have h2 := Nat.div_add_mod (N - 1) cf
        have h3 := Nat.mod_lt (N - 1) hcf
        rw [Nat.mul_comm] at h2
        rw [Nat.add_mul]
        omega
    · obtain ⟨i, hi⟩ := hd
      have hi0 : 0 < i := by
        rcases Nat.eq_zero_or_pos i with h | h
        · subst h; omega
        · exact h
      refine ⟨i - 1, ?_, ?_⟩
      · rw [Nat.lt_iff_add_one_le, Nat.le_div_iff_mul_le hcf, Nat.sub_add_cancel hi0, Nat.mul_comm]
        omega
      · rw [Nat.sub_add_cancel hi0, Nat.mul_comm]
        omega

end Dw.Driver
