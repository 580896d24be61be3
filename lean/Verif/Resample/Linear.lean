import Verif.Resample.Lemmas

/-!
# Resampling is linear
-/

namespace Dw.Resample

open Finset

/-- A linear combination of two signals of the same length. -/
def Sig.comb (α β : ℝ) (x y : Sig ℝ) : Sig ℝ := ⟨x.len, fun j => α * x.val j + β * y.val j⟩

theorem sum_comb (α β : ℝ) (K m : ℕ) (c : ℕ → ℝ) (g : ℕ → ℕ → ℝ) (x y : ℕ → ℝ) :
    ∑ k ∈ range K, c k * ∑ i ∈ range m, (α * x i + β * y i) * g k i =
      α * ∑ k ∈ range K, c k * ∑ i ∈ range m, x i * g k i +
      β * ∑ k ∈ range K, c k * ∑ i ∈ range m, y i * g k i := by
  simp only [mul_sum]
  rw [← sum_add_distrib]
  refine sum_congr rfl fun k _ => ?_
  rw [← sum_add_distrib]
  exact sum_congr rfl fun i _ => by ring

theorem upsample_comb (α β : ℝ) (x y : Sig ℝ) (hl : y.len = x.len) {r : ℤ} {ff tf : ℝ} (tt : Bool)
    (hv : validate r ff tf = .ok ()) : ∃ x' y', upsample x r ff tf tt = .ok x' ∧
      upsample y r ff tf tt = .ok y' ∧ upsample (x.comb α β y) r ff tf tt = .ok (x'.comb α β y') ∧
      y'.len = x'.len := by
  obtain ⟨n, x⟩ := x
  obtain ⟨m, y⟩ := y
  obtain rfl : m = n := hl
  by_cases h : m = 0 ∨ r = 1
  · refine ⟨⟨m, x⟩, ⟨m, y⟩, ?_, ?_, ?_, rfl⟩ <;> simp [upsample, hv, Sig.comb, h]
  · have hr : 0 < r ∧ (0 ≤ ff ∧ ff ≤ 1) ∧ 0 ≤ tf ∧ tf ≤ 1 := by
      unfold validate at hv
      split_ifs at hv with h1 h2 h3
      exact ⟨by omega, h2, h3⟩
    obtain ⟨r, rfl⟩ := Int.eq_ofNat_of_zero_le hr.1.le
    obtain ⟨v, h1, e1⟩ := upsample_eq m x (by omega) (by omega : 1 < r) hr.2.1 hr.2.2 tt
    obtain ⟨v', h2, e2⟩ := upsample_eq m y (by omega) (by omega : 1 < r) hr.2.1 hr.2.2 tt
    obtain ⟨v'', h3, e3⟩ := upsample_eq m (fun j => α * x j + β * y j) (by omega) (by omega : 1 < r) hr.2.1
      hr.2.2 tt
    refine ⟨_, _, h1, h2, h3.trans ?_, rfl⟩
    simp only [Sig.comb, Except.ok.injEq, Sig.mk.injEq, true_and]
    funext j
    rw [e1, e2, e3, sum_comb α β]
    ring

theorem downsample_comb (α β : ℝ) (x y : Sig ℝ) (hl : y.len = x.len) {r : ℤ} {ff tf : ℝ} (tt : Bool) (sh : ℝ)
    {x' y' : Sig ℝ} (hx : downsample x r ff tf tt sh = .ok x') (hy : downsample y r ff tf tt sh = .ok y') :
    downsample (x.comb α β y) r ff tf tt sh = .ok (x'.comb α β y') ∧ y'.len = x'.len := by
  have hv : validate r ff tf = .ok () := by
    unfold downsample at hx
    split at hx
    · cases hx
    · assumption
  obtain ⟨n, x⟩ := x
  obtain ⟨m, y⟩ := y
  obtain rfl : m = n := hl
  by_cases h : m = 0 ∨ (r = 1 ∧ sh = 0)
  · unfold downsample at hx hy ⊢
    rw [hv] at hx hy ⊢
    simp only [h, if_true, Except.ok.injEq] at hx hy
    subst hx hy
    simp only [Sig.comb, h, if_true, and_self]
  · have hr : 0 < r ∧ (0 ≤ ff ∧ ff ≤ 1) ∧ 0 ≤ tf ∧ tf ≤ 1 := by
      unfold validate at hv
      split_ifs at hv with h1 h2 h3
      exact ⟨by omega, h2, h3⟩
    obtain ⟨r, rfl⟩ := Int.eq_ofNat_of_zero_le hr.1.le
    by_cases hm : r ≤ m
    · have h' : ¬(r = 1 ∧ sh = 0) := fun hh => h (.inr ⟨by exact_mod_cast hh.1, hh.2⟩)
      obtain ⟨v, h1, e1⟩ := downsample_eq m x (by omega : 0 < r) hm hr.2.1 hr.2.2 tt sh h'
      obtain ⟨v', h2, e2⟩ := downsample_eq m y (by omega : 0 < r) hm hr.2.1 hr.2.2 tt sh h'
      obtain ⟨v'', h3, e3⟩ := downsample_eq m (fun j => α * x j + β * y j) (by omega : 0 < r) hm hr.2.1
        hr.2.2 tt sh h'
      rw [h1] at hx
      rw [h2] at hy
      cases hx
      cases hy
      refine ⟨h3.trans ?_, rfl⟩
      simp only [Sig.comb, Except.ok.injEq, Sig.mk.injEq, true_and]
      funext j
      rw [e1, e2, e3]
      have e : ∀ k i : ℕ, (α * x i + β * y i) * win tt m i = α * (x i * win tt m i) + β * (y i * win tt m i) :=
        fun k i => by ring
      simp only [e 0]
      rw [sum_comb α β _ _ _ _ (fun i => x i * win tt m i) fun i => y i * win tt m i]
      ring
    · exfalso
      have hq : m / r = 0 := Nat.div_eq_of_lt (by omega)
      have hp : nTimePad tf (m / r) = 0 := by simp [hq, nTimePad]
      unfold downsample at hx
      rw [hv] at hx
      simp only [h, if_false, Int.toNat_natCast, hp, lt_irrefl] at hx
      have hlen : (if tt = true then (⟨m, fun j => x j * hann m j⟩ : Sig ℝ) else ⟨m, x⟩).len = m := by
        cases tt <;> rfl
      rw [hlen, if_pos hq] at hx
      cases hx

end Dw.Resample
