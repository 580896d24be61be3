import Mathlib.Algebra.Order.Floor.Semiring
import Verif.Resample.Lemmas

/-!
# C40, C59, C60: resampling in time
-/

namespace Dw.Resample

open Real Finset

/-! ### Specification -/

/-- Component of the signal `x 0, …, x (n - 1)` at frequency bin `k ≤ n / 2`, at sample `i`. -/
noncomputable def component (n k : ℕ) (x : ℕ → ℝ) (i : ℕ) : ℝ :=
  (if k = 0 ∨ 2 * k = n then 1 else 2) / n * ∑ j ∈ range n, x j * cos (2 * π * k * (i - j) / n)

/-- The signal without its last frequency bin; with one sample there is only the constant. -/
noncomputable def lowPass (n : ℕ) (x : ℕ → ℝ) (i : ℕ) : ℝ :=
  if n < 2 then x i else x i - component n (n / 2) x i

/-- The signal followed by zeros. -/
def zeroExt (n : ℕ) (x : ℕ → ℝ) (i : ℕ) : ℝ := if i < n then x i else 0

/-- For an even number of samples the last bin is the alternating component. -/
example (x : ℕ → ℝ) : component 2 1 x 0 = (x 0 - x 1) / 2 := by
  have h : (2 * π * (1 : ℕ) * ((0 : ℕ) - (1 : ℕ)) / (2 : ℕ) : ℝ) = -π := by push_cast; ring
  simp only [component, sum_range_succ, range_zero, sum_empty, h]
  norm_num
  ring

/-! ### Helpers -/

theorem gain_zero {n k : ℕ} : gain 0 (n / 2 + 1) k = if k = n / 2 ∧ 2 ≤ n then 0 else 1 := by
  unfold gain
  rw [if_neg (lt_irrefl _)]
  split_ifs <;> first | rfl | omega

theorem filter_eq (n : ℕ) (x : ℕ → ℝ) {i : ℕ} (hi : i < n) :
    (n : ℝ)⁻¹ * ∑ k ∈ range (n / 2 + 1), mult n k * gain 0 (n / 2 + 1) k *
      ∑ j ∈ range n, x j * cos (2 * π * k * (i - j) / n) = lowPass n x i := by
  have e : ∀ k, mult n k * gain 0 (n / 2 + 1) k * ∑ j ∈ range n, x j * cos (2 * π * k * (i - j) / n)
      = mult n k * (∑ j ∈ range n, x j * cos (2 * π * k * (i - j) / n))
        - if k = n / 2 then (if n < 2 then 0 else n * component n (n / 2) x i) else 0 := fun k => by
    have hn : (n : ℝ) ≠ 0 := by
      have : 0 < n := by omega
      positivity
    rw [gain_zero]
    by_cases hk : k = n / 2
    · by_cases h2 : n < 2
      · rw [if_neg (by omega), if_pos hk, if_pos h2]; ring
      · rw [if_pos ⟨hk, by omega⟩, if_pos hk, if_neg h2, component, mult, hk]
        field_simp
        ring
    · rw [if_neg (fun h => hk h.1), if_neg hk]; ring
  rw [sum_congr rfl fun k _ => e k, sum_sub_distrib, mul_sub, inversion n x hi, sum_ite_eq',
    if_pos (mem_range.2 (by omega)), lowPass]
  have hn : (n : ℝ) ≠ 0 := by
    have : 0 < n := by omega
    positivity
  split_ifs
  · simp
  · field_simp

theorem mult_up {n r k : ℕ} (hr : 1 < r) (hk : k < n / 2 + 1) (h : ¬(k = n / 2 ∧ 2 ≤ n)) :
    mult (n * r) k = mult n k := by
  unfold mult
  have : n ≤ n * r := Nat.le_mul_of_pos_right _ (by omega)
  by_cases h0 : k = 0
  · simp [h0]
  · rw [if_neg (by omega), if_neg (by omega)]

theorem mult_gain_up {n r k : ℕ} (hr : 1 < r) (hk : k ∈ range (n / 2 + 1)) :
    mult (n * r) k * gain 0 (n / 2 + 1) k = mult n k * gain 0 (n / 2 + 1) k := by
  rw [gain_zero]
  split_ifs with h
  · simp
  · rw [mult_up hr (mem_range.1 hk) h]

theorem up_spec {n r : ℕ} (hn : 0 < n) (hr : 1 < r) (x v : ℕ → ℝ) (g : ℕ → ℝ)
    (hv : ∀ j, v j = (n : ℝ)⁻¹ * ∑ l ∈ range (n / 2 + 1), mult (n * r) l * g l *
      ∑ i ∈ range n, x i * cos (2 * π * l * (j - r * i) / (n * r : ℕ)))
    {k : ℕ} (hk : k < n / 2 + 1) (a : ℝ) :
    ∑ j ∈ range (n * r), v j * cos (2 * π * k * (a - j) / (n * r : ℕ)) =
      r * g k * ∑ i ∈ range n, x i * cos (2 * π * k * (a - r * i) / (n * r : ℕ)) := by
  have hN : 0 < n * r := Nat.mul_pos hn (by omega)
  have hlt : n < n * r := (Nat.lt_mul_iff_one_lt_right hn).2 hr
  have hN' : ((n * r : ℕ) : ℝ) ≠ 0 := by positivity
  have e : ∀ j, v j * cos (2 * π * k * (a - j) / (n * r : ℕ)) = ∑ l ∈ range (n / 2 + 1), ∑ i ∈ range n,
      (n : ℝ)⁻¹ * (mult (n * r) l * g l) * x i * (cos (2 * π * k * a / (n * r : ℕ) - 2 * π * k * j / (n * r : ℕ))
        * cos (2 * π * l * j / (n * r : ℕ) - 2 * π * l * (r * i) / (n * r : ℕ))) := fun j => by
    rw [hv, mul_sum, sum_mul]
    refine sum_congr rfl fun l _ => ?_
    rw [mul_sum, mul_sum, sum_mul]
    refine sum_congr rfl fun i _ => ?_
    have e1 : 2 * π * k * (a - j) / (n * r : ℕ) = 2 * π * k * a / (n * r : ℕ) - 2 * π * k * j / (n * r : ℕ) := by
      ring
    have e2 : 2 * π * l * (j - r * i) / (n * r : ℕ)
        = 2 * π * l * j / (n * r : ℕ) - 2 * π * l * (r * i) / (n * r : ℕ) := by ring
    rw [e1, e2]
    ring
  simp only [e]
  rw [sum_comm]
  simp only [sum_comm (s := range (n * r)), ← mul_sum]
  have e3 : ∀ l ∈ range (n / 2 + 1), ∀ i : ℕ, ∑ j ∈ range (n * r),
      cos (2 * π * k * a / (n * r : ℕ) - 2 * π * k * j / (n * r : ℕ))
        * cos (2 * π * l * j / (n * r : ℕ) - 2 * π * l * (r * i) / (n * r : ℕ)) =
      if k = l then (n * r : ℕ) / mult (n * r) k * cos (2 * π * k * (a - r * i) / (n * r : ℕ)) else 0 :=
    fun l hl i => by
    rw [mem_range] at hl
    rw [ortho hN (by omega) (by omega)]
    · split_ifs with h
      · subst h
        congr 2
        ring
      · rfl
    · rintro (h | h)
      · left; simp [h]
      · omega
  rw [sum_eq_single k]
  · rw [mul_sum]
    refine sum_congr rfl fun i _ => ?_
    rw [e3 k (mem_range.2 hk), if_pos rfl]
    have : mult (n * r) k ≠ 0 := by unfold mult; split_ifs <;> norm_num
    have hn' : (n : ℝ) ≠ 0 := by positivity
    push_cast
    field_simp
  · intro l hl hne
    refine sum_eq_zero fun i _ => ?_
    rw [e3 l hl, if_neg (Ne.symm hne), mul_zero]
  · intro h
    exact absurd (mem_range.2 hk) h

/-! ### C40 -/

/-- Upsampling multiplies the number of samples by the ratio and downsampling divides it, whatever the
tapers, the padding and the shift. -/
theorem C40_lengths (n : ℕ) (x : ℕ → ℝ) (hn : 0 < n) {r : ℕ} (hr : 0 < r) {ff tf ff' tf' : ℝ}
    (hf : 0 ≤ ff ∧ ff ≤ 1) (ht : 0 ≤ tf ∧ tf ≤ 1) (hf' : 0 ≤ ff' ∧ ff' ≤ 1) (ht' : 0 ≤ tf' ∧ tf' ≤ 1)
    (tt tt' : Bool) (sh : ℝ) :
    ∃ u y, upsample ⟨n, x⟩ r ff tf tt = .ok u ∧ u.len = n * r ∧
      downsample u r ff' tf' tt' sh = .ok y ∧ y.len = n := by
  have hdown : ∀ u : Sig ℝ, u.len = n * r →
      ∃ y, downsample u r ff' tf' tt' sh = .ok y ∧ y.len = n := fun u hu => by
    by_cases h1 : r = 1 ∧ sh = 0
    · refine ⟨u, ?_, by rw [hu, h1.1, mul_one]⟩
      simp only [downsample, validate_ok hr hf' ht']
      rw [if_pos (Or.inr ⟨by exact_mod_cast h1.1, h1.2⟩)]
    · obtain ⟨v, hv, -⟩ := downsample_eq u.len u.val hr (hu ▸ Nat.le_mul_of_pos_left _ hn) hf' ht' tt' sh h1
      exact ⟨_, hv, by simp only [hu]; exact Nat.mul_div_cancel _ hr⟩
  by_cases h1 : r = 1
  · obtain ⟨y, h2, h3⟩ := hdown ⟨n, x⟩ (by simp [h1])
    refine ⟨⟨n, x⟩, y, ?_, by simp [h1], h2, h3⟩
    simp only [upsample, validate_ok hr hf ht]
    rw [if_pos (Or.inr (by exact_mod_cast h1))]
  · obtain ⟨v, hv, -⟩ := upsample_eq n x hn (by omega : 1 < r) hf ht tt
    obtain ⟨y, h2, h3⟩ := hdown ⟨n * r, v⟩ rfl
    exact ⟨_, y, hv, rfl, h2, h3⟩

/-- Both functions raise a ValueError for a ratio that is not positive and for fractions outside
`[0, 1]`, whatever the signal. -/
theorem C40_rejected (s : Sig ℝ) {r : ℤ} {ff tf : ℝ}
    (h : ¬(0 < r ∧ (0 ≤ ff ∧ ff ≤ 1) ∧ 0 ≤ tf ∧ tf ≤ 1)) (tt : Bool) (sh : ℝ) :
    upsample s r ff tf tt = .error .valueError ∧ downsample s r ff tf tt sh = .error .valueError := by
  have hv : validate r ff tf = .error .valueError := by
    unfold validate
    by_cases h1 : r ≤ 0
    · rw [if_pos h1]
    by_cases h2 : 0 ≤ ff ∧ ff ≤ 1
    · by_cases h3 : 0 ≤ tf ∧ tf ≤ 1
      · exact absurd ⟨by omega, h2, h3⟩ h
      · rw [if_neg h1, if_neg (not_not.2 h2), if_pos h3]
    · rw [if_neg h1, if_pos h2]
  simp [upsample, downsample, hv]

example : upsample ⟨3, fun j => j⟩ 0 0 0 false = .error .valueError :=
  (C40_rejected _ (by norm_num) false 0).1

/-- Every `r`-th sample of the upsampled signal is the sample of the padded signal without its last
frequency bin. -/
theorem C40_samples (n : ℕ) (x : ℕ → ℝ) (hn : 0 < n) {r : ℕ} (hr : 1 < r) {tf : ℝ}
    (ht : 0 ≤ tf ∧ tf ≤ 1) :
    ∃ u, upsample ⟨n, x⟩ r 0 tf false = .ok u ∧ u.len = n * r ∧
      ∀ i < n, u.val (r * i) = lowPass (n + ⌊tf * n⌋₊) (zeroExt n x) i := by
  obtain ⟨v, hv, hval⟩ := upsample_eq n x hn hr ⟨le_refl 0, zero_le_one⟩ ht false
  refine ⟨_, hv, rfl, fun i hi => ?_⟩
  have hp : nTimePad tf n = ⌊tf * n⌋₊ := by
    unfold nTimePad
    split_ifs with h
    · rfl
    · have : tf = 0 := le_antisymm (not_lt.1 h) ht.1
      simp [this]
  rw [hp] at hval
  generalize ⌊tf * n⌋₊ = p at *
  change v (r * i) = _
  rw [hval]
  simp only [win, Bool.false_eq_true, if_false, one_mul]
  rw [← filter_eq (n + p) (zeroExt n x) (by omega : i < n + p)]
  congr 1
  refine sum_congr rfl fun k hk => ?_
  rw [mult_gain_up hr hk]
  congr 1
  rw [← sum_pad x n p]
  refine sum_congr rfl fun j _ => ?_
  simp only [zeroExt]
  congr 2
  have : (r : ℝ) ≠ 0 := by positivity
  have : ((n + p : ℕ) : ℝ) ≠ 0 := by positivity
  push_cast at *
  field_simp

/-- Downsampling the upsampled signal gives the signal without its last frequency bin, which is also
every `r`-th sample of the upsampled signal.  Full statement: the same for every padding fraction; see
`C40_fails_with_padding`. -/
theorem C40_round_trip_partial (n : ℕ) (x : ℕ → ℝ) (hn : 0 < n) {r : ℕ} (hr : 1 < r) :
    ∃ u y, upsample ⟨n, x⟩ r 0 0 false = .ok u ∧ u.len = n * r ∧
      downsample u r 0 0 false 0 = .ok y ∧ y.len = n ∧
      ∀ i < n, y.val i = lowPass n x i ∧ u.val (r * i) = lowPass n x i := by
  obtain ⟨v, hv, hval⟩ := upsample_eq n x hn hr ⟨le_refl 0, zero_le_one⟩ ⟨le_refl 0, zero_le_one⟩ false
  obtain ⟨w, hw, hwal⟩ := downsample_eq' n v hn (by omega : 0 < r)
    ⟨le_refl 0, zero_le_one⟩ ⟨le_refl 0, zero_le_one⟩ false 0 (by omega)
  simp only [nTimePad_zero, add_zero, win, Bool.false_eq_true, if_false, one_mul, mul_one,
    sub_zero] at hval hwal
  refine ⟨_, _, hv, rfl, hw, rfl, fun i hi => ⟨?_, ?_⟩⟩
  · change w i = _
    rw [hwal, ← filter_eq n x hi, mul_sum, mul_sum]
    refine sum_congr rfl fun k hk => ?_
    rw [up_spec hn hr x v _ hval (mem_range.1 hk)]
    have h0 : (r : ℝ) ≠ 0 := by positivity
    have h1 : (n : ℝ) ≠ 0 := by positivity
    have e : ∀ j : ℕ, 2 * π * k * ((r : ℝ) * i - r * j) / (n * r : ℕ) = 2 * π * k * (i - j) / n := fun j => by
      push_cast
      field_simp
    simp only [e]
    have hg : gain 0 (n / 2 + 1) k * gain 0 (n / 2 + 1) k = gain 0 (n / 2 + 1) k := by
      rw [gain_zero]; split_ifs <;> simp
    push_cast
    rw [show mult n k * gain 0 (n / 2 + 1) k * (r * gain 0 (n / 2 + 1) k *
      ∑ j ∈ range n, x j * cos (2 * π * k * (i - j) / n)) = mult n k * (r * (gain 0 (n / 2 + 1) k *
      gain 0 (n / 2 + 1) k) * ∑ j ∈ range n, x j * cos (2 * π * k * (i - j) / n)) by ring, hg]
    field_simp
  · obtain ⟨u, hu, -, h⟩ := C40_samples n x hn hr (tf := 0) ⟨le_refl 0, zero_le_one⟩
    rw [hv] at hu
    cases hu
    rw [h i hi]
    simp only [zero_mul, Nat.floor_zero, add_zero]
    simp only [lowPass, component, zeroExt, if_pos hi]
    congr 3
    refine sum_congr rfl fun j hj => ?_
    rw [if_pos (mem_range.1 hj)]

/-- With padding the trimmed samples are missing when downsampling: here the upsampled samples are all
`1/3`, and downsampling them gives `2/9`. -/
theorem C40_fails_with_padding :
    ∃ u y, upsample ⟨2, fun i => if i = 0 then 1 else 0⟩ 2 0 (1 / 2) false = .ok u ∧
      downsample u 2 0 (1 / 2) false 0 = .ok y ∧ u.val 0 = 1 / 3 ∧ y.val 0 = 2 / 9 := by
  obtain ⟨v, hv, hval⟩ := upsample_eq 2 (fun i => if i = 0 then 1 else 0) (by norm_num) (r := 2)
    (by norm_num) (ff := 0) (tf := 1 / 2) ⟨le_refl 0, zero_le_one⟩ (by norm_num) false
  obtain ⟨w, hw, hwal⟩ := downsample_eq' 2 v (by norm_num) (r := 2) (by norm_num) (ff := 0) (tf := 1 / 2)
    ⟨le_refl 0, zero_le_one⟩ (by norm_num) false 0 (by norm_num)
  have hp : nTimePad (1 / 2) 2 = 1 := by
    unfold nTimePad
    norm_num
  have hg : ∀ k, gain 0 2 k = if k = 1 then 0 else 1 := fun k => by
    have := gain_zero (n := 2) (k := k)
    norm_num at this
    exact this
  have hv3 : ∀ j, v j = 1 / 3 := fun j => by
    rw [hval j, hp]
    simp [win, sum_range_succ, hg, mult]
  refine ⟨_, _, hv, hw, hv3 0, ?_⟩
  change w 0 = _
  rw [hwal, hp]
  simp [win, sum_range_succ, hg, mult, hv3]
  norm_num

example : ∃ u y, upsample ⟨3, fun i => i⟩ 2 0 0 false = .ok u ∧ u.len = 6 ∧
    downsample u 2 0 0 false 0 = .ok y ∧ y.len = 3 ∧
    ∀ i < 3, y.val i = lowPass 3 (fun i => i) i ∧ u.val (2 * i) = lowPass 3 (fun i => i) i := by
  exact_mod_cast C40_round_trip_partial 3 (fun i => i) (by norm_num) (r := 2) (by norm_num)

/-! ### C59 -/

theorem gain_last {ff : ℝ} {n : ℕ} (hff : 0 ≤ ff) (h : 0 < ff → 1 ≤ ff * (n / 2 + 1 : ℕ)) (hn : 2 ≤ n) :
    gain ff (n / 2 + 1) (n / 2) = 0 := by
  rcases hff.eq_or_lt with h0 | h0
  · rw [← h0, gain_zero, if_pos ⟨rfl, hn⟩]
  · have h1 : 1 ≤ ⌊ff * (n / 2 + 1 : ℕ)⌋₊ := by
      rw [Nat.one_le_floor_iff]
      exact h h0
    unfold gain
    rw [if_pos h0]
    generalize ⌊ff * (n / 2 + 1 : ℕ)⌋₊ = q at *
    have h2 : 0 < min q (n / 2 + 1) := by omega
    rw [if_pos (by omega), show n / 2 - (n / 2 + 1 - min q (n / 2 + 1)) + 1 = min q (n / 2 + 1) by omega,
      div_self (by positivity), one_mul, cos_pi]
    norm_num

theorem mult_gain_adj {ff : ℝ} {n r k : ℕ} (hff : 0 ≤ ff) (h : 0 < ff → 1 ≤ ff * (n / 2 + 1 : ℕ))
    (hr : 1 < r) (hk : k ∈ range (n / 2 + 1)) :
    mult (n * r) k * gain ff (n / 2 + 1) k = mult n k * gain ff (n / 2 + 1) k := by
  by_cases h2 : k = n / 2 ∧ 2 ≤ n
  · rw [h2.1, gain_last hff h h2.2]; simp
  · rw [mult_up hr (mem_range.1 hk) h2]

/-- Downsampling is, up to the factor `r`, the transpose of upsampling with the same options: the inner
product of the upsampled `x` with `y` is `r` times that of `x` with the downsampled `y`.  A frequency
taper has to be at least one bin long. -/
theorem C59_transpose (n : ℕ) (x y : ℕ → ℝ) (hn : 0 < n) {r : ℕ} (hr : 0 < r) {ff tf : ℝ}
    (hf : 0 ≤ ff ∧ ff ≤ 1) (ht : 0 ≤ tf ∧ tf ≤ 1) (tt : Bool)
    (h : 0 < ff → 1 ≤ ff * ((n + ⌊tf * n⌋₊) / 2 + 1 : ℕ)) :
    ∃ u w, upsample ⟨n, x⟩ r ff tf tt = .ok u ∧ downsample ⟨n * r, y⟩ r ff tf tt 0 = .ok w ∧
      ∑ j ∈ range (n * r), u.val j * y j = r * ∑ i ∈ range n, x i * w.val i := by
  by_cases h1 : r = 1
  · subst h1
    refine ⟨⟨n, x⟩, ⟨n * 1, y⟩, ?_, ?_, by simp⟩
    · simp only [upsample, validate_ok hr hf ht]
      rw [if_pos (Or.inr (by norm_num))]
    · simp only [downsample, validate_ok hr hf ht]
      rw [if_pos (Or.inr (by norm_num))]
  have hr1 : 1 < r := by omega
  obtain ⟨u, hu, hv⟩ := upsample_eq n x hn hr1 hf ht tt
  obtain ⟨w, hw, hwv⟩ := downsample_eq' n y hn hr hf ht tt 0 (by omega)
  refine ⟨_, _, hu, hw, ?_⟩
  have hp : nTimePad tf n = ⌊tf * n⌋₊ := by
    unfold nTimePad
    split_ifs with h
    · rfl
    · have : tf = 0 := le_antisymm (not_lt.1 h) ht.1
      simp [this]
  rw [hp] at hv hwv
  generalize ⌊tf * n⌋₊ = p at *
  have hp0 : ((n + p : ℕ) : ℝ) ≠ 0 := by
    have : 0 < n + p := by omega
    positivity
  have hr0 : (r : ℝ) ≠ 0 := by positivity
  have eu : ∀ j, u j * y j = ∑ k ∈ range ((n + p) / 2 + 1), ∑ i ∈ range n,
      ((n + p : ℕ) : ℝ)⁻¹ * (mult (n + p) k * gain ff ((n + p) / 2 + 1) k) * (x i * y j * win tt (n * r) j *
        cos (2 * π * k * (j - r * i) / ((n + p) * r : ℕ))) := fun j => by
    rw [hv, mul_sum, mul_sum, sum_mul]
    refine sum_congr rfl fun k hk => ?_
    rw [mult_gain_adj hf.1 h hr1 hk, mul_sum, mul_sum, mul_sum, sum_mul]
    refine sum_congr rfl fun i _ => ?_
    ring
  have ew : ∀ i, x i * w i = ∑ k ∈ range ((n + p) / 2 + 1), ∑ j ∈ range (n * r),
      (r : ℝ)⁻¹ * (((n + p : ℕ) : ℝ)⁻¹ * (mult (n + p) k * gain ff ((n + p) / 2 + 1) k) * (x i * y j * win tt (n * r) j *
        cos (2 * π * k * (j - r * i) / ((n + p) * r : ℕ)))) := fun i => by
    rw [hwv, mul_sum, mul_sum]
    refine sum_congr rfl fun k hk => ?_
    rw [mul_sum, mul_sum, mul_sum]
    refine sum_congr rfl fun j _ => ?_
    rw [show 2 * π * k * ((r : ℝ) * i - j - 0) / ((n + p) * r : ℕ)
      = -(2 * π * k * (j - r * i) / ((n + p) * r : ℕ)) by ring, cos_neg]
    rw [Nat.cast_mul, mul_inv]
    ring
  simp only [eu, ew]
  generalize hT : (fun k i j : ℕ => ((n + p : ℕ) : ℝ)⁻¹ * (mult (n + p) k * gain ff ((n + p) / 2 + 1) k) *
    (x i * y j * win tt (n * r) j * cos (2 * π * k * (j - r * i) / ((n + p) * r : ℕ)))) = T
  have hT' : ∀ k i j : ℕ, ((n + p : ℕ) : ℝ)⁻¹ * (mult (n + p) k * gain ff ((n + p) / 2 + 1) k) *
      (x i * y j * win tt (n * r) j * cos (2 * π * k * (j - r * i) / ((n + p) * r : ℕ))) = T k i j :=
    fun k i j => by rw [← hT]
  simp only [hT']
  rw [sum_comm, mul_sum]
  simp only [mul_sum, mul_inv_cancel_left₀ hr0]
  rw [sum_comm (s := range n)]
  exact sum_congr rfl fun k _ => sum_comm

example : (0 : ℝ) < 1 / 2 → (1 : ℝ) ≤ 1 / 2 * ((2 + ⌊(0 : ℝ) * (2 : ℕ)⌋₊) / 2 + 1 : ℕ) := by norm_num

/-- A taper shorter than one bin neither tapers nor zeroes the last bin: the highest frequency is
doubled by upsampling (the signal `1, -1` becomes `2, 0, -2, 0`) and not by downsampling. -/
theorem C59_fails_for_short_taper :
    ∃ u w, upsample ⟨2, fun i => if i = 0 then 1 else -1⟩ 2 (1 / 10) 0 false = .ok u ∧
      downsample ⟨4, fun j => if j = 0 then 1 else 0⟩ 2 (1 / 10) 0 false 0 = .ok w ∧
      u.val 0 = 2 ∧ w.val 0 - w.val 1 = 1 / 2 ∧
      ∑ j ∈ range 4, u.val j * (if j = 0 then 1 else 0) ≠
        2 * ∑ i ∈ range 2, (if i = 0 then 1 else -1) * w.val i := by
  obtain ⟨v, hv, hval⟩ := upsample_eq 2 (fun i => if i = 0 then 1 else -1) (by norm_num) (r := 2)
    (by norm_num) (ff := 1 / 10) (tf := 0) (by norm_num) ⟨le_refl 0, zero_le_one⟩ false
  obtain ⟨w, hw, hwal⟩ := downsample_eq' 2 (fun j => if j = 0 then 1 else 0) (by norm_num) (r := 2)
    (by norm_num) (ff := 1 / 10) (tf := 0) (by norm_num) ⟨le_refl 0, zero_le_one⟩ false 0 (by norm_num)
  have hg : ∀ k < 2, gain (1 / 10) 2 k = 1 := fun k hk => by
    have : ⌊(1 / 10 : ℝ) * (2 : ℕ)⌋₊ = 0 := Nat.floor_eq_zero.2 (by norm_num)
    simp only [gain, this]
    rw [if_pos (by norm_num), if_neg (by omega)]
  have hg0 : gain 10⁻¹ 2 0 = 1 := by rw [← hg 0 (by norm_num)]; norm_num
  have hg1 : gain 10⁻¹ 2 1 = 1 := by rw [← hg 1 (by norm_num)]; norm_num
  have e1 : 2 * π * 2 / 4 = π := by ring
  have e3 : -(2 * π * 2) / 4 = -π := by ring
  have hv0 : v 0 = 2 := by
    rw [hval 0, nTimePad_zero]
    simp [win, sum_range_succ, hg0, hg1, mult]
    norm_num
    rw [e3, cos_neg, cos_pi]
    norm_num
  have hw0 : w 0 = 1 / 2 := by
    rw [hwal 0, nTimePad_zero]
    simp [win, sum_range_succ, hg0, hg1, mult]
    norm_num
  have hw1 : w 1 = 0 := by
    rw [hwal 1, nTimePad_zero]
    simp [win, sum_range_succ, hg0, hg1, mult, e1]
  refine ⟨_, _, hv, hw, hv0, ?_, ?_⟩
  · change w 0 - w 1 = _
    rw [hw0, hw1]; norm_num
  · simp only [sum_range_succ, range_zero, sum_empty, hv0, hw0, hw1]
    norm_num

/-! ### C60 -/

/-- Upsampling reproduces a cosine of any phase at the new times if its frequency is below the last
bin, and gives zero at the last bin. -/
theorem C60_upsample (n l : ℕ) (φ : ℝ) (hn : 0 < n) {r : ℕ} (hr : 1 < r) :
    (l = 0 ∨ l < n / 2 → ∃ u, upsample ⟨n, fun i => cos (2 * π * l * i / n + φ)⟩ r 0 0 false = .ok u ∧
      ∀ j, u.val j = cos (2 * π * l * (j / r) / n + φ)) ∧
    (0 < l → l = n / 2 → ∃ u, upsample ⟨n, fun i => cos (2 * π * l * i / n + φ)⟩ r 0 0 false = .ok u ∧
      ∀ j, u.val j = 0) := by
  obtain ⟨v, hv, hval⟩ := upsample_eq n (fun i => cos (2 * π * l * i / n + φ)) hn hr (ff := 0) (tf := 0)
    ⟨le_refl 0, zero_le_one⟩ ⟨le_refl 0, zero_le_one⟩ false
  simp only [nTimePad_zero, add_zero, win, Bool.false_eq_true, if_false, one_mul] at hval
  have hn0 : (n : ℝ) ≠ 0 := by positivity
  have hr0 : (r : ℝ) ≠ 0 := by positivity
  have key : ∀ j : ℕ, l ≤ n / 2 → v j = gain 0 (n / 2 + 1) l * cos (2 * π * l * (j / r) / n + φ) := fun j hl => by
    rw [hval]
    have e : ∀ k ∈ range (n / 2 + 1), mult (n * r) k * gain 0 (n / 2 + 1) k * ∑ i ∈ range n,
        cos (2 * π * l * i / n + φ) * cos (2 * π * k * (j - r * i) / (n * r : ℕ)) =
        if k = l then n * (gain 0 (n / 2 + 1) l * cos (2 * π * l * (j / r) / n + φ)) else 0 := fun k hk => by
      rw [mult_gain_up hr hk]
      rw [mem_range] at hk
      by_cases hz : k = n / 2 ∧ 2 ≤ n
      · have hg : gain 0 (n / 2 + 1) k = 0 := by rw [gain_zero, if_pos hz]
        rw [hg]
        split_ifs with hkl
        · rw [← hkl, hg]; simp
        · simp
      have e1 : ∀ i : ℕ, cos (2 * π * l * i / n + φ) * cos (2 * π * k * (j - r * i) / (n * r : ℕ))
          = cos (2 * π * k * (j / r) / n - 2 * π * k * i / n) * cos (2 * π * l * i / n - -φ) := fun i => by
        rw [mul_comm, sub_neg_eq_add]
        congr 2
        push_cast
        field_simp
      simp only [e1]
      rw [ortho hn (by omega) (by omega)]
      · split_ifs with hkl
        · subst hkl
          have : mult n k ≠ 0 := by unfold mult; split_ifs <;> norm_num
          rw [sub_neg_eq_add]
          field_simp
        · simp
      · rintro (h | h)
        · left; simp [h]
        · omega
    rw [sum_congr rfl e, sum_ite_eq', if_pos (mem_range.2 (by omega))]
    field_simp
  refine ⟨fun h => ⟨_, hv, fun j => ?_⟩, fun h0 h => ⟨_, hv, fun j => ?_⟩⟩
  · change v j = _
    rw [key j (by omega), gain_zero, if_neg (by omega), one_mul]
  · change v j = _
    rw [key j (by omega), gain_zero, if_pos (by omega), zero_mul]

example : (0 : ℕ) < 1 ∧ 1 = 3 / 2 ∧ (1 : ℕ) < 5 / 2 := by norm_num

/-- Downsampling a cosine of any phase gives the cosine delayed by `shift` at the remaining times if its
frequency is below the last bin kept, and zero for all higher frequencies. -/
theorem C60_downsample (n l : ℕ) (φ sh : ℝ) (hn : 0 < n) {r : ℕ} (hr : 1 < r) (hl : 2 * l ≤ n * r) :
    ∃ w, downsample ⟨n * r, fun j => cos (2 * π * l * j / (n * r : ℕ) + φ)⟩ r 0 0 false sh = .ok w ∧
      w.len = n ∧ ∀ i, w.val i = if l = 0 ∨ l < n / 2 then
        cos (2 * π * l * (r * i - sh) / (n * r : ℕ) + φ) else 0 := by
  obtain ⟨v, hv, hval⟩ := downsample_eq' n (fun j => cos (2 * π * l * j / (n * r : ℕ) + φ)) hn
    (by omega : 0 < r) (ff := 0) (tf := 0)
    ⟨le_refl 0, zero_le_one⟩ ⟨le_refl 0, zero_le_one⟩ false sh (by omega)
  simp only [nTimePad_zero, add_zero, win, Bool.false_eq_true, if_false, mul_one] at hval
  refine ⟨_, hv, rfl, fun i => ?_⟩
  change v i = _
  have hN : 0 < n * r := Nat.mul_pos hn (by omega)
  have hlt : n < n * r := (Nat.lt_mul_iff_one_lt_right hn).2 hr
  have hN0 : ((n * r : ℕ) : ℝ) ≠ 0 := by positivity
  rw [hval]
  have e : ∀ k ∈ range (n / 2 + 1), mult n k * gain 0 (n / 2 + 1) k * ∑ j ∈ range (n * r),
      cos (2 * π * l * j / (n * r : ℕ) + φ) * cos (2 * π * k * (r * i - j - sh) / (n * r : ℕ)) =
      if k = l then (n * r : ℕ) * (gain 0 (n / 2 + 1) l * cos (2 * π * l * (r * i - sh) / (n * r : ℕ) + φ))
        else 0 := fun k hk => by
    rw [← mult_gain_up hr hk]
    rw [mem_range] at hk
    have e1 : ∀ j : ℕ, cos (2 * π * l * j / (n * r : ℕ) + φ) * cos (2 * π * k * (r * i - j - sh) / (n * r : ℕ))
        = cos (2 * π * k * (r * i - sh) / (n * r : ℕ) - 2 * π * k * j / (n * r : ℕ)) *
          cos (2 * π * l * j / (n * r : ℕ) - -φ) := fun j => by
      rw [mul_comm, sub_neg_eq_add]
      congr 2
      ring
    simp only [e1]
    rw [ortho hN (by omega) (by omega)]
    · split_ifs with hkl
      · subst hkl
        have : mult (n * r) k ≠ 0 := by unfold mult; split_ifs <;> norm_num
        rw [sub_neg_eq_add]
        field_simp
      · simp
    · rintro (h | h)
      · left; simp [h]
      · omega
  rw [sum_congr rfl e, sum_ite_eq']
  by_cases hin : l < n / 2 + 1
  · rw [if_pos (mem_range.2 hin), gain_zero]
    by_cases hb : l = 0 ∨ l < n / 2
    · rw [if_pos hb, if_neg (by omega), one_mul]
      field_simp
    · rw [if_neg hb, if_pos (by omega)]
      simp
  · rw [if_neg (fun h => hin (mem_range.1 h)), if_neg (by omega), mul_zero]


end Dw.Resample
