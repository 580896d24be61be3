import Mathlib.RingTheory.RootsOfUnity.Complex
import Verif.Resample.Model

/-!
# Resampling as sums of cosines
-/

namespace Dw.Resample

open Real Finset

/-- Factor by which the tapering multiplies bin `k` of `K`. -/
noncomputable def gain (frac : ℝ) (K k : ℕ) : ℝ :=
  if 0 < frac then
    if K - min ⌊frac * K⌋₊ K ≤ k then
      (cos ((k - (K - min ⌊frac * K⌋₊ K) + 1 : ℕ) / (min ⌊frac * K⌋₊ K : ℕ) * π) + 1) / 2 else 1
  else if 1 < K then if k + 1 = K then 0 else 1 else 1

theorem taper_len (frac : ℝ) (f : Sig ℂ) : (taper frac f).len = f.len := by
  unfold taper cosineTaperEnd zeroLast
  split_ifs <;> rfl

theorem taper_val (frac : ℝ) (f : Sig ℂ) (k : ℕ) :
    (taper frac f).val k = f.val k * (gain frac f.len k : ℂ) := by
  unfold taper gain cosineTaperEnd zeroLast
  split_ifs <;> simp_all

theorem spec_re (x : ℕ → ℝ) (n k : ℕ) (m : ℕ) (a g θ : ℝ) :
    (((a : ℂ) * ∑ j ∈ range m, (x j : ℂ) * Complex.exp (-2 * π * Complex.I * (j * k) / n)) * (g : ℂ)
      * Complex.exp (Complex.I * (θ : ℂ))).re
      = a * g * ∑ j ∈ range m, x j * cos (θ - 2 * π * (j * k) / n) := by
  have h1 : ∀ j : ℕ, Complex.exp (-2 * π * Complex.I * (j * k) / n) * Complex.exp (Complex.I * (θ : ℂ))
      = Complex.exp (((θ - 2 * π * (j * k) / n : ℝ) : ℂ) * Complex.I) := fun j => by
    rw [← Complex.exp_add]
    congr 1
    push_cast
    ring
  have h2 : ((a : ℂ) * ∑ j ∈ range m, (x j : ℂ) * Complex.exp (-2 * π * Complex.I * (j * k) / n)) * (g : ℂ)
      * Complex.exp (Complex.I * (θ : ℂ))
      = ∑ j ∈ range m, ((a * g * x j : ℝ) : ℂ) *
        Complex.exp (((θ - 2 * π * (j * k) / n : ℝ) : ℂ) * Complex.I) := by
    rw [mul_sum, sum_mul, sum_mul]
    refine sum_congr rfl fun j _ => ?_
    rw [← h1 j]
    push_cast
    ring
  rw [h2, Complex.re_sum, mul_sum]
  refine sum_congr rfl fun j _ => ?_
  rw [Complex.re_ofReal_mul, Complex.exp_ofReal_mul_I_re]
  ring

theorem sum_pad (x : ℕ → ℝ) (n p : ℕ) (f : ℕ → ℝ) :
    ∑ j ∈ range (n + p), (if j < n then x j else 0) * f j = ∑ j ∈ range n, x j * f j := by
  rw [sum_range_add, sum_congr rfl fun j hj => by rw [if_pos (mem_range.1 hj)],
    add_eq_left]
  exact sum_eq_zero fun j _ => by simp

/-- The window, if one is applied. -/
noncomputable def win (t : Bool) (n j : ℕ) : ℝ := if t then hann n j else 1

theorem nTimePad_zero (n : ℕ) : nTimePad 0 n = 0 := by simp [nTimePad]

theorem validate_ok {r : ℕ} (hr : 0 < r) {ff tf : ℝ} (hf : 0 ≤ ff ∧ ff ≤ 1) (ht : 0 ≤ tf ∧ tf ≤ 1) :
    validate r ff tf = .ok () := by
  unfold validate
  rw [if_neg (by omega), if_neg (by simpa using hf), if_neg (by simpa using ht)]

/-- `upsample` as a sum of cosines. -/
theorem upsample_eq (n : ℕ) (x : ℕ → ℝ) (hn : 0 < n) {r : ℕ} (hr : 1 < r) {ff tf : ℝ}
    (hf : 0 ≤ ff ∧ ff ≤ 1) (ht : 0 ≤ tf ∧ tf ≤ 1) (tt : Bool) :
    let p := nTimePad tf n
    ∃ v, upsample ⟨n, x⟩ r ff tf tt = .ok ⟨n * r, v⟩ ∧ ∀ j, v j = win tt (n * r) j *
      (((n + p : ℕ) : ℝ)⁻¹ * ∑ k ∈ range ((n + p) / 2 + 1), mult ((n + p) * r) k * gain ff ((n + p) / 2 + 1) k *
        ∑ i ∈ range n, x i * cos (2 * π * k * (j - r * i) / ((n + p) * r : ℕ))) := by
  intro p
  have hr1 : ¬(n = 0 ∨ (r : ℤ) = 1) := by omega
  simp only [upsample, validate_ok (by omega : 0 < r) hf ht, if_neg hr1, Int.toNat_natCast]
  -- the padded signal
  obtain ⟨s₁, hs₁, hl, hv⟩ : ∃ s₁ : Sig ℝ, (if 0 < p then Sig.pad ⟨n, x⟩ p else ⟨n, x⟩) = s₁ ∧
      s₁.len = n + p ∧ ∀ f : ℕ → ℝ, ∑ j ∈ range (n + p), s₁.val j * f j = ∑ j ∈ range n, x j * f j := by
    refine ⟨_, rfl, ?_, fun f => ?_⟩
    · split_ifs with h
      · rfl
      · simp only; omega
    · split_ifs with h
      · exact sum_pad x n p f
      · rw [show n + p = n by omega]
  rw [show nTimePad tf n = p from rfl, hs₁, hl]
  obtain ⟨f₁, hf₁, hl1, hv1⟩ : ∃ f₁ : Sig ℂ,
      taper ff ⟨(rfft s₁).len, fun k => (rfft s₁).val k * (√r : ℂ)⟩ = f₁ ∧ f₁.len = (n + p) / 2 + 1 ∧
      ∀ k, f₁.val k = ((√(n + p : ℕ) : ℝ)⁻¹ : ℂ) * (∑ j ∈ range (n + p), (s₁.val j : ℂ) *
        Complex.exp (-2 * π * Complex.I * (j * k) / (n + p : ℕ)))
        * ((√r * gain ff ((n + p) / 2 + 1) k : ℝ) : ℂ) := by
    refine ⟨_, rfl, ?_, fun k => ?_⟩
    · rw [taper_len]; simp [rfft, hl]
    · rw [taper_val]
      simp only [rfft, hl]
      push_cast
      ring
  rw [hf₁, hl1]
  have hN : (n + p) / 2 + 1 ≤ (n + p) * r / 2 + 1 := by
    have : n + p ≤ (n + p) * r := Nat.le_mul_of_pos_right _ (by omega)
    omega
  have hp : 0 < n + p := by omega
  obtain ⟨f₂, hf₂, hv2⟩ : ∃ f₂ : Sig ℂ, (if (n + p) / 2 + 1 < (n + p) * r / 2 + 1 then
      f₁.pad ((n + p) * r / 2 + 1 - ((n + p) / 2 + 1)) else f₁) = f₂ ∧
      ∀ g : ℕ → ℂ → ℝ, (∀ k, g k 0 = 0) → ∑ k ∈ range ((n + p) * r / 2 + 1), g k (f₂.val k)
        = ∑ k ∈ range ((n + p) / 2 + 1), g k (f₁.val k) := by
    refine ⟨_, rfl, fun g hg => ?_⟩
    split_ifs with h
    · refine (sum_subset_zero_on_sdiff (range_subset_range.2 hN) (fun k hk => ?_) fun k hk => ?_).symm
      · rw [mem_sdiff, mem_range, mem_range] at hk
        simp only [Sig.pad, hl1]
        rw [if_neg hk.2, hg]
      · rw [mem_range] at hk
        simp only [Sig.pad, hl1, if_pos hk]
    · rw [show (n + p) / 2 + 1 = (n + p) * r / 2 + 1 by omega]
  rw [hf₂]
  have hval : ∀ j, (irfft ((n + p) * r) f₂).val j =
      ((n + p : ℕ) : ℝ)⁻¹ * ∑ k ∈ range ((n + p) / 2 + 1), mult ((n + p) * r) k *
        gain ff ((n + p) / 2 + 1) k *
        ∑ i ∈ range n, x i * cos (2 * π * k * (j - r * i) / ((n + p) * r : ℕ)) := fun j => by
    simp only [irfft]
    rw [hv2 (fun k z => mult ((n + p) * r) k *
      (z * Complex.exp (2 * π * Complex.I * (j * k) / ((n + p) * r : ℕ))).re) (by simp), mul_sum, mul_sum]
    refine sum_congr rfl fun k _ => ?_
    have e : (2 * π * Complex.I * (j * k) / ((n + p) * r : ℕ) : ℂ)
        = Complex.I * ((2 * π * (j * k) / ((n + p) * r : ℕ) : ℝ) : ℂ) := by
      push_cast; ring
    rw [hv1, e, ← Complex.ofReal_inv, spec_re, hv]
    have e2 : ∀ i : ℕ, 2 * π * (j * k) / ((n + p) * r : ℕ) - 2 * π * (i * k) / ((n + p : ℕ) : ℝ)
        = 2 * π * k * (j - r * i) / ((n + p) * r : ℕ) := fun i => by
      have : ((n + p : ℕ) : ℝ) ≠ 0 := by positivity
      have : (r : ℝ) ≠ 0 := by positivity
      push_cast at *
      field_simp
    simp only [e2]
    have h0 : (0 : ℝ) < (n + p : ℕ) := by positivity
    have h1 : (0 : ℝ) < r := by positivity
    rw [Nat.cast_mul, sqrt_mul h0.le]
    have h2 : √((n + p : ℕ) : ℝ) * √((n + p : ℕ) : ℝ) = (n + p : ℕ) := mul_self_sqrt h0.le
    have h3 : √(r : ℝ) ≠ 0 := (sqrt_pos.2 h1).ne'
    have h4 : √((n + p : ℕ) : ℝ) ≠ 0 := (sqrt_pos.2 h0).ne'
    have h5 : ((n + p : ℕ) : ℝ)⁻¹ = (√((n + p : ℕ) : ℝ))⁻¹ * (√((n + p : ℕ) : ℝ))⁻¹ := by
      rw [← mul_inv, h2]
    rw [h5]
    generalize ∑ i ∈ range n, x i * cos _ = S
    field_simp
  have hlen : (n + p) * r - p * r = n * r := by rw [add_mul]; omega
  have hs₃ : (if 0 < p then (irfft ((n + p) * r) f₂).take ((irfft ((n + p) * r) f₂).len - p * r)
      else irfft ((n + p) * r) f₂) = ⟨n * r, (irfft ((n + p) * r) f₂).val⟩ := by
    split_ifs with h
    · simp only [Sig.take, irfft, hlen]
      congr 1
      exact min_eq_left (Nat.mul_le_mul_right r (by omega))
    · have : p = 0 := by omega
      simp [irfft, this]
  rw [hs₃]
  cases tt
  · exact ⟨_, rfl, fun j => by simp [win, hval j]⟩
  · exact ⟨_, rfl, fun j => by simp only [win, if_true, hval j]; ring⟩

/-- `downsample` as a sum of cosines. -/
theorem downsample_eq (m : ℕ) (x : ℕ → ℝ) {r : ℕ} (hr : 0 < r) (hm : r ≤ m) {ff tf : ℝ}
    (hf : 0 ≤ ff ∧ ff ≤ 1) (ht : 0 ≤ tf ∧ tf ≤ 1) (tt : Bool) (sh : ℝ) (h1 : ¬(r = 1 ∧ sh = 0)) :
    let p := nTimePad tf (m / r)
    let n := m / r + p
    ∃ v, downsample ⟨m, x⟩ r ff tf tt sh = .ok ⟨m / r, v⟩ ∧ ∀ i, v i =
      (√n * √(m + p * r : ℕ) * √r)⁻¹ * ∑ k ∈ range (n / 2 + 1), mult n k * gain ff (n / 2 + 1) k *
        ∑ j ∈ range m, x j * win tt m j * cos (2 * π * k * (i / n - (j + sh) / (m + p * r : ℕ))) := by
  intro p n
  have hq : 0 < m / r := Nat.div_pos hm hr
  have hc : ¬(m = 0 ∨ ((r : ℤ) = 1 ∧ sh = 0)) := by
    rintro (h | ⟨h, h'⟩)
    · omega
    · exact h1 ⟨by exact_mod_cast h, h'⟩
  simp only [downsample, validate_ok hr hf ht, if_neg hc, Int.toNat_natCast]
  obtain ⟨s₀, hs₀, hl0, hv0⟩ : ∃ s₀ : Sig ℝ,
      (if tt = true then ⟨m, fun j => x j * hann m j⟩ else ⟨m, x⟩ : Sig ℝ) = s₀ ∧ s₀.len = m ∧
      ∀ j, s₀.val j = x j * win tt m j := by
    refine ⟨_, rfl, ?_, fun j => ?_⟩ <;> cases tt <;> simp [win]
  rw [show nTimePad tf (m / r) = p from rfl, hs₀]
  obtain ⟨s₁, hs₁, hl, hv⟩ : ∃ s₁ : Sig ℝ, (if 0 < p then s₀.pad (p * r) else s₀) = s₁ ∧
      s₁.len = m + p * r ∧ ∀ f : ℕ → ℝ, ∑ j ∈ range (m + p * r), s₁.val j * f j
        = ∑ j ∈ range m, x j * win tt m j * f j := by
    refine ⟨_, rfl, ?_, fun f => ?_⟩
    · split_ifs with h
      · simp [Sig.pad, hl0]
      · have : p = 0 := by omega
        simp [this, hl0]
    · split_ifs with h
      · simp only [Sig.pad, hl0, hv0]
        exact sum_pad (fun j => x j * win tt m j) m (p * r) f
      · have : p = 0 := by omega
        simp only [this, zero_mul, add_zero, hv0]
  rw [hs₁, hl]
  have hn : (m + p * r) / r = n := by rw [Nat.add_mul_div_right _ _ hr]
  rw [hn, if_neg (by omega)]
  obtain ⟨f, hff, hlf, hvf⟩ : ∃ f : Sig ℂ, taper ff ((rfft s₁).take (n / 2 + 1)) = f ∧
      f.len = n / 2 + 1 ∧ ∀ k, f.val k = ((√(m + p * r : ℕ) : ℝ)⁻¹ : ℂ) *
        (∑ j ∈ range (m + p * r), (s₁.val j : ℂ) *
        Complex.exp (-2 * π * Complex.I * (j * k) / (m + p * r : ℕ))) * ((gain ff (n / 2 + 1) k : ℝ) : ℂ) := by
    have hle : n ≤ m + p * r := by
      have := Nat.div_le_self (m + p * r) r
      omega
    have hmin : min (n / 2 + 1) ((m + p * r) / 2 + 1) = n / 2 + 1 := by
      apply min_eq_left
      omega
    refine ⟨_, rfl, ?_, fun k => ?_⟩
    · rw [taper_len]; simp [Sig.take, rfft, hl, hmin]
    · rw [taper_val]
      simp [Sig.take, rfft, hl, hmin]
  rw [hff]
  have hshift : (if sh ≠ 0 then
      ⟨f.len, fun k => f.val k * Complex.exp (-Complex.I * 2 * π * (k / (m + p * r : ℕ)) * sh)⟩ else f : Sig ℂ)
      = ⟨f.len, fun k => f.val k * Complex.exp (-Complex.I * 2 * π * (k / (m + p * r : ℕ)) * sh)⟩ := by
    split_ifs with h
    · rfl
    · have : sh = 0 := by simpa using h
      simp [this]
  rw [hshift]
  have hp0 : 0 < m + p * r := by omega
  have hn0 : 0 < n := by omega
  refine ⟨fun i => (irfft n ⟨f.len, fun k => f.val k *
    Complex.exp (-Complex.I * 2 * π * (k / (m + p * r : ℕ)) * sh)⟩).val i / √r, ?_, fun i => ?_⟩
  · split_ifs with h
    · simp only [Sig.take, irfft]
      congr 2
      omega
    · simp only [irfft]
      congr 2
      omega
  · simp only [irfft]
    rw [div_eq_mul_inv, mul_sum, mul_sum, sum_mul]
    refine sum_congr rfl fun k _ => ?_
    have e : f.val k * Complex.exp (-Complex.I * 2 * π * (k / (m + p * r : ℕ)) * sh) *
        Complex.exp (2 * π * Complex.I * (i * k) / (n : ℕ)) = f.val k *
        Complex.exp (Complex.I * ((2 * π * (i * k) / n - 2 * π * (k / (m + p * r : ℕ)) * sh : ℝ) : ℂ)) := by
      rw [mul_assoc, ← Complex.exp_add]
      congr 2
      push_cast
      ring
    rw [e, hvf, ← Complex.ofReal_inv, spec_re, hv]
    have e2 : ∀ j : ℕ, 2 * π * (i * k) / n - 2 * π * (k / (m + p * r : ℕ)) * sh
        - 2 * π * (j * k) / ((m + p * r : ℕ) : ℝ)
        = 2 * π * k * (i / n - (j + sh) / (m + p * r : ℕ)) := fun j => by ring
    simp only [e2]
    rw [mul_inv, mul_inv]
    ring

/-- `downsample` of a whole number of steps. -/
theorem downsample_eq' (n : ℕ) (x : ℕ → ℝ) (hn : 0 < n) {r : ℕ} (hr : 0 < r) {ff tf : ℝ}
    (hf : 0 ≤ ff ∧ ff ≤ 1) (ht : 0 ≤ tf ∧ tf ≤ 1) (tt : Bool) (sh : ℝ) (h1 : ¬(r = 1 ∧ sh = 0)) :
    let p := nTimePad tf n
    ∃ v, downsample ⟨n * r, x⟩ r ff tf tt sh = .ok ⟨n, v⟩ ∧ ∀ i, v i =
      (((n + p) * r : ℕ) : ℝ)⁻¹ * ∑ k ∈ range ((n + p) / 2 + 1), mult (n + p) k *
        gain ff ((n + p) / 2 + 1) k * ∑ j ∈ range (n * r), x j * win tt (n * r) j *
          cos (2 * π * k * (r * i - j - sh) / ((n + p) * r : ℕ)) := by
  intro p
  obtain ⟨v, hv, h⟩ := downsample_eq (n * r) x hr (Nat.le_mul_of_pos_left _ hn) hf ht tt sh h1
  have hdiv : n * r / r = n := Nat.mul_div_cancel _ hr
  rw [hdiv] at hv h
  refine ⟨v, hv, fun i => ?_⟩
  rw [h i]
  change _ * ∑ k ∈ range ((n + p) / 2 + 1), _ = _
  have e : n * r + p * r = (n + p) * r := by ring
  have e' : n * r + nTimePad tf n * r = (n + p) * r := e
  have e'' : n + nTimePad tf n = n + p := rfl
  rw [e', e'']
  have h0 : (0 : ℝ) < (n + p : ℕ) := by
    have : 0 < n + p := by omega
    positivity
  have hr0 : (0 : ℝ) < r := by positivity
  have hc : √((n + p : ℕ) : ℝ) * √(((n + p) * r : ℕ) : ℝ) * √(r : ℝ) = ((n + p) * r : ℕ) := by
    rw [Nat.cast_mul, sqrt_mul h0.le]
    calc _ = (√((n + p : ℕ) : ℝ) * √((n + p : ℕ) : ℝ)) * (√(r : ℝ) * √(r : ℝ)) := by ring
      _ = _ := by rw [mul_self_sqrt h0.le, mul_self_sqrt hr0.le]
  rw [hc]
  congr 1
  refine sum_congr rfl fun k _ => ?_
  congr 1
  refine sum_congr rfl fun j _ => ?_
  congr 2
  rw [Nat.cast_mul]
  field_simp
  ring

/-! ### Orthogonality -/

theorem sum_exp {N : ℕ} (hN : 0 < N) (k : ℤ) :
    ∑ j ∈ range N, Complex.exp (((2 * π * k * j / N : ℝ) : ℂ) * Complex.I) =
      if (N : ℤ) ∣ k then (N : ℂ) else 0 := by
  have hζ := Complex.isPrimitiveRoot_exp N hN.ne'
  set ζ := Complex.exp (2 * π * Complex.I / N) with hz
  have h0 : ζ ≠ 0 := Complex.exp_ne_zero _
  have e : ∀ j : ℕ, Complex.exp (((2 * π * k * j / N : ℝ) : ℂ) * Complex.I) = (ζ ^ k) ^ j := fun j => by
    rw [hz, ← Complex.exp_int_mul, ← Complex.exp_nat_mul]
    congr 1
    push_cast
    ring
  simp only [e]
  split_ifs with h
  · have : ζ ^ k = 1 := (hζ.zpow_eq_one_iff_dvd k).2 h
    simp [this]
  · have h1 : ζ ^ k ≠ 1 := fun h' => h ((hζ.zpow_eq_one_iff_dvd k).1 h')
    have h2 : (ζ ^ k) ^ N = 1 := by
      rw [← zpow_natCast, ← zpow_mul, mul_comm, zpow_mul, zpow_natCast, hζ.pow_eq_one, one_zpow]
    have h3 := mul_geom_sum (ζ ^ k) N
    rw [h2, sub_self] at h3
    exact (mul_eq_zero.1 h3).resolve_left (sub_ne_zero.2 h1)

theorem sum_cos {N : ℕ} (hN : 0 < N) (k : ℤ) (φ : ℝ) :
    ∑ j ∈ range N, cos (φ + 2 * π * k * j / N) = if (N : ℤ) ∣ k then N * cos φ else 0 := by
  have h : (∑ j ∈ range N, Complex.exp (((φ + 2 * π * k * j / N : ℝ) : ℂ) * Complex.I)).re =
      (Complex.exp ((φ : ℂ) * Complex.I) * if (N : ℤ) ∣ k then (N : ℂ) else 0).re := by
    rw [← sum_exp hN k, mul_sum]
    congr 1
    refine sum_congr rfl fun j _ => ?_
    rw [← Complex.exp_add]
    congr 1
    push_cast
    ring
  rw [Complex.re_sum] at h
  simp only [Complex.exp_ofReal_mul_I_re] at h
  rw [h]
  split_ifs
  · rw [← Complex.ofReal_natCast, Complex.re_mul_ofReal, Complex.exp_ofReal_mul_I_re, mul_comm]
  · simp

/-- Orthogonality of the frequencies up to half the sampling rate. -/
theorem ortho {N k l : ℕ} (hN : 0 < N) (hk : 2 * k ≤ N) (hl : 2 * l ≤ N) (α β : ℝ)
    (h : k = 0 ∨ 2 * k = N → sin α = 0 ∨ sin β = 0) :
    ∑ j ∈ range N, cos (α - 2 * π * k * j / N) * cos (2 * π * l * j / N - β) =
      if k = l then N / mult N k * cos (α - β) else 0 := by
  have e : ∀ j : ℕ, cos (α - 2 * π * k * j / N) * cos (2 * π * l * j / N - β) =
      (cos (α - β + 2 * π * ((l : ℤ) - k : ℤ) * j / N)
        + cos (α + β + 2 * π * (-((k : ℤ) + l) : ℤ) * j / N)) * (1 / 2) := fun j => by
    have e1 : α - β + 2 * π * ((l : ℤ) - k : ℤ) * j / N
        = (α - 2 * π * k * j / N) + (2 * π * l * j / N - β) := by push_cast; ring
    have e2 : α + β + 2 * π * (-((k : ℤ) + l) : ℤ) * j / N
        = (α - 2 * π * k * j / N) - (2 * π * l * j / N - β) := by push_cast; ring
    rw [e1, e2]
    generalize α - 2 * π * k * j / N = A
    generalize 2 * π * l * j / N - β = B
    rw [cos_add, cos_sub]
    ring
  simp only [e]
  rw [← sum_mul, sum_add_distrib, sum_cos hN, sum_cos hN]
  have d1 : (N : ℤ) ∣ (l : ℤ) - k ↔ k = l := by
    constructor
    · intro hd
      by_contra hne
      have := Int.le_of_dvd (a := N) (b := |(l : ℤ) - k|) (by
        rw [abs_pos]; omega) ((dvd_abs _ _).2 hd)
      rcases abs_cases ((l : ℤ) - k) with h | h <;> omega
    · rintro rfl; simp
  have d2 : (N : ℤ) ∣ -((k : ℤ) + l) ↔ (k = 0 ∨ 2 * k = N) ∧ k = l := by
    rw [dvd_neg]
    constructor
    · intro hd
      by_cases hz : k + l = 0
      · omega
      · have := Int.le_of_dvd (by omega) hd
        omega
    · rintro ⟨h | h, rfl⟩
      · simp [h]
      · exact ⟨1, by omega⟩
  simp only [d1, d2]
  by_cases hkl : k = l
  · rw [if_pos hkl, if_pos hkl]
    by_cases hs : k = 0 ∨ 2 * k = N
    · rw [if_pos ⟨hs, hkl⟩, mult, if_pos hs, cos_add, cos_sub]
      have : sin α * sin β = 0 := mul_eq_zero.2 (h hs)
      rw [this]
      ring
    · rw [if_neg (fun h => hs h.1), mult, if_neg hs]
      ring
  · rw [if_neg hkl, if_neg hkl, if_neg (fun h => hkl h.2)]
    simp

/-- A symmetric sum over all frequencies in terms of the one-sided ones. -/
theorem sum_sym (n : ℕ) (hn : 0 < n) (f : ℕ → ℝ) (hf : ∀ k, 0 < k → k < n → f (n - k) = f k) :
    ∑ k ∈ range n, f k = ∑ k ∈ range (n / 2 + 1), mult n k * f k := by
  obtain ⟨m, hm⟩ := Nat.even_or_odd' n
  rcases hm with rfl | rfl
  · obtain ⟨m, rfl⟩ : ∃ k, m = k + 1 := ⟨m - 1, by omega⟩
    have h1 : 2 * (m + 1) = 1 + (m + (1 + m)) := by ring
    have h2 : 2 * (m + 1) / 2 + 1 = 1 + (m + 1) := by omega
    rw [h2, sum_range_add _ 1 (m + 1), sum_range_succ _ m]
    rw [show ∑ k ∈ range (2 * (m + 1)), f k = ∑ k ∈ range (1 + (m + (1 + m))), f k by rw [h1],
      sum_range_add _ 1, sum_range_add _ m, sum_range_add _ 1 m]
    simp only [sum_range_one]
    have h3 : ∑ x ∈ range m, f (1 + (m + (1 + x))) = ∑ x ∈ range m, f (1 + x) := by
      rw [← sum_range_reflect]
      refine sum_congr rfl fun x hx => ?_
      rw [mem_range] at hx
      rw [← hf (1 + x) (by omega) (by omega)]
      congr 1
      omega
    have h4 : ∀ x ∈ range m, mult (2 * (m + 1)) (1 + x) * f (1 + x) = 2 * f (1 + x) := fun x hx => by
      rw [mem_range] at hx
      rw [mult, if_neg (by omega)]
    rw [h3, sum_congr rfl h4, ← mul_sum, mult, if_pos (by left; rfl), mult, if_pos (by right; omega)]
    simp only [add_zero]
    ring
  · have h1 : 2 * m + 1 = 1 + (m + m) := by ring
    have h2 : (2 * m + 1) / 2 + 1 = 1 + m := by omega
    rw [h2, sum_range_add _ 1 m, show ∑ k ∈ range (2 * m + 1), f k = ∑ k ∈ range (1 + (m + m)), f k by rw [h1],
      sum_range_add _ 1, sum_range_add _ m]
    simp only [sum_range_one]
    have h3 : ∑ x ∈ range m, f (1 + (m + x)) = ∑ x ∈ range m, f (1 + x) := by
      rw [← sum_range_reflect]
      refine sum_congr rfl fun x hx => ?_
      rw [mem_range] at hx
      rw [← hf (1 + x) (by omega) (by omega)]
      congr 1
      omega
    have h4 : ∀ x ∈ range m, mult (2 * m + 1) (1 + x) * f (1 + x) = 2 * f (1 + x) := fun x hx => by
      rw [mem_range] at hx
      rw [mult, if_neg (by omega)]
    rw [h3, sum_congr rfl h4, ← mul_sum, mult, if_pos (by left; rfl)]
    ring

/-- Any signal is the sum of its components at the one-sided frequencies. -/
theorem inversion (n : ℕ) (x : ℕ → ℝ) {i : ℕ} (hi : i < n) :
    (n : ℝ)⁻¹ * ∑ k ∈ range (n / 2 + 1), mult n k * ∑ i' ∈ range n, x i' * cos (2 * π * k * (i - i') / n)
      = x i := by
  have hn : 0 < n := by omega
  have hn' : (n : ℝ) ≠ 0 := by positivity
  have key : ∑ k ∈ range n, ∑ i' ∈ range n, x i' * cos (2 * π * k * (i - i') / n) = n * x i := by
    rw [sum_comm]
    have e : ∀ i' ∈ range n, ∑ k ∈ range n, x i' * cos (2 * π * k * (i - i') / n) =
        if i' = i then n * x i else 0 := fun i' hi' => by
      rw [mem_range] at hi'
      rw [← mul_sum]
      have e1 : ∀ k : ℕ, cos (2 * π * k * (i - i') / n)
          = cos (0 + 2 * π * ((i : ℤ) - i' : ℤ) * k / n) := fun k => by
        congr 1; push_cast; ring
      simp only [e1]
      rw [sum_cos hn]
      by_cases h : i' = i
      · subst h; simp [mul_comm]
      · rw [if_neg h, if_neg, mul_zero]
        intro hd
        have := Int.le_of_dvd (a := n) (b := |(i : ℤ) - i'|) (by rw [abs_pos]; omega) ((dvd_abs _ _).2 hd)
        rcases abs_cases ((i : ℤ) - i') with h | h <;> omega
    rw [sum_congr rfl e, sum_ite_eq', if_pos (mem_range.2 hi)]
  rw [sum_sym n hn _ fun k hk hkn => ?_] at key
  · rw [key]; field_simp
  · refine sum_congr rfl fun i' _ => ?_
    congr 1
    have : 2 * π * ((n - k : ℕ) : ℝ) * (i - i') / n
        = -(2 * π * k * (i - i') / n) + ((i : ℤ) - i' : ℤ) * (2 * π) := by
      rw [Nat.cast_sub hkn.le]
      push_cast
      field_simp
      ring
    rw [this, cos_add_int_mul_two_pi, cos_neg]

end Dw.Resample
