import Mathlib.Tactic.Positivity
import Mathlib.Tactic.FieldSimp
import Mathlib.Tactic.Linarith
import Mathlib.Tactic.NormNum
import Verif.Setup.Pml
import Verif.Scalar.Ref
import Verif.Scalar.Stability

/-!
# PML profiles are well formed
-/

namespace Dw.Setup

variable {d : ℕ}

/-- Position `x` lies in the PML (or beyond it) on one of the two sides: `s0`, `s1` are the first and
the last position which do not. -/
def InPml (w0 w1 : ℤ) (s0 s1 x : ℝ) : Prop := (0 < w0 ∧ x < s0) ∨ (0 < w1 ∧ s1 < x)

theorem pmlFrac_pos_iff {w0 w1 : ℤ} (h0 : 0 ≤ w0) (h1 : 0 ≤ w1) (s0 s1 x : ℝ) :
    0 < pmlFrac w0 w1 s0 s1 x ↔ InPml w0 w1 s0 s1 x := by
  have side : ∀ (w : ℤ) (t : ℝ), 0 ≤ w → (0 < pmlFracSide w t ↔ 0 < w ∧ 0 < t) := by
    intro w t hw
    unfold pmlFracSide
    split_ifs with h
    · simp [h]
    · have hw' : 0 < w := lt_of_le_of_ne hw (Ne.symm h)
      have : (0 : ℝ) < w := by exact_mod_cast hw'
      simp [div_pos_iff_of_pos_right this, hw']
  unfold pmlFrac InPml
  rw [lt_min_iff, lt_max_iff, lt_max_iff]
  simp only [side w0 _ h0, side w1 _ h1, sub_pos, lt_irrefl, false_or, zero_lt_one, true_and]

theorem pmlFrac_mem (w0 w1 : ℤ) (s0 s1 x : ℝ) :
    0 ≤ pmlFrac w0 w1 s0 s1 x ∧ pmlFrac w0 w1 s0 s1 x ≤ 1 := by
  unfold pmlFrac
  exact ⟨le_min zero_le_one (le_max_left _ _), min_le_left _ _⟩

/-- What one element of the profiles satisfies. -/
structure GoodProfile (inPml : Prop) (a b : ℝ) : Prop where
  a_nonneg : 0 ≤ a
  a_le : a ≤ 1
  b_nonpos : b ≤ 0
  b_ge : -1 ≤ b
  sum_le : a + |b| ≤ 1
  zero_a : a = 0 ↔ ¬inPml
  zero_b : b = 0 ↔ ¬inPml

theorem setupPml_good {w0 w1 : ℤ} (h0 : 0 ≤ w0) (h1 : 0 ≤ w1) (s0 s1 : ℝ) {mp dt v f : ℝ}
    (hmp : 0 < mp) (hdt : dt ≠ 0) (hv : 0 < v) (hf : 0 < f) (start : ℝ) (i : ℤ) :
    ∃ β, (setupPml w0 w1 s0 s1 mp dt v f start i).2 = some β ∧
      GoodProfile (InPml w0 w1 s0 s1 (start + i)) (setupPml w0 w1 s0 s1 mp dt v f start i).1 β := by
  have hlog : Real.log 0.001 < 0 := Real.log_neg (by norm_num) (by norm_num)
  have hs0 : 0 < -(1 + 2) * v * Real.log 0.001 / (2 * mp) := by
    refine div_pos ?_ (by positivity)
    have : 0 < 3 * v := by positivity
    nlinarith
  have ha0 : 0 < Real.pi * f := by positivity
  obtain ⟨hF0, hF1⟩ := pmlFrac_mem w0 w1 s0 s1 (start + i)
  have hpos := pmlFrac_pos_iff h0 h1 s0 s1 (start + i)
  simp only [setupPml, if_neg hmp.ne']
  generalize -(1 + 2) * v * Real.log 0.001 / (2 * mp) = σ₀ at *
  generalize Real.pi * f = α₀ at *
  generalize pmlFrac w0 w1 s0 s1 (start + i) = F at *
  have hσ : 0 ≤ σ₀ * F ^ 2 := by positivity
  have hα : 0 ≤ α₀ * (1 - F) := mul_nonneg ha0.le (by linarith)
  have hsum : 0 < σ₀ * F ^ 2 + α₀ * (1 - F) := by
    rcases eq_or_lt_of_le hF0 with h | h
    · rw [← h]; simpa using ha0
    · have : 0 < σ₀ * F ^ 2 := by positivity
      linarith
  have hdt' : 0 < |dt| := abs_pos.2 hdt
  have he1 : Real.exp (-(σ₀ * F ^ 2 + α₀ * (1 - F)) * |dt|) < 1 := by
    rw [Real.exp_lt_one_iff]
    have := mul_pos hsum hdt'
    linarith
  have he0 := Real.exp_pos (-(σ₀ * F ^ 2 + α₀ * (1 - F)) * |dt|)
  generalize Real.exp (-(σ₀ * F ^ 2 + α₀ * (1 - F)) * |dt|) = e at *
  have hq0 : 0 ≤ σ₀ * F ^ 2 / (σ₀ * F ^ 2 + α₀ * (1 - F)) := div_nonneg hσ hsum.le
  have hq1 : σ₀ * F ^ 2 / (σ₀ * F ^ 2 + α₀ * (1 - F)) ≤ 1 := by
    rw [div_le_one hsum]; linarith
  have hqpos : 0 < F → 0 < σ₀ * F ^ 2 / (σ₀ * F ^ 2 + α₀ * (1 - F)) := fun h => by positivity
  have hqz : F = 0 → σ₀ * F ^ 2 / (σ₀ * F ^ 2 + α₀ * (1 - F)) = 0 := by rintro rfl; simp
  refine ⟨_, by rw [tdiv, if_neg hsum.ne']; rfl, ?_⟩
  generalize σ₀ * F ^ 2 / (σ₀ * F ^ 2 + α₀ * (1 - F)) = q at *
  have hb0 : q * (e - 1) ≤ 0 := mul_nonpos_of_nonneg_of_nonpos hq0 (by linarith)
  have hb1 : -(1 - e) ≤ q * (e - 1) := by nlinarith
  have hFz : F = 0 ↔ ¬InPml w0 w1 s0 s1 (start + i) := by
    rw [← hpos]
    constructor
    · rintro rfl; simp
    · intro h; exact le_antisymm (not_lt.1 h) hF0
  constructor
  · split_ifs <;> linarith
  · split_ifs <;> linarith
  · exact hb0
  · linarith
  · rw [abs_of_nonpos hb0]
    split_ifs <;> linarith
  · rw [← hFz]
    split_ifs with h
    · simp [h]
    · simp [h, he0.ne']
  · rw [← hFz]
    constructor
    · intro hz
      by_contra hne
      have hFp : 0 < F := lt_of_le_of_ne hF0 (Ne.symm hne)
      have := mul_neg_of_pos_of_neg (hqpos hFp) (by linarith : e - 1 < 0)
      linarith
    · intro hz; rw [hqz hz]; exact zero_mul _

theorem foldr_max_nonneg (l : List ℝ) : 0 ≤ l.foldr max 0 := by
  induction l with
  | nil => exact le_rfl
  | cons a l ih => exact le_max_of_le_right ih

theorem le_foldr_max {l : List ℝ} {x : ℝ} (h : x ∈ l) : x ≤ l.foldr max 0 := by
  induction l with
  | nil => simp at h
  | cons a l ih =>
      rcases List.mem_cons.1 h with rfl | h
      · exact le_max_left _ _
      · exact le_max_of_le_right (ih h)

theorem maxPml_pos {w0 w1 : Fin d → ℤ} {dx : Fin d → ℝ} (hdx : ∀ k, 0 < dx k) (k : Fin d)
    (h : 0 < w0 k ∨ 0 < w1 k) : 0 < maxPml w0 w1 dx := by
  have hm : max (w0 k * dx k) (w1 k * dx k) ≤ maxPml w0 w1 dx :=
    le_foldr_max (by simp only [List.mem_ofFn]; exact ⟨k, rfl⟩)
  refine lt_of_lt_of_le ?_ hm
  have := hdx k
  rcases h with h | h
  · have : (0 : ℝ) < w0 k := by exact_mod_cast h
    exact lt_max_of_lt_left (by positivity)
  · have : (0 : ℝ) < w1 k := by exact_mod_cast h
    exact lt_max_of_lt_right (by positivity)

/-- First and last coordinate along `k` that are not in the PML. -/
def PmlArgs.first (A : PmlArgs d) (k : Fin d) : ℝ := A.pad0 + A.w0 k
def PmlArgs.last (A : PmlArgs d) (k : Fin d) : ℝ := A.n k - 1 - A.pad1 - A.w1 k

/-- The coordinate `x` along `k` is in the PML or in the finite-difference edge beyond it. -/
def PmlArgs.InPml (A : PmlArgs d) (k : Fin d) (x : ℝ) : Prop :=
  (0 < A.w0 k ∧ x < A.first k) ∨ (0 < A.w1 k ∧ A.last k < x)

/-- What the validated arguments satisfy. -/
structure PmlArgs.Valid (A : PmlArgs d) : Prop where
  w0 : ∀ k, 0 ≤ A.w0 k
  w1 : ∀ k, 0 ≤ A.w1 k
  dx : ∀ k, 0 < A.dx k
  dt : A.dt ≠ 0
  vel : 0 < A.maxVel

/-- **C21** For a positive PML frequency and maximum velocity, on the regular and on the staggered
grid (`start` 0 or 0.5), every element of the profiles is a finite number with `0 ≤ a ≤ 1`,
`-1 ≤ b ≤ 0`, `a + |b| ≤ 1`, and each of them is zero exactly outside the PML. -/
theorem C21_profiles (A : PmlArgs d) (h : A.Valid) (hf : 0 < A.freq) (start : ℝ) (k : Fin d) (i : ℤ) :
    ∃ β, (A.ab start k i).2 = some β ∧
      GoodProfile (A.InPml k (start + i)) (A.ab start k i).1 β := by
  have hm : 0 ≤ maxPml A.w0 A.w1 A.dx := foldr_max_nonneg _
  rcases eq_or_lt_of_le hm with h0 | h0
  · refine ⟨0, by simp [PmlArgs.ab, setupPml, ← h0], ?_⟩
    have hn : ¬A.InPml k (start + i) := by
      intro hin
      have := maxPml_pos h.dx k (hin.imp And.left And.left)
      linarith
    constructor <;> simp [PmlArgs.ab, setupPml, ← h0, hn]
  · exact setupPml_good (h.w0 k) (h.w1 k) _ _ h0 h.dt h.vel hf start i

/-- **C21** A memory variable updated as `a ψ + b x` never exceeds the larger of its old value and its
input: the PML does not amplify. -/
theorem C21_no_amplification (A : PmlArgs d) (h : A.Valid) (hf : 0 < A.freq) (start : ℝ) (k : Fin d)
    (i : ℤ) (β : ℝ) (hβ : (A.ab start k i).2 = some β) (ψ x : ℝ) :
    |(A.ab start k i).1 * ψ + β * x| ≤ max |ψ| |x| := by
  obtain ⟨β', e, g⟩ := C21_profiles A h hf start k i
  obtain rfl : β = β' := by rw [hβ] at e; exact Option.some.inj e
  generalize (A.ab start k i).1 = a at *
  have h1 : |a * ψ| ≤ a * max |ψ| |x| := by
    rw [abs_mul, abs_of_nonneg g.a_nonneg]
    exact mul_le_mul_of_nonneg_left (le_max_left _ _) g.a_nonneg
  have h2 : |β * x| ≤ |β| * max |ψ| |x| := by
    rw [abs_mul]
    exact mul_le_mul_of_nonneg_left (le_max_right _ _) (abs_nonneg _)
  have h3 : 0 ≤ max |ψ| |x| := le_max_of_le_left (abs_nonneg _)
  calc |a * ψ + β * x| ≤ |a * ψ| + |β * x| := abs_add_le _ _
    _ ≤ (a + |β|) * max |ψ| |x| := by rw [add_mul]; exact add_le_add h1 h2
    _ ≤ 1 * max |ψ| |x| := mul_le_mul_of_nonneg_right g.sum_le h3
    _ = _ := one_mul _

/-- **C21** The sign of the time step does not matter. -/
theorem C21_time_step_sign (A : PmlArgs d) (start : ℝ) (k : Fin d) (i : ℤ) :
    ({ A with dt := -A.dt } : PmlArgs d).ab start k i = A.ab start k i := by
  simp [PmlArgs.ab, setupPml]

theorem PmlArgs.db_some (A : PmlArgs d) (h : A.Valid) (hf : 0 < A.freq) (k : Fin d) (i : ℤ) :
    A.db k i = some (pyDiff1 A.acc (A.n k) (1 / A.dx k) (fun i => ((A.ab 0 k i).2).getD 0) i) := by
  unfold PmlArgs.db
  rw [if_neg]
  rintro ⟨-, -, j, -, -, -, hn⟩
  obtain ⟨β, e, -⟩ := C21_profiles A h hf 0 k (i + j)
  rw [hn] at e
  cases e

/-- **C21** On the regular grid, the profiles given to the scalar propagator satisfy what
`Cfg.WF` requires: they vanish between the PMLs, and `db` vanishes where its stencil is. -/
theorem C21_scalar_profiles {ns nr : ℕ} (C : Scalar.Cfg d ns nr ℝ) (A : PmlArgs d) (h : A.Valid)
    (hf : 0 < A.freq) (hacc : C.acc = A.acc) (hp0 : A.pad0 = C.acc.pad) (hp1 : A.pad1 = C.acc.pad)
    (hw0 : C.w0 = A.w0) (hw1 : C.w1 = A.w1) (hn : C.n = A.n)
    (ha : ∀ k i, C.a k i = (A.ab 0 k i).1) (hb : ∀ k i, some (C.b k i) = (A.ab 0 k i).2)
    (hdb : ∀ k i, some (C.db k i) = A.db k i) :
    (∀ k x, C.Mid k x → C.a k x = 0 ∧ C.b k x = 0) ∧
    (∀ k x, C.Mid k (x - C.acc.pad) → C.Mid k (x + C.acc.pad) → C.db k x = 0) ∧
    ((∀ k, A.w0 k = 0 ∧ A.w1 k = 0) → C.NoPml) := by
  have key : ∀ k (x : ℤ), ¬A.InPml k (0 + x) → C.a k x = 0 ∧ C.b k x = 0 := by
    intro k x hx
    obtain ⟨β, e, g⟩ := C21_profiles A h hf 0 k x
    rw [ha]
    refine ⟨g.zero_a.2 hx, ?_⟩
    have := hb k x
    rw [e] at this
    rw [Option.some.inj this]
    exact g.zero_b.2 hx
  have hmid : ∀ k x, C.Mid k x → ¬A.InPml k (0 + x) := by
    intro k x hx
    unfold Scalar.Cfg.Mid at hx
    rintro (⟨-, h1⟩ | ⟨-, h1⟩)
    · simp only [PmlArgs.first, zero_add, hp0, ← hw0] at h1
      have : x < (C.acc.pad : ℤ) + C.w0 k := by exact_mod_cast h1
      omega
    · simp only [PmlArgs.last, zero_add, hp1, ← hw1, ← hn] at h1
      have : C.n k - 1 - (C.acc.pad : ℤ) - C.w1 k < x := by exact_mod_cast h1
      omega
  have hdbz : ∀ k x, (∀ j : ℤ, -C.acc.pad ≤ j → j ≤ C.acc.pad → C.b k (x + j) = 0) → C.db k x = 0 := by
    intro k x hz
    have := hdb k x
    rw [A.db_some h hf] at this
    rw [Option.some.inj this, pyDiff1_eq]
    split_ifs
    · rw [cDiff1_congr A.acc _ (a' := fun _ => 0), cDiff1_zero]
      intro j h1 h2
      have hz := hz j (by rw [hacc]; exact h1) (by rw [hacc]; exact h2)
      have e := hb k (x + j)
      rw [← e, hz]
      rfl
    · rfl
  refine ⟨fun k x hx => key k x (hmid k x hx), fun k x h1 h2 => hdbz k x fun j hj hj' => ?_, ?_⟩
  · refine (key k _ (hmid k _ ?_)).2
    unfold Scalar.Cfg.Mid at *
    omega
  · intro hz k x
    have hno : ∀ x : ℤ, ¬A.InPml k (0 + x) := by
      rintro x (⟨h1, -⟩ | ⟨h1, -⟩)
      · have := (hz k).1; omega
      · have := (hz k).2; omega
    exact ⟨(key k x (hno x)).1, (key k x (hno x)).2, hdbz k x fun j _ _ => (key k _ (hno _)).2⟩

/-- With `pml_freq = 0`, which is accepted by `set_pml_freq`, and any PML, the profile `b` is not a
number outside the PML (`0 / 0`), and so is its derivative at cells next to it, which the propagator
uses. -/
theorem C21_fails_for_zero_frequency (A : PmlArgs d) (h : A.Valid) (hf : A.freq = 0)
    (hpml : 0 < maxPml A.w0 A.w1 A.dx) (k : Fin d) (i : ℤ) (hi : ¬A.InPml k (0 + i)) :
    (A.ab 0 k i).2 = none ∧
    ((A.acc.pad : ℤ) ≤ i - 1 → i - 1 < A.n k - A.acc.pad → A.db k (i - 1) = none) := by
  have hb : (A.ab 0 k i).2 = none := by
    have hz : pmlFrac (A.w0 k) (A.w1 k) (A.pad0 + A.w0 k) (A.n k - 1 - A.pad1 - A.w1 k) (0 + i) = 0 := by
      have := pmlFrac_pos_iff (h.w0 k) (h.w1 k) (A.pad0 + A.w0 k) (A.n k - 1 - A.pad1 - A.w1 k) (0 + i)
      exact le_antisymm (not_lt.1 fun hp => hi (this.1 hp)) (pmlFrac_mem _ _ _ _ _).1
    simp only [PmlArgs.ab, setupPml, if_neg hpml.ne', hz, hf, tdiv]
    simp
  refine ⟨hb, fun h1 h2 => ?_⟩
  unfold PmlArgs.db
  rw [if_pos]
  refine ⟨h1, h2, 1, one_ne_zero, ?_, ?_, ?_⟩
  · have := A.acc.pad_pos; omega
  · have := A.acc.pad_pos; omega
  · rw [sub_add_cancel]; exact hb

/-- A 2D example: padded shape 14 x 16, PML widths 3 and 4. -/
noncomputable def exPml (f : ℝ) : PmlArgs 2 :=
  ⟨.a4, 2, 2, fun _ => 3, fun _ => 4, 1 / 1000, fun _ => 5, 1500, f, ![14, 16]⟩

theorem exPml_valid (f : ℝ) : (exPml f).Valid := by
  constructor <;> simp [exPml]

/-- Cell 4 is in the PML and cell 5 is not. -/
example : (exPml 25).InPml 0 (0 + (4 : ℤ)) ∧ ¬(exPml 25).InPml 0 (0 + (5 : ℤ)) ∧
    (∃ β, ((exPml 25).ab 0 0 4).2 = some β ∧ β < 0) := by
  have h4 : (exPml 25).InPml 0 (0 + (4 : ℤ)) := by
    left
    simp only [PmlArgs.first, exPml]
    norm_num
  refine ⟨h4, ?_, ?_⟩
  · simp only [PmlArgs.InPml, PmlArgs.first, PmlArgs.last, exPml]
    norm_num
  · obtain ⟨β, e, g⟩ := C21_profiles _ (exPml_valid 25) (by norm_num [exPml]) 0 0 4
    exact ⟨β, e, lt_of_le_of_ne g.b_nonpos fun hz => g.zero_b.1 hz h4⟩

/-- The failure for frequency 0 occurs for this example: `b` at cell 5, `db` at cell 4. -/
example : ((exPml 0).ab 0 0 5).2 = none ∧ (exPml 0).db 0 4 = none := by
  have := C21_fails_for_zero_frequency (exPml 0) (exPml_valid 0) rfl
    (maxPml_pos (exPml_valid 0).dx 0 (.inl (by norm_num [exPml]))) 0 5 (by
      simp only [PmlArgs.InPml, PmlArgs.first, PmlArgs.last, exPml]
      norm_num)
  exact ⟨this.1, this.2 (by norm_num [exPml, Acc.pad]) (by norm_num [exPml, Acc.pad])⟩

end Dw.Setup
