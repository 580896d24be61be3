import Mathlib.Tactic.FieldSimp
import Mathlib.Tactic.Positivity
import Mathlib.Tactic.LinearCombination
import Verif.Core.Energy
import Verif.Scalar.Forward

/-!
# Energy of the wavefield without PML

`waveEnergy` is written in terms of two arrays, a velocity and the grid only.
-/

namespace Dw.Scalar

variable {d ns nr : ℕ}

/-- The discrete Laplacian with the second-derivative stencil of the given accuracy. -/
noncomputable def laplacian (acc : Acc) (dx : Fin d → ℝ) (u : Fld d ℝ) : Fld d ℝ := fun c =>
  ∑ k, cDiff2 acc (1 / dx k ^ 2) fun j => u (c.shift k j)

/-- Energy of two successive wavefields `u` (current) and `p` (previous) on the cells `S`. -/
noncomputable def waveEnergy (acc : Acc) (S : Finset (Cell d)) (dx : Fin d → ℝ) (dt : ℝ) (v u p : Fld d ℝ) : ℝ :=
  ∑ c ∈ S, ((u c - p c) / (v c * dt)) ^ 2 - ∑ c ∈ S, u c * laplacian acc dx p c

variable {acc : Acc} {S : Finset (Cell d)} {dx : Fin d → ℝ} {dt : ℝ} {v u p q : Fld d ℝ}

theorem laplacian_eq (c : Cell d) :
    laplacian acc dx u c = ∑ k, D2 acc (1 / dx k ^ 2) k u c := rfl

theorem dot_laplacian (u p : Fld d ℝ) :
    dot S u (laplacian acc dx p) = ∑ k, dot S u (D2 acc (1 / dx k ^ 2) k p) := by
  simp only [dot, laplacian_eq, Finset.mul_sum]
  exact Finset.sum_comm

theorem laplacian_symm (hu : SuppIn S u) (hp : SuppIn S p) :
    dot S u (laplacian acc dx p) = dot S (laplacian acc dx u) p := by
  rw [dot_comm S (laplacian acc dx u), dot_laplacian, dot_laplacian]
  refine Finset.sum_congr rfl fun k _ => ?_
  rw [← dot_D2 hu hp, dot_comm]

theorem laplacian_comb (α β : ℝ) (u p : Fld d ℝ) (c : Cell d) :
    laplacian acc dx (fun c => α * u c + β * p c) c =
      α * laplacian acc dx u c + β * laplacian acc dx p c := by
  simp only [laplacian, cDiff2_add, cDiff2_smul, Finset.sum_add_distrib, Finset.mul_sum]

/-- One step of the wave equation conserves the energy. -/
theorem waveEnergy_step (hdt : dt ≠ 0) (hv : ∀ c ∈ S, v c ≠ 0) (hp : SuppIn S p) (hu : SuppIn S u)
    (hstep : ∀ c ∈ S, q c = v c ^ 2 * dt ^ 2 * laplacian acc dx u c + 2 * u c - p c) :
    waveEnergy acc S dx dt v q u = waveEnergy acc S dx dt v u p := by
  have hs : ∑ c ∈ S, u c * laplacian acc dx p c = ∑ c ∈ S, laplacian acc dx u c * p c :=
    laplacian_symm hu hp
  rw [waveEnergy, waveEnergy, hs, ← sub_eq_zero, ← Finset.sum_sub_distrib, ← Finset.sum_sub_distrib,
    ← Finset.sum_sub_distrib]
  refine Finset.sum_eq_zero fun c hc => ?_
  have h1 := hv c hc
  rw [hstep c hc]
  field_simp
  ring

/-- The CFL bound at every cell. -/
def CflAt (S : Finset (Cell d)) (dx : Fin d → ℝ) (dt : ℝ) (v : Fld d ℝ) : Prop :=
  ∀ c ∈ S, (v c * dt) ^ 2 * ∑ k, 1 / dx k ^ 2 ≤ 36 / 100

theorem Acc.weight2_le (acc : Acc) : acc.weight2 ≤ 651 / 100 := by
  cases acc <;> norm_num [Acc.weight2]

/-- Lower bound on the energy. -/
theorem waveEnergy_ge (hdt : dt ≠ 0) (hv : ∀ c ∈ S, v c ≠ 0) (hp : SuppIn S p) (hu : SuppIn S u)
    (hcfl : CflAt S dx dt v) :
    4 / 10 * ∑ c ∈ S, ((u c - p c) / (v c * dt)) ^ 2
      + ∑ k, 1 / dx k ^ 2 * grad2 S (fun c => 1 / 2 * u c + 1 / 2 * p c) k
      ≤ waveEnergy acc S dx dt v u p := by
  set m : Fld d ℝ := fun c => 1 / 2 * u c + 1 / 2 * p c with hm
  set δ : Fld d ℝ := fun c => 1 * u c + (-1) * p c with hδ
  have hms : SuppIn S m := fun c hc => by simp [hm, hu c hc, hp c hc]
  have hδs : SuppIn S δ := fun c hc => by simp [hδ, hu c hc, hp c hc]
  have e : dot S u (laplacian acc dx p) =
      dot S m (laplacian acc dx m) - 1 / 4 * dot S δ (laplacian acc dx δ) := by
    have hs := laplacian_symm (acc := acc) (dx := dx) hu hp
    rw [dot_comm S (laplacian acc dx u)] at hs
    have e1 : dot S m (laplacian acc dx m) = 1 / 4 * dot S u (laplacian acc dx u)
        + 1 / 4 * dot S u (laplacian acc dx p) + 1 / 4 * dot S p (laplacian acc dx u)
        + 1 / 4 * dot S p (laplacian acc dx p) := by
      simp only [dot, Finset.mul_sum, ← Finset.sum_add_distrib, hm, laplacian_comb]
      exact Finset.sum_congr rfl fun _ _ => by ring
    have e2 : dot S δ (laplacian acc dx δ) = dot S u (laplacian acc dx u)
        - dot S u (laplacian acc dx p) - dot S p (laplacian acc dx u)
        + dot S p (laplacian acc dx p) := by
      simp only [dot, ← Finset.sum_add_distrib, ← Finset.sum_sub_distrib, hδ, laplacian_comb]
      exact Finset.sum_congr rfl fun _ _ => by ring
    rw [e1, e2, hs]; ring
  have hc : ∑ k, 1 / dx k ^ 2 * grad2 S m k ≤ -dot S m (laplacian acc dx m) := by
    rw [dot_laplacian, ← Finset.sum_neg_distrib]
    exact Finset.sum_le_sum fun k _ => D2_coercive hms acc (by positivity) k
  have hb : -dot S δ (laplacian acc dx δ) ≤ 651 / 100 * ((∑ k, 1 / dx k ^ 2) * ∑ c ∈ S, δ c ^ 2) := by
    rw [dot_laplacian, ← Finset.sum_neg_distrib, ← mul_assoc, Finset.mul_sum (s := Finset.univ),
      Finset.sum_mul]
    refine Finset.sum_le_sum fun k _ => (D2_bounded hδs acc (by positivity) k).trans ?_
    have h0 : 0 ≤ ∑ c ∈ S, δ c ^ 2 := Finset.sum_nonneg fun _ _ => sq_nonneg _
    have h1 : 0 ≤ 1 / dx k ^ 2 := by positivity
    have := Acc.weight2_le acc
    exact mul_le_mul_of_nonneg_right (mul_le_mul_of_nonneg_right this h1) h0
  have hd : (∑ k, 1 / dx k ^ 2) * ∑ c ∈ S, δ c ^ 2 ≤
      36 / 100 * ∑ c ∈ S, ((u c - p c) / (v c * dt)) ^ 2 := by
    rw [Finset.mul_sum, Finset.mul_sum]
    refine Finset.sum_le_sum fun c hcS => ?_
    have hne : v c * dt ≠ 0 := mul_ne_zero (hv c hcS) hdt
    have h1 := hcfl c hcS
    have e3 : δ c ^ 2 = (v c * dt) ^ 2 * ((u c - p c) / (v c * dt)) ^ 2 := by
      simp only [hδ]
      rw [← mul_pow, mul_div_cancel₀ _ hne]
      ring
    rw [e3, ← mul_assoc, mul_comm (∑ k, 1 / dx k ^ 2)]
    exact mul_le_mul_of_nonneg_right h1 (sq_nonneg _)
  have hE : waveEnergy acc S dx dt v u p = ∑ c ∈ S, ((u c - p c) / (v c * dt)) ^ 2 -
    dot S u (laplacian acc dx p) := rfl
  have h0 : 0 ≤ ∑ c ∈ S, ((u c - p c) / (v c * dt)) ^ 2 := Finset.sum_nonneg fun _ _ => sq_nonneg _
  rw [hE, e]
  linarith

/-- The energy bounds the wavefield. -/
theorem sq_le_waveEnergy (hdt : dt ≠ 0) (hv : ∀ c ∈ S, v c ≠ 0) (hp : SuppIn S p) (hu : SuppIn S u)
    (hcfl : CflAt S dx dt v) (k : Fin d) (hdx : dx k ≠ 0) (c : Cell d) (N : ℕ)
    (hN : c.shift k N ∉ S) :
    u c ^ 2 ≤ (2 * N + 1) * dx k ^ 2 * waveEnergy acc S dx dt v u p := by
  have hge := waveEnergy_ge (acc := acc) hdt hv hp hu hcfl
  set m : Fld d ℝ := fun c => 1 / 2 * u c + 1 / 2 * p c with hm
  have hms : SuppIn S m := fun c hc => by simp [hm, hu c hc, hp c hc]
  have hg : ∀ i, 0 ≤ 1 / dx i ^ 2 * grad2 S m i := fun i =>
    mul_nonneg (by positivity) (Finset.sum_nonneg fun _ _ => sq_nonneg _)
  have hdx2 : 0 < dx k ^ 2 := by positivity
  have hE0 : 0 ≤ ∑ c ∈ S, ((u c - p c) / (v c * dt)) ^ 2 := Finset.sum_nonneg fun _ _ => sq_nonneg _
  have hk : 1 / dx k ^ 2 * grad2 S m k ≤ waveEnergy acc S dx dt v u p := by
    have := Finset.single_le_sum (fun i _ => hg i) (Finset.mem_univ k)
    linarith
  have hk' : grad2 S m k ≤ dx k ^ 2 * waveEnergy acc S dx dt v u p := by
    rw [one_div, inv_mul_le_iff₀ hdx2] at hk
    exact hk
  have hE : 0 ≤ waveEnergy acc S dx dt v u p := (hg k).trans hk
  by_cases hcS : c ∈ S
  · have h1 : m c ^ 2 ≤ N * (dx k ^ 2 * waveEnergy acc S dx dt v u p) :=
      (poincare hms k c N hN).trans (mul_le_mul_of_nonneg_left hk' (Nat.cast_nonneg N))
    have hsum : 0 ≤ ∑ k, 1 / dx k ^ 2 * grad2 S m k := Finset.sum_nonneg fun i _ => hg i
    have h2 : ((u c - p c) / (v c * dt)) ^ 2 ≤ 10 / 4 * waveEnergy acc S dx dt v u p := by
      have := Finset.single_le_sum (f := fun c => ((u c - p c) / (v c * dt)) ^ 2)
        (fun i _ => sq_nonneg _) hcS
      linarith
    have hvd : (v c * dt) ^ 2 ≤ 36 / 100 * dx k ^ 2 := by
      have h3 := hcfl c hcS
      have h4 : 1 / dx k ^ 2 ≤ ∑ k, 1 / dx k ^ 2 :=
        Finset.single_le_sum (f := fun k => 1 / dx k ^ 2) (fun i _ => by positivity)
          (Finset.mem_univ k)
      have h5 : (v c * dt) ^ 2 * (1 / dx k ^ 2) ≤ 36 / 100 :=
        (mul_le_mul_of_nonneg_left h4 (sq_nonneg _)).trans h3
      rw [mul_one_div, div_le_iff₀ hdx2] at h5
      exact h5
    have hne : v c * dt ≠ 0 := mul_ne_zero (hv c hcS) hdt
    have h6 : (u c - p c) ^ 2 ≤ dx k ^ 2 * waveEnergy acc S dx dt v u p := by
      have e3 : (u c - p c) ^ 2 = (v c * dt) ^ 2 * ((u c - p c) / (v c * dt)) ^ 2 := by
        rw [← mul_pow, mul_div_cancel₀ _ hne]
      rw [e3]
      calc (v c * dt) ^ 2 * ((u c - p c) / (v c * dt)) ^ 2
          ≤ (36 / 100 * dx k ^ 2) * (10 / 4 * waveEnergy acc S dx dt v u p) :=
            mul_le_mul hvd h2 (sq_nonneg _) (by positivity)
        _ ≤ dx k ^ 2 * waveEnergy acc S dx dt v u p := by
            have : 0 ≤ dx k ^ 2 * waveEnergy acc S dx dt v u p := mul_nonneg hdx2.le hE
            nlinarith
    have e : u c = m c + 1 / 2 * (u c - p c) := by simp only [hm]; ring
    have h7 : u c ^ 2 ≤ 2 * m c ^ 2 + 1 / 2 * (u c - p c) ^ 2 := by
      have h9 := sq_nonneg (m c - 1 / 2 * (u c - p c))
      have h10 : u c ^ 2 = (m c + 1 / 2 * (u c - p c)) ^ 2 := congrArg (· ^ 2) e
      nlinarith
    have h8 : 0 ≤ dx k ^ 2 * waveEnergy acc S dx dt v u p := mul_nonneg hdx2.le hE
    nlinarith
  · rw [hu c hcS]
    have : 0 ≤ (2 * (N : ℝ) + 1) * dx k ^ 2 * waveEnergy acc S dx dt v u p := by positivity
    simpa using this

/-! ### The propagator -/

variable {C : Cfg d ns nr ℝ}

/-- The profiles vanish, as they do if all PML widths are zero (`common.py` 2531-2534). -/
def Cfg.NoPml {R : Type*} [Field R] (C : Cfg d ns nr R) : Prop :=
  ∀ k x, C.a k x = 0 ∧ C.b k x = 0 ∧ C.db k x = 0

theorem Cfg.NoPml.lap (h : C.NoPml) (s : St d ℝ) (c : Cell d) :
    C.lap s c = laplacian C.acc C.dx s.u c := by
  simp only [Cfg.lap, Cfg.tmp, (h _ _).1, (h _ _).2.1, (h _ _).2.2, laplacian]
  refine Finset.sum_congr rfl fun k _ => ?_
  simp only [zero_mul, Cfg.D1, Cfg.D2, Dw.D1, Dw.D2, cDiff1_zero]
  ring

theorem Cfg.suppS {s : St d ℝ} (h : C.Good s) : SuppIn C.S s.u ∧ SuppIn C.S s.p :=
  ⟨fun c hc => h.u c fun hi => hc (Cfg.mem_S.2 hi), fun c hc => h.p c fun hi => hc (Cfg.mem_S.2 hi)⟩

/-- The energy is conserved by the propagator when there are no sources. -/
theorem Cfg.energy_run (h : C.WF) (hn : C.NoPml) (hdt : C.dt ≠ 0) (hv : ∀ c, C.Inner c → C.v c ≠ 0)
    {s : St d ℝ} (hs : C.Good s) (f : ℕ → Fin ns → ℝ) (t : ℕ) (hf : ∀ t', t ≤ t' → f t' = fun _ => 0)
    (n : ℕ) :
    waveEnergy C.acc C.S C.dx C.dt C.v (C.run f t s n).u (C.run f t s n).p =
      waveEnergy C.acc C.S C.dx C.dt C.v s.u s.p := by
  induction n with
  | zero => rfl
  | succ n ih =>
      have hg := C.run_good h f t hs n
      rw [← ih]
      refine waveEnergy_step (q := (C.run f t s (n + 1)).u) hdt
        (fun c hc => hv c (Cfg.mem_S.1 hc)) (Cfg.suppS hg).2 (Cfg.suppS hg).1 fun c hc => ?_
      have hi := Cfg.mem_S.1 hc
      simp only [Cfg.run, Cfg.next, Cfg.refStep, hi, if_true, hn.lap, inject,
        hf (t + n) (by omega), ite_self, Finset.sum_const_zero, add_zero]

end Dw.Scalar
