import Verif.Acoustic.Adjoint
import Verif.Acoustic.Linear
import Verif.Core.StaggeredBound

/-!
# Models given to the acoustic propagator, and its energy without PML
-/

namespace Dw.Acoustic

open Dw.Scalar (inject sample dot_congr_left dot_congr_right dot_neg_right dot_sum_left dot_sum_right)

variable {d np mp : ℕ} {nv mv : Fin d → ℕ}

section
variable {R : Type*} [Field R] [LinearOrder R]

/-- `k` of `prepare_models` (`acoustic.py` 56). -/
def prepareK (v rho : Fld d R) : Fld d R := fun c => rho c * v c ^ 2

/-- `rho_z`, `rho_y`, `rho_x` of `prepare_models` (`acoustic.py` 62-65, 73-76, 82): mean of
neighbouring densities, padded by one zero at the end. -/
def meanRho (n : Fin d → ℤ) (rho : Fld d R) (k : Fin d) : Fld d R := fun c =>
  if c k + 1 < n k then (rho c + rho (c.shift k 1)) / 2 else 0

/-- `buoyancy_z`, `buoyancy_y`, `buoyancy_x` of `prepare_models` (`acoustic.py` 66-68, 77-79, 83-85). -/
def prepareB (n : Fin d → ℤ) (rfmax : R) (rho : Fld d R) (k : Fin d) : Fld d R := fun c =>
  if rfmax < |meanRho n rho k c| then 1 / meanRho n rho k c else 0

end

variable {C : Cfg d np mp nv mv ℝ}

/-- No PML. -/
def Cfg.NoPml (C : Cfg d np mp nv mv ℝ) : Prop :=
  ∀ k x, C.a k x = 0 ∧ C.b k x = 0 ∧ C.ah k x = 0 ∧ C.bh k x = 0

/-- The energy in padded coordinates. -/
noncomputable def Cfg.energy (C : Cfg d np mp nv mv ℝ) (s : Wavefields d ℝ) : ℝ :=
  ∑ c ∈ C.S, s.p c ^ 2 / C.K c +
    ∑ k, ∑ c ∈ C.S, (s.v k c ^ 2 / C.B k c - C.dt * (s.v k c * C.DH k s.p c))

/-- The squared norm in padded coordinates. -/
noncomputable def Cfg.norm2 (C : Cfg d np mp nv mv ℝ) (s : Wavefields d ℝ) : ℝ :=
  ∑ c ∈ C.S, s.p c ^ 2 / C.K c + ∑ k, ∑ c ∈ C.S, s.v k c ^ 2 / C.B k c

theorem inject_zero' {n : ℕ} (loc : Fin n → Option (Cell d)) (c : Cell d) :
    inject loc (fun _ => (0 : ℝ)) c = 0 := by simp [inject]

theorem energy_next (h : C.WF) (hn : C.NoPml) (hK : ∀ c, C.Inner c → C.K c ≠ 0)
    (hB : ∀ k c, C.InnerH k c → C.B k c ≠ 0) {s : Wavefields d ℝ} (hs : C.Good s) :
    C.energy (C.next (fun _ => 0) (fun _ _ => 0) s) = C.energy s := by
  set s' := C.next (fun _ => 0) (fun _ _ => 0) s with hs'
  have g1 : C.Good (C.halfV (fun _ _ => 0) s) := halfV_good h _ hs
  have g' : C.Good s' := next_good h _ _ hs
  have ev : ∀ k c, C.InnerH k c → s'.v k c = s.v k c - C.dt * C.B k c * C.DH k s.p c := by
    intro k c hc
    simp only [hs', Cfg.next, Cfg.halfP, Cfg.halfV, inject_zero', Cfg.gradP, Cfg.psi', hc, if_true,
      (hn k (c k)).2.2.1, (hn k (c k)).2.2.2]
    ring
  have ep : ∀ c, C.Inner c → s'.p c = s.p c - C.dt * C.K c * ∑ k, C.DI k (s'.v k) c := by
    intro c hc
    have e : ∀ k, C.phi' k ((C.halfV (fun _ _ => 0) s).v k) ((C.halfV (fun _ _ => 0) s).phi k) c = 0 := by
      intro k
      simp only [Cfg.phi', hc, if_true, (hn k (c k)).1, (hn k (c k)).2.1]
      ring
    simp only [hs', Cfg.next, Cfg.halfP, inject_zero', Cfg.divV, hc, if_true, e, add_zero]
    rfl
  have h1 : ∑ c ∈ C.S, s'.p c ^ 2 / C.K c - ∑ c ∈ C.S, s.p c ^ 2 / C.K c =
      -C.dt * ∑ k, dot C.S (C.DI k (s'.v k)) (fun c => s'.p c + s.p c) := by
    rw [← Finset.sum_sub_distrib]
    simp only [dot]
    rw [Finset.sum_comm, Finset.mul_sum]
    refine Finset.sum_congr rfl fun c hc => ?_
    have hk := hK c (Cfg.mem_S.1 hc)
    have e := ep c (Cfg.mem_S.1 hc)
    rw [← Finset.sum_mul]
    have e2 : (∑ k, C.DI k (s'.v k) c) * (C.dt * C.K c) = s.p c - s'.p c := by rw [e]; ring
    field_simp
    linear_combination (s'.p c + s.p c) * e2
  have h2 : ∀ k, ∑ c ∈ C.S, (s'.v k c ^ 2 / C.B k c - C.dt * (s'.v k c * C.DH k s'.p c)) -
      ∑ c ∈ C.S, (s.v k c ^ 2 / C.B k c - C.dt * (s.v k c * C.DH k s.p c)) =
      -C.dt * dot C.S (s'.v k) (C.DH k fun c => s'.p c + s.p c) := by
    intro k
    rw [← Finset.sum_sub_distrib]
    simp only [dot, Finset.mul_sum]
    refine Finset.sum_congr rfl fun c hc => ?_
    have ea : C.DH k (fun c => s'.p c + s.p c) c = C.DH k s'.p c + C.DH k s.p c :=
      cSH1_add _ _ (fun j => s'.p (c.shift k j)) fun j => s.p (c.shift k j)
    rw [ea]
    by_cases hi : C.InnerH k c
    · have hb := hB k c hi
      have e := ev k c hi
      have e2 : C.DH k s.p c * (C.dt * C.B k c) = s.v k c - s'.v k c := by rw [e]; ring
      field_simp
      linear_combination (s.v k c + s'.v k c) * e2
    · rw [g'.v k c hi, hs.v k c hi]
      ring
  have h3 : ∀ k, dot C.S (C.DI k (s'.v k)) (fun c => s'.p c + s.p c) =
      -dot C.S (s'.v k) (C.DH k fun c => s'.p c + s.p c) := by
    intro k
    refine dot_DS (suppH_of (g'.v k)) ?_ C.acc (1 / C.dx k) k
    intro c hc
    have hc' : ¬C.Inner c := fun hi => hc (Cfg.mem_S.2 hi)
    simp [g'.p c hc', hs.p c hc']
  have h4 : ∑ k, ∑ c ∈ C.S, (s'.v k c ^ 2 / C.B k c - C.dt * (s'.v k c * C.DH k s'.p c)) -
      ∑ k, ∑ c ∈ C.S, (s.v k c ^ 2 / C.B k c - C.dt * (s.v k c * C.DH k s.p c)) =
      -C.dt * ∑ k, dot C.S (s'.v k) (C.DH k fun c => s'.p c + s.p c) := by
    rw [← Finset.sum_sub_distrib, Finset.sum_congr rfl fun k _ => h2 k, Finset.mul_sum]
  have h5 : ∑ k, dot C.S (C.DI k (s'.v k)) (fun c => s'.p c + s.p c) =
      -∑ k, dot C.S (s'.v k) (C.DH k fun c => s'.p c + s.p c) := by
    rw [← Finset.sum_neg_distrib]
    exact Finset.sum_congr rfl fun k _ => h3 k
  rw [h5] at h1
  unfold Cfg.energy
  linarith

theorem energy_run (h : C.WF) (hn : C.NoPml) (hK : ∀ c, C.Inner c → C.K c ≠ 0)
    (hB : ∀ k c, C.InnerH k c → C.B k c ≠ 0) {s : Wavefields d ℝ} (hs : C.Good s)
    (fp : ℕ → Fin np → ℝ) (fv : (k : Fin d) → ℕ → Fin (nv k) → ℝ) (hfp : ∀ t i, fp t i = 0)
    (hfv : ∀ k t i, fv k t i = 0) (n : ℕ) :
    C.energy (C.run fp fv s n) = C.energy s := by
  have e1 : fp = fun _ _ => 0 := by funext t i; exact hfp t i
  have e2 : fv = fun _ _ _ => 0 := by funext k t i; exact hfv k t i
  subst e1 e2
  induction n with
  | zero => rfl
  | succ n ih => rw [Cfg.run, energy_next h hn hK hB (run_good h _ _ hs n), ih]

/-- If the gradient is bounded by the norm, the energy is comparable with it. -/
theorem energy_bounds (hB : ∀ k c, C.InnerH k c → 0 < C.B k c) {s : Wavefields d ℝ} (hs : C.Good s)
    {θ : ℝ} (hθ : 0 < θ)
    (hD : C.dt ^ 2 * ∑ k, ∑ c ∈ C.S with C.InnerH k c, C.B k c * C.DH k s.p c ^ 2 ≤
      4 * θ ^ 2 * ∑ c ∈ C.S, s.p c ^ 2 / C.K c) :
    (1 - θ) * C.norm2 s ≤ C.energy s ∧ C.energy s ≤ (1 + θ) * C.norm2 s := by
  have key : ∀ k, |∑ c ∈ C.S, C.dt * (s.v k c * C.DH k s.p c)| ≤
      θ * ∑ c ∈ C.S, s.v k c ^ 2 / C.B k c +
        C.dt ^ 2 / (4 * θ) * ∑ c ∈ C.S with C.InnerH k c, C.B k c * C.DH k s.p c ^ 2 := by
    intro k
    refine (Finset.abs_sum_le_sum_abs _ _).trans ?_
    rw [Finset.sum_filter, Finset.mul_sum, Finset.mul_sum, ← Finset.sum_add_distrib]
    refine Finset.sum_le_sum fun c _ => ?_
    by_cases hi : C.InnerH k c
    · rw [if_pos hi]
      have hb := hB k c hi
      rw [abs_le]
      have hp : 0 ≤ (2 * θ * s.v k c + C.dt * C.B k c * C.DH k s.p c) ^ 2 / (4 * θ * C.B k c) := by
        positivity
      have hm : 0 ≤ (2 * θ * s.v k c - C.dt * C.B k c * C.DH k s.p c) ^ 2 / (4 * θ * C.B k c) := by
        positivity
      have ep : (2 * θ * s.v k c + C.dt * C.B k c * C.DH k s.p c) ^ 2 / (4 * θ * C.B k c) =
          θ * (s.v k c ^ 2 / C.B k c) + C.dt ^ 2 / (4 * θ) * (C.B k c * C.DH k s.p c ^ 2)
            + C.dt * (s.v k c * C.DH k s.p c) := by
        field_simp; ring
      have em : (2 * θ * s.v k c - C.dt * C.B k c * C.DH k s.p c) ^ 2 / (4 * θ * C.B k c) =
          θ * (s.v k c ^ 2 / C.B k c) + C.dt ^ 2 / (4 * θ) * (C.B k c * C.DH k s.p c ^ 2)
            - C.dt * (s.v k c * C.DH k s.p c) := by
        field_simp; ring
      constructor <;> linarith
    · rw [if_neg hi, hs.v k c hi]
      simp
  have e : C.energy s = C.norm2 s - ∑ k, ∑ c ∈ C.S, C.dt * (s.v k c * C.DH k s.p c) := by
    simp only [Cfg.energy, Cfg.norm2, Finset.sum_sub_distrib]
    ring
  have hsum : |∑ k, ∑ c ∈ C.S, C.dt * (s.v k c * C.DH k s.p c)| ≤ θ * C.norm2 s := by
    refine (Finset.abs_sum_le_sum_abs _ _).trans ((Finset.sum_le_sum fun k _ => key k).trans ?_)
    rw [Finset.sum_add_distrib, ← Finset.mul_sum, ← Finset.mul_sum]
    have h2 : C.dt ^ 2 / (4 * θ) * ∑ k, ∑ c ∈ C.S with C.InnerH k c, C.B k c * C.DH k s.p c ^ 2 ≤
        θ * ∑ c ∈ C.S, s.p c ^ 2 / C.K c := by
      have : C.dt ^ 2 / (4 * θ) * ∑ k, ∑ c ∈ C.S with C.InnerH k c, C.B k c * C.DH k s.p c ^ 2 =
          (C.dt ^ 2 * ∑ k, ∑ c ∈ C.S with C.InnerH k c, C.B k c * C.DH k s.p c ^ 2) / (4 * θ) := by
        ring
      rw [this, div_le_iff₀ (by positivity)]
      refine hD.trans (le_of_eq ?_)
      ring
    unfold Cfg.norm2
    rw [mul_add]
    linarith
  rw [abs_le] at hsum
  rw [e]
  constructor <;> linarith [hsum.1, hsum.2]

/-- The density at every point of the stencil is at most ten times the mean density at its centre. -/
def Cfg.ModestContrast (C : Cfg d np mp nv mv ℝ) (rho : Fld d ℝ) : Prop :=
  ∀ k c, C.InnerH k c → ∀ j : ℤ, 1 - (C.acc.order / 2 : ℕ) ≤ j → j ≤ (C.acc.order / 2 : ℕ) →
    rho (c.shift k j) ≤ 10 * ((rho c + rho (c.shift k 1)) / 2)

/-- Largest value of buoyancy times stencil-weighted density. -/
noncomputable def gmax (acc : Acc) : ℝ :=
  match acc with
  | .a2 => 2 | .a4 => 37 / 12 | .a6 => 359 / 96 | .a8 => 4.2

theorem weighted_le (acc : Acc) (r : ℤ → ℝ) (hpos : 0 < r 0 ∧ 0 < r 1)
    (hj : ∀ j : ℤ, 1 - (acc.order / 2 : ℕ) ≤ j → j ≤ (acc.order / 2 : ℕ) →
      r j ≤ 10 * ((r 0 + r 1) / 2)) :
    1 / ((r 0 + r 1) / 2) * ∑ j ∈ Finset.Icc (-3 : ℤ) 4, |hwt acc j| * r j ≤ gmax acc := by
  obtain ⟨h0, h1⟩ := hpos
  rw [one_div, inv_mul_le_iff₀ (by positivity), sum_offsets]
  cases acc
  · simp [hwt, gmax]
  · have := hj (-1) (by simp [Acc.order]) (by simp [Acc.order])
    have := hj 2 (by simp [Acc.order]) (by simp [Acc.order])
    simp [hwt, gmax, abs_div, abs_neg]
    norm_num
    linarith
  · have := hj (-1) (by simp [Acc.order]) (by simp [Acc.order])
    have := hj 2 (by simp [Acc.order]) (by simp [Acc.order])
    have := hj (-2) (by simp [Acc.order]) (by simp [Acc.order])
    have := hj 3 (by simp [Acc.order]) (by simp [Acc.order])
    simp [hwt, gmax, abs_div, abs_neg]
    norm_num
    linarith
  · have := hj (-1) (by simp [Acc.order]) (by simp [Acc.order])
    have := hj 2 (by simp [Acc.order]) (by simp [Acc.order])
    have := hj (-2) (by simp [Acc.order]) (by simp [Acc.order])
    have := hj 3 (by simp [Acc.order]) (by simp [Acc.order])
    have := hj (-3) (by simp [Acc.order]) (by simp [Acc.order])
    have := hj 4 (by simp [Acc.order]) (by simp [Acc.order])
    simp [hwt, gmax, abs_div, abs_neg]
    norm_num
    linarith

theorem gmax_hsum (acc : Acc) : (6 / 10 : ℝ) ^ 2 * (gmax acc * hsum acc) ≤ 4 * (99 / 100) ^ 2 := by
  rw [hsum_val]
  cases acc <;> simp [gmax] <;> norm_num

theorem gmax_hsum_a2 : (6 / 10 : ℝ) ^ 2 * (gmax .a2 * hsum .a2) ≤ 4 * (6 / 10) ^ 2 := by
  rw [hsum_val]
  simp [gmax]; norm_num

end Dw.Acoustic
