import Verif.Elastic.EnergyUser
import Verif.Elastic.Reciprocity
import Verif.Props.Elastic
import Verif.Setup.Convert

/-!
# Stability of the elastic propagator without PML
-/

namespace Dw.Elastic

open Dw.Scalar (inject sample exN)
open Dw.Acoustic (zeroExt cfl_sq hwt_range inject_zero' inject_out)

variable {d np mp : ℕ} {nv mv : Fin d → ℕ} {C : Cfg d np mp nv mv ℝ}

theorem rel_run (fp : ℕ → Fin np → ℝ) (fv : (k : Fin d) → ℕ → Fin (nv k) → ℝ) {e : Strain d}
    {s : Wavefields d ℝ} (he : C.Rel e s) (hq : C.Quiet s)
    (hp : ∀ t c, C.Inner c → inject C.srcP (fp t) c ≠ 0 → d * C.lam c + 2 * C.mu c ≠ 0)
    (hv : ∀ t k c, C.B k c = 0 → inject (C.srcV k) (fv k t) c = 0) (n : ℕ) :
    (∃ e, C.Rel e (C.run fp fv s n)) ∧ C.Quiet (C.run fp fv s n) := by
  induction n with
  | zero => exact ⟨⟨e, he⟩, hq⟩
  | succ n ih =>
      obtain ⟨⟨e, he⟩, hq⟩ := ih
      exact ⟨⟨_, rel_next _ _ he (hp n)⟩, quiet_next _ _ hq (hv n)⟩

theorem energy_run (h : C.WF) (hn : C.NoPml) {e : Strain d} {s : Wavefields d ℝ} (hs : C.Good s)
    (he : C.Rel e s) (hq : C.Quiet s) (fp : ℕ → Fin np → ℝ) (fv : (k : Fin d) → ℕ → Fin (nv k) → ℝ)
    (hfp : ∀ t i, fp t i = 0) (hfv : ∀ k t i, fv k t i = 0) (n : ℕ) :
    ∃ e', C.Rel e' (C.run fp fv s n) ∧ C.Quiet (C.run fp fv s n) ∧
      C.energy e' (C.run fp fv s n) = C.energy e s := by
  have e1 : fp = fun _ _ => 0 := by funext t i; exact hfp t i
  have e2 : fv = fun _ _ _ => 0 := by funext k t i; exact hfv k t i
  subst e1 e2
  induction n with
  | zero => exact ⟨e, he, hq, rfl⟩
  | succ n ih =>
      obtain ⟨e', he', hq', ih⟩ := ih
      exact ⟨_, rel_next _ _ he' fun c _ h0 => absurd (inject_zero' _ c) h0,
        quiet_next _ _ hq' fun k c _ => inject_zero' _ c,
        (energy_next h hn (run_good h _ _ hs n) he' hq').trans ih⟩

/-- **C69** Without PML and sources, the energy of the wavefields returned by `elastic` is the energy of
the wavefields given, however many steps are made, for all nonnegative moduli (solids, fluids and
vacuum) and any callback frequency. -/
theorem C69_energy_conserved (h : C.WF) (hn : C.NoPml) (hC : C.Nonneg) (hr : 0 < C.ratio)
    (gl gm gb : Bool) (cb : Option ℕ) (nt : ℕ) (hcf : 0 < nt → 0 < cb.getD (nt / C.ratio)) (w : Init d ℝ)
    (ha : C.Admissible (fun i => (w.v i).getD fun _ => 0) (fun i => (w.s i).getD fun _ => 0)
      (fun p => (w.sh p).getD fun _ => 0)) :
    ∃ r, C.forward gl gm gb cb nt (fun _ _ => 0) (fun _ _ _ => 0) w = .ok r ∧
      C.Admissible r.out.v r.out.s r.out.sh ∧
      C.userEnergy r.out.v r.out.s r.out.sh =
        C.userEnergy (fun i => (w.v i).getD fun _ => 0) (fun i => (w.s i).getD fun _ => 0)
          (fun p => (w.sh p).getD fun _ => 0) := by
  have hg := prepare_good (C := C) w
  have hs := same_prepare (C := C) w
  have he := rel_strainOf hC hg hs ha
  have hq := quiet_of hg hs ha
  obtain ⟨e', he', hq', hE⟩ := energy_run h hn hg he hq (fun _ _ => 0) (fun _ _ _ => 0) (fun _ _ => rfl)
    (fun _ _ _ => rfl) (nt / C.ratio * C.ratio)
  refine ⟨_, forward_eq h gl gm gb cb nt _ _ w hr hcf, ?_, ?_⟩
  · exact admissible_of he' hq' (same_unpad _)
  · simp only
    rw [energy_user hn (run_good h _ _ hg _) he' hC hq' (same_unpad _), hE,
      energy_user hn hg he hC hq hs]

/-! ### Models of the user -/

/-- The configuration is that of Lamé parameters `lam`, `mu` and buoyancy `b` (padded): nonnegative, and
zero buoyancy only in a vacuum. -/
structure Cfg.FromModels (C : Cfg d np mp nv mv ℝ) (rfmax : ℝ) (b : Fld d ℝ) : Prop where
  muS : C.muS = prepareMuS C.n rfmax C.mu
  B : C.B = prepareB C.n rfmax b
  rfmax_pos : 0 < rfmax
  lam_nonneg : ∀ c, (∀ k, 0 ≤ c k ∧ c k < C.n k) → 0 ≤ C.lam c
  mu_nonneg : ∀ c, (∀ k, 0 ≤ c k ∧ c k < C.n k) → 0 ≤ C.mu c
  b_cases : ∀ c, (∀ k, 0 ≤ c k ∧ c k < C.n k) → rfmax < b c ∨ b c = 0 ∧ C.lam c = 0 ∧ C.mu c = 0

/-- Density of a medium of buoyancy `b`; zero in a vacuum (`1 / 0 = 0`). -/
noncomputable def rhoOf (b : Fld d ℝ) : Fld d ℝ := fun c => 1 / b c

theorem inner_array {c : Cell d} (hc : C.Inner c) (k : Fin d) : 0 ≤ c k ∧ c k < C.n k := by
  have := hc k
  have := C.acc.pad_pos
  constructor <;> omega

theorem hm4_le {a b c d : ℝ} (ha : 0 < a) (hb : 0 < b) (hc : 0 < c) (hd : 0 < d) :
    4 / (1 / a + 1 / b + 1 / c + 1 / d) ≤ a + b := by
  rw [div_le_iff₀ (by positivity)]
  have h1 : (a + b) * (1 / a + 1 / b) = 4 + (a - b) ^ 2 / (a * b) := by field_simp; ring
  have h2 : 0 ≤ (a - b) ^ 2 / (a * b) := by positivity
  have h3 : 0 ≤ (a + b) * (1 / c + 1 / d) := by positivity
  nlinarith

theorem hm4_le_max {a b c d M : ℝ} (ha : 0 < a) (hb : 0 < b) (hc : 0 < c) (hd : 0 < d)
    (h1 : a ≤ M) (h2 : b ≤ M) (h3 : c ≤ M) (h4 : d ≤ M) :
    4 / (1 / a + 1 / b + 1 / c + 1 / d) ≤ M := by
  have hM : 0 < M := ha.trans_le h1
  rw [div_le_iff₀ (by positivity)]
  have k : ∀ x : ℝ, 0 < x → x ≤ M → 1 ≤ M * (1 / x) := by
    intro x hx hxM
    rw [mul_one_div, le_div_iff₀ hx]; linarith
  nlinarith [k a ha h1, k b hb h2, k c hc h3, k d hd h4]

/-- The shear modulus between cells: either zero or the harmonic mean. -/
theorem muS_cases {rfmax : ℝ} (hr : 0 < rfmax) {n : Fin d → ℤ} {mu : Fld d ℝ} (p : Sh d) (c : Cell d)
    (hmu : 0 ≤ mu c ∧ 0 ≤ mu (c.shift p.1.1 1) ∧ 0 ≤ mu (c.shift p.1.2 1) ∧
      0 ≤ mu ((c.shift p.1.1 1).shift p.1.2 1)) :
    prepareMuS n rfmax mu p c = 0 ∨ 0 < mu c ∧ 0 < mu (c.shift p.1.1 1) ∧ 0 < mu (c.shift p.1.2 1) ∧
      0 < mu ((c.shift p.1.1 1).shift p.1.2 1) ∧ prepareMuS n rfmax mu p c =
        4 / (1 / mu ((c.shift p.1.1 1).shift p.1.2 1) + 1 / mu c + 1 / mu (c.shift p.1.1 1)
          + 1 / mu (c.shift p.1.2 1)) := by
  unfold prepareMuS
  simp only
  split_ifs with h1 h2
  · obtain ⟨a1, a2, a3, a4⟩ := h2
    right
    simp only [muSafe, a1, a2, a3, a4, if_true, and_true]
    rw [abs_of_nonneg hmu.2.2.2] at a1
    rw [abs_of_nonneg hmu.1] at a2
    rw [abs_of_nonneg hmu.2.1] at a3
    rw [abs_of_nonneg hmu.2.2.1] at a4
    exact ⟨hr.trans a2, hr.trans a3, hr.trans a4, hr.trans a1⟩
  · exact .inl rfl
  · exact .inl rfl

theorem shift_inner {c : Cell d} {k : Fin d} (hc : C.Inner c) (h : c k < C.n k - C.acc.pad) :
    C.Inner (c.shift k 1) := by
  intro j
  have := hc j
  by_cases hj : j = k
  · subst hj; rw [Cell.shift_same]; constructor <;> omega
  · rw [Cell.shift_ne _ _ _ _ hj]; exact this

/-- The four cells around a point of a shear stress are in the model. -/
theorem corners_inner {p : Sh d} {c : Cell d} (hc : C.InnerAt (sLoc p.1.1 p.1.2) c) :
    C.Inner c ∧ C.Inner (c.shift p.1.1 1) ∧ C.Inner (c.shift p.1.2 1) ∧
      C.Inner ((c.shift p.1.1 1).shift p.1.2 1) := by
  have h1 := hc.2 _ (sLoc_lt_left p)
  have h2 := hc.2 _ (sLoc_lt_right p)
  refine ⟨hc.1, shift_inner hc.1 h1, shift_inner hc.1 h2, shift_inner (shift_inner hc.1 h1) ?_⟩
  rw [Cell.shift_ne _ _ _ _ p.2.ne']
  exact h2

theorem Cfg.FromModels.mu4 {rfmax : ℝ} {b : Fld d ℝ} (hm : C.FromModels rfmax b) {p : Sh d} {c : Cell d}
    (hc : C.InnerAt (sLoc p.1.1 p.1.2) c) :
    0 ≤ C.mu c ∧ 0 ≤ C.mu (c.shift p.1.1 1) ∧ 0 ≤ C.mu (c.shift p.1.2 1) ∧
      0 ≤ C.mu ((c.shift p.1.1 1).shift p.1.2 1) := by
  obtain ⟨h1, h2, h3, h4⟩ := corners_inner hc
  exact ⟨hm.mu_nonneg _ (inner_array h1), hm.mu_nonneg _ (inner_array h2),
    hm.mu_nonneg _ (inner_array h3), hm.mu_nonneg _ (inner_array h4)⟩

theorem prepareRho_eq {rfmax : ℝ} {b : Fld d ℝ} (hm : C.FromModels rfmax b) {c : Cell d}
    (hc : C.Inner c) : prepareRho rfmax b c = rhoOf b c := by
  have hr := hm.rfmax_pos
  unfold rhoOf prepareRho
  rcases hm.b_cases c (inner_array hc) with h | h
  · rw [if_pos (by rw [abs_of_pos (hr.trans h)]; exact h)]
  · rw [if_neg (by rw [h.1, abs_zero]; exact hr.le.not_gt), h.1, div_zero]

theorem rho_nonneg {rfmax : ℝ} {b : Fld d ℝ} (hm : C.FromModels rfmax b) {c : Cell d} (hc : C.Inner c) :
    0 ≤ rhoOf b c := by
  have hr := hm.rfmax_pos
  unfold rhoOf
  rcases hm.b_cases c (inner_array hc) with h | h
  · have := hr.trans h
    positivity
  · rw [h.1, div_zero]

/-- Buoyancy times mean density is at most one. -/
theorem B_facts {rfmax : ℝ} {b : Fld d ℝ} (hm : C.FromModels rfmax b) {i : Fin d} {c : Cell d}
    (hc : C.InnerAt (vLoc i) c) : 0 ≤ C.B i c ∧
      C.B i c * ((rhoOf b c + rhoOf b (c.shift i 1)) / 2) ≤ 1 := by
  have hci : c i < C.n i - C.acc.pad := hc.2 i (by simp [vLoc])
  have h1 := rho_nonneg hm hc.1
  have h2 := rho_nonneg hm (shift_inner hc.1 hci)
  have hp := C.acc.pad_pos
  have em : Acoustic.meanRho C.n (prepareRho rfmax b) i c =
      (rhoOf b c + rhoOf b (c.shift i 1)) / 2 := by
    rw [← prepareRho_eq hm hc.1, ← prepareRho_eq hm (shift_inner hc.1 hci)]
    exact if_pos (by omega)
  rw [hm.B]
  unfold prepareB Acoustic.prepareB
  rw [em]
  set m := (rhoOf b c + rhoOf b (c.shift i 1)) / 2 with hmd
  have hm0 : 0 ≤ m := by rw [hmd]; linarith
  split_ifs with h
  · rw [abs_of_nonneg hm0] at h
    have : 0 < m := hm.rfmax_pos.trans h
    refine ⟨by positivity, le_of_eq ?_⟩
    field_simp
  · simp

theorem B_zero {rfmax : ℝ} {b : Fld d ℝ} (hm : C.FromModels rfmax b) {i : Fin d} {c : Cell d}
    (hc : C.InnerAt (vLoc i) c) (h0 : rhoOf b c + rhoOf b (c.shift i 1) = 0) : C.B i c = 0 := by
  have hci : c i < C.n i - C.acc.pad := hc.2 i (by simp [vLoc])
  have hp := C.acc.pad_pos
  have em : Acoustic.meanRho C.n (prepareRho rfmax b) i c = 0 := by
    have : Acoustic.meanRho C.n (prepareRho rfmax b) i c =
      (prepareRho rfmax b c + prepareRho rfmax b (c.shift i 1)) / 2 := if_pos (by omega)
    rw [this, prepareRho_eq hm hc.1, prepareRho_eq hm (shift_inner hc.1 hci), h0, zero_div]
  rw [hm.B]
  unfold prepareB Acoustic.prepareB
  rw [em, abs_zero]
  exact if_neg hm.rfmax_pos.le.not_gt

theorem Cfg.FromModels.nonneg {rfmax : ℝ} {b : Fld d ℝ} (hm : C.FromModels rfmax b) : C.Nonneg where
  lam := fun c hc => hm.lam_nonneg c (inner_array hc)
  mu := fun c hc => hm.mu_nonneg c (inner_array hc)
  muS := fun p c hc => by
    rw [hm.muS]
    rcases muS_cases hm.rfmax_pos (n := C.n) p c (hm.mu4 hc) with h | ⟨h1, h2, h3, h4, h⟩
    · rw [h]
    · rw [h]; positivity
  B := fun i c hc => (B_facts hm hc).1

theorem muS_le_max {rfmax : ℝ} {b : Fld d ℝ} (hm : C.FromModels rfmax b) {p : Sh d} {c : Cell d}
    (hc : C.InnerAt (sLoc p.1.1 p.1.2) c) {M : ℝ} (hM0 : 0 ≤ M) (h1 : C.mu c ≤ M)
    (h2 : C.mu (c.shift p.1.1 1) ≤ M) (h3 : C.mu (c.shift p.1.2 1) ≤ M)
    (h4 : C.mu ((c.shift p.1.1 1).shift p.1.2 1) ≤ M) : C.muS p c ≤ M := by
  rw [hm.muS]
  rcases muS_cases hm.rfmax_pos (n := C.n) p c (hm.mu4 hc) with h | ⟨k1, k2, k3, k4, h⟩
  · rw [h]; exact hM0
  · rw [h]; exact hm4_le_max k4 k1 k2 k3 h4 h1 h2 h3

/-- The shear modulus at a point is at most the sum of those of two neighbouring cells. -/
theorem muS_le_sum {rfmax : ℝ} {b : Fld d ℝ} (hm : C.FromModels rfmax b) {p : Sh d} {c : Cell d}
    (hc : C.InnerAt (sLoc p.1.1 p.1.2) c) :
    C.muS p c ≤ C.mu c + C.mu (c.shift p.1.1 1) ∧ C.muS p c ≤ C.mu c + C.mu (c.shift p.1.2 1) ∧
    C.muS p c ≤ C.mu (c.shift p.1.2 1) + C.mu ((c.shift p.1.1 1).shift p.1.2 1) ∧
    C.muS p c ≤ C.mu (c.shift p.1.1 1) + C.mu ((c.shift p.1.1 1).shift p.1.2 1) := by
  obtain ⟨a1, a2, a3, a4⟩ := hm.mu4 hc
  rw [hm.muS]
  rcases muS_cases hm.rfmax_pos (n := C.n) p c (hm.mu4 hc) with h | ⟨k1, k2, k3, k4, h⟩
  · rw [h]; refine ⟨?_, ?_, ?_, ?_⟩ <;> linarith
  · rw [h]
    refine ⟨?_, ?_, ?_, ?_⟩
    · refine le_trans (le_of_eq ?_) (hm4_le k1 k2 k3 k4)
      congr 1; ring
    · refine le_trans (le_of_eq ?_) (hm4_le k1 k3 k2 k4)
      congr 1; ring
    · refine le_trans (le_of_eq ?_) (hm4_le k3 k4 k1 k2)
      congr 1; ring
    · refine le_trans (le_of_eq ?_) (hm4_le k2 k4 k1 k3)
      congr 1; ring

/-- The P-wave velocity computed from the models bounds `lam + 2 mu`. -/
theorem p_modulus_le {rfmax : ℝ} {b : Fld d ℝ} (hm : C.FromModels rfmax b) {vmax eps : ℝ} {c : Cell d}
    (hc : C.Inner c) (hv : (Setup.fromLamb (C.lam c) (C.mu c) (b c) eps).1 ≤ vmax) :
    C.lam c + 2 * C.mu c ≤ vmax ^ 2 * rhoOf b c := by
  have hr := hm.rfmax_pos
  have hl := hm.lam_nonneg c (inner_array hc)
  have hmu := hm.mu_nonneg c (inner_array hc)
  unfold rhoOf
  rcases hm.b_cases c (inner_array hc) with h | ⟨h1, h2, h3⟩
  · have hb := hr.trans h
    simp only [Setup.fromLamb] at hv
    rw [Real.sq_sqrt (by positivity), Real.sqrt_le_iff] at hv
    rw [mul_one_div, le_div_iff₀ hb]
    linarith [hv.2]
  · rw [h1, h2, h3, div_zero]
    simp

/-! ### The weight of the bound -/

theorem wsum_le {acc : Acc} {h : Bool} {k : Fin d} {m : Fld d ℝ} {c : Cell d} {M : ℝ}
    (hm : ∀ j : ℤ, 1 - (acc.pad : ℤ) ≤ j → j ≤ acc.pad → m (c.shift k (off h - j)) ≤ M) :
    wsum acc h k m c ≤ hsum acc * M := by
  unfold wsum hsum
  rw [Finset.sum_mul]
  refine Finset.sum_le_sum fun j _ => ?_
  by_cases hj : hwt acc j = 0
  · simp [hj]
  · exact mul_le_mul_of_nonneg_left (hm j (hwt_range hj).1 (hwt_range hj).2) (abs_nonneg _)

theorem modS_cases {i j : Fin d} (hij : i ≠ j) (c : Cell d) : C.modS i j c = 0 ∨
    ∃ p : Sh d, (p.1 = (i, j) ∨ p.1 = (j, i)) ∧ C.InnerAt (sLoc p.1.1 p.1.2) c ∧
      C.modS i j c = C.muS p c := by
  unfold Cfg.modS pick
  rcases lt_or_gt_of_ne hij with h | h
  · rw [dif_pos h]
    by_cases hc : C.InnerAt (sLoc i j) c
    · exact .inr ⟨⟨(i, j), h⟩, .inl rfl, hc, only_pos hc⟩
    · exact .inl (only_neg hc)
  · rw [dif_neg h.asymm, dif_pos h]
    by_cases hc : C.InnerAt (sLoc j i) c
    · exact .inr ⟨⟨(j, i), h⟩, .inr rfl, hc, only_pos hc⟩
    · exact .inl (only_neg hc)

theorem modS_diag (i : Fin d) (c : Cell d) : C.modS i i c = only C.Inner C.mu c := by
  rw [Cfg.modS, pick_self]

theorem off_sLoc {i j : Fin d} (hij : i ≠ j) : off (sLoc i j j) = 0 := by
  simp [off, sLoc, hij.symm]

theorem off_sLoc_diag (i : Fin d) : off (sLoc i i i) = 1 := by simp [off, sLoc]

theorem shift_swap (c : Cell d) (k l : Fin d) (i j : ℤ) :
    (c.shift k i).shift l j = (c.shift l j).shift k i := by
  simp only [Cell.shift]
  exact add_right_comm _ _ _

/-- Cells within the stencil. -/
def Cfg.Near (C : Cfg d np mp nv mv ℝ) (c c' : Cell d) : Prop :=
  ∀ k, |c' k - c k| ≤ (C.acc.order / 2 : ℕ)

/-- Stiffness near a velocity point `(i, c)` that is not in a vacuum at most 8/5 of the mean density there
times `vmax ^ 2`. -/
def Cfg.Modest (C : Cfg d np mp nv mv ℝ) (b : Fld d ℝ) (vmax : ℝ) : Prop :=
  ∀ i c, C.InnerAt (vLoc i) c → rhoOf b c + rhoOf b (c.shift i 1) ≠ 0 → ∃ L M : ℝ, 0 ≤ L ∧ 0 ≤ M ∧
    (∀ c', C.Inner c' → C.Near c c' → C.lam c' ≤ L ∧ C.mu c' ≤ M) ∧
    L + 2 * M ≤ 8 / 5 * vmax ^ 2 * ((rhoOf b c + rhoOf b (c.shift i 1)) / 2)

theorem near_shift {c : Cell d} {k : Fin d} {j : ℤ} (h : |j| ≤ C.acc.pad) : C.Near c (c.shift k j) := by
  intro i
  rw [Acc.order_div_two]
  by_cases hi : i = k
  · subst hi; rw [Cell.shift_same]; simpa using h
  · rw [Cell.shift_ne _ _ _ _ hi]; simp

theorem near_shift2 {c : Cell d} {i k : Fin d} (hik : i ≠ k) {j l : ℤ} (h : |j| ≤ C.acc.pad)
    (h' : |l| ≤ C.acc.pad) : C.Near c ((c.shift i l).shift k j) := by
  intro x
  rw [Acc.order_div_two]
  by_cases hx : x = k
  · subst hx; rw [Cell.shift_same, Cell.shift_ne _ _ _ _ hik.symm]; simpa using h
  · rw [Cell.shift_ne _ _ _ _ hx]
    by_cases hy : x = i
    · subst hy; rw [Cell.shift_same]; simpa using h'
    · rw [Cell.shift_ne _ _ _ _ hy]; simp

theorem X_nonneg : 0 ≤ ∑ k, (1 / C.dx k) ^ 2 := Finset.sum_nonneg fun _ _ => sq_nonneg _

theorem hsum_nonneg (acc : Acc) : 0 ≤ hsum acc := Finset.sum_nonneg fun _ _ => abs_nonneg _

theorem weight_modest {rfmax : ℝ} {b : Fld d ℝ} (hm : C.FromModels rfmax b) {vmax : ℝ}
    (hmod : C.Modest b vmax) {i : Fin d} {c : Cell d} (hc : C.InnerAt (vLoc i) c) :
    C.B i c * C.weight i c ≤ hsum C.acc * (8 / 5 * (vmax ^ 2 * ∑ k, (1 / C.dx k) ^ 2)) := by
  have hX := X_nonneg (C := C)
  have hh := hsum_nonneg C.acc
  by_cases hrho : rhoOf b c + rhoOf b (c.shift i 1) = 0
  · rw [B_zero hm hc hrho, zero_mul]; positivity
  obtain ⟨L, M, hL, hM, hLM, hle⟩ := hmod i c hc hrho
  have hpad : (1 : ℤ) ≤ C.acc.pad := by exact_mod_cast C.acc.pad_pos
  have h1 : wsum C.acc false i (only C.Inner C.lam) c ≤ hsum C.acc * L := by
    refine wsum_le fun j hj1 hj2 => ?_
    by_cases hi : C.Inner (c.shift i (off false - j))
    · rw [only_pos hi]
      exact (hLM _ hi (near_shift (by simp [off]; rw [abs_le]; constructor <;> omega))).1
    · rw [only_neg hi]; exact hL
  have h2 : ∀ j, wsum C.acc (sLoc i j j) j (C.modS i j) c ≤ hsum C.acc * M := by
    intro j
    refine wsum_le fun l hl1 hl2 => ?_
    by_cases hij : i = j
    · subst hij
      rw [modS_diag, off_sLoc_diag]
      by_cases hi : C.Inner (c.shift i (1 - l))
      · rw [only_pos hi]
        exact (hLM _ hi (near_shift (by rw [abs_le]; constructor <;> omega))).2
      · rw [only_neg hi]; exact hM
    · rw [off_sLoc hij]
      rcases modS_cases (C := C) hij (c.shift j (0 - l)) with h | ⟨p, hp, hin, h⟩
      · rw [h]; exact hM
      · rw [h]
        obtain ⟨k1, k2, k3, k4⟩ := corners_inner hin
        have n1 : C.Near c (c.shift j (0 - l)) := near_shift (by rw [abs_le]; constructor <;> omega)
        have n2 : C.Near c ((c.shift j (0 - l)).shift i 1) :=
          near_shift2 (Ne.symm hij) (by rw [abs_le]; constructor <;> omega)
            (by rw [abs_le]; constructor <;> omega)
        have n3 : C.Near c ((c.shift j (0 - l)).shift j 1) := by
          rw [Cell.shift_shift]
          exact near_shift (by rw [abs_le]; constructor <;> omega)
        have n4 : C.Near c (((c.shift j (0 - l)).shift j 1).shift i 1) := by
          rw [Cell.shift_shift]
          exact near_shift2 (Ne.symm hij) (by rw [abs_le]; constructor <;> omega)
            (by rw [abs_le]; constructor <;> omega)
        have n4' : C.Near c (((c.shift j (0 - l)).shift i 1).shift j 1) := by
          rwa [shift_swap] at n4
        rcases hp with hp | hp
        · rw [hp] at k2 k3 k4
          refine muS_le_max hm hin hM (hLM _ k1 n1).2 ?_ ?_ ?_
          · rw [hp]; exact (hLM _ k2 n2).2
          · rw [hp]; exact (hLM _ k3 n3).2
          · rw [hp]; exact (hLM _ k4 n4').2
        · rw [hp] at k2 k3 k4
          refine muS_le_max hm hin hM (hLM _ k1 n1).2 ?_ ?_ ?_
          · rw [hp]; exact (hLM _ k2 n3).2
          · rw [hp]; exact (hLM _ k3 n2).2
          · rw [hp]; exact (hLM _ k4 n4).2
  have hw : C.weight i c ≤ hsum C.acc * ((∑ k, (1 / C.dx k) ^ 2) * (L + 2 * M)) := by
    unfold Cfg.weight
    have h3 : ∑ j, (1 / C.dx j) ^ 2 * wsum C.acc (sLoc i j j) j (C.modS i j) c ≤
        (∑ j, (1 / C.dx j) ^ 2) * (hsum C.acc * M) := by
      rw [Finset.sum_mul]
      exact Finset.sum_le_sum fun j _ => mul_le_mul_of_nonneg_left (h2 j) (sq_nonneg _)
    have h4 := mul_le_mul_of_nonneg_left h1 hX
    nlinarith
  obtain ⟨hB0, hB1⟩ := B_facts hm hc
  refine (mul_le_mul_of_nonneg_left hw hB0).trans ?_
  have h5 : C.B i c * (L + 2 * M) ≤ 8 / 5 * vmax ^ 2 := by
    refine (mul_le_mul_of_nonneg_left hle hB0).trans ?_
    have := mul_le_mul_of_nonneg_left hB1 (by positivity : 0 ≤ 8 / 5 * vmax ^ 2)
    nlinarith
  have h6 := mul_le_mul_of_nonneg_left h5 (mul_nonneg hh hX)
  nlinarith

theorem weight_two {rfmax : ℝ} {b : Fld d ℝ} (hm : C.FromModels rfmax b) (hacc : C.acc = .a2)
    {vmax eps : ℝ} (hv : ∀ c, C.Inner c → (Setup.fromLamb (C.lam c) (C.mu c) (b c) eps).1 ≤ vmax)
    {i : Fin d} {c : Cell d} (hc : C.InnerAt (vLoc i) c) :
    C.B i c * C.weight i c ≤ 4 * (vmax ^ 2 * ∑ k, (1 / C.dx k) ^ 2) := by
  have hX := X_nonneg (C := C)
  have hci : c i < C.n i - C.acc.pad := hc.2 i (by simp [vLoc])
  have hc' := shift_inner hc.1 hci
  have e : ∀ (h : Bool) (k : Fin d) (m : Fld d ℝ), wsum C.acc h k m c =
      m (c.shift k (off h)) + m (c.shift k (off h - 1)) := by
    intro h k m
    have hI : Finset.Icc (-3 : ℤ) 4 = {-3, -2, -1, 0, 1, 2, 3, 4} := by decide
    unfold wsum
    rw [hacc, hI]
    simp [hwt]
  have hmu := hm.mu_nonneg c (inner_array hc.1)
  have hmu' := hm.mu_nonneg _ (inner_array hc')
  have h1 : wsum C.acc false i (only C.Inner C.lam) c = C.lam c + C.lam (c.shift i 1) := by
    rw [e]
    simp only [off, Bool.false_eq_true, if_false, sub_self, Cell.shift_zero]
    rw [only_pos hc.1, only_pos hc']
    ring
  have h2 : ∀ j, wsum C.acc (sLoc i j j) j (C.modS i j) c ≤ 2 * (C.mu c + C.mu (c.shift i 1)) := by
    intro j
    rw [e]
    by_cases hij : i = j
    · subst hij
      rw [off_sLoc_diag, modS_diag, modS_diag, sub_self, Cell.shift_zero, only_pos hc.1, only_pos hc']
      linarith
    · rw [off_sLoc hij, Cell.shift_zero]
      have k1 : C.modS i j c ≤ C.mu c + C.mu (c.shift i 1) := by
        rcases modS_cases (C := C) hij c with h | ⟨p, hp, hin, h⟩
        · rw [h]; linarith
        · rw [h]
          have := muS_le_sum hm hin
          rcases hp with hp | hp <;> rw [hp] at this
          · exact this.1
          · exact this.2.1
      have k2 : C.modS i j (c.shift j (0 - 1)) ≤ C.mu c + C.mu (c.shift i 1) := by
        rcases modS_cases (C := C) hij (c.shift j (0 - 1)) with h | ⟨p, hp, hin, h⟩
        · rw [h]; linarith
        · rw [h]
          have := muS_le_sum hm hin
          have e1 : (c.shift j (0 - 1)).shift j 1 = c := by
            rw [Cell.shift_shift]; simp
          rcases hp with hp | hp <;> rw [hp] at this
          · have := this.2.2.1
            simp only at this
            rwa [e1, shift_swap _ i j, e1] at this
          · have := this.2.2.2
            rwa [e1] at this
      linarith
  have hw : C.weight i c ≤ (∑ k, (1 / C.dx k) ^ 2) *
      ((C.lam c + 2 * C.mu c) * 2 + (C.lam (c.shift i 1) + 2 * C.mu (c.shift i 1)) * 2) := by
    unfold Cfg.weight
    have h3 : ∑ j, (1 / C.dx j) ^ 2 * wsum C.acc (sLoc i j j) j (C.modS i j) c ≤
        (∑ j, (1 / C.dx j) ^ 2) * (2 * (C.mu c + C.mu (c.shift i 1))) := by
      rw [Finset.sum_mul]
      exact Finset.sum_le_sum fun j _ => mul_le_mul_of_nonneg_left (h2 j) (sq_nonneg _)
    rw [h1]
    have hl := hm.lam_nonneg c (inner_array hc.1)
    have hl' := hm.lam_nonneg _ (inner_array hc')
    have := mul_nonneg hX (add_nonneg hl hl')
    nlinarith
  have p1 := p_modulus_le hm hc.1 (hv c hc.1)
  have p2 := p_modulus_le hm hc' (hv _ hc')
  obtain ⟨hB0, hB1⟩ := B_facts hm hc
  have hw2 : C.weight i c ≤ (∑ k, (1 / C.dx k) ^ 2) *
      (4 * vmax ^ 2 * ((rhoOf b c + rhoOf b (c.shift i 1)) / 2)) :=
    hw.trans (mul_le_mul_of_nonneg_left (by linarith) hX)
  refine (mul_le_mul_of_nonneg_left hw2 hB0).trans ?_
  have h6 := mul_le_mul_of_nonneg_left hB1 (by positivity : 0 ≤ 4 * vmax ^ 2 * ∑ k, (1 / C.dx k) ^ 2)
  nlinarith

/-- Bound for the reference recursion. -/
theorem norm_run (h : C.WF) (hn : C.NoPml) (hC : C.Nonneg) {Γ θ : ℝ}
    (hΓ : ∀ i c, C.InnerAt (vLoc i) c → C.B i c * C.weight i c ≤ Γ) (hθ : 0 < θ) (hθ1 : θ < 1)
    (hG : C.dt ^ 2 * (hsum C.acc * Γ) ≤ 4 * θ ^ 2) {e : Strain d} {s : Wavefields d ℝ} (hs : C.Good s)
    (he : C.Rel e s) (hq : C.Quiet s) (fp : ℕ → Fin np → ℝ) (fv : (k : Fin d) → ℕ → Fin (nv k) → ℝ)
    (hfp : ∀ t i, fp t i = 0) (hfv : ∀ k t i, fv k t i = 0) (n : ℕ) :
    ∃ e', C.Rel e' (C.run fp fv s n) ∧ C.Quiet (C.run fp fv s n) ∧
      C.pot e' (C.run fp fv s n) + C.kin (C.run fp fv s n) ≤
        (1 + θ) / (1 - θ) * (C.pot e s + C.kin s) := by
  have hb : ∀ {e : Strain d} {s : Wavefields d ℝ}, C.Good s → C.Rel e s → C.Quiet s →
      (1 - θ) * (C.pot e s + C.kin s) ≤ C.energy e s ∧
        C.energy e s ≤ (1 + θ) * (C.pot e s + C.kin s) := fun {e s} hs he hq =>
    energy_bounds hn hC hs he hθ (by
      have h1 := mul_le_mul_of_nonneg_left (gform_le_kin hn hC hs hq hΓ) (sq_nonneg C.dt)
      have h2 := mul_le_mul_of_nonneg_right hG (kin_nonneg hC hs)
      nlinarith)
  obtain ⟨e', he', hq', hE⟩ := energy_run h hn hs he hq fp fv hfp hfv n
  refine ⟨e', he', hq', ?_⟩
  have h1 := (hb (run_good h fp fv hs n) he' hq').1
  have h2 := (hb hs he hq).2
  rw [div_mul_eq_mul_div, le_div_iff₀ (by linarith)]
  linarith

theorem gamma_modest {userDt vmax : ℝ} {m : ℤ}
    (hcfl : Setup.cflConditionN (List.ofFn C.dx) userDt vmax = .ok (C.dt, m)) :
    C.dt ^ 2 * (hsum C.acc * (hsum C.acc * (8 / 5 * (vmax ^ 2 * ∑ k, (1 / C.dx k) ^ 2)))) ≤
      4 * (99 / 100) ^ 2 := by
  have h1 := (cfl_sq hcfl).1
  have h2 : hsum C.acc ^ 2 * (8 / 5) * (6 / 10) ^ 2 ≤ 4 * (99 / 100) ^ 2 := by
    rw [hsum_val]; cases C.acc <;> norm_num
  have h3 := mul_le_mul_of_nonneg_left h1 (by positivity : 0 ≤ hsum C.acc ^ 2 * (8 / 5))
  nlinarith

theorem gamma_two (hacc : C.acc = .a2) {userDt vmax : ℝ} {m : ℤ}
    (hcfl : Setup.cflConditionN (List.ofFn C.dx) userDt vmax = .ok (C.dt, m)) :
    C.dt ^ 2 * (hsum C.acc * (4 * (vmax ^ 2 * ∑ k, (1 / C.dx k) ^ 2))) ≤ 4 * (85 / 100) ^ 2 := by
  have h1 := (cfl_sq hcfl).1
  have h2 : hsum C.acc = 2 := by rw [hsum_val, hacc]
  rw [h2]
  nlinarith

theorem stable_of (h : C.WF) (hn : C.NoPml) (hC : C.Nonneg) {Γ θ : ℝ}
    (hΓ : ∀ i c, C.InnerAt (vLoc i) c → C.B i c * C.weight i c ≤ Γ) (hθ : 0 < θ) (hθ1 : θ < 1)
    (hG : C.dt ^ 2 * (hsum C.acc * Γ) ≤ 4 * θ ^ 2) (hr : 0 < C.ratio)
    (gl gm gb : Bool) (cb : Option ℕ) (nt : ℕ) (hcf : 0 < nt → 0 < cb.getD (nt / C.ratio)) (w : Init d ℝ)
    (ha : C.Admissible (fun i => (w.v i).getD fun _ => 0) (fun i => (w.s i).getD fun _ => 0)
      (fun p => (w.sh p).getD fun _ => 0)) :
    ∃ r, C.forward gl gm gb cb nt (fun _ _ => 0) (fun _ _ _ => 0) w = .ok r ∧
      C.userNorm r.out.v r.out.s r.out.sh ≤ (1 + θ) / (1 - θ) *
        C.userNorm (fun i => (w.v i).getD fun _ => 0) (fun i => (w.s i).getD fun _ => 0)
          (fun p => (w.sh p).getD fun _ => 0) := by
  have hg := prepare_good (C := C) w
  have hs := same_prepare (C := C) w
  have he := rel_strainOf hC hg hs ha
  have hq := quiet_of hg hs ha
  obtain ⟨e', he', hq', hle⟩ := norm_run h hn hC hΓ hθ hθ1 hG hg he hq (fun _ _ => 0) (fun _ _ _ => 0)
    (fun _ _ => rfl) (fun _ _ _ => rfl) (nt / C.ratio * C.ratio)
  refine ⟨_, forward_eq h gl gm gb cb nt _ _ w hr hcf, ?_⟩
  simp only
  rw [norm_user (run_good h _ _ hg _) he' hC hq' (same_unpad _), norm_user hg he hC hq hs]
  exact hle

/-- **C69** Without PML and sources, with nonnegative Lamé parameters, zero buoyancy only in a vacuum,
and the internal time step chosen by `cfl_condition_n` for a velocity `vmax`, the energy norm after any
number of steps is at most 199 times the initial one, if `lambda + 2 mu` near a velocity point is at most
8/5 of the mean density there times `vmax ^ 2`. -/
theorem C69_stable (h : C.WF) (hn : C.NoPml) (rfmax : ℝ) (b : Fld d ℝ) (hm : C.FromModels rfmax b)
    (userDt vmax : ℝ) (m : ℤ) (hcfl : Setup.cflConditionN (List.ofFn C.dx) userDt vmax = .ok (C.dt, m))
    (hmod : C.Modest b vmax) (hr : 0 < C.ratio)
    (gl gm gb : Bool) (cb : Option ℕ) (nt : ℕ) (hcf : 0 < nt → 0 < cb.getD (nt / C.ratio)) (w : Init d ℝ)
    (ha : C.Admissible (fun i => (w.v i).getD fun _ => 0) (fun i => (w.s i).getD fun _ => 0)
      (fun p => (w.sh p).getD fun _ => 0)) :
    ∃ r, C.forward gl gm gb cb nt (fun _ _ => 0) (fun _ _ _ => 0) w = .ok r ∧
      C.userNorm r.out.v r.out.s r.out.sh ≤ 199 *
        C.userNorm (fun i => (w.v i).getD fun _ => 0) (fun i => (w.s i).getD fun _ => 0)
          (fun p => (w.sh p).getD fun _ => 0) := by
  have := stable_of h hn hm.nonneg (fun i c hc => weight_modest hm hmod hc) (θ := 99 / 100)
    (by norm_num) (by norm_num) (gamma_modest hcfl) hr gl gm gb cb nt hcf w ha
  norm_num at this
  exact this

/-- **C69** With accuracy 2 the factor is 13, whatever the contrasts, if the P-wave velocity computed
from the models does not exceed `vmax`. -/
theorem C69_stable_accuracy_two (h : C.WF) (hn : C.NoPml) (hacc : C.acc.order = 2) (rfmax : ℝ)
    (b : Fld d ℝ) (hm : C.FromModels rfmax b) (userDt vmax eps : ℝ) (m : ℤ)
    (hcfl : Setup.cflConditionN (List.ofFn C.dx) userDt vmax = .ok (C.dt, m))
    (hv : ∀ c, C.Inner c → (Setup.fromLamb (C.lam c) (C.mu c) (b c) eps).1 ≤ vmax) (hr : 0 < C.ratio)
    (gl gm gb : Bool) (cb : Option ℕ) (nt : ℕ) (hcf : 0 < nt → 0 < cb.getD (nt / C.ratio)) (w : Init d ℝ)
    (ha : C.Admissible (fun i => (w.v i).getD fun _ => 0) (fun i => (w.s i).getD fun _ => 0)
      (fun p => (w.sh p).getD fun _ => 0)) :
    ∃ r, C.forward gl gm gb cb nt (fun _ _ => 0) (fun _ _ _ => 0) w = .ok r ∧
      C.userNorm r.out.v r.out.s r.out.sh ≤ 13 *
        C.userNorm (fun i => (w.v i).getD fun _ => 0) (fun i => (w.s i).getD fun _ => 0)
          (fun p => (w.sh p).getD fun _ => 0) := by
  have hacc2 : C.acc = .a2 := by
    cases e : C.acc <;> simp [e, Acc.order] at hacc ⊢
  obtain ⟨r, h1, h2⟩ := stable_of h hn hm.nonneg (fun i c hc => weight_two hm hacc2 hv hc)
    (θ := 85 / 100) (by norm_num) (by norm_num) (gamma_two hacc2 hcfl) hr gl gm gb cb nt hcf w ha
  refine ⟨r, h1, h2.trans (mul_le_mul_of_nonneg_right (by norm_num) ?_)⟩
  have hg := prepare_good (C := C) w
  have hs := same_prepare (C := C) w
  have he := rel_strainOf hm.nonneg hg hs ha
  rw [norm_user hg he hm.nonneg (quiet_of hg hs ha) hs]
  exact add_nonneg (pot_nonneg hm.nonneg he) (kin_nonneg hm.nonneg hg)

/-! ### Sources of finite duration -/

theorem scaleV_quiet (f : (k : Fin d) → ℕ → Fin (nv k) → ℝ) (t : ℕ) (k : Fin d) (c : Cell d)
    (hc : C.B k c = 0) : inject (C.srcV k) (C.scaleV f k t) c = 0 := by
  unfold inject
  refine Finset.sum_eq_zero fun i _ => ?_
  split_ifs with h
  · simp [Cfg.scaleV, h, hc]
  · rfl

/-- All wavefields are bounded by the energy norm. -/
theorem field_bounds (hC : C.Nonneg) : ∃ Z : ℝ, 0 ≤ Z ∧ ∀ (e : Strain d) (w : Wavefields d ℝ) (A : ℝ),
    C.Good w → C.Rel e w → C.Quiet w → C.pot e w + C.kin w ≤ A →
      (∀ i c, |w.v i c| ≤ √(Z * A)) ∧ (∀ i c, |w.s i c| ≤ √(Z * A)) ∧ ∀ p c, |w.sh p c| ≤ √(Z * A) := by
  have hz1 : ∀ c ∈ C.S, 0 ≤ 2 * C.lam c + 4 * C.mu c := fun c hc => by
    have := hC.lam c (Cfg.mem_S.1 hc)
    have := hC.mu c (Cfg.mem_S.1 hc)
    linarith
  have hz2 : ∀ p, ∀ c ∈ C.S, 0 ≤ only (C.InnerAt (sLoc p.1.1 p.1.2)) (C.muS p) c :=
    fun p c _ => only_nonneg (hC.muS p) c
  have hz3 : ∀ i, ∀ c ∈ C.S, 0 ≤ only (C.InnerAt (vLoc i)) (C.B i) c :=
    fun i c _ => only_nonneg (hC.B i) c
  set Z1 := ∑ c ∈ C.S, (2 * C.lam c + 4 * C.mu c) with hZ1
  set Z2 := ∑ p, ∑ c ∈ C.S, only (C.InnerAt (sLoc p.1.1 p.1.2)) (C.muS p) c with hZ2
  set Z3 := ∑ i, ∑ c ∈ C.S, only (C.InnerAt (vLoc i)) (C.B i) c with hZ3
  have h1 : 0 ≤ Z1 := Finset.sum_nonneg hz1
  have h2 : 0 ≤ Z2 := Finset.sum_nonneg fun p _ => Finset.sum_nonneg (hz2 p)
  have h3 : 0 ≤ Z3 := Finset.sum_nonneg fun i _ => Finset.sum_nonneg (hz3 i)
  refine ⟨Z1 + Z2 + Z3, by linarith, fun e w A hw he hq hA => ?_⟩
  have hp0 := pot_nonneg hC he
  have hk0 := kin_nonneg hC hw
  have hA0 : 0 ≤ A := by linarith
  refine ⟨fun i c => ?_, fun i c => ?_, fun p c => ?_⟩
  · refine Real.abs_le_sqrt ?_
    by_cases hc : C.InnerAt (vLoc i) c
    · have hcS := Cfg.mem_S.2 hc.1
      by_cases hb : C.B i c = 0
      · rw [hq i c hb]; simp only [ne_eq, OfNat.ofNat_ne_zero, not_false_eq_true, zero_pow]; positivity
      have hb' : 0 < C.B i c := lt_of_le_of_ne (hC.B i c hc) (Ne.symm hb)
      have k1 : w.v i c ^ 2 / C.B i c ≤ A := by
        have := Finset.single_le_sum (f := fun c => w.v i c ^ 2 / C.B i c)
          (fun c _ => kin_term_nonneg hC hw i c) hcS
        have := Finset.single_le_sum (f := fun i => ∑ c ∈ C.S, w.v i c ^ 2 / C.B i c)
          (fun i _ => Finset.sum_nonneg fun c _ => kin_term_nonneg hC hw i c) (Finset.mem_univ i)
        unfold Cfg.kin at hA
        linarith
      have k2 : C.B i c ≤ Z3 := by
        have q1 := Finset.single_le_sum (hz3 i) hcS
        rw [only_pos hc] at q1
        have q2 := Finset.single_le_sum (f := fun i => ∑ c ∈ C.S, only (C.InnerAt (vLoc i)) (C.B i) c)
          (fun i _ => Finset.sum_nonneg (hz3 i)) (Finset.mem_univ i)
        exact q1.trans q2
      rw [div_le_iff₀ hb'] at k1
      nlinarith
    · rw [hw.v i c hc]; simp only [ne_eq, OfNat.ofNat_ne_zero, not_false_eq_true, zero_pow]; positivity
  · refine Real.abs_le_sqrt ?_
    by_cases hc : C.Inner c
    · have hcS := Cfg.mem_S.2 hc
      have hl := hC.lam c hc
      have hm := hC.mu c hc
      have k1 : C.lam c * (∑ i, e.n i c) ^ 2 + 2 * C.mu c * e.n i c ^ 2 ≤ A := by
        have q1 := Finset.single_le_sum
          (f := fun c => C.lam c * (∑ i, e.n i c) ^ 2 + ∑ i, 2 * C.mu c * e.n i c ^ 2)
          (fun c hc => normal_nonneg hC e (Cfg.mem_S.1 hc)) hcS
        have q2 : 0 ≤ ∑ p, ∑ c ∈ C.S, C.muS p c * e.s p c ^ 2 :=
          Finset.sum_nonneg fun p _ => Finset.sum_nonneg fun c _ => shear_nonneg hC he p c
        have q3 := Finset.single_le_sum (f := fun i => 2 * C.mu c * e.n i c ^ 2)
          (fun i _ => by positivity) (Finset.mem_univ i)
        rw [pot_eq he] at hA
        linarith
      have k2 := Finset.single_le_sum hz1 hcS
      rw [he.n i c hc]
      have k3 : (C.lam c * ∑ k, e.n k c + 2 * C.mu c * e.n i c) ^ 2 ≤ (2 * C.lam c + 4 * C.mu c) *
          (C.lam c * (∑ i, e.n i c) ^ 2 + 2 * C.mu c * e.n i c ^ 2) := by
        have := sq_nonneg (C.lam c * (∑ k, e.n k c) - 2 * C.mu c * e.n i c)
        have a1 : 0 ≤ 2 * C.lam c * (2 * C.mu c * e.n i c ^ 2) := by positivity
        have a2 : 0 ≤ 4 * C.mu c * (C.lam c * (∑ i, e.n i c) ^ 2) := by positivity
        nlinarith
      have k4 : 0 ≤ C.lam c * (∑ i, e.n i c) ^ 2 + 2 * C.mu c * e.n i c ^ 2 := by positivity
      refine k3.trans ?_
      exact mul_le_mul (by linarith) k1 k4 (by linarith)
    · rw [hw.s i c hc]; simp only [ne_eq, OfNat.ofNat_ne_zero, not_false_eq_true, zero_pow]; positivity
  · refine Real.abs_le_sqrt ?_
    by_cases hc : C.InnerAt (sLoc p.1.1 p.1.2) c
    · have hcS := Cfg.mem_S.2 hc.1
      have hm := hC.muS p c hc
      have k1 : C.muS p c * e.s p c ^ 2 ≤ A := by
        have q1 := Finset.single_le_sum (f := fun c => C.muS p c * e.s p c ^ 2)
          (fun c _ => shear_nonneg hC he p c) hcS
        have q2 := Finset.single_le_sum (f := fun p => ∑ c ∈ C.S, C.muS p c * e.s p c ^ 2)
          (fun p _ => Finset.sum_nonneg fun c _ => shear_nonneg hC he p c) (Finset.mem_univ p)
        have q3 : 0 ≤ ∑ c ∈ C.S, (C.lam c * (∑ i, e.n i c) ^ 2 + ∑ i, 2 * C.mu c * e.n i c ^ 2) :=
          Finset.sum_nonneg fun c hc => normal_nonneg hC e (Cfg.mem_S.1 hc)
        rw [pot_eq he] at hA
        linarith
      have k2 : C.muS p c ≤ Z2 := by
        have q1 := Finset.single_le_sum (hz2 p) hcS
        rw [only_pos hc] at q1
        have q2 := Finset.single_le_sum
          (f := fun p : Sh d => ∑ c ∈ C.S, only (C.InnerAt (sLoc p.1.1 p.1.2)) (C.muS p) c)
          (fun p _ => Finset.sum_nonneg (hz2 p)) (Finset.mem_univ p)
        exact q1.trans q2
      rw [he.s p c]
      have e2 : (C.muS p c * e.s p c) ^ 2 = C.muS p c * (C.muS p c * e.s p c ^ 2) := by ring
      rw [e2]
      exact mul_le_mul (by linarith) k1 (by positivity) (by linarith)
    · rw [hw.sh p c hc]; simp only [ne_eq, OfNat.ofNat_ne_zero, not_false_eq_true, zero_pow]; positivity

/-- With sources of finite duration the states of the reference recursion stay bounded. -/
theorem run_bounded (h : C.WF) (hn : C.NoPml) (hd : 0 < d) (rfmax : ℝ) (b : Fld d ℝ)
    (hm : C.FromModels rfmax b) (userDt vmax : ℝ) (m : ℤ)
    (hcfl : Setup.cflConditionN (List.ofFn C.dx) userDt vmax = .ok (C.dt, m))
    (hmod : C.Modest b vmax) (fp : ℕ → Fin np → ℝ)
    (fv : (k : Fin d) → ℕ → Fin (nv k) → ℝ) (T : ℕ) (hfp : ∀ t, T ≤ t → ∀ i, fp t i = 0)
    (hfv : ∀ k t, T ≤ t → ∀ i, fv k t i = 0)
    (hsrc : ∀ i c, C.srcP i = some c → 0 < C.lam c ∨ 0 < C.mu c) (w : Init d ℝ)
    (ha : C.Admissible (fun i => (w.v i).getD fun _ => 0) (fun i => (w.s i).getD fun _ => 0)
      (fun p => (w.sh p).getD fun _ => 0)) :
    ∃ F : ℝ, 0 ≤ F ∧ ∀ n, let s := C.run (C.scaleP fp) (C.scaleV fv) (C.prepare w) n
      (∀ i c, |s.v i c| ≤ F) ∧ (∀ i c, |s.s i c| ≤ F) ∧ (∀ p c, |s.sh p c| ≤ F) ∧ ∀ c, |s.prs c| ≤ d * F := by
  have hC := hm.nonneg
  have hp : ∀ t c, C.Inner c → inject C.srcP (C.scaleP fp t) c ≠ 0 → d * C.lam c + 2 * C.mu c ≠ 0 := by
    intro t c hc h0
    have : ∃ i, C.srcP i = some c := by
      by_contra hno
      push Not at hno
      exact h0 (Finset.sum_eq_zero fun i _ => if_neg (hno i))
    obtain ⟨i, hi⟩ := this
    have h1 := hC.lam c hc
    have h2 := hC.mu c hc
    have h3 : (0 : ℝ) < d := by exact_mod_cast hd
    rcases hsrc i c hi with h | h <;> positivity
  have hg : ∀ n, C.Good (C.run (C.scaleP fp) (C.scaleV fv) (C.prepare w) n) :=
    run_good h _ _ (prepare_good w)
  have hs := same_prepare (C := C) w
  have hrel := rel_run (C.scaleP fp) (C.scaleV fv) (rel_strainOf hC (prepare_good w) hs ha)
    (quiet_of (prepare_good w) hs ha) hp (fun t k c hc => scaleV_quiet fv t k c hc)
  choose e he using fun n => (hrel n).1
  have hq := fun n => (hrel n).2
  set run := C.run (C.scaleP fp) (C.scaleV fv) (C.prepare w) with hrun
  have hN : ∀ n, 0 ≤ C.pot (e n) (run n) + C.kin (run n) := fun n =>
    add_nonneg (pot_nonneg hC (he n)) (kin_nonneg hC (hg n))
  obtain ⟨A, hA⟩ : ∃ A : ℝ, ∀ n, C.pot (e n) (run n) + C.kin (run n) ≤ A := by
    have hT := hN T
    have hsum := Finset.sum_nonneg fun n (_ : n ∈ Finset.range T) => hN n
    refine ⟨∑ n ∈ Finset.range T, (C.pot (e n) (run n) + C.kin (run n)) +
      199 * (C.pot (e T) (run T) + C.kin (run T)), fun n => ?_⟩
    by_cases hnT : n < T
    · have := Finset.single_le_sum (f := fun n => C.pot (e n) (run n) + C.kin (run n))
        (fun n _ => hN n) (Finset.mem_range.2 hnT)
      linarith
    · have en : n = T + (n - T) := by omega
      obtain ⟨e', he', -, hle⟩ := norm_run h hn hC (fun i c hc => weight_modest hm hmod hc)
        (θ := 99 / 100) (by norm_num) (by norm_num) (gamma_modest hcfl) (hg T) (he T) (hq T)
        (fun t => C.scaleP fp (T + t)) (fun k t => C.scaleV fv k (T + t))
        (fun t i => by simp [Cfg.scaleP, hfp (T + t) (by omega) i])
        (fun k t i => by simp [Cfg.scaleV, hfv k (T + t) (by omega) i]) (n - T)
      rw [← run_add, ← en, ← hrun] at he' hle
      rw [pot_unique he' (he n)]
      norm_num at hle
      linarith
  obtain ⟨Z, hZ0, hZ⟩ := field_bounds hC
  have hb := fun n => hZ (e n) (run n) A (hg n) (he n) (hq n) (hA n)
  set F := √(Z * A) with hF
  have hF0 : 0 ≤ F := Real.sqrt_nonneg _
  have hprs : ∀ n c, |(run n).prs c| ≤ d * F := by
    intro n c
    unfold Wavefields.prs
    refine (Finset.abs_sum_le_sum_abs _ _).trans ?_
    refine (Finset.sum_le_card_nsmul _ _ F fun i _ => (hb n).2.1 i c).trans (le_of_eq ?_)
    simp
  exact ⟨F, hF0, fun n => ⟨(hb n).1, (hb n).2.1, (hb n).2.2, hprs n⟩⟩

/-- **C69** With sources of finite duration, all wavefields and the receiver data stay bounded for ever:
one bound holds for all numbers of steps. Pressure sources must not be in a vacuum. -/
theorem C69_never_blows_up (h : C.WF) (hn : C.NoPml) (hd : 0 < d) (rfmax : ℝ) (b : Fld d ℝ)
    (hm : C.FromModels rfmax b) (userDt vmax : ℝ) (m : ℤ)
    (hcfl : Setup.cflConditionN (List.ofFn C.dx) userDt vmax = .ok (C.dt, m))
    (hmod : C.Modest b vmax) (hr : 0 < C.ratio) (fp : ℕ → Fin np → ℝ)
    (fv : (k : Fin d) → ℕ → Fin (nv k) → ℝ) (T : ℕ) (hfp : ∀ t, T ≤ t → ∀ i, fp t i = 0)
    (hfv : ∀ k t, T ≤ t → ∀ i, fv k t i = 0)
    (hsrc : ∀ i c, C.srcP i = some c → 0 < C.lam c ∨ 0 < C.mu c) (w : Init d ℝ)
    (ha : C.Admissible (fun i => (w.v i).getD fun _ => 0) (fun i => (w.s i).getD fun _ => 0)
      (fun p => (w.sh p).getD fun _ => 0)) :
    ∃ B : ℝ, ∀ (gl gm gb : Bool) (cb : Option ℕ) (nt : ℕ), (0 < nt → 0 < cb.getD (nt / C.ratio)) →
      ∃ r, C.forward gl gm gb cb nt (C.scaleP fp) (C.scaleV fv) w = .ok r ∧
        (∀ i c, |r.out.v i c| ≤ B) ∧ (∀ i c, |r.out.s i c| ≤ B) ∧ (∀ p c, |r.out.sh p c| ≤ B) ∧
        (∀ t i, |r.rcdP t i| ≤ B) ∧ ∀ k t i, |r.rcdV k t i| ≤ B := by
  obtain ⟨F, hF0, hb⟩ := run_bounded h hn hd rfmax b hm userDt vmax m hcfl hmod fp fv T hfp hfv hsrc w ha
  have hprs := fun n => (hb n).2.2.2
  have hd1 : (1 : ℝ) ≤ d := by exact_mod_cast hd
  have hdF : F ≤ d * F := by nlinarith
  refine ⟨d * F, fun gl gm gb cb nt hcf =>
    ⟨_, forward_eq h gl gm gb cb nt _ _ w hr hcf, ?_, ?_, ?_, ?_, ?_⟩⟩
  · exact fun i c => ((hb _).1 i _).trans hdF
  · exact fun i c => ((hb _).2.1 i _).trans hdF
  · exact fun p c => ((hb _).2.2.1 p _).trans hdF
  · intro t i
    simp only
    split_ifs
    · cases hi : C.rcvP i with
      | none => simpa [sample, hi] using hF0.trans hdF
      | some c => simpa [sample, hi] using hprs t c
    · simpa using hF0.trans hdF
  · intro k t i
    simp only
    split_ifs
    · cases hi : C.rcvV k i with
      | none => simpa [sample, hi] using hF0.trans hdF
      | some c => simpa [sample, hi] using ((hb t).1 k c).trans hdF
    · simpa using hF0.trans hdF

/-! ### A model to which the theorems apply: vacuum above a solid above a fluid -/

noncomputable def exElam : Fld 2 ℝ := fun c => if c 0 < 4 then 0 else 3 + (c 0 : ℝ) / 10

noncomputable def exEmu : Fld 2 ℝ := fun c => if c 0 < 4 ∨ 8 ≤ c 0 then 0 else 2

noncomputable def exEb : Fld 2 ℝ := fun c => if c 0 < 4 then 0 else 1

noncomputable def exEFree : Cfg 2 2 1 (fun _ => 1) (fun _ => 1) ℝ :=
  { exE ℝ with
    a := fun _ _ => 0, b := fun _ _ => 0, ah := fun _ _ => 0, bh := fun _ _ => 0
    lam := exElam, mu := exEmu, muS := prepareMuS exN (1 / 100) exEmu
    B := prepareB exN (1 / 100) exEb }

theorem exEFree_wf : exEFree.WF :=
  { exE_wf ℝ with
    pa_mid := fun hb _ _ _ => by cases hb <;> rfl
    pb_mid := fun hb _ _ _ => by cases hb <;> rfl }

theorem exEFree_nopml : exEFree.NoPml := fun _ _ => ⟨rfl, rfl, rfl, rfl⟩

theorem exE_range (c : Cell 2) : 0 ≤ c 0 → 0 ≤ exElam c := fun h => by
  have h : (0 : ℝ) ≤ c 0 := by exact_mod_cast h
  unfold exElam
  split_ifs
  · exact le_refl _
  · positivity

theorem exEFree_models : exEFree.FromModels (1 / 100) exEb where
  muS := rfl
  B := rfl
  rfmax_pos := by norm_num
  lam_nonneg := fun c hc => exE_range c (hc 0).1
  mu_nonneg := fun c hc => by
    change 0 ≤ exEmu c
    unfold exEmu
    split_ifs <;> norm_num
  b_cases := fun c hc => by
    change _ ∨ _ ∧ exElam c = 0 ∧ exEmu c = 0
    unfold exEb exElam exEmu
    by_cases h : c 0 < 4
    · simp [h]
    · left; rw [if_neg h]; norm_num

theorem exEFree_modest : exEFree.Modest exEb 5 := by
  intro i c hc h0
  refine ⟨5, 2, by norm_num, by norm_num, fun c' hc' _ => ?_, ?_⟩
  · have h1 : (2 : ℤ) ≤ c' 0 ∧ c' 0 < 12 - 2 + 1 := hc' 0
    have h2 : (c' 0 : ℝ) ≤ 10 := by exact_mod_cast (by omega : c' 0 ≤ 10)
    change exElam c' ≤ 5 ∧ exEmu c' ≤ 2
    unfold exElam exEmu
    constructor <;> split_ifs <;> linarith
  · have h3 : ∀ c, rhoOf exEb c = 0 ∨ rhoOf exEb c = 1 := fun c => by
      unfold rhoOf exEb
      split_ifs <;> simp
    rcases h3 c with h1 | h1 <;> rcases h3 (c.shift i 1) with h2 | h2 <;> rw [h1, h2] at h0 ⊢
    · exact absurd (add_zero 0) h0
    all_goals norm_num

theorem exEFree_cfl : Setup.cflConditionN (List.ofFn exEFree.dx) (1 / 10) 5 = .ok (exEFree.dt, 1) :=
  Acoustic.exAFree_cfl

/-- Wavefields that are not zero in one cell of the solid. -/
noncomputable def exEInit : Init 2 ℝ where
  v := fun i => some fun c => if c = ![4, 4] then 1 + (i : ℕ) else 0
  s := fun i => some fun c => if c = ![4, 4] then 3 - (i : ℕ) else 0
  sh := fun _ => some fun c => if c = ![4, 4] then 5 else 0
  mv := fun _ _ => none
  ms := fun _ _ => none

theorem exEInit_admissible : exEFree.Admissible (fun i => (exEInit.v i).getD fun _ => 0)
    (fun i => (exEInit.s i).getD fun _ => 0) (fun p => (exEInit.sh p).getD fun _ => 0) := by
  have hat : exEFree.at ![4, 4] = ![6, 6] := by
    funext k
    fin_cases k <;> simp [Cfg.at, exEFree, exE, Acc.order]
  have hmu : exEFree.mu (exEFree.at ![4, 4]) ≠ 0 := by
    rw [hat]
    change exEmu ![6, 6] ≠ 0
    simp [exEmu]
  have hmuS : ∀ p, exEFree.muS p (exEFree.at ![4, 4]) ≠ 0 := by
    intro p
    rw [hat]
    change prepareMuS exN (1 / 100) exEmu p ![6, 6] ≠ 0
    have hval : ∀ c : Cell 2, 4 ≤ c 0 → c 0 < 8 → exEmu c = 2 := fun c h1 h2 => by
      unfold exEmu; rw [if_neg (by omega)]
    have h1 : ∀ c : Cell 2, ∀ k, c 0 ≤ (c.shift k 1) 0 ∧ (c.shift k 1) 0 ≤ c 0 + 1 := fun c k => by
      by_cases hk : 0 = k
      · subst hk; rw [Cell.shift_same]; constructor <;> omega
      · rw [Cell.shift_ne _ _ _ _ hk]; constructor <;> omega
    have k1 := h1 ![6, 6] p.1.1
    have k2 : (![6, 6] : Cell 2) 0 ≤ (Cell.shift ![6, 6] p.1.1 1) 0 := k1.1
    have z0 : (![6, 6] : Cell 2) 0 = 6 := rfl
    have hp : p.1 = (0, 1) := by
      have := p.2
      obtain ⟨⟨a, b⟩, hab⟩ := p
      simp only at hab
      fin_cases a <;> fin_cases b <;> simp at hab ⊢
    have w1 : exEmu ![6, 6] = 2 := hval _ (by rw [z0]; norm_num) (by rw [z0]; norm_num)
    have w2 : exEmu (Cell.shift ![6, 6] 0 1) = 2 :=
      hval _ (by rw [Cell.shift_same, z0]; norm_num) (by rw [Cell.shift_same, z0]; norm_num)
    have w3 : exEmu (Cell.shift ![6, 6] 1 1) = 2 :=
      hval _ (by rw [Cell.shift_ne _ _ _ _ (by decide), z0]; norm_num)
        (by rw [Cell.shift_ne _ _ _ _ (by decide), z0]; norm_num)
    have w4 : exEmu ((Cell.shift ![6, 6] 0 1).shift 1 1) = 2 :=
      hval _ (by rw [Cell.shift_ne _ _ _ _ (by decide), Cell.shift_same, z0]; norm_num)
        (by rw [Cell.shift_ne _ _ _ _ (by decide), Cell.shift_same, z0]; norm_num)
    unfold prepareMuS
    simp only [hp, w1, w2, w3, w4, muSafe]
    rw [if_pos (by decide), if_pos (by norm_num)]
    norm_num
  have hB : ∀ i, exEFree.B i (exEFree.at ![4, 4]) ≠ 0 := by
    intro i
    rw [hat]
    change prepareB exN (1 / 100) exEb i ![6, 6] ≠ 0
    have hb : ∀ c : Cell 2, 4 ≤ c 0 → prepareRho (1 / 100) exEb c = 1 := fun c h1 => by
      have e : exEb c = 1 := if_neg (by omega)
      unfold prepareRho; rw [e]; norm_num
    have z0 : (![6, 6] : Cell 2) 0 = 6 := rfl
    have w1 := hb ![6, 6] (by rw [z0]; norm_num)
    have w2 : prepareRho (1 / 100) exEb (Cell.shift ![6, 6] i 1) = 1 := hb _ (by
      by_cases hk : 0 = i
      · subst hk; rw [Cell.shift_same, z0]; norm_num
      · rw [Cell.shift_ne _ _ _ _ hk, z0]; norm_num)
    have em : Acoustic.meanRho exN (prepareRho (1 / 100) exEb) i ![6, 6] = (1 + 1) / 2 := by
      have : Acoustic.meanRho exN (prepareRho (1 / 100) exEb) i ![6, 6] = (prepareRho (1 / 100) exEb ![6, 6]
        + prepareRho (1 / 100) exEb (Cell.shift ![6, 6] i 1)) / 2 := if_pos (by fin_cases i <;> decide)
      rw [this, w1, w2]
    unfold prepareB Acoustic.prepareB
    rw [em]
    norm_num
  refine ⟨fun c _ h i j => ?_, fun c _ h _ i => ?_, fun p c _ h => ?_, fun i c _ h => ?_⟩
  · by_cases hc : c = ![4, 4]
    · rw [hc] at h; exact absurd h hmu
    · simp [exEInit, hc]
  · by_cases hc : c = ![4, 4]
    · rw [hc] at h; exact absurd h hmu
    · simp [exEInit, hc]
  · by_cases hc : c = ![4, 4]
    · rw [hc] at h; exact absurd h (hmuS p)
    · simp [exEInit, hc]
  · by_cases hc : c = ![4, 4]
    · rw [hc] at h; exact absurd h (hB i)
    · simp [exEInit, hc]

example : ∃ r, exEFree.forward true true true none 100 (fun _ _ => 0) (fun _ _ _ => 0) exEInit = .ok r ∧
    exEFree.Admissible r.out.v r.out.s r.out.sh ∧ exEFree.userEnergy r.out.v r.out.s r.out.sh =
      exEFree.userEnergy (fun i => (exEInit.v i).getD fun _ => 0) (fun i => (exEInit.s i).getD fun _ => 0)
        (fun p => (exEInit.sh p).getD fun _ => 0) :=
  C69_energy_conserved exEFree_wf exEFree_nopml exEFree_models.nonneg (by decide) _ _ _ _ _ (by decide) _
    exEInit_admissible

example : ∃ r, exEFree.forward true true true none 100 (fun _ _ => 0) (fun _ _ _ => 0) exEInit = .ok r ∧
    exEFree.userNorm r.out.v r.out.s r.out.sh ≤ 199 *
      exEFree.userNorm (fun i => (exEInit.v i).getD fun _ => 0) (fun i => (exEInit.s i).getD fun _ => 0)
        (fun p => (exEInit.sh p).getD fun _ => 0) :=
  C69_stable exEFree_wf exEFree_nopml _ _ exEFree_models _ 5 1 exEFree_cfl exEFree_modest (by decide)
    _ _ _ _ _ (by decide) _ exEInit_admissible

example : ∃ B : ℝ, ∀ (gl gm gb : Bool) (cb : Option ℕ) (nt : ℕ),
    (0 < nt → 0 < cb.getD (nt / exEFree.ratio)) →
      ∃ r, exEFree.forward gl gm gb cb nt
        (exEFree.scaleP fun t i => if t < 3 then (t : ℝ) + (i : ℕ) else 0)
        (exEFree.scaleV fun k t _ => if t < 3 then (t : ℝ) + (k : ℕ) else 0) exEInit = .ok r ∧
      (∀ i c, |r.out.v i c| ≤ B) ∧ (∀ i c, |r.out.s i c| ≤ B) ∧ (∀ p c, |r.out.sh p c| ≤ B) ∧
      (∀ t i, |r.rcdP t i| ≤ B) ∧ ∀ k t i, |r.rcdV k t i| ≤ B :=
  C69_never_blows_up exEFree_wf exEFree_nopml (by norm_num) _ _ exEFree_models _ 5 1 exEFree_cfl
    exEFree_modest (by decide) _ _ 3 (fun t ht i => if_neg (by omega)) (fun k t ht i => if_neg (by omega))
    (fun i c h => by
      have h' : (if i = 0 then some ![4, 5] else none) = some c := h
      split_ifs at h'
      left
      rw [← Option.some.inj h']
      change 0 < exElam ![4, 5]
      simp [exElam]
      norm_num) _ exEInit_admissible

/-- A medium in which density and moduli jump by a factor of a thousand, for accuracy 2. -/
noncomputable def exETwo : Cfg 1 0 0 (fun _ => 0) (fun _ => 0) ℝ where
  acc := .a2
  n := fun _ => 8
  w0 := fun _ => 0
  w1 := fun _ => 0
  dx := fun _ => 1
  dt := 1 / 2
  a := fun _ _ => 0
  b := fun _ _ => 0
  ah := fun _ _ => 0
  bh := fun _ _ => 0
  lam := fun c => if c 0 = 5 then 1000 else 1
  mu := fun _ => 0
  muS := prepareMuS (fun _ => 8) (1 / 10000) fun _ => 0
  B := prepareB (fun _ => 8) (1 / 10000) fun c => if c 0 = 5 then 1 / 1000 else 1
  srcP := fun _ => none
  srcV := fun _ _ => none
  rcvP := fun _ => none
  rcvV := fun _ _ => none
  ratio := 1

theorem exETwo_wf : exETwo.WF :=
  ⟨fun _ => le_refl 0, fun _ => le_refl 0, fun _ => by simp [exETwo, Acc.pad],
    fun hb _ _ _ => by cases hb <;> rfl, fun hb _ _ _ => by cases hb <;> rfl, nofun, nofun, nofun, nofun⟩

theorem exETwo_models : exETwo.FromModels (1 / 10000) fun c => if c 0 = 5 then 1 / 1000 else 1 where
  muS := rfl
  B := rfl
  rfmax_pos := by norm_num
  lam_nonneg := fun c _ => by
    change (0 : ℝ) ≤ if c 0 = 5 then 1000 else 1
    split_ifs <;> norm_num
  mu_nonneg := fun _ _ => le_refl 0
  b_cases := fun c _ => by
    left
    split_ifs <;> norm_num

example (w : Init 1 ℝ) (ha : exETwo.Admissible (fun i => (w.v i).getD fun _ => 0)
    (fun i => (w.s i).getD fun _ => 0) (fun p => (w.sh p).getD fun _ => 0)) :
    ∃ r, exETwo.forward true true true none 100 (fun _ _ => 0) (fun _ _ _ => 0) w = .ok r ∧
      exETwo.userNorm r.out.v r.out.s r.out.sh ≤ 13 *
        exETwo.userNorm (fun i => (w.v i).getD fun _ => 0) (fun i => (w.s i).getD fun _ => 0)
          (fun p => (w.sh p).getD fun _ => 0) :=
  C69_stable_accuracy_two exETwo_wf (fun _ _ => ⟨rfl, rfl, rfl, rfl⟩) rfl _ _ exETwo_models (1 / 2) 1 0 1
    Acoustic.bad_cfl (fun c _ => by
      change (Setup.fromLamb (if c 0 = 5 then 1000 else 1) 0 (if c 0 = 5 then 1 / 1000 else 1) 0).1 ≤ 1
      simp only [Setup.fromLamb]
      split_ifs <;> norm_num) (by decide) _ _ _ _ _ (by decide) w ha

/-! ### The condition on the contrast cannot be dropped -/

open Dw.Acoustic (cl cl_shift badRho cone_real)

/-- A fluid of three cells, accuracy 4, velocity 1, densities `1, 1, 46080`, grid spacing 1, time step
1/2. -/
noncomputable def badE : Cfg 1 0 0 (fun _ => 0) (fun _ => 0) ℝ where
  acc := .a4
  n := fun _ => 6
  w0 := fun _ => 0
  w1 := fun _ => 0
  dx := fun _ => 1
  dt := 1 / 2
  a := fun _ _ => 0
  b := fun _ _ => 0
  ah := fun _ _ => 0
  bh := fun _ _ => 0
  lam := badRho
  mu := fun _ => 0
  muS := prepareMuS (fun _ => 6) (1 / 1000000) fun _ => 0
  B := prepareB (fun _ => 6) (1 / 1000000) fun c => 1 / badRho c
  srcP := fun _ => none
  srcV := fun _ _ => none
  rcvP := fun _ => none
  rcvV := fun _ _ => none
  ratio := 1

theorem badE_wf : badE.WF :=
  ⟨fun _ => le_refl 0, fun _ => le_refl 0, fun _ => by simp [badE, Acc.pad],
    fun hb _ _ _ => by cases hb <;> rfl, fun hb _ _ _ => by cases hb <;> rfl, nofun, nofun, nofun, nofun⟩

theorem badE_nopml : badE.NoPml := fun _ _ => ⟨rfl, rfl, rfl, rfl⟩

theorem badRho_pos (c : Cell 1) : 0 < badRho c ∧ badRho c ≤ 46080 := by
  unfold badRho
  split_ifs <;> norm_num

theorem badE_models : badE.FromModels (1 / 1000000) fun c => 1 / badRho c where
  muS := rfl
  B := rfl
  rfmax_pos := by norm_num
  lam_nonneg := fun c _ => (badRho_pos c).1.le
  mu_nonneg := fun _ _ => le_refl 0
  b_cases := fun c _ => by
    left
    obtain ⟨h1, h2⟩ := badRho_pos c
    rw [div_lt_div_iff₀ (by norm_num) h1]
    linarith

theorem badE_inner (x : ℤ) : badE.Inner (cl x) ↔ 2 ≤ x ∧ x < 5 := Acoustic.bad_inner x

theorem badE_innerAt (x : ℤ) : badE.InnerAt (vLoc 0) (cl x) ↔ 2 ≤ x ∧ x < 4 := by
  constructor
  · rintro ⟨h1, h2⟩
    have h3 := (badE_inner x).1 h1
    have h4 : x < 6 - 2 := h2 0 rfl
    omega
  · intro h
    exact ⟨(badE_inner x).2 (by omega), fun k _ => by change x < 6 - 2; omega⟩

theorem badE_next {s : Wavefields 1 ℝ} (hs : badE.Good s) :
    let s' := badE.next (fun _ => 0) (fun _ _ => 0) s
    s'.v 0 (cl 2) = s.v 0 (cl 2) + 1 / 2 * (9 / 8 * (s.s 0 (cl 3) - s.s 0 (cl 2)) - s.s 0 (cl 4) / 24) ∧
    s'.v 0 (cl 3) = s.v 0 (cl 3) +
      1 / 2 * (2 / 46081) * (9 / 8 * (s.s 0 (cl 4) - s.s 0 (cl 3)) + s.s 0 (cl 2) / 24) ∧
    s'.s 0 (cl 2) = s.s 0 (cl 2) + 1 / 2 * (9 / 8 * s'.v 0 (cl 2) - s'.v 0 (cl 3) / 24) ∧
    s'.s 0 (cl 3) = s.s 0 (cl 3) + 1 / 2 * (9 / 8 * (s'.v 0 (cl 3) - s'.v 0 (cl 2))) ∧
    s'.s 0 (cl 4) = s.s 0 (cl 4) + 1 / 2 * 46080 * (s'.v 0 (cl 2) / 24 - 9 / 8 * s'.v 0 (cl 3)) := by
  intro s'
  have g' : badE.Good s' := next_good badE_wf _ _ hs
  have p0 : ∀ x, ¬(2 ≤ x ∧ x < 5) → s.s 0 (cl x) = 0 := fun x hx => hs.s 0 _ fun h => hx ((badE_inner x).1 h)
  have v0 : ∀ x, ¬(2 ≤ x ∧ x < 4) → s'.v 0 (cl x) = 0 :=
    fun x hx => g'.v 0 _ fun h => hx ((badE_innerAt x).1 h)
  have ev : ∀ x, 2 ≤ x ∧ x < 4 → s'.v 0 (cl x) = s.v 0 (cl x) + badE.B 0 (cl x) * (1 / 2) *
      (9 / 8 * (s.s 0 (cl (x + 1)) - s.s 0 (cl (x + 0)))
        + (-1) / 24 * (s.s 0 (cl (x + 2)) - s.s 0 (cl (x + -1)))) := by
    intro x hx
    have hi := (badE_innerAt x).2 hx
    have e : badE.divS s 0 (cl x) = 9 / 8 * (s.s 0 (cl (x + 1)) - s.s 0 (cl (x + 0)))
        + (-1) / 24 * (s.s 0 (cl (x + 2)) - s.s 0 (cl (x + -1))) := by
      have e1 : s.sig 0 0 = s.s 0 := by unfold Wavefields.sig sigOf; exact pick_self ..
      rw [Cfg.divS, Fin.sum_univ_one, str_nopml badE_nopml, if_pos hi, e1]
      simp only [Cfg.D, cD, cl_shift]
      simp [badE, vLoc, cSH1]
    have e2 : s'.v 0 (cl x) = s.v 0 (cl x) + badE.B 0 (cl x) * (1 / 2) * badE.divS s 0 (cl x)
        + inject (badE.srcV 0) (fun _ => 0) (cl x) := rfl
    rw [e2, inject_zero', e, add_zero]
  have ep : ∀ x, 2 ≤ x ∧ x < 5 → s'.s 0 (cl x) = s.s 0 (cl x) + 1 / 2 * (badRho (cl x) *
      (9 / 8 * (s'.v 0 (cl (x + 0)) - s'.v 0 (cl (x + -1)))
        + (-1) / 24 * (s'.v 0 (cl (x + 1)) - s'.v 0 (cl (x + -2))))) := by
    intro x hx
    have hi := (badE_inner x).2 hx
    have e : badE.gradV (badE.halfV (fun _ _ => 0) s) 0 0 (cl x) =
        9 / 8 * (s'.v 0 (cl (x + 0)) - s'.v 0 (cl (x + -1)))
        + (-1) / 24 * (s'.v 0 (cl (x + 1)) - s'.v 0 (cl (x + -2))) := by
      have hv : (badE.halfV (fun _ _ => 0) s).v = s'.v := rfl
      rw [Cfg.gradV, hv, str_nopml badE_nopml, if_pos (innerAt_diag.2 hi)]
      generalize s'.v 0 = u
      simp only [Cfg.D, cD, cl_shift]
      simp [badE, sLoc, cS1]
    have e2 : s'.s 0 (cl x) = s.s 0 (cl x) + 1 / 2 * (badRho (cl x) *
        (∑ k, badE.gradV (badE.halfV (fun _ _ => 0) s) k k (cl x)) +
        2 * 0 * badE.gradV (badE.halfV (fun _ _ => 0) s) 0 0 (cl x))
        + inject badE.srcP (fun _ => 0) (cl x) := rfl
    rw [e2, inject_zero', Fin.sum_univ_one, e]
    ring
  have r2 : badRho (cl 2) = 1 := by simp [badRho, cl]
  have r3 : badRho (cl 3) = 1 := by simp [badRho, cl]
  have r4 : badRho (cl 4) = 46080 := by simp [badRho, cl]
  have hrho : ∀ x, prepareRho (1 / 1000000) (fun c => 1 / badRho c) (cl x) = badRho (cl x) := by
    intro x
    obtain ⟨h1, h2⟩ := badRho_pos (cl x)
    unfold prepareRho
    rw [if_pos, one_div_one_div]
    rw [abs_of_pos (by positivity), div_lt_div_iff₀ (by norm_num) h1]
    linarith
  have hB : ∀ x, 2 ≤ x ∧ x < 4 → badE.B 0 (cl x) = 1 / ((badRho (cl x) + badRho (cl (x + 1))) / 2) := by
    intro x hx
    have em : Acoustic.meanRho (fun _ => 6) (prepareRho (1 / 1000000) fun c => 1 / badRho c) 0 (cl x) =
        (badRho (cl x) + badRho (cl (x + 1))) / 2 := by
      have : Acoustic.meanRho (fun _ => 6) (prepareRho (1 / 1000000) fun c => 1 / badRho c) 0 (cl x) =
        (prepareRho (1 / 1000000) (fun c => 1 / badRho c) (cl x) +
          prepareRho (1 / 1000000) (fun c => 1 / badRho c) ((cl x).shift 0 1)) / 2 :=
        if_pos (by change x + 1 < 6; omega)
      rw [this, cl_shift, hrho, hrho]
    change prepareB (fun _ => 6) (1 / 1000000) (fun c => 1 / badRho c) 0 (cl x) = _
    unfold prepareB Acoustic.prepareB
    rw [em, if_pos]
    have h1 : 1 ≤ badRho (cl x) := by unfold badRho; split_ifs <;> norm_num
    have h2 := (badRho_pos (cl (x + 1))).1
    rw [abs_of_pos (by linarith)]
    linarith
  have hB2 : badE.B 0 (cl 2) = 1 := by
    rw [hB 2 (by norm_num)]
    norm_num [r2, r3]
  have hB3 : badE.B 0 (cl 3) = 2 / 46081 := by
    rw [hB 3 (by norm_num)]
    norm_num [r3, r4]
  have e2 := ev 2 (by norm_num)
  have e3 := ev 3 (by norm_num)
  have f2 := ep 2 (by norm_num)
  have f3 := ep 3 (by norm_num)
  have f4 := ep 4 (by norm_num)
  rw [hB2] at e2
  rw [hB3] at e3
  rw [r2] at f2
  rw [r3] at f3
  rw [r4] at f4
  have a1 := p0 1 (by norm_num)
  have a5 := p0 5 (by norm_num)
  have b0 := v0 0 (by norm_num)
  have b1 := v0 1 (by norm_num)
  have b4 := v0 4 (by norm_num)
  have b5 := v0 5 (by norm_num)
  norm_num [a1, a5, b0, b1, b4, b5] at e2 e3 f2 f3 f4
  refine ⟨?_, ?_, ?_, ?_, ?_⟩
  · rw [e2]; ring
  · rw [e3]; ring
  · rw [f2]; ring
  · rw [f3]
  · rw [f4]; ring

/-- The cone that a step maps to itself while the stress of the dense cell grows. -/
structure Cone (s : Wavefields 1 ℝ) (q : ℝ) : Prop where
  q_pos : 0 < q
  p4 : |s.s 0 (cl 4)| = 46080 * q
  v2 : |s.v 0 (cl 2)| ≤ 960 * (q / 5)
  v3 : |s.v 0 (cl 3)| ≤ q / 2
  p2 : |s.s 0 (cl 2)| ≤ 65 * q
  p3 : |s.s 0 (cl 3)| ≤ 65 * q

theorem cone_next {s : Wavefields 1 ℝ} (hs : badE.Good s) {q : ℝ} (hc : Cone s q) :
    ∃ q', 12 * q ≤ q' ∧ Cone (badE.next (fun _ => 0) (fun _ _ => 0) s) q' := by
  obtain ⟨e2, e3, f2, f3, f4⟩ := badE_next hs
  obtain ⟨h0, h4, h2, h3, k2, k3⟩ := hc
  set s' := badE.next (fun _ => 0) (fun _ _ => 0) s
  refine ⟨|s'.s 0 (cl 4)| / 46080, ?_⟩
  rcases abs_eq (by positivity) |>.1 h4 with hp | hp
  · rw [hp] at e2 e3 f4
    obtain ⟨g1, g2, g3, g4, g5⟩ := cone_real (v2 := -s.v 0 (cl 2)) (v3 := -s.v 0 (cl 3))
      (p2 := s.s 0 (cl 2)) (p3 := s.s 0 (cl 3)) (V2 := -s'.v 0 (cl 2)) (V3 := -s'.v 0 (cl 3))
      (P2 := s'.s 0 (cl 2)) (P3 := s'.s 0 (cl 3)) (P4 := s'.s 0 (cl 4)) h0
      (by rw [e2]; ring) (by rw [e3]; ring) (by rw [f2]; ring) (by rw [f3]; ring) (by rw [f4]; ring)
      (by rwa [abs_neg]) (by rwa [abs_neg]) k2 k3
    rw [abs_neg] at g2 g3
    have hP : |s'.s 0 (cl 4)| = -s'.s 0 (cl 4) := abs_of_neg (by linarith)
    have hle : 12.5 * q ≤ |s'.s 0 (cl 4)| / 46080 := by rw [hP, le_div_iff₀ (by norm_num)]; linarith
    exact ⟨by linarith, by linarith, by ring, by linarith, by linarith, by linarith, by linarith⟩
  · rw [hp] at e2 e3 f4
    obtain ⟨g1, g2, g3, g4, g5⟩ := cone_real (v2 := s.v 0 (cl 2)) (v3 := s.v 0 (cl 3))
      (p2 := -s.s 0 (cl 2)) (p3 := -s.s 0 (cl 3)) (V2 := s'.v 0 (cl 2)) (V3 := s'.v 0 (cl 3))
      (P2 := -s'.s 0 (cl 2)) (P3 := -s'.s 0 (cl 3)) (P4 := -s'.s 0 (cl 4)) h0
      (by rw [e2]; ring) (by rw [e3]; ring) (by rw [f2]; ring) (by rw [f3]; ring) (by rw [f4]; ring)
      h2 h3 (by rwa [abs_neg]) (by rwa [abs_neg])
    rw [abs_neg] at g4 g5
    have hP : |s'.s 0 (cl 4)| = s'.s 0 (cl 4) := abs_of_pos (by linarith)
    have hle : 12.5 * q ≤ |s'.s 0 (cl 4)| / 46080 := by rw [hP, le_div_iff₀ (by norm_num)]; linarith
    exact ⟨by linarith, by linarith, by ring, by linarith, by linarith, by linarith, by linarith⟩

/-- **C69** The condition on the contrast cannot be dropped for accuracies above 2: there are models whose
P-wave velocity is nowhere above `vmax` and for which the time step chosen by `cfl_condition_n` lets a
wavefield grow by more than a factor of 12 in every step. -/
theorem C69_unstable_for_large_contrast :
    ∃ (C : Cfg 1 0 0 (fun _ => 0) (fun _ => 0) ℝ) (rfmax : ℝ) (b : Fld 1 ℝ) (userDt vmax : ℝ) (m : ℤ)
      (w : Init 1 ℝ), C.WF ∧ C.NoPml ∧ C.FromModels rfmax b ∧
      Setup.cflConditionN (List.ofFn C.dx) userDt vmax = .ok (C.dt, m) ∧
      (∀ c eps, (Setup.fromLamb (C.lam c) (C.mu c) (b c) eps).1 ≤ vmax) ∧
      C.Admissible (fun i => (w.v i).getD fun _ => 0) (fun i => (w.s i).getD fun _ => 0)
        (fun p => (w.sh p).getD fun _ => 0) ∧
      C.ratio = 1 ∧ ∀ nt, ∃ r, C.forward false false false none nt (fun _ _ => 0) (fun _ _ _ => 0) w =
        .ok r ∧ ∃ c ∈ box (fun _ => 0) (C.shapeAt (nLoc 1)), 12 ^ nt ≤ |r.out.s 0 c| := by
  let w : Init 1 ℝ := ⟨fun _ => none, fun _ => some fun c => if c 0 = 2 then 46080 else 0, fun _ => none,
    fun _ _ => none, fun _ _ => none⟩
  refine ⟨badE, 1 / 1000000, fun c => 1 / badRho c, 1 / 2, 1, 1, w, badE_wf, badE_nopml,
    badE_models, Acoustic.bad_cfl, fun c eps => ?_, ⟨fun c _ _ i j => ?_, fun c _ _ h => ?_,
      fun _ _ _ _ => rfl, fun _ _ _ _ => rfl⟩, rfl, fun nt => ?_⟩
  · change (Setup.fromLamb (badRho c) 0 (1 / badRho c) eps).1 ≤ 1
    have h1 := (badRho_pos c).1
    simp only [Setup.fromLamb]
    rw [mul_one_div_cancel h1.ne']
    simp
  · rfl
  · exact absurd h (badRho_pos _).1.ne'
  have hg := fun n => run_good badE_wf (fun _ _ => (0 : ℝ)) (fun _ _ _ => (0 : ℝ)) (prepare_good w) n
  have hcone : ∀ n, ∃ q, 12 ^ n ≤ q ∧
      Cone (badE.run (fun _ _ => 0) (fun _ _ _ => 0) (badE.prepare w) n) q := by
    intro n
    induction n with
    | zero =>
        have hp : ∀ x, 2 ≤ x ∧ x < 5 → (badE.prepare w).s 0 (cl x) = if x = 4 then 46080 else 0 := by
          intro x hx
          have e : (badE.prepare w).s 0 (cl x) = if badE.Inner (cl x) then
            (if x - 2 = 2 then (46080 : ℝ) else 0) else 0 := rfl
          rw [e, if_pos ((badE_inner x).2 hx)]
          by_cases h : x = 4
          · rw [if_pos h, if_pos (by omega)]
          · rw [if_neg h, if_neg (by omega)]
        have hv : ∀ c, (badE.prepare w).v 0 c = 0 := by
          intro c
          change badE.zeroEdges (vLoc 0) (fun _ => 0) c = 0
          unfold Cfg.zeroEdges
          split_ifs <;> rfl
        refine ⟨1, by norm_num, by norm_num, ?_, ?_, ?_, ?_, ?_⟩
        · change |(badE.prepare w).s 0 (cl 4)| = _
          rw [hp 4 (by norm_num)]; norm_num
        · change |(badE.prepare w).v 0 _| ≤ _
          rw [hv]; norm_num
        · change |(badE.prepare w).v 0 _| ≤ _
          rw [hv]; norm_num
        · change |(badE.prepare w).s 0 (cl 2)| ≤ _
          rw [hp 2 (by norm_num)]; norm_num
        · change |(badE.prepare w).s 0 (cl 3)| ≤ _
          rw [hp 3 (by norm_num)]; norm_num
    | succ n ih =>
        obtain ⟨q, hq, hc⟩ := ih
        obtain ⟨q', hq', hc'⟩ := cone_next (hg n) hc
        refine ⟨q', ?_, hc'⟩
        rw [pow_succ]
        linarith
  refine ⟨_, forward_eq badE_wf false false false none nt _ _ w (by decide)
    (fun h => by change 0 < nt / 1; simpa using h), fun _ => 2, ?_, ?_⟩
  · rw [mem_box]
    intro k
    change (0 : ℤ) ≤ 2 ∧ (2 : ℤ) < 6 - 2 * (4 / 2 : ℕ) + 1 - 0
    norm_num
  · obtain ⟨q, hq, hc⟩ := hcone nt
    have e1 : nt / badE.ratio * badE.ratio = nt := by change nt / 1 * 1 = nt; simp
    simp only [e1]
    have e2 : (badE.unpadAll (badE.run (fun _ _ => 0) (fun _ _ _ => 0) (badE.prepare w) nt)).s 0 (fun _ => 2) =
        (badE.run (fun _ _ => 0) (fun _ _ _ => 0) (badE.prepare w) nt).s 0 (cl 4) := rfl
    rw [e2, hc.p4]
    have := hc.q_pos
    linarith

end Dw.Elastic
