import Verif.Elastic.Energy

/-!
# The elastic energy is comparable with the norm
-/

namespace Dw.Elastic

open Dw.Scalar (inject sample)

variable {d np mp : ℕ} {nv mv : Fin d → ℕ} {C : Cfg d np mp nv mv ℝ}

/-- Nonnegative moduli. -/
structure Cfg.Nonneg (C : Cfg d np mp nv mv ℝ) : Prop where
  lam : ∀ c, C.Inner c → 0 ≤ C.lam c
  mu : ∀ c, C.Inner c → 0 ≤ C.mu c
  muS : ∀ p c, C.InnerAt (sLoc p.1.1 p.1.2) c → 0 ≤ C.muS p c
  B : ∀ i c, C.InnerAt (vLoc i) c → 0 ≤ C.B i c

theorem pot_eq {e : Strain d} {w : Wavefields d ℝ} (he : C.Rel e w) :
    C.pot e w = ∑ c ∈ C.S, (C.lam c * (∑ i, e.n i c) ^ 2 + ∑ i, 2 * C.mu c * e.n i c ^ 2) +
      ∑ p, ∑ c ∈ C.S, C.muS p c * e.s p c ^ 2 := by
  unfold Cfg.pot
  congr 1
  · refine Finset.sum_congr rfl fun c hc => ?_
    simp only [he.n _ c (Cfg.mem_S.1 hc), mul_add, Finset.sum_add_distrib]
    rw [← Finset.sum_mul]
    have : ∑ i, e.n i c * (2 * C.mu c * e.n i c) = ∑ i, 2 * C.mu c * e.n i c ^ 2 :=
      Finset.sum_congr rfl fun _ _ => by ring
    rw [this]
    ring
  · refine Finset.sum_congr rfl fun p _ => Finset.sum_congr rfl fun c _ => ?_
    rw [he.s]; ring

theorem shear_nonneg (hC : C.Nonneg) {e : Strain d} {w : Wavefields d ℝ} (he : C.Rel e w) (p : Sh d)
    (c : Cell d) : 0 ≤ C.muS p c * e.s p c ^ 2 := by
  by_cases hc : C.InnerAt (sLoc p.1.1 p.1.2) c
  · exact mul_nonneg (hC.muS p c hc) (sq_nonneg _)
  · simp [he.s_out p c hc]

theorem normal_nonneg (hC : C.Nonneg) (e : Strain d) {c : Cell d} (hc : C.Inner c) :
    0 ≤ C.lam c * (∑ i, e.n i c) ^ 2 + ∑ i, 2 * C.mu c * e.n i c ^ 2 :=
  add_nonneg (mul_nonneg (hC.lam c hc) (sq_nonneg _)) (Finset.sum_nonneg fun _ _ =>
    mul_nonneg (mul_nonneg zero_le_two (hC.mu c hc)) (sq_nonneg _))

theorem pot_nonneg (hC : C.Nonneg) {e : Strain d} {w : Wavefields d ℝ} (he : C.Rel e w) :
    0 ≤ C.pot e w := by
  rw [pot_eq he]
  exact add_nonneg (Finset.sum_nonneg fun c hc => normal_nonneg hC e (Cfg.mem_S.1 hc))
    (Finset.sum_nonneg fun p _ => Finset.sum_nonneg fun c _ => shear_nonneg hC he p c)

theorem kin_term_nonneg (hC : C.Nonneg) {w : Wavefields d ℝ} (hw : C.Good w) (i : Fin d) (c : Cell d) :
    0 ≤ w.v i c ^ 2 / C.B i c := by
  by_cases hc : C.InnerAt (vLoc i) c
  · exact div_nonneg (sq_nonneg _) (hC.B i c hc)
  · simp [hw.v i c hc]

theorem kin_nonneg (hC : C.Nonneg) {w : Wavefields d ℝ} (hw : C.Good w) : 0 ≤ C.kin w :=
  Finset.sum_nonneg fun i _ => Finset.sum_nonneg fun c _ => kin_term_nonneg hC hw i c

/-- The quadratic form of the moduli at the velocity gradient. -/
noncomputable def Cfg.gform (C : Cfg d np mp nv mv ℝ) (w : Wavefields d ℝ) : ℝ :=
  ∑ c ∈ C.S, (C.lam c * (∑ i, C.gradV w i i c) ^ 2 + ∑ i, 2 * C.mu c * C.gradV w i i c ^ 2) +
    ∑ p : Sh d, ∑ c ∈ C.S, C.muS p c * (C.gradV w p.1.1 p.1.2 c + C.gradV w p.1.2 p.1.1 c) ^ 2

theorem young {a t θ : ℝ} (ha : 0 ≤ a) (hθ : 0 < θ) (g e : ℝ) :
    |t * (a * (g * e))| ≤ θ * (a * e ^ 2) + t ^ 2 / (4 * θ) * (a * g ^ 2) := by
  have h1 : 0 ≤ a * ((2 * θ * e + t * g) ^ 2 / (4 * θ)) := by positivity
  have h2 : 0 ≤ a * ((2 * θ * e - t * g) ^ 2 / (4 * θ)) := by positivity
  have e1 : a * ((2 * θ * e + t * g) ^ 2 / (4 * θ)) =
      θ * (a * e ^ 2) + t ^ 2 / (4 * θ) * (a * g ^ 2) + t * (a * (g * e)) := by
    field_simp; ring
  have e2 : a * ((2 * θ * e - t * g) ^ 2 / (4 * θ)) =
      θ * (a * e ^ 2) + t ^ 2 / (4 * θ) * (a * g ^ 2) - t * (a * (g * e)) := by
    field_simp; ring
  rw [abs_le]
  constructor <;> linarith

theorem cross_le (hn : C.NoPml) (hC : C.Nonneg) {e : Strain d} {w : Wavefields d ℝ} (hw : C.Good w)
    (he : C.Rel e w) {θ : ℝ} (hθ : 0 < θ) :
    |C.dt * C.cross w| ≤ θ * C.pot e w + C.dt ^ 2 / (4 * θ) * C.gform w := by
  have h0 := sum_by_parts hn hw hw
  have hN : |C.dt * ∑ c ∈ C.S, ∑ i, C.gradV w i i c * w.s i c| ≤
      θ * ∑ c ∈ C.S, (C.lam c * (∑ i, e.n i c) ^ 2 + ∑ i, 2 * C.mu c * e.n i c ^ 2) +
      C.dt ^ 2 / (4 * θ) *
        ∑ c ∈ C.S, (C.lam c * (∑ i, C.gradV w i i c) ^ 2 + ∑ i, 2 * C.mu c * C.gradV w i i c ^ 2) := by
    rw [Finset.mul_sum, Finset.mul_sum, Finset.mul_sum, ← Finset.sum_add_distrib]
    refine (Finset.abs_sum_le_sum_abs _ _).trans (Finset.sum_le_sum fun c hc => ?_)
    have hi := Cfg.mem_S.1 hc
    have e1 : C.dt * ∑ i, C.gradV w i i c * w.s i c =
        C.dt * (C.lam c * ((∑ i, C.gradV w i i c) * ∑ i, e.n i c)) +
        ∑ i, C.dt * (2 * C.mu c * (C.gradV w i i c * e.n i c)) := by
      simp only [he.n _ c hi, mul_add, Finset.sum_add_distrib]
      rw [← Finset.sum_mul, ← Finset.mul_sum (a := C.dt)]
      congr 1
      · ring
      · congr 1
        exact Finset.sum_congr rfl fun _ _ => by ring
    rw [e1]
    refine (abs_add_le _ _).trans ?_
    have h1 := young (t := C.dt) (hC.lam c hi) hθ (∑ i, C.gradV w i i c) (∑ i, e.n i c)
    have h2 : |∑ i, C.dt * (2 * C.mu c * (C.gradV w i i c * e.n i c))| ≤
        θ * (∑ i, 2 * C.mu c * e.n i c ^ 2) + C.dt ^ 2 / (4 * θ) *
          ∑ i, 2 * C.mu c * C.gradV w i i c ^ 2 := by
      rw [Finset.mul_sum, Finset.mul_sum, ← Finset.sum_add_distrib]
      exact (Finset.abs_sum_le_sum_abs _ _).trans (Finset.sum_le_sum fun i _ =>
        young (mul_nonneg zero_le_two (hC.mu c hi)) hθ _ _)
    rw [mul_add, mul_add]
    linarith
  have hS : |C.dt * ∑ p : Sh d, ∑ c ∈ C.S,
        (C.gradV w p.1.1 p.1.2 c + C.gradV w p.1.2 p.1.1 c) * w.sh p c| ≤
      θ * ∑ p, ∑ c ∈ C.S, C.muS p c * e.s p c ^ 2 + C.dt ^ 2 / (4 * θ) *
        ∑ p : Sh d, ∑ c ∈ C.S, C.muS p c * (C.gradV w p.1.1 p.1.2 c + C.gradV w p.1.2 p.1.1 c) ^ 2 := by
    simp only [Finset.mul_sum]
    rw [← Finset.sum_add_distrib]
    refine (Finset.abs_sum_le_sum_abs _ _).trans (Finset.sum_le_sum fun p _ => ?_)
    rw [← Finset.sum_add_distrib]
    refine (Finset.abs_sum_le_sum_abs _ _).trans (Finset.sum_le_sum fun c _ => ?_)
    by_cases hc : C.InnerAt (sLoc p.1.1 p.1.2) c
    · have := young (t := C.dt) (hC.muS p c hc) hθ
        (C.gradV w p.1.1 p.1.2 c + C.gradV w p.1.2 p.1.1 c) (e.s p c)
      rw [he.s]
      refine le_trans (le_of_eq ?_) this
      congr 1; ring
    · have h1 : C.gradV w p.1.1 p.1.2 c = 0 := str_out hc
      have h2 : C.gradV w p.1.2 p.1.1 c = 0 := str_out (by rwa [sLoc_comm])
      simp [h1, h2, he.s_out p c hc]
  have ec : C.dt * C.cross w = -(C.dt * ∑ c ∈ C.S, ∑ i, C.gradV w i i c * w.s i c +
      C.dt * ∑ p : Sh d, ∑ c ∈ C.S,
        (C.gradV w p.1.1 p.1.2 c + C.gradV w p.1.2 p.1.1 c) * w.sh p c) := by
    unfold Cfg.cross
    rw [h0]; ring
  rw [ec, abs_neg, pot_eq he, Cfg.gform, mul_add, mul_add]
  refine (abs_add_le _ _).trans ?_
  linarith

theorem energy_bounds (hn : C.NoPml) (hC : C.Nonneg) {e : Strain d} {w : Wavefields d ℝ}
    (hw : C.Good w) (he : C.Rel e w) {θ : ℝ} (hθ : 0 < θ)
    (hG : C.dt ^ 2 * C.gform w ≤ 4 * θ ^ 2 * C.kin w) :
    (1 - θ) * (C.pot e w + C.kin w) ≤ C.energy e w ∧
      C.energy e w ≤ (1 + θ) * (C.pot e w + C.kin w) := by
  have h1 := cross_le hn hC hw he hθ
  have h2 : C.dt ^ 2 / (4 * θ) * C.gform w ≤ θ * C.kin w := by
    have : C.dt ^ 2 / (4 * θ) * C.gform w = C.dt ^ 2 * C.gform w / (4 * θ) := by ring
    rw [this, div_le_iff₀ (by positivity)]
    refine hG.trans (le_of_eq ?_)
    ring
  have h3 := abs_le.1 (h1.trans (add_le_add_right h2 _))
  unfold Cfg.energy
  constructor <;> linarith [h3.1, h3.2]

/-! ### Bound of the velocity gradient -/

/-- Offset of the derivative: half-point derivatives start at the cell itself. -/
def off (h : Bool) : ℤ := if h then 0 else 1

theorem cD_eq_sum (acc : Acc) (h : Bool) (rdx : ℝ) (a : ℤ → ℝ) :
    cD acc h rdx a = rdx * ∑ j ∈ Finset.Icc (-3 : ℤ) 4, hwt acc j * a (j - off h) := by
  cases h
  · have : cD acc false rdx a = cSH1 acc rdx fun j => a (j - 1) := by
      cases acc <;> norm_num [cD, cS1, cSH1]
    rw [this, cSH1_eq_sum]
    rfl
  · have : cD acc true rdx a = cSH1 acc rdx fun j => a (j - 0) := by simp [cD]
    rw [this, cSH1_eq_sum]
    rfl

/-- Square of a stencil without the grid spacing. -/
theorem sten_sq (acc : Acc) (a : ℤ → ℝ) :
    (∑ j ∈ Finset.Icc (-3 : ℤ) 4, hwt acc j * a j) ^ 2 ≤
      hsum acc * ∑ j ∈ Finset.Icc (-3 : ℤ) 4, |hwt acc j| * a j ^ 2 := by
  refine Finset.sum_sq_le_sum_mul_sum_of_sq_eq_mul (Finset.Icc (-3 : ℤ) 4)
    (fun _ _ => abs_nonneg _) (fun _ _ => mul_nonneg (abs_nonneg _) (sq_nonneg _)) fun j _ => ?_
  rw [mul_pow, ← sq_abs (hwt acc j)]
  ring

/-- A function restricted to a set of cells. -/
noncomputable def only (P : Cell d → Prop) (m : Fld d ℝ) : Fld d ℝ := by
  classical exact fun c => if P c then m c else 0

theorem only_pos {P : Cell d → Prop} {m : Fld d ℝ} {c : Cell d} (h : P c) : only P m c = m c := if_pos h

theorem only_neg {P : Cell d → Prop} {m : Fld d ℝ} {c : Cell d} (h : ¬P c) : only P m c = 0 := if_neg h

theorem only_nonneg {P : Cell d → Prop} {m : Fld d ℝ} (h : ∀ c, P c → 0 ≤ m c) (c : Cell d) :
    0 ≤ only P m c := by
  by_cases hc : P c
  · rw [only_pos hc]; exact h c hc
  · rw [only_neg hc]

/-- Stencil-weighted mean of `m` around `c`. -/
noncomputable def wsum (acc : Acc) (h : Bool) (k : Fin d) (m : Fld d ℝ) (c : Cell d) : ℝ :=
  ∑ j ∈ Finset.Icc (-3 : ℤ) 4, |hwt acc j| * m (c.shift k (off h - j))

/-- Weighted squares of shifted values are moved to the weights. -/
theorem move_weights {S : Finset (Cell d)} {u m : Fld d ℝ} (hu : SuppIn S u) (hm : ∀ c, 0 ≤ m c)
    (acc : Acc) (h : Bool) (k : Fin d) :
    ∑ c ∈ S, m c * ∑ j ∈ Finset.Icc (-3 : ℤ) 4, |hwt acc j| * u (c.shift k (j - off h)) ^ 2 ≤
      ∑ c ∈ S, u c ^ 2 * wsum acc h k m c := by
  have e1 : ∑ c ∈ S, m c * ∑ j ∈ Finset.Icc (-3 : ℤ) 4, |hwt acc j| * u (c.shift k (j - off h)) ^ 2 =
      ∑ j ∈ Finset.Icc (-3 : ℤ) 4, |hwt acc j| *
        ∑ c ∈ S, u (c.shift k (j - off h)) ^ 2 * m ((c.shift k (j - off h)).shift k (off h - j)) := by
    simp only [Finset.mul_sum]
    rw [Finset.sum_comm]
    refine Finset.sum_congr rfl fun j _ => Finset.sum_congr rfl fun c _ => ?_
    rw [Cell.shift_shift]
    have : (j - off h) + (off h - j) = 0 := by ring
    rw [this, Cell.shift_zero]
    ring
  have e2 : ∑ c ∈ S, u c ^ 2 * wsum acc h k m c = ∑ j ∈ Finset.Icc (-3 : ℤ) 4, |hwt acc j| *
      ∑ c ∈ S, u c ^ 2 * m (c.shift k (off h - j)) := by
    simp only [wsum, Finset.mul_sum]
    rw [Finset.sum_comm]
    refine Finset.sum_congr rfl fun j _ => Finset.sum_congr rfl fun c _ => ?_
    ring
  rw [e1, e2]
  refine Finset.sum_le_sum fun j _ => mul_le_mul_of_nonneg_left ?_ (abs_nonneg _)
  exact sum_shift_le (f := fun c => u c ^ 2 * m (c.shift k (off h - j)))
    (fun c hc => by simp [hu c hc]) (fun c => mul_nonneg (sq_nonneg _) (hm _)) S k (j - off h)

/-- The modulus at the points of `σ_ij`, zero outside. -/
noncomputable def Cfg.modS (C : Cfg d np mp nv mv ℝ) (i j : Fin d) : Fld d ℝ :=
  pick (fun _ => only C.Inner C.mu) (fun p => only (C.InnerAt (sLoc p.1.1 p.1.2)) (C.muS p))
    (fun p => only (C.InnerAt (sLoc p.1.1 p.1.2)) (C.muS p)) i j

theorem modS_nonneg (hC : C.Nonneg) (i j : Fin d) (c : Cell d) : 0 ≤ C.modS i j c := by
  unfold Cfg.modS pick
  split_ifs
  · exact only_nonneg (hC.muS _) c
  · exact only_nonneg (hC.muS _) c
  · exact only_nonneg hC.mu c

/-- Weight of `v_i ^ 2` in the bound. -/
noncomputable def Cfg.weight (C : Cfg d np mp nv mv ℝ) (i : Fin d) (c : Cell d) : ℝ :=
  (∑ k, (1 / C.dx k) ^ 2) * wsum C.acc false i (only C.Inner C.lam) c +
    2 * ∑ j, (1 / C.dx j) ^ 2 * wsum C.acc (sLoc i j j) j (C.modS i j) c

theorem grad_abs (hn : C.NoPml) (w : Wavefields d ℝ) (i j : Fin d) (c : Cell d)
    (hc : C.InnerAt (sLoc i j) c) : C.gradV w i j c = (1 / C.dx j) *
      ∑ k ∈ Finset.Icc (-3 : ℤ) 4, hwt C.acc k * w.v i (c.shift j (k - off (sLoc i j j))) := by
  rw [Cfg.gradV, str_nopml hn, if_pos hc, Cfg.D, cD_eq_sum]

theorem gform_le (hn : C.NoPml) (hC : C.Nonneg) {w : Wavefields d ℝ} (hw : C.Good w) :
    C.gform w ≤ hsum C.acc * ∑ i, ∑ c ∈ C.S, w.v i c ^ 2 * C.weight i c := by
  have hh : 0 ≤ hsum C.acc := Finset.sum_nonneg fun _ _ => abs_nonneg _
  set X := ∑ k, (1 / C.dx k) ^ 2 with hX
  have hX0 : 0 ≤ X := Finset.sum_nonneg fun _ _ => sq_nonneg _
  -- divergence
  have h1 : ∑ c ∈ C.S, C.lam c * (∑ i, C.gradV w i i c) ^ 2 ≤ hsum C.acc * ∑ i, ∑ c ∈ C.S,
      w.v i c ^ 2 * (X * wsum C.acc false i (only C.Inner C.lam) c) := by
    have step : ∀ c ∈ C.S, C.lam c * (∑ i, C.gradV w i i c) ^ 2 ≤
        hsum C.acc * X * ∑ i, only C.Inner C.lam c * ∑ j ∈ Finset.Icc (-3 : ℤ) 4,
          |hwt C.acc j| * w.v i (c.shift i (j - off false)) ^ 2 := by
      intro c hc
      have hi := Cfg.mem_S.1 hc
      rw [only_pos hi]
      have e := fun i => grad_abs hn w i i c (innerAt_diag.2 hi)
      have cs : (∑ i, C.gradV w i i c) ^ 2 ≤ X * ∑ i, (∑ k ∈ Finset.Icc (-3 : ℤ) 4,
          hwt C.acc k * w.v i (c.shift i (k - off false))) ^ 2 := by
        refine Finset.sum_sq_le_sum_mul_sum_of_sq_eq_mul _ (fun _ _ => sq_nonneg _)
          (fun _ _ => sq_nonneg _) fun i _ => ?_
        rw [e i, mul_pow]
        simp [sLoc_diag]
      have cs2 : ∑ i, (∑ k ∈ Finset.Icc (-3 : ℤ) 4,
          hwt C.acc k * w.v i (c.shift i (k - off false))) ^ 2 ≤ ∑ i, hsum C.acc *
            ∑ j ∈ Finset.Icc (-3 : ℤ) 4, |hwt C.acc j| * w.v i (c.shift i (j - off false)) ^ 2 :=
        Finset.sum_le_sum fun i _ => sten_sq C.acc fun k => w.v i (c.shift i (k - off false))
      refine (mul_le_mul_of_nonneg_left (cs.trans (mul_le_mul_of_nonneg_left cs2 hX0))
        (hC.lam c hi)).trans (le_of_eq ?_)
      rw [← Finset.mul_sum, ← Finset.mul_sum]
      ring
    refine (Finset.sum_le_sum step).trans ?_
    rw [← Finset.mul_sum, mul_assoc, Finset.sum_comm]
    refine mul_le_mul_of_nonneg_left ?_ hh
    rw [Finset.mul_sum]
    refine Finset.sum_le_sum fun i _ => ?_
    have := mul_le_mul_of_nonneg_left (move_weights (S := C.S) (u := w.v i)
      (m := only C.Inner C.lam) (suppAt_of (hw.v i)) (only_nonneg hC.lam) C.acc false i) hX0
    refine this.trans (le_of_eq ?_)
    rw [Finset.mul_sum]
    exact Finset.sum_congr rfl fun _ _ => by ring
  -- single components
  have comp : ∀ i j, ∑ c ∈ C.S, 2 * C.modS i j c * C.gradV w i j c ^ 2 ≤ hsum C.acc *
      ∑ c ∈ C.S, w.v i c ^ 2 * (2 * ((1 / C.dx j) ^ 2 * wsum C.acc (sLoc i j j) j (C.modS i j) c)) := by
    intro i j
    have step : ∀ c ∈ C.S, 2 * C.modS i j c * C.gradV w i j c ^ 2 ≤
        hsum C.acc * (2 * (1 / C.dx j) ^ 2) * (C.modS i j c * ∑ k ∈ Finset.Icc (-3 : ℤ) 4,
          |hwt C.acc k| * w.v i (c.shift j (k - off (sLoc i j j))) ^ 2) := by
      intro c _
      have hm := modS_nonneg hC i j c
      by_cases hc : C.InnerAt (sLoc i j) c
      · rw [grad_abs hn w i j c hc, mul_pow]
        have := sten_sq C.acc fun k => w.v i (c.shift j (k - off (sLoc i j j)))
        have := mul_le_mul_of_nonneg_left this
          (by positivity : 0 ≤ 2 * C.modS i j c * (1 / C.dx j) ^ 2)
        refine le_trans (le_of_eq ?_) (this.trans (le_of_eq ?_)) <;> ring
      · rw [Cfg.gradV, str_out hc]
        have : 0 ≤ ∑ k ∈ Finset.Icc (-3 : ℤ) 4,
          |hwt C.acc k| * w.v i (c.shift j (k - off (sLoc i j j))) ^ 2 :=
          Finset.sum_nonneg fun _ _ => mul_nonneg (abs_nonneg _) (sq_nonneg _)
        have : 0 ≤ hsum C.acc * (2 * (1 / C.dx j) ^ 2) * (C.modS i j c * ∑ k ∈ Finset.Icc (-3 : ℤ) 4,
          |hwt C.acc k| * w.v i (c.shift j (k - off (sLoc i j j))) ^ 2) := by positivity
        simpa using this
    refine (Finset.sum_le_sum step).trans ?_
    rw [← Finset.mul_sum, mul_assoc]
    refine mul_le_mul_of_nonneg_left ?_ hh
    have := mul_le_mul_of_nonneg_left (move_weights (S := C.S) (u := w.v i) (m := C.modS i j)
      (suppAt_of (hw.v i)) (modS_nonneg hC i j) C.acc (sLoc i j j) j)
      (by positivity : 0 ≤ 2 * (1 / C.dx j) ^ 2)
    refine this.trans (le_of_eq ?_)
    rw [Finset.mul_sum]
    exact Finset.sum_congr rfl fun _ _ => by ring
  have h2 : ∑ c ∈ C.S, ∑ i, 2 * C.mu c * C.gradV w i i c ^ 2 +
      ∑ p : Sh d, ∑ c ∈ C.S, C.muS p c * (C.gradV w p.1.1 p.1.2 c + C.gradV w p.1.2 p.1.1 c) ^ 2 ≤
      ∑ i, ∑ j, ∑ c ∈ C.S, 2 * C.modS i j c * C.gradV w i j c ^ 2 := by
    rw [sum_pairs fun i j => ∑ c ∈ C.S, 2 * C.modS i j c * C.gradV w i j c ^ 2]
    refine add_le_add (le_of_eq ?_) (Finset.sum_le_sum fun p _ => ?_)
    · rw [Finset.sum_comm]
      refine Finset.sum_congr rfl fun i _ => Finset.sum_congr rfl fun c hc => ?_
      rw [Cfg.modS, pick_self, only_pos (Cfg.mem_S.1 hc)]
    · rw [← Finset.sum_add_distrib]
      refine Finset.sum_le_sum fun c _ => ?_
      rw [Cfg.modS, Cfg.modS, pick_lt, pick_gt]
      by_cases hc : C.InnerAt (sLoc p.1.1 p.1.2) c
      · rw [only_pos hc]
        have := mul_nonneg (hC.muS p c hc)
          (sq_nonneg (C.gradV w p.1.1 p.1.2 c - C.gradV w p.1.2 p.1.1 c))
        nlinarith
      · have e1 : C.gradV w p.1.1 p.1.2 c = 0 := str_out hc
        have e2 : C.gradV w p.1.2 p.1.1 c = 0 := str_out (by rwa [sLoc_comm])
        simp [e1, e2]
  have h3 : ∑ i, ∑ j, ∑ c ∈ C.S, 2 * C.modS i j c * C.gradV w i j c ^ 2 ≤ hsum C.acc *
      ∑ i, ∑ c ∈ C.S, w.v i c ^ 2 *
        (2 * ∑ j, (1 / C.dx j) ^ 2 * wsum C.acc (sLoc i j j) j (C.modS i j) c) := by
    rw [Finset.mul_sum]
    refine Finset.sum_le_sum fun i _ => (Finset.sum_le_sum fun j _ => comp i j).trans (le_of_eq ?_)
    rw [← Finset.mul_sum, Finset.sum_comm]
    congr 1
    refine Finset.sum_congr rfl fun c _ => ?_
    rw [Finset.mul_sum, Finset.mul_sum]
  have e : ∑ i, ∑ c ∈ C.S, w.v i c ^ 2 * C.weight i c = ∑ i, ∑ c ∈ C.S,
      w.v i c ^ 2 * (X * wsum C.acc false i (only C.Inner C.lam) c) + ∑ i, ∑ c ∈ C.S, w.v i c ^ 2 *
        (2 * ∑ j, (1 / C.dx j) ^ 2 * wsum C.acc (sLoc i j j) j (C.modS i j) c) := by
    simp only [Cfg.weight, mul_add, Finset.sum_add_distrib, hX]
  unfold Cfg.gform
  rw [e, mul_add, Finset.sum_add_distrib]
  linarith

/-- If `B_i` times the weight is bounded, the form is bounded by the kinetic energy. -/
theorem gform_le_kin (hn : C.NoPml) (hC : C.Nonneg) {w : Wavefields d ℝ} (hw : C.Good w)
    (hq : C.Quiet w) {Γ : ℝ} (hΓ : ∀ i c, C.InnerAt (vLoc i) c → C.B i c * C.weight i c ≤ Γ) :
    C.gform w ≤ hsum C.acc * Γ * C.kin w := by
  have hh : 0 ≤ hsum C.acc := Finset.sum_nonneg fun _ _ => abs_nonneg _
  refine (gform_le hn hC hw).trans ?_
  rw [mul_assoc]
  refine mul_le_mul_of_nonneg_left ?_ hh
  unfold Cfg.kin
  rw [Finset.mul_sum]
  refine Finset.sum_le_sum fun i _ => ?_
  rw [Finset.mul_sum]
  refine Finset.sum_le_sum fun c _ => ?_
  by_cases hc : C.InnerAt (vLoc i) c
  · by_cases hb : C.B i c = 0
    · simp [hq i c hb]
    · have hb' : 0 < C.B i c := lt_of_le_of_ne (hC.B i c hc) (Ne.symm hb)
      have e : w.v i c ^ 2 * C.weight i c = C.B i c * C.weight i c * (w.v i c ^ 2 / C.B i c) := by
        field_simp
      rw [e]
      exact mul_le_mul_of_nonneg_right (hΓ i c hc) (by positivity)
  · simp [hw.v i c hc]

end Dw.Elastic
