import Verif.Elastic.Adjoint
import Verif.Elastic.Linear
import Verif.Acoustic.Energy

/-!
# Models given to the elastic propagator, and its energy without PML
-/

namespace Dw.Elastic

open Dw.Scalar (inject sample)
open Dw.Acoustic (inject_zero')

variable {d np mp : ℕ} {nv mv : Fin d → ℕ}

section
variable {R : Type*} [Field R] [LinearOrder R]

/-- `mu_safe` of `prepare_parameters` (`elastic.py` 40). -/
def muSafe (rfmax : R) (mu : Fld d R) : Fld d R := fun c => if rfmax < |mu c| then mu c else 1

/-- `mu_zy`, `mu_zx`, `mu_yx` of `prepare_parameters` (`elastic.py` 41-97): harmonic mean of the shear
moduli of the four cells around the point, zero if one of them is zero, padded by zeros at the end. -/
def prepareMuS (n : Fin d → ℤ) (rfmax : R) (mu : Fld d R) (p : Sh d) : Fld d R := fun c =>
  let i := p.1.1
  let j := p.1.2
  if c i + 1 < n i ∧ c j + 1 < n j then
    if rfmax < |mu ((c.shift i 1).shift j 1)| ∧ rfmax < |mu c| ∧ rfmax < |mu (c.shift i 1)| ∧
        rfmax < |mu (c.shift j 1)| then
      4 / (1 / muSafe rfmax mu ((c.shift i 1).shift j 1) + 1 / muSafe rfmax mu c
        + 1 / muSafe rfmax mu (c.shift i 1) + 1 / muSafe rfmax mu (c.shift j 1))
    else 0
  else 0

/-- `rho` of `prepare_parameters` (`elastic.py` 102-104). -/
def prepareRho (rfmax : R) (b : Fld d R) : Fld d R := fun c => if rfmax < |b c| then 1 / b c else 0

/-- `buoyancy_z`, `buoyancy_y`, `buoyancy_x` of `prepare_parameters` (`elastic.py` 106-122). -/
def prepareB (n : Fin d → ℤ) (rfmax : R) (b : Fld d R) (k : Fin d) : Fld d R :=
  Acoustic.prepareB n rfmax (prepareRho rfmax b) k

end

variable {C : Cfg d np mp nv mv ℝ}

/-- No PML. -/
def Cfg.NoPml (C : Cfg d np mp nv mv ℝ) : Prop :=
  ∀ k x, C.a k x = 0 ∧ C.b k x = 0 ∧ C.ah k x = 0 ∧ C.bh k x = 0

theorem str_nopml (hn : C.NoPml) (L : Loc d) (k : Fin d) (u m : Fld d ℝ) (c : Cell d) :
    C.str L k u m c = if C.InnerAt L c then C.D (L k) k u c else 0 := by
  obtain ⟨h1, h2, h3, h4⟩ := hn k (c k)
  have ea : C.pa (L k) k (c k) = 0 := by unfold Cfg.pa; split_ifs <;> assumption
  have eb : C.pb (L k) k (c k) = 0 := by unfold Cfg.pb; split_ifs <;> assumption
  unfold Cfg.str Cfg.mem'
  by_cases hc : C.InnerAt L c
  · simp [hc, ea, eb]
  · simp [hc]

theorem D_add (h : Bool) (k : Fin d) (u w : Fld d ℝ) (c : Cell d) :
    C.D h k (fun c => u c + w c) c = C.D h k u c + C.D h k w c := by
  cases h
  · exact cS1_add _ _ (fun j => u (c.shift k j)) fun j => w (c.shift k j)
  · exact cSH1_add _ _ (fun j => u (c.shift k j)) fun j => w (c.shift k j)

/-! ### Strain -/

/-- Strain: `n` at the integer points, `s` twice the shear strain. -/
structure Strain (d : ℕ) where
  n : Fin d → Fld d ℝ
  s : Sh d → Fld d ℝ

/-- The stresses of `w` are those of the strain `e`. -/
structure Cfg.Rel (C : Cfg d np mp nv mv ℝ) (e : Strain d) (w : Wavefields d ℝ) : Prop where
  n : ∀ i c, C.Inner c → w.s i c = C.lam c * ∑ k, e.n k c + 2 * C.mu c * e.n i c
  s : ∀ p c, w.sh p c = C.muS p c * e.s p c
  s_out : ∀ p c, ¬C.InnerAt (sLoc p.1.1 p.1.2) c → e.s p c = 0

/-- Velocities are zero where the buoyancy is. -/
def Cfg.Quiet (C : Cfg d np mp nv mv ℝ) (w : Wavefields d ℝ) : Prop := ∀ i c, C.B i c = 0 → w.v i c = 0

/-- Twice the energy of deformation in padded coordinates. -/
noncomputable def Cfg.pot (C : Cfg d np mp nv mv ℝ) (e : Strain d) (w : Wavefields d ℝ) : ℝ :=
  ∑ c ∈ C.S, ∑ i, e.n i c * w.s i c + ∑ p, ∑ c ∈ C.S, e.s p c * w.sh p c

/-- Twice the kinetic energy in padded coordinates. -/
noncomputable def Cfg.kin (C : Cfg d np mp nv mv ℝ) (w : Wavefields d ℝ) : ℝ :=
  ∑ i, ∑ c ∈ C.S, w.v i c ^ 2 / C.B i c

/-- The mixed term. -/
noncomputable def Cfg.cross (C : Cfg d np mp nv mv ℝ) (w : Wavefields d ℝ) : ℝ :=
  ∑ i, ∑ c ∈ C.S, w.v i c * C.divS w i c

/-- The strain after a step with sources `qp`: each source adds an isotropic stress. -/
noncomputable def Cfg.strainNext (C : Cfg d np mp nv mv ℝ) (qp : Fin np → ℝ) (w : Wavefields d ℝ)
    (e : Strain d) : Strain d where
  n := fun i c => e.n i c + C.dt * C.gradV w i i c + inject C.srcP qp c / (d * C.lam c + 2 * C.mu c)
  s := fun p c => e.s p c + C.dt * (C.gradV w p.1.1 p.1.2 c + C.gradV w p.1.2 p.1.1 c)

theorem rel_next (qp : Fin np → ℝ)
    (qv : (k : Fin d) → Fin (nv k) → ℝ) {e : Strain d} {w : Wavefields d ℝ} (he : C.Rel e w)
    (hq : ∀ c, C.Inner c → inject C.srcP qp c ≠ 0 → d * C.lam c + 2 * C.mu c ≠ 0) :
    C.Rel (C.strainNext qp (C.halfV qv w) e) (C.next qp qv w) where
  n := fun i c hc => by
    have e0 : (C.halfV qv w).s i c = w.s i c := rfl
    simp only [Cfg.next, Cfg.halfS, Cfg.strainNext, e0, he.n i c hc, Finset.sum_add_distrib,
      ← Finset.mul_sum, Finset.sum_const, Finset.card_univ, Fintype.card_fin, nsmul_eq_mul]
    by_cases h0 : inject C.srcP qp c = 0
    · rw [h0]; ring
    · have e1 := div_mul_cancel₀ (inject C.srcP qp c) (hq c hc h0)
      linear_combination -e1
  s := fun p c => by
    have e0 : (C.halfV qv w).sh p c = w.sh p c := rfl
    simp only [Cfg.next, Cfg.halfS, Cfg.strainNext, e0, he.s p c]
    ring
  s_out := fun p c hc => by
    have h1 : C.gradV (C.halfV qv w) p.1.1 p.1.2 c = 0 := str_out hc
    have h2 : C.gradV (C.halfV qv w) p.1.2 p.1.1 c = 0 := str_out (by rwa [sLoc_comm])
    simp [Cfg.strainNext, he.s_out p c hc, h1, h2]

theorem quiet_next (qp : Fin np → ℝ) (qv : (k : Fin d) → Fin (nv k) → ℝ) {w : Wavefields d ℝ}
    (hw : C.Quiet w) (hq : ∀ k c, C.B k c = 0 → inject (C.srcV k) (qv k) c = 0) :
    C.Quiet (C.next qp qv w) := by
  intro i c hc
  simp [Cfg.next, Cfg.halfS, Cfg.halfV, hw i c hc, hc, hq i c hc]

/-- Summation by parts for stresses `τ` and velocities `v`. -/
theorem sum_by_parts (hn : C.NoPml) {w w' : Wavefields d ℝ} (hw : C.Good w) (hw' : C.Good w') :
    ∑ i, ∑ c ∈ C.S, w'.v i c * C.divS w i c =
      -(∑ c ∈ C.S, ∑ i, C.gradV w' i i c * w.s i c +
        ∑ p : Sh d, ∑ c ∈ C.S, (C.gradV w' p.1.1 p.1.2 c + C.gradV w' p.1.2 p.1.1 c) * w.sh p c) := by
  have sig_out : ∀ i j c, ¬C.InnerAt (sLoc i j) c → w.sig i j c = 0 := by
    intro i j c hc
    unfold Wavefields.sig sigOf pick
    split_ifs with h1 h2
    · exact hw.sh _ c hc
    · exact hw.sh _ c (by rwa [sLoc_comm])
    · have : i = j := le_antisymm (not_lt.1 h2) (not_lt.1 h1)
      subst this
      exact hw.s i c (mt innerAt_diag.2 hc)
  have key : ∀ i j, dot C.S (w'.v i) (C.str (vLoc i) j (w.sig i j) (w.ms i j)) =
      -dot C.S (C.gradV w' i j) (w.sig i j) := by
    intro i j
    have e1 : dot C.S (w'.v i) (C.str (vLoc i) j (w.sig i j) (w.ms i j)) =
        dot C.S (w'.v i) (C.D (vLoc i j) j (w.sig i j)) := by
      simp only [dot]
      refine Finset.sum_congr rfl fun c _ => ?_
      by_cases hc : C.InnerAt (vLoc i) c
      · rw [str_nopml hn, if_pos hc]
      · rw [hw'.v i c hc, zero_mul, zero_mul]
    have e2 : dot C.S (C.gradV w' i j) (w.sig i j) = dot C.S (C.D (sLoc i j j) j (w'.v i)) (w.sig i j) := by
      simp only [dot]
      refine Finset.sum_congr rfl fun c _ => ?_
      by_cases hc : C.InnerAt (sLoc i j) c
      · rw [Cfg.gradV, str_nopml hn, if_pos hc]
      · rw [sig_out i j c hc, mul_zero, mul_zero]
    have e3 := dot_D (C := C) (suppAt_of (hw'.v i)) (suppAt_of (sig_out i j)) (sLoc i j j) j
    rw [sLoc_right, Bool.not_not] at e3
    rw [e1, e2, sLoc_right, e3, neg_neg]
  have h1 : ∑ i, ∑ c ∈ C.S, w'.v i c * C.divS w i c =
      ∑ i, ∑ j, -dot C.S (C.gradV w' i j) (w.sig i j) := by
    refine Finset.sum_congr rfl fun i _ => ?_
    rw [← Finset.sum_congr rfl fun j _ => key i j]
    simp only [dot, Cfg.divS, Finset.mul_sum]
    rw [Finset.sum_comm]
  have h2 := sum_pairs fun i j => dot C.S (C.gradV w' i j) (w.sig i j)
  have e1 : ∀ p : Sh d, w.sig p.1.1 p.1.2 = w.sh p := fun p => by
    simp only [Wavefields.sig, sigOf, pick_lt]
  have e2 : ∀ p : Sh d, w.sig p.1.2 p.1.1 = w.sh p := fun p => by
    simp only [Wavefields.sig, sigOf, pick_gt]
  have e3 : ∀ i, w.sig i i = w.s i := fun i => by simp [Wavefields.sig, sigOf, pick_self]
  rw [h1]
  simp only [Finset.sum_neg_distrib]
  rw [h2]
  simp only [e1, e2, e3, dot]
  rw [Finset.sum_comm]
  congr 2
  refine Finset.sum_congr rfl fun p _ => ?_
  rw [← Finset.sum_add_distrib]
  exact Finset.sum_congr rfl fun c _ => by ring

/-- Change of the deformation energy. -/
theorem pot_sub {e e' : Strain d} {w w' : Wavefields d ℝ} (he : C.Rel e w) (he' : C.Rel e' w') :
    C.pot e' w' - C.pot e w =
      ∑ c ∈ C.S, ∑ i, (e'.n i c - e.n i c) * (w'.s i c + w.s i c) +
        ∑ p, ∑ c ∈ C.S, (e'.s p c - e.s p c) * (w'.sh p c + w.sh p c) := by
  have h1 : ∀ c ∈ C.S, ∑ i, (e'.n i c - e.n i c) * (w'.s i c + w.s i c) =
      ∑ i, e'.n i c * w'.s i c - ∑ i, e.n i c * w.s i c := by
    intro c hc
    have hi := Cfg.mem_S.1 hc
    have e1 := fun i => he.n i c hi
    have e2 := fun i => he'.n i c hi
    have : ∑ i, (e'.n i c * w.s i c - e.n i c * w'.s i c) = 0 := by
      simp only [e1, e2, mul_add, Finset.sum_sub_distrib, Finset.sum_add_distrib]
      rw [← Finset.sum_mul, ← Finset.sum_mul]
      have : ∑ i, e'.n i c * (2 * C.mu c * e.n i c) = ∑ i, e.n i c * (2 * C.mu c * e'.n i c) :=
        Finset.sum_congr rfl fun _ _ => by ring
      rw [this]
      ring
    have h3 : ∑ i, (e'.n i c - e.n i c) * (w'.s i c + w.s i c) =
        ∑ i, e'.n i c * w'.s i c - ∑ i, e.n i c * w.s i c +
        ∑ i, (e'.n i c * w.s i c - e.n i c * w'.s i c) := by
      rw [← Finset.sum_sub_distrib, ← Finset.sum_add_distrib]
      exact Finset.sum_congr rfl fun _ _ => by ring
    rw [h3, this, add_zero]
  have h2 : ∀ p, ∑ c ∈ C.S, (e'.s p c - e.s p c) * (w'.sh p c + w.sh p c) =
      ∑ c ∈ C.S, e'.s p c * w'.sh p c - ∑ c ∈ C.S, e.s p c * w.sh p c := by
    intro p
    rw [← Finset.sum_sub_distrib]
    refine Finset.sum_congr rfl fun c _ => ?_
    rw [he.s, he'.s]
    ring
  rw [Finset.sum_congr rfl h1, Finset.sum_congr rfl fun p _ => h2 p, Finset.sum_sub_distrib,
    Finset.sum_sub_distrib]
  unfold Cfg.pot
  ring

/-- The energy in padded coordinates. -/
noncomputable def Cfg.energy (C : Cfg d np mp nv mv ℝ) (e : Strain d) (w : Wavefields d ℝ) : ℝ :=
  C.pot e w + C.kin w + C.dt * C.cross w

theorem divS_add (hn : C.NoPml) (w w' : Wavefields d ℝ) (i : Fin d) (c : Cell d) (s : Wavefields d ℝ)
    (h1 : ∀ i c, s.s i c = w'.s i c + w.s i c) (h2 : ∀ p c, s.sh p c = w'.sh p c + w.sh p c) :
    C.divS s i c = C.divS w' i c + C.divS w i c := by
  unfold Cfg.divS
  rw [← Finset.sum_add_distrib]
  refine Finset.sum_congr rfl fun j _ => ?_
  rw [str_nopml hn, str_nopml hn, str_nopml hn]
  split_ifs
  · rw [← D_add]
    congr 1
    funext c
    unfold Wavefields.sig sigOf pick
    split_ifs
    · exact h2 _ c
    · exact h2 _ c
    · exact h1 _ c
  · simp

theorem energy_next (h : C.WF) (hn : C.NoPml) {e : Strain d} {w : Wavefields d ℝ} (hw : C.Good w)
    (he : C.Rel e w) (hq : C.Quiet w) :
    C.energy (C.strainNext (fun _ => 0) (C.halfV (fun _ _ => 0) w) e)
      (C.next (fun _ => 0) (fun _ _ => 0) w) = C.energy e w := by
  set w' := C.next (fun _ => 0) (fun _ _ => 0) w with hw'
  set e' := C.strainNext (fun _ => 0) (C.halfV (fun _ _ => 0) w) e with he'
  have g' : C.Good w' := next_good h _ _ hw
  have r' : C.Rel e' w' := rel_next _ _ he fun c _ h0 => absurd (inject_zero' _ c) h0
  have q' : C.Quiet w' := quiet_next _ _ hq fun k c _ => inject_zero' _ c
  let s : Wavefields d ℝ := ⟨w'.v, fun i c => w'.s i c + w.s i c, fun p c => w'.sh p c + w.sh p c,
    w.mv, w.ms⟩
  have gs : C.Good s := ⟨g'.v, fun i c hc => by simp [s, g'.s i c hc, hw.s i c hc],
    fun p c hc => by simp [s, g'.sh p c hc, hw.sh p c hc], hw.mv, hw.ms, hw.mv_mid, hw.ms_mid⟩
  have hgrad : ∀ i j c, C.gradV (C.halfV (fun _ _ => 0) w) i j c = C.gradV w' i j c := by
    intro i j c
    simp only [Cfg.gradV, str_nopml hn]
    rfl
  have en : ∀ i c, e'.n i c - e.n i c = C.dt * C.gradV w' i i c := by
    intro i c
    simp only [he', Cfg.strainNext, inject_zero', hgrad]
    ring
  have es : ∀ p c, e'.s p c - e.s p c =
      C.dt * (C.gradV w' p.1.1 p.1.2 c + C.gradV w' p.1.2 p.1.1 c) := by
    intro p c
    simp only [he', Cfg.strainNext, hgrad]
    ring
  have hp := pot_sub he r'
  simp only [en, es] at hp
  have hsum := sum_by_parts hn gs g'
  have hdiv : ∀ i c, C.divS s i c = C.divS w' i c + C.divS w i c := fun i c =>
    divS_add hn w w' i c s (fun _ _ => rfl) fun _ _ => rfl
  simp only [hdiv] at hsum
  have hk : C.kin w' + C.dt * C.cross w' - (C.kin w + C.dt * C.cross w) =
      C.dt * ∑ i, ∑ c ∈ C.S, w'.v i c * (C.divS w' i c + C.divS w i c) := by
    unfold Cfg.kin Cfg.cross
    simp only [Finset.mul_sum]
    simp only [← Finset.sum_add_distrib, ← Finset.sum_sub_distrib]
    refine Finset.sum_congr rfl fun i _ => Finset.sum_congr rfl fun c _ => ?_
    have ev : w'.v i c = w.v i c + C.B i c * C.dt * C.divS w i c := by
      simp only [hw', Cfg.next, Cfg.halfS, Cfg.halfV, inject_zero', add_zero]
    by_cases hb : C.B i c = 0
    · rw [q' i c hb, hq i c hb]; ring
    · have e2 : C.dt * C.divS w i c = (w'.v i c - w.v i c) / C.B i c := by
        rw [ev]; field_simp; ring
      have : C.dt * (w'.v i c * (C.divS w' i c + C.divS w i c)) =
          C.dt * (w'.v i c * C.divS w' i c) + w'.v i c * (C.dt * C.divS w i c) := by ring
      rw [this]
      have : C.dt * (w.v i c * C.divS w i c) = w.v i c * (C.dt * C.divS w i c) := by ring
      rw [this, e2]
      field_simp
      ring
  have hp2 : C.pot e' w' - C.pot e w = C.dt * (∑ c ∈ C.S, ∑ i, C.gradV w' i i c * s.s i c +
        ∑ p : Sh d, ∑ c ∈ C.S, (C.gradV w' p.1.1 p.1.2 c + C.gradV w' p.1.2 p.1.1 c) * s.sh p c) := by
    rw [hp, mul_add]
    simp only [Finset.mul_sum, mul_assoc, s]
  rw [hsum] at hk
  unfold Cfg.energy
  linarith

end Dw.Elastic
