import Verif.Elastic.EnergyBound
import Verif.Props.AcousticEnergy

/-!
# The elastic energy for models and wavefields of the user
-/

namespace Dw.Elastic

open Dw.Scalar (inject sample)
open Dw.Acoustic (zeroExt cfl_sq hwt_range)

variable {d np mp : ℕ} {nv mv : Fin d → ℕ} {C : Cfg d np mp nv mv ℝ}

/-- Shape, for the user, of a quantity at `L`: one point fewer in the dimensions in which it lies at half
points. -/
def Cfg.shapeAt (C : Cfg d np mp nv mv ℝ) (L : Loc d) : Fin d → ℤ :=
  fun k => C.n k - 2 * (C.acc.order / 2 : ℕ) + 1 - if L k then 1 else 0

/-- Index in the padded models of a cell of the user's shape. -/
def Cfg.at (C : Cfg d np mp nv mv ℝ) (c : Cell d) : Cell d := fun k => c k + (C.acc.order / 2 : ℕ)

/-- The integer points. -/
def nLoc (d : ℕ) : Loc d := fun _ => false

/-- Twice the energy density of normal stresses `σ` in a medium with moduli `lam`, `mu`: deviatoric and
isotropic part. -/
noncomputable def density (lam mu : ℝ) (σ : Fin d → ℝ) : ℝ :=
  let m := (∑ i, σ i) / d
  ∑ i, (σ i - m) ^ 2 / (2 * mu) + d * m ^ 2 / (d * lam + 2 * mu)

/-- Twice the sum of the energies of deformation and motion of wavefields of the user's shape, per volume
of a cell. -/
noncomputable def Cfg.userNorm (C : Cfg d np mp nv mv ℝ) (v s : Fin d → Fld d ℝ) (sh : Sh d → Fld d ℝ) : ℝ :=
  ∑ c ∈ box (fun _ => 0) (C.shapeAt (nLoc d)), density (C.lam (C.at c)) (C.mu (C.at c)) (fun i => s i c) +
    ∑ p : Sh d, ∑ c ∈ box (fun _ => 0) (C.shapeAt (sLoc p.1.1 p.1.2)), sh p c ^ 2 / C.muS p (C.at c) +
    ∑ i, ∑ c ∈ box (fun _ => 0) (C.shapeAt (vLoc i)), v i c ^ 2 / C.B i (C.at c)

/-- Divergence of row `i` of the stress, for the user. -/
noncomputable def Cfg.userDiv (C : Cfg d np mp nv mv ℝ) (s : Fin d → Fld d ℝ) (sh : Sh d → Fld d ℝ)
    (i : Fin d) (c : Cell d) : ℝ :=
  ∑ j, cD C.acc (vLoc i j) (1 / C.dx j) fun x =>
    zeroExt (C.shapeAt (sLoc i j)) (sigOf s sh i j) (c.shift j x)

/-- The same with the kinetic energy taken between two time levels. -/
noncomputable def Cfg.userEnergy (C : Cfg d np mp nv mv ℝ) (v s : Fin d → Fld d ℝ) (sh : Sh d → Fld d ℝ) :
    ℝ :=
  C.userNorm v s sh +
    C.dt * ∑ i, ∑ c ∈ box (fun _ => 0) (C.shapeAt (vLoc i)), v i c * C.userDiv s sh i c

/-- Wavefields that the medium can carry: in a fluid the normal stresses are equal and the shear stress is
zero, in a vacuum the stresses are zero, and velocity is zero where there is no mass. -/
structure Cfg.Admissible (C : Cfg d np mp nv mv ℝ) (v s : Fin d → Fld d ℝ) (sh : Sh d → Fld d ℝ) : Prop where
  fluid : ∀ c ∈ box (fun _ => 0) (C.shapeAt (nLoc d)), C.mu (C.at c) = 0 → ∀ i j, s i c = s j c
  vacuum : ∀ c ∈ box (fun _ => 0) (C.shapeAt (nLoc d)), C.mu (C.at c) = 0 → C.lam (C.at c) = 0 →
    ∀ i, s i c = 0
  shear : ∀ p : Sh d, ∀ c ∈ box (fun _ => 0) (C.shapeAt (sLoc p.1.1 p.1.2)), C.muS p (C.at c) = 0 →
    sh p c = 0
  mass : ∀ i, ∀ c ∈ box (fun _ => 0) (C.shapeAt (vLoc i)), C.B i (C.at c) = 0 → v i c = 0

theorem Cfg.at_innerAt {L : Loc d} {c : Cell d} :
    C.InnerAt L (C.at c) ↔ c ∈ box (fun _ => 0) (C.shapeAt L) := by
  rw [mem_box]
  constructor
  · rintro ⟨h1, h2⟩ k
    have := h1 k
    have := h2 k
    simp only [Cfg.at, Cfg.shapeAt, Acc.order_div_two] at *
    split_ifs with h
    · have := this h; constructor <;> omega
    · constructor <;> omega
  · intro h
    refine ⟨fun k => ?_, fun k hk => ?_⟩
    · have := h k
      simp only [Cfg.at, Cfg.shapeAt, Acc.order_div_two] at *
      split_ifs at this <;> constructor <;> omega
    · have := h k
      simp only [Cfg.at, Cfg.shapeAt, Acc.order_div_two, hk, if_true] at *
      omega

theorem Cfg.at_surj (c : Cell d) : C.at (fun k => c k - (C.acc.order / 2 : ℕ)) = c := by
  funext k; simp [Cfg.at]

theorem innerAt_nLoc {c : Cell d} : C.InnerAt (nLoc d) c ↔ C.Inner c := by simp [Cfg.InnerAt, nLoc]

theorem Cfg.sum_at (L : Loc d) (F : Fld d ℝ) (hF : ∀ c, ¬C.InnerAt L c → F c = 0) :
    ∑ c ∈ C.S, F c = ∑ c ∈ box (fun _ => 0) (C.shapeAt L), F (C.at c) := by
  have e : ∑ c ∈ C.S, F c = ∑ c ∈ C.S with C.InnerAt L c, F c := by
    rw [Finset.sum_filter]
    refine Finset.sum_congr rfl fun c _ => ?_
    by_cases hc : C.InnerAt L c
    · rw [if_pos hc]
    · rw [if_neg hc, hF c hc]
  rw [e]
  symm
  refine Finset.sum_bij (fun c _ => C.at c) ?_ ?_ ?_ ?_
  · intro c hc
    have := Cfg.at_innerAt.2 hc
    exact Finset.mem_filter.2 ⟨Cfg.mem_S.2 this.1, this⟩
  · intro c _ c' _ h
    funext k
    have := congrFun h k
    simpa [Cfg.at] using this
  · intro c hc
    refine ⟨fun k => c k - (C.acc.order / 2 : ℕ), Cfg.at_innerAt.1 ?_, C.at_surj c⟩
    rw [C.at_surj]
    exact (Finset.mem_filter.1 hc).2
  · intro c _; rfl

/-- Wavefields of the user's shape that agree with padded ones. -/
structure Cfg.Same (C : Cfg d np mp nv mv ℝ) (v s : Fin d → Fld d ℝ) (sh : Sh d → Fld d ℝ)
    (w : Wavefields d ℝ) : Prop where
  v : ∀ i, ∀ c ∈ box (fun _ => 0) (C.shapeAt (vLoc i)), w.v i (C.at c) = v i c
  s : ∀ i, ∀ c ∈ box (fun _ => 0) (C.shapeAt (nLoc d)), w.s i (C.at c) = s i c
  sh : ∀ p : Sh d, ∀ c ∈ box (fun _ => 0) (C.shapeAt (sLoc p.1.1 p.1.2)), w.sh p (C.at c) = sh p c

theorem zeroEdges_at {L : Loc d} (u : Option (Fld d ℝ)) {c : Cell d}
    (hc : c ∈ box (fun _ => 0) (C.shapeAt L)) :
    C.zeroEdges L (C.createOrPad u) (C.at c) = u.getD (fun _ => 0) c := by
  have hi := Cfg.at_innerAt.2 hc
  have hs : (fun k => C.at c k - (C.acc.pad : ℤ)) = c := by
    funext k; simp [Cfg.at, Acc.order_div_two]
  have hne : ¬∃ k, L k = true ∧ C.at c k = C.n k - C.acc.pad := by
    rintro ⟨k, h1, h2⟩
    have := hi.2 k h1
    omega
  rw [Cfg.zeroEdges, if_neg hne]
  cases u with
  | none => rfl
  | some u => simp only [Cfg.createOrPad, if_pos hi.1, hs, Option.getD_some]

theorem createOrPad_at (u : Option (Fld d ℝ)) {c : Cell d}
    (hc : c ∈ box (fun _ => 0) (C.shapeAt (nLoc d))) :
    C.createOrPad u (C.at c) = u.getD (fun _ => 0) c := by
  rw [← zeroEdges_at u hc, Cfg.zeroEdges, if_neg]
  rintro ⟨k, h1, -⟩
  cases h1

theorem same_prepare (w : Init d ℝ) : C.Same (fun i => (w.v i).getD fun _ => 0)
    (fun i => (w.s i).getD fun _ => 0) (fun p => (w.sh p).getD fun _ => 0) (C.prepare w) where
  v := fun _ _ hc => zeroEdges_at _ hc
  s := fun _ _ hc => createOrPad_at _ hc
  sh := fun _ _ hc => zeroEdges_at _ hc

theorem same_unpad (w : Wavefields d ℝ) :
    C.Same (C.unpadAll w).v (C.unpadAll w).s (C.unpadAll w).sh w := by
  have e : ∀ (u : Fld d ℝ) c, u (C.at c) = C.unpad u c := fun u c => by
    unfold Cfg.unpad Cfg.at
    simp only [Acc.order_div_two]
  exact ⟨fun i c _ => e _ c, fun i c _ => e _ c, fun p c _ => e _ c⟩

/-! ### Strain of a stress -/

/-- The strain belonging to the stresses. -/
noncomputable def Cfg.strainOf (C : Cfg d np mp nv mv ℝ) (w : Wavefields d ℝ) : Strain d where
  n := fun i c => (w.s i c - (∑ k, w.s k c) / d) / (2 * C.mu c) +
    (∑ k, w.s k c) / d / (d * C.lam c + 2 * C.mu c)
  s := fun p c => w.sh p c / C.muS p c

theorem sum_dev {σ : Fin d → ℝ} : ∑ i, (σ i - (∑ k, σ k) / d) = 0 := by
  rw [Finset.sum_sub_distrib, Finset.sum_const, Finset.card_univ, Fintype.card_fin, nsmul_eq_mul]
  rcases Nat.eq_zero_or_pos d with h | h
  · subst h; simp
  · have : (d : ℝ) ≠ 0 := by exact_mod_cast h.ne'
    field_simp
    ring

theorem rel_strainOf (hC : C.Nonneg) {w : Wavefields d ℝ} (hw : C.Good w) {v s : Fin d → Fld d ℝ}
    {sh : Sh d → Fld d ℝ} (hs : C.Same v s sh w) (ha : C.Admissible v s sh) :
    C.Rel (C.strainOf w) w where
  n := fun i c hc => by
    have hd : (0 : ℝ) < d := by exact_mod_cast i.pos
    have hl := hC.lam c hc
    have hm := hC.mu c hc
    set m := (∑ k, w.s k c) / d with hm'
    have hdm : (d : ℝ) * m = ∑ k, w.s k c := by rw [hm']; field_simp
    have hx : (fun k => c k - (C.acc.order / 2 : ℕ)) ∈ box (fun _ => 0) (C.shapeAt (nLoc d)) := by
      rw [← Cfg.at_innerAt, C.at_surj]
      exact innerAt_nLoc.2 hc
    have es : ∑ k, (C.strainOf w).n k c = d * (m / (d * C.lam c + 2 * C.mu c)) := by
      simp only [Cfg.strainOf, Finset.sum_add_distrib, Finset.sum_const, Finset.card_univ,
        Fintype.card_fin, nsmul_eq_mul]
      simp only [div_eq_mul_inv (w.s _ c - _)]
      rw [← Finset.sum_mul, sum_dev (σ := fun k => w.s k c)]
      simp [m]
    rw [es]
    simp only [Cfg.strainOf, ← hm']
    by_cases h0 : C.mu c = 0
    · have hall : ∀ k, w.s k c = w.s i c := by
        intro k
        have h1 := ha.fluid _ hx (by rw [C.at_surj]; exact h0) k i
        rw [← hs.s _ _ hx, ← hs.s _ _ hx, C.at_surj] at h1
        exact h1
      have hmi : m = w.s i c := by
        rw [hm', Finset.sum_congr rfl fun k _ => hall k]
        simp
        field_simp
      rw [hmi, h0]
      by_cases hl0 : C.lam c = 0
      · have h1 := ha.vacuum _ hx (by rw [C.at_surj]; exact h0) (by rw [C.at_surj]; exact hl0) i
        rw [← hs.s _ _ hx, C.at_surj] at h1
        rw [h1]; simp
      · field_simp
        simp
    · have hm0 : 0 < C.mu c := lt_of_le_of_ne hm (Ne.symm h0)
      have : 0 < d * C.lam c + 2 * C.mu c := by positivity
      field_simp
      ring
  s := fun p c => by
    simp only [Cfg.strainOf]
    by_cases h0 : C.muS p c = 0
    · by_cases hc : C.InnerAt (sLoc p.1.1 p.1.2) c
      · have hx : (fun k => c k - (C.acc.order / 2 : ℕ)) ∈
            box (fun _ => 0) (C.shapeAt (sLoc p.1.1 p.1.2)) := by
          rwa [← Cfg.at_innerAt, C.at_surj]
        have h1 := ha.shear p _ hx (by rw [C.at_surj]; exact h0)
        rw [← hs.sh p _ hx, C.at_surj] at h1
        simp [h1]
      · simp [hw.sh p c hc]
    · field_simp
  s_out := fun p c hc => by simp [Cfg.strainOf, hw.sh p c hc]

theorem quiet_of {w : Wavefields d ℝ} (hw : C.Good w) {v s : Fin d → Fld d ℝ}
    {sh : Sh d → Fld d ℝ} (hs : C.Same v s sh w) (ha : C.Admissible v s sh) : C.Quiet w := by
  intro i c h0
  by_cases hc : C.InnerAt (vLoc i) c
  · have hx : (fun k => c k - (C.acc.order / 2 : ℕ)) ∈ box (fun _ => 0) (C.shapeAt (vLoc i)) := by
      rwa [← Cfg.at_innerAt, C.at_surj]
    have h1 := ha.mass i _ hx (by rw [C.at_surj]; exact h0)
    rwa [← hs.v i _ hx, C.at_surj] at h1
  · exact hw.v i c hc

theorem admissible_of {e : Strain d} {w : Wavefields d ℝ} (he : C.Rel e w) (hq : C.Quiet w)
    {v s : Fin d → Fld d ℝ} {sh : Sh d → Fld d ℝ} (hs : C.Same v s sh w) : C.Admissible v s sh where
  fluid := fun c hc h0 i j => by
    have hi := innerAt_nLoc.1 (Cfg.at_innerAt.2 hc)
    rw [← hs.s i c hc, ← hs.s j c hc, he.n i _ hi, he.n j _ hi, h0]
    ring
  vacuum := fun c hc h0 h1 i => by
    have hi := innerAt_nLoc.1 (Cfg.at_innerAt.2 hc)
    rw [← hs.s i c hc, he.n i _ hi, h0, h1]
    ring
  shear := fun p c hc h0 => by rw [← hs.sh p c hc, he.s, h0, zero_mul]
  mass := fun i c hc h0 => by rw [← hs.v i c hc, hq i _ h0]

/-- The deformation energy does not depend on the strain chosen. -/
theorem pot_unique {e e' : Strain d} {w : Wavefields d ℝ} (he : C.Rel e w) (he' : C.Rel e' w) :
    C.pot e' w = C.pot e w := by
  have h := pot_sub he he'
  have h2 : ∑ c ∈ C.S, ∑ i, (e'.n i c - e.n i c) * (w.s i c + w.s i c) +
        ∑ p, ∑ c ∈ C.S, (e'.s p c - e.s p c) * (w.sh p c + w.sh p c) =
      2 * (C.pot e' w - C.pot e w) := by
    unfold Cfg.pot
    rw [add_sub_add_comm, mul_add, ← Finset.sum_sub_distrib, ← Finset.sum_sub_distrib, Finset.mul_sum,
      Finset.mul_sum]
    congr 1
    · refine Finset.sum_congr rfl fun c _ => ?_
      rw [← Finset.sum_sub_distrib, Finset.mul_sum]
      exact Finset.sum_congr rfl fun i _ => by ring
    · refine Finset.sum_congr rfl fun p _ => ?_
      rw [← Finset.sum_sub_distrib, Finset.mul_sum]
      exact Finset.sum_congr rfl fun i _ => by ring
  rw [h2] at h
  linarith

theorem density_eq (lam mu : ℝ) (σ : Fin d → ℝ) :
    ∑ i, ((σ i - (∑ k, σ k) / d) / (2 * mu) + (∑ k, σ k) / d / (d * lam + 2 * mu)) * σ i =
      density lam mu σ := by
  have hz := sum_dev (σ := σ)
  rcases Nat.eq_zero_or_pos d with h | h
  · subst h; simp [density]
  have hd : (d : ℝ) ≠ 0 := by exact_mod_cast h.ne'
  unfold density
  set m := (∑ k, σ k) / d with hm
  have hdm : ∑ k, σ k = d * m := by rw [hm]; field_simp
  have e1 : ∑ i, ((σ i - m) / (2 * mu) + m / (d * lam + 2 * mu)) * σ i =
      ∑ i, (σ i - m) ^ 2 / (2 * mu) + m / (2 * mu) * ∑ i, (σ i - m) +
        m / (d * lam + 2 * mu) * ∑ i, σ i := by
    rw [Finset.mul_sum, Finset.mul_sum, ← Finset.sum_add_distrib, ← Finset.sum_add_distrib]
    refine Finset.sum_congr rfl fun i _ => ?_
    ring
  rw [e1, hz, hdm]
  ring

theorem norm_user {e : Strain d} {w : Wavefields d ℝ} (hw : C.Good w) (he : C.Rel e w)
    (hC : C.Nonneg) (hq : C.Quiet w) {v s : Fin d → Fld d ℝ} {sh : Sh d → Fld d ℝ}
    (hs : C.Same v s sh w) : C.userNorm v s sh = C.pot e w + C.kin w := by
  have hr := rel_strainOf hC hw hs (admissible_of he hq hs)
  rw [← pot_unique he hr]
  unfold Cfg.userNorm Cfg.pot Cfg.kin
  congr 1
  · congr 1
    · rw [Cfg.sum_at (nLoc d)]
      · refine Finset.sum_congr rfl fun c hc => ?_
        have e1 : (fun i => s i c) = fun i => w.s i (C.at c) := by
          funext i; rw [hs.s i c hc]
        rw [e1, ← density_eq]
        rfl
      · intro c hc
        refine Finset.sum_eq_zero fun i _ => ?_
        rw [hw.s i c fun h => hc (innerAt_nLoc.2 h), mul_zero]
    · refine Finset.sum_congr rfl fun p _ => ?_
      rw [Cfg.sum_at (sLoc p.1.1 p.1.2)]
      · refine Finset.sum_congr rfl fun c hc => ?_
        rw [← hs.sh p c hc]
        simp only [Cfg.strainOf]
        ring
      · intro c hc
        rw [hw.sh p c hc, mul_zero]
  · refine Finset.sum_congr rfl fun i _ => ?_
    rw [Cfg.sum_at (vLoc i)]
    · refine Finset.sum_congr rfl fun c hc => ?_
      rw [hs.v i c hc]
    · intro c hc
      rw [hw.v i c hc]; simp

theorem sig_at {w : Wavefields d ℝ} (hw : C.Good w) {v s : Fin d → Fld d ℝ} {sh : Sh d → Fld d ℝ}
    (hs : C.Same v s sh w) (i j : Fin d) (c : Cell d) :
    w.sig i j (C.at c) = zeroExt (C.shapeAt (sLoc i j)) (sigOf s sh i j) c := by
  have hz : zeroExt (C.shapeAt (sLoc i j)) (sigOf s sh i j) c =
      if ∀ k, 0 ≤ c k ∧ c k < C.shapeAt (sLoc i j) k then sigOf s sh i j c else 0 := by
    unfold zeroExt; congr
  by_cases hc : c ∈ box (fun _ => 0) (C.shapeAt (sLoc i j))
  · rw [hz, if_pos (mem_box.1 hc)]
    unfold Wavefields.sig sigOf pick
    split_ifs with h1 h2
    · exact hs.sh ⟨(i, j), h1⟩ c hc
    · exact hs.sh ⟨(j, i), h2⟩ c (by rw [sLoc_comm]; exact hc)
    · have : i = j := le_antisymm (not_lt.1 h2) (not_lt.1 h1)
      subst this
      rw [sLoc_diag] at hc
      exact hs.s i c hc
  · rw [hz, if_neg fun h => hc (mem_box.2 h)]
    have hn : ¬C.InnerAt (sLoc i j) (C.at c) := fun h => hc (Cfg.at_innerAt.1 h)
    unfold Wavefields.sig sigOf pick
    split_ifs with h1 h2
    · exact hw.sh _ _ hn
    · exact hw.sh _ _ (by rwa [sLoc_comm])
    · have : i = j := le_antisymm (not_lt.1 h2) (not_lt.1 h1)
      subst this
      exact hw.s i _ (mt innerAt_diag.2 hn)

theorem energy_user (hn : C.NoPml) {e : Strain d} {w : Wavefields d ℝ} (hw : C.Good w)
    (he : C.Rel e w) (hC : C.Nonneg) (hq : C.Quiet w) {v s : Fin d → Fld d ℝ} {sh : Sh d → Fld d ℝ}
    (hs : C.Same v s sh w) : C.userEnergy v s sh = C.energy e w := by
  unfold Cfg.userEnergy Cfg.energy
  rw [norm_user hw he hC hq hs]
  congr 2
  unfold Cfg.cross
  refine Finset.sum_congr rfl fun i _ => ?_
  rw [Cfg.sum_at (vLoc i)]
  · refine Finset.sum_congr rfl fun c hc => ?_
    rw [hs.v i c hc]
    congr 1
    unfold Cfg.userDiv Cfg.divS
    refine Finset.sum_congr rfl fun j _ => ?_
    rw [str_nopml hn, if_pos (Cfg.at_innerAt.2 hc), Cfg.D]
    congr 1
    funext x
    rw [← sig_at hw hs]
    congr 1
    funext k
    simp only [Cfg.at, Cell.shift, Pi.add_apply]
    ring
  · intro c hc
    rw [hw.v i c hc, zero_mul]

end Dw.Elastic
