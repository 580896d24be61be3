import Verif.Props.UserScale
import Verif.Props.UserNear

/-!
# C136: the sign of the velocity; C137: the scale of the density

Only the square of the velocity appears in the wave equations, so its sign does not matter to `scalar`, `scalar_born` and
`acoustic`.  Multiplying the density and the elastic moduli by a number multiplies pressures and stresses by it if forces are
multiplied by it, and leaves the particle velocities as they were.
-/

namespace Dw.Spec

variable {d : ℕ} {G : Grid d}

theorem Grid.Wave.sq {vel vel' : Fld d ℝ} {q : ℕ → Fld d ℝ} {u : ℕ → Fld d ℝ} {psi zeta : ℕ → Fin d → Fld d ℝ}
    (h : G.Wave vel q u psi zeta) (hv : ∀ c, vel' c ^ 2 = vel c ^ 2) : G.Wave vel' q u psi zeta :=
  { h with wave := fun t c hc => by rw [hv c]; exact h.wave t c hc }

theorem Grid.Scattered.sq {vel vel' scat scat' : Fld d ℝ} {q : ℕ → Fld d ℝ} {u : ℕ → Fld d ℝ}
    {psi zeta : ℕ → Fin d → Fld d ℝ} {w : ℕ → Fld d ℝ} {ps ze : ℕ → Fin d → Fld d ℝ}
    (h : G.Scattered vel scat q u psi zeta w ps ze) (hv : ∀ c, vel' c ^ 2 = vel c ^ 2)
    (hs : ∀ c, vel' c * scat' c = vel c * scat c) : G.Scattered vel' scat' q u psi zeta w ps ze :=
  { h with wave := fun t c hc => by rw [hv c, mul_assoc 2, hs c, ← mul_assoc 2]; exact h.wave t c hc }

theorem Grid.DH_times (k : Fin d) (a : ℝ) (u : Fld d ℝ) (c : Cell d) : G.DH k (fun c => a * u c) c = a * G.DH k u c :=
  Grid.D_smul (G := G) true k a u c

/-- Bulk modulus and density multiplied by `l`. -/
theorem Grid.Acoustic.denser {K : Fld d ℝ} {B : Fin d → Fld d ℝ} {qp : ℕ → Fld d ℝ} {qv : ℕ → Fin d → Fld d ℝ}
    {p : ℕ → Fld d ℝ} {v phi psi : ℕ → Fin d → Fld d ℝ} (h : G.Acoustic K B qp qv p v phi psi) {l : ℝ} (hl : l ≠ 0) :
    G.Acoustic (fun c => l * K c) (fun k c => 1 / l * B k c) qp (fun t k c => l * qv t k c) (fun t c => l * p t c) v phi
      fun t k c => l * psi t k c := by
  refine ⟨fun t c => ⟨fun hc => ⟨by rw [((h.outside t c).1 hc).1, mul_zero], ((h.outside t c).1 hc).2⟩,
    fun k hc => ⟨((h.outside t c).2 k hc).1, by rw [((h.outside t c).2 k hc).2, mul_zero]⟩⟩, fun t k c hc => ?_,
    fun t k c hc => ?_, h.phi_next, fun t c hc => ?_⟩
  · rw [Grid.DH_times, h.psi_next t k c hc]
    ring
  · rw [Grid.DH_times, h.velocity t k c hc]
    field_simp
  · rw [h.pressure t c hc]
    ring

/-- Elastic moduli and density multiplied by `l`. -/
theorem Grid.Elastic.denser {lam mu : Fld d ℝ} {muS : Fin d → Fin d → Fld d ℝ} {B : Fin d → Fld d ℝ}
    {qp : ℕ → Fld d ℝ} {qv v : ℕ → Fin d → Fld d ℝ} {sig mv ms : ℕ → Fin d → Fin d → Fld d ℝ}
    (h : G.Elastic lam mu muS B qp qv v sig mv ms) {l : ℝ} (hl : l ≠ 0) :
    G.Elastic (fun c => l * lam c) (fun c => l * mu c) (fun i j c => l * muS i j c) (fun k c => 1 / l * B k c)
      (fun t c => l * qp t c) (fun t k c => l * qv t k c) v (fun t i j c => l * sig t i j c) mv
      fun t i j c => l * ms t i j c := by
  refine ⟨fun t i j => by rw [h.symm t i j], fun t i c => ⟨fun hc => ⟨((h.outside t i c).1 hc).1, fun j => ?_⟩,
    fun j hc => ⟨?_, ((h.outside t i c).2 j hc).2⟩⟩, fun t i j c hc => ?_, fun t i c hc => ?_, h.mv_next, fun t i c hc => ?_,
    fun t i j c hij hc => ?_⟩
  · rw [((h.outside t i c).1 hc).2 j, mul_zero]
  · rw [((h.outside t i c).2 j hc).1, mul_zero]
  · rw [Grid.D_smul, h.ms_next t i j c hc]
    ring
  · rw [h.velocity t i c hc]
    have e : ∑ j, (G.D (atV i j) j (fun c => l * sig t i j c) c + l * ms (t + 1) i j c) =
        l * ∑ j, (G.D (atV i j) j (sig t i j) c + ms (t + 1) i j c) := by
      rw [Finset.mul_sum]
      exact Finset.sum_congr rfl fun j _ => by rw [Grid.D_smul]; ring
    rw [e]
    field_simp
  · rw [h.normal t i c hc]
    ring
  · rw [h.shear t i j c hij hc]
    ring

/-- The inverse of a density, both of them above the threshold. -/
theorem inverse_times {small x l : ℝ} (h : small < x) (h' : small < l * x) : inverse small (l * x) = 1 / l * inverse small x := by
  unfold inverse
  rw [if_pos (h.trans_le (le_abs_self x)), if_pos (h'.trans_le (le_abs_self _)), one_div_mul_one_div]

theorem mean_times (l : ℝ) (m : Fld d ℝ) (k : Fin d) (c : Cell d) : mean (fun c => l * m c) k c = l * mean m k c := by
  unfold mean
  ring

theorem lt_mean {small : ℝ} {m : Fld d ℝ} (h : ∀ c, small < m c) (k : Fin d) (c : Cell d) : small < mean m k c := by
  unfold mean
  linarith [h c, h (c.shift k 1)]

theorem harmonic_times {small l : ℝ} {m : Fld d ℝ} (h : ∀ c, small < |l * m c| ↔ small < |m c|) (i j : Fin d) (c : Cell d) :
    harmonic small (fun c => l * m c) i j c = l * harmonic small m i j c := by
  unfold harmonic
  simp only [List.forall_mem_cons, List.map_cons, List.map_nil, List.sum_cons, List.sum_nil, add_zero, h]
  split_ifs
  · have e : 1 / (l * m c) + (1 / (l * m (c.shift i 1)) + (1 / (l * m (c.shift j 1)) + 1 / (l * m ((c.shift i 1).shift j 1)))) =
        1 / l * (1 / m c + (1 / m (c.shift i 1) + (1 / m (c.shift j 1) + 1 / m ((c.shift i 1).shift j 1)))) := by
      simp only [one_div, mul_inv]
      ring
    rw [e, div_mul_eq_div_div]
    simp only [one_div, div_inv_eq_mul]
    ring
  · rw [mul_zero]

end Dw.Spec

namespace Dw.Setup

open Scalar (upAmps downS)
open Resample (Sig)

variable {d : ℕ}

/-- Models with the same absolute values. -/
structure ModelT.SameAbs (m m' : ModelT d ℝ) : Prop where
  nb : m'.nb = m.nb
  shape : m'.shape = m.shape
  abs : ∀ s c, |m'.val s c| = |m.val s c|

theorem ModelT.SameAbs.shot {m m' : ModelT d ℝ} (h : m.SameAbs m') (s : ℕ) (c : Cell d) : m'.shot s c ^ 2 = m.shot s c ^ 2 := by
  unfold ModelT.shot
  rw [h.nb]
  exact sq_eq_sq_iff_abs_eq_abs _ _ |>.2 (h.abs _ c)

theorem ModelT.SameAbs.max {m m' : ModelT d ℝ} (h : m.SameAbs m') : Scalar.maxAbs m' = Scalar.maxAbs m := by
  unfold Scalar.maxAbs
  rw [h.nb, h.shape]
  simp only [h.abs]

/-- The model multiplied by a number. -/
def ModelT.times (x : ℝ) (m : ModelT d ℝ) : ModelT d ℝ := { m with val := fun s c => x * m.val s c }

theorem ModelT.times_neg (m : ModelT d ℝ) : m.SameAbs (m.times (-1)) :=
  ⟨rfl, rfl, fun s c => by show |-1 * m.val s c| = _; rw [neg_one_mul, abs_neg]⟩

/-- A trace multiplied by a number. -/
def _root_.Dw.Resample.Sig.times (x : ℝ) (y : Sig ℝ) : Sig ℝ := ⟨y.len, fun t => x * y.val t⟩

theorem downS_times {A : SetupArgs d} {P : Plan d} (h : A.Good P) (tt : Bool) (l : ℝ) {n : ℕ} {x y : ℕ → ℝ}
    (hy : ∀ t < n, y t = l * x t) :
    downS P tt ⟨P.nt.toNat, fun t => if t < n then y t else 0⟩ =
      (downS P tt ⟨P.nt.toNat, fun t => if t < n then x t else 0⟩).times l := by
  have e := Scalar.downS_comb h tt l 0 (fun t => if t < n then x t else 0) fun t => if t < n then x t else 0
  simp only [zero_mul, add_zero, Sig.comb] at e
  refine Eq.trans ?_ e
  congr 2
  funext t
  split_ifs with ht
  · exact hy t ht
  · rw [mul_zero]

theorem locSum_times' {A : SetupArgs d} {P : Plan d} (h : A.Good P) (tt : Bool) (x : ℝ) (o : Option LocT) (a : Option AmpT)
    (s t : ℕ) : (locSum (d := d) o s fun i => upAmps P tt (a.map (AmpT.times x)) s t i) =
      fun c => x * locSum o s (fun i => upAmps P tt a s t i) c := by
  funext c
  exact locSum_scale (m := fun _ => x) c fun i _ c _ => upAmps_times h tt x a s t i

end Dw.Setup

namespace Dw.Scalar

open Setup Resample

variable {d : ℕ}

/-- **C136** Traces and final wavefields of `scalar` only depend on the absolute value of the velocity. -/
theorem C136_abs_velocity (A : UArgs d) (P : Plan d) (s : ℕ) (cf : ℤ) (h : Fwd A P s cf) (v : ModelT d ℝ)
    (hv : A.v.SameAbs v) :
    ∃ r r', A.scalar s = .ok (some r) ∧ ({A with v := v} : UArgs d).scalar s = .ok (some r') ∧ r'.out = r.out ∧
      ∀ i < locCount A.rcv, r'.traces i = r.traces i := by
  have hnb : 0 < P.nb := by have := h.lt; omega
  have hg := good_model (amps := A.amps) h.good hnb ⟨hv.nb, hv.shape⟩ rfl (.inr hv.max)
  obtain ⟨r, u, psi, zeta, hc, hw, hI, he, ht⟩ := C90_scalar_scheme A P s cf (plan_ok.2 h.good) h.lt h.pml h.src h.rcv
    h.freq h.interval h.nt
  obtain ⟨r', u', psi', zeta', hc', hw', hI', he', ht'⟩ := C90_scalar_scheme (A.withModel v A.amps) _ s cf (plan_ok.2 hg)
    h.lt h.pml h.src h.rcv h.freq h.interval h.nt
  have hS := hw.sq (vel' := P.grid.extend (v.shot s)) fun c => hv.shot s _
  obtain ⟨rfl, rfl, rfl⟩ := hS.unique hw' fun c => startsFrom_zero (P := P) (w := ⟨A.wfc, A.wfp, A.psi, A.zeta⟩) hw'.outside
    hS.outside hI' hI c
  exact ⟨r, r', hc, hc', endsIn_unique (P := P) he he', fun i hl => (ht' i hl).trans (ht i hl).symm⟩

/-- All velocities negative. -/
example : ∃ r r', (exV 3).scalar 0 = .ok (some r) ∧
    ({exV 3 with v := (exV 3).v.times (-1)} : UArgs 2).scalar 0 = .ok (some r') ∧ r'.traces 0 = r.traces 0 := by
  obtain ⟨r, r', h1, h2, -, h3⟩ := C136_abs_velocity (exV 3) _ 0 1 exV_fwd _ (exV 3).v.times_neg
  exact ⟨r, r', h1, h2, h3 0 (by decide)⟩

end Dw.Scalar

namespace Dw.Born

open Setup Resample

variable {d : ℕ}

/-- **C136** for `scalar_born`: the scattering potential has to have its sign changed where the velocity has, as what matters is
the change of the square of the velocity. -/
theorem C136_born_abs_velocity (A : UArgs d) (P : Plan d) (s : ℕ) (cf : ℤ) (h : Fwd A P s cf) (v scatter : ModelT d ℝ)
    (hv : A.v.SameAbs v) (hn : scatter.nb = A.scatter.nb ∧ scatter.shape = A.scatter.shape)
    (hs : ∀ c, v.shot s c * scatter.shot s c = A.v.shot s c * A.scatter.shot s c) :
    ∃ r r', A.born s = .ok (some r) ∧ ({A with v := v, scatter := scatter} : UArgs d).born s = .ok (some r') ∧
      (r'.out = r.out ∧ r'.outsc = r.outsc) ∧ (∀ i < locCount A.bgRcv, r'.bgTraces i = r.bgTraces i) ∧
      ∀ i < locCount A.rcv, r'.traces i = r.traces i := by
  have hnb : 0 < P.nb := by have := h.lt; omega
  have hg := good_models (amps := A.amps) h.good hnb ⟨hv.nb, hv.shape⟩ hn rfl (.inr hv.max)
  obtain ⟨r, u, psi, zeta, w, ps, ze, hc, hw, hsc, hi, hi2, he, he2, hb, ht⟩ := C91_born_scheme A P s cf (plan_ok.2 h.good) h.lt
    h.pml h.loc h.freq h.interval h.nt
  obtain ⟨r', u', psi', zeta', w', ps', ze', hc', hw', hsc', hi', hi2', he', he2', hb', ht'⟩ := C91_born_scheme
    (A.withModels v scatter A.amps) _ s cf (plan_ok.2 hg) h.lt h.pml h.loc h.freq h.interval h.nt
  have hS := hw.sq (vel' := P.grid.extend (v.shot s)) fun c => hv.shot s _
  obtain ⟨rfl, rfl, rfl⟩ := hS.unique hw' fun c => startsFrom_zero (P := P) (w := A.wf) hw'.outside hS.outside hi' hi c
  have hT := hsc.sq (vel' := P.grid.extend (v.shot s)) (scat' := P.grid.extendZero (scatter.shot s)) (fun c => hv.shot s _)
    fun c => by
      unfold Spec.Grid.extendZero
      split_ifs with hin
      · have e : ∀ m : Fld d ℝ, P.grid.extend m c = m c := fun m => by
          unfold Spec.Grid.extend
          congr 1
          funext k
          rw [min_eq_right (hin k).2, max_eq_right (hin k).1]
        rw [e, e]
        exact hs c
      · rw [mul_zero, mul_zero]
  obtain ⟨rfl, rfl, rfl⟩ := hT.unique hsc' fun c => startsFrom_zero (P := P) (w := A.wfsc) hsc'.outside hT.outside hi2' hi2 c
  exact ⟨r, r', hc, hc', ⟨endsIn_unique (P := P) he he', endsIn_unique (P := P) he2 he2'⟩,
    fun i hl => (hb' i hl).trans (hb i hl).symm, fun i hl => (ht' i hl).trans (ht i hl).symm⟩

/-- All velocities and scattering potentials negative. -/
example : ∃ r r', (exU .none).born 1 = .ok (some r) ∧
    ({exU .none with v := (exU .none).v.times (-1), scatter := (exU .none).scatter.times (-1)} : UArgs 2).born 1 =
      .ok (some r') ∧ r'.traces 0 = r.traces 0 := by
  obtain ⟨r, r', h1, h2, -, -, h3⟩ := C136_born_abs_velocity (exU .none) _ 1 1 (exU_fwd 1 (by decide)) _
    ((exU .none).scatter.times (-1)) (exU .none).v.times_neg ⟨rfl, rfl⟩ fun c => by
      show (-1 * _) * (-1 * _) = (_ : ℝ)
      rw [mul_mul_mul_comm, neg_one_mul, neg_neg, one_mul]
      rfl
  exact ⟨r, r', h1, h2, h3 0 (by decide)⟩

end Dw.Born

namespace Dw.Acoustic

open Setup Resample
open Scalar (upAmps)

variable {d : ℕ}

/-- **C136** for `acoustic`. -/
theorem C136_acoustic_abs_velocity (A : UArgs d) (P : Plan d) (s : ℕ) (cf : ℤ) (h : Fwd A P s cf) (v : ModelT d ℝ)
    (hv : A.v.SameAbs v) :
    ∃ r r', A.acoustic s = .ok (some r) ∧ ({A with v := v} : UArgs d).acoustic s = .ok (some r') ∧ r'.out = r.out ∧
      (∀ i < locCount A.rcvP, r'.tracesP i = r.tracesP i) ∧
      ∀ k, ∀ i < locCount (A.rcvV k), r'.tracesV k i = r.tracesV k i := by
  have hnb : 0 < P.nb := by have := h.lt; omega
  have hg := good_models (rho := A.rho) (ampP := A.ampP) (ampV := A.ampV) h.good hnb ⟨hv.nb, hv.shape⟩ ⟨rfl, rfl⟩ rfl
    (fun _ => rfl) (.inr hv.max)
  have hpre : ¬(A.withModels v A.rho A.ampP A.ampV).Pre := by
    have := h.pre
    unfold UArgs.Pre Scalar.NoElements at this ⊢
    simp only [UArgs.withModels, hv.nb, hv.shape]
    exact this
  obtain ⟨r, p, w, phi, psi, hc, hw, hi, he, ht, htv⟩ := C92_acoustic_scheme A P s cf (plan_ok.2 h.good) h.pre
    h.lt h.pml h.loc h.last h.freq h.interval h.nt
  obtain ⟨r', p', w', phi', psi', hc', hw', hi', he', ht', htv'⟩ := C92_acoustic_scheme _ _ s cf (plan_ok.2 hg) hpre
    h.lt h.pml h.loc (fun k => by
      have := h.last k
      rw [← hv.shape] at this
      exact this) h.freq h.interval h.nt
  have eK : (fun c => P.grid.extend (A.rho.shot s) c * P.grid.extend (v.shot s) c ^ 2) =
      fun c => P.grid.extend (A.rho.shot s) c * P.grid.extend (A.v.shot s) c ^ 2 :=
    funext fun c => congrArg (_ * ·) (hv.shot s _)
  have hS : P.grid.Acoustic (fun c => P.grid.extend (A.rho.shot s) c * P.grid.extend (v.shot s) c ^ 2) _ _ _ p w phi psi :=
    eK ▸ hw
  obtain ⟨rfl, rfl, rfl, rfl⟩ := hS.unique hw' (Starts.eq (P := P) (w := A.wf) hS.outside hw'.outside hi hi')
  refine ⟨r, r', hc, hc', ?_, fun i hl => (ht' i hl).trans (ht i hl).symm, fun k i hl => (htv' k i hl).trans (htv k i hl).symm⟩
  exact Wavefields.ext (index_ext P fun c => (he' c).1.trans (he c).1.symm)
    (funext fun k => index_ext P fun c => ((he' c).2 k).1.trans ((he c).2 k).1.symm)
    (funext fun k => index_ext P fun c => ((he' c).2 k).2.1.trans ((he c).2 k).2.1.symm)
    (funext fun k => index_ext P fun c => ((he' c).2 k).2.2.trans ((he c).2 k).2.2.symm)

/-- All velocities negative. -/
example : ∃ r r', (exU .none).acoustic 1 = .ok (some r) ∧
    ({exU .none with v := (exU .none).v.times (-1)} : UArgs 2).acoustic 1 = .ok (some r') ∧ r'.tracesP 0 = r.tracesP 0 := by
  obtain ⟨r, r', h1, h2, -, h3, -⟩ := C136_acoustic_abs_velocity (exU .none) _ 1 1 (exU_fwd 1 (by decide)) _
    (exU .none).v.times_neg
  exact ⟨r, r', h1, h2, h3 0 (by decide)⟩

/-- The call with density, forces, and pressure in the initial wavefields multiplied by `l`. -/
noncomputable def UWf.denser (w : UWf d) (l : ℝ) : UWf d :=
  { w with p := w.p.map (WfT.times l), psi := fun k => (w.psi k).map (WfT.times l) }

noncomputable def Wavefields.denser (w : Wavefields d ℝ) (l : ℝ) : Wavefields d ℝ :=
  { w with p := fun c => l * w.p c, psi := fun k c => l * w.psi k c }

noncomputable def UArgs.denser (A : UArgs d) (l : ℝ) : UArgs d :=
  { A with rho := A.rho.times l, ampV := fun k => (A.ampV k).map (AmpT.times l), wf := A.wf.denser l }

theorem Starts.denser {P : Plan d} {w : UWf d} {s : ℕ} {p : ℕ → Fld d ℝ} {v phi psi : ℕ → Fin d → Fld d ℝ} (l : ℝ)
    (h : Starts P w s p v phi psi) : Starts P (w.denser l) s (fun t c => l * p t c) v phi fun t k c => l * psi t k c := by
  refine fun c => ⟨fun hc => ⟨?_, ((h c).1 hc).2⟩,
    fun k hc => ⟨((h c).2 k hc).1, fun hb => ?_, fun hb => ?_⟩⟩ <;> dsimp only
  · rw [((h c).1 hc).1]
    exact (given_times P _ _ s c).symm
  · rw [((h c).2 k hc).2.1 hb, mul_zero]
  · rw [((h c).2 k hc).2.2 hb]
    exact (given_times P _ _ s c).symm

/-- **C137** A call of `acoustic` with density and forces multiplied by `l` gives the same particle velocities and the pressure
multiplied by `l`, if the densities are not so small that their inverses are replaced by zero. -/
theorem C137_acoustic_density (A : UArgs d) (P : Plan d) (s : ℕ) (cf : ℤ) (h : Fwd A P s cf) (l : ℝ) (hl : 0 < l)
    (hr : ∀ c, InShape A.v.shape c → A.rfmax < A.rho.shot s c ∧ A.rfmax < l * A.rho.shot s c) :
    ∃ r r', A.acoustic s = .ok (some r) ∧ (A.denser l).acoustic s = .ok (some r') ∧ r'.out = r.out.denser l ∧
      (∀ i < locCount A.rcvP, r'.tracesP i = (r.tracesP i).times l) ∧
      ∀ k, ∀ i < locCount (A.rcvV k), r'.tracesV k i = r.tracesV k i := by
  have hnb : 0 < P.nb := by have := h.lt; omega
  have hlt := h.good.ext_lt hnb ⟨A.v, List.mem_cons_self⟩
  have hg0 := good_models (v := A.v) (rho := A.rho.times l) (ampP := A.ampP) (ampV := fun k => (A.ampV k).map (AmpT.times l))
    h.good hnb ⟨rfl, rfl⟩ ⟨rfl, rfl⟩ rfl (fun k => times_ampSize l _) (.inr rfl)
  have hg : (A.denser l).setup.Good (P.withModels true [(A.v, .replicate), (A.rho.times l, .replicate)]) :=
    hg0.revalue (amps := (A.denser l).setup.amps) (wfs := (A.wf.denser l).list) rfl
      (by simp only [UArgs.setup, Opts.setup, UArgs.withModels, UWf.list, UWf.denser, List.map_append, List.map_cons, List.map_nil,
            List.map_ofFn, Function.comp_def, times_wfSize])
  obtain ⟨r, p, v, phi, psi, hc, hw, hi, he, ht, htv⟩ := C92_acoustic_scheme A P s cf (plan_ok.2 h.good) h.pre
    h.lt h.pml h.loc h.last h.freq h.interval h.nt
  obtain ⟨r', p', v', phi', psi', hc', hw', hi', he', ht', htv'⟩ := C92_acoustic_scheme (A.denser l) _ s cf
    (plan_ok.2 hg) h.pre h.lt h.pml h.loc h.last h.freq h.interval h.nt
  have hS := hw.denser hl.ne'
  have hrho : ∀ c, A.rfmax < P.grid.extend (A.rho.shot s) c ∧ A.rfmax < l * P.grid.extend (A.rho.shot s) c := fun c => by
    obtain ⟨x, hx, ex⟩ := extend_shape h.good hlt c
    rw [ex]
    exact hr x hx
  have hB : (fun k c => Spec.inverse A.rfmax (Spec.mean (P.grid.extend ((A.rho.times l).shot s)) k c)) =
      fun k c => 1 / l * Spec.inverse A.rfmax (Spec.mean (P.grid.extend (A.rho.shot s)) k c) :=
    funext fun k => funext fun c => by
      refine Eq.trans (congrArg (Spec.inverse A.rfmax) (Spec.mean_times l (P.grid.extend (A.rho.shot s)) k c)) ?_
      refine Spec.inverse_times (Spec.lt_mean (fun c => (hrho c).1) k c) ?_
      rw [← Spec.mean_times]
      exact Spec.lt_mean (fun c => (hrho c).2) k c
  have hK : (fun c => P.grid.extend ((A.rho.times l).shot s) c * P.grid.extend (A.v.shot s) c ^ 2) =
      fun c => l * (P.grid.extend (A.rho.shot s) c * P.grid.extend (A.v.shot s) c ^ 2) :=
    funext fun c => mul_assoc _ _ _
  have hV : (fun t k => locSum (d := d) (A.srcV k) s fun i =>
        upAmps P A.opts.timeTaper ((A.ampV k).map (AmpT.times l)) s t i) =
      fun t k c => l * locSum (A.srcV k) s (fun i => upAmps P A.opts.timeTaper (A.ampV k) s t i) c :=
    funext fun t => funext fun k => locSum_times' h.good _ _ _ _ _ _
  rw [← hK, ← hB, ← hV] at hS
  obtain ⟨rfl, rfl, rfl, rfl⟩ := Spec.Grid.Acoustic.unique hw' hS (Starts.eq (P := P) (w := A.wf.denser l) hw'.outside
    hS.outside hi' (Starts.denser l hi))
  refine ⟨r, r', hc, hc', ?_, fun i hl => ?_, fun k i hl => (htv' k i hl).trans (htv k i hl).symm⟩
  · exact Wavefields.ext (index_ext P fun c => (he' c).1.trans (congrArg (l * ·) (he c).1.symm))
      (funext fun k => index_ext P fun c => ((he' c).2 k).1.trans ((he c).2 k).1.symm)
      (funext fun k => index_ext P fun c => ((he' c).2 k).2.1.trans ((he c).2 k).2.1.symm)
      (funext fun k => index_ext P fun c => ((he' c).2 k).2.2.trans (congrArg (l * ·) ((he c).2 k).2.2.symm))
  · rw [ht i hl]
    exact (ht' i hl).trans (downS_times h.good _ l fun t _ => locValue_smul _ _ _ _ _)

/-- Twice the density. -/
example : ∃ r r', (exU .none).acoustic 1 = .ok (some r) ∧ ((exU .none).denser 2).acoustic 1 = .ok (some r') ∧
    r'.tracesP 0 = (r.tracesP 0).times 2 ∧ r'.tracesV 0 0 = r.tracesV 0 0 := by
  obtain ⟨r, r', h1, h2, -, h3, h4⟩ := C137_acoustic_density (exU .none) _ 1 1 (exU_fwd 1 (by decide)) 2 (by norm_num)
    fun c hc => by
      have := hc 1
      change 0 ≤ c 1 ∧ c 1 < 9 at this
      have h0 : (0 : ℝ) ≤ c 1 := by exact_mod_cast this.1
      show (1 / 10 ^ 19 : ℝ) < 2000 + c 1 ∧ (1 / 10 ^ 19 : ℝ) < 2 * (2000 + c 1)
      have : (1 / 10 ^ 19 : ℝ) < 1 := by norm_num
      constructor <;> linarith
  exact ⟨r, r', h1, h2, h3 0 (by decide), h4 0 0 (by decide)⟩

end Dw.Acoustic

namespace Dw.Elastic

open Setup Resample
open Scalar (upAmps)

variable {d : ℕ}

/-- The call with the density, the moduli, the sources, and stresses in the initial wavefields multiplied by `l`. -/
noncomputable def UWf.denser (w : UWf d) (l : ℝ) : UWf d :=
  { w with
    s := fun i => (w.s i).map (WfT.times l), sh := fun p => (w.sh p).map (WfT.times l)
    ms := fun i j => (w.ms i j).map (WfT.times l) }

noncomputable def Wavefields.denser (w : Wavefields d ℝ) (l : ℝ) : Wavefields d ℝ :=
  { w with s := fun i c => l * w.s i c, sh := fun p c => l * w.sh p c, ms := fun i j c => l * w.ms i j c }

noncomputable def UArgs.denser (A : UArgs d) (l : ℝ) : UArgs d :=
  { A with
    lam := A.lam.times l, mu := A.mu.times l, buoyancy := A.buoyancy.times (1 / l)
    ampP := A.ampP.map (AmpT.times l), ampV := fun k => (A.ampV k).map (AmpT.times l), wf := A.wf.denser l }

theorem Starts.denser {P : Plan d} {w : UWf d} {s : ℕ} {v : ℕ → Fin d → Fld d ℝ} {sig mv ms : ℕ → Fin d → Fin d → Fld d ℝ}
    (l : ℝ) (h : Starts P w s v sig mv ms) : Starts P (w.denser l) s v (fun t i j c => l * sig t i j c) mv
      fun t i j c => l * ms t i j c := by
  refine fun i c => ⟨fun hc => ?_, fun j hij hc => ?_, (h i c).2.2.1,
    fun hc => ⟨((h i c).2.2.2 hc).1, fun j => ⟨fun hb => ?_, fun hb => ?_⟩⟩⟩ <;> dsimp only
  · rw [(h i c).1 hc]
    exact (given_times P _ _ s c).symm
  · rw [(h i c).2.1 j hij hc]
    exact (given_times P _ _ s c).symm
  · rw [(((h i c).2.2.2 hc).2 j).1 hb, mul_zero]
  · rw [(((h i c).2.2.2 hc).2 j).2 hb]
    exact (given_times P _ _ s c).symm

theorem maxModelVel_denser (A : UArgs d) {l : ℝ} (hl : l ≠ 0) : (A.denser l).maxModelVel = A.maxModelVel := by
  have e : ∀ a b c : ℝ, fromLamb (l * a) (l * b) (1 / l * c) 0 = ((fromLamb a b c 0).1, (fromLamb a b c 0).2.1,
      (fromLamb (l * a) (l * b) (1 / l * c) 0).2.2) := fun a b c => by
    have e1 : ∀ x : ℝ, l * x * (1 / l * c) = x * c := fun x => by field_simp
    simp only [fromLamb, e1]
  have e' : ∀ s c, fromLamb ((A.denser l).lam.shot s c) ((A.denser l).mu.shot s c) ((A.denser l).buoyancy.shot s c) 0 =
      ((fromLamb (A.lam.shot s c) (A.mu.shot s c) (A.buoyancy.shot s c) 0).1,
        (fromLamb (A.lam.shot s c) (A.mu.shot s c) (A.buoyancy.shot s c) 0).2.1, _) := fun s c => e _ _ _
  unfold UArgs.maxModelVel
  simp only [e']
  rfl

/-- **C137** for `elastic`, with all moduli and sources multiplied by `l` and the buoyancy divided by it. -/
theorem C137_elastic_density (A : UArgs d) (P : Plan d) (s : ℕ) (cf : ℤ) (h : Fwd A P s cf) (l : ℝ) (hl : 0 < l)
    (hb : ∀ c, InShape A.lam.shape c → let b := A.buoyancy.shot s c
      (A.rfmax < b ∧ A.rfmax < b / l) ∧ A.rfmax < 1 / b ∧ A.rfmax < l / b)
    (hmu : ∀ c, InShape A.lam.shape c → (A.rfmax < |l * A.mu.shot s c| ↔ A.rfmax < |A.mu.shot s c|)) :
    ∃ r r', A.elastic s = .ok (some r) ∧ (A.denser l).elastic s = .ok (some r') ∧ r'.out = r.out.denser l ∧
      (∀ i < locCount A.rcvP, r'.tracesP i = (r.tracesP i).times l) ∧
      ∀ k, ∀ i < locCount (A.rcvV k), r'.tracesV k i = r.tracesV k i := by
  have hnb : 0 < P.nb := by have := h.lt; omega
  have hlt := h.good.ext_lt hnb ⟨A.lam, List.mem_cons_self⟩
  have hg0 := good_models (lam := A.lam.times l) (mu := A.mu.times l) (buoyancy := A.buoyancy.times (1 / l))
    (ampP := A.ampP.map (AmpT.times l)) (ampV := fun k => (A.ampV k).map (AmpT.times l))
    h.good hnb ⟨rfl, rfl⟩ ⟨rfl, rfl⟩ ⟨rfl, rfl⟩ (times_ampSize l _) (fun k => times_ampSize l _)
    (.inr (maxModelVel_denser A hl.ne'))
  have hg : (A.denser l).setup.Good
      (P.withModels true [(A.lam.times l, .replicate), (A.mu.times l, .replicate), (A.buoyancy.times (1 / l), .replicate)]) :=
    hg0.revalue (amps := (A.denser l).setup.amps) (wfs := (A.wf.denser l).list) rfl
      (by
        have e : ∀ i j : Fin d, Option.map WfT.size (if h : i < j then (A.wf.sh ⟨(i, j), h⟩).map (WfT.times l) else none) =
            Option.map WfT.size (if h : i < j then A.wf.sh ⟨(i, j), h⟩ else none) := fun i j => by
          split_ifs
          · exact times_wfSize l _
          · rfl
        simp only [UArgs.setup, Opts.setup, UArgs.withModels, UWf.list, UWf.denser, List.map_append, List.map_flatMap,
          List.map_ofFn, Function.comp_def, times_wfSize, e])
  obtain ⟨r, v, sig, mv, ms, hc, hw, hi, he, ht, htv⟩ := C93_elastic_scheme A P s cf (plan_ok.2 h.good) h.pre
    h.lt h.pml h.loc h.last h.freq h.interval h.nt
  obtain ⟨r', v', sig', mv', ms', hc', hw', hi', he', ht', htv'⟩ := C93_elastic_scheme (A.denser l) _ s cf
    (plan_ok.2 hg) h.pre h.lt h.pml h.loc h.last h.freq h.interval h.nt
  have hS := hw.denser hl.ne'
  have hR : ∀ c, Spec.inverse A.rfmax (P.grid.extend (A.buoyancy.shot s) c) = 1 / P.grid.extend (A.buoyancy.shot s) c ∧
      Spec.inverse A.rfmax (P.grid.extend ((A.buoyancy.times (1 / l)).shot s) c) =
        l * (1 / P.grid.extend (A.buoyancy.shot s) c) ∧
      A.rfmax < 1 / P.grid.extend (A.buoyancy.shot s) c ∧ A.rfmax < l * (1 / P.grid.extend (A.buoyancy.shot s) c) := by
    intro c
    obtain ⟨x, hx, ex⟩ := extend_shape h.good hlt c
    obtain ⟨⟨b1, b2⟩, b3, b4⟩ := hb x hx
    rw [ex, ex]
    refine ⟨if_pos (b1.trans_le (le_abs_self _)), ?_, b3, by rwa [mul_one_div]⟩
    show Spec.inverse A.rfmax (1 / l * A.buoyancy.shot s x) = _
    rw [Spec.inverse_times b1 (by rwa [one_div_mul_eq_div]), one_div_one_div]
    exact congrArg (l * ·) (if_pos (b1.trans_le (le_abs_self _)))
  have hB : (fun k c => Spec.inverse A.rfmax
        (Spec.mean (fun c => Spec.inverse A.rfmax (P.grid.extend ((A.buoyancy.times (1 / l)).shot s) c)) k c)) =
      fun k c => 1 / l * Spec.inverse A.rfmax
        (Spec.mean (fun c => Spec.inverse A.rfmax (P.grid.extend (A.buoyancy.shot s) c)) k c) :=
    funext fun k => funext fun c => by
      simp only [fun c => (hR c).1, fun c => (hR c).2.1]
      rw [Spec.mean_times]
      refine Spec.inverse_times (Spec.lt_mean (fun c => (hR c).2.2.1) k c) ?_
      rw [← Spec.mean_times]
      exact Spec.lt_mean (fun c => (hR c).2.2.2) k c
  have hM : Spec.harmonic A.rfmax (P.grid.extend ((A.mu.times l).shot s)) =
      fun i j c => l * Spec.harmonic A.rfmax (P.grid.extend (A.mu.shot s)) i j c :=
    funext fun i => funext fun j => funext fun c => Spec.harmonic_times (m := P.grid.extend (A.mu.shot s)) (fun c => by
      obtain ⟨x, hx, ex⟩ := extend_shape h.good hlt c
      rw [ex]
      exact hmu x hx) i j c
  have hA : ∀ o a, (fun t => locSum (d := d) o s fun i =>
        upAmps P A.opts.timeTaper (a.map (AmpT.times l)) s t i) =
      fun t c => l * locSum o s (fun i => upAmps P A.opts.timeTaper a s t i) c :=
    fun o a => funext fun t => locSum_times' h.good _ _ _ _ _ _
  have hV : (fun t k => locSum (d := d) (A.srcV k) s fun i =>
        upAmps P A.opts.timeTaper ((A.ampV k).map (AmpT.times l)) s t i) =
      fun t k c => l * locSum (A.srcV k) s (fun i => upAmps P A.opts.timeTaper (A.ampV k) s t i) c :=
    funext fun t => funext fun k => congrFun (hA (A.srcV k) (A.ampV k)) t
  rw [← hM, ← hB, ← hA, ← hV] at hS
  obtain ⟨rfl, rfl, rfl, rfl⟩ := Spec.Grid.Elastic.unique hw' hS (Starts.eq (P := P) (w := A.wf.denser l) hw'.symm
    hS.symm hw'.outside hS.outside hi' (Starts.denser l hi))
  refine ⟨r, r', hc, hc', ?_, fun i hl => ?_, fun k i hl => (htv' k i hl).trans (htv k i hl).symm⟩
  · exact Wavefields.ext (funext fun i => index_ext P fun c => (he' c i).1.trans (he c i).1.symm)
      (funext fun i => index_ext P fun c => (he' c i).2.1.trans (congrArg (l * ·) (he c i).2.1.symm))
      (funext fun x => index_ext P fun c => ((he' c x.1.1).2.2.1 x.1.2 x.2).trans
        (congrArg (l * ·) ((he c x.1.1).2.2.1 x.1.2 x.2).symm))
      (funext fun i => funext fun j => index_ext P fun c => ((he' c i).2.2.2 j).1.trans ((he c i).2.2.2 j).1.symm)
      (funext fun i => funext fun j => index_ext P fun c =>
        ((he' c i).2.2.2 j).2.trans (congrArg (l * ·) ((he c i).2.2.2 j).2.symm))
  · have e := downS_times h.good A.opts.timeTaper l (n := P.steps) (x := fun t => locValue A.rcvP s i fun c => ∑ k, sig t k k c)
      (y := fun t => locValue A.rcvP s i fun c => ∑ k, l * sig t k k c) fun t _ => by
        rw [← locValue_smul]
        congr 1
        funext c
        rw [Finset.mul_sum]
    rw [ht i hl]
    refine (ht' i hl).trans ?_
    refine (congrArg (fun y : Sig ℝ => (⟨y.len, fun t => -y.val t / d⟩ : Sig ℝ)) e).trans ?_
    unfold Sig.times
    congr 1
    funext t
    ring

/-- Twice the density and moduli. -/
example : ∃ r r', (exU .none).elastic 1 = .ok (some r) ∧ ((exU .none).denser 2).elastic 1 = .ok (some r') ∧
    r'.tracesP 0 = (r.tracesP 0).times 2 ∧ r'.tracesV 0 0 = r.tracesV 0 0 := by
  have hs : (1 / 10 ^ 19 : ℝ) < 1 / 20 := by norm_num
  obtain ⟨r, r', h1, h2, -, h3, h4⟩ := C137_elastic_density (exU .none) _ 1 1 (exU_fwd 1 (by decide)) 2 (by norm_num)
    (fun c hc => by
      have := hc 1
      change 0 ≤ c 1 ∧ c 1 < 9 at this
      have h0 : (0 : ℝ) ≤ c 1 := by exact_mod_cast this.1
      have h9 : (c 1 : ℝ) < 9 := by exact_mod_cast this.2
      show ((1 / 10 ^ 19 : ℝ) < 1 + c 1 ∧ (1 / 10 ^ 19 : ℝ) < (1 + c 1) / 2) ∧ (1 / 10 ^ 19 : ℝ) < 1 / (1 + c 1) ∧
        (1 / 10 ^ 19 : ℝ) < 2 / (1 + c 1)
      have hd : (1 / 20 : ℝ) ≤ 1 / (1 + c 1) := one_div_le_one_div_of_le (by linarith) (by linarith)
      have hd2 : (2 : ℝ) / (1 + c 1) = 2 * (1 / (1 + c 1)) := by ring
      refine ⟨⟨by linarith, by linarith⟩, by linarith, by rw [hd2]; linarith⟩)
    fun c hc => by
      have := hc 1
      change 0 ≤ c 1 ∧ c 1 < 9 at this
      have h0 : (0 : ℝ) ≤ c 1 := by exact_mod_cast this.1
      show (1 / 10 ^ 19 : ℝ) < |2 * (500 + (c 1 : ℝ))| ↔ (1 / 10 ^ 19 : ℝ) < |500 + (c 1 : ℝ)|
      rw [abs_of_nonneg (by positivity), abs_of_nonneg (by positivity)]
      constructor <;> intro <;> linarith
  exact ⟨r, r', h1, h2, h3 0 (by decide), h4 0 0 (by decide)⟩

end Dw.Elastic
