import Verif.Spec.Born
import Verif.Spec.Acoustic
import Verif.Spec.Elastic

/-!
# The schemes with all lengths and times multiplied by the same number

Velocities stay the same, so the waves do too; memory variables are derivatives and change.
-/

namespace Dw.Spec

variable {d : ℕ} {G : Grid d} {s : ℝ}

/-- The grid with grid spacing and time step multiplied by `s`. -/
noncomputable def Grid.scale (G : Grid d) (s : ℝ) : Grid d :=
  { G with dx := fun k => G.dx k * s, dt := G.dt * s, freq := G.freq / s }

theorem Grid.width_scale (hs : 0 < s) : (G.scale s).width = G.width * s := by
  unfold Grid.width
  rw [Real.iSup_mul_of_nonneg hs.le]
  refine congrArg iSup (funext fun k => ?_)
  rw [max_mul_of_nonneg _ _ hs.le]
  show max (G.w0 k * (G.dx k * s)) (G.w1 k * (G.dx k * s)) = _
  rw [mul_assoc, mul_assoc]

theorem Grid.sigma_scale (hs : 0 < s) (k : Fin d) (x : ℝ) : (G.scale s).sigma k x = G.sigma k x / s := by
  unfold Grid.sigma
  rw [Grid.width_scale hs]
  show 3 * G.vmax * Real.log 1000 / (2 * (G.width * s)) * G.depth k x ^ 2 = _
  ring

theorem Grid.alpha_scale (k : Fin d) (x : ℝ) : (G.scale s).alpha k x = G.alpha k x / s := by
  show Real.pi * (G.freq / s) * (1 - G.depth k x) = Real.pi * G.freq * (1 - G.depth k x) / s
  ring

theorem Grid.exp_scale (hs : 0 < s) (k : Fin d) (x : ℝ) :
    -((G.scale s).sigma k x + (G.scale s).alpha k x) * |(G.scale s).dt| = -(G.sigma k x + G.alpha k x) * |G.dt| := by
  rw [Grid.sigma_scale hs, Grid.alpha_scale]
  show _ * |G.dt * s| = _
  rw [abs_mul, abs_of_pos hs]
  field_simp

theorem Grid.a_scale (hs : 0 < s) (k : Fin d) (x : ℝ) : (G.scale s).a k x = G.a k x := by
  unfold Grid.a
  rw [Grid.exp_scale hs]
  rfl

theorem Grid.b_scale (hs : 0 < s) (k : Fin d) (x : ℝ) : (G.scale s).b k x = G.b k x := by
  unfold Grid.b
  rw [Grid.exp_scale hs, Grid.sigma_scale hs, Grid.alpha_scale, ← add_div, div_div_div_cancel_right₀ hs.ne']

/-! ### Derivatives -/

theorem Grid.D1_scale (k : Fin d) (κ : ℝ) (u : Fld d ℝ) (c : Cell d) :
    (G.scale s).D1 k (fun c => κ * u c) c = κ / s * G.D1 k u c := by
  unfold Grid.D1 central1
  show (∑ j ∈ _, weight1 (G.acc.order / 2) _ * (κ * _ - κ * _)) / (G.dx k * s) = _
  rw [div_mul_div_comm, Finset.mul_sum, mul_comm s]
  exact congrArg (· / _) (Finset.sum_congr rfl fun j _ => by ring)

theorem Grid.D2_scale (k : Fin d) (κ : ℝ) (u : Fld d ℝ) (c : Cell d) :
    (G.scale s).D2 k (fun c => κ * u c) c = κ / s ^ 2 * G.D2 k u c := by
  unfold Grid.D2 central2
  show (∑ j ∈ _, weight2 (G.acc.order / 2) _ * (κ * _ - 2 * (κ * _) + κ * _)) / (G.dx k * s) ^ 2 = _
  rw [div_mul_div_comm, Finset.mul_sum, mul_pow, mul_comm (s ^ 2)]
  exact congrArg (· / _) (Finset.sum_congr rfl fun j _ => by ring)

theorem Grid.D1_scale_one (k : Fin d) (u : Fld d ℝ) (c : Cell d) : (G.scale s).D1 k u c = 1 / s * G.D1 k u c := by
  have := Grid.D1_scale (G := G) (s := s) k 1 u c
  simpa only [one_mul] using this

theorem Grid.D2_scale_one (k : Fin d) (u : Fld d ℝ) (c : Cell d) : (G.scale s).D2 k u c = 1 / s ^ 2 * G.D2 k u c := by
  have := Grid.D2_scale (G := G) (s := s) k 1 u c
  simpa only [one_mul] using this

theorem Grid.flux_scale (hs : 0 < s) (k : Fin d) (u psi : Fld d ℝ) (c : Cell d) :
    (G.scale s).flux k u (fun c => 1 / s * psi c) c = 1 / s ^ 2 * G.flux k u psi c := by
  unfold Grid.flux
  have e : (fun c : Cell d => (G.scale s).a k (c k) * (1 / s * psi c)) = fun c => 1 / s * (G.a k (c k) * psi c) := by
    funext c
    rw [Grid.a_scale hs]
    ring
  have e' : (fun c : Cell d => (G.scale s).b k (c k)) = fun c => G.b k (c k) := funext fun c => Grid.b_scale hs _ _
  rw [e, e', Grid.b_scale hs, Grid.D1_scale, Grid.D1_scale_one, Grid.D1_scale_one, Grid.D2_scale_one]
  field_simp

theorem Grid.lap_scale (hs : 0 < s) (u : Fld d ℝ) (psi zeta : Fin d → Fld d ℝ) (c : Cell d) :
    (G.scale s).lap u (fun k c => 1 / s * psi k c) (fun k c => 1 / s ^ 2 * zeta k c) c = 1 / s ^ 2 * G.lap u psi zeta c := by
  unfold Grid.lap
  rw [Finset.mul_sum]
  refine Finset.sum_congr rfl fun k _ => ?_
  rw [Grid.flux_scale hs, Grid.a_scale hs, Grid.b_scale hs]
  ring

theorem Grid.DH_scale (k : Fin d) (u : Fld d ℝ) (c : Cell d) : (G.scale s).DH k u c = 1 / s * G.DH k u c := by
  unfold Grid.DH half1
  show (∑ j ∈ _, weightHalf (G.acc.order / 2) _ * _) / (G.dx k * s) = _
  rw [div_mul_div_comm, one_mul, mul_comm s]
  rfl

theorem Grid.DI_scale (k : Fin d) (u : Fld d ℝ) (c : Cell d) : (G.scale s).DI k u c = 1 / s * G.DI k u c := by
  unfold Grid.DI whole1
  show (∑ j ∈ _, weightHalf (G.acc.order / 2) _ * _) / (G.dx k * s) = _
  rw [div_mul_div_comm, one_mul, mul_comm s]
  rfl

theorem Grid.D_scale (h : Bool) (k : Fin d) (u : Fld d ℝ) (c : Cell d) : (G.scale s).D h k u c = 1 / s * G.D h k u c := by
  cases h
  · exact Grid.DI_scale k u c
  · exact Grid.DH_scale k u c

/-! ### The equations -/

theorem Grid.Wave.scale (hs : 0 < s) {vel : Fld d ℝ} {q : ℕ → Fld d ℝ} {u : ℕ → Fld d ℝ} {psi zeta : ℕ → Fin d → Fld d ℝ}
    (h : G.Wave vel q u psi zeta) : (G.scale s).Wave vel (fun t c => 1 / s ^ 2 * q t c) u
      (fun t k c => 1 / s * psi t k c) (fun t k c => 1 / s ^ 2 * zeta t k c) := by
  refine ⟨fun t c hc => ?_, fun t c hc => ?_, fun t k c hc => ?_, fun t k c hc => ?_⟩
  · obtain ⟨o1, o2⟩ := h.outside t c hc
    exact ⟨o1, fun k => ⟨by rw [(o2 k).1, mul_zero], by rw [(o2 k).2, mul_zero]⟩⟩
  · rw [h.wave t c hc, Grid.lap_scale hs]
    show _ = vel c ^ 2 * (G.dt * s) ^ 2 * _
    field_simp
  · rw [h.psi_next t k c hc, Grid.D1_scale_one, Grid.a_scale hs, Grid.b_scale hs]
    ring
  · rw [h.zeta_next t k c hc, Grid.flux_scale hs, Grid.a_scale hs, Grid.b_scale hs]
    ring

theorem Grid.Scattered.scale (hs : 0 < s) {vel scat : Fld d ℝ} {q : ℕ → Fld d ℝ} {u : ℕ → Fld d ℝ}
    {psi zeta : ℕ → Fin d → Fld d ℝ} {w : ℕ → Fld d ℝ} {ps ze : ℕ → Fin d → Fld d ℝ}
    (h : G.Scattered vel scat q u psi zeta w ps ze) : (G.scale s).Scattered vel scat (fun t c => 1 / s ^ 2 * q t c) u
      (fun t k c => 1 / s * psi t k c) (fun t k c => 1 / s ^ 2 * zeta t k c) w
      (fun t k c => 1 / s * ps t k c) (fun t k c => 1 / s ^ 2 * ze t k c) := by
  refine ⟨fun t c hc => ?_, fun t c hc => ?_, fun t k c hc => ?_, fun t k c hc => ?_⟩
  · obtain ⟨o1, o2⟩ := h.outside t c hc
    exact ⟨o1, fun k => ⟨by rw [(o2 k).1, mul_zero], by rw [(o2 k).2, mul_zero]⟩⟩
  · rw [h.wave t c hc, Grid.lap_scale hs, Grid.lap_scale hs]
    show _ = vel c ^ 2 * (G.dt * s) ^ 2 * _ + 2 * vel c * scat c * (G.dt * s) ^ 2 * _
    field_simp
  · rw [h.psi_next t k c hc, Grid.D1_scale_one, Grid.a_scale hs, Grid.b_scale hs]
    ring
  · rw [h.zeta_next t k c hc, Grid.flux_scale hs, Grid.a_scale hs, Grid.b_scale hs]
    ring

theorem Grid.Acoustic.scale (hs : 0 < s) {K : Fld d ℝ} {B : Fin d → Fld d ℝ} {qp : ℕ → Fld d ℝ} {qv : ℕ → Fin d → Fld d ℝ}
    {p : ℕ → Fld d ℝ} {v phi psi : ℕ → Fin d → Fld d ℝ} (h : G.Acoustic K B qp qv p v phi psi) :
    (G.scale s).Acoustic K B (fun t c => 1 / s * qp t c) (fun t k c => 1 / s * qv t k c) p v
      (fun t k c => 1 / s * phi t k c) (fun t k c => 1 / s * psi t k c) := by
  refine ⟨fun t c => ⟨fun hc => ?_, fun k hc => ?_⟩, fun t k c hc => ?_, fun t k c hc => ?_, fun t k c hc => ?_, fun t c hc => ?_⟩
  · obtain ⟨o1, o2⟩ := (h.outside t c).1 hc
    exact ⟨o1, fun k => by rw [o2 k, mul_zero]⟩
  · obtain ⟨o1, o2⟩ := (h.outside t c).2 k hc
    exact ⟨o1, by rw [o2, mul_zero]⟩
  · rw [h.psi_next t k c hc, Grid.DH_scale, Grid.a_scale hs, Grid.b_scale hs]
    ring
  · rw [h.velocity t k c hc, Grid.DH_scale]
    show _ = v t k c - G.dt * s * _ * _
    field_simp
  · rw [h.phi_next t k c hc, Grid.DI_scale, Grid.a_scale hs, Grid.b_scale hs]
    ring
  · rw [h.pressure t c hc]
    have e : ∑ k, ((G.scale s).DI k (v (t + 1) k) c + 1 / s * phi (t + 1) k c) =
        1 / s * ∑ k, (G.DI k (v (t + 1) k) c + phi (t + 1) k c) := by
      rw [Finset.mul_sum]
      exact Finset.sum_congr rfl fun k _ => by rw [Grid.DI_scale]; ring
    rw [e]
    show _ = p t c - G.dt * s * _ * _
    field_simp

theorem Grid.Elastic.scale (hs : 0 < s) {lam mu : Fld d ℝ} {muS : Fin d → Fin d → Fld d ℝ} {B : Fin d → Fld d ℝ}
    {qp : ℕ → Fld d ℝ} {qv v : ℕ → Fin d → Fld d ℝ} {sig mv ms : ℕ → Fin d → Fin d → Fld d ℝ}
    (h : G.Elastic lam mu muS B qp qv v sig mv ms) :
    (G.scale s).Elastic lam mu muS B (fun t c => 1 / s * qp t c) (fun t k c => 1 / s * qv t k c) v sig
      (fun t i j c => 1 / s * mv t i j c) (fun t i j c => 1 / s * ms t i j c) := by
  refine ⟨h.symm, fun t i c => ⟨fun hc => ?_, fun j hc => ?_⟩, fun t i j c hc => ?_, fun t i c hc => ?_, fun t i j c hc => ?_,
    fun t i c hc => ?_, fun t i j c hij hc => ?_⟩
  · obtain ⟨o1, o2⟩ := (h.outside t i c).1 hc
    exact ⟨o1, fun j => by rw [o2 j, mul_zero]⟩
  · obtain ⟨o1, o2⟩ := (h.outside t i c).2 j hc
    exact ⟨o1, by rw [o2, mul_zero]⟩
  · rw [h.ms_next t i j c hc, Grid.D_scale, Grid.a_scale hs, Grid.b_scale hs]
    ring
  · rw [h.velocity t i c hc]
    have e : ∑ j, ((G.scale s).D (atV i j) j (sig t i j) c + 1 / s * ms (t + 1) i j c) =
        1 / s * ∑ j, (G.D (atV i j) j (sig t i j) c + ms (t + 1) i j c) := by
      rw [Finset.mul_sum]
      exact Finset.sum_congr rfl fun k _ => by rw [Grid.D_scale]; ring
    rw [e]
    show _ = v t i c + G.dt * s * _ * _
    field_simp
  · rw [h.mv_next t i j c hc, Grid.D_scale, Grid.a_scale hs, Grid.b_scale hs]
    ring
  · rw [h.normal t i c hc]
    have e : ∑ k, ((G.scale s).D false k (v (t + 1) k) c + 1 / s * mv (t + 1) k k c) =
        1 / s * ∑ k, (G.D false k (v (t + 1) k) c + mv (t + 1) k k c) := by
      rw [Finset.mul_sum]
      exact Finset.sum_congr rfl fun k _ => by rw [Grid.D_scale]; ring
    rw [e, Grid.D_scale]
    show _ = sig t i i c + G.dt * s * _
    field_simp
  · rw [h.shear t i j c hij hc, Grid.D_scale, Grid.D_scale]
    show _ = sig t i j c + G.dt * s * _ * _
    field_simp

end Dw.Spec
