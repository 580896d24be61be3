import Verif.Spec.Delay

/-!
# Sums of solutions, and convolutions
-/

namespace Dw.Spec

variable {d : ℕ} {G : Grid d}

theorem Grid.D1_add (k : Fin d) (a : ℝ) (u w : Fld d ℝ) (c : Cell d) :
    G.D1 k (a • u + w) c = a * G.D1 k u c + G.D1 k w c := by
  unfold Grid.D1 central1
  rw [← mul_div_assoc, ← add_div, Finset.mul_sum, ← Finset.sum_add_distrib]
  exact congrArg (· / _) (Finset.sum_congr rfl fun j _ => by
    simp only [Pi.add_apply, Pi.smul_apply, smul_eq_mul]
    ring)

theorem Grid.D2_add (k : Fin d) (a : ℝ) (u w : Fld d ℝ) (c : Cell d) :
    G.D2 k (a • u + w) c = a * G.D2 k u c + G.D2 k w c := by
  unfold Grid.D2 central2
  rw [← mul_div_assoc, ← add_div, Finset.mul_sum, ← Finset.sum_add_distrib]
  exact congrArg (· / _) (Finset.sum_congr rfl fun j _ => by
    simp only [Pi.add_apply, Pi.smul_apply, smul_eq_mul]
    ring)

theorem Grid.flux_add (k : Fin d) (a : ℝ) (u w psi ps : Fld d ℝ) (c : Cell d) :
    G.flux k (a • u + w) (a • psi + ps) c = a * G.flux k u psi c + G.flux k w ps c := by
  unfold Grid.flux
  have e : (fun c : Cell d => G.a k (c k) * (a • psi + ps) c) =
      a • (fun c : Cell d => G.a k (c k) * psi c) + fun c => G.a k (c k) * ps c := by
    funext c
    simp only [Pi.add_apply, Pi.smul_apply, smul_eq_mul]
    ring
  rw [e, G.D1_add, G.D1_add, G.D2_add]
  ring

theorem Grid.lap_add (a : ℝ) (u w : Fld d ℝ) (psi ps zeta ze : Fin d → Fld d ℝ) (c : Cell d) :
    G.lap (a • u + w) (a • psi + ps) (a • zeta + ze) c = a * G.lap u psi zeta c + G.lap w ps ze c := by
  unfold Grid.lap
  rw [Finset.mul_sum, ← Finset.sum_add_distrib]
  refine Finset.sum_congr rfl fun k _ => ?_
  show (1 + _) * G.flux k (a • u + w) (a • psi k + ps k) c + _ * (a * zeta k c + ze k c) = _
  rw [G.flux_add]
  ring

theorem Grid.DH_add (k : Fin d) (a : ℝ) (u w : Fld d ℝ) (c : Cell d) :
    G.DH k (a • u + w) c = a * G.DH k u c + G.DH k w c := by
  unfold Grid.DH half1
  rw [← mul_div_assoc, ← add_div, Finset.mul_sum, ← Finset.sum_add_distrib]
  exact congrArg (· / _) (Finset.sum_congr rfl fun j _ => by
    simp only [Pi.add_apply, Pi.smul_apply, smul_eq_mul]
    ring)

theorem Grid.DI_add (k : Fin d) (a : ℝ) (u w : Fld d ℝ) (c : Cell d) :
    G.DI k (a • u + w) c = a * G.DI k u c + G.DI k w c := by
  unfold Grid.DI whole1
  rw [← mul_div_assoc, ← add_div, Finset.mul_sum, ← Finset.sum_add_distrib]
  exact congrArg (· / _) (Finset.sum_congr rfl fun j _ => by
    simp only [Pi.add_apply, Pi.smul_apply, smul_eq_mul]
    ring)

theorem Grid.D_add (h : Bool) (k : Fin d) (a : ℝ) (u w : Fld d ℝ) (c : Cell d) :
    G.D h k (a • u + w) c = a * G.D h k u c + G.D h k w c := by
  cases h
  · exact G.DI_add k a u w c
  · exact G.DH_add k a u w c

/-! ### A multiple of one solution and another one -/

theorem Grid.Wave.add {vel : Fld d ℝ} {q q' u u' : ℕ → Fld d ℝ} {psi zeta psi' zeta' : ℕ → Fin d → Fld d ℝ}
    (h : G.Wave vel q u psi zeta) (h' : G.Wave vel q' u' psi' zeta') (a : ℝ) :
    G.Wave vel (a • q + q') (a • u + u') (a • psi + psi') (a • zeta + zeta') := by
  refine ⟨fun t c hc => ?_, fun t c hc => ?_, fun t k c hc => ?_, fun t k c hc => ?_⟩
  · obtain ⟨o1, o2⟩ := h.outside t c hc
    obtain ⟨o1', o2'⟩ := h'.outside t c hc
    exact ⟨by simp [o1, o1'], fun k => by simp [o2 k, o2' k]⟩
  · have e := h.wave t c hc
    have e' := h'.wave t c hc
    have el := G.lap_add a (u (t + 1)) (u' (t + 1)) (psi t) (psi' t) (zeta t) (zeta' t) c
    show a * u (t + 2) c + u' (t + 2) c - 2 * (a * u (t + 1) c + u' (t + 1) c) + (a * u t c + u' t c) =
      vel c ^ 2 * G.dt ^ 2 * (G.lap (a • u (t + 1) + u' (t + 1)) (a • psi t + psi' t) (a • zeta t + zeta' t) c -
        (a * q t c + q' t c))
    rw [el]
    linear_combination a * e + e'
  · show a * psi (t + 1) k c + psi' (t + 1) k c = G.b k (c k) * G.D1 k (a • u (t + 1) + u' (t + 1)) c +
      G.a k (c k) * (a * psi t k c + psi' t k c)
    rw [G.D1_add, h.psi_next t k c hc, h'.psi_next t k c hc]
    ring
  · show a * zeta (t + 1) k c + zeta' (t + 1) k c = G.b k (c k) *
      G.flux k (a • u (t + 1) + u' (t + 1)) (a • psi t k + psi' t k) c + G.a k (c k) * (a * zeta t k c + zeta' t k c)
    rw [G.flux_add, h.zeta_next t k c hc, h'.zeta_next t k c hc]
    ring

theorem Grid.Wave.zero (vel : Fld d ℝ) : G.Wave vel 0 0 0 0 := by
  refine ⟨fun t c hc => ⟨rfl, fun k => ⟨rfl, rfl⟩⟩, fun t c hc => ?_, fun t k c hc => ?_, fun t k c hc => ?_⟩
  · show (0 : ℝ) - 2 * 0 + 0 = vel c ^ 2 * G.dt ^ 2 * (G.lap 0 0 0 c - 0)
    rw [G.lap_zero]
    ring
  · show (0 : ℝ) = G.b k (c k) * G.D1 k 0 c + G.a k (c k) * 0
    rw [G.D1_zero]
    ring
  · show (0 : ℝ) = G.b k (c k) * G.flux k 0 0 c + G.a k (c k) * 0
    rw [G.flux_zero]
    ring

theorem Grid.Scattered.add {vel scat : Fld d ℝ} {q q' u u' w w' : ℕ → Fld d ℝ}
    {psi zeta psi' zeta' ps ze ps' ze' : ℕ → Fin d → Fld d ℝ} (h : G.Scattered vel scat q u psi zeta w ps ze)
    (h' : G.Scattered vel scat q' u' psi' zeta' w' ps' ze') (a : ℝ) :
    G.Scattered vel scat (a • q + q') (a • u + u') (a • psi + psi') (a • zeta + zeta') (a • w + w') (a • ps + ps')
      (a • ze + ze') := by
  refine ⟨fun t c hc => ?_, fun t c hc => ?_, fun t k c hc => ?_, fun t k c hc => ?_⟩
  · obtain ⟨o1, o2⟩ := h.outside t c hc
    obtain ⟨o1', o2'⟩ := h'.outside t c hc
    exact ⟨by simp [o1, o1'], fun k => by simp [o2 k, o2' k]⟩
  · have e := h.wave t c hc
    have e' := h'.wave t c hc
    have el := G.lap_add a (u (t + 1)) (u' (t + 1)) (psi t) (psi' t) (zeta t) (zeta' t) c
    have el' := G.lap_add a (w (t + 1)) (w' (t + 1)) (ps t) (ps' t) (ze t) (ze' t) c
    show a * w (t + 2) c + w' (t + 2) c - 2 * (a * w (t + 1) c + w' (t + 1) c) + (a * w t c + w' t c) =
      vel c ^ 2 * G.dt ^ 2 * G.lap (a • w (t + 1) + w' (t + 1)) (a • ps t + ps' t) (a • ze t + ze' t) c +
        2 * vel c * scat c * G.dt ^ 2 *
          (G.lap (a • u (t + 1) + u' (t + 1)) (a • psi t + psi' t) (a • zeta t + zeta' t) c - (a * q t c + q' t c))
    rw [el, el']
    linear_combination a * e + e'
  · show a * ps (t + 1) k c + ps' (t + 1) k c = G.b k (c k) * G.D1 k (a • w (t + 1) + w' (t + 1)) c +
      G.a k (c k) * (a * ps t k c + ps' t k c)
    rw [G.D1_add, h.psi_next t k c hc, h'.psi_next t k c hc]
    ring
  · show a * ze (t + 1) k c + ze' (t + 1) k c = G.b k (c k) *
      G.flux k (a • w (t + 1) + w' (t + 1)) (a • ps t k + ps' t k) c + G.a k (c k) * (a * ze t k c + ze' t k c)
    rw [G.flux_add, h.zeta_next t k c hc, h'.zeta_next t k c hc]
    ring

theorem Grid.Scattered.zero (vel scat : Fld d ℝ) : G.Scattered vel scat 0 0 0 0 0 0 0 := by
  refine ⟨fun t c hc => ⟨rfl, fun k => ⟨rfl, rfl⟩⟩, fun t c hc => ?_, fun t k c hc => ?_, fun t k c hc => ?_⟩
  · show (0 : ℝ) - 2 * 0 + 0 = vel c ^ 2 * G.dt ^ 2 * G.lap 0 0 0 c + 2 * vel c * scat c * G.dt ^ 2 * (G.lap 0 0 0 c - 0)
    rw [G.lap_zero]
    ring
  · show (0 : ℝ) = G.b k (c k) * G.D1 k 0 c + G.a k (c k) * 0
    rw [G.D1_zero]
    ring
  · show (0 : ℝ) = G.b k (c k) * G.flux k 0 0 c + G.a k (c k) * 0
    rw [G.flux_zero]
    ring

theorem Grid.Acoustic.add {K : Fld d ℝ} {B : Fin d → Fld d ℝ} {qp qp' p p' : ℕ → Fld d ℝ}
    {qv qv' v v' phi phi' psi psi' : ℕ → Fin d → Fld d ℝ} (h : G.Acoustic K B qp qv p v phi psi)
    (h' : G.Acoustic K B qp' qv' p' v' phi' psi') (a : ℝ) :
    G.Acoustic K B (a • qp + qp') (a • qv + qv') (a • p + p') (a • v + v') (a • phi + phi') (a • psi + psi') := by
  refine ⟨fun t c => ⟨fun hc => ?_, fun k hc => ?_⟩, fun t k c hc => ?_, fun t k c hc => ?_, fun t k c hc => ?_, fun t c hc => ?_⟩
  · obtain ⟨o1, o2⟩ := (h.outside t c).1 hc
    obtain ⟨o1', o2'⟩ := (h'.outside t c).1 hc
    exact ⟨by simp [o1, o1'], fun k => by simp [o2 k, o2' k]⟩
  · obtain ⟨o1, o2⟩ := (h.outside t c).2 k hc
    obtain ⟨o1', o2'⟩ := (h'.outside t c).2 k hc
    exact ⟨by simp [o1, o1'], by simp [o2, o2']⟩
  · show a * psi (t + 1) k c + psi' (t + 1) k c = G.b k (c k + 1 / 2) * G.DH k (a • p t + p' t) c +
      G.a k (c k + 1 / 2) * (a * psi t k c + psi' t k c)
    rw [G.DH_add, h.psi_next t k c hc, h'.psi_next t k c hc]
    ring
  · show a * v (t + 1) k c + v' (t + 1) k c = a * v t k c + v' t k c - G.dt * B k c * (G.DH k (a • p t + p' t) c +
      (a * psi (t + 1) k c + psi' (t + 1) k c) - (a * qv t k c + qv' t k c))
    rw [G.DH_add, h.velocity t k c hc, h'.velocity t k c hc]
    ring
  · show a * phi (t + 1) k c + phi' (t + 1) k c = G.b k (c k) * G.DI k (a • v (t + 1) k + v' (t + 1) k) c +
      G.a k (c k) * (a * phi t k c + phi' t k c)
    rw [G.DI_add, h.phi_next t k c hc, h'.phi_next t k c hc]
    ring
  · have e : ∑ k, (G.DI k (a • v (t + 1) k + v' (t + 1) k) c + (a * phi (t + 1) k c + phi' (t + 1) k c)) =
        a * ∑ k, (G.DI k (v (t + 1) k) c + phi (t + 1) k c) + ∑ k, (G.DI k (v' (t + 1) k) c + phi' (t + 1) k c) := by
      rw [Finset.mul_sum, ← Finset.sum_add_distrib]
      refine Finset.sum_congr rfl fun k _ => ?_
      rw [G.DI_add]
      ring
    show a * p (t + 1) c + p' (t + 1) c = a * p t c + p' t c - G.dt * K c *
      (∑ k, (G.DI k (a • v (t + 1) k + v' (t + 1) k) c + (a * phi (t + 1) k c + phi' (t + 1) k c)) - (a * qp t c + qp' t c))
    rw [e, h.pressure t c hc, h'.pressure t c hc]
    ring

theorem Grid.DH_zero' (k : Fin d) (c : Cell d) : G.DH k 0 c = 0 := by simp [Grid.DH, half1]
theorem Grid.DI_zero' (k : Fin d) (c : Cell d) : G.DI k 0 c = 0 := by simp [Grid.DI, whole1]
theorem Grid.D_zero' (h : Bool) (k : Fin d) (c : Cell d) : G.D h k 0 c = 0 := by
  cases h
  · exact G.DI_zero' k c
  · exact G.DH_zero' k c

theorem Grid.Acoustic.zero (K : Fld d ℝ) (B : Fin d → Fld d ℝ) : G.Acoustic K B 0 0 0 0 0 0 := by
  refine ⟨fun t c => ⟨fun hc => ⟨rfl, fun k => rfl⟩, fun k hc => ⟨rfl, rfl⟩⟩, fun t k c hc => ?_, fun t k c hc => ?_,
    fun t k c hc => ?_, fun t c hc => ?_⟩
  · show (0 : ℝ) = G.b k (c k + 1 / 2) * G.DH k 0 c + G.a k (c k + 1 / 2) * 0
    rw [G.DH_zero']
    ring
  · show (0 : ℝ) = 0 - G.dt * B k c * (G.DH k 0 c + 0 - 0)
    rw [G.DH_zero']
    ring
  · show (0 : ℝ) = G.b k (c k) * G.DI k 0 c + G.a k (c k) * 0
    rw [G.DI_zero']
    ring
  · show (0 : ℝ) = 0 - G.dt * K c * (∑ k, (G.DI k 0 c + 0) - 0)
    simp [G.DI_zero']

theorem Grid.Elastic.add {lam mu : Fld d ℝ} {muS : Fin d → Fin d → Fld d ℝ} {B : Fin d → Fld d ℝ}
    {qp qp' : ℕ → Fld d ℝ} {qv qv' v v' : ℕ → Fin d → Fld d ℝ} {sig mv ms sig' mv' ms' : ℕ → Fin d → Fin d → Fld d ℝ}
    (h : G.Elastic lam mu muS B qp qv v sig mv ms) (h' : G.Elastic lam mu muS B qp' qv' v' sig' mv' ms') (a : ℝ) :
    G.Elastic lam mu muS B (a • qp + qp') (a • qv + qv') (a • v + v') (a • sig + sig') (a • mv + mv') (a • ms + ms') := by
  refine ⟨fun t i j => ?_, fun t i c => ⟨fun hc => ?_, fun j hc => ?_⟩, fun t i j c hc => ?_, fun t i c hc => ?_,
    fun t i j c hc => ?_, fun t i c hc => ?_, fun t i j c hij hc => ?_⟩
  · show a • sig t i j + sig' t i j = a • sig t j i + sig' t j i
    rw [h.symm, h'.symm]
  · obtain ⟨o1, o2⟩ := (h.outside t i c).1 hc
    obtain ⟨o1', o2'⟩ := (h'.outside t i c).1 hc
    exact ⟨by simp [o1, o1'], fun j => by simp [o2 j, o2' j]⟩
  · obtain ⟨o1, o2⟩ := (h.outside t i c).2 j hc
    obtain ⟨o1', o2'⟩ := (h'.outside t i c).2 j hc
    exact ⟨by simp [o1, o1'], by simp [o2, o2']⟩
  · show a * ms (t + 1) i j c + ms' (t + 1) i j c = G.b j (point (atV i j) (c j)) *
      G.D (atV i j) j (a • sig t i j + sig' t i j) c + G.a j (point (atV i j) (c j)) * (a * ms t i j c + ms' t i j c)
    rw [G.D_add, h.ms_next t i j c hc, h'.ms_next t i j c hc]
    ring
  · have e : ∑ j, (G.D (atV i j) j (a • sig t i j + sig' t i j) c + (a * ms (t + 1) i j c + ms' (t + 1) i j c)) =
        a * ∑ j, (G.D (atV i j) j (sig t i j) c + ms (t + 1) i j c) +
          ∑ j, (G.D (atV i j) j (sig' t i j) c + ms' (t + 1) i j c) := by
      rw [Finset.mul_sum, ← Finset.sum_add_distrib]
      refine Finset.sum_congr rfl fun k _ => ?_
      rw [G.D_add]
      ring
    show a * v (t + 1) i c + v' (t + 1) i c = a * v t i c + v' t i c + G.dt * B i c *
      (∑ j, (G.D (atV i j) j (a • sig t i j + sig' t i j) c + (a * ms (t + 1) i j c + ms' (t + 1) i j c)) +
        (a * qv t i c + qv' t i c))
    rw [e, h.velocity t i c hc, h'.velocity t i c hc]
    ring
  · show a * mv (t + 1) i j c + mv' (t + 1) i j c = G.b j (point (atS i j j) (c j)) *
      G.D (atS i j j) j (a • v (t + 1) i + v' (t + 1) i) c + G.a j (point (atS i j j) (c j)) * (a * mv t i j c + mv' t i j c)
    rw [G.D_add, h.mv_next t i j c hc, h'.mv_next t i j c hc]
    ring
  · have e : ∑ k, (G.D false k (a • v (t + 1) k + v' (t + 1) k) c + (a * mv (t + 1) k k c + mv' (t + 1) k k c)) =
        a * ∑ k, (G.D false k (v (t + 1) k) c + mv (t + 1) k k c) +
          ∑ k, (G.D false k (v' (t + 1) k) c + mv' (t + 1) k k c) := by
      rw [Finset.mul_sum, ← Finset.sum_add_distrib]
      refine Finset.sum_congr rfl fun k _ => ?_
      rw [G.D_add]
      ring
    show a * sig (t + 1) i i c + sig' (t + 1) i i c = a * sig t i i c + sig' t i i c + G.dt *
      (lam c * ∑ k, (G.D false k (a • v (t + 1) k + v' (t + 1) k) c + (a * mv (t + 1) k k c + mv' (t + 1) k k c)) +
        2 * mu c * (G.D false i (a • v (t + 1) i + v' (t + 1) i) c + (a * mv (t + 1) i i c + mv' (t + 1) i i c)) -
        (a * qp t c + qp' t c))
    rw [e, G.D_add, h.normal t i c hc, h'.normal t i c hc]
    ring
  · show a * sig (t + 1) i j c + sig' (t + 1) i j c = a * sig t i j c + sig' t i j c + G.dt * muS i j c *
      ((G.D true j (a • v (t + 1) i + v' (t + 1) i) c + (a * mv (t + 1) i j c + mv' (t + 1) i j c)) +
        (G.D true i (a • v (t + 1) j + v' (t + 1) j) c + (a * mv (t + 1) j i c + mv' (t + 1) j i c)))
    rw [G.D_add, G.D_add, h.shear t i j c hij hc, h'.shear t i j c hij hc]
    ring

theorem Grid.Elastic.zero (lam mu : Fld d ℝ) (muS : Fin d → Fin d → Fld d ℝ) (B : Fin d → Fld d ℝ) :
    G.Elastic lam mu muS B 0 0 0 0 0 0 := by
  refine ⟨fun t i j => rfl, fun t i c => ⟨fun hc => ⟨rfl, fun j => rfl⟩, fun j hc => ⟨rfl, rfl⟩⟩, fun t i j c hc => ?_,
    fun t i c hc => ?_, fun t i j c hc => ?_, fun t i c hc => ?_, fun t i j c hij hc => ?_⟩
  · show (0 : ℝ) = _ * G.D (atV i j) j 0 c + _ * 0
    rw [G.D_zero']
    ring
  · show (0 : ℝ) = 0 + G.dt * B i c * (∑ j, (G.D (atV i j) j 0 c + 0) + 0)
    simp [G.D_zero']
  · show (0 : ℝ) = _ * G.D (atS i j j) j 0 c + _ * 0
    rw [G.D_zero']
    ring
  · show (0 : ℝ) = 0 + G.dt * (lam c * ∑ k, (G.D false k 0 c + 0) + 2 * mu c * (G.D false i 0 c + 0) - 0)
    simp [G.D_zero']
  · show (0 : ℝ) = 0 + G.dt * muS i j c * ((G.D true j 0 c + 0) + (G.D true i 0 c + 0))
    simp [G.D_zero']

/-! ### Sums of any number of solutions -/

variable {ι : Type*}

theorem Grid.Wave.sum (S : Finset ι) (f : ι → ℝ) {vel : Fld d ℝ} {q u : ι → ℕ → Fld d ℝ}
    {psi zeta : ι → ℕ → Fin d → Fld d ℝ} (h : ∀ i ∈ S, G.Wave vel (q i) (u i) (psi i) (zeta i)) :
    G.Wave vel (∑ i ∈ S, f i • q i) (∑ i ∈ S, f i • u i) (∑ i ∈ S, f i • psi i) (∑ i ∈ S, f i • zeta i) := by
  classical
  induction S using Finset.induction_on with
  | empty => exact Grid.Wave.zero vel
  | insert x S hx ih =>
      simp only [Finset.sum_insert hx]
      exact (h x (Finset.mem_insert_self _ _)).add (ih fun i hi => h i (Finset.mem_insert_of_mem hi)) _

theorem Grid.Scattered.sum (S : Finset ι) (f : ι → ℝ) {vel scat : Fld d ℝ} {q u w : ι → ℕ → Fld d ℝ}
    {psi zeta ps ze : ι → ℕ → Fin d → Fld d ℝ}
    (h : ∀ i ∈ S, G.Scattered vel scat (q i) (u i) (psi i) (zeta i) (w i) (ps i) (ze i)) :
    G.Scattered vel scat (∑ i ∈ S, f i • q i) (∑ i ∈ S, f i • u i) (∑ i ∈ S, f i • psi i) (∑ i ∈ S, f i • zeta i)
      (∑ i ∈ S, f i • w i) (∑ i ∈ S, f i • ps i) (∑ i ∈ S, f i • ze i) := by
  classical
  induction S using Finset.induction_on with
  | empty => exact Grid.Scattered.zero vel scat
  | insert x S hx ih =>
      simp only [Finset.sum_insert hx]
      exact (h x (Finset.mem_insert_self _ _)).add (ih fun i hi => h i (Finset.mem_insert_of_mem hi)) _

theorem Grid.Acoustic.sum (S : Finset ι) (f : ι → ℝ) {K : Fld d ℝ} {B : Fin d → Fld d ℝ} {qp p : ι → ℕ → Fld d ℝ}
    {qv v phi psi : ι → ℕ → Fin d → Fld d ℝ} (h : ∀ i ∈ S, G.Acoustic K B (qp i) (qv i) (p i) (v i) (phi i) (psi i)) :
    G.Acoustic K B (∑ i ∈ S, f i • qp i) (∑ i ∈ S, f i • qv i) (∑ i ∈ S, f i • p i) (∑ i ∈ S, f i • v i)
      (∑ i ∈ S, f i • phi i) (∑ i ∈ S, f i • psi i) := by
  classical
  induction S using Finset.induction_on with
  | empty => exact Grid.Acoustic.zero K B
  | insert x S hx ih =>
      simp only [Finset.sum_insert hx]
      exact Grid.Acoustic.add (h x (Finset.mem_insert_self _ _)) (ih fun i hi => h i (Finset.mem_insert_of_mem hi)) _

theorem Grid.Elastic.sum (S : Finset ι) (f : ι → ℝ) {lam mu : Fld d ℝ} {muS : Fin d → Fin d → Fld d ℝ}
    {B : Fin d → Fld d ℝ} {qp : ι → ℕ → Fld d ℝ} {qv v : ι → ℕ → Fin d → Fld d ℝ}
    {sig mv ms : ι → ℕ → Fin d → Fin d → Fld d ℝ}
    (h : ∀ i ∈ S, G.Elastic lam mu muS B (qp i) (qv i) (v i) (sig i) (mv i) (ms i)) :
    G.Elastic lam mu muS B (∑ i ∈ S, f i • qp i) (∑ i ∈ S, f i • qv i) (∑ i ∈ S, f i • v i) (∑ i ∈ S, f i • sig i)
      (∑ i ∈ S, f i • mv i) (∑ i ∈ S, f i • ms i) := by
  classical
  induction S using Finset.induction_on with
  | empty => exact Grid.Elastic.zero lam mu muS B
  | insert x S hx ih =>
      simp only [Finset.sum_insert hx]
      exact Grid.Elastic.add (h x (Finset.mem_insert_self _ _)) (ih fun i hi => h i (Finset.mem_insert_of_mem hi)) _

/-! ### Convolutions -/

variable {α : Type*} [AddCommGroup α] [Module ℝ α]

/-- The sum of delayed solutions that start from zero is the convolution. -/
theorem sum_delay (J : Finset ι) (N : ℕ) (f : ι → ℕ → ℝ) (x : ι → ℕ → α) (hx : ∀ j ∈ J, x j 0 = 0) {t : ℕ} (ht : t ≤ N) :
    (∑ y ∈ J ×ˢ Finset.range N, f y.1 y.2 • delay y.2 (x y.1)) t =
      ∑ j ∈ J, ∑ τ ∈ Finset.range t, f j τ • x j (t - τ) := by
  rw [Finset.sum_apply, Finset.sum_product]
  refine Finset.sum_congr rfl fun j hj => ?_
  rw [← Finset.sum_subset (Finset.range_subset_range.2 ht)]
  · refine Finset.sum_congr rfl fun τ hτ => ?_
    show f j τ • delay τ (x j) t = _
    unfold delay
    rw [if_neg (by have := Finset.mem_range.1 hτ; omega)]
  · intro τ _ hτ
    show f j τ • delay τ (x j) t = 0
    rw [delay_le (hx j hj) (by have := mt Finset.mem_range.2 hτ; omega), smul_zero]

end Dw.Spec
