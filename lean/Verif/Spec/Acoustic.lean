import Verif.Spec.Grid

/-!
# Specification: the acoustic wave equation on a staggered grid

Component `k` of the particle velocity with index `c` is half a cell after `c` in dimension `k`.
-/

namespace Dw.Spec

variable {d : ℕ} (G : Grid d)

/-- The half points between cells. -/
def Grid.InH (k : Fin d) (c : Cell d) : Prop := G.In c ∧ c k < G.hi k + G.w1 k

/-- Derivatives at half points of values in cells, and in cells of values at half points. -/
noncomputable def Grid.DH (k : Fin d) (u : Fld d ℝ) : Fld d ℝ := fun c =>
  half1 (G.acc.order / 2) (G.dx k) fun j => u (c.shift k j)
noncomputable def Grid.DI (k : Fin d) (u : Fld d ℝ) : Fld d ℝ := fun c =>
  whole1 (G.acc.order / 2) (G.dx k) fun j => u (c.shift k j)

/-- The mean of a model at a half point. -/
noncomputable def mean (m : Fld d ℝ) (k : Fin d) : Fld d ℝ := fun c => (m c + m (c.shift k 1)) / 2

/-- The inverse, where it is not too large. -/
noncomputable def inverse (small x : ℝ) : ℝ := if small < |x| then 1 / x else 0

/-- Pressure and particle velocity, with the memory variables `phi` for the divergence and `psi` for the
gradient; the values with index `t` are those before time step `t`.  `qp t` and `qv t k` are sources. -/
structure Grid.Acoustic (K : Fld d ℝ) (B : Fin d → Fld d ℝ) (qp : ℕ → Fld d ℝ) (qv : ℕ → Fin d → Fld d ℝ)
    (p : ℕ → Fld d ℝ) (v phi psi : ℕ → Fin d → Fld d ℝ) : Prop where
  outside : ∀ t c, (¬G.In c → p t c = 0 ∧ ∀ k, phi t k c = 0) ∧ ∀ k, ¬G.InH k c → v t k c = 0 ∧ psi t k c = 0
  psi_next : ∀ t k c, G.InH k c →
    psi (t + 1) k c = G.b k (c k + 1 / 2) * G.DH k (p t) c + G.a k (c k + 1 / 2) * psi t k c
  velocity : ∀ t k c, G.InH k c →
    v (t + 1) k c = v t k c - G.dt * B k c * (G.DH k (p t) c + psi (t + 1) k c - qv t k c)
  phi_next : ∀ t k c, G.In c →
    phi (t + 1) k c = G.b k (c k) * G.DI k (v (t + 1) k) c + G.a k (c k) * phi t k c
  pressure : ∀ t c, G.In c →
    p (t + 1) c = p t c - G.dt * K c * (∑ k, (G.DI k (v (t + 1) k) c + phi (t + 1) k c) - qp t c)

/-- Solutions with the same initial values coincide. -/
theorem Grid.Acoustic.unique {G : Grid d} {K : Fld d ℝ} {B : Fin d → Fld d ℝ} {qp : ℕ → Fld d ℝ}
    {qv : ℕ → Fin d → Fld d ℝ} {p p' : ℕ → Fld d ℝ} {v phi psi v' phi' psi' : ℕ → Fin d → Fld d ℝ}
    (h : G.Acoustic K B qp qv p v phi psi) (h' : G.Acoustic K B qp qv p' v' phi' psi')
    (h0 : p 0 = p' 0 ∧ v 0 = v' 0 ∧ phi 0 = phi' 0 ∧ psi 0 = psi' 0) :
    p = p' ∧ v = v' ∧ phi = phi' ∧ psi = psi' := by
  have key : ∀ t, p t = p' t ∧ v t = v' t ∧ phi t = phi' t ∧ psi t = psi' t := by
    intro t
    induction t with
    | zero => exact h0
    | succ t ih =>
        obtain ⟨i1, i2, i3, i4⟩ := ih
        have e4 : psi (t + 1) = psi' (t + 1) := funext fun k => funext fun c => by
          by_cases hc : G.InH k c
          · rw [h.psi_next t k c hc, h'.psi_next t k c hc, i1, i4]
          · rw [(((h.outside _ c).2 k) hc).2, (((h'.outside _ c).2 k) hc).2]
        have e2 : v (t + 1) = v' (t + 1) := funext fun k => funext fun c => by
          by_cases hc : G.InH k c
          · rw [h.velocity t k c hc, h'.velocity t k c hc, i1, i2, e4]
          · rw [(((h.outside _ c).2 k) hc).1, (((h'.outside _ c).2 k) hc).1]
        have e3 : phi (t + 1) = phi' (t + 1) := funext fun k => funext fun c => by
          by_cases hc : G.In c
          · rw [h.phi_next t k c hc, h'.phi_next t k c hc, i3, e2]
          · rw [((h.outside _ c).1 hc).2 k, ((h'.outside _ c).1 hc).2 k]
        refine ⟨funext fun c => ?_, e2, e3, e4⟩
        by_cases hc : G.In c
        · rw [h.pressure t c hc, h'.pressure t c hc, i1, e2, e3]
        · rw [((h.outside _ c).1 hc).1, ((h'.outside _ c).1 hc).1]
  exact ⟨funext fun t => (key t).1, funext fun t => (key t).2.1, funext fun t => (key t).2.2.1,
    funext fun t => (key t).2.2.2⟩

end Dw.Spec
