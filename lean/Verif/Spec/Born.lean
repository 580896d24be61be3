import Verif.Spec.Grid

/-!
# Specification: the Born approximation

The scattered field solves the wave equation linearised with respect to the velocity.
-/

namespace Dw.Spec

variable {d : ℕ} (G : Grid d)

/-- `usc` is the scattered field of the background `u`, which has source `q`, for the change `scat` of the
velocity: the right-hand side is the derivative of the one of `Grid.Wave`. -/
structure Grid.Scattered (vel scat : Fld d ℝ) (q : ℕ → Fld d ℝ) (u : ℕ → Fld d ℝ) (psi zeta : ℕ → Fin d → Fld d ℝ)
    (usc : ℕ → Fld d ℝ) (psisc zetasc : ℕ → Fin d → Fld d ℝ) : Prop where
  outside : ∀ t c, ¬G.In c → usc t c = 0 ∧ ∀ k, psisc t k c = 0 ∧ zetasc t k c = 0
  wave : ∀ t c, G.In c → usc (t + 2) c - 2 * usc (t + 1) c + usc t c =
    vel c ^ 2 * G.dt ^ 2 * G.lap (usc (t + 1)) (psisc t) (zetasc t) c
      + 2 * vel c * scat c * G.dt ^ 2 * (G.lap (u (t + 1)) (psi t) (zeta t) c - q t c)
  psi_next : ∀ t k c, G.In c →
    psisc (t + 1) k c = G.b k (c k) * G.D1 k (usc (t + 1)) c + G.a k (c k) * psisc t k c
  zeta_next : ∀ t k c, G.In c → zetasc (t + 1) k c =
    G.b k (c k) * G.flux k (usc (t + 1)) (psisc t k) c + G.a k (c k) * zetasc t k c

/-- Scattered fields of the same background with the same initial values coincide. -/
theorem Grid.Scattered.unique {G : Grid d} {vel scat : Fld d ℝ} {q : ℕ → Fld d ℝ} {u : ℕ → Fld d ℝ}
    {psi zeta : ℕ → Fin d → Fld d ℝ} {w w' : ℕ → Fld d ℝ} {ps ze ps' ze' : ℕ → Fin d → Fld d ℝ}
    (h : G.Scattered vel scat q u psi zeta w ps ze) (h' : G.Scattered vel scat q u psi zeta w' ps' ze')
    (h0 : ∀ c, w 1 c = w' 1 c ∧ w 0 c = w' 0 c ∧ ∀ k, ps 0 k c = ps' 0 k c ∧ ze 0 k c = ze' 0 k c) :
    w = w' ∧ ps = ps' ∧ ze = ze' := by
  have key : ∀ t, w t = w' t ∧ w (t + 1) = w' (t + 1) ∧ ps t = ps' t ∧ ze t = ze' t := by
    intro t
    induction t with
    | zero => exact ⟨funext fun c => (h0 c).2.1, funext fun c => (h0 c).1,
        funext fun k => funext fun c => ((h0 c).2.2 k).1, funext fun k => funext fun c => ((h0 c).2.2 k).2⟩
    | succ t ih =>
        obtain ⟨i1, i2, i3, i4⟩ := ih
        refine ⟨i2, funext fun c => ?_, funext fun k => funext fun c => ?_, funext fun k => funext fun c => ?_⟩
        · by_cases hc : G.In c
          · have e := h.wave t c hc
            have e' := h'.wave t c hc
            rw [i1, i2, i3, i4] at e
            linarith
          · rw [(h.outside _ c hc).1, (h'.outside _ c hc).1]
        · by_cases hc : G.In c
          · rw [h.psi_next t k c hc, h'.psi_next t k c hc, i2, i3]
          · rw [((h.outside _ c hc).2 k).1, ((h'.outside _ c hc).2 k).1]
        · by_cases hc : G.In c
          · rw [h.zeta_next t k c hc, h'.zeta_next t k c hc, i2, i3, i4]
          · rw [((h.outside _ c hc).2 k).2, ((h'.outside _ c hc).2 k).2]
  exact ⟨funext fun t => (key t).1, funext fun t => (key t).2.2.1, funext fun t => (key t).2.2.2⟩

end Dw.Spec
