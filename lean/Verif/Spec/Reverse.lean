import Verif.Spec.Born

/-!
# Time reversal

Without PML the equations do not distinguish the past from the future.
-/

namespace Dw.Spec

variable {d : ℕ} {G : Grid d}

/-- There is no PML. -/
def Grid.NoPml (G : Grid d) : Prop := ∀ k, G.w0 k = 0 ∧ G.w1 k = 0

theorem Grid.NoPml.depth (h : G.NoPml) (k : Fin d) (x : ℝ) : G.depth k x = 0 := by
  simp [Grid.depth, (h k).1, (h k).2]

theorem Grid.NoPml.a (h : G.NoPml) (k : Fin d) (x : ℝ) : G.a k x = 0 := if_pos (h.depth k x)

theorem Grid.NoPml.b (h : G.NoPml) (k : Fin d) (x : ℝ) : G.b k x = 0 := by
  simp [Grid.b, Grid.sigma, h.depth]

theorem Grid.NoPml.lap (h : G.NoPml) (u : Fld d ℝ) (psi zeta : Fin d → Fld d ℝ) (c : Cell d) :
    G.lap u psi zeta c = ∑ k, G.D2 k u c := by
  simp [Grid.lap, Grid.flux, h.a, h.b, Grid.D1, central1]

/-- A solution that starts with the last two wavefields of another, and has its sources in the opposite order, is that
solution in the opposite order. -/
theorem Grid.Wave.reversed (hG : G.NoPml) {vel : Fld d ℝ} {q q' : ℕ → Fld d ℝ} {u u' : ℕ → Fld d ℝ}
    {psi zeta psi' zeta' : ℕ → Fin d → Fld d ℝ} (h : G.Wave vel q u psi zeta) (h' : G.Wave vel q' u' psi' zeta') (N : ℕ)
    (hq : ∀ t < N, q' t = q (N - 1 - t)) (h0 : u' 0 = u (N + 1)) (h1 : u' 1 = u N) :
    ∀ t ≤ N, u' t = u (N + 1 - t) ∧ u' (t + 1) = u (N - t) := by
  intro t
  induction t with
  | zero => exact fun _ => ⟨h0, h1⟩
  | succ t ih =>
      intro ht
      obtain ⟨i1, i2⟩ := ih (by omega)
      obtain ⟨m, rfl⟩ : ∃ m, N = m + t + 1 := ⟨N - t - 1, by omega⟩
      rw [show m + t + 1 + 1 - t = m + 2 by omega] at i1
      rw [show m + t + 1 - t = m + 1 by omega] at i2
      rw [show m + t + 1 + 1 - (t + 1) = m + 1 by omega, show m + t + 1 - (t + 1) = m by omega]
      refine ⟨i2, funext fun c => ?_⟩
      by_cases hc : G.In c
      · have e := h.wave m c hc
        have e' := h'.wave t c hc
        rw [hG.lap] at e e'
        rw [i1, i2, hq t (by omega), show m + t + 1 - 1 - t = m by omega] at e'
        rw [show t + 1 + 1 = t + 2 by omega]
        linarith
      · rw [(h.outside _ c hc).1, (h'.outside _ c hc).1]

theorem Grid.Scattered.reversed (hG : G.NoPml) {vel scat : Fld d ℝ} {q q' : ℕ → Fld d ℝ} {u u' : ℕ → Fld d ℝ}
    {psi zeta psi' zeta' : ℕ → Fin d → Fld d ℝ} {w w' : ℕ → Fld d ℝ} {ps ze ps' ze' : ℕ → Fin d → Fld d ℝ}
    (h : G.Scattered vel scat q u psi zeta w ps ze) (h' : G.Scattered vel scat q' u' psi' zeta' w' ps' ze') (N : ℕ)
    (hq : ∀ t < N, q' t = q (N - 1 - t)) (hu : ∀ t ≤ N, u' t = u (N + 1 - t) ∧ u' (t + 1) = u (N - t))
    (h0 : w' 0 = w (N + 1)) (h1 : w' 1 = w N) :
    ∀ t ≤ N, w' t = w (N + 1 - t) ∧ w' (t + 1) = w (N - t) := by
  intro t
  induction t with
  | zero => exact fun _ => ⟨h0, h1⟩
  | succ t ih =>
      intro ht
      obtain ⟨i1, i2⟩ := ih (by omega)
      have hu' := (hu t (by omega)).2
      obtain ⟨m, rfl⟩ : ∃ m, N = m + t + 1 := ⟨N - t - 1, by omega⟩
      rw [show m + t + 1 + 1 - t = m + 2 by omega] at i1
      rw [show m + t + 1 - t = m + 1 by omega] at i2 hu'
      rw [show m + t + 1 + 1 - (t + 1) = m + 1 by omega, show m + t + 1 - (t + 1) = m by omega]
      refine ⟨i2, funext fun c => ?_⟩
      by_cases hc : G.In c
      · have e := h.wave m c hc
        have e' := h'.wave t c hc
        rw [hG.lap, hG.lap] at e e'
        rw [i1, i2, hu', hq t (by omega), show m + t + 1 - 1 - t = m by omega] at e'
        rw [show t + 1 + 1 = t + 2 by omega]
        linarith
      · rw [(h.outside _ c hc).1, (h'.outside _ c hc).1]

end Dw.Spec
