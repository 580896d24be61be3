import Verif.Spec.Born
import Verif.Spec.Elastic

/-!
# Solutions do not depend on later sources
-/

namespace Dw.Spec

variable {d : ℕ} {G : Grid d}

theorem Grid.Wave.before {vel : Fld d ℝ} {q q' : ℕ → Fld d ℝ} {u u' : ℕ → Fld d ℝ} {psi zeta psi' zeta' : ℕ → Fin d → Fld d ℝ}
    (h : G.Wave vel q u psi zeta) (h' : G.Wave vel q' u' psi' zeta') {T : ℕ} (hq : ∀ t < T, q t = q' t)
    (h0 : ∀ c, u 1 c = u' 1 c ∧ u 0 c = u' 0 c ∧ ∀ k, psi 0 k c = psi' 0 k c ∧ zeta 0 k c = zeta' 0 k c) :
    ∀ t ≤ T, u t = u' t ∧ u (t + 1) = u' (t + 1) ∧ psi t = psi' t ∧ zeta t = zeta' t := by
  intro t
  induction t with
  | zero => exact fun _ => ⟨funext fun c => (h0 c).2.1, funext fun c => (h0 c).1,
      funext fun k => funext fun c => ((h0 c).2.2 k).1, funext fun k => funext fun c => ((h0 c).2.2 k).2⟩
  | succ t ih =>
      intro ht
      obtain ⟨i1, i2, i3, i4⟩ := ih (by omega)
      refine ⟨i2, funext fun c => ?_, funext fun k => funext fun c => ?_, funext fun k => funext fun c => ?_⟩
      · by_cases hc : G.In c
        · have e := h.wave t c hc
          have e' := h'.wave t c hc
          rw [i1, i2, i3, i4, hq t (by omega)] at e
          linarith
        · rw [(h.outside _ c hc).1, (h'.outside _ c hc).1]
      · by_cases hc : G.In c
        · rw [h.psi_next t k c hc, h'.psi_next t k c hc, i2, i3]
        · rw [((h.outside _ c hc).2 k).1, ((h'.outside _ c hc).2 k).1]
      · by_cases hc : G.In c
        · rw [h.zeta_next t k c hc, h'.zeta_next t k c hc, i2, i3, i4]
        · rw [((h.outside _ c hc).2 k).2, ((h'.outside _ c hc).2 k).2]

theorem Grid.Scattered.before {vel scat : Fld d ℝ} {q q' : ℕ → Fld d ℝ} {u u' : ℕ → Fld d ℝ}
    {psi zeta psi' zeta' : ℕ → Fin d → Fld d ℝ} {w w' : ℕ → Fld d ℝ} {ps ze ps' ze' : ℕ → Fin d → Fld d ℝ}
    (h : G.Scattered vel scat q u psi zeta w ps ze) (h' : G.Scattered vel scat q' u' psi' zeta' w' ps' ze') {T : ℕ}
    (hq : ∀ t < T, q t = q' t) (hu : ∀ t ≤ T, u t = u' t ∧ u (t + 1) = u' (t + 1) ∧ psi t = psi' t ∧ zeta t = zeta' t)
    (h0 : ∀ c, w 1 c = w' 1 c ∧ w 0 c = w' 0 c ∧ ∀ k, ps 0 k c = ps' 0 k c ∧ ze 0 k c = ze' 0 k c) :
    ∀ t ≤ T, w t = w' t ∧ w (t + 1) = w' (t + 1) ∧ ps t = ps' t ∧ ze t = ze' t := by
  intro t
  induction t with
  | zero => exact fun _ => ⟨funext fun c => (h0 c).2.1, funext fun c => (h0 c).1,
      funext fun k => funext fun c => ((h0 c).2.2 k).1, funext fun k => funext fun c => ((h0 c).2.2 k).2⟩
  | succ t ih =>
      intro ht
      obtain ⟨i1, i2, i3, i4⟩ := ih (by omega)
      obtain ⟨-, j2, j3, j4⟩ := hu t (by omega)
      refine ⟨i2, funext fun c => ?_, funext fun k => funext fun c => ?_, funext fun k => funext fun c => ?_⟩
      · by_cases hc : G.In c
        · have e := h.wave t c hc
          have e' := h'.wave t c hc
          rw [i1, i2, i3, i4, j2, j3, j4, hq t (by omega)] at e
          linarith
        · rw [(h.outside _ c hc).1, (h'.outside _ c hc).1]
      · by_cases hc : G.In c
        · rw [h.psi_next t k c hc, h'.psi_next t k c hc, i2, i3]
        · rw [((h.outside _ c hc).2 k).1, ((h'.outside _ c hc).2 k).1]
      · by_cases hc : G.In c
        · rw [h.zeta_next t k c hc, h'.zeta_next t k c hc, i2, i3, i4]
        · rw [((h.outside _ c hc).2 k).2, ((h'.outside _ c hc).2 k).2]

theorem Grid.Acoustic.before {K : Fld d ℝ} {B : Fin d → Fld d ℝ} {qp qp' : ℕ → Fld d ℝ} {qv qv' : ℕ → Fin d → Fld d ℝ}
    {p p' : ℕ → Fld d ℝ} {v phi psi v' phi' psi' : ℕ → Fin d → Fld d ℝ} (h : G.Acoustic K B qp qv p v phi psi)
    (h' : G.Acoustic K B qp' qv' p' v' phi' psi') {T : ℕ} (hq : ∀ t < T, qp t = qp' t ∧ qv t = qv' t)
    (h0 : p 0 = p' 0 ∧ v 0 = v' 0 ∧ phi 0 = phi' 0 ∧ psi 0 = psi' 0) :
    ∀ t ≤ T, p t = p' t ∧ v t = v' t ∧ phi t = phi' t ∧ psi t = psi' t := by
  intro t
  induction t with
  | zero => exact fun _ => h0
  | succ t ih =>
      intro ht
      obtain ⟨i1, i2, i3, i4⟩ := ih (by omega)
      obtain ⟨q1, q2⟩ := hq t (by omega)
      have e4 : psi (t + 1) = psi' (t + 1) := funext fun k => funext fun c => by
        by_cases hc : G.InH k c
        · rw [h.psi_next t k c hc, h'.psi_next t k c hc, i1, i4]
        · rw [(((h.outside _ c).2 k) hc).2, (((h'.outside _ c).2 k) hc).2]
      have e2 : v (t + 1) = v' (t + 1) := funext fun k => funext fun c => by
        by_cases hc : G.InH k c
        · rw [h.velocity t k c hc, h'.velocity t k c hc, i1, i2, e4, q2]
        · rw [(((h.outside _ c).2 k) hc).1, (((h'.outside _ c).2 k) hc).1]
      have e3 : phi (t + 1) = phi' (t + 1) := funext fun k => funext fun c => by
        by_cases hc : G.In c
        · rw [h.phi_next t k c hc, h'.phi_next t k c hc, i3, e2]
        · rw [((h.outside _ c).1 hc).2 k, ((h'.outside _ c).1 hc).2 k]
      refine ⟨funext fun c => ?_, e2, e3, e4⟩
      by_cases hc : G.In c
      · rw [h.pressure t c hc, h'.pressure t c hc, i1, e2, e3, q1]
      · rw [((h.outside _ c).1 hc).1, ((h'.outside _ c).1 hc).1]

theorem Grid.Elastic.before {lam mu : Fld d ℝ} {muS : Fin d → Fin d → Fld d ℝ} {B : Fin d → Fld d ℝ}
    {qp qp' : ℕ → Fld d ℝ} {qv qv' v v' : ℕ → Fin d → Fld d ℝ} {sig mv ms sig' mv' ms' : ℕ → Fin d → Fin d → Fld d ℝ}
    (h : G.Elastic lam mu muS B qp qv v sig mv ms) (h' : G.Elastic lam mu muS B qp' qv' v' sig' mv' ms') {T : ℕ}
    (hq : ∀ t < T, qp t = qp' t ∧ qv t = qv' t)
    (h0 : v 0 = v' 0 ∧ sig 0 = sig' 0 ∧ mv 0 = mv' 0 ∧ ms 0 = ms' 0) :
    ∀ t ≤ T, v t = v' t ∧ sig t = sig' t ∧ mv t = mv' t ∧ ms t = ms' t := by
  intro t
  induction t with
  | zero => exact fun _ => h0
  | succ t ih =>
      intro ht
      obtain ⟨i1, i2, i3, i4⟩ := ih (by omega)
      obtain ⟨q1, q2⟩ := hq t (by omega)
      have e4 : ms (t + 1) = ms' (t + 1) := funext fun i => funext fun j => funext fun c => by
        by_cases hc : G.InAt (atV i) c
        · rw [h.ms_next t i j c hc, h'.ms_next t i j c hc, i2, i4]
        · rw [((h.outside _ i c).1 hc).2, ((h'.outside _ i c).1 hc).2]
      have e1 : v (t + 1) = v' (t + 1) := funext fun i => funext fun c => by
        by_cases hc : G.InAt (atV i) c
        · rw [h.velocity t i c hc, h'.velocity t i c hc, i1, i2, e4, q2]
        · rw [((h.outside _ i c).1 hc).1, ((h'.outside _ i c).1 hc).1]
      have e3 : mv (t + 1) = mv' (t + 1) := funext fun i => funext fun j => funext fun c => by
        by_cases hc : G.InAt (atS i j) c
        · rw [h.mv_next t i j c hc, h'.mv_next t i j c hc, i3, e1]
        · rw [((h.outside _ i c).2 j hc).2, ((h'.outside _ i c).2 j hc).2]
      refine ⟨e1, funext fun i => funext fun j => funext fun c => ?_, e3, e4⟩
      by_cases hc : G.InAt (atS i j) c
      · by_cases hij : i = j
        · subst hij
          rw [atS_self] at hc
          rw [h.normal t i c hc, h'.normal t i c hc, i2, e1, e3, q1]
        · rw [h.shear t i j c hij hc, h'.shear t i j c hij hc, i2, e1, e3]
      · rw [((h.outside _ i c).2 j hc).1, ((h'.outside _ i c).2 j hc).1]

end Dw.Spec
