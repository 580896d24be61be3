import Verif.Spec.Inside

/-!
# Solutions seen from another origin

Cell `c` becomes cell `c - a`.
-/

namespace Dw.Spec

variable {d : ℕ} {a : Cell d} {G : Grid d}

theorem add_shift (c : Cell d) (k : Fin d) (j : ℤ) : c.shift k j + a = (c + a).shift k j := by
  funext l
  by_cases h : l = k
  · subst h
    simp [Cell.shift]
    ring
  · simp [Cell.shift, h]

/-- The grid with another origin. -/
def Grid.move (a : Cell d) (G : Grid d) : Grid d := { G with lo := fun k => G.lo k - a k, hi := fun k => G.hi k - a k }

theorem Grid.move_in (c : Cell d) : (G.move a).In c ↔ G.In (c + a) := by
  unfold Grid.In Grid.move
  refine forall_congr' fun k => ?_
  simp only [Pi.add_apply]
  omega

theorem Grid.move_top (c : Cell d) (k : Fin d) : c k < (G.move a).hi k + (G.move a).w1 k ↔ (c + a) k < G.hi k + G.w1 k := by
  simp only [Grid.move, Pi.add_apply]
  omega

theorem Grid.move_inH (k : Fin d) (c : Cell d) : (G.move a).InH k c ↔ G.InH k (c + a) := by
  unfold Grid.InH
  rw [Grid.move_in, Grid.move_top]

theorem Grid.move_inAt (L : Fin d → Bool) (c : Cell d) : (G.move a).InAt L c ↔ G.InAt L (c + a) := by
  unfold Grid.InAt
  simp only [Grid.move_in, Grid.move_top]

theorem Grid.move_depth (k : Fin d) (x : ℝ) : (G.move a).depth k x = G.depth k (x + a k) := by
  unfold Grid.depth Grid.move
  dsimp only
  push_cast
  have e1 : x < (G.lo k : ℝ) - a k ↔ x + a k < (G.lo k : ℝ) := ⟨fun h => by linarith, fun h => by linarith⟩
  have e2 : (G.hi k : ℝ) - a k < x ↔ (G.hi k : ℝ) < x + a k := ⟨fun h => by linarith, fun h => by linarith⟩
  have e3 : (G.lo k : ℝ) - a k - x = G.lo k - (x + a k) := by ring
  have e4 : x - ((G.hi k : ℝ) - a k) = x + a k - G.hi k := by ring
  simp only [e1, e2, e3, e4]

theorem Grid.move_a' (k : Fin d) (x : ℝ) : (G.move a).a k x = G.a k (x + a k) := by
  unfold Grid.a Grid.sigma Grid.alpha
  simp only [Grid.move_depth]
  rfl

theorem Grid.move_b' (k : Fin d) (x : ℝ) : (G.move a).b k x = G.b k (x + a k) := by
  unfold Grid.b Grid.sigma Grid.alpha
  simp only [Grid.move_depth]
  rfl

theorem Grid.move_a (k : Fin d) (c : Cell d) : (G.move a).a k (c k) = G.a k ((c + a) k) := by
  rw [Grid.move_a']
  simp

theorem Grid.move_b (k : Fin d) (c : Cell d) : (G.move a).b k (c k) = G.b k ((c + a) k) := by
  rw [Grid.move_b']
  simp

theorem Grid.move_ah (k : Fin d) (c : Cell d) : (G.move a).a k (c k + 1 / 2) = G.a k ((c + a) k + 1 / 2) := by
  rw [Grid.move_a']
  refine congrArg _ ?_
  simp
  ring

theorem Grid.move_bh (k : Fin d) (c : Cell d) : (G.move a).b k (c k + 1 / 2) = G.b k ((c + a) k + 1 / 2) := by
  rw [Grid.move_b']
  refine congrArg _ ?_
  simp
  ring

theorem Grid.move_ap (h : Bool) (k : Fin d) (c : Cell d) : (G.move a).a k (point h (c k)) = G.a k (point h ((c + a) k)) := by
  cases h
  · exact Grid.move_a k c
  · exact Grid.move_ah k c

theorem Grid.move_bp (h : Bool) (k : Fin d) (c : Cell d) : (G.move a).b k (point h (c k)) = G.b k (point h ((c + a) k)) := by
  cases h
  · exact Grid.move_b k c
  · exact Grid.move_bh k c

theorem Grid.move_D1 (k : Fin d) (u : Fld d ℝ) (c : Cell d) :
    (G.move a).D1 k (fun c => u (c + a)) c = G.D1 k u (c + a) := by
  unfold Grid.D1
  simp only [add_shift]
  rfl

theorem Grid.move_D2 (k : Fin d) (u : Fld d ℝ) (c : Cell d) :
    (G.move a).D2 k (fun c => u (c + a)) c = G.D2 k u (c + a) := by
  unfold Grid.D2
  simp only [add_shift]
  rfl

theorem Grid.move_DH (k : Fin d) (u : Fld d ℝ) (c : Cell d) :
    (G.move a).DH k (fun c => u (c + a)) c = G.DH k u (c + a) := by
  unfold Grid.DH
  simp only [add_shift]
  rfl

theorem Grid.move_DI (k : Fin d) (u : Fld d ℝ) (c : Cell d) :
    (G.move a).DI k (fun c => u (c + a)) c = G.DI k u (c + a) := by
  unfold Grid.DI
  simp only [add_shift]
  rfl

theorem Grid.move_D (h : Bool) (k : Fin d) (u : Fld d ℝ) (c : Cell d) :
    (G.move a).D h k (fun c => u (c + a)) c = G.D h k u (c + a) := by
  cases h
  · exact Grid.move_DI k u c
  · exact Grid.move_DH k u c

theorem Grid.move_flux (k : Fin d) (u psi : Fld d ℝ) (c : Cell d) :
    (G.move a).flux k (fun c => u (c + a)) (fun c => psi (c + a)) c = G.flux k u psi (c + a) := by
  unfold Grid.flux
  simp only [Grid.move_a, Grid.move_b]
  rw [Grid.move_D2, Grid.move_D1 k u, Grid.move_D1 k fun c => G.b k (c k), Grid.move_D1 k fun c => G.a k (c k) * psi c]

theorem Grid.move_lap (u : Fld d ℝ) (psi zeta : Fin d → Fld d ℝ) (c : Cell d) :
    (G.move a).lap (fun c => u (c + a)) (fun k c => psi k (c + a)) (fun k c => zeta k (c + a)) c = G.lap u psi zeta (c + a) := by
  unfold Grid.lap
  refine Finset.sum_congr rfl fun k _ => ?_
  rw [Grid.move_flux, Grid.move_a, Grid.move_b]

theorem Grid.Wave.move {vel : Fld d ℝ} {q : ℕ → Fld d ℝ} {u : ℕ → Fld d ℝ} {psi zeta : ℕ → Fin d → Fld d ℝ}
    (h : G.Wave vel q u psi zeta) (a : Cell d) :
    (G.move a).Wave (fun c => vel (c + a)) (fun t c => q t (c + a)) (fun t c => u t (c + a)) (fun t k c => psi t k (c + a))
      (fun t k c => zeta t k (c + a)) := by
  refine ⟨fun t c hc => ?_, fun t c hc => ?_, fun t k c hc => ?_, fun t k c hc => ?_⟩ <;> rw [Grid.move_in] at hc
  · exact h.outside t _ hc
  · rw [Grid.move_lap]
    exact h.wave t _ hc
  · rw [Grid.move_D1, Grid.move_a, Grid.move_b]
    exact h.psi_next t k _ hc
  · rw [Grid.move_flux, Grid.move_a, Grid.move_b]
    exact h.zeta_next t k _ hc

theorem Grid.Scattered.move {vel scat : Fld d ℝ} {q : ℕ → Fld d ℝ} {u : ℕ → Fld d ℝ} {psi zeta : ℕ → Fin d → Fld d ℝ}
    {w : ℕ → Fld d ℝ} {ps ze : ℕ → Fin d → Fld d ℝ} (h : G.Scattered vel scat q u psi zeta w ps ze) (a : Cell d) :
    (G.move a).Scattered (fun c => vel (c + a)) (fun c => scat (c + a)) (fun t c => q t (c + a)) (fun t c => u t (c + a))
      (fun t k c => psi t k (c + a)) (fun t k c => zeta t k (c + a)) (fun t c => w t (c + a)) (fun t k c => ps t k (c + a))
      (fun t k c => ze t k (c + a)) := by
  refine ⟨fun t c hc => ?_, fun t c hc => ?_, fun t k c hc => ?_, fun t k c hc => ?_⟩ <;> rw [Grid.move_in] at hc
  · exact h.outside t _ hc
  · rw [Grid.move_lap, Grid.move_lap]
    exact h.wave t _ hc
  · rw [Grid.move_D1, Grid.move_a, Grid.move_b]
    exact h.psi_next t k _ hc
  · rw [Grid.move_flux, Grid.move_a, Grid.move_b]
    exact h.zeta_next t k _ hc

theorem Grid.Acoustic.move {K : Fld d ℝ} {B : Fin d → Fld d ℝ} {qp : ℕ → Fld d ℝ} {qv : ℕ → Fin d → Fld d ℝ}
    {p : ℕ → Fld d ℝ} {v phi psi : ℕ → Fin d → Fld d ℝ} (h : G.Acoustic K B qp qv p v phi psi) (a : Cell d) :
    (G.move a).Acoustic (fun c => K (c + a)) (fun k c => B k (c + a)) (fun t c => qp t (c + a)) (fun t k c => qv t k (c + a))
      (fun t c => p t (c + a)) (fun t k c => v t k (c + a)) (fun t k c => phi t k (c + a)) (fun t k c => psi t k (c + a)) := by
  refine ⟨fun t c => ?_, fun t k c hc => ?_, fun t k c hc => ?_, fun t k c hc => ?_, fun t c hc => ?_⟩
  · simp only [Grid.move_in, Grid.move_inH]
    exact h.outside t _
  · rw [Grid.move_inH] at hc
    rw [Grid.move_DH, Grid.move_ah, Grid.move_bh]
    exact h.psi_next t k _ hc
  · rw [Grid.move_inH] at hc
    rw [Grid.move_DH]
    exact h.velocity t k _ hc
  · rw [Grid.move_in] at hc
    rw [Grid.move_DI, Grid.move_a, Grid.move_b]
    exact h.phi_next t k _ hc
  · rw [Grid.move_in] at hc
    simp only [Grid.move_DI]
    exact h.pressure t _ hc

theorem Grid.Elastic.move {lam mu : Fld d ℝ} {muS : Fin d → Fin d → Fld d ℝ} {B : Fin d → Fld d ℝ} {qp : ℕ → Fld d ℝ}
    {qv v : ℕ → Fin d → Fld d ℝ} {sig mv ms : ℕ → Fin d → Fin d → Fld d ℝ} (h : G.Elastic lam mu muS B qp qv v sig mv ms)
    (a : Cell d) :
    (G.move a).Elastic (fun c => lam (c + a)) (fun c => mu (c + a)) (fun i j c => muS i j (c + a)) (fun k c => B k (c + a))
      (fun t c => qp t (c + a)) (fun t k c => qv t k (c + a)) (fun t k c => v t k (c + a)) (fun t i j c => sig t i j (c + a))
      (fun t i j c => mv t i j (c + a)) (fun t i j c => ms t i j (c + a)) := by
  refine ⟨fun t i j => ?_, fun t i c => ?_, fun t i j c hc => ?_, fun t i c hc => ?_, fun t i j c hc => ?_, fun t i c hc => ?_,
    fun t i j c hij hc => ?_⟩
  · rw [h.symm t i j]
  · simp only [Grid.move_inAt]
    exact h.outside t i _
  · rw [Grid.move_inAt] at hc
    rw [Grid.move_D, Grid.move_ap, Grid.move_bp]
    exact h.ms_next t i j _ hc
  · rw [Grid.move_inAt] at hc
    simp only [Grid.move_D]
    exact h.velocity t i _ hc
  · rw [Grid.move_inAt] at hc
    rw [Grid.move_D, Grid.move_ap, Grid.move_bp]
    exact h.mv_next t i j _ hc
  · rw [Grid.move_in] at hc
    simp only [Grid.move_D]
    exact h.normal t i _ hc
  · rw [Grid.move_inAt] at hc
    simp only [Grid.move_D]
    exact h.shear t i j _ hij hc

end Dw.Spec
