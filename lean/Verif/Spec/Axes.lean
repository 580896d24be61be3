import Mathlib.Logic.Equiv.Fintype
import Verif.Spec.Born
import Verif.Spec.Elastic

/-!
# Other order of the axes

Axis `k` of the new grid is axis `σ k` of the old one.
-/

namespace Dw.Spec

variable {d : ℕ} (σ : Equiv.Perm (Fin d))

/-- The cell of the old grid. -/
def turn (c : Cell d) : Cell d := fun k => c (σ.symm k)

/-- A field on the new grid. -/
def axes {R : Type*} (u : Fld d R) : Fld d R := fun c => u (turn σ c)

/-- The new grid. -/
def Grid.axes (G : Grid d) : Grid d :=
  { G with
    dx := fun k => G.dx (σ k)
    lo := fun k => G.lo (σ k)
    hi := fun k => G.hi (σ k)
    w0 := fun k => G.w0 (σ k)
    w1 := fun k => G.w1 (σ k) }

theorem turn_apply (c : Cell d) (k : Fin d) : turn σ c (σ k) = c k := by simp [turn]

theorem turn_shift (c : Cell d) (k : Fin d) (j : ℤ) : turn σ (c.shift k j) = (turn σ c).shift (σ k) j := by
  funext i
  obtain ⟨i, rfl⟩ := σ.surjective i
  rw [turn_apply]
  by_cases h : i = k
  · subst h
    rw [Cell.shift_same, Cell.shift_same, turn_apply]
  · rw [Cell.shift_ne _ _ _ _ h, Cell.shift_ne _ _ _ _ fun e => h (σ.injective e), turn_apply]

variable (G : Grid d)

theorem Grid.axes_in (c : Cell d) : (G.axes σ).In c ↔ G.In (turn σ c) := by
  unfold Grid.In
  rw [← σ.forall_congr_right (q := fun k => G.lo k - G.w0 k ≤ turn σ c k ∧ turn σ c k ≤ G.hi k + G.w1 k)]
  simp only [turn_apply]
  rfl

theorem Grid.axes_depth (k : Fin d) (x : ℝ) : (G.axes σ).depth k x = G.depth (σ k) x := rfl

theorem Grid.axes_width : (G.axes σ).width = G.width := by
  unfold Grid.width
  exact σ.iSup_comp (g := fun k => max (G.w0 k * G.dx k) (G.w1 k * G.dx k))

theorem Grid.axes_sigma (k : Fin d) (x : ℝ) : (G.axes σ).sigma k x = G.sigma (σ k) x := by
  unfold Grid.sigma
  rw [G.axes_width, G.axes_depth]
  rfl

theorem Grid.axes_alpha (k : Fin d) (x : ℝ) : (G.axes σ).alpha k x = G.alpha (σ k) x := rfl

theorem Grid.axes_a (k : Fin d) (x : ℝ) : (G.axes σ).a k x = G.a (σ k) x := by
  unfold Grid.a
  rw [G.axes_depth, G.axes_sigma, G.axes_alpha]
  rfl

theorem Grid.axes_b (k : Fin d) (x : ℝ) : (G.axes σ).b k x = G.b (σ k) x := by
  unfold Grid.b
  rw [G.axes_sigma, G.axes_alpha]
  rfl

theorem Grid.axes_D1 (k : Fin d) (u : Fld d ℝ) (c : Cell d) :
    (G.axes σ).D1 k (Spec.axes σ u) c = G.D1 (σ k) u (turn σ c) := by
  unfold Grid.D1 Spec.axes
  simp only [turn_shift]
  rfl

theorem Grid.axes_D2 (k : Fin d) (u : Fld d ℝ) (c : Cell d) :
    (G.axes σ).D2 k (Spec.axes σ u) c = G.D2 (σ k) u (turn σ c) := by
  unfold Grid.D2 Spec.axes
  simp only [turn_shift]
  rfl

theorem Grid.axes_flux (k : Fin d) (u psi : Fld d ℝ) (c : Cell d) :
    (G.axes σ).flux k (Spec.axes σ u) (Spec.axes σ psi) c = G.flux (σ k) u psi (turn σ c) := by
  unfold Grid.flux
  have e1 : (fun c : Cell d => (G.axes σ).b k (c k)) = Spec.axes σ fun c => G.b (σ k) (c (σ k)) := funext fun c => by
    rw [G.axes_b]
    simp only [Spec.axes, turn_apply]
  have e2 : (fun c : Cell d => (G.axes σ).a k (c k) * Spec.axes σ psi c) =
      Spec.axes σ fun c => G.a (σ k) (c (σ k)) * psi c := funext fun c => by
    rw [G.axes_a]
    simp only [Spec.axes, turn_apply]
  rw [e1, e2, G.axes_D2, G.axes_D1, G.axes_D1, G.axes_D1, G.axes_b, turn_apply]

theorem Grid.axes_lap (u : Fld d ℝ) (psi zeta : Fin d → Fld d ℝ) (c : Cell d) :
    (G.axes σ).lap (Spec.axes σ u) (fun k => Spec.axes σ (psi (σ k))) (fun k => Spec.axes σ (zeta (σ k))) c =
      G.lap u psi zeta (turn σ c) := by
  unfold Grid.lap
  refine Eq.trans ?_ (Equiv.sum_comp σ _)
  refine Finset.sum_congr rfl fun k _ => ?_
  rw [G.axes_flux, G.axes_b, G.axes_a, turn_apply]
  rfl

variable {σ} {G}

theorem Grid.Wave.axes {vel : Fld d ℝ} {q : ℕ → Fld d ℝ} {u : ℕ → Fld d ℝ} {psi zeta : ℕ → Fin d → Fld d ℝ}
    (h : G.Wave vel q u psi zeta) (σ : Equiv.Perm (Fin d)) :
    (G.axes σ).Wave (Spec.axes σ vel) (fun t => Spec.axes σ (q t)) (fun t => Spec.axes σ (u t))
      (fun t k => Spec.axes σ (psi t (σ k))) fun t k => Spec.axes σ (zeta t (σ k)) where
  outside := fun t c hc => by
    rw [G.axes_in] at hc
    exact ⟨(h.outside t _ hc).1, fun k => (h.outside t _ hc).2 (σ k)⟩
  wave := fun t c hc => by
    rw [G.axes_in] at hc
    rw [G.axes_lap]
    exact h.wave t _ hc
  psi_next := fun t k c hc => by
    rw [G.axes_in] at hc
    have := h.psi_next t (σ k) _ hc
    rw [turn_apply] at this
    rw [G.axes_b, G.axes_a, G.axes_D1]
    exact this
  zeta_next := fun t k c hc => by
    rw [G.axes_in] at hc
    have := h.zeta_next t (σ k) _ hc
    rw [turn_apply] at this
    rw [G.axes_b, G.axes_a, G.axes_flux]
    exact this

theorem Grid.Scattered.axes {vel scat : Fld d ℝ} {q : ℕ → Fld d ℝ} {u : ℕ → Fld d ℝ} {psi zeta : ℕ → Fin d → Fld d ℝ}
    {w : ℕ → Fld d ℝ} {ps ze : ℕ → Fin d → Fld d ℝ} (h : G.Scattered vel scat q u psi zeta w ps ze)
    (σ : Equiv.Perm (Fin d)) :
    (G.axes σ).Scattered (Spec.axes σ vel) (Spec.axes σ scat) (fun t => Spec.axes σ (q t)) (fun t => Spec.axes σ (u t))
      (fun t k => Spec.axes σ (psi t (σ k))) (fun t k => Spec.axes σ (zeta t (σ k))) (fun t => Spec.axes σ (w t))
      (fun t k => Spec.axes σ (ps t (σ k))) fun t k => Spec.axes σ (ze t (σ k)) where
  outside := fun t c hc => by
    rw [G.axes_in] at hc
    exact ⟨(h.outside t _ hc).1, fun k => (h.outside t _ hc).2 (σ k)⟩
  wave := fun t c hc => by
    rw [G.axes_in] at hc
    rw [G.axes_lap, G.axes_lap]
    exact h.wave t _ hc
  psi_next := fun t k c hc => by
    rw [G.axes_in] at hc
    have := h.psi_next t (σ k) _ hc
    rw [turn_apply] at this
    rw [G.axes_b, G.axes_a, G.axes_D1]
    exact this
  zeta_next := fun t k c hc => by
    rw [G.axes_in] at hc
    have := h.zeta_next t (σ k) _ hc
    rw [turn_apply] at this
    rw [G.axes_b, G.axes_a, G.axes_flux]
    exact this

/-! ### Staggered grids -/

section
variable (σ) (G)

theorem Grid.axes_inH (k : Fin d) (c : Cell d) : (G.axes σ).InH k c ↔ G.InH (σ k) (turn σ c) := by
  unfold Grid.InH
  rw [G.axes_in, turn_apply]
  rfl

theorem Grid.axes_DH (k : Fin d) (u : Fld d ℝ) (c : Cell d) :
    (G.axes σ).DH k (Spec.axes σ u) c = G.DH (σ k) u (turn σ c) := by
  unfold Grid.DH Spec.axes
  simp only [turn_shift]
  rfl

theorem Grid.axes_DI (k : Fin d) (u : Fld d ℝ) (c : Cell d) :
    (G.axes σ).DI k (Spec.axes σ u) c = G.DI (σ k) u (turn σ c) := by
  unfold Grid.DI Spec.axes
  simp only [turn_shift]
  rfl

theorem Grid.axes_D (b : Bool) (k : Fin d) (u : Fld d ℝ) (c : Cell d) :
    (G.axes σ).D b k (Spec.axes σ u) c = G.D b (σ k) u (turn σ c) := by
  unfold Grid.D
  cases b
  · exact G.axes_DI σ k u c
  · exact G.axes_DH σ k u c

theorem atV_axes (i k : Fin d) : atV (σ i) (σ k) = atV i k := by simp [atV]
theorem atS_axes (i j k : Fin d) : atS (σ i) (σ j) (σ k) = atS i j k := by simp [atS]

theorem Grid.axes_inAt {L L' : Fin d → Bool} (hL : ∀ k, L' (σ k) = L k) (c : Cell d) :
    (G.axes σ).InAt L c ↔ G.InAt L' (turn σ c) := by
  unfold Grid.InAt
  rw [G.axes_in, ← σ.forall_congr_right (q := fun k => L' k = true → turn σ c k < G.hi k + G.w1 k)]
  simp only [turn_apply, hL]
  rfl

theorem Grid.axes_inV (i : Fin d) (c : Cell d) : (G.axes σ).InAt (atV i) c ↔ G.InAt (atV (σ i)) (turn σ c) :=
  G.axes_inAt σ (atV_axes σ i) c

theorem Grid.axes_inS (i j : Fin d) (c : Cell d) :
    (G.axes σ).InAt (atS i j) c ↔ G.InAt (atS (σ i) (σ j)) (turn σ c) := G.axes_inAt σ (atS_axes σ i j) c

theorem mean_axes (m : Fld d ℝ) (k : Fin d) (c : Cell d) : mean (axes σ m) k c = mean m (σ k) (turn σ c) := by
  unfold mean axes
  rw [turn_shift]

theorem harmonic_axes (small : ℝ) (m : Fld d ℝ) (i j : Fin d) :
    harmonic small (axes σ m) i j = axes σ (harmonic small m (σ i) (σ j)) := by
  funext c
  unfold harmonic axes
  simp only [turn_shift]

end

theorem Grid.Acoustic.axes {K : Fld d ℝ} {B : Fin d → Fld d ℝ} {qp : ℕ → Fld d ℝ} {qv : ℕ → Fin d → Fld d ℝ}
    {p : ℕ → Fld d ℝ} {v phi psi : ℕ → Fin d → Fld d ℝ} (h : G.Acoustic K B qp qv p v phi psi)
    (σ : Equiv.Perm (Fin d)) :
    (G.axes σ).Acoustic (Spec.axes σ K) (fun k => Spec.axes σ (B (σ k))) (fun t => Spec.axes σ (qp t))
      (fun t k => Spec.axes σ (qv t (σ k))) (fun t => Spec.axes σ (p t)) (fun t k => Spec.axes σ (v t (σ k)))
      (fun t k => Spec.axes σ (phi t (σ k))) fun t k => Spec.axes σ (psi t (σ k)) where
  outside := fun t c => by
    refine ⟨fun hc => ?_, fun k hc => ?_⟩
    · rw [G.axes_in] at hc
      exact ⟨((h.outside t _).1 hc).1, fun k => ((h.outside t _).1 hc).2 (σ k)⟩
    · rw [G.axes_inH] at hc
      exact (h.outside t _).2 (σ k) hc
  psi_next := fun t k c hc => by
    rw [G.axes_inH] at hc
    have := h.psi_next t (σ k) _ hc
    rw [turn_apply] at this
    rw [G.axes_b, G.axes_a, G.axes_DH]
    exact this
  velocity := fun t k c hc => by
    rw [G.axes_inH] at hc
    rw [G.axes_DH]
    exact h.velocity t (σ k) _ hc
  phi_next := fun t k c hc => by
    rw [G.axes_in] at hc
    have := h.phi_next t (σ k) _ hc
    rw [turn_apply] at this
    rw [G.axes_b, G.axes_a, G.axes_DI]
    exact this
  pressure := fun t c hc => by
    rw [G.axes_in] at hc
    have := h.pressure t _ hc
    rw [← Equiv.sum_comp σ] at this
    simp only [G.axes_DI]
    exact this

theorem Grid.Elastic.axes {lam mu : Fld d ℝ} {muS : Fin d → Fin d → Fld d ℝ} {B : Fin d → Fld d ℝ} {qp : ℕ → Fld d ℝ}
    {qv v : ℕ → Fin d → Fld d ℝ} {sig mv ms : ℕ → Fin d → Fin d → Fld d ℝ}
    (h : G.Elastic lam mu muS B qp qv v sig mv ms) (σ : Equiv.Perm (Fin d)) :
    (G.axes σ).Elastic (Spec.axes σ lam) (Spec.axes σ mu) (fun i j => Spec.axes σ (muS (σ i) (σ j)))
      (fun k => Spec.axes σ (B (σ k))) (fun t => Spec.axes σ (qp t))
      (fun t k => Spec.axes σ (qv t (σ k))) (fun t k => Spec.axes σ (v t (σ k)))
      (fun t i j => Spec.axes σ (sig t (σ i) (σ j))) (fun t i j => Spec.axes σ (mv t (σ i) (σ j)))
      fun t i j => Spec.axes σ (ms t (σ i) (σ j)) where
  symm := fun t i j => by rw [h.symm]
  outside := fun t i c => by
    refine ⟨fun hc => ?_, fun j hc => ?_⟩
    · rw [G.axes_inV] at hc
      exact ⟨((h.outside t _ _).1 hc).1, fun j => ((h.outside t _ _).1 hc).2 (σ j)⟩
    · rw [G.axes_inS] at hc
      exact (h.outside t (σ i) _).2 (σ j) hc
  ms_next := fun t i j c hc => by
    rw [G.axes_inV] at hc
    have := h.ms_next t (σ i) (σ j) _ hc
    rw [turn_apply, atV_axes] at this
    rw [G.axes_b, G.axes_a, G.axes_D]
    exact this
  velocity := fun t i c hc => by
    rw [G.axes_inV] at hc
    have := h.velocity t (σ i) _ hc
    rw [← Equiv.sum_comp σ] at this
    simp only [atV_axes] at this
    simp only [G.axes_D]
    exact this
  mv_next := fun t i j c hc => by
    rw [G.axes_inS] at hc
    have := h.mv_next t (σ i) (σ j) _ hc
    rw [turn_apply, atS_axes] at this
    rw [G.axes_b, G.axes_a, G.axes_D]
    exact this
  normal := fun t i c hc => by
    rw [G.axes_in] at hc
    have := h.normal t (σ i) _ hc
    rw [← Equiv.sum_comp σ] at this
    simp only [G.axes_D]
    exact this
  shear := fun t i j c hij hc => by
    rw [G.axes_inS] at hc
    have := h.shear t (σ i) (σ j) _ (fun e => hij (σ.injective e)) hc
    simp only [G.axes_D]
    exact this

end Dw.Spec
