import Mathlib.Analysis.SpecialFunctions.Log.Basic
import Mathlib.Analysis.Real.Pi.Bounds
import Mathlib.Order.ConditionallyCompleteLattice.Finset
import Verif.Spec.Stencil

/-!
# Specification: the grid, the PML profiles and the scalar wave equation

In the coordinates of the models that the user passes: the cell with index `c` of the model is cell `c`,
cells of the PML have indices below the first or above the last cell of the part of the model in use.
-/

namespace Dw.Spec

/-- Cells `lo k ≤ c k ≤ hi k` of the model are in use, with `w0 k` and `w1 k` cells of PML around. -/
structure Grid (d : ℕ) where
  acc : Acc
  dx : Fin d → ℝ
  dt : ℝ
  lo : Fin d → ℤ
  hi : Fin d → ℤ
  w0 : Fin d → ℤ
  w1 : Fin d → ℤ
  /-- velocity and frequency for which the PML is made -/
  vmax : ℝ
  freq : ℝ

variable {d : ℕ} (G : Grid d)

/-- The cells of the model and of the PML. -/
def Grid.In (c : Cell d) : Prop := ∀ k, G.lo k - G.w0 k ≤ c k ∧ c k ≤ G.hi k + G.w1 k

/-- How far a point is in the PML: from 0 at its edge to 1 at its last cell, 0 outside. -/
noncomputable def Grid.depth (k : Fin d) (x : ℝ) : ℝ :=
  if x < G.lo k ∧ 0 < G.w0 k then min 1 ((G.lo k - x) / G.w0 k)
  else if (G.hi k : ℝ) < x ∧ 0 < G.w1 k then min 1 ((x - G.hi k) / G.w1 k)
  else 0

/-- The largest width of the PML. -/
noncomputable def Grid.width : ℝ := ⨆ k, max (G.w0 k * G.dx k) (G.w1 k * G.dx k)

/-- Damping: quadratic, for a reflection of `1 / 1000`. -/
noncomputable def Grid.sigma (k : Fin d) (x : ℝ) : ℝ :=
  3 * G.vmax * Real.log 1000 / (2 * G.width) * G.depth k x ^ 2

/-- Frequency shift: decreases linearly. -/
noncomputable def Grid.alpha (k : Fin d) (x : ℝ) : ℝ := Real.pi * G.freq * (1 - G.depth k x)

/-- The coefficients of the recursive convolution. -/
noncomputable def Grid.a (k : Fin d) (x : ℝ) : ℝ :=
  if G.depth k x = 0 then 0 else Real.exp (-(G.sigma k x + G.alpha k x) * |G.dt|)

noncomputable def Grid.b (k : Fin d) (x : ℝ) : ℝ :=
  G.sigma k x / (G.sigma k x + G.alpha k x) * (Real.exp (-(G.sigma k x + G.alpha k x) * |G.dt|) - 1)

/-! ### The scalar wave equation -/

/-- Finite-difference derivatives. -/
noncomputable def Grid.D1 (k : Fin d) (u : Fld d ℝ) : Fld d ℝ := fun c =>
  central1 (G.acc.order / 2) (G.dx k) fun j => u (c.shift k j)
noncomputable def Grid.D2 (k : Fin d) (u : Fld d ℝ) : Fld d ℝ := fun c =>
  central2 (G.acc.order / 2) (G.dx k) fun j => u (c.shift k j)

/-- `∂((1 + b) ∂u + a ψ)`, with the derivative of the product written out. -/
noncomputable def Grid.flux (k : Fin d) (u psi : Fld d ℝ) : Fld d ℝ := fun c =>
  (1 + G.b k (c k)) * G.D2 k u c + G.D1 k (fun c => G.b k (c k)) c * G.D1 k u c
    + G.D1 k (fun c => G.a k (c k) * psi c) c

/-- The Laplacian in stretched coordinates. -/
noncomputable def Grid.lap (u : Fld d ℝ) (psi zeta : Fin d → Fld d ℝ) : Fld d ℝ := fun c =>
  ∑ k, ((1 + G.b k (c k)) * G.flux k u (psi k) c + G.a k (c k) * zeta k c)

/-- `u (t + 1)` is the wavefield before time step `t` and `u t` the one before that; `q t` is added to the
right-hand side in time step `t`. -/
structure Grid.Wave (vel : Fld d ℝ) (q : ℕ → Fld d ℝ) (u : ℕ → Fld d ℝ) (psi zeta : ℕ → Fin d → Fld d ℝ) :
    Prop where
  outside : ∀ t c, ¬G.In c → u t c = 0 ∧ ∀ k, psi t k c = 0 ∧ zeta t k c = 0
  wave : ∀ t c, G.In c → u (t + 2) c - 2 * u (t + 1) c + u t c =
    vel c ^ 2 * G.dt ^ 2 * (G.lap (u (t + 1)) (psi t) (zeta t) c - q t c)
  psi_next : ∀ t k c, G.In c → psi (t + 1) k c = G.b k (c k) * G.D1 k (u (t + 1)) c + G.a k (c k) * psi t k c
  zeta_next : ∀ t k c, G.In c → zeta (t + 1) k c =
    G.b k (c k) * G.flux k (u (t + 1)) (psi t k) c + G.a k (c k) * zeta t k c

/-- Solutions with the same initial values coincide. -/
theorem Grid.Wave.unique {G : Grid d} {vel : Fld d ℝ} {q : ℕ → Fld d ℝ} {u u' : ℕ → Fld d ℝ}
    {psi zeta psi' zeta' : ℕ → Fin d → Fld d ℝ} (h : G.Wave vel q u psi zeta) (h' : G.Wave vel q u' psi' zeta')
    (h0 : ∀ c, u 1 c = u' 1 c ∧ u 0 c = u' 0 c ∧ ∀ k, psi 0 k c = psi' 0 k c ∧ zeta 0 k c = zeta' 0 k c) :
    u = u' ∧ psi = psi' ∧ zeta = zeta' := by
  have key : ∀ t, u t = u' t ∧ u (t + 1) = u' (t + 1) ∧ psi t = psi' t ∧ zeta t = zeta' t := by
    intro t
    induction t with
    | zero => exact ⟨funext fun c => (h0 c).2.1, funext fun c => (h0 c).1,
        funext fun k => funext fun c => ((h0 c).2.2 k).1, funext fun k => funext fun c => ((h0 c).2.2 k).2⟩
    | succ t ih =>
        obtain ⟨i1, i2, i3, i4⟩ := ih
        refine ⟨i2, funext fun c => ?_, funext fun k => funext fun c => ?_, funext fun k => funext fun c => ?_⟩
        · by_cases hc : G.In c
          · have e := h.wave t c hc
            have e' := h'.wave t c hc
            rw [i1, i2, i3, i4] at e
            linarith
          · rw [(h.outside _ c hc).1, (h'.outside _ c hc).1]
        · by_cases hc : G.In c
          · rw [h.psi_next t k c hc, h'.psi_next t k c hc, i2, i3]
          · rw [((h.outside _ c hc).2 k).1, ((h'.outside _ c hc).2 k).1]
        · by_cases hc : G.In c
          · rw [h.zeta_next t k c hc, h'.zeta_next t k c hc, i2, i3, i4]
          · rw [((h.outside _ c hc).2 k).2, ((h'.outside _ c hc).2 k).2]
  exact ⟨funext fun t => (key t).1, funext fun t => (key t).2.2.1, funext fun t => (key t).2.2.2⟩

/-- A model continued beyond the cells in use by its values in the outermost ones. -/
def Grid.extend (m : Fld d ℝ) : Fld d ℝ := fun c => m fun k => max (G.lo k) (min (G.hi k) (c k))

open Classical in
/-- A model continued by zero. -/
noncomputable def Grid.extendZero (m : Fld d ℝ) : Fld d ℝ := fun c =>
  if ∀ k, G.lo k ≤ c k ∧ c k ≤ G.hi k then m c else 0

end Dw.Spec
