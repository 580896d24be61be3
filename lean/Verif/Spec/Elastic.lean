import Verif.Spec.Acoustic

/-!
# Specification: the elastic wave equation on a staggered grid

Velocity component `i` with index `c` is half a cell after `c` in dimension `i`, and the shear stress `i j`
half a cell after `c` in dimensions `i` and `j`; normal stresses are in the cells.
-/

namespace Dw.Spec

variable {d : ℕ} (G : Grid d)

/-- The dimensions in which a velocity component and a component of the stress are between the cells. -/
def atV (i : Fin d) : Fin d → Bool := fun k => decide (k = i)
def atS (i j : Fin d) : Fin d → Bool := fun k => decide (i ≠ j ∧ (k = i ∨ k = j))

/-- The points between cells in the dimensions `L`. -/
def Grid.InAt (L : Fin d → Bool) (c : Cell d) : Prop := G.In c ∧ ∀ k, L k = true → c k < G.hi k + G.w1 k

/-- The derivative along dimension `k` and the coefficients of the PML, in (`h = false`) or between cells. -/
noncomputable def Grid.D (h : Bool) (k : Fin d) (u : Fld d ℝ) : Fld d ℝ := if h then G.DH k u else G.DI k u
noncomputable def point (h : Bool) (x : ℤ) : ℝ := if h then x + 1 / 2 else x

/-- The harmonic mean of the four values around the point of a shear stress, zero if one of them is too
small. -/
noncomputable def harmonic (small : ℝ) (m : Fld d ℝ) (i j : Fin d) : Fld d ℝ := fun c =>
  let l := [m c, m (c.shift i 1), m (c.shift j 1), m ((c.shift i 1).shift j 1)]
  if ∀ x ∈ l, small < |x| then 4 / (l.map fun x => 1 / x).sum else 0

/-- Particle velocity `v i` and stress `sig i j`, with the memory variables `ms i j` for the derivative of
`sig i j` and `mv i j` for that of `v i` along `j`; the values with index `t` are those before time step `t`.
`qp t` and `qv t i` are sources of pressure and force. -/
structure Grid.Elastic (lam mu : Fld d ℝ) (muS : Fin d → Fin d → Fld d ℝ) (B : Fin d → Fld d ℝ) (qp : ℕ → Fld d ℝ)
    (qv : ℕ → Fin d → Fld d ℝ) (v : ℕ → Fin d → Fld d ℝ) (sig mv ms : ℕ → Fin d → Fin d → Fld d ℝ) : Prop where
  symm : ∀ t i j, sig t i j = sig t j i
  outside : ∀ t i c, (¬G.InAt (atV i) c → v t i c = 0 ∧ ∀ j, ms t i j c = 0) ∧
    ∀ j, ¬G.InAt (atS i j) c → sig t i j c = 0 ∧ mv t i j c = 0
  ms_next : ∀ t i j c, G.InAt (atV i) c → ms (t + 1) i j c =
    G.b j (point (atV i j) (c j)) * G.D (atV i j) j (sig t i j) c + G.a j (point (atV i j) (c j)) * ms t i j c
  velocity : ∀ t i c, G.InAt (atV i) c → v (t + 1) i c = v t i c + G.dt * B i c *
    (∑ j, (G.D (atV i j) j (sig t i j) c + ms (t + 1) i j c) + qv t i c)
  mv_next : ∀ t i j c, G.InAt (atS i j) c → mv (t + 1) i j c =
    G.b j (point (atS i j j) (c j)) * G.D (atS i j j) j (v (t + 1) i) c + G.a j (point (atS i j j) (c j)) * mv t i j c
  normal : ∀ t i c, G.In c → sig (t + 1) i i c = sig t i i c + G.dt *
    (lam c * ∑ k, (G.D false k (v (t + 1) k) c + mv (t + 1) k k c)
      + 2 * mu c * (G.D false i (v (t + 1) i) c + mv (t + 1) i i c) - qp t c)
  shear : ∀ t i j c, i ≠ j → G.InAt (atS i j) c → sig (t + 1) i j c = sig t i j c + G.dt * muS i j c *
    ((G.D true j (v (t + 1) i) c + mv (t + 1) i j c) + (G.D true i (v (t + 1) j) c + mv (t + 1) j i c))

theorem atS_self (i : Fin d) (c : Cell d) : G.InAt (atS i i) c ↔ G.In c := by
  simp [Grid.InAt, atS]

/-- Solutions with the same initial values coincide. -/
theorem Grid.Elastic.unique {G : Grid d} {lam mu : Fld d ℝ} {muS : Fin d → Fin d → Fld d ℝ} {B : Fin d → Fld d ℝ}
    {qp : ℕ → Fld d ℝ} {qv v v' : ℕ → Fin d → Fld d ℝ} {sig mv ms sig' mv' ms' : ℕ → Fin d → Fin d → Fld d ℝ}
    (h : G.Elastic lam mu muS B qp qv v sig mv ms) (h' : G.Elastic lam mu muS B qp qv v' sig' mv' ms')
    (h0 : v 0 = v' 0 ∧ sig 0 = sig' 0 ∧ mv 0 = mv' 0 ∧ ms 0 = ms' 0) :
    v = v' ∧ sig = sig' ∧ mv = mv' ∧ ms = ms' := by
  have key : ∀ t, v t = v' t ∧ sig t = sig' t ∧ mv t = mv' t ∧ ms t = ms' t := by
    intro t
    induction t with
    | zero => exact h0
    | succ t ih =>
        obtain ⟨i1, i2, i3, i4⟩ := ih
        have e4 : ms (t + 1) = ms' (t + 1) := funext fun i => funext fun j => funext fun c => by
          by_cases hc : G.InAt (atV i) c
          · rw [h.ms_next t i j c hc, h'.ms_next t i j c hc, i2, i4]
          · rw [((h.outside _ i c).1 hc).2, ((h'.outside _ i c).1 hc).2]
        have e1 : v (t + 1) = v' (t + 1) := funext fun i => funext fun c => by
          by_cases hc : G.InAt (atV i) c
          · rw [h.velocity t i c hc, h'.velocity t i c hc, i1, i2, e4]
          · rw [((h.outside _ i c).1 hc).1, ((h'.outside _ i c).1 hc).1]
        have e3 : mv (t + 1) = mv' (t + 1) := funext fun i => funext fun j => funext fun c => by
          by_cases hc : G.InAt (atS i j) c
          · rw [h.mv_next t i j c hc, h'.mv_next t i j c hc, i3, e1]
          · rw [((h.outside _ i c).2 j hc).2, ((h'.outside _ i c).2 j hc).2]
        refine ⟨e1, funext fun i => funext fun j => funext fun c => ?_, e3, e4⟩
        by_cases hc : G.InAt (atS i j) c
        · by_cases hij : i = j
          · subst hij
            rw [atS_self] at hc
            rw [h.normal t i c hc, h'.normal t i c hc, i2, e1, e3]
          · rw [h.shear t i j c hij hc, h'.shear t i j c hij hc, i2, e1, e3]
        · rw [((h.outside _ i c).2 j hc).1, ((h'.outside _ i c).2 j hc).1]
  exact ⟨funext fun t => (key t).1, funext fun t => (key t).2.1, funext fun t => (key t).2.2.1,
    funext fun t => (key t).2.2.2⟩

end Dw.Spec
