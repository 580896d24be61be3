import Verif.Spec.Elastic

/-!
# The elastic wave equation without shear modulus is the acoustic one
-/

namespace Dw.Spec

variable {d : ℕ} {G : Grid d}

theorem half1_neg (p : ℕ) (dx : ℝ) (u : ℤ → ℝ) : half1 p dx (fun j => -u j) = -half1 p dx u := by
  unfold half1
  rw [← neg_div, ← Finset.sum_neg_distrib]
  congr 1
  exact Finset.sum_congr rfl fun j _ => by ring

theorem D_zero (h : Bool) (k : Fin d) : G.D h k (fun _ => 0) = fun _ => 0 := by
  funext c
  unfold Grid.D
  split_ifs
  · simp [Grid.DH, half1]
  · simp [Grid.DI, whole1]

theorem inAt_atV (i : Fin d) (c : Cell d) : G.InAt (atV i) c ↔ G.InH i c := by
  simp [Grid.InAt, Grid.InH, atV]

/-- Equal particle velocities, normal stresses that are minus the pressure, and no shear stresses. -/
structure SameFluid (p : Fld d ℝ) (v phi psi : Fin d → Fld d ℝ) (v' : Fin d → Fld d ℝ)
    (sig mv ms : Fin d → Fin d → Fld d ℝ) : Prop where
  vel : ∀ i c, v' i c = v i c
  normal : ∀ i c, sig i i c = -p c
  shear : ∀ i j c, i ≠ j → sig i j c = 0
  memV : ∀ i c, mv i i c = phi i c
  memS : ∀ i c, ms i i c = -psi i c
  memS_ne : ∀ i j c, i ≠ j → ms i j c = 0

theorem Grid.Elastic.fluid {K : Fld d ℝ} {B B' : Fin d → Fld d ℝ} {qp qp' : ℕ → Fld d ℝ}
    {qv qv' : ℕ → Fin d → Fld d ℝ} {p : ℕ → Fld d ℝ} {v phi psi : ℕ → Fin d → Fld d ℝ}
    {lam mu : Fld d ℝ} {muS : Fin d → Fin d → Fld d ℝ}
    {v' : ℕ → Fin d → Fld d ℝ} {sig mv ms : ℕ → Fin d → Fin d → Fld d ℝ}
    (h' : G.Elastic lam mu muS B' qp' qv' v' sig mv ms) (h : G.Acoustic K B qp qv p v phi psi)
    (hK : ∀ c, G.In c → lam c = K c) (hmu : ∀ c, G.In c → mu c = 0)
    (hmuS : ∀ i j c, i ≠ j → G.InAt (atS i j) c → muS i j c = 0)
    (hB : ∀ k c, G.InH k c → B' k c = B k c) (hqp : ∀ t c, G.In c → qp' t c = K c * qp t c)
    (hqv : ∀ t k c, G.InH k c → qv' t k c = qv t k c)
    (h0 : SameFluid (p 0) (v 0) (phi 0) (psi 0) (v' 0) (sig 0) (mv 0) (ms 0)) (t : ℕ) :
    SameFluid (p t) (v t) (phi t) (psi t) (v' t) (sig t) (mv t) (ms t) := by
  induction t with
  | zero => exact h0
  | succ t ih =>
      have hV : ∀ i : Fin d, atV i i = true := fun i => by simp [atV]
      have hS : ∀ i : Fin d, atS i i i = false := fun i => by simp [atS]
      have es : ∀ i, sig t i i = fun c => -p t c := fun i => funext fun c => ih.normal i c
      have es' : ∀ i j, i ≠ j → sig t i j = fun _ => 0 := fun i j hij => funext fun c => ih.shear i j c hij
      have eD : ∀ i c, G.DH i (fun c => -p t c) c = -G.DH i (p t) c := fun i c => half1_neg _ _ _
      have e1 : ∀ i c, ms (t + 1) i i c = -psi (t + 1) i c := fun i c => by
        by_cases hc : G.InH i c
        · rw [h'.ms_next t i i c ((inAt_atV i c).2 hc), h.psi_next t i c hc, hV, es, ih.memS]
          simp only [point, Grid.D, if_true, eD]
          ring
        · rw [((h'.outside _ i c).1 fun hx => hc ((inAt_atV i c).1 hx)).2, ((h.outside _ c).2 i hc).2, neg_zero]
      have e2 : ∀ i j c, i ≠ j → ms (t + 1) i j c = 0 := fun i j c hij => by
        by_cases hc : G.InAt (atV i) c
        · rw [h'.ms_next t i j c hc, es' i j hij, D_zero, ih.memS_ne i j c hij]
          ring
        · exact ((h'.outside _ i c).1 hc).2 j
      have e3 : ∀ i c, v' (t + 1) i c = v (t + 1) i c := fun i c => by
        by_cases hc : G.InH i c
        · have hsum : ∑ j, (G.D (atV i j) j (sig t i j) c + ms (t + 1) i j c) =
              -(G.DH i (p t) c + psi (t + 1) i c) := by
            rw [Finset.sum_eq_single i (fun j _ hj => by rw [es' i j hj.symm, D_zero, e2 i j c hj.symm]; ring)
              (fun hn => absurd (Finset.mem_univ i) hn), hV, es, e1]
            simp only [Grid.D, if_true, eD]
            ring
          rw [h'.velocity t i c ((inAt_atV i c).2 hc), h.velocity t i c hc, hsum, ih.vel, hB i c hc, hqv t i c hc]
          ring
        · rw [((h'.outside _ i c).1 fun hx => hc ((inAt_atV i c).1 hx)).1, ((h.outside _ c).2 i hc).1]
      have e3' : ∀ i, v' (t + 1) i = v (t + 1) i := fun i => funext (e3 i)
      have e4 : ∀ i c, mv (t + 1) i i c = phi (t + 1) i c := fun i c => by
        by_cases hc : G.In c
        · rw [h'.mv_next t i i c ((atS_self G i c).2 hc), h.phi_next t i c hc, hS, e3', ih.memV]
          simp [point, Grid.D]
        · rw [((h'.outside _ i c).2 i fun hx => hc ((atS_self G i c).1 hx)).2, ((h.outside _ c).1 hc).2 i]
      refine ⟨e3, fun i c => ?_, fun i j c hij => ?_, e4, e1, e2⟩
      · by_cases hc : G.In c
        · have hsum : ∑ k, (G.D false k (v' (t + 1) k) c + mv (t + 1) k k c) =
              ∑ k, (G.DI k (v (t + 1) k) c + phi (t + 1) k c) :=
            Finset.sum_congr rfl fun k _ => by rw [e3', e4]; simp [Grid.D]
          rw [h'.normal t i c hc, h.pressure t c hc, hsum, ih.normal, hK c hc, hmu c hc, hqp t c hc]
          ring
        · rw [((h'.outside _ i c).2 i fun hx => hc ((atS_self G i c).1 hx)).1, ((h.outside _ c).1 hc).1, neg_zero]
      · by_cases hc : G.InAt (atS i j) c
        · rw [h'.shear t i j c hij hc, hmuS i j c hij hc, ih.shear i j c hij]
          ring
        · exact ((h'.outside _ i c).2 j hc).1

end Dw.Spec
