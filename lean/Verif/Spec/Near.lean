import Verif.Spec.Born
import Verif.Spec.Elastic

/-!
# Solutions only depend on what is near
-/

namespace Dw.Spec

variable {d : ℕ} {G : Grid d}

/-- The cells at most `n` cells away along each axis. -/
def Near (c₀ : Cell d) (n : ℤ) (c : Cell d) : Prop := ∀ k, |c k - c₀ k| ≤ n

theorem Near.mono {c₀ c : Cell d} {m n : ℤ} (h : Near c₀ m c) (hmn : m ≤ n) : Near c₀ n c := fun k => (h k).trans hmn

theorem Near.shift {c₀ c : Cell d} {m n : ℤ} (h : Near c₀ m c) {k : Fin d} {j : ℤ} (hj : m + |j| ≤ n) :
    Near c₀ n (c.shift k j) := by
  intro i
  have h1 := h i
  have h2 := abs_nonneg j
  by_cases e : i = k
  · subst e
    have : c.shift i j i = c i + j := by simp [Cell.shift]
    rw [this]
    calc |c i + j - c₀ i| = |(c i - c₀ i) + j| := by ring_nf
      _ ≤ |c i - c₀ i| + |j| := abs_add_le _ _
      _ ≤ n := by omega
  · have : c.shift k j i = c i := by simp [Cell.shift, e]
    rw [this]
    omega

/-- Half the width of the stencils. -/
def Grid.half (G : Grid d) : ℤ := (G.acc.order / 2 : ℕ)

theorem Grid.D1_near (k : Fin d) {u u' : Fld d ℝ} {c : Cell d} (h : ∀ j, |j| ≤ G.half → u (c.shift k j) = u' (c.shift k j)) :
    G.D1 k u c = G.D1 k u' c := by
  unfold Grid.D1 central1
  congr 1
  refine Finset.sum_congr rfl fun j hj => ?_
  have hj := Finset.mem_range.1 hj
  beta_reduce
  rw [h _ (by unfold Grid.half; rw [abs_of_nonneg] <;> omega), h _ (by unfold Grid.half; rw [abs_neg, abs_of_nonneg] <;> omega)]

theorem Grid.D2_near (k : Fin d) {u u' : Fld d ℝ} {c : Cell d} (h : ∀ j, |j| ≤ G.half → u (c.shift k j) = u' (c.shift k j)) :
    G.D2 k u c = G.D2 k u' c := by
  unfold Grid.D2 central2
  congr 1
  refine Finset.sum_congr rfl fun j hj => ?_
  have hj := Finset.mem_range.1 hj
  beta_reduce
  rw [h (j + 1) (by unfold Grid.half; rw [abs_of_nonneg] <;> omega),
    h (-(j + 1)) (by unfold Grid.half; rw [abs_neg, abs_of_nonneg] <;> omega), h 0 (by unfold Grid.half; rw [abs_zero]; omega)]

theorem Grid.DH_near (k : Fin d) {u u' : Fld d ℝ} {c : Cell d} (h : ∀ j, |j| ≤ G.half → u (c.shift k j) = u' (c.shift k j)) :
    G.DH k u c = G.DH k u' c := by
  unfold Grid.DH half1
  congr 1
  refine Finset.sum_congr rfl fun j hj => ?_
  have hj := Finset.mem_range.1 hj
  beta_reduce
  rw [h _ (by unfold Grid.half; rw [abs_of_nonneg] <;> omega), h _ (by unfold Grid.half; rw [abs_neg, abs_of_nonneg] <;> omega)]

theorem Grid.DI_near (k : Fin d) {u u' : Fld d ℝ} {c : Cell d} (h : ∀ j, |j| ≤ G.half → u (c.shift k j) = u' (c.shift k j)) :
    G.DI k u c = G.DI k u' c := by
  unfold Grid.DI whole1
  congr 1
  refine Finset.sum_congr rfl fun j hj => ?_
  have hj := Finset.mem_range.1 hj
  beta_reduce
  rw [h _ (by unfold Grid.half; rw [abs_of_nonneg] <;> omega), h _ (by unfold Grid.half; rw [abs_neg, abs_of_nonneg] <;> omega)]

theorem Grid.D_near (b : Bool) (k : Fin d) {u u' : Fld d ℝ} {c : Cell d}
    (h : ∀ j, |j| ≤ G.half → u (c.shift k j) = u' (c.shift k j)) : G.D b k u c = G.D b k u' c := by
  cases b
  · exact G.DI_near k h
  · exact G.DH_near k h

theorem Grid.flux_near (k : Fin d) {u u' psi psi' : Fld d ℝ} {c : Cell d}
    (h : ∀ j, |j| ≤ G.half → u (c.shift k j) = u' (c.shift k j) ∧ psi (c.shift k j) = psi' (c.shift k j)) :
    G.flux k u psi c = G.flux k u' psi' c := by
  unfold Grid.flux
  rw [G.D2_near k fun j hj => (h j hj).1, G.D1_near k (u := u) (u' := u') fun j hj => (h j hj).1,
    G.D1_near k (u := fun c => G.a k (c k) * psi c) (u' := fun c => G.a k (c k) * psi' c) fun j hj => by rw [(h j hj).2]]

theorem Grid.lap_near {u u' : Fld d ℝ} {psi zeta psi' zeta' : Fin d → Fld d ℝ} {c : Cell d}
    (h : ∀ k j, |j| ≤ G.half → u (c.shift k j) = u' (c.shift k j) ∧ psi k (c.shift k j) = psi' k (c.shift k j))
    (hz : ∀ k, zeta k c = zeta' k c) : G.lap u psi zeta c = G.lap u' psi' zeta' c := by
  unfold Grid.lap
  refine Finset.sum_congr rfl fun k _ => ?_
  rw [G.flux_near k (h k), hz]

theorem Grid.half_nonneg : 0 ≤ G.half := by
  unfold Grid.half
  omega

theorem Grid.half_pos : 1 ≤ G.half := by
  unfold Grid.half
  cases G.acc <;> decide

/-- A continued model near a cell of the model. -/
theorem Grid.extend_near {c₀ c : Cell d} {n : ℤ} {m m' : Fld d ℝ} (h0 : ∀ k, G.lo k ≤ c₀ k ∧ c₀ k ≤ G.hi k)
    (h : ∀ c, (∀ k, G.lo k ≤ c k ∧ c k ≤ G.hi k) → Near c₀ n c → m c = m' c) (hc : Near c₀ n c) :
    G.extend m c = G.extend m' c := by
  refine h _ (fun k => ?_) fun k => ?_
  · have := h0 k
    omega
  · have := h0 k
    have := abs_le.1 (hc k)
    rw [abs_le]
    omega

theorem Grid.extendZero_near {c₀ c : Cell d} {n : ℤ} {m m' : Fld d ℝ}
    (h : ∀ c, (∀ k, G.lo k ≤ c k ∧ c k ≤ G.hi k) → Near c₀ n c → m c = m' c) (hc : Near c₀ n c) :
    G.extendZero m c = G.extendZero m' c := by
  unfold Grid.extendZero
  split_ifs with hi
  · exact h c hi hc
  · rfl

theorem mean_near {c₀ c : Cell d} {n : ℤ} {m m' : Fld d ℝ} (h : ∀ c, Near c₀ n c → m c = m' c) (k : Fin d)
    (hc : Near c₀ (n - 1) c) : mean m k c = mean m' k c := by
  unfold mean
  rw [h c (hc.mono (by omega)), h _ (hc.shift (by norm_num))]

theorem harmonic_near {c₀ c : Cell d} {n : ℤ} {m m' : Fld d ℝ} (h : ∀ c, Near c₀ n c → m c = m' c) (small : ℝ)
    (i j : Fin d) (hc : Near c₀ (n - 2) c) : harmonic small m i j c = harmonic small m' i j c := by
  unfold harmonic
  have h1 : Near c₀ (n - 1) (c.shift i 1) := hc.shift (by norm_num; omega)
  rw [h c (hc.mono (by omega)), h _ (h1.mono (by omega)), h _ (hc.shift (by norm_num)), h _ (h1.shift (by norm_num))]

/-- The wavefield moves at most half the width of the stencil in a time step. -/
theorem Grid.Wave.near {vel vel' : Fld d ℝ} {q q' : ℕ → Fld d ℝ} {u u' : ℕ → Fld d ℝ}
    {psi zeta psi' zeta' : ℕ → Fin d → Fld d ℝ} (h : G.Wave vel q u psi zeta) (h' : G.Wave vel' q' u' psi' zeta')
    {c₀ : Cell d} {T : ℕ} (hv : ∀ c, Near c₀ (G.half * T) c → vel c = vel' c)
    (hq : ∀ t c, Near c₀ (G.half * T) c → q t c = q' t c)
    (h0 : ∀ c, u 1 c = u' 1 c ∧ u 0 c = u' 0 c ∧ ∀ k, psi 0 k c = psi' 0 k c ∧ zeta 0 k c = zeta' 0 k c) :
    ∀ t ≤ T, ∀ c, Near c₀ (G.half * (T - t)) c →
      u t c = u' t c ∧ u (t + 1) c = u' (t + 1) c ∧ ∀ k, psi t k c = psi' t k c ∧ zeta t k c = zeta' t k c := by
  intro t
  have hp := G.half_nonneg
  induction t with
  | zero => exact fun _ c _ => ⟨(h0 c).2.1, (h0 c).1, (h0 c).2.2⟩
  | succ t ih =>
      intro ht c hc
      push_cast at hc
      have ih := ih (by omega)
      have hcT : Near c₀ (G.half * T) c := hc.mono (by nlinarith)
      have hct : Near c₀ (G.half * (T - t)) c := hc.mono (by nlinarith)
      have hn : ∀ k j, |j| ≤ G.half → Near c₀ (G.half * (T - t)) (c.shift k j) := fun k j hj => hc.shift (by linarith)
      obtain ⟨i1, i2, i3⟩ := ih c hct
      refine ⟨i2, ?_, fun k => ⟨?_, ?_⟩⟩
      · by_cases hin : G.In c
        · have e := h.wave t c hin
          have e' := h'.wave t c hin
          rw [i1, i2, hv c hcT, hq t c hcT, G.lap_near (fun k j hj => ⟨(ih _ (hn k j hj)).2.1, ((ih _ (hn k j hj)).2.2 k).1⟩)
            fun k => (i3 k).2] at e
          linarith
        · rw [(h.outside _ c hin).1, (h'.outside _ c hin).1]
      · by_cases hin : G.In c
        · rw [h.psi_next t k c hin, h'.psi_next t k c hin, G.D1_near k fun j hj => (ih _ (hn k j hj)).2.1, (i3 k).1]
        · rw [((h.outside _ c hin).2 k).1, ((h'.outside _ c hin).2 k).1]
      · by_cases hin : G.In c
        · rw [h.zeta_next t k c hin, h'.zeta_next t k c hin,
            G.flux_near k fun j hj => ⟨(ih _ (hn k j hj)).2.1, ((ih _ (hn k j hj)).2.2 k).1⟩, (i3 k).2]
        · rw [((h.outside _ c hin).2 k).2, ((h'.outside _ c hin).2 k).2]

theorem Grid.Scattered.near {vel vel' scat scat' : Fld d ℝ} {q q' : ℕ → Fld d ℝ} {u u' : ℕ → Fld d ℝ}
    {psi zeta psi' zeta' : ℕ → Fin d → Fld d ℝ} {w w' : ℕ → Fld d ℝ} {ps ze ps' ze' : ℕ → Fin d → Fld d ℝ}
    (h : G.Scattered vel scat q u psi zeta w ps ze) (h' : G.Scattered vel' scat' q' u' psi' zeta' w' ps' ze')
    {c₀ : Cell d} {T : ℕ} (hv : ∀ c, Near c₀ (G.half * T) c → vel c = vel' c ∧ scat c = scat' c)
    (hq : ∀ t c, Near c₀ (G.half * T) c → q t c = q' t c)
    (hu : ∀ t ≤ T, ∀ c, Near c₀ (G.half * (T - t)) c →
      u t c = u' t c ∧ u (t + 1) c = u' (t + 1) c ∧ ∀ k, psi t k c = psi' t k c ∧ zeta t k c = zeta' t k c)
    (h0 : ∀ c, w 1 c = w' 1 c ∧ w 0 c = w' 0 c ∧ ∀ k, ps 0 k c = ps' 0 k c ∧ ze 0 k c = ze' 0 k c) :
    ∀ t ≤ T, ∀ c, Near c₀ (G.half * (T - t)) c →
      w t c = w' t c ∧ w (t + 1) c = w' (t + 1) c ∧ ∀ k, ps t k c = ps' t k c ∧ ze t k c = ze' t k c := by
  intro t
  have hp := G.half_nonneg
  induction t with
  | zero => exact fun _ c _ => ⟨(h0 c).2.1, (h0 c).1, (h0 c).2.2⟩
  | succ t ih =>
      intro ht c hc
      push_cast at hc
      have ih := ih (by omega)
      have hu := hu t (by omega)
      have hcT : Near c₀ (G.half * T) c := hc.mono (by nlinarith)
      have hct : Near c₀ (G.half * (T - t)) c := hc.mono (by nlinarith)
      have hn : ∀ k j, |j| ≤ G.half → Near c₀ (G.half * (T - t)) (c.shift k j) := fun k j hj => hc.shift (by linarith)
      obtain ⟨i1, i2, i3⟩ := ih c hct
      obtain ⟨j1, j2, j3⟩ := hu c hct
      refine ⟨i2, ?_, fun k => ⟨?_, ?_⟩⟩
      · by_cases hin : G.In c
        · have e := h.wave t c hin
          have e' := h'.wave t c hin
          rw [i1, i2, (hv c hcT).1, (hv c hcT).2, hq t c hcT,
            G.lap_near (u := w (t + 1)) (fun k j hj => ⟨(ih _ (hn k j hj)).2.1, ((ih _ (hn k j hj)).2.2 k).1⟩)
            fun k => (i3 k).2, G.lap_near (u := u (t + 1))
            (fun k j hj => ⟨(hu _ (hn k j hj)).2.1, ((hu _ (hn k j hj)).2.2 k).1⟩) fun k => (j3 k).2] at e
          linarith
        · rw [(h.outside _ c hin).1, (h'.outside _ c hin).1]
      · by_cases hin : G.In c
        · rw [h.psi_next t k c hin, h'.psi_next t k c hin, G.D1_near k fun j hj => (ih _ (hn k j hj)).2.1, (i3 k).1]
        · rw [((h.outside _ c hin).2 k).1, ((h'.outside _ c hin).2 k).1]
      · by_cases hin : G.In c
        · rw [h.zeta_next t k c hin, h'.zeta_next t k c hin,
            G.flux_near k fun j hj => ⟨(ih _ (hn k j hj)).2.1, ((ih _ (hn k j hj)).2.2 k).1⟩, (i3 k).2]
        · rw [((h.outside _ c hin).2 k).2, ((h'.outside _ c hin).2 k).2]

/-- Pressure and velocity move half the width of the stencil each. -/
theorem Grid.Acoustic.near {K K' : Fld d ℝ} {B B' : Fin d → Fld d ℝ} {qp qp' : ℕ → Fld d ℝ} {qv qv' : ℕ → Fin d → Fld d ℝ}
    {p p' : ℕ → Fld d ℝ} {v phi psi v' phi' psi' : ℕ → Fin d → Fld d ℝ} (h : G.Acoustic K B qp qv p v phi psi)
    (h' : G.Acoustic K' B' qp' qv' p' v' phi' psi') {c₀ : Cell d} {T : ℕ}
    (hK : ∀ c, Near c₀ (2 * G.half * T) c → K c = K' c) (hB : ∀ k c, Near c₀ (2 * G.half * T - G.half) c → B k c = B' k c)
    (hq : ∀ t c, Near c₀ (2 * G.half * T) c → qp t c = qp' t c ∧ ∀ k, qv t k c = qv' t k c)
    (h0 : p 0 = p' 0 ∧ v 0 = v' 0 ∧ phi 0 = phi' 0 ∧ psi 0 = psi' 0) :
    ∀ t ≤ T, ∀ c, Near c₀ (2 * G.half * (T - t)) c →
      p t c = p' t c ∧ ∀ k, v t k c = v' t k c ∧ phi t k c = phi' t k c ∧ psi t k c = psi' t k c := by
  intro t
  have hp := G.half_nonneg
  induction t with
  | zero =>
      obtain ⟨e1, e2, e3, e4⟩ := h0
      exact fun _ c _ => ⟨by rw [e1], fun k => ⟨by rw [e2], by rw [e3], by rw [e4]⟩⟩
  | succ t ih =>
      intro ht
      have ih := ih (by omega)
      have ht' : (t : ℤ) + 1 ≤ T := by exact_mod_cast ht
      have hv : ∀ c, Near c₀ (2 * G.half * (T - t) - G.half) c →
          ∀ k, v (t + 1) k c = v' (t + 1) k c ∧ psi (t + 1) k c = psi' (t + 1) k c := by
        intro c hc k
        obtain ⟨i1, i2⟩ := ih c (hc.mono (by linarith))
        have hn : ∀ j, |j| ≤ G.half → p t (c.shift k j) = p' t (c.shift k j) := fun j hj => (ih _ (hc.shift (by linarith))).1
        have hB := hB k c (hc.mono (by nlinarith))
        have hq := (hq t c (hc.mono (by nlinarith))).2 k
        have e : psi (t + 1) k c = psi' (t + 1) k c := by
          by_cases hin : G.InH k c
          · rw [h.psi_next t k c hin, h'.psi_next t k c hin, G.DH_near k hn, (i2 k).2.2]
          · rw [(((h.outside _ c).2 k) hin).2, (((h'.outside _ c).2 k) hin).2]
        refine ⟨?_, e⟩
        by_cases hin : G.InH k c
        · rw [h.velocity t k c hin, h'.velocity t k c hin, G.DH_near k hn, (i2 k).1, e, hB, hq]
        · rw [(((h.outside _ c).2 k) hin).1, (((h'.outside _ c).2 k) hin).1]
      intro c hc
      push_cast at hc
      obtain ⟨i1, i2⟩ := ih c (hc.mono (by linarith))
      have hK := hK c (hc.mono (by nlinarith))
      have hq := (hq t c (hc.mono (by nlinarith))).1
      have hn : ∀ k j, |j| ≤ G.half → v (t + 1) k (c.shift k j) = v' (t + 1) k (c.shift k j) := fun k j hj =>
        (hv _ (hc.shift (by linarith)) k).1
      have e3 : ∀ k, phi (t + 1) k c = phi' (t + 1) k c := fun k => by
        by_cases hin : G.In c
        · rw [h.phi_next t k c hin, h'.phi_next t k c hin, G.DI_near k (hn k), (i2 k).2.1]
        · rw [((h.outside _ c).1 hin).2 k, ((h'.outside _ c).1 hin).2 k]
      have hvc := hv c (hc.mono (by linarith))
      refine ⟨?_, fun k => ⟨(hvc k).1, e3 k, (hvc k).2⟩⟩
      by_cases hin : G.In c
      · rw [h.pressure t c hin, h'.pressure t c hin, i1, hK, hq,
          Finset.sum_congr rfl fun k _ => show _ = G.DI k (v' (t + 1) k) c + phi' (t + 1) k c by
            rw [G.DI_near k (hn k), e3]]
      · rw [((h.outside _ c).1 hin).1, ((h'.outside _ c).1 hin).1]

theorem Grid.Elastic.near {lam mu lam' mu' : Fld d ℝ} {muS muS' : Fin d → Fin d → Fld d ℝ} {B B' : Fin d → Fld d ℝ}
    {qp qp' : ℕ → Fld d ℝ} {qv qv' v v' : ℕ → Fin d → Fld d ℝ} {sig mv ms sig' mv' ms' : ℕ → Fin d → Fin d → Fld d ℝ}
    (h : G.Elastic lam mu muS B qp qv v sig mv ms) (h' : G.Elastic lam' mu' muS' B' qp' qv' v' sig' mv' ms')
    {c₀ : Cell d} {T : ℕ} (hl : ∀ c, Near c₀ (2 * G.half * T) c → lam c = lam' c ∧ mu c = mu' c)
    (hS : ∀ i j c, Near c₀ (2 * G.half * T - 2 * G.half) c → muS i j c = muS' i j c)
    (hB : ∀ k c, Near c₀ (2 * G.half * T - G.half) c → B k c = B' k c)
    (hq : ∀ t c, Near c₀ (2 * G.half * T) c → qp t c = qp' t c ∧ ∀ k, qv t k c = qv' t k c)
    (h0 : v 0 = v' 0 ∧ sig 0 = sig' 0 ∧ mv 0 = mv' 0 ∧ ms 0 = ms' 0) :
    ∀ t ≤ T, ∀ c, Near c₀ (2 * G.half * (T - t)) c → ∀ i, v t i c = v' t i c ∧
      ∀ j, sig t i j c = sig' t i j c ∧ mv t i j c = mv' t i j c ∧ ms t i j c = ms' t i j c := by
  intro t
  have hp := G.half_nonneg
  induction t with
  | zero =>
      obtain ⟨e1, e2, e3, e4⟩ := h0
      exact fun _ c _ i => ⟨by rw [e1], fun j => ⟨by rw [e2], by rw [e3], by rw [e4]⟩⟩
  | succ t ih =>
      intro ht
      have ih := ih (by omega)
      have ht' : (t : ℤ) + 1 ≤ T := by exact_mod_cast ht
      have hv : ∀ c, Near c₀ (2 * G.half * (T - t) - G.half) c →
          ∀ i, v (t + 1) i c = v' (t + 1) i c ∧ ∀ j, ms (t + 1) i j c = ms' (t + 1) i j c := by
        intro c hc i
        obtain ⟨i1, i2⟩ := ih c (hc.mono (by linarith)) i
        have hn : ∀ j x, |x| ≤ G.half → sig t i j (c.shift j x) = sig' t i j (c.shift j x) := fun j x hx =>
          ((ih _ (hc.shift (by linarith)) i).2 j).1
        have hB := hB i c (hc.mono (by nlinarith))
        have hq := (hq t c (hc.mono (by nlinarith))).2 i
        have e : ∀ j, ms (t + 1) i j c = ms' (t + 1) i j c := fun j => by
          by_cases hin : G.InAt (atV i) c
          · rw [h.ms_next t i j c hin, h'.ms_next t i j c hin, G.D_near _ j (hn j), (i2 j).2.2]
          · rw [((h.outside _ i c).1 hin).2, ((h'.outside _ i c).1 hin).2]
        refine ⟨?_, e⟩
        by_cases hin : G.InAt (atV i) c
        · rw [h.velocity t i c hin, h'.velocity t i c hin, i1, hB, hq,
            Finset.sum_congr rfl fun j _ => show _ = G.D (atV i j) j (sig' t i j) c + ms' (t + 1) i j c by
              rw [G.D_near _ j (hn j), e]]
        · rw [((h.outside _ i c).1 hin).1, ((h'.outside _ i c).1 hin).1]
      intro c hc
      push_cast at hc
      have hl := hl c (hc.mono (by nlinarith))
      have hq := (hq t c (hc.mono (by nlinarith))).1
      have hn : ∀ i k x, |x| ≤ G.half → v (t + 1) i (c.shift k x) = v' (t + 1) i (c.shift k x) := fun i k x hx =>
        (hv _ (hc.shift (by linarith)) i).1
      have e3 : ∀ i j, mv (t + 1) i j c = mv' (t + 1) i j c := fun i j => by
        by_cases hin : G.InAt (atS i j) c
        · rw [h.mv_next t i j c hin, h'.mv_next t i j c hin, G.D_near _ j (hn i j),
            ((ih c (hc.mono (by linarith)) i).2 j).2.1]
        · rw [((h.outside _ i c).2 j hin).2, ((h'.outside _ i c).2 j hin).2]
      intro i
      have hvc := hv c (hc.mono (by linarith)) i
      refine ⟨hvc.1, fun j => ⟨?_, e3 i j, hvc.2 j⟩⟩
      have hs := ((ih c (hc.mono (by linarith)) i).2 j).1
      by_cases hin : G.InAt (atS i j) c
      · by_cases hij : i = j
        · subst hij
          rw [h.normal t i c hin.1, h'.normal t i c hin.1, hs, hl.1, hl.2, hq, G.D_near _ i (hn i i), e3,
            Finset.sum_congr rfl fun k _ => show _ = G.D false k (v' (t + 1) k) c + mv' (t + 1) k k c by
              rw [G.D_near _ k (hn k k), e3]]
        · rw [h.shear t i j c hij hin, h'.shear t i j c hij hin, hs, hS i j c (hc.mono (by nlinarith)),
            G.D_near _ j (hn i j), G.D_near _ i (hn j i), e3, e3]
      · rw [((h.outside _ i c).2 j hin).1, ((h'.outside _ i c).2 j hin).1]

end Dw.Spec
