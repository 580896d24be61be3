import Verif.Spec.Near

/-!
# Solutions on different grids agree until the waves have been to the edges and back
-/

namespace Dw.Spec

variable {d : ℕ}

/-- The cells at least `n` cells away from the edges of a box. -/
def Inside (L H : Fin d → ℤ) (n : ℤ) (c : Cell d) : Prop := ∀ k, L k + n ≤ c k ∧ c k + n ≤ H k

theorem Inside.mono {L H : Fin d → ℤ} {m n : ℤ} {c : Cell d} (h : Inside L H n c) (hmn : m ≤ n) : Inside L H m c :=
  fun k => ⟨by have := (h k).1; omega, by have := (h k).2; omega⟩

theorem Inside.shift {L H : Fin d → ℤ} {m n : ℤ} {c : Cell d} (h : Inside L H n c) {k : Fin d} {j : ℤ} (hj : m + |j| ≤ n) :
    Inside L H m (c.shift k j) := by
  intro i
  have h1 := h i
  have h2 := abs_nonneg j
  have h3 := le_abs_self j
  have h4 := neg_abs_le j
  by_cases e : i = k
  · subst e
    have : c.shift i j i = c i + j := by simp [Cell.shift]
    rw [this]
    omega
  · have : c.shift k j i = c i := by simp [Cell.shift, e]
    rw [this]
    omega

theorem shift_shift_neg (c : Cell d) (k : Fin d) (j : ℤ) : (c.shift k j).shift k (-j) = c := by
  funext i
  by_cases e : i = k
  · subst e
    simp [Cell.shift]
  · simp [Cell.shift, e]

theorem Inside.not_shift {L H : Fin d → ℤ} {m n : ℤ} {c : Cell d} (h : ¬Inside L H m c) {k : Fin d} {j : ℤ} (hj : m + |j| ≤ n) :
    ¬Inside L H n (c.shift k j) := fun h' => h (by
  have := h'.shift (m := m) (k := k) (j := -j) (by rwa [abs_neg])
  rwa [shift_shift_neg] at this)

theorem Near.inside {L H : Fin d → ℤ} {m n r : ℤ} {c₀ c : Cell d} (hc : Near c₀ r c) (h : Inside L H n c₀) (hm : m + r ≤ n) :
    Inside L H m c := fun k => by
  have := abs_le.1 (hc k)
  have := h k
  omega

/-- The box is in the part of the model in use. -/
structure Grid.Holds (G : Grid d) (L H : Fin d → ℤ) : Prop where
  lo : ∀ k, G.lo k ≤ L k
  hi : ∀ k, H k ≤ G.hi k
  w0 : ∀ k, 0 ≤ G.w0 k
  w1 : ∀ k, 0 ≤ G.w1 k

/-- Grids with the same cells and time steps, but perhaps other edges and another PML. -/
structure Grid.Alike (G G' : Grid d) : Prop where
  acc : G'.acc = G.acc
  dx : G'.dx = G.dx
  dt : G'.dt = G.dt

section
variable {G : Grid d} {L H : Fin d → ℤ}

theorem Grid.a_of_depth {k : Fin d} {x : ℝ} (h : G.depth k x = 0) : G.a k x = 0 := by
  unfold Grid.a
  rw [if_pos h]

theorem Grid.b_of_depth {k : Fin d} {x : ℝ} (h : G.depth k x = 0) : G.b k x = 0 := by
  unfold Grid.b Grid.sigma
  rw [h]
  simp

theorem Grid.depth_inside {k : Fin d} {x : ℝ} (h1 : (G.lo k : ℝ) ≤ x) (h2 : x ≤ G.hi k) : G.depth k x = 0 := by
  unfold Grid.depth
  rw [if_neg fun h => absurd h.1 (not_lt.2 h1), if_neg fun h => absurd h.1 (not_lt.2 h2)]

theorem Grid.Holds.depth (h : G.Holds L H) {c : Cell d} (hc : Inside L H 0 c) (k : Fin d) : G.depth k (c k) = 0 := by
  have h1 := h.lo k
  have h2 := h.hi k
  have h3 := hc k
  exact G.depth_inside (by exact_mod_cast (by omega : G.lo k ≤ c k)) (by exact_mod_cast (by omega : c k ≤ G.hi k))

theorem Grid.Holds.depth_half (h : G.Holds L H) {c : Cell d} (hc : Inside L H 1 c) (k : Fin d) :
    G.depth k (c k + 1 / 2) = 0 := by
  have h1 := h.lo k
  have h2 := h.hi k
  have h3 := hc k
  have e1 : (G.lo k : ℝ) ≤ c k := by exact_mod_cast (by omega : G.lo k ≤ c k)
  have e2 : (c k : ℝ) + 1 ≤ G.hi k := by exact_mod_cast (by omega : c k + 1 ≤ G.hi k)
  exact G.depth_inside (by linarith) (by linarith)

theorem Grid.Holds.a (h : G.Holds L H) {c : Cell d} (hc : Inside L H 0 c) (k : Fin d) : G.a k (c k) = 0 :=
  G.a_of_depth (h.depth hc k)

theorem Grid.Holds.b (h : G.Holds L H) {c : Cell d} (hc : Inside L H 0 c) (k : Fin d) : G.b k (c k) = 0 :=
  G.b_of_depth (h.depth hc k)

theorem Grid.Holds.In (h : G.Holds L H) {c : Cell d} (hc : Inside L H 0 c) : G.In c := fun k => by
  have h1 := h.lo k
  have h2 := h.hi k
  have h3 := hc k
  have h4 := h.w0 k
  have h5 := h.w1 k
  omega

theorem Grid.D1_null (k : Fin d) (c : Cell d) : G.D1 k (fun _ => 0) c = 0 := by
  simp [Grid.D1, central1]

theorem Grid.D2_null (k : Fin d) (c : Cell d) : G.D2 k (fun _ => 0) c = 0 := by
  simp [Grid.D2, central2]

theorem Grid.D_null (b : Bool) (k : Fin d) (c : Cell d) : G.D b k (fun _ => 0) c = 0 := by
  cases b <;> simp [Grid.D, Grid.DI, Grid.DH, whole1, half1]

theorem Grid.D1_of_zero {k : Fin d} {u : Fld d ℝ} {c : Cell d} (h : ∀ j, |j| ≤ G.half → u (c.shift k j) = 0) :
    G.D1 k u c = 0 := (G.D1_near k h).trans (G.D1_null k c)

theorem Grid.D2_of_zero {k : Fin d} {u : Fld d ℝ} {c : Cell d} (h : ∀ j, |j| ≤ G.half → u (c.shift k j) = 0) :
    G.D2 k u c = 0 := (G.D2_near k h).trans (G.D2_null k c)

theorem Grid.D_of_zero {b : Bool} {k : Fin d} {u : Fld d ℝ} {c : Cell d} (h : ∀ j, |j| ≤ G.half → u (c.shift k j) = 0) :
    G.D b k u c = 0 := (G.D_near b k h).trans (G.D_null b k c)

theorem Grid.flux_of_zero {k : Fin d} {u psi : Fld d ℝ} {c : Cell d} (h : ∀ j, |j| ≤ G.half → u (c.shift k j) = 0)
    (hp : ∀ c, psi c = 0) : G.flux k u psi c = 0 := by
  unfold Grid.flux
  rw [G.D1_of_zero h, G.D2_of_zero h, G.D1_of_zero (u := fun c => G.a k (c k) * psi c) fun j _ => by rw [hp, mul_zero]]
  ring

/-- Away from the PML there are only second derivatives. -/
theorem Grid.Holds.lap (h : G.Holds L H) {u : Fld d ℝ} {psi zeta : Fin d → Fld d ℝ} {c : Cell d} (hc : Inside L H G.half c)
    (hz : ∀ k, zeta k c = 0) : G.lap u psi zeta c = ∑ k, G.D2 k u c := by
  have hh := G.half_nonneg
  unfold Grid.lap
  refine Finset.sum_congr rfl fun k _ => ?_
  have hc0 := hc.mono hh
  have hs : ∀ j, |j| ≤ G.half → Inside L H 0 (c.shift k j) := fun j hj => hc.shift (by omega)
  unfold Grid.flux
  rw [G.D1_of_zero (u := fun c => G.a k (c k) * psi k c) fun j hj => by rw [h.a (hs j hj), zero_mul],
    G.D1_of_zero (u := fun c => G.b k (c k)) fun j hj => by rw [h.b (hs j hj)], h.b hc0, hz, h.a hc0]
  ring

/-! ### The scalar wave equation -/

/-- No memory away from the PML. -/
theorem Grid.Wave.calm (h : G.Holds L H) {vel : Fld d ℝ} {q u : ℕ → Fld d ℝ} {psi zeta : ℕ → Fin d → Fld d ℝ}
    (hw : G.Wave vel q u psi zeta) (h0 : ∀ k c, psi 0 k c = 0 ∧ zeta 0 k c = 0) {c : Cell d} (hc : Inside L H 0 c) (t : ℕ)
    (k : Fin d) : psi t k c = 0 ∧ zeta t k c = 0 := by
  cases t with
  | zero => exact h0 k c
  | succ t =>
      rw [hw.psi_next t k c (h.In hc), hw.zeta_next t k c (h.In hc), h.a hc, h.b hc]
      simp

/-- The waves stay away from the edges for a while. -/
theorem Grid.Wave.confined {vel : Fld d ℝ} {q u : ℕ → Fld d ℝ} {psi zeta : ℕ → Fin d → Fld d ℝ}
    (h : G.Holds L H) (hw : G.Wave vel q u psi zeta)
    (h0 : ∀ c, u 1 c = 0 ∧ u 0 c = 0 ∧ ∀ k, psi 0 k c = 0 ∧ zeta 0 k c = 0) {T : ℕ}
    (hq : ∀ t c, ¬Inside L H (G.half * T) c → q t c = 0) :
    ∀ t ≤ T, (∀ c, ¬Inside L H (G.half * (T + 1 - t)) c → u t c = 0 ∧ u (t + 1) c = 0) ∧
      ∀ c k, psi t k c = 0 ∧ zeta t k c = 0 := by
  have hh := G.half_nonneg
  intro t
  induction t with
  | zero => exact fun _ => ⟨fun c _ => ⟨(h0 c).2.1, (h0 c).1⟩, fun c k => (h0 c).2.2 k⟩
  | succ t ih =>
      intro ht
      obtain ⟨i1, i2⟩ := ih (by omega)
      have hT : (1 : ℤ) ≤ T - t := by omega
      have e1 : G.half * ((T : ℤ) + 1 - t) = G.half * (T - t) + G.half := by ring
      have e2 : G.half * ((T : ℤ) + 1 - (t + 1 : ℕ)) = G.half * (T - t) := by push_cast; ring
      have e3 : G.half * 1 ≤ G.half * ((T : ℤ) - t) := mul_le_mul_of_nonneg_left hT hh
      have e4 : G.half * ((T : ℤ) - t) ≤ G.half * T := mul_le_mul_of_nonneg_left (by omega) hh
      -- the derivatives vanish at the edges
      have hu : ∀ c, ¬Inside L H (G.half * (T - t)) c → ∀ k j, |j| ≤ G.half → u (t + 1) (c.shift k j) = 0 :=
        fun c hc k j hj => (i1 _ (Inside.not_shift hc (by omega))).2
      refine ⟨fun c hc => ?_, fun c k => ?_⟩
      · rw [e2] at hc
        refine ⟨(i1 c fun hc' => hc (hc'.mono (by omega))).2, ?_⟩
        by_cases hi : G.In c
        · have e := hw.wave t c hi
          have hl : G.lap (u (t + 1)) (psi t) (zeta t) c = 0 := by
            unfold Grid.lap
            refine Finset.sum_eq_zero fun k _ => ?_
            rw [G.flux_of_zero (hu c hc k) fun c => (i2 c k).1, (i2 c k).2]
            ring
          rw [hl, hq t c fun hc' => hc (hc'.mono e4), (i1 c fun hc' => hc (hc'.mono (by omega))).1,
            (i1 c fun hc' => hc (hc'.mono (by omega))).2] at e
          linarith
        · exact (hw.outside _ c hi).1
      · by_cases hc0 : Inside L H 0 c
        · exact hw.calm h (fun k c => (h0 c).2.2 k) hc0 _ k
        · by_cases hi : G.In c
          · have hu' := hu c (fun hc' => hc0 (hc'.mono (by omega))) k
            rw [hw.psi_next t k c hi, hw.zeta_next t k c hi, G.D1_of_zero hu', G.flux_of_zero hu' fun c => (i2 c k).1,
              (i2 c k).1, (i2 c k).2]
            simp
          · exact (hw.outside _ c hi).2 k

end

theorem Grid.Alike.half {G G' : Grid d} (e : G.Alike G') : G'.half = G.half := by
  unfold Grid.half
  rw [e.acc]

theorem Grid.Alike.D2 {G G' : Grid d} (e : G.Alike G') (k : Fin d) (u : Fld d ℝ) (c : Cell d) : G'.D2 k u c = G.D2 k u c := by
  unfold Grid.D2
  rw [e.acc, e.dx]

theorem Grid.Alike.D {G G' : Grid d} (e : G.Alike G') (b : Bool) (k : Fin d) (u : Fld d ℝ) (c : Cell d) :
    G'.D b k u c = G.D b k u c := by
  cases b
  · unfold Grid.D Grid.DI Grid.DH
    rw [e.acc, e.dx]
  · unfold Grid.D Grid.DI Grid.DH
    rw [e.acc, e.dx]

theorem Grid.Alike.DH {G G' : Grid d} (e : G.Alike G') (k : Fin d) (u : Fld d ℝ) (c : Cell d) : G'.DH k u c = G.DH k u c :=
  e.D true k u c

theorem Grid.Alike.DI {G G' : Grid d} (e : G.Alike G') (k : Fin d) (u : Fld d ℝ) (c : Cell d) : G'.DI k u c = G.DI k u c :=
  e.D false k u c

/-- The wavefields agree until the waves have been to the edges and back: the sources have `T₁` times half the width of the
stencil to the edges, the cell has `T₂` times half the width. -/
theorem Grid.Wave.inside {G G' : Grid d} {L H : Fin d → ℤ} (e : G.Alike G') (h : G.Holds L H) (h' : G'.Holds L H)
    {vel vel' : Fld d ℝ} {q q' u u' : ℕ → Fld d ℝ} {psi zeta psi' zeta' : ℕ → Fin d → Fld d ℝ}
    (hw : G.Wave vel q u psi zeta) (hw' : G'.Wave vel' q' u' psi' zeta')
    (h0 : ∀ c, u 1 c = 0 ∧ u 0 c = 0 ∧ ∀ k, psi 0 k c = 0 ∧ zeta 0 k c = 0)
    (h0' : ∀ c, u' 1 c = 0 ∧ u' 0 c = 0 ∧ ∀ k, psi' 0 k c = 0 ∧ zeta' 0 k c = 0)
    (hv : ∀ c, Inside L H 0 c → vel c = vel' c) (hqq : ∀ t c, q t c = q' t c) {T₁ T₂ : ℕ}
    (hq : ∀ t c, ¬Inside L H (G.half * T₁) c → q t c = 0) {c₀ : Cell d} (hc₀ : Inside L H (G.half * T₂) c₀) :
    ∀ t ≤ T₁ + T₂, ∀ c, t ≤ T₁ ∨ Near c₀ (G.half * (T₁ + T₂ - t)) c → u t c = u' t c ∧ u (t + 1) c = u' (t + 1) c := by
  have hh := G.half_nonneg
  have k1 := hw.confined h h0 hq
  have k2 := hw'.confined h' h0' (T := T₁) (fun t c hc => by rw [← hqq, hq t c (by rwa [e.half] at hc)])
  rw [e.half] at k2
  intro t
  induction t with
  | zero => exact fun _ c _ => ⟨(h0 c).2.1.trans (h0' c).2.1.symm, (h0 c).1.trans (h0' c).1.symm⟩
  | succ t ih =>
      intro ht c hc
      -- one time step away from the edges
      have step : Inside L H G.half c → (∀ k j, |j| ≤ G.half → u (t + 1) (c.shift k j) = u' (t + 1) (c.shift k j)) →
          u t c = u' t c → u (t + 1) c = u' (t + 1) c → u (t + 2) c = u' (t + 2) c := by
        intro hi hs a1 a2
        have hi0 := hi.mono hh
        have w1 := hw.wave t c (h.In hi0)
        have w2 := hw'.wave t c (h'.In hi0)
        rw [h.lap hi fun k => (hw.calm h (fun k c => (h0 c).2.2 k) hi0 t k).2] at w1
        rw [h'.lap (by rwa [e.half]) fun k => (hw'.calm h' (fun k c => (h0' c).2.2 k) hi0 t k).2, ← hqq, ← hv c hi0,
          e.dt, ← a1, ← a2, Finset.sum_congr rfl fun k _ => (e.D2 k (u' (t + 1)) c).trans (G.D2_near k (hs k)).symm] at w2
        linarith
      by_cases hT : t + 1 ≤ T₁
      · have ih' := fun c => ih (by omega) c (.inl (by omega))
        refine ⟨(ih' c).2, ?_⟩
        by_cases hi : Inside L H (G.half * (T₁ + 1 - (t + 1 : ℕ))) c
        · have e3 : G.half * 1 ≤ G.half * ((T₁ : ℤ) + 1 - (t + 1 : ℕ)) := mul_le_mul_of_nonneg_left (by omega) hh
          exact step (hi.mono (by omega)) (fun k j _ => (ih' _).2) (ih' c).1 (ih' c).2
        · rw [((k1 _ hT).1 c hi).2, ((k2 _ hT).1 c hi).2]
      · have hc := hc.resolve_left hT
        have e1 : G.half * ((T₁ : ℤ) + T₂ - t) = G.half * (T₁ + T₂ - (t + 1 : ℕ)) + G.half := by push_cast; ring
        have e2 : G.half * ((T₁ : ℤ) + T₂ - (t + 1 : ℕ)) ≤ G.half * (T₂ - 1) := mul_le_mul_of_nonneg_left (by omega) hh
        have e3 : G.half * ((T₂ : ℤ) - 1) = G.half * T₂ - G.half := by ring
        have ih' := ih (by omega) c (.inr (hc.mono (by omega)))
        exact ⟨ih'.2, step (hc.inside hc₀ (by omega))
          (fun k j hj => (ih (by omega) _ (.inr (hc.shift (by omega)))).2) ih'.1 ih'.2⟩

/-! ### The Born approximation -/

section
variable {G : Grid d} {L H : Fin d → ℤ}

theorem Grid.Scattered.calm (h : G.Holds L H) {vel scat : Fld d ℝ} {q u w : ℕ → Fld d ℝ}
    {psi zeta ps ze : ℕ → Fin d → Fld d ℝ} (hw : G.Scattered vel scat q u psi zeta w ps ze)
    (h0 : ∀ k c, ps 0 k c = 0 ∧ ze 0 k c = 0) {c : Cell d} (hc : Inside L H 0 c) (t : ℕ)
    (k : Fin d) : ps t k c = 0 ∧ ze t k c = 0 := by
  cases t with
  | zero => exact h0 k c
  | succ t =>
      rw [hw.psi_next t k c (h.In hc), hw.zeta_next t k c (h.In hc), h.a hc, h.b hc]
      simp

theorem Grid.Scattered.confined {vel scat : Fld d ℝ} {q u w : ℕ → Fld d ℝ} {psi zeta ps ze : ℕ → Fin d → Fld d ℝ}
    (h : G.Holds L H) (hw : G.Scattered vel scat q u psi zeta w ps ze)
    (h0 : ∀ c, w 1 c = 0 ∧ w 0 c = 0 ∧ ∀ k, ps 0 k c = 0 ∧ ze 0 k c = 0) {T : ℕ}
    (hq : ∀ t c, ¬Inside L H (G.half * T) c → q t c = 0)
    (hu : ∀ t ≤ T, (∀ c, ¬Inside L H (G.half * (T + 1 - t)) c → u t c = 0 ∧ u (t + 1) c = 0) ∧
      ∀ c k, psi t k c = 0 ∧ zeta t k c = 0) :
    ∀ t ≤ T, (∀ c, ¬Inside L H (G.half * (T + 1 - t)) c → w t c = 0 ∧ w (t + 1) c = 0) ∧
      ∀ c k, ps t k c = 0 ∧ ze t k c = 0 := by
  have hh := G.half_nonneg
  intro t
  induction t with
  | zero => exact fun _ => ⟨fun c _ => ⟨(h0 c).2.1, (h0 c).1⟩, fun c k => (h0 c).2.2 k⟩
  | succ t ih =>
      intro ht
      obtain ⟨i1, i2⟩ := ih (by omega)
      obtain ⟨b1, b2⟩ := hu t (by omega)
      have hT : (1 : ℤ) ≤ T - t := by omega
      have e1 : G.half * ((T : ℤ) + 1 - t) = G.half * (T - t) + G.half := by ring
      have e2 : G.half * ((T : ℤ) + 1 - (t + 1 : ℕ)) = G.half * (T - t) := by push_cast; ring
      have e3 : G.half * 1 ≤ G.half * ((T : ℤ) - t) := mul_le_mul_of_nonneg_left hT hh
      have e4 : G.half * ((T : ℤ) - t) ≤ G.half * T := mul_le_mul_of_nonneg_left (by omega) hh
      have hs : ∀ c, ¬Inside L H (G.half * (T - t)) c → ∀ k j, |j| ≤ G.half →
          w (t + 1) (c.shift k j) = 0 ∧ u (t + 1) (c.shift k j) = 0 :=
        fun c hc k j hj => ⟨(i1 _ (Inside.not_shift hc (by omega))).2, (b1 _ (Inside.not_shift hc (by omega))).2⟩
      refine ⟨fun c hc => ?_, fun c k => ?_⟩
      · rw [e2] at hc
        refine ⟨(i1 c fun hc' => hc (hc'.mono (by omega))).2, ?_⟩
        by_cases hi : G.In c
        · have e := hw.wave t c hi
          have hl : G.lap (w (t + 1)) (ps t) (ze t) c = 0 := by
            unfold Grid.lap
            refine Finset.sum_eq_zero fun k _ => ?_
            rw [G.flux_of_zero (fun j hj => (hs c hc k j hj).1) fun c => (i2 c k).1, (i2 c k).2]
            ring
          have hb : G.lap (u (t + 1)) (psi t) (zeta t) c = 0 := by
            unfold Grid.lap
            refine Finset.sum_eq_zero fun k _ => ?_
            rw [G.flux_of_zero (fun j hj => (hs c hc k j hj).2) fun c => (b2 c k).1, (b2 c k).2]
            ring
          rw [hl, hb, hq t c fun hc' => hc (hc'.mono e4), (i1 c fun hc' => hc (hc'.mono (by omega))).1,
            (i1 c fun hc' => hc (hc'.mono (by omega))).2] at e
          linarith
        · exact (hw.outside _ c hi).1
      · by_cases hc0 : Inside L H 0 c
        · exact hw.calm h (fun k c => (h0 c).2.2 k) hc0 _ k
        · by_cases hi : G.In c
          · have hu' := fun j hj => (hs c (fun hc' => hc0 (hc'.mono (by omega))) k j hj).1
            rw [hw.psi_next t k c hi, hw.zeta_next t k c hi, G.D1_of_zero hu', G.flux_of_zero hu' fun c => (i2 c k).1,
              (i2 c k).1, (i2 c k).2]
            simp
          · exact (hw.outside _ c hi).2 k

end

/-- The scattered wavefields agree as long. -/
theorem Grid.Scattered.inside {G G' : Grid d} {L H : Fin d → ℤ} (e : G.Alike G') (h : G.Holds L H) (h' : G'.Holds L H)
    {vel vel' scat scat' : Fld d ℝ} {q q' u u' w w' : ℕ → Fld d ℝ}
    {psi zeta psi' zeta' ps ze ps' ze' : ℕ → Fin d → Fld d ℝ}
    (hw : G.Wave vel q u psi zeta) (hw' : G'.Wave vel' q' u' psi' zeta')
    (h0 : ∀ c, u 1 c = 0 ∧ u 0 c = 0 ∧ ∀ k, psi 0 k c = 0 ∧ zeta 0 k c = 0)
    (h0' : ∀ c, u' 1 c = 0 ∧ u' 0 c = 0 ∧ ∀ k, psi' 0 k c = 0 ∧ zeta' 0 k c = 0)
    (hs : G.Scattered vel scat q u psi zeta w ps ze) (hs' : G'.Scattered vel' scat' q' u' psi' zeta' w' ps' ze')
    (s0 : ∀ c, w 1 c = 0 ∧ w 0 c = 0 ∧ ∀ k, ps 0 k c = 0 ∧ ze 0 k c = 0)
    (s0' : ∀ c, w' 1 c = 0 ∧ w' 0 c = 0 ∧ ∀ k, ps' 0 k c = 0 ∧ ze' 0 k c = 0)
    (hv : ∀ c, Inside L H 0 c → vel c = vel' c ∧ scat c = scat' c) (hqq : ∀ t c, q t c = q' t c) {T₁ T₂ : ℕ}
    (hq : ∀ t c, ¬Inside L H (G.half * T₁) c → q t c = 0) {c₀ : Cell d} (hc₀ : Inside L H (G.half * T₂) c₀) :
    ∀ t ≤ T₁ + T₂, ∀ c, t ≤ T₁ ∨ Near c₀ (G.half * (T₁ + T₂ - t)) c → w t c = w' t c ∧ w (t + 1) c = w' (t + 1) c := by
  have hh := G.half_nonneg
  have hq' : ∀ t c, ¬Inside L H (G'.half * T₁) c → q' t c = 0 := fun t c hc => by
    rw [← hqq, hq t c (by rwa [e.half] at hc)]
  have bg := hw.inside e h h' hw' h0 h0' (fun c hc => (hv c hc).1) hqq hq hc₀
  have k1 := hs.confined h s0 hq (hw.confined h h0 hq)
  have k2 := hs'.confined h' s0' hq' (hw'.confined h' h0' hq')
  rw [e.half] at k2
  intro t
  induction t with
  | zero => exact fun _ c _ => ⟨(s0 c).2.1.trans (s0' c).2.1.symm, (s0 c).1.trans (s0' c).1.symm⟩
  | succ t ih =>
      intro ht c hc
      have step : Inside L H G.half c → (∀ k j, |j| ≤ G.half →
          w (t + 1) (c.shift k j) = w' (t + 1) (c.shift k j) ∧ u (t + 1) (c.shift k j) = u' (t + 1) (c.shift k j)) →
          w t c = w' t c → w (t + 1) c = w' (t + 1) c → w (t + 2) c = w' (t + 2) c := by
        intro hi hn a1 a2
        have hi0 := hi.mono hh
        have w1 := hs.wave t c (h.In hi0)
        have w2 := hs'.wave t c (h'.In hi0)
        rw [h.lap hi fun k => (hs.calm h (fun k c => (s0 c).2.2 k) hi0 t k).2,
          h.lap hi fun k => (hw.calm h (fun k c => (h0 c).2.2 k) hi0 t k).2] at w1
        rw [h'.lap (by rwa [e.half]) fun k => (hs'.calm h' (fun k c => (s0' c).2.2 k) hi0 t k).2,
          h'.lap (by rwa [e.half]) fun k => (hw'.calm h' (fun k c => (h0' c).2.2 k) hi0 t k).2, ← hqq, ← (hv c hi0).1,
          ← (hv c hi0).2, e.dt, ← a1, ← a2,
          Finset.sum_congr rfl fun k _ => (e.D2 k (w' (t + 1)) c).trans (G.D2_near k fun j hj => (hn k j hj).1).symm,
          Finset.sum_congr rfl fun k _ => (e.D2 k (u' (t + 1)) c).trans (G.D2_near k fun j hj => (hn k j hj).2).symm] at w2
        linarith
      by_cases hT : t + 1 ≤ T₁
      · have ih' := fun c => ih (by omega) c (.inl (by omega))
        have bg' := fun c => bg t (by omega) c (.inl (by omega))
        refine ⟨(ih' c).2, ?_⟩
        by_cases hi : Inside L H (G.half * (T₁ + 1 - (t + 1 : ℕ))) c
        · have e3 : G.half * 1 ≤ G.half * ((T₁ : ℤ) + 1 - (t + 1 : ℕ)) := mul_le_mul_of_nonneg_left (by omega) hh
          exact step (hi.mono (by omega)) (fun k j _ => ⟨(ih' _).2, (bg' _).2⟩) (ih' c).1 (ih' c).2
        · rw [((k1 _ hT).1 c hi).2, ((k2 _ hT).1 c hi).2]
      · have hc := hc.resolve_left hT
        have e1 : G.half * ((T₁ : ℤ) + T₂ - t) = G.half * (T₁ + T₂ - (t + 1 : ℕ)) + G.half := by push_cast; ring
        have e2 : G.half * ((T₁ : ℤ) + T₂ - (t + 1 : ℕ)) ≤ G.half * (T₂ - 1) := mul_le_mul_of_nonneg_left (by omega) hh
        have e3 : G.half * ((T₂ : ℤ) - 1) = G.half * T₂ - G.half := by ring
        have ih' := ih (by omega) c (.inr (hc.mono (by omega)))
        exact ⟨ih'.2, step (hc.inside hc₀ (by omega))
          (fun k j hj => ⟨(ih (by omega) _ (.inr (hc.shift (by omega)))).2, (bg t (by omega) _ (.inr (hc.shift (by omega)))).2⟩)
          ih'.1 ih'.2⟩

/-! ### The acoustic wave equation -/

section
variable {G : Grid d} {L H : Fin d → ℤ}

theorem Grid.Holds.InAt (h : G.Holds L H) (l : Fin d → Bool) {c : Cell d} (hc : Inside L H 1 c) : G.InAt l c :=
  ⟨h.In (hc.mono (by norm_num)), fun k _ => by
    have h2 := h.hi k
    have h3 := hc k
    have h5 := h.w1 k
    omega⟩

theorem Grid.Holds.InH (h : G.Holds L H) (k : Fin d) {c : Cell d} (hc : Inside L H 1 c) : G.InH k c :=
  ⟨h.In (hc.mono (by norm_num)), by
    have h2 := h.hi k
    have h3 := hc k
    have h5 := h.w1 k
    omega⟩

theorem Grid.Holds.a_point (h : G.Holds L H) (l : Bool) {c : Cell d} (hc : Inside L H 1 c) (k : Fin d) :
    G.a k (point l (c k)) = 0 := by
  cases l
  · exact h.a (hc.mono (by norm_num)) k
  · exact G.a_of_depth (h.depth_half hc k)

theorem Grid.Holds.b_point (h : G.Holds L H) (l : Bool) {c : Cell d} (hc : Inside L H 1 c) (k : Fin d) :
    G.b k (point l (c k)) = 0 := by
  cases l
  · exact h.b (hc.mono (by norm_num)) k
  · exact G.b_of_depth (h.depth_half hc k)

theorem Grid.Acoustic.calm (h : G.Holds L H) {K : Fld d ℝ} {B : Fin d → Fld d ℝ} {qp : ℕ → Fld d ℝ} {qv : ℕ → Fin d → Fld d ℝ}
    {p : ℕ → Fld d ℝ} {v phi psi : ℕ → Fin d → Fld d ℝ} (hw : G.Acoustic K B qp qv p v phi psi)
    (h0 : ∀ k c, phi 0 k c = 0 ∧ psi 0 k c = 0) {c : Cell d} (hc : Inside L H 1 c) (t : ℕ) (k : Fin d) :
    phi t k c = 0 ∧ psi t k c = 0 := by
  cases t with
  | zero => exact h0 k c
  | succ t =>
      have e1 := h.a_point true hc k
      have e2 := h.b_point true hc k
      have e3 := h.a_point false hc k
      have e4 := h.b_point false hc k
      simp only [point, if_true, Bool.false_eq_true, if_false] at e1 e2 e3 e4
      rw [hw.psi_next t k c (h.InH k hc), hw.phi_next t k c (h.In (hc.mono (by norm_num))), e1, e2, e3, e4]
      simp

theorem Grid.Acoustic.confined (h : G.Holds L H) {K : Fld d ℝ} {B : Fin d → Fld d ℝ} {qp : ℕ → Fld d ℝ} {qv : ℕ → Fin d → Fld d ℝ}
    {p : ℕ → Fld d ℝ} {v phi psi : ℕ → Fin d → Fld d ℝ} (hw : G.Acoustic K B qp qv p v phi psi)
    (h0 : ∀ c, p 0 c = 0 ∧ ∀ k, v 0 k c = 0 ∧ phi 0 k c = 0 ∧ psi 0 k c = 0) {T : ℕ}
    (hq : ∀ t c, ¬Inside L H (2 * G.half * T) c → qp t c = 0 ∧ ∀ k, qv t k c = 0) :
    ∀ t ≤ T, (∀ c, ¬Inside L H (2 * G.half * (T - t) + G.half) c → p t c = 0) ∧
      (∀ c, ¬Inside L H (2 * G.half * (T - t) + 2 * G.half) c → ∀ k, v t k c = 0) ∧ ∀ c k, phi t k c = 0 ∧ psi t k c = 0 := by
  have hh := G.half_pos
  intro t
  induction t with
  | zero => exact fun _ => ⟨fun c _ => (h0 c).1, fun c _ k => ((h0 c).2 k).1, fun c k => ((h0 c).2 k).2⟩
  | succ t ih =>
      intro ht
      obtain ⟨i1, i2, i3⟩ := ih (by omega)
      have hT : (1 : ℤ) ≤ T - t := by omega
      have e2 : 2 * G.half * ((T : ℤ) - (t + 1 : ℕ)) = 2 * G.half * (T - t) - 2 * G.half := by push_cast; ring
      have e3 : 2 * G.half * 1 ≤ 2 * G.half * ((T : ℤ) - t) := mul_le_mul_of_nonneg_left hT (by omega)
      have e4 : 2 * G.half * ((T : ℤ) - t) ≤ 2 * G.half * T := mul_le_mul_of_nonneg_left (by omega) (by omega)
      rw [e2]
      have hp : ∀ c, ¬Inside L H (2 * G.half * (T - t)) c → ∀ k, G.DH k (p t) c = 0 := fun c hc k =>
        G.D_of_zero (b := true) fun j hj => i1 _ (Inside.not_shift hc (by omega))
      have hc0 := fun c hc t k => hw.calm h (c := c) (fun k c => ((h0 c).2 k).2) hc t k
      have hpsi : ∀ c k, psi (t + 1) k c = 0 := fun c k => by
        by_cases hi1 : Inside L H 1 c
        · exact (hc0 c hi1 _ k).2
        · by_cases hi : G.InH k c
          · rw [hw.psi_next t k c hi, hp c (fun hc' => hi1 (hc'.mono (by omega))), (i3 c k).2]
            simp
          · exact ((hw.outside _ c).2 k hi).2
      have hv : ∀ c, ¬Inside L H (2 * G.half * (T - t)) c → ∀ k, v (t + 1) k c = 0 := fun c hc k => by
        by_cases hi : G.InH k c
        · rw [hw.velocity t k c hi, hp c hc, hpsi, (hq t c fun hc' => hc (hc'.mono e4)).2,
            i2 c fun hc' => hc (hc'.mono (by omega))]
          simp
        · exact ((hw.outside _ c).2 k hi).1
      have hd : ∀ c, ¬Inside L H (2 * G.half * (T - t) - G.half) c → ∀ k, G.DI k (v (t + 1) k) c = 0 := fun c hc k =>
        G.D_of_zero (b := false) fun j hj => hv _ (Inside.not_shift hc (by omega)) k
      have hphi : ∀ c k, phi (t + 1) k c = 0 := fun c k => by
        by_cases hi1 : Inside L H 1 c
        · exact (hc0 c hi1 _ k).1
        · by_cases hi : G.In c
          · rw [hw.phi_next t k c hi, hd c (fun hc' => hi1 (hc'.mono (by omega))), (i3 c k).1]
            simp
          · exact ((hw.outside _ c).1 hi).2 k
      refine ⟨fun c hc => ?_, fun c hc => hv c fun hc' => hc (hc'.mono (by omega)), fun c k => ⟨hphi c k, hpsi c k⟩⟩
      by_cases hi : G.In c
      · rw [hw.pressure t c hi, (hq t c fun hc' => hc (hc'.mono (by omega))).1, i1 c fun hc' => hc (hc'.mono (by omega)),
          Finset.sum_eq_zero fun k _ => by rw [hd c (fun hc' => hc (hc'.mono (by omega))), hphi, add_zero]]
        simp
      · exact ((hw.outside _ c).1 hi).1

end

theorem Grid.Acoustic.inside {G G' : Grid d} {L H : Fin d → ℤ} (e : G.Alike G') (h : G.Holds L H) (h' : G'.Holds L H)
    {K K' : Fld d ℝ} {B B' : Fin d → Fld d ℝ} {qp qp' : ℕ → Fld d ℝ} {qv qv' : ℕ → Fin d → Fld d ℝ}
    {p p' : ℕ → Fld d ℝ} {v phi psi v' phi' psi' : ℕ → Fin d → Fld d ℝ}
    (hw : G.Acoustic K B qp qv p v phi psi) (hw' : G'.Acoustic K' B' qp' qv' p' v' phi' psi')
    (h0 : ∀ c, p 0 c = 0 ∧ ∀ k, v 0 k c = 0 ∧ phi 0 k c = 0 ∧ psi 0 k c = 0)
    (h0' : ∀ c, p' 0 c = 0 ∧ ∀ k, v' 0 k c = 0 ∧ phi' 0 k c = 0 ∧ psi' 0 k c = 0)
    (hm : ∀ c, Inside L H 1 c → K c = K' c ∧ ∀ k, B k c = B' k c)
    (hqq : ∀ t c, qp t c = qp' t c ∧ ∀ k, qv t k c = qv' t k c) {T₁ T₂ : ℕ}
    (hq : ∀ t c, ¬Inside L H (2 * G.half * T₁) c → qp t c = 0 ∧ ∀ k, qv t k c = 0) {c₀ : Cell d}
    (hc₀ : Inside L H (2 * G.half * T₂) c₀) :
    ∀ t ≤ T₁ + T₂, ∀ c, t ≤ T₁ ∨ Near c₀ (2 * G.half * (T₁ + T₂ - t)) c → p t c = p' t c ∧ ∀ k, v t k c = v' t k c := by
  have hh := G.half_pos
  have k1 := hw.confined h h0 hq
  have k2 := hw'.confined h' h0' (T := T₁) (fun t c hc => by
    have := hq t c (by rwa [e.half] at hc)
    exact ⟨(hqq t c).1.symm.trans this.1, fun k => ((hqq t c).2 k).symm.trans (this.2 k)⟩)
  rw [e.half] at k2
  have c1 := fun c hc t k => hw.calm h (c := c) (fun k c => ((h0 c).2 k).2) hc t k
  have c2 := fun c hc t k => hw'.calm h' (c := c) (fun k c => ((h0' c).2 k).2) hc t k
  -- half a time step away from the edges
  have stepv : ∀ t c, Inside L H 1 c → (∀ k j, |j| ≤ G.half → p t (c.shift k j) = p' t (c.shift k j)) →
      (∀ k, v t k c = v' t k c) → ∀ k, v (t + 1) k c = v' (t + 1) k c := by
    intro t c hi hs a1 k
    rw [hw.velocity t k c (h.InH k hi), hw'.velocity t k c (h'.InH k hi), (c1 c hi (t + 1) k).2, (c2 c hi (t + 1) k).2, e.dt,
      a1, ((hm c hi).2 k), (hqq t c).2, e.DH, G.DH_near k (hs k)]
  have stepp : ∀ t c, Inside L H 1 c → (∀ k j, |j| ≤ G.half → v (t + 1) k (c.shift k j) = v' (t + 1) k (c.shift k j)) →
      p t c = p' t c → p (t + 1) c = p' (t + 1) c := by
    intro t c hi hs a1
    have hi0 := hi.mono (m := 0) (by norm_num)
    rw [hw.pressure t c (h.In hi0), hw'.pressure t c (h'.In hi0), e.dt, a1, (hm c hi).1, (hqq t c).1,
      Finset.sum_congr rfl fun k _ => (by rw [(c1 c hi (t + 1) k).1, G.DI_near k (hs k), (c2 c hi (t + 1) k).1, e.DI] :
        G.DI k (v (t + 1) k) c + phi (t + 1) k c = G'.DI k (v' (t + 1) k) c + phi' (t + 1) k c)]
  intro t
  induction t with
  | zero => exact fun _ c _ => ⟨(h0 c).1.trans (h0' c).1.symm, fun k => ((h0 c).2 k).1.trans ((h0' c).2 k).1.symm⟩
  | succ t ih =>
      intro ht c hc
      by_cases hT : t + 1 ≤ T₁
      · have ih' := fun c => ih (by omega) c (.inl (by omega))
        have e3 : 2 * G.half * 0 ≤ 2 * G.half * ((T₁ : ℤ) - (t + 1 : ℕ)) := mul_le_mul_of_nonneg_left (by omega) (by omega)
        have hv : ∀ c k, v (t + 1) k c = v' (t + 1) k c := fun c => by
          by_cases hi : Inside L H (2 * G.half * (T₁ - (t + 1 : ℕ)) + 2 * G.half) c
          · exact stepv t c (hi.mono (by omega)) (fun k j _ => (ih' _).1) (ih' c).2
          · intro k
            rw [(k1 _ hT).2.1 c hi, (k2 _ hT).2.1 c hi]
        refine ⟨?_, hv c⟩
        by_cases hi : Inside L H (2 * G.half * (T₁ - (t + 1 : ℕ)) + G.half) c
        · exact stepp t c (hi.mono (by omega)) (fun k j _ => hv _ k) (ih' c).1
        · rw [(k1 _ hT).1 c hi, (k2 _ hT).1 c hi]
      · have hc := hc.resolve_left hT
        have e1 : 2 * G.half * ((T₁ : ℤ) + T₂ - t) = 2 * G.half * (T₁ + T₂ - (t + 1 : ℕ)) + 2 * G.half := by push_cast; ring
        have e2 : 2 * G.half * ((T₁ : ℤ) + T₂ - (t + 1 : ℕ)) ≤ 2 * G.half * (T₂ - 1) :=
          mul_le_mul_of_nonneg_left (by omega) (by omega)
        have e3 : 2 * G.half * ((T₂ : ℤ) - 1) = 2 * G.half * T₂ - 2 * G.half := by ring
        have hv : ∀ c, Near c₀ (2 * G.half * (T₁ + T₂ - (t + 1 : ℕ)) + G.half) c → ∀ k, v (t + 1) k c = v' (t + 1) k c :=
          fun c hc => stepv t c (hc.inside hc₀ (by omega))
            (fun k j hj => (ih (by omega) _ (.inr (hc.shift (by omega)))).1) (ih (by omega) c (.inr (hc.mono (by omega)))).2
        exact ⟨stepp t c (hc.inside hc₀ (by omega)) (fun k j hj => hv _ (hc.shift (by omega)) k)
          (ih (by omega) c (.inr (hc.mono (by omega)))).1, hv c (hc.mono (by omega))⟩

/-! ### The elastic wave equation -/

section
variable {G : Grid d} {L H : Fin d → ℤ}

theorem Grid.Elastic.calm (h : G.Holds L H) {lam mu : Fld d ℝ} {muS : Fin d → Fin d → Fld d ℝ} {B : Fin d → Fld d ℝ}
    {qp : ℕ → Fld d ℝ} {qv v : ℕ → Fin d → Fld d ℝ} {sig mv ms : ℕ → Fin d → Fin d → Fld d ℝ}
    (hw : G.Elastic lam mu muS B qp qv v sig mv ms) (h0 : ∀ i j c, mv 0 i j c = 0 ∧ ms 0 i j c = 0) {c : Cell d}
    (hc : Inside L H 1 c) (t : ℕ) (i j : Fin d) : mv t i j c = 0 ∧ ms t i j c = 0 := by
  cases t with
  | zero => exact h0 i j c
  | succ t =>
      rw [hw.mv_next t i j c (h.InAt _ hc), hw.ms_next t i j c (h.InAt _ hc), h.a_point _ hc, h.b_point _ hc, h.a_point _ hc,
        h.b_point _ hc]
      simp

theorem Grid.Elastic.confined (h : G.Holds L H) {lam mu : Fld d ℝ} {muS : Fin d → Fin d → Fld d ℝ} {B : Fin d → Fld d ℝ}
    {qp : ℕ → Fld d ℝ} {qv v : ℕ → Fin d → Fld d ℝ} {sig mv ms : ℕ → Fin d → Fin d → Fld d ℝ}
    (hw : G.Elastic lam mu muS B qp qv v sig mv ms)
    (h0 : ∀ c i, v 0 i c = 0 ∧ ∀ j, sig 0 i j c = 0 ∧ mv 0 i j c = 0 ∧ ms 0 i j c = 0) {T : ℕ}
    (hq : ∀ t c, ¬Inside L H (2 * G.half * T) c → qp t c = 0 ∧ ∀ k, qv t k c = 0) :
    ∀ t ≤ T, (∀ c, ¬Inside L H (2 * G.half * (T - t) + G.half) c → ∀ i j, sig t i j c = 0) ∧
      (∀ c, ¬Inside L H (2 * G.half * (T - t) + 2 * G.half) c → ∀ i, v t i c = 0) ∧
      ∀ c i j, mv t i j c = 0 ∧ ms t i j c = 0 := by
  have hh := G.half_pos
  intro t
  induction t with
  | zero => exact fun _ => ⟨fun c _ i j => ((h0 c i).2 j).1, fun c _ i => (h0 c i).1, fun c i j => ((h0 c i).2 j).2⟩
  | succ t ih =>
      intro ht
      obtain ⟨i1, i2, i3⟩ := ih (by omega)
      have hT : (1 : ℤ) ≤ T - t := by omega
      have e2 : 2 * G.half * ((T : ℤ) - (t + 1 : ℕ)) = 2 * G.half * (T - t) - 2 * G.half := by push_cast; ring
      have e3 : 2 * G.half * 1 ≤ 2 * G.half * ((T : ℤ) - t) := mul_le_mul_of_nonneg_left hT (by omega)
      have e4 : 2 * G.half * ((T : ℤ) - t) ≤ 2 * G.half * T := mul_le_mul_of_nonneg_left (by omega) (by omega)
      rw [e2]
      have hp : ∀ c, ¬Inside L H (2 * G.half * (T - t)) c → ∀ b i j, G.D b j (sig t i j) c = 0 := fun c hc b i j =>
        G.D_of_zero fun n hn => i1 _ (Inside.not_shift hc (by omega)) i j
      have hc0 := fun c hc t i j => hw.calm h (c := c) (fun i j c => ((h0 c i).2 j).2) hc t i j
      have hms : ∀ c i j, ms (t + 1) i j c = 0 := fun c i j => by
        by_cases hi1 : Inside L H 1 c
        · exact (hc0 c hi1 _ i j).2
        · by_cases hi : G.InAt (atV i) c
          · rw [hw.ms_next t i j c hi, hp c (fun hc' => hi1 (hc'.mono (by omega))), (i3 c i j).2]
            simp
          · exact ((hw.outside _ i c).1 hi).2 j
      have hv : ∀ c, ¬Inside L H (2 * G.half * (T - t)) c → ∀ i, v (t + 1) i c = 0 := fun c hc i => by
        by_cases hi : G.InAt (atV i) c
        · rw [hw.velocity t i c hi, Finset.sum_eq_zero fun j _ => by rw [hp c hc, hms, add_zero],
            (hq t c fun hc' => hc (hc'.mono e4)).2, i2 c fun hc' => hc (hc'.mono (by omega))]
          simp
        · exact ((hw.outside _ i c).1 hi).1
      have hd : ∀ c, ¬Inside L H (2 * G.half * (T - t) - G.half) c → ∀ b i j, G.D b j (v (t + 1) i) c = 0 := fun c hc b i j =>
        G.D_of_zero fun n hn => hv _ (Inside.not_shift hc (by omega)) i
      have hmv : ∀ c i j, mv (t + 1) i j c = 0 := fun c i j => by
        by_cases hi1 : Inside L H 1 c
        · exact (hc0 c hi1 _ i j).1
        · by_cases hi : G.InAt (atS i j) c
          · rw [hw.mv_next t i j c hi, hd c (fun hc' => hi1 (hc'.mono (by omega))), (i3 c i j).1]
            simp
          · exact ((hw.outside _ i c).2 j hi).2
      refine ⟨fun c hc i j => ?_, fun c hc => hv c fun hc' => hc (hc'.mono (by omega)), fun c i j => ⟨hmv c i j, hms c i j⟩⟩
      have hd' := hd c fun hc' => hc (hc'.mono (by omega))
      have hs' := i1 c fun hc' => hc (hc'.mono (by omega))
      by_cases hi : G.InAt (atS i j) c
      · by_cases hij : i = j
        · subst hij
          rw [hw.normal t i c ((atS_self G i c).1 hi), (hq t c fun hc' => hc (hc'.mono (by omega))).1, hs', hd', hmv,
            Finset.sum_eq_zero fun k _ => by rw [hd', hmv, add_zero]]
          simp
        · rw [hw.shear t i j c hij hi, hs', hd', hd', hmv, hmv]
          simp
      · exact ((hw.outside _ i c).2 j hi).1

end

theorem Grid.Elastic.inside {G G' : Grid d} {L H : Fin d → ℤ} (e : G.Alike G') (h : G.Holds L H) (h' : G'.Holds L H)
    {lam mu lam' mu' : Fld d ℝ} {muS muS' : Fin d → Fin d → Fld d ℝ} {B B' : Fin d → Fld d ℝ}
    {qp qp' : ℕ → Fld d ℝ} {qv qv' v v' : ℕ → Fin d → Fld d ℝ} {sig mv ms sig' mv' ms' : ℕ → Fin d → Fin d → Fld d ℝ}
    (hw : G.Elastic lam mu muS B qp qv v sig mv ms) (hw' : G'.Elastic lam' mu' muS' B' qp' qv' v' sig' mv' ms')
    (h0 : ∀ c i, v 0 i c = 0 ∧ ∀ j, sig 0 i j c = 0 ∧ mv 0 i j c = 0 ∧ ms 0 i j c = 0)
    (h0' : ∀ c i, v' 0 i c = 0 ∧ ∀ j, sig' 0 i j c = 0 ∧ mv' 0 i j c = 0 ∧ ms' 0 i j c = 0)
    (hm : ∀ c, Inside L H 1 c → lam c = lam' c ∧ mu c = mu' c ∧ (∀ i j, i ≠ j → muS i j c = muS' i j c) ∧ ∀ k, B k c = B' k c)
    (hqq : ∀ t c, qp t c = qp' t c ∧ ∀ k, qv t k c = qv' t k c) {T₁ T₂ : ℕ}
    (hq : ∀ t c, ¬Inside L H (2 * G.half * T₁) c → qp t c = 0 ∧ ∀ k, qv t k c = 0) {c₀ : Cell d}
    (hc₀ : Inside L H (2 * G.half * T₂) c₀) :
    ∀ t ≤ T₁ + T₂, ∀ c, t ≤ T₁ ∨ Near c₀ (2 * G.half * (T₁ + T₂ - t)) c →
      (∀ i j, sig t i j c = sig' t i j c) ∧ ∀ i, v t i c = v' t i c := by
  have hh := G.half_pos
  have k1 := hw.confined h h0 hq
  have k2 := hw'.confined h' h0' (T := T₁) (fun t c hc => by
    have := hq t c (by rwa [e.half] at hc)
    exact ⟨(hqq t c).1.symm.trans this.1, fun k => ((hqq t c).2 k).symm.trans (this.2 k)⟩)
  rw [e.half] at k2
  have c1 := fun c hc t i j => hw.calm h (c := c) (fun i j c => ((h0 c i).2 j).2) hc t i j
  have c2 := fun c hc t i j => hw'.calm h' (c := c) (fun i j c => ((h0' c i).2 j).2) hc t i j
  -- half a time step away from the edges
  have stepv : ∀ t c, Inside L H 1 c → (∀ i k j, |j| ≤ G.half → sig t i k (c.shift k j) = sig' t i k (c.shift k j)) →
      (∀ k, v t k c = v' t k c) → ∀ k, v (t + 1) k c = v' (t + 1) k c := by
    intro t c hi hs a1 i
    rw [hw.velocity t i c (h.InAt _ hi), hw'.velocity t i c (h'.InAt _ hi), e.dt, a1, (hm c hi).2.2.2, (hqq t c).2,
      Finset.sum_congr rfl fun k _ => (by rw [(c1 c hi (t + 1) i k).2, G.D_near _ k (hs i k), (c2 c hi (t + 1) i k).2, e.D] :
        G.D (atV i k) k (sig t i k) c + ms (t + 1) i k c = G'.D (atV i k) k (sig' t i k) c + ms' (t + 1) i k c)]
  have steps : ∀ t c, Inside L H 1 c → (∀ i k j, |j| ≤ G.half → v (t + 1) i (c.shift k j) = v' (t + 1) i (c.shift k j)) →
      (∀ i j, sig t i j c = sig' t i j c) → ∀ i j, sig (t + 1) i j c = sig' (t + 1) i j c := by
    intro t c hi hs a1 i j
    have hD : ∀ b i k, G.D b k (v (t + 1) i) c = G'.D b k (v' (t + 1) i) c := fun b i k => by rw [G.D_near b k (hs i k), e.D]
    have hi0 := hi.mono (m := 0) (by norm_num)
    have c1 := c1 c hi (t + 1)
    have c2 := c2 c hi (t + 1)
    by_cases hij : i = j
    · subst hij
      rw [hw.normal t i c (h.In hi0), hw'.normal t i c (h'.In hi0), e.dt, a1, (hm c hi).1, (hm c hi).2.1, (hqq t c).1, hD,
        (c1 i i).1, (c2 i i).1,
        Finset.sum_congr rfl fun k _ => (by rw [(c1 k k).1, (c2 k k).1, hD] :
          G.D false k (v (t + 1) k) c + mv (t + 1) k k c = G'.D false k (v' (t + 1) k) c + mv' (t + 1) k k c)]
    · rw [hw.shear t i j c hij (h.InAt _ hi), hw'.shear t i j c hij (h'.InAt _ hi), e.dt, a1, (hm c hi).2.2.1 i j hij, hD, hD,
        (c1 i j).1, (c2 i j).1, (c1 j i).1, (c2 j i).1]
  intro t
  induction t with
  | zero => exact fun _ c _ => ⟨fun i j => ((h0 c i).2 j).1.trans ((h0' c i).2 j).1.symm, fun i => (h0 c i).1.trans (h0' c i).1.symm⟩
  | succ t ih =>
      intro ht c hc
      by_cases hT : t + 1 ≤ T₁
      · have ih' := fun c => ih (by omega) c (.inl (by omega))
        have e3 : 2 * G.half * 0 ≤ 2 * G.half * ((T₁ : ℤ) - (t + 1 : ℕ)) := mul_le_mul_of_nonneg_left (by omega) (by omega)
        have hv : ∀ c k, v (t + 1) k c = v' (t + 1) k c := fun c => by
          by_cases hi : Inside L H (2 * G.half * (T₁ - (t + 1 : ℕ)) + 2 * G.half) c
          · exact stepv t c (hi.mono (by omega)) (fun i k j _ => (ih' _).1 i k) (ih' c).2
          · intro k
            rw [(k1 _ hT).2.1 c hi, (k2 _ hT).2.1 c hi]
        refine ⟨?_, hv c⟩
        by_cases hi : Inside L H (2 * G.half * (T₁ - (t + 1 : ℕ)) + G.half) c
        · exact steps t c (hi.mono (by omega)) (fun i k j _ => hv _ i) (ih' c).1
        · intro i j
          rw [(k1 _ hT).1 c hi, (k2 _ hT).1 c hi]
      · have hc := hc.resolve_left hT
        have e1 : 2 * G.half * ((T₁ : ℤ) + T₂ - t) = 2 * G.half * (T₁ + T₂ - (t + 1 : ℕ)) + 2 * G.half := by push_cast; ring
        have e2 : 2 * G.half * ((T₁ : ℤ) + T₂ - (t + 1 : ℕ)) ≤ 2 * G.half * (T₂ - 1) :=
          mul_le_mul_of_nonneg_left (by omega) (by omega)
        have e3 : 2 * G.half * ((T₂ : ℤ) - 1) = 2 * G.half * T₂ - 2 * G.half := by ring
        have hv : ∀ c, Near c₀ (2 * G.half * (T₁ + T₂ - (t + 1 : ℕ)) + G.half) c → ∀ k, v (t + 1) k c = v' (t + 1) k c :=
          fun c hc => stepv t c (hc.inside hc₀ (by omega))
            (fun i k j hj => (ih (by omega) _ (.inr (hc.shift (by omega)))).1 i k)
            (ih (by omega) c (.inr (hc.mono (by omega)))).2
        exact ⟨steps t c (hc.inside hc₀ (by omega)) (fun i k j hj => hv _ (hc.shift (by omega)) i)
          (ih (by omega) c (.inr (hc.mono (by omega)))).1, hv c (hc.mono (by omega))⟩

end Dw.Spec
