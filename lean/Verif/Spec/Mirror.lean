import Verif.Spec.Born

/-!
# Solutions seen in a mirror

Along the axes with `ε k`, cell `c` becomes cell `N k - c`.
-/

namespace Dw.Spec

variable {d : ℕ} (ε : Fin d → Bool) (N : Fin d → ℤ)

def flip (c : Cell d) : Cell d := fun k => if ε k then N k - c k else c k

/-- -1 along the axes that are reversed. -/
def sgn (k : Fin d) : ℤ := if ε k then -1 else 1

variable {ε N}

theorem sgn_or (k : Fin d) : (ε k = true ∧ sgn ε k = -1) ∨ (ε k = false ∧ sgn ε k = 1) := by
  unfold sgn
  cases ε k <;> simp

theorem sgn_sq (k : Fin d) : ((sgn ε k : ℤ) : ℝ) * (sgn ε k : ℤ) = 1 := by
  rcases sgn_or (ε := ε) k with ⟨-, h⟩ | ⟨-, h⟩ <;> rw [h] <;> norm_num

theorem flip_flip (c : Cell d) : flip ε N (flip ε N c) = c := by
  funext k
  unfold flip
  cases ε k <;> simp

theorem flip_shift (c : Cell d) (k : Fin d) (j : ℤ) : flip ε N (c.shift k j) = (flip ε N c).shift k (sgn ε k * j) := by
  funext l
  unfold flip Cell.shift
  by_cases h : l = k
  · subst h
    rcases sgn_or (ε := ε) l with ⟨h1, h2⟩ | ⟨h1, h2⟩ <;> simp [h1, h2]
    ring
  · simp [Pi.single_eq_of_ne h]

/-- The grid seen in the mirror. -/
def Grid.flip (ε : Fin d → Bool) (N : Fin d → ℤ) (G : Grid d) : Grid d :=
  { G with
    lo := fun k => if ε k then N k - G.hi k else G.lo k
    hi := fun k => if ε k then N k - G.lo k else G.hi k
    w0 := fun k => if ε k then G.w1 k else G.w0 k
    w1 := fun k => if ε k then G.w0 k else G.w1 k }

variable {G : Grid d}

theorem Grid.flip_in (c : Cell d) : (G.flip ε N).In c ↔ G.In (Spec.flip ε N c) := by
  unfold Grid.In Grid.flip Spec.flip
  refine forall_congr' fun k => ?_
  dsimp only
  cases ε k
  · simp
  · simp only [if_true]
    omega

theorem Grid.flip_width : (G.flip ε N).width = G.width := by
  unfold Grid.width Grid.flip
  refine congrArg _ (funext fun k => ?_)
  dsimp only
  cases ε k <;> simp [max_comm]

theorem Grid.flip_depth (h : ∀ k, G.lo k ≤ G.hi k) (k : Fin d) (x : ℝ) :
    (G.flip ε N).depth k (if ε k then N k - x else x) = G.depth k x := by
  unfold Grid.depth Grid.flip
  dsimp only
  have hk : (G.lo k : ℝ) ≤ G.hi k := by exact_mod_cast h k
  rcases Bool.eq_false_or_eq_true (ε k) with hε | hε <;> simp only [hε, if_true, Int.cast_sub, Bool.false_eq_true, if_false]
  · have e1 : ((N k : ℝ) - x < N k - G.hi k) ↔ ((G.hi k : ℝ) < x) := ⟨fun h => by linarith, fun h => by linarith⟩
    have e2 : ((N k : ℝ) - G.lo k < N k - x) ↔ (x < (G.lo k : ℝ)) := ⟨fun h => by linarith, fun h => by linarith⟩
    have e3 : (N k : ℝ) - G.hi k - (N k - x) = x - G.hi k := by ring
    have e4 : (N k : ℝ) - x - (N k - G.lo k) = G.lo k - x := by ring
    simp only [e1, e2, e3, e4]
    by_cases h1 : x < (G.lo k : ℝ) ∧ 0 < G.w0 k
    · rw [if_pos h1, if_neg fun h2 => absurd h2.1 (by linarith [h1.1]), if_pos h1]
    · rw [if_neg h1, if_neg h1]

theorem Grid.flip_sigma (h : ∀ k, G.lo k ≤ G.hi k) (k : Fin d) (x : ℝ) :
    (G.flip ε N).sigma k (if ε k then N k - x else x) = G.sigma k x := by
  unfold Grid.sigma
  rw [Grid.flip_depth h, Grid.flip_width]
  rfl

theorem Grid.flip_alpha (h : ∀ k, G.lo k ≤ G.hi k) (k : Fin d) (x : ℝ) :
    (G.flip ε N).alpha k (if ε k then N k - x else x) = G.alpha k x := by
  unfold Grid.alpha
  rw [Grid.flip_depth h]
  rfl

theorem cast_flip (c : Cell d) (k : Fin d) :
    ((Spec.flip ε N c k : ℤ) : ℝ) = if ε k then (N k : ℝ) - (c k : ℝ) else (c k : ℝ) := by
  unfold Spec.flip
  cases ε k <;> simp

theorem Grid.flip_a (h : ∀ k, G.lo k ≤ G.hi k) (k : Fin d) (c : Cell d) :
    (G.flip ε N).a k (c k) = G.a k (Spec.flip ε N c k) := by
  have e : ((c k : ℤ) : ℝ) = if ε k then (N k : ℝ) - (Spec.flip ε N c k : ℤ) else (Spec.flip ε N c k : ℤ) := by
    rw [← cast_flip, flip_flip]
  unfold Grid.a
  rw [e, Grid.flip_depth h, Grid.flip_sigma h, Grid.flip_alpha h]
  rfl

theorem Grid.flip_b (h : ∀ k, G.lo k ≤ G.hi k) (k : Fin d) (c : Cell d) :
    (G.flip ε N).b k (c k) = G.b k (Spec.flip ε N c k) := by
  have e : ((c k : ℤ) : ℝ) = if ε k then (N k : ℝ) - (Spec.flip ε N c k : ℤ) else (Spec.flip ε N c k : ℤ) := by
    rw [← cast_flip, flip_flip]
  unfold Grid.b
  rw [e, Grid.flip_sigma h, Grid.flip_alpha h]
  rfl

theorem Grid.flip_D1 (k : Fin d) (u : Fld d ℝ) (c : Cell d) :
    (G.flip ε N).D1 k (fun c => u (Spec.flip ε N c)) c = (sgn ε k : ℤ) * G.D1 k u (Spec.flip ε N c) := by
  show G.D1 k (fun c => u (Spec.flip ε N c)) c = _
  unfold Grid.D1 central1
  simp only [flip_shift]
  rw [← mul_div_assoc, Finset.mul_sum]
  refine congrArg (· / _) (Finset.sum_congr rfl fun j _ => ?_)
  rcases sgn_or (ε := ε) k with ⟨-, h⟩ | ⟨-, h⟩
  · rw [h]
    simp only [neg_one_mul, neg_neg]
    push_cast
    ring
  · rw [h]
    simp only [one_mul]
    push_cast
    ring

theorem Grid.flip_D2 (k : Fin d) (u : Fld d ℝ) (c : Cell d) :
    (G.flip ε N).D2 k (fun c => u (Spec.flip ε N c)) c = G.D2 k u (Spec.flip ε N c) := by
  show G.D2 k (fun c => u (Spec.flip ε N c)) c = _
  unfold Grid.D2 central2
  simp only [flip_shift]
  refine congrArg (· / _) (Finset.sum_congr rfl fun j _ => ?_)
  rcases sgn_or (ε := ε) k with ⟨-, h⟩ | ⟨-, h⟩
  · rw [h]
    simp only [neg_one_mul, neg_neg, neg_zero]
    ring
  · rw [h]
    simp only [one_mul]

theorem Grid.D1_smul (k : Fin d) (a : ℝ) (u : Fld d ℝ) (c : Cell d) : G.D1 k (fun c => a * u c) c = a * G.D1 k u c := by
  unfold Grid.D1 central1
  rw [← mul_div_assoc, Finset.mul_sum]
  exact congrArg (· / _) (Finset.sum_congr rfl fun j _ => by ring)

theorem Grid.flip_flux (h : ∀ k, G.lo k ≤ G.hi k) (k : Fin d) (u psi : Fld d ℝ) (c : Cell d) :
    (G.flip ε N).flux k (fun c => u (Spec.flip ε N c)) (fun c => (sgn ε k : ℤ) * psi (Spec.flip ε N c)) c =
      G.flux k u psi (Spec.flip ε N c) := by
  unfold Grid.flux
  have e1 : (fun c : Cell d => (G.flip ε N).b k (c k)) = fun c => (fun c : Cell d => G.b k (c k)) (Spec.flip ε N c) :=
    funext fun c => Grid.flip_b h k c
  have e2 : (fun c : Cell d => (G.flip ε N).a k (c k) * ((sgn ε k : ℤ) * psi (Spec.flip ε N c))) = fun c =>
      (fun c : Cell d => (sgn ε k : ℤ) * (G.a k (c k) * psi c)) (Spec.flip ε N c) := by
    funext c
    rw [Grid.flip_a h]
    ring
  rw [e1, e2, Grid.flip_D1 k u, Grid.flip_D1 k fun c => G.b k (c k), Grid.flip_D1 k fun c => (sgn ε k : ℤ) * (G.a k (c k) * psi c),
    Grid.flip_D2, Grid.flip_b h, Grid.D1_smul]
  have := sgn_sq (ε := ε) k
  linear_combination (G.D1 k (fun c => G.b k (c k)) (Spec.flip ε N c) * G.D1 k u (Spec.flip ε N c) +
    G.D1 k (fun c => G.a k (c k) * psi c) (Spec.flip ε N c)) * this

theorem Grid.flip_lap (h : ∀ k, G.lo k ≤ G.hi k) (u : Fld d ℝ) (psi zeta : Fin d → Fld d ℝ) (c : Cell d) :
    (G.flip ε N).lap (fun c => u (Spec.flip ε N c)) (fun k c => (sgn ε k : ℤ) * psi k (Spec.flip ε N c))
      (fun k c => zeta k (Spec.flip ε N c)) c = G.lap u psi zeta (Spec.flip ε N c) := by
  unfold Grid.lap
  refine Finset.sum_congr rfl fun k _ => ?_
  rw [Grid.flip_flux h, Grid.flip_a h, Grid.flip_b h]

/-- The wave in the mirror; the memory variables of first derivatives change their sign. -/
theorem Grid.Wave.flip (hG : ∀ k, G.lo k ≤ G.hi k) {vel : Fld d ℝ} {q : ℕ → Fld d ℝ} {u : ℕ → Fld d ℝ}
    {psi zeta : ℕ → Fin d → Fld d ℝ} (h : G.Wave vel q u psi zeta) :
    (G.flip ε N).Wave (fun c => vel (Spec.flip ε N c)) (fun t c => q t (Spec.flip ε N c)) (fun t c => u t (Spec.flip ε N c))
      (fun t k c => (sgn ε k : ℤ) * psi t k (Spec.flip ε N c)) (fun t k c => zeta t k (Spec.flip ε N c)) := by
  refine ⟨fun t c hc => ?_, fun t c hc => ?_, fun t k c hc => ?_, fun t k c hc => ?_⟩
  · rw [Grid.flip_in] at hc
    obtain ⟨o1, o2⟩ := h.outside t _ hc
    exact ⟨o1, fun k => ⟨by rw [(o2 k).1, mul_zero], (o2 k).2⟩⟩
  · rw [Grid.flip_in] at hc
    rw [Grid.flip_lap hG]
    exact h.wave t _ hc
  · rw [Grid.flip_in] at hc
    rw [Grid.flip_D1, Grid.flip_a hG, Grid.flip_b hG, h.psi_next t k _ hc]
    ring
  · rw [Grid.flip_in] at hc
    rw [Grid.flip_flux hG, Grid.flip_a hG, Grid.flip_b hG, h.zeta_next t k _ hc]

theorem Grid.Scattered.flip (hG : ∀ k, G.lo k ≤ G.hi k) {vel scat : Fld d ℝ} {q : ℕ → Fld d ℝ} {u : ℕ → Fld d ℝ}
    {psi zeta : ℕ → Fin d → Fld d ℝ} {w : ℕ → Fld d ℝ} {ps ze : ℕ → Fin d → Fld d ℝ}
    (h : G.Scattered vel scat q u psi zeta w ps ze) :
    (G.flip ε N).Scattered (fun c => vel (Spec.flip ε N c)) (fun c => scat (Spec.flip ε N c))
      (fun t c => q t (Spec.flip ε N c)) (fun t c => u t (Spec.flip ε N c))
      (fun t k c => (sgn ε k : ℤ) * psi t k (Spec.flip ε N c)) (fun t k c => zeta t k (Spec.flip ε N c))
      (fun t c => w t (Spec.flip ε N c)) (fun t k c => (sgn ε k : ℤ) * ps t k (Spec.flip ε N c))
      (fun t k c => ze t k (Spec.flip ε N c)) := by
  refine ⟨fun t c hc => ?_, fun t c hc => ?_, fun t k c hc => ?_, fun t k c hc => ?_⟩
  · rw [Grid.flip_in] at hc
    obtain ⟨o1, o2⟩ := h.outside t _ hc
    exact ⟨o1, fun k => ⟨by rw [(o2 k).1, mul_zero], (o2 k).2⟩⟩
  · rw [Grid.flip_in] at hc
    rw [Grid.flip_lap hG, Grid.flip_lap hG]
    exact h.wave t _ hc
  · rw [Grid.flip_in] at hc
    rw [Grid.flip_D1, Grid.flip_a hG, Grid.flip_b hG, h.psi_next t k _ hc]
    ring
  · rw [Grid.flip_in] at hc
    rw [Grid.flip_flux hG, Grid.flip_a hG, Grid.flip_b hG, h.zeta_next t k _ hc]

/-- Models continued into the PML. -/
theorem Grid.flip_extend (hG : ∀ k, G.lo k ≤ G.hi k) (m : Fld d ℝ) :
    (G.flip ε N).extend (fun c => m (Spec.flip ε N c)) = fun c => G.extend m (Spec.flip ε N c) := by
  funext c
  unfold Grid.extend
  refine congrArg m (funext fun k => ?_)
  unfold Spec.flip Grid.flip
  dsimp only
  have := hG k
  cases ε k
  · simp
  · simp only [if_true]
    omega

theorem Grid.flip_extendZero (m : Fld d ℝ) :
    (G.flip ε N).extendZero (fun c => m (Spec.flip ε N c)) = fun c => G.extendZero m (Spec.flip ε N c) := by
  funext c
  unfold Grid.extendZero
  have : (∀ k, (G.flip ε N).lo k ≤ c k ∧ c k ≤ (G.flip ε N).hi k) ↔
      ∀ k, G.lo k ≤ Spec.flip ε N c k ∧ Spec.flip ε N c k ≤ G.hi k := by
    refine forall_congr' fun k => ?_
    unfold Spec.flip Grid.flip
    dsimp only
    cases ε k
    · simp
    · simp only [if_true]
      omega
  simp only [this]

end Dw.Spec
