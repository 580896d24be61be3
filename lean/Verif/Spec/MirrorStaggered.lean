import Verif.Spec.Mirror
import Verif.Spec.Elastic

/-!
# Staggered grids in a mirror

A point between cells `c` and `c + 1` has the index of the smaller one, so its mirror image has the index
`N - 1 - c`.
-/

namespace Dw.Spec

variable {d : ℕ} (ε : Fin d → Bool) (N : Fin d → ℤ)

/-- The mirror image of the points between cells in the dimensions `L`. -/
def flipAt (L : Fin d → Bool) (c : Cell d) : Cell d := flip ε (fun k => N k - if L k then 1 else 0) c

variable {ε N} {L L' : Fin d → Bool} {G : Grid d}

theorem flipAt_flipAt (c : Cell d) : flipAt ε N L (flipAt ε N L c) = c := flip_flip _

theorem flipAt_false (c : Cell d) : flipAt ε N (fun _ => false) c = flip ε N c := by
  unfold flipAt
  simp

theorem flipAt_shift (c : Cell d) (k : Fin d) (j : ℤ) : flipAt ε N L (c.shift k j) = (flipAt ε N L c).shift k (sgn ε k * j) :=
  flip_shift _ _ _

theorem shift_zero (c : Cell d) (k : Fin d) : c.shift k 0 = c := by
  unfold Cell.shift
  simp

/-- From the points of `L` to those half a cell away in dimension `k`. -/
theorem flipAt_next {k : Fin d} {h : Bool} (h1 : L k = !h) (h2 : L' k = h) (hne : ∀ l ≠ k, L' l = L l) (c : Cell d) :
    flipAt ε N L c = (flipAt ε N L' c).shift k (if ε k then (if h then 1 else -1) else 0) := by
  funext l
  unfold flipAt flip Cell.shift
  by_cases hl : l = k
  · subst hl
    simp only [h1, h2, Pi.add_apply, Pi.single_eq_same]
    cases ε l <;> cases h <;> simp <;> ring
  · simp only [hne l hl, Pi.add_apply, Pi.single_eq_of_ne hl, add_zero]

theorem Grid.flip_inAt (c : Cell d) : (G.flip ε N).InAt L c ↔ G.InAt L (flipAt ε N L c) := by
  unfold Grid.InAt Grid.In Grid.flip flipAt Spec.flip
  rw [← forall_and, ← forall_and]
  refine forall_congr' fun k => ?_
  dsimp only
  rcases Bool.eq_false_or_eq_true (ε k) with h | h <;> rcases Bool.eq_false_or_eq_true (L k) with h' | h' <;>
    simp only [h, h', if_true, Bool.false_eq_true, if_false, forall_const, true_implies, false_implies, and_true, sub_zero] <;> omega

theorem point_flip (k : Fin d) (c : Cell d) : point (L k) (c k) =
    if ε k then (N k : ℝ) - point (L k) (flipAt ε N L c k) else point (L k) (flipAt ε N L c k) := by
  unfold point flipAt Spec.flip
  rcases Bool.eq_false_or_eq_true (ε k) with h | h <;> rcases Bool.eq_false_or_eq_true (L k) with h' | h' <;>
    simp only [h, h', if_true, Bool.false_eq_true, if_false, sub_zero]
  · push_cast; ring
  · push_cast; ring

theorem Grid.flip_aAt (h : ∀ k, G.lo k ≤ G.hi k) (k : Fin d) (c : Cell d) :
    (G.flip ε N).a k (point (L k) (c k)) = G.a k (point (L k) (flipAt ε N L c k)) := by
  rw [point_flip (ε := ε) (N := N) k c]
  unfold Grid.a
  rw [Grid.flip_depth h, Grid.flip_sigma h, Grid.flip_alpha h]
  rfl

theorem Grid.flip_bAt (h : ∀ k, G.lo k ≤ G.hi k) (k : Fin d) (c : Cell d) :
    (G.flip ε N).b k (point (L k) (c k)) = G.b k (point (L k) (flipAt ε N L c k)) := by
  rw [point_flip (ε := ε) (N := N) k c]
  unfold Grid.b
  rw [Grid.flip_sigma h, Grid.flip_alpha h]
  rfl

theorem shift_shift (c : Cell d) (k : Fin d) (i j : ℤ) : (c.shift k i).shift k j = c.shift k (i + j) := by
  unfold Cell.shift
  rw [Pi.single_add, add_assoc]

theorem Grid.D_smul (h : Bool) (k : Fin d) (a : ℝ) (u : Fld d ℝ) (c : Cell d) :
    G.D h k (fun c => a * u c) c = a * G.D h k u c := by
  cases h
  · show G.DI k (fun c => a * u c) c = a * G.DI k u c
    unfold Grid.DI whole1
    rw [← mul_div_assoc, Finset.mul_sum]
    exact congrArg (· / _) (Finset.sum_congr rfl fun j _ => by ring)
  · show G.DH k (fun c => a * u c) c = a * G.DH k u c
    unfold Grid.DH half1
    rw [← mul_div_assoc, Finset.mul_sum]
    exact congrArg (· / _) (Finset.sum_congr rfl fun j _ => by ring)

theorem Grid.flip_D {k : Fin d} {h : Bool} (h1 : L k = !h) (h2 : L' k = h) (hne : ∀ l ≠ k, L' l = L l) (u : Fld d ℝ) (c : Cell d) :
    (G.flip ε N).D h k (fun c => u (flipAt ε N L c)) c = (sgn ε k : ℤ) * G.D h k u (flipAt ε N L' c) := by
  cases h
  · show G.DI k (fun c => u (flipAt ε N L c)) c = _ * G.DI k u _
    unfold Grid.DI whole1
    rw [← mul_div_assoc, Finset.mul_sum]
    refine congrArg (· / _) (Finset.sum_congr rfl fun j _ => ?_)
    simp only [flipAt_shift]
    rw [flipAt_next h1 h2 hne]
    simp only [shift_shift]
    rcases sgn_or (ε := ε) k with ⟨e, hs⟩ | ⟨e, hs⟩ <;> simp only [e, hs, if_true, Bool.false_eq_true, if_false]
    · rw [show (-1 : ℤ) + -1 * (j : ℤ) = -(j + 1) by ring, show (-1 : ℤ) + -1 * -((j : ℤ) + 1) = j by ring]
      push_cast
      ring
    · rw [show (0 : ℤ) + 1 * (j : ℤ) = j by ring, show (0 : ℤ) + 1 * -((j : ℤ) + 1) = -(j + 1) by ring]
      push_cast
      ring
  · show G.DH k (fun c => u (flipAt ε N L c)) c = _ * G.DH k u _
    unfold Grid.DH half1
    rw [← mul_div_assoc, Finset.mul_sum]
    refine congrArg (· / _) (Finset.sum_congr rfl fun j _ => ?_)
    simp only [flipAt_shift]
    rw [flipAt_next h1 h2 hne]
    simp only [shift_shift]
    rcases sgn_or (ε := ε) k with ⟨e, hs⟩ | ⟨e, hs⟩ <;> simp only [e, hs, if_true, Bool.false_eq_true, if_false]
    · rw [show (1 : ℤ) + -1 * ((j : ℤ) + 1) = -j by ring, show (1 : ℤ) + -1 * -(j : ℤ) = j + 1 by ring]
      push_cast
      ring
    · rw [show (0 : ℤ) + 1 * ((j : ℤ) + 1) = j + 1 by ring, show (0 : ℤ) + 1 * -(j : ℤ) = -j by ring]
      push_cast
      ring

/-! ### Models between the cells -/

theorem flip_mean (m : Fld d ℝ) (k : Fin d) (c : Cell d) :
    mean (fun c => m (flip ε N c)) k c = mean m k (flipAt ε N (atV k) c) := by
  unfold mean
  simp only [← flipAt_false (ε := ε) (N := N), flipAt_shift]
  have e := flipAt_next (ε := ε) (N := N) (L := fun _ => false) (L' := atV k) (k := k) (h := true) rfl (by simp [atV])
    (fun l hl => by simp [atV, hl]) c
  rw [e, shift_shift]
  rcases sgn_or (ε := ε) k with ⟨e, hs⟩ | ⟨e, hs⟩ <;> simp only [e, hs, if_true, Bool.false_eq_true, if_false]
  · rw [show (1 : ℤ) + -1 * 1 = 0 by ring, shift_zero, add_comm]
  · rw [show (0 : ℤ) + 1 * 1 = 1 by ring, shift_zero]

theorem shift_swap (c : Cell d) (k l : Fin d) (i j : ℤ) : (c.shift k i).shift l j = (c.shift l j).shift k i := by
  unfold Cell.shift
  rw [add_right_comm]

/-- The harmonic mean does not depend on the order. -/
theorem harmonic_perm (small : ℝ) {l l' : List ℝ} (h : l.Perm l') :
    (if ∀ x ∈ l, small < |x| then 4 / (l.map fun x => 1 / x).sum else 0) =
      if ∀ x ∈ l', small < |x| then 4 / (l'.map fun x => 1 / x).sum else (0 : ℝ) := by
  rw [(h.map fun x => 1 / x).sum_eq]
  exact if_congr (forall_congr' fun x => by rw [h.mem_iff]) rfl rfl

theorem perm_four {α : Type*} (a b c e : α) : [b, a, e, c].Perm [a, b, c, e] ∧ [c, e, a, b].Perm [a, b, c, e] ∧
    [e, c, b, a].Perm [a, b, c, e] := by
  refine ⟨?_, ?_, ?_⟩
  · exact (List.Perm.swap _ _ _).trans (((List.Perm.swap _ _ _).cons _).cons _)
  · exact (List.perm_append_comm (l₁ := [c, e]) (l₂ := [a, b]))
  · exact (List.reverse_perm [a, b, c, e])

theorem flip_harmonic (small : ℝ) (m : Fld d ℝ) {i j : Fin d} (hij : i ≠ j) (c : Cell d) :
    harmonic small (fun c => m (flip ε N c)) i j c = harmonic small m i j (flipAt ε N (atS i j) c) := by
  have e1 := flipAt_next (ε := ε) (N := N) (L := fun _ => false) (L' := atV i) (k := i) (h := true) rfl (by simp [atV])
    (fun l hl => by simp [atV, hl]) c
  have e2 := flipAt_next (ε := ε) (N := N) (L := atV i) (L' := atS i j) (k := j) (h := true) (by simp [atV, hij.symm])
    (by simp [atS, hij]) (fun l hl => by simp [atV, atS, hl, hij]) c
  unfold harmonic
  simp only [← flipAt_false (ε := ε) (N := N), flipAt_shift]
  rw [e1, e2]
  generalize flipAt ε N (atS i j) c = x
  refine harmonic_perm small ?_
  obtain ⟨p1, p2, p3⟩ := perm_four (m x) (m (x.shift i 1)) (m (x.shift j 1)) (m ((x.shift i 1).shift j 1))
  rcases sgn_or (ε := ε) i with ⟨a, hs⟩ | ⟨a, hs⟩ <;> rcases sgn_or (ε := ε) j with ⟨b, ht⟩ | ⟨b, ht⟩ <;>
    simp only [a, b, hs, ht, if_true, Bool.false_eq_true, if_false, mul_one, shift_zero, shift_shift,
      shift_swap x j i, shift_swap (x.shift i 1) j i, Int.add_right_neg]
  · exact p3
  · exact p1
  · exact p2
  · exact List.Perm.refl _

/-! ### Solutions -/

theorem inH_iff (k : Fin d) (c : Cell d) : G.InH k c ↔ G.InAt (atV k) c := by
  unfold Grid.InH Grid.InAt atV
  simp

theorem flip_DI (k : Fin d) (u : Fld d ℝ) (c : Cell d) :
    (G.flip ε N).DI k (fun c => (sgn ε k : ℤ) * u (flipAt ε N (atV k) c)) c = G.DI k u (flip ε N c) := by
  have h1 := Grid.D_smul (G := G.flip ε N) false k (sgn ε k : ℤ) (fun c => u (flipAt ε N (atV k) c)) c
  rw [Grid.flip_D (L' := fun _ => false) (by simp [atV]) rfl (fun l hl => by simp [atV, hl]), ← mul_assoc, sgn_sq, one_mul,
    flipAt_false] at h1
  exact h1

theorem flip_DH (k : Fin d) (u : Fld d ℝ) (c : Cell d) :
    (G.flip ε N).DH k (fun c => u (flip ε N c)) c = (sgn ε k : ℤ) * G.DH k u (flipAt ε N (atV k) c) := by
  have h1 := Grid.flip_D (G := G) (ε := ε) (N := N) (L := fun _ => false) (L' := atV k) (h := true) (k := k) rfl (by simp [atV])
    (fun l hl => by simp [atV, hl]) u c
  simp only [flipAt_false] at h1
  exact h1

theorem flip_aH (h : ∀ k, G.lo k ≤ G.hi k) (k : Fin d) (c : Cell d) :
    (G.flip ε N).a k (c k + 1 / 2) = G.a k (flipAt ε N (atV k) c k + 1 / 2) := by
  have := Grid.flip_aAt (ε := ε) (N := N) (L := atV k) h k c
  simpa [point, atV] using this

theorem flip_bH (h : ∀ k, G.lo k ≤ G.hi k) (k : Fin d) (c : Cell d) :
    (G.flip ε N).b k (c k + 1 / 2) = G.b k (flipAt ε N (atV k) c k + 1 / 2) := by
  have := Grid.flip_bAt (ε := ε) (N := N) (L := atV k) h k c
  simpa [point, atV] using this

theorem Grid.Acoustic.flip (hG : ∀ k, G.lo k ≤ G.hi k) {K : Fld d ℝ} {B : Fin d → Fld d ℝ} {qp : ℕ → Fld d ℝ}
    {qv : ℕ → Fin d → Fld d ℝ} {p : ℕ → Fld d ℝ} {v phi psi : ℕ → Fin d → Fld d ℝ} (h : G.Acoustic K B qp qv p v phi psi) :
    (G.flip ε N).Acoustic (fun c => K (Spec.flip ε N c)) (fun k c => B k (flipAt ε N (atV k) c))
      (fun t c => qp t (Spec.flip ε N c)) (fun t k c => (sgn ε k : ℤ) * qv t k (flipAt ε N (atV k) c))
      (fun t c => p t (Spec.flip ε N c)) (fun t k c => (sgn ε k : ℤ) * v t k (flipAt ε N (atV k) c))
      (fun t k c => phi t k (Spec.flip ε N c)) fun t k c => (sgn ε k : ℤ) * psi t k (flipAt ε N (atV k) c) where
  outside := fun t c => by
    refine ⟨fun hc => ?_, fun k hc => ?_⟩
    · rw [Grid.flip_in] at hc
      exact (h.outside t _).1 hc
    · rw [inH_iff, Grid.flip_inAt, ← inH_iff] at hc
      obtain ⟨o1, o2⟩ := (h.outside t _).2 k hc
      rw [o1, o2, mul_zero]
      exact ⟨rfl, rfl⟩
  psi_next := fun t k c hc => by
    rw [inH_iff, Grid.flip_inAt, ← inH_iff] at hc
    rw [h.psi_next t k _ hc, flip_DH, flip_aH hG, flip_bH hG]
    ring
  velocity := fun t k c hc => by
    rw [inH_iff, Grid.flip_inAt, ← inH_iff] at hc
    rw [h.velocity t k _ hc, flip_DH]
    show _ = _ - G.dt * _ * _
    ring
  phi_next := fun t k c hc => by
    rw [Grid.flip_in] at hc
    rw [h.phi_next t k _ hc, flip_DI, Grid.flip_a hG, Grid.flip_b hG]
  pressure := fun t c hc => by
    rw [Grid.flip_in] at hc
    rw [h.pressure t _ hc]
    simp only [flip_DI]
    rfl

theorem flipAt_S_self (i : Fin d) (c : Cell d) : flipAt ε N (atS i i) c = Spec.flip ε N c := by
  rw [← flipAt_false]
  refine congrArg (fun L => flipAt ε N L c) (funext fun k => by simp [atS])

theorem atS_comm (i j : Fin d) : atS i j = atS j i := by
  funext k
  unfold atS
  simp only [ne_comm (a := i), or_comm (a := k = i)]

theorem sgn_mul (k : Fin d) (x : ℝ) : ((sgn ε k : ℤ) : ℝ) * ((sgn ε k : ℤ) * x) = x := by
  rw [← mul_assoc, sgn_sq, one_mul]

/-- The derivative along `j` of velocity `i`. -/
theorem flip_DV (i j : Fin d) (u : Fld d ℝ) (c : Cell d) :
    (G.flip ε N).D (atS i j j) j (fun c => (sgn ε i : ℤ) * u (flipAt ε N (atV i) c)) c =
      (sgn ε i : ℤ) * (sgn ε j : ℤ) * G.D (atS i j j) j u (flipAt ε N (atS i j) c) := by
  rw [Grid.D_smul _ _ _ (fun c => u (flipAt ε N (atV i) c)), Grid.flip_D (L' := atS i j), mul_assoc]
  · by_cases h : i = j <;> simp [atV, atS, h, eq_comm]
  · rfl
  · intro l hl
    by_cases h : i = j
    · subst h
      simp [atV, atS, hl]
    · simp [atV, atS, h, hl]

/-- The derivative along `j` of stress `i j`. -/
theorem flip_DS (i j : Fin d) (u : Fld d ℝ) (c : Cell d) :
    (G.flip ε N).D (atV i j) j (fun c => (sgn ε i : ℤ) * (sgn ε j : ℤ) * u (flipAt ε N (atS i j) c)) c =
      (sgn ε i : ℤ) * G.D (atV i j) j u (flipAt ε N (atV i) c) := by
  rw [Grid.D_smul _ _ _ (fun c => u (flipAt ε N (atS i j) c)), Grid.flip_D (L' := atV i), mul_assoc, sgn_mul]
  · by_cases h : i = j <;> simp [atV, atS, h, eq_comm]
  · rfl
  · intro l hl
    by_cases h : i = j
    · subst h
      simp [atV, atS, hl]
    · simp [atV, atS, h, hl]

theorem Grid.Elastic.flip (hG : ∀ k, G.lo k ≤ G.hi k) {lam mu : Fld d ℝ} {muS : Fin d → Fin d → Fld d ℝ} {B : Fin d → Fld d ℝ}
    {qp : ℕ → Fld d ℝ} {qv v : ℕ → Fin d → Fld d ℝ} {sig mv ms : ℕ → Fin d → Fin d → Fld d ℝ}
    {muS' : Fin d → Fin d → Fld d ℝ} (hmu : ∀ i j, i ≠ j → ∀ c, muS' i j c = muS i j (flipAt ε N (atS i j) c))
    (h : G.Elastic lam mu muS B qp qv v sig mv ms) :
    (G.flip ε N).Elastic (fun c => lam (Spec.flip ε N c)) (fun c => mu (Spec.flip ε N c))
      muS' (fun k c => B k (flipAt ε N (atV k) c))
      (fun t c => qp t (Spec.flip ε N c)) (fun t k c => (sgn ε k : ℤ) * qv t k (flipAt ε N (atV k) c))
      (fun t k c => (sgn ε k : ℤ) * v t k (flipAt ε N (atV k) c))
      (fun t i j c => (sgn ε i : ℤ) * (sgn ε j : ℤ) * sig t i j (flipAt ε N (atS i j) c))
      (fun t i j c => (sgn ε i : ℤ) * (sgn ε j : ℤ) * mv t i j (flipAt ε N (atS i j) c))
      fun t i j c => (sgn ε i : ℤ) * ms t i j (flipAt ε N (atV i) c) where
  symm := fun t i j => funext fun c => by
    rw [h.symm t i j, atS_comm i j, mul_comm ((sgn ε i : ℤ) : ℝ)]
  outside := fun t i c => by
    refine ⟨fun hc => ?_, fun j hc => ?_⟩
    · rw [Grid.flip_inAt] at hc
      obtain ⟨o1, o2⟩ := (h.outside t i _).1 hc
      rw [o1, mul_zero]
      refine ⟨rfl, fun j => ?_⟩
      rw [o2 j, mul_zero]
    · rw [Grid.flip_inAt] at hc
      obtain ⟨o1, o2⟩ := (h.outside t i _).2 j hc
      rw [o1, o2, mul_zero]
      exact ⟨rfl, rfl⟩
  ms_next := fun t i j c hc => by
    rw [Grid.flip_inAt] at hc
    rw [h.ms_next t i j _ hc, flip_DS, Grid.flip_aAt hG, Grid.flip_bAt hG]
    ring
  velocity := fun t i c hc => by
    rw [Grid.flip_inAt] at hc
    rw [h.velocity t i _ hc]
    simp only [flip_DS, ← mul_add, ← Finset.mul_sum]
    show _ = _ + G.dt * _ * _
    ring
  mv_next := fun t i j c hc => by
    rw [Grid.flip_inAt] at hc
    rw [h.mv_next t i j _ hc, flip_DV, Grid.flip_aAt hG, Grid.flip_bAt hG]
    ring
  normal := fun t i c hc => by
    have hD : ∀ k, (G.flip ε N).D false k (fun c => (sgn ε k : ℤ) * v (t + 1) k (flipAt ε N (atV k) c)) c =
        G.D false k (v (t + 1) k) (Spec.flip ε N c) := fun k => flip_DI k _ c
    rw [Grid.flip_in] at hc
    have hn := h.normal t i _ hc
    simp only [flipAt_S_self, hD, sgn_sq, one_mul]
    exact hn
  shear := fun t i j c hij hc => by
    rw [Grid.flip_inAt] at hc
    have d1 := flip_DV (G := G) (ε := ε) (N := N) i j (v (t + 1) i) c
    have d2 := flip_DV (G := G) (ε := ε) (N := N) j i (v (t + 1) j) c
    rw [show atS i j j = true by simp [atS, hij]] at d1
    rw [show atS j i i = true by simp [atS, hij.symm], atS_comm j i] at d2
    rw [h.shear t i j _ hij hc, d1, d2, hmu i j hij, atS_comm j i]
    show _ = _ + G.dt * _ * _
    ring

end Dw.Spec
