import Verif.Scalar.Forward

/-!
# Linearity, causality, locality and restart of the reference recursion
-/

namespace Dw.Scalar

variable {d ns nr : ℕ} {R : Type*} [Field R] {C : Cfg d ns nr R}

theorem cDiff1_comb (acc : Acc) (rdx α β : R) (a a' : ℤ → R) :
    cDiff1 acc rdx (fun j => α * a j + β * a' j) = α * cDiff1 acc rdx a + β * cDiff1 acc rdx a' := by
  rw [cDiff1_add, cDiff1_smul, cDiff1_smul]

theorem cDiff2_comb (acc : Acc) (rdx α β : R) (a a' : ℤ → R) :
    cDiff2 acc rdx (fun j => α * a j + β * a' j) = α * cDiff2 acc rdx a + β * cDiff2 acc rdx a' := by
  rw [cDiff2_add, cDiff2_smul, cDiff2_smul]

theorem Cfg.D1_comb (k : Fin d) (α β : R) (u u' : Fld d R) (c : Cell d) :
    C.D1 k (fun c => α * u c + β * u' c) c = α * C.D1 k u c + β * C.D1 k u' c := by
  simp only [Cfg.D1, Dw.D1]
  exact cDiff1_comb _ _ _ _ _ _

theorem Cfg.D2_comb (k : Fin d) (α β : R) (u u' : Fld d R) (c : Cell d) :
    C.D2 k (fun c => α * u c + β * u' c) c = α * C.D2 k u c + β * C.D2 k u' c := by
  simp only [Cfg.D2, Dw.D2]
  exact cDiff2_comb _ _ _ _ _ _

/-- Linear combination of states. -/
def St.comb (α β : R) (s s' : St d R) : St d R :=
  ⟨fun c => α * s.u c + β * s'.u c, fun c => α * s.p c + β * s'.p c,
    fun k c => α * s.psi k c + β * s'.psi k c, fun k c => α * s.zeta k c + β * s'.zeta k c⟩

theorem Cfg.tmp_comb (α β : R) (s s' : St d R) (k : Fin d) (c : Cell d) :
    C.tmp (s.comb α β s') k c = α * C.tmp s k c + β * C.tmp s' k c := by
  have e : C.D1 k (fun c => C.a k (c k) * (s.comb α β s').psi k c) c =
      α * C.D1 k (fun c => C.a k (c k) * s.psi k c) c
        + β * C.D1 k (fun c => C.a k (c k) * s'.psi k c) c := by
    rw [← C.D1_comb]
    congr 1
    funext c
    simp only [St.comb]
    ring
  have e1 : C.D1 k (s.comb α β s').u c = _ := C.D1_comb k α β s.u s'.u c
  have e2 : C.D2 k (s.comb α β s').u c = _ := C.D2_comb k α β s.u s'.u c
  simp only [Cfg.tmp]
  rw [e, e1, e2]
  ring

theorem Cfg.lap_comb (α β : R) (s s' : St d R) (c : Cell d) :
    C.lap (s.comb α β s') c = α * C.lap s c + β * C.lap s' c := by
  simp only [Cfg.lap, Finset.mul_sum, ← Finset.sum_add_distrib, C.tmp_comb]
  exact Finset.sum_congr rfl fun k _ => by simp only [St.comb]; ring

theorem Cfg.refStep_comb (α β : R) (s s' : St d R) :
    C.refStep (s.comb α β s') = (C.refStep s).comb α β (C.refStep s') := by
  ext1
  · funext c
    simp only [Cfg.refStep, C.lap_comb]
    simp only [St.comb]
    split_ifs <;> ring
  · rfl
  · funext k c
    have e1 : C.D1 k (s.comb α β s').u c = _ := C.D1_comb k α β s.u s'.u c
    simp only [Cfg.refStep, e1]
    simp only [St.comb]
    split_ifs <;> ring
  · funext k c
    simp only [Cfg.refStep, C.tmp_comb]
    simp only [St.comb]
    split_ifs <;> ring

theorem inject_comb {m : ℕ} (loc : Fin m → Option (Cell d)) (α β : R) (q q' : Fin m → R)
    (c : Cell d) : inject loc (fun i => α * q i + β * q' i) c =
      α * inject loc q c + β * inject loc q' c := by
  simp only [inject, Finset.mul_sum, ← Finset.sum_add_distrib]
  exact Finset.sum_congr rfl fun i _ => by split_ifs <;> ring

theorem Cfg.next_comb (α β : R) (q q' : Fin ns → R) (s s' : St d R) :
    C.next (fun i => α * q i + β * q' i) (s.comb α β s') =
      (C.next q s).comb α β (C.next q' s') := by
  simp only [Cfg.next, C.refStep_comb, inject_comb]
  ext1
  · funext c; simp only [St.comb]; ring
  · rfl
  · rfl
  · rfl

theorem Cfg.run_comb (α β : R) (f f' : ℕ → Fin ns → R) (t : ℕ) (s s' : St d R) (n : ℕ) :
    C.run (fun t i => α * f t i + β * f' t i) t (s.comb α β s') n =
      (C.run f t s n).comb α β (C.run f' t s' n) := by
  induction n with
  | zero => rfl
  | succ n ih => rw [Cfg.run, ih, C.next_comb]; rfl

theorem sample_comb {m : ℕ} (loc : Fin m → Option (Cell d)) (α β : R) (u u' : Fld d R) (i : Fin m) :
    sample loc (fun c => α * u c + β * u' c) i = α * sample loc u i + β * sample loc u' i := by
  simp only [sample]
  cases loc i <;> simp

/-! ### Dependence on the source amplitudes -/

theorem Cfg.run_congr (f f' : ℕ → Fin ns → R) (s : St d R) (t n : ℕ)
    (hf : ∀ t' < t + n, ∀ i, C.src i ≠ none → f t' i = f' t' i) :
    C.run f t s n = C.run f' t s n := by
  induction n with
  | zero => rfl
  | succ n ih =>
      rw [Cfg.run, Cfg.run, ih fun t' h => hf t' (by omega)]
      simp only [Cfg.next]
      have : inject C.src (f (t + n)) = inject C.src (f' (t + n)) := by
        funext c
        refine Finset.sum_congr rfl fun i _ => ?_
        split_ifs with hi
        · exact hf _ (by omega) i (by simp [hi])
        · rfl
      rw [this]

theorem Cfg.run_shift (f : ℕ → Fin ns → R) (s : St d R) (t n : ℕ) :
    C.run f t s n = C.run (fun t' => f (t + t')) 0 s n := by
  induction n with
  | zero => rfl
  | succ n ih => rw [Cfg.run, Cfg.run, ih, Nat.zero_add]

/-! ### Restart -/

/-- Returned wavefields, to be passed to the next call. -/
def Wavefields.toInit (w : Wavefields d R) : Init d R :=
  ⟨some w.wfc, some w.wfp, fun k => some (w.psi k), fun k => some (w.zeta k)⟩

theorem Cfg.createOrPad_unpad (u : Fld d R) (hu : ∀ c, ¬C.Inner c → u c = 0) :
    C.createOrPad (some (C.unpad u)) = u := by
  funext c
  simp only [Cfg.createOrPad, Cfg.unpad]
  split_ifs with hc
  · congr 1; funext k; ring
  · exact (hu c hc).symm

theorem Cfg.zeroInterior_of_mid (k : Fin d) (u : Fld d R) (hu : ∀ c : Cell d, C.Mid k (c k) → u c = 0) :
    C.zeroInterior k u = u := by
  funext c
  simp only [Cfg.zeroInterior]
  split_ifs with hc
  · exact (hu c hc).symm
  · rfl

theorem Cfg.start_outOf {s : St d R} (hs : C.Good s) : C.start (C.outOf s).toInit = s := by
  ext1
  · exact C.createOrPad_unpad _ hs.u
  · exact C.createOrPad_unpad _ hs.p
  · funext k
    simp only [Cfg.start, Wavefields.toInit, Cfg.outOf]
    rw [C.createOrPad_unpad _ (hs.psi k), C.zeroInterior_of_mid k _ (hs.psi_mid k)]
  · funext k
    simp only [Cfg.start, Wavefields.toInit, Cfg.outOf]
    rw [C.createOrPad_unpad _ (hs.zeta k), C.zeroInterior_of_mid k _ (hs.zeta_mid k)]

/-! ### Locality -/

/-- Number of unit moves along the axes between two cells. -/
def cellDist (c c' : Cell d) : ℤ := ∑ k, |c k - c' k|

theorem cellDist_shift (c c' : Cell d) (k : Fin d) (j : ℤ) :
    cellDist c' (c.shift k j) ≤ cellDist c' c + |j| := by
  have : ∀ i, |c' i - c.shift k j i| ≤ |c' i - c i| + if i = k then |j| else 0 := by
    intro i
    by_cases h : i = k
    · subst h
      rw [Cell.shift_same, if_pos rfl]
      calc |c' i - (c i + j)| = |(c' i - c i) + -j| := by ring_nf
        _ ≤ |c' i - c i| + |-j| := abs_add_le _ _
        _ = _ := by rw [abs_neg]
    · rw [Cell.shift_ne _ _ _ _ h, if_neg h, add_zero]
  calc cellDist c' (c.shift k j) ≤ ∑ i, (|c' i - c i| + if i = k then |j| else 0) :=
        Finset.sum_le_sum fun i _ => this i
    _ = _ := by simp [Finset.sum_add_distrib, cellDist]

theorem cellDist_self (c : Cell d) : cellDist c c = 0 := by simp [cellDist]

/-- States agree within distance `r` of `c₀`. -/
def St.AgreeNear (c₀ : Cell d) (r : ℤ) (s s' : St d R) : Prop :=
  ∀ c, cellDist c₀ c ≤ r → s.u c = s'.u c ∧ s.p c = s'.p c ∧
    (∀ k, s.psi k c = s'.psi k c) ∧ ∀ k, s.zeta k c = s'.zeta k c

theorem Cfg.next_local (v' : Fld d R) (c₀ : Cell d) (r : ℤ) (q q' : Fin ns → R)
    (s s' : St d R) (hs : s.AgreeNear c₀ (r + C.acc.pad) s')
    (hv : ∀ c, cellDist c₀ c ≤ r → C.v c = v' c)
    (hq : ∀ i c, C.src i = some c → cellDist c₀ c ≤ r → q i = q' i) :
    (C.next q s).AgreeNear c₀ r (({ C with v := v' } : Cfg d ns nr R).next q' s') := by
  intro c hc
  have hsh : ∀ (k : Fin d) (j : ℤ), -(C.acc.pad : ℤ) ≤ j → j ≤ C.acc.pad →
      cellDist c₀ (c.shift k j) ≤ r + C.acc.pad := by
    intro k j h1 h2
    have := cellDist_shift c c₀ k j
    have : |j| ≤ (C.acc.pad : ℤ) := abs_le.2 ⟨h1, h2⟩
    omega
  have hself : cellDist c₀ c ≤ r + C.acc.pad := by omega
  have hd1 : ∀ k, C.D1 k s.u c = C.D1 k s'.u c := fun k =>
    cDiff1_congr _ _ fun j h1 h2 => (hs _ (hsh k j h1 h2)).1
  have hd2 : ∀ k, C.D2 k s.u c = C.D2 k s'.u c := fun k =>
    cDiff2_congr _ _ fun j h1 h2 => (hs _ (hsh k j h1 h2)).1
  have hd3 : ∀ k, C.D1 k (fun c => C.a k (c k) * s.psi k c) c =
      C.D1 k (fun c => C.a k (c k) * s'.psi k c) c := by
    intro k
    simp only [Cfg.D1, Dw.D1]
    exact cDiff1_congr _ _ fun j h1 h2 => by rw [(hs _ (hsh k j h1 h2)).2.2.1 k]
  have htmp : ∀ k, C.tmp s k c = C.tmp s' k c := by
    intro k; simp only [Cfg.tmp, hd1, hd2, hd3]
  obtain ⟨hu, hp, hpsi, hzeta⟩ := hs c hself
  have hlap : C.lap s c = C.lap s' c := by
    simp only [Cfg.lap, htmp, hzeta]
  have hinj : inject C.src q c = inject C.src q' c := by
    refine Finset.sum_congr rfl fun i _ => ?_
    split_ifs with hi
    · exact hq i c hi hc
    · rfl
  have e1 : ∀ c, ({ C with v := v' } : Cfg d ns nr R).Inner c ↔ C.Inner c := fun _ => Iff.rfl
  refine ⟨?_, hu, fun k => ?_, fun k => ?_⟩
  · change (if C.Inner c then _ else 0) + inject C.src q c =
      (if C.Inner c then v' c ^ 2 * C.dt ^ 2 * C.lap s' c + 2 * s'.u c - s'.p c else 0)
        + inject C.src q' c
    rw [hinj, hlap, hu, hp, hv c hc]
  · change (if C.Inner c then _ else 0) =
      (if C.Inner c then C.b k (c k) * C.D1 k s'.u c + C.a k (c k) * s'.psi k c else 0)
    rw [hd1, hpsi]
  · change (if C.Inner c then _ else 0) =
      (if C.Inner c then C.b k (c k) * C.tmp s' k c + C.a k (c k) * s'.zeta k c else 0)
    rw [htmp, hzeta]

theorem Cfg.run_local (v' : Fld d R) (c₀ : Cell d) (f f' : ℕ → Fin ns → R) (s s' : St d R)
    (n : ℕ) : ∀ r : ℤ, s.AgreeNear c₀ (r + n * C.acc.pad) s' →
    (∀ c, cellDist c₀ c ≤ r + n * C.acc.pad → C.v c = v' c) →
    (∀ t < n, ∀ i c, C.src i = some c → cellDist c₀ c ≤ r + n * C.acc.pad → f t i = f' t i) →
    (C.run f 0 s n).AgreeNear c₀ r (({ C with v := v' } : Cfg d ns nr R).run f' 0 s' n) := by
  induction n with
  | zero => intro r hs _ _; simpa [Cfg.run] using hs
  | succ n ih =>
      intro r hs hv hf
      have e : r + ((n + 1 : ℕ) : ℤ) * C.acc.pad = r + C.acc.pad + n * C.acc.pad := by
        push_cast; ring
      rw [e] at hs hv hf
      have h1 := ih (r + C.acc.pad) hs hv fun t ht => hf t (by omega)
      have hnn : (0 : ℤ) ≤ C.acc.pad + n * C.acc.pad := by positivity
      refine C.next_local v' c₀ r _ _ _ _ h1 (fun c hc => hv c (by omega)) ?_
      intro i c hi hc
      rw [Nat.zero_add]
      exact hf n (by omega) i c hi (by omega)

end Dw.Scalar
