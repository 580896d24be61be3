import Verif.Acoustic.Forward
import Verif.Scalar.Linear

/-!
# Linearity, causality, locality and restart of the acoustic recursion
-/

namespace Dw.Acoustic

open Dw.Scalar (inject sample inject_comb sample_comb cellDist cellDist_shift)

variable {d np mp : ℕ} {nv mv : Fin d → ℕ} {R : Type*} [Field R] {C : Cfg d np mp nv mv R}

/-- Linear combination of wavefields. -/
def Wavefields.comb (α β : R) (w w' : Wavefields d R) : Wavefields d R where
  p := fun c => α * w.p c + β * w'.p c
  v := fun k c => α * w.v k c + β * w'.v k c
  phi := fun k c => α * w.phi k c + β * w'.phi k c
  psi := fun k c => α * w.psi k c + β * w'.psi k c

theorem DH_comb (k : Fin d) (α β : R) (u u' : Fld d R) (c : Cell d) :
    C.DH k (fun c => α * u c + β * u' c) c = α * C.DH k u c + β * C.DH k u' c := by
  simp only [Cfg.DH, DSH]
  rw [cSH1_add, cSH1_smul, cSH1_smul]

theorem DI_comb (k : Fin d) (α β : R) (u u' : Fld d R) (c : Cell d) :
    C.DI k (fun c => α * u c + β * u' c) c = α * C.DI k u c + β * C.DI k u' c := by
  simp only [Cfg.DI, DS]
  rw [cS1_add, cS1_smul, cS1_smul]

theorem halfV_comb (α β : R) (q q' : (k : Fin d) → Fin (nv k) → R) (s s' : Wavefields d R) :
    C.halfV (fun k i => α * q k i + β * q' k i) (s.comb α β s') =
      (C.halfV q s).comb α β (C.halfV q' s') := by
  have e : ∀ k c, C.DH k (s.comb α β s').p c = α * C.DH k s.p c + β * C.DH k s'.p c :=
    fun k c => DH_comb k α β s.p s'.p c
  ext1
  · rfl
  · funext k c
    simp only [Cfg.halfV, inject_comb, Cfg.gradP, Cfg.psi', e]
    simp only [Wavefields.comb]
    split_ifs <;> ring
  · rfl
  · funext k c
    simp only [Cfg.halfV, Cfg.psi', e]
    simp only [Wavefields.comb, Cfg.psi']
    split_ifs <;> ring

theorem halfP_comb (α β : R) (q q' : Fin np → R) (s s' : Wavefields d R) :
    C.halfP (fun i => α * q i + β * q' i) (s.comb α β s') =
      (C.halfP q s).comb α β (C.halfP q' s') := by
  have e : ∀ k c, C.DI k ((s.comb α β s').v k) c = α * C.DI k (s.v k) c + β * C.DI k (s'.v k) c :=
    fun k c => DI_comb k α β (s.v k) (s'.v k) c
  have hdiv : ∀ c, C.divV (s.comb α β s') c = α * C.divV s c + β * C.divV s' c := by
    intro c
    simp only [Cfg.divV, Cfg.phi', e]
    simp only [Wavefields.comb]
    split_ifs
    · simp only [Finset.mul_sum, ← Finset.sum_add_distrib]
      exact Finset.sum_congr rfl fun k _ => by ring
    · ring
  ext1
  · funext c
    simp only [Cfg.halfP, inject_comb, hdiv]
    simp only [Wavefields.comb]
    ring
  · rfl
  · funext k c
    simp only [Cfg.halfP, Cfg.phi', e]
    simp only [Wavefields.comb, Cfg.phi']
    split_ifs <;> ring
  · rfl

theorem run_comb (α β : R) (fp fp' : ℕ → Fin np → R) (fv fv' : (k : Fin d) → ℕ → Fin (nv k) → R)
    (s s' : Wavefields d R) (n : ℕ) :
    C.run (fun t i => α * fp t i + β * fp' t i) (fun k t i => α * fv k t i + β * fv' k t i)
      (s.comb α β s') n = (C.run fp fv s n).comb α β (C.run fp' fv' s' n) := by
  induction n with
  | zero => rfl
  | succ n ih => rw [Cfg.run, ih, Cfg.next, halfV_comb, halfP_comb]; rfl

theorem prepare_comb (α β : R) (w w' : Wavefields d R) :
    C.prepare ⟨some (w.comb α β w').p, fun k => some ((w.comb α β w').v k),
        fun k => some ((w.comb α β w').phi k), fun k => some ((w.comb α β w').psi k)⟩ =
      (C.prepare ⟨some w.p, fun k => some (w.v k), fun k => some (w.phi k),
        fun k => some (w.psi k)⟩).comb α β
      (C.prepare ⟨some w'.p, fun k => some (w'.v k), fun k => some (w'.phi k),
        fun k => some (w'.psi k)⟩) := by
  ext1 <;> (try funext k) <;> (try funext c) <;>
    simp only [Cfg.prepare, Cfg.createOrPad, Cfg.zeroEdge, Cfg.zeroInterior, Wavefields.comb]
  · split_ifs <;> ring
  · split_ifs <;> ring
  · split_ifs <;> ring
  · split_ifs <;> ring

/-! ### Dependence on the source amplitudes -/

theorem inject_congr {m : ℕ} {loc : Fin m → Option (Cell d)} {q q' : Fin m → R}
    (h : ∀ i, loc i ≠ none → q i = q' i) : inject loc q = inject loc q' := by
  funext c
  refine Finset.sum_congr rfl fun i _ => ?_
  split_ifs with hi
  · exact h i (by simp [hi])
  · rfl

theorem run_congr (fp fp' : ℕ → Fin np → R) (fv fv' : (k : Fin d) → ℕ → Fin (nv k) → R)
    (s : Wavefields d R) (n : ℕ) (hp : ∀ t < n, ∀ i, C.srcP i ≠ none → fp t i = fp' t i)
    (hv : ∀ t < n, ∀ k i, C.srcV k i ≠ none → fv k t i = fv' k t i) :
    C.run fp fv s n = C.run fp' fv' s n := by
  induction n with
  | zero => rfl
  | succ n ih =>
      rw [Cfg.run, Cfg.run, ih (fun t h => hp t (by omega)) fun t h => hv t (by omega)]
      simp only [Cfg.next, Cfg.halfP, Cfg.halfV, Cfg.divV, inject_congr (hp n (by omega)),
        inject_congr (hv n (by omega) _)]

theorem run_add (fp : ℕ → Fin np → R) (fv : (k : Fin d) → ℕ → Fin (nv k) → R) (s : Wavefields d R)
    (m n : ℕ) : C.run fp fv s (m + n) =
      C.run (fun t => fp (m + t)) (fun k t => fv k (m + t)) (C.run fp fv s m) n := by
  induction n with
  | zero => rfl
  | succ n ih => rw [← Nat.add_assoc, Cfg.run, Cfg.run, ih]

/-! ### Restart -/

theorem createOrPad_unpad (u : Fld d R) (hu : ∀ c, ¬C.Inner c → u c = 0) :
    C.createOrPad (some (C.unpad u)) = u := by
  funext c
  simp only [Cfg.createOrPad, Cfg.unpad]
  split_ifs with hc
  · congr 1; funext k; ring
  · exact (hu c hc).symm

theorem zeroEdge_of_innerH (k : Fin d) (u : Fld d R) (hu : ∀ c, ¬C.InnerH k c → u c = 0) :
    C.zeroEdge k u = u := by
  funext c
  simp only [Cfg.zeroEdge]
  split_ifs with hc
  · refine (hu c fun h => ?_).symm
    have := h.2
    omega
  · rfl

theorem prepare_unpadAll {s : Wavefields d R} (hs : C.Good s) :
    C.prepare ⟨some (C.unpadAll s).p, fun k => some ((C.unpadAll s).v k),
      fun k => some ((C.unpadAll s).phi k), fun k => some ((C.unpadAll s).psi k)⟩ = s := by
  have hv : ∀ k c, ¬C.Inner c → s.v k c = 0 := fun k c hc => hs.v k c fun h => hc h.1
  have hpsi : ∀ k c, ¬C.Inner c → s.psi k c = 0 := fun k c hc => hs.psi k c fun h => hc h.1
  ext1
  · exact createOrPad_unpad _ hs.p
  · funext k
    simp only [Cfg.prepare, Cfg.unpadAll]
    rw [createOrPad_unpad _ (hv k), zeroEdge_of_innerH _ _ (hs.v k)]
  · funext k c
    simp only [Cfg.prepare, Cfg.unpadAll]
    rw [createOrPad_unpad _ (hs.phi k), Cfg.zeroInterior]
    split_ifs with hc
    · exact (hs.phi_mid k c hc).symm
    · rfl
  · funext k c
    simp only [Cfg.prepare, Cfg.unpadAll]
    rw [createOrPad_unpad _ (hpsi k), zeroEdge_of_innerH _ _ (hs.psi k), Cfg.zeroInterior]
    split_ifs with hc
    · exact (hs.psi_mid k c hc).symm
    · rfl

/-! ### Locality -/

/-- Wavefields agree within distance `r` of `c₀`. -/
def AgreeNear (c₀ : Cell d) (r : ℤ) (s s' : Wavefields d R) : Prop :=
  ∀ c, cellDist c₀ c ≤ r → s.p c = s'.p c ∧ ∀ k, s.v k c = s'.v k c ∧ s.phi k c = s'.phi k c ∧
    s.psi k c = s'.psi k c

/-- The same propagation with other models. -/
def Cfg.withModels (C : Cfg d np mp nv mv R) (K' : Fld d R) (B' : Fin d → Fld d R) :
    Cfg d np mp nv mv R := { C with K := K', B := B' }

theorem dist_shift {c₀ c : Cell d} {r : ℤ} (hc : cellDist c₀ c ≤ r) (k : Fin d) (j P : ℤ)
    (h1 : -P ≤ j) (h2 : j ≤ P) : cellDist c₀ (c.shift k j) ≤ r + P := by
  have := cellDist_shift c c₀ k j
  have : |j| ≤ P := abs_le.2 ⟨h1, h2⟩
  omega

theorem inject_congr_at {m : ℕ} {loc : Fin m → Option (Cell d)} {q q' : Fin m → R} {c : Cell d}
    (h : ∀ i, loc i = some c → q i = q' i) : inject loc q c = inject loc q' c := by
  refine Finset.sum_congr rfl fun i _ => ?_
  split_ifs with hi
  · exact h i hi
  · rfl

theorem halfV_local (K' : Fld d R) (B' : Fin d → Fld d R) (c₀ : Cell d) (r : ℤ)
    (q q' : (k : Fin d) → Fin (nv k) → R) (s s' : Wavefields d R)
    (hs : AgreeNear c₀ (r + C.acc.pad) s s')
    (hB : ∀ c, cellDist c₀ c ≤ r → ∀ k, C.B k c = B' k c)
    (hq : ∀ k i c, C.srcV k i = some c → cellDist c₀ c ≤ r → q k i = q' k i) :
    AgreeNear c₀ r (C.halfV q s) ((C.withModels K' B').halfV q' s') := by
  intro c hc
  have hp := (hs c (by have := dist_shift hc; omega)).1
  have hk := (hs c (by have := dist_shift hc; omega)).2
  have hd : ∀ k, C.DH k s.p c = C.DH k s'.p c := fun k => by
    have h1 := pad_pos C.acc
    exact cSH1_congr _ _ fun j h2 h3 => (hs _ (dist_shift hc k j _ (by omega) h3)).1
  have hpsi : ∀ k, C.psi' k s.p (s.psi k) c = C.psi' k s'.p (s'.psi k) c := fun k => by
    simp only [Cfg.psi', hd, (hk k).2.2]
  refine ⟨hp, fun k => ⟨?_, (hk k).2.1, hpsi k⟩⟩
  change s.v k c - C.dt * C.B k c * (if C.InnerH k c then C.DH k s.p c + C.psi' k s.p (s.psi k) c else 0)
      + inject (C.srcV k) (q k) c = s'.v k c - C.dt * B' k c * (if C.InnerH k c then C.DH k s'.p c
      + C.psi' k s'.p (s'.psi k) c else 0) + inject (C.srcV k) (q' k) c
  rw [(hk k).1, hB c hc k, hd, hpsi, inject_congr_at fun i hi => hq k i c hi hc]

theorem halfP_local (K' : Fld d R) (B' : Fin d → Fld d R) (c₀ : Cell d) (r : ℤ)
    (q q' : Fin np → R) (s s' : Wavefields d R) (hs : AgreeNear c₀ (r + C.acc.pad) s s')
    (hK : ∀ c, cellDist c₀ c ≤ r → C.K c = K' c)
    (hq : ∀ i c, C.srcP i = some c → cellDist c₀ c ≤ r → q i = q' i) :
    AgreeNear c₀ r (C.halfP q s) ((C.withModels K' B').halfP q' s') := by
  intro c hc
  have hp := (hs c (by have := dist_shift hc; omega)).1
  have hk := (hs c (by have := dist_shift hc; omega)).2
  have hd : ∀ k, C.DI k (s.v k) c = C.DI k (s'.v k) c := fun k => by
    have h1 := pad_pos C.acc
    exact cS1_congr _ _ fun j h2 h3 => ((hs _ (dist_shift hc k j _ h2 (by omega))).2 k).1
  have hphi : ∀ k, C.phi' k (s.v k) (s.phi k) c = C.phi' k (s'.v k) (s'.phi k) c := fun k => by
    simp only [Cfg.phi', hd, (hk k).2.1]
  refine ⟨?_, fun k => ⟨(hk k).1, hphi k, (hk k).2.2⟩⟩
  change s.p c - C.dt * C.K c * C.divV s c + inject C.srcP q c =
    s'.p c - C.dt * K' c * C.divV s' c + inject C.srcP q' c
  rw [hp, hK c hc, inject_congr_at fun i hi => hq i c hi hc]
  simp only [Cfg.divV, hd, hphi]

theorem run_local (K' : Fld d R) (B' : Fin d → Fld d R) (c₀ : Cell d) (fp fp' : ℕ → Fin np → R)
    (fv fv' : (k : Fin d) → ℕ → Fin (nv k) → R) (s s' : Wavefields d R) (n : ℕ) : ∀ r : ℤ,
    AgreeNear c₀ (r + n * (2 * C.acc.pad)) s s' →
    (∀ c, cellDist c₀ c ≤ r + n * (2 * C.acc.pad) → C.K c = K' c ∧ ∀ k, C.B k c = B' k c) →
    (∀ t < n, ∀ i c, C.srcP i = some c → cellDist c₀ c ≤ r + n * (2 * C.acc.pad) →
      fp t i = fp' t i) →
    (∀ t < n, ∀ k i c, C.srcV k i = some c → cellDist c₀ c ≤ r + n * (2 * C.acc.pad) →
      fv k t i = fv' k t i) →
    AgreeNear c₀ r (C.run fp fv s n) ((C.withModels K' B').run fp' fv' s' n) := by
  induction n with
  | zero => intro r hs _ _ _; simpa [Cfg.run] using hs
  | succ n ih =>
      intro r hs hm hp hv
      have e : r + ((n + 1 : ℕ) : ℤ) * (2 * C.acc.pad) =
          r + 2 * C.acc.pad + n * (2 * C.acc.pad) := by push_cast; ring
      rw [e] at hs hm hp hv
      have h1 := ih (r + 2 * C.acc.pad) hs hm (fun t ht => hp t (by omega))
        fun t ht => hv t (by omega)
      have hnn : (0 : ℤ) ≤ n * (2 * C.acc.pad) := by positivity
      have h0 : (0 : ℤ) ≤ C.acc.pad := by positivity
      refine halfP_local K' B' c₀ r _ _ _ _ (halfV_local K' B' c₀ (r + C.acc.pad) _ _ _ _ ?_ ?_ ?_) ?_ ?_
      · rw [show r + (C.acc.pad : ℤ) + C.acc.pad = r + 2 * C.acc.pad by ring]
        exact h1
      · exact fun c hc => (hm c (by omega)).2
      · exact fun k i c hi hc => hv n (by omega) k i c hi (by omega)
      · exact fun c hc => (hm c (by omega)).1
      · exact fun i c hi hc => hp n (by omega) i c hi (by omega)

end Dw.Acoustic
