import Verif.Elastic.Forward
import Verif.Acoustic.Linear

/-!
# Linearity, causality, locality and restart of the elastic recursion
-/

namespace Dw.Elastic

open Dw.Scalar (inject sample inject_comb sample_comb cellDist cellDist_shift)
open Dw.Acoustic (inject_congr inject_congr_at dist_shift pad_pos)

variable {d np mp : ℕ} {nv mv : Fin d → ℕ} {R : Type*} [Field R] {C : Cfg d np mp nv mv R}

/-- Linear combination of wavefields. -/
def Wavefields.comb (α β : R) (w w' : Wavefields d R) : Wavefields d R where
  v := fun i c => α * w.v i c + β * w'.v i c
  s := fun i c => α * w.s i c + β * w'.s i c
  sh := fun p c => α * w.sh p c + β * w'.sh p c
  mv := fun i j c => α * w.mv i j c + β * w'.mv i j c
  ms := fun i j c => α * w.ms i j c + β * w'.ms i j c

theorem D_comb (h : Bool) (k : Fin d) (α β : R) (u u' : Fld d R) (c : Cell d) :
    C.D h k (fun c => α * u c + β * u' c) c = α * C.D h k u c + β * C.D h k u' c := by
  simp only [Cfg.D, cD]
  split_ifs
  · rw [cSH1_add, cSH1_smul, cSH1_smul]
  · rw [cS1_add, cS1_smul, cS1_smul]

theorem mem'_comb (L : Loc d) (k : Fin d) (α β : R) (u u' m m' : Fld d R) (c : Cell d) :
    C.mem' L k (fun c => α * u c + β * u' c) (fun c => α * m c + β * m' c) c =
      α * C.mem' L k u m c + β * C.mem' L k u' m' c := by
  simp only [Cfg.mem', D_comb]
  split_ifs <;> ring

theorem str_comb (L : Loc d) (k : Fin d) (α β : R) (u u' m m' : Fld d R) (c : Cell d) :
    C.str L k (fun c => α * u c + β * u' c) (fun c => α * m c + β * m' c) c =
      α * C.str L k u m c + β * C.str L k u' m' c := by
  simp only [Cfg.str, D_comb, mem'_comb]
  split_ifs <;> ring

theorem sig_comb (α β : R) (s s' : Wavefields d R) (i j : Fin d) :
    (s.comb α β s').sig i j = fun c => α * s.sig i j c + β * s'.sig i j c := by
  unfold Wavefields.sig sigOf pick Wavefields.comb
  split_ifs <;> rfl

theorem halfV_comb (α β : R) (q q' : (k : Fin d) → Fin (nv k) → R) (s s' : Wavefields d R) :
    C.halfV (fun k i => α * q k i + β * q' k i) (s.comb α β s') =
      (C.halfV q s).comb α β (C.halfV q' s') := by
  ext1
  · funext i c
    have e : ∀ j, C.str (vLoc i) j (fun c => α * s.sig i j c + β * s'.sig i j c)
        ((s.comb α β s').ms i j) c = α * C.str (vLoc i) j (s.sig i j) (s.ms i j) c
          + β * C.str (vLoc i) j (s'.sig i j) (s'.ms i j) c :=
      fun j => str_comb (vLoc i) j α β _ _ (s.ms i j) (s'.ms i j) c
    simp only [Cfg.halfV, Cfg.divS, sig_comb, inject_comb, e, Finset.sum_add_distrib,
      ← Finset.mul_sum]
    simp only [Wavefields.comb, Cfg.divS]
    ring
  · rfl
  · rfl
  · rfl
  · funext i j c
    simp only [Cfg.halfV, sig_comb]
    exact mem'_comb _ _ _ _ _ _ _ _ _

theorem halfS_comb (α β : R) (q q' : Fin np → R) (s s' : Wavefields d R) :
    C.halfS (fun i => α * q i + β * q' i) (s.comb α β s') =
      (C.halfS q s).comb α β (C.halfS q' s') := by
  have e : ∀ i j c, C.gradV (s.comb α β s') i j c = α * C.gradV s i j c + β * C.gradV s' i j c :=
    fun i j c => str_comb (sLoc i j) j α β _ _ (s.mv i j) (s'.mv i j) c
  ext1
  · rfl
  · funext i c
    simp only [Cfg.halfS, inject_comb, e, Finset.sum_add_distrib, ← Finset.mul_sum]
    simp only [Wavefields.comb]
    ring
  · funext p c
    simp only [Cfg.halfS, e]
    simp only [Wavefields.comb]
    ring
  · funext i j c
    exact mem'_comb _ _ _ _ _ _ _ _ _
  · rfl

theorem run_comb (α β : R) (fp fp' : ℕ → Fin np → R) (fv fv' : (k : Fin d) → ℕ → Fin (nv k) → R)
    (s s' : Wavefields d R) (n : ℕ) :
    C.run (fun t i => α * fp t i + β * fp' t i) (fun k t i => α * fv k t i + β * fv' k t i)
      (s.comb α β s') n = (C.run fp fv s n).comb α β (C.run fp' fv' s' n) := by
  induction n with
  | zero => rfl
  | succ n ih => rw [Cfg.run, ih, Cfg.next, halfV_comb, halfS_comb]; rfl

theorem createOrPad_comb (α β : R) (u u' : Fld d R) :
    C.createOrPad (some fun c => α * u c + β * u' c) =
      fun c => α * C.createOrPad (some u) c + β * C.createOrPad (some u') c := by
  funext c
  simp only [Cfg.createOrPad]
  split_ifs <;> ring

theorem zeroEdges_comb (L : Loc d) (α β : R) (u u' : Fld d R) :
    C.zeroEdges L (fun c => α * u c + β * u' c) =
      fun c => α * C.zeroEdges L u c + β * C.zeroEdges L u' c := by
  funext c
  simp only [Cfg.zeroEdges]
  split_ifs <;> ring

theorem zeroInterior_comb (k : Fin d) (h : Bool) (α β : R) (u u' : Fld d R) :
    C.zeroInterior k h (fun c => α * u c + β * u' c) =
      fun c => α * C.zeroInterior k h u c + β * C.zeroInterior k h u' c := by
  funext c
  simp only [Cfg.zeroInterior]
  split_ifs <;> ring

theorem prepare_comb (α β : R) (w w' : Wavefields d R) :
    C.prepare ⟨fun i => some ((w.comb α β w').v i), fun i => some ((w.comb α β w').s i),
        fun p => some ((w.comb α β w').sh p), fun i j => some ((w.comb α β w').mv i j),
        fun i j => some ((w.comb α β w').ms i j)⟩ =
      (C.prepare ⟨fun i => some (w.v i), fun i => some (w.s i), fun p => some (w.sh p),
        fun i j => some (w.mv i j), fun i j => some (w.ms i j)⟩).comb α β
      (C.prepare ⟨fun i => some (w'.v i), fun i => some (w'.s i), fun p => some (w'.sh p),
        fun i j => some (w'.mv i j), fun i j => some (w'.ms i j)⟩) := by
  ext1
  · funext i
    simp only [Cfg.prepare, Wavefields.comb, createOrPad_comb, zeroEdges_comb]
  · funext i
    simp only [Cfg.prepare, Wavefields.comb, createOrPad_comb]
  · funext p
    simp only [Cfg.prepare, Wavefields.comb, createOrPad_comb, zeroEdges_comb]
  · funext i j
    simp only [Cfg.prepare, Wavefields.comb, createOrPad_comb, zeroEdges_comb, zeroInterior_comb]
  · funext i j
    simp only [Cfg.prepare, Wavefields.comb, createOrPad_comb, zeroEdges_comb, zeroInterior_comb]

/-! ### Dependence on the source amplitudes -/

theorem run_congr (fp fp' : ℕ → Fin np → R) (fv fv' : (k : Fin d) → ℕ → Fin (nv k) → R)
    (s : Wavefields d R) (n : ℕ) (hp : ∀ t < n, ∀ i, C.srcP i ≠ none → fp t i = fp' t i)
    (hv : ∀ t < n, ∀ k i, C.srcV k i ≠ none → fv k t i = fv' k t i) :
    C.run fp fv s n = C.run fp' fv' s n := by
  induction n with
  | zero => rfl
  | succ n ih =>
      rw [Cfg.run, Cfg.run, ih (fun t h => hp t (by omega)) fun t h => hv t (by omega)]
      simp only [Cfg.next, Cfg.halfS, Cfg.halfV, Cfg.gradV, inject_congr (hp n (by omega)),
        inject_congr (hv n (by omega) _)]

theorem run_add (fp : ℕ → Fin np → R) (fv : (k : Fin d) → ℕ → Fin (nv k) → R) (s : Wavefields d R)
    (m n : ℕ) : C.run fp fv s (m + n) =
      C.run (fun t => fp (m + t)) (fun k t => fv k (m + t)) (C.run fp fv s m) n := by
  induction n with
  | zero => rfl
  | succ n ih => rw [← Nat.add_assoc, Cfg.run, Cfg.run, ih]

/-! ### Restart -/

theorem createOrPad_unpad (u : Fld d R) (hu : ∀ c, ¬C.Inner c → u c = 0) :
    C.createOrPad (some (C.unpad u)) = u := by
  funext c
  simp only [Cfg.createOrPad, Cfg.unpad]
  split_ifs with hc
  · congr 1; funext k; ring
  · exact (hu c hc).symm

theorem zeroEdges_unpad (L : Loc d) (u : Fld d R) (hu : ∀ c, ¬C.InnerAt L c → u c = 0) :
    C.zeroEdges L (C.createOrPad (some (C.unpad u))) = u := by
  rw [createOrPad_unpad u fun c hc => hu c fun h => hc h.1]
  funext c
  simp only [Cfg.zeroEdges]
  split_ifs with hc
  · obtain ⟨k, hk, e⟩ := hc
    refine (hu c fun h => ?_).symm
    have := h.2 k hk
    omega
  · rfl

theorem zeroInterior_of_mid (k : Fin d) (h : Bool) (u : Fld d R)
    (hu : ∀ c : Cell d, C.MidAt h k (c k) → u c = 0) : C.zeroInterior k h u = u := by
  funext c
  by_cases hc : C.MidAt h k (c k)
  · exact (if_pos hc).trans (hu c hc).symm
  · exact if_neg hc

theorem prepare_unpadAll {s : Wavefields d R} (hs : C.Good s) :
    C.prepare ⟨fun i => some ((C.unpadAll s).v i), fun i => some ((C.unpadAll s).s i),
      fun p => some ((C.unpadAll s).sh p), fun i j => some ((C.unpadAll s).mv i j),
      fun i j => some ((C.unpadAll s).ms i j)⟩ = s := by
  ext1
  · funext i; exact zeroEdges_unpad _ _ (hs.v i)
  · funext i; exact createOrPad_unpad _ (hs.s i)
  · funext p; exact zeroEdges_unpad _ _ (hs.sh p)
  · funext i j
    simp only [Cfg.prepare, Cfg.unpadAll]
    rw [zeroEdges_unpad _ _ (hs.mv i j), zeroInterior_of_mid _ _ _ (hs.mv_mid i j)]
  · funext i j
    simp only [Cfg.prepare, Cfg.unpadAll]
    rw [zeroEdges_unpad _ _ (hs.ms i j), zeroInterior_of_mid _ _ _ (hs.ms_mid i j)]

/-! ### Locality -/

/-- Wavefields agree within distance `r` of `c₀`. -/
def AgreeNear (c₀ : Cell d) (r : ℤ) (s s' : Wavefields d R) : Prop :=
  ∀ c, cellDist c₀ c ≤ r → (∀ i, s.v i c = s'.v i c) ∧ (∀ i, s.s i c = s'.s i c) ∧
    (∀ p, s.sh p c = s'.sh p c) ∧ (∀ i j, s.mv i j c = s'.mv i j c) ∧ ∀ i j, s.ms i j c = s'.ms i j c

/-- The same propagation with other models. -/
def Cfg.withModels (C : Cfg d np mp nv mv R) (lam mu : Fld d R) (muS : Sh d → Fld d R)
    (B : Fin d → Fld d R) : Cfg d np mp nv mv R := { C with lam := lam, mu := mu, muS := muS, B := B }

theorem D_local {c₀ c : Cell d} {r : ℤ} {u u' : Fld d R}
    (hu : ∀ c, cellDist c₀ c ≤ r + C.acc.pad → u c = u' c) (hc : cellDist c₀ c ≤ r) (h : Bool)
    (k : Fin d) : C.D h k u c = C.D h k u' c := by
  have h1 := pad_pos C.acc
  simp only [Cfg.D, cD]
  split_ifs
  · exact cSH1_congr _ _ fun j h2 h3 => hu _ (dist_shift hc k j _ (by omega) h3)
  · exact cS1_congr _ _ fun j h2 h3 => hu _ (dist_shift hc k j _ h2 (by omega))

theorem mem'_local {c₀ c : Cell d} {r : ℤ} {u u' m m' : Fld d R}
    (hu : ∀ c, cellDist c₀ c ≤ r + C.acc.pad → u c = u' c) (hc : cellDist c₀ c ≤ r)
    (hm : m c = m' c) (L : Loc d) (k : Fin d) : C.mem' L k u m c = C.mem' L k u' m' c := by
  simp only [Cfg.mem', D_local hu hc, hm]

theorem str_local {c₀ c : Cell d} {r : ℤ} {u u' m m' : Fld d R}
    (hu : ∀ c, cellDist c₀ c ≤ r + C.acc.pad → u c = u' c) (hc : cellDist c₀ c ≤ r)
    (hm : m c = m' c) (L : Loc d) (k : Fin d) : C.str L k u m c = C.str L k u' m' c := by
  simp only [Cfg.str, D_local hu hc, mem'_local hu hc hm]

theorem sig_local {c₀ c : Cell d} {r : ℤ} {s s' : Wavefields d R} (hs : AgreeNear c₀ r s s')
    (hc : cellDist c₀ c ≤ r) (i j : Fin d) : s.sig i j c = s'.sig i j c := by
  obtain ⟨-, h1, h2, -⟩ := hs c hc
  unfold Wavefields.sig sigOf pick
  split_ifs
  · exact h2 _
  · exact h2 _
  · exact h1 _

variable {lam mu : Fld d R} {muS : Sh d → Fld d R} {B : Fin d → Fld d R}

theorem halfV_local (c₀ : Cell d) (r : ℤ) (q q' : (k : Fin d) → Fin (nv k) → R)
    (s s' : Wavefields d R) (hs : AgreeNear c₀ (r + C.acc.pad) s s')
    (hB : ∀ c, cellDist c₀ c ≤ r → ∀ k, C.B k c = B k c)
    (hq : ∀ k i c, C.srcV k i = some c → cellDist c₀ c ≤ r → q k i = q' k i) :
    AgreeNear c₀ r (C.halfV q s) ((C.withModels lam mu muS B).halfV q' s') := by
  intro c hc
  obtain ⟨h1, h2, h3, h4, h5⟩ := hs c (by omega)
  have hsig : ∀ i j c, cellDist c₀ c ≤ r + C.acc.pad → s.sig i j c = s'.sig i j c :=
    fun i j c hc => sig_local hs hc i j
  refine ⟨fun i => ?_, h2, h3, h4, fun i j => ?_⟩
  · change s.v i c + C.B i c * C.dt * C.divS s i c + inject (C.srcV i) (q i) c =
      s'.v i c + B i c * C.dt * C.divS s' i c + inject (C.srcV i) (q' i) c
    have e : C.divS s i c = C.divS s' i c :=
      Finset.sum_congr rfl fun j _ => str_local (hsig i j) hc (h5 i j) _ _
    rw [h1, hB c hc i, e, inject_congr_at fun k hk => hq i k c hk hc]
  · exact mem'_local (C := C) (hsig i j) hc (h5 i j) (vLoc i) j

theorem halfS_local (c₀ : Cell d) (r : ℤ) (q q' : Fin np → R)
    (s s' : Wavefields d R) (hs : AgreeNear c₀ (r + C.acc.pad) s s')
    (hm : ∀ c, cellDist c₀ c ≤ r → C.lam c = lam c ∧ C.mu c = mu c ∧ ∀ p, C.muS p c = muS p c)
    (hq : ∀ i c, C.srcP i = some c → cellDist c₀ c ≤ r → q i = q' i) :
    AgreeNear c₀ r (C.halfS q s) ((C.withModels lam mu muS B).halfS q' s') := by
  intro c hc
  obtain ⟨h1, h2, h3, h4, h5⟩ := hs c (by omega)
  obtain ⟨m1, m2, m3⟩ := hm c hc
  have hv : ∀ i c, cellDist c₀ c ≤ r + C.acc.pad → s.v i c = s'.v i c :=
    fun i c hc => (hs c hc).1 i
  have hg : ∀ i j, C.gradV s i j c = C.gradV s' i j c :=
    fun i j => str_local (hv i) hc (h4 i j) _ _
  refine ⟨h1, fun i => ?_, fun p => ?_, fun i j => ?_, h5⟩
  · change s.s i c + C.dt * (C.lam c * ∑ k, C.gradV s k k c + 2 * C.mu c * C.gradV s i i c)
        + inject C.srcP q c = s'.s i c + C.dt * (lam c * ∑ k, C.gradV s' k k c
        + 2 * mu c * C.gradV s' i i c) + inject C.srcP q' c
    simp only [h2, m1, m2, hg, inject_congr_at fun i hi => hq i c hi hc]
  · change s.sh p c + C.dt * C.muS p c * (C.gradV s p.1.1 p.1.2 c + C.gradV s p.1.2 p.1.1 c) =
      s'.sh p c + C.dt * muS p c * (C.gradV s' p.1.1 p.1.2 c + C.gradV s' p.1.2 p.1.1 c)
    rw [h3, m3, hg, hg]
  · exact mem'_local (C := C) (hv i) hc (h4 i j) (sLoc i j) j

theorem run_local (c₀ : Cell d) (fp fp' : ℕ → Fin np → R)
    (fv fv' : (k : Fin d) → ℕ → Fin (nv k) → R) (s s' : Wavefields d R) (n : ℕ) : ∀ r : ℤ,
    AgreeNear c₀ (r + n * (2 * C.acc.pad)) s s' →
    (∀ c, cellDist c₀ c ≤ r + n * (2 * C.acc.pad) → C.lam c = lam c ∧ C.mu c = mu c ∧
      (∀ p, C.muS p c = muS p c) ∧ ∀ k, C.B k c = B k c) →
    (∀ t < n, ∀ i c, C.srcP i = some c → cellDist c₀ c ≤ r + n * (2 * C.acc.pad) →
      fp t i = fp' t i) →
    (∀ t < n, ∀ k i c, C.srcV k i = some c → cellDist c₀ c ≤ r + n * (2 * C.acc.pad) →
      fv k t i = fv' k t i) →
    AgreeNear c₀ r (C.run fp fv s n) ((C.withModels lam mu muS B).run fp' fv' s' n) := by
  induction n with
  | zero => intro r hs _ _ _; simpa [Cfg.run] using hs
  | succ n ih =>
      intro r hs hm hp hv
      have e : r + ((n + 1 : ℕ) : ℤ) * (2 * C.acc.pad) =
          r + 2 * C.acc.pad + n * (2 * C.acc.pad) := by push_cast; ring
      rw [e] at hs hm hp hv
      have h1 := ih (r + 2 * C.acc.pad) hs hm (fun t ht => hp t (by omega))
        fun t ht => hv t (by omega)
      have hnn : (0 : ℤ) ≤ n * (2 * C.acc.pad) := by positivity
      have h0 : (0 : ℤ) ≤ C.acc.pad := by positivity
      refine halfS_local c₀ r _ _ _ _ (halfV_local c₀ (r + C.acc.pad) _ _ _ _ ?_ ?_ ?_) ?_ ?_
      · rw [show r + (C.acc.pad : ℤ) + C.acc.pad = r + 2 * C.acc.pad by ring]
        exact h1
      · exact fun c hc => (hm c (by omega)).2.2.2
      · exact fun k i c hi hc => hv n (by omega) k i c hi (by omega)
      · exact fun c hc => ⟨(hm c (by omega)).1, (hm c (by omega)).2.1, (hm c (by omega)).2.2.1⟩
      · exact fun i c hi hc => hp n (by omega) i c hi (by omega)

end Dw.Elastic
