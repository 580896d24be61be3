import Verif.Elastic.Linear
import Verif.Props.Elastic

/-!
# Superposition, restart, causality and locality of the elastic propagator
-/

namespace Dw.Elastic

open Dw.Scalar (inject sample sample_comb cellDist cellDist_self)

variable {d np mp : ℕ} {nv mv : Fin d → ℕ} {R : Type*} [Field R] {C : Cfg d np mp nv mv R}

theorem prs_comb (α β : R) (w w' : Wavefields d R) :
    (w.comb α β w').prs = fun c => α * w.prs c + β * w'.prs c := by
  funext c
  simp only [Wavefields.prs, Wavefields.comb, Finset.sum_add_distrib, Finset.mul_sum]

/-! ## C65 -/

/-- **C65** Receiver data and final wavefields of `elastic` for a linear combination of the amplitudes
of all sources and of the initial wavefields are the linear combination of those of the parts. -/
theorem C65_elastic_superposition (h : C.WF) (hr : 0 < C.ratio) (gl gm gb : Bool) (nt : ℕ)
    (hnt : nt = 0 ∨ C.ratio ≤ nt) (fp fp' : ℕ → Fin np → R)
    (fv fv' : (k : Fin d) → ℕ → Fin (nv k) → R) (w w' : Wavefields d R) (α β : R) :
    ∃ r r' rc, C.forward gl gm gb none nt fp fv w.toInit = .ok r ∧
      C.forward gl gm gb none nt fp' fv' w'.toInit = .ok r' ∧
      C.forward gl gm gb none nt (fun t i => α * fp t i + β * fp' t i)
        (fun k t i => α * fv k t i + β * fv' k t i) (w.comb α β w').toInit = .ok rc ∧
      rc.out = r.out.comb α β r'.out ∧
      (∀ t i, rc.rcdP t i = α * r.rcdP t i + β * r'.rcdP t i) ∧
      ∀ k t i, rc.rcdV k t i = α * r.rcdV k t i + β * r'.rcdV k t i := by
  have hpos : 0 < nt → 0 < (none : Option ℕ).getD (nt / C.ratio) :=
    fun hp => Nat.div_pos (by omega) hr
  have e : C.prepare (w.comb α β w').toInit = (C.prepare w.toInit).comb α β (C.prepare w'.toInit) :=
    prepare_comb α β w w'
  refine ⟨_, _, _, forward_eq h gl gm gb none nt _ _ _ hr hpos, forward_eq h gl gm gb none nt _ _ _ hr hpos,
    forward_eq h gl gm gb none nt _ _ _ hr hpos, ?_, ?_, ?_⟩
  · simp only [e, run_comb]
    rfl
  · intro t i
    simp only [e, run_comb]
    split_ifs
    · rw [prs_comb]
      exact sample_comb _ _ _ _ _ _
    · ring
  · intro k t i
    simp only [e, run_comb]
    split_ifs
    · exact sample_comb _ _ _ _ _ _
    · ring

example : ∃ r r' rc, (exE ℚ).forward true true true none 14 (fun t i => (t : ℚ) + (i : ℕ))
      (fun k t _ => (t : ℚ) + (k : ℕ)) (exWf ℚ).toInit = .ok r ∧
    (exE ℚ).forward true true true none 14 (fun _ _ => 3) (fun _ _ _ => 4)
      ((exWf ℚ).comb 1 1 (exWf ℚ)).toInit = .ok r' ∧
    (exE ℚ).forward true true true none 14 (fun t i => 2 * ((t : ℚ) + (i : ℕ)) + 5 * 3)
      (fun k t _ => 2 * ((t : ℚ) + (k : ℕ)) + 5 * 4)
      ((exWf ℚ).comb 2 5 ((exWf ℚ).comb 1 1 (exWf ℚ))).toInit = .ok rc ∧
    rc.out = r.out.comb 2 5 r'.out := by
  obtain ⟨r, r', rc, h1, h2, h3, h4, -⟩ := C65_elastic_superposition (exE_wf ℚ) (by decide) true true true
    14 (by decide) (fun t i => (t : ℚ) + (i : ℕ)) (fun _ _ => 3) (fun k t _ => (t : ℚ) + (k : ℕ))
    (fun _ _ _ => 4) (exWf ℚ) ((exWf ℚ).comb 1 1 (exWf ℚ)) 2 5
  exact ⟨r, r', rc, h1, h2, h3, h4⟩

/-! ## C66 -/

/-- **C66** Running `n₁` steps of `elastic` and giving the returned wavefields to a second run of `n₂`
steps with the remaining source amplitudes produces the final wavefields and the receiver data of
one run of `n₁ + n₂` steps. -/
theorem C66_elastic_stop_and_resume (h : C.WF) (hr : 0 < C.ratio) (gl gm gb gl' gm' gb' gl'' gm'' gb'' : Bool)
    (n₁ n₂ : ℕ) (hn₁ : C.ratio ∣ n₁) (hn₂ : C.ratio ∣ n₂) (fp : ℕ → Fin np → R)
    (fv : (k : Fin d) → ℕ → Fin (nv k) → R) (w : Init d R) :
    ∃ r₁ r₂ r, C.forward gl gm gb none n₁ fp fv w = .ok r₁ ∧
      C.forward gl' gm' gb' none n₂ (fun t => fp (n₁ + t)) (fun k t => fv k (n₁ + t)) r₁.out.toInit =
        .ok r₂ ∧
      C.forward gl'' gm'' gb'' none (n₁ + n₂) fp fv w = .ok r ∧
      r₂.out = r.out ∧
      (∀ t < n₁, r.rcdP t = r₁.rcdP t ∧ ∀ k, r.rcdV k t = r₁.rcdV k t) ∧
      ∀ t < n₂, r.rcdP (n₁ + t) = r₂.rcdP t ∧ ∀ k, r.rcdV k (n₁ + t) = r₂.rcdV k t := by
  have hpos : ∀ n, C.ratio ∣ n → 0 < n → 0 < (none : Option ℕ).getD (n / C.ratio) :=
    fun n hn hp => Nat.div_pos (Nat.le_of_dvd hp hn) hr
  have key : ∀ n, C.run (fun t => fp (n₁ + t)) (fun k t => fv k (n₁ + t))
      (C.prepare (C.unpadAll (C.run fp fv (C.prepare w) n₁)).toInit) n =
      C.run fp fv (C.prepare w) (n₁ + n) := by
    intro n
    have e : C.prepare (C.unpadAll (C.run fp fv (C.prepare w) n₁)).toInit = _ :=
      prepare_unpadAll (run_good h fp fv (prepare_good w) n₁)
    rw [e, run_add]
  refine ⟨_, _, _, forward_eq h gl gm gb none n₁ fp fv w hr (hpos _ hn₁),
    forward_eq h gl' gm' gb' none n₂ _ _ _ hr (hpos _ hn₂),
    forward_eq h gl'' gm'' gb'' none (n₁ + n₂) fp fv w hr (hpos _ (dvd_add hn₁ hn₂)), ?_, ?_, ?_⟩
  · simp only [Nat.div_mul_cancel hn₁, Nat.div_mul_cancel hn₂,
      Nat.div_mul_cancel (dvd_add hn₁ hn₂), key]
  · intro t ht
    simp only [Nat.div_mul_cancel hn₁, Nat.div_mul_cancel (dvd_add hn₁ hn₂), ht,
      show t < n₁ + n₂ by omega, if_true, true_and, implies_true]
  · intro t ht
    simp only [Nat.div_mul_cancel hn₁, Nat.div_mul_cancel hn₂,
      Nat.div_mul_cancel (dvd_add hn₁ hn₂), ht, show n₁ + t < n₁ + n₂ by omega, if_true, key, true_and,
      implies_true]

example : ∃ r₁ r₂ r, (exE ℚ).forward true true true none 4 (fun t i => (t : ℚ) + (i : ℕ))
      (fun k t _ => (t : ℚ) + (k : ℕ)) (exWf ℚ).toInit = .ok r₁ ∧
    (exE ℚ).forward true true true none 6 (fun t i => ((4 + t : ℕ) : ℚ) + (i : ℕ))
      (fun k t _ => ((4 + t : ℕ) : ℚ) + (k : ℕ)) r₁.out.toInit = .ok r₂ ∧
    (exE ℚ).forward true true true none 10 (fun t i => (t : ℚ) + (i : ℕ))
      (fun k t _ => (t : ℚ) + (k : ℕ)) (exWf ℚ).toInit = .ok r ∧ r₂.out = r.out := by
  obtain ⟨r₁, r₂, r, h1, h2, h3, h4, -⟩ := C66_elastic_stop_and_resume (exE_wf ℚ) (by decide) true true true
    true true true true true true 4 6 (by decide) (by decide) (fun t i => (t : ℚ) + (i : ℕ))
    (fun k t _ => (t : ℚ) + (k : ℕ)) (exWf ℚ).toInit
  exact ⟨r₁, r₂, r, h1, h2, h3, h4⟩

/-! ## C67 -/

/-- **C67** The sample at `t` of an elastic receiver does not depend on source amplitudes at samples
`≥ t`, nor on those of sources without location. -/
theorem C67_elastic_causality (h : C.WF) (hr : 0 < C.ratio) (gl gm gb : Bool) (nt : ℕ)
    (hnt : nt = 0 ∨ C.ratio ≤ nt) (fp fp' : ℕ → Fin np → R)
    (fv fv' : (k : Fin d) → ℕ → Fin (nv k) → R) (w : Init d R) (t : ℕ)
    (hfp : ∀ t' < t, ∀ i, C.srcP i ≠ none → fp t' i = fp' t' i)
    (hfv : ∀ t' < t, ∀ k i, C.srcV k i ≠ none → fv k t' i = fv' k t' i) :
    ∃ r r', C.forward gl gm gb none nt fp fv w = .ok r ∧ C.forward gl gm gb none nt fp' fv' w = .ok r' ∧
      ∀ t' ≤ t, r.rcdP t' = r'.rcdP t' ∧ ∀ k, r.rcdV k t' = r'.rcdV k t' := by
  have hpos : 0 < nt → 0 < (none : Option ℕ).getD (nt / C.ratio) :=
    fun hp => Nat.div_pos (by omega) hr
  refine ⟨_, _, forward_eq h gl gm gb none nt _ _ _ hr hpos, forward_eq h gl gm gb none nt _ _ _ hr hpos, ?_⟩
  intro t' ht'
  simp only
  rw [run_congr fp fp' fv fv' _ t' (fun t'' h'' => hfp t'' (by omega)) fun t'' h'' =>
    hfv t'' (by omega)]
  exact ⟨rfl, fun _ => rfl⟩

example : ∃ r r', (exE ℚ).forward true true true none 14 (fun t i => (t : ℚ) + (i : ℕ))
      (fun k t _ => (t : ℚ) + (k : ℕ)) (exWf ℚ).toInit = .ok r ∧
    (exE ℚ).forward true true true none 14 (fun t i => if t < 5 ∧ i = 0 then (t : ℚ) + (i : ℕ) else 77)
      (fun k t _ => if t < 5 then (t : ℚ) + (k : ℕ) else 99) (exWf ℚ).toInit = .ok r' ∧
    ∀ t' ≤ 5, r.rcdP t' = r'.rcdP t' ∧ ∀ k, r.rcdV k t' = r'.rcdV k t' :=
  C67_elastic_causality (exE_wf ℚ) (by decide) true true true 14 (by decide) _ _ _ _ _ 5
    (by
      intro t' ht i hi
      have : i = 0 := by
        by_contra hn
        exact hi (by simp [exE, hn])
      simp [ht, this])
    (by intro t' ht k i _; simp [ht])

theorem withModels_wf (h : C.WF) (lam mu : Fld d R) (muS : Sh d → Fld d R) (B : Fin d → Fld d R) :
    (C.withModels lam mu muS B).WF :=
  ⟨h.w0_nonneg, h.w1_nonneg, h.size, h.pa_mid, h.pb_mid, h.srcP_in, h.srcV_in, h.rcvP_in, h.rcvV_in⟩

/-- **C67** The final elastic wavefields at `x` after `nt` steps are the same for two runs whose
initial wavefields, models and source amplitudes agree within `accuracy * nt` moves along the axes of
`x`.  (`x` is in the user's coordinates; models and source locations are in padded coordinates, which
are larger by `accuracy / 2`.) -/
theorem C67_elastic_finite_speed (h : C.WF) (hr : 0 < C.ratio) (gl gm gb : Bool) (nt : ℕ)
    (hnt : C.ratio ∣ nt) (lam mu : Fld d R) (muS : Sh d → Fld d R) (B : Fin d → Fld d R) (fp fp' : ℕ → Fin np → R)
    (fv fv' : (k : Fin d) → ℕ → Fin (nv k) → R) (w w' : Wavefields d R) (x : Cell d)
    (hw : ∀ c, cellDist x c ≤ nt * C.acc.order → (∀ i, w.v i c = w'.v i c) ∧
      (∀ i, w.s i c = w'.s i c) ∧ (∀ p, w.sh p c = w'.sh p c) ∧ (∀ i j, w.mv i j c = w'.mv i j c) ∧
      ∀ i j, w.ms i j c = w'.ms i j c)
    (hm : ∀ c, cellDist x c ≤ nt * C.acc.order →
      C.lam (fun k => c k + (C.acc.order / 2 : ℕ)) = lam (fun k => c k + (C.acc.order / 2 : ℕ)) ∧
      C.mu (fun k => c k + (C.acc.order / 2 : ℕ)) = mu (fun k => c k + (C.acc.order / 2 : ℕ)) ∧
      (∀ p, C.muS p (fun k => c k + (C.acc.order / 2 : ℕ)) = muS p (fun k => c k + (C.acc.order / 2 : ℕ))) ∧
      ∀ k, C.B k (fun k => c k + (C.acc.order / 2 : ℕ)) = B k (fun k => c k + (C.acc.order / 2 : ℕ)))
    (hfp : ∀ i c, C.srcP i = some (fun k => c k + ((C.acc.order / 2 : ℕ) : ℤ)) →
      cellDist x c ≤ nt * C.acc.order → ∀ t, fp t i = fp' t i)
    (hfv : ∀ k i c, C.srcV k i = some (fun k => c k + ((C.acc.order / 2 : ℕ) : ℤ)) →
      cellDist x c ≤ nt * C.acc.order → ∀ t, fv k t i = fv' k t i) :
    ∃ r r', C.forward gl gm gb none nt fp fv w.toInit = .ok r ∧
      (C.withModels lam mu muS B).forward gl gm gb none nt fp' fv' w'.toInit = .ok r' ∧
      (∀ i, r.out.v i x = r'.out.v i x) ∧ (∀ i, r.out.s i x = r'.out.s i x) ∧
      (∀ p, r.out.sh p x = r'.out.sh p x) ∧ (∀ i j, r.out.mv i j x = r'.out.mv i j x) ∧
      ∀ i j, r.out.ms i j x = r'.out.ms i j x := by
  have ho : (C.acc.order : ℤ) = 2 * C.acc.pad := by
    have := Acc.order_div_two C.acc
    cases C.acc <;> simp [Acc.order, Acc.pad]
  rw [Acc.order_div_two] at *
  simp only [ho] at *
  have hpos : 0 < nt → 0 < (none : Option ℕ).getD (nt / C.ratio) :=
    fun hp => Nat.div_pos (Nat.le_of_dvd hp hnt) hr
  refine ⟨_, _, forward_eq h gl gm gb none nt _ _ _ hr hpos,
    forward_eq (withModels_wf h lam mu muS B) gl gm gb none nt _ _ _ hr hpos, ?_⟩
  have e' : nt / (C.withModels lam mu muS B).ratio * (C.withModels lam mu muS B).ratio = nt := Nat.div_mul_cancel hnt
  simp only [Nat.div_mul_cancel hnt, e']
  have hdist : ∀ c : Cell d, cellDist (fun k => x k + (C.acc.pad : ℤ)) c =
      cellDist x (fun k => c k - C.acc.pad) := by
    intro c
    simp only [cellDist]
    refine Finset.sum_congr rfl fun k _ => ?_
    congr 1; ring
  have back : ∀ c : Cell d, (fun k => c k - (C.acc.pad : ℤ) + C.acc.pad) = c := by
    intro c; funext k; ring
  have key := run_local (C := C) (lam := lam) (mu := mu) (muS := muS) (B := B) (fun k => x k + (C.acc.pad : ℤ)) fp fp' fv fv'
    (C.prepare w.toInit) ((C.withModels lam mu muS B).prepare w'.toInit) nt 0 ?_ ?_ ?_ ?_
  · exact key (fun k => x k + (C.acc.pad : ℤ)) (by rw [cellDist_self])
  · intro c hc
    rw [zero_add, hdist] at hc
    obtain ⟨h1, h2, h3, h4, h5⟩ := hw _ hc
    have hcp : ∀ u u' : Fld d R, u (fun k => c k - C.acc.pad) = u' (fun k => c k - C.acc.pad) →
        C.createOrPad (some u) c = C.createOrPad (some u') c := by
      intro u u' hu
      simp only [Cfg.createOrPad, hu]
    have hze : ∀ L, ∀ u u' : Fld d R, u c = u' c → C.zeroEdges L u c = C.zeroEdges L u' c := by
      intro L u u' hu
      simp only [Cfg.zeroEdges, hu]
    have hzi : ∀ k hb, ∀ u u' : Fld d R, u c = u' c →
        C.zeroInterior k hb u c = C.zeroInterior k hb u' c := by
      intro k hb u u' hu
      simp only [Cfg.zeroInterior, hu]
    exact ⟨fun i => hze _ _ _ (hcp _ _ (h1 i)), fun i => hcp _ _ (h2 i),
      fun p => hze _ _ _ (hcp _ _ (h3 p)), fun i j => hzi _ _ _ _ (hze _ _ _ (hcp _ _ (h4 i j))),
      fun i j => hzi _ _ _ _ (hze _ _ _ (hcp _ _ (h5 i j)))⟩
  · intro c hc
    rw [zero_add, hdist] at hc
    have := hm _ hc
    rwa [back] at this
  · intro t _ i c hi hc
    rw [zero_add, hdist] at hc
    exact hfp i _ (by rw [back]; exact hi) hc t
  · intro t _ k i c hi hc
    rw [zero_add, hdist] at hc
    exact hfv k i _ (by rw [back]; exact hi) hc t

/-- The example with step ratio 1. -/
def exEr1 : Cfg 2 2 1 (fun _ => 1) (fun _ => 1) ℚ := { exE ℚ with ratio := 1 }

theorem exEr1_wf : exEr1.WF := { exE_wf ℚ with }

/-- The hypotheses of the theorem are met by two models that differ far from `x = (0, 0)`. -/
example : ∃ r r', exEr1.forward false false false none 1 (fun t i => (t : ℚ) + (i : ℕ))
      (fun k t _ => (t : ℚ) + (k : ℕ)) (exWf ℚ).toInit = .ok r ∧
    (exEr1.withModels (fun c => if c 0 < 8 then exEr1.lam c else 100) exEr1.mu exEr1.muS exEr1.B).forward false false false none 1
      (fun t i => (t : ℚ) + (i : ℕ)) (fun k t _ => (t : ℚ) + (k : ℕ)) (exWf ℚ).toInit = .ok r' ∧
    ∀ i, r.out.s i ![0, 0] = r'.out.s i ![0, 0] := by
  obtain ⟨r, r', h1, h2, -, h3, -⟩ := C67_elastic_finite_speed exEr1_wf (by decide) false false false 1
    (by decide) (fun c => if c 0 < 8 then exEr1.lam c else 100) exEr1.mu exEr1.muS exEr1.B (fun t i => (t : ℚ) + (i : ℕ))
    (fun t i => (t : ℚ) + (i : ℕ)) (fun k t _ => (t : ℚ) + (k : ℕ)) (fun k t _ => (t : ℚ) + (k : ℕ))
    (exWf ℚ) (exWf ℚ) ![0, 0] (fun c _ => ⟨fun _ => rfl, fun _ => rfl,
    fun _ => rfl, fun _ _ => rfl, fun _ _ => rfl⟩) (by
    intro c hc
    refine ⟨(if_pos ?_).symm, rfl, fun _ => rfl, fun _ => rfl⟩
    simp only [exEr1, exE, Acc.order, cellDist, Fin.sum_univ_two, Matrix.cons_val_zero,
      Matrix.cons_val_one] at hc ⊢
    have h1 := le_abs_self (c 0)
    have h2 := abs_nonneg (c 1)
    norm_num at hc ⊢
    omega) (fun _ _ _ _ _ => rfl) (fun _ _ _ _ _ _ => rfl)
  exact ⟨r, r', h1, h2, h3⟩

end Dw.Elastic
