import Verif.Born.Python
import Verif.Props.Born
import Verif.Props.ScalarPython

/-!
# More properties of the Born propagator

C72 (the two backends agree) and C73 (superposition, stop and resume, causality, finite speed).
-/

namespace Dw.Born

open Dw.Scalar

variable {d ns nr nq : ℕ} {R : Type*} [Field R] {B : BCfg d ns nr nq R}

/-! ## C72 -/

/-- What the two backends show to a callback: the same wavefields, and after the first step also
the same memory variables. -/
structure SameEvent (e e' : FEvent d R) : Prop where
  step : e.step = e'.step
  wfc : e.bg.wfc = e'.bg.wfc ∧ e.sc.wfc = e'.sc.wfc
  wfp : e.bg.wfp = e'.bg.wfp ∧ e.sc.wfp = e'.sc.wfp
  psi : e.step ≠ 0 → e.bg.psi = e'.bg.psi ∧ e.sc.psi = e'.sc.psi
  zeta : e.step ≠ 0 → e.bg.zeta = e'.bg.zeta ∧ e.sc.zeta = e'.sc.zeta

/-- **C72** The Python backend returns the same final wavefields and receiver data of the background
and of the scattered field as the compiled one, and calls the callback at the same steps with the same
wavefields (except for the memory variables shown at step 0, whose interior only the compiled backend
clears). -/
theorem C72_born_backends_agree (h : B.base.WF) (hr : 0 < B.base.ratio) (gv gs : Bool)
    (cb : Option ℕ) (hcb : ∀ cf, cb = some cf → 0 < cf) (nt : ℕ) (hnt : B.base.ratio ≤ nt)
    (f fsc : ℕ → Fin ns → R) (w wsc : Init d R) :
    ∃ r p, B.forward gv gs cb nt f fsc w wsc = .ok r ∧ B.pyForward cb nt f fsc w wsc = .ok p ∧
      p.out = r.out ∧ p.outsc = r.outsc ∧ p.rcd = r.rcd ∧ p.rcdsc = r.rcdsc ∧
      List.Forall₂ SameEvent p.events r.events := by
  refine ⟨_, _, forward_eq h gv gs cb nt f fsc w wsc hr fun _ => ?_,
    pyForward_eq h cb hcb nt f fsc w wsc hr hnt, rfl, rfl, rfl, rfl, ?_⟩
  · cases cb with
    | none => exact Nat.div_pos hnt hr
    | some cf => exact hcb cf rfl
  · cases cb with
    | none => exact .nil
    | some cf =>
        simp only
        rw [List.forall₂_map_left_iff, List.forall₂_map_right_iff]
        refine List.forall₂_same.2 fun i _ => ?_
        by_cases h0 : i * cf * B.base.ratio = 0
        · have hz : i * cf = 0 := (Nat.mul_eq_zero.1 h0).resolve_right hr.ne'
          refine ⟨rfl, ?_, ?_, fun hs => absurd hz hs, fun hs => absurd hz hs⟩
          · simp [BCfg.pyEventAt, fEventAt, h0, Cfg.run, scRun, Cfg.start, BCfg.pyStart]
          · simp [BCfg.pyEventAt, fEventAt, h0, Cfg.run, scRun, Cfg.start, BCfg.pyStart]
        · constructor <;> simp [BCfg.pyEventAt, fEventAt, h0]

example : ∃ r p, (exB ℚ).forward true true (some 3) 14 (exAmp ℚ) (exAmp ℚ) (exInit ℚ) (exInit ℚ) = .ok r ∧
    (exB ℚ).pyForward (some 3) 14 (exAmp ℚ) (exAmp ℚ) (exInit ℚ) (exInit ℚ) = .ok p ∧
    p.out = r.out ∧ p.outsc = r.outsc ∧ p.rcd = r.rcd ∧ p.rcdsc = r.rcdsc ∧
    List.Forall₂ SameEvent p.events r.events :=
  C72_born_backends_agree (exB_wf ℚ).base (by decide) _ _ _ (by simp) _ (by decide) _ _ _ _

/-- With fewer internal steps than one outer step and no callback, the compiled backend raises while
the Python one returns. -/
theorem C72_fails_below_one_outer_step (B : BCfg d ns nr nq R) (gv gs : Bool) (nt : ℕ) (h0 : 0 < nt)
    (hnt : nt < B.base.ratio) (f fsc : ℕ → Fin ns → R) (w wsc : Init d R) :
    (∃ e, B.forward gv gs none nt f fsc w wsc = .error e) ∧
      ∃ p, B.pyForward none nt f fsc w wsc = .ok p := by
  have hr : B.base.ratio ≠ 0 := by omega
  constructor
  · exact ⟨.valueError, by simp [BCfg.forward, hr, h0, Nat.div_eq_of_lt hnt]⟩
  · simp [BCfg.pyForward, hr]

example : (0 : ℕ) < 1 ∧ 1 < (exB ℚ).base.ratio := by decide

/-! ## C73 -/

theorem snap_comb (C : Cfg d ns nr R) (α β : R) (s s' : St d R) (c : Cell d) :
    C.snap (s.comb α β s') c = α * C.snap s c + β * C.snap s' c := by
  simp only [Cfg.snap, C.lap_comb]
  split_ifs <;> ring

theorem scRun_comb_all (α β : R) (f f' fsc fsc' : ℕ → Fin ns → R) (s s' l l' : St d R) (n : ℕ) :
    scRun B (fun t i => α * f t i + β * f' t i) (fun t i => α * fsc t i + β * fsc' t i)
      (s.comb α β s') (l.comb α β l') n =
    (scRun B f fsc s l n).comb α β (scRun B f' fsc' s' l' n) := by
  induction n with
  | zero => rfl
  | succ n ih =>
      rw [scRun, ih, B.base.run_comb]
      simp only [scNext, Cfg.tNext, inject_comb, B.base.refStep_comb, scRun, snap_comb]
      ext1
      · funext c; simp only [St.comb]; ring
      · rfl
      · rfl
      · rfl

/-- **C73** Superposition: receiver data and final wavefields of both fields for a linear combination
of the source amplitudes and initial wavefields (of both fields) are the linear combination of the
separate results. -/
theorem C73_born_superposition (h : B.base.WF) (hr : 0 < B.base.ratio) (gv gs : Bool) (nt : ℕ)
    (hnt : nt = 0 ∨ B.base.ratio ≤ nt) (f f' fsc fsc' : ℕ → Fin ns → R) (w w' wsc wsc' : Wavefields d R)
    (α β : R) :
    ∃ r r' rc, B.forward gv gs none nt f fsc w.toInit wsc.toInit = .ok r ∧
      B.forward gv gs none nt f' fsc' w'.toInit wsc'.toInit = .ok r' ∧
      B.forward gv gs none nt (fun t i => α * f t i + β * f' t i)
        (fun t i => α * fsc t i + β * fsc' t i) (w.comb α β w').toInit (wsc.comb α β wsc').toInit
        = .ok rc ∧
      rc.out = r.out.comb α β r'.out ∧ rc.outsc = r.outsc.comb α β r'.outsc ∧
      (∀ t i, rc.rcd t i = α * r.rcd t i + β * r'.rcd t i) ∧
      ∀ t i, rc.rcdsc t i = α * r.rcdsc t i + β * r'.rcdsc t i := by
  have hpos : 0 < nt → 0 < (none : Option ℕ).getD (nt / B.base.ratio) :=
    fun hp => Nat.div_pos (by omega) hr
  refine ⟨_, _, _, forward_eq h gv gs none nt _ _ _ _ hr hpos,
    forward_eq h gv gs none nt _ _ _ _ hr hpos, forward_eq h gv gs none nt _ _ _ _ hr hpos,
    ?_, ?_, ?_, ?_⟩
  · simp only [B.base.start_comb, B.base.run_comb]
    rfl
  · simp only [B.base.start_comb, scRun_comb_all]
    rfl
  · intro t i
    simp only [B.base.start_comb, B.base.run_comb]
    split_ifs
    · exact sample_comb _ _ _ _ _ _
    · ring
  · intro t i
    simp only [B.base.start_comb, scRun_comb_all]
    split_ifs
    · exact sample_comb _ _ _ _ _ _
    · ring

theorem scRun_add (f fsc : ℕ → Fin ns → R) (s l : St d R) (m n : ℕ) :
    scRun B f fsc s l (m + n) = scRun B (fun t => f (m + t)) (fun t => fsc (m + t))
      (B.base.run f 0 s m) (scRun B f fsc s l m) n := by
  induction n with
  | zero => rfl
  | succ n ih =>
      have e : B.base.run f 0 s (m + n) = B.base.run (fun t => f (m + t)) 0 (B.base.run f 0 s m) n := by
        rw [B.base.run_add, Nat.zero_add, B.base.run_shift f _ m n]
      rw [← Nat.add_assoc, scRun, ih, e]
      rfl

/-- **C73** Stop and resume: the wavefields of both fields returned after `n₁` steps, given to a second
run of `n₂` steps with the remaining amplitudes, lead to the final wavefields and receiver data of one
run of `n₁ + n₂` steps. -/
theorem C73_born_stop_and_resume (h : B.base.WF) (hr : 0 < B.base.ratio) (gv gs : Bool) (n₁ n₂ : ℕ)
    (hn₁ : B.base.ratio ∣ n₁) (hn₂ : B.base.ratio ∣ n₂) (f fsc : ℕ → Fin ns → R) (w wsc : Init d R) :
    ∃ r₁ r₂ r, B.forward gv gs none n₁ f fsc w wsc = .ok r₁ ∧
      B.forward gv gs none n₂ (fun t => f (n₁ + t)) (fun t => fsc (n₁ + t)) r₁.out.toInit
        r₁.outsc.toInit = .ok r₂ ∧
      B.forward gv gs none (n₁ + n₂) f fsc w wsc = .ok r ∧
      r₂.out = r.out ∧ r₂.outsc = r.outsc ∧
      (∀ t < n₁, r.rcd t = r₁.rcd t ∧ r.rcdsc t = r₁.rcdsc t) ∧
      ∀ t < n₂, r.rcd (n₁ + t) = r₂.rcd t ∧ r.rcdsc (n₁ + t) = r₂.rcdsc t := by
  have hpos : ∀ n, B.base.ratio ∣ n → 0 < n → 0 < (none : Option ℕ).getD (n / B.base.ratio) :=
    fun n hn hp => Nat.div_pos (Nat.le_of_dvd hp hn) hr
  have e : ∀ n, B.base.run f 0 (B.base.start w) (n₁ + n) = B.base.run (fun t => f (n₁ + t)) 0
      (B.base.run f 0 (B.base.start w) n₁) n := fun n => by
    rw [B.base.run_add, Nat.zero_add, B.base.run_shift f _ n₁ n]
  have g1 := B.base.start_outOf (B.base.run_good h f 0 (B.base.start_good w) n₁)
  have g2 := B.base.start_outOf (scRun_good h f fsc (B.base.start w) (B.base.start_good wsc) n₁)
  refine ⟨_, _, _, forward_eq h gv gs none n₁ f fsc w wsc hr (hpos _ hn₁),
    forward_eq h gv gs none n₂ _ _ _ _ hr (hpos _ hn₂),
    forward_eq h gv gs none (n₁ + n₂) f fsc w wsc hr (hpos _ (dvd_add hn₁ hn₂)), ?_, ?_, ?_, ?_⟩ <;>
  simp only [Nat.div_mul_cancel hn₁, Nat.div_mul_cancel hn₂, Nat.div_mul_cancel (dvd_add hn₁ hn₂)]
  · rw [g1, e]
  · rw [g1, g2, scRun_add]
  · intro t ht
    have h1 : t < n₁ + n₂ := by omega
    simp only [if_pos ht, if_pos h1, and_self]
  · intro t ht
    have h1 : n₁ + t < n₁ + n₂ := by omega
    simp only [if_pos ht, if_pos h1]
    rw [g1, g2, e, scRun_add]
    exact ⟨rfl, rfl⟩

theorem scRun_congr (f f' fsc fsc' : ℕ → Fin ns → R) (s l : St d R) (n : ℕ)
    (hf : ∀ t < n, ∀ i, B.base.src i ≠ none → f t i = f' t i ∧ fsc t i = fsc' t i) :
    scRun B f fsc s l n = scRun B f' fsc' s l n := by
  induction n with
  | zero => rfl
  | succ n ih =>
      rw [scRun, scRun, ih fun t ht => hf t (by omega),
        B.base.run_congr f f' s 0 n fun t ht i hi => (hf t (by omega) i hi).1]
      have : inject B.base.src (fsc n) = inject B.base.src (fsc' n) := by
        funext c
        refine Finset.sum_congr rfl fun i _ => ?_
        split_ifs with hi
        · exact (hf n (by omega) i (by simp [hi])).2
        · rfl
      simp only [scNext, this]

/-- **C73** Causality: the receiver samples at `t` depend neither on amplitudes at `t` or later nor on
sources without location. -/
theorem C73_born_causality (h : B.base.WF) (hr : 0 < B.base.ratio) (gv gs : Bool) (nt : ℕ)
    (hnt : nt = 0 ∨ B.base.ratio ≤ nt) (f f' fsc fsc' : ℕ → Fin ns → R) (w wsc : Init d R) (t : ℕ)
    (hf : ∀ t' < t, ∀ i, B.base.src i ≠ none → f t' i = f' t' i ∧ fsc t' i = fsc' t' i) :
    ∃ r r', B.forward gv gs none nt f fsc w wsc = .ok r ∧
      B.forward gv gs none nt f' fsc' w wsc = .ok r' ∧
      ∀ t' ≤ t, r.rcd t' = r'.rcd t' ∧ r.rcdsc t' = r'.rcdsc t' := by
  have hpos : 0 < nt → 0 < (none : Option ℕ).getD (nt / B.base.ratio) :=
    fun hp => Nat.div_pos (by omega) hr
  refine ⟨_, _, forward_eq h gv gs none nt _ _ _ _ hr hpos, forward_eq h gv gs none nt _ _ _ _ hr hpos,
    ?_⟩
  intro t' ht'
  simp only
  rw [B.base.run_congr f f' _ 0 t' fun t'' h'' i hi => (hf t'' (by omega) i hi).1,
    scRun_congr f f' fsc fsc' _ _ t' fun t'' h'' => hf t'' (by omega)]
  exact ⟨rfl, rfl⟩

theorem snap_local (C : Cfg d ns nr R) (v' : Fld d R) (c₀ : Cell d) (r : ℤ) (s s' : St d R)
    (hs : s.AgreeNear c₀ (r + C.acc.pad) s') (hv : ∀ c, cellDist c₀ c ≤ r → C.v c = v' c) (c : Cell d)
    (hc : cellDist c₀ c ≤ r) : C.snap s c = ({ C with v := v' } : Cfg d ns nr R).snap s' c := by
  have hsh : ∀ (k : Fin d) (j : ℤ), -(C.acc.pad : ℤ) ≤ j → j ≤ C.acc.pad →
      cellDist c₀ (c.shift k j) ≤ r + C.acc.pad := by
    intro k j h1 h2
    have := cellDist_shift c c₀ k j
    have : |j| ≤ (C.acc.pad : ℤ) := abs_le.2 ⟨h1, h2⟩
    omega
  have hself : cellDist c₀ c ≤ r + C.acc.pad := by omega
  have hd1 : ∀ k, C.D1 k s.u c = C.D1 k s'.u c := fun k =>
    cDiff1_congr _ _ fun j h1 h2 => (hs _ (hsh k j h1 h2)).1
  have hd2 : ∀ k, C.D2 k s.u c = C.D2 k s'.u c := fun k =>
    cDiff2_congr _ _ fun j h1 h2 => (hs _ (hsh k j h1 h2)).1
  have hd3 : ∀ k, C.D1 k (fun c => C.a k (c k) * s.psi k c) c =
      C.D1 k (fun c => C.a k (c k) * s'.psi k c) c := by
    intro k
    simp only [Cfg.D1, Dw.D1]
    exact cDiff1_congr _ _ fun j h1 h2 => by rw [(hs _ (hsh k j h1 h2)).2.2.1 k]
  have hlap : C.lap s c = C.lap s' c := by
    simp only [Cfg.lap, Cfg.tmp, hd1, hd2, hd3, (hs c hself).2.2.2]
  change (if C.Inner c then 2 * C.v c * C.dt ^ 2 * C.lap s c else 0) =
    if C.Inner c then 2 * v' c * C.dt ^ 2 * C.lap s' c else 0
  rw [hlap, hv c hc]

theorem scRun_local (v' σ' : Fld d R) (c₀ : Cell d) (f f' fsc fsc' : ℕ → Fin ns → R)
    (s s' l l' : St d R) (n : ℕ) : ∀ r : ℤ, s.AgreeNear c₀ (r + n * B.base.acc.pad) s' →
    l.AgreeNear c₀ (r + n * B.base.acc.pad) l' →
    (∀ c, cellDist c₀ c ≤ r + n * B.base.acc.pad → B.base.v c = v' c ∧ B.scatter c = σ' c) →
    (∀ t < n, ∀ i c, B.base.src i = some c → cellDist c₀ c ≤ r + n * B.base.acc.pad →
      f t i = f' t i ∧ fsc t i = fsc' t i) →
    (scRun B f fsc s l n).AgreeNear c₀ r
      (scRun ({ B with base := { B.base with v := v' }, scatter := σ' } : BCfg d ns nr nq R)
        f' fsc' s' l' n) := by
  induction n with
  | zero => intro r _ hl _ _; simpa [scRun] using hl
  | succ n ih =>
      intro r hs hl hv hf
      have e : r + ((n + 1 : ℕ) : ℤ) * B.base.acc.pad = r + B.base.acc.pad + n * B.base.acc.pad := by
        push_cast; ring
      rw [e] at hs hl hv hf
      have hnn : (0 : ℤ) ≤ B.base.acc.pad + n * B.base.acc.pad := by positivity
      have h1 := ih (r + B.base.acc.pad) hs hl hv fun t ht => hf t (by omega)
      have h2 := B.base.run_local v' c₀ f f' s s' n (r + B.base.acc.pad) hs (fun c hc => (hv c hc).1)
        fun t ht i c hi hc => (hf t (by omega) i c hi hc).1
      have h3 := B.base.next_local v' c₀ r (fsc n) (fsc' n) _ _ h1
        (fun c hc => (hv c (by omega)).1) fun i c hi hc => (hf n (by omega) i c hi (by omega)).2
      intro c hc
      obtain ⟨k1, k2, k3, k4⟩ := h3 c hc
      refine ⟨?_, k2, k3, k4⟩
      have hsn := snap_local B.base v' c₀ r _ _ h2 (fun c hc => (hv c (by omega)).1) c hc
      have hσ : B.scatter c = σ' c := (hv c (by omega)).2
      simp only [Cfg.next] at k1
      simp only [scRun, scNext, Cfg.tNext]
      rw [hσ, hsn]
      linear_combination k1

/-- **C73** Finite speed: the final wavefields of both fields at a point `p` after `nt` steps are the
same for two runs whose velocities, scattering potentials, initial wavefields and source amplitudes
agree within `accuracy/2 * nt` moves along the axes of `p`.  (`p` is in the user's coordinates; models
and source locations are in padded coordinates, which are larger by `accuracy/2`.) -/
theorem C73_born_finite_speed (h : B.base.WF) (hr : 0 < B.base.ratio) (gv gs : Bool) (nt : ℕ)
    (hnt : B.base.ratio ∣ nt) (v' σ' : Fld d R) (f f' fsc fsc' : ℕ → Fin ns → R)
    (w w' wsc wsc' : Wavefields d R) (p : Cell d)
    (hw : ∀ c, cellDist p c ≤ nt * (B.base.acc.order / 2 : ℕ) →
      w.wfc c = w'.wfc c ∧ w.wfp c = w'.wfp c ∧ (∀ k, w.psi k c = w'.psi k c) ∧
        ∀ k, w.zeta k c = w'.zeta k c)
    (hwsc : ∀ c, cellDist p c ≤ nt * (B.base.acc.order / 2 : ℕ) →
      wsc.wfc c = wsc'.wfc c ∧ wsc.wfp c = wsc'.wfp c ∧ (∀ k, wsc.psi k c = wsc'.psi k c) ∧
        ∀ k, wsc.zeta k c = wsc'.zeta k c)
    (hv : ∀ c, cellDist p c ≤ nt * (B.base.acc.order / 2 : ℕ) →
      B.base.v (fun k => c k + (B.base.acc.order / 2 : ℕ))
        = v' (fun k => c k + (B.base.acc.order / 2 : ℕ)) ∧
      B.scatter (fun k => c k + (B.base.acc.order / 2 : ℕ))
        = σ' (fun k => c k + (B.base.acc.order / 2 : ℕ)))
    (hf : ∀ i c, B.base.src i = some (fun k => c k + ((B.base.acc.order / 2 : ℕ) : ℤ)) →
      cellDist p c ≤ nt * (B.base.acc.order / 2 : ℕ) → ∀ t, f t i = f' t i ∧ fsc t i = fsc' t i) :
    ∃ r r', B.forward gv gs none nt f fsc w.toInit wsc.toInit = .ok r ∧
      ({ B with base := { B.base with v := v' }, scatter := σ' } : BCfg d ns nr nq R).forward gv gs none
        nt f' fsc' w'.toInit wsc'.toInit = .ok r' ∧
      (r.out.wfc p = r'.out.wfc p ∧ r.out.wfp p = r'.out.wfp p ∧
        (∀ k, r.out.psi k p = r'.out.psi k p) ∧ ∀ k, r.out.zeta k p = r'.out.zeta k p) ∧
      r.outsc.wfc p = r'.outsc.wfc p ∧ r.outsc.wfp p = r'.outsc.wfp p ∧
        (∀ k, r.outsc.psi k p = r'.outsc.psi k p) ∧ ∀ k, r.outsc.zeta k p = r'.outsc.zeta k p := by
  rw [Acc.order_div_two] at *
  set B' : BCfg d ns nr nq R := { B with base := { B.base with v := v' }, scatter := σ' } with hB'
  have h' : B'.base.WF :=
    ⟨h.w0_nonneg, h.w1_nonneg, h.size, h.a_mid, h.b_mid, h.db_mid, h.src_in, h.rcv_in⟩
  have hpos : 0 < nt → 0 < (none : Option ℕ).getD (nt / B.base.ratio) :=
    fun hp => Nat.div_pos (Nat.le_of_dvd hp hnt) hr
  refine ⟨_, _, forward_eq h gv gs none nt _ _ _ _ hr hpos,
    forward_eq h' gv gs none nt _ _ _ _ hr hpos, ?_⟩
  have e' : nt / B'.base.ratio * B'.base.ratio = nt := Nat.div_mul_cancel hnt
  simp only [Nat.div_mul_cancel hnt, e']
  have hdist : ∀ c : Cell d, cellDist (fun k => p k + (B.base.acc.pad : ℤ)) c =
      cellDist p (fun k => c k - B.base.acc.pad) := by
    intro c
    simp only [cellDist]
    refine Finset.sum_congr rfl fun k _ => ?_
    congr 1; ring
  have back : ∀ c : Cell d, (fun k => c k - (B.base.acc.pad : ℤ) + B.base.acc.pad) = c := by
    intro c; funext k; ring
  have start : ∀ w w' : Wavefields d R, (∀ c, cellDist p c ≤ nt * (B.base.acc.pad : ℤ) →
      w.wfc c = w'.wfc c ∧ w.wfp c = w'.wfp c ∧ (∀ k, w.psi k c = w'.psi k c) ∧
        ∀ k, w.zeta k c = w'.zeta k c) →
      (B.base.start w.toInit).AgreeNear (fun k => p k + (B.base.acc.pad : ℤ))
        (0 + nt * B.base.acc.pad) (B'.base.start w'.toInit) := by
    intro w w' hw c hc
    rw [zero_add, hdist] at hc
    obtain ⟨h1, h2, h3, h4⟩ := hw _ hc
    have hcp : ∀ u u' : Fld d R, u (fun k => c k - B.base.acc.pad) = u' (fun k => c k - B.base.acc.pad) →
        B.base.createOrPad (some u) c = B'.base.createOrPad (some u') c := by
      intro u u' hu
      change (if B.base.Inner c then _ else 0) =
        if B.base.Inner c then u' (fun k => c k - B.base.acc.pad) else 0
      rw [hu]
    refine ⟨hcp _ _ h1, hcp _ _ h2, fun k => ?_, fun k => ?_⟩
    · have := hcp _ _ (h3 k)
      simp only [Cfg.start, Wavefields.toInit, Cfg.zeroInterior, this]
      rfl
    · have := hcp _ _ (h4 k)
      simp only [Cfg.start, Wavefields.toInit, Cfg.zeroInterior, this]
      rfl
  have hv2 : ∀ c, cellDist (fun k => p k + (B.base.acc.pad : ℤ)) c ≤ 0 + nt * B.base.acc.pad →
      B.base.v c = v' c ∧ B.scatter c = σ' c := by
    intro c hc
    rw [zero_add, hdist] at hc
    have := hv _ hc
    rwa [back] at this
  have hf2 : ∀ t < nt, ∀ i c, B.base.src i = some c →
      cellDist (fun k => p k + (B.base.acc.pad : ℤ)) c ≤ 0 + nt * B.base.acc.pad →
      f t i = f' t i ∧ fsc t i = fsc' t i := by
    intro t _ i c hi hc
    rw [zero_add, hdist] at hc
    refine hf i (fun k => c k - B.base.acc.pad) ?_ hc t
    rw [hi]
    exact congrArg some (back c).symm
  have k1 := B.base.run_local v' (fun k => p k + (B.base.acc.pad : ℤ)) f f' _ _ nt 0
    (start w w' hw) (fun c hc => (hv2 c hc).1) fun t ht i c hi hc => (hf2 t ht i c hi hc).1
  have k2 := scRun_local (B := B) v' σ' (fun k => p k + (B.base.acc.pad : ℤ)) f f' fsc fsc' _ _ _ _ nt 0
    (start w w' hw) (start wsc wsc' hwsc) hv2 hf2
  have hself : cellDist (fun k => p k + (B.base.acc.pad : ℤ)) (fun k => p k + (B.base.acc.pad : ℤ)) ≤ 0 := by
    rw [cellDist_self]
  exact ⟨k1 _ hself, k2 _ hself⟩

/-- The theorems of C73 apply to the example. -/
example : (∃ r₁ r₂ r, (exB ℚ).forward true true none 4 (exAmp ℚ) (exAmp ℚ) (exInit ℚ) (exInit ℚ) = .ok r₁ ∧
      (exB ℚ).forward true true none 6 (fun t => exAmp ℚ (4 + t)) (fun t => exAmp ℚ (4 + t))
        r₁.out.toInit r₁.outsc.toInit = .ok r₂ ∧
      (exB ℚ).forward true true none 10 (exAmp ℚ) (exAmp ℚ) (exInit ℚ) (exInit ℚ) = .ok r ∧
      r₂.outsc = r.outsc) ∧
    ∃ r r', (exB ℚ).forward true true none 14 (exAmp ℚ) (exAmp ℚ) (exInit ℚ) (exInit ℚ) = .ok r ∧
      (exB ℚ).forward true true none 14 (fun t i => if t < 5 then exAmp ℚ t i else 77) (exAmp ℚ)
        (exInit ℚ) (exInit ℚ) = .ok r' ∧ ∀ t' ≤ 5, r.rcdsc t' = r'.rcdsc t' := by
  refine ⟨?_, ?_⟩
  · obtain ⟨r₁, r₂, r, h1, h2, h3, -, h4, -⟩ := C73_born_stop_and_resume (exB_wf ℚ).base (by decide) true
      true 4 6 (by decide) (by decide) (exAmp ℚ) (exAmp ℚ) (exInit ℚ) (exInit ℚ)
    exact ⟨r₁, r₂, r, h1, h2, h3, h4⟩
  · obtain ⟨r, r', h1, h2, h3⟩ := C73_born_causality (exB_wf ℚ).base (by decide) true true 14 (by decide)
      (exAmp ℚ) (fun t i => if t < 5 then exAmp ℚ t i else 77) (exAmp ℚ) (exAmp ℚ) (exInit ℚ) (exInit ℚ)
      5 (by intro t' h; simp [h])
    exact ⟨r, r', h1, h2, fun t ht => (h3 t ht).2⟩

/-- The hypotheses of the finite speed theorem are met by runs that differ far from the point only. -/
example : ∃ r r', (exB ℚ).forward true true none 2 (exAmp ℚ) (exAmp ℚ)
      (⟨fun _ => 1, fun _ => 2, fun _ _ => 3, fun _ _ => 4⟩ : Wavefields 2 ℚ).toInit
      (⟨fun _ => 1, fun _ => 2, fun _ _ => 3, fun _ _ => 4⟩ : Wavefields 2 ℚ).toInit = .ok r ∧
    ({ (exB ℚ) with base := { (exB ℚ).base with v := (exB ℚ).base.v }, scatter := fun c =>
        if c = ![7, 7] then 100 else (exB ℚ).scatter c } : BCfg 2 2 1 1 ℚ).forward true true
      none 2 (exAmp ℚ) (exAmp ℚ)
      (⟨fun _ => 1, fun _ => 2, fun _ _ => 3, fun _ _ => 4⟩ : Wavefields 2 ℚ).toInit
      (⟨fun _ => 1, fun _ => 2, fun _ _ => 3, fun _ _ => 4⟩ : Wavefields 2 ℚ).toInit = .ok r' ∧
    r.outsc.wfc ![0, 0] = r'.outsc.wfc ![0, 0] := by
  obtain ⟨r, r', h1, h2, -, h3, -⟩ := C73_born_finite_speed (B := exB ℚ) (exB_wf ℚ).base (by decide) true true
    2 (by decide) (exB ℚ).base.v (fun c => if c = ![7, 7] then 100 else (exB ℚ).scatter c)
    (exAmp ℚ) (exAmp ℚ) (exAmp ℚ) (exAmp ℚ)
    ⟨fun _ => 1, fun _ => 2, fun _ _ => 3, fun _ _ => 4⟩
    ⟨fun _ => 1, fun _ => 2, fun _ _ => 3, fun _ _ => 4⟩
    ⟨fun _ => 1, fun _ => 2, fun _ _ => 3, fun _ _ => 4⟩
    ⟨fun _ => 1, fun _ => 2, fun _ _ => 3, fun _ _ => 4⟩ ![0, 0]
    (fun _ _ => ⟨rfl, rfl, fun _ => rfl, fun _ => rfl⟩)
    (fun _ _ => ⟨rfl, rfl, fun _ => rfl, fun _ => rfl⟩)
    (fun c hc => ⟨rfl, by
      rw [if_neg]
      intro e
      have e0 := congrFun e 0
      have e1 := congrFun e 1
      simp [cellDist, exB, exCfgOf, Acc.order, Fin.sum_univ_two] at hc e0 e1
      have := neg_abs_le (c 0)
      have := le_abs_self (c 0)
      have := le_abs_self (c 1)
      omega⟩)
    (fun _ _ _ _ _ => ⟨rfl, rfl⟩)
  exact ⟨r, r', h1, h2, h3⟩

end Dw.Born
