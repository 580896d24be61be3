import Verif.Scalar.Linear
import Verif.Scalar.Example

/-!
# Properties of the scalar forward propagator

`C.forward grad cb nt f w` is the model of the forward autograd function on the compiled CPU
backend (`Verif/Scalar/Model.lean`): `nt` internal steps, source amplitudes `f`, initial
wavefields `w`, callback frequency `cb` (`none` without callback).  Its result has the final
wavefields `out`, the receiver data `rcd`, the snapshots `store` and the callback `events`.
`C.ratio` is the number of internal steps per outer step; the compiled function is called for
chunks of outer steps.
-/

namespace Dw.Scalar

variable {d ns nr : ℕ} {R : Type*} [Field R] {C : Cfg d ns nr R}

/-! ## C22 -/

/-- The cells visited by the region loops, in order. -/
def visitedCells (A : CArgs d ns nr R) : List (Cell d) := A.visits.map Prod.snd

/-- **C22** Forward and backward loops visit each cell that is at least `accuracy/2` away from
the array edge exactly once, and no other cell. -/
theorem C22_each_interior_cell_once (C : Cfg d ns nr R) (h0 : ∀ k, 0 ≤ C.w0 k)
    (h1 : ∀ k, 0 ≤ C.w1 k)
    (hn : ∀ k, 2 * ((C.acc.order / 2 : ℕ) : ℤ) + C.w0 k + C.w1 k ≤ C.n k) :
    ∀ A ∈ [C.fwdArgs, C.bwdArgs],
      (visitedCells A).Nodup ∧
      ∀ c, c ∈ visitedCells A ↔ ∀ k, ((C.acc.order / 2 : ℕ) : ℤ) ≤ c k ∧
        c k ≤ C.n k - 1 - ((C.acc.order / 2 : ℕ) : ℤ) := by
  rw [Acc.order_div_two] at *
  have key : ∀ A : CArgs d ns nr R, A.acc = C.acc → A.n = C.n → A.Ordered →
      (visitedCells A).Nodup ∧ ∀ c, c ∈ visitedCells A ↔ ∀ k, (C.acc.pad : ℤ) ≤ c k ∧
        c k ≤ C.n k - 1 - (C.acc.pad : ℤ) := by
    intro A ha hn ho
    refine ⟨CArgs.nodup_visits ho, fun c => ?_⟩
    constructor
    · intro hc k
      obtain ⟨⟨r, c'⟩, hv, rfl⟩ := List.mem_map.1 hc
      have := CArgs.inner_of_mem_visits ho hv k
      rw [ha, hn] at this
      simp only
      omega
    · intro hc
      refine List.mem_map.2 ⟨_, A.mem_visits_regionOf c fun k => ?_, rfl⟩
      have := hc k
      rw [ha, hn]
      omega
  intro A hA
  simp only [List.mem_cons, List.not_mem_nil, or_false] at hA
  rcases hA with rfl | rfl
  · refine key _ rfl rfl fun k => ?_
    have := h0 k
    have := h1 k
    have := hn k
    simp only [Cfg.fwdArgs, Cfg.pmlB, Cfg.pmlE]
    omega
  · refine key _ rfl rfl fun k => ?_
    have := h0 k
    have := h1 k
    have := hn k
    simp only [Cfg.bwdArgs, Cfg.pmlB, Cfg.pmlE]
    omega

/-- The hypotheses of C22 hold for the example, whose backward PML regions leave a middle, and
for the same with a shape so small that the regions meet. -/
example : (∀ k, 2 * ((exCfg.acc.order / 2 : ℕ) : ℤ) + exCfg.w0 k + exCfg.w1 k ≤ exCfg.n k) ∧
    ![7, 7] ∈ visitedCells exCfg.fwdArgs ∧
    (∀ k, 2 * ((exCfg.acc.order / 2 : ℕ) : ℤ) + exCfg.w0 k + exCfg.w1 k ≤ (fun _ : Fin 2 => 6) k) := by
  refine ⟨?_, ?_, ?_⟩
  · intro k; fin_cases k <;> simp [exCfgOf, Acc.order, exN]
  · refine ((C22_each_interior_cell_once exCfg (fun _ => by simp [exCfgOf])
      (fun _ => by simp [exCfgOf]) ?_ _ (by simp)).2 _).2 ?_
    · intro k; fin_cases k <;> simp [exCfgOf, Acc.order, exN]
    · intro k; fin_cases k <;> simp [exCfgOf, Acc.order, exN]
  · intro k; simp [exCfgOf, Acc.order]

/-! ## C01 -/

/-- **C01** A run with a (read-only) callback at any positive frequency succeeds and returns the
same final wavefields, receiver data and snapshots as the run without callback. -/
theorem C01_callback_schedule_independent (h : C.WF) (hr : 0 < C.ratio) (grad : Bool) (nt : ℕ)
    (hnt : nt = 0 ∨ C.ratio ≤ nt) (cf : ℕ) (hcf : 0 < cf) (f : ℕ → Fin ns → R) (w : Init d R) :
    ∃ r r', C.forward grad (some cf) nt f w = .ok r ∧ C.forward grad none nt f w = .ok r' ∧
      r.out = r'.out ∧ r.rcd = r'.rcd ∧ r.store = r'.store := by
  refine ⟨_, _, C.forward_eq h grad (some cf) nt f w hr fun _ => hcf,
    C.forward_eq h grad none nt f w hr fun hp => ?_, rfl, rfl, rfl⟩
  exact Nat.div_pos (by omega) hr

example : ∃ r r', exCfg.forward true (some 3) 14 (exAmp ℚ) (exInit ℚ) = .ok r ∧
    exCfg.forward true none 14 (exAmp ℚ) (exInit ℚ) = .ok r' ∧
    r.out = r'.out ∧ r.rcd = r'.rcd ∧ r.store = r'.store :=
  C01_callback_schedule_independent exCfg_wf (by decide) _ _ (by decide) 3 (by decide) _ _

/-! ## C02 -/

/-- **C02** The callback runs at the outer steps below `nt / ratio` divisible by the frequency,
once each and in increasing order; and it sees the wavefields which a run without callback of
exactly that many outer steps returns (with zeros in the finite-difference padding). -/
theorem C02_forward_callback_events (h : C.WF) (hr : 0 < C.ratio) (grad : Bool) (nt : ℕ)
    (cf : ℕ) (hcf : 0 < cf) (f : ℕ → Fin ns → R) (w : Init d R) :
    ∃ r, C.forward grad (some cf) nt f w = .ok r ∧
      (r.events.map Event.step).Pairwise (· < ·) ∧
      (∀ i, i ∈ r.events.map Event.step ↔ i < nt / C.ratio ∧ cf ∣ i) ∧
      ∀ e ∈ r.events, ∃ r', C.forward grad none (e.step * C.ratio) f w = .ok r' ∧
        (C.unpad e.wf.wfc = r'.out.wfc ∧ C.unpad e.wf.wfp = r'.out.wfp ∧
          (∀ k, C.unpad (e.wf.psi k) = r'.out.psi k) ∧
          ∀ k, C.unpad (e.wf.zeta k) = r'.out.zeta k) ∧
        ∀ c, ¬C.Inner c → e.wf.wfc c = 0 ∧ e.wf.wfp c = 0 ∧
          (∀ k, e.wf.psi k c = 0) ∧ ∀ k, e.wf.zeta k c = 0 := by
  refine ⟨_, C.forward_eq h grad (some cf) nt f w hr fun _ => hcf, ?_, ?_, ?_⟩
  · simp only [List.map_map]
    refine List.Pairwise.map _ ?_ List.pairwise_lt_range
    intro a b hab
    exact Nat.mul_lt_mul_of_pos_right hab hcf
  · intro i
    simp only [List.map_map, List.mem_map, List.mem_range, Function.comp_apply, Cfg.eventAt]
    constructor
    · rintro ⟨j, hj, rfl⟩
      refine ⟨?_, Dvd.intro_left _ rfl⟩
      have h1 : (j + 1) * cf ≤ nt / C.ratio + cf - 1 :=
        (Nat.mul_le_mul_right cf hj).trans (Nat.div_mul_le_self _ _)
      rw [Nat.add_mul, Nat.one_mul] at h1
      omega
    · rintro ⟨hi, j, rfl⟩
      refine ⟨j, ?_, Nat.mul_comm _ _⟩
      rw [Nat.lt_iff_add_one_le, Nat.le_div_iff_mul_le hcf, Nat.add_mul, Nat.mul_comm j]
      omega
  · intro e he
    simp only [List.mem_map] at he
    obtain ⟨j, -, rfl⟩ := he
    refine ⟨_, C.forward_eq h grad none _ f w hr ?_, ?_, ?_⟩
    · intro hp
      simp only [Cfg.eventAt, Option.getD_none, Nat.mul_div_cancel _ hr] at hp ⊢
      exact Nat.pos_of_mul_pos_right hp
    · simp only [Cfg.eventAt, Nat.mul_div_cancel _ hr]
      exact ⟨rfl, rfl, fun _ => rfl, fun _ => rfl⟩
    · intro c hc
      have g := C.run_good h f 0 (C.start_good w) (j * cf * C.ratio)
      exact ⟨g.u c hc, g.p c hc, fun k => g.psi k c hc, fun k => g.zeta k c hc⟩

example : ∃ r, exCfg.forward true (some 3) 14 (exAmp ℚ) (exInit ℚ) = .ok r ∧
    (∀ i, i ∈ r.events.map Event.step ↔ i < 7 ∧ 3 ∣ i) := by
  obtain ⟨r, h1, -, h2, -⟩ := C02_forward_callback_events exCfg_wf (by decide) true 14 3 (by decide)
    (exAmp ℚ) (exInit ℚ)
  exact ⟨r, h1, h2⟩

/-! ## C03 -/

/-- **C03** Running `n₁` steps, giving the returned wavefields to a second run of `n₂` steps with
the remaining source amplitudes, produces the final wavefields and the receiver data of one run of
`n₁ + n₂` steps. -/
theorem C03_stop_and_resume (h : C.WF) (hr : 0 < C.ratio) (g₁ g₂ g : Bool) (n₁ n₂ : ℕ)
    (hn₁ : C.ratio ∣ n₁) (hn₂ : C.ratio ∣ n₂) (f : ℕ → Fin ns → R) (w : Init d R) :
    ∃ r₁ r₂ r, C.forward g₁ none n₁ f w = .ok r₁ ∧
      C.forward g₂ none n₂ (fun t => f (n₁ + t)) r₁.out.toInit = .ok r₂ ∧
      C.forward g none (n₁ + n₂) f w = .ok r ∧
      r₂.out = r.out ∧
      (∀ t < n₁, r.rcd t = r₁.rcd t) ∧ ∀ t < n₂, r.rcd (n₁ + t) = r₂.rcd t := by
  have hpos : ∀ n, C.ratio ∣ n → 0 < n → 0 < (none : Option ℕ).getD (n / C.ratio) :=
    fun n hn hp => Nat.div_pos (Nat.le_of_dvd hp hn) hr
  refine ⟨_, _, _, C.forward_eq h g₁ none n₁ f w hr (hpos _ hn₁),
    C.forward_eq h g₂ none n₂ _ _ hr (hpos _ hn₂),
    C.forward_eq h g none (n₁ + n₂) f w hr (hpos _ (dvd_add hn₁ hn₂)), ?_, ?_, ?_⟩
  · simp only [Nat.div_mul_cancel hn₁, Nat.div_mul_cancel hn₂,
      Nat.div_mul_cancel (dvd_add hn₁ hn₂)]
    rw [C.start_outOf (C.run_good h f 0 (C.start_good w) n₁), C.run_add, Nat.zero_add,
      C.run_shift f _ n₁ n₂]
  · intro t ht
    simp only [Nat.div_mul_cancel hn₁, Nat.div_mul_cancel (dvd_add hn₁ hn₂)]
    rw [if_pos (by omega), if_pos ht]
  · intro t ht
    simp only [Nat.div_mul_cancel hn₁, Nat.div_mul_cancel hn₂,
      Nat.div_mul_cancel (dvd_add hn₁ hn₂)]
    rw [if_pos (by omega), if_pos ht, C.start_outOf (C.run_good h f 0 (C.start_good w) n₁), C.run_add,
      Nat.zero_add, C.run_shift f _ n₁ t]

example : ∃ r₁ r₂ r, exCfg.forward false none 4 (exAmp ℚ) (exInit ℚ) = .ok r₁ ∧
    exCfg.forward false none 6 (fun t => exAmp ℚ (4 + t)) r₁.out.toInit = .ok r₂ ∧
    exCfg.forward false none 10 (exAmp ℚ) (exInit ℚ) = .ok r ∧ r₂.out = r.out := by
  obtain ⟨r₁, r₂, r, h1, h2, h3, h4, -⟩ := C03_stop_and_resume exCfg_wf (by decide) false false false
    4 6 (by decide) (by decide) (exAmp ℚ) (exInit ℚ)
  exact ⟨r₁, r₂, r, h1, h2, h3, h4⟩

/-! ## C10 -/

/-- Linear combination of wavefields. -/
def Wavefields.comb (α β : R) (w w' : Wavefields d R) : Wavefields d R where
  wfc := fun c => α * w.wfc c + β * w'.wfc c
  wfp := fun c => α * w.wfp c + β * w'.wfp c
  psi := fun k c => α * w.psi k c + β * w'.psi k c
  zeta := fun k c => α * w.zeta k c + β * w'.zeta k c

theorem Cfg.start_comb (α β : R) (w w' : Wavefields d R) :
    C.start (w.comb α β w').toInit = (C.start w.toInit).comb α β (C.start w'.toInit) := by
  have h : ∀ u u' : Fld d R, C.createOrPad (some fun c => α * u c + β * u' c) =
      fun c => α * C.createOrPad (some u) c + β * C.createOrPad (some u') c := by
    intro u u'
    funext c
    simp only [Cfg.createOrPad]
    split_ifs <;> ring
  ext1
  · exact h _ _
  · exact h _ _
  · funext k c
    simp only [Cfg.start, Wavefields.toInit, Wavefields.comb, h, St.comb, Cfg.zeroInterior]
    split_ifs <;> ring
  · funext k c
    simp only [Cfg.start, Wavefields.toInit, Wavefields.comb, h, St.comb, Cfg.zeroInterior]
    split_ifs <;> ring

/-- **C10** Receiver data and final wavefields of a linear combination of source amplitudes and
initial wavefields are the linear combination of the receiver data and final wavefields. -/
theorem C10_superposition (h : C.WF) (hr : 0 < C.ratio) (g : Bool) (nt : ℕ)
    (hnt : nt = 0 ∨ C.ratio ≤ nt) (f f' : ℕ → Fin ns → R) (w w' : Wavefields d R) (α β : R) :
    ∃ r r' rc, C.forward g none nt f w.toInit = .ok r ∧ C.forward g none nt f' w'.toInit = .ok r' ∧
      C.forward g none nt (fun t i => α * f t i + β * f' t i) (w.comb α β w').toInit = .ok rc ∧
      rc.out = r.out.comb α β r'.out ∧
      ∀ t i, rc.rcd t i = α * r.rcd t i + β * r'.rcd t i := by
  have hpos : 0 < nt → 0 < (none : Option ℕ).getD (nt / C.ratio) :=
    fun hp => Nat.div_pos (by omega) hr
  refine ⟨_, _, _, C.forward_eq h g none nt _ _ hr hpos, C.forward_eq h g none nt _ _ hr hpos,
    C.forward_eq h g none nt _ _ hr hpos, ?_, ?_⟩
  · simp only [C.start_comb, C.run_comb]
    rfl
  · intro t i
    simp only [C.start_comb, C.run_comb]
    split_ifs
    · exact sample_comb _ _ _ _ _ _
    · ring

/-- Zero input gives zero output. -/
theorem C10_zero (h : C.WF) (hr : 0 < C.ratio) (g : Bool) (nt : ℕ) (hnt : nt = 0 ∨ C.ratio ≤ nt) :
    ∃ r, C.forward g none nt (fun _ _ => 0) ⟨none, none, fun _ => none, fun _ => none⟩ = .ok r ∧
      (∀ t i, r.rcd t i = 0) ∧ (∀ c, r.out.wfc c = 0 ∧ r.out.wfp c = 0) ∧
      ∀ k c, r.out.psi k c = 0 ∧ r.out.zeta k c = 0 := by
  have hpos : 0 < nt → 0 < (none : Option ℕ).getD (nt / C.ratio) :=
    fun hp => Nat.div_pos (by omega) hr
  have hz : ∀ n, C.run (fun _ _ => 0) 0 (C.start ⟨none, none, fun _ => none, fun _ => none⟩) n =
      ⟨fun _ => 0, fun _ => 0, fun _ _ => 0, fun _ _ => 0⟩ := by
    intro n
    have := C.run_comb 0 0 (fun _ _ => 0) (fun _ _ => 0) 0
      (C.start ⟨none, none, fun _ => none, fun _ => none⟩)
      (C.start ⟨none, none, fun _ => none, fun _ => none⟩) n
    simp only [St.comb, zero_mul, add_zero] at this
    rw [← this]
    congr 1
    ext1
    · rfl
    · rfl
    · funext k c; simp [Cfg.start, Cfg.createOrPad, Cfg.zeroInterior]
    · funext k c; simp [Cfg.start, Cfg.createOrPad, Cfg.zeroInterior]
  refine ⟨_, C.forward_eq h g none nt _ _ hr hpos, ?_, ?_, ?_⟩
  · intro t i
    simp only [hz]
    split_ifs
    · simp only [sample]; cases C.rcv i <;> rfl
    · rfl
  · intro c; simp [hz, Cfg.outOf, Cfg.unpad]
  · intro k c; simp [hz, Cfg.outOf, Cfg.unpad]

example : ∃ r, exCfg.forward false none 4 (exAmp ℚ) (exInit ℚ) = .ok r :=
  ⟨_, exCfg.forward_eq exCfg_wf _ _ _ _ _ (by decide) (by decide)⟩

/-! ## C11 -/

/-- **C11** The receiver sample at `t` does not depend on source amplitudes at samples `≥ t`. -/
theorem C11_causality (h : C.WF) (hr : 0 < C.ratio) (g : Bool) (nt : ℕ)
    (hnt : nt = 0 ∨ C.ratio ≤ nt) (f f' : ℕ → Fin ns → R) (w : Init d R) (t : ℕ)
    (hf : ∀ t' < t, f t' = f' t') :
    ∃ r r', C.forward g none nt f w = .ok r ∧ C.forward g none nt f' w = .ok r' ∧
      ∀ t' ≤ t, r.rcd t' = r'.rcd t' := by
  have hpos : 0 < nt → 0 < (none : Option ℕ).getD (nt / C.ratio) :=
    fun hp => Nat.div_pos (by omega) hr
  refine ⟨_, _, C.forward_eq h g none nt _ _ hr hpos, C.forward_eq h g none nt _ _ hr hpos, ?_⟩
  intro t' ht'
  simp only
  rw [C.run_congr f f' _ 0 t' fun t'' h'' i _ => by rw [hf t'' (by omega)]]

example : ∃ r r', exCfg.forward false none 14 (exAmp ℚ) (exInit ℚ) = .ok r ∧
    exCfg.forward false none 14 (fun t i => if t < 5 then exAmp ℚ t i else 77) (exInit ℚ) = .ok r' ∧
    ∀ t' ≤ 5, r.rcd t' = r'.rcd t' :=
  C11_causality exCfg_wf (by decide) _ _ (by decide) _ _ _ 5 (by intro t' h; simp [h])

/-! ## C12 -/

/-- **C12** The final wavefield at cell `p` after `nt` steps is the same for two runs whose initial
wavefields, velocities and source amplitudes agree within `accuracy/2 * nt` moves along the
axes of `p`.  (`p` is in the user's coordinates; velocity and source locations are in padded
coordinates, which are larger by `accuracy/2`.) -/
theorem C12_finite_speed (h : C.WF) (hr : 0 < C.ratio) (g : Bool) (nt : ℕ) (hnt : C.ratio ∣ nt)
    (v' : Fld d R) (f f' : ℕ → Fin ns → R) (w w' : Wavefields d R) (p : Cell d)
    (hw : ∀ c, cellDist p c ≤ nt * (C.acc.order / 2 : ℕ) → w.wfc c = w'.wfc c ∧ w.wfp c = w'.wfp c ∧
      (∀ k, w.psi k c = w'.psi k c) ∧ ∀ k, w.zeta k c = w'.zeta k c)
    (hv : ∀ c, cellDist p c ≤ nt * (C.acc.order / 2 : ℕ) →
      C.v (fun k => c k + (C.acc.order / 2 : ℕ)) = v' (fun k => c k + (C.acc.order / 2 : ℕ)))
    (hf : ∀ i c, C.src i = some (fun k => c k + ((C.acc.order / 2 : ℕ) : ℤ)) →
      cellDist p c ≤ nt * (C.acc.order / 2 : ℕ) → ∀ t, f t i = f' t i) :
    ∃ r r', C.forward g none nt f w.toInit = .ok r ∧
      ({ C with v := v' } : Cfg d ns nr R).forward g none nt f' w'.toInit = .ok r' ∧
      r.out.wfc p = r'.out.wfc p ∧ r.out.wfp p = r'.out.wfp p ∧
      (∀ k, r.out.psi k p = r'.out.psi k p) ∧ ∀ k, r.out.zeta k p = r'.out.zeta k p := by
  rw [Acc.order_div_two] at *
  set C' : Cfg d ns nr R := { C with v := v' } with hC'
  have h' : C'.WF := ⟨h.w0_nonneg, h.w1_nonneg, h.size, h.a_mid, h.b_mid, h.db_mid, h.src_in, h.rcv_in⟩
  have hpos : 0 < nt → 0 < (none : Option ℕ).getD (nt / C.ratio) :=
    fun hp => Nat.div_pos (Nat.le_of_dvd hp hnt) hr
  refine ⟨_, _, C.forward_eq h g none nt _ _ hr hpos, C'.forward_eq h' g none nt _ _ hr hpos, ?_⟩
  have e' : nt / C'.ratio * C'.ratio = nt := Nat.div_mul_cancel hnt
  simp only [Nat.div_mul_cancel hnt, e']
  have hdist : ∀ c : Cell d, cellDist (fun k => p k + (C.acc.pad : ℤ)) c =
      cellDist p (fun k => c k - C.acc.pad) := by
    intro c
    simp only [cellDist]
    refine Finset.sum_congr rfl fun k _ => ?_
    congr 1; ring
  have back : ∀ c : Cell d, (fun k => c k - (C.acc.pad : ℤ) + C.acc.pad) = c := by
    intro c; funext k; ring
  have key := C.run_local v' (fun k => p k + (C.acc.pad : ℤ)) f f' (C.start w.toInit)
    (C'.start w'.toInit) nt 0 ?_ ?_ ?_
  · have := key (fun k => p k + (C.acc.pad : ℤ)) (by rw [cellDist_self])
    exact this
  · intro c hc
    rw [zero_add, hdist] at hc
    obtain ⟨h1, h2, h3, h4⟩ := hw _ hc
    have hcp : ∀ u u' : Fld d R, u (fun k => c k - C.acc.pad) = u' (fun k => c k - C.acc.pad) →
        C.createOrPad (some u) c = C'.createOrPad (some u') c := by
      intro u u' hu
      change (if C.Inner c then _ else 0) = if C.Inner c then u' (fun k => c k - C.acc.pad) else 0
      rw [hu]
    refine ⟨hcp _ _ h1, hcp _ _ h2, fun k => ?_, fun k => ?_⟩
    · have := hcp _ _ (h3 k)
      simp only [Cfg.start, Wavefields.toInit, Cfg.zeroInterior, this]
      rfl
    · have := hcp _ _ (h4 k)
      simp only [Cfg.start, Wavefields.toInit, Cfg.zeroInterior, this]
      rfl
  · intro c hc
    rw [zero_add, hdist] at hc
    have := hv _ hc
    rwa [back] at this
  · intro t _ i c hi hc
    rw [zero_add, hdist] at hc
    exact hf i _ (by rw [back]; exact hi) hc t

/-- Wavefields for the example below. -/
def exWf : Wavefields 2 ℚ := ⟨fun c => c 0, fun c => c 1, fun _ _ => 1, fun _ _ => 2⟩

/-- The hypotheses of C12 are met by two velocities that differ far from `p = (2, 2)`. -/
example : ∃ r r', exCfg.forward false none 2 (exAmp ℚ) exWf.toInit = .ok r ∧
    ({ exCfg with v := fun c => if c 0 < 6 then exCfg.v c else 100 } : Cfg 2 2 1 ℚ).forward false none 2
      (exAmp ℚ) exWf.toInit = .ok r' ∧ r.out.wfc ![2, 2] = r'.out.wfc ![2, 2] := by
  obtain ⟨r, r', h1, h2, h3, -⟩ := C12_finite_speed exCfg_wf (by decide) false 2 (by decide)
    (fun c => if c 0 < 6 then exCfg.v c else 100) (exAmp ℚ) (exAmp ℚ) exWf exWf ![2, 2]
    (fun c _ => ⟨rfl, rfl, fun _ => rfl, fun _ => rfl⟩) (by
    intro c hc
    rw [if_pos]
    simp only [exCfgOf, Acc.order, cellDist, Fin.sum_univ_two, Matrix.cons_val_zero,
      Matrix.cons_val_one] at hc ⊢
    have h1 := neg_abs_le (2 - c 0)
    have h2 := abs_nonneg (2 - c 1)
    norm_num at hc ⊢
    omega) (fun _ _ _ _ _ => rfl)
  exact ⟨r, r', h1, h2, h3⟩

/-! ## C17 (propagator part) -/

/-- **C17** A source without location has no influence on any output, whatever its position in the
list; a receiver without location records zeros. (That an ignored location becomes a negative index,
here `none`, is `C17_ignored_index`.) -/
theorem C17_ignored_locations (h : C.WF) (hr : 0 < C.ratio) (g : Bool) (cb : Option ℕ) (nt : ℕ)
    (hcf : 0 < nt → 0 < cb.getD (nt / C.ratio)) (f f' : ℕ → Fin ns → R) (w : Init d R)
    (hf : ∀ t i, C.src i ≠ none → f t i = f' t i) :
    ∃ r, C.forward g cb nt f w = .ok r ∧ C.forward g cb nt f' w = .ok r ∧
      ∀ t i, C.rcv i = none → r.rcd t i = 0 := by
  refine ⟨_, C.forward_eq h g cb nt f w hr hcf, ?_, ?_⟩
  · rw [C.forward_eq h g cb nt f' w hr hcf]
    have : ∀ n, C.run f' 0 (C.start w) n = C.run f 0 (C.start w) n := fun n =>
      (C.run_congr f f' _ 0 n fun t _ i hi => hf t i hi).symm
    simp only [this, Cfg.eventAt]
  · intro t i hi
    simp only
    split_ifs
    · simp [sample, hi]
    · rfl

/-- The second source of the example is ignored. -/
example : ∃ r, exCfg.forward true (some 3) 14 (exAmp ℚ) (exInit ℚ) = .ok r ∧
    exCfg.forward true (some 3) 14 (fun t i => if i = 1 then 55 else exAmp ℚ t i) (exInit ℚ) = .ok r := by
  obtain ⟨r, h1, h2, -⟩ := C17_ignored_locations exCfg_wf (by decide) true (some 3) 14 (by decide)
    (exAmp ℚ) (fun t i => if i = 1 then 55 else exAmp ℚ t i) (exInit ℚ) (by
      intro t i hi
      rw [if_neg]
      rintro rfl
      exact hi rfl)
  exact ⟨r, h1, h2⟩

/-! ## C36 -/

/-- **C36** Adding and then removing the finite-difference padding gives back the wavefield on the
user's cells; removing and then adding it is the identity on padded wavefields that vanish in the
padding, which all wavefields of a run do; a wavefield that is not given acts as zeros. -/
theorem C36_padding_round_trip :
    (∀ (u : Fld d R) (p : Cell d), (∀ k, 0 ≤ p k ∧ p k < C.n k - 2 * (C.acc.order / 2 : ℕ)) →
      C.unpad (C.createOrPad (some u)) p = u p) ∧
    (∀ u : Fld d R, (∀ c, ¬C.Inner c → u c = 0) → C.createOrPad (some (C.unpad u)) = u) ∧
    (∀ g cb nt (f : ℕ → Fin ns → R) (w : Init d R),
      C.forward g cb nt f w = C.forward g cb nt f
        ⟨some (w.wfc.getD fun _ => 0), some (w.wfp.getD fun _ => 0),
          fun k => some ((w.psi k).getD fun _ => 0), fun k => some ((w.zeta k).getD fun _ => 0)⟩) := by
  refine ⟨fun u p hp => ?_, fun u hu => C.createOrPad_unpad u hu, fun g cb nt f w => ?_⟩
  · have hi : C.Inner fun k => p k + C.acc.pad := by
      intro k
      have := hp k
      rw [Acc.order_div_two] at this
      simp only
      constructor <;> omega
    simp only [Cfg.unpad, Cfg.createOrPad, hi, if_true]
    congr 1; funext k; ring
  · have e : ∀ o : Option (Fld d R), C.createOrPad (some (o.getD fun _ => 0)) = C.createOrPad o := by
      intro o
      cases o with
      | none => funext c; simp [Cfg.createOrPad]
      | some u => rfl
    simp only [Cfg.forward, Cfg.initBufs, e]

/-- A cell of the example where the wavefield is not zero. -/
example : exCfg.unpad (exCfg.createOrPad (exInit ℚ).wfc) ![3, 4] = 4 := by
  have := (C36_padding_round_trip (C := exCfg)).1 (fun c => (c 0 : ℚ) + 1) ![3, 4] (by
    intro k; fin_cases k <;> simp [exCfgOf, Acc.order, exN])
  rw [show (exInit ℚ).wfc = some (fun c : Cell 2 => (c 0 : ℚ) + 1) from rfl, this]
  norm_num

/-! ## C34 (propagator part) -/

/-- **C34, partial** If the number of internal steps is a multiple of the step ratio (which includes
the model gradient sampling interval), every sample is the value of the propagated wavefield at the
receiver.  Missing: numbers of steps which are not a multiple, for which the claim is false, see
`C34_fails_if_interval_does_not_divide`. -/
theorem C34_all_samples_propagated_partial (h : C.WF) (hr : 0 < C.ratio) (g : Bool) (nt : ℕ)
    (hnt : C.ratio ∣ nt) (f : ℕ → Fin ns → R) (w : Init d R) :
    ∃ r, C.forward g none nt f w = .ok r ∧
      ∀ t < nt, ∀ i c, C.rcv i = some c → r.rcd t i = (C.run f 0 (C.start w) t).u c := by
  refine ⟨_, C.forward_eq h g none nt f w hr fun hp =>
    Nat.div_pos (Nat.le_of_dvd hp hnt) hr, fun t ht i c hi => ?_⟩
  simp only [Nat.div_mul_cancel hnt, ht, if_true, sample, hi]

example : 2 ∣ 14 ∧ exCfg.ratio = 2 := ⟨by decide, rfl⟩

/-- The example with the receiver at the source. -/
def exSelf : Cfg 2 2 1 ℚ := { exCfg with rcv := fun _ => some ![4, 5] }

theorem exSelf_wf : exSelf.WF :=
  { exCfg_wf with
    rcv_in := fun i c hc => exCfg_wf.src_in 0 c (by
      have : c = ![4, 5] := by simpa [exSelf] using hc.symm
      subst this; rfl) }

/-- A unit amplitude of the first source at step 1. -/
def exPulse : ℕ → Fin 2 → ℚ := fun t i => if t = 1 ∧ i = 0 then 1 else 0

theorem exSelf_run_two :
    (exSelf.run exPulse 0 (exSelf.start ⟨none, none, fun _ => none, fun _ => none⟩) 2).u ![4, 5] = 1 := by
  set s₀ := exSelf.start ⟨none, none, fun _ => none, fun _ => none⟩ with hs
  have hz : exSelf.run (fun _ _ => 0) 0 s₀ 2 =
      ⟨fun _ => 0, fun _ => 0, fun _ _ => 0, fun _ _ => 0⟩ := by
    have := exSelf.run_comb 0 0 (fun _ _ => 0) (fun _ _ => 0) 0 s₀ s₀ 2
    simp only [St.comb, zero_mul, add_zero] at this
    rw [← this]
    congr 1
    ext1
    · rfl
    · rfl
    · funext k c; simp [hs, Cfg.start, Cfg.createOrPad, Cfg.zeroInterior]
    · funext k c; simp [hs, Cfg.start, Cfg.createOrPad, Cfg.zeroInterior]
  have h1 : exSelf.run exPulse 0 s₀ 1 = exSelf.run (fun _ _ => 0) 0 s₀ 1 :=
    exSelf.run_congr _ _ _ _ _ fun t' ht' i _ => by
      have : t' = 0 := by omega
      simp [exPulse, this]
  have h2 : (exSelf.run exPulse 0 s₀ 2).u ![4, 5] =
      (exSelf.run (fun _ _ => 0) 0 s₀ 2).u ![4, 5] + inject exSelf.src (exPulse 1) ![4, 5] := by
    have e : ∀ g : ℕ → Fin 2 → ℚ, (exSelf.run g 0 s₀ 2).u ![4, 5] =
        (exSelf.refStep (exSelf.run g 0 s₀ 1)).u ![4, 5] + inject exSelf.src (g 1) ![4, 5] :=
      fun _ => rfl
    rw [e, e, h1]
    simp [inject]
  rw [h2, hz]
  simp [inject, exPulse, exSelf, exCfgOf]

/-- **C34 is false** when the interval does not divide the number of steps: with ratio 2 and 3
steps, the third sample of a receiver is 0 although the wavefield there is 1 at that time. -/
theorem C34_fails_if_interval_does_not_divide :
    ∃ (f : ℕ → Fin 2 → ℚ) (w : Init 2 ℚ) (r : FwdResult 2 1 ℚ),
      exSelf.forward false none 3 f w = .ok r ∧ r.rcd 2 0 = 0 ∧
      (exSelf.run f 0 (exSelf.start w) 2).u ![4, 5] = 1 := by
  refine ⟨exPulse, ⟨none, none, fun _ => none, fun _ => none⟩, _,
    exSelf.forward_eq exSelf_wf false none 3 _ _ (by decide) (by decide), ?_, exSelf_run_two⟩
  have : ¬2 < 3 / exSelf.ratio * exSelf.ratio := by decide
  simp only [this, if_false]

/-- Fewer steps than the interval, without callback: `ValueError` (`range()` with step 0). -/
theorem C34_fewer_steps_than_interval (C : Cfg d ns nr R) (g : Bool) (nt : ℕ) (h0 : 0 < nt)
    (h1 : nt < C.ratio) (f : ℕ → Fin ns → R) (w : Init d R) :
    C.forward g none nt f w = .error .valueError := by
  have : C.ratio ≠ 0 := by omega
  simp [Cfg.forward, this, h0, Nat.div_eq_of_lt h1]

example : exCfg.forward false none 1 (exAmp ℚ) (exInit ℚ) = .error .valueError :=
  C34_fewer_steps_than_interval _ _ _ (by decide) (by decide) _ _

end Dw.Scalar
