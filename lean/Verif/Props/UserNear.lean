import Verif.Spec.Near
import Verif.Props.UserDelayMore

/-!
# C126: what a trace depends on

The waves move only half the width of the stencil (the same for pressure and particle velocity, or stress and particle
velocity) in a time step, so what is further away from a receiver does not matter for its first samples.
-/

namespace Dw.Setup

open Scalar (upAmps downS downS_one)
open Resample (Sig)

variable {d : ℕ}

/-- Models of the same sizes that have the same values for shot `s` at most `n` cells away from `c₀`. -/
structure ModelT.SameNear (s : ℕ) (c₀ : Cell d) (n : ℤ) (m m' : ModelT d ℝ) : Prop where
  nb : m'.nb = m.nb
  shape : m'.shape = m.shape
  near : ∀ c, InShape m.shape c → Spec.Near c₀ n c → m.shot s c = m'.shot s c

/-- Amplitudes of the same sizes that have the same values for the sources of shot `s` at most `n` cells away from `c₀`. -/
def AmpT.SameNear (o : Option LocT) (s : ℕ) (c₀ : Cell d) (n : ℤ) (a a' : AmpT) : Prop :=
  a'.size = a.size ∧ ∀ i c, locCell o s i = some c → Spec.Near c₀ n c → a'.val s i = a.val s i

theorem rel_size {o : Option LocT} {s : ℕ} {c₀ : Cell d} {n : ℤ} {a a' : Option AmpT}
    (h : Option.Rel (AmpT.SameNear o s c₀ n) a a') : a'.map AmpT.size = a.map AmpT.size := by
  cases h with
  | none => rfl
  | some h => exact congrArg some h.1

theorem locSum_near {P P' : Plan d} (hP : P'.ratio = P.ratio ∧ P'.ff = P.ff ∧ P'.tf = P.tf) {tt : Bool} {o : Option LocT}
    {a a' : Option AmpT} {s : ℕ} {c₀ : Cell d} {n : ℤ} (h : Option.Rel (AmpT.SameNear o s c₀ n) a a') (t : ℕ) {c : Cell d}
    (hc : Spec.Near c₀ n c) : (locSum o s fun i => upAmps P tt a s t i) c = locSum o s (fun i => upAmps P' tt a' s t i) c := by
  unfold locSum
  refine Finset.sum_congr rfl fun i _ => ?_
  by_cases e : locCell o s i = some c
  · rw [if_pos e, if_pos e]
    cases h with
    | none => rfl
    | @some a a' h =>
        have h1 : a'.nt = a.nt := congrArg (fun x => x.2.2) h.1
        simp only [upAmps, Scalar.upS, hP.1, hP.2.1, hP.2.2, h1, h.2 i c e hc]
  · rw [if_neg e, if_neg e]

/-- The model of a call near a cell. -/
theorem SetupArgs.Good.extend_near {A : SetupArgs d} {P : Plan d} (h : A.Good P) {m m' : ModelT d ℝ}
    (hm : m.shape = A.shape) {s : ℕ} {c₀ : Cell d} {n : ℤ} (hs : m.SameNear s c₀ n m')
    (h0 : ∀ k, (P.ext k).1 ≤ c₀ k ∧ c₀ k < (P.ext k).2) {c : Cell d} (hc : Spec.Near c₀ n c) :
    P.grid.extend (m.shot s) c = P.grid.extend (m'.shot s) c := by
  refine P.grid.extend_near (fun k => ?_) (fun c hi hc => hs.near c (fun k => ?_) hc) hc
  · have := h0 k
    show (P.ext k).1 ≤ c₀ k ∧ c₀ k ≤ (P.ext k).2 - 1
    omega
  · have h1 : (P.ext k).1 ≤ c k ∧ c k ≤ (P.ext k).2 - 1 := hi k
    have h2 := h.in_extents.1 k
    rw [hm]
    omega

theorem SetupArgs.Good.extendZero_near {A : SetupArgs d} {P : Plan d} (h : A.Good P) {m m' : ModelT d ℝ}
    (hm : m.shape = A.shape) {s : ℕ} {c₀ : Cell d} {n : ℤ} (hs : m.SameNear s c₀ n m') {c : Cell d}
    (hc : Spec.Near c₀ n c) : P.grid.extendZero (m.shot s) c = P.grid.extendZero (m'.shot s) c := by
  refine P.grid.extendZero_near (fun c hi hc => hs.near c (fun k => ?_) hc) hc
  have h1 : (P.ext k).1 ≤ c k ∧ c k ≤ (P.ext k).2 - 1 := hi k
  have h2 := h.in_extents.1 k
  rw [hm]
  omega

/-- The first samples of two traces agree: up to sample `T` if there is no internal time step, and all if `T` is the last
step. -/
def Plan.SameUntil (P : Plan d) (T : ℕ) (x x' : Sig ℝ) : Prop :=
  (P.steps ≤ T + 1 → x' = x) ∧ (P.ratio = 1 → ∀ t ≤ T, x'.val t = x.val t)

theorem same_until {A A' : SetupArgs d} {P P' : Plan d} (h : A.Good P) (h' : A'.Good P')
    (hP : P'.ratio = P.ratio ∧ P'.ff = P.ff ∧ P'.tf = P.tf) {tt : Bool} {T n : ℕ}
    {f f' : ℕ → ℝ} (hf : ∀ t ≤ T, f t = f' t) : P.SameUntil T (downS P tt ⟨n, fun t => if t < P.steps then f t else 0⟩)
      (downS P' tt ⟨n, fun t => if t < P.steps then f' t else 0⟩) := by
  constructor
  · intro hT
    have : (fun t => if t < P.steps then f t else 0) = fun t => if t < P.steps then f' t else 0 := by
      funext t
      by_cases ht : t < P.steps
      · rw [if_pos ht, if_pos ht, hf t (by omega)]
      · rw [if_neg ht, if_neg ht]
    rw [this]
    unfold downS
    rw [hP.1, hP.2.1, hP.2.2]
  · intro h1 t ht
    rw [downS_one h h1, downS_one h' (hP.1.trans h1)]
    show (if t < P.steps then f' t else 0) = if t < P.steps then f t else 0
    rw [hf t ht]

theorem locValue_near {o : Option LocT} {s i : ℕ} {c₀ : Cell d} (hc : locCell o s i = some c₀) (u : Fld d ℝ) :
    locValue o s i u = u c₀ := by
  unfold locValue
  rw [hc]

theorem setMaxVelR_or {o : Option PyNum} {x y v : ℝ} (h : setMaxVelR o x = .ok v) (hm : o ≠ none ∨ y = x) :
    setMaxVelR o y = .ok v := by
  rcases hm with hm | rfl
  · unfold setMaxVelR at h ⊢
    cases o with
    | none => exact absurd rfl hm
    | some x => exact h
  · exact h

theorem near_self (c₀ : Cell d) {n : ℤ} (hn : 0 ≤ n) : Spec.Near c₀ n c₀ := fun k => by simpa using hn

end Dw.Setup

namespace Dw.Scalar

open Setup Resample

variable {d : ℕ}

theorem exOne_cell (x y : ℕ) (i : ℕ) : locCell (some (exOne x y)) 0 i = some ![(x : ℤ), (y : ℤ)] := by
  unfold locCell
  dsimp only
  rw [if_neg fun h => exOne_whole (x := x) (y := y) (by positivity) (by positivity) 0 i 0 (by decide) (h 0 (by decide))]
  congr 1
  funext k
  fin_cases k
  · show trunc (x : ℚ) = x
    rw [trunc, if_pos (by positivity)]
    exact Int.floor_natCast x
  · show trunc (y : ℚ) = y
    rw [trunc, if_pos (by positivity)]
    exact Int.floor_natCast y

/-- The call with other values. -/
def UArgs.withModel (A : UArgs d) (v : ModelT d ℝ) (amps : Option AmpT) : UArgs d := { A with v := v, amps := amps }

/-- Its plan. -/
noncomputable def planModel (P : Plan d) (v : ModelT d ℝ) : Plan d :=
  { P with models := [modelOf P.ext (padList (d := d) (padBegin P.accZ P.wL) (padEnd false P.accZ P.wL)) (v, .replicate)] }

theorem good_model {A : UArgs d} {P : Plan d} (h : A.setup.Good P) (hnb : 0 < P.nb) {v : ModelT d ℝ} {amps : Option AmpT}
    (hv : v.nb = A.v.nb ∧ v.shape = A.v.shape) (ha : amps.map AmpT.size = A.amps.map AmpT.size)
    (hm : A.maxVel ≠ none ∨ maxAbs v = maxAbs A.v) : (A.withModel v amps).setup.Good (planModel P v) :=
  (h.withModels (ms := [(v, .replicate)]) (mv := maxAbs v) hnb
    (by show [(v.nb, v.shape, _)] = [(A.v.nb, A.v.shape, _)]; rw [hv.1, hv.2]) (setMaxVelR_or h.maxVel hm)).revalue
    (amps := [amps]) (wfs := A.setup.wfs) (by show [amps.map AmpT.size] = [A.amps.map AmpT.size]; rw [ha]) rfl

/-- **C126** Sample `t` of a trace of `scalar` only depends on the velocity and the sources at most `t` times half the
accuracy away from its receiver; this is for the time steps of the propagator, so with an internal time step it holds for
whole traces. `max_vel` should be given, as otherwise the maximum of the velocity changes the PML and the time step. -/
theorem C126_near (A : UArgs d) (P : Plan d) (s : ℕ) (cf : ℤ) (h : Fwd A P s cf) (v : ModelT d ℝ) (amps : Option AmpT)
    (hm : A.maxVel ≠ none ∨ maxAbs v = maxAbs A.v) (T i : ℕ) (hi : i < locCount A.rcv) (c₀ : Cell d)
    (hc₀ : locCell A.rcv s i = some c₀) (hv : A.v.SameNear s c₀ ((P.acc.order / 2 : ℕ) * T) v)
    (ha : Option.Rel (AmpT.SameNear A.src s c₀ ((P.acc.order / 2 : ℕ) * T)) A.amps amps) :
    ∃ r r', A.scalar s = .ok (some r) ∧ (A.withModel v amps).scalar s = .ok (some r') ∧
      P.SameUntil T (r.traces i) (r'.traces i) := by
  have hnb : 0 < P.nb := by have := h.lt; omega
  have hg := good_model h.good hnb ⟨hv.nb, hv.shape⟩ (rel_size ha) hm
  obtain ⟨r, u, psi, zeta, hc, hw, hI, -, ht⟩ := C90_scalar_scheme A P s cf (plan_ok.2 h.good) h.lt h.pml h.src h.rcv
    h.freq h.interval h.nt
  obtain ⟨r', u', psi', zeta', hc', hw', hI', -, ht'⟩ := C90_scalar_scheme _ _ s cf (plan_ok.2 hg) h.lt h.pml
    h.src h.rcv h.freq h.interval h.nt
  have hin := (rcv_placed h.good h.lt false (j := 0) rfl h.rcv).inside i hi c₀ hc₀
  have e := hw.near hw' (c₀ := c₀) (T := T) (fun c hc => h.good.extend_near rfl hv hin hc)
    (fun t c hc => locSum_near (P' := planModel P v) ⟨rfl, rfl, rfl⟩ ha t hc)
    (startsFrom_zero (P := P) (w := ⟨A.wfc, A.wfp, A.psi, A.zeta⟩) hw'.outside hw.outside hI' hI)
  refine ⟨r, r', hc, hc', ?_⟩
  rw [ht i hi, ht' i hi]
  refine same_until h.good hg ⟨rfl, rfl, rfl⟩ (f := fun t => locValue A.rcv s i (u (t + 1)))
    (f' := fun t => locValue A.rcv s i (u' (t + 1))) fun t hT => ?_
  rw [locValue_near hc₀, locValue_near hc₀]
  exact (e t hT c₀ (near_self c₀ (mul_nonneg P.grid.half_nonneg (by omega)))).2.1

/-- Another velocity in the first row of cells, which the receiver at (5, 4) only notices after the third sample. -/
example : ∃ r r', (exV 3).scalar 0 = .ok (some r) ∧
    ((exV 3).withModel ⟨none, ![7, 9], fun _ c => if c 0 = 0 then 500 else 990 + c 0⟩ (exV 3).amps).scalar 0 = .ok (some r') ∧
    ∀ t ≤ 2, (r'.traces 0).val t = (r.traces 0).val t := by
  obtain ⟨r, r', h1, h2, h3⟩ := C126_near (exV 3) _ 0 1 exV_fwd ⟨none, ![7, 9], fun _ c => if c 0 = 0 then 500 else 990 + c 0⟩
    (exV 3).amps (.inl (by simp [exV, exU])) 2 0 (by decide) ![5, 4] (exOne_cell 5 4 0) ⟨rfl, rfl, fun c _ hc => by
      have := abs_le.1 (hc 0)
      have h0 : ¬c 0 = 0 := fun h => by
        rw [h] at this
        exact absurd this (by decide)
      exact (if_neg h0).symm⟩ (.some ⟨rfl, fun _ _ _ _ => rfl⟩)
  exact ⟨r, r', h1, h2, h3.2 rfl⟩

/-- Another source, at (2, 3), which the receiver only notices after the second sample. -/
example : ∃ r r', (exV 3).scalar 0 = .ok (some r) ∧
    ((exV 3).withModel (exV 3).v (some ⟨1, 1, 6, fun _ _ _ => 77⟩)).scalar 0 = .ok (some r') ∧
    ∀ t ≤ 1, (r'.traces 0).val t = (r.traces 0).val t := by
  obtain ⟨r, r', h1, h2, h3⟩ := C126_near (exV 3) _ 0 1 exV_fwd (exV 3).v (some ⟨1, 1, 6, fun _ _ _ => 77⟩)
    (.inr rfl) 1 0 (by decide) ![5, 4] (exOne_cell 5 4 0) ⟨rfl, rfl, fun _ _ _ => rfl⟩ (.some ⟨rfl, fun i c h hc => by
      have e := Option.some.inj (h.symm.trans (exOne_cell 2 3 i))
      subst e
      exact absurd (hc 0) (by decide)⟩)
  exact ⟨r, r', h1, h2, h3.2 rfl⟩

end Dw.Scalar

namespace Dw.Born

open Setup Resample
open Scalar (upAmps maxAbs)

variable {d : ℕ}

/-- The call with other values. -/
def UArgs.withModels (A : UArgs d) (v scatter : ModelT d ℝ) (amps : Option AmpT) : UArgs d :=
  { A with v := v, scatter := scatter, amps := amps }

theorem good_models {A : UArgs d} {P : Plan d} (h : A.setup.Good P) (hnb : 0 < P.nb) {v scatter : ModelT d ℝ}
    {amps : Option AmpT} (hv : v.nb = A.v.nb ∧ v.shape = A.v.shape)
    (hs : scatter.nb = A.scatter.nb ∧ scatter.shape = A.scatter.shape) (ha : amps.map AmpT.size = A.amps.map AmpT.size)
    (hm : A.opts.maxVel ≠ none ∨ maxAbs v = maxAbs A.v) :
    (A.withModels v scatter amps).setup.Good (P.withModels false [(v, .replicate), (scatter, .constant)]) :=
  (h.withModels (ms := [(v, .replicate), (scatter, .constant)]) (mv := maxAbs v) hnb
    (by show [(v.nb, v.shape, _), (scatter.nb, scatter.shape, _)] = [(A.v.nb, A.v.shape, _), (A.scatter.nb, A.scatter.shape, _)]
        rw [hv.1, hv.2, hs.1, hs.2]) (setMaxVelR_or h.maxVel hm)).revalue
    (amps := [amps, amps]) (wfs := A.setup.wfs)
    (by show [amps.map AmpT.size, amps.map AmpT.size] = [A.amps.map AmpT.size, A.amps.map AmpT.size]; rw [ha]) rfl

/-- **C126** for `scalar_born`. -/
theorem C126_born_near (A : UArgs d) (P : Plan d) (s : ℕ) (cf : ℤ) (h : Fwd A P s cf) (v scatter : ModelT d ℝ)
    (amps : Option AmpT) (hm : A.opts.maxVel ≠ none ∨ maxAbs v = maxAbs A.v) (T : ℕ) (c₀ : Cell d)
    (hv : A.v.SameNear s c₀ ((P.acc.order / 2 : ℕ) * T) v)
    (hs : A.scatter.SameNear s c₀ ((P.acc.order / 2 : ℕ) * T) scatter)
    (ha : Option.Rel (AmpT.SameNear A.src s c₀ ((P.acc.order / 2 : ℕ) * T)) A.amps amps) :
    ∃ r r', A.born s = .ok (some r) ∧ (A.withModels v scatter amps).born s = .ok (some r') ∧
      (∀ i < locCount A.bgRcv, locCell A.bgRcv s i = some c₀ → P.SameUntil T (r.bgTraces i) (r'.bgTraces i)) ∧
      ∀ i < locCount A.rcv, locCell A.rcv s i = some c₀ → P.SameUntil T (r.traces i) (r'.traces i) := by
  have hnb : 0 < P.nb := by have := h.lt; omega
  have hg := good_models h.good hnb ⟨hv.nb, hv.shape⟩ ⟨hs.nb, hs.shape⟩ (rel_size ha) hm
  obtain ⟨r, u, psi, zeta, w, ps, ze, hc, hw, hsc, hi, hi2, -, -, hb, ht⟩ := C91_born_scheme A P s cf (plan_ok.2 h.good)
    h.lt h.pml h.loc h.freq h.interval h.nt
  obtain ⟨r', u', psi', zeta', w', ps', ze', hc', hw', hsc', hi', hi2', -, -, hb', ht'⟩ := C91_born_scheme _ _ s cf
    (plan_ok.2 hg) h.lt h.pml h.loc h.freq h.interval h.nt
  have hsh : A.scatter.shape = A.setup.shape := (((extractModels_iff hnb).1 h.good.models).1 _
    (List.mem_cons_of_mem _ List.mem_cons_self)).shape
  have key : (∀ k, (P.ext k).1 ≤ c₀ k ∧ c₀ k < (P.ext k).2) → ∀ t ≤ T, u (t + 1) c₀ = u' (t + 1) c₀ ∧ w (t + 1) c₀ = w' (t + 1) c₀ := by
    intro hin t hT
    have hq := fun t c hc => locSum_near (P := P) (P' := P.withModels false [(v, .replicate), (scatter, .constant)])
      (tt := A.opts.timeTaper) (c := c) ⟨rfl, rfl, rfl⟩ ha t hc
    have e := hw.near hw' (c₀ := c₀) (T := T) (fun c hc => h.good.extend_near rfl hv hin hc) hq
      (startsFrom_zero (P := P) (w := A.wf) hw'.outside hw.outside hi' hi)
    have e2 := hsc.near hsc' (c₀ := c₀) (T := T)
      (fun c hc => ⟨h.good.extend_near rfl hv hin hc, h.good.extendZero_near hsh hs hc⟩) hq e
      (startsFrom_zero (P := P) (w := A.wfsc) hsc'.outside hsc.outside hi2' hi2)
    have hn := near_self c₀ (n := P.grid.half * (T - t)) (mul_nonneg P.grid.half_nonneg (by omega))
    exact ⟨(e t hT c₀ hn).2.1, (e2 t hT c₀ hn).2.1⟩
  refine ⟨r, r', hc, hc', fun i hl hc₀ => ?_, fun i hl hc₀ => ?_⟩
  · have hin := (rcv_placed h.good h.lt false (j := 0) rfl fun l hl => h.loc l (.inr (.inr hl))).inside i hl c₀ hc₀
    rw [hb i hl, hb' i hl]
    refine same_until h.good hg ⟨rfl, rfl, rfl⟩ (f := fun t => locValue A.bgRcv s i (u (t + 1)))
      (f' := fun t => locValue A.bgRcv s i (u' (t + 1))) fun t hT => ?_
    rw [locValue_near hc₀, locValue_near hc₀]
    exact (key hin t hT).1
  · have hin := (rcv_placed h.good h.lt false (j := 1) rfl fun l hl => h.loc l (.inr (.inl hl))).inside i hl c₀ hc₀
    rw [ht i hl, ht' i hl]
    refine same_until h.good hg ⟨rfl, rfl, rfl⟩ (f := fun t => locValue A.rcv s i (w (t + 1)))
      (f' := fun t => locValue A.rcv s i (w' (t + 1))) fun t hT => ?_
    rw [locValue_near hc₀, locValue_near hc₀]
    exact (key hin t hT).2

theorem exLoc_cell : locCell (some exLoc) 0 0 = some ![2, 3] := by
  unfold locCell
  dsimp only
  rw [if_neg fun h => absurd (h 0 (by decide)) (by decide +kernel)]
  congr 1
  funext k
  revert k
  decide +kernel

/-- A model that is different in the last column of cells. -/
def exAway (m : ModelT 2 ℝ) : ModelT 2 ℝ := ⟨m.nb, m.shape, fun s c => if c 1 = 8 then 700 else m.val s c⟩

theorem exAway_near (m : ModelT 2 ℝ) : m.SameNear 0 ![2, 3] 4 (exAway m) :=
  ⟨rfl, rfl, fun c _ hc => by
    have := abs_le.1 (hc 1)
    have h0 : ¬c 1 = 8 := fun h => by
      rw [h] at this
      exact absurd this (by decide)
    exact (if_neg h0).symm⟩

/-- Other amplitudes for the other shot. -/
def exOther : AmpT := ⟨2, 2, 5, fun s i t => if s = 0 then exAmp.val s i t else 77⟩

theorem exOther_near (n : ℤ) : Option.Rel (AmpT.SameNear (some exLoc) 0 (![2, 3] : Cell 2) n) (some exAmp) (some exOther) :=
  .some ⟨rfl, fun _ _ _ _ => rfl⟩

example : ∃ r r', (exG true).born 0 = .ok (some r) ∧
    ((exG true).withModels (exAway (exG true).v) (exAway (exG true).scatter) (some exOther)).born 0 = .ok (some r') ∧
    ∀ t ≤ 2, (r'.traces 0).val t = (r.traces 0).val t := by
  obtain ⟨r, r', h1, h2, -, h3⟩ := C126_born_near (exG true) _ 0 1 (exG_fwd true 0 (by decide)) (exAway (exG true).v)
    (exAway (exG true).scatter) (some exOther) (.inl (by simp [exG, exU, exO1, exO])) 2 ![2, 3] (exAway_near _) (exAway_near _)
    (exOther_near _)
  exact ⟨r, r', h1, h2, (h3 0 (by decide) exLoc_cell).2 rfl⟩

end Dw.Born

namespace Dw.Acoustic

open Setup Resample
open Scalar (upAmps maxAbs)

variable {d : ℕ}

/-- The call with other values. -/
def UArgs.withModels (A : UArgs d) (v rho : ModelT d ℝ) (ampP : Option AmpT) (ampV : Fin d → Option AmpT) : UArgs d :=
  { A with v := v, rho := rho, ampP := ampP, ampV := ampV }

theorem good_models {A : UArgs d} {P : Plan d} (h : A.setup.Good P) (hnb : 0 < P.nb) {v rho : ModelT d ℝ}
    {ampP : Option AmpT} {ampV : Fin d → Option AmpT} (hv : v.nb = A.v.nb ∧ v.shape = A.v.shape)
    (hs : rho.nb = A.rho.nb ∧ rho.shape = A.rho.shape) (ha : ampP.map AmpT.size = A.ampP.map AmpT.size)
    (hb : ∀ k, (ampV k).map AmpT.size = (A.ampV k).map AmpT.size) (hm : A.opts.maxVel ≠ none ∨ maxAbs v = maxAbs A.v) :
    (A.withModels v rho ampP ampV).setup.Good (P.withModels true [(v, .replicate), (rho, .replicate)]) :=
  (h.withModels (ms := [(v, .replicate), (rho, .replicate)]) (mv := maxAbs v) hnb
    (by show [(v.nb, v.shape, _), (rho.nb, rho.shape, _)] = [(A.v.nb, A.v.shape, _), (A.rho.nb, A.rho.shape, _)]
        rw [hv.1, hv.2, hs.1, hs.2]) (setMaxVelR_or h.maxVel hm)).revalue
    (amps := ampP :: List.ofFn ampV) (wfs := A.setup.wfs)
    (by simp only [UArgs.setup, Opts.setup, List.map_cons, List.map_ofFn, Function.comp_def, ha, hb]) rfl

/-- **C126** for `acoustic`: here pressure and particle velocity each move half the accuracy in a time step. -/
theorem C126_acoustic_near (A : UArgs d) (P : Plan d) (s : ℕ) (cf : ℤ) (h : Fwd A P s cf) (v rho : ModelT d ℝ)
    (ampP : Option AmpT) (ampV : Fin d → Option AmpT) (hm : A.opts.maxVel ≠ none ∨ maxAbs v = maxAbs A.v) (T : ℕ) (c₀ : Cell d)
    (hv : A.v.SameNear s c₀ (2 * (P.acc.order / 2 : ℕ) * T) v) (hr : A.rho.SameNear s c₀ (2 * (P.acc.order / 2 : ℕ) * T) rho)
    (ha : Option.Rel (AmpT.SameNear A.srcP s c₀ (2 * (P.acc.order / 2 : ℕ) * T)) A.ampP ampP)
    (hb : ∀ k, Option.Rel (AmpT.SameNear (A.srcV k) s c₀ (2 * (P.acc.order / 2 : ℕ) * T)) (A.ampV k) (ampV k)) :
    ∃ r r', A.acoustic s = .ok (some r) ∧ (A.withModels v rho ampP ampV).acoustic s = .ok (some r') ∧
      (∀ i < locCount A.rcvP, locCell A.rcvP s i = some c₀ → P.SameUntil T (r.tracesP i) (r'.tracesP i)) ∧
      ∀ k, ∀ i < locCount (A.rcvV k), locCell (A.rcvV k) s i = some c₀ → P.SameUntil T (r.tracesV k i) (r'.tracesV k i) := by
  have hnb : 0 < P.nb := by have := h.lt; omega
  have hg := good_models h.good hnb ⟨hv.nb, hv.shape⟩ ⟨hr.nb, hr.shape⟩ (rel_size ha) (fun k => rel_size (hb k)) hm
  have hpre : ¬(A.withModels v rho ampP ampV).Pre := by
    have := h.pre
    unfold UArgs.Pre Scalar.NoElements at this ⊢
    simp only [UArgs.withModels, hv.nb, hv.shape]
    exact this
  obtain ⟨r, p, w, phi, psi, hc, hw, hi, -, hp, hq⟩ := C92_acoustic_scheme A P s cf (plan_ok.2 h.good) h.pre
    h.lt h.pml h.loc h.last h.freq h.interval h.nt
  obtain ⟨r', p', w', phi', psi', hc', hw', hi', -, hp', hq'⟩ := C92_acoustic_scheme _ _ s cf (plan_ok.2 hg) hpre
    h.lt h.pml h.loc (fun k => by
      have := h.last k
      rw [← hv.shape] at this
      exact this) h.freq h.interval h.nt
  have hsh : A.rho.shape = A.setup.shape := (((extractModels_iff hnb).1 h.good.models).1 _
    (List.mem_cons_of_mem _ List.mem_cons_self)).shape
  have hhalf := P.grid.half_pos
  have key : (∀ k, (P.ext k).1 ≤ c₀ k ∧ c₀ k < (P.ext k).2) → ∀ t ≤ T, p t c₀ = p' t c₀ ∧ ∀ k, w t k c₀ = w' t k c₀ := by
    intro hin t hT
    have hrho : ∀ c, Spec.Near c₀ (2 * P.grid.half * T) c → _ := fun c hc => h.good.extend_near hsh hr hin hc
    have e := hw.near hw' (c₀ := c₀) (T := T)
      (fun c hc => by rw [hrho c hc, h.good.extend_near rfl hv hin hc]; rfl)
      (fun k c hc => congrArg (Spec.inverse A.rfmax) (Spec.mean_near hrho k (hc.mono (by omega))))
      (fun t c hc => ⟨locSum_near (P' := P.withModels true [(v, .replicate), (rho, .replicate)]) ⟨rfl, rfl, rfl⟩ ha t hc,
        fun k => locSum_near (P' := P.withModels true [(v, .replicate), (rho, .replicate)]) ⟨rfl, rfl, rfl⟩ (hb k) t hc⟩)
      (Starts.eq (P := P) (w := A.wf) hw.outside hw'.outside hi hi') t hT c₀
      (near_self c₀ (mul_nonneg (by omega) (by omega)))
    exact ⟨e.1, fun k => (e.2 k).1⟩
  refine ⟨r, r', hc, hc', fun i hl hc₀ => ?_, fun k i hl hc₀ => ?_⟩
  · have hin := (rcv_placed h.good h.lt false (j := 0) rfl fun l hl => h.loc l
      (List.mem_append_right _ (List.mem_of_getElem? (i := 0) (congrArg some hl)))).inside i hl c₀ hc₀
    rw [hp i hl, hp' i hl]
    refine same_until h.good hg ⟨rfl, rfl, rfl⟩ (f := fun t => locValue A.rcvP s i (p t))
      (f' := fun t => locValue A.rcvP s i (p' t)) fun t hT => ?_
    rw [locValue_near hc₀, locValue_near hc₀]
    exact (key hin t hT).1
  · have hin := (rcv_placed h.good h.lt false (j := k + 1) (o := A.rcvV k) (ofFn_get.2 ⟨k.isLt, rfl⟩) fun l hl => h.loc l
      (List.mem_append_right _ (List.mem_cons_of_mem _ (List.mem_ofFn.2 ⟨k, hl⟩)))).inside i hl c₀ hc₀
    rw [hq k i hl, hq' k i hl]
    refine same_until h.good hg ⟨rfl, rfl, rfl⟩ (f := fun t => locValue (A.rcvV k) s i (w t k))
      (f' := fun t => locValue (A.rcvV k) s i (w' t k)) fun t hT => ?_
    rw [locValue_near hc₀, locValue_near hc₀]
    exact (key hin t hT).2 k

open Born (exAway exAway_near exOther exOther_near exLoc_cell) in
example : ∃ r r', exG.acoustic 0 = .ok (some r) ∧
    (exG.withModels (exAway exG.v) (exAway exG.rho) (some exOther) ![none, some exOther]).acoustic 0 = .ok (some r') ∧
    ∀ t ≤ 1, (r'.tracesP 0).val t = (r.tracesP 0).val t ∧ (r'.tracesV 0 0).val t = (r.tracesV 0 0).val t := by
  obtain ⟨r, r', h1, h2, h3, h4⟩ := C126_acoustic_near exG _ 0 1 (exG_fwd 0 (by decide)) (exAway exG.v)
    (exAway exG.rho) (some exOther) ![none, some exOther] (.inl (by simp [exG, exU, exO1, exO])) 1 ![2, 3] (exAway_near _)
    (exAway_near _) (exOther_near _) (Fin.forall_fin_two.2 ⟨.none, exOther_near _⟩)
  exact ⟨r, r', h1, h2, fun t ht => ⟨(h3 0 (by decide) exLoc_cell).2 rfl t ht, (h4 0 0 (by decide) exLoc_cell).2 rfl t ht⟩⟩

end Dw.Acoustic

namespace Dw.Elastic

open Setup Resample
open Scalar (upAmps)

variable {d : ℕ}

/-- The call with other values. -/
def UArgs.withModels (A : UArgs d) (lam mu buoyancy : ModelT d ℝ) (ampV : Fin d → Option AmpT) (ampP : Option AmpT) : UArgs d :=
  { A with lam := lam, mu := mu, buoyancy := buoyancy, ampP := ampP, ampV := ampV }

theorem good_models {A : UArgs d} {P : Plan d} (h : A.setup.Good P) (hnb : 0 < P.nb) {lam mu buoyancy : ModelT d ℝ}
    {ampV : Fin d → Option AmpT} {ampP : Option AmpT} (hl : lam.nb = A.lam.nb ∧ lam.shape = A.lam.shape)
    (hu : mu.nb = A.mu.nb ∧ mu.shape = A.mu.shape) (hs : buoyancy.nb = A.buoyancy.nb ∧ buoyancy.shape = A.buoyancy.shape)
    (ha : ampP.map AmpT.size = A.ampP.map AmpT.size)
    (hb : ∀ k, (ampV k).map AmpT.size = (A.ampV k).map AmpT.size)
    (hm : A.opts.maxVel ≠ none ∨ (A.withModels lam mu buoyancy ampV ampP).maxModelVel = A.maxModelVel) :
    (A.withModels lam mu buoyancy ampV ampP).setup.Good
      (P.withModels true [(lam, .replicate), (mu, .replicate), (buoyancy, .replicate)]) :=
  (h.withModels (ms := [(lam, .replicate), (mu, .replicate), (buoyancy, .replicate)])
    (mv := (A.withModels lam mu buoyancy ampV ampP).maxModelVel) hnb
    (by show [(lam.nb, lam.shape, _), (mu.nb, mu.shape, _), (buoyancy.nb, buoyancy.shape, _)] =
          [(A.lam.nb, A.lam.shape, _), (A.mu.nb, A.mu.shape, _), (A.buoyancy.nb, A.buoyancy.shape, _)]
        rw [hl.1, hl.2, hs.1, hs.2, hu.1, hu.2]) (setMaxVelR_or h.maxVel hm)).revalue
    (amps := List.ofFn ampV ++ [ampP]) (wfs := A.setup.wfs)
    (by simp only [UArgs.setup, Opts.setup, List.map_append, List.map_cons, List.map_nil, List.map_ofFn, Function.comp_def, ha,
      hb]) rfl

/-- **C126** for `elastic`. -/
theorem C126_elastic_near (A : UArgs d) (P : Plan d) (s : ℕ) (cf : ℤ) (h : Fwd A P s cf) (lam mu buoyancy : ModelT d ℝ)
    (ampV : Fin d → Option AmpT) (ampP : Option AmpT)
    (hm : A.opts.maxVel ≠ none ∨ (A.withModels lam mu buoyancy ampV ampP).maxModelVel = A.maxModelVel) (T : ℕ) (c₀ : Cell d)
    (hl : A.lam.SameNear s c₀ (2 * (P.acc.order / 2 : ℕ) * T) lam) (hu : A.mu.SameNear s c₀ (2 * (P.acc.order / 2 : ℕ) * T) mu)
    (hr : A.buoyancy.SameNear s c₀ (2 * (P.acc.order / 2 : ℕ) * T) buoyancy)
    (hb : ∀ k, Option.Rel (AmpT.SameNear (A.srcV k) s c₀ (2 * (P.acc.order / 2 : ℕ) * T)) (A.ampV k) (ampV k))
    (ha : Option.Rel (AmpT.SameNear A.srcP s c₀ (2 * (P.acc.order / 2 : ℕ) * T)) A.ampP ampP) :
    ∃ r r', A.elastic s = .ok (some r) ∧ (A.withModels lam mu buoyancy ampV ampP).elastic s = .ok (some r') ∧
      (∀ i < locCount A.rcvP, locCell A.rcvP s i = some c₀ → P.SameUntil T (r.tracesP i) (r'.tracesP i)) ∧
      ∀ k, ∀ i < locCount (A.rcvV k), locCell (A.rcvV k) s i = some c₀ → P.SameUntil T (r.tracesV k i) (r'.tracesV k i) := by
  have hnb : 0 < P.nb := by have := h.lt; omega
  have hg := good_models h.good hnb ⟨hl.nb, hl.shape⟩ ⟨hu.nb, hu.shape⟩ ⟨hr.nb, hr.shape⟩ (rel_size ha)
    (fun k => rel_size (hb k)) hm
  have hpre : ¬(A.withModels lam mu buoyancy ampV ampP).Pre := by
    have := h.pre
    unfold UArgs.Pre Scalar.NoElements at this ⊢
    simp only [UArgs.withModels, hl.nb, hl.shape, hu.nb, hu.shape, hr.nb, hr.shape]
    exact this
  obtain ⟨r, w, sig, mv, ms, hc, hw, hi, -, hp, hq⟩ := C93_elastic_scheme A P s cf (plan_ok.2 h.good) h.pre
    h.lt h.pml h.loc h.last h.freq h.interval h.nt
  obtain ⟨r', w', sig', mv', ms', hc', hw', hi', -, hp', hq'⟩ := C93_elastic_scheme _ _ s cf (plan_ok.2 hg) hpre
    h.lt h.pml h.loc (fun k => by
      have := h.last k
      rw [← hl.shape] at this
      exact this) h.freq h.interval h.nt
  have hmem : ∀ m ∈ A.setup.models, m.1.shape = A.setup.shape := fun m hm =>
    (((extractModels_iff hnb).1 h.good.models).1 m hm).shape
  have hshu : A.mu.shape = A.setup.shape := hmem (A.mu, .replicate) (List.mem_cons_of_mem _ List.mem_cons_self)
  have hshr : A.buoyancy.shape = A.setup.shape := hmem (A.buoyancy, .replicate)
    (List.mem_cons_of_mem _ (List.mem_cons_of_mem _ List.mem_cons_self))
  have hhalf := P.grid.half_pos
  have key : (∀ k, (P.ext k).1 ≤ c₀ k ∧ c₀ k < (P.ext k).2) → ∀ t ≤ T, ∀ k, w t k c₀ = w' t k c₀ ∧ sig t k k c₀ = sig' t k k c₀ := by
    intro hin t hT
    have hmu : ∀ c, Spec.Near c₀ (2 * P.grid.half * T) c → _ := fun c hc => h.good.extend_near hshu hu hin hc
    have hrho : ∀ c, Spec.Near c₀ (2 * P.grid.half * T) c → _ := fun c hc =>
      congrArg (Spec.inverse A.rfmax) (h.good.extend_near hshr hr hin hc)
    have e := hw.near hw' (c₀ := c₀) (T := T)
      (fun c hc => ⟨h.good.extend_near rfl hl hin hc, hmu c hc⟩)
      (fun i j c hc => Spec.harmonic_near hmu A.rfmax i j (hc.mono (by omega)))
      (fun k c hc => congrArg (Spec.inverse A.rfmax) (Spec.mean_near hrho k (hc.mono (by omega))))
      (fun t c hc => ⟨locSum_near (P' := P.withModels true [(lam, .replicate), (mu, .replicate), (buoyancy, .replicate)])
        ⟨rfl, rfl, rfl⟩ ha t hc, fun k => locSum_near
        (P' := P.withModels true [(lam, .replicate), (mu, .replicate), (buoyancy, .replicate)]) ⟨rfl, rfl, rfl⟩ (hb k) t hc⟩)
      (Starts.eq (P := P) (w := A.wf) hw.symm hw'.symm hw.outside hw'.outside hi hi') t hT c₀
      (near_self c₀ (mul_nonneg (by omega) (by omega)))
    exact fun k => ⟨(e k).1, ((e k).2 k).1⟩
  refine ⟨r, r', hc, hc', fun i hl hc₀ => ?_, fun k i hl hc₀ => ?_⟩
  · have hin := (rcv_placed h.good h.lt false (j := d) (o := A.rcvP) (by
      simp [UArgs.setup, Opts.setup]) fun l hl => h.loc l
      (List.mem_append_right _ (List.mem_append_right _ (List.mem_singleton.2 hl.symm)))).inside i hl c₀ hc₀
    rw [hp i hl, hp' i hl]
    have e := same_until h.good hg ⟨rfl, rfl, rfl⟩ (tt := A.opts.timeTaper) (n := P.nt.toNat)
      (f := fun t => locValue A.rcvP s i fun c => ∑ k, sig t k k c)
      (f' := fun t => locValue A.rcvP s i fun c => ∑ k, sig' t k k c) (T := T) fun t hT => by
        rw [locValue_near hc₀, locValue_near hc₀]
        exact Finset.sum_congr rfl fun k _ => (key hin t hT k).2
    refine ⟨fun hT => ?_, fun h1 t ht => ?_⟩
    · have := e.1 hT
      exact congrArg (fun y : Sig ℝ => (⟨y.len, fun t => -y.val t / d⟩ : Sig ℝ)) this
    · have := e.2 h1 t ht
      exact congrArg (fun y => -y / (d : ℝ)) this
  · have hin := (rcv_placed h.good h.lt false (j := k) (o := A.rcvV k) (by
      simp [UArgs.setup, Opts.setup]) fun l hl => h.loc l
      (List.mem_append_right _ (List.mem_append_left _ (List.mem_ofFn.2 ⟨k, hl⟩)))).inside i hl c₀ hc₀
    rw [hq k i hl, hq' k i hl]
    refine same_until h.good hg ⟨rfl, rfl, rfl⟩ (f := fun t => locValue (A.rcvV k) s i (w t k))
      (f' := fun t => locValue (A.rcvV k) s i (w' t k)) fun t hT => ?_
    rw [locValue_near hc₀, locValue_near hc₀]
    exact (key hin t hT k).1

open Born (exAway exAway_near exOther exOther_near exLoc_cell) in
example : ∃ r r', exG.elastic 0 = .ok (some r) ∧
    (exG.withModels (exAway exG.lam) (exAway exG.mu) (exAway exG.buoyancy) ![none, some exOther] (some exOther)).elastic 0 =
      .ok (some r') ∧
    ∀ t ≤ 1, (r'.tracesP 0).val t = (r.tracesP 0).val t ∧ (r'.tracesV 0 0).val t = (r.tracesV 0 0).val t := by
  obtain ⟨r, r', h1, h2, h3, h4⟩ := C126_elastic_near exG _ 0 1 (exG_fwd 0 (by decide)) (exAway exG.lam) (exAway exG.mu)
    (exAway exG.buoyancy) ![none, some exOther] (some exOther) (.inl (by simp [exG, exU, exO1, exO])) 1 ![2, 3]
    (exAway_near _) (exAway_near _) (exAway_near _) (Fin.forall_fin_two.2 ⟨.none, exOther_near _⟩) (exOther_near _)
  exact ⟨r, r', h1, h2, fun t ht => ⟨(h3 0 (by decide) exLoc_cell).2 rfl t ht, (h4 0 0 (by decide) exLoc_cell).2 rfl t ht⟩⟩

end Dw.Elastic
