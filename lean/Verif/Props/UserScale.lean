import Verif.Spec.Scale
import Verif.Props.UserFluid
import Verif.Props.UserMirrorMore

/-!
# C133: all lengths and times multiplied by the same number

A call with grid spacing, time step and the inverse of the PML frequency multiplied by the same number gives the same waves,
as velocities do not change; the source amplitudes have to be divided by the square of the number (`scalar`, `scalar_born`) or
by the number (`acoustic`, `elastic`), and the memory variables of the PML change as derivatives do.
-/

namespace Dw.Setup

open Scalar (upAmps)
open Resample (Sig)

variable {d : ℕ}

/-- Numbers, amplitudes and wavefields multiplied by a number. -/
def PyNum.times (q : ℚ) : PyNum → PyNum
  | .int z => .float (z * q)
  | .float x => .float (x * q)
  | .other => .other

def PyArg.times (q : ℚ) : PyArg → PyArg
  | .one x => .one (x.times q)
  | .seq l => .seq (l.map (PyNum.times q))

def AmpT.times (x : ℝ) (a : AmpT) : AmpT := { a with val := fun s i t => x * a.val s i t }
def WfT.times (x : ℝ) (w : WfT d) : WfT d := { w with val := fun s c => x * w.val s c }

theorem PyNum.times_toFloat (q : ℚ) (x : PyNum) : (x.times q).toFloat = x.toFloat.map (· * q) := by
  cases x <;> rfl

theorem times_ampSize (x : ℝ) (a : Option AmpT) : (a.map (AmpT.times x)).map AmpT.size = a.map AmpT.size := by
  cases a <;> rfl

theorem times_wfSize (x : ℝ) (w : Option (WfT d)) : (w.map (WfT.times x)).map WfT.size = w.map WfT.size := by
  cases w <;> rfl

theorem upAmps_times {A : SetupArgs d} {P : Plan d} (h : A.Good P) (tt : Bool) (x : ℝ) (a : Option AmpT) (s t i : ℕ) :
    upAmps P tt (a.map (AmpT.times x)) s t i = x * upAmps P tt a s t i := by
  cases a with
  | none => simp [upAmps]
  | some a =>
      have := Scalar.upS_comb h tt x 0 ⟨a.nt, a.val s i⟩ ⟨a.nt, a.val s i⟩ rfl
      have := congrArg (fun x : Sig ℝ => x.val t) this
      simp only [Sig.comb, zero_mul, add_zero] at this
      exact this

theorem given_times (P : Plan d) (x : ℝ) (w : Option (WfT d)) (s : ℕ) (c : Cell d) :
    P.given (w.map (WfT.times x)) s c = x * P.given w s c := by
  cases w with
  | none => exact (mul_zero x).symm
  | some w => rfl

/-! ### The setup -/

theorem setGridSpacing_times {g : PyArg} {r : List ℚ} (h : setGridSpacing g d = .ok r) {q : ℚ} (hq : 0 < q) :
    setGridSpacing (g.times q) d = .ok (r.map (· * q)) := by
  obtain ⟨⟨h1, h2⟩, h3⟩ := (C35_grid_spacing g d r).1 h
  refine (C35_grid_spacing _ _ _).2 ⟨⟨by rw [List.length_map, h1], ?_⟩, fun y hy => ?_⟩
  · cases g with
    | one x =>
        obtain ⟨y, hy, rfl⟩ := h2
        exact ⟨y * q, by unfold PyNum.Is at hy ⊢; rw [PyNum.times_toFloat, hy]; rfl, List.map_replicate⟩
    | seq l =>
        show (l.map (PyNum.times q)).map PyNum.toFloat = _
        rw [List.map_map, List.map_map]
        have e : PyNum.toFloat ∘ PyNum.times q = Option.map (· * q) ∘ PyNum.toFloat := funext fun x => PyNum.times_toFloat q x
        rw [e, ← List.map_map, h2, List.map_map]
        rfl
  · obtain ⟨x, hx, rfl⟩ := List.mem_map.1 hy
    exact mul_pos (h3 x hx) hq

theorem maxDt_times (dx : List ℝ) (v eps c : ℝ) {q : ℝ} (hq : 0 < q) :
    maxDt (dx.map (· * q)) v eps c = maxDt dx v eps c * q := by
  unfold maxDt
  have e : ((dx.map (· * q)).map fun h => 1 / h ^ 2).sum = (dx.map fun h => 1 / h ^ 2).sum / q ^ 2 := by
    induction dx with
    | nil => simp
    | cons a l ih =>
      simp only [List.map_cons, List.sum_cons, ih]
      rw [add_div, mul_pow]
      congr 1
      rw [div_div]
  rw [e, Real.sqrt_div' _ (by positivity), Real.sqrt_sq hq.le, div_div_eq_mul_div]
  ring

theorem cfl_times {dx : List ℝ} {dt v : ℝ} {r : ℝ × ℤ} (h : cflConditionN dx dt v = .ok r) {q : ℝ} (hq : 0 < q) :
    cflConditionN (dx.map (· * q)) (dt * q) v = .ok (r.1 * q, r.2) := by
  unfold cflConditionN at h ⊢
  by_cases h1 : dx = []
  · rw [if_pos h1] at h; cases h
  rw [if_neg h1] at h
  rw [if_neg (by simpa using h1)]
  by_cases h2 : ∃ g ∈ dx, g ≤ 0
  · rw [if_pos h2] at h; cases h
  rw [if_neg h2] at h
  have h2' : ¬∃ g ∈ dx.map (· * q), g ≤ 0 := by
    rintro ⟨g, hg, hg'⟩
    obtain ⟨x, hx, rfl⟩ := List.mem_map.1 hg
    exact h2 ⟨x, hx, by
      by_contra hx'
      exact absurd hg' (not_le.2 (mul_pos (not_le.1 hx') hq))⟩
  rw [if_neg h2']
  by_cases h3 : v ≤ 0
  · rw [if_pos h3] at h; cases h
  rw [if_neg h3] at h ⊢
  rw [maxDt_times _ _ _ _ hq, abs_mul, abs_of_pos hq, mul_div_mul_right _ _ hq.ne']
  dsimp only at h ⊢
  split_ifs at h ⊢ with h4
  cases h
  rw [mul_div_right_comm]

/-- The plan with grid spacing, time step and the inverse of the PML frequency multiplied by `q`. -/
noncomputable def Plan.scale (P : Plan d) (q : ℚ) : Plan d :=
  { P with dxL := P.dxL.map (· * q), dt := P.dt * q, freq := P.freq / q }

theorem SetupArgs.Good.scale {A : SetupArgs d} {P : Plan d} (h : A.Good P) {q : ℚ} (hq : 0 < q) {amps : List (Option AmpT)}
    {wfs : List (Option (WfT d))} (ha : amps.map (Option.map AmpT.size) = A.amps.map (Option.map AmpT.size))
    (hw : wfs.map (Option.map WfT.size) = A.wfs.map (Option.map WfT.size)) :
    ({ A with
      gridSpacing := A.gridSpacing.times q, dt := A.dt * q, pmlFreq := some (.float (P.freq / q))
      amps := amps, wfs := wfs } : SetupArgs d).Good (P.scale q) := by
  have hf : ¬A.dt / P.ratio = 0 ∧ 0 ≤ P.freq := by
    obtain ⟨⟨x, hx, h1⟩, h2, -⟩ := (C35_pml_freq _ _ _).1 h.freq
    cases hx
    exact ⟨h1, h2⟩
  have hg : ({ A with
      gridSpacing := A.gridSpacing.times q, dt := A.dt * q, pmlFreq := some (.float (P.freq / q)) } : SetupArgs d).Good
      (P.scale q) :=
    { h with
      dx := setGridSpacing_times h.dx hq
      cfl := by
        have := cfl_times h.cfl (q := (q : ℝ)) (by exact_mod_cast hq)
        rw [List.map_map] at this
        show cflConditionN ((P.dxL.map (· * q)).map fun q : ℚ => (q : ℝ)) ((A.dt * q : ℚ) : ℝ) P.maxVel = _
        rw [List.map_map, Rat.cast_mul]
        have e : (fun x : ℚ => (x : ℝ)) ∘ (· * q) = (· * (q : ℝ)) ∘ fun x : ℚ => (x : ℝ) :=
          funext fun x => Rat.cast_mul x q
        rw [e]
        exact this
      freq := by
        show setPmlFreq (some (.float (P.freq / q))) (.float (A.dt * q / P.ratio)) = .ok (P.freq / q)
        simp only [setPmlFreq, PyNum.toFloat]
        rw [if_neg (by rw [mul_div_right_comm]; exact mul_ne_zero hf.1 hq.ne'),
          Option.getD_some, if_neg (not_lt.2 (div_nonneg hf.2 hq.le))] }
  exact hg.revalue ha hw

theorem Plan.grid_scale (P : Plan d) (q : ℚ) : (P.scale q).grid = P.grid.scale q := by
  have e : (P.scale q).dx = fun k => P.dx k * q := by
    funext k
    show (((P.dxL.map (· * q)).getD k 0 : ℚ) : ℝ) = ((P.dxL.getD k 0 : ℚ) : ℝ) * q
    rw [← Rat.cast_mul, ← List.getD_map (f := (· * q)), zero_mul]
  show Spec.Grid.mk _ (P.scale q).dx _ _ _ _ _ _ (((P.freq / q : ℚ)) : ℝ) = _
  rw [e, Rat.cast_div]
  rfl

theorem pmlOk_scale {P : Plan d} (h : Scalar.PmlOk P) {q : ℚ} (hq : 0 < q) : Scalar.PmlOk (P.scale q) :=
  h.imp (fun h => div_pos h hq) id

theorem locSum_times {A : SetupArgs d} {P : Plan d} (h : A.Good P) (tt : Bool) (x : ℝ) (o : Option LocT) (a : Option AmpT)
    (s t : ℕ) (q : ℚ) : (locSum (d := d) o s fun i => upAmps (P.scale q) tt (a.map (AmpT.times x)) s t i) =
      fun c => x * locSum o s (fun i => upAmps P tt a s t i) c := by
  funext c
  exact locSum_scale (m := fun _ => x) c fun i _ c _ => upAmps_times h tt x a s t i

/-! ### Scalar wavefields -/

end Dw.Setup

namespace Dw.Born

open Setup

variable {d : ℕ}

/-- Initial wavefields with the memory variables divided by `q` and its square. -/
noncomputable def UWf.scale (w : UWf d) (q : ℝ) : UWf d :=
  { w with
    psi := fun k => (w.psi k).map (WfT.times (1 / q)), zeta := fun k => (w.zeta k).map (WfT.times (1 / q ^ 2)) }

theorem UWf.scale_size (w : UWf d) (q : ℝ) : (w.scale q).list.map (Option.map WfT.size) = w.list.map (Option.map WfT.size) := by
  simp only [UWf.list, UWf.scale, List.map_append, List.map_cons, List.map_nil, List.map_ofFn, Function.comp_def, times_wfSize]

end Dw.Born

namespace Dw.Scalar

open Setup Resample

variable {d : ℕ}

/-- Wavefields with the memory variables divided by `q` and its square. -/
noncomputable def Wavefields.scale (w : Wavefields d ℝ) (q : ℝ) : Wavefields d ℝ :=
  { w with psi := fun k c => 1 / q * w.psi k c, zeta := fun k c => 1 / q ^ 2 * w.zeta k c }

theorem startsFrom_scale {P : Plan d} {s : ℕ} {w : Born.UWf d} {u : ℕ → Fld d ℝ} {psi zeta : ℕ → Fin d → Fld d ℝ} (q : ℚ)
    (h : P.StartsFrom s w u psi zeta) : (P.scale q).StartsFrom s (w.scale q) u (fun t k c => 1 / (q : ℝ) * psi t k c)
      fun t k c => 1 / (q : ℝ) ^ 2 * zeta t k c := by
  intro c hc
  obtain ⟨h1, h2, h3⟩ := h c hc
  refine ⟨h1, h2, fun k => ⟨fun hb => ?_, fun hb => ?_⟩⟩ <;> dsimp only
  · rw [((h3 k).1 hb).1, ((h3 k).1 hb).2, mul_zero, mul_zero]
    exact ⟨rfl, rfl⟩
  · rw [((h3 k).2 hb).1, ((h3 k).2 hb).2]
    exact ⟨(given_times P _ _ s c).symm, (given_times P _ _ s c).symm⟩

theorem endsIn_scale {P : Plan d} {N : ℕ} {o : Wavefields d ℝ} {u : ℕ → Fld d ℝ} {psi zeta : ℕ → Fin d → Fld d ℝ} (q : ℚ)
    (h : P.EndsIn N o u psi zeta) : (P.scale q).EndsIn N (o.scale q) u (fun t k c => 1 / (q : ℝ) * psi t k c)
      fun t k c => 1 / (q : ℝ) ^ 2 * zeta t k c := fun c =>
  ⟨(h c).1, (h c).2.1, fun k => ⟨congrArg (1 / (q : ℝ) * ·) ((h c).2.2 k).1, congrArg (1 / (q : ℝ) ^ 2 * ·) ((h c).2.2 k).2⟩⟩

/-- The call with grid spacing and time step multiplied by `q`, PML frequency `f / q`, and amplitudes and memory variables
to match. -/
noncomputable def UArgs.scale (A : UArgs d) (q f : ℚ) : UArgs d :=
  { A with
    gridSpacing := A.gridSpacing.times q, dt := A.dt * q, pmlFreq := some (.float (f / q))
    amps := A.amps.map (AmpT.times (1 / (q : ℝ) ^ 2))
    psi := fun k => (A.psi k).map (WfT.times (1 / (q : ℝ)))
    zeta := fun k => (A.zeta k).map (WfT.times (1 / (q : ℝ) ^ 2)) }

/-- **C133** A call of `scalar` with grid spacing and time step multiplied by `q`, the PML frequency divided by `q`, and the
amplitudes divided by `q ^ 2` gives the same traces and wavefields; only the memory variables are divided by `q` and
`q ^ 2`. -/
theorem C133_scalar_scale (A : UArgs d) (P : Plan d) (s : ℕ) (cf : ℤ) (h : Fwd A P s cf) (q : ℚ) (hq : 0 < q) :
    ∃ r r', A.scalar s = .ok (some r) ∧ (A.scale q P.freq).scalar s = .ok (some r') ∧
      r'.out = r.out.scale q ∧ ∀ i < locCount A.rcv, r'.traces i = r.traces i := by
  have hq' : (0 : ℝ) < q := by exact_mod_cast hq
  have hg : (A.scale q P.freq).setup.Good (P.scale q) := h.good.scale hq
    (amps := [A.amps.map (AmpT.times (1 / (q : ℝ) ^ 2))])
    (wfs := (Born.UWf.scale ⟨A.wfc, A.wfp, A.psi, A.zeta⟩ (q : ℝ)).list)
    (by show [(A.amps.map (AmpT.times _)).map AmpT.size] = [A.amps.map AmpT.size]; rw [times_ampSize])
    (Born.UWf.scale_size ⟨A.wfc, A.wfp, A.psi, A.zeta⟩ q)
  obtain ⟨r, u, psi, zeta, hc, hw, hi, he, ht⟩ := C90_scalar_scheme A P s cf (plan_ok.2 h.good) h.lt h.pml h.src h.rcv
    h.freq h.interval h.nt
  obtain ⟨r', u', psi', zeta', hc', hw', hi', he', ht'⟩ := C90_scalar_scheme (A.scale q P.freq) (P.scale q) s cf (plan_ok.2 hg)
    h.lt (pmlOk_scale h.pml hq) h.src h.rcv h.freq h.interval h.nt
  have hS := hw.scale hq'
  rw [← P.grid_scale] at hS
  have hA : (fun t => locSum (d := d) A.src s fun i => upAmps (P.scale q) A.timeTaper (A.amps.map (AmpT.times (1 / (q : ℝ) ^ 2))) s t i) =
      fun t c => 1 / (q : ℝ) ^ 2 * locSum A.src s (fun i => upAmps P A.timeTaper A.amps s t i) c :=
    funext fun t => locSum_times h.good _ _ _ _ _ _ _
  rw [← hA] at hS
  have hi2 := startsFrom_scale (w := ⟨A.wfc, A.wfp, A.psi, A.zeta⟩) q hi
  obtain ⟨rfl, rfl, rfl⟩ := hw'.unique hS fun c => startsFrom_zero (P := P.scale q)
    (w := Born.UWf.scale ⟨A.wfc, A.wfp, A.psi, A.zeta⟩ q) hS.outside hw'.outside hi2 hi' c
  exact ⟨r, r', hc, hc', endsIn_unique (endsIn_scale q he) he', fun i hl => (ht' i hl).trans (ht i hl).symm⟩

/-- Twice the grid spacing and time step. -/
example : ∃ r r', (exV 3).scalar 0 = .ok (some r) ∧ ((exV 3).scale 2 (exQ 3).freq).scalar 0 = .ok (some r') ∧
    r'.traces 0 = r.traces 0 := by
  obtain ⟨r, r', h1, h2, -, h3⟩ := C133_scalar_scale (exV 3) _ 0 1 exV_fwd 2 (by norm_num)
  exact ⟨r, r', h1, h2, h3 0 (by decide)⟩

end Dw.Scalar

namespace Dw.Setup

/-- The options with grid spacing and time step multiplied by `q` and PML frequency `f / q`. -/
def Opts.scale (O : Opts) (q f : ℚ) : Opts :=
  { O with gridSpacing := O.gridSpacing.times q, dt := O.dt * q, pmlFreq := some (.float (f / q)) }

end Dw.Setup

namespace Dw.Born

open Setup Resample
open Scalar (upAmps startsFrom_scale endsIn_scale)

variable {d : ℕ}

/-- The call with grid spacing and time step multiplied by `q`, PML frequency `f / q`, and amplitudes and memory variables
to match. -/
noncomputable def UArgs.scale (A : UArgs d) (q f : ℚ) : UArgs d :=
  { A with
    opts := A.opts.scale q f, amps := A.amps.map (AmpT.times (1 / (q : ℝ) ^ 2)), wf := A.wf.scale q, wfsc := A.wfsc.scale q }

/-- **C133** for `scalar_born`. -/
theorem C133_born_scale (A : UArgs d) (P : Plan d) (s : ℕ) (cf : ℤ) (h : Fwd A P s cf) (q : ℚ) (hq : 0 < q) :
    ∃ r r', A.born s = .ok (some r) ∧ (A.scale q P.freq).born s = .ok (some r') ∧
      (r'.out = r.out.scale q ∧ r'.outsc = r.outsc.scale q) ∧ (∀ i < locCount A.bgRcv, r'.bgTraces i = r.bgTraces i) ∧
      ∀ i < locCount A.rcv, r'.traces i = r.traces i := by
  have hq' : (0 : ℝ) < q := by exact_mod_cast hq
  have hg : (A.scale q P.freq).setup.Good (P.scale q) := h.good.scale hq
    (amps := [A.amps.map (AmpT.times (1 / (q : ℝ) ^ 2)), A.amps.map (AmpT.times (1 / (q : ℝ) ^ 2))])
    (wfs := (A.wf.scale q).list ++ (A.wfsc.scale q).list)
    (by show [(A.amps.map (AmpT.times _)).map AmpT.size, (A.amps.map (AmpT.times _)).map AmpT.size] =
          [A.amps.map AmpT.size, A.amps.map AmpT.size]
        rw [times_ampSize])
    (by show _ = (A.wf.list ++ A.wfsc.list).map _
        rw [List.map_append, List.map_append, UWf.scale_size, UWf.scale_size])
  obtain ⟨r, u, psi, zeta, w, ps, ze, hc, hw, hsc, hi, hi2, he, he2, hb, ht⟩ := C91_born_scheme A P s cf (plan_ok.2 h.good) h.lt
    h.pml h.loc h.freq h.interval h.nt
  obtain ⟨r', u', psi', zeta', w', ps', ze', hc', hw', hsc', hi', hi2', he', he2', hb', ht'⟩ := C91_born_scheme
    (A.scale q P.freq) (P.scale q) s cf (plan_ok.2 hg) h.lt (pmlOk_scale h.pml hq) h.loc h.freq h.interval h.nt
  have hS := hw.scale hq'
  have hT := hsc.scale hq'
  have hA : (fun t => locSum (d := d) A.src s fun i =>
        upAmps (P.scale q) A.opts.timeTaper (A.amps.map (AmpT.times (1 / (q : ℝ) ^ 2))) s t i) =
      fun t c => 1 / (q : ℝ) ^ 2 * locSum A.src s (fun i => upAmps P A.opts.timeTaper A.amps s t i) c :=
    funext fun t => locSum_times h.good _ _ _ _ _ _ _
  rw [← P.grid_scale] at hS hT
  rw [← hA] at hS hT
  obtain ⟨rfl, rfl, rfl⟩ := hw'.unique hS fun c => startsFrom_zero (P := P.scale q) (w := A.wf.scale q) hS.outside hw'.outside
    (startsFrom_scale q hi) hi' c
  obtain ⟨rfl, rfl, rfl⟩ := hsc'.unique hT fun c => startsFrom_zero (P := P.scale q) (w := A.wfsc.scale q) hT.outside
    hsc'.outside (startsFrom_scale q hi2) hi2' c
  exact ⟨r, r', hc, hc', ⟨endsIn_unique (endsIn_scale q he) he', endsIn_unique (endsIn_scale q he2) he2'⟩,
    fun i hl => (hb' i hl).trans (hb i hl).symm, fun i hl => (ht' i hl).trans (ht i hl).symm⟩

/-- Twice the grid spacing and time step. -/
example : ∃ r r', (exU .none).born 1 = .ok (some r) ∧
    ((exU .none).scale 2 (exP ![(0, 7), (0, 9)]).freq).born 1 = .ok (some r') ∧ r'.traces 0 = r.traces 0 := by
  obtain ⟨r, r', h1, h2, -, -, h3⟩ := C133_born_scale (exU .none) _ 1 1 (exU_fwd 1 (by decide)) 2 (by norm_num)
  exact ⟨r, r', h1, h2, h3 0 (by decide)⟩

end Dw.Born

namespace Dw.Acoustic

open Setup Resample
open Scalar (upAmps)

variable {d : ℕ}

/-- Wavefields with the memory variables divided by `q`. -/
noncomputable def UWf.scale (w : UWf d) (q : ℝ) : UWf d :=
  { w with
    phi := fun k => (w.phi k).map (WfT.times (1 / q)), psi := fun k => (w.psi k).map (WfT.times (1 / q)) }

noncomputable def Wavefields.scale (w : Wavefields d ℝ) (q : ℝ) : Wavefields d ℝ :=
  { w with phi := fun k c => 1 / q * w.phi k c, psi := fun k c => 1 / q * w.psi k c }

/-- The call with grid spacing and time step multiplied by `q`, PML frequency `f / q`, and amplitudes and memory variables
to match. -/
noncomputable def UArgs.scale (A : UArgs d) (q f : ℚ) : UArgs d :=
  { A with
    opts := A.opts.scale q f, ampP := A.ampP.map (AmpT.times (1 / (q : ℝ)))
    ampV := fun k => (A.ampV k).map (AmpT.times (1 / (q : ℝ))), wf := A.wf.scale q }

theorem Starts.scale {P : Plan d} {w : UWf d} {s : ℕ} {p : ℕ → Fld d ℝ} {v phi psi : ℕ → Fin d → Fld d ℝ} (q : ℚ)
    (h : Starts P w s p v phi psi) : Starts (P.scale q) (w.scale q) s p v (fun t k c => 1 / (q : ℝ) * phi t k c)
      fun t k c => 1 / (q : ℝ) * psi t k c := by
  refine fun c => ⟨fun hc => ⟨((h c).1 hc).1, fun k => ⟨fun hb => ?_, fun hb => ?_⟩⟩,
    fun k hc => ⟨((h c).2 k hc).1, fun hb => ?_, fun hb => ?_⟩⟩ <;> dsimp only
  · rw [(((h c).1 hc).2 k).1 hb, mul_zero]
  · rw [(((h c).1 hc).2 k).2 hb]
    exact (given_times P _ _ s c).symm
  · rw [((h c).2 k hc).2.1 hb, mul_zero]
  · rw [((h c).2 k hc).2.2 hb]
    exact (given_times P _ _ s c).symm

/-- **C133** for `acoustic`, with the amplitudes divided by `q`. -/
theorem C133_acoustic_scale (A : UArgs d) (P : Plan d) (s : ℕ) (cf : ℤ) (h : Fwd A P s cf) (q : ℚ) (hq : 0 < q) :
    ∃ r r', A.acoustic s = .ok (some r) ∧ (A.scale q P.freq).acoustic s = .ok (some r') ∧ r'.out = r.out.scale q ∧
      (∀ i < locCount A.rcvP, r'.tracesP i = r.tracesP i) ∧
      ∀ k, ∀ i < locCount (A.rcvV k), r'.tracesV k i = r.tracesV k i := by
  have hq' : (0 : ℝ) < q := by exact_mod_cast hq
  have hg : (A.scale q P.freq).setup.Good (P.scale q) := h.good.scale hq
    (amps := A.ampP.map (AmpT.times (1 / (q : ℝ))) :: List.ofFn fun k => (A.ampV k).map (AmpT.times (1 / (q : ℝ))))
    (wfs := (A.wf.scale q).list)
    (by simp only [UArgs.setup, Opts.setup, List.map_cons, List.map_ofFn, Function.comp_def, times_ampSize])
    (by simp only [UArgs.setup, Opts.setup, UWf.list, UWf.scale, List.map_append, List.map_cons, List.map_nil, List.map_ofFn,
          Function.comp_def, times_wfSize])
  obtain ⟨r, p, v, phi, psi, hc, hw, hi, he, ht, htv⟩ := C92_acoustic_scheme A P s cf (plan_ok.2 h.good) h.pre
    h.lt h.pml h.loc h.last h.freq h.interval h.nt
  obtain ⟨r', p', v', phi', psi', hc', hw', hi', he', ht', htv'⟩ := C92_acoustic_scheme (A.scale q P.freq) (P.scale q) s cf
    (plan_ok.2 hg) h.pre h.lt (pmlOk_scale h.pml hq) h.loc h.last h.freq h.interval h.nt
  have hS := Spec.Grid.Acoustic.scale hq' hw
  rw [← P.grid_scale] at hS
  have hA : ∀ o a, (fun t => locSum (d := d) o s fun i =>
        upAmps (P.scale q) A.opts.timeTaper (a.map (AmpT.times (1 / (q : ℝ)))) s t i) =
      fun t c => 1 / (q : ℝ) * locSum o s (fun i => upAmps P A.opts.timeTaper a s t i) c :=
    fun o a => funext fun t => locSum_times h.good _ _ _ _ _ _ _
  have hB : (fun t k => locSum (d := d) (A.srcV k) s fun i =>
        upAmps (P.scale q) A.opts.timeTaper ((A.ampV k).map (AmpT.times (1 / (q : ℝ)))) s t i) =
      fun t k c => 1 / (q : ℝ) * locSum (A.srcV k) s (fun i => upAmps P A.opts.timeTaper (A.ampV k) s t i) c :=
    funext fun t => funext fun k => congrFun (hA (A.srcV k) (A.ampV k)) t
  rw [← hA, ← hB] at hS
  obtain ⟨rfl, rfl, rfl, rfl⟩ := Spec.Grid.Acoustic.unique hw' hS (Starts.eq (P := P.scale q) (w := A.wf.scale q) hw'.outside
    hS.outside hi' (Starts.scale q hi))
  refine ⟨r, r', hc, hc', ?_, fun i hl => (ht' i hl).trans (ht i hl).symm, fun k i hl => (htv' k i hl).trans (htv k i hl).symm⟩
  refine Wavefields.ext (index_ext P fun c => (he' c).1.trans (he c).1.symm)
    (funext fun k => index_ext P fun c => ((he' c).2 k).1.trans ((he c).2 k).1.symm)
    (funext fun k => index_ext P fun c => ((he' c).2 k).2.1.trans (congrArg (1 / (q : ℝ) * ·) ((he c).2 k).2.1.symm))
    (funext fun k => index_ext P fun c => ((he' c).2 k).2.2.trans (congrArg (1 / (q : ℝ) * ·) ((he c).2 k).2.2.symm))

/-- Twice the grid spacing and time step. -/
example : ∃ r r', (exU .none).acoustic 1 = .ok (some r) ∧
    ((exU .none).scale 2 (exP ![(0, 7), (0, 9)]).freq).acoustic 1 = .ok (some r') ∧ r'.out = r.out.scale (2 : ℚ) := by
  obtain ⟨r, r', h1, h2, h3, -⟩ := C133_acoustic_scale (exU .none) _ 1 1 (exU_fwd 1 (by decide)) 2 (by norm_num)
  exact ⟨r, r', h1, h2, h3⟩

end Dw.Acoustic

namespace Dw.Elastic

open Setup Resample
open Scalar (upAmps)

variable {d : ℕ}

/-- Wavefields with the memory variables divided by `q`. -/
noncomputable def UWf.scale (w : UWf d) (q : ℝ) : UWf d :=
  { w with
    mv := fun i j => (w.mv i j).map (WfT.times (1 / q)), ms := fun i j => (w.ms i j).map (WfT.times (1 / q)) }

noncomputable def Wavefields.scale (w : Wavefields d ℝ) (q : ℝ) : Wavefields d ℝ :=
  { w with mv := fun i j c => 1 / q * w.mv i j c, ms := fun i j c => 1 / q * w.ms i j c }

/-- The call with grid spacing and time step multiplied by `q`, PML frequency `f / q`, and amplitudes and memory variables
to match. -/
noncomputable def UArgs.scale (A : UArgs d) (q f : ℚ) : UArgs d :=
  { A with
    opts := A.opts.scale q f, ampP := A.ampP.map (AmpT.times (1 / (q : ℝ)))
    ampV := fun k => (A.ampV k).map (AmpT.times (1 / (q : ℝ))), wf := A.wf.scale q }

theorem Starts.scale {P : Plan d} {w : UWf d} {s : ℕ} {v : ℕ → Fin d → Fld d ℝ} {sig mv ms : ℕ → Fin d → Fin d → Fld d ℝ}
    (q : ℚ) (h : Starts P w s v sig mv ms) : Starts (P.scale q) (w.scale q) s v sig (fun t i j c => 1 / (q : ℝ) * mv t i j c)
      fun t i j c => 1 / (q : ℝ) * ms t i j c := by
  refine fun i c => ⟨(h i c).1, (h i c).2.1, fun j hc => ⟨fun hb => ?_, fun hb => ?_⟩,
    fun hc => ⟨((h i c).2.2.2 hc).1, fun j => ⟨fun hb => ?_, fun hb => ?_⟩⟩⟩ <;> dsimp only
  · rw [((h i c).2.2.1 j hc).1 hb, mul_zero]
  · rw [((h i c).2.2.1 j hc).2 hb]
    exact (given_times P _ _ s c).symm
  · rw [(((h i c).2.2.2 hc).2 j).1 hb, mul_zero]
  · rw [(((h i c).2.2.2 hc).2 j).2 hb]
    exact (given_times P _ _ s c).symm

/-- **C133** for `elastic`, with the amplitudes divided by `q`. -/
theorem C133_elastic_scale (A : UArgs d) (P : Plan d) (s : ℕ) (cf : ℤ) (h : Fwd A P s cf) (q : ℚ) (hq : 0 < q) :
    ∃ r r', A.elastic s = .ok (some r) ∧ (A.scale q P.freq).elastic s = .ok (some r') ∧ r'.out = r.out.scale q ∧
      (∀ i < locCount A.rcvP, r'.tracesP i = r.tracesP i) ∧
      ∀ k, ∀ i < locCount (A.rcvV k), r'.tracesV k i = r.tracesV k i := by
  have hq' : (0 : ℝ) < q := by exact_mod_cast hq
  have hg : (A.scale q P.freq).setup.Good (P.scale q) := h.good.scale hq
    (amps := (List.ofFn fun k => (A.ampV k).map (AmpT.times (1 / (q : ℝ)))) ++ [A.ampP.map (AmpT.times (1 / (q : ℝ)))])
    (wfs := (A.wf.scale q).list)
    (by simp only [UArgs.setup, Opts.setup, List.map_append, List.map_cons, List.map_nil, List.map_ofFn, Function.comp_def,
          times_ampSize])
    (by simp only [UArgs.setup, Opts.setup, UWf.list, UWf.scale, List.map_append, List.map_flatMap, List.map_ofFn,
          Function.comp_def, times_wfSize])
  obtain ⟨r, v, sig, mv, ms, hc, hw, hi, he, ht, htv⟩ := C93_elastic_scheme A P s cf (plan_ok.2 h.good) h.pre
    h.lt h.pml h.loc h.last h.freq h.interval h.nt
  obtain ⟨r', v', sig', mv', ms', hc', hw', hi', he', ht', htv'⟩ := C93_elastic_scheme (A.scale q P.freq) (P.scale q) s cf
    (plan_ok.2 hg) h.pre h.lt (pmlOk_scale h.pml hq) h.loc h.last h.freq h.interval h.nt
  have hS := Spec.Grid.Elastic.scale hq' hw
  rw [← P.grid_scale] at hS
  have hA : ∀ o a, (fun t => locSum (d := d) o s fun i =>
        upAmps (P.scale q) A.opts.timeTaper (a.map (AmpT.times (1 / (q : ℝ)))) s t i) =
      fun t c => 1 / (q : ℝ) * locSum o s (fun i => upAmps P A.opts.timeTaper a s t i) c :=
    fun o a => funext fun t => locSum_times h.good _ _ _ _ _ _ _
  have hB : (fun t k => locSum (d := d) (A.srcV k) s fun i =>
        upAmps (P.scale q) A.opts.timeTaper ((A.ampV k).map (AmpT.times (1 / (q : ℝ)))) s t i) =
      fun t k c => 1 / (q : ℝ) * locSum (A.srcV k) s (fun i => upAmps P A.opts.timeTaper (A.ampV k) s t i) c :=
    funext fun t => funext fun k => congrFun (hA (A.srcV k) (A.ampV k)) t
  rw [← hA, ← hB] at hS
  obtain ⟨rfl, rfl, rfl, rfl⟩ := Spec.Grid.Elastic.unique hw' hS (Starts.eq (P := P.scale q) (w := A.wf.scale q) hw'.symm
    hS.symm hw'.outside hS.outside hi' (Starts.scale q hi))
  refine ⟨r, r', hc, hc', ?_, fun i hl => (ht' i hl).trans (ht i hl).symm, fun k i hl => (htv' k i hl).trans (htv k i hl).symm⟩
  refine Wavefields.ext (funext fun i => index_ext P fun c => (he' c i).1.trans (he c i).1.symm)
    (funext fun i => index_ext P fun c => (he' c i).2.1.trans (he c i).2.1.symm)
    (funext fun x => index_ext P fun c => ((he' c x.1.1).2.2.1 x.1.2 x.2).trans ((he c x.1.1).2.2.1 x.1.2 x.2).symm)
    (funext fun i => funext fun j => index_ext P fun c =>
      ((he' c i).2.2.2 j).1.trans (congrArg (1 / (q : ℝ) * ·) ((he c i).2.2.2 j).1.symm))
    (funext fun i => funext fun j => index_ext P fun c =>
      ((he' c i).2.2.2 j).2.trans (congrArg (1 / (q : ℝ) * ·) ((he c i).2.2.2 j).2.symm))

/-- Twice the grid spacing and time step. -/
example : ∃ r r', (exU .none).elastic 1 = .ok (some r) ∧
    ((exU .none).scale 2 (exP ![(0, 7), (0, 9)]).freq).elastic 1 = .ok (some r') ∧ r'.out = r.out.scale (2 : ℚ) := by
  obtain ⟨r, r', h1, h2, h3, -⟩ := C133_elastic_scale (exU .none) _ 1 1 (exU_fwd 1 (by decide)) 2 (by norm_num)
  exact ⟨r, r', h1, h2, h3⟩

end Dw.Elastic
