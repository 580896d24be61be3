import Verif.Spec.Inside
import Verif.Props.UserNear

/-!
# C127: the PML and the edges of the model are not noticed before the waves have been there and back
-/

namespace Dw.Setup

open Scalar (upAmps downS downS_one)
open Resample (Sig)

variable {d : ℕ}

/-- The arguments with another PML and another part of the model in use. -/
def SetupArgs.withEdges (A : SetupArgs d) (w : PyArg) (f : Option PyNum) (sp : SurveyPad) : SetupArgs d :=
  { A with pmlWidth := w, pmlFreq := f, surveyPad := sp }

/-- The same for the options of a call. -/
def Opts.withEdges (O : Opts) (w : PyArg) (f : Option PyNum) (sp : SurveyPad) : Opts :=
  { O with pmlWidth := w, pmlFreq := f, surveyPad := sp }

/-- A cell is at least `n` cells away from the edges of the part of the model in use. -/
def Plan.Away (P : Plan d) (n : ℤ) (c : Cell d) : Prop := ∀ k, (P.ext k).1 + n ≤ c k ∧ c k + n < (P.ext k).2

/-- Plans with the same time steps and cells. -/
structure Plan.SameSteps (P P' : Plan d) : Prop where
  dxL : P'.dxL = P.dxL
  dt : P'.dt = P.dt
  ratio : P'.ratio = P.ratio
  accZ : P'.accZ = P.accZ
  nt : P'.nt = P.nt
  interval : P'.interval = P.interval
  ff : P'.ff = P.ff
  tf : P'.tf = P.tf

theorem good_edges {A : SetupArgs d} {P P' : Plan d} {w : PyArg} {f : Option PyNum} {sp : SurveyPad} (h : A.Good P)
    (h' : (A.withEdges w f sp).Good P') : P.SameSteps P' := by
  have e1 : P'.dxL = P.dxL := Except.ok.inj (h'.dx.symm.trans h.dx)
  have e2 : P'.maxVel = P.maxVel := Except.ok.inj (h'.maxVel.symm.trans h.maxVel)
  have e3 : (P'.dt, P'.ratio) = (P.dt, P.ratio) := by
    have := h'.cfl
    rw [e1, e2] at this
    exact Except.ok.inj (this.symm.trans h.cfl)
  have e4 : P'.ratio = P.ratio := congrArg Prod.snd e3
  refine ⟨e1, congrArg Prod.fst e3, e4, Except.ok.inj (h'.acc.symm.trans h.acc), ?_,
    Except.ok.inj (h'.interval.symm.trans h.interval), Except.ok.inj (h'.ff.symm.trans h.ff),
    Except.ok.inj (h'.tf.symm.trans h.tf)⟩
  have := h'.nt
  rw [e4] at this
  exact Except.ok.inj (this.symm.trans h.nt)

theorem Plan.SameSteps.alike {P P' : Plan d} (e : P.SameSteps P') : P.grid.Alike P'.grid where
  acc := congrArg accOf e.accZ
  dx := by
    show P'.dx = P.dx
    unfold Plan.dx
    rw [e.dxL]
  dt := e.dt

theorem Plan.SameSteps.steps {P P' : Plan d} (e : P.SameSteps P') : P'.steps = P.steps := by
  unfold Plan.steps
  rw [e.nt, e.ratio, e.interval]

/-- The cells that both plans use. -/
def Plan.boxL (P P' : Plan d) (k : Fin d) : ℤ := max (P.ext k).1 (P'.ext k).1
def Plan.boxH (P P' : Plan d) (k : Fin d) : ℤ := min (P.ext k).2 (P'.ext k).2 - 1

theorem Plan.holds {A A' : SetupArgs d} {P P' : Plan d} (h : A.Good P) (h' : A'.Good P') :
    P.grid.Holds (P.boxL P') (P.boxH P') ∧ P'.grid.Holds (P.boxL P') (P.boxH P') := by
  refine ⟨⟨fun k => le_max_left _ _, fun k => ?_, fun k => (h.widths k).1, fun k => (h.widths k).2⟩,
    ⟨fun k => le_max_right _ _, fun k => ?_, fun k => (h'.widths k).1, fun k => (h'.widths k).2⟩⟩
  · show min (P.ext k).2 (P'.ext k).2 - 1 ≤ (P.ext k).2 - 1
    omega
  · show min (P.ext k).2 (P'.ext k).2 - 1 ≤ (P'.ext k).2 - 1
    omega

theorem Plan.Away.inside {P P' : Plan d} {n : ℤ} {c : Cell d} (h : P.Away n c) (h' : P'.Away n c) :
    Spec.Inside (P.boxL P') (P.boxH P') n c := fun k => by
  have := h k
  have := h' k
  unfold Plan.boxL Plan.boxH
  omega

theorem extend_inside {P P' : Plan d} {m : Fld d ℝ} {c : Cell d} (hc : Spec.Inside (P.boxL P') (P.boxH P') 0 c) :
    P.grid.extend m c = P'.grid.extend m c ∧ P.grid.extendZero m c = P'.grid.extendZero m c := by
  have h1 : ∀ k, (P.ext k).1 ≤ c k ∧ c k ≤ (P.ext k).2 - 1 := fun k => by
    have := hc k
    unfold Plan.boxL Plan.boxH at this
    omega
  have h2 : ∀ k, (P'.ext k).1 ≤ c k ∧ c k ≤ (P'.ext k).2 - 1 := fun k => by
    have := hc k
    unfold Plan.boxL Plan.boxH at this
    omega
  constructor
  · unfold Spec.Grid.extend
    congr 1
    funext k
    have := h1 k
    have := h2 k
    show max (P.ext k).1 (min ((P.ext k).2 - 1) (c k)) = max (P'.ext k).1 (min ((P'.ext k).2 - 1) (c k))
    omega
  · unfold Spec.Grid.extendZero
    exact (if_pos h1).trans (if_pos h2).symm

/-- The sources of a shot are at least `n` cells away from the edges in both plans. -/
def Plan.SrcAway (P P' : Plan d) (n : ℤ) (o : Option LocT) (s : ℕ) : Prop :=
  ∀ i < locCount o, ∀ c, locCell o s i = some c → P.Away n c ∧ P'.Away n c

theorem Plan.SrcAway.zero {P P' : Plan d} {n : ℤ} {o : Option LocT} {s : ℕ} (h : P.SrcAway P' n o s) (g : ℕ → ℝ) {c : Cell d}
    (hc : ¬Spec.Inside (P.boxL P') (P.boxH P') n c) : locSum o s g c = 0 := by
  unfold locSum
  refine Finset.sum_eq_zero fun i hi => if_neg fun e => hc ?_
  obtain ⟨h1, h2⟩ := h i (Finset.mem_range.1 hi) c e
  exact h1.inside h2

theorem Plan.SameSteps.amps {P P' : Plan d} (e : P.SameSteps P') (tt : Bool) (a : Option AmpT) (s t i : ℕ) :
    upAmps P tt a s t i = upAmps P' tt a s t i := by
  cases a with
  | none => rfl
  | some a => simp only [upAmps, Scalar.upS, e.ratio, e.ff, e.tf]

theorem Plan.SameSteps.locSum {P P' : Plan d} (e : P.SameSteps P') {tt : Bool} {o : Option LocT} {a : Option AmpT} {s : ℕ}
    (t : ℕ) (c : Cell d) : (locSum o s fun i => upAmps P tt a s t i) c = locSum o s (fun i => upAmps P' tt a s t i) c := by
  simp only [e.amps]

/-- The first samples of the traces of plans with the same time steps. -/
theorem same_edges {A A' : SetupArgs d} {P P' : Plan d} (h : A.Good P) (h' : A'.Good P') (e : P.SameSteps P') {tt : Bool}
    {T : ℕ} {f f' : ℕ → ℝ} (hf : ∀ t ≤ T, f t = f' t) :
    P.SameUntil T (downS P tt ⟨P.nt.toNat, fun t => if t < P.steps then f t else 0⟩)
      (downS P' tt ⟨P'.nt.toNat, fun t => if t < P'.steps then f' t else 0⟩) := by
  rw [e.nt, e.steps]
  exact same_until h h' ⟨e.ratio, e.ff, e.tf⟩ hf

/-! ### Calls with a larger model -/

/-- Width `w` of the PML. -/
def exWO (w : ℤ) : Opts := { exO1 .none with pmlWidth := .one (.int w) }

def exMidL : LocT := Scalar.exOne 12 12
def exThereL : LocT := Scalar.exOne 15 10

def exWA : AmpT := ⟨1, 1, 6, fun _ _ t => 1 + t⟩

noncomputable def exWP (st : Bool) (w : ℤ) (ms : List (ModelT 2 ℝ × PadMode)) (srcs rcvs : List (Option LocT)) : Plan 2 :=
  { nb := 1, dxL := [3, 4], maxVel := 1000, dt := (1 / 1000 : ℚ) / (1 : ℤ), ratio := 1, accZ := 4
    wL := [w, w, w, w], freq := 25, nt := 6, interval := 1, ff := 0, tf := 0, ext := ![(0, 25), (0, 25)]
    models := ms.map (modelOf ![(0, 25), (0, 25)] (padList (d := 2) (padBegin 4 [w, w, w, w]) (padEnd st 4 [w, w, w, w])))
    srcs := srcs.map (idxOpt ![(0, 25), (0, 25)] (padBegin 4 [w, w, w, w]) (padEnd st 4 [w, w, w, w]) 1)
    rcvs := rcvs.map (idxOpt ![(0, 25), (0, 25)] (padBegin 4 [w, w, w, w]) (padEnd st 4 [w, w, w, w]) 1) }

theorem exW_good {w : ℤ} (hw : w = 0 ∨ w = 3) {st : Bool} {ms : List (ModelT 2 ℝ × PadMode)} {mv : ℝ}
    {amps : List (Option AmpT)} {srcs rcvs : List (Option LocT)} {wfs : List (Option (WfT 2))}
    (hl : ∀ l, some l ∈ srcs ++ rcvs → l = exMidL ∨ l = exThereL) (ha : ∀ a, some a ∈ amps → a = exWA)
    (hwf : ∀ w, some w ∉ wfs) (hms : ∀ m ∈ ms, m.1.nb = none ∧ m.1.shape = ![25, 25])
    (hms0 : ms ≠ []) (hnb : getNBatch srcs wfs = .ok 1)
    (hnt : setNt none (amps.map (Option.map AmpT.nt)) 1 = .ok 6)
    (hmatch : checkAmpsMatch (amps.map (Option.map AmpT.n)) (srcs.map (Option.map LocT.n)) = .ok ())
    (hext : surveyExtents ![25, 25] (srcs ++ rcvs) (wfs.map (Option.map WfT.shape)) .none none
      (fun _ => w) (fun _ => w) = .ok ![(0, 25), (0, 25)]) :
    ((exWO w).setup st ms mv amps srcs rcvs wfs).Good (exWP st w ms srcs rcvs) := by
  have hshape : ((exWO w).setup st ms mv amps srcs rcvs wfs).shape = ![25, 25] := by
    unfold SetupArgs.shape Opts.setup
    cases ms with
    | nil => exact absurd rfl hms0
    | cons m ms => exact (hms m List.mem_cons_self).2
  have hw0 : (exWP st w ms srcs rcvs).w0 = fun _ => w := by
    show (fun k : Fin 2 => [w, w, w, w].getD (2 * k) 0) = _
    rcases hw with rfl | rfl <;> decide
  have hw1 : (exWP st w ms srcs rcvs).w1 = fun _ => w := by
    show (fun k : Fin 2 => [w, w, w, w].getD (2 * k + 1) 0) = _
    rcases hw with rfl | rfl <;> decide
  have hg : ∀ l, some l ∈ srcs ++ rcvs → LocGood (1 / 10) (![(0, 25), (0, 25)] : Fin 2 → ℤ × ℤ) (padBegin 4 [w, w, w, w])
      (padEnd st 4 [w, w, w, w]) 1 l := by
    intro l hl'
    rcases hl l hl' with rfl | rfl <;>
      exact ⟨by decide +kernel, rfl, rfl, by rcases hw with rfl | rfl <;> cases st <;> decide +kernel⟩
  refine ⟨hnb, rfl, ?_, ?_, rfl, ?_, ?_, hnt, rfl, ?_, ?_, hmatch, ?_, ?_, ?_, ?_, ?_, ?_⟩
  · simp [exWO, exO1, exO, Opts.setup, setMaxVelR, PyNum.toFloat, exWP]
  · have := Scalar.exV_cfl
    simpa [exWP, exWO, exO1, exO, Opts.setup] using this
  · rcases hw with rfl | rfl <;> rfl
  · simp [exWP, exWO, exO1, exO, Opts.setup, setPmlFreq]
  · simp [exWP, exWO, exO1, exO, Opts.setup, setFrac, PyNum.toFloat]
  · simp [exWP, exWO, exO1, exO, Opts.setup, setFrac, PyNum.toFloat]
  · refine checkAmps_ok.2 fun a ha' => ?_
    obtain rfl := ha a ha'
    exact ⟨rfl, rfl, by simp [Resample.validate, exWP]⟩
  · rw [hshape, hw0, hw1]
    exact hext
  · rw [hshape]
    refine (extractModels_iff (by norm_num [exWP] : 0 < (exWP st w ms srcs rcvs).nb)).2 ⟨fun m hm => ?_, rfl⟩
    obtain ⟨e1, e2⟩ := hms m hm
    refine ⟨e2, .inl (by rw [e1]; rfl), fun _ => ?_⟩
    rw [e2]
    show ∀ k, 0 < sliceLen ((![(0, 25), (0, 25)] : Fin 2 → ℤ × ℤ) k).1 ((![(0, 25), (0, 25)] : Fin 2 → ℤ × ℤ) k).2
      ((![25, 25] : Fin 2 → ℤ) k)
    decide
  · exact extractLocations_iff.2 ⟨fun l hl' => hg l (List.mem_append_left _ hl'), rfl⟩
  · exact extractLocations_iff.2 ⟨fun l hl' => hg l (List.mem_append_right _ hl'), rfl⟩
  · exact prepareWavefields_ok.2 fun w hw' => absurd hw' (hwf w)

theorem exW_away {st st' : Bool} {w w' : ℤ} {ms ms' : List (ModelT 2 ℝ × PadMode)} {srcs rcvs srcs' rcvs' : List (Option LocT)} :
    (exWP st w ms srcs rcvs).SrcAway (exWP st' w' ms' srcs' rcvs') 12 (some exMidL) 0 := by
  intro i _ c hc
  have e := Option.some.inj (hc.symm.trans (Scalar.exOne_cell 12 12 i))
  subst e
  constructor <;>
  · show ∀ k, ((![(0, 25), (0, 25)] : Fin 2 → ℤ × ℤ) k).1 + 12 ≤ (![12, 12] : Fin 2 → ℤ) k ∧
      (![12, 12] : Fin 2 → ℤ) k + 12 < ((![(0, 25), (0, 25)] : Fin 2 → ℤ × ℤ) k).2
    decide

theorem exW_away_none {P P' : Plan 2} {n : ℤ} : P.SrcAway P' n none 0 := fun _ _ _ h => by cases h

theorem exMidL_whole (s : ℕ) : Scalar.WholeIgnored 2 exMidL s := fun i _ => .inr (Scalar.exOne_whole (by norm_num) (by norm_num) s i)

theorem exMidL_beyond (k : Fin 2) : ¬exMidL.Beyond k ((![25, 25] : Fin 2 → ℤ) k) := by
  revert k
  unfold LocT.Beyond
  decide +kernel

end Dw.Setup

namespace Dw.Scalar

open Setup Resample

variable {d : ℕ}

/-- The call with another PML and another part of the model in use. -/
def UArgs.withEdges (A : UArgs d) (w : PyArg) (f : Option PyNum) (sp : SurveyPad) : UArgs d :=
  { A with pmlWidth := w, pmlFreq := f, surveyPad := sp }

/-- **C127** The PML and the edges of the model only matter once the waves have been there and back: if the sources are at
least `T₁` and a receiver at least `T₂` times half the accuracy away from the edges, samples up to `T₁ + T₂` do not depend on
`pml_width`, `pml_freq` and `survey_pad` (for the time steps of the propagator, so with an internal time step it holds for
whole traces). -/
theorem C127_edges (A : UArgs d) (P P' : Plan d) (s : ℕ) (cf cf' : ℤ) (w : PyArg) (f : Option PyNum) (sp : SurveyPad)
    (h : Fwd A P s cf) (h' : Fwd (A.withEdges w f sp) P' s cf') (hwf : ∀ x ∈ A.setup.wfs, x = none) (T₁ T₂ : ℕ)
    (hsrc : P.SrcAway P' ((P.acc.order / 2 : ℕ) * T₁) A.src s) :
    ∃ r r', A.scalar s = .ok (some r) ∧ (A.withEdges w f sp).scalar s = .ok (some r') ∧
      ∀ i < locCount A.rcv, ∀ c, locCell A.rcv s i = some c → P.Away ((P.acc.order / 2 : ℕ) * T₂) c →
        P'.Away ((P.acc.order / 2 : ℕ) * T₂) c → P.SameUntil (T₁ + T₂) (r.traces i) (r'.traces i) := by
  have e : P.SameSteps P' := good_edges h.good h'.good
  obtain ⟨r, u, psi, zeta, hc, hw, hI, -, ht⟩ := C90_scalar_scheme A P s cf (plan_ok.2 h.good) h.lt h.pml h.src h.rcv
    h.freq h.interval h.nt
  obtain ⟨r', u', psi', zeta', hc', hw', hI', -, ht'⟩ := C90_scalar_scheme _ P' s cf' (plan_ok.2 h'.good) h'.lt h'.pml
    h'.src h'.rcv h'.freq h'.interval h'.nt
  have z := startsFrom_none (P := P) (w := ⟨A.wfc, A.wfp, A.psi, A.zeta⟩) hwf hw.outside hI
  have z' := startsFrom_none (P := P') (w := ⟨A.wfc, A.wfp, A.psi, A.zeta⟩) hwf hw'.outside hI'
  obtain ⟨g, g'⟩ := Plan.holds h.good h'.good
  refine ⟨r, r', hc, hc', fun i hi c hl a a' => ?_⟩
  have key := hw.inside e.alike g g' hw' (T₁ := T₁) (T₂ := T₂) (c₀ := c)
    (fun c => by rw [z.1, z.2.1, z.2.2.1, z.2.2.2]; exact ⟨rfl, rfl, fun _ => ⟨rfl, rfl⟩⟩)
    (fun c => by rw [z'.1, z'.2.1, z'.2.2.1, z'.2.2.2]; exact ⟨rfl, rfl, fun _ => ⟨rfl, rfl⟩⟩)
    (fun c hc => (extend_inside hc).1) (fun t c => e.locSum t c) (fun t c hc => hsrc.zero _ hc) (a.inside a')
  rw [ht i hi, ht' i hi]
  refine same_edges h.good h'.good e (f := fun t => locValue A.rcv s i (u (t + 1)))
    (f' := fun t => locValue A.rcv s i (u' (t + 1))) fun t hT => ?_
  rw [locValue_near hl, locValue_near hl]
  exact (key t hT c (.inr (near_self c (mul_nonneg P.grid.half_nonneg (by omega))))).2

/-- 25 by 25 cells, source and receiver in the middle. -/
noncomputable def exWide (w : ℤ) : UArgs 2 :=
  { exV w with
    v := ⟨none, ![25, 25], fun _ c => 900 + c 0⟩, amps := some exWA, src := some exMidL, rcv := some exMidL, interval := .int 1 }

theorem exWide_fwd (w : ℤ) (hw : w = 0 ∨ w = 3) :
    Fwd (exWide w) (exWP false w (exWide w).setup.models (exWide w).setup.srcs (exWide w).setup.rcvs) 0 1 where
  good := exW_good (st := false) (wfs := (exWide w).setup.wfs) (mv := maxAbs (exWide w).v) (amps := (exWide w).setup.amps) hw
    (fun l hl => .inl (by simpa [exWide, UArgs.setup] using hl)) (fun a ha => by simpa [exWide, UArgs.setup] using ha)
    (fun w hw => by simp [exWide, exV, exU, UArgs.setup] at hw)
    (fun m hm => by simp only [List.mem_singleton] at hm; subst hm; exact ⟨rfl, rfl⟩) (by simp) rfl rfl rfl
    (by
      show surveyExtents ![25, 25] [some exMidL, some exMidL] [none, none, none, none, none, none] .none none
        (fun _ => w) (fun _ => w) = .ok ![(0, 25), (0, 25)]
      rcases hw with rfl | rfl <;> decide +kernel)
  lt := Nat.zero_lt_one
  pml := .inl (by norm_num [exWP])
  src := fun l hl => by cases hl; exact exMidL_whole 0
  rcv := fun l hl => by cases hl; exact exMidL_whole 0
  freq := rfl
  interval := by norm_num [exWP]
  nt := .inr (.inl (by norm_num [exWP]))

/-- All samples are the same with a PML of three cells and with none. -/
example : ∃ r r', (exWide 3).scalar 0 = .ok (some r) ∧ (exWide 0).scalar 0 = .ok (some r') ∧ r'.traces 0 = r.traces 0 := by
  obtain ⟨r, r', h1, h2, h3⟩ := C127_edges (exWide 3) _ _ 0 1 1 (.one (.int 0)) none .none (exWide_fwd 3 (.inr rfl)) (exWide_fwd 0 (.inl rfl))
    (fun x hx => by simpa [exWide, exV, exU, UArgs.setup] using hx) 6 6 exW_away
  obtain ⟨a, a'⟩ := exW_away 0 (by decide) _ (exOne_cell 12 12 0)
  exact ⟨r, r', h1, h2, (h3 0 (by decide) _ (exOne_cell 12 12 0) a a').1 (by decide)⟩

end Dw.Scalar

namespace Dw.Born

open Setup Resample
open Scalar (upAmps)

variable {d : ℕ}

def UArgs.withEdges (A : UArgs d) (w : PyArg) (f : Option PyNum) (sp : SurveyPad) : UArgs d :=
  { A with opts := A.opts.withEdges w f sp }

/-- **C127** for `scalar_born`. -/
theorem C127_born_edges (A : UArgs d) (P P' : Plan d) (s : ℕ) (cf cf' : ℤ) (w : PyArg) (f : Option PyNum) (sp : SurveyPad)
    (h : Fwd A P s cf) (h' : Fwd (A.withEdges w f sp) P' s cf') (hwf : ∀ x ∈ A.setup.wfs, x = none) (T₁ T₂ : ℕ)
    (hsrc : P.SrcAway P' ((P.acc.order / 2 : ℕ) * T₁) A.src s) :
    ∃ r r', A.born s = .ok (some r) ∧ (A.withEdges w f sp).born s = .ok (some r') ∧
      ∀ c, P.Away ((P.acc.order / 2 : ℕ) * T₂) c → P'.Away ((P.acc.order / 2 : ℕ) * T₂) c →
        (∀ i < locCount A.bgRcv, locCell A.bgRcv s i = some c → P.SameUntil (T₁ + T₂) (r.bgTraces i) (r'.bgTraces i)) ∧
        ∀ i < locCount A.rcv, locCell A.rcv s i = some c → P.SameUntil (T₁ + T₂) (r.traces i) (r'.traces i) := by
  have e : P.SameSteps P' := good_edges h.good h'.good
  obtain ⟨r, u, psi, zeta, y, ps, ze, hc, hw, hsc, hi, hi2, -, -, hb, ht⟩ := C91_born_scheme A P s cf (plan_ok.2 h.good)
    h.lt h.pml h.loc h.freq h.interval h.nt
  obtain ⟨r', u', psi', zeta', y', ps', ze', hc', hw', hsc', hi', hi2', -, -, hb', ht'⟩ := C91_born_scheme _ P' s cf'
    (plan_ok.2 h'.good) h'.lt h'.pml h'.loc h'.freq h'.interval h'.nt
  have w1 : ∀ x ∈ A.wf.list, x = none := fun x hx => hwf x (List.mem_append_left _ hx)
  have w2 : ∀ x ∈ A.wfsc.list, x = none := fun x hx => hwf x (List.mem_append_right _ hx)
  have z := startsFrom_none (P := P) (w := A.wf) w1 hw.outside hi
  have z' := startsFrom_none (P := P') (w := A.wf) w1 hw'.outside hi'
  have x := startsFrom_none (P := P) (w := A.wfsc) w2 hsc.outside hi2
  have x' := startsFrom_none (P := P') (w := A.wfsc) w2 hsc'.outside hi2'
  obtain ⟨g, g'⟩ := Plan.holds h.good h'.good
  have st : ∀ {u : ℕ → Fld d ℝ} {psi zeta : ℕ → Fin d → Fld d ℝ}, u 0 = 0 ∧ u 1 = 0 ∧ psi 0 = 0 ∧ zeta 0 = 0 →
      ∀ c, u 1 c = 0 ∧ u 0 c = 0 ∧ ∀ k, psi 0 k c = 0 ∧ zeta 0 k c = 0 := fun z c => by
    rw [z.1, z.2.1, z.2.2.1, z.2.2.2]
    exact ⟨rfl, rfl, fun _ => ⟨rfl, rfl⟩⟩
  have hq : ∀ t c, _ := fun (t : ℕ) (c : Cell d) => e.locSum (tt := A.opts.timeTaper) (o := A.src) (a := A.amps) (s := s) t c
  refine ⟨r, r', hc, hc', fun c a a' => ?_⟩
  have k1 := hw.inside e.alike g g' hw' (T₁ := T₁) (T₂ := T₂) (c₀ := c) (st z) (st z')
    (fun c hc => (extend_inside hc).1) hq (fun t c hc => hsrc.zero _ hc) (a.inside a')
  have k2 := Spec.Grid.Scattered.inside e.alike g g' hw hw' (st z) (st z') hsc hsc' (st x) (st x') (T₁ := T₁) (T₂ := T₂) (c₀ := c)
    (fun c hc => ⟨(extend_inside hc).1, (extend_inside hc).2⟩) hq (fun t c hc => hsrc.zero _ hc) (a.inside a')
  have hn : ∀ t ≤ T₁ + T₂, Spec.Near c (P.grid.half * (T₁ + T₂ - t)) c := fun t ht =>
    near_self c (mul_nonneg P.grid.half_nonneg (by omega))
  refine ⟨fun i hl hc => ?_, fun i hl hc => ?_⟩
  · rw [hb i hl, hb' i hl]
    refine same_edges h.good h'.good e (f := fun t => locValue A.bgRcv s i (u (t + 1)))
      (f' := fun t => locValue A.bgRcv s i (u' (t + 1))) fun t hT => ?_
    rw [locValue_near hc, locValue_near hc]
    exact (k1 t hT c (.inr (hn t hT))).2
  · rw [ht i hl, ht' i hl]
    refine same_edges h.good h'.good e (f := fun t => locValue A.rcv s i (y (t + 1)))
      (f' := fun t => locValue A.rcv s i (y' (t + 1))) fun t hT => ?_
    rw [locValue_near hc, locValue_near hc]
    exact (k2 t hT c (.inr (hn t hT))).2

/-- 25 by 25 cells, source and receivers in the middle. -/
noncomputable def exWide (w : ℤ) : UArgs 2 :=
  { exU .none with
    v := ⟨none, ![25, 25], fun _ c => 900 + c 0⟩, scatter := ⟨none, ![25, 25], fun _ c => c 1⟩
    amps := some exWA, src := some exMidL, rcv := some exMidL, bgRcv := some exMidL, opts := exWO w }

theorem exWide_fwd (w : ℤ) (hw : w = 0 ∨ w = 3) :
    Fwd (exWide w) (exWP false w (exWide w).setup.models (exWide w).setup.srcs (exWide w).setup.rcvs) 0 1 where
  good := by
    refine exW_good hw (fun l hl => ?_) (fun a ha => ?_) (exU_noWf (sp := .none)) (fun m hm => ?_) (by simp) rfl rfl rfl ?_
    · have : some l ∈ [some exMidL, some exMidL, some exMidL, some exMidL] := hl
      exact .inl (by simpa using this)
    · have : some a ∈ [some exWA, some exWA] := ha
      simpa using this
    · simp only [List.mem_cons, List.not_mem_nil, or_false] at hm
      rcases hm with rfl | rfl <;> exact ⟨rfl, rfl⟩
    · show surveyExtents ![25, 25] [some exMidL, some exMidL, some exMidL, some exMidL] (List.replicate 12 none) .none none
        (fun _ => w) (fun _ => w) = .ok ![(0, 25), (0, 25)]
      rcases hw with rfl | rfl <;> decide +kernel
  lt := Nat.zero_lt_one
  pml := .inl (by norm_num [exWP])
  loc := fun l hl => by rcases hl with h | h | h <;> cases h <;> exact exMidL_whole 0
  freq := rfl
  interval := by norm_num [exWP]
  nt := .inr (.inl (by norm_num [exWP]))

/-- All samples are the same with a PML of three cells and with none. -/
example : ∃ r r', (exWide 3).born 0 = .ok (some r) ∧ (exWide 0).born 0 = .ok (some r') ∧ r'.bgTraces 0 = r.bgTraces 0 ∧
    r'.traces 0 = r.traces 0 := by
  obtain ⟨r, r', h1, h2, h3⟩ := C127_born_edges (exWide 3) _ _ 0 1 1 (.one (.int 0)) none .none (exWide_fwd 3 (.inr rfl))
    (exWide_fwd 0 (.inl rfl)) (fun x hx => by
      cases x with
      | none => rfl
      | some x => exact absurd hx (exU_noWf (sp := .none) x)) 6 6 exW_away
  obtain ⟨a, a'⟩ := exW_away 0 (by decide) _ (Scalar.exOne_cell 12 12 0)
  obtain ⟨h4, h5⟩ := h3 _ a a'
  exact ⟨r, r', h1, h2, (h4 0 (by decide) (Scalar.exOne_cell 12 12 0)).1 (by decide),
    (h5 0 (by decide) (Scalar.exOne_cell 12 12 0)).1 (by decide)⟩

end Dw.Born

namespace Dw.Acoustic

open Setup Resample
open Scalar (upAmps)

variable {d : ℕ}

def UArgs.withEdges (A : UArgs d) (w : PyArg) (f : Option PyNum) (sp : SurveyPad) : UArgs d :=
  { A with opts := A.opts.withEdges w f sp }

/-- **C127** for `acoustic`: here pressure and particle velocity each move half the accuracy in a time step. -/
theorem C127_acoustic_edges (A : UArgs d) (P P' : Plan d) (s : ℕ) (cf cf' : ℤ) (w : PyArg) (f : Option PyNum) (sp : SurveyPad)
    (h : Fwd A P s cf) (h' : Fwd (A.withEdges w f sp) P' s cf') (hwf : ∀ x ∈ A.setup.wfs, x = none) (T₁ T₂ : ℕ)
    (hsrc : P.SrcAway P' (2 * (P.acc.order / 2 : ℕ) * T₁) A.srcP s)
    (hsrcV : ∀ k, P.SrcAway P' (2 * (P.acc.order / 2 : ℕ) * T₁) (A.srcV k) s) :
    ∃ r r', A.acoustic s = .ok (some r) ∧ (A.withEdges w f sp).acoustic s = .ok (some r') ∧
      ∀ c, P.Away (2 * (P.acc.order / 2 : ℕ) * T₂) c → P'.Away (2 * (P.acc.order / 2 : ℕ) * T₂) c →
        (∀ i < locCount A.rcvP, locCell A.rcvP s i = some c → P.SameUntil (T₁ + T₂) (r.tracesP i) (r'.tracesP i)) ∧
        ∀ k, ∀ i < locCount (A.rcvV k), locCell (A.rcvV k) s i = some c →
          P.SameUntil (T₁ + T₂) (r.tracesV k i) (r'.tracesV k i) := by
  have e : P.SameSteps P' := good_edges h.good h'.good
  obtain ⟨r, p, v, phi, psi, hc, hw, hi, -, hp, hq⟩ := C92_acoustic_scheme A P s cf (plan_ok.2 h.good) h.pre
    h.lt h.pml h.loc h.last h.freq h.interval h.nt
  obtain ⟨r', p', v', phi', psi', hc', hw', hi', -, hp', hq'⟩ := C92_acoustic_scheme _ P' s cf' (plan_ok.2 h'.good) h'.pre
    h'.lt h'.pml h'.loc h'.last h'.freq h'.interval h'.nt
  have z := Starts.zero (P := P) (w := A.wf) hwf hw.outside hi
  have z' := Starts.zero (P := P') (w := A.wf) hwf hw'.outside hi'
  obtain ⟨g, g'⟩ := Plan.holds h.good h'.good
  refine ⟨r, r', hc, hc', fun c a a' => ?_⟩
  have key := hw.inside e.alike g g' hw' (T₁ := T₁) (T₂ := T₂) (c₀ := c)
    (fun c => by rw [z.1, z.2.1, z.2.2.1, z.2.2.2]; exact ⟨rfl, fun _ => ⟨rfl, rfl, rfl⟩⟩)
    (fun c => by rw [z'.1, z'.2.1, z'.2.2.1, z'.2.2.2]; exact ⟨rfl, fun _ => ⟨rfl, rfl, rfl⟩⟩)
    (fun c hc => ⟨by
      have hc0 := hc.mono (m := 0) (by norm_num)
      show _ * _ = _ * _
      rw [(extend_inside hc0).1, (extend_inside hc0).1]
      rfl, fun k => by
      show Spec.inverse A.rfmax (Spec.mean _ k c) = Spec.inverse A.rfmax (Spec.mean _ k c)
      unfold Spec.mean
      rw [(extend_inside (hc.mono (m := 0) (by norm_num))).1, (extend_inside (hc.shift (k := k) (j := 1) (by norm_num))).1]
      rfl⟩)
    (fun t c => ⟨e.locSum t c, fun k => e.locSum t c⟩)
    (fun t c hc => ⟨hsrc.zero _ hc, fun k => (hsrcV k).zero _ hc⟩) (a.inside a')
  have hn : ∀ t ≤ T₁ + T₂, Spec.Near c (2 * P.grid.half * (T₁ + T₂ - t)) c := fun t ht =>
    near_self c (mul_nonneg (mul_nonneg (by norm_num) P.grid.half_nonneg) (by omega))
  refine ⟨fun i hl hc => ?_, fun k i hl hc => ?_⟩
  · rw [hp i hl, hp' i hl]
    refine same_edges h.good h'.good e (f := fun t => locValue A.rcvP s i (p t))
      (f' := fun t => locValue A.rcvP s i (p' t)) fun t hT => ?_
    rw [locValue_near hc, locValue_near hc]
    exact (key t hT c (.inr (hn t hT))).1
  · rw [hq k i hl, hq' k i hl]
    refine same_edges h.good h'.good e (f := fun t => locValue (A.rcvV k) s i (v t k))
      (f' := fun t => locValue (A.rcvV k) s i (v' t k)) fun t hT => ?_
    rw [locValue_near hc, locValue_near hc]
    exact (key t hT c (.inr (hn t hT))).2 k

/-- 25 by 25 cells, sources and receivers in the middle. -/
noncomputable def exWide (w : ℤ) : UArgs 2 :=
  { exU .none with
    v := ⟨none, ![25, 25], fun _ c => 900 + c 0⟩, rho := ⟨none, ![25, 25], fun _ c => 2000 + c 1⟩
    ampP := some exWA, ampV := ![none, some exWA], srcP := some exMidL, srcV := ![none, some exMidL]
    rcvP := some exMidL, rcvV := ![some exMidL, none], opts := exWO w }

theorem exWide_locs {w : ℤ} {l : LocT} (hl : some l ∈ (exWide w).setup.srcs ++ (exWide w).setup.rcvs) : l = exMidL := by
  have : some l ∈ [some exMidL, none, some exMidL, some exMidL, some exMidL, none] := hl
  simpa using this

theorem exWide_pre (w : ℤ) : ¬(exWide w).Pre := by
  rintro ((h | ⟨k, h⟩) | ⟨k, l, hl, h⟩)
  · cases h
  · revert k
    show ∀ k : Fin 2, (![25, 25] : Fin 2 → ℤ) k ≤ 0 → False
    decide
  · obtain rfl := exWide_locs (UArgs.mem_loc hl)
    exact exMidL_beyond k h


theorem exWide_fwd (w : ℤ) (hw : w = 0 ∨ w = 3) :
    Fwd (exWide w) (exWP true w (exWide w).setup.models (exWide w).setup.srcs (exWide w).setup.rcvs) 0 1 where
  good := by
    refine exW_good hw (fun l hl => .inl (exWide_locs hl)) (fun a ha => ?_) (exU_noWf (sp := .none)) (fun m hm => ?_) (by simp) rfl rfl
      rfl ?_
    · have : some a ∈ [some exWA, none, some exWA] := ha
      simpa using this
    · simp only [List.mem_cons, List.not_mem_nil, or_false] at hm
      rcases hm with rfl | rfl <;> exact ⟨rfl, rfl⟩
    · show surveyExtents ![25, 25] [some exMidL, none, some exMidL, some exMidL, some exMidL, none]
        (List.replicate 7 none) .none none (fun _ => w) (fun _ => w) = .ok ![(0, 25), (0, 25)]
      rcases hw with rfl | rfl <;> decide +kernel
  pre := exWide_pre w
  lt := Nat.zero_lt_one
  pml := .inl (by norm_num [exWP])
  loc := fun l hl => by rw [exWide_locs hl]; exact exMidL_whole 0
  last := fun k => .inr (.inl (by fin_cases k <;> rfl))
  freq := rfl
  interval := by norm_num [exWP]
  nt := .inr (.inl (by norm_num [exWP]))

/-- All samples are the same with a PML of three cells and with none. -/
example : ∃ r r', (exWide 3).acoustic 0 = .ok (some r) ∧ (exWide 0).acoustic 0 = .ok (some r') ∧ r'.tracesP 0 = r.tracesP 0 ∧
    r'.tracesV 0 0 = r.tracesV 0 0 := by
  obtain ⟨r, r', h1, h2, h3⟩ := C127_acoustic_edges (exWide 3) _ _ 0 1 1 (.one (.int 0)) none .none (exWide_fwd 3 (.inr rfl))
    (exWide_fwd 0 (.inl rfl)) (fun x hx => by
      cases x with
      | none => rfl
      | some x => exact absurd hx (exU_noWf (sp := .none) x)) 3 3 exW_away
    (fun k => by
      fin_cases k
      · exact exW_away_none
      · exact exW_away)
  obtain ⟨a, a'⟩ := exW_away 0 (by decide) _ (Scalar.exOne_cell 12 12 0)
  obtain ⟨h4, h5⟩ := h3 _ a a'
  exact ⟨r, r', h1, h2, (h4 0 (by decide) (Scalar.exOne_cell 12 12 0)).1 (by decide),
    (h5 0 0 (by decide) (Scalar.exOne_cell 12 12 0)).1 (by decide)⟩

end Dw.Acoustic

namespace Dw.Elastic

open Setup Resample
open Scalar (upAmps)

variable {d : ℕ}

def UArgs.withEdges (A : UArgs d) (w : PyArg) (f : Option PyNum) (sp : SurveyPad) : UArgs d :=
  { A with opts := A.opts.withEdges w f sp }

/-- **C127** for `elastic`. -/
theorem C127_elastic_edges (A : UArgs d) (P P' : Plan d) (s : ℕ) (cf cf' : ℤ) (w : PyArg) (f : Option PyNum) (sp : SurveyPad)
    (h : Fwd A P s cf) (h' : Fwd (A.withEdges w f sp) P' s cf') (hwf : ∀ x ∈ A.setup.wfs, x = none) (T₁ T₂ : ℕ)
    (hsrc : P.SrcAway P' (2 * (P.acc.order / 2 : ℕ) * T₁) A.srcP s)
    (hsrcV : ∀ k, P.SrcAway P' (2 * (P.acc.order / 2 : ℕ) * T₁) (A.srcV k) s) :
    ∃ r r', A.elastic s = .ok (some r) ∧ (A.withEdges w f sp).elastic s = .ok (some r') ∧
      ∀ c, P.Away (2 * (P.acc.order / 2 : ℕ) * T₂) c → P'.Away (2 * (P.acc.order / 2 : ℕ) * T₂) c →
        (∀ i < locCount A.rcvP, locCell A.rcvP s i = some c → P.SameUntil (T₁ + T₂) (r.tracesP i) (r'.tracesP i)) ∧
        ∀ k, ∀ i < locCount (A.rcvV k), locCell (A.rcvV k) s i = some c →
          P.SameUntil (T₁ + T₂) (r.tracesV k i) (r'.tracesV k i) := by
  have e : P.SameSteps P' := good_edges h.good h'.good
  obtain ⟨r, v, sig, mv, ms, hc, hw, hi, -, hp, hq⟩ := C93_elastic_scheme A P s cf (plan_ok.2 h.good) h.pre
    h.lt h.pml h.loc h.last h.freq h.interval h.nt
  obtain ⟨r', v', sig', mv', ms', hc', hw', hi', -, hp', hq'⟩ := C93_elastic_scheme _ P' s cf' (plan_ok.2 h'.good) h'.pre
    h'.lt h'.pml h'.loc h'.last h'.freq h'.interval h'.nt
  have z := Starts.zero (P := P) (w := A.wf) hwf hw.symm hw.outside hi
  have z' := Starts.zero (P := P') (w := A.wf) hwf hw'.symm hw'.outside hi'
  obtain ⟨g, g'⟩ := Plan.holds h.good h'.good
  refine ⟨r, r', hc, hc', fun c a a' => ?_⟩
  have key := hw.inside e.alike g g' hw' (T₁ := T₁) (T₂ := T₂) (c₀ := c)
    (fun c i => by rw [z.1, z.2.1, z.2.2.1, z.2.2.2]; exact ⟨rfl, fun _ => ⟨rfl, rfl, rfl⟩⟩)
    (fun c i => by rw [z'.1, z'.2.1, z'.2.2.1, z'.2.2.2]; exact ⟨rfl, fun _ => ⟨rfl, rfl, rfl⟩⟩)
    (fun c hc => ?_) (fun t c => ⟨e.locSum t c, fun k => e.locSum t c⟩)
    (fun t c hc => ⟨hsrc.zero _ hc, fun k => (hsrcV k).zero _ hc⟩) (a.inside a')
  · have hn : ∀ t ≤ T₁ + T₂, Spec.Near c (2 * P.grid.half * (T₁ + T₂ - t)) c := fun t ht =>
      near_self c (mul_nonneg (mul_nonneg (by norm_num) P.grid.half_nonneg) (by omega))
    refine ⟨fun i hl hc => ?_, fun k i hl hc => ?_⟩
    · rw [hp i hl, hp' i hl]
      have e := same_edges h.good h'.good e (tt := A.opts.timeTaper) (T := T₁ + T₂)
        (f := fun t => locValue A.rcvP s i fun c => ∑ k, sig t k k c)
        (f' := fun t => locValue A.rcvP s i fun c => ∑ k, sig' t k k c) fun t hT => by
          rw [locValue_near hc, locValue_near hc]
          exact Finset.sum_congr rfl fun k _ => (key t hT c (.inr (hn t hT))).1 k k
      refine ⟨fun hT => ?_, fun h1 t ht => ?_⟩
      · have := e.1 hT
        exact congrArg (fun y : Sig ℝ => (⟨y.len, fun t => -y.val t / d⟩ : Sig ℝ)) this
      · have := e.2 h1 t ht
        exact congrArg (fun y => -y / (d : ℝ)) this
    · rw [hq k i hl, hq' k i hl]
      refine same_edges h.good h'.good e (f := fun t => locValue (A.rcvV k) s i (v t k))
        (f' := fun t => locValue (A.rcvV k) s i (v' t k)) fun t hT => ?_
      rw [locValue_near hc, locValue_near hc]
      exact (key t hT c (.inr (hn t hT))).2 k
  · have hx : ∀ (m : Fld d ℝ) c, Spec.Inside (P.boxL P') (P.boxH P') 0 c → P.grid.extend m c = P'.grid.extend m c :=
      fun m c hc => (extend_inside hc).1
    have hc0 := hc.mono (m := 0) (by norm_num)
    have hc1 : ∀ k, Spec.Inside (P.boxL P') (P.boxH P') 0 (c.shift k 1) := fun k => hc.shift (by norm_num)
    have hc2 : ∀ i j, i ≠ j → Spec.Inside (P.boxL P') (P.boxH P') 0 ((c.shift i 1).shift j 1) := fun i j hij k => by
      have := hc k
      by_cases e1 : k = i
      · subst e1
        simp [Cell.shift, hij]
        omega
      · by_cases e2 : k = j
        · subst e2
          simp [Cell.shift, e1]
          omega
        · simp [Cell.shift, e1, e2]
          omega
    refine ⟨hx _ c hc0, hx _ c hc0, fun i j hij => ?_, fun k => ?_⟩
    · show Spec.harmonic A.rfmax _ i j c = Spec.harmonic A.rfmax _ i j c
      unfold Spec.harmonic
      rw [hx _ c hc0, hx _ _ (hc1 i), hx _ _ (hc1 j), hx _ _ (hc2 i j hij)]
      rfl
    · show Spec.inverse A.rfmax (Spec.mean _ k c) = Spec.inverse A.rfmax (Spec.mean _ k c)
      unfold Spec.mean
      beta_reduce
      rw [hx _ c hc0, hx _ _ (hc1 k)]
      rfl

/-- 25 by 25 cells, sources and receivers in the middle. -/
noncomputable def exWide (w : ℤ) : UArgs 2 :=
  { exU .none with
    lam := ⟨none, ![25, 25], fun _ c => 900 + c 0⟩, mu := ⟨none, ![25, 25], fun _ c => 500 + c 1⟩
    buoyancy := ⟨none, ![25, 25], fun _ c => 1 + c 1⟩
    ampP := some exWA, ampV := ![none, some exWA], srcP := some exMidL, srcV := ![none, some exMidL]
    rcvP := some exMidL, rcvV := ![some exMidL, none], opts := exWO w }

theorem exWide_locs {w : ℤ} {l : LocT} (hl : some l ∈ (exWide w).setup.srcs ++ (exWide w).setup.rcvs) : l = exMidL := by
  have : some l ∈ [none, some exMidL, some exMidL, some exMidL, none, some exMidL] := hl
  simpa using this

theorem exWide_pre (w : ℤ) : ¬(exWide w).Pre := by
  have h0 : ∀ k : Fin 2, (![25, 25] : Fin 2 → ℤ) k ≤ 0 → False := by decide
  rintro (⟨k, l, hl, h⟩ | (h | ⟨k, h⟩) | (h | ⟨k, h⟩) | (h | ⟨k, h⟩))
  · obtain rfl := exWide_locs (UArgs.mem_loc hl)
    exact exMidL_beyond k h
  · cases h
  · exact h0 k h
  · cases h
  · exact h0 k h
  · cases h
  · exact h0 k h


theorem exWide_fwd (w : ℤ) (hw : w = 0 ∨ w = 3) :
    Fwd (exWide w) (exWP true w (exWide w).setup.models (exWide w).setup.srcs (exWide w).setup.rcvs) 0 1 where
  good := by
    refine exW_good hw (fun l hl => .inl (exWide_locs hl)) (fun a ha => ?_) (exU_noWf (sp := .none)) (fun m hm => ?_) (by simp) rfl rfl
      rfl ?_
    · have : some a ∈ [none, some exWA, some exWA] := ha
      simpa using this
    · simp only [List.mem_cons, List.not_mem_nil, or_false] at hm
      rcases hm with rfl | rfl | rfl <;> exact ⟨rfl, rfl⟩
    · show surveyExtents ![25, 25] [none, some exMidL, some exMidL, some exMidL, none, some exMidL]
        (List.replicate 16 none) .none none (fun _ => w) (fun _ => w) = .ok ![(0, 25), (0, 25)]
      rcases hw with rfl | rfl <;> decide +kernel
  pre := exWide_pre w
  lt := Nat.zero_lt_one
  pml := .inl (by norm_num [exWP])
  loc := fun l hl => by rw [exWide_locs hl]; exact exMidL_whole 0
  last := fun k => .inr (.inl (by fin_cases k <;> rfl))
  freq := rfl
  interval := by norm_num [exWP]
  nt := .inr (.inl (by norm_num [exWP]))

/-- All samples are the same with a PML of three cells and with none. -/
example : ∃ r r', (exWide 3).elastic 0 = .ok (some r) ∧ (exWide 0).elastic 0 = .ok (some r') ∧ r'.tracesP 0 = r.tracesP 0 ∧
    r'.tracesV 0 0 = r.tracesV 0 0 := by
  obtain ⟨r, r', h1, h2, h3⟩ := C127_elastic_edges (exWide 3) _ _ 0 1 1 (.one (.int 0)) none .none (exWide_fwd 3 (.inr rfl))
    (exWide_fwd 0 (.inl rfl)) (fun x hx => by
      cases x with
      | none => rfl
      | some x => exact absurd hx (exU_noWf (sp := .none) x)) 3 3 exW_away
    (fun k => by
      fin_cases k
      · exact exW_away_none
      · exact exW_away)
  obtain ⟨a, a'⟩ := exW_away 0 (by decide) _ (Scalar.exOne_cell 12 12 0)
  obtain ⟨h4, h5⟩ := h3 _ a a'
  exact ⟨r, r', h1, h2, (h4 0 (by decide) (Scalar.exOne_cell 12 12 0)).1 (by decide),
    (h5 0 0 (by decide) (Scalar.exOne_cell 12 12 0)).1 (by decide)⟩

end Dw.Elastic
