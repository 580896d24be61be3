import Verif.Spec.Move
import Verif.Props.UserEdges

/-!
# C135: it does not matter where in the model an experiment takes place

Until waves from the edges arrive, traces only depend on where sources and receivers are relative to each other and to the
structures around them.
-/

namespace Dw.Setup

open Scalar (upAmps downS)
open Resample (Sig)

variable {d : ℕ}

/-- The arguments with other models, locations and edges. -/
def SetupArgs.elsewhere (A : SetupArgs d) (ms : List (ModelT d ℝ × PadMode)) (mv : ℝ) (srcs rcvs : List (Option LocT))
    (w : PyArg) (f : Option PyNum) (sp : SurveyPad) : SetupArgs d :=
  { A with
    models := ms, maxModelVel := mv, srcs := srcs, rcvs := rcvs, pmlWidth := w, pmlFreq := f, surveyPad := sp }

/-- Locations in shot `s'` are the ones of shot `s` moved by `a`. -/
structure MovedBy (a : Cell d) (s s' : ℕ) (o o' : Option LocT) : Prop where
  count : locCount o' = locCount o
  cell : ∀ i < locCount o, locCell o' s' i = (locCell o s i).map (· + a)

/-- The amplitudes of both shots are the same. -/
def SameAmps (s s' : ℕ) (o : Option AmpT) : Prop := ∀ a, o = some a → ∀ i t, a.val s' i t = a.val s i t

/-- Where both plans use a model, it is the same after moving it by `a`. -/
def Plan.SameModel (P P' : Plan d) (a : Cell d) (m m' : Fld d ℝ) : Prop :=
  ∀ c, P.Away 0 c → P'.Away 0 (c + a) → m' (c + a) = m c

/-- Sources are at least `n` cells away from the edges. -/
def Plan.SrcBothAway (P P' : Plan d) (a : Cell d) (n : ℤ) (o : Option LocT) (s : ℕ) : Prop :=
  ∀ i < locCount o, ∀ c, locCell o s i = some c → P.Away n c ∧ P'.Away n (c + a)

theorem good_elsewhere {A : SetupArgs d} {P P' : Plan d} {ms : List (ModelT d ℝ × PadMode)} {mv : ℝ}
    {srcs rcvs : List (Option LocT)} {w : PyArg} {f : Option PyNum} {sp : SurveyPad} (h : A.Good P)
    (h' : (A.elsewhere ms mv srcs rcvs w f sp).Good P') (hv : P'.maxVel = P.maxVel) : P.SameSteps P' := by
  have e1 : P'.dxL = P.dxL := Except.ok.inj (h'.dx.symm.trans h.dx)
  have e3 : (P'.dt, P'.ratio) = (P.dt, P.ratio) := by
    have := h'.cfl
    rw [e1, hv] at this
    exact Except.ok.inj (this.symm.trans h.cfl)
  have e4 : P'.ratio = P.ratio := congrArg Prod.snd e3
  refine ⟨e1, congrArg Prod.fst e3, e4, Except.ok.inj (h'.acc.symm.trans h.acc), ?_,
    Except.ok.inj (h'.interval.symm.trans h.interval), Except.ok.inj (h'.ff.symm.trans h.ff),
    Except.ok.inj (h'.tf.symm.trans h.tf)⟩
  have := h'.nt
  rw [e4] at this
  exact Except.ok.inj (this.symm.trans h.nt)

/-- The plan with another origin. -/
def Plan.reframe (P : Plan d) (a : Cell d) : Plan d := { P with ext := fun k => ((P.ext k).1 - a k, (P.ext k).2 - a k) }

theorem Plan.reframe_grid (P : Plan d) (a : Cell d) : (P.reframe a).grid = P.grid.move a := by
  unfold Plan.grid Plan.reframe Spec.Grid.move
  congr 1
  funext k
  show (P.ext k).2 - a k - 1 = (P.ext k).2 - 1 - a k
  omega

theorem Plan.reframe_away {P : Plan d} {a c : Cell d} {n : ℤ} : (P.reframe a).Away n c ↔ P.Away n (c + a) := by
  unfold Plan.Away Plan.reframe
  refine forall_congr' fun k => ?_
  simp only [Pi.add_apply]
  omega

theorem Plan.SameSteps.reframe {P P' : Plan d} (e : P.SameSteps P') (a : Cell d) : P.SameSteps (P'.reframe a) :=
  ⟨e.dxL, e.dt, e.ratio, e.accZ, e.nt, e.interval, e.ff, e.tf⟩

theorem Plan.holds_moved {A A' : SetupArgs d} {P P' : Plan d} (h : A.Good P) (h' : A'.Good P') (a : Cell d) :
    P.grid.Holds (P.boxL (P'.reframe a)) (P.boxH (P'.reframe a)) ∧
      (P'.reframe a).grid.Holds (P.boxL (P'.reframe a)) (P.boxH (P'.reframe a)) := by
  refine ⟨⟨fun k => le_max_left _ _, fun k => ?_, fun k => (h.widths k).1, fun k => (h.widths k).2⟩,
    ⟨fun k => le_max_right _ _, fun k => ?_, fun k => (h'.widths k).1, fun k => (h'.widths k).2⟩⟩
  · show min (P.ext k).2 ((P'.reframe a).ext k).2 - 1 ≤ (P.ext k).2 - 1
    omega
  · show min (P.ext k).2 ((P'.reframe a).ext k).2 - 1 ≤ ((P'.reframe a).ext k).2 - 1
    omega

theorem inside_away {P P' : Plan d} {c : Cell d} (hc : Spec.Inside (P.boxL P') (P.boxH P') 0 c) : P.Away 0 c ∧ P'.Away 0 c := by
  constructor <;>
  · intro k
    have := hc k
    unfold Plan.boxL Plan.boxH at this
    omega

theorem extend_away {P : Plan d} {c : Cell d} (h : P.Away 0 c) (m : Fld d ℝ) :
    P.grid.extend m c = m c ∧ P.grid.extendZero m c = m c := by
  have h1 : ∀ k, (P.ext k).1 ≤ c k ∧ c k ≤ (P.ext k).2 - 1 := fun k => by
    have := h k
    omega
  constructor
  · unfold Spec.Grid.extend
    congr 1
    funext k
    have := h1 k
    show max (P.ext k).1 (min ((P.ext k).2 - 1) (c k)) = c k
    omega
  · unfold Spec.Grid.extendZero
    exact if_pos h1

theorem Plan.SameModel.extend {P P' : Plan d} {a : Cell d} {m m' : Fld d ℝ} (h : P.SameModel P' a m m') {c : Cell d}
    (hc : Spec.Inside (P.boxL (P'.reframe a)) (P.boxH (P'.reframe a)) 0 c) :
    P.grid.extend m c = P'.grid.extend m' (c + a) ∧ P.grid.extendZero m c = P'.grid.extendZero m' (c + a) := by
  obtain ⟨h1, h2⟩ := inside_away hc
  rw [Plan.reframe_away] at h2
  rw [(extend_away h1 m).1, (extend_away h1 m).2, (extend_away h2 m').1, (extend_away h2 m').2, h c h1 h2]
  exact ⟨rfl, rfl⟩

theorem Plan.SrcBothAway.moved {P P' : Plan d} {a : Cell d} {n : ℤ} {o : Option LocT} {s : ℕ} (h : P.SrcBothAway P' a n o s) :
    P.SrcAway (P'.reframe a) n o s := fun i hi c hc => ⟨(h i hi c hc).1, Plan.reframe_away.2 (h i hi c hc).2⟩

theorem MovedBy.sum {a : Cell d} {s s' : ℕ} {o o' : Option LocT} (h : MovedBy a s s' o o') (g : ℕ → ℝ) (c : Cell d) :
    locSum o' s' g (c + a) = locSum o s g c := by
  unfold locSum
  rw [h.count]
  refine Finset.sum_congr rfl fun i hi => if_congr ?_ rfl rfl
  rw [h.cell i (Finset.mem_range.1 hi)]
  cases locCell (d := d) o s i <;> simp

/-- The sources of both calls are the same. -/
theorem MovedBy.inject {a : Cell d} {s s' : ℕ} {o o' : Option LocT} (h : MovedBy a s s' o o') {P P' : Plan d}
    (e : P.SameSteps P') {x : Option AmpT} (hx : SameAmps s s' x) {tt : Bool} (t : ℕ) (c : Cell d) :
    (locSum o s fun i => upAmps P tt x s t i) c = (locSum o' s' fun i => upAmps P' tt x s' t i) (c + a) := by
  rw [h.sum]
  refine congrArg (fun g => locSum o s g c) (funext fun i => ?_)
  rw [e.amps]
  cases x with
  | none => rfl
  | some x =>
      have : x.val s' i = x.val s i := funext fun t => hx x rfl i t
      simp only [upAmps, this]

theorem MovedBy.value {a : Cell d} {s s' : ℕ} {o o' : Option LocT} (h : MovedBy a s s' o o') {i : ℕ} (hi : i < locCount o)
    {c : Cell d} (hc : locCell o s i = some c) (u : Fld d ℝ) : locValue o' s' i u = u (c + a) :=
  locValue_near (by rw [h.cell i hi, hc]; rfl) u

/-! ### The other place in the examples -/

/-- Three cells further along the first axis and two back along the second one. -/
def exMoveA : Cell 2 := ![3, -2]

theorem exThere_moved : MovedBy exMoveA 0 0 (some exMidL) (some exThereL) where
  count := rfl
  cell := fun i _ => by
    show locCell (some (Scalar.exOne 15 10)) 0 i = (locCell (some (Scalar.exOne 12 12)) 0 i).map (· + exMoveA)
    have e1 := Scalar.exOne_cell 15 10 i
    have e2 := Scalar.exOne_cell 12 12 i
    push_cast at e1 e2
    rw [e1, e2]
    refine congrArg some ?_
    decide

theorem exThere_none : MovedBy (d := 2) exMoveA 0 0 none none := ⟨rfl, fun _ h => absurd h (Nat.not_lt_zero _)⟩

theorem exThere_amps (x : Option AmpT) : SameAmps 0 0 x := fun _ _ _ _ => rfl

theorem exThereL_whole (s : ℕ) : Scalar.WholeIgnored 2 exThereL s :=
  fun i _ => .inr (Scalar.exOne_whole (by norm_num) (by norm_num) s i)

theorem exThereL_beyond (k : Fin 2) : ¬exThereL.Beyond k ((![25, 25] : Fin 2 → ℤ) k) := by
  revert k
  unfold LocT.Beyond
  decide +kernel

theorem exHere_away {st : Bool} {w : ℤ} {ms : List (ModelT 2 ℝ × PadMode)} {srcs rcvs : List (Option LocT)} :
    (exWP st w ms srcs rcvs).Away 9 ![12, 12] := by
  show ∀ k, ((![(0, 25), (0, 25)] : Fin 2 → ℤ × ℤ) k).1 + 9 ≤ (![12, 12] : Fin 2 → ℤ) k ∧
      (![12, 12] : Fin 2 → ℤ) k + 9 < ((![(0, 25), (0, 25)] : Fin 2 → ℤ × ℤ) k).2
  decide

theorem exThere_far {st : Bool} {w : ℤ} {ms : List (ModelT 2 ℝ × PadMode)} {srcs rcvs : List (Option LocT)} :
    (exWP st w ms srcs rcvs).Away 9 (![12, 12] + exMoveA) := by
  show ∀ k, ((![(0, 25), (0, 25)] : Fin 2 → ℤ × ℤ) k).1 + 9 ≤ (![12, 12] + ![3, -2] : Fin 2 → ℤ) k ∧
      (![12, 12] + ![3, -2] : Fin 2 → ℤ) k + 9 < ((![(0, 25), (0, 25)] : Fin 2 → ℤ × ℤ) k).2
  decide

theorem Plan.Away.mono {P : Plan d} {m n : ℤ} {c : Cell d} (h : P.Away n c) (hm : m ≤ n) : P.Away m c := fun k => by
  have := h k
  omega

theorem exThere_away {n : ℤ} (hn : n ≤ 9) {st st' : Bool} {w w' : ℤ} {ms ms' : List (ModelT 2 ℝ × PadMode)}
    {srcs rcvs srcs' rcvs' : List (Option LocT)} :
    (exWP st w ms srcs rcvs).SrcBothAway (exWP st' w' ms' srcs' rcvs') exMoveA n (some exMidL) 0 := by
  intro i _ c hc
  have e := Option.some.inj (hc.symm.trans (Scalar.exOne_cell 12 12 i))
  subst e
  exact ⟨exHere_away.mono hn, exThere_far.mono hn⟩

theorem exThere_away_none {P P' : Plan 2} {a : Cell 2} {n : ℤ} : P.SrcBothAway P' a n none 0 := fun _ _ _ h => by cases h

end Dw.Setup

namespace Dw.Scalar

open Setup Resample

variable {d : ℕ}

/-- The call with other models, locations and edges. -/
def UArgs.elsewhere (A : UArgs d) (v : ModelT d ℝ) (src rcv : Option LocT) (w : PyArg) (f : Option PyNum) (sp : SurveyPad) :
    UArgs d :=
  { A with v := v, src := src, rcv := rcv, pmlWidth := w, pmlFreq := f, surveyPad := sp }

/-- **C135** It does not matter where in the model an experiment takes place: if sources and receivers are moved by `a` cells and
the velocities around them are the same, samples up to `T₁ + T₂` are, for sources at least `T₁` and a receiver at least `T₂`
times half the accuracy away from the edges. -/
theorem C135_elsewhere (A : UArgs d) (P P' : Plan d) (s s' : ℕ) (cf cf' : ℤ) (v : ModelT d ℝ) (src rcv : Option LocT) (w : PyArg)
    (f : Option PyNum) (sp : SurveyPad) (h : Fwd A P s cf) (h' : Fwd (A.elsewhere v src rcv w f sp) P' s' cf')
    (hwf : ∀ x ∈ A.setup.wfs, x = none) (hmax : P'.maxVel = P.maxVel) (a : Cell d) (ha : SameAmps s s' A.amps)
    (hs : MovedBy a s s' A.src src) (hr : MovedBy a s s' A.rcv rcv) (hm : P.SameModel P' a (A.v.shot s) (v.shot s')) (T₁ T₂ : ℕ)
    (hsrc : P.SrcBothAway P' a ((P.acc.order / 2 : ℕ) * T₁) A.src s) :
    ∃ r r', A.scalar s = .ok (some r) ∧ (A.elsewhere v src rcv w f sp).scalar s' = .ok (some r') ∧
      ∀ i < locCount A.rcv, ∀ c, locCell A.rcv s i = some c → P.Away ((P.acc.order / 2 : ℕ) * T₂) c →
        P'.Away ((P.acc.order / 2 : ℕ) * T₂) (c + a) → P.SameUntil (T₁ + T₂) (r.traces i) (r'.traces i) := by
  have e : P.SameSteps P' := good_elsewhere (A := A.setup) h.good h'.good hmax
  obtain ⟨r, u, psi, zeta, hc, hw, hI, -, ht⟩ := C90_scalar_scheme A P s cf (plan_ok.2 h.good) h.lt h.pml h.src h.rcv
    h.freq h.interval h.nt
  obtain ⟨r', u', psi', zeta', hc', hw', hI', -, ht'⟩ := C90_scalar_scheme _ P' s' cf' (plan_ok.2 h'.good) h'.lt h'.pml
    h'.src h'.rcv h'.freq h'.interval h'.nt
  have z := startsFrom_none (P := P) (w := ⟨A.wfc, A.wfp, A.psi, A.zeta⟩) hwf hw.outside hI
  have z' := startsFrom_none (P := P') (w := ⟨A.wfc, A.wfp, A.psi, A.zeta⟩) hwf hw'.outside hI'
  obtain ⟨g, g'⟩ := Plan.holds_moved h.good h'.good a
  refine ⟨r, r', hc, hc', fun i hi c hl k k' => ?_⟩
  have hw2 := hw'.move a
  rw [← Plan.reframe_grid] at hw2
  have key := hw.inside (e.reframe a).alike g g' hw2 (T₁ := T₁) (T₂ := T₂) (c₀ := c)
    (fun c => by rw [z.1, z.2.1, z.2.2.1, z.2.2.2]; exact ⟨rfl, rfl, fun _ => ⟨rfl, rfl⟩⟩)
    (fun c => by rw [z'.1, z'.2.1, z'.2.2.1, z'.2.2.2]; exact ⟨rfl, rfl, fun _ => ⟨rfl, rfl⟩⟩)
    (fun c hc => (hm.extend hc).1) (fun t c => hs.inject e ha t c) (fun t c hc => hsrc.moved.zero _ hc)
    (k.inside (Plan.reframe_away.2 k'))
  rw [ht i hi, ht' i (hr.count ▸ hi)]
  refine same_edges h.good h'.good e (f := fun t => locValue A.rcv s i (u (t + 1)))
    (f' := fun t => locValue rcv s' i (u' (t + 1))) fun t hT => ?_
  rw [locValue_near hl, hr.value hi hl]
  exact (key t hT c (.inr (near_self c (mul_nonneg P.grid.half_nonneg (by omega))))).2

/-- The experiment of `exWide` elsewhere, without PML. -/
noncomputable def exThere : UArgs 2 :=
  (exWide 3).elsewhere ⟨none, ![25, 25], fun _ c => 900 + (c 0 - 3)⟩ (some exThereL) (some exThereL) (.one (.int 0)) none .none

theorem exThere_fwd : Fwd exThere (exWP false 0 exThere.setup.models exThere.setup.srcs exThere.setup.rcvs) 0 1 where
  good := exW_good (st := false) (wfs := exThere.setup.wfs) (mv := maxAbs exThere.v) (amps := exThere.setup.amps) (.inl rfl)
    (fun l hl => .inr (by simpa [exThere, UArgs.elsewhere, UArgs.setup] using hl))
    (fun a ha => by simpa [exThere, UArgs.elsewhere, exWide, UArgs.setup] using ha)
    (fun w hw => by simp [exThere, UArgs.elsewhere, exWide, exV, exU, UArgs.setup] at hw)
    (fun m hm => by simp only [List.mem_singleton] at hm; subst hm; exact ⟨rfl, rfl⟩) (by simp) rfl rfl rfl
    (by
      show surveyExtents ![25, 25] [some exThereL, some exThereL] [none, none, none, none, none, none] .none none
        (fun _ => 0) (fun _ => 0) = .ok ![(0, 25), (0, 25)]
      decide +kernel)
  lt := Nat.zero_lt_one
  pml := .inl (by norm_num [exWP])
  src := fun l hl => by cases hl; exact exThereL_whole 0
  rcv := fun l hl => by cases hl; exact exThereL_whole 0
  freq := rfl
  interval := by norm_num [exWP]
  nt := .inr (.inl (by norm_num [exWP]))

/-- All samples are the same at the other place. -/
example : ∃ r r', (exWide 3).scalar 0 = .ok (some r) ∧ exThere.scalar 0 = .ok (some r') ∧ r'.traces 0 = r.traces 0 := by
  obtain ⟨r, r', h1, h2, h3⟩ := C135_elsewhere (exWide 3) _ _ 0 0 1 1 ⟨none, ![25, 25], fun _ c => 900 + (c 0 - 3)⟩ (some exThereL)
    (some exThereL) (.one (.int 0)) none .none (exWide_fwd 3 (.inr rfl)) exThere_fwd
    (fun x hx => by simpa [exWide, exV, exU, UArgs.setup] using hx) rfl exMoveA (exThere_amps _) exThere_moved exThere_moved
    (fun c _ _ => by
      show (900 + (((c + exMoveA) 0 : ℤ) - 3) : ℝ) = 900 + (c 0 : ℤ)
      simp [exMoveA]) 4 4
    (exThere_away (show ((4 / 2 : ℕ) : ℤ) * (4 : ℕ) ≤ 9 by decide))
  exact ⟨r, r', h1, h2, (h3 0 (by decide) _ (exOne_cell 12 12 0)
    (exHere_away.mono (show ((4 / 2 : ℕ) : ℤ) * (4 : ℕ) ≤ 9 by decide))
    (exThere_far.mono (show ((4 / 2 : ℕ) : ℤ) * (4 : ℕ) ≤ 9 by decide))).1 (by decide)⟩

end Dw.Scalar

namespace Dw.Born

open Setup Resample
open Scalar (upAmps)

variable {d : ℕ}

def UArgs.elsewhere (A : UArgs d) (v scatter : ModelT d ℝ) (src rcv bgRcv : Option LocT) (w : PyArg) (f : Option PyNum)
    (sp : SurveyPad) : UArgs d :=
  { A with
    v := v, scatter := scatter, src := src, rcv := rcv, bgRcv := bgRcv, opts := A.opts.withEdges w f sp }

/-- **C135** for `scalar_born`. -/
theorem C135_born_elsewhere (A : UArgs d) (P P' : Plan d) (s s' : ℕ) (cf cf' : ℤ) (v scatter : ModelT d ℝ)
    (src rcv bgRcv : Option LocT) (w : PyArg) (f : Option PyNum) (sp : SurveyPad) (h : Fwd A P s cf)
    (h' : Fwd (A.elsewhere v scatter src rcv bgRcv w f sp) P' s' cf') (hwf : ∀ x ∈ A.setup.wfs, x = none)
    (hmax : P'.maxVel = P.maxVel) (a : Cell d) (ha : SameAmps s s' A.amps) (hs : MovedBy a s s' A.src src)
    (hr : MovedBy a s s' A.rcv rcv) (hb : MovedBy a s s' A.bgRcv bgRcv) (hm : P.SameModel P' a (A.v.shot s) (v.shot s'))
    (hm2 : P.SameModel P' a (A.scatter.shot s) (scatter.shot s')) (T₁ T₂ : ℕ)
    (hsrc : P.SrcBothAway P' a ((P.acc.order / 2 : ℕ) * T₁) A.src s) :
    ∃ r r', A.born s = .ok (some r) ∧ (A.elsewhere v scatter src rcv bgRcv w f sp).born s' = .ok (some r') ∧
      ∀ c, P.Away ((P.acc.order / 2 : ℕ) * T₂) c → P'.Away ((P.acc.order / 2 : ℕ) * T₂) (c + a) →
        (∀ i < locCount A.bgRcv, locCell A.bgRcv s i = some c → P.SameUntil (T₁ + T₂) (r.bgTraces i) (r'.bgTraces i)) ∧
        ∀ i < locCount A.rcv, locCell A.rcv s i = some c → P.SameUntil (T₁ + T₂) (r.traces i) (r'.traces i) := by
  have e : P.SameSteps P' := good_elsewhere (A := A.setup) h.good h'.good hmax
  obtain ⟨r, u, psi, zeta, y, ps, ze, hc, hw, hsc, hi, hi2, -, -, hb1, ht⟩ := C91_born_scheme A P s cf (plan_ok.2 h.good)
    h.lt h.pml h.loc h.freq h.interval h.nt
  obtain ⟨r', u', psi', zeta', y', ps', ze', hc', hw', hsc', hi', hi2', -, -, hb', ht'⟩ := C91_born_scheme _ P' s' cf'
    (plan_ok.2 h'.good) h'.lt h'.pml h'.loc h'.freq h'.interval h'.nt
  have w1 : ∀ x ∈ A.wf.list, x = none := fun x hx => hwf x (List.mem_append_left _ hx)
  have w2 : ∀ x ∈ A.wfsc.list, x = none := fun x hx => hwf x (List.mem_append_right _ hx)
  have z := startsFrom_none (P := P) (w := A.wf) w1 hw.outside hi
  have z' := startsFrom_none (P := P') (w := A.wf) w1 hw'.outside hi'
  have x := startsFrom_none (P := P) (w := A.wfsc) w2 hsc.outside hi2
  have x' := startsFrom_none (P := P') (w := A.wfsc) w2 hsc'.outside hi2'
  obtain ⟨g, g'⟩ := Plan.holds_moved h.good h'.good a
  have hw3 := hw'.move a
  have hsc3 := hsc'.move a
  rw [← Plan.reframe_grid] at hw3 hsc3
  have st : ∀ {u : ℕ → Fld d ℝ} {psi zeta : ℕ → Fin d → Fld d ℝ}, u 0 = 0 ∧ u 1 = 0 ∧ psi 0 = 0 ∧ zeta 0 = 0 →
      ∀ c, u 1 c = 0 ∧ u 0 c = 0 ∧ ∀ k, psi 0 k c = 0 ∧ zeta 0 k c = 0 := fun z c => by
    rw [z.1, z.2.1, z.2.2.1, z.2.2.2]
    exact ⟨rfl, rfl, fun _ => ⟨rfl, rfl⟩⟩
  have hq : ∀ t c, _ := fun (t : ℕ) (c : Cell d) => hs.inject (tt := A.opts.timeTaper) e ha t c
  refine ⟨r, r', hc, hc', fun c k k' => ?_⟩
  have hin := k.inside (Plan.reframe_away.2 k')
  have k1 := hw.inside (e.reframe a).alike g g' hw3 (T₁ := T₁) (T₂ := T₂) (c₀ := c) (st z) (fun c => st z' (c + a))
    (fun c hc => (hm.extend hc).1) hq (fun t c hc => hsrc.moved.zero _ hc) hin
  have k2 := Spec.Grid.Scattered.inside (e.reframe a).alike g g' hw hw3 (st z) (fun c => st z' (c + a)) hsc hsc3 (st x)
    (fun c => st x' (c + a)) (T₁ := T₁) (T₂ := T₂) (c₀ := c)
    (fun c hc => ⟨(hm.extend hc).1, (hm2.extend hc).2⟩) hq (fun t c hc => hsrc.moved.zero _ hc) hin
  have hn : ∀ t ≤ T₁ + T₂, Spec.Near c (P.grid.half * (T₁ + T₂ - t)) c := fun t ht =>
    near_self c (mul_nonneg P.grid.half_nonneg (by omega))
  refine ⟨fun i hl hc => ?_, fun i hl hc => ?_⟩
  · rw [hb1 i hl, hb' i (hb.count ▸ hl)]
    refine same_edges h.good h'.good e (f := fun t => locValue A.bgRcv s i (u (t + 1)))
      (f' := fun t => locValue bgRcv s' i (u' (t + 1))) fun t hT => ?_
    rw [locValue_near hc, hb.value hl hc]
    exact (k1 t hT c (.inr (hn t hT))).2
  · rw [ht i hl, ht' i (hr.count ▸ hl)]
    refine same_edges h.good h'.good e (f := fun t => locValue A.rcv s i (y (t + 1)))
      (f' := fun t => locValue rcv s' i (y' (t + 1))) fun t hT => ?_
    rw [locValue_near hc, hr.value hl hc]
    exact (k2 t hT c (.inr (hn t hT))).2

/-- The experiment of `exWide` elsewhere, without PML. -/
noncomputable def exThere : UArgs 2 :=
  (exWide 3).elsewhere ⟨none, ![25, 25], fun _ c => 900 + (c 0 - 3)⟩ ⟨none, ![25, 25], fun _ c => c 1 + 2⟩ (some exThereL)
    (some exThereL) (some exThereL) (.one (.int 0)) none .none

theorem exThere_fwd : Fwd exThere (exWP false 0 exThere.setup.models exThere.setup.srcs exThere.setup.rcvs) 0 1 where
  good := by
    refine exW_good (.inl rfl) (fun l hl => ?_) (fun a ha => ?_) (exU_noWf (sp := .none)) (fun m hm => ?_) (by simp) rfl rfl
      rfl ?_
    · have : some l ∈ [some exThereL, some exThereL, some exThereL, some exThereL] := hl
      exact .inr (by simpa using this)
    · have : some a ∈ [some exWA, some exWA] := ha
      simpa using this
    · simp only [List.mem_cons, List.not_mem_nil, or_false] at hm
      rcases hm with rfl | rfl <;> exact ⟨rfl, rfl⟩
    · show surveyExtents ![25, 25] [some exThereL, some exThereL, some exThereL, some exThereL] (List.replicate 12 none) .none
        none (fun _ => 0) (fun _ => 0) = .ok ![(0, 25), (0, 25)]
      decide +kernel
  lt := Nat.zero_lt_one
  pml := .inl (by norm_num [exWP])
  loc := fun l hl => by rcases hl with h | h | h <;> cases h <;> exact exThereL_whole 0
  freq := rfl
  interval := by norm_num [exWP]
  nt := .inr (.inl (by norm_num [exWP]))

/-- All samples are the same at the other place. -/
example : ∃ r r', (exWide 3).born 0 = .ok (some r) ∧ exThere.born 0 = .ok (some r') ∧ r'.bgTraces 0 = r.bgTraces 0 ∧
    r'.traces 0 = r.traces 0 := by
  have hn : ((4 / 2 : ℕ) : ℤ) * (4 : ℕ) ≤ 9 := by decide
  obtain ⟨r, r', h1, h2, h3⟩ := C135_born_elsewhere (exWide 3) _ _ 0 0 1 1 ⟨none, ![25, 25], fun _ c => 900 + (c 0 - 3)⟩
    ⟨none, ![25, 25], fun _ c => c 1 + 2⟩ (some exThereL) (some exThereL) (some exThereL) (.one (.int 0)) none .none
    (exWide_fwd 3 (.inr rfl)) exThere_fwd (fun x hx => by
      cases x with
      | none => rfl
      | some x => exact absurd hx (exU_noWf (sp := .none) x)) rfl exMoveA (exThere_amps _) exThere_moved exThere_moved
    exThere_moved
    (fun c _ _ => by
      show (900 + (((c + exMoveA) 0 : ℤ) - 3) : ℝ) = 900 + (c 0 : ℤ)
      simp [exMoveA])
    (fun c _ _ => by
      show ((((c + exMoveA) 1 : ℤ) + 2) : ℝ) = (c 1 : ℤ)
      simp [exMoveA]) 4 4 (exThere_away hn)
  obtain ⟨h4, h5⟩ := h3 _ (exHere_away.mono hn) (exThere_far.mono hn)
  exact ⟨r, r', h1, h2, (h4 0 (by decide) (Scalar.exOne_cell 12 12 0)).1 (by decide),
    (h5 0 (by decide) (Scalar.exOne_cell 12 12 0)).1 (by decide)⟩

end Dw.Born

namespace Dw.Acoustic

open Setup Resample
open Scalar (upAmps)

variable {d : ℕ}

def UArgs.elsewhere (A : UArgs d) (v rho : ModelT d ℝ) (srcP : Option LocT) (srcV : Fin d → Option LocT) (rcvP : Option LocT)
    (rcvV : Fin d → Option LocT) (w : PyArg) (f : Option PyNum) (sp : SurveyPad) : UArgs d :=
  { A with
    v := v, rho := rho, srcP := srcP, srcV := srcV, rcvP := rcvP, rcvV := rcvV, opts := A.opts.withEdges w f sp }

/-- **C135** for `acoustic`: here pressure and particle velocity each move half the accuracy in a time step. -/
theorem C135_acoustic_elsewhere (A : UArgs d) (P P' : Plan d) (s s' : ℕ) (cf cf' : ℤ) (v rho : ModelT d ℝ) (srcP : Option LocT)
    (srcV : Fin d → Option LocT) (rcvP : Option LocT) (rcvV : Fin d → Option LocT) (w : PyArg) (f : Option PyNum)
    (sp : SurveyPad) (h : Fwd A P s cf) (h' : Fwd (A.elsewhere v rho srcP srcV rcvP rcvV w f sp) P' s' cf')
    (hwf : ∀ x ∈ A.setup.wfs, x = none) (hmax : P'.maxVel = P.maxVel) (a : Cell d) (ha : SameAmps s s' A.ampP)
    (haV : ∀ k, SameAmps s s' (A.ampV k)) (hs : MovedBy a s s' A.srcP srcP) (hsV : ∀ k, MovedBy a s s' (A.srcV k) (srcV k))
    (hr : MovedBy a s s' A.rcvP rcvP) (hrV : ∀ k, MovedBy a s s' (A.rcvV k) (rcvV k))
    (hm : P.SameModel P' a (A.v.shot s) (v.shot s')) (hm2 : P.SameModel P' a (A.rho.shot s) (rho.shot s')) (T₁ T₂ : ℕ)
    (hsrc : P.SrcBothAway P' a (2 * (P.acc.order / 2 : ℕ) * T₁) A.srcP s)
    (hsrcV : ∀ k, P.SrcBothAway P' a (2 * (P.acc.order / 2 : ℕ) * T₁) (A.srcV k) s) :
    ∃ r r', A.acoustic s = .ok (some r) ∧ (A.elsewhere v rho srcP srcV rcvP rcvV w f sp).acoustic s' = .ok (some r') ∧
      ∀ c, P.Away (2 * (P.acc.order / 2 : ℕ) * T₂) c → P'.Away (2 * (P.acc.order / 2 : ℕ) * T₂) (c + a) →
        (∀ i < locCount A.rcvP, locCell A.rcvP s i = some c → P.SameUntil (T₁ + T₂) (r.tracesP i) (r'.tracesP i)) ∧
        ∀ k, ∀ i < locCount (A.rcvV k), locCell (A.rcvV k) s i = some c →
          P.SameUntil (T₁ + T₂) (r.tracesV k i) (r'.tracesV k i) := by
  have e : P.SameSteps P' := good_elsewhere (A := A.setup) h.good h'.good hmax
  obtain ⟨r, p, y, phi, psi, hc, hw, hi, -, hp, hq⟩ := C92_acoustic_scheme A P s cf (plan_ok.2 h.good) h.pre
    h.lt h.pml h.loc h.last h.freq h.interval h.nt
  obtain ⟨r', p', y', phi', psi', hc', hw', hi', -, hp', hq'⟩ := C92_acoustic_scheme _ P' s' cf' (plan_ok.2 h'.good) h'.pre
    h'.lt h'.pml h'.loc h'.last h'.freq h'.interval h'.nt
  have z := Starts.zero (P := P) (w := A.wf) hwf hw.outside hi
  have z' := Starts.zero (P := P') (w := A.wf) hwf hw'.outside hi'
  obtain ⟨g, g'⟩ := Plan.holds_moved h.good h'.good a
  have hw3 := hw'.move a
  rw [← Plan.reframe_grid] at hw3
  refine ⟨r, r', hc, hc', fun c k k' => ?_⟩
  have key := hw.inside (e.reframe a).alike g g' hw3 (T₁ := T₁) (T₂ := T₂) (c₀ := c)
    (fun c => by rw [z.1, z.2.1, z.2.2.1, z.2.2.2]; exact ⟨rfl, fun _ => ⟨rfl, rfl, rfl⟩⟩)
    (fun c => by rw [z'.1, z'.2.1, z'.2.2.1, z'.2.2.2]; exact ⟨rfl, fun _ => ⟨rfl, rfl, rfl⟩⟩)
    (fun c hc => ⟨by
      have hc0 := hc.mono (m := 0) (by norm_num)
      rw [(hm.extend hc0).1, (hm2.extend hc0).1]
      rfl, fun k => by
      show Spec.inverse A.rfmax (Spec.mean _ k c) = Spec.inverse A.rfmax (Spec.mean _ k (c + a))
      unfold Spec.mean
      rw [(hm2.extend (hc.mono (m := 0) (by norm_num))).1, (hm2.extend (hc.shift (k := k) (j := 1) (by norm_num))).1,
        Spec.add_shift]
      rfl⟩)
    (fun t c => ⟨hs.inject e ha t c, fun k => (hsV k).inject e (haV k) t c⟩)
    (fun t c hc => ⟨hsrc.moved.zero _ hc, fun k => (hsrcV k).moved.zero _ hc⟩) (k.inside (Plan.reframe_away.2 k'))
  have hn : ∀ t ≤ T₁ + T₂, Spec.Near c (2 * P.grid.half * (T₁ + T₂ - t)) c := fun t ht =>
    near_self c (mul_nonneg (mul_nonneg (by norm_num) P.grid.half_nonneg) (by omega))
  refine ⟨fun i hl hc => ?_, fun k i hl hc => ?_⟩
  · rw [hp i hl, hp' i (hr.count ▸ hl)]
    refine same_edges h.good h'.good e (f := fun t => locValue A.rcvP s i (p t))
      (f' := fun t => locValue rcvP s' i (p' t)) fun t hT => ?_
    rw [locValue_near hc, hr.value hl hc]
    exact (key t hT c (.inr (hn t hT))).1
  · rw [hq k i hl, hq' k i ((hrV k).count ▸ hl)]
    refine same_edges h.good h'.good e (f := fun t => locValue (A.rcvV k) s i (y t k))
      (f' := fun t => locValue (rcvV k) s' i (y' t k)) fun t hT => ?_
    rw [locValue_near hc, (hrV k).value hl hc]
    exact (key t hT c (.inr (hn t hT))).2 k

/-- The experiment of `exWide` elsewhere, without PML. -/
noncomputable def exThere : UArgs 2 :=
  (exWide 3).elsewhere ⟨none, ![25, 25], fun _ c => 900 + (c 0 - 3)⟩ ⟨none, ![25, 25], fun _ c => 2000 + (c 1 + 2)⟩
    (some exThereL) ![none, some exThereL] (some exThereL) ![some exThereL, none] (.one (.int 0)) none .none

theorem exThere_locs {l : LocT} (hl : some l ∈ exThere.setup.srcs ++ exThere.setup.rcvs) : l = exThereL := by
  have : some l ∈ [some exThereL, none, some exThereL, some exThereL, some exThereL, none] := hl
  simpa using this

theorem exThere_pre : ¬exThere.Pre := by
  rintro ((h | ⟨k, h⟩) | ⟨k, l, hl, h⟩)
  · cases h
  · revert k
    show ∀ k : Fin 2, (![25, 25] : Fin 2 → ℤ) k ≤ 0 → False
    decide
  · obtain rfl := exThere_locs (UArgs.mem_loc hl)
    exact exThereL_beyond k h

theorem exThere_fwd : Fwd exThere (exWP true 0 exThere.setup.models exThere.setup.srcs exThere.setup.rcvs) 0 1 where
  good := by
    refine exW_good (.inl rfl) (fun l hl => .inr (exThere_locs hl)) (fun a ha => ?_) (exU_noWf (sp := .none))
      (fun m hm => ?_) (by simp) rfl rfl rfl ?_
    · have : some a ∈ [some exWA, none, some exWA] := ha
      simpa using this
    · simp only [List.mem_cons, List.not_mem_nil, or_false] at hm
      rcases hm with rfl | rfl <;> exact ⟨rfl, rfl⟩
    · show surveyExtents ![25, 25] [some exThereL, none, some exThereL, some exThereL, some exThereL, none]
        (List.replicate 7 none) .none none (fun _ => 0) (fun _ => 0) = .ok ![(0, 25), (0, 25)]
      decide +kernel
  pre := exThere_pre
  lt := Nat.zero_lt_one
  pml := .inl (by norm_num [exWP])
  loc := fun l hl => by rw [exThere_locs hl]; exact exThereL_whole 0
  last := fun k => .inr (.inl (by fin_cases k <;> rfl))
  freq := rfl
  interval := by norm_num [exWP]
  nt := .inr (.inl (by norm_num [exWP]))

/-- The first five samples are the same at the other place. -/
example : ∃ r r', (exWide 3).acoustic 0 = .ok (some r) ∧ exThere.acoustic 0 = .ok (some r') ∧
    ∀ t ≤ 4, (r'.tracesP 0).val t = (r.tracesP 0).val t ∧ (r'.tracesV 0 0).val t = (r.tracesV 0 0).val t := by
  have hn : 2 * ((4 / 2 : ℕ) : ℤ) * (2 : ℕ) ≤ 9 := by decide
  obtain ⟨r, r', h1, h2, h3⟩ := C135_acoustic_elsewhere (exWide 3) _ _ 0 0 1 1 ⟨none, ![25, 25], fun _ c => 900 + (c 0 - 3)⟩
    ⟨none, ![25, 25], fun _ c => 2000 + (c 1 + 2)⟩ (some exThereL) ![none, some exThereL] (some exThereL)
    ![some exThereL, none] (.one (.int 0)) none .none (exWide_fwd 3 (.inr rfl)) exThere_fwd (fun x hx => by
      cases x with
      | none => rfl
      | some x => exact absurd hx (exU_noWf (sp := .none) x)) rfl exMoveA (exThere_amps _) (fun _ => exThere_amps _)
    exThere_moved (fun k => by
      fin_cases k
      · exact exThere_none
      · exact exThere_moved)
    exThere_moved (fun k => by
      fin_cases k
      · exact exThere_moved
      · exact exThere_none)
    (fun c _ _ => by
      show (900 + (((c + exMoveA) 0 : ℤ) - 3) : ℝ) = 900 + (c 0 : ℤ)
      simp [exMoveA])
    (fun c _ _ => by
      show (2000 + (((c + exMoveA) 1 : ℤ) + 2) : ℝ) = 2000 + (c 1 : ℤ)
      simp [exMoveA]) 2 2 (exThere_away hn)
    (fun k => by
      fin_cases k
      · exact exThere_away_none
      · exact exThere_away hn)
  obtain ⟨h4, h5⟩ := h3 _ (exHere_away.mono hn) (exThere_far.mono hn)
  exact ⟨r, r', h1, h2, fun t ht => ⟨(h4 0 (by decide) (Scalar.exOne_cell 12 12 0)).2 rfl t ht,
    (h5 0 0 (by decide) (Scalar.exOne_cell 12 12 0)).2 rfl t ht⟩⟩

end Dw.Acoustic

namespace Dw.Elastic

open Setup Resample
open Scalar (upAmps)

variable {d : ℕ}

def UArgs.elsewhere (A : UArgs d) (lam mu buoyancy : ModelT d ℝ) (srcP : Option LocT) (srcV : Fin d → Option LocT)
    (rcvP : Option LocT) (rcvV : Fin d → Option LocT) (w : PyArg) (f : Option PyNum) (sp : SurveyPad) : UArgs d :=
  { A with
    lam := lam, mu := mu, buoyancy := buoyancy, srcP := srcP, srcV := srcV, rcvP := rcvP, rcvV := rcvV
    opts := A.opts.withEdges w f sp }

/-- **C135** for `elastic`. -/
theorem C135_elastic_elsewhere (A : UArgs d) (P P' : Plan d) (s s' : ℕ) (cf cf' : ℤ) (lam mu buoyancy : ModelT d ℝ)
    (srcP : Option LocT) (srcV : Fin d → Option LocT) (rcvP : Option LocT) (rcvV : Fin d → Option LocT) (w : PyArg)
    (f : Option PyNum) (sp : SurveyPad) (h : Fwd A P s cf)
    (h' : Fwd (A.elsewhere lam mu buoyancy srcP srcV rcvP rcvV w f sp) P' s' cf')
    (hwf : ∀ x ∈ A.setup.wfs, x = none) (hmax : P'.maxVel = P.maxVel) (a : Cell d) (ha : SameAmps s s' A.ampP)
    (haV : ∀ k, SameAmps s s' (A.ampV k)) (hs : MovedBy a s s' A.srcP srcP) (hsV : ∀ k, MovedBy a s s' (A.srcV k) (srcV k))
    (hr : MovedBy a s s' A.rcvP rcvP) (hrV : ∀ k, MovedBy a s s' (A.rcvV k) (rcvV k))
    (hm : P.SameModel P' a (A.lam.shot s) (lam.shot s')) (hm2 : P.SameModel P' a (A.mu.shot s) (mu.shot s'))
    (hm3 : P.SameModel P' a (A.buoyancy.shot s) (buoyancy.shot s')) (T₁ T₂ : ℕ)
    (hsrc : P.SrcBothAway P' a (2 * (P.acc.order / 2 : ℕ) * T₁) A.srcP s)
    (hsrcV : ∀ k, P.SrcBothAway P' a (2 * (P.acc.order / 2 : ℕ) * T₁) (A.srcV k) s) :
    ∃ r r', A.elastic s = .ok (some r) ∧ (A.elsewhere lam mu buoyancy srcP srcV rcvP rcvV w f sp).elastic s' = .ok (some r') ∧
      ∀ c, P.Away (2 * (P.acc.order / 2 : ℕ) * T₂) c → P'.Away (2 * (P.acc.order / 2 : ℕ) * T₂) (c + a) →
        (∀ i < locCount A.rcvP, locCell A.rcvP s i = some c → P.SameUntil (T₁ + T₂) (r.tracesP i) (r'.tracesP i)) ∧
        ∀ k, ∀ i < locCount (A.rcvV k), locCell (A.rcvV k) s i = some c →
          P.SameUntil (T₁ + T₂) (r.tracesV k i) (r'.tracesV k i) := by
  have e : P.SameSteps P' := good_elsewhere (A := A.setup) h.good h'.good hmax
  obtain ⟨r, v, sig, mv, ms, hc, hw, hi, -, hp, hq⟩ := C93_elastic_scheme A P s cf (plan_ok.2 h.good) h.pre
    h.lt h.pml h.loc h.last h.freq h.interval h.nt
  obtain ⟨r', v', sig', mv', ms', hc', hw', hi', -, hp', hq'⟩ := C93_elastic_scheme _ P' s' cf' (plan_ok.2 h'.good) h'.pre
    h'.lt h'.pml h'.loc h'.last h'.freq h'.interval h'.nt
  have z := Starts.zero (P := P) (w := A.wf) hwf hw.symm hw.outside hi
  have z' := Starts.zero (P := P') (w := A.wf) hwf hw'.symm hw'.outside hi'
  obtain ⟨g, g'⟩ := Plan.holds_moved h.good h'.good a
  have hw3 := hw'.move a
  rw [← Plan.reframe_grid] at hw3
  refine ⟨r, r', hc, hc', fun c k k' => ?_⟩
  have key := hw.inside (e.reframe a).alike g g' hw3 (T₁ := T₁) (T₂ := T₂) (c₀ := c)
    (fun c i => by rw [z.1, z.2.1, z.2.2.1, z.2.2.2]; exact ⟨rfl, fun _ => ⟨rfl, rfl, rfl⟩⟩)
    (fun c i => by rw [z'.1, z'.2.1, z'.2.2.1, z'.2.2.2]; exact ⟨rfl, fun _ => ⟨rfl, rfl, rfl⟩⟩)
    (fun c hc => ?_) (fun t c => ⟨hs.inject e ha t c, fun k => (hsV k).inject e (haV k) t c⟩)
    (fun t c hc => ⟨hsrc.moved.zero _ hc, fun k => (hsrcV k).moved.zero _ hc⟩) (k.inside (Plan.reframe_away.2 k'))
  · have hn : ∀ t ≤ T₁ + T₂, Spec.Near c (2 * P.grid.half * (T₁ + T₂ - t)) c := fun t ht =>
      near_self c (mul_nonneg (mul_nonneg (by norm_num) P.grid.half_nonneg) (by omega))
    refine ⟨fun i hl hc => ?_, fun k i hl hc => ?_⟩
    · rw [hp i hl, hp' i (hr.count ▸ hl)]
      have e := same_edges h.good h'.good e (tt := A.opts.timeTaper) (T := T₁ + T₂)
        (f := fun t => locValue A.rcvP s i fun c => ∑ k, sig t k k c)
        (f' := fun t => locValue rcvP s' i fun c => ∑ k, sig' t k k c) fun t hT => by
          rw [locValue_near hc, hr.value hl hc]
          exact Finset.sum_congr rfl fun k _ => (key t hT c (.inr (hn t hT))).1 k k
      refine ⟨fun hT => ?_, fun h1 t ht => ?_⟩
      · have := e.1 hT
        exact congrArg (fun y : Sig ℝ => (⟨y.len, fun t => -y.val t / d⟩ : Sig ℝ)) this
      · have := e.2 h1 t ht
        exact congrArg (fun y => -y / (d : ℝ)) this
    · rw [hq k i hl, hq' k i ((hrV k).count ▸ hl)]
      refine same_edges h.good h'.good e (f := fun t => locValue (A.rcvV k) s i (v t k))
        (f' := fun t => locValue (rcvV k) s' i (v' t k)) fun t hT => ?_
      rw [locValue_near hc, (hrV k).value hl hc]
      exact (key t hT c (.inr (hn t hT))).2 k
  · have hc0 := hc.mono (m := 0) (by norm_num)
    have hc1 : ∀ k, Spec.Inside (P.boxL (P'.reframe a)) (P.boxH (P'.reframe a)) 0 (c.shift k 1) := fun k => hc.shift (by norm_num)
    have hc2 : ∀ i j, i ≠ j → Spec.Inside (P.boxL (P'.reframe a)) (P.boxH (P'.reframe a)) 0 ((c.shift i 1).shift j 1) :=
      fun i j hij k => by
        have := hc k
        by_cases e1 : k = i
        · subst e1
          simp [Cell.shift, hij]
          omega
        · by_cases e2 : k = j
          · subst e2
            simp [Cell.shift, e1]
            omega
          · simp [Cell.shift, e1, e2]
            omega
    refine ⟨(hm.extend hc0).1, (hm2.extend hc0).1, fun i j hij => ?_, fun k => ?_⟩
    · show Spec.harmonic A.rfmax _ i j c = Spec.harmonic A.rfmax _ i j (c + a)
      unfold Spec.harmonic
      rw [(hm2.extend hc0).1, (hm2.extend (hc1 i)).1, (hm2.extend (hc1 j)).1, (hm2.extend (hc2 i j hij)).1, Spec.add_shift,
        Spec.add_shift, Spec.add_shift, Spec.add_shift]
      rfl
    · show Spec.inverse A.rfmax (Spec.mean _ k c) = Spec.inverse A.rfmax (Spec.mean _ k (c + a))
      unfold Spec.mean
      beta_reduce
      rw [(hm3.extend hc0).1, (hm3.extend (hc1 k)).1, Spec.add_shift]
      rfl

/-- The experiment of `exWide` elsewhere, without PML. -/
noncomputable def exThere : UArgs 2 :=
  (exWide 3).elsewhere ⟨none, ![25, 25], fun _ c => 900 + (c 0 - 3)⟩ ⟨none, ![25, 25], fun _ c => 500 + (c 1 + 2)⟩
    ⟨none, ![25, 25], fun _ c => 1 + (c 1 + 2)⟩ (some exThereL) ![none, some exThereL] (some exThereL)
    ![some exThereL, none] (.one (.int 0)) none .none

theorem exThere_locs {l : LocT} (hl : some l ∈ exThere.setup.srcs ++ exThere.setup.rcvs) : l = exThereL := by
  have : some l ∈ [none, some exThereL, some exThereL, some exThereL, none, some exThereL] := hl
  simpa using this

theorem exThere_pre : ¬exThere.Pre := by
  have h0 : ∀ k : Fin 2, (![25, 25] : Fin 2 → ℤ) k ≤ 0 → False := by decide
  rintro (⟨k, l, hl, h⟩ | (h | ⟨k, h⟩) | (h | ⟨k, h⟩) | (h | ⟨k, h⟩))
  · obtain rfl := exThere_locs (UArgs.mem_loc hl)
    exact exThereL_beyond k h
  · cases h
  · exact h0 k h
  · cases h
  · exact h0 k h
  · cases h
  · exact h0 k h

theorem exThere_fwd : Fwd exThere (exWP true 0 exThere.setup.models exThere.setup.srcs exThere.setup.rcvs) 0 1 where
  good := by
    refine exW_good (.inl rfl) (fun l hl => .inr (exThere_locs hl)) (fun a ha => ?_) (exU_noWf (sp := .none))
      (fun m hm => ?_) (by simp) rfl rfl rfl ?_
    · have : some a ∈ [none, some exWA, some exWA] := ha
      simpa using this
    · simp only [List.mem_cons, List.not_mem_nil, or_false] at hm
      rcases hm with rfl | rfl | rfl <;> exact ⟨rfl, rfl⟩
    · show surveyExtents ![25, 25] [none, some exThereL, some exThereL, some exThereL, none, some exThereL]
        (List.replicate 16 none) .none none (fun _ => 0) (fun _ => 0) = .ok ![(0, 25), (0, 25)]
      decide +kernel
  pre := exThere_pre
  lt := Nat.zero_lt_one
  pml := .inl (by norm_num [exWP])
  loc := fun l hl => by rw [exThere_locs hl]; exact exThereL_whole 0
  last := fun k => .inr (.inl (by fin_cases k <;> rfl))
  freq := rfl
  interval := by norm_num [exWP]
  nt := .inr (.inl (by norm_num [exWP]))

/-- The first five samples are the same at the other place. -/
example : ∃ r r', (exWide 3).elastic 0 = .ok (some r) ∧ exThere.elastic 0 = .ok (some r') ∧
    ∀ t ≤ 4, (r'.tracesP 0).val t = (r.tracesP 0).val t ∧ (r'.tracesV 0 0).val t = (r.tracesV 0 0).val t := by
  have hn : 2 * ((4 / 2 : ℕ) : ℤ) * (2 : ℕ) ≤ 9 := by decide
  obtain ⟨r, r', h1, h2, h3⟩ := C135_elastic_elsewhere (exWide 3) _ _ 0 0 1 1 ⟨none, ![25, 25], fun _ c => 900 + (c 0 - 3)⟩
    ⟨none, ![25, 25], fun _ c => 500 + (c 1 + 2)⟩ ⟨none, ![25, 25], fun _ c => 1 + (c 1 + 2)⟩ (some exThereL)
    ![none, some exThereL] (some exThereL) ![some exThereL, none] (.one (.int 0)) none .none (exWide_fwd 3 (.inr rfl))
    exThere_fwd (fun x hx => by
      cases x with
      | none => rfl
      | some x => exact absurd hx (exU_noWf (sp := .none) x)) rfl exMoveA (exThere_amps _) (fun _ => exThere_amps _)
    exThere_moved (fun k => by
      fin_cases k
      · exact exThere_none
      · exact exThere_moved)
    exThere_moved (fun k => by
      fin_cases k
      · exact exThere_moved
      · exact exThere_none)
    (fun c _ _ => by
      show (900 + (((c + exMoveA) 0 : ℤ) - 3) : ℝ) = 900 + (c 0 : ℤ)
      simp [exMoveA])
    (fun c _ _ => by
      show (500 + (((c + exMoveA) 1 : ℤ) + 2) : ℝ) = 500 + (c 1 : ℤ)
      simp [exMoveA])
    (fun c _ _ => by
      show (1 + (((c + exMoveA) 1 : ℤ) + 2) : ℝ) = 1 + (c 1 : ℤ)
      simp [exMoveA]) 2 2 (exThere_away hn)
    (fun k => by
      fin_cases k
      · exact exThere_away_none
      · exact exThere_away hn)
  obtain ⟨h4, h5⟩ := h3 _ (exHere_away.mono hn) (exThere_far.mono hn)
  exact ⟨r, r', h1, h2, fun t ht => ⟨(h4 0 (by decide) (Scalar.exOne_cell 12 12 0)).2 rfl t ht,
    (h5 0 0 (by decide) (Scalar.exOne_cell 12 12 0)).2 rfl t ht⟩⟩

end Dw.Elastic
