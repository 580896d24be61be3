import Verif.Setup.Axes
import Verif.Props.UserDelay

/-!
# C125: order of the axes of a call of `scalar`
-/

namespace Dw.Setup

open Scalar (upAmps upS downS WholeIgnored PmlOk)
open Resample (Sig)
open Spec (turn turn_apply)

variable {d : ℕ} {σ : Equiv.Perm (Fin d)} {A A' : SetupArgs d} {P P' : Plan d}

/-- A call with the axes in the new order, and its tensors in any order, is accepted. -/
theorem good_turned (h : A.Good P) (hnb : 0 < P.nb) (hw : ∀ l, some l ∈ A.srcs ++ A.rcvs → ∀ s < P.nb, WholeIgnored d l s)
    (hA : A' = { A.axes σ with amps := A'.amps, srcs := A'.srcs, rcvs := A'.rcvs, wfs := A'.wfs })
    (ha : ∀ a, some a ∈ A'.amps ↔ some a ∈ A.amps) (hs : ∀ l, some l ∈ A'.srcs ↔ some l ∈ (A.axes σ).srcs)
    (hr : ∀ l, some l ∈ A'.rcvs ↔ some l ∈ (A.axes σ).rcvs) (hv : ∀ w, some w ∈ A'.wfs ↔ some w ∈ (A.axes σ).wfs)
    (hm : checkAmpsMatch (A'.amps.map (Option.map AmpT.n)) (A'.srcs.map (Option.map LocT.n)) = .ok ()) :
    ∃ P', A'.Good P' ∧ P.Turned σ P' := by
  have hg := good_listed (good_axes (σ := σ) h hnb hw) ha hs hr hv hm
  rw [← hA] at hg
  have ht := Plan.axes_turned (σ := σ) h
  exact ⟨_, hg, { ht with }⟩

theorem Plan.Turned.pml (h : P.Turned σ P') (hP : PmlOk P) : PmlOk P' := by
  refine hP.imp (fun h1 => h.freq ▸ h1) fun h1 k => ?_
  rw [h.w0, h.w1]
  exact h1 (σ k)

theorem Plan.Turned.grid (h : P.Turned σ P') : P'.grid = P.grid.axes σ := by
  unfold Plan.grid Spec.Grid.axes Plan.acc
  simp only [h.accZ, h.dt, h.maxVel, h.freq, h.ext, Spec.Grid.mk.injEq, true_and, and_true]
  exact ⟨funext h.dx, funext h.w0, funext h.w1⟩

theorem Plan.Turned.index (h : P.Turned σ P') (c : Cell d) : turn σ (P'.index c) = P.index (turn σ c) := by
  funext k
  obtain ⟨k, rfl⟩ := σ.surjective k
  rw [turn_apply]
  unfold Plan.index
  rw [turn_apply, h.ext, h.w0]

theorem Plan.Turned.given (h : P.Turned σ P') (w : Option (WfT d)) (s : ℕ) (c : Cell d) :
    P'.given (w.map (WfT.axes σ)) s c = P.given w s (turn σ c) := by
  cases w with
  | none => rfl
  | some w =>
      show w.val s (turn σ (P'.index c)) = _
      rw [h.index]
      rfl

theorem Plan.Turned.between (h : P.Turned σ P') (k : Fin d) (x : ℤ) : P'.Between k x ↔ P.Between (σ k) x := by
  unfold Plan.Between
  rw [h.ext]

theorem Plan.Turned.steps (h : P.Turned σ P') : P'.steps = P.steps := by
  unfold Plan.steps
  rw [h.nt, h.ratio, h.interval]

theorem Plan.Turned.upAmps (h : P.Turned σ P') (tt : Bool) (a : Option AmpT) (s : ℕ) :
    upAmps P' tt a s = upAmps P tt a s := by
  unfold Scalar.upAmps Scalar.upS
  rw [h.ratio, h.ff, h.tf]

theorem Plan.Turned.downS (h : P.Turned σ P') (tt : Bool) (x : Sig ℝ) : downS P' tt x = downS P tt x := by
  unfold Scalar.downS
  rw [h.ratio, h.ff, h.tf]

/-! ### Locations and models -/

theorem turn_injective : Function.Injective (turn σ) := fun c c' h => funext fun k => by
  have := congrFun h (σ k)
  rwa [turn_apply, turn_apply] at this

theorem locCell_axes (o : Option LocT) (s i : ℕ) :
    (locCell (d := d) (o.map (LocT.axes σ)) s i).map (turn σ) = locCell o s i := by
  classical
  cases o with
  | none => rfl
  | some l =>
      unfold locCell
      simp only [Option.map_some, LocT.axes_ignored, LocT.axes_val]
      by_cases hg : l.Ignored d s i
      · rw [if_pos hg, if_pos hg]
        rfl
      · rw [if_neg hg, if_neg hg]
        refine congrArg some (funext fun k => ?_)
        obtain ⟨k, rfl⟩ := σ.surjective k
        rw [turn_apply]

theorem locCount_axes (o : Option LocT) : locCount (o.map (LocT.axes σ)) = locCount o := by cases o <;> rfl

theorem locSum_axes (o : Option LocT) (s : ℕ) (g : ℕ → ℝ) :
    locSum (o.map (LocT.axes σ)) s g = Spec.axes σ (locSum (d := d) o s g) := by
  classical
  funext c
  unfold Spec.axes locSum
  rw [locCount_axes]
  refine Finset.sum_congr rfl fun i _ => ?_
  refine if_congr ?_ rfl rfl
  rw [← locCell_axes (σ := σ) o]
  constructor
  · intro h
    rw [h]
    rfl
  · intro h
    obtain ⟨c', h1, h2⟩ := Option.map_eq_some_iff.1 h
    rw [h1, turn_injective h2]

theorem locValue_axes (o : Option LocT) (s i : ℕ) (u : Fld d ℝ) :
    locValue (o.map (LocT.axes σ)) s i (Spec.axes σ u) = locValue o s i u := by
  unfold locValue
  rw [← locCell_axes (σ := σ) o]
  cases locCell (d := d) (o.map (LocT.axes σ)) s i <;> rfl

theorem shot_axes (m : ModelT d ℝ) (s : ℕ) : (m.axes σ).shot s = Spec.axes σ (m.shot s) := rfl

theorem extend_axes (G : Spec.Grid d) (m : Fld d ℝ) : (G.axes σ).extend (Spec.axes σ m) = Spec.axes σ (G.extend m) := by
  funext c
  unfold Spec.Grid.extend Spec.axes
  refine congrArg m (funext fun k => ?_)
  obtain ⟨k, rfl⟩ := σ.surjective k
  rw [turn_apply, turn_apply]
  rfl

theorem mem_ofFn_axes {α β : Type} (f : Fin d → Option α) (g : α → β) (x : β) :
    some x ∈ List.ofFn (fun k => (f (σ k)).map g) ↔ some x ∈ (List.ofFn f).map (Option.map g) := by
  rw [List.mem_ofFn', List.mem_map]
  constructor
  · rintro ⟨k, hk⟩
    exact ⟨f (σ k), (List.mem_ofFn' _ _).2 ⟨_, rfl⟩, hk⟩
  · rintro ⟨o, ho, e⟩
    obtain ⟨k, rfl⟩ := (List.mem_ofFn' _ _).1 ho
    obtain ⟨k, rfl⟩ := σ.surjective k
    exact ⟨k, e⟩

/-- The set of cells of a model. -/
theorem inShape_turn (shape : Fin d → ℤ) (c : Cell d) : InShape (fun k => shape (σ k)) c ↔ InShape shape (turn σ c) := by
  unfold InShape
  rw [← σ.forall_congr_right (q := fun k => 0 ≤ turn σ c k ∧ turn σ c k < shape k)]
  simp only [turn_apply]

theorem turn_surjective : Function.Surjective (turn σ) := fun c =>
  ⟨fun k => c (σ k), funext fun k => by simp [turn]⟩

theorem maxAbs_axes (m : ModelT d ℝ) : Scalar.maxAbs (m.axes σ) = Scalar.maxAbs m := by
  unfold Scalar.maxAbs
  congr 1
  ext x
  constructor
  · rintro ⟨s, hs, c, hc, rfl⟩
    exact ⟨s, hs, turn σ c, (inShape_turn _ _).1 hc, rfl⟩
  · rintro ⟨s, hs, c, hc, rfl⟩
    obtain ⟨c, rfl⟩ := turn_surjective (σ := σ) c
    exact ⟨s, hs, c, (inShape_turn _ _).2 hc, rfl⟩

/-- The wavefields of the scalar equation with the axes in the new order. -/
def turnedWf (σ : Equiv.Perm (Fin d)) (o : Scalar.Wavefields d ℝ) : Scalar.Wavefields d ℝ :=
  ⟨Spec.axes σ o.wfc, Spec.axes σ o.wfp, fun k => Spec.axes σ (o.psi (σ k)), fun k => Spec.axes σ (o.zeta (σ k))⟩

def turnedUWf (σ : Equiv.Perm (Fin d)) (w : Born.UWf d) : Born.UWf d :=
  ⟨w.wfc.map (WfT.axes σ), w.wfp.map (WfT.axes σ), fun k => (w.psi (σ k)).map (WfT.axes σ),
    fun k => (w.zeta (σ k)).map (WfT.axes σ)⟩

theorem Plan.Turned.startsFrom (h : P.Turned σ P') {s : ℕ} {w : Born.UWf d} {u : ℕ → Fld d ℝ}
    {psi zeta : ℕ → Fin d → Fld d ℝ} (hs : P.StartsFrom s w u psi zeta) :
    P'.StartsFrom s (turnedUWf σ w) (fun t => Spec.axes σ (u t)) (fun t k => Spec.axes σ (psi t (σ k)))
      fun t k => Spec.axes σ (zeta t (σ k)) := by
  intro c hc
  rw [h.grid, Spec.Grid.axes_in] at hc
  obtain ⟨h1, h2, h3⟩ := hs _ hc
  refine ⟨?_, ?_, fun k => ?_⟩
  · exact h1.trans (h.given _ _ _).symm
  · exact h2.trans (h.given _ _ _).symm
  · have := h3 (σ k)
    rw [turn_apply] at this
    rw [h.between]
    refine ⟨this.1, fun hb => ?_⟩
    exact ⟨(this.2 hb).1.trans (h.given _ _ _).symm, (this.2 hb).2.trans (h.given _ _ _).symm⟩

theorem Plan.Turned.endsIn (h : P.Turned σ P') {N : ℕ} {o : Scalar.Wavefields d ℝ} {u : ℕ → Fld d ℝ}
    {psi zeta : ℕ → Fin d → Fld d ℝ} (he : P.EndsIn N o u psi zeta) :
    P'.EndsIn N (turnedWf σ o) (fun t => Spec.axes σ (u t)) (fun t k => Spec.axes σ (psi t (σ k)))
      fun t k => Spec.axes σ (zeta t (σ k)) := by
  intro c
  obtain ⟨h1, h2, h3⟩ := he (turn σ c)
  unfold turnedWf Spec.axes
  simp only [h.index]
  exact ⟨h1, h2, fun k => h3 (σ k)⟩

end Dw.Setup

namespace Dw.Scalar

open Setup Resample
open Spec (turn)

variable {d : ℕ}

/-- The call with the axes in another order: axis `k` is what was axis `σ k`. -/
def UArgs.axes (σ : Equiv.Perm (Fin d)) (A : UArgs d) : UArgs d :=
  { A with
    v := A.v.axes σ
    gridSpacing := A.gridSpacing.singles σ
    src := A.src.map (LocT.axes σ)
    rcv := A.rcv.map (LocT.axes σ)
    pmlWidth := A.pmlWidth.pairs σ
    surveyPad := A.surveyPad.axes σ
    wfc := A.wfc.map (WfT.axes σ)
    wfp := A.wfp.map (WfT.axes σ)
    psi := fun k => (A.psi (σ k)).map (WfT.axes σ)
    zeta := fun k => (A.zeta (σ k)).map (WfT.axes σ)
    origin := A.origin.map fun o => singles σ o 0 }

theorem fwd_axes {A : UArgs d} {P : Plan d} {s : ℕ} {cf : ℤ} (h : Fwd A P s cf)
    (hw : ∀ l, some l ∈ [A.src, A.rcv] → ∀ s < P.nb, WholeIgnored d l s) (σ : Equiv.Perm (Fin d)) :
    ∃ P', Fwd (A.axes σ) P' s cf ∧ P.Turned σ P' := by
  obtain ⟨P', hg, ht⟩ := good_turned (σ := σ) (A' := (A.axes σ).setup) h.good (by have := h.lt; omega) hw
    (by
      unfold UArgs.setup UArgs.axes SetupArgs.axes
      simp only [maxAbs_axes, List.map_cons, List.map_nil])
    (fun _ => Iff.rfl) (fun _ => Iff.rfl) (fun _ => Iff.rfl)
    (fun w => by
      show some w ∈ [_, _] ++ List.ofFn _ ++ List.ofFn _ ↔ some w ∈ ([_, _] ++ List.ofFn _ ++ List.ofFn _).map _
      rw [List.map_append, List.map_append]
      simp only [List.mem_append, UArgs.axes, mem_ofFn_axes]
      rfl)
    (by
      have := h.good.ampsMatch
      show checkAmpsMatch [_] [(A.src.map (LocT.axes σ)).map LocT.n] = .ok ()
      rw [Option.map_map]
      exact this)
  refine ⟨P', ⟨hg, ht.nb ▸ h.lt, ht.pml h.pml, fun l hl => ?_, fun l hl => ?_, h.freq, ht.interval ▸ h.interval, ?_⟩, ht⟩
  · obtain ⟨l, hl', rfl⟩ := Option.map_eq_some_iff.1 hl
    exact LocT.axes_whole (h.src l hl')
  · obtain ⟨l, hl', rfl⟩ := Option.map_eq_some_iff.1 hl
    exact LocT.axes_whole (h.rcv l hl')
  · rw [ht.ratio, ht.interval, ht.nt]
    exact h.nt

/-- **C125** The order of the axes does not matter: a call of `scalar` in which the axes of the models, of the locations
and of the wavefields, and the entries of `grid_spacing`, `pml_width`, `survey_pad` and `origin`, are in another order is
accepted as well, has the same traces, and the same wavefields with the axes in the new order. -/
theorem C125_axes (A : UArgs d) (P : Plan d) (s : ℕ) (cf : ℤ) (h : Fwd A P s cf)
    (hw : ∀ l, some l ∈ [A.src, A.rcv] → ∀ s < P.nb, WholeIgnored d l s) (σ : Equiv.Perm (Fin d)) :
    ∃ r r', A.scalar s = .ok (some r) ∧ (A.axes σ).scalar s = .ok (some r') ∧ r'.out = turnedWf σ r.out ∧
      ∀ i < locCount A.rcv, r'.traces i = r.traces i := by
  obtain ⟨P', h', ht⟩ := fwd_axes h hw σ
  obtain ⟨r, u, psi, zeta, hc, hv, hi, ho, hx⟩ := C90_scalar_scheme A P s cf (plan_ok.2 h.good) h.lt h.pml h.src h.rcv
    h.freq h.interval h.nt
  obtain ⟨r', u', psi', zeta', hc', hv', hi', ho', hx'⟩ := C90_scalar_scheme (A.axes σ) P' s cf (plan_ok.2 h'.good) h'.lt
    h'.pml h'.src h'.rcv h'.freq h'.interval h'.nt
  have hva := hv.axes σ
  rw [ht.grid] at hv'
  have e1 : (P.grid.axes σ).extend ((A.axes σ).v.shot s) = Spec.axes σ (P.grid.extend (A.v.shot s)) := extend_axes _ _
  have e2 : (fun t => locSum (d := d) (A.axes σ).src s fun i => upAmps P' (A.axes σ).timeTaper (A.axes σ).amps s t i) =
      fun t => Spec.axes σ (locSum A.src s fun i => upAmps P A.timeTaper A.amps s t i) := by
    funext t
    rw [ht.upAmps]
    exact locSum_axes _ _ _
  rw [e1, e2] at hv'
  have hia := ht.startsFrom (w := ⟨A.wfc, A.wfp, A.psi, A.zeta⟩) hi
  have hova := hva.outside
  have hov' := hv'.outside
  rw [← ht.grid] at hova hov'
  obtain ⟨rfl, rfl, rfl⟩ := hv'.unique hva
    (startsFrom_zero (w := ⟨(A.axes σ).wfc, (A.axes σ).wfp, (A.axes σ).psi, (A.axes σ).zeta⟩) hova hov' hia hi')
  refine ⟨r, r', hc, hc', ?_, fun i hi => ?_⟩
  · have hs := ht.steps
    unfold Plan.steps at hs
    rw [hs] at ho'
    exact endsIn_unique (P := P') (ht.endsIn ho) ho'
  · rw [hx i hi, hx' i (by rw [show (A.axes σ).rcv = A.rcv.map (LocT.axes σ) from rfl, locCount_axes]; exact hi)]
    rw [ht.downS, ht.nt, ht.ratio, ht.interval]
    have : ∀ t, locValue (A.axes σ).rcv s i (Spec.axes σ (u (t + 1))) = locValue A.rcv s i (u (t + 1)) := fun t =>
      locValue_axes _ _ _ _
    simp only [this]
    rfl

example : ((exV 3).axes (Equiv.swap 0 1)).gridSpacing = .seq [.int 4, .int 3] ∧
    ((exV 3).axes (Equiv.swap 0 1)).v.shape = ![9, 7] ∧ ((exV 3).axes (Equiv.swap 0 1)).v.val 0 ![2, 5] = 995 ∧
    ∃ l, ((exV 3).axes (Equiv.swap 0 1)).src = some l ∧ l.val 0 0 0 = 3 ∧ l.val 0 0 1 = 2 := by
  refine ⟨rfl, ?_, ?_, ?_⟩
  · funext k
    fin_cases k <;> rfl
  · show (990 : ℝ) + ((turn (Equiv.swap 0 1) ![2, 5] : Cell 2) 0 : ℤ) = 995
    rw [show (turn (Equiv.swap 0 1) ![2, 5] : Cell 2) 0 = 5 from rfl]
    norm_num
  · exact ⟨_, rfl, rfl, rfl⟩

example : ∃ r r', (exV 3).scalar 0 = .ok (some r) ∧ ((exV 3).axes (Equiv.swap 0 1)).scalar 0 = .ok (some r') ∧
    r'.out = turnedWf (Equiv.swap 0 1) r.out ∧ r'.traces 0 = r.traces 0 := by
  obtain ⟨r, r', h1, h2, h3, h4⟩ := C125_axes (exV 3) _ 0 1 exV_fwd (fun l hl s _ => by
    simp only [exV, List.mem_cons, Option.some.injEq, List.not_mem_nil, or_false] at hl
    rcases hl with rfl | rfl <;> exact fun i _ => .inr (exOne_whole (by norm_num) (by norm_num) s i)) (Equiv.swap 0 1)
  exact ⟨r, r', h1, h2, h3, h4 0 (by decide)⟩

end Dw.Scalar
