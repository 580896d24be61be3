import Verif.Props.UserAxes
import Verif.Props.UserDelayMore

/-!
# C125 for `scalar_born`, `acoustic` and `elastic`
-/

namespace Dw.Setup

open Spec (turn turn_apply)
open Scalar (NoElements)

variable {d : ℕ} {σ : Equiv.Perm (Fin d)} {P P' : Plan d}

/-- The options with the axes in another order. -/
def Opts.axes (σ : Equiv.Perm (Fin d)) (O : Opts) : Opts :=
  { O with
    gridSpacing := O.gridSpacing.singles σ
    pmlWidth := O.pmlWidth.pairs σ
    surveyPad := O.surveyPad.axes σ
    origin := O.origin.map fun o => singles σ o 0 }

theorem extendZero_axes (G : Spec.Grid d) (m : Fld d ℝ) :
    (G.axes σ).extendZero (Spec.axes σ m) = Spec.axes σ (G.extendZero m) := by
  classical
  funext c
  unfold Spec.Grid.extendZero Spec.axes
  refine if_congr ?_ rfl rfl
  rw [← σ.forall_congr_right (q := fun k => G.lo k ≤ turn σ c k ∧ turn σ c k ≤ G.hi k)]
  simp only [turn_apply]
  rfl

theorem noElements_axes (m : ModelT d ℝ) : NoElements (m.axes σ) ↔ NoElements m := by
  unfold NoElements
  rw [← σ.exists_congr_right (q := fun k => m.shape k ≤ 0)]
  rfl

theorem Plan.Turned.betweenAt (h : P.Turned σ P') (b : Bool) (k : Fin d) (x : ℤ) :
    P'.BetweenAt b k x ↔ P.BetweenAt b (σ k) x := by
  unfold Plan.BetweenAt
  rw [h.ext]

theorem Plan.Turned.betweenH (h : P.Turned σ P') (k : Fin d) (x : ℤ) : P'.BetweenH k x ↔ P.BetweenH (σ k) x := by
  unfold Plan.BetweenH
  rw [h.ext]

theorem Plan.Turned.beforeLast (h : P.Turned σ P') {k : Fin d} {s : ℕ} {o : Option LocT} (hb : P.BeforeLast (σ k) s o) :
    P'.BeforeLast k s (o.map (LocT.axes σ)) := by
  intro i hi c hc
  rw [locCount_axes] at hi
  have := hb i hi (turn σ c) (by rw [← locCell_axes (σ := σ) o, hc]; rfl)
  rw [turn_apply] at this
  rwa [h.ext]

theorem Plan.Turned.trace (h : P.Turned σ P') (tt : Bool) (o : Option LocT) (s i : ℕ) (u : ℕ → Fld d ℝ) :
    Scalar.downS P' tt ⟨P'.nt.toNat, fun t =>
      if t < P'.steps then locValue (o.map (LocT.axes σ)) s i (Spec.axes σ (u t)) else 0⟩ =
    Scalar.downS P tt ⟨P.nt.toNat, fun t => if t < P.steps then locValue o s i (u t) else 0⟩ := by
  rw [h.downS, h.nt, h.steps]
  simp only [locValue_axes]

theorem Plan.Turned.inject (h : P.Turned σ P') (tt : Bool) (o : Option LocT) (a : Option AmpT) (s t : ℕ) :
    (locSum (o.map (LocT.axes σ)) s fun i => Scalar.upAmps P' tt a s t i) =
    Spec.axes σ (locSum (d := d) o s fun i => Scalar.upAmps P tt a s t i) := by
  rw [h.upAmps]
  exact locSum_axes _ _ _

theorem beyond_axes {l : LocT} {k : Fin d} {n : ℤ} (h : (l.axes σ).Beyond k n) : l.Beyond (σ k) n := by
  obtain ⟨s, hs, i, hi, h1, h2⟩ := h
  rw [LocT.axes_val] at h1 h2
  exact ⟨s, hs, i, hi, h1, h2⟩

theorem map_n_axes (o : Option LocT) : (o.map (LocT.axes σ)).map LocT.n = o.map LocT.n := by cases o <;> rfl

theorem match_axes_cons {a : Option AmpT} {f : Fin d → Option AmpT} {o : Option LocT} {g : Fin d → Option LocT}
    (h : checkAmpsMatch ((a :: List.ofFn f).map (Option.map AmpT.n)) ((o :: List.ofFn g).map (Option.map LocT.n)) = .ok ()) :
    checkAmpsMatch ((a :: List.ofFn fun k => f (σ k)).map (Option.map AmpT.n))
      ((o.map (LocT.axes σ) :: List.ofFn fun k => (g (σ k)).map (LocT.axes σ)).map (Option.map LocT.n)) = .ok () := by
  rw [C35_amplitudes_match] at h ⊢
  simp only [List.map_cons, List.map_ofFn, List.cons.injEq, map_n_axes] at h ⊢
  refine ⟨h.1, congrArg _ (funext fun k => ?_)⟩
  have := congrFun (List.ofFn_injective h.2) (σ k)
  exact this.trans (map_n_axes _).symm

theorem match_axes_snoc {a : Option AmpT} {f : Fin d → Option AmpT} {o : Option LocT} {g : Fin d → Option LocT}
    (h : checkAmpsMatch ((List.ofFn f ++ [a]).map (Option.map AmpT.n)) ((List.ofFn g ++ [o]).map (Option.map LocT.n)) = .ok ()) :
    checkAmpsMatch (((List.ofFn fun k => f (σ k)) ++ [a]).map (Option.map AmpT.n))
      (((List.ofFn fun k => (g (σ k)).map (LocT.axes σ)) ++ [o.map (LocT.axes σ)]).map (Option.map LocT.n)) = .ok () := by
  rw [C35_amplitudes_match] at h ⊢
  simp only [List.map_append, List.map_ofFn, List.map_cons, List.map_nil, map_n_axes] at h ⊢
  obtain ⟨h1, h2⟩ := List.append_inj h (by simp)
  rw [h2]
  refine congrArg (· ++ _) (congrArg _ (funext fun k => ?_))
  have := congrFun (List.ofFn_injective h1) (σ k)
  exact this.trans (map_n_axes _).symm

theorem mem_ofFn_perm {α : Type} (f : Fin d → α) (x : α) : x ∈ List.ofFn (fun k => f (σ k)) ↔ x ∈ List.ofFn f := by
  rw [List.mem_ofFn', List.mem_ofFn']
  exact ⟨fun ⟨k, hk⟩ => ⟨_, hk⟩, fun ⟨k, hk⟩ => ⟨σ.symm k, by simpa using hk⟩⟩

end Dw.Setup

namespace Dw.Born

open Setup Resample
open Scalar (upAmps WholeIgnored)

variable {d : ℕ}

/-- The call with the axes in another order: axis `k` is what was axis `σ k`. -/
def UArgs.axes (σ : Equiv.Perm (Fin d)) (A : UArgs d) : UArgs d :=
  { A with
    v := A.v.axes σ
    scatter := A.scatter.axes σ
    src := A.src.map (LocT.axes σ)
    rcv := A.rcv.map (LocT.axes σ)
    bgRcv := A.bgRcv.map (LocT.axes σ)
    wf := turnedUWf σ A.wf
    wfsc := turnedUWf σ A.wfsc
    opts := A.opts.axes σ }

theorem mem_list_axes (σ : Equiv.Perm (Fin d)) (w : UWf d) (x : WfT d) :
    some x ∈ (turnedUWf σ w).list ↔ some x ∈ w.list.map (Option.map (WfT.axes σ)) := by
  unfold UWf.list
  rw [List.map_append, List.map_append]
  simp only [List.mem_append, turnedUWf, mem_ofFn_axes]
  rfl

theorem fwd_axes {A : UArgs d} {P : Plan d} {s : ℕ} {cf : ℤ} (h : Fwd A P s cf)
    (hw : ∀ l, some l ∈ [A.src, A.bgRcv, A.rcv] → ∀ s < P.nb, WholeIgnored d l s) (σ : Equiv.Perm (Fin d)) :
    ∃ P', Fwd (A.axes σ) P' s cf ∧ P.Turned σ P' := by
  obtain ⟨P', hg, ht⟩ := good_turned (σ := σ) (A' := (A.axes σ).setup) h.good (by have := h.lt; omega)
    (fun l hl => hw l (by
      simp only [UArgs.setup, Opts.setup, List.mem_append, List.mem_cons, List.not_mem_nil, or_false] at hl ⊢
      tauto))
    (by
      unfold UArgs.setup UArgs.axes SetupArgs.axes Opts.setup Opts.axes
      simp only [maxAbs_axes, List.map_cons, List.map_nil])
    (fun _ => Iff.rfl) (fun _ => Iff.rfl) (fun _ => Iff.rfl)
    (fun w => by
      show some w ∈ (turnedUWf σ A.wf).list ++ (turnedUWf σ A.wfsc).list ↔ some w ∈ (A.wf.list ++ A.wfsc.list).map _
      rw [List.map_append, List.mem_append, List.mem_append, mem_list_axes, mem_list_axes])
    (by
      have := h.good.ampsMatch
      show checkAmpsMatch [_, _] [(A.src.map (LocT.axes σ)).map LocT.n, (A.src.map (LocT.axes σ)).map LocT.n] = .ok ()
      rw [Option.map_map]
      exact this)
  refine ⟨P', ⟨hg, ht.nb ▸ h.lt, ht.pml h.pml, fun l hl => ?_, h.freq, ht.interval ▸ h.interval, ?_⟩, ht⟩
  · rcases hl with hl | hl | hl <;> obtain ⟨l, hl', rfl⟩ := Option.map_eq_some_iff.1 hl <;> refine LocT.axes_whole (h.loc l ?_)
    · exact .inl hl'
    · exact .inr (.inl hl')
    · exact .inr (.inr hl')
  · rw [ht.ratio, ht.interval, ht.nt]
    exact h.nt

/-- **C125** for `scalar_born`. -/
theorem C125_born_axes (A : UArgs d) (P : Plan d) (s : ℕ) (cf : ℤ) (h : Fwd A P s cf)
    (hw : ∀ l, some l ∈ [A.src, A.bgRcv, A.rcv] → ∀ s < P.nb, WholeIgnored d l s) (σ : Equiv.Perm (Fin d)) :
    ∃ r r', A.born s = .ok (some r) ∧ (A.axes σ).born s = .ok (some r') ∧ r'.out = turnedWf σ r.out ∧
      r'.outsc = turnedWf σ r.outsc ∧ (∀ i < locCount A.bgRcv, r'.bgTraces i = r.bgTraces i) ∧
      ∀ i < locCount A.rcv, r'.traces i = r.traces i := by
  obtain ⟨P', h', ht⟩ := fwd_axes h hw σ
  obtain ⟨r, u, psi, zeta, w, ps, ze, hc, hv, hsc, hi, hi2, ho, ho2, hb1, hx⟩ := C91_born_scheme A P s cf (plan_ok.2 h.good)
    h.lt h.pml h.loc h.freq h.interval h.nt
  obtain ⟨r', u', psi', zeta', w', ps', ze', hc', hv', hsc', hi', hi2', ho', ho2', hb1', hx'⟩ := C91_born_scheme (A.axes σ) _ s
    cf (plan_ok.2 h'.good) h'.lt h'.pml h'.loc h'.freq h'.interval h'.nt
  have hva := hv.axes σ
  have hsa := hsc.axes σ
  rw [ht.grid] at hv' hsc'
  have e1 : (P.grid.axes σ).extend ((A.axes σ).v.shot s) = Spec.axes σ (P.grid.extend (A.v.shot s)) := extend_axes _ _
  have e3 : (P.grid.axes σ).extendZero ((A.axes σ).scatter.shot s) = Spec.axes σ (P.grid.extendZero (A.scatter.shot s)) :=
    extendZero_axes _ _
  have e2 : (fun t => locSum (d := d) (A.axes σ).src s fun i => upAmps P' (A.axes σ).opts.timeTaper (A.axes σ).amps s t i) =
      fun t => Spec.axes σ (locSum A.src s fun i => upAmps P A.opts.timeTaper A.amps s t i) :=
    funext fun t => ht.inject _ _ _ _ _
  rw [e1, e2] at hv' hsc'
  rw [e3] at hsc'
  have o1 := hva.outside
  have o2 := hv'.outside
  have o3 := hsa.outside
  have o4 := hsc'.outside
  rw [← ht.grid] at o1 o2 o3 o4
  obtain ⟨rfl, rfl, rfl⟩ := hv'.unique hva (startsFrom_zero o1 o2 (ht.startsFrom hi) hi')
  obtain ⟨rfl, rfl, rfl⟩ := hsc'.unique hsa (startsFrom_zero o3 o4 (ht.startsFrom hi2) hi2')
  rw [ht.steps] at ho' ho2'
  refine ⟨r, r', hc, hc', endsIn_unique (P := P') (ht.endsIn ho) ho', endsIn_unique (P := P') (ht.endsIn ho2) ho2',
    fun i hi => ?_, fun i hi => ?_⟩
  · rw [hb1 i hi, hb1' i (by rw [show (A.axes σ).bgRcv = A.bgRcv.map (LocT.axes σ) from rfl, locCount_axes]; exact hi)]
    exact ht.trace _ A.bgRcv s i fun t => u (t + 1)
  · rw [hx i hi, hx' i (by rw [show (A.axes σ).rcv = A.rcv.map (LocT.axes σ) from rfl, locCount_axes]; exact hi)]
    exact ht.trace _ A.rcv s i fun t => w (t + 1)

example : ∃ r r', (exU .none).born 1 = .ok (some r) ∧ ((exU .none).axes (Equiv.swap 0 1)).born 1 = .ok (some r') ∧
    r'.outsc = turnedWf (Equiv.swap 0 1) r.outsc ∧ r'.traces 0 = r.traces 0 := by
  obtain ⟨r, r', h1, h2, -, h3, -, h4⟩ := C125_born_axes (exU .none) _ 1 1 (exU_fwd 1 (by decide)) (fun l hl s hs => by
    refine exLoc_whole hs ?_
    simpa [exU] using hl) (Equiv.swap 0 1)
  exact ⟨r, r', h1, h2, h3, h4 0 (by decide)⟩

end Dw.Born

namespace Dw.Acoustic

open Setup Resample
open Scalar (upAmps WholeIgnored)
open Spec (turn turn_apply)

variable {d : ℕ} {σ : Equiv.Perm (Fin d)}

def UWf.axes (σ : Equiv.Perm (Fin d)) (w : UWf d) : UWf d :=
  ⟨w.p.map (WfT.axes σ), fun k => (w.v (σ k)).map (WfT.axes σ), fun k => (w.phi (σ k)).map (WfT.axes σ),
    fun k => (w.psi (σ k)).map (WfT.axes σ)⟩

def turned (σ : Equiv.Perm (Fin d)) (o : Wavefields d ℝ) : Wavefields d ℝ :=
  ⟨Spec.axes σ o.p, fun k => Spec.axes σ (o.v (σ k)), fun k => Spec.axes σ (o.phi (σ k)), fun k => Spec.axes σ (o.psi (σ k))⟩

/-- The call with the axes in another order: axis `k` is what was axis `σ k`. -/
def UArgs.axes (σ : Equiv.Perm (Fin d)) (A : UArgs d) : UArgs d :=
  { A with
    v := A.v.axes σ
    rho := A.rho.axes σ
    ampV := fun k => A.ampV (σ k)
    srcP := A.srcP.map (LocT.axes σ)
    srcV := fun k => (A.srcV (σ k)).map (LocT.axes σ)
    rcvP := A.rcvP.map (LocT.axes σ)
    rcvV := fun k => (A.rcvV (σ k)).map (LocT.axes σ)
    wf := A.wf.axes σ
    opts := A.opts.axes σ }

theorem Starts.axes {P P' : Plan d} (ht : P.Turned σ P') {w : UWf d} {s : ℕ} {p : ℕ → Fld d ℝ}
    {v phi psi : ℕ → Fin d → Fld d ℝ} (h : Starts P w s p v phi psi) :
    Starts P' (w.axes σ) s (fun t => Spec.axes σ (p t)) (fun t k => Spec.axes σ (v t (σ k)))
      (fun t k => Spec.axes σ (phi t (σ k))) fun t k => Spec.axes σ (psi t (σ k)) := by
  intro c
  refine ⟨fun hc => ?_, fun k hc => ?_⟩
  · rw [ht.grid, Spec.Grid.axes_in] at hc
    obtain ⟨h1, h2⟩ := (h (turn σ c)).1 hc
    refine ⟨h1.trans (ht.given _ _ _).symm, fun k => ?_⟩
    have := h2 (σ k)
    rw [turn_apply] at this
    rw [ht.between]
    exact ⟨this.1, fun hb => (this.2 hb).trans (ht.given _ _ _).symm⟩
  · rw [ht.grid, Spec.Grid.axes_inH] at hc
    obtain ⟨h1, h2⟩ := (h (turn σ c)).2 (σ k) hc
    rw [turn_apply] at h2
    rw [ht.betweenH]
    exact ⟨h1.trans (ht.given _ _ _).symm, h2.1, fun hb => (h2.2 hb).trans (ht.given _ _ _).symm⟩

theorem fwd_axes {A : UArgs d} {P : Plan d} {s : ℕ} {cf : ℤ} (h : Fwd A P s cf)
    (hw : ∀ l, some l ∈ A.setup.srcs ++ A.setup.rcvs → ∀ s < P.nb, WholeIgnored d l s) (σ : Equiv.Perm (Fin d)) :
    ∃ P', Fwd (A.axes σ) P' s cf ∧ P.Turned σ P' := by
  have hsr : ∀ (o : Option LocT) (f : Fin d → Option LocT) l,
      some l ∈ (o.map (LocT.axes σ) :: List.ofFn fun k => (f (σ k)).map (LocT.axes σ)) ↔
        some l ∈ (o :: List.ofFn f).map (Option.map (LocT.axes σ)) := fun o f l => by
    rw [List.map_cons, List.mem_cons, List.mem_cons, mem_ofFn_axes]
  obtain ⟨P', hg, ht⟩ := good_turned (σ := σ) (A' := (A.axes σ).setup) h.good (by have := h.lt; omega) hw
    (by
      unfold UArgs.setup UArgs.axes SetupArgs.axes Opts.setup Opts.axes
      simp only [maxAbs_axes, List.map_cons, List.map_nil])
    (fun a => by
      show some a ∈ (A.ampP :: List.ofFn fun k => A.ampV (σ k)) ↔ some a ∈ (A.ampP :: List.ofFn A.ampV)
      rw [List.mem_cons, List.mem_cons, mem_ofFn_perm])
    (fun l => hsr A.srcP A.srcV l) (fun l => hsr A.rcvP A.rcvV l)
    (fun w => by
      show some w ∈ (A.wf.axes σ).list ↔ some w ∈ A.wf.list.map _
      unfold UWf.list
      rw [List.map_append, List.map_append, List.map_append]
      simp only [List.mem_append, UWf.axes, mem_ofFn_axes]
      rfl)
    (match_axes_cons h.good.ampsMatch)
  have hpre : ¬(A.axes σ).Pre := by
    rintro (hn | ⟨k, l, hl, hb⟩)
    · exact h.pre (.inl ((noElements_axes _).1 hn))
    · refine h.pre (.inr ⟨σ k, ?_⟩)
      rcases hl with hl | hl <;> obtain ⟨l, hl', rfl⟩ := Option.map_eq_some_iff.1 hl
      · exact ⟨l, .inl hl', beyond_axes hb⟩
      · exact ⟨l, .inr hl', beyond_axes hb⟩
  refine ⟨P', ⟨hg, hpre, ht.nb ▸ h.lt, ht.pml h.pml, fun l hl => ?_, fun k => ?_, h.freq, ht.interval ▸ h.interval, ?_⟩, ht⟩
  · have key : ∀ o, o ∈ (A.setup.srcs ++ A.setup.rcvs) → ∀ l, o.map (LocT.axes σ) = some l → WholeIgnored d l s := by
      intro o ho l hl
      obtain ⟨l, rfl, rfl⟩ := Option.map_eq_some_iff.1 hl
      exact LocT.axes_whole (h.loc l ho)
    have hl' : some l ∈ (A.setup.srcs ++ A.setup.rcvs).map (Option.map (LocT.axes σ)) := by
      rw [List.map_append, List.mem_append]
      exact (List.mem_append.1 hl).imp (hsr A.srcP A.srcV l).1 (hsr A.rcvP A.rcvV l).1
    obtain ⟨o, ho, e⟩ := List.mem_map.1 hl'
    exact key o ho l e
  · rw [ht.w1, ht.ext]
    exact (h.last (σ k)).imp id fun hx => hx.imp id fun hx => ⟨ht.beforeLast hx.1, ht.beforeLast hx.2⟩
  · rw [ht.ratio, ht.interval, ht.nt]
    exact h.nt

/-- **C125** for `acoustic`: the components of the velocity are in the new order as well. -/
theorem C125_acoustic_axes (A : UArgs d) (P : Plan d) (s : ℕ) (cf : ℤ) (h : Fwd A P s cf)
    (hw : ∀ l, some l ∈ A.setup.srcs ++ A.setup.rcvs → ∀ s < P.nb, WholeIgnored d l s) (σ : Equiv.Perm (Fin d)) :
    ∃ r r', A.acoustic s = .ok (some r) ∧ (A.axes σ).acoustic s = .ok (some r') ∧ r'.out = turned σ r.out ∧
      (∀ i < locCount A.rcvP, r'.tracesP i = r.tracesP i) ∧
      ∀ k, ∀ i < locCount (A.rcvV (σ k)), r'.tracesV k i = r.tracesV (σ k) i := by
  obtain ⟨P', h', ht⟩ := fwd_axes h hw σ
  obtain ⟨r, p, v, phi, psi, hc, hv, hi, ho, hp, hx⟩ := C92_acoustic_scheme A P s cf (plan_ok.2 h.good) h.pre
    h.lt h.pml h.loc h.last h.freq h.interval h.nt
  obtain ⟨r', p', v', phi', psi', hc', hv', hi', ho', hp', hx'⟩ := C92_acoustic_scheme (A.axes σ) _ s cf (plan_ok.2 h'.good)
    h'.pre h'.lt h'.pml h'.loc h'.last h'.freq h'.interval h'.nt
  have hva := hv.axes σ
  have e0 : P'.grid.extend ((A.axes σ).v.shot s) = Spec.axes σ (P.grid.extend (A.v.shot s)) := by
    rw [ht.grid]
    exact extend_axes _ _
  have e1 : P'.grid.extend ((A.axes σ).rho.shot s) = Spec.axes σ (P.grid.extend (A.rho.shot s)) := by
    rw [ht.grid]
    exact extend_axes _ _
  have e2 : (fun t => locSum (d := d) (A.axes σ).srcP s fun i => upAmps P' (A.axes σ).opts.timeTaper (A.axes σ).ampP s t i) =
      fun t => Spec.axes σ (locSum A.srcP s fun i => upAmps P A.opts.timeTaper A.ampP s t i) :=
    funext fun t => ht.inject _ _ _ _ _
  have e3 : (fun t k => locSum (d := d) ((A.axes σ).srcV k) s fun i =>
      upAmps P' (A.axes σ).opts.timeTaper ((A.axes σ).ampV k) s t i) =
      fun t k => Spec.axes σ (locSum (A.srcV (σ k)) s fun i => upAmps P A.opts.timeTaper (A.ampV (σ k)) s t i) :=
    funext fun t => funext fun k => ht.inject _ _ _ _ _
  rw [e0, e1, e2, e3] at hv'
  simp only [Spec.mean_axes] at hv'
  rw [ht.grid] at hv'
  have o1 := hva.outside
  have o2 := hv'.outside
  rw [← ht.grid] at o1 o2
  obtain ⟨rfl, rfl, rfl, rfl⟩ := hv'.unique hva (Starts.eq (w := (A.axes σ).wf) o2 o1 hi' (Starts.axes ht hi))
  rw [ht.steps] at ho'
  refine ⟨r, r', hc, hc', ?_, fun i hi => ?_, fun k i hi => ?_⟩
  · have hidx : ∀ (f : Fld d ℝ) c, Spec.axes σ f (P'.index c) = f (P.index (turn σ c)) := fun f c => by
      rw [← ht.index]
      rfl
    refine Wavefields.ext (index_ext P' fun c => (ho' c).1.trans ?_) (funext fun k => index_ext P' fun c =>
      ((ho' c).2 k).1.trans ?_) (funext fun k => index_ext P' fun c => ((ho' c).2 k).2.1.trans ?_)
      (funext fun k => index_ext P' fun c => ((ho' c).2 k).2.2.trans ?_) <;> refine Eq.trans ?_ (hidx _ _).symm
    · exact (ho _).1.symm
    · exact ((ho _).2 (σ k)).1.symm
    · exact ((ho _).2 (σ k)).2.1.symm
    · exact ((ho _).2 (σ k)).2.2.symm
  · rw [hp i hi, hp' i (by rw [show (A.axes σ).rcvP = A.rcvP.map (LocT.axes σ) from rfl, locCount_axes]; exact hi)]
    exact ht.trace _ A.rcvP s i p
  · rw [hx (σ k) i hi, hx' k i (by
      rw [show (A.axes σ).rcvV k = (A.rcvV (σ k)).map (LocT.axes σ) from rfl, locCount_axes]
      exact hi)]
    exact ht.trace _ (A.rcvV (σ k)) s i fun t => v t (σ k)

example : ∃ r r', (exU .none).acoustic 1 = .ok (some r) ∧ ((exU .none).axes (Equiv.swap 0 1)).acoustic 1 = .ok (some r') ∧
    r'.out = turned (Equiv.swap 0 1) r.out ∧ r'.tracesP 0 = r.tracesP 0 ∧ r'.tracesV 1 0 = r.tracesV 0 0 := by
  obtain ⟨r, r', h1, h2, h3, h4, h5⟩ := C125_acoustic_axes (exU .none) _ 1 1 (exU_fwd 1 (by decide)) (fun l hl s hs =>
    Born.exLoc_whole hs (exU_locs .none l hl)) (Equiv.swap 0 1)
  exact ⟨r, r', h1, h2, h3, h4 0 (by decide), h5 1 0 (by decide)⟩

end Dw.Acoustic

namespace Dw.Elastic

open Setup Resample
open Scalar (upAmps WholeIgnored)
open Spec (turn turn_apply)

variable {d : ℕ} {σ : Equiv.Perm (Fin d)}

/-- The pair of axes that becomes the pair `p`, in ascending order. -/
def pairOf (σ : Equiv.Perm (Fin d)) (p : Sh d) : Sh d :=
  if h : σ p.1.1 < σ p.1.2 then ⟨(σ p.1.1, σ p.1.2), h⟩
  else ⟨(σ p.1.2, σ p.1.1), lt_of_le_of_ne (not_lt.1 h) fun e => p.2.ne (σ.injective e).symm⟩

theorem pairOf_surjective : Function.Surjective (pairOf σ) := by
  rintro ⟨⟨a, b⟩, hab⟩
  obtain ⟨i, rfl⟩ := σ.surjective a
  obtain ⟨j, rfl⟩ := σ.surjective b
  rcases lt_trichotomy i j with h | rfl | h
  · exact ⟨⟨(i, j), h⟩, by unfold pairOf; rw [dif_pos hab]⟩
  · exact absurd hab (lt_irrefl _)
  · exact ⟨⟨(j, i), h⟩, by unfold pairOf; rw [dif_neg (not_lt.2 (le_of_lt hab))]⟩

def UWf.axes (σ : Equiv.Perm (Fin d)) (w : UWf d) : UWf d :=
  ⟨fun k => (w.v (σ k)).map (WfT.axes σ), fun k => (w.s (σ k)).map (WfT.axes σ),
    fun p => (w.sh (pairOf σ p)).map (WfT.axes σ), fun i j => (w.mv (σ i) (σ j)).map (WfT.axes σ),
    fun i j => (w.ms (σ i) (σ j)).map (WfT.axes σ)⟩

def turned (σ : Equiv.Perm (Fin d)) (o : Wavefields d ℝ) : Wavefields d ℝ :=
  ⟨fun k => Spec.axes σ (o.v (σ k)), fun k => Spec.axes σ (o.s (σ k)), fun p => Spec.axes σ (o.sh (pairOf σ p)),
    fun i j => Spec.axes σ (o.mv (σ i) (σ j)), fun i j => Spec.axes σ (o.ms (σ i) (σ j))⟩

/-- The call with the axes in another order: axis `k` is what was axis `σ k`. -/
def UArgs.axes (σ : Equiv.Perm (Fin d)) (A : UArgs d) : UArgs d :=
  { A with
    lam := A.lam.axes σ
    mu := A.mu.axes σ
    buoyancy := A.buoyancy.axes σ
    ampV := fun k => A.ampV (σ k)
    srcP := A.srcP.map (LocT.axes σ)
    srcV := fun k => (A.srcV (σ k)).map (LocT.axes σ)
    rcvP := A.rcvP.map (LocT.axes σ)
    rcvV := fun k => (A.rcvV (σ k)).map (LocT.axes σ)
    wf := A.wf.axes σ
    opts := A.opts.axes σ }

theorem maxModelVel_axes (A : UArgs d) : (A.axes σ).maxModelVel = A.maxModelVel := by
  unfold UArgs.maxModelVel
  congr 1
  ext x
  constructor
  · rintro ⟨s, c, hs, hc, hx⟩
    exact ⟨s, turn σ c, hs, (inShape_turn _ _).1 hc, hx⟩
  · rintro ⟨s, c, hs, hc, hx⟩
    obtain ⟨c, rfl⟩ := turn_surjective (σ := σ) c
    exact ⟨s, c, hs, (inShape_turn _ _).2 hc, hx⟩

theorem mem_flat {α : Type} (f : Fin d → Fin d → α) (x : α) :
    x ∈ (List.finRange d).flatMap (fun i => List.ofFn (f i)) ↔ ∃ i j, f i j = x := by
  simp only [List.mem_flatMap, List.mem_finRange, true_and, List.mem_ofFn]

theorem mem_shear {α : Type} (f : Sh d → Option α) (x : α) :
    some x ∈ (List.finRange d).flatMap (fun i => List.ofFn fun j => if h : i < j then f ⟨(i, j), h⟩ else none) ↔
      ∃ p, f p = some x := by
  rw [mem_flat]
  constructor
  · rintro ⟨i, j, h⟩
    by_cases hij : i < j
    · rw [dif_pos hij] at h
      exact ⟨_, h⟩
    · rw [dif_neg hij] at h
      cases h
  · rintro ⟨⟨⟨i, j⟩, hij⟩, h⟩
    exact ⟨i, j, by rw [dif_pos hij]; exact h⟩

theorem mem_map_some {α β : Type} (l : List (Option α)) (g : α → β) (x : β) :
    some x ∈ l.map (Option.map g) ↔ ∃ y, some y ∈ l ∧ g y = x := by
  rw [List.mem_map]
  constructor
  · rintro ⟨o, ho, e⟩
    obtain ⟨y, rfl, rfl⟩ := Option.map_eq_some_iff.1 e
    exact ⟨y, ho, rfl⟩
  · rintro ⟨y, hy, rfl⟩
    exact ⟨_, hy, rfl⟩

theorem mem_list_axes (w : UWf d) (x : WfT d) :
    some x ∈ (w.axes σ).list ↔ some x ∈ w.list.map (Option.map (WfT.axes σ)) := by
  unfold UWf.list
  simp only [List.map_append, List.mem_append]
  refine or_congr (or_congr (or_congr (or_congr (mem_ofFn_axes _ _ _) (mem_ofFn_axes _ _ _)) ?_) ?_) ?_
  · rw [mem_shear, mem_map_some]
    simp only [mem_shear]
    constructor
    · rintro ⟨p, h⟩
      obtain ⟨y, hy, rfl⟩ := Option.map_eq_some_iff.1 h
      exact ⟨y, ⟨_, hy⟩, rfl⟩
    · rintro ⟨y, ⟨p, hp⟩, rfl⟩
      obtain ⟨p, rfl⟩ := pairOf_surjective (σ := σ) p
      exact ⟨p, Option.map_eq_some_iff.2 ⟨y, hp, rfl⟩⟩
  · rw [mem_flat, mem_map_some]
    simp only [mem_flat]
    constructor
    · rintro ⟨i, j, h⟩
      obtain ⟨y, hy, rfl⟩ := Option.map_eq_some_iff.1 h
      exact ⟨y, ⟨_, _, hy⟩, rfl⟩
    · rintro ⟨y, ⟨i, j, hp⟩, rfl⟩
      obtain ⟨i, rfl⟩ := σ.surjective i
      obtain ⟨j, rfl⟩ := σ.surjective j
      exact ⟨i, j, Option.map_eq_some_iff.2 ⟨y, hp, rfl⟩⟩
  · rw [mem_flat, mem_map_some]
    simp only [mem_flat]
    constructor
    · rintro ⟨i, j, h⟩
      obtain ⟨y, hy, rfl⟩ := Option.map_eq_some_iff.1 h
      exact ⟨y, ⟨_, _, hy⟩, rfl⟩
    · rintro ⟨y, ⟨i, j, hp⟩, rfl⟩
      obtain ⟨i, rfl⟩ := σ.surjective i
      obtain ⟨j, rfl⟩ := σ.surjective j
      exact ⟨i, j, Option.map_eq_some_iff.2 ⟨y, hp, rfl⟩⟩

theorem atS_comm (i j : Fin d) : Spec.atS i j = Spec.atS j i := by
  funext k
  unfold Spec.atS
  exact Bool.eq_iff_iff.2 (by simp; tauto)

theorem Starts.axes {P P' : Plan d} (ht : P.Turned σ P') {w : UWf d} {s : ℕ} {v : ℕ → Fin d → Fld d ℝ}
    {sig mv ms : ℕ → Fin d → Fin d → Fld d ℝ} (hs : ∀ t i j, sig t i j = sig t j i) (h : Starts P w s v sig mv ms) :
    Starts P' (w.axes σ) s (fun t k => Spec.axes σ (v t (σ k))) (fun t i j => Spec.axes σ (sig t (σ i) (σ j)))
      (fun t i j => Spec.axes σ (mv t (σ i) (σ j))) fun t i j => Spec.axes σ (ms t (σ i) (σ j)) := by
  intro i c
  obtain ⟨h1, h2, h3, h4⟩ := h (σ i) (turn σ c)
  refine ⟨fun hc => ?_, fun j hij hc => ?_, fun j hc => ?_, fun hc => ?_⟩
  · rw [ht.grid, Spec.Grid.axes_in] at hc
    exact (h1 hc).trans (ht.given _ _ _).symm
  · rw [ht.grid, Spec.Grid.axes_inS] at hc
    show sig 0 (σ i) (σ j) (turn σ c) = P'.given ((w.sh (pairOf σ ⟨(i, j), hij⟩)).map (WfT.axes σ)) s c
    rw [ht.given]
    by_cases hl : σ i < σ j
    · rw [show pairOf σ ⟨(i, j), hij⟩ = ⟨(σ i, σ j), hl⟩ from dif_pos hl]
      exact h2 _ hl hc
    · have hl' : σ j < σ i := lt_of_le_of_ne (not_lt.1 hl) fun e => hij.ne (σ.injective e).symm
      rw [show pairOf σ ⟨(i, j), hij⟩ = ⟨(σ j, σ i), hl'⟩ from dif_neg hl, hs]
      exact (h (σ j) (turn σ c)).2.1 _ hl' (by rw [atS_comm]; exact hc)
  · rw [ht.grid, Spec.Grid.axes_inS] at hc
    have := h3 _ hc
    rw [turn_apply, Spec.atS_axes] at this
    rw [ht.betweenAt]
    exact ⟨this.1, fun hb => (this.2 hb).trans (ht.given _ _ _).symm⟩
  · rw [ht.grid, Spec.Grid.axes_inV] at hc
    refine ⟨(h4 hc).1.trans (ht.given _ _ _).symm, fun j => ?_⟩
    have := (h4 hc).2 (σ j)
    rw [turn_apply, Spec.atV_axes] at this
    rw [ht.betweenAt]
    exact ⟨this.1, fun hb => (this.2 hb).trans (ht.given _ _ _).symm⟩

theorem fwd_axes {A : UArgs d} {P : Plan d} {s : ℕ} {cf : ℤ} (h : Fwd A P s cf)
    (hw : ∀ l, some l ∈ A.setup.srcs ++ A.setup.rcvs → ∀ s < P.nb, WholeIgnored d l s) (σ : Equiv.Perm (Fin d)) :
    ∃ P', Fwd (A.axes σ) P' s cf ∧ P.Turned σ P' := by
  have hsr : ∀ (o : Option LocT) (f : Fin d → Option LocT) l,
      some l ∈ ((List.ofFn fun k => (f (σ k)).map (LocT.axes σ)) ++ [o.map (LocT.axes σ)]) ↔
        some l ∈ (List.ofFn f ++ [o]).map (Option.map (LocT.axes σ)) := fun o f l => by
    rw [List.map_append, List.mem_append, List.mem_append, mem_ofFn_axes]
    rfl
  obtain ⟨P', hg, ht⟩ := good_turned (σ := σ) (A' := (A.axes σ).setup) h.good (by have := h.lt; omega) hw
    (by
      unfold UArgs.setup
      rw [maxModelVel_axes]
      unfold UArgs.axes SetupArgs.axes Opts.setup Opts.axes
      simp only [List.map_cons, List.map_nil])
    (fun a => by
      show some a ∈ ((List.ofFn fun k => A.ampV (σ k)) ++ [A.ampP]) ↔ some a ∈ (List.ofFn A.ampV ++ [A.ampP])
      rw [List.mem_append, List.mem_append, mem_ofFn_perm])
    (fun l => hsr A.srcP A.srcV l) (fun l => hsr A.rcvP A.rcvV l) (fun w => mem_list_axes A.wf w)
    (match_axes_snoc h.good.ampsMatch)
  have hpre : ¬(A.axes σ).Pre := by
    rintro (⟨k, l, hl, hb⟩ | hn)
    · refine h.pre (.inl ⟨σ k, ?_⟩)
      rcases hl with hl | hl <;> obtain ⟨l, hl', rfl⟩ := Option.map_eq_some_iff.1 hl
      · exact ⟨l, .inl hl', beyond_axes hb⟩
      · exact ⟨l, .inr hl', beyond_axes hb⟩
    · exact h.pre (.inr (hn.imp (noElements_axes _).1 fun hn => hn.imp (noElements_axes _).1 (noElements_axes _).1))
  refine ⟨P', ⟨hg, hpre, ht.nb ▸ h.lt, ht.pml h.pml, fun l hl => ?_, fun k => ?_, h.freq, ht.interval ▸ h.interval, ?_⟩, ht⟩
  · have key : ∀ o, o ∈ (A.setup.srcs ++ A.setup.rcvs) → ∀ l, o.map (LocT.axes σ) = some l → WholeIgnored d l s := by
      intro o ho l hl
      obtain ⟨l, rfl, rfl⟩ := Option.map_eq_some_iff.1 hl
      exact LocT.axes_whole (h.loc l ho)
    have hl' : some l ∈ (A.setup.srcs ++ A.setup.rcvs).map (Option.map (LocT.axes σ)) := by
      rw [List.map_append, List.mem_append]
      exact (List.mem_append.1 hl).imp (hsr A.srcP A.srcV l).1 (hsr A.rcvP A.rcvV l).1
    obtain ⟨o, ho, e⟩ := List.mem_map.1 hl'
    exact key o ho l e
  · rw [ht.w1, ht.ext]
    exact (h.last (σ k)).imp id fun hx => hx.imp id fun hx => ⟨ht.beforeLast hx.1, ht.beforeLast hx.2⟩
  · rw [ht.ratio, ht.interval, ht.nt]
    exact h.nt

/-- **C125** for `elastic`: the components of the velocity and of the stress are in the new order as well. -/
theorem C125_elastic_axes (A : UArgs d) (P : Plan d) (s : ℕ) (cf : ℤ) (h : Fwd A P s cf)
    (hw : ∀ l, some l ∈ A.setup.srcs ++ A.setup.rcvs → ∀ s < P.nb, WholeIgnored d l s) (σ : Equiv.Perm (Fin d)) :
    ∃ r r', A.elastic s = .ok (some r) ∧ (A.axes σ).elastic s = .ok (some r') ∧ r'.out = turned σ r.out ∧
      (∀ i < locCount A.rcvP, r'.tracesP i = r.tracesP i) ∧
      ∀ k, ∀ i < locCount (A.rcvV (σ k)), r'.tracesV k i = r.tracesV (σ k) i := by
  obtain ⟨P', h', ht⟩ := fwd_axes h hw σ
  obtain ⟨r, v, sig, mv, ms, hc, hv, hi, ho, hp, hx⟩ := C93_elastic_scheme A P s cf (plan_ok.2 h.good) h.pre
    h.lt h.pml h.loc h.last h.freq h.interval h.nt
  obtain ⟨r', v', sig', mv', ms', hc', hv', hi', ho', hp', hx'⟩ := C93_elastic_scheme (A.axes σ) _ s cf (plan_ok.2 h'.good)
    h'.pre h'.lt h'.pml h'.loc h'.last h'.freq h'.interval h'.nt
  have hva := hv.axes σ
  have e0 : P'.grid.extend ((A.axes σ).lam.shot s) = Spec.axes σ (P.grid.extend (A.lam.shot s)) := by
    rw [ht.grid]
    exact extend_axes _ _
  have e1 : P'.grid.extend ((A.axes σ).mu.shot s) = Spec.axes σ (P.grid.extend (A.mu.shot s)) := by
    rw [ht.grid]
    exact extend_axes _ _
  have e4 : P'.grid.extend ((A.axes σ).buoyancy.shot s) = Spec.axes σ (P.grid.extend (A.buoyancy.shot s)) := by
    rw [ht.grid]
    exact extend_axes _ _
  have e2 : (fun t => locSum (d := d) (A.axes σ).srcP s fun i => upAmps P' (A.axes σ).opts.timeTaper (A.axes σ).ampP s t i) =
      fun t => Spec.axes σ (locSum A.srcP s fun i => upAmps P A.opts.timeTaper A.ampP s t i) :=
    funext fun t => ht.inject _ _ _ _ _
  have e3 : (fun t k => locSum (d := d) ((A.axes σ).srcV k) s fun i =>
      upAmps P' (A.axes σ).opts.timeTaper ((A.axes σ).ampV k) s t i) =
      fun t k => Spec.axes σ (locSum (A.srcV (σ k)) s fun i => upAmps P A.opts.timeTaper (A.ampV (σ k)) s t i) :=
    funext fun t => funext fun k => ht.inject _ _ _ _ _
  have e5 : (fun k c => Spec.inverse (A.axes σ).rfmax (Spec.mean (fun c =>
      Spec.inverse (A.axes σ).rfmax (Spec.axes σ (P.grid.extend (A.buoyancy.shot s)) c)) k c)) =
      fun k => Spec.axes σ (fun c => Spec.inverse A.rfmax (Spec.mean (fun c =>
        Spec.inverse A.rfmax (P.grid.extend (A.buoyancy.shot s) c)) (σ k) c)) := by
    funext k c
    exact congrArg (Spec.inverse A.rfmax) (Spec.mean_axes σ (fun c => Spec.inverse A.rfmax
      (P.grid.extend (A.buoyancy.shot s) c)) k c)
  have e6 : Spec.harmonic (A.axes σ).rfmax (Spec.axes σ (P.grid.extend (A.mu.shot s))) =
      fun i j => Spec.axes σ (Spec.harmonic A.rfmax (P.grid.extend (A.mu.shot s)) (σ i) (σ j)) :=
    funext fun i => funext fun j => Spec.harmonic_axes σ _ _ i j
  rw [e0, e1, e4, e2, e3, e5, e6, ht.grid] at hv'
  have o1 := hva.outside
  have o2 := hv'.outside
  rw [← ht.grid] at o1 o2
  obtain ⟨rfl, rfl, rfl, rfl⟩ := hv'.unique hva (Starts.eq (w := (A.axes σ).wf) hv'.symm hva.symm o2 o1 hi'
    (Starts.axes ht hv.symm hi))
  rw [ht.steps] at ho'
  have hidx : ∀ (f : Fld d ℝ) c, Spec.axes σ f (P'.index c) = f (P.index (turn σ c)) := fun f c => by
    rw [← ht.index]
    rfl
  refine ⟨r, r', hc, hc', ?_, fun i hi => ?_, fun k i hi => ?_⟩
  · refine Wavefields.ext (funext fun i => index_ext P' fun c => (ho' c i).1.trans ?_)
      (funext fun i => index_ext P' fun c => (ho' c i).2.1.trans ?_)
      (funext fun p => index_ext P' fun c => ((ho' c p.1.1).2.2.1 p.1.2 p.2).trans ?_)
      (funext fun i => funext fun j => index_ext P' fun c => ((ho' c i).2.2.2 j).1.trans ?_)
      (funext fun i => funext fun j => index_ext P' fun c => ((ho' c i).2.2.2 j).2.trans ?_) <;>
      refine Eq.trans ?_ (hidx _ _).symm
    · exact (ho _ (σ i)).1.symm
    · exact (ho _ (σ i)).2.1.symm
    · by_cases hl : σ p.1.1 < σ p.1.2
      · rw [show pairOf σ p = ⟨(σ p.1.1, σ p.1.2), hl⟩ from dif_pos hl]
        exact ((ho _ _).2.2.1 _ hl).symm
      · have hl' : σ p.1.2 < σ p.1.1 := lt_of_le_of_ne (not_lt.1 hl) fun e => p.2.ne (σ.injective e).symm
        rw [show pairOf σ p = ⟨(σ p.1.2, σ p.1.1), hl'⟩ from dif_neg hl]
        refine Eq.trans ?_ ((ho _ _).2.2.1 _ hl').symm
        exact congrFun (hv.symm _ _ _) _
    · exact ((ho _ (σ i)).2.2.2 (σ j)).1.symm
    · exact ((ho _ (σ i)).2.2.2 (σ j)).2.symm
  · rw [hp i hi, hp' i (by rw [show (A.axes σ).rcvP = A.rcvP.map (LocT.axes σ) from rfl, locCount_axes]; exact hi)]
    have e : ∀ t, (fun c => ∑ k, Spec.axes σ (sig t (σ k) (σ k)) c) = Spec.axes σ fun c => ∑ k, sig t k k c := fun t =>
      funext fun c => Equiv.sum_comp σ fun k => sig t k k (turn σ c)
    simp only [e]
    have := ht.trace A.opts.timeTaper A.rcvP s i fun t c => ∑ k, sig t k k c
    rw [← this]
    rfl
  · rw [hx (σ k) i hi, hx' k i (by
      rw [show (A.axes σ).rcvV k = (A.rcvV (σ k)).map (LocT.axes σ) from rfl, locCount_axes]
      exact hi)]
    exact ht.trace _ (A.rcvV (σ k)) s i fun t => v t (σ k)

example : ∃ r r', (exU .none).elastic 1 = .ok (some r) ∧ ((exU .none).axes (Equiv.swap 0 1)).elastic 1 = .ok (some r') ∧
    r'.out = turned (Equiv.swap 0 1) r.out ∧ r'.tracesP 0 = r.tracesP 0 ∧ r'.tracesV 1 0 = r.tracesV 0 0 := by
  obtain ⟨r, r', h1, h2, h3, h4, h5⟩ := C125_elastic_axes (exU .none) _ 1 1 (exU_fwd 1 (by decide)) (fun l hl s hs =>
    Born.exLoc_whole hs (exU_locs .none l hl)) (Equiv.swap 0 1)
  exact ⟨r, r', h1, h2, h3, h4 0 (by decide), h5 1 0 (by decide)⟩

end Dw.Elastic
