import Verif.Born.User
import Verif.Acoustic.User
import Verif.Elastic.User

/-!
# Shots of calls of `scalar_born`, `acoustic` and `elastic`
-/

namespace Dw.Setup

variable {d : ℕ}

theorem ModelT.select_noElements {m : ModelT d ℝ} {σ : ℕ → ℕ} {nb' : ℕ} (hnb : 0 < nb')
    (h : ¬Scalar.NoElements m) : ¬Scalar.NoElements (m.select σ nb') := by
  rintro (h1 | ⟨k, h1⟩)
  · refine h (.inl ?_)
    simp only [ModelT.select] at h1
    split_ifs at h1 with h2
    · exact h1
    · simp at h1
      omega
  · refine h (.inr ⟨k, ?_⟩)
    rw [m.select_shape] at h1
    exact h1

theorem LocT.Beyond.of_select {l : LocT} {σ : ℕ → ℕ} {nb' k : ℕ} {size : ℤ} (hσ : ∀ s < nb', σ s < l.nb)
    (h : (l.select σ nb').Beyond k size) : l.Beyond k size := by
  obtain ⟨s, hs, i, hi, h1, h2⟩ := h
  exact ⟨σ s, hσ s hs, i, hi, h1, h2⟩

theorem map_select (o : Option (WfT d)) (σ : ℕ → ℕ) (nb' s : ℕ) :
    (o.map (WfT.select σ nb')).map (fun w => w.val s) = o.map fun w => w.val (σ s) := by
  cases o <;> rfl

theorem option_map_eq_some {α β : Type} {f : α → β} {o : Option α} {b : β} (h : o.map f = some b) :
    ∃ a, o = some a ∧ f a = b := by
  cases o with
  | none => cases h
  | some a => exact ⟨a, rfl, Option.some.inj h⟩

end Dw.Setup

open Dw.Setup

namespace Dw.Born

variable {d : ℕ}

def UWf.select (w : UWf d) (σ : ℕ → ℕ) (nb' : ℕ) : UWf d :=
  ⟨w.wfc.map (WfT.select σ nb'), w.wfp.map (WfT.select σ nb'), fun k => (w.psi k).map (WfT.select σ nb'),
    fun k => (w.zeta k).map (WfT.select σ nb')⟩

/-- The arguments of a call with shots `σ 0, …, σ (nb' - 1)` of `A`. -/
def UArgs.select (A : UArgs d) (σ : ℕ → ℕ) (nb' : ℕ) : UArgs d :=
  { A with
    v := A.v.select σ nb'
    scatter := A.scatter.select σ nb'
    amps := A.amps.map (AmpT.select σ nb')
    src := A.src.map (LocT.select σ nb')
    rcv := A.rcv.map (LocT.select σ nb')
    bgRcv := A.bgRcv.map (LocT.select σ nb')
    wf := A.wf.select σ nb'
    wfsc := A.wfsc.select σ nb' }

theorem UWf.select_list (w : UWf d) (σ : ℕ → ℕ) (nb' : ℕ) :
    (w.select σ nb').list = w.list.map (Option.map (WfT.select σ nb')) := by
  simp only [UWf.list, UWf.select, List.map_append, List.map_ofFn, List.map_cons, List.map_nil]
  rfl

theorem UWf.select_init (w : UWf d) (σ : ℕ → ℕ) (nb' s : ℕ) : (w.select σ nb').init s = w.init (σ s) := by
  simp only [UWf.init, UWf.select, map_select]

/-- **C85** A call of `scalar_born` with some of the shots of another call, in any order and possibly
repeated, gives for each of them what the other call gives. -/
theorem C85_shots_of_a_call (A : UArgs d) (σ : ℕ → ℕ) (nb nb' s : ℕ) (r : Option (UShot d))
    (hb : A.setup.Batch nb) (hσ : ∀ s < nb', σ s < nb) (hs : s < nb') (hsp : A.opts.surveyPad = .none)
    (hmv : A.opts.maxVel = none → A.v.nb.getD 1 = 1)
    (hact : (∀ w, some w ∉ A.setup.wfs) ∨ A.setup.Active σ nb')
    (h : A.born (σ s) = .ok r) : (A.select σ nb').born s = .ok r := by
  have e : (A.select σ nb').setup = A.setup.select σ nb' (Scalar.maxAbs (A.v.select σ nb')) := by
    simp only [UArgs.setup, UArgs.select, SetupArgs.select, Opts.setup, UWf.select_list, List.map_append,
      List.map_cons, List.map_nil]
  unfold UArgs.born at h ⊢
  rw [e]
  refine call_select (run := A.run (A.wf.init (σ s)) (A.wfsc.init (σ s))) hb hσ hs hsp (fun hm => ?_) hact
    (fun _ h0 => ModelT.select_noElements (by omega) h0) (fun cf S => ?_) h
  · have : A.v.select σ nb' = A.v := if_pos (hmv hm)
    rw [this]
    rfl
  · rw [show (A.select σ nb').wf = A.wf.select σ nb' from rfl,
      show (A.select σ nb').wfsc = A.wfsc.select σ nb' from rfl, UWf.select_init, UWf.select_init]
    rfl

end Dw.Born

namespace Dw.Acoustic

variable {d : ℕ}

def UWf.select (w : UWf d) (σ : ℕ → ℕ) (nb' : ℕ) : UWf d :=
  ⟨w.p.map (WfT.select σ nb'), fun k => (w.v k).map (WfT.select σ nb'),
    fun k => (w.phi k).map (WfT.select σ nb'), fun k => (w.psi k).map (WfT.select σ nb')⟩

/-- The arguments of a call with shots `σ 0, …, σ (nb' - 1)` of `A`. -/
def UArgs.select (A : UArgs d) (σ : ℕ → ℕ) (nb' : ℕ) : UArgs d :=
  { A with
    v := A.v.select σ nb'
    rho := A.rho.select σ nb'
    ampP := A.ampP.map (AmpT.select σ nb')
    ampV := fun k => (A.ampV k).map (AmpT.select σ nb')
    srcP := A.srcP.map (LocT.select σ nb')
    srcV := fun k => (A.srcV k).map (LocT.select σ nb')
    rcvP := A.rcvP.map (LocT.select σ nb')
    rcvV := fun k => (A.rcvV k).map (LocT.select σ nb')
    wf := A.wf.select σ nb' }

theorem UWf.select_list (w : UWf d) (σ : ℕ → ℕ) (nb' : ℕ) :
    (w.select σ nb').list = w.list.map (Option.map (WfT.select σ nb')) := by
  simp only [UWf.list, UWf.select, List.map_append, List.map_ofFn, List.map_cons, List.map_nil]
  rfl

theorem UWf.select_init (w : UWf d) (σ : ℕ → ℕ) (nb' s : ℕ) : (w.select σ nb').init s = w.init (σ s) := by
  simp only [UWf.init, UWf.select, map_select]

theorem UArgs.mem_loc {A : UArgs d} {k : Fin d} {l : LocT} (h : A.srcV k = some l ∨ A.rcvV k = some l) :
    some l ∈ A.setup.srcs ++ A.setup.rcvs := by
  rcases h with h | h
  · exact List.mem_append_left _ (List.mem_cons_of_mem _ (List.mem_ofFn.2 ⟨k, h⟩))
  · exact List.mem_append_right _ (List.mem_cons_of_mem _ (List.mem_ofFn.2 ⟨k, h⟩))

/-- **C85** The same for `acoustic`. -/
theorem C85_shots_of_a_call (A : UArgs d) (σ : ℕ → ℕ) (nb nb' s : ℕ) (r : Option (UShot d))
    (hb : A.setup.Batch nb) (hσ : ∀ s < nb', σ s < nb) (hs : s < nb') (hsp : A.opts.surveyPad = .none)
    (hmv : A.opts.maxVel = none → A.v.nb.getD 1 = 1)
    (hact : (∀ w, some w ∉ A.setup.wfs) ∨ A.setup.Active σ nb')
    (h : A.acoustic (σ s) = .ok r) : (A.select σ nb').acoustic s = .ok r := by
  have e : (A.select σ nb').setup = A.setup.select σ nb' (Scalar.maxAbs (A.v.select σ nb')) := by
    simp only [UArgs.setup, UArgs.select, SetupArgs.select, Opts.setup, UWf.select_list, List.map_ofFn,
      List.map_cons, List.map_nil]
    rfl
  unfold UArgs.acoustic at h ⊢
  rw [e]
  refine call_select (run := A.run (A.wf.init (σ s))) hb hσ hs hsp (fun hm => ?_) hact
    (fun hl h0 => ?_) (fun cf S => ?_) h
  · have : A.v.select σ nb' = A.v := if_pos (hmv hm)
    rw [this]
    rfl
  · rintro (h1 | ⟨k, l, h1, h2⟩)
    · exact ModelT.select_noElements (by omega) (fun h2 => h0 (.inl h2)) h1
    · refine h0 (.inr ?_)
      rw [show (A.select σ nb').v.shape = A.v.shape from A.v.select_shape σ nb'] at h2
      rcases h1 with h1 | h1
      · obtain ⟨l', hl', rfl⟩ := option_map_eq_some h1
        exact ⟨k, l', .inl hl', h2.of_select (by rw [hl l' (UArgs.mem_loc (.inl hl'))]; exact hσ)⟩
      · obtain ⟨l', hl', rfl⟩ := option_map_eq_some h1
        exact ⟨k, l', .inr hl', h2.of_select (by rw [hl l' (UArgs.mem_loc (.inr hl'))]; exact hσ)⟩
  · rw [show (A.select σ nb').wf = A.wf.select σ nb' from rfl, UWf.select_init]
    rfl

end Dw.Acoustic

namespace Dw.Elastic

variable {d : ℕ}

def UWf.select (w : UWf d) (σ : ℕ → ℕ) (nb' : ℕ) : UWf d :=
  ⟨fun k => (w.v k).map (WfT.select σ nb'), fun k => (w.s k).map (WfT.select σ nb'),
    fun k => (w.sh k).map (WfT.select σ nb'), fun k j => (w.mv k j).map (WfT.select σ nb'),
    fun k j => (w.ms k j).map (WfT.select σ nb')⟩

/-- The arguments of a call with shots `σ 0, …, σ (nb' - 1)` of `A`. -/
def UArgs.select (A : UArgs d) (σ : ℕ → ℕ) (nb' : ℕ) : UArgs d :=
  { A with
    lam := A.lam.select σ nb'
    mu := A.mu.select σ nb'
    buoyancy := A.buoyancy.select σ nb'
    ampP := A.ampP.map (AmpT.select σ nb')
    ampV := fun k => (A.ampV k).map (AmpT.select σ nb')
    srcP := A.srcP.map (LocT.select σ nb')
    srcV := fun k => (A.srcV k).map (LocT.select σ nb')
    rcvP := A.rcvP.map (LocT.select σ nb')
    rcvV := fun k => (A.rcvV k).map (LocT.select σ nb')
    wf := A.wf.select σ nb' }

theorem UWf.select_list (w : UWf d) (σ : ℕ → ℕ) (nb' : ℕ) :
    (w.select σ nb').list = w.list.map (Option.map (WfT.select σ nb')) := by
  have e : ∀ i j : Fin d, (if h : i < j then (w.select σ nb').sh ⟨(i, j), h⟩ else none) =
      (if h : i < j then w.sh ⟨(i, j), h⟩ else none).map (WfT.select σ nb') := fun i j => by
    split_ifs <;> rfl
  simp only [UWf.list, List.map_append, List.map_ofFn, List.map_flatMap, e]
  rfl

theorem UWf.select_init (w : UWf d) (σ : ℕ → ℕ) (nb' s : ℕ) : (w.select σ nb').init s = w.init (σ s) := by
  simp only [UWf.init, UWf.select, map_select]

theorem UArgs.mem_loc {A : UArgs d} {k : Fin d} {l : LocT} (h : A.srcV k = some l ∨ A.rcvV k = some l) :
    some l ∈ A.setup.srcs ++ A.setup.rcvs := by
  rcases h with h | h
  · exact List.mem_append_left _ (List.mem_append_left _ (List.mem_ofFn.2 ⟨k, h⟩))
  · exact List.mem_append_right _ (List.mem_append_left _ (List.mem_ofFn.2 ⟨k, h⟩))

/-- **C85** The same for `elastic`. -/
theorem C85_shots_of_a_call (A : UArgs d) (σ : ℕ → ℕ) (nb nb' s : ℕ) (r : Option (UShot d))
    (hb : A.setup.Batch nb) (hσ : ∀ s < nb', σ s < nb) (hs : s < nb') (hsp : A.opts.surveyPad = .none)
    (hmv : A.opts.maxVel = none → A.lam.nb.getD 1 = 1 ∧ A.mu.nb.getD 1 = 1 ∧ A.buoyancy.nb.getD 1 = 1)
    (hact : (∀ w, some w ∉ A.setup.wfs) ∨ A.setup.Active σ nb')
    (h : A.elastic (σ s) = .ok r) : (A.select σ nb').elastic s = .ok r := by
  have e : (A.select σ nb').setup = A.setup.select σ nb' (A.select σ nb').maxModelVel := by
    simp only [UArgs.setup, UArgs.select, SetupArgs.select, Opts.setup, UWf.select_list, List.map_ofFn,
      List.map_append, List.map_cons, List.map_nil]
    rfl
  unfold UArgs.elastic at h ⊢
  rw [e]
  refine call_select (run := A.run (A.wf.init (σ s))) hb hσ hs hsp (fun hm => ?_) hact
    (fun hl h0 => ?_) (fun cf S => ?_) h
  · obtain ⟨h1, h2, h3⟩ := hmv hm
    have e1 : A.lam.select σ nb' = A.lam := if_pos h1
    have e2 : A.mu.select σ nb' = A.mu := if_pos h2
    have e3 : A.buoyancy.select σ nb' = A.buoyancy := if_pos h3
    simp only [UArgs.maxModelVel, UArgs.select, e1, e2, e3]
    rfl
  · rintro (⟨k, l, h1, h2⟩ | h1 | h1 | h1)
    · refine h0 (.inl ?_)
      rw [show (A.select σ nb').lam.shape = A.lam.shape from A.lam.select_shape σ nb'] at h2
      rcases h1 with h1 | h1
      · obtain ⟨l', hl', rfl⟩ := option_map_eq_some h1
        exact ⟨k, l', .inl hl', h2.of_select (by rw [hl l' (UArgs.mem_loc (.inl hl'))]; exact hσ)⟩
      · obtain ⟨l', hl', rfl⟩ := option_map_eq_some h1
        exact ⟨k, l', .inr hl', h2.of_select (by rw [hl l' (UArgs.mem_loc (.inr hl'))]; exact hσ)⟩
    · exact ModelT.select_noElements (by omega) (fun h2 => h0 (.inr (.inl h2))) h1
    · exact ModelT.select_noElements (by omega) (fun h2 => h0 (.inr (.inr (.inl h2)))) h1
    · exact ModelT.select_noElements (by omega) (fun h2 => h0 (.inr (.inr (.inr h2)))) h1
  · rw [show (A.select σ nb').wf = A.wf.select σ nb' from rfl, UWf.select_init]
    rfl

end Dw.Elastic
