import Verif.Interface.Backends

/-!
# C118: the backend asked for is the one used, and it refuses options that it does not support
-/

namespace Dw.Interface

/-- The variables hold what their names say. -/
def StepVars.Ok (x : StepVars) : Prop :=
  (∀ v ∈ x.jit, v = .jit) ∧ (∀ v ∈ x.compile, v = .compile)

theorem StepVars.initial_ok : StepVars.initial.Ok := by
  constructor <;> intro v hv <;> cases hv

/-- Which variant a name asks for. -/
def Variant.name : Variant → String
  | .eager => "eager"
  | .jit => "jit"
  | .compile => "compile"

theorem StepVars.select_ok {x : StepVars} (h : x.Ok) (v : Variant) :
    ∃ y, x.select v.name = .ok y ∧ y.Ok ∧ y.opt = v := by
  obtain ⟨hj, hc⟩ := h
  cases v
  · exact ⟨{ x with opt := .eager }, rfl, ⟨hj, hc⟩, rfl⟩
  · cases e : x.jit with
    | none =>
      refine ⟨{ x with jit := some .jit, opt := .jit }, ?_, ⟨?_, hc⟩, rfl⟩
      · simp [StepVars.select, Variant.name, e]
      · intro v hv
        cases hv
        rfl
    | some w =>
      have : w = .jit := hj w (by rw [e]; rfl)
      subst this
      refine ⟨{ x with opt := .jit }, ?_, ⟨hj, hc⟩, rfl⟩
      simp [StepVars.select, Variant.name, e]
  · cases e : x.compile with
    | none =>
      refine ⟨{ x with compile := some .compile, opt := .compile }, ?_, ⟨hj, ?_⟩, rfl⟩
      · simp [StepVars.select, Variant.name, e]
      · intro v hv
        cases hv
        rfl
    | some w =>
      have : w = .compile := hc w (by rw [e]; rfl)
      subst this
      refine ⟨{ x with opt := .compile }, ?_, ⟨hj, hc⟩, rfl⟩
      simp [StepVars.select, Variant.name, e]

theorem StepVars.select_error {x : StepVars} {m : String} (h : ∀ v : Variant, m ≠ v.name) :
    x.select m = .error .valueError := by
  have h1 := h .eager
  have h2 := h .jit
  have h3 := h .compile
  simp only [Variant.name] at h1 h2 h3
  simp [StepVars.select, h1, h2, h3]

/-- What the documentation says of `python_backend`: `False` (or nothing) stands for the compiled backend, `True` for
the compiled or scripted Python functions, and a string for the variant with this name, in capital or small letters. -/
inductive Asks (openmp : Bool) : BackendArg → Option Variant → Prop
  | no : Asks openmp (.bool false) none
  | empty : Asks openmp (.str "") none
  | falsy : Asks openmp (.other false) none
  | yes : Asks openmp (.bool true) (some (if openmp then .compile else .jit))
  | name (s : String) (v : Variant) (h : lower s = v.name) : Asks openmp (.str s) (some v)

theorem func1_ok {openmp : Bool} {x : StepVars} (h : x.Ok) {a : BackendArg} {w : Option Variant}
    (ha : Asks openmp a w) : ∃ y, func1 openmp x a = .ok (y, w) ∧ y.Ok := by
  cases ha with
  | no => exact ⟨x, rfl, h⟩
  | empty => exact ⟨x, rfl, h⟩
  | falsy => exact ⟨x, rfl, h⟩
  | yes =>
    cases openmp
    · obtain ⟨y, e, hy, ho⟩ := StepVars.select_ok h .jit
      refine ⟨y, ?_, hy⟩
      simp only [Variant.name] at e
      simp [func1, backendMode, bind, Except.bind, e, ho, pure, Except.pure]
    · obtain ⟨y, e, hy, ho⟩ := StepVars.select_ok h .compile
      refine ⟨y, ?_, hy⟩
      simp only [Variant.name] at e
      simp [func1, backendMode, bind, Except.bind, e, ho, pure, Except.pure]
  | name s v hs =>
    obtain ⟨y, e, hy, ho⟩ := StepVars.select_ok h v
    have hne : s ≠ "" := by
      rintro rfl
      revert hs
      cases v <;> decide +kernel
    refine ⟨y, ?_, hy⟩
    simp [func1, backendMode, bind, Except.bind, hne, hs, e, ho, pure, Except.pure]

theorem func1_error {openmp : Bool} {x : StepVars} {a : BackendArg} (ha : ∀ w, ¬ Asks openmp a w) :
    ∃ e, func1 openmp x a = .error e := by
  cases a with
  | bool b =>
    cases b
    · exact absurd .no (ha _)
    · exact absurd .yes (ha _)
  | str s =>
    by_cases hs : s = ""
    · subst hs
      exact absurd .empty (ha _)
    · have : x.select (lower s) = .error .valueError :=
        StepVars.select_error fun v hv => ha _ (.name s v hv)
      exact ⟨.valueError, by simp [func1, backendMode, bind, Except.bind, hs, this]⟩
  | other b =>
    cases b
    · exact absurd .falsy (ha _)
    · exact ⟨.typeError, rfl⟩

theorem calls1_ok {openmp : Bool} {x : StepVars} (h : x.Ok) (l : List BackendArg) : (calls1 openmp x l).Ok := by
  induction l generalizing x with
  | nil => exact h
  | cons a l ih =>
    unfold calls1
    by_cases ha : ∃ w, Asks openmp a w
    · obtain ⟨w, ha⟩ := ha
      obtain ⟨y, e, hy⟩ := func1_ok h ha
      rw [e]
      exact ih hy
    · obtain ⟨e, he⟩ := func1_error (x := x) fun w hw => ha ⟨w, hw⟩
      rw [he]
      exact ih h

theorem func2_ok {openmp : Bool} {x : StepVars × StepVars} (h : x.1.Ok ∧ x.2.Ok) {a : BackendArg}
    {w : Option Variant} (ha : Asks openmp a w) :
    ∃ y, func2 openmp x a = .ok (y, w.map fun v => (v, v)) ∧ y.1.Ok ∧ y.2.Ok := by
  obtain ⟨y₁, e₁, h₁⟩ := func1_ok h.1 ha
  obtain ⟨y₂, e₂, h₂⟩ := func1_ok h.2 ha
  refine ⟨(y₁, y₂), ?_, h₁, h₂⟩
  unfold func1 at e₁ e₂
  unfold func2
  cases hm : backendMode openmp a with
  | error e => rw [hm] at e₁; cases e₁
  | ok m =>
    rw [hm] at e₁ e₂
    cases m with
    | none =>
      simp only [bind, Except.bind, pure, Except.pure, Except.ok.injEq, Prod.mk.injEq] at e₁ e₂ ⊢
      obtain ⟨rfl, rfl⟩ := e₁
      obtain ⟨rfl, _⟩ := e₂
      exact ⟨rfl, rfl⟩
    | some mode =>
      simp only [bind, Except.bind, pure, Except.pure] at e₁ e₂ ⊢
      cases s₁ : x.1.select mode with
      | error e => rw [s₁] at e₁; cases e₁
      | ok z₁ =>
        cases s₂ : x.2.select mode with
        | error e => rw [s₂] at e₂; cases e₂
        | ok z₂ =>
          rw [s₁] at e₁
          rw [s₂] at e₂
          simp only [Except.ok.injEq, Prod.mk.injEq] at e₁ e₂ ⊢
          obtain ⟨rfl, rfl⟩ := e₁
          obtain ⟨rfl, e₂⟩ := e₂
          refine ⟨⟨rfl, rfl⟩, ?_⟩
          simp only [Option.map_some, Option.some.injEq, Prod.mk.injEq, true_and] at e₂ ⊢
          exact e₂

theorem func2_error {openmp : Bool} {x : StepVars × StepVars} {a : BackendArg} (ha : ∀ w, ¬ Asks openmp a w) :
    ∃ e, func2 openmp x a = .error e := by
  obtain ⟨e, he⟩ := func1_error (x := x.1) ha
  unfold func1 at he
  unfold func2
  cases hm : backendMode openmp a with
  | error e' => exact ⟨e', rfl⟩
  | ok m =>
    rw [hm] at he
    cases m with
    | none => cases he
    | some mode =>
      simp only [bind, Except.bind] at he ⊢
      cases s : x.1.select mode with
      | error e' => exact ⟨e', rfl⟩
      | ok z => rw [s] at he; cases he

theorem calls2_ok {openmp : Bool} {x : StepVars × StepVars} (h : x.1.Ok ∧ x.2.Ok) (l : List BackendArg) :
    (calls2 openmp x l).1.Ok ∧ (calls2 openmp x l).2.Ok := by
  induction l generalizing x with
  | nil => exact h
  | cons a l ih =>
    unfold calls2
    by_cases ha : ∃ w, Asks openmp a w
    · obtain ⟨w, ha⟩ := ha
      obtain ⟨y, e, hy⟩ := func2_ok h ha
      rw [e]
      exact ih hy
    · obtain ⟨e, he⟩ := func2_error (x := x) fun w hw => ha ⟨w, hw⟩
      rw [he]
      exact ih h

/-- **C118** `scalar` and `scalar_born`, after any calls with any arguments before: a call runs the compiled backend or
the variant of the step function that its own `python_backend` asks for, and is refused if this asks for nothing. -/
theorem C118_variant (openmp : Bool) (before : List BackendArg) (a : BackendArg) :
    (∀ w, Asks openmp a w → ∃ y, func1 openmp (calls1 openmp .initial before) a = .ok (y, w)) ∧
    ((∀ w, ¬ Asks openmp a w) → ∃ e, func1 openmp (calls1 openmp .initial before) a = .error e) := by
  refine ⟨fun w hw => ?_, fun h => func1_error h⟩
  obtain ⟨y, e, _⟩ := func1_ok (calls1_ok StepVars.initial_ok before) hw
  exact ⟨y, e⟩

/-- **C118** `acoustic` and `elastic`: the same, with the same variant of both step functions. -/
theorem C118_variants (openmp : Bool) (before : List BackendArg) (a : BackendArg) :
    (∀ w, Asks openmp a w →
      ∃ y, func2 openmp (calls2 openmp (.initial, .initial) before) a = .ok (y, w.map fun v => (v, v))) ∧
    ((∀ w, ¬ Asks openmp a w) →
      ∃ e, func2 openmp (calls2 openmp (.initial, .initial) before) a = .error e) := by
  refine ⟨fun w hw => ?_, fun h => func2_error h⟩
  obtain ⟨y, e, _⟩ := func2_ok (calls2_ok (x := (.initial, .initial)) ⟨StepVars.initial_ok, StepVars.initial_ok⟩ before) hw
  exact ⟨y, e⟩

/-- **C118** (partial) The Python backends of `scalar`, `scalar_born` and `elastic` go on exactly without the options
that they do not support.  Missing: `acoustic`, for which it is false (`C118_acoustic_ignores_compression`); there
only the other two options are refused. -/
theorem C118_refusals_partial (o : BackendOpts) :
    (∀ p, p ≠ .acoustic → (pythonChecks p o = .ok () ↔
      o.backwardCallback = false ∧ o.storageMode = "device" ∧ o.compression = false)) ∧
    (pythonChecks .acoustic o = .ok () ↔ o.backwardCallback = false ∧ o.storageMode = "device") := by
  obtain ⟨b, s, c⟩ := o
  constructor
  · intro p hp
    cases b <;> by_cases hs : s = "device" <;> cases c <;> cases p <;>
      simp_all [pythonChecks, bind, Except.bind, pure, Except.pure, throw, throwThe, MonadExceptOf.throw]
  · cases b <;> by_cases hs : s = "device" <;>
      simp_all [pythonChecks, bind, Except.bind, pure, Except.pure, throw, throwThe, MonadExceptOf.throw]

/-- **C118** The full statement is false: `acoustic` with the Python backend takes `storage_compression=True` and
goes on. -/
theorem C118_acoustic_ignores_compression :
    ¬ ∀ p o, pythonChecks p o = .ok () → o.compression = false := by
  intro h
  have := h .acoustic ⟨false, "device", true⟩ rfl
  cases this

/-- **C118** The compiled backends store where they are asked to (on a CPU, the memory of the device is that of the
CPU) and refuse other names. -/
theorem C118_storage_mode (onCpu : Bool) (s : String) (m : StoreMode) :
    storeMode onCpu s = .ok m ↔
      (m = .device ∧ (s = "device" ∨ (onCpu = true ∧ s = "cpu"))) ∨ (m = .cpu ∧ s = "cpu" ∧ onCpu = false) ∨
        (m = .disk ∧ s = "disk") ∨ (m = .none ∧ s = "none") := by
  unfold storeMode
  by_cases h1 : s = "device"
  · subst h1; cases onCpu <;> cases m <;> simp
  · by_cases h2 : s = "cpu"
    · subst h2; cases onCpu <;> cases m <;> simp
    · by_cases h3 : s = "disk"
      · subst h3; cases onCpu <;> cases m <;> simp
      · by_cases h4 : s = "none"
        · subst h4; cases onCpu <;> cases m <;> simp
        · cases onCpu <;> cases m <;> simp [h1, h2, h3, h4]

/-! ### Calls that meet the hypotheses -/

example : Asks false (.str "Eager") (some .eager) := .name _ _ (by decide +kernel)

example : ∃ y, func1 false (calls1 false .initial [.bool true, .str "compile", .other true]) (.str "Eager") =
    .ok (y, some .eager) :=
  (C118_variant false _ _).1 _ (.name _ _ (by decide +kernel))

example : ∃ y, func2 true (calls2 true (.initial, .initial) [.str "jit", .str "nonsense"]) (.bool true) =
    .ok (y, some (.compile, .compile)) :=
  (C118_variants true _ _).1 _ .yes

example : pythonChecks .elastic ⟨false, "device", false⟩ = .ok () :=
  ((C118_refusals_partial _).1 _ (by decide)).2 ⟨rfl, rfl, rfl⟩

example : storeMode true "cpu" = .ok .device := (C118_storage_mode _ _ _).2 (.inl ⟨rfl, .inr ⟨rfl, rfl⟩⟩)

end Dw.Interface
