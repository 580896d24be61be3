import Verif.Interface.Guards
import Verif.Props.Validate

/-!
# Batched tensors, number of dimensions, and ignored arguments

What a call of a propagator function does with the tensors it is given, by name.  The names and the
dimension to which each belongs are written down here from the meaning of the fields (a stress per pair of
axes, a memory variable per derivative, and so on), not from the lists in the code.
-/

namespace Dw.Interface

open Setup (NdimArgs getNdim getNdimRest ndimLoop ndimFieldLoop ndimLoop_iff ndimFieldLoop_iff)

/-! ### Specification -/

inductive Axis
  | x | y | z
  deriving DecidableEq

def Axis.letter : Axis → String
  | .x => "x" | .y => "y" | .z => "z"

/-- The axis exists in `dim` or more dimensions. -/
def Axis.dim : Axis → ℤ
  | .x => 1 | .y => 2 | .z => 3

inductive TensorKind
  | amplitude | location | field
  deriving DecidableEq

/-- An optional tensor parameter; `axis` is the last of `x`, `y`, `z` to which it is related. -/
structure TensorParam where
  name : String
  kind : TensorKind
  axis : Option Axis
  deriving DecidableEq

def Axis.all : List Axis := [.x, .y, .z]

/-- Pairs of axes, the lower one first. -/
def Axis.pairs : List (Axis × Axis) :=
  [(.x, .x), (.x, .y), (.x, .z), (.y, .y), (.y, .z), (.z, .z)]

def Axis.max (a b : Axis) : Axis := if a.dim ≤ b.dim then b else a

/-- Sources and receivers of one type. -/
def surveyParams (suffix : String) (axis : Option Axis) : List TensorParam :=
  [⟨"source_amplitudes" ++ suffix, .amplitude, axis⟩, ⟨"source_locations" ++ suffix, .location, axis⟩,
    ⟨"receiver_locations" ++ suffix, .location, axis⟩]

/-- The wavefield at two times and its memory variables, `infix` distinguishes wavefields. -/
def acousticParams (infx : String) : List TensorParam :=
  [⟨"wavefield" ++ infx ++ "_0", .field, none⟩, ⟨"wavefield" ++ infx ++ "_m1", .field, none⟩] ++
  Axis.all.flatMap fun a => [⟨"psi" ++ a.letter ++ infx ++ "_m1", .field, some a⟩,
    ⟨"zeta" ++ a.letter ++ infx ++ "_m1", .field, some a⟩]

def scalarParams : List TensorParam := surveyParams "" none ++ acousticParams ""

def bornParams : List TensorParam :=
  surveyParams "" none ++ [⟨"bg_receiver_locations", .location, none⟩] ++ acousticParams "" ++
    acousticParams "_sc"

/-- Pressure and velocity sources and receivers. -/
def staggeredSurvey : List TensorParam :=
  surveyParams "_p" none ++ Axis.all.flatMap fun a => surveyParams ("_" ++ a.letter) (some a)

def acousticTensorParams : List TensorParam :=
  staggeredSurvey ++ [⟨"pressure_0", .field, none⟩] ++
  Axis.all.flatMap fun a => [⟨"v" ++ a.letter ++ "_0", .field, some a⟩,
    ⟨"phi_" ++ a.letter ++ "_0", .field, some a⟩, ⟨"psi_" ++ a.letter ++ "_0", .field, some a⟩]

/-- Velocities, stresses, a memory variable for each derivative of a velocity and for each derivative of
a stress that is used. -/
def elasticTensorParams : List TensorParam :=
  staggeredSurvey ++
  (Axis.all.map fun a => ⟨"v" ++ a.letter ++ "_0", .field, some a⟩) ++
  (Axis.pairs.map fun p =>
    ⟨"sigma" ++ p.1.letter ++ p.2.letter ++ "_0", .field, some (p.1.max p.2)⟩) ++
  (Axis.all.flatMap fun a => Axis.all.map fun b =>
    ⟨"m_v" ++ a.letter ++ b.letter ++ "_0", .field, some (a.max b)⟩) ++
  (Axis.pairs.flatMap fun p => (if p.1 = p.2 then [p.1] else [p.1, p.2]).map fun c =>
    ⟨"m_sigma" ++ p.1.letter ++ p.2.letter ++ c.letter ++ "_0", .field, some (p.1.max p.2)⟩)

/-- The parameters of all four functions that are not tensors. -/
def optionNames : List String :=
  ["grid_spacing", "dt", "accuracy", "pml_width", "pml_freq", "max_vel", "survey_pad", "origin", "nt",
    "model_gradient_sampling_interval", "freq_taper_frac", "time_pad_frac", "time_taper",
    "forward_callback", "backward_callback", "callback_frequency", "python_backend", "storage_mode",
    "storage_path", "storage_compression"]

/-- The tensors that a function takes besides its models. -/
def ModuleClass.tensors (M : ModuleClass) (models : List String) : List String :=
  (M.funSig.map Param.name).filter fun s => s ∉ optionNames ∧ s ∉ models

/-- The description by meaning covers exactly the parameters of the functions. -/
theorem params_are_the_tensors :
    (∀ s, s ∈ scalarParams.map TensorParam.name ↔ s ∈ scalarModule.tensors ["v"]) ∧
    (∀ s, s ∈ bornParams.map TensorParam.name ↔ s ∈ bornModule.tensors ["v", "scatter"]) ∧
    (∀ s, s ∈ acousticTensorParams.map TensorParam.name ↔ s ∈ acousticModule.tensors ["v", "rho"]) ∧
    (∀ s, s ∈ elasticTensorParams.map TensorParam.name ↔
      s ∈ elasticModule.tensors ["lamb", "mu", "buoyancy"]) := by
  have key : ∀ l l' : List String, l.all (· ∈ l') = true → l'.all (· ∈ l) = true →
      ∀ s, s ∈ l ↔ s ∈ l' := by
    intro l l' h h' s
    simp only [List.all_eq_true, decide_eq_true_eq] at h h'
    exact ⟨h s, h' s⟩
  exact ⟨key _ _ (by decide +kernel) (by decide +kernel),
    key _ _ (by decide +kernel) (by decide +kernel),
    key _ _ (by decide +kernel) (by decide +kernel),
    key _ _ (by decide +kernel) (by decide +kernel)⟩

/-- A tensor is given for the parameter. -/
def Given (a : TensorArgs) (s : String) : Prop := ∃ t, a s = some t

/-- Some tensor besides the models is batched. -/
def SomeBatched (a : TensorArgs) (names : List String) : Prop :=
  ∃ s ∈ names, ∃ t, a s = some t ∧ t.batched = true

/-- The tensors given are those of a call in `n` dimensions. -/
structure Consistent (T : List TensorParam) (models : List String) (a : TensorArgs) (n : ℤ) : Prop where
  field : ∀ p ∈ T, p.kind = .field → ∀ t, a p.name = some t → (t.ndim : ℤ) = n + 1
  location : ∀ p ∈ T, p.kind = .location → ∀ t, a p.name = some t → (t.last : ℤ) = n
  axis : ∀ p ∈ T, p.kind ≠ .amplitude → Given a p.name → ∀ k, p.axis = some k → k.dim ≤ n
  model : ∀ s ∈ models, ∀ t, a s = some t → (t.ndim : ℤ) = n ∨ (t.ndim : ℤ) = n + 1

/-! ### The lists of the code -/

/-- The lists of the code contain exactly the tensors of `T`, each in the list for its kind. -/
structure Guards.Fits (G : Guards) (T : List TensorParam) : Prop where
  vm : ∀ s, s ∈ G.vmapped ↔ ∃ p ∈ T, p.name = s
  wf : ∀ s, s ∈ G.wavefields ↔ ∃ p ∈ T, p.name = s ∧ p.kind = .field ∧ p.axis = none
  loc : ∀ s, s ∈ G.locations ↔ ∃ p ∈ T, p.name = s ∧ p.kind = .location
  x : ∀ s, s ∈ G.x ↔ ∃ p ∈ T, p.name = s ∧ p.kind = .field ∧ p.axis = some .x
  y : ∀ s, s ∈ G.y ↔ ∃ p ∈ T, p.name = s ∧ p.kind = .field ∧ p.axis = some .y
  z : ∀ s, s ∈ G.z ↔ ∃ p ∈ T, p.name = s ∧ p.kind = .field ∧ p.axis = some .z
  axLoc : ∀ q ∈ G.axisLocations, ∀ s ∈ q.2, ∃ p ∈ T, p.name = s ∧ p.kind = .location ∧
    p.axis.any (fun k => k.dim = q.1) = true
  locAx : ∀ p ∈ T, p.kind = .location → ∀ k, p.axis = some k → k = .x ∨
    ∃ q ∈ G.axisLocations, q.1 = k.dim ∧ p.name ∈ q.2

/-- Decides a statement of `Fits`. -/
theorem mem_iff_of_all {l : List String} {T : List TensorParam} {c : TensorParam → Bool}
    (h : l.all (fun s => T.any fun p => decide (p.name = s) && c p) = true)
    (h' : T.all (fun p => !c p || decide (p.name ∈ l)) = true) (s : String) :
    s ∈ l ↔ ∃ p ∈ T, p.name = s ∧ c p = true := by
  simp only [List.all_eq_true, List.any_eq_true, Bool.and_eq_true, decide_eq_true_eq,
    Bool.or_eq_true, Bool.not_eq_true'] at h h'
  constructor
  · intro hs
    obtain ⟨p, hp, h1, h2⟩ := h s hs
    exact ⟨p, hp, h1, h2⟩
  · rintro ⟨p, hp, rfl, h2⟩
    rcases h' p hp with h3 | h3
    · simp [h2] at h3
    · exact h3

def Guards.fitsB (G : Guards) (T : List TensorParam) : Bool :=
  let two (l : List String) (c : TensorParam → Bool) : Bool :=
    l.all (fun s => T.any fun p => decide (p.name = s) && c p) &&
      T.all (fun p => !c p || decide (p.name ∈ l))
  two G.vmapped (fun _ => true) &&
  two G.wavefields (fun p => p.kind = .field ∧ p.axis = none) &&
  two G.locations (fun p => p.kind = .location) &&
  two G.x (fun p => p.kind = .field ∧ p.axis = some .x) &&
  two G.y (fun p => p.kind = .field ∧ p.axis = some .y) &&
  two G.z (fun p => p.kind = .field ∧ p.axis = some .z) &&
  G.axisLocations.all (fun q => q.2.all fun s => T.any fun p => decide (p.name = s) &&
    (decide (p.kind = .location) && p.axis.any fun k => k.dim = q.1)) &&
  T.all (fun p => p.kind ≠ .location || [Axis.x, .y, .z].all fun k => p.axis ≠ some k || k = .x ||
    G.axisLocations.any fun q => q.1 = k.dim ∧ p.name ∈ q.2)

theorem Guards.fits_of {G : Guards} {T : List TensorParam} (h : G.fitsB T = true) : G.Fits T := by
  simp only [Guards.fitsB, Bool.and_eq_true] at h
  obtain ⟨⟨⟨⟨⟨⟨⟨⟨h1, h1'⟩, ⟨h2, h2'⟩⟩, ⟨h3, h3'⟩⟩, ⟨h4, h4'⟩⟩, ⟨h5, h5'⟩⟩, ⟨h6, h6'⟩⟩, h7⟩, h8⟩ := h
  refine ⟨fun s => ?_, fun s => ?_, fun s => ?_, fun s => ?_, fun s => ?_, fun s => ?_,
    fun q hq s hs => ?_, fun p hp hk k hpk => ?_⟩
  · simpa using mem_iff_of_all h1 h1' s
  · simpa using mem_iff_of_all h2 h2' s
  · simpa using mem_iff_of_all h3 h3' s
  · simpa using mem_iff_of_all h4 h4' s
  · simpa using mem_iff_of_all h5 h5' s
  · simpa using mem_iff_of_all h6 h6' s
  · have := List.all_eq_true.1 (List.all_eq_true.1 h7 q hq) s hs
    obtain ⟨p, hp, h⟩ := List.any_eq_true.1 this
    simp only [Bool.and_eq_true, decide_eq_true_eq] at h
    exact ⟨p, hp, h.1, h.2.1, h.2.2⟩
  · have := List.all_eq_true.1 h8 p hp
    simp only [ne_eq, hk, not_true_eq_false, decide_false, Bool.false_or] at this
    have := List.all_eq_true.1 this k (by cases k <;> simp)
    simp only [hpk, ne_eq, not_true_eq_false, decide_false, Bool.false_or, Bool.or_eq_true,
      decide_eq_true_eq, List.any_eq_true] at this
    exact this

variable {G : Guards} {T : List TensorParam} {a : TensorArgs} {n : ℤ}

theorem vmapped_iff : ∀ {l : List (Option TensorArg)},
    (checkInputsNotVmapped l = .ok () ↔ ∀ t, some t ∈ l → t.batched = false) ∧
    (checkInputsNotVmapped l = .ok () ∨ checkInputsNotVmapped l = .error .notImplemented)
  | [] => by simp [checkInputsNotVmapped]
  | none :: l => by simpa [checkInputsNotVmapped] using vmapped_iff (l := l)
  | some t :: l => by
      have ih := vmapped_iff (l := l)
      cases ht : t.batched with
      | true => simp [checkInputsNotVmapped, ht]
      | false =>
        have e : checkInputsNotVmapped (some t :: l) = checkInputsNotVmapped l := by
          simp [checkInputsNotVmapped, ht]
        rw [e]
        refine ⟨?_, ih.2⟩
        rw [ih.1]
        refine ⟨fun h u hu => ?_, fun h u hu => h u (by simp [hu])⟩
        rcases List.mem_cons.1 hu with hu | hu
        · simp only [Option.some.injEq] at hu
          rw [hu, ht]
        · exact h u hu

theorem axisLocations_iff : ∀ {l : List (ℤ × List String)},
    (checkAxisLocations a n l = .ok () ↔ ∀ q ∈ l, ∀ s ∈ q.2, Given a s → q.1 ≤ n) ∧
    (checkAxisLocations a n l = .ok () ∨ checkAxisLocations a n l = .error (.py .valueError))
  | [] => by simp [checkAxisLocations]
  | q :: l => by
      have ih := axisLocations_iff (l := l)
      rw [checkAxisLocations]
      by_cases h : n < q.1 ∧ q.2.any (fun s => (a s).isSome) = true
      · rw [if_pos h]
        simp only [reduceCtorEq, false_iff, or_true, and_true]
        obtain ⟨s, hs, h2⟩ := List.any_eq_true.1 h.2
        intro h3
        exact absurd (h3 q (by simp) s hs (Option.isSome_iff_exists.1 h2)) (by omega)
      · rw [if_neg h]
        refine ⟨?_, ih.2⟩
        rw [ih.1]
        simp only [List.forall_mem_cons]
        refine ⟨fun h2 => ⟨fun s hs hg => ?_, h2⟩, fun h2 => h2.2⟩
        by_contra h3
        refine h ⟨by omega, List.any_eq_true.2 ⟨s, hs, ?_⟩⟩
        exact Option.isSome_iff_exists.2 hg

theorem enter_ok : G.enter a = .ok n ↔
    (∀ s ∈ G.vmapped, ∀ t, a s = some t → t.batched = false) ∧ getNdim (G.ndimArgs a) = .ok n ∧
      ∀ q ∈ G.axisLocations, ∀ s ∈ q.2, Given a s → q.1 ≤ n := by
  have h1 := vmapped_iff (l := G.vmapped.map a)
  have e1 : (∀ t, some t ∈ G.vmapped.map a → t.batched = false) ↔
      ∀ s ∈ G.vmapped, ∀ t, a s = some t → t.batched = false := by
    simp only [List.mem_map]
    exact ⟨fun h s hs t ht => h t ⟨s, hs, ht⟩, fun h t ⟨s, hs, ht⟩ => h s hs t ht⟩
  rw [e1] at h1
  rw [← h1.1, Guards.enter]
  rcases h1.2 with h2 | h2
  · rw [h2]
    simp only [true_and]
    cases h3 : getNdim (G.ndimArgs a) with
    | error e => simp
    | ok m =>
      simp only [Except.ok.injEq]
      have h4 := axisLocations_iff (a := a) (n := m) (l := G.axisLocations)
      rcases h4.2 with h5 | h5
      · rw [h5]
        simp only [Except.ok.injEq]
        constructor
        · rintro rfl
          exact ⟨rfl, h4.1.1 h5⟩
        · exact fun h => h.1
      · rw [h5]
        simp only [reduceCtorEq, false_iff]
        rintro ⟨rfl, h6⟩
        rw [h4.1.2 h6] at h5
        exact absurd h5 (by simp)
  · rw [h2]
    simp

theorem enter_notImplemented : G.enter a = .error .notImplemented ↔ SomeBatched a G.vmapped := by
  have h1 := vmapped_iff (l := G.vmapped.map a)
  rw [Guards.enter]
  rcases h1.2 with h2 | h2
  · rw [h2]
    have h3 := h1.1.1 h2
    constructor
    · intro h
      exfalso
      revert h
      cases getNdim (G.ndimArgs a) with
      | error e => simp
      | ok m =>
        rcases (axisLocations_iff (a := a) (n := m) (l := G.axisLocations)).2 with h5 | h5 <;>
          simp [h5]
    · rintro ⟨s, hs, t, ht, hb⟩
      rw [h3 t (List.mem_map.2 ⟨s, hs, ht⟩)] at hb
      exact absurd hb (by simp)
  · rw [h2]
    simp only [true_iff]
    by_contra h
    have : checkInputsNotVmapped (G.vmapped.map a) = .ok () := by
      refine h1.1.2 fun t ht => ?_
      obtain ⟨s, hs, ht⟩ := List.mem_map.1 ht
      by_contra hb
      exact h ⟨s, hs, t, ht, by simpa using hb⟩
    rw [this] at h2
    exact absurd h2 (by simp)

/-- The loop over the fields of a dimension if the number of dimensions is not known yet or is `n`. -/
theorem fieldLoop_of {dim n nd : ℤ} (h0 : 0 ≤ n) : ∀ {l : List ℤ}, (nd = -1 ∨ nd = n) →
    (∀ v ∈ l, v = n) → (l ≠ [] → dim + 1 ≤ n) →
    ndimFieldLoop dim l nd = .ok (if l = [] then nd else n)
  | [], _, _, _ => by simp [ndimFieldLoop]
  | v :: l, hnd, hv, hd => by
      have hv0 : v = n := hv v (by simp)
      have hd0 := hd (by simp)
      subst hv0
      have hrest := (ndimFieldLoop_iff (dim := dim) (l := l) (nd := v) (n := v)
        (fun w hw => by rw [hv w (by simp [hw])]; exact h0) h0).2
        ⟨rfl, fun w hw => hv w (by simp [hw]), fun _ => hd0⟩
      rw [ndimFieldLoop]
      rcases hnd with rfl | rfl
      · simpa using hrest
      · rw [if_neg (by omega), if_neg (by simp), if_neg (by omega)]
        simpa using hrest

/-- What an accepted loop over the fields of a dimension says. -/
theorem of_fieldLoop {dim : ℤ} : ∀ {l : List ℤ} {nd n : ℤ}, (∀ v ∈ l, 0 ≤ v) →
    ndimFieldLoop dim l nd = .ok n →
    (l = [] ∧ n = nd) ∨ (l ≠ [] ∧ (∀ v ∈ l, v = n) ∧ (0 ≤ nd → n = nd))
  | [], nd, n, _, h => by simpa [ndimFieldLoop, eq_comm] using h
  | v :: l, nd, n, h0, h => by
      have hv := h0 v (by simp)
      have hl : ∀ w ∈ l, 0 ≤ w := fun w hw => h0 w (by simp [hw])
      right
      refine ⟨by simp, ?_⟩
      by_cases h1 : nd < 0
      · rw [ndimFieldLoop, if_pos h1] at h
        obtain ⟨rfl, h2, -⟩ := (ndimFieldLoop_iff hl hv).1 h
        exact ⟨List.forall_mem_cons.2 ⟨rfl, h2⟩, fun h3 => by omega⟩
      · obtain ⟨rfl, h2, -⟩ := (ndimFieldLoop_iff h0 (by omega)).1 h
        exact ⟨h2, fun _ => rfl⟩

/-- `get_ndim` accepts tensors of one number of dimensions. -/
theorem getNdim_of {A : NdimArgs} (h0 : 0 ≤ n)
    (hall : ∀ v ∈ A.wavefields ++ A.locations ++ A.x ++ A.y ++ A.z, v = n)
    (hne : A.wavefields ++ A.locations ++ A.x ++ A.y ++ A.z ≠ [])
    (hx : A.x ≠ [] → 1 ≤ n) (hy : A.y ≠ [] → 2 ≤ n) (hz : A.z ≠ [] → 3 ≤ n)
    (hm : ∀ m ∈ A.models, m = n ∨ m = n + 1) : getNdim A = .ok n := by
  obtain ⟨wf, lo, x, y, z, mo⟩ := A
  simp only [List.mem_append] at *
  have hw : ∀ v ∈ wf, v = n := fun v h => hall v (by simp [h])
  have hlo : ∀ v ∈ lo, v = n := fun v h => hall v (by simp [h])
  have hx' : ∀ v ∈ x, v = n := fun v h => hall v (by simp [h])
  have hy' : ∀ v ∈ y, v = n := fun v h => hall v (by simp [h])
  have hz' : ∀ v ∈ z, v = n := fun v h => hall v (by simp [h])
  have loop : ∀ (l : List ℤ) (nd : ℤ), (∀ v ∈ l, v = n) → (nd = -1 ∨ nd = n) →
      ndimLoop l nd = .ok (if l = [] then nd else n) := by
    intro l nd hl hnd
    refine (ndimLoop_iff (fun v hv => by rw [hl v hv]; exact h0)).2 ?_
    by_cases hl0 : l = []
    · exact Or.inl ⟨hl0, by rw [if_pos hl0]⟩
    · refine Or.inr ⟨hl0, fun v hv => by rw [if_neg hl0]; exact hl v hv, fun h => ?_⟩
      rw [if_neg hl0]
      rcases hnd with rfl | rfl
      · omega
      · rfl
  have two : ∀ (l : List ℤ) (nd : ℤ), (nd = -1 ∨ nd = n) → (if l = [] then nd else n) = -1 ∨
      (if l = [] then nd else n) = n := by
    intro l nd h
    by_cases hl : l = []
    · rw [if_pos hl]; exact h
    · rw [if_neg hl]; exact Or.inr rfl
  unfold getNdim getNdimRest
  simp only
  rw [loop wf (-1) hw (Or.inl rfl)]
  simp only
  have n1 := two wf (-1) (Or.inl rfl)
  rw [loop lo _ hlo n1]
  simp only
  have n2 := two lo _ n1
  rw [fieldLoop_of h0 n2 hx' (fun h => by have := hx h; omega)]
  simp only
  have n3 := two x _ n2
  rw [fieldLoop_of h0 n3 hy' (fun h => by have := hy h; omega)]
  simp only
  have n4 := two y _ n3
  rw [fieldLoop_of h0 n4 hz' (fun h => by have := hz h; omega)]
  simp only
  have e : (if z = [] then if y = [] then if x = [] then if lo = [] then if wf = [] then (-1 : ℤ)
      else n else n else n else n else n) = n := by
    split_ifs with h5 h4 h3 h2 h1
    · exact absurd (by rw [h1, h2, h3, h4, h5]; rfl) hne
    all_goals rfl
  rw [e, if_neg, if_neg (by omega)]
  simp only [List.any_eq_true, decide_eq_true_eq, not_exists, not_and]
  intro m hm' h6 h7
  rcases hm m hm' with h | h
  · exact h6 h
  · exact h7 h

/-- What `get_ndim` has checked. -/
theorem of_getNdim {A : NdimArgs}
    (hpos : ∀ v ∈ A.wavefields ++ A.locations ++ A.x ++ A.y ++ A.z, 0 ≤ v)
    (h : getNdim A = .ok n) :
    (∀ v ∈ A.wavefields ++ A.locations ++ A.x ++ A.y ++ A.z, v = n) ∧
    A.wavefields ++ A.locations ++ A.x ++ A.y ++ A.z ≠ [] ∧
    ∀ m ∈ A.models, m = n ∨ m = n + 1 := by
  obtain ⟨wf, lo, x, y, z, mo⟩ := A
  simp only [List.mem_append] at hpos ⊢
  have hw : ∀ v ∈ wf, 0 ≤ v := fun v h => hpos v (by simp [h])
  have hlo : ∀ v ∈ lo, 0 ≤ v := fun v h => hpos v (by simp [h])
  have hx : ∀ v ∈ x, 0 ≤ v := fun v h => hpos v (by simp [h])
  have hy : ∀ v ∈ y, 0 ≤ v := fun v h => hpos v (by simp [h])
  have hz : ∀ v ∈ z, 0 ≤ v := fun v h => hpos v (by simp [h])
  unfold getNdim getNdimRest at h
  simp only at h
  cases e1 : ndimLoop wf (-1) with
  | error e => rw [e1] at h; simp at h
  | ok n1 =>
  rw [e1] at h; simp only at h
  cases e2 : ndimLoop lo n1 with
  | error e => rw [e2] at h; simp at h
  | ok n2 =>
  rw [e2] at h; simp only at h
  cases e3 : ndimFieldLoop 0 x n2 with
  | error e => rw [e3] at h; simp at h
  | ok n3 =>
  rw [e3] at h; simp only at h
  cases e4 : ndimFieldLoop 1 y n3 with
  | error e => rw [e4] at h; simp at h
  | ok n4 =>
  rw [e4] at h; simp only at h
  cases e5 : ndimFieldLoop 2 z n4 with
  | error e => rw [e5] at h; simp at h
  | ok n5 =>
  rw [e5] at h; simp only at h
  have k1 := (ndimLoop_iff hw).1 e1
  have k2 := (ndimLoop_iff hlo).1 e2
  have k3 := of_fieldLoop hx e3
  have k4 := of_fieldLoop hy e4
  have k5 := of_fieldLoop hz e5
  split_ifs at h with h6 h7
  simp only [Except.ok.injEq] at h
  subst h
  have nn : ∀ {l : List ℤ} {m : ℤ}, (∀ v ∈ l, 0 ≤ v) → l ≠ [] → (∀ v ∈ l, v = m) → 0 ≤ m := by
    intro l m h1 h2 h3
    obtain ⟨v, hv⟩ := List.exists_mem_of_ne_nil _ h2
    rw [← h3 v hv]
    exact h1 v hv
  -- once found the number does not change
  have s1 : wf ≠ [] → 0 ≤ n1 ∧ ∀ v ∈ wf, v = n1 := by
    intro hne
    rcases k1 with ⟨h, -⟩ | ⟨_, h2, _⟩
    · exact absurd h hne
    · exact ⟨nn hw hne h2, h2⟩
  have s2 : lo ≠ [] → 0 ≤ n2 ∧ ∀ v ∈ lo, v = n2 := by
    intro hne
    rcases k2 with ⟨h, -⟩ | ⟨_, h2, _⟩
    · exact absurd h hne
    · exact ⟨nn hlo hne h2, h2⟩
  have s3 : x ≠ [] → 0 ≤ n3 ∧ ∀ v ∈ x, v = n3 := by
    intro hne
    rcases k3 with ⟨h, -⟩ | ⟨_, h2, _⟩
    · exact absurd h hne
    · exact ⟨nn hx hne h2, h2⟩
  have s4 : y ≠ [] → 0 ≤ n4 ∧ ∀ v ∈ y, v = n4 := by
    intro hne
    rcases k4 with ⟨h, -⟩ | ⟨_, h2, _⟩
    · exact absurd h hne
    · exact ⟨nn hy hne h2, h2⟩
  have s5 : z ≠ [] → 0 ≤ n5 ∧ ∀ v ∈ z, v = n5 := by
    intro hne
    rcases k5 with ⟨h, -⟩ | ⟨_, h2, _⟩
    · exact absurd h hne
    · exact ⟨nn hz hne h2, h2⟩
  have t2 : 0 ≤ n1 → n2 = n1 := by
    rcases k2 with ⟨-, h⟩ | ⟨-, -, h⟩
    · exact fun _ => h
    · exact h
  have t3 : 0 ≤ n2 → n3 = n2 := by
    rcases k3 with ⟨-, h⟩ | ⟨-, -, h⟩
    · exact fun _ => h
    · exact h
  have t4 : 0 ≤ n3 → n4 = n3 := by
    rcases k4 with ⟨-, h⟩ | ⟨-, -, h⟩
    · exact fun _ => h
    · exact h
  have t5 : 0 ≤ n4 → n5 = n4 := by
    rcases k5 with ⟨-, h⟩ | ⟨-, -, h⟩
    · exact fun _ => h
    · exact h
  refine ⟨?_, ?_, ?_⟩
  · rintro v ((((hv | hv) | hv) | hv) | hv)
    · obtain ⟨p, q⟩ := s1 (List.ne_nil_of_mem hv)
      have := q v hv; have := t2 p; have := t3 (by omega); have := t4 (by omega)
      have := t5 (by omega); omega
    · obtain ⟨p, q⟩ := s2 (List.ne_nil_of_mem hv)
      have := q v hv; have := t3 p; have := t4 (by omega); have := t5 (by omega); omega
    · obtain ⟨p, q⟩ := s3 (List.ne_nil_of_mem hv)
      have := q v hv; have := t4 p; have := t5 (by omega); omega
    · obtain ⟨p, q⟩ := s4 (List.ne_nil_of_mem hv)
      have := q v hv; have := t5 p; omega
    · exact (s5 (List.ne_nil_of_mem hv)).2 v hv
  · intro hne
    simp only [List.append_eq_nil_iff] at hne
    obtain ⟨⟨⟨⟨rfl, rfl⟩, rfl⟩, rfl⟩, rfl⟩ := hne
    simp at k1 k2 k3 k4 k5
    omega
  · intro m hm
    by_contra hc
    refine h6 (List.any_eq_true.2 ⟨m, hm, ?_⟩)
    simp only [decide_eq_true_eq]
    omega

theorem mem_fieldRanks {l : List String} {v : ℤ} :
    v ∈ fieldRanks a l ↔ ∃ s ∈ l, ∃ t, a s = some t ∧ (t.ndim : ℤ) - 1 = v := by
  simp only [fieldRanks, List.mem_map, List.mem_filterMap]
  exact ⟨fun ⟨t, ⟨s, hs, ht⟩, h⟩ => ⟨s, hs, t, ht, h⟩, fun ⟨s, hs, t, ht, h⟩ => ⟨t, ⟨s, hs, ht⟩, h⟩⟩

theorem mem_locationRanks {l : List String} {v : ℤ} :
    v ∈ locationRanks a l ↔ ∃ s ∈ l, ∃ t, a s = some t ∧ (t.last : ℤ) = v := by
  simp only [locationRanks, List.mem_map, List.mem_filterMap]
  exact ⟨fun ⟨t, ⟨s, hs, ht⟩, h⟩ => ⟨s, hs, t, ht, h⟩, fun ⟨s, hs, t, ht, h⟩ => ⟨t, ⟨s, hs, ht⟩, h⟩⟩

/-- The numbers that `get_ndim` sees are the ranks of the given fields and locations. -/
theorem mem_ranks (hf : G.Fits T) {v : ℤ} :
    v ∈ (G.ndimArgs a).wavefields ++ (G.ndimArgs a).locations ++ (G.ndimArgs a).x ++
        (G.ndimArgs a).y ++ (G.ndimArgs a).z ↔
      ∃ p ∈ T, ∃ t, a p.name = some t ∧ (p.kind = .field ∧ (t.ndim : ℤ) - 1 = v ∨
        p.kind = .location ∧ (t.last : ℤ) = v) := by
  simp only [List.mem_append, Guards.ndimArgs, mem_fieldRanks, mem_locationRanks, hf.wf, hf.loc, hf.x,
    hf.y, hf.z]
  constructor
  · rintro ((((⟨_, ⟨p, hp, rfl, h1, _⟩, t, ht, h⟩ | ⟨_, ⟨p, hp, rfl, h1⟩, t, ht, h⟩) |
      ⟨_, ⟨p, hp, rfl, h1, _⟩, t, ht, h⟩) | ⟨_, ⟨p, hp, rfl, h1, _⟩, t, ht, h⟩) |
      ⟨_, ⟨p, hp, rfl, h1, _⟩, t, ht, h⟩)
    · exact ⟨p, hp, t, ht, Or.inl ⟨h1, h⟩⟩
    · exact ⟨p, hp, t, ht, Or.inr ⟨h1, h⟩⟩
    · exact ⟨p, hp, t, ht, Or.inl ⟨h1, h⟩⟩
    · exact ⟨p, hp, t, ht, Or.inl ⟨h1, h⟩⟩
    · exact ⟨p, hp, t, ht, Or.inl ⟨h1, h⟩⟩
  · rintro ⟨p, hp, t, ht, ⟨h1, h⟩ | ⟨h1, h⟩⟩
    · cases hx : p.axis with
      | none => exact Or.inl (Or.inl (Or.inl (Or.inl ⟨_, ⟨p, hp, rfl, h1, hx⟩, t, ht, h⟩)))
      | some k =>
        cases k with
        | x => exact Or.inl (Or.inl (Or.inr ⟨_, ⟨p, hp, rfl, h1, hx⟩, t, ht, h⟩))
        | y => exact Or.inl (Or.inr ⟨_, ⟨p, hp, rfl, h1, hx⟩, t, ht, h⟩)
        | z => exact Or.inr ⟨_, ⟨p, hp, rfl, h1, hx⟩, t, ht, h⟩
    · exact Or.inl (Or.inl (Or.inl (Or.inr ⟨_, ⟨p, hp, rfl, h1⟩, t, ht, h⟩)))

theorem batched_iff_vmapped (hf : G.Fits T) :
    SomeBatched a G.vmapped ↔ SomeBatched a (T.map TensorParam.name) := by
  simp only [SomeBatched, hf.vm, List.mem_map]

theorem mem_models {v : ℤ} : v ∈ (G.ndimArgs a).models ↔
    ∃ s ∈ G.models, ∃ t, a s = some t ∧ (t.ndim : ℤ) = v := by
  simp only [Guards.ndimArgs, List.mem_map, List.mem_filterMap]
  exact ⟨fun ⟨t, ⟨s, hs, ht⟩, h⟩ => ⟨s, hs, t, ht, h⟩, fun ⟨s, hs, t, ht, h⟩ => ⟨t, ⟨s, hs, ht⟩, h⟩⟩

theorem enter_of_consistent (hf : G.Fits T) (h0 : 0 ≤ n)
    (hb : ¬ SomeBatched a (T.map TensorParam.name)) (hc : Consistent T G.models a n)
    (hne : ∃ p ∈ T, p.kind ≠ .amplitude ∧ Given a p.name) : G.enter a = .ok n := by
  have hr := fun v => mem_ranks (a := a) hf (v := v)
  rw [enter_ok]
  refine ⟨fun s hs t ht => ?_, getNdim_of h0 ?_ ?_ ?_ ?_ ?_ ?_, fun q hq s hs hg => ?_⟩
  · by_contra h
    exact hb ((batched_iff_vmapped hf).1 ⟨s, hs, t, ht, by simpa using h⟩)
  · intro v hv
    obtain ⟨p, hp, t, ht, ⟨h1, h⟩ | ⟨h1, h⟩⟩ := (hr v).1 hv
    · have := hc.field p hp h1 t ht
      omega
    · have := hc.location p hp h1 t ht
      omega
  · obtain ⟨p, hp, h1, t, ht⟩ := hne
    cases hk : p.kind with
    | amplitude => exact absurd hk h1
    | field => exact List.ne_nil_of_mem ((hr _).2 ⟨p, hp, t, ht, Or.inl ⟨hk, rfl⟩⟩)
    | location => exact List.ne_nil_of_mem ((hr _).2 ⟨p, hp, t, ht, Or.inr ⟨hk, rfl⟩⟩)
  · intro h
    obtain ⟨v, hv⟩ := List.exists_mem_of_ne_nil _ h
    obtain ⟨s, hs, t, ht, -⟩ := mem_fieldRanks.1 hv
    obtain ⟨p, hp, rfl, hk, hx⟩ := (hf.x s).1 hs
    exact hc.axis p hp (by simp [hk]) ⟨t, ht⟩ _ hx
  · intro h
    obtain ⟨v, hv⟩ := List.exists_mem_of_ne_nil _ h
    obtain ⟨s, hs, t, ht, -⟩ := mem_fieldRanks.1 hv
    obtain ⟨p, hp, rfl, hk, hx⟩ := (hf.y s).1 hs
    exact hc.axis p hp (by simp [hk]) ⟨t, ht⟩ _ hx
  · intro h
    obtain ⟨v, hv⟩ := List.exists_mem_of_ne_nil _ h
    obtain ⟨s, hs, t, ht, -⟩ := mem_fieldRanks.1 hv
    obtain ⟨p, hp, rfl, hk, hx⟩ := (hf.z s).1 hs
    exact hc.axis p hp (by simp [hk]) ⟨t, ht⟩ _ hx
  · intro m hm
    obtain ⟨s, hs, t, ht, rfl⟩ := mem_models.1 hm
    exact hc.model s hs t ht
  · obtain ⟨p, hp, rfl, hk, hx⟩ := hf.axLoc q hq s hs
    cases hax : p.axis with
    | none => simp [hax] at hx
    | some k =>
      simp only [hax, Option.any_some, decide_eq_true_eq] at hx
      rw [← hx]
      exact hc.axis p hp (by simp [hk]) hg k hax

/-- What an accepted call has: no batched tensor, some field or location, and all of them of `n`
dimensions. -/
theorem of_enter (hf : G.Fits T)
    (hpos : ∀ p ∈ T, p.kind = .field → ∀ t, a p.name = some t → 1 ≤ t.ndim) (h : G.enter a = .ok n) :
    ¬ SomeBatched a (T.map TensorParam.name) ∧
    (∃ p ∈ T, p.kind ≠ .amplitude ∧ Given a p.name) ∧
    (∀ p ∈ T, p.kind = .field → ∀ t, a p.name = some t → (t.ndim : ℤ) = n + 1) ∧
    (∀ p ∈ T, p.kind = .location → ∀ t, a p.name = some t → (t.last : ℤ) = n) ∧
    (∀ s ∈ G.models, ∀ t, a s = some t → (t.ndim : ℤ) = n ∨ (t.ndim : ℤ) = n + 1) := by
  have hr := fun v => mem_ranks (a := a) hf (v := v)
  obtain ⟨h1, h2, -⟩ := enter_ok.1 h
  have hp0 : ∀ v ∈ (G.ndimArgs a).wavefields ++ (G.ndimArgs a).locations ++ (G.ndimArgs a).x ++
      (G.ndimArgs a).y ++ (G.ndimArgs a).z, 0 ≤ v := by
    intro v hv
    obtain ⟨p, hp, t, ht, ⟨h1, h⟩ | ⟨h1, h⟩⟩ := (hr v).1 hv
    · have := hpos p hp h1 t ht
      omega
    · omega
  obtain ⟨h3, h4, h5⟩ := of_getNdim hp0 h2
  refine ⟨?_, ?_, ?_, ?_, ?_⟩
  · rintro hb
    obtain ⟨s, hs, t, ht, hb⟩ := (batched_iff_vmapped hf).2 hb
    rw [h1 s hs t ht] at hb
    exact absurd hb (by simp)
  · obtain ⟨v, hv⟩ := List.exists_mem_of_ne_nil _ h4
    obtain ⟨p, hp, t, ht, ⟨h6, -⟩ | ⟨h6, -⟩⟩ := (hr v).1 hv
    · exact ⟨p, hp, by simp [h6], t, ht⟩
    · exact ⟨p, hp, by simp [h6], t, ht⟩
  · intro p hp hk t ht
    have := h3 _ ((hr _).2 ⟨p, hp, t, ht, Or.inl ⟨hk, rfl⟩⟩)
    omega
  · intro p hp hk t ht
    exact h3 _ ((hr _).2 ⟨p, hp, t, ht, Or.inr ⟨hk, rfl⟩⟩)
  · intro s hs t ht
    exact h5 _ (mem_models.2 ⟨s, hs, t, ht, rfl⟩)

/-- Whenever a location or a field that belongs to no axis is given, the axes of all fields are
checked. -/
theorem axes_of_enter (hf : G.Fits T)
    (hpos : ∀ p ∈ T, p.kind = .field → ∀ t, a p.name = some t → 1 ≤ t.ndim) (h : G.enter a = .ok n)
    (hne : ∃ p ∈ T, (p.kind = .location ∨ p.kind = .field ∧ p.axis = none) ∧ Given a p.name) :
    ∀ p ∈ T, p.kind = .field → Given a p.name → ∀ k, p.axis = some k → k.dim ≤ n := by
  have hr := fun v => mem_ranks (a := a) hf (v := v)
  obtain ⟨h1, h2, -⟩ := enter_ok.1 h
  have hp0 : ∀ v ∈ (G.ndimArgs a).wavefields ++ (G.ndimArgs a).locations ++ (G.ndimArgs a).x ++
      (G.ndimArgs a).y ++ (G.ndimArgs a).z, 0 ≤ v := by
    intro v hv
    obtain ⟨p, hp, t, ht, ⟨h1, h⟩ | ⟨h1, h⟩⟩ := (hr v).1 hv
    · have := hpos p hp h1 t ht
      omega
    · omega
  have hne' : (G.ndimArgs a).wavefields ++ (G.ndimArgs a).locations ≠ [] := by
    obtain ⟨p, hp, hk | ⟨hk, hx⟩, t, ht⟩ := hne
    · exact List.ne_nil_of_mem (List.mem_append_right _
        (mem_locationRanks.2 ⟨_, (hf.loc _).2 ⟨p, hp, rfl, hk⟩, t, ht, rfl⟩))
    · exact List.ne_nil_of_mem (List.mem_append_left _
        (mem_fieldRanks.2 ⟨_, (hf.wf _).2 ⟨p, hp, rfl, hk, hx⟩, t, ht, rfl⟩))
  obtain ⟨-, hx, hy, hz, -⟩ := (Setup.C45_ndim_iff _ hp0 hne' n).1 h2
  rintro p hp hk ⟨t, ht⟩ k hpk
  cases k with
  | x => exact hx (List.ne_nil_of_mem (mem_fieldRanks.2 ⟨_, (hf.x _).2 ⟨p, hp, rfl, hk, hpk⟩, t, ht, rfl⟩))
  | y => exact hy (List.ne_nil_of_mem (mem_fieldRanks.2 ⟨_, (hf.y _).2 ⟨p, hp, rfl, hk, hpk⟩, t, ht, rfl⟩))
  | z => exact hz (List.ne_nil_of_mem (mem_fieldRanks.2 ⟨_, (hf.z _).2 ⟨p, hp, rfl, hk, hpk⟩, t, ht, rfl⟩))

/-- Calls in one or more dimensions to which a location or a field without axis is given are accepted
exactly if all tensors are consistent. -/
theorem enter_iff (hf : G.Fits T) (h0 : 1 ≤ n)
    (hpos : ∀ p ∈ T, p.kind = .field → ∀ t, a p.name = some t → 1 ≤ t.ndim)
    (hne : ∃ p ∈ T, (p.kind = .location ∨ p.kind = .field ∧ p.axis = none) ∧ Given a p.name) :
    G.enter a = .ok n ↔
      ¬ SomeBatched a (T.map TensorParam.name) ∧ Consistent T G.models a n := by
  constructor
  · intro h
    obtain ⟨h1, -, h3, h4, h5⟩ := of_enter hf hpos h
    refine ⟨h1, h3, h4, fun p hp hk hg k hpk => ?_, h5⟩
    cases hk' : p.kind with
    | amplitude => exact absurd hk' hk
    | field => exact axes_of_enter hf hpos h hne p hp hk' hg k hpk
    | location =>
      rcases hf.locAx p hp hk' k hpk with rfl | ⟨q, hq, h6, h7⟩
      · exact h0
      · rw [← h6]
        exact (enter_ok.1 h).2.2 q hq _ h7 hg
  · rintro ⟨h1, h2⟩
    refine enter_of_consistent hf (by omega) h1 h2 ?_
    obtain ⟨p, hp, hk, hg⟩ := hne
    refine ⟨p, hp, ?_, hg⟩
    rcases hk with hk | ⟨hk, -⟩ <;> simp [hk]

theorem scalar_fits : scalarGuards.Fits scalarParams := Guards.fits_of (by decide +kernel)
theorem born_fits : bornGuards.Fits bornParams := Guards.fits_of (by decide +kernel)
theorem acoustic_fits : acousticGuards.Fits acousticTensorParams := Guards.fits_of (by decide +kernel)

/-- The tensors of `elastic` that are in the lists of the code. -/
def elasticListed : List TensorParam := elasticTensorParams.filter fun p => p.name ≠ "sigmaxx_0"

theorem elastic_fits : elasticGuards.Fits elasticListed := Guards.fits_of (by decide +kernel)

theorem someBatched_congr {l l' : List String} (h : ∀ s, s ∈ l ↔ s ∈ l') :
    SomeBatched a l ↔ SomeBatched a l' := by
  simp only [SomeBatched, h]

/-! ### Batched tensors -/

/-- **C112** `scalar`, `scalar_born` and `acoustic` refuse a call with `NotImplementedError` exactly if
some tensor other than a model is batched. -/
theorem C112_batched_refused (a : TensorArgs) :
    (scalarGuards.enter a = .error .notImplemented ↔ SomeBatched a (scalarModule.tensors ["v"])) ∧
    (bornGuards.enter a = .error .notImplemented ↔
      SomeBatched a (bornModule.tensors ["v", "scatter"])) ∧
    (acousticGuards.enter a = .error .notImplemented ↔
      SomeBatched a (acousticModule.tensors ["v", "rho"])) := by
  obtain ⟨h1, h2, h3, -⟩ := params_are_the_tensors
  refine ⟨?_, ?_, ?_⟩
  · rw [enter_notImplemented, batched_iff_vmapped scalar_fits, someBatched_congr h1]
  · rw [enter_notImplemented, batched_iff_vmapped born_fits, someBatched_congr h2]
  · rw [enter_notImplemented, batched_iff_vmapped acoustic_fits, someBatched_congr h3]

/-- `elastic` does so for all tensors but `sigmaxx_0`.  Full statement: as `C112_batched_refused`. -/
theorem C112_elastic_batched_partial (a : TensorArgs) :
    elasticGuards.enter a = .error .notImplemented ↔
      SomeBatched a ((elasticModule.tensors ["lamb", "mu", "buoyancy"]).filter (· ≠ "sigmaxx_0")) := by
  rw [enter_notImplemented, batched_iff_vmapped elastic_fits]
  refine someBatched_congr fun s => ?_
  have h := params_are_the_tensors.2.2.2 s
  simp only [elasticListed, List.mem_map, List.mem_filter, decide_not, Bool.not_eq_true',
    decide_eq_false_iff_not] at h ⊢
  rw [← h]
  constructor
  · rintro ⟨p, ⟨h1, h2⟩, rfl⟩
    exact ⟨⟨p, h1, rfl⟩, h2⟩
  · rintro ⟨⟨p, h1, rfl⟩, h2⟩
    exact ⟨p, ⟨h1, h2⟩, rfl⟩

/-- Arguments given by a list. -/
def argsOf (l : List (String × TensorArg)) : TensorArgs := fun s => l.lookup s

/-- A 2D call of `elastic` with a source and a batched `sigmaxx_0`. -/
def exBatched : TensorArgs := argsOf [("lamb", ⟨2, 9, false⟩), ("mu", ⟨2, 9, false⟩),
  ("buoyancy", ⟨2, 9, false⟩), ("source_locations_y", ⟨3, 2, false⟩), ("sigmaxx_0", ⟨3, 9, true⟩)]

/-- `elastic` does not refuse a batched `sigmaxx_0`. -/
theorem C112_fails_for_sigmaxx :
    SomeBatched exBatched (elasticModule.tensors ["lamb", "mu", "buoyancy"]) ∧
    elasticGuards.enter exBatched = .ok 2 := by
  refine ⟨⟨"sigmaxx_0", by decide +kernel, ⟨3, 9, true⟩, rfl, rfl⟩, by decide +kernel⟩

/-- A batched source is refused. -/
example : acousticGuards.enter (argsOf [("v", ⟨2, 9, false⟩), ("rho", ⟨2, 9, false⟩),
    ("source_amplitudes_x", ⟨3, 7, true⟩)]) = .error .notImplemented := by decide +kernel

/-- Batched models are not refused. -/
example : acousticGuards.enter (argsOf [("v", ⟨2, 9, true⟩), ("rho", ⟨2, 9, true⟩),
    ("source_locations_p", ⟨3, 2, false⟩)]) = .ok 2 := by decide +kernel

/-! ### Number of dimensions -/

/-- How the number of dimensions is found: one tensor suffices, and all of them are compared.  The
function accepts consistent tensors; and if a location or a field without axis is given, only those. -/
def FindsDimensions (G : Guards) (T : List TensorParam) (models : List String) : Prop :=
  ∀ (a : TensorArgs) (n : ℤ), 1 ≤ n →
    (¬ SomeBatched a (T.map TensorParam.name) → Consistent T models a n →
      (∃ p ∈ T, p.kind ≠ .amplitude ∧ Given a p.name) → G.enter a = .ok n) ∧
    ((∀ p ∈ T, p.kind = .field → ∀ t, a p.name = some t → 1 ≤ t.ndim) →
      (∃ p ∈ T, (p.kind = .location ∨ p.kind = .field ∧ p.axis = none) ∧ Given a p.name) →
      (G.enter a = .ok n ↔ ¬ SomeBatched a (T.map TensorParam.name) ∧ Consistent T models a n))

theorem findsDimensions (hf : G.Fits T) : FindsDimensions G T G.models := fun _ _ h0 =>
  ⟨fun h1 h2 h3 => enter_of_consistent hf (by omega) h1 h2 h3, fun h1 h2 => enter_iff hf h0 h1 h2⟩

/-- **C113** `scalar`, `scalar_born` and `acoustic` find the number of dimensions from any one field or
location, and accept exactly consistent tensors. -/
theorem C113_dimensions : FindsDimensions scalarGuards scalarParams ["v"] ∧
    FindsDimensions bornGuards bornParams ["v", "scatter"] ∧
    FindsDimensions acousticGuards acousticTensorParams ["v", "rho"] :=
  ⟨findsDimensions scalar_fits, findsDimensions born_fits, findsDimensions acoustic_fits⟩

/-- `elastic` does so if `sigmaxx_0` is left out of consideration.  Full statement:
`FindsDimensions elasticGuards elasticTensorParams …`. -/
theorem C113_elastic_dimensions_partial :
    FindsDimensions elasticGuards elasticListed ["lamb", "mu", "buoyancy"] :=
  findsDimensions elastic_fits

/-- A call of `elastic` in two dimensions with one initial wavefield. -/
def exOnly (s : String) : TensorArgs := argsOf [("lamb", ⟨2, 9, false⟩), ("mu", ⟨2, 9, false⟩),
  ("buoyancy", ⟨2, 9, false⟩), (s, ⟨3, 9, false⟩)]

theorem exOnly_consistent : Consistent elasticTensorParams ["lamb", "mu", "buoyancy"]
    (exOnly "sigmaxx_0") 2 := by
  have key : ∀ p ∈ elasticTensorParams, p.name ≠ "sigmaxx_0" → exOnly "sigmaxx_0" p.name = none := by
    decide +kernel
  have kind : ∀ p ∈ elasticTensorParams, p.name = "sigmaxx_0" → p.kind = .field ∧ p.axis = some .x := by
    decide +kernel
  refine ⟨fun p hp hk t ht => ?_, fun p hp hk t ht => ?_, fun p hp hk hg k hpk => ?_, ?_⟩
  · by_cases h : p.name = "sigmaxx_0"
    · rw [h] at ht
      have : t = ⟨3, 9, false⟩ := (Option.some.inj ht).symm
      rw [this]
      norm_num
    · rw [key p hp h] at ht
      exact absurd ht (by simp)
  · by_cases h : p.name = "sigmaxx_0"
    · rw [(kind p hp h).1] at hk
      exact absurd hk (by simp)
    · rw [key p hp h] at ht
      exact absurd ht (by simp)
  · by_cases h : p.name = "sigmaxx_0"
    · rw [(kind p hp h).2] at hpk
      rw [← Option.some.inj hpk]
      decide
    · obtain ⟨t, ht⟩ := hg
      rw [key p hp h] at ht
      exact absurd ht (by simp)
  · intro s hs t ht
    have : ∀ s ∈ ["lamb", "mu", "buoyancy"], exOnly "sigmaxx_0" s = some ⟨2, 9, false⟩ := by
      intro s hs
      simp only [List.mem_cons, List.not_mem_nil, or_false] at hs
      rcases hs with rfl | rfl | rfl <;> rfl
    rw [this s hs] at ht
    rw [← Option.some.inj ht]
    exact Or.inl rfl

/-- For `elastic` it is false: `sigmaxx_0` alone does not give the number of dimensions (every other
initial wavefield does), and with a `sigmaxx_0` of a wrong rank the call goes on. -/
theorem C113_fails_for_sigmaxx :
    ¬ FindsDimensions elasticGuards elasticTensorParams ["lamb", "mu", "buoyancy"] ∧
    elasticGuards.enter (exOnly "sigmaxx_0") = .error (.py .valueError) ∧
    elasticGuards.enter (exOnly "sigmayy_0") = .ok 2 ∧
    elasticGuards.enter (argsOf [("lamb", ⟨2, 9, false⟩), ("mu", ⟨2, 9, false⟩),
      ("buoyancy", ⟨2, 9, false⟩), ("source_locations_y", ⟨3, 2, false⟩),
      ("sigmaxx_0", ⟨7, 9, false⟩)]) = .ok 2 := by
  have h2 : elasticGuards.enter (exOnly "sigmaxx_0") = .error (.py .valueError) := by decide +kernel
  refine ⟨fun h => ?_, h2, by decide +kernel, by decide +kernel⟩
  have := (h (exOnly "sigmaxx_0") 2 (by norm_num)).1 ?_ exOnly_consistent ?_
  · rw [h2] at this
    exact absurd this (by simp)
  · rintro ⟨s, hs, t, ht, hb⟩
    have key : ∀ s ∈ elasticTensorParams.map TensorParam.name,
        ((exOnly "sigmaxx_0" s).all fun t => !t.batched) = true := by decide +kernel
    have := key s hs
    rw [ht] at this
    simp [hb] at this
  · refine ⟨⟨"sigmaxx_0", .field, some .x⟩, by decide +kernel, by simp, ⟨3, 9, false⟩, rfl⟩

/-! ### Arguments that are ignored -/

/-- In an accepted call every tensor that the user gives is passed on, except those of `skip`. -/
def UsesAll (G : Guards) (T : List TensorParam) (skip : ℤ → TensorParam → Prop) : Prop :=
  ∀ (a : TensorArgs) (n : ℤ), G.enter a = .ok n → 1 ≤ n → n ≤ 3 →
    (∀ p ∈ T, p.kind = .field → ∀ t, a p.name = some t → 1 ≤ t.ndim) →
    (∃ p ∈ T, (p.kind = .location ∨ p.kind = .field ∧ p.axis = none) ∧ Given a p.name) →
    ∀ p ∈ T, Given a p.name → ¬ skip n p → p.name ∈ G.passed n

theorem usesAll (hf : G.Fits T) (T' : List TensorParam)
    (hpass : ∀ n ∈ [(1 : ℤ), 2, 3], ∀ p ∈ T', (p.axis.all fun k => k.dim ≤ n) = true → p.name ∈ G.passed n)
    (hsub : ∀ p ∈ T, p ∈ T') (hrest : ∀ p ∈ T', p ∉ T → p.axis = some .x ∧ p.kind = .field) :
    UsesAll G T' fun n p => p.kind = .amplitude ∧ ∃ k, p.axis = some k ∧ n < k.dim := by
  intro a n h h1 h3 hpos hne p hp hg hskip
  refine hpass n (by simp; omega) p hp ?_
  cases hx : p.axis with
  | none => rfl
  | some k =>
    simp only [Option.all_some, decide_eq_true_eq]
    by_cases hpT : p ∈ T
    · cases hk : p.kind with
      | amplitude =>
        by_contra hc
        exact hskip ⟨hk, k, hx, by omega⟩
      | location =>
        rcases hf.locAx p hpT hk k hx with rfl | ⟨q, hq, h6, h7⟩
        · exact h1
        · rw [← h6]
          exact (enter_ok.1 h).2.2 q hq _ h7 hg
      | field =>
        refine axes_of_enter hf (fun p hp => hpos p (hsub p hp)) h ?_ p hpT hk hg k hx
        obtain ⟨q, hq, hk, hg⟩ := hne
        by_cases hqT : q ∈ T
        · exact ⟨q, hqT, hk, hg⟩
        · obtain ⟨h6, h7⟩ := hrest q hq hqT
          rw [h6, h7] at hk
          simp at hk
    · rw [(hrest p hp hpT).1] at hx
      rw [← Option.some.inj hx]
      exact h1

/-- **C114** `scalar` and `scalar_born` use every tensor that they are given: in an accepted call to
which a location or a wavefield is given, no tensor is ignored. -/
theorem C114_no_tensor_ignored : UsesAll scalarGuards scalarParams (fun _ _ => False) ∧
    UsesAll bornGuards bornParams (fun _ _ => False) := by
  refine ⟨fun a n h h1 h3 hpos hne p hp hg _ => ?_, fun a n h h1 h3 hpos hne p hp hg _ => ?_⟩
  · refine usesAll scalar_fits scalarParams (by decide +kernel) (fun _ h => h)
      (fun p h h' => absurd h h') a n h h1 h3 hpos hne p hp hg ?_
    have : ∀ p ∈ scalarParams, p.kind = .amplitude → p.axis = none := by decide +kernel
    rintro ⟨hk, k, hx, -⟩
    rw [this p hp hk] at hx
    simp at hx
  · refine usesAll born_fits bornParams (by decide +kernel) (fun _ h => h)
      (fun p h h' => absurd h h') a n h h1 h3 hpos hne p hp hg ?_
    have : ∀ p ∈ bornParams, p.kind = .amplitude → p.axis = none := by decide +kernel
    rintro ⟨hk, k, hx, -⟩
    rw [this p hp hk] at hx
    simp at hx

/-- `acoustic` and `elastic` use every tensor but source amplitudes of an axis that the call does not
have.  Full statement: `UsesAll acousticGuards acousticTensorParams fun _ _ => False`. -/
theorem C114_staggered_partial :
    (UsesAll acousticGuards acousticTensorParams fun n p =>
      p.kind = .amplitude ∧ ∃ k, p.axis = some k ∧ n < k.dim) ∧
    (UsesAll elasticGuards elasticTensorParams fun n p =>
      p.kind = .amplitude ∧ ∃ k, p.axis = some k ∧ n < k.dim) := by
  refine ⟨usesAll acoustic_fits _ (by decide +kernel) (fun _ h => h) (fun p h h' => absurd h h'),
    usesAll elastic_fits _ (by decide +kernel) (fun p h => (List.mem_filter.1 h).1) ?_⟩
  decide +kernel

/-- A 2D call with a pressure source and, by mistake, amplitudes for forces along `z`. -/
def exIgnored (models : List String) : TensorArgs := argsOf ((models.map fun s => (s, ⟨2, 9, false⟩)) ++
  [("source_amplitudes_p", ⟨3, 7, false⟩), ("source_locations_p", ⟨3, 2, false⟩),
    ("source_amplitudes_z", ⟨3, 7, false⟩)])

/-- Such amplitudes are silently ignored, in both functions. -/
theorem C114_amplitudes_ignored :
    acousticGuards.enter (exIgnored ["v", "rho"]) = .ok 2 ∧
    "source_amplitudes_z" ∉ acousticGuards.passed 2 ∧
    elasticGuards.enter (exIgnored ["lamb", "mu", "buoyancy"]) = .ok 2 ∧
    "source_amplitudes_z" ∉ elasticGuards.passed 2 ∧
    ¬ UsesAll acousticGuards acousticTensorParams (fun _ _ => False) ∧
    ¬ UsesAll elasticGuards elasticTensorParams (fun _ _ => False) := by
  have e1 : acousticGuards.enter (exIgnored ["v", "rho"]) = .ok 2 := by decide +kernel
  have e2 : elasticGuards.enter (exIgnored ["lamb", "mu", "buoyancy"]) = .ok 2 := by decide +kernel
  have e3 : "source_amplitudes_z" ∉ acousticGuards.passed 2 := by decide +kernel
  have e4 : "source_amplitudes_z" ∉ elasticGuards.passed 2 := by decide +kernel
  refine ⟨e1, e3, e2, e4, fun h => e3 ?_, fun h => e4 ?_⟩
  · refine h _ 2 e1 (by norm_num) (by norm_num) ?_
      ⟨⟨"source_locations_p", .location, none⟩, by decide +kernel, Or.inl rfl, _, rfl⟩
      ⟨"source_amplitudes_z", .amplitude, some .z⟩ (by decide +kernel) ⟨_, rfl⟩ id
    have : ∀ p ∈ acousticTensorParams, ((exIgnored ["v", "rho"] p.name).all fun t => decide (1 ≤ t.ndim)) =
      true := by decide +kernel
    intro p hp _ t ht
    have := this p hp
    rw [ht] at this
    simpa using this
  · refine h _ 2 e2 (by norm_num) (by norm_num) ?_
      ⟨⟨"source_locations_p", .location, none⟩, by decide +kernel, Or.inl rfl, _, rfl⟩
      ⟨"source_amplitudes_z", .amplitude, some .z⟩ (by decide +kernel) ⟨_, rfl⟩ id
    have : ∀ p ∈ elasticTensorParams, ((exIgnored ["lamb", "mu", "buoyancy"] p.name).all fun t =>
      decide (1 ≤ t.ndim)) = true := by decide +kernel
    intro p hp _ t ht
    have := this p hp
    rw [ht] at this
    simpa using this

/-- The full call in three dimensions is accepted and everything is passed on. -/
example : acousticGuards.enter (argsOf [("v", ⟨3, 9, false⟩), ("rho", ⟨4, 9, false⟩),
      ("source_amplitudes_z", ⟨3, 7, false⟩), ("source_locations_z", ⟨3, 3, false⟩),
      ("vx_0", ⟨4, 9, false⟩)]) = .ok 3 ∧
    "source_amplitudes_z" ∈ acousticGuards.passed 3 ∧ "vx_0" ∈ acousticGuards.passed 3 := by
  decide +kernel

end Dw.Interface
