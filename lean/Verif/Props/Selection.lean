import Verif.Interface.Selection
import Mathlib.Data.List.Nodup
import Mathlib.Tactic.Common

/-!
# The compiled function that is called is the right one

For every propagator, number of dimensions, order of accuracy, floating-point type and device, Python
selects the function compiled for them, and passes it arguments of the types of its parameters.
-/

namespace Dw.Interface

/-- The parameters of a function, from its source. -/
def paramsOf (s : Symbol) : Sig :=
  match s.source, s.fn, s.device with
  | "scalar", "forward", "cpu" => Cpu.scalar.forward s.ndim
  | "scalar", "backward", "cpu" => Cpu.scalar.backward s.ndim
  | "scalar", "forward", "cuda" => Cuda.scalar.forward s.ndim
  | "scalar", "backward", "cuda" => Cuda.scalar.backward s.ndim
  | "scalar_born", "forward", "cpu" => Cpu.born.forward s.ndim
  | "scalar_born", "backward", "cpu" => Cpu.born.backward s.ndim
  | "scalar_born", "backward_sc", "cpu" => Cpu.born.backward_sc s.ndim
  | "scalar_born", "forward", "cuda" => Cuda.born.forward s.ndim
  | "scalar_born", "backward", "cuda" => Cuda.born.backward s.ndim
  | "scalar_born", "backward_sc", "cuda" => Cuda.born.backward_sc s.ndim
  | "acoustic", "forward", "cpu" => Cpu.acoustic.forward s.ndim
  | "acoustic", "backward", "cpu" => Cpu.acoustic.backward s.ndim
  | "acoustic", "forward", "cuda" => Cuda.acoustic.forward s.ndim
  | "acoustic", "backward", "cuda" => Cuda.acoustic.backward s.ndim
  | "elastic", "forward", "cpu" => Cpu.elastic.forward s.ndim
  | "elastic", "backward", "cpu" => Cpu.elastic.backward s.ndim
  | "elastic", "forward", "cuda" => Cuda.elastic.forward s.ndim
  | "elastic", "backward", "cuda" => Cuda.elastic.backward s.ndim
  | _, _, _ => []

/-- The `ctypes` type of a parameter of a function compiled for `float` or `double`. -/
def paramType (dtype : String) : Kind → CType
  | .ptr => .voidp
  | .real => if dtype = "float" then .float else .double
  | .i64 => .int64
  | .size => .size
  | .bool => .bool

/-- The name of a `torch` type in C. -/
def dtypeName : TorchDtype → String
  | .float64 => "double"
  | _ => "float"

theorem library_sub {cuda : Bool} {s : Symbol} (h : s ∈ library cuda) : s ∈ library true := by
  cases cuda with
  | true => exact h
  | false =>
    rw [library, if_neg (by simp), List.append_nil] at h
    exact List.mem_append_left _ h

theorem mem_objects {s : Symbol} {d : String} : s ∈ objects d ↔
    s.ndim ∈ [1, 2, 3] ∧ s.dtype ∈ ["float", "double"] ∧ s.accuracy ∈ [2, 4, 6, 8] ∧
    (∃ x ∈ sources, x.1 = s.source ∧ s.fn ∈ x.2) ∧ s.device = d := by
  obtain ⟨source, fn, ndim, accuracy, dtype, device⟩ := s
  simp only [objects, List.mem_flatMap, List.mem_map, Symbol.mk.injEq]
  constructor
  · rintro ⟨n, hn, t, ht, a, ha, x, hx, f, hf, rfl, rfl, rfl, rfl, rfl, rfl⟩
    exact ⟨hn, ht, ha, ⟨x, hx, rfl, hf⟩, rfl⟩
  · rintro ⟨hn, ht, ha, ⟨x, hx, rfl, hf⟩, rfl⟩
    exact ⟨_, hn, _, ht, _, ha, x, hx, _, hf, rfl, rfl, rfl, rfl, rfl, rfl⟩

theorem mem_library {cuda : Bool} {s : Symbol} : s ∈ library cuda ↔
    s.ndim ∈ [1, 2, 3] ∧ s.dtype ∈ ["float", "double"] ∧ s.accuracy ∈ [2, 4, 6, 8] ∧
    (∃ x ∈ sources, x.1 = s.source ∧ s.fn ∈ x.2) ∧
    (s.device = "cpu" ∨ cuda = true ∧ s.device = "cuda") := by
  unfold library
  rw [List.mem_append, mem_objects]
  cases cuda with
  | true => simp only [if_true, mem_objects, true_and, ← and_or_left]
  | false => simp

/-- Two texts that start with pieces of which none begins with another start with the same piece. -/
theorem cancel {α : Type*} {l : List α} (f : α → String) (c : String)
    (h : ∀ a ∈ l, ∀ b ∈ l, (f a ++ c).toList.isPrefixOf (f b ++ c).toList = true → a = b) {a b : α}
    (ha : a ∈ l) (hb : b ∈ l) {x y : String} (he : f a ++ (c ++ x) = f b ++ (c ++ y)) :
    a = b ∧ x = y := by
  have he' : (f a ++ c).toList ++ x.toList = (f b ++ c).toList ++ y.toList := by
    rw [← String.toList_append, ← String.toList_append, String.append_assoc, he,
      String.append_assoc]
  have hab : a = b := by
    rcases List.prefix_or_prefix_of_prefix (List.prefix_append (f a ++ c).toList x.toList)
      (he' ▸ List.prefix_append (f b ++ c).toList y.toList) with h1 | h1
    · exact h a ha b hb (List.isPrefixOf_iff_prefix.2 h1)
    · exact (h b hb a ha (List.isPrefixOf_iff_prefix.2 h1)).symm
  subst hab
  exact ⟨rfl, String.toList_inj.1 (List.append_cancel_left he')⟩

/-- No two functions of the library have the same name. -/
theorem cname_inj {s t : Symbol} (hs : s ∈ library true) (ht : t ∈ library true)
    (h : s.cname = t.cname) : s = t := by
  obtain ⟨sn, sd, sa, ⟨x, hx, hx1, hx2⟩, sv⟩ := mem_library.1 hs
  obtain ⟨tn, td, ta, ⟨y, hy, hy1, hy2⟩, tv⟩ := mem_library.1 ht
  obtain ⟨s1, s2, s3, s4, s5, s6⟩ := s
  obtain ⟨t1, t2, t3, t4, t5, t6⟩ := t
  simp only at sn sd sa hx1 hx2 sv tn td ta hy1 hy2 tv
  simp only [Symbol.cname, String.append_assoc] at h
  have hs1 : s1 ∈ sources.map Prod.fst := List.mem_map.2 ⟨x, hx, hx1⟩
  have ht1 : t1 ∈ sources.map Prod.fst := List.mem_map.2 ⟨y, hy, hy1⟩
  obtain ⟨rfl, h1⟩ := cancel id "_iso_" (by decide +kernel) hs1 ht1 h
  obtain ⟨rfl, h2⟩ := cancel toString "d_" (by decide +kernel) sn tn h1
  obtain ⟨rfl, h3⟩ := cancel toString "_" (by decide +kernel) sa ta h2
  obtain ⟨rfl, h4⟩ := cancel id "_" (by decide +kernel) sd td h3
  have hf : ∀ x ∈ sources, ∀ f ∈ x.2, f ∈ ["forward", "backward", "backward_sc"] := by
    decide +kernel
  have hlast : ∀ f ∈ ["forward", "backward", "backward_sc"],
      ∀ g ∈ ["forward", "backward", "backward_sc"], ∀ v ∈ ["cpu", "cuda"], ∀ w ∈ ["cpu", "cuda"],
      f ++ ("_" ++ v) = g ++ ("_" ++ w) → f = g ∧ v = w := by decide +kernel
  obtain ⟨rfl, rfl⟩ := hlast s2 (hf x hx _ hx2) t2 (hf y hy _ hy2) s6
    (by rcases sv with h | h <;> simp [h]) t6 (by rcases tv with h | h <;> simp [h]) h4
  rfl

theorem getattr_some {cuda : Bool} {s : Symbol} (h : s ∈ library cuda) :
    getattr cuda s.cname = some s := by
  unfold getattr
  cases hf : (library cuda).find? fun t => t.cname == s.cname with
  | none => exact absurd (List.find?_eq_none.1 hf s h) (by simp)
  | some t =>
    have h1 := List.mem_of_find?_eq_some hf
    have h2 := List.find?_some hf
    rw [cname_inj (library_sub h1) (library_sub h) (by simpa using h2)]

theorem getattr_none {cuda : Bool} {s : Symbol} (hs : s ∈ library true) (h : s ∉ library cuda) :
    getattr cuda s.cname = none := by
  unfold getattr
  rw [List.find?_eq_none]
  intro t ht hc
  exact h (cname_inj (library_sub ht) hs (by simpa using hc) ▸ ht)

/-- The types that are assigned to a function. -/
def typesOf (s : Symbol) : Option (List CType) :=
  (templates.lookup (s.source ++ "_" ++ s.fn)).map fun t =>
    (t s.ndim).map (CType.of (if s.dtype = "float" then .float else .double))

theorem assign_eq {cuda : Bool} {p dir extra d : String} {n a : ℕ} :
    assignArgtypes cuda p n a d dir extra =
      (templates.lookup (p ++ "_" ++ (dir ++ extra))).map fun t =>
        ["cpu", "cuda"].filterMap fun device =>
          (getattr cuda (Symbol.cname ⟨p, dir ++ extra, n, a, d, device⟩)).map fun s =>
            (s.cname, (t n).map (CType.of (if d = "float" then .float else .double))) := by
  simp only [assignArgtypes, Symbol.cname, String.append_assoc]

theorem lookup_unique {α : Type*} {l : List (String × α)} {n : String} {v : α}
    (h : (n, v) ∈ l) (hu : ∀ w, (n, w) ∈ l → w = v) : l.lookup n = some v := by
  induction l with
  | nil => simp at h
  | cons x l ih =>
    obtain ⟨m, w⟩ := x
    rw [List.lookup_cons]
    by_cases hm : n = m
    · subst hm
      rw [hu w (by simp)]; simp
    · have : (n == m) = false := by simpa using hm
      rw [this]
      refine ih ?_ fun w hw => hu w (by simp [hw])
      rcases List.mem_cons.1 h with h | h
      · exact absurd (congrArg Prod.fst h) hm
      · exact h

theorem mapM_some {α β : Type*} {f : α → Option β} {g : α → β} :
    ∀ {l : List α}, (∀ x ∈ l, f x = some (g x)) → l.mapM f = some (l.map g)
  | [], _ => rfl
  | x :: l, h => by
    rw [List.mapM_cons, h x (by simp), mapM_some fun y hy => h y (by simp [hy])]; rfl

theorem turns_known : ∀ p ∈ assigned,
    (templates.lookup (p.1 ++ "_" ++ (p.2.1 ++ p.2.2))).isSome = true := by decide +kernel

theorem assigned_sources : ∀ p ∈ assigned, ∃ x ∈ sources, x.1 = p.1 ∧ p.2.1 ++ p.2.2 ∈ x.2 := by
  decide +kernel

theorem sources_assigned : ∀ x ∈ sources, ∀ fn ∈ x.2, ∃ p ∈ assigned, p.1 = x.1 ∧
    p.2.1 ++ p.2.2 = fn := by decide +kernel

theorem mem_turns {x : ℕ × ℕ × String × String × String × String} : x ∈ turns ↔
    x.1 ∈ [1, 2, 3] ∧ x.2.1 ∈ [2, 4, 6, 8] ∧ x.2.2.1 ∈ ["float", "double"] ∧
      x.2.2.2 ∈ assigned := by
  obtain ⟨n, a, d, p⟩ := x
  simp only [turns, List.mem_flatMap, List.mem_map, Prod.mk.injEq]
  constructor
  · rintro ⟨n, hn, a, ha, d, hd, p, hp, rfl, rfl, rfl, rfl⟩
    exact ⟨hn, ha, hd, hp⟩
  · rintro ⟨hn, ha, hd, hp⟩
    exact ⟨n, hn, a, ha, d, hd, p, hp, rfl, rfl, rfl, rfl⟩

/-- The types assigned on import. -/
theorem argtypes_eq {cuda : Bool} {s : Symbol} (hs : s ∈ library cuda) :
    argtypes cuda s = typesOf s := by
  -- value of one turn
  have one : ∀ x ∈ turns, ∃ t, templates.lookup (x.2.2.2.1 ++ "_" ++
      (x.2.2.2.2.1 ++ x.2.2.2.2.2)) = some t := by
    intro x hx
    exact Option.isSome_iff_exists.1 (turns_known _ (mem_turns.1 hx).2.2.2)
  have hm : assignments cuda = some (turns.map fun x =>
      (assignArgtypes cuda x.2.2.2.1 x.1 x.2.1 x.2.2.1 x.2.2.2.2.1 x.2.2.2.2.2).getD []) := by
    refine mapM_some fun x hx => ?_
    obtain ⟨t, ht⟩ := one x hx
    rw [assign_eq, ht]; rfl
  -- the template of `s`
  have hl := mem_library.1 hs
  obtain ⟨y, hy, hys, hyf⟩ := hl.2.2.2.1
  obtain ⟨p, hp, hp1, hp2⟩ := sources_assigned y hy _ hyf
  obtain ⟨t, ht⟩ := Option.isSome_iff_exists.1 (turns_known p hp)
  rw [hp1, hp2, hys] at ht
  have hty : typesOf s = some ((t s.ndim).map
      (CType.of (if s.dtype = "float" then .float else .double))) := by
    rw [typesOf, ht]; rfl
  rw [argtypes, hm, hty]
  show List.lookup _ _ = _
  refine lookup_unique ?_ ?_
  · rw [List.mem_reverse, List.mem_flatten]
    refine ⟨_, List.mem_map.2 ⟨(s.ndim, s.accuracy, s.dtype, p), mem_turns.2
      ⟨hl.1, hl.2.2.1, hl.2.1, hp⟩, rfl⟩, ?_⟩
    simp only [assign_eq, hp2, hp1, hys, ht, Option.map_some, Option.getD_some]
    rw [List.mem_filterMap]
    refine ⟨s.device, ?_, ?_⟩
    · rcases hl.2.2.2.2 with h | h <;> simp [h]
    · have := getattr_some hs
      obtain ⟨source, fn, ndim, accuracy, dtype, device⟩ := s
      rw [this]; rfl
  · intro w hw
    rw [List.mem_reverse, List.mem_flatten] at hw
    obtain ⟨l, hl', hw⟩ := hw
    obtain ⟨x, hx, rfl⟩ := List.mem_map.1 hl'
    obtain ⟨t', ht'⟩ := one x hx
    simp only [assign_eq, ht', Option.map_some, Option.getD_some] at hw
    obtain ⟨dev, hdev, hw⟩ := List.mem_filterMap.1 hw
    rw [Option.map_eq_some_iff] at hw
    obtain ⟨u, hu, hw⟩ := hw
    have hx' := mem_turns.1 hx
    obtain ⟨z, hz, hz1, hz2⟩ := assigned_sources _ hx'.2.2.2
    have hv : (⟨x.2.2.2.1, x.2.2.2.2.1 ++ x.2.2.2.2.2, x.1, x.2.1, x.2.2.1, dev⟩ : Symbol) ∈
        library true := by
      refine mem_library.2 ⟨hx'.1, hx'.2.2.1, hx'.2.1, ⟨z, hz, hz1, hz2⟩, ?_⟩
      simp only [List.mem_cons, List.not_mem_nil, or_false] at hdev
      rcases hdev with h | h <;> simp [h]
    by_cases hc : (⟨x.2.2.2.1, x.2.2.2.2.1 ++ x.2.2.2.2.2, x.1, x.2.1, x.2.2.1, dev⟩ : Symbol) ∈
        library cuda
    · rw [getattr_some hc] at hu
      have hu := Option.some.inj hu
      have hus : u = s := cname_inj (hu ▸ hv) (library_sub hs) (congrArg Prod.fst hw)
      rw [← hu] at hus
      subst hus
      rw [← Prod.mk.inj hw |>.2]
      have : t' = t := Option.some.inj (ht'.symm.trans ht)
      rw [this]
    · rw [getattr_none hv hc] at hu; cases hu

theorem params_cpu : ∀ x ∈ sources, ∀ fn ∈ x.2, (x.1, fn) ≠ ("scalar_born", "backward_sc") →
    ∀ n ∈ [1, 2, 3], (templates.lookup (x.1 ++ "_" ++ fn)).map (fun t => t n) =
      some ((paramsOf ⟨x.1, fn, n, 0, "", "cpu"⟩).map Prod.fst) := by decide +kernel

theorem params_cuda : ∀ x ∈ sources, ∀ fn ∈ x.2,
    ∀ n ∈ [1, 2, 3], (templates.lookup (x.1 ++ "_" ++ fn)).map (fun t => t n) =
      some ((paramsOf ⟨x.1, fn, n, 0, "", "cuda"⟩).map Prod.fst) := by decide +kernel

/-- The function selected for a call is the one compiled from the source of the propagator for the number
of dimensions, the accuracy, the type and the device of the call, and it exists. -/
theorem C109_selects {cuda : Bool} {p pass extra : String} (hp : (p, pass, extra) ∈ assigned)
    {ndim accuracy : ℕ} (hn : 1 ≤ ndim ∧ ndim ≤ 3) (ha : accuracy ∈ [2, 4, 6, 8])
    {dtype : TorchDtype} (hd : dtype ≠ .other) {device : String}
    (hdev : device = "cpu" ∨ cuda = true ∧ device = "cuda") :
    getBackendFunction cuda p ndim pass accuracy dtype device extra =
      .ok ⟨p, pass ++ extra, ndim, accuracy, dtypeName dtype, device⟩ := by
  obtain ⟨z, hz, hz1, hz2⟩ := assigned_sources _ hp
  have key : ∀ d ∈ ["float", "double"], getattr cuda (p ++ "_iso_" ++ toString ndim ++ "d_" ++
      toString accuracy ++ "_" ++ d ++ "_" ++ pass ++ extra ++ "_" ++ device) =
      some ⟨p, pass ++ extra, ndim, accuracy, d, device⟩ := by
    intro d hd
    have := getattr_some (cuda := cuda) (s := ⟨p, pass ++ extra, ndim, accuracy, d, device⟩)
      (mem_library.2 ⟨by simp; omega, hd, ha, ⟨z, hz, hz1, hz2⟩, hdev⟩)
    simp only [Symbol.cname, String.append_assoc] at this ⊢
    exact this
  cases dtype with
  | float32 => simp only [getBackendFunction, key "float" (by simp)]; rfl
  | float64 => simp only [getBackendFunction, key "double" (by simp)]; rfl
  | other => exact absurd rfl hd

/-- Another type is refused, and without CUDA every call for a CUDA device. -/
theorem C109_refuses {p pass extra : String} (hp : (p, pass, extra) ∈ assigned)
    {ndim accuracy : ℕ} (hn : 1 ≤ ndim ∧ ndim ≤ 3) (ha : accuracy ∈ [2, 4, 6, 8]) :
    (∀ cuda device, getBackendFunction cuda p ndim pass accuracy .other device extra =
      .error .typeError) ∧
    ∀ dtype ≠ TorchDtype.other, getBackendFunction false p ndim pass accuracy dtype "cuda" extra =
      .error .attributeError := by
  refine ⟨fun _ _ => rfl, fun dtype hd => ?_⟩
  obtain ⟨z, hz, hz1, hz2⟩ := assigned_sources _ hp
  have key : ∀ d ∈ ["float", "double"], getattr false (p ++ "_iso_" ++ toString ndim ++ "d_" ++
      toString accuracy ++ "_" ++ d ++ "_" ++ pass ++ extra ++ "_" ++ "cuda") = none := by
    intro d hd
    have := getattr_none (cuda := false) (s := ⟨p, pass ++ extra, ndim, accuracy, d, "cuda"⟩)
      (mem_library.2 ⟨by simp; omega, hd, ha, ⟨z, hz, hz1, hz2⟩, Or.inr ⟨rfl, rfl⟩⟩)
      (fun h => by have := (mem_library.1 h).2.2.2.2; simp at this)
    simp only [Symbol.cname, String.append_assoc] at this ⊢
    exact this
  cases dtype with
  | float32 => simp only [getBackendFunction, key "float" (by simp)]
  | float64 => simp only [getBackendFunction, key "double" (by simp)]
  | other => exact absurd rfl hd

/-- Every function of the library is called with the types of its parameters, except `backward_sc` of the
Born propagator on the CPU.  `_partial`: for that one the statement is false
(`C109_fails_for_backward_sc`). -/
theorem C109_argtypes_partial {cuda : Bool} {s : Symbol} (hs : s ∈ library cuda)
    (hsc : (s.source, s.fn, s.device) ≠ ("scalar_born", "backward_sc", "cpu")) :
    argtypes cuda s = some ((paramsOf s).map fun p => paramType s.dtype p.1) := by
  rw [argtypes_eq hs]
  have hl := mem_library.1 hs
  obtain ⟨x, hx, hx1, hx2⟩ := hl.2.2.2.1
  obtain ⟨source, fn, ndim, accuracy, dtype, device⟩ := s
  simp only at hx1 hx2 hl hsc
  subst hx1
  have hk : (templates.lookup (x.1 ++ "_" ++ fn)).map (fun t => t ndim) =
      some ((paramsOf ⟨x.1, fn, ndim, accuracy, dtype, device⟩).map Prod.fst) := by
    rcases hl.2.2.2.2 with h | ⟨-, h⟩
    · subst h
      exact params_cpu x hx fn hx2 (by simpa using hsc) ndim hl.1
    · subst h
      exact params_cuda x hx fn hx2 ndim hl.1
  rw [Option.map_eq_some_iff] at hk
  obtain ⟨t, ht, hk⟩ := hk
  simp only [typesOf, ht, Option.map_some, hk, List.map_map]
  exact congrArg some (List.map_congr_left fun p _ => by rcases p with ⟨k, n⟩; cases k <;> rfl)

/-- The types assigned to `backward_sc` on the CPU are not those of its parameters. -/
theorem C109_fails_for_backward_sc (cuda : Bool) :
    argtypes cuda ⟨"scalar_born", "backward_sc", 2, 4, "float", "cpu"⟩ ≠
      some ((paramsOf ⟨"scalar_born", "backward_sc", 2, 4, "float", "cpu"⟩).map
        fun p => paramType "float" p.1) := by
  rw [argtypes_eq (mem_library.2 ⟨by simp, by simp, by simp, ⟨("scalar_born",
    ["forward", "backward", "backward_sc"]), by decide +kernel, rfl, by simp⟩, Or.inl rfl⟩)]
  decide +kernel

/-- A call of the elastic propagator in three dimensions on a GPU. -/
example : ("elastic", "backward", "") ∈ assigned ∧
    getBackendFunction true "elastic" 3 "backward" 8 .float64 "cuda" "" =
      .ok ⟨"elastic", "backward", 3, 8, "double", "cuda"⟩ :=
  ⟨by decide +kernel, C109_selects (by decide +kernel) (by omega) (by simp) (by simp) (by simp)⟩

end Dw.Interface
