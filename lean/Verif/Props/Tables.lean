import Verif.Interface.PyNames
import Mathlib.Data.List.Basic
import Mathlib.Tactic.IntervalCases
import Mathlib.Data.Fintype.Basic

/-!
# Tables of wavefield positions

C58 (clearing of edges and interiors), and the parts of C53 and C54 about the Python backend of the
elastic propagator.
-/

namespace Dw.Interface

/-! ## C58 -/

/-- The letters of the dimensions in use. -/
def letters (nd : ℕ) : List Char := ['z', 'y', 'x'].drop (3 - nd)

/-- Every index of a component and every derivative shifts it by half a cell along its letter: a field
lies at half points along the letters that occur an odd number of times. -/
def atHalf (n : String) (l : Char) : Bool := n.toList.count l % 2 == 1

/-- The direction of the derivative to which a memory variable belongs: the last letter. -/
def memoryDim (n : String) : Option Char := if n.startsWith "m_" then n.toList.getLast? else none

/-- Position and dimension of an operation. -/
def ZeroOp.pos : ZeroOp → ℕ × ℕ
  | .edge i k => (i, k)
  | .interior i k _ => (i, k)

/-- The operations on the wavefields called `names`: the trailing edge of a field is cleared in exactly
the dimensions in which it lies at half points; a memory variable is cleared in the interior along
exactly its own dimension, over one cell less if it lies at half points there; no operation is outside
the list of wavefields or of dimensions. -/
structure ZeroSpec (names : List String) (half : String → Char → Bool) (dim : String → Option Char)
    (ls : List Char) (interior : Bool) (ops : List ZeroOp) : Prop where
  edge : ∀ i n k l, names[i]? = some n → ls[k]? = some l → (.edge i k ∈ ops ↔ half n l = true)
  interior : ∀ i n k l s, names[i]? = some n → ls[k]? = some l →
    (.interior i k s ∈ ops ↔ interior = true ∧ dim n = some l ∧ s = half n l)
  inside : ∀ o ∈ ops, o.pos.1 < names.length ∧ o.pos.2 < ls.length

private theorem zeroSpec_of {names : List String} {half : String → Char → Bool}
    {dim : String → Option Char} {ls : List Char} {interior : Bool} {ops : List ZeroOp}
    (h1 : ∀ p ∈ names.zipIdx, ∀ q ∈ ls.zipIdx, ((ops.contains (.edge p.2 q.2)) = half p.1 q.1) ∧
      ∀ s : Bool, ops.contains (.interior p.2 q.2 s) =
        (interior && dim p.1 == some q.1 && s == half p.1 q.1))
    (h2 : ∀ o ∈ ops, o.pos.1 < names.length ∧ o.pos.2 < ls.length) :
    ZeroSpec names half dim ls interior ops := by
  refine ⟨fun i n k l hi hk => ?_, fun i n k l s hi hk => ?_, h2⟩
  · have := (h1 (n, i) (List.mem_zipIdx_iff_getElem?.2 hi) (l, k) (List.mem_zipIdx_iff_getElem?.2 hk)).1
    rw [← this, List.contains_iff_mem]
  · have := (h1 (n, i) (List.mem_zipIdx_iff_getElem?.2 hi) (l, k)
      (List.mem_zipIdx_iff_getElem?.2 hk)).2 s
    rw [← List.contains_iff_mem, this]
    simp [and_assoc]

/-- **C58** The elastic propagator clears every wavefield exactly at its own edge points, and every
memory variable exactly in the interior of its own dimension. -/
theorem C58_elastic_zeroed (nd : ℕ) (h1 : 1 ≤ nd) (h3 : nd ≤ 3) (interior : Bool) :
    ZeroSpec (elasticFields nd) atHalf memoryDim (letters nd) interior (elasticZero nd interior) := by
  refine zeroSpec_of ?_ ?_
  · interval_cases nd <;> revert interior <;> decide +kernel
  · interval_cases nd <;> revert interior <;> decide +kernel

/-- Names of the wavefields of the acoustic propagator, in internal order. -/
def acousticNames (nd : ℕ) : List String :=
  ["p"] ++ ["vz", "vy", "vx"].drop (3 - nd) ++ ["phi_z", "phi_y", "phi_x"].drop (3 - nd) ++
    ["psi_z", "psi_y", "psi_x"].drop (3 - nd)

/-- `phi_i` belongs to the derivative of `v_i` along `i`, `psi_i` to that of `p` along `i`. -/
def acousticHalf (n : String) (l : Char) : Bool := !n.startsWith "phi" && atHalf n l

def acousticDim (n : String) : Option Char :=
  if n.startsWith "phi" || n.startsWith "psi" then n.toList.getLast? else none

/-- **C58** The same for the acoustic propagator. -/
theorem C58_acoustic_zeroed (nd : ℕ) (h1 : 1 ≤ nd) (h3 : nd ≤ 3) (interior : Bool) :
    ZeroSpec (acousticNames nd) acousticHalf acousticDim (letters nd) interior
      (acousticZero nd interior) := by
  refine zeroSpec_of ?_ ?_
  · interval_cases nd <;> revert interior <;> decide +kernel
  · interval_cases nd <;> revert interior <;> decide +kernel

example : acousticNames 2 = ["p", "vy", "vx", "phi_y", "phi_x", "psi_y", "psi_x"] := by decide +kernel

example : atHalf "m_sigmaxyx" 'y' = true ∧ atHalf "m_sigmaxyx" 'x' = false ∧
    memoryDim "m_sigmaxyx" = some 'x' ∧ memoryDim "sigmaxy" = none ∧
    (elasticFields 3)[22]? = some "m_sigmaxyx" ∧ ZeroOp.interior 22 2 false ∈ elasticZero 3 true := by
  decide +kernel

/-! ## C53 for the Python backend -/

private theorem lookup_map {α β : Type*} (f : α → β) (n : String) :
    ∀ l : List (String × α), (l.map fun p => (p.1, f p.2)).lookup n = (l.lookup n).map f
  | [] => rfl
  | (m, a) :: l => by
    simp only [List.map_cons, List.lookup_cons]
    cases n == m
    · exact lookup_map f n l
    · rfl

private theorem fields_map {α : Type*} (nd : ℕ) (values : ℕ → α) (n : String) :
    pyCallbackFields nd values n = (pyCallbackFields nd id n).map (Option.map values) := by
  unfold pyCallbackFields
  rw [← lookup_map, List.map_reverse]
  congr 2
  unfold pyNames pyTables
  split_ifs <;> rfl

/-- The fields with two different indices among velocity gradients and stresses. -/
def isShear (n : String) : Bool := (['z', 'y', 'x'].countP fun l => atHalf n l) == 2 ||
  (n.startsWith "m_sigma" && (['z', 'y', 'x'].countP fun l => n.toList.contains l) == 2)

/-- Callbacks of the Python backend find velocities, normal stresses and the memory variables of the
normal derivatives under their own names.  `_partial`: the full statement would include the shear
stresses and the memory variables of the other derivatives, for which it is false in two and three
dimensions (`C53_fails_for_python_backend`). -/
theorem C53_python_fields_partial {α : Type*} (nd : ℕ) (h1 : 1 ≤ nd) (h3 : nd ≤ 3) (values : ℕ → α)
    (i : ℕ) (n : String) (hi : (elasticFields nd)[i]? = some n) (hn : isShear n = false) :
    pyCallbackFields nd values n = some (some (values i)) := by
  have key : ∀ p ∈ (elasticFields nd).zipIdx, isShear p.1 = false →
      pyCallbackFields nd id p.1 = some (some p.2) := by
    interval_cases nd <;> decide +kernel
  rw [fields_map, key (n, i) (List.mem_zipIdx_iff_getElem?.2 hi) hn]
  rfl

/-- In one dimension all fields are. -/
theorem C53_python_fields_1d {α : Type*} (values : ℕ → α) (i : ℕ) (n : String)
    (hi : (elasticFields 1)[i]? = some n) : pyCallbackFields 1 values n = some (some (values i)) := by
  refine C53_python_fields_partial 1 (by decide) (by decide) values i n hi ?_
  have : ∀ n ∈ elasticFields 1, isShear n = false := by decide +kernel
  exact this n (List.mem_of_getElem? hi)

/-- In two dimensions callbacks of the Python backend find empty tensors as `sigmaxy`, `m_vyx` and
`m_sigmaxyx`, the memory variable `m_vyx` as `m_vxy` and `m_sigmaxyx` as `m_sigmaxyy`.  In three
dimensions `sigmayz`, `m_vzy`, `m_vyx`, `m_sigmayzy` and `m_sigmaxyx` are empty and `sigmaxz`, `sigmaxy`
both show `sigmayz`.  (Values are named by the fields of the compiled backend.) -/
theorem C53_fails_for_python_backend :
    (∀ n ∈ ["sigmaxy", "m_vyx", "m_sigmaxyx"],
      pyCallbackFields 2 (fun i => (elasticFields 2)[i]?) n = some none) ∧
    pyCallbackFields 2 (fun i => (elasticFields 2)[i]?) "m_vxy" = some (some "m_vyx") ∧
    pyCallbackFields 2 (fun i => (elasticFields 2)[i]?) "m_sigmaxyy" = some (some "m_sigmaxyx") ∧
    (∀ n ∈ ["sigmayz", "m_vzy", "m_vyx", "m_sigmayzy", "m_sigmaxyx"],
      pyCallbackFields 3 (fun i => (elasticFields 3)[i]?) n = some none) ∧
    (∀ n ∈ ["sigmaxz", "sigmaxy"],
      pyCallbackFields 3 (fun i => (elasticFields 3)[i]?) n = some (some "sigmayz")) := by
  decide +kernel

/-- A shear stress is shown under no name in two dimensions. -/
theorem C53_python_backend_hides_sigmaxy (n : String) :
    pyCallbackFields 2 (fun i => (elasticFields 2)[i]?) n ≠ some (some (some "sigmaxy")) := by
  intro h
  have mem : ∀ (l : List (String × Option (Option String))) v, l.lookup n = some v →
      v ∈ l.map Prod.snd := by
    intro l v h
    induction l with
    | nil => simp at h
    | cons p l ih =>
      obtain ⟨a, b⟩ := p
      rw [List.lookup_cons] at h
      split at h
      · simp_all
      · exact List.mem_cons_of_mem _ (ih h)
  have hm := mem _ _ h
  revert hm
  decide +kernel

example : pyCallbackFields 2 id "vx" = some (some 9) ∧ isShear "m_sigmaxxx" = false ∧
    isShear "m_sigmaxyy" = true ∧ isShear "m_vyx" = true := by decide +kernel

/-! ## C54 for the Python backend -/

/-- The Python backend returns the final wavefields in the order in which it receives the initial
ones. -/
theorem C54_python_order {α : Type*} (nd : ℕ) (h1 : 1 ≤ nd) (h3 : nd ≤ 3) (values : ℕ → α) :
    pyFinalFields nd values = (List.range (elasticFields nd).length).map fun i => some (values i) := by
  interval_cases nd <;> rfl

example : (elasticFields 3).length = 27 := by decide +kernel

end Dw.Interface
