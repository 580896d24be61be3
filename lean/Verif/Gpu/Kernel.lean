import Verif.Core.Loop
import Verif.Scalar.Model
import Mathlib.Data.List.ProdSigma
import Mathlib.Data.List.FinRange
import Mathlib.Algebra.BigOperators.Group.Finset.Basic

/-!
# Kernel launches

The threads of one CUDA kernel launch, and the memory left by them.

* A kernel that updates one grid cell per thread (`forward_kernel`, `backward_kernel`,
  `combine_grad_v` of the `.cu` files) is executed as a fold over the cells its threads work on, in
  an arbitrary order.  One cell of one shot is an atomic step; a thread reads the arrays that it or
  another thread of the launch writes only at its own cell.
* `add_sources` (`scalar.cu` 145-156) uses a plain `+=`, so there each thread is two steps, a
  read and a write, which may be interleaved with those of the other threads.

The launch dimensions are natural numbers here: `n - 2 * FD_PAD` is not negative and fits in
`unsigned int`.  The hardware limits on the grid are not modelled.
-/

namespace Dw.Gpu

/-- `ceil_div` (`common_gpu.h` 21-23). -/
def ceilDiv (a b : ℕ) : ℕ := (a + b - 1) / b

/-- Values of `blockIdx * blockDim + threadIdx` in one direction for
`grid = ceil_div(n, block)`. -/
def launchIds (n block : ℕ) : List ℕ :=
  (List.range (ceilDiv n block)).flatMap fun b => (List.range block).map fun t => b * block + t

theorem le_ceilDiv_mul {n block : ℕ} (hb : 0 < block) : n ≤ ceilDiv n block * block := by
  unfold ceilDiv
  have h := Nat.div_add_mod (n + block - 1) block
  have h2 := Nat.mod_lt (n + block - 1) hb
  rw [Nat.mul_comm] at h
  omega

theorem mem_launchIds {n block : ℕ} {i : ℕ} (hi : i < n) (hb : 0 < block) :
    i ∈ launchIds n block := by
  simp only [launchIds, List.mem_flatMap, List.mem_map, List.mem_range]
  have h := le_ceilDiv_mul (n := n) hb
  refine ⟨i / block, ?_, i % block, Nat.mod_lt _ hb, ?_⟩
  · exact Nat.div_lt_of_lt_mul (by rw [Nat.mul_comm]; omega)
  · rw [Nat.mul_comm]; exact Nat.div_add_mod i block

theorem nodup_launchIds (n block : ℕ) : (launchIds n block).Nodup := by
  unfold launchIds
  rw [List.nodup_flatMap]
  refine ⟨fun b _ => List.nodup_range.map fun x y h => by simpa using h, ?_⟩
  refine List.nodup_range.imp ?_
  intro a b hab
  simp only [Function.onFun, List.disjoint_left, List.mem_map, List.mem_range, not_exists, not_and]
  rintro _ ⟨x, hx, rfl⟩ y hy h
  apply hab
  have e1 : (a * block + x) / block = a := by
    rw [Nat.add_comm, Nat.add_mul_div_right _ _ (by omega), Nat.div_eq_of_lt hx, Nat.zero_add]
  have e2 : (b * block + y) / block = b := by
    rw [Nat.add_comm, Nat.add_mul_div_right _ _ (by omega), Nat.div_eq_of_lt hy, Nat.zero_add]
  rw [← e1, ← e2, h]

/-- `dimBlock` by dimension of the grid (`scalar.cu` 522-540): `(32, 4, 1)` for `(x, y, z)`, and
`128` in one dimension.  Dimension `d - 1` of a cell is `x`. -/
def blockDim (d : ℕ) (k : Fin d) : ℕ :=
  if d = 1 then 128 else if (k : ℕ) + 1 = d then 32 else if (k : ℕ) + 2 = d then 4 else 1

theorem blockDim_pos (d : ℕ) (k : Fin d) : 0 < blockDim d k := by
  unfold blockDim; split_ifs <;> omega

/-- The cells of the threads that pass `x < nx - FD_PAD && y < ny - FD_PAD && ...`, with
`x = blockIdx.x * blockDim.x + threadIdx.x + FD_PAD` (`scalar.cu` 171-203, 205-243). -/
def cells {d : ℕ} (pad : ℕ) (n : Fin d → ℤ) : List (Cell d) :=
  (nest d fun k => (launchIds (n k - 2 * (pad : ℤ)).toNat (blockDim d k)).map
    fun i : ℕ => (i : ℤ) + pad).filter fun c => decide (∀ k, c k < n k - pad)

/-- The shots a launch works on: in three dimensions a loop over shots in the thread
(`scalar.cu` 226-227), otherwise the last direction of the grid, guarded by
`shot_idx < n_shots`. -/
def shots (d S : ℕ) : List (Fin S) :=
  if 3 ≤ d then List.finRange S
  else (launchIds S 1).filterMap fun s => if h : s < S then some ⟨s, h⟩ else none

theorem mem_cells {d : ℕ} {pad : ℕ} {n : Fin d → ℤ} {c : Cell d} :
    c ∈ cells pad n ↔ ∀ k, (pad : ℤ) ≤ c k ∧ c k < n k - pad := by
  simp only [cells, List.mem_filter, mem_nest, List.mem_map, decide_eq_true_eq]
  constructor
  · rintro ⟨h1, h2⟩ k
    obtain ⟨i, _, hi⟩ := h1 k
    have := h2 k
    omega
  · intro h
    refine ⟨fun k => ⟨(c k - pad).toNat, mem_launchIds ?_ (blockDim_pos d k), ?_⟩, fun k => (h k).2⟩
    · have := h k; omega
    · have := h k; omega

theorem nodup_cells {d : ℕ} (pad : ℕ) (n : Fin d → ℤ) : (cells pad n).Nodup := by
  refine List.Nodup.filter _ (nodup_nest d _ fun k => (nodup_launchIds _ _).map ?_)
  intro a b h
  simp only at h
  omega

theorem mem_shots {d S : ℕ} (s : Fin S) : s ∈ shots d S := by
  unfold shots
  split_ifs
  · exact List.mem_finRange s
  · rw [List.mem_filterMap]
    exact ⟨s, mem_launchIds s.2 one_pos, by simp⟩

theorem nodup_shots (d S : ℕ) : (shots d S).Nodup := by
  unfold shots
  split_ifs
  · exact List.nodup_finRange S
  · refine List.Nodup.filterMap ?_ (nodup_launchIds _ _)
    intro a b c ha hb
    simp only [Option.mem_def] at ha hb
    split_ifs at ha hb
    cases ha
    cases hb
    rfl

/-- The (shot, cell) pairs of a launch with one cell per thread. -/
def work (d S pad : ℕ) (n : Fin d → ℤ) : List (Fin S × Cell d) := (shots d S).product (cells pad n)

/-- Execution of such a launch: each thread replaces the elements at its cell. -/
def runKernel {S d : ℕ} {σ : Type*} (body : Fin S → Cell d → σ → σ) (order : List (Fin S × Cell d))
    (m : Fin S → Cell d → σ) : Fin S → Cell d → σ :=
  order.foldl (fun m e => Function.update m e.1
    (Function.update (m e.1) e.2 (body e.1 e.2 (m e.1 e.2)))) m

/-- The order in which the threads run does not matter. -/
theorem runKernel_eq {S d pad : ℕ} {n : Fin d → ℤ} {σ : Type*} (body : Fin S → Cell d → σ → σ)
    {order : List (Fin S × Cell d)} (h : order.Perm (work d S pad n)) (m : Fin S → Cell d → σ)
    (s : Fin S) (c : Cell d) :
    runKernel body order m s c =
      if ∀ k, (pad : ℤ) ≤ c k ∧ c k < n k - pad then body s c (m s c) else m s c := by
  have key : ∀ (l : List (Fin S × Cell d)) (m : Fin S → Cell d → σ), l.Nodup →
      runKernel body l m s c = if (s, c) ∈ l then body s c (m s c) else m s c := by
    intro l
    induction l with
    | nil => intro m _; simp [runKernel]
    | cons e l ih =>
        intro m hn
        rw [List.nodup_cons] at hn
        have := ih (Function.update m e.1
          (Function.update (m e.1) e.2 (body e.1 e.2 (m e.1 e.2)))) hn.2
        simp only [runKernel, List.foldl_cons] at this ⊢
        rw [this]
        obtain ⟨s', c'⟩ := e
        by_cases he : (s, c) = (s', c')
        · cases he
          simp [hn.1]
        · have e1 : (Function.update m s' (Function.update (m s') c' (body s' c' (m s' c')))) s c =
              m s c := by
            by_cases hs : s = s'
            · subst hs
              rw [Function.update_self, Function.update_of_ne]
              rintro rfl
              exact he rfl
            · rw [Function.update_of_ne hs]
          simp only [e1, List.mem_cons, he, false_or]
  have hn : order.Nodup := h.nodup_iff.mpr ((nodup_shots d S).product (nodup_cells pad n))
  rw [key order m hn]
  have : (s, c) ∈ order ↔ ∀ k, (pad : ℤ) ≤ c k ∧ c k < n k - pad := by
    rw [h.mem_iff, work, List.pair_mem_product]
    simp only [mem_shots, true_and, mem_cells]
  simp only [this]

/-! ### `add_sources` -/

/-- The two memory accesses of a thread executing `wf[...] += f[k]`. -/
inductive Access (ι : Type*)
  | read (i : ι)
  | write (i : ι)
  deriving DecidableEq

variable {ι X R : Type*} [DecidableEq ι] [DecidableEq X] [Add R]

/-- Whether the access is by thread `i`. -/
def Access.by (i : ι) : Access ι → Bool
  | .read j => j = i
  | .write j => j = i

/-- Effect of an access on the wavefield and the registers of the threads.  A negative index
(`none`) is skipped. -/
def Access.step (loc : ι → Option X) (amp : ι → R) (m : (X → R) × (ι → R)) :
    Access ι → (X → R) × (ι → R)
  | .read i => match loc i with
    | some x => (m.1, Function.update m.2 i (m.1 x))
    | none => m
  | .write i => match loc i with
    | some x => (Function.update m.1 x (m.2 i + amp i), m.2)
    | none => m

/-- Each thread reads, then writes, once. -/
def Interleaving (tr : List (Access ι)) : Prop :=
  ∀ i, tr.filter (Access.by i) = [.read i, .write i]

/-- Execution of `add_sources`; the initial content of the registers is `reg`. -/
def runAdd (loc : ι → Option X) (amp : ι → R) (reg : ι → R) (tr : List (Access ι)) (w : X → R) :
    X → R := (tr.foldl (Access.step loc amp) (w, reg)).1

omit [DecidableEq X] in
theorem Access.not_by {i j : ι} (h : i ≠ j) :
    Access.by i (.read j) = false ∧ Access.by i (.write j) = false := by
  simp [Access.by, Ne.symm h]

/-- If no two threads address the same element, every interleaving adds each amplitude once. -/
theorem runAdd_of_loc (loc : ι → Option X) (amp : ι → R) (reg : ι → R) {tr : List (Access ι)}
    (htr : Interleaving tr) (hinj : ∀ i j x, loc i = some x → loc j = some x → i = j) (w : X → R)
    {i : ι} {x : X} (hx : loc i = some x) : runAdd loc amp reg tr w x = w x + amp i := by
  let g : R × R → Access ι → R × R := fun p e => match e with
    | .read _ => (p.1, p.1)
    | .write _ => (p.2 + amp i, p.2)
  have key : ∀ (tr : List (Access ι)) (m : (X → R) × (ι → R)),
      ((tr.foldl (Access.step loc amp) m).1 x, (tr.foldl (Access.step loc amp) m).2 i) =
        (tr.filter (Access.by i)).foldl g (m.1 x, m.2 i) := by
    intro tr
    induction tr with
    | nil => intro m; rfl
    | cons e tr ih =>
        intro m
        rw [List.foldl_cons, ih, List.filter_cons]
        cases e with
        | read j =>
            by_cases hj : j = i
            · subst hj
              simp [Access.by, Access.step, hx, g]
            · simp only [Access.by, hj, decide_false, Bool.false_eq_true, if_false, Access.step]
              cases hl : loc j with
              | none => rfl
              | some y => simp [Function.update_of_ne (Ne.symm hj)]
        | write j =>
            by_cases hj : j = i
            · subst hj
              simp [Access.by, Access.step, hx, g]
            · simp only [Access.by, hj, decide_false, Bool.false_eq_true, if_false, Access.step]
              cases hl : loc j with
              | none => rfl
              | some y =>
                  have hy : x ≠ y := by
                    rintro rfl
                    exact hj (hinj j i x hl hx)
                  simp [Function.update_of_ne hy]
  have := congrArg Prod.fst (key tr (w, reg))
  rw [htr i] at this
  simpa [runAdd, g] using this

/-- Elements that no thread addresses are unchanged. -/
theorem runAdd_of_not_loc (loc : ι → Option X) (amp : ι → R) (reg : ι → R) (tr : List (Access ι))
    (w : X → R) {x : X} (hx : ∀ i, loc i ≠ some x) : runAdd loc amp reg tr w x = w x := by
  unfold runAdd
  have key : ∀ (tr : List (Access ι)) (m : (X → R) × (ι → R)),
      (tr.foldl (Access.step loc amp) m).1 x = m.1 x := by
    intro tr
    induction tr with
    | nil => intro m; rfl
    | cons e tr ih =>
        intro m
        rw [List.foldl_cons, ih]
        cases e with
        | read j =>
            simp only [Access.step]
            cases loc j <;> rfl
        | write j =>
            simp only [Access.step]
            cases hl : loc j with
            | none => rfl
            | some y =>
                have hy : x ≠ y := by
                  rintro rfl
                  exact hx j hl
                simp [Function.update_of_ne hy]
  exact key tr (w, reg)

end Dw.Gpu
