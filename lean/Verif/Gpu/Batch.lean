import Verif.Core.Batch
import Verif.Gpu.Scalar

/-!
# The drivers on a CUDA device, for any propagator

`gstep t` is one iteration of the time loop of a `.cu` file: the launches of the kernels that work on
all shots.  The pointers are exchanged by the host after each iteration (`std::swap`).
-/

namespace Dw.Gpu

open Dw.Batch

variable {S : ℕ} {M ε ι X R : Type*} [AddCommMonoid R]

/-- An iteration with the pointers exchanged or not. -/
def gPing (swap : M → M) (g : (Fin S → M) → Fin S → M) (sw : Bool) (m : Fin S → M) : Fin S → M :=
  let out := g fun s => if sw then swap (m s) else m s
  fun s => if sw then swap (out s) else out s

/-- The time loop of `forward` (`acoustic.cu` 930-1173, `elastic.cu` 2034-2315, `scalar_born.cu`
1044-1188). -/
def gFwdCall (swap : M → M) (gstep : ℕ → (Fin S → M) → Fin S → M) (start nt : ℕ) (m : Fin S → M) :
    Fin S → M :=
  ((List.range nt).foldl (fun x i => (!x.1, gPing swap (gstep (start + i)) x.1 x.2)) (false, m)).2

/-- A pass of the forward chunk loop. -/
def gFwdChunk (swap : M → M) (gstep : ℕ → (Fin S → M) → Fin S → M) (ratio : ℕ) (view : ℕ → M → ε)
    (m : (Fin S → M) × List (Fin S → ε)) (chunk : ℕ × ℕ) : (Fin S → M) × List (Fin S → ε) :=
  let m' := gFwdCall swap gstep (chunk.1 * ratio) (chunk.2 * ratio) m.1
  (if (chunk.2 * ratio) % 2 ≠ 0 then fun s => swap (m' s) else m',
    m.2 ++ [fun s => view chunk.1 (m.1 s)])

/-- The forward pass on a CUDA device. -/
def gFwdPass (swap : M → M) (gstep : ℕ → (Fin S → M) → Fin S → M) (ratio : ℕ) (view : ℕ → M → ε)
    (nt cf : ℕ) (x : Fin S → M) : (Fin S → M) × List (Fin S → ε) :=
  if 0 < S ∧ 0 < nt then
    (Scalar.chunks (nt / ratio) cf).foldl (gFwdChunk swap gstep ratio view) (x, [])
  else (x, [])

section Backward

variable (L : Slots M ι X R) (F : Flags ι X)

/-- The memory after the kernels have changed the arrays of all shots to `x`: the threads of shot `s`
add to block `s` of `grad_*_shot`, which is `grad_*_tmp` or the gradient itself. -/
def gStore (m : Mem S M ι X R) (x : Fin S → M) : Mem S M ι X R where
  shots := x
  grad := fun a => if F.useTmp S a then m.grad a
    else fun β => if h : β < S then L.get (x ⟨β, h⟩) a else m.grad a β
  tmp := fun a => if F.useTmp S a then fun β => if h : β < S then L.get (x ⟨β, h⟩) a else m.tmp a β
    else m.tmp a

/-- What the kernels work on. -/
def gLoad (m : Mem S M ι X R) (s : Fin S) : M :=
  L.set (fun a => (if F.useTmp S a then m.tmp a else m.grad a) s) (m.shots s)

/-- Execution of `combine_grad` (`acoustic.cu` 151-177, `elastic.cu` 596-619, `scalar_born.cu` 314-345): one thread for each element of `order`, adding up the blocks of all shots. -/
def runCombine [DecidableEq X] (order : List X) (tmp : ℕ → X → R) (g : X → R) : X → R :=
  order.foldl (fun g x => Function.update g x
    ((List.range S).foldl (fun y s => y + tmp s x) (g x))) g

/-- The launches of `combine_grad` at the end of `backward`, for the gradients that are required, not
batched and of several shots. -/
def gCombine [DecidableEq X] (comb : ι → List X) (m : Mem S M ι X R) : Mem S M ι X R :=
  { m with grad := fun a => if F.useTmp S a then
      Function.update (m.grad a) 0 (runCombine (S := S) (comb a) (m.tmp a) (m.grad a 0))
    else m.grad a }

/-- `backward` of the `.cu` files (`acoustic.cu` 1440-1740, `elastic.cu` 2666-3058, `scalar_born.cu`
1482-1647 and 1868-1972). -/
def gBwdCall [DecidableEq X] (swap : M → M) (gstep : ℕ → (Fin S → M) → Fin S → M)
    (comb : ι → List X) (start nt : ℕ) (m : Mem S M ι X R) : Mem S M ι X R :=
  gCombine F comb ((List.range nt).foldl (fun x i =>
    (!x.1, gStore L F x.2 (gPing swap (gstep (start - 1 - i)) x.1 (gLoad L F x.2)))) (false, m)).2

/-- A pass of the backward chunk loop. -/
def gBwdChunk [DecidableEq X] (swap : M → M) (gstep : ℕ → (Fin S → M) → Fin S → M) (ratio : ℕ)
    (view : ℕ → Mem S M ι X R → ε) (comb : ℕ → ι → List X) (m : Mem S M ι X R × List ε)
    (chunk : ℕ × ℕ) : Mem S M ι X R × List ε :=
  let m' := gBwdCall L F swap gstep (comb chunk.1) (chunk.1 * ratio) (chunk.2 * ratio) m.1
  let m'' := if (chunk.2 * ratio) % 2 ≠ 0 then { m' with shots := fun s => swap (m'.shots s) } else m'
  (m'', m.2 ++ [view (chunk.1 - chunk.2) m''])

/-- The backward pass on a CUDA device. -/
def gBwdPass [DecidableEq X] (swap : M → M) (gstep : ℕ → (Fin S → M) → Fin S → M) (ratio : ℕ)
    (view : ℕ → Mem S M ι X R → ε) (comb : ℕ → ι → List X) (nt cf : ℕ) (x : Fin S → M) :
    Mem S M ι X R × List ε :=
  if 0 < S ∧ 0 < nt then
    (Scalar.bwdChunks (nt / ratio) cf).foldl (gBwdChunk L F swap gstep ratio view comb)
      (⟨x, fun _ _ _ => 0, fun _ _ _ => 0⟩, [])
  else (⟨x, fun _ _ _ => 0, fun _ _ _ => 0⟩, [])

end Backward

/-! ### Equality with the CPU drivers -/

/-- All shots in lockstep, one thread for each. -/
def lockStep (S n : ℕ) : Exec S S :=
  ⟨id, (List.range n).flatMap fun i => (List.finRange S).map fun s => (s, i)⟩

theorem lockStep_valid (S n : ℕ) : (lockStep S n).Valid n := by
  have := lockSched_valid S (List.range n)
  intro s
  exact this s

/-- Lockstep executions of all calls. -/
def lockSteps (S ratio N cf : ℕ) : ℕ → Exec S S := fun step =>
  lockStep S (min (N - step) cf * ratio)

def lockStepsB (S ratio cf : ℕ) : ℕ → Exec S S := fun step => lockStep S (min step cf * ratio)

theorem lockSteps_fwd (S ratio N cf : ℕ) : FwdExecs ratio N cf (lockSteps S ratio N cf) := by
  intro chunk hc
  have h2 : chunk.2 = min (N - chunk.1) cf := by
    simp only [Scalar.chunks, List.mem_map] at hc
    obtain ⟨i, _, rfl⟩ := hc
    rfl
  rw [h2]
  exact lockStep_valid S _

theorem lockSteps_bwd (S ratio N cf : ℕ) : BwdExecs ratio N cf (lockStepsB S ratio cf) := by
  intro chunk hc
  have h2 : chunk.2 = min chunk.1 cf := by
    simp only [Scalar.bwdChunks, List.mem_map] at hc
    obtain ⟨i, _, rfl⟩ := hc
    rfl
  rw [h2]
  exact lockStep_valid S _

variable {swap : M → M} {gstep : ℕ → (Fin S → M) → Fin S → M} {step : Fin S → ℕ → M → M}
  {ratio : ℕ}

theorem gPing_eq (h : ∀ t m s, gstep t m s = step s t (m s)) (sw : Bool) (t : ℕ) (m : Fin S → M)
    (s : Fin S) : gPing swap (gstep t) sw m s = Driver.pingPong swap (step s) sw t (m s) := by
  cases sw <;> simp [gPing, Driver.pingPong, h]

theorem gFwdCall_eq (h : ∀ t m s, gstep t m s = step s t (m s)) (start nt : ℕ) (m : Fin S → M)
    (s : Fin S) : gFwdCall swap gstep start nt m s =
      Driver.callF swap (step s) start nt (m s) := by
  have key : (List.range nt).foldl (fun (x : Bool × (Fin S → M)) i =>
      (!x.1, gPing swap (gstep (start + i)) x.1 x.2)) (false, m) =
      (nt % 2 == 1, fun s => Driver.callF swap (step s) start nt (m s)) := by
    induction nt with
    | zero => rfl
    | succ n ih =>
        rw [List.range_succ, List.foldl_append, ih]
        simp only [List.foldl_cons, List.foldl_nil]
        congr 1
        · rcases Nat.mod_two_eq_zero_or_one n with h | h <;> simp [Nat.add_mod, h]
        · funext s
          rw [gPing_eq h]
          simp [Driver.callF, List.range_succ]
  rw [gFwdCall, key]

theorem gFwdPass_eq (h : ∀ t m s, gstep t m s = step s t (m s)) (view : ℕ → M → ε) (nt cf : ℕ)
    (x : Fin S → M) : gFwdPass swap gstep ratio view nt cf x =
      fwdPass swap step ratio view (lockSteps S ratio (nt / ratio) cf) nt cf x := by
  have hσ := lockSteps_fwd S ratio (nt / ratio) cf
  have hc : ∀ (l : List (ℕ × ℕ)), (∀ chunk ∈ l,
      (lockSteps S ratio (nt / ratio) cf chunk.1).Valid (chunk.2 * ratio)) → ∀ m,
      l.foldl (gFwdChunk swap gstep ratio view) m =
        l.foldl (fwdChunk swap step ratio view (lockSteps S ratio (nt / ratio) cf)) m := by
    intro l
    induction l with
    | nil => intro _ m; rfl
    | cons c l ih =>
        intro hl m
        rw [List.foldl_cons, List.foldl_cons, ih fun x hx => hl x (List.mem_cons_of_mem _ hx)]
        congr 1
        have e : gFwdCall swap gstep (c.1 * ratio) (c.2 * ratio) m.1 =
            fwdCall swap step (c.1 * ratio) (lockSteps S ratio (nt / ratio) cf c.1) m.1 := by
          funext s
          rw [gFwdCall_eq h, fwdCall_apply step _ _ _ (hl c List.mem_cons_self)]
        simp only [gFwdChunk, fwdChunk, e]
  unfold gFwdPass fwdPass drive
  rw [hc _ hσ]

section

variable {L : Slots M ι X R} {F : Flags ι X}

theorem block_id (F : Flags ι X) (a : ι) (s : Fin S) : F.block (id : Fin S → Fin S) a s = s := by
  simp [Flags.block]

omit [AddCommMonoid R] in
/-- The stores of the shots, one after the other. -/
theorem foldl_store (f : Fin S → M → M) (m : Mem S M ι X R) (l : List (Fin S)) (hl : l.Nodup) :
    let m' := l.foldl (fun m s => store L F id m s (f s (load L F id m s))) m
    (∀ s, m'.shots s = if s ∈ l then f s (gLoad L F m s) else m.shots s) ∧
    (∀ a β, m'.buf F S a β = if h : β < S then
      (if (⟨β, h⟩ : Fin S) ∈ l then L.get (f ⟨β, h⟩ (gLoad L F m ⟨β, h⟩)) a else m.buf F S a β)
      else m.buf F S a β) ∧
    ∀ a, if F.useTmp S a then m'.grad a = m.grad a else m'.tmp a = m.tmp a := by
  induction l generalizing m with
  | nil =>
      refine ⟨fun s => by simp, fun a β => by simp, fun a => ?_⟩
      split_ifs <;> rfl
  | cons s₀ l ih =>
      rw [List.nodup_cons] at hl
      have e0 : load L F id m s₀ = gLoad L F m s₀ := by
        simp only [load, gLoad, block_id]
      set m1 := store L F id m s₀ (f s₀ (load L F id m s₀)) with hm1
      obtain ⟨h1, h2, h3⟩ := ih m1 hl.2
      have b1 : ∀ a β, m1.buf F S a β = if β = s₀ then L.get (f s₀ (gLoad L F m s₀)) a
          else m.buf F S a β := by
        intro a β
        simp only [hm1, store, Mem.buf, block_id, e0]
        by_cases hu : F.useTmp S a = true
        · simp only [hu, if_true, Function.update_apply]
        · simp only [hu, if_false, Function.update_apply, Bool.false_eq_true]
      have l1 : ∀ s, s ≠ s₀ → gLoad L F m1 s = gLoad L F m s := by
        intro s hs
        have hv : (s : ℕ) ≠ s₀ := fun h => hs (Fin.ext h)
        have e1 : m1.shots s = m.shots s := by simp [hm1, store, Function.update_of_ne hs]
        unfold gLoad
        rw [e1]
        congr 1
        funext a
        have := b1 a s
        rw [if_neg hv] at this
        exact this
      refine ⟨fun s => ?_, fun a β => ?_, fun a => ?_⟩
      · rw [List.foldl_cons, h1 s]
        by_cases hs : s = s₀
        · subst hs
          simp only [hl.1, if_false, List.mem_cons, true_or, if_true, hm1, store,
            Function.update_self, e0]
        · have e1 : m1.shots s = m.shots s := by simp [hm1, store, Function.update_of_ne hs]
          simp only [List.mem_cons, hs, false_or, l1 s hs, e1]
      · rw [List.foldl_cons, h2 a β]
        by_cases hβ : β < S
        · simp only [hβ, dif_pos]
          by_cases hs : (⟨β, hβ⟩ : Fin S) = s₀
          · subst hs
            simp only [hl.1, if_false, List.mem_cons, true_or, if_true, b1]
          · have hs' : β ≠ (s₀ : ℕ) := fun h => hs (Fin.ext h)
            simp only [List.mem_cons, hs, false_or, l1 _ hs, b1, hs', if_false]
        · have hs' : β ≠ (s₀ : ℕ) := by have := s₀.2; omega
          simp only [hβ, dif_neg, not_false_eq_true, b1, hs', if_false]
      · rw [List.foldl_cons]
        have h3a := h3 a
        have : if F.useTmp S a then m1.grad a = m.grad a else m1.tmp a = m.tmp a := by
          simp only [hm1, store]
          split_ifs <;> rfl
        split_ifs at h3a this ⊢ with h
        · exact h3a.trans this
        · exact h3a.trans this

omit [AddCommMonoid R] in
theorem gStore_eq (f : Fin S → M → M) (m : Mem S M ι X R) :
    gStore L F m (fun s => f s (gLoad L F m s)) =
      (List.finRange S).foldl (fun m s => store L F id m s (f s (load L F id m s))) m := by
  obtain ⟨h1, h2, h3⟩ := foldl_store (L := L) (F := F) f m (List.finRange S) (List.nodup_finRange S)
  generalize (List.finRange S).foldl (fun m s => store L F id m s (f s (load L F id m s))) m = m' at *
  simp only [List.mem_finRange, if_true] at h1 h2
  obtain ⟨sh, gr, tm⟩ := m'
  simp only [Mem.buf] at h1 h2 h3
  simp only [gStore]
  congr 1
  · funext s; exact (h1 s).symm
  · funext a
    have h3a := h3 a
    by_cases hu : F.useTmp S a = true
    · simp only [hu, if_true] at h3a ⊢
      exact h3a.symm
    · simp only [hu, Bool.false_eq_true, if_false] at h3a ⊢
      funext β
      have := h2 a β
      simp only [hu, Bool.false_eq_true, if_false] at this
      exact this.symm
  · funext a
    have h3a := h3 a
    by_cases hu : F.useTmp S a = true
    · simp only [hu, if_true] at h3a ⊢
      funext β
      have := h2 a β
      simp only [hu, if_true] at this
      exact this.symm
    · simp only [hu, Bool.false_eq_true, if_false] at h3a ⊢
      exact h3a.symm

omit [AddCommMonoid R] in
/-- The loop over the time steps is that of the CPU with the shots in lockstep. -/
theorem foldl_gBwd (h : ∀ t m s, gstep t m s = step s t (m s)) (start nt : ℕ)
    (m : Mem S M ι X R) :
    (List.range nt).foldl (fun (x : Bool × Mem S M ι X R) i =>
      (!x.1, gStore L F x.2 (gPing swap (gstep (start - 1 - i)) x.1 (gLoad L F x.2)))) (false, m) =
      (nt % 2 == 1, (lockStep S nt).order.foldl (bwdIter L F swap step start id) m) := by
  induction nt with
  | zero => rfl
  | succ n ih =>
      rw [List.range_succ, List.foldl_append, ih]
      simp only [List.foldl_cons, List.foldl_nil, lockStep, List.range_succ, List.flatMap_append,
        List.foldl_append, List.flatMap_cons, List.flatMap_nil, List.append_nil]
      congr 1
      · rcases Nat.mod_two_eq_zero_or_one n with h | h <;> simp [Nat.add_mod, h]
      · have e : ∀ m : Mem S M ι X R, gPing swap (gstep (start - 1 - n)) (n % 2 == 1) (gLoad L F m) =
            fun s => Driver.pingPong swap (step s) (n % 2 == 1) (start - 1 - n) (gLoad L F m s) :=
          fun m => funext fun s => gPing_eq h _ _ _ _
        rw [e, gStore_eq, List.foldl_map]
        rfl

/-- The buffers are zero outside `inner`. -/
def TmpZero (inner : X → Prop) (F : Flags ι X) (m : Mem S M ι X R) : Prop :=
  ∀ a β x, F.useTmp S a = true → ¬inner x → m.tmp a β x = 0

theorem TmpZero.next {inner : X → Prop}
    (h : ∀ t m s, gstep t m s = step s t (m s)) (hs : Keeps L swap)
    (hstep : ∀ s t, Adds L F (step s t))
    (hout : ∀ s t m a x, ¬inner x → L.get (step s t (L.set 0 m)) a x = 0) (t : ℕ) (sw : Bool)
    {m : Mem S M ι X R} (hm : TmpZero inner F m) :
    TmpZero inner F (gStore L F m (gPing swap (gstep t) sw (gLoad L F m))) := by
  intro a β x ha hx
  simp only [gStore, ha, if_true]
  split_ifs with hβ
  · rw [gPing_eq h]
    have hp := (Adds.pingPong hs sw t (hstep ⟨β, hβ⟩ t)).eq (gLoad L F m ⟨β, hβ⟩)
    rw [hp.2]
    have e1 : L.get (gLoad L F m ⟨β, hβ⟩) a x = 0 := by
      rw [gLoad, L.get_set, ha, if_pos rfl]
      exact hm a β x ha hx
    rw [e1, zero_add]
    cases sw
    · exact hout _ _ _ _ _ hx
    · simp only [Driver.pingPong, if_true, hs.get, ← hs.set]
      exact hout _ _ _ _ _ hx
  · exact hm a β x ha hx

variable [DecidableEq X]

theorem runCombine_eq {order : List X} (hn : order.Nodup) (tmp : ℕ → X → R) (g : X → R) (x : X) :
    runCombine (S := S) order tmp g x =
      if x ∈ order then (List.range S).foldl (fun y s => y + tmp s x) (g x) else g x := by
  unfold runCombine
  induction order generalizing g with
  | nil => simp
  | cons y l ih =>
      rw [List.nodup_cons] at hn
      rw [List.foldl_cons, ih hn.2]
      by_cases hy : x = y
      · subst hy
        simp [hn.1]
      · simp [hy]

/-- `combine_grad` is launched for all elements of `inner`, and for each element at most once. -/
structure Covers (inner : X → Prop) (order : List X) : Prop where
  nodup : order.Nodup
  mem : ∀ x, inner x → x ∈ order

theorem gCombine_eq {inner : X → Prop} {comb : ι → List X} (hc : ∀ a, Covers inner (comb a))
    (hF : ∀ x, inner x → F.combined x = true) {m : Mem S M ι X R} (hm : TmpZero inner F m) :
    gCombine F comb m = combine F S m := by
  unfold gCombine combine
  congr 1
  funext a
  split_ifs with hu
  · congr 1
    funext x
    rw [runCombine_eq (hc a).nodup]
    by_cases hx : inner x
    · rw [if_pos ((hc a).mem x hx), if_pos (hF x hx)]
    · have hs : (List.range S).foldl (fun y s => y + m.tmp a s x) (m.grad a 0 x) = m.grad a 0 x := by
        rw [foldl_add]
        have : ((List.range S).map fun θ => m.tmp a θ x).sum = 0 := by
          refine List.sum_eq_zero ?_
          intro y hy
          obtain ⟨θ, _, rfl⟩ := List.mem_map.1 hy
          exact hm a θ x hu hx
        rw [this, add_zero]
      rw [hs, ite_self, ite_self]
  · rfl

theorem gBwdCall_eq {inner : X → Prop} {comb : ι → List X} (hc : ∀ a, Covers inner (comb a))
    (hF : ∀ x, inner x → F.combined x = true)
    (h : ∀ t m s, gstep t m s = step s t (m s)) (hs : Keeps L swap)
    (hstep : ∀ s t, Adds L F (step s t))
    (hout : ∀ s t m a x, ¬inner x → L.get (step s t (L.set 0 m)) a x = 0) (start nt : ℕ)
    {m : Mem S M ι X R} (hm : TmpZero inner F m) :
    gBwdCall L F swap gstep comb start nt m =
        bwdCall L F swap step start (lockStep S nt) m ∧
      TmpZero inner F (gBwdCall L F swap gstep comb start nt m) := by
  have hz : TmpZero inner F ((List.range nt).foldl (fun (x : Bool × Mem S M ι X R) i =>
      (!x.1, gStore L F x.2 (gPing swap (gstep (start - 1 - i)) x.1 (gLoad L F x.2))))
      (false, m)).2 := by
    induction nt with
    | zero => exact hm
    | succ n ih =>
        rw [List.range_succ, List.foldl_append]
        exact TmpZero.next h hs hstep hout _ _ ih
  refine ⟨?_, hz⟩
  rw [gBwdCall, gCombine_eq hc hF hz, foldl_gBwd h]
  rfl

/-- The backward pass on the GPU is that on the CPU with a thread for each shot, all in lockstep. -/
theorem gBwdPass_eq {inner : X → Prop} {comb : ℕ → ι → List X}
    (hc : ∀ n a, Covers inner (comb n a)) (hF : ∀ x, inner x → F.combined x = true)
    (h : ∀ t m s, gstep t m s = step s t (m s)) (hs : Keeps L swap)
    (hstep : ∀ s t, Adds L F (step s t))
    (hout : ∀ s t m a x, ¬inner x → L.get (step s t (L.set 0 m)) a x = 0)
    (view : ℕ → Mem S M ι X R → ε) (nt cf : ℕ) (x : Fin S → M) :
    gBwdPass L F swap gstep ratio view comb nt cf x =
      bwdPass L F swap step ratio view (lockStepsB S ratio cf) nt cf x := by
  have key : ∀ (l : List (ℕ × ℕ)), (∀ chunk ∈ l, chunk.2 = min chunk.1 cf) → ∀ m,
      TmpZero inner F m.1 →
      l.foldl (gBwdChunk L F swap gstep ratio view comb) m =
        l.foldl (bwdChunk L F swap step ratio view (lockStepsB S ratio cf)) m := by
    intro l
    induction l with
    | nil => intro _ m _; rfl
    | cons c l ih =>
        intro hl m hm
        have hc2 := hl c List.mem_cons_self
        obtain ⟨e, hz⟩ := gBwdCall_eq (hc c.1) hF h hs hstep hout (c.1 * ratio) (c.2 * ratio) hm
        have hch : gBwdChunk L F swap gstep ratio view comb m c =
            bwdChunk L F swap step ratio view (lockStepsB S ratio cf) m c := by
          simp only [gBwdChunk, bwdChunk, e, lockStepsB, ← hc2]
        have hz' : TmpZero inner F (gBwdChunk L F swap gstep ratio view comb m c).1 := by
          simp only [gBwdChunk]
          split_ifs
          · exact hz
          · exact hz
        rw [List.foldl_cons, List.foldl_cons, ih (fun x hx => hl x (List.mem_cons_of_mem _ hx)) _ hz',
          hch]
  have hch : ∀ chunk ∈ Scalar.bwdChunks (nt / ratio) cf, chunk.2 = min chunk.1 cf := by
    intro chunk hm
    simp only [Scalar.bwdChunks, List.mem_map] at hm
    obtain ⟨i, _, rfl⟩ := hm
    rfl
  unfold gBwdPass bwdPass Batch.driveB
  rw [key _ hch _ fun _ _ _ _ _ => rfl]

end

end Dw.Gpu
