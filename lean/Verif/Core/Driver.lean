import Verif.Scalar.Model

/-!
# Chunked time loops over ping-pong buffers

All propagators share one structure: a C time loop that exchanges the roles of two sets of buffers
in odd iterations, called by a Python loop over chunks of steps (one chunk per callback) that
exchanges the buffers itself after a chunk with an odd number of internal steps.  `β` is the memory
the call works on, `swap` exchanges the roles, `step t` is iteration `t` for unswapped roles.
-/

namespace Dw.Driver

open Dw.Scalar (chunks bwdChunks)

variable {β ε : Type*}

/-- An iteration: in odd iterations the pointers are exchanged (`scalar_born.c` 324-375,
708-775; `acoustic.c` backward 838-867). -/
def pingPong (swap : β → β) (step : ℕ → β → β) (odd : Bool) (t : ℕ) (m : β) : β :=
  if odd then swap (step t (swap m)) else step t m

/-- `for (t = start_t; t < start_t + nt; ++t)`. -/
def callF (swap : β → β) (step : ℕ → β → β) (start nt : ℕ) (m : β) : β :=
  (List.range nt).foldl (fun m i => pingPong swap step (i % 2 == 1) (start + i) m) m

/-- A pass of the forward chunk loop (`scalar_born.py` 829-924, `acoustic.py` 948-1001): callback,
call, exchange after an odd number of internal steps. -/
def chunkF (swap : β → β) (step : ℕ → β → β) (ratio : ℕ) (view : ℕ → β → ε) (m : β × List ε)
    (chunk : ℕ × ℕ) : β × List ε :=
  let m' := callF swap step (chunk.1 * ratio) (chunk.2 * ratio) m.1
  (if (chunk.2 * ratio) % 2 ≠ 0 then swap m' else m', m.2 ++ [view chunk.1 m.1])

/-- The forward chunk loop over `N` outer steps with callback frequency `cf`. -/
def driveF (swap : β → β) (step : ℕ → β → β) (ratio : ℕ) (view : ℕ → β → ε) (N cf : ℕ) (m : β) :
    β × List ε :=
  (chunks N cf).foldl (chunkF swap step ratio view) (m, [])

/-- `for (t = start_t - 1; t >= start_t - nt; --t)`. -/
def callB (swap : β → β) (step : ℕ → β → β) (start nt : ℕ) (m : β) : β :=
  (List.range nt).foldl (fun m i => pingPong swap step (i % 2 == 1) (start - 1 - i) m) m

/-- A pass of the backward chunk loop (`scalar_born.py` 1187-1319, `acoustic.py` 1181-1245): call,
exchange after an odd number of internal steps, callback. -/
def chunkB (swap : β → β) (step : ℕ → β → β) (ratio : ℕ) (view : ℕ → β → ε) (m : β × List ε)
    (chunk : ℕ × ℕ) : β × List ε :=
  let m' := callB swap step (chunk.1 * ratio) (chunk.2 * ratio) m.1
  let m'' := if (chunk.2 * ratio) % 2 ≠ 0 then swap m' else m'
  (m'', m.2 ++ [view (chunk.1 - chunk.2) m''])

/-- The backward chunk loop over `N` outer steps with callback frequency `cf`. -/
def driveB (swap : β → β) (step : ℕ → β → β) (ratio : ℕ) (view : ℕ → β → ε) (N cf : ℕ) (m : β) :
    β × List ε :=
  (bwdChunks N cf).foldl (chunkB swap step ratio view) (m, [])

/-! ### What the loops compute -/

/-- Steps `0, 1, …, n-1`, exchanging the buffers after each. -/
def runF (swap : β → β) (step : ℕ → β → β) (m : β) : ℕ → β
  | 0 => m
  | n + 1 => swap (step n (runF swap step m n))

/-- Steps `T-1, T-2, …, T-n`, exchanging the buffers after each. -/
def runB (swap : β → β) (step : ℕ → β → β) (T : ℕ) (m : β) : ℕ → β
  | 0 => m
  | n + 1 => swap (step (T - 1 - n) (runB swap step T m n))

variable {swap : β → β} {step : ℕ → β → β} {ratio : ℕ} {view : ℕ → β → ε}

theorem odd_succ (n : ℕ) : ((n + 1) % 2 == 1) = !(n % 2 == 1) := by
  rcases Nat.mod_two_eq_zero_or_one n with h | h <;> simp [Nat.add_mod, h]

theorem callF_eq (hs : ∀ m, swap (swap m) = m) (m : β) (T n : ℕ) :
    callF swap step T n (runF swap step m T) =
      if n % 2 == 1 then swap (runF swap step m (T + n)) else runF swap step m (T + n) := by
  induction n with
  | zero => rfl
  | succ n ih =>
      rw [callF, List.range_succ, List.foldl_append, List.foldl_cons, List.foldl_nil]
      change pingPong swap step _ _ (callF swap step T n _) = _
      rw [ih, odd_succ]
      cases n % 2 == 1 <;> simp [pingPong, hs, runF]

theorem callB_eq (hs : ∀ m, swap (swap m) = m) (m : β) (T n₀ n : ℕ) :
    callB swap step (T - n₀) n (runB swap step T m n₀) =
      if n % 2 == 1 then swap (runB swap step T m (n₀ + n)) else runB swap step T m (n₀ + n) := by
  induction n with
  | zero => rfl
  | succ n ih =>
      rw [callB, List.range_succ, List.foldl_append, List.foldl_cons, List.foldl_nil]
      change pingPong swap step _ _ (callB swap step (T - n₀) n _) = _
      rw [ih, odd_succ, show T - n₀ - 1 - n = T - 1 - (n₀ + n) by omega]
      cases n % 2 == 1 <;> simp [pingPong, hs, runB]

theorem lt_of_chunk {N cf K : ℕ} (hcf : 0 < cf) (hK : K + 1 ≤ (N + cf - 1) / cf) : K * cf < N := by
  have h1 : (K + 1) * cf ≤ N + cf - 1 :=
    calc (K + 1) * cf ≤ (N + cf - 1) / cf * cf := Nat.mul_le_mul_right _ hK
      _ ≤ N + cf - 1 := Nat.div_mul_le_self _ _
  rw [Nat.add_mul, Nat.one_mul] at h1
  omega

theorem le_chunks {N cf : ℕ} (hcf : 0 < cf) : N ≤ (N + cf - 1) / cf * cf := by
  have h2 := Nat.div_add_mod (N + cf - 1) cf
  have h3 := Nat.mod_lt (N + cf - 1) hcf
  rw [Nat.mul_comm] at h2
  omega

/-- The forward driver makes `N * ratio` steps; the callback of chunk `i` sees the memory after
`i * cf * ratio` steps. -/
theorem driveF_eq (hs : ∀ m, swap (swap m) = m) (N cf : ℕ) (hcf : 0 < cf) (m : β) :
    driveF swap step ratio view N cf m = (runF swap step m (N * ratio),
      (List.range ((N + cf - 1) / cf)).map fun i => view (i * cf)
        (runF swap step m (i * cf * ratio))) := by
  have key : ∀ K, K ≤ (N + cf - 1) / cf →
      ((List.range K).map fun i => (i * cf, min (N - i * cf) cf)).foldl
        (chunkF swap step ratio view) (m, []) = (runF swap step m (min N (K * cf) * ratio),
        (List.range K).map fun i => view (i * cf) (runF swap step m (i * cf * ratio))) := by
    intro K
    induction K with
    | zero => intro _; simp [runF]
    | succ K ih =>
        intro hK
        have hlt := lt_of_chunk hcf hK
        rw [List.range_succ, List.map_append, List.foldl_append, List.map_append,
          ih (by omega), Nat.min_eq_right hlt.le]
        simp only [List.map_cons, List.map_nil, List.foldl_cons, List.foldl_nil, chunkF]
        rw [callF_eq hs, ← Nat.add_mul]
        have e : K * cf + min (N - K * cf) cf = min N ((K + 1) * cf) := by
          rw [Nat.add_mul, Nat.one_mul]; omega
        rw [e]
        congr 1
        rcases Nat.mod_two_eq_zero_or_one (min (N - K * cf) cf * ratio) with h | h <;> simp [h, hs]
  have := key _ le_rfl
  rw [Nat.min_eq_left (le_chunks hcf)] at this
  exact this

/-- The backward driver makes `N * ratio` steps; the callback of chunk `i` sees the memory after
`min N ((i+1) * cf) * ratio` of them. -/
theorem driveB_eq (hs : ∀ m, swap (swap m) = m) (N cf : ℕ) (hcf : 0 < cf) (m : β) :
    driveB swap step ratio view N cf m = (runB swap step (N * ratio) m (N * ratio),
      (List.range ((N + cf - 1) / cf)).map fun i => view (N - min N ((i + 1) * cf))
        (runB swap step (N * ratio) m (min N ((i + 1) * cf) * ratio))) := by
  have key : ∀ K, K ≤ (N + cf - 1) / cf →
      ((List.range K).map fun i => (N - i * cf, min (N - i * cf) cf)).foldl
        (chunkB swap step ratio view) (m, []) =
        (runB swap step (N * ratio) m (min N (K * cf) * ratio),
        (List.range K).map fun i => view (N - min N ((i + 1) * cf))
          (runB swap step (N * ratio) m (min N ((i + 1) * cf) * ratio))) := by
    intro K
    induction K with
    | zero => intro _; simp [runB]
    | succ K ih =>
        intro hK
        have hlt := lt_of_chunk hcf hK
        rw [List.range_succ, List.map_append, List.foldl_append, List.map_append,
          ih (by omega), Nat.min_eq_right hlt.le]
        simp only [List.map_cons, List.map_nil, List.foldl_cons, List.foldl_nil, chunkB]
        rw [Nat.sub_mul, callB_eq hs, ← Nat.add_mul]
        have e : K * cf + min (N - K * cf) cf = min N ((K + 1) * cf) := by
          rw [Nat.add_mul, Nat.one_mul]; omega
        have e' : N - K * cf - min (N - K * cf) cf = N - min N ((K + 1) * cf) := by
          rw [← e]; omega
        rw [e, e']
        rcases Nat.mod_two_eq_zero_or_one (min (N - K * cf) cf * ratio) with h | h <;> simp [h, hs]
  have := key _ le_rfl
  rw [Nat.min_eq_left (le_chunks hcf)] at this
  exact this

/-- Invariant rule for `runF`. -/
theorem runF_inv {P : ℕ → β → Prop} {m : β} (h0 : P 0 m)
    (h : ∀ n m, P n m → P (n + 1) (swap (step n m))) : ∀ n, P n (runF swap step m n)
  | 0 => h0
  | n + 1 => h n _ (runF_inv h0 h n)

/-- Invariant rule for `runB`. -/
theorem runB_inv {P : ℕ → β → Prop} {T : ℕ} {m : β} (h0 : P 0 m)
    (h : ∀ n m, n < T → P n m → P (n + 1) (swap (step (T - 1 - n) m))) :
    ∀ n, n ≤ T → P n (runB swap step T m n)
  | 0, _ => h0
  | n + 1, hn => h n _ hn (runB_inv h0 h n (by omega))

end Dw.Driver
