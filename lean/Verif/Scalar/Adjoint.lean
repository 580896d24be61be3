import Verif.Scalar.Backward
import Verif.Scalar.Linear
import Mathlib.Tactic.LinearCombination

/-!
# The backward recursion is the transpose of the forward recursion
-/

namespace Dw.Scalar

variable {d ns nr : ℕ} {R : Type*} [Field R] {C : Cfg d ns nr R}

/-- Pairing of a forward state with an adjoint state (whose `p` is stored negated). -/
def Cfg.pair (C : Cfg d ns nr R) (s l : St d R) : R :=
  dot C.S s.u l.u - dot C.S s.p l.p + ∑ k, dot C.S (s.psi k) (l.psi k)
    + ∑ k, dot C.S (s.zeta k) (l.zeta k)

theorem supp_of {u : Fld d R} (h : ∀ c, ¬C.Inner c → u c = 0) : SuppIn C.S u :=
  fun c hc => h c fun hi => hc (Cfg.mem_S.2 hi)

theorem dot_congr_left {S : Finset (Cell d)} {x x' y : Fld d R} (h : ∀ c ∈ S, x c = x' c) :
    dot S x y = dot S x' y := Finset.sum_congr rfl fun c hc => by rw [h c hc]

theorem dot_congr_right {S : Finset (Cell d)} {x y y' : Fld d R} (h : ∀ c ∈ S, y c = y' c) :
    dot S x y = dot S x y' := Finset.sum_congr rfl fun c hc => by rw [h c hc]

theorem dot_neg_right (S : Finset (Cell d)) (x y : Fld d R) :
    dot S x (fun c => -y c) = -dot S x y := by
  simp [dot]

theorem dot_sum_left (S : Finset (Cell d)) (x : Fin d → Fld d R) (y : Fld d R) :
    dot S (fun c => ∑ k, x k c) y = ∑ k, dot S (x k) y := by
  simp only [dot, Finset.sum_mul]
  exact Finset.sum_comm

theorem dot_sum_right (S : Finset (Cell d)) (x : Fld d R) (y : Fin d → Fld d R) :
    dot S x (fun c => ∑ k, y k c) = ∑ k, dot S x (y k) := by
  simp only [dot, Finset.mul_sum]
  exact Finset.sum_comm

theorem Cfg.D1_add (k : Fin d) (u w : Fld d R) (c : Cell d) :
    C.D1 k (fun c => u c + w c) c = C.D1 k u c + C.D1 k w c := by
  have := C.D1_comb k 1 1 u w c
  simpa using this

/-- One step. -/
theorem Cfg.pair_step {s l : St d R} (hs : C.Good s) (hl : C.Good l) :
    C.pair (C.refStep s) l = C.pair s (C.bStep l) := by
  have su := supp_of hs.u
  have sl := supp_of hl.u
  have spsi : ∀ k, SuppIn C.S fun c => C.a k (c k) * s.psi k c := fun k =>
    (supp_of (hs.psi k)).mul_left fun c => C.a k (c k)
  have sT : ∀ k, SuppIn C.S (C.bT l k) := by
    intro k c hc
    have h1 := sl c hc
    have h2 := supp_of (hl.zeta k) c hc
    simp [Cfg.bT, h1, h2]
  have sbpsi : ∀ k, SuppIn C.S fun c => C.b k (c k) * l.psi k c := fun k =>
    (supp_of (hl.psi k)).mul_left fun c => C.b k (c k)
  have sdT : ∀ k, SuppIn C.S fun c => C.db k (c k) * C.bT l k c := fun k =>
    (sT k).mul_left fun c => C.db k (c k)
  have sbT : ∀ k, SuppIn C.S fun c => (1 + C.b k (c k)) * C.bT l k c := fun k =>
    (sT k).mul_left fun c => 1 + C.b k (c k)
  -- left side
  have hu : dot C.S (C.refStep s).u l.u =
      ∑ k, (dot C.S (C.tmp s k) (fun c => (1 + C.b k (c k)) * (C.V c * l.u c))
        + dot C.S (s.zeta k) (fun c => C.a k (c k) * (C.V c * l.u c)))
      + 2 * dot C.S s.u l.u - dot C.S s.p l.u := by
    have : dot C.S (C.refStep s).u l.u =
        dot C.S (fun c => (∑ k, C.V c * ((1 + C.b k (c k)) * C.tmp s k c + C.a k (c k) * s.zeta k c))
          + 2 * s.u c - s.p c) l.u := by
      refine dot_congr_left fun c hc => ?_
      rw [Cfg.mem_S] at hc
      simp only [Cfg.refStep, hc, if_true, Cfg.lap, Cfg.V, Finset.mul_sum]
    rw [this, dot_sub_left, dot_add_left, dot_sum_left, dot_smul_left]
    congr 2
    refine Finset.sum_congr rfl fun k _ => ?_
    simp only [dot, ← Finset.sum_add_distrib]
    exact Finset.sum_congr rfl fun c _ => by ring
  have hpsi : ∀ k, dot C.S ((C.refStep s).psi k) (l.psi k) =
      dot C.S (C.D1 k s.u) (fun c => C.b k (c k) * l.psi k c)
        + dot C.S (s.psi k) (fun c => C.a k (c k) * l.psi k c) := by
    intro k
    rw [← dot_mul_assoc, ← dot_mul_assoc, ← dot_add_left]
    refine dot_congr_left fun c hc => ?_
    rw [Cfg.mem_S] at hc
    simp only [Cfg.refStep, hc, if_true]
  have hzeta : ∀ k, dot C.S ((C.refStep s).zeta k) (l.zeta k) =
      dot C.S (C.tmp s k) (fun c => C.b k (c k) * l.zeta k c)
        + dot C.S (s.zeta k) (fun c => C.a k (c k) * l.zeta k c) := by
    intro k
    rw [← dot_mul_assoc, ← dot_mul_assoc, ← dot_add_left]
    refine dot_congr_left fun c hc => ?_
    rw [Cfg.mem_S] at hc
    simp only [Cfg.refStep, hc, if_true]
  -- the inner term
  have htmp : ∀ k, dot C.S (C.tmp s k) (C.bT l k) =
      dot C.S s.u (C.D2 k fun c => (1 + C.b k (c k)) * C.bT l k c)
        - dot C.S s.u (C.D1 k fun c => C.db k (c k) * C.bT l k c)
        - dot C.S (s.psi k) (fun c => C.a k (c k) * C.D1 k (C.bT l k) c) := by
    intro k
    have e : dot C.S (C.tmp s k) (C.bT l k) =
        dot C.S (C.D2 k s.u) (fun c => (1 + C.b k (c k)) * C.bT l k c)
          + dot C.S (C.D1 k s.u) (fun c => C.db k (c k) * C.bT l k c)
          + dot C.S (C.D1 k fun c => C.a k (c k) * s.psi k c) (C.bT l k) := by
      simp only [dot, ← Finset.sum_add_distrib]
      exact Finset.sum_congr rfl fun c _ => by simp only [Cfg.tmp]; ring
    rw [e]
    simp only [Cfg.D1, Cfg.D2]
    rw [dot_D2 su (sbT k), dot_D1 su (sdT k), dot_D1 (spsi k) (sT k), dot_mul_assoc]
    ring
  have hbpsi : ∀ k, dot C.S (C.D1 k s.u) (fun c => C.b k (c k) * l.psi k c) =
      -dot C.S s.u (C.D1 k fun c => C.b k (c k) * l.psi k c) := fun k => dot_D1 su (sbpsi k) _ _ _
  -- right side
  have ru : dot C.S s.u (C.bStep l).u =
      ∑ k, (-dot C.S s.u (C.D1 k fun c => C.db k (c k) * C.bT l k c)
        - dot C.S s.u (C.D1 k fun c => C.b k (c k) * l.psi k c)
        + dot C.S s.u (C.D2 k fun c => (1 + C.b k (c k)) * C.bT l k c))
      + 2 * dot C.S s.u l.u - dot C.S s.u l.p := by
    have : dot C.S s.u (C.bStep l).u = dot C.S s.u (fun c => (∑ k, (
        (-C.D1 k (fun c => C.db k (c k) * C.bT l k c) c - C.D1 k (fun c => C.b k (c k) * l.psi k c) c)
          + C.D2 k (fun c => (1 + C.b k (c k)) * C.bT l k c) c)) + 2 * l.u c - l.p c) := by
      refine dot_congr_right fun c hc => ?_
      rw [Cfg.mem_S] at hc
      simp only [Cfg.bStep, hc, if_true, Cfg.bLap, C.D1_add, neg_add']
    rw [this, dot_sub_right, dot_add_right, dot_sum_right, dot_smul_right]
    congr 2
    refine Finset.sum_congr rfl fun k _ => ?_
    rw [dot_add_right, dot_sub_right, dot_neg_right]
  have rpsi : ∀ k, dot C.S (s.psi k) ((C.bStep l).psi k) =
      -dot C.S (s.psi k) (fun c => C.a k (c k) * C.D1 k (C.bT l k) c)
        + dot C.S (s.psi k) (fun c => C.a k (c k) * l.psi k c) := by
    intro k
    rw [← dot_neg_right, ← dot_add_right]
    refine dot_congr_right fun c hc => ?_
    rw [Cfg.mem_S] at hc
    simp only [Cfg.bStep, hc, if_true]
    ring
  have rzeta : ∀ k, dot C.S (s.zeta k) ((C.bStep l).zeta k) =
      dot C.S (s.zeta k) (fun c => C.a k (c k) * (C.V c * l.u c))
        + dot C.S (s.zeta k) (fun c => C.a k (c k) * l.zeta k c) := by
    intro k
    rw [← dot_add_right]
    refine dot_congr_right fun c hc => ?_
    rw [Cfg.mem_S] at hc
    simp only [Cfg.bStep, hc, if_true]
  have hT : ∀ k, dot C.S (C.tmp s k) (fun c => (1 + C.b k (c k)) * (C.V c * l.u c))
      = dot C.S (C.tmp s k) (C.bT l k) - dot C.S (C.tmp s k) (fun c => C.b k (c k) * l.zeta k c) := by
    intro k
    rw [← dot_sub_right]
    exact dot_congr_right fun c _ => by simp only [Cfg.bT]; ring
  have lp : dot C.S (C.refStep s).p l.p = dot C.S s.u l.p := rfl
  have rp : dot C.S s.p (C.bStep l).p = dot C.S s.p l.u := rfl
  simp only [Cfg.pair]
  rw [hu, lp, rp, ru]
  simp only [hpsi, hzeta, rpsi, rzeta, hT, htmp, hbpsi]
  simp only [Finset.sum_add_distrib, Finset.sum_sub_distrib, Finset.sum_neg_distrib]
  ring

theorem dot_inject_left {m : ℕ} {loc : Fin m → Option (Cell d)}
    (hloc : ∀ i c, loc i = some c → C.Inner c) (q : Fin m → R) (l : Fld d R) :
    dot C.S (inject loc q) l = ∑ i, q i * sample loc l i := by
  simp only [dot, inject, Finset.sum_mul]
  rw [Finset.sum_comm]
  refine Finset.sum_congr rfl fun i _ => ?_
  cases hi : loc i with
  | none => simp [sample, hi]
  | some c =>
      simp only [sample, hi, Option.some.injEq, ite_mul, zero_mul]
      rw [Finset.sum_ite_eq, if_pos (Cfg.mem_S.2 (hloc i c hi))]

theorem Cfg.pair_next (h : C.WF) (q : Fin ns → R) (s l : St d R) :
    C.pair (C.next q s) l = C.pair (C.refStep s) l + ∑ i, q i * sample C.src l.u i := by
  rw [← dot_inject_left h.src_in]
  have : dot C.S (C.next q s).u l.u = dot C.S (C.refStep s).u l.u + dot C.S (inject C.src q) l.u :=
    dot_add_left _ _ _ _
  simp only [Cfg.pair, this]
  simp only [Cfg.next]
  ring

theorem Cfg.pair_bNext (h : C.WF) (q : Fin nr → R) (s l : St d R) :
    C.pair s (C.bNext q l) = C.pair s (C.bStep l) + ∑ i, q i * sample C.rcv s.u i := by
  rw [← dot_inject_left h.rcv_in, dot_comm C.S (inject C.rcv q)]
  have : dot C.S s.u (C.bNext q l).u = dot C.S s.u (C.bStep l).u + dot C.S s.u (inject C.rcv q) :=
    dot_add_right _ _ _ _
  simp only [Cfg.pair, this]
  simp only [Cfg.bNext]
  ring

/-- All steps: the dot-product identity for the recursions. -/
theorem Cfg.pair_run (h : C.WF) {s l : St d R} (hs : C.Good s) (hl : C.Good l)
    (f : ℕ → Fin ns → R) (gr : ℕ → Fin nr → R) (T : ℕ) :
    C.pair (C.run f 0 s T) l
      + ∑ t ∈ Finset.range T, ∑ i, gr t i * sample C.rcv (C.run f 0 s t).u i =
    C.pair s (C.bRun gr T l T)
      + ∑ t ∈ Finset.range T, ∑ i, f t i * sample C.src (C.bRun gr T l (T - 1 - t)).u i := by
  have key : ∀ n ≤ T,
      C.pair (C.run f 0 s n) (C.bRun gr T l (T - n))
        + ∑ t ∈ Finset.range n, ∑ i, gr t i * sample C.rcv (C.run f 0 s t).u i =
      C.pair s (C.bRun gr T l T)
        + ∑ t ∈ Finset.range n, ∑ i, f t i * sample C.src (C.bRun gr T l (T - 1 - t)).u i := by
    intro n
    induction n with
    | zero => intro _; simp [Cfg.run]
    | succ n ih =>
        intro hn
        have ih' := ih (by omega)
        rw [Finset.sum_range_succ, Finset.sum_range_succ]
        have e : T - n = (T - (n + 1)) + 1 := by omega
        have e2 : T - 1 - n = T - (n + 1) := by omega
        have e3 : T - 1 - (T - (n + 1)) = n := by omega
        rw [e, Cfg.bRun, C.pair_bNext h, e3] at ih'
        rw [Cfg.run, C.pair_next h, Nat.zero_add, C.pair_step (C.run_good h f 0 hs n)
          (C.bRun_good h gr T hl _), e2]
        linear_combination ih'
  have := key T le_rfl
  simpa [Cfg.bRun] using this

/-! ### Moving between padded and user coordinates -/

/-- The cells of the user's wavefield arrays. -/
def Cfg.userCells (C : Cfg d ns nr R) : Finset (Cell d) :=
  box (fun _ => 0) (fun k => C.n k - 2 * ((C.acc.order / 2 : ℕ) : ℤ))

theorem Cfg.sum_userCells (F : Fld d R) :
    ∑ p ∈ C.userCells, F (fun k => p k + C.acc.pad) = ∑ c ∈ C.S, F c := by
  refine Finset.sum_bij' (fun p _ => fun k => p k + (C.acc.pad : ℤ))
    (fun c _ => fun k => c k - (C.acc.pad : ℤ)) ?_ ?_ ?_ ?_ ?_
  · intro p hp
    simp only [Cfg.userCells, mem_box, Acc.order_div_two] at hp
    rw [Cfg.mem_S]
    intro k
    have := hp k
    simp only
    omega
  · intro c hc
    rw [Cfg.mem_S] at hc
    simp only [Cfg.userCells, mem_box, Acc.order_div_two]
    intro k
    have := hc k
    omega
  · intro p _; funext k; ring
  · intro c _; funext k; ring
  · intro p _; rfl

theorem Cfg.sum_unpad_left (u g : Fld d R) :
    ∑ p ∈ C.userCells, C.unpad u p * g p = dot C.S u (C.createOrPad (some g)) := by
  rw [dot, ← C.sum_userCells fun c => u c * C.createOrPad (some g) c]
  refine Finset.sum_congr rfl fun p hp => ?_
  have hi : C.Inner fun k => p k + (C.acc.pad : ℤ) := by
    simp only [Cfg.userCells, mem_box, Acc.order_div_two] at hp
    intro k
    have := hp k
    simp only
    omega
  simp [Cfg.unpad, Cfg.createOrPad, hi]

theorem Cfg.sum_unpad_right (u g : Fld d R) :
    ∑ p ∈ C.userCells, g p * C.unpad u p = dot C.S (C.createOrPad (some g)) u := by
  rw [dot_comm, ← C.sum_unpad_left]
  exact Finset.sum_congr rfl fun p _ => mul_comm _ _

theorem Cfg.dot_zeroInterior_right (k : Fin d) {u : Fld d R}
    (hu : ∀ c : Cell d, C.Mid k (c k) → u c = 0) (g : Fld d R) :
    dot C.S u (C.zeroInterior k g) = dot C.S u g := by
  refine Finset.sum_congr rfl fun c _ => ?_
  simp only [Cfg.zeroInterior]
  split_ifs with hc
  · rw [hu c hc]; ring
  · rfl

end Dw.Scalar
