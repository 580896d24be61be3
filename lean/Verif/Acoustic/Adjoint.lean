import Verif.Acoustic.Backward
import Mathlib.Tactic.LinearCombination

/-!
# Dot-product identities and derivatives of the acoustic recursions
-/

namespace Dw.Acoustic

open Dw.Scalar (inject sample dot_congr_left dot_congr_right dot_neg_right dot_sum_left dot_sum_right)

variable {d np mp : ℕ} {nv mv : Fin d → ℕ}

section
variable {R : Type*} [Field R] {C : Cfg d np mp nv mv R}

/-- The updated pressure points. -/
def Cfg.S (C : Cfg d np mp nv mv R) : Finset (Cell d) :=
  box (fun _ => (C.acc.pad : ℤ)) fun k => C.n k - C.acc.pad + 1

omit [Field R] in
theorem Cfg.mem_S {c : Cell d} : c ∈ C.S ↔ C.Inner c := mem_box

/-- The bilinear form preserved by a step. -/
def Cfg.pair (C : Cfg d np mp nv mv R) (s l : Wavefields d R) : R :=
  dot C.S s.p l.p + ∑ k, dot C.S (s.v k) (l.v k) + ∑ k, dot C.S (s.phi k) (l.phi k)
    + ∑ k, dot C.S (s.psi k) (l.psi k)

theorem supp_of {u : Fld d R} (h : ∀ c, ¬C.Inner c → u c = 0) : SuppIn C.S u :=
  fun c hc => h c fun hi => hc (Cfg.mem_S.2 hi)

theorem suppH_of {k : Fin d} {u : Fld d R} (h : ∀ c, ¬C.InnerH k c → u c = 0) : SuppIn C.S u :=
  fun c hc => h c fun hi => hc (Cfg.mem_S.2 hi.1)

theorem dot_inject_left {m : ℕ} {S : Finset (Cell d)} {loc : Fin m → Option (Cell d)}
    (hloc : ∀ i c, loc i = some c → c ∈ S) (q : Fin m → R) (l : Fld d R) :
    dot S (inject loc q) l = ∑ i, q i * sample loc l i := by
  simp only [dot, inject, Finset.sum_mul]
  rw [Finset.sum_comm]
  refine Finset.sum_congr rfl fun i _ => ?_
  cases hi : loc i with
  | none => simp [sample, hi]
  | some c =>
      simp only [sample, hi, Option.some.injEq, ite_mul, zero_mul]
      rw [Finset.sum_ite_eq, if_pos (hloc i c hi)]

/-- The velocity half and its adjoint, with the coefficient `B` of the pressure gradient as an
input. -/
theorem pair_halfV (h : C.WF) (q : (k : Fin d) → Fin (nv k) → R) {s l : Wavefields d R}
    (hs : C.Good s) (hl : C.Good l) :
    C.pair (C.halfV q s) l = C.pair s (C.bHalfP l)
      + ∑ k, ∑ i, q k i * sample (C.srcV k) (l.v k) i := by
  have hX : ∀ k, ∀ c, ¬C.InnerH k c → C.bh k (c k) * l.psi k c
      - C.dt * (1 + C.bh k (c k)) * C.B k c * l.v k c = 0 := by
    intro k c hc; simp [hl.psi k c hc, hl.v k c hc]
  have key : ∀ k, -dot C.S (fun c => C.dt * C.B k c * C.gradP k s c) (l.v k)
      + dot C.S ((C.halfV q s).psi k) (l.psi k) = dot C.S (s.psi k) ((C.bHalfP l).psi k)
      - dot C.S s.p (C.DI k fun c => C.bh k (c k) * l.psi k c
        - C.dt * (1 + C.bh k (c k)) * C.B k c * l.v k c) := by
    intro k
    have e := dot_DSH (supp_of hs.p) (suppH_of (hX k)) C.acc (1 / C.dx k) k
    rw [sub_eq_add_neg, Cfg.DI, ← e]
    simp only [dot, ← Finset.sum_neg_distrib, ← Finset.sum_add_distrib]
    refine Finset.sum_congr rfl fun c _ => ?_
    by_cases hc : C.InnerH k c
    · simp only [Cfg.gradP, Cfg.halfV, Cfg.psi', Cfg.bHalfP, hc, if_true, Cfg.DH]
      ring
    · simp [Cfg.gradP, Cfg.halfV, Cfg.psi', Cfg.bHalfP, hc, hl.v k c hc, hl.psi k c hc]
  have hv : ∀ k, dot C.S ((C.halfV q s).v k) (l.v k) = dot C.S (s.v k) (l.v k)
      - dot C.S (fun c => C.dt * C.B k c * C.gradP k s c) (l.v k)
      + ∑ i, q k i * sample (C.srcV k) (l.v k) i := by
    intro k
    rw [← dot_inject_left (fun i c hi => Cfg.mem_S.2 (h.srcV_in k i c hi).1), ← dot_sub_left,
      ← dot_add_left]
    rfl
  have hp : dot C.S s.p (C.bHalfP l).p = dot C.S s.p l.p
      - ∑ k, dot C.S s.p (C.DI k fun c => C.bh k (c k) * l.psi k c
        - C.dt * (1 + C.bh k (c k)) * C.B k c * l.v k c) := by
    rw [← dot_sum_right, ← dot_sub_right]
    refine dot_congr_right fun c hc => ?_
    rw [Cfg.mem_S] at hc
    simp only [Cfg.bHalfP, hc, if_true]
  have ks : ∑ k, (-dot C.S (fun c => C.dt * C.B k c * C.gradP k s c) (l.v k)
      + dot C.S ((C.halfV q s).psi k) (l.psi k)) = _ := Finset.sum_congr rfl fun k _ => key k
  simp only [Cfg.pair, hv, hp]
  have e1 : (C.halfV q s).p = s.p := rfl
  have e2 : (C.halfV q s).phi = s.phi := rfl
  have e3 : (C.bHalfP l).v = l.v := rfl
  have e4 : (C.bHalfP l).phi = l.phi := rfl
  rw [e1, e2, e3, e4]
  simp only [Finset.sum_add_distrib, Finset.sum_sub_distrib, Finset.sum_neg_distrib] at ks ⊢
  linear_combination ks

/-- The pressure half and its adjoint. -/
theorem pair_halfP (h : C.WF) (q : Fin np → R) {s l : Wavefields d R}
    (hs : C.Good s) (hl : C.Good l) :
    C.pair (C.halfP q s) l = C.pair s (C.bHalfV l) + ∑ i, q i * sample C.srcP l.p i := by
  have hX : ∀ k, ∀ c, ¬C.Inner c → C.b k (c k) * l.phi k c
      - C.dt * (1 + C.b k (c k)) * C.K c * l.p c = 0 := by
    intro k c hc; simp [hl.phi k c hc, hl.p c hc]
  have key : ∀ k, -dot C.S (fun c => C.dt * C.K c * (C.DI k (s.v k) c
        + C.phi' k (s.v k) (s.phi k) c)) l.p
      + dot C.S ((C.halfP q s).phi k) (l.phi k) = dot C.S (s.phi k) ((C.bHalfV l).phi k)
      - dot C.S (s.v k) (C.DH k fun c => C.b k (c k) * l.phi k c
        - C.dt * (1 + C.b k (c k)) * C.K c * l.p c) := by
    intro k
    have e := dot_DS (suppH_of (hs.v k)) (supp_of (hX k)) C.acc (1 / C.dx k) k
    rw [sub_eq_add_neg, Cfg.DH, ← e]
    simp only [dot, ← Finset.sum_neg_distrib, ← Finset.sum_add_distrib]
    refine Finset.sum_congr rfl fun c hc => ?_
    rw [Cfg.mem_S] at hc
    simp only [Cfg.halfP, Cfg.phi', Cfg.bHalfV, hc, if_true, Cfg.DI]
    ring
  have hp : dot C.S (C.halfP q s).p l.p = dot C.S s.p l.p
      - ∑ k, dot C.S (fun c => C.dt * C.K c * (C.DI k (s.v k) c
        + C.phi' k (s.v k) (s.phi k) c)) l.p
      + ∑ i, q i * sample C.srcP l.p i := by
    rw [← dot_inject_left (fun i c hi => Cfg.mem_S.2 (h.srcP_in i c hi)), ← dot_sum_left,
      ← dot_sub_left, ← dot_add_left]
    refine dot_congr_left fun c hc => ?_
    rw [Cfg.mem_S] at hc
    simp only [Cfg.halfP, Cfg.divV, hc, if_true, Finset.mul_sum]
  have hv : ∀ k, dot C.S (s.v k) ((C.bHalfV l).v k) = dot C.S (s.v k) (l.v k)
      - dot C.S (s.v k) (C.DH k fun c => C.b k (c k) * l.phi k c
        - C.dt * (1 + C.b k (c k)) * C.K c * l.p c) := by
    intro k
    rw [← dot_sub_right]
    simp only [dot]
    refine Finset.sum_congr rfl fun c _ => ?_
    by_cases hc : C.InnerH k c
    · simp only [Cfg.bHalfV, hc, if_true]
    · rw [hs.v k c hc, zero_mul, zero_mul]
  have ks : ∑ k, (-dot C.S (fun c => C.dt * C.K c * (C.DI k (s.v k) c
        + C.phi' k (s.v k) (s.phi k) c)) l.p
      + dot C.S ((C.halfP q s).phi k) (l.phi k)) = _ := Finset.sum_congr rfl fun k _ => key k
  simp only [Cfg.pair, hv, hp]
  have e1 : (C.halfP q s).v = s.v := rfl
  have e2 : (C.halfP q s).psi = s.psi := rfl
  have e3 : (C.bHalfV l).p = l.p := rfl
  have e4 : (C.bHalfV l).psi = l.psi := rfl
  rw [e1, e2, e3, e4]
  simp only [Finset.sum_add_distrib, Finset.sum_sub_distrib, Finset.sum_neg_distrib] at ks ⊢
  linear_combination ks

theorem pair_bAdd (h : C.WF) (qp : Fin mp → R) (qv : (k : Fin d) → Fin (mv k) → R)
    (s l : Wavefields d R) :
    C.pair s (C.bAdd qp qv l) = C.pair s l + ∑ i, qp i * sample C.rcvP s.p i
      + ∑ k, ∑ i, qv k i * sample (C.rcvV k) (s.v k) i := by
  have hp : dot C.S s.p (C.bAdd qp qv l).p = dot C.S s.p l.p + ∑ i, qp i * sample C.rcvP s.p i := by
    rw [← dot_inject_left (fun i c hi => Cfg.mem_S.2 (h.rcvP_in i c hi)), dot_comm C.S (inject _ _),
      ← dot_add_right]
    rfl
  have hv : ∀ k, dot C.S (s.v k) ((C.bAdd qp qv l).v k) = dot C.S (s.v k) (l.v k)
      + ∑ i, qv k i * sample (C.rcvV k) (s.v k) i := by
    intro k
    rw [← dot_inject_left (fun i c hi => Cfg.mem_S.2 (h.rcvV_in k i c hi).1),
      dot_comm C.S (inject _ _), ← dot_add_right]
    rfl
  simp only [Cfg.pair, hp, hv, Finset.sum_add_distrib]
  simp only [Cfg.bAdd]
  ring

/-- All steps: the dot-product identity for the recursions. -/
theorem pair_run (h : C.WF) {s l : Wavefields d R} (hs : C.Good s) (hl : C.Good l)
    (fp : ℕ → Fin np → R) (fv : (k : Fin d) → ℕ → Fin (nv k) → R) (grP : ℕ → Fin mp → R)
    (grV : (k : Fin d) → ℕ → Fin (mv k) → R) (T : ℕ) :
    C.pair (C.run fp fv s T) l
      + ∑ t ∈ Finset.range T, ∑ i, grP t i * sample C.rcvP (C.run fp fv s t).p i
      + ∑ t ∈ Finset.range T, ∑ k, ∑ i, grV k t i * sample (C.rcvV k) ((C.run fp fv s t).v k) i =
    C.pair s (C.bRun grP grV T l T)
      + ∑ t ∈ Finset.range T, ∑ i, fp t i * sample C.srcP (C.bRun grP grV T l (T - 1 - t)).p i
      + ∑ t ∈ Finset.range T, ∑ k, ∑ i, fv k t i
          * sample (C.srcV k) ((C.bHalfV (C.bRun grP grV T l (T - 1 - t))).v k) i := by
  have key : ∀ n ≤ T,
      C.pair (C.run fp fv s n) (C.bRun grP grV T l (T - n))
        + ∑ t ∈ Finset.range n, ∑ i, grP t i * sample C.rcvP (C.run fp fv s t).p i
        + ∑ t ∈ Finset.range n, ∑ k, ∑ i, grV k t i * sample (C.rcvV k) ((C.run fp fv s t).v k) i =
      C.pair s (C.bRun grP grV T l T)
        + ∑ t ∈ Finset.range n, ∑ i, fp t i * sample C.srcP (C.bRun grP grV T l (T - 1 - t)).p i
        + ∑ t ∈ Finset.range n, ∑ k, ∑ i, fv k t i
          * sample (C.srcV k) ((C.bHalfV (C.bRun grP grV T l (T - 1 - t))).v k) i := by
    intro n
    induction n with
    | zero => intro _; simp [Cfg.run]
    | succ n ih =>
        intro hn
        have ih' := ih (by omega)
        simp only [Finset.sum_range_succ]
        have e : T - n = (T - (n + 1)) + 1 := by omega
        have e2 : T - 1 - n = T - (n + 1) := by omega
        have e3 : T - 1 - (T - (n + 1)) = n := by omega
        have g1 := run_good h fp fv hs n
        have g2 := bRun_good h grP grV T hl (T - (n + 1))
        rw [e, Cfg.bRun, Cfg.bNext, pair_bAdd h, e3] at ih'
        rw [Cfg.run, Cfg.next, pair_halfP h _ (halfV_good h _ g1) g2,
          pair_halfV h _ g1 (bHalfV_good h g2), e2]
        linear_combination ih'
  have := key T le_rfl
  simpa [Cfg.bRun] using this

/-! ### Moving between padded and user coordinates -/

/-- The cells of the user's wavefield arrays. -/
def Cfg.userCells (C : Cfg d np mp nv mv R) : Finset (Cell d) :=
  box (fun _ => 0) (fun k => C.n k - 2 * ((C.acc.order / 2 : ℕ) : ℤ) + 1)

omit [Field R] in
theorem inner_of_user {p : Cell d} (hp : p ∈ C.userCells) : C.Inner fun k => p k + (C.acc.pad : ℤ) := by
  simp only [Cfg.userCells, mem_box, Acc.order_div_two] at hp
  intro k
  have := hp k
  simp only
  omega

theorem sum_userCells (F : Fld d R) :
    ∑ p ∈ C.userCells, F (fun k => p k + C.acc.pad) = ∑ c ∈ C.S, F c := by
  refine Finset.sum_bij' (fun p _ => fun k => p k + (C.acc.pad : ℤ))
    (fun c _ => fun k => c k - (C.acc.pad : ℤ)) ?_ ?_ ?_ ?_ ?_
  · intro p hp
    exact Cfg.mem_S.2 (inner_of_user hp)
  · intro c hc
    rw [Cfg.mem_S] at hc
    simp only [Cfg.userCells, mem_box, Acc.order_div_two]
    intro k
    have := hc k
    omega
  · intro p _; funext k; ring
  · intro c _; funext k; ring
  · intro p _; rfl

theorem sum_unpad_left (u g : Fld d R) :
    ∑ p ∈ C.userCells, C.unpad u p * g p = dot C.S u (C.createOrPad (some g)) := by
  rw [dot, ← sum_userCells fun c => u c * C.createOrPad (some g) c]
  refine Finset.sum_congr rfl fun p hp => ?_
  simp [Cfg.unpad, Cfg.createOrPad, inner_of_user hp]

theorem dot_zeroInterior_right (k : Fin d) (e : ℤ) {u : Fld d R}
    (hu : ∀ c : Cell d, (C.acc.pad : ℤ) + C.w0 k ≤ c k → c k < C.n k - C.w1 k - e → u c = 0)
    (g : Fld d R) : dot C.S u (C.zeroInterior k e g) = dot C.S u g := by
  refine Finset.sum_congr rfl fun c _ => ?_
  simp only [Cfg.zeroInterior]
  split_ifs with hc
  · rw [hu c hc.1 hc.2]; ring
  · rfl

theorem dot_zeroEdge_right (k : Fin d) {u : Fld d R} (hu : ∀ c, ¬C.InnerH k c → u c = 0)
    (g : Fld d R) : dot C.S u (C.zeroEdge k g) = dot C.S u g := by
  refine Finset.sum_congr rfl fun c _ => ?_
  simp only [Cfg.zeroEdge]
  split_ifs with hc
  · rw [hu c fun h => absurd h.2 (by omega)]; ring
  · rfl

/-- Inner product of two sets of wavefields over a set of cells. -/
def Wavefields.inner (S : Finset (Cell d)) (w w' : Wavefields d R) : R :=
  ∑ c ∈ S, w.p c * w'.p c + ∑ k, ∑ c ∈ S, w.v k c * w'.v k c
    + ∑ k, ∑ c ∈ S, w.phi k c * w'.phi k c + ∑ k, ∑ c ∈ S, w.psi k c * w'.psi k c

def Wavefields.toInit (w : Wavefields d R) : Init d R :=
  ⟨some w.p, fun k => some (w.v k), fun k => some (w.phi k), fun k => some (w.psi k)⟩

theorem inner_out {s : Wavefields d R} (hs : C.Good s) (g : Wavefields d R) :
    (C.unpadAll s).inner C.userCells g = C.pair s (C.prepare g.toInit) := by
  have h1 : ∀ k, dot C.S (s.phi k) (C.zeroInterior k (C.acc.pad - 1) (C.createOrPad (some (g.phi k))))
      = dot C.S (s.phi k) (C.createOrPad (some (g.phi k))) :=
    fun k => dot_zeroInterior_right k _ (fun c a b => hs.phi_mid k c ⟨a, b⟩) _
  have h2 : ∀ k, dot C.S (s.psi k) (C.zeroInterior k C.acc.pad
        (C.zeroEdge k (C.createOrPad (some (g.psi k)))))
      = dot C.S (s.psi k) (C.createOrPad (some (g.psi k))) := fun k => by
    rw [dot_zeroInterior_right k _ (fun c a b => hs.psi_mid k c ⟨a, b⟩),
      dot_zeroEdge_right k (hs.psi k)]
  have h3 : ∀ k, dot C.S (s.v k) (C.zeroEdge k (C.createOrPad (some (g.v k))))
      = dot C.S (s.v k) (C.createOrPad (some (g.v k))) := fun k => dot_zeroEdge_right k (hs.v k) _
  simp only [Wavefields.inner, Cfg.unpadAll, sum_unpad_left, Cfg.pair, Cfg.prepare,
    Wavefields.toInit, h1, h2, h3]

theorem pair_comm (s l : Wavefields d R) : C.pair s l = C.pair l s := by
  simp only [Cfg.pair]
  congr 1
  · congr 1
    · congr 1
      · exact dot_comm ..
      · exact Finset.sum_congr rfl fun _ _ => dot_comm ..
    · exact Finset.sum_congr rfl fun _ _ => dot_comm ..
  · exact Finset.sum_congr rfl fun _ _ => dot_comm ..

theorem Wavefields.inner_comm (S : Finset (Cell d)) (w w' : Wavefields d R) :
    w.inner S w' = w'.inner S w := by
  simp only [Wavefields.inner, mul_comm]

theorem inner_start (w : Wavefields d R) {l : Wavefields d R} (hl : C.Good l) :
    w.inner C.userCells (C.unpadAll l) = C.pair (C.prepare w.toInit) l := by
  rw [Wavefields.inner_comm, inner_out hl, pair_comm]

/-! ### Perturbation of the inputs -/

/-- Perturbation of the velocity half of a step caused by perturbations `δB` of the buoyancy, `q` of
the amplitudes and `ds` of the wavefields. -/
def Cfg.tHalfV (C : Cfg d np mp nv mv R) (δB : Fin d → Fld d R) (q : (k : Fin d) → Fin (nv k) → R)
    (s ds : Wavefields d R) : Wavefields d R :=
  let s' := C.halfV q ds
  { s' with v := fun k c => s'.v k c - C.dt * δB k c * C.gradP k s c }

/-- Perturbation of the pressure half of a step. -/
def Cfg.tHalfP (C : Cfg d np mp nv mv R) (δK : Fld d R) (q : Fin np → R) (s ds : Wavefields d R) :
    Wavefields d R :=
  let s' := C.halfP q ds
  { s' with p := fun c => s'.p c - C.dt * δK c * C.divV s c }

def Cfg.tRun (C : Cfg d np mp nv mv R) (fp δp : ℕ → Fin np → R)
    (fv δv : (k : Fin d) → ℕ → Fin (nv k) → R) (δK : Fld d R) (δB : Fin d → Fld d R)
    (s ds : Wavefields d R) : ℕ → Wavefields d R
  | 0 => ds
  | n + 1 => C.tHalfP δK (δp n) (C.halfV (fun k => fv k n) (C.run fp fv s n))
      (C.tHalfV δB (fun k => δv k n) (C.run fp fv s n) (C.tRun fp δp fv δv δK δB s ds n))

theorem tHalfV_good (h : C.WF) (δB : Fin d → Fld d R) (q : (k : Fin d) → Fin (nv k) → R)
    (s : Wavefields d R) {ds : Wavefields d R} (g : C.Good ds) : C.Good (C.tHalfV δB q s ds) := by
  have g' := halfV_good h q g
  exact ⟨g'.p, fun k c hc => by simp [Cfg.tHalfV, g'.v k c hc, Cfg.gradP, hc], g'.phi, g'.psi,
    g'.phi_mid, g'.psi_mid⟩

theorem tHalfP_good (h : C.WF) (δK : Fld d R) (q : Fin np → R) (s : Wavefields d R)
    {ds : Wavefields d R} (g : C.Good ds) : C.Good (C.tHalfP δK q s ds) := by
  have g' := halfP_good h q g
  exact ⟨fun c hc => by simp [Cfg.tHalfP, g'.p c hc, Cfg.divV, hc], g'.v, g'.phi, g'.psi,
    g'.phi_mid, g'.psi_mid⟩

theorem tRun_good (h : C.WF) (fp δp : ℕ → Fin np → R) (fv δv : (k : Fin d) → ℕ → Fin (nv k) → R)
    (δK : Fld d R) (δB : Fin d → Fld d R) (s : Wavefields d R) {ds : Wavefields d R}
    (g : C.Good ds) : ∀ n, C.Good (C.tRun fp δp fv δv δK δB s ds n)
  | 0 => g
  | n + 1 => tHalfP_good h _ _ _ (tHalfV_good h _ _ _ (tRun_good h fp δp fv δv δK δB s g n))

theorem pair_tHalfV (h : C.WF) (δB : Fin d → Fld d R) (q : (k : Fin d) → Fin (nv k) → R)
    (s : Wavefields d R) {ds l : Wavefields d R} (hs : C.Good ds) (hl : C.Good l) :
    C.pair (C.tHalfV δB q s ds) l = C.pair ds (C.bHalfP l)
      + ∑ k, ∑ i, q k i * sample (C.srcV k) (l.v k) i
      - ∑ k, dot C.S (fun c => C.dt * δB k c * C.gradP k s c) (l.v k) := by
  rw [← pair_halfV h q hs hl]
  have hv : ∀ k, dot C.S ((C.tHalfV δB q s ds).v k) (l.v k) =
      dot C.S ((C.halfV q ds).v k) (l.v k)
        - dot C.S (fun c => C.dt * δB k c * C.gradP k s c) (l.v k) := by
    intro k
    rw [← dot_sub_left]
    rfl
  simp only [Cfg.pair, hv, Finset.sum_sub_distrib]
  simp only [Cfg.tHalfV]
  ring

theorem pair_tHalfP (h : C.WF) (δK : Fld d R) (q : Fin np → R) (s : Wavefields d R)
    {ds l : Wavefields d R} (hs : C.Good ds) (hl : C.Good l) :
    C.pair (C.tHalfP δK q s ds) l = C.pair ds (C.bHalfV l) + ∑ i, q i * sample C.srcP l.p i
      - dot C.S (fun c => C.dt * δK c * C.divV s c) l.p := by
  rw [← pair_halfP h q hs hl]
  have hp : dot C.S (C.tHalfP δK q s ds).p l.p = dot C.S (C.halfP q ds).p l.p
        - dot C.S (fun c => C.dt * δK c * C.divV s c) l.p := by
    rw [← dot_sub_left]
    rfl
  simp only [Cfg.pair, hp]
  simp only [Cfg.tHalfP]
  ring

/-- Dot-product identity for the perturbation. -/
theorem pair_tRun (h : C.WF) (s : Wavefields d R) {ds l : Wavefields d R} (hd : C.Good ds)
    (hl : C.Good l) (fp δp : ℕ → Fin np → R) (fv δv : (k : Fin d) → ℕ → Fin (nv k) → R)
    (δK : Fld d R) (δB : Fin d → Fld d R) (grP : ℕ → Fin mp → R)
    (grV : (k : Fin d) → ℕ → Fin (mv k) → R) (T : ℕ) :
    C.pair (C.tRun fp δp fv δv δK δB s ds T) l
      + ∑ t ∈ Finset.range T, ∑ i, grP t i * sample C.rcvP (C.tRun fp δp fv δv δK δB s ds t).p i
      + ∑ t ∈ Finset.range T, ∑ k, ∑ i, grV k t i
          * sample (C.rcvV k) ((C.tRun fp δp fv δv δK δB s ds t).v k) i =
    C.pair ds (C.bRun grP grV T l T)
      + ∑ t ∈ Finset.range T, ∑ i, δp t i * sample C.srcP (C.bRun grP grV T l (T - 1 - t)).p i
      + ∑ t ∈ Finset.range T, ∑ k, ∑ i, δv k t i
          * sample (C.srcV k) ((C.bHalfV (C.bRun grP grV T l (T - 1 - t))).v k) i
      - ∑ t ∈ Finset.range T, dot C.S (fun c => C.dt * δK c
        * C.divV (C.halfV (fun k => fv k t) (C.run fp fv s t)) c) (C.bRun grP grV T l (T - 1 - t)).p
      - ∑ t ∈ Finset.range T, ∑ k, dot C.S (fun c => C.dt * δB k c * C.gradP k (C.run fp fv s t) c)
          ((C.bHalfV (C.bRun grP grV T l (T - 1 - t))).v k) := by
  have key : ∀ n ≤ T,
      C.pair (C.tRun fp δp fv δv δK δB s ds n) (C.bRun grP grV T l (T - n))
        + ∑ t ∈ Finset.range n, ∑ i, grP t i * sample C.rcvP (C.tRun fp δp fv δv δK δB s ds t).p i
        + ∑ t ∈ Finset.range n, ∑ k, ∑ i, grV k t i
          * sample (C.rcvV k) ((C.tRun fp δp fv δv δK δB s ds t).v k) i =
      C.pair ds (C.bRun grP grV T l T)
      + ∑ t ∈ Finset.range n, ∑ i, δp t i * sample C.srcP (C.bRun grP grV T l (T - 1 - t)).p i
      + ∑ t ∈ Finset.range n, ∑ k, ∑ i, δv k t i
          * sample (C.srcV k) ((C.bHalfV (C.bRun grP grV T l (T - 1 - t))).v k) i
      - ∑ t ∈ Finset.range n, dot C.S (fun c => C.dt * δK c
        * C.divV (C.halfV (fun k => fv k t) (C.run fp fv s t)) c) (C.bRun grP grV T l (T - 1 - t)).p
      - ∑ t ∈ Finset.range n, ∑ k, dot C.S (fun c => C.dt * δB k c * C.gradP k (C.run fp fv s t) c)
          ((C.bHalfV (C.bRun grP grV T l (T - 1 - t))).v k) := by
    intro n
    induction n with
    | zero => intro _; simp [Cfg.tRun]
    | succ n ih =>
        intro hn
        have ih' := ih (by omega)
        simp only [Finset.sum_range_succ]
        have e : T - n = (T - (n + 1)) + 1 := by omega
        have e2 : T - 1 - n = T - (n + 1) := by omega
        have e3 : T - 1 - (T - (n + 1)) = n := by omega
        have g1 := tRun_good h fp δp fv δv δK δB s hd n
        have g2 := bRun_good h grP grV T hl (T - (n + 1))
        rw [e, Cfg.bRun, Cfg.bNext, pair_bAdd h, e3] at ih'
        rw [Cfg.tRun, pair_tHalfP h _ _ _ (tHalfV_good h _ _ _ g1) g2,
          pair_tHalfV h _ _ _ g1 (bHalfV_good h g2), e2]
        linear_combination ih'
  have := key T le_rfl
  simpa [Cfg.bRun] using this

end

/-! ### Derivatives -/

theorem hasDerivAt_cS1 (acc : Acc) (rdx : ℝ) {a : ℝ → ℤ → ℝ} {a' : ℤ → ℝ} {x : ℝ}
    (h : ∀ j, HasDerivAt (fun e => a e j) (a' j) x) :
    HasDerivAt (fun e => cS1 acc rdx (a e)) (cS1 acc rdx a') x := by
  have k : ∀ (m : ℝ) (i j : ℤ), HasDerivAt (fun e => m * (a e i - a e j)) (m * (a' i - a' j)) x :=
    fun m i j => ((h i).sub (h j)).const_mul m
  cases acc
  · exact ((h _).sub (h _)).mul_const _
  · exact ((k _ _ _).add (k _ _ _)).mul_const _
  · exact (((k _ _ _).add (k _ _ _)).add (k _ _ _)).mul_const _
  · exact ((((k _ _ _).add (k _ _ _)).add (k _ _ _)).add (k _ _ _)).mul_const _

theorem hasDerivAt_cSH1 (acc : Acc) (rdx : ℝ) {a : ℝ → ℤ → ℝ} {a' : ℤ → ℝ} {x : ℝ}
    (h : ∀ j, HasDerivAt (fun e => a e j) (a' j) x) :
    HasDerivAt (fun e => cSH1 acc rdx (a e)) (cSH1 acc rdx a') x := by
  have k : ∀ (m : ℝ) (i j : ℤ), HasDerivAt (fun e => m * (a e i - a e j)) (m * (a' i - a' j)) x :=
    fun m i j => ((h i).sub (h j)).const_mul m
  cases acc
  · exact ((h _).sub (h _)).mul_const _
  · exact ((k _ _ _).add (k _ _ _)).mul_const _
  · exact (((k _ _ _).add (k _ _ _)).add (k _ _ _)).mul_const _
  · exact ((((k _ _ _).add (k _ _ _)).add (k _ _ _)).add (k _ _ _)).mul_const _

/-- The wavefields depend differentiably on a parameter. -/
structure Wavefields.HasDeriv (s : ℝ → Wavefields d ℝ) (ds : Wavefields d ℝ) (x : ℝ) : Prop where
  p : ∀ c, HasDerivAt (fun e => (s e).p c) (ds.p c) x
  v : ∀ k c, HasDerivAt (fun e => (s e).v k c) (ds.v k c) x
  phi : ∀ k c, HasDerivAt (fun e => (s e).phi k c) (ds.phi k c) x
  psi : ∀ k c, HasDerivAt (fun e => (s e).psi k c) (ds.psi k c) x

/-- The configuration with perturbed models. -/
def Cfg.pert {R : Type*} [Field R] (C : Cfg d np mp nv mv R) (δK : Fld d R) (δB : Fin d → Fld d R)
    (e : R) : Cfg d np mp nv mv R :=
  { C with K := fun c => C.K c + e * δK c, B := fun k c => C.B k c + e * δB k c }

variable {C : Cfg d np mp nv mv ℝ}

theorem hasDeriv_psi' {s : ℝ → Wavefields d ℝ} {ds : Wavefields d ℝ} {x : ℝ}
    (h : Wavefields.HasDeriv s ds x) (k : Fin d) (c : Cell d) :
    HasDerivAt (fun e => C.psi' k (s e).p ((s e).psi k) c) (C.psi' k ds.p (ds.psi k) c) x := by
  have h1 : HasDerivAt (fun e => C.DH k (s e).p c) (C.DH k ds.p c) x :=
    hasDerivAt_cSH1 _ _ fun j => h.p _
  by_cases hc : C.InnerH k c
  · simp only [Cfg.psi', hc, if_true]
    exact (h1.const_mul _).add ((h.psi k c).const_mul _)
  · simp only [Cfg.psi', hc, if_false]
    exact hasDerivAt_const _ _

theorem hasDeriv_gradP {s : ℝ → Wavefields d ℝ} {ds : Wavefields d ℝ} {x : ℝ}
    (h : Wavefields.HasDeriv s ds x) (k : Fin d) (c : Cell d) :
    HasDerivAt (fun e => C.gradP k (s e) c) (C.gradP k ds c) x := by
  have h1 : HasDerivAt (fun e => C.DH k (s e).p c) (C.DH k ds.p c) x :=
    hasDerivAt_cSH1 _ _ fun j => h.p _
  by_cases hc : C.InnerH k c
  · simp only [Cfg.gradP, hc, if_true]
    exact h1.add (hasDeriv_psi' h k c)
  · simp only [Cfg.gradP, hc, if_false]
    exact hasDerivAt_const _ _

theorem hasDeriv_phi' {s : ℝ → Wavefields d ℝ} {ds : Wavefields d ℝ} {x : ℝ}
    (h : Wavefields.HasDeriv s ds x) (k : Fin d) (c : Cell d) :
    HasDerivAt (fun e => C.phi' k ((s e).v k) ((s e).phi k) c) (C.phi' k (ds.v k) (ds.phi k) c) x := by
  have h1 : HasDerivAt (fun e => C.DI k ((s e).v k) c) (C.DI k (ds.v k) c) x :=
    hasDerivAt_cS1 _ _ fun j => h.v k _
  by_cases hc : C.Inner c
  · simp only [Cfg.phi', hc, if_true]
    exact ((h.phi k c).const_mul _).add (h1.const_mul _)
  · simp only [Cfg.phi', hc, if_false]
    exact hasDerivAt_const _ _

theorem hasDeriv_divV {s : ℝ → Wavefields d ℝ} {ds : Wavefields d ℝ} {x : ℝ}
    (h : Wavefields.HasDeriv s ds x) (c : Cell d) :
    HasDerivAt (fun e => C.divV (s e) c) (C.divV ds c) x := by
  have h1 : ∀ k, HasDerivAt (fun e => C.DI k ((s e).v k) c) (C.DI k (ds.v k) c) x :=
    fun k => hasDerivAt_cS1 _ _ fun j => h.v k _
  by_cases hc : C.Inner c
  · simp only [Cfg.divV, hc, if_true]
    exact HasDerivAt.fun_sum fun k _ => (h1 k).add (hasDeriv_phi' h k c)
  · simp only [Cfg.divV, hc, if_false]
    exact hasDerivAt_const _ _

theorem hasDeriv_lin (a δ : ℝ) : HasDerivAt (fun e : ℝ => a + e * δ) δ 0 := by
  simpa using ((hasDerivAt_id (0 : ℝ)).mul_const δ).const_add a

theorem hasDeriv_inject {n : ℕ} (loc : Fin n → Option (Cell d)) (q δ : Fin n → ℝ) (c : Cell d) :
    HasDerivAt (fun e : ℝ => inject loc (fun i => q i + e * δ i) c) (inject loc δ c) 0 := by
  simp only [inject]
  refine HasDerivAt.fun_sum fun i _ => ?_
  split_ifs
  · exact hasDeriv_lin _ _
  · exact hasDerivAt_const _ _

theorem hasDeriv_halfV (δK : Fld d ℝ) (δB : Fin d → Fld d ℝ) (q δ : (k : Fin d) → Fin (nv k) → ℝ)
    {s : ℝ → Wavefields d ℝ} {ds : Wavefields d ℝ} (h : Wavefields.HasDeriv s ds 0) :
    Wavefields.HasDeriv (fun e => (C.pert δK δB e).halfV (fun k i => q k i + e * δ k i) (s e))
      (C.tHalfV δB δ (s 0) ds) 0 where
  p := h.p
  v := fun k c => by
    have h1 := ((h.v k c).sub (((hasDeriv_lin (C.B k c) (δB k c)).const_mul C.dt).mul
      (hasDeriv_gradP (C := C) h k c))).add (hasDeriv_inject (C.srcV k) (q k) (δ k) c)
    refine (h1.congr_deriv ?_).congr_of_eventuallyEq (Filter.Eventually.of_forall fun e => rfl)
    simp only [Cfg.tHalfV, Cfg.halfV, zero_mul, add_zero]
    ring
  phi := h.phi
  psi := fun k c => hasDeriv_psi' (C := C) h k c

theorem hasDeriv_halfP (δK : Fld d ℝ) (δB : Fin d → Fld d ℝ) (q δ : Fin np → ℝ)
    {s : ℝ → Wavefields d ℝ} {ds : Wavefields d ℝ} (h : Wavefields.HasDeriv s ds 0) :
    Wavefields.HasDeriv (fun e => (C.pert δK δB e).halfP (fun i => q i + e * δ i) (s e))
      (C.tHalfP δK δ (s 0) ds) 0 where
  p := fun c => by
    have h1 := ((h.p c).sub (((hasDeriv_lin (C.K c) (δK c)).const_mul C.dt).mul
      (hasDeriv_divV (C := C) h c))).add (hasDeriv_inject C.srcP q δ c)
    refine (h1.congr_deriv ?_).congr_of_eventuallyEq (Filter.Eventually.of_forall fun e => rfl)
    simp only [Cfg.tHalfP, Cfg.halfP, zero_mul, add_zero]
    ring
  v := h.v
  phi := fun k c => hasDeriv_phi' (C := C) h k c
  psi := h.psi

theorem pert_zero (δK : Fld d ℝ) (δB : Fin d → Fld d ℝ) : C.pert δK δB 0 = C := by simp [Cfg.pert]

theorem pert_wf (h : C.WF) (δK : Fld d ℝ) (δB : Fin d → Fld d ℝ) (e : ℝ) : (C.pert δK δB e).WF :=
  ⟨h.w0_nonneg, h.w1_nonneg, h.size, h.a_mid, h.b_mid, h.ah_mid, h.bh_mid, h.srcP_in, h.srcV_in,
    h.rcvP_in, h.rcvV_in⟩

theorem hasDeriv_run (δK : Fld d ℝ) (δB : Fin d → Fld d ℝ) (fp δp : ℕ → Fin np → ℝ)
    (fv δv : (k : Fin d) → ℕ → Fin (nv k) → ℝ) {s : ℝ → Wavefields d ℝ} {ds : Wavefields d ℝ}
    (hs : Wavefields.HasDeriv s ds 0) (n : ℕ) :
    Wavefields.HasDeriv (fun e => (C.pert δK δB e).run (fun t i => fp t i + e * δp t i)
      (fun k t i => fv k t i + e * δv k t i) (s e) n) (C.tRun fp δp fv δv δK δB (s 0) ds n) 0 := by
  induction n with
  | zero => exact hs
  | succ n ih =>
      have h1 := hasDeriv_halfV (C := C) δK δB (fun k => fv k n) (fun k => δv k n) ih
      have h2 := hasDeriv_halfP (C := C) δK δB (fp n) (δp n) h1
      simp only [pert_zero, zero_mul, add_zero] at h2
      exact h2

/-- `w + e δ` -/
def Wavefields.plus (w : Wavefields d ℝ) (e : ℝ) (δ : Wavefields d ℝ) : Wavefields d ℝ :=
  ⟨fun c => w.p c + e * δ.p c, fun k c => w.v k c + e * δ.v k c,
    fun k c => w.phi k c + e * δ.phi k c, fun k c => w.psi k c + e * δ.psi k c⟩

theorem hasDeriv_createOrPad (u δ : Fld d ℝ) (c : Cell d) :
    HasDerivAt (fun e : ℝ => C.createOrPad (some fun c => u c + e * δ c) c)
      (C.createOrPad (some δ) c) 0 := by
  simp only [Cfg.createOrPad]
  split_ifs
  · exact hasDeriv_lin _ _
  · exact hasDerivAt_const _ _

theorem hasDeriv_prepare (w δ : Wavefields d ℝ) :
    Wavefields.HasDeriv (fun e => C.prepare (w.plus e δ).toInit) (C.prepare δ.toInit) 0 where
  p := fun c => hasDeriv_createOrPad _ _ c
  v := fun k c => by
    simp only [Cfg.prepare, Cfg.zeroEdge, Wavefields.toInit, Wavefields.plus]
    split_ifs
    · exact hasDerivAt_const _ _
    · exact hasDeriv_createOrPad _ _ c
  phi := fun k c => by
    simp only [Cfg.prepare, Cfg.zeroInterior, Wavefields.toInit, Wavefields.plus]
    split_ifs
    · exact hasDerivAt_const _ _
    · exact hasDeriv_createOrPad _ _ c
  psi := fun k c => by
    simp only [Cfg.prepare, Cfg.zeroInterior, Cfg.zeroEdge, Wavefields.toInit, Wavefields.plus]
    split_ifs
    · exact hasDerivAt_const _ _
    · exact hasDerivAt_const _ _
    · exact hasDeriv_createOrPad _ _ c

end Dw.Acoustic
