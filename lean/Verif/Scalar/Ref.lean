import Verif.Scalar.Model

/-!
# Reference recursion for the scalar propagator

`St` is the state of the time recursion without double buffering, `refStep` one step of it
without the division into regions.  `Cfg.WF` collects what the set-up code guarantees about
the driver's inputs (shown for the real set-up code in `Verif/Setup`).
-/

namespace Dw.Scalar

variable {d ns nr : ℕ} {R : Type*} [Field R]

/-- `x` lies strictly between the two PMLs along dimension `k`. -/
def Cfg.Mid (C : Cfg d ns nr R) (k : Fin d) (x : ℤ) : Prop :=
  (C.acc.pad : ℤ) + C.w0 k ≤ x ∧ x < C.n k - C.w1 k - C.acc.pad

instance (C : Cfg d ns nr R) (k : Fin d) (x : ℤ) : Decidable (C.Mid k x) :=
  inferInstanceAs (Decidable (_ ∧ _))

/-- What the set-up code guarantees: PML widths are not negative, the padded array is large
enough to hold them, the profiles vanish outside the PML, and locations are not in the
finite-difference padding. -/
structure Cfg.WF (C : Cfg d ns nr R) : Prop where
  w0_nonneg : ∀ k, 0 ≤ C.w0 k
  w1_nonneg : ∀ k, 0 ≤ C.w1 k
  size : ∀ k, 2 * (C.acc.pad : ℤ) + C.w0 k + C.w1 k ≤ C.n k
  a_mid : ∀ k x, C.Mid k x → C.a k x = 0
  b_mid : ∀ k x, C.Mid k x → C.b k x = 0
  db_mid : ∀ k x, C.Mid k (x - C.acc.pad) → C.Mid k (x + C.acc.pad) → C.db k x = 0
  src_in : ∀ i c, C.src i = some c → C.Inner c
  rcv_in : ∀ i c, C.rcv i = some c → C.Inner c

/-- The interior cells as a finite set. -/
def Cfg.S (C : Cfg d ns nr R) : Finset (Cell d) :=
  box (fun _ => (C.acc.pad : ℤ)) (fun k => C.n k - C.acc.pad)

omit [Field R] in
theorem Cfg.mem_S {C : Cfg d ns nr R} {c : Cell d} : c ∈ C.S ↔ C.Inner c := mem_box

/-- State of the time recursion. -/
@[ext] structure St (d : ℕ) (R : Type*) where
  u : Fld d R
  p : Fld d R
  psi : Fin d → Fld d R
  zeta : Fin d → Fld d R

variable (C : Cfg d ns nr R)

/-- First derivative with the driver's spacing. -/
def Cfg.D1 (k : Fin d) (u : Fld d R) : Fld d R := Dw.D1 C.acc (1 / C.dx k) k u
/-- Second derivative with the driver's spacing. -/
def Cfg.D2 (k : Fin d) (u : Fld d R) : Fld d R := Dw.D2 C.acc (1 / C.dx k ^ 2) k u

/-- The inner term of the PML-stretched second derivative along `k`. -/
def Cfg.tmp (s : St d R) (k : Fin d) : Fld d R := fun c =>
  (1 + C.b k (c k)) * C.D2 k s.u c + C.db k (c k) * C.D1 k s.u c
    + C.D1 k (fun c => C.a k (c k) * s.psi k c) c

/-- The PML-stretched Laplacian. -/
def Cfg.lap (s : St d R) : Fld d R := fun c =>
  ∑ k, ((1 + C.b k (c k)) * C.tmp s k c + C.a k (c k) * s.zeta k c)

/-- One time step without sources. -/
def Cfg.refStep (s : St d R) : St d R where
  u := fun c => if C.Inner c then C.v c ^ 2 * C.dt ^ 2 * C.lap s c + 2 * s.u c - s.p c else 0
  p := s.u
  psi := fun k c => if C.Inner c then C.b k (c k) * C.D1 k s.u c + C.a k (c k) * s.psi k c else 0
  zeta := fun k c => if C.Inner c then C.b k (c k) * C.tmp s k c + C.a k (c k) * s.zeta k c else 0

/-- The array that is `amp i` at location `i` (summed over locations) and zero elsewhere. -/
def inject {m : ℕ} (loc : Fin m → Option (Cell d)) (amp : Fin m → R) : Fld d R :=
  fun c => ∑ i, if loc i = some c then amp i else 0

/-- One time step followed by source injection. -/
def Cfg.next (q : Fin ns → R) (s : St d R) : St d R :=
  let s' := C.refStep s
  { s' with u := fun c => s'.u c + inject C.src q c }

/-- State after `n` steps starting at time `t` from `s`. -/
def Cfg.run (f : ℕ → Fin ns → R) (t : ℕ) (s : St d R) : ℕ → St d R
  | 0 => s
  | n + 1 => C.next (f (t + n)) (Cfg.run f t s n)

/-- What a receiver records from a wavefield. -/
def sample {m : ℕ} (loc : Fin m → Option (Cell d)) (u : Fld d R) : Fin m → R :=
  fun i => match loc i with
    | some c => u c
    | none => 0

/-- Snapshot stored for the velocity gradient. -/
def Cfg.snap (s : St d R) : Fld d R := fun c =>
  if C.Inner c then 2 * C.v c * C.dt ^ 2 * C.lap s c else 0

/-- The state the forward driver starts from. -/
def Cfg.start (w : Init d R) : St d R :=
  ⟨C.createOrPad w.wfc, C.createOrPad w.wfp,
    fun k => C.zeroInterior k (C.createOrPad (w.psi k)),
    fun k => C.zeroInterior k (C.createOrPad (w.zeta k))⟩

/-- Fields vanish off the interior; memory variables vanish between the PMLs. -/
structure Cfg.Good (s : St d R) : Prop where
  u : ∀ c, ¬C.Inner c → s.u c = 0
  p : ∀ c, ¬C.Inner c → s.p c = 0
  psi : ∀ k c, ¬C.Inner c → s.psi k c = 0
  zeta : ∀ k c, ¬C.Inner c → s.zeta k c = 0
  psi_mid : ∀ k c, C.Mid k (c k) → s.psi k c = 0
  zeta_mid : ∀ k c, C.Mid k (c k) → s.zeta k c = 0

variable {C}

theorem Cfg.start_good (w : Init d R) : C.Good (C.start w) := by
  have h : ∀ (o : Option (Fld d R)) c, ¬C.Inner c → C.createOrPad o c = 0 := by
    intro o c hc
    cases o <;> simp [Cfg.createOrPad, hc]
  constructor
  · intro c hc; exact h _ _ hc
  · intro c hc; exact h _ _ hc
  · intro k c hc; simp [Cfg.start, Cfg.zeroInterior, h _ _ hc]
  · intro k c hc; simp [Cfg.start, Cfg.zeroInterior, h _ _ hc]
  · intro k c hc
    simp only [Cfg.start, Cfg.zeroInterior]
    exact if_pos hc
  · intro k c hc
    simp only [Cfg.start, Cfg.zeroInterior]
    exact if_pos hc

theorem inject_outside (h : C.WF) (q : Fin ns → R) (c : Cell d) (hc : ¬C.Inner c) :
    inject C.src q c = 0 := by
  refine Finset.sum_eq_zero fun i _ => ?_
  rw [if_neg]
  intro hi
  exact hc (h.src_in i c hi)

theorem Cfg.refStep_good (h : C.WF) {s : St d R} (hs : C.Good s) : C.Good (C.refStep s) := by
  constructor
  · intro c hc; simp [Cfg.refStep, hc]
  · intro c hc; exact hs.u c hc
  · intro k c hc; simp [Cfg.refStep, hc]
  · intro k c hc; simp [Cfg.refStep, hc]
  · intro k c hc; simp [Cfg.refStep, h.a_mid k _ hc, h.b_mid k _ hc]
  · intro k c hc; simp [Cfg.refStep, h.a_mid k _ hc, h.b_mid k _ hc]

theorem Cfg.next_good (h : C.WF) (q : Fin ns → R) {s : St d R} (hs : C.Good s) :
    C.Good (C.next q s) := by
  have g := C.refStep_good h hs
  exact ⟨fun c hc => by simp [Cfg.next, g.u c hc, inject_outside h q c hc], g.p, g.psi, g.zeta,
    g.psi_mid, g.zeta_mid⟩

theorem Cfg.run_good (h : C.WF) (f : ℕ → Fin ns → R) (t : ℕ) {s : St d R} (hs : C.Good s) :
    ∀ n, C.Good (C.run f t s n)
  | 0 => hs
  | n + 1 => C.next_good h _ (Cfg.run_good h f t hs n)

theorem Cfg.run_add (f : ℕ → Fin ns → R) (t : ℕ) (s : St d R) (m n : ℕ) :
    C.run f t s (m + n) = C.run f (t + m) (C.run f t s m) n := by
  induction n with
  | zero => rfl
  | succ n ih => rw [← Nat.add_assoc, Cfg.run, ih, Cfg.run, Nat.add_assoc]

end Dw.Scalar
