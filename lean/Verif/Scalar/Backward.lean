import Verif.Scalar.Forward

/-!
# The backward driver computes a reference recursion
-/

namespace Dw.Scalar

variable {d ns nr : ℕ} {R : Type*} [Field R]

/-- `v² dt²`. -/
def Cfg.V (C : Cfg d ns nr R) : Fld d R := fun c => C.v c ^ 2 * C.dt ^ 2

/-- The adjoint of the inner PML term. -/
def Cfg.bT (C : Cfg d ns nr R) (s : St d R) (k : Fin d) : Fld d R := fun c =>
  (1 + C.b k (c k)) * (C.V c * s.u c) + C.b k (c k) * s.zeta k c

/-- The adjoint of the Laplacian. -/
def Cfg.bLap (C : Cfg d ns nr R) (s : St d R) : Fld d R := fun c =>
  ∑ k, (-C.D1 k (fun c => C.db k (c k) * C.bT s k c + C.b k (c k) * s.psi k c) c
    + C.D2 k (fun c => (1 + C.b k (c k)) * C.bT s k c) c)

/-- One backward step without the receiver contribution.  `p` holds the negative of the adjoint of
the previous wavefield. -/
def Cfg.bStep (C : Cfg d ns nr R) (s : St d R) : St d R where
  u := fun c => if C.Inner c then C.bLap s c + 2 * s.u c - s.p c else 0
  p := s.u
  psi := fun k c => if C.Inner c then -C.a k (c k) * C.D1 k (C.bT s k) c + C.a k (c k) * s.psi k c
    else 0
  zeta := fun k c => if C.Inner c then C.a k (c k) * (C.V c * s.u c) + C.a k (c k) * s.zeta k c else 0

/-- One backward step followed by the injection of receiver gradients. -/
def Cfg.bNext (C : Cfg d ns nr R) (q : Fin nr → R) (s : St d R) : St d R :=
  let s' := C.bStep s
  { s' with u := fun c => s'.u c + inject C.rcv q c }

/-- Adjoint state after `n` backward steps starting from time `T`. -/
def Cfg.bRun (C : Cfg d ns nr R) (gr : ℕ → Fin nr → R) (T : ℕ) (s : St d R) : ℕ → St d R
  | 0 => s
  | n + 1 => C.bNext (gr (T - 1 - n)) (Cfg.bRun C gr T s n)

/-- The state the backward driver starts from. -/
def Cfg.bStart (C : Cfg d ns nr R) (g : Init d R) : St d R :=
  ⟨C.createOrPad g.wfc, fun c => -C.createOrPad g.wfp c,
    fun k => C.zeroInterior k (C.createOrPad (g.psi k)),
    fun k => C.zeroInterior k (C.createOrPad (g.zeta k))⟩

variable {C : Cfg d ns nr R}

theorem Cfg.bStart_good (g : Init d R) : C.Good (C.bStart g) := by
  have h := C.start_good g
  exact ⟨h.u, fun c hc => by
    have := h.p c hc
    simp only [Cfg.start] at this
    simp [Cfg.bStart, this], h.psi, h.zeta, h.psi_mid, h.zeta_mid⟩

theorem inject_rcv_outside (h : C.WF) (q : Fin nr → R) (c : Cell d) (hc : ¬C.Inner c) :
    inject C.rcv q c = 0 := by
  refine Finset.sum_eq_zero fun i _ => ?_
  rw [if_neg]
  intro hi
  exact hc (h.rcv_in i c hi)

theorem Cfg.bStep_good (h : C.WF) {s : St d R} (hs : C.Good s) : C.Good (C.bStep s) := by
  constructor
  · intro c hc; simp [Cfg.bStep, hc]
  · intro c hc; exact hs.u c hc
  · intro k c hc; simp [Cfg.bStep, hc]
  · intro k c hc; simp [Cfg.bStep, hc]
  · intro k c hc; simp [Cfg.bStep, h.a_mid k _ hc]
  · intro k c hc; simp [Cfg.bStep, h.a_mid k _ hc]

theorem Cfg.bNext_good (h : C.WF) (q : Fin nr → R) {s : St d R} (hs : C.Good s) :
    C.Good (C.bNext q s) := by
  have g := C.bStep_good h hs
  exact ⟨fun c hc => by simp [Cfg.bNext, g.u c hc, inject_rcv_outside h q c hc], g.p, g.psi, g.zeta,
    g.psi_mid, g.zeta_mid⟩

theorem Cfg.bRun_good (h : C.WF) (gr : ℕ → Fin nr → R) (T : ℕ) {s : St d R} (hs : C.Good s) :
    ∀ n, C.Good (C.bRun gr T s n)
  | 0 => hs
  | n + 1 => C.bNext_good h _ (Cfg.bRun_good h gr T hs n)

/-- The state held in the buffers. -/
def BwdBufs.st (b : BwdBufs d R) : St d R := ⟨b.wfc, b.wfp, b.psi, b.zeta⟩

structure Cfg.BOk (C : Cfg d ns nr R) (b : BwdBufs d R) : Prop where
  good : C.Good b.st
  psin : ∀ k c, ¬C.Inner c → b.psin k c = 0
  psin_mid : ∀ k c, C.Mid k (c k) → b.psin k c = 0
  zetan : ∀ k c, ¬C.Inner c → b.zetan k c = 0
  zetan_mid : ∀ k c, C.Mid k (c k) → b.zetan k c = 0

theorem Cfg.initBwdBufs_ok (g : Init d R) : C.BOk (C.initBwdBufs g) :=
  ⟨C.bStart_good g, fun _ _ _ => rfl, fun _ _ _ => rfl, fun _ _ _ => rfl, fun _ _ _ => rfl⟩

/-- What the backward kernel leaves in an interior cell. -/
theorem bwdBody_eq (h : C.WF) (load : Bool) (store : Fld d R) (s : BwdBufs d R) (hs : C.BOk s)
    (o : R) (c : Cell d) (hc : C.Inner c) :
    bwdBody C.bwdArgs load store s.wfc s.psi s.zeta (C.bwdArgs.regionOf c) c
        ⟨s.wfp c, fun k => s.psin k c, fun k => s.zetan k c, o⟩ =
      ⟨(C.bStep s.st).u c, fun k => (C.bStep s.st).psi k c, fun k => (C.bStep s.st).zeta k c,
        if load then o + s.wfc c * store c * (C.ratio : R) else o⟩ := by
  have e1 : C.bwdArgs.acc = C.acc := rfl
  have e2 : C.bwdArgs.rdx = fun k => 1 / C.dx k := rfl
  have e3 : C.bwdArgs.rdx2 = fun k => 1 / C.dx k ^ 2 := rfl
  have e4 : C.bwdArgs.a = C.a := rfl
  have e5 : C.bwdArgs.b = C.b := rfl
  have e6 : C.bwdArgs.db = C.db := rfl
  have e7 : C.bwdArgs.m = C.V := rfl
  have e8 : C.bwdArgs.ratio = C.ratio := rfl
  have hb : ∀ k, C.bwdArgs.regionOf c k = .mid → ∀ j : ℤ, -(C.acc.pad : ℤ) ≤ j → j ≤ C.acc.pad →
      C.a k (c k + j) = 0 ∧ C.b k (c k + j) = 0 ∧ C.db k (c k + j) = 0 := by
    intro k hk j h1 h2
    have h0 : C.Mid k (c k + j) := Cfg.bwd_mid h hk (by omega)
    refine ⟨h.a_mid k _ h0, h.b_mid k _ h0, h.db_mid k _ ?_ ?_⟩
    · have := Cfg.bwd_mid h hk (j := j - C.acc.pad) (by omega)
      rwa [show c k + j - (C.acc.pad : ℤ) = c k + (j - C.acc.pad) by ring]
    · have := Cfg.bwd_mid h hk (j := j + C.acc.pad) (by omega)
      rwa [show c k + j + (C.acc.pad : ℤ) = c k + (j + C.acc.pad) by ring]
  have hsum : (∑ k, if C.bwdArgs.regionOf c k = .mid then
        cDiff2 C.acc (1 / C.dx k ^ 2) (fun j => C.V (c.shift k j) * s.wfc (c.shift k j))
      else -cDiff1 C.acc (1 / C.dx k) (fun j => C.db k (c k + j) * ((1 + C.b k (c k + j)) *
          (C.V (c.shift k j) * s.wfc (c.shift k j)) + C.b k (c k + j) * s.zeta k (c.shift k j))
            + C.b k (c k + j) * s.psi k (c.shift k j))
        + cDiff2 C.acc (1 / C.dx k ^ 2) (fun j => (1 + C.b k (c k + j)) * ((1 + C.b k (c k + j)) *
          (C.V (c.shift k j) * s.wfc (c.shift k j)) + C.b k (c k + j) * s.zeta k (c.shift k j))))
      = C.bLap s.st c := by
    refine Finset.sum_congr rfl fun k _ => ?_
    have ha : ∀ j, C.db k (c k + j) * ((1 + C.b k (c k + j)) *
          (C.V (c.shift k j) * s.wfc (c.shift k j)) + C.b k (c k + j) * s.zeta k (c.shift k j))
            + C.b k (c k + j) * s.psi k (c.shift k j) =
        C.db k (c.shift k j k) * C.bT s.st k (c.shift k j)
          + C.b k (c.shift k j k) * s.st.psi k (c.shift k j) := by
      intro j; simp [Cfg.bT, BwdBufs.st]
    have hb' : ∀ j, (1 + C.b k (c k + j)) * ((1 + C.b k (c k + j)) *
          (C.V (c.shift k j) * s.wfc (c.shift k j)) + C.b k (c k + j) * s.zeta k (c.shift k j)) =
        (1 + C.b k (c.shift k j k)) * C.bT s.st k (c.shift k j) := by
      intro j; simp [Cfg.bT, BwdBufs.st]
    split_ifs with hk
    · have z1 : C.D1 k (fun c => C.db k (c k) * C.bT s.st k c + C.b k (c k) * s.st.psi k c) c = 0 := by
        rw [Cfg.D1, Dw.D1, cDiff1_congr C.acc _ (a' := fun _ => 0), cDiff1_zero]
        intro j h1 h2
        obtain ⟨-, hb0, hdb0⟩ := hb k hk j h1 h2
        simp [hb0, hdb0]
      rw [z1, neg_zero, zero_add, Cfg.D2, Dw.D2]
      refine cDiff2_congr C.acc _ ?_
      intro j h1 h2
      obtain ⟨-, hb0, hdb0⟩ := hb k hk j h1 h2
      simp [Cfg.bT, hb0, BwdBufs.st]
    · simp only [ha, hb']
      rfl
  have hpsi : ∀ k, cDiff1 C.acc (1 / C.dx k) (fun j => (1 + C.b k (c k + j)) *
      (C.V (c.shift k j) * s.wfc (c.shift k j)) + C.b k (c k + j) * s.zeta k (c.shift k j)) =
      C.D1 k (C.bT s.st k) c := by
    intro k
    simp [Cfg.D1, Dw.D1, Cfg.bT, BwdBufs.st]
  simp only [bwdBody, e1, e2, e3, e4, e5, e6, e7, e8, hsum, hpsi]
  have hmid : ∀ k, C.bwdArgs.regionOf c k = .mid → C.Mid k (c k) := by
    intro k hk
    simpa using Cfg.bwd_mid h hk (j := 0) (by omega)
  congr 1
  · simp only [Cfg.bStep, hc, if_true, BwdBufs.st]
  · funext k
    simp only [Cfg.bStep, hc, if_true]
    split_ifs with hk
    · rw [h.a_mid k _ (hmid k hk), hs.psin_mid k c (hmid k hk)]; ring
    · rfl
  · funext k
    simp only [Cfg.bStep, hc, if_true]
    split_ifs with hk
    · rw [h.a_mid k _ (hmid k hk), hs.zetan_mid k c (hmid k hk)]; ring
    · rfl

/-- The buffers as the time loop sees them in an iteration of the given parity. -/
def bBufsAt (odd : Bool) (b : BwdBufs d R) : BwdBufs d R := if odd then b.swap else b

omit [Field R] in
theorem bBufsAt_not (odd : Bool) (b : BwdBufs d R) :
    bBufsAt (!odd) (if odd then b.swap else b) = b.swap := by
  cases odd <;> simp [bBufsAt, BwdBufs.swap]

/-- One iteration of the backward time loop. -/
theorem bwdIter_eq (h : C.WF) (grad : Bool) (store : ℕ → Fld d R) (gr : ℕ → Fin nr → R) (start t : ℕ)
    (m : BwdMem d ns R) (odd : Bool) (ho : odd = ((start - 1 - t) % 2 == 1))
    (hs : C.BOk (bBufsAt odd m.bufs)) :
    let m' := bwdIter C.bwdArgs grad store gr start t m
    let s := (bBufsAt odd m.bufs).st
    C.BOk (bBufsAt (!odd) m'.bufs) ∧ (bBufsAt (!odd) m'.bufs).st = C.bNext (gr t) s ∧
      m'.gf = Function.update m.gf t (recordFrom s.u C.src (m.gf t)) ∧
      m'.gv = fun c => m.gv c + if (grad && t % C.ratio == 0) ∧ C.Inner c then
        s.u c * store (t / C.ratio) c * (C.ratio : R) else 0 := by
  intro m' s
  set b := bBufsAt odd m.bufs with hb
  have hout : ∀ c, foldUpdate (bwdBody C.bwdArgs (grad && t % C.ratio == 0) (store (t / C.ratio))
      b.wfc b.psi b.zeta)
      C.bwdArgs.visits (fun c => (⟨b.wfp c, fun k => b.psin k c, fun k => b.zetan k c,
        m.gv c⟩ : BwdCell d R)) c =
      ⟨(C.bStep s).u c, fun k => (C.bStep s).psi k c, fun k => (C.bStep s).zeta k c,
        m.gv c + if (grad && t % C.ratio == 0) ∧ C.Inner c then
          s.u c * store (t / C.ratio) c * (C.ratio : R) else 0⟩ := by
    intro c
    rw [CArgs.fold_visits (C.ordered_bwd h)]
    change (if C.Inner c then _ else _) = _
    by_cases hc : C.Inner c
    · rw [if_pos hc, bwdBody_eq h _ _ b hs _ c hc]
      simp only [hc, and_true, s, hb]
      congr 1
      split_ifs <;> simp [BwdBufs.st]
    · rw [if_neg hc]
      have g := hs.good
      simp only [Cfg.bStep, hc, if_false, and_false]
      have hwfp : b.wfp c = 0 := g.p c hc
      have hz : ∀ k, b.zetan k c = 0 := fun k => hs.zetan k c hc
      have hp : ∀ k, b.psin k c = 0 := fun k => hs.psin k c hc
      simp [hwfp, hz, hp]
  set out := foldUpdate (bwdBody C.bwdArgs (grad && t % C.ratio == 0) (store (t / C.ratio))
      b.wfc b.psi b.zeta)
      C.bwdArgs.visits (fun c => (⟨b.wfp c, fun k => b.psin k c, fun k => b.zetan k c,
        m.gv c⟩ : BwdCell d R)) with hout'
  have hm' : m' = { bufs := if odd then BwdBufs.swap { b with
                      wfp := addTo (fun c => (out c).wfp) C.rcv (gr t)
                      psin := fun k c => (out c).psin k
                      zetan := fun k c => (out c).zetan k } else { b with
                      wfp := addTo (fun c => (out c).wfp) C.rcv (gr t)
                      psin := fun k c => (out c).psin k
                      zetan := fun k c => (out c).zetan k }
                    gf := Function.update m.gf t (recordFrom b.wfc C.src (m.gf t))
                    gv := fun c => (out c).grad } := by
    simp only [m', bwdIter, ← ho]
    rfl
  have hbufs : bBufsAt (!odd) m'.bufs = (BwdBufs.swap { b with
                      wfp := addTo (fun c => (out c).wfp) C.rcv (gr t)
                      psin := fun k c => (out c).psin k
                      zetan := fun k c => (out c).zetan k }) := by
    rw [hm']; exact bBufsAt_not _ _
  have hst : (bBufsAt (!odd) m'.bufs).st = C.bNext (gr t) s := by
    rw [hbufs]
    ext1
    · funext c
      simp [BwdBufs.st, BwdBufs.swap, Cfg.bNext, addTo_eq, hout]
    · rfl
    · funext k c; simp [BwdBufs.st, BwdBufs.swap, Cfg.bNext, hout]
    · funext k c; simp [BwdBufs.st, BwdBufs.swap, Cfg.bNext, hout]
  refine ⟨⟨?_, ?_, ?_, ?_, ?_⟩, hst, ?_, ?_⟩
  · rw [hst]; exact C.bNext_good h _ hs.good
  · rw [hbufs]; exact hs.good.psi
  · rw [hbufs]; exact hs.good.psi_mid
  · rw [hbufs]; exact hs.good.zeta
  · rw [hbufs]; exact hs.good.zeta_mid
  · rw [hm']; rfl
  · rw [hm']; funext c; simp only [hout]

/-- Contribution of backward step `n` (of those starting at time `T`) to the velocity gradient. -/
def Cfg.bGrad (C : Cfg d ns nr R) (grad : Bool) (store : ℕ → Fld d R) (gr : ℕ → Fin nr → R) (T : ℕ)
    (s₀ : St d R) (n : ℕ) : Fld d R := fun c =>
  if (grad && (T - 1 - n) % C.ratio == 0) ∧ C.Inner c then
    (C.bRun gr T s₀ n).u c * store ((T - 1 - n) / C.ratio) c * (C.ratio : R) else 0

/-- Memory after `n` backward steps from adjoint state `s₀` at time `T`. -/
structure Cfg.BInv (C : Cfg d ns nr R) (grad : Bool) (store : ℕ → Fld d R) (gr : ℕ → Fin nr → R)
    (T : ℕ) (s₀ : St d R) (n : ℕ) (odd : Bool) (m : BwdMem d ns R) : Prop where
  ok : C.BOk (bBufsAt odd m.bufs)
  st : (bBufsAt odd m.bufs).st = C.bRun gr T s₀ n
  gf : ∀ t, m.gf t = if t < T ∧ T ≤ t + n then sample C.src (C.bRun gr T s₀ (T - 1 - t)).u
    else fun _ => 0
  gv : ∀ c, m.gv c = ∑ i ∈ Finset.range n, C.bGrad grad store gr T s₀ i c

theorem Cfg.BInv.step (h : C.WF) {grad : Bool} {store : ℕ → Fld d R} {gr : ℕ → Fin nr → R} {T : ℕ}
    {s₀ : St d R} {n : ℕ} {odd : Bool} {m : BwdMem d ns R} (hi : C.BInv grad store gr T s₀ n odd m)
    (hn : n < T) (start : ℕ) (ho : odd = ((start - 1 - (T - 1 - n)) % 2 == 1)) :
    C.BInv grad store gr T s₀ (n + 1) (!odd)
      (bwdIter C.bwdArgs grad store gr start (T - 1 - n) m) := by
  obtain ⟨h1, h2, h3, h4⟩ := bwdIter_eq h grad store gr start (T - 1 - n) m odd ho hi.ok
  refine ⟨h1, ?_, ?_, ?_⟩
  · rw [h2, hi.st, Cfg.bRun]
  · intro t
    rw [h3]
    by_cases ht : t = T - 1 - n
    · subst ht
      rw [Function.update_self, hi.gf, if_neg (by omega), recordFrom_zero, hi.st,
        if_pos (by omega)]
      congr 3; omega
    · rw [Function.update_of_ne ht, hi.gf t]
      have : (t < T ∧ T ≤ t + (n + 1)) ↔ (t < T ∧ T ≤ t + n) := by omega
      simp only [this]
  · intro c
    rw [h4, Finset.sum_range_succ]
    simp only
    rw [hi.gv, hi.st]
    rfl

theorem Cfg.BInv.call (h : C.WF) {grad : Bool} {store : ℕ → Fld d R} {gr : ℕ → Fin nr → R} {T : ℕ}
    {s₀ : St d R} {n₀ : ℕ} {m : BwdMem d ns R} (hi : C.BInv grad store gr T s₀ n₀ false m) (n : ℕ)
    (hn : n₀ + n ≤ T) :
    C.BInv grad store gr T s₀ (n₀ + n) (n % 2 == 1)
      (bwdCall C.bwdArgs grad store gr (T - n₀) n m) := by
  induction n with
  | zero => exact hi
  | succ n ih =>
      have ih' := ih (by omega)
      have := ih'.step h (by omega) (T - n₀) (by
        rw [show T - n₀ - 1 - (T - 1 - (n₀ + n)) = n by omega])
      rw [bwdCall, List.range_succ, List.foldl_append, List.foldl_cons, List.foldl_nil]
      have e : ((n + 1) % 2 == 1) = !(n % 2 == 1) := by
        rcases Nat.mod_two_eq_zero_or_one n with h | h <;> simp [Nat.add_mod, h]
      rw [e, show T - n₀ - 1 - n = T - 1 - (n₀ + n) by omega]
      exact this

/-- What a backward callback sees after `n` outer steps have been undone. -/
def Cfg.bEventAt (C : Cfg d ns nr R) (grad : Bool) (store : ℕ → Fld d R) (gr : ℕ → Fin nr → R)
    (N : ℕ) (s₀ : St d R) (n : ℕ) : BwdEvent d R :=
  let s := C.bRun gr (N * C.ratio) s₀ (n * C.ratio)
  ⟨N - n, ⟨s.u, s.p, s.psi, s.zeta⟩,
    fun c => ∑ i ∈ Finset.range (n * C.ratio), C.bGrad grad store gr (N * C.ratio) s₀ i c⟩

theorem Cfg.BInv.chunk (h : C.WF) {grad : Bool} {store : ℕ → Fld d R} {gr : ℕ → Fin nr → R} {N : ℕ}
    {s₀ : St d R} {m : BwdMem d ns R} {evs : List (BwdEvent d R)} (n₀ n : ℕ) (hn : n₀ + n ≤ N)
    (hi : C.BInv grad store gr (N * C.ratio) s₀ (n₀ * C.ratio) false m) :
    C.BInv grad store gr (N * C.ratio) s₀ ((n₀ + n) * C.ratio) false
        (C.bwdChunk grad store gr (m, evs) (N - n₀, n)).1 ∧
      (C.bwdChunk grad store gr (m, evs) (N - n₀, n)).2 =
        evs ++ [C.bEventAt grad store gr N s₀ (n₀ + n)] := by
  have hc := hi.call h (n * C.ratio) (by rw [← Nat.add_mul]; exact Nat.mul_le_mul_right _ hn)
  rw [← Nat.add_mul, ← Nat.sub_mul] at hc
  have hInv : C.BInv grad store gr (N * C.ratio) s₀ ((n₀ + n) * C.ratio) false
        (C.bwdChunk grad store gr (m, evs) (N - n₀, n)).1 := by
    simp only [Cfg.bwdChunk]
    by_cases ho : n * C.ratio % 2 = 0
    · rw [if_neg (by simp [ho])]
      simpa [ho] using hc
    · have ho' : n * C.ratio % 2 = 1 := by omega
      rw [if_pos ho]
      rw [ho'] at hc
      exact ⟨hc.ok, hc.st, hc.gf, hc.gv⟩
  refine ⟨hInv, ?_⟩
  have e : (C.bwdChunk grad store gr (m, evs) (N - n₀, n)).2 = evs ++ [⟨N - n₀ - n,
      (C.bwdChunk grad store gr (m, evs) (N - n₀, n)).1.bufs.wavefields,
      (C.bwdChunk grad store gr (m, evs) (N - n₀, n)).1.gv⟩] := rfl
  rw [e]
  congr 2
  have hst := hInv.st
  simp only [bBufsAt] at hst
  have hgv : (C.bwdChunk grad store gr (m, evs) (N - n₀, n)).1.gv = _ := funext hInv.gv
  simp only [Cfg.bEventAt, ← hst, hgv, Nat.sub_sub]
  rfl

theorem Cfg.BInv.chunks (h : C.WF) {grad : Bool} {store : ℕ → Fld d R} {gr : ℕ → Fin nr → R}
    {s₀ : St d R} {m : BwdMem d ns R} (N cf : ℕ)
    (hi : C.BInv grad store gr (N * C.ratio) s₀ 0 false m) (hcf : 0 < cf) :
    C.BInv grad store gr (N * C.ratio) s₀ (N * C.ratio) false
        ((bwdChunks N cf).foldl (C.bwdChunk grad store gr) (m, [])).1 ∧
      ((bwdChunks N cf).foldl (C.bwdChunk grad store gr) (m, [])).2 =
        (List.range ((N + cf - 1) / cf)).map fun i =>
          C.bEventAt grad store gr N s₀ (min N ((i + 1) * cf)) := by
  have key : ∀ K, K ≤ (N + cf - 1) / cf →
      C.BInv grad store gr (N * C.ratio) s₀ (min N (K * cf) * C.ratio) false
        (((List.range K).map fun i => (N - i * cf, min (N - i * cf) cf)).foldl
          (C.bwdChunk grad store gr) (m, [])).1 ∧
      (((List.range K).map fun i => (N - i * cf, min (N - i * cf) cf)).foldl
          (C.bwdChunk grad store gr) (m, [])).2 =
        (List.range K).map fun i => C.bEventAt grad store gr N s₀ (min N ((i + 1) * cf)) := by
    intro K
    induction K with
    | zero => intro _; simpa using hi
    | succ K ih =>
        intro hK
        obtain ⟨h1, h2⟩ := ih (by omega)
        have hlt : K * cf < N := by
          have h1 : (K + 1) * cf ≤ N + cf - 1 := by
            calc (K + 1) * cf ≤ (N + cf - 1) / cf * cf := Nat.mul_le_mul_right _ hK
              _ ≤ N + cf - 1 := Nat.div_mul_le_self _ _
          rw [Nat.add_mul, Nat.one_mul] at h1
          omega
        rw [List.range_succ, List.map_append, List.foldl_append, List.map_append]
        simp only [List.map_cons, List.map_nil, List.foldl_cons, List.foldl_nil]
        rw [Nat.min_eq_right hlt.le] at h1
        generalize hm : ((List.range K).map fun i => (N - i * cf, min (N - i * cf) cf)).foldl
          (C.bwdChunk grad store gr) (m, []) = mm at h1 h2
        obtain ⟨m1, evs⟩ := mm
        obtain ⟨h3, h4⟩ := h1.chunk h (evs := evs) (K * cf) (min (N - K * cf) cf) (by omega)
        have e : K * cf + min (N - K * cf) cf = min N ((K + 1) * cf) := by
          rw [Nat.add_mul, Nat.one_mul]; omega
        rw [e] at h3 h4
        refine ⟨h3, ?_⟩
        rw [h4]
        simp only at h2
        rw [h2]
  obtain ⟨h1, h2⟩ := key _ le_rfl
  refine ⟨?_, h2⟩
  rw [Nat.min_eq_left] at h1
  · exact h1
  have h2 := Nat.div_add_mod (N + cf - 1) cf
  have h3 := Nat.mod_lt (N + cf - 1) hcf
  rw [Nat.mul_comm] at h2
  omega

theorem Cfg.binv_init (grad : Bool) (store : ℕ → Fld d R) (gr : ℕ → Fin nr → R) (T : ℕ)
    (g : Init d R) :
    C.BInv grad store gr T (C.bStart g) 0 false
      ⟨C.initBwdBufs g, fun _ _ => 0, fun _ => 0⟩ :=
  ⟨C.initBwdBufs_ok g, rfl, fun t => by rw [if_neg (by omega)], fun _ => by simp⟩

/-- The result of the backward driver in terms of the reference recursion. -/
theorem Cfg.backward_eq (h : C.WF) (grad : Bool) (cb : Option ℕ) (nt : ℕ) (store : ℕ → Fld d R)
    (gr : ℕ → Fin nr → R) (g : Init d R) (hr : 0 < C.ratio)
    (hcf : 0 < nt → 0 < cb.getD (nt / C.ratio)) :
    C.backward grad cb nt store gr g = .ok
      (let T := nt / C.ratio * C.ratio
       let s := C.bRun gr T (C.bStart g) T
       { gv := fun c => ∑ i ∈ Finset.range T, C.bGrad grad store gr T (C.bStart g) i c
         gf := fun t => if t < T then sample C.src (C.bRun gr T (C.bStart g) (T - 1 - t)).u
           else fun _ => 0
         out := ⟨C.unpad s.u, C.unpad fun c => -s.p c, fun k => C.unpad (s.psi k),
           fun k => C.unpad (s.zeta k)⟩
         events := match cb with
           | none => []
           | some cf => (List.range ((nt / C.ratio + cf - 1) / cf)).map fun i =>
               C.bEventAt grad store gr (nt / C.ratio) (C.bStart g)
                 (min (nt / C.ratio) ((i + 1) * cf)) }) := by
  unfold Cfg.backward
  rw [if_neg hr.ne']
  by_cases hnt : 0 < nt
  · have hc := hcf hnt
    simp only [hnt, true_and, hc.ne', if_false, if_true]
    obtain ⟨h1, h2⟩ := (C.binv_init grad store gr (nt / C.ratio * C.ratio) g).chunks h
      (nt / C.ratio) _ hc
    have hst := h1.st
    simp only [bBufsAt] at hst
    congr 1
    congr 1
    · funext c; exact h1.gv c
    · funext t
      rw [h1.gf t]
      have : (t < nt / C.ratio * C.ratio ∧ nt / C.ratio * C.ratio ≤ t + nt / C.ratio * C.ratio) ↔
          t < nt / C.ratio * C.ratio := by omega
      simp only [this]
    · rw [← hst]; rfl
    · cases cb with
      | none => simp
      | some cf => simpa using h2
  · have h0 : nt = 0 := by omega
    subst h0
    simp only [lt_irrefl, false_and, if_false, Nat.zero_div, Nat.zero_mul, Nat.not_lt_zero]
    congr 1
    cases cb with
    | none => simp [Cfg.bRun, Cfg.initBwdBufs, Cfg.bStart]
    | some cf =>
        have : (0 + cf - 1) / cf = 0 := by
          rcases Nat.eq_zero_or_pos cf with h | h
          · subst h; simp
          · exact Nat.div_eq_of_lt (by omega)
        simp only [Option.isSome_some, if_true]
        rw [this]
        simp [Cfg.bRun, Cfg.initBwdBufs, Cfg.bStart]

end Dw.Scalar
