import Mathlib.Tactic.Linarith
import Verif.Scalar.Visits

/-!
# The forward driver computes the reference recursion
-/

namespace Dw.Scalar

variable {d ns nr : ℕ} {R : Type*} [Field R] {C : Cfg d ns nr R}

theorem addTo_eq {m : ℕ} (w : Fld d R) (loc : Fin m → Option (Cell d)) (amp : Fin m → R)
    (c : Cell d) : addTo w loc amp c = w c + inject loc amp c := by
  have key : ∀ (l : List (Fin m)) (w : Fld d R),
      l.foldl (fun w i => match loc i with
        | some c => Function.update w c (w c + amp i)
        | none => w) w c = w c + (l.map fun i => if loc i = some c then amp i else 0).sum := by
    intro l
    induction l with
    | nil => intro w; simp
    | cons i l ih =>
        intro w
        rw [List.foldl_cons, ih, List.map_cons, List.sum_cons, ← add_assoc]
        congr 1
        cases h : loc i with
        | none => simp
        | some c' =>
            by_cases hc : c' = c
            · subst hc; simp
            · have : ¬(some c' = some c) := by simpa using hc
              simp only [if_neg this, add_zero]
              rw [Function.update_of_ne (Ne.symm hc)]
  rw [inject, Fin.sum_univ_def]
  exact key _ w

/-- The state held in the buffers. -/
def FwdBufs.st (b : FwdBufs d R) : St d R := ⟨b.wfc, b.wfp, b.psi, b.zeta⟩

/-- Buffers in the state the driver keeps them in. -/
structure Cfg.Ok (C : Cfg d ns nr R) (b : FwdBufs d R) : Prop where
  good : C.Good b.st
  psin : ∀ k c, ¬C.Inner c → b.psin k c = 0
  psin_mid : ∀ k c, C.Mid k (c k) → b.psin k c = 0

theorem Cfg.initBufs_ok (w : Init d R) : C.Ok (C.initBufs w) :=
  ⟨C.start_good w, fun _ _ _ => rfl, fun _ _ _ => rfl⟩

/-- What the forward kernel leaves in an interior cell. -/
theorem fwdBody_eq (h : C.WF) (save : Bool) (s : FwdBufs d R) (hs : C.Ok s) (o : R)
    (c : Cell d) (hc : C.Inner c) :
    fwdBody C.fwdArgs save s.wfc s.psi (C.fwdArgs.regionOf c) c
        ⟨s.wfp c, fun k => s.psin k c, fun k => s.zeta k c, o⟩ =
      ⟨(C.refStep s.st).u c, fun k => (C.refStep s.st).psi k c,
        fun k => (C.refStep s.st).zeta k c,
        if save then C.snap s.st c else o⟩ := by
  have hmid : ∀ k, C.fwdArgs.regionOf c k = .mid → C.a k (c k) = 0 ∧ C.b k (c k) = 0 ∧
      C.db k (c k) = 0 ∧ C.tmp s.st k c = C.D2 k s.wfc c := by
    intro k hk
    have h0 : C.Mid k (c k) := by
      simpa using Cfg.fwd_mid h hk (j := 0) (by omega)
    have hb := h.b_mid k _ h0
    have hdb : C.db k (c k) = 0 := by
      refine h.db_mid k _ ?_ ?_
      · simpa [sub_eq_add_neg] using Cfg.fwd_mid h hk (j := -C.acc.pad) (by omega)
      · exact Cfg.fwd_mid h hk (j := C.acc.pad) (by omega)
    refine ⟨h.a_mid k _ h0, hb, hdb, ?_⟩
    have hz : C.D1 k (fun c => C.a k (c k) * s.psi k c) c = 0 := by
      rw [Cfg.D1, Dw.D1, cDiff1_congr C.acc _ (a' := fun _ => 0), cDiff1_zero]
      intro j hj hj'
      have := h.a_mid k _ (Cfg.fwd_mid h hk (j := j) (by omega))
      simp [this]
    simp [Cfg.tmp, hb, hdb, FwdBufs.st, hz]
  have htmp : ∀ k, (1 + C.b k (c k)) * cDiff2 C.acc (1 / C.dx k ^ 2) (fun j => s.wfc (c.shift k j))
      + C.db k (c k) * cDiff1 C.acc (1 / C.dx k) (fun j => s.wfc (c.shift k j))
      + cDiff1 C.acc (1 / C.dx k) (fun j => C.a k (c k + j) * s.psi k (c.shift k j))
      = C.tmp s.st k c := by
    intro k
    simp [Cfg.tmp, Cfg.D1, Cfg.D2, Dw.D1, Dw.D2, FwdBufs.st]
  have hsum : (∑ k, if C.fwdArgs.regionOf c k = .mid then
        cDiff2 C.acc (1 / C.dx k ^ 2) (fun j => s.wfc (c.shift k j))
      else (1 + C.b k (c k)) * C.tmp s.st k c + C.a k (c k) * s.zeta k c) = C.lap s.st c := by
    refine Finset.sum_congr rfl fun k _ => ?_
    split_ifs with hk
    · obtain ⟨ha, hb, _, ht⟩ := hmid k hk
      rw [ha, hb, ht]
      simp [Cfg.D2, Dw.D2]
    · rfl
  have e1 : C.fwdArgs.acc = C.acc := rfl
  have e2 : C.fwdArgs.rdx = fun k => 1 / C.dx k := rfl
  have e3 : C.fwdArgs.rdx2 = fun k => 1 / C.dx k ^ 2 := rfl
  have e4 : C.fwdArgs.a = C.a := rfl
  have e5 : C.fwdArgs.b = C.b := rfl
  have e6 : C.fwdArgs.db = C.db := rfl
  have e7 : C.fwdArgs.m = C.v := rfl
  have e8 : C.fwdArgs.dt2 = C.dt ^ 2 := rfl
  simp only [fwdBody, e1, e2, e3, e4, e5, e6, e7, e8, htmp, hsum]
  congr 1
  · simp only [Cfg.refStep, hc, if_true, FwdBufs.st]; ring
  · funext k
    simp only [Cfg.refStep, hc, if_true]
    split_ifs with hk
    · obtain ⟨ha, hb, _⟩ := hmid k hk
      have h0 : C.Mid k (c k) := by
        simpa using Cfg.fwd_mid h hk (j := 0) (by omega)
      rw [ha, hb, hs.psin_mid k c h0]; ring
    · rfl
  · funext k
    simp only [Cfg.refStep, hc, if_true]
    split_ifs with hk
    · obtain ⟨ha, hb, _⟩ := hmid k hk
      have h0 : C.Mid k (c k) := by
        simpa using Cfg.fwd_mid h hk (j := 0) (by omega)
      have := hs.good.zeta_mid k c h0
      rw [ha, hb]
      simpa [FwdBufs.st] using this
    · rfl
  · simp [Cfg.snap, hc]

/-- The buffers as the time loop sees them in an iteration of the given parity. -/
def bufsAt (odd : Bool) (b : FwdBufs d R) : FwdBufs d R := if odd then b.swap else b

omit [Field R] in
theorem bufsAt_not (odd : Bool) (b : FwdBufs d R) : bufsAt (!odd) (if odd then b.swap else b) =
    b.swap := by
  cases odd <;> simp [bufsAt, FwdBufs.swap]

/-- One iteration of the time loop. -/
theorem fwdIter_eq (h : C.WF) (grad : Bool) (f : ℕ → Fin ns → R) (start t : ℕ)
    (m : FwdMem d nr R) (odd : Bool) (ho : odd = ((t - start) % 2 == 1))
    (hs : C.Ok (bufsAt odd m.bufs)) :
    let m' := fwdIter C.fwdArgs grad f start t m
    let s := (bufsAt odd m.bufs).st
    C.Ok (bufsAt (!odd) m'.bufs) ∧ (bufsAt (!odd) m'.bufs).st = C.next (f t) s ∧
      m'.rcd = Function.update m.rcd t (recordFrom s.u C.rcv (m.rcd t)) ∧
      m'.store = if grad && t % C.ratio == 0 then
          Function.update m.store (t / C.ratio)
            fun c => if C.Inner c then C.snap s c else m.store (t / C.ratio) c
        else m.store := by
  intro m' s
  set b := bufsAt odd m.bufs with hb
  have hout : ∀ c, foldUpdate (fwdBody C.fwdArgs (grad && t % C.ratio == 0) b.wfc b.psi)
      C.fwdArgs.visits (fun c => (⟨b.wfp c, fun k => b.psin k c, fun k => b.zeta k c,
        m.store (t / C.ratio) c⟩ : FwdCell d R)) c =
      ⟨(C.refStep s).u c, fun k => (C.refStep s).psi k c, fun k => (C.refStep s).zeta k c,
        if (grad && t % C.ratio == 0) ∧ C.Inner c then C.snap s c
          else m.store (t / C.ratio) c⟩ := by
    intro c
    rw [CArgs.fold_visits (C.ordered_fwd h)]
    change (if C.Inner c then _ else _) = _
    by_cases hc : C.Inner c
    · rw [if_pos hc, fwdBody_eq h _ b hs _ c hc]
      simp [hc, s, hb]
    · rw [if_neg hc]
      have g := hs.good
      simp only [Cfg.refStep, hc, if_false, and_false]
      have hwfp : b.wfp c = 0 := g.p c hc
      have hz : ∀ k, b.zeta k c = 0 := fun k => g.zeta k c hc
      have hp : ∀ k, b.psin k c = 0 := fun k => hs.psin k c hc
      simp [hwfp, hz, hp]
  set out := foldUpdate (fwdBody C.fwdArgs (grad && t % C.ratio == 0) b.wfc b.psi)
      C.fwdArgs.visits (fun c => (⟨b.wfp c, fun k => b.psin k c, fun k => b.zeta k c,
        m.store (t / C.ratio) c⟩ : FwdCell d R)) with hout'
  have hm' : m' = { bufs := if odd then FwdBufs.swap { b with
                      wfp := addTo (fun c => (out c).wfp) C.src (f t)
                      psin := fun k c => (out c).psin k
                      zeta := fun k c => (out c).zeta k } else { b with
                      wfp := addTo (fun c => (out c).wfp) C.src (f t)
                      psin := fun k c => (out c).psin k
                      zeta := fun k c => (out c).zeta k }
                    store := if grad && t % C.ratio == 0 then
                      Function.update m.store (t / C.ratio) fun c => (out c).store else m.store
                    rcd := Function.update m.rcd t (recordFrom b.wfc C.rcv (m.rcd t)) } := by
    simp only [m', fwdIter, ← ho]
    rfl
  have hbufs : bufsAt (!odd) m'.bufs = (FwdBufs.swap { b with
                      wfp := addTo (fun c => (out c).wfp) C.src (f t)
                      psin := fun k c => (out c).psin k
                      zeta := fun k c => (out c).zeta k }) := by
    rw [hm']; exact bufsAt_not _ _
  have hst : (bufsAt (!odd) m'.bufs).st = C.next (f t) s := by
    rw [hbufs]
    ext1
    · funext c
      simp [FwdBufs.st, FwdBufs.swap, Cfg.next, addTo_eq, hout]
    · rfl
    · funext k c; simp [FwdBufs.st, FwdBufs.swap, Cfg.next, hout]
    · funext k c; simp [FwdBufs.st, FwdBufs.swap, Cfg.next, hout]
  refine ⟨⟨?_, ?_, ?_⟩, hst, ?_, ?_⟩
  · rw [hst]; exact C.next_good h _ hs.good
  · rw [hbufs]; exact hs.good.psi
  · rw [hbufs]; exact hs.good.psi_mid
  · rw [hm']; rfl
  · rw [hm']
    by_cases hsv : (grad && t % C.ratio == 0) = true
    · simp [hsv, hout, s]
    · simp [hsv]

theorem recordFrom_zero {m : ℕ} (w : Fld d R) (loc : Fin m → Option (Cell d)) :
    recordFrom w loc (fun _ => 0) = sample loc w := by
  funext i
  simp only [recordFrom, sample]
  cases loc i <;> rfl

/-- Memory after `T` internal steps from state `s₀` (at time 0), seen by an iteration of the given
parity. -/
structure Cfg.Inv (C : Cfg d ns nr R) (grad : Bool) (f : ℕ → Fin ns → R) (s₀ : St d R) (T : ℕ)
    (odd : Bool) (m : FwdMem d nr R) : Prop where
  ok : C.Ok (bufsAt odd m.bufs)
  st : (bufsAt odd m.bufs).st = C.run f 0 s₀ T
  rcd : ∀ t, m.rcd t = if t < T then sample C.rcv (C.run f 0 s₀ t).u else fun _ => 0
  store : ∀ j, m.store j = if grad = true ∧ j * C.ratio < T then C.snap (C.run f 0 s₀ (j * C.ratio))
    else fun _ => 0

theorem Cfg.Inv.step (h : C.WF) (hr : 0 < C.ratio) {grad : Bool} {f : ℕ → Fin ns → R} {s₀ : St d R}
    {T : ℕ} {odd : Bool} {m : FwdMem d nr R} (hi : C.Inv grad f s₀ T odd m) (start : ℕ)
    (ho : odd = ((T - start) % 2 == 1)) :
    C.Inv grad f s₀ (T + 1) (!odd) (fwdIter C.fwdArgs grad f start T m) := by
  obtain ⟨h1, h2, h3, h4⟩ := fwdIter_eq h grad f start T m odd ho hi.ok
  refine ⟨h1, ?_, ?_, ?_⟩
  · rw [h2, hi.st, Cfg.run, Nat.zero_add]
  · intro t
    rw [h3]
    by_cases ht : t = T
    · subst ht
      rw [Function.update_self, hi.rcd t, if_neg (lt_irrefl _), recordFrom_zero, hi.st,
        if_pos (Nat.lt_succ_self _)]
    · rw [Function.update_of_ne ht, hi.rcd t]
      have : t < T + 1 ↔ t < T := by omega
      simp [this]
  · intro j
    rw [h4]
    by_cases hsv : (grad && T % C.ratio == 0) = true
    · rw [if_pos hsv]
      simp only [Bool.and_eq_true, beq_iff_eq] at hsv
      have hT : T / C.ratio * C.ratio = T := Nat.div_mul_cancel (Nat.dvd_of_mod_eq_zero hsv.2)
      by_cases hj : j = T / C.ratio
      · subst hj
        rw [Function.update_self, hi.store, hT]
        simp only [lt_irrefl, and_false, if_false, hsv.1, Nat.lt_succ_self, and_self, if_true, hi.st]
        funext c
        by_cases hc : C.Inner c <;> simp [hc, Cfg.snap]
      · rw [Function.update_of_ne hj, hi.store]
        have hne : j * C.ratio ≠ T := by
          intro e
          apply hj
          rw [← e, Nat.mul_div_cancel _ hr]
        have : j * C.ratio < T + 1 ↔ j * C.ratio < T := by omega
        simp [this]
    · rw [if_neg hsv, hi.store]
      by_cases hg : grad = true
      · simp only [hg, Bool.true_and, beq_iff_eq] at hsv
        have hne : j * C.ratio ≠ T := by
          rintro rfl
          exact hsv (Nat.mul_mod_left _ _)
        have : j * C.ratio < T + 1 ↔ j * C.ratio < T := by omega
        simp [this]
      · simp [hg]

theorem Cfg.Inv.call (h : C.WF) (hr : 0 < C.ratio) {grad : Bool} {f : ℕ → Fin ns → R} {s₀ : St d R}
    {T : ℕ} {m : FwdMem d nr R} (hi : C.Inv grad f s₀ T false m) (n : ℕ) :
    C.Inv grad f s₀ (T + n) (n % 2 == 1) (fwdCall C.fwdArgs grad f T n m) := by
  induction n with
  | zero => exact hi
  | succ n ih =>
      have := ih.step h hr T (by rw [Nat.add_sub_cancel_left])
      rw [fwdCall, List.range_succ, List.foldl_append, List.foldl_cons, List.foldl_nil]
      have e : ((n + 1) % 2 == 1) = !(n % 2 == 1) := by
        rcases Nat.mod_two_eq_zero_or_one n with h | h <;> simp [Nat.add_mod, h]
      rw [e]
      exact this

/-- A pass of the chunk loop. -/
theorem Cfg.Inv.chunk (h : C.WF) (hr : 0 < C.ratio) {grad : Bool} {f : ℕ → Fin ns → R} {s₀ : St d R}
    {m : FwdMem d nr R} {evs : List (Event d R)} (step n : ℕ)
    (hi : C.Inv grad f s₀ (step * C.ratio) false m) :
    C.Inv grad f s₀ ((step + n) * C.ratio) false (C.fwdChunk grad f (m, evs) (step, n)).1 ∧
      (C.fwdChunk grad f (m, evs) (step, n)).2 = evs ++ [⟨step, m.bufs.wavefields⟩] := by
  refine ⟨?_, rfl⟩
  have hc := hi.call h hr (n * C.ratio)
  rw [← Nat.add_mul] at hc
  simp only [Cfg.fwdChunk]
  by_cases ho : n * C.ratio % 2 = 0
  · rw [if_neg (by simp [ho])]
    simpa [ho] using hc
  · have ho' : n * C.ratio % 2 = 1 := by omega
    rw [if_pos ho]
    rw [ho'] at hc
    exact ⟨hc.ok, hc.st, hc.rcd, hc.store⟩

/-- The chunks of `range(0, N, cf)` tile `0..N`. -/
theorem chunks_length (N cf : ℕ) : (chunks N cf).length = (N + cf - 1) / cf := by simp [chunks]

/-- What a forward callback sees at step `i`. -/
def Cfg.eventAt (C : Cfg d ns nr R) (f : ℕ → Fin ns → R) (s₀ : St d R) (i : ℕ) : Event d R :=
  let s := C.run f 0 s₀ (i * C.ratio)
  ⟨i, ⟨s.u, s.p, s.psi, s.zeta⟩⟩

theorem Cfg.Inv.chunks (h : C.WF) (hr : 0 < C.ratio) {grad : Bool} {f : ℕ → Fin ns → R} {s₀ : St d R}
    {m : FwdMem d nr R} (hi : C.Inv grad f s₀ 0 false m) (N cf : ℕ) (hcf : 0 < cf) :
    C.Inv grad f s₀ (N * C.ratio) false ((chunks N cf).foldl (C.fwdChunk grad f) (m, [])).1 ∧
      ((chunks N cf).foldl (C.fwdChunk grad f) (m, [])).2 =
        (List.range ((N + cf - 1) / cf)).map fun i => C.eventAt f s₀ (i * cf) := by
  have key : ∀ K, K ≤ (N + cf - 1) / cf →
      C.Inv grad f s₀ (min N (K * cf) * C.ratio) false
        (((List.range K).map fun i => (i * cf, min (N - i * cf) cf)).foldl
          (C.fwdChunk grad f) (m, [])).1 ∧
      (((List.range K).map fun i => (i * cf, min (N - i * cf) cf)).foldl
          (C.fwdChunk grad f) (m, [])).2 =
        (List.range K).map fun i => C.eventAt f s₀ (i * cf) := by
    intro K
    induction K with
    | zero => intro _; simpa using hi
    | succ K ih =>
        intro hK
        obtain ⟨h1, h2⟩ := ih (by omega)
        have hlt : K * cf < N := by
          have h1 : (K + 1) * cf ≤ N + cf - 1 := by
            calc (K + 1) * cf ≤ (N + cf - 1) / cf * cf := Nat.mul_le_mul_right _ hK
              _ ≤ N + cf - 1 := Nat.div_mul_le_self _ _
          rw [Nat.add_mul, Nat.one_mul] at h1
          omega
        rw [List.range_succ, List.map_append, List.foldl_append, List.map_append]
        simp only [List.map_cons, List.map_nil, List.foldl_cons, List.foldl_nil]
        rw [Nat.min_eq_right hlt.le] at h1
        generalize hm : ((List.range K).map fun i => (i * cf, min (N - i * cf) cf)).foldl
          (C.fwdChunk grad f) (m, []) = mm at h1 h2
        obtain ⟨m1, evs⟩ := mm
        obtain ⟨h3, h4⟩ := h1.chunk h hr (evs := evs) (K * cf) (min (N - K * cf) cf)
        refine ⟨?_, ?_⟩
        · convert h3 using 2
          rw [Nat.add_mul, Nat.one_mul]
          omega
        · rw [h4]
          simp only at h2
          rw [h2]
          congr 2
          have hst := h1.st
          simp only [bufsAt] at hst
          simp only [Cfg.eventAt, ← hst]
          rfl
  obtain ⟨h1, h2⟩ := key _ le_rfl
  refine ⟨?_, h2⟩
  rw [Nat.min_eq_left] at h1
  · exact h1
  have h2 := Nat.div_add_mod (N + cf - 1) cf
  have h3 := Nat.mod_lt (N + cf - 1) hcf
  rw [Nat.mul_comm] at h2
  omega

theorem Cfg.inv_init (f : ℕ → Fin ns → R) (grad : Bool) (w : Init d R) :
    C.Inv grad f (C.start w) 0 false ⟨C.initBufs w, fun _ _ => 0, fun _ _ => 0⟩ :=
  ⟨C.initBufs_ok w, rfl, fun _ => by simp, fun _ => by simp⟩

/-- State shown to the user: without the padding. -/
def Cfg.outOf (C : Cfg d ns nr R) (s : St d R) : Wavefields d R :=
  ⟨C.unpad s.u, C.unpad s.p, fun k => C.unpad (s.psi k), fun k => C.unpad (s.zeta k)⟩

/-- The result of the forward driver in terms of the reference recursion: with
`N = nt / ratio`, the driver performs `N * ratio` steps. -/
theorem Cfg.forward_eq (h : C.WF) (grad : Bool) (cb : Option ℕ) (nt : ℕ) (f : ℕ → Fin ns → R)
    (w : Init d R) (hr : 0 < C.ratio) (hcf : 0 < nt → 0 < cb.getD (nt / C.ratio)) :
    C.forward grad cb nt f w = .ok
      { out := C.outOf (C.run f 0 (C.start w) (nt / C.ratio * C.ratio))
        rcd := fun t => if t < nt / C.ratio * C.ratio then
          sample C.rcv (C.run f 0 (C.start w) t).u else fun _ => 0
        store := fun j => if grad = true ∧ j < nt / C.ratio then
          C.snap (C.run f 0 (C.start w) (j * C.ratio)) else fun _ => 0
        events := match cb with
          | none => []
          | some cf => (List.range ((nt / C.ratio + cf - 1) / cf)).map
              fun i => C.eventAt f (C.start w) (i * cf) } := by
  have hlt : ∀ j, j * C.ratio < nt / C.ratio * C.ratio ↔ j < nt / C.ratio :=
    fun j => Nat.mul_lt_mul_right hr
  unfold Cfg.forward
  rw [if_neg hr.ne']
  by_cases hnt : 0 < nt
  · have hc := hcf hnt
    simp only [hnt, true_and, hc.ne', if_false, if_true]
    obtain ⟨h1, h2⟩ := (C.inv_init f grad w).chunks h hr (nt / C.ratio) _ hc
    have hst := h1.st
    congr 1
    congr 1
    · simp only [bufsAt] at hst
      rw [← hst]; rfl
    · funext t; exact h1.rcd t
    · funext j; rw [h1.store j]; simp only [hlt]
    · cases cb with
      | none => simp
      | some cf => simpa using h2
  · have h0 : nt = 0 := by omega
    subst h0
    simp only [lt_irrefl, false_and, if_false, Nat.zero_div, Nat.zero_mul, Nat.not_lt_zero,
      and_false]
    congr 1
    congr 1
    cases cb with
    | none => simp
    | some cf =>
        have : (0 + cf - 1) / cf = 0 := by
          rcases Nat.eq_zero_or_pos cf with h | h
          · subst h; simp
          · exact Nat.div_eq_of_lt (by omega)
        simp only [Option.isSome_some, if_true]
        rw [this]; rfl

end Dw.Scalar
