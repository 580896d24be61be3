import Verif.Elastic.Model
import Verif.Acoustic.Forward

/-!
# The elastic forward driver computes a reference recursion
-/

namespace Dw.Elastic

open Dw.Scalar (Region addTo recordFrom inject sample addTo_eq recordFrom_zero)
open Dw.Born (updStore updRcd)
open Dw.Acoustic (inject_out pad_pos)

variable {d np mp : ℕ} {nv mv : Fin d → ℕ} {R : Type*} [Field R]

/-- Points of the quantities at `L` that are updated. -/
def Cfg.InnerAt (C : Cfg d np mp nv mv R) (L : Loc d) (c : Cell d) : Prop :=
  C.Inner c ∧ ∀ k, L k = true → c k < C.n k - C.acc.pad

instance (C : Cfg d np mp nv mv R) (L : Loc d) (c : Cell d) : Decidable (C.InnerAt L c) :=
  inferInstanceAs (Decidable (_ ∧ _))

/-- Half (`h`) or integer coordinates outside the PML of dimension `k`. -/
def Cfg.MidAt (C : Cfg d np mp nv mv R) (h : Bool) (k : Fin d) (x : ℤ) : Prop :=
  (C.acc.pad : ℤ) + C.w0 k ≤ x ∧ x < C.n k - C.w1 k - (C.acc.pad - 1 + if h then 1 else 0)

instance (C : Cfg d np mp nv mv R) (h : Bool) (k : Fin d) (x : ℤ) : Decidable (C.MidAt h k x) :=
  inferInstanceAs (Decidable (_ ∧ _))

/-- What the setup code guarantees. -/
structure Cfg.WF (C : Cfg d np mp nv mv R) : Prop where
  w0_nonneg : ∀ k, 0 ≤ C.w0 k
  w1_nonneg : ∀ k, 0 ≤ C.w1 k
  /-- at least one model cell -/
  size : ∀ k, 2 * (C.acc.pad : ℤ) + C.w0 k + C.w1 k ≤ C.n k
  pa_mid : ∀ h k x, C.MidAt h k x → C.pa h k x = 0
  pb_mid : ∀ h k x, C.MidAt h k x → C.pb h k x = 0
  srcP_in : ∀ i c, C.srcP i = some c → C.Inner c
  srcV_in : ∀ k i c, C.srcV k i = some c → C.InnerAt (vLoc k) c
  rcvP_in : ∀ i c, C.rcvP i = some c → C.Inner c
  rcvV_in : ∀ k i c, C.rcvV k i = some c → C.InnerAt (vLoc k) c

/-- Shape of the wavefields between steps. -/
structure Cfg.Good (C : Cfg d np mp nv mv R) (w : Wavefields d R) : Prop where
  v : ∀ i c, ¬C.InnerAt (vLoc i) c → w.v i c = 0
  s : ∀ i c, ¬C.Inner c → w.s i c = 0
  sh : ∀ p c, ¬C.InnerAt (sLoc p.1.1 p.1.2) c → w.sh p c = 0
  mv : ∀ i j c, ¬C.InnerAt (sLoc i j) c → w.mv i j c = 0
  ms : ∀ i j c, ¬C.InnerAt (vLoc i) c → w.ms i j c = 0
  mv_mid : ∀ i j c, C.MidAt (sLoc i j j) j (c j) → w.mv i j c = 0
  ms_mid : ∀ i j c, C.MidAt (vLoc i j) j (c j) → w.ms i j c = 0

/-! ### Pairs of dimensions -/

theorem pick_eq {α : Type*} {n : Fin d → α} {l r : Sh d → α} (F : Fin d → Fin d → α)
    (hn : ∀ i, n i = F i i) (hl : ∀ p : Sh d, l p = F p.1.1 p.1.2) (hr : ∀ p : Sh d, r p = F p.1.2 p.1.1)
    (i j : Fin d) : pick n l r i j = F i j := by
  unfold pick
  split_ifs with h1 h2
  · exact hl _
  · exact hr _
  · have : i = j := le_antisymm (not_lt.1 h2) (not_lt.1 h1)
    subst this
    exact hn i

theorem pick_self {α : Type*} (n : Fin d → α) (l r : Sh d → α) (i : Fin d) : pick n l r i i = n i := by
  simp [pick]

theorem pick_lt {α : Type*} (n : Fin d → α) (l r : Sh d → α) (p : Sh d) :
    pick n l r p.1.1 p.1.2 = l p := by
  simp [pick, p.2]

theorem pick_gt {α : Type*} (n : Fin d → α) (l r : Sh d → α) (p : Sh d) :
    pick n l r p.1.2 p.1.1 = r p := by
  simp [pick, p.2, p.2.le]

theorem sLoc_diag (i : Fin d) : sLoc i i = fun _ => false := by
  funext k; simp [sLoc]

theorem sLoc_comm (i j : Fin d) : sLoc i j = sLoc j i := by
  funext k; simp only [sLoc]; exact bne_comm

theorem sLoc_right (i j : Fin d) : sLoc i j j = !vLoc i j := by
  simp only [sLoc, vLoc, beq_self_eq_true]; cases (j == i) <;> rfl

theorem sLoc_left (i j : Fin d) : sLoc j i j = !vLoc i j := by rw [sLoc_comm, sLoc_right]

theorem sLoc_lt_right (p : Sh d) : sLoc p.1.1 p.1.2 p.1.2 = true := by
  rw [sLoc_right]; simp [vLoc, p.2.ne']

theorem sLoc_lt_left (p : Sh d) : sLoc p.1.1 p.1.2 p.1.1 = true := by
  rw [sLoc_left]; simp [vLoc, p.2.ne]

theorem stressNests_nodup (d : ℕ) : (stressNests d).Nodup := by
  unfold stressNests
  refine List.nodup_cons.2 ⟨?_, ?_⟩
  · simp only [List.mem_flatMap, List.mem_filterMap, not_exists, not_and]
    intro j _ i _
    split_ifs <;> simp
  · refine List.nodup_flatMap.2 ⟨fun j _ => ?_, ?_⟩
    · refine List.Nodup.filterMap ?_ (List.nodup_reverse.2 (List.nodup_finRange d))
      intro a a' b h1 h2
      simp only [Option.mem_def] at h1 h2
      split_ifs at h1 h2
      simp only [Option.some.injEq] at h1 h2
      rw [← h2] at h1
      simp only [Option.some.injEq, Subtype.mk.injEq, Prod.mk.injEq, and_true] at h1
      exact h1
    · refine (List.nodup_reverse.2 (List.nodup_finRange d)).imp ?_
      intro j j' hj
      simp only [Function.onFun, List.disjoint_left, List.mem_filterMap, not_exists, not_and]
      rintro x ⟨i, -, hi⟩ i' -
      split_ifs at hi with h1
      simp only [Option.some.injEq] at hi
      split_ifs with h2
      · simp only [Option.some.injEq, ← hi, Subtype.mk.injEq, Prod.mk.injEq, not_and]
        exact fun _ h => hj h.symm
      · simp

theorem mem_stressNests (k : Option (Sh d)) : k ∈ stressNests d := by
  unfold stressNests
  cases k with
  | none => simp
  | some p =>
      refine List.mem_cons_of_mem _ ?_
      simp only [List.mem_flatMap, List.mem_filterMap, List.mem_reverse, List.mem_finRange, true_and]
      exact ⟨p.1.2, p.1.1, by simp [p.2]⟩

/-! ### Reference recursion -/

variable (C : Cfg d np mp nv mv R)

/-- Derivative along dimension `k`, at half (`h`) or at integer points. -/
def Cfg.D (h : Bool) (k : Fin d) (u : Fld d R) : Fld d R := fun c =>
  cD C.acc h (1 / C.dx k) fun x => u (c.shift k x)

/-- Memory variable at `L` of the derivative of `u` along `k`. -/
def Cfg.mem' (L : Loc d) (k : Fin d) (u m : Fld d R) : Fld d R := fun c =>
  if C.InnerAt L c then C.pa (L k) k (c k) * m c + C.pb (L k) k (c k) * C.D (L k) k u c else 0

/-- Stretched derivative of `u` along `k` at `L`. -/
def Cfg.str (L : Loc d) (k : Fin d) (u m : Fld d R) : Fld d R := fun c =>
  if C.InnerAt L c then C.D (L k) k u c + C.mem' L k u m c else 0

/-- Array of `σ_ij`. -/
def Wavefields.sig (s : Wavefields d R) (i j : Fin d) : Fld d R := sigOf s.s s.sh i j

/-- Stretched divergence of row `i` of the stress. -/
def Cfg.divS (s : Wavefields d R) (i : Fin d) : Fld d R := fun c =>
  ∑ j, C.str (vLoc i) j (s.sig i j) (s.ms i j) c

/-- Stretched derivative of `v_i` along `j`. -/
def Cfg.gradV (s : Wavefields d R) (i j : Fin d) : Fld d R := C.str (sLoc i j) j (s.v i) (s.mv i j)

/-- The velocity half of a step. -/
def Cfg.halfV (q : (k : Fin d) → Fin (nv k) → R) (s : Wavefields d R) : Wavefields d R where
  v := fun i c => s.v i c + C.B i c * C.dt * C.divS s i c + inject (C.srcV i) (q i) c
  s := s.s
  sh := s.sh
  mv := s.mv
  ms := fun i j => C.mem' (vLoc i) j (s.sig i j) (s.ms i j)

/-- The stress half of a step. -/
def Cfg.halfS (q : Fin np → R) (s : Wavefields d R) : Wavefields d R where
  v := s.v
  s := fun i c => s.s i c + C.dt * (C.lam c * ∑ k, C.gradV s k k c + 2 * C.mu c * C.gradV s i i c)
    + inject C.srcP q c
  sh := fun p c => s.sh p c + C.dt * C.muS p c * (C.gradV s p.1.1 p.1.2 c + C.gradV s p.1.2 p.1.1 c)
  mv := fun i j => C.mem' (sLoc i j) j (s.v i) (s.mv i j)
  ms := s.ms

/-- One step. -/
def Cfg.next (qp : Fin np → R) (qv : (k : Fin d) → Fin (nv k) → R) (s : Wavefields d R) :
    Wavefields d R := C.halfS qp (C.halfV qv s)

/-- `n` steps. -/
def Cfg.run (C : Cfg d np mp nv mv R) (fp : ℕ → Fin np → R) (fv : (k : Fin d) → ℕ → Fin (nv k) → R)
    (s : Wavefields d R) : ℕ → Wavefields d R
  | 0 => s
  | n + 1 => C.next (fp n) (fun k => fv k n) (C.run fp fv s n)

/-- Pressure, as the sum of the normal stresses. -/
def Wavefields.prs (s : Wavefields d R) : Fld d R := fun c => ∑ i, s.s i c

variable {C}

theorem mem'_out {L : Loc d} {k : Fin d} {u m : Fld d R} {c : Cell d} (hc : ¬C.InnerAt L c) :
    C.mem' L k u m c = 0 := if_neg hc

theorem str_out {L : Loc d} {k : Fin d} {u m : Fld d R} {c : Cell d} (hc : ¬C.InnerAt L c) :
    C.str L k u m c = 0 := if_neg hc

theorem mem'_mid (h : C.WF) {L : Loc d} {k : Fin d} {u m : Fld d R} {c : Cell d}
    (hc : C.MidAt (L k) k (c k)) : C.mem' L k u m c = 0 := by
  simp [Cfg.mem', h.pa_mid _ k _ hc, h.pb_mid _ k _ hc]

theorem divS_out {s : Wavefields d R} {i : Fin d} {c : Cell d} (hc : ¬C.InnerAt (vLoc i) c) :
    C.divS s i c = 0 := Finset.sum_eq_zero fun _ _ => str_out hc

omit [Field R] in
theorem innerAt_diag {i : Fin d} {c : Cell d} : C.InnerAt (sLoc i i) c ↔ C.Inner c := by
  simp [Cfg.InnerAt, sLoc_diag]

theorem gradV_diag_out {s : Wavefields d R} {i : Fin d} {c : Cell d} (hc : ¬C.Inner c) :
    C.gradV s i i c = 0 := str_out (mt innerAt_diag.1 hc)

theorem halfV_good (h : C.WF) (q : (k : Fin d) → Fin (nv k) → R) {s : Wavefields d R}
    (g : C.Good s) : C.Good (C.halfV q s) where
  v := fun i c hc => by
    simp [Cfg.halfV, g.v i c hc, divS_out hc, inject_out (h.srcV_in i) _ c hc]
  s := g.s
  sh := g.sh
  mv := g.mv
  ms := fun i j c hc => mem'_out hc
  mv_mid := g.mv_mid
  ms_mid := fun i j c hc => mem'_mid h hc

theorem halfS_good (h : C.WF) (q : Fin np → R) {s : Wavefields d R} (g : C.Good s) :
    C.Good (C.halfS q s) where
  v := g.v
  s := fun i c hc => by
    simp [Cfg.halfS, g.s i c hc, gradV_diag_out hc, inject_out h.srcP_in _ c hc]
  sh := fun p c hc => by
    have h1 : C.gradV s p.1.1 p.1.2 c = 0 := str_out hc
    have h2 : C.gradV s p.1.2 p.1.1 c = 0 := str_out (by rwa [sLoc_comm])
    simp [Cfg.halfS, g.sh p c hc, h1, h2]
  mv := fun i j c hc => mem'_out hc
  ms := g.ms
  mv_mid := fun i j c hc => mem'_mid h hc
  ms_mid := g.ms_mid

theorem next_good (h : C.WF) (qp : Fin np → R) (qv : (k : Fin d) → Fin (nv k) → R)
    {s : Wavefields d R} (g : C.Good s) : C.Good (C.next qp qv s) :=
  halfS_good h _ (halfV_good h _ g)

theorem run_good (h : C.WF) (fp : ℕ → Fin np → R) (fv : (k : Fin d) → ℕ → Fin (nv k) → R)
    {s : Wavefields d R} (g : C.Good s) : ∀ n, C.Good (C.run fp fv s n)
  | 0 => g
  | n + 1 => next_good h _ _ (run_good h fp fv g n)

theorem createOrPad_out {u : Option (Fld d R)} {c : Cell d} (hc : ¬C.Inner c) :
    C.createOrPad u c = 0 := by
  cases u <;> simp [Cfg.createOrPad, hc]

theorem zeroEdges_out {L : Loc d} {u : Option (Fld d R)} {c : Cell d} (hc : ¬C.InnerAt L c) :
    C.zeroEdges L (C.createOrPad u) c = 0 := by
  unfold Cfg.zeroEdges
  split_ifs with he
  · rfl
  · refine createOrPad_out fun hi => hc ⟨hi, fun k hk => ?_⟩
    have := hi k
    have : c k ≠ C.n k - C.acc.pad := fun e => he ⟨k, hk, e⟩
    omega

theorem zeroInterior_zero {k : Fin d} {h : Bool} {u : Fld d R} {c : Cell d} (hu : u c = 0) :
    C.zeroInterior k h u c = 0 := by
  unfold Cfg.zeroInterior
  split_ifs <;> simp [hu]

theorem prepare_good (w : Init d R) : C.Good (C.prepare w) where
  v := fun _ _ hc => zeroEdges_out hc
  s := fun _ _ hc => createOrPad_out hc
  sh := fun _ _ hc => zeroEdges_out hc
  mv := fun _ _ _ hc => zeroInterior_zero (zeroEdges_out hc)
  ms := fun _ _ _ hc => zeroInterior_zero (zeroEdges_out hc)
  mv_mid := fun _ _ _ hc => if_pos hc
  ms_mid := fun _ _ _ hc => if_pos hc

/-! ### The kernel -/

omit [Field R] in
theorem bounds_in {A : CArgs d np mp nv mv R} (L : Loc d) (c : Cell d) :
    (A.bounds L).In c ↔ A.toCfg.InnerAt L c := by
  constructor
  · intro h
    refine ⟨fun j => ?_, fun k hk => ?_⟩
    · have := h j
      simp only [CArgs.bounds] at this
      split_ifs at this <;> omega
    · have := h k
      simp only [CArgs.bounds, hk, if_true] at this
      omega
  · rintro ⟨h, h1⟩ j
    have := h j
    simp only [CArgs.bounds]
    split_ifs with e
    · have := h1 j e; omega
    · omega

theorem fwd_ordered (h : C.WF) (L : Loc d) : (C.fwdArgs.bounds L).Ordered := by
  intro k
  have h1 := h.w0_nonneg k
  have h2 := h.w1_nonneg k
  have h3 := h.size k
  have h4 := pad_pos C.acc
  simp only [CArgs.bounds, Cfg.fwdArgs]
  split_ifs <;> omega

theorem fwd_mid (L : Loc d) (k : Fin d) (c : Cell d) :
    (C.fwdArgs.bounds L).regionOf c k = .mid ↔ C.MidAt (L k) k (c k) := by
  rw [Bounds.regionOf_mid]
  simp only [CArgs.bounds, Cfg.fwdArgs, Cfg.MidAt]
  split_ifs <;> omega

/-- The memory variable computed by the kernel at a cell. -/
theorem mem_branch (h : C.WF) {L : Loc d} {k : Fin d} {hb : Bool} (e : L k = hb) {u m : Fld d R}
    {c : Cell d} (hc : C.InnerAt L c) (hm : C.MidAt hb k (c k) → m c = 0) :
    (if (C.fwdArgs.bounds L).regionOf c k = .mid then m c
      else C.fwdArgs.pa hb k (c k) * m c + C.fwdArgs.pb hb k (c k) *
        cD C.fwdArgs.acc hb (C.fwdArgs.rdx k) fun x => u (c.shift k x)) = C.mem' L k u m c := by
  subst e
  simp only [fwd_mid]
  by_cases hmid : C.MidAt (L k) k (c k)
  · rw [if_pos hmid, hm hmid, mem'_mid h hmid]
  · rw [if_neg hmid, Cfg.mem', if_pos hc]
    rfl

/-- The stretched derivative computed by the kernel at a cell. -/
theorem str_branch (h : C.WF) {L : Loc d} {k : Fin d} {hb : Bool} (e : L k = hb) {u m : Fld d R}
    {c : Cell d} (hc : C.InnerAt L c) :
    (if (C.fwdArgs.bounds L).regionOf c k = .mid
      then cD C.fwdArgs.acc hb (C.fwdArgs.rdx k) fun x => u (c.shift k x)
      else (cD C.fwdArgs.acc hb (C.fwdArgs.rdx k) fun x => u (c.shift k x)) + C.mem' L k u m c) =
    C.str L k u m c := by
  subst e
  simp only [fwd_mid]
  rw [Cfg.str, if_pos hc]
  by_cases hmid : C.MidAt (L k) k (c k)
  · rw [if_pos hmid, mem'_mid h hmid, add_zero]
    rfl
  · rw [if_neg hmid]
    rfl

/-- What the velocity loops leave in each cell. -/
theorem fold_velBody (h : C.WF) (save : Bool) {s : Wavefields d R} (g : C.Good s)
    (st : Fin d → Fld d R) (i : Fin d) (c : Cell d) :
    foldUpdate (velBody C.fwdArgs save (sigOf s.s s.sh))
      (regionVisits (List.finRange d) fun i => C.fwdArgs.bounds (vLoc i))
      (fun ic => ⟨s.v ic.1 ic.2, fun j => s.ms ic.1 j ic.2, st ic.1 ic.2⟩) (i, c) =
    ⟨s.v i c + C.B i c * C.dt * C.divS s i c,
      fun j => C.mem' (vLoc i) j (s.sig i j) (s.ms i j) c,
      if save = true ∧ C.InnerAt (vLoc i) c then C.dt * C.divS s i c else st i c⟩ := by
  rw [fold_regionVisits (fun k _ => fwd_ordered h _) (List.nodup_finRange d) _ _ i
    (List.mem_finRange i)]
  have e : (C.fwdArgs.bounds (vLoc i)).In c ↔ C.InnerAt (vLoc i) c := bounds_in _ c
  by_cases hc : C.InnerAt (vLoc i) c
  · rw [if_pos (e.2 hc)]
    have h1 := fun j => mem_branch h (rfl : vLoc i j = _) (u := s.sig i j) hc (fun hm => g.ms_mid i j c hm)
    have h2 := fun j => str_branch h (rfl : vLoc i j = _) (u := s.sig i j) (m := s.ms i j) hc
    simp only [Wavefields.sig] at h1 h2
    simp only [velBody, h1, h2, hc, and_true]
    rfl
  · rw [if_neg (fun h => hc (e.1 h))]
    simp [divS_out hc, mem'_out hc, g.ms i _ c hc, hc]

/-- The cells before the stress loops. -/
def sInit (s : Wavefields d R) (stN : Fin d → Fld d R) (stS : Sh d → Fld d R)
    (kc : Option (Sh d) × Cell d) : SCell d R :=
  { s := fun i => s.s i kc.2
    m := fun i => s.mv i i kc.2
    store := fun i => stN i kc.2
    sh := kc.1.elim 0 fun p => s.sh p kc.2
    ml := kc.1.elim 0 fun p => s.mv p.1.1 p.1.2 kc.2
    mr := kc.1.elim 0 fun p => s.mv p.1.2 p.1.1 kc.2
    storeS := kc.1.elim 0 fun p => stS p kc.2 }

/-- What the loop over the normal stresses leaves in each cell. -/
theorem fold_strBody_none (h : C.WF) (saveN saveS : Bool) {s : Wavefields d R} (g : C.Good s)
    (stN : Fin d → Fld d R) (stS : Sh d → Fld d R) (c : Cell d) :
    foldUpdate (strBody C.fwdArgs saveN saveS s.v)
      (regionVisits (stressNests d) fun k => C.fwdArgs.bounds (nestLoc k)) (sInit s stN stS) (none, c) =
    { sInit s stN stS (none, c) with
      s := fun i => s.s i c
        + C.dt * (C.lam c * ∑ k, C.gradV s k k c + 2 * C.mu c * C.gradV s i i c)
      m := fun i => C.mem' (sLoc i i) i (s.v i) (s.mv i i) c
      store := fun i => if saveN = true ∧ C.Inner c then C.dt * C.gradV s i i c else stN i c } := by
  rw [fold_regionVisits (fun k _ => fwd_ordered h _) (stressNests_nodup d) _ _ none
    (mem_stressNests _)]
  have e : (C.fwdArgs.bounds (nestLoc none)).In c ↔ C.Inner c :=
    (bounds_in _ c).trans (by simp [Cfg.InnerAt, nestLoc, Cfg.fwdArgs, Cfg.Inner])
  by_cases hc : C.Inner c
  · rw [if_pos (e.2 hc)]
    have hin : C.InnerAt (nestLoc none) c := ⟨hc, by simp [nestLoc]⟩
    have h1 := fun i => mem_branch h (L := nestLoc none) (k := i) (hb := false) rfl (u := s.v i) (m := s.mv i i) hin
      (fun hm => g.mv_mid i i c (by rwa [sLoc_diag]))
    have h2 := fun i => str_branch h (L := nestLoc none) (k := i) (hb := false) rfl (u := s.v i) (m := s.mv i i) hin
    simp only [strBody, sInit, h1, h2, hc, and_true, ← Finset.mul_sum, Cfg.gradV, sLoc_diag]
    rfl
  · rw [if_neg (fun h => hc (e.1 h))]
    simp [sInit, gradV_diag_out hc, mem'_out (mt innerAt_diag.1 hc), hc, g.mv _ _ c (mt innerAt_diag.1 hc)]

/-- What the loop over a shear stress leaves in each cell. -/
theorem fold_strBody_some (h : C.WF) (saveN saveS : Bool) {s : Wavefields d R} (g : C.Good s)
    (stN : Fin d → Fld d R) (stS : Sh d → Fld d R) (p : Sh d) (c : Cell d) :
    foldUpdate (strBody C.fwdArgs saveN saveS s.v)
      (regionVisits (stressNests d) fun k => C.fwdArgs.bounds (nestLoc k)) (sInit s stN stS) (some p, c) =
    { sInit s stN stS (some p, c) with
      sh := s.sh p c + C.dt * C.muS p c * (C.gradV s p.1.1 p.1.2 c + C.gradV s p.1.2 p.1.1 c)
      ml := C.mem' (sLoc p.1.1 p.1.2) p.1.2 (s.v p.1.1) (s.mv p.1.1 p.1.2) c
      mr := C.mem' (sLoc p.1.2 p.1.1) p.1.1 (s.v p.1.2) (s.mv p.1.2 p.1.1) c
      storeS := if saveS = true ∧ C.InnerAt (sLoc p.1.1 p.1.2) c
        then C.dt * (C.gradV s p.1.1 p.1.2 c + C.gradV s p.1.2 p.1.1 c) else stS p c } := by
  rw [fold_regionVisits (fun k _ => fwd_ordered h _) (stressNests_nodup d) _ _ (some p)
    (mem_stressNests _)]
  have e : (C.fwdArgs.bounds (nestLoc (some p))).In c ↔ C.InnerAt (sLoc p.1.1 p.1.2) c := bounds_in _ c
  by_cases hc : C.InnerAt (sLoc p.1.1 p.1.2) c
  · rw [if_pos (e.2 hc)]
    have h1 := mem_branch h (L := nestLoc (some p)) (sLoc_lt_right p) (u := s.v p.1.1) hc
      (fun hm => g.mv_mid p.1.1 p.1.2 c (by rwa [sLoc_lt_right]))
    have h2 := str_branch h (L := nestLoc (some p)) (sLoc_lt_right p) (u := s.v p.1.1) (m := s.mv p.1.1 p.1.2) hc
    have h3 := mem_branch h (L := nestLoc (some p)) (sLoc_lt_left p) (u := s.v p.1.2) hc
      (fun hm => g.mv_mid p.1.2 p.1.1 c (by rwa [sLoc_comm, sLoc_lt_left]))
    have h4 := str_branch h (L := nestLoc (some p)) (sLoc_lt_left p) (u := s.v p.1.2) (m := s.mv p.1.2 p.1.1) hc
    simp only [strBody, sInit, Option.elim, h1, h2, h3, h4, hc, and_true, Cfg.gradV,
      sLoc_comm p.1.2 p.1.1, add_comm (C.str (nestLoc (some p)) p.1.1 (s.v p.1.2) (s.mv p.1.2 p.1.1) c)]
    rfl
  · rw [if_neg (fun h => hc (e.1 h))]
    have hc' : ¬C.InnerAt (sLoc p.1.2 p.1.1) c := by rwa [sLoc_comm]
    simp [sInit, Cfg.gradV, str_out hc, str_out hc', mem'_out hc, mem'_out hc', hc, g.mv _ _ c hc,
      g.mv _ _ c hc']

/-- Memory after `n` steps. -/
structure FInv (C : Cfg d np mp nv mv R) (gl gm gb : Bool) (fp : ℕ → Fin np → R)
    (fv : (k : Fin d) → ℕ → Fin (nv k) → R) (s : Wavefields d R) (n : ℕ) (m : FMem d mp mv R) :
    Prop where
  wf : m.wf = C.run fp fv s n
  rcdP : ∀ t, m.rcdP t = if t < n then sample C.rcvP (C.run fp fv s t).prs else fun _ => 0
  rcdV : ∀ k t, m.rcdV k t = if t < n then sample (C.rcvV k) ((C.run fp fv s t).v k) else fun _ => 0
  storeB : ∀ i j, m.storeB j i = if gb = true ∧ j * C.ratio < n then
    (fun c => C.dt * C.divS (C.run fp fv s (j * C.ratio)) i c) else fun _ => 0
  storeN : ∀ i j, m.storeN j i = if (gl || gm) = true ∧ j * C.ratio < n then
    (fun c => C.dt * C.gradV (C.halfV (fun k => fv k (j * C.ratio)) (C.run fp fv s (j * C.ratio))) i i c)
      else fun _ => 0
  storeS : ∀ p j, m.storeS j p = if gm = true ∧ j * C.ratio < n then
    (fun c => C.dt *
      (C.gradV (C.halfV (fun k => fv k (j * C.ratio)) (C.run fp fv s (j * C.ratio))) p.1.1 p.1.2 c
      + C.gradV (C.halfV (fun k => fv k (j * C.ratio)) (C.run fp fv s (j * C.ratio))) p.1.2 p.1.1 c))
      else fun _ => 0

/-- Snapshots for a family of arrays. -/
theorem updStoreFam {ι : Type*} {ratio n : ℕ} (hr : 0 < ratio) {on : Bool} {st : ℕ → ι → Fld d R}
    {F : ℕ → ι → Fld d R} {P : ι → Cell d → Prop} [∀ i c, Decidable (P i c)] (i : ι)
    (hst : ∀ j, st j i = if on = true ∧ j * ratio < n then F (j * ratio) i else fun _ => 0)
    (hF : ∀ c, ¬P i c → F n i c = 0) (b : Bool) (hb : b = (on && n % ratio == 0))
    (j : ℕ) :
    (if b then Function.update st (n / ratio) fun i c => if b = true ∧ P i c then F n i c
      else st (n / ratio) i c else st) j i =
    if on = true ∧ j * ratio < n + 1 then F (j * ratio) i else fun _ => 0 := by
  have := updStore hr (st := fun j => st j i) (F := fun j => F j i)
    (new := fun c => if b = true ∧ P i c then F n i c else st (n / ratio) i c) hst ?_ b hb j
  · rw [← this]
    by_cases hb' : b = true
    · simp only [hb', if_true, Function.update_apply]
      split_ifs with hj <;> simp
    · simp [hb']
  · intro hon
    rw [← hb] at hon
    funext c
    by_cases hc : P i c
    · simp [hon, hc]
    · rw [hb] at hon
      simp only [Bool.and_eq_true, beq_iff_eq] at hon
      rw [if_neg (fun h => hc h.2), hst, if_neg]
      · simp [hF c hc]
      · rintro ⟨-, h2⟩
        rw [Nat.div_mul_cancel (Nat.dvd_of_mod_eq_zero hon.2)] at h2
        omega

theorem FInv.step (h : C.WF) (hr : 0 < C.ratio) {gl gm gb : Bool} {fp : ℕ → Fin np → R}
    {fv : (k : Fin d) → ℕ → Fin (nv k) → R} {s : Wavefields d R} (gs : C.Good s) {n : ℕ}
    {m : FMem d mp mv R} (hi : FInv C gl gm gb fp fv s n m) :
    FInv C gl gm gb fp fv s (n + 1) (fStep C.fwdArgs gl gm gb fp fv n m) := by
  have er : C.fwdArgs.ratio = C.ratio := rfl
  have g : C.Good m.wf := hi.wf ▸ run_good h fp fv gs n
  have g1 : C.Good (C.halfV (fun k => fv k n) m.wf) := halfV_good h _ g
  have hv := fun save => fold_velBody h save g (m.storeB (n / C.ratio))
  have hvv : ∀ save, (fun i => addTo (fun c => (foldUpdate (velBody C.fwdArgs save
        (sigOf m.wf.s m.wf.sh)) (regionVisits (List.finRange d) fun i => C.fwdArgs.bounds (vLoc i))
      (fun ic => ⟨m.wf.v ic.1 ic.2, fun j => m.wf.ms ic.1 j ic.2, m.storeB (n / C.ratio) ic.1 ic.2⟩)
      (i, c)).v) (C.srcV i) (fv i n)) = (C.halfV (fun k => fv k n) m.wf).v := by
    intro save
    funext k c
    rw [addTo_eq, hv]
    rfl
  have hN := fun saveN saveS => fold_strBody_none h saveN saveS g1 (m.storeN (n / C.ratio))
    (m.storeS (n / C.ratio))
  have hS := fun saveN saveS => fold_strBody_some h saveN saveS g1 (m.storeN (n / C.ratio))
    (m.storeS (n / C.ratio))
  set sB := (gb && n % C.ratio == 0) with hsB
  set sS := (gm && n % C.ratio == 0) with hsS
  set sN := ((gl && n % C.ratio == 0) || sS) with hsN
  have hsN' : sN = ((gl || gm) && n % C.ratio == 0) := by
    rw [hsN, hsS]; cases gl <;> cases gm <;> cases (n % C.ratio == 0) <;> rfl
  have hstep : fStep C.fwdArgs gl gm gb fp fv n m =
      { wf := C.next (fp n) (fun k => fv k n) m.wf
        storeB := if sB then Function.update m.storeB (n / C.ratio) fun i c =>
            if sB = true ∧ C.InnerAt (vLoc i) c then C.dt * C.divS m.wf i c
            else m.storeB (n / C.ratio) i c else m.storeB
        storeN := if sN then Function.update m.storeN (n / C.ratio) fun i c =>
            if sN = true ∧ C.Inner c then C.dt * C.gradV (C.halfV (fun k => fv k n) m.wf) i i c
            else m.storeN (n / C.ratio) i c else m.storeN
        storeS := if sS then Function.update m.storeS (n / C.ratio) fun p c =>
            if sS = true ∧ C.InnerAt (sLoc p.1.1 p.1.2) c then
              C.dt * (C.gradV (C.halfV (fun k => fv k n) m.wf) p.1.1 p.1.2 c
              + C.gradV (C.halfV (fun k => fv k n) m.wf) p.1.2 p.1.1 c)
            else m.storeS (n / C.ratio) p c else m.storeS
        rcdP := Function.update m.rcdP n (recordFrom m.wf.prs C.rcvP (m.rcdP n))
        rcdV := fun k => Function.update (m.rcdV k) n
          (recordFrom (m.wf.v k) (C.rcvV k) (m.rcdV k n)) } := by
    have hv1 := hvv sB
    have hv2 := hv sB
    have hN2 := hN sN sS
    have hS2 := hS sN sS
    have e0 : sInit (C.halfV (fun k => fv k n) m.wf) (m.storeN (n / C.ratio)) (m.storeS (n / C.ratio)) =
      fun kc =>
      { s := fun i => m.wf.s i kc.2
        m := fun i => m.wf.mv i i kc.2
        store := fun i => m.storeN (n / C.ratio) i kc.2
        sh := kc.1.elim 0 fun p => m.wf.sh p kc.2
        ml := kc.1.elim 0 fun p => m.wf.mv p.1.1 p.1.2 kc.2
        mr := kc.1.elim 0 fun p => m.wf.mv p.1.2 p.1.1 kc.2
        storeS := kc.1.elim 0 fun p => m.storeS (n / C.ratio) p kc.2 } := rfl
    rw [e0] at hN2 hS2
    unfold fStep
    simp only [er, ← hsS, ← hsB, ← hsN]
    have e1 : C.fwdArgs.srcV = C.srcV := rfl
    have e2 : C.fwdArgs.srcP = C.srcP := rfl
    simp only [e1, e2, hv1]
    simp only [hN2, hS2, hv2]
    congr 1
    refine Wavefields.ext rfl ?_ rfl ?_ rfl
    · funext i c
      exact addTo_eq _ _ _ _
    · funext i j c
      exact pick_eq (fun i j => C.mem' (sLoc i j) j ((C.halfV (fun k => fv k n) m.wf).v i)
        (m.wf.mv i j) c) (fun _ => rfl) (fun _ => rfl) (fun _ => rfl) i j
  rw [hstep]
  refine ⟨?_, ?_, ?_, ?_, ?_, ?_⟩
  · rw [Cfg.run, ← hi.wf]
  · exact updRcd (x := m.wf.prs) hi.rcdP (by rw [← hi.wf])
  · intro k
    exact updRcd (x := m.wf.v k) (F := fun t => sample (C.rcvV k) ((C.run fp fv s t).v k)) (hi.rcdV k)
      (by rw [← hi.wf])
  · intro i j
    have := updStoreFam hr (F := fun j i c => C.dt * C.divS (C.run fp fv s j) i c)
      (P := fun i c => C.InnerAt (vLoc i) c) i (hi.storeB i)
      (fun c hc => by simp only [divS_out hc, mul_zero]) sB hsB j
    rw [← this]
    simp only [hi.wf]
  · intro i j
    have := updStoreFam hr (F := fun j i c => C.dt * C.gradV (C.halfV (fun k => fv k j)
      (C.run fp fv s j)) i i c)
      (P := fun _ c => C.Inner c) i (hi.storeN i)
      (fun c hc => by simp only [gradV_diag_out hc, mul_zero]) sN hsN' j
    rw [← this]
    simp only [hi.wf]
  · intro p j
    have := updStoreFam hr (F := fun j p c => C.dt * (C.gradV (C.halfV (fun k => fv k j)
      (C.run fp fv s j)) p.1.1 p.1.2 c + C.gradV (C.halfV (fun k => fv k j)
      (C.run fp fv s j)) p.1.2 p.1.1 c))
      (P := fun p c => C.InnerAt (sLoc p.1.1 p.1.2) c) p (hi.storeS p)
      (fun c hc => by
        have hc' : ¬C.InnerAt (sLoc p.1.2 p.1.1) c := by rwa [sLoc_comm]
        simp only [Cfg.gradV, str_out hc, str_out hc', add_zero, mul_zero]) sS hsS j
    rw [← this]
    simp only [hi.wf]

/-- The result of the forward driver in terms of the recursion. -/
theorem forward_eq (h : C.WF) (gl gm gb : Bool) (cb : Option ℕ) (nt : ℕ) (fp : ℕ → Fin np → R)
    (fv : (k : Fin d) → ℕ → Fin (nv k) → R) (w : Init d R) (hr : 0 < C.ratio)
    (hcf : 0 < nt → 0 < cb.getD (nt / C.ratio)) :
    C.forward gl gm gb cb nt fp fv w = .ok
      (let T := nt / C.ratio * C.ratio
       let s := C.prepare w
       { out := C.unpadAll (C.run fp fv s T)
         rcdP := fun t => if t < T then sample C.rcvP (C.run fp fv s t).prs else fun _ => 0
         rcdV := fun k t => if t < T then sample (C.rcvV k) ((C.run fp fv s t).v k) else fun _ => 0
         storeB := fun j i => if gb = true ∧ j < nt / C.ratio then
           (fun c => C.dt * C.divS (C.run fp fv s (j * C.ratio)) i c) else fun _ => 0
         storeN := fun j i => if (gl || gm) = true ∧ j < nt / C.ratio then
           (fun c => C.dt * C.gradV (C.halfV (fun k => fv k (j * C.ratio))
             (C.run fp fv s (j * C.ratio))) i i c) else fun _ => 0
         storeS := fun j p => if gm = true ∧ j < nt / C.ratio then
           (fun c => C.dt *
             (C.gradV (C.halfV (fun k => fv k (j * C.ratio)) (C.run fp fv s (j * C.ratio))) p.1.1 p.1.2 c
             + C.gradV (C.halfV (fun k => fv k (j * C.ratio)) (C.run fp fv s (j * C.ratio)))
               p.1.2 p.1.1 c)) else fun _ => 0
         events := match cb with
           | none => []
           | some cf => (List.range ((nt / C.ratio + cf - 1) / cf)).map
               fun i => ⟨i * cf, C.run fp fv s (i * cf * C.ratio)⟩ }) := by
  have hlt : ∀ j, j * C.ratio < nt / C.ratio * C.ratio ↔ j < nt / C.ratio :=
    fun j => Nat.mul_lt_mul_right hr
  have inv : ∀ n, FInv C gl gm gb fp fv (C.prepare w) n
      (Driver.runF id (fStep C.fwdArgs gl gm gb fp fv) (C.fInit w) n) :=
    Driver.runF_inv ⟨rfl, fun _ => by simp [Cfg.fInit], fun _ _ => by simp [Cfg.fInit],
      fun _ _ => by simp [Cfg.fInit], fun _ _ => by simp [Cfg.fInit], fun _ _ => by simp [Cfg.fInit]⟩
      fun n m hm => hm.step h hr (prepare_good w)
  unfold Cfg.forward
  rw [if_neg hr.ne']
  by_cases hnt : 0 < nt
  · have hc := hcf hnt
    simp only [hnt, true_and, hc.ne', if_false, if_true]
    rw [Driver.driveF_eq (fun _ => rfl) _ _ hc]
    have i1 := inv (nt / C.ratio * C.ratio)
    congr 1
    congr 1
    · rw [i1.wf]
    · funext t; exact i1.rcdP t
    · funext k t; exact i1.rcdV k t
    · funext j i; rw [i1.storeB i j]; simp only [hlt]
    · funext j i; rw [i1.storeN i j]; simp only [hlt]
    · funext j p; rw [i1.storeS p j]; simp only [hlt]
    · cases cb with
      | none => simp
      | some cf => simp [(inv _).wf]
  · have h0 : nt = 0 := by omega
    subst h0
    simp only [lt_irrefl, false_and, if_false, Nat.zero_div, Nat.zero_mul, Nat.not_lt_zero,
      and_false]
    congr 1
    congr 1
    cases cb with
    | none => simp
    | some cf =>
        have : (0 + cf - 1) / cf = 0 := by
          rcases Nat.eq_zero_or_pos cf with h | h
          · subst h; simp
          · exact Nat.div_eq_of_lt (by omega)
        simp only [Option.isSome_some, if_true]
        rw [this]; rfl

end Dw.Elastic
