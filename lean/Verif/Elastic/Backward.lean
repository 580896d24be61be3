import Verif.Elastic.Forward
import Verif.Born.Backward

/-!
# The elastic backward driver computes a reference recursion
-/

namespace Dw.Elastic

open Dw.Scalar (Region addTo recordFrom inject sample addTo_eq recordFrom_zero)
open Dw.Born (updGf)
open Dw.Acoustic (inject_out pad_pos)

variable {d np mp : ℕ} {nv mv : Fin d → ℕ} {R : Type*} [Field R]

/-- What the velocity loops differentiate. -/
def Cfg.advV (C : Cfg d np mp nv mv R) (l : Wavefields d R) (i j : Fin d) : Fld d R := fun c =>
  C.dt * (1 + C.pb (sLoc i j j) j (c j)) * modulus C l.s l.sh i j c
    + C.pb (sLoc i j j) j (c j) * l.mv i j c

/-- What the stress loops differentiate. -/
def Cfg.advS (C : Cfg d np mp nv mv R) (l : Wavefields d R) (i j : Fin d) : Fld d R := fun c =>
  (1 + C.pb (vLoc i j) j (c j)) * C.dt * C.B i c * l.v i c + C.pb (vLoc i j) j (c j) * l.ms i j c

/-- The velocity half of a backward step (adjoint of `halfS`). -/
def Cfg.bHalfV (C : Cfg d np mp nv mv R) (l : Wavefields d R) : Wavefields d R where
  v := fun i c => if C.InnerAt (vLoc i) c then
    l.v i c + ∑ j, -C.D (vLoc i j) j (C.advV l i j) c else 0
  s := l.s
  sh := l.sh
  mv := fun i j c => if C.InnerAt (sLoc i j) c then
    C.pa (sLoc i j j) j (c j) * (C.dt * modulus C l.s l.sh i j c + l.mv i j c) else 0
  ms := l.ms

/-- The stress half of a backward step (adjoint of `halfV`). -/
def Cfg.bHalfS (C : Cfg d np mp nv mv R) (l : Wavefields d R) : Wavefields d R where
  v := l.v
  s := fun i c => if C.Inner c then l.s i c - C.D false i (C.advS l i i) c else 0
  sh := fun p c => if C.InnerAt (sLoc p.1.1 p.1.2) c then
    l.sh p c - C.D true p.1.2 (C.advS l p.1.1 p.1.2) c - C.D true p.1.1 (C.advS l p.1.2 p.1.1) c else 0
  mv := l.mv
  ms := fun i j c => if C.InnerAt (vLoc i) c then
    C.pa (vLoc i j) j (c j) * (C.B i c * C.dt * l.v i c + l.ms i j c) else 0

/-- Adding the receiver gradients. -/
def Cfg.bAdd (C : Cfg d np mp nv mv R) (qp : Fin mp → R) (qv : (k : Fin d) → Fin (mv k) → R)
    (l : Wavefields d R) : Wavefields d R :=
  { l with
    v := fun i c => l.v i c + inject (C.rcvV i) (qv i) c
    s := fun i c => l.s i c + inject C.rcvP qp c }

/-- One backward step. -/
def Cfg.bNext (C : Cfg d np mp nv mv R) (qp : Fin mp → R) (qv : (k : Fin d) → Fin (mv k) → R)
    (l : Wavefields d R) : Wavefields d R := C.bAdd qp qv (C.bHalfS (C.bHalfV l))

/-- Backward steps `T-1, …, T-n`. -/
def Cfg.bRun (C : Cfg d np mp nv mv R) (grP : ℕ → Fin mp → R)
    (grV : (k : Fin d) → ℕ → Fin (mv k) → R) (T : ℕ) (l : Wavefields d R) : ℕ → Wavefields d R
  | 0 => l
  | n + 1 => C.bNext (grP (T - 1 - n)) (fun k => grV k (T - 1 - n)) (C.bRun grP grV T l n)

variable {C : Cfg d np mp nv mv R}

theorem bHalfV_good (h : C.WF) {l : Wavefields d R} (g : C.Good l) : C.Good (C.bHalfV l) where
  v := fun _ _ hc => if_neg hc
  s := g.s
  sh := g.sh
  mv := fun _ _ _ hc => if_neg hc
  ms := g.ms
  mv_mid := fun i j c hc => by simp [Cfg.bHalfV, h.pa_mid _ j _ hc]
  ms_mid := g.ms_mid

theorem bHalfS_good (h : C.WF) {l : Wavefields d R} (g : C.Good l) : C.Good (C.bHalfS l) where
  v := g.v
  s := fun _ _ hc => if_neg hc
  sh := fun _ _ hc => if_neg hc
  mv := g.mv
  ms := fun _ _ _ hc => if_neg hc
  mv_mid := g.mv_mid
  ms_mid := fun i j c hc => by simp [Cfg.bHalfS, h.pa_mid _ j _ hc]

theorem bAdd_good (h : C.WF) (qp : Fin mp → R) (qv : (k : Fin d) → Fin (mv k) → R)
    {l : Wavefields d R} (g : C.Good l) : C.Good (C.bAdd qp qv l) where
  v := fun i c hc => by simp [Cfg.bAdd, g.v i c hc, inject_out (h.rcvV_in i) _ c hc]
  s := fun i c hc => by simp [Cfg.bAdd, g.s i c hc, inject_out h.rcvP_in _ c hc]
  sh := g.sh
  mv := g.mv
  ms := g.ms
  mv_mid := g.mv_mid
  ms_mid := g.ms_mid

theorem bNext_good (h : C.WF) (qp : Fin mp → R) (qv : (k : Fin d) → Fin (mv k) → R)
    {l : Wavefields d R} (g : C.Good l) : C.Good (C.bNext qp qv l) :=
  bAdd_good h _ _ (bHalfS_good h (bHalfV_good h g))

theorem bRun_good (h : C.WF) (grP : ℕ → Fin mp → R) (grV : (k : Fin d) → ℕ → Fin (mv k) → R) (T : ℕ)
    {l : Wavefields d R} (g : C.Good l) : ∀ n, C.Good (C.bRun grP grV T l n)
  | 0 => g
  | n + 1 => bNext_good h _ _ (bRun_good h grP grV T g n)

/-- The model and the trailing PML together are wider than the finite-difference pad.  Otherwise the
loops over half points of the backward kernel run over the edge. -/
def Cfg.Big (C : Cfg d np mp nv mv R) : Prop := ∀ k, C.w0 k + 3 * (C.acc.pad : ℤ) ≤ C.n k

theorem bwd_ordered (h : C.WF) (hb : C.Big) (L : Loc d) : (C.bwdArgs.bounds L).Ordered := by
  intro j
  have h1 := h.w0_nonneg j
  have h2 := h.w1_nonneg j
  have h3 := h.size j
  have h4 := pad_pos C.acc
  have h5 := hb j
  simp only [CArgs.bounds, Cfg.bwdArgs]
  split_ifs <;> omega

theorem bwd_mid (h : C.WF) {L : Loc d} {k : Fin d} {c : Cell d}
    (hm : (C.bwdArgs.bounds L).regionOf c k = .mid) {x : ℤ}
    (h1 : (if L k then 1 - (C.acc.pad : ℤ) else -C.acc.pad) ≤ x)
    (h2 : x ≤ if L k then (C.acc.pad : ℤ) else C.acc.pad - 1) : C.MidAt (!L k) k (c k + x) := by
  rw [Bounds.regionOf_mid] at hm
  have h3 := h.w1_nonneg k
  have h4 := pad_pos C.acc
  simp only [CArgs.bounds, Cfg.bwdArgs] at hm
  simp only [Cfg.MidAt]
  cases hL : L k <;> simp only [hL, if_true, Bool.false_eq_true, if_false, Bool.not_true,
    Bool.not_false] at hm h1 h2 ⊢ <;> omega

theorem bwd_mid' (h : C.WF) {L : Loc d} {k : Fin d} {c : Cell d}
    (hm : (C.bwdArgs.bounds L).regionOf c k = .mid) : C.MidAt (L k) k (c k) := by
  rw [Bounds.regionOf_mid] at hm
  have h3 := h.w1_nonneg k
  have h4 := pad_pos C.acc
  simp only [CArgs.bounds, Cfg.bwdArgs] at hm
  simp only [Cfg.MidAt]
  cases hL : L k <;> simp only [hL, if_true, Bool.false_eq_true, if_false] at hm ⊢ <;> omega

theorem cD_congr {acc : Acc} {hb : Bool} {rdx : R} {u w : ℤ → R}
    (h : ∀ x : ℤ, (if hb then 1 - (acc.pad : ℤ) else -acc.pad) ≤ x →
      (x ≤ if hb then (acc.pad : ℤ) else acc.pad - 1) → u x = w x) :
    cD acc hb rdx u = cD acc hb rdx w := by
  cases hb
  · exact cS1_congr _ _ fun j h1 h2 => h j h1 h2
  · exact cSH1_congr _ _ fun j h1 h2 => h j h1 h2

/-- The branches of the backward kernel that differ in whether the PML terms are included agree. -/
theorem bwd_branch (h : C.WF) {L : Loc d} {k : Fin d} {hb : Bool} (e : L k = hb) {c : Cell d}
    {adj adjPml : ℤ → R} {F : Fld d R} (h1 : ∀ x, adjPml x = F (c.shift k x))
    (h2 : ∀ x, C.MidAt (!hb) k (c k + x) → adj x = adjPml x) :
    (if (C.bwdArgs.bounds L).regionOf c k = .mid then -cD C.bwdArgs.acc hb (C.bwdArgs.rdx k) adj
      else -cD C.bwdArgs.acc hb (C.bwdArgs.rdx k) adjPml) = -C.D hb k F c := by
  subst e
  have e1 : adjPml = fun x => F (c.shift k x) := funext h1
  split_ifs with hm
  · congr 1
    refine (cD_congr fun x l1 l2 => ?_ : cD C.acc (L k) (1 / C.dx k) adj = _)
    rw [h2 x (bwd_mid h hm l1 l2), h1]
  · rw [e1]; rfl

/-- What the velocity loops of the backward kernel leave in each cell. -/
theorem fold_bVelBody (h : C.WF) (hb : C.Big) (load : Bool) {l : Wavefields d R} (g : C.Good l)
    (st gB : Fin d → Fld d R) (msn : Fin d → Fin d → Fld d R)
    (hn : ∀ i j c, ¬C.InnerAt (vLoc i) c → msn i j c = 0)
    (hnm : ∀ i j c, C.MidAt (vLoc i j) j (c j) → msn i j c = 0) (i : Fin d) (c : Cell d) :
    foldUpdate (bVelBody C.bwdArgs load st l)
      (regionVisits (List.finRange d) fun i => C.bwdArgs.bounds (vLoc i))
      (fun ic => ⟨l.v ic.1 ic.2, fun j => msn ic.1 j ic.2, gB ic.1 ic.2⟩) (i, c) =
    ⟨(C.bHalfV l).v i c, fun j => (C.bHalfS (C.bHalfV l)).ms i j c,
      gB i c + if load = true ∧ C.InnerAt (vLoc i) c then
        (C.bHalfV l).v i c * st i c * (C.ratio : R) else 0⟩ := by
  rw [fold_regionVisits (fun k _ => bwd_ordered h hb _) (List.nodup_finRange d) _ _ i
    (List.mem_finRange i)]
  have e : (C.bwdArgs.bounds (vLoc i)).In c ↔ C.InnerAt (vLoc i) c := bounds_in _ c
  by_cases hc : C.InnerAt (vLoc i) c
  · rw [if_pos (e.2 hc)]
    have e1 : ∀ (j : Fin d) (x : ℤ), (c.shift j x) j = c j + x := fun j x => by simp [Cell.shift]
    have hd := fun j => bwd_branch h (L := vLoc i) (k := j) rfl (c := c) (F := C.advV l i j)
      (adj := fun x => C.bwdArgs.dt * modulus C.bwdArgs.toCfg l.s l.sh i j (c.shift j x))
      (adjPml := fun x => C.bwdArgs.dt * (1 + C.bwdArgs.pb (sLoc i j j) j (c j + x)) *
          modulus C.bwdArgs.toCfg l.s l.sh i j (c.shift j x)
        + C.bwdArgs.pb (sLoc i j j) j (c j + x) * l.mv i j (c.shift j x))
      (fun x => by simp only [Cfg.advV, e1]; rfl)
      (fun x hx => by
        have : C.bwdArgs.pb (sLoc i j j) j (c j + x) = 0 := by
          rw [sLoc_right]; exact h.pb_mid _ j _ hx
        rw [this]; ring)
    have hv : l.v i c + ∑ j, -C.D (vLoc i j) j (C.advV l i j) c = (C.bHalfV l).v i c := by
      simp only [Cfg.bHalfV, hc, if_true]
    simp only [bVelBody, hd, hv, BVCell.mk.injEq, true_and]
    refine ⟨?_, ?_⟩
    · funext j
      simp only [Cfg.bHalfS, hc, if_true]
      split_ifs with hm
      · have hm' := bwd_mid' h hm
        rw [hnm i j c hm', h.pa_mid _ j _ hm', zero_mul]
      · have e2 : (C.bHalfV l).ms = l.ms := rfl
        rw [e2]
        change C.B i c * C.dt * C.pa (vLoc i j) j (c j) * _ + C.pa (vLoc i j) j (c j) * _ = _
        ring
    · simp only [hc, and_true]
      split_ifs <;> simp [Cfg.bwdArgs]
  · rw [if_neg (fun h => hc (e.1 h))]
    simp [Cfg.bHalfV, Cfg.bHalfS, hc, g.v i c hc, hn i _ c hc]

/-- The cells before the stress loops. -/
def bsInit (l : Wavefields d R) (gr : Grads d R) (kc : Option (Sh d) × Cell d) : BSCell d R :=
  { s := fun i => l.s i kc.2
    m := fun i => l.mv i i kc.2
    gl := gr.l kc.2
    gm := gr.m kc.2
    sh := kc.1.elim 0 fun p => l.sh p kc.2
    ml := kc.1.elim 0 fun p => l.mv p.1.1 p.1.2 kc.2
    mr := kc.1.elim 0 fun p => l.mv p.1.2 p.1.1 kc.2
    gs := kc.1.elim 0 fun p => gr.s p kc.2 }

theorem advS_branch (h : C.WF) {L : Loc d} {i j : Fin d} (e : L j = !vLoc i j) {c : Cell d} {hb : Bool}
    (e' : (!vLoc i j) = hb) {l : Wavefields d R} :
    (if (C.bwdArgs.bounds L).regionOf c j = .mid then
      -cD C.bwdArgs.acc hb (C.bwdArgs.rdx j)
        (fun x => C.bwdArgs.dt * C.bwdArgs.B i (c.shift j x) * l.v i (c.shift j x))
    else -cD C.bwdArgs.acc hb (C.bwdArgs.rdx j) (fun x =>
      (1 + C.bwdArgs.pb (vLoc i j) j (c j + x)) * C.bwdArgs.dt * C.bwdArgs.B i (c.shift j x)
        * l.v i (c.shift j x) + C.bwdArgs.pb (vLoc i j) j (c j + x) * l.ms i j (c.shift j x))) =
    -C.D hb j (C.advS l i j) c := by
  have e1 : ∀ x : ℤ, (c.shift j x) j = c j + x := fun x => by simp [Cell.shift]
  refine bwd_branch h (e.trans e') (fun x => ?_) (fun x hx => ?_)
  · simp only [Cfg.advS, e1]; rfl
  · have : C.bwdArgs.pb (vLoc i j) j (c j + x) = 0 := by
      rw [← e', Bool.not_not] at hx
      exact h.pb_mid _ j _ hx
    rw [this]; ring

/-- What the loop over the normal stresses of the backward kernel leaves in each cell. -/
theorem fold_bStrBody_none (h : C.WF) (hb : C.Big) (loadL loadM : Bool) {l : Wavefields d R}
    (g : C.Good l) (stN : Fin d → Fld d R) (stS : Sh d → Fld d R) (gr : Grads d R) (c : Cell d) :
    foldUpdate (bStrBody C.bwdArgs loadL loadM stN stS (C.bHalfV l).v l.ms)
      (regionVisits (stressNests d) fun k => C.bwdArgs.bounds (nestLoc k)) (bsInit l gr) (none, c) =
    { bsInit l gr (none, c) with
      gl := gr.l c + if loadL = true ∧ C.Inner c then
        (∑ i, l.s i c) * (∑ i, stN i c) * (C.ratio : R) else 0
      gm := gr.m c + if loadM = true ∧ C.Inner c then
        2 * (∑ i, l.s i c * stN i c) * (C.ratio : R) else 0
      m := fun i => (C.bHalfV l).mv i i c
      s := fun i => (C.bHalfS (C.bHalfV l)).s i c } := by
  rw [fold_regionVisits (fun k _ => bwd_ordered h hb _) (stressNests_nodup d) _ _ none
    (mem_stressNests _)]
  have e : (C.bwdArgs.bounds (nestLoc none)).In c ↔ C.Inner c :=
    (bounds_in _ c).trans (by simp [Cfg.InnerAt, nestLoc, Cfg.bwdArgs, Cfg.Inner])
  by_cases hc : C.Inner c
  · rw [if_pos (e.2 hc)]
    have hd := fun i => advS_branch h (L := nestLoc none) (i := i) (j := i) (c := c) (hb := false)
      (l := C.bHalfV l) (by simp [vLoc, nestLoc]) (by simp [vLoc])
    have e2 : (C.bHalfV l).ms = l.ms := rfl
    rw [e2] at hd
    simp only [bStrBody, hd, bsInit, BSCell.mk.injEq, and_true]
    refine ⟨?_, ?_, ?_, ?_⟩
    · simp only [Cfg.bHalfS, hc, if_true, sub_eq_add_neg]
      rfl
    · funext i
      have hci : C.InnerAt (sLoc i i) c := innerAt_diag.2 hc
      simp only [Cfg.bHalfV, hci, if_true]
      split_ifs with hm
      · have hm' := bwd_mid' h hm
        rw [g.mv_mid i i c (by rw [sLoc_diag]; exact hm'), h.pa_mid _ i _ (by rw [sLoc_diag]; exact hm'),
          zero_mul]
      · simp only [modulus, pick_self, sLoc_diag]
        change ∑ k, _ * C.dt * C.pa false i (c i) * _ + C.pa false i (c i) * _ = _
        rw [mul_add, Finset.mul_sum, Finset.mul_sum]
        congr 1
        refine Finset.sum_congr rfl fun k _ => ?_
        change (if k = i then C.lam c + 2 * C.mu c else C.lam c) * _ * _ * _ = _
        ring
    · simp only [hc, and_true]
      split_ifs <;> simp [Cfg.bwdArgs]
    · simp only [hc, and_true]
      split_ifs <;> simp [Cfg.bwdArgs]
  · rw [if_neg (fun h => hc (e.1 h))]
    simp [bsInit, Cfg.bHalfV, Cfg.bHalfS, hc, g.s _ c hc, innerAt_diag,
      g.mv _ _ c (mt innerAt_diag.1 hc)]

/-- What the loop over a shear stress of the backward kernel leaves in each cell. -/
theorem fold_bStrBody_some (h : C.WF) (hb : C.Big) (loadL loadM : Bool) {l : Wavefields d R}
    (g : C.Good l) (stN : Fin d → Fld d R) (stS : Sh d → Fld d R) (gr : Grads d R) (p : Sh d)
    (c : Cell d) :
    foldUpdate (bStrBody C.bwdArgs loadL loadM stN stS (C.bHalfV l).v l.ms)
      (regionVisits (stressNests d) fun k => C.bwdArgs.bounds (nestLoc k)) (bsInit l gr) (some p, c) =
    { bsInit l gr (some p, c) with
      gs := gr.s p c + if loadM = true ∧ C.InnerAt (sLoc p.1.1 p.1.2) c then
        l.sh p c * stS p c * (C.ratio : R) else 0
      ml := (C.bHalfV l).mv p.1.1 p.1.2 c
      mr := (C.bHalfV l).mv p.1.2 p.1.1 c
      sh := (C.bHalfS (C.bHalfV l)).sh p c } := by
  rw [fold_regionVisits (fun k _ => bwd_ordered h hb _) (stressNests_nodup d) _ _ (some p)
    (mem_stressNests _)]
  have e : (C.bwdArgs.bounds (nestLoc (some p))).In c ↔ C.InnerAt (sLoc p.1.1 p.1.2) c := bounds_in _ c
  by_cases hc : C.InnerAt (sLoc p.1.1 p.1.2) c
  · rw [if_pos (e.2 hc)]
    have hd1 := advS_branch h (L := nestLoc (some p)) (i := p.1.1) (j := p.1.2) (c := c) (hb := true)
      (l := C.bHalfV l) (sLoc_right _ _) (by simp [vLoc, p.2.ne'])
    have hd2 := advS_branch h (L := nestLoc (some p)) (i := p.1.2) (j := p.1.1) (c := c) (hb := true)
      (l := C.bHalfV l) (sLoc_left _ _) (by simp [vLoc, p.2.ne])
    have e2 : (C.bHalfV l).ms = l.ms := rfl
    rw [e2] at hd1 hd2
    simp only [bStrBody, hd1, hd2, bsInit, Option.elim, BSCell.mk.injEq, true_and]
    refine ⟨?_, ?_, ?_, ?_⟩
    · simp only [Cfg.bHalfS, hc, if_true]
      have e3 : (C.bHalfV l).sh = l.sh := rfl
      rw [e3]
      ring
    · simp only [Cfg.bHalfV, hc, if_true]
      split_ifs with hm
      · have hm' : C.MidAt (sLoc p.1.1 p.1.2 p.1.2) p.1.2 (c p.1.2) := bwd_mid' h hm
        rw [g.mv_mid _ _ c hm', h.pa_mid _ _ _ hm', zero_mul]
      · simp only [modulus, pick_lt, sLoc_lt_right]
        change C.muS p c * C.dt * C.pa true p.1.2 (c p.1.2) * _ + C.pa true p.1.2 (c p.1.2) * _ = _
        ring
    · have hc' : C.InnerAt (sLoc p.1.2 p.1.1) c := by rwa [sLoc_comm]
      simp only [Cfg.bHalfV, hc', if_true]
      split_ifs with hm
      · have hm' := bwd_mid' h hm
        have hm'' : C.MidAt (sLoc p.1.2 p.1.1 p.1.1) p.1.1 (c p.1.1) := by rw [sLoc_comm]; exact hm'
        rw [g.mv_mid _ _ c hm'', h.pa_mid _ _ _ hm'', zero_mul]
      · simp only [modulus, pick_gt, sLoc_comm p.1.2 p.1.1, sLoc_lt_left]
        change C.muS p c * C.dt * C.pa true p.1.1 (c p.1.1) * _ + C.pa true p.1.1 (c p.1.1) * _ = _
        ring
    · simp only [hc, and_true]
      split_ifs <;> simp [Cfg.bwdArgs]
  · rw [if_neg (fun h => hc (e.1 h))]
    have hc' : ¬C.InnerAt (sLoc p.1.2 p.1.1) c := by rwa [sLoc_comm]
    simp [bsInit, Cfg.bHalfV, Cfg.bHalfS, hc, hc', g.sh _ c hc, g.mv _ _ c hc, g.mv _ _ c hc']

/-- Snapshots for all steps. -/
structure Stores (d : ℕ) (R : Type*) where
  b : ℕ → Fin d → Fld d R
  n : ℕ → Fin d → Fld d R
  s : ℕ → Sh d → Fld d R

/-- What the backward step for time step `t` adds to the gradients, from the adjoint wavefields `l`. -/
def gradTerm (C : Cfg d np mp nv mv R) (gl gm gb : Bool) (st : Stores d R) (t : ℕ)
    (l : Wavefields d R) : Grads d R where
  l := fun c => if (gl && t % C.ratio == 0) = true ∧ C.Inner c then
    (∑ i, l.s i c) * (∑ i, st.n (t / C.ratio) i c) * (C.ratio : R) else 0
  m := fun c => if (gm && t % C.ratio == 0) = true ∧ C.Inner c then
    2 * (∑ i, l.s i c * st.n (t / C.ratio) i c) * (C.ratio : R) else 0
  s := fun p c => if (gm && t % C.ratio == 0) = true ∧ C.InnerAt (sLoc p.1.1 p.1.2) c then
    l.sh p c * st.s (t / C.ratio) p c * (C.ratio : R) else 0
  b := fun i c => if (gb && t % C.ratio == 0) = true ∧ C.InnerAt (vLoc i) c then
    (C.bHalfV l).v i c * st.b (t / C.ratio) i c * (C.ratio : R) else 0

/-- Gradients after `n` backward steps. -/
def gradSum (C : Cfg d np mp nv mv R) (gl gm gb : Bool) (st : Stores d R) (grP : ℕ → Fin mp → R)
    (grV : (k : Fin d) → ℕ → Fin (mv k) → R) (T : ℕ) (l : Wavefields d R) (n : ℕ) : Grads d R :=
  let term := fun i => gradTerm C gl gm gb st (T - 1 - i) (C.bRun grP grV T l i)
  { l := fun c => ∑ i ∈ Finset.range n, (term i).l c
    m := fun c => ∑ i ∈ Finset.range n, (term i).m c
    s := fun p c => ∑ i ∈ Finset.range n, (term i).s p c
    b := fun k c => ∑ i ∈ Finset.range n, (term i).b k c }

/-- Memory after `n` backward steps. -/
structure BInv (C : Cfg d np mp nv mv R) (gl gm gb : Bool) (st : Stores d R) (grP : ℕ → Fin mp → R)
    (grV : (k : Fin d) → ℕ → Fin (mv k) → R) (T : ℕ) (l : Wavefields d R) (n : ℕ) (m : BMem d np nv R) :
    Prop where
  wf : m.wf = C.bRun grP grV T l n
  msn : ∀ i j c, ¬C.InnerAt (vLoc i) c → m.msn i j c = 0
  msn_mid : ∀ i j c, C.MidAt (vLoc i j) j (c j) → m.msn i j c = 0
  gfP : ∀ t, m.gfP t = if t < T ∧ T ≤ t + n then
    sample C.srcP (C.bRun grP grV T l (T - 1 - t)).prs else fun _ => 0
  gfV : ∀ k t, m.gfV k t = if t < T ∧ T ≤ t + n then
    sample (C.srcV k) ((C.bHalfV (C.bRun grP grV T l (T - 1 - t))).v k) else fun _ => 0
  gr : m.gr = gradSum C gl gm gb st grP grV T l n

theorem BInv.step (h : C.WF) (hb : C.Big) {gl gm gb : Bool} {st : Stores d R} {grP : ℕ → Fin mp → R}
    {grV : (k : Fin d) → ℕ → Fin (mv k) → R} {T : ℕ} {l : Wavefields d R} (gd : C.Good l) {n : ℕ}
    {m : BMem d np nv R} (hn : n < T) (hi : BInv C gl gm gb st grP grV T l n m) :
    BInv C gl gm gb st grP grV T l (n + 1)
      (bStepC C.bwdArgs gl gm gb st.b st.n st.s grP grV (T - 1 - n) m).swap := by
  have er : C.bwdArgs.ratio = C.ratio := rfl
  have g : C.Good m.wf := hi.wf ▸ bRun_good h grP grV T gd n
  have hv := fun load s => fold_bVelBody h hb load g s m.gr.b m.msn hi.msn hi.msn_mid
  have hN := fun loadL loadM sN sS => fold_bStrBody_none h hb loadL loadM g sN sS m.gr
  have hS := fun loadL loadM sN sS => fold_bStrBody_some h hb loadL loadM g sN sS m.gr
  have e2 : T - 1 - (T - 1 - n) = n := by omega
  have hstep : bStepC C.bwdArgs gl gm gb st.b st.n st.s grP grV (T - 1 - n) m =
      { wf := { C.bNext (grP (T - 1 - n)) (fun k => grV k (T - 1 - n)) m.wf with ms := m.wf.ms }
        msn := (C.bNext (grP (T - 1 - n)) (fun k => grV k (T - 1 - n)) m.wf).ms
        gfP := Function.update m.gfP (T - 1 - n) (recordFrom m.wf.prs C.srcP (m.gfP (T - 1 - n)))
        gfV := fun k => Function.update (m.gfV k) (T - 1 - n)
          (recordFrom ((C.bHalfV m.wf).v k) (C.srcV k) (m.gfV k (T - 1 - n)))
        gr :=
          { l := fun c => m.gr.l c + (gradTerm C gl gm gb st (T - 1 - n) m.wf).l c
            m := fun c => m.gr.m c + (gradTerm C gl gm gb st (T - 1 - n) m.wf).m c
            s := fun p c => m.gr.s p c + (gradTerm C gl gm gb st (T - 1 - n) m.wf).s p c
            b := fun i c => m.gr.b i c + (gradTerm C gl gm gb st (T - 1 - n) m.wf).b i c } } := by
    have hv2 := hv (gb && (T - 1 - n) % C.ratio == 0) (st.b ((T - 1 - n) / C.ratio))
    have hN2 := hN (gl && (T - 1 - n) % C.ratio == 0) (gm && (T - 1 - n) % C.ratio == 0)
      (st.n ((T - 1 - n) / C.ratio)) (st.s ((T - 1 - n) / C.ratio))
    have hS2 := hS (gl && (T - 1 - n) % C.ratio == 0) (gm && (T - 1 - n) % C.ratio == 0)
      (st.n ((T - 1 - n) / C.ratio)) (st.s ((T - 1 - n) / C.ratio))
    have e0 : bsInit m.wf m.gr = fun kc =>
      { s := fun i => m.wf.s i kc.2
        m := fun i => m.wf.mv i i kc.2
        gl := m.gr.l kc.2
        gm := m.gr.m kc.2
        sh := kc.1.elim 0 fun p => m.wf.sh p kc.2
        ml := kc.1.elim 0 fun p => m.wf.mv p.1.1 p.1.2 kc.2
        mr := kc.1.elim 0 fun p => m.wf.mv p.1.2 p.1.1 kc.2
        gs := kc.1.elim 0 fun p => m.gr.s p kc.2 } := rfl
    rw [e0] at hN2 hS2
    unfold bStepC
    simp only [er, hv2]
    have ev : (fun i c => (C.bHalfV m.wf).v i c) = (C.bHalfV m.wf).v := rfl
    have e3 : C.bwdArgs.rcvP = C.rcvP := rfl
    have e4 : C.bwdArgs.rcvV = C.rcvV := rfl
    have e5 : C.bwdArgs.srcP = C.srcP := rfl
    have e6 : C.bwdArgs.srcV = C.srcV := rfl
    simp only [ev, e3, e4, e5, e6, hN2, hS2]
    congr 1
    refine Wavefields.ext ?_ ?_ rfl ?_ rfl
    · funext i c
      exact addTo_eq _ _ _ _
    · funext i c
      exact addTo_eq _ _ _ _
    · funext i j c
      exact pick_eq (fun i j => (C.bHalfV m.wf).mv i j c) (fun _ => rfl) (fun _ => rfl)
        (fun _ => rfl) i j
  rw [hstep]
  refine ⟨?_, ?_, ?_, ?_, ?_, ?_⟩
  · rw [Cfg.bRun, ← hi.wf]
    rfl
  · exact g.ms
  · exact g.ms_mid
  · exact updGf (x := m.wf.prs) hn hi.gfP (by rw [e2, ← hi.wf])
  · intro k
    exact updGf (x := (C.bHalfV m.wf).v k) (F := fun t => sample (C.srcV k)
      ((C.bHalfV (C.bRun grP grV T l (T - 1 - t))).v k)) hn (hi.gfV k) (by rw [e2, ← hi.wf])
  · simp only [BMem.swap, gradSum, Finset.sum_range_succ, ← hi.wf, hi.gr]

omit [Field R] in
theorem BMem.swap_swap (m : BMem d np nv R) : m.swap.swap = m := rfl

/-- What a backward callback sees after `n` outer steps have been undone. -/
def bEventAt (C : Cfg d np mp nv mv R) (gl gm gb : Bool) (st : Stores d R) (grP : ℕ → Fin mp → R)
    (grV : (k : Fin d) → ℕ → Fin (mv k) → R) (N : ℕ) (l : Wavefields d R) (n : ℕ) : BEvent d R :=
  let T := N * C.ratio
  ⟨N - n, C.bRun grP grV T l (n * C.ratio), gradSum C gl gm gb st grP grV T l (n * C.ratio)⟩

/-- The result of the backward driver in terms of the recursion. -/
theorem backward_eq (h : C.WF) (hb : C.Big) (gl gm gb : Bool) (cb : Option ℕ) (nt : ℕ)
    (st : Stores d R) (grP : ℕ → Fin mp → R)
    (grV : (k : Fin d) → ℕ → Fin (mv k) → R) (g : Init d R) (hr : 0 < C.ratio)
    (hcf : 0 < nt → 0 < cb.getD (nt / C.ratio)) :
    C.backward gl gm gb cb nt st.b st.n st.s grP grV g = .ok
      (let T := nt / C.ratio * C.ratio
       let l := C.prepare g
       { out := C.unpadAll (C.bRun grP grV T l T)
         gfP := fun t => if t < T then sample C.srcP (C.bRun grP grV T l (T - 1 - t)).prs
           else fun _ => 0
         gfV := fun k t => if t < T then
           sample (C.srcV k) ((C.bHalfV (C.bRun grP grV T l (T - 1 - t))).v k) else fun _ => 0
         gr := gradSum C gl gm gb st grP grV T l T
         events := match cb with
           | none => []
           | some cf => (List.range ((nt / C.ratio + cf - 1) / cf)).map fun i =>
               bEventAt C gl gm gb st grP grV (nt / C.ratio) l
                 (min (nt / C.ratio) ((i + 1) * cf)) }) := by
  have inv : ∀ T n, n ≤ T → BInv C gl gm gb st grP grV T (C.prepare g) n
      (Driver.runB BMem.swap (bStepC C.bwdArgs gl gm gb st.b st.n st.s grP grV) T (C.bInit g) n) :=
    fun T => Driver.runB_inv ⟨rfl, fun _ _ _ _ => rfl, fun _ _ _ _ => rfl,
      fun t => by rw [if_neg (by omega)]; rfl,
      fun k t => by rw [if_neg (by omega)]; rfl, by simp [Cfg.bInit, gradSum]⟩
      fun n m hn hm => hm.step h hb (prepare_good g) hn
  have ev : ∀ N n, n ≤ N → (fun (step : ℕ) (m : BMem d np nv R) =>
        (⟨step, m.wf, m.gr⟩ : BEvent d R)) (N - n) (Driver.runB BMem.swap
        (bStepC C.bwdArgs gl gm gb st.b st.n st.s grP grV) (N * C.ratio) (C.bInit g) (n * C.ratio)) =
      bEventAt C gl gm gb st grP grV N (C.prepare g) n := by
    intro N n hn
    have i1 := inv (N * C.ratio) (n * C.ratio) (Nat.mul_le_mul_right _ hn)
    simp only [bEventAt, i1.wf, i1.gr]
  unfold Cfg.backward
  rw [if_neg hr.ne']
  by_cases hnt : 0 < nt
  · have hc := hcf hnt
    simp only [hnt, true_and, hc.ne', if_false, if_true]
    rw [Driver.driveB_eq BMem.swap_swap _ _ hc]
    have i1 := inv (nt / C.ratio * C.ratio) _ le_rfl
    congr 1
    congr 1
    · rw [i1.wf]
    · funext t
      rw [i1.gfP t]
      congr 1
      simp only [eq_iff_iff, and_iff_left_iff_imp]
      omega
    · funext k t
      rw [i1.gfV k t]
      congr 1
      simp only [eq_iff_iff, and_iff_left_iff_imp]
      omega
    · exact i1.gr
    · cases cb with
      | none => simp
      | some cf =>
          simp only [Option.isSome_some, if_true, Option.getD_some]
          refine List.map_congr_left fun i _ => ?_
          exact ev _ _ (Nat.min_le_left _ _)
  · have h0 : nt = 0 := by omega
    subst h0
    simp only [lt_irrefl, false_and, if_false, Nat.zero_div, Nat.zero_mul, Nat.not_lt_zero]
    congr 1
    have i0 := (inv 0 0 le_rfl).gr
    have i0' : (C.bInit g : BMem d np nv R).gr = _ := i0
    rw [i0']
    congr 1
    cases cb with
    | none => simp
    | some cf =>
        have : (0 + cf - 1) / cf = 0 := by
          rcases Nat.eq_zero_or_pos cf with h | h
          · subst h; simp
          · exact Nat.div_eq_of_lt (by omega)
        simp only [Option.isSome_some, if_true]
        rw [this]; rfl

end Dw.Elastic
