import Verif.Born.Forward

/-!
# The Born backward driver computes a reference recursion
-/

namespace Dw.Born

open Dw.Scalar

variable {d ns nr nq : ℕ} {R : Type*} [Field R]

/-- `Cfg.bT` with an arbitrary field `x` in place of `v² dt² u`. -/
def bTX (C : Cfg d ns nr R) (x : Fld d R) (l : St d R) (k : Fin d) : Fld d R := fun c =>
  (1 + C.b k (c k)) * x c + C.b k (c k) * l.zeta k c

/-- `Cfg.bLap` with an arbitrary field `x` in place of `v² dt² u`. -/
def bLapX (C : Cfg d ns nr R) (x : Fld d R) (l : St d R) : Fld d R := fun c =>
  ∑ k, (-C.D1 k (fun c => C.db k (c k) * bTX C x l k c + C.b k (c k) * l.psi k c) c
    + C.D2 k (fun c => (1 + C.b k (c k)) * bTX C x l k c) c)

/-- `Cfg.bStep` with an arbitrary field `x` in place of `v² dt² u`. -/
def bStepX (C : Cfg d ns nr R) (x : Fld d R) (l : St d R) : St d R where
  u := fun c => if C.Inner c then bLapX C x l c + 2 * l.u c - l.p c else 0
  p := l.u
  psi := fun k c => if C.Inner c then -C.a k (c k) * C.D1 k (bTX C x l k) c + C.a k (c k) * l.psi k c
    else 0
  zeta := fun k c => if C.Inner c then C.a k (c k) * x c + C.a k (c k) * l.zeta k c else 0

variable {C : Cfg d ns nr R}

theorem bStepX_self (l : St d R) : bStepX C (fun c => C.V c * l.u c) l = C.bStep l := rfl

theorem unit_V : (unit C).V = fun _ => 1 := by
  funext c; simp [Cfg.V, unit]

theorem bT_unit (x : Fld d R) (l : St d R) (k : Fin d) :
    (unit C).bT { l with u := x } k = bTX C x l k := by
  funext c
  simp only [Cfg.bT, unit_V, one_mul]
  rfl

theorem bLap_unit (x : Fld d R) (l : St d R) : (unit C).bLap { l with u := x } = bLapX C x l := by
  funext c
  simp only [Cfg.bLap, bT_unit]
  rfl

theorem bStepX_good (h : C.WF) (x : Fld d R) {l : St d R} (hl : C.Good l) :
    C.Good (bStepX C x l) := by
  constructor
  · intro c hc; simp [bStepX, hc]
  · intro c hc; exact hl.u c hc
  · intro k c hc; simp [bStepX, hc]
  · intro k c hc; simp [bStepX, hc]
  · intro k c hc; simp [bStepX, h.a_mid k _ hc]
  · intro k c hc; simp [bStepX, h.a_mid k _ hc]

/-- The statements for one field of the backward kernel. -/
theorem bTerms_eq (h : C.WF) (s : BwdBufs d R) (hs : C.BOk s) (x : Fld d R)
    (hx : ∀ c, ¬C.Inner c → x c = 0) (c : Cell d) (hc : C.Inner c) :
    bTerms C.bwdArgs x s.psi s.zeta (C.bwdArgs.regionOf c) c (fun k => s.psin k c) =
      ⟨bLapX C x s.st c, fun k => (bStepX C x s.st).psi k c⟩ := by
  have hu : (unit C).BOk { s with wfc := x } :=
    ⟨⟨hx, hs.good.p, hs.good.psi, hs.good.zeta, hs.good.psi_mid, hs.good.zeta_mid⟩, hs.psin,
      hs.psin_mid, hs.zetan, hs.zetan_mid⟩
  have key := bwdBody_eq (unit_wf h) false (fun _ => 0) { s with wfc := x } hu 0 c hc
  have e : bwdBody (unit C).bwdArgs false (fun _ => 0) x s.psi s.zeta
      ((unit C).bwdArgs.regionOf c) c ⟨s.wfp c, fun k => s.psin k c, fun k => s.zetan k c, 0⟩ =
      (let t := bTerms C.bwdArgs (fun c => (unit C).V c * x c) s.psi s.zeta (C.bwdArgs.regionOf c) c
        (fun k => s.psin k c)
       let z := fun k => if C.bwdArgs.regionOf c k = .mid then s.zetan k c
          else C.a k (c k) * ((unit C).V c * x c) + C.a k (c k) * s.zeta k c
       ⟨t.wSum + 2 * x c - s.wfp c, t.psin, z, 0⟩) := rfl
  simp only [unit_V, one_mul] at e
  change bwdBody (unit C).bwdArgs false (fun _ => 0) x s.psi s.zeta
      ((unit C).bwdArgs.regionOf c) c ⟨s.wfp c, fun k => s.psin k c, fun k => s.zetan k c, 0⟩ = _ at key
  rw [e] at key
  generalize bTerms C.bwdArgs x s.psi s.zeta (C.bwdArgs.regionOf c) c (fun k => s.psin k c) = t at key
  obtain ⟨w, p⟩ := t
  simp only [BwdCell.mk.injEq] at key
  obtain ⟨k1, k2, -, -⟩ := key
  have hi : (unit C).Inner c := hc
  have e2 : BwdBufs.st { s with wfc := x } = { s.st with u := x } := rfl
  have hl : (unit C).bLap (BwdBufs.st { s with wfc := x }) c = bLapX C x s.st c := by
    rw [e2, bLap_unit]
  have hst : ((unit C).bStep (BwdBufs.st { s with wfc := x })).u c =
      bLapX C x s.st c + 2 * x c - s.wfp c := by
    simp only [Cfg.bStep, hi, if_true, hl]
    rfl
  rw [hst] at k1
  have hw : w = bLapX C x s.st c := by linear_combination k1
  subst hw
  congr 1
  rw [k2]
  funext k
  simp only [Cfg.bStep, bStepX, hi, hc, if_true, e2, bT_unit]
  rfl

/-- `V2DT2_WFC` of the Born backward kernel. -/
def bgX (B : BCfg d ns nr nq R) (l μ : St d R) : Fld d R := fun c =>
  B.base.V c * l.u c + 2 * B.base.v c * B.base.dt ^ 2 * B.scatter c * μ.u c

/-- One backward step of the adjoint of the scattered field. -/
def scBNext (B : BCfg d ns nr nq R) (q : Fin nq → R) (μ : St d R) : St d R :=
  let s' := B.base.bStep μ
  { s' with u := fun c => s'.u c + inject B.rcvsc q c }

/-- One backward step of the adjoint of the background field. -/
def bgBNext (B : BCfg d ns nr nq R) (q : Fin nr → R) (l μ : St d R) : St d R :=
  let s' := bStepX B.base (bgX B l μ) l
  { s' with u := fun c => s'.u c + inject B.base.rcv q c }

def scBRun (B : BCfg d ns nr nq R) (grsc : ℕ → Fin nq → R) (T : ℕ) (μ : St d R) : ℕ → St d R
  | 0 => μ
  | n + 1 => scBNext B (grsc (T - 1 - n)) (scBRun B grsc T μ n)

def bgBRun (B : BCfg d ns nr nq R) (gr : ℕ → Fin nr → R) (grsc : ℕ → Fin nq → R) (T : ℕ)
    (l μ : St d R) : ℕ → St d R
  | 0 => l
  | n + 1 => bgBNext B (gr (T - 1 - n)) (bgBRun B gr grsc T l μ n) (scBRun B grsc T μ n)

/-- What the set-up code guarantees for the Born driver. -/
structure BCfg.WF (B : BCfg d ns nr nq R) : Prop where
  base : B.base.WF
  rcvsc_in : ∀ i c, B.rcvsc i = some c → B.base.Inner c

variable {B : BCfg d ns nr nq R}

theorem inject_rcvsc_outside (h : B.WF) (q : Fin nq → R) (c : Cell d) (hc : ¬B.base.Inner c) :
    inject B.rcvsc q c = 0 := by
  refine Finset.sum_eq_zero fun i _ => ?_
  rw [if_neg]
  intro hi
  exact hc (h.rcvsc_in i c hi)

theorem scBNext_good (h : B.WF) (q : Fin nq → R) {μ : St d R} (hm : B.base.Good μ) :
    B.base.Good (scBNext B q μ) := by
  have g := B.base.bStep_good h.base hm
  exact ⟨fun c hc => by simp [scBNext, g.u c hc, inject_rcvsc_outside h q c hc], g.p, g.psi, g.zeta,
    g.psi_mid, g.zeta_mid⟩

theorem bgBNext_good (h : B.WF) (q : Fin nr → R) {l : St d R} (μ : St d R) (hl : B.base.Good l) :
    B.base.Good (bgBNext B q l μ) := by
  have g := bStepX_good h.base (bgX B l μ) hl
  exact ⟨fun c hc => by simp [bgBNext, g.u c hc, inject_rcv_outside h.base q c hc], g.p, g.psi, g.zeta,
    g.psi_mid, g.zeta_mid⟩

theorem scBRun_good (h : B.WF) (grsc : ℕ → Fin nq → R) (T : ℕ) {μ : St d R} (hm : B.base.Good μ) :
    ∀ n, B.base.Good (scBRun B grsc T μ n)
  | 0 => hm
  | n + 1 => scBNext_good h _ (scBRun_good h grsc T hm n)

theorem bgBRun_good (h : B.WF) (gr : ℕ → Fin nr → R) (grsc : ℕ → Fin nq → R) (T : ℕ) {l : St d R}
    (μ : St d R) (hl : B.base.Good l) : ∀ n, B.base.Good (bgBRun B gr grsc T l μ n)
  | 0 => hl
  | n + 1 => bgBNext_good h _ _ (bgBRun_good h gr grsc T μ hl n)

/-- Contribution of backward step `n` to the scatter gradient. -/
def gsAt (B : BCfg d ns nr nq R) (gs : Bool) (w : ℕ → Fld d R) (grsc : ℕ → Fin nq → R) (T : ℕ)
    (μ : St d R) (n : ℕ) : Fld d R := fun c =>
  if (gs && (T - 1 - n) % B.base.ratio == 0) ∧ B.base.Inner c then
    (scBRun B grsc T μ n).u c * 2 * B.base.v c * B.base.dt ^ 2 * w ((T - 1 - n) / B.base.ratio) c
      * (B.base.ratio : R) else 0

/-- Contribution of backward step `n` to the velocity gradient. -/
def gvAt (B : BCfg d ns nr nq R) (gv : Bool) (w wsc : ℕ → Fld d R) (gr : ℕ → Fin nr → R)
    (grsc : ℕ → Fin nq → R) (T : ℕ) (l μ : St d R) (n : ℕ) : Fld d R := fun c =>
  if (gv && (T - 1 - n) % B.base.ratio == 0) ∧ B.base.Inner c then
    (bgBRun B gr grsc T l μ n).u c * 2 * B.base.v c * B.base.dt ^ 2
        * w ((T - 1 - n) / B.base.ratio) c * (B.base.ratio : R)
      + (scBRun B grsc T μ n).u c * (2 * B.base.dt ^ 2 * B.scatter c * w ((T - 1 - n) / B.base.ratio) c
        + 2 * B.base.v c * B.base.dt ^ 2 * wsc ((T - 1 - n) / B.base.ratio) c) * (B.base.ratio : R)
  else 0

/-- Memory of `backward` after `n` backward steps. -/
structure BInv (B : BCfg d ns nr nq R) (gv gs : Bool) (w wsc : ℕ → Fld d R) (gr : ℕ → Fin nr → R)
    (grsc : ℕ → Fin nq → R) (T : ℕ) (l μ : St d R) (n : ℕ) (m : BMem d ns R) : Prop where
  bgOk : B.base.BOk m.bg
  scOk : B.base.BOk m.sc
  bg : m.bg.st = bgBRun B gr grsc T l μ n
  sc : m.sc.st = scBRun B grsc T μ n
  gf : ∀ t, m.gf t = if t < T ∧ T ≤ t + n then
    sample B.base.src (bgBRun B gr grsc T l μ (T - 1 - t)).u else fun _ => 0
  gfsc : ∀ t, m.gfsc t = if t < T ∧ T ≤ t + n then
    sample B.base.src (scBRun B grsc T μ (T - 1 - t)).u else fun _ => 0
  gv : ∀ c, m.gv c = ∑ i ∈ Finset.range n, gvAt B gv w wsc gr grsc T l μ i c
  gs : ∀ c, m.gs c = ∑ i ∈ Finset.range n, gsAt B gs w grsc T μ i c

theorem sc_supp {s : BwdBufs d R} (hs : C.BOk s) (c : Cell d) (hc : ¬C.Inner c) :
    C.v c * C.v c * C.dt ^ 2 * s.wfc c = 0 := by
  have : s.wfc c = 0 := hs.good.u c hc
  rw [this, mul_zero]

theorem V_eq (C : Cfg d ns nr R) (c : Cell d) : C.v c * C.v c * C.dt ^ 2 = C.V c := by
  simp only [Cfg.V]; ring

/-- The fields left by the loop nest of `backward` at one cell. -/
theorem fold_bbBody (h : B.WF) (gv gs : Bool) (w wsc : Fld d R) (bg sc : BwdBufs d R)
    (hb : B.base.BOk bg) (hs : B.base.BOk sc) (g gg : Fld d R) (c : Cell d) :
    foldUpdate (bbBody B.bwdArgs B.scatter gv gs w wsc bg sc) B.bwdArgs.visits
      (fun c => (⟨bg.wfp c, fun k => bg.psin k c, fun k => bg.zetan k c, sc.wfp c,
        fun k => sc.psin k c, fun k => sc.zetan k c, g c, gg c⟩ : BBCell d R)) c =
    ⟨(bStepX B.base (bgX B bg.st sc.st) bg.st).u c,
      fun k => (bStepX B.base (bgX B bg.st sc.st) bg.st).psi k c,
      fun k => (bStepX B.base (bgX B bg.st sc.st) bg.st).zeta k c,
      (B.base.bStep sc.st).u c, fun k => (B.base.bStep sc.st).psi k c,
      fun k => (B.base.bStep sc.st).zeta k c,
      g c + if gv ∧ B.base.Inner c then bg.wfc c * 2 * B.base.v c * B.base.dt ^ 2 * w c
          * (B.base.ratio : R)
        + sc.wfc c * (2 * B.base.dt ^ 2 * B.scatter c * w c + 2 * B.base.v c * B.base.dt ^ 2 * wsc c)
          * (B.base.ratio : R) else 0,
      gg c + if gs ∧ B.base.Inner c then sc.wfc c * 2 * B.base.v c * B.base.dt ^ 2 * w c
        * (B.base.ratio : R) else 0⟩ := by
  have ho : B.bwdArgs.Ordered := B.base.ordered_bwd h.base
  rw [CArgs.fold_visits ho]
  change (if B.base.Inner c then _ else _) = _
  have e1 : (fun c => B.base.v c * B.base.v c * B.base.dt ^ 2 * bg.wfc c
      + 2 * (B.base.v c * B.base.dt ^ 2) * B.scatter c * sc.wfc c) = bgX B bg.st sc.st := by
    funext c
    simp only [bgX, ← V_eq, BwdBufs.st]; ring
  have e2 : (fun c => B.base.v c * B.base.v c * B.base.dt ^ 2 * sc.wfc c) =
      fun c => B.base.V c * sc.st.u c := by
    funext c; rw [V_eq]; rfl
  have supp1 : ∀ c, ¬B.base.Inner c → bgX B bg.st sc.st c = 0 := by
    intro c hc
    simp [bgX, hb.good.u c hc, hs.good.u c hc]
  have supp2 : ∀ c, ¬B.base.Inner c → B.base.V c * sc.st.u c = 0 := by
    intro c hc
    simp [hs.good.u c hc]
  by_cases hc : B.base.Inner c
  · rw [if_pos hc]
    have t1 := bTerms_eq h.base bg hb _ supp1 c hc
    have t2 := bTerms_eq h.base sc hs _ supp2 c hc
    have em : B.bwdArgs.m = B.base.v := rfl
    have ed : B.bwdArgs.dt2 = B.base.dt ^ 2 := rfl
    have ea : B.bwdArgs.a = B.base.a := rfl
    have er : B.bwdArgs.ratio = B.base.ratio := rfl
    have t1' : bTerms B.bwdArgs (bgX B bg.st sc.st) bg.psi bg.zeta (B.bwdArgs.regionOf c) c
        (fun k => bg.psin k c) = _ := t1
    have t2' : bTerms B.bwdArgs (fun c => B.base.V c * sc.st.u c) sc.psi sc.zeta
        (B.bwdArgs.regionOf c) c (fun k => sc.psin k c) = _ := t2
    clear t1 t2
    have hmid : ∀ k, B.base.bwdArgs.regionOf c k = .mid → B.base.Mid k (c k) := by
      intro k hk
      simpa using Cfg.bwd_mid h.base hk (j := 0) (by omega)
    have hreg : B.bwdArgs.regionOf c = B.base.bwdArgs.regionOf c := rfl
    simp only [bbBody, em, ed, ea, er, e1, e2, t1', t2', hc, and_true]
    simp only [hreg, BBCell.mk.injEq]
    refine ⟨?_, trivial, ?_, ?_, ?_, ?_, ?_, ?_⟩
    · simp only [bStepX, hc, if_true]; rfl
    · funext k
      simp only [bStepX, hc, if_true]
      split_ifs with hk
      · rw [h.base.a_mid k _ (hmid k hk), hb.zetan_mid k c (hmid k hk)]; ring
      · simp only [bgX, ← V_eq, BwdBufs.st]; ring
    · rw [← bStepX_self]; simp only [bStepX, hc, if_true]; rfl
    · rfl
    · funext k
      simp only [Cfg.bStep, hc, if_true]
      split_ifs with hk
      · rw [h.base.a_mid k _ (hmid k hk), hs.zetan_mid k c (hmid k hk)]; ring
      · rw [← V_eq]; simp only [BwdBufs.st]; ring
    · split_ifs <;> ring
    · split_ifs <;> ring
  · rw [if_neg hc]
    have h1 : bg.wfp c = 0 := hb.good.p c hc
    have h2 : ∀ k, bg.zetan k c = 0 := fun k => hb.zetan k c hc
    have h3 : ∀ k, bg.psin k c = 0 := fun k => hb.psin k c hc
    have h1' : sc.wfp c = 0 := hs.good.p c hc
    have h2' : ∀ k, sc.zetan k c = 0 := fun k => hs.zetan k c hc
    have h3' : ∀ k, sc.psin k c = 0 := fun k => hs.psin k c hc
    simp [bStepX, Cfg.bStep, hc, h1, h2, h3, h1', h2', h3']

theorem updGf {m T n : ℕ} {r : ℕ → Fin m → R} {F : ℕ → Fin m → R} {x : Fld d R}
    {loc : Fin m → Option (Cell d)} (hn : n < T)
    (hr : ∀ t, r t = if t < T ∧ T ≤ t + n then F t else fun _ => 0)
    (hx : sample loc x = F (T - 1 - n)) (t : ℕ) :
    Function.update r (T - 1 - n) (recordFrom x loc (r (T - 1 - n))) t =
      if t < T ∧ T ≤ t + (n + 1) then F t else fun _ => 0 := by
  by_cases ht : t = T - 1 - n
  · subst ht
    rw [Function.update_self, hr, if_neg (by omega), recordFrom_zero, hx, if_pos (by omega)]
  · rw [Function.update_of_ne ht, hr t]
    have : (t < T ∧ T ≤ t + (n + 1)) ↔ (t < T ∧ T ≤ t + n) := by omega
    simp only [this]

theorem BInv.step (h : B.WF) {gv gs : Bool} {w wsc : ℕ → Fld d R} {gr : ℕ → Fin nr → R}
    {grsc : ℕ → Fin nq → R} {T : ℕ} {l μ : St d R} {n : ℕ} {m : BMem d ns R} (hn : n < T)
    (hi : BInv B gv gs w wsc gr grsc T l μ n m) :
    BInv B gv gs w wsc gr grsc T l μ (n + 1)
      (bStepC B.bwdArgs B.scatter B.rcvsc gv gs w wsc gr grsc (T - 1 - n) m).swap := by
  have hout := fun gv gs w wsc => fold_bbBody h gv gs w wsc m.bg m.sc hi.bgOk hi.scOk m.gv m.gs
  have er : B.bwdArgs.ratio = B.base.ratio := rfl
  have hbg : (bStepC B.bwdArgs B.scatter B.rcvsc gv gs w wsc gr grsc (T - 1 - n) m).swap.bg.st =
      bgBRun B gr grsc T l μ (n + 1) := by
    rw [bgBRun, ← hi.bg, ← hi.sc]
    ext1
    · funext c
      simp [bStepC, BMem.swap, BwdBufs.set, BwdBufs.swap, BwdBufs.st, bgBNext, addTo_eq, hout, er]
      rfl
    · rfl
    · funext k c
      simp [bStepC, BMem.swap, BwdBufs.set, BwdBufs.swap, BwdBufs.st, bgBNext, hout, er]
    · funext k c
      simp [bStepC, BMem.swap, BwdBufs.set, BwdBufs.swap, BwdBufs.st, bgBNext, hout, er]
  have hsc : (bStepC B.bwdArgs B.scatter B.rcvsc gv gs w wsc gr grsc (T - 1 - n) m).swap.sc.st =
      scBRun B grsc T μ (n + 1) := by
    rw [scBRun, ← hi.sc]
    ext1
    · funext c
      simp [bStepC, BMem.swap, BwdBufs.set, BwdBufs.swap, BwdBufs.st, scBNext, addTo_eq, hout, er]
    · rfl
    · funext k c
      simp [bStepC, BMem.swap, BwdBufs.set, BwdBufs.swap, BwdBufs.st, scBNext, hout, er]
    · funext k c
      simp [bStepC, BMem.swap, BwdBufs.set, BwdBufs.swap, BwdBufs.st, scBNext, hout, er]
  have e2 : T - 1 - (T - 1 - n) = n := by omega
  refine ⟨⟨?_, hi.bgOk.good.psi, hi.bgOk.good.psi_mid, hi.bgOk.good.zeta, hi.bgOk.good.zeta_mid⟩,
    ⟨?_, hi.scOk.good.psi, hi.scOk.good.psi_mid, hi.scOk.good.zeta, hi.scOk.good.zeta_mid⟩,
    hbg, hsc, ?_, ?_, ?_, ?_⟩
  · rw [hbg]
    have := bgBNext_good h (gr (T - 1 - n)) m.sc.st hi.bgOk.good
    rw [hi.bg, hi.sc] at this
    exact this
  · rw [hsc]
    have := scBNext_good h (grsc (T - 1 - n)) hi.scOk.good
    rw [hi.sc] at this
    exact this
  · exact updGf (x := m.bg.wfc) hn hi.gf (by rw [e2, ← hi.bg]; rfl)
  · exact updGf (x := m.sc.wfc) hn hi.gfsc (by rw [e2, ← hi.sc]; rfl)
  · intro c
    rw [Finset.sum_range_succ, ← hi.gv c]
    simp only [bStepC, BMem.swap, hout, er, gvAt, ← hi.bg, ← hi.sc]
    rfl
  · intro c
    rw [Finset.sum_range_succ, ← hi.gs c]
    simp only [bStepC, BMem.swap, hout, er, gsAt, ← hi.sc]
    rfl

omit [Field R] in
theorem BMem.swap_swap (m : BMem d ns R) : m.swap.swap = m := rfl

/-- Adjoint state without the padding and with the sign of the previous field undone. -/
def bOutOf (C : Cfg d ns nr R) (s : St d R) : Wavefields d R :=
  ⟨C.unpad s.u, C.unpad fun c => -s.p c, fun k => C.unpad (s.psi k), fun k => C.unpad (s.zeta k)⟩

/-- What a backward callback sees after `n` outer steps have been undone. -/
def bEventAt (B : BCfg d ns nr nq R) (gv gs : Bool) (w wsc : ℕ → Fld d R) (gr : ℕ → Fin nr → R)
    (grsc : ℕ → Fin nq → R) (N : ℕ) (l μ : St d R) (n : ℕ) : BEvent d R :=
  let T := N * B.base.ratio
  let x := bgBRun B gr grsc T l μ (n * B.base.ratio)
  let y := scBRun B grsc T μ (n * B.base.ratio)
  ⟨N - n, ⟨x.u, x.p, x.psi, x.zeta⟩, ⟨y.u, y.p, y.psi, y.zeta⟩,
    fun c => ∑ i ∈ Finset.range (n * B.base.ratio), gvAt B gv w wsc gr grsc T l μ i c,
    fun c => ∑ i ∈ Finset.range (n * B.base.ratio), gsAt B gs w grsc T μ i c⟩

/-- The result of the Born backward driver in terms of the recursions. -/
theorem backward_eq (h : B.WF) (gv gs : Bool) (cb : Option ℕ) (nt : ℕ) (w wsc : ℕ → Fld d R)
    (gr : ℕ → Fin nr → R) (grsc : ℕ → Fin nq → R) (g gsc : Init d R) (hr : 0 < B.base.ratio)
    (hcf : 0 < nt → 0 < cb.getD (nt / B.base.ratio)) :
    B.backward gv gs cb nt w wsc gr grsc g gsc = .ok
      (let T := nt / B.base.ratio * B.base.ratio
       let l := B.base.bStart g
       let μ := B.base.bStart gsc
       { gv := fun c => ∑ i ∈ Finset.range T, gvAt B gv w wsc gr grsc T l μ i c
         gs := fun c => ∑ i ∈ Finset.range T, gsAt B gs w grsc T μ i c
         gf := fun t => if t < T then sample B.base.src (bgBRun B gr grsc T l μ (T - 1 - t)).u
           else fun _ => 0
         gfsc := fun t => if t < T then sample B.base.src (scBRun B grsc T μ (T - 1 - t)).u
           else fun _ => 0
         out := bOutOf B.base (bgBRun B gr grsc T l μ T)
         outsc := bOutOf B.base (scBRun B grsc T μ T)
         events := match cb with
           | none => []
           | some cf => (List.range ((nt / B.base.ratio + cf - 1) / cf)).map fun i =>
               bEventAt B gv gs w wsc gr grsc (nt / B.base.ratio) l μ
                 (min (nt / B.base.ratio) ((i + 1) * cf)) }) := by
  have inv : ∀ T n, n ≤ T → BInv B gv gs w wsc gr grsc T (B.base.bStart g) (B.base.bStart gsc) n
      (Driver.runB BMem.swap (bStepC B.bwdArgs B.scatter B.rcvsc gv gs w wsc gr grsc) T
        (B.bInit g gsc) n) := fun T =>
    Driver.runB_inv ⟨B.base.initBwdBufs_ok g, B.base.initBwdBufs_ok gsc, rfl, rfl,
      fun t => by rw [if_neg (by omega)]; rfl, fun t => by rw [if_neg (by omega)]; rfl,
      fun _ => by simp [BCfg.bInit], fun _ => by simp [BCfg.bInit]⟩ fun n m hn hm => hm.step h hn
  have ev : ∀ N n, n ≤ N → bView (N - n) (Driver.runB BMem.swap
        (bStepC B.bwdArgs B.scatter B.rcvsc gv gs w wsc gr grsc) (N * B.base.ratio)
        (B.bInit g gsc) (n * B.base.ratio)) =
      bEventAt B gv gs w wsc gr grsc N (B.base.bStart g) (B.base.bStart gsc) n := by
    intro N n hn
    have i1 := inv (N * B.base.ratio) (n * B.base.ratio) (Nat.mul_le_mul_right _ hn)
    have g1 := funext i1.gv
    have g2 := funext i1.gs
    simp only [bEventAt, bView, ← i1.bg, ← i1.sc, ← g1, ← g2]
    rfl
  unfold BCfg.backward
  rw [if_neg hr.ne']
  by_cases hnt : 0 < nt
  · have hc := hcf hnt
    simp only [hnt, true_and, hc.ne', if_false, if_true]
    rw [Driver.driveB_eq BMem.swap_swap _ _ hc]
    have i1 := inv (nt / B.base.ratio * B.base.ratio) _ le_rfl
    have tl : ∀ t, (t < nt / B.base.ratio * B.base.ratio ∧ nt / B.base.ratio * B.base.ratio ≤
        t + nt / B.base.ratio * B.base.ratio) ↔ t < nt / B.base.ratio * B.base.ratio := by
      intro t; omega
    congr 1
    congr 1
    · funext c; exact i1.gv c
    · funext c; exact i1.gs c
    · funext t; rw [i1.gf t]; simp only [tl]
    · funext t; rw [i1.gfsc t]; simp only [tl]
    · rw [← i1.bg]; rfl
    · rw [← i1.sc]; rfl
    · cases cb with
      | none => simp
      | some cf =>
          simp only [Option.isSome_some, if_true]
          refine List.map_congr_left fun i _ => ev _ _ (Nat.min_le_left _ _)
  · have h0 : nt = 0 := by omega
    subst h0
    simp only [lt_irrefl, false_and, if_false, Nat.zero_div, Nat.zero_mul, Nat.not_lt_zero]
    congr 1
    cases cb with
    | none => simp; exact ⟨rfl, rfl, rfl, rfl, rfl, rfl⟩
    | some cf =>
        have : (0 + cf - 1) / cf = 0 := by
          rcases Nat.eq_zero_or_pos cf with h | h
          · subst h; simp
          · exact Nat.div_eq_of_lt (by omega)
        simp only [Option.isSome_some, if_true]
        rw [this]
        simp
        exact ⟨rfl, rfl, rfl, rfl, rfl, rfl⟩

/-! ### The pass for the scattered field only -/

structure SInv (B : BCfg d ns nr nq R) (gs : Bool) (w : ℕ → Fld d R)
    (grsc : ℕ → Fin nq → R) (T : ℕ) (μ : St d R) (n : ℕ) (m : SMem d ns R) : Prop where
  scOk : B.base.BOk m.sc
  sc : m.sc.st = scBRun B grsc T μ n
  gfsc : ∀ t, m.gfsc t = if t < T ∧ T ≤ t + n then
    sample B.base.src (scBRun B grsc T μ (T - 1 - t)).u else fun _ => 0
  gs : ∀ c, m.gs c = ∑ i ∈ Finset.range n, gsAt B gs w grsc T μ i c

/-- `scBody` is the scattered part of `bbBody`. -/
theorem scBody_eq (A : CArgs d ns nr R) (σ : Fld d R) (gs : Bool) (w wsc : Fld d R)
    (bg sc : BwdBufs d R) (r : Fin d → Region) (c : Cell d) (s : BBCell d R) :
    scBody A gs w sc r c ⟨s.wfpsc, s.psinsc, s.zetansc, s.gs⟩ =
      (let x := bbBody A σ false gs w wsc bg sc r c s
       ⟨x.wfpsc, x.psinsc, x.zetansc, x.gs⟩) := rfl

theorem fold_scBody (h : B.WF) (gs : Bool) (w : Fld d R) (sc : BwdBufs d R)
    (hs : B.base.BOk sc) (gg : Fld d R) (c : Cell d) :
    foldUpdate (scBody B.bwdArgs gs w sc) B.bwdArgs.visits
      (fun c => (⟨sc.wfp c, fun k => sc.psin k c, fun k => sc.zetan k c, gg c⟩ : BwdCell d R)) c =
    ⟨(B.base.bStep sc.st).u c, fun k => (B.base.bStep sc.st).psi k c,
      fun k => (B.base.bStep sc.st).zeta k c,
      gg c + if gs ∧ B.base.Inner c then sc.wfc c * 2 * B.base.v c * B.base.dt ^ 2 * w c
        * (B.base.ratio : R) else 0⟩ := by
  have ho : B.bwdArgs.Ordered := B.base.ordered_bwd h.base
  have key := fold_bbBody h false gs w w sc sc hs hs gg gg c
  rw [CArgs.fold_visits ho] at key ⊢
  change (if B.base.Inner c then _ else _) = _ at key
  change (if B.base.Inner c then _ else _) = _
  by_cases hc : B.base.Inner c
  · rw [if_pos hc] at key ⊢
    have e := scBody_eq B.bwdArgs B.scatter gs w w sc sc (B.bwdArgs.regionOf c) c
      ⟨sc.wfp c, fun k => sc.psin k c, fun k => sc.zetan k c, sc.wfp c, fun k => sc.psin k c,
        fun k => sc.zetan k c, gg c, gg c⟩
    rw [key] at e
    exact e
  · rw [if_neg hc] at key ⊢
    simp only [BBCell.mk.injEq] at key
    obtain ⟨-, -, -, k1, k2, k3, -, k4⟩ := key
    rw [k2, k3, ← k1, ← k4]

theorem SInv.step (h : B.WF) {gs : Bool} {w : ℕ → Fld d R}
    {grsc : ℕ → Fin nq → R} {T : ℕ} {μ : St d R} {n : ℕ} {m : SMem d ns R} (hn : n < T)
    (hi : SInv B gs w grsc T μ n m) :
    SInv B gs w grsc T μ (n + 1) (sStepC B.bwdArgs B.rcvsc gs w grsc (T - 1 - n) m).swap := by
  have hout := fun gs w => fold_scBody h gs w m.sc hi.scOk m.gs
  have er : B.bwdArgs.ratio = B.base.ratio := rfl
  have hsc : (sStepC B.bwdArgs B.rcvsc gs w grsc (T - 1 - n) m).swap.sc.st =
      scBRun B grsc T μ (n + 1) := by
    rw [scBRun, ← hi.sc]
    ext1
    · funext c
      simp [sStepC, SMem.swap, BwdBufs.set, BwdBufs.swap, BwdBufs.st, scBNext, addTo_eq, hout, er]
    · rfl
    · funext k c
      simp [sStepC, SMem.swap, BwdBufs.set, BwdBufs.swap, BwdBufs.st, scBNext, hout, er]
    · funext k c
      simp [sStepC, SMem.swap, BwdBufs.set, BwdBufs.swap, BwdBufs.st, scBNext, hout, er]
  have e2 : T - 1 - (T - 1 - n) = n := by omega
  refine ⟨⟨?_, hi.scOk.good.psi, hi.scOk.good.psi_mid, hi.scOk.good.zeta, hi.scOk.good.zeta_mid⟩,
    hsc, ?_, ?_⟩
  · rw [hsc]
    have := scBNext_good h (grsc (T - 1 - n)) hi.scOk.good
    rw [hi.sc] at this
    exact this
  · exact updGf (x := m.sc.wfc) hn hi.gfsc (by rw [e2, ← hi.sc]; rfl)
  · intro c
    rw [Finset.sum_range_succ, ← hi.gs c]
    simp only [sStepC, SMem.swap, hout, er, gsAt, ← hi.sc]
    rfl

omit [Field R] in
theorem SMem.swap_swap (m : SMem d ns R) : m.swap.swap = m := rfl

def sEventAt (B : BCfg d ns nr nq R) (gs : Bool) (w : ℕ → Fld d R)
    (grsc : ℕ → Fin nq → R) (N : ℕ) (μ : St d R) (n : ℕ) : SEvent d R :=
  let T := N * B.base.ratio
  let y := scBRun B grsc T μ (n * B.base.ratio)
  ⟨N - n, ⟨y.u, y.p, y.psi, y.zeta⟩,
    fun c => ∑ i ∈ Finset.range (n * B.base.ratio), gsAt B gs w grsc T μ i c⟩

/-- The result of the scattered-only backward driver in terms of the recursion. -/
theorem backwardSc_eq (h : B.WF) (gs : Bool) (cb : Option ℕ) (nt : ℕ) (w : ℕ → Fld d R)
    (grsc : ℕ → Fin nq → R) (gsc : Init d R) (hr : 0 < B.base.ratio)
    (hcf : 0 < nt → 0 < cb.getD (nt / B.base.ratio)) :
    B.backwardSc gs cb nt w grsc gsc = .ok
      (let T := nt / B.base.ratio * B.base.ratio
       let μ := B.base.bStart gsc
       { gs := fun c => ∑ i ∈ Finset.range T, gsAt B gs w grsc T μ i c
         gfsc := fun t => if t < T then sample B.base.src (scBRun B grsc T μ (T - 1 - t)).u
           else fun _ => 0
         outsc := bOutOf B.base (scBRun B grsc T μ T)
         events := match cb with
           | none => []
           | some cf => (List.range ((nt / B.base.ratio + cf - 1) / cf)).map fun i =>
               sEventAt B gs w grsc (nt / B.base.ratio) μ
                 (min (nt / B.base.ratio) ((i + 1) * cf)) }) := by
  have inv : ∀ T n, n ≤ T → SInv B gs w grsc T (B.base.bStart gsc) n
      (Driver.runB SMem.swap (sStepC B.bwdArgs B.rcvsc gs w grsc) T
        ⟨B.base.initBwdBufs gsc, fun _ _ => 0, fun _ => 0⟩ n) := fun T =>
    Driver.runB_inv ⟨B.base.initBwdBufs_ok gsc, rfl,
      fun t => by rw [if_neg (by omega)], fun _ => by simp⟩ fun n m hn hm => hm.step h hn
  have ev : ∀ N n, n ≤ N → sView (N - n) (Driver.runB SMem.swap
        (sStepC B.bwdArgs B.rcvsc gs w grsc) (N * B.base.ratio)
        ⟨B.base.initBwdBufs gsc, fun _ _ => 0, fun _ => 0⟩ (n * B.base.ratio)) =
      sEventAt B gs w grsc N (B.base.bStart gsc) n := by
    intro N n hn
    have i1 := inv (N * B.base.ratio) (n * B.base.ratio) (Nat.mul_le_mul_right _ hn)
    have g2 := funext i1.gs
    simp only [sEventAt, sView, ← i1.sc, ← g2]
    rfl
  unfold BCfg.backwardSc
  rw [if_neg hr.ne']
  by_cases hnt : 0 < nt
  · have hc := hcf hnt
    simp only [hnt, true_and, hc.ne', if_false, if_true]
    rw [Driver.driveB_eq SMem.swap_swap _ _ hc]
    have i1 := inv (nt / B.base.ratio * B.base.ratio) _ le_rfl
    have tl : ∀ t, (t < nt / B.base.ratio * B.base.ratio ∧ nt / B.base.ratio * B.base.ratio ≤
        t + nt / B.base.ratio * B.base.ratio) ↔ t < nt / B.base.ratio * B.base.ratio := by
      intro t; omega
    congr 1
    congr 1
    · funext c; exact i1.gs c
    · funext t; rw [i1.gfsc t]; simp only [tl]
    · rw [← i1.sc]; rfl
    · cases cb with
      | none => simp
      | some cf =>
          simp only [Option.isSome_some, if_true]
          refine List.map_congr_left fun i _ => ev _ _ (Nat.min_le_left _ _)
  · have h0 : nt = 0 := by omega
    subst h0
    simp only [lt_irrefl, false_and, if_false, Nat.zero_div, Nat.zero_mul, Nat.not_lt_zero]
    congr 1
    cases cb with
    | none => simp; rfl
    | some cf =>
        have : (0 + cf - 1) / cf = 0 := by
          rcases Nat.eq_zero_or_pos cf with h | h
          · subst h; simp
          · exact Nat.div_eq_of_lt (by omega)
        simp only [Option.isSome_some, if_true]
        rw [this]
        simp
        rfl

end Dw.Born
