import Verif.Born.Model
import Verif.Scalar.Gradient

/-!
# The Born forward driver computes a reference recursion
-/

namespace Dw.Born

open Dw.Scalar

variable {d ns nr nq : ℕ} {R : Type*} [Field R]

/-- The configuration with unit velocity and time step: its Laplacian is the same. -/
def unit (C : Cfg d ns nr R) : Cfg d ns nr R := { C with v := fun _ => 1, dt := 1 }

theorem unit_wf {C : Cfg d ns nr R} (h : C.WF) : (unit C).WF :=
  ⟨h.w0_nonneg, h.w1_nonneg, h.size, h.a_mid, h.b_mid, h.db_mid, h.src_in, h.rcv_in⟩

theorem unit_good {C : Cfg d ns nr R} {s : St d R} (h : C.Good s) : (unit C).Good s :=
  ⟨h.u, h.p, h.psi, h.zeta, h.psi_mid, h.zeta_mid⟩

variable {C : Cfg d ns nr R}

/-- The statements for one field compute the PML-stretched Laplacian and the memory variables. -/
theorem terms_eq (h : C.WF) (s : FwdBufs d R) (hs : C.Ok s) (c : Cell d) (hc : C.Inner c) :
    terms C.fwdArgs s.wfc s.psi (C.fwdArgs.regionOf c) c (fun k => s.psin k c) (fun k => s.zeta k c)
      = ⟨C.lap s.st c, fun k => (C.refStep s.st).psi k c, fun k => (C.refStep s.st).zeta k c⟩ := by
  have hu : (unit C).Ok s := ⟨unit_good hs.good, hs.psin, hs.psin_mid⟩
  have key := fwdBody_eq (unit_wf h) false s hu 0 c hc
  have e : fwdBody (unit C).fwdArgs false s.wfc s.psi ((unit C).fwdArgs.regionOf c) c
      ⟨s.wfp c, fun k => s.psin k c, fun k => s.zeta k c, 0⟩ =
      (let t := terms C.fwdArgs s.wfc s.psi (C.fwdArgs.regionOf c) c (fun k => s.psin k c)
        (fun k => s.zeta k c)
       ⟨1 * 1 * (1 : R) ^ 2 * t.wSum + 2 * s.wfc c - s.wfp c, t.psin, t.zeta, 0⟩) := rfl
  rw [e] at key
  generalize terms C.fwdArgs s.wfc s.psi (C.fwdArgs.regionOf c) c (fun k => s.psin k c)
    (fun k => s.zeta k c) = t at key
  obtain ⟨w, p, z⟩ := t
  simp only [FwdCell.mk.injEq] at key
  obtain ⟨k1, k2, k3, -⟩ := key
  have hlap : (unit C).lap s.st c = C.lap s.st c := rfl
  have hu : ((unit C).refStep s.st).u c = C.lap s.st c + 2 * s.wfc c - s.wfp c := by
    have hi : (unit C).Inner c := hc
    simp only [Cfg.refStep, hi, if_true, hlap]
    simp [unit, FwdBufs.st]
  rw [hu] at k1
  have : w = C.lap s.st c := by linear_combination k1
  subst this
  congr 1

/-- The Laplacian on the interior: what the kernel stores. -/
def lapIn (C : Cfg d ns nr R) (s : St d R) : Fld d R := fun c => if C.Inner c then C.lap s c else 0

/-- One step of the scattered field `l` above the background `s`. -/
def scNext (B : BCfg d ns nr nq R) (q : Fin ns → R) (s l : St d R) : St d R :=
  let s' := B.base.tNext B.scatter s l
  { s' with u := fun c => s'.u c + inject B.base.src q c }

/-- The scattered field after `n` steps from `l`, above the background started at `s`. -/
def scRun (B : BCfg d ns nr nq R) (f fsc : ℕ → Fin ns → R) (s l : St d R) : ℕ → St d R
  | 0 => l
  | n + 1 => scNext B (fsc n) (B.base.run f 0 s n) (scRun B f fsc s l n)

variable {B : BCfg d ns nr nq R}

theorem scNext_good (h : B.base.WF) (q : Fin ns → R) (s : St d R) {l : St d R} (hl : B.base.Good l) :
    B.base.Good (scNext B q s l) := by
  have g := B.base.refStep_good h hl
  exact ⟨fun c hc => by simp [scNext, Cfg.tNext, g.u c hc, Cfg.snap, hc,
    inject_outside h q c hc], g.p, g.psi, g.zeta, g.psi_mid, g.zeta_mid⟩

theorem scRun_good (h : B.base.WF) (f fsc : ℕ → Fin ns → R) (s : St d R) {l : St d R}
    (hl : B.base.Good l) : ∀ n, B.base.Good (scRun B f fsc s l n)
  | 0 => hl
  | n + 1 => scNext_good h _ _ (scRun_good h f fsc s hl n)

/-- Memory after `n` steps. -/
structure FInv (B : BCfg d ns nr nq R) (gv gs : Bool) (f fsc : ℕ → Fin ns → R) (s l : St d R) (n : ℕ)
    (m : FMem d nr nq R) : Prop where
  bgOk : B.base.Ok m.bg
  scOk : B.base.Ok m.sc
  bg : m.bg.st = B.base.run f 0 s n
  sc : m.sc.st = scRun B f fsc s l n
  rcd : ∀ t, m.rcd t = if t < n then sample B.base.rcv (B.base.run f 0 s t).u else fun _ => 0
  rcdsc : ∀ t, m.rcdsc t = if t < n then sample B.rcvsc (scRun B f fsc s l t).u else fun _ => 0
  w : ∀ j, m.w j = if (gv || gs) = true ∧ j * B.base.ratio < n then
    lapIn B.base (B.base.run f 0 s (j * B.base.ratio)) else fun _ => 0
  wsc : ∀ j, m.wsc j = if gv = true ∧ j * B.base.ratio < n then
    lapIn B.base (scRun B f fsc s l (j * B.base.ratio)) else fun _ => 0

/-- What the loop nest leaves in each cell. -/
theorem fold_bornBody (h : B.base.WF) (save saveSc : Bool) (bg sc : FwdBufs d R)
    (hb : B.base.Ok bg) (hs : B.base.Ok sc) (w wsc : Fld d R) (c : Cell d) :
    foldUpdate (bornBody B.base.fwdArgs B.scatter save saveSc bg sc) B.base.fwdArgs.visits
      (fun c => (⟨bg.wfp c, fun k => bg.psin k c, fun k => bg.zeta k c, sc.wfp c,
        fun k => sc.psin k c, fun k => sc.zeta k c, w c, wsc c⟩ : BornCell d R)) c =
    ⟨(B.base.refStep bg.st).u c, fun k => (B.base.refStep bg.st).psi k c,
      fun k => (B.base.refStep bg.st).zeta k c, (B.base.tNext B.scatter bg.st sc.st).u c,
      fun k => (B.base.refStep sc.st).psi k c, fun k => (B.base.refStep sc.st).zeta k c,
      if save ∧ B.base.Inner c then lapIn B.base bg.st c else w c,
      if saveSc ∧ B.base.Inner c then lapIn B.base sc.st c else wsc c⟩ := by
  rw [CArgs.fold_visits (B.base.ordered_fwd h)]
  change (if B.base.Inner c then _ else _) = _
  by_cases hc : B.base.Inner c
  · rw [if_pos hc]
    simp only [bornBody, terms_eq h bg hb c hc, terms_eq h sc hs c hc, hc, and_true, lapIn, if_true]
    have em : B.base.fwdArgs.m = B.base.v := rfl
    have ed : B.base.fwdArgs.dt2 = B.base.dt ^ 2 := rfl
    congr 1
    · simp only [Cfg.refStep, hc, if_true, em, ed, FwdBufs.st]; ring
    · simp only [Cfg.tNext, Cfg.snap, Cfg.refStep, hc, if_true, em, ed, FwdBufs.st]; ring
  · rw [if_neg hc]
    have g := hb.good
    have g' := hs.good
    simp only [Cfg.refStep, Cfg.tNext, Cfg.snap, hc, if_false, and_false]
    have h1 : bg.wfp c = 0 := g.p c hc
    have h2 : ∀ k, bg.zeta k c = 0 := fun k => g.zeta k c hc
    have h3 : ∀ k, bg.psin k c = 0 := fun k => hb.psin k c hc
    have h1' : sc.wfp c = 0 := g'.p c hc
    have h2' : ∀ k, sc.zeta k c = 0 := fun k => g'.zeta k c hc
    have h3' : ∀ k, sc.psin k c = 0 := fun k => hs.psin k c hc
    simp [h1, h2, h3, h1', h2', h3']

theorem updStore {ratio n : ℕ} (hr : 0 < ratio) {on : Bool} {F : ℕ → Fld d R} {new : Fld d R}
    {st : ℕ → Fld d R} (hst : ∀ j, st j = if on = true ∧ j * ratio < n then F (j * ratio) else fun _ => 0)
    (hnew : (on && n % ratio == 0) = true → new = F n) (save : Bool)
    (hsave : save = (on && n % ratio == 0)) (j : ℕ) :
    (if save then Function.update st (n / ratio) new else st) j =
      if on = true ∧ j * ratio < n + 1 then F (j * ratio) else fun _ => 0 := by
  subst hsave
  by_cases hsv : (on && n % ratio == 0) = true
  · rw [if_pos hsv, hnew hsv]
    simp only [Bool.and_eq_true, beq_iff_eq] at hsv
    have hT : n / ratio * ratio = n := Nat.div_mul_cancel (Nat.dvd_of_mod_eq_zero hsv.2)
    by_cases hj : j = n / ratio
    · subst hj
      rw [Function.update_self, hT, if_pos ⟨hsv.1, Nat.lt_succ_self _⟩]
    · rw [Function.update_of_ne hj, hst]
      have hne : j * ratio ≠ n := by
        intro e
        apply hj
        rw [← e, Nat.mul_div_cancel _ hr]
      have : j * ratio < n + 1 ↔ j * ratio < n := by omega
      simp [this]
  · rw [if_neg hsv, hst]
    by_cases hg : on = true
    · simp only [hg, Bool.true_and, beq_iff_eq] at hsv
      have hne : j * ratio ≠ n := by
        rintro rfl
        exact hsv (Nat.mul_mod_left _ _)
      have : j * ratio < n + 1 ↔ j * ratio < n := by omega
      simp [this]
    · simp [hg]

theorem updRcd {m n : ℕ} {r : ℕ → Fin m → R} {F : ℕ → Fin m → R} {x : Fld d R}
    {loc : Fin m → Option (Cell d)} (hr : ∀ t, r t = if t < n then F t else fun _ => 0)
    (hx : sample loc x = F n) (t : ℕ) :
    Function.update r n (recordFrom x loc (r n)) t = if t < n + 1 then F t else fun _ => 0 := by
  by_cases ht : t = n
  · subst ht
    rw [Function.update_self, hr t, if_neg (lt_irrefl _), recordFrom_zero, hx,
      if_pos (Nat.lt_succ_self _)]
  · rw [Function.update_of_ne ht, hr t]
    have : t < n + 1 ↔ t < n := by omega
    simp [this]

theorem FInv.step (h : B.base.WF) (hr : 0 < B.base.ratio) {gv gs : Bool} {f fsc : ℕ → Fin ns → R}
    {s l : St d R} {n : ℕ} {m : FMem d nr nq R} (hi : FInv B gv gs f fsc s l n m) :
    FInv B gv gs f fsc s l (n + 1)
      (fStep B.base.fwdArgs B.scatter B.rcvsc gv gs f fsc n m).swap := by
  have hout := fun save saveSc => fold_bornBody h save saveSc m.bg m.sc hi.bgOk hi.scOk
    (m.w (n / B.base.ratio)) (m.wsc (n / B.base.ratio))
  have er : B.base.fwdArgs.ratio = B.base.ratio := rfl
  have hbg : (fStep B.base.fwdArgs B.scatter B.rcvsc gv gs f fsc n m).swap.bg.st =
      B.base.run f 0 s (n + 1) := by
    rw [Cfg.run, ← hi.bg, Nat.zero_add]
    ext1
    · funext c
      simp [fStep, FMem.swap, FwdBufs.set, FwdBufs.swap, FwdBufs.st, Cfg.next, addTo_eq, hout, er]
      rfl
    · rfl
    · funext k c; simp [fStep, FMem.swap, FwdBufs.set, FwdBufs.swap, FwdBufs.st, Cfg.next, hout, er]
    · funext k c; simp [fStep, FMem.swap, FwdBufs.set, FwdBufs.swap, FwdBufs.st, Cfg.next, hout, er]
  have hsc : (fStep B.base.fwdArgs B.scatter B.rcvsc gv gs f fsc n m).swap.sc.st =
      scRun B f fsc s l (n + 1) := by
    rw [scRun, ← hi.bg, ← hi.sc]
    ext1
    · funext c
      simp [fStep, FMem.swap, FwdBufs.set, FwdBufs.swap, FwdBufs.st, scNext, addTo_eq, hout, er]
      rfl
    · rfl
    · funext k c
      simp [fStep, FMem.swap, FwdBufs.set, FwdBufs.swap, FwdBufs.st, scNext, hout, er, Cfg.tNext]
    · funext k c
      simp [fStep, FMem.swap, FwdBufs.set, FwdBufs.swap, FwdBufs.st, scNext, hout, er, Cfg.tNext]
  have nw : ∀ (x y : Fld d R) (p : Prop) [Decidable p], p → (∀ c, ¬B.base.Inner c → x c = 0) →
      (∀ c, y c = 0) → (fun c => if p ∧ B.base.Inner c then x c else y c) = x := by
    intro x y p _ hp hx hy
    funext c
    by_cases hc : B.base.Inner c
    · simp [hp, hc]
    · simp [hc, hx c hc, hy]
  have lz : ∀ (s : St d R) (c : Cell d), ¬B.base.Inner c → lapIn B.base s c = 0 := by
    intro s c hc; simp [lapIn, hc]
  refine ⟨⟨?_, hi.bgOk.good.psi, hi.bgOk.good.psi_mid⟩, ⟨?_, hi.scOk.good.psi, hi.scOk.good.psi_mid⟩,
    hbg, hsc, ?_, ?_, ?_, ?_⟩
  · have := B.base.next_good h (f n) hi.bgOk.good
    rw [hbg]
    rw [hi.bg] at this
    simpa [Cfg.run] using this
  · rw [hsc]
    have := scNext_good h (fsc n) (B.base.run f 0 s n) hi.scOk.good
    rw [hi.sc] at this
    exact this
  · exact updRcd (x := m.bg.wfc) hi.rcd (by rw [← hi.bg]; rfl)
  · exact updRcd (x := m.sc.wfc) hi.rcdsc (by rw [← hi.sc]; rfl)
  · refine updStore hr (F := fun j => lapIn B.base (B.base.run f 0 s j)) hi.w ?_ _ ?_
    · intro hon
      simp only [Bool.and_eq_true, beq_iff_eq] at hon
      simp only [er, hout]
      have h0 : ∀ c, m.w (n / B.base.ratio) c = 0 := by
        intro c
        rw [hi.w, if_neg]
        rintro ⟨-, h2⟩
        rw [Nat.div_mul_cancel (Nat.dvd_of_mod_eq_zero hon.2)] at h2
        omega
      rw [nw _ _ _ ?_ (lz _) h0, hi.bg]
      cases gv <;> cases gs <;> simp_all
    · cases gv <;> cases gs <;> simp [er]
  · refine updStore hr (F := fun j => lapIn B.base (scRun B f fsc s l j)) hi.wsc ?_ _ ?_
    · intro hon
      simp only [Bool.and_eq_true, beq_iff_eq] at hon
      simp only [er, hout]
      have h0 : ∀ c, m.wsc (n / B.base.ratio) c = 0 := by
        intro c
        rw [hi.wsc, if_neg]
        rintro ⟨-, h2⟩
        rw [Nat.div_mul_cancel (Nat.dvd_of_mod_eq_zero hon.2)] at h2
        omega
      rw [nw _ _ _ ?_ (lz _) h0, hi.sc]
      simp [hon.1, hon.2]
    · simp [er]

omit [Field R] in
theorem FMem.swap_swap (m : FMem d nr nq R) : m.swap.swap = m := rfl

/-- What a forward callback sees at step `i`. -/
def fEventAt (B : BCfg d ns nr nq R) (f fsc : ℕ → Fin ns → R) (s l : St d R) (i : ℕ) : FEvent d R :=
  let x := B.base.run f 0 s (i * B.base.ratio)
  let y := scRun B f fsc s l (i * B.base.ratio)
  ⟨i, ⟨x.u, x.p, x.psi, x.zeta⟩, ⟨y.u, y.p, y.psi, y.zeta⟩⟩

/-- The result of the Born forward driver in terms of the recursions. -/
theorem forward_eq (h : B.base.WF) (gv gs : Bool) (cb : Option ℕ) (nt : ℕ) (f fsc : ℕ → Fin ns → R)
    (w wsc : Init d R) (hr : 0 < B.base.ratio)
    (hcf : 0 < nt → 0 < cb.getD (nt / B.base.ratio)) :
    B.forward gv gs cb nt f fsc w wsc = .ok
      (let T := nt / B.base.ratio * B.base.ratio
       let s := B.base.start w
       let l := B.base.start wsc
       { out := B.base.outOf (B.base.run f 0 s T)
         outsc := B.base.outOf (scRun B f fsc s l T)
         rcd := fun t => if t < T then sample B.base.rcv (B.base.run f 0 s t).u else fun _ => 0
         rcdsc := fun t => if t < T then sample B.rcvsc (scRun B f fsc s l t).u else fun _ => 0
         w := fun j => if (gv || gs) = true ∧ j < nt / B.base.ratio then
           lapIn B.base (B.base.run f 0 s (j * B.base.ratio)) else fun _ => 0
         wsc := fun j => if gv = true ∧ j < nt / B.base.ratio then
           lapIn B.base (scRun B f fsc s l (j * B.base.ratio)) else fun _ => 0
         events := match cb with
           | none => []
           | some cf => (List.range ((nt / B.base.ratio + cf - 1) / cf)).map
               fun i => fEventAt B f fsc s l (i * cf) }) := by
  have hlt : ∀ j, j * B.base.ratio < nt / B.base.ratio * B.base.ratio ↔ j < nt / B.base.ratio :=
    fun j => Nat.mul_lt_mul_right hr
  have inv : ∀ n, FInv B gv gs f fsc (B.base.start w) (B.base.start wsc) n
      (Driver.runF FMem.swap (fStep B.base.fwdArgs B.scatter B.rcvsc gv gs f fsc)
        (B.fInit w wsc) n) :=
    Driver.runF_inv ⟨B.base.initBufs_ok w, B.base.initBufs_ok wsc, rfl, rfl, fun _ => by simp [BCfg.fInit],
      fun _ => by simp [BCfg.fInit], fun _ => by simp [BCfg.fInit], fun _ => by simp [BCfg.fInit]⟩
      fun n m hm => hm.step h hr
  have ev : ∀ i, fView i (Driver.runF FMem.swap (fStep B.base.fwdArgs B.scatter B.rcvsc gv gs f fsc)
        (B.fInit w wsc) (i * B.base.ratio)) =
      fEventAt B f fsc (B.base.start w) (B.base.start wsc) i := by
    intro i
    simp only [fEventAt, ← (inv (i * B.base.ratio)).bg, ← (inv (i * B.base.ratio)).sc]
    rfl
  have mk : ∀ (m : FMem d nr nq R) (n : ℕ), FInv B gv gs f fsc (B.base.start w) (B.base.start wsc) n m →
      unpadBufs B.base m.bg = B.base.outOf (B.base.run f 0 (B.base.start w) n) ∧
      unpadBufs B.base m.sc = B.base.outOf (scRun B f fsc (B.base.start w) (B.base.start wsc) n) := by
    intro m n hm
    rw [← hm.bg, ← hm.sc]
    exact ⟨rfl, rfl⟩
  unfold BCfg.forward
  rw [if_neg hr.ne']
  by_cases hnt : 0 < nt
  · have hc := hcf hnt
    simp only [hnt, true_and, hc.ne', if_false, if_true]
    rw [Driver.driveF_eq FMem.swap_swap _ _ hc]
    have i1 := inv (nt / B.base.ratio * B.base.ratio)
    congr 1
    congr 1
    · exact (mk _ _ i1).1
    · exact (mk _ _ i1).2
    · funext t; exact i1.rcd t
    · funext t; exact i1.rcdsc t
    · funext j; rw [i1.w j]; simp only [hlt]
    · funext j; rw [i1.wsc j]; simp only [hlt]
    · cases cb with
      | none => simp
      | some cf => simp [ev]
  · have h0 : nt = 0 := by omega
    subst h0
    simp only [lt_irrefl, false_and, if_false, Nat.zero_div, Nat.zero_mul, Nat.not_lt_zero,
      and_false]
    congr 1
    congr 1
    cases cb with
    | none => simp
    | some cf =>
        have : (0 + cf - 1) / cf = 0 := by
          rcases Nat.eq_zero_or_pos cf with h | h
          · subst h; simp
          · exact Nat.div_eq_of_lt (by omega)
        simp only [Option.isSome_some, if_true]
        rw [this]; rfl

end Dw.Born
