import Verif.Born.Forward
import Verif.Core.PyLoop

/-!
# Model of the pure Python Born propagator

Models `_forward_step` (`scalar_born.py` 1425-1502) and `scalar_born_python` (`scalar_born.py`
1510-1739), for one shot, with the conventions of `Verif/Scalar/Python.lean`.
-/

namespace Dw.Born

open Dw.Scalar

variable {d ns nr nq : ℕ} {R : Type*} [Field R]

/-- `tmp` and `tmpsc` (`scalar_born.py` 1455-1478). -/
def BCfg.pyTmp (B : BCfg d ns nr nq R) (s : St d R) (k : Fin d) : Fld d R := fun c =>
  (1 + B.base.b k (c k)) * B.base.pyD2 k s.u c + B.base.db k (c k) * B.base.pyD1 k s.u c
    + B.base.pyD1 k (fun c => B.base.a k (c k) * s.psi k c) c

/-- `w_sum` and `wsc_sum` (`scalar_born.py` 1480-1484). -/
def BCfg.pySum (B : BCfg d ns nr nq R) (s : St d R) : Fld d R := fun c =>
  (List.finRange d).foldl (fun w k =>
    w + (1 + B.base.b k (c k)) * B.pyTmp s k c + B.base.a k (c k) * s.zeta k c) 0

/-- `_forward_step` (`scalar_born.py` 1425-1502) from the background `s` and the scattered field `l`. -/
def BCfg.pyStep (B : BCfg d ns nr nq R) (s l : St d R) : St d R × St d R :=
  let C := B.base
  let arr := fun (x : Fld d R) c => if C.InArr c then x c else 0
  (⟨arr fun c => C.v c ^ 2 * C.dt * C.dt * B.pySum s c + 2 * s.u c - s.p c, s.u,
      fun k => arr fun c => C.b k (c k) * C.pyD1 k s.u c + C.a k (c k) * s.psi k c,
      fun k => arr fun c => C.b k (c k) * B.pyTmp s k c + C.a k (c k) * s.zeta k c⟩,
    ⟨arr fun c => C.v c ^ 2 * C.dt * C.dt * B.pySum l c + 2 * l.u c - l.p c
        + 2 * C.v c * B.scatter c * C.dt * C.dt * B.pySum s c, l.u,
      fun k => arr fun c => C.b k (c k) * C.pyD1 k l.u c + C.a k (c k) * l.psi k c,
      fun k => arr fun c => C.b k (c k) * B.pyTmp l k c + C.a k (c k) * l.zeta k c⟩)

structure PyMem (d nr nq : ℕ) (R : Type*) where
  bg : St d R
  sc : St d R
  rcd : ℕ → Fin nr → R
  rcdsc : ℕ → Fin nq → R

/-- Body of the inner loop (`scalar_born.py` 1679-1712). -/
def BCfg.pyInner (B : BCfg d ns nr nq R) (f fsc : ℕ → Fin ns → R) (t : ℕ) (m : PyMem d nr nq R) :
    PyMem d nr nq R :=
  let s := B.pyStep m.bg m.sc
  { bg := { s.1 with u := pyScatter s.1.u B.base.src (f t) }
    sc := { s.2 with u := pyScatter s.2.u B.base.src (fsc t) }
    rcd := Function.update m.rcd t (pyGather m.bg.u B.base.rcv)
    rcdsc := Function.update m.rcdsc t (pyGather m.sc.u B.rcvsc) }

structure PyResult (d nr nq : ℕ) (R : Type*) where
  out : Wavefields d R
  outsc : Wavefields d R
  rcd : ℕ → Fin nr → R
  rcdsc : ℕ → Fin nq → R
  events : List (FEvent d R)

/-- What the callback is given (`scalar_born.py` 1647-1678). -/
def pyView (step : ℕ) (m : PyMem d nr nq R) : FEvent d R :=
  ⟨step, ⟨m.bg.u, m.bg.p, m.bg.psi, m.bg.zeta⟩, ⟨m.sc.u, m.sc.p, m.sc.psi, m.sc.zeta⟩⟩

/-- The state in which the propagation starts (`scalar_born.py` 1586-1598): memory variables keep
their interior values. -/
def BCfg.pyStart (B : BCfg d ns nr nq R) (w : Init d R) : St d R :=
  ⟨B.base.createOrPad w.wfc, B.base.createOrPad w.wfp, fun k => B.base.createOrPad (w.psi k),
    fun k => B.base.createOrPad (w.zeta k)⟩

/-- `scalar_born_python` (`scalar_born.py` 1510-1739). -/
def BCfg.pyForward (B : BCfg d ns nr nq R) (cb : Option ℕ) (nt : ℕ) (f fsc : ℕ → Fin ns → R)
    (w wsc : Init d R) : Except PyErr (PyResult d nr nq R) :=
  if B.base.ratio = 0 then .error .zeroDivision else
  let m := Driver.pyDrive (B.pyInner f fsc) B.base.ratio pyView cb (nt / B.base.ratio)
    ⟨B.pyStart w, B.pyStart wsc, fun _ _ => 0, fun _ _ => 0⟩
  .ok { out := B.base.outOf m.1.bg
        outsc := B.base.outOf m.1.sc
        rcd := fun t i => if (B.base.rcv i).isSome then m.1.rcd t i else 0
        rcdsc := fun t i => if (B.rcvsc i).isSome then m.1.rcdsc t i else 0
        events := m.2 }

/-! ### Relation to the recursion -/

variable {B : BCfg d ns nr nq R}

theorem pySum_eq {s' s : St d R} (h : B.base.PyRel s' s) (hs : B.base.Good s) :
    B.pySum s' = lapIn B.base s := by
  have hap : ∀ k, ∀ c, ¬B.base.Inner c → B.base.a k (c k) * s.psi k c = 0 := fun k c hc => by
    rw [hs.psi k c hc, mul_zero]
  have hsum : ∀ x : Fin d → R, ((List.finRange d).map x).sum = ∑ k, x k := fun x => by
    rw [← List.ofFn_eq_map, List.sum_ofFn]
  funext c
  simp only [BCfg.pySum, BCfg.pyTmp, h.u, h.psi, h.zeta, foldl_add_two, hsum, lapIn]
  by_cases hc : B.base.Inner c
  · rw [if_pos hc, zero_add]
    have hin1 : ∀ k u, B.base.pyD1 k u c = B.base.D1 k u c := fun k u => by
      rw [Cfg.pyD1_eq, if_pos (hc k)]
    have hin2 : ∀ k u, B.base.pyD2 k u c = B.base.D2 k u c := fun k u => by
      rw [Cfg.pyD2_eq, if_pos (hc k)]
    simp only [hin1, hin2, Cfg.lap, Cfg.tmp]
  · rw [if_neg hc]
    simp [(Cfg.pyD_outside _ hs.u c hc).1, (Cfg.pyD_outside _ hs.u c hc).2,
      (Cfg.pyD_outside _ (hap _) c hc).1, hs.zeta _ c hc]

theorem pyStep_eq {s' s l' l : St d R} (h : B.base.PyRel s' s) (hs : B.base.Good s)
    (hl' : B.base.PyRel l' l) (hl : B.base.Good l) :
    B.pyStep s' l' = (B.base.refStep s, B.base.tNext B.scatter s l) := by
  have e1 : (B.pyStep s' l').1 = B.base.pyStep s' := rfl
  have e2 : B.pyStep s' l' = ((B.pyStep s' l').1, { B.base.pyStep l' with
      u := fun c => if B.base.InArr c then (B.base.pyStep l').u c
        + 2 * B.base.v c * B.scatter c * B.base.dt * B.base.dt * B.pySum s' c else 0 }) := by
    refine Prod.ext rfl ?_
    ext1
    · funext c
      by_cases hc : B.base.InArr c
      · simp only [BCfg.pyStep, Cfg.pyStep, hc, if_true]
        rfl
      · simp only [BCfg.pyStep, hc, if_false]
    all_goals rfl
  rw [e2, e1, Cfg.pyStep_eq h hs, Cfg.pyStep_eq hl' hl, pySum_eq h hs]
  refine Prod.ext rfl ?_
  ext1
  · funext c
    simp only [Cfg.tNext, Cfg.snap, lapIn]
    by_cases hc : B.base.Inner c
    · rw [if_pos (Cfg.inner_inArr hc), if_pos hc]
      simp only [hc, if_true]
      ring
    · have hz : (B.base.refStep l).u c = 0 := by simp [Cfg.refStep, hc]
      simp [hc, hz]
  all_goals rfl

/-- Memory after `n` inner steps, started from `s'`, `l'`. -/
structure PyInv (B : BCfg d ns nr nq R) (f fsc : ℕ → Fin ns → R) (s' s l' l : St d R) (n : ℕ)
    (m : PyMem d nr nq R) : Prop where
  bg : m.bg = if n = 0 then s' else B.base.run f 0 s n
  sc : m.sc = if n = 0 then l' else scRun B f fsc s l n
  rcd : ∀ t i, (B.base.rcv i).isSome →
    m.rcd t i = if t < n then sample B.base.rcv (B.base.run f 0 s t).u i else 0
  rcdsc : ∀ t i, (B.rcvsc i).isSome →
    m.rcdsc t i = if t < n then sample B.rcvsc (scRun B f fsc s l t).u i else 0

theorem gather_step {m n : ℕ} {loc : Fin m → Option (Cell d)} {u : ℕ → Fld d R}
    {rcd : ℕ → Fin m → R} {x : Fld d R} (hx : x = u n)
    (h : ∀ t i, (loc i).isSome → rcd t i = if t < n then sample loc (u t) i else 0) (t : ℕ) (i : Fin m)
    (hi : (loc i).isSome) : Function.update rcd n (pyGather x loc) t i =
      if t < n + 1 then sample loc (u t) i else 0 := by
  subst hx
  by_cases ht : t = n
  · subst ht
    obtain ⟨c, hc⟩ := Option.isSome_iff_exists.1 hi
    simp [pyGather, sample, hc]
  · rw [Function.update_of_ne ht, h t i hi]
    have : t < n + 1 ↔ t < n := by omega
    simp only [this]

theorem PyInv.step {f fsc : ℕ → Fin ns → R} {s' s l' l : St d R} {n : ℕ} {m : PyMem d nr nq R}
    (h : B.base.WF) (hs' : B.base.PyRel s' s) (hs : B.base.Good s) (hl' : B.base.PyRel l' l)
    (hl : B.base.Good l) (hi : PyInv B f fsc s' s l' l n m) :
    PyInv B f fsc s' s l' l (n + 1) (B.pyInner f fsc n m) := by
  have rel : ∀ {x y z : St d R}, B.base.PyRel x y → (n = 0 → z = y) →
      B.base.PyRel (if n = 0 then x else z) z := by
    intro x y z hx hz
    split_ifs with hn
    · exact hz hn ▸ hx
    · exact ⟨rfl, rfl, fun _ _ => rfl, fun _ _ => rfl⟩
  have r1 : B.base.PyRel m.bg (B.base.run f 0 s n) :=
    hi.bg ▸ rel hs' fun hn => by subst hn; rfl
  have r2 : B.base.PyRel m.sc (scRun B f fsc s l n) :=
    hi.sc ▸ rel hl' fun hn => by subst hn; rfl
  have e := pyStep_eq r1 (B.base.run_good h f 0 hs n) r2 (scRun_good h f fsc s hl n)
  refine ⟨?_, ?_, gather_step r1.u hi.rcd, gather_step r2.u hi.rcdsc⟩
  · rw [if_neg (by omega)]
    simp only [BCfg.pyInner, e, pyScatter_eq, Cfg.run, Nat.zero_add]
    rfl
  · rw [if_neg (by omega)]
    simp only [BCfg.pyInner, e, pyScatter_eq, scRun]
    rfl

theorem pyStart_rel (h : B.base.WF) (w : Init d R) :
    B.base.PyRel (B.pyStart w) (B.base.start w) := by
  have key : ∀ k (x : Fld d R) c, B.base.a k (c k) * x c =
      B.base.a k (c k) * B.base.zeroInterior k x c := by
    intro k x c
    by_cases hm : B.base.Mid k (c k)
    · rw [h.a_mid k _ hm]; simp
    · have : B.base.zeroInterior k x c = x c := if_neg hm
      rw [this]
  exact ⟨rfl, rfl, fun k c => key k _ c, fun k c => key k _ c⟩

/-- What a Python callback sees at outer step `i`. -/
def BCfg.pyEventAt (B : BCfg d ns nr nq R) (f fsc : ℕ → Fin ns → R) (w wsc : Init d R) (i : ℕ) :
    FEvent d R :=
  let s := if i * B.base.ratio = 0 then B.pyStart w
    else B.base.run f 0 (B.base.start w) (i * B.base.ratio)
  let l := if i * B.base.ratio = 0 then B.pyStart wsc
    else scRun B f fsc (B.base.start w) (B.base.start wsc) (i * B.base.ratio)
  ⟨i, ⟨s.u, s.p, s.psi, s.zeta⟩, ⟨l.u, l.p, l.psi, l.zeta⟩⟩

/-- The result of the Python driver in terms of the recursions. -/
theorem pyForward_eq (h : B.base.WF) (cb : Option ℕ) (hcb : ∀ cf, cb = some cf → 0 < cf) (nt : ℕ)
    (f fsc : ℕ → Fin ns → R) (w wsc : Init d R) (hr : 0 < B.base.ratio) (hnt : B.base.ratio ≤ nt) :
    B.pyForward cb nt f fsc w wsc = .ok
      (let T := nt / B.base.ratio * B.base.ratio
       let s := B.base.start w
       let l := B.base.start wsc
       { out := B.base.outOf (B.base.run f 0 s T)
         outsc := B.base.outOf (scRun B f fsc s l T)
         rcd := fun t => if t < T then sample B.base.rcv (B.base.run f 0 s t).u else fun _ => 0
         rcdsc := fun t => if t < T then sample B.rcvsc (scRun B f fsc s l t).u else fun _ => 0
         events := match cb with
           | none => []
           | some cf => (List.range ((nt / B.base.ratio + cf - 1) / cf)).map
               fun i => B.pyEventAt f fsc w wsc (i * cf) }) := by
  have inv : ∀ n, PyInv B f fsc (B.pyStart w) (B.base.start w) (B.pyStart wsc) (B.base.start wsc) n
      (Driver.runF id (B.pyInner f fsc)
        (⟨B.pyStart w, B.pyStart wsc, fun _ _ => 0, fun _ _ => 0⟩ : PyMem d nr nq R) n) :=
    Driver.runF_inv ⟨by simp, by simp, fun _ _ _ => by simp, fun _ _ _ => by simp⟩
      fun n m hm => hm.step h (pyStart_rel h w) (B.base.start_good w) (pyStart_rel h wsc)
        (B.base.start_good wsc)
  have hmask : ∀ {m : ℕ} (loc : Fin m → Option (Cell d)) (T t : ℕ) (u : ℕ → Fld d R)
      (rcd : ℕ → Fin m → R),
      (∀ t i, (loc i).isSome → rcd t i = if t < T then sample loc (u t) i else 0) →
      (fun i => if (loc i).isSome then rcd t i else 0) =
        if t < T then sample loc (u t) else fun _ => 0 := by
    intro m loc T t u rcd hh
    funext i
    by_cases hi : (loc i).isSome
    · rw [if_pos hi, hh t i hi]
      split_ifs <;> rfl
    · have hn : loc i = none := by simpa using hi
      rw [if_neg hi]
      split_ifs <;> simp [sample, hn]
  have hT : nt / B.base.ratio * B.base.ratio ≠ 0 := (Nat.mul_pos (Nat.div_pos hnt hr) hr).ne'
  unfold BCfg.pyForward
  rw [if_neg hr.ne', Driver.pyDrive_eq cb hcb]
  have i1 := inv (nt / B.base.ratio * B.base.ratio)
  have hb := i1.bg
  have hs := i1.sc
  rw [if_neg hT] at hb hs
  simp only [hb, hs]
  congr 2
  · funext t
    exact hmask B.base.rcv _ t (fun t => (B.base.run f 0 (B.base.start w) t).u) _ i1.rcd
  · funext t
    exact hmask B.rcvsc _ t (fun t => (scRun B f fsc (B.base.start w) (B.base.start wsc) t).u) _ i1.rcdsc
  · cases cb with
    | none => rfl
    | some cf =>
        simp only
        refine List.map_congr_left fun i _ => ?_
        rw [pyView, (inv (i * cf * B.base.ratio)).bg, (inv (i * cf * B.base.ratio)).sc]
        rfl

end Dw.Born
