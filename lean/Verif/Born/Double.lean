import Verif.Born.Backward

/-!
# Model of double backpropagation through the scalar propagator

Models `ScalarBackwardFunc.backward` (`src/deepwave/scalar.py` 1344-1877) for one shot and one
thread: the derivative of the backward pass, computed by one call of `forward` and one call of
`backward` of the Born propagator.
-/

namespace Dw.Born

open Dw.Scalar

variable {d ns nr : ℕ} {R : Type*} [Field R]

/-- The propagation used by double backpropagation (`scalar.py` 1446-1458, 1624-1626): scattering
potential `ggv`, no background receivers, the receivers record the scattered field.  An empty `ggv`
is replaced by zeros (1432-1433). -/
def dbCfg (C : Cfg d ns nr R) (ggv : Option (Fld d R)) : BCfg d ns 0 nr R :=
  ⟨{ C with rcv := Fin.elim0 }, ggv.getD fun _ => 0, C.rcv⟩

/-- What `ScalarBackwardFunc.backward` returns: the gradients with respect to `grad_r`, `v`,
`source_amplitudes`, the gradients of the final wavefields and the initial wavefields (`none`: an
empty tensor). -/
structure DbResult (d ns nr : ℕ) (R : Type*) where
  gr : ℕ → Fin nr → R
  v : Option (Fld d R)
  f : Option (ℕ → Fin ns → R)
  g : Wavefields d R
  w : Wavefields d R

/-- The gradients of the final wavefields as returned (`scalar.py` 1826-1829, 1852-1855). -/
def dbG (C : Cfg d ns nr R) (nt : ℕ) (b : FwdBufs d R) : Wavefields d R :=
  if nt % 2 == 0 then
    ⟨C.unpad b.wfc, C.unpad b.wfp, fun k => C.unpad (b.psi k), fun k => C.unpad (b.zeta k)⟩
  else ⟨C.unpad b.wfp, C.unpad b.wfc, fun k => C.unpad (b.psin k), fun k => C.unpad (b.zeta k)⟩

/-- The gradients of the initial wavefields as returned (`scalar.py` 1830-1833, 1856-1859). -/
def dbW (C : Cfg d ns nr R) (nt : ℕ) (b : BwdBufs d R) : Wavefields d R :=
  if nt % 2 == 0 then
    ⟨C.unpad b.wfc, C.unpad fun c => -b.wfp c, fun k => C.unpad (b.psi k), fun k => C.unpad (b.zeta k)⟩
  else
    ⟨C.unpad b.wfp, C.unpad fun c => -b.wfc c, fun k => C.unpad (b.psin k),
      fun k => C.unpad (b.zetan k)⟩

/-- `ScalarBackwardFunc.backward` (`scalar.py` 1344-1877).  `vg`, `fg` are `v.requires_grad`,
`source_amplitudes_requires_grad`; `f`, `w` are the source amplitudes and initial wavefields of the
forward pass, `gr`, `g` the arguments of the backward pass, `ggv`, `ggf`, `ggw` the gradients with
respect to its results.  Snapshots are stored in memory or on disk without compression. -/
def doubleBackward (C : Cfg d ns nr R) (vg fg : Bool) (nt : ℕ) (f : ℕ → Fin ns → R) (w : Init d R)
    (gr : ℕ → Fin nr → R) (g : Init d R) (ggv : Option (Fld d R)) (ggf : Option (ℕ → Fin ns → R))
    (ggw : Init d R) : Except PyErr (DbResult d ns nr R) :=
  -- StorageManager divides by the step ratio (1532-1545)
  if C.ratio = 0 then .error .zeroDivision else
  let B := dbCfg C ggv
  -- 1572-1620
  let m₀ := B.fInit w ggw
  let m := if 0 < nt then
      Driver.callF FMem.swap (fStep B.base.fwdArgs B.scatter B.rcvsc vg false f
        (ggf.getD fun _ _ => 0)) 0 nt m₀
    else m₀
  -- 1633-1692, 1755
  let n₀ := B.bInit ⟨none, none, fun _ => none, fun _ => none⟩ g
  -- 1757-1814
  let n := if 0 < nt ∧ vg then
      Driver.callB BMem.swap (bStepC B.bwdArgs B.scatter B.rcvsc vg false m.w m.wsc
        (fun _ => Fin.elim0) gr) nt nt n₀
    else n₀
  .ok { gr := m.rcdsc
        v := if vg then some n.gv else none
        f := if fg then some n.gf else none
        g := dbG C nt m.sc
        w := dbW C nt n.bg }

variable {C : Cfg d ns nr R}

theorem dbW_zero (nt : ℕ) (ggv : Option (Fld d R)) (g : Init d R) :
    dbW C nt ((dbCfg C ggv).bInit ⟨none, none, fun _ => none, fun _ => none⟩ g).bg =
      (⟨fun _ => 0, fun _ => 0, fun _ _ => 0, fun _ _ => 0⟩ : Wavefields d R) := by
  have hz : ∀ k, (dbCfg C ggv).base.zeroInterior k (fun _ => 0) = fun _ => 0 := by
    intro k; funext c; simp [Cfg.zeroInterior]
  have hu : C.unpad (fun _ => (0 : R)) = fun _ => 0 := rfl
  unfold dbW
  split_ifs <;> simp only [BCfg.bInit, Cfg.initBwdBufs, Cfg.createOrPad, hz, hu, neg_zero]

/-- The whole computation in terms of the drivers of the Born propagator. -/
theorem doubleBackward_eq (vg fg : Bool) (nt : ℕ) (f : ℕ → Fin ns → R) (w : Init d R)
    (gr : ℕ → Fin nr → R) (g : Init d R) (ggv : Option (Fld d R)) (ggf : Option (ℕ → Fin ns → R))
    (ggw : Init d R) (hr : 0 < C.ratio) (hd : C.ratio ∣ nt) :
    ∃ r b, (dbCfg C ggv).forward vg false none nt f (ggf.getD fun _ _ => 0) w ggw = .ok r ∧
      (dbCfg C ggv).backward vg false none nt r.w r.wsc (fun _ => Fin.elim0) gr
        ⟨none, none, fun _ => none, fun _ => none⟩ g = .ok b ∧
      doubleBackward C vg fg nt f w gr g ggv ggf ggw = .ok
        { gr := r.rcdsc
          v := if vg then some b.gv else none
          f := if fg then some (if vg then b.gf else fun _ _ => 0) else none
          g := r.outsc
          w := if vg then b.out else ⟨fun _ => 0, fun _ => 0, fun _ _ => 0, fun _ _ => 0⟩ } := by
  obtain ⟨N, rfl⟩ := hd
  have hr' : (dbCfg C ggv).base.ratio = C.ratio := rfl
  have hN : C.ratio * N / C.ratio = N := Nat.mul_div_cancel_left _ hr
  simp only [BCfg.forward, BCfg.backward, doubleBackward, hr', hr.ne', if_false, hN, Option.getD_none]
  rcases Nat.eq_zero_or_pos N with rfl | hp
  · simp only [Nat.mul_zero, lt_irrefl, false_and, if_false]
    refine ⟨_, _, rfl, rfl, ?_⟩
    have hz := dbW_zero (C := C) 0 ggv g
    have hz' : unpadBwd (dbCfg C ggv).base
        ((dbCfg C ggv).bInit ⟨none, none, fun _ => none, fun _ => none⟩ g).bg = _ := hz
    cases vg <;> cases fg <;> simp only [hz, hz', if_true, if_false, Bool.false_eq_true] <;> rfl
  · have hpos : 0 < C.ratio * N := Nat.mul_pos hr hp
    simp only [hpos, hp.ne', and_false, if_false, if_true, true_and]
    refine ⟨_, _, rfl, rfl, ?_⟩
    rw [Driver.driveF_eq FMem.swap_swap N N hp, Driver.driveB_eq BMem.swap_swap N N hp]
    have hF := Driver.callF_eq FMem.swap_swap (step := fStep (dbCfg C ggv).base.fwdArgs
      (dbCfg C ggv).scatter (dbCfg C ggv).rcvsc vg false f (ggf.getD fun _ _ => 0))
      ((dbCfg C ggv).fInit w ggw) 0 (C.ratio * N)
    simp only [Driver.runF, Nat.zero_add] at hF
    rw [hF, Nat.mul_comm N C.ratio]
    generalize Driver.runF FMem.swap _ _ (C.ratio * N) = x
    have hsel : ∀ y : FMem d 0 nr R, (if (C.ratio * N % 2 == 1) = true then y.swap else y).w = y.w ∧
        (if (C.ratio * N % 2 == 1) = true then y.swap else y).wsc = y.wsc ∧
        (if (C.ratio * N % 2 == 1) = true then y.swap else y).rcdsc = y.rcdsc := by
      intro y; split_ifs <;> exact ⟨rfl, rfl, rfl⟩
    obtain ⟨e1, e2, e3⟩ := hsel x
    rw [e1, e2, e3]
    have hB := Driver.callB_eq BMem.swap_swap (step := bStepC (dbCfg C ggv).bwdArgs
      (dbCfg C ggv).scatter (dbCfg C ggv).rcvsc vg false x.w x.wsc (fun _ => Fin.elim0) gr)
      ((dbCfg C ggv).bInit ⟨none, none, fun _ => none, fun _ => none⟩ g) (C.ratio * N) 0 (C.ratio * N)
    simp only [Driver.runB, Nat.zero_add, Nat.sub_zero] at hB
    rw [hB]
    generalize hy : Driver.runB BMem.swap _ _ _ (C.ratio * N) = y
    have hg : dbG C (C.ratio * N) (if (C.ratio * N % 2 == 1) = true then x.swap else x).sc =
        unpadBufs C x.sc := by
      rcases Nat.mod_two_eq_zero_or_one (C.ratio * N) with h | h <;> simp only [dbG, h, unpadBufs] <;> rfl
    have hw : dbW C (C.ratio * N) (if (C.ratio * N % 2 == 1) = true then y.swap else y).bg =
        unpadBwd C y.bg := by
      rcases Nat.mod_two_eq_zero_or_one (C.ratio * N) with h | h <;> simp only [dbW, h, unpadBwd] <;> rfl
    have hgv : (if (C.ratio * N % 2 == 1) = true then y.swap else y).gv = y.gv := by
      split_ifs <;> rfl
    have hgf : (if (C.ratio * N % 2 == 1) = true then y.swap else y).gf = y.gf := by
      split_ifs <;> rfl
    have hz := dbW_zero (C := C) (C.ratio * N) ggv g
    cases vg <;> simp only [if_true, if_false, Bool.false_eq_true, hg, hw, hgv, hgf, hz] <;> rfl

end Dw.Born
