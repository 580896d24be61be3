import Verif.Born.Forward
import Verif.Scalar.Mirror

/-!
# Mirrored problems for the Born propagator
-/

namespace Dw.Born

open Dw.Scalar

variable {d ns nr nq : ℕ} {R : Type*} [Field R]

/-- The mirrored problem. -/
def BCfg.mirror (B : BCfg d ns nr nq R) (e : Fin d → Bool) : BCfg d ns nr nq R where
  base := B.base.mirror e
  scatter := fun c => B.scatter (B.base.fl e c)
  rcvsc := fun i => (B.rcvsc i).map (B.base.fl e)

variable {B : BCfg d ns nr nq R} {e : Fin d → Bool}

theorem snap_mirror {C : Cfg d ns nr R} (s : St d R) (c : Cell d) :
    (C.mirror e).snap (C.flipSt e s) c = C.snap s (C.fl e c) := by
  have hi : (C.mirror e).Inner c ↔ C.Inner (C.fl e c) := (inner_fl (C := C) c).symm
  unfold Cfg.snap
  simp only [hi, lap_mirror]
  rfl

theorem lapIn_mirror {C : Cfg d ns nr R} (s : St d R) (c : Cell d) :
    lapIn (C.mirror e) (C.flipSt e s) c = lapIn C s (C.fl e c) := by
  have hi : (C.mirror e).Inner c ↔ C.Inner (C.fl e c) := (inner_fl (C := C) c).symm
  unfold lapIn
  simp only [hi, lap_mirror]

theorem scRun_mirror {f f' fsc fsc' : ℕ → Fin ns → R}
    (hf : ∀ t i, B.base.src i ≠ none → f' t i = f t i)
    (hs : ∀ t i, B.base.src i ≠ none → fsc' t i = fsc t i) (s l : St d R) (n : ℕ) :
    scRun (B.mirror e) f' fsc' (B.base.flipSt e s) (B.base.flipSt e l) n =
      B.base.flipSt e (scRun B f fsc s l n) := by
  induction n with
  | zero => rfl
  | succ n ih =>
      have h1 := run_mirror (e := e) hf 0 s n
      unfold scRun
      rw [ih]
      change scNext (B.mirror e) _ ((B.base.mirror e).run f' 0 (B.base.flipSt e s) n) _ = _
      rw [h1]
      have hr := refStep_mirror (C := B.base) (e := e) (scRun B f fsc s l n)
      unfold scNext Cfg.tNext
      change ({ (B.base.mirror e).refStep _ with u := _ } : St d R) = _
      rw [hr]
      ext1
      · funext c
        have h2 := inject_mirror' (flipAt_flipAt e fun k => B.base.n k - 1) (hs n) c
        have h3 := snap_mirror (C := B.base) (e := e) (B.base.run f 0 s n) c
        have h4 : ((B.base.mirror e).refStep (B.base.flipSt e (scRun B f fsc s l n))).u c =
            (B.base.refStep (scRun B f fsc s l n)).u (B.base.fl e c) := by rw [hr]; rfl
        change ((B.base.mirror e).refStep (B.base.flipSt e (scRun B f fsc s l n))).u c +
          B.scatter _ * (B.base.mirror e).snap _ c + _ = _
        rw [h3, h4]
        exact congrArg _ h2
      all_goals rfl

end Dw.Born
