import Mathlib.Algebra.Module.LinearMap.End
import Mathlib.Algebra.Module.Pi
import Mathlib.Algebra.BigOperators.Module
import Verif.Scalar.Forward
import Verif.Scalar.Linear

/-!
# Impulse response of the scalar propagator without PML
-/

namespace Dw.Scalar

variable {d ns nr : ℕ} {R : Type*} [Field R]

/-- Scaling of the source amplitudes in `scalar` (`scalar.py` 507-532): by `-v² dt²` at the source
cell; ignored sources read the model at cell 0. -/
def Cfg.scaleSources (C : Cfg d ns nr R) (f : ℕ → Fin ns → R) : ℕ → Fin ns → R := fun t i =>
  -f t i * C.v ((C.src i).getD fun _ => 0) ^ 2 * C.dt ^ 2

variable (C : Cfg d ns nr R)

/-- Multiplication by `v² dt²` on the interior. -/
def Cfg.opV : Module.End R (Fld d R) where
  toFun u := fun c => if C.Inner c then C.v c ^ 2 * C.dt ^ 2 * u c else 0
  map_add' u w := by funext c; simp only [Pi.add_apply]; split_ifs <;> ring
  map_smul' a u := by
    funext c; simp only [Pi.smul_apply, smul_eq_mul, RingHom.id_apply]; split_ifs <;> ring

/-- The Laplacian. -/
def Cfg.opL : Module.End R (Fld d R) where
  toFun u := fun c => ∑ k, C.D2 k u c
  map_add' u w := by
    funext c
    simp only [Pi.add_apply, ← Finset.sum_add_distrib]
    refine Finset.sum_congr rfl fun k _ => ?_
    have := C.D2_comb k 1 1 u w c
    simp only [one_mul] at this
    exact this
  map_smul' a u := by
    funext c
    simp only [Pi.smul_apply, smul_eq_mul, RingHom.id_apply, Finset.mul_sum]
    refine Finset.sum_congr rfl fun k _ => ?_
    have := C.D2_comb k a 0 u u c
    simp only [zero_mul, add_zero] at this
    exact this

/-- The homogeneous step `u ↦ v² dt² L u + 2 u`. -/
def Cfg.opA : Module.End R (Fld d R) := C.opV * C.opL + 2

/-- Impulse response after `n` steps. -/
def Cfg.opP : ℕ → Module.End R (Fld d R)
  | 0 => 0
  | 1 => 1
  | n + 2 => C.opA * Cfg.opP (n + 1) - Cfg.opP n

variable {C}

theorem Cfg.opP_commute (n : ℕ) : Commute C.opA (C.opP n) ∧ Commute C.opA (C.opP (n + 1)) := by
  induction n with
  | zero => exact ⟨Commute.zero_right _, Commute.one_right _⟩
  | succ n ih =>
      refine ⟨ih.2, ?_⟩
      have : C.opP (n + 2) = C.opA * C.opP (n + 1) - C.opP n := rfl
      rw [this]
      exact ((Commute.refl _).mul_right ih.2).sub_right ih.1

theorem Cfg.opV_supp (u : Fld d R) : SuppIn C.S (C.opV u) := fun c hc => by
  have : ¬C.Inner c := fun h => hc (Cfg.mem_S.2 h)
  change (if C.Inner c then _ else _) = _
  rw [if_neg this]

theorem Cfg.opA_apply (u : Fld d R) : C.opA u = C.opV (C.opL u) + (2 : R) • u := by
  have : ((2 : Module.End R (Fld d R)) : Module.End R (Fld d R)) u = (2 : R) • u := by
    rw [show (2 : Module.End R (Fld d R)) = 1 + 1 by norm_num, LinearMap.add_apply, Module.End.one_apply,
      two_smul]
  rw [Cfg.opA, LinearMap.add_apply, this]
  rfl

theorem Cfg.opA_supp {u : Fld d R} (h : SuppIn C.S u) : SuppIn C.S (C.opA u) := by
  rw [Cfg.opA_apply]
  intro c hc
  simp [C.opV_supp _ c hc, h c hc]

theorem Cfg.opP_supp {u : Fld d R} (h : SuppIn C.S u) (n : ℕ) :
    SuppIn C.S (C.opP n u) ∧ SuppIn C.S (C.opP (n + 1) u) := by
  induction n with
  | zero => exact ⟨fun _ _ => rfl, h⟩
  | succ n ih =>
      refine ⟨ih.2, fun c hc => ?_⟩
      have : C.opP (n + 2) u = C.opA (C.opP (n + 1) u) - C.opP n u := rfl
      rw [this, Pi.sub_apply, C.opA_supp ih.2 c hc, ih.1 c hc, sub_zero]

theorem Cfg.dot_opV (x y : Fld d R) : dot C.S x (C.opV y) = dot C.S (C.opV x) y := by
  refine Finset.sum_congr rfl fun c _ => ?_
  change x c * (if C.Inner c then _ else _) = (if C.Inner c then _ else _) * y c
  split_ifs <;> ring

theorem Cfg.dot_opL {x y : Fld d R} (hx : SuppIn C.S x) (hy : SuppIn C.S y) :
    dot C.S x (C.opL y) = dot C.S (C.opL x) y := by
  have e : ∀ x y : Fld d R, dot C.S x (C.opL y) = ∑ k, dot C.S x (C.D2 k y) := by
    intro x y
    change ∑ c ∈ C.S, x c * ∑ k, C.D2 k y c = ∑ k, ∑ c ∈ C.S, _
    simp only [Finset.mul_sum]
    exact Finset.sum_comm
  rw [dot_comm C.S (C.opL x), e, e]
  refine Finset.sum_congr rfl fun k _ => ?_
  have := dot_D2 hx hy C.acc (1 / C.dx k ^ 2) k
  rw [dot_comm C.S y]
  exact this.symm

/-- The impulse response to a source scaled by `v² dt²` is a symmetric matrix. -/
theorem Cfg.dot_opP (n : ℕ) : ∀ x y : Fld d R,
    dot C.S x (C.opP n (C.opV y)) = dot C.S (C.opP n (C.opV x)) y ∧
    dot C.S x (C.opP (n + 1) (C.opV y)) = dot C.S (C.opP (n + 1) (C.opV x)) y := by
  induction n with
  | zero =>
      intro x y
      exact ⟨by simp [Cfg.opP, dot], C.dot_opV x y⟩
  | succ n ih =>
      intro x y
      refine ⟨(ih x y).2, ?_⟩
      have e : ∀ z, C.opP (n + 2) z = C.opA (C.opP (n + 1) z) - C.opP n z := fun _ => rfl
      have hc : ∀ z, C.opP (n + 1) (C.opA z) = C.opA (C.opP (n + 1) z) := fun z =>
        (LinearMap.congr_fun (C.opP_commute n).2.eq z).symm
      have hsub : ∀ x y z : Fld d R, dot C.S x (y - z) = dot C.S x y - dot C.S x z := fun x y z =>
        dot_sub_right _ _ _ _
      have hsub' : ∀ x y z : Fld d R, dot C.S (y - z) x = dot C.S y x - dot C.S z x := fun x y z =>
        dot_sub_left _ _ _ _
      have hadd : ∀ x y z : Fld d R, dot C.S x (y + z) = dot C.S x y + dot C.S x z := fun x y z =>
        dot_add_right _ _ _ _
      have hadd' : ∀ x y z : Fld d R, dot C.S (y + z) x = dot C.S y x + dot C.S z x := fun x y z =>
        dot_add_left _ _ _ _
      have hsm : ∀ x y : Fld d R, dot C.S x ((2 : R) • y) = 2 * dot C.S x y := fun x y =>
        dot_smul_right _ _ _ _
      have hsm' : ∀ x y : Fld d R, dot C.S ((2 : R) • x) y = 2 * dot C.S x y := fun x y =>
        dot_smul_left _ _ _ _
      rw [e, e, hsub, hsub', (ih x y).1, C.opA_apply, hadd, hsm, C.dot_opV, (ih x y).2]
      have hs := (C.opP_supp (C.opV_supp y) n).2
      rw [C.dot_opL (C.opV_supp x) hs, (ih _ y).2]
      have h1 : C.opV (C.opL (C.opV x)) = C.opA (C.opV x) - (2 : R) • C.opV x := by
        rw [C.opA_apply]; simp
      rw [h1, map_sub, hc, map_smul, hsub', hsm']
      ring

/-- Without PML and with zero initial wavefields the wavefield is the sum of the responses to the
injected amplitudes. -/
theorem Cfg.run_response (h : C.WF) (hn : ∀ k x, C.a k x = 0 ∧ C.b k x = 0 ∧ C.db k x = 0)
    (f : ℕ → Fin ns → R) {s : St d R} (hg : C.Good s) (hu : s.u = 0) (hp : s.p = 0) (n : ℕ) :
    (C.run f 0 s n).u = ∑ j ∈ Finset.range n, C.opP (n - j) (inject C.src (f j)) ∧
    (C.run f 0 s n).p = ∑ j ∈ Finset.range n, C.opP (n - 1 - j) (inject C.src (f j)) := by
  induction n with
  | zero => exact ⟨by simpa [Cfg.run] using hu, by simpa [Cfg.run] using hp⟩
  | succ n ih =>
      have hlap : ∀ (s : St d R) c, C.lap s c = C.opL s.u c := by
        intro s c
        change _ = ∑ k, C.D2 k s.u c
        simp only [Cfg.lap, Cfg.tmp, (hn _ _).1, (hn _ _).2.1, (hn _ _).2.2]
        refine Finset.sum_congr rfl fun k _ => ?_
        simp only [zero_mul, Cfg.D1, Dw.D1, cDiff1_zero]
        ring
      have hgood := C.run_good h f 0 hg n
      have hstep : (C.run f 0 s (n + 1)).u =
          C.opA (C.run f 0 s n).u - (C.run f 0 s n).p + inject C.src (f n) := by
        funext c
        simp only [Cfg.run, Cfg.next, Cfg.refStep, Nat.zero_add, Pi.add_apply, Pi.sub_apply,
          C.opA_apply, Pi.smul_apply, smul_eq_mul]
        change (if C.Inner c then _ else _) + _ = (if C.Inner c then _ else _) + _ - _ + _
        by_cases hc : C.Inner c
        · simp only [hc, if_true, hlap]
        · simp [hc, hgood.u c hc, hgood.p c hc]
      constructor
      · rw [hstep, ih.1, ih.2, Finset.sum_range_succ, map_sum, ← Finset.sum_sub_distrib]
        congr 1
        · refine Finset.sum_congr rfl fun j hj => ?_
          have hj := Finset.mem_range.1 hj
          obtain ⟨m, hm⟩ : ∃ m, n - j = m + 1 := ⟨n - j - 1, by omega⟩
          rw [hm, show n - 1 - j = m by omega, show n + 1 - j = m + 2 by omega]
          rfl
        · rw [show n + 1 - n = 1 by omega]
          rfl
      · have e : (C.run f 0 s (n + 1)).p = (C.run f 0 s n).u := rfl
        rw [e, ih.1, Finset.sum_range_succ, show n + 1 - 1 - n = 0 by omega]
        simp [Cfg.opP]

end Dw.Scalar
