import Mathlib.Data.Rat.Lemmas
import Mathlib.Tactic.NormNum
import Mathlib.Tactic.FinCases
import Verif.Scalar.Ref

/-!
# A concrete configuration used to show that hypotheses can be met

Two dimensions, accuracy 2, padded shape 12 x 13, PML widths 1 and 2, non-zero profiles in the PML,
variable velocity, one source used and one ignored, one receiver, step ratio 2.
-/

namespace Dw.Scalar

/-- Whether `x` is between the PMLs of `exCfg`. -/
def exMid (x : ℤ) (n : ℤ) : Bool := 2 ≤ x && x < n - 3

def exN : Fin 2 → ℤ := ![12, 13]

/-- The example configuration over any field. -/
def exCfgOf (R : Type*) [Field R] : Cfg 2 2 1 R where
  acc := .a2
  n := exN
  w0 := fun _ => 1
  w1 := fun _ => 2
  dx := fun k => if k = 0 then 1 else 2
  dt := 1 / 10
  a := fun k x => if exMid x (exN k) then 0 else 1 / 2
  b := fun k x => if exMid x (exN k) then 0 else -1 / 3
  db := fun k x => if exMid (x - 1) (exN k) && exMid (x + 1) (exN k) then 0 else 1 / 7
  v := fun c => 3 + (c 0 : R) / 10
  src := fun i => if i = 0 then some ![4, 5] else none
  rcv := fun _ => some ![4, 7]
  ratio := 2

theorem exCfgOf_wf (R : Type*) [Field R] : (exCfgOf R).WF := by
  have hmid : ∀ (k : Fin 2) (x : ℤ), (exCfgOf R).Mid k x → exMid x (exN k) = true := by
    intro k x h
    simp only [Cfg.Mid, exCfgOf, Acc.pad] at h
    simp only [exMid, Bool.and_eq_true, decide_eq_true_eq]
    omega
  refine ⟨fun _ => by simp [exCfgOf], fun _ => by simp [exCfgOf], fun k => ?_, fun k x h => ?_,
    fun k x h => ?_, fun k x h h' => ?_, fun i c h => ?_, fun i c h => ?_⟩
  · fin_cases k <;> simp [exCfgOf, Acc.pad, exN]
  · simp [exCfgOf, hmid k x h]
  · simp [exCfgOf, hmid k x h]
  · have h1 := hmid k _ h
    have h2 := hmid k _ h'
    have e1 : x - ((exCfgOf R).acc.pad : ℤ) = x - 1 := rfl
    have e2 : x + ((exCfgOf R).acc.pad : ℤ) = x + 1 := rfl
    rw [e1] at h1
    rw [e2] at h2
    simp [exCfgOf, h1, h2]
  · have : i = 0 ∧ c = ![4, 5] := by
      simp only [exCfgOf] at h
      split_ifs at h with hi
      exact ⟨hi, by simpa using h.symm⟩
    obtain ⟨-, rfl⟩ := this
    intro k
    fin_cases k <;> simp [exCfgOf, Acc.pad, exN]
  · have : c = ![4, 7] := by simpa [exCfgOf] using h.symm
    subst this
    intro k
    fin_cases k <;> simp [exCfgOf, Acc.pad, exN]

abbrev exCfg : Cfg 2 2 1 ℚ := exCfgOf ℚ
theorem exCfg_wf : exCfg.WF := exCfgOf_wf ℚ

/-- A non-zero initial state. -/
def exInit (R : Type*) [Field R] : Init 2 R where
  wfc := some fun c => (c 0 : R) + 1
  wfp := none
  psi := fun _ => some fun _ => 1
  zeta := fun _ => some fun c => (c 1 : R)

/-- A non-zero source wavelet. -/
def exAmp (R : Type*) [Field R] : ℕ → Fin 2 → R := fun t i => (t : R) + 1 + (i : ℕ)

end Dw.Scalar
