import Verif.Props.Pml
import Verif.Props.Acoustic
import Verif.Props.Elastic

/-!
# PML profiles on the staggered grid

`acoustic` and `elastic` pad with `accuracy // 2` cells before and `accuracy // 2 - 1` after the PML
(`acoustic.py` 443, `elastic.py` 826).
-/

namespace Dw.Setup

variable {d np mp : ℕ} {nv mv : Fin d → ℕ}

/-- Coordinates of points between the PMLs, at integer (`h = 0`) and half positions (`h = 1/2`). -/
theorem not_inPml (A : PmlArgs d) (k : Fin d) (x : ℤ) {h : ℝ} (h0 : 0 ≤ h) {e : ℤ} (he : h ≤ e)
    (hl : A.pad0 + A.w0 k ≤ x) (hu : x + e < A.n k - A.pad1 - A.w1 k) : ¬A.InPml k (h + x) := by
  have h1 : ((A.pad0 + A.w0 k : ℤ) : ℝ) ≤ x := by exact_mod_cast hl
  have h2 : ((x + e : ℤ) : ℝ) ≤ ((A.n k - A.pad1 - A.w1 k - 1 : ℤ) : ℝ) := by
    exact_mod_cast Int.le_sub_one_of_lt hu
  push_cast at h1 h2
  rintro (⟨-, h3⟩ | ⟨-, h3⟩)
  · unfold PmlArgs.first at h3
    linarith
  · unfold PmlArgs.last at h3
    linarith

theorem profile_zero (A : PmlArgs d) (hA : A.Valid) (hf : 0 < A.freq) (start : ℝ) (k : Fin d) (x : ℤ)
    {a b : ℝ} (ha : a = (A.ab start k x).1) (hb : some b = (A.ab start k x).2)
    (hx : ¬A.InPml k (start + x)) : a = 0 ∧ b = 0 := by
  obtain ⟨β, e, g⟩ := C21_profiles A hA hf start k x
  rw [e] at hb
  rw [ha, Option.some.inj hb]
  exact ⟨g.zero_a.2 hx, g.zero_b.2 hx⟩

/-- **C21** The profiles given to the acoustic propagator vanish between the PMLs, as `Cfg.WF` requires;
without PML they vanish everywhere. -/
theorem C21_acoustic_profiles (C : Acoustic.Cfg d np mp nv mv ℝ) (A : PmlArgs d) (hA : A.Valid)
    (hf : 0 < A.freq) (hp0 : A.pad0 = C.acc.pad) (hp1 : A.pad1 = C.acc.pad - 1)
    (hw0 : C.w0 = A.w0) (hw1 : C.w1 = A.w1) (hn : C.n = A.n)
    (ha : ∀ k i, C.a k i = (A.ab 0 k i).1) (hb : ∀ k i, some (C.b k i) = (A.ab 0 k i).2)
    (hah : ∀ k i, C.ah k i = (A.ab (1 / 2) k i).1) (hbh : ∀ k i, some (C.bh k i) = (A.ab (1 / 2) k i).2) :
    (∀ k x, C.Mid k x → C.a k x = 0 ∧ C.b k x = 0) ∧
    (∀ k x, C.MidH k x → C.ah k x = 0 ∧ C.bh k x = 0) ∧
    ((∀ k, A.w0 k = 0 ∧ A.w1 k = 0) →
      ∀ k x, C.a k x = 0 ∧ C.b k x = 0 ∧ C.ah k x = 0 ∧ C.bh k x = 0) := by
  have no : (∀ k, A.w0 k = 0 ∧ A.w1 k = 0) → ∀ k x, ¬A.InPml k x := by
    rintro hz k x (⟨h1, -⟩ | ⟨h1, -⟩)
    · have := (hz k).1; omega
    · have := (hz k).2; omega
  refine ⟨fun k x hx => ?_, fun k x hx => ?_, fun hz k x => ?_⟩
  · refine profile_zero A hA hf 0 k x (ha k x) (hb k x) (not_inPml A k x le_rfl (e := 0) (by simp) ?_ ?_)
    all_goals
      unfold Acoustic.Cfg.Mid at hx
      rw [hn, hw0, hw1] at hx
      omega
  · refine profile_zero A hA hf (1 / 2) k x (hah k x) (hbh k x)
      (not_inPml A k x (by norm_num) (e := 1) (by norm_num) ?_ ?_)
    all_goals
      unfold Acoustic.Cfg.MidH at hx
      rw [hn, hw0, hw1] at hx
      omega
  · obtain ⟨h1, h2⟩ := profile_zero A hA hf 0 k x (ha k x) (hb k x) (no hz k _)
    obtain ⟨h3, h4⟩ := profile_zero A hA hf (1 / 2) k x (hah k x) (hbh k x) (no hz k _)
    exact ⟨h1, h2, h3, h4⟩

/-- **C21** The same for the elastic propagator. -/
theorem C21_elastic_profiles (C : Elastic.Cfg d np mp nv mv ℝ) (A : PmlArgs d) (hA : A.Valid)
    (hf : 0 < A.freq) (hp0 : A.pad0 = C.acc.pad) (hp1 : A.pad1 = C.acc.pad - 1)
    (hw0 : C.w0 = A.w0) (hw1 : C.w1 = A.w1) (hn : C.n = A.n)
    (ha : ∀ k i, C.a k i = (A.ab 0 k i).1) (hb : ∀ k i, some (C.b k i) = (A.ab 0 k i).2)
    (hah : ∀ k i, C.ah k i = (A.ab (1 / 2) k i).1) (hbh : ∀ k i, some (C.bh k i) = (A.ab (1 / 2) k i).2) :
    (∀ h k x, C.MidAt h k x → C.pa h k x = 0 ∧ C.pb h k x = 0) ∧
    ((∀ k, A.w0 k = 0 ∧ A.w1 k = 0) →
      ∀ k x, C.a k x = 0 ∧ C.b k x = 0 ∧ C.ah k x = 0 ∧ C.bh k x = 0) := by
  have no : (∀ k, A.w0 k = 0 ∧ A.w1 k = 0) → ∀ k x, ¬A.InPml k x := by
    rintro hz k x (⟨h1, -⟩ | ⟨h1, -⟩)
    · have := (hz k).1; omega
    · have := (hz k).2; omega
  refine ⟨fun h k x hx => ?_, fun hz k x => ?_⟩
  · unfold Elastic.Cfg.MidAt at hx
    rw [hn, hw0, hw1] at hx
    cases h with
    | false =>
        refine profile_zero A hA hf 0 k x (ha k x) (hb k x)
          (not_inPml A k x le_rfl (e := 0) (by simp) (by omega) ?_)
        simp at hx
        omega
    | true =>
        refine profile_zero A hA hf (1 / 2) k x (hah k x) (hbh k x)
          (not_inPml A k x (by norm_num) (e := 1) (by norm_num) (by omega) ?_)
        simp at hx
        omega
  · obtain ⟨h1, h2⟩ := profile_zero A hA hf 0 k x (ha k x) (hb k x) (no hz k _)
    obtain ⟨h3, h4⟩ := profile_zero A hA hf (1 / 2) k x (hah k x) (hbh k x) (no hz k _)
    exact ⟨h1, h2, h3, h4⟩

/-- A 2D staggered example: padded shape 15 x 17, PML widths 3 and 4, accuracy 4. -/
noncomputable def exPmlS : PmlArgs 2 :=
  ⟨.a4, 2, 1, fun _ => 3, fun _ => 4, 1 / 1000, fun _ => 5, 1500, 25, ![15, 17]⟩

/-- Half point 4½ is in the PML, 5½ to 8½ are not, and 9½ + ½ = 10 is the first one in the PML on the other
side (the last integer point outside it is 9). -/
example : exPmlS.InPml 0 (1 / 2 + (4 : ℤ)) ∧ ¬exPmlS.InPml 0 (1 / 2 + (5 : ℤ)) ∧
    ¬exPmlS.InPml 0 (1 / 2 + (8 : ℤ)) ∧ exPmlS.InPml 0 (1 / 2 + (9 : ℤ)) ∧
    ¬exPmlS.InPml 0 (0 + (9 : ℤ)) := by
  simp only [PmlArgs.InPml, PmlArgs.first, PmlArgs.last, exPmlS]
  norm_num

end Dw.Setup
