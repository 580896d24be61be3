import Verif.Spec.Born
import Verif.Spec.Elastic

/-!
# Solutions that start from zero, delayed
-/

namespace Dw.Spec

/-- A sequence `m` steps later, after zeros. -/
def delay {α : Type*} [Zero α] (m : ℕ) (f : ℕ → α) : ℕ → α := fun t => if t < m then 0 else f (t - m)

theorem delay_add {α : Type*} [Zero α] (m : ℕ) (f : ℕ → α) (t : ℕ) : delay m f (t + m) = f t := by
  unfold delay
  rw [if_neg (by omega), Nat.add_sub_cancel]

theorem delay_lt {α : Type*} [Zero α] {m : ℕ} (f : ℕ → α) {t : ℕ} (h : t < m) : delay m f t = 0 := if_pos h

theorem delay_le {α : Type*} [Zero α] {m : ℕ} {f : ℕ → α} (h0 : f 0 = 0) {t : ℕ} (h : t ≤ m) : delay m f t = 0 := by
  rcases Nat.lt_or_eq_of_le h with h | rfl
  · exact delay_lt f h
  · have := delay_add t f 0
    rw [Nat.zero_add] at this
    rw [this, h0]

theorem delay_prop {α : Type*} [Zero α] {p : α → Prop} (m : ℕ) {f : ℕ → α} (h0 : p 0) (h : ∀ t, p (f t)) (t : ℕ) :
    p (delay m f t) := by
  unfold delay
  split_ifs
  · exact h0
  · exact h _

variable {d : ℕ} {G : Grid d}

theorem Grid.D1_zero (k : Fin d) (c : Cell d) : G.D1 k 0 c = 0 := by simp [Grid.D1, central1]
theorem Grid.D2_zero (k : Fin d) (c : Cell d) : G.D2 k 0 c = 0 := by simp [Grid.D2, central2]

theorem Grid.flux_zero (k : Fin d) (c : Cell d) : G.flux k 0 0 c = 0 := by
  unfold Grid.flux
  rw [G.D2_zero, G.D1_zero]
  have : (fun c : Cell d => G.a k (c k) * (0 : Fld d ℝ) c) = 0 := by
    funext c
    simp
  rw [this, G.D1_zero]
  simp

theorem Grid.lap_zero (c : Cell d) : G.lap 0 0 0 c = 0 := by
  unfold Grid.lap
  simp [G.flux_zero]

theorem Grid.Wave.delay {vel : Fld d ℝ} {q : ℕ → Fld d ℝ} {u : ℕ → Fld d ℝ} {psi zeta : ℕ → Fin d → Fld d ℝ}
    (h : G.Wave vel q u psi zeta) (h0 : u 0 = 0 ∧ u 1 = 0 ∧ psi 0 = 0 ∧ zeta 0 = 0) (m : ℕ) :
    G.Wave vel (Spec.delay m q) (Spec.delay m u) (Spec.delay m psi) (Spec.delay m zeta) := by
  obtain ⟨z0, z1, zp, zz⟩ := h0
  have hu : ∀ t < m + 2, Spec.delay m u t = 0 := by
    intro t ht
    rcases (by omega : t ≤ m ∨ t = 1 + m) with h | rfl
    · exact delay_le z0 h
    · rw [delay_add, z1]
  refine ⟨fun t c hc => ?_, fun t c hc => ?_, fun t k c hc => ?_, fun t k c hc => ?_⟩
  · refine ⟨delay_prop (p := fun x : Fld d ℝ => x c = 0) m rfl (fun t => (h.outside t c hc).1) t, fun k => ⟨?_, ?_⟩⟩
    · exact delay_prop (p := fun x : Fin d → Fld d ℝ => x k c = 0) m rfl (fun t => ((h.outside t c hc).2 k).1) t
    · exact delay_prop (p := fun x : Fin d → Fld d ℝ => x k c = 0) m rfl (fun t => ((h.outside t c hc).2 k).2) t
  · rcases Nat.lt_or_ge t m with ht | ht
    · rw [hu _ (by omega), hu _ (by omega), hu _ (by omega), delay_lt q ht, delay_lt psi ht, delay_lt zeta ht, G.lap_zero]
      simp
    · obtain ⟨t, rfl⟩ := Nat.exists_eq_add_of_le' ht
      rw [show t + m + 2 = (t + 2) + m by omega, show t + m + 1 = (t + 1) + m by omega]
      simp only [delay_add]
      exact h.wave t c hc
  · rcases Nat.lt_or_ge t m with ht | ht
    · rw [hu _ (by omega), delay_le zp (by omega), delay_lt psi ht, G.D1_zero]
      simp
    · obtain ⟨t, rfl⟩ := Nat.exists_eq_add_of_le' ht
      rw [show t + m + 1 = (t + 1) + m by omega]
      simp only [delay_add]
      exact h.psi_next t k c hc
  · rcases Nat.lt_or_ge t m with ht | ht
    · rw [hu _ (by omega), delay_le zz (by omega), delay_lt zeta ht, delay_lt psi ht]
      simp [G.flux_zero]
    · obtain ⟨t, rfl⟩ := Nat.exists_eq_add_of_le' ht
      rw [show t + m + 1 = (t + 1) + m by omega]
      simp only [delay_add]
      exact h.zeta_next t k c hc

theorem Grid.Scattered.delay {vel scat : Fld d ℝ} {q : ℕ → Fld d ℝ} {u : ℕ → Fld d ℝ} {psi zeta : ℕ → Fin d → Fld d ℝ}
    {w : ℕ → Fld d ℝ} {ps ze : ℕ → Fin d → Fld d ℝ} (h : G.Scattered vel scat q u psi zeta w ps ze)
    (hb : u 0 = 0 ∧ u 1 = 0 ∧ psi 0 = 0 ∧ zeta 0 = 0) (h0 : w 0 = 0 ∧ w 1 = 0 ∧ ps 0 = 0 ∧ ze 0 = 0) (m : ℕ) :
    G.Scattered vel scat (Spec.delay m q) (Spec.delay m u) (Spec.delay m psi) (Spec.delay m zeta) (Spec.delay m w)
      (Spec.delay m ps) (Spec.delay m ze) := by
  obtain ⟨z0, z1, zp, zz⟩ := h0
  have key : ∀ {x : ℕ → Fld d ℝ}, x 0 = 0 → x 1 = 0 → ∀ t < m + 2, Spec.delay m x t = 0 := by
    intro x x0 x1 t ht
    rcases (by omega : t ≤ m ∨ t = 1 + m) with h | rfl
    · exact delay_le x0 h
    · rw [delay_add, x1]
  have hu := key z0 z1
  refine ⟨fun t c hc => ?_, fun t c hc => ?_, fun t k c hc => ?_, fun t k c hc => ?_⟩
  · refine ⟨delay_prop (p := fun x : Fld d ℝ => x c = 0) m rfl (fun t => (h.outside t c hc).1) t, fun k => ⟨?_, ?_⟩⟩
    · exact delay_prop (p := fun x : Fin d → Fld d ℝ => x k c = 0) m rfl (fun t => ((h.outside t c hc).2 k).1) t
    · exact delay_prop (p := fun x : Fin d → Fld d ℝ => x k c = 0) m rfl (fun t => ((h.outside t c hc).2 k).2) t
  · rcases Nat.lt_or_ge t m with ht | ht
    · rw [hu _ (by omega), hu _ (by omega), hu _ (by omega), key hb.1 hb.2.1 _ (by omega), delay_lt q ht, delay_lt psi ht,
        delay_lt zeta ht, delay_lt ps ht, delay_lt ze ht, G.lap_zero]
      simp
    · obtain ⟨t, rfl⟩ := Nat.exists_eq_add_of_le' ht
      rw [show t + m + 2 = (t + 2) + m by omega, show t + m + 1 = (t + 1) + m by omega]
      simp only [delay_add]
      exact h.wave t c hc
  · rcases Nat.lt_or_ge t m with ht | ht
    · rw [hu _ (by omega), delay_le zp (by omega), delay_lt ps ht, G.D1_zero]
      simp
    · obtain ⟨t, rfl⟩ := Nat.exists_eq_add_of_le' ht
      rw [show t + m + 1 = (t + 1) + m by omega]
      simp only [delay_add]
      exact h.psi_next t k c hc
  · rcases Nat.lt_or_ge t m with ht | ht
    · rw [hu _ (by omega), delay_le zz (by omega), delay_lt ze ht, delay_lt ps ht]
      simp [G.flux_zero]
    · obtain ⟨t, rfl⟩ := Nat.exists_eq_add_of_le' ht
      rw [show t + m + 1 = (t + 1) + m by omega]
      simp only [delay_add]
      exact h.zeta_next t k c hc

theorem Grid.DH_zero (k : Fin d) (c : Cell d) : G.DH k 0 c = 0 := by simp [Grid.DH, half1]
theorem Grid.DI_zero (k : Fin d) (c : Cell d) : G.DI k 0 c = 0 := by simp [Grid.DI, whole1]
theorem Grid.D_zero (h : Bool) (k : Fin d) (c : Cell d) : G.D h k 0 c = 0 := by
  unfold Grid.D
  split_ifs
  · exact G.DH_zero k c
  · exact G.DI_zero k c

theorem Grid.Acoustic.delay {K : Fld d ℝ} {B : Fin d → Fld d ℝ} {qp : ℕ → Fld d ℝ} {qv : ℕ → Fin d → Fld d ℝ}
    {p : ℕ → Fld d ℝ} {v phi psi : ℕ → Fin d → Fld d ℝ} (h : G.Acoustic K B qp qv p v phi psi)
    (h0 : p 0 = 0 ∧ v 0 = 0 ∧ phi 0 = 0 ∧ psi 0 = 0) (m : ℕ) :
    G.Acoustic K B (Spec.delay m qp) (Spec.delay m qv) (Spec.delay m p) (Spec.delay m v) (Spec.delay m phi)
      (Spec.delay m psi) := by
  obtain ⟨z1, z2, z3, z4⟩ := h0
  refine ⟨fun t c => ⟨fun hc => ⟨?_, fun k => ?_⟩, fun k hc => ⟨?_, ?_⟩⟩, fun t k c hc => ?_, fun t k c hc => ?_,
    fun t k c hc => ?_, fun t c hc => ?_⟩
  · exact delay_prop (p := fun x : Fld d ℝ => x c = 0) m rfl (fun t => ((h.outside t c).1 hc).1) t
  · exact delay_prop (p := fun x : Fin d → Fld d ℝ => x k c = 0) m rfl (fun t => ((h.outside t c).1 hc).2 k) t
  · exact delay_prop (p := fun x : Fin d → Fld d ℝ => x k c = 0) m rfl (fun t => ((h.outside t c).2 k hc).1) t
  · exact delay_prop (p := fun x : Fin d → Fld d ℝ => x k c = 0) m rfl (fun t => ((h.outside t c).2 k hc).2) t
  all_goals
    rcases Nat.lt_or_ge t m with ht | ht
    · simp only [delay_le z1 (show t + 1 ≤ m by omega), delay_le z2 (show t + 1 ≤ m by omega),
        delay_le z3 (show t + 1 ≤ m by omega), delay_le z4 (show t + 1 ≤ m by omega), delay_lt _ ht]
      simp [G.DH_zero, G.DI_zero]
    · obtain ⟨t, rfl⟩ := Nat.exists_eq_add_of_le' ht
      rw [show t + m + 1 = (t + 1) + m by omega]
      simp only [delay_add]
      first
        | exact h.psi_next t k c hc
        | exact h.velocity t k c hc
        | exact h.phi_next t k c hc
        | exact h.pressure t c hc

theorem Grid.Elastic.delay {lam mu : Fld d ℝ} {muS : Fin d → Fin d → Fld d ℝ} {B : Fin d → Fld d ℝ} {qp : ℕ → Fld d ℝ}
    {qv v : ℕ → Fin d → Fld d ℝ} {sig mv ms : ℕ → Fin d → Fin d → Fld d ℝ}
    (h : G.Elastic lam mu muS B qp qv v sig mv ms) (h0 : v 0 = 0 ∧ sig 0 = 0 ∧ mv 0 = 0 ∧ ms 0 = 0) (m : ℕ) :
    G.Elastic lam mu muS B (Spec.delay m qp) (Spec.delay m qv) (Spec.delay m v) (Spec.delay m sig) (Spec.delay m mv)
      (Spec.delay m ms) := by
  obtain ⟨z1, z2, z3, z4⟩ := h0
  refine ⟨fun t i j => ?_, fun t i c => ⟨fun hc => ⟨?_, fun j => ?_⟩, fun j hc => ⟨?_, ?_⟩⟩, fun t i j c hc => ?_,
    fun t i c hc => ?_, fun t i j c hc => ?_, fun t i c hc => ?_, fun t i j c hij hc => ?_⟩
  · exact delay_prop (p := fun x : Fin d → Fin d → Fld d ℝ => x i j = x j i) m rfl (fun t => h.symm t i j) t
  · exact delay_prop (p := fun x : Fin d → Fld d ℝ => x i c = 0) m rfl (fun t => ((h.outside t i c).1 hc).1) t
  · exact delay_prop (p := fun x : Fin d → Fin d → Fld d ℝ => x i j c = 0) m rfl (fun t => ((h.outside t i c).1 hc).2 j) t
  · exact delay_prop (p := fun x : Fin d → Fin d → Fld d ℝ => x i j c = 0) m rfl (fun t => ((h.outside t i c).2 j hc).1) t
  · exact delay_prop (p := fun x : Fin d → Fin d → Fld d ℝ => x i j c = 0) m rfl (fun t => ((h.outside t i c).2 j hc).2) t
  all_goals
    rcases Nat.lt_or_ge t m with ht | ht
    · simp only [delay_le z1 (show t + 1 ≤ m by omega), delay_le z2 (show t + 1 ≤ m by omega),
        delay_le z3 (show t + 1 ≤ m by omega), delay_le z4 (show t + 1 ≤ m by omega), delay_lt _ ht]
      simp [G.D_zero]
    · obtain ⟨t, rfl⟩ := Nat.exists_eq_add_of_le' ht
      rw [show t + m + 1 = (t + 1) + m by omega]
      simp only [delay_add]
      first
        | exact h.ms_next t i j c hc
        | exact h.velocity t i c hc
        | exact h.mv_next t i j c hc
        | exact h.normal t i c hc
        | exact h.shear t i j c hij hc

end Dw.Spec
