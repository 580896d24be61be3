import Verif.Setup.Linear
import Verif.Setup.Resume

/-!
# A call in two parts

What the restart of `scalar_born`, `acoustic` and `elastic` shares: the amplitudes of a part of the time steps, and the
traces of two parts.
-/

namespace Dw.Setup

open Dw.Scalar (upS downS upAmps upS_one downS_one)
open Dw.Resample (Sig)

variable {d : ℕ} {A : SetupArgs d} {P : Plan d}

/-- The `n` samples of the amplitudes after the first `m`. -/
def AmpT.part (m n : ℕ) (a : AmpT) : AmpT := ⟨a.nb, a.n, n, fun s i t => a.val s i (m + t)⟩

/-- The argument `nt` for a part of `n` samples, if there is one. -/
def partNt (n : ℕ) (nt : Option PyNum) : Option PyNum := nt.map fun _ => .int n

/-- A signal of `n₁ + n₂` samples and its two parts. -/
structure Joined (n₁ n₂ : ℕ) (x x₁ x₂ : Sig ℝ) : Prop where
  len : x.len = n₁ + n₂
  len₁ : x₁.len = n₁
  len₂ : x₂.len = n₂
  val₁ : ∀ t < n₁, x.val t = x₁.val t
  val₂ : ∀ t < n₂, x.val (n₁ + t) = x₂.val t

theorem SetupArgs.Good.part (h : A.Good P) (m n : ℕ) :
    ({A with amps := A.amps.map (Option.map (AmpT.part m n)), nt := partNt n A.nt} : SetupArgs d).Good
      {P with nt := n * P.ratio} :=
  { h with
    nt := by
      have hr := Scalar.SetupGood.ratio_pos h
      have h0 := h.nt
      unfold setNt at h0 ⊢
      have hd : ∀ l : List (Option AmpT), (((l.map (Option.map (AmpT.part m n))).map (Option.map AmpT.nt)).filterMap id).head? =
          (((l.map (Option.map AmpT.nt)).filterMap id).head?).map fun _ => n := by
        intro l
        induction l with
        | nil => rfl
        | cons a l ih =>
            cases a with
            | none => simpa using ih
            | some a => rfl
      simp only [hd]
      cases hn : A.nt with
      | none =>
          rw [hn] at h0
          simp only [partNt, Option.map_none] at h0 ⊢
          rw [if_neg (by omega)] at h0 ⊢
          cases hh : ((A.amps.map (Option.map AmpT.nt)).filterMap id).head? with
          | none => rw [hh] at h0; cases h0
          | some a => rfl
      | some x =>
          rw [hn] at h0
          cases x with
          | float q => cases h0
          | other => cases h0
          | int z =>
              simp only [partNt, Option.map_some] at h0 ⊢
              rw [if_neg (by omega)] at h0 ⊢
              cases hh : ((A.amps.map (Option.map AmpT.nt)).filterMap id).head? with
              | none => simp
              | some a => simp
    ampsMatch := by
      have := h.ampsMatch
      rw [show (A.amps.map (Option.map (AmpT.part m n))).map (Option.map AmpT.n) = A.amps.map (Option.map AmpT.n) by
        simp only [List.map_map, Function.comp_def, Option.map_map]; rfl]
      exact this
    amps := by
      refine checkAmps_ok.2 fun b hb => ?_
      obtain ⟨o, ho, e⟩ := List.mem_map.1 hb
      cases o with
      | none => cases e
      | some a =>
          cases e
          have := checkAmps_ok.1 h.amps a ho
          exact ⟨this.1, rfl, this.2.2⟩ }

theorem upAmps_one (h : A.Good P) (h1 : P.ratio = 1) (tt : Bool) (a : Option AmpT) (s t i : ℕ) :
    upAmps P tt a s t i = (a.map fun a => a.val s i t).getD 0 := by
  cases a with
  | none => simp [upAmps]
  | some a =>
      show (upS P tt ⟨a.nt, a.val s i⟩).val t = a.val s i t
      rw [upS_one h h1]

/-- The amplitudes of a part. -/
theorem upAmps_part (h : A.Good P) (h1 : P.ratio = 1) (tt : Bool) (a : Option AmpT) (s t i m n : ℕ) :
    upAmps {P with nt := n * P.ratio} tt (a.map (AmpT.part m n)) s t i = upAmps P tt a s (m + t) i := by
  rw [upAmps_one (h.part m n) h1, upAmps_one h h1]
  cases a <;> rfl

theorem traces_one (h : A.Good P) (h1 : P.ratio = 1) (tt : Bool) (s : ℕ) {m : ℕ} (x : ℕ → Fin m → ℝ) {i : ℕ}
    (hi : i < m) : (shotIn A P tt s).traces x i = ⟨P.nt.toNat, fun t => x t ⟨i, hi⟩⟩ := by
  rw [traces_lt _ _ hi]
  exact downS_one h h1 tt _

/-- The traces of the two parts. -/
theorem traces_joined {A₁ A₂ : SetupArgs d} {P₁ P₂ : Plan d} (h : A.Good P) (h₁ : A₁.Good P₁) (h₂ : A₂.Good P₂)
    {n₁ n₂ T T₁ T₂ : ℕ} (hT : T = n₁ + n₂) (hT₁ : T₁ = n₁) (hT₂ : T₂ = n₂) (e : P.nt = (n₁ + n₂ : ℕ)) (e₁ : P₁.nt = n₁ * P₁.ratio) (e₂ : P₂.nt = n₂ * P₂.ratio)
    (r : P.ratio = 1) (r₁ : P₁.ratio = 1)
    (r₂ : P₂.ratio = 1) (tt : Bool) (s : ℕ) {m : ℕ} (x x₁ x₂ : ℕ → Fin m → ℝ)
    (v₁ : ∀ t < n₁, x t = x₁ t) (v₂ : ∀ t < n₂, x (n₁ + t) = x₂ t) {i : ℕ} (hi : i < m) :
    Joined n₁ n₂ ((shotIn A P tt s).traces (fun t => if t < T then x t else fun _ => 0) i)
      ((shotIn A₁ P₁ tt s).traces (fun t => if t < T₁ then x₁ t else fun _ => 0) i)
      ((shotIn A₂ P₂ tt s).traces (fun t => if t < T₂ then x₂ t else fun _ => 0) i) := by
  subst hT hT₁ hT₂
  rw [traces_one h r tt s _ hi, traces_one h₁ r₁ tt s _ hi, traces_one h₂ r₂ tt s _ hi]
  rw [r₁, mul_one] at e₁
  rw [r₂, mul_one] at e₂
  refine ⟨by rw [e]; rfl, by rw [e₁]; rfl, by rw [e₂]; rfl, fun t ht => ?_, fun t ht => ?_⟩
  · simp only
    rw [if_pos ht, if_pos (by omega), v₁ t ht]
  · simp only
    rw [if_pos ht, if_pos (by omega), v₂ t ht]

theorem choose_lt {α : Type*} [Nonempty α] {n : ℕ} {p : ℕ → α → Prop} (h : ∀ s < n, ∃ r, p s r) :
    ∃ r : ℕ → α, ∀ s < n, p s (r s) := by
  classical
  refine ⟨fun s => if hs : s < n then (h s hs).choose else Classical.arbitrary α, fun s hs => ?_⟩
  simp only [dif_pos hs]
  exact (h s hs).choose_spec

end Dw.Setup
