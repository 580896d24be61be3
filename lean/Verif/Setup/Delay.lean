import Verif.Setup.Reorder
import Verif.Spec.Delay

/-!
# Calls with other amplitudes, possibly of another length

For calls that need no internal time step (`step_ratio` 1).
-/

namespace Dw.Setup

open Scalar (upAmps upS downS upS_one downS_one)
open Resample (Sig)

variable {d : ℕ}

/-- Amplitudes for the same sources with `n` time samples. -/
def AmpT.Length (n : ℕ) (a a' : AmpT) : Prop := a'.nb = a.nb ∧ a'.n = a.n ∧ a'.nt = n

/-- `nt` for amplitudes with `n` time samples: it may be left out if there are amplitudes. -/
def NtFor (o : Option PyNum) (n : ℕ) (amps : List (Option AmpT)) : Prop :=
  o = some (.int n) ∨ o = none ∧ ∃ a, some a ∈ amps

theorem setNt_for {o : Option PyNum} {n : ℕ} {amps : List (Option AmpT)} (ho : NtFor o n amps)
    (hn : ∀ a, some a ∈ amps → a.nt = n) : setNt o (amps.map (Option.map AmpT.nt)) 1 = .ok n := by
  have hh : ((amps.map (Option.map AmpT.nt)).filterMap id).head? = none ∧ (∀ a, some a ∉ amps) ∨
      ((amps.map (Option.map AmpT.nt)).filterMap id).head? = some n := by
    induction amps with
    | nil => exact .inl ⟨rfl, by simp⟩
    | cons a l ih =>
        cases a with
        | none =>
            rcases ih (by rcases ho with h | ⟨h, a, ha⟩; · exact .inl h
                          · exact .inr ⟨h, a, by simpa using ha⟩) (fun a ha => hn a (List.mem_cons_of_mem _ ha)) with
              ⟨h1, h2⟩ | h
            · exact .inl ⟨by simpa using h1, by simpa using h2⟩
            · exact .inr (by simpa using h)
        | some a => exact .inr (by simp [hn a List.mem_cons_self])
  unfold setNt
  generalize ((amps.map (Option.map AmpT.nt)).filterMap id).head? = sa at hh
  rcases hh with ⟨rfl, h2⟩ | rfl
  · rcases ho with rfl | ⟨-, a, ha⟩
    · simp
    · exact absurd ha (h2 a)
  · rcases ho with rfl | ⟨rfl, -⟩ <;> simp

/-- The call with other amplitudes. -/
def SetupArgs.newAmps (A : SetupArgs d) (amps : List (Option AmpT)) (o : Option PyNum) : SetupArgs d :=
  { A with amps := amps, nt := o }

theorem good_newAmps {A : SetupArgs d} {P : Plan d} (h : A.Good P) (h1 : P.ratio = 1) {amps : List (Option AmpT)}
    {o : Option PyNum} {n : ℕ} (hl : List.Forall₂ (Option.Rel (AmpT.Length n)) A.amps amps) (ho : NtFor o n amps) :
    (A.newAmps amps o).Good { P with nt := n } := by
  have hback : ∀ {l l' : List (Option AmpT)}, List.Forall₂ (Option.Rel (AmpT.Length n)) l l' →
      ∀ a', some a' ∈ l' → ∃ a, some a ∈ l ∧ a.Length n a' := by
    intro l l' hl
    induction hl with
    | nil => intro a' h; cases h
    | @cons x y _ _ hxy _ ih =>
        intro a' ha'
        rcases List.mem_cons.1 ha' with rfl | ha'
        · cases hxy with
          | some hr => exact ⟨_, List.mem_cons_self, hr⟩
        · obtain ⟨a, ha, hr⟩ := ih a' ha'
          exact ⟨a, List.mem_cons_of_mem _ ha, hr⟩
  have hmap : ∀ {l l' : List (Option AmpT)}, List.Forall₂ (Option.Rel (AmpT.Length n)) l l' →
      l'.map (Option.map AmpT.n) = l.map (Option.map AmpT.n) := by
    intro l l' hl
    induction hl with
    | nil => rfl
    | @cons x y _ _ hxy _ ih =>
        rw [List.map_cons, List.map_cons, ih]
        cases hxy with
        | some hr => simp [hr.2.1]
        | none => rfl
  exact
  { h with
    nt := by
      show setNt o (amps.map _) P.ratio = .ok (n : ℤ)
      rw [h1]
      refine setNt_for ho fun a ha => ?_
      obtain ⟨_, -, hr⟩ := hback hl a ha
      exact hr.2.2
    ampsMatch := by
      show checkAmpsMatch (amps.map _) _ = _
      rw [hmap hl]
      exact h.ampsMatch
    amps := by
      show checkAmps amps P.nb n P.ratio P.ff P.tf = .ok ()
      refine checkAmps_ok.2 fun a ha => ?_
      obtain ⟨a0, h0, hr⟩ := hback hl a ha
      obtain ⟨e1, -, e3⟩ := checkAmps_ok.1 h.amps a0 h0
      exact ⟨hr.1.trans e1, by rw [hr.2.2, h1, mul_one], e3⟩ }

/-! ### Delay -/

/-- Amplitudes `m` samples later. -/
def AmpT.delay (m : ℕ) (a : AmpT) : AmpT := ⟨a.nb, a.n, a.nt + m, fun s i => Spec.delay m (a.val s i)⟩

/-- A trace `m` samples later. -/
def Delayed (m : ℕ) (x x' : Sig ℝ) : Prop := x'.len = x.len + m ∧ x'.val = Spec.delay m x.val

theorem upAmps_same {A : SetupArgs d} {P : Plan d} (h : A.Good P) (h1 : P.ratio = 1) (tt : Bool) (a : Option AmpT)
    (s t i : ℕ) : upAmps P tt a s t i = match a with
      | none => 0
      | some a => a.val s i t := by
  cases a with
  | none => rfl
  | some a =>
      show (upS P tt _).val t = _
      rw [upS_one h h1]

theorem locSum_delay {A A' : SetupArgs d} {P P' : Plan d} (h : A.Good P) (h' : A'.Good P') (h1 : P.ratio = 1)
    (h1' : P'.ratio = 1) (tt : Bool) (o : Option LocT) (a : Option AmpT) (s m : ℕ) :
    (fun t => locSum (d := d) o s fun i => upAmps P' tt (a.map (AmpT.delay m)) s t i) =
      Spec.delay m fun t => locSum o s fun i => upAmps P tt a s t i := by
  funext t
  have e : (fun i => upAmps P' tt (a.map (AmpT.delay m)) s t i) =
      fun i => if t < m then 0 else upAmps P tt a s (t - m) i := by
    funext i
    rw [upAmps_same h' h1', upAmps_same h h1]
    cases a with
    | none => simp
    | some a => rfl
  rw [e]
  unfold Spec.delay
  split_ifs
  · funext c
    simp [locSum]
  · rfl

theorem SetupArgs.Good.nt_nonneg {A : SetupArgs d} {P : Plan d} (h : A.Good P) : 0 ≤ P.nt := by
  have hn := h.nt
  unfold setNt at hn
  have key : ∀ {b : Prop} [Decidable b] {x : ℤ} {e : PyErr}, (if b then Except.error e else Except.ok x) = .ok P.nt →
      ¬b ∧ x = P.nt := by
    intro b _ x e h
    split_ifs at h with hb
    exact ⟨hb, Except.ok.inj h⟩
  generalize ((A.amps.map (Option.map AmpT.nt)).filterMap id).head? = sa at hn
  have hr : ¬P.ratio < 1 := by
    intro hr
    cases hA : A.nt with
    | none => simp [hA, hr] at hn
    | some x => cases x <;> simp [hA, hr] at hn
  cases hA : A.nt with
  | none =>
      cases sa with
      | none => simp [hA, hr] at hn
      | some a =>
          simp only [hA, if_neg hr, Except.ok.injEq] at hn
          rw [← hn]
          exact mul_nonneg (by positivity) (by omega)
  | some x =>
      cases x with
      | int z =>
          have hz : 0 ≤ z ∧ z * P.ratio = P.nt := by
            cases sa with
            | none =>
                simp only [hA, if_neg hr] at hn
                obtain ⟨a, b⟩ := key hn
                exact ⟨not_lt.1 a, b⟩
            | some a =>
                simp only [hA, if_neg hr] at hn
                split_ifs at hn with c1 c2
                exact ⟨not_lt.1 c2, Except.ok.inj hn⟩
          rw [← hz.2]
          exact mul_nonneg hz.1 (by omega)
      | _ => simp [hA] at hn

theorem steps_delay {P : Plan d} (h1 : P.ratio = 1) (hi : 0 < P.interval) {m : ℕ} (hm : P.interval ∣ m) :
    Plan.steps { P with nt := (P.nt.toNat + m : ℕ) } = P.steps + m := by
  have hd : (P.ratio * P.interval).toNat ∣ m := by
    rw [h1, one_mul]
    have := hm
    rw [← Int.toNat_of_nonneg hi.le] at this
    exact Int.natCast_dvd_natCast.1 this
  obtain ⟨q, rfl⟩ := hd
  have hp : 0 < (P.ratio * P.interval).toNat := by rw [h1, one_mul]; omega
  unfold Plan.steps
  simp only [Int.toNat_natCast]
  rw [Nat.add_mul_div_left _ _ hp, Nat.add_mul, Nat.mul_comm q]

theorem traces_delay {A A' : SetupArgs d} {P : Plan d} {m : ℕ} (h : A.Good P)
    (h' : A'.Good { P with nt := (P.nt.toNat + m : ℕ) }) (h1 : P.ratio = 1) (hi : 0 < P.interval) (hm : P.interval ∣ m)
    {tt : Bool} {x : ℕ → ℝ} {y y' : Sig ℝ}
    (hy : y = downS P tt ⟨P.nt.toNat, fun t => if t < P.steps then x t else 0⟩)
    (hy' : y' = downS { P with nt := (P.nt.toNat + m : ℕ) } tt ⟨P.nt.toNat + m, fun t =>
      if t < Plan.steps { P with nt := (P.nt.toNat + m : ℕ) } then Spec.delay m x t else 0⟩) : Delayed m y y' := by
  rw [hy, hy', downS_one h h1, downS_one h' h1, steps_delay h1 hi hm]
  refine ⟨rfl, funext fun t => ?_⟩
  show (if t < P.steps + m then Spec.delay m x t else 0) = _
  unfold Spec.delay
  by_cases ht : t < m
  · simp [ht]
  · simp only [ht, if_false]
    exact if_congr (by omega) rfl rfl

end Dw.Setup
