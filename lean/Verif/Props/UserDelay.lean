import Verif.Setup.Delay
import Verif.Spec.Before
import Verif.Props.UserOrderMore
import Verif.Props.UserGradBorn
import Verif.Props.UserGradAcoustic
import Verif.Props.UserGradElastic

/-!
# C123: delayed sources; C124: later amplitudes

For calls with `step_ratio` 1: otherwise the amplitudes are resampled over the whole time, and the result depends
on all of them everywhere.
-/

namespace Dw.Setup

open Scalar (upAmps downS downS_one)
open Resample (Sig)

variable {d : ℕ}

theorem amps_delay {A : SetupArgs d} {P : Plan d} (h : A.Good P) (h1 : P.ratio = 1) (m : ℕ) :
    List.Forall₂ (Option.Rel (AmpT.Length (P.nt.toNat + m))) A.amps (A.amps.map (Option.map (AmpT.delay m))) := by
  have key : ∀ a, some a ∈ A.amps → a.nt = P.nt.toNat := fun a ha => by
    have := (checkAmps_ok.1 h.amps a ha).2.1
    rw [h1, mul_one] at this
    omega
  rw [List.forall₂_map_right_iff]
  refine List.forall₂_same.2 fun o ho => ?_
  cases o with
  | none => exact .none
  | some a => exact .some ⟨rfl, rfl, by simp [AmpT.delay, key a ho]⟩

theorem good_delay {A : SetupArgs d} {P : Plan d} (h : A.Good P) (h1 : P.ratio = 1) {m : ℕ} {o : Option PyNum}
    (ho : NtFor o (P.nt.toNat + m) A.amps) :
    (A.newAmps (A.amps.map (Option.map (AmpT.delay m))) o).Good { P with nt := (P.nt.toNat + m : ℕ) } := by
  refine good_newAmps h h1 (amps_delay h h1 m) (ho.imp id fun hx => ⟨hx.1, ?_⟩)
  obtain ⟨a, ha⟩ := hx.2
  exact ⟨a.delay m, List.mem_map.2 ⟨some a, ha, rfl⟩⟩

theorem nt_delay {P : Plan d} {m : ℕ} {cb : Prop} (h1 : P.ratio = 1) (hm : P.interval ∣ m)
    (h0 : 0 ≤ P.nt) (h : cb ∨ P.ratio * P.interval ≤ P.nt ∨ P.nt ≤ 0) :
    cb ∨ P.ratio * P.interval ≤ (P.nt.toNat + m : ℕ) ∨ ((P.nt.toNat + m : ℕ) : ℤ) ≤ 0 := by
  rw [h1, one_mul] at h ⊢
  refine h.imp id fun h => ?_
  rcases h with h | h
  · left
    push_cast
    omega
  · rcases Nat.eq_zero_or_pos m with rfl | hp
    · right
      omega
    · left
      have := Int.le_of_dvd (by exact_mod_cast hp) hm
      push_cast
      omega

/-- A wavefield that is zero at the start. -/
theorem startsFrom_none {P : Plan d} {s : ℕ} {w : Born.UWf d} {u : ℕ → Fld d ℝ} {psi zeta : ℕ → Fin d → Fld d ℝ}
    (hw : ∀ x ∈ w.list, x = none) (ho : ∀ t c, ¬P.grid.In c → u t c = 0 ∧ ∀ k, psi t k c = 0 ∧ zeta t k c = 0)
    (h : P.StartsFrom s w u psi zeta) : u 0 = 0 ∧ u 1 = 0 ∧ psi 0 = 0 ∧ zeta 0 = 0 := by
  have w1 : w.wfc = none := hw _ (by simp [Born.UWf.list])
  have w2 : w.wfp = none := hw _ (by simp [Born.UWf.list])
  have w3 : ∀ k, w.psi k = none := fun k => hw _ (by simp [Born.UWf.list])
  have w4 : ∀ k, w.zeta k = none := fun k => hw _ (by simp [Born.UWf.list])
  have key : ∀ c, u 0 c = 0 ∧ u 1 c = 0 ∧ ∀ k, psi 0 k c = 0 ∧ zeta 0 k c = 0 := by
    intro c
    by_cases hc : P.grid.In c
    · obtain ⟨i1, i2, i3⟩ := h c hc
      rw [w1] at i1
      rw [w2] at i2
      refine ⟨i2, i1, fun k => ?_⟩
      by_cases hb : P.Between k (c k)
      · exact (i3 k).1 hb
      · have := (i3 k).2 hb
        rw [w3, w4] at this
        exact this
    · exact ⟨(ho 0 c hc).1, (ho 1 c hc).1, (ho 0 c hc).2⟩
  exact ⟨funext fun c => (key c).1, funext fun c => (key c).2.1, funext fun k => funext fun c => ((key c).2.2 k).1,
    funext fun k => funext fun c => ((key c).2.2 k).2⟩

theorem delay_start {u : ℕ → Fld d ℝ} {psi zeta : ℕ → Fin d → Fld d ℝ} (h : u 0 = 0 ∧ u 1 = 0 ∧ psi 0 = 0 ∧ zeta 0 = 0)
    (m : ℕ) : Spec.delay m u 0 = 0 ∧ Spec.delay m u 1 = 0 ∧ Spec.delay m psi 0 = 0 ∧ Spec.delay m zeta 0 = 0 := by
  refine ⟨Spec.delay_le h.1 (Nat.zero_le _), ?_, Spec.delay_le h.2.2.1 (Nat.zero_le _), Spec.delay_le h.2.2.2 (Nat.zero_le _)⟩
  rcases Nat.eq_zero_or_pos m with rfl | hm
  · exact (Spec.delay_add 0 u 1).trans h.2.1
  · exact Spec.delay_le h.1 hm

/-- Wavefields that start with zero are those of the delayed solution. -/
theorem delay_start_eq {u u' : ℕ → Fld d ℝ} {psi zeta psi' zeta' : ℕ → Fin d → Fld d ℝ}
    (h : u 0 = 0 ∧ u 1 = 0 ∧ psi 0 = 0 ∧ zeta 0 = 0) (h' : u' 0 = 0 ∧ u' 1 = 0 ∧ psi' 0 = 0 ∧ zeta' 0 = 0) (m : ℕ)
    (c : Cell d) : u' 1 c = Spec.delay m u 1 c ∧ u' 0 c = Spec.delay m u 0 c ∧
      ∀ k, psi' 0 k c = Spec.delay m psi 0 k c ∧ zeta' 0 k c = Spec.delay m zeta 0 k c := by
  obtain ⟨a1, a2, a3, a4⟩ := delay_start h m
  rw [a1, a2, a3, a4, h'.1, h'.2.1, h'.2.2.1, h'.2.2.2]
  exact ⟨rfl, rfl, fun _ => ⟨rfl, rfl⟩⟩

theorem delay_apply {α : Type*} {β : Type*} [Zero β] (m : ℕ) (f : ℕ → α → β) (t : ℕ) (x : α) :
    Spec.delay m f t x = Spec.delay m (fun t => f t x) t := by
  unfold Spec.delay
  split_ifs <;> rfl

/-- The value at a receiver that is `m` steps later. -/
theorem locValue_delay {o : Option LocT} {s i m : ℕ} (u : ℕ → Fld d ℝ) (t : ℕ) :
    locValue o s i (Spec.delay m u t) = Spec.delay m (fun t => locValue o s i (u t)) t := by
  unfold Spec.delay
  split_ifs
  · unfold locValue
    split <;> rfl
  · rfl

/-- The same for the wavefield one step ahead, which is zero at first. -/
theorem delay_succ {u : ℕ → Fld d ℝ} (h : u 0 = 0) (m t : ℕ) :
    Spec.delay m u (t + 1) = Spec.delay m (fun t => u (t + 1)) t := by
  unfold Spec.delay
  by_cases ht : t < m
  · rw [if_pos ht]
    exact Spec.delay_le h (by omega)
  · rw [if_neg ht, if_neg (by omega)]
    congr 1
    omega

theorem endsIn_delay {P : Plan d} {N m : ℕ} {o o' : Scalar.Wavefields d ℝ} {u : ℕ → Fld d ℝ}
    {psi zeta : ℕ → Fin d → Fld d ℝ} (h : P.EndsIn N o u psi zeta)
    (h' : P.EndsIn (N + m) o' (Spec.delay m u) (Spec.delay m psi) (Spec.delay m zeta)) : o' = o := by
  refine endsIn_unique h fun c => ?_
  have := h' c
  rw [Spec.delay_add, Spec.delay_add, Spec.delay_add] at this
  rw [show N + m + 1 = N + 1 + m by omega, Spec.delay_add] at this
  exact this

/-! ### The same amplitudes up to some time -/

/-- Amplitudes with `n` time samples, of which those of shot `s` before sample `T` are the same. -/
def AmpT.Until (s n T : ℕ) (a a' : AmpT) : Prop :=
  a.Length n a' ∧ ∀ i < a.n, ∀ t < T, a'.val s i t = a.val s i t

theorem rel_length {s n T : ℕ} {a a' : Option AmpT} (h : Option.Rel (AmpT.Until s n T) a a') :
    Option.Rel (AmpT.Length n) a a' := by
  cases h with
  | none => exact .none
  | some h => exact .some h.1

theorem locSum_until {A A' : SetupArgs d} {P P' : Plan d} (h : A.Good P) (h' : A'.Good P') (h1 : P.ratio = 1)
    (h1' : P'.ratio = 1) {tt : Bool} {o : Option LocT} {a a' : Option AmpT} {s n T : ℕ} (j : ℕ)
    (ho : A.srcs[j]? = some o) (ha : A.amps[j]? = some a) (hr : Option.Rel (AmpT.Until s n T) a a') {t : ℕ} (ht : t < T) :
    (locSum (d := d) o s fun i => upAmps P tt a s t i) = locSum o s fun i => upAmps P' tt a' s t i := by
  funext c
  unfold locSum
  refine Finset.sum_congr rfl fun i hi => ?_
  have e : upAmps P tt a s t i = upAmps P' tt a' s t i := by
    rw [upAmps_same h' h1', upAmps_same h h1]
    cases hr with
    | none => rfl
    | @some a a' hr =>
        cases o with
        | none => simp [locCount] at hi
        | some l =>
            have := (checkAmpsMatch_iff.1 h.ampsMatch).2 j (some a.n) (some l.n) (by simp [ha]) (by simp [ho])
            exact (hr.2 i (by rw [Option.some.inj this]; exact Finset.mem_range.1 hi) t ht).symm
  show (if _ then upAmps P tt a s t i else 0) = if _ then upAmps P' tt a' s t i else 0
  rw [e]

theorem traces_until {A A' : SetupArgs d} {P P' : Plan d} (h : A.Good P) (h' : A'.Good P') (h1 : P.ratio = 1)
    (h1' : P'.ratio = 1) {tt : Bool} {x x' : ℕ → ℝ} {n n' N N' t : ℕ} (ht : t < N) (ht' : t < N') (hx : x' t = x t)
    (hn : n = P.nt.toNat) (hn' : n' = P'.nt.toNat) :
    (downS P' tt ⟨n', fun t => if t < N' then x' t else 0⟩).val t =
      (downS P tt ⟨n, fun t => if t < N then x t else 0⟩).val t := by
  rw [hn, hn', downS_one h h1, downS_one h' h1']
  show (if t < N' then x' t else 0) = if t < N then x t else 0
  rw [if_pos ht, if_pos ht', hx]

theorem forall_cons {α β : Type} {R : α → β → Prop} {a : α} {b : β} {f : Fin d → α} {g : Fin d → β} (h : R a b)
    (hf : ∀ k, R (f k) (g k)) : List.Forall₂ R (a :: List.ofFn f) (b :: List.ofFn g) := by
  refine .cons h (List.forall₂_iff_get.2 ⟨by simp, fun i h1 h2 => ?_⟩)
  simpa using hf ⟨i, by simpa using h1⟩

theorem forall_snoc {α β : Type} {R : α → β → Prop} {a : α} {b : β} {f : Fin d → α} {g : Fin d → β} (h : R a b)
    (hf : ∀ k, R (f k) (g k)) : List.Forall₂ R (List.ofFn f ++ [a]) (List.ofFn g ++ [b]) := by
  refine List.rel_append (List.forall₂_iff_get.2 ⟨by simp, fun i h1 h2 => ?_⟩) (.cons h .nil)
  simpa using hf ⟨i, by simpa using h1⟩

end Dw.Setup

namespace Dw.Scalar

open Setup Resample

variable {d : ℕ}

/-- The call with other amplitudes. -/
def UArgs.withAmps (A : UArgs d) (amps : Option AmpT) (o : Option PyNum) : UArgs d := { A with amps := amps, nt := o }

/-- **C123** Delayed sources of a call of `scalar` give delayed traces: if the amplitudes start with `m` more zeros, so do the
traces, and the wavefields at the end are the same. For calls that start with zero wavefields, have no internal time step,
and `m` a multiple of `model_gradient_sampling_interval` (as the number of steps is rounded down to one). -/
theorem C123_delay (A : UArgs d) (P : Plan d) (s : ℕ) (cf : ℤ) (h : Fwd A P s cf) (h1 : P.ratio = 1)
    (hwf : ∀ x ∈ A.setup.wfs, x = none) (m : ℕ) (hm : P.interval ∣ m) (o : Option PyNum)
    (ho : o = some (.int (P.nt.toNat + m : ℕ)) ∨ o = none ∧ A.amps ≠ none) :
    ∃ r r', A.scalar s = .ok (some r) ∧ (A.withAmps (A.amps.map (AmpT.delay m)) o).scalar s = .ok (some r') ∧
      r'.out = r.out ∧ ∀ i < locCount A.rcv, (r'.traces i).len = (r.traces i).len + m ∧
        (∀ t < m, (r'.traces i).val t = 0) ∧ ∀ t, (r'.traces i).val (t + m) = (r.traces i).val t := by
  have hg := good_delay h.good h1 (m := m) (o := o) (ho.imp id fun hx => ⟨hx.1, by
    cases ha : A.amps with
    | none => exact absurd ha hx.2
    | some a => exact ⟨a, by simp [UArgs.setup, ha]⟩⟩)
  replace hg : (A.withAmps (A.amps.map (AmpT.delay m)) o).setup.Good { P with nt := (P.nt.toNat + m : ℕ) } := hg
  obtain ⟨r, u, psi, zeta, hc, hw, hi, hE, ht⟩ := C90_scalar_scheme A P s cf (plan_ok.2 h.good) h.lt h.pml h.src h.rcv
    h.freq h.interval h.nt
  obtain ⟨r', u', psi', zeta', hc', hw', hi', hE', ht'⟩ := C90_scalar_scheme _ _ s cf (plan_ok.2 hg) h.lt h.pml
    h.src h.rcv h.freq h.interval (nt_delay h1 hm h.good.nt_nonneg h.nt)
  have z := startsFrom_none (P := P) (w := ⟨A.wfc, A.wfp, A.psi, A.zeta⟩) hwf hw.outside hi
  have z' := startsFrom_none (P := P) (w := ⟨A.wfc, A.wfp, A.psi, A.zeta⟩) hwf hw'.outside hi'
  have hq := locSum_delay h.good hg h1 h1 A.timeTaper A.src A.amps s m
  replace hw' : P.grid.Wave (P.grid.extend (A.v.shot s))
      (Spec.delay m fun t => locSum A.src s fun i => upAmps P A.timeTaper A.amps s t i) u' psi' zeta' := hq ▸ hw'
  obtain ⟨rfl, rfl, rfl⟩ := hw'.unique (hw.delay z m) (delay_start_eq z z' m)
  have hs := steps_delay h1 h.interval hm
  refine ⟨r, r', hc, hc', endsIn_delay (P := P) (N := P.steps) (m := m) hE ?_, fun i hl => ?_⟩
  · have : P.EndsIn (Plan.steps { P with nt := (P.nt.toNat + m : ℕ) }) r'.out (Spec.delay m u) (Spec.delay m psi)
      (Spec.delay m zeta) := hE'
    rwa [hs] at this
  · have e := traces_delay h.good hg h1 h.interval hm (x := fun t => locValue A.rcv s i (u (t + 1))) (y' := r'.traces i) (ht i hl) (by
      rw [ht' i hl]
      simp only [delay_succ z.1, locValue_delay]
      rfl)
    refine ⟨e.1, fun t ht => ?_, fun t => ?_⟩
    · rw [e.2, Spec.delay_lt _ ht]
    · rw [e.2, Spec.delay_add]

/-- **C124** The traces of a call of `scalar` up to sample `T` do not depend on the amplitudes from `T` on, nor on how
many of those there are. -/
theorem C124_causal (A : UArgs d) (P : Plan d) (s : ℕ) (cf : ℤ) (h : Fwd A P s cf) (h1 : P.ratio = 1) (n T : ℕ)
    (amps : Option AmpT) (o : Option PyNum) (ha : Option.Rel (AmpT.Until s n T) A.amps amps)
    (ho : o = some (.int n) ∨ o = none ∧ amps ≠ none) (hn : A.callback = true ∨ P.interval ≤ n ∨ n = 0) :
    ∃ r r', A.scalar s = .ok (some r) ∧ (A.withAmps amps o).scalar s = .ok (some r') ∧
      ∀ i < locCount A.rcv, ∀ t ≤ T, t < P.steps → t < Plan.steps { P with nt := n } →
        (r'.traces i).val t = (r.traces i).val t := by
  have hg := good_newAmps h.good h1 (n := n) (amps := [amps]) (o := o) (.cons (rel_length ha) .nil)
    (ho.imp id fun hx => ⟨hx.1, by
      cases ha : amps with
      | none => exact absurd ha hx.2
      | some a => exact ⟨a, List.mem_cons_self⟩⟩)
  replace hg : (A.withAmps amps o).setup.Good { P with nt := n } := hg
  obtain ⟨r, u, psi, zeta, hc, hw, hi, hE, ht⟩ := C90_scalar_scheme A P s cf (plan_ok.2 h.good) h.lt h.pml h.src h.rcv
    h.freq h.interval h.nt
  obtain ⟨r', u', psi', zeta', hc', hw', hi', hE', ht'⟩ := C90_scalar_scheme _ _ s cf (plan_ok.2 hg) h.lt h.pml
    h.src h.rcv h.freq h.interval (hn.imp id fun hn => by
      show P.ratio * P.interval ≤ (n : ℤ) ∨ (n : ℤ) ≤ 0
      rw [h1, one_mul]
      omega)
  have e := hw.before hw' (T := T) (fun t ht => locSum_until h.good hg h1 h1 0 rfl rfl ha ht)
    (startsFrom_zero (P := P) (w := ⟨A.wfc, A.wfp, A.psi, A.zeta⟩) hw'.outside hw.outside hi' hi)
  refine ⟨r, r', hc, hc', fun i hl t hT h2 h3 => ?_⟩
  rw [ht i hl, ht' i hl]
  exact traces_until h.good hg h1 h1 h2 h3 (by rw [(e t hT).2.1]; rfl) rfl rfl

theorem exV_fwd : Fwd (exV 3) (exQ 3) 0 1 where
  good := exV_good 3 (.inr rfl)
  lt := by norm_num [exQ]
  pml := .inl (by norm_num [exQ])
  src := fun l hl => by cases hl; exact fun i _ => .inr (exOne_whole (by norm_num) (by norm_num) 0 i)
  rcv := fun l hl => by cases hl; exact fun i _ => .inr (exOne_whole (by norm_num) (by norm_num) 0 i)
  freq := rfl
  interval := by norm_num [exQ]
  nt := .inr (.inl (by norm_num [exQ]))

example : ∃ r r', (exV 3).scalar 0 = .ok (some r) ∧
    ((exV 3).withAmps (some (AmpT.delay 4 ⟨1, 1, 6, fun _ _ t => 1 + t⟩)) none).scalar 0 = .ok (some r') ∧
    r'.out = r.out ∧ (r'.traces 0).len = (r.traces 0).len + 4 ∧
      (∀ t < 4, (r'.traces 0).val t = 0) ∧ ∀ t, (r'.traces 0).val (t + 4) = (r.traces 0).val t := by
  obtain ⟨r, r', h1, h2, h3, h4⟩ := C123_delay (exV 3) _ 0 1 exV_fwd rfl (by simp [UArgs.setup, exV, exU]) 4
    (by norm_num [exQ]) none (.inr ⟨rfl, by simp [exV]⟩)
  exact ⟨r, r', h1, h2, h3, h4 0 (by decide)⟩

example : ∃ r r', (exV 3).scalar 0 = .ok (some r) ∧
    ((exV 3).withAmps (some ⟨1, 1, 20, fun _ _ t => if t < 4 then 1 + t else 77⟩) none).scalar 0 = .ok (some r') ∧
    ∀ t ≤ 4, (r'.traces 0).val t = (r.traces 0).val t := by
  obtain ⟨r, r', h1, h2, h3⟩ := C124_causal (exV 3) _ 0 1 exV_fwd rfl 20 4
    (some ⟨1, 1, 20, fun _ _ t => if t < 4 then 1 + t else 77⟩) none
    (.some ⟨⟨rfl, rfl, rfl⟩, fun i _ t ht => if_pos ht⟩) (.inr ⟨rfl, by simp⟩) (.inr (.inl (by norm_num [exQ])))
  exact ⟨r, r', h1, h2, fun t ht => h3 0 (by decide) t ht (by
    show t < 6
    omega) (by
    show t < 20
    omega)⟩

end Dw.Scalar
