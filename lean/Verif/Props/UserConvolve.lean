import Verif.Spec.Sum
import Verif.Props.UserDelayMore
import Verif.Props.UserMirrorMore

/-!
# C134: traces are convolutions with the responses to pulses

For calls that start with zero wavefields and have no internal time step.
-/

namespace Dw.Spec

variable {ι α : Type*} [AddCommGroup α] [Module ℝ α]

theorem sum_at_zero {S : Finset ι} (f : ι → ℝ) {x : ι → ℕ → α} {t : ℕ} (h : ∀ y ∈ S, x y t = 0) :
    (∑ y ∈ S, f y • x y) t = 0 := by
  rw [Finset.sum_apply]
  refine Finset.sum_eq_zero fun y hy => ?_
  show f y • x y t = 0
  rw [h y hy, smul_zero]

theorem sum_delay_pulse (J : Finset ι) {N : ℕ} (f : ι → ℕ → ℝ) {x : ι → ℕ → α} (hx : ∀ j ∈ J, ∀ t, 0 < t → x j t = 0) {t : ℕ}
    (ht : t < N) : (∑ y ∈ J ×ˢ Finset.range N, f y.1 y.2 • delay y.2 (x y.1)) t = ∑ j ∈ J, f j t • x j 0 := by
  rw [Finset.sum_apply, Finset.sum_product]
  refine Finset.sum_congr rfl fun j hj => (Finset.sum_eq_single t (fun τ _ hτ => ?_) fun h => ?_).trans ?_
  · show f j τ • delay τ (x j) t = 0
    unfold delay
    split_ifs with h
    · exact smul_zero _
    · rw [hx j hj _ (by omega), smul_zero]
  · exact absurd (Finset.mem_range.2 ht) h
  · show f j t • delay t (x j) t = _
    have := delay_add t (x j) 0
    rw [Nat.zero_add] at this
    rw [this]

theorem sum_next {J : Finset ι} {f : ι → ℕ → ℝ} {x : ι → ℕ → α} (h : ∀ j ∈ J, x j 1 = 0) (t : ℕ) :
    ∑ j ∈ J, ∑ τ ∈ Finset.range (t + 1), f j τ • x j (t + 1 - τ) = ∑ j ∈ J, ∑ τ ∈ Finset.range t, f j τ • x j (t - τ + 1) := by
  refine Finset.sum_congr rfl fun j hj => ?_
  rw [Finset.sum_range_succ, Nat.add_sub_cancel_left, h j hj, smul_zero, add_zero]
  refine Finset.sum_congr rfl fun τ hτ => ?_
  rw [show t + 1 - τ = t - τ + 1 by have := Finset.mem_range.1 hτ; omega]

end Dw.Spec

namespace Dw.Setup

open Scalar (upAmps downS downS_one)
open Resample (Sig)

variable {d : ℕ}

/-- Amplitudes of the same size: 1 in the first time sample of source `j` if `b`, otherwise 0. -/
def AmpT.pulse (b : Bool) (j : ℕ) (a : AmpT) : AmpT :=
  { a with val := fun _ i t => if b = true ∧ i = j ∧ t = 0 then 1 else 0 }

/-- Sample `t` of the amplitude of source `i`. -/
def ampVal (o : Option AmpT) (s i t : ℕ) : ℝ :=
  match o with
  | none => 0
  | some a => a.val s i t

theorem pulse_size (b : Bool) (j : ℕ) (o : Option AmpT) : (o.map (AmpT.pulse b j)).map AmpT.size = o.map AmpT.size := by
  cases o <;> rfl

theorem locSum_zero (o : Option LocT) (s : ℕ) : (locSum (d := d) o s fun _ => 0) = 0 := by
  funext c
  simp [locSum]

theorem pulse_later {A : SetupArgs d} {P : Plan d} (h : A.Good P) (h1 : P.ratio = 1) (tt : Bool) (o : Option LocT)
    (a : Option AmpT) (s : ℕ) (b : Bool) (j t : ℕ) (ht : b = false ∨ 0 < t) :
    (locSum (d := d) o s fun i => upAmps P tt (a.map (AmpT.pulse b j)) s t i) = 0 := by
  refine Eq.trans (congrArg (locSum o s) (funext fun i => ?_)) (locSum_zero o s)
  rw [upAmps_same h h1]
  cases a with
  | none => rfl
  | some a =>
      refine if_neg fun hx => ?_
      rcases ht with ht | ht
      · rw [ht] at hx
        exact absurd hx.1 (by simp)
      · omega

/-- Pulses at the sources add up to all of the sources. -/
theorem pulses_sum {A : SetupArgs d} {P : Plan d} (h : A.Good P) (h1 : P.ratio = 1) (tt : Bool) (o : Option LocT)
    (a : Option AmpT) (s t : ℕ) : ∑ j ∈ Finset.range (locCount o), ampVal a s j t •
        (locSum (d := d) o s fun i => upAmps P tt (a.map (AmpT.pulse true j)) s 0 i) =
      locSum o s fun i => upAmps P tt a s t i := by
  funext c
  rw [Finset.sum_apply]
  refine Finset.sum_congr rfl fun j hj => ?_
  show ampVal a s j t * locSum o s _ c = _
  cases a with
  | none =>
      show 0 * _ = _
      rw [zero_mul]
      split_ifs <;> rfl
  | some a =>
      show _ = if _ then upAmps P tt (some a) s t j else 0
      rw [upAmps_same h h1]
      have e : (locSum (d := d) o s (fun i => upAmps P tt ((some a).map (AmpT.pulse true j)) s 0 i) c) =
          if locCell o s j = some c then 1 else 0 := by
        refine (Finset.sum_eq_single j (fun i _ hi => ?_) fun hx => absurd hj hx).trans ?_
        · dsimp only
          rw [upAmps_same h h1]
          show (if _ then (if true = true ∧ i = j ∧ 0 = 0 then (1 : ℝ) else 0) else 0) = 0
          simp [hi]
        · dsimp only
          rw [upAmps_same h h1]
          show (if _ then (if true = true ∧ j = j ∧ 0 = 0 then (1 : ℝ) else 0) else 0) = _
          simp
      rw [e]
      show a.val s j t * _ = if _ then a.val s j t else 0
      split_ifs <;> simp

/-- One for the pressure and one for each component of the velocity. -/
def byPart {α : Type*} (p : α) (v : Fin d → α) : Option (Fin d) → α
  | none => p
  | some k => v k

/-- The sources of all parts. -/
def parts (src : Option (Fin d) → Option LocT) : Finset (Σ _ : Option (Fin d), ℕ) :=
  Finset.univ.sigma fun c => Finset.range (locCount (src c))

theorem parts_sum {A : SetupArgs d} {P : Plan d} (h : A.Good P) (h1 : P.ratio = 1) (tt : Bool) (src : Option (Fin d) → Option LocT)
    (a : Option (Fin d) → Option AmpT) (s t : ℕ) (X : Option (Fin d)) :
    ∑ y ∈ parts src, ampVal (a y.1) s y.2 t •
        (locSum (d := d) (src X) s fun i => upAmps P tt ((a X).map (AmpT.pulse (decide (y.1 = X)) y.2)) s 0 i) =
      locSum (src X) s fun i => upAmps P tt (a X) s t i := by
  unfold parts
  rw [Finset.sum_sigma]
  refine (Finset.sum_eq_single X (fun c _ hc => ?_) fun hx => absurd (Finset.mem_univ X) hx).trans ?_
  · refine Finset.sum_eq_zero fun j _ => ?_
    rw [pulse_later h h1 tt _ _ _ _ _ _ (.inl (decide_eq_false hc)), smul_zero]
  · simp only [decide_true]
    exact pulses_sum h h1 tt (src X) (a X) s t

/-- The value at a receiver, as a linear map. -/
noncomputable def locValueL (o : Option LocT) (s i : ℕ) : Fld d ℝ →ₗ[ℝ] ℝ where
  toFun := locValue o s i
  map_add' u w := by
    unfold locValue
    cases locCell (d := d) o s i with
    | none => simp
    | some c => rfl
  map_smul' a u := by
    unfold locValue
    cases locCell (d := d) o s i with
    | none => simp
    | some c => rfl

theorem steps_le_nt (P : Plan d) : P.steps ≤ P.nt.toNat := Nat.div_mul_le_self _ _

/-- A sample of a trace. -/
theorem downS_val {A : SetupArgs d} {P : Plan d} (h : A.Good P) (h1 : P.ratio = 1) {tt : Bool} {n t : ℕ} {x : ℕ → ℝ}
    (ht : t < P.steps) : (downS P tt ⟨n, fun t => if t < P.steps then x t else 0⟩).val t = x t := by
  rw [downS_one h h1]
  exact if_pos ht

end Dw.Setup

namespace Dw.Scalar

open Setup Resample

variable {d : ℕ}

/-- The call with a pulse at source `j`. -/
def UArgs.pulse (A : UArgs d) (j : ℕ) : UArgs d := { A with amps := A.amps.map (AmpT.pulse true j) }

/-- **C134** The traces of a call of `scalar` are the sum over the sources of the convolution of the amplitude with the trace
that a pulse at that source gives. -/
theorem C134_scalar_convolution (A : UArgs d) (P : Plan d) (s : ℕ) (cf : ℤ) (h : Fwd A P s cf) (h1 : P.ratio = 1)
    (hwf : ∀ x ∈ A.setup.wfs, x = none) :
    ∃ r, ∃ g : ℕ → UShot d, A.scalar s = .ok (some r) ∧ (∀ j, (A.pulse j).scalar s = .ok (some (g j))) ∧
      ∀ i < locCount A.rcv, ∀ t < P.steps, (r.traces i).val t =
        ∑ j ∈ Finset.range (locCount A.src), ∑ τ ∈ Finset.range t, ampVal A.amps s j τ * ((g j).traces i).val (t - τ) := by
  obtain ⟨r, u, psi, zeta, hc, hw, hi, -, ht⟩ := C90_scalar_scheme A P s cf (plan_ok.2 h.good) h.lt h.pml h.src h.rcv
    h.freq h.interval h.nt
  have hg : ∀ j, (A.pulse j).setup.Good P := fun j => h.good.revalue (amps := [A.amps.map (AmpT.pulse true j)])
    (by show [_] = [_]; rw [pulse_size]) rfl
  have hS := fun j => C90_scalar_scheme (A.pulse j) P s cf (plan_ok.2 (hg j)) h.lt h.pml h.src h.rcv h.freq h.interval h.nt
  choose g x xp xz hgc hgw hgi _ hgt using hS
  replace hgw : ∀ j, P.grid.Wave (P.grid.extend (A.v.shot s))
      (fun t => locSum A.src s fun i => upAmps P A.timeTaper (A.amps.map (AmpT.pulse true j)) s t i) (x j) (xp j) (xz j) := hgw
  have z := startsFrom_none (P := P) (w := ⟨A.wfc, A.wfp, A.psi, A.zeta⟩) hwf hw.outside hi
  have zj := fun j => startsFrom_none (P := P) (w := ⟨A.wfc, A.wfp, A.psi, A.zeta⟩) hwf (hgw j).outside (hgi j)
  have hsum := Spec.Grid.Wave.sum (G := P.grid) (Finset.range (locCount A.src) ×ˢ Finset.range P.nt.toNat)
    (fun y => ampVal A.amps s y.1 y.2) fun y _ => (hgw y.1).delay (zj y.1) y.2
  have e := hw.before hsum (T := P.nt.toNat) (fun t ht => by
      rw [Spec.sum_delay_pulse (Finset.range (locCount A.src)) (fun j τ => ampVal A.amps s j τ)
        (x := fun j t => locSum A.src s fun i => upAmps P A.timeTaper (A.amps.map (AmpT.pulse true j)) s t i)
        (fun j _ t ht => pulse_later h.good h1 _ _ _ _ _ _ _ (.inr ht)) ht]
      exact (pulses_sum h.good h1 A.timeTaper A.src A.amps s t).symm) (fun c => by
      rw [Spec.sum_at_zero _ fun y _ => (delay_start (zj y.1) y.2).2.1, Spec.sum_at_zero _ fun y _ => (delay_start (zj y.1) y.2).1,
        Spec.sum_at_zero _ fun y _ => (delay_start (zj y.1) y.2).2.2.1,
        Spec.sum_at_zero _ fun y _ => (delay_start (zj y.1) y.2).2.2.2, z.1, z.2.1, z.2.2.1, z.2.2.2]
      exact ⟨rfl, rfl, fun k => ⟨rfl, rfl⟩⟩)
  refine ⟨r, g, hc, hgc, fun i hl t hT => ?_⟩
  have hN := steps_le_nt P
  have e1 := (e t (by omega)).2.1
  rw [Spec.sum_delay (Finset.range (locCount A.src)) P.nt.toNat (fun j τ => ampVal A.amps s j τ) x (fun j _ => (zj j).1) (by omega),
    Spec.sum_next (fun j _ => (zj j).2.1)] at e1
  rw [ht i hl]
  refine (downS_val h.good h1 hT).trans ?_
  rw [e1]
  refine (map_sum (locValueL A.rcv s i) _ _).trans (Finset.sum_congr rfl fun j _ => ?_)
  refine (map_sum (locValueL A.rcv s i) _ _).trans (Finset.sum_congr rfl fun τ _ => ?_)
  rw [hgt j i hl, map_smul, smul_eq_mul]
  exact congrArg (_ * ·) (downS_val (x := fun t => locValue A.rcv s i (x j (t + 1))) h.good h1 (by omega)).symm

/-- A source with amplitudes 1, 2, …, 6. -/
example : ∃ r g, (exV 3).scalar 0 = .ok (some r) ∧ ((exV 3).pulse 0).scalar 0 = .ok (some g) ∧
    (r.traces 0).val 3 = (g.traces 0).val 3 + 2 * (g.traces 0).val 2 + 3 * (g.traces 0).val 1 := by
  obtain ⟨r, g, h1, h2, h3⟩ := C134_scalar_convolution (exV 3) _ 0 1 exV_fwd rfl (by simp [UArgs.setup, exV, exU])
  refine ⟨r, g 0, h1, h2 0, ?_⟩
  rw [h3 0 (by decide) 3 (by show 3 < 6; omega)]
  show ∑ j ∈ Finset.range 1, ∑ τ ∈ Finset.range 3, (1 + (τ : ℝ)) * _ = _
  simp only [Finset.sum_range_succ, Finset.sum_range_zero]
  norm_num

end Dw.Scalar

namespace Dw.Born

open Setup Resample
open Scalar (upAmps downS)

variable {d : ℕ}

/-- The call with a pulse at source `j`. -/
def UArgs.pulse (A : UArgs d) (j : ℕ) : UArgs d := { A with amps := A.amps.map (AmpT.pulse true j) }

/-- **C134** for `scalar_born`. -/
theorem C134_born_convolution (A : UArgs d) (P : Plan d) (s : ℕ) (cf : ℤ) (h : Fwd A P s cf) (h1 : P.ratio = 1)
    (hwf : ∀ x ∈ A.setup.wfs, x = none) :
    ∃ r, ∃ g : ℕ → UShot d, A.born s = .ok (some r) ∧ (∀ j, (A.pulse j).born s = .ok (some (g j))) ∧
      ∀ t < P.steps, (∀ i < locCount A.bgRcv, (r.bgTraces i).val t =
        ∑ j ∈ Finset.range (locCount A.src), ∑ τ ∈ Finset.range t, ampVal A.amps s j τ * ((g j).bgTraces i).val (t - τ)) ∧
      ∀ i < locCount A.rcv, (r.traces i).val t =
        ∑ j ∈ Finset.range (locCount A.src), ∑ τ ∈ Finset.range t, ampVal A.amps s j τ * ((g j).traces i).val (t - τ) := by
  obtain ⟨r, u, psi, zeta, w, ps, ze, hc, hw, hsc, hi, hi2, -, -, hb, ht⟩ := C91_born_scheme A P s cf (plan_ok.2 h.good) h.lt
    h.pml h.loc h.freq h.interval h.nt
  have hg : ∀ j, (A.pulse j).setup.Good P := fun j => h.good.revalue
    (amps := [A.amps.map (AmpT.pulse true j), A.amps.map (AmpT.pulse true j)]) (by show [_, _] = [_, _]; rw [pulse_size]) rfl
  have hS := fun j => C91_born_scheme (A.pulse j) P s cf (plan_ok.2 (hg j)) h.lt h.pml h.loc h.freq h.interval h.nt
  choose g x xp xz y yp yz hgc hgw hgs hgi hgi2 _ _ hgb hgt using hS
  replace hgw : ∀ j, P.grid.Wave (P.grid.extend (A.v.shot s))
      (fun t => locSum A.src s fun i => upAmps P A.opts.timeTaper (A.amps.map (AmpT.pulse true j)) s t i) (x j) (xp j) (xz j) := hgw
  replace hgs : ∀ j, P.grid.Scattered (P.grid.extend (A.v.shot s)) (P.grid.extendZero (A.scatter.shot s))
      (fun t => locSum A.src s fun i => upAmps P A.opts.timeTaper (A.amps.map (AmpT.pulse true j)) s t i) (x j) (xp j) (xz j)
      (y j) (yp j) (yz j) := hgs
  have hwf1 : ∀ x ∈ A.wf.list, x = none := fun x hx => hwf x (List.mem_append_left _ hx)
  have hwf2 : ∀ x ∈ A.wfsc.list, x = none := fun x hx => hwf x (List.mem_append_right _ hx)
  have z := startsFrom_none hwf1 hw.outside hi
  have z2 := startsFrom_none hwf2 hsc.outside hi2
  have zj := fun j => startsFrom_none (P := P) (w := A.wf) hwf1 (hgw j).outside (hgi j)
  have zj2 := fun j => startsFrom_none (P := P) (w := A.wfsc) hwf2 (hgs j).outside (hgi2 j)
  have hsum := Spec.Grid.Wave.sum (G := P.grid) (Finset.range (locCount A.src) ×ˢ Finset.range P.nt.toNat)
    (fun y => ampVal A.amps s y.1 y.2) fun y _ => (hgw y.1).delay (zj y.1) y.2
  have hsum2 := Spec.Grid.Scattered.sum (G := P.grid) (Finset.range (locCount A.src) ×ˢ Finset.range P.nt.toNat)
    (fun y => ampVal A.amps s y.1 y.2) fun y _ => (hgs y.1).delay (zj y.1) (zj2 y.1) y.2
  have hq : ∀ t < P.nt.toNat, (locSum (d := d) A.src s fun i => upAmps P A.opts.timeTaper A.amps s t i) =
      (∑ y ∈ Finset.range (locCount A.src) ×ˢ Finset.range P.nt.toNat, ampVal A.amps s y.1 y.2 • Spec.delay y.2 fun t =>
        locSum (d := d) A.src s fun i => upAmps P A.opts.timeTaper (A.amps.map (AmpT.pulse true y.1)) s t i) t := fun t ht => by
    rw [Spec.sum_delay_pulse (Finset.range (locCount A.src)) (fun j τ => ampVal A.amps s j τ)
      (x := fun j t => locSum A.src s fun i => upAmps P A.opts.timeTaper (A.amps.map (AmpT.pulse true j)) s t i)
      (fun j _ t ht => pulse_later h.good h1 _ _ _ _ _ _ _ (.inr ht)) ht]
    exact (pulses_sum h.good h1 A.opts.timeTaper A.src A.amps s t).symm
  have e := hw.before hsum (T := P.nt.toNat) hq (fun c => by
      rw [Spec.sum_at_zero _ fun y _ => (delay_start (zj y.1) y.2).2.1, Spec.sum_at_zero _ fun y _ => (delay_start (zj y.1) y.2).1,
        Spec.sum_at_zero _ fun y _ => (delay_start (zj y.1) y.2).2.2.1,
        Spec.sum_at_zero _ fun y _ => (delay_start (zj y.1) y.2).2.2.2, z.1, z.2.1, z.2.2.1, z.2.2.2]
      exact ⟨rfl, rfl, fun k => ⟨rfl, rfl⟩⟩)
  have e2 := hsc.before hsum2 (T := P.nt.toNat) hq e (fun c => by
      rw [Spec.sum_at_zero _ fun y _ => (delay_start (zj2 y.1) y.2).2.1, Spec.sum_at_zero _ fun y _ => (delay_start (zj2 y.1) y.2).1,
        Spec.sum_at_zero _ fun y _ => (delay_start (zj2 y.1) y.2).2.2.1,
        Spec.sum_at_zero _ fun y _ => (delay_start (zj2 y.1) y.2).2.2.2, z2.1, z2.2.1, z2.2.2.1, z2.2.2.2]
      exact ⟨rfl, rfl, fun k => ⟨rfl, rfl⟩⟩)
  have hN := steps_le_nt P
  refine ⟨r, g, hc, hgc, fun t hT => ⟨fun i hl => ?_, fun i hl => ?_⟩⟩
  · have e1 := (e t (by omega)).2.1
    rw [Spec.sum_delay (Finset.range (locCount A.src)) P.nt.toNat (fun j τ => ampVal A.amps s j τ) x (fun j _ => (zj j).1)
      (by omega), Spec.sum_next (fun j _ => (zj j).2.1)] at e1
    rw [hb i hl]
    refine (downS_val h.good h1 hT).trans ?_
    rw [e1]
    refine (map_sum (locValueL A.bgRcv s i) _ _).trans (Finset.sum_congr rfl fun j _ => ?_)
    refine (map_sum (locValueL A.bgRcv s i) _ _).trans (Finset.sum_congr rfl fun τ _ => ?_)
    rw [hgb j i hl, map_smul, smul_eq_mul]
    exact congrArg (_ * ·) (downS_val (x := fun t => locValue A.bgRcv s i (x j (t + 1))) h.good h1 (by omega)).symm
  · have e1 := (e2 t (by omega)).2.1
    rw [Spec.sum_delay (Finset.range (locCount A.src)) P.nt.toNat (fun j τ => ampVal A.amps s j τ) y (fun j _ => (zj2 j).1)
      (by omega), Spec.sum_next (fun j _ => (zj2 j).2.1)] at e1
    rw [ht i hl]
    refine (downS_val h.good h1 hT).trans ?_
    rw [e1]
    refine (map_sum (locValueL A.rcv s i) _ _).trans (Finset.sum_congr rfl fun j _ => ?_)
    refine (map_sum (locValueL A.rcv s i) _ _).trans (Finset.sum_congr rfl fun τ _ => ?_)
    rw [hgt j i hl, map_smul, smul_eq_mul]
    exact congrArg (_ * ·) (downS_val (x := fun t => locValue A.rcv s i (y j (t + 1))) h.good h1 (by omega)).symm

example : ∃ r, ∃ g : ℕ → UShot 2, (exG true).born 1 = .ok (some r) ∧ (∀ j, ((exG true).pulse j).born 1 = .ok (some (g j))) ∧
    (r.traces 1).val 3 = ∑ j ∈ Finset.range 2, ∑ τ ∈ Finset.range 3, exAmp.val 1 j τ * ((g j).traces 1).val (3 - τ) := by
  obtain ⟨r, g, h1, h2, h3⟩ := C134_born_convolution (exG true) _ 1 1 (exG_fwd true 1 (by decide))
    (by norm_num [exGP, exPl1]) (by simp [UArgs.setup, Opts.setup, UWf.list, exG, exU])
  exact ⟨r, g, h1, h2, (h3 3 (by show 3 < 5; omega)).2 1 (by decide)⟩

end Dw.Born

namespace Dw.Acoustic

open Setup Resample
open Scalar (upAmps downS)

variable {d : ℕ}

/-- The call with a pulse at source `j` of the pressure (`c = none`) or of a component of the velocity. -/
def UArgs.pulse (A : UArgs d) (c : Option (Fin d)) (j : ℕ) : UArgs d :=
  { A with
    ampP := A.ampP.map (AmpT.pulse (decide (c = none)) j)
    ampV := fun k => (A.ampV k).map (AmpT.pulse (decide (c = some k)) j) }

/-- **C134** for `acoustic`; the sum is over the sources of pressure and of the components of the velocity. -/
theorem C134_acoustic_convolution (A : UArgs d) (P : Plan d) (s : ℕ) (cf : ℤ) (h : Fwd A P s cf) (h1 : P.ratio = 1)
    (hwf : ∀ x ∈ A.setup.wfs, x = none) :
    ∃ r, ∃ g : Option (Fin d) → ℕ → UShot d, A.acoustic s = .ok (some r) ∧
      (∀ c j, (A.pulse c j).acoustic s = .ok (some (g c j))) ∧
      ∀ t < P.steps, (∀ i < locCount A.rcvP, (r.tracesP i).val t =
        ∑ c, ∑ j ∈ Finset.range (locCount (byPart A.srcP A.srcV c)), ∑ τ ∈ Finset.range t,
          ampVal (byPart A.ampP A.ampV c) s j τ * ((g c j).tracesP i).val (t - τ)) ∧
      ∀ k, ∀ i < locCount (A.rcvV k), (r.tracesV k i).val t =
        ∑ c, ∑ j ∈ Finset.range (locCount (byPart A.srcP A.srcV c)), ∑ τ ∈ Finset.range t,
          ampVal (byPart A.ampP A.ampV c) s j τ * ((g c j).tracesV k i).val (t - τ) := by
  obtain ⟨r, p, v, phi, psi, hc, hw, hi, -, hp, hv⟩ := C92_acoustic_scheme A P s cf (plan_ok.2 h.good) h.pre
    h.lt h.pml h.loc h.last h.freq h.interval h.nt
  have hg : ∀ y : (Σ _ : Option (Fin d), ℕ), (A.pulse y.1 y.2).setup.Good P := fun y => h.good.revalue
    (amps := A.ampP.map (AmpT.pulse (decide (y.1 = none)) y.2) ::
      List.ofFn fun k => (A.ampV k).map (AmpT.pulse (decide (y.1 = some k)) y.2))
    (by simp only [UArgs.setup, Opts.setup, List.map_cons, List.map_ofFn, Function.comp_def, pulse_size]) rfl
  have hS := fun y => C92_acoustic_scheme (A.pulse y.1 y.2) P s cf (plan_ok.2 (hg y)) h.pre
    h.lt h.pml h.loc h.last h.freq h.interval h.nt
  choose g xp xv xphi xpsi hgc hgw hgi _ hgp hgv using hS
  replace hgw : ∀ y, P.grid.Acoustic (fun c => P.grid.extend (A.rho.shot s) c * P.grid.extend (A.v.shot s) c ^ 2)
      (fun k c => Spec.inverse A.rfmax (Spec.mean (P.grid.extend (A.rho.shot s)) k c))
      (fun t => locSum A.srcP s fun i => upAmps P A.opts.timeTaper (A.ampP.map (AmpT.pulse (decide (y.1 = none)) y.2)) s t i)
      (fun t k => locSum (A.srcV k) s fun i =>
        upAmps P A.opts.timeTaper ((A.ampV k).map (AmpT.pulse (decide (y.1 = some k)) y.2)) s t i)
      (xp y) (xv y) (xphi y) (xpsi y) := hgw
  have z := Starts.zero hwf hw.outside hi
  have zj := fun y => Starts.zero (P := P) hwf (hgw y).outside (hgi y)
  have hsum := Spec.Grid.Acoustic.sum (G := P.grid) (parts (byPart A.srcP A.srcV) ×ˢ Finset.range P.nt.toNat)
    (fun y => ampVal (byPart A.ampP A.ampV y.1.1) s y.1.2 y.2) fun y _ => Spec.Grid.Acoustic.delay (hgw y.1) (zj y.1) y.2
  have hz := fun (y : (Σ _ : Option (Fin d), ℕ) × ℕ) => Nat.zero_le y.2
  have e := Spec.Grid.Acoustic.before hw hsum (T := P.nt.toNat) (fun t ht => by
      rw [Spec.sum_delay_pulse (parts (byPart A.srcP A.srcV)) (fun y τ => ampVal (byPart A.ampP A.ampV y.1) s y.2 τ)
        (x := fun y t => locSum A.srcP s fun i =>
          upAmps P A.opts.timeTaper (A.ampP.map (AmpT.pulse (decide (y.1 = none)) y.2)) s t i)
        (fun y _ t ht => pulse_later h.good h1 _ _ _ _ _ _ _ (.inr ht)) ht,
        Spec.sum_delay_pulse (parts (byPart A.srcP A.srcV)) (fun y τ => ampVal (byPart A.ampP A.ampV y.1) s y.2 τ)
        (x := fun y t k => locSum (A.srcV k) s fun i =>
          upAmps P A.opts.timeTaper ((A.ampV k).map (AmpT.pulse (decide (y.1 = some k)) y.2)) s t i)
        (fun y _ t ht => funext fun k => pulse_later h.good h1 _ _ _ _ _ _ _ (.inr ht)) ht]
      refine ⟨(parts_sum h.good h1 A.opts.timeTaper (byPart A.srcP A.srcV) (byPart A.ampP A.ampV) s t none).symm,
        funext fun k => ?_⟩
      rw [Finset.sum_apply]
      exact (parts_sum h.good h1 A.opts.timeTaper (byPart A.srcP A.srcV) (byPart A.ampP A.ampV) s t (some k)).symm)
    ⟨z.1.trans (Spec.sum_at_zero _ fun y _ => Spec.delay_le (zj y.1).1 (hz y)).symm,
      z.2.1.trans (Spec.sum_at_zero _ fun y _ => Spec.delay_le (zj y.1).2.1 (hz y)).symm,
      z.2.2.1.trans (Spec.sum_at_zero _ fun y _ => Spec.delay_le (zj y.1).2.2.1 (hz y)).symm,
      z.2.2.2.trans (Spec.sum_at_zero _ fun y _ => Spec.delay_le (zj y.1).2.2.2 (hz y)).symm⟩
  have hN := steps_le_nt P
  refine ⟨r, fun c j => g ⟨c, j⟩, hc, fun c j => hgc ⟨c, j⟩, fun t hT => ⟨fun i hl => ?_, fun k i hl => ?_⟩⟩
  · have e1 := (e t (by omega)).1
    rw [Spec.sum_delay (parts (byPart A.srcP A.srcV)) P.nt.toNat (fun y τ => ampVal (byPart A.ampP A.ampV y.1) s y.2 τ) xp
      (fun y _ => (zj y).1) (by omega)] at e1
    rw [hp i hl]
    refine (downS_val h.good h1 hT).trans ?_
    rw [e1]
    refine (map_sum (locValueL A.rcvP s i) _ _).trans ((Finset.sum_sigma _ _ _).trans (Finset.sum_congr rfl fun c _ =>
      Finset.sum_congr rfl fun j _ => ?_))
    refine (map_sum (locValueL A.rcvP s i) _ _).trans (Finset.sum_congr rfl fun τ _ => ?_)
    rw [hgp ⟨c, j⟩ i hl, map_smul, smul_eq_mul]
    exact congrArg (_ * ·) (downS_val (x := fun t => locValue A.rcvP s i (xp ⟨c, j⟩ t)) h.good h1 (by omega)).symm
  · have e1 := (e t (by omega)).2.1
    rw [Spec.sum_delay (parts (byPart A.srcP A.srcV)) P.nt.toNat (fun y τ => ampVal (byPart A.ampP A.ampV y.1) s y.2 τ) xv
      (fun y _ => (zj y).2.1) (by omega)] at e1
    rw [hv k i hl]
    refine (downS_val h.good h1 hT).trans ?_
    rw [e1]
    let L : (Fin d → Fld d ℝ) →ₗ[ℝ] ℝ := (locValueL (A.rcvV k) s i).comp (LinearMap.proj k)
    refine (map_sum L _ _).trans ((Finset.sum_sigma _ _ _).trans (Finset.sum_congr rfl fun c _ =>
      Finset.sum_congr rfl fun j _ => ?_))
    refine (map_sum L _ _).trans (Finset.sum_congr rfl fun τ _ => ?_)
    rw [hgv ⟨c, j⟩ k i hl, map_smul, smul_eq_mul]
    exact congrArg (_ * ·) (downS_val (x := fun t => locValue (A.rcvV k) s i (xv ⟨c, j⟩ t k)) h.good h1 (by omega)).symm

example : ∃ r, ∃ g : Option (Fin 2) → ℕ → UShot 2, exG.acoustic 1 = .ok (some r) ∧
    (∀ c j, (exG.pulse c j).acoustic 1 = .ok (some (g c j))) ∧
    (r.tracesP 1).val 3 = ∑ c, ∑ j ∈ Finset.range (locCount (byPart exG.srcP exG.srcV c)), ∑ τ ∈ Finset.range 3,
      ampVal (byPart exG.ampP exG.ampV c) 1 j τ * ((g c j).tracesP 1).val (3 - τ) := by
  obtain ⟨r, g, h1, h2, h3⟩ := C134_acoustic_convolution exG _ 1 1 (exG_fwd 1 (by decide))
    (by norm_num [exGP, exPl1]) (by simp [UArgs.setup, Opts.setup, UWf.list, exG, exU])
  exact ⟨r, g, h1, h2, (h3 3 (by show 3 < 5; omega)).1 1 (by decide)⟩

end Dw.Acoustic

namespace Dw.Elastic

open Setup Resample
open Scalar (upAmps downS)

variable {d : ℕ}

/-- The call with a pulse at source `j` of the pressure (`c = none`) or of a component of the force. -/
def UArgs.pulse (A : UArgs d) (c : Option (Fin d)) (j : ℕ) : UArgs d :=
  { A with
    ampP := A.ampP.map (AmpT.pulse (decide (c = none)) j)
    ampV := fun k => (A.ampV k).map (AmpT.pulse (decide (c = some k)) j) }

/-- The sum of the normal stresses. -/
noncomputable def traceL : (Fin d → Fin d → Fld d ℝ) →ₗ[ℝ] Fld d ℝ where
  toFun sig := fun c => ∑ k, sig k k c
  map_add' _ _ := funext fun _ => Finset.sum_add_distrib
  map_smul' _ _ := funext fun _ => (Finset.mul_sum _ _ _).symm

/-- **C134** for `elastic`; the sum is over the sources of pressure and of the components of the force. -/
theorem C134_elastic_convolution (A : UArgs d) (P : Plan d) (s : ℕ) (cf : ℤ) (h : Fwd A P s cf) (h1 : P.ratio = 1)
    (hwf : ∀ x ∈ A.setup.wfs, x = none) :
    ∃ r, ∃ g : Option (Fin d) → ℕ → UShot d, A.elastic s = .ok (some r) ∧
      (∀ c j, (A.pulse c j).elastic s = .ok (some (g c j))) ∧
      ∀ t < P.steps, (∀ i < locCount A.rcvP, (r.tracesP i).val t =
        ∑ c, ∑ j ∈ Finset.range (locCount (byPart A.srcP A.srcV c)), ∑ τ ∈ Finset.range t,
          ampVal (byPart A.ampP A.ampV c) s j τ * ((g c j).tracesP i).val (t - τ)) ∧
      ∀ k, ∀ i < locCount (A.rcvV k), (r.tracesV k i).val t =
        ∑ c, ∑ j ∈ Finset.range (locCount (byPart A.srcP A.srcV c)), ∑ τ ∈ Finset.range t,
          ampVal (byPart A.ampP A.ampV c) s j τ * ((g c j).tracesV k i).val (t - τ) := by
  obtain ⟨r, v, sig, mv, ms, hc, hw, hi, -, hp, hv⟩ := C93_elastic_scheme A P s cf (plan_ok.2 h.good) h.pre
    h.lt h.pml h.loc h.last h.freq h.interval h.nt
  have hg : ∀ y : (Σ _ : Option (Fin d), ℕ), (A.pulse y.1 y.2).setup.Good P := fun y => h.good.revalue
    (amps := (List.ofFn fun k => (A.ampV k).map (AmpT.pulse (decide (y.1 = some k)) y.2)) ++
      [A.ampP.map (AmpT.pulse (decide (y.1 = none)) y.2)])
    (by simp only [UArgs.setup, Opts.setup, List.map_append, List.map_cons, List.map_nil, List.map_ofFn, Function.comp_def,
      pulse_size]) rfl
  have hS := fun y => C93_elastic_scheme (A.pulse y.1 y.2) P s cf (plan_ok.2 (hg y)) h.pre
    h.lt h.pml h.loc h.last h.freq h.interval h.nt
  choose g xv xs xmv xms hgc hgw hgi _ hgp hgv using hS
  replace hgw : ∀ y, P.grid.Elastic (P.grid.extend (A.lam.shot s)) (P.grid.extend (A.mu.shot s))
      (Spec.harmonic A.rfmax (P.grid.extend (A.mu.shot s)))
      (fun k c => Spec.inverse A.rfmax (Spec.mean (fun c => Spec.inverse A.rfmax (P.grid.extend (A.buoyancy.shot s) c)) k c))
      (fun t => locSum A.srcP s fun i => upAmps P A.opts.timeTaper (A.ampP.map (AmpT.pulse (decide (y.1 = none)) y.2)) s t i)
      (fun t k => locSum (A.srcV k) s fun i =>
        upAmps P A.opts.timeTaper ((A.ampV k).map (AmpT.pulse (decide (y.1 = some k)) y.2)) s t i)
      (xv y) (xs y) (xmv y) (xms y) := hgw
  have z := Starts.zero hwf hw.symm hw.outside hi
  have zj := fun y => Starts.zero (P := P) hwf (hgw y).symm (hgw y).outside (hgi y)
  have hsum := Spec.Grid.Elastic.sum (G := P.grid) (parts (byPart A.srcP A.srcV) ×ˢ Finset.range P.nt.toNat)
    (fun y => ampVal (byPart A.ampP A.ampV y.1.1) s y.1.2 y.2) fun y _ => Spec.Grid.Elastic.delay (hgw y.1) (zj y.1) y.2
  have hz := fun (y : (Σ _ : Option (Fin d), ℕ) × ℕ) => Nat.zero_le y.2
  have e := Spec.Grid.Elastic.before hw hsum (T := P.nt.toNat) (fun t ht => by
      rw [Spec.sum_delay_pulse (parts (byPart A.srcP A.srcV)) (fun y τ => ampVal (byPart A.ampP A.ampV y.1) s y.2 τ)
        (x := fun y t => locSum A.srcP s fun i =>
          upAmps P A.opts.timeTaper (A.ampP.map (AmpT.pulse (decide (y.1 = none)) y.2)) s t i)
        (fun y _ t ht => pulse_later h.good h1 _ _ _ _ _ _ _ (.inr ht)) ht,
        Spec.sum_delay_pulse (parts (byPart A.srcP A.srcV)) (fun y τ => ampVal (byPart A.ampP A.ampV y.1) s y.2 τ)
        (x := fun y t k => locSum (A.srcV k) s fun i =>
          upAmps P A.opts.timeTaper ((A.ampV k).map (AmpT.pulse (decide (y.1 = some k)) y.2)) s t i)
        (fun y _ t ht => funext fun k => pulse_later h.good h1 _ _ _ _ _ _ _ (.inr ht)) ht]
      refine ⟨(parts_sum h.good h1 A.opts.timeTaper (byPart A.srcP A.srcV) (byPart A.ampP A.ampV) s t none).symm,
        funext fun k => ?_⟩
      rw [Finset.sum_apply]
      exact (parts_sum h.good h1 A.opts.timeTaper (byPart A.srcP A.srcV) (byPart A.ampP A.ampV) s t (some k)).symm)
    ⟨z.1.trans (Spec.sum_at_zero _ fun y _ => Spec.delay_le (zj y.1).1 (hz y)).symm,
      z.2.1.trans (Spec.sum_at_zero _ fun y _ => Spec.delay_le (zj y.1).2.1 (hz y)).symm,
      z.2.2.1.trans (Spec.sum_at_zero _ fun y _ => Spec.delay_le (zj y.1).2.2.1 (hz y)).symm,
      z.2.2.2.trans (Spec.sum_at_zero _ fun y _ => Spec.delay_le (zj y.1).2.2.2 (hz y)).symm⟩
  have hN := steps_le_nt P
  refine ⟨r, fun c j => g ⟨c, j⟩, hc, fun c j => hgc ⟨c, j⟩, fun t hT => ⟨fun i hl => ?_, fun k i hl => ?_⟩⟩
  · have e1 := (e t (by omega)).2.1
    rw [Spec.sum_delay (parts (byPart A.srcP A.srcV)) P.nt.toNat (fun y τ => ampVal (byPart A.ampP A.ampV y.1) s y.2 τ) xs
      (fun y _ => (zj y).2.1) (by omega)] at e1
    rw [hp i hl]
    let L : (Fin d → Fin d → Fld d ℝ) →ₗ[ℝ] ℝ := (-1 / d : ℝ) • (locValueL A.rcvP s i).comp traceL
    have hL : ∀ {x : ℕ → Fin d → Fin d → Fld d ℝ} {t : ℕ}, t < P.steps → -(downS P A.opts.timeTaper ⟨P.nt.toNat, fun t =>
        if t < P.steps then locValue A.rcvP s i (fun c => ∑ k, x t k k c) else 0⟩).val t / d = L (x t) := by
      intro x t ht
      rw [downS_val (x := fun t => locValue A.rcvP s i (fun c => ∑ k, x t k k c)) h.good h1 ht]
      show _ = -1 / (d : ℝ) * locValue A.rcvP s i (fun c => ∑ k, x t k k c)
      ring
    refine (hL hT).trans ?_
    rw [e1]
    refine (map_sum L _ _).trans ((Finset.sum_sigma _ _ _).trans (Finset.sum_congr rfl fun c _ =>
      Finset.sum_congr rfl fun j _ => ?_))
    refine (map_sum L _ _).trans (Finset.sum_congr rfl fun τ _ => ?_)
    rw [hgp ⟨c, j⟩ i hl, map_smul, smul_eq_mul]
    exact congrArg (_ * ·) (hL (x := xs ⟨c, j⟩) (by omega)).symm
  · have e1 := (e t (by omega)).1
    rw [Spec.sum_delay (parts (byPart A.srcP A.srcV)) P.nt.toNat (fun y τ => ampVal (byPart A.ampP A.ampV y.1) s y.2 τ) xv
      (fun y _ => (zj y).1) (by omega)] at e1
    rw [hv k i hl]
    refine (downS_val h.good h1 hT).trans ?_
    rw [e1]
    let L : (Fin d → Fld d ℝ) →ₗ[ℝ] ℝ := (locValueL (A.rcvV k) s i).comp (LinearMap.proj k)
    refine (map_sum L _ _).trans ((Finset.sum_sigma _ _ _).trans (Finset.sum_congr rfl fun c _ =>
      Finset.sum_congr rfl fun j _ => ?_))
    refine (map_sum L _ _).trans (Finset.sum_congr rfl fun τ _ => ?_)
    rw [hgv ⟨c, j⟩ k i hl, map_smul, smul_eq_mul]
    exact congrArg (_ * ·) (downS_val (x := fun t => locValue (A.rcvV k) s i (xv ⟨c, j⟩ t k)) h.good h1 (by omega)).symm

example : ∃ r, ∃ g : Option (Fin 2) → ℕ → UShot 2, exG.elastic 1 = .ok (some r) ∧
    (∀ c j, (exG.pulse c j).elastic 1 = .ok (some (g c j))) ∧
    (r.tracesP 1).val 3 = ∑ c, ∑ j ∈ Finset.range (locCount (byPart exG.srcP exG.srcV c)), ∑ τ ∈ Finset.range 3,
      ampVal (byPart exG.ampP exG.ampV c) 1 j τ * ((g c j).tracesP 1).val (3 - τ) := by
  obtain ⟨r, g, h1, h2, h3⟩ := C134_elastic_convolution exG _ 1 1 (exG_fwd 1 (by decide))
    (by norm_num [exGP, exPl1]) (fun x hx => by
      cases x with
      | none => rfl
      | some x => exact absurd hx (exU_noWf (sp := .none) x))
  exact ⟨r, g, h1, h2, (h3 3 (by show 3 < 5; omega)).1 1 (by decide)⟩

end Dw.Elastic
