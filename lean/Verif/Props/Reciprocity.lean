import Verif.Props.AcousticEnergy
import Verif.Props.ElasticEnergy

/-!
# Reciprocity of the acoustic and the elastic propagator without PML
-/

namespace Dw

/-- Amplitudes that are zero except for source `i`, which emits `w`. -/
def emit {R : Type*} [Zero R] {n : ℕ} (i : Fin n) (w : ℕ → R) : ℕ → Fin n → R := fun t i' =>
  if i' = i then w t else 0

/-- Amplitudes that are zero except for source `i` of component `k`, which emits `w`. -/
def emitV {R : Type*} [Zero R] {d : ℕ} {n : Fin d → ℕ} (k : Fin d) (i : Fin (n k)) (w : ℕ → R) :
    (k : Fin d) → ℕ → Fin (n k) → R := fun k' t i' =>
  if (⟨k', i'⟩ : Σ k, Fin (n k)) = ⟨k, i⟩ then w t else 0

/-- No amplitudes. -/
def silent {R : Type*} [Zero R] {n : ℕ} : ℕ → Fin n → R := fun _ _ => 0

def silentV {R : Type*} [Zero R] {d : ℕ} {n : Fin d → ℕ} : (k : Fin d) → ℕ → Fin (n k) → R :=
  fun _ _ _ => 0

theorem sum_emit {R : Type*} [CommRing R] {n : ℕ} (i : Fin n) (w : ℕ → R) (t : ℕ) (u : Fin n → R) :
    ∑ i', emit i w t i' * u i' = w t * u i := by
  rw [Finset.sum_eq_single i]
  · simp [emit]
  · intro j _ hj; simp [emit, hj]
  · intro h; exact absurd (Finset.mem_univ _) h

theorem sum_emitV {R : Type*} [CommRing R] {d : ℕ} {n : Fin d → ℕ} (k : Fin d) (i : Fin (n k))
    (w : ℕ → R) (t : ℕ) (u : (k : Fin d) → Fin (n k) → R) :
    ∑ k', ∑ i', emitV k i w k' t i' * u k' i' = w t * u k i := by
  rw [Finset.sum_eq_single k, Finset.sum_eq_single i]
  · simp [emitV]
  · intro j _ hj; simp [emitV, hj]
  · intro h; exact absurd (Finset.mem_univ _) h
  · intro k' _ hk
    refine Finset.sum_eq_zero fun j _ => ?_
    simp [emitV, hk]
  · intro h; exact absurd (Finset.mem_univ _) h

theorem sum_silent {R : Type*} [CommRing R] {n : ℕ} (t : ℕ) (u : Fin n → R) :
    ∑ i, silent t i * u i = 0 := by simp [silent]

theorem sum_silentV {R : Type*} [CommRing R] {d : ℕ} {n : Fin d → ℕ} (t : ℕ)
    (u : (k : Fin d) → Fin (n k) → R) : ∑ k, ∑ i, silentV k t i * u k i = 0 := by simp [silentV]

end Dw

/-! ### Acoustic -/

namespace Dw.Acoustic

open Dw.Scalar (inject sample)

variable {d np mp : ℕ} {nv mv : Fin d → ℕ} {R : Type*} [Field R] {C : Cfg d np mp nv mv R}

theorem sample_zero {m : ℕ} (loc : Fin m → Option (Cell d)) (i : Fin m) :
    sample loc (0 : Fld d R) i = 0 := by
  unfold sample
  cases loc i <;> rfl

/-- No initial wavefields. -/
def Init.atRest : Init d R := ⟨none, fun _ => none, fun _ => none, fun _ => none⟩

theorem prepare_atRest (C : Cfg d np mp nv mv R) :
    (C.prepare Init.atRest).p = 0 ∧ (C.prepare Init.atRest).v = 0 := by
  refine ⟨rfl, ?_⟩
  funext k c
  simp [Cfg.prepare, Init.atRest, Cfg.createOrPad, Cfg.zeroEdge]

/-- **C75** Without PML and starting at rest, the traces recorded in a survey and in the survey with
sources and receivers exchanged satisfy the reciprocity relation of convolution type, for all source
amplitudes of either survey, models and numbers of steps. -/
theorem C75_acoustic_reciprocity (h : C.WF)
    (hn : ∀ k x, C.a k x = 0 ∧ C.b k x = 0 ∧ C.ah k x = 0 ∧ C.bh k x = 0) (hr : 0 < C.ratio)
    (gk gb : Bool) (cb : Option ℕ) (nt : ℕ) (hcf : 0 < nt → 0 < cb.getD (nt / C.ratio))
    (f : ℕ → Fin np → R) (fv : (k : Fin d) → ℕ → Fin (nv k) → R)
    (g : ℕ → Fin mp → R) (gv : (k : Fin d) → ℕ → Fin (mv k) → R) :
    ∃ r r', C.forward gk gb cb nt (C.scaleP f) (C.scaleV fv) Init.atRest = .ok r ∧
      C.exchanged.forward gk gb cb nt (C.exchanged.scaleP g) (C.exchanged.scaleV gv) Init.atRest =
        .ok r' ∧
      ∀ T, T < nt / C.ratio * C.ratio →
        ∑ t ∈ Finset.range T, (∑ i, f t i * r'.rcdP (T - 1 - t) i
            - ∑ k, ∑ i, fv k t i * r'.rcdV k (T - t) i) =
          ∑ t ∈ Finset.range T, (∑ i, g t i * r.rcdP (T - 1 - t) i
            - ∑ k, ∑ i, gv k t i * r.rcdV k (T - t) i) := by
  refine ⟨_, _, forward_eq h gk gb cb nt _ _ _ hr hcf,
    forward_eq h.exchanged gk gb cb nt _ _ _ hr hcf, fun T hT => ?_⟩
  have main := run_reciprocity h hn f fv g gv (prepare_good Init.atRest) (prepare_atRest C).1
    (prepare_atRest C).2 T
  have e : C.exchanged.ratio = C.ratio := rfl
  simp only [e]
  have hlt : ∀ t, T - 1 - t < nt / C.ratio * C.ratio ∧ T - t < nt / C.ratio * C.ratio := fun t => by
    omega
  simp only [if_pos (hlt _).1, if_pos (hlt _).2]
  exact main

/-- **C75** A pressure source and a pressure receiver may be exchanged: the trace of source `i` at
receiver `j` is that of a source with the same wavelet at receiver `j` recorded at source `i`. -/
theorem C75_acoustic_exchange_pressure (h : C.WF)
    (hn : ∀ k x, C.a k x = 0 ∧ C.b k x = 0 ∧ C.ah k x = 0 ∧ C.bh k x = 0) (hr : 0 < C.ratio)
    (gk gb : Bool) (cb : Option ℕ) (nt : ℕ) (hcf : 0 < nt → 0 < cb.getD (nt / C.ratio))
    (i : Fin np) (j : Fin mp) (q : ℕ → R) :
    ∃ r r', C.forward gk gb cb nt (C.scaleP (emit i q)) (C.scaleV silentV) Init.atRest = .ok r ∧
      C.exchanged.forward gk gb cb nt (C.exchanged.scaleP (emit j q)) (C.exchanged.scaleV silentV)
        Init.atRest = .ok r' ∧
      ∀ t, r.rcdP t j = r'.rcdP t i := by
  refine ⟨_, _, forward_eq h gk gb cb nt _ _ _ hr hcf,
    forward_eq h.exchanged gk gb cb nt _ _ _ hr hcf, fun t => ?_⟩
  have key := responses_eq
    (fun q n => sample C.rcvP
      (C.run (C.scaleP (emit i q)) (C.scaleV silentV) (C.prepare Init.atRest) n).p j)
    (fun q n => sample C.srcP (C.exchanged.run (C.exchanged.scaleP (emit j q))
      (C.exchanged.scaleV silentV) (C.prepare Init.atRest) n).p i)
    (fun f g T => by
      have := run_reciprocity h hn (emit i f) silentV (emit j g) silentV (prepare_good Init.atRest)
        (prepare_atRest C).1 (prepare_atRest C).2 T
      simpa only [sum_emit, sum_silentV, sub_zero] using this) q t
  have e : C.exchanged.ratio = C.ratio := rfl
  simp only [e]
  split_ifs
  · exact key
  · rfl

/-- **C75** The same for velocity sources and receivers: component `l` of the velocity at one point due
to a force along `k` at another is component `k` at the second due to a force along `l` at the first. -/
theorem C75_acoustic_exchange_velocity (h : C.WF)
    (hn : ∀ k x, C.a k x = 0 ∧ C.b k x = 0 ∧ C.ah k x = 0 ∧ C.bh k x = 0) (hr : 0 < C.ratio)
    (gk gb : Bool) (cb : Option ℕ) (nt : ℕ) (hcf : 0 < nt → 0 < cb.getD (nt / C.ratio))
    (k l : Fin d) (i : Fin (nv k)) (j : Fin (mv l)) (q : ℕ → R) :
    ∃ r r', C.forward gk gb cb nt (C.scaleP silent) (C.scaleV (emitV k i q)) Init.atRest = .ok r ∧
      C.exchanged.forward gk gb cb nt (C.exchanged.scaleP silent) (C.exchanged.scaleV (emitV l j q))
        Init.atRest = .ok r' ∧
      ∀ t, r.rcdV l t j = r'.rcdV k t i := by
  refine ⟨_, _, forward_eq h gk gb cb nt _ _ _ hr hcf,
    forward_eq h.exchanged gk gb cb nt _ _ _ hr hcf, fun t => ?_⟩
  have key := responses_eq
    (fun q n => sample (C.rcvV l)
      ((C.run (C.scaleP silent) (C.scaleV (emitV k i q)) (C.prepare Init.atRest) (n + 1)).v l) j)
    (fun q n => sample (C.srcV k) ((C.exchanged.run (C.exchanged.scaleP silent)
      (C.exchanged.scaleV (emitV l j q)) (C.prepare Init.atRest) (n + 1)).v k) i)
    (fun f g T => by
      have := run_reciprocity h hn silent (emitV k i f) silent (emitV l j g) (prepare_good Init.atRest)
        (prepare_atRest C).1 (prepare_atRest C).2 T
      simp only [sum_emitV, sum_silent, zero_sub, Finset.sum_neg_distrib, neg_inj] at this
      have e : ∀ t ∈ Finset.range T, T - t = T - 1 - t + 1 := fun t ht => by
        have := Finset.mem_range.1 ht; omega
      refine (Finset.sum_congr rfl fun t ht => ?_).trans (this.trans (Finset.sum_congr rfl fun t ht => ?_))
      · rw [e t ht]
      · rw [e t ht]) q
  have e : C.exchanged.ratio = C.ratio := rfl
  have e2 : C.exchanged.prepare (R := R) Init.atRest = C.prepare Init.atRest := rfl
  simp only [e, e2]
  split_ifs
  · cases t with
    | zero =>
        simp only [Cfg.run, (prepare_atRest C).2, Pi.zero_apply, sample_zero]
    | succ t => exact key t
  · rfl

/-- **C75** Between pressure and velocity: the velocity due to a pressure source is minus the pressure
due to the corresponding force, one sample later. -/
theorem C75_acoustic_exchange_mixed (h : C.WF)
    (hn : ∀ k x, C.a k x = 0 ∧ C.b k x = 0 ∧ C.ah k x = 0 ∧ C.bh k x = 0) (hr : 0 < C.ratio)
    (gk gb : Bool) (cb : Option ℕ) (nt : ℕ) (hcf : 0 < nt → 0 < cb.getD (nt / C.ratio))
    (l : Fin d) (i : Fin np) (j : Fin (mv l)) (q : ℕ → R) :
    ∃ r r', C.forward gk gb cb nt (C.scaleP (emit i q)) (C.scaleV silentV) Init.atRest = .ok r ∧
      C.exchanged.forward gk gb cb nt (C.exchanged.scaleP silent) (C.exchanged.scaleV (emitV l j q))
        Init.atRest = .ok r' ∧
      ∀ t, t + 1 < nt / C.ratio * C.ratio → r.rcdV l (t + 1) j = -r'.rcdP t i := by
  refine ⟨_, _, forward_eq h gk gb cb nt _ _ _ hr hcf,
    forward_eq h.exchanged gk gb cb nt _ _ _ hr hcf, fun t ht => ?_⟩
  have key := responses_eq
    (fun q n => -sample (C.rcvV l)
      ((C.run (C.scaleP (emit i q)) (C.scaleV silentV) (C.prepare Init.atRest) (n + 1)).v l) j)
    (fun q n => sample C.srcP (C.exchanged.run (C.exchanged.scaleP silent)
      (C.exchanged.scaleV (emitV l j q)) (C.prepare Init.atRest) n).p i)
    (fun f g T => by
      have := run_reciprocity h hn (emit i f) silentV silent (emitV l j g) (prepare_good Init.atRest)
        (prepare_atRest C).1 (prepare_atRest C).2 T
      simp only [sum_emit, sum_emitV, sum_silent, sum_silentV, zero_sub, sub_zero] at this
      have e : ∀ t ∈ Finset.range T, T - t = T - 1 - t + 1 := fun t ht => by
        have := Finset.mem_range.1 ht; omega
      rw [this]
      refine Finset.sum_congr rfl fun t ht => ?_
      rw [e t ht, mul_neg]) q t
  have e : C.exchanged.ratio = C.ratio := rfl
  simp only [e, if_pos ht, if_pos (Nat.lt_of_succ_lt ht)]
  exact neg_eq_iff_eq_neg.1 key

/-- The hypotheses hold for a model with variable parameters, two pressure sources of which one is
ignored, and a source and a receiver of each velocity component; the source is not at the receiver. -/
example : ∃ r r', exAFree.forward true true none 14 (exAFree.scaleP (emit 0 fun t => (t : ℝ) + 1))
      (exAFree.scaleV silentV) Init.atRest = .ok r ∧
    exAFree.exchanged.forward true true none 14
      (exAFree.exchanged.scaleP (emit 0 fun t => (t : ℝ) + 1)) (exAFree.exchanged.scaleV silentV)
      Init.atRest = .ok r' ∧
    ∀ t, r.rcdP t 0 = r'.rcdP t 0 :=
  C75_acoustic_exchange_pressure exAFree_wf exAFree_nopml (by decide) true true none 14 (by decide) 0 0 _

example : exAFree.srcP 0 = some ![4, 5] ∧ exAFree.rcvP 0 = some ![4, 7] := ⟨rfl, rfl⟩

example : ∃ r r', exAFree.forward true true none 14 (exAFree.scaleP silent)
      (exAFree.scaleV (emitV 0 0 fun t => (t : ℝ) + 1)) Init.atRest = .ok r ∧
    exAFree.exchanged.forward true true none 14 (exAFree.exchanged.scaleP silent)
      (exAFree.exchanged.scaleV (emitV 1 0 fun t => (t : ℝ) + 1)) Init.atRest = .ok r' ∧
    ∀ t, r.rcdV 1 t 0 = r'.rcdV 0 t 0 :=
  C75_acoustic_exchange_velocity exAFree_wf exAFree_nopml (by decide) true true none 14 (by decide)
    0 1 0 0 _

end Dw.Acoustic

/-! ### Elastic -/

namespace Dw.Elastic

open Dw.Scalar (inject sample)
open Dw.Acoustic (sample_zero)

variable {d np mp : ℕ} {nv mv : Fin d → ℕ} {C : Cfg d np mp nv mv ℝ}

/-- No initial wavefields. -/
def Init.atRest : Init d ℝ := ⟨fun _ => none, fun _ => none, fun _ => none, fun _ _ => none, fun _ _ => none⟩

theorem prepare_atRest (C : Cfg d np mp nv mv ℝ) : (C.prepare Init.atRest).v = 0 ∧
    (C.prepare Init.atRest).s = 0 ∧ (C.prepare Init.atRest).sh = 0 := by
  refine ⟨?_, rfl, ?_⟩
  · funext k c
    simp [Cfg.prepare, Init.atRest, Cfg.createOrPad, Cfg.zeroEdges]
  · funext k c
    simp [Cfg.prepare, Init.atRest, Cfg.createOrPad, Cfg.zeroEdges]

/-- The pressure output (`elastic.py` 1033-1035). -/
noncomputable def FResult.pressure (r : FResult d mp mv ℝ) (t : ℕ) (i : Fin mp) : ℝ := -r.rcdP t i / d

/-- The bulk modulus in `d` dimensions. -/
noncomputable def Cfg.bulk (C : Cfg d np mp nv mv ℝ) (c : Cell d) : ℝ := C.lam c + 2 * C.mu c / d

theorem bulk_ne {c : Cell d} (hd : 0 < d) (h : C.bulk c ≠ 0) : (d : ℝ) * C.lam c + 2 * C.mu c ≠ 0 := by
  intro h0
  have hd' : (d : ℝ) ≠ 0 := Nat.cast_ne_zero.2 hd.ne'
  apply h
  unfold Cfg.bulk
  field_simp
  linarith

theorem weight_eq {c : Cell d} (hd : 0 < d) (p : ℝ) :
    ((d : ℝ) * C.lam c + 2 * C.mu c)⁻¹ * p = -((-p / d) / C.bulk c) := by
  have hd' : (d : ℝ) ≠ 0 := Nat.cast_ne_zero.2 hd.ne'
  have e : (d : ℝ) * C.lam c + 2 * C.mu c = d * C.bulk c := by
    unfold Cfg.bulk
    field_simp
  rw [e]
  by_cases hb : C.bulk c = 0
  · simp [hb]
  · field_simp

theorem sample_weight {n : ℕ} {loc : Fin n → Option (Cell d)} (hd : 0 < d) (u : Fld d ℝ) (i : Fin n) :
    sample loc (fun c => ((d : ℝ) * C.lam c + 2 * C.mu c)⁻¹ * u c) i =
      -((-sample loc u i / d) / C.bulk ((loc i).getD fun _ => 0)) := by
  unfold sample
  cases loc i with
  | none => simp
  | some c => exact weight_eq hd (u c)

/-- **C76** Without PML and starting at rest, the traces recorded in a survey and in the survey with
sources and receivers exchanged satisfy the reciprocity relation of convolution type, in which
pressures are divided by the bulk modulus. -/
theorem C76_elastic_reciprocity (h : C.WF) (hn : C.NoPml) (hd : 0 < d) (hr : 0 < C.ratio)
    (hk : ∀ i c, C.srcP i = some c → C.bulk c ≠ 0) (hk' : ∀ i c, C.rcvP i = some c → C.bulk c ≠ 0)
    (gl gm gb : Bool) (cb : Option ℕ) (nt : ℕ) (hcf : 0 < nt → 0 < cb.getD (nt / C.ratio))
    (f : ℕ → Fin np → ℝ) (fv : (k : Fin d) → ℕ → Fin (nv k) → ℝ)
    (g : ℕ → Fin mp → ℝ) (gv : (k : Fin d) → ℕ → Fin (mv k) → ℝ) :
    ∃ r r', C.forward gl gm gb cb nt (C.scaleP f) (C.scaleV fv) Init.atRest = .ok r ∧
      C.exchanged.forward gl gm gb cb nt (C.exchanged.scaleP g) (C.exchanged.scaleV gv) Init.atRest =
        .ok r' ∧
      ∀ T, T < nt / C.ratio * C.ratio →
        ∑ t ∈ Finset.range T,
            (∑ i, f t i * (r'.pressure (T - 1 - t) i / C.bulk ((C.srcP i).getD fun _ => 0))
              - ∑ k, ∑ i, fv k t i * r'.rcdV k (T - t) i) =
          ∑ t ∈ Finset.range T,
            (∑ i, g t i * (r.pressure (T - 1 - t) i / C.bulk ((C.rcvP i).getD fun _ => 0))
              - ∑ k, ∑ i, gv k t i * r.rcdV k (T - t) i) := by
  refine ⟨_, _, forward_eq h gl gm gb cb nt _ _ _ hr hcf,
    forward_eq h.exchanged gl gm gb cb nt _ _ _ hr hcf, fun T hT => ?_⟩
  obtain ⟨z1, z2, z3⟩ := prepare_atRest C
  have main := run_reciprocity h hn (fun i c hi => bulk_ne hd (hk i c hi))
    (fun i c hi => bulk_ne hd (hk' i c hi)) f fv g gv (prepare_good Init.atRest) z1 z2 z3 T
  simp only [sample_weight hd, mul_neg, Finset.sum_neg_distrib, neg_neg] at main
  have e : C.exchanged.ratio = C.ratio := rfl
  simp only [e, FResult.pressure]
  have hlt : ∀ t, T - 1 - t < nt / C.ratio * C.ratio ∧ T - t < nt / C.ratio * C.ratio := fun t => by
    omega
  simp only [if_pos (hlt _).1, if_pos (hlt _).2]
  exact main

/-- **C76** Body forces and velocity receivers may be exchanged. -/
theorem C76_elastic_exchange_velocity (h : C.WF) (hn : C.NoPml) (hd : 0 < d) (hr : 0 < C.ratio)
    (hk : ∀ i c, C.srcP i = some c → C.bulk c ≠ 0) (hk' : ∀ i c, C.rcvP i = some c → C.bulk c ≠ 0)
    (gl gm gb : Bool) (cb : Option ℕ) (nt : ℕ) (hcf : 0 < nt → 0 < cb.getD (nt / C.ratio))
    (k l : Fin d) (i : Fin (nv k)) (j : Fin (mv l)) (q : ℕ → ℝ) :
    ∃ r r', C.forward gl gm gb cb nt (C.scaleP silent) (C.scaleV (emitV k i q)) Init.atRest = .ok r ∧
      C.exchanged.forward gl gm gb cb nt (C.exchanged.scaleP silent)
        (C.exchanged.scaleV (emitV l j q)) Init.atRest = .ok r' ∧
      ∀ t, r.rcdV l t j = r'.rcdV k t i := by
  refine ⟨_, _, forward_eq h gl gm gb cb nt _ _ _ hr hcf,
    forward_eq h.exchanged gl gm gb cb nt _ _ _ hr hcf, fun t => ?_⟩
  obtain ⟨z1, z2, z3⟩ := prepare_atRest C
  have key := responses_eq
    (fun q n => sample (C.rcvV l)
      ((C.run (C.scaleP silent) (C.scaleV (emitV k i q)) (C.prepare Init.atRest) (n + 1)).v l) j)
    (fun q n => sample (C.srcV k) ((C.exchanged.run (C.exchanged.scaleP silent)
      (C.exchanged.scaleV (emitV l j q)) (C.prepare Init.atRest) (n + 1)).v k) i)
    (fun f g T => by
      have := run_reciprocity h hn (fun i c hi => bulk_ne hd (hk i c hi))
        (fun i c hi => bulk_ne hd (hk' i c hi)) silent (emitV k i f) silent (emitV l j g)
        (prepare_good Init.atRest) z1 z2 z3 T
      simp only [sum_emitV, sum_silent, neg_zero, zero_sub, Finset.sum_neg_distrib, neg_inj] at this
      have e : ∀ t ∈ Finset.range T, T - t = T - 1 - t + 1 := fun t ht => by
        have := Finset.mem_range.1 ht; omega
      refine (Finset.sum_congr rfl fun t ht => ?_).trans (this.trans (Finset.sum_congr rfl fun t ht => ?_))
      · rw [e t ht]
      · rw [e t ht]) q
  have e : C.exchanged.ratio = C.ratio := rfl
  have e2 : C.exchanged.prepare Init.atRest = C.prepare Init.atRest := rfl
  simp only [e, e2]
  split_ifs
  · cases t with
    | zero => simp only [Cfg.run, z1, Pi.zero_apply, sample_zero]
    | succ t => exact key t
  · rfl

/-- **C76** Pressure traces of an exchanged pressure source and receiver are proportional to the bulk
modulus at the point of the receiver. -/
theorem C76_elastic_exchange_pressure (h : C.WF) (hn : C.NoPml) (hd : 0 < d) (hr : 0 < C.ratio)
    (hk : ∀ i c, C.srcP i = some c → C.bulk c ≠ 0) (hk' : ∀ i c, C.rcvP i = some c → C.bulk c ≠ 0)
    (gl gm gb : Bool) (cb : Option ℕ) (nt : ℕ) (hcf : 0 < nt → 0 < cb.getD (nt / C.ratio))
    (i : Fin np) (j : Fin mp) (x y : Cell d) (hx : C.srcP i = some x) (hy : C.rcvP j = some y)
    (q : ℕ → ℝ) :
    ∃ r r', C.forward gl gm gb cb nt (C.scaleP (emit i q)) (C.scaleV silentV) Init.atRest = .ok r ∧
      C.exchanged.forward gl gm gb cb nt (C.exchanged.scaleP (emit j q)) (C.exchanged.scaleV silentV)
        Init.atRest = .ok r' ∧
      ∀ t, r.pressure t j / C.bulk y = r'.pressure t i / C.bulk x := by
  refine ⟨_, _, forward_eq h gl gm gb cb nt _ _ _ hr hcf,
    forward_eq h.exchanged gl gm gb cb nt _ _ _ hr hcf, fun t => ?_⟩
  obtain ⟨z1, z2, z3⟩ := prepare_atRest C
  have key := responses_eq
    (fun q n => (-sample C.rcvP (C.run (C.scaleP (emit i q)) (C.scaleV silentV)
      (C.prepare Init.atRest) n).prs j / d) / C.bulk y)
    (fun q n => (-sample C.srcP (C.exchanged.run (C.exchanged.scaleP (emit j q))
      (C.exchanged.scaleV silentV) (C.prepare Init.atRest) n).prs i / d) / C.bulk x)
    (fun f g T => by
      have := run_reciprocity h hn (fun i c hi => bulk_ne hd (hk i c hi))
        (fun i c hi => bulk_ne hd (hk' i c hi)) (emit i f) silentV (emit j g) silentV
        (prepare_good Init.atRest) z1 z2 z3 T
      simpa only [sum_emit, sum_silentV, sub_zero, sample_weight hd, mul_neg, Finset.sum_neg_distrib, neg_neg, hx, hy,
        Option.getD_some] using this) q t
  have e : C.exchanged.ratio = C.ratio := rfl
  simp only [e, FResult.pressure]
  split_ifs
  · exact key
  · simp

/-- **C76** Between pressure and velocity. -/
theorem C76_elastic_exchange_mixed (h : C.WF) (hn : C.NoPml) (hd : 0 < d) (hr : 0 < C.ratio)
    (hk : ∀ i c, C.srcP i = some c → C.bulk c ≠ 0) (hk' : ∀ i c, C.rcvP i = some c → C.bulk c ≠ 0)
    (gl gm gb : Bool) (cb : Option ℕ) (nt : ℕ) (hcf : 0 < nt → 0 < cb.getD (nt / C.ratio))
    (l : Fin d) (i : Fin np) (j : Fin (mv l)) (x : Cell d) (hx : C.srcP i = some x) (q : ℕ → ℝ) :
    ∃ r r', C.forward gl gm gb cb nt (C.scaleP (emit i q)) (C.scaleV silentV) Init.atRest = .ok r ∧
      C.exchanged.forward gl gm gb cb nt (C.exchanged.scaleP silent)
        (C.exchanged.scaleV (emitV l j q)) Init.atRest = .ok r' ∧
      ∀ t, t + 1 < nt / C.ratio * C.ratio → r.rcdV l (t + 1) j = -(r'.pressure t i / C.bulk x) := by
  refine ⟨_, _, forward_eq h gl gm gb cb nt _ _ _ hr hcf,
    forward_eq h.exchanged gl gm gb cb nt _ _ _ hr hcf, fun t ht => ?_⟩
  obtain ⟨z1, z2, z3⟩ := prepare_atRest C
  have key := responses_eq
    (fun q n => -sample (C.rcvV l)
      ((C.run (C.scaleP (emit i q)) (C.scaleV silentV) (C.prepare Init.atRest) (n + 1)).v l) j)
    (fun q n => (-sample C.srcP (C.exchanged.run (C.exchanged.scaleP silent)
      (C.exchanged.scaleV (emitV l j q)) (C.prepare Init.atRest) n).prs i / d) / C.bulk x)
    (fun f g T => by
      have := run_reciprocity h hn (fun i c hi => bulk_ne hd (hk i c hi))
        (fun i c hi => bulk_ne hd (hk' i c hi)) (emit i f) silentV silent (emitV l j g)
        (prepare_good Init.atRest) z1 z2 z3 T
      simp only [sum_emit, sum_emitV, sum_silent, sum_silentV, zero_sub, sub_zero, neg_zero,
        sample_weight hd, mul_neg, Finset.sum_neg_distrib, neg_neg, hx, Option.getD_some] at this
      have e : ∀ t ∈ Finset.range T, T - t = T - 1 - t + 1 := fun t ht => by
        have := Finset.mem_range.1 ht; omega
      rw [this, ← Finset.sum_neg_distrib]
      refine Finset.sum_congr rfl fun t ht => ?_
      rw [e t ht, mul_neg]) q t
  have e : C.exchanged.ratio = C.ratio := rfl
  simp only [e, FResult.pressure, if_pos ht, if_pos (Nat.lt_of_succ_lt ht)]
  exact neg_eq_iff_eq_neg.1 key

/-- The hypotheses hold for a model with variable parameters. -/
theorem exEFree_bulk (i : Fin 2) (c : Cell 2) (h : exEFree.srcP i = some c) : exEFree.bulk c ≠ 0 := by
  have h' : (if i = 0 then some ![4, 5] else none) = some c := h
  split_ifs at h'
  rw [← Option.some.inj h']
  change exElam ![4, 5] + 2 * exEmu ![4, 5] / (2 : ℕ) ≠ 0
  norm_num [exElam, exEmu]

theorem exEFree_bulk' (i : Fin 1) (c : Cell 2) (h : exEFree.rcvP i = some c) : exEFree.bulk c ≠ 0 := by
  have h' : some ![4, 7] = some c := h
  rw [← Option.some.inj h']
  change exElam ![4, 7] + 2 * exEmu ![4, 7] / (2 : ℕ) ≠ 0
  norm_num [exElam, exEmu]

example : ∃ r r', exEFree.forward true true true none 14 (exEFree.scaleP silent)
      (exEFree.scaleV (emitV 0 0 fun t => (t : ℝ) + 1)) Init.atRest = .ok r ∧
    exEFree.exchanged.forward true true true none 14 (exEFree.exchanged.scaleP silent)
      (exEFree.exchanged.scaleV (emitV 1 0 fun t => (t : ℝ) + 1)) Init.atRest = .ok r' ∧
    ∀ t, r.rcdV 1 t 0 = r'.rcdV 0 t 0 :=
  C76_elastic_exchange_velocity exEFree_wf exEFree_nopml (by decide) (by decide) exEFree_bulk
    exEFree_bulk' true true true none 14 (by decide) 0 1 0 0 _

/-! ### Pressure sources and receivers cannot be exchanged -/

open Dw.Acoustic (cl cl_shift)

/-- Fluid with bulk modulus 1 at the source and 2 elsewhere. -/
noncomputable def exBulk : Cfg 1 1 1 (fun _ => 0) (fun _ => 0) ℝ where
  acc := .a2
  n := fun _ => 6
  w0 := fun _ => 0
  w1 := fun _ => 0
  dx := fun _ => 1
  dt := 1 / 2
  a := fun _ _ => 0
  b := fun _ _ => 0
  ah := fun _ _ => 0
  bh := fun _ _ => 0
  lam := fun c => if c 0 = 2 then 1 else 2
  mu := fun _ => 0
  muS := fun _ _ => 0
  B := fun _ _ => 1
  srcP := fun _ => some (cl 2)
  srcV := fun _ _ => none
  rcvP := fun _ => some (cl 3)
  rcvV := fun _ _ => none
  ratio := 1

theorem exBulk_inner (x : ℤ) : exBulk.Inner (cl x) ↔ 1 ≤ x ∧ x < 6 := by
  constructor
  · intro h
    have := h 0
    simp only [exBulk, Acc.pad, cl] at this
    omega
  · intro h k
    simp only [exBulk, Acc.pad, cl]
    omega

theorem exBulk_innerAt (L : Loc 1) (x : ℤ) (h : 1 ≤ x ∧ x < 5) : exBulk.InnerAt L (cl x) :=
  ⟨(exBulk_inner x).2 (by omega), fun k _ => by simp only [exBulk, Acc.pad, cl]; omega⟩

theorem exBulk_wf : exBulk.WF where
  w0_nonneg := fun _ => le_refl 0
  w1_nonneg := fun _ => le_refl 0
  size := fun _ => by simp [exBulk, Acc.pad]
  pa_mid := fun hb _ _ _ => by cases hb <;> rfl
  pb_mid := fun hb _ _ _ => by cases hb <;> rfl
  srcP_in := fun _ c h => by
    have h' : some (cl 2) = some c := h
    rw [← Option.some.inj h']; exact (exBulk_inner 2).2 (by omega)
  srcV_in := nofun
  rcvP_in := fun _ c h => by
    have h' : some (cl 3) = some c := h
    rw [← Option.some.inj h']; exact (exBulk_inner 3).2 (by omega)
  rcvV_in := nofun

theorem exBulk_nopml : exBulk.NoPml := fun _ _ => ⟨rfl, rfl, rfl, rfl⟩

/-- A unit impulse. -/
def impulse : ℕ → ℝ := fun t => if t = 0 then 1 else 0

theorem exBulk_next (qp : Fin 1 → ℝ) (qv : (k : Fin 1) → Fin 0 → ℝ) (s : Wavefields 1 ℝ) (x : ℤ)
    (hx : 1 ≤ x ∧ x < 5) :
    (exBulk.next qp qv s).v 0 (cl x) = s.v 0 (cl x) + 1 / 2 * (s.s 0 (cl (x + 1)) - s.s 0 (cl x)) ∧
    (exBulk.next qp qv s).s 0 (cl x) = s.s 0 (cl x) + 1 / 2 * (if x = 2 then 1 else 2) *
        ((exBulk.next qp qv s).v 0 (cl x) - (exBulk.next qp qv s).v 0 (cl (x - 1)))
      + if x = 2 then qp 0 else 0 := by
  have h1 : ∀ L, exBulk.InnerAt L (cl x) := fun L => exBulk_innerAt L x hx
  have hsig : s.sig 0 0 = s.s 0 := by simp [Wavefields.sig, sigOf, pick_self]
  constructor
  · simp only [Cfg.next, Cfg.halfS, Cfg.halfV, Cfg.divS, str_nopml exBulk_nopml, if_pos (h1 _),
      Fin.sum_univ_one, hsig]
    simp only [Cfg.D, cD, vLoc, cl_shift]
    simp [exBulk, cSH1, inject]
  · have hv : (exBulk.next qp qv s).v = (exBulk.halfV qv s).v := rfl
    rw [hv]
    simp only [Cfg.next, Cfg.halfS, Cfg.gradV, str_nopml exBulk_nopml, if_pos (h1 _), Fin.sum_univ_one]
    simp only [Cfg.D, cD, sLoc_diag, cl_shift]
    have hs : (exBulk.halfV qv s).s = s.s := rfl
    rw [hs]
    generalize (exBulk.halfV qv s).v 0 = v
    have hi : inject exBulk.srcP qp (cl x) = if x = 2 then qp 0 else 0 := by
      have : (some (cl 2) = some (cl x)) ↔ x = 2 := by
        constructor
        · intro h
          exact (congrFun (Option.some.inj h) 0).symm
        · rintro rfl; rfl
      simp only [inject, Fin.sum_univ_one]
      change (if some (cl 2) = some (cl x) then _ else _) = _
      simp only [this]
    rw [hi]
    by_cases h2 : x = 2
    · subst h2
      simp [exBulk, cS1, cl]
    · simp [exBulk, cS1, cl, h2]
      ring_nf

theorem exBulk_value : (exBulk.run (exBulk.scaleP (emit 0 impulse)) (exBulk.scaleV silentV)
    (exBulk.prepare Init.atRest) 2).prs (cl 3) = -(1 / 4) := by
  obtain ⟨z1, z2, z3⟩ := prepare_atRest exBulk
  set run := exBulk.run (exBulk.scaleP (emit 0 impulse)) (exBulk.scaleV silentV)
    (exBulk.prepare Init.atRest) with hrun
  have n1 := fun x hx => exBulk_next (exBulk.scaleP (emit 0 impulse) 0)
    (fun k => exBulk.scaleV silentV k 0) (run 0) x hx
  have n2 := fun x hx => exBulk_next (exBulk.scaleP (emit 0 impulse) 1)
    (fun k => exBulk.scaleV silentV k 1) (run 1) x hx
  have v0 : (run 0).v = 0 := z1
  have s0 : (run 0).s = 0 := z2
  have q0 : exBulk.scaleP (emit 0 impulse) 0 0 = -(1 / 2) := by
    simp [Cfg.scaleP, emit, impulse, exBulk]
  have e1 : exBulk.next (exBulk.scaleP (emit 0 impulse) 0) (fun k => exBulk.scaleV silentV k 0) (run 0) =
    run 1 := rfl
  have e2 : exBulk.next (exBulk.scaleP (emit 0 impulse) 1) (fun k => exBulk.scaleV silentV k 1) (run 1) =
    run 2 := rfl
  rw [e1] at n1
  rw [e2] at n2
  simp only [v0, s0, q0, Pi.zero_apply] at n1
  have a1 := n1 1 (by omega)
  have a2 := n1 2 (by omega)
  have a3 := n1 3 (by omega)
  have a4 := n1 4 (by omega)
  have b2 := n2 2 (by omega)
  have b3 := n2 3 (by omega)
  simp only [Wavefields.prs, Fin.sum_univ_one]
  norm_num at a1 a2 a3 a4 b2 b3
  linarith [a1.1, a2.1, a2.2, a3.1, a3.2, a4.1, a4.2, b2.1, b3.1, b3.2]

/-- **C76** The statement that the pressure traces are equal after exchanging a pressure source and a
pressure receiver is false, because the source is not scaled by the bulk modulus. -/
theorem C76_pressure_not_reciprocal :
    ∃ r r', exBulk.forward false false false none 3 (exBulk.scaleP (emit 0 impulse))
        (exBulk.scaleV silentV) Init.atRest = .ok r ∧
      exBulk.exchanged.forward false false false none 3 (exBulk.exchanged.scaleP (emit 0 impulse))
        (exBulk.exchanged.scaleV silentV) Init.atRest = .ok r' ∧
      r.pressure 2 0 ≠ r'.pressure 2 0 := by
  have hb2 : exBulk.bulk (cl 2) = 1 := by simp [Cfg.bulk, exBulk, cl]
  have hb3 : exBulk.bulk (cl 3) = 2 := by simp [Cfg.bulk, exBulk, cl]
  obtain ⟨r, r', h1, h2, h3⟩ := C76_elastic_exchange_pressure exBulk_wf exBulk_nopml (by decide)
    (by decide) (fun i c h => by
      have h' : some (cl 2) = some c := h
      rw [← Option.some.inj h', hb2]; norm_num)
    (fun i c h => by
      have h' : some (cl 3) = some c := h
      rw [← Option.some.inj h', hb3]; norm_num) false false false none 3 (by decide) 0 0 (cl 2) (cl 3)
    rfl rfl impulse
  refine ⟨r, r', h1, h2, fun he => ?_⟩
  have h4 := h3 2
  rw [← he, hb2, hb3] at h4
  rw [forward_eq exBulk_wf _ _ _ _ _ _ _ _ (by decide) (by decide)] at h1
  have hp : r.pressure 2 0 = 1 / 4 := by
    rw [← Except.ok.inj h1]
    have ht : 2 < 3 / exBulk.ratio * exBulk.ratio := by decide
    simp only [FResult.pressure, if_pos ht]
    change -(exBulk.run _ _ _ 2).prs (cl 3) / _ = _
    rw [exBulk_value]
    norm_num
  rw [hp] at h4
  norm_num at h4

end Dw.Elastic
