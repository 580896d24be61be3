import Verif.Props.UserLinearBorn
import Verif.Props.UserNear

/-!
# The scattered field of a call is linear in the scattering potential
-/

namespace Dw.Spec

variable {d : ℕ} {G : Grid d} (α β : ℝ)

theorem Grid.D1_comb (k : Fin d) (u u' : Fld d ℝ) (c : Cell d) :
    G.D1 k (fun c => α * u c + β * u' c) c = α * G.D1 k u c + β * G.D1 k u' c := by
  unfold Grid.D1 central1
  rw [← mul_div_assoc, ← mul_div_assoc, ← add_div, Finset.mul_sum, Finset.mul_sum, ← Finset.sum_add_distrib]
  exact congrArg (· / _) (Finset.sum_congr rfl fun j _ => by ring)

theorem Grid.D2_comb (k : Fin d) (u u' : Fld d ℝ) (c : Cell d) :
    G.D2 k (fun c => α * u c + β * u' c) c = α * G.D2 k u c + β * G.D2 k u' c := by
  unfold Grid.D2 central2
  rw [← mul_div_assoc, ← mul_div_assoc, ← add_div, Finset.mul_sum, Finset.mul_sum, ← Finset.sum_add_distrib]
  exact congrArg (· / _) (Finset.sum_congr rfl fun j _ => by ring)

theorem Grid.flux_comb (k : Fin d) (u u' p p' : Fld d ℝ) (c : Cell d) :
    G.flux k (fun c => α * u c + β * u' c) (fun c => α * p c + β * p' c) c = α * G.flux k u p c + β * G.flux k u' p' c := by
  unfold Grid.flux
  rw [G.D1_comb, G.D2_comb]
  have : (fun c : Cell d => G.a k (c k) * (α * p c + β * p' c)) = fun c =>
      α * (G.a k (c k) * p c) + β * (G.a k (c k) * p' c) := by
    funext c
    ring
  rw [this, G.D1_comb]
  ring

theorem Grid.lap_comb (u u' : Fld d ℝ) (p p' z z' : Fin d → Fld d ℝ) (c : Cell d) :
    G.lap (fun c => α * u c + β * u' c) (fun k c => α * p k c + β * p' k c) (fun k c => α * z k c + β * z' k c) c =
      α * G.lap u p z c + β * G.lap u' p' z' c := by
  unfold Grid.lap
  rw [Finset.mul_sum, Finset.mul_sum, ← Finset.sum_add_distrib]
  refine Finset.sum_congr rfl fun k _ => ?_
  rw [G.flux_comb]
  ring

/-- Scattered fields of the same background for a linear combination of two changes of the velocity. -/
theorem Grid.Scattered.comb {vel scat scat' : Fld d ℝ} {q : ℕ → Fld d ℝ} {u : ℕ → Fld d ℝ} {psi zeta : ℕ → Fin d → Fld d ℝ}
    {w w' : ℕ → Fld d ℝ} {ps ze ps' ze' : ℕ → Fin d → Fld d ℝ} (h : G.Scattered vel scat q u psi zeta w ps ze)
    (h' : G.Scattered vel scat' q u psi zeta w' ps' ze') :
    G.Scattered vel (fun c => α * scat c + β * scat' c) q u psi zeta (fun t c => α * w t c + β * w' t c)
      (fun t k c => α * ps t k c + β * ps' t k c) (fun t k c => α * ze t k c + β * ze' t k c) := by
  refine ⟨fun t c hc => ?_, fun t c hc => ?_, fun t k c hc => ?_, fun t k c hc => ?_⟩
  · obtain ⟨o1, o2⟩ := h.outside t c hc
    obtain ⟨o3, o4⟩ := h'.outside t c hc
    exact ⟨by rw [o1, o3]; ring, fun k => ⟨by rw [(o2 k).1, (o4 k).1]; ring, by rw [(o2 k).2, (o4 k).2]; ring⟩⟩
  · rw [G.lap_comb]
    linear_combination α * h.wave t c hc + β * h'.wave t c hc
  · rw [G.D1_comb, h.psi_next t k c hc, h'.psi_next t k c hc]
    ring
  · rw [G.flux_comb, h.zeta_next t k c hc, h'.zeta_next t k c hc]
    ring

end Dw.Spec

namespace Dw.Setup

variable {d : ℕ}

theorem given_comb (P : Plan d) (w : Option (WfT d)) (α β : ℝ) (x y : ℕ → Fld d ℝ) (s : ℕ) (c : Cell d) :
    P.given (wfWith w fun s c => α * x s c + β * y s c) s c = α * P.given (wfWith w x) s c + β * P.given (wfWith w y) s c := by
  cases w with
  | none => simp [Plan.given, wfWith]
  | some w => rfl

theorem locValue_comb (o : Option LocT) (s i : ℕ) (α β : ℝ) (u u' : Fld d ℝ) :
    locValue o s i (fun c => α * u c + β * u' c) = α * locValue o s i u + β * locValue o s i u' := by
  unfold locValue
  cases locCell (d := d) o s i with
  | none => simp
  | some c => rfl

theorem startsFrom_comb {P : Plan d} {s : ℕ} {w : Born.UWf d} {x y : ℕ → Scalar.Wavefields d ℝ} (α β : ℝ)
    {u u' : ℕ → Fld d ℝ} {psi zeta psi' zeta' : ℕ → Fin d → Fld d ℝ} (h : P.StartsFrom s (w.give x) u psi zeta)
    (h' : P.StartsFrom s (w.give y) u' psi' zeta') :
    P.StartsFrom s (w.give fun s => (x s).comb α β (y s)) (fun t c => α * u t c + β * u' t c)
      (fun t k c => α * psi t k c + β * psi' t k c) (fun t k c => α * zeta t k c + β * zeta' t k c) := by
  intro c hc
  obtain ⟨i1, i2, i3⟩ := h c hc
  obtain ⟨j1, j2, j3⟩ := h' c hc
  dsimp only
  refine ⟨?_, ?_, fun k => ⟨fun hb => ?_, fun hb => ?_⟩⟩
  · rw [i1, j1]
    exact (given_comb P _ α β _ _ s c).symm
  · rw [i2, j2]
    exact (given_comb P _ α β _ _ s c).symm
  · rw [((i3 k).1 hb).1, ((i3 k).1 hb).2, ((j3 k).1 hb).1, ((j3 k).1 hb).2]
    constructor <;> ring
  · rw [((i3 k).2 hb).1, ((i3 k).2 hb).2, ((j3 k).2 hb).1, ((j3 k).2 hb).2]
    exact ⟨(given_comb P _ α β _ _ s c).symm, (given_comb P _ α β _ _ s c).symm⟩

theorem endsIn_comb {P : Plan d} {N : ℕ} {o o' : Scalar.Wavefields d ℝ} (α β : ℝ) {u u' : ℕ → Fld d ℝ}
    {psi zeta psi' zeta' : ℕ → Fin d → Fld d ℝ} (h : P.EndsIn N o u psi zeta) (h' : P.EndsIn N o' u' psi' zeta') :
    P.EndsIn N (o.comb α β o') (fun t c => α * u t c + β * u' t c) (fun t k c => α * psi t k c + β * psi' t k c)
      (fun t k c => α * zeta t k c + β * zeta' t k c) := by
  intro c
  obtain ⟨i1, i2, i3⟩ := h c
  obtain ⟨j1, j2, j3⟩ := h' c
  refine ⟨?_, ?_, fun k => ⟨?_, ?_⟩⟩
  · dsimp only
    rw [← i1, ← j1]; rfl
  · dsimp only
    rw [← i2, ← j2]; rfl
  · dsimp only
    rw [← (i3 k).1, ← (j3 k).1]; rfl
  · dsimp only
    rw [← (i3 k).2, ← (j3 k).2]; rfl

/-- A model continued by zero. -/
theorem extendZero_comb (G : Spec.Grid d) (α β : ℝ) (m m' : Fld d ℝ) :
    G.extendZero (fun c => α * m c + β * m' c) = fun c => α * G.extendZero m c + β * G.extendZero m' c := by
  funext c
  unfold Spec.Grid.extendZero
  by_cases h : ∀ k, G.lo k ≤ c k ∧ c k ≤ G.hi k
  · rw [if_pos h, if_pos h, if_pos h]
  · rw [if_neg h, if_neg h, if_neg h]
    ring

end Dw.Setup

namespace Dw.Born

open Setup Resample
open Scalar (upAmps downS downS_comb downS_len Wavefields)

variable {d : ℕ}

/-- The call with other values of the scattering potential and of the given initial scattered wavefields. -/
def UArgs.scattering (A : UArgs d) (m : ℕ → Fld d ℝ) (x : ℕ → Wavefields d ℝ) : UArgs d :=
  { A with scatter := {A.scatter with val := m}, wfsc := A.wfsc.give x }

theorem good_scattering {A : UArgs d} {P : Plan d} (h : A.setup.Good P) (hnb : 0 < P.nb) (m : ℕ → Fld d ℝ)
    (x : ℕ → Wavefields d ℝ) : (A.scattering m x).setup.Good
      (P.withModels false [(A.v, .replicate), ({A.scatter with val := m}, .constant)]) :=
  (good_models (scatter := {A.scatter with val := m}) h hnb ⟨rfl, rfl⟩ ⟨rfl, rfl⟩ rfl (.inr rfl)).revalue
    (amps := [A.amps, A.amps]) (wfs := A.wf.list ++ (A.wfsc.give x).list) rfl
    (by
      show (A.wf.list ++ (A.wfsc.give x).list).map (Option.map WfT.size) = (A.wf.list ++ A.wfsc.list).map (Option.map WfT.size)
      rw [List.map_append, List.map_append, UWf.give_list])

/-- **C128** If a call of `scalar_born` passes the checks, the scattered wavefield and its traces are linear in the
scattering potential and the initial scattered wavefields, and the background field does not depend on them. -/
theorem C128_linear_in_scatter (A : UArgs d) (P : Plan d) (s : ℕ) (cf : ℤ) (h : Fwd A P s cf) (α β : ℝ) (m n : ℕ → Fld d ℝ)
    (x y : ℕ → Wavefields d ℝ) :
    ∃ r r' rc, (A.scattering m x).born s = .ok (some r) ∧ (A.scattering n y).born s = .ok (some r') ∧
      (A.scattering (fun s c => α * m s c + β * n s c) fun s => (x s).comb α β (y s)).born s = .ok (some rc) ∧
      (r'.out = r.out ∧ ∀ i < locCount A.bgRcv, r'.bgTraces i = r.bgTraces i) ∧
      rc.outsc = r.outsc.comb α β r'.outsc ∧
      ∀ i < locCount A.rcv, rc.traces i = (r.traces i).comb α β (r'.traces i) ∧ (r'.traces i).len = (r.traces i).len := by
  have hnb : 0 < P.nb := by have := h.lt; omega
  have sch := fun m x => C91_born_scheme (A.scattering m x) _ s cf (plan_ok.2 (good_scattering h.good hnb m x))
    h.lt h.pml h.loc h.freq h.interval h.nt
  obtain ⟨r, u, psi, zeta, w, ps, ze, hc, hw, hsc, hi, hi2, he, he2, hb, ht⟩ := sch m x
  obtain ⟨r', u', psi', zeta', w', ps', ze', hc', hw', hsc', hi', hi2', he', he2', hb', ht'⟩ := sch n y
  obtain ⟨rc, uc, psic, zetac, wc, psc, zec, hcc, hwc, hscc, hic, hi2c, hec, he2c, hbc, htc⟩ :=
    sch (fun s c => α * m s c + β * n s c) fun s => (x s).comb α β (y s)
  obtain ⟨rfl, rfl, rfl⟩ := hw.unique hw' fun c => startsFrom_zero (P := P) (w := A.wf) hw'.outside hw.outside hi' hi c
  obtain ⟨rfl, rfl, rfl⟩ := hw.unique hwc fun c => startsFrom_zero (P := P) (w := A.wf) hwc.outside hw.outside hic hi c
  have hcomb := Spec.Grid.Scattered.comb α β hsc hsc'
  have e := hscc.unique (by
      have e := extendZero_comb P.grid α β (ModelT.shot { A.scatter with val := m } s) (ModelT.shot { A.scatter with val := n } s)
      exact e.symm ▸ hcomb) fun c => startsFrom_zero (P := P) (w := A.wfsc.give fun s => (x s).comb α β (y s)) hcomb.outside hscc.outside
        (startsFrom_comb α β hi2 hi2') hi2c c
  obtain ⟨rfl, rfl, rfl⟩ := e
  refine ⟨r, r', rc, hc, hc', hcc, ⟨endsIn_unique he he', fun i hl => ?_⟩, endsIn_unique (endsIn_comb α β he2 he2') he2c,
    fun i hl => ?_⟩
  · rw [hb i hl, hb' i hl]
    rfl
  · rw [ht i hl, ht' i hl, htc i hl]
    refine ⟨?_, downS_len h.good _ _ _⟩
    refine Eq.trans ?_ (downS_comb h.good A.opts.timeTaper α β
      (fun t => if t < P.steps then locValue A.rcv s i (w (t + 1)) else 0)
      fun t => if t < P.steps then locValue A.rcv s i (w' (t + 1)) else 0)
    refine congrArg (fun f : ℕ → ℝ => downS P A.opts.timeTaper ⟨P.nt.toNat, f⟩) (funext fun t => ?_)
    by_cases hT : t < P.steps
    · rw [if_pos hT, if_pos hT]
      exact (if_pos hT).trans (locValue_comb _ _ _ _ _ _ _)
    · rw [if_neg hT, if_neg hT, mul_zero, mul_zero, add_zero]
      exact if_neg hT

/-- Twice one potential and three times another one. -/
example (w : ℕ → Wavefields 2 ℝ) : ∃ r r' rc, ((exG true).scattering (fun _ c => c 0) w).born 1 = .ok (some r) ∧
    ((exG true).scattering (fun _ c => c 1) w).born 1 = .ok (some r') ∧
    ((exG true).scattering (fun _ c => 2 * c 0 + 3 * c 1) fun s => (w s).comb 2 3 (w s)).born 1 = .ok (some rc) ∧
    rc.traces 0 = (r.traces 0).comb 2 3 (r'.traces 0) := by
  obtain ⟨r, r', rc, h1, h2, h3, -, -, h4⟩ := C128_linear_in_scatter (exG true) _ 1 1 (exG_fwd true 1 (by decide)) 2 3
    (fun _ c => c 0) (fun _ c => c 1) w w
  exact ⟨r, r', rc, h1, h2, h3, (h4 0 (by decide)).1⟩

end Dw.Born
