import Verif.Elastic.Backward
import Verif.Acoustic.Adjoint

/-!
# Dot-product identities and derivatives of the elastic recursions
-/

namespace Dw.Elastic

open Dw.Scalar (inject sample dot_congr_left dot_congr_right dot_neg_right dot_sum_left dot_sum_right)
open Dw.Acoustic (dot_inject_left hasDerivAt_cS1 hasDerivAt_cSH1 hasDeriv_lin hasDeriv_inject pad_pos)

variable {d np mp : ℕ} {nv mv : Fin d → ℕ}

section
variable {R : Type*} [Field R] {C : Cfg d np mp nv mv R}

/-- A sum over all pairs of dimensions. -/
theorem sum_pairs {M : Type*} [AddCommMonoid M] (F : Fin d → Fin d → M) :
    ∑ i, ∑ j, F i j = ∑ i, F i i + ∑ p : Sh d, (F p.1.1 p.1.2 + F p.1.2 p.1.1) := by
  rw [← Fintype.sum_prod_type', Finset.sum_add_distrib]
  have e1 : ∑ p : Sh d, F p.1.1 p.1.2 =
      ∑ x ∈ (Finset.univ : Finset (Fin d × Fin d)).filter (fun x => x.1 < x.2), F x.1 x.2 :=
    (Finset.sum_subtype _ (by simp) fun x : Fin d × Fin d => F x.1 x.2).symm
  have e2 : ∑ p : Sh d, F p.1.2 p.1.1 =
      ∑ x ∈ (Finset.univ : Finset (Fin d × Fin d)).filter (fun x => x.2 < x.1), F x.1 x.2 := by
    rw [← Finset.sum_subtype ((Finset.univ : Finset (Fin d × Fin d)).filter (fun x => x.1 < x.2))
      (by simp) fun x : Fin d × Fin d => F x.2 x.1]
    refine Finset.sum_equiv (Equiv.prodComm _ _) (by simp) (by simp)
  have e3 : ∑ i, F i i =
      ∑ x ∈ (Finset.univ : Finset (Fin d × Fin d)).filter (fun x => x.1 = x.2), F x.1 x.2 := by
    refine Finset.sum_bij (fun i _ => (i, i)) (by simp) (by simp) ?_ (by simp)
    rintro ⟨i, j⟩ h
    simp only [Finset.mem_filter, Finset.mem_univ, true_and] at h
    exact ⟨i, Finset.mem_univ _, by rw [h]⟩
  rw [e1, e2, e3, ← Finset.sum_filter_add_sum_filter_not Finset.univ
    (fun x : Fin d × Fin d => x.1 = x.2)]
  congr 1
  rw [← Finset.sum_filter_add_sum_filter_not _ (fun x : Fin d × Fin d => x.1 < x.2),
    Finset.filter_filter, Finset.filter_filter]
  congr 1
  · refine Finset.sum_congr (Finset.filter_congr fun x _ => ?_) fun _ _ => rfl
    exact ⟨fun h => h.2, fun h => ⟨h.ne, h⟩⟩
  · refine Finset.sum_congr (Finset.filter_congr fun x _ => ?_) fun _ _ => rfl
    exact ⟨fun h => lt_of_le_of_ne (not_lt.1 h.2) (Ne.symm h.1), fun h => ⟨h.ne', h.not_gt⟩⟩

/-- The updated integer points. -/
def Cfg.S (C : Cfg d np mp nv mv R) : Finset (Cell d) :=
  box (fun _ => (C.acc.pad : ℤ)) fun k => C.n k - C.acc.pad + 1

omit [Field R] in
theorem Cfg.mem_S {c : Cell d} : c ∈ C.S ↔ C.Inner c := mem_box

/-- The bilinear form preserved by a step. -/
def Cfg.pair (C : Cfg d np mp nv mv R) (s l : Wavefields d R) : R :=
  ∑ i, dot C.S (s.v i) (l.v i) + ∑ i, dot C.S (s.s i) (l.s i) + ∑ p, dot C.S (s.sh p) (l.sh p)
    + ∑ i, ∑ j, dot C.S (s.mv i j) (l.mv i j) + ∑ i, ∑ j, dot C.S (s.ms i j) (l.ms i j)

theorem supp_of {u : Fld d R} (h : ∀ c, ¬C.Inner c → u c = 0) : SuppIn C.S u :=
  fun c hc => h c fun hi => hc (Cfg.mem_S.2 hi)

theorem suppAt_of {L : Loc d} {u : Fld d R} (h : ∀ c, ¬C.InnerAt L c → u c = 0) : SuppIn C.S u :=
  fun c hc => h c fun hi => hc (Cfg.mem_S.2 hi.1)

theorem dot_D {u w : Fld d R} (hu : SuppIn C.S u) (hw : SuppIn C.S w) (h : Bool) (k : Fin d) :
    dot C.S (C.D h k u) w = -dot C.S u (C.D (!h) k w) := by
  cases h
  · exact dot_DS hu hw C.acc (1 / C.dx k) k
  · exact dot_DSH hu hw C.acc (1 / C.dx k) k

/-- Adjoint of the stretched derivative and its memory variable. -/
theorem pair_str {L : Loc d} {k : Fin d} {u m g lm : Fld d R} (hu : SuppIn C.S u)
    (hg : ∀ c, ¬C.InnerAt L c → g c = 0) (hl : ∀ c, ¬C.InnerAt L c → lm c = 0) :
    dot C.S (C.str L k u m) g + dot C.S (C.mem' L k u m) lm =
      dot C.S m (fun c => C.pa (L k) k (c k) * (g c + lm c))
      - dot C.S u (C.D (!L k) k fun c =>
          (1 + C.pb (L k) k (c k)) * g c + C.pb (L k) k (c k) * lm c) := by
  have hX : ∀ c, ¬C.InnerAt L c → (1 + C.pb (L k) k (c k)) * g c + C.pb (L k) k (c k) * lm c = 0 := by
    intro c hc; simp [hg c hc, hl c hc]
  have e := dot_D hu (suppAt_of hX) (L k) k
  rw [sub_eq_add_neg, ← e]
  simp only [dot, ← Finset.sum_add_distrib]
  refine Finset.sum_congr rfl fun c _ => ?_
  by_cases hc : C.InnerAt L c
  · simp only [Cfg.str, Cfg.mem', hc, if_true]
    ring
  · simp [Cfg.str, Cfg.mem', hc, hg c hc, hl c hc]

theorem sig_supp {s : Wavefields d R} (hs : C.Good s) (i j : Fin d) : SuppIn C.S (s.sig i j) := by
  unfold Wavefields.sig sigOf pick
  split_ifs
  · exact suppAt_of (hs.sh _)
  · exact suppAt_of (hs.sh _)
  · exact supp_of (hs.s _)

/-- The velocity half and its adjoint. -/
theorem pair_halfV (h : C.WF) (q : (k : Fin d) → Fin (nv k) → R) {s l : Wavefields d R}
    (hs : C.Good s) (hl : C.Good l) :
    C.pair (C.halfV q s) l = C.pair s (C.bHalfS l)
      + ∑ k, ∑ i, q k i * sample (C.srcV k) (l.v k) i := by
  have key : ∀ i j, dot C.S (fun c => C.B i c * C.dt *
        C.str (vLoc i) j (s.sig i j) (s.ms i j) c) (l.v i)
      + dot C.S ((C.halfV q s).ms i j) (l.ms i j) = dot C.S (s.ms i j) ((C.bHalfS l).ms i j)
      - dot C.S (s.sig i j) (C.D (!vLoc i j) j (C.advS l i j)) := by
    intro i j
    have e := pair_str (C := C) (L := vLoc i) (k := j) (u := s.sig i j) (m := s.ms i j)
      (g := fun c => C.B i c * C.dt * l.v i c) (lm := l.ms i j) (sig_supp hs i j)
      (fun c hc => by simp [hl.v i c hc]) (fun c hc => hl.ms i j c hc)
    have e1 : dot C.S (fun c => C.B i c * C.dt * C.str (vLoc i) j (s.sig i j) (s.ms i j) c) (l.v i) =
        dot C.S (C.str (vLoc i) j (s.sig i j) (s.ms i j)) (fun c => C.B i c * C.dt * l.v i c) := by
      simp only [dot]
      exact Finset.sum_congr rfl fun c _ => by ring
    have e2 : dot C.S (s.ms i j) ((C.bHalfS l).ms i j) = dot C.S (s.ms i j)
        (fun c => C.pa (vLoc i j) j (c j) * (C.B i c * C.dt * l.v i c + l.ms i j c)) := by
      simp only [dot]
      refine Finset.sum_congr rfl fun c _ => ?_
      by_cases hc : C.InnerAt (vLoc i) c
      · simp only [Cfg.bHalfS, hc, if_true]
      · rw [hs.ms i j c hc, zero_mul, zero_mul]
    have e3 : C.advS l i j = fun c => (1 + C.pb (vLoc i j) j (c j)) * (C.B i c * C.dt * l.v i c)
        + C.pb (vLoc i j) j (c j) * l.ms i j c := by
      funext c; simp only [Cfg.advS]; ring
    rw [e1, e2, e3]
    exact e
  have hv : ∀ i, dot C.S ((C.halfV q s).v i) (l.v i) = dot C.S (s.v i) (l.v i)
      + ∑ j, dot C.S (fun c => C.B i c * C.dt * C.str (vLoc i) j (s.sig i j) (s.ms i j) c) (l.v i)
      + ∑ k, q i k * sample (C.srcV i) (l.v i) k := by
    intro i
    rw [← dot_inject_left (fun k c hi => Cfg.mem_S.2 (h.srcV_in i k c hi).1), ← dot_sum_left,
      ← dot_add_left, ← dot_add_left]
    refine dot_congr_left fun c _ => ?_
    simp only [Cfg.halfV, Cfg.divS, Finset.mul_sum]
  have hn : ∀ i, dot C.S (s.s i) ((C.bHalfS l).s i) = dot C.S (s.s i) (l.s i)
      - dot C.S (s.sig i i) (C.D (!vLoc i i) i (C.advS l i i)) := by
    intro i
    have : s.sig i i = s.s i := by simp [Wavefields.sig, sigOf, pick_self]
    rw [this, ← dot_sub_right]
    refine dot_congr_right fun c hc => ?_
    rw [Cfg.mem_S] at hc
    simp [Cfg.bHalfS, hc, vLoc]
  have hsh : ∀ p : Sh d, dot C.S (s.sh p) ((C.bHalfS l).sh p) = dot C.S (s.sh p) (l.sh p)
      - (dot C.S (s.sig p.1.1 p.1.2) (C.D (!vLoc p.1.1 p.1.2) p.1.2 (C.advS l p.1.1 p.1.2))
      + dot C.S (s.sig p.1.2 p.1.1) (C.D (!vLoc p.1.2 p.1.1) p.1.1 (C.advS l p.1.2 p.1.1))) := by
    intro p
    have e1 : s.sig p.1.1 p.1.2 = s.sh p := by simp only [Wavefields.sig, sigOf, pick_lt]
    have e2 : s.sig p.1.2 p.1.1 = s.sh p := by simp only [Wavefields.sig, sigOf, pick_gt]
    have e3 : (!vLoc p.1.1 p.1.2) = true := by simp [vLoc, p.2.ne']
    have e4 : (!vLoc p.1.2 p.1.1) = true := by simp [vLoc, p.2.ne]
    rw [e1, e2, e3, e4, ← dot_add_right, ← dot_sub_right]
    simp only [dot]
    refine Finset.sum_congr rfl fun c _ => ?_
    by_cases hc : C.InnerAt (sLoc p.1.1 p.1.2) c
    · simp only [Cfg.bHalfS, hc, if_true]
      ring
    · rw [hs.sh p c hc, zero_mul, zero_mul]
  have ks : ∑ i, ∑ j, (dot C.S (fun c => C.B i c * C.dt *
        C.str (vLoc i) j (s.sig i j) (s.ms i j) c) (l.v i)
      + dot C.S ((C.halfV q s).ms i j) (l.ms i j)) = _ :=
    Finset.sum_congr rfl fun i _ => Finset.sum_congr rfl fun j _ => key i j
  have kp := sum_pairs fun i j => dot C.S (s.sig i j) (C.D (!vLoc i j) j (C.advS l i j))
  simp only [Cfg.pair, hv, hn, hsh]
  have e1 : (C.halfV q s).s = s.s := rfl
  have e2 : (C.halfV q s).sh = s.sh := rfl
  have e3 : (C.halfV q s).mv = s.mv := rfl
  have e4 : (C.bHalfS l).v = l.v := rfl
  have e5 : (C.bHalfS l).mv = l.mv := rfl
  rw [e1, e2, e3, e4, e5]
  simp only [Finset.sum_add_distrib, Finset.sum_sub_distrib] at ks kp ⊢
  linear_combination ks - kp

theorem modulus_diag (s : Fin d → Fld d R) (sh : Sh d → Fld d R) (i : Fin d) (c : Cell d) :
    modulus C s sh i i c = C.lam c * ∑ k, s k c + 2 * C.mu c * s i c := by
  simp only [modulus, pick_self]
  have : ∀ k, (if k = i then C.lam c + 2 * C.mu c else C.lam c) * s k c =
      C.lam c * s k c + if k = i then 2 * C.mu c * s k c else 0 := by
    intro k; split_ifs <;> ring
  simp only [this, Finset.sum_add_distrib, Finset.sum_ite_eq', Finset.mem_univ, if_true,
    Finset.mul_sum]

theorem modulus_lt (s : Fin d → Fld d R) (sh : Sh d → Fld d R) (p : Sh d) (c : Cell d) :
    modulus C s sh p.1.1 p.1.2 c = C.muS p c * sh p c := by simp only [modulus, pick_lt]

theorem modulus_gt (s : Fin d → Fld d R) (sh : Sh d → Fld d R) (p : Sh d) (c : Cell d) :
    modulus C s sh p.1.2 p.1.1 c = C.muS p c * sh p c := by simp only [modulus, pick_gt]

theorem modulus_out {l : Wavefields d R} (hl : C.Good l) (i j : Fin d) (c : Cell d)
    (hc : ¬C.InnerAt (sLoc i j) c) : modulus C l.s l.sh i j c = 0 := by
  rcases lt_trichotomy i j with hij | hij | hij
  · have := modulus_lt (C := C) l.s l.sh ⟨(i, j), hij⟩ c
    simp only at this
    rw [this, hl.sh ⟨(i, j), hij⟩ c hc, mul_zero]
  · subst hij
    have hc' : ¬C.Inner c := fun hi => hc (innerAt_diag.2 hi)
    simp [modulus_diag, hl.s _ c hc']
  · have := modulus_gt (C := C) l.s l.sh ⟨(j, i), hij⟩ c
    simp only at this
    rw [this, hl.sh ⟨(j, i), hij⟩ c (by rw [sLoc_comm]; exact hc), mul_zero]

theorem sample_prs {m : ℕ} (loc : Fin m → Option (Cell d)) (s : Wavefields d R) (k : Fin m) :
    sample loc s.prs k = ∑ i, sample loc (s.s i) k := by
  simp only [sample, Wavefields.prs]
  cases loc k <;> simp

/-- The stress half and its adjoint. -/
theorem pair_halfS (h : C.WF) (q : Fin np → R) {s l : Wavefields d R}
    (hs : C.Good s) (hl : C.Good l) :
    C.pair (C.halfS q s) l = C.pair s (C.bHalfV l) + ∑ i, q i * sample C.srcP l.prs i := by
  have key : ∀ i j, dot C.S (C.gradV s i j) (fun c => C.dt * modulus C l.s l.sh i j c)
      + dot C.S ((C.halfS q s).mv i j) (l.mv i j) = dot C.S (s.mv i j) ((C.bHalfV l).mv i j)
      - dot C.S (s.v i) (C.D (vLoc i j) j (C.advV l i j)) := by
    intro i j
    have e := pair_str (C := C) (L := sLoc i j) (k := j) (u := s.v i) (m := s.mv i j)
      (g := fun c => C.dt * modulus C l.s l.sh i j c) (lm := l.mv i j) (suppAt_of (hs.v i))
      (fun c hc => by simp [modulus_out hl i j c hc]) (fun c hc => hl.mv i j c hc)
    have e2 : dot C.S (s.mv i j) ((C.bHalfV l).mv i j) = dot C.S (s.mv i j)
        (fun c => C.pa (sLoc i j j) j (c j) * (C.dt * modulus C l.s l.sh i j c + l.mv i j c)) := by
      simp only [dot]
      refine Finset.sum_congr rfl fun c _ => ?_
      by_cases hc : C.InnerAt (sLoc i j) c
      · simp only [Cfg.bHalfV, hc, if_true]
      · rw [hs.mv i j c hc, zero_mul, zero_mul]
    have e3 : C.advV l i j = fun c => (1 + C.pb (sLoc i j j) j (c j)) *
        (C.dt * modulus C l.s l.sh i j c) + C.pb (sLoc i j j) j (c j) * l.mv i j c := by
      funext c; simp only [Cfg.advV]; ring
    have e4 : vLoc i j = !sLoc i j j := by rw [sLoc_right, Bool.not_not]
    rw [e2, e3, e4]
    exact e
  have hn : ∑ i, dot C.S ((C.halfS q s).s i) (l.s i) = ∑ i, dot C.S (s.s i) (l.s i)
      + ∑ i, dot C.S (C.gradV s i i) (fun c => C.dt * modulus C l.s l.sh i i c)
      + ∑ i, q i * sample C.srcP l.prs i := by
    have e0 : ∑ k, q k * sample C.srcP l.prs k = ∑ i, dot C.S (inject C.srcP q) (l.s i) := by
      simp only [dot_inject_left (fun k c hi => Cfg.mem_S.2 (h.srcP_in k c hi)), sample_prs,
        Finset.mul_sum]
      exact Finset.sum_comm
    rw [e0]
    simp only [dot, ← Finset.sum_add_distrib]
    rw [Finset.sum_comm, Finset.sum_comm (s := Finset.univ) (t := C.S)]
    refine Finset.sum_congr rfl fun c _ => ?_
    simp only [Cfg.halfS, modulus_diag, add_mul, mul_add, Finset.sum_add_distrib, Finset.mul_sum,
      Finset.sum_mul]
    have : ∑ i, ∑ k, C.dt * (C.lam c * C.gradV s k k c) * l.s i c =
        ∑ i, ∑ k, C.gradV s i i c * (C.dt * (C.lam c * l.s k c)) := by
      rw [Finset.sum_comm]
      exact Finset.sum_congr rfl fun _ _ => Finset.sum_congr rfl fun _ _ => by ring
    rw [this]
    have h2 : ∑ i, C.dt * (2 * C.mu c * C.gradV s i i c) * l.s i c =
        ∑ i, C.gradV s i i c * (C.dt * (2 * C.mu c * l.s i c)) :=
      Finset.sum_congr rfl fun _ _ => by ring
    rw [h2]
  have hsh : ∀ p : Sh d, dot C.S ((C.halfS q s).sh p) (l.sh p) = dot C.S (s.sh p) (l.sh p)
      + (dot C.S (C.gradV s p.1.1 p.1.2) (fun c => C.dt * modulus C l.s l.sh p.1.1 p.1.2 c)
      + dot C.S (C.gradV s p.1.2 p.1.1) (fun c => C.dt * modulus C l.s l.sh p.1.2 p.1.1 c)) := by
    intro p
    simp only [dot, ← Finset.sum_add_distrib]
    refine Finset.sum_congr rfl fun c _ => ?_
    simp only [Cfg.halfS, modulus_lt, modulus_gt]
    ring
  have hv : ∀ i, dot C.S (s.v i) ((C.bHalfV l).v i) = dot C.S (s.v i) (l.v i)
      - ∑ j, dot C.S (s.v i) (C.D (vLoc i j) j (C.advV l i j)) := by
    intro i
    rw [← dot_sum_right, ← dot_sub_right]
    simp only [dot]
    refine Finset.sum_congr rfl fun c _ => ?_
    by_cases hc : C.InnerAt (vLoc i) c
    · simp only [Cfg.bHalfV, hc, if_true, Finset.sum_neg_distrib, sub_eq_add_neg]
    · rw [hs.v i c hc, zero_mul, zero_mul]
  have ks : ∑ i, ∑ j, (dot C.S (C.gradV s i j) (fun c => C.dt * modulus C l.s l.sh i j c)
      + dot C.S ((C.halfS q s).mv i j) (l.mv i j)) = _ :=
    Finset.sum_congr rfl fun i _ => Finset.sum_congr rfl fun j _ => key i j
  have kp := sum_pairs fun i j => dot C.S (C.gradV s i j) (fun c => C.dt * modulus C l.s l.sh i j c)
  simp only [Cfg.pair, hv, hn, hsh]
  have e1 : (C.halfS q s).v = s.v := rfl
  have e2 : (C.halfS q s).ms = s.ms := rfl
  have e3 : (C.bHalfV l).s = l.s := rfl
  have e4 : (C.bHalfV l).sh = l.sh := rfl
  have e5 : (C.bHalfV l).ms = l.ms := rfl
  rw [e1, e2, e3, e4, e5]
  simp only [Finset.sum_add_distrib, Finset.sum_sub_distrib] at ks kp ⊢
  linear_combination ks - kp

theorem pair_bAdd (h : C.WF) (qp : Fin mp → R) (qv : (k : Fin d) → Fin (mv k) → R)
    (s l : Wavefields d R) :
    C.pair s (C.bAdd qp qv l) = C.pair s l + ∑ i, qp i * sample C.rcvP s.prs i
      + ∑ k, ∑ i, qv k i * sample (C.rcvV k) (s.v k) i := by
  have hp : ∀ i, dot C.S (s.s i) ((C.bAdd qp qv l).s i) = dot C.S (s.s i) (l.s i)
      + ∑ k, qp k * sample C.rcvP (s.s i) k := by
    intro i
    rw [← dot_inject_left (fun i c hi => Cfg.mem_S.2 (h.rcvP_in i c hi)), dot_comm C.S (inject _ _),
      ← dot_add_right]
    rfl
  have hv : ∀ k, dot C.S (s.v k) ((C.bAdd qp qv l).v k) = dot C.S (s.v k) (l.v k)
      + ∑ i, qv k i * sample (C.rcvV k) (s.v k) i := by
    intro k
    rw [← dot_inject_left (fun i c hi => Cfg.mem_S.2 (h.rcvV_in k i c hi).1),
      dot_comm C.S (inject _ _), ← dot_add_right]
    rfl
  have e0 : ∑ k, qp k * sample C.rcvP s.prs k = ∑ i, ∑ k, qp k * sample C.rcvP (s.s i) k := by
    simp only [sample_prs, Finset.mul_sum]
    exact Finset.sum_comm
  simp only [Cfg.pair, hp, hv, Finset.sum_add_distrib, e0]
  simp only [Cfg.bAdd]
  ring

/-- All steps: the dot-product identity for the recursions. -/
theorem pair_run (h : C.WF) {s l : Wavefields d R} (hs : C.Good s) (hl : C.Good l)
    (fp : ℕ → Fin np → R) (fv : (k : Fin d) → ℕ → Fin (nv k) → R) (grP : ℕ → Fin mp → R)
    (grV : (k : Fin d) → ℕ → Fin (mv k) → R) (T : ℕ) :
    C.pair (C.run fp fv s T) l
      + ∑ t ∈ Finset.range T, ∑ i, grP t i * sample C.rcvP (C.run fp fv s t).prs i
      + ∑ t ∈ Finset.range T, ∑ k, ∑ i, grV k t i * sample (C.rcvV k) ((C.run fp fv s t).v k) i =
    C.pair s (C.bRun grP grV T l T)
      + ∑ t ∈ Finset.range T, ∑ i, fp t i * sample C.srcP (C.bRun grP grV T l (T - 1 - t)).prs i
      + ∑ t ∈ Finset.range T, ∑ k, ∑ i, fv k t i
          * sample (C.srcV k) ((C.bHalfV (C.bRun grP grV T l (T - 1 - t))).v k) i := by
  have key : ∀ n ≤ T,
      C.pair (C.run fp fv s n) (C.bRun grP grV T l (T - n))
        + ∑ t ∈ Finset.range n, ∑ i, grP t i * sample C.rcvP (C.run fp fv s t).prs i
        + ∑ t ∈ Finset.range n, ∑ k, ∑ i, grV k t i * sample (C.rcvV k) ((C.run fp fv s t).v k) i =
      C.pair s (C.bRun grP grV T l T)
        + ∑ t ∈ Finset.range n, ∑ i, fp t i * sample C.srcP (C.bRun grP grV T l (T - 1 - t)).prs i
        + ∑ t ∈ Finset.range n, ∑ k, ∑ i, fv k t i
          * sample (C.srcV k) ((C.bHalfV (C.bRun grP grV T l (T - 1 - t))).v k) i := by
    intro n
    induction n with
    | zero => intro _; simp [Cfg.run]
    | succ n ih =>
        intro hn
        have ih' := ih (by omega)
        simp only [Finset.sum_range_succ]
        have e : T - n = (T - (n + 1)) + 1 := by omega
        have e2 : T - 1 - n = T - (n + 1) := by omega
        have e3 : T - 1 - (T - (n + 1)) = n := by omega
        have g1 := run_good h fp fv hs n
        have g2 := bRun_good h grP grV T hl (T - (n + 1))
        rw [e, Cfg.bRun, Cfg.bNext, pair_bAdd h, e3] at ih'
        rw [Cfg.run, Cfg.next, pair_halfS h _ (halfV_good h _ g1) g2,
          pair_halfV h _ g1 (bHalfV_good h g2), e2]
        linear_combination ih'
  have := key T le_rfl
  simpa [Cfg.bRun] using this

/-! ### Moving between padded and user coordinates -/

/-- The cells of the user's wavefield arrays. -/
def Cfg.userCells (C : Cfg d np mp nv mv R) : Finset (Cell d) :=
  box (fun _ => 0) (fun k => C.n k - 2 * ((C.acc.order / 2 : ℕ) : ℤ) + 1)

omit [Field R] in
theorem inner_of_user {p : Cell d} (hp : p ∈ C.userCells) : C.Inner fun k => p k + (C.acc.pad : ℤ) := by
  simp only [Cfg.userCells, mem_box, Acc.order_div_two] at hp
  intro k
  have := hp k
  simp only
  omega

theorem sum_userCells (F : Fld d R) :
    ∑ p ∈ C.userCells, F (fun k => p k + C.acc.pad) = ∑ c ∈ C.S, F c := by
  refine Finset.sum_bij' (fun p _ => fun k => p k + (C.acc.pad : ℤ))
    (fun c _ => fun k => c k - (C.acc.pad : ℤ)) ?_ ?_ ?_ ?_ ?_
  · intro p hp
    exact Cfg.mem_S.2 (inner_of_user hp)
  · intro c hc
    rw [Cfg.mem_S] at hc
    simp only [Cfg.userCells, mem_box, Acc.order_div_two]
    intro k
    have := hc k
    omega
  · intro p _; funext k; ring
  · intro c _; funext k; ring
  · intro p _; rfl

theorem sum_unpad_left (u g : Fld d R) :
    ∑ p ∈ C.userCells, C.unpad u p * g p = dot C.S u (C.createOrPad (some g)) := by
  rw [dot, ← sum_userCells fun c => u c * C.createOrPad (some g) c]
  refine Finset.sum_congr rfl fun p hp => ?_
  simp [Cfg.unpad, Cfg.createOrPad, inner_of_user hp]

theorem dot_zeroInterior_right (k : Fin d) (h : Bool) {u : Fld d R}
    (hu : ∀ c : Cell d, C.MidAt h k (c k) → u c = 0)
    (g : Fld d R) : dot C.S u (C.zeroInterior k h g) = dot C.S u g := by
  refine Finset.sum_congr rfl fun c _ => ?_
  by_cases hc : C.MidAt h k (c k)
  · rw [hu c hc, zero_mul, zero_mul]
  · rw [show C.zeroInterior k h g c = g c from if_neg hc]

theorem dot_zeroEdges_right (L : Loc d) {u : Fld d R} (hu : ∀ c, ¬C.InnerAt L c → u c = 0)
    (g : Fld d R) : dot C.S u (C.zeroEdges L g) = dot C.S u g := by
  refine Finset.sum_congr rfl fun c _ => ?_
  simp only [Cfg.zeroEdges]
  split_ifs with hc
  · obtain ⟨k, hk, e⟩ := hc
    rw [hu c fun h => absurd (h.2 k hk) (by omega)]; ring
  · rfl

/-- Inner product of two sets of wavefields over a set of cells. -/
def Wavefields.inner (S : Finset (Cell d)) (w w' : Wavefields d R) : R :=
  ∑ i, ∑ c ∈ S, w.v i c * w'.v i c + ∑ i, ∑ c ∈ S, w.s i c * w'.s i c
    + ∑ p, ∑ c ∈ S, w.sh p c * w'.sh p c + ∑ i, ∑ j, ∑ c ∈ S, w.mv i j c * w'.mv i j c
    + ∑ i, ∑ j, ∑ c ∈ S, w.ms i j c * w'.ms i j c

def Wavefields.toInit (w : Wavefields d R) : Init d R :=
  ⟨fun i => some (w.v i), fun i => some (w.s i), fun p => some (w.sh p), fun i j => some (w.mv i j),
    fun i j => some (w.ms i j)⟩

theorem inner_out {w : Wavefields d R} (hs : C.Good w) (g : Wavefields d R) :
    (C.unpadAll w).inner C.userCells g = C.pair w (C.prepare g.toInit) := by
  have h1 : ∀ i j, dot C.S (w.mv i j) (C.zeroInterior j (sLoc i j j)
        (C.zeroEdges (sLoc i j) (C.createOrPad (some (g.mv i j)))))
      = dot C.S (w.mv i j) (C.createOrPad (some (g.mv i j))) := fun i j => by
    rw [dot_zeroInterior_right j _ (hs.mv_mid i j), dot_zeroEdges_right _ (hs.mv i j)]
  have h2 : ∀ i j, dot C.S (w.ms i j) (C.zeroInterior j (vLoc i j)
        (C.zeroEdges (vLoc i) (C.createOrPad (some (g.ms i j)))))
      = dot C.S (w.ms i j) (C.createOrPad (some (g.ms i j))) := fun i j => by
    rw [dot_zeroInterior_right j _ (hs.ms_mid i j), dot_zeroEdges_right _ (hs.ms i j)]
  have h3 : ∀ i, dot C.S (w.v i) (C.zeroEdges (vLoc i) (C.createOrPad (some (g.v i))))
      = dot C.S (w.v i) (C.createOrPad (some (g.v i))) := fun i => dot_zeroEdges_right _ (hs.v i) _
  have h4 : ∀ p : Sh d, dot C.S (w.sh p) (C.zeroEdges (sLoc p.1.1 p.1.2) (C.createOrPad (some (g.sh p))))
      = dot C.S (w.sh p) (C.createOrPad (some (g.sh p))) := fun p => dot_zeroEdges_right _ (hs.sh p) _
  simp only [Wavefields.inner, Cfg.unpadAll, sum_unpad_left, Cfg.pair, Cfg.prepare,
    Wavefields.toInit, h1, h2, h3, h4]

theorem pair_comm (s l : Wavefields d R) : C.pair s l = C.pair l s := by
  simp only [Cfg.pair, dot_comm]

theorem Wavefields.inner_comm (S : Finset (Cell d)) (w w' : Wavefields d R) :
    w.inner S w' = w'.inner S w := by
  simp only [Wavefields.inner, mul_comm]

theorem inner_start (w : Wavefields d R) {l : Wavefields d R} (hl : C.Good l) :
    w.inner C.userCells (C.unpadAll l) = C.pair (C.prepare w.toInit) l := by
  rw [Wavefields.inner_comm, inner_out hl, pair_comm]

/-! ### Perturbation of the inputs -/

/-- Perturbation of the velocity half of a step caused by perturbations `δ` of the models, `q` of
the amplitudes and `ds` of the wavefields. -/
def Cfg.tHalfV (C : Cfg d np mp nv mv R) (δ : Grads d R) (q : (k : Fin d) → Fin (nv k) → R)
    (s ds : Wavefields d R) : Wavefields d R :=
  let s' := C.halfV q ds
  { s' with v := fun i c => s'.v i c + δ.b i c * C.dt * C.divS s i c }

/-- Perturbation of the stress half of a step. -/
def Cfg.tHalfS (C : Cfg d np mp nv mv R) (δ : Grads d R) (q : Fin np → R) (s ds : Wavefields d R) :
    Wavefields d R :=
  let s' := C.halfS q ds
  { s' with
    s := fun i c => s'.s i c
      + C.dt * (δ.l c * ∑ k, C.gradV s k k c + 2 * δ.m c * C.gradV s i i c)
    sh := fun p c => s'.sh p c
      + C.dt * δ.s p c * (C.gradV s p.1.1 p.1.2 c + C.gradV s p.1.2 p.1.1 c) }

def Cfg.tRun (C : Cfg d np mp nv mv R) (fp δp : ℕ → Fin np → R)
    (fv δv : (k : Fin d) → ℕ → Fin (nv k) → R) (δ : Grads d R) (s ds : Wavefields d R) :
    ℕ → Wavefields d R
  | 0 => ds
  | n + 1 => C.tHalfS δ (δp n) (C.halfV (fun k => fv k n) (C.run fp fv s n))
      (C.tHalfV δ (fun k => δv k n) (C.run fp fv s n) (C.tRun fp δp fv δv δ s ds n))

theorem tHalfV_good (h : C.WF) (δ : Grads d R) (q : (k : Fin d) → Fin (nv k) → R)
    (s : Wavefields d R) {ds : Wavefields d R} (g : C.Good ds) : C.Good (C.tHalfV δ q s ds) := by
  have g' := halfV_good h q g
  exact ⟨fun i c hc => by simp [Cfg.tHalfV, g'.v i c hc, divS_out hc], g'.s, g'.sh, g'.mv, g'.ms,
    g'.mv_mid, g'.ms_mid⟩

theorem tHalfS_good (h : C.WF) (δ : Grads d R) (q : Fin np → R) (s : Wavefields d R)
    {ds : Wavefields d R} (g : C.Good ds) : C.Good (C.tHalfS δ q s ds) := by
  have g' := halfS_good h q g
  refine ⟨g'.v, fun i c hc => by simp [Cfg.tHalfS, g'.s i c hc, gradV_diag_out hc], fun p c hc => ?_,
    g'.mv, g'.ms, g'.mv_mid, g'.ms_mid⟩
  have h1 : C.gradV s p.1.1 p.1.2 c = 0 := str_out hc
  have h2 : C.gradV s p.1.2 p.1.1 c = 0 := str_out (by rwa [sLoc_comm])
  simp [Cfg.tHalfS, g'.sh p c hc, h1, h2]

theorem tRun_good (h : C.WF) (fp δp : ℕ → Fin np → R) (fv δv : (k : Fin d) → ℕ → Fin (nv k) → R)
    (δ : Grads d R) (s : Wavefields d R) {ds : Wavefields d R}
    (g : C.Good ds) : ∀ n, C.Good (C.tRun fp δp fv δv δ s ds n)
  | 0 => g
  | n + 1 => tHalfS_good h _ _ _ (tHalfV_good h _ _ _ (tRun_good h fp δp fv δv δ s g n))

/-- Change of the pairing with `l` by the model perturbation in the velocity half. -/
def Cfg.pertV (C : Cfg d np mp nv mv R) (δ : Grads d R) (s l : Wavefields d R) : R :=
  ∑ i, dot C.S (fun c => δ.b i c * C.dt * C.divS s i c) (l.v i)

/-- Change of the pairing with `l` by the model perturbation in the stress half. -/
def Cfg.pertS (C : Cfg d np mp nv mv R) (δ : Grads d R) (s l : Wavefields d R) : R :=
  ∑ i, dot C.S (fun c => C.dt * (δ.l c * ∑ k, C.gradV s k k c + 2 * δ.m c * C.gradV s i i c)) (l.s i)
    + ∑ p, dot C.S (fun c => C.dt * δ.s p c * (C.gradV s p.1.1 p.1.2 c + C.gradV s p.1.2 p.1.1 c))
        (l.sh p)

theorem pair_tHalfV (h : C.WF) (δ : Grads d R) (q : (k : Fin d) → Fin (nv k) → R)
    (s : Wavefields d R) {ds l : Wavefields d R} (hs : C.Good ds) (hl : C.Good l) :
    C.pair (C.tHalfV δ q s ds) l = C.pair ds (C.bHalfS l)
      + ∑ k, ∑ i, q k i * sample (C.srcV k) (l.v k) i + C.pertV δ s l := by
  rw [← pair_halfV h q hs hl]
  have hv : ∀ k, dot C.S ((C.tHalfV δ q s ds).v k) (l.v k) =
      dot C.S ((C.halfV q ds).v k) (l.v k)
        + dot C.S (fun c => δ.b k c * C.dt * C.divS s k c) (l.v k) := by
    intro k
    rw [← dot_add_left]
    rfl
  simp only [Cfg.pair, hv, Finset.sum_add_distrib, Cfg.pertV]
  simp only [Cfg.tHalfV]
  ring

theorem pair_tHalfS (h : C.WF) (δ : Grads d R) (q : Fin np → R) (s : Wavefields d R)
    {ds l : Wavefields d R} (hs : C.Good ds) (hl : C.Good l) :
    C.pair (C.tHalfS δ q s ds) l = C.pair ds (C.bHalfV l) + ∑ i, q i * sample C.srcP l.prs i
      + C.pertS δ s l := by
  rw [← pair_halfS h q hs hl]
  have h1 : ∀ i, dot C.S ((C.tHalfS δ q s ds).s i) (l.s i) = dot C.S ((C.halfS q ds).s i) (l.s i)
        + dot C.S (fun c => C.dt * (δ.l c * ∑ k, C.gradV s k k c + 2 * δ.m c * C.gradV s i i c))
          (l.s i) := by
    intro i
    rw [← dot_add_left]
    rfl
  have h2 : ∀ p, dot C.S ((C.tHalfS δ q s ds).sh p) (l.sh p) = dot C.S ((C.halfS q ds).sh p) (l.sh p)
        + dot C.S (fun c => C.dt * δ.s p c * (C.gradV s p.1.1 p.1.2 c + C.gradV s p.1.2 p.1.1 c))
          (l.sh p) := by
    intro p
    rw [← dot_add_left]
    rfl
  simp only [Cfg.pair, h1, h2, Finset.sum_add_distrib, Cfg.pertS]
  simp only [Cfg.tHalfS]
  ring

/-- Dot-product identity for the perturbation. -/
theorem pair_tRun (h : C.WF) (s : Wavefields d R) {ds l : Wavefields d R} (hd : C.Good ds)
    (hl : C.Good l) (fp δp : ℕ → Fin np → R) (fv δv : (k : Fin d) → ℕ → Fin (nv k) → R)
    (δ : Grads d R) (grP : ℕ → Fin mp → R)
    (grV : (k : Fin d) → ℕ → Fin (mv k) → R) (T : ℕ) :
    C.pair (C.tRun fp δp fv δv δ s ds T) l
      + ∑ t ∈ Finset.range T, ∑ i, grP t i * sample C.rcvP (C.tRun fp δp fv δv δ s ds t).prs i
      + ∑ t ∈ Finset.range T, ∑ k, ∑ i, grV k t i
          * sample (C.rcvV k) ((C.tRun fp δp fv δv δ s ds t).v k) i =
    C.pair ds (C.bRun grP grV T l T)
      + ∑ t ∈ Finset.range T, ∑ i, δp t i * sample C.srcP (C.bRun grP grV T l (T - 1 - t)).prs i
      + ∑ t ∈ Finset.range T, ∑ k, ∑ i, δv k t i
          * sample (C.srcV k) ((C.bHalfV (C.bRun grP grV T l (T - 1 - t))).v k) i
      + ∑ t ∈ Finset.range T, C.pertS δ (C.halfV (fun k => fv k t) (C.run fp fv s t))
          (C.bRun grP grV T l (T - 1 - t))
      + ∑ t ∈ Finset.range T, C.pertV δ (C.run fp fv s t)
          (C.bHalfV (C.bRun grP grV T l (T - 1 - t))) := by
  have key : ∀ n ≤ T,
      C.pair (C.tRun fp δp fv δv δ s ds n) (C.bRun grP grV T l (T - n))
        + ∑ t ∈ Finset.range n, ∑ i, grP t i * sample C.rcvP (C.tRun fp δp fv δv δ s ds t).prs i
        + ∑ t ∈ Finset.range n, ∑ k, ∑ i, grV k t i
          * sample (C.rcvV k) ((C.tRun fp δp fv δv δ s ds t).v k) i =
      C.pair ds (C.bRun grP grV T l T)
      + ∑ t ∈ Finset.range n, ∑ i, δp t i * sample C.srcP (C.bRun grP grV T l (T - 1 - t)).prs i
      + ∑ t ∈ Finset.range n, ∑ k, ∑ i, δv k t i
          * sample (C.srcV k) ((C.bHalfV (C.bRun grP grV T l (T - 1 - t))).v k) i
      + ∑ t ∈ Finset.range n, C.pertS δ (C.halfV (fun k => fv k t) (C.run fp fv s t))
          (C.bRun grP grV T l (T - 1 - t))
      + ∑ t ∈ Finset.range n, C.pertV δ (C.run fp fv s t)
          (C.bHalfV (C.bRun grP grV T l (T - 1 - t))) := by
    intro n
    induction n with
    | zero => intro _; simp [Cfg.tRun]
    | succ n ih =>
        intro hn
        have ih' := ih (by omega)
        simp only [Finset.sum_range_succ]
        have e : T - n = (T - (n + 1)) + 1 := by omega
        have e2 : T - 1 - n = T - (n + 1) := by omega
        have e3 : T - 1 - (T - (n + 1)) = n := by omega
        have g1 := tRun_good h fp δp fv δv δ s hd n
        have g2 := bRun_good h grP grV T hl (T - (n + 1))
        rw [e, Cfg.bRun, Cfg.bNext, pair_bAdd h, e3] at ih'
        rw [Cfg.tRun, pair_tHalfS h _ _ _ (tHalfV_good h _ _ _ g1) g2,
          pair_tHalfV h _ _ _ g1 (bHalfV_good h g2), e2]
        linear_combination ih'
  have := key T le_rfl
  simpa [Cfg.bRun] using this

end

/-! ### Derivatives -/

/-- The wavefields depend differentiably on a parameter. -/
structure Wavefields.HasDeriv (w : ℝ → Wavefields d ℝ) (dw : Wavefields d ℝ) (x : ℝ) : Prop where
  v : ∀ i c, HasDerivAt (fun e => (w e).v i c) (dw.v i c) x
  s : ∀ i c, HasDerivAt (fun e => (w e).s i c) (dw.s i c) x
  sh : ∀ p c, HasDerivAt (fun e => (w e).sh p c) (dw.sh p c) x
  mv : ∀ i j c, HasDerivAt (fun e => (w e).mv i j c) (dw.mv i j c) x
  ms : ∀ i j c, HasDerivAt (fun e => (w e).ms i j c) (dw.ms i j c) x

/-- The configuration with perturbed models. -/
def Cfg.pert {R : Type*} [Field R] (C : Cfg d np mp nv mv R) (δ : Grads d R)
    (e : R) : Cfg d np mp nv mv R :=
  { C with
    lam := fun c => C.lam c + e * δ.l c
    mu := fun c => C.mu c + e * δ.m c
    muS := fun p c => C.muS p c + e * δ.s p c
    B := fun i c => C.B i c + e * δ.b i c }

variable {C : Cfg d np mp nv mv ℝ}

theorem hasDeriv_D {u : ℝ → Fld d ℝ} {du : Fld d ℝ} {x : ℝ}
    (h : ∀ c, HasDerivAt (fun e => u e c) (du c) x) (hb : Bool) (k : Fin d) (c : Cell d) :
    HasDerivAt (fun e => C.D hb k (u e) c) (C.D hb k du c) x := by
  cases hb
  · exact hasDerivAt_cS1 _ _ fun j => h _
  · exact hasDerivAt_cSH1 _ _ fun j => h _

theorem hasDeriv_mem' {u m : ℝ → Fld d ℝ} {du dm : Fld d ℝ} {x : ℝ}
    (h : ∀ c, HasDerivAt (fun e => u e c) (du c) x) (hm : ∀ c, HasDerivAt (fun e => m e c) (dm c) x)
    (L : Loc d) (k : Fin d) (c : Cell d) :
    HasDerivAt (fun e => C.mem' L k (u e) (m e) c) (C.mem' L k du dm c) x := by
  by_cases hc : C.InnerAt L c
  · simp only [Cfg.mem', hc, if_true]
    exact ((hm c).const_mul _).add ((hasDeriv_D h _ k c).const_mul _)
  · simp only [Cfg.mem', hc, if_false]
    exact hasDerivAt_const _ _

theorem hasDeriv_str {u m : ℝ → Fld d ℝ} {du dm : Fld d ℝ} {x : ℝ}
    (h : ∀ c, HasDerivAt (fun e => u e c) (du c) x) (hm : ∀ c, HasDerivAt (fun e => m e c) (dm c) x)
    (L : Loc d) (k : Fin d) (c : Cell d) :
    HasDerivAt (fun e => C.str L k (u e) (m e) c) (C.str L k du dm c) x := by
  by_cases hc : C.InnerAt L c
  · simp only [Cfg.str, hc, if_true]
    exact (hasDeriv_D h _ k c).add (hasDeriv_mem' h hm L k c)
  · simp only [Cfg.str, hc, if_false]
    exact hasDerivAt_const _ _

theorem hasDeriv_sig {w : ℝ → Wavefields d ℝ} {dw : Wavefields d ℝ} {x : ℝ}
    (h : Wavefields.HasDeriv w dw x) (i j : Fin d) (c : Cell d) :
    HasDerivAt (fun e => (w e).sig i j c) (dw.sig i j c) x := by
  unfold Wavefields.sig sigOf pick
  split_ifs
  · exact h.sh _ c
  · exact h.sh _ c
  · exact h.s _ c

theorem hasDeriv_divS {w : ℝ → Wavefields d ℝ} {dw : Wavefields d ℝ} {x : ℝ}
    (h : Wavefields.HasDeriv w dw x) (i : Fin d) (c : Cell d) :
    HasDerivAt (fun e => C.divS (w e) i c) (C.divS dw i c) x :=
  HasDerivAt.fun_sum fun j _ => hasDeriv_str (hasDeriv_sig h i j) (h.ms i j) _ _ _

theorem hasDeriv_gradV {w : ℝ → Wavefields d ℝ} {dw : Wavefields d ℝ} {x : ℝ}
    (h : Wavefields.HasDeriv w dw x) (i j : Fin d) (c : Cell d) :
    HasDerivAt (fun e => C.gradV (w e) i j c) (C.gradV dw i j c) x :=
  hasDeriv_str (h.v i) (h.mv i j) _ _ _

theorem hasDeriv_halfV (δ : Grads d ℝ) (q δq : (k : Fin d) → Fin (nv k) → ℝ)
    {w : ℝ → Wavefields d ℝ} {dw : Wavefields d ℝ} (h : Wavefields.HasDeriv w dw 0) :
    Wavefields.HasDeriv (fun e => (C.pert δ e).halfV (fun k i => q k i + e * δq k i) (w e))
      (C.tHalfV δ δq (w 0) dw) 0 where
  v := fun i c => by
    have h1 := ((h.v i c).add (((hasDeriv_lin (C.B i c) (δ.b i c)).mul_const C.dt).mul
      (hasDeriv_divS (C := C) h i c))).add (hasDeriv_inject (C.srcV i) (q i) (δq i) c)
    refine (h1.congr_deriv ?_).congr_of_eventuallyEq (Filter.Eventually.of_forall fun e => rfl)
    simp only [Cfg.tHalfV, Cfg.halfV, zero_mul, add_zero]
    ring
  s := h.s
  sh := h.sh
  mv := h.mv
  ms := fun i j c => hasDeriv_mem' (C := C) (hasDeriv_sig h i j) (h.ms i j) _ _ c

theorem hasDeriv_halfS (δ : Grads d ℝ) (q δq : Fin np → ℝ)
    {w : ℝ → Wavefields d ℝ} {dw : Wavefields d ℝ} (h : Wavefields.HasDeriv w dw 0) :
    Wavefields.HasDeriv (fun e => (C.pert δ e).halfS (fun i => q i + e * δq i) (w e))
      (C.tHalfS δ δq (w 0) dw) 0 where
  v := h.v
  s := fun i c => by
    have h1 := ((h.s i c).add ((((hasDeriv_lin (C.lam c) (δ.l c)).mul
      (HasDerivAt.fun_sum (u := Finset.univ) fun k _ => hasDeriv_gradV (C := C) h k k c)).add
      (((hasDeriv_lin (C.mu c) (δ.m c)).const_mul 2).mul (hasDeriv_gradV (C := C) h i i c))).const_mul
        C.dt)).add (hasDeriv_inject C.srcP q δq c)
    refine (h1.congr_deriv ?_).congr_of_eventuallyEq (Filter.Eventually.of_forall fun e => rfl)
    simp only [Cfg.tHalfS, Cfg.halfS, zero_mul, add_zero]
    ring
  sh := fun p c => by
    have h1 := (h.sh p c).add (((hasDeriv_lin (C.muS p c) (δ.s p c)).const_mul C.dt).mul
      ((hasDeriv_gradV (C := C) h p.1.1 p.1.2 c).add (hasDeriv_gradV (C := C) h p.1.2 p.1.1 c)))
    refine (h1.congr_deriv ?_).congr_of_eventuallyEq (Filter.Eventually.of_forall fun e => rfl)
    simp only [Cfg.tHalfS, Cfg.halfS, zero_mul, add_zero, Pi.add_apply]
    ring
  mv := fun i j c => hasDeriv_mem' (C := C) (h.v i) (h.mv i j) _ _ c
  ms := h.ms

theorem pert_zero (δ : Grads d ℝ) : C.pert δ 0 = C := by simp [Cfg.pert]

theorem pert_wf (h : C.WF) (δ : Grads d ℝ) (e : ℝ) : (C.pert δ e).WF :=
  ⟨h.w0_nonneg, h.w1_nonneg, h.size, h.pa_mid, h.pb_mid, h.srcP_in, h.srcV_in,
    h.rcvP_in, h.rcvV_in⟩

theorem hasDeriv_run (δ : Grads d ℝ) (fp δp : ℕ → Fin np → ℝ)
    (fv δv : (k : Fin d) → ℕ → Fin (nv k) → ℝ) {w : ℝ → Wavefields d ℝ} {dw : Wavefields d ℝ}
    (hs : Wavefields.HasDeriv w dw 0) (n : ℕ) :
    Wavefields.HasDeriv (fun e => (C.pert δ e).run (fun t i => fp t i + e * δp t i)
      (fun k t i => fv k t i + e * δv k t i) (w e) n) (C.tRun fp δp fv δv δ (w 0) dw n) 0 := by
  induction n with
  | zero => exact hs
  | succ n ih =>
      have h1 := hasDeriv_halfV (C := C) δ (fun k => fv k n) (fun k => δv k n) ih
      have h2 := hasDeriv_halfS (C := C) δ (fp n) (δp n) h1
      simp only [pert_zero, zero_mul, add_zero] at h2
      exact h2

/-- `w + e δ` -/
def Wavefields.plus (w : Wavefields d ℝ) (e : ℝ) (δ : Wavefields d ℝ) : Wavefields d ℝ :=
  ⟨fun i c => w.v i c + e * δ.v i c, fun i c => w.s i c + e * δ.s i c,
    fun p c => w.sh p c + e * δ.sh p c, fun i j c => w.mv i j c + e * δ.mv i j c,
    fun i j c => w.ms i j c + e * δ.ms i j c⟩

theorem hasDeriv_createOrPad (u δ : Fld d ℝ) (c : Cell d) :
    HasDerivAt (fun e : ℝ => C.createOrPad (some fun c => u c + e * δ c) c)
      (C.createOrPad (some δ) c) 0 := by
  simp only [Cfg.createOrPad]
  split_ifs
  · exact hasDeriv_lin _ _
  · exact hasDerivAt_const _ _

theorem hasDeriv_zeroEdges {u : ℝ → Fld d ℝ} {du : Fld d ℝ} {x : ℝ}
    (h : ∀ c, HasDerivAt (fun e => u e c) (du c) x) (L : Loc d) (c : Cell d) :
    HasDerivAt (fun e => C.zeroEdges L (u e) c) (C.zeroEdges L du c) x := by
  simp only [Cfg.zeroEdges]
  split_ifs
  · exact hasDerivAt_const _ _
  · exact h c

theorem hasDeriv_zeroInterior {u : ℝ → Fld d ℝ} {du : Fld d ℝ} {x : ℝ}
    (h : ∀ c, HasDerivAt (fun e => u e c) (du c) x) (k : Fin d) (hb : Bool) (c : Cell d) :
    HasDerivAt (fun e => C.zeroInterior k hb (u e) c) (C.zeroInterior k hb du c) x := by
  unfold Cfg.zeroInterior
  by_cases hc : (C.acc.pad : ℤ) + C.w0 k ≤ c k ∧
      c k < C.n k - C.w1 k - (C.acc.pad - 1 + if hb = true then 1 else 0)
  · simp only [if_pos hc]
    exact hasDerivAt_const _ _
  · simp only [if_neg hc]
    exact h c

theorem hasDeriv_prepare (w δ : Wavefields d ℝ) :
    Wavefields.HasDeriv (fun e => C.prepare (w.plus e δ).toInit) (C.prepare δ.toInit) 0 where
  v := fun _ c => hasDeriv_zeroEdges (fun c => hasDeriv_createOrPad _ _ c) _ c
  s := fun _ c => hasDeriv_createOrPad _ _ c
  sh := fun _ c => hasDeriv_zeroEdges (fun c => hasDeriv_createOrPad _ _ c) _ c
  mv := fun _ _ c => hasDeriv_zeroInterior
    (fun c => hasDeriv_zeroEdges (fun c => hasDeriv_createOrPad _ _ c) _ c) _ _ c
  ms := fun _ _ c => hasDeriv_zeroInterior
    (fun c => hasDeriv_zeroEdges (fun c => hasDeriv_createOrPad _ _ c) _ c) _ _ c

end Dw.Elastic
