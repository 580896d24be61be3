import Verif.Acoustic.Forward
import Verif.Scalar.Mirror

/-!
# Mirrored problems for the acoustic propagator
-/

namespace Dw.Acoustic

open Dw.Scalar (inject sample inject_mirror inject_mirror' sample_mirror)

variable {d np mp : ℕ} {nv mv : Fin d → ℕ} {R : Type*} [Field R]

/-- The dimension in which velocity component `k` lies at half points. -/
def vHalf (k : Fin d) : Fin d → Bool := fun j => decide (j = k)

/-- No dimension. -/
def noHalf : Fin d → Bool := fun _ => false

theorem vHalf_self (k : Fin d) : vHalf k k = true := by simp [vHalf]

theorem vHalf_ne (k l : Fin d) (h : l ≠ k) : vHalf k l = noHalf l := by simp [vHalf, noHalf, h]

/-- Reflection of the padded arrays. -/
abbrev Cfg.fl (C : Cfg d np mp nv mv R) (e L : Fin d → Bool) : Cell d → Cell d := flipS e C.n L

/-- The mirrored problem: moduli, buoyancies, PML and locations reflected in the dimensions for which
`e` is true.  Velocity component `k` lies half a cell further along `k`, so that the image of its
point `x` is one less than that of a pressure point `x`. -/
def Cfg.mirror (C : Cfg d np mp nv mv R) (e : Fin d → Bool) : Cfg d np mp nv mv R where
  acc := C.acc
  n := C.n
  w0 := fun k => if e k then C.w1 k else C.w0 k
  w1 := fun k => if e k then C.w0 k else C.w1 k
  dx := C.dx
  dt := C.dt
  a := fun k x => C.a k (if e k then C.n k - x else x)
  b := fun k x => C.b k (if e k then C.n k - x else x)
  ah := fun k x => C.ah k (if e k then C.n k - 1 - x else x)
  bh := fun k x => C.bh k (if e k then C.n k - 1 - x else x)
  K := fun c => C.K (C.fl e noHalf c)
  B := fun k c => C.B k (C.fl e (vHalf k) c)
  srcP := fun i => (C.srcP i).map (C.fl e noHalf)
  srcV := fun k i => (C.srcV k i).map (C.fl e (vHalf k))
  rcvP := fun i => (C.rcvP i).map (C.fl e noHalf)
  rcvV := fun k i => (C.rcvV k i).map (C.fl e (vHalf k))
  ratio := C.ratio

variable {C : Cfg d np mp nv mv R} {e : Fin d → Bool}

omit [Field R] in
theorem inner_fl (c : Cell d) : C.Inner (C.fl e noHalf c) ↔ C.Inner c := by
  unfold Cfg.Inner
  refine forall_congr' fun k => ?_
  simp only [flipS_apply, noHalf]
  split_ifs <;> first | contradiction | omega

omit [Field R] in
theorem innerH_fl (k : Fin d) (c : Cell d) : C.InnerH k (C.fl e (vHalf k) c) ↔ C.InnerH k c := by
  have key : ∀ c : Cell d, C.InnerH k c ↔ ∀ j, (C.acc.pad : ℤ) ≤ c j ∧
      c j < C.n j - C.acc.pad + (if vHalf k j then 0 else 1) := by
    intro c
    constructor
    · rintro ⟨h1, h2⟩ j
      have := h1 j
      unfold vHalf
      by_cases hj : j = k
      · subst hj; simp; omega
      · simp [hj]; omega
    · intro h
      refine ⟨fun j => ?_, ?_⟩
      · have := h j
        split_ifs at this <;> omega
      · have := h k
        rw [vHalf_self] at this
        simp only [if_true] at this
        omega
  rw [key, key]
  refine forall_congr' fun j => ?_
  simp only [flipS_apply]
  split_ifs <;> omega

omit [Field R] in
theorem inner_mirror (c : Cell d) : (C.mirror e).Inner c ↔ C.Inner (C.fl e noHalf c) :=
  (inner_fl (C := C) c).symm

omit [Field R] in
theorem innerH_mirror (k : Fin d) (c : Cell d) :
    (C.mirror e).InnerH k c ↔ C.InnerH k (C.fl e (vHalf k) c) := (innerH_fl (C := C) k c).symm

omit [Field R] in
theorem mid_mirror (k : Fin d) (x : ℤ) :
    (C.mirror e).Mid k x ↔ C.Mid k (if e k then C.n k - x else x) := by
  unfold Cfg.Mid Cfg.mirror
  simp only
  split_ifs <;> omega

omit [Field R] in
theorem midH_mirror (k : Fin d) (x : ℤ) :
    (C.mirror e).MidH k x ↔ C.MidH k (if e k then C.n k - 1 - x else x) := by
  unfold Cfg.MidH Cfg.mirror
  simp only
  split_ifs <;> omega

theorem Cfg.WF.mirror (h : C.WF) (e : Fin d → Bool) : (C.mirror e).WF where
  w0_nonneg := fun k => by
    unfold Cfg.mirror; dsimp only; split_ifs; exacts [h.w1_nonneg k, h.w0_nonneg k]
  w1_nonneg := fun k => by
    unfold Cfg.mirror; dsimp only; split_ifs; exacts [h.w0_nonneg k, h.w1_nonneg k]
  size := fun k => by
    have := h.size k
    unfold Cfg.mirror; dsimp only; split_ifs <;> omega
  a_mid := fun k x hx => h.a_mid k _ ((mid_mirror k x).1 hx)
  b_mid := fun k x hx => h.b_mid k _ ((mid_mirror k x).1 hx)
  ah_mid := fun k x hx => h.ah_mid k _ ((midH_mirror k x).1 hx)
  bh_mid := fun k x hx => h.bh_mid k _ ((midH_mirror k x).1 hx)
  srcP_in := fun i c hc =>
    (inner_mirror c).2 (h.srcP_in i _ ((map_flip_eq (flipS_flipS _ _ _) _ c).1 hc))
  srcV_in := fun k i c hc =>
    (innerH_mirror k c).2 (h.srcV_in k i _ ((map_flip_eq (flipS_flipS _ _ _) _ c).1 hc))
  rcvP_in := fun i c hc =>
    (inner_mirror c).2 (h.rcvP_in i _ ((map_flip_eq (flipS_flipS _ _ _) _ c).1 hc))
  rcvV_in := fun k i c hc =>
    (innerH_mirror k c).2 (h.rcvV_in k i _ ((map_flip_eq (flipS_flipS _ _ _) _ c).1 hc))

/-- The mirrored wavefields: components along the reflected dimensions change sign.  `F L` is the
reflection for quantities that lie at half points in the dimensions `L`. -/
def Wavefields.mirror (s : Wavefields d R) (e : Fin d → Bool) (F : (Fin d → Bool) → Cell d → Cell d) :
    Wavefields d R where
  p := fun c => s.p (F noHalf c)
  v := fun k c => flipSgn e k * s.v k (F (vHalf k) c)
  phi := fun k c => s.phi k (F noHalf c)
  psi := fun k c => flipSgn e k * s.psi k (F (vHalf k) c)

theorem DH_mirror (k : Fin d) (u : Fld d R) (c : Cell d) :
    (C.mirror e).DH k (fun c => u (C.fl e noHalf c)) c =
      flipSgn e k * C.DH k u (C.fl e (vHalf k) c) := by
  have := DSH_flip C.acc (1 / C.dx k) e C.n (vHalf_self k) (L' := noHalf)
    (by rw [vHalf_self]; rfl) (fun l hl => (vHalf_ne k l hl).symm) 1 u c
  simp only [one_mul] at this
  exact this

theorem DI_mirror (k : Fin d) (u : Fld d R) (c : Cell d) :
    (C.mirror e).DI k (fun c => flipSgn e k * u (C.fl e (vHalf k) c)) c =
      C.DI k u (C.fl e noHalf c) := by
  have := DS_flip C.acc (1 / C.dx k) e C.n (L := noHalf) (L' := vHalf k) rfl (vHalf_self k)
    (fun l hl => vHalf_ne k l hl) (flipSgn e k) u c
  rw [flipSgn_sq, one_mul] at this
  exact this

theorem psi'_mirror (k : Fin d) (p psi : Fld d R) (c : Cell d) :
    (C.mirror e).psi' k (fun c => p (C.fl e noHalf c))
      (fun c => flipSgn e k * psi (C.fl e (vHalf k) c)) c =
      flipSgn e k * C.psi' k p psi (C.fl e (vHalf k) c) := by
  have hk : ∀ f : ℤ → R, f (if e k then C.n k - 1 - c k else c k) = f (C.fl e (vHalf k) c k) :=
    fun f => by simp [flipS_apply, vHalf_self]
  unfold Cfg.psi'
  simp only [innerH_mirror, DH_mirror]
  simp only [Cfg.mirror, hk]
  split_ifs <;> ring

theorem gradP_mirror (k : Fin d) (s : Wavefields d R) (c : Cell d) :
    (C.mirror e).gradP k (s.mirror e (C.fl e)) c =
      flipSgn e k * C.gradP k s (C.fl e (vHalf k) c) := by
  unfold Cfg.gradP
  simp only [Wavefields.mirror, innerH_mirror, DH_mirror, psi'_mirror]
  split_ifs <;> ring

theorem phi'_mirror (k : Fin d) (v phi : Fld d R) (c : Cell d) :
    (C.mirror e).phi' k (fun c => flipSgn e k * v (C.fl e (vHalf k) c))
      (fun c => phi (C.fl e noHalf c)) c = C.phi' k v phi (C.fl e noHalf c) := by
  have hk : ∀ f : ℤ → R, f (if e k then C.n k - c k else c k) = f (C.fl e noHalf c k) :=
    fun f => by simp [flipS_apply, noHalf]
  unfold Cfg.phi'
  simp only [inner_mirror, DI_mirror]
  simp only [Cfg.mirror, hk]

theorem divV_mirror (s : Wavefields d R) (c : Cell d) :
    (C.mirror e).divV (s.mirror e (C.fl e)) c = C.divV s (C.fl e noHalf c) := by
  unfold Cfg.divV
  simp only [Wavefields.mirror, inner_mirror, DI_mirror, phi'_mirror]

theorem inject_smul {m : ℕ} (loc : Fin m → Option (Cell d)) (z : R) (q : Fin m → R) (c : Cell d) :
    inject loc (fun i => z * q i) c = z * inject loc q c := by
  unfold inject
  rw [Finset.mul_sum]
  exact Finset.sum_congr rfl fun i _ => by split_ifs <;> simp

/-- The configuration with other models. -/
def Cfg.mirModels (C : Cfg d np mp nv mv R) (K : Fld d R) (B : Fin d → Fld d R) :
    Cfg d np mp nv mv R := { C with K := K, B := B }

theorem halfV_mirror {K' : Fld d R} {B' : Fin d → Fld d R}
    (hB : ∀ k c, C.InnerH k c → B' k (C.fl e (vHalf k) c) = C.B k c)
    {q q' : (k : Fin d) → Fin (nv k) → R}
    (hq : ∀ k i, C.srcV k i ≠ none → q' k i = flipSgn e k * q k i) (s : Wavefields d R) :
    ((C.mirror e).mirModels K' B').halfV q' (s.mirror e (C.fl e)) =
      (C.halfV q s).mirror e (C.fl e) := by
  unfold Cfg.halfV
  ext1
  · rfl
  · funext k c
    have h1 := inject_mirror' (flipS_flipS e C.n (vHalf k)) (hq k) c
    rw [inject_smul] at h1
    have h2 := gradP_mirror (C := C) (e := e) k s c
    change flipSgn e k * s.v k _ - C.dt * B' k c * (C.mirror e).gradP k _ c +
      inject (fun i => (C.srcV k i).map (flipS e C.n (vHalf k))) (q' k) c =
      flipSgn e k * (_ - C.dt * _ * _ + _)
    rw [h2, h1]
    by_cases hc : C.InnerH k (C.fl e (vHalf k) c)
    · have h3 := hB k _ hc
      rw [Cfg.fl, flipS_flipS] at h3
      rw [h3]
      ring
    · have : C.gradP k s (C.fl e (vHalf k) c) = 0 := if_neg hc
      rw [this]
      ring
  · rfl
  · funext k c
    exact psi'_mirror (C := C) (e := e) k s.p (s.psi k) c

theorem halfP_mirror {K' : Fld d R} {B' : Fin d → Fld d R}
    (hK : ∀ c, C.Inner c → K' (C.fl e noHalf c) = C.K c)
    {q q' : Fin np → R} (hq : ∀ i, C.srcP i ≠ none → q' i = q i) (s : Wavefields d R) :
    ((C.mirror e).mirModels K' B').halfP q' (s.mirror e (C.fl e)) =
      (C.halfP q s).mirror e (C.fl e) := by
  unfold Cfg.halfP
  ext1
  · funext c
    have h1 := inject_mirror' (flipS_flipS e C.n noHalf) hq c
    have h2 := divV_mirror (C := C) (e := e) s c
    change s.p _ - C.dt * K' c * (C.mirror e).divV _ c +
      inject (fun i => (C.srcP i).map (flipS e C.n noHalf)) q' c = s.p _ - C.dt * C.K _ * _ + _
    rw [h2, h1]
    by_cases hc : C.Inner (C.fl e noHalf c)
    · have h3 := hK _ hc
      rw [Cfg.fl, flipS_flipS] at h3
      rw [h3]
    · have : C.divV s (C.fl e noHalf c) = 0 := if_neg hc
      rw [this]
      ring
  · rfl
  · funext k c
    exact phi'_mirror (C := C) (e := e) k (s.v k) (s.phi k) c
  · rfl

theorem run_mirror {K' : Fld d R} {B' : Fin d → Fld d R}
    (hK : ∀ c, C.Inner c → K' (C.fl e noHalf c) = C.K c)
    (hB : ∀ k c, C.InnerH k c → B' k (C.fl e (vHalf k) c) = C.B k c)
    {fp fp' : ℕ → Fin np → R} {fv fv' : (k : Fin d) → ℕ → Fin (nv k) → R}
    (hp : ∀ t i, C.srcP i ≠ none → fp' t i = fp t i)
    (hv : ∀ k t i, C.srcV k i ≠ none → fv' k t i = flipSgn e k * fv k t i)
    (s : Wavefields d R) (n : ℕ) :
    ((C.mirror e).mirModels K' B').run fp' fv' (s.mirror e (C.fl e)) n =
      (C.run fp fv s n).mirror e (C.fl e) := by
  induction n with
  | zero => rfl
  | succ n ih =>
      unfold Cfg.run
      rw [ih]
      unfold Cfg.next
      rw [← halfP_mirror hK (hp n), ← halfV_mirror hB fun k i => hv k n i]

/-- Reflection of the arrays without padding that the user passes and receives. -/
abbrev Cfg.flU (C : Cfg d np mp nv mv R) (e L : Fin d → Bool) : Cell d → Cell d :=
  flipS e (fun k => C.n k - 2 * C.acc.pad) L

/-- The mirrored initial wavefields. -/
def Init.mirror (w : Init d R) (e : Fin d → Bool) (F : (Fin d → Bool) → Cell d → Cell d) :
    Init d R where
  p := w.p.map fun u c => u (F noHalf c)
  v := fun k => (w.v k).map fun u c => flipSgn e k * u (F (vHalf k) c)
  phi := fun k => (w.phi k).map fun u c => u (F noHalf c)
  psi := fun k => (w.psi k).map fun u c => flipSgn e k * u (F (vHalf k) c)

omit [Field R] in
theorem fl_sub (L : Fin d → Bool) (c : Cell d) :
    C.flU e L (fun k => c k - (C.acc.pad : ℤ)) = fun k => C.fl e L c k - (C.acc.pad : ℤ) := by
  funext k
  simp only [flipS_apply]
  split_ifs <;> omega

theorem createOrPad_mirror (o : Option (Fld d R)) (c : Cell d) :
    (C.mirror e).createOrPad (o.map fun u c => u (C.flU e noHalf c)) c =
      C.createOrPad o (C.fl e noHalf c) := by
  cases o with
  | none => rfl
  | some u =>
      simp only [Cfg.createOrPad, Option.map_some, inner_mirror]
      exact if_congr Iff.rfl (congrArg u (fl_sub _ c)) rfl

theorem edge_mirror (k : Fin d) (z : R) (o : Option (Fld d R)) (c : Cell d) :
    (C.mirror e).zeroEdge k ((C.mirror e).createOrPad (o.map fun u c => z * u (C.flU e (vHalf k) c))) c =
      z * C.zeroEdge k (C.createOrPad o) (C.fl e (vHalf k) c) := by
  have key : ∀ (D : Cfg d np mp nv mv R) (o : Option (Fld d R)) (c : Cell d),
      D.zeroEdge k (D.createOrPad o) c =
        if D.InnerH k c then o.elim 0 fun u => u (fun k => c k - (D.acc.pad : ℤ)) else 0 := by
    intro D o c
    unfold Cfg.zeroEdge Cfg.createOrPad Cfg.InnerH
    by_cases hi : D.Inner c
    · have := hi k
      cases o <;> simp only [hi, true_and, if_true, Option.elim] <;> split_ifs <;> first | rfl | omega
    · cases o <;> simp [hi]
  rw [key, key]
  simp only [innerH_mirror]
  cases o with
  | none => simp
  | some u =>
      have := fl_sub (C := C) (e := e) (vHalf k) c
      simp only [Option.map_some, Option.elim]
      split_ifs
      · exact congrArg (z * u ·) this
      · exact (mul_zero z).symm

theorem prepare_mirror (w : Init d R) :
    (C.mirror e).prepare (w.mirror e (C.flU e)) = (C.prepare w).mirror e (C.fl e) := by
  have h1 : ∀ k (c : Cell d), ((C.mirror e).acc.pad : ℤ) + (C.mirror e).w0 k ≤ c k ∧
      c k < (C.mirror e).n k - (C.mirror e).w1 k - ((C.mirror e).acc.pad - 1) ↔
      (C.acc.pad : ℤ) + C.w0 k ≤ C.fl e noHalf c k ∧
        C.fl e noHalf c k < C.n k - C.w1 k - (C.acc.pad - 1) := by
    intro k c
    have := mid_mirror (C := C) (e := e) k (c k)
    rw [show (if e k then C.n k - c k else c k) = C.fl e noHalf c k by
      simp [flipS_apply, noHalf]] at this
    exact this
  have h2 : ∀ k (c : Cell d), ((C.mirror e).acc.pad : ℤ) + (C.mirror e).w0 k ≤ c k ∧
      c k < (C.mirror e).n k - (C.mirror e).w1 k - (C.mirror e).acc.pad ↔
      (C.acc.pad : ℤ) + C.w0 k ≤ C.fl e (vHalf k) c k ∧
        C.fl e (vHalf k) c k < C.n k - C.w1 k - C.acc.pad := by
    intro k c
    have := midH_mirror (C := C) (e := e) k (c k)
    rw [show (if e k then C.n k - 1 - c k else c k) = C.fl e (vHalf k) c k by
      simp [flipS_apply, vHalf_self]] at this
    exact this
  unfold Cfg.prepare
  ext1
  · funext c; exact createOrPad_mirror _ _
  · funext k c; exact edge_mirror k _ _ c
  · funext k c
    simp only [Cfg.zeroInterior, h1, Init.mirror, createOrPad_mirror, Wavefields.mirror]
  · funext k c
    simp only [Cfg.zeroInterior, h2, Init.mirror, edge_mirror, Wavefields.mirror]
    split_ifs
    · ring
    · rfl

theorem unpadAll_mirror (s : Wavefields d R) :
    (C.mirror e).unpadAll (s.mirror e (C.fl e)) = (C.unpadAll s).mirror e (C.flU e) := by
  have h : ∀ L (c : Cell d), C.fl e L (fun k => c k + (C.acc.pad : ℤ)) =
      fun k => C.flU e L c k + (C.acc.pad : ℤ) := by
    intro L c
    funext k
    simp only [flipS_apply]
    split_ifs <;> omega
  have ha : (C.mirror e).acc = C.acc := rfl
  unfold Cfg.unpadAll Cfg.unpad Wavefields.mirror
  simp only [ha, h]

end Dw.Acoustic
