import Verif.Elastic.Forward
import Verif.Acoustic.Mirror

/-!
# Mirrored problems for the elastic propagator
-/

namespace Dw.Elastic

open Dw.Scalar (inject sample inject_mirror inject_mirror' sample_mirror)
open Dw.Acoustic (noHalf inject_smul)

variable {d np mp : ℕ} {nv mv : Fin d → ℕ} {R : Type*} [Field R]

/-- Reflection of the padded arrays. -/
abbrev Cfg.fl (C : Cfg d np mp nv mv R) (e : Fin d → Bool) (L : Loc d) : Cell d → Cell d :=
  flipS e C.n L

/-- The mirrored problem: moduli, buoyancies, PML and locations reflected in the dimensions for which
`e` is true, each quantity at the points where it lies. -/
def Cfg.mirror (C : Cfg d np mp nv mv R) (e : Fin d → Bool) : Cfg d np mp nv mv R where
  acc := C.acc
  n := C.n
  w0 := fun k => if e k then C.w1 k else C.w0 k
  w1 := fun k => if e k then C.w0 k else C.w1 k
  dx := C.dx
  dt := C.dt
  a := fun k x => C.a k (if e k then C.n k - x else x)
  b := fun k x => C.b k (if e k then C.n k - x else x)
  ah := fun k x => C.ah k (if e k then C.n k - 1 - x else x)
  bh := fun k x => C.bh k (if e k then C.n k - 1 - x else x)
  lam := fun c => C.lam (C.fl e noHalf c)
  mu := fun c => C.mu (C.fl e noHalf c)
  muS := fun p c => C.muS p (C.fl e (sLoc p.1.1 p.1.2) c)
  B := fun i c => C.B i (C.fl e (vLoc i) c)
  srcP := fun i => (C.srcP i).map (C.fl e noHalf)
  srcV := fun k i => (C.srcV k i).map (C.fl e (vLoc k))
  rcvP := fun i => (C.rcvP i).map (C.fl e noHalf)
  rcvV := fun k i => (C.rcvV k i).map (C.fl e (vLoc k))
  ratio := C.ratio

variable {C : Cfg d np mp nv mv R} {e : Fin d → Bool}

omit [Field R] in
theorem innerAt_fl (L : Loc d) (c : Cell d) : C.InnerAt L (C.fl e L c) ↔ C.InnerAt L c := by
  have key : ∀ c : Cell d, C.InnerAt L c ↔ ∀ j, (C.acc.pad : ℤ) ≤ c j ∧
      c j < C.n j - C.acc.pad + (if L j then 0 else 1) := by
    intro c
    constructor
    · rintro ⟨h1, h2⟩ j
      have := h1 j
      have h3 := h2 j
      split_ifs with hj
      · have := h3 hj; omega
      · omega
    · intro h
      refine ⟨fun j => ?_, fun j hj => ?_⟩
      · have := h j
        split_ifs at this <;> omega
      · have := h j
        rw [if_pos hj] at this
        omega
  rw [key, key]
  refine forall_congr' fun j => ?_
  simp only [flipS_apply]
  split_ifs <;> omega

omit [Field R] in
theorem innerAt_none (c : Cell d) : C.InnerAt noHalf c ↔ C.Inner c :=
  ⟨fun h => h.1, fun h => ⟨h, fun k hk => by cases hk⟩⟩

omit [Field R] in
theorem innerAt_mirror (L : Loc d) (c : Cell d) :
    (C.mirror e).InnerAt L c ↔ C.InnerAt L (C.fl e L c) := (innerAt_fl (C := C) L c).symm

omit [Field R] in
theorem inner_mirror (c : Cell d) : (C.mirror e).Inner c ↔ C.Inner (C.fl e noHalf c) := by
  rw [← innerAt_none, innerAt_mirror, innerAt_none]

/-- Reflection of a coordinate at half (`h`) or integer points. -/
def Cfg.flX (C : Cfg d np mp nv mv R) (e : Fin d → Bool) (h : Bool) (k : Fin d) (x : ℤ) : ℤ :=
  if e k then C.n k - (if h then 1 else 0) - x else x

omit [Field R] in
theorem midAt_mirror (h : Bool) (k : Fin d) (x : ℤ) :
    (C.mirror e).MidAt h k x ↔ C.MidAt h k (C.flX e h k x) := by
  unfold Cfg.MidAt Cfg.mirror Cfg.flX
  simp only
  split_ifs <;> omega

omit [Field R] in
theorem pa_mirror (h : Bool) (k : Fin d) (x : ℤ) :
    (C.mirror e).pa h k x = C.pa h k (C.flX e h k x) := by
  unfold Cfg.pa Cfg.mirror Cfg.flX
  cases h <;> simp

omit [Field R] in
theorem pb_mirror (h : Bool) (k : Fin d) (x : ℤ) :
    (C.mirror e).pb h k x = C.pb h k (C.flX e h k x) := by
  unfold Cfg.pb Cfg.mirror Cfg.flX
  cases h <;> simp

theorem Cfg.WF.mirror (h : C.WF) (e : Fin d → Bool) : (C.mirror e).WF where
  w0_nonneg := fun k => by
    unfold Cfg.mirror; dsimp only; split_ifs; exacts [h.w1_nonneg k, h.w0_nonneg k]
  w1_nonneg := fun k => by
    unfold Cfg.mirror; dsimp only; split_ifs; exacts [h.w0_nonneg k, h.w1_nonneg k]
  size := fun k => by
    have := h.size k
    unfold Cfg.mirror; dsimp only; split_ifs <;> omega
  pa_mid := fun o k x hx => by rw [pa_mirror]; exact h.pa_mid o k _ ((midAt_mirror o k x).1 hx)
  pb_mid := fun o k x hx => by rw [pb_mirror]; exact h.pb_mid o k _ ((midAt_mirror o k x).1 hx)
  srcP_in := fun i c hc =>
    (inner_mirror c).2 (h.srcP_in i _ ((map_flip_eq (flipS_flipS _ _ _) _ c).1 hc))
  srcV_in := fun k i c hc =>
    (innerAt_mirror _ c).2 (h.srcV_in k i _ ((map_flip_eq (flipS_flipS _ _ _) _ c).1 hc))
  rcvP_in := fun i c hc =>
    (inner_mirror c).2 (h.rcvP_in i _ ((map_flip_eq (flipS_flipS _ _ _) _ c).1 hc))
  rcvV_in := fun k i c hc =>
    (innerAt_mirror _ c).2 (h.rcvV_in k i _ ((map_flip_eq (flipS_flipS _ _ _) _ c).1 hc))

/-- Sign of a tensor component with indices `i`, `j`. -/
def flipSgn2 (e : Fin d → Bool) (i j : Fin d) : R := flipSgn e i * flipSgn e j

/-- The mirrored wavefields: a tensor component changes sign once for every index in a reflected
dimension.  `F L` is the reflection for quantities that lie at half points in the dimensions `L`. -/
def Wavefields.mirror (w : Wavefields d R) (e : Fin d → Bool) (F : Loc d → Cell d → Cell d) :
    Wavefields d R where
  v := fun i c => flipSgn e i * w.v i (F (vLoc i) c)
  s := fun i c => w.s i (F noHalf c)
  sh := fun p c => flipSgn2 e p.1.1 p.1.2 * w.sh p (F (sLoc p.1.1 p.1.2) c)
  mv := fun i j c => flipSgn2 e i j * w.mv i j (F (sLoc i j) c)
  ms := fun i j c => flipSgn e i * w.ms i j (F (vLoc i) c)

omit [Field R] in
theorem fl_at (L : Loc d) (k : Fin d) (c : Cell d) : C.flX e (L k) k (c k) = C.fl e L c k := rfl

theorem D_mirror {L L' : Loc d} {k : Fin d} (hk : L' k = !L k) (h : ∀ l, l ≠ k → L' l = L l) (z : R)
    (u : Fld d R) (c : Cell d) :
    (C.mirror e).D (L k) k (fun c => z * u (C.fl e L' c)) c =
      z * flipSgn e k * C.D (L k) k u (C.fl e L c) := by
  unfold Cfg.D cD
  cases hL : L k
  · exact DS_flip C.acc (1 / C.dx k) e C.n hL hk h z u c
  · exact DSH_flip C.acc (1 / C.dx k) e C.n hL hk h z u c

theorem mem'_mirror {L L' : Loc d} {k : Fin d} (hk : L' k = !L k) (h : ∀ l, l ≠ k → L' l = L l) (z : R)
    (u m : Fld d R) (c : Cell d) :
    (C.mirror e).mem' L k (fun c => z * u (C.fl e L' c)) (fun c => z * flipSgn e k * m (C.fl e L c)) c =
      z * flipSgn e k * C.mem' L k u m (C.fl e L c) := by
  unfold Cfg.mem'
  simp only [innerAt_mirror, D_mirror hk h, pa_mirror, pb_mirror, fl_at]
  split_ifs <;> ring

theorem str_mirror {L L' : Loc d} {k : Fin d} (hk : L' k = !L k) (h : ∀ l, l ≠ k → L' l = L l) (z : R)
    (u m : Fld d R) (c : Cell d) :
    (C.mirror e).str L k (fun c => z * u (C.fl e L' c)) (fun c => z * flipSgn e k * m (C.fl e L c)) c =
      z * flipSgn e k * C.str L k u m (C.fl e L c) := by
  unfold Cfg.str
  simp only [innerAt_mirror, D_mirror hk h, mem'_mirror hk h]
  split_ifs <;> ring

theorem sLoc_other (i j l : Fin d) (hl : l ≠ j) : sLoc i j l = vLoc i l := by
  have : (l == j) = false := by simpa using hl
  simp [sLoc, vLoc, this]

theorem sig_mirror (w : Wavefields d R) (i j : Fin d) :
    (w.mirror e (C.fl e)).sig i j = fun c => flipSgn2 e i j * w.sig i j (C.fl e (sLoc i j) c) := by
  refine pick_eq (fun i j c => flipSgn2 e i j * w.sig i j (C.fl e (sLoc i j) c)) ?_ ?_ ?_ i j
  · intro i
    funext c
    simp only [flipSgn2, flipSgn_sq, one_mul, Wavefields.sig, sigOf, pick_self, sLoc_diag]
    rfl
  · intro p
    funext c
    simp only [Wavefields.sig, sigOf, pick_lt]
    rfl
  · intro p
    funext c
    simp only [Wavefields.sig, sigOf, pick_gt, flipSgn2, sLoc_comm p.1.2 p.1.1]
    rw [mul_comm (flipSgn e p.1.2)]
    rfl

theorem flipSgn2_mul (i j : Fin d) : (flipSgn2 e i j : R) * flipSgn e j = flipSgn e i := by
  unfold flipSgn2
  rw [mul_assoc, flipSgn_sq, mul_one]

theorem ms_mirror (w : Wavefields d R) (i j : Fin d) (c : Cell d) :
    (C.mirror e).mem' (vLoc i) j ((w.mirror e (C.fl e)).sig i j) ((w.mirror e (C.fl e)).ms i j) c =
      flipSgn e i * C.mem' (vLoc i) j (w.sig i j) (w.ms i j) (C.fl e (vLoc i) c) := by
  have := mem'_mirror (C := C) (e := e) (L := vLoc i) (L' := sLoc i j) (k := j) (sLoc_right i j)
    (sLoc_other i j) (flipSgn2 e i j) (w.sig i j) (w.ms i j) c
  rw [flipSgn2_mul, ← sig_mirror] at this
  exact this

theorem divS_mirror (w : Wavefields d R) (i : Fin d) (c : Cell d) :
    (C.mirror e).divS (w.mirror e (C.fl e)) i c = flipSgn e i * C.divS w i (C.fl e (vLoc i) c) := by
  unfold Cfg.divS
  rw [Finset.mul_sum]
  refine Finset.sum_congr rfl fun j _ => ?_
  have := str_mirror (C := C) (e := e) (L := vLoc i) (L' := sLoc i j) (k := j) (sLoc_right i j)
    (sLoc_other i j) (flipSgn2 e i j) (w.sig i j) (w.ms i j) c
  rw [flipSgn2_mul, ← sig_mirror] at this
  exact this

theorem vLoc_right (i j : Fin d) : vLoc i j = !sLoc i j j := by rw [sLoc_right, Bool.not_not]

theorem mv_mirror (w : Wavefields d R) (i j : Fin d) (c : Cell d) :
    (C.mirror e).mem' (sLoc i j) j ((w.mirror e (C.fl e)).v i) ((w.mirror e (C.fl e)).mv i j) c =
      flipSgn2 e i j * C.mem' (sLoc i j) j (w.v i) (w.mv i j) (C.fl e (sLoc i j) c) :=
  mem'_mirror (C := C) (e := e) (L := sLoc i j) (L' := vLoc i) (k := j) (vLoc_right i j)
    (fun l hl => (sLoc_other i j l hl).symm) (flipSgn e i) (w.v i) (w.mv i j) c

theorem gradV_mirror (w : Wavefields d R) (i j : Fin d) (c : Cell d) :
    (C.mirror e).gradV (w.mirror e (C.fl e)) i j c =
      flipSgn2 e i j * C.gradV w i j (C.fl e (sLoc i j) c) :=
  str_mirror (C := C) (e := e) (L := sLoc i j) (L' := vLoc i) (k := j) (vLoc_right i j)
    (fun l hl => (sLoc_other i j l hl).symm) (flipSgn e i) (w.v i) (w.mv i j) c

theorem gradV_diag_mirror (w : Wavefields d R) (i : Fin d) (c : Cell d) :
    (C.mirror e).gradV (w.mirror e (C.fl e)) i i c = C.gradV w i i (C.fl e noHalf c) := by
  rw [gradV_mirror, flipSgn2, flipSgn_sq, one_mul, sLoc_diag]
  rfl

/-- The configuration with other models. -/
def Cfg.mirModels (C : Cfg d np mp nv mv R) (lam mu : Fld d R) (muS : Sh d → Fld d R)
    (B : Fin d → Fld d R) : Cfg d np mp nv mv R :=
  { C with lam := lam, mu := mu, muS := muS, B := B }

/-- Mirrored models at the points that are updated. -/
structure Cfg.Mirrored (C : Cfg d np mp nv mv R) (e : Fin d → Bool) (lam mu : Fld d R)
    (muS : Sh d → Fld d R) (B : Fin d → Fld d R) : Prop where
  lam : ∀ c, C.Inner c → lam (C.fl e noHalf c) = C.lam c
  mu : ∀ c, C.Inner c → mu (C.fl e noHalf c) = C.mu c
  muS : ∀ p c, C.InnerAt (sLoc p.1.1 p.1.2) c → muS p (C.fl e (sLoc p.1.1 p.1.2) c) = C.muS p c
  B : ∀ i c, C.InnerAt (vLoc i) c → B i (C.fl e (vLoc i) c) = C.B i c

section
variable {lam mu : Fld d R} {muS : Sh d → Fld d R} {B : Fin d → Fld d R}

theorem halfV_mirror (hM : C.Mirrored e lam mu muS B) {q q' : (k : Fin d) → Fin (nv k) → R}
    (hq : ∀ k i, C.srcV k i ≠ none → q' k i = flipSgn e k * q k i) (s : Wavefields d R) :
    ((C.mirror e).mirModels lam mu muS B).halfV q' (s.mirror e (C.fl e)) =
      (C.halfV q s).mirror e (C.fl e) := by
  unfold Cfg.halfV
  ext1
  · funext k c
    have h1 := inject_mirror' (flipS_flipS e C.n (vLoc k)) (hq k) c
    rw [inject_smul] at h1
    have h2 := divS_mirror (C := C) (e := e) s k c
    change flipSgn e k * s.v k _ + B k c * C.dt * (C.mirror e).divS _ k c +
      inject (fun i => (C.srcV k i).map (flipS e C.n (vLoc k))) (q' k) c =
      flipSgn e k * (_ + C.B k _ * C.dt * _ + _)
    rw [h2, h1]
    by_cases hc : C.InnerAt (vLoc k) (C.fl e (vLoc k) c)
    · have h3 := hM.B k _ hc
      rw [Cfg.fl, flipS_flipS] at h3
      rw [h3]
      ring
    · have : C.divS s k (C.fl e (vLoc k) c) = 0 :=
        Finset.sum_eq_zero fun j _ => str_out hc
      rw [this]
      ring
  · rfl
  · rfl
  · rfl
  · funext i j c
    exact ms_mirror (C := C) (e := e) s i j c

theorem halfS_mirror (hM : C.Mirrored e lam mu muS B) {q q' : Fin np → R}
    (hq : ∀ i, C.srcP i ≠ none → q' i = q i) (s : Wavefields d R) :
    ((C.mirror e).mirModels lam mu muS B).halfS q' (s.mirror e (C.fl e)) =
      (C.halfS q s).mirror e (C.fl e) := by
  have hg : ((C.mirror e).mirModels lam mu muS B).gradV = (C.mirror e).gradV := rfl
  unfold Cfg.halfS
  ext1
  · rfl
  · funext i c
    have h1 := inject_mirror' (flipS_flipS e C.n noHalf) hq c
    simp only [hg, gradV_diag_mirror]
    change s.s i _ + C.dt * (lam c * _ + 2 * mu c * _) +
      inject (fun i => (C.srcP i).map (flipS e C.n noHalf)) q' c =
      s.s i _ + C.dt * (C.lam _ * _ + 2 * C.mu _ * _) + _
    rw [h1]
    by_cases hc : C.Inner (C.fl e noHalf c)
    · have h3 := hM.lam _ hc
      have h4 := hM.mu _ hc
      rw [Cfg.fl, flipS_flipS] at h3 h4
      rw [h3, h4]
    · have : ∀ k, C.gradV s k k (C.fl e noHalf c) = 0 := fun k => by
        refine str_out ?_
        rw [sLoc_diag]
        exact fun h => hc ((innerAt_none _).1 h)
      simp [this]
  · funext p c
    simp only [hg, gradV_mirror]
    have e1 : (flipSgn2 e p.1.2 p.1.1 : R) = flipSgn2 e p.1.1 p.1.2 := mul_comm _ _
    rw [e1, sLoc_comm p.1.2 p.1.1]
    change flipSgn2 e p.1.1 p.1.2 * _ + C.dt * muS p c * _ =
      flipSgn2 e p.1.1 p.1.2 * (_ + C.dt * C.muS p _ * _)
    by_cases hc : C.InnerAt (sLoc p.1.1 p.1.2) (C.fl e (sLoc p.1.1 p.1.2) c)
    · have h3 := hM.muS p _ hc
      rw [Cfg.fl, flipS_flipS] at h3
      rw [h3]
      ring
    · have h1 : C.gradV s p.1.1 p.1.2 (C.fl e (sLoc p.1.1 p.1.2) c) = 0 := str_out hc
      have h2 : C.gradV s p.1.2 p.1.1 (C.fl e (sLoc p.1.1 p.1.2) c) = 0 := by
        refine str_out ?_
        rw [sLoc_comm p.1.2 p.1.1]
        exact hc
      rw [h1, h2]
      ring
  · funext i j c
    exact mv_mirror (C := C) (e := e) s i j c
  · rfl

theorem run_mirror (hM : C.Mirrored e lam mu muS B) {fp fp' : ℕ → Fin np → R}
    {fv fv' : (k : Fin d) → ℕ → Fin (nv k) → R} (hp : ∀ t i, C.srcP i ≠ none → fp' t i = fp t i)
    (hv : ∀ k t i, C.srcV k i ≠ none → fv' k t i = flipSgn e k * fv k t i)
    (s : Wavefields d R) (n : ℕ) :
    ((C.mirror e).mirModels lam mu muS B).run fp' fv' (s.mirror e (C.fl e)) n =
      (C.run fp fv s n).mirror e (C.fl e) := by
  induction n with
  | zero => rfl
  | succ n ih =>
      unfold Cfg.run
      rw [ih]
      unfold Cfg.next
      rw [← halfS_mirror hM (hp n), ← halfV_mirror hM fun k i => hv k n i]

end

/-- Reflection of the arrays without padding that the user passes and receives. -/
abbrev Cfg.flU (C : Cfg d np mp nv mv R) (e : Fin d → Bool) (L : Loc d) : Cell d → Cell d :=
  flipS e (fun k => C.n k - 2 * C.acc.pad) L

/-- The mirrored initial wavefields. -/
def Init.mirror (w : Init d R) (e : Fin d → Bool) (F : Loc d → Cell d → Cell d) : Init d R where
  v := fun i => (w.v i).map fun u c => flipSgn e i * u (F (vLoc i) c)
  s := fun i => (w.s i).map fun u c => u (F noHalf c)
  sh := fun p => (w.sh p).map fun u c => flipSgn2 e p.1.1 p.1.2 * u (F (sLoc p.1.1 p.1.2) c)
  mv := fun i j => (w.mv i j).map fun u c => flipSgn2 e i j * u (F (sLoc i j) c)
  ms := fun i j => (w.ms i j).map fun u c => flipSgn e i * u (F (vLoc i) c)

omit [Field R] in
theorem fl_sub (L : Loc d) (c : Cell d) :
    C.flU e L (fun k => c k - (C.acc.pad : ℤ)) = fun k => C.fl e L c k - (C.acc.pad : ℤ) := by
  funext k
  simp only [flipS_apply]
  split_ifs <;> omega

theorem createOrPad_mirror (o : Option (Fld d R)) (c : Cell d) :
    (C.mirror e).createOrPad (o.map fun u c => u (C.flU e noHalf c)) c =
      C.createOrPad o (C.fl e noHalf c) := by
  cases o with
  | none => rfl
  | some u =>
      simp only [Cfg.createOrPad, Option.map_some, inner_mirror]
      exact if_congr Iff.rfl (congrArg u (fl_sub _ c)) rfl

theorem edge_mirror (L : Loc d) (z : R) (o : Option (Fld d R)) (c : Cell d) :
    (C.mirror e).zeroEdges L ((C.mirror e).createOrPad (o.map fun u c => z * u (C.flU e L c))) c =
      z * C.zeroEdges L (C.createOrPad o) (C.fl e L c) := by
  have key : ∀ (D : Cfg d np mp nv mv R) (o : Option (Fld d R)) (c : Cell d),
      D.zeroEdges L (D.createOrPad o) c =
        if D.InnerAt L c then o.elim 0 fun u => u (fun k => c k - (D.acc.pad : ℤ)) else 0 := by
    intro D o c
    unfold Cfg.zeroEdges Cfg.createOrPad Cfg.InnerAt
    by_cases hi : D.Inner c
    · have hx : (∃ k, L k = true ∧ c k = D.n k - D.acc.pad) ↔
          ¬∀ k, L k = true → c k < D.n k - D.acc.pad := by
        rw [not_forall]
        refine exists_congr fun k => ?_
        have := hi k
        rw [Classical.not_imp]
        constructor <;> rintro ⟨h1, h2⟩ <;> exact ⟨h1, by omega⟩
      cases o <;> simp only [hi, true_and, if_true, Option.elim, hx] <;> split_ifs <;> rfl
    · cases o <;> simp [hi]
  rw [key, key]
  simp only [innerAt_mirror]
  cases o with
  | none => simp
  | some u =>
      have := fl_sub (C := C) (e := e) L c
      simp only [Option.map_some, Option.elim]
      split_ifs
      · exact congrArg (z * u ·) this
      · exact (mul_zero z).symm

theorem zeroInterior_mirror (L : Loc d) (k : Fin d) (z : R) (u u' : Fld d R) (c : Cell d)
    (h : u' c = z * u (C.fl e L c)) :
    (C.mirror e).zeroInterior k (L k) u' c = z * C.zeroInterior k (L k) u (C.fl e L c) := by
  have := midAt_mirror (C := C) (e := e) (L k) k (c k)
  rw [fl_at] at this
  unfold Cfg.MidAt at this
  unfold Cfg.zeroInterior
  simp only [this, h]
  split_ifs <;> simp

theorem prepare_mirror (w : Init d R) :
    (C.mirror e).prepare (w.mirror e (C.flU e)) = (C.prepare w).mirror e (C.fl e) := by
  unfold Cfg.prepare
  ext1
  · funext i c; exact edge_mirror _ _ _ c
  · funext i c; exact createOrPad_mirror _ c
  · funext p c; exact edge_mirror _ _ _ c
  · funext i j c; exact zeroInterior_mirror _ _ _ _ _ _ (edge_mirror _ _ _ c)
  · funext i j c; exact zeroInterior_mirror _ _ _ _ _ _ (edge_mirror _ _ _ c)

theorem unpadAll_mirror (s : Wavefields d R) :
    (C.mirror e).unpadAll (s.mirror e (C.fl e)) = (C.unpadAll s).mirror e (C.flU e) := by
  have h : ∀ L (c : Cell d), C.fl e L (fun k => c k + (C.acc.pad : ℤ)) =
      fun k => C.flU e L c k + (C.acc.pad : ℤ) := by
    intro L c
    funext k
    simp only [flipS_apply]
    split_ifs <;> omega
  have ha : (C.mirror e).acc = C.acc := rfl
  unfold Cfg.unpadAll Cfg.unpad Wavefields.mirror
  simp only [ha, h]

end Dw.Elastic
