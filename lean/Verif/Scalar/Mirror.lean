import Verif.Scalar.Forward
import Verif.Core.Mirror

/-!
# Mirrored problems for the scalar propagator
-/

namespace Dw.Scalar

variable {d ns nr : ℕ} {R : Type*} [Field R]

/-- Reflection of the padded arrays. -/
abbrev Cfg.fl (C : Cfg d ns nr R) (e : Fin d → Bool) : Cell d → Cell d := flipAt e fun k => C.n k - 1

/-- The mirrored problem: model, PML and locations reflected in the dimensions for which `e` is true. -/
def Cfg.mirror (C : Cfg d ns nr R) (e : Fin d → Bool) : Cfg d ns nr R where
  acc := C.acc
  n := C.n
  w0 := fun k => if e k then C.w1 k else C.w0 k
  w1 := fun k => if e k then C.w0 k else C.w1 k
  dx := C.dx
  dt := C.dt
  a := fun k x => C.a k (if e k then C.n k - 1 - x else x)
  b := fun k x => C.b k (if e k then C.n k - 1 - x else x)
  db := fun k x => flipSgn e k * C.db k (if e k then C.n k - 1 - x else x)
  v := fun c => C.v (C.fl e c)
  src := fun i => (C.src i).map (C.fl e)
  rcv := fun i => (C.rcv i).map (C.fl e)
  ratio := C.ratio

variable {C : Cfg d ns nr R} {e : Fin d → Bool}

omit [Field R] in
theorem inner_fl (c : Cell d) : C.Inner (C.fl e c) ↔ C.Inner c := by
  unfold Cfg.Inner Cfg.fl flipAt
  refine forall_congr' fun k => ?_
  dsimp only
  split_ifs <;> omega

theorem inner_mirror (c : Cell d) : (C.mirror e).Inner c ↔ C.Inner c := Iff.rfl

theorem mid_mirror (k : Fin d) (x : ℤ) :
    (C.mirror e).Mid k x ↔ C.Mid k (if e k then C.n k - 1 - x else x) := by
  unfold Cfg.Mid Cfg.mirror
  simp only
  split_ifs <;> omega

theorem Cfg.WF.mirror (h : C.WF) (e : Fin d → Bool) : (C.mirror e).WF where
  w0_nonneg := fun k => by
    unfold Cfg.mirror; dsimp only; split_ifs; exacts [h.w1_nonneg k, h.w0_nonneg k]
  w1_nonneg := fun k => by
    unfold Cfg.mirror; dsimp only; split_ifs; exacts [h.w0_nonneg k, h.w1_nonneg k]
  size := fun k => by
    have := h.size k
    unfold Cfg.mirror; dsimp only; split_ifs <;> omega
  a_mid := fun k x hx => h.a_mid k _ ((mid_mirror k x).1 hx)
  b_mid := fun k x hx => h.b_mid k _ ((mid_mirror k x).1 hx)
  db_mid := fun k x h1 h2 => by
    rw [mid_mirror] at h1 h2
    have h3 : (C.mirror e).acc = C.acc := rfl
    rw [h3] at h1 h2
    unfold Cfg.mirror
    dsimp only
    rw [h.db_mid k _ ?_ ?_, mul_zero]
    all_goals
      unfold Cfg.Mid at *
      split_ifs at * <;> omega
  src_in := fun i c hc => by
    obtain ⟨c', h1, rfl⟩ := Option.map_eq_some_iff.1 hc
    exact (inner_mirror _).2 ((inner_fl _).2 (h.src_in i c' h1))
  rcv_in := fun i c hc => by
    obtain ⟨c', h1, rfl⟩ := Option.map_eq_some_iff.1 hc
    exact (inner_mirror _).2 ((inner_fl _).2 (h.rcv_in i c' h1))

/-- The mirrored state: `psi`, a first derivative, changes sign. -/
def Cfg.flipSt (C : Cfg d ns nr R) (e : Fin d → Bool) (s : St d R) : St d R where
  u := fun c => s.u (C.fl e c)
  p := fun c => s.p (C.fl e c)
  psi := fun k c => flipSgn e k * s.psi k (C.fl e c)
  zeta := fun k c => s.zeta k (C.fl e c)

theorem tmp_mirror (s : St d R) (k : Fin d) (c : Cell d) :
    (C.mirror e).tmp (C.flipSt e s) k c = C.tmp s k (C.fl e c) := by
  have hk : C.fl e c k = if e k then C.n k - 1 - c k else c k := rfl
  have ha : (fun c => (C.mirror e).a k (c k) * (C.flipSt e s).psi k c) =
      fun c => flipSgn e k * (fun c => C.a k (c k) * s.psi k c) (C.fl e c) := by
    funext c
    simp only [Cfg.mirror, Cfg.flipSt, Cfg.fl, flipAt]
    ring
  have h3 : ∀ u : Fld d R, D1 C.acc (1 / C.dx k) k (fun c => flipSgn e k * u c) c =
      flipSgn e k * D1 C.acc (1 / C.dx k) k u c := fun u => by
    unfold D1; rw [cDiff1_smul]
  unfold Cfg.tmp Cfg.D1 Cfg.D2
  rw [ha]
  change (1 + C.b k _) * D2 C.acc _ k (fun c => s.u (C.fl e c)) c
    + flipSgn e k * C.db k _ * D1 C.acc _ k (fun c => s.u (C.fl e c)) c
    + D1 C.acc _ k _ c = _
  change _ + _ + D1 C.acc (1 / C.dx k) k _ c = _
  rw [h3 fun c => (fun c => C.a k (c k) * s.psi k c) (C.fl e c)]
  rw [D1_flip, D1_flip C.acc _ e _ k fun c => C.a k (c k) * s.psi k c, D2_flip, ← hk]
  have := flipSgn_sq (R := R) e k
  change (1 + C.b k (C.fl e c k)) * D2 C.acc (1 / C.dx k ^ 2) k s.u (C.fl e c) +
    flipSgn e k * C.db k (C.fl e c k) * (flipSgn e k * D1 C.acc (1 / C.dx k) k s.u (C.fl e c)) +
    flipSgn e k * (flipSgn e k *
      D1 C.acc (1 / C.dx k) k (fun c => C.a k (c k) * s.psi k c) (C.fl e c)) = _
  linear_combination (C.db k (C.fl e c k) * D1 C.acc (1 / C.dx k) k s.u (C.fl e c)
    + D1 C.acc (1 / C.dx k) k (fun c => C.a k (c k) * s.psi k c) (C.fl e c)) * this

theorem lap_mirror (s : St d R) (c : Cell d) :
    (C.mirror e).lap (C.flipSt e s) c = C.lap s (C.fl e c) := by
  unfold Cfg.lap
  refine Finset.sum_congr rfl fun k _ => ?_
  rw [tmp_mirror]
  rfl

theorem refStep_mirror (s : St d R) :
    (C.mirror e).refStep (C.flipSt e s) = C.flipSt e (C.refStep s) := by
  have hi : ∀ c, (C.mirror e).Inner c ↔ C.Inner (C.fl e c) := fun c => (inner_fl c).symm
  unfold Cfg.refStep
  ext1
  · funext c
    simp only [lap_mirror, hi]
    rfl
  · rfl
  · funext k c
    simp only [hi, Cfg.flipSt]
    have hd : (C.mirror e).D1 k (fun c => s.u (C.fl e c)) c = flipSgn e k * C.D1 k s.u (C.fl e c) :=
      D1_flip _ _ _ _ _ _ _
    rw [hd]
    have hk : ∀ p : Fin d → ℤ → R, p k (if e k then C.n k - 1 - c k else c k) = p k (C.fl e c k) :=
      fun _ => rfl
    simp only [Cfg.mirror, hk]
    split_ifs <;> ring
  · funext k c
    simp only [tmp_mirror, hi]
    rfl

theorem inject_mirror {F : Cell d → Cell d} (hF : ∀ c, F (F c) = c) {m : ℕ}
    (loc : Fin m → Option (Cell d)) (q : Fin m → R) (c : Cell d) :
    inject (fun i => (loc i).map F) q c = inject loc q (F c) := by
  unfold inject
  refine Finset.sum_congr rfl fun i _ => ?_
  simp only [map_flip_eq hF]

theorem sample_mirror {F : Cell d → Cell d} (hF : ∀ c, F (F c) = c) {m : ℕ}
    (loc : Fin m → Option (Cell d)) (z : R) (u : Fld d R) :
    sample (fun i => (loc i).map F) (fun c => z * u (F c)) = fun i => z * sample loc u i := by
  funext i
  unfold sample
  dsimp only
  cases loc i with
  | none => exact (mul_zero z).symm
  | some c => exact congrArg (z * u ·) (hF c)

theorem inject_mirror' {F : Cell d → Cell d} (hF : ∀ c, F (F c) = c) {m : ℕ}
    {loc : Fin m → Option (Cell d)} {q q' : Fin m → R} (h : ∀ i, loc i ≠ none → q' i = q i)
    (c : Cell d) : inject (fun i => (loc i).map F) q' c = inject loc q (F c) := by
  rw [← inject_mirror hF]
  unfold inject
  refine Finset.sum_congr rfl fun i _ => ?_
  split_ifs with hi
  · exact h i fun hn => by simp [hn] at hi
  · rfl

theorem run_mirror {f f' : ℕ → Fin ns → R} (hf : ∀ t i, C.src i ≠ none → f' t i = f t i) (t : ℕ)
    (s : St d R) (n : ℕ) :
    (C.mirror e).run f' t (C.flipSt e s) n = C.flipSt e (C.run f t s n) := by
  induction n with
  | zero => rfl
  | succ n ih =>
      rw [Cfg.run, ih]
      unfold Cfg.next
      rw [refStep_mirror]
      ext1
      · funext c
        simp only [Cfg.flipSt]
        rw [show (C.mirror e).src = fun i => (C.src i).map (C.fl e) from rfl, inject_mirror' (flipAt_flipAt _ _) (hf _)]
        rfl
      all_goals rfl

/-- Reflection of the arrays without padding that the user passes and receives. -/
abbrev Cfg.flU (C : Cfg d ns nr R) (e : Fin d → Bool) : Cell d → Cell d :=
  flipAt e fun k => C.n k - 2 * C.acc.pad - 1

/-- The mirrored initial wavefields. -/
def Init.mirror (w : Init d R) (e : Fin d → Bool) (F : Cell d → Cell d) : Init d R where
  wfc := w.wfc.map fun u c => u (F c)
  wfp := w.wfp.map fun u c => u (F c)
  psi := fun k => (w.psi k).map fun u c => flipSgn e k * u (F c)
  zeta := fun k => (w.zeta k).map fun u c => u (F c)

/-- The mirrored wavefields: `psi`, a first derivative, changes sign. -/
def Wavefields.mirror (w : Wavefields d R) (e : Fin d → Bool) (F : Cell d → Cell d) :
    Wavefields d R where
  wfc := fun c => w.wfc (F c)
  wfp := fun c => w.wfp (F c)
  psi := fun k c => flipSgn e k * w.psi k (F c)
  zeta := fun k c => w.zeta k (F c)

theorem createOrPad_mirror (z : R) (o : Option (Fld d R)) (c : Cell d) :
    (C.mirror e).createOrPad (o.map fun u c => z * u (C.flU e c)) c =
      z * C.createOrPad o (C.fl e c) := by
  cases o with
  | none => simp [Cfg.createOrPad]
  | some u =>
      simp only [Cfg.createOrPad, Option.map_some, inner_mirror, inner_fl]
      split_ifs
      · congr 2
        funext k
        simp only [Cfg.fl, flipAt]
        have : (C.mirror e).acc = C.acc := rfl
        rw [this]
        split_ifs <;> omega
      · ring

theorem createOrPad_mirror' (o : Option (Fld d R)) (c : Cell d) :
    (C.mirror e).createOrPad (o.map fun u c => u (C.flU e c)) c = C.createOrPad o (C.fl e c) := by
  simpa using createOrPad_mirror (C := C) (e := e) 1 o c

theorem start_mirror (w : Init d R) : (C.mirror e).start (w.mirror e (C.flU e)) = C.flipSt e (C.start w) := by
  have hz : ∀ k c, ((C.mirror e).acc.pad : ℤ) + (C.mirror e).w0 k ≤ c k ∧
      c k < (C.mirror e).n k - (C.mirror e).w1 k - (C.mirror e).acc.pad ↔
      (C.acc.pad : ℤ) + C.w0 k ≤ C.fl e c k ∧ C.fl e c k < C.n k - C.w1 k - C.acc.pad :=
    fun k c => mid_mirror k (c k)
  unfold Cfg.start
  ext1
  · funext c; exact createOrPad_mirror' _ _
  · funext c; exact createOrPad_mirror' _ _
  · funext k c
    simp only [Cfg.zeroInterior, hz, Cfg.flipSt, Init.mirror, createOrPad_mirror]
    split_ifs
    · ring
    · rfl
  · funext k c
    simp only [Cfg.zeroInterior, hz, Cfg.flipSt, Init.mirror, createOrPad_mirror']

theorem outOf_mirror (s : St d R) :
    (C.mirror e).outOf (C.flipSt e s) = (C.outOf s).mirror e (C.flU e) := by
  have : ∀ c : Cell d, C.fl e (fun k => c k + (C.acc.pad : ℤ)) =
      fun k => C.flU e c k + (C.acc.pad : ℤ) := by
    intro c
    funext k
    simp only [Cfg.fl, Cfg.flU, flipAt]
    split_ifs <;> omega
  unfold Cfg.outOf Wavefields.mirror Cfg.flipSt Cfg.unpad
  have ha : (C.mirror e).acc = C.acc := rfl
  simp only [ha, this]

end Dw.Scalar
