import Verif.Setup.Reorder
import Verif.Props.BornScheme

/-!
# C119: order of sources and receivers of a call of `scalar`, and ignored ones
-/

namespace Dw.Setup

open Scalar (downS downS_comb upAmps)

variable {d : ℕ}

theorem downS_zero {A : SetupArgs d} {P : Plan d} (h : A.Good P) (tt : Bool) (t : ℕ) :
    (downS P tt ⟨P.nt.toNat, fun _ => 0⟩).val t = 0 := by
  have e := downS_comb h tt 0 0 (fun _ => 0) (fun _ => 0)
  simp only [mul_zero, add_zero] at e
  rw [e]
  simp [Resample.Sig.comb]

/-- A field is known from its values at the cells of the grid. -/
theorem index_ext (P : Plan d) {f g : Fld d ℝ} (h : ∀ c, f (P.index c) = g (P.index c)) : f = g := by
  funext c
  have := h fun k => c k + ((P.ext k).1 - P.w0 k)
  have e : P.index (fun k => c k + ((P.ext k).1 - P.w0 k)) = c := funext fun k => by
    unfold Plan.index
    ring
  rwa [e] at this

/-- Solutions of the same equation that start from the same wavefields. -/
theorem startsFrom_zero {P : Plan d} {s : ℕ} {w : Born.UWf d} {u u' : ℕ → Fld d ℝ} {psi zeta psi' zeta' : ℕ → Fin d → Fld d ℝ}
    (ho : ∀ t c, ¬P.grid.In c → u t c = 0 ∧ ∀ k, psi t k c = 0 ∧ zeta t k c = 0)
    (ho' : ∀ t c, ¬P.grid.In c → u' t c = 0 ∧ ∀ k, psi' t k c = 0 ∧ zeta' t k c = 0)
    (h : P.StartsFrom s w u psi zeta) (h' : P.StartsFrom s w u' psi' zeta') (c : Cell d) :
    u' 1 c = u 1 c ∧ u' 0 c = u 0 c ∧ ∀ k, psi' 0 k c = psi 0 k c ∧ zeta' 0 k c = zeta 0 k c := by
  by_cases hc : P.grid.In c
  · obtain ⟨i1, i2, i3⟩ := h c hc
    obtain ⟨j1, j2, j3⟩ := h' c hc
    refine ⟨j1.trans i1.symm, j2.trans i2.symm, fun k => ?_⟩
    by_cases hb : P.Between k (c k)
    · exact ⟨((j3 k).1 hb).1.trans ((i3 k).1 hb).1.symm, ((j3 k).1 hb).2.trans ((i3 k).1 hb).2.symm⟩
    · exact ⟨((j3 k).2 hb).1.trans ((i3 k).2 hb).1.symm, ((j3 k).2 hb).2.trans ((i3 k).2 hb).2.symm⟩
  · refine ⟨(ho' 1 c hc).1.trans (ho 1 c hc).1.symm, (ho' 0 c hc).1.trans (ho 0 c hc).1.symm, fun k => ?_⟩
    exact ⟨((ho' 0 c hc).2 k).1.trans ((ho 0 c hc).2 k).1.symm, ((ho' 0 c hc).2 k).2.trans ((ho 0 c hc).2 k).2.symm⟩

theorem endsIn_unique {P : Plan d} {N : ℕ} {o o' : Scalar.Wavefields d ℝ} {u : ℕ → Fld d ℝ}
    {psi zeta : ℕ → Fin d → Fld d ℝ} (h : P.EndsIn N o u psi zeta) (h' : P.EndsIn N o' u psi zeta) : o' = o := by
  obtain ⟨o1, o2, o3, o4⟩ := o
  obtain ⟨p1, p2, p3, p4⟩ := o'
  have e1 : p1 = o1 := index_ext P fun c => (h' c).1.trans (h c).1.symm
  have e2 : p2 = o2 := index_ext P fun c => (h' c).2.1.trans (h c).2.1.symm
  have e3 : p3 = o3 := funext fun k => index_ext P fun c => ((h' c).2.2 k).1.trans ((h c).2.2 k).1.symm
  have e4 : p4 = o4 := funext fun k => index_ext P fun c => ((h' c).2.2 k).2.trans ((h c).2.2 k).2.symm
  rw [e1, e2, e3, e4]

/-- The sources with their amplitudes are at other indices; there are as many amplitudes as locations. -/
structure SrcRel (e : ℕ → ℕ → ℕ) (o o' : Option LocT) (a a' : Option AmpT) : Prop where
  loc : LocRel e o o'
  amp : Option.Rel (AmpT.Into e) a a'
  size : ∀ x l, a' = some x → o' = some l → x.n = l.n

/-- They inject the same. -/
theorem SrcRel.inject {A : SetupArgs d} {P : Plan d} (hg : A.Good P) {e : ℕ → ℕ → ℕ} {o o' : Option LocT}
    {a a' : Option AmpT} (h : SrcRel e o o' a a') (j : ℕ) (ho : A.srcs[j]? = some o) (ha : A.amps[j]? = some a) (tt : Bool)
    (s t : ℕ) (c : Cell d) : locSum o' s (fun i => upAmps P tt a' s t i) c = locSum o s (fun i => upAmps P tt a s t i) c := by
  refine h.loc.sum s (fun i hi => upAmps_into h.amp s t fun x hx => ?_) c
  subst hx
  cases o with
  | none => cases hi
  | some l =>
      have := (checkAmpsMatch_iff.1 hg.ampsMatch).2 j (some x.n) (some l.n) (by simp [ha]) (by simp [ho])
      rw [Option.some.inj this]
      exact hi

theorem LocRel.whole {e : ℕ → ℕ → ℕ} {o o' : Option LocT} (h : LocRel e o o') {s : ℕ}
    (hw : ∀ l, o = some l → Scalar.WholeIgnored d l s) : ∀ l, o' = some l → Scalar.WholeIgnored d l s := by
  intro l hl
  cases h with
  | none => cases hl
  | some h => exact Option.some.inj hl ▸ h.whole (hw _ rfl)

theorem LocRel.refl (o : Option LocT) : LocRel (fun _ => id) o o := by
  cases o with
  | none => exact .none
  | some l =>
      exact .some ⟨rfl, rfl, fun _ _ h => h, fun _ _ _ _ _ h => h, fun _ _ _ _ => rfl,
        fun _ j hj h => absurd rfl (h j hj)⟩

theorem rel_one {α : Type} {R : ℕ → α → α → Prop} {a b : Option α} (hab : Option.Rel (R 0) a b) (j : ℕ) (o o' : Option α)
    (h1 : [a][j]? = some o) (h2 : [b][j]? = some o') : Option.Rel (R j) o o' := by
  match j with
  | 0 =>
      simp only [List.getElem?_cons_zero, Option.some.injEq] at h1 h2
      rw [← h1, ← h2]
      exact hab
  | j + 1 => simp at h1

/-- Traces of receivers at other indices. -/
def TracesRel (e : ℕ → ℕ) (n n' : ℕ) (x x' : ℕ → Resample.Sig ℝ) : Prop :=
  (∀ i < n, x' (e i) = x i) ∧ ∀ j < n', (∀ i < n, e i ≠ j) → ∀ t, (x' j).val t = 0

theorem traces_rel {A : SetupArgs d} {P : Plan d} (hg : A.Good P) {er : ℕ → ℕ → ℕ} {o o' : Option LocT} (h : LocRel er o o')
    {s N : ℕ} {tt : Bool} (u : ℕ → Fld d ℝ) {x x' : ℕ → Resample.Sig ℝ}
    (hx : ∀ i < locCount o, x i = downS P tt ⟨P.nt.toNat, fun t => if t < N then locValue o s i (u t) else 0⟩)
    (hx' : ∀ i < locCount o', x' i = downS P tt ⟨P.nt.toNat, fun t => if t < N then locValue o' s i (u t) else 0⟩) :
    TracesRel (er s) (locCount o) (locCount o') x x' := by
  refine ⟨fun i hi => ?_, fun j hj hr t => ?_⟩
  · rw [hx i hi, hx' _ (h.lt s hi)]
    simp only [h.value s hi]
  · rw [hx' j hj]
    simp only [h.value_rest s hj hr, ite_self]
    exact downS_zero hg _ t

/-! ### Example

The two locations of `exLoc` in the opposite order, with an ignored one in between. -/

def exTo : ℕ → ℕ → ℕ := fun _ i => 2 - 2 * i

def exLoc3 : LocT :=
  ⟨2, 3, 2, fun s i k => if i = 1 then (ignoreLocation : ℚ) else exLoc.val s (1 - i / 2) k⟩

noncomputable def exAmp3 : AmpT := ⟨2, 3, 5, fun s i t => if i = 1 then 77 else exAmp.val s (1 - i / 2) t⟩

theorem exLoc3_into : exLoc.Into exTo exLoc3 where
  nb := rfl
  nd := rfl
  lt := fun s i hi => by
    have : i < 2 := hi
    show 2 - 2 * i < 3
    omega
  inj := fun s i hi j hj => by
    have : i < 2 := hi
    have : j < 2 := hj
    show 2 - 2 * i = 2 - 2 * j → _
    omega
  val := fun s i hi k => by
    have hi : i < 2 := hi
    show (if 2 - 2 * i = 1 then (ignoreLocation : ℚ) else exLoc.val s (1 - (2 - 2 * i) / 2) k) = _
    rw [if_neg (by omega), show 1 - (2 - 2 * i) / 2 = i by omega]
  rest := fun s j hj h k => by
    have hj : j < 3 := hj
    have h0 : 2 - 2 * 0 ≠ j := h 0 (by decide)
    have h1 : 2 - 2 * 1 ≠ j := h 1 (by decide)
    exact if_pos (by omega)

theorem exAmp3_into : exAmp.Into exTo exAmp3 where
  nb := rfl
  nt := rfl
  val := fun s i hi t => by
    have hi : i < 2 := hi
    show (if 2 - 2 * i = 1 then 77 else exAmp.val s (1 - (2 - 2 * i) / 2) t) = _
    rw [if_neg (by omega), show 1 - (2 - 2 * i) / 2 = i by omega]

theorem exSrc3 : SrcRel exTo (some exLoc) (some exLoc3) (some exAmp) (some exAmp3) :=
  ⟨.some exLoc3_into, .some exAmp3_into, fun x l hx hl => by cases hx; cases hl; rfl⟩

end Dw.Setup

namespace Dw.Scalar

open Setup Resample

variable {d : ℕ}

/-- What is needed of a call for its propagator to run. -/
structure Fwd (A : UArgs d) (P : Plan d) (s : ℕ) (cf : ℤ) : Prop where
  good : A.setup.Good P
  lt : s < P.nb
  pml : PmlOk P
  src : ∀ l, A.src = some l → WholeIgnored d l s
  rcv : ∀ l, A.rcv = some l → WholeIgnored d l s
  freq : checkCallbackFrequency A.callbackFreq = .ok cf
  interval : 0 < P.interval
  nt : A.callback = true ∨ P.ratio * P.interval ≤ P.nt ∨ P.nt ≤ 0

/-- Two calls that are planned alike and inject the same. -/
theorem agree {A A' : UArgs d} {P : Plan d} {ss rr : List IdxT} {s : ℕ} {cf cf' : ℤ} {er : ℕ → ℕ → ℕ} (h : Fwd A P s cf)
    (h' : Fwd A' { P with srcs := ss, rcvs := rr } s cf')
    (hA : A'.v = A.v ∧ A'.wfc = A.wfc ∧ A'.wfp = A.wfp ∧ A'.psi = A.psi ∧ A'.zeta = A.zeta ∧ A'.timeTaper = A.timeTaper)
    (hq : ∀ t c, locSum (d := d) A'.src s (fun i => upAmps P A.timeTaper A'.amps s t i) c =
      locSum A.src s (fun i => upAmps P A.timeTaper A.amps s t i) c) (hr : LocRel er A.rcv A'.rcv) :
    ∃ r r', A.scalar s = .ok (some r) ∧ A'.scalar s = .ok (some r') ∧ r'.out = r.out ∧
      TracesRel (er s) (locCount A.rcv) (locCount A'.rcv) r.traces r'.traces := by
  obtain ⟨a1, a2, a3, a4, a5, a6⟩ := hA
  obtain ⟨r, u, psi, zeta, hc, hw, hi, ho, ht⟩ := C90_scalar_scheme A P s cf (plan_ok.2 h.good) h.lt h.pml h.src h.rcv
    h.freq h.interval h.nt
  obtain ⟨r', u', psi', zeta', hc', hw', hi', ho', ht'⟩ := C90_scalar_scheme A' _ s cf' (plan_ok.2 h'.good) h'.lt h'.pml
    h'.src h'.rcv h'.freq h'.interval h'.nt
  rw [a1, a6] at hw'
  replace hw' : P.grid.Wave (P.grid.extend (A.v.shot s))
      (fun t => locSum A.src s fun i => upAmps P A.timeTaper A.amps s t i) u' psi' zeta' :=
    (funext fun t => funext (hq t) : (fun t => locSum (d := d) A'.src s fun i => upAmps P A.timeTaper A'.amps s t i) =
      fun t => locSum A.src s fun i => upAmps P A.timeTaper A.amps s t i) ▸ hw'
  rw [a2, a3, a4, a5] at hi'
  obtain ⟨rfl, rfl, rfl⟩ : u' = u ∧ psi' = psi ∧ zeta' = zeta :=
    hw'.unique hw (startsFrom_zero (w := ⟨A.wfc, A.wfp, A.psi, A.zeta⟩) hw.outside hw'.outside hi hi')
  rw [a6] at ht'
  exact ⟨r, r', hc, hc', endsIn_unique (P := P) ho ho', traces_rel (P := P) h.good hr (fun t => u' (t + 1)) ht ht'⟩

/-- The call with other tensors of sources, of amplitudes and of receivers. -/
def UArgs.rearranged (A : UArgs d) (src rcv : Option LocT) (amps : Option AmpT) : UArgs d :=
  { A with src := src, rcv := rcv, amps := amps }

/-- **C119** The order of the sources (with their amplitudes) and of the receivers of a call of `scalar`, and
entries of them that are ignored, do not matter: source `i` of shot `s` may as well be at index `es s i`, receiver
`i` at `er s i`, other entries being `IGNORE_LOCATION` with any amplitudes. The wavefields are the same, the trace of a
receiver is at its new index, and those of ignored receivers are zero. -/
theorem C119_order (A : UArgs d) (P : Plan d) (s : ℕ) (cf : ℤ) (h : Fwd A P s cf) (heps : 0 ≤ A.eps)
    (es er : ℕ → ℕ → ℕ) (src rcv : Option LocT) (amps : Option AmpT) (hsrc : SrcRel es A.src src A.amps amps)
    (hrcv : LocRel er A.rcv rcv) :
    ∃ r r', A.scalar s = .ok (some r) ∧ (A.rearranged src rcv amps).scalar s = .ok (some r') ∧ r'.out = r.out ∧
      (∀ i < locCount A.rcv, r'.traces (er s i) = r.traces i) ∧
      ∀ j < locCount rcv, (∀ i < locCount A.rcv, er s i ≠ j) → ∀ t, (r'.traces j).val t = 0 := by
  have hg := good_rearranged h.good heps (Nat.pos_of_ne_zero h.good.shape_pos.1) (es := fun _ => es) (er := fun _ => er)
    (srcs := [src]) (rcvs := [rcv]) (amps := [amps]) ⟨rfl, rel_one hsrc.loc⟩ ⟨rfl, rel_one hrcv⟩ ⟨rfl, rel_one hsrc.amp⟩
    fun j a l h1 h2 => by
      match j with
      | 0 => exact hsrc.size a l (Option.some.inj h1) (Option.some.inj h2)
      | j + 1 => simp at h1
  exact agree (A' := A.rearranged src rcv amps) h
    { good := hg, lt := h.lt, pml := h.pml, src := hsrc.loc.whole h.src, rcv := hrcv.whole h.rcv, freq := h.freq
      interval := h.interval, nt := h.nt } ⟨rfl, rfl, rfl, rfl, rfl, rfl⟩
    (fun t c => hsrc.inject h.good 0 rfl rfl _ s t c) hrcv

theorem exU_fwd (s : ℕ) (hs : s < 2) : Fwd (exU .none) (exP ![(0, 7), (0, 9)]) s 1 where
  good := exU_whole
  lt := hs
  pml := .inl (by norm_num [exP])
  src := fun l hl => by cases hl; exact exLoc_whole s hs
  rcv := fun l hl => by cases hl; exact exLoc_whole s hs
  freq := rfl
  interval := by norm_num [exP]
  nt := .inr (.inl (by norm_num [exP]))

example : ∃ r r', (exU .none).scalar 0 = .ok (some r) ∧
    ((exU .none).rearranged (some exLoc3) (some exLoc3) (some exAmp3)).scalar 0 = .ok (some r') ∧ r'.out = r.out ∧
    r'.traces 2 = r.traces 0 ∧ r'.traces 0 = r.traces 1 ∧ ∀ t, (r'.traces 1).val t = 0 := by
  obtain ⟨r, r', h1, h2, h3, h4, h5⟩ := C119_order (exU .none) _ 0 1 (exU_fwd 0 (by decide)) (by norm_num [exU]) exTo exTo
    (some exLoc3) (some exLoc3) (some exAmp3) exSrc3 (.some exLoc3_into)
  exact ⟨r, r', h1, h2, h3, h4 0 (by decide), h4 1 (by decide), h5 1 (by decide) (by decide)⟩

/-- **C120** The wavefields and traces of a call of `scalar` do not depend on whether there is a callback and how often it is
called, nor on whether the gradient of the velocity is needed. -/
theorem C120_observers (A : UArgs d) (P : Plan d) (s : ℕ) (cf cf' : ℤ) (h : Fwd A P s cf) (cb grad : Bool) (freq : PyNum)
    (hfreq : checkCallbackFrequency freq = .ok cf') (hnt : cb = true ∨ P.ratio * P.interval ≤ P.nt ∨ P.nt ≤ 0) :
    ∃ r r', A.scalar s = .ok (some r) ∧
      ({ A with callback := cb, callbackFreq := freq, grad := grad } : UArgs d).scalar s = .ok (some r') ∧
      r'.out = r.out ∧ ∀ i < locCount A.rcv, r'.traces i = r.traces i := by
  obtain ⟨r, r', h1, h2, h3, h4, -⟩ := agree (er := fun _ => id)
    (A' := { A with callback := cb, callbackFreq := freq, grad := grad }) (ss := P.srcs) (rr := P.rcvs) (cf' := cf') h
    { good := h.good, lt := h.lt, pml := h.pml, src := h.src, rcv := h.rcv, freq := hfreq
      interval := h.interval, nt := hnt } ⟨rfl, rfl, rfl, rfl, rfl, rfl⟩ (fun _ _ => rfl) (LocRel.refl _)
  exact ⟨r, r', h1, h2, h3, h4⟩

example : ∃ r r', (exU .none).scalar 1 = .ok (some r) ∧
    ({ exU .none with callback := true, callbackFreq := .int 3, grad := false } : UArgs 2).scalar 1 = .ok (some r') ∧
    r'.out = r.out ∧ ∀ i < locCount (exU .none).rcv, r'.traces i = r.traces i :=
  C120_observers (exU .none) _ 1 1 3 (exU_fwd 1 (by decide)) true false (.int 3) rfl (.inl rfl)

end Dw.Scalar
