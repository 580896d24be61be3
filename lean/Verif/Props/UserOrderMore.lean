import Verif.Props.UserOrder
import Verif.Props.AcousticScheme
import Verif.Props.ElasticScheme
import Verif.Born.UserGrad
import Verif.Acoustic.UserGrad
import Verif.Elastic.UserGrad

/-!
# C119 and C120 for `scalar_born`, `acoustic` and `elastic`
-/

namespace Dw.Setup

variable {d : ℕ}

theorem rel_two {α : Type} {R : ℕ → α → α → Prop} {a b a' b' : Option α} (ha : Option.Rel (R 0) a a')
    (hb : Option.Rel (R 1) b b') (j : ℕ) (o o' : Option α)
    (h1 : [a, b][j]? = some o) (h2 : [a', b'][j]? = some o') : Option.Rel (R j) o o' := by
  match j with
  | 0 =>
      simp only [List.getElem?_cons_zero, Option.some.injEq] at h1 h2
      rw [← h1, ← h2]
      exact ha
  | 1 =>
      simp only [List.getElem?_cons_zero, List.getElem?_cons_succ, Option.some.injEq] at h1 h2
      rw [← h1, ← h2]
      exact hb
  | j + 2 => simp at h1

theorem ofFn_get {α : Type} {f : Fin d → α} {j : ℕ} {x : α} :
    (List.ofFn f)[j]? = some x ↔ ∃ h : j < d, f ⟨j, h⟩ = x := by
  rw [List.getElem?_eq_some_iff]
  simp

/-- Lists of tensors as `acoustic` and `elastic` make them. -/
def consFn {α : Type} (x : α) (f : Fin d → α) : ℕ → α
  | 0 => x
  | j + 1 => if h : j < d then f ⟨j, h⟩ else x

def snocFn {α : Type} (f : Fin d → α) (x : α) (j : ℕ) : α := if h : j < d then f ⟨j, h⟩ else x

theorem rel_cons {α β : Type} {R : β → α → α → Prop} {e : β} {f : Fin d → β} {a a' : Option α} {b b' : Fin d → Option α}
    (ha : Option.Rel (R e) a a') (hb : ∀ k, Option.Rel (R (f k)) (b k) (b' k)) (j : ℕ) (o o' : Option α)
    (h1 : (a :: List.ofFn b)[j]? = some o) (h2 : (a' :: List.ofFn b')[j]? = some o') :
    Option.Rel (R (consFn e f j)) o o' := by
  match j with
  | 0 =>
      simp only [List.getElem?_cons_zero, Option.some.injEq] at h1 h2
      rw [← h1, ← h2]
      exact ha
  | j + 1 =>
      rw [List.getElem?_cons_succ, ofFn_get] at h1 h2
      obtain ⟨h, rfl⟩ := h1
      obtain ⟨-, rfl⟩ := h2
      rw [consFn, dif_pos h]
      exact hb _

theorem snoc_get {α : Type} {f : Fin d → α} {x y : α} {j : ℕ} (h : (List.ofFn f ++ [x])[j]? = some y) :
    (∃ h : j < d, f ⟨j, h⟩ = y) ∨ j = d ∧ x = y := by
  rw [List.getElem?_append] at h
  split_ifs at h with hj
  · exact .inl (ofFn_get.1 h)
  · simp only [List.length_ofFn] at h hj
    have hd : j - d = 0 := by
      by_contra hne
      obtain ⟨m, hm⟩ := Nat.exists_eq_succ_of_ne_zero hne
      rw [hm] at h
      simp at h
    rw [hd] at h
    exact .inr ⟨by omega, Option.some.inj h⟩

theorem snoc_last {α : Type} (f : Fin d → α) (x : α) : (List.ofFn f ++ [x])[d]? = some x := by
  rw [List.getElem?_append_right (by simp)]
  simp

theorem snoc_init {α : Type} (f : Fin d → α) (x : α) (k : Fin d) : (List.ofFn f ++ [x])[(k : ℕ)]? = some (f k) := by
  rw [List.getElem?_append_left (by simp)]
  exact ofFn_get.2 ⟨k.isLt, rfl⟩

theorem rel_snoc {α β : Type} {R : β → α → α → Prop} {e : β} {f : Fin d → β} {a a' : Option α} {b b' : Fin d → Option α}
    (ha : Option.Rel (R e) a a') (hb : ∀ k, Option.Rel (R (f k)) (b k) (b' k)) (j : ℕ) (o o' : Option α)
    (h1 : (List.ofFn b ++ [a])[j]? = some o) (h2 : (List.ofFn b' ++ [a'])[j]? = some o') :
    Option.Rel (R (snocFn f e j)) o o' := by
  rcases snoc_get h1 with ⟨h, rfl⟩ | ⟨h, rfl⟩
  · rcases snoc_get h2 with ⟨-, rfl⟩ | ⟨h', -⟩
    · rw [snocFn, dif_pos h]
      exact hb _
    · omega
  · rcases snoc_get h2 with ⟨h', -⟩ | ⟨-, rfl⟩
    · omega
    · rw [snocFn, dif_neg (by omega)]
      exact ha

theorem LocRel.beyond {e : ℕ → ℕ → ℕ} {o o' : Option LocT} (h : LocRel e o o') {k : ℕ} {size : ℤ}
    (hb : ∀ l, o = some l → ¬l.Beyond k size) : ∀ l, o' = some l → ¬l.Beyond k size := by
  rintro l hl ⟨s, hs, j, hj, hne, hle⟩
  cases h with
  | none => cases hl
  | @some l0 _ h =>
      obtain rfl := Option.some.inj hl
      rcases h.cases s hj with ⟨i, hi, rfl⟩ | ⟨-, hr⟩
      · rw [h.val s i hi] at hne hle
        exact hb l0 rfl ⟨s, h.nb ▸ hs, i, hi, hne, hle⟩
      · exact hne (hr k)

theorem LocRel.beforeLast {e : ℕ → ℕ → ℕ} {o o' : Option LocT} (h : LocRel e o o') {P : Plan d} {k : Fin d} {s : ℕ}
    (hb : P.BeforeLast k s o) : P.BeforeLast k s o' := by
  intro j hj c hc
  cases h with
  | none => cases hj
  | @some l0 l h =>
      rcases h.cases s hj with ⟨i, hi, rfl⟩ | ⟨hr, -⟩
      · rw [h.cell_loc s hi] at hc
        exact hb i hi c hc
      · rw [h.cell_rest s hj hr] at hc
        cases hc

end Dw.Setup

namespace Dw.Born

open Setup Resample
open Scalar (upAmps WholeIgnored)

variable {d : ℕ}

/-- Two calls that are planned alike and inject the same. -/
theorem agree {A A' : UArgs d} {P : Plan d} {ss rr : List IdxT} {s : ℕ} {cf cf' : ℤ} {eb er : ℕ → ℕ → ℕ} (h : Fwd A P s cf)
    (h' : Fwd A' { P with srcs := ss, rcvs := rr } s cf')
    (hA : A'.v = A.v ∧ A'.scatter = A.scatter ∧ A'.wf = A.wf ∧ A'.wfsc = A.wfsc ∧ A'.opts.timeTaper = A.opts.timeTaper)
    (hq : ∀ t c, locSum (d := d) A'.src s (fun i => upAmps P A.opts.timeTaper A'.amps s t i) c =
      locSum A.src s (fun i => upAmps P A.opts.timeTaper A.amps s t i) c) (hb : LocRel eb A.bgRcv A'.bgRcv)
    (hr : LocRel er A.rcv A'.rcv) :
    ∃ r r', A.born s = .ok (some r) ∧ A'.born s = .ok (some r') ∧ r'.out = r.out ∧ r'.outsc = r.outsc ∧
      TracesRel (eb s) (locCount A.bgRcv) (locCount A'.bgRcv) r.bgTraces r'.bgTraces ∧
      TracesRel (er s) (locCount A.rcv) (locCount A'.rcv) r.traces r'.traces := by
  obtain ⟨a1, a2, a3, a4, a5⟩ := hA
  obtain ⟨r, u, psi, zeta, w, ps, ze, hc, hw, hsc, hi, hi2, ho, ho2, hb1, ht⟩ := C91_born_scheme A P s cf (plan_ok.2 h.good)
    h.lt h.pml h.loc h.freq h.interval h.nt
  obtain ⟨r', u', psi', zeta', w', ps', ze', hc', hw', hsc', hi', hi2', ho', ho2', hb1', ht'⟩ := C91_born_scheme A' _ s cf'
    (plan_ok.2 h'.good) h'.lt h'.pml h'.loc h'.freq h'.interval h'.nt
  have e : (fun t => locSum (d := d) A'.src s fun i => upAmps P A.opts.timeTaper A'.amps s t i) =
      fun t => locSum A.src s fun i => upAmps P A.opts.timeTaper A.amps s t i := funext fun t => funext (hq t)
  rw [a1, a5] at hw'
  rw [a1, a2, a5] at hsc'
  replace hw' : P.grid.Wave (P.grid.extend (A.v.shot s))
      (fun t => locSum A.src s fun i => upAmps P A.opts.timeTaper A.amps s t i) u' psi' zeta' := e ▸ hw'
  replace hsc' : P.grid.Scattered (P.grid.extend (A.v.shot s)) (P.grid.extendZero (A.scatter.shot s))
      (fun t => locSum A.src s fun i => upAmps P A.opts.timeTaper A.amps s t i) u' psi' zeta' w' ps' ze' := e ▸ hsc'
  rw [a3] at hi'
  rw [a4] at hi2'
  obtain ⟨rfl, rfl, rfl⟩ : u' = u ∧ psi' = psi ∧ zeta' = zeta :=
    hw'.unique hw (startsFrom_zero hw.outside hw'.outside hi hi')
  obtain ⟨rfl, rfl, rfl⟩ : w' = w ∧ ps' = ps ∧ ze' = ze :=
    hsc'.unique hsc (startsFrom_zero hsc.outside hsc'.outside hi2 hi2')
  rw [a5] at hb1' ht'
  exact ⟨r, r', hc, hc', endsIn_unique (P := P) ho ho', endsIn_unique (P := P) ho2 ho2',
    traces_rel (P := P) h.good hb (fun t => u' (t + 1)) hb1 hb1', traces_rel (P := P) h.good hr (fun t => w' (t + 1)) ht ht'⟩

/-- The call with other tensors of sources, of amplitudes and of receivers. -/
def UArgs.rearranged (A : UArgs d) (src bgRcv rcv : Option LocT) (amps : Option AmpT) : UArgs d :=
  { A with src := src, bgRcv := bgRcv, rcv := rcv, amps := amps }

/-- **C119** for `scalar_born`. -/
theorem C119_born_order (A : UArgs d) (P : Plan d) (s : ℕ) (cf : ℤ) (h : Fwd A P s cf) (heps : 0 ≤ A.opts.eps)
    (es eb er : ℕ → ℕ → ℕ) (src bgRcv rcv : Option LocT) (amps : Option AmpT) (hsrc : SrcRel es A.src src A.amps amps)
    (hbg : LocRel eb A.bgRcv bgRcv) (hrcv : LocRel er A.rcv rcv) :
    ∃ r r', A.born s = .ok (some r) ∧ (A.rearranged src bgRcv rcv amps).born s = .ok (some r') ∧
      r'.out = r.out ∧ r'.outsc = r.outsc ∧
      TracesRel (eb s) (locCount A.bgRcv) (locCount bgRcv) r.bgTraces r'.bgTraces ∧
      TracesRel (er s) (locCount A.rcv) (locCount rcv) r.traces r'.traces := by
  have hg := good_rearranged h.good heps (Nat.pos_of_ne_zero h.good.shape_pos.1) (es := fun _ => es)
    (er := fun j => if j = 0 then eb else er) (srcs := [src, src]) (rcvs := [bgRcv, rcv]) (amps := [amps, amps])
    ⟨rfl, rel_two hsrc.loc hsrc.loc⟩ ⟨rfl, rel_two (R := fun j => LocT.Into (if j = 0 then eb else er)) hbg hrcv⟩
    ⟨rfl, rel_two hsrc.amp hsrc.amp⟩
    fun j a l h1 h2 => by
      match j with
      | 0 => exact hsrc.size a l (Option.some.inj h1) (Option.some.inj h2)
      | 1 => exact hsrc.size a l (Option.some.inj h1) (Option.some.inj h2)
      | j + 2 => simp at h1
  refine agree (A' := A.rearranged src bgRcv rcv amps) h
    { good := hg, lt := h.lt, pml := h.pml, loc := fun l hl => ?_, freq := h.freq
      interval := h.interval, nt := h.nt } ⟨rfl, rfl, rfl, rfl, rfl⟩
    (fun t c => hsrc.inject h.good 0 rfl rfl _ s t c) hbg hrcv
  rcases hl with hl | hl | hl
  · exact hsrc.loc.whole (fun l hl => h.loc l (.inl hl)) l hl
  · exact hrcv.whole (fun l hl => h.loc l (.inr (.inl hl))) l hl
  · exact hbg.whole (fun l hl => h.loc l (.inr (.inr hl))) l hl

/-- **C120** for `scalar_born`. -/
theorem C120_born_observers (A : UArgs d) (P : Plan d) (s : ℕ) (cf cf' : ℤ) (h : Fwd A P s cf) (cb gradV gradS : Bool)
    (freq : PyNum) (hfreq : checkCallbackFrequency freq = .ok cf')
    (hnt : cb = true ∨ P.ratio * P.interval ≤ P.nt ∨ P.nt ≤ 0) :
    ∃ r r', A.born s = .ok (some r) ∧
      ({ A with opts := { A.opts with callback := cb, callbackFreq := freq }, gradV := gradV, gradS := gradS } :
        UArgs d).born s = .ok (some r') ∧
      r'.out = r.out ∧ r'.outsc = r.outsc ∧ (∀ i < locCount A.bgRcv, r'.bgTraces i = r.bgTraces i) ∧
      ∀ i < locCount A.rcv, r'.traces i = r.traces i := by
  obtain ⟨r, r', h1, h2, h3, h4, h5, h6⟩ := agree (eb := fun _ => id) (er := fun _ => id)
    (A' := { A with opts := { A.opts with callback := cb, callbackFreq := freq }, gradV := gradV, gradS := gradS })
    (ss := P.srcs) (rr := P.rcvs) (cf' := cf') h
    { good := h.good, lt := h.lt, pml := h.pml, loc := h.loc, freq := hfreq
      interval := h.interval, nt := hnt } ⟨rfl, rfl, rfl, rfl, rfl⟩ (fun _ _ => rfl) (LocRel.refl _) (LocRel.refl _)
  exact ⟨r, r', h1, h2, h3, h4, h5.1, h6.1⟩

theorem exU_fwd (s : ℕ) (hs : s < 2) : Fwd (exU .none) (exP ![(0, 7), (0, 9)]) s 1 where
  good := exU_whole
  lt := hs
  pml := .inl (by norm_num [exP, exPl])
  loc := fun l hl => by
    refine exLoc_whole hs ?_
    rcases hl with hl | hl | hl <;> simp only [exU, Option.some.injEq, reduceCtorEq] at hl
    · exact hl.symm
    · exact hl.symm
  freq := rfl
  interval := by norm_num [exP, exPl]
  nt := .inr (.inl (by norm_num [exP, exPl]))

example : ∃ r r', (exU .none).born 0 = .ok (some r) ∧
    ((exU .none).rearranged (some exLoc3) none (some exLoc3) (some exAmp3)).born 0 = .ok (some r') ∧ r'.out = r.out ∧
    r'.outsc = r.outsc ∧ r'.traces 2 = r.traces 0 ∧ r'.traces 0 = r.traces 1 ∧ ∀ t, (r'.traces 1).val t = 0 := by
  obtain ⟨r, r', h1, h2, h3, h4, -, h5, h6⟩ := C119_born_order (exU .none) _ 0 1 (exU_fwd 0 (by decide))
    (by norm_num [exU, exO]) exTo exTo exTo (some exLoc3) none (some exLoc3) (some exAmp3) exSrc3 .none (.some exLoc3_into)
  exact ⟨r, r', h1, h2, h3, h4, h5 0 (by decide), h5 1 (by decide), h6 1 (by decide) (by decide)⟩

example : ∃ r r', (exU .none).born 1 = .ok (some r) ∧
    ({ exU .none with opts := { (exU .none).opts with callback := true, callbackFreq := .int 3 }, gradV := false, gradS := false } :
        UArgs 2).born 1 = .ok (some r') ∧
    r'.out = r.out ∧ r'.outsc = r.outsc ∧ (∀ i < locCount (exU .none).bgRcv, r'.bgTraces i = r.bgTraces i) ∧
    ∀ i < locCount (exU .none).rcv, r'.traces i = r.traces i :=
  C120_born_observers (exU .none) _ 1 1 3 (exU_fwd 1 (by decide)) true false false (.int 3) rfl (.inl rfl)

end Dw.Born

namespace Dw.Acoustic

open Setup Resample
open Scalar (upAmps WholeIgnored)

variable {d : ℕ}

/-- Two calls that are planned alike and inject the same. -/
theorem agree {A A' : UArgs d} {P : Plan d} {ss rr : List IdxT} {s : ℕ} {cf cf' : ℤ} {eP : ℕ → ℕ → ℕ}
    {eV : Fin d → ℕ → ℕ → ℕ} (h : Fwd A P s cf) (h' : Fwd A' { P with srcs := ss, rcvs := rr } s cf')
    (hA : A'.v = A.v ∧ A'.rho = A.rho ∧ A'.wf = A.wf ∧ A'.rfmax = A.rfmax ∧ A'.opts.timeTaper = A.opts.timeTaper)
    (hq : ∀ t c, locSum (d := d) A'.srcP s (fun i => upAmps P A.opts.timeTaper A'.ampP s t i) c =
      locSum A.srcP s (fun i => upAmps P A.opts.timeTaper A.ampP s t i) c)
    (hqv : ∀ k t c, locSum (d := d) (A'.srcV k) s (fun i => upAmps P A.opts.timeTaper (A'.ampV k) s t i) c =
      locSum (A.srcV k) s (fun i => upAmps P A.opts.timeTaper (A.ampV k) s t i) c)
    (hr : LocRel eP A.rcvP A'.rcvP) (hrv : ∀ k, LocRel (eV k) (A.rcvV k) (A'.rcvV k)) :
    ∃ r r', A.acoustic s = .ok (some r) ∧ A'.acoustic s = .ok (some r') ∧ r'.out = r.out ∧
      TracesRel (eP s) (locCount A.rcvP) (locCount A'.rcvP) r.tracesP r'.tracesP ∧
      ∀ k, TracesRel (eV k s) (locCount (A.rcvV k)) (locCount (A'.rcvV k)) (r.tracesV k) (r'.tracesV k) := by
  obtain ⟨a1, a2, a3, a4, a5⟩ := hA
  obtain ⟨r, p, v, phi, psi, hc, hw, hi, ho, hp, hv⟩ := C92_acoustic_scheme A P s cf (plan_ok.2 h.good) h.pre
    h.lt h.pml h.loc h.last h.freq h.interval h.nt
  obtain ⟨r', p', v', phi', psi', hc', hw', hi', ho', hp', hv'⟩ := C92_acoustic_scheme A' _ s cf' (plan_ok.2 h'.good) h'.pre
    h'.lt h'.pml h'.loc h'.last h'.freq h'.interval h'.nt
  have e1 : (fun t => locSum (d := d) A'.srcP s fun i => upAmps P A.opts.timeTaper A'.ampP s t i) =
      fun t => locSum A.srcP s fun i => upAmps P A.opts.timeTaper A.ampP s t i := funext fun t => funext (hq t)
  have e2 : (fun t k => locSum (d := d) (A'.srcV k) s fun i => upAmps P A.opts.timeTaper (A'.ampV k) s t i) =
      fun t k => locSum (A.srcV k) s fun i => upAmps P A.opts.timeTaper (A.ampV k) s t i :=
    funext fun t => funext fun k => funext (hqv k t)
  rw [a1, a2, a4, a5] at hw'
  replace hw' : P.grid.Acoustic (fun c => P.grid.extend (A.rho.shot s) c * P.grid.extend (A.v.shot s) c ^ 2)
      (fun k c => Spec.inverse A.rfmax (Spec.mean (P.grid.extend (A.rho.shot s)) k c))
      (fun t => locSum A.srcP s fun i => upAmps P A.opts.timeTaper A.ampP s t i)
      (fun t k => locSum (A.srcV k) s fun i => upAmps P A.opts.timeTaper (A.ampV k) s t i) p' v' phi' psi' :=
    e1 ▸ e2 ▸ hw'
  rw [a3] at hi'
  replace hi' : ∀ c, (P.grid.In c → p' 0 c = P.given A.wf.p s c ∧ ∀ k,
      (P.Between k (c k) → phi' 0 k c = 0) ∧ (¬P.Between k (c k) → phi' 0 k c = P.given (A.wf.phi k) s c)) ∧
      ∀ k, P.grid.InH k c → v' 0 k c = P.given (A.wf.v k) s c ∧
        (P.BetweenH k (c k) → psi' 0 k c = 0) ∧
        (¬P.BetweenH k (c k) → psi' 0 k c = P.given (A.wf.psi k) s c) := hi'
  obtain ⟨rfl, rfl, rfl, rfl⟩ : p' = p ∧ v' = v ∧ phi' = phi ∧ psi' = psi := by
    refine hw'.unique hw ⟨funext fun c => ?_, funext fun k => funext fun c => ?_, funext fun k => funext fun c => ?_,
      funext fun k => funext fun c => ?_⟩
    · by_cases hc : P.grid.In c
      · rw [((hi c).1 hc).1, ((hi' c).1 hc).1]
      · rw [((hw.outside 0 c).1 hc).1, ((hw'.outside 0 c).1 hc).1]
    · by_cases hc : P.grid.InH k c
      · rw [((hi c).2 k hc).1, ((hi' c).2 k hc).1]
      · rw [((hw.outside 0 c).2 k hc).1, ((hw'.outside 0 c).2 k hc).1]
    · by_cases hc : P.grid.In c
      · by_cases hb : P.Between k (c k)
        · rw [(((hi c).1 hc).2 k).1 hb, (((hi' c).1 hc).2 k).1 hb]
        · rw [(((hi c).1 hc).2 k).2 hb, (((hi' c).1 hc).2 k).2 hb]
      · rw [((hw.outside 0 c).1 hc).2 k, ((hw'.outside 0 c).1 hc).2 k]
    · by_cases hc : P.grid.InH k c
      · by_cases hb : P.BetweenH k (c k)
        · rw [((hi c).2 k hc).2.1 hb, ((hi' c).2 k hc).2.1 hb]
        · rw [((hi c).2 k hc).2.2 hb, ((hi' c).2 k hc).2.2 hb]
      · rw [((hw.outside 0 c).2 k hc).2, ((hw'.outside 0 c).2 k hc).2]
  rw [a5] at hp' hv'
  refine ⟨r, r', hc, hc', ?_, traces_rel (P := P) h.good hr p' hp hp', fun k =>
    traces_rel (P := P) h.good (hrv k) (fun t => v' t k) (hv k) (hv' k)⟩
  refine Wavefields.ext (index_ext P fun c => (ho' c).1.trans (ho c).1.symm) ?_ ?_ ?_
  · exact funext fun k => index_ext P fun c => ((ho' c).2 k).1.trans ((ho c).2 k).1.symm
  · exact funext fun k => index_ext P fun c => ((ho' c).2 k).2.1.trans ((ho c).2 k).2.1.symm
  · exact funext fun k => index_ext P fun c => ((ho' c).2 k).2.2.trans ((ho c).2 k).2.2.symm

/-- The call with other tensors of sources, of amplitudes and of receivers. -/
def UArgs.rearranged (A : UArgs d) (srcP : Option LocT) (srcV : Fin d → Option LocT) (ampP : Option AmpT)
    (ampV : Fin d → Option AmpT) (rcvP : Option LocT) (rcvV : Fin d → Option LocT) : UArgs d :=
  { A with srcP := srcP, srcV := srcV, ampP := ampP, ampV := ampV, rcvP := rcvP, rcvV := rcvV }

/-- **C119** for `acoustic`. -/
theorem C119_acoustic_order (A : UArgs d) (P : Plan d) (s : ℕ) (cf : ℤ) (h : Fwd A P s cf) (heps : 0 ≤ A.opts.eps)
    (esP erP : ℕ → ℕ → ℕ) (esV erV : Fin d → ℕ → ℕ → ℕ) (srcP : Option LocT) (srcV : Fin d → Option LocT)
    (ampP : Option AmpT) (ampV : Fin d → Option AmpT) (rcvP : Option LocT) (rcvV : Fin d → Option LocT)
    (hsP : SrcRel esP A.srcP srcP A.ampP ampP) (hsV : ∀ k, SrcRel (esV k) (A.srcV k) (srcV k) (A.ampV k) (ampV k))
    (hrP : LocRel erP A.rcvP rcvP) (hrV : ∀ k, LocRel (erV k) (A.rcvV k) (rcvV k)) :
    ∃ r r', A.acoustic s = .ok (some r) ∧ (A.rearranged srcP srcV ampP ampV rcvP rcvV).acoustic s = .ok (some r') ∧
      r'.out = r.out ∧ TracesRel (erP s) (locCount A.rcvP) (locCount rcvP) r.tracesP r'.tracesP ∧
      ∀ k, TracesRel (erV k s) (locCount (A.rcvV k)) (locCount (rcvV k)) (r.tracesV k) (r'.tracesV k) := by
  have hg := good_rearranged h.good heps (Nat.pos_of_ne_zero h.good.shape_pos.1) (es := consFn esP esV)
    (er := consFn erP erV) (srcs := srcP :: List.ofFn srcV) (rcvs := rcvP :: List.ofFn rcvV) (amps := ampP :: List.ofFn ampV)
    ⟨by simp [UArgs.setup, Opts.setup], rel_cons (R := LocT.Into) hsP.loc fun k => (hsV k).loc⟩
    ⟨by simp [UArgs.setup, Opts.setup], rel_cons (R := LocT.Into) hrP hrV⟩
    ⟨by simp [UArgs.setup, Opts.setup], rel_cons (R := AmpT.Into) hsP.amp fun k => (hsV k).amp⟩
    fun j a l h1 h2 => by
      match j with
      | 0 => exact hsP.size a l (Option.some.inj h1) (Option.some.inj h2)
      | j + 1 =>
          rw [List.getElem?_cons_succ, ofFn_get] at h1 h2
          obtain ⟨h, h1⟩ := h1
          obtain ⟨_, h2⟩ := h2
          exact (hsV _).size a l h1 h2
  have hwV : ∀ k l, A.srcV k = some l ∨ A.rcvV k = some l → WholeIgnored d l s := fun k l hl => by
    refine h.loc l (List.mem_append.2 ?_)
    exact hl.imp (fun e => List.mem_cons_of_mem _ (List.mem_ofFn.2 ⟨k, e⟩)) fun e => List.mem_cons_of_mem _ (List.mem_ofFn.2 ⟨k, e⟩)
  refine agree (A' := A.rearranged srcP srcV ampP ampV rcvP rcvV) h
    { good := hg, pre := ?_, lt := h.lt, pml := h.pml, loc := fun l hl => ?_, last := fun k => ?_, freq := h.freq
      interval := h.interval, nt := h.nt } ⟨rfl, rfl, rfl, rfl, rfl⟩
    (fun t c => hsP.inject h.good 0 rfl rfl _ s t c)
    (fun k t c => (hsV k).inject h.good (k + 1) (ofFn_get.2 ⟨k.isLt, rfl⟩) (ofFn_get.2 ⟨k.isLt, rfl⟩) _ s t c) hrP hrV
  · rintro (hn | ⟨k, l, hl | hl, hb⟩)
    · exact h.pre (.inl hn)
    · exact (hsV k).loc.beyond (fun l hl hb => h.pre (.inr ⟨k, l, .inl hl, hb⟩)) l hl hb
    · exact (hrV k).beyond (fun l hl hb => h.pre (.inr ⟨k, l, .inr hl, hb⟩)) l hl hb
  · rcases List.mem_append.1 hl with hl | hl
    · rcases List.mem_cons.1 hl with hl | hl
      · exact hsP.loc.whole (fun l hl => h.loc l (List.mem_append_left _ (hl ▸ List.mem_cons_self))) l hl.symm
      · obtain ⟨k, hk⟩ := List.mem_ofFn.1 hl
        exact (hsV k).loc.whole (fun l hl => hwV k l (.inl hl)) l hk
    · rcases List.mem_cons.1 hl with hl | hl
      · exact hrP.whole (fun l hl => h.loc l (List.mem_append_right _ (hl ▸ List.mem_cons_self))) l hl.symm
      · obtain ⟨k, hk⟩ := List.mem_ofFn.1 hl
        exact (hrV k).whole (fun l hl => hwV k l (.inr hl)) l hk
  · exact (h.last k).imp id fun hx => hx.imp id fun hx => ⟨(hsV k).loc.beforeLast hx.1, (hrV k).beforeLast hx.2⟩

/-- **C120** for `acoustic`. -/
theorem C120_acoustic_observers (A : UArgs d) (P : Plan d) (s : ℕ) (cf cf' : ℤ) (h : Fwd A P s cf) (cb gradK gradB : Bool)
    (freq : PyNum) (hfreq : checkCallbackFrequency freq = .ok cf')
    (hnt : cb = true ∨ P.ratio * P.interval ≤ P.nt ∨ P.nt ≤ 0) :
    ∃ r r', A.acoustic s = .ok (some r) ∧
      ({ A with opts := { A.opts with callback := cb, callbackFreq := freq }, gradK := gradK, gradB := gradB } :
        UArgs d).acoustic s = .ok (some r') ∧
      r'.out = r.out ∧ (∀ i < locCount A.rcvP, r'.tracesP i = r.tracesP i) ∧
      ∀ k, ∀ i < locCount (A.rcvV k), r'.tracesV k i = r.tracesV k i := by
  obtain ⟨r, r', h1, h2, h3, h4, h5⟩ := agree (eP := fun _ => id) (eV := fun _ _ => id)
    (A' := { A with opts := { A.opts with callback := cb, callbackFreq := freq }, gradK := gradK, gradB := gradB })
    (ss := P.srcs) (rr := P.rcvs) (cf' := cf') h
    { good := h.good, pre := h.pre, lt := h.lt, pml := h.pml, loc := h.loc, last := h.last, freq := hfreq
      interval := h.interval, nt := hnt } ⟨rfl, rfl, rfl, rfl, rfl⟩ (fun _ _ => rfl) (fun _ _ _ => rfl)
      (LocRel.refl _) (fun _ => LocRel.refl _)
  exact ⟨r, r', h1, h2, h3, h4.1, fun k => (h5 k).1⟩

theorem exU_fwd (s : ℕ) (hs : s < 2) : Fwd (exU .none) (exP ![(0, 7), (0, 9)]) s 1 where
  good := exU_whole
  pre := exU_pre .none
  lt := hs
  pml := .inl (by norm_num [exP, exPl])
  loc := fun l hl => Born.exLoc_whole hs (exU_locs .none l hl)
  last := fun k => .inl (by fin_cases k <;> norm_num [exP, exPl, Plan.w1])
  freq := rfl
  interval := by norm_num [exP, exPl]
  nt := .inr (.inl (by norm_num [exP, exPl]))

example : ∃ r r', (exU .none).acoustic 0 = .ok (some r) ∧
    ((exU .none).rearranged (some exLoc3) ![none, some exLoc3] (some exAmp3) ![none, some exAmp3] (some exLoc3)
      ![some exLoc3, none]).acoustic 0 = .ok (some r') ∧ r'.out = r.out ∧
    r'.tracesP 2 = r.tracesP 0 ∧ r'.tracesV 0 0 = r.tracesV 0 1 ∧ ∀ t, (r'.tracesP 1).val t = 0 := by
  obtain ⟨r, r', h1, h2, h3, ⟨h4, h5⟩, h6⟩ := C119_acoustic_order (exU .none) _ 0 1 (exU_fwd 0 (by decide))
    (by norm_num [exU, exO]) exTo exTo (fun _ => exTo) (fun _ => exTo) (some exLoc3) ![none, some exLoc3] (some exAmp3)
    ![none, some exAmp3] (some exLoc3) ![some exLoc3, none] exSrc3
    (Fin.forall_fin_two.2 ⟨⟨.none, .none, fun _ _ h => by cases h⟩, exSrc3⟩) (.some exLoc3_into)
    (Fin.forall_fin_two.2 ⟨.some exLoc3_into, .none⟩)
  exact ⟨r, r', h1, h2, h3, h4 0 (by decide), (h6 0).1 1 (by decide), h5 1 (by decide) (by decide)⟩

example : ∃ r r', (exU .none).acoustic 1 = .ok (some r) ∧
    ({ exU .none with opts := { (exU .none).opts with callback := true, callbackFreq := .int 3 }, gradK := false, gradB := false } :
        UArgs 2).acoustic 1 = .ok (some r') ∧
    r'.out = r.out ∧ (∀ i < locCount (exU .none).rcvP, r'.tracesP i = r.tracesP i) ∧
    ∀ k, ∀ i < locCount ((exU .none).rcvV k), r'.tracesV k i = r.tracesV k i :=
  C120_acoustic_observers (exU .none) _ 1 1 3 (exU_fwd 1 (by decide)) true false false (.int 3) rfl (.inl rfl)

end Dw.Acoustic

namespace Dw.Elastic

open Setup Resample
open Scalar (upAmps WholeIgnored)

variable {d : ℕ}

/-- Two calls that are planned alike and inject the same. -/
theorem agree {A A' : UArgs d} {P : Plan d} {ss rr : List IdxT} {s : ℕ} {cf cf' : ℤ} {eP : ℕ → ℕ → ℕ}
    {eV : Fin d → ℕ → ℕ → ℕ} (h : Fwd A P s cf) (h' : Fwd A' { P with srcs := ss, rcvs := rr } s cf')
    (hA : A'.lam = A.lam ∧ A'.mu = A.mu ∧ A'.buoyancy = A.buoyancy ∧ A'.wf = A.wf ∧ A'.rfmax = A.rfmax ∧
      A'.opts.timeTaper = A.opts.timeTaper)
    (hq : ∀ t c, locSum (d := d) A'.srcP s (fun i => upAmps P A.opts.timeTaper A'.ampP s t i) c =
      locSum A.srcP s (fun i => upAmps P A.opts.timeTaper A.ampP s t i) c)
    (hqv : ∀ k t c, locSum (d := d) (A'.srcV k) s (fun i => upAmps P A.opts.timeTaper (A'.ampV k) s t i) c =
      locSum (A.srcV k) s (fun i => upAmps P A.opts.timeTaper (A.ampV k) s t i) c)
    (hr : LocRel eP A.rcvP A'.rcvP) (hrv : ∀ k, LocRel (eV k) (A.rcvV k) (A'.rcvV k)) :
    ∃ r r', A.elastic s = .ok (some r) ∧ A'.elastic s = .ok (some r') ∧ r'.out = r.out ∧
      TracesRel (eP s) (locCount A.rcvP) (locCount A'.rcvP) r.tracesP r'.tracesP ∧
      ∀ k, TracesRel (eV k s) (locCount (A.rcvV k)) (locCount (A'.rcvV k)) (r.tracesV k) (r'.tracesV k) := by
  obtain ⟨a1, a2, a3, a4, a5, a6⟩ := hA
  obtain ⟨r, v, sig, mv, ms, hc, hw, hi, ho, hp, hv⟩ := C93_elastic_scheme A P s cf (plan_ok.2 h.good) h.pre
    h.lt h.pml h.loc h.last h.freq h.interval h.nt
  obtain ⟨r', v', sig', mv', ms', hc', hw', hi', ho', hp', hv'⟩ := C93_elastic_scheme A' _ s cf' (plan_ok.2 h'.good) h'.pre
    h'.lt h'.pml h'.loc h'.last h'.freq h'.interval h'.nt
  have e1 : (fun t => locSum (d := d) A'.srcP s fun i => upAmps P A.opts.timeTaper A'.ampP s t i) =
      fun t => locSum A.srcP s fun i => upAmps P A.opts.timeTaper A.ampP s t i := funext fun t => funext (hq t)
  have e2 : (fun t k => locSum (d := d) (A'.srcV k) s fun i => upAmps P A.opts.timeTaper (A'.ampV k) s t i) =
      fun t k => locSum (A.srcV k) s fun i => upAmps P A.opts.timeTaper (A.ampV k) s t i :=
    funext fun t => funext fun k => funext (hqv k t)
  rw [a1, a2, a3, a5, a6] at hw'
  replace hw' : P.grid.Elastic (P.grid.extend (A.lam.shot s)) (P.grid.extend (A.mu.shot s))
      (Spec.harmonic A.rfmax (P.grid.extend (A.mu.shot s)))
      (fun k c => Spec.inverse A.rfmax (Spec.mean (fun c => Spec.inverse A.rfmax (P.grid.extend (A.buoyancy.shot s) c)) k c))
      (fun t => locSum A.srcP s fun i => upAmps P A.opts.timeTaper A.ampP s t i)
      (fun t k => locSum (A.srcV k) s fun i => upAmps P A.opts.timeTaper (A.ampV k) s t i) v' sig' mv' ms' :=
    e1 ▸ e2 ▸ hw'
  rw [a4] at hi'
  replace hi' : ∀ i c, (P.grid.In c → sig' 0 i i c = P.given (A.wf.s i) s c) ∧
      (∀ j, (hij : i < j) → P.grid.InAt (Spec.atS i j) c → sig' 0 i j c = P.given (A.wf.sh ⟨(i, j), hij⟩) s c) ∧
      (∀ j, P.grid.InAt (Spec.atS i j) c →
        (P.BetweenAt (Spec.atS i j j) j (c j) → mv' 0 i j c = 0) ∧
        (¬P.BetweenAt (Spec.atS i j j) j (c j) → mv' 0 i j c = P.given (A.wf.mv i j) s c)) ∧
      (P.grid.InAt (Spec.atV i) c → v' 0 i c = P.given (A.wf.v i) s c ∧ ∀ j,
        (P.BetweenAt (Spec.atV i j) j (c j) → ms' 0 i j c = 0) ∧
        (¬P.BetweenAt (Spec.atV i j) j (c j) → ms' 0 i j c = P.given (A.wf.ms i j) s c)) := hi'
  have hlt : ∀ i j c, i < j → sig' 0 i j c = sig 0 i j c := by
    intro i j c hij
    by_cases hc : P.grid.InAt (Spec.atS i j) c
    · rw [(hi i c).2.1 j hij hc, (hi' i c).2.1 j hij hc]
    · rw [((hw.outside 0 i c).2 j hc).1, ((hw'.outside 0 i c).2 j hc).1]
  obtain ⟨rfl, rfl, rfl, rfl⟩ : v' = v ∧ sig' = sig ∧ mv' = mv ∧ ms' = ms := by
    refine hw'.unique hw ⟨funext fun i => funext fun c => ?_, funext fun i => funext fun j => funext fun c => ?_,
      funext fun i => funext fun j => funext fun c => ?_, funext fun i => funext fun j => funext fun c => ?_⟩
    · by_cases hc : P.grid.InAt (Spec.atV i) c
      · rw [((hi i c).2.2.2 hc).1, ((hi' i c).2.2.2 hc).1]
      · rw [((hw.outside 0 i c).1 hc).1, ((hw'.outside 0 i c).1 hc).1]
    · rcases lt_trichotomy i j with hij | rfl | hij
      · exact hlt i j c hij
      · by_cases hc : P.grid.In c
        · rw [(hi i c).1 hc, (hi' i c).1 hc]
        · have hc' := fun hx => hc ((Spec.atS_self P.grid i c).1 hx)
          rw [((hw.outside 0 i c).2 i hc').1, ((hw'.outside 0 i c).2 i hc').1]
      · rw [hw.symm 0 i j, hw'.symm 0 i j]
        exact hlt j i c hij
    · by_cases hc : P.grid.InAt (Spec.atS i j) c
      · by_cases hb : P.BetweenAt (Spec.atS i j j) j (c j)
        · rw [((hi i c).2.2.1 j hc).1 hb, ((hi' i c).2.2.1 j hc).1 hb]
        · rw [((hi i c).2.2.1 j hc).2 hb, ((hi' i c).2.2.1 j hc).2 hb]
      · rw [((hw.outside 0 i c).2 j hc).2, ((hw'.outside 0 i c).2 j hc).2]
    · by_cases hc : P.grid.InAt (Spec.atV i) c
      · by_cases hb : P.BetweenAt (Spec.atV i j) j (c j)
        · rw [(((hi i c).2.2.2 hc).2 j).1 hb, (((hi' i c).2.2.2 hc).2 j).1 hb]
        · rw [(((hi i c).2.2.2 hc).2 j).2 hb, (((hi' i c).2.2.2 hc).2 j).2 hb]
      · rw [((hw.outside 0 i c).1 hc).2, ((hw'.outside 0 i c).1 hc).2]
  rw [a6] at hp' hv'
  have hy := traces_rel (P := P) (tt := A.opts.timeTaper) (s := s) (N := P.steps) h.good hr (fun t c => ∑ k, sig' t k k c)
    (fun _ _ => rfl) (fun _ _ => rfl)
  refine ⟨r, r', hc, hc', ?_, ⟨fun i hi => ?_, fun j hj hne t => ?_⟩, fun k =>
    traces_rel (P := P) h.good (hrv k) (fun t => v' t k) (hv k) (hv' k)⟩
  · refine Wavefields.ext ?_ ?_ ?_ ?_ ?_
    · exact funext fun k => index_ext P fun c => (ho' c k).1.trans (ho c k).1.symm
    · exact funext fun k => index_ext P fun c => (ho' c k).2.1.trans (ho c k).2.1.symm
    · exact funext fun k => index_ext P fun c => ((ho' c k.1.1).2.2.1 k.1.2 k.2).trans ((ho c k.1.1).2.2.1 k.1.2 k.2).symm
    · exact funext fun i => funext fun j => index_ext P fun c => ((ho' c i).2.2.2 j).1.trans ((ho c i).2.2.2 j).1.symm
    · exact funext fun i => funext fun j => index_ext P fun c => ((ho' c i).2.2.2 j).2.trans ((ho c i).2.2.2 j).2.symm
  · rw [hp i hi, hp' _ (hr.lt s hi)]
    exact congrArg (fun y : Sig ℝ => (⟨y.len, fun t => -y.val t / d⟩ : Sig ℝ)) (hy.1 i hi)
  · rw [hp' j hj]
    exact (congrArg (fun y : ℝ => -y / d) (hy.2 j hj hne t)).trans (by rw [neg_zero, zero_div])

/-- The call with other tensors of sources, of amplitudes and of receivers. -/
def UArgs.rearranged (A : UArgs d) (srcP : Option LocT) (srcV : Fin d → Option LocT) (ampP : Option AmpT)
    (ampV : Fin d → Option AmpT) (rcvP : Option LocT) (rcvV : Fin d → Option LocT) : UArgs d :=
  { A with srcP := srcP, srcV := srcV, ampP := ampP, ampV := ampV, rcvP := rcvP, rcvV := rcvV }

/-- **C119** for `elastic`. -/
theorem C119_elastic_order (A : UArgs d) (P : Plan d) (s : ℕ) (cf : ℤ) (h : Fwd A P s cf) (heps : 0 ≤ A.opts.eps)
    (esP erP : ℕ → ℕ → ℕ) (esV erV : Fin d → ℕ → ℕ → ℕ) (srcP : Option LocT) (srcV : Fin d → Option LocT)
    (ampP : Option AmpT) (ampV : Fin d → Option AmpT) (rcvP : Option LocT) (rcvV : Fin d → Option LocT)
    (hsP : SrcRel esP A.srcP srcP A.ampP ampP) (hsV : ∀ k, SrcRel (esV k) (A.srcV k) (srcV k) (A.ampV k) (ampV k))
    (hrP : LocRel erP A.rcvP rcvP) (hrV : ∀ k, LocRel (erV k) (A.rcvV k) (rcvV k)) :
    ∃ r r', A.elastic s = .ok (some r) ∧ (A.rearranged srcP srcV ampP ampV rcvP rcvV).elastic s = .ok (some r') ∧
      r'.out = r.out ∧ TracesRel (erP s) (locCount A.rcvP) (locCount rcvP) r.tracesP r'.tracesP ∧
      ∀ k, TracesRel (erV k s) (locCount (A.rcvV k)) (locCount (rcvV k)) (r.tracesV k) (r'.tracesV k) := by
  have hg := good_rearranged h.good heps (Nat.pos_of_ne_zero h.good.shape_pos.1) (es := snocFn esV esP)
    (er := snocFn erV erP) (srcs := List.ofFn srcV ++ [srcP]) (rcvs := List.ofFn rcvV ++ [rcvP]) (amps := List.ofFn ampV ++ [ampP])
    ⟨by simp [UArgs.setup, Opts.setup], rel_snoc (R := LocT.Into) hsP.loc fun k => (hsV k).loc⟩
    ⟨by simp [UArgs.setup, Opts.setup], rel_snoc (R := LocT.Into) hrP hrV⟩
    ⟨by simp [UArgs.setup, Opts.setup], rel_snoc (R := AmpT.Into) hsP.amp fun k => (hsV k).amp⟩
    fun j a l h1 h2 => by
      rcases snoc_get h1 with ⟨h, h1⟩ | ⟨h, h1⟩
      · rcases snoc_get h2 with ⟨_, h2⟩ | ⟨h', -⟩
        · exact (hsV _).size a l h1 h2
        · omega
      · rcases snoc_get h2 with ⟨h', -⟩ | ⟨_, h2⟩
        · omega
        · exact hsP.size a l h1 h2
  have hwV : ∀ k l, A.srcV k = some l ∨ A.rcvV k = some l → WholeIgnored d l s := fun k l hl => by
    refine h.loc l (List.mem_append.2 ?_)
    exact hl.imp (fun e => List.mem_append_left _ (List.mem_ofFn.2 ⟨k, e⟩)) fun e => List.mem_append_left _ (List.mem_ofFn.2 ⟨k, e⟩)
  refine agree (A' := A.rearranged srcP srcV ampP ampV rcvP rcvV) h
    { good := hg, pre := ?_, lt := h.lt, pml := h.pml, loc := fun l hl => ?_, last := fun k => ?_, freq := h.freq
      interval := h.interval, nt := h.nt } ⟨rfl, rfl, rfl, rfl, rfl, rfl⟩
    (fun t c => hsP.inject h.good d (snoc_last _ _) (snoc_last _ _) _ s t c)
    (fun k t c => (hsV k).inject h.good k (snoc_init _ _ k) (snoc_init _ _ k) _ s t c) hrP hrV
  · rintro (⟨k, l, hl | hl, hb⟩ | hn)
    · exact (hsV k).loc.beyond (fun l hl hb => h.pre (.inl ⟨k, l, .inl hl, hb⟩)) l hl hb
    · exact (hrV k).beyond (fun l hl hb => h.pre (.inl ⟨k, l, .inr hl, hb⟩)) l hl hb
    · exact h.pre (.inr hn)
  · rcases List.mem_append.1 hl with hl | hl
    · rcases List.mem_append.1 hl with hl | hl
      · obtain ⟨k, hk⟩ := List.mem_ofFn.1 hl
        exact (hsV k).loc.whole (fun l hl => hwV k l (.inl hl)) l hk
      · exact hsP.loc.whole (fun l hl => h.loc l (List.mem_append_left _ (List.mem_append_right _
          (hl ▸ List.mem_cons_self)))) l (List.mem_singleton.1 hl).symm
    · rcases List.mem_append.1 hl with hl | hl
      · obtain ⟨k, hk⟩ := List.mem_ofFn.1 hl
        exact (hrV k).whole (fun l hl => hwV k l (.inr hl)) l hk
      · exact hrP.whole (fun l hl => h.loc l (List.mem_append_right _ (List.mem_append_right _
          (hl ▸ List.mem_cons_self)))) l (List.mem_singleton.1 hl).symm
  · exact (h.last k).imp id fun hx => hx.imp id fun hx => ⟨(hsV k).loc.beforeLast hx.1, (hrV k).beforeLast hx.2⟩

/-- **C120** for `elastic`. -/
theorem C120_elastic_observers (A : UArgs d) (P : Plan d) (s : ℕ) (cf cf' : ℤ) (h : Fwd A P s cf) (cb gradL gradM gradB : Bool)
    (freq : PyNum) (hfreq : checkCallbackFrequency freq = .ok cf')
    (hnt : cb = true ∨ P.ratio * P.interval ≤ P.nt ∨ P.nt ≤ 0) :
    ∃ r r', A.elastic s = .ok (some r) ∧
      ({ A with opts := { A.opts with callback := cb, callbackFreq := freq }, gradL := gradL, gradM := gradM, gradB := gradB } :
        UArgs d).elastic s = .ok (some r') ∧
      r'.out = r.out ∧ (∀ i < locCount A.rcvP, r'.tracesP i = r.tracesP i) ∧
      ∀ k, ∀ i < locCount (A.rcvV k), r'.tracesV k i = r.tracesV k i := by
  obtain ⟨r, r', h1, h2, h3, h4, h5⟩ := agree (eP := fun _ => id) (eV := fun _ _ => id)
    (A' := { A with opts := { A.opts with callback := cb, callbackFreq := freq }, gradL := gradL, gradM := gradM, gradB := gradB })
    (ss := P.srcs) (rr := P.rcvs) (cf' := cf') h
    { good := h.good, pre := h.pre, lt := h.lt, pml := h.pml, loc := h.loc, last := h.last, freq := hfreq
      interval := h.interval, nt := hnt } ⟨rfl, rfl, rfl, rfl, rfl, rfl⟩ (fun _ _ => rfl) (fun _ _ _ => rfl)
      (LocRel.refl _) (fun _ => LocRel.refl _)
  exact ⟨r, r', h1, h2, h3, h4.1, fun k => (h5 k).1⟩

theorem exU_fwd (s : ℕ) (hs : s < 2) : Fwd (exU .none) (exP ![(0, 7), (0, 9)]) s 1 where
  good := exU_whole
  pre := exU_pre .none
  lt := hs
  pml := .inl (by norm_num [exP, exPl])
  loc := fun l hl => Born.exLoc_whole hs (exU_locs .none l hl)
  last := fun k => .inl (by fin_cases k <;> norm_num [exP, exPl, Plan.w1])
  freq := rfl
  interval := by norm_num [exP, exPl]
  nt := .inr (.inl (by norm_num [exP, exPl]))

example : ∃ r r', (exU .none).elastic 0 = .ok (some r) ∧
    ((exU .none).rearranged (some exLoc3) ![none, some exLoc3] (some exAmp3) ![none, some exAmp3] (some exLoc3)
      ![some exLoc3, none]).elastic 0 = .ok (some r') ∧ r'.out = r.out ∧
    r'.tracesP 2 = r.tracesP 0 ∧ r'.tracesV 0 0 = r.tracesV 0 1 ∧ ∀ t, (r'.tracesP 1).val t = 0 := by
  obtain ⟨r, r', h1, h2, h3, ⟨h4, h5⟩, h6⟩ := C119_elastic_order (exU .none) _ 0 1 (exU_fwd 0 (by decide))
    (by norm_num [exU, exO]) exTo exTo (fun _ => exTo) (fun _ => exTo) (some exLoc3) ![none, some exLoc3] (some exAmp3)
    ![none, some exAmp3] (some exLoc3) ![some exLoc3, none] exSrc3
    (Fin.forall_fin_two.2 ⟨⟨.none, .none, fun _ _ h => by cases h⟩, exSrc3⟩) (.some exLoc3_into)
    (Fin.forall_fin_two.2 ⟨.some exLoc3_into, .none⟩)
  exact ⟨r, r', h1, h2, h3, h4 0 (by decide), (h6 0).1 1 (by decide), h5 1 (by decide) (by decide)⟩

example : ∃ r r', (exU .none).elastic 1 = .ok (some r) ∧
    ({ exU .none with opts := { (exU .none).opts with callback := true, callbackFreq := .int 3 }, gradL := false, gradM := false, gradB := false } :
        UArgs 2).elastic 1 = .ok (some r') ∧
    r'.out = r.out ∧ (∀ i < locCount (exU .none).rcvP, r'.tracesP i = r.tracesP i) ∧
    ∀ k, ∀ i < locCount ((exU .none).rcvV k), r'.tracesV k i = r.tracesV k i :=
  C120_elastic_observers (exU .none) _ 1 1 3 (exU_fwd 1 (by decide)) true false false false (.int 3) rfl (.inl rfl)

end Dw.Elastic
