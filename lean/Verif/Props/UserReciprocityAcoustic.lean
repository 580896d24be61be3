import Verif.Setup.Exchange
import Verif.Props.Reciprocity
import Verif.Props.UserStable
import Verif.Setup.Blocks

/-!
# C111: reciprocity of calls of `acoustic`

What C75 says about the propagator, for calls: exchange of a source and a receiver.
-/

namespace Dw.Acoustic

open Setup Resample
open Scalar (PmlOk WholeIgnored upAmps downS_one)

variable {d : ℕ}

/-- The call that records quantity `b` at `l'` while quantity `a` is excited at `l` with amplitudes `w`; quantity 0 is the
pressure, quantity `k + 1` is component `k` of the particle velocity. -/
def UArgs.between (A : UArgs d) (a b : Fin (d + 1)) (l l' : LocT) (w : AmpT) : UArgs d :=
  { A with
    ampP := if 0 = a then some w else none
    ampV := fun k => if k.succ = a then some w else none
    srcP := if 0 = a then some l else none
    srcV := fun k => if k.succ = a then some l else none
    rcvP := if 0 = b then some l' else none
    rcvV := fun k => if k.succ = b then some l' else none }

/-- The trace of the first receiver of a quantity. -/
def UShot.trace (r : UShot d) (b : Fin (d + 1)) : Sig ℝ := Fin.cases (r.tracesP 0) (fun k => r.tracesV k 0) b

theorem between_setup (A : UArgs d) (a b : Fin (d + 1)) (l l' : LocT) (w : AmpT) :
    (A.between a b l l' w).setup = A.setup.moved (oneAt (d + 1) a l) (oneAt (d + 1) b l') (oneAt (d + 1) a w) := by
  unfold oneAt
  simp only [List.ofFn_succ]
  rfl

theorem between_exchange (A : UArgs d) (a b : Fin (d + 1)) (l l' : LocT) (w : AmpT) :
    (A.between b a l' l w).setup = (A.between a b l l' w).setup.moved (A.between a b l l' w).setup.rcvs
      (A.between a b l l' w).setup.srcs (oneAt (d + 1) b w) := by
  rw [between_setup, between_setup]
  rfl

variable {A : UArgs d} {P : Plan d} {s : ℕ} {cf : ℤ} {a b : Fin (d + 1)} {l l' : LocT} {w : AmpT}

/-- The exchanged call is accepted as well. -/
theorem Fwd.exchange (h : Fwd (A.between a b l l' w) P s cf) (hn : l.n = l'.n) :
    Fwd (A.between b a l' l w)
      (P.moved true (A.between a b l l' w).setup.rcvs (A.between a b l l' w).setup.srcs) s cf where
  good := by
    rw [between_exchange]
    refine good_exchange (a := a) h.good ?_ ?_ ?_ hn <;> rw [between_setup] <;> rfl
  pre := by
    have := h.pre
    rintro (h1 | ⟨k, x, h1, h2⟩)
    · exact this (.inl h1)
    · exact this (.inr ⟨k, x, h1.symm, h2⟩)
  lt := h.lt
  pml := h.pml
  loc := by
    intro x hx
    rw [between_exchange] at hx
    refine h.loc x ?_
    rw [List.mem_append] at hx ⊢
    exact hx.symm
  last := fun k => (h.last k).imp_right fun h => h.imp_right And.symm
  freq := h.freq
  interval := h.interval
  nt := h.nt

/-! ### The propagator in these calls -/

section
variable {S : ShotIn d} {q : ℕ → ℝ}

theorem amps_pressure (hl : ∀ j : Fin (d + 1), (S.src j).length = if j = 0 then 1 else 0) (hq : ∀ t, S.amp 0 t 0 = q t) :
    (fun (t : ℕ) (i : Fin (S.src 0).length) => S.amp 0 t i) = emit ⟨0, (hl 0).symm ▸ Nat.one_pos⟩ q ∧
      (fun (k : Fin d) (t : ℕ) (i : Fin (S.src (k + 1)).length) => S.amp (k + 1) t i) = silentV := by
  refine ⟨?_, ?_⟩
  · funext t i
    have h1 : (S.src 0).length = 1 := hl 0
    have hi := i.isLt
    have e : i = ⟨0, (hl 0).symm ▸ Nat.one_pos⟩ := Fin.ext (by show (i : ℕ) = 0; omega)
    unfold emit
    rw [if_pos e, ← hq, e]
  · funext k t i
    have h1 : (S.src (k + 1)).length = 0 := (hl k.succ).trans (if_neg (Fin.succ_ne_zero k))
    have hi := i.isLt
    omega

theorem amps_velocity {k : Fin d} (hl : ∀ j : Fin (d + 1), (S.src j).length = if j = k.succ then 1 else 0)
    (hq : ∀ t, S.amp (k + 1) t 0 = q t) :
    (fun (t : ℕ) (i : Fin (S.src 0).length) => S.amp 0 t i) = silent ∧
      (fun (k : Fin d) (t : ℕ) (i : Fin (S.src (k + 1)).length) => S.amp (k + 1) t i) =
        emitV k ⟨0, by have := hl k.succ; rw [if_pos rfl] at this; exact this.symm ▸ Nat.one_pos⟩ q := by
  refine ⟨?_, ?_⟩
  · funext t i
    have h1 : (S.src 0).length = 0 := (hl 0).trans (if_neg (Fin.succ_ne_zero k).symm)
    have hi := i.isLt
    omega
  · funext k' t i
    have h1 : (S.src (k' + 1)).length = _ := hl k'.succ
    have hi := i.isLt
    by_cases hk : k' = k
    · subst hk
      rw [if_pos rfl] at h1
      have e : i = ⟨0, by omega⟩ := Fin.ext (by show (i : ℕ) = 0; omega)
      unfold emitV
      rw [if_pos (by rw [e]), ← hq, e]
    · rw [if_neg fun e => hk (Fin.succ_inj.1 e)] at h1
      omega

/-- The shot with sources and receivers exchanged. -/
def _root_.Dw.Setup.ShotIn.exchanged (S : ShotIn d) (amps : List (ℕ → ℕ → ℝ)) : ShotIn d :=
  { S with srcs := S.rcvs, rcvs := S.srcs, amps := amps }

variable {A' : UArgs d} {amps : List (ℕ → ℕ → ℝ)}

theorem exchange_run (hA : A'.gradK = A.gradK ∧ A'.gradB = A.gradB ∧ A'.opts = A.opts) (rf : ℝ)
    (hwf : (cfgOf rf S).WF)
    (hn : ∀ k x, (cfgOf rf S).a k x = 0 ∧ (cfgOf rf S).b k x = 0 ∧ (cfgOf rf S).ah k x = 0 ∧ (cfgOf rf S).bh k x = 0)
    (hr : 0 < S.every) (hcf : 0 < S.nt.toNat → 0 < (A.opts.cb cf).getD (S.nt.toNat / S.every)) (hfin : Finite S.pml)
    (hs : ∀ j : Fin (d + 1), (S.src j).length = if j = a then 1 else 0)
    (hrc : ∀ j : Fin (d + 1), (S.rcv j).length = if j = b then 1 else 0)
    (hq : ∀ t, S.amp a t 0 = q t) (hq' : ∀ t, (S.exchanged amps).amp b t 0 = q t) (hab : a = 0 ↔ b = 0) :
    ∃ r r', runWith A Init.atRest cf S (cfgOf rf S) = .ok (some r) ∧
      runWith A' Init.atRest cf (S.exchanged amps) (cfgOf rf (S.exchanged amps)) = .ok (some r') ∧
      r.trace b = r'.trace a := by
  obtain ⟨e1, e2, e3⟩ := hA
  by_cases ha : a = 0
  · have hb := hab.1 ha
    subst ha hb
    obtain ⟨f1, f2⟩ := amps_pressure hs hq
    obtain ⟨g1, g2⟩ := amps_pressure (S := S.exchanged amps) hrc hq'
    obtain ⟨r, r', h1, h2, h3⟩ := C75_acoustic_exchange_pressure hwf hn hr A.gradK A.gradB (A.opts.cb cf) S.nt.toNat
      hcf ⟨0, (hs 0).symm ▸ Nat.one_pos⟩ ⟨0, (hrc 0).symm ▸ Nat.one_pos⟩ q
    refine ⟨_, _, bind_okay (r := r) ?_ (congrArg Except.ok (if_pos hfin)),
      bind_okay (r := r') ?_ (congrArg Except.ok (if_pos hfin)), ?_⟩
    · rw [f1, f2]
      exact h1
    · rw [e1, e2, e3, g1, g2]
      exact h2
    · show S.traces r.rcdP 0 = S.traces r'.rcdP 0
      rw [traces_lt S _ ((hrc 0).symm ▸ Nat.one_pos), traces_lt S _ ((hs 0).symm ▸ Nat.one_pos)]
      simp only [h3]
  · have hb := fun h => ha (hab.2 h)
    obtain ⟨k, rfl⟩ := Fin.exists_succ_eq.2 ha
    obtain ⟨m, rfl⟩ := Fin.exists_succ_eq.2 hb
    obtain ⟨f1, f2⟩ := amps_velocity hs hq
    obtain ⟨g1, g2⟩ := amps_velocity (S := S.exchanged amps) hrc hq'
    have l1 : 0 < (S.src (k + 1)).length := by
      have := hs k.succ
      rw [if_pos rfl] at this
      exact this.symm ▸ Nat.one_pos
    have l2 : 0 < (S.rcv (m + 1)).length := by
      have := hrc m.succ
      rw [if_pos rfl] at this
      exact this.symm ▸ Nat.one_pos
    obtain ⟨r, r', h1, h2, h3⟩ := C75_acoustic_exchange_velocity hwf hn hr A.gradK A.gradB (A.opts.cb cf) S.nt.toNat
      hcf k m ⟨0, l1⟩ ⟨0, l2⟩ q
    refine ⟨_, _, bind_okay (r := r) ?_ (congrArg Except.ok (if_pos hfin)),
      bind_okay (r := r') ?_ (congrArg Except.ok (if_pos hfin)), ?_⟩
    · rw [f1, f2]
      exact h1
    · rw [e1, e2, e3, g1, g2]
      exact h2
    · show S.traces (r.rcdV m) 0 = S.traces (r'.rcdV k) 0
      rw [traces_lt S _ l2, traces_lt S _ l1]
      simp only [h3]

theorem exchange_run_mixed (hA : A'.gradK = A.gradK ∧ A'.gradB = A.gradB ∧ A'.opts = A.opts) (rf : ℝ)
    (hwf : (cfgOf rf S).WF)
    (hn : ∀ k x, (cfgOf rf S).a k x = 0 ∧ (cfgOf rf S).b k x = 0 ∧ (cfgOf rf S).ah k x = 0 ∧ (cfgOf rf S).bh k x = 0)
    (hr : 0 < S.every) (hcf : 0 < S.nt.toNat → 0 < (A.opts.cb cf).getD (S.nt.toNat / S.every)) (hfin : Finite S.pml)
    {m : Fin d} (hs : ∀ j : Fin (d + 1), (S.src j).length = if j = 0 then 1 else 0)
    (hrc : ∀ j : Fin (d + 1), (S.rcv j).length = if j = m.succ then 1 else 0)
    (hq : ∀ t, S.amp 0 t 0 = q t) (hq' : ∀ t, (S.exchanged amps).amp (m + 1) t 0 = q t) :
    ∃ r r', ∃ x y : ℕ → ℝ, runWith A Init.atRest cf S (cfgOf rf S) = .ok (some r) ∧
      runWith A' Init.atRest cf (S.exchanged amps) (cfgOf rf (S.exchanged amps)) = .ok (some r') ∧
      r.tracesV m 0 = S.down ⟨S.nt.toNat, x⟩ ∧ r'.tracesP 0 = S.down ⟨S.nt.toNat, y⟩ ∧
      ∀ t, t + 1 < S.nt.toNat / S.every * S.every → x (t + 1) = -y t := by
  obtain ⟨e1, e2, e3⟩ := hA
  obtain ⟨f1, f2⟩ := amps_pressure hs hq
  obtain ⟨g1, g2⟩ := amps_velocity (S := S.exchanged amps) hrc hq'
  have l2 : 0 < (S.rcv (m + 1)).length := by
    have := hrc m.succ
    rw [if_pos rfl] at this
    exact this.symm ▸ Nat.one_pos
  have l1 : 0 < (S.src 0).length := (hs 0).symm ▸ Nat.one_pos
  obtain ⟨r, r', h1, h2, h3⟩ := C75_acoustic_exchange_mixed hwf hn hr A.gradK A.gradB (A.opts.cb cf) S.nt.toNat
    hcf m ⟨0, l1⟩ ⟨0, l2⟩ q
  refine ⟨_, _, fun t => r.rcdV m t ⟨0, l2⟩, fun t => r'.rcdP t ⟨0, l1⟩,
    bind_okay (r := r) ?_ (congrArg Except.ok (if_pos hfin)),
    bind_okay (r := r') ?_ (congrArg Except.ok (if_pos hfin)), ?_, ?_, h3⟩
  · rw [f1, f2]
    exact h1
  · rw [e1, e2, e3, g1, g2]
    exact h2
  · exact traces_lt S _ l2
  · exact traces_lt S _ l1

end

/-- What the setup makes of the locations and amplitudes. -/
theorem Fwd.one (h : Fwd (A.between a b l l' w) P s cf) (hn : l.n = 1) (hn' : l'.n = 1) :
    (∀ j : Fin (d + 1), ((shotIn (A.between a b l l' w).setup P A.opts.timeTaper s).src j).length = if j = a then 1 else 0) ∧
      (∀ j : Fin (d + 1), ((shotIn (A.between a b l l' w).setup P A.opts.timeTaper s).rcv j).length =
        if j = b then 1 else 0) ∧
      (shotIn (A.between a b l l' w).setup P A.opts.timeTaper s).amp a = upAmps P A.opts.timeTaper (some w) s := by
  have e1 : (A.between a b l l' w).setup.srcs = oneAt (d + 1) a l := by rw [between_setup]; rfl
  have e2 : (A.between a b l l' w).setup.rcvs = oneAt (d + 1) b l' := by rw [between_setup]; rfl
  have e3 : (A.between a b l l' w).setup.amps = oneAt (d + 1) a w := by rw [between_setup]; rfl
  refine ⟨fun j => ?_, fun j => ?_, ?_⟩
  · have g := (congrArg (·[(j : ℕ)]?) e1).trans (oneAt_get a j l)
    rw [(src_placed h.good h.lt _ g (h.mem _ (List.mem_append_left _ (List.mem_of_getElem? g)))).length]
    split_ifs
    · exact hn
    · rfl
  · have g := (congrArg (·[(j : ℕ)]?) e2).trans (oneAt_get b j l')
    rw [(rcv_placed h.good h.lt _ g (h.mem _ (List.mem_append_right _ (List.mem_of_getElem? g)))).length]
    split_ifs
    · exact hn'
    · rfl
  · refine amp_eq _ _ _ _ ((congrArg (·[(a : ℕ)]?) e3).trans ((oneAt_get a a w).trans ?_))
    rw [if_pos rfl]

/-- The shot of the exchanged call. -/
theorem Fwd.shot (h : Fwd (A.between a b l l' w) P s cf) :
    shotIn (A.between b a l' l w).setup
        (P.moved true (A.between a b l l' w).setup.rcvs (A.between a b l l' w).setup.srcs) A.opts.timeTaper s =
      (shotIn (A.between a b l l' w).setup P A.opts.timeTaper s).exchanged
        ((oneAt (d + 1) b w).map fun x => upAmps P A.opts.timeTaper x s) := by
  rw [between_exchange]
  exact shotIn_moved h.good _ _ _

theorem exchanged_amp (S : ShotIn d) (tt : Bool) : (S.exchanged ((oneAt (d + 1) b w).map fun x => upAmps P tt x s)).amp b =
    upAmps P tt (some w) s := by
  unfold ShotIn.amp ShotIn.exchanged
  simp only
  rw [List.getD_eq_getElem?_getD, List.getElem?_map, oneAt_get, if_pos rfl]
  rfl

/-- No initial wavefields. -/
theorem init_atRest (hw : A.wf.p = none ∧ ∀ k, A.wf.v k = none ∧ A.wf.phi k = none ∧ A.wf.psi k = none) :
    A.wf.init s = Init.atRest := by
  unfold UWf.init Init.atRest
  simp only [hw.1, (hw.2 _).1, (hw.2 _).2.1, (hw.2 _).2.2]
  rfl

theorem noPml (hz : ∀ k, P.w0 k = 0 ∧ P.w1 k = 0) (U : SetupArgs d) (tt : Bool) (rf : ℝ)
    (k : Fin d) (x : ℤ) :
    (cfgOf rf (shotIn U P tt s)).a k x = 0 ∧ (cfgOf rf (shotIn U P tt s)).b k x = 0 ∧
      (cfgOf rf (shotIn U P tt s)).ah k x = 0 ∧ (cfgOf rf (shotIn U P tt s)).bh k x = 0 := by
  have h0 := ab_zero hz U.staggered 0 k x
  have h1 := ab_zero hz U.staggered (1 / 2) k x
  exact ⟨congrArg Prod.fst h0, congrArg (fun y => y.2.getD 0) h0, congrArg Prod.fst h1,
    congrArg (fun y => y.2.getD 0) h1⟩

/-- **C111** A call of `acoustic` without PML and without initial wavefields, with one source and one receiver of the
same kind: if they change places, the call is accepted as well, and the trace is the same.  Both are pressures, or each
is any component of the particle velocity; the trace includes the resampling if there are internal substeps. -/
theorem C111_acoustic_reciprocity (h : Fwd (A.between a b l l' w) P s cf)
    (hw : A.wf.p = none ∧ ∀ k, A.wf.v k = none ∧ A.wf.phi k = none ∧ A.wf.psi k = none)
    (hz : ∀ k, P.w0 k = 0 ∧ P.w1 k = 0) (hn : l.n = 1) (hn' : l'.n = 1) (hab : a = 0 ↔ b = 0) :
    ∃ r r', (A.between a b l l' w).acoustic s = .ok (some r) ∧ (A.between b a l' l w).acoustic s = .ok (some r') ∧
      r.trace b = r'.trace a := by
  have h' := h.exchange (hn.trans hn'.symm)
  obtain ⟨l1, l2, ha⟩ := h.one hn hn'
  obtain ⟨r, r', h1, h2, h3⟩ := exchange_run (A := A.between a b l l' w) (A' := A.between b a l' l w) (cf := cf)
    (S := shotIn (A.between a b l l' w).setup P A.opts.timeTaper s)
    (q := fun t => upAmps P A.opts.timeTaper (some w) s t 0) ⟨rfl, rfl, rfl⟩ A.rfmax h.wf
    (noPml hz _ _ _) h.ratio (cb_pos h.freq h.ratio h.nt) (finite_of_pmlOk' h.good h.pml true)
    l1 l2 (fun t => by rw [ha]) (fun t => by rw [exchanged_amp]) hab
  refine ⟨r, r', call_ok.2 ⟨h.pre, P, cf, h.good, h.freq, ?_⟩, call_ok.2 ⟨h'.pre, _, cf, h'.good, h.freq, ?_⟩, h3⟩
  · unfold UArgs.run
    have e : (A.between a b l l' w).wf.init s = Init.atRest := init_atRest hw
    rw [e]
    exact h1
  · unfold UArgs.run
    have e : (A.between b a l' l w).wf.init s = Init.atRest := init_atRest hw
    have es : shotIn (A.between b a l' l w).setup _ (A.between b a l' l w).opts.timeTaper s = _ := h.shot
    rw [e, es]
    exact h2

/-- **C111** If the pressure is excited and a component of the particle velocity is recorded, without internal substeps,
the trace is that of the exchanged call one sample earlier, with the opposite sign. -/
theorem C111_acoustic_reciprocity_mixed {m : Fin d} (h : Fwd (A.between 0 m.succ l l' w) P s cf)
    (hw : A.wf.p = none ∧ ∀ k, A.wf.v k = none ∧ A.wf.phi k = none ∧ A.wf.psi k = none)
    (hz : ∀ k, P.w0 k = 0 ∧ P.w1 k = 0) (hn : l.n = 1) (hn' : l'.n = 1) (hq : P.ratio = 1) :
    ∃ r r', (A.between 0 m.succ l l' w).acoustic s = .ok (some r) ∧
      (A.between m.succ 0 l' l w).acoustic s = .ok (some r') ∧
      ∀ t, t + 1 < P.steps → (r.tracesV m 0).val (t + 1) = -(r'.tracesP 0).val t := by
  have h' := h.exchange (hn.trans hn'.symm)
  obtain ⟨l1, l2, ha⟩ := h.one hn hn'
  obtain ⟨r, r', x, y, h1, h2, h3, h4, h5⟩ := exchange_run_mixed (A := A.between 0 m.succ l l' w)
    (A' := A.between m.succ 0 l' l w) (cf := cf)
    (S := shotIn (A.between 0 m.succ l l' w).setup P A.opts.timeTaper s)
    (q := fun t => upAmps P A.opts.timeTaper (some w) s t 0) ⟨rfl, rfl, rfl⟩ A.rfmax h.wf
    (noPml hz _ _ _) h.ratio (cb_pos h.freq h.ratio h.nt) (finite_of_pmlOk' h.good h.pml true)
    l1 l2 (fun t => congrFun (congrFun ha t) 0)
    (fun t => congrFun (congrFun (exchanged_amp (b := m.succ) _ _) t) 0)
  refine ⟨r, r', call_ok.2 ⟨h.pre, P, cf, h.good, h.freq, ?_⟩, call_ok.2 ⟨h'.pre, _, cf, h'.good, h.freq, ?_⟩, ?_⟩
  · unfold UArgs.run
    have e : (A.between 0 m.succ l l' w).wf.init s = Init.atRest := init_atRest hw
    rw [e]
    exact h1
  · unfold UArgs.run
    have e : (A.between m.succ 0 l' l w).wf.init s = Init.atRest := init_atRest hw
    have es : shotIn (A.between m.succ 0 l' l w).setup _ (A.between m.succ 0 l' l w).opts.timeTaper s = _ := h.shot
    rw [e, es]
    exact h2
  · intro t ht
    rw [h3, h4]
    have e1 := downS_one h.good hq A.opts.timeTaper ⟨P.nt.toNat, x⟩
    have e2 := downS_one h.good hq A.opts.timeTaper ⟨P.nt.toNat, y⟩
    exact (congrArg (fun z => z.val (t + 1)) e1).trans ((h5 t ht).trans
      (congrArg (fun z => -z.val t) e2).symm)

end Dw.Acoustic

/-! ### Examples: from one cell to another one in each of two shots -/

namespace Dw.Setup

/-- One location per shot; it is ignored in the first shot. -/
def exAt (x y : ℚ) : LocT := ⟨2, 1, 2, fun s _ k => if s = 0 then (ignoreLocation : ℚ) else if k = 0 then x else y⟩

def exCall : AmpT := ⟨2, 1, 5, fun s _ t => s + t⟩

theorem exAt_locs {l : LocT} (hl : l = exAt 2 3 ∨ l = exAt 4 5) {st : Bool} :
    LocGood (1 / 10) ![(0, 7), (0, 9)] (padBegin (d := 2) 4 [0, 0, 0, 0]) (padEnd st 4 [0, 0, 0, 0]) 2 l ∧
      Scalar.WholeIgnored 2 l 1 ∧ ∀ k : Fin 2, ¬l.Beyond k ((![7, 9] : Fin 2 → ℤ) k) := by
  rcases hl with rfl | rfl
  all_goals
    refine ⟨locGood0 (by decide) rfl rfl (by decide +kernel) (by unfold LocT.Duplicates LocT.Ignored; decide +kernel)
      (by unfold LocT.Ignored LocT.Inside; decide +kernel), ?_, ?_⟩
    · unfold Scalar.WholeIgnored LocT.Ignored
      decide +kernel
    · unfold LocT.Beyond
      decide +kernel

end Dw.Setup

namespace Dw.Acoustic

open Setup

noncomputable def exX : UArgs 2 := {exU .none with opts := exO0 .none}

noncomputable def exXP (a b : Fin 3) : Plan 2 :=
  exPl0 true ![(0, 7), (0, 9)] exX.setup.models (oneAt 3 a (exAt 2 3)) (oneAt 3 b (exAt 4 5))

theorem exX_fwd (a b : Fin 3) : Fwd (exX.between a b (exAt 2 3) (exAt 4 5) exCall) (exXP a b) 1 1 where
  good := by
    rw [between_setup]
    refine exO0_good_of (fun l hl => (exAt_locs ?_).1) (fun x hx => ?_) (exU_noWf (sp := .none)) (fun m hm => ?_)
      (List.cons_ne_nil _ _) ?_ ?_ ?_ (by decide) ?_
    · rw [List.mem_append, oneAt_mem, oneAt_mem] at hl
      exact hl
    · rw [(oneAt_mem _ _ _).1 hx]
      exact ⟨rfl, rfl⟩
    · have hm : m ∈ [(exX.v, PadMode.replicate), (exX.rho, PadMode.replicate)] := hm
      simp only [List.mem_cons, List.not_mem_nil, or_false] at hm
      rcases hm with rfl | rfl <;> exact ⟨rfl, rfl⟩
    · revert a; decide +kernel
    · revert a; decide +kernel
    · rw [oneAt_map, oneAt_map]
      exact checkAmpsMatch_oneAt _ _
    · revert a b; decide +kernel
  pre := by
    rintro ((h | ⟨k, h⟩) | ⟨k, l, hl, h⟩)
    · cases h
    · revert k
      show ∀ k : Fin 2, (![7, 9] : Fin 2 → ℤ) k ≤ 0 → False
      decide
    · refine (exAt_locs (st := true) ?_).2.2 k h
      have := UArgs.mem_loc hl
      rw [between_setup] at this
      rw [List.mem_append] at this
      exact this.imp (oneAt_mem _ _ _).1 (oneAt_mem _ _ _).1
  lt := by norm_num [exXP, exPl0]
  pml := .inr fun k => exPl0_width _ _ _ _ _ k
  loc := by
    intro l hl
    rw [between_setup, List.mem_append] at hl
    exact (exAt_locs (st := true) (hl.imp (oneAt_mem _ _ _).1 (oneAt_mem _ _ _).1)).2.1
  last := fun k => .inr (.inl (by
    show ((![(0, 7), (0, 9)] : Fin 2 → ℤ × ℤ) k).2 = (![7, 9] : Fin 2 → ℤ) k
    revert k
    decide))
  freq := rfl
  interval := by norm_num [exXP, exPl0]
  nt := .inr (.inl (by norm_num [exXP, exPl0]))

/-- A source of the first component of the particle velocity and a receiver of the second one. -/
example : ∃ r r', (exX.between 1 2 (exAt 2 3) (exAt 4 5) exCall).acoustic 1 = .ok (some r) ∧
    (exX.between 2 1 (exAt 4 5) (exAt 2 3) exCall).acoustic 1 = .ok (some r') ∧ r.tracesV 1 0 = r'.tracesV 0 0 :=
  C111_acoustic_reciprocity (exX_fwd 1 2) ⟨rfl, fun _ => ⟨rfl, rfl, rfl⟩⟩ (exPl0_width _ _ _ _ _) rfl rfl (by decide)

example : ∃ r r', (exX.between 0 2 (exAt 2 3) (exAt 4 5) exCall).acoustic 1 = .ok (some r) ∧
    (exX.between 2 0 (exAt 4 5) (exAt 2 3) exCall).acoustic 1 = .ok (some r') ∧
    ∀ t, t + 1 < (exXP 0 2).steps → (r.tracesV 1 0).val (t + 1) = -(r'.tracesP 0).val t :=
  C111_acoustic_reciprocity_mixed (m := 1) (exX_fwd 0 2) ⟨rfl, fun _ => ⟨rfl, rfl, rfl⟩⟩ (exPl0_width _ _ _ _ _) rfl rfl rfl

end Dw.Acoustic
