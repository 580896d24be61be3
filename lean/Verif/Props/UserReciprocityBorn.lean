import Verif.Props.UserReciprocityElastic
import Verif.Props.BornReciprocity
import Verif.Born.UserGrad

/-!
# C111: reciprocity of calls of `scalar_born`

What C77 says about the propagator, for calls.
-/

namespace Dw.Born

open Setup Resample
open Scalar

variable {d : ℕ}

/-- The call with the source and the receiver of the scattered field exchanged. -/
def UArgs.exchanged (A : UArgs d) : UArgs d := { A with src := A.rcv, rcv := A.src }

/-- C77 for configurations whose sizes are not literally 1. -/
theorem reciprocity_of_one {ns nr nq : ℕ} (hns : ns = 1) (hnq : nq = 1) (B : BCfg d ns nr nq ℝ) (h : B.WF)
    (hn : ∀ k x, B.base.a k x = 0 ∧ B.base.b k x = 0 ∧ B.base.db k x = 0) (hr : 0 < B.base.ratio)
    {x y : Cell d} (hx : ∀ i, B.base.src i = some x) (hy : ∀ j, B.rcvsc j = some y) (gv gs : Bool)
    (cb : Option ℕ) (nt : ℕ) (hcf : 0 < nt → 0 < cb.getD (nt / B.base.ratio)) (q : ℕ → ℝ) :
    let B' : BCfg d nq nr ns ℝ :=
      { base := { B.base with src := B.rcvsc }, scatter := B.scatter, rcvsc := B.base.src }
    ∃ r r', B.forward gv gs cb nt (scaleAmp B.base fun t _ => q t) (scaleAmpSc B fun t _ => q t) Init.none Init.none =
        .ok r ∧
      B'.forward gv gs cb nt (scaleAmp B'.base fun t _ => q t) (scaleAmpSc B' fun t _ => q t) Init.none Init.none = .ok r' ∧
      ∀ t i j, r.rcdsc t j = r'.rcdsc t i := by
  subst hns hnq
  intro B'
  obtain ⟨r, r', h1, h2, h3⟩ := C77_born_reciprocity B h B.base.rcv h.base.rcv_in hn hr (hx 0) (hy 0) gv gs cb nt hcf
    fun t _ => q t
  refine ⟨r, r', h1, h2, fun t i j => ?_⟩
  rw [h3, Subsingleton.elim i j]

variable {A : UArgs d} {P : Plan d} {s : ℕ} {cf : ℤ} {l l' : LocT}

theorem exchanged_setup (A : UArgs d) :
    A.exchanged.setup = A.setup.moved [A.rcv, A.rcv] [A.bgRcv, A.src] [A.amps, A.amps] := rfl

/-- The exchanged call is accepted as well. -/
theorem Fwd.exchanged (h : Fwd A P s cf) (hl : A.src = some l) (hl' : A.rcv = some l') (hn : l.n = l'.n) :
    Fwd A.exchanged (P.moved false [A.rcv, A.rcv] [A.bgRcv, A.src]) s cf where
  good := by
    rw [exchanged_setup]
    refine good_moved h.good (fun x => ?_) ⟨l', by simp [hl']⟩ _ rfl ?_
    · show some x ∈ [A.rcv, A.rcv] ++ [A.bgRcv, A.src] ↔ some x ∈ [A.src, A.src] ++ [A.bgRcv, A.rcv]
      simp only [List.mem_append, List.mem_cons, List.not_mem_nil, or_false]
      tauto
    · have := h.good.ampsMatch
      have e : ([A.rcv, A.rcv].map (Option.map LocT.n)) = [A.src, A.src].map (Option.map LocT.n) := by
        simp [hl, hl', hn]
      rw [e]
      exact this
  lt := h.lt
  pml := h.pml
  loc := fun x hx => h.loc x (by
    rcases hx with hx | hx | hx
    · exact .inr (.inl hx)
    · exact .inl hx
    · exact .inr (.inr hx))
  freq := h.freq
  interval := h.interval
  nt := h.nt

theorem Fwd.shot (h : Fwd A P s cf) :
    shotIn A.exchanged.setup (P.moved false [A.rcv, A.rcv] [A.bgRcv, A.src]) A.opts.timeTaper s =
      { shotIn A.setup P A.opts.timeTaper s with
        srcs := [(shotIn A.setup P A.opts.timeTaper s).rcv 1, (shotIn A.setup P A.opts.timeTaper s).rcv 1]
        rcvs := [(shotIn A.setup P A.opts.timeTaper s).rcv 0, (shotIn A.setup P A.opts.timeTaper s).src 0] } := by
  have e1 := (extractLocations_iff.1 h.good.srcs).2
  have e2 := (extractLocations_iff.1 h.good.rcvs).2
  unfold shotIn ShotIn.rcv ShotIn.src
  simp only [e1, e2]
  rfl

/-- **C111** A call of `scalar_born` without PML and without initial wavefields, with one source and one receiver of the
scattered field: if they change places, the call is accepted as well, and the trace of the scattered field is the same,
wherever the receivers of the background field are. -/
theorem C111_born_reciprocity (h : Fwd A P s cf) (hw : ∀ x ∈ A.wf.list ++ A.wfsc.list, x = none)
    (hz : ∀ k, P.w0 k = 0 ∧ P.w1 k = 0) (hl : A.src = some l) (hl' : A.rcv = some l') (hn : l.n = 1) (hn' : l'.n = 1)
    (hi : ¬l.Ignored d s 0) (hi' : ¬l'.Ignored d s 0) :
    ∃ r r', A.born s = .ok (some r) ∧ A.exchanged.born s = .ok (some r') ∧ r.traces 0 = r'.traces 0 := by
  have h' := h.exchanged hl hl' (hn.trans hn'.symm)
  have hnb : 0 < P.nb := by have := h.lt; omega
  have g1 : A.setup.srcs[0]? = some A.src := rfl
  have g2 : A.setup.rcvs[1]? = some A.rcv := rfl
  have p1 := src_placed h.good h.lt A.opts.timeTaper g1 (fun x hx => h.loc x (.inl hx))
  have p2 := rcv_placed h.good h.lt A.opts.timeTaper g2 (fun x hx => h.loc x (.inr (.inl hx)))
  rw [hl] at p1
  rw [hl'] at p2
  obtain ⟨s1, -⟩ := p1.single hn (if_neg hi)
  obtain ⟨s2, -⟩ := p2.single hn' (if_neg hi')
  have l1 : 0 < ((shotIn A.setup P A.opts.timeTaper s).src 0).length := by rw [s1]; exact Nat.one_pos
  have l2 : 0 < ((shotIn A.setup P A.opts.timeTaper s).rcv 1).length := by rw [s2]; exact Nat.one_pos
  have i1 : A.wf.init s = Init.none ∧ A.wfsc.init s = Init.none := by
    simp only [UWf.list, List.mem_append, List.mem_cons, List.not_mem_nil, or_false, List.mem_ofFn] at hw
    have : ∀ w : UWf d, (∀ x, ((x = w.wfc ∨ x = w.wfp) ∨ ∃ k, w.psi k = x) ∨ (∃ k, w.zeta k = x) → x = none) →
        w.init s = Init.none := fun w hw => by
      have a1 := hw _ (.inl (.inl (.inl rfl)))
      have a2 := hw _ (.inl (.inl (.inr rfl)))
      have a3 : ∀ k, w.psi k = none := fun k => hw _ (.inl (.inr ⟨k, rfl⟩))
      have a4 : ∀ k, w.zeta k = none := fun k => hw _ (.inr ⟨k, rfl⟩)
      unfold UWf.init Init.none
      simp only [a1, a2, a3, a4]
      rfl
    exact ⟨this _ fun x hx => hw x (.inl hx), this _ fun x hx => hw x (.inr hx)⟩
  have hfin := finite_of_pmlOk h.good h.pml false
  have no : ∀ k x, (cfgOf (shotIn A.setup P A.opts.timeTaper s)).base.a k x = 0 ∧
      (cfgOf (shotIn A.setup P A.opts.timeTaper s)).base.b k x = 0 ∧
      (cfgOf (shotIn A.setup P A.opts.timeTaper s)).base.db k x = 0 := fun k x => by
    have h0 := ab_zero hz false 0 k x
    have h1 := db_noPml (A := P.pml false) hz k x
    exact ⟨congrArg Prod.fst h0, congrArg (fun y => y.2.getD 0) h0, congrArg (fun y => y.getD 0) h1⟩
  have gx : ∀ i, (cfgOf (shotIn A.setup P A.opts.timeTaper s)).base.src i = some (P.at fun k => trunc (l.val s 0 k)) :=
    fun i => by
      have key : ∀ o ∈ (shotIn A.setup P A.opts.timeTaper s).src 0, o = some (P.at fun k => trunc (l.val s 0 k)) := by
        rw [s1]; simp
      exact key _ (List.get_mem _ _)
  have gy : ∀ i, (cfgOf (shotIn A.setup P A.opts.timeTaper s)).rcvsc i = some (P.at fun k => trunc (l'.val s 0 k)) :=
    fun i => by
      have key : ∀ o ∈ (shotIn A.setup P A.opts.timeTaper s).rcv 1, o = some (P.at fun k => trunc (l'.val s 0 k)) := by
        rw [s2]; simp
      exact key _ (List.get_mem _ _)
  obtain ⟨r, r', h1, h2, h3⟩ := reciprocity_of_one (by rw [s1]; rfl) (by rw [s2]; rfl)
    (cfgOf (shotIn A.setup P A.opts.timeTaper s)) h.wf no h.ratio gx gy A.gradV A.gradS (A.opts.cb cf) P.nt.toNat
    (cb_pos h.freq h.ratio h.nt) fun t => upAmps P A.opts.timeTaper A.amps s t 0
  have z1 : (fun (t : ℕ) (i : Fin ((shotIn A.setup P A.opts.timeTaper s).src 0).length) =>
      upAmps P A.opts.timeTaper A.amps s t i) = fun t _ => upAmps P A.opts.timeTaper A.amps s t 0 := by
    funext t i
    have hlen : ((shotIn A.setup P A.opts.timeTaper s).src 0).length = 1 := by rw [s1]; rfl
    have := i.isLt
    rw [show (i : ℕ) = 0 by omega]
  have z2 : (fun (t : ℕ) (i : Fin ((shotIn A.setup P A.opts.timeTaper s).rcv 1).length) =>
      upAmps P A.opts.timeTaper A.amps s t i) = fun t _ => upAmps P A.opts.timeTaper A.amps s t 0 := by
    funext t i
    have hlen : ((shotIn A.setup P A.opts.timeTaper s).rcv 1).length = 1 := by rw [s2]; rfl
    have := i.isLt
    rw [show (i : ℕ) = 0 by omega]
  refine ⟨_, ⟨r'.out, r'.outsc, (shotIn A.setup P A.opts.timeTaper s).traces r'.rcd,
      (shotIn A.setup P A.opts.timeTaper s).traces r'.rcdsc, r'.events⟩, call_ok.2 ⟨not_noElements h.good hnb (m := (A.v, .replicate)) List.mem_cons_self, P, cf, h.good, h.freq,
      bind_okay (r := r) ?_ (congrArg Except.ok (if_pos hfin))⟩,
    call_ok.2 ⟨not_noElements h.good hnb (m := (A.v, .replicate)) List.mem_cons_self, _, cf, h'.good, h.freq, ?_⟩, ?_⟩
  rotate_left
  · have es : shotIn A.exchanged.setup (P.moved false [A.rcv, A.rcv] [A.bgRcv, A.src]) A.exchanged.opts.timeTaper s = _ :=
      h.shot
    rw [es]
    refine bind_okay (r := r') ?_ (congrArg Except.ok (if_pos hfin))
    have e1 : A.exchanged.wf.init s = Init.none := i1.1
    have e2 : A.exchanged.wfsc.init s = Init.none := i1.2
    rw [e1, e2, ← h2, ← z2]
    rfl
  · show (shotIn A.setup P A.opts.timeTaper s).traces r.rcdsc 0 = (shotIn A.setup P A.opts.timeTaper s).traces r'.rcdsc 0
    rw [traces_lt _ _ l2, traces_lt _ _ l1]
    simp only [fun t => h3 t ⟨0, l1⟩ ⟨0, l2⟩]
  · rw [i1.1, i1.2, ← h1, ← z1]
    rfl

/-! ### Example -/

noncomputable def exX : UArgs 2 :=
  { exU .none with src := some (exAt 2 3), rcv := some (exAt 4 5), bgRcv := some (exAt 2 3), amps := some exCall
                   opts := exO0 .none }

noncomputable def exXP : Plan 2 := exPl0 false ![(0, 7), (0, 9)] exX.setup.models exX.setup.srcs exX.setup.rcvs

theorem exX_fwd : Fwd exX exXP 1 1 where
  good := by
    refine exO0_good_of (fun l hl => (exAt_locs ?_).1) (fun x hx => ?_) (exU_noWf (sp := .none)) (fun m hm => ?_)
      (List.cons_ne_nil _ _) rfl rfl rfl (by decide) (by decide +kernel)
    · have : some l ∈ [some (exAt 2 3), some (exAt 2 3), some (exAt 2 3), some (exAt 4 5)] := hl
      simpa using this
    · have : some x ∈ [some exCall, some exCall] := hx
      simp only [List.mem_cons, List.not_mem_nil, or_false, Option.some.injEq, or_self] at this
      rw [this]
      exact ⟨rfl, rfl⟩
    · simp only [List.mem_cons, List.not_mem_nil, or_false] at hm
      rcases hm with rfl | rfl <;> exact ⟨rfl, rfl⟩
  lt := by norm_num [exXP, exPl0]
  pml := .inr fun k => exPl0_width _ _ _ _ _ k
  loc := fun l hl => by
    have h1 : l = exAt 2 3 ∨ l = exAt 4 5 := by
      rcases hl with hl | hl | hl
      · exact .inl (Option.some.inj hl).symm
      · exact .inr (Option.some.inj hl).symm
      · exact .inl (Option.some.inj hl).symm
    exact (exAt_locs (st := true) h1).2.1
  freq := rfl
  interval := by norm_num [exXP, exPl0]
  nt := .inr (.inl (by norm_num [exXP, exPl0]))

example : ∃ r r', exX.born 1 = .ok (some r) ∧ exX.exchanged.born 1 = .ok (some r') ∧ r.traces 0 = r'.traces 0 := by
  refine C111_born_reciprocity exX_fwd (fun x hx => ?_) (exPl0_width _ _ _ _ _) rfl rfl rfl rfl
    (by unfold LocT.Ignored; decide +kernel) (by unfold LocT.Ignored; decide +kernel)
  cases x with
  | none => rfl
  | some w => exact absurd hx (exU_noWf (sp := .none) w)

end Dw.Born
