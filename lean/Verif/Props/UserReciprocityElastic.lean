import Verif.Props.UserReciprocityAcoustic
import Verif.Props.UserFluid

/-!
# C111: reciprocity of calls of `elastic`

What C76 says about the propagator, for calls: exchange of a source and a receiver.
-/

namespace Dw.Elastic

open Setup Resample
open Scalar (PmlOk WholeIgnored upAmps downS_one downS_comb)
open Acoustic (Finite exchanged_amp)

variable {d : ℕ}

/-- The call that records quantity `b` at `l'` while quantity `a` is excited at `l` with amplitudes `w`; quantity `k < d`
is component `k` of the particle velocity, the last one is the pressure. -/
def UArgs.between (A : UArgs d) (a b : Fin (d + 1)) (l l' : LocT) (w : AmpT) : UArgs d :=
  { A with
    ampP := if Fin.last d = a then some w else none
    ampV := fun k => if k.castSucc = a then some w else none
    srcP := if Fin.last d = a then some l else none
    srcV := fun k => if k.castSucc = a then some l else none
    rcvP := if Fin.last d = b then some l' else none
    rcvV := fun k => if k.castSucc = b then some l' else none }

theorem oneAt_last {α : Type*} (a : Fin (d + 1)) (x : α) : oneAt (d + 1) a x =
    (List.ofFn fun k : Fin d => if k.castSucc = a then some x else none) ++ [if Fin.last d = a then some x else none] := by
  unfold oneAt
  rw [List.ofFn_succ', List.concat_eq_append]

theorem between_setup (A : UArgs d) (a b : Fin (d + 1)) (l l' : LocT) (w : AmpT) :
    (A.between a b l l' w).setup = A.setup.moved (oneAt (d + 1) a l) (oneAt (d + 1) b l') (oneAt (d + 1) a w) := by
  rw [oneAt_last, oneAt_last, oneAt_last]
  rfl

theorem between_exchange (A : UArgs d) (a b : Fin (d + 1)) (l l' : LocT) (w : AmpT) :
    (A.between b a l' l w).setup = (A.between a b l l' w).setup.moved (A.between a b l l' w).setup.rcvs
      (A.between a b l l' w).setup.srcs (oneAt (d + 1) b w) := by
  rw [between_setup, between_setup]
  rfl

variable {A : UArgs d} {P : Plan d} {s : ℕ} {cf : ℤ} {a b : Fin (d + 1)} {l l' : LocT} {w : AmpT}

/-- The exchanged call is accepted as well. -/
theorem Fwd.exchange (h : Fwd (A.between a b l l' w) P s cf) (hn : l.n = l'.n) :
    Fwd (A.between b a l' l w)
      (P.moved true (A.between a b l l' w).setup.rcvs (A.between a b l l' w).setup.srcs) s cf where
  good := by
    rw [between_exchange]
    refine good_exchange (a := a) h.good ?_ ?_ ?_ hn <;> rw [between_setup] <;> rfl
  pre := by
    have := h.pre
    rintro (⟨k, x, h1, h2⟩ | h1)
    · exact this (.inl ⟨k, x, h1.symm, h2⟩)
    · exact this (.inr h1)
  lt := h.lt
  pml := h.pml
  loc := by
    intro x hx
    rw [between_exchange] at hx
    refine h.loc x ?_
    rw [List.mem_append] at hx ⊢
    exact hx.symm
  last := fun k => (h.last k).imp_right fun h => h.imp_right And.symm
  freq := h.freq
  interval := h.interval
  nt := h.nt

/-! ### The propagator in these calls -/

section
variable {S : ShotIn d} {q : ℕ → ℝ}

theorem amps_pressure (hl : ∀ j : Fin (d + 1), (S.src j).length = if j = Fin.last d then 1 else 0)
    (hq : ∀ t, S.amp d t 0 = q t) (hp : 0 < (S.src d).length) :
    (fun (t : ℕ) (i : Fin (S.src d).length) => S.amp d t i) = emit ⟨0, hp⟩ q ∧
      (fun (k : Fin d) (t : ℕ) (i : Fin (S.src k).length) => S.amp k t i) = silentV := by
  refine ⟨?_, ?_⟩
  · funext t i
    have h1 : (S.src d).length = 1 := (hl (Fin.last d)).trans (if_pos rfl)
    have hi := i.isLt
    have e : i = ⟨0, hp⟩ := Fin.ext (by show (i : ℕ) = 0; omega)
    unfold emit
    rw [if_pos e, ← hq, e]
  · funext k t i
    have h1 : (S.src k).length = 0 := (hl k.castSucc).trans (if_neg (Fin.castSucc_lt_last k).ne)
    have hi := i.isLt
    omega

theorem amps_velocity {k : Fin d} (hl : ∀ j : Fin (d + 1), (S.src j).length = if j = k.castSucc then 1 else 0)
    (hq : ∀ t, S.amp k t 0 = q t) (hp : 0 < (S.src k).length) :
    (fun (t : ℕ) (i : Fin (S.src d).length) => S.amp d t i) = silent ∧
      (fun (k : Fin d) (t : ℕ) (i : Fin (S.src k).length) => S.amp k t i) = emitV k ⟨0, hp⟩ q := by
  refine ⟨?_, ?_⟩
  · funext t i
    have h1 : (S.src d).length = 0 := (hl (Fin.last d)).trans (if_neg (Fin.castSucc_lt_last k).ne')
    have hi := i.isLt
    omega
  · funext k' t i
    have h1 : (S.src k').length = _ := hl k'.castSucc
    have hi := i.isLt
    by_cases hk : k' = k
    · subst hk
      rw [if_pos rfl] at h1
      have e : i = ⟨0, hp⟩ := Fin.ext (by show (i : ℕ) = 0; omega)
      unfold emitV
      rw [if_pos (by rw [e]), ← hq, e]
    · rw [if_neg fun e => hk (Fin.castSucc_injective _ e)] at h1
      omega

variable {A' : UArgs d} {amps : List (ℕ → ℕ → ℝ)}

theorem exchange_velocity (hd : 0 < d) (hA : A'.gradL = A.gradL ∧ A'.gradM = A.gradM ∧ A'.gradB = A.gradB ∧ A'.opts = A.opts)
    (rf : ℝ) (hwf : (cfgOf rf S).WF) (hn : (cfgOf rf S).NoPml)
    (hr : 0 < S.every) (hcf : 0 < S.nt.toNat → 0 < (A.opts.cb cf).getD (S.nt.toNat / S.every)) (hfin : Finite S.pml)
    {k m : Fin d} (hs : ∀ j : Fin (d + 1), (S.src j).length = if j = k.castSucc then 1 else 0)
    (hrc : ∀ j : Fin (d + 1), (S.rcv j).length = if j = m.castSucc then 1 else 0)
    (hq : ∀ t, S.amp k t 0 = q t) (hq' : ∀ t, (S.exchanged amps).amp m t 0 = q t) :
    ∃ r r', runWith A Init.atRest cf S (cfgOf rf S) = .ok (some r) ∧
      runWith A' Init.atRest cf (S.exchanged amps) (cfgOf rf (S.exchanged amps)) = .ok (some r') ∧
      r.tracesV m 0 = r'.tracesV k 0 := by
  obtain ⟨e1, e2, e3, e4⟩ := hA
  have l1 : 0 < (S.src k).length := by
    have := hs k.castSucc
    rw [if_pos rfl] at this
    exact this.symm ▸ Nat.one_pos
  have l2 : 0 < (S.rcv m).length := by
    have := hrc m.castSucc
    rw [if_pos rfl] at this
    exact this.symm ▸ Nat.one_pos
  obtain ⟨f1, f2⟩ := amps_velocity hs hq l1
  obtain ⟨g1, g2⟩ := amps_velocity (S := S.exchanged amps) hrc hq' l2
  have z1 : (S.src d).length = 0 := (hs (Fin.last d)).trans (if_neg (Fin.castSucc_lt_last k).ne')
  have z2 : (S.rcv d).length = 0 := (hrc (Fin.last d)).trans (if_neg (Fin.castSucc_lt_last m).ne')
  obtain ⟨r, r', h1, h2, h3⟩ := C76_elastic_exchange_velocity hwf hn hd hr
    (fun i => absurd i.isLt (by omega)) (fun i => absurd i.isLt (by omega)) A.gradL A.gradM A.gradB (A.opts.cb cf)
    S.nt.toNat hcf k m ⟨0, l1⟩ ⟨0, l2⟩ q
  refine ⟨_, _, bind_okay (r := r) ?_ (congrArg Except.ok (if_pos hfin)),
    bind_okay (r := r') ?_ (congrArg Except.ok (if_pos hfin)), ?_⟩
  · rw [f1, f2]
    exact h1
  · rw [e1, e2, e3, e4, g1, g2]
    exact h2
  · show S.traces (r.rcdV m) 0 = S.traces (r'.rcdV k) 0
    rw [traces_lt S _ l2, traces_lt S _ l1]
    simp only [h3]

theorem exchange_pressure (hd : 0 < d) (hA : A'.gradL = A.gradL ∧ A'.gradM = A.gradM ∧ A'.gradB = A.gradB ∧ A'.opts = A.opts)
    (rf : ℝ) (hwf : (cfgOf rf S).WF) (hn : (cfgOf rf S).NoPml)
    (hr : 0 < S.every) (hcf : 0 < S.nt.toNat → 0 < (A.opts.cb cf).getD (S.nt.toNat / S.every)) (hfin : Finite S.pml)
    (hs : ∀ j : Fin (d + 1), (S.src j).length = if j = Fin.last d then 1 else 0)
    (hrc : ∀ j : Fin (d + 1), (S.rcv j).length = if j = Fin.last d then 1 else 0)
    (hq : ∀ t, S.amp d t 0 = q t) (hq' : ∀ t, (S.exchanged amps).amp d t 0 = q t) {x y : Cell d}
    (hx : S.src d = [some x]) (hy : S.rcv d = [some y]) (kx : (cfgOf rf S).bulk x ≠ 0) (ky : (cfgOf rf S).bulk y ≠ 0) :
    ∃ r r', ∃ f g : ℕ → ℝ, runWith A Init.atRest cf S (cfgOf rf S) = .ok (some r) ∧
      runWith A' Init.atRest cf (S.exchanged amps) (cfgOf rf (S.exchanged amps)) = .ok (some r') ∧
      (r.tracesP 0).val = (fun t => -(S.down ⟨S.nt.toNat, f⟩).val t / d) ∧
      (r'.tracesP 0).val = (fun t => -(S.down ⟨S.nt.toNat, g⟩).val t / d) ∧
      ∀ t, (cfgOf rf S).bulk x * f t = (cfgOf rf S).bulk y * g t := by
  obtain ⟨e1, e2, e3, e4⟩ := hA
  have l1 : 0 < (S.src d).length := by rw [hx]; exact Nat.one_pos
  have l2 : 0 < (S.rcv d).length := by rw [hy]; exact Nat.one_pos
  obtain ⟨f1, f2⟩ := amps_pressure hs hq l1
  obtain ⟨g1, g2⟩ := amps_pressure (S := S.exchanged amps) hrc hq' l2
  have gx : ∀ i, (cfgOf rf S).srcP i = some x := fun i => by
    have key : ∀ o ∈ S.src d, o = some x := by rw [hx]; simp
    exact key _ (List.get_mem _ _)
  have gy : ∀ i, (cfgOf rf S).rcvP i = some y := fun i => by
    have key : ∀ o ∈ S.rcv d, o = some y := by rw [hy]; simp
    exact key _ (List.get_mem _ _)
  obtain ⟨r, r', h1, h2, h3⟩ := C76_elastic_exchange_pressure hwf hn hd hr
    (fun i c hc => by rw [gx i] at hc; exact Option.some.inj hc ▸ kx)
    (fun i c hc => by rw [gy i] at hc; exact Option.some.inj hc ▸ ky) A.gradL A.gradM A.gradB (A.opts.cb cf)
    S.nt.toNat hcf ⟨0, l1⟩ ⟨0, l2⟩ x y (gx _) (gy _) q
  refine ⟨_, _, fun t => r.rcdP t ⟨0, l2⟩, fun t => r'.rcdP t ⟨0, l1⟩,
    bind_okay (r := r) ?_ (congrArg Except.ok (if_pos hfin)),
    bind_okay (r := r') ?_ (congrArg Except.ok (if_pos hfin)), ?_, ?_, fun t => ?_⟩
  · rw [f1, f2]
    exact h1
  · rw [e1, e2, e3, e4, g1, g2]
    exact h2
  · funext t
    exact congrArg (fun z : Sig ℝ => -z.val t / d) (traces_lt S r.rcdP l2)
  · funext t
    exact congrArg (fun z : Sig ℝ => -z.val t / d) (traces_lt S r'.rcdP l1)
  · have := h3 t
    unfold FResult.pressure at this
    have hd' : (d : ℝ) ≠ 0 := by exact_mod_cast hd.ne'
    field_simp at this
    linarith

theorem exchange_mixed (hd : 0 < d) (hA : A'.gradL = A.gradL ∧ A'.gradM = A.gradM ∧ A'.gradB = A.gradB ∧ A'.opts = A.opts)
    (rf : ℝ) (hwf : (cfgOf rf S).WF) (hn : (cfgOf rf S).NoPml)
    (hr : 0 < S.every) (hcf : 0 < S.nt.toNat → 0 < (A.opts.cb cf).getD (S.nt.toNat / S.every)) (hfin : Finite S.pml)
    {m : Fin d} (hs : ∀ j : Fin (d + 1), (S.src j).length = if j = Fin.last d then 1 else 0)
    (hrc : ∀ j : Fin (d + 1), (S.rcv j).length = if j = m.castSucc then 1 else 0)
    (hq : ∀ t, S.amp d t 0 = q t) (hq' : ∀ t, (S.exchanged amps).amp m t 0 = q t) {x : Cell d}
    (hx : S.src d = [some x]) (kx : (cfgOf rf S).bulk x ≠ 0) :
    ∃ r r', ∃ f g : ℕ → ℝ, runWith A Init.atRest cf S (cfgOf rf S) = .ok (some r) ∧
      runWith A' Init.atRest cf (S.exchanged amps) (cfgOf rf (S.exchanged amps)) = .ok (some r') ∧
      r.tracesV m 0 = S.down ⟨S.nt.toNat, f⟩ ∧
      (r'.tracesP 0).val = (fun t => -(S.down ⟨S.nt.toNat, g⟩).val t / d) ∧
      ∀ t, t + 1 < S.nt.toNat / S.every * S.every → f (t + 1) = -(-g t / d / (cfgOf rf S).bulk x) := by
  obtain ⟨e1, e2, e3, e4⟩ := hA
  have l1 : 0 < (S.src d).length := by rw [hx]; exact Nat.one_pos
  have l2 : 0 < (S.rcv m).length := by
    have := hrc m.castSucc
    rw [if_pos rfl] at this
    exact this.symm ▸ Nat.one_pos
  have z2 : (S.rcv d).length = 0 := (hrc (Fin.last d)).trans (if_neg (Fin.castSucc_lt_last m).ne')
  obtain ⟨f1, f2⟩ := amps_pressure hs hq l1
  obtain ⟨g1, g2⟩ := amps_velocity (S := S.exchanged amps) hrc hq' l2
  have gx : ∀ i, (cfgOf rf S).srcP i = some x := fun i => by
    have key : ∀ o ∈ S.src d, o = some x := by rw [hx]; simp
    exact key _ (List.get_mem _ _)
  obtain ⟨r, r', h1, h2, h3⟩ := C76_elastic_exchange_mixed hwf hn hd hr
    (fun i c hc => by rw [gx i] at hc; exact Option.some.inj hc ▸ kx)
    (fun i => absurd i.isLt (by omega)) A.gradL A.gradM A.gradB (A.opts.cb cf)
    S.nt.toNat hcf m ⟨0, l1⟩ ⟨0, l2⟩ x (gx _) q
  refine ⟨_, _, fun t => r.rcdV m t ⟨0, l2⟩, fun t => r'.rcdP t ⟨0, l1⟩,
    bind_okay (r := r) ?_ (congrArg Except.ok (if_pos hfin)),
    bind_okay (r := r') ?_ (congrArg Except.ok (if_pos hfin)), ?_, ?_, h3⟩
  · rw [f1, f2]
    exact h1
  · rw [e1, e2, e3, e4, g1, g2]
    exact h2
  · exact traces_lt S _ l2
  · funext t
    exact congrArg (fun z : Sig ℝ => -z.val t / d) (traces_lt S r'.rcdP l1)

end

/-- What the setup makes of the locations and amplitudes. -/
theorem Fwd.one (h : Fwd (A.between a b l l' w) P s cf) (hn : l.n = 1) (hn' : l'.n = 1) :
    (∀ j : Fin (d + 1), ((shotIn (A.between a b l l' w).setup P A.opts.timeTaper s).src j).length = if j = a then 1 else 0) ∧
      (∀ j : Fin (d + 1), ((shotIn (A.between a b l l' w).setup P A.opts.timeTaper s).rcv j).length =
        if j = b then 1 else 0) ∧
      (shotIn (A.between a b l l' w).setup P A.opts.timeTaper s).amp a = upAmps P A.opts.timeTaper (some w) s := by
  have e1 : (A.between a b l l' w).setup.srcs = oneAt (d + 1) a l := by rw [between_setup]; rfl
  have e2 : (A.between a b l l' w).setup.rcvs = oneAt (d + 1) b l' := by rw [between_setup]; rfl
  have e3 : (A.between a b l l' w).setup.amps = oneAt (d + 1) a w := by rw [between_setup]; rfl
  refine ⟨fun j => ?_, fun j => ?_, ?_⟩
  · have g := (congrArg (·[(j : ℕ)]?) e1).trans (oneAt_get a j l)
    rw [(src_placed h.good h.lt _ g (h.mem _ (List.mem_append_left _ (List.mem_of_getElem? g)))).length]
    split_ifs
    · exact hn
    · rfl
  · have g := (congrArg (·[(j : ℕ)]?) e2).trans (oneAt_get b j l')
    rw [(rcv_placed h.good h.lt _ g (h.mem _ (List.mem_append_right _ (List.mem_of_getElem? g)))).length]
    split_ifs
    · exact hn'
    · rfl
  · refine amp_eq _ _ _ _ ((congrArg (·[(a : ℕ)]?) e3).trans ((oneAt_get a a w).trans ?_))
    rw [if_pos rfl]

/-- The shot of the exchanged call. -/
theorem Fwd.shot (h : Fwd (A.between a b l l' w) P s cf) :
    shotIn (A.between b a l' l w).setup
        (P.moved true (A.between a b l l' w).setup.rcvs (A.between a b l l' w).setup.srcs) A.opts.timeTaper s =
      (shotIn (A.between a b l l' w).setup P A.opts.timeTaper s).exchanged
        ((oneAt (d + 1) b w).map fun x => upAmps P A.opts.timeTaper x s) := by
  rw [between_exchange]
  exact shotIn_moved h.good _ _ _

/-- No initial wavefields. -/
theorem init_atRest (hw : ∀ x ∈ A.wf.list, x = none) : A.wf.init s = Init.atRest := by
  have hm : ∀ x, x ∈ A.wf.list → x = none := hw
  simp only [UWf.list, List.mem_append, List.mem_flatMap, List.mem_ofFn, List.mem_finRange, true_and] at hm
  have h1 : ∀ i, A.wf.v i = none := fun i => hm _ (.inl (.inl (.inl (.inl ⟨i, rfl⟩))))
  have h2 : ∀ i, A.wf.s i = none := fun i => hm _ (.inl (.inl (.inl (.inr ⟨i, rfl⟩))))
  have h3 : ∀ p, A.wf.sh p = none := fun p => hm _ (.inl (.inl (.inr ⟨p.1.1, p.1.2, dif_pos p.2⟩)))
  have h4 : ∀ i j, A.wf.mv i j = none := fun i j => hm _ (.inl (.inr ⟨i, j, rfl⟩))
  have h5 : ∀ i j, A.wf.ms i j = none := fun i j => hm _ (.inr ⟨i, j, rfl⟩)
  unfold UWf.init Init.atRest
  simp only [h1, h2, h3, h4, h5]
  rfl

theorem noPml (hz : ∀ k, P.w0 k = 0 ∧ P.w1 k = 0) (U : SetupArgs d) (tt : Bool) (rf : ℝ) :
    (cfgOf rf (shotIn U P tt s)).NoPml := fun k x => by
  have h0 := ab_zero hz U.staggered 0 k x
  have h1 := ab_zero hz U.staggered (1 / 2) k x
  exact ⟨congrArg Prod.fst h0, congrArg (fun y => y.2.getD 0) h0, congrArg Prod.fst h1,
    congrArg (fun y => y.2.getD 0) h1⟩

/-- The cell of the only location. -/
theorem _root_.Dw.Setup.Placed.single {L : List (Option (Cell d))} {o : LocT} {c : Cell d} (hp : Placed P (some o) s L)
    (ho : o.n = 1) (hc : locCell (some o) s 0 = some c) :
    L = [some (P.at c)] ∧ ∀ k, (P.ext k).1 ≤ c k ∧ c k < (P.ext k).2 := by
  have hl : L.length = 1 := hp.length.trans ho
  refine ⟨?_, hp.inside 0 (by show 0 < o.n; omega) c hc⟩
  obtain ⟨v, rfl⟩ := List.length_eq_one_iff.1 hl
  have := hp.get ⟨0, by simp⟩
  rw [hc] at this
  exact congrArg (fun z => [z]) this

/-- The bulk modulus in terms of the models of the user. -/
theorem Fwd.bulk (h : Fwd A P s cf) (c : Cell d) (hc : ∀ k, (P.ext k).1 ≤ c k ∧ c k < (P.ext k).2) :
    (cfgOf A.rfmax (shotIn A.setup P A.opts.timeTaper s)).bulk (P.at c) = A.lam.shot s c + 2 * A.mu.shot s c / d := by
  have hnb : 0 < P.nb := by have := h.lt; omega
  have hext := h.good.ext_lt hnb ⟨A.lam, List.mem_cons_self⟩
  have m1 := model_grid h.good hnb hext A.opts.timeTaper s 0 A.lam rfl c
  have m2 := model_grid h.good hnb hext A.opts.timeTaper s 1 A.mu rfl c
  rw [extend_in hc] at m1 m2
  show (shotIn _ _ _ _).model 0 (P.at c) + 2 * (shotIn _ _ _ _).model 1 (P.at c) / d = _
  rw [m1, m2]

/-- **C111** A call of `elastic` without PML and without initial wavefields, with one source and one receiver of
components of the particle velocity: if they change places, the call is accepted as well, and the trace is the same. -/
theorem C111_elastic_reciprocity {k m : Fin d} (h : Fwd (A.between k.castSucc m.castSucc l l' w) P s cf)
    (hw : ∀ x ∈ A.wf.list, x = none) (hz : ∀ k, P.w0 k = 0 ∧ P.w1 k = 0) (hn : l.n = 1) (hn' : l'.n = 1) :
    ∃ r r', (A.between k.castSucc m.castSucc l l' w).elastic s = .ok (some r) ∧
      (A.between m.castSucc k.castSucc l' l w).elastic s = .ok (some r') ∧ r.tracesV m 0 = r'.tracesV k 0 := by
  have h' := h.exchange (hn.trans hn'.symm)
  obtain ⟨l1, l2, ha⟩ := h.one hn hn'
  obtain ⟨r, r', h1, h2, h3⟩ := exchange_velocity (A := A.between k.castSucc m.castSucc l l' w)
    (A' := A.between m.castSucc k.castSucc l' l w) (cf := cf)
    (S := shotIn (A.between k.castSucc m.castSucc l l' w).setup P A.opts.timeTaper s)
    (q := fun t => upAmps P A.opts.timeTaper (some w) s t 0) (Fin.pos k) ⟨rfl, rfl, rfl, rfl⟩ A.rfmax h.wf
    (noPml hz _ _ _) h.ratio (cb_pos h.freq h.ratio h.nt) (finite_of_pmlOk' h.good h.pml true)
    l1 l2 (fun t => congrFun (congrFun ha t) 0)
    (fun t => congrFun (congrFun (exchanged_amp (b := m.castSucc) _ _) t) 0)
  refine ⟨r, r', call_ok.2 ⟨h.pre, P, cf, h.good, h.freq, ?_⟩, call_ok.2 ⟨h'.pre, _, cf, h'.good, h.freq, ?_⟩, h3⟩
  · unfold UArgs.run
    have e : (A.between k.castSucc m.castSucc l l' w).wf.init s = Init.atRest := init_atRest hw
    rw [e]
    exact h1
  · unfold UArgs.run
    have e : (A.between m.castSucc k.castSucc l' l w).wf.init s = Init.atRest := init_atRest hw
    have es : shotIn (A.between m.castSucc k.castSucc l' l w).setup _
      (A.between m.castSucc k.castSucc l' l w).opts.timeTaper s = _ := h.shot
    rw [e, es]
    exact h2

/-- **C111** With a source and a receiver of pressure, the traces are proportional to the bulk modulus at the place of the
receiver. -/
theorem C111_elastic_reciprocity_pressure (hd : 0 < d) (h : Fwd (A.between (Fin.last d) (Fin.last d) l l' w) P s cf)
    (hw : ∀ x ∈ A.wf.list, x = none) (hz : ∀ k, P.w0 k = 0 ∧ P.w1 k = 0) (hn : l.n = 1) (hn' : l'.n = 1)
    {x y : Cell d} (hx : locCell (some l) s 0 = some x) (hy : locCell (some l') s 0 = some y)
    (kx : A.lam.shot s x + 2 * A.mu.shot s x / d ≠ 0) (ky : A.lam.shot s y + 2 * A.mu.shot s y / d ≠ 0) :
    ∃ r r', (A.between (Fin.last d) (Fin.last d) l l' w).elastic s = .ok (some r) ∧
      (A.between (Fin.last d) (Fin.last d) l' l w).elastic s = .ok (some r') ∧
      ∀ t, (r.tracesP 0).val t / (A.lam.shot s y + 2 * A.mu.shot s y / d) =
        (r'.tracesP 0).val t / (A.lam.shot s x + 2 * A.mu.shot s x / d) := by
  have h' := h.exchange (hn.trans hn'.symm)
  obtain ⟨l1, l2, ha⟩ := h.one hn hn'
  have e1 : (A.between (Fin.last d) (Fin.last d) l l' w).setup.srcs = oneAt (d + 1) (Fin.last d) l := by
    rw [between_setup]; rfl
  have e2 : (A.between (Fin.last d) (Fin.last d) l l' w).setup.rcvs = oneAt (d + 1) (Fin.last d) l' := by
    rw [between_setup]; rfl
  have g1 := (congrArg (·[d]?) e1).trans ((oneAt_get (Fin.last d) (Fin.last d) l).trans (by rw [if_pos rfl]))
  have g2 := (congrArg (·[d]?) e2).trans ((oneAt_get (Fin.last d) (Fin.last d) l').trans (by rw [if_pos rfl]))
  have p1 := src_placed h.good h.lt A.opts.timeTaper g1 (h.mem _ (List.mem_append_left _ (List.mem_of_getElem? g1)))
  have p2 := rcv_placed h.good h.lt A.opts.timeTaper g2 (h.mem _ (List.mem_append_right _ (List.mem_of_getElem? g2)))
  obtain ⟨s1, i1⟩ := p1.single hn hx
  obtain ⟨s2, i2⟩ := p2.single hn' hy
  have hk : ∀ c, (∀ k, (P.ext k).1 ≤ c k ∧ c k < (P.ext k).2) →
      (cfgOf A.rfmax (shotIn (A.between (Fin.last d) (Fin.last d) l l' w).setup P A.opts.timeTaper s)).bulk (P.at c) =
        A.lam.shot s c + 2 * A.mu.shot s c / d := fun c => h.bulk c
  obtain ⟨r, r', f, g, h1, h2, h3, h4, h5⟩ := exchange_pressure (A := A.between (Fin.last d) (Fin.last d) l l' w)
    (A' := A.between (Fin.last d) (Fin.last d) l' l w) (cf := cf)
    (S := shotIn (A.between (Fin.last d) (Fin.last d) l l' w).setup P A.opts.timeTaper s)
    (q := fun t => upAmps P A.opts.timeTaper (some w) s t 0) hd ⟨rfl, rfl, rfl, rfl⟩ A.rfmax h.wf
    (noPml hz _ _ _) h.ratio (cb_pos h.freq h.ratio h.nt) (finite_of_pmlOk' h.good h.pml true)
    l1 l2 (fun t => congrFun (congrFun ha t) 0)
    (fun t => congrFun (congrFun (exchanged_amp (b := Fin.last d) _ _) t) 0) s1 s2
    ((hk x i1).symm ▸ kx) ((hk y i2).symm ▸ ky)
  refine ⟨r, r', call_ok.2 ⟨h.pre, P, cf, h.good, h.freq, ?_⟩, call_ok.2 ⟨h'.pre, _, cf, h'.good, h.freq, ?_⟩,
    fun t => ?_⟩
  · unfold UArgs.run
    have e : (A.between (Fin.last d) (Fin.last d) l l' w).wf.init s = Init.atRest := init_atRest hw
    rw [e]
    exact h1
  · unfold UArgs.run
    have e : (A.between (Fin.last d) (Fin.last d) l' l w).wf.init s = Init.atRest := init_atRest hw
    have es : shotIn (A.between (Fin.last d) (Fin.last d) l' l w).setup _
      (A.between (Fin.last d) (Fin.last d) l' l w).opts.timeTaper s = _ := h.shot
    rw [e, es]
    exact h2
  · have hd' : (d : ℝ) ≠ 0 := by exact_mod_cast hd.ne'
    rw [hk x i1, hk y i2] at h5
    have c1 := downS_comb h.good A.opts.timeTaper (A.lam.shot s x + 2 * A.mu.shot s x / d) 0 f f
    have c2 := downS_comb h.good A.opts.timeTaper (A.lam.shot s y + 2 * A.mu.shot s y / d) 0 g g
    have e : (fun t => (A.lam.shot s x + 2 * A.mu.shot s x / d) * f t + 0 * f t) =
        fun t => (A.lam.shot s y + 2 * A.mu.shot s y / d) * g t + 0 * g t := by
      funext t
      rw [h5 t]
      ring
    rw [e] at c1
    have e' : (A.lam.shot s x + 2 * A.mu.shot s x / d) *
        ((shotIn (A.between (Fin.last d) (Fin.last d) l l' w).setup P A.opts.timeTaper s).down ⟨P.nt.toNat, f⟩).val t + 0 * _ =
        (A.lam.shot s y + 2 * A.mu.shot s y / d) *
        ((shotIn (A.between (Fin.last d) (Fin.last d) l l' w).setup P A.opts.timeTaper s).down ⟨P.nt.toNat, g⟩).val t + 0 * _ :=
      congrArg (fun z : Sig ℝ => z.val t) (c1.symm.trans c2)
    rw [h3, h4]
    show -((shotIn (A.between (Fin.last d) (Fin.last d) l l' w).setup P A.opts.timeTaper s).down ⟨P.nt.toNat, f⟩).val t / d / _ =
      -((shotIn (A.between (Fin.last d) (Fin.last d) l l' w).setup P A.opts.timeTaper s).down ⟨P.nt.toNat, g⟩).val t / d / _
    rw [zero_mul, zero_mul, add_zero, add_zero] at e'
    rw [div_div, div_div, div_eq_div_iff (mul_ne_zero hd' ky) (mul_ne_zero hd' kx)]
    linear_combination -(d : ℝ) * e'

/-- **C111** With a source of pressure and a receiver of a component of the particle velocity, without internal substeps,
the trace is that of the exchanged call one sample earlier, with the opposite sign, divided by the bulk modulus at the place
of the source. -/
theorem C111_elastic_reciprocity_mixed {m : Fin d} (h : Fwd (A.between (Fin.last d) m.castSucc l l' w) P s cf)
    (hw : ∀ x ∈ A.wf.list, x = none) (hz : ∀ k, P.w0 k = 0 ∧ P.w1 k = 0) (hn : l.n = 1) (hn' : l'.n = 1)
    (h1 : P.ratio = 1) {x : Cell d} (hx : locCell (some l) s 0 = some x)
    (kx : A.lam.shot s x + 2 * A.mu.shot s x / d ≠ 0) :
    ∃ r r', (A.between (Fin.last d) m.castSucc l l' w).elastic s = .ok (some r) ∧
      (A.between m.castSucc (Fin.last d) l' l w).elastic s = .ok (some r') ∧
      ∀ t, t + 1 < P.steps → (r.tracesV m 0).val (t + 1) =
        -((r'.tracesP 0).val t / (A.lam.shot s x + 2 * A.mu.shot s x / d)) := by
  have h' := h.exchange (hn.trans hn'.symm)
  obtain ⟨l1, l2, ha⟩ := h.one hn hn'
  have e1 : (A.between (Fin.last d) m.castSucc l l' w).setup.srcs = oneAt (d + 1) (Fin.last d) l := by
    rw [between_setup]; rfl
  have g1 := (congrArg (·[d]?) e1).trans ((oneAt_get (Fin.last d) (Fin.last d) l).trans (by rw [if_pos rfl]))
  have p1 := src_placed h.good h.lt A.opts.timeTaper g1 (h.mem _ (List.mem_append_left _ (List.mem_of_getElem? g1)))
  obtain ⟨s1, i1⟩ := p1.single hn hx
  have hk := h.bulk x i1
  obtain ⟨r, r', f, g, q1, q2, h3, h4, h5⟩ := exchange_mixed (A := A.between (Fin.last d) m.castSucc l l' w)
    (A' := A.between m.castSucc (Fin.last d) l' l w) (cf := cf)
    (S := shotIn (A.between (Fin.last d) m.castSucc l l' w).setup P A.opts.timeTaper s)
    (q := fun t => upAmps P A.opts.timeTaper (some w) s t 0) (Fin.pos m) ⟨rfl, rfl, rfl, rfl⟩ A.rfmax h.wf
    (noPml hz _ _ _) h.ratio (cb_pos h.freq h.ratio h.nt) (finite_of_pmlOk' h.good h.pml true)
    l1 l2 (fun t => congrFun (congrFun ha t) 0)
    (fun t => congrFun (congrFun (exchanged_amp (b := m.castSucc) _ _) t) 0) s1 (hk.symm ▸ kx)
  refine ⟨r, r', call_ok.2 ⟨h.pre, P, cf, h.good, h.freq, ?_⟩, call_ok.2 ⟨h'.pre, _, cf, h'.good, h.freq, ?_⟩,
    fun t ht => ?_⟩
  · unfold UArgs.run
    have e : (A.between (Fin.last d) m.castSucc l l' w).wf.init s = Init.atRest := init_atRest hw
    rw [e]
    exact q1
  · unfold UArgs.run
    have e : (A.between m.castSucc (Fin.last d) l' l w).wf.init s = Init.atRest := init_atRest hw
    have es : shotIn (A.between m.castSucc (Fin.last d) l' l w).setup _
      (A.between m.castSucc (Fin.last d) l' l w).opts.timeTaper s = _ := h.shot
    rw [e, es]
    exact q2
  · have e2 := downS_one h.good h1 A.opts.timeTaper ⟨P.nt.toNat, f⟩
    have e3 := downS_one h.good h1 A.opts.timeTaper ⟨P.nt.toNat, g⟩
    rw [h3, h4]
    refine (congrArg (fun z : Sig ℝ => z.val (t + 1)) e2).trans ((h5 t ht).trans ?_)
    refine Eq.trans ?_ (congrArg (fun z : Sig ℝ => -(-z.val t / d / (A.lam.shot s x + 2 * A.mu.shot s x / d))) e3).symm
    exact congrArg (fun z => -(-g t / d / z)) hk

/-! ### Examples -/

noncomputable def exX : UArgs 2 :=
  { exU .none with mu := ⟨none, ![7, 9], fun _ c => if c 1 < 4 then 500 else 0⟩, opts := exO0 .none }

noncomputable def exXP (a b : Fin 3) : Plan 2 :=
  exPl0 true ![(0, 7), (0, 9)] exX.setup.models (oneAt 3 a (exAt 2 3)) (oneAt 3 b (exAt 4 5))

theorem exX_fwd (a b : Fin 3) : Fwd (exX.between a b (exAt 2 3) (exAt 4 5) exCall) (exXP a b) 1 1 where
  good := by
    rw [between_setup]
    refine exO0_good_of (fun l hl => (exAt_locs ?_).1) (fun x hx => ?_) (exU_noWf (sp := .none)) (fun m hm => ?_)
      (List.cons_ne_nil _ _) ?_ ?_ ?_ (by decide) ?_
    · rw [List.mem_append, oneAt_mem, oneAt_mem] at hl
      exact hl
    · rw [(oneAt_mem _ _ _).1 hx]
      exact ⟨rfl, rfl⟩
    · have hm : m ∈ [(exX.lam, PadMode.replicate), (exX.mu, PadMode.replicate), (exX.buoyancy, PadMode.replicate)] := hm
      simp only [List.mem_cons, List.not_mem_nil, or_false] at hm
      rcases hm with rfl | rfl | rfl <;> exact ⟨rfl, rfl⟩
    · revert a; decide +kernel
    · revert a; decide +kernel
    · rw [oneAt_map, oneAt_map]
      exact checkAmpsMatch_oneAt _ _
    · revert a b; decide +kernel
  pre := by
    have h0 : ∀ k : Fin 2, (![7, 9] : Fin 2 → ℤ) k ≤ 0 → False := by decide
    rintro (⟨k, l, hl, h⟩ | (h | ⟨k, h⟩) | (h | ⟨k, h⟩) | (h | ⟨k, h⟩))
    · refine (exAt_locs (st := true) ?_).2.2 k h
      have := UArgs.mem_loc hl
      rw [between_setup] at this
      rw [List.mem_append] at this
      exact this.imp (oneAt_mem _ _ _).1 (oneAt_mem _ _ _).1
    · cases h
    · exact h0 k h
    · cases h
    · exact h0 k h
    · cases h
    · exact h0 k h
  lt := by norm_num [exXP, exPl0]
  pml := .inr fun k => exPl0_width _ _ _ _ _ k
  loc := by
    intro l hl
    rw [between_setup, List.mem_append] at hl
    exact (exAt_locs (st := true) (hl.imp (oneAt_mem _ _ _).1 (oneAt_mem _ _ _).1)).2.1
  last := fun k => .inr (.inl (by
    show ((![(0, 7), (0, 9)] : Fin 2 → ℤ × ℤ) k).2 = (![7, 9] : Fin 2 → ℤ) k
    revert k
    decide))
  freq := rfl
  interval := by norm_num [exXP, exPl0]
  nt := .inr (.inl (by norm_num [exXP, exPl0]))

theorem exX_wf : ∀ x ∈ exX.wf.list, x = none := fun x hx => by
  cases x with
  | none => rfl
  | some w => exact absurd hx (exU_noWf (sp := .none) w)

theorem exAt_cell {x y : ℚ} (hx : x ≠ (ignoreLocation : ℚ)) :
    locCell (d := 2) (some (exAt x y)) 1 0 = some ![trunc x, trunc y] := by
  unfold locCell
  dsimp only
  rw [if_neg fun h => hx (h 0 (by norm_num))]
  congr 1
  funext k
  fin_cases k <;> rfl

example : ∃ r r', (exX.between 0 1 (exAt 2 3) (exAt 4 5) exCall).elastic 1 = .ok (some r) ∧
    (exX.between 1 0 (exAt 4 5) (exAt 2 3) exCall).elastic 1 = .ok (some r') ∧ r.tracesV 1 0 = r'.tracesV 0 0 :=
  C111_elastic_reciprocity (k := 0) (m := 1) (exX_fwd 0 1) exX_wf (exPl0_width _ _ _ _ _) rfl rfl

/-- The source is in a solid, the receiver in a fluid. -/
example : ∃ r r', (exX.between 2 2 (exAt 2 3) (exAt 4 5) exCall).elastic 1 = .ok (some r) ∧
    (exX.between 2 2 (exAt 4 5) (exAt 2 3) exCall).elastic 1 = .ok (some r') ∧
    ∀ t, (r.tracesP 0).val t / 994 = (r'.tracesP 0).val t / 1492 := by
  have e1 : locCell (d := 2) (some (exAt 2 3)) 1 0 = some ![2, 3] := by
    rw [exAt_cell (by decide +kernel)]; rfl
  have e2 : locCell (d := 2) (some (exAt 4 5)) 1 0 = some ![4, 5] := by
    rw [exAt_cell (by decide +kernel)]; rfl
  have k1 : exX.lam.shot 1 ![2, 3] + 2 * exX.mu.shot 1 ![2, 3] / (2 : ℕ) = 1492 := by
    show (990 + ((2 : ℤ) : ℝ)) + 2 * (if (3 : ℤ) < 4 then (500 : ℝ) else 0) / (2 : ℕ) = 1492
    norm_num
  have k2 : exX.lam.shot 1 ![4, 5] + 2 * exX.mu.shot 1 ![4, 5] / (2 : ℕ) = 994 := by
    show (990 + ((4 : ℤ) : ℝ)) + 2 * (if (5 : ℤ) < 4 then (500 : ℝ) else 0) / (2 : ℕ) = 994
    norm_num
  have := C111_elastic_reciprocity_pressure (by norm_num) (exX_fwd 2 2) exX_wf (exPl0_width _ _ _ _ _) rfl rfl e1 e2
    (by rw [k1]; norm_num) (by rw [k2]; norm_num)
  rw [k1, k2] at this
  exact this

end Dw.Elastic
