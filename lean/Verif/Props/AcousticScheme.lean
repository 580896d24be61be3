import Verif.Acoustic.OnGrid
import Verif.Props.BornScheme

/-!
# C92: what a call of `acoustic` computes

From the arguments of the user to the returned tensors, in the coordinates of the model.
-/

namespace Dw.Setup

variable {d : ℕ}

theorem amp_eq (A : SetupArgs d) (P : Plan d) (tt : Bool) (s : ℕ) {j : ℕ} {a : Option AmpT}
    (ha : A.amps[j]? = some a) : (shotIn A P tt s).amp j = Scalar.upAmps P tt a s := by
  unfold ShotIn.amp shotIn
  simp only
  rw [List.getD_eq_getElem?_getD, List.getElem?_map, ha]
  rfl

/-- The locations are not in the last cell of the extents in dimension `k`, where there is no half point
after it if there is no PML either. -/
def Plan.BeforeLast (P : Plan d) (k : Fin d) (s : ℕ) (o : Option LocT) : Prop :=
  ∀ i < locCount o, ∀ c, locCell o s i = some c → c k + 1 < (P.ext k).2

/-- Without cropping, the check of `acoustic` and `elastic` is enough. -/
theorem before_last {A : SetupArgs d} {P : Plan d} (h : A.Good P) {s : ℕ} (hs : s < P.nb) {k : Fin d} {l : LocT}
    (hl : some l ∈ A.srcs ++ A.rcvs) (hw : Scalar.WholeIgnored d l s) (hb : ¬l.Beyond k (P.ext k).2) :
    P.BeforeLast k s (some l) := by
  intro i hi c hc
  have hn : l.nb = P.nb := by
    rcases List.mem_append.1 hl with h1 | h1
    · exact ((extractLocations_iff.1 h.srcs).1 l h1).batch
    · exact ((extractLocations_iff.1 h.rcvs).1 l h1).batch
  unfold locCell at hc
  dsimp only at hc
  split_ifs at hc with hig
  rw [← Option.some.inj hc]
  have hv := (hw i hi).resolve_left hig k k.isLt
  have h0 := (h.in_extents.2 l hl s (by omega) i hi k hv).1
  have h1 : l.val s i k < (((P.ext k).2 - 1 : ℤ) : ℚ) := by
    by_contra h2
    exact hb ⟨s, by omega, i, hi, hv, not_lt.1 h2⟩
  show trunc (l.val s i k) + 1 < _
  unfold trunc
  rw [if_pos h0]
  have := Int.floor_lt.2 h1
  omega

end Dw.Setup

namespace Dw.Acoustic

open Setup Resample
open Scalar (PmlOk WholeIgnored inject sample upAmps downS)

variable {d np mp : ℕ} {nv mv : Fin d → ℕ}

/-- What a callback sees in a run of `nt` steps from `x`. -/
noncomputable def eventsOf (C : Cfg d np mp nv mv ℝ) (fp : ℕ → Fin np → ℝ) (fv : (k : Fin d) → ℕ → Fin (nv k) → ℝ)
    (x : Wavefields d ℝ) (nt : ℕ) : Option ℕ → List (Event d ℝ)
  | none => []
  | some cf => (List.range ((nt / C.ratio + cf - 1) / cf)).map fun i => ⟨i * cf, C.run fp fv x (i * cf * C.ratio)⟩

theorem forward_events {C : Cfg d np mp nv mv ℝ} (h : C.WF) (gk gb : Bool) (cb : Option ℕ) (nt : ℕ)
    (fp : ℕ → Fin np → ℝ) (fv : (k : Fin d) → ℕ → Fin (nv k) → ℝ) (w : Init d ℝ) (hr : 0 < C.ratio)
    (hcf : 0 < nt → 0 < cb.getD (nt / C.ratio)) : (C.forward gk gb cb nt fp fv w).map (·.events) =
    .ok (eventsOf C fp fv (C.prepare w) nt cb) := by
  rw [forward_eq h _ _ _ _ _ _ _ hr hcf]
  cases cb <;> rfl

theorem runWith_events (A : UArgs d) (w : Init d ℝ) (cf : ℤ) (S : ShotIn d) (C : Cfg d np mp nv mv ℝ)
    (h : C.WF) (hr : 0 < C.ratio) (hcf : 0 < S.nt.toNat → 0 < (A.opts.cb cf).getD (S.nt.toNat / C.ratio))
    (hf : Acoustic.Finite S.pml) :
    let fp := scaleAmpP C fun t i => S.amp 0 t i
    let fv := scaleAmpV C fun k t i => S.amp (k + 1) t i
    let T := S.nt.toNat / C.ratio * C.ratio
    ∃ r, runWith A w cf S C = .ok (some r) ∧ r.out = C.unpadAll (C.run fp fv (C.prepare w) T) ∧
      r.tracesP = S.traces (fun t => if t < T then sample C.rcvP (C.run fp fv (C.prepare w) t).p else fun _ => 0) ∧
      (r.tracesV = fun k => S.traces (fun t => if t < T then sample (C.rcvV k) ((C.run fp fv (C.prepare w) t).v k)
        else fun _ => 0)) ∧
      r.events = eventsOf C fp fv (C.prepare w) S.nt.toNat (A.opts.cb cf) := by
  intro fp fv T
  unfold runWith
  have hev := fun gk gb fp fv => forward_events h gk gb (A.opts.cb cf) S.nt.toNat fp fv w hr hcf
  simp only [forward_eq h _ _ _ _ _ _ _ hr hcf] at hev ⊢
  simp only [bind, Except.bind, pure, Except.pure, if_pos hf]
  exact ⟨_, rfl, rfl, rfl, rfl, Except.ok.inj (hev A.gradK A.gradB fp fv)⟩

theorem runWith_spec (A : UArgs d) (w : Init d ℝ) (cf : ℤ) (S : ShotIn d) (C : Cfg d np mp nv mv ℝ)
    (h : C.WF) (hr : 0 < C.ratio) (hcf : 0 < S.nt.toNat → 0 < (A.opts.cb cf).getD (S.nt.toNat / C.ratio))
    (hf : Acoustic.Finite S.pml) :
    let fp := scaleAmpP C fun t i => S.amp 0 t i
    let fv := scaleAmpV C fun k t i => S.amp (k + 1) t i
    let T := S.nt.toNat / C.ratio * C.ratio
    ∃ r, runWith A w cf S C = .ok (some r) ∧ r.out = C.unpadAll (C.run fp fv (C.prepare w) T) ∧
      r.tracesP = S.traces (fun t => if t < T then sample C.rcvP (C.run fp fv (C.prepare w) t).p else fun _ => 0) ∧
      r.tracesV = fun k => S.traces (fun t => if t < T then sample (C.rcvV k) ((C.run fp fv (C.prepare w) t).v k)
        else fun _ => 0) := by
  obtain ⟨r, h1, h2, h3, h4, -⟩ := runWith_events A w cf S C h hr hcf hf
  exact ⟨r, h1, h2, h3, h4⟩

/-- The sources of one kind, scaled as `acoustic` does. -/
theorem inject_scaled {n : ℕ} {loc : Fin n → Option (Cell d)} {m : Fld d ℝ} {g : Fin n → ℝ} {dt q : ℝ} (c : Cell d)
    (hq : inject loc g c = q) :
    inject loc (fun i => g i * Born.gatherAt m (loc i) * dt) c = dt * m c * q := by
  rw [← hq]
  unfold inject
  rw [Finset.mul_sum]
  refine Finset.sum_congr rfl fun i _ => ?_
  split_ifs with hi
  · simp only [hi, Born.gatherAt, Option.getD_some]
    ring
  · ring

/-- What a callback sees: the wavefields at the time of the call, in the padded arrays. -/
def Shows (P : Plan d) (callback : Bool) (cf : ℤ) (es : List (Event d ℝ)) (p : ℕ → Fld d ℝ)
    (v phi psi : ℕ → Fin d → Fld d ℝ) : Prop :=
  es.map Event.step = (if callback then P.callSteps cf else []) ∧
  ∀ e ∈ es, let t := e.step * (P.ratio * P.interval).toNat
    ∀ c, e.wf.p (P.at c) = p t c ∧ ∀ k, e.wf.v k (P.at c) = v t k c ∧ e.wf.phi k (P.at c) = phi t k c ∧
      e.wf.psi k (P.at c) = psi t k c

/-- The scheme, and what a callback sees. -/
theorem scheme_events (A : UArgs d) (P : Plan d) (s : ℕ) (cf : ℤ) (hplan : A.setup.plan = .ok P)
    (hpre : ¬A.Pre) (hs : s < P.nb) (hP : PmlOk P)
    (hloc : ∀ l, some l ∈ A.setup.srcs ++ A.setup.rcvs → WholeIgnored d l s)
    (hlast : ∀ k, 0 < P.w1 k ∨ (P.ext k).2 = A.v.shape k ∨ P.BeforeLast k s (A.srcV k) ∧ P.BeforeLast k s (A.rcvV k))
    (hcf : checkCallbackFrequency A.opts.callbackFreq = .ok cf) (hi : 0 < P.interval)
    (hnt : A.opts.callback = true ∨ P.ratio * P.interval ≤ P.nt ∨ P.nt ≤ 0) :
    ∃ r p v phi psi, A.acoustic s = .ok (some r) ∧
      Shows P A.opts.callback cf r.events p v phi psi ∧
      let rho := P.grid.extend (A.rho.shot s)
      P.grid.Acoustic (fun c => rho c * P.grid.extend (A.v.shot s) c ^ 2)
        (fun k c => Spec.inverse A.rfmax (Spec.mean rho k c))
        (fun t => locSum A.srcP s fun i => upAmps P A.opts.timeTaper A.ampP s t i)
        (fun t k => locSum (A.srcV k) s fun i => upAmps P A.opts.timeTaper (A.ampV k) s t i) p v phi psi ∧
      (∀ c, (P.grid.In c → p 0 c = P.given A.wf.p s c ∧ ∀ k,
          (P.Between k (c k) → phi 0 k c = 0) ∧ (¬P.Between k (c k) → phi 0 k c = P.given (A.wf.phi k) s c)) ∧
        ∀ k, P.grid.InH k c → v 0 k c = P.given (A.wf.v k) s c ∧
          (P.BetweenH k (c k) → psi 0 k c = 0) ∧
          (¬P.BetweenH k (c k) → psi 0 k c = P.given (A.wf.psi k) s c)) ∧
      (∀ c, r.out.p (P.index c) = p P.steps c ∧ ∀ k, r.out.v k (P.index c) = v P.steps k c ∧
        r.out.phi k (P.index c) = phi P.steps k c ∧ r.out.psi k (P.index c) = psi P.steps k c) ∧
      (∀ i < locCount A.rcvP, r.tracesP i = downS P A.opts.timeTaper ⟨P.nt.toNat, fun t =>
        if t < P.steps then locValue A.rcvP s i (p t) else 0⟩) ∧
      ∀ k, ∀ i < locCount (A.rcvV k), r.tracesV k i = downS P A.opts.timeTaper ⟨P.nt.toNat, fun t =>
        if t < P.steps then locValue (A.rcvV k) s i (v t k) else 0⟩ := by
  have h := plan_ok.1 hplan
  have hnb : 0 < P.nb := by omega
  have hext := h.ext_lt hnb ⟨A.v, List.mem_cons_self⟩
  have hC : OnGrid P (cfgOf A.rfmax (shotIn A.setup P A.opts.timeTaper s)) :=
    ⟨rfl, rfl, rfl, rfl, rfl, rfl, rfl, rfl, rfl, rfl⟩
  have hv : ∀ c, (shotIn A.setup P A.opts.timeTaper s).model 0 (P.at c) = P.grid.extend (A.v.shot s) c :=
    model_grid h hnb hext _ s 0 A.v rfl
  have hrho : ∀ c, (shotIn A.setup P A.opts.timeTaper s).model 1 (P.at c) = P.grid.extend (A.rho.shot s) c :=
    model_grid h hnb hext _ s 1 A.rho rfl
  have hK : ∀ c, (cfgOf A.rfmax (shotIn A.setup P A.opts.timeTaper s)).K (P.at c) =
      P.grid.extend (A.rho.shot s) c * P.grid.extend (A.v.shot s) c ^ 2 := fun c => by
    rw [← hv c, ← hrho c]
    rfl
  have hB : ∀ k c, P.grid.InH k c → (cfgOf A.rfmax (shotIn A.setup P A.opts.timeTaper s)).B k (P.at c) =
      Spec.inverse A.rfmax (Spec.mean (P.grid.extend (A.rho.shot s)) k c) := fun k c hc => by
    have hm : meanRho (P.n true) ((shotIn A.setup P A.opts.timeTaper s).model 1) k (P.at c) =
        Spec.mean (P.grid.extend (A.rho.shot s)) k c := by
      unfold meanRho Spec.mean
      rw [if_pos, hrho, ← Plan.at_shift, hrho]
      have := hc.1 k
      have := hc.2
      have := nStag_eq P k
      have := P.acc.pad_pos
      simp only [Plan.grid, Plan.at, Plan.off] at *
      omega
    rw [← hm]
    rfl
  have hmem : ∀ o, o ∈ A.setup.srcs ++ A.setup.rcvs → ∀ l, o = some l → WholeIgnored d l s :=
    fun o ho l hl => hloc l (hl ▸ ho)
  have hix : ∀ (f : Fin d → Option LocT) (o : Option LocT) (k : Fin d), (o :: List.ofFn f)[(k : ℕ) + 1]? = some (f k) :=
    fun f o k => by simp
  have hsP : Placed P A.srcP s _ := src_placed h hs A.opts.timeTaper (j := 0) rfl
    (hmem _ (List.mem_append_left _ List.mem_cons_self))
  have hrP : Placed P A.rcvP s _ := rcv_placed h hs A.opts.timeTaper (j := 0) rfl
    (hmem _ (List.mem_append_right _ List.mem_cons_self))
  have hsV : ∀ k, Placed P (A.srcV k) s _ := fun k => src_placed h hs A.opts.timeTaper (j := k + 1) (hix _ _ k)
    (hmem _ (List.mem_append_left _ (List.mem_of_getElem? (hix _ _ k))))
  have hrV : ∀ k, Placed P (A.rcvV k) s _ := fun k => rcv_placed h hs A.opts.timeTaper (j := k + 1) (hix _ _ k)
    (hmem _ (List.mem_append_right _ (List.mem_of_getElem? (hix _ _ k))))
  have last : ∀ k o, (o = A.srcV k ∨ o = A.rcvV k) → ∀ l : List (Option (Cell d)), Placed P o s l →
      ∀ (i : Fin l.length) c, l.get i = some (P.at c) → P.Inside c ∧ c k < P.grid.hi k + P.grid.w1 k := by
    intro k o ho l hl i c e
    have hin := hl.inside' i c e
    refine ⟨hin, ?_⟩
    have hk := hin k
    have hw := h.widths k
    have main : 0 < P.w1 k ∨ P.BeforeLast k s o := by
      rcases hlast k with h1 | h1 | h1
      · exact .inl h1
      · refine .inr ?_
        cases o with
        | none => intro i hi; cases hi
        | some l' =>
            have hl' : A.srcV k = some l' ∨ A.rcvV k = some l' := ho.imp Eq.symm Eq.symm
            have hm : some l' ∈ A.setup.srcs ++ A.setup.rcvs := by
              rcases hl' with h2 | h2
              · exact List.mem_append_left _ (h2 ▸ List.mem_of_getElem? (hix A.srcV A.srcP k))
              · exact List.mem_append_right _ (h2 ▸ List.mem_of_getElem? (hix A.rcvV A.rcvP k))
            refine before_last h hs hm (hloc _ hm) fun hb => hpre (.inr ⟨k, l', hl', ?_⟩)
            rwa [h1] at hb
      · rcases ho with rfl | rfl
        · exact .inr h1.1
        · exact .inr h1.2
    simp only [Plan.grid]
    rcases main with h1 | h1
    · omega
    · have hc : locCell (d := d) o s i = some c := by
        have := hl.get i
        rw [e] at this
        cases hc : locCell (d := d) o s i with
        | none => rw [hc] at this; cases this
        | some c' =>
            rw [hc] at this
            rw [Plan.at_inj.1 (Option.some.inj this)]
      have := h1 i (i.isLt.trans_eq hl.length) c hc
      omega
  have hwf := hC.wf h hext hP (fun i c e => hsP.inside' i c e) (fun i c e => hrP.inside' i c e)
    (fun k i c e => last k _ (.inl rfl) _ (hsV k) i c e) (fun k i c e => last k _ (.inr rfl) _ (hrV k) i c e)
  have hrat : (cfgOf A.rfmax (shotIn A.setup P A.opts.timeTaper s)).ratio = (P.ratio * P.interval).toNat := rfl
  have hrp := Scalar.SetupGood.ratio_pos h
  have hr : 0 < (P.ratio * P.interval).toNat := by
    have : 0 < P.ratio * P.interval := mul_pos (by omega) hi
    omega
  have hdt : (cfgOf A.rfmax (shotIn A.setup P A.opts.timeTaper s)).dt = P.dt := rfl
  obtain ⟨r, hrun, hout, htp, htv, hev⟩ := runWith_events A (A.wf.init s) cf
    (shotIn A.setup P A.opts.timeTaper s) (cfgOf A.rfmax (shotIn A.setup P A.opts.timeTaper s)) hwf hr
    (cb_pos hcf hr hnt) (finite_of_pmlOk' h hP true)
  have hcall : A.acoustic s = .ok (some r) := call_ok.2 ⟨hpre, P, cf, h, hcf, hrun⟩
  have hjP : ∀ (g : ℕ → ℝ) c, inject (cfgOf A.rfmax (shotIn A.setup P A.opts.timeTaper s)).srcP (fun i => g i) (P.at c) =
      locSum A.srcP s g c := fun g c => hsP.inject g c
  have hjV : ∀ k (g : ℕ → ℝ) c, inject ((cfgOf A.rfmax (shotIn A.setup P A.opts.timeTaper s)).srcV k) (fun i => g i)
      (P.at c) = locSum (A.srcV k) s g c := fun k g c => (hsV k).inject g c
  have hrsP : ∀ u i, sample (cfgOf A.rfmax (shotIn A.setup P A.opts.timeTaper s)).rcvP u i =
      locValue A.rcvP s i fun c => u (P.at c) := hrP.sample
  have hrsV : ∀ k u i, sample ((cfgOf A.rfmax (shotIn A.setup P A.opts.timeTaper s)).rcvV k) u i =
      locValue (A.rcvV k) s i fun c => u (P.at c) := fun k => (hrV k).sample
  have haP : (fun (t : ℕ) (i : Fin ((shotIn A.setup P A.opts.timeTaper s).src 0).length) =>
      (shotIn A.setup P A.opts.timeTaper s).amp 0 t i) =
      fun t (i : Fin _) => upAmps P A.opts.timeTaper A.ampP s t i := rfl
  have haV : (fun (k : Fin d) (t : ℕ) (i : Fin ((shotIn A.setup P A.opts.timeTaper s).src (k + 1)).length) =>
      (shotIn A.setup P A.opts.timeTaper s).amp (k + 1) t i) =
      fun k t (i : Fin _) => upAmps P A.opts.timeTaper (A.ampV k) s t i := by
    funext k t i
    have e : A.setup.amps[(k : ℕ) + 1]? = some (A.ampV k) :=
      (by simp : (A.ampP :: List.ofFn A.ampV)[(k : ℕ) + 1]? = some (A.ampV k))
    rw [amp_eq _ _ _ _ e]
  rw [haP, haV] at hout htp htv hev
  have hlP := hrP.length
  have hlV := fun k => (hrV k).length
  clear hrun hsP hrP hsV hrV last
  generalize cfgOf A.rfmax (shotIn A.setup P A.opts.timeTaper s) = C at *
  have hN : P.nt.toNat / C.ratio * C.ratio = P.steps := by rw [hrat]; rfl
  set fp := scaleAmpP C fun t i => upAmps P A.opts.timeTaper A.ampP s t i with hfp
  set fv := scaleAmpV C fun k t i => upAmps P A.opts.timeTaper (A.ampV k) s t i with hfv
  set st := C.run fp fv (C.prepare (A.wf.init s)) with hst
  refine ⟨r, fun t c => (st t).p (P.at c), fun t k c => (st t).v k (P.at c), fun t k c => (st t).phi k (P.at c),
    fun t k c => (st t).psi k (P.at c), hcall, ?_,
    hC.wave h hext hP hwf (prepare_good _) hK hB (fun t c _ => ?_) (fun t k c hc => ?_),
    fun c => hC.start A.wf s c, fun c => ?_, fun i hi => ?_, fun k i hi => ?_⟩
  · unfold Shows Plan.callSteps
    rw [hev, ← hrat]
    unfold Opts.cb
    cases A.opts.callback with
    | false => exact ⟨rfl, fun e he => (List.not_mem_nil he).elim⟩
    | true =>
        refine ⟨by simp only [if_true, eventsOf, List.map_map]; rfl, fun e he => ?_⟩
        simp only [if_true, eventsOf, List.mem_map, List.mem_range] at he
        obtain ⟨j, -, rfl⟩ := he
        exact fun c => ⟨rfl, fun k => ⟨rfl, rfl, rfl⟩⟩
  · rw [← hK, ← hdt]
    exact inject_scaled (P.at c) (hjP _ c)
  · rw [← hB k c hc, ← hdt]
    exact inject_scaled (P.at c) (hjV k _ c)
  · rw [hout, ← hN]
    exact hC.out _ c
  · rw [htp]
    refine traces_eq _ _ (hi.trans_eq hlP.symm) hN fun t => ?_
    exact hrsP _ _
  · rw [htv]
    refine traces_eq _ _ (hi.trans_eq (hlV k).symm) hN fun t => ?_
    exact hrsV k _ _

/-- **C92** A call of `acoustic` that passes the checks computes the solution of the acoustic wave equation on
a staggered grid (`Spec/Acoustic.lean`): bulk modulus from the continued velocity and density, inverse of the
mean of the density at half points, and the sources of the user.  The velocity locations have to be before the
last cell of the extents, which is checked if the extents are the whole model, or there has to be a PML after
it. -/
theorem C92_acoustic_scheme (A : UArgs d) (P : Plan d) (s : ℕ) (cf : ℤ) (hplan : A.setup.plan = .ok P)
    (hpre : ¬A.Pre) (hs : s < P.nb) (hP : PmlOk P)
    (hloc : ∀ l, some l ∈ A.setup.srcs ++ A.setup.rcvs → WholeIgnored d l s)
    (hlast : ∀ k, 0 < P.w1 k ∨ (P.ext k).2 = A.v.shape k ∨ P.BeforeLast k s (A.srcV k) ∧ P.BeforeLast k s (A.rcvV k))
    (hcf : checkCallbackFrequency A.opts.callbackFreq = .ok cf) (hi : 0 < P.interval)
    (hnt : A.opts.callback = true ∨ P.ratio * P.interval ≤ P.nt ∨ P.nt ≤ 0) :
    ∃ r p v phi psi, A.acoustic s = .ok (some r) ∧
      let rho := P.grid.extend (A.rho.shot s)
      P.grid.Acoustic (fun c => rho c * P.grid.extend (A.v.shot s) c ^ 2)
        (fun k c => Spec.inverse A.rfmax (Spec.mean rho k c))
        (fun t => locSum A.srcP s fun i => upAmps P A.opts.timeTaper A.ampP s t i)
        (fun t k => locSum (A.srcV k) s fun i => upAmps P A.opts.timeTaper (A.ampV k) s t i) p v phi psi ∧
      (∀ c, (P.grid.In c → p 0 c = P.given A.wf.p s c ∧ ∀ k,
          (P.Between k (c k) → phi 0 k c = 0) ∧ (¬P.Between k (c k) → phi 0 k c = P.given (A.wf.phi k) s c)) ∧
        ∀ k, P.grid.InH k c → v 0 k c = P.given (A.wf.v k) s c ∧
          (P.BetweenH k (c k) → psi 0 k c = 0) ∧
          (¬P.BetweenH k (c k) → psi 0 k c = P.given (A.wf.psi k) s c)) ∧
      (∀ c, r.out.p (P.index c) = p P.steps c ∧ ∀ k, r.out.v k (P.index c) = v P.steps k c ∧
        r.out.phi k (P.index c) = phi P.steps k c ∧ r.out.psi k (P.index c) = psi P.steps k c) ∧
      (∀ i < locCount A.rcvP, r.tracesP i = downS P A.opts.timeTaper ⟨P.nt.toNat, fun t =>
        if t < P.steps then locValue A.rcvP s i (p t) else 0⟩) ∧
      ∀ k, ∀ i < locCount (A.rcvV k), r.tracesV k i = downS P A.opts.timeTaper ⟨P.nt.toNat, fun t =>
        if t < P.steps then locValue (A.rcvV k) s i (v t k) else 0⟩ := by
  obtain ⟨r, p, v, phi, psi, h1, -, h2⟩ := scheme_events A P s cf hplan hpre hs hP hloc hlast hcf hi hnt
  exact ⟨r, p, v, phi, psi, h1, h2⟩

/-- **C92** Without initial wavefields the traces are those of the one solution that starts from zero. -/
theorem C92_traces (A : UArgs d) (P : Plan d) (s : ℕ) (cf : ℤ) (hplan : A.setup.plan = .ok P)
    (hpre : ¬A.Pre) (hs : s < P.nb) (hP : PmlOk P)
    (hloc : ∀ l, some l ∈ A.setup.srcs ++ A.setup.rcvs → WholeIgnored d l s)
    (hlast : ∀ k, 0 < P.w1 k ∨ (P.ext k).2 = A.v.shape k ∨ P.BeforeLast k s (A.srcV k) ∧ P.BeforeLast k s (A.rcvV k))
    (hcf : checkCallbackFrequency A.opts.callbackFreq = .ok cf) (hi : 0 < P.interval)
    (hnt : A.opts.callback = true ∨ P.ratio * P.interval ≤ P.nt ∨ P.nt ≤ 0)
    (hw : A.wf.p = none ∧ ∀ k, A.wf.v k = none ∧ A.wf.phi k = none ∧ A.wf.psi k = none)
    (p : ℕ → Fld d ℝ) (v phi psi : ℕ → Fin d → Fld d ℝ)
    (hu : P.grid.Acoustic (fun c => P.grid.extend (A.rho.shot s) c * P.grid.extend (A.v.shot s) c ^ 2)
      (fun k c => Spec.inverse A.rfmax (Spec.mean (P.grid.extend (A.rho.shot s)) k c))
      (fun t => locSum A.srcP s fun i => upAmps P A.opts.timeTaper A.ampP s t i)
      (fun t k => locSum (A.srcV k) s fun i => upAmps P A.opts.timeTaper (A.ampV k) s t i) p v phi psi)
    (h0 : p 0 = 0 ∧ v 0 = 0 ∧ phi 0 = 0 ∧ psi 0 = 0) :
    ∃ r, A.acoustic s = .ok (some r) ∧
      (∀ i < locCount A.rcvP, r.tracesP i = downS P A.opts.timeTaper ⟨P.nt.toNat, fun t =>
        if t < P.steps then locValue A.rcvP s i (p t) else 0⟩) ∧
      ∀ k, ∀ i < locCount (A.rcvV k), r.tracesV k i = downS P A.opts.timeTaper ⟨P.nt.toNat, fun t =>
        if t < P.steps then locValue (A.rcvV k) s i (v t k) else 0⟩ := by
  obtain ⟨r, p', v', phi', psi', hr, hwave, hinit, -, h1, h2⟩ := C92_acoustic_scheme A P s cf hplan hpre hs hP hloc hlast
    hcf hi hnt
  obtain ⟨w1, w2⟩ := hw
  have e := hwave.unique hu (by
    rw [h0.1, h0.2.1, h0.2.2.1, h0.2.2.2]
    refine ⟨funext fun c => ?_, funext fun k => funext fun c => ?_, funext fun k => funext fun c => ?_,
      funext fun k => funext fun c => ?_⟩
    · by_cases hc : P.grid.In c
      · rw [((hinit c).1 hc).1, w1]; rfl
      · exact ((hwave.outside 0 c).1 hc).1
    · by_cases hc : P.grid.InH k c
      · rw [((hinit c).2 k hc).1, (w2 k).1]; rfl
      · exact ((hwave.outside 0 c).2 k hc).1
    · by_cases hc : P.grid.In c
      · have := ((hinit c).1 hc).2 k
        by_cases hb : P.Between k (c k)
        · exact this.1 hb
        · rw [this.2 hb, (w2 k).2.1]; rfl
      · exact ((hwave.outside 0 c).1 hc).2 k
    · by_cases hc : P.grid.InH k c
      · have := ((hinit c).2 k hc).2
        by_cases hb : P.BetweenH k (c k)
        · exact this.1 hb
        · rw [this.2 hb, (w2 k).2.2]; rfl
      · exact ((hwave.outside 0 c).2 k hc).2)
  rw [e.1] at h1
  rw [e.2.1] at h2
  exact ⟨r, hr, h1, h2⟩

/-- The extents are the whole model. -/
example : ∃ r p v phi psi, (exU .none).acoustic 1 = .ok (some r) ∧
    (exP ![(0, 7), (0, 9)]).grid.Acoustic
      (fun c => (exP ![(0, 7), (0, 9)]).grid.extend ((exU .none).rho.shot 1) c *
        (exP ![(0, 7), (0, 9)]).grid.extend ((exU .none).v.shot 1) c ^ 2)
      (fun k c => Spec.inverse (exU .none).rfmax
        (Spec.mean ((exP ![(0, 7), (0, 9)]).grid.extend ((exU .none).rho.shot 1)) k c))
      (fun t => locSum (exU .none).srcP 1 fun i => upAmps (exP ![(0, 7), (0, 9)]) (exU .none).opts.timeTaper
        (exU .none).ampP 1 t i)
      (fun t k => locSum ((exU .none).srcV k) 1 fun i => upAmps (exP ![(0, 7), (0, 9)]) (exU .none).opts.timeTaper
        ((exU .none).ampV k) 1 t i) p v phi psi := by
  obtain ⟨r, p, v, phi, psi, hr, hw, -⟩ := C92_acoustic_scheme (exU .none) (exP ![(0, 7), (0, 9)]) 1 1
    (plan_ok.2 exU_whole) (exU_pre .none) (by decide) (.inl (by norm_num [exP, exPl]))
    (fun l hl => Born.exLoc_whole (by decide) (exU_locs .none l hl)) (fun k => .inl (by fin_cases k <;> norm_num [exP, exPl, Plan.w1]))
    rfl (by norm_num [exP, exPl]) (.inr (.inl (by norm_num [exP, exPl])))
  exact ⟨r, p, v, phi, psi, hr, hw⟩

/-- `C92_traces` applies to the same call, with the solution of `C92_acoustic_scheme`. -/
example : ∃ r, (exU .none).acoustic 1 = .ok (some r) ∧ 0 < locCount (exU .none).rcvP := by
  have hpm : PmlOk (exP ![(0, 7), (0, 9)]) := .inl (by norm_num [exP, exPl])
  have hl : ∀ l, some l ∈ (exU .none).setup.srcs ++ (exU .none).setup.rcvs → WholeIgnored 2 l 1 :=
    fun l hl => Born.exLoc_whole (by decide) (exU_locs .none l hl)
  have hw1 : ∀ k, 0 < (exP ![(0, 7), (0, 9)]).w1 k := fun k => by fin_cases k <;> norm_num [exP, exPl, Plan.w1]
  obtain ⟨r, p, v, phi, psi, hr, hw, hi, -⟩ := C92_acoustic_scheme (exU .none) (exP ![(0, 7), (0, 9)]) 1 1
    (plan_ok.2 exU_whole) (exU_pre .none) (by decide) hpm hl (fun k => .inl (hw1 k)) rfl (by norm_num [exP, exPl])
    (.inr (.inl (by norm_num [exP, exPl])))
  obtain ⟨r, hr, -⟩ := C92_traces (exU .none) (exP ![(0, 7), (0, 9)]) 1 1
    (plan_ok.2 exU_whole) (exU_pre .none) (by decide) hpm hl (fun k => .inl (hw1 k)) rfl (by norm_num [exP, exPl])
    (.inr (.inl (by norm_num [exP, exPl]))) ⟨rfl, fun _ => ⟨rfl, rfl, rfl⟩⟩ p v phi psi hw (by
      refine ⟨funext fun c => ?_, funext fun k => funext fun c => ?_, funext fun k => funext fun c => ?_,
        funext fun k => funext fun c => ?_⟩
      · by_cases hc : (exP ![(0, 7), (0, 9)]).grid.In c
        · exact ((hi c).1 hc).1
        · exact ((hw.outside 0 c).1 hc).1
      · by_cases hc : (exP ![(0, 7), (0, 9)]).grid.InH k c
        · exact ((hi c).2 k hc).1
        · exact ((hw.outside 0 c).2 k hc).1
      · by_cases hc : (exP ![(0, 7), (0, 9)]).grid.In c
        · by_cases hb : (exP ![(0, 7), (0, 9)]).Between k (c k)
          · exact (((hi c).1 hc).2 k).1 hb
          · exact (((hi c).1 hc).2 k).2 hb
        · exact ((hw.outside 0 c).1 hc).2 k
      · by_cases hc : (exP ![(0, 7), (0, 9)]).grid.InH k c
        · by_cases hb : (exP ![(0, 7), (0, 9)]).BetweenH k (c k)
          · exact (((hi c).2 k hc).2).1 hb
          · exact (((hi c).2 k hc).2).2 hb
        · exact ((hw.outside 0 c).2 k hc).2)
  exact ⟨r, hr, by decide⟩

end Dw.Acoustic
