import Verif.Elastic.OnGrid
import Verif.Props.AcousticScheme

/-!
# C93: what a call of `elastic` computes

From the arguments of the user to the returned tensors, in the coordinates of the model.
-/

namespace Dw.Elastic

open Setup Resample
open Scalar (PmlOk WholeIgnored inject sample upAmps downS)

variable {d np mp : ℕ} {nv mv : Fin d → ℕ}

/-- What a callback sees in a run of `nt` steps from `x`. -/
noncomputable def eventsOf (C : Cfg d np mp nv mv ℝ) (fp : ℕ → Fin np → ℝ) (fv : (k : Fin d) → ℕ → Fin (nv k) → ℝ)
    (x : Wavefields d ℝ) (nt : ℕ) : Option ℕ → List (Event d ℝ)
  | none => []
  | some cf => (List.range ((nt / C.ratio + cf - 1) / cf)).map fun i => ⟨i * cf, C.run fp fv x (i * cf * C.ratio)⟩

theorem forward_events {C : Cfg d np mp nv mv ℝ} (h : C.WF) (gl gm gb : Bool) (cb : Option ℕ) (nt : ℕ)
    (fp : ℕ → Fin np → ℝ) (fv : (k : Fin d) → ℕ → Fin (nv k) → ℝ) (w : Init d ℝ) (hr : 0 < C.ratio)
    (hcf : 0 < nt → 0 < cb.getD (nt / C.ratio)) : (C.forward gl gm gb cb nt fp fv w).map (·.events) =
    .ok (eventsOf C fp fv (C.prepare w) nt cb) := by
  rw [forward_eq h _ _ _ _ _ _ _ _ hr hcf]
  cases cb <;> rfl

theorem runWith_events (A : UArgs d) (w : Init d ℝ) (cf : ℤ) (S : ShotIn d) (C : Cfg d np mp nv mv ℝ)
    (h : C.WF) (hr : 0 < C.ratio) (hcf : 0 < S.nt.toNat → 0 < (A.opts.cb cf).getD (S.nt.toNat / C.ratio))
    (hf : Acoustic.Finite S.pml) :
    let fp := scaleAmpP C fun t i => S.amp d t i
    let fv := scaleAmpV C fun k t i => S.amp k t i
    let T := S.nt.toNat / C.ratio * C.ratio
    let x := S.traces (fun t => if t < T then sample C.rcvP (C.run fp fv (C.prepare w) t).prs else fun _ => 0)
    ∃ r, runWith A w cf S C = .ok (some r) ∧ r.out = C.unpadAll (C.run fp fv (C.prepare w) T) ∧
      (r.tracesP = fun i => ⟨(x i).len, fun t => -(x i).val t / d⟩) ∧
      (r.tracesV = fun k => S.traces (fun t => if t < T then sample (C.rcvV k) ((C.run fp fv (C.prepare w) t).v k)
        else fun _ => 0)) ∧
      r.events = eventsOf C fp fv (C.prepare w) S.nt.toNat (A.opts.cb cf) := by
  intro fp fv T x
  unfold runWith
  have hev := fun gl gm gb fp fv => forward_events h gl gm gb (A.opts.cb cf) S.nt.toNat fp fv w hr hcf
  simp only [forward_eq h _ _ _ _ _ _ _ _ hr hcf] at hev ⊢
  simp only [bind, Except.bind, pure, Except.pure, if_pos hf]
  exact ⟨_, rfl, rfl, rfl, rfl, Except.ok.inj (hev A.gradL A.gradM A.gradB fp fv)⟩

theorem harmonic_symm (small : ℝ) (m : Fld d ℝ) (i j : Fin d) :
    Spec.harmonic small m i j = Spec.harmonic small m j i := by
  funext c
  have e : (c.shift i 1).shift j 1 = (c.shift j 1).shift i 1 := by
    funext k
    by_cases h1 : k = i <;> by_cases h2 : k = j <;> subst_vars <;>
      simp_all [Cell.shift_same, Cell.shift_ne]
  simp only [Spec.harmonic, List.forall_mem_cons, List.map_cons, List.map_nil, List.sum_cons, List.sum_nil, e]
  refine if_congr (by tauto) ?_ rfl
  congr 1
  ring

theorem runWith_spec (A : UArgs d) (w : Init d ℝ) (cf : ℤ) (S : ShotIn d) (C : Cfg d np mp nv mv ℝ)
    (h : C.WF) (hr : 0 < C.ratio) (hcf : 0 < S.nt.toNat → 0 < (A.opts.cb cf).getD (S.nt.toNat / C.ratio))
    (hf : Acoustic.Finite S.pml) :
    let fp := scaleAmpP C fun t i => S.amp d t i
    let fv := scaleAmpV C fun k t i => S.amp k t i
    let T := S.nt.toNat / C.ratio * C.ratio
    let x := S.traces (fun t => if t < T then sample C.rcvP (C.run fp fv (C.prepare w) t).prs else fun _ => 0)
    ∃ r, runWith A w cf S C = .ok (some r) ∧ r.out = C.unpadAll (C.run fp fv (C.prepare w) T) ∧
      (r.tracesP = fun i => ⟨(x i).len, fun t => -(x i).val t / d⟩) ∧
      r.tracesV = fun k => S.traces (fun t => if t < T then sample (C.rcvV k) ((C.run fp fv (C.prepare w) t).v k)
        else fun _ => 0) := by
  obtain ⟨r, h1, h2, h3, h4, -⟩ := runWith_events A w cf S C h hr hcf hf
  exact ⟨r, h1, h2, h3, h4⟩

/-- The shear moduli that the propagator gets. -/
theorem prepareMuS_eq {n : Fin d → ℤ} {small : ℝ} {m : Fld d ℝ} {p : Sh d} {c : Cell d}
    (hc : c p.1.1 + 1 < n p.1.1 ∧ c p.1.2 + 1 < n p.1.2) :
    prepareMuS n small m p c = Spec.harmonic small m p.1.1 p.1.2 c := by
  unfold prepareMuS Spec.harmonic
  simp only [List.forall_mem_cons, List.map_cons, List.map_nil, List.sum_cons, List.sum_nil]
  rw [if_pos hc]
  by_cases h : small < |m ((c.shift p.1.1 1).shift p.1.2 1)| ∧ small < |m c| ∧ small < |m (c.shift p.1.1 1)| ∧
      small < |m (c.shift p.1.2 1)|
  · rw [if_pos h, if_pos ⟨h.2.1, h.2.2.1, h.2.2.2, h.1, by simp⟩]
    unfold muSafe
    rw [if_pos h.1, if_pos h.2.1, if_pos h.2.2.1, if_pos h.2.2.2]
    congr 1
    ring
  · rw [if_neg h, if_neg fun h' => h ⟨h'.2.2.2.1, h'.1, h'.2.1, h'.2.2.1⟩]

/-- What a callback sees: the wavefields at the time of the call, in the padded arrays. -/
def Shows (P : Plan d) (callback : Bool) (cf : ℤ) (es : List (Event d ℝ)) (v : ℕ → Fin d → Fld d ℝ)
    (sig mv ms : ℕ → Fin d → Fin d → Fld d ℝ) : Prop :=
  es.map Event.step = (if callback then P.callSteps cf else []) ∧
  ∀ e ∈ es, let t := e.step * (P.ratio * P.interval).toNat
    ∀ c i, e.wf.v i (P.at c) = v t i c ∧ e.wf.s i (P.at c) = sig t i i c ∧
      (∀ j, (hij : i < j) → e.wf.sh ⟨(i, j), hij⟩ (P.at c) = sig t i j c) ∧
      ∀ j, e.wf.mv i j (P.at c) = mv t i j c ∧ e.wf.ms i j (P.at c) = ms t i j c

/-- The scheme, and what a callback sees. -/
theorem scheme_events (A : UArgs d) (P : Plan d) (s : ℕ) (cf : ℤ) (hplan : A.setup.plan = .ok P)
    (hpre : ¬A.Pre) (hs : s < P.nb) (hP : PmlOk P)
    (hloc : ∀ l, some l ∈ A.setup.srcs ++ A.setup.rcvs → WholeIgnored d l s)
    (hlast : ∀ k, 0 < P.w1 k ∨ (P.ext k).2 = A.lam.shape k ∨ P.BeforeLast k s (A.srcV k) ∧ P.BeforeLast k s (A.rcvV k))
    (hcf : checkCallbackFrequency A.opts.callbackFreq = .ok cf) (hi : 0 < P.interval)
    (hnt : A.opts.callback = true ∨ P.ratio * P.interval ≤ P.nt ∨ P.nt ≤ 0) :
    ∃ r v sig mv ms, A.elastic s = .ok (some r) ∧
      Shows P A.opts.callback cf r.events v sig mv ms ∧
      let mu := P.grid.extend (A.mu.shot s)
      let rho := fun c => Spec.inverse A.rfmax (P.grid.extend (A.buoyancy.shot s) c)
      P.grid.Elastic (P.grid.extend (A.lam.shot s)) mu (Spec.harmonic A.rfmax mu)
        (fun k c => Spec.inverse A.rfmax (Spec.mean rho k c))
        (fun t => locSum A.srcP s fun i => upAmps P A.opts.timeTaper A.ampP s t i)
        (fun t k => locSum (A.srcV k) s fun i => upAmps P A.opts.timeTaper (A.ampV k) s t i) v sig mv ms ∧
      (∀ i c, (P.grid.In c → sig 0 i i c = P.given (A.wf.s i) s c) ∧
        (∀ j, (hij : i < j) → P.grid.InAt (Spec.atS i j) c → sig 0 i j c = P.given (A.wf.sh ⟨(i, j), hij⟩) s c) ∧
        (∀ j, P.grid.InAt (Spec.atS i j) c →
          (P.BetweenAt (Spec.atS i j j) j (c j) → mv 0 i j c = 0) ∧
          (¬P.BetweenAt (Spec.atS i j j) j (c j) → mv 0 i j c = P.given (A.wf.mv i j) s c)) ∧
        (P.grid.InAt (Spec.atV i) c → v 0 i c = P.given (A.wf.v i) s c ∧ ∀ j,
          (P.BetweenAt (Spec.atV i j) j (c j) → ms 0 i j c = 0) ∧
          (¬P.BetweenAt (Spec.atV i j) j (c j) → ms 0 i j c = P.given (A.wf.ms i j) s c))) ∧
      (∀ c i, r.out.v i (P.index c) = v P.steps i c ∧ r.out.s i (P.index c) = sig P.steps i i c ∧
        (∀ j, (hij : i < j) → r.out.sh ⟨(i, j), hij⟩ (P.index c) = sig P.steps i j c) ∧
        ∀ j, r.out.mv i j (P.index c) = mv P.steps i j c ∧ r.out.ms i j (P.index c) = ms P.steps i j c) ∧
      (∀ i < locCount A.rcvP, let y := downS P A.opts.timeTaper ⟨P.nt.toNat, fun t =>
        if t < P.steps then locValue A.rcvP s i (fun c => ∑ k, sig t k k c) else 0⟩
        r.tracesP i = ⟨y.len, fun t => -y.val t / d⟩) ∧
      ∀ k, ∀ i < locCount (A.rcvV k), r.tracesV k i = downS P A.opts.timeTaper ⟨P.nt.toNat, fun t =>
        if t < P.steps then locValue (A.rcvV k) s i (v t k) else 0⟩ := by
  have h := plan_ok.1 hplan
  have hnb : 0 < P.nb := by omega
  have hext := h.ext_lt hnb ⟨A.lam, List.mem_cons_self⟩
  have hC : OnGrid P (cfgOf A.rfmax (shotIn A.setup P A.opts.timeTaper s)) :=
    ⟨rfl, rfl, rfl, rfl, rfl, rfl, rfl, rfl, rfl, rfl⟩
  have hlam : ∀ c, (shotIn A.setup P A.opts.timeTaper s).model 0 (P.at c) = P.grid.extend (A.lam.shot s) c :=
    model_grid h hnb hext _ s 0 A.lam rfl
  have hmu : ∀ c, (shotIn A.setup P A.opts.timeTaper s).model 1 (P.at c) = P.grid.extend (A.mu.shot s) c :=
    model_grid h hnb hext _ s 1 A.mu rfl
  have hbu : ∀ c, (shotIn A.setup P A.opts.timeTaper s).model 2 (P.at c) = P.grid.extend (A.buoyancy.shot s) c :=
    model_grid h hnb hext _ s 2 A.buoyancy rfl
  have hlam' : ∀ c, (cfgOf A.rfmax (shotIn A.setup P A.opts.timeTaper s)).lam (P.at c) =
      P.grid.extend (A.lam.shot s) c := hlam
  have hmu' : ∀ c, (cfgOf A.rfmax (shotIn A.setup P A.opts.timeTaper s)).mu (P.at c) =
      P.grid.extend (A.mu.shot s) c := hmu
  have hbefore : ∀ (L : Loc d) c, P.grid.InAt L c → ∀ k, L k = true → P.at c k + 1 < P.n true k := fun L c hc k hk => by
    have := hc.2 k hk
    have := nStag_eq P k
    have := P.acc.pad_pos
    simp only [Plan.grid, Plan.at, Plan.off] at *
    omega
  have hmuS : ∀ p c, P.grid.InAt (sLoc p.1.1 p.1.2) c →
      (cfgOf A.rfmax (shotIn A.setup P A.opts.timeTaper s)).muS p (P.at c) =
      Spec.harmonic A.rfmax (P.grid.extend (A.mu.shot s)) p.1.1 p.1.2 c := fun p c hc => by
    refine (prepareMuS_eq ⟨hbefore _ c hc _ (sLoc_lt_left p), hbefore _ c hc _ (sLoc_lt_right p)⟩).trans ?_
    simp only [Spec.harmonic, ← Plan.at_shift, hmu]
  have hB : ∀ k c, P.grid.InAt (vLoc k) c → (cfgOf A.rfmax (shotIn A.setup P A.opts.timeTaper s)).B k (P.at c) =
      Spec.inverse A.rfmax (Spec.mean (fun c => Spec.inverse A.rfmax (P.grid.extend (A.buoyancy.shot s) c)) k c) :=
    fun k c hc => by
      have hm : Acoustic.meanRho (P.n true) (prepareRho A.rfmax ((shotIn A.setup P A.opts.timeTaper s).model 2)) k
          (P.at c) = Spec.mean (fun c => Spec.inverse A.rfmax (P.grid.extend (A.buoyancy.shot s) c)) k c := by
        unfold Acoustic.meanRho Spec.mean prepareRho
        rw [if_pos (hbefore _ c hc k (by simp [vLoc])), hbu, ← Plan.at_shift, hbu]
        rfl
      rw [← hm]
      rfl
  have hmem : ∀ o, o ∈ A.setup.srcs ++ A.setup.rcvs → ∀ l, o = some l → WholeIgnored d l s :=
    fun o ho l hl => hloc l (hl ▸ ho)
  have hix : ∀ (f : Fin d → Option LocT) (o : Option LocT) (k : Fin d), (List.ofFn f ++ [o])[(k : ℕ)]? = some (f k) :=
    fun f o k => by
      rw [List.getElem?_append_left (by simp)]
      simp
  have hixP : ∀ (f : Fin d → Option LocT) (o : Option LocT), (List.ofFn f ++ [o])[d]? = some o := fun f o => by
    rw [List.getElem?_append_right (by simp)]
    simp
  have hsP : Placed P A.srcP s _ := src_placed h hs A.opts.timeTaper (j := d) (hixP _ _)
    (hmem _ (List.mem_append_left _ (List.mem_of_getElem? (hixP _ _))))
  have hrP : Placed P A.rcvP s _ := rcv_placed h hs A.opts.timeTaper (j := d) (hixP _ _)
    (hmem _ (List.mem_append_right _ (List.mem_of_getElem? (hixP _ _))))
  have hsV : ∀ k, Placed P (A.srcV k) s _ := fun k => src_placed h hs A.opts.timeTaper (j := k) (hix _ _ k)
    (hmem _ (List.mem_append_left _ (List.mem_of_getElem? (hix _ _ k))))
  have hrV : ∀ k, Placed P (A.rcvV k) s _ := fun k => rcv_placed h hs A.opts.timeTaper (j := k) (hix _ _ k)
    (hmem _ (List.mem_append_right _ (List.mem_of_getElem? (hix _ _ k))))
  have last : ∀ k o, (o = A.srcV k ∨ o = A.rcvV k) → ∀ l : List (Option (Cell d)), Placed P o s l →
      ∀ (i : Fin l.length) c, l.get i = some (P.at c) → P.Inside c ∧ c k < P.grid.hi k + P.grid.w1 k := by
    intro k o ho l hl i c e
    have hin := hl.inside' i c e
    refine ⟨hin, ?_⟩
    have hk := hin k
    have hw := h.widths k
    have main : 0 < P.w1 k ∨ P.BeforeLast k s o := by
      rcases hlast k with h1 | h1 | h1
      · exact .inl h1
      · refine .inr ?_
        cases o with
        | none => intro i hi; cases hi
        | some l' =>
            have hl' : A.srcV k = some l' ∨ A.rcvV k = some l' := ho.imp Eq.symm Eq.symm
            have hm : some l' ∈ A.setup.srcs ++ A.setup.rcvs := by
              rcases hl' with h2 | h2
              · exact List.mem_append_left _ (h2 ▸ List.mem_of_getElem? (hix A.srcV A.srcP k))
              · exact List.mem_append_right _ (h2 ▸ List.mem_of_getElem? (hix A.rcvV A.rcvP k))
            refine before_last h hs hm (hloc _ hm) fun hb => hpre (.inl ⟨k, l', hl', ?_⟩)
            rwa [h1] at hb
      · rcases ho with rfl | rfl
        · exact .inr h1.1
        · exact .inr h1.2
    simp only [Plan.grid]
    rcases main with h1 | h1
    · omega
    · have hc : locCell (d := d) o s i = some c := by
        have := hl.get i
        rw [e] at this
        cases hc : locCell (d := d) o s i with
        | none => rw [hc] at this; cases this
        | some c' =>
            rw [hc] at this
            rw [Plan.at_inj.1 (Option.some.inj this)]
      have := h1 i (i.isLt.trans_eq hl.length) c hc
      omega
  have hwf := hC.wf h hext hP (fun i c e => hsP.inside' i c e) (fun i c e => hrP.inside' i c e)
    (fun k i c e => last k _ (.inl rfl) _ (hsV k) i c e) (fun k i c e => last k _ (.inr rfl) _ (hrV k) i c e)
  have hrat : (cfgOf A.rfmax (shotIn A.setup P A.opts.timeTaper s)).ratio = (P.ratio * P.interval).toNat := rfl
  have hrp := Scalar.SetupGood.ratio_pos h
  have hr : 0 < (P.ratio * P.interval).toNat := by
    have : 0 < P.ratio * P.interval := mul_pos (by omega) hi
    omega
  have hdt : (cfgOf A.rfmax (shotIn A.setup P A.opts.timeTaper s)).dt = P.dt := rfl
  obtain ⟨r, hrun, hout, htp, htv, hev⟩ := runWith_events A (A.wf.init s) cf
    (shotIn A.setup P A.opts.timeTaper s) (cfgOf A.rfmax (shotIn A.setup P A.opts.timeTaper s)) hwf hr
    (cb_pos hcf hr hnt) (finite_of_pmlOk' h hP true)
  have hcall : A.elastic s = .ok (some r) := call_ok.2 ⟨hpre, P, cf, h, hcf, hrun⟩
  have hjP : ∀ (g : ℕ → ℝ) c, inject (cfgOf A.rfmax (shotIn A.setup P A.opts.timeTaper s)).srcP (fun i => g i) (P.at c) =
      locSum A.srcP s g c := fun g c => hsP.inject g c
  have hjV : ∀ k (g : ℕ → ℝ) c, inject ((cfgOf A.rfmax (shotIn A.setup P A.opts.timeTaper s)).srcV k) (fun i => g i)
      (P.at c) = locSum (A.srcV k) s g c := fun k g c => (hsV k).inject g c
  have hrsP : ∀ u i, sample (cfgOf A.rfmax (shotIn A.setup P A.opts.timeTaper s)).rcvP u i =
      locValue A.rcvP s i fun c => u (P.at c) := hrP.sample
  have hrsV : ∀ k u i, sample ((cfgOf A.rfmax (shotIn A.setup P A.opts.timeTaper s)).rcvV k) u i =
      locValue (A.rcvV k) s i fun c => u (P.at c) := fun k => (hrV k).sample
  have haP : (fun (t : ℕ) (i : Fin ((shotIn A.setup P A.opts.timeTaper s).src d).length) =>
      (shotIn A.setup P A.opts.timeTaper s).amp d t i) =
      fun t (i : Fin _) => upAmps P A.opts.timeTaper A.ampP s t i := by
    funext t i
    have e : A.setup.amps[d]? = some A.ampP := (by
      rw [List.getElem?_append_right (by simp)]
      simp : (List.ofFn A.ampV ++ [A.ampP])[d]? = some A.ampP)
    rw [amp_eq _ _ _ _ e]
  have haV : (fun (k : Fin d) (t : ℕ) (i : Fin ((shotIn A.setup P A.opts.timeTaper s).src k).length) =>
      (shotIn A.setup P A.opts.timeTaper s).amp k t i) =
      fun k t (i : Fin _) => upAmps P A.opts.timeTaper (A.ampV k) s t i := by
    funext k t i
    have e : A.setup.amps[(k : ℕ)]? = some (A.ampV k) := (by
      rw [List.getElem?_append_left (by simp)]
      simp : (List.ofFn A.ampV ++ [A.ampP])[(k : ℕ)]? = some (A.ampV k))
    rw [amp_eq _ _ _ _ e]
  rw [haP, haV] at hout htp htv hev
  have hlP := hrP.length
  have hlV := fun k => (hrV k).length
  clear hrun hsP hrP hsV hrV last hlam hmu
  generalize cfgOf A.rfmax (shotIn A.setup P A.opts.timeTaper s) = C at *
  have hN : P.nt.toNat / C.ratio * C.ratio = P.steps := by rw [hrat]; rfl
  set fp := scaleAmpP C fun t i => upAmps P A.opts.timeTaper A.ampP s t i with hfp
  set fv := scaleAmpV C fun k t i => upAmps P A.opts.timeTaper (A.ampV k) s t i with hfv
  set st := C.run fp fv (C.prepare (A.wf.init s)) with hst
  refine ⟨r, fun t k c => (st t).v k (P.at c), fun t i j c => (st t).sig i j (P.at c),
    fun t i j c => (st t).mv i j (P.at c), fun t i j c => (st t).ms i j (P.at c), hcall, ?_,
    hC.wave h hext hP hwf (prepare_good _) hlam' hmu' hmuS (harmonic_symm _ _) hB (fun t c _ => ?_)
      (fun t k c hc => ?_), fun i c => ⟨fun hc => ?_, fun j hij hc => ?_, fun j hc => ?_, fun hc => ⟨?_, fun j => ?_⟩⟩,
    fun c i => ⟨?_, ?_, fun j hij => ?_, fun j => ⟨?_, ?_⟩⟩, fun i hi => ?_, fun k i hi => ?_⟩
  · unfold Shows Plan.callSteps
    rw [hev, ← hrat]
    unfold Opts.cb
    cases A.opts.callback with
    | false => exact ⟨rfl, fun e he => (List.not_mem_nil he).elim⟩
    | true =>
        refine ⟨by simp only [if_true, eventsOf, List.map_map]; rfl, fun e he => ?_⟩
        simp only [if_true, eventsOf, List.mem_map, List.mem_range] at he
        obtain ⟨j, -, rfl⟩ := he
        exact fun c i => ⟨rfl, congrFun (sig_diag _ i).symm _, fun j hij => congrFun (sig_lt _ ⟨(i, j), hij⟩).symm _, fun j => ⟨rfl, rfl⟩⟩
  · rw [← hjP]
    unfold inject
    rw [Finset.mul_sum, ← Finset.sum_neg_distrib]
    refine Finset.sum_congr rfl fun i _ => ?_
    split_ifs with hi
    · simp only [hfp, scaleAmpP, hdt]
      ring
    · ring
  · rw [← hB k c hc, ← hdt]
    exact Acoustic.inject_scaled (P.at c) (hjV k _ c)
  · show (C.prepare (A.wf.init s)).sig i i (P.at c) = _
    rw [sig_diag]
    exact hC.given _ s c hc
  · rw [atS_eq] at hc
    show (C.prepare (A.wf.init s)).sig i j (P.at c) = _
    rw [sig_lt _ ⟨(i, j), hij⟩]
    exact (hC.edges _ _ c hc).trans (hC.given _ s c hc.1)
  · rw [atS_eq] at hc ⊢
    have e := hC.interior j (sLoc i j j) (C.zeroEdges (sLoc i j) (C.createOrPad ((A.wf.init s).mv i j))) c
    exact ⟨e.1, fun hb => (e.2 hb).trans ((hC.edges _ _ c hc).trans (hC.given _ s c hc.1))⟩
  · exact (hC.edges _ _ c hc).trans (hC.given _ s c hc.1)
  · have e := hC.interior j (vLoc i j) (C.zeroEdges (vLoc i) (C.createOrPad ((A.wf.init s).ms i j))) c
    exact ⟨e.1, fun hb => (e.2 hb).trans ((hC.edges _ _ c hc).trans (hC.given _ s c hc.1))⟩
  · rw [hout, ← hN]
    exact hC.out _ c
  · rw [hout, ← hN]
    exact (hC.out _ c).trans (congrFun (sig_diag _ i).symm _)
  · rw [hout, ← hN]
    exact (hC.out _ c).trans (congrFun (sig_lt _ ⟨(i, j), hij⟩).symm _)
  · rw [hout, ← hN]
    exact hC.out _ c
  · rw [hout, ← hN]
    exact hC.out _ c
  · intro y
    rw [htp]
    have e : (shotIn A.setup P A.opts.timeTaper s).traces
        (fun t => if t < P.nt.toNat / C.ratio * C.ratio then sample C.rcvP (st t).prs else fun _ => 0) i = y := by
      refine traces_eq _ _ (hi.trans_eq hlP.symm) hN fun t => ?_
      simp only [sig_diag]
      exact hrsP _ _
    exact congrArg (fun x : Sig ℝ => (⟨x.len, fun t => -x.val t / d⟩ : Sig ℝ)) e
  · rw [htv]
    refine traces_eq _ _ (hi.trans_eq (hlV k).symm) hN fun t => ?_
    exact hrsV k _ _

/-- **C93** A call of `elastic` that passes the checks computes the solution of the elastic wave equation on
a staggered grid (`Spec/Elastic.lean`), with the models continued into the PML, harmonic means of the shear
modulus at the points of the shear stresses, inverse of the mean of the density at those of the velocities, and
the sources of the user; the pressure is minus the mean of the normal stresses.  For velocity locations see
`C92_acoustic_scheme`. -/
theorem C93_elastic_scheme (A : UArgs d) (P : Plan d) (s : ℕ) (cf : ℤ) (hplan : A.setup.plan = .ok P)
    (hpre : ¬A.Pre) (hs : s < P.nb) (hP : PmlOk P)
    (hloc : ∀ l, some l ∈ A.setup.srcs ++ A.setup.rcvs → WholeIgnored d l s)
    (hlast : ∀ k, 0 < P.w1 k ∨ (P.ext k).2 = A.lam.shape k ∨ P.BeforeLast k s (A.srcV k) ∧ P.BeforeLast k s (A.rcvV k))
    (hcf : checkCallbackFrequency A.opts.callbackFreq = .ok cf) (hi : 0 < P.interval)
    (hnt : A.opts.callback = true ∨ P.ratio * P.interval ≤ P.nt ∨ P.nt ≤ 0) :
    ∃ r v sig mv ms, A.elastic s = .ok (some r) ∧
      let mu := P.grid.extend (A.mu.shot s)
      let rho := fun c => Spec.inverse A.rfmax (P.grid.extend (A.buoyancy.shot s) c)
      P.grid.Elastic (P.grid.extend (A.lam.shot s)) mu (Spec.harmonic A.rfmax mu)
        (fun k c => Spec.inverse A.rfmax (Spec.mean rho k c))
        (fun t => locSum A.srcP s fun i => upAmps P A.opts.timeTaper A.ampP s t i)
        (fun t k => locSum (A.srcV k) s fun i => upAmps P A.opts.timeTaper (A.ampV k) s t i) v sig mv ms ∧
      (∀ i c, (P.grid.In c → sig 0 i i c = P.given (A.wf.s i) s c) ∧
        (∀ j, (hij : i < j) → P.grid.InAt (Spec.atS i j) c → sig 0 i j c = P.given (A.wf.sh ⟨(i, j), hij⟩) s c) ∧
        (∀ j, P.grid.InAt (Spec.atS i j) c →
          (P.BetweenAt (Spec.atS i j j) j (c j) → mv 0 i j c = 0) ∧
          (¬P.BetweenAt (Spec.atS i j j) j (c j) → mv 0 i j c = P.given (A.wf.mv i j) s c)) ∧
        (P.grid.InAt (Spec.atV i) c → v 0 i c = P.given (A.wf.v i) s c ∧ ∀ j,
          (P.BetweenAt (Spec.atV i j) j (c j) → ms 0 i j c = 0) ∧
          (¬P.BetweenAt (Spec.atV i j) j (c j) → ms 0 i j c = P.given (A.wf.ms i j) s c))) ∧
      (∀ c i, r.out.v i (P.index c) = v P.steps i c ∧ r.out.s i (P.index c) = sig P.steps i i c ∧
        (∀ j, (hij : i < j) → r.out.sh ⟨(i, j), hij⟩ (P.index c) = sig P.steps i j c) ∧
        ∀ j, r.out.mv i j (P.index c) = mv P.steps i j c ∧ r.out.ms i j (P.index c) = ms P.steps i j c) ∧
      (∀ i < locCount A.rcvP, let y := downS P A.opts.timeTaper ⟨P.nt.toNat, fun t =>
        if t < P.steps then locValue A.rcvP s i (fun c => ∑ k, sig t k k c) else 0⟩
        r.tracesP i = ⟨y.len, fun t => -y.val t / d⟩) ∧
      ∀ k, ∀ i < locCount (A.rcvV k), r.tracesV k i = downS P A.opts.timeTaper ⟨P.nt.toNat, fun t =>
        if t < P.steps then locValue (A.rcvV k) s i (v t k) else 0⟩ := by
  obtain ⟨r, v, sig, mv, ms, h1, -, h2⟩ := scheme_events A P s cf hplan hpre hs hP hloc hlast hcf hi hnt
  exact ⟨r, v, sig, mv, ms, h1, h2⟩

/-- **C93** Without initial wavefields the traces are those of the one solution that starts from zero. -/
theorem C93_traces (A : UArgs d) (P : Plan d) (s : ℕ) (cf : ℤ) (hplan : A.setup.plan = .ok P)
    (hpre : ¬A.Pre) (hs : s < P.nb) (hP : PmlOk P)
    (hloc : ∀ l, some l ∈ A.setup.srcs ++ A.setup.rcvs → WholeIgnored d l s)
    (hlast : ∀ k, 0 < P.w1 k ∨ (P.ext k).2 = A.lam.shape k ∨ P.BeforeLast k s (A.srcV k) ∧ P.BeforeLast k s (A.rcvV k))
    (hcf : checkCallbackFrequency A.opts.callbackFreq = .ok cf) (hi : 0 < P.interval)
    (hnt : A.opts.callback = true ∨ P.ratio * P.interval ≤ P.nt ∨ P.nt ≤ 0)
    (hw : (∀ i, A.wf.v i = none ∧ A.wf.s i = none) ∧ (∀ p, A.wf.sh p = none) ∧
      ∀ i j, A.wf.mv i j = none ∧ A.wf.ms i j = none)
    (v : ℕ → Fin d → Fld d ℝ) (sig mv ms : ℕ → Fin d → Fin d → Fld d ℝ)
    (hu : P.grid.Elastic (P.grid.extend (A.lam.shot s)) (P.grid.extend (A.mu.shot s))
      (Spec.harmonic A.rfmax (P.grid.extend (A.mu.shot s)))
      (fun k c => Spec.inverse A.rfmax
        (Spec.mean (fun c => Spec.inverse A.rfmax (P.grid.extend (A.buoyancy.shot s) c)) k c))
      (fun t => locSum A.srcP s fun i => upAmps P A.opts.timeTaper A.ampP s t i)
      (fun t k => locSum (A.srcV k) s fun i => upAmps P A.opts.timeTaper (A.ampV k) s t i) v sig mv ms)
    (h0 : v 0 = 0 ∧ sig 0 = 0 ∧ mv 0 = 0 ∧ ms 0 = 0) :
    ∃ r, A.elastic s = .ok (some r) ∧
      (∀ i < locCount A.rcvP, let y := downS P A.opts.timeTaper ⟨P.nt.toNat, fun t =>
        if t < P.steps then locValue A.rcvP s i (fun c => ∑ k, sig t k k c) else 0⟩
        r.tracesP i = ⟨y.len, fun t => -y.val t / d⟩) ∧
      ∀ k, ∀ i < locCount (A.rcvV k), r.tracesV k i = downS P A.opts.timeTaper ⟨P.nt.toNat, fun t =>
        if t < P.steps then locValue (A.rcvV k) s i (v t k) else 0⟩ := by
  obtain ⟨r, v', sig', mv', ms', hr, hwave, hinit, -, h1, h2⟩ := C93_elastic_scheme A P s cf hplan hpre hs hP hloc hlast
    hcf hi hnt
  obtain ⟨w1, w2, w3⟩ := hw
  have hsh : ∀ i j, i < j → ∀ c, sig' 0 i j c = 0 := fun i j hij c => by
    by_cases hc : P.grid.InAt (Spec.atS i j) c
    · rw [(hinit i c).2.1 j hij hc, w2]; rfl
    · exact ((hwave.outside 0 i c).2 j hc).1
  have e := hwave.unique hu (by
    rw [h0.1, h0.2.1, h0.2.2.1, h0.2.2.2]
    refine ⟨funext fun i => funext fun c => ?_, funext fun i => funext fun j => funext fun c => ?_,
      funext fun i => funext fun j => funext fun c => ?_, funext fun i => funext fun j => funext fun c => ?_⟩
    · by_cases hc : P.grid.InAt (Spec.atV i) c
      · rw [((hinit i c).2.2.2 hc).1, (w1 i).1]; rfl
      · exact ((hwave.outside 0 i c).1 hc).1
    · rcases lt_trichotomy i j with h1 | h1 | h1
      · exact hsh i j h1 c
      · subst h1
        by_cases hc : P.grid.In c
        · rw [(hinit i c).1 hc, (w1 i).2]; rfl
        · exact ((hwave.outside 0 i c).2 i fun h => hc ((Spec.atS_self _ i c).1 h)).1
      · rw [hwave.symm]
        exact hsh j i h1 c
    · by_cases hc : P.grid.InAt (Spec.atS i j) c
      · have := (hinit i c).2.2.1 j hc
        by_cases hb : P.BetweenAt (Spec.atS i j j) j (c j)
        · exact this.1 hb
        · rw [this.2 hb, (w3 i j).1]; rfl
      · exact ((hwave.outside 0 i c).2 j hc).2
    · by_cases hc : P.grid.InAt (Spec.atV i) c
      · have := ((hinit i c).2.2.2 hc).2 j
        by_cases hb : P.BetweenAt (Spec.atV i j) j (c j)
        · exact this.1 hb
        · rw [this.2 hb, (w3 i j).2]; rfl
      · exact ((hwave.outside 0 i c).1 hc).2 j)
  rw [e.2.1] at h1
  rw [e.1] at h2
  exact ⟨r, hr, h1, h2⟩

/-- The hypotheses on the call hold in an example. -/
example : ∃ r v sig mv ms, (exU .none).elastic 1 = .ok (some r) ∧
    (exP ![(0, 7), (0, 9)]).grid.Elastic ((exP ![(0, 7), (0, 9)]).grid.extend ((exU .none).lam.shot 1))
      ((exP ![(0, 7), (0, 9)]).grid.extend ((exU .none).mu.shot 1))
      (Spec.harmonic (exU .none).rfmax ((exP ![(0, 7), (0, 9)]).grid.extend ((exU .none).mu.shot 1)))
      (fun k c => Spec.inverse (exU .none).rfmax (Spec.mean (fun c => Spec.inverse (exU .none).rfmax
        ((exP ![(0, 7), (0, 9)]).grid.extend ((exU .none).buoyancy.shot 1) c)) k c))
      (fun t => locSum (exU .none).srcP 1 fun i => upAmps (exP ![(0, 7), (0, 9)]) (exU .none).opts.timeTaper
        (exU .none).ampP 1 t i)
      (fun t k => locSum ((exU .none).srcV k) 1 fun i => upAmps (exP ![(0, 7), (0, 9)]) (exU .none).opts.timeTaper
        ((exU .none).ampV k) 1 t i) v sig mv ms ∧
    v 0 = 0 ∧ sig 0 0 1 = 0 := by
  obtain ⟨r, v, sig, mv, ms, hr, hw, hi, -⟩ := C93_elastic_scheme (exU .none) (exP ![(0, 7), (0, 9)]) 1 1
    (plan_ok.2 exU_whole) (exU_pre .none) (by decide) (.inl (by norm_num [exP, exPl]))
    (fun l hl => Born.exLoc_whole (by decide) (exU_locs .none l hl))
    (fun k => .inl (by fin_cases k <;> norm_num [exP, exPl, Plan.w1]))
    rfl (by norm_num [exP, exPl]) (.inr (.inl (by norm_num [exP, exPl])))
  refine ⟨r, v, sig, mv, ms, hr, hw, funext fun i => funext fun c => ?_, funext fun c => ?_⟩
  · by_cases hc : (exP ![(0, 7), (0, 9)]).grid.InAt (Spec.atV i) c
    · exact ((hi i c).2.2.2 hc).1
    · exact ((hw.outside 0 i c).1 hc).1
  · by_cases hc : (exP ![(0, 7), (0, 9)]).grid.InAt (Spec.atS 0 1) c
    · exact (hi 0 c).2.1 1 (by decide) hc
    · exact ((hw.outside 0 0 c).2 1 hc).1

end Dw.Elastic
