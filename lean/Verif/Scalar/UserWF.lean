import Verif.Setup.Crop
import Verif.Props.Setup
import Verif.Scalar.User
import Verif.Scalar.Forward

/-!
# What `scalar` gives to the propagator is well formed
-/

namespace Dw.Scalar

open Setup Resample

variable {d : ℕ}

/-- No location of shot `s` is ignored in only some of its coordinates. -/
def WholeIgnored (d : ℕ) (l : LocT) (s : ℕ) : Prop :=
  ∀ i < l.n, l.Ignored d s i ∨ ∀ k < d, l.val s i k ≠ (ignoreLocation : ℚ)

theorem cellOf_idx {ext : Fin d → ℤ × ℤ} {p0 p1 : Fin d → ℤ} {l : LocT} {s i : ℕ} (hd : 0 < d)
    (he : ∀ k, 0 ≤ (ext k).1) (hp0 : ∀ k, 0 ≤ p0 k) (hp1 : ∀ k, 0 ≤ p1 k) (hin : l.In ext) (hs : s < l.nb)
    (hi : i < l.n) (hp : WholeIgnored d l s) :
    cellOf (paddedShape ext p0 p1) ((idxOf ext p0 p1 l).val s i) = l.target ext p0 s i ∧
    ∀ c, l.target ext p0 s i = some c → ∀ k, p0 k ≤ c k ∧ c k < paddedShape ext p0 p1 k - p1 k := by
  unfold LocT.target
  by_cases hig : l.Ignored d s i
  · simp only [if_pos hig]
    refine ⟨?_, by simp⟩
    have : l.cell d s i = fun _ => ignoreLocation := by
      funext k
      unfold LocT.cell
      rw [hig k k.isLt, trunc_int]
    have h2 := (C17_ignored_index hd (originOf ext p0) (stride (paddedShape ext p0 p1))).2
      (paddedShape ext p0 p1)
    rw [← this] at h2
    exact if_pos h2
  · simp only [if_neg hig]
    have hI : ∀ k, (ext k).1 ≤ l.cell d s i k ∧ l.cell d s i k < (ext k).2 := fun k =>
      (hin s hs i hi k ((hp i hi).resolve_left hig k k.isLt)).2
    obtain ⟨⟨h1, h2⟩, h3, h4⟩ := C15_own_cell ext p0 p1 hp0 hp1 (l.cell d s i) he hI
    constructor
    · refine (if_neg (not_lt.2 h3.1)).trans ?_
      congr 1
      show Storage.unravel _ (location1d _ _ _) = _
      rw [h2]
      exact Storage.unravel_rowMajor h1
    · rintro c hc k
      rw [← Option.some.inj hc]
      exact h4 k

section setup
variable {A : SetupArgs d} {P : Plan d}

theorem SetupGood.dx_pos (h : A.Good P) (k : Fin d) : 0 < P.dx k := by
  obtain ⟨h1, h2⟩ := (C35_grid_spacing _ _ _).1 h.dx
  unfold Plan.dx
  have hk : (k : ℕ) < P.dxL.length := by rw [h1.1]; exact k.isLt
  rw [List.getD_eq_getElem?_getD, List.getElem?_eq_getElem hk, Option.getD_some]
  exact_mod_cast h2 _ (List.getElem_mem hk)

theorem SetupGood.cfl (h : A.Good P) : 0 < P.maxVel ∧ P.ratio ≠ 0 ∧ P.dt = A.dt / P.ratio := by
  have := h.cfl
  unfold cflConditionN at this
  simp only at this
  split_ifs at this with h1 h2 h3 h4
  simp only [Except.ok.injEq, Prod.mk.injEq] at this
  refine ⟨not_le.1 h3, ?_, ?_⟩
  · rw [← this.2]; exact h4
  · rw [← this.1, ← this.2]

theorem SetupGood.ratio_pos (h : A.Good P) : 1 ≤ P.ratio := by
  have := h.nt
  unfold setNt at this
  simp only at this
  split at this
  · cases this
  · by_contra hr
    rw [if_pos (not_le.1 hr)] at this
    cases this

theorem SetupGood.dt_ne (h : A.Good P) : P.dt ≠ 0 := by
  have hq := h.freq
  have hne : A.dt / P.ratio ≠ 0 := by
    intro h0
    rw [h0] at hq
    unfold setPmlFreq at hq
    simp only at hq
    split at hq
    · cases hq
    · simp at hq
  rw [(SetupGood.cfl h).2.2]
  exact_mod_cast hne

theorem SetupGood.valid (h : A.Good P) (st : Bool) : (P.pml st).Valid :=
  ⟨fun k => (h.widths k).1, fun k => (h.widths k).2, SetupGood.dx_pos h, SetupGood.dt_ne h,
    (SetupGood.cfl h).1⟩

end setup

/-- The PML frequency is positive, or there is no PML. -/
def PmlOk (P : Plan d) : Prop := 0 < P.freq ∨ ∀ k, P.w0 k = 0 ∧ P.w1 k = 0

theorem foldr_max_zero : ∀ l : List ℝ, (∀ x ∈ l, x = 0) → l.foldr max 0 = 0
  | [], _ => rfl
  | a :: l, h => by
      rw [List.foldr_cons, foldr_max_zero l fun x hx => h x (List.mem_cons_of_mem _ hx),
        h a List.mem_cons_self, max_self]

theorem ab_noPml {A : PmlArgs d} (hw : ∀ k, A.w0 k = 0 ∧ A.w1 k = 0) (start : ℝ) (k : Fin d) (i : ℤ) :
    A.ab start k i = (0, some 0) := by
  have hm : maxPml A.w0 A.w1 A.dx = 0 := by
    refine foldr_max_zero _ fun x hx => ?_
    obtain ⟨k, rfl⟩ := List.mem_ofFn.1 hx
    simp [hw k]
  simp [PmlArgs.ab, setupPml, hm]

theorem db_noPml {A : PmlArgs d} (hw : ∀ k, A.w0 k = 0 ∧ A.w1 k = 0) (k : Fin d) (i : ℤ) :
    A.db k i = some 0 := by
  unfold PmlArgs.db
  rw [if_neg]
  · simp only [ab_noPml hw, Option.getD_some, pyDiff1_eq]
    split_ifs
    · rw [show (fun j : ℤ => (0 : ℝ)) = fun _ => 0 from rfl, cDiff1_zero]
    · rfl
  · rintro ⟨-, -, j, -, -, -, hn⟩
    rw [ab_noPml hw] at hn
    cases hn

theorem some_getD {x : Option ℝ} (h : x ≠ none) : some (x.getD 0) = x := by
  cases x with
  | none => exact absurd rfl h
  | some a => rfl

theorem finite_of_pmlOk {A : SetupArgs d} {P : Plan d} (h : A.Good P) (hP : PmlOk P) (st : Bool) :
    Finite (P.pml st) := by
  intro k i
  rcases hP with hf | hw
  · have hf' : 0 < (P.pml st).freq := by
      show (0 : ℝ) < (P.freq : ℝ)
      exact_mod_cast hf
    refine ⟨?_, ?_⟩
    · obtain ⟨β, e, -⟩ := C21_profiles _ (SetupGood.valid h st) hf' 0 k i
      rw [e]; simp
    · rw [PmlArgs.db_some _ (SetupGood.valid h st) hf']; simp
  · have hw' : ∀ k, (P.pml st).w0 k = 0 ∧ (P.pml st).w1 k = 0 := hw
    rw [ab_noPml hw', db_noPml hw']
    simp

/-- The profiles the propagator gets are zero outside the PML. -/
theorem cfg_profiles {A : SetupArgs d} {P : Plan d} (h : A.Good P) (hP : PmlOk P) (ns nr s : ℕ) :
    (∀ k x, (cfg ns nr P s).Mid k x → (cfg ns nr P s).a k x = 0 ∧ (cfg ns nr P s).b k x = 0) ∧
    (∀ k x, (cfg ns nr P s).Mid k (x - (cfg ns nr P s).acc.pad) →
      (cfg ns nr P s).Mid k (x + (cfg ns nr P s).acc.pad) → (cfg ns nr P s).db k x = 0) ∧
    ((∀ k, P.w0 k = 0 ∧ P.w1 k = 0) → (cfg ns nr P s).NoPml) := by
  have key : (∀ k, P.w0 k = 0 ∧ P.w1 k = 0) → (cfg ns nr P s).NoPml := fun hw k x => by
    have hw' : ∀ k, (P.pml false).w0 k = 0 ∧ (P.pml false).w1 k = 0 := hw
    simp only [cfg, ab_noPml hw', db_noPml hw', Option.getD_some, and_self]
  rcases hP with hf | hw
  · have hf' : 0 < (P.pml false).freq := by
      show (0 : ℝ) < (P.freq : ℝ)
      exact_mod_cast hf
    have hfin := finite_of_pmlOk h (.inl hf) false
    exact C21_scalar_profiles (cfg ns nr P s) (P.pml false) (SetupGood.valid h false) hf' rfl rfl rfl rfl rfl
      rfl (fun _ _ => rfl)
      (fun k i => some_getD (hfin k i).1)
      (fun k i => some_getD (hfin k i).2)
  · refine ⟨fun k x _ => ⟨(key hw k x).1, (key hw k x).2.1⟩, fun k x _ _ => (key hw k x).2.2, key⟩

/-- The source and receiver cells of a shot, from the coordinates in the argument. -/
theorem cfg_locations {A : UArgs d} {P : Plan d} (h : A.setup.Good P) {s : ℕ} (hs : s < P.nb) :
    let p0 := fun k => (P.acc.pad : ℤ) + P.w0 k
    let C := cfg (locAt P.srcs 0).n (locAt P.rcvs 0).n P s
    ((locAt P.srcs 0).n = match A.src with | none => 0 | some l => l.n) ∧
    ((locAt P.rcvs 0).n = match A.rcv with | none => 0 | some l => l.n) ∧
    (∀ l, A.src = some l → WholeIgnored d l s → ∀ i, C.src i = l.target P.ext p0 s i ∧
      ∀ c, C.src i = some c → C.Inner c) ∧
    ∀ l, A.rcv = some l → WholeIgnored d l s → ∀ i, C.rcv i = l.target P.ext p0 s i ∧
      ∀ c, C.rcv i = some c → C.Inner c := by
  intro p0 C
  have hsrc := extractLocations_iff.1 h.srcs
  have hrcv := extractLocations_iff.1 h.rcvs
  have hw := h.widths
  have hd : 0 < d := Nat.pos_of_ne_zero h.shape_pos.1
  obtain ⟨hext, hin⟩ := h.in_extents
  have e1 : locAt P.srcs 0 = idxOpt P.ext (padBegin P.accZ P.wL) (padEnd false P.accZ P.wL) P.nb A.src := by
    rw [hsrc.2]; rfl
  have e2 : locAt P.rcvs 0 = idxOpt P.ext (padBegin P.accZ P.wL) (padEnd false P.accZ P.wL) P.nb A.rcv := by
    rw [hrcv.2]; rfl
  have hp : ∀ k, 0 ≤ padBegin P.accZ P.wL k ∧ 0 ≤ padEnd false P.accZ P.wL k := fun k => by
    have := hw k
    simp only [Plan.w0, Plan.w1] at this
    simp only [padBegin, padEnd, fdEnd, Bool.false_eq_true, if_false]
    omega
  have gen : ∀ l, some l ∈ A.setup.srcs ++ A.setup.rcvs → l.nb = P.nb → WholeIgnored d l s → ∀ i < l.n,
      cellOf (P.n false) ((idxOf P.ext (padBegin P.accZ P.wL) (padEnd false P.accZ P.wL) l).val s i) =
        l.target P.ext p0 s i ∧
      ∀ c, l.target P.ext p0 s i = some c → C.Inner c := by
    intro l hl hb hg i hi
    obtain ⟨h1, h2⟩ := cellOf_idx (p0 := padBegin P.accZ P.wL) (p1 := padEnd false P.accZ P.wL) hd
      (fun k => (hext k).1) (fun k => (hp k).1) (fun k => (hp k).2) (hin l hl) (by omega : s < l.nb) hi hg
    refine ⟨h1, fun c hc k => ?_⟩
    have h3 := h2 c hc k
    have h4 := hw k
    simp only [Plan.w0, Plan.w1] at h4
    simp only [padBegin, padEnd, fdEnd, Bool.false_eq_true, if_false] at h3
    show (P.acc.pad : ℤ) ≤ c k ∧ c k < P.n false k - P.acc.pad
    have h5 : P.n false k = paddedShape P.ext (padBegin P.accZ P.wL) (padEnd false P.accZ P.wL) k := rfl
    simp only [Plan.acc]
    rw [h5]
    have h6 : paddedShape P.ext (padBegin P.accZ P.wL) (padEnd false P.accZ P.wL) k =
      paddedShape P.ext (fun k => ((accOf P.accZ).pad : ℤ) + P.wL.getD (2 * k) 0)
        (fun k => ((accOf P.accZ).pad : ℤ) + P.wL.getD (2 * k + 1) 0) k := rfl
    simp only [paddedShape] at h3 h6 ⊢
    omega
  refine ⟨?_, ?_, fun l hl hg i => ?_, fun l hl hg i => ?_⟩
  · rw [e1]; cases A.src <;> rfl
  · rw [e2]; cases A.rcv <;> rfl
  · have hm : some l ∈ A.setup.srcs := by rw [← hl]; simp [UArgs.setup]
    have en : (locAt P.srcs 0).n = l.n := by rw [e1, hl]; rfl
    have ev : ∀ i : ℕ, (locAt P.srcs 0).val s i =
        (idxOf P.ext (padBegin P.accZ P.wL) (padEnd false P.accZ P.wL) l).val s i := fun i => by
      rw [e1, hl]; rfl
    have hi : (i : ℕ) < l.n := i.isLt.trans_eq en
    have := gen l (List.mem_append_left _ hm) (hsrc.1 l hm).batch hg i hi
    have e : C.src i = cellOf (P.n false)
        ((idxOf P.ext (padBegin P.accZ P.wL) (padEnd false P.accZ P.wL) l).val s i) := congrArg (cellOf (P.n false)) (ev i)
    rw [e, this.1]
    exact ⟨rfl, this.2⟩
  · have hm : some l ∈ A.setup.rcvs := by rw [← hl]; simp [UArgs.setup]
    have en : (locAt P.rcvs 0).n = l.n := by rw [e2, hl]; rfl
    have ev : ∀ i : ℕ, (locAt P.rcvs 0).val s i =
        (idxOf P.ext (padBegin P.accZ P.wL) (padEnd false P.accZ P.wL) l).val s i := fun i => by
      rw [e2, hl]; rfl
    have hi : (i : ℕ) < l.n := i.isLt.trans_eq en
    have := gen l (List.mem_append_right _ hm) (hrcv.1 l hm).batch hg i hi
    have e : C.rcv i = cellOf (P.n false)
        ((idxOf P.ext (padBegin P.accZ P.wL) (padEnd false P.accZ P.wL) l).val s i) := congrArg (cellOf (P.n false)) (ev i)
    rw [e, this.1]
    exact ⟨rfl, this.2⟩

theorem UArgs.Good.ext_lt {A : UArgs d} {P : Plan d} (h : A.setup.Good P) (hnb : 0 < P.nb) (k : Fin d) :
    (P.ext k).1 < (P.ext k).2 := by
  have hm := ((extractModels_iff hnb).1 h.models).1 (A.v, .replicate) (by simp [UArgs.setup])
  have := hm.box rfl k
  have h0 := (h.in_extents.1 k)
  simp only [sliceLen] at this
  omega

/-- `scalar` gives the propagator well-formed input. -/
theorem cfg_wf {A : UArgs d} {P : Plan d} (h : A.setup.Good P) {s : ℕ} (hs : s < P.nb) (hP : PmlOk P)
    (hsrc : ∀ l, A.src = some l → WholeIgnored d l s) (hrcv : ∀ l, A.rcv = some l → WholeIgnored d l s) :
    (cfg (locAt P.srcs 0).n (locAt P.rcvs 0).n P s).WF := by
  obtain ⟨n1, n2, l1, l2⟩ := cfg_locations h hs
  obtain ⟨p1, p2, -⟩ := cfg_profiles h hP (locAt P.srcs 0).n (locAt P.rcvs 0).n s
  refine ⟨fun k => (h.widths k).1, fun k => (h.widths k).2, fun k => ?_, fun k x hx => (p1 k x hx).1,
    fun k x hx => (p1 k x hx).2, p2, fun i => ?_, fun i => ?_⟩
  · have := UArgs.Good.ext_lt h (by omega) k
    show 2 * (P.acc.pad : ℤ) + P.w0 k + P.w1 k ≤ P.n false k
    simp only [Plan.n, paddedShape, padBegin, padEnd, fdEnd, Bool.false_eq_true, if_false, Plan.w0, Plan.w1,
      Plan.acc]
    omega
  · cases hA : A.src with
    | none => rw [hA] at n1; exact absurd i.isLt (by simp [n1])
    | some l => exact (l1 l hA (hsrc l hA) i).2
  · cases hA : A.rcv with
    | none => rw [hA] at n2; exact absurd i.isLt (by simp [n2])
    | some l => exact (l2 l hA (hrcv l hA) i).2

/-- What a callback sees in a run of `nt` steps from `x`. -/
noncomputable def Cfg.eventsOf {ns nr : ℕ} (C : Cfg d ns nr ℝ) (f : ℕ → Fin ns → ℝ) (x : St d ℝ) (nt : ℕ) : Option ℕ → List (Event d ℝ)
  | none => []
  | some cf => (List.range ((nt / C.ratio + cf - 1) / cf)).map fun i => C.eventAt f x (i * cf)

theorem Cfg.forward_spec {ns nr : ℕ} (C : Cfg d ns nr ℝ) (h : C.WF) (grad : Bool) (cb : Option ℕ) (nt : ℕ)
    (f : ℕ → Fin ns → ℝ) (w : Init d ℝ) (hr : 0 < C.ratio) (hcf : 0 < nt → 0 < cb.getD (nt / C.ratio)) :
    ∃ q, C.forward grad cb nt f w = .ok q ∧
      q.out = C.outOf (C.run f 0 (C.start w) (nt / C.ratio * C.ratio)) ∧
      (q.rcd = fun t => if t < nt / C.ratio * C.ratio then
          sample C.rcv (C.run f 0 (C.start w) t).u else fun _ => 0) ∧
      q.events = C.eventsOf f (C.start w) nt cb :=
  ⟨_, C.forward_eq h grad cb nt f w hr hcf, rfl, rfl, by cases cb <;> rfl⟩

/-- A call that is accepted, with a positive sampling interval, gives the result of the propagator. -/
theorem scalar_eq_events {A : UArgs d} {P : Plan d} {cf : ℤ} (h : A.setup.Good P) {s : ℕ} (hs : s < P.nb)
    (hP : PmlOk P) (hsrc : ∀ l, A.src = some l → WholeIgnored d l s)
    (hrcv : ∀ l, A.rcv = some l → WholeIgnored d l s)
    (hcf : checkCallbackFrequency A.callbackFreq = .ok cf) (hi : 0 < P.interval)
    (hnt : A.callback = true ∨ P.ratio * P.interval ≤ P.nt ∨ P.nt ≤ 0) :
    ∃ r, A.scalar s = .ok (some r) ∧
      let C := cfg (locAt P.srcs 0).n (locAt P.rcvs 0).n P s
      let f := Born.scaleAmp C fun t i => upAmps P A.timeTaper A.amps s t i
      let N := P.nt.toNat / C.ratio * C.ratio
      r.out = C.outOf (C.run f 0 (C.start (A.init s)) N) ∧
      (∀ i : Fin (locAt P.rcvs 0).n, r.traces i = downS P A.timeTaper ⟨P.nt.toNat, fun t =>
        if t < N then sample C.rcv (C.run f 0 (C.start (A.init s)) t).u i else 0⟩) ∧
      r.events = C.eventsOf f (C.start (A.init s)) P.nt.toNat (if A.callback then some cf.toNat else none) := by
  classical
  have hwf := cfg_wf h hs hP hsrc hrcv
  have hrp := SetupGood.ratio_pos h
  have hr : 0 < (cfg (locAt P.srcs 0).n (locAt P.rcvs 0).n P s).ratio := by
    show 0 < (P.ratio * P.interval).toNat
    have : 0 < P.ratio * P.interval := mul_pos (by omega) hi
    omega
  have hcf0 : 0 < cf := by
    unfold checkCallbackFrequency at hcf
    split at hcf
    · split_ifs at hcf with h1
      cases hcf
      omega
    · cases hcf
  have hN : 0 < P.nt.toNat → 0 < (if A.callback then some cf.toNat else none).getD
      (P.nt.toNat / (cfg (locAt P.srcs 0).n (locAt P.rcvs 0).n P s).ratio) := fun h1 => by
    by_cases hc : A.callback = true
    · simp only [hc, if_true, Option.getD_some]
      omega
    · rw [if_neg hc, Option.getD_none]
      refine Nat.div_pos ?_ hr
      show (P.ratio * P.interval).toNat ≤ _
      rcases hnt with h2 | h2 | h2
      · exact absurd h2 hc
      · omega
      · omega
  have hF := (cfg (locAt P.srcs 0).n (locAt P.rcvs 0).n P s).forward_spec hwf A.grad
    (if A.callback then some cf.toNat else none) P.nt.toNat
    (Born.scaleAmp (cfg (locAt P.srcs 0).n (locAt P.rcvs 0).n P s) fun t i => upAmps P A.timeTaper A.amps s t i)
    (A.init s) hr hN
  have hne : ¬NoElements A.v := by
    have hnb : 0 < P.nb := by omega
    have hm := ((extractModels_iff hnb).1 h.models).1 (A.v, .replicate) (by simp [UArgs.setup])
    rintro (h1 | ⟨k, h1⟩)
    · rcases hm.batch with h2 | h2
      · simp only at h2; omega
      · simp only at h2; omega
    · have := h.shape_pos.2 k
      have h3 : A.setup.shape k = A.v.shape k := rfl
      omega
  obtain ⟨q, hq, hout, hrcd, hev⟩ := hF
  refine ⟨⟨q.out, fun i => if h : i < (locAt P.rcvs 0).n then
      downS P A.timeTaper ⟨P.nt.toNat, fun t => q.rcd t ⟨i, h⟩⟩ else ⟨0, fun _ => 0⟩, q.events⟩,
    scalar_ok.2 ⟨hne, P, cf, h, hcf, ?_⟩, ?_⟩
  · unfold UArgs.shot
    simp only [hq]
    simp only [bind, Except.bind, pure, Except.pure, if_pos (finite_of_pmlOk h hP false)]
  · refine ⟨hout, fun i => ?_, hev⟩
    simp only [i.isLt, dif_pos, hrcd]
    congr 2
    funext t
    split_ifs <;> rfl

/-- A call that is accepted, with a positive sampling interval, gives the result of the propagator. -/
theorem scalar_eq {A : UArgs d} {P : Plan d} {cf : ℤ} (h : A.setup.Good P) {s : ℕ} (hs : s < P.nb)
    (hP : PmlOk P) (hsrc : ∀ l, A.src = some l → WholeIgnored d l s)
    (hrcv : ∀ l, A.rcv = some l → WholeIgnored d l s)
    (hcf : checkCallbackFrequency A.callbackFreq = .ok cf) (hi : 0 < P.interval)
    (hnt : A.callback = true ∨ P.ratio * P.interval ≤ P.nt ∨ P.nt ≤ 0) :
    ∃ r, A.scalar s = .ok (some r) ∧
      let C := cfg (locAt P.srcs 0).n (locAt P.rcvs 0).n P s
      let f := Born.scaleAmp C fun t i => upAmps P A.timeTaper A.amps s t i
      let N := P.nt.toNat / C.ratio * C.ratio
      r.out = C.outOf (C.run f 0 (C.start (A.init s)) N) ∧
      ∀ i : Fin (locAt P.rcvs 0).n, r.traces i = downS P A.timeTaper ⟨P.nt.toNat, fun t =>
        if t < N then sample C.rcv (C.run f 0 (C.start (A.init s)) t).u i else 0⟩ := by
  obtain ⟨r, h1, h2, h3, -⟩ := scalar_eq_events h hs hP hsrc hrcv hcf hi hnt
  exact ⟨r, h1, h2, h3⟩

end Dw.Scalar
