import Verif.Spec.Fluid
import Verif.Setup.SamePlan
import Verif.Props.ElasticScheme
import Verif.Props.UserExamples

/-!
# C105: a call of `elastic` without shear modulus gives what `acoustic` gives
-/

namespace Dw.Setup

variable {d : ℕ}

/-- A location that is not ignored is in the extents. -/
theorem locCell_in {A : SetupArgs d} {P : Plan d} (h : A.Good P) {s : ℕ} (hs : s < P.nb) {o : Option LocT}
    (ho : o ∈ A.srcs ++ A.rcvs) (hw : ∀ l, o = some l → Scalar.WholeIgnored d l s) {i : ℕ} (hi : i < locCount o)
    {c : Cell d} (hc : locCell o s i = some c) (k : Fin d) : (P.ext k).1 ≤ c k ∧ c k < (P.ext k).2 := by
  cases o with
  | none => simp [locCell] at hc
  | some l =>
      have hn : l.nb = P.nb := by
        rcases List.mem_append.1 ho with h1 | h1
        · exact ((extractLocations_iff.1 h.srcs).1 l h1).batch
        · exact ((extractLocations_iff.1 h.rcvs).1 l h1).batch
      unfold locCell at hc
      dsimp only at hc
      split_ifs at hc with hig
      rw [← Option.some.inj hc]
      have hv := (hw l rfl i hi).resolve_left hig k k.isLt
      exact (h.in_extents.2 l ho s (by omega) i hi k hv).2

/-- In the extents a continued model is the model itself. -/
theorem extend_in {P : Plan d} {m : Fld d ℝ} {c : Cell d} (hc : ∀ k, (P.ext k).1 ≤ c k ∧ c k < (P.ext k).2) :
    P.grid.extend m c = m c := by
  unfold Spec.Grid.extend
  congr 1
  funext k
  have := hc k
  simp only [Plan.grid]
  omega

/-- The values of a continued model are values in the model. -/
theorem extend_shape {A : SetupArgs d} {P : Plan d} (h : A.Good P) (hext : ∀ k, (P.ext k).1 < (P.ext k).2)
    (c : Cell d) : ∃ x, InShape A.shape x ∧ ∀ m : Fld d ℝ, P.grid.extend m c = m x := by
  refine ⟨fun k => max (P.grid.lo k) (min (P.grid.hi k) (c k)), fun k => ?_, fun m => rfl⟩
  have := h.in_extents.1 k
  have := hext k
  simp only [Plan.grid]
  omega

/-- A constant factor of the amplitudes. -/
theorem upAmps_scale {A : SetupArgs d} {P : Plan d} (h : A.Good P) (tt : Bool) {a a' : Option AmpT} {s i : ℕ} (κ : ℝ)
    (hsz : a'.map AmpT.size = a.map AmpT.size)
    (hv : ∀ x y, a = some x → a' = some y → ∀ t, y.val s i t = κ * x.val s i t) (t : ℕ) :
    Scalar.upAmps P tt a' s t i = κ * Scalar.upAmps P tt a s t i := by
  cases a with
  | none =>
      cases a' with
      | none => simp [Scalar.upAmps]
      | some y => cases hsz
  | some x =>
      cases a' with
      | none => cases hsz
      | some y =>
          have hn : y.nt = x.nt := congrArg (fun z : Option (ℕ × ℕ × ℕ) => (z.getD (0, 0, 0)).2.2) hsz
          have e := Scalar.upS_comb h tt κ 0 ⟨x.nt, x.val s i⟩ ⟨x.nt, x.val s i⟩ rfl
          have e2 : (⟨y.nt, y.val s i⟩ : Resample.Sig ℝ) =
              (⟨x.nt, x.val s i⟩ : Resample.Sig ℝ).comb κ 0 ⟨x.nt, x.val s i⟩ := by
            unfold Resample.Sig.comb
            congr 1
            funext t
            rw [hv x y rfl rfl t]
            ring
          show (Scalar.upS P tt ⟨y.nt, y.val s i⟩).val t = κ * (Scalar.upS P tt ⟨x.nt, x.val s i⟩).val t
          rw [e2, e]
          simp [Resample.Sig.comb]

/-- Sources whose amplitudes are multiplied by the values of `m` at their locations. -/
theorem locSum_scale {o : Option LocT} {s : ℕ} {f g : ℕ → ℝ} {m : Fld d ℝ} (c : Cell d)
    (h : ∀ i < locCount o, ∀ c, locCell o s i = some c → f i = m c * g i) :
    locSum o s f c = m c * locSum o s g c := by
  unfold locSum
  rw [Finset.mul_sum]
  refine Finset.sum_congr rfl fun i hi => ?_
  split_ifs with hc
  · exact h i (Finset.mem_range.1 hi) c hc
  · ring

end Dw.Setup

namespace Dw.Elastic

open Setup Resample
open Scalar (PmlOk WholeIgnored upAmps downS maxAbs NoElements)

variable {d : ℕ}

/-- The arguments `E` of `elastic` describe for shot `s` the fluid of the arguments `A` of `acoustic`: the first
Lamé parameter is the bulk modulus, the second is zero and the buoyancy is the inverse of the density.  The
pressure sources of `acoustic` are relative to the bulk modulus at their locations. -/
structure Fluid (A : Acoustic.UArgs d) (E : UArgs d) (P : Plan d) (s : ℕ) : Prop where
  opts : E.opts = A.opts
  rfmax : E.rfmax = A.rfmax
  pos : 0 ≤ A.rfmax
  shape : E.lam.shape = A.v.shape
  lam : ∀ c, InShape A.v.shape c → E.lam.shot s c = A.rho.shot s c * A.v.shot s c ^ 2
  mu : ∀ c, InShape A.v.shape c → E.mu.shot s c = 0
  buoyancy : ∀ c, InShape A.v.shape c → E.buoyancy.shot s c = 1 / A.rho.shot s c
  rho : ∀ c, InShape A.v.shape c → A.rfmax < |1 / A.rho.shot s c|
  srcP : E.srcP = A.srcP
  srcV : E.srcV = A.srcV
  rcvP : E.rcvP = A.rcvP
  rcvV : E.rcvV = A.rcvV
  ampV : E.ampV = A.ampV
  ampP : E.ampP.map AmpT.size = A.ampP.map AmpT.size
  ampPval : ∀ x y, A.ampP = some x → E.ampP = some y → ∀ i < locCount A.srcP, ∀ c, locCell A.srcP s i = some c →
    ∀ t, y.val s i t = A.rho.shot s c * A.v.shot s c ^ 2 * x.val s i t
  wfV : ∀ i c, P.given (E.wf.v i) s c = P.given (A.wf.v i) s c
  wfS : ∀ i c, P.given (E.wf.s i) s c = -P.given A.wf.p s c
  wfSh : ∀ p c, P.given (E.wf.sh p) s c = 0
  wfMv : ∀ i c, P.given (E.wf.mv i i) s c = P.given (A.wf.phi i) s c
  wfMs : ∀ i c, P.given (E.wf.ms i i) s c = -P.given (A.wf.psi i) s c
  wfMsOff : ∀ i j c, i ≠ j → P.given (E.wf.ms i j) s c = 0

/-- **C105** If `elastic` is called with the first Lamé parameter of a fluid, a second one of zero and the
inverse of its density, and both it and `acoustic` accept their arguments, the particle velocities and the
pressures that they return are equal, and so are the final wavefields: the normal stresses are all minus the
pressure and the shear stresses are zero. -/
theorem C105_fluid (A : Acoustic.UArgs d) (E : UArgs d) (P Q : Plan d) (s : ℕ) (cf : ℤ) (hd : 0 < d)
    (hplan : A.setup.plan = .ok P) (hplan' : E.setup.plan = .ok Q) (hext : Q.ext = P.ext)
    (hF : Fluid A E P s) (hmax : A.opts.maxVel ≠ none ∨ E.maxModelVel = maxAbs A.v)
    (hpre : ¬A.Pre) (hpre' : ¬E.Pre) (hs : s < P.nb) (hs' : s < Q.nb) (hP : PmlOk P)
    (hloc : ∀ l, some l ∈ A.setup.srcs ++ A.setup.rcvs → WholeIgnored d l s)
    (hlast : ∀ k, 0 < P.w1 k ∨ (P.ext k).2 = A.v.shape k ∨ P.BeforeLast k s (A.srcV k) ∧ P.BeforeLast k s (A.rcvV k))
    (hcf : checkCallbackFrequency A.opts.callbackFreq = .ok cf) (hi : 0 < P.interval)
    (hnt : A.opts.callback = true ∨ P.ratio * P.interval ≤ P.nt ∨ P.nt ≤ 0) :
    ∃ r r', A.acoustic s = .ok (some r) ∧ E.elastic s = .ok (some r') ∧
      (∀ k, ∀ i < locCount (A.rcvV k), r'.tracesV k i = r.tracesV k i) ∧
      (∀ i < locCount A.rcvP, r'.tracesP i = r.tracesP i) ∧
      ∀ c i, r'.out.v i (P.index c) = r.out.v i (P.index c) ∧ r'.out.s i (P.index c) = -r.out.p (P.index c) ∧
        (∀ j, (hij : i < j) → r'.out.sh ⟨(i, j), hij⟩ (P.index c) = 0) ∧
        r'.out.mv i i (P.index c) = r.out.phi i (P.index c) ∧
        r'.out.ms i i (P.index c) = -r.out.psi i (P.index c) ∧ ∀ j, i ≠ j → r'.out.ms i j (P.index c) = 0 := by
  have h := plan_ok.1 hplan
  have hq := plan_ok.1 hplan'
  have hnb : 0 < P.nb := by omega
  have hlt := h.ext_lt hnb ⟨A.v, List.mem_cons_self⟩
  have hopt := hF.opts
  have hsame : P.Same Q := by
    refine h.same hq ?_ ?_ ?_ ?_ ?_ ?_ ?_ ?_ ?_ ?_ ?_ ?_
    · exact congrArg Opts.gridSpacing hopt
    · exact congrArg Opts.dt hopt
    · exact congrArg Opts.accuracy hopt
    · exact congrArg Opts.pmlWidth hopt
    · exact congrArg Opts.pmlFreq hopt
    · exact congrArg Opts.nt hopt
    · exact congrArg Opts.interval hopt
    · exact congrArg Opts.freqTaperFrac hopt
    · exact congrArg Opts.timePadFrac hopt
    · exact congrArg Opts.maxVel hopt
    · exact hmax
    · intro a ha
      change some a ∈ List.ofFn E.ampV ++ [E.ampP] at ha
      change ∃ b, some b ∈ A.ampP :: List.ofFn A.ampV ∧ b.nt = a.nt
      rcases List.mem_append.1 ha with h1 | h1
      · exact ⟨a, List.mem_cons_of_mem _ (hF.ampV ▸ h1), rfl⟩
      · have h1 := (List.mem_singleton.1 h1).symm
        have h2 := hF.ampP
        rw [h1] at h2
        cases hb : A.ampP with
        | none => rw [hb] at h2; cases h2
        | some b =>
            rw [hb] at h2
            exact ⟨b, List.mem_cons_self,
              congrArg (fun z : Option (ℕ × ℕ × ℕ) => (z.getD (0, 0, 0)).2.2) h2.symm⟩
  have hQ := hsame.eq hext
  have hsrcs : ∀ o, o ∈ E.setup.srcs ++ E.setup.rcvs → o ∈ A.setup.srcs ++ A.setup.rcvs := by
    intro o ho
    change o ∈ (List.ofFn E.srcV ++ [E.srcP]) ++ (List.ofFn E.rcvV ++ [E.rcvP]) at ho
    change o ∈ (A.srcP :: List.ofFn A.srcV) ++ (A.rcvP :: List.ofFn A.rcvV)
    rw [hF.srcP, hF.srcV, hF.rcvP, hF.rcvV] at ho
    simp only [List.mem_append, List.mem_cons, List.not_mem_nil, or_false] at ho ⊢
    tauto
  obtain ⟨r, p, v, phi, psi, hr, hA, hinit, hout, htP, htV⟩ :=
    Acoustic.C92_acoustic_scheme A P s cf hplan hpre hs hP hloc hlast hcf hi hnt
  have hw1 : Q.w1 = P.w1 := by rw [hQ]; rfl
  obtain ⟨r', v', sig, mv, ms, hr', hE, hinit', hout', htP', htV'⟩ :=
    C93_elastic_scheme E Q s cf hplan' hpre' hs' (by rw [hQ]; exact hP) (fun l hl => hloc l (hsrcs _ hl))
      (fun k => by rw [hF.shape, hF.srcV, hF.rcvV, hw1, hext, show Q.BeforeLast = P.BeforeLast by rw [hQ]; rfl]; exact hlast k)
      (by rw [hopt]; exact hcf) (by rw [hsame.interval]; exact hi)
      (by rw [hopt, hsame.ratio, hsame.interval, hsame.nt]; exact hnt)
  have hgrid := hsame.grid hext
  have hidx : Q.index = P.index := by rw [hQ]; rfl
  have hgiven : Q.given = P.given := by rw [hQ]; rfl
  have hbetw : Q.BetweenAt = P.BetweenAt := by rw [hQ]; rfl
  have hsteps : Q.steps = P.steps := by rw [hQ]; rfl
  have hdown : downS Q = downS P := by rw [hQ]; rfl
  have hup : upAmps Q = upAmps P := by rw [hQ]; rfl
  simp only [hgrid, hidx, hgiven, hbetw, hsteps, hdown, hup, hsame.nt, hF.rfmax, hF.srcP, hF.srcV, hF.rcvP,
    hF.rcvV, hF.ampV, hopt] at hE hinit' hout' htP' htV'
  have hsh : A.setup.shape = A.v.shape := rfl
  have hrho : ∀ c, Spec.inverse A.rfmax (P.grid.extend (E.buoyancy.shot s) c) = P.grid.extend (A.rho.shot s) c := by
    intro c
    obtain ⟨x, hx, ex⟩ := extend_shape h hlt c
    rw [ex, ex, hF.buoyancy x (hsh ▸ hx)]
    unfold Spec.inverse
    rw [if_pos (hF.rho x (hsh ▸ hx)), one_div_one_div]
  have hzero : Spec.SameFluid (p 0) (v 0) (phi 0) (psi 0) (v' 0) (sig 0) (mv 0) (ms 0) := by
    have hoff : ∀ i j, i < j → ∀ c, sig 0 i j c = 0 := fun i j hij c => by
      by_cases hc : P.grid.InAt (Spec.atS i j) c
      · rw [(hinit' i c).2.1 j hij hc, hF.wfSh]
      · exact ((hE.outside 0 i c).2 j hc).1
    have hV : ∀ i : Fin d, Spec.atV i i = true := fun i => by simp [Spec.atV]
    have hS : ∀ i : Fin d, Spec.atS i i i = false := fun i => by simp [Spec.atS]
    refine ⟨fun i c => ?_, fun i c => ?_, fun i j c hij => ?_, fun i c => ?_, fun i c => ?_, fun i j c hij => ?_⟩
    · by_cases hc : P.grid.InH i c
      · rw [((hinit' i c).2.2.2 ((Spec.inAt_atV i c).2 hc)).1, ((hinit c).2 i hc).1, hF.wfV]
      · rw [((hE.outside _ i c).1 fun hx => hc ((Spec.inAt_atV i c).1 hx)).1, ((hA.outside _ c).2 i hc).1]
    · by_cases hc : P.grid.In c
      · rw [(hinit' i c).1 hc, ((hinit c).1 hc).1, hF.wfS]
      · rw [((hE.outside _ i c).2 i fun hx => hc ((Spec.atS_self _ i c).1 hx)).1, ((hA.outside _ c).1 hc).1, neg_zero]
    · rcases lt_or_gt_of_ne hij with h1 | h1
      · exact hoff i j h1 c
      · rw [hE.symm]
        exact hoff j i h1 c
    · by_cases hc : P.grid.In c
      · have h1 := (hinit' i c).2.2.1 i ((Spec.atS_self _ i c).2 hc)
        have h2 := ((hinit c).1 hc).2 i
        rw [hS] at h1
        have hiff : P.BetweenAt false i (c i) ↔ P.Between i (c i) := by
          simp [Plan.BetweenAt, Plan.Between]
        by_cases hb : P.Between i (c i)
        · rw [h1.1 (hiff.2 hb), h2.1 hb]
        · rw [h1.2 fun hx => hb (hiff.1 hx), h2.2 hb, hF.wfMv]
      · rw [((hE.outside _ i c).2 i fun hx => hc ((Spec.atS_self _ i c).1 hx)).2, ((hA.outside _ c).1 hc).2 i]
    · by_cases hc : P.grid.InH i c
      · have h1 := ((hinit' i c).2.2.2 ((Spec.inAt_atV i c).2 hc)).2 i
        have h2 := ((hinit c).2 i hc).2
        rw [hV] at h1
        have hiff : P.BetweenAt true i (c i) ↔ P.BetweenH i (c i) := by
          simp [Plan.BetweenAt, Plan.BetweenH]
        by_cases hb : P.BetweenH i (c i)
        · rw [h1.1 (hiff.2 hb), h2.1 hb, neg_zero]
        · rw [h1.2 fun hx => hb (hiff.1 hx), h2.2 hb, hF.wfMs]
      · rw [((hE.outside _ i c).1 fun hx => hc ((Spec.inAt_atV i c).1 hx)).2 i, ((hA.outside _ c).2 i hc).2, neg_zero]
    · by_cases hc : P.grid.InAt (Spec.atV i) c
      · have h1 := ((hinit' i c).2.2.2 hc).2 j
        by_cases hb : P.BetweenAt (Spec.atV i j) j (c j)
        · exact h1.1 hb
        · rw [h1.2 hb, hF.wfMsOff i j c hij]
      · exact ((hE.outside _ i c).1 hc).2 j
  have key := fun t => hE.fluid hA
    (fun c _ => by
      obtain ⟨x, hx, ex⟩ := extend_shape h hlt c
      rw [ex, ex, ex, hF.lam x (hsh ▸ hx)])
    (fun c _ => by
      obtain ⟨x, hx, ex⟩ := extend_shape h hlt c
      rw [ex, hF.mu x (hsh ▸ hx)])
    (fun i j c _ _ => by
      obtain ⟨x, hx, ex⟩ := extend_shape h hlt c
      unfold Spec.harmonic
      refine if_neg fun hall => ?_
      have h1 := hall _ List.mem_cons_self
      rw [ex, hF.mu x (hsh ▸ hx), abs_zero] at h1
      exact absurd hF.pos (not_le.2 h1))
    (fun k c _ => by simp only [hrho])
    (fun t c _ => locSum_scale (m := fun c => P.grid.extend (A.rho.shot s) c * P.grid.extend (A.v.shot s) c ^ 2) c
      fun i hi c hc => by
        have hin := locCell_in h hs (o := A.srcP) (List.mem_append_left _ List.mem_cons_self)
          (fun l hl => hloc l (List.mem_append_left _ (by rw [← hl]; exact List.mem_cons_self))) hi hc
        rw [extend_in hin, extend_in hin]
        exact upAmps_scale h _ _ hF.ampP (fun x y hx hy => hF.ampPval x y hx hy i hi c hc) t)
    (fun t k c _ => rfl) hzero t
  have hdR : (d : ℝ) ≠ 0 := Nat.cast_ne_zero.2 hd.ne'
  refine ⟨r, r', hr, hr', fun k i hi => ?_, fun i hi => ?_, fun c i => ?_⟩
  · rw [htV' k i hi, htV k i hi]
    congr 2
    funext t
    rw [show v' t k = v t k from funext fun c => (key t).vel k c]
  · have e := htP' i hi
    rw [e, htP i hi]
    have e2 : ∀ t, (if t < P.steps then locValue A.rcvP s i (fun c => ∑ k, sig t k k c) else 0) =
        -(d : ℝ) * (if t < P.steps then locValue A.rcvP s i (p t) else 0) + 0 * 0 := by
      intro t
      split_ifs
      · have e3 : (fun c => ∑ k, sig t k k c) = fun c => -(d : ℝ) * p t c := funext fun c => by
          rw [Finset.sum_congr rfl fun k _ => (key t).normal k c]
          simp
        rw [e3]
        unfold locValue
        cases locCell A.rcvP s i <;> simp
      · simp
    rw [funext e2, Scalar.downS_comb h _ (-(d : ℝ)) 0 (fun t => if t < P.steps then locValue A.rcvP s i (p t) else 0) fun _ => 0]
    unfold Sig.comb
    congr 1
    funext t
    have e4 : ∀ x y : ℝ, -(-(d : ℝ) * x + 0 * y) / d = x := fun x y => by
      rw [zero_mul, add_zero, neg_mul, neg_neg, mul_div_cancel_left₀ _ hdR]
    exact e4 _ _
  · obtain ⟨o1, o2, o3, o4⟩ := hout' c i
    obtain ⟨q1, q2⟩ := hout c
    rw [o1, o2, q1, (q2 i).1, (q2 i).2.1, (q2 i).2.2]
    exact ⟨(key _).vel i c, (key _).normal i c, fun j hij => by rw [o3 j hij]; exact (key _).shear i j c hij.ne,
      by rw [(o4 i).1]; exact (key _).memV i c, by rw [(o4 i).2]; exact (key _).memS i c,
      fun j hij => by rw [(o4 j).2]; exact (key _).memS_ne i j c hij⟩

/-- Without a given maximum velocity the two functions use the same one, if the models have the same number of
shots. -/
theorem fluid_maxVel (A : Acoustic.UArgs d) (E : UArgs d) (hel : ¬NoElements A.v) (hshape : E.lam.shape = A.v.shape)
    (hnb : max (E.lam.nb.getD 1) (max (E.mu.nb.getD 1) (E.buoyancy.nb.getD 1)) = A.v.nb.getD 1)
    (hm : ∀ s < A.v.nb.getD 1, ∀ c, InShape A.v.shape c → E.lam.shot s c = A.rho.shot s c * A.v.shot s c ^ 2 ∧
      E.mu.shot s c = 0 ∧ E.buoyancy.shot s c = 1 / A.rho.shot s c ∧ A.rho.shot s c ≠ 0) :
    E.maxModelVel = maxAbs A.v := by
  have hvs : ∀ s < A.v.nb.getD 1, A.v.shot s = A.v.val s := fun s hs => by
    unfold ModelT.shot
    split_ifs with h1
    · congr 1
      omega
    · rfl
  have hfrom : ∀ s < A.v.nb.getD 1, ∀ c, InShape A.v.shape c →
      |(fromLamb (E.lam.shot s c) (E.mu.shot s c) (E.buoyancy.shot s c) 0).1| = |A.v.val s c| ∧
      |(fromLamb (E.lam.shot s c) (E.mu.shot s c) (E.buoyancy.shot s c) 0).2.1| = 0 := fun s hs c hc => by
    obtain ⟨h1, h2, h3, h4⟩ := hm s hs c hc
    rw [h1, h2, h3, hvs s hs]
    simp only [fromLamb, zero_mul, Real.sqrt_zero, abs_zero, and_true]
    rw [show A.rho.shot s c * A.v.val s c ^ 2 * (1 / A.rho.shot s c) + 2 * 0 ^ 2 = A.v.val s c ^ 2 by
      field_simp; ring, Real.sqrt_sq_eq_abs, abs_abs]
  let X : Set ℝ := {x | ∃ s < A.v.nb.getD 1, ∃ c, InShape A.v.shape c ∧ x = |A.v.val s c|}
  have hset : {x | ∃ s c, s < max (E.lam.nb.getD 1) (max (E.mu.nb.getD 1) (E.buoyancy.nb.getD 1)) ∧
      InShape E.lam.shape c ∧ (x = |(fromLamb (E.lam.shot s c) (E.mu.shot s c) (E.buoyancy.shot s c) 0).1| ∨
        x = |(fromLamb (E.lam.shot s c) (E.mu.shot s c) (E.buoyancy.shot s c) 0).2.1|)} = insert 0 X := by
    rw [hnb, hshape]
    ext x
    simp only [Set.mem_ofPred_eq, Set.mem_insert_iff, X]
    constructor
    · rintro ⟨s, c, hs, hc, rfl | rfl⟩
      · exact .inr ⟨s, hs, c, hc, (hfrom s hs c hc).1⟩
      · exact .inl (hfrom s hs c hc).2
    · rintro (rfl | ⟨s, hs, c, hc, rfl⟩)
      · simp only [NoElements, not_or, not_exists, not_le] at hel
        have hc : InShape A.v.shape fun _ => 0 := fun k => ⟨le_rfl, hel.2 k⟩
        exact ⟨0, fun _ => 0, by omega, hc, .inr (hfrom 0 (by omega) _ hc).2.symm⟩
      · exact ⟨s, c, hs, hc, .inl (hfrom s hs c hc).1.symm⟩
  show sSup _ = sSup X
  rw [hset]
  simp only [NoElements, not_or, not_exists, not_le] at hel
  have hne : X.Nonempty := ⟨_, 0, by omega, fun _ => 0, fun k => ⟨le_rfl, hel.2 k⟩, rfl⟩
  have h0 : ∀ x ∈ X, 0 ≤ x := by
    rintro x ⟨s, -, c, -, rfl⟩
    exact abs_nonneg _
  by_cases hb : BddAbove X
  · rw [csSup_insert hb hne]
    obtain ⟨x, hx⟩ := hne
    exact max_eq_right ((h0 x hx).trans (le_csSup hb hx))
  · rw [Real.sSup_of_not_bddAbove hb, Real.sSup_of_not_bddAbove fun h => hb (h.mono (Set.subset_insert _ _))]

/-! ### A call -/

/-- The arguments of `elastic` for the fluid of `Acoustic.exU`, without and with the scaled amplitudes. -/
noncomputable def exF0 (sp : SurveyPad) : UArgs 2 :=
  { exU sp with
    lam := ⟨none, ![7, 9], fun _ c => (2000 + c 1) * (990 + c 0) ^ 2⟩, mu := ⟨none, ![7, 9], fun _ _ => 0⟩
    buoyancy := ⟨none, ![7, 9], fun _ c => 1 / (2000 + c 1)⟩ }

noncomputable def exF (sp : SurveyPad) : UArgs 2 :=
  { exF0 sp with
    ampP := ampWith (some exAmp) fun s i t =>
      locValue (some exLoc) s i (fun c : Cell 2 => (2000 + c 1) * (990 + c 0) ^ 2) * exAmp.val s i t }

noncomputable def exFP (ext : Fin 2 → ℤ × ℤ) : Plan 2 :=
  exPl true ext (exF0 .none).setup.models (exF0 .none).setup.srcs (exF0 .none).setup.rcvs

theorem exF_good : (exF .none).setup.Good (exFP ![(0, 7), (0, 9)]) := by
  have h0 : (exF0 .none).setup.Good (exFP ![(0, 7), (0, 9)]) := by
    refine exO_good (exU_locs .none) (fun a ha => ?_) (exU_noWf (sp := .none)) (fun m hm => ?_) (by simp) rfl rfl rfl
      (by decide) (by unfold LocT.Ignored LocT.Inside; decide +kernel) (by decide +kernel)
    · have : some a ∈ [none, some exAmp, some exAmp] := ha
      simpa using this
    · simp only [List.mem_cons, List.not_mem_nil, or_false] at hm
      rcases hm with rfl | rfl | rfl <;> exact ⟨rfl, rfl⟩
  exact h0.revalue (amps := (exF .none).setup.amps) (wfs := (exF .none).setup.wfs) rfl rfl

theorem exF_pre : ¬(exF .none).Pre := by
  have h0 : ∀ k : Fin 2, (![7, 9] : Fin 2 → ℤ) k ≤ 0 → False := by decide
  rintro (⟨k, l, hl, h⟩ | (h | ⟨k, h⟩) | (h | ⟨k, h⟩) | (h | ⟨k, h⟩))
  · obtain rfl := exU_locs .none l (UArgs.mem_loc (A := exU .none) hl)
    exact Acoustic.exLoc_beyond.1 k h
  · cases h
  · exact h0 k h
  · cases h
  · exact h0 k h
  · cases h
  · exact h0 k h

theorem exF_fluid : Fluid (Acoustic.exU .none) (exF .none) (Acoustic.exP ![(0, 7), (0, 9)]) 1 := by
  have hr : ∀ c : Cell 2, InShape (Acoustic.exU .none).v.shape c → (0 : ℝ) ≤ c 1 ∧ (c 1 : ℝ) < 9 := fun c hc => by
    have := hc 1
    change 0 ≤ c 1 ∧ c 1 < 9 at this
    exact ⟨by exact_mod_cast this.1, by exact_mod_cast this.2⟩
  refine ⟨rfl, rfl, by norm_num [Acoustic.exU], rfl, fun c _ => rfl, fun c _ => rfl, fun c _ => rfl, fun c hc => ?_,
    rfl, rfl, rfl, rfl, rfl, rfl, ?_, fun _ _ => rfl, fun _ _ => ?_, fun _ _ => rfl, fun _ _ => rfl, fun _ _ => ?_,
    fun _ _ _ _ => rfl⟩
  · obtain ⟨h1, h2⟩ := hr c hc
    show (1 / 10 ^ 19 : ℝ) < |1 / (2000 + (c 1 : ℝ))|
    rw [abs_of_pos (by positivity)]
    exact one_div_lt_one_div_of_lt (by linarith) (by norm_num; linarith)
  · intro x y hx hy i _ c hc t
    obtain rfl := Option.some.inj hx
    obtain rfl := Option.some.inj hy
    show locValue (some exLoc) 1 i _ * _ = _
    unfold locValue
    rw [show locCell (some exLoc) 1 i = some c from hc]
    rfl
  · exact neg_zero.symm
  · exact neg_zero.symm

/-- The hypotheses of `C105_fluid` hold for these calls. -/
example : ∃ r r', (Acoustic.exU .none).acoustic 1 = .ok (some r) ∧ (exF .none).elastic 1 = .ok (some r') ∧
    r'.tracesP 0 = r.tracesP 0 ∧ r'.tracesV 0 0 = r.tracesV 0 0 := by
  obtain ⟨r, r', h1, h2, h3, h4, -⟩ := C105_fluid (Acoustic.exU .none) (exF .none) (Acoustic.exP ![(0, 7), (0, 9)])
    (exFP ![(0, 7), (0, 9)]) 1 1 (by decide) (plan_ok.2 Acoustic.exU_whole) (plan_ok.2 exF_good) rfl exF_fluid
    (.inl (by simp [Acoustic.exU, exO])) (Acoustic.exU_pre .none) exF_pre (by decide) (by decide)
    (.inl (by norm_num [Acoustic.exP, exPl]))
    (fun l hl => Born.exLoc_whole (by decide) (Acoustic.exU_locs .none l hl))
    (fun k => .inl (by fin_cases k <;> norm_num [Acoustic.exP, exPl, Plan.w1])) rfl
    (by norm_num [Acoustic.exP, exPl]) (.inr (.inl (by norm_num [Acoustic.exP, exPl])))
  exact ⟨r, r', h1, h2, h4 0 (by decide), h3 0 0 (by decide)⟩

/-- And those of `fluid_maxVel`. -/
example : (exF .none).maxModelVel = maxAbs (Acoustic.exU .none).v :=
  fluid_maxVel (Acoustic.exU .none) (exF .none) (fun h => Acoustic.exU_pre .none (.inl h)) rfl rfl fun s _ c hc => by
    have := hc 1
    change 0 ≤ c 1 ∧ c 1 < 9 at this
    have h1 : (0 : ℝ) ≤ c 1 := by exact_mod_cast this.1
    exact ⟨rfl, rfl, rfl, by show (2000 + (c 1 : ℝ)) ≠ 0; positivity⟩

end Dw.Elastic
