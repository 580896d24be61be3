import Verif.Props.ScalarUser
import Verif.Props.ScalarReciprocity
import Verif.Props.ScalarForward
import Verif.Resample.Linear
import Verif.Setup.Resume

/-!
# More properties of the function `scalar`
-/

namespace Dw.Setup

variable {d : ℕ}

theorem extremeLoop_swap {left : Bool} {pad : ℤ} {k : ℕ} {n : ℤ} (a b : Option LocT) {ls : List (Option LocT)}
    {e r : ℤ} (h : extremeLoop left pad k n (a :: b :: ls) e = .ok r) :
    extremeLoop left pad k n (b :: a :: ls) e = .ok r := by
  cases a with
  | none => cases b <;> simpa only [extremeLoop] using h
  | some l =>
      cases b with
      | none => simpa only [extremeLoop] using h
      | some l' =>
          simp only [extremeLoop] at h ⊢
          by_cases h1 : l.nd ≤ k
          · rw [if_pos h1] at h; cases h
          by_cases h1' : l'.nd ≤ k
          · simp only [h1', if_true] at h
            split_ifs at h
          simp only [if_neg h1, if_neg h1'] at h ⊢
          by_cases h2 : (l.active k).isEmpty = true <;> by_cases h2' : (l'.active k).isEmpty = true <;>
            simp only [h2, h2', if_true, if_false, Bool.false_eq_true] at h ⊢
          · exact h
          · exact h
          · exact h
          · by_cases h3 : minOf (l.active k) < 0
            · rw [if_pos h3] at h; cases h
            by_cases h4 : (n : ℚ) ≤ maxOf (l.active k)
            · rw [if_neg h3, if_pos h4] at h; cases h
            by_cases h3' : minOf (l'.active k) < 0
            · simp only [h3, h4, h3', if_true, if_false] at h; cases h
            by_cases h4' : (n : ℚ) ≤ maxOf (l'.active k)
            · simp only [h3, h4, h3', h4', if_true, if_false] at h; cases h
            simp only [h3, h4, h3', h4', if_false] at h ⊢
            rw [← h]
            congr 1
            cases left
            · simp only [Bool.false_eq_true, if_false]; exact max_right_comm _ _ _
            · simp only [if_true]; exact min_right_comm _ _ _

theorem surveyExtents_swap {shape : Fin d → ℤ} (a b : Option LocT) {wfs : List (Option (Fin d → ℤ))}
    {sp : SurveyPad} {origin : Option (List ℤ)} {w0 w1 : Fin d → ℤ} {ext : Fin d → ℤ × ℤ}
    (h : surveyExtents shape [a, b] wfs sp origin w0 w1 = .ok ext) :
    surveyExtents shape [b, a] wfs sp origin w0 w1 = .ok ext := by
  have hm : ∀ l, some l ∈ [b, a] ↔ some l ∈ [a, b] := fun l => by simp [or_comm]
  have hc : ∀ u, checkLocationsWithinModel shape [a, b] = .ok u → checkLocationsWithinModel shape [b, a] = .ok u := by
    intro u hu
    refine checkLocationsWithinModel_iff.2 ?_
    have := checkLocationsWithinModel_iff.1 hu
    exact ⟨this.1, fun l hl => this.2 l ((hm l).1 hl)⟩
  have hx : ∀ ext u, checkLocationsWithinExtents ext [a, b] = .ok u →
      checkLocationsWithinExtents (d := d) ext [b, a] = .ok u := by
    intro ext u hu
    refine checkLocationsWithinExtents_iff.2 fun l hl => ?_
    exact checkLocationsWithinExtents_iff.1 hu l ((hm l).1 hl)
  have hs : ∀ p left k n e, extentOneSide p left k [a, b] n = .ok e → extentOneSide p left k [b, a] n = .ok e := by
    intro p left k n e he
    unfold extentOneSide at he ⊢
    have : [b, a].any Option.isSome = [a, b].any Option.isSome := by simp [Bool.or_comm]
    rw [this]
    by_cases hp : p < 0 ∨ ¬([a, b].any Option.isSome) = true
    · rw [if_pos hp] at he ⊢
      exact he
    · rw [if_neg hp] at he ⊢
      cases h1 : extremeLoop left p k n [a, b] (if left then n else 0) with
      | error x => rw [h1] at he; cases he
      | ok x => rw [h1] at he; rw [extremeLoop_swap a b h1]; exact he
  have hl : ∀ ext, extentsFromLocations shape [a, b] sp = .ok ext →
      extentsFromLocations (d := d) shape [b, a] sp = .ok ext := by
    intro ext he
    unfold extentsFromLocations at he ⊢
    split at he
    · cases he
    · split at he
      · cases he
      · rename_i pads _
        rw [forDims_ok] at he ⊢
        intro k
        have := he k
        cases h1 : extentOneSide (pads.getD (2 * k) 0) true k [a, b] (shape k) with
        | error x => simp only [h1] at this; cases this
        | ok x =>
            cases h2 : extentOneSide (pads.getD (2 * k + 1) 0) false k [a, b] (shape k) with
            | error x => simp only [h1, h2] at this; cases this
            | ok y =>
                simp only [h1, h2] at this
                simp only [hs _ _ _ _ _ h1, hs _ _ _ _ _ h2]
                exact this
  unfold surveyExtents at h ⊢
  simp only at h ⊢
  split_ifs at h ⊢ with h1 h2
  · split at h
    · cases h
    · rename_i u hu
      rw [hc u hu]
      simp only
      split at h
      · cases h
      · split at h
        · cases h
        · split at h
          · cases h
          · rename_i hv
            rw [hx _ _ hv]
            exact h
  · split at h
    · cases h
    · rename_i u hu
      rw [hc u hu]
      simp only
      split at h
      · cases h
      · rename_i hv
        rw [hl _ hv]
        exact h

end Dw.Setup

namespace Dw.Scalar

open Setup Resample

variable {d : ℕ}

section setup
variable {A : SetupArgs d} {P : Plan d}

theorem SetupGood.nt_eq (h : A.Good P) : ∃ n : ℕ, P.nt = n * P.ratio := by
  have := h.nt
  unfold setNt at this
  simp only at this
  split at this
  · cases this
  · rename_i nt _
    split_ifs at this with h1
    cases nt with
    | none =>
        cases h2 : (List.filterMap id (List.map (Option.map AmpT.nt) A.amps)).head? with
        | none => simp only [h2] at this; cases this
        | some a => simp only [h2, Except.ok.injEq] at this; exact ⟨a, this.symm⟩
    | some n =>
        cases h2 : (List.filterMap id (List.map (Option.map AmpT.nt) A.amps)).head? with
        | none =>
            simp only [h2] at this
            split_ifs at this with h3
            simp only [Except.ok.injEq] at this
            exact ⟨n.toNat, by rw [← this, Int.toNat_of_nonneg (not_lt.1 h3)]⟩
        | some a =>
            simp only [h2] at this
            split_ifs at this with h3 h4
            simp only [Except.ok.injEq] at this
            exact ⟨n.toNat, by rw [← this, Int.toNat_of_nonneg (not_lt.1 h4)]⟩

theorem SetupGood.fracs (h : A.Good P) :
    ((0 : ℝ) ≤ P.ff ∧ (P.ff : ℝ) ≤ 1) ∧ (0 : ℝ) ≤ P.tf ∧ (P.tf : ℝ) ≤ 1 := by
  have hf : ∀ {x : PyNum} {q : ℚ}, setFrac x = .ok q → (0 : ℝ) ≤ q ∧ (q : ℝ) ≤ 1 := by
    intro x q hx
    unfold setFrac at hx
    split at hx
    · cases hx
    · split_ifs at hx with h1
      simp only [Except.ok.injEq] at hx
      rw [← hx]
      exact ⟨by exact_mod_cast h1.1, by exact_mod_cast h1.2⟩
  exact ⟨hf h.ff, hf h.tf⟩

theorem SetupGood.validate (h : A.Good P) : Resample.validate P.ratio P.ff P.tf = .ok () := by
  have := SetupGood.ratio_pos h
  obtain ⟨h1, h2⟩ := SetupGood.fracs h
  unfold Resample.validate
  rw [if_neg (by omega), if_neg (not_not.2 h1), if_neg (not_not.2 h2)]

/-- The calls of `upsample` and `downsample` succeed. -/
theorem SetupGood.resample (h : A.Good P) (tt : Bool) :
    (∀ x, upsample x P.ratio P.ff P.tf tt = .ok (upS P tt x)) ∧
    ∀ x, downsample ⟨P.nt.toNat, x⟩ P.ratio P.ff P.tf tt 0 = .ok (downS P tt ⟨P.nt.toNat, x⟩) := by
  have hv := SetupGood.validate h
  have hr := SetupGood.ratio_pos h
  obtain ⟨h1, h2⟩ := SetupGood.fracs h
  obtain ⟨n, hn⟩ := SetupGood.nt_eq h
  constructor
  · intro x
    obtain ⟨y, -, hy, -⟩ := upsample_comb 0 0 x x rfl tt hv
    unfold upS
    rw [hy]
  · intro x
    suffices hd : ∃ u, downsample ⟨P.nt.toNat, x⟩ P.ratio P.ff P.tf tt 0 = .ok u by
      obtain ⟨u, hu⟩ := hd
      unfold downS
      rw [hu]
    obtain ⟨r, hr'⟩ := Int.eq_ofNat_of_zero_le (by omega : 0 ≤ P.ratio)
    have hr0 : 0 < r := by omega
    have hnt : P.nt.toNat = n * r := by rw [hn, hr']; exact Int.toNat_natCast _
    rw [hr'] at hv
    rw [hnt, hr']
    by_cases h3 : n * r = 0 ∨ ((r : ℤ) = 1 ∧ (0 : ℝ) = 0)
    · refine ⟨⟨n * r, x⟩, ?_⟩
      unfold downsample
      rw [hv]
      exact if_pos h3
    · obtain ⟨v, hv, -⟩ := downsample_eq (n * r) x hr0
        (Nat.le_mul_of_pos_left r (by
          rcases Nat.eq_zero_or_pos n with h4 | h4
          · exact absurd (.inl (by rw [h4, zero_mul])) h3
          · exact h4)) h1 h2 tt 0 (fun h4 => h3 (.inr ⟨by exact_mod_cast h4.1, rfl⟩))
      exact ⟨_, hv⟩

theorem upS_comb (h : A.Good P) (tt : Bool) (α β : ℝ) (x y : Sig ℝ) (hl : y.len = x.len) :
    upS P tt (x.comb α β y) = (upS P tt x).comb α β (upS P tt y) := by
  obtain ⟨x', y', h1, h2, h3, -⟩ := upsample_comb α β x y hl tt (SetupGood.validate h)
  simp only [upS, h1, h2, h3]

theorem downS_comb (h : A.Good P) (tt : Bool) (α β : ℝ) (x y : ℕ → ℝ) :
    downS P tt ⟨P.nt.toNat, fun t => α * x t + β * y t⟩ =
      (downS P tt ⟨P.nt.toNat, x⟩).comb α β (downS P tt ⟨P.nt.toNat, y⟩) := by
  have hr := (SetupGood.resample h tt).2
  have := (downsample_comb α β ⟨P.nt.toNat, x⟩ ⟨P.nt.toNat, y⟩ rfl tt 0 (hr x) (hr y)).1
  have e := hr fun t => α * x t + β * y t
  rw [show (⟨P.nt.toNat, fun t => α * x t + β * y t⟩ : Sig ℝ) =
    Sig.comb α β ⟨P.nt.toNat, x⟩ ⟨P.nt.toNat, y⟩ from rfl] at e ⊢
  rw [e] at this
  exact Except.ok.inj this

theorem downS_len (h : A.Good P) (tt : Bool) (x y : ℕ → ℝ) :
    (downS P tt ⟨P.nt.toNat, y⟩).len = (downS P tt ⟨P.nt.toNat, x⟩).len := by
  have hr := (SetupGood.resample h tt).2
  exact (downsample_comb 0 0 ⟨P.nt.toNat, x⟩ ⟨P.nt.toNat, y⟩ rfl tt 0 (hr x) (hr y)).2

end setup

open Classical in
theorem UArgs.shot_eq {A : UArgs d} {P : Plan d} {cf : ℤ} {ns nr s : ℕ} {q : FwdResult d nr ℝ}
    (hfin : Finite (P.pml false))
    (hq : (cfg ns nr P s).forward A.grad (if A.callback then some cf.toNat else none) P.nt.toNat
      (Born.scaleAmp (cfg ns nr P s) fun t i => upAmps P A.timeTaper A.amps s t i) (A.init s) = .ok q) :
    A.shot P cf ns nr s = .ok (some ⟨q.out, fun i => if h : i < nr then
      downS P A.timeTaper ⟨P.nt.toNat, fun t => q.rcd t ⟨i, h⟩⟩ else ⟨0, fun _ => 0⟩, q.events⟩) := by
  unfold UArgs.shot
  simp only [hq]
  simp only [bind, Except.bind, pure, Except.pure, if_pos hfin]

/-- The arguments are accepted with the setup `P`, `s` is one of the shots, the frequency of the PML is
positive if there is one, and no location of the shot is ignored in only some of its coordinates. -/
structure UArgs.Accepted (A : UArgs d) (P : Plan d) (s : ℕ) : Prop where
  plan : A.setup.plan = .ok P
  shot : s < P.nb
  pml : PmlOk P
  src : ∀ l, A.src = some l → WholeIgnored d l s
  rcv : ∀ l, A.rcv = some l → WholeIgnored d l s

/-- What follows from a call having succeeded. -/
theorem scalar_inv {A : UArgs d} {P : Plan d} {s : ℕ} {o : Option (UShot d)} (h : A.Accepted P s)
    (hr : A.scalar s = .ok o) : ∃ cf, A.setup.Good P ∧
      checkCallbackFrequency A.callbackFreq = .ok cf ∧ 0 < P.interval ∧
      (A.callback = true ∨ P.ratio * P.interval ≤ P.nt ∨ P.nt ≤ 0) := by
  obtain ⟨-, P', cf, hP, hcf, hsh⟩ := scalar_ok.1 hr
  obtain rfl : P = P' := by
    have := plan_ok.2 hP
    rw [h.plan] at this
    exact Except.ok.inj this
  refine ⟨cf, hP, hcf, ?_⟩
  unfold UArgs.shot at hsh
  rw [bind_ok] at hsh
  obtain ⟨q, hq, -⟩ := hsh
  unfold Cfg.forward at hq
  have hrp := SetupGood.ratio_pos hP
  by_cases h1 : (cfg (locAt P.srcs 0).n (locAt P.rcvs 0).n P s).ratio = 0
  · rw [if_pos h1] at hq; cases hq
  rw [if_neg h1] at hq
  simp only at hq
  have h3 : (P.ratio * P.interval).toNat ≠ 0 := h1
  have h4 : 0 < P.ratio * P.interval := by omega
  refine ⟨(mul_pos_iff_of_pos_left (by omega)).1 h4, ?_⟩
  by_cases hc : A.callback = true
  · exact .inl hc
  · right
    by_contra hn
    rw [not_or] at hn
    rw [if_pos] at hq
    · cases hq
    · refine ⟨by omega, ?_⟩
      rw [if_neg hc, Option.getD_none]
      show P.nt.toNat / (P.ratio * P.interval).toNat = 0
      exact Nat.div_eq_of_lt (by omega)

/-- The outputs of a call that succeeded. -/
theorem scalar_result {A : UArgs d} {P : Plan d} {s : ℕ} {r : UShot d} (h : A.Accepted P s)
    (hr : A.scalar s = .ok (some r)) :
    let C := cfg (locAt P.srcs 0).n (locAt P.rcvs 0).n P s
    let f := Born.scaleAmp C fun t i => upAmps P A.timeTaper A.amps s t i
    let N := P.nt.toNat / C.ratio * C.ratio
    r.out = C.outOf (C.run f 0 (C.start (A.init s)) N) ∧
    ∀ i : Fin (locAt P.rcvs 0).n, r.traces i = downS P A.timeTaper ⟨P.nt.toNat, fun t =>
      if t < N then sample C.rcv (C.run f 0 (C.start (A.init s)) t).u i else 0⟩ := by
  obtain ⟨cf, hP, hcf, hi, hnt⟩ := scalar_inv h hr
  obtain ⟨r', hr', h1⟩ := scalar_eq hP h.shot h.pml h.src h.rcv hcf hi hnt
  rw [hr] at hr'
  simp only [Except.ok.injEq, Option.some.injEq] at hr'
  rw [hr']
  exact h1

/-! ### Superposition -/

/-- Linear combination of source amplitudes. -/
def comb (α β : ℝ) (a a' : AmpT) : AmpT := ⟨a.nb, a.n, a.nt, fun s i t => α * a.val s i t + β * a'.val s i t⟩

theorem setup_amps {A : UArgs d} {P : Plan d} (h : A.setup.Good P) {a a' : AmpT} (ha : A.amps = some a)
    (h1 : a'.nb = a.nb) (h2 : a'.n = a.n) (h3 : a'.nt = a.nt) :
    ({A with amps := some a'} : UArgs d).setup.Good P :=
  { h with
    nt := by
      have := h.nt
      simp only [UArgs.setup, ha, List.map_cons, Option.map_some, List.map_nil] at this ⊢
      rw [h3]
      exact this
    ampsMatch := by
      have := h.ampsMatch
      simp only [UArgs.setup, ha, List.map_cons, Option.map_some, List.map_nil] at this ⊢
      rw [h2]
      exact this
    amps := by
      refine checkAmps_ok.2 fun b hb => ?_
      obtain rfl : b = a' := by simpa [UArgs.setup] using hb
      have := checkAmps_ok.1 h.amps a (by simp [UArgs.setup, ha])
      rw [h1, h3]
      exact this }

theorem UArgs.NoWavefields.init {A : UArgs d} (h : A.NoWavefields) (s : ℕ) : A.init s = Init.none := by
  simp [UArgs.init, h.1, h.2.1, h.2.2, Init.none]

theorem Cfg.start_none_comb {ns nr : ℕ} (C : Cfg d ns nr ℝ) (α β : ℝ) :
    C.start Init.none = (C.start Init.none).comb α β (C.start Init.none) := by
  ext1
  · funext c; simp [Cfg.start, Init.none, Cfg.createOrPad, St.comb]
  · funext c; simp [Cfg.start, Init.none, Cfg.createOrPad, St.comb]
  · funext k c; simp [Cfg.start, Init.none, Cfg.createOrPad, St.comb, Cfg.zeroInterior]
  · funext k c; simp [Cfg.start, Init.none, Cfg.createOrPad, St.comb, Cfg.zeroInterior]

/-- **C82** Without initial wavefields, a linear combination of source amplitudes gives the linear combination
of the receiver traces and final wavefields, with the resampling of amplitudes and traces included. -/
theorem C82_superposition (A : UArgs d) (P : Plan d) (s : ℕ) (a a' : AmpT) (α β : ℝ) (r r' : UShot d)
    (hA : A.Accepted P s) (hw : A.NoWavefields) (ha : A.amps = some a)
    (h1 : a'.nb = a.nb) (h2 : a'.n = a.n) (h3 : a'.nt = a.nt)
    (hr : A.scalar s = .ok (some r)) (hr' : ({A with amps := some a'} : UArgs d).scalar s = .ok (some r')) :
    ∃ rc, ({A with amps := some (comb α β a a')} : UArgs d).scalar s = .ok (some rc) ∧
      rc.out = r.out.comb α β r'.out ∧
      ∀ l, A.rcv = some l → ∀ i < l.n, (rc.traces i).len = (r.traces i).len ∧
        (r'.traces i).len = (r.traces i).len ∧
        ∀ t, (rc.traces i).val t = α * (r.traces i).val t + β * (r'.traces i).val t := by
  obtain ⟨cf, hG, hcf, hi, hnt⟩ := scalar_inv hA hr
  have hG' := setup_amps hG ha h1 h2 h3
  have hA' : ({A with amps := some a'} : UArgs d).Accepted P s := ⟨plan_ok.2 hG', hA.2, hA.3, hA.4, hA.5⟩
  obtain ⟨rc, hrc, o, t⟩ := scalar_eq (A := {A with amps := some (comb α β a a')})
    (setup_amps hG ha (a' := comb α β a a') rfl rfl rfl) hA.shot hA.pml hA.src hA.rcv hcf hi hnt
  obtain ⟨o1, t1⟩ := scalar_result hA hr
  obtain ⟨o2, t2⟩ := scalar_result hA' hr'
  have hn := (cfg_locations hG hA.shot).2.1
  have hup : ∀ t i, upAmps P A.timeTaper (some (comb α β a a')) s t i =
      α * upAmps P A.timeTaper (some a) s t i + β * upAmps P A.timeTaper (some a') s t i := fun t i => by
    have := upS_comb hG A.timeTaper α β ⟨a.nt, a.val s i⟩ ⟨a'.nt, a'.val s i⟩ h3
    exact congrArg (fun x : Sig ℝ => x.val t) this
  have hin : ∀ a, ({A with amps := a} : UArgs d).init s = Init.none := fun a =>
    UArgs.NoWavefields.init (A := {A with amps := a}) hw s
  have hin0 : A.init s = Init.none := hw.init s
  rw [ha, hin0] at t1 o1
  rw [hin] at t2 o2 t o
  set C := cfg (locAt P.srcs 0).n (locAt P.rcvs 0).n P s with hC
  have hsc : (Born.scaleAmp C fun t i => upAmps P A.timeTaper (some (comb α β a a')) s t i) =
      fun t i => α * Born.scaleAmp C (fun t i => upAmps P A.timeTaper (some a) s t i) t i +
        β * Born.scaleAmp C (fun t i => upAmps P A.timeTaper (some a') s t i) t i := by
    funext t i
    simp only [Born.scaleAmp, hup]
    ring
  have hrun : ∀ m, C.run (Born.scaleAmp C fun t i => upAmps P A.timeTaper (some (comb α β a a')) s t i) 0
      (C.start Init.none) m =
      (C.run (Born.scaleAmp C fun t i => upAmps P A.timeTaper (some a) s t i) 0 (C.start Init.none) m).comb α β
        (C.run (Born.scaleAmp C fun t i => upAmps P A.timeTaper (some a') s t i) 0 (C.start Init.none) m) := fun m => by
    conv_lhs => rw [hsc, C.start_none_comb α β]
    exact C.run_comb α β _ _ _ _ _ _
  refine ⟨rc, hrc, ?_, fun l hl i hil => ?_⟩
  · rw [o, o1, o2, hrun]
    rfl
  · have hi' : i < (locAt P.rcvs 0).n := by rw [hn, hl]; exact hil
    have e1 := t1 ⟨i, hi'⟩
    have e2 := t2 ⟨i, hi'⟩
    have e := t ⟨i, hi'⟩
    simp only at e1 e2 e
    simp only [hrun] at e
    have key : ∀ m, (if m < P.nt.toNat / C.ratio * C.ratio then
        sample C.rcv ((C.run (Born.scaleAmp C fun t i => upAmps P A.timeTaper (some a) s t i) 0
          (C.start Init.none) m).comb α β
        (C.run (Born.scaleAmp C fun t i => upAmps P A.timeTaper (some a') s t i) 0 (C.start Init.none) m)).u
          ⟨i, hi'⟩ else 0) = α * (if m < P.nt.toNat / C.ratio * C.ratio then
        sample C.rcv (C.run (Born.scaleAmp C fun t i => upAmps P A.timeTaper (some a) s t i) 0
          (C.start Init.none) m).u ⟨i, hi'⟩ else 0) + β * (if m < P.nt.toNat / C.ratio * C.ratio then
        sample C.rcv (C.run (Born.scaleAmp C fun t i => upAmps P A.timeTaper (some a') s t i) 0
          (C.start Init.none) m).u ⟨i, hi'⟩ else 0) := fun m => by
      split_ifs
      · exact sample_comb _ _ _ _ _ _
      · ring
    simp only [key] at e
    rw [downS_comb hG, ← e1, ← e2] at e
    have hl2 : (r'.traces i).len = (r.traces i).len := by
      rw [e1, e2]
      exact downS_len hG _ _ _
    exact ⟨by rw [e]; rfl, hl2, fun t => by rw [e]; rfl⟩

/-! ### Reciprocity -/

/-- Sources and receivers change places. -/
def UArgs.exchanged (A : UArgs d) : UArgs d := { A with src := A.rcv, rcv := A.src }

/-- **C83** Without PML and initial wavefields, with one source and one receiver per shot, the receiver trace does not
change when they change places. -/
theorem C83_reciprocity (A : UArgs d) (P : Plan d) (s : ℕ) (l l' : LocT) (r : UShot d)
    (hA : A.Accepted P s) (hw : A.NoWavefields) (hpml : A.pmlWidth = .one (.int 0))
    (hl : A.src = some l) (hl' : A.rcv = some l') (hn : l.n = 1) (hn' : l'.n = 1)
    (hi : ¬l.Ignored d s 0) (hi' : ¬l'.Ignored d s 0) (hr : A.scalar s = .ok (some r)) :
    ∃ r', A.exchanged.scalar s = .ok (some r') ∧ r'.traces 0 = r.traces 0 := by
  obtain ⟨cf, hG, hcf, hint, hnt⟩ := scalar_inv hA hr
  have hsrc := extractLocations_iff.1 hG.srcs
  have hrcv := extractLocations_iff.1 hG.rcvs
  have g1 := hsrc.1 l (by simp [UArgs.setup, hl])
  have g2 := hrcv.1 l' (by simp [UArgs.setup, hl'])
  obtain ⟨n1, n2, L1, L2⟩ := cfg_locations hG hA.shot
  simp only [hl, hn] at n1
  simp only [hl', hn'] at n2
  have hwf := cfg_wf hG hA.shot hA.pml hA.src hA.rcv
  have hw0 : ∀ k, P.w0 k = 0 ∧ P.w1 k = 0 := by
    have := hG.width
    simp only [UArgs.setup, hpml] at this
    have e : setPmlWidth (.one (.int 0)) d = .ok (List.replicate (2 * d) 0) := by
      simp [setPmlWidth, PyNum.toInt, PyNum.toFloat, trunc]
    rw [e] at this
    have e' : P.wL = List.replicate (2 * d) 0 := (Except.ok.inj this).symm
    intro k
    rw [Plan.w0, Plan.w1, e']
    simp only [List.getD_eq_getElem?_getD, List.getElem?_replicate]
    constructor <;> split_ifs <;> rfl
  have hno := (cfg_profiles hG hA.pml 1 1 s).2.2 hw0
  obtain ⟨-, P', cf', hP', hcf', hsh⟩ := scalar_ok.1 hr
  obtain rfl : P = P' := by
    have := plan_ok.2 hP'
    rw [hA.plan] at this
    exact Except.ok.inj this
  obtain rfl : cf = cf' := by
    rw [hcf] at hcf'
    exact Except.ok.inj hcf'
  rw [n1, n2] at hsh hwf
  -- the exchanged call is accepted
  have hG' : A.exchanged.setup.Good {P with srcs := P.rcvs, rcvs := P.srcs} :=
    { hG with
      nb := by
        show getNBatch [A.rcv] _ = _
        rw [hl']
        show Except.ok l'.nb = _
        rw [g2.batch]
      ampsMatch := by
        have := hG.ampsMatch
        simp only [UArgs.setup, UArgs.exchanged, hl, hl', List.map_cons, List.map_nil, Option.map_some, hn,
          hn'] at this ⊢
        exact this
      ext := surveyExtents_swap _ _ hG.ext
      srcs := hG.rcvs
      rcvs := hG.srcs }
  obtain ⟨x, hx⟩ : ∃ x, (cfg 1 1 P s).src 0 = some x := by
    have := (L1 l hl (hA.src l hl) ⟨0, by rw [n1]; exact one_pos⟩).1
    unfold LocT.target at this
    rw [if_neg hi] at this
    exact ⟨_, this⟩
  obtain ⟨y, hy⟩ : ∃ y, (cfg 1 1 P s).rcv 0 = some y := by
    have := (L2 l' hl' (hA.rcv l' hl') ⟨0, by rw [n2]; exact one_pos⟩).1
    unfold LocT.target at this
    rw [if_neg hi'] at this
    exact ⟨_, this⟩
  have hrp := SetupGood.ratio_pos hG
  have hcf0 : 0 < cf := by
    unfold checkCallbackFrequency at hcf
    split at hcf
    · split_ifs at hcf with h1
      cases hcf
      omega
    · cases hcf
  have hpos : 0 < P.ratio * P.interval := mul_pos (by omega) hint
  obtain ⟨q, q', hq, hq', he⟩ := C41_reciprocity (cfg 1 1 P s) hwf hno
    (by show 0 < (P.ratio * P.interval).toNat; omega) hx hy A.grad
    (if A.callback then some cf.toNat else none) P.nt.toNat
    (fun h1 => by
      by_cases hc : A.callback = true
      · simp only [hc, if_true, Option.getD_some]
        omega
      · rw [if_neg hc, Option.getD_none]
        show 0 < P.nt.toNat / (P.ratio * P.interval).toNat
        refine Nat.div_pos ?_ (by omega)
        rcases hnt with h2 | h2 | h2
        · exact absurd h2 hc
        · omega
        · omega)
    (fun t i => upAmps P A.timeTaper A.amps s t i)
  have hin : A.init s = Init.none := hw.init s
  have hin' : A.exchanged.init s = Init.none := UArgs.NoWavefields.init (A := A.exchanged) hw s
  classical
  have hfin : Finite (P.pml false) := finite_of_pmlOk hG hA.pml false
  have e1 : A.shot P cf 1 1 s = .ok (some ⟨q.out, fun i => if h : i < 1 then
      downS P A.timeTaper ⟨P.nt.toNat, fun t => q.rcd t ⟨i, h⟩⟩ else ⟨0, fun _ => 0⟩, q.events⟩) :=
    UArgs.shot_eq hfin (by rw [hin]; exact hq)
  have e2 : A.exchanged.shot {P with srcs := P.rcvs, rcvs := P.srcs} cf 1 1 s =
      .ok (some ⟨q'.out, fun i => if h : i < 1 then
      downS P A.timeTaper ⟨P.nt.toNat, fun t => q'.rcd t ⟨i, h⟩⟩ else ⟨0, fun _ => 0⟩, q'.events⟩) :=
    UArgs.shot_eq (P := {P with srcs := P.rcvs, rcvs := P.srcs}) hfin (by rw [hin']; exact hq')
  rw [e1] at hsh
  simp only [Except.ok.injEq, Option.some.injEq] at hsh
  refine ⟨⟨q'.out, fun i => if h : i < 1 then downS P A.timeTaper ⟨P.nt.toNat, fun t => q'.rcd t ⟨i, h⟩⟩
    else ⟨0, fun _ => 0⟩, q'.events⟩, scalar_ok.2 ⟨(scalar_ok.1 hr).1, _, cf, hG', hcf, ?_⟩, ?_⟩
  · show A.exchanged.shot _ cf (locAt P.rcvs 0).n (locAt P.srcs 0).n s = _
    rw [n1, n2]
    exact e2
  · rw [← hsh]
    simp only [he]

/-! ### Stopping and resuming -/

/-- The first `n` samples of the amplitudes. -/
def first (n : ℕ) (a : AmpT) : AmpT := ⟨a.nb, a.n, n, a.val⟩

/-- The `n` samples of the amplitudes after the first `m`. -/
def later (m n : ℕ) (a : AmpT) : AmpT := ⟨a.nb, a.n, n, fun s i t => a.val s i (m + t)⟩

/-- The call that takes the final wavefields of another as its initial wavefields. -/
def UArgs.resume (A : UArgs d) (nb : ℕ) (shape : Fin d → ℤ) (r : ℕ → UShot d) : UArgs d :=
  { A with
    wfc := some ⟨nb, shape, fun s => (r s).out.wfc⟩
    wfp := some ⟨nb, shape, fun s => (r s).out.wfp⟩
    psi := fun k => some ⟨nb, shape, fun s => (r s).out.psi k⟩
    zeta := fun k => some ⟨nb, shape, fun s => (r s).out.zeta k⟩ }

theorem setup_nt {A : UArgs d} {P : Plan d} (h : A.setup.Good P) {a a' : AmpT} (ha : A.amps = some a)
    (h0 : A.nt = none) (h1 : a'.nb = a.nb) (h2 : a'.n = a.n) :
    ({A with amps := some a'} : UArgs d).setup.Good {P with nt := a'.nt * P.ratio} :=
  { h with
    nt := by
      have := SetupGood.ratio_pos h
      simp only [UArgs.setup, h0, List.map_cons, Option.map_some, List.map_nil, setNt]
      rw [if_neg (by omega)]
      rfl
    ampsMatch := by
      have := h.ampsMatch
      simp only [UArgs.setup, ha, List.map_cons, Option.map_some, List.map_nil] at this ⊢
      rw [h2]
      exact this
    amps := by
      refine checkAmps_ok.2 fun b hb => ?_
      obtain rfl : b = a' := by simpa [UArgs.setup] using hb
      have := checkAmps_ok.1 h.amps a (by simp [UArgs.setup, ha])
      rw [h1]
      exact ⟨this.1, rfl, this.2.2⟩ }

/-- Shape of the wavefields of a call. -/
def wfShape (P : Plan d) : Fin d → ℤ := fun k => (P.ext k).2 - (P.ext k).1 + P.w0 k + P.w1 k

theorem setup_resume {A : UArgs d} {P : Plan d} (h : A.setup.Good P) (r : ℕ → UShot d)
    (hor : A.surveyPad = .none → A.NoWavefields → A.origin = none)
    (hact : A.surveyPad = .none → ∀ l, A.src = some l ∨ A.rcv = some l → ∀ k < d, ∃ s < l.nb, ∃ i < l.n,
      l.val s i k ≠ (ignoreLocation : ℚ)) :
    (A.resume P.nb (wfShape P) r).setup.Good P := by
  refine SetupArgs.Good.rewave (A := A.setup) h (wfs := (A.resume P.nb (wfShape P) r).setup.wfs)
    ⟨_, UArgs.mem_wfs.2 (.inl rfl)⟩ (fun w hw => ?_) (fun hsp hno => hor hsp ⟨?_, ?_, fun k => ⟨?_, ?_⟩⟩)
    fun hsp l hl k hk => ?_
  · rcases UArgs.mem_wfs.1 hw with h1 | h1 | ⟨k, h1⟩ | ⟨k, h1⟩ <;>
    · cases h1
      exact ⟨rfl, rfl⟩
  · exact Option.eq_none_iff_forall_ne_some.2 fun w hw => hno w (UArgs.mem_wfs.2 (.inl hw))
  · exact Option.eq_none_iff_forall_ne_some.2 fun w hw => hno w (UArgs.mem_wfs.2 (.inr (.inl hw)))
  · exact Option.eq_none_iff_forall_ne_some.2 fun w hw => hno w (UArgs.mem_wfs.2 (.inr (.inr (.inl ⟨k, hw⟩))))
  · exact Option.eq_none_iff_forall_ne_some.2 fun w hw => hno w (UArgs.mem_wfs.2 (.inr (.inr (.inr ⟨k, hw⟩))))
  · have hl' : A.src = some l ∨ A.rcv = some l := by
      simp only [UArgs.setup, List.cons_append, List.nil_append, List.mem_cons, List.not_mem_nil,
        or_false] at hl
      exact hl.imp Eq.symm Eq.symm
    have hkd : k < d := by
      have e := extractLocations_iff.1 h.srcs
      have e' := extractLocations_iff.1 h.rcvs
      rcases List.mem_append.1 hl with hl | hl
      · rw [← (e.1 l hl).nd]; exact hk
      · rw [← (e'.1 l hl).nd]; exact hk
    obtain ⟨s, hs, i, hi, hv⟩ := hact hsp l hl' k hkd
    exact List.ne_nil_of_mem (LocT.mem_active.2 ⟨s, hs, i, hi, rfl, hv⟩)

/-- Without upsampling the amplitudes and traces are as given. -/
theorem upS_one {A : SetupArgs d} {P : Plan d} (h : A.Good P) (h1 : P.ratio = 1) (tt : Bool) (x : Sig ℝ) :
    upS P tt x = x := by
  have hv := SetupGood.validate h
  unfold upS upsample
  rw [hv]
  simp only [if_pos (Or.inr h1 : x.len = 0 ∨ P.ratio = 1)]

theorem downS_one {A : SetupArgs d} {P : Plan d} (h : A.Good P) (h1 : P.ratio = 1) (tt : Bool) (x : Sig ℝ) :
    downS P tt x = x := by
  have hv := SetupGood.validate h
  have : x.len = 0 ∨ (P.ratio = 1 ∧ (0 : ℝ) = 0) := .inr ⟨h1, rfl⟩
  unfold downS downsample
  rw [hv]
  simp only [h1, true_and, or_true, if_true]

/-- Results of a call without upsampling, whose number of samples is a multiple of the interval. -/
theorem scalar_result_one {A : UArgs d} {P : Plan d} {s : ℕ} {r : UShot d} {a : AmpT} (h : A.Accepted P s)
    (ha : A.amps = some a) (h1 : P.ratio = 1) (hd : P.interval ∣ a.nt) (hr : A.scalar s = .ok (some r)) :
    let C := cfg (locAt P.srcs 0).n (locAt P.rcvs 0).n P s
    let f := Born.scaleAmp C fun t i => a.val s i t
    r.out = C.outOf (C.run f 0 (C.start (A.init s)) a.nt) ∧
    ∀ i : Fin (locAt P.rcvs 0).n, r.traces i = ⟨a.nt, fun t =>
      if t < a.nt then sample C.rcv (C.run f 0 (C.start (A.init s)) t).u i else 0⟩ := by
  obtain ⟨cf, hG, hcf, hint, hc⟩ := scalar_inv h hr
  obtain ⟨o, t⟩ := scalar_result h hr
  have hnt : P.nt.toNat = a.nt := by
    have := (checkAmps_ok.1 hG.amps a (by simp [UArgs.setup, ha])).2.1
    rw [h1] at this
    omega
  obtain ⟨iv, hiv⟩ := Int.eq_ofNat_of_zero_le hint.le
  have hrat : (cfg (locAt P.srcs 0).n (locAt P.rcvs 0).n P s).ratio = iv := by
    show (P.ratio * P.interval).toNat = iv
    rw [h1, one_mul, hiv]
    rfl
  have hd' : iv ∣ a.nt := by rw [hiv] at hd; exact_mod_cast hd
  have hf : upAmps P A.timeTaper A.amps s = fun t i => a.val s i t := by
    rw [ha]
    funext t i
    show (upS P A.timeTaper _).val t = _
    rw [upS_one hG h1]
  rw [hf, hrat, hnt, Nat.div_mul_cancel hd'] at o
  refine ⟨o, fun i => ?_⟩
  have := t i
  rw [hf, hrat, hnt, Nat.div_mul_cancel hd', downS_one hG h1] at this
  exact this

/-- **C84** A call without upsampling can be made in two parts: a call with the first `n₁` samples of
the source amplitudes and, with the wavefields that it returns and otherwise the same arguments, one with
the other samples.  Both are accepted, the second returns the final wavefields of the single call, and
the traces are those of the single call cut after `n₁` samples. -/
theorem C84_stop_and_resume {A : UArgs d} {P : Plan d} {a : AmpT} {n₁ n₂ : ℕ} {r : ℕ → UShot d}
    (hA : ∀ s < P.nb, A.Accepted P s) (ha : A.amps = some a) (hn : a.nt = n₁ + n₂) (hnt : A.nt = none)
    (hratio : P.ratio = 1) (h₁ : P.interval ∣ n₁) (h₂ : P.interval ∣ n₂)
    (hor : A.surveyPad = .none → A.NoWavefields → A.origin = none)
    (hact : A.surveyPad = .none → ∀ l, A.src = some l ∨ A.rcv = some l → ∀ k < d, ∃ s < l.nb, ∃ i < l.n,
      l.val s i k ≠ (ignoreLocation : ℚ))
    (hr : ∀ s < P.nb, A.scalar s = .ok (some (r s))) :
    ∃ r₁ r₂ : ℕ → UShot d,
      (∀ s < P.nb, ({A with amps := some (first n₁ a)} : UArgs d).scalar s = .ok (some (r₁ s))) ∧
      (∀ s < P.nb, (({A with amps := some (later n₁ n₂ a)} : UArgs d).resume P.nb (wfShape P) r₁).scalar s =
        .ok (some (r₂ s))) ∧
      ∀ s < P.nb, (r₂ s).out = (r s).out ∧ ∀ l, A.rcv = some l → ∀ i < l.n,
        ((r s).traces i).len = n₁ + n₂ ∧ ((r₁ s).traces i).len = n₁ ∧ ((r₂ s).traces i).len = n₂ ∧
        (∀ t < n₁, ((r s).traces i).val t = ((r₁ s).traces i).val t) ∧
        ∀ t < n₂, ((r s).traces i).val (n₁ + t) = ((r₂ s).traces i).val t := by
  rcases Nat.eq_zero_or_pos P.nb with hnb | hnb
  · exact ⟨r, r, fun s hs => by omega, fun s hs => by omega, fun s hs => by omega⟩
  obtain ⟨cf, hG, hcf, hint, hc⟩ := scalar_inv (hA 0 hnb) (hr 0 hnb)
  have hG₁ := setup_nt hG ha (a' := first n₁ a) hnt rfl rfl
  have hG₂ := setup_nt hG ha (a' := later n₁ n₂ a) hnt rfl rfl
  have hG₂' := fun r₁ => setup_resume hG₂ r₁ hor hact
  have hPnt : P.nt = (n₁ + n₂ : ℕ) := by
    have := (checkAmps_ok.1 hG.amps a (by simp [UArgs.setup, ha])).2.1
    rw [hratio, hn] at this
    omega
  have hc' : ∀ n : ℕ, P.interval ∣ n → A.callback = true ∨ P.ratio * P.interval ≤ n * P.ratio ∨
      (n : ℤ) * P.ratio ≤ 0 := by
    intro n hd
    rw [hratio, one_mul, mul_one]
    rcases Nat.eq_zero_or_pos n with h0 | h0
    · right; right; omega
    · exact .inr (.inl (Int.le_of_dvd (by omega) hd))
  have k1 : ∀ s, ∃ q, s < P.nb →
      ({A with amps := some (first n₁ a)} : UArgs d).scalar s = .ok (some q) := by
    intro s
    by_cases hs : s < P.nb
    · obtain ⟨q, hq⟩ := scalar_eq hG₁ hs (hA s hs).pml (hA s hs).src (hA s hs).rcv hcf hint (hc' n₁ h₁)
      exact ⟨q, fun _ => hq.1⟩
    · exact ⟨r 0, fun h => absurd h hs⟩
  choose r₁ hr₁ using k1
  have k2 : ∀ s, ∃ q, s < P.nb →
      (({A with amps := some (later n₁ n₂ a)} : UArgs d).resume P.nb (wfShape P) r₁).scalar s =
        .ok (some q) := by
    intro s
    by_cases hs : s < P.nb
    · obtain ⟨q, hq⟩ := scalar_eq (hG₂' r₁) hs (hA s hs).pml (hA s hs).src (hA s hs).rcv hcf hint (hc' n₂ h₂)
      exact ⟨q, fun _ => hq.1⟩
    · exact ⟨r 0, fun h => absurd h hs⟩
  choose r₂ hr₂ using k2
  refine ⟨r₁, r₂, hr₁, hr₂, fun s hs => ?_⟩
  obtain ⟨o₁, t₁⟩ := scalar_result_one ⟨plan_ok.2 hG₁, hs, (hA s hs).pml, (hA s hs).src, (hA s hs).rcv⟩ rfl
    hratio h₁ (hr₁ s hs)
  obtain ⟨o₂, t₂⟩ := scalar_result_one ⟨plan_ok.2 (hG₂' r₁), hs, (hA s hs).pml, (hA s hs).src, (hA s hs).rcv⟩
    rfl hratio h₂ (hr₂ s hs)
  obtain ⟨o, t⟩ := scalar_result_one (hA s hs) ha hratio
    (by rw [hn, Nat.cast_add]; exact dvd_add h₁ h₂) (hr s hs)
  have hwf := cfg_wf hG hs (hA s hs).pml (hA s hs).src (hA s hs).rcv
  obtain ⟨-, n2, -⟩ := cfg_locations hG hs
  rw [hn] at o t
  generalize hC : cfg (locAt P.srcs 0).n (locAt P.rcvs 0).n P s = C at hwf o t
  generalize hff : (Born.scaleAmp C fun t i => a.val s i t) = f at o t
  replace o₁ : (r₁ s).out = C.outOf (C.run f 0 (C.start (A.init s)) n₁) := by
    subst hC hff
    exact o₁
  replace t₁ : ∀ i : Fin (locAt P.rcvs 0).n, (r₁ s).traces i = ⟨n₁, fun t =>
      if t < n₁ then sample C.rcv (C.run f 0 (C.start (A.init s)) t).u i else 0⟩ := by
    subst hC hff
    exact t₁
  replace o₂ : (r₂ s).out = C.outOf (C.run (fun t => f (n₁ + t)) 0 (C.start (r₁ s).out.toInit) n₂) := by
    subst hC hff
    exact o₂
  replace t₂ : ∀ i : Fin (locAt P.rcvs 0).n, (r₂ s).traces i = ⟨n₂, fun t =>
      if t < n₂ then sample C.rcv (C.run (fun t => f (n₁ + t)) 0 (C.start (r₁ s).out.toInit) t).u i else 0⟩ := by
    subst hC hff
    exact t₂
  rw [o₁, C.start_outOf (C.run_good hwf f 0 (C.start_good (A.init s)) n₁)] at o₂ t₂
  have hrun : ∀ n, C.run f 0 (C.start (A.init s)) (n₁ + n) =
      C.run (fun t => f (n₁ + t)) 0 (C.run f 0 (C.start (A.init s)) n₁) n := fun n => by
    rw [C.run_add, Nat.zero_add, C.run_shift f _ n₁ n]
  refine ⟨by rw [o, o₂, hrun], fun l hl i hi => ?_⟩
  rw [hl] at n2
  have e := t ⟨i, by rw [n2]; exact hi⟩
  have e₁ := t₁ ⟨i, by rw [n2]; exact hi⟩
  have e₂ := t₂ ⟨i, by rw [n2]; exact hi⟩
  simp only at e e₁ e₂
  rw [e, e₁, e₂]
  refine ⟨rfl, rfl, rfl, fun t ht => ?_, fun t ht => ?_⟩
  · simp only
    rw [if_pos ht, if_pos (by omega)]
  · simp only
    rw [if_pos ht, if_pos (by omega), hrun]

/-! ### Example

Two cells of the model of `exU` with one source and one receiver, a time step that is small enough, and a
PML of `w` cells. -/

def exOne (x y : ℚ) : LocT := ⟨1, 1, 2, fun _ _ k => if k = 0 then x else y⟩

noncomputable def exV (w : ℤ) : UArgs 2 :=
  { exU .none with
    dt := 1 / 1000, amps := some ⟨1, 1, 6, fun _ _ t => 1 + t⟩, src := some (exOne 2 3)
    rcv := some (exOne 5 4), pmlWidth := .one (.int w), interval := .int 2 }

noncomputable def exQ (w : ℤ) : Plan 2 :=
  { nb := 1, dxL := [3, 4], maxVel := 1000, dt := (1 / 1000 : ℚ) / (1 : ℤ), ratio := 1, accZ := 4
    wL := [w, w, w, w], freq := 25, nt := 6, interval := 2, ff := 0, tf := 0, ext := ![(0, 7), (0, 9)]
    models := [modelOf ![(0, 7), (0, 9)]
      (padList (d := 2) (padBegin 4 [w, w, w, w]) (padEnd false 4 [w, w, w, w]))
      (⟨none, ![7, 9], fun _ c => 990 + c 0⟩, .replicate)]
    srcs := [idxOf ![(0, 7), (0, 9)] (padBegin 4 [w, w, w, w]) (padEnd false 4 [w, w, w, w]) (exOne 2 3)]
    rcvs := [idxOf ![(0, 7), (0, 9)] (padBegin 4 [w, w, w, w]) (padEnd false 4 [w, w, w, w]) (exOne 5 4)] }

theorem exV_cfl : cflConditionN [3, 4] ((1 / 1000 : ℚ) : ℝ) 1000 = .ok (((1 / 1000 : ℚ) : ℝ) / (1 : ℤ), 1) := by
  have hs : Real.sqrt ([3, 4].map fun h : ℝ => 1 / h ^ 2).sum = 5 / 12 := by
    rw [show ([3, 4].map fun h : ℝ => 1 / h ^ 2).sum = (5 / 12) ^ 2 by norm_num]
    exact Real.sqrt_sq (by norm_num)
  have hr : ⌈|((1 / 1000 : ℚ) : ℝ)| / maxDt [3, 4] 1000 1e-15 0.6⌉ = 1 := by
    rw [Int.ceil_eq_iff, maxDt, hs]
    push_cast
    rw [abs_of_pos (by norm_num)]
    norm_num
  unfold cflConditionN
  simp only [hr, List.cons_ne_nil, if_false]
  norm_num

theorem exV_good (w : ℤ) (hw : w = 0 ∨ w = 3) : (exV w).setup.Good (exQ w) := by
  have hg : ∀ x y, (x = 2 ∧ y = 3) ∨ (x = 5 ∧ y = 4) → ∀ l, some l ∈ [some (exOne x y)] →
      LocGood (1 / 10) (![(0, 7), (0, 9)] : Fin 2 → ℤ × ℤ) (padBegin 4 [w, w, w, w])
      (padEnd false 4 [w, w, w, w]) 1 l := by
    intro x y hxy l hl
    obtain rfl : l = exOne x y := by simpa using hl
    refine ⟨?_, rfl, rfl, ?_⟩
    · rcases hxy with ⟨rfl, rfl⟩ | ⟨rfl, rfl⟩ <;> decide +kernel
    · rcases hxy with ⟨rfl, rfl⟩ | ⟨rfl, rfl⟩ <;> rcases hw with rfl | rfl <;> decide +kernel
  refine ⟨rfl, rfl, ?_, ?_, rfl, ?_, ?_, rfl, rfl, ?_, ?_, rfl, ?_, ?_, ?_, ?_, ?_, ?_⟩
  · simp [exV, exU, UArgs.setup, setMaxVelR, PyNum.toFloat, exQ]
  · have := exV_cfl
    simpa [exQ, exV, UArgs.setup] using this
  · rcases hw with rfl | rfl <;> rfl
  · simp [exQ, exV, exU, UArgs.setup, setPmlFreq]
  · simp [exQ, exV, exU, UArgs.setup, setFrac, PyNum.toFloat]
  · simp [exQ, exV, exU, UArgs.setup, setFrac, PyNum.toFloat]
  · refine checkAmps_ok.2 fun a ha => ?_
    simp only [exV, UArgs.setup, List.mem_singleton, Option.some.injEq] at ha
    subst ha
    exact ⟨rfl, rfl, by simp [Resample.validate, exQ]⟩
  · show surveyExtents ![7, 9] [some (exOne 2 3), some (exOne 5 4)] [none, none, none, none, none, none] .none none
      (exQ w).w0 (exQ w).w1 = .ok ![(0, 7), (0, 9)]
    rcases hw with rfl | rfl <;> decide +kernel
  · refine (extractModels_iff (by norm_num [exQ] : 0 < (exQ w).nb)).2 ⟨fun m hm => ?_, rfl⟩
    simp only [exV, exU, UArgs.setup, List.mem_singleton] at hm
    subst hm
    refine ⟨rfl, .inl rfl, fun _ => ?_⟩
    show ∀ k, 0 < sliceLen ((![(0, 7), (0, 9)] : Fin 2 → ℤ × ℤ) k).1 ((![(0, 7), (0, 9)] : Fin 2 → ℤ × ℤ) k).2
      ((![7, 9] : Fin 2 → ℤ) k)
    decide
  · exact extractLocations_iff.2 ⟨hg 2 3 (.inl ⟨rfl, rfl⟩), rfl⟩
  · exact extractLocations_iff.2 ⟨hg 5 4 (.inr ⟨rfl, rfl⟩), rfl⟩
  · exact prepareWavefields_ok.2 fun w hw => by simp [exV, exU, UArgs.setup] at hw

theorem exOne_whole {x y : ℚ} (hx : 0 ≤ x) (hy : 0 ≤ y) (s i : ℕ) :
    ∀ k < 2, (exOne x y).val s i k ≠ (ignoreLocation : ℚ) := by
  intro k _
  have : (ignoreLocation : ℚ) < 0 := by decide +kernel
  show (if k = 0 then x else y) ≠ _
  split_ifs
  · intro h; rw [h] at hx; exact absurd this (not_lt.2 hx)
  · intro h; rw [h] at hy; exact absurd this (not_lt.2 hy)

theorem exV_accepted (w : ℤ) (hw : w = 0 ∨ w = 3) (s : ℕ) (hs : s < 1) : (exV w).Accepted (exQ w) s := by
  refine ⟨plan_ok.2 (exV_good w hw), hs, .inl (by norm_num [exQ]), fun l hl => ?_, fun l hl => ?_⟩
  · cases hl
    exact fun i _ => .inr (exOne_whole (by norm_num) (by norm_num) s i)
  · cases hl
    exact fun i _ => .inr (exOne_whole (by norm_num) (by norm_num) s i)

theorem exV_result (w : ℤ) (hw : w = 0 ∨ w = 3) (s : ℕ) (hs : s < 1) :
    ∃ r, (exV w).scalar s = .ok (some r) := by
  have h := exV_accepted w hw s hs
  obtain ⟨r, hr, -⟩ := scalar_eq (cf := 1) (exV_good w hw) h.shot h.pml h.src h.rcv rfl
    (by norm_num [exQ]) (.inr (.inl (by norm_num [exQ])))
  exact ⟨r, hr⟩

/-- Twice the amplitudes of `exU` less other ones. -/
example : ∃ r r' rc, (exU .none).scalar 0 = .ok (some r) ∧
    ({exU .none with amps := some ⟨2, 2, 5, fun _ _ t => t⟩} : UArgs 2).scalar 0 = .ok (some r') ∧
    ({exU .none with amps := some (comb 2 (-1) ⟨2, 2, 5, fun s i t => s + i * t⟩ ⟨2, 2, 5, fun _ _ t => t⟩)} :
      UArgs 2).scalar 0 = .ok (some rc) ∧ rc.out = r.out.comb 2 (-1) r'.out := by
  have hl : ∀ l, some exLoc = some l → WholeIgnored 2 l 0 := fun l hl => by
    cases hl
    exact exLoc_whole 0 (by decide)
  obtain ⟨r, hr⟩ := exU_result exU_whole 0 (by decide)
  obtain ⟨r', hr', -⟩ := scalar_eq (cf := 1) (setup_amps exU_whole (a' := ⟨2, 2, 5, fun _ _ t => t⟩) rfl rfl rfl rfl)
    (s := 0) (by decide) (.inl (by norm_num [exP])) hl hl rfl (by norm_num [exP]) (.inr (.inl (by norm_num [exP])))
  obtain ⟨rc, hrc, h, -⟩ := C82_superposition (exU .none) _ 0 _ ⟨2, 2, 5, fun _ _ t => t⟩ 2 (-1) r r'
    ⟨plan_ok.2 exU_whole, by decide, .inl (by norm_num [exP]), hl, hl⟩ ⟨rfl, rfl, fun _ => ⟨rfl, rfl⟩⟩ rfl rfl rfl rfl
    hr hr'
  exact ⟨r, r', rc, hr, hr', hrc, h⟩

/-- Without PML the source and the receiver can be exchanged. -/
example : ∃ r r', (exV 0).scalar 0 = .ok (some r) ∧ (exV 0).exchanged.scalar 0 = .ok (some r') ∧
    r'.traces 0 = r.traces 0 := by
  have hni : ∀ {x y : ℚ}, 0 ≤ x → 0 ≤ y → ¬(exOne x y).Ignored 2 0 0 := fun hx hy h =>
    exOne_whole hx hy 0 0 0 (by decide) (h 0 (by decide))
  obtain ⟨r, hr⟩ := exV_result 0 (.inl rfl) 0 one_pos
  obtain ⟨r', hr', h⟩ := C83_reciprocity (exV 0) (exQ 0) 0 (exOne 2 3) (exOne 5 4) r
    (exV_accepted 0 (.inl rfl) 0 one_pos) ⟨rfl, rfl, fun _ => ⟨rfl, rfl⟩⟩ rfl
    rfl rfl rfl rfl (hni (by norm_num) (by norm_num))
    (hni (by norm_num) (by norm_num)) hr
  exact ⟨r, r', hr, hr', h⟩

/-- Six samples in two calls. -/
example : ∃ r r₁ r₂ : ℕ → UShot 2, (∀ s < 1, (exV 3).scalar s = .ok (some (r s))) ∧
    (∀ s < 1, ({exV 3 with amps := some (first 4 ⟨1, 1, 6, fun _ _ t => 1 + t⟩)} : UArgs 2).scalar s =
      .ok (some (r₁ s))) ∧
    (∀ s < 1, (({exV 3 with amps := some (later 4 2 ⟨1, 1, 6, fun _ _ t => 1 + t⟩)} : UArgs 2).resume 1
      (wfShape (exQ 3)) r₁).scalar s = .ok (some (r₂ s))) ∧ ∀ s < 1, (r₂ s).out = (r s).out := by
  obtain ⟨q, hq⟩ := exV_result 3 (.inr rfl) 0 one_pos
  obtain ⟨r₁, r₂, h1, h2, h3⟩ := C84_stop_and_resume (A := exV 3) (P := exQ 3) (n₁ := 4) (n₂ := 2) (r := fun _ => q)
    (exV_accepted 3 (.inr rfl)) rfl rfl rfl rfl (by show (2 : ℤ) ∣ 4; decide) (by show (2 : ℤ) ∣ 2; decide)
    (fun _ _ => rfl) (fun _ l hl k hk => by
      rcases hl with hl | hl <;> cases hl
      · exact ⟨0, one_pos, 0, one_pos, exOne_whole (by norm_num) (by norm_num) 0 0 k hk⟩
      · exact ⟨0, one_pos, 0, one_pos, exOne_whole (by norm_num) (by norm_num) 0 0 k hk⟩)
    (fun s hs => by obtain rfl : s = 0 := by have : s < 1 := hs; omega
                    exact hq)
  exact ⟨fun _ => q, r₁, r₂, fun s hs => by obtain rfl : s = 0 := by omega
                                            exact hq, h1, h2, fun s hs => (h3 s hs).1⟩

end Dw.Scalar
