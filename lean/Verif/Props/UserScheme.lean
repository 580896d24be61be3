import Verif.Scalar.OnGrid
import Verif.Props.ScalarUserMore

/-!
# C90: what a call of `scalar` computes

From the arguments of the user to the returned tensors, in the coordinates of the model.
-/

namespace Dw.Scalar

open Setup Resample

variable {d : ℕ}

theorem v_at {A : UArgs d} {P : Plan d} {s : ℕ} (h : A.setup.Good P) (hs : s < P.nb) {ns nr : ℕ} (c : Cell d) :
    (cfg ns nr P s).v (P.at c) = P.grid.extend (A.v.shot s) c := by
  have hnb : 0 < P.nb := by omega
  have hv := model_grid h hnb (UArgs.Good.ext_lt h hnb) A.timeTaper s 0 A.v rfl c
  rw [← hv]
  have e := ((extractModels_iff hnb).1 h.models).2
  show shotModel P.models 0 s _ = _
  unfold shotModel ShotIn.model shotIn
  rw [e]
  rfl

/-- C90, and what a callback sees. -/
theorem scheme_events (A : UArgs d) (P : Plan d) (s : ℕ) (cf : ℤ) (hplan : A.setup.plan = .ok P)
    (hs : s < P.nb) (hP : PmlOk P) (hsrc : ∀ l, A.src = some l → WholeIgnored d l s)
    (hrcv : ∀ l, A.rcv = some l → WholeIgnored d l s)
    (hcf : checkCallbackFrequency A.callbackFreq = .ok cf) (hi : 0 < P.interval)
    (hnt : A.callback = true ∨ P.ratio * P.interval ≤ P.nt ∨ P.nt ≤ 0) :
    ∃ r u psi zeta, A.scalar s = .ok (some r) ∧ P.Shows A.callback cf r.events u psi zeta ∧
      P.grid.Wave (P.grid.extend (A.v.shot s)) (fun t => locSum A.src s fun i => upAmps P A.timeTaper A.amps s t i)
        u psi zeta ∧
      (∀ c, P.grid.In c → u 1 c = P.given A.wfc s c ∧ u 0 c = P.given A.wfp s c ∧ ∀ k,
        (P.Between k (c k) → psi 0 k c = 0 ∧ zeta 0 k c = 0) ∧
        (¬P.Between k (c k) → psi 0 k c = P.given (A.psi k) s c ∧ zeta 0 k c = P.given (A.zeta k) s c)) ∧
      let N := P.nt.toNat / (P.ratio * P.interval).toNat * (P.ratio * P.interval).toNat
      (∀ c, r.out.wfc (P.index c) = u (N + 1) c ∧ r.out.wfp (P.index c) = u N c ∧
        ∀ k, r.out.psi k (P.index c) = psi N k c ∧ r.out.zeta k (P.index c) = zeta N k c) ∧
      ∀ i < locCount A.rcv, r.traces i = downS P A.timeTaper ⟨P.nt.toNat, fun t =>
        if t < N then locValue A.rcv s i (u (t + 1)) else 0⟩ := by
  have h := plan_ok.1 hplan
  obtain ⟨r, hr, hout, htr, hev⟩ := scalar_eq_events h hs hP hsrc hrcv hcf hi hnt
  obtain ⟨n1, n2, l1, l2⟩ := cfg_locations h hs
  have hwf := cfg_wf h hs hP hsrc hrcv
  have hC : OnGrid P (cfg (locAt P.srcs 0).n (locAt P.rcvs 0).n P s) := cfg_onGrid P s
  have hv := fun c => v_at (ns := (locAt P.srcs 0).n) (nr := (locAt P.rcvs 0).n) h hs c
  have hdt : (cfg (locAt P.srcs 0).n (locAt P.rcvs 0).n P s).dt = P.dt := rfl
  have hrat : (cfg (locAt P.srcs 0).n (locAt P.rcvs 0).n P s).ratio = (P.ratio * P.interval).toNat := rfl
  generalize cfg (locAt P.srcs 0).n (locAt P.rcvs 0).n P s = C at *
  set f := Born.scaleAmp C fun t i => upAmps P A.timeTaper A.amps s t i with hf
  have hsloc : ∀ i, C.src i = (locCell A.src s i).map P.at := fun i => by
    cases hA : A.src with
    | none => rw [hA] at n1; exact absurd i.isLt (by simp [n1])
    | some l => rw [(l1 l hA (hsrc l hA) i).1, target_eq]
  have hrloc : ∀ i, C.rcv i = (locCell A.rcv s i).map P.at := fun i => by
    cases hA : A.rcv with
    | none => rw [hA] at n2; exact absurd i.isLt (by simp [n2])
    | some l => rw [(l2 l hA (hrcv l hA) i).1, target_eq]
  have hns : (locAt P.srcs 0).n = locCount A.src := by rw [n1]; cases A.src <;> rfl
  have hnr : (locAt P.rcvs 0).n = locCount A.rcv := by rw [n2]; cases A.rcv <;> rfl
  set st := C.run f 0 (C.start (A.init s)) with hst
  have hgood : ∀ t, C.Good (st t) := C.run_good hwf f 0 (C.start_good _)
  have hnext : ∀ t, st (t + 1) = C.next (f t) (st t) := fun t => by
    simp only [hst, Cfg.run, Nat.zero_add]
  have hp : ∀ t, (st (t + 1)).p = (st t).u := fun t => by rw [hnext]; rfl
  have hq : ∀ t c, inject C.src (f t) (P.at c) = -(P.grid.extend (A.v.shot s) c ^ 2 * P.dt ^ 2 *
      locSum A.src s (fun i => upAmps P A.timeTaper A.amps s t i) c) := fun t c => by
    rw [← inject_at hns hsloc, ← hv c]
    unfold inject
    rw [Finset.mul_sum, ← Finset.sum_neg_distrib]
    refine Finset.sum_congr rfl fun i _ => ?_
    split_ifs with hi
    · simp only [hf, Born.scaleAmp, hi, Born.gatherAt, Option.getD_some, hdt]
      ring
    · ring
  refine ⟨r, fun t c => (st t).p (P.at c), fun t k c => (st t).psi k (P.at c), fun t k c => (st t).zeta k (P.at c),
    hr, ?_, hC.wave h (UArgs.Good.ext_lt h (by omega)) hP hgood hnext (fun t c _ => hq t c) hv, fun c hc => ?_,
    fun c => ?_, fun i hi => ?_⟩
  · unfold Plan.Shows Plan.callSteps
    rw [hev, ← hrat]
    cases A.callback with
    | false => exact ⟨rfl, fun e he => (List.not_mem_nil he).elim⟩
    | true =>
        refine ⟨by simp only [if_true, Cfg.eventsOf, List.map_map]; rfl, fun e he => ?_⟩
        simp only [if_true, Cfg.eventsOf, List.mem_map, List.mem_range] at he
        obtain ⟨j, -, rfl⟩ := he
        exact fun c => ⟨(congrFun (hp _) _).symm, rfl, fun k => ⟨rfl, rfl⟩⟩
  · have := hC.start A.wfc A.wfp A.psi A.zeta s c hc
    exact ⟨(congrFun (hp 0) _).trans this.1, this.2.1, this.2.2⟩
  · rw [hout, ← hrat]
    have := hC.out (st (P.nt.toNat / C.ratio * C.ratio)) c
    exact ⟨this.1.trans (congrFun (hp _) _).symm, this.2⟩
  · have hi' : i < (locAt P.rcvs 0).n := by rw [hnr]; exact hi
    have := htr ⟨i, hi'⟩
    rw [this]
    congr 2
    funext t
    rw [← hrat]
    refine if_congr Iff.rfl ?_ rfl
    simp only [hp]
    exact sample_at hrloc _ _

/-- **C90** A call of `scalar` that passes the checks computes the solution of the discretised wave equation
with PML (`Spec/Grid.lean`).  Here the part of the model in use, the PML widths and the time step are those
of the plan; the velocity is continued into the PML by its values at the edge; the sources act, with their
amplitudes resampled to the time step, in the cells of the model that the user named, and the receivers record
there; the initial and final wavefields are indexed from the first cell of the PML. -/
theorem C90_scalar_scheme (A : UArgs d) (P : Plan d) (s : ℕ) (cf : ℤ) (hplan : A.setup.plan = .ok P)
    (hs : s < P.nb) (hP : PmlOk P) (hsrc : ∀ l, A.src = some l → WholeIgnored d l s)
    (hrcv : ∀ l, A.rcv = some l → WholeIgnored d l s)
    (hcf : checkCallbackFrequency A.callbackFreq = .ok cf) (hi : 0 < P.interval)
    (hnt : A.callback = true ∨ P.ratio * P.interval ≤ P.nt ∨ P.nt ≤ 0) :
    ∃ r u psi zeta, A.scalar s = .ok (some r) ∧
      P.grid.Wave (P.grid.extend (A.v.shot s)) (fun t => locSum A.src s fun i => upAmps P A.timeTaper A.amps s t i)
        u psi zeta ∧
      (∀ c, P.grid.In c → u 1 c = P.given A.wfc s c ∧ u 0 c = P.given A.wfp s c ∧ ∀ k,
        (P.Between k (c k) → psi 0 k c = 0 ∧ zeta 0 k c = 0) ∧
        (¬P.Between k (c k) → psi 0 k c = P.given (A.psi k) s c ∧ zeta 0 k c = P.given (A.zeta k) s c)) ∧
      let N := P.nt.toNat / (P.ratio * P.interval).toNat * (P.ratio * P.interval).toNat
      (∀ c, r.out.wfc (P.index c) = u (N + 1) c ∧ r.out.wfp (P.index c) = u N c ∧
        ∀ k, r.out.psi k (P.index c) = psi N k c ∧ r.out.zeta k (P.index c) = zeta N k c) ∧
      ∀ i < locCount A.rcv, r.traces i = downS P A.timeTaper ⟨P.nt.toNat, fun t =>
        if t < N then locValue A.rcv s i (u (t + 1)) else 0⟩ := by
  obtain ⟨r, u, psi, zeta, h1, -, h2⟩ := scheme_events A P s cf hplan hs hP hsrc hrcv hcf hi hnt
  exact ⟨r, u, psi, zeta, h1, h2⟩

/-! ### Without resampling -/

/-- **C90** for a time step that is small enough, a number of time steps divisible by
`model_gradient_sampling_interval`, and no initial wavefields: the
traces are, at the receivers, those of the one solution that starts from zero, with the amplitudes as given. -/
theorem C90_traces (A : UArgs d) (P : Plan d) (s : ℕ) (cf : ℤ) (a : AmpT) (hplan : A.setup.plan = .ok P)
    (hs : s < P.nb) (hP : PmlOk P) (hsrc : ∀ l, A.src = some l → WholeIgnored d l s)
    (hrcv : ∀ l, A.rcv = some l → WholeIgnored d l s)
    (hcf : checkCallbackFrequency A.callbackFreq = .ok cf) (hratio : P.ratio = 1) (hint : 0 < P.interval)
    (hdiv : P.interval ∣ P.nt) (ha : A.amps = some a) (hw : A.wfc = none ∧ A.wfp = none ∧ ∀ k, A.psi k = none ∧ A.zeta k = none)
    (u : ℕ → Fld d ℝ) (psi zeta : ℕ → Fin d → Fld d ℝ)
    (hu : P.grid.Wave (P.grid.extend (A.v.shot s)) (fun t => locSum A.src s fun i => a.val s i t) u psi zeta)
    (h0 : ∀ c, u 1 c = 0 ∧ u 0 c = 0 ∧ ∀ k, psi 0 k c = 0 ∧ zeta 0 k c = 0) :
    ∃ r, A.scalar s = .ok (some r) ∧ ∀ i < locCount A.rcv, (r.traces i).len = P.nt.toNat ∧
      ∀ t < P.nt.toNat, (r.traces i).val t = locValue A.rcv s i (u (t + 1)) := by
  have h := plan_ok.1 hplan
  obtain ⟨r, u', psi', zeta', hr, hwave, hinit, -, htr⟩ := C90_scalar_scheme A P s cf hplan hs hP hsrc hrcv hcf
    hint (by
      rw [hratio, one_mul]
      rcases le_or_gt P.nt 0 with h1 | h1
      · exact .inr (.inr h1)
      · exact .inr (.inl (Int.le_of_dvd h1 hdiv)))
  have hq : (fun t => locSum A.src s fun i => upAmps P A.timeTaper A.amps s t i) =
      fun t => locSum (d := d) A.src s fun i => a.val s i t := by
    funext t
    congr 1
    funext i
    rw [ha]
    simp only [upAmps, upS_one h hratio]
  rw [hq] at hwave
  obtain ⟨w1, w2, w3⟩ := hw
  have e : u' = u := by
    refine (hwave.unique hu ?_).1
    intro c
    by_cases hc : P.grid.In c
    · obtain ⟨i1, i2, i3⟩ := hinit c hc
      rw [i1, i2, w1, w2, (h0 c).1, (h0 c).2.1]
      refine ⟨rfl, rfl, fun k => ?_⟩
      rw [((h0 c).2.2 k).1, ((h0 c).2.2 k).2]
      by_cases hb : P.Between k (c k)
      · exact (i3 k).1 hb
      · have := (i3 k).2 hb
        rw [(w3 k).1, (w3 k).2] at this
        exact this
    · rw [(hwave.outside 1 c hc).1, (hwave.outside 0 c hc).1, (h0 c).1, (h0 c).2.1]
      refine ⟨rfl, rfl, fun k => ?_⟩
      rw [((h0 c).2.2 k).1, ((h0 c).2.2 k).2]
      exact (hwave.outside 0 c hc).2 k
  subst e
  refine ⟨r, hr, fun i hi => ?_⟩
  rw [htr i hi, downS_one h hratio]
  refine ⟨rfl, fun t ht => ?_⟩
  have hN : P.nt.toNat / (P.ratio * P.interval).toNat * (P.ratio * P.interval).toNat = P.nt.toNat := by
    rw [hratio, one_mul]
    obtain ⟨m, hm⟩ := hdiv
    have h1 : (P.interval.toNat : ℤ) = P.interval := Int.toNat_of_nonneg hint.le
    have h2 : 0 ≤ m := by
      by_contra hm0
      have : P.nt < 0 := by rw [hm]; exact mul_neg_of_pos_of_neg hint (by omega)
      omega
    have h3 : P.nt.toNat = P.interval.toNat * m.toNat := by
      zify
      rw [h1, Int.toNat_of_nonneg h2, ← hm, Int.toNat_of_nonneg (by omega)]
    rw [h3, Nat.mul_div_cancel_left _ (by omega), mul_comm]
  simp only [hN]
  rw [if_pos ht]

example : ∃ r u psi zeta, (exU .none).scalar 1 = .ok (some r) ∧
    (exP ![(0, 7), (0, 9)]).grid.Wave ((exP ![(0, 7), (0, 9)]).grid.extend ((exU .none).v.shot 1))
      (fun t => locSum (exU .none).src 1 fun i => upAmps (exP ![(0, 7), (0, 9)]) (exU .none).timeTaper
        (exU .none).amps 1 t i) u psi zeta := by
  have hl : ∀ l, some exLoc = some l → WholeIgnored 2 l 1 := fun l hl => by
    cases hl
    exact exLoc_whole 1 (by decide)
  obtain ⟨r, u, psi, zeta, hr, hw, -⟩ := C90_scalar_scheme (exU .none) (exP ![(0, 7), (0, 9)]) 1 1
    (plan_ok.2 exU_whole) (by decide) (.inl (by norm_num [exP])) hl hl rfl (by norm_num [exP])
    (.inr (.inl (by norm_num [exP])))
  exact ⟨r, u, psi, zeta, hr, hw⟩

example : ∃ r, ∃ u : ℕ → Fld 2 ℝ, (exV 3).scalar 0 = .ok (some r) ∧ (r.traces 0).val 5 = locValue (d := 2) (exV 3).rcv 0 0 (u 6) := by
  have h := exV_good 3 (.inr rfl)
  have hl : ∀ x y, ∀ l, some (exOne x y) = some l → (x ≠ ignoreLocation ∧ y ≠ ignoreLocation) → WholeIgnored 2 l 0 := by
    intro x y l hl hxy
    cases hl
    refine fun i _ => .inr fun k _ => ?_
    simp only [exOne]
    split_ifs
    · exact hxy.1
    · exact hxy.2
  have h1 := fun l hl' => hl 2 3 l hl' (by norm_num [ignoreLocation])
  have h2 := fun l hl' => hl 5 4 l hl' (by norm_num [ignoreLocation])
  obtain ⟨-, u, psi, zeta, -, hw, hi, -⟩ := C90_scalar_scheme (exV 3) (exQ 3) 0 1 (plan_ok.2 h) (by decide)
    (.inl (by norm_num [exQ])) h1 h2 rfl (by norm_num [exQ]) (.inr (.inl (by norm_num [exQ])))
  have hq : (fun t => locSum (exV 3).src 0 fun i => upAmps (exQ 3) (exV 3).timeTaper (exV 3).amps 0 t i) =
      fun t => locSum (d := 2) (exV 3).src 0 fun i => (fun _ _ t => 1 + t : ℕ → ℕ → ℕ → ℝ) 0 i t := by
    funext t
    congr 1
    funext i
    simp only [exV, upAmps, upS_one h rfl]
  rw [hq] at hw
  obtain ⟨r, hr, ht⟩ := C90_traces (exV 3) (exQ 3) 0 1 ⟨1, 1, 6, fun _ _ t => 1 + t⟩ (plan_ok.2 h) (by decide)
    (.inl (by norm_num [exQ])) h1 h2 rfl rfl (by norm_num [exQ]) ⟨3, rfl⟩ rfl ⟨rfl, rfl, fun _ => ⟨rfl, rfl⟩⟩ u psi
    zeta hw fun c => by
      by_cases hc : (exQ 3).grid.In c
      · obtain ⟨i1, i2, i3⟩ := hi c hc
        refine ⟨i1, i2, fun k => ?_⟩
        by_cases hb : (exQ 3).Between k (c k)
        · exact (i3 k).1 hb
        · exact (i3 k).2 hb
      · exact ⟨(hw.outside 1 c hc).1, hw.outside 0 c hc⟩
  exact ⟨r, u, hr, (ht 0 (by decide)).2 5 (by decide)⟩

end Dw.Scalar
