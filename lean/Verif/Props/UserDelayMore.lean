import Verif.Props.UserDelay

/-!
# C123 and C124 for `scalar_born`, `acoustic` and `elastic`
-/

namespace Dw.Setup

open Resample (Sig)

/-- The trace starts with `m` more zeros. -/
def LaterBy (m : ℕ) (x x' : Sig ℝ) : Prop :=
  x'.len = x.len + m ∧ (∀ t < m, x'.val t = 0) ∧ ∀ t, x'.val (t + m) = x.val t

theorem Delayed.later {m : ℕ} {x x' : Sig ℝ} (h : Delayed m x x') : LaterBy m x x' :=
  ⟨h.1, fun t ht => by rw [h.2, Spec.delay_lt _ ht], fun t => by rw [h.2, Spec.delay_add]⟩

theorem delay_comp {α β : Type*} [Zero α] [Zero β] (g : α → β) (h0 : g 0 = 0) (m : ℕ) (f : ℕ → α) (t : ℕ) :
    g (Spec.delay m f t) = Spec.delay m (fun t => g (f t)) t := by
  unfold Spec.delay
  split_ifs
  · exact h0
  · rfl

end Dw.Setup

namespace Dw.Born

open Setup Resample
open Scalar (upAmps)

variable {d : ℕ}

/-- The call with other amplitudes. -/
def UArgs.withAmps (A : UArgs d) (amps : Option AmpT) (o : Option PyNum) : UArgs d :=
  { A with amps := amps, opts := { A.opts with nt := o } }

/-- **C123** for `scalar_born`. -/
theorem C123_born_delay (A : UArgs d) (P : Plan d) (s : ℕ) (cf : ℤ) (h : Fwd A P s cf) (h1 : P.ratio = 1)
    (hwf : ∀ x ∈ A.setup.wfs, x = none) (m : ℕ) (hm : P.interval ∣ m) (o : Option PyNum)
    (ho : o = some (.int (P.nt.toNat + m : ℕ)) ∨ o = none ∧ A.amps ≠ none) :
    ∃ r r', A.born s = .ok (some r) ∧ (A.withAmps (A.amps.map (AmpT.delay m)) o).born s = .ok (some r') ∧
      r'.out = r.out ∧ r'.outsc = r.outsc ∧ (∀ i < locCount A.bgRcv, LaterBy m (r.bgTraces i) (r'.bgTraces i)) ∧
      ∀ i < locCount A.rcv, LaterBy m (r.traces i) (r'.traces i) := by
  have hg := good_delay h.good h1 (m := m) (o := o) (ho.imp id fun hx => ⟨hx.1, by
    cases ha : A.amps with
    | none => exact absurd ha hx.2
    | some a => exact ⟨a, by simp [UArgs.setup, Opts.setup, ha]⟩⟩)
  replace hg : (A.withAmps (A.amps.map (AmpT.delay m)) o).setup.Good { P with nt := (P.nt.toNat + m : ℕ) } := hg
  obtain ⟨r, u, psi, zeta, w, ps, ze, hc, hw, hsc, hi, hi2, hE, hE2, hb, ht⟩ := C91_born_scheme A P s cf (plan_ok.2 h.good)
    h.lt h.pml h.loc h.freq h.interval h.nt
  obtain ⟨r', u', psi', zeta', w', ps', ze', hc', hw', hsc', hi', hi2', hE', hE2', hb', ht'⟩ := C91_born_scheme _ _ s cf
    (plan_ok.2 hg) h.lt h.pml h.loc h.freq h.interval (nt_delay h1 hm h.good.nt_nonneg h.nt)
  have hwf1 : ∀ x ∈ A.wf.list, x = none := fun x hx => hwf x (List.mem_append_left _ hx)
  have hwf2 : ∀ x ∈ A.wfsc.list, x = none := fun x hx => hwf x (List.mem_append_right _ hx)
  have z := startsFrom_none hwf1 hw.outside hi
  have z2 := startsFrom_none hwf2 hsc.outside hi2
  have z' := startsFrom_none (P := P) hwf1 hw'.outside hi'
  have z2' := startsFrom_none (P := P) hwf2 hsc'.outside hi2'
  have hq := locSum_delay h.good hg h1 h1 A.opts.timeTaper A.src A.amps s m
  replace hw' : P.grid.Wave (P.grid.extend (A.v.shot s))
      (Spec.delay m fun t => locSum A.src s fun i => upAmps P A.opts.timeTaper A.amps s t i) u' psi' zeta' := hq ▸ hw'
  replace hsc' : P.grid.Scattered (P.grid.extend (A.v.shot s)) (P.grid.extendZero (A.scatter.shot s))
      (Spec.delay m fun t => locSum A.src s fun i => upAmps P A.opts.timeTaper A.amps s t i) u' psi' zeta' w' ps' ze' :=
    hq ▸ hsc'
  obtain ⟨rfl, rfl, rfl⟩ := hw'.unique (hw.delay z m) (delay_start_eq z z' m)
  obtain ⟨rfl, rfl, rfl⟩ := hsc'.unique (hsc.delay z z2 m) (delay_start_eq z2 z2' m)
  have hs := steps_delay h1 h.interval hm
  rw [hs] at hE' hE2'
  refine ⟨r, r', hc, hc', endsIn_delay (P := P) hE hE', endsIn_delay (P := P) hE2 hE2', fun i hl => ?_, fun i hl => ?_⟩
  · refine (traces_delay h.good hg h1 h.interval hm (x := fun t => locValue A.bgRcv s i (u (t + 1))) (hb i hl) ?_).later
    rw [hb' i hl]
    simp only [delay_succ z.1, locValue_delay]
    rfl
  · refine (traces_delay h.good hg h1 h.interval hm (x := fun t => locValue A.rcv s i (w (t + 1))) (ht i hl) ?_).later
    rw [ht' i hl]
    simp only [delay_succ z2.1, locValue_delay]
    rfl

/-- **C124** for `scalar_born`. -/
theorem C124_born_causal (A : UArgs d) (P : Plan d) (s : ℕ) (cf : ℤ) (h : Fwd A P s cf) (h1 : P.ratio = 1) (n T : ℕ)
    (amps : Option AmpT) (o : Option PyNum) (ha : Option.Rel (AmpT.Until s n T) A.amps amps)
    (ho : o = some (.int n) ∨ o = none ∧ amps ≠ none) (hn : A.opts.callback = true ∨ P.interval ≤ n ∨ n = 0) :
    ∃ r r', A.born s = .ok (some r) ∧ (A.withAmps amps o).born s = .ok (some r') ∧
      ∀ t ≤ T, t < P.steps → t < Plan.steps { P with nt := n } →
        (∀ i < locCount A.bgRcv, (r'.bgTraces i).val t = (r.bgTraces i).val t) ∧
        ∀ i < locCount A.rcv, (r'.traces i).val t = (r.traces i).val t := by
  have hg := good_newAmps h.good h1 (n := n) (amps := [amps, amps]) (o := o)
    (.cons (rel_length ha) (.cons (rel_length ha) .nil)) (ho.imp id fun hx => ⟨hx.1, by
      cases ha : amps with
      | none => exact absurd ha hx.2
      | some a => exact ⟨a, List.mem_cons_self⟩⟩)
  replace hg : (A.withAmps amps o).setup.Good { P with nt := n } := hg
  obtain ⟨r, u, psi, zeta, w, ps, ze, hc, hw, hsc, hi, hi2, hE, hE2, hb, ht⟩ := C91_born_scheme A P s cf (plan_ok.2 h.good)
    h.lt h.pml h.loc h.freq h.interval h.nt
  obtain ⟨r', u', psi', zeta', w', ps', ze', hc', hw', hsc', hi', hi2', hE', hE2', hb', ht'⟩ := C91_born_scheme _ _ s cf
    (plan_ok.2 hg) h.lt h.pml h.loc h.freq h.interval (hn.imp id fun hn => by
      show P.ratio * P.interval ≤ (n : ℤ) ∨ (n : ℤ) ≤ 0
      rw [h1, one_mul]
      omega)
  have hq := fun t (ht : t < T) => locSum_until h.good hg h1 h1 (tt := A.opts.timeTaper) (o := A.src) 0 rfl rfl ha ht
  have e := hw.before hw' (T := T) hq (startsFrom_zero (P := P) (w := A.wf) hw'.outside hw.outside hi' hi)
  have e2 := hsc.before hsc' (T := T) hq e (startsFrom_zero (P := P) (w := A.wfsc) hsc'.outside hsc.outside hi2' hi2)
  refine ⟨r, r', hc, hc', fun t hT h2 h3 => ⟨fun i hl => ?_, fun i hl => ?_⟩⟩
  · rw [hb i hl, hb' i hl]
    exact traces_until h.good hg h1 h1 h2 h3 (by rw [(e t hT).2.1]; rfl) rfl rfl
  · rw [ht i hl, ht' i hl]
    exact traces_until h.good hg h1 h1 h2 h3 (by rw [(e2 t hT).2.1]; rfl) rfl rfl

theorem exG_fwd (gv : Bool) (s : ℕ) (hs : s < 2) : Fwd (exG gv) exGP s 1 where
  good := exG_good gv
  lt := hs
  pml := .inl (by norm_num [exGP, exPl1, exPl])
  loc := exU_locs hs
  freq := rfl
  interval := by norm_num [exGP, exPl1, exPl]
  nt := .inr (.inl (by norm_num [exGP, exPl1, exPl]))

example : ∃ r r', (exG true).born 1 = .ok (some r) ∧
    ((exG true).withAmps (some (exAmp.delay 4)) none).born 1 = .ok (some r') ∧ r'.out = r.out ∧ r'.outsc = r.outsc ∧
    LaterBy 4 (r.traces 1) (r'.traces 1) := by
  obtain ⟨r, r', h1, h2, h3, h4, -, h5⟩ := C123_born_delay (exG true) _ 1 1 (exG_fwd true 1 (by decide))
    (by norm_num [exGP, exPl1]) (by simp [UArgs.setup, Opts.setup, UWf.list, exG, exU]) 4 (by norm_num [exGP, exPl1, exPl]) none
    (.inr ⟨rfl, by simp [exG, exU]⟩)
  exact ⟨r, r', h1, h2, h3, h4, h5 1 (by decide)⟩

example : ∃ r r', (exG true).born 1 = .ok (some r) ∧
    ((exG true).withAmps (some ⟨2, 2, 20, fun s i t => if t < 3 then exAmp.val s i t else 77⟩) none).born 1 = .ok (some r') ∧
    ∀ t ≤ 3, (r'.traces 1).val t = (r.traces 1).val t := by
  obtain ⟨r, r', h1, h2, h3⟩ := C124_born_causal (exG true) _ 1 1 (exG_fwd true 1 (by decide)) (by norm_num [exGP, exPl1]) 20 3
    (some ⟨2, 2, 20, fun s i t => if t < 3 then exAmp.val s i t else 77⟩) none
    (.some ⟨⟨rfl, rfl, rfl⟩, fun i _ t ht => if_pos ht⟩) (.inr ⟨rfl, by simp⟩)
    (.inr (.inl (by norm_num [exGP, exPl1, exPl])))
  exact ⟨r, r', h1, h2, fun t ht => (h3 t ht (by
    show t < 5
    omega) (by
    show t < 20
    omega)).2 1 (by decide)⟩

end Dw.Born

namespace Dw.Acoustic

open Setup Resample
open Scalar (upAmps)

variable {d : ℕ}

/-- The call with other amplitudes. -/
def UArgs.withAmps (A : UArgs d) (ampP : Option AmpT) (ampV : Fin d → Option AmpT) (o : Option PyNum) : UArgs d :=
  { A with ampP := ampP, ampV := ampV, opts := { A.opts with nt := o } }

/-- The wavefields of a solution at the start, by `C92_acoustic_scheme`. -/
def Starts (P : Plan d) (w : UWf d) (s : ℕ) (p : ℕ → Fld d ℝ) (v phi psi : ℕ → Fin d → Fld d ℝ) : Prop :=
  ∀ c, (P.grid.In c → p 0 c = P.given w.p s c ∧ ∀ k,
      (P.Between k (c k) → phi 0 k c = 0) ∧ (¬P.Between k (c k) → phi 0 k c = P.given (w.phi k) s c)) ∧
    ∀ k, P.grid.InH k c → v 0 k c = P.given (w.v k) s c ∧
      (P.BetweenH k (c k) → psi 0 k c = 0) ∧
      (¬P.BetweenH k (c k) → psi 0 k c = P.given (w.psi k) s c)

/-- They are determined by the initial wavefields. -/
theorem Starts.eq {P : Plan d} {w : UWf d} {s : ℕ} {p p' : ℕ → Fld d ℝ} {v phi psi v' phi' psi' : ℕ → Fin d → Fld d ℝ}
    (ho : ∀ t c, (¬P.grid.In c → p t c = 0 ∧ ∀ k, phi t k c = 0) ∧ ∀ k, ¬P.grid.InH k c → v t k c = 0 ∧ psi t k c = 0)
    (ho' : ∀ t c, (¬P.grid.In c → p' t c = 0 ∧ ∀ k, phi' t k c = 0) ∧
      ∀ k, ¬P.grid.InH k c → v' t k c = 0 ∧ psi' t k c = 0)
    (hi : Starts P w s p v phi psi) (hi' : Starts P w s p' v' phi' psi') :
    p 0 = p' 0 ∧ v 0 = v' 0 ∧ phi 0 = phi' 0 ∧ psi 0 = psi' 0 := by
  refine ⟨funext fun c => ?_, funext fun k => funext fun c => ?_, funext fun k => funext fun c => ?_,
    funext fun k => funext fun c => ?_⟩
  · by_cases hc : P.grid.In c
    · rw [((hi c).1 hc).1, ((hi' c).1 hc).1]
    · rw [((ho 0 c).1 hc).1, ((ho' 0 c).1 hc).1]
  · by_cases hc : P.grid.InH k c
    · rw [((hi c).2 k hc).1, ((hi' c).2 k hc).1]
    · rw [((ho 0 c).2 k hc).1, ((ho' 0 c).2 k hc).1]
  · by_cases hc : P.grid.In c
    · by_cases hb : P.Between k (c k)
      · rw [(((hi c).1 hc).2 k).1 hb, (((hi' c).1 hc).2 k).1 hb]
      · rw [(((hi c).1 hc).2 k).2 hb, (((hi' c).1 hc).2 k).2 hb]
    · rw [((ho 0 c).1 hc).2 k, ((ho' 0 c).1 hc).2 k]
  · by_cases hc : P.grid.InH k c
    · by_cases hb : P.BetweenH k (c k)
      · rw [((hi c).2 k hc).2.1 hb, ((hi' c).2 k hc).2.1 hb]
      · rw [((hi c).2 k hc).2.2 hb, ((hi' c).2 k hc).2.2 hb]
    · rw [((ho 0 c).2 k hc).2, ((ho' 0 c).2 k hc).2]

/-- Without initial wavefields everything is zero. -/
theorem Starts.zero {P : Plan d} {w : UWf d} {s : ℕ} {p : ℕ → Fld d ℝ} {v phi psi : ℕ → Fin d → Fld d ℝ}
    (hw : ∀ x ∈ w.list, x = none)
    (ho : ∀ t c, (¬P.grid.In c → p t c = 0 ∧ ∀ k, phi t k c = 0) ∧ ∀ k, ¬P.grid.InH k c → v t k c = 0 ∧ psi t k c = 0)
    (hi : Starts P w s p v phi psi) : p 0 = 0 ∧ v 0 = 0 ∧ phi 0 = 0 ∧ psi 0 = 0 := by
  have w1 : w.p = none := hw _ (by simp [UWf.list])
  have w2 : ∀ k, w.v k = none := fun k => hw _ (by simp [UWf.list])
  have w3 : ∀ k, w.phi k = none := fun k => hw _ (by simp [UWf.list])
  have w4 : ∀ k, w.psi k = none := fun k => hw _ (by simp [UWf.list])
  refine Starts.eq (p' := 0) (v' := 0) (phi' := 0) (psi' := 0) ho (fun _ _ => ⟨fun _ => ⟨rfl, fun _ => rfl⟩, fun _ _ => ⟨rfl, rfl⟩⟩)
    hi fun c => ⟨fun _ => ⟨?_, fun k => ⟨fun _ => rfl, fun _ => ?_⟩⟩, fun k _ => ⟨?_, fun _ => rfl, fun _ => ?_⟩⟩
  · rw [w1]; rfl
  · rw [w3]; rfl
  · rw [w2]; rfl
  · rw [w4]; rfl

/-- **C123** for `acoustic`. -/
theorem C123_acoustic_delay (A : UArgs d) (P : Plan d) (s : ℕ) (cf : ℤ) (h : Fwd A P s cf) (h1 : P.ratio = 1)
    (hwf : ∀ x ∈ A.setup.wfs, x = none) (m : ℕ) (hm : P.interval ∣ m) (o : Option PyNum)
    (ho : o = some (.int (P.nt.toNat + m : ℕ)) ∨ o = none ∧ (A.ampP ≠ none ∨ ∃ k, A.ampV k ≠ none)) :
    ∃ r r', A.acoustic s = .ok (some r) ∧
      (A.withAmps (A.ampP.map (AmpT.delay m)) (fun k => (A.ampV k).map (AmpT.delay m)) o).acoustic s = .ok (some r') ∧
      r'.out = r.out ∧ (∀ i < locCount A.rcvP, LaterBy m (r.tracesP i) (r'.tracesP i)) ∧
      ∀ k, ∀ i < locCount (A.rcvV k), LaterBy m (r.tracesV k i) (r'.tracesV k i) := by
  have hg := good_delay h.good h1 (m := m) (o := o) (ho.imp id fun hx => ⟨hx.1, by
    rcases hx.2 with hx | ⟨k, hx⟩
    · obtain ⟨a, ha⟩ := Option.ne_none_iff_exists'.1 hx
      exact ⟨a, by simp [UArgs.setup, Opts.setup, ha]⟩
    · obtain ⟨a, ha⟩ := Option.ne_none_iff_exists'.1 hx
      exact ⟨a, List.mem_cons_of_mem _ (List.mem_ofFn.2 ⟨k, ha⟩)⟩⟩)
  replace hg : (A.withAmps (A.ampP.map (AmpT.delay m)) (fun k => (A.ampV k).map (AmpT.delay m)) o).setup.Good
      { P with nt := (P.nt.toNat + m : ℕ) } := by
    have e : (A.withAmps (A.ampP.map (AmpT.delay m)) (fun k => (A.ampV k).map (AmpT.delay m)) o).setup =
        A.setup.newAmps (A.setup.amps.map (Option.map (AmpT.delay m))) o := by
      simp [UArgs.setup, Opts.setup, UArgs.withAmps, SetupArgs.newAmps, List.map_ofFn, Function.comp_def]
    exact e ▸ hg
  obtain ⟨r, p, v, phi, psi, hc, hw, hi, hE, hp, hv⟩ := C92_acoustic_scheme A P s cf (plan_ok.2 h.good) h.pre
    h.lt h.pml h.loc h.last h.freq h.interval h.nt
  obtain ⟨r', p', v', phi', psi', hc', hw', hi', hE', hp', hv'⟩ := C92_acoustic_scheme _ _ s cf (plan_ok.2 hg) h.pre
    h.lt h.pml h.loc h.last h.freq h.interval (nt_delay h1 hm h.good.nt_nonneg h.nt)
  have z := Starts.zero hwf hw.outside hi
  have z' := Starts.zero (P := P) hwf hw'.outside hi'
  have hq := locSum_delay h.good hg h1 h1 A.opts.timeTaper A.srcP A.ampP s m
  have hqv : (fun t k => locSum (d := d) (A.srcV k) s fun i => upAmps { P with nt := (P.nt.toNat + m : ℕ) } A.opts.timeTaper
      ((A.ampV k).map (AmpT.delay m)) s t i) =
      Spec.delay m fun t k => locSum (A.srcV k) s fun i => upAmps P A.opts.timeTaper (A.ampV k) s t i := by
    funext t k
    rw [delay_apply]
    exact congrFun (locSum_delay h.good hg h1 h1 A.opts.timeTaper (A.srcV k) (A.ampV k) s m) t
  replace hw' : P.grid.Acoustic (fun c => P.grid.extend (A.rho.shot s) c * P.grid.extend (A.v.shot s) c ^ 2)
      (fun k c => Spec.inverse A.rfmax (Spec.mean (P.grid.extend (A.rho.shot s)) k c))
      (Spec.delay m fun t => locSum A.srcP s fun i => upAmps P A.opts.timeTaper A.ampP s t i)
      (Spec.delay m fun t k => locSum (A.srcV k) s fun i => upAmps P A.opts.timeTaper (A.ampV k) s t i) p' v' phi' psi' :=
    hq ▸ hqv ▸ hw'
  obtain ⟨rfl, rfl, rfl, rfl⟩ := hw'.unique (hw.delay z m) ⟨z'.1.trans (Spec.delay_le z.1 (Nat.zero_le _)).symm,
    z'.2.1.trans (Spec.delay_le z.2.1 (Nat.zero_le _)).symm, z'.2.2.1.trans (Spec.delay_le z.2.2.1 (Nat.zero_le _)).symm,
    z'.2.2.2.trans (Spec.delay_le z.2.2.2 (Nat.zero_le _)).symm⟩
  have hs := steps_delay h1 h.interval hm
  rw [hs] at hE'
  simp only [Spec.delay_add] at hE'
  refine ⟨r, r', hc, hc', ?_, fun i hl => ?_, fun k i hl => ?_⟩
  · refine Wavefields.ext (index_ext P fun c => (hE' c).1.trans (hE c).1.symm) ?_ ?_ ?_
    · exact funext fun k => index_ext P fun c => ((hE' c).2 k).1.trans ((hE c).2 k).1.symm
    · exact funext fun k => index_ext P fun c => ((hE' c).2 k).2.1.trans ((hE c).2 k).2.1.symm
    · exact funext fun k => index_ext P fun c => ((hE' c).2 k).2.2.trans ((hE c).2 k).2.2.symm
  · refine (traces_delay h.good hg h1 h.interval hm (x := fun t => locValue A.rcvP s i (p t)) (hp i hl) ?_).later
    rw [hp' i hl]
    simp only [locValue_delay]
    rfl
  · refine (traces_delay h.good hg h1 h.interval hm (x := fun t => locValue (A.rcvV k) s i (v t k)) (hv k i hl) ?_).later
    rw [hv' k i hl]
    simp only [delay_comp (fun f : Fin d → Fld d ℝ => f k) rfl, locValue_delay]
    rfl

/-- **C124** for `acoustic`. -/
theorem C124_acoustic_causal (A : UArgs d) (P : Plan d) (s : ℕ) (cf : ℤ) (h : Fwd A P s cf) (h1 : P.ratio = 1) (n T : ℕ)
    (ampP : Option AmpT) (ampV : Fin d → Option AmpT) (o : Option PyNum) (ha : Option.Rel (AmpT.Until s n T) A.ampP ampP)
    (hb : ∀ k, Option.Rel (AmpT.Until s n T) (A.ampV k) (ampV k))
    (ho : o = some (.int n) ∨ o = none ∧ (ampP ≠ none ∨ ∃ k, ampV k ≠ none))
    (hn : A.opts.callback = true ∨ P.interval ≤ n ∨ n = 0) :
    ∃ r r', A.acoustic s = .ok (some r) ∧ (A.withAmps ampP ampV o).acoustic s = .ok (some r') ∧
      ∀ t ≤ T, t < P.steps → t < Plan.steps { P with nt := n } →
        (∀ i < locCount A.rcvP, (r'.tracesP i).val t = (r.tracesP i).val t) ∧
        ∀ k, ∀ i < locCount (A.rcvV k), (r'.tracesV k i).val t = (r.tracesV k i).val t := by
  have hg := good_newAmps h.good h1 (n := n) (amps := ampP :: List.ofFn ampV) (o := o)
    (forall_cons (rel_length ha) fun k => rel_length (hb k)) (ho.imp id fun hx => ⟨hx.1, by
      rcases hx.2 with hx | ⟨k, hx⟩
      · obtain ⟨a, ha⟩ := Option.ne_none_iff_exists'.1 hx
        exact ⟨a, by simp [ha]⟩
      · obtain ⟨a, ha⟩ := Option.ne_none_iff_exists'.1 hx
        exact ⟨a, List.mem_cons_of_mem _ (List.mem_ofFn.2 ⟨k, ha⟩)⟩⟩)
  replace hg : (A.withAmps ampP ampV o).setup.Good { P with nt := n } := hg
  obtain ⟨r, p, v, phi, psi, hc, hw, hi, hE, hp, hv⟩ := C92_acoustic_scheme A P s cf (plan_ok.2 h.good) h.pre
    h.lt h.pml h.loc h.last h.freq h.interval h.nt
  obtain ⟨r', p', v', phi', psi', hc', hw', hi', hE', hp', hv'⟩ := C92_acoustic_scheme _ _ s cf (plan_ok.2 hg) h.pre
    h.lt h.pml h.loc h.last h.freq h.interval (hn.imp id fun hn => by
      show P.ratio * P.interval ≤ (n : ℤ) ∨ (n : ℤ) ≤ 0
      rw [h1, one_mul]
      omega)
  have e := hw.before hw' (T := T) (fun t ht => ⟨locSum_until h.good hg h1 h1 0 rfl rfl ha ht, funext fun k =>
    locSum_until h.good hg h1 h1 (k + 1) (ofFn_get.2 ⟨k.isLt, rfl⟩) (ofFn_get.2 ⟨k.isLt, rfl⟩) (hb k) ht⟩)
    (Starts.eq (P := P) (w := A.wf) hw.outside hw'.outside hi hi')
  refine ⟨r, r', hc, hc', fun t hT h2 h3 => ⟨fun i hl => ?_, fun k i hl => ?_⟩⟩
  · rw [hp i hl, hp' i hl]
    exact traces_until h.good hg h1 h1 h2 h3 (by rw [(e t hT).1]; rfl) rfl rfl
  · rw [hv k i hl, hv' k i hl]
    exact traces_until h.good hg h1 h1 h2 h3 (by rw [(e t hT).2.1]; rfl) rfl rfl

theorem exG_fwd (s : ℕ) (hs : s < 2) : Fwd exG exGP s 1 where
  good := exG_good
  pre := exU_pre .none
  lt := hs
  pml := .inl (by norm_num [exGP, exPl1, exPl])
  loc := fun l hl => Born.exLoc_whole hs (exU_locs .none l hl)
  last := fun k => .inl (by fin_cases k <;> norm_num [exGP, exPl1, exPl, Plan.w1])
  freq := rfl
  interval := by norm_num [exGP, exPl1, exPl]
  nt := .inr (.inl (by norm_num [exGP, exPl1, exPl]))

example : ∃ r r', exG.acoustic 1 = .ok (some r) ∧
    (exG.withAmps (some (exAmp.delay 4)) (fun k => (![none, some exAmp] k).map (AmpT.delay 4)) none).acoustic 1 = .ok (some r') ∧
    r'.out = r.out ∧ LaterBy 4 (r.tracesP 1) (r'.tracesP 1) ∧ LaterBy 4 (r.tracesV 0 1) (r'.tracesV 0 1) := by
  obtain ⟨r, r', h1, h2, h3, h4, h5⟩ := C123_acoustic_delay exG _ 1 1 (exG_fwd 1 (by decide))
    (by norm_num [exGP, exPl1]) (by simp [UArgs.setup, Opts.setup, UWf.list, exG, exU]) 4 (by norm_num [exGP, exPl1, exPl]) none
    (.inr ⟨rfl, .inl (by simp [exG, exU])⟩)
  exact ⟨r, r', h1, h2, h3, h4 1 (by decide), h5 0 1 (by decide)⟩

example : ∃ r r', exG.acoustic 1 = .ok (some r) ∧
    (exG.withAmps (some ⟨2, 2, 20, fun s i t => if t < 3 then exAmp.val s i t else 77⟩)
      ![none, some ⟨2, 2, 20, fun s i t => if t < 3 then exAmp.val s i t else 88⟩] none).acoustic 1 = .ok (some r') ∧
    ∀ t ≤ 3, (r'.tracesV 0 1).val t = (r.tracesV 0 1).val t := by
  obtain ⟨r, r', h1, h2, h3⟩ := C124_acoustic_causal exG _ 1 1 (exG_fwd 1 (by decide)) (by norm_num [exGP, exPl1]) 20 3
    (some ⟨2, 2, 20, fun s i t => if t < 3 then exAmp.val s i t else 77⟩)
    ![none, some ⟨2, 2, 20, fun s i t => if t < 3 then exAmp.val s i t else 88⟩] none
    (.some ⟨⟨rfl, rfl, rfl⟩, fun i _ t ht => if_pos ht⟩)
    (Fin.forall_fin_two.2 ⟨.none, .some ⟨⟨rfl, rfl, rfl⟩, fun i _ t ht => if_pos ht⟩⟩) (.inr ⟨rfl, .inl (by simp)⟩)
    (.inr (.inl (by norm_num [exGP, exPl1, exPl])))
  exact ⟨r, r', h1, h2, fun t ht => (h3 t ht (by
    show t < 5
    omega) (by
    show t < 20
    omega)).2 0 1 (by decide)⟩

end Dw.Acoustic

namespace Dw.Elastic

open Setup Resample
open Scalar (upAmps)

variable {d : ℕ}

/-- The call with other amplitudes. -/
def UArgs.withAmps (A : UArgs d) (ampV : Fin d → Option AmpT) (ampP : Option AmpT) (o : Option PyNum) : UArgs d :=
  { A with ampP := ampP, ampV := ampV, opts := { A.opts with nt := o } }

/-- The wavefields of a solution at the start, by `C93_elastic_scheme`. -/
def Starts (P : Plan d) (w : UWf d) (s : ℕ) (v : ℕ → Fin d → Fld d ℝ) (sig mv ms : ℕ → Fin d → Fin d → Fld d ℝ) : Prop :=
  ∀ i c, (P.grid.In c → sig 0 i i c = P.given (w.s i) s c) ∧
    (∀ j, (hij : i < j) → P.grid.InAt (Spec.atS i j) c → sig 0 i j c = P.given (w.sh ⟨(i, j), hij⟩) s c) ∧
    (∀ j, P.grid.InAt (Spec.atS i j) c →
      (P.BetweenAt (Spec.atS i j j) j (c j) → mv 0 i j c = 0) ∧
      (¬P.BetweenAt (Spec.atS i j j) j (c j) → mv 0 i j c = P.given (w.mv i j) s c)) ∧
    (P.grid.InAt (Spec.atV i) c → v 0 i c = P.given (w.v i) s c ∧ ∀ j,
      (P.BetweenAt (Spec.atV i j) j (c j) → ms 0 i j c = 0) ∧
      (¬P.BetweenAt (Spec.atV i j) j (c j) → ms 0 i j c = P.given (w.ms i j) s c))

/-- Zero outside the grid. -/
def Outside (P : Plan d) (v : ℕ → Fin d → Fld d ℝ) (sig mv ms : ℕ → Fin d → Fin d → Fld d ℝ) : Prop :=
  ∀ t i c, (¬P.grid.InAt (Spec.atV i) c → v t i c = 0 ∧ ∀ j, ms t i j c = 0) ∧
    ∀ j, ¬P.grid.InAt (Spec.atS i j) c → sig t i j c = 0 ∧ mv t i j c = 0

theorem Starts.eq {P : Plan d} {w : UWf d} {s : ℕ} {v v' : ℕ → Fin d → Fld d ℝ}
    {sig mv ms sig' mv' ms' : ℕ → Fin d → Fin d → Fld d ℝ} (hs : ∀ t i j, sig t i j = sig t j i)
    (hs' : ∀ t i j, sig' t i j = sig' t j i) (ho : Outside P v sig mv ms) (ho' : Outside P v' sig' mv' ms')
    (hi : Starts P w s v sig mv ms) (hi' : Starts P w s v' sig' mv' ms') :
    v 0 = v' 0 ∧ sig 0 = sig' 0 ∧ mv 0 = mv' 0 ∧ ms 0 = ms' 0 := by
  have hlt : ∀ i j c, i < j → sig 0 i j c = sig' 0 i j c := by
    intro i j c hij
    by_cases hc : P.grid.InAt (Spec.atS i j) c
    · rw [(hi i c).2.1 j hij hc, (hi' i c).2.1 j hij hc]
    · rw [((ho 0 i c).2 j hc).1, ((ho' 0 i c).2 j hc).1]
  refine ⟨funext fun i => funext fun c => ?_, funext fun i => funext fun j => funext fun c => ?_,
    funext fun i => funext fun j => funext fun c => ?_, funext fun i => funext fun j => funext fun c => ?_⟩
  · by_cases hc : P.grid.InAt (Spec.atV i) c
    · rw [((hi i c).2.2.2 hc).1, ((hi' i c).2.2.2 hc).1]
    · rw [((ho 0 i c).1 hc).1, ((ho' 0 i c).1 hc).1]
  · rcases lt_trichotomy i j with hij | rfl | hij
    · exact hlt i j c hij
    · by_cases hc : P.grid.In c
      · rw [(hi i c).1 hc, (hi' i c).1 hc]
      · have hc' := fun hx => hc ((Spec.atS_self P.grid i c).1 hx)
        rw [((ho 0 i c).2 i hc').1, ((ho' 0 i c).2 i hc').1]
    · rw [hs 0 i j, hs' 0 i j]
      exact hlt j i c hij
  · by_cases hc : P.grid.InAt (Spec.atS i j) c
    · by_cases hb : P.BetweenAt (Spec.atS i j j) j (c j)
      · rw [((hi i c).2.2.1 j hc).1 hb, ((hi' i c).2.2.1 j hc).1 hb]
      · rw [((hi i c).2.2.1 j hc).2 hb, ((hi' i c).2.2.1 j hc).2 hb]
    · rw [((ho 0 i c).2 j hc).2, ((ho' 0 i c).2 j hc).2]
  · by_cases hc : P.grid.InAt (Spec.atV i) c
    · by_cases hb : P.BetweenAt (Spec.atV i j) j (c j)
      · rw [(((hi i c).2.2.2 hc).2 j).1 hb, (((hi' i c).2.2.2 hc).2 j).1 hb]
      · rw [(((hi i c).2.2.2 hc).2 j).2 hb, (((hi' i c).2.2.2 hc).2 j).2 hb]
    · rw [((ho 0 i c).1 hc).2, ((ho' 0 i c).1 hc).2]

/-- Without initial wavefields everything is zero. -/
theorem Starts.zero {P : Plan d} {w : UWf d} {s : ℕ} {v : ℕ → Fin d → Fld d ℝ}
    {sig mv ms : ℕ → Fin d → Fin d → Fld d ℝ} (hw : ∀ x ∈ w.list, x = none) (hs : ∀ t i j, sig t i j = sig t j i)
    (ho : Outside P v sig mv ms) (hi : Starts P w s v sig mv ms) : v 0 = 0 ∧ sig 0 = 0 ∧ mv 0 = 0 ∧ ms 0 = 0 := by
  have w1 : ∀ k, w.v k = none := fun k => hw _ (by simp [UWf.list])
  have w2 : ∀ k, w.s k = none := fun k => hw _ (by simp [UWf.list])
  have w3 : ∀ k, w.sh k = none := fun k => hw _ (by
    simp only [UWf.list, List.mem_append, List.mem_flatMap, List.mem_ofFn]
    exact .inl (.inl (.inr ⟨k.1.1, List.mem_finRange _, k.1.2, dif_pos k.2⟩)))
  have w4 : ∀ i j, w.mv i j = none := fun i j => hw _ (by
    simp only [UWf.list, List.mem_append, List.mem_flatMap, List.mem_ofFn]
    exact .inl (.inr ⟨i, List.mem_finRange _, j, rfl⟩))
  have w5 : ∀ i j, w.ms i j = none := fun i j => hw _ (by
    simp only [UWf.list, List.mem_append, List.mem_flatMap, List.mem_ofFn]
    exact .inr ⟨i, List.mem_finRange _, j, rfl⟩)
  refine Starts.eq (v' := 0) (sig' := 0) (mv' := 0) (ms' := 0) hs (fun _ _ _ => rfl) ho
    (fun _ _ _ => ⟨fun _ => ⟨rfl, fun _ => rfl⟩, fun _ _ => ⟨rfl, rfl⟩⟩) hi
    fun i c => ⟨fun _ => ?_, fun j hij _ => ?_, fun j _ => ⟨fun _ => rfl, fun _ => ?_⟩,
      fun _ => ⟨?_, fun j => ⟨fun _ => rfl, fun _ => ?_⟩⟩⟩
  · rw [w2]; rfl
  · rw [w3]; rfl
  · rw [w4]; rfl
  · rw [w1]; rfl
  · rw [w5]; rfl

/-- **C123** for `elastic`. -/
theorem C123_elastic_delay (A : UArgs d) (P : Plan d) (s : ℕ) (cf : ℤ) (h : Fwd A P s cf) (h1 : P.ratio = 1)
    (hwf : ∀ x ∈ A.setup.wfs, x = none) (m : ℕ) (hm : P.interval ∣ m) (o : Option PyNum)
    (ho : o = some (.int (P.nt.toNat + m : ℕ)) ∨ o = none ∧ (A.ampP ≠ none ∨ ∃ k, A.ampV k ≠ none)) :
    ∃ r r', A.elastic s = .ok (some r) ∧
      (A.withAmps (fun k => (A.ampV k).map (AmpT.delay m)) (A.ampP.map (AmpT.delay m)) o).elastic s = .ok (some r') ∧
      r'.out = r.out ∧ (∀ i < locCount A.rcvP, LaterBy m (r.tracesP i) (r'.tracesP i)) ∧
      ∀ k, ∀ i < locCount (A.rcvV k), LaterBy m (r.tracesV k i) (r'.tracesV k i) := by
  have hg := good_delay h.good h1 (m := m) (o := o) (ho.imp id fun hx => ⟨hx.1, by
    rcases hx.2 with hx | ⟨k, hx⟩
    · obtain ⟨a, ha⟩ := Option.ne_none_iff_exists'.1 hx
      exact ⟨a, by simp [UArgs.setup, Opts.setup, ha]⟩
    · obtain ⟨a, ha⟩ := Option.ne_none_iff_exists'.1 hx
      exact ⟨a, List.mem_append_left _ (List.mem_ofFn.2 ⟨k, ha⟩)⟩⟩)
  replace hg : (A.withAmps (fun k => (A.ampV k).map (AmpT.delay m)) (A.ampP.map (AmpT.delay m)) o).setup.Good
      { P with nt := (P.nt.toNat + m : ℕ) } := by
    have e : (A.withAmps (fun k => (A.ampV k).map (AmpT.delay m)) (A.ampP.map (AmpT.delay m)) o).setup =
        A.setup.newAmps (A.setup.amps.map (Option.map (AmpT.delay m))) o := by
      simp [UArgs.setup, Opts.setup, UArgs.withAmps, SetupArgs.newAmps, List.map_ofFn, Function.comp_def]
      rfl
    exact e ▸ hg
  obtain ⟨r, v, sig, mv, ms, hc, hw, hi, hE, hp, hv⟩ := C93_elastic_scheme A P s cf (plan_ok.2 h.good) h.pre
    h.lt h.pml h.loc h.last h.freq h.interval h.nt
  obtain ⟨r', v', sig', mv', ms', hc', hw', hi', hE', hp', hv'⟩ := C93_elastic_scheme _ _ s cf (plan_ok.2 hg) h.pre
    h.lt h.pml h.loc h.last h.freq h.interval (nt_delay h1 hm h.good.nt_nonneg h.nt)
  have z := Starts.zero hwf hw.symm hw.outside hi
  have z' := Starts.zero (P := P) hwf hw'.symm hw'.outside hi'
  have hq := locSum_delay h.good hg h1 h1 A.opts.timeTaper A.srcP A.ampP s m
  have hqv : (fun t k => locSum (d := d) (A.srcV k) s fun i => upAmps { P with nt := (P.nt.toNat + m : ℕ) } A.opts.timeTaper
      ((A.ampV k).map (AmpT.delay m)) s t i) =
      Spec.delay m fun t k => locSum (A.srcV k) s fun i => upAmps P A.opts.timeTaper (A.ampV k) s t i := by
    funext t k
    rw [delay_apply]
    exact congrFun (locSum_delay h.good hg h1 h1 A.opts.timeTaper (A.srcV k) (A.ampV k) s m) t
  replace hw' : P.grid.Elastic (P.grid.extend (A.lam.shot s)) (P.grid.extend (A.mu.shot s))
      (Spec.harmonic A.rfmax (P.grid.extend (A.mu.shot s)))
      (fun k c => Spec.inverse A.rfmax (Spec.mean (fun c => Spec.inverse A.rfmax (P.grid.extend (A.buoyancy.shot s) c)) k c))
      (Spec.delay m fun t => locSum A.srcP s fun i => upAmps P A.opts.timeTaper A.ampP s t i)
      (Spec.delay m fun t k => locSum (A.srcV k) s fun i => upAmps P A.opts.timeTaper (A.ampV k) s t i) v' sig' mv' ms' :=
    hq ▸ hqv ▸ hw'
  obtain ⟨rfl, rfl, rfl, rfl⟩ := hw'.unique (hw.delay z m) ⟨z'.1.trans (Spec.delay_le z.1 (Nat.zero_le _)).symm,
    z'.2.1.trans (Spec.delay_le z.2.1 (Nat.zero_le _)).symm, z'.2.2.1.trans (Spec.delay_le z.2.2.1 (Nat.zero_le _)).symm,
    z'.2.2.2.trans (Spec.delay_le z.2.2.2 (Nat.zero_le _)).symm⟩
  have hs := steps_delay h1 h.interval hm
  rw [hs] at hE'
  simp only [Spec.delay_add] at hE'
  refine ⟨r, r', hc, hc', ?_, fun i hl => ?_, fun k i hl => ?_⟩
  · refine Wavefields.ext ?_ ?_ ?_ ?_ ?_
    · exact funext fun k => index_ext P fun c => (hE' c k).1.trans (hE c k).1.symm
    · exact funext fun k => index_ext P fun c => (hE' c k).2.1.trans (hE c k).2.1.symm
    · exact funext fun k => index_ext P fun c => ((hE' c k.1.1).2.2.1 k.1.2 k.2).trans ((hE c k.1.1).2.2.1 k.1.2 k.2).symm
    · exact funext fun i => funext fun j => index_ext P fun c => ((hE' c i).2.2.2 j).1.trans ((hE c i).2.2.2 j).1.symm
    · exact funext fun i => funext fun j => index_ext P fun c => ((hE' c i).2.2.2 j).2.trans ((hE c i).2.2.2 j).2.symm
  · have e := traces_delay h.good hg h1 h.interval hm (tt := A.opts.timeTaper)
      (x := fun t => locValue A.rcvP s i (fun c => ∑ k, sig t k k c)) rfl rfl
    have hx : (fun t => locValue A.rcvP s i (fun c => ∑ k, Spec.delay m sig t k k c)) =
        Spec.delay m fun t => locValue A.rcvP s i (fun c => ∑ k, sig t k k c) := funext fun t =>
      delay_comp (fun f : Fin d → Fin d → Fld d ℝ => locValue A.rcvP s i (fun c => ∑ k, f k k c))
        (by unfold locValue; split <;> simp) m sig t
    rw [← hx] at e
    have key : ∀ {y y' z z' : Sig ℝ}, Delayed m y y' → z = ⟨y.len, fun t => -y.val t / d⟩ →
        z' = ⟨y'.len, fun t => -y'.val t / d⟩ → Delayed m z z' := by
      rintro y y' z z' hy rfl rfl
      refine ⟨hy.1, ?_⟩
      show (fun t => -y'.val t / (d : ℝ)) = _
      rw [hy.2]
      funext t
      exact delay_comp (fun x : ℝ => -x / d) (by simp) m _ t
    exact (key e (hp i hl) (hp' i hl)).later
  · refine (traces_delay h.good hg h1 h.interval hm (x := fun t => locValue (A.rcvV k) s i (v t k)) (hv k i hl) ?_).later
    rw [hv' k i hl]
    simp only [delay_comp (fun f : Fin d → Fld d ℝ => f k) rfl, locValue_delay]
    rfl

/-- **C124** for `elastic`. -/
theorem C124_elastic_causal (A : UArgs d) (P : Plan d) (s : ℕ) (cf : ℤ) (h : Fwd A P s cf) (h1 : P.ratio = 1) (n T : ℕ)
    (ampV : Fin d → Option AmpT) (ampP : Option AmpT) (o : Option PyNum) (ha : Option.Rel (AmpT.Until s n T) A.ampP ampP)
    (hb : ∀ k, Option.Rel (AmpT.Until s n T) (A.ampV k) (ampV k))
    (ho : o = some (.int n) ∨ o = none ∧ (ampP ≠ none ∨ ∃ k, ampV k ≠ none))
    (hn : A.opts.callback = true ∨ P.interval ≤ n ∨ n = 0) :
    ∃ r r', A.elastic s = .ok (some r) ∧ (A.withAmps ampV ampP o).elastic s = .ok (some r') ∧
      ∀ t ≤ T, t < P.steps → t < Plan.steps { P with nt := n } →
        (∀ i < locCount A.rcvP, (r'.tracesP i).val t = (r.tracesP i).val t) ∧
        ∀ k, ∀ i < locCount (A.rcvV k), (r'.tracesV k i).val t = (r.tracesV k i).val t := by
  have hg := good_newAmps h.good h1 (n := n) (amps := List.ofFn ampV ++ [ampP]) (o := o)
    (forall_snoc (rel_length ha) fun k => rel_length (hb k)) (ho.imp id fun hx => ⟨hx.1, by
      rcases hx.2 with hx | ⟨k, hx⟩
      · obtain ⟨a, ha⟩ := Option.ne_none_iff_exists'.1 hx
        exact ⟨a, by simp [ha]⟩
      · obtain ⟨a, ha⟩ := Option.ne_none_iff_exists'.1 hx
        exact ⟨a, List.mem_append_left _ (List.mem_ofFn.2 ⟨k, ha⟩)⟩⟩)
  replace hg : (A.withAmps ampV ampP o).setup.Good { P with nt := n } := hg
  obtain ⟨r, v, sig, mv, ms, hc, hw, hi, hE, hp, hv⟩ := C93_elastic_scheme A P s cf (plan_ok.2 h.good) h.pre
    h.lt h.pml h.loc h.last h.freq h.interval h.nt
  obtain ⟨r', v', sig', mv', ms', hc', hw', hi', hE', hp', hv'⟩ := C93_elastic_scheme _ _ s cf (plan_ok.2 hg) h.pre
    h.lt h.pml h.loc h.last h.freq h.interval (hn.imp id fun hn => by
      show P.ratio * P.interval ≤ (n : ℤ) ∨ (n : ℤ) ≤ 0
      rw [h1, one_mul]
      omega)
  have e := hw.before hw' (T := T) (fun t ht => ⟨locSum_until h.good hg h1 h1 d (snoc_last _ _) (snoc_last _ _) ha ht,
    funext fun k => locSum_until h.good hg h1 h1 k (snoc_init _ _ k) (snoc_init _ _ k) (hb k) ht⟩)
    (Starts.eq (P := P) (w := A.wf) hw.symm hw'.symm hw.outside hw'.outside hi hi')
  refine ⟨r, r', hc, hc', fun t hT h2 h3 => ⟨fun i hl => ?_, fun k i hl => ?_⟩⟩
  · rw [hp i hl, hp' i hl]
    exact congrArg (fun x : ℝ => -x / d) (traces_until h.good hg h1 h1 h2 h3 (by rw [(e t hT).2.1]; rfl) rfl rfl)
  · rw [hv k i hl, hv' k i hl]
    exact traces_until h.good hg h1 h1 h2 h3 (by rw [(e t hT).1]; rfl) rfl rfl

theorem exG_fwd (s : ℕ) (hs : s < 2) : Fwd exG exGP s 1 where
  good := exG_good
  pre := exU_pre .none
  lt := hs
  pml := .inl (by norm_num [exGP, exPl1, exPl])
  loc := fun l hl => Born.exLoc_whole hs (exU_locs .none l hl)
  last := fun k => .inl (by fin_cases k <;> norm_num [exGP, exPl1, exPl, Plan.w1])
  freq := rfl
  interval := by norm_num [exGP, exPl1, exPl]
  nt := .inr (.inl (by norm_num [exGP, exPl1, exPl]))

example : ∃ r r', exG.elastic 1 = .ok (some r) ∧
    (exG.withAmps (fun k => (![none, some exAmp] k).map (AmpT.delay 4)) (some (exAmp.delay 4)) none).elastic 1 = .ok (some r') ∧
    r'.out = r.out ∧ LaterBy 4 (r.tracesP 1) (r'.tracesP 1) ∧ LaterBy 4 (r.tracesV 0 1) (r'.tracesV 0 1) := by
  obtain ⟨r, r', h1, h2, h3, h4, h5⟩ := C123_elastic_delay exG _ 1 1 (exG_fwd 1 (by decide))
    (by norm_num [exGP, exPl1]) (fun x hx => by
      cases x with
      | none => rfl
      | some x => exact absurd hx (exU_noWf (sp := .none) x)) 4 (by norm_num [exGP, exPl1, exPl]) none
    (.inr ⟨rfl, .inl (by simp [exG, exU])⟩)
  exact ⟨r, r', h1, h2, h3, h4 1 (by decide), h5 0 1 (by decide)⟩

example : ∃ r r', exG.elastic 1 = .ok (some r) ∧
    (exG.withAmps ![none, some ⟨2, 2, 20, fun s i t => if t < 3 then exAmp.val s i t else 88⟩]
      (some ⟨2, 2, 20, fun s i t => if t < 3 then exAmp.val s i t else 77⟩) none).elastic 1 = .ok (some r') ∧
    ∀ t ≤ 3, (r'.tracesP 1).val t = (r.tracesP 1).val t := by
  obtain ⟨r, r', h1, h2, h3⟩ := C124_elastic_causal exG _ 1 1 (exG_fwd 1 (by decide)) (by norm_num [exGP, exPl1]) 20 3
    ![none, some ⟨2, 2, 20, fun s i t => if t < 3 then exAmp.val s i t else 88⟩]
    (some ⟨2, 2, 20, fun s i t => if t < 3 then exAmp.val s i t else 77⟩) none
    (.some ⟨⟨rfl, rfl, rfl⟩, fun i _ t ht => if_pos ht⟩)
    (Fin.forall_fin_two.2 ⟨.none, .some ⟨⟨rfl, rfl, rfl⟩, fun i _ t ht => if_pos ht⟩⟩) (.inr ⟨rfl, .inl (by simp)⟩)
    (.inr (.inl (by norm_num [exGP, exPl1, exPl])))
  exact ⟨r, r', h1, h2, fun t ht => (h3 t ht (by
    show t < 5
    omega) (by
    show t < 20
    omega)).1 1 (by decide)⟩

end Dw.Elastic
