import Verif.Spec.Reverse
import Verif.Props.UserDelayMore
import Verif.Props.UserResumeBorn
import Verif.Props.UserReciprocityBorn

/-!
# C131 Time reversal

Without PML, propagation from the last two wavefields of a call, exchanged, with the sources in the opposite order gives
the initial wavefields of that call and its traces in the opposite order.
-/

namespace Dw.Setup

open Scalar (upAmps downS downS_one)
open Resample (Sig)

variable {d : ℕ}

/-- The amplitudes in the opposite order. -/
def AmpT.reverse (a : AmpT) : AmpT := { a with val := fun s i t => a.val s i (a.nt - 1 - t) }

/-- The signal in the opposite order. -/
def Reversed (x x' : Sig ℝ) : Prop := x'.len = x.len ∧ ∀ t < x.len, x'.val t = x.val (x.len - 1 - t)

theorem ampSize_reverse (l : List (Option AmpT)) :
    (l.map (Option.map AmpT.reverse)).map (Option.map AmpT.size) = l.map (Option.map AmpT.size) := by
  rw [List.map_map]
  refine List.map_congr_left fun o _ => ?_
  cases o <;> rfl

theorem steps_one {P : Plan d} (h1 : P.ratio = 1) (hi : 0 < P.interval) (hd : P.interval ∣ P.nt) (h0 : 0 ≤ P.nt) :
    P.steps = P.nt.toNat := by
  unfold Plan.steps
  rw [h1, one_mul]
  refine Nat.div_mul_cancel ?_
  rw [← Int.natCast_dvd_natCast, Int.toNat_of_nonneg hi.le, Int.toNat_of_nonneg h0]
  exact hd

theorem locSum_reverse {A A' : SetupArgs d} {P : Plan d} (h : A.Good P) (h' : A'.Good P) (h1 : P.ratio = 1) (tt : Bool)
    (o : Option LocT) {a : Option AmpT} (ha : a ∈ A.amps) (s : ℕ) (t : ℕ) (ht : t < P.nt.toNat) :
    locSum (d := d) o s (fun i => upAmps P tt (a.map AmpT.reverse) s t i) =
      locSum o s fun i => upAmps P tt a s (P.nt.toNat - 1 - t) i := by
  congr 1
  funext i
  rw [upAmps_same h' h1, upAmps_same h h1]
  cases a with
  | none => rfl
  | some a =>
      have := (checkAmps_ok.1 h.amps a ha).2.1
      rw [h1, mul_one] at this
      show a.val s i (a.nt - 1 - t) = a.val s i (P.nt.toNat - 1 - t)
      rw [show a.nt = P.nt.toNat by omega]

/-- Wavefields that are taken from those of another run. -/
theorem starts_reversed {P : Plan d} {s N : ℕ} {w : Born.UWf d} {o : Scalar.Wavefields d ℝ} {u u' : ℕ → Fld d ℝ}
    {psi zeta psi' zeta' : ℕ → Fin d → Fld d ℝ} (hE : P.EndsIn N o u psi zeta)
    (ho : ∀ t c, ¬P.grid.In c → u t c = 0) (ho' : ∀ t c, ¬P.grid.In c → u' t c = 0)
    (h : P.StartsFrom s w u' psi' zeta') (hc : ∀ c, P.given w.wfc s c = o.wfp (P.index c))
    (hp : ∀ c, P.given w.wfp s c = o.wfc (P.index c)) : u' 0 = u (N + 1) ∧ u' 1 = u N := by
  refine ⟨funext fun c => ?_, funext fun c => ?_⟩
  · by_cases hi : P.grid.In c
    · rw [(h c hi).2.1, hp, (hE c).1]
    · rw [ho _ c hi, ho' _ c hi]
  · by_cases hi : P.grid.In c
    · rw [(h c hi).1, hc, (hE c).2.1]
    · rw [ho _ c hi, ho' _ c hi]

theorem traces_reversed {A : SetupArgs d} {P : Plan d} (h : A.Good P) (h1 : P.ratio = 1)
    (hs : P.steps = P.nt.toNat) {tt : Bool} {f : Fld d ℝ → ℝ} {u u' : ℕ → Fld d ℝ} {y y' : Sig ℝ}
    (hu : ∀ t ≤ P.nt.toNat, u' t = u (P.nt.toNat + 1 - t) ∧ u' (t + 1) = u (P.nt.toNat - t))
    (hy : y = downS P tt ⟨P.nt.toNat, fun t => if t < P.steps then f (u (t + 1)) else 0⟩)
    (hy' : y' = downS P tt ⟨P.nt.toNat, fun t => if t < P.steps then f (u' (t + 1)) else 0⟩) : Reversed y y' := by
  rw [hy, hy', downS_one h h1, downS_one h h1, hs]
  refine ⟨rfl, fun t ht => ?_⟩
  replace ht : t < P.nt.toNat := ht
  simp only
  rw [if_pos ht, if_pos (by omega), (hu t ht.le).2, show P.nt.toNat - 1 - t + 1 = P.nt.toNat - t by omega]

end Dw.Setup

namespace Dw.Scalar

open Setup Resample

variable {d : ℕ}

/-- The wavefields at the last two times exchanged. -/
def Wavefields.swap (w : Wavefields d ℝ) : Wavefields d ℝ := { w with wfc := w.wfp, wfp := w.wfc }

/-- The call that goes on from the results `r` of another in the opposite direction. -/
def UArgs.backwards (A : UArgs d) (nb : ℕ) (shape : Fin d → ℤ) (r : ℕ → UShot d) : UArgs d :=
  ({ A with amps := A.amps.map AmpT.reverse } : UArgs d).resume nb shape fun s => { r s with out := (r s).out.swap }

/-- **C131** Time reversal: without PML, the call of `scalar` that starts with the final wavefields of another call,
`wavefield_0` and `wavefield_m1` exchanged, and has the source amplitudes in the opposite order, returns the initial
wavefields of that call, exchanged, and its traces in the opposite order. For calls without internal time steps and with a
number of samples that is a multiple of `model_gradient_sampling_interval`. -/
theorem C131_time_reversal (A : UArgs d) (P : Plan d) (cf : ℤ) (hnb : 0 < P.nb) (h : ∀ s < P.nb, Fwd A P s cf)
    (h1 : P.ratio = 1) (hpml : ∀ k, P.w0 k = 0 ∧ P.w1 k = 0) (hd : P.interval ∣ P.nt)
    (hor : A.surveyPad = .none → A.NoWavefields → A.origin = none)
    (hact : A.surveyPad = .none → ∀ l, A.src = some l ∨ A.rcv = some l → ∀ k < d, ∃ s < l.nb, ∃ i < l.n,
      l.val s i k ≠ (ignoreLocation : ℚ)) :
    ∃ r r' : ℕ → UShot d, (∀ s < P.nb, A.scalar s = .ok (some (r s))) ∧
      (∀ s < P.nb, (A.backwards P.nb (wfShape P) r).scalar s = .ok (some (r' s))) ∧
      ∀ s < P.nb,
        (∀ c, P.grid.In c → (r' s).out.wfc (P.index c) = P.given A.wfp s c ∧
          (r' s).out.wfp (P.index c) = P.given A.wfc s c) ∧
        ∀ i < locCount A.rcv, Reversed ((r s).traces i) ((r' s).traces i) := by
  have hg := (h 0 hnb).good
  have hi := (h 0 hnb).interval
  have hst := steps_one h1 hi hd hg.nt_nonneg
  have k1 : ∀ s, ∃ r : UShot d, s < P.nb → ∃ u psi zeta, A.scalar s = .ok (some r) ∧
      P.grid.Wave (P.grid.extend (A.v.shot s)) (fun t => locSum A.src s fun i => upAmps P A.timeTaper A.amps s t i)
        u psi zeta ∧ P.StartsFrom s ⟨A.wfc, A.wfp, A.psi, A.zeta⟩ u psi zeta ∧ P.EndsIn P.steps r.out u psi zeta ∧
      ∀ i < locCount A.rcv, r.traces i = downS P A.timeTaper ⟨P.nt.toNat, fun t =>
        if t < P.steps then locValue A.rcv s i (u (t + 1)) else 0⟩ := fun s => by
    by_cases hs : s < P.nb
    · obtain ⟨r, u, psi, zeta, hr⟩ := C90_scalar_scheme A P s cf (plan_ok.2 hg) hs (h s hs).pml (h s hs).src (h s hs).rcv
        (h s hs).freq hi (h s hs).nt
      exact ⟨r, fun _ => ⟨u, psi, zeta, hr⟩⟩
    · obtain ⟨r, -⟩ := C90_scalar_scheme A P 0 cf (plan_ok.2 hg) hnb (h 0 hnb).pml (h 0 hnb).src (h 0 hnb).rcv
        (h 0 hnb).freq hi (h 0 hnb).nt
      exact ⟨r, fun hs' => absurd hs' hs⟩
  choose r hr using k1
  have hg0 : ({ A with amps := A.amps.map AmpT.reverse } : UArgs d).setup.Good P :=
    hg.revalue (amps := A.setup.amps.map (Option.map AmpT.reverse)) (wfs := A.setup.wfs) (ampSize_reverse _) rfl
  have hg' : (A.backwards P.nb (wfShape P) r).setup.Good P := setup_resume hg0 _ hor hact
  have k2 : ∀ s, ∃ r' : UShot d, s < P.nb → (A.backwards P.nb (wfShape P) r).scalar s = .ok (some r') ∧
      (∀ c, P.grid.In c → r'.out.wfc (P.index c) = P.given A.wfp s c ∧ r'.out.wfp (P.index c) = P.given A.wfc s c) ∧
        ∀ i < locCount A.rcv, Reversed ((r s).traces i) (r'.traces i) := fun s => by
    by_cases hs : s < P.nb
    · obtain ⟨u, psi, zeta, -, hw, hi0, hE, ht⟩ := hr s hs
      obtain ⟨r', u', psi', zeta', hc', hw', hi', hE', ht'⟩ := C90_scalar_scheme (A.backwards P.nb (wfShape P) r) P s cf
        (plan_ok.2 hg') hs (h s hs).pml (h s hs).src (h s hs).rcv (h s hs).freq hi (h s hs).nt
      obtain ⟨e0, e1⟩ := starts_reversed (w := ⟨_, _, _, _⟩) hE (fun t c hc => (hw.outside t c hc).1)
        (fun t c hc => (hw'.outside t c hc).1) hi' (fun c => rfl) (fun c => rfl)
      rw [hst] at e0 e1 hE
      have key := hw.reversed (show P.grid.NoPml from hpml) hw' P.nt.toNat (fun t ht => locSum_reverse hg hg' h1 A.timeTaper A.src
        List.mem_cons_self s t ht) e0 e1
      replace hE' : P.EndsIn P.steps r'.out u' psi' zeta' := hE'
      rw [hst] at hE'
      refine ⟨r', fun _ => ⟨hc', fun c hc => ⟨?_, ?_⟩, fun i hl => ?_⟩⟩
      · rw [(hE' c).1, (key _ le_rfl).2, Nat.sub_self, (hi0 c hc).2.1]
      · rw [(hE' c).2.1, (key _ le_rfl).1, Nat.add_sub_cancel_left, (hi0 c hc).1]
      · exact traces_reversed hg h1 hst key (ht i hl) (ht' i hl)
    · exact ⟨r s, fun hs' => absurd hs' hs⟩
  choose r' hr' using k2
  exact ⟨r, r', fun s hs => (hr s hs).choose_spec.choose_spec.choose_spec.1, fun s hs => (hr' s hs).1,
    fun s hs => (hr' s hs).2⟩

theorem exV0_fwd (s : ℕ) (hs : s < (exQ 0).nb) : Fwd (exV 0) (exQ 0) s 1 :=
  have h := exV_accepted 0 (.inl rfl) s hs
  { good := plan_ok.1 h.plan, lt := h.shot, pml := h.pml, src := h.src, rcv := h.rcv, freq := rfl
    interval := by norm_num [exQ], nt := .inr (.inl (by norm_num [exQ])) }

/-- Backwards, the example ends with zero wavefields. -/
example : ∃ r r' : ℕ → UShot 2, (exV 0).scalar 0 = .ok (some (r 0)) ∧
    ((exV 0).backwards 1 (wfShape (exQ 0)) r).scalar 0 = .ok (some (r' 0)) ∧
    (∀ c, (exQ 0).grid.In c → (r' 0).out.wfc ((exQ 0).index c) = 0) ∧
    Reversed ((r 0).traces 0) ((r' 0).traces 0) := by
  obtain ⟨r, r', h1, h2, h3⟩ := C131_time_reversal (exV 0) (exQ 0) 1 one_pos exV0_fwd rfl
    (fun k => by fin_cases k <;> exact ⟨rfl, rfl⟩) (by show (2 : ℤ) ∣ 6; decide) (fun _ _ => rfl) (fun _ l hl k hk => by
      rcases hl with hl | hl <;> cases hl
      · exact ⟨0, one_pos, 0, one_pos, exOne_whole (by norm_num) (by norm_num) 0 0 k hk⟩
      · exact ⟨0, one_pos, 0, one_pos, exOne_whole (by norm_num) (by norm_num) 0 0 k hk⟩)
  exact ⟨r, r', h1 0 one_pos, h2 0 one_pos, fun c hc => ((h3 0 one_pos).1 c hc).1, (h3 0 one_pos).2 0 one_pos⟩

end Dw.Scalar

namespace Dw.Born

open Setup Resample
open Scalar (upAmps downS wfShape Wavefields.swap)

variable {d : ℕ}

/-- The call that goes on from the results `r` of another in the opposite direction. -/
def UArgs.backwards (A : UArgs d) (nb : ℕ) (shape : Fin d → ℤ) (r : ℕ → UShot d) : UArgs d :=
  ({ A with amps := A.amps.map AmpT.reverse } : UArgs d).resume nb shape fun s =>
    { r s with out := (r s).out.swap, outsc := (r s).outsc.swap }

/-- **C131** Time reversal for `scalar_born`: background and scattered wavefields and traces. -/
theorem C131_born_time_reversal (A : UArgs d) (P : Plan d) (cf : ℤ) (hnb : 0 < P.nb) (h : ∀ s < P.nb, Fwd A P s cf)
    (h1 : P.ratio = 1) (hpml : ∀ k, P.w0 k = 0 ∧ P.w1 k = 0) (hd : P.interval ∣ P.nt)
    (hor : A.opts.surveyPad = .none → (∀ w, some w ∉ A.wf.list ++ A.wfsc.list) → A.opts.origin = none)
    (hact : A.opts.surveyPad = .none → A.setup.Active id P.nb) :
    ∃ r r' : ℕ → UShot d, (∀ s < P.nb, A.born s = .ok (some (r s))) ∧
      (∀ s < P.nb, (A.backwards P.nb (wfShape P) r).born s = .ok (some (r' s))) ∧
      ∀ s < P.nb,
        (∀ c, P.grid.In c →
          ((r' s).out.wfc (P.index c) = P.given A.wf.wfp s c ∧ (r' s).out.wfp (P.index c) = P.given A.wf.wfc s c) ∧
          (r' s).outsc.wfc (P.index c) = P.given A.wfsc.wfp s c ∧
          (r' s).outsc.wfp (P.index c) = P.given A.wfsc.wfc s c) ∧
        (∀ i < locCount A.bgRcv, Reversed ((r s).bgTraces i) ((r' s).bgTraces i)) ∧
        ∀ i < locCount A.rcv, Reversed ((r s).traces i) ((r' s).traces i) := by
  have hg := (h 0 hnb).good
  have hi := (h 0 hnb).interval
  have hst := steps_one h1 hi hd hg.nt_nonneg
  obtain ⟨r, hr⟩ := choose_lt fun s hs => C91_born_scheme A P s cf (plan_ok.2 hg) hs (h s hs).pml (h s hs).loc
    (h s hs).freq hi (h s hs).nt
  have hg0 : ({ A with amps := A.amps.map AmpT.reverse } : UArgs d).setup.Good P :=
    hg.revalue (amps := A.setup.amps.map (Option.map AmpT.reverse)) (wfs := A.setup.wfs) (ampSize_reverse _) rfl
  have hg' : (A.backwards P.nb (wfShape P) r).setup.Good P := resume_good hg0 _ hor hact
  obtain ⟨r', hr'⟩ := choose_lt fun s hs => C91_born_scheme (A.backwards P.nb (wfShape P) r) P s cf (plan_ok.2 hg') hs
    (h s hs).pml (h s hs).loc (h s hs).freq hi (h s hs).nt
  refine ⟨r, r', fun s hs => ?_, fun s hs => ?_, fun s hs => ?_⟩
  · obtain ⟨_, _, _, _, _, _, hc, -⟩ := hr s hs
    exact hc
  · obtain ⟨_, _, _, _, _, _, hc, -⟩ := hr' s hs
    exact hc
  obtain ⟨u, psi, zeta, usc, psisc, zetasc, -, hw, hws, hi0, his0, hE, hEs, ht, hts⟩ := hr s hs
  obtain ⟨u', psi', zeta', usc', psisc', zetasc', -, hw', hws', hi', his', hE', hEs', ht', hts'⟩ := hr' s hs
  obtain ⟨e0, e1⟩ := starts_reversed hE (fun t c hc => (hw.outside t c hc).1) (fun t c hc => (hw'.outside t c hc).1) hi'
    (fun c => rfl) (fun c => rfl)
  obtain ⟨f0, f1⟩ := starts_reversed hEs (fun t c hc => (hws.outside t c hc).1) (fun t c hc => (hws'.outside t c hc).1) his'
    (fun c => rfl) (fun c => rfl)
  rw [hst] at e0 e1 f0 f1 hE' hEs'
  have hq := fun t ht => locSum_reverse hg hg' h1 A.opts.timeTaper A.src (a := A.amps) List.mem_cons_self s t ht
  have key := hw.reversed (show P.grid.NoPml from hpml) hw' P.nt.toNat hq e0 e1
  have key' := hws.reversed (show P.grid.NoPml from hpml) hws' P.nt.toNat hq key f0 f1
  refine ⟨fun c hc => ⟨⟨?_, ?_⟩, ?_, ?_⟩, fun i hl => ?_, fun i hl => ?_⟩
  · rw [(hE' c).1, (key _ le_rfl).2, Nat.sub_self, (hi0 c hc).2.1]
  · rw [(hE' c).2.1, (key _ le_rfl).1, Nat.add_sub_cancel_left, (hi0 c hc).1]
  · rw [(hEs' c).1, (key' _ le_rfl).2, Nat.sub_self, (his0 c hc).2.1]
  · rw [(hEs' c).2.1, (key' _ le_rfl).1, Nat.add_sub_cancel_left, (his0 c hc).1]
  · exact traces_reversed hg h1 hst key (ht i hl) (ht' i hl)
  · exact traces_reversed hg h1 hst key' (hts i hl) (hts' i hl)

theorem exX_fwds (s : ℕ) (hs : s < 2) : Fwd exX exXP s 1 :=
  { exX_fwd with
    lt := hs
    loc := fun l hl => by
      have : s = 0 ∨ s = 1 := by omega
      rcases this with rfl | rfl
      · refine fun i _ => .inl fun k _ => ?_
        rcases hl with hl | hl | hl <;> cases hl <;> rfl
      · exact exX_fwd.loc l hl }

example : ∃ r r' : ℕ → UShot 2, exX.born 1 = .ok (some (r 1)) ∧
    (exX.backwards 2 (wfShape exXP) r).born 1 = .ok (some (r' 1)) ∧ Reversed ((r 1).traces 0) ((r' 1).traces 0) := by
  obtain ⟨r, r', h1, h2, h3⟩ := C131_born_time_reversal exX exXP 1 (by norm_num [exXP, exPl0]) exX_fwds rfl
    (exPl0_width _ _ _ _ _) (one_dvd _) (fun _ _ => rfl) (fun _ l hl k hk => by
      have : some l ∈ [some (exAt 2 3), some (exAt 2 3), some (exAt 2 3), some (exAt 4 5)] := hl
      simp only [List.mem_cons, List.not_mem_nil, or_false, Option.some.injEq] at this
      refine ⟨1, by norm_num [exXP, exPl0], 0, ?_⟩
      have e : l = exAt 2 3 ∨ l = exAt 4 5 := by tauto
      revert k
      rcases e with rfl | rfl <;> decide +kernel)
  exact ⟨r, r', h1 1 (by norm_num [exXP, exPl0]), h2 1 (by norm_num [exXP, exPl0]),
    (h3 1 (by norm_num [exXP, exPl0])).2.2 0 (by decide)⟩

end Dw.Born
