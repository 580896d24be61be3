import Verif.Props.UserFluid
import Verif.Props.UserScheme
import Verif.Props.UserResumeAcoustic
import Verif.Props.UserResumeElastic
import Verif.Props.UserGradBorn
import Verif.Props.ScalarEnergy
import Verif.Props.AcousticEnergy
import Verif.Props.ElasticEnergy

/-!
# C106: calls without PML never blow up
-/

namespace Dw.Setup

open Dw.Scalar (maxAbs)

variable {d : ℕ} {A : SetupArgs d} {P : Plan d}

/-- The time step of a plan comes from `cfl_condition_n`. -/
theorem SetupArgs.Good.cfl_ofFn (h : A.Good P) :
    cflConditionN (List.ofFn P.dx) A.dt P.maxVel = .ok (P.dt, P.ratio) := by
  have hl : P.dxL.length = d := ((C35_grid_spacing _ _ _).1 h.dx).1.1
  have e : List.ofFn P.dx = P.dxL.map fun q : ℚ => (q : ℝ) := by
    refine List.ext_getElem (by simp [hl]) fun i h1 h2 => ?_
    have hi : i < P.dxL.length := by simpa using h2
    simp [Plan.dx, List.getD_eq_getElem?_getD, List.getElem?_eq_getElem hi]
  rw [e]
  exact h.cfl

/-- No value of a model is larger than its largest. -/
theorem le_maxAbs (m : ModelT d ℝ) {s : ℕ} (hs : s < m.nb.getD 1) {c : Cell d} (hc : InShape m.shape c) :
    |m.val s c| ≤ maxAbs m := by
  refine le_csSup ?_ ⟨s, hs, c, hc, rfl⟩
  have hfin : {x : ℝ | ∃ s < m.nb.getD 1, ∃ c, InShape m.shape c ∧ x = |m.val s c|}.Finite := by
    have : {x : ℝ | ∃ s < m.nb.getD 1, ∃ c, InShape m.shape c ∧ x = |m.val s c|} ⊆
        (fun p : ℕ × Cell d => |m.val p.1 p.2|) '' (Set.Iio (m.nb.getD 1) ×ˢ
          (Set.univ.pi fun k => Set.Ico (0 : ℤ) (m.shape k))) := by
      rintro x ⟨s, hs, c, hc, rfl⟩
      exact ⟨(s, c), ⟨hs, fun k _ => hc k⟩, rfl⟩
    exact Set.Finite.subset (Set.Finite.image _ ((Set.finite_Iio _).prod (Set.Finite.pi fun k => Set.finite_Ico _ _))) this
  exact hfin.bddAbove

/-- The values that a shot uses. -/
theorem SetupArgs.Good.shot_le (h : A.Good P) {s : ℕ} (hs : s < P.nb) {m : ModelT d ℝ × PadMode} (hm : m ∈ A.models)
    {c : Cell d} (hc : InShape m.1.shape c) : |m.1.shot s c| ≤ maxAbs m.1 := by
  have hnb : 0 < P.nb := by omega
  have hb := (((extractModels_iff hnb).1 h.models).1 m hm).batch
  unfold ModelT.shot
  refine le_maxAbs _ ?_ hc
  split_ifs with h1
  · omega
  · rcases hb with h2 | h2 <;> omega

end Dw.Setup

namespace Dw.Scalar

open Setup Resample

variable {d : ℕ}

/-- The call with `n` samples of the amplitudes after the first `m`. -/
def UArgs.part (A : UArgs d) (m n : ℕ) : UArgs d :=
  {A with amps := A.amps.map (AmpT.part m n), nt := partNt n A.nt}

theorem part_good {A : UArgs d} {P : Plan d} (h : A.setup.Good P) (m n : ℕ) :
    (A.part m n).setup.Good {P with nt := n * P.ratio} := h.part m n

/-- **C106** A call of `scalar` without PML and without internal substeps never blows up, whatever the velocity model:
if the amplitudes of the sources vanish from sample `T` on, then one bound holds for the wavefield and the
receiver data of the calls with any number `n` of time samples.  Velocities must not be zero nor larger than `max_vel`,
if the user gave that. -/
theorem C106_scalar_never_blows_up (hd : 0 < d) (A : UArgs d) (P : Plan d) (s : ℕ) (cf : ℤ) (T : ℕ)
    (hplan : A.setup.plan = .ok P) (hs : s < P.nb) (hw : ∀ k, P.w0 k = 0 ∧ P.w1 k = 0)
    (hsrc : ∀ l, A.src = some l → WholeIgnored d l s) (hrcv : ∀ l, A.rcv = some l → WholeIgnored d l s)
    (hcf : checkCallbackFrequency A.callbackFreq = .ok cf) (hi : 0 < P.interval) (h1 : P.ratio = 1)
    (hv : ∀ c, InShape A.v.shape c → A.v.shot s c ≠ 0)
    (hmax : A.maxVel = none ∨ ∀ c, InShape A.v.shape c → |A.v.shot s c| ≤ P.maxVel)
    (hT : ∀ a, A.amps = some a → ∀ i t, T ≤ t → a.val s i t = 0) :
    ∃ B : ℝ, ∀ n : ℕ, A.callback = true ∨ P.interval ≤ n ∨ n = 0 → ∃ r, (A.part 0 n).scalar s = .ok (some r) ∧
      (∀ c, |r.out.wfc c| ≤ B) ∧ ∀ i < locCount A.rcv, ∀ t, |(r.traces i).val t| ≤ B := by
  have h := plan_ok.1 hplan
  have hP : PmlOk P := .inr hw
  have hext := UArgs.Good.ext_lt h (by omega : 0 < P.nb)
  have hwf := cfg_wf h hs hP hsrc hrcv
  have hn := (cfg_profiles h hP (locAt P.srcs 0).n (locAt P.rcvs 0).n s).2.2 hw
  have hvin : ∀ c, ∃ x, InShape A.v.shape x ∧
      (cfg (locAt P.srcs 0).n (locAt P.rcvs 0).n P s).v c = A.v.shot s x := fun c => by
    obtain ⟨x, hx, e⟩ := extend_shape h hext fun k => c k - P.off k
    refine ⟨x, hx, ?_⟩
    rw [← e (A.v.shot s), ← v_at h hs, Plan.at_sub]
  have hmax' : ∀ c, InShape A.v.shape c → |A.v.shot s c| ≤ P.maxVel := by
    rcases hmax with h2 | h2
    · intro c hc
      have h3 := h.maxVel
      have e : A.setup.maxVel = none := h2
      rw [e] at h3
      have e2 : maxAbs A.v = P.maxVel := by simpa [setMaxVelR, UArgs.setup] using h3
      rw [← e2]
      exact h.shot_le hs (m := (A.v, .replicate)) List.mem_cons_self hc
    · exact h2
  have hcfl : cflConditionN (List.ofFn (cfg (locAt P.srcs 0).n (locAt P.rcvs 0).n P s).dx) A.dt P.maxVel =
      .ok ((cfg (locAt P.srcs 0).n (locAt P.rcvs 0).n P s).dt, P.ratio) := h.cfl_ofFn
  obtain ⟨k1, k2, k3⟩ := Cfg.cflAt (C := cfg (locAt P.srcs 0).n (locAt P.rcvs 0).n P s) hcfl fun c _ => by
    obtain ⟨x, hx, e⟩ := hvin c
    rw [e]
    exact hmax' x hx
  have hamp : ∀ (n t i : ℕ), upAmps {P with nt := n * P.ratio} A.timeTaper (A.amps.map (AmpT.part 0 n)) s t i =
      upAmps P A.timeTaper A.amps s t i := fun n t i => by rw [upAmps_part h h1, Nat.zero_add]
  have hzero : ∀ t i, T ≤ t → upAmps P A.timeTaper A.amps s t i = 0 := fun t i ht => by
    rw [upAmps_one h h1]
    cases ha : A.amps with
    | none => rfl
    | some a => exact hT a ha i t ht
  obtain ⟨B, hB0, hB⟩ := Cfg.run_bounded (C := cfg (locAt P.srcs 0).n (locAt P.rcvs 0).n P s) hd hwf hn k1 k2 k3 (fun c _ => by
    obtain ⟨x, hx, e⟩ := hvin c
    rw [e]
    exact hv x hx) (Born.scaleAmp (cfg (locAt P.srcs 0).n (locAt P.rcvs 0).n P s)
      fun t i => upAmps P A.timeTaper A.amps s t i) T (fun t ht i => by
        simp only [Born.scaleAmp, hzero t i ht]
        ring) (A.init s)
  refine ⟨B, fun n hnt => ?_⟩
  have hg := part_good h 0 n
  obtain ⟨r, hr, hout, htr⟩ := scalar_eq (A := A.part 0 n) (P := {P with nt := n * P.ratio}) hg hs hP hsrc hrcv hcf hi (by
    show A.callback = true ∨ P.ratio * P.interval ≤ n * P.ratio ∨ n * P.ratio ≤ 0
    rw [h1, one_mul, mul_one]
    rcases hnt with h2 | h2 | h2
    · exact .inl h2
    · exact .inr (.inl h2)
    · right; right; omega)
  have hrun : ∀ m c, |((cfg (locAt P.srcs 0).n (locAt P.rcvs 0).n P s).run
      (Born.scaleAmp (cfg (locAt P.srcs 0).n (locAt P.rcvs 0).n P s)
        fun t i => upAmps {P with nt := n * P.ratio} A.timeTaper (A.amps.map (AmpT.part 0 n)) s t i) 0
      ((cfg (locAt P.srcs 0).n (locAt P.rcvs 0).n P s).start (A.init s)) m).u c| ≤ B := by
    intro m c
    simp only [hamp]
    exact hB m c
  refine ⟨r, hr, fun c => ?_, fun i hi' t => ?_⟩
  · rw [hout]
    exact hrun _ _
  · have hnr : (locAt P.rcvs 0).n = locCount A.rcv := by
      rw [(cfg_locations h hs).2.1]; cases A.rcv <;> rfl
    have e := htr ⟨i, hnr ▸ hi'⟩
    rw [e, downS_one hg h1]
    simp only
    split_ifs with ht
    · unfold sample
      split
      · exact hrun _ _
      · simpa using hB0
    · simpa using hB0

end Dw.Scalar

namespace Dw.Setup

variable {d : ℕ} {A : SetupArgs d} {P : Plan d}

/-- The cells of the model from which two cells that are close get their values are close. -/
theorem extend_near (h : A.Good P) (hext : ∀ k, (P.ext k).1 < (P.ext k).2) (c c' : Cell d) (r : ℤ)
    (hr : ∀ k, |c' k - c k| ≤ r) : ∃ x x', InShape A.shape x ∧ InShape A.shape x' ∧ (∀ k, |x' k - x k| ≤ r) ∧
      (x = fun k => max (P.grid.lo k) (min (P.grid.hi k) (c k))) ∧
      ∀ m : Fld d ℝ, P.grid.extend m c = m x ∧ P.grid.extend m c' = m x' := by
  have hin : ∀ c : Cell d, InShape A.shape fun k => max (P.grid.lo k) (min (P.grid.hi k) (c k)) := fun c k => by
    have := h.in_extents.1 k
    have := hext k
    simp only [Plan.grid]
    omega
  refine ⟨_, _, hin c, hin c', fun k => ?_, rfl, fun m => ⟨rfl, rfl⟩⟩
  have := hr k
  rw [abs_le] at this ⊢
  constructor <;> omega

/-- Without PML the profiles vanish. -/
theorem ab_zero (hw : ∀ k, P.w0 k = 0 ∧ P.w1 k = 0) (st : Bool) (x : ℝ) (k : Fin d) (i : ℤ) :
    (P.pml st).ab x k i = (0, some 0) := Scalar.ab_noPml hw x k i

/-- Bounded samples give bounded traces if there is no resampling. -/
theorem traces_bound (h : A.Good P) (h1 : P.ratio = 1) (tt : Bool) (s : ℕ) {m : ℕ} {loc : Fin m → Option (Cell d)}
    {u : ℕ → Fld d ℝ} {B : ℝ} (hB0 : 0 ≤ B) (hB : ∀ n c, |u n c| ≤ B) (T : ℕ) {i : ℕ} (hi : i < m) (t : ℕ) :
    |((shotIn A P tt s).traces (fun t => if t < T then Scalar.sample loc (u t) else fun _ => 0) i).val t| ≤ B := by
  rw [traces_one h h1 tt s _ hi]
  simp only
  split_ifs
  · unfold Scalar.sample
    split
    · exact hB _ _
    · simpa using hB0
  · simpa using hB0

end Dw.Setup

namespace Dw.Acoustic

open Setup Resample
open Scalar (PmlOk WholeIgnored upAmps maxAbs)

variable {d : ℕ}

theorem states_long {A : UArgs d} {P : Plan d} {s : ℕ} (h : A.setup.Good P) (h1 : P.ratio = 1)
    {np mp : ℕ} {nv mv : Fin d → ℕ} (C : Cfg d np mp nv mv ℝ) (n t : ℕ) :
    (A.part 0 n).states C {P with nt := n * P.ratio} s t = A.states C P s t := by
  unfold UArgs.states
  have e' : ∀ a t i, upAmps {P with nt := n * P.ratio} A.opts.timeTaper (a.map (AmpT.part 0 n)) s t i =
      upAmps P A.opts.timeTaper a s t i := fun a t i => by
    rw [upAmps_part h h1, Nat.zero_add]
  simp only [UArgs.part, e']

/-- **C106** A call of `acoustic` without PML and without internal substeps never blows up: if the amplitudes of all
sources vanish from sample `T` on, then one bound holds for pressure, particle velocities and receiver data of the calls
with any number `n` of time samples.  Velocities must not be zero nor larger than `max_vel`, if the user gave that, and
densities at points less than a stencil apart must not differ by more than a factor of ten. -/
theorem C106_acoustic_never_blows_up (A : UArgs d) (P : Plan d) (s : ℕ) (cf : ℤ) (T : ℕ)
    (hplan : A.setup.plan = .ok P) (hpre : ¬A.Pre) (hs : s < P.nb) (hw : ∀ k, P.w0 k = 0 ∧ P.w1 k = 0)
    (hloc : ∀ l, some l ∈ A.setup.srcs ++ A.setup.rcvs → WholeIgnored d l s)
    (hlast : ∀ k, (P.ext k).2 = A.v.shape k ∨ P.BeforeLast k s (A.srcV k) ∧ P.BeforeLast k s (A.rcvV k))
    (hcf : checkCallbackFrequency A.opts.callbackFreq = .ok cf) (hi : 0 < P.interval) (h1 : P.ratio = 1)
    (hrf : 0 < A.rfmax) (hv : ∀ c, InShape A.v.shape c → A.v.shot s c ≠ 0 ∧ A.rfmax < A.rho.shot s c)
    (hmax : A.opts.maxVel = none ∨ ∀ c, InShape A.v.shape c → |A.v.shot s c| ≤ P.maxVel)
    (hrho : ∀ x y, InShape A.v.shape x → InShape A.v.shape y → (∀ k, |y k - x k| ≤ P.acc.pad) →
      A.rho.shot s y ≤ 10 * A.rho.shot s x)
    (hTp : ∀ a, A.ampP = some a → ∀ i t, T ≤ t → a.val s i t = 0)
    (hTv : ∀ k a, A.ampV k = some a → ∀ i t, T ≤ t → a.val s i t = 0) :
    ∃ B : ℝ, ∀ n : ℕ, A.opts.callback = true ∨ P.interval ≤ n ∨ n = 0 →
      ∃ r, (A.part 0 n).acoustic s = .ok (some r) ∧ (∀ c, |r.out.p c| ≤ B) ∧ (∀ k c, |r.out.v k c| ≤ B) ∧
        (∀ i < locCount A.rcvP, ∀ t, |(r.tracesP i).val t| ≤ B) ∧
        ∀ k, ∀ i < locCount (A.rcvV k), ∀ t, |(r.tracesV k i).val t| ≤ B := by
  have h := plan_ok.1 hplan
  have hnb : 0 < P.nb := by omega
  have hP : PmlOk P := .inr hw
  have hext := h.ext_lt hnb ⟨A.v, List.mem_cons_self⟩
  have hF : ∀ n : ℕ, A.opts.callback = true ∨ P.interval ≤ n ∨ n = 0 →
      Fwd (A.part 0 n) {P with nt := n * P.ratio} s cf := fun n hn =>
    ⟨part_good h 0 n, hpre, hs, hP, hloc, fun k => .inr (hlast k), hcf, hi, by
      show A.opts.callback = true ∨ P.ratio * P.interval ≤ n * P.ratio ∨ n * P.ratio ≤ 0
      rw [h1, one_mul, mul_one]
      rcases hn with h2 | h2 | h2
      · exact .inl h2
      · exact .inr (.inl h2)
      · right; right; omega⟩
  have hmax' : ∀ c, InShape A.v.shape c → |A.v.shot s c| ≤ P.maxVel := by
    rcases hmax with h2 | h2
    · intro c hc
      have h3 := h.maxVel
      have e : A.setup.maxVel = none := h2
      rw [e] at h3
      have e2 : maxAbs A.v = P.maxVel := by simpa [setMaxVelR, UArgs.setup, Opts.setup] using h3
      rw [← e2]
      exact h.shot_le hs (m := (A.v, .replicate)) List.mem_cons_self hc
    · exact h2
  have hmv : ∀ c, (shotIn A.setup P A.opts.timeTaper s).model 0 (P.at c) = P.grid.extend (A.v.shot s) c :=
    model_grid h hnb hext _ _ 0 A.v rfl
  have hmr : ∀ c, (shotIn A.setup P A.opts.timeTaper s).model 1 (P.at c) = P.grid.extend (A.rho.shot s) c :=
    model_grid h hnb hext _ _ 1 A.rho rfl
  have hin : ∀ c, ∃ x, InShape A.v.shape x ∧ (shotIn A.setup P A.opts.timeTaper s).model 0 c = A.v.shot s x ∧
      (shotIn A.setup P A.opts.timeTaper s).model 1 c = A.rho.shot s x := fun c => by
    obtain ⟨x, hx, e⟩ := extend_shape h hext fun k => c k - P.off k
    refine ⟨x, hx, ?_, ?_⟩
    · rw [← e (A.v.shot s), ← hmv, Plan.at_sub]
    · rw [← e (A.rho.shot s), ← hmr, Plan.at_sub]
  have hwf := (hF P.interval.toNat (.inr (.inl (by omega)))).wf
  obtain ⟨_, X, V, -, hX0, hV0, hall⟩ := run_bounded (C := cfgOf A.rfmax (shotIn A.setup P A.opts.timeTaper s)) hwf
    (fun k x => by
      have e := fun y => ab_zero hw true y k x
      refine ⟨?_, ?_, ?_, ?_⟩
      · exact congrArg Prod.fst (e 0)
      · exact congrArg (fun p : ℝ × Option ℝ => p.2.getD 0) (e 0)
      · exact congrArg Prod.fst (e (1 / 2))
      · exact congrArg (fun p : ℝ × Option ℝ => p.2.getD 0) (e (1 / 2)))
    A.rfmax ((shotIn A.setup P A.opts.timeTaper s).model 0) ((shotIn A.setup P A.opts.timeTaper s).model 1)
    ⟨rfl, rfl, hrf, fun c _ => by
      obtain ⟨x, hx, e, -⟩ := hin c
      rw [e]
      exact (hv x hx).1, fun c _ => by
      obtain ⟨x, hx, -, e⟩ := hin c
      rw [e]
      exact (hv x hx).2⟩
    (fun k c _ j j1 j2 => by
      have near : ∀ l : ℤ, |j - l| ≤ P.acc.pad → (shotIn A.setup P A.opts.timeTaper s).model 1 (c.shift k j) ≤
          10 * (shotIn A.setup P A.opts.timeTaper s).model 1 (c.shift k l) := fun l hl => by
        obtain ⟨x, x', hx, hx', hd, -, e⟩ := extend_near h hext (fun i => c.shift k l i - P.off i)
          (fun i => c.shift k j i - P.off i) P.acc.pad fun i => by
            by_cases hik : i = k
            · subst hik
              simp only [Cell.shift_same]
              rw [show c i + j - P.off i - (c i + l - P.off i) = j - l by ring]
              exact hl
            · simp [Cell.shift_ne _ _ _ _ hik]
        have e1 := (e (A.rho.shot s)).1
        have e2 := (e (A.rho.shot s)).2
        rw [← hmr, Plan.at_sub] at e1 e2
        rw [e1, e2]
        exact hrho x x' hx hx' hd
      have hp : ((cfgOf A.rfmax (shotIn A.setup P A.opts.timeTaper s)).acc.order / 2 : ℕ) = P.acc.pad := Acc.order_div_two _
      rw [hp] at j1 j2
      have n0 := near 0 (by rw [abs_le]; constructor <;> omega)
      have n1 := near 1 (by rw [abs_le]; constructor <;> omega)
      rw [Cell.shift_zero] at n0
      linarith)
    A.opts.dt P.maxVel P.ratio h.cfl_ofFn
    (fun c _ => by
      obtain ⟨x, hx, e, -⟩ := hin c
      rw [e]
      exact hmax' x hx)
    (scaleAmpP (cfgOf A.rfmax (shotIn A.setup P A.opts.timeTaper s)) fun t i => upAmps P A.opts.timeTaper A.ampP s t i)
    (scaleAmpV (cfgOf A.rfmax (shotIn A.setup P A.opts.timeTaper s)) fun k t i => upAmps P A.opts.timeTaper (A.ampV k) s t i)
    T
    (fun t ht i => by
      simp only [scaleAmpP]
      rw [upAmps_one h h1]
      cases ha : A.ampP with
      | none => simp
      | some a => simp [hTp a ha i t ht])
    (fun k t ht i => by
      simp only [scaleAmpV]
      rw [upAmps_one h h1]
      cases ha : A.ampV k with
      | none => simp
      | some a => simp [hTv k a ha i t ht])
    (A.wf.zeroed s).toInit
  have hp : ∀ n c, |(A.states (cfgOf A.rfmax (shotIn A.setup P A.opts.timeTaper s)) P s n).p c| ≤ max X V := fun n c =>
    ((hall n).2.1 c).trans (le_max_left _ _)
  have hvv : ∀ k n c, |(A.states (cfgOf A.rfmax (shotIn A.setup P A.opts.timeTaper s)) P s n).v k c| ≤ max X V :=
    fun k n c => ((hall n).2.2 k c).trans (le_max_right _ _)
  have hB0 : 0 ≤ max X V := hX0.trans (le_max_left _ _)
  refine ⟨max X V, fun n hn => ?_⟩
  have hf := hF n hn
  obtain ⟨r, hr, ho, hrp, hrv⟩ := hf.result
  have es : ∀ t, (A.part 0 n).states (cfgOf A.rfmax (shotIn A.setup P A.opts.timeTaper s)) {P with nt := n * P.ratio} s t =
      A.states (cfgOf A.rfmax (shotIn A.setup P A.opts.timeTaper s)) P s t := states_long h h1 _ n
  have hp' : ∀ t c, |((A.part 0 n).states (cfgOf A.rfmax (shotIn A.setup P A.opts.timeTaper s))
      {P with nt := n * P.ratio} s t).p c| ≤ max X V := fun t c => by rw [es]; exact hp t c
  have hv' : ∀ k t c, |((A.part 0 n).states (cfgOf A.rfmax (shotIn A.setup P A.opts.timeTaper s))
      {P with nt := n * P.ratio} s t).v k c| ≤ max X V := fun k t c => by rw [es]; exact hvv k t c
  refine ⟨r, hr, fun c => ?_, fun k c => ?_, fun i hi' t => ?_, fun k i hi' t => ?_⟩
  · rw [ho]; exact hp' _ _
  · rw [ho]; exact hv' k _ _
  · rw [hrp]
    exact traces_bound hf.good h1 _ s hB0 hp' _ (hf.rcvP.length ▸ hi') t
  · rw [hrv]
    exact traces_bound hf.good h1 _ s hB0 (hv' k) _ ((hf.rcvV k).length ▸ hi') t

end Dw.Acoustic

namespace Dw.Elastic

open Setup Resample
open Scalar (PmlOk WholeIgnored upAmps)

variable {d : ℕ}

theorem states_long {A : UArgs d} {P : Plan d} {s : ℕ} (h : A.setup.Good P) (h1 : P.ratio = 1)
    {np mp : ℕ} {nv mv : Fin d → ℕ} (C : Cfg d np mp nv mv ℝ) (n t : ℕ) :
    (A.part 0 n).states C {P with nt := n * P.ratio} s t = A.states C P s t := by
  unfold UArgs.states
  have e' : ∀ a t i, upAmps {P with nt := n * P.ratio} A.opts.timeTaper (a.map (AmpT.part 0 n)) s t i =
      upAmps P A.opts.timeTaper a s t i := fun a t i => by
    rw [upAmps_part h h1, Nat.zero_add]
  simp only [UArgs.part, e']

/-- What the stability of `elastic` needs of the models of shot `s`: solid, fluid (`mu = 0`) or vacuum (all zero)
everywhere; and near every pair of neighbouring cells that are not both vacuum the stiffness is at most `8 / 5` of their
mean density times the square of the maximum velocity.  (In a vacuum the density is `1 / 0 = 0`.) -/
structure UArgs.Stable (A : UArgs d) (P : Plan d) (s : ℕ) : Prop where
  rfmax : 0 < A.rfmax
  nonneg : ∀ c, InShape A.lam.shape c → 0 ≤ A.lam.shot s c ∧ 0 ≤ A.mu.shot s c
  mass : ∀ c, InShape A.lam.shape c → A.rfmax < A.buoyancy.shot s c ∨
    A.buoyancy.shot s c = 0 ∧ A.lam.shot s c = 0 ∧ A.mu.shot s c = 0
  stiff : ∀ x y, InShape A.lam.shape x → InShape A.lam.shape y → (∀ k, |y k - x k| ≤ 1) →
    A.buoyancy.shot s x ≠ 0 ∨ A.buoyancy.shot s y ≠ 0 → ∃ L M : ℝ, 0 ≤ L ∧ 0 ≤ M ∧
      (∀ z, InShape A.lam.shape z → (∀ k, |z k - x k| ≤ P.acc.pad) → A.lam.shot s z ≤ L ∧ A.mu.shot s z ≤ M) ∧
      L + 2 * M ≤ 8 / 5 * P.maxVel ^ 2 * ((1 / A.buoyancy.shot s x + 1 / A.buoyancy.shot s y) / 2)

/-- **C106** A call of `elastic` without PML, internal substeps and initial wavefields never blows up: if the amplitudes
of all sources vanish from sample `T` on, then one bound holds for particle velocities, stresses and receiver data of
the calls with any number `n` of time samples.  The models may contain fluids and vacuum, with no pressure source
in it. -/
theorem C106_elastic_never_blows_up (hd : 0 < d) (A : UArgs d) (P : Plan d) (s : ℕ) (cf : ℤ) (T : ℕ)
    (hplan : A.setup.plan = .ok P) (hpre : ¬A.Pre) (hs : s < P.nb) (hw : ∀ k, P.w0 k = 0 ∧ P.w1 k = 0)
    (hloc : ∀ l, some l ∈ A.setup.srcs ++ A.setup.rcvs → WholeIgnored d l s)
    (hlast : ∀ k, (P.ext k).2 = A.lam.shape k ∨ P.BeforeLast k s (A.srcV k) ∧ P.BeforeLast k s (A.rcvV k))
    (hcf : checkCallbackFrequency A.opts.callbackFreq = .ok cf) (hi : 0 < P.interval) (h1 : P.ratio = 1)
    (hwf : ∀ w, some w ∉ A.wf.list) (hst : A.Stable P s)
    (hvac : ∀ i < locCount A.srcP, ∀ c, locCell A.srcP s i = some c → 0 < A.lam.shot s c ∨ 0 < A.mu.shot s c)
    (hTp : ∀ a, A.ampP = some a → ∀ i t, T ≤ t → a.val s i t = 0)
    (hTv : ∀ k a, A.ampV k = some a → ∀ i t, T ≤ t → a.val s i t = 0) :
    ∃ B : ℝ, ∀ n : ℕ, A.opts.callback = true ∨ P.interval ≤ n ∨ n = 0 →
      ∃ r, (A.part 0 n).elastic s = .ok (some r) ∧ (∀ k c, |r.out.v k c| ≤ B) ∧ (∀ k c, |r.out.s k c| ≤ B) ∧
        (∀ p c, |r.out.sh p c| ≤ B) ∧ (∀ i < locCount A.rcvP, ∀ t, |(r.tracesP i).val t| ≤ B) ∧
        ∀ k, ∀ i < locCount (A.rcvV k), ∀ t, |(r.tracesV k i).val t| ≤ B := by
  have h := plan_ok.1 hplan
  have hnb : 0 < P.nb := by omega
  have hP : PmlOk P := .inr hw
  have hext := h.ext_lt hnb ⟨A.lam, List.mem_cons_self⟩
  have hF : ∀ n : ℕ, A.opts.callback = true ∨ P.interval ≤ n ∨ n = 0 →
      Fwd (A.part 0 n) {P with nt := n * P.ratio} s cf := fun n hn =>
    ⟨part_good h 0 n, hpre, hs, hP, hloc, fun k => .inr (hlast k), hcf, hi, by
      show A.opts.callback = true ∨ P.ratio * P.interval ≤ n * P.ratio ∨ n * P.ratio ≤ 0
      rw [h1, one_mul, mul_one]
      rcases hn with h2 | h2 | h2
      · exact .inl h2
      · exact .inr (.inl h2)
      · right; right; omega⟩
  have hml : ∀ c, (shotIn A.setup P A.opts.timeTaper s).model 0 (P.at c) = P.grid.extend (A.lam.shot s) c :=
    model_grid h hnb hext _ _ 0 A.lam rfl
  have hmm : ∀ c, (shotIn A.setup P A.opts.timeTaper s).model 1 (P.at c) = P.grid.extend (A.mu.shot s) c :=
    model_grid h hnb hext _ _ 1 A.mu rfl
  have hmb : ∀ c, (shotIn A.setup P A.opts.timeTaper s).model 2 (P.at c) = P.grid.extend (A.buoyancy.shot s) c :=
    model_grid h hnb hext _ _ 2 A.buoyancy rfl
  have hnear : ∀ (c c' : Cell d) (r : ℤ), (∀ k, |c' k - c k| ≤ r) → ∃ x x', InShape A.lam.shape x ∧ InShape A.lam.shape x' ∧
      (∀ k, |x' k - x k| ≤ r) ∧ (x = fun k => max (P.grid.lo k) (min (P.grid.hi k) (c k - P.off k))) ∧
      ((shotIn A.setup P A.opts.timeTaper s).model 0 c' = A.lam.shot s x' ∧
      (shotIn A.setup P A.opts.timeTaper s).model 1 c' = A.mu.shot s x' ∧
      (shotIn A.setup P A.opts.timeTaper s).model 2 c = A.buoyancy.shot s x ∧
      (shotIn A.setup P A.opts.timeTaper s).model 2 c' = A.buoyancy.shot s x') := fun c c' r hr => by
    obtain ⟨x, x', hx, hx', hd, ex, e⟩ := extend_near h hext (fun i => c i - P.off i) (fun i => c' i - P.off i) r
      fun k => by rw [show c' k - P.off k - (c k - P.off k) = c' k - c k by ring]; exact hr k
    refine ⟨x, x', hx, hx', hd, ex, ?_, ?_, ?_, ?_⟩
    · rw [← (e (A.lam.shot s)).2, ← hml, Plan.at_sub]
    · rw [← (e (A.mu.shot s)).2, ← hmm, Plan.at_sub]
    · rw [← (e (A.buoyancy.shot s)).1, ← hmb, Plan.at_sub]
    · rw [← (e (A.buoyancy.shot s)).2, ← hmb, Plan.at_sub]
  have hself : ∀ c : Cell d, ∀ k, |c k - c k| ≤ (0 : ℤ) := fun c k => by simp
  have hwf0 := (hF P.interval.toNat (.inr (.inl (by omega)))).wf
  have hnone : (A.wf.zeroed s).toInit = ⟨fun _ => some fun _ => 0, fun _ => some fun _ => 0, fun _ => some fun _ => 0,
      fun _ _ => some fun _ => 0, fun _ _ => some fun _ => 0⟩ := by
    have n1 : ∀ i, A.wf.v i = none := fun i => Option.eq_none_iff_forall_ne_some.2 fun x hx =>
      hwf x (UWf.mem_list.2 (.inl ⟨i, hx⟩))
    have n2 : ∀ i, A.wf.s i = none := fun i => Option.eq_none_iff_forall_ne_some.2 fun x hx =>
      hwf x (UWf.mem_list.2 (.inr (.inl ⟨i, hx⟩)))
    have n3 : ∀ i, A.wf.sh i = none := fun i => Option.eq_none_iff_forall_ne_some.2 fun x hx =>
      hwf x (UWf.mem_list.2 (.inr (.inr (.inl ⟨i, hx⟩))))
    have n4 : ∀ i j, A.wf.mv i j = none := fun i j => Option.eq_none_iff_forall_ne_some.2 fun x hx =>
      hwf x (UWf.mem_list.2 (.inr (.inr (.inr (.inl ⟨i, j, hx⟩)))))
    have n5 : ∀ i j, A.wf.ms i j = none := fun i j => Option.eq_none_iff_forall_ne_some.2 fun x hx =>
      hwf x (UWf.mem_list.2 (.inr (.inr (.inr (.inr ⟨i, j, hx⟩)))))
    simp only [UWf.zeroed, UWf.init, n1, n2, n3, n4, n5, Option.map_none, Option.getD_none, Wavefields.toInit]
  have hsP : Placed P A.srcP s _ := src_placed h hs A.opts.timeTaper (j := d) (get_p _ _)
    ((hF P.interval.toNat (.inr (.inl (by omega)))).mem _ (List.mem_append_left _ (List.mem_append_right _ List.mem_cons_self)))
  obtain ⟨X, hX0, hall⟩ := run_bounded (C := cfgOf A.rfmax (shotIn A.setup P A.opts.timeTaper s)) hwf0
    (fun k x => by
      have e := fun y => ab_zero hw true y k x
      refine ⟨?_, ?_, ?_, ?_⟩
      · exact congrArg Prod.fst (e 0)
      · exact congrArg (fun p : ℝ × Option ℝ => p.2.getD 0) (e 0)
      · exact congrArg Prod.fst (e (1 / 2))
      · exact congrArg (fun p : ℝ × Option ℝ => p.2.getD 0) (e (1 / 2)))
    hd A.rfmax ((shotIn A.setup P A.opts.timeTaper s).model 2)
    ⟨rfl, rfl, hst.rfmax, fun c _ => by
      obtain ⟨x, x', hx, hx', -, -, e1, e2, e3, e4⟩ := hnear c c 0 (hself c)
      show 0 ≤ (shotIn A.setup P A.opts.timeTaper s).model 0 c
      rw [e1]
      exact (hst.nonneg x' hx').1, fun c _ => by
      obtain ⟨x, x', hx, hx', -, -, e1, e2, e3, e4⟩ := hnear c c 0 (hself c)
      show 0 ≤ (shotIn A.setup P A.opts.timeTaper s).model 1 c
      rw [e2]
      exact (hst.nonneg x' hx').2, fun c _ => by
      obtain ⟨x, x', hx, hx', -, -, e1, e2, e3, e4⟩ := hnear c c 0 (hself c)
      show A.rfmax < (shotIn A.setup P A.opts.timeTaper s).model 2 c ∨ (shotIn A.setup P A.opts.timeTaper s).model 2 c = 0 ∧
        (shotIn A.setup P A.opts.timeTaper s).model 0 c = 0 ∧ (shotIn A.setup P A.opts.timeTaper s).model 1 c = 0
      rw [e1, e2, e4]
      exact hst.mass x' hx'⟩
    A.opts.dt P.maxVel P.ratio h.cfl_ofFn
    (fun i c _ hne => by
      obtain ⟨x, y, hx, hy, hxy, ex, -, -, e3, e4⟩ := hnear c (c.shift i 1) 1 fun k => by
        by_cases hik : k = i
        · subst hik
          simp
        · simp [Cell.shift_ne _ _ _ _ hik]
      have hb : A.buoyancy.shot s x ≠ 0 ∨ A.buoyancy.shot s y ≠ 0 := by
        by_contra hno
        push Not at hno
        refine hne ?_
        simp only [rhoOf]
        rw [e3, e4, hno.1, hno.2]
        simp
      obtain ⟨L, M, hL, hM, hz, hle⟩ := hst.stiff x y hx hy hxy hb
      refine ⟨L, M, hL, hM, fun c' _ hn => ?_, ?_⟩
      · have hp : ((cfgOf A.rfmax (shotIn A.setup P A.opts.timeTaper s)).acc.order / 2 : ℕ) = P.acc.pad := Acc.order_div_two _
        obtain ⟨x', z, -, hz', hd', ex', e1, e2, -, -⟩ := hnear c c' P.acc.pad fun k => by
          have := hn k
          rw [hp] at this
          exact this
        rw [ex', ← ex] at hd'
        show (shotIn A.setup P A.opts.timeTaper s).model 0 c' ≤ L ∧ (shotIn A.setup P A.opts.timeTaper s).model 1 c' ≤ M
        rw [e1, e2]
        exact hz z hz' hd'
      · simp only [rhoOf]
        rw [e3, e4]
        exact hle)
    (fun t i => upAmps P A.opts.timeTaper A.ampP s t i) (fun k t i => upAmps P A.opts.timeTaper (A.ampV k) s t i) T
    (fun t ht i => by
      rw [upAmps_one h h1]
      cases ha : A.ampP with
      | none => rfl
      | some a => exact hTp a ha i t ht)
    (fun k t ht i => by
      rw [upAmps_one h h1]
      cases ha : A.ampV k with
      | none => rfl
      | some a => exact hTv k a ha i t ht)
    (fun i c hc => by
      have hl := hsP.get i
      have hc' : ((shotIn A.setup P A.opts.timeTaper s).src d).get i = some c := hc
      rw [hc'] at hl
      cases hq : locCell (d := d) A.srcP s i with
      | none => rw [hq] at hl; cases hl
      | some x =>
          rw [hq] at hl
          have hil : (i : ℕ) < locCount A.srcP := i.isLt.trans_eq hsP.length
          have hin := locCell_in h hs (List.mem_append_left _ (List.mem_append_right _ List.mem_cons_self)) 
            ((hF P.interval.toNat (.inr (.inl (by omega)))).mem _ (List.mem_append_left _ (List.mem_append_right _ List.mem_cons_self)))
            hil hq
          have hcx : c = P.at x := Option.some.inj hl
          show 0 < (shotIn A.setup P A.opts.timeTaper s).model 0 c ∨ 0 < (shotIn A.setup P A.opts.timeTaper s).model 1 c
          rw [hcx, hml, hmm, extend_in hin, extend_in hin]
          exact hvac i hil x hq)
    (A.wf.zeroed s).toInit (by
      rw [hnone]
      exact ⟨fun _ _ _ _ _ => rfl, fun _ _ _ _ _ => rfl, fun _ _ _ _ => rfl, fun _ _ _ _ => rfl⟩)
  have hd1 : (1 : ℝ) ≤ d := by exact_mod_cast hd
  have hXd : X ≤ d * X := by nlinarith
  refine ⟨d * X, fun n hn => ?_⟩
  have hB0 : 0 ≤ d * X := hX0.trans hXd
  have hf := hF n hn
  obtain ⟨r, hr, ho, hrp, hrv⟩ := hf.result
  have hs' : ∀ t, let w : Wavefields d ℝ := ((A.part 0 n).states (cfgOf A.rfmax (shotIn A.setup P A.opts.timeTaper s))
        ({P with nt := n * P.ratio} : Plan d) s t)
      (∀ i c, |w.v i c| ≤ X) ∧ (∀ i c, |w.s i c| ≤ X) ∧ (∀ p c, |w.sh p c| ≤ X) ∧ ∀ c, |w.prs c| ≤ d * X := fun t => by
    have e : (A.part 0 n).states (cfgOf A.rfmax (shotIn A.setup P A.opts.timeTaper s)) {P with nt := n * P.ratio} s t =
      A.states (cfgOf A.rfmax (shotIn A.setup P A.opts.timeTaper s)) P s t := states_long h h1 _ n t
    rw [e]
    exact hall t
  refine ⟨r, hr, fun k c => ?_, fun k c => ?_, fun p c => ?_, fun i hi' t => ?_, fun k i hi' t => ?_⟩
  · rw [ho]; exact ((hs' _).1 k _).trans hXd
  · rw [ho]; exact ((hs' _).2.1 k _).trans hXd
  · rw [ho]; exact ((hs' _).2.2.1 p _).trans hXd
  · rw [hrp]
    have := traces_bound hf.good h1 (A.part 0 n).opts.timeTaper s
      (loc := (cfgOf A.rfmax (shotIn (A.part 0 n).setup {P with nt := n * P.ratio} A.opts.timeTaper s)).rcvP) hB0
      (fun t c => (hs' t).2.2.2 c) ({P with nt := n * P.ratio} : Plan d).steps (hf.rcvP.length ▸ hi') t
    refine le_trans ?_ this
    dsimp only
    rw [abs_div, abs_neg, abs_of_nonneg (by linarith : (0 : ℝ) ≤ d)]
    exact div_le_self (abs_nonneg _) hd1
  · rw [hrv]
    exact (traces_bound hf.good h1 _ s hX0 (fun t c => (hs' t).1 k c) _ ((hf.rcvV k).length ▸ hi') t).trans hXd

end Dw.Elastic

/-! ### Examples: no PML, and sources that last four samples -/

namespace Dw.Setup

open Dw.Scalar (exOne)

def exPulse : AmpT := ⟨2, 2, 5, fun s i t => if t < 4 then s + i * t else 0⟩

theorem exPulse_zero : ∀ a, some exPulse = some a → ∀ s i t, 4 ≤ t → a.val s i t = 0 := by
  intro a ha s i t ht
  cases ha
  exact if_neg (by omega)

def exO0 (sp : SurveyPad) : Opts := {exO1 sp with pmlWidth := .one (.int 0)}

noncomputable def exPl0 (st : Bool) (ext : Fin 2 → ℤ × ℤ) (ms : List (ModelT 2 ℝ × PadMode))
    (srcs rcvs : List (Option LocT)) : Plan 2 :=
  { nb := 2, dxL := [3, 4], maxVel := 1000, dt := (1 / 1000 : ℚ) / (1 : ℤ), ratio := 1, accZ := 4
    wL := [0, 0, 0, 0], freq := 25, nt := 5, interval := 1, ff := 0, tf := 0, ext := ext
    models := ms.map (modelOf ext (padList (d := 2) (padBegin 4 [0, 0, 0, 0]) (padEnd st 4 [0, 0, 0, 0])))
    srcs := srcs.map (idxOpt ext (padBegin 4 [0, 0, 0, 0]) (padEnd st 4 [0, 0, 0, 0]) 2)
    rcvs := rcvs.map (idxOpt ext (padBegin 4 [0, 0, 0, 0]) (padEnd st 4 [0, 0, 0, 0]) 2) }

theorem exPl0_width (st : Bool) (ext : Fin 2 → ℤ × ℤ) (ms : List (ModelT 2 ℝ × PadMode))
    (srcs rcvs : List (Option LocT)) (k : Fin 2) :
    (exPl0 st ext ms srcs rcvs).w0 k = 0 ∧ (exPl0 st ext ms srcs rcvs).w1 k = 0 := by
  show [(0 : ℤ), 0, 0, 0].getD (2 * k) 0 = 0 ∧ [(0 : ℤ), 0, 0, 0].getD (2 * k + 1) 0 = 0
  revert k
  decide

theorem locGood0 {ext : Fin 2 → ℤ × ℤ} {st : Bool} {l : LocT}
    (he : ∀ k, 0 ≤ (ext k).1 ∧ (ext k).1 < (ext k).2 ∧ (ext k).2 ≤ (![7, 9] : Fin 2 → ℤ) k) (hb : l.nb = 2)
    (hd : l.nd = 2) (hc : ∀ s < l.nb, ∀ i < l.n, ∀ k < l.nd, |l.val s i k - trunc (l.val s i k)| ≤ 1 / 10)
    (hdup : ¬l.Duplicates 2) (hin : ∀ s < l.nb, ∀ i < l.n, l.Ignored 2 s i ∨ l.Inside ext s i) :
    LocGood (1 / 10) ext (padBegin 4 [0, 0, 0, 0]) (padEnd st 4 [0, 0, 0, 0]) 2 l := by
  have h5 : padBegin (d := 2) 4 [0, 0, 0, 0] = fun _ => 2 + 0 := by decide
  have h6 : padEnd (d := 2) st 4 [0, 0, 0, 0] = fun _ => fdEnd st .a4 + 0 := by revert st; decide
  obtain ⟨t, ht, -⟩ := (C16_rejected_iff_duplicates (d := 2) (1 / 10) ext (by norm_num) (fun _ => 2 + 0)
    (fun _ => fdEnd st .a4 + 0) (by decide) (fun _ => by cases st <;> decide) (fun k => (he k).1) l hc hd hin).2 hdup
  obtain ⟨g1, g2, g3, g4, rfl⟩ := extractLocation_iff.1 ht
  rw [h5, h6]
  rw [hb] at g4
  exact ⟨g1, hb, g3, g4⟩

theorem exO0_good_of {sp : SurveyPad} {ext : Fin 2 → ℤ × ℤ} {st : Bool} {ms : List (ModelT 2 ℝ × PadMode)} {mv : ℝ}
    {amps : List (Option AmpT)} {srcs rcvs : List (Option LocT)} {wfs : List (Option (WfT 2))}
    (hg : ∀ l, some l ∈ srcs ++ rcvs → LocGood (1 / 10) ext (padBegin 4 [0, 0, 0, 0]) (padEnd st 4 [0, 0, 0, 0]) 2 l)
    (ha : ∀ a, some a ∈ amps → a.nb = 2 ∧ a.nt = 5)
    (hw : ∀ w, some w ∉ wfs) (hms : ∀ m ∈ ms, m.1.nb = none ∧ m.1.shape = ![7, 9])
    (hms0 : ms ≠ []) (hnb : getNBatch srcs wfs = .ok 2)
    (hnt : setNt none (amps.map (Option.map AmpT.nt)) 1 = .ok 5)
    (hmatch : checkAmpsMatch (amps.map (Option.map AmpT.n)) (srcs.map (Option.map LocT.n)) = .ok ())
    (he : ∀ k, 0 ≤ (ext k).1 ∧ (ext k).1 < (ext k).2 ∧ (ext k).2 ≤ (![7, 9] : Fin 2 → ℤ) k)
    (hext : surveyExtents ![7, 9] (srcs ++ rcvs) (wfs.map (Option.map WfT.shape)) sp none
      (fun _ => 0) (fun _ => 0) = .ok ext) :
    ((exO0 sp).setup st ms mv amps srcs rcvs wfs).Good (exPl0 st ext ms srcs rcvs) := by
  have hshape : ((exO0 sp).setup st ms mv amps srcs rcvs wfs).shape = ![7, 9] := by
    unfold SetupArgs.shape Opts.setup
    cases ms with
    | nil => exact absurd rfl hms0
    | cons m ms => exact (hms m List.mem_cons_self).2
  have hw0 : (exPl0 st ext ms srcs rcvs).w0 = fun _ => 0 := by
    show (fun k : Fin 2 => [(0 : ℤ), 0, 0, 0].getD (2 * k) 0) = _
    decide
  have hw1 : (exPl0 st ext ms srcs rcvs).w1 = fun _ => 0 := by
    show (fun k : Fin 2 => [(0 : ℤ), 0, 0, 0].getD (2 * k + 1) 0) = _
    decide
  refine ⟨hnb, rfl, ?_, ?_, rfl, rfl, ?_, hnt, rfl, ?_, ?_, hmatch, ?_, ?_, ?_, ?_, ?_, ?_⟩
  · simp [exO0, exO1, exO, Opts.setup, setMaxVelR, PyNum.toFloat, exPl0]
  · have := Scalar.exV_cfl
    simpa [exPl0, exO0, exO1, exO, Opts.setup] using this
  · simp [exPl0, exO0, exO1, exO, Opts.setup, setPmlFreq]
  · simp [exPl0, exO0, exO1, exO, Opts.setup, setFrac, PyNum.toFloat]
  · simp [exPl0, exO0, exO1, exO, Opts.setup, setFrac, PyNum.toFloat]
  · refine checkAmps_ok.2 fun a ha' => ?_
    obtain ⟨h1, h2⟩ := ha a ha'
    exact ⟨h1, by rw [h2]; rfl, by simp [Resample.validate, exPl0]⟩
  · rw [hshape, hw0, hw1]
    exact hext
  · rw [hshape]
    refine (extractModels_iff (by norm_num [exPl0] : 0 < (exPl0 st ext ms srcs rcvs).nb)).2 ⟨fun m hm => ?_, rfl⟩
    obtain ⟨e1, e2⟩ := hms m hm
    refine ⟨e2, .inl (by rw [e1]; rfl), fun _ k => ?_⟩
    rw [e2]
    have := he k
    show 0 < sliceLen (ext k).1 (ext k).2 _
    unfold sliceLen
    omega
  · exact extractLocations_iff.2 ⟨fun l hl' => hg l (List.mem_append_left _ hl'), rfl⟩
  · exact extractLocations_iff.2 ⟨fun l hl' => hg l (List.mem_append_right _ hl'), rfl⟩
  · exact prepareWavefields_ok.2 fun w hw' => absurd hw' (hw w)

theorem exO0_good {sp : SurveyPad} {ext : Fin 2 → ℤ × ℤ} {st : Bool} {ms : List (ModelT 2 ℝ × PadMode)} {mv : ℝ}
    {amps : List (Option AmpT)} {srcs rcvs : List (Option LocT)} {wfs : List (Option (WfT 2))}
    (hl : ∀ l, some l ∈ srcs ++ rcvs → l = exLoc) (ha : ∀ a, some a ∈ amps → a = exPulse)
    (hw : ∀ w, some w ∉ wfs) (hms : ∀ m ∈ ms, m.1.nb = none ∧ m.1.shape = ![7, 9])
    (hms0 : ms ≠ []) (hnb : getNBatch srcs wfs = .ok 2)
    (hnt : setNt none (amps.map (Option.map AmpT.nt)) 1 = .ok 5)
    (hmatch : checkAmpsMatch (amps.map (Option.map AmpT.n)) (srcs.map (Option.map LocT.n)) = .ok ())
    (he : ∀ k, 0 ≤ (ext k).1 ∧ (ext k).1 < (ext k).2 ∧ (ext k).2 ≤ (![7, 9] : Fin 2 → ℤ) k)
    (hin : ∀ s < exLoc.nb, ∀ i < exLoc.n, exLoc.Ignored 2 s i ∨ exLoc.Inside ext s i)
    (hext : surveyExtents ![7, 9] (srcs ++ rcvs) (wfs.map (Option.map WfT.shape)) sp none
      (fun _ => 0) (fun _ => 0) = .ok ext) :
    ((exO0 sp).setup st ms mv amps srcs rcvs wfs).Good (exPl0 st ext ms srcs rcvs) := by
  have hdup : ¬exLoc.Duplicates 2 := by unfold LocT.Duplicates LocT.Ignored; decide +kernel
  refine exO0_good_of (fun l hl' => ?_) (fun a ha' => by rw [ha a ha']; exact ⟨rfl, rfl⟩) hw hms hms0 hnb hnt hmatch he hext
  rw [hl l hl']
  exact locGood0 he rfl rfl (by decide +kernel) hdup hin

end Dw.Setup

namespace Dw.Scalar

open Setup

noncomputable def exS : UArgs 2 := {exV 0 with amps := some ⟨1, 1, 6, fun _ _ t => if t < 4 then 1 + t else 0⟩}

theorem exS_good : exS.setup.Good (exQ 0) :=
  (exV_good 0 (.inl rfl)).revalue (amps := exS.setup.amps) (wfs := exS.setup.wfs) rfl rfl

example : ∃ B : ℝ, ∀ n : ℕ, exS.callback = true ∨ (2 : ℤ) ≤ n ∨ n = 0 → ∃ r, (exS.part 0 n).scalar 0 = .ok (some r) ∧
    (∀ c, |r.out.wfc c| ≤ B) ∧ ∀ i < locCount exS.rcv, ∀ t, |(r.traces i).val t| ≤ B := by
  have hb : ∀ c : Cell 2, InShape exS.v.shape c → 0 ≤ c 0 ∧ c 0 < 7 := fun c hc => hc 0
  have hv : ∀ c, exS.v.shot 0 c = 990 + (c 0 : ℤ) := fun _ => rfl
  refine C106_scalar_never_blows_up (by norm_num) exS (exQ 0) 0 1 4 (plan_ok.2 exS_good) (by norm_num [exQ])
    (fun k => ?_) ?_ ?_ rfl (by norm_num [exQ]) rfl (fun c hc => ?_) (.inr fun c hc => ?_) fun a ha i t ht => ?_
  · show [(0 : ℤ), 0, 0, 0].getD (2 * k) 0 = 0 ∧ [(0 : ℤ), 0, 0, 0].getD (2 * k + 1) 0 = 0
    revert k
    decide
  · intro l hl
    cases hl
    exact fun i _ => .inr (exOne_whole (by norm_num) (by norm_num) 0 i)
  · intro l hl
    cases hl
    exact fun i _ => .inr (exOne_whole (by norm_num) (by norm_num) 0 i)
  · have : (0 : ℝ) ≤ (c 0 : ℤ) := by exact_mod_cast (hb c hc).1
    rw [hv]
    positivity
  · have h1 : (0 : ℝ) ≤ (c 0 : ℤ) := by exact_mod_cast (hb c hc).1
    have h2 : ((c 0 : ℤ) : ℝ) ≤ 6 := by exact_mod_cast (Int.lt_add_one_iff.1 (hb c hc).2)
    rw [hv, abs_of_nonneg (by linarith)]
    show _ ≤ (1000 : ℝ)
    linarith
  · cases ha
    exact if_neg (by omega)

end Dw.Scalar

namespace Dw.Acoustic

open Setup

noncomputable def exS : UArgs 2 := {exU .none with ampP := some exPulse, ampV := ![none, some exPulse], opts := exO0 .none}

noncomputable def exSP : Plan 2 := exPl0 true ![(0, 7), (0, 9)] exS.setup.models exS.setup.srcs exS.setup.rcvs

theorem exS_good : exS.setup.Good exSP := by
  refine exO0_good (exU_locs .none) (fun a ha => ?_) (exU_noWf (sp := .none)) (fun m hm => ?_) (by simp) rfl rfl rfl
    (by decide) (by unfold LocT.Ignored LocT.Inside; decide +kernel) (by decide +kernel)
  · have : some a ∈ [some exPulse, none, some exPulse] := ha
    simpa using this
  · simp only [List.mem_cons, List.not_mem_nil, or_false] at hm
    rcases hm with rfl | rfl <;> exact ⟨rfl, rfl⟩

example : ∃ B : ℝ, ∀ n : ℕ, exS.opts.callback = true ∨ (1 : ℤ) ≤ n ∨ n = 0 →
    ∃ r, (exS.part 0 n).acoustic 1 = .ok (some r) ∧ (∀ c, |r.out.p c| ≤ B) ∧ (∀ k c, |r.out.v k c| ≤ B) ∧
      (∀ i < locCount exS.rcvP, ∀ t, |(r.tracesP i).val t| ≤ B) ∧
      ∀ k, ∀ i < locCount (exS.rcvV k), ∀ t, |(r.tracesV k i).val t| ≤ B := by
  have hb : ∀ c : Cell 2, InShape exS.v.shape c → 0 ≤ c 0 ∧ c 0 < 7 := fun c hc => hc 0
  have hb1 : ∀ c : Cell 2, InShape exS.v.shape c → 0 ≤ c 1 ∧ c 1 < 9 := fun c hc => hc 1
  have hv : ∀ c, exS.v.shot 1 c = 990 + (c 0 : ℤ) := fun _ => rfl
  have hr : ∀ c, exS.rho.shot 1 c = 2000 + (c 1 : ℤ) := fun _ => rfl
  have hrf : exS.rfmax = 1 / 10 ^ 19 := rfl
  refine C106_acoustic_never_blows_up exS exSP 1 1 4 (plan_ok.2 exS_good) (exU_pre .none) (by norm_num [exSP, exPl0])
    (exPl0_width _ _ _ _ _) (fun l hl => Born.exLoc_whole (by decide) (exU_locs .none l hl)) (fun k => .inl ?_)
    rfl (by norm_num [exSP, exPl0]) rfl (by rw [hrf]; norm_num) (fun c hc => ?_) (.inr fun c hc => ?_)
    (fun x y hx hy _ => ?_) (fun a ha i t ht => exPulse_zero a ha _ i t ht) fun k a ha i t ht => ?_
  · show ((![(0, 7), (0, 9)] : Fin 2 → ℤ × ℤ) k).2 = (![7, 9] : Fin 2 → ℤ) k
    revert k
    decide
  · have h0 : (0 : ℝ) ≤ (c 0 : ℤ) := by exact_mod_cast (hb c hc).1
    have h1 : (0 : ℝ) ≤ (c 1 : ℤ) := by exact_mod_cast (hb1 c hc).1
    rw [hv, hr, hrf]
    exact ⟨by positivity, by norm_num; linarith⟩
  · have h1 : (0 : ℝ) ≤ (c 0 : ℤ) := by exact_mod_cast (hb c hc).1
    have h2 : ((c 0 : ℤ) : ℝ) ≤ 6 := by exact_mod_cast (Int.lt_add_one_iff.1 (hb c hc).2)
    rw [hv, abs_of_nonneg (by linarith)]
    show _ ≤ (1000 : ℝ)
    linarith
  · have h1 : (0 : ℝ) ≤ (x 1 : ℤ) := by exact_mod_cast (hb1 x hx).1
    have h2 : ((y 1 : ℤ) : ℝ) ≤ 8 := by exact_mod_cast (Int.lt_add_one_iff.1 (hb1 y hy).2)
    rw [hr, hr]
    linarith
  · fin_cases k
    · cases ha
    · exact exPulse_zero a ha _ i t ht

end Dw.Acoustic

namespace Dw.Elastic

open Setup

/-- A solid beside a fluid. -/
noncomputable def exS : UArgs 2 :=
  { exU .none with
    mu := ⟨none, ![7, 9], fun _ c => if c 1 < 4 then 500 else 0⟩
    ampP := some exPulse, ampV := ![none, some exPulse], opts := exO0 .none }

noncomputable def exSP : Plan 2 := exPl0 true ![(0, 7), (0, 9)] exS.setup.models exS.setup.srcs exS.setup.rcvs

theorem exS_good : exS.setup.Good exSP := by
  refine exO0_good (exU_locs .none) (fun a ha => ?_) (exU_noWf (sp := .none)) (fun m hm => ?_) (by simp) rfl rfl rfl
    (by decide) (by unfold LocT.Ignored LocT.Inside; decide +kernel) (by decide +kernel)
  · have : some a ∈ [none, some exPulse, some exPulse] := ha
    simpa using this
  · simp only [List.mem_cons, List.not_mem_nil, or_false] at hm
    rcases hm with rfl | rfl | rfl <;> exact ⟨rfl, rfl⟩

theorem exS_mu (c : Cell 2) : 0 ≤ exS.mu.shot 1 c ∧ exS.mu.shot 1 c ≤ 500 := by
  have : exS.mu.shot 1 c = if c 1 < 4 then 500 else 0 := rfl
  rw [this]
  split_ifs <;> norm_num

theorem exS_stable : exS.Stable exSP 1 := by
  have hb : ∀ c : Cell 2, InShape exS.lam.shape c → (0 : ℝ) ≤ (c 0 : ℤ) ∧ ((c 0 : ℤ) : ℝ) ≤ 6 := fun c hc =>
    ⟨by exact_mod_cast (hc 0).1, by exact_mod_cast (Int.lt_add_one_iff.1 ((hc 0).2 : c 0 < 6 + 1))⟩
  have hb1 : ∀ c : Cell 2, InShape exS.lam.shape c → (0 : ℝ) ≤ (c 1 : ℤ) ∧ ((c 1 : ℤ) : ℝ) ≤ 8 := fun c hc =>
    ⟨by exact_mod_cast (hc 1).1, by exact_mod_cast (Int.lt_add_one_iff.1 ((hc 1).2 : c 1 < 8 + 1))⟩
  have hl : ∀ c, exS.lam.shot 1 c = 990 + (c 0 : ℤ) := fun _ => rfl
  have hbu : ∀ c, exS.buoyancy.shot 1 c = 1 + (c 1 : ℤ) := fun _ => rfl
  have hrf : exS.rfmax = 1 / 10 ^ 19 := rfl
  have hinv : ∀ c, InShape exS.lam.shape c → 1 / 9 ≤ 1 / exS.buoyancy.shot 1 c := fun c hc => by
    rw [hbu]
    exact one_div_le_one_div_of_le (by linarith [hb1 c hc]) (by linarith [hb1 c hc])
  refine ⟨by rw [hrf]; norm_num, fun c hc => ⟨?_, (exS_mu c).1⟩, fun c hc => .inl ?_, fun x y hx hy _ _ =>
    ⟨996, 500, by norm_num, by norm_num, fun z hz _ => ⟨?_, (exS_mu z).2⟩, ?_⟩⟩
  · rw [hl]; linarith [hb c hc]
  · rw [hrf, hbu]
    have := (hb1 c hc).1
    norm_num
    linarith
  · rw [hl]; linarith [hb z hz]
  · have h1 := hinv x hx
    have h2 := hinv y hy
    have hm : exSP.maxVel = 1000 := rfl
    rw [hm]
    linarith

theorem exS_pre : ¬exS.Pre := by
  have h0 : ∀ k : Fin 2, (![7, 9] : Fin 2 → ℤ) k ≤ 0 → False := by decide
  rintro (⟨k, l, hl, h⟩ | (h | ⟨k, h⟩) | (h | ⟨k, h⟩) | (h | ⟨k, h⟩))
  · obtain rfl := exU_locs .none l (UArgs.mem_loc (A := exU .none) hl)
    exact Acoustic.exLoc_beyond.1 k h
  · cases h
  · exact h0 k h
  · cases h
  · exact h0 k h
  · cases h
  · exact h0 k h

example : ∃ B : ℝ, ∀ n : ℕ, exS.opts.callback = true ∨ (1 : ℤ) ≤ n ∨ n = 0 →
    ∃ r, (exS.part 0 n).elastic 1 = .ok (some r) ∧ (∀ k c, |r.out.v k c| ≤ B) ∧ (∀ k c, |r.out.s k c| ≤ B) ∧
      (∀ p c, |r.out.sh p c| ≤ B) ∧ (∀ i < locCount exS.rcvP, ∀ t, |(r.tracesP i).val t| ≤ B) ∧
      ∀ k, ∀ i < locCount (exS.rcvV k), ∀ t, |(r.tracesV k i).val t| ≤ B := by
  refine C106_elastic_never_blows_up (by norm_num) exS exSP 1 1 4 (plan_ok.2 exS_good) exS_pre
    (by norm_num [exSP, exPl0]) (exPl0_width _ _ _ _ _)
    (fun l hl => Born.exLoc_whole (by decide) (exU_locs .none l hl)) (fun k => .inl ?_)
    rfl (by norm_num [exSP, exPl0]) rfl (exU_noWf (sp := .none)) exS_stable (fun i hi c hc => .inl ?_)
    (fun a ha i t ht => exPulse_zero a ha _ i t ht) fun k a ha i t ht => ?_
  · show ((![(0, 7), (0, 9)] : Fin 2 → ℤ × ℤ) k).2 = (![7, 9] : Fin 2 → ℤ) k
    revert k
    decide
  · have hin := locCell_in exS_good (s := 1) (by norm_num [exSP, exPl0]) (o := exS.srcP)
      (List.mem_append_left _ (List.mem_append_right _ List.mem_cons_self))
      (fun l hl => Born.exLoc_whole (by decide) (exU_locs .none l (hl ▸
        List.mem_append_left _ (List.mem_append_right _ List.mem_cons_self)))) hi hc 0
    have : (0 : ℝ) ≤ (c 0 : ℤ) := by exact_mod_cast hin.1
    show (0 : ℝ) < 990 + (c 0 : ℤ)
    linarith
  · fin_cases k
    · cases ha
    · exact exPulse_zero a ha _ i t ht

end Dw.Elastic
