import Verif.Setup.Mirror
import Verif.Props.UserAxesMore

/-!
# C129: calls of `scalar` and `scalar_born` in a mirror
-/

namespace Dw.Setup

open Scalar (upAmps upS downS WholeIgnored PmlOk)
open Resample (Sig)
open Spec (sgn)

variable {d : ℕ} {ε : Fin d → Bool} {A : SetupArgs d} {P P' : Plan d}

theorem Plan.Mirrored.pml (h : P.Mirrored ε P') (hP : PmlOk P) : PmlOk P' := by
  refine hP.imp (fun h1 => h.freq ▸ h1) fun h1 k => ?_
  rw [h.w0, h.w1]
  have := h1 k
  cases ε k
  · exact this
  · exact ⟨this.2, this.1⟩

theorem Plan.Mirrored.grid {shape : Fin d → ℤ} (h : P.Mirrored ε P') (he : P.ext = fun k => (0, shape k)) :
    P'.grid = P.grid.flip ε fun k => shape k - 1 := by
  have he' : P'.ext = fun k => (0, shape k) := by rw [← he]; exact funext h.ext
  unfold Plan.grid Spec.Grid.flip Plan.acc
  simp only [h.accZ, h.dt, h.maxVel, h.freq, he, he', Spec.Grid.mk.injEq, true_and, and_true]
  refine ⟨funext h.dx, ?_, ?_, funext h.w0, funext h.w1⟩
  · funext k
    cases ε k <;> simp
  · funext k
    cases ε k <;> simp

/-- The last index of the returned wavefields in dimension `k`. -/
def Plan.lastIdx (P : Plan d) (k : Fin d) : ℤ := (P.ext k).2 - (P.ext k).1 + P.w0 k + P.w1 k - 1

theorem Plan.Mirrored.index {shape : Fin d → ℤ} (h : P.Mirrored ε P') (he : P.ext = fun k => (0, shape k)) (c : Cell d) :
    P.index (Spec.flip ε (fun k => shape k - 1) c) = Spec.flip ε P.lastIdx (P'.index c) := by
  funext k
  unfold Plan.index Spec.flip Plan.lastIdx
  dsimp only
  rw [h.ext, h.w0, he]
  cases ε k <;> simp
  ring

theorem Plan.Mirrored.steps (h : P.Mirrored ε P') : P'.steps = P.steps := by
  unfold Plan.steps
  rw [h.nt, h.ratio, h.interval]

theorem Plan.Mirrored.upAmps (h : P.Mirrored ε P') (tt : Bool) (a : Option AmpT) (s : ℕ) :
    upAmps P' tt a s = upAmps P tt a s := by
  unfold Scalar.upAmps Scalar.upS
  rw [h.ratio, h.ff, h.tf]

theorem Plan.Mirrored.downS (h : P.Mirrored ε P') (tt : Bool) (x : Sig ℝ) : downS P' tt x = downS P tt x := by
  unfold Scalar.downS
  rw [h.ratio, h.ff, h.tf]

/-! ### Locations and models -/

theorem locCount_flip {N : Fin d → ℤ} (o : Option LocT) : locCount (o.map (LocT.flip ε N)) = locCount o := by cases o <;> rfl

section
variable {shape N : Fin d → ℤ} {nb s : ℕ} {o : Option LocT} (ho : OnCells shape N nb o) (hs : s < nb)
include ho hs

theorem locCell_flip {i : ℕ} (hi : i < locCount o) : locCell (d := d) (o.map (LocT.flip ε N)) s i =
    (locCell o s i).map (Spec.flip ε N) := by
  classical
  cases o with
  | none => rfl
  | some l =>
      have hi' : i < l.n := hi
      have hig := LocT.flip_ignored (ε := ε) (ho.flippable l rfl) (ho.batch l rfl ▸ hs) hi'
      unfold locCell
      simp only [Option.map_some, hig]
      by_cases hg : l.Ignored d s i
      · rw [if_pos hg, if_pos hg]
        rfl
      · rw [if_neg hg, if_neg hg]
        refine congrArg some (funext fun k => ?_)
        rw [LocT.flip_trunc (ho.flippable l rfl).integral (ho.batch l rfl ▸ hs) hi' k (((ho.whole l rfl s hs i hi').resolve_left hg) k k.isLt)]
        rfl

theorem locSum_flip (g : ℕ → ℝ) : locSum (o.map (LocT.flip ε N)) s g =
    fun c => locSum (d := d) o s g (Spec.flip ε N c) := by
  classical
  funext c
  unfold locSum
  rw [locCount_flip]
  refine Finset.sum_congr rfl fun i hi => ?_
  refine if_congr ?_ rfl rfl
  rw [locCell_flip ho hs (Finset.mem_range.1 hi)]
  cases locCell (d := d) o s i with
  | none => simp
  | some c' =>
      simp only [Option.map_some, Option.some.injEq]
      constructor
      · rintro rfl
        exact (Spec.flip_flip _).symm
      · rintro rfl
        exact Spec.flip_flip _

theorem locValue_flip (u : Fld d ℝ) {i : ℕ} (hi : i < locCount o) :
    locValue (o.map (LocT.flip ε N)) s i (fun c => u (Spec.flip ε N c)) =
      locValue o s i u := by
  unfold locValue
  rw [locCell_flip ho hs hi]
  cases locCell (d := d) o s i with
  | none => rfl
  | some c =>
      show u (Spec.flip ε _ (Spec.flip ε _ c)) = u c
      rw [Spec.flip_flip]

theorem Plan.Mirrored.trace (h : P.Mirrored ε P') (tt : Bool) (u : ℕ → Fld d ℝ) {i : ℕ} (hi : i < locCount o) :
    Scalar.downS P' tt ⟨P'.nt.toNat, fun t => if t < P'.steps then
        locValue (o.map (LocT.flip ε N)) s i (fun c => u t (Spec.flip ε N c)) else 0⟩ =
    Scalar.downS P tt ⟨P.nt.toNat, fun t => if t < P.steps then locValue o s i (u t) else 0⟩ := by
  rw [h.downS, h.nt, h.steps]
  simp only [locValue_flip ho hs _ hi]

theorem Plan.Mirrored.inject (h : P.Mirrored ε P') (tt : Bool) (a : Option AmpT) (t : ℕ) :
    (locSum (o.map (LocT.flip ε N)) s fun i => Scalar.upAmps P' tt a s t i) =
    fun c => (locSum (d := d) o s fun i => Scalar.upAmps P tt a s t i) (Spec.flip ε N c) := by
  rw [h.upAmps]
  exact locSum_flip ho hs _

end

theorem inShape_flip (shape : Fin d → ℤ) (c : Cell d) :
    InShape shape (Spec.flip ε (fun k => shape k - 1) c) ↔ InShape shape c := by
  unfold InShape Spec.flip
  refine forall_congr' fun k => ?_
  cases ε k
  · simp
  · simp only [if_true]
    omega

theorem maxAbs_flip (m : ModelT d ℝ) : Scalar.maxAbs (m.flip ε) = Scalar.maxAbs m := by
  unfold Scalar.maxAbs
  congr 1
  ext x
  constructor
  · rintro ⟨s, hs, c, hc, rfl⟩
    exact ⟨s, hs, Spec.flip ε (fun k => m.shape k - 1) c, (inShape_flip _ _).2 hc, rfl⟩
  · rintro ⟨s, hs, c, hc, rfl⟩
    refine ⟨s, hs, Spec.flip ε (fun k => m.shape k - 1) c, (inShape_flip _ _).2 hc, ?_⟩
    show _ = |m.val s (Spec.flip ε _ (Spec.flip ε _ c))|
    rw [Spec.flip_flip]

/-- Wavefields in the mirror, in arrays with last index `M`. The auxiliary field `psi` of a reversed axis changes its sign. -/
def mirroredWf (ε : Fin d → Bool) (M : Fin d → ℤ) (o : Scalar.Wavefields d ℝ) : Scalar.Wavefields d ℝ :=
  ⟨fun c => o.wfc (Spec.flip ε M c), fun c => o.wfp (Spec.flip ε M c),
    fun k c => (if ε k then -1 else 1) * o.psi k (Spec.flip ε M c), fun k c => o.zeta k (Spec.flip ε M c)⟩

theorem sgn_cast (k : Fin d) : ((sgn ε k : ℤ) : ℝ) = if ε k then -1 else 1 := by
  unfold sgn
  cases ε k <;> simp

theorem Plan.Mirrored.endsIn {shape : Fin d → ℤ} (h : P.Mirrored ε P') (hext : P.ext = fun k => (0, shape k)) {N : ℕ}
    {o : Scalar.Wavefields d ℝ} {u : ℕ → Fld d ℝ} {psi zeta : ℕ → Fin d → Fld d ℝ} (he : P.EndsIn N o u psi zeta) :
    P'.EndsIn N (mirroredWf ε P.lastIdx o) (fun t c => u t (Spec.flip ε (fun k => shape k - 1) c))
      (fun t k c => (sgn ε k : ℤ) * psi t k (Spec.flip ε (fun k => shape k - 1) c))
      fun t k c => zeta t k (Spec.flip ε (fun k => shape k - 1) c) := by
  intro c
  obtain ⟨h1, h2, h3⟩ := he (Spec.flip ε (fun k => shape k - 1) c)
  rw [h.index hext] at h1 h2 h3
  refine ⟨h1, h2, fun k => ⟨?_, (h3 k).2⟩⟩
  dsimp only
  rw [← (h3 k).1, sgn_cast]
  rfl

theorem extents_le {A : SetupArgs d} {P : Plan d} (h : A.Good P) (he : P.ext = fun k => (0, A.shape k)) (k : Fin d) :
    P.grid.lo k ≤ P.grid.hi k := by
  have := h.shape_pos.2 k
  unfold Plan.grid
  simp only [he]
  omega

end Dw.Setup

namespace Dw.Scalar

open Setup Resample

variable {d : ℕ}

/-- The call in a mirror: the axes with `ε k` are reversed in the model, in the locations and in `pml_width`. -/
def UArgs.flip (ε : Fin d → Bool) (A : UArgs d) : UArgs d :=
  { A with
    v := A.v.flip ε
    src := A.src.map (LocT.flip ε fun k => A.v.shape k - 1)
    rcv := A.rcv.map (LocT.flip ε fun k => A.v.shape k - 1)
    pmlWidth := A.pmlWidth.flips ε }

theorem setup_flip (ε : Fin d → Bool) (A : UArgs d) : (A.flip ε).setup = A.setup.flip ε [(A.flip ε).src] [(A.flip ε).rcv] := by
  unfold UArgs.setup UArgs.flip SetupArgs.flip
  simp only [maxAbs_flip, List.map_cons, List.map_nil]

/-- **C129** A call of `scalar` in a mirror: if no initial wavefields and no `survey_pad` are given and the locations are
whole numbers, the call with the velocities, the locations and the entries of `pml_width` reversed along some axes is
accepted as well, has the same traces, and its wavefields are those in the mirror. -/
theorem C129_mirror (A : UArgs d) (P : Plan d) (s : ℕ) (cf : ℤ) (h : Fwd A P s cf) (hsp : A.surveyPad = .none)
    (hwf : ∀ x ∈ A.setup.wfs, x = none) (hint : ∀ l, some l ∈ [A.src, A.rcv] → l.Integral d)
    (hw : ∀ l, some l ∈ [A.src, A.rcv] → ∀ s < P.nb, WholeIgnored d l s) (ε : Fin d → Bool) :
    ∃ r r', A.scalar s = .ok (some r) ∧ (A.flip ε).scalar s = .ok (some r') ∧
      r'.out = mirroredWf ε (fun k => A.v.shape k + P.w0 k + P.w1 k - 1) r.out ∧
      ∀ i < locCount A.rcv, r'.traces i = r.traces i := by
  have hext := extents_none h.good hsp hwf
  have hnb : 0 < P.nb := by have := h.lt; omega
  have os : OnCells A.v.shape (fun k => A.v.shape k - 1) P.nb A.src := onCells h.good hext hint hw (by simp [UArgs.setup])
  have or : OnCells A.v.shape (fun k => A.v.shape k - 1) P.nb A.rcv := onCells h.good hext hint hw (by simp [UArgs.setup])
  have hg := good_flip (ε := ε) h.good hnb hsp hwf (srcs := [(A.flip ε).src]) (rcvs := [(A.flip ε).rcv])
    (.cons os.flipped .nil) (.cons or.flipped .nil)
  rw [← setup_flip] at hg
  have ht := Plan.flip_mirrored (ε := ε) A.setup [(A.flip ε).src] [(A.flip ε).rcv] P
  have hG := extents_le h.good hext
  obtain ⟨r, u, psi, zeta, hc, hv, hi, ho, hx⟩ := C90_scalar_scheme A P s cf (plan_ok.2 h.good) h.lt h.pml h.src h.rcv
    h.freq h.interval h.nt
  obtain ⟨r', u', psi', zeta', hc', hv', hi', ho', hx'⟩ := C90_scalar_scheme (A.flip ε) (P.flip ε A.setup [(A.flip ε).src] [(A.flip ε).rcv]) s cf (plan_ok.2 hg)
    h.lt (ht.pml h.pml)
    (fun l hl => os.flip_whole h.lt hl) (fun l hl => or.flip_whole h.lt hl)
    h.freq h.interval h.nt
  have hva := hv.flip (ε := ε) (N := fun k => A.v.shape k - 1) hG
  have hgr := ht.grid hext
  change _ = P.grid.flip ε (fun k => A.v.shape k - 1) at hgr
  have i1 := startsFrom_none (w := ⟨A.wfc, A.wfp, A.psi, A.zeta⟩) hwf hv.outside hi
  have i2 := startsFrom_none (w := ⟨A.wfc, A.wfp, A.psi, A.zeta⟩) hwf hv'.outside hi'
  rw [hgr] at hv'
  have e1 : (P.grid.flip ε fun k => A.v.shape k - 1).extend ((A.flip ε).v.shot s) =
      fun c => P.grid.extend (A.v.shot s) (Spec.flip ε (fun k => A.v.shape k - 1) c) := Spec.Grid.flip_extend hG _
  have e2 : (fun t => locSum (d := d) (A.flip ε).src s fun i =>
        upAmps (P.flip ε A.setup [(A.flip ε).src] [(A.flip ε).rcv]) (A.flip ε).timeTaper (A.flip ε).amps s t i) =
      fun t c => (locSum A.src s fun i => upAmps P A.timeTaper A.amps s t i) (Spec.flip ε (fun k => A.v.shape k - 1) c) :=
    funext fun t => ht.inject os h.lt _ _ _
  rw [e1, e2] at hv'
  obtain ⟨a1, a2, a3, a4⟩ := i1
  obtain ⟨b1, b2, b3, b4⟩ := i2
  obtain ⟨rfl, rfl, rfl⟩ := hv'.unique hva fun c => by simp [a1, a2, a3, a4, b1, b2, b3, b4]
  refine ⟨r, r', hc, hc', ?_, fun i hi => ?_⟩
  · refine (endsIn_unique (P := P.flip ε A.setup [(A.flip ε).src] [(A.flip ε).rcv]) (ht.endsIn hext ho) ho').trans ?_
    refine congrArg (fun M => mirroredWf ε M r.out) (funext fun k => ?_)
    unfold Plan.lastIdx
    rw [hext]
    show A.v.shape k - 0 + _ + _ - 1 = _
    rw [sub_zero]
  · rw [hx i hi, hx' i (by rw [show (A.flip ε).rcv = A.rcv.map (LocT.flip ε fun k => A.v.shape k - 1) from rfl, locCount_flip]; exact hi)]
    exact ht.trace or h.lt _ (fun t => u (t + 1)) hi

end Dw.Scalar

namespace Dw.Scalar

open Setup

theorem exOne_integral (y x : ℤ) : (exOne y x).Integral 2 := fun s hs i hi k hk => by
  rcases (by omega : k = 0 ∨ k = 1) with rfl | rfl
  · exact ⟨y, rfl⟩
  · exact ⟨x, rfl⟩

/-- The first axis reversed. -/
example : ((exV 3).flip ![true, false]).v.val 0 ![2, 5] = 994 ∧ PyArg.flips ![true, false] (.seq [.int 1, .int 2, .int 3, .int 4]) =
      .seq [.int 2, .int 1, .int 3, .int 4] ∧
    ∃ l, ((exV 3).flip ![true, false]).src = some l ∧ l.val 0 0 0 = 4 ∧ l.val 0 0 1 = 3 := by
  refine ⟨?_, rfl, ?_⟩
  · show (990 : ℝ) + ((Spec.flip ![true, false] (fun k => (![7, 9] : Fin 2 → ℤ) k - 1) ![2, 5] : Cell 2) 0 : ℤ) = 994
    rw [show (Spec.flip ![true, false] (fun k => (![7, 9] : Fin 2 → ℤ) k - 1) ![2, 5] : Cell 2) 0 = 4 from rfl]
    norm_num
  · refine ⟨_, rfl, ?_, ?_⟩
    · show ((exOne 2 3).flip ![true, false] fun k => (![7, 9] : Fin 2 → ℤ) k - 1).val 0 0 0 = 4
      decide +kernel
    · show ((exOne 2 3).flip ![true, false] fun k => (![7, 9] : Fin 2 → ℤ) k - 1).val 0 0 1 = 3
      decide +kernel

example : ∃ r r', (exV 3).scalar 0 = .ok (some r) ∧ ((exV 3).flip ![true, false]).scalar 0 = .ok (some r') ∧
    r'.out.wfc ![4, 5] = r.out.wfc ![8, 5] ∧ r'.traces 0 = r.traces 0 := by
  obtain ⟨r, r', h1, h2, h3, h4⟩ := C129_mirror (exV 3) _ 0 1 exV_fwd rfl
    (fun x hx => by simpa [exV, exU, UArgs.setup] using hx)
    (fun l hl => by
      simp only [exV, List.mem_cons, Option.some.injEq, List.not_mem_nil, or_false] at hl
      rcases hl with rfl | rfl <;> exact exOne_integral _ _)
    (fun l hl s _ => by
      simp only [exV, List.mem_cons, Option.some.injEq, List.not_mem_nil, or_false] at hl
      rcases hl with rfl | rfl <;> exact fun i _ => .inr (exOne_whole (by norm_num) (by norm_num) s i)) ![true, false]
  refine ⟨r, r', h1, h2, ?_, h4 0 (by decide)⟩
  rw [h3]
  refine congrArg r.out.wfc (funext fun k => ?_)
  fin_cases k <;> rfl

end Dw.Scalar

namespace Dw.Born

open Setup Resample
open Scalar (upAmps WholeIgnored)

variable {d : ℕ}

/-- The call in a mirror: the axes with `ε k` are reversed in the models, in the locations and in `pml_width`. -/
def UArgs.flip (ε : Fin d → Bool) (A : UArgs d) : UArgs d :=
  { A with
    v := A.v.flip ε
    scatter := A.scatter.flip ε
    src := A.src.map (LocT.flip ε fun k => A.v.shape k - 1)
    rcv := A.rcv.map (LocT.flip ε fun k => A.v.shape k - 1)
    bgRcv := A.bgRcv.map (LocT.flip ε fun k => A.v.shape k - 1)
    opts := { A.opts with pmlWidth := A.opts.pmlWidth.flips ε } }

theorem setup_flip (ε : Fin d → Bool) (A : UArgs d) : (A.flip ε).setup =
    A.setup.flip ε [(A.flip ε).src, (A.flip ε).src] [(A.flip ε).bgRcv, (A.flip ε).rcv] := by
  unfold UArgs.setup UArgs.flip SetupArgs.flip Opts.setup
  simp only [maxAbs_flip, List.map_cons, List.map_nil]

/-- **C129** for `scalar_born`. -/
theorem C129_born_mirror (A : UArgs d) (P : Plan d) (s : ℕ) (cf : ℤ) (h : Fwd A P s cf) (hsp : A.opts.surveyPad = .none)
    (hwf : ∀ x ∈ A.setup.wfs, x = none) (hint : ∀ l, some l ∈ [A.src, A.bgRcv, A.rcv] → l.Integral d)
    (hw : ∀ l, some l ∈ [A.src, A.bgRcv, A.rcv] → ∀ s < P.nb, WholeIgnored d l s) (ε : Fin d → Bool) :
    ∃ r r', A.born s = .ok (some r) ∧ (A.flip ε).born s = .ok (some r') ∧
      r'.out = mirroredWf ε (fun k => A.v.shape k + P.w0 k + P.w1 k - 1) r.out ∧
      r'.outsc = mirroredWf ε (fun k => A.v.shape k + P.w0 k + P.w1 k - 1) r.outsc ∧
      (∀ i < locCount A.bgRcv, r'.bgTraces i = r.bgTraces i) ∧ ∀ i < locCount A.rcv, r'.traces i = r.traces i := by
  have hext := extents_none h.good hsp hwf
  have hnb : 0 < P.nb := by have := h.lt; omega
  have hmem : ∀ l : LocT, some l ∈ A.setup.srcs ++ A.setup.rcvs ↔ some l ∈ [A.src, A.bgRcv, A.rcv] := fun l => by
    simp only [UArgs.setup, Opts.setup, List.mem_append, List.mem_cons, List.not_mem_nil, or_false]
    tauto
  have on : ∀ o ∈ A.setup.srcs ++ A.setup.rcvs, OnCells A.v.shape (fun k => A.v.shape k - 1) P.nb o := fun o ho =>
    onCells h.good hext (fun l hl => hint l ((hmem l).1 hl)) (fun l hl => hw l ((hmem l).1 hl)) ho
  have os := on A.src (by simp [UArgs.setup, Opts.setup])
  have ob := on A.bgRcv (by simp [UArgs.setup, Opts.setup])
  have or := on A.rcv (by simp [UArgs.setup, Opts.setup])
  have hg := good_flip (ε := ε) h.good hnb hsp hwf (srcs := [(A.flip ε).src, (A.flip ε).src])
    (rcvs := [(A.flip ε).bgRcv, (A.flip ε).rcv]) (.cons os.flipped (.cons os.flipped .nil)) (.cons ob.flipped (.cons or.flipped .nil))
  rw [← setup_flip] at hg
  have ht := Plan.flip_mirrored (ε := ε) A.setup [(A.flip ε).src, (A.flip ε).src] [(A.flip ε).bgRcv, (A.flip ε).rcv] P
  have hG := extents_le h.good hext
  have hsh : A.scatter.shape = A.v.shape := by
    have := (((extractModels_iff hnb).1 h.good.models).1 (A.scatter, .constant) (List.mem_cons.2 (.inr List.mem_cons_self))).shape
    exact this
  obtain ⟨r, u, psi, zeta, w, ps, ze, hc, hv, hsc, hi, hi2, ho, ho2, hb1, hx⟩ := C91_born_scheme A P s cf (plan_ok.2 h.good)
    h.lt h.pml h.loc h.freq h.interval h.nt
  obtain ⟨r', u', psi', zeta', w', ps', ze', hc', hv', hsc', hi', hi2', ho', ho2', hb1', hx'⟩ := C91_born_scheme (A.flip ε)
    (P.flip ε A.setup [(A.flip ε).src, (A.flip ε).src] [(A.flip ε).bgRcv, (A.flip ε).rcv]) s cf (plan_ok.2 hg) h.lt (ht.pml h.pml)
    (fun l hl => by
      rcases hl with hl | hl | hl
      · exact os.flip_whole h.lt hl
      all_goals first
        | exact ob.flip_whole h.lt hl
        | exact or.flip_whole h.lt hl)
    h.freq h.interval h.nt
  have hva := hv.flip (ε := ε) (N := fun k => A.v.shape k - 1) hG
  have hsa := hsc.flip (ε := ε) (N := fun k => A.v.shape k - 1) hG
  have hgr := ht.grid hext
  change _ = P.grid.flip ε (fun k => A.v.shape k - 1) at hgr
  have n1 : ∀ x ∈ A.wf.list, x = none := fun x hx => hwf x (List.mem_append_left _ hx)
  have n2 : ∀ x ∈ A.wfsc.list, x = none := fun x hx => hwf x (List.mem_append_right _ hx)
  obtain ⟨a1, a2, a3, a4⟩ := startsFrom_none n1 hv.outside hi
  obtain ⟨b1, b2, b3, b4⟩ := startsFrom_none (w := A.wf) n1 hv'.outside hi'
  obtain ⟨c1, c2, c3, c4⟩ := startsFrom_none n2 hsc.outside hi2
  obtain ⟨d1, d2, d3, d4⟩ := startsFrom_none (w := A.wfsc) n2 hsc'.outside hi2'
  rw [hgr] at hv' hsc'
  have e1 : (P.grid.flip ε fun k => A.v.shape k - 1).extend ((A.flip ε).v.shot s) =
      fun c => P.grid.extend (A.v.shot s) (Spec.flip ε (fun k => A.v.shape k - 1) c) := Spec.Grid.flip_extend hG _
  have e3 : (P.grid.flip ε fun k => A.v.shape k - 1).extendZero ((A.flip ε).scatter.shot s) =
      fun c => P.grid.extendZero (A.scatter.shot s) (Spec.flip ε (fun k => A.v.shape k - 1) c) := by
    have : (A.flip ε).scatter.shot s = fun c => A.scatter.shot s (Spec.flip ε (fun k => A.v.shape k - 1) c) := by
      rw [← hsh]
      rfl
    rw [this]
    exact Spec.Grid.flip_extendZero _
  have e2 : (fun t => locSum (d := d) (A.flip ε).src s fun i =>
        upAmps (P.flip ε A.setup [(A.flip ε).src, (A.flip ε).src] [(A.flip ε).bgRcv, (A.flip ε).rcv]) (A.flip ε).opts.timeTaper (A.flip ε).amps s t i) =
      fun t c => (locSum A.src s fun i => upAmps P A.opts.timeTaper A.amps s t i) (Spec.flip ε (fun k => A.v.shape k - 1) c) :=
    funext fun t => ht.inject os h.lt _ _ _
  rw [e1, e2] at hv' hsc'
  rw [e3] at hsc'
  obtain ⟨rfl, rfl, rfl⟩ := hv'.unique hva fun c => by simp [a1, a2, a3, a4, b1, b2, b3, b4]
  obtain ⟨rfl, rfl, rfl⟩ := hsc'.unique hsa fun c => by simp [c1, c2, c3, c4, d1, d2, d3, d4]
  have hM : P.lastIdx = fun k => A.v.shape k + P.w0 k + P.w1 k - 1 := funext fun k => by
    unfold Plan.lastIdx
    rw [hext]
    show A.v.shape k - 0 + _ + _ - 1 = _
    rw [sub_zero]
  rw [← hM]
  rw [ht.steps] at ho' ho2'
  refine ⟨r, r', hc, hc', endsIn_unique (P := P.flip ε A.setup [(A.flip ε).src, (A.flip ε).src] [(A.flip ε).bgRcv, (A.flip ε).rcv]) (ht.endsIn hext ho) ho',
    endsIn_unique (P := P.flip ε A.setup [(A.flip ε).src, (A.flip ε).src] [(A.flip ε).bgRcv, (A.flip ε).rcv]) (ht.endsIn hext ho2) ho2', fun i hi => ?_, fun i hi => ?_⟩
  · rw [hb1 i hi, hb1' i (by rw [show (A.flip ε).bgRcv = A.bgRcv.map (LocT.flip ε fun k => A.v.shape k - 1) from rfl, locCount_flip]; exact hi)]
    exact ht.trace ob h.lt _ (fun t => u (t + 1)) hi
  · rw [hx i hi, hx' i (by rw [show (A.flip ε).rcv = A.rcv.map (LocT.flip ε fun k => A.v.shape k - 1) from rfl, locCount_flip]; exact hi)]
    exact ht.trace or h.lt _ (fun t => w (t + 1)) hi

theorem exLoc_integral : exLoc.Integral 2 := by
  have : ∀ s < exLoc.nb, ∀ i < exLoc.n, ∀ k < 2, exLoc.val s i k = trunc (exLoc.val s i k) := by decide +kernel
  exact fun s hs i hi k hk => ⟨_, this s hs i hi k hk⟩

/-- Both axes reversed. -/
example : ∃ r r', (exU .none).born 1 = .ok (some r) ∧ ((exU .none).flip fun _ => true).born 1 = .ok (some r') ∧
    r'.outsc.wfc ![4, 5] = r.outsc.wfc ![8, 9] ∧ r'.outsc.psi 0 ![1, 2] = - r.outsc.psi 0 ![11, 12] ∧
    r'.traces 0 = r.traces 0 := by
  obtain ⟨r, r', h1, h2, -, h3, -, h4⟩ := C129_born_mirror (exU .none) _ 1 1 (exU_fwd 1 (by decide)) rfl
    (fun x hx => by
      cases x with
      | none => rfl
      | some w => exact absurd hx (exU_noWf w))
    (fun l hl => by
      obtain rfl : l = exLoc := by simpa [exU] using hl
      exact exLoc_integral)
    (fun l hl s hs => by
      refine exLoc_whole hs ?_
      simpa [exU] using hl) fun _ => true
  refine ⟨r, r', h1, h2, ?_, ?_, h4 0 (by decide)⟩
  · rw [h3]
    refine congrArg r.outsc.wfc (funext fun k => ?_)
    fin_cases k <;> rfl
  · rw [h3]
    show (if true then (-1 : ℝ) else 1) * r.outsc.psi 0 _ = _
    rw [if_pos rfl, neg_one_mul]
    refine congrArg (fun c => - r.outsc.psi 0 c) (funext fun k => ?_)
    fin_cases k <;> rfl

end Dw.Born
