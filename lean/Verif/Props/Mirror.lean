import Verif.Props.PmlStaggered
import Verif.Props.Reciprocity
import Verif.Props.Born
import Verif.Scalar.Example
import Verif.Born.Mirror
import Verif.Elastic.Mirror
import Verif.Elastic.Scale
import Verif.Elastic.Energy

/-!
# Mirrored problems have mirrored solutions
-/

namespace Dw.Setup

variable {d : ℕ}

/-- The arguments with the widths of the reflected dimensions exchanged. -/
def PmlArgs.mirror (A : PmlArgs d) (e : Fin d → Bool) : PmlArgs d :=
  { A with
    w0 := fun k => if e k then A.w1 k else A.w0 k
    w1 := fun k => if e k then A.w0 k else A.w1 k }

theorem maxPml_mirror (A : PmlArgs d) (e : Fin d → Bool) :
    maxPml (A.mirror e).w0 (A.mirror e).w1 A.dx = maxPml A.w0 A.w1 A.dx := by
  unfold maxPml PmlArgs.mirror
  congr 2
  funext k
  dsimp only
  split_ifs
  · exact max_comm _ _
  · rfl

theorem pmlFrac_mirror (w0 w1 : ℤ) (p q n x x' : ℝ) (hx : x + x' = n - 1 - q + p) :
    pmlFrac w1 w0 (p + w1) (n - 1 - q - w0) x = pmlFrac w0 w1 (p + w0) (n - 1 - q - w1) x' := by
  unfold pmlFrac
  have h1 : p + w1 - x = x' - (n - 1 - q - w1) := by linarith
  have h2 : x - (n - 1 - q - w0) = p + w0 - x' := by linarith
  rw [h1, h2, max_comm (pmlFracSide w1 _)]

theorem ab_mirror (A : PmlArgs d) (e : Fin d → Bool) (s : ℝ) (k : Fin d) (i i' : ℤ)
    (hi : if e k then s + i + (s + i') = A.n k - 1 - A.pad1 + A.pad0 else i = i') :
    (A.mirror e).ab s k i = A.ab s k i' := by
  unfold PmlArgs.ab
  change setupPml _ _ _ _ (maxPml (A.mirror e).w0 (A.mirror e).w1 A.dx) _ _ _ _ _ = _
  rw [maxPml_mirror]
  unfold PmlArgs.mirror setupPml
  dsimp only
  by_cases he : e k = true
  · simp only [he, if_true] at hi ⊢
    rw [pmlFrac_mirror _ _ _ _ _ _ _ hi]
  · simp only [he, if_false, Bool.false_eq_true] at hi ⊢
    rw [hi]

theorem PmlArgs.Valid.mirror {A : PmlArgs d} (h : A.Valid) (e : Fin d → Bool) : (A.mirror e).Valid where
  w0 := fun k => by unfold PmlArgs.mirror; dsimp only; split_ifs; exacts [h.w1 k, h.w0 k]
  w1 := fun k => by unfold PmlArgs.mirror; dsimp only; split_ifs; exacts [h.w0 k, h.w1 k]
  dx := h.dx
  dt := h.dt
  vel := h.vel

/-- **C78** On the regular grid, exchanging the PML widths of a dimension reverses the profiles along
it; the derivative of `b` also changes sign. -/
theorem C78_regular_profiles (A : PmlArgs d) (h : A.Valid) (hf : 0 < A.freq) (hp : A.pad0 = A.pad1)
    (e : Fin d → Bool) (k : Fin d) (i : ℤ) :
    (A.mirror e).ab 0 k i = A.ab 0 k (if e k then A.n k - 1 - i else i) ∧
    (A.mirror e).db k i =
      (A.db k (if e k then A.n k - 1 - i else i)).map fun x => flipSgn e k * x := by
  have hab : ∀ i, (A.mirror e).ab 0 k i = A.ab 0 k (if e k then A.n k - 1 - i else i) := by
    intro i
    refine ab_mirror A e 0 k i _ ?_
    split_ifs
    · push_cast; rw [hp]; ring
    · rfl
  refine ⟨hab i, ?_⟩
  rw [PmlArgs.db_some _ (h.mirror e) hf, PmlArgs.db_some _ h hf, Option.map_some]
  congr 1
  simp only [hab, pyDiff1_eq]
  change (if (A.acc.pad : ℤ) ≤ i ∧ i < A.n k - A.acc.pad then cDiff1 A.acc (1 / A.dx k) _ else 0) = _
  unfold flipSgn
  by_cases he : e k = true
  · simp only [he, if_true, mul_ite, mul_zero]
    refine if_congr (by omega) ?_ rfl
    rw [neg_one_mul, ← cDiff1_neg_arg]
    congr 1
    funext j
    congr 3
    ring
  · simp only [he, if_false, Bool.false_eq_true, one_mul]

/-- **C78** On the staggered grid, with one cell less of padding at the end, exchanging the PML widths
of a dimension reverses the profiles along it: at integer points the image of `i` is `n - i`, at half
points `n - 1 - i`. -/
theorem C78_staggered_profiles (A : PmlArgs d) (hp : A.pad1 = A.pad0 - 1) (e : Fin d → Bool)
    (k : Fin d) (i : ℤ) :
    (A.mirror e).ab 0 k i = A.ab 0 k (if e k then A.n k - i else i) ∧
    (A.mirror e).ab (1 / 2) k i = A.ab (1 / 2) k (if e k then A.n k - 1 - i else i) := by
  constructor
  · refine ab_mirror A e 0 k i _ ?_
    split_ifs
    · rw [hp]; push_cast; ring
    · rfl
  · refine ab_mirror A e _ k i _ ?_
    split_ifs
    · rw [hp]; push_cast; ring
    · rfl

end Dw.Setup

namespace Dw.Scalar

open Dw.Born (scaleAmp gatherAt)

variable {d ns nr : ℕ} {R : Type*} [Field R] {C : Cfg d ns nr R}

theorem gather_mirror {F : Cell d → Cell d} {x x' : Fld d R}
    {o : Option (Cell d)} (ho : o ≠ none) (h : ∀ c, o = some c → x' (F c) = x c) :
    gatherAt x' (o.map F) = gatherAt x o := by
  cases o with
  | none => exact absurd rfl ho
  | some c => exact h c rfl

/-- **C78** Scalar propagator: for the mirrored model, PML, locations and initial wavefields, the
receivers record the same values, and the final wavefields and those shown to the callback are the
mirrored ones. -/
theorem C78_scalar_mirror (h : C.WF) (e : Fin d → Bool) (grad : Bool) (cb : Option ℕ) (nt : ℕ)
    (a : ℕ → Fin ns → R) (w : Init d R) (hr : 0 < C.ratio)
    (hcf : 0 < nt → 0 < cb.getD (nt / C.ratio)) :
    ∃ r r', C.forward grad cb nt (scaleAmp C a) w = .ok r ∧
      (C.mirror e).forward grad cb nt (scaleAmp (C.mirror e) a) (w.mirror e (C.flU e)) = .ok r' ∧
      r'.rcd = r.rcd ∧ r'.out = r.out.mirror e (C.flU e) ∧
      r'.events = r.events.map fun x => ⟨x.step, x.wf.mirror e (C.fl e)⟩ := by
  refine ⟨_, _, C.forward_eq h grad cb nt _ w hr hcf,
    (C.mirror e).forward_eq (h.mirror e) grad cb nt _ _ hr hcf, ?_, ?_, ?_⟩
  all_goals
    have hrun : ∀ n, (C.mirror e).run (scaleAmp (C.mirror e) a) 0
        ((C.mirror e).start (w.mirror e (C.flU e))) n =
        C.flipSt e (C.run (scaleAmp C a) 0 (C.start w) n) := by
      intro n
      rw [start_mirror]
      refine run_mirror (fun t i hi => ?_) 0 _ n
      have := gather_mirror (F := C.fl e) (x := C.v)
        (x' := (C.mirror e).v) hi fun c _ => congrArg C.v (flipAt_flipAt _ _ _)
      change -a t i * gatherAt (C.mirror e).v ((C.src i).map _) ^ 2 * C.dt ^ 2 = _
      rw [this]
      rfl
  · funext t
    dsimp only
    simp only [hrun]
    have := sample_mirror (flipAt_flipAt e fun k => C.n k - 1) C.rcv 1
      (C.run (scaleAmp C a) 0 (C.start w) t).u
    simp only [one_mul] at this
    exact if_congr Iff.rfl this rfl
  · dsimp only
    rw [hrun, outOf_mirror]
    rfl
  · cases cb with
    | none => rfl
    | some cf =>
        simp only [List.map_map]
        refine List.map_congr_left fun i _ => ?_
        simp only [Cfg.eventAt, Function.comp_apply, hrun]
        rfl

/-- For the example, mirrored in the second dimension, the source is elsewhere. -/
example : (exCfg.mirror fun k => k == 1).src ≠ exCfg.src ∧ (exCfg.mirror fun k => k == 1).WF := by
  refine ⟨?_, exCfg_wf.mirror _⟩
  intro hh
  have := congrFun hh 0
  revert this
  decide +kernel

end Dw.Scalar

namespace Dw.Born

open Dw.Scalar

variable {d ns nr nq : ℕ} {R : Type*} [Field R] {B : BCfg d ns nr nq R}

/-- **C78** Born propagator: the same, for the background and the scattered field. -/
theorem C78_born_mirror (h : B.base.WF) (e : Fin d → Bool) (gv gs : Bool) (cb : Option ℕ) (nt : ℕ)
    (a : ℕ → Fin ns → R) (w wsc : Init d R) (hr : 0 < B.base.ratio)
    (hcf : 0 < nt → 0 < cb.getD (nt / B.base.ratio)) :
    ∃ r r', B.forward gv gs cb nt (scaleAmp B.base a) (scaleAmpSc B a) w wsc = .ok r ∧
      (B.mirror e).forward gv gs cb nt (scaleAmp (B.mirror e).base a) (scaleAmpSc (B.mirror e) a)
        (w.mirror e (B.base.flU e)) (wsc.mirror e (B.base.flU e)) = .ok r' ∧
      r'.rcd = r.rcd ∧ r'.rcdsc = r.rcdsc ∧ r'.out = r.out.mirror e (B.base.flU e) ∧
      r'.outsc = r.outsc.mirror e (B.base.flU e) ∧
      r'.events = r.events.map fun x =>
        ⟨x.step, x.bg.mirror e (B.base.fl e), x.sc.mirror e (B.base.fl e)⟩ := by
  have hg : ∀ {i} {x : Fld d R}, B.base.src i ≠ none →
      gatherAt (fun c => x (B.base.fl e c)) ((B.base.src i).map (B.base.fl e)) =
        gatherAt x (B.base.src i) := fun {i x} hi =>
    gather_mirror (x' := fun c => x (B.base.fl e c)) hi fun c _ => congrArg x (flipAt_flipAt _ _ _)
  have h1 : ∀ t i, B.base.src i ≠ none →
      scaleAmp (B.mirror e).base a t i = scaleAmp B.base a t i := fun t i hi => by
    change -a t i * gatherAt (fun c => B.base.v (B.base.fl e c)) ((B.base.src i).map _) ^ 2 * _ = _
    rw [hg hi]
    rfl
  have h2 : ∀ t i, B.base.src i ≠ none →
      scaleAmpSc (B.mirror e) a t i = scaleAmpSc B a t i := fun t i hi => by
    change -2 * a t i * gatherAt (fun c => B.base.v (B.base.fl e c)) ((B.base.src i).map _)
      * gatherAt (fun c => B.scatter (B.base.fl e c)) ((B.base.src i).map _) * _ = _
    rw [hg hi, hg hi]
    rfl
  have hrun : ∀ n, (B.base.mirror e).run (scaleAmp (B.mirror e).base a) 0
      ((B.base.mirror e).start (w.mirror e (B.base.flU e))) n =
      B.base.flipSt e (B.base.run (scaleAmp B.base a) 0 (B.base.start w) n) := fun n => by
    rw [start_mirror]
    exact run_mirror h1 0 _ n
  have hsc : ∀ n, scRun (B.mirror e) (scaleAmp (B.mirror e).base a) (scaleAmpSc (B.mirror e) a)
      ((B.base.mirror e).start (w.mirror e (B.base.flU e)))
      ((B.base.mirror e).start (wsc.mirror e (B.base.flU e))) n =
      B.base.flipSt e (scRun B (scaleAmp B.base a) (scaleAmpSc B a) (B.base.start w)
        (B.base.start wsc) n) := fun n => by
    rw [start_mirror, start_mirror]
    exact scRun_mirror h1 h2 _ _ n
  have hb : (B.mirror e).base = B.base.mirror e := rfl
  refine ⟨_, _, forward_eq h gv gs cb nt _ _ w wsc hr hcf,
    forward_eq (B := B.mirror e) (h.mirror e) gv gs cb nt _ _ _ _ hr hcf, ?_, ?_, ?_, ?_, ?_⟩
  · funext t
    simp only [hb] at hrun ⊢
    simp only [hrun]
    have := sample_mirror (flipAt_flipAt e fun k => B.base.n k - 1) B.base.rcv 1
      (B.base.run (scaleAmp B.base a) 0 (B.base.start w) t).u
    simp only [one_mul] at this
    exact if_congr Iff.rfl this rfl
  · funext t
    simp only [hb] at hsc ⊢
    simp only [hsc]
    have := sample_mirror (flipAt_flipAt e fun k => B.base.n k - 1) B.rcvsc 1
      (scRun B (scaleAmp B.base a) (scaleAmpSc B a) (B.base.start w) (B.base.start wsc) t).u
    simp only [one_mul] at this
    exact if_congr Iff.rfl this rfl
  · simp only [hb] at hrun ⊢
    rw [hrun, outOf_mirror]
    rfl
  · simp only [hb] at hsc ⊢
    rw [hsc, outOf_mirror]
    rfl
  · cases cb with
    | none => rfl
    | some cf =>
        simp only [List.map_map]
        refine List.map_congr_left fun i _ => ?_
        simp only [hb] at hrun hsc
        simp only [fEventAt, Function.comp_apply, hb, hrun, hsc]
        rfl

example : ((exB ℚ).mirror fun _ => true).base.WF := (exB_wf ℚ).base.mirror _

end Dw.Born

namespace Dw.Acoustic

open Dw.Scalar (sample sample_mirror gather_mirror)

variable {d np mp : ℕ} {nv mv : Fin d → ℕ} {R : Type*} [Field R] [LinearOrder R]
  {C : Cfg d np mp nv mv R}

omit [Field R] [LinearOrder R] in
theorem innerH_shift {k : Fin d} {c : Cell d} (hc : C.InnerH k c) : C.Inner (c.shift k 1) := by
  intro j
  have := hc.1 j
  by_cases hj : j = k
  · subst hj
    have := hc.2
    simp only [Cell.shift_same]
    omega
  · rw [Cell.shift_ne _ _ _ _ hj]
    exact this

/-- The buoyancies of mirrored densities are mirrored, at the velocity points that are updated. -/
theorem prepareB_mirror (e : Fin d → Bool) (rfmax : R) {rho rho' : Fld d R}
    (hρ : ∀ c, C.Inner c → rho' (C.fl e noHalf c) = rho c) (k : Fin d) (c : Cell d)
    (hc : C.InnerH k c) :
    prepareB C.n rfmax rho' k (C.fl e (vHalf k) c) = prepareB C.n rfmax rho k c := by
  have hpad : (1 : ℤ) ≤ C.acc.pad := pad_pos _
  have hm : meanRho C.n rho' k (C.fl e (vHalf k) c) = meanRho C.n rho k c := by
    have h1 := (hc.1 k).1
    have h2 := hc.2
    have h3 := ((innerH_fl (e := e) k c).2 hc).2
    unfold meanRho
    rw [if_pos (by omega), if_pos (by omega)]
    have e1 := hρ c hc.1
    have e2 := hρ _ (innerH_shift hc)
    have hx : ∀ j, C.fl e noHalf (c.shift k j) = (C.fl e (vHalf k) c).shift k
        (if e k then 1 - j else j) := fun j => by
      have := flipS_shift e C.n (L := vHalf k) (L' := noHalf) (k := k)
        (by rw [vHalf_self]; rfl) (fun l hl => (vHalf_ne k l hl).symm) c j
      rw [vHalf_self] at this
      simpa using this
    have e0 := hx 0
    have e3 := hx 1
    rw [Cell.shift_zero] at e0
    rw [e0] at e1
    rw [e3] at e2
    split_ifs at e1 e2
    · rw [sub_zero] at e1
      rw [sub_self, Cell.shift_zero] at e2
      rw [← e1, ← e2, add_comm]
    · rw [Cell.shift_zero] at e1
      rw [← e1, ← e2]
  unfold prepareB
  rw [hm]

/-- **C78** Acoustic propagator: for the mirrored velocity and density models, PML, locations and
initial wavefields, and with the amplitudes of velocity sources along the reflected dimensions
negated, pressure receivers record the same values, velocity receivers record the same values or, along
the reflected dimensions, their negatives, and the wavefields are the mirrored ones.  `v`, `rho` are
the padded models; a velocity point is between the images of its two neighbouring pressure points. -/
theorem C78_acoustic_mirror (h : C.WF) (e : Fin d → Bool) (rfmax : R) (v rho v' rho' : Fld d R)
    (hK : C.K = prepareK v rho) (hB : C.B = prepareB C.n rfmax rho)
    (hv : ∀ c, C.Inner c → v' (C.fl e noHalf c) = v c)
    (hρ : ∀ c, C.Inner c → rho' (C.fl e noHalf c) = rho c) (gk gb : Bool) (cb : Option ℕ)
    (nt : ℕ) (a : ℕ → Fin np → R) (av : (k : Fin d) → ℕ → Fin (nv k) → R) (w : Init d R)
    (hr : 0 < C.ratio) (hcf : 0 < nt → 0 < cb.getD (nt / C.ratio)) :
    let C' := (C.mirror e).mirModels (prepareK v' rho') (prepareB C.n rfmax rho')
    ∃ r r', C.forward gk gb cb nt (scaleAmpP C a) (scaleAmpV C av) w = .ok r ∧
      C'.forward gk gb cb nt (scaleAmpP C' a) (scaleAmpV C' fun k t i => flipSgn e k * av k t i)
        (w.mirror e (C.flU e)) = .ok r' ∧
      r'.rcdP = r.rcdP ∧ (∀ k t i, r'.rcdV k t i = flipSgn e k * r.rcdV k t i) ∧
      r'.out = r.out.mirror e (C.flU e) ∧
      r'.events = r.events.map fun x => ⟨x.step, x.wf.mirror e (C.fl e)⟩ := by
  intro C'
  have hK' : ∀ c, C.Inner c → prepareK v' rho' (C.fl e noHalf c) = C.K c := fun c hc => by
    rw [hK]
    unfold prepareK
    rw [hv c hc, hρ c hc]
  have hB' : ∀ k c, C.InnerH k c → prepareB C.n rfmax rho' k (C.fl e (vHalf k) c) = C.B k c :=
    fun k c hc => by rw [hB]; exact prepareB_mirror e rfmax hρ k c hc
  have hp : ∀ t i, C.srcP i ≠ none → scaleAmpP C' a t i = scaleAmpP C a t i := fun t i hi => by
    have := gather_mirror (F := C.fl e noHalf) (x := C.K) (x' := prepareK v' rho') hi
      fun c hc => hK' c (h.srcP_in i c hc)
    change a t i * Born.gatherAt (prepareK v' rho') ((C.srcP i).map _) * C.dt = _
    rw [this]
    rfl
  have hv : ∀ k t i, C.srcV k i ≠ none → scaleAmpV C' (fun k t i => flipSgn e k * av k t i) k t i =
      flipSgn e k * scaleAmpV C av k t i := fun k t i hi => by
    have := gather_mirror (F := C.fl e (vHalf k)) (x := C.B k) (x' := prepareB C.n rfmax rho' k) hi
      fun c hc => hB' k c (h.srcV_in k i c hc)
    change flipSgn e k * av k t i * Born.gatherAt (prepareB C.n rfmax rho' k) ((C.srcV k i).map _) *
      C.dt = _
    rw [this]
    unfold scaleAmpV
    ring
  have hwf : C'.WF := ⟨(h.mirror e).w0_nonneg, (h.mirror e).w1_nonneg, (h.mirror e).size,
    (h.mirror e).a_mid, (h.mirror e).b_mid, (h.mirror e).ah_mid, (h.mirror e).bh_mid,
    (h.mirror e).srcP_in, (h.mirror e).srcV_in, (h.mirror e).rcvP_in, (h.mirror e).rcvV_in⟩
  have hpr : C'.prepare (w.mirror e (C.flU e)) = (C.prepare w).mirror e (C.fl e) :=
    prepare_mirror (C := C) (e := e) w
  have hrun : ∀ n, C'.run (scaleAmpP C' a) (scaleAmpV C' fun k t i => flipSgn e k * av k t i)
      (C'.prepare (w.mirror e (C.flU e))) n =
      (C.run (scaleAmpP C a) (scaleAmpV C av) (C.prepare w) n).mirror e (C.fl e) := fun n => by
    rw [hpr]
    exact run_mirror hK' hB' hp hv _ n
  refine ⟨_, _, forward_eq h gk gb cb nt _ _ w hr hcf, forward_eq hwf gk gb cb nt _ _ _ hr hcf,
    ?_, ?_, ?_, ?_⟩
  · funext t
    simp only [hrun]
    have := sample_mirror (flipS_flipS e C.n noHalf) C.rcvP 1
      (C.run (scaleAmpP C a) (scaleAmpV C av) (C.prepare w) t).p
    simp only [one_mul] at this
    exact if_congr Iff.rfl this rfl
  · intro k t i
    simp only [hrun]
    have := congrFun (sample_mirror (flipS_flipS e C.n (vHalf k)) (C.rcvV k) (flipSgn e k)
      ((C.run (scaleAmpP C a) (scaleAmpV C av) (C.prepare w) t).v k)) i
    change (if t < nt / C.ratio * C.ratio then _ else _ : Fin (mv k) → R) i = _
    split_ifs
    · exact this
    · exact (mul_zero _).symm
  · simp only [hrun]
    exact unpadAll_mirror _
  · cases cb with
    | none => rfl
    | some cf =>
        simp only [List.map_map, hrun]
        rfl

/-- Models that change along both dimensions. -/
def exVel : Fld 2 ℚ := fun c => 2 + c 0

def exRho : Fld 2 ℚ := fun c => 1 + (c 1 : ℚ) ^ 2

/-- The example with these models. -/
def exAModels : Cfg 2 2 1 (fun _ => 1) (fun _ => 1) ℚ :=
  (exA ℚ).mirModels (prepareK exVel exRho) (prepareB (exA ℚ).n (1 / 1000) exRho)

theorem exAModels_wf : exAModels.WF :=
  ⟨(exA_wf ℚ).w0_nonneg, (exA_wf ℚ).w1_nonneg, (exA_wf ℚ).size, (exA_wf ℚ).a_mid, (exA_wf ℚ).b_mid,
    (exA_wf ℚ).ah_mid, (exA_wf ℚ).bh_mid, (exA_wf ℚ).srcP_in, (exA_wf ℚ).srcV_in, (exA_wf ℚ).rcvP_in,
    (exA_wf ℚ).rcvV_in⟩

/-- The hypotheses hold for this example, reflected in the second dimension, in which the mirrored
problem is a different one. -/
example : exAModels.WF ∧ exAModels.K = prepareK exVel exRho ∧
    exAModels.B = prepareB exAModels.n (1 / 1000) exRho ∧
    (exAModels.mirror fun k => k == 1).rcvP ≠ exAModels.rcvP ∧
    (exAModels.mirror fun k => k == 1).K ![4, 4] ≠ exAModels.K ![4, 4] := by
  refine ⟨exAModels_wf, rfl, rfl, fun hh => ?_, ?_⟩
  · have := congrFun hh 0
    revert this
    decide +kernel
  · decide +kernel

end Dw.Acoustic

namespace Dw.Elastic

open Dw.Scalar (sample sample_mirror gather_mirror)
open Dw.Acoustic (noHalf)

variable {d np mp : ℕ} {nv mv : Fin d → ℕ} {R : Type*} [Field R] [LinearOrder R]
  {C : Cfg d np mp nv mv R}

omit [Field R] [LinearOrder R] in
theorem innerAt_shift {L L' : Loc d} {k : Fin d} (hk : L k = true) (hk' : L' k = false)
    (hl : ∀ l, l ≠ k → L' l = L l) {c : Cell d} (hc : C.InnerAt L c) :
    C.InnerAt L' c ∧ C.InnerAt L' (c.shift k 1) := by
  have h0 : ∀ j, (C.acc.pad : ℤ) ≤ c j ∧ c j < C.n j - C.acc.pad + 1 := hc.1
  refine ⟨⟨hc.1, fun l h => ?_⟩, ⟨fun j => ?_, fun l h => ?_⟩⟩
  · by_cases e : l = k
    · subst e; rw [hk'] at h; cases h
    · rw [hl l e] at h; exact hc.2 l h
  · by_cases hj : j = k
    · subst hj
      have := hc.2 j hk
      have := h0 j
      simp only [Cell.shift_same]
      omega
    · rw [Cell.shift_ne _ _ _ _ hj]
      exact h0 j
  · by_cases e : l = k
    · subst e; rw [hk'] at h; cases h
    · rw [Cell.shift_ne _ _ _ _ e]
      rw [hl l e] at h
      exact hc.2 l h

omit [Field R] [LinearOrder R] in
/-- Values at the two neighbours along `k` of a point, in the mirrored field, are those at the two
neighbours of its image, in either order. -/
theorem neighbours_mirror (e : Fin d → Bool) {L L' : Loc d} {k : Fin d} (hk : L k = true)
    (hk' : L' k = false) (hl : ∀ l, l ≠ k → L' l = L l) {x x' : Fld d R}
    (hx : ∀ c, C.InnerAt L' c → x' (C.fl e L' c) = x c) {c : Cell d} (hc : C.InnerAt L c) :
    (x' (C.fl e L c) = x c ∧ x' ((C.fl e L c).shift k 1) = x (c.shift k 1)) ∨
    (x' (C.fl e L c) = x (c.shift k 1) ∧ x' ((C.fl e L c).shift k 1) = x c) := by
  obtain ⟨h1, h2⟩ := innerAt_shift hk hk' hl hc
  have e1 := hx _ h1
  have e2 := hx _ h2
  have hs : ∀ j, C.fl e L' (c.shift k j) = (C.fl e L c).shift k (if e k then 1 - j else j) :=
    fun j => by
      have := flipS_shift e C.n (L := L) (L' := L') (k := k) (by rw [hk, hk']; rfl) hl c j
      rw [hk] at this
      simpa using this
  have s0 := hs 0
  rw [Cell.shift_zero] at s0
  rw [s0] at e1
  rw [hs 1] at e2
  split_ifs at e1 e2
  · rw [sub_zero] at e1
    rw [sub_self, Cell.shift_zero] at e2
    exact .inr ⟨e2, e1⟩
  · rw [Cell.shift_zero] at e1
    exact .inl ⟨e1, e2⟩

omit [Field R] [LinearOrder R] in
theorem inner_size {L : Loc d} {c : Cell d} (hc : C.InnerAt L c) {k : Fin d} (hk : L k = true) :
    c k + 1 < C.n k := by
  have h1 : (1 : ℤ) ≤ C.acc.pad := Acoustic.pad_pos _
  have := hc.2 k hk
  omega

/-- The buoyancies of mirrored models are mirrored. -/
theorem prepareB_mirror (e : Fin d → Bool) (rfmax : R) {b b' : Fld d R}
    (hb : ∀ c, C.Inner c → b' (C.fl e noHalf c) = b c) (i : Fin d) (c : Cell d)
    (hc : C.InnerAt (vLoc i) c) :
    prepareB C.n rfmax b' i (C.fl e (vLoc i) c) = prepareB C.n rfmax b i c := by
  have hi : vLoc i i = true := by simp [vLoc]
  have hx : ∀ c, C.InnerAt noHalf c →
      prepareRho rfmax b' (C.fl e noHalf c) = prepareRho rfmax b c := fun c hc => by
    unfold prepareRho
    rw [hb c ((innerAt_none c).1 hc)]
  have := neighbours_mirror e (L := vLoc i) (L' := noHalf) (k := i) hi rfl
    (fun l hl => by simp [vLoc, noHalf, hl]) hx hc
  have s1 := inner_size hc hi
  have s2 := inner_size ((innerAt_fl (e := e) _ c).2 hc) hi
  have hm : Acoustic.meanRho C.n (prepareRho rfmax b') i (C.fl e (vLoc i) c) =
      Acoustic.meanRho C.n (prepareRho rfmax b) i c := by
    unfold Acoustic.meanRho
    rw [if_pos s1, if_pos s2]
    rcases this with ⟨h1, h2⟩ | ⟨h1, h2⟩
    · rw [h1, h2]
    · rw [h1, h2, add_comm]
  unfold prepareB Acoustic.prepareB
  rw [hm]

omit [Field R] [LinearOrder R] in
/-- The images of the four points around a shear point are those around its image. -/
theorem corners_fl (e : Fin d → Bool) (p : Sh d) (c : Cell d) (α β : ℤ) :
    C.fl e noHalf ((c.shift p.1.1 α).shift p.1.2 β) =
      ((C.fl e (sLoc p.1.1 p.1.2) c).shift p.1.1 (if e p.1.1 then 1 - α else α)).shift p.1.2
        (if e p.1.2 then 1 - β else β) := by
  have h1 := flipS_shift e C.n (L := vLoc p.1.1) (L' := noHalf) (k := p.1.1)
    (by simp [vLoc, noHalf]) (fun l hl => by simp [vLoc, noHalf, hl])
  have h2 := flipS_shift e C.n (L := sLoc p.1.1 p.1.2) (L' := vLoc p.1.1) (k := p.1.2)
    (by rw [vLoc_right]) (fun l hl => (sLoc_other _ _ l hl).symm)
  have hc : ∀ (c : Cell d) (i j : Fin d) (x y : ℤ), (c.shift i x).shift j y = (c.shift j y).shift i x :=
    fun c i j x y => by unfold Cell.shift; abel
  rw [hc, Cfg.fl, h1, h2, hc, sLoc_lt_right]
  simp [vLoc]

omit [Field R] [LinearOrder R] in
theorem corners_in {p : Sh d} {c : Cell d} (hc : C.InnerAt (sLoc p.1.1 p.1.2) c) :
    C.Inner c ∧ C.Inner (c.shift p.1.1 1) ∧ C.Inner (c.shift p.1.2 1) ∧
      C.Inner ((c.shift p.1.1 1).shift p.1.2 1) := by
  have h1 := innerAt_shift (L := sLoc p.1.1 p.1.2) (L' := vLoc p.1.1) (k := p.1.2) (sLoc_lt_right p)
    (by simp [vLoc, p.2.ne']) (fun l hl => (sLoc_other _ _ l hl).symm) hc
  have h2 := fun {c} (hc : C.InnerAt (vLoc p.1.1) c) => innerAt_shift (L := vLoc p.1.1)
    (L' := noHalf) (k := p.1.1) (by simp [vLoc]) rfl (fun l hl => by simp [vLoc, noHalf, hl]) hc
  have hs : (c.shift p.1.1 1).shift p.1.2 1 = (c.shift p.1.2 1).shift p.1.1 1 := by
    unfold Cell.shift; abel
  rw [hs]
  exact ⟨(h2 h1.1).1.1, (h2 h1.1).2.1, (h2 h1.2).1.1, (h2 h1.2).2.1⟩

/-- The shear moduli of mirrored models are mirrored. -/
theorem prepareMuS_mirror (e : Fin d → Bool) (rfmax : R) {mu mu' : Fld d R}
    (hm : ∀ c, C.Inner c → mu' (C.fl e noHalf c) = mu c) (p : Sh d) (c : Cell d)
    (hc : C.InnerAt (sLoc p.1.1 p.1.2) c) :
    prepareMuS C.n rfmax mu' p (C.fl e (sLoc p.1.1 p.1.2) c) = prepareMuS C.n rfmax mu p c := by
  obtain ⟨i1, i2, i3, i4⟩ := corners_in hc
  have s1 := inner_size hc (sLoc_lt_left p)
  have s2 := inner_size hc (sLoc_lt_right p)
  have s3 := inner_size ((innerAt_fl (e := e) _ c).2 hc) (sLoc_lt_left p)
  have s4 := inner_size ((innerAt_fl (e := e) _ c).2 hc) (sLoc_lt_right p)
  have c1 := corners_fl (C := C) e p c 0 0
  have c2 := corners_fl (C := C) e p c 1 0
  have c3 := corners_fl (C := C) e p c 0 1
  have c4 := corners_fl (C := C) e p c 1 1
  simp only [Cell.shift_zero] at c1 c2 c3 c4
  have e1 := hm _ i1
  have e2 := hm _ i2
  have e3 := hm _ i3
  have e4 := hm _ i4
  rw [c1] at e1
  rw [c2] at e2
  rw [c3] at e3
  rw [c4] at e4
  unfold prepareMuS muSafe
  dsimp only
  refine (if_pos ⟨s3, s4⟩).trans (Eq.trans ?_ (if_pos ⟨s1, s2⟩).symm)
  clear c1 c2 c3 c4
  cases h1 : e p.1.1 <;> cases h2 : e p.1.2 <;>
    simp only [h1, h2, if_true, if_false, Bool.false_eq_true, sub_zero, sub_self, Cell.shift_zero]
      at e1 e2 e3 e4 <;>
    rw [e1, e2, e3, e4] <;>
    refine if_congr (by tauto) ?_ rfl <;> congr 1 <;> ring

/-- **C78** Elastic propagator: for mirrored models, PML, locations and initial wavefields, and with the
amplitudes of velocity sources along the reflected dimensions negated, pressure receivers record the
same values, velocity receivers record the same values or, along the reflected dimensions, their
negatives, and the wavefields are the mirrored ones.  `b` is the padded buoyancy model. -/
theorem C78_elastic_mirror (h : C.WF) (e : Fin d → Bool) (rfmax : R) (b lam' mu' b' : Fld d R)
    (hS : C.muS = prepareMuS C.n rfmax C.mu) (hB : C.B = prepareB C.n rfmax b)
    (hl : ∀ c, C.Inner c → lam' (C.fl e noHalf c) = C.lam c)
    (hm : ∀ c, C.Inner c → mu' (C.fl e noHalf c) = C.mu c)
    (hb : ∀ c, C.Inner c → b' (C.fl e noHalf c) = b c) (gl gm gb : Bool) (cb : Option ℕ)
    (nt : ℕ) (a : ℕ → Fin np → R) (av : (k : Fin d) → ℕ → Fin (nv k) → R) (w : Init d R)
    (hr : 0 < C.ratio) (hcf : 0 < nt → 0 < cb.getD (nt / C.ratio)) :
    let C' := (C.mirror e).mirModels lam' mu' (prepareMuS C.n rfmax mu') (prepareB C.n rfmax b')
    ∃ r r', C.forward gl gm gb cb nt (scaleAmpP C a) (scaleAmpV C av) w = .ok r ∧
      C'.forward gl gm gb cb nt (scaleAmpP C' a) (scaleAmpV C' fun k t i => flipSgn e k * av k t i)
        (w.mirror e (C.flU e)) = .ok r' ∧
      r'.rcdP = r.rcdP ∧ (∀ k t i, r'.rcdV k t i = flipSgn e k * r.rcdV k t i) ∧
      r'.out = r.out.mirror e (C.flU e) ∧
      r'.events = r.events.map fun x => ⟨x.step, x.wf.mirror e (C.fl e)⟩ := by
  intro C'
  have hM : C.Mirrored e lam' mu' (prepareMuS C.n rfmax mu') (prepareB C.n rfmax b') :=
    ⟨hl, hm, fun p c hc => by rw [hS]; exact prepareMuS_mirror e rfmax hm p c hc,
      fun i c hc => by rw [hB]; exact prepareB_mirror e rfmax hb i c hc⟩
  have hv : ∀ k t i, C.srcV k i ≠ none → scaleAmpV C' (fun k t i => flipSgn e k * av k t i) k t i =
      flipSgn e k * scaleAmpV C av k t i := fun k t i hi => by
    have := gather_mirror (F := C.fl e (vLoc k)) (x := C.B k) (x' := prepareB C.n rfmax b' k) hi
      fun c hc => hM.B k c (h.srcV_in k i c hc)
    change flipSgn e k * av k t i * Born.gatherAt (prepareB C.n rfmax b' k) ((C.srcV k i).map _) *
      C.dt = _
    rw [this]
    unfold scaleAmpV
    ring
  have hwf : C'.WF := ⟨(h.mirror e).w0_nonneg, (h.mirror e).w1_nonneg, (h.mirror e).size,
    (h.mirror e).pa_mid, (h.mirror e).pb_mid, (h.mirror e).srcP_in, (h.mirror e).srcV_in,
    (h.mirror e).rcvP_in, (h.mirror e).rcvV_in⟩
  have hpr : C'.prepare (w.mirror e (C.flU e)) = (C.prepare w).mirror e (C.fl e) :=
    prepare_mirror (C := C) (e := e) w
  have hrun : ∀ n, C'.run (scaleAmpP C' a) (scaleAmpV C' fun k t i => flipSgn e k * av k t i)
      (C'.prepare (w.mirror e (C.flU e))) n =
      (C.run (scaleAmpP C a) (scaleAmpV C av) (C.prepare w) n).mirror e (C.fl e) := fun n => by
    rw [hpr]
    exact run_mirror hM (fun _ _ _ => rfl) hv _ n
  refine ⟨_, _, forward_eq h gl gm gb cb nt _ _ w hr hcf, forward_eq hwf gl gm gb cb nt _ _ _ hr hcf,
    ?_, ?_, ?_, ?_⟩
  · funext t
    simp only [hrun]
    have := sample_mirror (flipS_flipS e C.n noHalf) C.rcvP 1
      (C.run (scaleAmpP C a) (scaleAmpV C av) (C.prepare w) t).prs
    simp only [one_mul] at this
    exact if_congr Iff.rfl this rfl
  · intro k t i
    simp only [hrun]
    have := congrFun (sample_mirror (flipS_flipS e C.n (vLoc k)) (C.rcvV k) (flipSgn e k)
      ((C.run (scaleAmpP C a) (scaleAmpV C av) (C.prepare w) t).v k)) i
    change (if t < nt / C.ratio * C.ratio then _ else _ : Fin (mv k) → R) i = _
    split_ifs
    · exact this
    · exact (mul_zero _).symm
  · simp only [hrun]
    exact unpadAll_mirror _
  · cases cb with
    | none => rfl
    | some cf =>
        simp only [List.map_map, hrun]
        rfl

/-- The example with models that change along both dimensions. -/
def exEModels : Cfg 2 2 1 (fun _ => 1) (fun _ => 1) ℚ :=
  (exE ℚ).mirModels Acoustic.exVel Acoustic.exRho (prepareMuS (exE ℚ).n (1 / 1000) Acoustic.exRho)
    (prepareB (exE ℚ).n (1 / 1000) Acoustic.exVel)

theorem exEModels_wf : exEModels.WF :=
  ⟨(exE_wf ℚ).w0_nonneg, (exE_wf ℚ).w1_nonneg, (exE_wf ℚ).size, (exE_wf ℚ).pa_mid, (exE_wf ℚ).pb_mid,
    (exE_wf ℚ).srcP_in, (exE_wf ℚ).srcV_in, (exE_wf ℚ).rcvP_in, (exE_wf ℚ).rcvV_in⟩

/-- The hypotheses hold for this example, reflected in the second dimension, in which the mirrored
problem is a different one. -/
example : exEModels.WF ∧ exEModels.muS = prepareMuS exEModels.n (1 / 1000) exEModels.mu ∧
    exEModels.B = prepareB exEModels.n (1 / 1000) Acoustic.exVel ∧
    (exEModels.mirror fun k => k == 1).rcvP ≠ exEModels.rcvP ∧
    (exEModels.mirror fun k => k == 1).mu ![4, 4] ≠ exEModels.mu ![4, 4] := by
  refine ⟨exEModels_wf, rfl, rfl, fun hh => ?_, ?_⟩
  · have := congrFun hh 0
    revert this
    decide +kernel
  · decide +kernel

end Dw.Elastic
