import Verif.Props.UserMirror
import Verif.Spec.MirrorStaggered

/-!
# C129 for `acoustic` and `elastic`

The mirror image of the components of the velocity along a reversed axis are between other cells, and have the opposite
sign.
-/

namespace Dw.Setup

open Scalar (upAmps upS downS WholeIgnored upS_comb downS_comb NoElements)
open Resample (Sig)
open Spec (sgn flipAt atV)

variable {d : ℕ} {ε : Fin d → Bool} {A : SetupArgs d} {P P' : Plan d}

/-- The number of the last point of velocity component `k` in a model of this shape. -/
def lastV (shape : Fin d → ℤ) (k : Fin d) : Fin d → ℤ := fun j => shape j - 1 - if atV k j then 1 else 0

/-- Amplitudes of the velocity along an axis. -/
def AmpT.signed (e : Bool) (a : AmpT) : AmpT := { a with val := fun s i t => (if e then -1 else 1) * a.val s i t }

/-- A signal with the opposite sign. -/
def signedSig (e : Bool) (x : Sig ℝ) : Sig ℝ := ⟨x.len, fun t => (if e then -1 else 1) * x.val t⟩

theorem Plan.Mirrored.indexAt {shape : Fin d → ℤ} (h : P.Mirrored ε P') (he : P.ext = fun k => (0, shape k))
    (L : Fin d → Bool) (c : Cell d) :
    P.index (flipAt ε (fun k => shape k - 1) L c) = flipAt ε P.lastIdx L (P'.index c) := by
  funext k
  unfold Plan.index flipAt Spec.flip Plan.lastIdx
  dsimp only
  rw [h.ext, h.w0, he]
  cases ε k <;> simp
  ring

theorem upAmps_signed (h : A.Good P) (tt : Bool) (e : Bool) (a : Option AmpT) (s t i : ℕ) :
    upAmps P tt (a.map (AmpT.signed e)) s t i = (if e then -1 else 1) * upAmps P tt a s t i := by
  cases a with
  | none => simp [upAmps]
  | some a =>
      have := upS_comb h tt (if e then -1 else 1) 0 ⟨a.nt, a.val s i⟩ ⟨a.nt, a.val s i⟩ rfl
      have := congrArg (fun x : Sig ℝ => x.val t) this
      simp only [Sig.comb, zero_mul, add_zero] at this
      exact this

theorem downS_signed (h : A.Good P) (tt : Bool) (e : Bool) (x : ℕ → ℝ) :
    downS P tt ⟨P.nt.toNat, fun t => (if e then -1 else 1) * x t⟩ = signedSig e (downS P tt ⟨P.nt.toNat, x⟩) := by
  have := downS_comb h tt (if e then -1 else 1) 0 x x
  simp only [Sig.comb, zero_mul, add_zero] at this
  exact this

theorem locValue_smul (o : Option LocT) (s i : ℕ) (a : ℝ) (u : Fld d ℝ) :
    locValue o s i (fun c => a * u c) = a * locValue o s i u := by
  unfold locValue
  cases locCell (d := d) o s i with
  | none => simp
  | some c => rfl

theorem locSum_smul (o : Option LocT) (s : ℕ) (a : ℝ) (g : ℕ → ℝ) (c : Cell d) :
    locSum o s (fun i => a * g i) c = a * locSum o s g c := by
  unfold locSum
  rw [Finset.mul_sum]
  exact Finset.sum_congr rfl fun i _ => by rw [mul_ite, mul_zero]

section
variable {shape N : Fin d → ℤ} {nb s : ℕ} {o : Option LocT} (ho : OnCells shape N nb o) (hs : s < nb)
include ho hs

theorem Plan.Mirrored.traceV (h : P.Mirrored ε P') (hg : A.Good P) (tt : Bool) (u : ℕ → Fld d ℝ) (k : Fin d) {i : ℕ}
    (hi : i < locCount o) :
    Scalar.downS P' tt ⟨P'.nt.toNat, fun t => if t < P'.steps then
        locValue (o.map (LocT.flip ε N)) s i (fun c => (sgn ε k : ℤ) * u t (Spec.flip ε N c)) else 0⟩ =
    signedSig (ε k) (Scalar.downS P tt ⟨P.nt.toNat, fun t => if t < P.steps then locValue o s i (u t) else 0⟩) := by
  rw [h.downS, h.nt, h.steps, ← downS_signed hg]
  refine congrArg (fun f : ℕ → ℝ => Scalar.downS P tt ⟨P.nt.toNat, f⟩) (funext fun t => ?_)
  rw [mul_ite, mul_zero, locValue_smul _ _ _ _ fun c => u t (Spec.flip ε N c), locValue_flip ho hs _ hi, sgn_cast]

theorem Plan.Mirrored.injectV (h : P.Mirrored ε P') (hg : A.Good P) (tt : Bool) (a : Option AmpT) (t : ℕ) (k : Fin d) :
    (locSum (o.map (LocT.flip ε N)) s fun i => Scalar.upAmps P' tt (a.map (AmpT.signed (ε k))) s t i) =
    fun c => (sgn ε k : ℤ) * (locSum (d := d) o s fun i => Scalar.upAmps P tt a s t i) (Spec.flip ε N c) := by
  rw [h.upAmps]
  simp only [upAmps_signed hg]
  rw [locSum_flip ho hs]
  funext c
  rw [locSum_smul, sgn_cast]

end

theorem LocT.flip_below {l : LocT} {shape N : Fin d → ℤ} (hl : l.Flippable shape N) : (l.flip ε N).Below N := by
  intro s hs i hn k hv
  have hv' := fun h => hv ((LocT.flip_ignore (ε := ε) hl.below hs hn k).2 h)
  have h1 := (hl.within s hs i hn k hv').1
  have h2 := hl.below s hs i hn k hv'
  rw [LocT.flip_val]
  split_ifs
  · linarith
  · exact h2

theorem not_beyond {l : LocT} {shape : Fin d → ℤ} {k : Fin d} (h : l.Below (lastV shape k)) : ¬l.Beyond k (shape k) := by
  rintro ⟨s, hs, i, hi, h1, h2⟩
  have h3 := h s hs i hi k h1
  unfold lastV atV at h3
  rw [if_pos (by simp)] at h3
  push_cast at h2 h3
  linarith

theorem onCellsV {A : SetupArgs d} {P : Plan d} (h : A.Good P) (hext : P.ext = fun k => (0, A.shape k))
    (hint : ∀ l, some l ∈ A.srcs ++ A.rcvs → l.Integral d)
    (hw : ∀ l, some l ∈ A.srcs ++ A.rcvs → ∀ s < P.nb, WholeIgnored d l s) {o : Option LocT} (ho : o ∈ A.srcs ++ A.rcvs)
    {k : Fin d} (hb : ∀ l, o = some l → ¬l.Beyond k (A.shape k)) : OnCells A.shape (lastV A.shape k) P.nb o := by
  have hc := onCells h hext hint hw ho
  refine ⟨fun l e => ⟨(hc.flippable l e).within, (hc.flippable l e).integral, fun s hs i hi j hv => ?_, fun j => ?_⟩, hc.whole,
    hc.batch⟩
  · obtain ⟨z, hz⟩ := (hc.flippable l e).integral s hs i hi j j.isLt
    have h1 := (hc.flippable l e).below s hs i hi j hv
    unfold lastV atV
    by_cases hj : j = k
    · subst hj
      rw [if_pos (by simp)]
      by_contra h2
      refine hb l e ⟨s, hs, i, hi, hv, ?_⟩
      rw [hz] at h2 ⊢
      have h2 : ¬z ≤ A.shape j - 1 - 1 := fun h3 => h2 (by exact_mod_cast h3)
      have : A.shape j - 1 ≤ z := by omega
      exact_mod_cast this
    · rw [if_neg (by simp [hj]), sub_zero]
      exact h1
  · unfold lastV
    split_ifs <;> omega

theorem forall₂_ofFn {α β : Type*} {R : α → β → Prop} {n : ℕ} {f : Fin n → α} {g : Fin n → β} (h : ∀ k, R (f k) (g k)) :
    List.Forall₂ R (List.ofFn f) (List.ofFn g) := by
  induction n with
  | zero => simp
  | succ n ih =>
      rw [List.ofFn_succ, List.ofFn_succ]
      exact .cons (h 0) (ih fun k => h k.succ)

theorem ampSize_signed (e : Bool) (a : Option AmpT) : (a.map (AmpT.signed e)).map AmpT.size = a.map AmpT.size := by
  cases a <;> rfl

end Dw.Setup

namespace Dw.Acoustic

open Setup Resample
open Scalar (upAmps WholeIgnored)
open Spec (sgn flipAt atV)

variable {d : ℕ}

/-- The call in a mirror: the axes with `ε k` are reversed in the models, in the locations and in `pml_width`, and the
amplitudes of the velocities along them have the opposite sign. -/
def UArgs.flip (ε : Fin d → Bool) (A : UArgs d) : UArgs d :=
  { A with
    v := A.v.flip ε
    rho := A.rho.flip ε
    ampV := fun k => (A.ampV k).map (AmpT.signed (ε k))
    srcP := A.srcP.map (LocT.flip ε fun k => A.v.shape k - 1)
    srcV := fun k => (A.srcV k).map (LocT.flip ε (lastV A.v.shape k))
    rcvP := A.rcvP.map (LocT.flip ε fun k => A.v.shape k - 1)
    rcvV := fun k => (A.rcvV k).map (LocT.flip ε (lastV A.v.shape k))
    opts := { A.opts with pmlWidth := A.opts.pmlWidth.flips ε } }

/-- Wavefields in the mirror, in arrays with last index `M`. -/
def mirrored (ε : Fin d → Bool) (M : Fin d → ℤ) (o : Wavefields d ℝ) : Wavefields d ℝ :=
  ⟨fun c => o.p (Spec.flip ε M c), fun k c => (if ε k then -1 else 1) * o.v k (flipAt ε M (atV k) c),
    fun k c => o.phi k (Spec.flip ε M c), fun k c => (if ε k then -1 else 1) * o.psi k (flipAt ε M (atV k) c)⟩

theorem setup_flip (ε : Fin d → Bool) (A : UArgs d) : (A.flip ε).setup =
    { A.setup.flip ε ((A.flip ε).srcP :: List.ofFn (A.flip ε).srcV) ((A.flip ε).rcvP :: List.ofFn (A.flip ε).rcvV) with
      amps := (A.flip ε).ampP :: List.ofFn (A.flip ε).ampV, wfs := A.setup.wfs } := by
  unfold UArgs.setup UArgs.flip SetupArgs.flip Opts.setup
  simp only [maxAbs_flip, List.map_cons, List.map_nil]

/-- **C129** for `acoustic`. -/
theorem C129_acoustic_mirror (A : UArgs d) (P : Plan d) (s : ℕ) (cf : ℤ) (h : Fwd A P s cf) (hsp : A.opts.surveyPad = .none)
    (hwf : ∀ x ∈ A.wf.list, x = none) (hint : ∀ l, some l ∈ A.setup.srcs ++ A.setup.rcvs → l.Integral d)
    (hw : ∀ l, some l ∈ A.setup.srcs ++ A.setup.rcvs → ∀ s < P.nb, WholeIgnored d l s) (ε : Fin d → Bool) :
    ∃ r r', A.acoustic s = .ok (some r) ∧ (A.flip ε).acoustic s = .ok (some r') ∧
      r'.out = mirrored ε (fun k => A.v.shape k + P.w0 k + P.w1 k - 1) r.out ∧
      (∀ i < locCount A.rcvP, r'.tracesP i = r.tracesP i) ∧
      ∀ k, ∀ i < locCount (A.rcvV k), r'.tracesV k i = signedSig (ε k) (r.tracesV k i) := by
  have hext := extents_none h.good hsp hwf
  have hnb : 0 < P.nb := by have := h.lt; omega
  have hsP : A.srcP ∈ A.setup.srcs ++ A.setup.rcvs := by simp [UArgs.setup, Opts.setup]
  have hrP : A.rcvP ∈ A.setup.srcs ++ A.setup.rcvs := by simp [UArgs.setup, Opts.setup]
  have hsV : ∀ k, A.srcV k ∈ A.setup.srcs ++ A.setup.rcvs := by simp [UArgs.setup, Opts.setup]
  have hrV : ∀ k, A.rcvV k ∈ A.setup.srcs ++ A.setup.rcvs := by simp [UArgs.setup, Opts.setup]
  have osP : OnCells A.v.shape (fun k => A.v.shape k - 1) P.nb A.srcP := onCells h.good hext hint hw hsP
  have orP : OnCells A.v.shape (fun k => A.v.shape k - 1) P.nb A.rcvP := onCells h.good hext hint hw hrP
  have osV : ∀ k, OnCells A.v.shape (lastV A.v.shape k) P.nb (A.srcV k) := fun k => onCellsV h.good hext hint hw (hsV k)
    fun l hl hb => h.pre (.inr ⟨k, l, .inl hl, hb⟩)
  have orV : ∀ k, OnCells A.v.shape (lastV A.v.shape k) P.nb (A.rcvV k) := fun k => onCellsV h.good hext hint hw (hrV k)
    fun l hl hb => h.pre (.inr ⟨k, l, .inr hl, hb⟩)
  have hg := (good_flip (ε := ε) h.good hnb hsp hwf (srcs := (A.flip ε).srcP :: List.ofFn (A.flip ε).srcV)
    (rcvs := (A.flip ε).rcvP :: List.ofFn (A.flip ε).rcvV) (.cons osP.flipped (forall₂_ofFn fun k => (osV k).flipped))
    (.cons orP.flipped (forall₂_ofFn fun k => (orV k).flipped))).revalue
      (amps := (A.flip ε).ampP :: List.ofFn (A.flip ε).ampV) (wfs := A.setup.wfs) (by
        show ((A.flip ε).ampP :: List.ofFn (A.flip ε).ampV).map _ = (A.ampP :: List.ofFn A.ampV).map _
        rw [List.map_cons, List.map_cons, List.map_ofFn, List.map_ofFn]
        refine congrArg (_ :: ·) (congrArg _ (funext fun k => ampSize_signed _ _))) rfl
  rw [← setup_flip] at hg
  have ht := Plan.flip_mirrored (ε := ε) A.setup ((A.flip ε).srcP :: List.ofFn (A.flip ε).srcV)
    ((A.flip ε).rcvP :: List.ofFn (A.flip ε).rcvV) P
  generalize P.flip ε A.setup ((A.flip ε).srcP :: List.ofFn (A.flip ε).srcV)
    ((A.flip ε).rcvP :: List.ofFn (A.flip ε).rcvV) = P' at hg ht
  have hG := extents_le h.good hext
  have hsh : A.rho.shape = A.v.shape := 
    (((extractModels_iff hnb).1 h.good.models).1 (A.rho, .replicate) (List.mem_cons.2 (.inr List.mem_cons_self))).shape
  have hpre : ¬(A.flip ε).Pre := by
    rintro (hn | ⟨k, l, hl, hb⟩)
    · exact h.pre (.inl hn)
    · rcases hl with hl | hl <;> obtain ⟨l, hl', rfl⟩ := Option.map_eq_some_iff.1 hl
      · exact not_beyond (LocT.flip_below ((osV k).flippable l hl')) hb
      · exact not_beyond (LocT.flip_below ((orV k).flippable l hl')) hb
  have hloc : ∀ l, some l ∈ (A.flip ε).setup.srcs ++ (A.flip ε).setup.rcvs → WholeIgnored d l s := fun l hl => by
    have hl : some l ∈ ((A.flip ε).srcP :: List.ofFn (A.flip ε).srcV) ++ ((A.flip ε).rcvP :: List.ofFn (A.flip ε).rcvV) := hl
    simp only [List.mem_append, List.mem_cons, List.mem_ofFn] at hl
    rcases hl with (hl | ⟨k, hl⟩) | (hl | ⟨k, hl⟩)
    · exact osP.flip_whole h.lt hl.symm
    · exact (osV k).flip_whole h.lt hl
    · exact orP.flip_whole h.lt hl.symm
    · exact (orV k).flip_whole h.lt hl
  obtain ⟨r, p, v, phi, psi, hc, hv, hi, ho, hp, hx⟩ := C92_acoustic_scheme A P s cf (plan_ok.2 h.good) h.pre
    h.lt h.pml h.loc h.last h.freq h.interval h.nt
  obtain ⟨r', p', v', phi', psi', hc', hv', hi', ho', hp', hx'⟩ := C92_acoustic_scheme (A.flip ε) P' s cf (plan_ok.2 hg)
    hpre (ht.nb ▸ h.lt) (ht.pml h.pml) hloc (fun k => .inr (.inl (by rw [ht.ext, hext]; rfl))) h.freq (ht.interval ▸ h.interval)
    (by
      rw [ht.ratio, ht.interval, ht.nt]
      exact h.nt)
  have hva := hv.flip (ε := ε) (N := fun k => A.v.shape k - 1) hG
  have hgr := ht.grid hext
  change _ = P.grid.flip ε (fun k => A.v.shape k - 1) at hgr
  obtain ⟨a1, a2, a3, a4⟩ := Starts.zero (w := A.wf) hwf hv.outside hi
  obtain ⟨b1, b2, b3, b4⟩ := Starts.zero (w := A.wf) hwf hv'.outside hi'
  have e0 : P'.grid.extend ((A.flip ε).v.shot s) =
      fun c => P.grid.extend (A.v.shot s) (Spec.flip ε (fun k => A.v.shape k - 1) c) := by
    rw [hgr]
    exact Spec.Grid.flip_extend hG _
  have e1 : P'.grid.extend ((A.flip ε).rho.shot s) =
      fun c => P.grid.extend (A.rho.shot s) (Spec.flip ε (fun k => A.v.shape k - 1) c) := by
    rw [hgr, show (A.flip ε).rho.shot s = fun c => A.rho.shot s (Spec.flip ε (fun k => A.v.shape k - 1) c) by
      rw [← hsh]
      rfl]
    exact Spec.Grid.flip_extend hG _
  have e2 : (fun t => locSum (d := d) (A.flip ε).srcP s fun i => upAmps P' (A.flip ε).opts.timeTaper (A.flip ε).ampP s t i) =
      fun t c => (locSum A.srcP s fun i => upAmps P A.opts.timeTaper A.ampP s t i) (Spec.flip ε (fun k => A.v.shape k - 1) c) :=
    funext fun t => ht.inject osP h.lt _ _ _
  have e3 : (fun t k => locSum (d := d) ((A.flip ε).srcV k) s fun i =>
      upAmps P' (A.flip ε).opts.timeTaper ((A.flip ε).ampV k) s t i) =
      fun t k c => (sgn ε k : ℤ) * (locSum (A.srcV k) s fun i => upAmps P A.opts.timeTaper (A.ampV k) s t i)
        (flipAt ε (fun k => A.v.shape k - 1) (atV k) c) :=
    funext fun t => funext fun k => ht.injectV (osV k) h.lt h.good _ _ _ _
  rw [e0, e1, e2, e3] at hv'
  simp only [Spec.flip_mean] at hv'
  rw [hgr] at hv'
  obtain ⟨rfl, rfl, rfl, rfl⟩ := hv'.unique hva (by
    simp only [a1, a2, a3, a4, b1, b2, b3, b4]
    refine ⟨rfl, ?_, rfl, ?_⟩ <;> funext k c <;> simp)
  rw [ht.steps] at ho'
  have hM : P.lastIdx = fun k => A.v.shape k + P.w0 k + P.w1 k - 1 := funext fun k => by
    unfold Plan.lastIdx
    rw [hext]
    show A.v.shape k - 0 + _ + _ - 1 = _
    rw [sub_zero]
  rw [← hM]
  have i1 : ∀ c, P.index (Spec.flip ε (fun k => A.v.shape k - 1) c) = Spec.flip ε P.lastIdx (P'.index c) := ht.index hext
  have i2 : ∀ L c, P.index (flipAt ε (fun k => A.v.shape k - 1) L c) = flipAt ε P.lastIdx L (P'.index c) := ht.indexAt hext
  refine ⟨r, r', hc, hc', ?_, fun i hi => ?_, fun k i hi => ?_⟩
  · refine Wavefields.ext (index_ext P' fun c => (ho' c).1.trans ?_) (funext fun k => index_ext P' fun c =>
      ((ho' c).2 k).1.trans ?_) (funext fun k => index_ext P' fun c => ((ho' c).2 k).2.1.trans ?_)
      (funext fun k => index_ext P' fun c => ((ho' c).2 k).2.2.trans ?_) <;> unfold mirrored <;> dsimp only
    · rw [← i1, (ho _).1]
    · rw [← i2, ((ho _).2 k).1, sgn_cast]
    · rw [← i1, ((ho _).2 k).2.1]
    · rw [← i2, ((ho _).2 k).2.2, sgn_cast]
  · rw [hp i hi, hp' i (by rw [show (A.flip ε).rcvP = A.rcvP.map (LocT.flip ε fun k => A.v.shape k - 1) from rfl, locCount_flip]; exact hi)]
    exact ht.trace orP h.lt _ p hi
  · rw [hx k i hi, hx' k i (by
      rw [show (A.flip ε).rcvV k = (A.rcvV k).map (LocT.flip ε (lastV A.v.shape k)) from rfl, locCount_flip]
      exact hi)]
    exact ht.traceV (orV k) h.lt h.good _ (fun t => v t k) k hi

example : ∃ r r', (exU .none).acoustic 1 = .ok (some r) ∧ ((exU .none).flip fun _ => true).acoustic 1 = .ok (some r') ∧
    r'.tracesP 0 = r.tracesP 0 ∧ r'.tracesV 0 0 = signedSig true (r.tracesV 0 0) := by
  obtain ⟨r, r', h1, h2, -, h3, h4⟩ := C129_acoustic_mirror (exU .none) _ 1 1 (exU_fwd 1 (by decide)) rfl
    (fun x hx => by
      cases x with
      | none => rfl
      | some w => exact absurd hx (exU_noWf w))
    (fun l hl => by
      obtain rfl := exU_locs .none l hl
      exact Born.exLoc_integral)
    (fun l hl s hs => Born.exLoc_whole hs (exU_locs .none l hl)) fun _ => true
  exact ⟨r, r', h1, h2, h3 0 (by decide), h4 0 0 (by decide)⟩

end Dw.Acoustic

namespace Dw.Elastic

open Setup Resample
open Scalar (upAmps WholeIgnored)
open Spec (sgn flipAt atV atS)

variable {d : ℕ}

/-- The call in a mirror: the axes with `ε k` are reversed in the models, in the locations and in `pml_width`, and the
amplitudes of the velocities along them have the opposite sign. -/
def UArgs.flip (ε : Fin d → Bool) (A : UArgs d) : UArgs d :=
  { A with
    lam := A.lam.flip ε
    mu := A.mu.flip ε
    buoyancy := A.buoyancy.flip ε
    ampV := fun k => (A.ampV k).map (AmpT.signed (ε k))
    srcP := A.srcP.map (LocT.flip ε fun k => A.lam.shape k - 1)
    srcV := fun k => (A.srcV k).map (LocT.flip ε (lastV A.lam.shape k))
    rcvP := A.rcvP.map (LocT.flip ε fun k => A.lam.shape k - 1)
    rcvV := fun k => (A.rcvV k).map (LocT.flip ε (lastV A.lam.shape k))
    opts := { A.opts with pmlWidth := A.opts.pmlWidth.flips ε } }

/-- Wavefields in the mirror, in arrays with last index `M`. -/
def mirrored (ε : Fin d → Bool) (M : Fin d → ℤ) (o : Wavefields d ℝ) : Wavefields d ℝ :=
  ⟨fun k c => (if ε k then -1 else 1) * o.v k (flipAt ε M (atV k) c), fun k c => o.s k (Spec.flip ε M c),
    fun p c => (if ε p.1.1 then -1 else 1) * (if ε p.1.2 then -1 else 1) * o.sh p (flipAt ε M (atS p.1.1 p.1.2) c),
    fun i j c => (if ε i then -1 else 1) * (if ε j then -1 else 1) * o.mv i j (flipAt ε M (atS i j) c),
    fun i j c => (if ε i then -1 else 1) * o.ms i j (flipAt ε M (atV i) c)⟩

theorem maxModelVel_flip (ε : Fin d → Bool) (A : UArgs d) (h1 : A.mu.shape = A.lam.shape)
    (h2 : A.buoyancy.shape = A.lam.shape) : (A.flip ε).maxModelVel = A.maxModelVel := by
  have e1 : ∀ s c, (A.flip ε).mu.shot s c = A.mu.shot s (Spec.flip ε (fun k => A.lam.shape k - 1) c) := fun s c => by
    rw [← h1]
    rfl
  have e2 : ∀ s c, (A.flip ε).buoyancy.shot s c = A.buoyancy.shot s (Spec.flip ε (fun k => A.lam.shape k - 1) c) :=
    fun s c => by
      rw [← h2]
      rfl
  have e3 : ∀ s c, (A.flip ε).lam.shot s c = A.lam.shot s (Spec.flip ε (fun k => A.lam.shape k - 1) c) := fun s c => rfl
  unfold UArgs.maxModelVel
  congr 1
  ext x
  constructor
  · rintro ⟨s, c, hs, hc, hx⟩
    rw [e1, e2, e3] at hx
    exact ⟨s, _, hs, (inShape_flip _ _).2 hc, hx⟩
  · rintro ⟨s, c, hs, hc, hx⟩
    refine ⟨s, Spec.flip ε (fun k => A.lam.shape k - 1) c, hs, (inShape_flip _ _).2 hc, ?_⟩
    rw [e1, e2, e3, Spec.flip_flip]
    exact hx

theorem setup_flip (ε : Fin d → Bool) (A : UArgs d) (h1 : A.mu.shape = A.lam.shape)
    (h2 : A.buoyancy.shape = A.lam.shape) : (A.flip ε).setup =
    { A.setup.flip ε (List.ofFn (A.flip ε).srcV ++ [(A.flip ε).srcP]) (List.ofFn (A.flip ε).rcvV ++ [(A.flip ε).rcvP]) with
      amps := List.ofFn (A.flip ε).ampV ++ [(A.flip ε).ampP], wfs := A.setup.wfs } := by
  unfold UArgs.setup
  rw [maxModelVel_flip ε A h1 h2]
  unfold UArgs.flip SetupArgs.flip Opts.setup
  simp only [List.map_cons, List.map_nil]

/-- **C129** for `elastic`. -/
theorem C129_elastic_mirror (A : UArgs d) (P : Plan d) (s : ℕ) (cf : ℤ) (h : Fwd A P s cf) (hsp : A.opts.surveyPad = .none)
    (hwf : ∀ x ∈ A.wf.list, x = none) (hint : ∀ l, some l ∈ A.setup.srcs ++ A.setup.rcvs → l.Integral d)
    (hw : ∀ l, some l ∈ A.setup.srcs ++ A.setup.rcvs → ∀ s < P.nb, WholeIgnored d l s) (ε : Fin d → Bool) :
    ∃ r r', A.elastic s = .ok (some r) ∧ (A.flip ε).elastic s = .ok (some r') ∧
      r'.out = mirrored ε (fun k => A.lam.shape k + P.w0 k + P.w1 k - 1) r.out ∧
      (∀ i < locCount A.rcvP, r'.tracesP i = r.tracesP i) ∧
      ∀ k, ∀ i < locCount (A.rcvV k), r'.tracesV k i = signedSig (ε k) (r.tracesV k i) := by
  have hext := extents_none h.good hsp hwf
  have hnb : 0 < P.nb := by have := h.lt; omega
  have hsP : A.srcP ∈ A.setup.srcs ++ A.setup.rcvs := by simp [UArgs.setup, Opts.setup]
  have hrP : A.rcvP ∈ A.setup.srcs ++ A.setup.rcvs := by simp [UArgs.setup, Opts.setup]
  have hsV : ∀ k, A.srcV k ∈ A.setup.srcs ++ A.setup.rcvs := by simp [UArgs.setup, Opts.setup]
  have hrV : ∀ k, A.rcvV k ∈ A.setup.srcs ++ A.setup.rcvs := by simp [UArgs.setup, Opts.setup]
  have osP : OnCells A.lam.shape (fun k => A.lam.shape k - 1) P.nb A.srcP := onCells h.good hext hint hw hsP
  have orP : OnCells A.lam.shape (fun k => A.lam.shape k - 1) P.nb A.rcvP := onCells h.good hext hint hw hrP
  have osV : ∀ k, OnCells A.lam.shape (lastV A.lam.shape k) P.nb (A.srcV k) := fun k =>
    onCellsV h.good hext hint hw (hsV k) fun l hl hb => h.pre (.inl ⟨k, l, .inl hl, hb⟩)
  have orV : ∀ k, OnCells A.lam.shape (lastV A.lam.shape k) P.nb (A.rcvV k) := fun k =>
    onCellsV h.good hext hint hw (hrV k) fun l hl hb => h.pre (.inl ⟨k, l, .inr hl, hb⟩)
  have hms := ((extractModels_iff hnb).1 h.good.models).1
  have hsh : A.mu.shape = A.lam.shape := (hms (A.mu, .replicate) (by simp [UArgs.setup, Opts.setup])).shape
  have hsb : A.buoyancy.shape = A.lam.shape := (hms (A.buoyancy, .replicate) (by simp [UArgs.setup, Opts.setup])).shape
  have hg := (good_flip (ε := ε) h.good hnb hsp hwf (srcs := List.ofFn (A.flip ε).srcV ++ [(A.flip ε).srcP])
    (rcvs := List.ofFn (A.flip ε).rcvV ++ [(A.flip ε).rcvP])
    (List.rel_append (forall₂_ofFn fun k => (osV k).flipped) (.cons osP.flipped .nil))
    (List.rel_append (forall₂_ofFn fun k => (orV k).flipped) (.cons orP.flipped .nil))).revalue
      (amps := List.ofFn (A.flip ε).ampV ++ [(A.flip ε).ampP]) (wfs := A.setup.wfs) (by
        show (List.ofFn (A.flip ε).ampV ++ [(A.flip ε).ampP]).map _ = (List.ofFn A.ampV ++ [A.ampP]).map _
        rw [List.map_append, List.map_append, List.map_ofFn, List.map_ofFn]
        refine congrArg (· ++ _) (congrArg _ (funext fun k => ampSize_signed _ _))) rfl
  rw [← setup_flip ε A hsh hsb] at hg
  have ht := Plan.flip_mirrored (ε := ε) A.setup (List.ofFn (A.flip ε).srcV ++ [(A.flip ε).srcP])
    (List.ofFn (A.flip ε).rcvV ++ [(A.flip ε).rcvP]) P
  generalize P.flip ε A.setup (List.ofFn (A.flip ε).srcV ++ [(A.flip ε).srcP])
    (List.ofFn (A.flip ε).rcvV ++ [(A.flip ε).rcvP]) = P' at hg ht
  have hG := extents_le h.good hext
  have hpre : ¬(A.flip ε).Pre := by
    rintro (⟨k, l, hl, hb⟩ | hn)
    · rcases hl with hl | hl <;> obtain ⟨l, hl', rfl⟩ := Option.map_eq_some_iff.1 hl
      · exact not_beyond (LocT.flip_below ((osV k).flippable l hl')) hb
      · exact not_beyond (LocT.flip_below ((orV k).flippable l hl')) hb
    · exact h.pre (.inr hn)
  have hloc : ∀ l, some l ∈ (A.flip ε).setup.srcs ++ (A.flip ε).setup.rcvs → WholeIgnored d l s := fun l hl => by
    have hl : some l ∈ (List.ofFn (A.flip ε).srcV ++ [(A.flip ε).srcP]) ++ (List.ofFn (A.flip ε).rcvV ++ [(A.flip ε).rcvP]) := hl
    simp only [List.mem_append, List.mem_singleton, List.mem_ofFn] at hl
    rcases hl with (⟨k, hl⟩ | hl) | (⟨k, hl⟩ | hl)
    · exact (osV k).flip_whole h.lt hl
    · exact osP.flip_whole h.lt hl.symm
    · exact (orV k).flip_whole h.lt hl
    · exact orP.flip_whole h.lt hl.symm
  obtain ⟨r, v, sig, mv, ms, hc, hv, hi, ho, hp, hx⟩ := C93_elastic_scheme A P s cf (plan_ok.2 h.good) h.pre
    h.lt h.pml h.loc h.last h.freq h.interval h.nt
  obtain ⟨r', v', sig', mv', ms', hc', hv', hi', ho', hp', hx'⟩ := C93_elastic_scheme (A.flip ε) P' s cf (plan_ok.2 hg)
    hpre (ht.nb ▸ h.lt) (ht.pml h.pml) hloc (fun k => .inr (.inl (by rw [ht.ext, hext]; rfl))) h.freq (ht.interval ▸ h.interval)
    (by
      rw [ht.ratio, ht.interval, ht.nt]
      exact h.nt)
  have hva := hv.flip (ε := ε) (N := fun k => A.lam.shape k - 1) (muS' := Spec.harmonic A.rfmax fun c =>
    P.grid.extend (A.mu.shot s) (Spec.flip ε (fun k => A.lam.shape k - 1) c)) hG
    (fun i j hij c => Spec.flip_harmonic _ _ hij _)
  have hgr := ht.grid hext
  change _ = P.grid.flip ε (fun k => A.lam.shape k - 1) at hgr
  obtain ⟨a1, a2, a3, a4⟩ := Starts.zero (w := A.wf) hwf hv.symm hv.outside hi
  obtain ⟨b1, b2, b3, b4⟩ := Starts.zero (w := A.wf) hwf hv'.symm hv'.outside hi'
  have key : ∀ m : ModelT d ℝ, m.shape = A.lam.shape → P'.grid.extend ((m.flip ε).shot s) =
      fun c => P.grid.extend (m.shot s) (Spec.flip ε (fun k => A.lam.shape k - 1) c) := fun m hm => by
    rw [hgr, show (m.flip ε).shot s = fun c => m.shot s (Spec.flip ε (fun k => A.lam.shape k - 1) c) by
      rw [← hm]
      rfl]
    exact Spec.Grid.flip_extend hG _
  have e0 : P'.grid.extend ((A.flip ε).lam.shot s) = _ := key A.lam rfl
  have e1 : P'.grid.extend ((A.flip ε).mu.shot s) = _ := key A.mu hsh
  have e4 : P'.grid.extend ((A.flip ε).buoyancy.shot s) = _ := key A.buoyancy hsb
  have e2 : (fun t => locSum (d := d) (A.flip ε).srcP s fun i => upAmps P' (A.flip ε).opts.timeTaper (A.flip ε).ampP s t i) =
      fun t c => (locSum A.srcP s fun i => upAmps P A.opts.timeTaper A.ampP s t i) (Spec.flip ε (fun k => A.lam.shape k - 1) c) :=
    funext fun t => ht.inject osP h.lt _ _ _
  have e3 : (fun t k => locSum (d := d) ((A.flip ε).srcV k) s fun i =>
      upAmps P' (A.flip ε).opts.timeTaper ((A.flip ε).ampV k) s t i) =
      fun t k c => (sgn ε k : ℤ) * (locSum (A.srcV k) s fun i => upAmps P A.opts.timeTaper (A.ampV k) s t i)
        (flipAt ε (fun k => A.lam.shape k - 1) (atV k) c) :=
    funext fun t => funext fun k => ht.injectV (osV k) h.lt h.good _ _ _ _
  have e5 : (fun k c => Spec.inverse (A.flip ε).rfmax (Spec.mean (fun c => Spec.inverse (A.flip ε).rfmax
      (P.grid.extend (A.buoyancy.shot s) (Spec.flip ε (fun k => A.lam.shape k - 1) c))) k c)) =
      fun k c => Spec.inverse A.rfmax (Spec.mean (fun c =>
        Spec.inverse A.rfmax (P.grid.extend (A.buoyancy.shot s) c)) k (flipAt ε (fun k => A.lam.shape k - 1) (atV k) c)) := by
    funext k c
    exact congrArg (Spec.inverse A.rfmax) (Spec.flip_mean (fun c => Spec.inverse A.rfmax
      (P.grid.extend (A.buoyancy.shot s) c)) k c)
  rw [e0, e1, e4, e2, e3, e5, hgr] at hv'
  obtain ⟨rfl, rfl, rfl, rfl⟩ := hv'.unique hva (by
    simp only [a1, a2, a3, a4, b1, b2, b3, b4]
    refine ⟨?_, ?_, ?_, ?_⟩ <;> funext k c <;> simp
    all_goals rfl)
  rw [ht.steps] at ho'
  have hM : P.lastIdx = fun k => A.lam.shape k + P.w0 k + P.w1 k - 1 := funext fun k => by
    unfold Plan.lastIdx
    rw [hext]
    show A.lam.shape k - 0 + _ + _ - 1 = _
    rw [sub_zero]
  rw [← hM]
  have i2 : ∀ L c, P.index (flipAt ε (fun k => A.lam.shape k - 1) L c) = flipAt ε P.lastIdx L (P'.index c) := ht.indexAt hext
  have hd : ∀ t i c, (sgn ε i : ℤ) * (sgn ε i : ℤ) * sig t i i (flipAt ε (fun k => A.lam.shape k - 1) (atS i i) c) =
      sig t i i (Spec.flip ε (fun k => A.lam.shape k - 1) c) := fun t i c => by
    rw [Spec.flipAt_S_self, sgn_cast]
    split_ifs <;> ring
  refine ⟨r, r', hc, hc', ?_, fun i hi => ?_, fun k i hi => ?_⟩
  · refine Wavefields.ext (funext fun i => index_ext P' fun c => (ho' c i).1.trans ?_)
      (funext fun i => index_ext P' fun c => (ho' c i).2.1.trans ?_)
      (funext fun p => index_ext P' fun c => ((ho' c p.1.1).2.2.1 p.1.2 p.2).trans ?_)
      (funext fun i => funext fun j => index_ext P' fun c => ((ho' c i).2.2.2 j).1.trans ?_)
      (funext fun i => funext fun j => index_ext P' fun c => ((ho' c i).2.2.2 j).2.trans ?_) <;> unfold mirrored <;> dsimp only
    · rw [← i2, (ho _ i).1, sgn_cast]
    · have i1 : P.index (Spec.flip ε (fun k => A.lam.shape k - 1) c) = Spec.flip ε P.lastIdx (P'.index c) := ht.index hext c
      rw [hd, ← i1, (ho _ i).2.1]
    · rw [← i2, (ho _ _).2.2.1 _ p.2, sgn_cast, sgn_cast]
    · rw [← i2, ((ho _ i).2.2.2 j).1, sgn_cast, sgn_cast]
    · rw [← i2, ((ho _ i).2.2.2 j).2, sgn_cast]
  · rw [hp i hi, hp' i (by rw [show (A.flip ε).rcvP = A.rcvP.map (LocT.flip ε fun k => A.lam.shape k - 1) from rfl, locCount_flip]; exact hi)]
    simp only [hd]
    have := ht.trace orP h.lt A.opts.timeTaper (fun t c => ∑ k, sig t k k c) hi
    rw [← this]
    rfl
  · rw [hx k i hi, hx' k i (by
      rw [show (A.flip ε).rcvV k = (A.rcvV k).map (LocT.flip ε (lastV A.lam.shape k)) from rfl, locCount_flip]
      exact hi)]
    exact ht.traceV (orV k) h.lt h.good _ (fun t => v t k) k hi

example : ∃ r r', (exU .none).elastic 1 = .ok (some r) ∧ ((exU .none).flip fun _ => true).elastic 1 = .ok (some r') ∧
    r'.tracesP 0 = r.tracesP 0 ∧ r'.tracesV 0 0 = signedSig true (r.tracesV 0 0) := by
  obtain ⟨r, r', h1, h2, -, h3, h4⟩ := C129_elastic_mirror (exU .none) _ 1 1 (exU_fwd 1 (by decide)) rfl
    (fun x hx => by
      cases x with
      | none => rfl
      | some w => exact absurd hx (exU_noWf w))
    (fun l hl => by
      obtain rfl := exU_locs .none l hl
      exact Born.exLoc_integral)
    (fun l hl s hs => Born.exLoc_whole hs (exU_locs .none l hl)) fun _ => true
  exact ⟨r, r', h1, h2, h3 0 (by decide), h4 0 0 (by decide)⟩

end Dw.Elastic
