import Verif.Setup.Shot
import Verif.Props.ScalarUserMore

/-!
# Amplitudes and wavefields of the same sizes

The plan of `setup_propagator` does not depend on the values of amplitudes and wavefields.
-/

namespace Dw.Setup

open Dw.Scalar (upS downS upAmps upS_comb downS_comb downS_len)
open Dw.Resample (Sig)

variable {d : ℕ}

def AmpT.size (a : AmpT) : ℕ × ℕ × ℕ := (a.nb, a.n, a.nt)

def WfT.size (w : WfT d) : ℕ × (Fin d → ℤ) := (w.nb, w.shape)

theorem map_map_size {α β γ : Type*} (f : α → β) (g : β → γ) {l l' : List (Option α)}
    (h : l'.map (Option.map f) = l.map (Option.map f)) :
    l'.map (Option.map fun x => g (f x)) = l.map (Option.map fun x => g (f x)) := by
  have := congrArg (List.map (Option.map g)) h
  simpa only [List.map_map, Function.comp_def, Option.map_map] using this

theorem filterMap_map_size {α β γ : Type*} (f : α → β) (g : β → γ) {l l' : List (Option α)}
    (h : l'.map (Option.map f) = l.map (Option.map f)) :
    l'.filterMap (Option.map fun x => g (f x)) = l.filterMap (Option.map fun x => g (f x)) := by
  have e := congrArg (List.filterMap id) (map_map_size f g h)
  simpa only [List.filterMap_map, Function.comp_def, id] using e

theorem mem_map_size {α β : Type*} (f : α → β) {l l' : List (Option α)}
    (h : l'.map (Option.map f) = l.map (Option.map f)) {x : α} (hx : some x ∈ l') :
    ∃ y, some y ∈ l ∧ f y = f x := by
  have : some (f x) ∈ l.map (Option.map f) := by
    rw [← h]
    exact List.mem_map.2 ⟨_, hx, rfl⟩
  obtain ⟨o, ho, e⟩ := List.mem_map.1 this
  cases o with
  | none => cases e
  | some y => exact ⟨y, ho, Option.some.inj e⟩

theorem SetupArgs.Good.revalue {A : SetupArgs d} {P : Plan d} (h : A.Good P) {amps : List (Option AmpT)}
    {wfs : List (Option (WfT d))}
    (ha : amps.map (Option.map AmpT.size) = A.amps.map (Option.map AmpT.size))
    (hw : wfs.map (Option.map WfT.size) = A.wfs.map (Option.map WfT.size)) :
    ({A with amps := amps, wfs := wfs} : SetupArgs d).Good P :=
  { h with
    nb := by
      have := h.nb
      unfold getNBatch at this ⊢
      rw [show wfs.filterMap (Option.map WfT.nb) = A.wfs.filterMap (Option.map WfT.nb) from
        filterMap_map_size WfT.size Prod.fst hw]
      exact this
    nt := by
      rw [show amps.map (Option.map AmpT.nt) = A.amps.map (Option.map AmpT.nt) from
        map_map_size AmpT.size (fun x => x.2.2) ha]
      exact h.nt
    ampsMatch := by
      rw [show amps.map (Option.map AmpT.n) = A.amps.map (Option.map AmpT.n) from
        map_map_size AmpT.size (fun x => x.2.1) ha]
      exact h.ampsMatch
    amps := by
      refine checkAmps_ok.2 fun b hb => ?_
      obtain ⟨a, ha', e⟩ := mem_map_size _ ha hb
      have := checkAmps_ok.1 h.amps a ha'
      simp only [AmpT.size, Prod.mk.injEq] at e
      rw [← e.1, ← e.2.2]
      exact this
    ext := by
      rw [show wfs.map (Option.map WfT.shape) = A.wfs.map (Option.map WfT.shape) from
        map_map_size WfT.size Prod.snd hw]
      exact h.ext
    wfs := by
      refine prepareWavefields_ok.2 fun w hw' => ?_
      obtain ⟨v, hv, e⟩ := mem_map_size _ hw hw'
      have := prepareWavefields_ok.1 h.wfs v hv
      simp only [WfT.size, Prod.mk.injEq] at e
      rw [← e.1, ← e.2]
      exact this }

/-! ### Opposite values -/

def AmpT.neg (a : AmpT) : AmpT := {a with val := fun s i t => -a.val s i t}

def WfT.neg (w : WfT d) : WfT d := {w with val := fun s c => -w.val s c}

def _root_.Dw.Resample.Sig.neg (x : Sig ℝ) : Sig ℝ := ⟨x.len, fun t => -x.val t⟩

theorem upAmps_neg {A : SetupArgs d} {P : Plan d} (h : A.Good P) (tt : Bool) (a : Option AmpT) (s : ℕ) :
    upAmps P tt (a.map AmpT.neg) s = fun t i => -upAmps P tt a s t i := by
  funext t i
  cases a with
  | none => simp [upAmps]
  | some a =>
      have := upS_comb h tt (-1) 0 ⟨a.nt, a.val s i⟩ ⟨a.nt, a.val s i⟩ rfl
      have := congrArg (fun x : Sig ℝ => x.val t) this
      simpa [upAmps, AmpT.neg, Sig.comb] using this

theorem downS_neg {A : SetupArgs d} {P : Plan d} (h : A.Good P) (tt : Bool) (x : ℕ → ℝ) :
    downS P tt ⟨P.nt.toNat, fun t => -x t⟩ = (downS P tt ⟨P.nt.toNat, x⟩).neg := by
  have := downS_comb h tt (-1) 0 x x
  simpa [Sig.comb, Sig.neg] using this

theorem traces_neg {A : SetupArgs d} {P : Plan d} (h : A.Good P) (tt : Bool) (s : ℕ) {m : ℕ}
    (x : ℕ → Fin m → ℝ) (i : ℕ) :
    (shotIn A P tt s).traces (fun t i => -x t i) i = ((shotIn A P tt s).traces x i).neg := by
  unfold ShotIn.traces
  split_ifs with hi
  · exact downS_neg h tt fun t => x t ⟨i, hi⟩
  · simp [Sig.neg]

end Dw.Setup
