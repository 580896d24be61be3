import Verif.Props.Survey
import Verif.Props.Pml

/-!
# What the setup code hands to the scalar propagator is well formed

The theorems about the scalar propagator assume `Cfg.WF`. This file shows that the setup code
(`extract_survey`, `set_pml_profiles`) produces only such inputs.
-/

namespace Dw.Setup

variable {d : ℕ}

/-- The cell addressed by location `(s, i)`, if it is not ignored, in arrays with `p0` cells of padding
before the extent. -/
noncomputable def LocT.target (l : LocT) (ext : Fin d → ℤ × ℤ) (p0 : Fin d → ℤ) (s i : ℕ) :
    Option (Fin d → ℤ) := by
  classical exact
    if l.Ignored d s i then none else some fun k => trunc (l.val s i k) - (ext k).1 + p0 k

/-- If `extract_survey` accepts the locations and none of them is ignored in only some of its
coordinates, the indices it computes address `LocT.target`, and with PML profiles computed from
positive frequency and velocity the propagator's input is well formed. -/
theorem C15_setup_well_formed {ns nr : ℕ} (C : Scalar.Cfg d ns nr ℝ) (hd : 0 < d)
    (shape : Fin d → ℤ) (sl rl : LocT) (wfs : List (Option (Fin d → ℤ))) (sp : SurveyPad)
    (origin : Option (List ℤ)) (ext : Fin d → ℤ × ℤ) (eps : ℚ) (nb : ℕ) (ts tr : IdxT) (s : ℕ)
    (hw : ∀ k, 0 ≤ C.w0 k ∧ 0 ≤ C.w1 k)
    (hext : surveyExtents shape [some sl, some rl] wfs sp origin C.w0 C.w1 = .ok ext)
    (hbox : ∀ k, (ext k).1 ≤ (ext k).2)
    (hsl : extractLocation eps ext (fun k => C.acc.pad + C.w0 k) (fun k => C.acc.pad + C.w1 k) nb sl = .ok ts)
    (hrl : extractLocation eps ext (fun k => C.acc.pad + C.w0 k) (fun k => C.acc.pad + C.w1 k) nb rl = .ok tr)
    (hs : s < nb) (hns : ns = sl.n) (hnr : nr = rl.n)
    (hps : ∀ i < sl.n, sl.Ignored d s i ∨ ∀ k < d, sl.val s i k ≠ (ignoreLocation : ℚ))
    (hpr : ∀ i < rl.n, rl.Ignored d s i ∨ ∀ k < d, rl.val s i k ≠ (ignoreLocation : ℚ))
    (hn : C.n = paddedShape ext (fun k => C.acc.pad + C.w0 k) (fun k => C.acc.pad + C.w1 k))
    (hsrc : ∀ i, C.src i = sl.target ext (fun k => C.acc.pad + C.w0 k) s i)
    (hrcv : ∀ i, C.rcv i = rl.target ext (fun k => C.acc.pad + C.w0 k) s i)
    (A : PmlArgs d) (hA : A.Valid) (hf : 0 < A.freq) (hacc : C.acc = A.acc)
    (hp0 : A.pad0 = C.acc.pad) (hp1 : A.pad1 = C.acc.pad) (hw0 : C.w0 = A.w0) (hw1 : C.w1 = A.w1)
    (hAn : C.n = A.n) (ha : ∀ k i, C.a k i = (A.ab 0 k i).1)
    (hb : ∀ k i, some (C.b k i) = (A.ab 0 k i).2) (hdb : ∀ k i, some (C.db k i) = A.db k i) :
    C.WF ∧ (∀ i : Fin ns, Addresses C.n (ts.val s i) (C.src i)) ∧
      ∀ i : Fin nr, Addresses C.n (tr.val s i) (C.rcv i) := by
  have prof := C21_scalar_profiles C A hA hf hacc hp0 hp1 hw0 hw1 hAn ha hb hdb
  have hin := C15_locations_in_extents shape [some sl, some rl] wfs sp origin C.w0 C.w1 ext hext
  have he : ∀ k, 0 ≤ (ext k).1 := fun k => (hin k).1
  have hpad := C.acc.pad_pos
  have hq0 : ∀ k, 0 ≤ (C.acc.pad : ℤ) + C.w0 k := fun k => by have := (hw k).1; omega
  have hq1 : ∀ k, 0 ≤ (C.acc.pad : ℤ) + C.w1 k := fun k => by have := (hw k).2; omega
  have loc : ∀ (l : LocT) (t : IdxT), some l ∈ [some sl, some rl] →
      extractLocation eps ext (fun k => C.acc.pad + C.w0 k) (fun k => C.acc.pad + C.w1 k) nb l = .ok t →
      (∀ i < l.n, l.Ignored d s i ∨ ∀ k < d, l.val s i k ≠ (ignoreLocation : ℚ)) →
      ∀ i < l.n, Addresses C.n (t.val s i) (l.target ext (fun k => C.acc.pad + C.w0 k) s i) ∧
        ∀ c, l.target ext (fun k => C.acc.pad + C.w0 k) s i = some c → C.Inner c := by
    intro l t hl ht hp i hi
    unfold extractLocation at ht
    simp only at ht
    split_ifs at ht with h1 h2 h3 h4
    simp only [Except.ok.injEq] at ht
    have hnb : l.nb = nb := not_not.1 h2
    have hs' : s < l.nb := by omega
    subst ht
    unfold LocT.target
    by_cases hig : l.Ignored d s i
    · simp only [if_pos hig]
      refine ⟨?_, by simp⟩
      have : l.cell d s i = fun _ => ignoreLocation := by
        funext k; unfold LocT.cell; rw [hig k k.isLt, trunc_int]
      rw [this]
      exact (C17_ignored_index hd _ _).2 C.n
    · simp only [if_neg hig]
      have hI : ∀ k, (ext k).1 ≤ l.cell d s i k ∧ l.cell d s i k < (ext k).2 := fun k =>
        (hin k).2.2 _ ⟨l, hl, s, hs', i, hi, (hp i hi).resolve_left hig k k.isLt, rfl⟩
      have := C15_own_cell ext (fun k => C.acc.pad + C.w0 k) (fun k => C.acc.pad + C.w1 k) hq0 hq1
        (l.cell d s i) he hI
      rw [hn]
      refine ⟨this.1, ?_⟩
      rintro c hc
      rw [← Option.some.inj hc]
      intro k
      have h5 := this.2.2 k
      have := hw k
      rw [hn]
      simp only [LocT.cell] at h5 ⊢
      omega
  refine ⟨⟨fun k => (hw k).1, fun k => (hw k).2, fun k => ?_, fun k x hx => (prof.1 k x hx).1,
    fun k x hx => (prof.1 k x hx).2, prof.2.1, fun i c hc => ?_, fun i c hc => ?_⟩, fun i => ?_, fun i => ?_⟩
  · rw [hn, paddedShape]
    have := hbox k
    omega
  · exact (loc sl ts (by simp) hsl hps i (by omega)).2 c (by rw [← hsrc]; exact hc)
  · exact (loc rl tr (by simp) hrl hpr i (by omega)).2 c (by rw [← hrcv]; exact hc)
  · rw [hsrc]; exact (loc sl ts (by simp) hsl hps i (by omega)).1
  · rw [hrcv]; exact (loc rl tr (by simp) hrl hpr i (by omega)).1

/-! An instance: the locations `exLoc` for sources and receivers in a 7 x 9 model with 3 PML cells on
each side. -/

def exExt : Fin 2 → ℤ × ℤ := ![(1, 7), (0, 8)]

noncomputable def exArgs : PmlArgs 2 :=
  ⟨.a4, 2, 2, fun _ => 3, fun _ => 3, 1 / 1000, fun _ => 5, 1500, 25,
    paddedShape exExt (fun _ => 2 + 3) (fun _ => 2 + 3)⟩

noncomputable def exSetup (s : ℕ) : Scalar.Cfg 2 2 2 ℝ :=
  { acc := .a4, n := exArgs.n, w0 := exArgs.w0, w1 := exArgs.w1, dx := exArgs.dx, dt := exArgs.dt
    a := fun k i => (exArgs.ab 0 k i).1
    b := fun k i => ((exArgs.ab 0 k i).2).getD 0
    db := fun k i => (exArgs.db k i).getD 0
    v := fun _ => 1500
    src := fun i => exLoc.target exExt (fun _ => 2 + 3) s i
    rcv := fun i => exLoc.target exExt (fun _ => 2 + 3) s i
    ratio := 1 }

example (s : ℕ) (hs : s < 2) : (exSetup s).WF := by
  have hv : exArgs.Valid := by constructor <;> simp [exArgs]
  have hf : 0 < exArgs.freq := by simp [exArgs]
  have hin : ∀ s < exLoc.nb, ∀ i < exLoc.n, exLoc.Ignored 2 s i ∨ exLoc.Inside exExt s i := by
    unfold LocT.Ignored LocT.Inside exExt; decide +kernel
  have hdup : ¬exLoc.Duplicates 2 := by unfold LocT.Duplicates LocT.Ignored; decide +kernel
  obtain ⟨t, ht, -⟩ := (C16_rejected_iff_duplicates (d := 2) (1 / 10) exExt (by norm_num) (fun _ => 2 + 3)
    (fun _ => 2 + 3) (by decide) (by decide) (by decide) exLoc (by decide +kernel) rfl hin).2 hdup
  have hp : ∀ i < exLoc.n, exLoc.Ignored 2 s i ∨ ∀ k < 2, exLoc.val s i k ≠ (ignoreLocation : ℚ) :=
    fun i hi => (hin s hs i hi).imp_right fun h k hk => (h ⟨k, hk⟩).1
  exact (C15_setup_well_formed (exSetup s) (by norm_num) ![7, 9] exLoc exLoc [none]
    (.list [some 1, none, some 4, some 2]) none exExt (1 / 10) 2 t t s
    (fun k => ⟨by simp [exSetup, exArgs], by simp [exSetup, exArgs]⟩)
    (show surveyExtents _ _ _ _ _ (fun _ => 3) (fun _ => 3) = _ by decide +kernel)
    (by decide) ht ht hs rfl rfl hp hp rfl (fun _ => rfl) (fun _ => rfl) exArgs hv hf rfl rfl rfl rfl rfl rfl
    (fun _ _ => rfl)
    (fun k i => by
      obtain ⟨β, e, -⟩ := C21_profiles exArgs hv hf 0 k i
      simp [exSetup, e])
    (fun k i => by
      have := exArgs.db_some hv hf k i
      simp [exSetup, this])).1

end Dw.Setup
