import Mathlib.Tactic.Ring
import Mathlib.Data.List.Basic
import Verif.Interface.Autograd

/-!
# C116: the autograd functions give every input its own gradient

The theorems are about arbitrary numerical work `K`: it is given the inputs of the call under their own names and
the gradients with respect to the outputs, and each of its results is received by PyTorch as the gradient of the
input of the call that it belongs to.
-/

namespace Dw.Interface

variable {α γ : Type}

/-! ### Lists -/

theorem lastN_append {n : ℕ} {xs ys : List α} (h : ys.length = n) (h0 : 0 < n) : lastN n (xs ++ ys) = ys := by
  subst h
  simp [lastN, Nat.pos_iff_ne_zero.1 h0]

theorem delLastN_append {n : ℕ} {xs ys : List α} (h : ys.length = n) (h0 : 0 < n) :
    delLastN n (xs ++ ys) = xs := by
  subst h
  simp [delLastN, Nat.pos_iff_ne_zero.1 h0]

theorem sliceOf_append {a b : ℕ} {xs ys zs : List α} (ha : xs.length = a) (hb : ys.length = b - a) (hab : a ≤ b) :
    sliceOf a b (xs ++ ys ++ zs) = ys := by
  have : b = (xs ++ ys).length := by rw [List.length_append]; omega
  unfold sliceOf
  rw [this, List.take_left, ← ha, List.drop_left]

theorem take_append {a : ℕ} {xs ys : List α} (ha : xs.length = a) : (xs ++ ys).take a = xs := by
  rw [← ha, List.take_left]

theorem drop_append {a : ℕ} {xs ys : List α} (ha : xs.length = a) : (xs ++ ys).drop a = ys := by
  rw [← ha, List.drop_left]

theorem allTensors_map (l : List α) : allTensors (γ := γ) (l.map .tensor) = .ok l := by
  induction l with
  | nil => rfl
  | cons a l ih => simp only [List.map_cons, allTensors, ih]; rfl

theorem takeOpts_slots (o : CallOpts γ) (rest : List (Slot α γ)) : takeOpts (o.slots ++ rest) = .ok (o, rest) := rfl

theorem collect_append {is is' : List (Slot α γ)} {gs gs' : List (Option α)} {l l' : List (α × α)}
    (h : collect is gs = .ok l) (h' : collect is' gs' = .ok l') :
    collect (is ++ is') (gs ++ gs') = .ok (l ++ l') := by
  induction is, gs using collect.induct generalizing l with
  | case1 => simp only [collect, Except.ok.injEq] at h; subst h; exact h'
  | case2 a is g gs ih =>
    simp only [collect, bind, Except.bind] at h
    cases hc : collect is gs with
    | error e => rw [hc] at h; cases h
    | ok m =>
      rw [hc] at h
      simp only [pure, Except.pure, Except.ok.injEq] at h
      subst h
      simp only [List.cons_append, collect, ih hc]
      rfl
  | case3 s is gs ih =>
    have e : collect (s :: is) (none :: gs) = collect is gs := by cases s <;> rfl
    rw [e] at h
    have e' : collect (s :: (is ++ is')) (none :: (gs ++ gs')) = collect (is ++ is') (gs ++ gs') := by cases s <;> rfl
    simp only [List.cons_append, e', ih h]
  | case4 is gs h1 h2 h3 =>
    unfold collect at h
    split at h
    · exact absurd rfl (h1 rfl)
    · exact absurd rfl (h2 _ _ _ _ rfl)
    · exact absurd rfl (h3 _ _ _ rfl)
    · cases h

theorem collect_tensors {l g : List α} (h : l.length = g.length) :
    collect (γ := γ) (l.map .tensor) (g.map some) = .ok (l.zip g) := by
  induction l generalizing g with
  | nil =>
    cases g with
    | nil => rfl
    | cons _ _ => simp at h
  | cons a l ih =>
    cases g with
    | nil => simp at h
    | cons b g =>
      simp only [List.map_cons, collect, ih (g := g) (by simpa using h)]
      rfl

theorem collect_none {n : ℕ} {is : List (Slot α γ)} (h : is.length = n) :
    collect is (List.replicate n none) = .ok [] := by
  subst h
  induction is with
  | nil => rfl
  | cons s is ih =>
    rw [List.length_cons, List.replicate_succ]
    cases s <;> simpa only [collect] using ih

/-! ### `scalar` -/

theorem scalarBind_args {x : ScalarCall α γ} {v f si ri : α} (hm : x.models = [v]) (hf : x.amps = [f])
    (hs : x.srcs = [si]) (hr : x.rcvs = [ri]) :
    scalarBind x.args = .ok ⟨v, f, x.pml, si, ri, x.opts, x.wavefields⟩ := by
  simp only [ScalarCall.args, hm, hf, hs, hr, List.map_cons, List.map_nil, List.cons_append, List.nil_append,
    scalarBind, takeOpts_slots, allTensors_map, bind, Except.bind, pure, Except.pure]

/-- What `ScalarForwardFunc.backward` hands to `ScalarBackwardFunc.apply`. -/
def ScalarBackIn.args [HasBool γ] (y : ScalarBackIn α γ) : List (Slot α γ) :=
  [.tensor y.gradR, .tensor y.v, .list y.pmlProfiles, .tensor y.sourcesI, .tensor y.receiversI,
    .other y.opts.storage, .tensor y.sourceAmplitudes, .other y.opts.gridSpacing, .other y.opts.dt,
    .other y.opts.nt, .other y.opts.nShots, .other y.opts.stepRatio, .other y.opts.accuracy,
    .other y.opts.pmlWidth, .other (HasBool.ofBool y.ampsNeed), .other y.opts.backwardCallback,
    .other y.opts.callbackFrequency] ++ y.gradWavefields.map .tensor ++ y.wavefields.map .tensor

theorem scalarBackBind_args [HasBool γ] {len : γ → ℕ} {y : ScalarBackIn α γ}
    (h : y.gradWavefields.length = 2 + 2 * len y.opts.gridSpacing) : scalarBackBind len y.args = .ok y := by
  have e : y.gradWavefields.map (Slot.tensor (γ := γ)) ++ y.wavefields.map .tensor =
      (y.gradWavefields ++ y.wavefields).map .tensor := by simp
  simp only [ScalarBackIn.args, e, List.cons_append, List.nil_append, scalarBackBind,
    allTensors_map, bind, Except.bind, pure, Except.pure, take_append h, drop_append h, HasBool.toBool_ofBool]

/-- **C116** `scalar`: in the backward pass the numerical work gets the inputs of the call and the gradients of its
outputs under their own names, and the velocity model, the amplitudes and every wavefield receive their own
gradients, if any of them needs one. -/
theorem C116_scalar [HasBool γ] {needs : α → Bool} {len : γ → ℕ} {store : CallOpts γ → γ}
    {K : ScalarBackIn α γ → ScalarGrads α} (x : ScalarCall α γ) (v f si ri gr : α) (gw : List α)
    (hm : x.models = [v]) (hf : x.amps = [f]) (hs : x.srcs = [si]) (hr : x.rcvs = [ri])
    (hp : x.pml.length = 3 * len x.opts.gridSpacing) (hw : x.wavefields.length = 2 + 2 * len x.opts.gridSpacing)
    (hg : gw.length = x.wavefields.length) (hK : ∀ y, (K y).wavefields.length = y.gradWavefields.length)
    (hneed : ∃ a ∈ [v, f] ++ x.wavefields, needs a = true) :
    let g := K ⟨gr, v, x.pml, si, ri, f, x.opts.ctx (store x.opts), needs f, gw, x.wavefields⟩
    scalarAutograd needs len store K x.args (scalarReturn gw gr) =
      .ok ([(v, g.v), (f, g.sourceAmplitudes)] ++ x.wavefields.zip g.wavefields) := by
  intro g
  have hc : (needs v || needs f || x.wavefields.any needs) = true := by
    obtain ⟨a, ha, hn⟩ := hneed
    simp only [List.cons_append, List.nil_append, List.mem_cons] at ha
    rcases ha with rfl | rfl | ha
    · simp [hn]
    · simp [hn]
    · simp only [Bool.or_eq_true, List.any_eq_true]
      exact .inr ⟨a, ha, hn⟩
  have hn : len (x.opts.ctx (store x.opts)).gridSpacing = len x.opts.gridSpacing := rfl
  have ha : scalarBackwardArgs len ⟨[v, si, ri, f] ++ x.wavefields ++ x.pml, x.opts.ctx (store x.opts), needs f⟩
      (scalarReturn gw gr) = .ok (ScalarBackIn.args
        ⟨gr, v, x.pml, si, ri, f, x.opts.ctx (store x.opts), needs f, gw, x.wavefields⟩) := by
    have h4 : ([v, si, ri, f] ++ x.wavefields ++ x.pml).take 4 = [v, si, ri, f] := rfl
    have hl : (scalarReturn gw gr).getLast? = some gr := by simp [scalarReturn]
    have hd : (scalarReturn gw gr).dropLast = gw := by simp [scalarReturn]
    have s1 : sliceOf 4 (6 + 2 * len x.opts.gridSpacing) ([v, si, ri, f] ++ x.wavefields ++ x.pml) = x.wavefields :=
      sliceOf_append rfl (by omega) (by omega)
    have s2 : sliceOf (6 + 2 * len x.opts.gridSpacing) (6 + 5 * len x.opts.gridSpacing)
        ([v, si, ri, f] ++ x.wavefields ++ x.pml) = x.pml := by
      have := sliceOf_append (a := 6 + 2 * len x.opts.gridSpacing) (b := 6 + 5 * len x.opts.gridSpacing)
        (xs := [v, si, ri, f] ++ x.wavefields) (ys := x.pml) (zs := [])
        (by simp only [List.length_append, List.length_cons, List.length_nil]; omega) (by omega) (by omega)
      simpa using this
    unfold scalarBackwardArgs
    simp only [hl, h4, hd, hn, s1, s2]
    rfl
  have hb : scalarBackBind len (ScalarBackIn.args
      ⟨gr, v, x.pml, si, ri, f, x.opts.ctx (store x.opts), needs f, gw, x.wavefields⟩) = .ok _ :=
    scalarBackBind_args (by rw [hg, hw]; rfl)
  unfold scalarAutograd
  rw [scalarBind_args hm hf hs hr]
  simp only [bind, Except.bind, scalarForwardCtx, hc, if_true, ha, hb]
  have hz : collect (γ := γ) (x.wavefields.map .tensor) (g.wavefields.map some) =
      .ok (x.wavefields.zip g.wavefields) := collect_tensors (by rw [hK]; exact hg.symm)
  have := collect_append (is := [.tensor v, .tensor f, .list x.pml, .tensor si, .tensor ri] ++ x.opts.slots)
    (gs := [some g.v, some g.sourceAmplitudes] ++ List.replicate 16 none) rfl hz
  simp only [ScalarCall.args, hm, hf, hs, hr]
  exact this

/-- **C116** Differentiating the backward pass of `scalar`: the numerical work gets the inputs of
`ScalarBackwardFunc` under their own names, and the gradient of the receiver amplitudes, the velocity model, the
amplitudes, the gradients of the final wavefields and the initial wavefields receive their own second gradients. -/
theorem C116_scalar_double [HasBool γ] {len : γ → ℕ} {K : ScalarDoubleIn α γ → ScalarDoubleOut α}
    (y : ScalarBackIn α γ) (ggv ggf : α) (ggw : List α)
    (hp : y.pmlProfiles.length = 3 * len y.opts.gridSpacing)
    (hw : y.wavefields.length = 2 + 2 * len y.opts.gridSpacing)
    (hg : y.gradWavefields.length = 2 + 2 * len y.opts.gridSpacing)
    (hK : ∀ z, (K z).wavefields.length = z.inputs.wavefields.length ∧
      (K z).gradWavefields.length = z.inputs.gradWavefields.length) :
    let g := K ⟨y, ggv, ggf, ggw⟩
    scalarDoubleAutograd len K y.args (ScalarGrads.list ⟨ggv, ggf, ggw⟩) =
      .ok ([(y.gradR, g.gradR), (y.v, g.v), (y.sourceAmplitudes, g.sourceAmplitudes)] ++
        y.gradWavefields.zip g.gradWavefields ++ y.wavefields.zip g.wavefields) := by
  intro g
  have hu : scalarDoubleUnpack len (scalarBackSave y) y.opts y.ampsNeed (ScalarGrads.list ⟨ggv, ggf, ggw⟩) =
      .ok ⟨y, ggv, ggf, ggw⟩ := by
    have h5 : (scalarBackSave y).take 5 = [y.v, y.sourcesI, y.receiversI, y.sourceAmplitudes, y.gradR] := rfl
    have e0 : scalarBackSave y = [y.v, y.sourcesI, y.receiversI, y.sourceAmplitudes, y.gradR] ++ y.wavefields ++
        (y.gradWavefields ++ y.pmlProfiles) := by simp [scalarBackSave]
    have s1 : sliceOf 5 (7 + 2 * len y.opts.gridSpacing) (scalarBackSave y) = y.wavefields := by
      rw [e0]
      exact sliceOf_append rfl (by omega) (by omega)
    have s2 : sliceOf (7 + 2 * len y.opts.gridSpacing) (9 + 4 * len y.opts.gridSpacing) (scalarBackSave y) =
        y.gradWavefields := by
      refine sliceOf_append (xs := [y.v, y.sourcesI, y.receiversI, y.sourceAmplitudes, y.gradR] ++ y.wavefields)
        ?_ (by omega) (by omega)
      simp only [List.length_append, List.length_cons, List.length_nil]
      omega
    have s3 : sliceOf (9 + 4 * len y.opts.gridSpacing) (9 + 7 * len y.opts.gridSpacing) (scalarBackSave y) =
        y.pmlProfiles := by
      have := sliceOf_append (a := 9 + 4 * len y.opts.gridSpacing) (b := 9 + 7 * len y.opts.gridSpacing)
        (xs := [y.v, y.sourcesI, y.receiversI, y.sourceAmplitudes, y.gradR] ++ y.wavefields ++ y.gradWavefields)
        (ys := y.pmlProfiles) (zs := [])
        (by simp only [List.length_append, List.length_cons, List.length_nil]; omega) (by omega) (by omega)
      rw [List.append_nil] at this
      exact this
    unfold scalarDoubleUnpack
    simp only [ScalarGrads.list, List.cons_append, List.nil_append, h5, s1, s2, s3]
  unfold scalarDoubleAutograd
  simp only [scalarBackBind_args hg, bind, Except.bind, hu]
  have h1 : collect (γ := γ) (y.gradWavefields.map .tensor) (g.gradWavefields.map some) = .ok _ :=
    collect_tensors (hK ⟨y, ggv, ggf, ggw⟩).2.symm
  have h2 : collect (γ := γ) (y.wavefields.map .tensor) (g.wavefields.map some) = .ok _ :=
    collect_tensors (hK ⟨y, ggv, ggf, ggw⟩).1.symm
  have h0 : collect ([.tensor y.gradR, .tensor y.v, .list y.pmlProfiles, .tensor y.sourcesI, .tensor y.receiversI,
      .other y.opts.storage, .tensor y.sourceAmplitudes, .other y.opts.gridSpacing, .other y.opts.dt,
      .other y.opts.nt, .other y.opts.nShots, .other y.opts.stepRatio, .other y.opts.accuracy,
      .other y.opts.pmlWidth, .other (HasBool.ofBool y.ampsNeed), .other y.opts.backwardCallback,
      .other y.opts.callbackFrequency] : List (Slot α γ)) ([some g.gradR, some g.v, none, none, none, none,
      some g.sourceAmplitudes] ++ List.replicate 10 none) = .ok _ := rfl
  exact collect_append (collect_append h0 h1) h2

/-! ### `scalar_born` -/

theorem bornBind_args {x : BornCall α γ} {v sc f fsc si un ri risc : α} (hm : x.models = [v, sc])
    (hf : x.amps = [f, fsc]) (hs : x.srcs = [si, un]) (hr : x.rcvs = [ri, risc]) :
    bornBind x.args = .ok ⟨v, sc, f, fsc, x.pml, si, un, ri, risc, x.opts, x.wavefields⟩ := by
  simp only [BornCall.args, hm, hf, hs, hr, List.map_cons, List.map_nil, List.cons_append, List.nil_append,
    bornBind, takeOpts_slots, allTensors_map, bind, Except.bind, pure, Except.pure]

/-- **C116** `scalar_born`: the numerical work of the backward pass gets the inputs of the call and the gradients of
its outputs under their own names.  If the velocity, the amplitudes or a wavefield of the background needs a gradient,
all inputs receive their own gradients; otherwise the scattering potential, its amplitudes and the wavefields of the
scattered field do, and no other input needs one. -/
theorem C116_born {needs : α → Bool} {len : γ → ℕ} {store : CallOpts γ → γ} {K : BornBackIn α γ → BornGrads α}
    (x : BornCall α γ) (v sc f fsc si un ri risc gr grsc : α) (wf wfsc gw gwsc : List α) (hm : x.models = [v, sc])
    (hf : x.amps = [f, fsc]) (hs : x.srcs = [si, un]) (hr : x.rcvs = [ri, risc]) (hx : x.wavefields = wf ++ wfsc)
    (hw : wf.length = 2 + 2 * len x.opts.gridSpacing)
    (hg : gw.length = wf.length) (hgsc : gwsc.length = wfsc.length)
    (hK : ∀ y, (K y).wavefields.length = y.gradWavefields.length ∧
      (K y).wavefieldsSc.length = y.gradWavefieldsSc.length)
    (hneed : ∃ a ∈ [v, sc, f, fsc] ++ wf ++ wfsc, needs a = true) :
    let g := fun b => K ⟨gr, grsc, v, sc, si, ri, risc, x.pml, x.opts.ctx (store x.opts), needs f, needs fsc, b,
      gw, gwsc⟩
    ((∃ a ∈ [v, f] ++ wf, needs a = true) →
      bornAutograd needs len store K x.args (bornReturn gw gwsc gr grsc) =
        .ok ([(v, (g true).v), (sc, (g true).scatter), (f, (g true).sourceAmplitudes),
          (fsc, (g true).sourceAmplitudesSc)] ++ wf.zip (g true).wavefields ++ wfsc.zip (g true).wavefieldsSc)) ∧
    ((∀ a ∈ [v, f] ++ wf, needs a = false) →
      bornAutograd needs len store K x.args (bornReturn gw gwsc gr grsc) =
        .ok ([(sc, (g false).scatter), (fsc, (g false).sourceAmplitudesSc)] ++
          wfsc.zip (g false).wavefieldsSc)) := by
  intro g
  have hc : (needs v || needs sc || needs f || needs fsc || x.wavefields.any needs) = true := by
    obtain ⟨a, ha, hn⟩ := hneed
    rw [hx]
    simp only [List.cons_append, List.nil_append, List.mem_cons] at ha
    rcases ha with rfl | rfl | rfl | rfl | ha
    · simp [hn]
    · simp [hn]
    · simp [hn]
    · simp [hn]
    · simp only [Bool.or_eq_true, List.any_eq_true]
      exact .inr ⟨a, ha, hn⟩
  have htake : x.wavefields.take (2 + 2 * len x.opts.gridSpacing) = wf := by rw [hx]; exact take_append hw
  have hu : ∀ b, bornUnpack len ⟨[v, sc, si, ri, risc] ++ x.pml, x.opts.ctx (store x.opts), needs f, needs fsc, b⟩
      (bornReturn gw gwsc gr grsc) = .ok ⟨gr, grsc, v, sc, si, ri, risc, x.pml, x.opts.ctx (store x.opts), needs f,
        needs fsc, b, gw, gwsc⟩ := by
    intro b
    have l1 : lastN 2 (bornReturn gw gwsc gr grsc) = [gr, grsc] := lastN_append rfl (by decide)
    have l2 : delLastN 2 (bornReturn gw gwsc gr grsc) = gw ++ gwsc := delLastN_append rfl (by decide)
    have hl : gw.length = 2 + 2 * len (x.opts.ctx (store x.opts)).gridSpacing := by rw [hg, hw]; rfl
    unfold bornUnpack
    simp only [l1, l2, List.cons_append, List.nil_append, take_append hl, drop_append hl]
  have hlen : len (x.opts.ctx (store x.opts)).gridSpacing = len x.opts.gridSpacing := rfl
  have hargs : x.args = [.tensor v, .tensor sc, .tensor f, .tensor fsc] ++
      ([.list x.pml, .tensor si, .tensor un, .tensor ri, .tensor risc] ++ x.opts.slots) ++ wf.map .tensor ++
      wfsc.map .tensor := by
    simp only [BornCall.args, hm, hf, hs, hr, hx, List.map_cons, List.map_nil, List.map_append, List.cons_append,
      List.nil_append, List.append_assoc]
  have hsc : ∀ b, collect (γ := γ) (wfsc.map .tensor) ((g b).wavefieldsSc.map some) =
      .ok (wfsc.zip (g b).wavefieldsSc) := fun b => collect_tensors (by rw [(hK _).2]; exact hgsc.symm)
  constructor
  · rintro ⟨a, ha, hn⟩
    have hnon : (needs v || needs f || wf.any needs) = true := by
      simp only [List.cons_append, List.nil_append, List.mem_cons] at ha
      rcases ha with rfl | rfl | ha
      · simp [hn]
      · simp [hn]
      · simp only [Bool.or_eq_true, List.any_eq_true]
        exact .inr ⟨a, ha, hn⟩
    unfold bornAutograd
    rw [bornBind_args hm hf hs hr]
    simp only [bind, Except.bind, bornForwardCtx, hc, if_true, htake, hnon, hu, bornBackwardReturn, hlen]
    have hb : collect (γ := γ) (wf.map .tensor) ((g true).wavefields.map some) =
        .ok (wf.zip (g true).wavefields) := collect_tensors (by rw [(hK _).1]; exact hg.symm)
    have h0 : collect (([.tensor v, .tensor sc, .tensor f, .tensor fsc] ++
        ([.list x.pml, .tensor si, .tensor un, .tensor ri, .tensor risc] ++ x.opts.slots)) : List (Slot α γ))
        ([some (g true).v, some (g true).scatter, some (g true).sourceAmplitudes,
          some (g true).sourceAmplitudesSc] ++ List.replicate 18 none) = .ok _ := rfl
    rw [hargs, List.map_append, ← List.append_assoc (_ ++ _) ((K _).wavefields.map some)]
    exact collect_append (collect_append h0 hb) (hsc true)
  · intro h
    have hnon : (needs v || needs f || wf.any needs) = false := by
      rw [Bool.or_eq_false_iff, Bool.or_eq_false_iff]
      refine ⟨⟨h v (by simp), h f (by simp)⟩, ?_⟩
      rw [List.any_eq_false]
      intro a ha
      simp [h a (by simp [ha])]
    unfold bornAutograd
    rw [bornBind_args hm hf hs hr]
    simp only [bind, Except.bind, bornForwardCtx, hc, if_true, htake, hnon, hu, bornBackwardReturn, hlen,
      Bool.false_eq_true, if_false]
    have h0 : collect (([.tensor v, .tensor sc, .tensor f, .tensor fsc] ++
        ([.list x.pml, .tensor si, .tensor un, .tensor ri, .tensor risc] ++ x.opts.slots)) : List (Slot α γ))
        ([none, some (g false).scatter, none, some (g false).sourceAmplitudesSc] ++ List.replicate 18 none) =
        .ok [(sc, (g false).scatter), (fsc, (g false).sourceAmplitudesSc)] := rfl
    have hb : collect (γ := γ) (wf.map .tensor) (List.replicate (2 + 2 * len x.opts.gridSpacing) none) = .ok [] :=
      collect_none (by rw [List.length_map, hw])
    have e : 20 + 2 * len x.opts.gridSpacing = 18 + (2 + 2 * len x.opts.gridSpacing) := by omega
    rw [hargs, e, List.replicate_add, ← List.append_assoc]
    have := collect_append (collect_append h0 hb) (hsc false)
    rw [List.append_nil] at this
    exact this

/-! ### `acoustic` and `elastic` -/

/-- The numbers of tensors of a call: as many as `Counts` say. -/
structure StagCall.Fits (x : StagCall α γ) (k : Counts) (pml : ℕ) : Prop where
  models : x.models.length = k.models
  amps : x.amps.length = k.amps
  srcs : x.srcs.length = k.srcs
  rcvs : x.rcvs.length = k.rcvs
  wavefields : x.wavefields.length = k.wavefields
  pml : x.pml.length = pml

/-- What there is in `n` dimensions: the moduli, one shear modulus for each pair of axes (elastic) and one
buoyancy for each axis; amplitudes and locations of pressure and of each component of the velocity; the pressure or
the components of the stress, the velocities, and the memory variables; four profiles for each axis. -/
def acousticNumbers (n : ℕ) : Counts := ⟨1 + n, 1 + n, 1 + n, 1 + n, 1 + 3 * n⟩
def elasticNumbers (n : ℕ) : Counts :=
  ⟨2 + n * (n - 1) / 2 + n, 1 + n, 1 + n, 1 + n, n + n * (n + 1) / 2 + 2 * n ^ 2⟩

theorem stagBind_args {counts : ℕ → Counts} {len : γ → ℕ} {x : StagCall α γ} {p : ℕ} (check : Bool)
    (h : x.Fits (counts (len x.opts.gridSpacing)) p)
    (h0 : 0 < (counts (len x.opts.gridSpacing)).models ∧ 0 < (counts (len x.opts.gridSpacing)).amps ∧
      0 < (counts (len x.opts.gridSpacing)).srcs ∧ 0 < (counts (len x.opts.gridSpacing)).rcvs ∧
      0 < (counts (len x.opts.gridSpacing)).wavefields) :
    stagBind counts check len x.args = .ok x := by
  have e : x.models.map (Slot.tensor (γ := γ)) ++ (x.amps.map .tensor ++ (x.srcs.map .tensor ++
      (x.rcvs.map .tensor ++ x.wavefields.map .tensor))) =
      (x.models ++ x.amps ++ x.srcs ++ x.rcvs ++ x.wavefields).map .tensor := by simp
  obtain ⟨p1, p2, p3, p4, p5⟩ := h0
  have hm : lastN (counts (len x.opts.gridSpacing)).models x.models = x.models :=
    lastN_append (xs := []) h.models p1
  have hm' : delLastN (counts (len x.opts.gridSpacing)).models x.models = [] :=
    delLastN_append (xs := []) h.models p1
  simp only [StagCall.args, List.append_assoc, e, List.cons_append, List.nil_append, stagBind, takeOpts_slots,
    allTensors_map, bind, Except.bind]
  simp only [stagSplit, ← List.append_assoc, lastN_append h.wavefields p5, delLastN_append h.wavefields p5,
    lastN_append h.rcvs p4, delLastN_append h.rcvs p4, lastN_append h.srcs p3, delLastN_append h.srcs p3,
    lastN_append h.amps p2, delLastN_append h.amps p2, hm, hm', List.length_nil, ne_eq, not_true_eq_false,
    and_false, if_false]

/-- The backward pass of a staggered propagator. -/
theorem stag_backward {counts : ℕ → Counts} {back : ℕ → BackCounts} {asked : List α → List α} {needs : α → Bool}
    {len : γ → ℕ} {store : CallOpts γ → γ} {K : StagBackIn α γ → StagGrads α} {p : ℕ} (x : StagCall α γ)
    (gw gr : List α) (h : x.Fits (counts (len x.opts.gridSpacing)) p)
    (h0 : 0 < (counts (len x.opts.gridSpacing)).models ∧ 0 < (counts (len x.opts.gridSpacing)).amps ∧
      0 < (counts (len x.opts.gridSpacing)).srcs ∧ 0 < (counts (len x.opts.gridSpacing)).rcvs ∧
      0 < (counts (len x.opts.gridSpacing)).wavefields)
    (hsr : (counts (len x.opts.gridSpacing)).srcs = len x.opts.gridSpacing + 1 ∧
      (counts (len x.opts.gridSpacing)).rcvs = len x.opts.gridSpacing + 1)
    (hback : (back (len x.opts.gridSpacing)).models = (counts (len x.opts.gridSpacing)).models ∧
      (back (len x.opts.gridSpacing)).srcs = (counts (len x.opts.gridSpacing)).srcs ∧
      (back (len x.opts.gridSpacing)).rcvs = (counts (len x.opts.gridSpacing)).rcvs ∧
      (back (len x.opts.gridSpacing)).amps = (counts (len x.opts.gridSpacing)).amps ∧
      ∀ m ∈ (back (len x.opts.gridSpacing)).pml, m = p)
    (hg : gw.length = x.wavefields.length) (hr : gr.length = len x.opts.gridSpacing + 1)
    (hK : ∀ y, (K y).models.length = y.models.length ∧ (K y).amps.length = y.amps.length ∧
      (K y).wavefields.length = y.gradWavefields.length)
    (hneed : ((asked x.models).any needs || x.amps.any needs || x.wavefields.any needs) = true) :
    let g := K ⟨gw, gr, x.models, x.srcs, x.rcvs, x.amps, x.pml, x.opts.ctx (store x.opts), x.amps.map needs⟩
    stagAutograd counts back asked needs len store K x.args (stagReturn gw gr) =
      .ok (x.models.zip g.models ++ x.amps.zip g.amps ++ x.wavefields.zip g.wavefields) := by
  intro g
  obtain ⟨b1, b2, b3, b4, b5⟩ := hback
  have hu : stagUnpack back len ⟨x.models ++ x.srcs ++ x.rcvs ++ x.amps ++ x.pml, x.opts.ctx (store x.opts),
      x.amps.map needs⟩ (stagReturn gw gr) =
      ⟨gw, gr, x.models, x.srcs, x.rcvs, x.amps, x.pml, x.opts.ctx (store x.opts), x.amps.map needs⟩ := by
    have hn : len (x.opts.ctx (store x.opts)).gridSpacing = len x.opts.gridSpacing := rfl
    have hpml : (match (back (len x.opts.gridSpacing)).pml with | none => x.pml | some m => x.pml.take m) =
        x.pml := by
      cases hb : (back (len x.opts.gridSpacing)).pml with
      | none => rfl
      | some m =>
        have : m = p := b5 m (by rw [hb]; rfl)
        subst this
        exact List.take_of_length_le h.pml.le
    unfold stagUnpack
    simp only [hn, b1, b2, b3, b4, stagReturn, lastN_append hr (Nat.succ_pos _), delLastN_append hr (Nat.succ_pos _),
      List.append_assoc, take_append h.models, drop_append h.models, take_append h.srcs, drop_append h.srcs,
      take_append h.rcvs, drop_append h.rcvs, take_append h.amps, drop_append h.amps]
    congr 1
  unfold stagAutograd
  rw [stagBind_args true h h0]
  simp only [bind, Except.bind, stagForwardCtx, hneed, if_true, hu]
  have hn : len (x.opts.ctx (store x.opts)).gridSpacing = len x.opts.gridSpacing := rfl
  have c0 : collect (([.list x.pml] ++ x.opts.slots) : List (Slot α γ)) (List.replicate 14 none) = .ok [] := rfl
  have c1 : collect (γ := γ) (x.models.map .tensor) (g.models.map some) = .ok (x.models.zip g.models) :=
    collect_tensors (hK
      ⟨gw, gr, x.models, x.srcs, x.rcvs, x.amps, x.pml, x.opts.ctx (store x.opts), x.amps.map needs⟩).1.symm
  have c2 : collect (γ := γ) (x.amps.map .tensor) (g.amps.map some) = .ok (x.amps.zip g.amps) :=
    collect_tensors (hK
      ⟨gw, gr, x.models, x.srcs, x.rcvs, x.amps, x.pml, x.opts.ctx (store x.opts), x.amps.map needs⟩).2.1.symm
  have c3 : collect (γ := γ) (x.srcs.map .tensor) (List.replicate (len x.opts.gridSpacing + 1) none) = .ok [] :=
    collect_none (by rw [List.length_map, h.srcs, hsr.1])
  have c4 : collect (γ := γ) (x.rcvs.map .tensor) (List.replicate (len x.opts.gridSpacing + 1) none) = .ok [] :=
    collect_none (by rw [List.length_map, h.rcvs, hsr.2])
  have c5 : collect (γ := γ) (x.wavefields.map .tensor) (g.wavefields.map some) = .ok (x.wavefields.zip g.wavefields) :=
    collect_tensors (by rw [(hK _).2.2]; exact hg.symm)
  have := collect_append (collect_append (collect_append (collect_append (collect_append c0 c1) c2) c3) c4) c5
  simp only [List.nil_append, List.append_nil] at this
  rw [hn]
  exact this

/-- **C116** `acoustic`: in any number of dimensions each model (bulk modulus and buoyancies), each of the amplitudes
and each wavefield receives its own gradient, if any of them needs one. -/
theorem C116_acoustic {needs : α → Bool} {len : γ → ℕ} {store : CallOpts γ → γ} {K : StagBackIn α γ → StagGrads α}
    (x : StagCall α γ) (gw gr : List α)
    (h : x.Fits (acousticNumbers (len x.opts.gridSpacing)) (4 * len x.opts.gridSpacing))
    (hg : gw.length = x.wavefields.length) (hr : gr.length = x.rcvs.length)
    (hK : ∀ y, (K y).models.length = y.models.length ∧ (K y).amps.length = y.amps.length ∧
      (K y).wavefields.length = y.gradWavefields.length)
    (hneed : ∃ a ∈ x.models ++ x.amps ++ x.wavefields, needs a = true) :
    let g := K ⟨gw, gr, x.models, x.srcs, x.rcvs, x.amps, x.pml, x.opts.ctx (store x.opts), x.amps.map needs⟩
    stagAutograd acousticCounts acousticBackCounts acousticAsked needs len store K x.args (stagReturn gw gr) =
      .ok (x.models.zip g.models ++ x.amps.zip g.amps ++ x.wavefields.zip g.wavefields) := by
  have e : acousticNumbers (len x.opts.gridSpacing) = acousticCounts (len x.opts.gridSpacing) := by
    unfold acousticNumbers acousticCounts
    congr 1 <;> omega
  rw [e] at h
  refine stag_backward x gw gr h ⟨?_, ?_, ?_, ?_, ?_⟩ ⟨rfl, rfl⟩ ⟨rfl, rfl, rfl, rfl, ?_⟩ hg
    (by rw [hr, h.rcvs]; rfl) hK ?_
  · exact Nat.succ_pos _
  · exact Nat.succ_pos _
  · exact Nat.succ_pos _
  · exact Nat.succ_pos _
  · show 0 < 1 + len x.opts.gridSpacing + len x.opts.gridSpacing + len x.opts.gridSpacing
    omega
  · intro m hm
    cases hm
  · obtain ⟨a, ha, hn⟩ := hneed
    simp only [List.mem_append] at ha
    simp only [acousticAsked, Bool.or_eq_true, List.any_eq_true]
    rcases ha with (ha | ha) | ha
    · exact .inl (.inl ⟨a, ha, hn⟩)
    · exact .inl (.inr ⟨a, ha, hn⟩)
    · exact .inr ⟨a, ha, hn⟩

theorem elasticNumbers_eq {n : ℕ} (hn : n = 1 ∨ n = 2 ∨ n = 3) : elasticNumbers n = elasticCounts n := by
  rcases hn with rfl | rfl | rfl <;> rfl

/-- **C116** `elastic` in one, two and three dimensions.  The shear moduli between the axes need gradients only if the
shear modulus does, and all buoyancies alike, since they are made from one model each. -/
theorem C116_elastic {needs : α → Bool} {len : γ → ℕ} {store : CallOpts γ → γ} {K : StagBackIn α γ → StagGrads α}
    (x : StagCall α γ) (gw gr : List α)
    (hn : len x.opts.gridSpacing = 1 ∨ len x.opts.gridSpacing = 2 ∨ len x.opts.gridSpacing = 3)
    (h : x.Fits (elasticNumbers (len x.opts.gridSpacing)) (4 * len x.opts.gridSpacing))
    (hg : gw.length = x.wavefields.length) (hr : gr.length = x.rcvs.length)
    (hK : ∀ y, (K y).models.length = y.models.length ∧ (K y).amps.length = y.amps.length ∧
      (K y).wavefields.length = y.gradWavefields.length)
    (hmodels : ∀ a ∈ x.models, needs a = true → ∃ b ∈ x.models.take 2 ++ x.models.getLast?.toList, needs b = true)
    (hneed : ∃ a ∈ x.models ++ x.amps ++ x.wavefields, needs a = true) :
    let g := K ⟨gw, gr, x.models, x.srcs, x.rcvs, x.amps, x.pml, x.opts.ctx (store x.opts), x.amps.map needs⟩
    stagAutograd elasticCounts elasticBackCounts elasticAsked needs len store K x.args (stagReturn gw gr) =
      .ok (x.models.zip g.models ++ x.amps.zip g.amps ++ x.wavefields.zip g.wavefields) := by
  rw [elasticNumbers_eq hn] at h
  have hneed' : ((elasticAsked x.models).any needs || x.amps.any needs || x.wavefields.any needs) = true := by
    obtain ⟨a, ha, hn⟩ := hneed
    simp only [List.mem_append] at ha
    simp only [elasticAsked, Bool.or_eq_true, List.any_eq_true]
    rcases ha with (ha | ha) | ha
    · exact .inl (.inl (hmodels a ha hn))
    · exact .inl (.inr ⟨a, ha, hn⟩)
    · exact .inr ⟨a, ha, hn⟩
  have hr' : gr.length = len x.opts.gridSpacing + 1 := by
    rw [hr, h.rcvs]
    rcases hn with e | e | e <;> rw [e] <;> rfl
  refine stag_backward x gw gr h ?_ ?_ ?_ hg hr' hK hneed'
  · rcases hn with e | e | e <;> rw [e] <;> decide
  · rcases hn with e | e | e <;> rw [e] <;> decide
  · rcases hn with e | e | e <;> rw [e] <;> refine ⟨rfl, rfl, rfl, rfl, ?_⟩ <;> intro m hm <;> cases hm <;> rfl

/-- **C116** The forward functions of both backends get every argument under its own name. -/
theorem C116_forward {len : γ → ℕ} (check : Bool) :
    (∀ (x : ScalarCall α γ) (v f si ri : α), x.models = [v] → x.amps = [f] → x.srcs = [si] → x.rcvs = [ri] →
      scalarBind x.args = .ok ⟨v, f, x.pml, si, ri, x.opts, x.wavefields⟩) ∧
    (∀ (x : BornCall α γ) (v sc f fsc si un ri risc : α), x.models = [v, sc] → x.amps = [f, fsc] →
      x.srcs = [si, un] → x.rcvs = [ri, risc] →
      bornBind x.args = .ok ⟨v, sc, f, fsc, x.pml, si, un, ri, risc, x.opts, x.wavefields⟩) ∧
    (∀ x : StagCall α γ, x.Fits (acousticNumbers (len x.opts.gridSpacing)) (4 * len x.opts.gridSpacing) →
      stagBind acousticCounts check len x.args = .ok x) ∧
    (∀ x : StagCall α γ, x.Fits (elasticNumbers (len x.opts.gridSpacing)) (4 * len x.opts.gridSpacing) →
      (len x.opts.gridSpacing = 1 ∨ len x.opts.gridSpacing = 2 ∨ len x.opts.gridSpacing = 3) →
      stagBind elasticCounts check len x.args = .ok x) := by
  refine ⟨fun x v f si ri h1 h2 h3 h4 => scalarBind_args h1 h2 h3 h4,
    fun x v sc f fsc si un ri risc h1 h2 h3 h4 => bornBind_args h1 h2 h3 h4, fun x h => ?_, fun x h hn => ?_⟩
  · have e : acousticNumbers (len x.opts.gridSpacing) = acousticCounts (len x.opts.gridSpacing) := by
      unfold acousticNumbers acousticCounts
      congr 1 <;> omega
    rw [e] at h
    refine stagBind_args check h ⟨Nat.succ_pos _, Nat.succ_pos _, Nat.succ_pos _, Nat.succ_pos _, ?_⟩
    show 0 < 1 + len x.opts.gridSpacing + len x.opts.gridSpacing + len x.opts.gridSpacing
    omega
  · rw [elasticNumbers_eq hn] at h
    refine stagBind_args check h ?_
    rcases hn with e | e | e <;> rw [e] <;> decide

/-! ### Calls that meet the hypotheses

Tensors are numbered, and the gradient of a tensor carries its number increased by 1000. -/

local instance : HasBool ℕ := ⟨fun b => if b then 1 else 0, fun n => n == 1, by decide⟩

/-- Options, with `grid_spacing` of length `n`. -/
def exOpts (n : ℕ) : CallOpts ℕ := ⟨n, 0, 0, 0, 0, 0, 0, 0, 0, 0, 0, 0, 0⟩

def exScalarCall : ScalarCall ℕ ℕ := ⟨[1], [2], [31, 32, 33, 34, 35, 36], [4], [5], exOpts 2, [61, 62, 63, 64, 65, 66]⟩

/-- The kernel returns gradients made from the inputs under their names. -/
def exScalarK (y : ScalarBackIn ℕ ℕ) : ScalarGrads ℕ :=
  ⟨1000 + y.v, 1000 + y.sourceAmplitudes, y.gradWavefields.map (1000 + ·)⟩

example : scalarAutograd (· == 65) id (fun _ => 9) exScalarK exScalarCall.args
    (scalarReturn [61, 62, 63, 64, 65, 66] 7) =
      .ok [(1, 1001), (2, 1002), (61, 1061), (62, 1062), (63, 1063), (64, 1064), (65, 1065), (66, 1066)] :=
  C116_scalar exScalarCall 1 2 4 5 7 _ rfl rfl rfl rfl rfl rfl rfl (fun y => by simp [exScalarK])
    ⟨65, by decide, rfl⟩

def exScalarBack : ScalarBackIn ℕ ℕ :=
  ⟨1, 2, [31, 32, 33], 4, 5, 6, (exOpts 1).ctx 9, true, [71, 72, 73, 74], [81, 82, 83, 84]⟩

def exDoubleK (z : ScalarDoubleIn ℕ ℕ) : ScalarDoubleOut ℕ :=
  { gradR := 1000 + z.inputs.gradR, v := 1000 + z.inputs.v, sourceAmplitudes := 1000 + z.inputs.sourceAmplitudes
    gradWavefields := z.inputs.gradWavefields.map (1000 + ·), wavefields := z.inputs.wavefields.map (1000 + ·) }

example : scalarDoubleAutograd id exDoubleK exScalarBack.args (ScalarGrads.list ⟨2, 6, [1, 2, 3, 4]⟩) =
    .ok [(1, 1001), (2, 1002), (6, 1006), (71, 1071), (72, 1072), (73, 1073), (74, 1074), (81, 1081), (82, 1082),
      (83, 1083), (84, 1084)] :=
  C116_scalar_double exScalarBack 2 6 [1, 2, 3, 4] rfl rfl rfl (fun z => by simp [exDoubleK])

def exBornCall : BornCall ℕ ℕ :=
  ⟨[1, 2], [3, 4], [51, 52, 53], [6, 7], [8, 9], exOpts 1, [11, 12, 13, 14, 15, 16, 17, 18]⟩

def exBornK (y : BornBackIn ℕ ℕ) : BornGrads ℕ :=
  ⟨1000 + y.v, 1000 + y.scatter, 1003, 1004, y.gradWavefields.map (1000 + ·), y.gradWavefieldsSc.map (1000 + ·)⟩

example : bornAutograd (· == 3) id (fun _ => 9) exBornK exBornCall.args
    (bornReturn [11, 12, 13, 14] [15, 16, 17, 18] 8 9) =
      .ok [(1, 1001), (2, 1002), (3, 1003), (4, 1004), (11, 1011), (12, 1012), (13, 1013), (14, 1014), (15, 1015),
        (16, 1016), (17, 1017), (18, 1018)] :=
  (C116_born (needs := (· == 3)) exBornCall 1 2 3 4 6 7 8 9 8 9 [11, 12, 13, 14] [15, 16, 17, 18] _ _ rfl rfl rfl rfl
    rfl rfl rfl rfl (fun y => by simp [exBornK]) ⟨3, by decide, rfl⟩).1 ⟨3, by decide, rfl⟩

example : bornAutograd (· == 2) id (fun _ => 9) exBornK exBornCall.args
    (bornReturn [11, 12, 13, 14] [15, 16, 17, 18] 8 9) =
      .ok [(2, 1002), (4, 1004), (15, 1015), (16, 1016), (17, 1017), (18, 1018)] :=
  (C116_born (needs := (· == 2)) exBornCall 1 2 3 4 6 7 8 9 8 9 [11, 12, 13, 14] [15, 16, 17, 18] _ _ rfl rfl rfl rfl
    rfl rfl rfl rfl (fun y => by simp [exBornK]) ⟨2, by decide, rfl⟩).2 (by decide)

def exStagK (y : StagBackIn ℕ ℕ) : StagGrads ℕ :=
  ⟨y.models.map (1000 + ·), y.amps.map (1000 + ·), y.gradWavefields.map (1000 + ·)⟩

def exAcousticCall : StagCall ℕ ℕ := ⟨[11, 12, 13, 14], exOpts 1, [21, 22], [31, 32], [41, 42], [51, 52], [61, 62, 63, 64]⟩

example : stagAutograd acousticCounts acousticBackCounts acousticAsked (· == 22) id (fun _ => 9) exStagK
    exAcousticCall.args (stagReturn [61, 62, 63, 64] [51, 52]) =
      .ok [(21, 1021), (22, 1022), (31, 1031), (32, 1032), (61, 1061), (62, 1062), (63, 1063), (64, 1064)] :=
  C116_acoustic exAcousticCall _ _ ⟨rfl, rfl, rfl, rfl, rfl, rfl⟩ rfl rfl (fun y => by simp [exStagK])
    ⟨22, by decide, rfl⟩

/-- Two dimensions: five models and thirteen wavefields. -/
def exElasticCall : StagCall ℕ ℕ :=
  ⟨[11, 12, 13, 14, 15, 16, 17, 18], exOpts 2, [21, 22, 23, 24, 25], [31, 32, 33], [41, 42, 43], [51, 52, 53],
    [61, 62, 63, 64, 65, 66, 67, 68, 69, 70, 71, 72, 73]⟩

example : stagAutograd elasticCounts elasticBackCounts elasticAsked (· == 22) id (fun _ => 9) exStagK
    exElasticCall.args (stagReturn exElasticCall.wavefields [51, 52, 53]) =
      .ok [(21, 1021), (22, 1022), (23, 1023), (24, 1024), (25, 1025), (31, 1031), (32, 1032), (33, 1033),
        (61, 1061), (62, 1062), (63, 1063), (64, 1064), (65, 1065), (66, 1066), (67, 1067), (68, 1068), (69, 1069),
        (70, 1070), (71, 1071), (72, 1072), (73, 1073)] :=
  C116_elastic exElasticCall _ _ (.inr (.inl rfl)) ⟨rfl, rfl, rfl, rfl, rfl, rfl⟩ rfl rfl
    (fun y => by simp [exStagK]) (by decide) ⟨22, by decide, rfl⟩

example : stagBind elasticCounts true id exElasticCall.args = .ok exElasticCall :=
  (C116_forward (len := id) true).2.2.2 exElasticCall ⟨rfl, rfl, rfl, rfl, rfl, rfl⟩ (.inr (.inl rfl))

end Dw.Interface
