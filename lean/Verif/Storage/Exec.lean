import Verif.Storage.Lemmas

/-!
# Shots do not touch each other's snapshots

`Agree S s` relates states that are equal as far as shot `s` can tell.
-/

namespace Dw.Storage

open Classical
open Setup (InShape)

variable {d : ℕ} {R : Type*}

/-- Sizes are positive, the kernel stays in the array, the mode is one that the CPU backend gets. -/
structure SCfg.Ok (S : SCfg d) : Prop where
  sz : 0 < S.sz
  ratio : 0 < S.ratio
  written : ∀ c ∈ S.written, InShape S.n c
  mode : S.mode = .device ∨ S.mode = .disk

variable {S : SCfg d}

/-- Compressed data fit in `shot_bytes_comp`. -/
theorem SCfg.comp_fits (h : S.Ok) (hc : S.comp = true) : nBlocks S.n * S.sz + S.numEl ≤ S.bytesComp := by
  have hm : S.mode ≠ .none := by rcases h.mode with e | e <;> rw [e] <;> decide
  unfold bytesComp
  rw [if_pos ⟨hc, hm⟩]
  have := h.sz
  have h1 := Nat.div_add_mod (S.numEl + nBlocks S.n * S.sz + S.sz - 1) S.sz
  have h2 := Nat.mod_lt (S.numEl + nBlocks S.n * S.sz + S.sz - 1) h.sz
  rw [Nat.mul_comm] at h1
  omega

theorem SCfg.sz_dvd_bytesComp : S.sz ∣ S.bytesComp := by
  unfold bytesComp
  split_ifs
  · exact Nat.dvd_mul_left _ _
  · exact Nat.dvd_zero _

/-- Slot of shot and step in `store_1`. -/
def SCfg.slot1 (S : SCfg d) (s t : ℕ) : ℕ :=
  s + if S.mode = .device ∧ ¬S.comp then t / S.ratio * S.nShots else 0

def SCfg.slot2 (S : SCfg d) (s t : ℕ) : ℕ :=
  s + if S.mode = .device ∧ S.comp then t / S.ratio * S.nShots else 0

theorem SCfg.off1_eq (s t : ℕ) : S.off1 s t = S.slot1 s t * S.bytesUncomp := by
  unfold off1 slot1 bytesUncomp
  split_ifs <;> ring

theorem SCfg.off2_eq (s t : ℕ) : S.off2 s t = S.slot2 s t * S.bytesComp := rfl

theorem SCfg.slot1_inj {s s' t t' : ℕ} (hs : s < S.nShots) (hs' : s' < S.nShots)
    (h : S.slot1 s t = S.slot1 s' t') :
    s = s' ∧ (S.mode = .device ∧ ¬S.comp → t / S.ratio = t' / S.ratio) := by
  unfold slot1 at h
  split_ifs at h with hm
  · obtain ⟨h1, h2⟩ := slot_unique (a := t / S.ratio) (a' := t' / S.ratio) hs hs' (by omega)
    exact ⟨h2, fun _ => h1⟩
  · exact ⟨by omega, fun h => absurd h hm⟩

theorem SCfg.slot2_inj {s s' t t' : ℕ} (hs : s < S.nShots) (hs' : s' < S.nShots)
    (h : S.slot2 s t = S.slot2 s' t') :
    s = s' ∧ (S.mode = .device ∧ S.comp → t / S.ratio = t' / S.ratio) := by
  unfold slot2 at h
  split_ifs at h with hm
  · obtain ⟨h1, h2⟩ := slot_unique (a := t / S.ratio) (a' := t' / S.ratio) hs hs' (by omega)
    exact ⟨h2, fun _ => h1⟩
  · exact ⟨by omega, fun h => absurd h hm⟩

theorem SCfg.off1_inj {s s' t t' j j' : ℕ} (hs : s < S.nShots) (hs' : s' < S.nShots)
    (hj : j < S.bytesUncomp) (hj' : j' < S.bytesUncomp) (h : S.off1 s t + j = S.off1 s' t' + j') :
    s = s' ∧ (S.mode = .device ∧ ¬S.comp → t / S.ratio = t' / S.ratio) ∧ j = j' := by
  rw [off1_eq, off1_eq] at h
  obtain ⟨h1, h2⟩ := slot_unique hj hj' h
  obtain ⟨h3, h4⟩ := slot1_inj hs hs' h1
  exact ⟨h3, h4, h2⟩

theorem SCfg.off2_inj {s s' t t' j j' : ℕ} (hs : s < S.nShots) (hs' : s' < S.nShots)
    (hj : j < S.bytesComp) (hj' : j' < S.bytesComp) (h : S.off2 s t + j = S.off2 s' t' + j') :
    s = s' ∧ (S.mode = .device ∧ S.comp → t / S.ratio = t' / S.ratio) ∧ j = j' := by
  rw [off2_eq, off2_eq] at h
  obtain ⟨h1, h2⟩ := slot_unique hj hj' h
  obtain ⟨h3, h4⟩ := slot2_inj hs hs' h1
  exact ⟨h3, h4, h2⟩

/-- The bytes of `store_1` that belong to shot `s`. -/
def SCfg.reg1 (S : SCfg d) (s a : ℕ) : Prop := ∃ t, ∃ j < S.bytesUncomp, a = S.off1 s t + j

def SCfg.reg2 (S : SCfg d) (s a : ℕ) : Prop := ∃ t, ∃ j < S.bytesComp, a = S.off2 s t + j

theorem SCfg.reg1_disjoint {s s' a : ℕ} (hs : s < S.nShots) (hs' : s' < S.nShots) (hne : s ≠ s')
    (h : S.reg1 s a) : ¬S.reg1 s' a := by
  rintro ⟨t', j', hj', e'⟩
  obtain ⟨t, j, hj, e⟩ := h
  exact hne (off1_inj hs hs' hj hj' (e.symm.trans e')).1

theorem SCfg.reg2_disjoint {s s' a : ℕ} (hs : s < S.nShots) (hs' : s' < S.nShots) (hne : s ≠ s')
    (h : S.reg2 s a) : ¬S.reg2 s' a := by
  rintro ⟨t', j', hj', e'⟩
  obtain ⟨t, j, hj, e⟩ := h
  exact hne (off2_inj hs hs' hj hj' (e.symm.trans e')).1

/-- Byte `j` of cell `c` in an uncompressed array. -/
theorem SCfg.cell_byte_lt {c : Cell d} (h : InShape S.n c) {j : ℕ} (hj : j < S.sz) :
    idx S.n c * S.sz + j < S.bytesUncomp := by
  have h1 : idx S.n c + 1 ≤ _ := idx_lt h
  have h2 := Nat.mul_le_mul_right S.sz h1
  rw [Nat.add_mul] at h2
  unfold bytesUncomp numEl
  omega

/-- Equal as far as shot `s` can tell. -/
structure Agree (S : SCfg d) (s : ℕ) (x y : St R) : Prop where
  store1 : ∀ a, S.reg1 s a → x.store1 a = y.store1 a
  store2 : ∀ a, S.reg2 s a → x.store2 a = y.store2 a
  file : x.file s = y.file s
  fp : x.fp s = y.fp s

theorem Agree.refl (S : SCfg d) (s : ℕ) (x : St R) : Agree S s x x :=
  ⟨fun _ _ => rfl, fun _ _ => rfl, rfl, rfl⟩

theorem Agree.symm {s : ℕ} {x y : St R} (h : Agree S s x y) : Agree S s y x :=
  ⟨fun a ha => (h.store1 a ha).symm, fun a ha => (h.store2 a ha).symm, h.file.symm, h.fp.symm⟩

theorem Agree.trans {s : ℕ} {x y z : St R} (h : Agree S s x y) (h' : Agree S s y z) : Agree S s x z :=
  ⟨fun a ha => (h.store1 a ha).trans (h'.store1 a ha),
   fun a ha => (h.store2 a ha).trans (h'.store2 a ha), h.file.trans h'.file, h.fp.trans h'.fp⟩

/-- Stores in another shot's part of `store_1` are not noticed. -/
theorem Agree.frame1 {s s' : ℕ} {x : St R} {ws : List (ℕ × Frag R)} (hs : s < S.nShots)
    (hs' : s' < S.nShots) (hne : s ≠ s') (hw : ∀ w ∈ ws, S.reg1 s' w.1) :
    Agree S s x { x with store1 := applyWrites x.store1 ws } :=
  ⟨fun a ha => (applyWrites_of_not_mem fun w h e =>
      S.reg1_disjoint hs hs' hne ha (by rw [← e]; exact hw w h)).symm, fun _ _ => rfl, rfl, rfl⟩

theorem Agree.frame2 {s s' : ℕ} {x : St R} {ws : List (ℕ × Frag R)} (hs : s < S.nShots)
    (hs' : s' < S.nShots) (hne : s ≠ s') (hw : ∀ w ∈ ws, S.reg2 s' w.1) :
    Agree S s x { x with store2 := applyWrites x.store2 ws } :=
  ⟨fun _ _ => rfl, fun a ha => (applyWrites_of_not_mem fun w h e =>
      S.reg2_disjoint hs hs' hne ha (by rw [← e]; exact hw w h)).symm, rfl, rfl⟩

theorem Agree.write1 {s : ℕ} {x y : St R} (h : Agree S s x y) (ws : List (ℕ × Frag R)) :
    Agree S s { x with store1 := applyWrites x.store1 ws } { y with store1 := applyWrites y.store1 ws } :=
  ⟨fun a ha => applyWrites_congr (h.store1 a ha) ws, h.store2, h.file, h.fp⟩

theorem Agree.write2 {s : ℕ} {x y : St R} (h : Agree S s x y) (ws : List (ℕ × Frag R)) :
    Agree S s { x with store2 := applyWrites x.store2 ws } { y with store2 := applyWrites y.store2 ws } :=
  ⟨h.store1, fun a ha => applyWrites_congr (h.store2 a ha) ws, h.file, h.fp⟩

section iter
variable [Field R] [LinearOrder R] [FloorRing R]

omit [Field R] [LinearOrder R] [FloorRing R] in
theorem Agree.readCell {s : ℕ} {x y : St R} (hS : S.Ok) (h : Agree S s x y) (junk : R) (t : ℕ)
    {c : Cell d} (hc : InShape S.n c) :
    readVal junk S.sz x.store1 (S.off1 s t + idx S.n c * S.sz) =
      readVal junk S.sz y.store1 (S.off1 s t + idx S.n c * S.sz) :=
  readVal_congr hS.sz fun k hk => h.store1 _ ⟨t, _, S.cell_byte_lt hc hk, by rw [add_assoc]⟩

theorem compressWrites_congr {sz off : ℕ} {n : Fin d → ℤ} {u v : Cell d → R}
    (h : ∀ c, InShape n c → u c = v c) : compressWrites sz n u off = compressWrites sz n v off := by
  unfold compressWrites
  refine List.flatMap_congr fun b hb => ?_
  have hb := mem_blocks.1 hb
  simp only [maxAbs_congr h hb]
  congr 1
  refine List.map_congr_left fun c hc => ?_
  rw [h c (mem_cellsOf_inShape hb hc).1]

theorem compressWrites_reg (hS : S.Ok) (hc : S.comp = true) {s t : ℕ} {inp : Cell d → R} :
    ∀ w ∈ compressWrites S.sz S.n inp (S.off2 s t), S.reg2 s w.1 := by
  intro w hw
  obtain ⟨h1, h2⟩ := compressWrites_bound hw
  have := S.comp_fits hS hc
  unfold SCfg.numEl at this
  exact ⟨t, w.1 - S.off2 s t, by omega, by omega⟩

omit [LinearOrder R] [FloorRing R] in
theorem decompressWrites_reg {s t off2 : ℕ} {junk : R} {junkQ : ℕ} {m2 : Mem R} :
    ∀ w ∈ decompressWrites junk junkQ S.sz S.n m2 off2 (S.off1 s t), S.reg1 s w.1 := by
  intro w hw
  obtain ⟨j, h1, h2⟩ := decompressWrites_bound hw
  exact ⟨t, j, h1, h2⟩

omit [Field R] [LinearOrder R] [FloorRing R] in
theorem snapWrites_reg (hS : S.Ok) {s t : ℕ} {snap : Cell d → R} :
    ∀ w ∈ S.written.flatMap fun c => valWrites S.sz (S.off1 s t + idx S.n c * S.sz) (snap c),
      S.reg1 s w.1 := by
  intro w hw
  simp only [List.mem_flatMap, mem_valWrites] at hw
  obtain ⟨c, hc, k, hk, rfl⟩ := hw
  exact ⟨t, _, S.cell_byte_lt (hS.written c hc) hk, by simp only; rw [add_assoc]⟩

omit [Field R] [LinearOrder R] [FloorRing R] in
theorem freadWrites_bound {off len : ℕ} {fp : Fp} {content : List (Frag R)} :
    ∀ w ∈ (fread fp content len).zipIdx.map (fun p => (off + p.2, p.1)),
      ∃ j < len, w.1 = off + j := by
  intro w hw
  simp only [List.mem_map, Prod.exists] at hw
  obtain ⟨x, j, hx, rfl⟩ := hw
  have h1 := List.snd_lt_of_mem_zipIdx hx
  refine ⟨j, ?_, rfl⟩
  have : (fread fp content len).length ≤ len := by
    unfold fread; rw [List.length_take]; exact min_le_left _ _
  simp only at h1
  omega

omit [Field R] [LinearOrder R] [FloorRing R] in
theorem saveDisk_frame {s s' t size : ℕ} {src : ℕ → Frag R} {x y : St R} (hne : s ≠ s')
    (h : Agree S s x y) : Agree S s x (saveDisk S s' t size src y) := by
  unfold saveDisk
  split
  · exact ⟨h.store1, h.store2, by simp only; rw [Function.update_of_ne hne]; exact h.file, h.fp⟩
  · exact h

omit [Field R] [LinearOrder R] [FloorRing R] in
theorem saveDisk_congr {s t size : ℕ} {src src' : ℕ → Frag R} {x y : St R} (h : Agree S s x y)
    (hsrc : ∀ j < size, src j = src' j) :
    Agree S s (saveDisk S s t size src x) (saveDisk S s t size src' y) := by
  unfold saveDisk
  have hfp := h.fp
  have e : (List.range size).map src = (List.range size).map src' :=
    List.map_congr_left fun j hj => hsrc j (List.mem_range.1 hj)
  cases hx : x.fp s with
  | none => rw [hx] at hfp; rw [← hfp]; exact h
  | some fp =>
      rw [hx] at hfp; rw [← hfp]
      refine ⟨h.store1, h.store2, ?_, h.fp⟩
      simp only [Function.update_self]
      rw [h.file, e]

/-- Other shots do not notice `save_snapshot_cpu`. -/
theorem save_frame (hS : S.Ok) {junk : R} {s s' t : ℕ} {x : St R} (hs : s < S.nShots)
    (hs' : s' < S.nShots) (hne : s ≠ s') : Agree S s x (save junk S s' t x) := by
  unfold save
  split_ifs with h0 hc hd hd
  · exact Agree.refl _ _ _
  · exact saveDisk_frame hne (Agree.frame2 hs hs' hne (compressWrites_reg hS hc))
  · exact Agree.frame2 hs hs' hne (compressWrites_reg hS hc)
  · exact saveDisk_frame hne (Agree.refl _ _ _)
  · exact Agree.refl _ _ _

theorem save_congr (hS : S.Ok) {junk : R} {s t : ℕ} {x y : St R} (h : Agree S s x y) :
    Agree S s (save junk S s t x) (save junk S s t y) := by
  have hin : compressWrites S.sz S.n (fun c => readVal junk S.sz x.store1 (S.off1 s t + idx S.n c * S.sz))
      (S.off2 s t) = compressWrites S.sz S.n
        (fun c => readVal junk S.sz y.store1 (S.off1 s t + idx S.n c * S.sz)) (S.off2 s t) :=
    compressWrites_congr fun c hc => h.readCell hS junk t hc
  unfold save
  split_ifs with h0 hc hd hd
  · exact h
  · simp only [hin]
    exact saveDisk_congr (h.write2 _) fun j hj => applyWrites_congr (h.store2 _ ⟨t, j, hj, rfl⟩) _
  · simp only [hin]
    exact h.write2 _
  · exact saveDisk_congr h fun j hj => h.store1 _ ⟨t, j, hj, rfl⟩
  · exact h

theorem fwdIter_frame (hS : S.Ok) {junk : R} {snap : Cell d → R} {s s' t : ℕ} {x : St R}
    (hs : s < S.nShots) (hs' : s' < S.nShots) (hne : s ≠ s') :
    Agree S s x (fwdIter junk S snap s' t x) := by
  unfold fwdIter
  split_ifs
  · exact (Agree.frame1 hs hs' hne (snapWrites_reg hS)).trans (save_frame hS hs hs' hne)
  · exact Agree.refl _ _ _

theorem fwdIter_congr (hS : S.Ok) {junk : R} {snap : Cell d → R} {s t : ℕ} {x y : St R}
    (h : Agree S s x y) : Agree S s (fwdIter junk S snap s t x) (fwdIter junk S snap s t y) := by
  unfold fwdIter
  split_ifs
  · exact save_congr hS (h.write1 _)
  · exact h

omit [LinearOrder R] [FloorRing R] in
theorem load_eq (hS : S.Ok) {junk : R} {junkQ s t : ℕ} {x : St R} :
    load junk junkQ S s t x =
      loadRest junk junkQ S s t (if S.mode = .disk then loadDisk S s t x else x) := by
  have : S.mode ≠ .none := by rcases hS.mode with e | e <;> rw [e] <;> decide
  unfold load
  rw [if_neg this]

omit [Field R] [LinearOrder R] [FloorRing R] in
theorem loadDisk_frame {s s' t : ℕ} {x : St R} (hs : s < S.nShots) (hs' : s' < S.nShots)
    (hne : s ≠ s') : Agree S s x (loadDisk S s' t x) := by
  unfold loadDisk
  cases x.fp s' with
  | none => exact Agree.refl _ _ _
  | some fp =>
      cases hc : S.comp
      · refine Agree.frame1 hs hs' hne fun w hw => ?_
        obtain ⟨j, hj, e⟩ := freadWrites_bound w hw
        exact ⟨t, j, hj, e⟩
      · refine Agree.frame2 hs hs' hne fun w hw => ?_
        obtain ⟨j, hj, e⟩ := freadWrites_bound w hw
        exact ⟨t, j, hj, e⟩

omit [Field R] [LinearOrder R] [FloorRing R] in
theorem loadDisk_congr {s t : ℕ} {x y : St R} (h : Agree S s x y) :
    Agree S s (loadDisk S s t x) (loadDisk S s t y) := by
  unfold loadDisk
  have hfp := h.fp
  rw [h.file]
  cases hx : x.fp s with
  | none => rw [hx] at hfp; rw [← hfp]; exact h
  | some fp =>
      rw [hx] at hfp; rw [← hfp]
      cases hc : S.comp
      · exact h.write1 _
      · exact h.write2 _

omit [LinearOrder R] [FloorRing R] in
theorem loadRest_frame {junk : R} {junkQ s s' t : ℕ} {x : St R} (hs : s < S.nShots)
    (hs' : s' < S.nShots) (hne : s ≠ s') : Agree S s x (loadRest junk junkQ S s' t x) := by
  unfold loadRest
  split_ifs
  · exact Agree.frame1 hs hs' hne decompressWrites_reg
  · exact Agree.refl _ _ _

omit [LinearOrder R] [FloorRing R] in
theorem loadRest_congr (hS : S.Ok) {junk : R} {junkQ s t : ℕ} {x y : St R} (h : Agree S s x y) :
    Agree S s (loadRest junk junkQ S s t x) (loadRest junk junkQ S s t y) := by
  unfold loadRest
  split_ifs with hc
  · have e : decompressWrites junk junkQ S.sz S.n x.store2 (S.off2 s t) (S.off1 s t) =
        decompressWrites junk junkQ S.sz S.n y.store2 (S.off2 s t) (S.off1 s t) := by
      refine decompressWrites_congr hS.sz fun j hj => ?_
      have := S.comp_fits hS hc
      unfold SCfg.numEl at this
      exact h.store2 _ ⟨t, j, by omega, rfl⟩
    simp only [e]
    exact h.write1 _
  · exact h

omit [LinearOrder R] [FloorRing R] in
theorem bwdIter_frame (hS : S.Ok) {junk : R} {junkQ s s' t : ℕ} {x : St R}
    (hs : s < S.nShots) (hs' : s' < S.nShots) (hne : s ≠ s') :
    Agree S s x (bwdIter junk junkQ S s' t x) := by
  unfold bwdIter
  split_ifs
  · rw [load_eq hS]
    split_ifs
    · exact (loadDisk_frame hs hs' hne).trans (loadRest_frame hs hs' hne)
    · exact loadRest_frame hs hs' hne
  · exact Agree.refl _ _ _

omit [LinearOrder R] [FloorRing R] in
theorem bwdIter_congr (hS : S.Ok) {junk : R} {junkQ s t : ℕ} {x y : St R}
    (h : Agree S s x y) : Agree S s (bwdIter junk junkQ S s t x) (bwdIter junk junkQ S s t y) := by
  unfold bwdIter
  split_ifs
  · rw [load_eq hS, load_eq hS]
    split_ifs
    · exact loadRest_congr hS (loadDisk_congr h)
    · exact loadRest_congr hS h
  · exact h

end iter

/-- An iteration function whose effect on a shot depends only on that shot. -/
structure LocalIter (S : SCfg d) (iter : ℕ → ℕ → St R → St R) : Prop where
  frame : ∀ s s' t x, s < S.nShots → s' < S.nShots → s ≠ s' → Agree S s x (iter s' t x)
  congr : ∀ s t x y, Agree S s x y → Agree S s (iter s t x) (iter s t y)

theorem exec_frame {iter : ℕ → ℕ → St R → St R} (hi : LocalIter S iter) {s : ℕ} {e : ℕ × Op} {x : St R}
    (hs : s < S.nShots) (he : e.1 < S.nShots) (hne : s ≠ e.1) : Agree S s x (exec S iter e x) := by
  unfold exec
  split
  · split_ifs
    · exact ⟨fun _ _ => rfl, fun _ _ => rfl, by simp only; rw [Function.update_of_ne hne],
        by simp only; rw [Function.update_of_ne hne]⟩
    · exact Agree.refl _ _ _
  · exact hi.frame _ _ _ _ hs he hne
  · exact ⟨fun _ _ => rfl, fun _ _ => rfl, rfl, by simp only; rw [Function.update_of_ne hne]⟩

theorem exec_congr {iter : ℕ → ℕ → St R → St R} (hi : LocalIter S iter) {s : ℕ} {o : Op} {x y : St R}
    (h : Agree S s x y) : Agree S s (exec S iter (s, o) x) (exec S iter (s, o) y) := by
  unfold exec
  cases o with
  | fopen m =>
      simp only
      split_ifs
      · refine ⟨h.store1, h.store2, ?_, ?_⟩
        · simp only [Function.update_self]; rw [h.file]
        · simp only [Function.update_self]
      · exact h
  | iter t => exact hi.congr _ _ _ _ h
  | fclose =>
      exact ⟨h.store1, h.store2, h.file, by simp only [Function.update_self]⟩

/-- However the operations of the shots are interleaved, a shot ends up as if it ran alone. -/
theorem execAll_agree {iter : ℕ → ℕ → St R → St R} (hi : LocalIter S iter) {s : ℕ} (hs : s < S.nShots) :
    ∀ (es : List (ℕ × Op)) (x y : St R), (∀ e ∈ es, e.1 < S.nShots) → Agree S s x y →
      Agree S s (execAll S iter es x) (execAll S iter (es.filter (·.1 = s)) y)
  | [], x, y, _, h => h
  | e :: es, x, y, he, h => by
      have he' : ∀ e' ∈ es, e'.1 < S.nShots := fun e' h' => he e' (List.mem_cons_of_mem _ h')
      by_cases hes : e.1 = s
      · rw [List.filter_cons_of_pos (by simpa using hes)]
        refine execAll_agree hi hs es _ _ he' ?_
        obtain ⟨s', o⟩ := e
        cases hes
        exact exec_congr hi h
      · rw [List.filter_cons_of_neg (by simpa using hes)]
        refine execAll_agree hi hs es _ _ he' ?_
        exact (exec_frame hi hs (he e List.mem_cons_self) (Ne.symm hes)).symm.trans h

end Dw.Storage
