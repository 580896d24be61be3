import Verif.Gpu.Storage

/-!
# Lemmas on stored snapshots on the GPU
-/

namespace Dw.Storage

open Classical
open Setup (InShape)

variable {d : ℕ} {R : Type*} [Field R] [LinearOrder R] [FloorRing R] {S : SCfg d}

/-- Bytes `f` are the arrays `vals` of all shots. -/
def SCfg.IsRawG (S : SCfg d) (vals : ℕ → Cell d → R) (f : ℕ → Frag R) : Prop :=
  ∀ s < S.nShots, ∀ c, InShape S.n c → ∀ j < S.sz,
    f ((s * S.numEl + idx S.n c) * S.sz + j) = .part (vals s c) j

/-- Bytes hold the values of all shots, in the format in use. -/
def SCfg.GHolds (S : SCfg d) (vals : ℕ → Cell d → R) (f : ℕ → Frag R) : Prop :=
  if S.comp then IsCompG S.n S.sz S.nShots vals f else S.IsRawG vals f

theorem SCfg.cell_lt {s : ℕ} (hs : s < S.nShots) {c : Cell d} (hc : InShape S.n c) {j : ℕ} (hj : j < S.sz) :
    (s * S.numEl + idx S.n c) * S.sz + j < S.bytesUncomp * S.nShots := by
  have h := elem_lt (elem_lt hs (idx_lt hc : _ < S.numEl)) hj
  have e : S.bytesUncomp * S.nShots = S.nShots * S.numEl * S.sz := by unfold bytesUncomp; ring
  rw [e]
  exact h

theorem SCfg.gcomp_fits (h : S.GOk) (hc : S.comp = true) :
    S.nShots * nBlocks S.n * S.sz + S.nShots * S.numEl ≤ S.bytesComp * S.nShots := by
  have hf : nBlocks S.n * S.sz + S.numEl ≤ S.bytesComp := by
    unfold bytesComp
    rw [if_pos ⟨hc, h.mode⟩]
    have := h.sz
    have h1 := Nat.div_add_mod (S.numEl + nBlocks S.n * S.sz + S.sz - 1) S.sz
    have h2 := Nat.mod_lt (S.numEl + nBlocks S.n * S.sz + S.sz - 1) h.sz
    rw [Nat.mul_comm] at h1
    omega
  have := Nat.mul_le_mul_left S.nShots hf
  rw [Nat.mul_add, ← Nat.mul_assoc] at this
  rw [Nat.mul_comm S.bytesComp]
  exact this

theorem SCfg.GHolds.bytes (hS : S.GOk) {vals : ℕ → Cell d → R} {f g : ℕ → Frag R} (h : S.GHolds vals f)
    (e : ∀ j < S.gBytes, f j = g j) : S.GHolds vals g := by
  unfold GHolds gBytes at *
  cases hc : S.comp
  · rw [hc] at h e
    simp only [Bool.false_eq_true, if_false] at h e ⊢
    intro s hs c hcs j hj
    rw [← e _ (S.cell_lt hs hcs hj)]
    exact h s hs c hcs j hj
  · rw [hc] at h e
    simp only [if_true] at h e ⊢
    have hf := S.gcomp_fits hS hc
    refine ⟨fun s hs b hb j hj => ?_, fun s hs c hcs => ?_⟩
    · have : (s * nBlocks S.n + idx (nb S.n) b) * S.sz + j < S.nShots * nBlocks S.n * S.sz :=
        elem_lt (elem_lt hs (idx_lt hb)) hj
      rw [← e _ (by omega)]
      exact h.maxima s hs b hb j hj
    · have := elem_lt hs (idx_lt hcs)
      unfold numEl at hf
      rw [← e _ (by omega)]
      exact h.bytes s hs c hcs

omit [Field R] [LinearOrder R] [FloorRing R] in
theorem mem_gSnapWrites {σ : Sched d R} (hσ : σ.Ok S) {snap : ℕ → ℕ → Cell d → R} {t : ℕ} {w : ℕ × Frag R} :
    w ∈ gSnapWrites S σ snap t ↔ ∃ s < S.nShots, ∃ c ∈ S.written, ∃ j < S.sz,
      w = (S.gOff1 (t / S.ratio) + ((s * S.numEl + idx S.n c) * S.sz + j), .part (snap s t c) j) := by
  unfold gSnapWrites
  simp only [List.mem_flatMap, mem_valWrites, add_assoc]
  constructor
  · rintro ⟨⟨s, c⟩, hp, j, hj, rfl⟩
    obtain ⟨h1, h2⟩ := (hσ.kern t _).1 hp
    exact ⟨s, h1, c, h2, j, hj, rfl⟩
  · rintro ⟨s, hs, c, hc, j, hj, rfl⟩
    exact ⟨(s, c), (hσ.kern t _).2 ⟨hs, hc⟩, j, hj, rfl⟩

theorem SCfg.cell_inj {s s' : ℕ} {c c' : Cell d} (hc : InShape S.n c) (hc' : InShape S.n c') {j j' : ℕ}
    (hj : j < S.sz) (hj' : j' < S.sz)
    (e : (s * S.numEl + idx S.n c) * S.sz + j = (s' * S.numEl + idx S.n c') * S.sz + j') :
    s = s' ∧ c = c' ∧ j = j' := by
  obtain ⟨e1, e2⟩ := slot_unique hj hj' e
  obtain ⟨e3, e4⟩ := slot_unique (idx_lt hc : _ < S.numEl) (idx_lt hc' : _ < S.numEl) e1
  exact ⟨e3, idx_inj hc hc' e4, e2⟩

omit [Field R] [LinearOrder R] [FloorRing R] in
theorem gSnap_frame (hS : S.GOk) {σ : Sched d R} (hσ : σ.Ok S) {snap : ℕ → ℕ → Cell d → R} {t : ℕ} {m : Mem R}
    {a : ℕ} (ha : a < S.gOff1 (t / S.ratio) ∨ S.gOff1 (t / S.ratio) + S.bytesUncomp * S.nShots ≤ a) :
    applyWrites m (gSnapWrites S σ snap t) a = m a := by
  refine applyWrites_of_not_mem fun w hw e => ?_
  obtain ⟨s, hs, c, hc, j, hj, rfl⟩ := (mem_gSnapWrites hσ).1 hw
  have := S.cell_lt hs (hS.written c hc) hj
  simp only at e; omega

omit [Field R] [LinearOrder R] [FloorRing R] in
theorem gSnap_unwritten (hS : S.GOk) {σ : Sched d R} (hσ : σ.Ok S) {snap : ℕ → ℕ → Cell d → R} {t : ℕ}
    {m : Mem R} {s : ℕ} {c : Cell d} (hc : InShape S.n c) (hw : c ∉ S.written) {j : ℕ} (hj : j < S.sz) :
    applyWrites m (gSnapWrites S σ snap t) (S.gOff1 (t / S.ratio) + ((s * S.numEl + idx S.n c) * S.sz + j)) =
      m (S.gOff1 (t / S.ratio) + ((s * S.numEl + idx S.n c) * S.sz + j)) := by
  refine applyWrites_of_not_mem fun w h e => ?_
  obtain ⟨s', hs', c', hc', j', hj', rfl⟩ := (mem_gSnapWrites hσ).1 h
  obtain ⟨-, rfl, -⟩ := S.cell_inj (hS.written c' hc') hc hj' hj (Nat.add_left_cancel e)
  exact hw hc'

omit [LinearOrder R] [FloorRing R] in
theorem gSnap_isRaw (hS : S.GOk) {σ : Sched d R} (hσ : σ.Ok S) {snap : ℕ → ℕ → Cell d → R} {t : ℕ} {m : Mem R}
    (hz : ∀ s < S.nShots, ∀ c, InShape S.n c → c ∉ S.written → ∀ j < S.sz,
      m (S.gOff1 (t / S.ratio) + ((s * S.numEl + idx S.n c) * S.sz + j)) = .part 0 j) :
    S.IsRawG (fun s => S.full (snap s t))
      fun j => applyWrites m (gSnapWrites S σ snap t) (S.gOff1 (t / S.ratio) + j) := by
  intro s hs c hc j hj
  show _ = Frag.part (if c ∈ S.written then snap s t c else 0) j
  split_ifs with hw
  · refine applyWrites_of_mem ⟨_, (mem_gSnapWrites hσ).2 ⟨s, hs, c, hw, j, hj, rfl⟩, rfl⟩ ?_
    intro w h e
    obtain ⟨s', hs', c', hc', j', hj', rfl⟩ := (mem_gSnapWrites hσ).1 h
    obtain ⟨rfl, rfl, rfl⟩ := S.cell_inj (hS.written c' hc') hc hj' hj (Nat.add_left_cancel e)
    rfl
  · show applyWrites m _ (S.gOff1 (t / S.ratio) + _) = _
    rw [gSnap_unwritten hS hσ hc hw hj]
    exact hz s hs c hc hw j hj

/-- The bytes that are copied to the host or kept on the device. -/
def SCfg.src (S : SCfg d) (k : ℕ) (x : GSt R) : ℕ → Frag R :=
  fun j => if S.comp then x.s2 (S.gOff2 k + j) else x.s1 (S.useB k) (S.gOff1 k + j)

theorem isCompG_congr {n : Fin d → ℤ} {sz nShots : ℕ} {u v : ℕ → Cell d → R} {f : ℕ → Frag R}
    (h : ∀ s < nShots, ∀ c, InShape n c → u s c = v s c) (hf : IsCompG n sz nShots u f) :
    IsCompG n sz nShots v f := by
  refine ⟨fun s hs b hb j hj => ?_, fun s hs c hc => ?_⟩
  · rw [hf.maxima s hs b hb j hj, maxAbs_congr (h s hs) hb]
  · rw [hf.bytes s hs c hc, h s hs c hc, maxAbs_congr (h s hs) (blockOf_spec hc).1]

variable [IsStrictOrderedRing R]

theorem gEnc_frame (hS : S.GOk) {σ : Sched d R} (hσ : σ.Ok S) (junk : R) (t : ℕ) (x : GSt R) {a : ℕ}
    (ha : S.comp = true → a < S.gOff2 (t / S.ratio) ∨ S.gOff2 (t / S.ratio) + S.gBytes ≤ a) :
    (gEnc junk S σ t x).s2 a = x.s2 a := by
  unfold gEnc
  split_ifs with hc
  · have hf := S.gcomp_fits hS hc
    have := ha hc
    unfold SCfg.gBytes at this
    rw [if_pos hc] at this
    refine (gCompress_isComp hS.pos (hσ.comp t) junk S.sz (σ.sh t) _ _ x.s2 _).2 a ?_
    unfold SCfg.numEl at hf
    omega
  · rfl

omit [IsStrictOrderedRing R] in
theorem gEnc_rest (junk : R) (S : SCfg d) (σ : Sched d R) (t : ℕ) (x : GSt R) :
    (gEnc junk S σ t x).s1 = x.s1 ∧ (gEnc junk S σ t x).s3 = x.s3 ∧ (gEnc junk S σ t x).file = x.file ∧
      (gEnc junk S σ t x).fp = x.fp ∧ (gEnc junk S σ t x).failed = x.failed := by
  unfold gEnc; split_ifs <;> exact ⟨rfl, rfl, rfl, rfl, rfl⟩

theorem gEnc_src (hS : S.GOk) {σ : Sched d R} (hσ : σ.Ok S) (junk : R) (t : ℕ) {x : GSt R}
    {vals : ℕ → Cell d → R}
    (h : S.IsRawG vals fun j => x.s1 (S.useB (t / S.ratio)) (S.gOff1 (t / S.ratio) + j)) :
    S.GHolds vals (S.src (t / S.ratio) (gEnc junk S σ t x)) := by
  unfold SCfg.GHolds SCfg.src gEnc
  cases hc : S.comp
  · simpa using h
  · simp only [if_true]
    refine isCompG_congr (fun s hs c hcs => ?_)
      (gCompress_isComp hS.pos (hσ.comp t) junk S.sz (σ.sh t) (x.s1 (S.useB (t / S.ratio)))
        (S.gOff1 (t / S.ratio)) x.s2 (S.gOff2 (t / S.ratio))).1
    exact readVal_of hS.sz fun j hj => by rw [add_assoc]; exact h s hs c hcs j hj

omit [Field R] [LinearOrder R] [FloorRing R] [IsStrictOrderedRing R] in
theorem memcpy_in {dst src : Mem R} {doff soff len j : ℕ} (hj : j < len) :
    memcpy dst doff src soff len (doff + j) = src (soff + j) := by
  unfold memcpy
  rw [if_pos ⟨by omega, by omega⟩]
  congr 2; omega

omit [Field R] [LinearOrder R] [FloorRing R] [IsStrictOrderedRing R] in
theorem memcpy_out {dst src : Mem R} {doff soff len a : ℕ} (ha : a < doff ∨ doff + len ≤ a) :
    memcpy dst doff src soff len a = dst a := by
  unfold memcpy
  rw [if_neg (by omega)]

omit [Field R] [LinearOrder R] [FloorRing R] [IsStrictOrderedRing R] in
theorem gPut_rest (S : SCfg d) (k : ℕ) (x : GSt R) :
    (gPut S k x).s1 = x.s1 ∧ (gPut S k x).s2 = x.s2 ∧ (gPut S k x).file = x.file ∧
      (gPut S k x).fp = x.fp ∧ (gPut S k x).failed = x.failed := by
  unfold gPut; split_ifs <;> exact ⟨rfl, rfl, rfl, rfl, rfl⟩

omit [Field R] [LinearOrder R] [FloorRing R] [IsStrictOrderedRing R] in
theorem gPut_in {k : ℕ} (x : GSt R) (hm : S.mode = .cpu ∨ S.mode = .disk) {j : ℕ} (hj : j < S.gBytes) :
    (gPut S k x).s3 (S.gOff3 k + j) = S.src k x j := by
  unfold gPut SCfg.src
  rw [if_pos hm]
  simp only
  rw [memcpy_in hj]
  split_ifs <;> rfl

omit [Field R] [LinearOrder R] [FloorRing R] [IsStrictOrderedRing R] in
theorem gPut_frame {k : ℕ} (x : GSt R) {a : ℕ}
    (ha : S.mode = .cpu ∨ S.mode = .disk → a < S.gOff3 k ∨ S.gOff3 k + S.gBytes ≤ a) :
    (gPut S k x).s3 a = x.s3 a := by
  unfold gPut
  by_cases hm : S.mode = .cpu ∨ S.mode = .disk
  · rw [if_pos hm]; exact memcpy_out (ha hm)
  · rw [if_neg hm]

omit [Field R] [LinearOrder R] [FloorRing R] [IsStrictOrderedRing R] in
theorem gWrite_rest (S : SCfg d) (k : ℕ) (x : GSt R) :
    (gWrite S k x).s1 = x.s1 ∧ (gWrite S k x).s2 = x.s2 ∧ (gWrite S k x).s3 = x.s3 ∧
      (gWrite S k x).fp = x.fp ∧ (gWrite S k x).failed = x.failed := by
  unfold gWrite; split_ifs
  · cases h : x.fp <;> simp [h]
  · exact ⟨rfl, rfl, rfl, rfl, rfl⟩

/-! ### Where things are -/

section places
variable {k : ℕ}

theorem SCfg.places_device_raw (hm : S.mode = .device) (hc : S.comp = false) :
    S.useB k = false ∧ S.gOff1 k = k * S.gBytes ∧ S.gBytes = S.bytesUncomp * S.nShots := by
  have hb : S.useB k = false := by simp [useB, dbl, hm, hc]
  have hg : S.gBytes = S.bytesUncomp * S.nShots := by simp [gBytes, hc]
  refine ⟨hb, ?_, hg⟩
  unfold gOff1
  rw [hb, hg]
  simp only [hm, hc, bytesUncomp]
  simp
  ring

theorem SCfg.places_device_comp (hm : S.mode = .device) (hc : S.comp = true) :
    S.gOff1 k = 0 ∧ S.gOff2 k = k * S.gBytes := by
  refine ⟨by simp [gOff1, hc], ?_⟩
  unfold gOff2 gBytes
  simp [hm, hc, Nat.mul_assoc]

theorem SCfg.places_cpu (hm : S.mode = .cpu) : S.gOff1 k = 0 ∧ S.gOff2 k = 0 ∧ S.gOff3 k = k * S.gBytes := by
  refine ⟨by simp [gOff1, hm], by simp [gOff2, hm], ?_⟩
  unfold gOff3 gBytes
  rw [if_pos hm]
  split_ifs <;> simp [Nat.mul_assoc]

theorem SCfg.places_disk (hm : S.mode = .disk) :
    S.useB k = false ∧ S.gOff1 k = 0 ∧ S.gOff2 k = 0 ∧ S.gOff3 k = 0 :=
  ⟨by simp [useB, dbl, hm], by simp [gOff1, hm], by simp [gOff2, hm], by simp [gOff3, hm]⟩

theorem slots_disjoint {k K T j : ℕ} (hk : k < K) (hj : j < T) : k * T + j < K * T := by
  have h := Nat.mul_le_mul_right T hk
  rw [Nat.succ_mul] at h
  omega

/-- Everything that is accessed lies in the tensors. -/
theorem SCfg.in_alloc (hS : S.GOk) {nt : ℕ} (hk : k < S.numSteps nt) :
    S.gOff1 k + S.bytesUncomp * S.nShots ≤ S.gAlloc1 nt (S.useB k) ∧
    (S.comp = true → S.gOff2 k + S.gBytes ≤ S.alloc2 nt) ∧
    (S.mode = .cpu ∨ S.mode = .disk → S.gOff3 k + S.gBytes ≤ S.gAlloc3 nt) := by
  have hd : S.bytesComp / S.sz * S.sz = S.bytesComp := Nat.div_mul_cancel S.sz_dvd_bytesComp
  have hu : S.bytesUncomp / S.sz * S.sz = S.bytesUncomp := Nat.div_mul_cancel (Nat.dvd_mul_left _ _)
  have hsl := Nat.mul_le_mul_right S.gBytes hk
  rw [Nat.succ_mul] at hsl
  have hun : S.bytesUncomp * S.nShots = S.nShots * S.numEl * S.sz := by unfold bytesUncomp; ring
  have hsz : (if S.comp then S.bytesComp else S.bytesUncomp) / S.sz * S.sz =
      if S.comp then S.bytesComp else S.bytesUncomp := by split_ifs <;> assumption
  have hg : S.gBytes = S.nShots * if S.comp then S.bytesComp else S.bytesUncomp := by
    unfold gBytes; split_ifs <;> ring
  have hgc : S.comp = true → S.gBytes = S.nShots * S.bytesComp := fun hc => by rw [hg, if_pos hc]
  match hm : S.mode with
  | .none => exact absurd hm hS.mode
  | .device =>
    cases hc : S.comp
    · obtain ⟨h1, h2, h3⟩ := S.places_device_raw (k := k) hm hc
      refine ⟨?_, by simp, by simp⟩
      rw [h1, h2]
      unfold gAlloc1 alloc1
      simp only [hm, hc, Bool.false_eq_true, if_false]
      rw [← h3]
      refine hsl.trans (le_of_eq ?_)
      rw [h3, hun]; ring
    · obtain ⟨h1, h2⟩ := S.places_device_comp (k := k) hm hc
      refine ⟨?_, fun _ => ?_, by simp⟩
      · rw [h1, hun]
        unfold gAlloc1 alloc1
        simp [hm, hc]
      · rw [h2]
        unfold alloc2
        simp only [hm, hc, if_true]
        rw [Nat.mul_assoc, hd, Nat.mul_assoc, ← hgc hc]
        exact hsl
  | .cpu =>
    obtain ⟨h1, h2, h3⟩ := S.places_cpu (k := k) hm
    refine ⟨?_, fun hc => ?_, fun _ => ?_⟩
    · rw [h1, hun]
      unfold gAlloc1 alloc1
      simp [hm]
    · rw [h2]
      unfold alloc2
      simp only [hm, hc, if_true]
      rw [Nat.mul_assoc, hd, ← hgc hc, Nat.zero_add]
    · rw [h3]
      unfold gAlloc3
      simp only [hm]
      rw [Nat.mul_assoc, hsz, Nat.mul_assoc, ← hg]
      exact hsl
  | .disk =>
    obtain ⟨h0, h1, h2, h3⟩ := S.places_disk (k := k) hm
    refine ⟨?_, fun hc => ?_, fun _ => ?_⟩
    · rw [h0, h1, hun]
      unfold gAlloc1 alloc1
      simp [hm]
    · rw [h2]
      unfold alloc2
      simp only [hm, hc, if_true]
      rw [Nat.mul_assoc, hd, ← hgc hc, Nat.zero_add]
    · rw [h3]
      unfold gAlloc3
      simp only [hm]
      rw [Nat.mul_assoc, hsz, ← hg, Nat.zero_add]

end places

end Dw.Storage
