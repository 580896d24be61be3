import Verif.Gpu.Compress
import Verif.Props.Storage

/-!
# C74: compression on the GPU
-/

namespace Dw.Storage

open Classical
open Setup (InShape)

variable {d : ℕ} {R : Type*} [Field R] [LinearOrder R] [FloorRing R] [IsStrictOrderedRing R]

/-- `ds` is an order in which the threads of `decompress_kernel` can run. -/
def IsOrder (d total : ℕ) (ds : List (ℕ × ℕ)) : Prop :=
  ∀ b t, ds.count (b, t) = if b < total ∧ t < 8 ^ d then 1 else 0

theorem IsOrder.mem {total : ℕ} {ds : List (ℕ × ℕ)} (h : IsOrder d total ds) (b t : ℕ) :
    (b, t) ∈ ds ↔ b < total ∧ t < tpb d := by
  rw [← List.count_pos_iff, h]
  unfold tpb
  split_ifs with h1 <;> simp [h1]

/-- **C74** In every execution of the compression kernel that respects the barriers, and in every order of the
threads of the decompression kernel, decompression on the GPU leaves at cell `c` of shot `s` what compression
and decompression of the array of that shot alone leave there on the CPU, whatever buffers held before. -/
theorem C74_gpu_eq_cpu (junk : R) (junkQ : ℕ) {sz : ℕ} (hsz : 0 < sz) {n : Fin d → ℤ} (hn : ∀ k, 0 < n k)
    {nShots : ℕ} {es : List (ℕ × ℕ × ℕ)} (hes : IsRun d (nShots * nBlocks n) es) {ds : List (ℕ × ℕ)}
    (hds : IsOrder d (nShots * nBlocks n) ds) (sh₀ : ℕ → ℕ → R) (m1 m2 m1' c1 c2 : Mem R) (off1 off2 off1' o1 o2 : ℕ)
    {s : ℕ} (hs : s < nShots) {c : Cell d} (hc : InShape n c) :
    readVal junk sz (gDecompress junk junkQ sz n nShots ds (gCompress junk sz n nShots es sh₀ m1 off1 m2 off2) off2
        m1' off1') (off1' + (s * (∏ k, n k).toNat + idx n c) * sz) =
      readVal junk sz (applyWrites c1 (decompressWrites junk junkQ sz n (applyWrites c2 (compressWrites sz n
        (fun c => readVal junk sz m1 (off1 + (s * (∏ k, n k).toNat + idx n c) * sz)) o2)) o2 o1))
        (o1 + idx n c * sz) := by
  obtain ⟨h1, -⟩ := gCompress_isComp hn hes junk sz sh₀ m1 off1 m2 off2
  obtain ⟨h2, -⟩ := gDecompress_eq hn (fun b t => hds.mem b t) junk junkQ hsz _ off2 h1 m1' off1'
  have h3 := decompress_isRaw (junk := junk) (junkQ := junkQ) (off1 := o1) hsz
    (compress_isComp (sz := sz) (n := n)
      (fun c => readVal junk sz m1 (off1 + (s * (∏ k, n k).toNat + idx n c) * sz)) o2 c2) c1
  rw [readVal_of hsz fun j hj => h2 s hs c hc j hj]
  exact (readVal_of hsz fun j hj => by rw [add_assoc]; exact h3 c hc j hj).symm

/-- **C74** A value changes by at most 1/254 of the largest magnitude in its block of its shot, and zeros stay
zeros. -/
theorem C74_gpu_error (junk : R) (junkQ : ℕ) {sz : ℕ} (hsz : 0 < sz) {n : Fin d → ℤ} (hn : ∀ k, 0 < n k)
    {nShots : ℕ} {es : List (ℕ × ℕ × ℕ)} (hes : IsRun d (nShots * nBlocks n) es) {ds : List (ℕ × ℕ)}
    (hds : IsOrder d (nShots * nBlocks n) ds) (sh₀ : ℕ → ℕ → R) (m1 m2 m1' : Mem R) (off1 off2 off1' : ℕ)
    {s : ℕ} (hs : s < nShots) {c : Cell d} (hc : InShape n c) :
    let inp := fun c => readVal junk sz m1 (off1 + (s * (∏ k, n k).toNat + idx n c) * sz)
    let out := readVal junk sz (gDecompress junk junkQ sz n nShots ds
      (gCompress junk sz n nShots es sh₀ m1 off1 m2 off2) off2 m1' off1')
      (off1' + (s * (∏ k, n k).toNat + idx n c) * sz)
    (∃ c', InShape n c' ∧ SameBlock c' c ∧ (∀ c'', InShape n c'' → SameBlock c'' c → |inp c''| ≤ |inp c'|) ∧
      |out - inp c| ≤ |inp c'| / 254) ∧ (inp c = 0 → out = 0) := by
  intro inp out
  have h := C26_compress_error junk junkQ hsz n inp m1 m2 0 0 hc
  have e := C74_gpu_eq_cpu junk junkQ hsz hn hes hds sh₀ m1 m2 m1' m1 m2 off1 off2 off1' 0 0 hs hc
  simp only at h
  change out = _ at e
  rw [e]
  exact h

/-- **C74** The compression kernel writes only bytes of the slot of `n_shots * shot_bytes_comp` bytes that
`StorageManager` provides for the step, the decompression kernel only bytes of the arrays of the shots. -/
theorem C74_gpu_in_bounds (S : SCfg d) (hsz : 0 < S.sz) (hmode : S.mode ≠ .none) (hcomp : S.comp = true)
    (hn : ∀ k, 0 < S.n k) (junk : R) (junkQ : ℕ) {es : List (ℕ × ℕ × ℕ)}
    (hes : IsRun d (S.nShots * nBlocks S.n) es) {ds : List (ℕ × ℕ)} (hds : IsOrder d (S.nShots * nBlocks S.n) ds)
    (sh₀ : ℕ → ℕ → R) (m1 m2 m1' : Mem R) (off1 off2 off1' a : ℕ) :
    (a < off2 ∨ off2 + S.nShots * S.bytesComp ≤ a →
      gCompress junk S.sz S.n S.nShots es sh₀ m1 off1 m2 off2 a = m2 a) ∧
    (a < off1' ∨ off1' + S.nShots * S.bytesUncomp ≤ a →
      gDecompress junk junkQ S.sz S.n S.nShots ds (gCompress junk S.sz S.n S.nShots es sh₀ m1 off1 m2 off2) off2
        m1' off1' a = m1' a) := by
  obtain ⟨h1, h1'⟩ := gCompress_isComp hn hes junk S.sz sh₀ m1 off1 m2 off2
  obtain ⟨-, h2⟩ := gDecompress_eq hn (fun b t => hds.mem b t) junk junkQ hsz _ off2 h1 m1' off1'
  have hfit : nBlocks S.n * S.sz + S.numEl ≤ S.bytesComp := by
    unfold SCfg.bytesComp
    rw [if_pos ⟨hcomp, hmode⟩]
    have h1 := Nat.div_add_mod (S.numEl + nBlocks S.n * S.sz + S.sz - 1) S.sz
    have h2 := Nat.mod_lt (S.numEl + nBlocks S.n * S.sz + S.sz - 1) hsz
    rw [Nat.mul_comm] at h1
    omega
  refine ⟨fun ha => h1' a ?_, fun ha => h2 a ?_⟩
  · have := Nat.mul_le_mul_left S.nShots hfit
    rw [Nat.mul_add, ← Nat.mul_assoc] at this
    unfold SCfg.numEl at this
    omega
  · unfold SCfg.bytesUncomp SCfg.numEl at ha
    rw [Nat.mul_assoc]
    exact ha

/-- An execution in which all blocks go through the phases together, the threads backwards. -/
def lockRun (d total : ℕ) : List (ℕ × ℕ × ℕ) :=
  (List.range (phases d).length).flatMap fun p =>
    ((List.range total).product (List.range (tpb d)).reverse).map fun e => (e.1, p, e.2)

theorem lockRun_isRun (d total : ℕ) : IsRun d total (lockRun d total) := by
  have hmem : ∀ b p t, (b, p, t) ∈ lockRun d total ↔ b < total ∧ p < (phases d).length ∧ t < tpb d := by
    intro b p t
    simp only [lockRun, List.mem_flatMap, List.mem_range, List.mem_map, Prod.mk.injEq]
    constructor
    · rintro ⟨p', hp', ⟨b', t'⟩, h, rfl, rfl, rfl⟩
      have := List.mem_product.1 h
      simp only [List.mem_range, List.mem_reverse] at this
      exact ⟨this.1, hp', this.2⟩
    · rintro ⟨hb, hp, ht⟩
      exact ⟨p, hp, (b, t), List.mem_product.2 ⟨List.mem_range.2 hb, by simpa using ht⟩, rfl, rfl, rfl⟩
  have hnd : (lockRun d total).Nodup := by
    unfold lockRun
    rw [List.nodup_flatMap]
    refine ⟨fun p _ => ?_, List.nodup_range.imp ?_⟩
    · refine List.Nodup.map ?_ (List.Nodup.product List.nodup_range (List.nodup_reverse.2 List.nodup_range))
      rintro ⟨a, b⟩ ⟨a', b'⟩ h
      simpa using h
    · intro a b hab
      simp only [Function.onFun, List.disjoint_left, List.mem_map, not_exists, not_and]
      rintro _ ⟨x, _, rfl⟩ y _ h
      simp at h
      exact hab h.2.1.symm
  refine ⟨fun b p t => ?_, ?_⟩
  · by_cases h : (b, p, t) ∈ lockRun d total
    · rw [List.count_eq_one_of_mem hnd h, if_pos ((hmem b p t).1 h)]
    · rw [List.count_eq_zero_of_not_mem h, if_neg (mt (hmem b p t).2 h)]
  · unfold lockRun
    rw [List.pairwise_flatMap]
    refine ⟨fun p _ => ?_, List.pairwise_lt_range.imp ?_⟩
    · rw [List.pairwise_map]
      exact List.pairwise_of_forall fun _ _ _ => le_rfl
    · intro p q hpq x hx y hy _
      obtain ⟨_, _, rfl⟩ := List.mem_map.1 hx
      obtain ⟨_, _, rfl⟩ := List.mem_map.1 hy
      exact hpq.le

/-- The hypotheses are met: two shots of a 9 by 12 array, 4 blocks each (three of them partial), 64 threads per
block, 8 phases. -/
example : IsRun 2 (2 * nBlocks ![9, 12]) (lockRun 2 8) ∧
    IsOrder 2 (2 * nBlocks ![9, 12]) (List.range 8 ×ˢ List.range 64) ∧
    (phases 2).length = 8 ∧ ∀ k, (0 : ℤ) < ![9, 12] k := by
  have e : 2 * nBlocks ![9, 12] = 8 := by simp [nBlocks, nb, Fin.prod_univ_two]
  rw [e]
  refine ⟨lockRun_isRun 2 8, fun b t => ?_, ?_, fun k => by fin_cases k <;> simp⟩
  · have hnd := List.Nodup.product (List.nodup_range (n := 8)) (List.nodup_range (n := 64))
    have hm : (b, t) ∈ List.range 8 ×ˢ List.range 64 ↔ b < 8 ∧ t < 8 ^ 2 := by
      simp
    by_cases h : (b, t) ∈ List.range 8 ×ˢ List.range 64
    · rw [List.count_eq_one_of_mem hnd h, if_pos (hm.1 h)]
    · rw [List.count_eq_zero_of_not_mem h, if_neg (mt hm.2 h)]
  · have h := tpb_pow 2
    simp only [phases, h, strides_pow, List.length_cons, List.length_append, List.length_map, List.length_nil]
    norm_num [strides_one, strides_pow]

end Dw.Storage
