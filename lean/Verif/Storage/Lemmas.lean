import Mathlib.Tactic.Linarith
import Mathlib.Tactic.Ring
import Mathlib.Tactic.FieldSimp
import Mathlib.Tactic.Positivity
import Mathlib.Tactic.NormNum
import Mathlib.Algebra.Order.Field.Basic
import Mathlib.Algebra.Order.BigOperators.Ring.Finset
import Verif.Storage.Model

/-!
# Lemmas on storage and compression
-/

namespace Dw.Storage

open Classical
open Setup (rowMajor InShape rowMajor_bound rowMajor_inj)

variable {d : ℕ} {R : Type*}

theorem applyWrites_cons (m : Mem R) (w : ℕ × Frag R) (ws : List (ℕ × Frag R)) :
    applyWrites m (w :: ws) = applyWrites (Function.update m w.1 w.2) ws := rfl

theorem applyWrites_of_not_mem {m : Mem R} {ws : List (ℕ × Frag R)} {a : ℕ}
    (h : ∀ w ∈ ws, w.1 ≠ a) : applyWrites m ws a = m a := by
  induction ws generalizing m with
  | nil => rfl
  | cons w ws ih =>
      rw [applyWrites_cons, ih fun w' hw' => h w' (List.mem_cons_of_mem _ hw'),
        Function.update_of_ne (h w List.mem_cons_self).symm]

theorem applyWrites_of_mem {m : Mem R} {ws : List (ℕ × Frag R)} {a : ℕ} {x : Frag R}
    (h : ∃ w ∈ ws, w.1 = a) (hx : ∀ w ∈ ws, w.1 = a → w.2 = x) : applyWrites m ws a = x := by
  induction ws generalizing m with
  | nil => simp at h
  | cons w ws ih =>
      rw [applyWrites_cons]
      by_cases h' : ∃ w ∈ ws, w.1 = a
      · exact ih h' fun w' hw' => hx w' (List.mem_cons_of_mem _ hw')
      · push Not at h'
        rw [applyWrites_of_not_mem h']
        obtain ⟨w', hw', e⟩ := h
        rcases List.mem_cons.1 hw' with rfl | hw'
        · rw [e, Function.update_self]
          exact hx _ List.mem_cons_self e
        · exact absurd e (h' w' hw')

theorem applyWrites_congr {m m' : Mem R} {a : ℕ} (h : m a = m' a) (ws : List (ℕ × Frag R)) :
    applyWrites m ws a = applyWrites m' ws a := by
  induction ws generalizing m m' with
  | nil => exact h
  | cons w ws ih =>
      rw [applyWrites_cons, applyWrites_cons]
      refine ih ?_
      by_cases e : a = w.1
      · subst e; simp
      · rw [Function.update_of_ne e, Function.update_of_ne e, h]

theorem mem_valWrites {sz off : ℕ} {x : R} {w : ℕ × Frag R} :
    w ∈ valWrites sz off x ↔ ∃ k < sz, w = (off + k, .part x k) := by
  unfold valWrites
  simp only [List.mem_map, List.mem_range]
  constructor
  · rintro ⟨k, hk, rfl⟩; exact ⟨k, hk, rfl⟩
  · rintro ⟨k, hk, rfl⟩; exact ⟨k, hk, rfl⟩

theorem readVal_of {junk x : R} {sz off : ℕ} {m : Mem R} (hsz : 0 < sz)
    (h : ∀ k < sz, m (off + k) = .part x k) : readVal junk sz m off = x := by
  unfold readVal
  have h0 := h 0 hsz
  rw [Nat.add_zero] at h0
  rw [h0]
  simp only
  rw [if_pos h]

theorem readVal_congr {junk : R} {sz off off' : ℕ} {m m' : Mem R} (hsz : 0 < sz)
    (h : ∀ k < sz, m (off + k) = m' (off' + k)) : readVal junk sz m off = readVal junk sz m' off' := by
  unfold readVal
  have h0 := h 0 hsz
  simp only [Nat.add_zero] at h0
  rw [h0]
  cases m' off' with
  | part x k =>
      simp only
      congr 1
      refine propext ⟨fun g k hk => ?_, fun g k hk => ?_⟩
      · rw [← h k hk]; exact g k hk
      · rw [h k hk]; exact g k hk
  | u8 q => rfl
  | undef => rfl

theorem slot_unique {sz a a' j j' : ℕ} (hj : j < sz) (hj' : j' < sz) (h : a * sz + j = a' * sz + j') :
    a = a' ∧ j = j' := by
  have h1 : (a * sz + j) / sz = a := by
    rw [Nat.mul_comm, Nat.mul_add_div (by omega), Nat.div_eq_of_lt hj]; omega
  have h2 : (a' * sz + j') / sz = a' := by
    rw [Nat.mul_comm, Nat.mul_add_div (by omega), Nat.div_eq_of_lt hj']; omega
  have e : a = a' := by rw [← h1, ← h2, h]
  subst e
  exact ⟨rfl, by omega⟩

theorem idx_lt {n : Fin d → ℤ} {c : Cell d} (h : InShape n c) : idx n c < (∏ k, n k).toNat := by
  have := rowMajor_bound h
  unfold idx
  omega

theorem idx_inj {n : Fin d → ℤ} {c c' : Cell d} (h : InShape n c) (h' : InShape n c')
    (e : idx n c = idx n c') : c = c' := by
  have h1 := rowMajor_bound h
  have h2 := rowMajor_bound h'
  unfold idx at e
  exact rowMajor_inj h h' (by omega)

theorem mem_blocks {n : Fin d → ℤ} {b : Cell d} : b ∈ blocks n ↔ InShape (nb n) b := by
  unfold blocks InShape
  rw [mem_nest]
  simp only [mem_intRange]

theorem mem_cellsOf {n : Fin d → ℤ} {b c : Cell d} :
    c ∈ cellsOf n b ↔ ∀ k, b k * 8 ≤ c k ∧ c k < b k * 8 + 8 ∧ c k < n k := by
  unfold cellsOf
  rw [mem_nest]
  simp only [mem_intRange]
  refine forall_congr' fun k => ?_
  by_cases h : b k * 8 + 8 < n k
  · rw [if_pos h]; omega
  · rw [if_neg h]; omega

/-- The block of a cell. -/
def blockOf (c : Cell d) : Cell d := fun k => c k / 8

theorem mem_cellsOf_inShape {n : Fin d → ℤ} {b c : Cell d} (hb : InShape (nb n) b)
    (h : c ∈ cellsOf n b) : InShape n c ∧ b = blockOf c := by
  rw [mem_cellsOf] at h
  refine ⟨fun k => ?_, funext fun k => ?_⟩
  · have := h k; have := (hb k).1; omega
  · have := h k; unfold blockOf; omega

theorem blockOf_spec {n : Fin d → ℤ} {c : Cell d} (h : InShape n c) :
    InShape (nb n) (blockOf c) ∧ c ∈ cellsOf n (blockOf c) := by
  refine ⟨fun k => ?_, mem_cellsOf.2 fun k => ?_⟩
  · have := h k
    simp only [nb, blockOf]
    omega
  · have := h k
    simp only [blockOf]
    omega

section comp
variable [Field R] [LinearOrder R] [FloorRing R]

/-- Bytes `f` are an uncompressed array of the values `vals`. -/
def IsRaw (n : Fin d → ℤ) (sz : ℕ) (vals : Cell d → R) (f : ℕ → Frag R) : Prop :=
  ∀ c, InShape n c → ∀ j < sz, f (idx n c * sz + j) = .part (vals c) j

/-- Bytes `f` are a compressed array of the values `vals`. -/
def IsComp (n : Fin d → ℤ) (sz : ℕ) (vals : Cell d → R) (f : ℕ → Frag R) : Prop :=
  (∀ b, InShape (nb n) b → ∀ j < sz, f (idx (nb n) b * sz + j) = .part (maxAbs n vals b) j) ∧
  ∀ c, InShape n c → f (nBlocks n * sz + idx n c) =
    quant (vals c) (cScale (maxAbs n vals (blockOf c)))

omit [FloorRing R] in
theorem maxAbs_congr {n : Fin d → ℤ} {u v : Cell d → R} (h : ∀ c, InShape n c → u c = v c)
    {b : Cell d} (hb : InShape (nb n) b) : maxAbs n u b = maxAbs n v b := by
  unfold maxAbs
  have : ∀ c ∈ cellsOf n b, u c = v c := fun c hc => h c (mem_cellsOf_inShape hb hc).1
  generalize (0 : R) = x
  revert this x
  generalize cellsOf n b = l
  intro hl
  induction l with
  | nil => intro x; rfl
  | cons c l ih =>
      intro x
      simp only [List.foldl_cons]
      rw [hl c List.mem_cons_self]
      exact ih (fun c hc => hl c (List.mem_cons_of_mem _ hc)) _

theorem isComp_congr {n : Fin d → ℤ} {sz : ℕ} {u v : Cell d → R} {f : ℕ → Frag R}
    (h : ∀ c, InShape n c → u c = v c) (hf : IsComp n sz u f) : IsComp n sz v f := by
  refine ⟨fun b hb j hj => ?_, fun c hc => ?_⟩
  · rw [hf.1 b hb j hj, maxAbs_congr h hb]
  · rw [hf.2 c hc, h c hc, maxAbs_congr h (blockOf_spec hc).1]

theorem mem_compressWrites {sz : ℕ} {n : Fin d → ℤ} {inp : Cell d → R} {off : ℕ} {w : ℕ × Frag R} :
    w ∈ compressWrites sz n inp off ↔
      (∃ b, InShape (nb n) b ∧ ∃ j < sz, w = (off + (idx (nb n) b * sz + j), .part (maxAbs n inp b) j)) ∨
      ∃ c, InShape n c ∧ w = (off + (nBlocks n * sz + idx n c),
        quant (inp c) (cScale (maxAbs n inp (blockOf c)))) := by
  unfold compressWrites
  simp only [List.mem_flatMap, List.mem_append, mem_valWrites, List.mem_map, mem_blocks]
  constructor
  · rintro ⟨b, hb, ⟨j, hj, rfl⟩ | ⟨c, hc, rfl⟩⟩
    · exact .inl ⟨b, hb, j, hj, by rw [add_assoc]⟩
    · obtain ⟨h1, rfl⟩ := mem_cellsOf_inShape hb hc
      exact .inr ⟨c, h1, by rw [add_assoc]⟩
  · rintro (⟨b, hb, j, hj, rfl⟩ | ⟨c, hc, rfl⟩)
    · exact ⟨b, hb, .inl ⟨j, hj, by rw [add_assoc]⟩⟩
    · exact ⟨blockOf c, (blockOf_spec hc).1, .inr ⟨c, (blockOf_spec hc).2, by rw [add_assoc]⟩⟩

theorem block_byte_lt {n : Fin d → ℤ} {b : Cell d} (hb : InShape (nb n) b) {sz j : ℕ} (hj : j < sz) :
    idx (nb n) b * sz + j < nBlocks n * sz := by
  have h1 : idx (nb n) b + 1 ≤ nBlocks n := idx_lt hb
  have h2 := Nat.mul_le_mul_right sz h1
  rw [Nat.add_mul] at h2
  omega

theorem compressWrites_bound {sz : ℕ} {n : Fin d → ℤ} {inp : Cell d → R} {off : ℕ} {w : ℕ × Frag R}
    (h : w ∈ compressWrites sz n inp off) :
    off ≤ w.1 ∧ w.1 < off + (nBlocks n * sz + (∏ k, n k).toNat) := by
  rcases mem_compressWrites.1 h with ⟨b, hb, j, hj, rfl⟩ | ⟨c, hc, rfl⟩
  · have := block_byte_lt hb hj
    simp only; omega
  · have := idx_lt hc
    simp only; omega

theorem compress_isComp {sz : ℕ} {n : Fin d → ℤ} (inp : Cell d → R) (off : ℕ) (m : Mem R) :
    IsComp n sz inp fun j => applyWrites m (compressWrites sz n inp off) (off + j) := by
  refine ⟨fun b hb j hj => ?_, fun c hc => ?_⟩
  · refine applyWrites_of_mem ⟨_, mem_compressWrites.2 (.inl ⟨b, hb, j, hj, rfl⟩), rfl⟩ ?_
    intro w hw e
    rcases mem_compressWrites.1 hw with ⟨b', hb', j', hj', rfl⟩ | ⟨c, hc, rfl⟩
    · obtain ⟨e1, rfl⟩ := slot_unique hj' hj (Nat.add_left_cancel e)
      rw [idx_inj hb' hb e1]
    · have := block_byte_lt hb hj
      simp only at e; omega
  · refine applyWrites_of_mem ⟨_, mem_compressWrites.2 (.inr ⟨c, hc, rfl⟩), rfl⟩ ?_
    intro w hw e
    rcases mem_compressWrites.1 hw with ⟨b', hb', j', hj', rfl⟩ | ⟨c', hc', rfl⟩
    · have := block_byte_lt hb' hj'
      simp only at e; omega
    · have : idx n c' = idx n c := by simp only at e; omega
      rw [idx_inj hc' hc this]

variable [IsStrictOrderedRing R]

/-- Value restored from a quantised one. -/
def restore (junkQ : ℕ) (v m : R) : R :=
  (((quant v (cScale m)).asU8 junkQ : R) - 128) * (m / 127)

omit [FloorRing R] in
theorem dwAbs_eq (v : R) : dwAbs v = |v| := by
  unfold dwAbs
  split_ifs with h
  · rw [abs_of_nonneg h]
  · rw [abs_of_neg (not_le.1 h)]

omit [FloorRing R] [IsStrictOrderedRing R] in
theorem foldl_maxAbs (l : List (Cell d)) (inp : Cell d → R) (x : R) :
    x ≤ l.foldl (fun m c => if m < dwAbs (inp c) then dwAbs (inp c) else m) x ∧
    (∀ c ∈ l, dwAbs (inp c) ≤ l.foldl (fun m c => if m < dwAbs (inp c) then dwAbs (inp c) else m) x) ∧
    (l.foldl (fun m c => if m < dwAbs (inp c) then dwAbs (inp c) else m) x = x ∨
      ∃ c ∈ l, l.foldl (fun m c => if m < dwAbs (inp c) then dwAbs (inp c) else m) x = dwAbs (inp c)) := by
  induction l generalizing x with
  | nil => simp
  | cons a l ih =>
      simp only [List.foldl_cons, List.mem_cons, forall_eq_or_imp, exists_eq_or_imp]
      obtain ⟨h1, h2, h3⟩ := ih (if x < dwAbs (inp a) then dwAbs (inp a) else x)
      by_cases h : x < dwAbs (inp a)
      · rw [if_pos h] at h1 h2 h3 ⊢
        exact ⟨h.le.trans h1, ⟨h1, h2⟩, .inr h3⟩
      · rw [if_neg h] at h1 h2 h3 ⊢
        refine ⟨h1, ⟨(not_lt.1 h).trans h1, h2⟩, ?_⟩
        rcases h3 with h3 | h3
        · exact .inl h3
        · exact .inr (.inr h3)

omit [FloorRing R] in
/-- The block maximum is the largest magnitude in the block. -/
theorem maxAbs_spec {n : Fin d → ℤ} (inp : Cell d → R) {c : Cell d} (h : InShape n c) :
    |inp c| ≤ maxAbs n inp (blockOf c) ∧
    ∃ c', InShape n c' ∧ blockOf c' = blockOf c ∧ maxAbs n inp (blockOf c) = |inp c'| := by
  obtain ⟨hb, hc⟩ := blockOf_spec h
  obtain ⟨h1, h2, h3⟩ := foldl_maxAbs (cellsOf n (blockOf c)) inp 0
  refine ⟨?_, ?_⟩
  · rw [← dwAbs_eq]; exact h2 c hc
  · rcases h3 with h3 | ⟨c', hc', h3⟩
    · refine ⟨c, h, rfl, ?_⟩
      have := h2 c hc
      rw [h3, dwAbs_eq] at this
      have := abs_nonneg (inp c)
      unfold maxAbs
      rw [h3]
      linarith
    · obtain ⟨h4, h5⟩ := mem_cellsOf_inShape hb hc'
      exact ⟨c', h4, h5.symm, by rw [← dwAbs_eq]; exact h3⟩

theorem quant_eq {v m : R} (hv : |v| ≤ m) :
    quant v (cScale m) = .u8 ⌊128 + v * cScale m + 1 / 2⌋.toNat ∧
      0 ≤ ⌊128 + v * cScale m + 1 / 2⌋ ∧ ⌊128 + v * cScale m + 1 / 2⌋ < 256 ∧ |v * cScale m| ≤ 127 := by
  have hb : |v * cScale m| ≤ 127 := by
    unfold cScale
    split_ifs with h
    · rw [abs_mul, abs_div, abs_of_pos h, abs_of_nonneg (by norm_num : (0 : R) ≤ 127)]
      rw [← mul_div_assoc, div_le_iff₀ h]
      nlinarith
    · simp
  obtain ⟨h1, h2⟩ := abs_le.1 hb
  refine ⟨?_, ?_, ?_, hb⟩
  · unfold quant toU8
    rw [if_pos ⟨by linarith, by linarith⟩]
  · refine Int.floor_nonneg.2 (by linarith)
  · refine Int.floor_lt.2 (by push_cast; linarith)

/-- The restored value is within 1/254 of the block maximum of the stored value. -/
theorem restore_error {junkQ : ℕ} {v m : R} (hv : |v| ≤ m) : |restore junkQ v m - v| ≤ m / 254 := by
  obtain ⟨h1, h2, h3, h4⟩ := quant_eq hv
  have hm : 0 ≤ m := (abs_nonneg v).trans hv
  unfold restore
  rw [h1, Frag.asU8]
  have hq : (((⌊128 + v * cScale m + 1 / 2⌋.toNat : ℕ) : R)) = ((⌊128 + v * cScale m + 1 / 2⌋ : ℤ) : R) := by
    rw [← Int.cast_natCast, Int.toNat_of_nonneg h2]
  rw [hq]
  have h5 := Int.floor_le (128 + v * cScale m + 1 / 2)
  have h6 := Int.lt_floor_add_one (128 + v * cScale m + 1 / 2)
  rcases hm.eq_or_lt with rfl | hm
  · have : v = 0 := abs_eq_zero.1 (le_antisymm hv (abs_nonneg v))
    subst this
    simp
  · have hs : v * cScale m = v * 127 / m := by
      unfold cScale
      rw [if_pos hm, mul_div_assoc]
    generalize ((⌊128 + v * cScale m + 1 / 2⌋ : ℤ) : R) = q at *
    have e : (q - 128) * (m / 127) - v = (q - 128 - v * cScale m) * (m / 127) := by
      rw [hs]; field_simp
    rw [e, abs_mul, abs_of_pos (by positivity : 0 < m / 127)]
    have : |q - 128 - v * cScale m| ≤ 1 / 2 := abs_le.2 ⟨by linarith, by linarith⟩
    calc |q - 128 - v * cScale m| * (m / 127) ≤ 1 / 2 * (m / 127) :=
          mul_le_mul_of_nonneg_right this (by positivity)
      _ = m / 254 := by field_simp; norm_num

/-- Zero is restored exactly. -/
theorem restore_zero {junkQ : ℕ} {m : R} (hm : 0 ≤ m) : restore junkQ 0 m = 0 := by
  have h := (quant_eq (v := 0) (m := m) (by simpa using hm)).1
  have e : ⌊(128 + 0 * cScale m + 1 / 2 : R)⌋ = 128 := by
    rw [Int.floor_eq_iff]
    constructor <;> norm_num
  unfold restore
  rw [h, e, Frag.asU8]
  have : ((Int.toNat 128 : ℕ) : R) = 128 := by norm_num [show Int.toNat 128 = 128 from rfl]
  simp only [this, sub_self, zero_mul]

omit [IsStrictOrderedRing R] in
theorem mem_decompressWrites {junk : R} {junkQ sz : ℕ} (hsz : 0 < sz) {n : Fin d → ℤ} {m2 : Mem R}
    {off2 off1 : ℕ} {vals : Cell d → R} (hc : IsComp n sz vals fun j => m2 (off2 + j))
    {w : ℕ × Frag R} : w ∈ decompressWrites junk junkQ sz n m2 off2 off1 ↔
      ∃ c, InShape n c ∧ ∃ j < sz, w = (off1 + (idx n c * sz + j),
        .part (restore junkQ (vals c) (maxAbs n vals (blockOf c))) j) := by
  have hval : ∀ b, InShape (nb n) b → readVal junk sz m2 (off2 + idx (nb n) b * sz) = maxAbs n vals b :=
    fun b hb => readVal_of hsz fun k hk => by rw [add_assoc]; exact hc.1 b hb k hk
  have hq : ∀ c, InShape n c → (((readU8 junkQ m2 (off2 + nBlocks n * sz + idx n c) : ℕ) : R) - 128) *
      (maxAbs n vals (blockOf c) / 127) = restore junkQ (vals c) (maxAbs n vals (blockOf c)) := by
    intro c h
    unfold readU8 restore
    have e : m2 (off2 + (nBlocks n * sz + idx n c)) = _ := hc.2 c h
    rw [add_assoc, e]
  unfold decompressWrites
  simp only [List.mem_flatMap, mem_valWrites, mem_blocks]
  constructor
  · rintro ⟨b, hb, c, hcb, j, hj, rfl⟩
    obtain ⟨h1, rfl⟩ := mem_cellsOf_inShape hb hcb
    exact ⟨c, h1, j, hj, by rw [hval _ hb, hq c h1, add_assoc]⟩
  · rintro ⟨c, hcs, j, hj, rfl⟩
    obtain ⟨h1, h2⟩ := blockOf_spec hcs
    exact ⟨_, h1, c, h2, j, hj, by rw [hval _ h1, hq c hcs, add_assoc]⟩

omit [IsStrictOrderedRing R] in
theorem decompress_isRaw {junk : R} {junkQ sz : ℕ} (hsz : 0 < sz) {n : Fin d → ℤ} {m2 : Mem R}
    {off2 off1 : ℕ} {vals : Cell d → R} (hc : IsComp n sz vals fun j => m2 (off2 + j)) (m1 : Mem R) :
    IsRaw n sz (fun c => restore junkQ (vals c) (maxAbs n vals (blockOf c)))
      fun j => applyWrites m1 (decompressWrites junk junkQ sz n m2 off2 off1) (off1 + j) := by
  intro c h j hj
  refine applyWrites_of_mem ⟨_, (mem_decompressWrites hsz hc).2 ⟨c, h, j, hj, rfl⟩, rfl⟩ ?_
  intro w hw e
  obtain ⟨c', h', j', hj', rfl⟩ := (mem_decompressWrites hsz hc).1 hw
  obtain ⟨e1, rfl⟩ := slot_unique hj' hj (Nat.add_left_cancel e)
  rw [idx_inj h' h e1]

omit [IsStrictOrderedRing R] [LinearOrder R] [FloorRing R] in
theorem decompressWrites_bound {junk : R} {junkQ sz : ℕ} {n : Fin d → ℤ} {m2 : Mem R}
    {off2 off1 : ℕ} {w : ℕ × Frag R} (h : w ∈ decompressWrites junk junkQ sz n m2 off2 off1) :
    ∃ j < (∏ k, n k).toNat * sz, w.1 = off1 + j := by
  unfold decompressWrites at h
  simp only [List.mem_flatMap, mem_valWrites, mem_blocks] at h
  obtain ⟨b, hb, c, hcb, j, hj, rfl⟩ := h
  refine ⟨idx n c * sz + j, ?_, by simp only; omega⟩
  have h1 : idx n c + 1 ≤ _ := idx_lt (mem_cellsOf_inShape hb hcb).1
  have h2 := Nat.mul_le_mul_right sz h1
  rw [Nat.add_mul] at h2
  omega

omit [IsStrictOrderedRing R] [LinearOrder R] [FloorRing R] in
theorem decompressWrites_congr {junk : R} {junkQ sz : ℕ} (hsz : 0 < sz) {n : Fin d → ℤ} {m m' : Mem R}
    {off2 off1 : ℕ} (h : ∀ j < nBlocks n * sz + (∏ k, n k).toNat, m (off2 + j) = m' (off2 + j)) :
    decompressWrites junk junkQ sz n m off2 off1 = decompressWrites junk junkQ sz n m' off2 off1 := by
  unfold decompressWrites
  refine List.flatMap_congr fun b hb => ?_
  have hb := mem_blocks.1 hb
  have e : readVal junk sz m (off2 + idx (nb n) b * sz) = readVal junk sz m' (off2 + idx (nb n) b * sz) :=
    readVal_congr hsz fun k hk => by
      have := block_byte_lt hb hk
      rw [add_assoc, h _ (by omega)]
  rw [e]
  refine List.flatMap_congr fun c hc => ?_
  have := idx_lt (mem_cellsOf_inShape hb hc).1
  unfold readU8
  rw [add_assoc, h _ (by omega)]

end comp

end Dw.Storage
