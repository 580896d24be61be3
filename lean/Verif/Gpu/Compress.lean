import Verif.Storage.Exec

/-!
# Compression kernels on the GPU

Models `compress_kernel`, `decompress_kernel` and their launches (`simple_compress.cu`), with the byte
memory of `Verif/Storage/Model.lean`.  A thread block has `8 ^ d` threads, one per cell of an 8-per-dimension block
of one shot.  Between two `__syncthreads` the threads of a block run in any order, and different
blocks are interleaved in any way; what a thread does between two barriers is one atomic step (the only
memory written by one thread and read by others is `s_max_abs`, and no thread writes what another
one accesses between the same barriers: `reduce_no_race`).
-/

namespace Dw.Storage

open Classical
open Setup (rowMajor InShape rowMajor_bound rowMajor_inj)

/-- Indices from a flat index: `x = i % nx; tmp = i / nx; y = tmp % ny; z = tmp / ny`
(`simple_compress.cu` 40-46, 49-56, 142-157).  The code has no final modulus for `z`; the indices there are
less than the product of the sizes, so that it would change nothing. -/
def unravel : {d : ℕ} → (Fin d → ℤ) → ℤ → Fin d → ℤ
  | 0, _, _ => fun k => k.elim0
  | d + 1, n, i => Fin.snoc (α := fun _ => ℤ) (unravel (fun k : Fin d => n k.castSucc) (i / n (Fin.last d)))
      (i % n (Fin.last d))

/-- `THREADS_PER_BLOCK` (`simple_compress.cu` 7-14). -/
def tpb (d : ℕ) : ℕ := 8 ^ d

/-- `batch_idx` and the block of a thread block (`simple_compress.cu` 36-46). -/
def blkShot {d : ℕ} (n : Fin d → ℤ) (blk : ℕ) : ℕ := blk / nBlocks n

def blkCell {d : ℕ} (n : Fin d → ℤ) (blk : ℕ) : Cell d := unravel (nb n) ((blk % nBlocks n : ℕ) : ℤ)

/-- Cell of a thread (`simple_compress.cu` 48-64): `x = bx * BLOCK_SIZE + tx`, … -/
def thrCell {d : ℕ} (n : Fin d → ℤ) (blk tid : ℕ) : Cell d := fun k =>
  blkCell n blk k * 8 + unravel (fun _ => 8) (tid : ℤ) k

/-- `in_bounds` (`simple_compress.cu` 67-74). -/
def thrIn {d : ℕ} (n : Fin d → ℤ) (blk tid : ℕ) : Prop := ∀ k, thrCell n blk tid k < n k

/-- `idx` (`simple_compress.cu` 78-92, 196-207), the index of the element in the arrays of all shots. -/
def thrIdx {d : ℕ} (n : Fin d → ℤ) (blk tid : ℕ) : ℕ :=
  blkShot n blk * (∏ k, n k).toNat + idx n (thrCell n blk tid)

/-- Values of `s` in the reduction loop `for (s = THREADS_PER_BLOCK / 2; s > 0; s >>= 1)`
(`simple_compress.cu` 105). -/
def strides (t : ℕ) : List ℕ := if h : t / 2 = 0 then [] else t / 2 :: strides (t / 2)
termination_by t
decreasing_by omega

/-- The parts of `compress_kernel` between barriers. -/
inductive Phase
  /-- magnitude to shared memory (97-102) -/
  | load
  /-- one iteration of the reduction loop (105-112) -/
  | reduce (s : ℕ)
  /-- maximum and quantised value to global memory (114-130) -/
  | store

/-- All phases in program order. -/
def phases (d : ℕ) : List Phase := .load :: ((strides (tpb d)).map .reduce ++ [.store])

/-- Shared memory `s_max_abs` of each block and global memory. -/
structure GMem (R : Type*) where
  sh : ℕ → ℕ → R
  out : Mem R

section kernel
variable {d : ℕ} {R : Type*} [Field R] [LinearOrder R]

/-- `val` (`simple_compress.cu` 66, 93); `inp` are the elements of the input array. -/
noncomputable def thrVal (n : Fin d → ℤ) (inp : ℕ → R) (blk tid : ℕ) : R :=
  if thrIn n blk tid then inp (thrIdx n blk tid) else 0

/-- The effect of one thread in a phase on the shared memory of its block. -/
noncomputable def shStep (n : Fin d → ℤ) (inp : ℕ → R) (blk : ℕ) (p : Phase) (tid : ℕ) (f : ℕ → R) : ℕ → R :=
  match p with
  | .load => Function.update f tid (dwAbs (thrVal n inp blk tid))
  | .reduce s => if tid < s then if f tid < f (tid + s) then Function.update f tid (f (tid + s)) else f else f
  | .store => f

variable [FloorRing R]

/-- Global stores of a thread (`simple_compress.cu` 116-130), `total` is `gridDim.x`. -/
noncomputable def outWrites (sz : ℕ) (n : Fin d → ℤ) (inp : ℕ → R) (off total blk : ℕ) (p : Phase) (tid : ℕ)
    (f : ℕ → R) : List (ℕ × Frag R) :=
  match p with
  | .store =>
    (if tid = 0 then valWrites sz (off + blk * sz) (f 0) else []) ++
      if thrIn n blk tid then [(off + total * sz + thrIdx n blk tid, quant (thrVal n inp blk tid) (cScale (f 0)))]
      else []
  | _ => []

/-- One step of the execution: thread block, phase, thread. -/
noncomputable def gStep (sz : ℕ) (n : Fin d → ℤ) (inp : ℕ → R) (off total : ℕ) (m : GMem R) (e : ℕ × ℕ × ℕ) :
    GMem R :=
  match (phases d)[e.2.1]? with
  | some p => { sh := Function.update m.sh e.1 (shStep n inp e.1 p e.2.2 (m.sh e.1))
                out := applyWrites m.out (outWrites sz n inp off total e.1 p e.2.2 (m.sh e.1)) }
  | none => m

/-- `total_blocks` (`simple_compress.cu` 241-242). -/
def totalBlocks (n : Fin d → ℤ) (nShots : ℕ) : ℕ := nShots * nBlocks n

/-- `es` is an execution of `compress_kernel`: every thread runs every phase once, and no thread begins a
phase before the threads of its block have ended the ones before. -/
structure IsRun (d total : ℕ) (es : List (ℕ × ℕ × ℕ)) : Prop where
  once : ∀ b p t, es.count (b, p, t) = if b < total ∧ p < (phases d).length ∧ t < tpb d then 1 else 0
  barrier : es.Pairwise fun e e' => e.1 = e'.1 → e.2.1 ≤ e'.2.1

/-- `compress_cuda` (`simple_compress.cu` 218-265), executed in the order `es`; the shared memory is
uninitialised. -/
noncomputable def gCompress (junk : R) (sz : ℕ) (n : Fin d → ℤ) (nShots : ℕ) (es : List (ℕ × ℕ × ℕ)) (sh₀ : ℕ → ℕ → R)
    (m1 : Mem R) (off1 : ℕ) (m2 : Mem R) (off2 : ℕ) : Mem R :=
  (es.foldl (gStep sz n (fun i => readVal junk sz m1 (off1 + i * sz)) off2 (totalBlocks n nShots))
    ⟨sh₀, m2⟩).out

/-- Stores of a thread of `decompress_kernel` (`simple_compress.cu` 176-211). -/
noncomputable def decThread (junk : R) (junkQ sz : ℕ) (n : Fin d → ℤ) (total : ℕ) (m2 : Mem R) (off2 off1 : ℕ)
    (e : ℕ × ℕ) : List (ℕ × Frag R) :=
  if thrIn n e.1 e.2 then
    let scale := readVal junk sz m2 (off2 + e.1 * sz) / 127
    valWrites sz (off1 + thrIdx n e.1 e.2 * sz)
      (((readU8 junkQ m2 (off2 + total * sz + thrIdx n e.1 e.2) : R) - 128) * scale)
  else []

/-- `decompress_cuda` (`simple_compress.cu` 267-309) with the threads in the order `es`. -/
noncomputable def gDecompress (junk : R) (junkQ sz : ℕ) (n : Fin d → ℤ) (nShots : ℕ) (es : List (ℕ × ℕ))
    (m2 : Mem R) (off2 : ℕ) (m1 : Mem R) (off1 : ℕ) : Mem R :=
  es.foldl (fun m e => applyWrites m (decThread junk junkQ sz n (totalBlocks n nShots) m2 off2 off1 e)) m1

end kernel

/-! ### Indices -/

theorem unravel_spec : ∀ {d : ℕ} {n : Fin d → ℤ} {i : ℤ}, (∀ k, 0 < n k) → 0 ≤ i → i < ∏ k, n k →
    InShape n (unravel n i) ∧ rowMajor n (unravel n i) = i
  | 0, n, i, _, h0, h1 => by
      simp at h1
      exact ⟨fun k => k.elim0, by simp [rowMajor]; omega⟩
  | d + 1, n, i, hn, h0, h1 => by
      have hl := hn (Fin.last d)
      rw [Fin.prod_univ_castSucc] at h1
      obtain ⟨h2, h3⟩ := unravel_spec (n := fun k : Fin d => n k.castSucc) (i := i / n (Fin.last d))
        (fun k => hn _) (Int.ediv_nonneg h0 hl.le) (Int.ediv_lt_of_lt_mul hl h1)
      constructor
      · intro k
        refine Fin.lastCases ?_ (fun j => ?_) k
        · simp only [unravel, Fin.snoc_last]
          exact ⟨Int.emod_nonneg _ hl.ne', Int.emod_lt_of_pos _ hl⟩
        · simp only [unravel, Fin.snoc_castSucc]
          exact h2 j
      · simp only [rowMajor, unravel, Fin.snoc_last, Fin.snoc_castSucc, h3]
        rw [mul_comm]
        exact Int.mul_ediv_add_emod i _

theorem unravel_rowMajor {d : ℕ} {n : Fin d → ℤ} {c : Cell d} (h : InShape n c) :
    unravel n (rowMajor n c) = c := by
  have hb := rowMajor_bound h
  obtain ⟨h1, h2⟩ := unravel_spec (n := n) (fun k => by have := h k; omega) hb.1 hb.2
  exact rowMajor_inj h1 h h2

section indices
variable {d : ℕ} {n : Fin d → ℤ}

theorem nb_pos (hn : ∀ k, 0 < n k) (k : Fin d) : 0 < nb n k := by
  have := hn k; unfold nb; omega

theorem nBlocks_pos (hn : ∀ k, 0 < n k) : 0 < nBlocks n := by
  have : 0 < ∏ k, nb n k := Finset.prod_pos fun k _ => nb_pos hn k
  unfold nBlocks; omega

theorem nBlocks_cast (hn : ∀ k, 0 < n k) : ((nBlocks n : ℕ) : ℤ) = ∏ k, nb n k := by
  have : 0 < ∏ k, nb n k := Finset.prod_pos fun k _ => nb_pos hn k
  unfold nBlocks; omega

theorem blkCell_spec (hn : ∀ k, 0 < n k) (blk : ℕ) :
    InShape (nb n) (blkCell n blk) ∧ blk = blkShot n blk * nBlocks n + idx (nb n) (blkCell n blk) := by
  have hm := Nat.mod_lt blk (nBlocks_pos hn)
  obtain ⟨h1, h2⟩ := unravel_spec (n := nb n) (i := ((blk % nBlocks n : ℕ) : ℤ)) (nb_pos hn) (by omega)
    (by rw [← nBlocks_cast hn]; omega)
  refine ⟨h1, ?_⟩
  unfold idx blkCell blkShot
  rw [h2, Int.toNat_natCast, Nat.mul_comm]
  exact (Nat.div_add_mod blk (nBlocks n)).symm

/-- Thread block of shot `s` and block `b`. -/
theorem blkOf {b : Cell d} (hb : InShape (nb n) b) (s : ℕ) :
    blkShot n (s * nBlocks n + idx (nb n) b) = s ∧ blkCell n (s * nBlocks n + idx (nb n) b) = b := by
  have hl : idx (nb n) b < nBlocks n := idx_lt hb
  have h0 := (rowMajor_bound hb).1
  constructor
  · unfold blkShot
    rw [Nat.add_comm, Nat.add_mul_div_right _ _ (by omega), Nat.div_eq_of_lt hl, Nat.zero_add]
  · unfold blkCell
    rw [Nat.add_comm, Nat.add_mul_mod_self_right, Nat.mod_eq_of_lt hl, idx, Int.toNat_of_nonneg h0,
      unravel_rowMajor hb]

theorem tpb_cast (d : ℕ) : ((tpb d : ℕ) : ℤ) = ∏ _k : Fin d, 8 := by
  simp [tpb]

/-- Threads in bounds are the cells of the block. -/
theorem thrCell_mem {blk tid : ℕ} (ht : tid < tpb d) (h : thrIn n blk tid) :
    thrCell n blk tid ∈ cellsOf n (blkCell n blk) := by
  obtain ⟨h1, -⟩ := unravel_spec (d := d) (n := fun _ => 8) (i := (tid : ℤ)) (by simp) (by omega)
    (by rw [← tpb_cast]; omega)
  rw [mem_cellsOf]
  intro k
  have := h1 k
  have := h k
  simp only [thrCell] at *
  omega

theorem exists_thr {blk : ℕ} {c : Cell d} (h : c ∈ cellsOf n (blkCell n blk)) :
    ∃ tid < tpb d, thrCell n blk tid = c ∧ thrIn n blk tid := by
  rw [mem_cellsOf] at h
  have hs : InShape (fun _ : Fin d => (8 : ℤ)) (fun k => c k - blkCell n blk k * 8) := fun k => by
    have := h k; constructor <;> dsimp only <;> omega
  have hb := rowMajor_bound hs
  refine ⟨(rowMajor (fun _ : Fin d => (8 : ℤ)) fun k => c k - blkCell n blk k * 8).toNat, ?_, ?_⟩
  · have := tpb_cast d; omega
  · have e : thrCell n blk (rowMajor (fun _ : Fin d => (8 : ℤ)) fun k => c k - blkCell n blk k * 8).toNat = c := by
      funext k
      unfold thrCell
      rw [Int.toNat_of_nonneg hb.1, unravel_rowMajor hs]
      ring
    exact ⟨e, fun k => by rw [e]; exact (h k).2.2⟩

end indices

/-! ### Reduction -/

section reduction
variable {R : Type*} [LinearOrder R]

/-- Effect of one iteration of the reduction on all threads. -/
def redMap (s : ℕ) (f : ℕ → R) : ℕ → R := fun t => if t < s then if f t < f (t + s) then f (t + s) else f t else f t

theorem strides_pow (m : ℕ) : strides (2 ^ (m + 1)) = 2 ^ m :: strides (2 ^ m) := by
  have h : 2 ^ (m + 1) / 2 = 2 ^ m := by rw [pow_succ]; omega
  have hp : 2 ^ m ≠ 0 := by positivity
  rw [strides, dif_neg (by omega), h]

theorem strides_one : strides 1 = [] := by rw [strides]; simp

/-- The reduction finds the maximum. -/
theorem reduce_max : ∀ (m : ℕ) (f : ℕ → R),
    (∀ t < 2 ^ m, f t ≤ (strides (2 ^ m)).foldl (fun f s => redMap s f) f 0) ∧
      ∃ t < 2 ^ m, (strides (2 ^ m)).foldl (fun f s => redMap s f) f 0 = f t
  | 0, f => by
      simp only [pow_zero, strides_one, List.foldl_nil]
      exact ⟨fun t ht => by rw [Nat.lt_one_iff.1 ht], 0, by omega, rfl⟩
  | m + 1, f => by
      rw [strides_pow, List.foldl_cons]
      obtain ⟨h1, t, ht, h2⟩ := reduce_max m (redMap (2 ^ m) f)
      have hp : 2 ^ (m + 1) = 2 ^ m + 2 ^ m := by rw [pow_succ]; omega
      constructor
      · intro t ht
        by_cases h : t < 2 ^ m
        · refine le_trans ?_ (h1 t h)
          unfold redMap
          rw [if_pos h]
          split_ifs with h3
          · exact h3.le
          · exact le_rfl
        · refine le_trans ?_ (h1 (t - 2 ^ m) (by omega))
          unfold redMap
          rw [if_pos (by omega), Nat.sub_add_cancel (by omega)]
          split_ifs with h3
          · exact le_rfl
          · exact not_lt.1 h3
      · rw [h2]
        unfold redMap
        rw [if_pos ht]
        split_ifs with h3
        · exact ⟨t + 2 ^ m, by omega, rfl⟩
        · exact ⟨t, by omega, rfl⟩

end reduction

section shared
variable {d : ℕ} {R : Type*} [Field R] [LinearOrder R]

/-- What all threads of a block together do to its shared memory in a phase. -/
noncomputable def phMap (n : Fin d → ℤ) (inp : ℕ → R) (blk : ℕ) (p : Phase) (f : ℕ → R) : ℕ → R :=
  match p with
  | .load => fun t => if t < tpb d then dwAbs (thrVal n inp blk t) else f t
  | .reduce s => redMap s f
  | .store => f

/-- No thread writes an element of the shared memory that another thread accesses in the same iteration of
the reduction: thread `t` accesses `t` and `t + s` and writes `t`. -/
theorem reduce_no_race {s t t' : ℕ} (ht : t < s) (hne : t ≠ t') : t ≠ t' ∧ t ≠ t' + s := by omega

/-- The order of the threads between two barriers does not matter. -/
theorem phase_eq (n : Fin d → ℤ) (inp : ℕ → R) (blk : ℕ) {p : Phase} (hp : ∀ s, p = .reduce s → s ≤ tpb d)
    {l : List ℕ} (hl : l.Nodup) (hm : ∀ t, t ∈ l ↔ t < tpb d) (f : ℕ → R) :
    l.foldl (fun f t => shStep n inp blk p t f) f = phMap n inp blk p f := by
  cases p with
  | load =>
      have key : ∀ (l : List ℕ) (f : ℕ → R), l.foldl (fun f t => shStep n inp blk .load t f) f =
          fun t => if t ∈ l then dwAbs (thrVal n inp blk t) else f t := by
        intro l
        induction l with
        | nil => intro f; simp
        | cons a l ih =>
            intro f
            rw [List.foldl_cons, ih]
            funext t
            simp only [shStep, List.mem_cons]
            by_cases h1 : t ∈ l
            · simp [h1]
            · by_cases h2 : t = a
              · subst h2; simp [h1]
              · simp [h1, h2]
      rw [key]
      simp only [hm, phMap]
  | store =>
      simp only [shStep, phMap]
      induction l with
      | nil => rfl
      | cons a l ih =>
          clear ih
          suffices ∀ l : List ℕ, l.foldl (fun f _ => f) f = f from this _
          intro l
          induction l with
          | nil => rfl
          | cons a l ih => simp [ih]
  | reduce s =>
      have hs := hp s rfl
      have key : ∀ (l : List ℕ) (f g : ℕ → R), l.Nodup → (∀ t ∈ l, g t = f t) → (∀ t, s ≤ t → g t = f t) →
          l.foldl (fun f t => shStep n inp blk (.reduce s) t f) g =
            fun t => if t ∈ l then redMap s f t else g t := by
        intro l
        induction l with
        | nil => intro f g _ _ _; simp
        | cons a l ih =>
            intro f g hn h1 h2
            rw [List.nodup_cons] at hn
            have hst : shStep n inp blk (.reduce s) a g = Function.update g a (redMap s f a) := by
              simp only [shStep, redMap]
              rw [h1 a List.mem_cons_self, h2 (a + s) (by omega)]
              split_ifs
              · rfl
              · rw [← h1 a List.mem_cons_self, Function.update_eq_self]
              · rw [← h1 a List.mem_cons_self, Function.update_eq_self]
            rw [List.foldl_cons, hst, ih f _ hn.2]
            · funext t
              by_cases h3 : t ∈ l
              · simp [h3]
              · by_cases h4 : t = a
                · subst h4; simp [h3]
                · simp [h3, h4]
            · intro t ht
              have hta : t ≠ a := fun e => hn.1 (e ▸ ht)
              rw [Function.update_of_ne hta, h1 t (List.mem_cons_of_mem _ ht)]
            · intro t ht
              by_cases h4 : t = a
              · subst h4
                rw [Function.update_self]
                unfold redMap
                rw [if_neg (by omega)]
              · rw [Function.update_of_ne h4, h2 t ht]
      rw [key l f f hl (fun _ _ => rfl) fun _ _ => rfl]
      funext t
      by_cases h : t < tpb d
      · rw [if_pos ((hm t).2 h)]; rfl
      · rw [if_neg (mt (hm t).1 h)]
        simp only [phMap, redMap]
        rw [if_neg (by omega)]

/-- Shared memory of block `blk` before phase `p`. -/
noncomputable def shAt (n : Fin d → ℤ) (inp : ℕ → R) (blk : ℕ) (f : ℕ → R) (p : ℕ) : ℕ → R :=
  ((phases d).take p).foldl (fun f p => phMap n inp blk p f) f

theorem stride_le {t s : ℕ} (h : s ∈ strides t) : s ≤ t := by
  induction t using Nat.strong_induction_on with
  | _ t ih =>
      rw [strides] at h
      split_ifs at h with h0
      · simp at h
      · rcases List.mem_cons.1 h with rfl | h
        · omega
        · have := ih (t / 2) (by omega) h
          omega

theorem phase_stride {s : ℕ} (h : Phase.reduce s ∈ phases d) : s ≤ tpb d := by
  simp only [phases, List.mem_cons, List.mem_append, List.mem_map, reduceCtorEq, false_or,
    List.not_mem_nil, or_false, Phase.reduce.injEq, exists_eq_right] at h
  exact stride_le h

theorem tpb_pow (d : ℕ) : tpb d = 2 ^ (3 * d) := by
  unfold tpb
  rw [pow_mul]
  norm_num

variable [IsStrictOrderedRing R]

/-- Before the last phase every block has its maximum in element 0. -/
theorem shAt_last {n : Fin d → ℤ} (inp : ℕ → R) (blk : ℕ) (f : ℕ → R) :
    shAt n inp blk f ((phases d).length - 1) 0 =
      maxAbs n (fun c => inp (blkShot n blk * (∏ k, n k).toNat + idx n c)) (blkCell n blk) := by
  have e1 : (phases d).take ((phases d).length - 1) = .load :: (strides (tpb d)).map .reduce := by
    unfold phases
    rw [← List.cons_append]
    simp
  have e2 : ∀ (l : List ℕ) (g : ℕ → R), (l.map Phase.reduce).foldl (fun f p => phMap n inp blk p f) g =
      l.foldl (fun f s => redMap s f) g := by
    intro l
    induction l with
    | nil => intro g; rfl
    | cons a l ih => intro g; simpa [phMap] using ih _
  unfold shAt
  rw [e1, List.foldl_cons, e2]
  set g := phMap n inp blk Phase.load f with hg
  obtain ⟨h1, t, ht, h2⟩ := reduce_max (3 * d) g
  rw [← tpb_pow] at h1 ht h2
  have hgt : ∀ t < tpb d, g t = dwAbs (thrVal n inp blk t) := fun t ht => by
    rw [hg]; simp only [phMap]; rw [if_pos ht]
  obtain ⟨k1, k2, k3⟩ := foldl_maxAbs (cellsOf n (blkCell n blk))
    (fun c => inp (blkShot n blk * (∏ k, n k).toNat + idx n c)) 0
  refine le_antisymm ?_ ?_
  · rw [h2, hgt t ht]
    unfold thrVal
    split_ifs with hin
    · exact k2 _ (thrCell_mem ht hin)
    · rw [dwAbs_eq, abs_zero]; exact k1
  · unfold maxAbs
    rcases k3 with k3 | ⟨c, hc, k3⟩
    · rw [k3]
      refine le_trans ?_ (h1 0 (by unfold tpb; positivity))
      rw [hgt 0 (by unfold tpb; positivity), dwAbs_eq]
      exact abs_nonneg _
    · rw [k3]
      obtain ⟨t', ht', rfl, hin⟩ := exists_thr hc
      refine le_trans (le_of_eq ?_) (h1 t' ht')
      rw [hgt t' ht']
      unfold thrVal
      rw [if_pos hin]
      rfl

end shared

/-! ### Executions -/

section runs
variable {d : ℕ} {R : Type*} [Field R] [LinearOrder R] [FloorRing R]

theorem sorted_split {α : Type*} (key : α → ℕ) (p : ℕ) : ∀ {l : List α}, l.Pairwise (fun a b => key a ≤ key b) →
    l = l.filter (fun a => decide (key a < p)) ++ l.filter (fun a => decide (p ≤ key a))
  | [], _ => rfl
  | a :: l, h => by
      rw [List.pairwise_cons] at h
      have ih := sorted_split key p h.2
      by_cases ha : key a < p
      · rw [List.filter_cons_of_pos (by simpa using ha), List.filter_cons_of_neg (by simpa using ha),
          List.cons_append, ← ih]
      · have hall : ∀ b ∈ l, p ≤ key b := fun b hb => (not_lt.1 ha).trans (h.1 b hb)
        have e1 : l.filter (fun a => decide (key a < p)) = [] := by
          rw [List.filter_eq_nil_iff]
          intro b hb
          have := hall b hb
          simp; omega
        rw [List.filter_cons_of_neg (by simpa using ha), e1, List.nil_append,
          List.filter_cons_of_pos (by simpa using ha)]
        congr 1
        exact (List.filter_eq_self.2 fun b hb => by simpa using hall b hb).symm

/-- The shared memory of a block depends on the steps of its own threads only. -/
theorem sh_own (sz : ℕ) (n : Fin d → ℤ) (inp : ℕ → R) (off total b : ℕ) : ∀ (es : List (ℕ × ℕ × ℕ)) (m : GMem R),
    (es.foldl (gStep sz n inp off total) m).sh b =
      (es.filter (·.1 = b)).foldl (fun f e => match (phases d)[e.2.1]? with
        | some p => shStep n inp b p e.2.2 f
        | none => f) (m.sh b)
  | [], _ => rfl
  | e :: es, m => by
      rw [List.foldl_cons, sh_own sz n inp off total b es]
      by_cases he : e.1 = b
      · subst he
        rw [List.filter_cons_of_pos (by simp), List.foldl_cons]
        congr 1
        unfold gStep
        split <;> simp
      · rw [List.filter_cons_of_neg (by simpa using he)]
        congr 1
        unfold gStep
        split
        · exact congrFun (Function.update_of_ne (Ne.symm he) _ _) |> fun h => funext h
        · rfl

variable {total : ℕ} {es : List (ℕ × ℕ × ℕ)}

theorem IsRun.mem (h : IsRun d total es) {b p t : ℕ} :
    (b, p, t) ∈ es ↔ b < total ∧ p < (phases d).length ∧ t < tpb d := by
  rw [← List.count_pos_iff, h.once]
  split_ifs with h1 <;> simp [h1]

theorem IsRun.nodup (h : IsRun d total es) : es.Nodup := by
  rw [List.nodup_iff_count_le_one]
  rintro ⟨b, p, t⟩
  rw [h.once]
  split_ifs <;> omega

omit [FloorRing R] in
/-- After the phases before `p` the shared memory is as computed phase by phase. -/
theorem IsRun.prefix (h : IsRun d total es) (n : Fin d → ℤ) (inp : ℕ → R) {b : ℕ} (hb : b < total) (f : ℕ → R) :
    ∀ p ≤ (phases d).length,
    ((es.filter (·.1 = b)).filter fun e => decide (e.2.1 < p)).foldl (fun f e => match (phases d)[e.2.1]? with
        | some p => shStep n inp b p e.2.2 f
        | none => f) f = shAt n inp b f p
  | 0, _ => by simp [shAt]
  | p + 1, hp => by
      have ih := h.prefix n inp hb f p (by omega)
      have hsort : ((es.filter (·.1 = b)).filter fun e => decide (e.2.1 < p + 1)).Pairwise
          (fun e e' => e.2.1 ≤ e'.2.1) := by
        refine List.Pairwise.filter _ ?_
        refine (h.barrier.filter _).imp_of_mem ?_
        intro e e' he he' h1
        have h2 : e.1 = b := by simpa using (List.mem_filter.1 he).2
        have h3 : e'.1 = b := by simpa using (List.mem_filter.1 he').2
        exact h1 (h2.trans h3.symm)
      rw [sorted_split (l := (es.filter (·.1 = b)).filter fun e => decide (e.2.1 < p + 1)) (fun e => e.2.1) p hsort,
        List.foldl_append]
      have e1 : ((es.filter (·.1 = b)).filter fun e => decide (e.2.1 < p + 1)).filter
            (fun e => decide (e.2.1 < p)) =
          (es.filter (·.1 = b)).filter fun e => decide (e.2.1 < p) := by
        rw [List.filter_filter]
        refine List.filter_congr fun e _ => ?_
        by_cases h1 : e.2.1 < p <;> simp [h1]
        omega
      have e2 : ((es.filter (·.1 = b)).filter fun e => decide (e.2.1 < p + 1)).filter
            (fun e => decide (p ≤ e.2.1)) =
          (es.filter (·.1 = b)).filter fun e => decide (e.2.1 = p) := by
        rw [List.filter_filter]
        refine List.filter_congr fun e _ => ?_
        rw [Bool.eq_iff_iff]
        simp
        omega
      rw [e1, e2, ih]
      set l := (es.filter (·.1 = b)).filter fun e => decide (e.2.1 = p) with hl
      have hml : ∀ e ∈ l, e.1 = b ∧ e.2.1 = p := by
        intro e he
        rw [hl, List.mem_filter, List.mem_filter] at he
        simpa using And.intro he.1.2 he.2
      have hpl : p < (phases d).length := by omega
      have e3 : ∀ (l : List (ℕ × ℕ × ℕ)) (g : ℕ → R), (∀ e ∈ l, e.1 = b ∧ e.2.1 = p) →
          l.foldl (fun f e => match (phases d)[e.2.1]? with
            | some p => shStep n inp b p e.2.2 f
            | none => f) g = (l.map (·.2.2)).foldl (fun f t => shStep n inp b ((phases d)[p]) t f) g := by
        intro l
        induction l with
        | nil => intro g _; rfl
        | cons e l ih =>
            intro g hh
            have he := hh e List.mem_cons_self
            rw [List.foldl_cons, List.map_cons, List.foldl_cons, ih _ fun e he => hh e (List.mem_cons_of_mem _ he),
              he.2, List.getElem?_eq_getElem hpl]
      rw [e3 l _ hml, phase_eq n inp b (fun s hs => phase_stride (hs ▸ List.getElem_mem hpl))]
      · unfold shAt
        rw [List.take_add_one, List.getElem?_eq_getElem hpl, List.foldl_append]
        rfl
      · refine List.Nodup.map_on ?_ ((h.nodup.filter _).filter _)
        intro e he e' he' hee
        have h1 := hml e he
        have h2 := hml e' he'
        obtain ⟨a1, a2, a3⟩ := e
        obtain ⟨c1, c2, c3⟩ := e'
        simp only at h1 h2 hee
        rw [h1.1, h1.2, h2.1, h2.2, hee]
      · intro t
        simp only [List.mem_map]
        constructor
        · rintro ⟨⟨a1, a2, a3⟩, he, rfl⟩
          rw [hl, List.mem_filter, List.mem_filter] at he
          exact (h.mem.1 he.1.1).2.2
        · intro ht
          refine ⟨(b, p, t), ?_, rfl⟩
          rw [hl, List.mem_filter, List.mem_filter]
          exact ⟨⟨h.mem.2 ⟨hb, hpl, ht⟩, by simp⟩, by simp⟩

/-- The stores of all threads, with the value of the shared memory they are made with. -/
noncomputable def allWrites (sz : ℕ) (n : Fin d → ℤ) (inp : ℕ → R) (off total : ℕ) (sh₀ : ℕ → ℕ → R) (e : ℕ × ℕ × ℕ) :
    List (ℕ × Frag R) :=
  match (phases d)[e.2.1]? with
  | some p => outWrites sz n inp off total e.1 p e.2.2 (shAt n inp e.1 (sh₀ e.1) ((phases d).length - 1))
  | none => []

theorem phases_last {p : ℕ} (h : (phases d)[p]? = some .store) : p = (phases d).length - 1 := by
  have hlen : (phases d).length = (strides (tpb d)).length + 2 := by simp [phases]
  obtain ⟨hp, e⟩ := List.getElem?_eq_some_iff.1 h
  by_contra hne
  have hlt : p < (strides (tpb d)).length + 1 := by omega
  have h2 : (phases d)[p]? = (Phase.load :: (strides (tpb d)).map Phase.reduce)[p]? := by
    unfold phases
    rw [← List.cons_append, List.getElem?_append_left (by simpa using hlt)]
  rw [h2] at h
  have := List.mem_of_getElem? h
  simp at this

theorem phases_get_last : (phases d)[(phases d).length - 1]? = some .store := by
  simp [phases]

/-- The global memory after any part of an execution. -/
theorem IsRun.out (h : IsRun d total es) (sz : ℕ) (n : Fin d → ℤ) (inp : ℕ → R) (off : ℕ) (sh₀ : ℕ → ℕ → R)
    (m2 : Mem R) : ∀ (pre post : List (ℕ × ℕ × ℕ)), es = pre ++ post →
    (pre.foldl (gStep sz n inp off total) ⟨sh₀, m2⟩).out =
      applyWrites m2 (pre.flatMap (allWrites sz n inp off total sh₀)) := by
  intro pre
  induction pre using List.reverseRecOn with
  | nil => intro _ _; rfl
  | append_singleton pre e ih =>
      intro post hes
      have ih := ih (e :: post) (by rw [hes]; simp)
      rw [List.foldl_append, List.foldl_cons, List.foldl_nil, List.flatMap_append, applyWrites, List.foldl_append]
      obtain ⟨b, p, t⟩ := e
      have hmem : (b, p, t) ∈ es := by rw [hes]; simp
      obtain ⟨hb, hp, ht⟩ := h.mem.1 hmem
      have hph : (phases d)[p]? = some ((phases d)[p]) := List.getElem?_eq_getElem hp
      have key : outWrites sz n inp off total b ((phases d)[p]) t
          ((pre.foldl (gStep sz n inp off total) ⟨sh₀, m2⟩).sh b) =
          outWrites sz n inp off total b ((phases d)[p]) t (shAt n inp b (sh₀ b) ((phases d).length - 1)) := by
        cases hP : (phases d)[p] with
        | load => rfl
        | reduce s => rfl
        | store =>
            rw [hP] at hph
            have hlast := phases_last hph
            have hpre := h.prefix n inp hb (sh₀ b) p hp.le
            rw [← hlast, ← hpre, sh_own]
            congr 1
            -- the steps of the block so far are those of the phases before, then of the last phase
            have hsort : ((pre ++ (b, p, t) :: post).filter (·.1 = b)).Pairwise (fun e e' => e.2.1 ≤ e'.2.1) := by
              have hb2 := h.barrier
              rw [hes, List.append_assoc, List.singleton_append] at hb2
              refine (hb2.filter _).imp_of_mem ?_
              intro e e' he he' h1
              have h2 : e.1 = b := by simpa using (List.mem_filter.1 he).2
              have h3 : e'.1 = b := by simpa using (List.mem_filter.1 he').2
              exact h1 (h2.trans h3.symm)
            have hrest : ∀ e ∈ post.filter (·.1 = b), p ≤ e.2.1 := by
              rw [List.filter_append, List.filter_cons_of_pos (by simp), List.pairwise_append] at hsort
              exact fun e he => (List.pairwise_cons.1 hsort.2.1).1 e he
            have hs1 : (pre.filter (·.1 = b)).Pairwise (fun e e' => e.2.1 ≤ e'.2.1) := by
              rw [List.filter_append, List.pairwise_append] at hsort
              exact hsort.1
            have efull : (es.filter (·.1 = b)).filter (fun e => decide (e.2.1 < p)) =
                (pre.filter (·.1 = b)).filter (fun e => decide (e.2.1 < p)) := by
              rw [hes, List.append_assoc, List.singleton_append, List.filter_append, List.filter_append,
                List.filter_cons_of_pos (by simp), List.filter_cons_of_neg (by simp)]
              have : (post.filter (·.1 = b)).filter (fun e => decide (e.2.1 < p)) = [] := by
                rw [List.filter_eq_nil_iff]
                intro e he
                have := hrest e he
                simp; omega
              rw [this, List.append_nil]
            rw [efull]
            conv_lhs => rw [sorted_split (l := pre.filter (·.1 = b)) (fun e => e.2.1) p hs1]
            rw [List.foldl_append]
            have hnop : ∀ (l : List (ℕ × ℕ × ℕ)) (g : ℕ → R), (∀ e ∈ l, p ≤ e.2.1) →
                l.foldl (fun f e => match (phases d)[e.2.1]? with
                  | some p => shStep n inp b p e.2.2 f
                  | none => f) g = g := by
              intro l
              induction l with
              | nil => intro g _; rfl
              | cons e l ih =>
                  intro g hh
                  rw [List.foldl_cons, ih _ fun e he => hh e (List.mem_cons_of_mem _ he)]
                  have h1 := hh e List.mem_cons_self
                  by_cases h2 : e.2.1 = p
                  · rw [h2, hph]; rfl
                  · rw [List.getElem?_eq_none (by omega)]
            rw [hnop _ _ fun e he => by simpa using (List.mem_filter.1 he).2]
      have e1 : (gStep sz n inp off total (pre.foldl (gStep sz n inp off total) ⟨sh₀, m2⟩) (b, p, t)).out =
          applyWrites (pre.foldl (gStep sz n inp off total) ⟨sh₀, m2⟩).out
            (allWrites sz n inp off total sh₀ (b, p, t)) := by
        generalize pre.foldl (gStep sz n inp off total) ⟨sh₀, m2⟩ = m at key
        unfold gStep allWrites
        simp only [hph]
        rw [key]
      rw [e1, ih]
      simp only [applyWrites, List.flatMap_cons, List.flatMap_nil, List.append_nil]

variable [IsStrictOrderedRing R]

/-- The stores of an execution. -/
theorem IsRun.mem_writes {n : Fin d → ℤ} (hn : ∀ k, 0 < n k) {nShots : ℕ}
    (h : IsRun d (totalBlocks n nShots) es) (sz : ℕ) (inp : ℕ → R) (off : ℕ) (sh₀ : ℕ → ℕ → R) {w : ℕ × Frag R} :
    w ∈ es.flatMap (allWrites sz n inp off (totalBlocks n nShots) sh₀) ↔
      (∃ s < nShots, ∃ b, InShape (nb n) b ∧ ∃ j < sz, w = (off + ((s * nBlocks n + idx (nb n) b) * sz + j),
        .part (maxAbs n (fun c => inp (s * (∏ k, n k).toNat + idx n c)) b) j)) ∨
      ∃ s < nShots, ∃ c, InShape n c ∧ w = (off + (nShots * nBlocks n * sz + (s * (∏ k, n k).toNat + idx n c)),
        quant (inp (s * (∏ k, n k).toNat + idx n c))
          (cScale (maxAbs n (fun c => inp (s * (∏ k, n k).toNat + idx n c)) (blockOf c)))) := by
  have hlt : ∀ {s b}, s < nShots → InShape (nb n) b → s * nBlocks n + idx (nb n) b < totalBlocks n nShots := by
    intro s b hs hb
    have h1 : idx (nb n) b < nBlocks n := idx_lt hb
    have h2 : (s + 1) * nBlocks n ≤ nShots * nBlocks n := Nat.mul_le_mul_right _ hs
    rw [Nat.add_mul] at h2
    unfold totalBlocks
    omega
  have hshot : ∀ {blk}, blk < totalBlocks n nShots → blkShot n blk < nShots := fun hb =>
    Nat.div_lt_of_lt_mul (by rw [Nat.mul_comm]; exact hb)
  have hP : (phases d).length - 1 < (phases d).length := by simp [phases]
  have hT : 0 < tpb d := by unfold tpb; positivity
  simp only [List.mem_flatMap]
  constructor
  · rintro ⟨⟨blk, p, t⟩, he, hw⟩
    obtain ⟨hb, hp, ht⟩ := h.mem.1 he
    obtain ⟨h1, h2⟩ := blkCell_spec hn blk
    unfold allWrites at hw
    simp only at hw
    split at hw
    · next q hq =>
      cases q with
      | load => simp [outWrites] at hw
      | reduce s => simp [outWrites] at hw
      | store =>
          simp only [outWrites, List.mem_append, shAt_last] at hw
          rcases hw with hw | hw
          · split_ifs at hw with h0
            · rw [mem_valWrites] at hw
              obtain ⟨j, hj, rfl⟩ := hw
              refine .inl ⟨blkShot n blk, hshot hb, blkCell n blk, h1, j, hj, ?_⟩
              rw [← h2, add_assoc]
            · simp at hw
          · split_ifs at hw with hin
            · rw [List.mem_singleton] at hw
              obtain ⟨h3, h4⟩ := mem_cellsOf_inShape h1 (thrCell_mem ht hin)
              refine .inr ⟨blkShot n blk, hshot hb, thrCell n blk t, h3, ?_⟩
              rw [hw, ← h4, add_assoc]
              unfold thrVal thrIdx totalBlocks
              rw [if_pos hin]
            · simp at hw
    · simp at hw
  · rintro (⟨s, hs, b, hb, j, hj, rfl⟩ | ⟨s, hs, c, hc, rfl⟩)
    · refine ⟨(s * nBlocks n + idx (nb n) b, (phases d).length - 1, 0), h.mem.2 ⟨hlt hs hb, hP, hT⟩, ?_⟩
      unfold allWrites
      simp only [phases_get_last, outWrites, List.mem_append, if_true, shAt_last, (blkOf hb s).1, (blkOf hb s).2]
      left
      rw [mem_valWrites]
      exact ⟨j, hj, by rw [add_assoc]⟩
    · obtain ⟨h1, h2⟩ := blockOf_spec hc
      rw [← (blkOf h1 s).2] at h2
      obtain ⟨t, ht, hct, hin⟩ := exists_thr h2
      refine ⟨(s * nBlocks n + idx (nb n) (blockOf c), (phases d).length - 1, t), h.mem.2 ⟨hlt hs h1, hP, ht⟩, ?_⟩
      unfold allWrites
      simp only [phases_get_last, outWrites, List.mem_append, shAt_last, (blkOf h1 s).1, (blkOf h1 s).2]
      right
      rw [if_pos hin, List.mem_singleton]
      unfold thrVal thrIdx totalBlocks
      rw [if_pos hin, hct, (blkOf h1 s).1, add_assoc]

/-- Compressed arrays of all shots as the GPU lays them out: the maxima of all blocks of all shots, then the bytes of
all cells of all shots. -/
structure IsCompG (n : Fin d → ℤ) (sz nShots : ℕ) (vals : ℕ → Cell d → R) (f : ℕ → Frag R) : Prop where
  maxima : ∀ s < nShots, ∀ b, InShape (nb n) b → ∀ j < sz, f ((s * nBlocks n + idx (nb n) b) * sz + j) =
    .part (maxAbs n (vals s) b) j
  bytes : ∀ s < nShots, ∀ c, InShape n c → f (nShots * nBlocks n * sz + (s * (∏ k, n k).toNat + idx n c)) =
    quant (vals s c) (cScale (maxAbs n (vals s) (blockOf c)))

theorem elem_lt {s nShots : ℕ} (hs : s < nShots) {N j : ℕ} (hj : j < N) : s * N + j < nShots * N := by
  have h2 : (s + 1) * N ≤ nShots * N := Nat.mul_le_mul_right _ hs
  rw [Nat.add_mul] at h2
  omega

/-- `compress_cuda` in every execution. -/
theorem gCompress_isComp {n : Fin d → ℤ} (hn : ∀ k, 0 < n k) {nShots : ℕ}
    (h : IsRun d (totalBlocks n nShots) es) (junk : R) (sz : ℕ) (sh₀ : ℕ → ℕ → R) (m1 : Mem R) (off1 : ℕ)
    (m2 : Mem R) (off2 : ℕ) :
    IsCompG n sz nShots (fun s c => readVal junk sz m1 (off1 + (s * (∏ k, n k).toNat + idx n c) * sz))
        (fun j => gCompress junk sz n nShots es sh₀ m1 off1 m2 off2 (off2 + j)) ∧
      ∀ a, (a < off2 ∨ off2 + (nShots * nBlocks n * sz + nShots * (∏ k, n k).toNat) ≤ a) →
        gCompress junk sz n nShots es sh₀ m1 off1 m2 off2 a = m2 a := by
  set inp : ℕ → R := fun i => readVal junk sz m1 (off1 + i * sz) with hinp
  have hout : gCompress junk sz n nShots es sh₀ m1 off1 m2 off2 =
      applyWrites m2 (es.flatMap (allWrites sz n inp off2 (totalBlocks n nShots) sh₀)) :=
    h.out sz n inp off2 sh₀ m2 es [] (by simp)
  have hmem := fun w => h.mem_writes hn sz inp off2 sh₀ (w := w)
  have hbl : ∀ {s b j}, s < nShots → InShape (nb n) b → j < sz →
      (s * nBlocks n + idx (nb n) b) * sz + j < nShots * nBlocks n * sz := fun hs hb hj =>
    elem_lt (elem_lt hs (idx_lt hb)) hj
  rw [hout]
  refine ⟨⟨fun s hs b hb j hj => ?_, fun s hs c hc => ?_⟩, fun a ha => ?_⟩
  · refine applyWrites_of_mem ⟨_, (hmem _).2 (.inl ⟨s, hs, b, hb, j, hj, rfl⟩), rfl⟩ ?_
    intro w hw e
    rcases (hmem w).1 hw with ⟨s', hs', b', hb', j', hj', rfl⟩ | ⟨s', hs', c, hc, rfl⟩
    · obtain ⟨e1, rfl⟩ := slot_unique hj' hj (Nat.add_left_cancel e)
      obtain ⟨rfl, e2⟩ := slot_unique (idx_lt hb' : _ < nBlocks n) (idx_lt hb) e1
      rw [idx_inj hb' hb e2]
    · have := hbl hs hb hj
      simp only at e; omega
  · refine applyWrites_of_mem ⟨_, (hmem _).2 (.inr ⟨s, hs, c, hc, rfl⟩), rfl⟩ ?_
    intro w hw e
    rcases (hmem w).1 hw with ⟨s', hs', b', hb', j', hj', rfl⟩ | ⟨s', hs', c', hc', rfl⟩
    · have := hbl hs' hb' hj'
      simp only at e; omega
    · have e' : s' * (∏ k, n k).toNat + idx n c' = s * (∏ k, n k).toNat + idx n c := by simp only at e; omega
      obtain ⟨rfl, e2⟩ := slot_unique (idx_lt hc') (idx_lt hc) e'
      rw [idx_inj hc' hc e2]
  · refine applyWrites_of_not_mem fun w hw e => ?_
    rcases (hmem w).1 hw with ⟨s, hs, b, hb, j, hj, rfl⟩ | ⟨s, hs, c, hc, rfl⟩
    · have := hbl hs hb hj
      simp only at e; omega
    · have := elem_lt hs (idx_lt hc)
      simp only at e; omega

omit [LinearOrder R] [FloorRing R] [IsStrictOrderedRing R] in
theorem gDecompress_writes (junk : R) (junkQ sz : ℕ) (n : Fin d → ℤ) (nShots : ℕ) (m2 : Mem R) (off2 off1 : ℕ) :
    ∀ (ds : List (ℕ × ℕ)) (m1 : Mem R), gDecompress junk junkQ sz n nShots ds m2 off2 m1 off1 =
      applyWrites m1 (ds.flatMap (decThread junk junkQ sz n (totalBlocks n nShots) m2 off2 off1))
  | [], _ => rfl
  | e :: ds, m1 => by
      have ih := gDecompress_writes junk junkQ sz n nShots m2 off2 off1 ds
        (applyWrites m1 (decThread junk junkQ sz n (totalBlocks n nShots) m2 off2 off1 e))
      unfold gDecompress at ih ⊢
      rw [List.foldl_cons, ih]
      simp only [applyWrites, List.flatMap_cons, List.foldl_append]

omit [IsStrictOrderedRing R] in
/-- `decompress_cuda` in every order of the threads. -/
theorem gDecompress_eq {n : Fin d → ℤ} (hn : ∀ k, 0 < n k) {nShots : ℕ} {ds : List (ℕ × ℕ)}
    (hd : ∀ b t, (b, t) ∈ ds ↔ b < totalBlocks n nShots ∧ t < tpb d) (junk : R) (junkQ : ℕ) {sz : ℕ} (hsz : 0 < sz)
    {vals : ℕ → Cell d → R} (m2 : Mem R) (off2 : ℕ) (hc : IsCompG n sz nShots vals fun j => m2 (off2 + j))
    (m1 : Mem R) (off1 : ℕ) :
    (∀ s < nShots, ∀ c, InShape n c → ∀ j < sz, gDecompress junk junkQ sz n nShots ds m2 off2 m1 off1
        (off1 + (s * (∏ k, n k).toNat + idx n c) * sz + j) =
          .part (restore junkQ (vals s c) (maxAbs n (vals s) (blockOf c))) j) ∧
      ∀ a, (a < off1 ∨ off1 + nShots * (∏ k, n k).toNat * sz ≤ a) →
        gDecompress junk junkQ sz n nShots ds m2 off2 m1 off1 a = m1 a := by
  have hshot : ∀ {blk}, blk < totalBlocks n nShots → blkShot n blk < nShots := fun hb =>
    Nat.div_lt_of_lt_mul (by rw [Nat.mul_comm]; exact hb)
  have hmem : ∀ w, w ∈ ds.flatMap (decThread junk junkQ sz n (totalBlocks n nShots) m2 off2 off1) ↔
      ∃ s < nShots, ∃ c, InShape n c ∧ ∃ j < sz, w = (off1 + (s * (∏ k, n k).toNat + idx n c) * sz + j,
        .part (restore junkQ (vals s c) (maxAbs n (vals s) (blockOf c))) j) := by
    have hthr : ∀ {blk t}, blk < totalBlocks n nShots → t < tpb d → thrIn n blk t →
        InShape n (thrCell n blk t) ∧ decThread junk junkQ sz n (totalBlocks n nShots) m2 off2 off1 (blk, t) =
          valWrites sz (off1 + (blkShot n blk * (∏ k, n k).toNat + idx n (thrCell n blk t)) * sz)
            (restore junkQ (vals (blkShot n blk) (thrCell n blk t))
              (maxAbs n (vals (blkShot n blk)) (blockOf (thrCell n blk t)))) := by
      intro blk t hb ht hin
      obtain ⟨h1, h2⟩ := blkCell_spec hn blk
      obtain ⟨h3, h4⟩ := mem_cellsOf_inShape h1 (thrCell_mem ht hin)
      refine ⟨h3, ?_⟩
      have e1 : readVal junk sz m2 (off2 + blk * sz) =
          maxAbs n (vals (blkShot n blk)) (blockOf (thrCell n blk t)) := by
        refine readVal_of hsz fun k hk => ?_
        have := hc.maxima _ (hshot hb) _ h1 k hk
        rw [← h2, h4] at this
        rw [add_assoc]
        exact this
      have e2 := hc.bytes _ (hshot hb) _ h3
      unfold decThread
      rw [if_pos hin]
      simp only [e1]
      unfold readU8 restore thrIdx totalBlocks
      rw [add_assoc off2, e2]
    intro w
    simp only [List.mem_flatMap]
    constructor
    · rintro ⟨⟨blk, t⟩, he, hw⟩
      obtain ⟨hb, ht⟩ := (hd _ _).1 he
      by_cases hin : thrIn n blk t
      · obtain ⟨h3, h4⟩ := hthr hb ht hin
        rw [h4, mem_valWrites] at hw
        obtain ⟨j, hj, rfl⟩ := hw
        exact ⟨_, hshot hb, _, h3, j, hj, rfl⟩
      · simp [decThread, hin] at hw
    · rintro ⟨s, hs, c, hcs, j, hj, rfl⟩
      obtain ⟨h1, h2⟩ := blockOf_spec hcs
      obtain ⟨q1, q2⟩ := blkOf h1 s
      rw [← q2] at h2
      obtain ⟨t, ht, hct, hin⟩ := exists_thr h2
      have hb : s * nBlocks n + idx (nb n) (blockOf c) < totalBlocks n nShots := elem_lt hs (idx_lt h1)
      refine ⟨(_, t), (hd _ _).2 ⟨hb, ht⟩, ?_⟩
      rw [(hthr hb ht hin).2, q1, hct, mem_valWrites]
      exact ⟨j, hj, rfl⟩
  rw [gDecompress_writes]
  refine ⟨fun s hs c hcs j hj => ?_, fun a ha => ?_⟩
  · refine applyWrites_of_mem ⟨_, (hmem _).2 ⟨s, hs, c, hcs, j, hj, rfl⟩, rfl⟩ ?_
    intro w hw e
    obtain ⟨s', hs', c', hc', j', hj', rfl⟩ := (hmem w).1 hw
    have e0 : (s' * (∏ k, n k).toNat + idx n c') * sz + j' = (s * (∏ k, n k).toNat + idx n c) * sz + j := by
      simp only at e; omega
    obtain ⟨e1, rfl⟩ := slot_unique hj' hj e0
    obtain ⟨rfl, e2⟩ := slot_unique (idx_lt hc') (idx_lt hcs) e1
    rw [idx_inj hc' hcs e2]
  · refine applyWrites_of_not_mem fun w hw e => ?_
    obtain ⟨s, hs, c, hcs, j, hj, rfl⟩ := (hmem w).1 hw
    have h1 := elem_lt (elem_lt hs (idx_lt hcs)) hj
    simp only at e; omega

end runs

end Dw.Storage
