import Verif.Gpu.StorageRun
import Verif.Props.Storage
import Verif.Props.GpuCompress

/-!
# Stored snapshots on the GPU

Notation of this file: `fcs` and `bcs` are the chunks of the forward and the backward driver, `x` the storage as
allocated for `nt` steps, `σ` any order of the threads of all kernels.
-/

namespace Dw.Storage

open Classical
open Setup (InShape)

variable {d : ℕ} {R : Type*} [Field R] [LinearOrder R] [FloorRing R] [IsStrictOrderedRing R] {S : SCfg d}

/-- Storage after a forward pass and the operations `os` of the backward pass. -/
noncomputable def gRun (junk : R) (junkQ : ℕ) (S : SCfg d) (σ : Sched d R) (snap : ℕ → ℕ → Cell d → R)
    (fcs : List (ℕ × ℕ)) (os : List Op) (x : GSt R) : GSt R :=
  gExecAll S (gBwd junk junkQ S σ) os (gExecAll S (gFwd junk S σ snap) (fwdProg S fcs) x)

theorem gRun_spec (hS : S.GOk) {σ : Sched d R} (hσ : σ.Ok S) (junk : R) (junkQ : ℕ)
    (snap : ℕ → ℕ → Cell d → R) {nt N : ℕ} (hN : N ≤ nt / S.ratio) {fcs bcs : List (ℕ × ℕ)}
    (hf : Consecutive 0 fcs N) (hb : ∀ ch ∈ bcs, ch.2 ≤ ch.1 ∧ ch.1 ≤ N) {x : GSt R} (hx : x.Fresh S nt)
    {os post : List Op} (ho : bwdProg S bcs = os ++ post) :
    GBInv S snap nt x N (gRun junk junkQ S σ snap fcs os x) ∧
      ∀ os' t, os = os' ++ [.iter t] → t % S.ratio = 0 →
        S.IsRawG (fun s => S.restored junkQ (snap s t)) fun j =>
          (gRun junk junkQ S σ snap fcs os x).s1 (S.useB (t / S.ratio)) (S.gOff1 (t / S.ratio) + j) := by
  have h1 := GInv.prog hS hσ (junk := junk) (snap := snap) hf hN (GInv.init hS hx)
  have hok : OkOps S N false os := by
    have := okOps_prog (S := S) (N := N) (o := false) hb
    rw [ho] at this
    exact this.prefix
  exact GBInv.ops hS hσ hN hok ⟨h1.saved, h1.len, h1.ok, h1.out⟩ fun _ e => absurd e (by decide)

theorem gSeen_eq (hS : S.GOk) {σ : Sched d R} (hσ : σ.Ok S) (junk : R) (junkQ : ℕ)
    (snap : ℕ → ℕ → Cell d → R) {nt N : ℕ} (hN : N ≤ nt / S.ratio) {fcs bcs : List (ℕ × ℕ)}
    (hf : Consecutive 0 fcs N) (hb : ∀ ch ∈ bcs, ch.2 ≤ ch.1 ∧ ch.1 ≤ N) {x : GSt R} (hx : x.Fresh S nt)
    {pre post : List Op} {t : ℕ} (ho : bwdProg S bcs = pre ++ .iter t :: post) (ht : t % S.ratio = 0)
    {s : ℕ} (hs : s < S.nShots) {c : Cell d} (hc : InShape S.n c) :
    gSeen junk S s t (gRun junk junkQ S σ snap fcs (pre ++ [.iter t]) x) c = S.restored junkQ (snap s t) c := by
  obtain ⟨-, h⟩ := gRun_spec hS hσ junk junkQ snap hN hf hb hx (os := pre ++ [.iter t]) (post := post)
    (by rw [ho]; simp)
  unfold gSeen
  exact readVal_of hS.sz fun j hj => by rw [add_assoc]; exact h pre t rfl ht s hs c hc j hj

/-! ## C121 -/

/-- **C121** Without compression the backward kernel on the GPU reads exactly the snapshot value that the forward
kernel stored for the shot, step and cell: on the device, in pinned host memory with two alternating buffers, and
on disk in one file for all shots; for any chunks and any order of the threads. -/
theorem C121_stored_is_loaded (hS : S.GOk) (hraw : S.comp = false) {σ : Sched d R} (hσ : σ.Ok S) (junk : R)
    (junkQ : ℕ) (snap : ℕ → ℕ → Cell d → R) {nt N : ℕ} (hN : N ≤ nt / S.ratio) {fcs bcs : List (ℕ × ℕ)}
    (hf : Consecutive 0 fcs N) (hb : ∀ ch ∈ bcs, ch.2 ≤ ch.1 ∧ ch.1 ≤ N) {x : GSt R} (hx : x.Fresh S nt)
    {pre post : List Op} {t : ℕ} (ho : bwdProg S bcs = pre ++ .iter t :: post) (ht : t % S.ratio = 0)
    {s : ℕ} (hs : s < S.nShots) {c : Cell d} (hc : c ∈ S.written) :
    gSeen junk S s t (gRun junk junkQ S σ snap fcs (pre ++ [.iter t]) x) c = snap s t c := by
  rw [gSeen_eq hS hσ junk junkQ snap hN hf hb hx ho ht hs (hS.written c hc)]
  unfold SCfg.restored SCfg.full
  rw [hraw]
  simp [hc]

/-- **C121** The value is the one that the CPU backend reads, in any of its modes, with or without compression. -/
theorem C121_same_as_cpu (hS : S.GOk) {σ : Sched d R} (hσ : σ.Ok S) (junk junk' : R) (junkQ : ℕ)
    (snap : ℕ → ℕ → Cell d → R) {nt N : ℕ} (hN : N ≤ nt / S.ratio) {fcs bcs : List (ℕ × ℕ)}
    (hf : Consecutive 0 fcs N) (hb : ∀ ch ∈ bcs, ch.2 ≤ ch.1 ∧ ch.1 ≤ N) {x : GSt R} (hx : x.Fresh S nt)
    {pre post : List Op} {t : ℕ} (ho : bwdProg S bcs = pre ++ .iter t :: post) (ht : t % S.ratio = 0)
    {s : ℕ} {c : Cell d} (hc : InShape S.n c)
    -- the CPU
    {mode : StorageMode} (hmode : mode = .device ∨ mode = .disk) {N' : ℕ} {fcs' bcs' : List (ℕ × ℕ)}
    (hf' : Consecutive 0 fcs' N') (hb' : ∀ ch ∈ bcs', ch.2 ≤ ch.1 ∧ ch.1 ≤ N')
    {fes pre' post' : List (ℕ × Op)} (htf : IsTrace { S with mode := mode } (fwdProg S fcs') fes)
    (htb : IsTrace { S with mode := mode } (bwdProg S bcs') (pre' ++ (s, .iter t) :: post')) :
    gSeen junk S s t (gRun junk junkQ S σ snap fcs (pre ++ [.iter t]) x) c =
      seen junk' { S with mode := mode } s t
        (execAll { S with mode := mode } (bwdStep junk' junkQ { S with mode := mode }) (pre' ++ [(s, .iter t)])
          (execAll { S with mode := mode } (fwdStep junk' { S with mode := mode } snap) fes (St.init S.sz))) c := by
  have hs : s < S.nShots := htb.shots (s, .iter t) (by simp)
  rw [gSeen_eq hS hσ junk junkQ snap hN hf hb hx ho ht hs hc]
  exact (seen_eq (S := { S with mode := mode }) ⟨hS.sz, hS.ratio, hS.written, hmode⟩ junk' junkQ snap hf' hb' htf
    htb ht hc).symm

/-- **C121** With compression it differs from the stored one by at most 1/254 of a snapshot value of the same block,
shot and step. -/
theorem C121_loaded_error (hS : S.GOk) (hcomp : S.comp = true) {σ : Sched d R} (hσ : σ.Ok S) (junk : R)
    (junkQ : ℕ) (snap : ℕ → ℕ → Cell d → R) {nt N : ℕ} (hN : N ≤ nt / S.ratio) {fcs bcs : List (ℕ × ℕ)}
    (hf : Consecutive 0 fcs N) (hb : ∀ ch ∈ bcs, ch.2 ≤ ch.1 ∧ ch.1 ≤ N) {x : GSt R} (hx : x.Fresh S nt)
    {pre post : List Op} {t : ℕ} (ho : bwdProg S bcs = pre ++ .iter t :: post) (ht : t % S.ratio = 0)
    {s : ℕ} (hs : s < S.nShots) {c : Cell d} (hc : c ∈ S.written) :
    ∃ c' ∈ S.written, SameBlock c' c ∧
      |gSeen junk S s t (gRun junk junkQ S σ snap fcs (pre ++ [.iter t]) x) c - snap s t c| ≤
        |snap s t c'| / 254 := by
  rw [gSeen_eq hS hσ junk junkQ snap hN hf hb hx ho ht hs (hS.written c hc)]
  unfold SCfg.restored
  rw [hcomp]
  simp only [if_true]
  obtain ⟨h1, c', h2, h3, h4⟩ := maxAbs_spec (S.full (snap s t)) (hS.written c hc)
  have hfc : S.full (snap s t) c = snap s t c := by unfold SCfg.full; rw [if_pos hc]
  have herr := restore_error (junkQ := junkQ) h1
  rw [hfc, h4] at herr
  rw [hfc, h4]
  by_cases hw : c' ∈ S.written
  · refine ⟨c', hw, fun k => congrFun h3 k, ?_⟩
    have hfc' : S.full (snap s t) c' = snap s t c' := by unfold SCfg.full; rw [if_pos hw]
    rwa [← hfc']
  · refine ⟨c, hc, fun _ => rfl, ?_⟩
    have hfc' : S.full (snap s t) c' = 0 := by unfold SCfg.full; rw [if_neg hw]
    rw [hfc'] at herr ⊢
    simp only [abs_zero, zero_div] at herr
    rw [abs_zero]
    exact herr.trans (div_nonneg (abs_nonneg (snap s t c)) (by norm_num : (0 : R) ≤ 254))

/-- **C121** No call reports an error, at no time is anything outside of the tensors of `StorageManager` changed, and
the values above do not depend on what is there: `Fresh` says nothing about it. -/
theorem C121_in_bounds (hS : S.GOk) {σ : Sched d R} (hσ : σ.Ok S) (junk : R) (junkQ : ℕ)
    (snap : ℕ → ℕ → Cell d → R) {nt N : ℕ} (hN : N ≤ nt / S.ratio) {fcs bcs : List (ℕ × ℕ)}
    (hf : Consecutive 0 fcs N) (hb : ∀ ch ∈ bcs, ch.2 ≤ ch.1 ∧ ch.1 ≤ N) {x : GSt R} (hx : x.Fresh S nt)
    {os post : List Op} (ho : bwdProg S bcs = os ++ post) :
    let y := gRun junk junkQ S σ snap fcs os x
    y.failed = false ∧ (∀ a, S.alloc1 nt ≤ a → y.s1 false a = x.s1 false a) ∧
      (∀ a, S.gAlloc1 nt true ≤ a → y.s1 true a = x.s1 true a) ∧
      (∀ a, S.alloc2 nt ≤ a → y.s2 a = x.s2 a) ∧ ∀ a, S.gAlloc3 nt ≤ a → y.s3 a = x.s3 a := by
  obtain ⟨h, -⟩ := gRun_spec hS hσ junk junkQ snap hN hf hb hx ho
  exact ⟨h.ok, fun a ha => h.out.s1 false a ha, h.out.s1 true, h.out.s2, h.out.s3⟩

/-! Two shots of a 9 by 12 array, 4 blocks each, the snapshots of every second step copied to the host and
compressed; 5 stored steps, saved in chunks of 2 and loaded in chunks of 3. -/

def exG (mode : StorageMode) (comp : Bool) : SCfg 2 :=
  { n := ![9, 12], sz := 4, nShots := 2, ratio := 2, mode := mode, comp := comp, written := [![2, 3], ![8, 11]] }

def exSched (R : Type*) [Zero R] : Sched 2 R :=
  { kern := fun _ => [(1, ![8, 11]), (0, ![2, 3]), (1, ![2, 3]), (0, ![8, 11])]
    comp := fun _ => lockRun 2 8
    sh := fun _ _ _ => 0
    dec := fun _ => List.range 8 ×ˢ List.range 64 }

theorem exG_ok {mode : StorageMode} (hm : mode ≠ .none) (comp : Bool) : (exG mode comp).GOk where
  sz := by show 0 < 4; decide
  ratio := by show 0 < 2; decide
  pos := by show ∀ k : Fin 2, (0 : ℤ) < ![9, 12] k; decide
  written := by
    intro c hc
    simp only [exG, List.mem_cons, List.not_mem_nil, or_false] at hc
    have : InShape ![9, 12] c := by rcases hc with rfl | rfl <;> intro k <;> fin_cases k <;> decide
    exact this
  mode := hm

theorem exSched_ok (mode : StorageMode) (comp : Bool) : (exSched ℚ).Ok (exG mode comp) where
  kern := by
    rintro t ⟨s, c⟩
    simp only [exSched, exG, List.mem_cons, Prod.mk.injEq, List.not_mem_nil, or_false]
    constructor
    · rintro (⟨rfl, rfl⟩ | ⟨rfl, rfl⟩ | ⟨rfl, rfl⟩ | ⟨rfl, rfl⟩) <;> simp
    · rintro ⟨hs, rfl | rfl⟩
      · rcases (by omega : s = 0 ∨ s = 1) with rfl | rfl <;> simp
      · rcases (by omega : s = 0 ∨ s = 1) with rfl | rfl <;> simp
  comp := fun _ => lockRun_isRun 2 8
  dec := by
    intro t b i
    show (b, i) ∈ List.range 8 ×ˢ List.range 64 ↔ b < 8 ∧ i < 64
    rw [List.mem_product, List.mem_range, List.mem_range]

/-- Storage as allocated, with other data after it. -/
def exGSt (S : SCfg 2) (nt : ℕ) : GSt ℚ :=
  { s1 := fun b a => if a < S.gAlloc1 nt b then .part 0 (a % S.sz) else .undef
    s2 := fun a => .u8 a, s3 := fun _ => .undef, file := [], fp := none, failed := false }

theorem exGSt_fresh (S : SCfg 2) (nt : ℕ) : (exGSt S nt).Fresh S nt :=
  ⟨fun _ _ ha => if_pos ha, rfl, rfl, rfl⟩

theorem exG_fwd : Consecutive 0 [(0, 2), (2, 2), (4, 1)] 5 := ⟨rfl, rfl, rfl, rfl⟩

example : bwdProg (exG .cpu false) [(5, 3), (2, 2)] =
    (bwdProg (exG .cpu false) [(5, 3)] ++ [.fopen .rb, .iter 3]) ++ .iter 2 :: [.iter 1, .iter 0, .fclose] := rfl

/-- The hypotheses are met by all modes. -/
example {mode : StorageMode} (hm : mode ≠ .none) (snap : ℕ → ℕ → Cell 2 → ℚ) (junk : ℚ) :
    gSeen junk (exG mode false) 1 2 (gRun junk 0 (exG mode false) (exSched ℚ) snap [(0, 2), (2, 2), (4, 1)]
      ((bwdProg (exG mode false) [(5, 3)] ++ [.fopen .rb, .iter 3]) ++ [.iter 2])
      (exGSt (exG mode false) 10)) ![8, 11] = snap 1 2 ![8, 11] :=
  C121_stored_is_loaded (exG_ok hm false) rfl (exSched_ok mode false) junk 0 snap (nt := 10)
    (show 5 ≤ 10 / 2 by decide) exG_fwd
    (bcs := [(5, 3), (2, 2)]) (post := [.iter 1, .iter 0, .fclose]) (by decide) (exGSt_fresh _ _) rfl
    (show 2 % 2 = 0 from rfl) (show 1 < 2 by decide) (by simp [exG])

end Dw.Storage
