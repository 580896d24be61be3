import Verif.Gpu.Compress
import Verif.Storage.Shot

/-!
# Stored snapshots on the GPU

Models `save_snapshot_gpu` and `load_snapshot_gpu` (`storage_utils.cu`) and their use by the time loops of
`scalar.cu`, with the byte memory of `Verif/Storage/Model.lean`, for one stored quantity of all shots.  The other
propagators do the same for each of their quantities.  Commands are executed in program order here;
`Verif/Gpu/Snapshots.lean` treats the streams.  Errors of CUDA functions are not modelled.
-/

namespace Dw.Storage

open Classical
open Setup (InShape)

/-- `IntermediateStorage` (`common.py` 83-113) on the GPU. -/
structure GSt (R : Type*) where
  /-- `store_1a` and `store_1b` -/
  s1 : Bool → Mem R
  s2 : Mem R
  s3 : Mem R
  /-- the only file, for all shots (`common.py` 249-251) -/
  file : List (Frag R)
  fp : Option Fp
  /-- a call has returned 1 -/
  failed : Bool

namespace SCfg
variable {d : ℕ} (S : SCfg d)

/-- `use_double_buffering` (`scalar.cu` 580-583, 868-871). -/
def dbl : Bool := (S.mode = .device ∧ S.comp = true) ∨ S.mode = .cpu

/-- `store_1b` is used in step `k` (`scalar.cu` 617-619, 903-905). -/
def useB (k : ℕ) : Bool := S.dbl && k % 2 != 0

/-- Byte offset of `w_store_1_t` in its buffer (`scalar.cu` 610-619, 896-905). -/
def gOff1 (k : ℕ) : ℕ :=
  if S.useB k then 0 else (if S.mode = .device ∧ ¬S.comp then k * S.numEl * S.nShots else 0) * S.sz

/-- Byte offset of `w_store_2_t` (`scalar.cu` 638-642, 920-924). -/
def gOff2 (k : ℕ) : ℕ := if S.mode = .device ∧ S.comp then k * S.bytesComp * S.nShots else 0

/-- Byte offset of `w_store_3_t` (`scalar.cu` 643-650, 925-932). -/
def gOff3 (k : ℕ) : ℕ :=
  if S.mode = .cpu then k * (if S.comp then S.bytesComp else S.bytesUncomp) * S.nShots else 0

/-- `bytes_to_store` (`storage_utils.cu` 28-32, 47-48), `bytes_to_load` (77-80). -/
def gBytes : ℕ := if S.comp then S.bytesComp * S.nShots else S.bytesUncomp * S.nShots

/-- Bytes of `store_1a` and `store_1b` (`common.py` 189-232, 256-261). -/
def gAlloc1 (nt : ℕ) (b : Bool) : ℕ :=
  if b then
    match S.mode with
    | .device => if S.comp then S.nShots * S.numEl * S.sz else 0
    | .cpu => S.nShots * S.numEl * S.sz
    | _ => 0
  else S.alloc1 nt

/-- Bytes of `store_3` (`common.py` 240-254, 269-284). -/
def gAlloc3 (nt : ℕ) : ℕ :=
  match S.mode with
  | .cpu => S.numSteps nt * S.nShots * ((if S.comp then S.bytesComp else S.bytesUncomp) / S.sz) * S.sz
  | .disk => S.nShots * ((if S.comp then S.bytesComp else S.bytesUncomp) / S.sz) * S.sz
  | _ => 0

end SCfg

section exec
variable {d : ℕ} {R : Type*}

/-- `cudaMemcpyAsync`. -/
def memcpy (dst : Mem R) (doff : ℕ) (src : Mem R) (soff len : ℕ) : Mem R :=
  fun a => if doff ≤ a ∧ a < doff + len then src (soff + (a - doff)) else dst a

/-- Orders in which the threads of the kernels run, for each time step. -/
structure Sched (d : ℕ) (R : Type*) where
  /-- shots and cells of `forward_kernel` -/
  kern : ℕ → List (ℕ × Cell d)
  /-- `compress_kernel` and the contents of its shared memory before -/
  comp : ℕ → List (ℕ × ℕ × ℕ)
  sh : ℕ → ℕ → ℕ → R
  /-- `decompress_kernel` -/
  dec : ℕ → List (ℕ × ℕ)

variable [Field R] [LinearOrder R] [FloorRing R]

/-- Stores of `forward_kernel` to `w_store_1_t` (`scalar.cu` 286-290). -/
def gSnapWrites (S : SCfg d) (σ : Sched d R) (snap : ℕ → ℕ → Cell d → R) (t : ℕ) : List (ℕ × Frag R) :=
  (σ.kern t).flatMap fun p =>
    valWrites S.sz (S.gOff1 (t / S.ratio) + (p.1 * S.numEl + idx S.n p.2) * S.sz) (snap p.1 t p.2)

/-- The snapshot part of `forward_kernel`. -/
noncomputable def gSnap (S : SCfg d) (σ : Sched d R) (snap : ℕ → ℕ → Cell d → R) (t : ℕ) (x : GSt R) : GSt R :=
  { x with
      s1 := Function.update x.s1 (S.useB (t / S.ratio))
        (applyWrites (x.s1 (S.useB (t / S.ratio))) (gSnapWrites S σ snap t)) }

/-- Compression in `save_snapshot_gpu` (`storage_utils.cu` 36-49). -/
noncomputable def gEnc (junk : R) (S : SCfg d) (σ : Sched d R) (t : ℕ) (x : GSt R) : GSt R :=
  if S.comp then
    { x with
      s2 := gCompress junk S.sz S.n S.nShots (σ.comp t) (σ.sh t) (x.s1 (S.useB (t / S.ratio)))
        (S.gOff1 (t / S.ratio)) x.s2 (S.gOff2 (t / S.ratio)) }
  else x

/-- Copy to the host (`storage_utils.cu` 51-56). -/
def gPut (S : SCfg d) (k : ℕ) (x : GSt R) : GSt R :=
  if S.mode = .cpu ∨ S.mode = .disk then
    { x with
      s3 := memcpy x.s3 (S.gOff3 k) (if S.comp then x.s2 else x.s1 (S.useB k))
        (if S.comp then S.gOff2 k else S.gOff1 k) S.gBytes }
  else x

/-- Writing to the file (`storage_utils.cu` 57-62). -/
def gWrite (S : SCfg d) (k : ℕ) (x : GSt R) : GSt R :=
  if S.mode = .disk then
    match x.fp with
    | some fp => { x with
      file := fwrite (fseek fp (k * S.gBytes)) x.file
        ((List.range S.gBytes).map fun j => x.s3 (S.gOff3 k + j)) }
    | none => x
  else x

/-- `save_snapshot_gpu` (`storage_utils.cu` 13-64). -/
noncomputable def gSave (junk : R) (S : SCfg d) (σ : Sched d R) (t : ℕ) (x : GSt R) : GSt R :=
  if S.mode = .none then x else
  gWrite S (t / S.ratio) (gPut S (t / S.ratio) (gEnc junk S σ t x))

/-- Iteration `t` of `forward` (`scalar.cu` 606-664), if the model requires a gradient. -/
noncomputable def gFwd (junk : R) (S : SCfg d) (σ : Sched d R) (snap : ℕ → ℕ → Cell d → R) (t : ℕ) (x : GSt R) :
    GSt R :=
  if t % S.ratio = 0 then gSave junk S σ t (gSnap S σ snap t x) else x

/-- Reading from the file (`storage_utils.cu` 84-91). -/
def gRead (S : SCfg d) (k : ℕ) (x : GSt R) : GSt R :=
  if S.mode = .disk then
    match x.fp with
    | some fp =>
      let data := fread (fseek fp (k * S.gBytes)) x.file S.gBytes
      { x with
      s3 := applyWrites x.s3 (data.zipIdx.map fun p => (S.gOff3 k + p.2, p.1))
      failed := x.failed || data.length != S.gBytes }
    | none => { x with failed := true }
  else x

/-- Copy to the device (`storage_utils.cu` 93-97). -/
def gGet (S : SCfg d) (k : ℕ) (x : GSt R) : GSt R :=
  if S.mode = .cpu ∨ S.mode = .disk then
    if S.comp then { x with s2 := memcpy x.s2 (S.gOff2 k) x.s3 (S.gOff3 k) S.gBytes }
    else { x with
      s1 := Function.update x.s1 (S.useB k)
        (memcpy (x.s1 (S.useB k)) (S.gOff1 k) x.s3 (S.gOff3 k) S.gBytes) }
  else x

/-- Decompression (`storage_utils.cu` 99-111). -/
noncomputable def gDec (junk : R) (junkQ : ℕ) (S : SCfg d) (σ : Sched d R) (t : ℕ) (x : GSt R) : GSt R :=
  if S.comp then
    { x with
      s1 := Function.update x.s1 (S.useB (t / S.ratio))
        (gDecompress junk junkQ S.sz S.n S.nShots (σ.dec t) x.s2 (S.gOff2 (t / S.ratio))
          (x.s1 (S.useB (t / S.ratio))) (S.gOff1 (t / S.ratio))) }
  else x

/-- `load_snapshot_gpu` (`storage_utils.cu` 66-113).  After a short read the code returns 1 at once; the rest is
executed here, with `failed` set. -/
noncomputable def gLoad (junk : R) (junkQ : ℕ) (S : SCfg d) (σ : Sched d R) (t : ℕ) (x : GSt R) : GSt R :=
  if S.mode = .none then x else
  gDec junk junkQ S σ t (gGet S (t / S.ratio) (gRead S (t / S.ratio) x))

/-- Iteration `t` of `backward` up to the loading of the snapshot (`scalar.cu` 892-945). -/
noncomputable def gBwd (junk : R) (junkQ : ℕ) (S : SCfg d) (σ : Sched d R) (t : ℕ) (x : GSt R) : GSt R :=
  if t % S.ratio = 0 then gLoad junk junkQ S σ t x else x

/-- What `backward_kernel` then reads for shot `s` at cell `c` (`scalar.cu` 376-380). -/
noncomputable def gSeen (junk : R) (S : SCfg d) (s t : ℕ) (x : GSt R) (c : Cell d) : R :=
  readVal junk S.sz (x.s1 (S.useB (t / S.ratio)))
    (S.gOff1 (t / S.ratio) + (s * S.numEl + idx S.n c) * S.sz)

/-- An operation of a call of an exported function: the file is opened (`scalar.cu` 601-604, 887-890), a step is
done, the file is closed (the destructor of `ScopedFile`). -/
def gExec (S : SCfg d) (iter : ℕ → GSt R → GSt R) (o : Op) (x : GSt R) : GSt R :=
  match o with
  | .fopen m => if S.mode = .disk then { x with file := fopenContent m x.file, fp := some ⟨m, 0⟩ } else x
  | .iter t => iter t x
  | .fclose => { x with fp := none }

def gExecAll (S : SCfg d) (iter : ℕ → GSt R → GSt R) (os : List Op) (x : GSt R) : GSt R :=
  os.foldl (fun x o => gExec S iter o x) x

/-- Storage as `StorageManager.allocate` makes it for `nt` steps: zeros in the tensors, anything outside of them,
no file. -/
structure GSt.Fresh (S : SCfg d) (nt : ℕ) (x : GSt R) : Prop where
  s1 : ∀ b, ∀ a < S.gAlloc1 nt b, x.s1 b a = .part 0 (a % S.sz)
  file : x.file = []
  fp : x.fp = none
  failed : x.failed = false

/-- The orders are ones that the GPU may choose: `forward_kernel` writes the snapshot of every shot at the cells
`written`, and the compression kernels are executed as C74 requires. -/
structure Sched.Ok (S : SCfg d) (σ : Sched d R) : Prop where
  kern : ∀ t p, p ∈ σ.kern t ↔ p.1 < S.nShots ∧ p.2 ∈ S.written
  comp : ∀ t, IsRun d (totalBlocks S.n S.nShots) (σ.comp t)
  dec : ∀ t b i, (b, i) ∈ σ.dec t ↔ b < totalBlocks S.n S.nShots ∧ i < tpb d

/-- The configurations of the code. -/
structure SCfg.GOk (S : SCfg d) : Prop where
  sz : 0 < S.sz
  ratio : 0 < S.ratio
  pos : ∀ k, 0 < S.n k
  written : ∀ c ∈ S.written, InShape S.n c
  mode : S.mode ≠ .none

end exec

end Dw.Storage
