import Mathlib.Algebra.Order.Floor.Ring
import Mathlib.Algebra.BigOperators.Fin
import Verif.Core.Loop
import Verif.Core.Dot
import Verif.Core.Py
import Verif.Setup.SurveyLemmas

/-!
# Model of snapshot storage and compression

Models `simple_compress.c`, `storage_utils.c`, the storage parts of the time loops of `scalar.c`
(the other propagators use the same statements), and `StorageManager` (`common.py` 116-291).

Memory is bytes.  A floating-point value occupies `sz` bytes; the bytes themselves are symbolic:
byte `k` of value `x` is `Frag.part x k`, and a value can be read back only if all its bytes are in
place.  Reading anything else gives an arbitrary value `junk`, over which all theorems quantify.
The flat index `z * ny * nx + y * nx + x` is `Setup.rowMajor`.
-/

namespace Dw.Storage

open Classical
open Setup (rowMajor InShape)

/-- One byte of memory or of a file. -/
inductive Frag (R : Type*)
  | part (x : R) (k : ℕ)
  | u8 (q : ℕ)
  | undef

/-- The bytes of an allocation. -/
abbrev Mem (R : Type*) := ℕ → Frag R

section bytes
variable {R : Type*}

/-- Byte stores executed in order. -/
def applyWrites (m : Mem R) (ws : List (ℕ × Frag R)) : Mem R :=
  ws.foldl (fun m w => Function.update m w.1 w.2) m

/-- The byte stores of one floating-point store at byte offset `off`. -/
def valWrites (sz off : ℕ) (x : R) : List (ℕ × Frag R) :=
  (List.range sz).map fun k => (off + k, .part x k)

/-- Load of a floating-point value. -/
noncomputable def readVal (junk : R) (sz : ℕ) (m : Mem R) (off : ℕ) : R :=
  match m off with
  | .part x _ => if ∀ k < sz, m (off + k) = .part x k then x else junk
  | _ => junk

/-- A byte as a `uint8_t`. -/
def Frag.asU8 (junkQ : ℕ) : Frag R → ℕ
  | .u8 q => q
  | _ => junkQ

/-- Load of a `uint8_t`. -/
def readU8 (junkQ : ℕ) (m : Mem R) (off : ℕ) : ℕ := (m off).asU8 junkQ

end bytes

section compress
variable {d : ℕ} {R : Type*}

/-- Flat index of a cell. -/
def idx (n : Fin d → ℤ) (c : Cell d) : ℕ := (rowMajor n c).toNat

/-- `nbx`, `nby`, `nbz` (`simple_compress.c` 25-35, 144-154). -/
def nb (n : Fin d → ℤ) (k : Fin d) : ℤ := (n k + 8 - 1) / 8

/-- `n_blocks` (`simple_compress.c` 36, 155; `common.py` 160-162). -/
def nBlocks (n : Fin d → ℤ) : ℕ := (∏ k, nb n k).toNat

/-- The block loops (`simple_compress.c` 41-58, 161-178). -/
def blocks (n : Fin d → ℤ) : List (Cell d) := nest d fun k => intRange 0 (nb n k)

/-- The loops over the cells of block `b` (`simple_compress.c` 59-71, 100-107, 184-194):
`x_start = bx * 8`, `x_end` is the smaller of `x_start + 8` and `nx`. -/
def cellsOf (n : Fin d → ℤ) (b : Cell d) : List (Cell d) :=
  nest d fun k => intRange (b k * 8) (if b k * 8 + 8 < n k then b k * 8 + 8 else n k)

variable [Field R] [LinearOrder R] [FloorRing R]

/-- `dw_abs` (`simple_compress.c` 12). -/
def dwAbs (v : R) : R := if 0 ≤ v then v else -v

/-- Largest magnitude of a block (`simple_compress.c` 61, 71-81). -/
def maxAbs (n : Fin d → ℤ) (inp : Cell d → R) (b : Cell d) : R :=
  (cellsOf n b).foldl (fun m c => if m < dwAbs (inp c) then dwAbs (inp c) else m) 0

/-- Conversion of a floating-point value to `uint8_t` truncates; it is undefined unless the truncated
value fits. -/
def toU8 (x : R) : Frag R := if -1 < x ∧ x < 256 then .u8 ⌊x⌋.toNat else .undef

/-- `scale` of `compress` (`simple_compress.c` 95-96). -/
def cScale (m : R) : R := if 0 < m then 127 / m else 0

/-- Quantised value (`simple_compress.c` 114-115). -/
def quant (v scale : R) : Frag R := toU8 (128 + v * scale + 1 / 2)

/-- The stores of `compress_cpu` in order, into the buffer at byte offset `off`
(`simple_compress.c` 15-131). -/
def compressWrites (sz : ℕ) (n : Fin d → ℤ) (inp : Cell d → R) (off : ℕ) : List (ℕ × Frag R) :=
  (blocks n).flatMap fun b =>
    let m := maxAbs n inp b
    valWrites sz (off + idx (nb n) b * sz) m ++
      (cellsOf n b).map fun c => (off + nBlocks n * sz + idx n c, quant (inp c) (cScale m))

/-- The stores of `decompress_cpu` in order, from the buffer at `off2` of `m2` to the array at byte
offset `off1` (`simple_compress.c` 134-217). -/
noncomputable def decompressWrites (junk : R) (junkQ sz : ℕ) (n : Fin d → ℤ) (m2 : Mem R)
    (off2 off1 : ℕ) : List (ℕ × Frag R) :=
  (blocks n).flatMap fun b =>
    let scale := readVal junk sz m2 (off2 + idx (nb n) b * sz) / 127
    (cellsOf n b).flatMap fun c =>
      valWrites sz (off1 + idx n c * sz)
        (((readU8 junkQ m2 (off2 + nBlocks n * sz + idx n c) : R) - 128) * scale)

end compress

/-! ### Files -/

/-- Modes of `fopen`. -/
inductive OpenMode
  | ab | rb | wb
  deriving DecidableEq

/-- An open `FILE`: mode and position. -/
structure Fp where
  mode : OpenMode
  pos : ℕ

section files
variable {R : Type*}

/-- Content of a file after `fopen`: `"wb"` truncates it.  A missing file is an empty one. -/
def fopenContent (m : OpenMode) (content : List (Frag R)) : List (Frag R) :=
  if m = .wb then [] else content

/-- `fseek(fp, off, SEEK_SET)`. -/
def fseek (fp : Fp) (off : ℕ) : Fp := { fp with pos := off }

/-- `fwrite`: in append mode the data goes to the end of the file whatever the position. -/
def fwrite (fp : Fp) (content data : List (Frag R)) : List (Frag R) :=
  match fp.mode with
  | .ab => content ++ data
  | .wb => content.take fp.pos ++ List.replicate (fp.pos - content.length) .undef ++ data ++
      content.drop (fp.pos + data.length)
  | .rb => content

/-- The bytes `fread` stores; fewer if the file is shorter. -/
def fread (fp : Fp) (content : List (Frag R)) (len : ℕ) : List (Frag R) :=
  (content.drop fp.pos).take len

end files

/-! ### Storage manager and time loops -/

/-- `StorageMode` (`common.py` 37-43, `storage_utils.h` 9-12). -/
inductive StorageMode
  | device | cpu | disk | none
  deriving DecidableEq

/-- Choice of storage mode for a tensor on the CPU (`scalar.py` 668-684). -/
def parseMode (s : String) : Except PyErr StorageMode :=
  let s := if s = "cpu" then "device" else s
  if s = "device" then .ok .device
  else if s = "cpu" then .ok .cpu
  else if s = "disk" then .ok .disk
  else if s = "none" then .ok .none
  else .error .valueError

/-- What the storage functions depend on. -/
structure SCfg (d : ℕ) where
  /-- padded shape -/
  n : Fin d → ℤ
  /-- `dtype_size`, 4 or 8 -/
  sz : ℕ
  nShots : ℕ
  /-- `step_ratio` -/
  ratio : ℕ
  mode : StorageMode
  comp : Bool
  /-- cells the kernel writes a snapshot value to -/
  written : List (Cell d)

namespace SCfg
variable {d : ℕ} (S : SCfg d)

/-- `num_elements_per_shot` (`common.py` 157), `n_grid_points` (`scalar.c`). -/
def numEl : ℕ := (∏ k, S.n k).toNat

/-- `shot_bytes_uncomp` (`common.py` 158). -/
def bytesUncomp : ℕ := S.numEl * S.sz

/-- `shot_bytes_comp` (`common.py` 159-173). -/
def bytesComp : ℕ :=
  if S.comp ∧ S.mode ≠ .none then
    (S.numEl + nBlocks S.n * S.sz + S.sz - 1) / S.sz * S.sz
  else 0

/-- `num_steps_stored` (`common.py` 187). -/
def numSteps (nt : ℕ) : ℕ := nt / S.ratio

/-- Bytes allocated for `store_1a` (`common.py` 189-232, 256-261) with `requires_grad`. -/
def alloc1 (nt : ℕ) : ℕ :=
  match S.mode with
  | .device => if S.comp then S.nShots * S.numEl * S.sz else S.numSteps nt * S.nShots * S.numEl * S.sz
  | .cpu => S.nShots * S.numEl * S.sz
  | .disk => S.nShots * S.numEl * S.sz
  | .none => 0

/-- Bytes allocated for `store_2` (`common.py` 203-209, 233-239, 262-268). -/
def alloc2 (nt : ℕ) : ℕ :=
  if S.comp then
    match S.mode with
    | .device => S.numSteps nt * S.nShots * (S.bytesComp / S.sz) * S.sz
    | .cpu => S.nShots * (S.bytesComp / S.sz) * S.sz
    | .disk => S.nShots * (S.bytesComp / S.sz) * S.sz
    | .none => 0
  else 0

/-- Byte offset of `w_store_1_t` (`scalar.c` 284-288, 576-580; `shot_i` 252, 524). -/
def off1 (shot t : ℕ) : ℕ :=
  (shot * S.numEl + if S.mode = .device ∧ ¬S.comp then t / S.ratio * S.nShots * S.numEl else 0) * S.sz

/-- Byte offset of `w_store_2_t` (`scalar.c` 289-294, 581-586). -/
def off2 (shot t : ℕ) : ℕ :=
  (shot + if S.mode = .device ∧ S.comp then t / S.ratio * S.nShots else 0) * S.bytesComp

end SCfg

/-- Memory and files. -/
structure St (R : Type*) where
  store1 : Mem R
  store2 : Mem R
  /-- content of the file of each shot -/
  file : ℕ → List (Frag R)
  /-- open file of each shot -/
  fp : ℕ → Option Fp

/-- What one shot does, apart from wave propagation. -/
inductive Op
  | fopen (m : OpenMode)
  | iter (t : ℕ)
  | fclose

section exec
variable {d : ℕ} {R : Type*} [Field R] [LinearOrder R] [FloorRing R]

/-- Writing to the file (`storage_utils.c` 43-48). -/
def saveDisk (S : SCfg d) (shot t size : ℕ) (source : ℕ → Frag R) (s : St R) : St R :=
  match s.fp shot with
  | some fp =>
    let content := fwrite (fseek fp (t / S.ratio * size)) (s.file shot) ((List.range size).map source)
    { s with file := Function.update s.file shot content }
  | none => s

/-- `save_snapshot_cpu` (`storage_utils.c` 11-49). -/
noncomputable def save (junk : R) (S : SCfg d) (shot t : ℕ) (s : St R) : St R :=
  if S.mode = .none then s else
  let inp := fun c => readVal junk S.sz s.store1 (S.off1 shot t + idx S.n c * S.sz)
  let s1 := if S.comp then
      { s with store2 := applyWrites s.store2 (compressWrites S.sz S.n inp (S.off2 shot t)) }
    else s
  let size := if S.comp then S.bytesComp else S.bytesUncomp
  let source := if S.comp then fun j => s1.store2 (S.off2 shot t + j)
    else fun j => s1.store1 (S.off1 shot t + j)
  if S.mode = .disk then saveDisk S shot t size source s1 else s1

/-- Forward iteration `t` of a shot: the kernel stores the snapshot values `snap` in the cells it
visits (`scalar.c` 393-395) and `save_snapshot_cpu` is called (`scalar.c` 399-404), if the model
requires a gradient and `t % step_ratio == 0` (`scalar.c` 296). -/
noncomputable def fwdIter (junk : R) (S : SCfg d) (snap : Cell d → R) (shot t : ℕ) (s : St R) : St R :=
  if t % S.ratio = 0 then
    let ws := S.written.flatMap fun c => valWrites S.sz (S.off1 shot t + idx S.n c * S.sz) (snap c)
    save junk S shot t { s with store1 := applyWrites s.store1 ws }
  else s

/-- Reading from the file (`storage_utils.c` 65-72). -/
def loadDisk (S : SCfg d) (shot t : ℕ) (s : St R) : St R :=
  let size := if S.comp then S.bytesComp else S.bytesUncomp
  let off := if S.comp then S.off2 shot t else S.off1 shot t
  match s.fp shot with
  | some fp =>
    let data := fread (fseek fp (t / S.ratio * size)) (s.file shot) size
    let ws := data.zipIdx.map fun p => (off + p.2, p.1)
    if S.comp then { s with store2 := applyWrites s.store2 ws }
    else { s with store1 := applyWrites s.store1 ws }
  | none => s

/-- Decompression after loading (`storage_utils.c` 74-83). -/
noncomputable def loadRest (junk : R) (junkQ : ℕ) (S : SCfg d) (shot t : ℕ) (s : St R) : St R :=
  if S.comp then
    let ws := decompressWrites junk junkQ S.sz S.n s.store2 (S.off2 shot t) (S.off1 shot t)
    { s with store1 := applyWrites s.store1 ws }
  else s

/-- `load_snapshot_cpu` (`storage_utils.c` 51-85). -/
noncomputable def load (junk : R) (junkQ : ℕ) (S : SCfg d) (shot t : ℕ) (s : St R) : St R :=
  if S.mode = .none then s else
  loadRest junk junkQ S shot t (if S.mode = .disk then loadDisk S shot t s else s)

/-- Backward iteration `t` of a shot: `load_snapshot_cpu` (`scalar.c` 590-595). -/
noncomputable def bwdIter (junk : R) (junkQ : ℕ) (S : SCfg d) (shot t : ℕ) (s : St R) : St R :=
  if t % S.ratio = 0 then load junk junkQ S shot t s else s

/-- The value the backward kernel then reads at cell `c` (`scalar.c` 689-690). -/
noncomputable def seen (junk : R) (S : SCfg d) (shot t : ℕ) (s : St R) (c : Cell d) : R :=
  readVal junk S.sz s.store1 (S.off1 shot t + idx S.n c * S.sz)

/-- Execution of one operation of a shot, with the given meaning of an iteration. -/
def exec (S : SCfg d) (iter : ℕ → ℕ → St R → St R) (e : ℕ × Op) (s : St R) : St R :=
  match e.2 with
  | .fopen m => if S.mode = .disk then
      { s with file := Function.update s.file e.1 (fopenContent m (s.file e.1))
               fp := Function.update s.fp e.1 (some ⟨m, 0⟩) }
    else s
  | .iter t => iter e.1 t s
  | .fclose => { s with fp := Function.update s.fp e.1 none }

def execAll (S : SCfg d) (iter : ℕ → ℕ → St R → St R) (es : List (ℕ × Op)) (s : St R) : St R :=
  es.foldl (fun s e => exec S iter e s) s

/-- One call of `forward` for one shot (`scalar.c` 257-415): the file is opened with `"ab"`. -/
def fwdCall (start nt : ℕ) : List Op :=
  [.fopen .ab] ++ (List.range nt).map (fun i => .iter (start + i)) ++ [.fclose]

/-- One call of `backward` for one shot (`scalar.c` 538-703): the file is opened with `"rb"`. -/
def bwdCall (start nt : ℕ) : List Op :=
  [.fopen .rb] ++ (List.range nt).map (fun i => .iter (start - 1 - i)) ++ [.fclose]

/-- All calls of a shot: the chunk loop of the forward driver (`scalar.py` 851-911); `chunks` are
pairs of a start and a length in units of `step_ratio`. -/
def fwdProg (S : SCfg d) (chunks : List (ℕ × ℕ)) : List Op :=
  chunks.flatMap fun ch => fwdCall (ch.1 * S.ratio) (ch.2 * S.ratio)

/-- All calls of a shot: the chunk loop of the backward driver (`scalar.py` 1250-1290). -/
def bwdProg (S : SCfg d) (chunks : List (ℕ × ℕ)) : List Op :=
  chunks.flatMap fun ch => bwdCall (ch.1 * S.ratio) (ch.2 * S.ratio)

/-- Storage as allocated: tensors of zeros, no files. -/
def St.init (sz : ℕ) : St R :=
  { store1 := fun a => .part 0 (a % sz), store2 := fun a => .part 0 (a % sz)
    file := fun _ => [], fp := fun _ => none }

end exec

end Dw.Storage
