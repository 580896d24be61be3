import Mathlib.Data.Nat.Notation
import Mathlib.Logic.Function.Basic

/-!
# Temporary files of disk storage

Models `TemporaryStorage` (`common.py` 46-80) and what the compiled functions do with its files, for any number of
stores of any number of processes in one file system.

A directory is named by the node of its parent and its name in there; different base paths may lead to the same node.
That nodes of base paths are not themselves removed while stores use them (a base path inside the directory of
another store) is part of the model, as are file systems that are neither full nor write protected.
-/

namespace Dw.Storage

/-- `f"deepwave_tmp_{os.getpid()}_{uuid4().hex}"` (`common.py` 59). -/
def tmpName (pid : ℕ) (uuid : String) : String := "deepwave_tmp_" ++ pid.repr ++ "_" ++ uuid

/-- `f"shot_{i}.bin"` (`common.py` 64). -/
def shotName (i : ℕ) : String := "shot_" ++ i.repr ++ ".bin"

/-- A directory: node of the base path and name. -/
abbrev Dir := ℕ × String

/-- A `TemporaryStorage` object: `base_dir`, `filenames`. -/
structure TmpStore where
  dir : Dir
  names : List String

/-- File system and objects, with `β` for bytes. -/
structure World (β : Type*) where
  /-- existing directories -/
  dirs : Dir → Bool
  /-- content of the existing files -/
  files : Dir → String → Option (List β)
  /-- objects of all processes -/
  stores : ℕ → Option TmpStore

/-- What happens, in the order in which the file system sees it. -/
inductive FEv (β : Type*)
  /-- `TemporaryStorage(base_path, num_files)` becomes object `id` of the process `pid` -/
  | new (id base pid : ℕ) (uuid : String) (n : ℕ)
  /-- a file of the object is opened with `"ab"`, written and closed -/
  | append (id i : ℕ) (data : List β)
  /-- `close` or `__del__` -/
  | close (id : ℕ)
  /-- `close` or `__del__`, with `shutil.rmtree` failing after the removal of some files -/
  | closeFail (id : ℕ) (keep : String → Bool)
  /-- another program changes a file -/
  | other (dir : Dir) (name : String) (content : Option (List β))

variable {β : Type*}

/-- Effect of an event. -/
def World.step (w : World β) : FEv β → World β
  -- common.py 59-65: `mkdir(parents=True, exist_ok=True)`, names only, no files
  | .new id base pid uuid n =>
    { w with
      dirs := Function.update w.dirs (base, tmpName pid uuid) true
      stores := Function.update w.stores id
        (some ⟨(base, tmpName pid uuid), (List.range n).map shotName⟩) }
  -- scalar.c 265-280, 413-415; scalar.cu 601-604: a missing file is made, the directory must exist
  | .append id i data =>
    match w.stores id with
    | some s =>
      match s.names[i]? with
      | some f =>
        if w.dirs s.dir then
          { w with
            files := Function.update w.files s.dir
              (Function.update (w.files s.dir) f (some ((w.files s.dir f).getD [] ++ data))) }
        else w
      | none => w
    | none => w
  -- common.py 72-80
  | .close id =>
    match w.stores id with
    | some s =>
      if w.dirs s.dir then
        { w with
          dirs := Function.update w.dirs s.dir false
          files := Function.update w.files s.dir fun _ => none }
      else w
    | none => w
  | .closeFail id keep =>
    match w.stores id with
    | some s =>
      if w.dirs s.dir then
        { w with files := Function.update w.files s.dir fun f => if keep f then w.files s.dir f else none }
      else w
    | none => w
  | .other d f c => { w with files := Function.update w.files d (Function.update (w.files d) f c) }

/-- Effect of a sequence of events. -/
def World.run (w : World β) (es : List (FEv β)) : World β := es.foldl World.step w

/-- What is read from file `i` of object `id` with `"rb"` (`scalar.c` 546-560): a missing file has no data. -/
def World.content (w : World β) (id i : ℕ) : List β :=
  match w.stores id with
  | some s =>
    match s.names[i]? with
    | some f => (w.files s.dir f).getD []
    | none => []
  | none => []

/-! ### Names -/

theorem repr_toList_inj {a b : ℕ} (h : a.repr.toList = b.repr.toList) : a = b := by
  rw [Nat.toList_repr, Nat.toList_repr] at h
  rw [← Nat.ofDigitChars_ten_toDigits (n := a), h, Nat.ofDigitChars_ten_toDigits]

theorem shotName_inj {i j : ℕ} (h : shotName i = shotName j) : i = j := by
  have := congrArg String.toList h
  simp only [shotName, String.toList_append] at this
  exact repr_toList_inj (List.append_cancel_left (List.append_cancel_right this))

theorem tmpName_inj {pid pid' : ℕ} {u u' : String} (hl : u.length = u'.length)
    (h : tmpName pid u = tmpName pid' u') : u = u' := by
  have := congrArg String.toList h
  simp only [tmpName, String.toList_append] at this
  have := (List.append_inj' this (by rw [String.length_toList, String.length_toList]; exact hl)).2
  exact String.toList_inj.1 this

end Dw.Storage
