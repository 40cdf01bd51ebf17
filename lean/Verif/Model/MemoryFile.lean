import Verif.Model.Basic

/-
memory_file.hpp, the version for POSIX systems (the one for Windows is not modelled), together
with the part of the operating system it calls: the descriptors that are open in the process,
the pages that are mapped, and who asked for each of them.
-/
namespace Lexertl.MemFile

/-- Who opened a descriptor or mapped a page: the memory file with a number, or the rest of the
program. -/
abbrev Owner := Option Nat

/-- A mapped page: who mapped it, which file it shows, and which page of the file. -/
structure Page where
  owner : Owner
  file : Nat
  index : Nat
  deriving DecidableEq, Repr

/-- The process as the operating system sees it: open descriptors, mapped pages. -/
structure Os where
  fds : Nat → Option Owner
  pages : Nat → Option Page

/-- memory_file.hpp:145-152: the members of an object.  `data` is the page `_data` points to
(`mmap` returns the address of a page), `none` for `nullptr`. -/
structure MemFile where
  data : Option Nat
  size : Nat
  fh : Int
  deriving DecidableEq, Repr

/-- What does not change: `sizeof(char_type)`, the page size, and the contents of the files, as
bytes. -/
structure Env where
  charSize : Nat
  pageSize : Nat
  file : Nat → List Nat

/-- The number of pages `len` bytes take. -/
def Env.pagesOf (E : Env) (len : Nat) : Nat := (len + E.pageSize - 1) / E.pageSize

/-- What `::open`, `::fstat` and `::mmap` answer during one call of `open`
(memory_file.hpp:78-88): `::open` fails, `::fstat` fails, `::mmap` fails, or the file is mapped
from page `base` on. -/
inductive Answer
  | noFile
  | noStat (fd : Nat)
  | noMap (fd : Nat)
  | mapped (fd base : Nat)
  deriving DecidableEq, Repr

/-- `::close(fd)`: an open descriptor is closed; anything else is an error without effect. -/
def Os.close (os : Os) (fd : Int) : Os :=
  if 0 ≤ fd then { os with fds := fun n => if n = fd.toNat then none else os.fds n } else os

/-- `::munmap` of `len` bytes from page `base` on: every page that has one of these bytes.  With
`len = 0` an error without effect. -/
def Os.munmap (E : Env) (os : Os) (base len : Nat) : Os :=
  { os with pages := fun p => if base ≤ p ∧ p < base + E.pagesOf len then none else os.pages p }

/-- `::open` that returned `fd`. -/
def Os.opened (os : Os) (who : Owner) (fd : Nat) : Os :=
  { os with fds := fun n => if n = fd then some who else os.fds n }

/-- `::mmap` of a whole file, from page `base` on. -/
def Os.mmap (E : Env) (os : Os) (who : Owner) (f base : Nat) : Os :=
  { os with pages := fun p =>
      if base ≤ p ∧ p < base + E.pagesOf (E.file f).length then some ⟨who, f, p - base⟩ else os.pages p }

/-- What the operating system may answer: `::open` gives a descriptor that is not open, `::mmap`
pages that are not mapped, never at address 0, and it does not map files without contents. -/
def Answer.legal (E : Env) (os : Os) (f : Nat) : Answer → Prop
  | .noFile => True
  | .noStat fd => os.fds fd = none
  | .noMap fd => os.fds fd = none
  | .mapped fd base => os.fds fd = none ∧ 0 < base ∧ E.file f ≠ [] ∧
      ∀ p, base ≤ p → p < base + E.pagesOf (E.file f).length → os.pages p = none

/-- memory_file.hpp:30, 145-151: a new object. -/
def MemFile.new : MemFile := ⟨none, 0, 0⟩

/-- memory_file.hpp:113-142 `close`. -/
def close (E : Env) (os : Os) (m : MemFile) : Os × MemFile :=
  let (os, m) := match m.data with
    | some base => (os.munmap E base m.size, { m with data := none, size := 0 })      -- 115-124
    | none => (os, m)
  let os := if m.fh ≠ 0 then os.close m.fh else os                                    -- 137-138
  (os, { m with fh := 0 })                                                            -- 140

/-- memory_file.hpp:49-52: the beginning of `open`. -/
def reopen (E : Env) (os : Os) (m : MemFile) : Os × MemFile :=
  if m.data ≠ none then close E os m else (os, m)

/-- memory_file.hpp:47-101 `open` of file `f` by object `who`. -/
def openFile (E : Env) (who : Nat) (f : Nat) (a : Answer) (os : Os) (m : MemFile) : Os × MemFile :=
  let (os, m) := reopen E os m
  match a with
  | .noFile => (os, { m with fh := -1 })                                              -- 78-80
  | .noStat fd => (os.opened (some who) fd, { m with fh := fd })                      -- 84
  | .noMap fd => (os.opened (some who) fd, { m with fh := fd, data := none })         -- 90-93
  | .mapped fd base => ((os.opened (some who) fd).mmap E (some who) f base,
      { data := some base, size := (E.file f).length / E.charSize, fh := fd })        -- 94-97

/-- The process: the operating system's view and the objects there are. -/
structure World where
  os : Os
  objs : Nat → Option MemFile

/-- What happens in the process: an object is made, `open` or `close` is called, an object is
destroyed (memory_file.hpp:42-45), and the rest of the program opens, closes, maps and unmaps
things of its own. -/
inductive Op
  | new (i : Nat)
  | open (i f : Nat) (a : Answer)
  | close (i : Nat)
  | destroy (i : Nat)
  | otherOpen (fd : Nat)
  | otherClose (fd : Nat)
  | otherMap (p : Nat)
  | otherUnmap (p : Nat)
  deriving DecidableEq, Repr

/-- `objs` with object `i` changed. -/
def World.set (w : World) (i : Nat) (o : Option MemFile) : Nat → Option MemFile :=
  fun j => if j = i then o else w.objs j

/-- One thing that can happen (memory_file.hpp:30, 42-45, 47-101, 113-142). -/
inductive Step (E : Env) : World → Op → World → Prop
  | new {w : World} {i : Nat} : w.objs i = none → Step E w (.new i) ⟨w.os, w.set i (some .new)⟩
  | open {w : World} {i f : Nat} {a : Answer} {m : MemFile} : w.objs i = some m →
      a.legal E (reopen E w.os m).1 f →
      Step E w (.open i f a) ⟨(openFile E i f a w.os m).1, w.set i (some (openFile E i f a w.os m).2)⟩
  | close {w : World} {i : Nat} {m : MemFile} : w.objs i = some m →
      Step E w (.close i) ⟨(close E w.os m).1, w.set i (some (close E w.os m).2)⟩
  | destroy {w : World} {i : Nat} {m : MemFile} : w.objs i = some m →
      Step E w (.destroy i) ⟨(MemFile.close E w.os m).1, w.set i none⟩
  | otherOpen {w : World} {fd : Nat} : w.os.fds fd = none → Step E w (.otherOpen fd) ⟨w.os.opened none fd, w.objs⟩
  | otherClose {w : World} {fd : Nat} : w.os.fds fd = some none →
      Step E w (.otherClose fd) ⟨w.os.close fd, w.objs⟩
  | otherMap {w : World} {p : Nat} : w.os.pages p = none → Step E w (.otherMap p)
      ⟨{ w.os with pages := fun q => if q = p then some ⟨none, 0, 0⟩ else w.os.pages q }, w.objs⟩
  | otherUnmap {w : World} {p : Nat} {g : Page} : w.os.pages p = some g → g.owner = none →
      Step E w (.otherUnmap p) ⟨{ w.os with pages := fun q => if q = p then none else w.os.pages q }, w.objs⟩

/-- Any number of things that happen one after the other. -/
inductive Run (E : Env) : World → List Op → World → Prop
  | nil {w : World} : Run E w [] w
  | cons {w w' w'' : World} {op : Op} {ops : List Op} : Step E w op w' → Run E w' ops w'' → Run E w (op :: ops) w''

/-- Before any memory file has been made; the rest of the program may have descriptors open and
pages mapped. -/
structure World.Start (w : World) : Prop where
  noObjs : ∀ i, w.objs i = none
  fds : ∀ fd i, w.os.fds fd ≠ some (some i)
  pages : ∀ p g, w.os.pages p = some g → g.owner = none

end Lexertl.MemFile
