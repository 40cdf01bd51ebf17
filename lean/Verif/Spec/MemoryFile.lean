import Verif.Model.MemoryFile

/-
What the user of a memory file relies on.
-/
namespace Lexertl.MemFile

/-- The byte at an address, if its page shows a file; after the end of the file the page is
filled with zeros. -/
def Os.byte (E : Env) (os : Os) (addr : Nat) : Option Nat :=
  match os.pages (addr / E.pageSize) with
  | some g => some ((E.file g.file).getD (g.index * E.pageSize + addr % E.pageSize) 0)
  | none => none

/-- The file object `i` shows after a history: the one its last `open` mapped, if there was no
`close` since. -/
def shown (i : Nat) : List Op → Option Nat → Option Nat
  | [], cur => cur
  | .open j f (.mapped _ _) :: ops, cur => shown i ops (if j = i then some f else cur)
  | .open j _ _ :: ops, cur => shown i ops (if j = i then none else cur)
  | .new j :: ops, cur => shown i ops (if j = i then none else cur)
  | .close j :: ops, cur => shown i ops (if j = i then none else cur)
  | .destroy j :: ops, cur => shown i ops (if j = i then none else cur)
  | _ :: ops, cur => shown i ops cur

/-- Nothing that object `i` asked for is left: no descriptor and no page. -/
def Os.NothingOf (os : Os) (i : Nat) : Prop :=
  (∀ fd, os.fds fd ≠ some (some i)) ∧ ∀ p g, os.pages p = some g → g.owner ≠ some i

/-- Does an operation call a member function of object `i`? -/
def Op.uses (i : Nat) : Op → Bool
  | .new j | .open j _ _ | .close j | .destroy j => j == i
  | _ => false

/-- Histories in which object `i` never gets descriptor 0 and is not opened again, without a
`close`, after an `open` that got a descriptor and could not map the file.  `held`: such an
`open` came last. -/
def Careful (i : Nat) : List Op → Bool → Prop
  | [], _ => True
  | .open j _ a :: ops, held =>
    if j = i then
      held = false ∧ match a with
        | .noFile => Careful i ops false
        | .noStat fd => fd ≠ 0 ∧ Careful i ops true
        | .noMap fd => fd ≠ 0 ∧ Careful i ops true
        | .mapped fd _ => fd ≠ 0 ∧ Careful i ops false
    else Careful i ops held
  | .close j :: ops, held => Careful i ops (if j = i then false else held)
  | .new j :: ops, held => Careful i ops (if j = i then false else held)
  | .destroy j :: ops, held => Careful i ops (if j = i then false else held)
  | _ :: ops, held => Careful i ops held

end Lexertl.MemFile
