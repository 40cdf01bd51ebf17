import Verif.Model.Basic

/-
stream_shared_iterator.hpp, for iterators over one stream.  Iterators are numbered in the
order of their construction.  The stream is the list of its characters; `istream::read` gives
the number asked for or, at the end, those that are left.
-/
namespace Lexertl.Stream

/-- stream_shared_iterator.hpp:300-303: the members of an iterator (`shared`: whether
`_shared` is not null; there is one shared object). -/
structure It where
  master : Bool
  live : Bool
  index : Nat
  shared : Bool
  deriving DecidableEq, Repr

/-- stream_shared_iterator.hpp:158-165: the members of `shared`; `stream` is what is left to
read. -/
structure Shared where
  ref : Nat
  stream : List Nat
  increment : Nat
  len : Nat
  buffer : List Nat
  clients : List Nat
  deriving DecidableEq, Repr

/-- All iterators (`none`: destroyed) and the shared object (`none`: deleted). -/
structure World where
  its : List (Option It)
  shared : Option Shared
  deriving DecidableEq, Repr

/-- stream_shared_iterator.hpp:294-297 `npos` (64-bit `size_t`). -/
def npos : Nat := 2 ^ 64 - 1

/-- stream_shared_iterator.hpp:243: an iterator, reached through a pointer or by name. -/
def getIt (its : List (Option It)) (i : Nat) : M It :=
  match its[i]? with
  | some (some it) => .ok it
  | _ => .error (.ub "iterator")

/-- stream_shared_iterator.hpp:303: the shared object. -/
def World.getShared (w : World) : M Shared :=
  match w.shared with
  | some s => .ok s
  | none => .error (.ub "_shared")

/-- stream_shared_iterator.hpp:241-249: the values of `ptr_->_index` of the clients, in order. -/
def indexes (its : List (Option It)) : List Nat → M (List Nat)
  | [] => .ok []
  | c :: cs => do
    let it ← getIt its c
    let is ← indexes its cs
    .ok (it.index :: is)

/-- stream_shared_iterator.hpp:235-257 `lowest`, given the indexes of the clients. -/
def lowestOf (is : List Nat) : Nat :=
  let l := is.foldl (fun l i => if i < l then i else l) npos
  if l = npos then 0 else l

/-- stream_shared_iterator.hpp:259-276 `highest`, given the indexes of the clients. -/
def highestOf (is : List Nat) : Nat :=
  is.foldl (fun h i => if i ≠ npos ∧ i > h then i else h) 0

/-- stream_shared_iterator.hpp:235-257 `lowest`: reads the index through each client pointer. -/
def lowest (its : List (Option It)) (s : Shared) : M Nat := do
  let is ← indexes its s.clients
  .ok (lowestOf is)

/-- stream_shared_iterator.hpp:259-276 `highest`. -/
def highest (its : List (Option It)) (s : Shared) : M Nat := do
  let is ← indexes its s.clients
  .ok (highestOf is)

/-- stream_shared_iterator.hpp:278-292 `subtract` (`size_t` arithmetic). -/
def subtract (lo : Nat) : List Nat → List (Option It) → M (List (Option It))
  | [], its => .ok its
  | c :: cs, its => do
    let it ← getIt its c
    let its := if it.index ≠ npos then
        its.set c (some { it with index := (it.index + (npos + 1) - lo) % (npos + 1) })
      else its
    subtract lo cs its

/-- stream_shared_iterator.hpp:167-175 constructor of `shared` and 31-40 constructor of a master iterator: it is the
first iterator. -/
def World.start (text : List Nat) (size increment : Nat) : M World :=
  if size = 0 then .error (.ub "_buffer.front()")
  else
    let chunk := text.take size
    .ok ⟨[some ⟨true, false, npos, true⟩],
      some ⟨1, text.drop size, increment, chunk.length, chunk ++ List.replicate (size - chunk.length) 0, [0]⟩⟩

/-- stream_shared_iterator.hpp:179-225 `reload_buffer`.  `lowest_` equal to the size of the
buffer copies nothing and is taken to be harmless.  `strict`: copying between overlapping ranges with `memcpy` is
undefined behaviour; otherwise it is taken to copy. -/
def reload (strict : Bool) (its : List (Option It)) (s : Shared) : M (List (Option It) × Shared × Bool) := do
  let lo ← lowest its s
  if lo = 0 then
    let chunk := s.stream.take s.increment
    let s' := { s with
      buffer := s.buffer ++ chunk ++ List.replicate (s.increment - chunk.length) 0
      stream := s.stream.drop s.increment }
    if chunk.length ≠ 0 then .ok (its, { s' with len := chunk.length + s.buffer.length }, true)
    else .ok (its, s', false)
  else if lo > s.buffer.length then .error (.ub "_buffer[lowest_]")
  else
    let start := s.buffer.length - lo
    if strict ∧ start > lo then .error (.ub "memcpy of overlapping ranges")
    else do
      let chunk := s.stream.take lo
      let its ← subtract lo s.clients its
      let s' := { s with
        buffer := s.buffer.drop lo ++ chunk ++ s.buffer.drop (start + chunk.length)
        stream := s.stream.drop lo }
      if chunk.length ≠ 0 then .ok (its, { s' with len := chunk.length + start }, true)
      else do
        let h ← highest its s'
        .ok (its, { s' with len := h }, false)

/-- stream_shared_iterator.hpp:305-319 `check_master`. -/
def checkMaster (w : World) (i : Nat) : M World := do
  let it ← getIt w.its i
  if ¬ it.shared then .error (.throw "Cannot manipulate null (end) stream_shared_iterators.")
  else if it.master then do
    let s ← w.getShared
    let lo ← lowest w.its s
    .ok { w with its := w.its.set i (some { it with master := false, live := true, index := lo }) }
  else .ok w

/-- stream_shared_iterator.hpp:321-330 `update_state`. -/
def updateState (strict : Bool) (w : World) (i : Nat) : M World := do
  let it ← getIt w.its i
  let s ← w.getShared
  if it.index ≥ s.len then do
    let (its, s, r) ← reload strict w.its s
    if r then .ok ⟨its, some s⟩
    else do
      let it ← getIt its i
      .ok ⟨its.set i (some { it with index := npos, live := false }), some { s with clients := s.clients.erase i }⟩
  else .ok w

/-- What an operation of stream_shared_iterator.hpp:29-152 gives back. -/
inductive Output
  | nothing
  | char (c : Nat)
  | bool (b : Bool)
  | iter (i : Nat)
  deriving DecidableEq, Repr

/-- The operations of stream_shared_iterator.hpp:29-152. -/
inductive Op
  | default
  | copy (i : Nat)
  | assign (i j : Nat)
  | inc (i : Nat)
  | deref (i : Nat)
  | eq (i j : Nat)
  | destroy (i : Nat)
  deriving DecidableEq, Repr

/-- stream_shared_iterator.hpp:62 `--` of a `size_t`. -/
def decr (n : Nat) : Nat := if n = 0 then npos else n - 1

/-- stream_shared_iterator.hpp:42-56 copy constructor. -/
def World.copy (w : World) (i : Nat) : M World := do
  let it ← getIt w.its i
  let index ← if it.master then (do let s ← w.getShared; lowest w.its s) else .ok it.index
  if it.shared then do
    let s ← w.getShared
    .ok ⟨w.its ++ [some ⟨false, true, index, true⟩], some { s with ref := s.ref + 1, clients := s.clients ++ [w.its.length] }⟩
  else .ok { w with its := w.its ++ [some ⟨false, false, index, false⟩] }

/-- stream_shared_iterator.hpp:73-112 copy assignment. -/
def World.assign (w : World) (i j : Nat) : M World :=
  if i = j then do
    let _ ← getIt w.its i
    .ok w
  else do
    let it ← getIt w.its i
    let rhs ← getIt w.its j
    let index ← if rhs.master then (do let s ← w.getShared; lowest w.its s) else .ok rhs.index
    let its := w.its.set i (some ⟨false, rhs.live, index, rhs.shared⟩)
    if ¬ it.live ∧ ¬ rhs.live then
      if rhs.shared then do
        let s ← w.getShared
        .ok ⟨its, some { s with ref := s.ref + 1 }⟩
      else .ok { w with its := its }
    else if ¬ it.live ∧ rhs.live then do
      let s ← w.getShared
      .ok ⟨its, some { s with clients := s.clients ++ [i], ref := if it.shared then s.ref else s.ref + 1 }⟩
    else if it.live ∧ ¬ rhs.live then do
      let s ← w.getShared
      .ok ⟨its, some { s with clients := s.clients.erase i, ref := if rhs.shared then s.ref else decr s.ref }⟩
    else .ok { w with its := its }

/-- stream_shared_iterator.hpp:58-71 destructor. -/
def World.destroy (w : World) (i : Nat) : M World := do
  let it ← getIt w.its i
  let its := w.its.set i none
  if it.shared then do
    let s ← w.getShared
    .ok ⟨its, if decr s.ref = 0 then none else some { s with ref := decr s.ref, clients := s.clients.erase i }⟩
  else .ok { w with its := its }

/-- stream_shared_iterator.hpp:114-122 `==`. -/
def itEq (a b : It) : Bool :=
  a.index == b.index && (a.shared == b.shared || ((a.index == npos || b.index == npos) && (!a.shared || !b.shared)))

/-- stream_shared_iterator.hpp:130-134 `*`. -/
def World.deref (w : World) (i : Nat) : M (World × Output) := do
  let w ← checkMaster w i
  let it ← getIt w.its i
  let s ← w.getShared
  match s.buffer[it.index]? with
  | some c => .ok (w, .char c)
  | none => .error (.ub "_buffer[_index]")

/-- stream_shared_iterator.hpp:136-142 `++`; the postfix form (144-152) is a copy followed by this. -/
def World.inc (strict : Bool) (w : World) (i : Nat) : M World := do
  let w ← checkMaster w i
  let it ← getIt w.its i
  updateState strict { w with its := w.its.set i (some { it with index := (it.index + 1) % (npos + 1) }) } i

/-- One operation of stream_shared_iterator.hpp:29-152. -/
def World.step (strict : Bool) (w : World) : Op → M (World × Output)
  | .default => .ok ({ w with its := w.its ++ [some ⟨false, false, npos, false⟩] }, .iter w.its.length)
  | .copy i => do
    let w' ← w.copy i
    .ok (w', .iter w.its.length)
  | .assign i j => do
    let w' ← w.assign i j
    .ok (w', .nothing)
  | .inc i => do
    let w' ← w.inc strict i
    .ok (w', .nothing)
  | .deref i => w.deref i
  | .eq i j => do
    let a ← getIt w.its i
    let b ← getIt w.its j
    .ok (w, .bool (itEq a b))
  | .destroy i => do
    let w' ← w.destroy i
    .ok (w', .nothing)

/-- A sequence of operations, with what each gives back. -/
def World.run (strict : Bool) : World → List Op → M (World × List Output)
  | w, [] => .ok (w, [])
  | w, op :: ops => do
    let (w, o) ← w.step strict op
    let (w, os) ← World.run strict w ops
    .ok (w, o :: os)

end Lexertl.Stream
