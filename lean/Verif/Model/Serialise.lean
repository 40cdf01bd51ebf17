import Verif.Model.Generator

/-
serialise.hpp: `save` and `load`, at the level of the characters written and read.
Characters are numbers (ASCII).
-/
namespace Lexertl

/-- internals.hpp:18-27 `basic_internals` as it is stored, the DFAs as flat vectors. -/
structure Raw where
  eoi : Nat
  lookup : List (List Nat)
  alphabet : List Nat
  features : Nat
  dfa : List (List Nat)
  deriving DecidableEq, Repr

/-- The vectors of a machine whose DFAs are seen as lists of rows: the rows one after the
other. -/
def Internals.flat (sm : Internals) : Raw :=
  ⟨sm.eoi, sm.lookup, sm.alphabet, sm.features, sm.dfa.map List.flatten⟩

/-- A flat DFA as rows of `a` cells (`n` bounds the number of rows). -/
def chunks (a : Nat) : Nat → List Nat → List Row
  | 0, _ => []
  | n + 1, xs => if xs = [] then [] else xs.take a :: chunks a n (xs.drop a)

/-- The machine seen as lists of rows, each row as wide as `_dfa_alphabet` says. -/
def Raw.rows (m : Raw) : Internals :=
  ⟨m.eoi, m.lookup, m.alphabet, m.features, List.zipWith (fun a xs => chunks a xs.length xs) m.alphabet m.dfa⟩

/-- internals.hpp:29-36 `clear`. -/
def Raw.cleared : Raw := ⟨0, [], [], 0, []⟩

/-- `static_cast<id_type>(~0)` for an id type of `w` bytes. -/
def idMax (w : Nat) : Nat := 256 ^ w - 1

/-- The largest `std::size_t`. -/
def sizeMax : Nat := 2 ^ 64 - 1

/-- `stream << n` for an unsigned number: decimal digits (`n` bounds their number). -/
def digits : Nat → Nat → List Nat
  | 0, _ => []
  | f + 1, n => if n < 10 then [48 + n] else digits f (n / 10) ++ [48 + n % 10]

def decimal (n : Nat) : List Nat := digits (n + 1) n

/-- `stream << id` for an id type of `w` bytes.  `std::uint8_t` is a character type, so the
id itself is the character written (narrow streams). -/
def writeId (w v : Nat) : List Nat := if w = 1 then [v] else decimal v

/-- serialise.hpp:30-47: the loop of `output_vec`; `len` is `line_len_`. -/
def outputLoop (w : Nat) : Nat → List Nat → List Nat
  | _, [] => []
  | len, x :: xs =>
    let str := writeId w x
    if len + str.length + 1 > 80 then 10 :: (str ++ 32 :: outputLoop w (str.length + 1) xs)
    else str ++ 32 :: outputLoop w (len + str.length + 1) xs

/-- serialise.hpp:21-50 `output_vec`. -/
def outputVec (w : Nat) (v : List Nat) : List Nat := decimal v.length ++ 10 :: (outputLoop w 0 v ++ [10])

/-- serialise.hpp:70-97 `save` for characters of `cw` and ids of `w` bytes.  (Streams of
`char32_t` cannot write numbers at all; this is not modelled.) -/
def save (cw w : Nat) (m : Raw) : List Nat :=
  decimal 1 ++ 10 :: (decimal cw ++ 10 :: (decimal w ++ 10 :: (writeId w m.eoi ++ 10 ::
    (decimal m.lookup.length ++ 10 :: (m.lookup.flatMap (outputVec w) ++ (outputVec w m.alphabet ++
      (writeId w m.features ++ 10 :: (decimal m.dfa.length ++ 10 :: m.dfa.flatMap (outputVec w)))))))))

/-- An input stream: what is left to read, and whether reading failed. -/
structure Stream where
  text : List Nat
  fail : Bool
  deriving DecidableEq, Repr

/-- `std::isspace` in the classic locale. -/
def isSpace (c : Nat) : Bool := c == 32 || (9 ≤ c && c ≤ 13)

def isDec (c : Nat) : Bool := 48 ≤ c && c ≤ 57

/-- The value of decimal digits. -/
def ofDigits (ds : List Nat) : Nat := ds.foldl (fun acc d => acc * 10 + (d - 48)) 0

/-- The number part of `stream >> n`, with or without a minus sign before it.  No digits: 0
and failure; too large: the largest value and failure; negative numbers wrap (libstdc++). -/
def readDigits (max : Nat) (neg : Bool) (t : List Nat) : Nat × Stream :=
  let ds := t.takeWhile isDec
  let rest := t.dropWhile isDec
  if ds = [] then (0, ⟨rest, true⟩)
  else if ofDigits ds > max then (max, ⟨rest, true⟩)
  else (if neg then (max + 1 - ofDigits ds) % (max + 1) else ofDigits ds, ⟨rest, false⟩)

/-- `stream >> n` for an unsigned type with largest value `max`; `old` is the value before.
Leading white space is skipped.  A stream that failed before, or is at its end, leaves the
value alone. -/
def readNum (max : Nat) (s : Stream) (old : Nat) : Nat × Stream :=
  if s.fail then (old, s)
  else
    match s.text.dropWhile isSpace with
    | [] => (old, ⟨[], true⟩)
    | c :: t =>
      if c = 45 then readDigits max true t
      else if c = 43 then readDigits max false t
      else readDigits max false (c :: t)

/-- `stream >> id` for an id type of `w` bytes; for `w = 1` the next character that is no
white space. -/
def readId (w : Nat) (s : Stream) (old : Nat) : Nat × Stream :=
  if w = 1 then
    if s.fail then (old, s)
    else
      match s.text.dropWhile isSpace with
      | [] => (old, ⟨[], true⟩)
      | c :: t => (c, ⟨t, false⟩)
  else readNum (idMax w) s old

/-- serialise.hpp:60-66: the loop of `input_vec`. -/
def inputLoop (w : Nat) : Nat → Stream → List Nat × Stream
  | 0, s => ([], s)
  | n + 1, s =>
    let (v, s) := readNum sizeMax s 0
    let (vs, s) := inputLoop w n s
    (v % (idMax w + 1) :: vs, s)

/-- serialise.hpp:52-67 `input_vec`.  Failure of `reserve` is not modelled. -/
def inputVec (w : Nat) (s : Stream) : List Nat × Stream :=
  let (num, s) := readNum sizeMax s 0
  inputLoop w num s

/-- serialise.hpp:125-129, 136-140: a vector of vectors. -/
def inputVecs (w : Nat) : Nat → Stream → List (List Nat) × Stream
  | 0, s => ([], s)
  | n + 1, s =>
    let (v, s) := inputVec w s
    let (vs, s) := inputVecs w n s
    (v :: vs, s)

/-- serialise.hpp:121-140: `load` after the header; `num` is the value of `num_`. -/
def loadBody (w : Nat) (num : Nat) (s : Stream) : Raw × Stream :=
  let (eoi, s) := readId w s 0
  let (num, s) := readNum sizeMax s num
  let (lookup, s) := inputVecs w num s
  let (alphabet, s) := inputVec w s
  let (features, s) := readId w s 0
  let (num, s) := readNum sizeMax s num
  let (dfa, s) := inputVecs w num s
  (⟨eoi, lookup, alphabet, features, dfa⟩, s)

/-- serialise.hpp:99-141 `load`: the machine afterwards, the stream, and whether it threw.
The machine before does not matter, it is cleared first. -/
def load (cw w : Nat) (s : Stream) (_old : Raw) : Raw × Stream × M Unit :=
  let (num, s) := readNum sizeMax s 0
  let (num, s) := readNum sizeMax s num
  if num ≠ cw then (Raw.cleared, s, .error (.throw "char_type mismatch in lexertl::load()."))
  else
    let (num, s) := readNum sizeMax s num
    if num ≠ w then (Raw.cleared, s, .error (.throw "id_type mismatch in lexertl::load()."))
    else ((loadBody w num s).1, (loadBody w num s).2, .ok ())

end Lexertl
