import Verif.Model.Basic

/-
Model of `utf_iterators.hpp`.

Bytes are naturals below 256 (`char` is taken as unsigned; the code masks with `0xff`,
`0xc0` or `0x3f` wherever it could matter), UTF-16 units are naturals below 65536, and
`char_type` of the decoders is wide enough for 21 bits (`char32_t`).  Iterators into the
range `[begin, end)` are positions in a list; reading at the end of the list, moving past
it or before its begin is undefined.  `++` may throw after it has changed the iterator, so
it gives the iterator after the call together with the outcome.
-/
namespace Lexertl

/-- utf_iterators.hpp:115-119 and 467-471: the members of the decoders, without `_eoi`,
which is the end of the list. -/
structure UtfIn where
  it : Nat
  «end» : Nat
  char : Nat := 0
  deriving DecidableEq, Repr

/-- utf_iterators.hpp:224-243 `len`. -/
def utf8Len (ch : Nat) : Nat :=
  if ch < 0x80 then 1
  else if ch &&& 0xe0 = 0xc0 then 2
  else if ch &&& 0xf0 = 0xe0 then 3
  else if ch &&& 0xf8 = 0xf0 then 4
  else 127

/-- utf_iterators.hpp:154-161 and the same lines in `next3`, `next4`: the byte at `_end`, if
there is one and it is a continuation byte. -/
def utf8Cont (inp : List Nat) (e : Nat) : M Nat :=
  if e = inp.length then .error (.throw "Truncated UTF-8")
  else
    match inp[e]? with
    | none => .error (.ub "*_end")
    | some b => if b &&& 0xc0 ≠ 0x80 then .error (.throw "Invalid UTF-8") else .ok b

/-- utf_iterators.hpp:152-165 `next2`: new `_end`, and outcome with the code point. -/
def utf8Next2 (inp : List Nat) (it ch : Nat) : Nat × M Nat :=
  match utf8Cont inp (it + 1) with
  | .error e => (it + 1, .error e)
  | .ok b => (it + 2, .ok ((ch <<< 6 &&& 0x7ff) ||| (b &&& 0x3f)))

/-- utf_iterators.hpp:167-189 `next3`. -/
def utf8Next3 (inp : List Nat) (it ch : Nat) : Nat × M Nat :=
  match utf8Cont inp (it + 1) with
  | .error e => (it + 1, .error e)
  | .ok b =>
    let ch := (ch <<< 12 &&& 0xffff) ||| ((b &&& 0xff) <<< 6 &&& 0xfff)
    match utf8Cont inp (it + 2) with
    | .error e => (it + 2, .error e)
    | .ok b => (it + 3, .ok (ch ||| (b &&& 0x3f)))

/-- utf_iterators.hpp:191-222 `next4`. -/
def utf8Next4 (inp : List Nat) (it ch : Nat) : Nat × M Nat :=
  match utf8Cont inp (it + 1) with
  | .error e => (it + 1, .error e)
  | .ok b =>
    let ch := (ch <<< 18 &&& 0x1fffff) ||| ((b &&& 0xff) <<< 12 &&& 0x3ffff)
    match utf8Cont inp (it + 2) with
    | .error e => (it + 2, .error e)
    | .ok b =>
      let ch := ch ||| ((b &&& 0xff) <<< 6 &&& 0xfff)
      match utf8Cont inp (it + 3) with
      | .error e => (it + 3, .error e)
      | .ok b => (it + 4, .ok (ch ||| (b &&& 0x3f)))

/-- utf_iterators.hpp:121-150 `next` of `basic_utf8_in_iterator`. -/
def utf8Next (inp : List Nat) (s : UtfIn) : UtfIn × M Unit :=
  if s.it = inp.length then (s, .ok ())
  else
    match inp[s.it]? with
    | none => (s, .error (.ub "*_it"))
    | some b =>
      let ch := b &&& 0xff
      let (e, r) : Nat × M Nat :=
        match utf8Len b with
        | 1 => (s.it + 1, .ok ch)
        | 2 => utf8Next2 inp s.it ch
        | 3 => utf8Next3 inp s.it ch
        | 4 => utf8Next4 inp s.it ch
        | _ => (s.end, .error (.throw "Invalid UTF-8"))
      match r with
      | .ok ch => ({ s with «end» := e, char := ch }, .ok ())
      | .error f => ({ s with «end» := e }, .error f)

/-- utf_iterators.hpp:473-502 `next` of `basic_utf16_in_iterator`. -/
def utf16Next (inp : List Nat) (s : UtfIn) : UtfIn × M Unit :=
  if s.it = inp.length then (s, .ok ())
  else
    match inp[s.it]? with
    | none => (s, .error (.ub "*_it"))
    | some u =>
      if u < 0xd800 ∨ u > 0xdfff then ({ s with char := u, «end» := s.it + 1 }, .ok ())
      else if u > 0xdbff then (s, .error (.throw "Invalid UTF-16"))
      else
        let ch := (u - 0xd800) <<< 10
        if s.it + 1 = inp.length then ({ s with «end» := s.it + 1 }, .error (.throw "Truncated UTF-16"))
        else
          match inp[s.it + 1]? with
          | none => ({ s with «end» := s.it + 1 }, .error (.ub "*_end"))
          | some v =>
            if v < 0xdc00 ∨ v > 0xdfff then ({ s with «end» := s.it + 1 }, .error (.throw "Invalid UTF-16"))
            else ({ s with char := (ch ||| (v - 0xdc00)) + 0x10000, «end» := s.it + 2 }, .ok ())

/-- utf_iterators.hpp:32-39, 395-402: the constructors, given `next`; `p` is the position
`it_`. -/
def UtfIn.new (next : UtfIn → UtfIn × M Unit) (p : Nat) : UtfIn × M Unit := next ⟨p, p, 0⟩

/-- utf_iterators.hpp:64-69, 421-426: `++`. -/
def UtfIn.inc (next : UtfIn → UtfIn × M Unit) (s : UtfIn) : UtfIn × M Unit := next { s with it := s.end }

/-- utf_iterators.hpp:80-91, 437-448: `+`. -/
def UtfIn.plus (next : UtfIn → UtfIn × M Unit) : Nat → UtfIn → M UtfIn
  | 0, s => .ok s
  | n + 1, s => do
    (s.inc next).2
    UtfIn.plus next n (s.inc next).1

/-- utf_iterators.hpp:103: back to a byte that is not a continuation byte; `p` is `_it`. -/
def utf8Back (inp : List Nat) : Nat → M Nat
  | 0 =>
    match inp[0]? with
    | none => .error (.ub "*_it")
    | some b => if b &&& 0xc0 = 0x80 then .error (.ub "--_it") else .ok 0
  | p + 1 =>
    match inp[p + 1]? with
    | none => .error (.ub "*_it")
    | some b => if b &&& 0xc0 = 0x80 then utf8Back inp p else .ok (p + 1)

/-- utf_iterators.hpp:93-108: the loop of `-` of `basic_utf8_in_iterator`. -/
def utf8MinusLoop (inp : List Nat) : Nat → UtfIn → M UtfIn
  | 0, s => .ok s
  | n + 1, s =>
    match s.it with
    | 0 => .error (.ub "--_it")
    | p + 1 => do
      let q ← utf8Back inp p
      utf8MinusLoop inp n { s with it := q, «end» := s.it }

/-- utf_iterators.hpp:93-108 `-` of `basic_utf8_in_iterator`. -/
def utf8Minus (inp : List Nat) (n : Nat) (s : UtfIn) : M UtfIn := do
  let s ← utf8MinusLoop inp n s
  (utf8Next inp s).2
  .ok (utf8Next inp s).1

/-- utf_iterators.hpp:450-465: the loop of `-` of `basic_utf16_in_iterator`. -/
def utf16MinusLoop (inp : List Nat) : Nat → UtfIn → M UtfIn
  | 0, s => .ok s
  | n + 1, s =>
    match s.it with
    | 0 => .error (.ub "--_it")
    | p + 1 =>
      match inp[p]? with
      | none => .error (.ub "*_it")
      | some u =>
        if 0xdc00 ≤ u ∧ u ≤ 0xdfff then
          match p with
          | 0 => .error (.ub "--_it")
          | q + 1 => utf16MinusLoop inp n { s with it := q, «end» := s.it }
        else utf16MinusLoop inp n { s with it := p, «end» := s.it }

/-- utf_iterators.hpp:450-465 `-` of `basic_utf16_in_iterator`. -/
def utf16Minus (inp : List Nat) (n : Nat) (s : UtfIn) : M UtfIn := do
  let s ← utf16MinusLoop inp n s
  (utf16Next inp s).2
  .ok (utf16Next inp s).1

/-- What the encoders use of the iterator they read from: `*`, `++` and the comparison
with the end (`==` of the decoders and of pointers compares positions). -/
structure CharIter (σ : Type) where
  val : σ → M Nat
  inc : σ → σ × M Unit
  atEnd : σ → Bool

/-- Pointers into a list of code points. -/
def pointers (cps : List Nat) : CharIter Nat where
  val p := match cps[p]? with
    | some c => .ok c
    | none => .error (.ub "*_it")
  inc p := (p + 1, if p < cps.length then .ok () else .error (.ub "++_it"))
  atEnd p := p == cps.length

/-- A decoder as an iterator to read from: `*` gives `_char`. -/
def decoder (inp : List Nat) (next : UtfIn → UtfIn × M Unit) : CharIter UtfIn where
  val s := .ok s.char
  inc s := s.inc next
  atEnd s := s.it == inp.length

/-- utf_iterators.hpp:323-328, 584-589: the members of the encoders, without `_eoi`. -/
structure UtfOut (σ : Type) where
  it : σ
  units : List Nat := []
  count : Nat := 0
  index : Nat := 0

/-- utf_iterators.hpp:330-363 `next` of `basic_utf8_out_iterator`, 365-377 `len`: the bytes;
a byte is the low 8 bits. -/
def utf8Bytes (ch : Nat) : List Nat :=
  if ch < 0x80 then [ch % 256]
  else if ch < 0x800 then [((ch >>> 6) ||| 0xc0) % 256, ((ch &&& 0x3f) ||| 0x80) % 256]
  else if ch < 0x10000 then
    [((ch >>> 12) ||| 0xe0) % 256, (((ch >>> 6) &&& 0x3f) ||| 0x80) % 256, ((ch &&& 0x3f) ||| 0x80) % 256]
  else
    [((ch >>> 18) ||| 0xf0) % 256, (((ch >>> 12) &&& 0x3f) ||| 0x80) % 256,
     (((ch >>> 6) &&& 0x3f) ||| 0x80) % 256, ((ch &&& 0x3f) ||| 0x80) % 256]

/-- utf_iterators.hpp:591-614 `next` of `basic_utf16_out_iterator`, 616-619 `len`: the units,
16 bits each. -/
def utf16Units (ch : Nat) : List Nat :=
  if ch > 0xffff then [(((ch - 0x10000) >>> 10) + 0xd800) % 65536, ((ch &&& 0x3ff) + 0xdc00) % 65536]
  else [ch % 65536]

variable {σ : Type}

/-- utf_iterators.hpp:330-338, 591-599: `next`, given the units of a code point. -/
def UtfOut.next (I : CharIter σ) (enc : Nat → List Nat) (s : UtfOut σ) : M (UtfOut σ) :=
  if I.atEnd s.it then .ok s
  else do
    let ch ← I.val s.it
    .ok { s with units := enc ch, count := (enc ch).length, index := 0 }

/-- utf_iterators.hpp:270-276, 531-537: the constructors. -/
def UtfOut.new (I : CharIter σ) (enc : Nat → List Nat) (p : σ) : M (UtfOut σ) := UtfOut.next I enc ⟨p, [], 0, 0⟩

/-- utf_iterators.hpp:278-281, 539-542: `*`. -/
def UtfOut.val (s : UtfOut σ) : M Nat :=
  match s.units[s.index]? with
  | some u => .ok u
  | none => .error (.ub "_bytes[_index]")

/-- utf_iterators.hpp:295-306, 556-567: `++`. -/
def UtfOut.inc (I : CharIter σ) (enc : Nat → List Nat) (s : UtfOut σ) : M (UtfOut σ) :=
  if s.index + 1 ≥ s.count then do
    (I.inc s.it).2
    UtfOut.next I enc { s with it := (I.inc s.it).1, index := s.index + 1 }
  else .ok { s with index := s.index + 1 }

/-- `for (; it_ != end_; ++it_) out_.push_back(*it_);` for a decoder; `n` bounds the number
of rounds. -/
def UtfIn.collect (inp : List Nat) (next : UtfIn → UtfIn × M Unit) : Nat → UtfIn → M (List Nat)
  | 0, _ => .error .fuel
  | n + 1, s =>
    if s.it = inp.length then .ok []
    else do
      (s.inc next).2
      let out ← UtfIn.collect inp next n (s.inc next).1
      .ok (s.char :: out)

/-- The code points a decoder gives for the whole of `inp`. -/
def UtfIn.all (inp : List Nat) (next : UtfIn → UtfIn × M Unit) : M (List Nat) := do
  (UtfIn.new next 0).2
  UtfIn.collect inp next (inp.length + 1) (UtfIn.new next 0).1

/-- The same loop for an encoder. -/
def UtfOut.collect (I : CharIter σ) (enc : Nat → List Nat) : Nat → UtfOut σ → M (List Nat)
  | 0, _ => .error .fuel
  | n + 1, s =>
    if I.atEnd s.it then .ok []
    else do
      let u ← s.val
      let s ← s.inc I enc
      let out ← UtfOut.collect I enc n s
      .ok (u :: out)

/-- The units an encoder gives, reading from `p` on. -/
def UtfOut.all (I : CharIter σ) (enc : Nat → List Nat) (n : Nat) (p : σ) : M (List Nat) := do
  let s ← UtfOut.new I enc p
  UtfOut.collect I enc n s

/-- utf_iterators.hpp:643-655: the loop of `*` of `basic_flip_iterator` on the bytes of the
value; `first` and `second` are the two pointers. -/
def flipLoop : Nat → Nat → Nat → List Nat → M (List Nat)
  | 0, _, _, _ => .error .fuel
  | n + 1, first, second, bytes =>
    if first < second then
      match bytes[first]?, bytes[second]? with
      | some a, some b => flipLoop n (first + 1) (second - 1) ((bytes.set first b).set second a)
      | _, _ => .error (.ub "*first_, *second_")
    else .ok bytes

/-- The bytes of a value in memory (little endian), `w` of them. -/
def bytesOf : Nat → Nat → List Nat
  | 0, _ => []
  | w + 1, v => v % 256 :: bytesOf w (v / 256)

/-- The value of bytes in memory. -/
def ofBytes : List Nat → Nat
  | [] => 0
  | b :: bs => b + 256 * ofBytes bs

/-- utf_iterators.hpp:643-655 `*` of `basic_flip_iterator` for values of `w` bytes. -/
def flip (w v : Nat) : M Nat := do
  let bytes ← flipLoop (w + 1) 0 (w - 1) (bytesOf w v)
  .ok (ofBytes bytes)

end Lexertl
